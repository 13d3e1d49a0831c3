import Verif.Spec.Formulas
import Verif.Props.Trends
import Verif.Props.RealModels
import Verif.Props.PointByPoint
import Verif.Props.ReadyDummies

/-
C103: the ready-made models compute the formulas of the documentation. The documented formula and number of parameters of `model_decay` are not those of the
code, `model_season_wday_2` has one parameter instead of two, and a dummy in a product is `A + 1` on the flagged dates instead of `A`.
-/
namespace Anticipy
open Spec

variable {K : Type}

/-- From the values for literal parameter lists to `Computes`. -/
theorem computes_of_map (m : ForecastModel K) (n : Nat) (dom : List K → K → Prop) (formula g : List K → K → Option K) (hn : m.nParams = n)
    (hm : ∀ p : List K, p.length = n → ∀ ctx : Ctx K, m.fModel ctx (some p) false = .ok (.vec (ctx.ax.map (g p))))
    (hg : ∀ p : List K, p.length = n → ∀ x, dom p x → g p x = formula p x) : Computes m n dom formula := by
  refine ⟨hn, fun p hp ctx => ⟨_, hm p hp ctx, by simp [Shaped], ?_⟩⟩
  intro i x hx hd
  simp [valueAt, hx, hg p hp x hd]

variable [Field K] [LinearOrder K] [IsStrictOrderedRing K]

/-- **C103, trends.** `model_null`, `model_constant`, `model_linear`, `model_linear_nondec`, `model_ramp`, `model_step` and `model_two_steps` have the documented
number of parameters and compute the documented formulas. -/
theorem C103_trends :
    Computes (modelNull : ForecastModel K) 0 everywhere docNull ∧ Computes (modelConstant : ForecastModel K) 1 everywhere docConstant ∧
    Computes (modelLinear : ForecastModel K) 2 everywhere docLinear ∧ Computes (modelLinearNondec : ForecastModel K) 2 everywhere docLinear ∧
    Computes (modelRamp : ForecastModel K) 2 everywhere docRamp ∧ Computes (modelStep : ForecastModel K) 2 everywhere docStep ∧
    Computes (modelTwoSteps : ForecastModel K) 4 everywhere docTwoSteps := by
  refine ⟨?_, ?_, ?_, ?_, ?_, ?_, ?_⟩
  · refine ⟨rfl, fun p hp ctx => ⟨.scalar (some 0), ?_, trivial, fun _ _ _ _ => rfl⟩⟩
    simp [modelNull, mkModel]
  · apply computes_of_map _ _ _ _ docConstant rfl ?_ (fun _ _ _ _ => rfl)
    intro p hp ctx
    obtain ⟨a, rfl⟩ := List.length_eq_one_iff.1 hp
    change fModelConstant ctx (some [a]) false = _
    have : docConstant [a] = fun _ => some a := rfl
    simp [fModelConstant, unpack1, vecOf, bind, Except.bind, this, Function.comp_def, List.map_const']
  · apply computes_of_map _ _ _ _ docLinear rfl ?_ (fun _ _ _ _ => rfl)
    intro p hp ctx
    obtain ⟨a, b, rfl⟩ := List.length_eq_two.1 hp
    change fModelLinear ctx (some [a, b]) false = _
    simp [fModelLinear, unpack2, vecOf, bind, Except.bind, docLinear, Function.comp_def]
  · apply computes_of_map _ _ _ _ docLinear rfl ?_ (fun _ _ _ _ => rfl)
    intro p hp ctx
    obtain ⟨a, b, rfl⟩ := List.length_eq_two.1 hp
    change fModelLinear ctx (some [a, b]) false = _
    simp [fModelLinear, unpack2, vecOf, bind, Except.bind, docLinear, Function.comp_def]
  · apply computes_of_map _ _ _ _ docRamp rfl ?_ (fun _ _ _ _ => rfl)
    intro p hp ctx
    obtain ⟨a, b, rfl⟩ := List.length_eq_two.1 hp
    rw [(C09_ramp a b ctx).1]
    congr 2
    apply List.map_congr_left
    intro x _
    by_cases h : x ≤ a
    · simp [docRamp, h, not_lt.2 h]
    · simp [docRamp, h, not_le.1 h, mul_comm]
  · apply computes_of_map _ _ _ _ docStep rfl ?_ (fun _ _ _ _ => rfl)
    intro p hp ctx
    obtain ⟨a, b, rfl⟩ := List.length_eq_two.1 hp
    rw [(C09_step a b ctx).1]
    rfl
  · apply computes_of_map _ _ _ _ docTwoSteps rfl ?_ (fun _ _ _ _ => rfl)
    intro p hp ctx
    match p, hp with
    | [a, b, c, d], _ =>
      rw [(C09_two_steps a b c d ctx).1]
      rfl

theorem npPower_exists (a b : ℝ) (h : PowerExists a b) : npPower a b = some (a ^ b) := by
  unfold npPower
  rw [if_neg]
  rintro (⟨h1, h2⟩ | ⟨h1, h2⟩)
  · rcases h with h | ⟨h, -⟩ | ⟨-, h⟩
    · linarith
    · linarith
    · exact h2 h
  · rcases h with h | ⟨-, h⟩ | ⟨h, -⟩ <;> linarith

/-- **C103, powers.** `model_quasilinear` and `model_exp` compute the documented formulas wherever the power is a real number, `model_sigmoid` and
`model_sigmoid_step` theirs everywhere (with lower level 0); the numbers of parameters are the documented ones. -/
theorem C103_powers_partial :
    Computes modelQuasilinear 3 (fun p x => PowerExists x (p.getD 1 0)) docQuasilinear ∧
    Computes modelExp 2 (fun p x => PowerExists (p.getD 1 0) x) docExp ∧
    Computes modelSigmoid 3 everywhere docSigmoid ∧ Computes modelSigmoidStep 3 everywhere docSigmoid := by
  have hs : ∀ (p : List ℝ), p.length = 3 → ∀ ctx : Ctx ℝ, fSigmoid ctx (some p) false = .ok (.vec (ctx.ax.map (docSigmoid p))) := by
    intro p hp ctx
    obtain ⟨a, b, c, rfl⟩ := List.length_eq_three.1 hp
    simp [fSigmoid, unpack3, vecOf, bind, Except.bind, docSigmoid, Function.comp_def]
  refine ⟨?_, ?_, ?_, ?_⟩
  · apply computes_of_map _ _ _ _ (fun p x => (npPower x (p.getD 1 0)).map fun v => p.getD 0 0 * v + p.getD 2 0) rfl
    · intro p hp ctx
      obtain ⟨a, b, c, rfl⟩ := List.length_eq_three.1 hp
      change fModelQuasilinear ctx (some [a, b, c]) false = _
      simp [fModelQuasilinear, unpack3, bind, Except.bind]
    · intro p hp x hx
      obtain ⟨a, b, c, rfl⟩ := List.length_eq_three.1 hp
      rw [npPower_exists _ _ hx]
      rfl
  · apply computes_of_map _ _ _ _ (fun p x => (npPower (p.getD 1 0) x).map fun v => p.getD 0 0 * v) rfl
    · intro p hp ctx
      obtain ⟨a, b, rfl⟩ := List.length_eq_two.1 hp
      change fModelExp ctx (some [a, b]) false = _
      simp [fModelExp, unpack2, bind, Except.bind]
    · intro p hp x hx
      obtain ⟨a, b, rfl⟩ := List.length_eq_two.1 hp
      rw [npPower_exists _ _ hx]
      rfl
  · exact computes_of_map _ _ _ _ docSigmoid rfl hs (fun _ _ _ _ => rfl)
  · exact computes_of_map _ _ _ _ docSigmoid rfl hs (fun _ _ _ _ => rfl)

/-- **C103, consequences.** With a positive base the exponential model grows by the same factor per unit of x; the quasilinear model has the value `C` at 0 and
`A + C` at 1 (for a positive exponent). -/
theorem C103_growth (a b c x : ℝ) (hb : 0 < b) :
    (∃ y y', modelExp.fModel { ax := [x, x + 1], adate := none } (some [a, b]) false = .ok (.vec [some y, some y']) ∧ y' = b * y) ∧
    modelQuasilinear.fModel { ax := [0, 1], adate := none } (some [a, b, c]) false = .ok (.vec [some c, some (a + c)]) := by
  have e1 : ∀ t, npPower b t = some (b ^ t) := fun t => npPower_exists _ _ (.inl hb)
  have e2 : npPower 0 b = some 0 := by rw [npPower_exists _ _ (.inr (.inl ⟨rfl, hb.le⟩)), Real.zero_rpow hb.ne']
  have e3 : npPower 1 b = some 1 := by rw [npPower_exists _ _ (.inl one_pos), Real.one_rpow]
  refine ⟨⟨a * b ^ x, a * b ^ (x + 1), ?_, ?_⟩, ?_⟩
  · change fModelExp _ (some [a, b]) false = _
    simp [fModelExp, unpack2, bind, Except.bind, e1]
  · rw [Real.rpow_add hb, Real.rpow_one]
    ring
  · change fModelQuasilinear _ (some [a, b, c]) false = _
    simp [fModelQuasilinear, unpack3, bind, Except.bind, e2, e3]

/-- **C103, decay.** `model_decay` has three parameters: `A * e^(B*x) + D`. The curves are the same as the documented ones. -/
theorem C103_decay_partial :
    Computes modelDecay 3 everywhere (fun p x => docDecay [p.getD 0 0, p.getD 1 0, 0, p.getD 2 0] x) ∧
    ∀ p : List ℝ, p.length = 4 → ∃ q : List ℝ, q.length = 3 ∧ ∀ ctx : Ctx ℝ, modelDecay.fModel ctx (some q) false = .ok (.vec (ctx.ax.map (docDecay p))) := by
  have key : ∀ (a b d : ℝ) (ctx : Ctx ℝ), modelDecay.fModel ctx (some [a, b, d]) false = .ok (.vec (ctx.ax.map fun x => some (a * Real.exp (b * x) + d))) := by
    intro a b d ctx
    change fModelDecay ctx (some [a, b, d]) false = _
    simp [fModelDecay, unpack3, vecOf, bind, Except.bind, Function.comp_def]
  constructor
  · apply computes_of_map _ _ _ _ (fun p x => docDecay [p.getD 0 0, p.getD 1 0, 0, p.getD 2 0] x) rfl ?_ (fun _ _ _ _ => rfl)
    intro p hp ctx
    obtain ⟨a, b, c, rfl⟩ := List.length_eq_three.1 hp
    rw [key]
    simp [docDecay]
  · intro p hp
    match p, hp with
    | [a, b, c, d], _ =>
      refine ⟨[a * Real.exp (-(b * c)), b, d], rfl, fun ctx => ?_⟩
      rw [key]
      congr 2
      apply List.map_congr_left
      intro x _
      simp only [docDecay, Option.some.injEq, mul_assoc, ← Real.exp_add]
      ring_nf

/-- **C103, disagreement.** `model_decay` does not accept the documented four parameters; `model_season_wday_2` is documented with two parameters and has one;
a power of a negative number with a fractional exponent has no value. -/
theorem C103_counterexample :
    (∀ (ctx : Ctx ℝ) (a b c d : ℝ), modelDecay.fModel ctx (some [a, b, c, d]) false = .error .valueError) ∧ ¬ Computes modelDecay 4 everywhere docDecay ∧
    (∀ m : ForecastModel ℚ, modelSeasonWday2 = .ok m → m.nParams ≠ 2) ∧
    modelQuasilinear.fModel { ax := [-1], adate := none } (some [1, 1 / 2, 0]) false = .ok (.vec [none]) := by
  refine ⟨fun _ _ _ _ _ => rfl, fun h => absurd h.1 (by simp [modelDecay, mkModel]), ?_, ?_⟩
  · intro m hm
    obtain ⟨m', e, h1, -⟩ := C72_working_days (K := ℚ) weekdayOfDay (by unfold Spec.IsWeek weekdayOfDay; exact ⟨rfl, fun z => by split_ifs <;> omega, fun z => by omega⟩)
    rw [e] at hm
    cases hm
    omega
  · have : npPower (-1) (1 / 2) = none := by
      unfold npPower
      rw [if_pos]
      refine .inl ⟨by norm_num, ?_⟩
      rintro ⟨n, hn⟩
      have h2 : (1 : ℝ) = ((2 * n : ℤ) : ℝ) := by push_cast; linarith
      have h3 : (1 : ℤ) = 2 * n := by exact_mod_cast h2
      omega
    change fModelQuasilinear _ (some [1, 1 / 2, 0]) false = _
    simp only [fModelQuasilinear, unpack3, bind, Except.bind, List.map_cons, List.map_nil, this, Option.map_none]

/-- **C103, disagreement, dummies.** According to its documentation a dummy model "returns A when dummy is 1, and 0 (or 1 if is_mult==True) otherwise". As a
factor it returns `A + 1` when the dummy is 1. -/
theorem C103_counterexample_dummy : ∃ m : ForecastModel ℚ, modelDummyChristmas = .ok m ∧
    m.fModel { ax := [0], adate := some [18621 * DAY] } (some [3]) true = .ok (.vec [some 4]) ∧ (civilOfDay 18621).2 = (12, 25) := by
  refine ⟨_, rfl, ?_, ?_⟩ <;> decide +kernel

/-- Values at concrete points. -/
example : (modelRamp : ForecastModel ℚ).fModel { ax := [0, 1, 3], adate := none } (some [1, 5]) false = .ok (.vec [some 0, some 0, some 10]) := by decide +kernel

end Anticipy
