import Verif.Model.ZooReal
import Verif.Spec.Expr
import Mathlib.Analysis.SpecialFunctions.Exp
import Mathlib.Tactic.Linarith
import Mathlib.Tactic.Positivity
import Mathlib.Tactic.FieldSimp
import Mathlib.Tactic.NormNum

/-
C11 (decay), C12 (logistic), C13 (Fourier): real-valued models.
-/
namespace Anticipy
open Spec Filter Topology

/-! ### C11 -/

/-- **C11** With parameters inside the declared bounds, the decay model is a function of x that never moves away from its
asymptote `D`, never crosses it, and reaches every neighbourhood of it if `B < 0`. -/
theorem C11_decay (a b d : ℝ) (args : InitArgs ℝ) (bd : Bounds ℝ) (hbd : modelDecay.fBounds args = .ok bd)
    (hin : WithinBounds modelDecay.nParams [.fin a, .fin b, .fin d] bd) :
    ∃ f : ℝ → ℝ,
      (∀ ctx mode, modelDecay.fModel ctx (some [a, b, d]) mode = .ok (.vec (ctx.ax.map fun x => some (f x)))) ∧
      (∀ x, f x = a * Real.exp (b * x) + d) ∧
      (∀ x x', x ≤ x' → |f x' - d| ≤ |f x - d|) ∧
      (∀ x, (0 < a → d < f x) ∧ (a < 0 → f x < d) ∧ (a = 0 → f x = d)) ∧
      (b < 0 → Tendsto f atTop (𝓝 d)) := by
  have hb : b ≤ 0 := by
    cases hbd
    have := (hin.2.2.2 1 (by simp) (by simp) (by simp)).2
    simpa [Ext.le] using this
  refine ⟨fun x => a * Real.exp (b * x) + d, ?_, fun _ => rfl, ?_, ?_, ?_⟩
  · intro ctx mode
    simp only [modelDecay, mkModel, fModelDecay, unpack3, Bind.bind, Except.bind, vecOf, List.map_map]
    rfl
  · intro x x' h
    simp only [add_sub_cancel_right, abs_mul, abs_of_pos (Real.exp_pos _)]
    apply mul_le_mul_of_nonneg_left _ (abs_nonneg a)
    exact Real.exp_le_exp.2 (mul_le_mul_of_nonpos_left h hb)
  · intro x
    have := Real.exp_pos (b * x)
    refine ⟨fun h => ?_, fun h => ?_, fun h => ?_⟩
    · have := mul_pos h this; show d < _; linarith
    · have := mul_neg_of_neg_of_pos h this; show _ < d; linarith
    · simp [h]
  · intro hb'
    have h1 : Tendsto (fun x : ℝ => b * x) atTop atBot := by
      exact (tendsto_const_mul_atBot_of_neg hb').2 tendsto_id
    have h2 : Tendsto (fun x : ℝ => Real.exp (b * x)) atTop (𝓝 0) := Real.tendsto_exp_atBot.comp h1
    have h3 := (h2.const_mul a).add_const d
    simpa using h3

/-- Bounds admit `B = -1/2`. -/
example : ∃ bd, modelDecay.fBounds ⟨none, none, none⟩ = .ok bd ∧
    WithinBounds modelDecay.nParams [.fin 3, .fin (-1/2), .fin 10] bd := by
  refine ⟨_, rfl, rfl, rfl, rfl, ?_⟩
  intro i hg hl hh
  have : i = 0 ∨ i = 1 ∨ i = 2 := by simp at hg; omega
  rcases this with rfl | rfl | rfl <;> simp [Ext.le] <;> norm_num

/-! ### C12 -/

/-- **C12** The logistic models are functions of x that lie strictly between the neutral level and the step level `B` (when
these differ), are exactly half-way at the step position, and - with the steepness inside the declared bounds of
`model_sigmoid_step` - move monotonically towards `B`, arbitrarily close if the steepness is positive. -/
theorem C12_sigmoid (b c d : ℝ) (mode : Bool) :
    let a : ℝ := if mode then 1 else 0
    ∃ f : ℝ → ℝ,
      (∀ m ∈ [modelSigmoid, modelSigmoidStep], m.nParams = 3 ∧
        ∀ ctx, m.fModel ctx (some [b, c, d]) mode = .ok (.vec (ctx.ax.map fun x => some (f x)))) ∧
      (a ≠ b → ∀ x, min a b < f x ∧ f x < max a b) ∧
      f c = (a + b) / 2 ∧
      (∀ args bd, modelSigmoidStep.fBounds args = .ok bd → WithinBounds 3 [.fin b, .fin c, .fin d] bd →
        (∀ x x', x ≤ x' → |b - f x'| ≤ |b - f x|) ∧ (a ≤ b → Monotone f) ∧ (b ≤ a → Antitone f)) ∧
      (0 < d → Tendsto f atTop (𝓝 b)) := by
  intro a
  have hden : ∀ x, 0 < 1 + Real.exp (-d * (x - c)) := fun x => by have := Real.exp_pos (-d * (x - c)); linarith
  refine ⟨fun x => a + (b - a) / (1 + Real.exp (-d * (x - c))), ?_, ?_, ?_, ?_, ?_⟩
  · intro m hm
    simp only [List.mem_cons, List.not_mem_nil, or_false] at hm
    rcases hm with rfl | rfl <;> refine ⟨rfl, fun ctx => ?_⟩ <;>
      simp only [modelSigmoid, modelSigmoidStep, mkModel, fSigmoid, unpack3, Bind.bind, Except.bind, vecOf, List.map_map] <;> rfl
  · intro hab x
    have hd := hden x
    have he := Real.exp_pos (-d * (x - c))
    have key : a + (b - a) / (1 + Real.exp (-d * (x - c))) - a = (b - a) / (1 + Real.exp (-d * (x - c))) := by ring
    have key2 : b - (a + (b - a) / (1 + Real.exp (-d * (x - c)))) =
        (b - a) * (Real.exp (-d * (x - c)) / (1 + Real.exp (-d * (x - c)))) := by
      field_simp; ring
    have hq : 0 < Real.exp (-d * (x - c)) / (1 + Real.exp (-d * (x - c))) := div_pos he hd
    rcases lt_or_gt_of_ne hab with h | h
    · rw [min_eq_left h.le, max_eq_right h.le]
      constructor
      · have := div_pos (sub_pos.2 h) hd; linarith
      · have := mul_pos (sub_pos.2 h) hq; linarith
    · rw [min_eq_right (le_of_lt h), max_eq_left (le_of_lt h)]
      have hneg : b - a < 0 := by linarith
      constructor
      · have := mul_neg_of_neg_of_pos hneg hq; linarith
      · have := div_neg_of_neg_of_pos hneg hd; linarith
  · simp only [sub_self, mul_zero, Real.exp_zero]; ring
  · intro args bd hbd hin
    have hd0 : 0 ≤ d := by
      have h3 := (hin.2.2.2 2 (by simp) (by have := hin.2.1; omega) (by have := hin.2.2.1; omega)).1
      simp only [modelSigmoidStep, mkModel, fBoundsSigmoidStep] at hbd
      split at hbd
      · cases hbd; simpa [Ext.le] using h3
      · split at hbd
        · simp at hbd
        · split at hbd
          · cases hbd; simpa [Ext.le] using h3
          · simp at hbd
    have hexp : ∀ x x', x ≤ x' → Real.exp (-d * (x' - c)) ≤ Real.exp (-d * (x - c)) := by
      intro x x' h
      apply Real.exp_le_exp.2
      have := mul_le_mul_of_nonneg_left h hd0
      nlinarith
    have hinv : ∀ x x', x ≤ x' → 1 / (1 + Real.exp (-d * (x - c))) ≤ 1 / (1 + Real.exp (-d * (x' - c))) := by
      intro x x' h
      exact one_div_le_one_div_of_le (hden x') (by have := hexp x x' h; linarith)
    have hle1 : ∀ x, 1 / (1 + Real.exp (-d * (x - c))) ≤ 1 := by
      intro x
      rw [div_le_one (hden x)]
      have := Real.exp_pos (-d * (x - c)); linarith
    refine ⟨?_, ?_, ?_⟩
    · intro x x' h
      have e : ∀ x, b - (a + (b - a) / (1 + Real.exp (-d * (x - c)))) =
          (b - a) * (1 - 1 / (1 + Real.exp (-d * (x - c)))) := by intro x; ring
      simp only [e, abs_mul]
      apply mul_le_mul_of_nonneg_left _ (abs_nonneg _)
      rw [abs_of_nonneg (by have := hle1 x'; linarith), abs_of_nonneg (by have := hle1 x; linarith)]
      have := hinv x x' h; linarith
    · intro hab x x' h
      have := mul_le_mul_of_nonneg_left (hinv x x' h) (sub_nonneg.2 hab)
      simp only [mul_one_div] at this
      show a + _ ≤ a + _
      linarith
    · intro hab x x' h
      have := mul_le_mul_of_nonneg_left (hinv x x' h) (sub_nonneg.2 hab)
      simp only [mul_one_div] at this
      have e : ∀ x, (a - b) / (1 + Real.exp (-d * (x - c))) = -((b - a) / (1 + Real.exp (-d * (x - c)))) := by
        intro x; ring
      rw [e, e] at this
      show a + _ ≤ a + _
      linarith
  · intro hd
    have h1 : Tendsto (fun x : ℝ => -d * (x - c)) atTop atBot := by
      apply (tendsto_const_mul_atBot_of_neg (by linarith : -d < 0)).2
      exact tendsto_atTop_add_const_right _ _ tendsto_id
    have h2 : Tendsto (fun x : ℝ => Real.exp (-d * (x - c))) atTop (𝓝 0) := Real.tendsto_exp_atBot.comp h1
    have h3 : Tendsto (fun x : ℝ => 1 + Real.exp (-d * (x - c))) atTop (𝓝 (1 + 0)) := h2.const_add 1
    have h4 := ((tendsto_const_nhds (x := b - a)).div h3 (by norm_num)).const_add a
    simpa using h4

/-- Parameters (5, 1, 2) are inside the bounds derived from data 0..4 on x = 0..2. -/
example : ∃ bd, modelSigmoidStep.fBounds ⟨none, none, none⟩ = .ok bd ∧
    WithinBounds 3 [.fin (5 : ℝ), .fin 1, .fin 2] bd := by
  refine ⟨_, rfl, rfl, rfl, rfl, ?_⟩
  intro i hg hl hh
  have : i = 0 ∨ i = 1 ∨ i = 2 := by simp at hg; omega
  rcases this with rfl | rfl | rfl <;> simp [Ext.le]

/-! ### C13 -/

/-- The twenty basis functions at a date: ten sines, ten cosines. -/
noncomputable def fourierBasis (d : Timestamp) : List ℝ :=
  ((List.range 10).map fun i : ℕ => Real.sin (2 * Real.pi / (1461 / 4) * ((i : ℝ) + 1) * ((dayOf d : ℤ) : ℝ))) ++
  ((List.range 10).map fun i : ℕ => Real.cos (2 * Real.pi / (1461 / 4) * ((i : ℝ) + 1) * ((dayOf d : ℤ) : ℝ)))

theorem fourier_eval (p : List ℝ) (hp : p.length = 20) (ax : List ℝ) (ds : List Timestamp) (mode : Bool) :
    modelFourier.fModel { ax := ax, adate := some ds } (some p) mode =
      .ok (.vec (ds.map fun d => some (List.zipWith (· * ·) p (fourierBasis d)).sum)) := by
  simp only [modelFourier, mkModel, fModelFourier, cacheFourier, Bind.bind, Except.bind, vecOf]
  rw [if_neg (by simp [hp, fourierHarmonics])]
  congr 2
  rw [List.map_map]
  have hlen : ∀ R : List (List ℝ), (∀ r ∈ R, r.length = ds.length) → R ≠ [] → (R.headD []).length = ds.length := by
    intro R hR hne
    cases R with
    | nil => exact absurd rfl hne
    | cons r R => exact hR r (by simp)
  rw [hlen]
  rotate_left
  · intro r hr
    simp only [List.mem_append, List.mem_map] at hr
    rcases hr with ⟨i, _, rfl⟩ | ⟨i, _, rfl⟩ <;> simp
  · simp [fourierHarmonics, List.range_succ]
  apply List.ext_getElem (by simp)
  intro j h1 h2
  simp only [List.getElem_map, List.getElem_range, Function.comp, matmulCol, fourierBasis]
  congr 2
  have hj : j < ds.length := by simpa using h2
  apply List.ext_getElem
  · simp [fourierHarmonics]
  · intro k hk1 hk2
    simp only [List.getElem_zipWith]
    congr 1
    simp only [List.getElem_append, List.length_map, List.length_range, fourierHarmonics, List.getElem_map,
      List.getElem_range]
    split <;> simp [hj, fourierK, fourierT]

theorem abs_zipWith_sum_le (p q : List ℝ) (hq : ∀ v ∈ q, |v| ≤ 1) :
    |(List.zipWith (· * ·) p q).sum| ≤ (p.map fun v => |v|).sum := by
  induction p generalizing q with
  | nil => simp
  | cons a p ih =>
    cases q with
    | nil =>
      simp only [List.zipWith_nil_right, List.sum_nil, abs_zero]
      apply List.sum_nonneg
      simp
    | cons b q =>
      simp only [List.zipWith_cons_cons, List.sum_cons, List.map_cons]
      have h1 := ih q fun v hv => hq v (by simp [hv])
      have h2 : |a * b| ≤ |a| := by
        rw [abs_mul]
        have := hq b (by simp)
        have := mul_le_mul_of_nonneg_left this (abs_nonneg a)
        simpa using this
      have := abs_add_le (a * b) (List.zipWith (· * ·) p q).sum
      linarith

/-- **C13** The yearly Fourier model has twenty coefficients; its value at a date is a fixed function of the date that is
bounded by the sum of the absolute coefficients and repeats exactly after 1461 days (four years). -/
theorem C13_fourier (p : List ℝ) (hp : p.length = modelFourier.nParams) :
    modelFourier.nParams = 20 ∧
    ∃ f : Timestamp → ℝ,
      (∀ ax ds mode, modelFourier.fModel { ax := ax, adate := some ds } (some p) mode =
        .ok (.vec (ds.map fun d => some (f d)))) ∧
      (∀ d, |f d| ≤ (p.map fun v => |v|).sum) ∧
      (∀ d, f (d + 1461 * DAY) = f d) ∧
      (∀ d t, 0 ≤ t → t < DAY → f (dayOf d * DAY + t) = f d) := by
  refine ⟨rfl, fun d => (List.zipWith (· * ·) p (fourierBasis d)).sum, ?_, ?_, ?_, ?_⟩
  · intro ax ds mode
    exact fourier_eval p hp ax ds mode
  · intro d
    apply abs_zipWith_sum_le
    intro v hv
    simp only [fourierBasis, List.mem_append, List.mem_map] at hv
    rcases hv with ⟨i, _, rfl⟩ | ⟨i, _, rfl⟩
    · exact Real.abs_sin_le_one _
    · exact Real.abs_cos_le_one _
  · intro d
    have hday : dayOf (d + 1461 * DAY) = dayOf d + 1461 := by simp only [dayOf, DAY]; omega
    have harg : ∀ i : ℕ, 2 * Real.pi / (1461 / 4) * ((i : ℝ) + 1) * (((dayOf d + 1461 : ℤ)) : ℝ) =
        2 * Real.pi / (1461 / 4) * ((i : ℝ) + 1) * ((dayOf d : ℤ) : ℝ) + ((4 * (i + 1) : ℕ) : ℝ) * (2 * Real.pi) := by
      intro i; push_cast; field_simp
    have : fourierBasis (d + 1461 * DAY) = fourierBasis d := by
      simp only [fourierBasis, hday, harg, Real.sin_add_nat_mul_two_pi, Real.cos_add_nat_mul_two_pi]
    simp only [this]
  · intro d t h0 h1
    have : dayOf (dayOf d * DAY + t) = dayOf d := by simp only [dayOf, DAY] at *; omega
    simp only [fourierBasis, this]

/-- On the epoch day all sines vanish and all cosines are 1: the value is the sum of the ten cosine coefficients. -/
example : fourierBasis 0 = List.replicate 10 0 ++ List.replicate 10 1 := by
  have : dayOf 0 = 0 := by decide
  simp [fourierBasis, this, List.replicate, List.range_succ]

end Anticipy

#print axioms Anticipy.C11_decay
#print axioms Anticipy.C12_sigmoid
#print axioms Anticipy.C13_fourier
