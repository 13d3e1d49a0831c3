import Verif.Props.Fixing
import Verif.Props.Trends

/-
C18 for the ready-made fixed models `create_fixed_step` and `create_fixed_spike` (forecast_models.py 1432-1441).
-/
namespace Anticipy
variable {K : Type} [Field K] [LinearOrder K]

/-- **C18** A fixed step has no parameters; it is neutral before `x` and equals `diff` from `x` on. -/
theorem C18_fixed_step [IsStrictOrderedRing K] (diff x : K) :
    ∃ m : ForecastModel K, createFixedStep diff x = .ok m ∧ m.nParams = 0 ∧ m.name = "step_fixed" ∧
      ∀ ctx p mode, m.fModel ctx p mode =
        .ok (.vec (ctx.ax.map fun t => some (if x ≤ t then diff else if mode then 1 else 0))) := by
  obtain ⟨m, h1, h2, h3, h4⟩ := (C18_get_fixed_model (modelStep : ForecastModel K) [x, diff]).2.2 (by simp [modelStep, mkModel]) rfl
  refine ⟨m, h1, h2, h3, fun ctx p mode => ?_⟩
  rw [h4]
  simp only [modelStep, mkModel, fStep, unpack2, Bind.bind, Except.bind, vecOf, List.map_map, heaviside, sub_neg]
  congr 2
  apply List.map_congr_left
  intro t _
  simp only [Function.comp_apply, Option.some.injEq]
  by_cases h : x ≤ t
  · rw [if_pos h, if_neg (not_lt.2 h)]; cases mode <;> simp
  · rw [if_neg h, if_pos (not_le.1 h)]; cases mode <;> simp

/-- **C18** A fixed spike has no parameters; it equals `diff` on the samples `s, …, s + d - 1` and is neutral elsewhere. -/
theorem C18_fixed_spike [IsStrictOrderedRing K] [FloorRing K] (diff : K) (s d : Nat) :
    ∃ m : ForecastModel K, createFixedSpike diff (s : K) (d : K) = .ok m ∧ m.nParams = 0 ∧ m.name = "spike_fixed" ∧
      ∀ ctx p mode, s + d ≤ ctx.ax.length → ∃ l, m.fModel ctx p mode = .ok (.vec l) ∧ l.length = ctx.ax.length ∧
        ∀ i, i < ctx.ax.length → l[i]? = some (some (if s ≤ i ∧ i < s + d then diff else if mode then 1 else 0)) := by
  obtain ⟨m, h1, h2, h3, h4⟩ := (C18_get_fixed_model (modelSpike : ForecastModel K) [diff, (s : K), (s : K) + (d : K)]).2.2
    (by simp [modelSpike, mkModel]) rfl
  refine ⟨m, h1, h2, h3, fun ctx p mode hl => ?_⟩
  rw [h4]
  have := C15_whole_partial diff s (s + d) { ax := ctx.ax, adate := ctx.adate } mode (by omega) hl
  rw [Nat.cast_add] at this
  exact this

example : (do let m ← createFixedSpike (7 : ℚ) 1 2
              m.fModel { ax := [0, 1, 2, 3, 4], adate := none } none false) = .ok (.vec [some 0, some 7, some 7, some 0, some 0]) := by
  decide +kernel

example : (do let m ← createFixedStep (7 : ℚ) 2
              m.fModel { ax := [0, 1, 2, 3], adate := none } none true) = .ok (.vec [some 1, some 1, some 7, some 7]) := by
  decide +kernel

/-! ### C61 -/

/-- Values of an ignored spike. -/
theorem ignored_values [IsStrictOrderedRing K] [FloorRing K] (s d : Nat) :
    ∃ m : ForecastModel K, createFixedSpikeIgnored (s : K) (d : K) = .ok m ∧ m.nParams = 0 ∧ m.name = "spike_fixed" ∧
      ∀ ctx p mode, s + d ≤ ctx.ax.length → ∃ l, m.fModel ctx p mode = .ok (.vec l) ∧ l.length = ctx.ax.length ∧
        ∀ i, i < ctx.ax.length → l[i]? = some (some (if s ≤ i ∧ i < s + d then 0 else if mode then 1 else 0)) :=
  C18_fixed_spike 0 s d

/-- **C61** (partial: only as a factor) Multiplying a model by an ignored spike gives 0 in the ignored period and the values of
the model elsewhere. -/
theorem C61_factor_partial [IsStrictOrderedRing K] [FloorRing K] (s d : Nat) (m : ForecastModel K) (hm : m.name ≠ "null") :
    ∃ g : ForecastModel K, createFixedSpikeIgnored (s : K) (d : K) = .ok g ∧ (m.mul g).nParams = m.nParams ∧
      ∀ ctx ps mode (v : List K), ps.length = m.nParams → s + d ≤ ctx.ax.length → v.length = ctx.ax.length →
        m.fModel ctx (some ps) true = .ok (.vec (v.map some)) →
        ∃ l, (m.mul g).fModel ctx (some ps) mode = .ok (.vec l) ∧ l.length = ctx.ax.length ∧
          ∀ i, i < ctx.ax.length → l[i]? = some (if s ≤ i ∧ i < s + d then some 0 else v[i]?) := by
  obtain ⟨g, h1, h2, h3, h4⟩ := ignored_values (K := K) s d
  refine ⟨g, h1, ?_, ?_⟩
  · simp [ForecastModel.mul, compose, hm, h3, h2]
  · intro ctx ps mode v hp hl hv hmv
    obtain ⟨l, e1, e2, e3⟩ := h4 ctx (some (ps.drop m.nParams)) true hl
    refine ⟨List.zipWith (lift2 (· * ·)) (v.map some) l, ?_, ?_, ?_⟩
    · have hg : g.name ≠ "null" := by rw [h3]; decide
      simp only [ForecastModel.mul, compose, hm, hg, if_false, if_true, fMult2, splitParams, Bind.bind, Except.bind]
      rw [List.take_of_length_le (by omega), hmv, e1]
      simp [Arr.bin, hv, e2]
    · simp [hv, e2]
    · intro i hi
      rw [List.getElem?_zipWith, e3 i hi, List.getElem?_map]
      have : i < v.length := by omega
      rw [List.getElem?_eq_getElem this]
      simp only [Option.map_some, lift2, if_true]
      by_cases h : s ≤ i ∧ i < s + d
      · simp [h]
      · simp [h]

/-- **C61** fails for the model on its own: it evaluates to 0 at every sample, inside and outside of the period. -/
theorem C61_counterexample :
    (do let g ← createFixedSpikeIgnored (1 : ℚ) 2
        g.fModel { ax := [0, 1, 2, 3, 4], adate := none } (some []) false) = .ok (.vec [some 0, some 0, some 0, some 0, some 0]) := by
  decide +kernel

/-- The factor on a straight line. -/
example : (do let g ← createFixedSpikeIgnored (1 : ℚ) 2
              (modelLinear.mul g).fModel { ax := [0, 1, 2, 3, 4], adate := none } (some [2, 1]) false) =
    .ok (.vec [some 1, some 0, some 0, some 7, some 9]) := by
  decide +kernel

end Anticipy
