import Verif.Spec.Starting
import Verif.Spec.Identity
import Verif.Model.Fix
import Verif.Props.InitialGuess
import Verif.Props.Arity

/-
Starting values of a fit: C99 (their number) and C100 (what they say).
-/
namespace Anticipy
open Spec
variable {K : Type} [Field K] [LinearOrder K]

/-! ### C99: number of starting values -/

omit [LinearOrder K] in
theorem count_compose (mult : Bool) (a b : ForecastModel K) (h1 : RightCount a) (h2 : RightCount b) : RightCount (compose mult a b) := by
  by_cases ha : a.name = "null"
  · have e : compose mult a b = b := by unfold compose; exact if_pos ha
    rw [e]
    exact h2
  by_cases hb : b.name = "null"
  · have e : compose mult a b = a := by unfold compose; rw [if_neg ha]; exact if_pos hb
    rw [e]
    exact h1
  unfold compose
  rw [if_neg ha, if_neg hb]
  constructor
  · intro u args mode g h
    simp only [fInit2, bind, Except.bind] at h
    cases hf : a.fInit (fun i => u (2 * i)) args mult with
    | error e => rw [hf] at h; cases h
    | ok g1 =>
      cases hg : b.fInit (fun i => u (2 * i + 1)) args mult with
      | error e => rw [hf, hg] at h; cases h
      | ok g2 =>
        rw [hf, hg] at h
        cases h
        simp [h1.guess _ _ _ _ hf, h2.guess _ _ _ _ hg]
  · intro args bd h
    simp only [fConcatBounds, bind, Except.bind] at h
    cases hf : a.fBounds args with
    | error e => rw [hf] at h; cases h
    | ok b1 =>
      cases hg : b.fBounds args with
      | error e => rw [hf, hg] at h; cases h
      | ok b2 =>
        rw [hf, hg] at h
        cases h
        simp [h1.bounds _ _ hf, h2.bounds _ _ hg]

omit [LinearOrder K] in
theorem default_bounds (n : Nat) : ∀ (args : InitArgs K) b, fBoundsDefault n args = .ok b → b.lo.length = n ∧ b.hi.length = n := by
  intro args b h
  cases h
  simp

omit [LinearOrder K] in
theorem count_default (name : String) (n : Nat) (f v cv dc) : RightCount (mkModel (K := K) name n f (validators := v) (cacheVars := cv) (dictFCache := dc)) := by
  refine ⟨?_, default_bounds n⟩
  intro u args mult g h
  cases h
  simp [mkModel]

omit [LinearOrder K] in
theorem count_ones (name : String) (n : Nat) (f v cv dc) :
    RightCount (mkModel (K := K) name n f (fInit := fInitOnesZeros n) (validators := v) (cacheVars := cv) (dictFCache := dc)) := by
  refine ⟨?_, default_bounds n⟩
  intro u args mult g h
  cases h
  simp [mkModel]

theorem nlargest_length (l : List (Nat × K)) (n : Nat) : (nlargestIdx l n).length ≤ n := by
  induction n generalizing l with
  | zero => simp [nlargestIdx]
  | succ n ih =>
    unfold nlargestIdx
    split
    · simp
    · split
      · simp
      · simp only [List.length_cons]
        exact Nat.succ_le_succ (ih _)

theorem count_linear (u : Nat → K) (args : InitArgs K) (mult : Bool) (g : List (Ext K)) (h : fInitLinear u args mult = .ok g) : g.length = 2 := by
  unfold fInitLinear at h
  split at h
  · cases h; rfl
  · cases h
  · cases h; rfl

theorem count_library (a : ForecastModel K) (h : LibraryModel a) : RightCount a := by
  rcases h with h | ⟨srt, rfl | rfl⟩ | ⟨label, d, rfl⟩ | ⟨label, d, d', rfl⟩ | ⟨name, f, hf⟩ | ⟨cals, name, hf⟩ | ⟨name, lists, hf⟩
  · simp only [List.mem_cons, List.not_mem_nil, or_false] at h
    rcases h with rfl | rfl | rfl | rfl | rfl | rfl | rfl | rfl
    · refine ⟨?_, default_bounds 1⟩
      intro u args mult g h
      simp only [modelConstant, mkModel, fInitConstant] at h ⊢
      split at h <;> (cases h; rfl)
    · exact ⟨fun u args mult g h => count_linear u args mult g h, default_bounds 2⟩
    · refine ⟨?_, ?_⟩
      · intro u args mult g h
        simp only [modelLinearNondec, mkModel, fInitLinearNondec, bind, Except.bind] at h ⊢
        cases hp : fInitLinear u args false with
        | error e => rw [hp] at h; cases h
        | ok p =>
          have hl := count_linear u args false p hp
          rw [hp] at h
          cases p with
          | nil => cases h
          | cons x rest =>
            cases h
            exact hl
      · intro args b h
        cases h
        exact ⟨rfl, rfl⟩
    · refine ⟨?_, default_bounds 2⟩
      intro u args mult g h
      simp only [modelStep, mkModel, fInitStep, bind, Except.bind] at h ⊢
      split at h
      · cases h; rfl
      · split at h
        · cases h
        · cases h; rfl
    · refine ⟨?_, default_bounds 4⟩
      intro u args mult g h
      simp only [modelTwoSteps, mkModel, fInitNSteps] at h ⊢
      split at h
      · cases h; rfl
      · split_ifs at h with hl
        cases h
        rename_i ay _
        have hle := nlargest_length ((List.range (absDiffs ay).length).zip (absDiffs ay)) 2
        generalize nlargestIdx ((List.range (absDiffs ay).length).zip (absDiffs ay)) 2 = top at hl hle
        have e : top.length = 2 := by omega
        match top, e with
        | [x, y], _ => rfl
    · refine ⟨?_, ?_⟩
      · intro u args mult g h
        simp only [modelRamp, mkModel, fInitRamp, bind, Except.bind] at h ⊢
        split at h
        · split at h
          · split at h
            · cases h
            · split at h
              · cases h
              · cases h; rfl
          · cases h; rfl
        · split at h
          · cases h
          · cases h; rfl
      · intro args b h
        simp only [modelRamp, mkModel, fBoundsRamp, bind, Except.bind] at h ⊢
        split at h
        · cases h; exact ⟨rfl, rfl⟩
        · split at h
          · cases h
          · split at h
            · cases h
            · cases h; exact ⟨rfl, rfl⟩
    · exact count_default _ _ _ _ _ _
    · refine ⟨?_, default_bounds 11⟩
      intro u args mult g h
      simp only [modelSeasonMonth, mkModel, fInitSeasonMonth] at h ⊢
      split at h <;> (cases h; simp)
  · exact count_default _ _ _ _ _ _
  · exact count_default _ _ _ _ _ _
  · refine ⟨?_, default_bounds 1⟩
    intro u args mult g h
    simp only [getModelStepDate, mkModel, fInitStepDate, bind, Except.bind] at h ⊢
    split at h
    · cases h; rfl
    · split at h
      · cases h
      · cases h; rfl
  · refine ⟨?_, default_bounds 1⟩
    intro u args mult g h
    simp only [getModelSpikeDate, mkModel, fInitSpikeDate] at h ⊢
    split at h
    · cases h; rfl
    · split at h
      · cases h
      · cases h; rfl
  · rw [getModelDummy_ok name f a hf]
    exact count_default _ _ _ _ _ _
  · unfold getModelFromCalendars at hf
    dsimp only at hf
    split at hf
    · cases hf
    · simp only [bind, Except.bind] at hf
      split at hf
      · cases hf
      · split at hf
        · cases hf
        · cases hf
          exact count_ones _ _ _ _ _ _
  · unfold getModelFromDatelist at hf
    simp only [bind, Except.bind] at hf
    split at hf
    · cases hf
    · split at hf
      · cases hf
      · cases hf
        exact count_ones _ _ _ _ _ _

omit [LinearOrder K] in
theorem count_built (A : ForecastModel K → Prop) (hA : ∀ a, A a → RightCount a) (m : ForecastModel K) (hm : BuiltFrom A m) : RightCount m := by
  induction hm with
  | part a ha => exact hA a ha
  | null => exact count_default _ _ _ _ _ _
  | plus m m' _ _ h1 h2 => exact count_compose false _ _ h1 h2
  | times m m' _ _ h1 h2 => exact count_compose true _ _ h1 h2

/-- **C99.** The models of the library other than the spike model with free position, and everything built of them with `+` and `*`: whenever starting values
and bounds are returned, with or without data, there is one for each parameter. -/
theorem C99_counts_partial (m : ForecastModel K) (hm : BuiltFrom LibraryModel m) : RightCount m := count_built _ count_library m hm

/-- **C99, real models.** The same with exponential, sigmoid and Fourier models as further parts. -/
theorem C99_real_partial (m : ForecastModel ℝ)
    (hm : BuiltFrom (fun a => LibraryModel a ∨ a ∈ [modelQuasilinear, modelExp, modelDecay, modelSigmoidStep, modelSigmoid, modelFourier]) m) : RightCount m := by
  refine count_built _ ?_ m hm
  rintro a (ha | ha)
  · exact count_library a ha
  simp only [List.mem_cons, List.not_mem_nil, or_false] at ha
  rcases ha with rfl | rfl | rfl | rfl | rfl | rfl
  · exact count_default _ _ _ _ _ _
  · exact count_default _ _ _ _ _ _
  · refine ⟨?_, ?_⟩
    · intro u args mult g h
      simp only [modelDecay, mkModel, fInitDecay] at h ⊢
      split at h
      · cases h; rfl
      · cases h
      · split at h
        · cases h; rfl
        · cases h
    · intro args b h
      cases h
      exact ⟨rfl, rfl⟩
  · refine ⟨?_, ?_⟩
    · intro u args mult g h
      simp only [modelSigmoidStep, mkModel, fInitSigmoidStep, bind, Except.bind] at h ⊢
      split at h
      · cases h; rfl
      · split at h
        · cases h
        · cases h; rfl
    · intro args b h
      simp only [modelSigmoidStep, mkModel, fBoundsSigmoidStep] at h ⊢
      split at h
      · cases h; exact ⟨rfl, rfl⟩
      · split at h
        · cases h
        · split at h
          · cases h; exact ⟨rfl, rfl⟩
          · cases h
  · exact count_default _ _ _ _ _ _
  · refine ⟨?_, default_bounds _⟩
    intro u args mult g h
    simp only [modelFourier, mkModel, fInitFourier] at h ⊢
    split at h
    · cases h; simp
    · split at h
      · cases h; simp
      · cases h

omit [LinearOrder K] [Field K] in
theorem select_count {α : Type} (fixed : List (Option K)) (l : List α) (h : l.length = fixed.length) :
    (selectNulls (fixed.map Option.isNone) l).length = countNulls fixed := by
  induction fixed generalizing l with
  | nil => simp [selectNulls, countNulls]
  | cons f fixed ih =>
    cases l with
    | nil => simp at h
    | cons a l =>
      have := ih l (by simpa using h)
      unfold countNulls at this ⊢
      cases f <;> simp [selectNulls, this]

/-- **C99, fixed parameters.** Fixing parameters of a model leaves one starting value and bound for each parameter that stays free. -/
theorem C99_fixed (label : List (Option K) → String) (m m' : ForecastModel K) (fixed : List (Option K)) (h : fixParams label m fixed = .ok m')
    (hm : RightCount m) : RightCount m' := by
  unfold fixParams at h
  by_cases hl : fixed.length = m.nParams
  · simp only [pyAssert, decide_eq_true hl, if_true, bind, Except.bind] at h
    cases h
    constructor
    · intro u args mult g hg
      simp only [mkModel] at hg ⊢
      cases hf : m.fInit u args mult with
      | error e => rw [hf] at hg; cases hg
      | ok p =>
        rw [hf] at hg
        cases hg
        exact select_count fixed p (by rw [hm.guess _ _ _ _ hf, hl])
    · intro args b hb
      simp only [mkModel] at hb ⊢
      cases hf : m.fBounds args with
      | error e => rw [hf] at hb; cases hb
      | ok bd =>
        rw [hf] at hb
        cases hb
        obtain ⟨e1, e2⟩ := hm.bounds _ _ hf
        exact ⟨select_count fixed _ (by rw [e1, hl]), select_count fixed _ (by rw [e2, hl])⟩
  · simp only [pyAssert, decide_eq_false hl, bind, Except.bind, Bool.false_eq_true, if_false] at h
    cases h

/-- **C99, spike.** With data, the spike model has three starting values. -/
theorem C99_spike_partial [FloorRing K] (u : Nat → K) (ax : Option (List K)) (ay : List K) (d : Option (List Timestamp)) (mult : Bool) (g : List (Ext K))
    (h : modelSpike.fInit u ⟨ax, some ay, d⟩ mult = .ok g) : g.length = modelSpike.nParams (K := K) := by
  simp only [modelSpike, mkModel, fInitSpike] at h ⊢
  split at h
  · cases h
  · cases h; rfl

/-- **C99, violated.** Without data, the spike model has one starting value for its three parameters, so it cannot be evaluated with them. -/
theorem C99_counterexample : ∃ g, modelSpike.fInit (fun _ => (0 : ℚ)) ⟨none, none, none⟩ false = .ok g ∧ g.length = 1 ∧ modelSpike.nParams (K := ℚ) = 3 ∧
    ¬ RightCount (modelSpike (K := ℚ)) := by
  refine ⟨[.fin 3], by decide +kernel, rfl, rfl, ?_⟩
  intro h
  have := h.guess (fun _ => 0) ⟨none, none, none⟩ false [.fin 3] (by decide +kernel)
  exact absurd this (by decide)

/-! ### C100: what the starting values say -/

theorem argmaxFirst_spec (l : List K) (i : Nat) (h : argmaxFirst l = some i) :
    i < l.length ∧ (∀ j, j < l.length → l.getD j 0 ≤ l.getD i 0) ∧ ∀ j, j < i → l.getD j 0 < l.getD i 0 := by
  induction l generalizing i with
  | nil => simp [argmaxFirst] at h
  | cons a l ih =>
    simp only [argmaxFirst] at h
    cases hc : argmaxFirst l with
    | none =>
      rw [hc] at h
      simp only [Option.some.injEq] at h
      subst h
      have := (argmaxFirst_none l).1 hc
      subst this
      simp
    | some k =>
      rw [hc] at h
      obtain ⟨h1, h2, h3⟩ := ih k hc
      have ed : l.getD k a = l.getD k 0 := by
        simp [List.getD_eq_getElem?_getD, h1]
      dsimp only at h
      rw [ed] at h
      by_cases hle : l.getD k 0 ≤ a
      · rw [if_pos hle] at h
        cases h
        refine ⟨by simp, ?_, by simp⟩
        intro j hj
        cases j with
        | zero => simp
        | succ j =>
          simp only [List.getD_cons_succ, List.getD_cons_zero]
          exact le_trans (h2 j (by simpa using hj)) hle
      · rw [if_neg hle] at h
        cases h
        push Not at hle
        refine ⟨by simpa using h1, ?_, ?_⟩
        · intro j hj
          cases j with
          | zero => simpa using hle.le
          | succ j => simpa using h2 j (by simpa using hj)
        · intro j hj
          cases j with
          | zero => simpa using hle
          | succ j => simpa using h3 j (by omega)

/-- The first maximum is unique. -/
theorem argmaxFirst_eq (l : List K) (i : Nat) (h1 : i < l.length) (h2 : ∀ j, j < l.length → l.getD j 0 ≤ l.getD i 0)
    (h3 : ∀ j, j < i → l.getD j 0 < l.getD i 0) : argmaxFirst l = some i := by
  cases hc : argmaxFirst l with
  | none =>
    rw [(argmaxFirst_none l).1 hc] at h1
    simp at h1
  | some k =>
    obtain ⟨g1, g2, g3⟩ := argmaxFirst_spec l k hc
    rcases lt_trichotomy i k with hlt | rfl | hgt
    · exact absurd (h2 k g1) (not_le.2 (g3 i hlt))
    · rfl
    · exact absurd (g2 i h1) (not_le.2 (h3 k hgt))

omit [Field K] [LinearOrder K] in
theorem pairs_getD [Zero K] (l : List K) (f : K × K → K) (j : Nat) (h : j + 1 < l.length) :
    ((pairs l).map f).getD j 0 = f (l.getD j 0, l.getD (j + 1) 0) := by
  induction l generalizing j with
  | nil => simp at h
  | cons a l ih =>
    cases l with
    | nil => simp at h
    | cons b l =>
      cases j with
      | zero => simp [pairs]
      | succ j =>
        have := ih j (by simpa using h)
        simpa [pairs] using this

theorem absDiffs_length (ay : List K) : (absDiffs ay).length = ay.length - 1 := by
  unfold absDiffs
  rw [List.length_map, pairs_length]

theorem absDiffs_getD (ay : List K) (j : Nat) (h : j + 1 < ay.length) : (absDiffs ay).getD j 0 = |ay.getD (j + 1) 0 - ay.getD j 0| :=
  pairs_getD ay _ j h

theorem largest_jump (ay : List K) (i : Nat) (h : LargestJump ay i) :
    largestDiff ay = .ok (i, |ay.getD i 0 - ay.getD (i - 1) 0|) ∧ argmaxFirst (absDiffs ay) = some (i - 1) := by
  obtain ⟨h0, h1, h2, h3⟩ := h
  have hl := absDiffs_length ay
  have gi := absDiffs_getD ay (i - 1) (by omega)
  have ei : i - 1 + 1 = i := by omega
  rw [ei] at gi
  have e : argmaxFirst (absDiffs ay) = some (i - 1) := by
    refine argmaxFirst_eq _ _ (by omega) ?_ ?_
    · intro j hj
      rw [gi, absDiffs_getD ay j (by omega)]
      simpa using h2 (j + 1) (by omega) (by omega)
    · intro j hj
      rw [gi, absDiffs_getD ay j (by omega)]
      simpa using h3 (j + 1) (by omega) (by omega)
  refine ⟨?_, e⟩
  unfold largestDiff
  rw [e]
  simp only [gi, ei]

/-- Every series with two values has a largest jump. -/
theorem largest_jump_exists (ay : List K) (h : 2 ≤ ay.length) : ∃ i, LargestJump ay i := by
  have hl := absDiffs_length ay
  cases hc : argmaxFirst (absDiffs ay) with
  | none =>
    rw [argmaxFirst_none] at hc
    rw [hc] at hl
    simp at hl
    omega
  | some k =>
    obtain ⟨g1, g2, g3⟩ := argmaxFirst_spec _ k hc
    refine ⟨k + 1, by omega, by omega, ?_, ?_⟩
    · intro j hj hj'
      have := g2 (j - 1) (by omega)
      rw [absDiffs_getD ay k (by omega), absDiffs_getD ay (j - 1) (by omega)] at this
      have ej : j - 1 + 1 = j := by omega
      rw [ej] at this
      simpa using this
    · intro j hj hj'
      have := g3 (j - 1) (by omega)
      rw [absDiffs_getD ay k (by omega), absDiffs_getD ay (j - 1) (by omega)] at this
      have ej : j - 1 + 1 = j := by omega
      rw [ej] at this
      simpa using this

/-- **C100, step.** A series with at least two values has a largest jump; the starting values of the step model are the row on its far side and twice its
height. The row is the `x` of that sample when the samples are at `x` = 0, 1, 2, …. -/
theorem C100_step_partial (u : Nat → K) (ax : Option (List K)) (ay : List K) (d : Option (List Timestamp)) (mult : Bool) (h : 2 ≤ ay.length) :
    ∃ i, LargestJump ay i ∧ modelStep.fInit u ⟨ax, some ay, d⟩ mult = .ok [.fin (i : K), .fin (2 * |ay.getD i 0 - ay.getD (i - 1) 0|)] := by
  obtain ⟨i, hi⟩ := largest_jump_exists ay h
  refine ⟨i, hi, ?_⟩
  simp only [modelStep, mkModel, fInitStep, (largest_jump ay i hi).1, bind, Except.bind, mul_comm]

/-- **C100, step at a date.** The starting value is twice the height of the largest jump. -/
theorem C100_step_date (label : Timestamp → String) (date : Timestamp) (u : Nat → K) (ax : Option (List K)) (ay : List K) (d : Option (List Timestamp))
    (mult : Bool) (h : 2 ≤ ay.length) :
    ∃ i, LargestJump ay i ∧
      (getModelStepDate label date).fInit u ⟨ax, some ay, d⟩ mult = .ok [.fin (2 * |ay.getD i 0 - ay.getD (i - 1) 0|)] := by
  obtain ⟨i, hi⟩ := largest_jump_exists ay h
  refine ⟨i, hi, ?_⟩
  simp only [getModelStepDate, mkModel, fInitStepDate, (largest_jump ay i hi).1, bind, Except.bind, mul_comm]

/-- **C100, sigmoid step.** The starting values are the value on the far side of the largest jump, its row, and the square of that value as steepness. -/
theorem C100_sigmoid_step_partial (u : Nat → ℝ) (ax : Option (List ℝ)) (ay : List ℝ) (d : Option (List Timestamp)) (mult : Bool) (h : 2 ≤ ay.length) :
    ∃ i, LargestJump ay i ∧
      modelSigmoidStep.fInit u ⟨ax, some ay, d⟩ mult = .ok [.fin (ay.getD i 0), .fin (i : ℝ), .fin (ay.getD i 0 * ay.getD i 0)] := by
  obtain ⟨i, hi⟩ := largest_jump_exists ay h
  refine ⟨i, hi, ?_⟩
  simp only [modelSigmoidStep, mkModel, fInitSigmoidStep, (largest_jump ay i hi).1, bind, Except.bind]

/-- **C100, too short.** With fewer than two values there is no jump, and the request raises. -/
theorem C100_short (label : Timestamp → String) (date : Timestamp) (u : Nat → K) (ax : Option (List K)) (ay : List K) (d : Option (List Timestamp))
    (mult : Bool) (h : ay.length < 2) :
    modelStep.fInit u ⟨ax, some ay, d⟩ mult = .error .indexError ∧
      (getModelStepDate label date).fInit u ⟨ax, some ay, d⟩ mult = .error .indexError := by
  have hl := absDiffs_length ay
  have e : argmaxFirst (absDiffs ay) = none := by
    rw [argmaxFirst_none]
    exact List.length_eq_zero_iff.1 (by omega)
  simp only [modelStep, getModelStepDate, mkModel, fInitStep, fInitStepDate, largestDiff, e, bind, Except.bind, and_self]

theorem increase_exists (ay : List K) (h : 2 ≤ ay.length) : ∃ i, LargestIncrease ay i ∧
    argmaxFirst ((pairs ay).map fun p => p.2 - p.1) = some (i - 1) ∧
    ((pairs ay).map fun p => p.2 - p.1).getD (i - 1) 0 = ay.getD i 0 - ay.getD (i - 1) 0 ∧
    listMax ((pairs ay).map fun p => p.2 - p.1) = some (ay.getD i 0 - ay.getD (i - 1) 0) := by
  have hl : ((pairs ay).map fun p => p.2 - p.1).length = ay.length - 1 := by rw [List.length_map, pairs_length]
  cases hc : argmaxFirst ((pairs ay).map fun p => p.2 - p.1) with
  | none =>
    rw [argmaxFirst_none] at hc
    rw [hc] at hl
    simp at hl
    omega
  | some k =>
    obtain ⟨g1, g2, g3⟩ := argmaxFirst_spec _ k hc
    have gk := pairs_getD ay (fun p => p.2 - p.1) k (by omega)
    refine ⟨k + 1, ⟨by omega, by omega, ?_, ?_⟩, rfl, ?_, ?_⟩
    · intro j hj hj'
      have := g2 (j - 1) (by omega)
      rw [gk, pairs_getD ay _ (j - 1) (by omega)] at this
      have ej : j - 1 + 1 = j := by omega
      rw [ej] at this
      simpa using this
    · intro j hj hj'
      have := g3 (j - 1) (by omega)
      rw [gk, pairs_getD ay _ (j - 1) (by omega)] at this
      have ej : j - 1 + 1 = j := by omega
      rw [ej] at this
      simpa using this
    · simpa using gk
    · rw [listMax_some]
      have e : ay.getD (k + 1) 0 - ay.getD (k + 1 - 1) 0 = ((pairs ay).map fun p => p.2 - p.1)[k] := by
        simp only [List.getD_eq_getElem?_getD, List.getElem?_eq_getElem g1, Option.getD_some] at gk
        rw [gk]
        simp [List.getD_eq_getElem?_getD]
      refine ⟨by rw [e]; exact List.getElem_mem g1, ?_⟩
      intro v hv
      obtain ⟨j, hj, rfl⟩ := List.getElem_of_mem hv
      have := g2 j hj
      rw [gk] at this
      simpa [List.getD_eq_getElem?_getD, List.getElem?_eq_getElem hj] using this

/-- **C100, spike.** The starting values are the largest increase, the row *before* it, and the row after that one. -/
theorem C100_spike_partial [FloorRing K] (u : Nat → K) (ax : Option (List K)) (ay : List K) (d : Option (List Timestamp)) (mult : Bool)
    (h : 2 ≤ ay.length) :
    ∃ i, LargestIncrease ay i ∧
      modelSpike.fInit u ⟨ax, some ay, d⟩ mult = .ok [.fin (ay.getD i 0 - ay.getD (i - 1) 0), .fin ((i - 1 : Nat) : K), .fin (i : K)] := by
  obtain ⟨i, hi, e1, e2, _⟩ := increase_exists ay h
  refine ⟨i, hi, ?_⟩
  simp only [modelSpike, mkModel, fInitSpike, e1, e2]
  have : ((i - 1 : Nat) : K) + 1 = (i : K) := by
    have hi0 := hi.1
    have e : i - 1 + 1 = i := by omega
    exact_mod_cast congrArg (Nat.cast : Nat → K) e
  rw [this]

/-- **C100, spike at a date.** The starting value is the largest increase. -/
theorem C100_spike_date (label : Timestamp → String) (d1 d2 : Timestamp) (u : Nat → K) (ax : Option (List K)) (ay : List K) (d : Option (List Timestamp))
    (mult : Bool) (h : 2 ≤ ay.length) :
    ∃ i, LargestIncrease ay i ∧ (getModelSpikeDate label d1 d2).fInit u ⟨ax, some ay, d⟩ mult = .ok [.fin (ay.getD i 0 - ay.getD (i - 1) 0)] := by
  obtain ⟨i, hi, _, _, e⟩ := increase_exists ay h
  refine ⟨i, hi, ?_⟩
  simp only [getModelSpikeDate, mkModel, fInitSpikeDate, e]

theorem getD_erase (l : List K) (i j : Nat) : (l.eraseIdx i).getD j 0 = if j < i then l.getD j 0 else l.getD (j + 1) 0 := by
  simp only [List.getD_eq_getElem?_getD, List.getElem?_eraseIdx]
  split <;> rfl

/-- **C100, two steps.** A series with at least three values has a largest jump and a largest one of the rest; the starting values are their rows and
heights, the larger first. -/
theorem C100_two_steps_partial (u : Nat → K) (ax : Option (List K)) (ay : List K) (d : Option (List Timestamp)) (mult : Bool) (h : 3 ≤ ay.length) :
    ∃ i j, LargestJump ay i ∧ NextJump ay i j ∧ modelTwoSteps.fInit u ⟨ax, some ay, d⟩ mult =
      .ok [.fin (i : K), .fin |ay.getD i 0 - ay.getD (i - 1) 0|, .fin (j : K), .fin |ay.getD j 0 - ay.getD (j - 1) 0|] := by
  obtain ⟨i, hi⟩ := largest_jump_exists ay (by omega)
  have ha := (largest_jump ay i hi).2
  have hl := absDiffs_length ay
  set D := absDiffs ay with hD
  set L := (List.range D.length).zip D with hL
  have eL : L.map (·.2) = D := by
    rw [hL]
    exact List.map_snd_zip (by simp)
  have hi0 := hi.1
  have hi1 := hi.2.1
  have gL : ∀ k (hk : k < D.length), L[k]? = some (k, D[k]) := by
    intro k hk
    rw [hL, List.getElem?_zip_eq_some]
    simp [hk]
  have g1 : L[i - 1]? = some (i - 1, D[i - 1]'(by omega)) := gL _ _
  have eE : (L.eraseIdx (i - 1)).map (·.2) = D.eraseIdx (i - 1) := by
    rw [← eL, List.eraseIdx_map]
  have hlen : (D.eraseIdx (i - 1)).length = ay.length - 2 := by
    rw [List.length_eraseIdx_of_lt (by omega)]
    omega
  cases hc : argmaxFirst (D.eraseIdx (i - 1)) with
  | none =>
    rw [argmaxFirst_none] at hc
    rw [hc] at hlen
    simp at hlen
    omega
  | some k =>
    obtain ⟨q1, q2, q3⟩ := argmaxFirst_spec _ k hc
    set r := if k < i - 1 then k else k + 1 with hr
    have hrl : r < D.length := by rw [hr]; split <;> omega
    have gr : ∀ m, m + 1 < ay.length → D.getD m 0 = |ay.getD (m + 1) 0 - ay.getD m 0| := fun m hm => absDiffs_getD ay m hm
    have gk : (D.eraseIdx (i - 1)).getD k 0 = |ay.getD (r + 1) 0 - ay.getD r 0| := by
      rw [getD_erase]
      rw [← gr r (by omega)]
      rw [hr]
      split <;> rfl
    have g2 : (L.eraseIdx (i - 1))[k]? = some (r, D[r]) := by
      rw [List.getElem?_eraseIdx, ← gL r hrl, hr]
      split <;> rfl
    refine ⟨i, r + 1, hi, ⟨by omega, by omega, by rw [hr]; split <;> omega, ?_, ?_⟩, ?_⟩
    · intro m hm hm' hne
      rw [gk] at q2
      have := q2 (if m - 1 < i - 1 then m - 1 else m - 2) (by split <;> omega)
      rw [getD_erase] at this
      have e : m - 1 + 1 = m := by omega
      have gm := gr (m - 1) (by omega)
      rw [e] at gm
      by_cases hlt : m - 1 < i - 1
      · rw [if_pos hlt, if_pos hlt, gm] at this
        simpa using this
      · rw [if_neg hlt, if_neg (by omega), show m - 2 + 1 = m - 1 by omega, gm] at this
        simpa using this
    · intro m hm hm' hne
      rw [gk] at q3
      have := q3 (if m - 1 < i - 1 then m - 1 else m - 2) (by
        rw [hr] at hm'
        split at hm' <;> split <;> omega)
      rw [getD_erase] at this
      have e : m - 1 + 1 = m := by omega
      have gm := gr (m - 1) (by omega)
      rw [e] at gm
      by_cases hlt : m - 1 < i - 1
      · rw [if_pos hlt, if_pos hlt, gm] at this
        simpa using this
      · rw [if_neg hlt, if_neg (by omega), show m - 2 + 1 = m - 1 by omega, gm] at this
        simpa using this
    · simp only [modelTwoSteps, mkModel, fInitNSteps]
      rw [← hD, ← hL]
      have et : nlargestIdx L 2 = [(i - 1, D[i - 1]'(by omega)), (r, D[r])] := by
        simp only [nlargestIdx, eL, ha, g1, eE, hc, g2]
      rw [et]
      have v1 : D[i - 1]'(by omega) = |ay.getD i 0 - ay.getD (i - 1) 0| := by
        have := gr (i - 1) (by omega)
        rw [show i - 1 + 1 = i by omega] at this
        rw [← this]
        simp [List.getD_eq_getElem?_getD, List.getElem?_eq_getElem (show i - 1 < D.length by omega)]
      have v2 : D[r] = |ay.getD (r + 1) 0 - ay.getD r 0| := by
        rw [← gr r (by omega)]
        simp [List.getD_eq_getElem?_getD, List.getElem?_eq_getElem hrl]
      rw [if_neg (by simp)]
      simp only [List.flatMap_cons, List.flatMap_nil, List.cons_append, List.nil_append, v1, v2, show i - 1 + 1 = i by omega]
      simp

theorem diff2_getD (ay : List K) (k : Nat) (h2 : 2 ≤ k) (hk : k < ay.length) : (diff2 ay)[k]? = some (some (bendAt ay k)) := by
  unfold diff2
  dsimp only
  rw [List.getElem?_append_right (by simp; omega)]
  have hm : min 2 ay.length = 2 := by omega
  rw [List.length_replicate, hm, List.getElem?_map]
  set D := (pairs ay).map fun p => p.2 - p.1 with hD
  have hl : D.length = ay.length - 1 := by rw [hD, List.length_map, pairs_length]
  have hp : k - 2 < (pairs D).length := by rw [pairs_length]; omega
  have g := pairs_getD D (fun p => |p.2 - p.1|) (k - 2) (by omega)
  have e1 : D.getD (k - 2) 0 = ay.getD (k - 1) 0 - ay.getD (k - 2) 0 := by
    have := pairs_getD ay (fun p => p.2 - p.1) (k - 2) (by omega)
    rw [show k - 2 + 1 = k - 1 by omega] at this
    exact this
  have e2 : D.getD (k - 2 + 1) 0 = ay.getD k 0 - ay.getD (k - 1) 0 := by
    have := pairs_getD ay (fun p => p.2 - p.1) (k - 2 + 1) (by omega)
    rw [show k - 2 + 1 + 1 = k by omega] at this
    rw [this, show k - 2 + 1 = k - 1 by omega]
  rw [e1, e2] at g
  unfold bendAt
  rw [List.getElem?_eq_getElem hp]
  simp only [List.getD_eq_getElem?_getD, List.getElem?_map, List.getElem?_eq_getElem hp, Option.map_some, Option.getD_some] at g ⊢
  rw [g]

theorem diff2_early (ay : List K) (k : Nat) (h2 : k < 2) (hk : k < ay.length) : (diff2 ay)[k]? = some none := by
  unfold diff2
  dsimp only
  rw [List.getElem?_append_left (by simp; omega)]
  rw [List.getElem?_replicate, if_pos (by omega)]

theorem bends_listed (ax ay : List K) (he : ax.length = ay.length) :
    ax.zip (diff2 ay) = (List.range ay.length).map fun k => (ax.getD k 0, if k < 2 then none else some (bendAt ay k)) := by
  apply List.ext_getElem?
  intro k
  by_cases hk : k < ay.length
  · rw [List.getElem?_map, List.getElem?_range hk]
    simp only [Option.map_some]
    rw [List.getElem?_zip_eq_some]
    refine ⟨?_, ?_⟩
    · simp [List.getD_eq_getElem?_getD, List.getElem?_eq_getElem (show k < ax.length by omega)]
    · by_cases h2 : k < 2
      · rw [diff2_early ay k h2 hk, if_pos h2]
      · rw [diff2_getD ay k (by omega) hk, if_neg h2]
  · rw [List.getElem?_eq_none (by simp [diff2_length]; omega), List.getElem?_eq_none (by simp; omega)]

theorem range_filterMap (ax ay : List K) (lo n : Nat) :
    ((List.range' lo n).map fun k => (ax.getD k 0, if k < 2 then none else some (bendAt ay k))).filterMap (fun e => e.2.map fun v => (e.1, v)) =
      (List.range' (max 2 lo) (lo + n - max 2 lo)).map fun k => (ax.getD k 0, bendAt ay k) := by
  induction n generalizing lo with
  | zero =>
    have : lo + 0 - max 2 lo = 0 := by omega
    rw [this]
    rfl
  | succ n ih =>
    rw [List.range'_succ, List.map_cons, List.filterMap_cons]
    dsimp only
    by_cases h2 : lo < 2
    · rw [if_pos h2]
      simp only [Option.map_none]
      rw [ih (lo + 1)]
      have e : max 2 (lo + 1) = 2 := by omega
      have e' : max 2 lo = 2 := by omega
      rw [e, e', show lo + 1 + n - 2 = lo + (n + 1) - 2 by omega]
    · rw [if_neg h2]
      simp only [Option.map_some]
      rw [ih (lo + 1)]
      have e : max 2 (lo + 1) = lo + 1 := by omega
      have e' : max 2 lo = lo := by omega
      rw [e, e', show lo + 1 + n - (lo + 1) = n by omega, show lo + (n + 1) - lo = n + 1 by omega, List.range'_succ, List.map_cons]

/-- **C100, ramp.** For samples at different `x`, leaving out 15 % of them at either end: if a row from the third on is left, the starting values are the `x`
and the size of the first of the largest bends. -/
theorem C100_ramp_partial (u : Nat → K) (ax ay : List K) (d : Option (List Timestamp)) (mult : Bool) (he : ax.length = ay.length) (hn : ax.Nodup)
    (h : max 2 (ceil15 ay.length) < ay.length - ceil15 ay.length) :
    ∃ i, LargestBend ay (ceil15 ay.length) (ay.length - ceil15 ay.length) i ∧
      modelRamp.fInit u ⟨some ax, some ay, d⟩ mult = .ok [.fin (ax.getD i 0), .fin (bendAt ay i)] := by
  have hk : dedupBy Prod.fst (ax.zip ay) = ax.zip ay := by
    apply dedupBy_of_nodup
    have : ((ax.zip ay).map Prod.fst).Nodup := by
      rw [List.map_fst_zip (by omega)]
      exact hn
    exact List.pairwise_map.1 this
  have e1 : (ax.zip ay).map (·.1) = ax := List.map_fst_zip (by omega)
  have e2 : (ax.zip ay).map (·.2) = ay := List.map_snd_zip (by omega)
  set s := ceil15 ay.length with hs
  set lo := max 2 s with hlo
  set hi := ay.length - s with hhi
  have er : ((ax.zip (diff2 ay)).take hi).drop s =
      (List.range' s (hi - s)).map fun k => (ax.getD k 0, if k < 2 then none else some (bendAt ay k)) := by
    rw [bends_listed ax ay he, ← List.map_take, ← List.map_drop]
    congr 1
    rw [List.take_range, show min hi ay.length = hi by omega, List.range_eq_range', List.drop_range']
    simp
  have hv := range_filterMap ax ay s (hi - s)
  rw [← hlo, show s + (hi - s) - lo = hi - lo by omega] at hv
  have hlen : ((List.range' lo (hi - lo)).map (bendAt ay)).length = hi - lo := by simp
  have gb : ∀ j, j < hi - lo → ((List.range' lo (hi - lo)).map (bendAt ay)).getD j 0 = bendAt ay (lo + j) := by
    intro j hj
    simp [List.getD_eq_getElem?_getD, List.getElem?_range', hj]
  have em : ((List.range' lo (hi - lo)).map fun k => (ax.getD k 0, bendAt ay k)).map (·.2) = (List.range' lo (hi - lo)).map (bendAt ay) := by
    rw [List.map_map]
    rfl
  cases hc : argmaxFirst ((List.range' lo (hi - lo)).map (bendAt ay)) with
  | none =>
    rw [argmaxFirst_none] at hc
    rw [hc] at hlen
    simp at hlen
    omega
  | some k =>
    obtain ⟨q1, q2, q3⟩ := argmaxFirst_spec _ k hc
    rw [hlen] at q1 q2
    have hb : ∀ j, lo ≤ j → j < hi → ((List.range' lo (hi - lo)).map (bendAt ay)).getD (j - lo) 0 = bendAt ay j := by
      intro j h1 h2
      rw [gb _ (by omega), show lo + (j - lo) = j by omega]
    refine ⟨lo + k, ⟨by omega, by omega, by omega, ?_, ?_⟩, ?_⟩
    · intro j h1 h2 h3
      have := q2 (j - lo) (by omega)
      rw [hb j (by omega) h3, gb k q1] at this
      exact this
    · intro j h1 h2 h3
      have := q3 (j - lo) (by omega)
      rw [hb j (by omega) (by omega), gb k q1] at this
      exact this
    · simp only [modelRamp, mkModel, fInitRamp, hk, e1, e2]
      have hz : (ax.zip (diff2 ay)).length = ay.length := by simp [diff2_length, he]
      rw [hz, ← hs, ← hhi, er]
      unfold argmaxKey
      dsimp only
      rw [hv, em, hc]
      simp [List.getElem?_range', q1]

/-- **C100, months.** Called with dates, the starting values of the month season are the averages of January to November relative to the one of December
(differences in sums, quotients in products). -/
theorem C100_month_partial [IsStrictOrderedRing K] (civil : Int → Int × Int × Int) (hc : IsCalendar civil) (u : Nat → K) (ax : Option (List K)) (ay : List K) (ds : List Timestamp)
    (avg : Int → K) (ha : ∀ k, 1 ≤ k → k ≤ 12 → MonthAverage civil ds ay k (avg k)) :
    modelSeasonMonth.fInit u ⟨ax, some ay, some ds⟩ false = .ok ((List.range 11).map fun i : Nat => .fin (avg ((i : Int) + 1) - avg 12)) ∧
    (avg 12 ≠ 0 → modelSeasonMonth.fInit u ⟨ax, some ay, some ds⟩ true = .ok ((List.range 11).map fun i : Nat => .fin (avg ((i : Int) + 1) / avg 12))) := by
  rw [isCalendar_unique civil hc] at ha
  have key : ∀ k, 1 ≤ k → k ≤ 12 → ∃ y ys, ((ds.zip ay).filter fun e => month e.1 = k).map (·.2) = y :: ys ∧ mean (y :: ys) = avg k := by
    intro k h1 h2
    obtain ⟨l, e, hne, hv⟩ := ha k h1 h2
    have e' : ((ds.zip ay).filter fun e => month e.1 = k).map (·.2) = l := e.symm
    match l, hne, hv, e' with
    | y :: ys, _, hv, e' =>
      refine ⟨y, ys, e', ?_⟩
      rw [mean, ← hv, mul_div_cancel_right₀]
      exact_mod_cast Nat.succ_ne_zero ys.length
  obtain ⟨z, zs, k1, k2⟩ := key 12 (by omega) (by omega)
  constructor
  · simp only [modelSeasonMonth, mkModel, fInitSeasonMonth]
    congr 1
    apply List.map_congr_left
    intro i hi
    obtain ⟨y, ys, k3, k4⟩ := key ((i : Int) + 1) (by omega) (by have := List.mem_range.1 hi; omega)
    rw [k1, k3]
    simp [k2, k4]
  · intro h0
    simp only [modelSeasonMonth, mkModel, fInitSeasonMonth]
    congr 1
    apply List.map_congr_left
    intro i hi
    obtain ⟨y, ys, k3, k4⟩ := key ((i : Int) + 1) (by omega) (by have := List.mem_range.1 hi; omega)
    rw [k1, k3]
    simp [k2, k4, extDiv, h0]

/-! ### What goes wrong, and examples -/

/-- **C100, violated.** The first starting value of the month season belongs to January, but the first parameter acts in February: for one value per month,
equal to the number of the month, the model at its starting values falls by 11 from January to February. -/
theorem C100_counterexample_month : ∃ ds : List Timestamp, ds.map month = [1, 2, 3, 4, 5, 6, 7, 8, 9, 10, 11, 12] ∧
    modelSeasonMonth.fInit (fun _ => (0 : ℚ)) ⟨none, some [1, 2, 3, 4, 5, 6, 7, 8, 9, 10, 11, 12], some ds⟩ false =
      .ok ([-11, -10, -9, -8, -7, -6, -5, -4, -3, -2, -1].map .fin) ∧
    modelSeasonMonth.fModel ⟨[0, 1, 2, 3, 4, 5, 6, 7, 8, 9, 10, 11], some ds, none, fun _ => none, false⟩
      (some [-11, -10, -9, -8, -7, -6, -5, -4, -3, -2, (-1 : ℚ)]) false = .ok (vecOf [0, -11, -10, -9, -8, -7, -6, -5, -4, -3, -2, -1]) := by
  refine ⟨[0, 31, 59, 90, 120, 151, 181, 212, 243, 273, 304, 334].map (· * DAY), ?_, ?_, ?_⟩ <;> decide +kernel

/-- **C100, violated.** A step in samples at `x` = 3, 4, 5, 6: the starting value of the location is the row 2, before the first sample, so that the model
with its starting values has no step within the data. -/
theorem C100_counterexample : ∃ (ax ay : List ℚ) (g : List (Ext ℚ)), LargestJump ay 2 ∧ ax.getD 2 0 = 5 ∧
    modelStep.fInit (fun _ => 0) ⟨some ax, some ay, none⟩ false = .ok g ∧ g = [.fin 2, .fin 10] ∧
    modelStep.fModel ⟨ax, none, none, fun _ => none, false⟩ (some [2, 10]) false = .ok (vecOf [10, 10, 10, 10]) := by
  refine ⟨[3, 4, 5, 6], [0, 0, 5, 5], _, ?_, rfl, by decide +kernel, rfl, by decide +kernel⟩
  refine ⟨by decide, by decide, ?_, ?_⟩
  · intro j _ hj
    match j, hj with
    | 0, _ => decide +kernel
    | 1, _ => decide +kernel
    | 2, _ => decide +kernel
    | 3, _ => decide +kernel
  · intro j hj hj'
    match j, hj, hj' with
    | 1, _, _ => decide +kernel

/-- **C100, violated.** A falling step starts as a rising one. -/
theorem C100_counterexample_down :
    modelStep.fInit (fun _ => (0 : ℚ)) ⟨some [0, 1, 2, 3], some [5, 5, 0, 0], none⟩ false = .ok [.fin 2, .fin 10] ∧
    modelStep.fModel ⟨[0, 1, 2, 3], none, none, fun _ => none, false⟩ (some [2, (10 : ℚ)]) false = .ok (vecOf [0, 0, 10, 10]) := by
  constructor <;> decide +kernel

/-- **C100, violated.** A spike at the third sample starts at the second. -/
theorem C100_counterexample_spike :
    modelSpike.fInit (fun _ => (0 : ℚ)) ⟨some [0, 1, 2, 3, 4], some [0, 0, 5, 0, 0], none⟩ false = .ok [.fin 5, .fin 1, .fin 2] ∧
    modelSpike.fModel ⟨[0, 1, 2, 3, 4], none, none, fun _ => none, false⟩ (some [5, 1, (2 : ℚ)]) false = .ok (vecOf [0, 5, 0, 0, 0]) := by
  constructor <;> decide +kernel

/-- **C100, violated.** A ramp from the fifth sample on starts at the sixth. -/
theorem C100_counterexample_ramp :
    modelRamp.fModel ⟨[0, 1, 2, 3, 4, 5, 6, 7, 8, 9], none, none, fun _ => none, false⟩ (some [4, (1 : ℚ)]) false = .ok (vecOf [0, 0, 0, 0, 0, 1, 2, 3, 4, 5]) ∧
    modelRamp.fInit (fun _ => (0 : ℚ)) ⟨some [0, 1, 2, 3, 4, 5, 6, 7, 8, 9], some [0, 0, 0, 0, 0, 1, 2, 3, 4, 5], none⟩ false = .ok [.fin 5, .fin 1] := by
  constructor <;> decide +kernel

example : modelTwoSteps.fInit (fun _ => (0 : ℚ)) ⟨some [0, 1, 2, 3, 4, 5], some [0, 0, 3, 3, 10, 10], none⟩ false =
    .ok [.fin 4, .fin 7, .fin 2, .fin 3] := by decide +kernel

example : max 2 (ceil15 10) < 10 - ceil15 10 := by decide

example : BuiltFrom LibraryModel (compose true (compose false modelLinear modelStep) (modelSeasonWday (K := ℚ))) :=
  .times _ _ (.plus _ _ (.part _ (.inl (by simp))) (.part _ (.inl (by simp)))) (.part _ (.inl (by simp)))

end Anticipy
