import Verif.Model.Dummy
import Verif.Props.CalendarModels
import Verif.Props.Trends

/-
C07: all kinds of dummy variables.
-/
namespace Anticipy
open Spec
variable {K : Type} [Field K] [LinearOrder K]

/-- Which samples, given by x and date, a dummy variable marks. -/
def Spec.Marks : Dummy K → K → Timestamp → Prop
  | .function _, _, _ => False
  | .holiday r, _, t => IsHoliday [r] t
  | .calendar rules, _, t => IsHoliday rules t
  | .numbers l, x, _ => x ∈ l
  | .dates l, _, t => t ∈ l
  | .other _, _, _ => False

/-- The dummy variable is a holiday, a calendar or a non-empty list of numbers or dates; every holiday stays within a year of its reference date. -/
def Spec.Given : Dummy K → Prop
  | .function _ => False
  | .holiday r => NearYear r
  | .calendar rules => ∀ r ∈ rules, NearYear r
  | .numbers l => l ≠ []
  | .dates l => l ≠ []
  | .other _ => False

open Classical in
theorem marks_mask (d : Dummy K) (hg : Given d) : ∃ f, getFDummy d = .ok f ∧ ∀ samples : List (K × Timestamp), samples ≠ [] →
    f (samples.map Prod.fst) (some (samples.map Prod.snd)) = .ok (samples.map fun s => if Marks d s.1 s.2 then 1 else 0) := by
  cases d with
  | function f => exact hg.elim
  | other n => exact hg.elim
  | holiday r =>
    refine ⟨_, rfl, ?_⟩
    intro samples hs
    have hr : ∀ q ∈ [r], NearYear q := by
      intro q hq
      rw [List.mem_singleton.1 hq]
      exact hg
    rw [C54_single_holiday r hg, calendar_mask [r] hr _ _ (by simpa using hs), List.map_map]
    rfl
  | calendar rules =>
    refine ⟨_, rfl, ?_⟩
    intro samples hs
    rw [calendar_mask rules hg _ _ (by simpa using hs), List.map_map]
    rfl
  | numbers l =>
    refine ⟨_, if_neg hg, ?_⟩
    intro samples _
    unfold fDummyListNumeric isinMask
    rw [List.map_map]
    congr 1
    apply List.map_congr_left
    intro s _
    by_cases h : s.1 ∈ l <;> simp [Marks, h]
  | dates l =>
    refine ⟨_, if_neg hg, ?_⟩
    intro samples _
    unfold fDummyListDate isinMask
    dsimp only
    rw [List.map_map]
    congr 1
    apply List.map_congr_left
    intro s _
    by_cases h : s.2 ∈ l <;> simp [Marks, h]

open Classical in
/-- **C07** (any kind) A holiday, a calendar, a non-empty list of numbers and a non-empty list of dates are all accepted and give a model with one
parameter that it adds to exactly the samples marked, and 0 to the others; in multiplicative mode the others are left alone (factor 1), and the marked
ones get the factor `a + 1`. -/
theorem C07_any_partial (name : String) (d : Dummy K) (hg : Given d) :
    ∃ m, getModelDummyOf name d = .ok m ∧ m.nParams = 1 ∧ m.name = name ∧
      ∀ (samples : List (K × Timestamp)), samples ≠ [] → ∀ (act : Option (Frame K)) (a : K),
        m.fModel { ax := samples.map Prod.fst, adate := some (samples.map Prod.snd), actuals := act } (some [a]) false =
          .ok (.vec (samples.map fun s => some (if Marks d s.1 s.2 then a else 0))) ∧
        m.fModel { ax := samples.map Prod.fst, adate := some (samples.map Prod.snd), actuals := act } (some [a]) true =
          .ok (.vec (samples.map fun s => some (if Marks d s.1 s.2 then a + 1 else 1))) := by
  obtain ⟨f, hf, hmask⟩ := marks_mask d hg
  have hv : getModelDummy name f = .ok (dummyModel name f) := by
    let probe : List (K × Timestamp) := (List.range 10).map fun i : Nat => ((i : K), (17532 + (i : Int)) * DAY)
    have h1 := hmask probe (by simp [probe])
    have e1 : probe.map Prod.fst = (List.range 10).map fun i : Nat => (i : K) := by simp [probe, Function.comp_def]
    have e2 : probe.map Prod.snd = (List.range 10).map fun i : Nat => (17532 + (i : Int)) * DAY := by simp [probe, Function.comp_def]
    rw [e1, e2] at h1
    simp only [getModelDummy, validateFDummy, h1, Bind.bind, Except.bind, pyAssert]
    rw [if_pos]
    · rfl
    · rw [List.all_eq_true]
      intro v hv
      obtain ⟨s, -, rfl⟩ := List.mem_map.1 hv
      split <;> simp
  refine ⟨dummyModel name f, ?_, rfl, rfl, ?_⟩
  · unfold getModelDummyOf
    rw [hf]
    exact hv
  · intro samples hs act a
    have h2 := C07_dummy_function_partial name f _ hv (samples.map Prod.fst) (some (samples.map Prod.snd)) act _ (hmask samples hs)
      (by
        intro v hv
        obtain ⟨s, -, rfl⟩ := List.mem_map.1 hv
        split <;> simp) a
    rw [List.map_map, List.map_map] at h2
    refine ⟨h2.1.trans ?_, h2.2.trans ?_⟩ <;> congr 2 <;> apply List.map_congr_left <;> intro s _ <;> simp only [Function.comp] <;>
      by_cases h : Marks d s.1 s.2 <;> simp [h]

/-- **C07** (refusals) Nothing else is accepted: an empty list and a list of things that are neither numbers nor dates raise an error (`AssertionError` if it is empty, `ValueError` otherwise), a function is
accepted only if it marks the ten trial days with zeros and ones. -/
theorem C07_refused_partial (name : String) (l : List K) (ts : List Timestamp) (n : Nat) (f : DummyFn K) :
    (getModelDummyOf name (.numbers l) = .error .assertionError ↔ l = []) ∧
    (getModelDummyOf (K := K) name (.dates ts) = .error .assertionError ↔ ts = []) ∧
    getModelDummyOf (K := K) name (.other n) = .error (if n = 0 then .assertionError else .valueError) ∧
    (∀ m, getModelDummyOf name (.function f) = .ok m →
      ∃ mask, f ((List.range 10).map fun i : Nat => (i : K)) (some ((List.range 10).map fun i : Nat => (17532 + (i : Int)) * DAY)) = .ok mask ∧
        ∀ v ∈ mask, v = 0 ∨ v = 1) := by
  refine ⟨⟨?_, ?_⟩, ⟨?_, ?_⟩, ?_, ?_⟩
  · intro h
    by_contra hl
    obtain ⟨m, hm, -⟩ := C07_any_partial name (.numbers l) hl
    rw [hm] at h
    cases h
  · rintro rfl
    simp [getModelDummyOf, getFDummy, fDummyNumeric, Bind.bind, Except.bind]
  · intro h
    by_contra hl
    obtain ⟨m, hm, -⟩ := C07_any_partial (K := K) name (.dates ts) hl
    rw [hm] at h
    cases h
  · rintro rfl
    simp [getModelDummyOf, getFDummy, fDummyDates, Bind.bind, Except.bind]
  · unfold getModelDummyOf getFDummy
    dsimp only
    split_ifs <;> rfl
  · intro m h
    simp only [getModelDummyOf, getFDummy, getModelDummy, validateFDummy, Bind.bind, Except.bind] at h
    cases hf : f ((List.range 10).map fun i : Nat => (i : K)) (some ((List.range 10).map fun i : Nat => (17532 + (i : Int)) * DAY)) with
    | error e => rw [hf] at h; cases h
    | ok mask =>
      rw [hf] at h
      refine ⟨mask, rfl, ?_⟩
      unfold pyAssert at h
      dsimp only at h
      by_cases hall : (mask.all fun v => decide (v = 0) || decide (v = 1)) = true
      · intro v hv
        have := List.all_eq_true.1 hall v hv
        simpa using this
      · rw [if_neg hall] at h
        cases h

/-- Christmas Day as a holiday and as a list of one date, a number, and text. -/
example : (getModelDummyOf (K := ℚ) "d" (.holiday christmasDay) >>= fun m =>
      m.fModel { ax := [0, 1], adate := some [ofCivil 2019 12 24 * DAY, ofCivil 2019 12 25 * DAY] } (some [7]) false) = .ok (.vec [some 0, some 7]) ∧
    (getModelDummyOf (K := ℚ) "d" (.dates [ofCivil 2019 12 25 * DAY]) >>= fun m =>
      m.fModel { ax := [0, 1], adate := some [ofCivil 2019 12 24 * DAY, ofCivil 2019 12 25 * DAY] } (some [7]) false) = .ok (.vec [some 0, some 7]) ∧
    (getModelDummyOf (K := ℚ) "d" (.numbers [0]) >>= fun m =>
      m.fModel { ax := [0, 1], adate := some [ofCivil 2019 12 24 * DAY, ofCivil 2019 12 25 * DAY] } (some [7]) false) = .ok (.vec [some 7, some 0]) := by
  decide +kernel

end Anticipy
