import Verif.Spec.Grid
import Verif.Lemmas.Grid

/-
The model's anchors are the specified grids.
-/
namespace Anticipy
open Spec

theorem tod_eq_iff (o t : Int) : (t - o) % dayNs = 0 ↔ todOf t = todOf o := by
  simp only [dayNs, todOf, DAY]; omega

theorem dayNs_eq : dayNs = DAY := rfl
theorem hourNs_eq : hourNs = HOUR := rfl

theorem dom_one_iff' (d : Int) : domOfDay d = 1 ↔ ∃ k, d = monthStart k := by
  rw [dom_one_iff]
  constructor
  · intro h; exact ⟨_, h⟩
  · rintro ⟨k, rfl⟩; rw [monthIdx_monthStart]

theorem lastDom_iff (d : Int) : domOfDay (d + 1) = 1 ↔ d = monthEnd (monthIdxOfDay d) := by
  rw [dom_one_iff']
  constructor
  · rintro ⟨k, hk⟩
    have : d = monthEnd (k - 1) := by unfold monthEnd; rw [Int.sub_add_cancel]; omega
    conv_rhs => rw [this]
    rw [monthIdx_monthEnd, this]
  · intro h
    exact ⟨monthIdxOfDay d + 1, by unfold monthEnd at h; omega⟩

theorem lastDom_iff' (d : Int) : domOfDay (d + 1) = 1 ↔ ∃ k, d = monthEnd k := by
  rw [lastDom_iff]
  constructor
  · intro h; exact ⟨_, h⟩
  · rintro ⟨k, rfl⟩; rw [monthIdx_monthEnd]

theorem dec31_iff (d : Int) : (monthOfDay d = 12 ∧ domOfDay d = 31) ↔ ∃ k, d = monthEnd (12 * k + 11) := by
  have ⟨h1, h2⟩ := monthIdx_civil d
  have he := domOfDay_eq d
  constructor
  · rintro ⟨a, b⟩
    refine ⟨yearOfDay d, ?_⟩
    have hi : monthIdxOfDay d = 12 * yearOfDay d + 11 := by omega
    have hs := monthStart_succ (monthIdxOfDay d)
    rw [h2, h1, a] at hs
    have : daysInMonth (yearOfDay d) 12 = 31 := by simp [daysInMonth]
    rw [← hi]; unfold monthEnd; omega
  · rintro ⟨k, rfl⟩
    have hi := monthIdx_monthEnd (12 * k + 11)
    have hs := monthStart_succ (12 * k + 11)
    have e1 : (12 * k + 11) % 12 + 1 = 12 := by omega
    have : daysInMonth ((12 * k + 11) / 12) 12 = 31 := by simp [daysInMonth]
    rw [e1, this] at hs
    rw [hi] at he h2
    refine ⟨by omega, ?_⟩
    rw [he]; unfold monthEnd; omega

/-- The calendar grids are the anchors. -/
theorem onGrid_iff (f : Freq) (hf : ValidFreq f) (hH : f ≠ .H) (o t : Int) :
    OnGrid civilOfDay weekdayOfDay f o t ↔ todOf t = todOf o ∧ ∃ k, dayOf t = anchorDay f k := by
  have hd : t / dayNs = dayOf t := rfl
  cases f with
  | H => exact absurd rfl hH
  | D => simp only [OnGrid, tod_eq_iff, anchorDay]; simp
  | W w =>
    simp only [OnGrid, tod_eq_iff, anchorDay, hd, weekdayOfDay]
    simp only [ValidFreq] at hf
    refine and_congr_right fun _ => ⟨fun h => ⟨(dayOf t + 3) / 7, by omega⟩, ?_⟩
    rintro ⟨k, hk⟩; omega
  | MS => simp only [OnGrid, tod_eq_iff, anchorDay, hd, civilOfDay, dom_one_iff']
  | M => simp only [OnGrid, tod_eq_iff, anchorDay, hd, civilOfDay, lastDom_iff']
  | Q =>
    simp only [OnGrid, tod_eq_iff, anchorDay, hd, civilOfDay]
    refine and_congr_right fun _ => ?_
    have ⟨h1, h2⟩ := monthIdx_civil (dayOf t)
    rw [lastDom_iff]
    constructor
    · rintro ⟨h, h'⟩
      refine ⟨monthIdxOfDay (dayOf t) / 3, ?_⟩
      rw [show 3 * (monthIdxOfDay (dayOf t) / 3) + 2 = monthIdxOfDay (dayOf t) by omega]
      exact h
    · rintro ⟨k, hk⟩
      have hi := monthIdx_monthEnd (3 * k + 2)
      rw [← hk] at hi
      refine ⟨by rw [hi]; exact hk, by omega⟩
  | YS =>
    simp only [OnGrid, tod_eq_iff, anchorDay, hd, civilOfDay, Prod.mk.injEq]
    refine and_congr_right fun _ => ?_
    rw [and_comm, newYear_iff]
    constructor
    · intro h; exact ⟨_, h⟩
    · rintro ⟨k, hk⟩
      have hi := monthIdx_monthStart (12 * k)
      rw [← hk] at hi
      have ⟨h1, h2⟩ := monthIdx_civil (dayOf t)
      rw [show yearOfDay (dayOf t) = k by omega]; exact hk
  | Y =>
    simp only [OnGrid, tod_eq_iff, anchorDay, hd, civilOfDay, Prod.mk.injEq]
    exact and_congr_right fun _ => dec31_iff _

/-- `date_range` returns exactly the grid dates between start and end (times of day as in the generating code). -/
theorem mem_dateRange (f : Freq) (hf : ValidFreq f) (a b t : Int) (hab : f = .H ∨ f = .D ∨ todOf a ≤ todOf b) :
    t ∈ dateRange a b f ↔ a ≤ t ∧ t ≤ b ∧ OnGrid civilOfDay weekdayOfDay f a t := by
  by_cases hH : f = .H
  · subst hH; exact mem_dateRange_H a b t
  by_cases hD : f = .D
  · subst hD; exact mem_dateRange_D a b t
  have hab' : todOf a ≤ todOf b := by tauto
  rw [onGrid_iff f hf hH, mem_dateRange_cal f hH hD a b t hab']

/-- Two strictly increasing lists with the same members are equal. -/
theorem sorted_ext {l m : List Int} (hl : l.Pairwise (· < ·)) (hm : m.Pairwise (· < ·)) (h : ∀ t, t ∈ l ↔ t ∈ m) : l = m := by
  induction l generalizing m with
  | nil =>
    cases m with
    | nil => rfl
    | cons b m => exact absurd ((h b).2 (by simp)) (by simp)
  | cons a l ih =>
    cases m with
    | nil => exact absurd ((h a).1 (by simp)) (by simp)
    | cons b m =>
      rw [List.pairwise_cons] at hl hm
      have hab : a = b := by
        rcases List.mem_cons.1 ((h a).1 (by simp)) with e | ha
        · exact e
        · rcases List.mem_cons.1 ((h b).2 (by simp)) with e | hb
          · exact e.symm
          · have := hl.1 b hb; have := hm.1 a ha; omega
      subst hab
      rw [ih hl.2 hm.2]
      intro t
      constructor
      · intro ht
        rcases List.mem_cons.1 ((h t).1 (by simp [ht])) with e | h'
        · have := hl.1 t ht; omega
        · exact h'
      · intro ht
        rcases List.mem_cons.1 ((h t).2 (by simp [ht])) with e | h'
        · have := hm.1 t ht; omega
        · exact h'

end Anticipy
