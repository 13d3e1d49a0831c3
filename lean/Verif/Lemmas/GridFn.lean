import Verif.Lemmas.OnGrid
import Mathlib.Algebra.Order.Field.Rat
import Mathlib.Algebra.Order.Floor.Ring
import Mathlib.Tactic.Positivity
import Mathlib.Tactic.FieldSimp
import Mathlib.Tactic.Push

/-
Grids as strictly increasing sequences, horizon arithmetic: helper lemmas for C21.
-/
namespace Anticipy
open Spec

/-- The `k`-th grid point. -/
def gridAt (f : Freq) (o k : Int) : Int :=
  match f with
  | .H => o + k * HOUR
  | f => anchorDay f k * DAY + todOf o

theorem gridAt_strictMono (f : Freq) (o : Int) : StrictMono (gridAt f o) := by
  by_cases hH : f = .H
  · subst hH; intro a b h; simp only [gridAt, HOUR]; omega
  · have : gridAt f o = fun k => anchorDay f k * DAY + todOf o := by
      funext k; cases f <;> simp_all [gridAt]
    rw [this]
    intro a b h
    have := anchorDay_strictMono f h
    simp only [DAY]; omega

theorem onGrid_gridAt (f : Freq) (hf : ValidFreq f) (o t : Int) :
    OnGrid civilOfDay weekdayOfDay f o t ↔ ∃ k, t = gridAt f o k := by
  by_cases hH : f = .H
  · subst hH
    simp only [OnGrid, gridAt, hourNs, HOUR]
    constructor
    · intro h; exact ⟨(t - o) / 3600000000000, by omega⟩
    · rintro ⟨k, rfl⟩; omega
  · have hg : ∀ k, gridAt f o k = anchorDay f k * DAY + todOf o := by
      intro k; cases f <;> simp_all [gridAt]
    rw [onGrid_iff f hf hH]
    simp only [hg]
    have ht := tod_range o
    constructor
    · rintro ⟨h1, k, hk⟩
      refine ⟨k, ?_⟩
      rw [← hk, ← h1]; exact (day_tod t).symm
    · rintro ⟨k, rfl⟩
      obtain ⟨e1, e2⟩ := dayOf_mul_add (anchorDay f k) (todOf o) ht.1 ht.2
      exact ⟨e2, k, e1⟩

/-- Number of grid dates after the last actual date. -/
theorem count_after (f : Freq) (hf : ValidFreq f) (a e ks m : Int) (hm : 0 ≤ m) (hle : a ≤ gridAt f a ks)
    (hmem : ∀ t, t ∈ dateRange a e f ↔ a ≤ t ∧ t ≤ e ∧ OnGrid civilOfDay weekdayOfDay f a t)
    (hend : ∀ k, gridAt f a k ≤ e ↔ k ≤ ks + m) :
    (((dateRange a e f).filter fun t => decide (gridAt f a ks < t)).length : Int) = m := by
  have hmono := gridAt_strictMono f a
  have key : (dateRange a e f).filter (fun t => decide (gridAt f a ks < t)) =
      (List.range m.toNat).map fun i : Nat => gridAt f a (ks + 1 + (i : Int)) := by
    apply sorted_ext
    · exact (dateRange_sorted a e f).filter _
    · rw [List.pairwise_map]
      exact List.pairwise_lt_range.imp fun {i j} h => hmono (by omega)
    · intro t
      simp only [List.mem_filter, hmem, onGrid_gridAt f hf, decide_eq_true_eq, List.mem_map, List.mem_range]
      constructor
      · rintro ⟨⟨h1, h2, k, rfl⟩, h4⟩
        have h4 := hmono.lt_iff_lt.1 h4
        rw [hend] at h2
        exact ⟨(k - ks - 1).toNat, by omega, by congr 1; omega⟩
      · rintro ⟨i, hi, rfl⟩
        have h1 := hmono (show ks < ks + 1 + (i : Int) by omega)
        exact ⟨⟨by omega, (hend _).2 (by omega), _, rfl⟩, h1⟩
  rw [key]; simp [hm]

theorem floor_mul_le (u : ℚ) (c j : Int) (hc : 0 < c) : j * c ≤ ⌊u * (c : ℚ)⌋ ↔ j ≤ ⌊u⌋ := by
  rw [Int.le_floor, Int.le_floor]
  push_cast
  have : (0 : ℚ) < (c : ℚ) := by exact_mod_cast hc
  exact mul_le_mul_iff_of_pos_right this

theorem floor_of_den_one (u : ℚ) (h : u.den = 1) : ⌊u⌋ = u.num := by
  rw [Rat.floor_def', h]; simp

/-- Adding months to a first of month. -/
theorem addMonths_monthStart (k n tod : Int) (h0 : 0 ≤ tod) (h1 : tod < DAY) :
    addMonths n (monthStart k * DAY + tod) = monthStart (k + n) * DAY + tod := by
  obtain ⟨e1, e2⟩ := dayOf_mul_add (monthStart k) tod h0 h1
  simp only [addMonths, dom, e1, e2, monthIdx_monthStart]
  have hd : domOfDay (monthStart k) = 1 := (dom_one_iff' _).2 ⟨k, rfl⟩
  have := daysInMonth_range ((k + n) / 12) ((k + n) % 12 + 1)
  rw [hd, min_eq_left (by omega)]
  simp

theorem dom_monthEnd (k : Int) : domOfDay (monthEnd k) = daysInMonth (k / 12) (k % 12 + 1) := by
  rw [domOfDay_eq, monthIdx_monthEnd]
  have := monthStart_succ k
  unfold monthEnd; omega

/-- Adding months to a month end. -/
theorem addMonths_monthEnd (k n tod : Int) (h0 : 0 ≤ tod) (h1 : tod < DAY) :
    addMonths n (monthEnd k * DAY + tod) =
      (monthStart (k + n) + (min (daysInMonth (k / 12) (k % 12 + 1)) (daysInMonth ((k + n) / 12) ((k + n) % 12 + 1)) - 1)) * DAY + tod := by
  obtain ⟨e1, e2⟩ := dayOf_mul_add (monthEnd k) tod h0 h1
  simp only [addMonths, dom, e1, e2, monthIdx_monthEnd, dom_monthEnd]

theorem addMonths_tod (n t : Int) : todOf (addMonths n t) = todOf t := by
  have ht := tod_range t
  unfold addMonths
  exact (dayOf_mul_add _ _ ht.1 ht.2).2

end Anticipy
