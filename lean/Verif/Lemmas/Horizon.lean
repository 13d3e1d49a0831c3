import Verif.Lemmas.GridFn
import Verif.Lemmas.OnGrid
import Verif.Lemmas.Composition
import Verif.Spec.Horizon
import Mathlib.Tactic.Linarith
import Mathlib.Tactic.Positivity

/-
The grid of a longer horizon extends that of a shorter one.
-/
namespace Anticipy
open Spec

/-- A strictly increasing list is split by a bound. -/
theorem split_at (l : List Int) (h : l.Pairwise (· < ·)) (e : Int) :
    ∃ tl, l = l.filter (fun t => decide (t ≤ e)) ++ tl ∧ ∀ t ∈ tl, e < t := by
  induction l with
  | nil => exact ⟨[], rfl, by simp⟩
  | cons a l ih =>
    rw [List.pairwise_cons] at h
    by_cases ha : a ≤ e
    · obtain ⟨tl, h1, h2⟩ := ih h.2
      refine ⟨tl, ?_, h2⟩
      rw [List.filter_cons_of_pos (by simpa using ha), List.cons_append, ← h1]
    · refine ⟨a :: l, ?_, ?_⟩
      · rw [List.filter_cons_of_neg (by simpa using ha), List.filter_eq_nil_iff.2, List.nil_append]
        intro t ht
        have := h.1 t ht
        simp only [decide_eq_true_eq]
        omega
      · intro t ht
        rcases List.mem_cons.1 ht with rfl | ht
        · omega
        · have := h.1 t ht; omega

theorem addMonths_mono {m n : Int} (h : m ≤ n) (t : Int) : addMonths m t ≤ addMonths n t := by
  rcases eq_or_lt_of_le h with rfl | h
  · exact le_refl _
  · unfold addMonths
    dsimp only
    set k := monthIdxOfDay (dayOf t) + m with hk
    set k' := monthIdxOfDay (dayOf t) + n with hk'
    have h1 : monthStart k + daysInMonth (k / 12) (k % 12 + 1) ≤ monthStart k' := by
      have e : monthStart k + daysInMonth (k / 12) (k % 12 + 1) = monthStart (k + 1) := (monthStart_succ k).symm
      rw [e]
      rcases eq_or_lt_of_le (show k + 1 ≤ k' by omega) with e | e
      · rw [e]
      · exact monthStart_strictMono.monotone (le_of_lt e)
    have h2 := daysInMonth_range (k' / 12) (k' % 12 + 1)
    have h3 : 1 ≤ dom t := (domOfDay_range _).1
    have h4 := min_le_right (dom t) (daysInMonth (k / 12) (k % 12 + 1))
    have h5 : 1 ≤ min (dom t) (daysInMonth (k' / 12) (k' % 12 + 1)) := le_min h3 (by omega)
    have : (0 : Int) < DAY := by decide
    nlinarith

theorem addMonths_zero (t : Int) : addMonths 0 t = t := by
  unfold addMonths
  dsimp only
  obtain ⟨h1, h2⟩ := monthIdx_civil (dayOf t)
  have h3 := (domOfDay_range (dayOf t)).2
  have h4 := domOfDay_eq (dayOf t)
  rw [Int.add_zero, h1, h2, min_eq_left (show dom t ≤ _ from h3)]
  unfold dom
  rw [h4]
  unfold dayOf todOf
  have := Int.mul_ediv_add_emod t DAY
  linarith

/-- A longer horizon does not end before a shorter one, nor before the last sample. -/
theorem addHorizon_mono (f : Freq) (y y' : ℚ) (h0 : 0 ≤ y) (hy : y ≤ y') (t e e' : Int) (he : addHorizon f y t = .ok e) (he' : addHorizon f y' t = .ok e') :
    t ≤ e ∧ e ≤ e' := by
  have hq : (0 : ℚ) ≤ unitsPerYear f := by cases f <;> simp [unitsPerYear]
  have h1 : 0 ≤ y * unitsPerYear f := mul_nonneg h0 hq
  have h2 : y * unitsPerYear f ≤ y' * unitsPerYear f := mul_le_mul_of_nonneg_right hy hq
  have hH : (0 : ℚ) ≤ (HOUR : ℚ) := by exact_mod_cast (show (0 : Int) ≤ HOUR by decide)
  have hD : (0 : ℚ) ≤ (DAY : ℚ) := by exact_mod_cast (show (0 : Int) ≤ DAY by decide)
  have hfl : ∀ c : ℚ, 0 ≤ c → t ≤ t + ⌊y * unitsPerYear f * c⌋ ∧ t + ⌊y * unitsPerYear f * c⌋ ≤ t + ⌊y' * unitsPerYear f * c⌋ := by
    intro c hc
    have a := Int.floor_nonneg.2 (mul_nonneg h1 hc)
    have b := Int.floor_le_floor (mul_le_mul_of_nonneg_right h2 hc)
    omega
  have hnum : ∀ u v : ℚ, u.den = 1 → v.den = 1 → u ≤ v → u.num ≤ v.num := by
    intro u v hu hv huv
    have e1 : (u.num : ℚ) = u := Rat.den_eq_one_iff u |>.1 hu
    have e2 : (v.num : ℚ) = v := Rat.den_eq_one_iff v |>.1 hv
    rw [← e1, ← e2] at huv
    exact_mod_cast huv
  have hmon : ∀ u v : ℚ, u.den = 1 → v.den = 1 → 0 ≤ u → u ≤ v → t ≤ addMonths u.num t ∧ addMonths u.num t ≤ addMonths v.num t ∧
      t ≤ addMonths (12 * u.num) t ∧ addMonths (12 * u.num) t ≤ addMonths (12 * v.num) t := by
    intro u v hu hv h0 huv
    have a := hnum u v hu hv huv
    have b : 0 ≤ u.num := Rat.num_nonneg.2 h0
    have c1 := addMonths_mono b t
    have c2 := addMonths_mono (show 0 ≤ 12 * u.num by omega) t
    rw [addMonths_zero] at c1 c2
    exact ⟨c1, addMonths_mono a t, c2, addMonths_mono (by omega) t⟩
  cases f with
  | H => cases he; cases he'; exact hfl _ hH
  | D => cases he; cases he'; exact hfl _ hD
  | W w =>
    cases he; cases he'
    have := hfl (7 * (DAY : ℚ)) (mul_nonneg (by norm_num) hD)
    simpa only [mul_assoc] using this
  | Q => cases he
  | MS =>
    simp only [addHorizon] at he he'
    split_ifs at he he' with g1 g2
    cases he; cases he'
    obtain ⟨a, b, -⟩ := hmon _ _ g1 g2 h1 h2
    exact ⟨a, b⟩
  | M =>
    simp only [addHorizon] at he he'
    split_ifs at he he' with g1 g2
    cases he; cases he'
    obtain ⟨a, b, -⟩ := hmon _ _ g1 g2 h1 h2
    exact ⟨a, b⟩
  | YS =>
    simp only [addHorizon] at he he'
    split_ifs at he he' with g1 g2
    cases he; cases he'
    obtain ⟨-, -, a, b⟩ := hmon _ _ g1 g2 h1 h2
    exact ⟨a, b⟩
  | Y =>
    simp only [addHorizon] at he he'
    split_ifs at he he' with g1 g2
    cases he; cases he'
    obtain ⟨-, -, a, b⟩ := hmon _ _ g1 g2 h1 h2
    exact ⟨a, b⟩

/-- The longer range of dates starts with the shorter one. -/
theorem dateRange_extends (f : Freq) (hf : ValidFreq f) (a e e' : Int) (hee : e ≤ e') (ha : f = .H ∨ f = .D ∨ todOf a = 0) :
    ∃ tl, dateRange a e' f = dateRange a e f ++ tl ∧ (∀ t ∈ dateRange a e f, t ≤ e) ∧ ∀ t ∈ tl, e < t := by
  have hm : ∀ b, f = .H ∨ f = .D ∨ todOf a ≤ todOf b := by
    intro b
    rcases ha with h | h | h
    · exact .inl h
    · exact .inr (.inl h)
    · exact .inr (.inr (by rw [h]; exact (tod_range b).1))
  obtain ⟨tl, h1, h2⟩ := split_at (dateRange a e' f) (dateRange_sorted _ _ _) e
  have he : dateRange a e f = (dateRange a e' f).filter (fun t => decide (t ≤ e)) := by
    apply sorted_ext (dateRange_sorted _ _ _) ((dateRange_sorted _ _ _).filter _)
    intro t
    rw [List.mem_filter, mem_dateRange f hf a e t (hm e), mem_dateRange f hf a e' t (hm e'), decide_eq_true_iff]
    constructor
    · rintro ⟨g1, g2, g3⟩; exact ⟨⟨g1, by omega, g3⟩, g2⟩
    · rintro ⟨⟨g1, -, g3⟩, g2⟩; exact ⟨g1, g2, g3⟩
  refine ⟨tl, by rw [he]; exact h1, ?_, h2⟩
  intro t ht
  exact ((mem_dateRange f hf a e t (hm e)).1 ht).2.1

/-- The dated grid of a longer horizon. -/
theorem sxDate_extends (start stop : Int) (freq : Option Freq) (y y' : ℚ) (x0 : Int) (h0 : 0 ≤ y) (hy : y ≤ y')
    (hst : freq = some .H ∨ freq = some .D ∨ todOf start = 0) (l l' : List (Int × Int)) (h : sxExtrapolateDate start stop freq y x0 = .ok l)
    (h' : sxExtrapolateDate start stop freq y' x0 = .ok l') :
    ∃ bnd tl, stop ≤ bnd ∧ l' = l ++ tl ∧ (∀ p ∈ l, p.1 ≤ bnd) ∧ ∀ p ∈ tl, bnd < p.1 := by
  have key : ∀ f : Freq, ValidFreq f → (f = .H ∨ f = .D ∨ todOf start = 0) →
      (addHorizon f y stop >>= fun e => Except.ok ((dateRange start e f).map fun t => (t, (t - start) / DAY + x0))) = .ok l →
      (addHorizon f y' stop >>= fun e => Except.ok ((dateRange start e f).map fun t => (t, (t - start) / DAY + x0))) = .ok l' →
      ∃ bnd tl, stop ≤ bnd ∧ l' = l ++ tl ∧ (∀ p ∈ l, p.1 ≤ bnd) ∧ ∀ p ∈ tl, bnd < p.1 := by
    intro f hf hs h h'
    cases he : addHorizon f y stop with
    | error e => rw [he] at h; cases h
    | ok e =>
      cases he' : addHorizon f y' stop with
      | error e => rw [he'] at h'; cases h'
      | ok e' =>
        rw [he] at h
        rw [he'] at h'
        cases h
        cases h'
        obtain ⟨g1, g2⟩ := addHorizon_mono f y y' h0 hy stop e e' he he'
        obtain ⟨tl, g3, g4, g5⟩ := dateRange_extends f hf start e e' g2 hs
        refine ⟨e, tl.map fun t => (t, (t - start) / DAY + x0), g1, by rw [g3, List.map_append], ?_, ?_⟩
        · intro p hp
          obtain ⟨t, ht, rfl⟩ := List.mem_map.1 hp
          exact g4 t ht
        · intro p hp
          obtain ⟨t, ht, rfl⟩ := List.mem_map.1 hp
          exact g5 t ht
  have hwd : ValidFreq (.W (weekday start)) := by
    unfold ValidFreq weekday weekdayOfDay
    dsimp only
    omega
  unfold sxExtrapolateDate at h h'
  cases freq with
  | none =>
    refine key (.W (weekday start)) hwd (.inr (.inr ?_)) h h'
    rcases hst with h | h | h
    · cases h
    · cases h
    · exact h
  | some f =>
    have hst' : f = .H ∨ f = .D ∨ todOf start = 0 := by
      rcases hst with h | h | h
      · cases h; exact .inl rfl
      · cases h; exact .inr (.inl rfl)
      · exact .inr (.inr h)
    cases f with
    | W wd =>
      by_cases hw : weekday start = wd
      · subst hw
        refine key (.W (weekday start)) hwd hst' ?_ ?_
        · simpa [pyAssert, bind, Except.bind] using h
        · simpa [pyAssert, bind, Except.bind] using h'
      · simp [pyAssert, hw, bind, Except.bind] at h
    | H => exact key .H trivial hst' h h'
    | D => exact key .D trivial hst' h h'
    | MS => exact key .MS trivial hst' h h'
    | M => exact key .M trivial hst' h h'
    | Q => exact key .Q trivial hst' h h'
    | YS => exact key .YS trivial hst' h h'
    | Y => exact key .Y trivial hst' h h'

theorem arange_extends (a : Int) (b b' : ℚ) (h : b ≤ b') : ∃ tl, arange a b' = arange a b ++ tl ∧ ∀ t ∈ tl, b ≤ (t : ℚ) := by
  unfold arange
  have hc : (⌈b - (a : ℚ)⌉).toNat ≤ (⌈b' - (a : ℚ)⌉).toNat := Int.toNat_le_toNat (Int.ceil_le_ceil (by linarith))
  obtain ⟨k, hk⟩ := Nat.exists_eq_add_of_le hc
  rw [hk, List.range_add, List.map_append]
  refine ⟨_, rfl, ?_⟩
  intro t ht
  rw [List.map_map] at ht
  obtain ⟨j, -, rfl⟩ := List.mem_map.1 ht
  have h1 : b - (a : ℚ) ≤ (⌈b - (a : ℚ)⌉ : ℚ) := Int.le_ceil _
  have h2 : (⌈b - (a : ℚ)⌉ : ℚ) ≤ (((⌈b - (a : ℚ)⌉).toNat : Int) : ℚ) := by exact_mod_cast Int.self_le_toNat _
  simp only [Function.comp]
  push_cast at h2 ⊢
  have : (0 : ℚ) ≤ (j : ℚ) := Nat.cast_nonneg j
  linarith

theorem arange_lt (a : Int) (b : ℚ) (t : Int) (h : t ∈ arange a b) : (t : ℚ) < b := by
  unfold arange at h
  obtain ⟨i, hi, rfl⟩ := List.mem_map.1 h
  rw [List.mem_range, Int.lt_toNat] at hi
  have := Int.lt_ceil.1 hi
  push_cast at this ⊢
  linarith

theorem arange_length' (a : Int) (n : Nat) : (arange a ((a : ℚ) + (n : ℚ))).length = n := by
  unfold arange
  rw [List.length_map, List.length_range]
  have : (a : ℚ) + (n : ℚ) - (a : ℚ) = ((n : Int) : ℚ) := by push_cast; ring
  rw [this, Int.ceil_intCast, Int.toNat_natCast]

/-- The numeric grid of a longer horizon. -/
theorem sxNum_extends (start stop : Int) (y y' : ℚ) (x0 : Int) (h0 : 0 < y) (hy : y ≤ y') :
    ∃ bnd tl, stop ≤ bnd ∧ sxExtrapolateNum start stop y' x0 = sxExtrapolateNum start stop y x0 ++ tl ∧ (∀ p ∈ sxExtrapolateNum start stop y x0, p.1 ≤ bnd) ∧
      ∀ p ∈ tl, bnd < p.1 := by
  have hb : (stop : ℚ) + 100 * y ≤ (stop : ℚ) + 100 * y' := by linarith
  obtain ⟨t1, h1, h2⟩ := arange_extends start _ _ hb
  have hlen : (arange start ((stop : ℚ) + 100 * y)).length ≤ (arange start ((stop : ℚ) + 100 * y')).length := by rw [h1]; simp
  obtain ⟨t2, h3, -⟩ := arange_extends x0 ((x0 : ℚ) + ((arange start ((stop : ℚ) + 100 * y)).length : ℚ))
    ((x0 : ℚ) + ((arange start ((stop : ℚ) + 100 * y')).length : ℚ)) (by have : ((arange start ((stop : ℚ) + 100 * y)).length : ℚ) ≤ ((arange start ((stop : ℚ) + 100 * y')).length : ℚ) := (by exact_mod_cast hlen); linarith)
  refine ⟨⌈(stop : ℚ) + 100 * y⌉ - 1, List.zip t1 (t2.map (· + x0)), ?_, ?_, ?_, ?_⟩
  · have : stop < ⌈(stop : ℚ) + 100 * y⌉ := Int.lt_ceil.2 (by linarith)
    omega
  · unfold sxExtrapolateNum
    dsimp only
    rw [h3, List.map_append]
    conv_lhs => rw [h1]
    rw [List.zip_append]
    rw [List.length_map, arange_length']
  · intro p hp
    have := arange_lt _ _ _ (List.of_mem_zip hp).1
    have := Int.lt_ceil.2 this
    omega
  · intro p hp
    have := h2 _ (List.of_mem_zip hp).1
    have := Int.ceil_le.2 this
    omega

/-! ### Values on a longer grid -/

/-- Values that depend on the samples one by one are the same on a longer grid. -/
theorem series_extends {K : Type} (g : Int × Int → Option K) (sx tl : List (Int × Int)) (a a' : Arr K) (l l' : List (Int × Option K))
    (ha : Shaped sx.length a ∧ ∀ i p, sx[i]? = some p → valueAt a i = g p)
    (ha' : Shaped (sx ++ tl).length a' ∧ ∀ i p, (sx ++ tl)[i]? = some p → valueAt a' i = g p)
    (h : seriesOf (sx.map Prod.fst) a = .ok l) (h' : seriesOf ((sx ++ tl).map Prod.fst) a' = .ok l') :
    l = sx.map (fun p => (p.1, g p)) ∧ l' = (sx ++ tl).map (fun p => (p.1, g p)) := by
  have key : ∀ (sx : List (Int × Int)) (a : Arr K) (l : List (Int × Option K)), Shaped sx.length a → (∀ i p, sx[i]? = some p → valueAt a i = g p) →
      seriesOf (sx.map Prod.fst) a = .ok l → l = sx.map (fun p => (p.1, g p)) := by
    intro sx a l hs hv h
    cases a with
    | scalar v =>
      simp only [seriesOf, List.map_map] at h
      cases h
      apply List.map_congr_left
      intro p hp
      obtain ⟨i, hi⟩ := List.getElem?_of_mem hp
      have := hv i p hi
      simp only [valueAt] at this
      simp [this]
    | vec out =>
      have hs : out.length = sx.length := hs
      simp only [seriesOf, List.length_map, hs, if_true] at h
      cases h
      apply List.ext_getElem?
      intro i
      by_cases hi : i < sx.length
      · have := hv i sx[i] (List.getElem?_eq_getElem hi)
        simp only [valueAt, List.getElem?_eq_getElem (hs.symm ▸ hi), Option.join_some] at this
        rw [List.getElem?_map, List.getElem?_eq_getElem hi, List.getElem?_eq_getElem (by simp [hs, hi])]
        simp [this]
      · rw [List.getElem?_eq_none (by simp [hs]; omega), List.getElem?_eq_none (by simp; omega)]
  exact ⟨key _ _ _ ha.1 ha.2 h, key _ _ _ ha'.1 ha'.2 h'⟩

end Anticipy
