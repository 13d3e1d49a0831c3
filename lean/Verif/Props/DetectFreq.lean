import Verif.Lemmas.OnGrid
import Verif.Lemmas.ListOps

/-
C19 (frequency detection), C20 (x coordinates from dates).
-/
namespace Anticipy
open Spec

/-! ### C19 -/

theorem sortedDates_spec (l : List Int) :
    (dedupBy (fun t : Int => t) (sortBy (fun a b : Int => decide (a ≤ b)) l)).Pairwise (· < ·) ∧
    ∀ t, t ∈ dedupBy (fun t : Int => t) (sortBy (fun a b : Int => decide (a ≤ b)) l) ↔ t ∈ l := by
  constructor
  · have h1 := sortBy_sorted (fun a b : Int => decide (a ≤ b)) (by simp; omega) (by simp; omega) l
    have h2 := h1.sublist (dedupBy_sublist (fun t : Int => t) (sortBy (fun a b : Int => decide (a ≤ b)) l))
    have h3 := dedupBy_keys_nodup (fun t : Int => t) (sortBy (fun a b : Int => decide (a ≤ b)) l)
    exact (h2.and h3).imp fun {a b} ⟨x, y⟩ => by simp at x; omega
  · intro t
    rw [mem_dedup]
    exact (sortBy_perm _ l).mem_iff

theorem diffs_cons (x y : Int) (r : List Int) : diffs (x :: y :: r) = (y - x) :: diffs (y :: r) := rfl

theorem mem_diffs (s : List Int) (hs : s.Pairwise (· < ·)) (e : Int) (he : e ∈ diffs s) :
    ∃ p ∈ s, ∃ q ∈ s, p < q ∧ e = q - p := by
  induction s with
  | nil => simp [diffs, pairs] at he
  | cons x s ih =>
    cases s with
    | nil => simp [diffs, pairs] at he
    | cons y r =>
      rw [diffs_cons] at he
      have hs' := List.pairwise_cons.1 hs
      rcases List.mem_cons.1 he with h | h
      · exact ⟨x, by simp, y, by simp, hs'.1 y (by simp), h⟩
      · obtain ⟨p, hp, q, hq, h1, h2⟩ := ih hs'.2 h
        exact ⟨p, List.mem_cons_of_mem _ hp, q, List.mem_cons_of_mem _ hq, h1, h2⟩

theorem diffs_le (s : List Int) (hs : s.Pairwise (· < ·)) (a b : Int) (ha : a ∈ s) (hb : b ∈ s) (hab : a < b) :
    ∃ e ∈ diffs s, e ≤ b - a := by
  induction s with
  | nil => simp at ha
  | cons x s ih =>
    have hs' := List.pairwise_cons.1 hs
    cases s with
    | nil => simp at ha hb; omega
    | cons y r =>
      rw [diffs_cons]
      have hs'' := List.pairwise_cons.1 hs'.2
      rcases List.mem_cons.1 hb with rfl | hb'
      · rcases List.mem_cons.1 ha with rfl | ha'
        · omega
        · have := hs'.1 a ha'; omega
      · rcases List.mem_cons.1 ha with rfl | ha'
        · refine ⟨y - a, by simp, ?_⟩
          rcases List.mem_cons.1 hb' with rfl | hb''
          · exact le_rfl
          · have := hs''.1 b hb''; omega
        · obtain ⟨e, he, hle⟩ := ih hs'.2 ha' hb'
          exact ⟨e, List.mem_cons_of_mem _ he, hle⟩

/-- The smallest gap between dates. -/
theorem minGap (l : List Int) (a b : Int) (ha : a ∈ l) (hb : b ∈ l) (hab : a < b) :
    ∃ d, listMin (diffs (dedupBy (fun t : Int => t) (sortBy (fun a b : Int => decide (a ≤ b)) l))) = some d ∧
      d ≤ b - a ∧ ∃ p ∈ l, ∃ q ∈ l, p < q ∧ d = q - p := by
  obtain ⟨hs, hm⟩ := sortedDates_spec l
  obtain ⟨e, he, hle⟩ := diffs_le _ hs a b ((hm a).2 ha) ((hm b).2 hb) hab
  cases hd : listMin (diffs (dedupBy (fun t : Int => t) (sortBy (fun a b : Int => decide (a ≤ b)) l))) with
  | none => rw [listMin_none] at hd; rw [hd] at he; simp at he
  | some d =>
    obtain ⟨h1, h2⟩ := (listMin_some _ d).1 hd
    obtain ⟨p, hp, q, hq, h3, h4⟩ := mem_diffs _ hs d h1
    exact ⟨d, rfl, (h2 e he).trans hle, p, (hm p).1 hp, q, (hm q).1 hq, h3, h4⟩

/-- Distance of neighbouring anchors. -/
theorem anchor_gap (f : Freq) (k : Int) :
    let g := anchorDay f (k + 1) - anchorDay f k
    match f with
    | .H | .D => g = 1
    | .W _ => g = 7
    | .MS | .M => 28 ≤ g ∧ g ≤ 31
    | .Q => 90 ≤ g ∧ g ≤ 92
    | .YS | .Y => 365 ≤ g ∧ g ≤ 366 := by
  cases f with
  | H => simp [anchorDay]
  | D => simp [anchorDay]
  | W w => simp only [anchorDay]; omega
  | MS => simp only [anchorDay]; have := monthStart_step k; omega
  | M => simp only [anchorDay, monthEnd]; have := monthStart_step (k + 1); omega
  | Q =>
    simp only [anchorDay, monthEnd]
    have h1 := monthStart_succ (3 * k + 3)
    have h2 := monthStart_succ (3 * k + 4)
    have h3 := monthStart_succ (3 * k + 5)
    rw [show 3 * k + 3 + 1 = 3 * k + 4 by omega] at h1
    rw [show 3 * k + 4 + 1 = 3 * k + 5 by omega] at h2
    rw [show 3 * k + 5 + 1 = 3 * k + 6 by omega] at h3
    rw [show 3 * (k + 1) + 2 + 1 = 3 * k + 6 by omega, show 3 * k + 2 + 1 = 3 * k + 3 by omega, h3, h2, h1]
    have hq : (3 * k + 3) % 12 = 0 ∨ (3 * k + 3) % 12 = 3 ∨ (3 * k + 3) % 12 = 6 ∨ (3 * k + 3) % 12 = 9 := by omega
    rcases hq with h | h | h | h
    · rw [h, show (3 * k + 4) % 12 = 1 by omega, show (3 * k + 5) % 12 = 2 by omega]
      simp [daysInMonth]; split_ifs <;> omega
    · rw [h, show (3 * k + 4) % 12 = 4 by omega, show (3 * k + 5) % 12 = 5 by omega]; simp [daysInMonth]; omega
    · rw [h, show (3 * k + 4) % 12 = 7 by omega, show (3 * k + 5) % 12 = 8 by omega]; simp [daysInMonth]; omega
    · rw [h, show (3 * k + 4) % 12 = 10 by omega, show (3 * k + 5) % 12 = 11 by omega]; simp [daysInMonth]; omega
  | YS =>
    simp only [anchorDay, monthStart, ofCivil]
    rw [show 12 * (k + 1) / 12 = k + 1 by omega, show 12 * (k + 1) % 12 = 0 by omega, show 12 * k / 12 = k by omega,
      show 12 * k % 12 = 0 by omega, yearStart_succ]
    simp only [monthOffset]
    split_ifs <;> omega
  | Y =>
    simp only [anchorDay, monthEnd, monthStart, ofCivil]
    rw [show (12 * (k + 1) + 11 + 1) / 12 = k + 1 + 1 by omega, show (12 * (k + 1) + 11 + 1) % 12 = 0 by omega,
      show (12 * k + 11 + 1) / 12 = k + 1 by omega, show (12 * k + 11 + 1) % 12 = 0 by omega, yearStart_succ (k + 1)]
    simp only [monthOffset]
    split_ifs <;> omega

/-- Any two distinct dates on a calendar grid are at least one anchor gap apart; neighbours exactly one. -/
theorem grid_gap (f : Freq) (hf : ValidFreq f) (hH : f ≠ .H) (o p q : Int)
    (hp : OnGrid civilOfDay weekdayOfDay f o p) (hq : OnGrid civilOfDay weekdayOfDay f o q) (hpq : p < q) :
    ∃ k, anchorDay f (k + 1) * DAY - anchorDay f k * DAY ≤ q - p := by
  rw [onGrid_iff f hf hH] at hp hq
  obtain ⟨tp, k, hk⟩ := hp
  obtain ⟨tq, j, hj⟩ := hq
  have dp := day_tod p
  have dq := day_tod q
  have hlt : anchorDay f k < anchorDay f j := by
    simp only [DAY] at *; omega
  have hkj := (anchorDay_strictMono f).lt_iff_lt.1 hlt
  have := (anchorDay_strictMono f).monotone (show k + 1 ≤ j by omega)
  refine ⟨k, ?_⟩
  simp only [DAY] at *; omega

theorem neighbour_gap (f : Freq) (hf : ValidFreq f) (hH : f ≠ .H) (a b : Int)
    (h : Neighbours civilOfDay weekdayOfDay f a b) :
    ∃ k, dayOf a = anchorDay f k ∧ b - a = anchorDay f (k + 1) * DAY - anchorDay f k * DAY := by
  obtain ⟨ha, hb, hab, hno⟩ := h
  simp only [onGrid_iff f hf hH] at ha hb hno
  obtain ⟨_, k, hk⟩ := ha
  obtain ⟨tb, j, hj⟩ := hb
  have da := day_tod a
  have db := day_tod b
  have ta := tod_range a
  refine ⟨k, hk, ?_⟩
  have hlt : anchorDay f k < anchorDay f j := by
    simp only [DAY] at *; omega
  have hkj := (anchorDay_strictMono f).lt_iff_lt.1 hlt
  by_cases hj' : j = k + 1
  · subst hj'; simp only [DAY] at *; omega
  · exfalso
    have h1 := anchorDay_strictMono f (show k < k + 1 by omega)
    have h2 := anchorDay_strictMono f (show k + 1 < j by omega)
    obtain ⟨e1, e2⟩ := dayOf_mul_add (anchorDay f (k + 1)) (todOf a) ta.1 ta.2
    refine hno (anchorDay f (k + 1) * DAY + todOf a) ?_ ?_ ⟨e2, k + 1, e1⟩
    · simp only [DAY] at *; omega
    · simp only [DAY] at *; omega

theorem listMax_eq_one (l : List Int) (hl : l ≠ []) : listMax l = some 1 ↔ (1 : Int) ∈ l ∧ ∀ x ∈ l, x ≤ 1 := listMax_some l 1

theorem allEq_listMax (l : List Int) (c : Int) (hne : l ≠ []) (h : ∀ x ∈ l, x = c) : listMax l = some c := by
  rw [listMax_some]
  obtain ⟨x, hx⟩ := List.exists_mem_of_ne_nil l hne
  exact ⟨h x hx ▸ hx, fun y hy => (h y hy).le⟩

/-- **C19** For dates on a regular grid - in any order, with any repetitions, even with gaps as long as two neighbouring grid dates
occur - the detected frequency is that of the grid. `civil` and `wd` are the Gregorian calendar and the weekdays, specified day
by day. -/
theorem C19_detect_freq (civil : Int → Int × Int × Int) (hc : IsCalendar civil) (wd : Int → Int) (hw : IsWeek wd)
    (f : Freq) (hf : ValidFreq f) (dates : List Int) (o : Int) (hgrid : ∀ t ∈ dates, OnGrid civil wd f o t)
    (hnb : ∃ a ∈ dates, ∃ b ∈ dates, Neighbours civil wd f a b) :
    detectFreq dates = some f := by
  rw [isCalendar_unique civil hc, isWeek_unique wd hw] at *
  obtain ⟨a, ha, b, hb, hab⟩ := hnb
  obtain ⟨d, hd, hdle, p, hp, q, hq, hpq, hdpq⟩ := minGap dates a b ha hb hab.2.2.1
  obtain ⟨hsorted, hmem⟩ := sortedDates_spec dates
  unfold detectFreq
  simp only [hd]
  generalize hs : dedupBy (fun t : Int => t) (sortBy (fun a b : Int => decide (a ≤ b)) dates) = s at *
  have hsne : s ≠ [] := fun h => by have := (hmem a).2 ha; rw [h] at this; simp at this
  by_cases hH : f = .H
  · subst hH
    have h1 : d = HOUR := by
      have hp' := hgrid p hp
      have hq' := hgrid q hq
      obtain ⟨_, hab2, hab3, hab4⟩ := hab
      simp only [OnGrid, hourNs] at hp' hq' hab2
      have := hab4 (a + HOUR)
      simp only [OnGrid, hourNs, HOUR] at this ⊢
      omega
    rw [if_pos h1]
  · obtain ⟨k, hka, hgap⟩ := neighbour_gap f hf hH a b hab
    obtain ⟨j, hj⟩ := grid_gap f hf hH o p q (hgrid p hp) (hgrid q hq) hpq
    have g1 := anchor_gap f k
    have g2 := anchor_gap f j
    have hda := day_tod a
    cases f with
    | H => exact absurd rfl hH
    | D =>
      simp only at g1 g2
      have hd1 : d = DAY := by simp only [DAY] at *; omega
      subst hd1
      simp only [DAY, HOUR]
      norm_num
    | W w =>
      simp only at g1 g2
      have hd1 : d = 7 * DAY := by simp only [DAY] at *; omega
      subst hd1
      rw [if_neg (by simp only [DAY, HOUR]; omega), if_pos rfl]
      cases hm : listMin s with
      | none => exact absurd ((listMin_none s).1 hm) hsne
      | some t =>
        have := hgrid t ((hmem t).1 ((listMin_some s t).1 hm).1)
        simp only [OnGrid] at this
        simp only [weekday]
        rw [show dayOf t = t / dayNs from rfl, this.2]
    | MS =>
      simp only at g1 g2
      have h1 : 28 * DAY ≤ d ∧ d ≤ 31 * DAY := by simp only [DAY] at *; omega
      rw [if_neg (by simp only [DAY, HOUR] at *; omega), if_neg (by simp only [DAY] at *; omega), if_pos h1, if_pos]
      apply allEq_listMax _ _ (by simpa using hsne)
      intro x hx
      obtain ⟨t, ht, rfl⟩ := List.mem_map.1 hx
      have := hgrid t ((hmem t).1 ht)
      simp only [OnGrid, civilOfDay] at this
      exact this.2
    | M =>
      simp only at g1 g2
      have h1 : 28 * DAY ≤ d ∧ d ≤ 31 * DAY := by simp only [DAY] at *; omega
      rw [if_neg (by simp only [DAY, HOUR] at *; omega), if_neg (by simp only [DAY] at *; omega), if_pos h1, if_neg]
      rw [listMax_some]
      rintro ⟨_, h⟩
      have := h (dom a) (List.mem_map.2 ⟨a, (hmem a).2 ha, rfl⟩)
      simp only [dom, hka, anchorDay] at this
      rw [domOfDay_eq, monthIdx_monthEnd] at this
      have := monthStart_step k
      unfold monthEnd at *
      omega
    | Q =>
      simp only at g1 g2
      have h1 : 89 * DAY ≤ d ∧ d ≤ 92 * DAY := by simp only [DAY] at *; omega
      rw [if_neg (by simp only [DAY, HOUR] at *; omega), if_neg (by simp only [DAY] at *; omega),
        if_neg (by simp only [DAY] at *; omega), if_pos h1]
    | YS =>
      simp only at g1 g2
      have h1 : 365 * DAY ≤ d ∧ d ≤ 366 * DAY := by simp only [DAY] at *; omega
      rw [if_neg (by simp only [DAY, HOUR] at *; omega), if_neg (by simp only [DAY] at *; omega),
        if_neg (by simp only [DAY] at *; omega), if_neg (by simp only [DAY] at *; omega), if_pos h1, if_pos]
      constructor <;>
      · apply allEq_listMax _ _ (by simpa using hsne)
        intro x hx
        obtain ⟨t, ht, rfl⟩ := List.mem_map.1 hx
        have := hgrid t ((hmem t).1 ht)
        simp only [OnGrid, civilOfDay, Prod.mk.injEq] at this
        first | exact this.2.2 | exact this.2.1
    | Y =>
      simp only at g1 g2
      have h1 : 365 * DAY ≤ d ∧ d ≤ 366 * DAY := by simp only [DAY] at *; omega
      rw [if_neg (by simp only [DAY, HOUR] at *; omega), if_neg (by simp only [DAY] at *; omega),
        if_neg (by simp only [DAY] at *; omega), if_neg (by simp only [DAY] at *; omega), if_pos h1, if_neg]
      rintro ⟨hx, _⟩
      rw [listMax_some] at hx
      have := hx.2 (dom a) (List.mem_map.2 ⟨a, (hmem a).2 ha, rfl⟩)
      have hd31 := (dec31_iff (dayOf a)).2 ⟨k, hka⟩
      simp only [dom] at this
      omega

/-- Month ends around a leap February, shuffled and repeated: 2020-02-29, 2020-01-31, 2020-02-29, 2020-03-31. -/
example : detectFreq [ofCivil 2020 2 29 * DAY, ofCivil 2020 1 31 * DAY, ofCivil 2020 2 29 * DAY, ofCivil 2020 3 31 * DAY]
    = some .M := by decide +kernel
example : detectFreq [ofCivil 2019 12 31 * DAY, ofCivil 2020 3 31 * DAY] = some .Q := by decide +kernel
example : detectFreq [ofCivil 2021 1 1 * DAY, ofCivil 2020 1 1 * DAY] = some .YS := by decide +kernel
/-- The hypotheses are met by 2020-02-29 and 2020-03-31. -/
example : ∃ a ∈ [ofCivil 2020 2 29 * DAY, ofCivil 2020 3 31 * DAY], ∃ b ∈ [ofCivil 2020 2 29 * DAY, ofCivil 2020 3 31 * DAY],
    Neighbours civilOfDay weekdayOfDay .M a b := by
  refine ⟨ofCivil 2020 2 29 * DAY, by simp, ofCivil 2020 3 31 * DAY, by simp,
    (show _ ∧ _ by decide +kernel), (show _ ∧ _ by decide +kernel), by decide +kernel, ?_⟩
  intro t h1 h2 ht
  rw [onGrid_iff .M trivial (by simp)] at ht
  obtain ⟨_, k, hk⟩ := ht
  have e1 : ofCivil 2020 2 29 = monthEnd (12 * 2020 + 1) := by decide +kernel
  have e2 : ofCivil 2020 3 31 = monthEnd (12 * 2020 + 2) := by decide +kernel
  have d1 : ofCivil 2020 2 29 ≤ dayOf t := by simp only [dayOf, DAY] at *; omega
  have d2 : dayOf t < ofCivil 2020 3 31 := by simp only [dayOf, DAY] at *; omega
  have htod : todOf t = todOf (ofCivil 2020 2 29 * DAY) := by assumption
  have hne : dayOf t ≠ ofCivil 2020 2 29 := by
    intro e
    have := day_tod t
    have z : todOf (ofCivil 2020 2 29 * DAY) = 0 := by decide +kernel
    rw [e, htod, z] at this
    omega
  rw [hk, e1] at d1 hne
  rw [hk, e2] at d2
  have m1 := (anchorDay_strictMono .M).le_iff_le.1 d1
  have m2 := (anchorDay_strictMono .M).lt_iff_lt.1 d2
  have : k = 12 * 2020 + 1 := by omega
  exact hne (by rw [this]; rfl)

/-! ### C20 -/

/-- **C20** Coordinates derived from dates: the first sample gets the weekday of the first date (0 to 6); differences of x are
differences of days for dates with one time of day; and x modulo 7 is the weekday. -/
theorem C20_normalized_x (wd : Int → Int) (hw : IsWeek wd) (d : Int) (rest : List Int) :
    (normalizedX (d :: rest)).length = (d :: rest).length ∧
    (normalizedX (d :: rest)).head? = some (wd (d / dayNs)) ∧
    ∀ i (hi : i < (d :: rest).length) x, (normalizedX (d :: rest))[i]? = some x →
      (x * dayNs ≤ (d :: rest)[i] - (d - wd (d / dayNs) * dayNs) ∧
        (d :: rest)[i] - (d - wd (d / dayNs) * dayNs) < (x + 1) * dayNs) ∧
      ((d :: rest)[i] % dayNs = d % dayNs →
        x - wd (d / dayNs) = (d :: rest)[i] / dayNs - d / dayNs ∧ x % 7 = wd ((d :: rest)[i] / dayNs)) := by
  rw [isWeek_unique wd hw]
  refine ⟨by simp [normalizedX], ?_, ?_⟩
  · simp only [normalizedX, List.map_cons, List.head?_cons, weekday, dayOf, DAY, dayNs, Option.some.injEq]
    rw [show (24 * 60 * 60 * 1000000000 : Int) = 86400000000000 from rfl]
    omega
  · intro i hi x hx
    simp only [normalizedX, List.getElem?_map, List.getElem?_eq_getElem hi, Option.map_some, Option.some.injEq] at hx
    generalize (d :: rest)[i] = t at *
    subst hx
    simp only [weekday, weekdayOfDay, dayOf, DAY, dayNs]
    norm_num
    omega

/-- Thursday 1970-01-01, Sunday 1969-12-28 (before the first row) and Monday 1970-01-12. -/
example : normalizedX [0, -4 * DAY, 11 * DAY] = [3, -1, 14] := by decide +kernel

end Anticipy

#print axioms Anticipy.C19_detect_freq
#print axioms Anticipy.C20_normalized_x
