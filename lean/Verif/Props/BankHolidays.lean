import Verif.Props.HolidayMasks
import Verif.Spec.CountryCalendars

/-
C52: the days flagged by the UK calendars, for all years and all series.
-/
namespace Anticipy
open Spec

theorem isEaster_unique (y n m : Int) (hn : IsEaster civilOfDay weekdayOfDay y n) (hm : IsEaster civilOfDay weekdayOfDay y m) :
    n = m := by
  obtain ⟨a, ha, h1, h2, h3⟩ := hn
  obtain ⟨b, hb, h4, h5, h6⟩ := hm
  have hd : (1 : Int) ≤ daysInMonth y 3 := by have := daysInMonth_range y 3; omega
  have ha := (civilOfDay_eq_iff a y 3 1 (by omega) (by omega) (by omega) hd).1 ha
  have hb := (civilOfDay_eq_iff b y 3 1 (by omega) (by omega) (by omega) hd).1 hb
  unfold weekdayOfDay at *
  omega

theorem firstOf_unique (w y m a b : Int) (ha : FirstOf civilOfDay weekdayOfDay w y m a)
    (hb : FirstOf civilOfDay weekdayOfDay w y m b) : a = b := by
  have := ha.2.2 b hb.2.1 hb.1
  have := hb.2.2 a ha.2.1 ha.1
  omega

theorem lastOf_unique (w y m a b : Int) (ha : LastOf civilOfDay weekdayOfDay w y m a)
    (hb : LastOf civilOfDay weekdayOfDay w y m b) : a = b := by
  have := ha.2.2 b hb.2.1 hb.1
  have := hb.2.2 a ha.2.1 ha.1
  omega

theorem earlyMay_spec (y : Int) : FirstOf civilOfDay weekdayOfDay 0 y 5 (earlyMay.dayIn y) :=
  firstOf_forward 0 y 5 (by omega) (by omega) (by omega) (by omega)

theorem springHoliday_spec (y : Int) : LastOf civilOfDay weekdayOfDay 0 y 5 (springHoliday.dayIn y) := by
  have := lastOf_back 0 y 5 (by omega) (by omega) (by omega) (by omega)
  rwa [show daysInMonth y 5 = 31 by simp [daysInMonth]] at this

theorem augustHoliday_spec (y n : Int) : LateAugustMonday civilOfDay weekdayOfDay y n ↔ n = augustHoliday.dayIn y := by
  have hw := weekdayBack_spec 0 (ofCivil y 8 30) (by omega) (by omega)
  have hdim : daysInMonth y 8 = 31 := by simp [daysInMonth]
  have hday : augustHoliday.dayIn y = weekdayBack 0 1 (ofCivil y 8 30) := rfl
  have key : ∀ d, 1 ≤ d → d ≤ 31 → (civilOfDay n = (y, 8, d) ↔ n = ofCivil y 8 1 + (d - 1)) := fun d h1 h2 => by
    rw [civilOfDay_eq_iff n y 8 d (by omega) (by omega) h1 (by omega)]
    unfold ofCivil; omega
  have h30 : ofCivil y 8 30 = ofCivil y 8 1 + 29 := by unfold ofCivil; omega
  rw [hday]
  constructor
  · rintro ⟨h0, d, hd, h1, h2⟩
    have := (key d (by omega) (by omega)).1 hd
    unfold weekdayOfDay at *
    omega
  · rintro rfl
    refine ⟨hw.1, weekdayBack 0 1 (ofCivil y 8 30) - ofCivil y 8 1 + 1, (key _ (by omega) (by omega)).2 (by omega), by omega, by omega⟩

theorem isHoliday_open (rules : List HolidayRule) (h : ∀ r ∈ rules, r.startDate = none ∧ r.endDate = none) (t : Int) :
    IsHoliday rules t ↔ ∃ y n, t = n * dayNs ∧ ∃ r ∈ rules, n = r.dayIn y := by
  constructor
  · rintro ⟨r, hr, y, ht, _⟩
    exact ⟨y, _, ht, r, hr, rfl⟩
  · rintro ⟨y, n, ht, r, hr, rfl⟩
    refine ⟨r, hr, y, ht, ?_, ?_⟩
    · rw [(h r hr).1]; simp
    · rw [(h r hr).2]; simp

section
variable {K : Type} [Field K] [LinearOrder K]

open Classical in
/-- **C52** For every non-empty list of dates, in every state of the calendar, the UK bank holiday mask flags exactly the midnights of: Good
Friday and Easter Monday, the first and the last Monday of May, and the last Monday on or before August 30. -/
theorem C52_bank_uk (civil : Int → Int × Int × Int) (wd : Int → Int) (hc : IsCalendar civil) (hw : IsWeek wd) (c : CalCache)
    (h : CalReachable K bankHolUK c) (ds : List Int) (hd : ds ≠ []) :
    (fDummyCalendarSt (K := K) bankHolUK c (some ds)).1 = .ok (ds.map fun t =>
      if ∃ y n, t = n * dayNs ∧ (IsEaster civil wd y (n + 2) ∨ IsEaster civil wd y (n - 1) ∨ FirstOf civil wd 0 y 5 n ∨
        LastOf civil wd 0 y 5 n ∨ LateAugustMonday civil wd y n) then 1 else 0) := by
  rw [isCalendar_unique civil hc, isWeek_unique wd hw, C54_flags bankHolUK near_bankHolUK c h ds hd]
  congr 1
  apply List.map_congr_left
  intro t _
  refine if_congr ?_ rfl rfl
  rw [isHoliday_open bankHolUK (by simp [bankHolUK, goodFriday, easterMonday, earlyMay, springHoliday, augustHoliday])]
  refine exists_congr fun y => exists_congr fun n => and_congr_right fun _ => ?_
  simp only [bankHolUK, List.mem_cons, List.not_mem_nil, or_false, exists_eq_or_imp, exists_eq_left, augustHoliday_spec]
  have e1 : n = goodFriday.dayIn y ↔ IsEaster civilOfDay weekdayOfDay y (n + 2) := by
    rw [dayIn_goodFriday]
    constructor
    · rintro rfl; rw [show easterDay y - 2 + 2 = easterDay y by omega]; exact easter_spec y
    · intro h; have := isEaster_unique y _ _ h (easter_spec y); omega
  have e2 : n = easterMonday.dayIn y ↔ IsEaster civilOfDay weekdayOfDay y (n - 1) := by
    rw [dayIn_easterMonday]
    constructor
    · rintro rfl; rw [show easterDay y + 1 - 1 = easterDay y by omega]; exact easter_spec y
    · intro h; have := isEaster_unique y _ _ h (easter_spec y); omega
  have e3 : n = earlyMay.dayIn y ↔ FirstOf civilOfDay weekdayOfDay 0 y 5 n :=
    ⟨fun h => h ▸ earlyMay_spec y, fun h => firstOf_unique 0 y 5 _ _ h (earlyMay_spec y)⟩
  have e4 : n = springHoliday.dayIn y ↔ LastOf civilOfDay weekdayOfDay 0 y 5 n :=
    ⟨fun h => h ▸ springHoliday_spec y, fun h => lastOf_unique 0 y 5 _ _ h (springHoliday_spec y)⟩
  rw [e1, e2, e3, e4]

end

/-- **C52** The August bank holiday is the last Monday of August exactly if August 31 is not a Monday. -/
theorem C52_august_partial (civil : Int → Int × Int × Int) (wd : Int → Int) (hc : IsCalendar civil) (hw : IsWeek wd) (y e : Int)
    (he : civil e = (y, 8, 31)) :
    LastOf civil wd 0 y 8 (augustHoliday.dayIn y) ↔ wd e ≠ 0 := by
  rw [isCalendar_unique civil hc, isWeek_unique wd hw] at *
  have hdim : daysInMonth y 8 = 31 := by simp [daysInMonth]
  have he' := (civilOfDay_eq_iff e y 8 31 (by omega) (by omega) (by omega) (by omega)).1 he
  have hday : augustHoliday.dayIn y = weekdayBack 0 1 (ofCivil y 8 30) := rfl
  have h30 : ofCivil y 8 31 = ofCivil y 8 30 + 1 := by unfold ofCivil; omega
  have hl := lastOf_back 0 y 8 (by omega) (by omega) (by omega) (by omega)
  rw [hdim] at hl
  constructor
  · intro h
    have := lastOf_unique 0 y 8 _ _ h hl
    rw [hday] at this
    subst he'
    unfold weekdayBack weekdayOfDay at *
    omega
  · intro h
    have : augustHoliday.dayIn y = weekdayBack 0 1 (ofCivil y 8 31) := by
      rw [hday]
      subst he'
      unfold weekdayBack weekdayOfDay at *
      omega
    rw [this]; exact hl

/-- In 2026 (and 2015, 2020, 2037, ...) the calendar has August 24 instead of August 31 (day numbers 20689 and 20696). -/
theorem C52_counterexample : augustHoliday.dayIn 2026 = ofCivil 2026 8 24 ∧
    LastOf civilOfDay weekdayOfDay 0 2026 8 (ofCivil 2026 8 31) ∧ ofCivil 2026 8 31 ≠ ofCivil 2026 8 24 := by
  refine ⟨by decide +kernel, ?_, by decide +kernel⟩
  have := lastOf_back 0 2026 8 (by omega) (by omega) (by omega) (by omega)
  rwa [show weekdayBack 0 1 (ofCivil 2026 8 (daysInMonth 2026 8)) = ofCivil 2026 8 31 by decide +kernel] at this

theorem nextMonday_first (d : Int) : FirstWorkday weekdayOfDay d (nextMonday d) := by
  unfold FirstWorkday WorkDay nextMonday weekdayOfDay
  split_ifs <;> refine ⟨by omega, by omega, fun k hk hk' => by omega⟩

/-- **C52** New Year's Day is observed on the first working day of the year, Christmas on the first working day from December 25
and Boxing Day on the first working day after that. -/
theorem C52_christmas_uk (civil : Int → Int × Int × Int) (wd : Int → Int) (hc : IsCalendar civil) (hw : IsWeek wd) (y j d : Int)
    (hj : civil j = (y, 1, 1)) (hd : civil d = (y, 12, 25)) :
    FirstWorkday wd j (newYear.dayIn y) ∧ FirstWorkday wd d (christmasDay.dayIn y) ∧
      FirstWorkday wd (christmasDay.dayIn y + 1) (boxingDay.dayIn y) := by
  rw [isCalendar_unique civil hc, isWeek_unique wd hw] at *
  have hr1 := daysInMonth_range y 1
  have hr12 := daysInMonth_range y 12
  have hj' := (civilOfDay_eq_iff j y 1 1 (by omega) (by omega) (by omega) (by omega)).1 hj
  have hd' := (civilOfDay_eq_iff d y 12 25 (by omega) (by omega) (by omega) (by omega)).1 hd
  have h26 : ofCivil y 12 26 = ofCivil y 12 25 + 1 := by unfold ofCivil; omega
  have e1 : newYear.dayIn y = nextMonday j := by subst hj'; rfl
  have e2 : christmasDay.dayIn y = nextMonday d := by subst hd'; rfl
  have e3 : boxingDay.dayIn y = nextMondayOrTuesday (d + 1) := by subst hd'; rw [← h26]; rfl
  rw [e1, e2, e3]
  refine ⟨nextMonday_first j, nextMonday_first d, ?_⟩
  unfold FirstWorkday WorkDay nextMonday nextMondayOrTuesday weekdayOfDay
  split_ifs <;> refine ⟨by omega, by omega, fun k hk hk' => by omega⟩

/-- **C52** In every year the UK calendars have eight different holidays, all of them working days. -/
theorem C52_uk_eight (wd : Int → Int) (hw : IsWeek wd) (y : Int) :
    ((bankHolUK ++ christmasUK).map fun r => r.dayIn y).Nodup ∧
      ∀ r ∈ bankHolUK ++ christmasUK, WorkDay wd (r.dayIn y) := by
  rw [isWeek_unique wd hw]
  obtain ⟨h1, h2, h3⟩ := easterDay_eq y
  have he := (easter_spec y).choose_spec.2.1
  have g1 := dayIn_goodFriday y
  have g2 := dayIn_easterMonday y
  have g3 : earlyMay.dayIn y = weekdayForward 0 1 (ofCivil y 5 1) := rfl
  have g4 : springHoliday.dayIn y = weekdayBack 0 1 (ofCivil y 5 31) := rfl
  have g5 : augustHoliday.dayIn y = weekdayBack 0 1 (ofCivil y 8 30) := rfl
  have g6 : newYear.dayIn y = nextMonday (ofCivil y 1 1) := rfl
  have g7 : christmasDay.dayIn y = nextMonday (ofCivil y 12 25) := rfl
  have g8 : boxingDay.dayIn y = nextMondayOrTuesday (ofCivil y 12 26) := rfl
  have w3 := weekdayForward_spec 0 (ofCivil y 5 1) (by omega) (by omega)
  have w4 := weekdayBack_spec 0 (ofCivil y 5 31) (by omega) (by omega)
  have w5 := weekdayBack_spec 0 (ofCivil y 8 30) (by omega) (by omega)
  have w6 := nextMonday_first (ofCivil y 1 1)
  have w7 := nextMonday_first (ofCivil y 12 25)
  have r6 := nextMonday_range (ofCivil y 1 1)
  have r7 := nextMonday_range (ofCivil y 12 25)
  have r8 := nextMondayOrTuesday_range (ofCivil y 12 26)
  have w8 : weekdayOfDay (nextMondayOrTuesday (ofCivil y 12 26)) ≤ 4 ∧
      nextMonday (ofCivil y 12 25) < nextMondayOrTuesday (ofCivil y 12 26) := by
    have h26 : ofCivil y 12 26 = ofCivil y 12 25 + 1 := by unfold ofCivil; omega
    rw [h26]
    unfold nextMonday nextMondayOrTuesday weekdayOfDay
    split_ifs <;> omega
  have l := leapDay_range (isLeap y)
  have o1 : ofCivil y 1 1 = yearStart y := by unfold ofCivil monthOffset; rw [if_pos (by omega)]; omega
  have o3 := ofCivil_eq y 3 1 (by omega)
  have o5 := ofCivil_eq y 5 1 (by omega)
  have o5' := ofCivil_eq y 5 31 (by omega)
  have o8 := ofCivil_eq y 8 30 (by omega)
  have o12 := ofCivil_eq y 12 25 (by omega)
  have o12' := ofCivil_eq y 12 26 (by omega)
  have j1 : 0 ≤ (y + y / 4 + (paschalMoon y - 21) + 2 - y / 100 + y / 100 / 4) % 7 ∧
    (y + y / 4 + (paschalMoon y - 21) + 2 - y / 100 + y / 100 / 4) % 7 ≤ 6 := by omega
  generalize (y + y / 4 + (paschalMoon y - 21) + 2 - y / 100 + y / 100 / 4) % 7 = j at *
  generalize paschalMoon y = q at *
  simp only [bankHolUK, christmasUK, List.cons_append, List.nil_append, List.map_cons, List.map_nil, List.nodup_cons,
    List.mem_cons, List.not_mem_nil, or_false, not_or, List.forall_mem_cons, g1, g2, g3, g4, g5, g6, g7, g8, not_false_eq_true,
    List.nodup_nil, and_true]
  constructor
  · omega
  · have u1 : weekdayOfDay (easterDay y - 2) ≤ 4 := by unfold weekdayOfDay at *; omega
    have u2 : weekdayOfDay (easterDay y + 1) ≤ 4 := by unfold weekdayOfDay at *; omega
    unfold WorkDay
    rintro r (rfl | rfl | rfl | rfl | rfl | rfl | rfl | rfl)
    · rw [g1]; exact u1
    · rw [g2]; exact u2
    · rw [g3]; omega
    · rw [g4]; omega
    · rw [g5]; omega
    · rw [g6]; exact w6.2.1
    · rw [g7]; exact w7.2.1
    · rw [g8]; exact w8.1

/-- 2021: Easter on April 4, Christmas on a Saturday. -/
example : easterDay 2021 = ofCivil 2021 4 4 ∧ christmasDay.dayIn 2021 = ofCivil 2021 12 27 ∧
    boxingDay.dayIn 2021 = ofCivil 2021 12 28 := by decide +kernel

#print axioms C52_bank_uk
#print axioms C52_uk_eight
end Anticipy
