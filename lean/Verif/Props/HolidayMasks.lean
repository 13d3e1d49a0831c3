import Verif.Props.Holidays
import Verif.Lemmas.ListOps
import Mathlib.Algebra.Order.Ring.Rat

/-
C54 (calendar masks depend on the date only), C52 for the flagged days.
-/
namespace Anticipy
open Spec

/-- `t` is a holiday of the calendar: midnight of the day given by some rule for some year, within the rule's own validity. -/
def Spec.IsHoliday (rules : List HolidayRule) (t : Int) : Prop :=
  ∃ r ∈ rules, ∃ y, t = r.dayIn y * dayNs ∧ (∀ s ∈ r.startDate, s ≤ t) ∧ (∀ e ∈ r.endDate, t ≤ e)

/-- The adjusted holiday stays within one year of its reference date. -/
def Spec.NearYear (r : HolidayRule) : Prop := ∀ y, y - 1 ≤ yearOfDay (r.dayIn y) ∧ yearOfDay (r.dayIn y) ≤ y + 1

theorem yearOfDay_mono {a b : Int} (h : a ≤ b) : yearOfDay a ≤ yearOfDay b := by
  have ha := yearOfDay_spec a
  have hb := yearOfDay_spec b
  by_contra hc
  have := yearStart_le_of_lt (show yearOfDay b < yearOfDay a by omega)
  omega

theorem year_mono {a b : Int} (h : a ≤ b) : year a ≤ year b := by
  unfold year
  apply yearOfDay_mono
  unfold dayOf DAY
  omega

theorem year_midnight (d : Int) : year (d * DAY) = yearOfDay d := by
  unfold year dayOf DAY
  congr 1
  omega

theorem mem_refYears (r : HolidayRule) (s e y : Int) :
    y ∈ r.refYears s e ↔ year (r.startDate.getD s) - 1 ≤ y ∧ y ≤ year (r.endDate.getD e) + 1 := by
  unfold HolidayRule.refYears
  simp only [List.mem_map, List.mem_range]
  constructor
  · rintro ⟨i, hi, rfl⟩; omega
  · rintro ⟨h1, h2⟩
    exact ⟨(y - (year (r.startDate.getD s) - 1)).toNat, by omega, by omega⟩

theorem mem_ruleDates (r : HolidayRule) (hr : NearYear r) (s e t : Int) :
    t ∈ r.dates s e ↔ s ≤ t ∧ t ≤ e ∧ IsHoliday [r] t := by
  have hD : DAY = dayNs := by decide
  unfold HolidayRule.dates IsHoliday
  simp only [List.mem_filter, List.mem_map, mem_refYears, Bool.and_eq_true, decide_eq_true_eq, List.mem_singleton,
    exists_eq_left]
  constructor
  · rintro ⟨⟨y, hy, rfl⟩, h1, h2⟩
    cases hs : r.startDate <;> cases he : r.endDate <;>
      simp only [HolidayRule.from_, HolidayRule.until_, hs, he] at h1 h2 <;>
      refine ⟨by omega, by omega, y, by rw [hD], ?_, ?_⟩ <;> simp only [Option.mem_def, reduceCtorEq, Option.some.injEq, false_implies, implies_true, forall_eq'] <;> omega
  · rintro ⟨h1, h2, y, rfl, h3, h4⟩
    rw [← hD] at *
    have hn := hr y
    refine ⟨⟨y, ?_, rfl⟩, ?_, ?_⟩
    · have hyr := year_midnight (r.dayIn y)
      constructor
      · cases hs : r.startDate with
        | none => have := year_mono h1; simp only [Option.getD_none]; omega
        | some a => have := year_mono (h3 a (by simp [hs])); simp only [Option.getD_some]; omega
      · cases hs : r.endDate with
        | none => have := year_mono h2; simp only [Option.getD_none]; omega
        | some a => have := year_mono (h4 a (by simp [hs])); simp only [Option.getD_some]; omega
    · cases hs : r.startDate with
      | none => simpa [HolidayRule.from_, hs] using h1
      | some a => simpa [HolidayRule.from_, hs] using ⟨h3 a (by simp [hs]), h1⟩
    · cases hs : r.endDate with
      | none => simpa [HolidayRule.until_, hs] using h2
      | some a => simpa [HolidayRule.until_, hs] using ⟨h4 a (by simp [hs]), h2⟩

/-- What a calendar's cache contains: exactly the holidays of the cached window. -/
def CacheHolds (rules : List HolidayRule) (c : CalCache) : Prop :=
  ∀ s e l, c = some (s, e, l) → ∀ t, t ∈ l ↔ s ≤ t ∧ t ≤ e ∧ IsHoliday rules t

theorem mem_flatDates (rules : List HolidayRule) (hr : ∀ r ∈ rules, NearYear r) (s e t : Int) :
    (t ∈ rules.flatMap fun r => r.dates s e) ↔ s ≤ t ∧ t ≤ e ∧ IsHoliday rules t := by
  simp only [List.mem_flatMap]
  constructor
  · rintro ⟨r, hm, ht⟩
    obtain ⟨h1, h2, r', hr', h⟩ := (mem_ruleDates r (hr r hm) s e t).1 ht
    rw [List.mem_singleton] at hr'
    subst hr'
    exact ⟨h1, h2, r', hm, h⟩
  · rintro ⟨h1, h2, r, hm, h⟩
    exact ⟨r, hm, (mem_ruleDates r (hr r hm) s e t).2 ⟨h1, h2, r, by simp, h⟩⟩

theorem calHolidays_spec (rules : List HolidayRule) (hr : ∀ r ∈ rules, NearYear r) (c : CalCache) (hc : CacheHolds rules c)
    (s e : Int) :
    (∀ t, t ∈ (calHolidays rules c s e).1 ↔ s ≤ t ∧ t ≤ e ∧ IsHoliday rules t) ∧
      CacheHolds rules (calHolidays rules c s e).2 := by
  unfold calHolidays
  cases hcov : c.covers s e with
  | some l =>
    refine ⟨fun t => ?_, hc⟩
    cases c with
    | none => simp [CalCache.covers] at hcov
    | some q =>
      obtain ⟨s', e', l'⟩ := q
      simp only [CalCache.covers] at hcov
      split_ifs at hcov with hw
      cases hcov
      have := hc s' e' l rfl t
      simp only [List.mem_filter, this, Bool.and_eq_true, decide_eq_true_eq]
      constructor
      · rintro ⟨⟨_, _, h⟩, h1, h2⟩; exact ⟨h1, h2, h⟩
      · rintro ⟨h1, h2, h⟩; exact ⟨⟨by omega, by omega, h⟩, h1, h2⟩
  | none =>
    have hm : ∀ t, t ∈ sortBy (fun a b : Int => decide (a ≤ b)) (rules.flatMap fun r => r.dates s e) ↔
        s ≤ t ∧ t ≤ e ∧ IsHoliday rules t := fun t => by
      rw [(sortBy_perm _ _).mem_iff, mem_flatDates rules hr]
    refine ⟨fun t => ?_, ?_⟩
    · simp only [List.mem_filter, hm, Bool.and_eq_true, decide_eq_true_eq]
      tauto
    · intro s' e' l h
      cases h
      exact hm

theorem dateSpan_spec (ds : List Int) (a b : Int) (h : dateSpan ds = some (a, b)) : ∀ t ∈ ds, a ≤ t ∧ t ≤ b := by
  cases ds with
  | nil => cases h
  | cons d ds =>
    simp only [dateSpan, Option.some.injEq, Prod.mk.injEq] at h
    obtain ⟨rfl, rfl⟩ := h
    have key : ∀ (l : List Int) (x y : Int), x ≤ y →
        (l.foldl min x ≤ x ∧ y ≤ l.foldl max y) ∧ ∀ t ∈ l, l.foldl min x ≤ t ∧ t ≤ l.foldl max y := by
      intro l
      induction l with
      | nil => intro x y h; simp
      | cons c l ih =>
        intro x y h
        obtain ⟨⟨h1, h2⟩, h3⟩ := ih (min x c) (max y c) (by omega)
        simp only [List.foldl_cons, List.mem_cons]
        refine ⟨⟨by omega, by omega⟩, ?_⟩
        rintro t (rfl | ht)
        · omega
        · exact h3 t ht
    obtain ⟨⟨h1, h2⟩, h3⟩ := key ds d d (le_refl d)
    intro t ht
    rcases List.mem_cons.1 ht with rfl | ht
    · exact ⟨h1, h2⟩
    · exact h3 t ht

section
variable {K : Type} [Field K] [LinearOrder K]

/-- States a calendar object can be in: fresh, or after further evaluations of its mask on any dates. -/
inductive CalReachable (K : Type) [Field K] [LinearOrder K] (rules : List HolidayRule) : CalCache → Prop
  | fresh : CalReachable K rules none
  | call (c : CalCache) (ad : Option (List Timestamp)) (h : CalReachable K rules c) :
      CalReachable K rules (fDummyCalendarSt (K := K) rules c ad).2

theorem reachable_holds (rules : List HolidayRule) (hr : ∀ r ∈ rules, NearYear r) (c : CalCache)
    (h : CalReachable K rules c) : CacheHolds rules c := by
  induction h with
  | fresh => intro s e l h; cases h
  | call c ad _ ih =>
    unfold fDummyCalendarSt
    cases ad with
    | none => exact ih
    | some ds =>
      dsimp only
      cases hs : dateSpan ds with
      | none => exact ih
      | some p => exact (calHolidays_spec rules hr c ih p.1 p.2).2

open Classical in
/-- **C54** After any sequence of earlier evaluations, on any non-empty list of dates, a date is flagged exactly if it is a holiday:
neither the other dates of the series nor the calendar's history matter. -/
theorem C54_flags (rules : List HolidayRule) (hr : ∀ r ∈ rules, NearYear r) (c : CalCache) (h : CalReachable K rules c)
    (ds : List Int) (hd : ds ≠ []) :
    (fDummyCalendarSt (K := K) rules c (some ds)).1 = .ok (ds.map fun t => if IsHoliday rules t then 1 else 0) := by
  unfold fDummyCalendarSt
  dsimp only
  cases hs : dateSpan ds with
  | none => cases ds with
    | nil => exact absurd rfl hd
    | cons => cases hs
  | some p =>
    obtain ⟨a, b⟩ := p
    have := (calHolidays_spec rules hr c (reachable_holds rules hr c h) a b).1
    have hsp := dateSpan_spec ds a b hs
    dsimp only
    congr 1
    unfold isinMask
    apply List.map_congr_left
    intro t ht
    have e : (t ∈ (calHolidays rules c a b).1) = IsHoliday rules t := propext ⟨fun h => ((this t).1 h).2.2,
      fun h => (this t).2 ⟨(hsp t ht).1, (hsp t ht).2, h⟩⟩
    simp only [e]

/-- **C54** The state of the calendar object never matters. -/
theorem C54_stateless (rules : List HolidayRule) (hr : ∀ r ∈ rules, NearYear r) (c : CalCache) (h : CalReachable K rules c)
    (ax : List K) (ad : Option (List Int)) :
    (fDummyCalendarSt (K := K) rules c ad).1 = fDummyCalendar rules ax ad := by
  cases ad with
  | none => rfl
  | some ds =>
    by_cases hd : ds = []
    · subst hd; rfl
    · rw [C54_flags rules hr c h ds hd]
      unfold fDummyCalendar
      rw [C54_flags rules hr none .fresh ds hd]

/-- A holiday mask used on its own flags the same dates as a calendar with this single rule. -/
theorem C54_single_holiday (r : HolidayRule) (hr : NearYear r) (ax : List K) (ad : Option (List Int)) :
    fDummyHoliday r ax ad = fDummyCalendar [r] ax ad := by
  cases ad with
  | none => rfl
  | some ds =>
    unfold fDummyHoliday fDummyCalendar fDummyCalendarSt
    dsimp only
    cases hs : dateSpan ds with
    | none => rfl
    | some p =>
      obtain ⟨a, b⟩ := p
      dsimp only
      congr 1
      unfold isinMask
      apply List.map_congr_left
      intro t _
      exact if_congr (by rw [mem_ruleDates r hr, (calHolidays_spec [r] (by simpa using hr) none
        (by intro _ _ _ h; cases h) a b).1]) rfl rfl

end

/-! ### The rules of the built-in calendars stay near their year -/

theorem nearYear_of_shift (r : HolidayRule) (hm : 1 ≤ r.month) (hm' : r.month ≤ 12) (h1 : 1 ≤ r.day)
    (h2 : ∀ y, r.day ≤ daysInMonth y r.month)
    (h : ∀ d, d - 365 ≤ r.adjust d ∧ r.adjust d ≤ d + 365) : NearYear r := by
  intro y
  obtain ⟨hy, _⟩ := civil_ofCivil y r.month r.day hm hm' h1 (h2 y)
  have hs := yearOfDay_spec (ofCivil y r.month r.day)
  rw [hy] at hs
  have ha := h (ofCivil y r.month r.day)
  have e1 := yearStart_mono_step (y - 1)
  have e2 := yearStart_mono_step (y + 1)
  rw [show y - 1 + 1 = y by omega] at e1
  constructor
  · have : yearOfDay (yearStart (y - 1)) = y - 1 := yearOfDay_unique _ _ (le_refl _) (by rw [show y - 1 + 1 = y by omega]; omega)
    have := yearOfDay_mono (show yearStart (y - 1) ≤ r.dayIn y by unfold HolidayRule.dayIn; omega)
    omega
  · have : yearOfDay (yearStart (y + 1 + 1) - 1) = y + 1 := yearOfDay_unique _ _ (by omega) (by omega)
    have := yearOfDay_mono (show r.dayIn y ≤ yearStart (y + 1 + 1) - 1 by unfold HolidayRule.dayIn; omega)
    omega

theorem jan1_year (y : Int) : yearOfDay (ofCivil y 1 1) = y :=
  (civil_ofCivil y 1 1 (by omega) (by omega) (by omega) (by have := daysInMonth_range y 1; omega)).1

theorem dayIn_goodFriday (y : Int) : goodFriday.dayIn y = easterDay y - 2 := by
  simp only [goodFriday, HolidayRule.dayIn, easterOffset, jan1_year]; omega

theorem dayIn_easterMonday (y : Int) : easterMonday.dayIn y = easterDay y + 1 := by
  simp only [easterMonday, HolidayRule.dayIn, easterOffset, jan1_year]

theorem easter_near (y : Int) (k : Int) (hk : -3 ≤ k) (hk' : k ≤ 3) : yearOfDay (easterDay y + k) = y := by
  obtain ⟨h1, h2, h3⟩ := easterDay_eq y
  have e := yearStart_mono_step y
  rw [ofCivil_eq _ _ _ (by omega)] at h3
  have := leapDay_range (isLeap y)
  apply yearOfDay_unique <;> omega

theorem near_goodFriday : NearYear goodFriday := fun y => by
  rw [dayIn_goodFriday, show easterDay y - 2 = easterDay y + (-2) by omega, easter_near y _ (by omega) (by omega)]; omega

theorem near_easterMonday : NearYear easterMonday := fun y => by
  rw [dayIn_easterMonday, easter_near y _ (by omega) (by omega)]; omega

theorem nextMonday_range (d : Int) : d ≤ nextMonday d ∧ nextMonday d ≤ d + 2 := by
  unfold nextMonday; split_ifs <;> omega
theorem nextMondayOrTuesday_range (d : Int) : d ≤ nextMondayOrTuesday d ∧ nextMondayOrTuesday d ≤ d + 2 := by
  unfold nextMondayOrTuesday; split_ifs <;> omega

theorem fits28 (m d : Int) (h : d ≤ 28) : ∀ y, d ≤ daysInMonth y m := fun y => by
  have := daysInMonth_range y m; omega

theorem near_plain (m d : Int) (hm : 1 ≤ m) (hm' : m ≤ 12) (h1 : 1 ≤ d) (h2 : d ≤ 28) (f : Int → Int)
    (hf : ∀ k, k - 6 ≤ f k ∧ f k ≤ k + 6) : NearYear { month := m, day := d, adjust := f } :=
  nearYear_of_shift _ hm hm' h1 (fits28 m d h2) fun k => by have := hf k; dsimp only; omega

theorem near_fixed (m d : Int) (hm : 1 ≤ m) (hm' : m ≤ 12) (h1 : 1 ≤ d) (h2 : d ≤ 28) : NearYear { month := m, day := d } :=
  near_plain m d hm hm' h1 h2 id fun k => by simp only [id]; omega

theorem shift_monday (k : Int) : k - 6 ≤ nextMonday k ∧ nextMonday k ≤ k + 6 := by
  have := nextMonday_range k; omega
theorem shift_mondayTuesday (k : Int) : k - 6 ≤ nextMondayOrTuesday k ∧ nextMondayOrTuesday k ≤ k + 6 := by
  have := nextMondayOrTuesday_range k; omega

theorem near_earlyMay : NearYear earlyMay := near_plain 5 1 (by decide) (by decide) (by decide) (by decide) _ fun k => by
  have := weekdayForward_spec 0 k (by omega) (by omega); omega
theorem near_springHoliday : NearYear springHoliday :=
  nearYear_of_shift _ (by decide) (by decide) (by decide) (fun y => by simp [springHoliday, daysInMonth]) fun k => by
    have := weekdayBack_spec 0 k (by omega) (by omega); simp only [springHoliday]; omega
theorem near_augustHoliday : NearYear augustHoliday :=
  nearYear_of_shift _ (by decide) (by decide) (by decide) (fun y => by simp [augustHoliday, daysInMonth]) fun k => by
    have := weekdayBack_spec 0 k (by omega) (by omega); simp only [augustHoliday]; omega
theorem near_newYear : NearYear newYear := near_plain 1 1 (by decide) (by decide) (by decide) (by decide) _ shift_monday
theorem near_christmasDay : NearYear christmasDay :=
  near_plain 12 25 (by decide) (by decide) (by decide) (by decide) _ shift_monday
theorem near_boxingDay : NearYear boxingDay :=
  near_plain 12 26 (by decide) (by decide) (by decide) (by decide) _ shift_mondayTuesday
theorem near_epiphany : NearYear epiphany := near_plain 1 6 (by decide) (by decide) (by decide) (by decide) _ shift_monday

theorem near_bankHolUK : ∀ r ∈ bankHolUK, NearYear r := by
  simp only [bankHolUK, List.forall_mem_cons]
  exact ⟨near_goodFriday, near_easterMonday, near_earlyMay, near_springHoliday, near_augustHoliday, by simp⟩
theorem near_christmasUK : ∀ r ∈ christmasUK, NearYear r := by
  simp only [christmasUK, List.forall_mem_cons]
  exact ⟨near_newYear, near_christmasDay, near_boxingDay, by simp⟩
theorem near_bankHolIta : ∀ r ∈ bankHolIta, NearYear r := by
  simp only [bankHolIta, List.forall_mem_cons]
  refine ⟨near_easterMonday, ?_, ?_, ?_, ?_, ?_, ?_, by simp⟩ <;>
    exact near_fixed _ _ (by decide) (by decide) (by decide) (by decide)
theorem near_christmasIta : ∀ r ∈ christmasIta, NearYear r := by
  simp only [christmasIta, List.forall_mem_cons]
  exact ⟨near_newYear, near_christmasDay, near_boxingDay, near_epiphany, by simp⟩

end Anticipy
