import Verif.Model.Time
import Verif.Spec.Calendar
import Mathlib.Tactic.SplitIfs
import Mathlib.Data.Int.Init

namespace Anticipy

theorem isLeap_iff (y : Int) : isLeap y = true ↔ Spec.leap y := by
  unfold isLeap Spec.leap; simp; omega

theorem yearStart_succ (y : Int) :
    yearStart (y + 1) = yearStart y + (if isLeap y then 366 else 365) := by
  unfold yearStart
  by_cases h : isLeap y = true
  · rw [if_pos h]; rw [isLeap_iff] at h; unfold Spec.leap at h; omega
  · rw [if_neg h]; rw [isLeap_iff] at h; unfold Spec.leap at h; omega

theorem yearStart_mono_step (y : Int) : yearStart y + 365 ≤ yearStart (y + 1) := by
  unfold yearStart; omega

theorem yearOfDay_spec (n : Int) :
    yearStart (yearOfDay n) ≤ n ∧ n < yearStart (yearOfDay n + 1) := by
  unfold yearOfDay
  simp only
  split_ifs with h1 h2
  · refine ⟨?_, ?_⟩
    · unfold yearStart at *; omega
    · have : (400 * (n + 719528)) / 146097 - 1 + 1 = (400 * (n + 719528)) / 146097 := by omega
      rw [this]; exact h1
  · refine ⟨h2, ?_⟩
    unfold yearStart at *; omega
  · exact ⟨by omega, by omega⟩

theorem yearStart_le_of_lt {a b : Int} (h : a < b) : yearStart (a + 1) ≤ yearStart b := by
  unfold yearStart; omega

theorem yearOfDay_unique (n y : Int) (h1 : yearStart y ≤ n) (h2 : n < yearStart (y + 1)) :
    yearOfDay n = y := by
  have ⟨a, b⟩ := yearOfDay_spec n
  rcases Int.lt_trichotomy (yearOfDay n) y with h | h | h
  · have := yearStart_le_of_lt h; omega
  · exact h
  · have := yearStart_le_of_lt h; omega

end Anticipy

namespace Anticipy

theorem leapDay_range (b : Bool) : 0 ≤ leapDay b ∧ leapDay b ≤ 1 := by
  cases b <;> simp [leapDay]

theorem yearLength_eq (b : Bool) : (if b then (366 : Int) else 365) = 365 + leapDay b := by
  cases b <;> simp [leapDay]

theorem monthOffset_succ_year (y : Int) : yearStart y + monthOffset (isLeap y) 13 = yearStart (y+1) := by
  rw [yearStart_succ, yearLength_eq]; unfold monthOffset; simp; omega

theorem monthOfYday_range (b : Bool) (k : Int) (h1 : k < (if b then 366 else 365)) :
    1 ≤ monthOfYday b k ∧ monthOfYday b k ≤ 12 := by
  rw [yearLength_eq] at h1
  have := leapDay_range b
  unfold monthOfYday; split_ifs <;> omega

theorem monthOfYday_spec (b : Bool) (k : Int) (h0 : 0 ≤ k) :
    monthOffset b (monthOfYday b k) ≤ k ∧ k < monthOffset b (monthOfYday b k + 1) := by
  have := leapDay_range b
  unfold monthOfYday monthOffset; split_ifs <;> omega

theorem monthOffset_mono (b : Bool) {m m' : Int} (h : m ≤ m') : monthOffset b m ≤ monthOffset b m' := by
  have := leapDay_range b
  unfold monthOffset; split_ifs <;> omega

theorem monthOfYday_unique (b : Bool) (k m : Int) (h0 : 0 ≤ k) (h1 : k < (if b then 366 else 365))
    (hl : monthOffset b m ≤ k) (hu : k < monthOffset b (m + 1)) :
    monthOfYday b k = m := by
  have ⟨a, c⟩ := monthOfYday_spec b k h0
  have ⟨r1, r2⟩ := monthOfYday_range b k h1
  rcases Int.lt_trichotomy (monthOfYday b k) m with h | h | h
  · have := monthOffset_mono b (show monthOfYday b k + 1 ≤ m by omega); omega
  · exact h
  · have := monthOffset_mono b (show m + 1 ≤ monthOfYday b k by omega); omega

theorem daysInMonth_eq (y m : Int) (h1 : 1 ≤ m) (h2 : m ≤ 12) :
    monthOffset (isLeap y) (m + 1) = monthOffset (isLeap y) m + daysInMonth y m := by
  have : m = 1 ∨ m = 2 ∨ m = 3 ∨ m = 4 ∨ m = 5 ∨ m = 6 ∨ m = 7 ∨ m = 8 ∨ m = 9 ∨ m = 10 ∨ m = 11 ∨ m = 12 := by
    omega
  unfold daysInMonth monthOffset leapDay
  rcases this with h | h | h | h | h | h | h | h | h | h | h | h <;> subst h <;>
    cases isLeap y <;> decide

theorem monthLength_eq (y m : Int) : Spec.monthLength y m = daysInMonth y m := by
  unfold Spec.monthLength daysInMonth
  simp only [List.mem_cons, List.not_mem_nil, or_false]
  by_cases h : m = 2
  · simp only [h, if_true]
    by_cases hl : isLeap y = true
    · rw [if_pos hl, if_pos ((isLeap_iff y).1 hl)]
    · rw [if_neg hl, if_neg (fun hh => hl ((isLeap_iff y).2 hh))]
  · simp only [h, if_false]

/-- Civil date of a day number. -/
def civilOfDay (n : Int) : Int × Int × Int := (yearOfDay n, monthOfDay n, domOfDay n)


theorem yday_bounds (n : Int) : 0 ≤ n - yearStart (yearOfDay n) ∧
    n - yearStart (yearOfDay n) < (if isLeap (yearOfDay n) then 366 else 365) := by
  have ⟨a, b⟩ := yearOfDay_spec n
  rw [yearStart_succ] at b
  omega

theorem monthOfDay_range (n : Int) : 1 ≤ monthOfDay n ∧ monthOfDay n ≤ 12 :=
  monthOfYday_range _ _ (yday_bounds n).2

theorem monthOfDay_spec (n : Int) :
    yearStart (yearOfDay n) + monthOffset (isLeap (yearOfDay n)) (monthOfDay n) ≤ n ∧
    n < yearStart (yearOfDay n) + monthOffset (isLeap (yearOfDay n)) (monthOfDay n + 1) := by
  have ⟨a, b⟩ := yday_bounds n
  have := monthOfYday_spec (isLeap (yearOfDay n)) _ a
  unfold monthOfDay; omega

theorem domOfDay_range (n : Int) : 1 ≤ domOfDay n ∧ domOfDay n ≤ daysInMonth (yearOfDay n) (monthOfDay n) := by
  have ⟨a, b⟩ := monthOfDay_spec n
  have ⟨r1, r2⟩ := monthOfDay_range n
  rw [daysInMonth_eq _ _ r1 r2] at b
  unfold domOfDay; omega

theorem daysInMonth_range (y m : Int) : 28 ≤ daysInMonth y m ∧ daysInMonth y m ≤ 31 := by
  unfold daysInMonth; split_ifs <;> omega

theorem ofCivil_civilOfDay (n : Int) : ofCivil (yearOfDay n) (monthOfDay n) (domOfDay n) = n := by
  unfold ofCivil domOfDay; omega

theorem civil_ofCivil (y m d : Int) (h1 : 1 ≤ m) (h2 : m ≤ 12) (h3 : 1 ≤ d) (h4 : d ≤ daysInMonth y m) :
    yearOfDay (ofCivil y m d) = y ∧ monthOfDay (ofCivil y m d) = m ∧ domOfDay (ofCivil y m d) = d := by
  have e := daysInMonth_eq y m h1 h2
  have p0 : 0 ≤ monthOffset (isLeap y) m := by
    have := monthOffset_mono (isLeap y) h1
    have z : monthOffset (isLeap y) 1 = 0 := by simp [monthOffset]
    omega
  have p1 := monthOffset_mono (isLeap y) (show m + 1 ≤ 13 by omega)
  have p2 := monthOffset_succ_year y
  have hy : yearOfDay (ofCivil y m d) = y := by
    apply yearOfDay_unique <;> unfold ofCivil <;> omega
  have hm : monthOfDay (ofCivil y m d) = m := by
    unfold monthOfDay
    rw [hy]
    have q := yearStart_succ y
    apply monthOfYday_unique <;> first | assumption | (unfold ofCivil; split_ifs at * <;> omega)
  refine ⟨hy, hm, ?_⟩
  unfold domOfDay
  rw [hm, hy]; unfold ofCivil; omega

theorem civilOfDay_eq_iff (n y m d : Int) (h1 : 1 ≤ m) (h2 : m ≤ 12) (h3 : 1 ≤ d) (h4 : d ≤ daysInMonth y m) :
    civilOfDay n = (y, m, d) ↔ n = ofCivil y m d := by
  constructor
  · intro h
    simp only [civilOfDay, Prod.mk.injEq] at h
    rw [← h.1, ← h.2.1, ← h.2.2, ofCivil_civilOfDay]
  · rintro rfl
    have := civil_ofCivil y m d h1 h2 h3 h4
    simp only [civilOfDay, this]

theorem civilOfDay_succ (n : Int) : civilOfDay (n + 1) = Spec.nextDay (civilOfDay n) := by
  have ⟨r1, r2⟩ := monthOfDay_range n
  have ⟨s1, s2⟩ := domOfDay_range n
  have e := ofCivil_civilOfDay n
  unfold Spec.nextDay
  show civilOfDay (n+1) = if domOfDay n < Spec.monthLength (yearOfDay n) (monthOfDay n) then _ else _
  rw [monthLength_eq]
  revert r1 r2 s1 s2 e
  generalize hd : domOfDay n = d
  generalize hm : monthOfDay n = m
  generalize hy : yearOfDay n = y
  intro r1 r2 s1 s2 e
  have dm := daysInMonth_eq y m r1 r2
  split_ifs with c1 c2
  · rw [civilOfDay_eq_iff _ _ _ _ r1 r2 (by omega) (by omega)]
    unfold ofCivil at *; omega
  · have := daysInMonth_range y (m+1)
    rw [civilOfDay_eq_iff _ _ _ _ (by omega) (by omega) (by omega) (by omega)]
    unfold ofCivil at *; omega
  · have := daysInMonth_range (y+1) 1
    rw [civilOfDay_eq_iff _ _ _ _ (by omega) (by omega) (by omega) (by omega)]
    have p := monthOffset_succ_year y
    have : m = 12 := by omega
    subst this
    have z : monthOffset (isLeap (y+1)) 1 = 0 := by simp [monthOffset]
    unfold ofCivil at *
    rw [z]
    rw [show (12:Int)+1 = 13 from rfl] at dm
    omega

theorem civilOfDay_valid (n : Int) : Spec.ValidDate (civilOfDay n) := by
  have h1 := monthOfDay_range n
  have h2 := domOfDay_range n
  simp only [civilOfDay, Spec.ValidDate, monthLength_eq]
  omega

/-- The model's calendar is the Gregorian calendar. -/
theorem civilOfDay_isCalendar : Spec.IsCalendar civilOfDay :=
  ⟨by decide, civilOfDay_succ, civilOfDay_valid⟩

theorem nextDay_inj (a b : Int × Int × Int) (ha : Spec.ValidDate a) (hb : Spec.ValidDate b)
    (h : Spec.nextDay a = Spec.nextDay b) : a = b := by
  obtain ⟨y, m, d⟩ := a
  obtain ⟨y', m', d'⟩ := b
  simp only [Spec.ValidDate, monthLength_eq] at ha hb
  simp only [Spec.nextDay, monthLength_eq] at h
  have := daysInMonth_range y m
  have := daysInMonth_range y' m'
  split_ifs at h with h1 h2 h3 h4 h5 h6 h7 h8 <;> simp only [Prod.mk.injEq] at h ⊢ <;>
    (obtain ⟨e1, e2, e3⟩ := h) <;> (try omega)
  · have e1' : y = y' := e1
    have e2' : m = m' := by omega
    subst e1'; subst e2'; omega
  · have e1' : y = y' := by omega
    have e2' : m = 12 := by omega
    have e3' : m' = 12 := by omega
    subst e1'; subst e2'; subst e3'; omega

/-- There is only one Gregorian calendar. -/
theorem isCalendar_unique (c : Int → Int × Int × Int) (h : Spec.IsCalendar c) : c = civilOfDay := by
  funext n
  induction n using Int.induction_on with
  | zero => rw [h.1, civilOfDay_isCalendar.1]
  | succ i ih => rw [h.2.1, civilOfDay_succ, ih]
  | pred i ih =>
    apply nextDay_inj _ _ (h.2.2 _) (civilOfDay_valid _)
    rw [← h.2.1, ← civilOfDay_succ]
    simpa using ih

theorem weekdayOfDay_isWeek : Spec.IsWeek weekdayOfDay := by
  refine ⟨by decide, fun n => ?_, fun n => ?_⟩ <;> simp only [weekdayOfDay]
  · split_ifs <;> omega
  · omega

theorem isWeek_unique (w : Int → Int) (h : Spec.IsWeek w) : w = weekdayOfDay := by
  funext n
  have hw := weekdayOfDay_isWeek
  induction n using Int.induction_on with
  | zero => rw [h.1, hw.1]
  | succ i ih => rw [h.2.1, hw.2.1, ih]
  | pred i ih =>
    have e1 := h.2.1 (-(i : Int) - 1)
    have e2 := hw.2.1 (-(i : Int) - 1)
    have r1 := h.2.2 (-(i : Int) - 1)
    have r2 := hw.2.2 (-(i : Int) - 1)
    simp only [Int.sub_add_cancel] at e1 e2
    rw [ih] at e1
    rw [e1] at e2
    split_ifs at e2 <;> omega

theorem fallsOn_iff (t d : Int) : Spec.FallsOn t d ↔ dayOf t = d := by
  simp only [Spec.FallsOn, Spec.dayNs, dayOf, DAY]; omega

end Anticipy
