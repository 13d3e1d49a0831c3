import Verif.Model.Holidays
import Verif.Spec.Holidays
import Verif.Lemmas.Time
import Mathlib.Tactic.IntervalCases

/-
C52 (bank holidays fall on the statutory days).
-/
namespace Anticipy
open Spec

theorem ofCivil_eq (y m d : Int) (hm : 3 ≤ m) :
    ofCivil y m d = yearStart y + 59 + leapDay (isLeap y) + (153 * (m - 3) + 2) / 5 + (d - 1) := by
  unfold ofCivil monthOffset
  rw [if_neg (by omega)]; omega

theorem inMonth_iff (y m n : Int) (h1 : 1 ≤ m) (h2 : m ≤ 12) :
    InMonth civilOfDay y m n ↔ ofCivil y m 1 ≤ n ∧ n ≤ ofCivil y m (daysInMonth y m) := by
  constructor
  · rintro ⟨d, hd⟩
    have hv := civilOfDay_valid n
    rw [hd] at hv
    have hd' := (civilOfDay_eq_iff n y m d h1 h2 hv.2.2.1 (by rw [← monthLength_eq]; exact hv.2.2.2)).1 hd
    have := hv.2.2.1
    have := hv.2.2.2
    rw [monthLength_eq] at this
    rw [hd'] 
    unfold ofCivil
    omega
  · rintro ⟨ha, hb⟩
    refine ⟨n - ofCivil y m 1 + 1, ?_⟩
    rw [civilOfDay_eq_iff n y m _ h1 h2 (by omega) (by unfold ofCivil at *; omega)]
    unfold ofCivil
    omega

theorem weekdayForward_spec (w d : Int) (h0 : 0 ≤ w) (h6 : w ≤ 6) :
    weekdayOfDay (weekdayForward w 1 d) = w ∧ d ≤ weekdayForward w 1 d ∧ weekdayForward w 1 d ≤ d + 6 := by
  unfold weekdayForward weekdayOfDay; omega

theorem weekdayBack_spec (w d : Int) (h0 : 0 ≤ w) (h6 : w ≤ 6) :
    weekdayOfDay (weekdayBack w 1 d) = w ∧ weekdayBack w 1 d ≤ d ∧ d - 6 ≤ weekdayBack w 1 d := by
  unfold weekdayBack weekdayOfDay; omega

theorem firstOf_forward (w y m : Int) (h1 : 1 ≤ m) (h2 : m ≤ 12) (h0 : 0 ≤ w) (h6 : w ≤ 6) :
    FirstOf civilOfDay weekdayOfDay w y m (weekdayForward w 1 (ofCivil y m 1)) := by
  obtain ⟨a, b, c⟩ := weekdayForward_spec w (ofCivil y m 1) h0 h6
  have hd := daysInMonth_range y m
  refine ⟨a, (inMonth_iff y m _ h1 h2).2 ⟨b, ?_⟩, ?_⟩
  · unfold ofCivil at *; omega
  · intro k hk hw
    have := (inMonth_iff y m k h1 h2).1 hk
    unfold weekdayOfDay at *
    omega

theorem lastOf_back (w y m : Int) (h1 : 1 ≤ m) (h2 : m ≤ 12) (h0 : 0 ≤ w) (h6 : w ≤ 6) :
    LastOf civilOfDay weekdayOfDay w y m (weekdayBack w 1 (ofCivil y m (daysInMonth y m))) := by
  obtain ⟨a, b, c⟩ := weekdayBack_spec w (ofCivil y m (daysInMonth y m)) h0 h6
  have hd := daysInMonth_range y m
  refine ⟨a, (inMonth_iff y m _ h1 h2).2 ⟨?_, b⟩, ?_⟩
  · unfold ofCivil at *; omega
  · intro k hk hw
    have := (inMonth_iff y m k h1 h2).1 hk
    unfold weekdayOfDay at *
    omega

/-- The full moon of the algorithm used for Easter is the ecclesiastical one. -/
theorem paschalMoon_eq (y : Int) :
    let g := y % 19
    let c := y / 100
    let h := (c - c / 4 - (8 * c + 13) / 25 + 19 * g + 15) % 30
    paschalMoon y = 21 + (h - (h / 28) * (1 - (h / 28) * (29 / (h + 1)) * ((21 - g) / 11))) := by
  intro g c h
  have hh : 0 ≤ h ∧ h ≤ 29 := by simp only [h]; omega
  have hg : 0 ≤ g ∧ g ≤ 18 := by simp only [g]; omega
  have he : (11 * (g + 1) + 20 + ((8 * (c + 1) + 5) / 25 - 5) - (3 * (c + 1) / 4 - 12)) % 30 = (53 - h) % 30 := by
    have e1 : 3 * (c + 1) / 4 = c - c / 4 := by omega
    have e2 : 8 * (c + 1) + 5 = 8 * c + 13 := by omega
    simp only [h]
    rw [e1, e2]
    generalize (8 * c + 13) / 25 = k
    generalize c - c / 4 = l
    clear_value g
    omega
  unfold paschalMoon
  simp only [show y % 19 = g from rfl, show y / 100 = c from rfl, he]
  clear_value h g
  clear he
  by_cases h28 : h < 28
  · rw [show h / 28 = 0 by omega]
    simp only [zero_mul]
    split_ifs <;> omega
  · have : h = 28 ∨ h = 29 := by omega
    rcases this with rfl | rfl
    · norm_num
      by_cases hg' : g ≤ 10
      · rw [show (21 - g) / 11 = 1 by omega]
        split_ifs <;> omega
      · rw [show (21 - g) / 11 = 0 by omega]
        split_ifs <;> omega
    · norm_num

theorem easterDay_eq (y : Int) :
    0 ≤ paschalMoon y - 21 ∧ paschalMoon y - 21 ≤ 28 ∧
      easterDay y = ofCivil y 3 1 + 27 + (paschalMoon y - 21) -
        (y + y / 4 + (paschalMoon y - 21) + 2 - y / 100 + y / 100 / 4) % 7 := by
  have hm := paschalMoon_eq y
  have hr : 0 ≤ paschalMoon y - 21 ∧ paschalMoon y - 21 ≤ 28 := by
    unfold paschalMoon
    dsimp only
    split_ifs <;> omega
  dsimp only at hm
  refine ⟨hr.1, hr.2, ?_⟩
  have hi := eq_sub_iff_add_eq'.2 hm.symm
  unfold easterDay
  dsimp only
  rw [hi]
  generalize paschalMoon y - 21 = i at *
  have hj : 0 ≤ (y + y / 4 + i + 2 - y / 100 + y / 100 / 4) % 7 ∧ (y + y / 4 + i + 2 - y / 100 + y / 100 / 4) % 7 ≤ 6 := by omega
  generalize (y + y / 4 + i + 2 - y / 100 + y / 100 / 4) % 7 = j at *
  clear hi hm
  rw [show (i - j + 6) / 40 = 0 by omega]
  by_cases hp : i - j ≤ 3
  · rw [show (i - j + 26) / 30 = 0 by omega]
    rw [ofCivil_eq _ _ _ (by omega), ofCivil_eq _ _ _ (by omega)]
    omega
  · rw [show (i - j + 26) / 30 = 1 by omega]
    rw [ofCivil_eq _ _ _ (by omega), ofCivil_eq _ _ _ (by omega)]
    omega

theorem march1_weekday (y : Int) :
    (ofCivil y 3 1 + 3) % 7 = (y + y / 4 - y / 100 + y / 100 / 4 + 2) % 7 := by
  have h := yearStart_succ y
  have hl : (if isLeap y = true then (366 : Int) else 365) = 365 + leapDay (isLeap y) := yearLength_eq _
  rw [ofCivil_eq _ _ _ (by omega)]
  have e : yearStart y + leapDay (isLeap y) = yearStart (y + 1) - 365 := by omega
  rw [show yearStart y + 59 + leapDay (isLeap y) + (153 * (3 - 3) + 2) / 5 + (1 - 1) + 3 =
    yearStart y + leapDay (isLeap y) + 62 by omega, e]
  unfold yearStart
  have h4 : y / 100 / 4 = y / 400 := by omega
  rw [h4]
  have a1 : (y + 1 + 3) / 4 = y / 4 + 1 := by omega
  have a2 : (y + 1 + 99) / 100 = y / 100 + 1 := by omega
  have a3 : (y + 1 + 399) / 400 = y / 400 + 1 := by omega
  rw [a1, a2, a3]
  omega

/-- The holiday used for Easter by the calendars is Easter. -/
theorem easter_spec (y : Int) : IsEaster civilOfDay weekdayOfDay y (easterDay y) := by
  obtain ⟨h1, h2, h3⟩ := easterDay_eq y
  have hw := march1_weekday y
  refine ⟨ofCivil y 3 1, (civilOfDay_eq_iff _ y 3 1 (by omega) (by omega) (by omega)
    (by have := daysInMonth_range y 3; omega)).2 rfl, ?_, ?_, ?_⟩
  · unfold weekdayOfDay
    rw [h3]
    omega
  · rw [h3]; omega
  · rw [h3]; omega

end Anticipy
