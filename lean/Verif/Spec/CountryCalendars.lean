import Verif.Spec.Holidays

/-
Independent specification of the public holidays of the United Kingdom, Italy and the United States: for year `y`, is day number `n` one
of them? `civil` and `wd` are any functions that are the Gregorian calendar and the week.
-/
namespace Anticipy.Spec

/-- Last Monday on or before August 30. -/
def LateAugustMonday (civil : Int → Int × Int × Int) (wd : Int → Int) (y n : Int) : Prop :=
  wd n = 0 ∧ ∃ d, civil n = (y, 8, d) ∧ 24 ≤ d ∧ d ≤ 30

/-- `n` is the first working day on or after `from_`. -/
def FirstWorkday (wd : Int → Int) (from_ n : Int) : Prop :=
  from_ ≤ n ∧ WorkDay wd n ∧ ∀ k, from_ ≤ k → k < n → ¬ WorkDay wd k

/-- `n` is the working day closest to `d` (unique: only weekends are moved). -/
def NearestWorkday (wd : Int → Int) (d n : Int) : Prop := WorkDay wd n ∧ ∀ k, WorkDay wd k → (n - d).natAbs ≤ (k - d).natAbs

/-- `n` is the `k`-th day with weekday `w` of the month. -/
def NthOf (civil : Int → Int × Int × Int) (wd : Int → Int) (w k y m n : Int) : Prop :=
  wd n = w ∧ ∃ d, civil n = (y, m, d) ∧ 7 * (k - 1) < d ∧ d ≤ 7 * k

section
variable (civil : Int → Int × Int × Int) (wd : Int → Int) (y n : Int)

/-- The first working day on or after a date. -/
def ObservedAfter (date : Int × Int × Int) : Prop := ∃ d, civil d = date ∧ FirstWorkday wd d n

/-- The working day closest to a date. -/
def ObservedNear (date : Int × Int × Int) : Prop := ∃ d, civil d = date ∧ NearestWorkday wd d n

/-- Boxing Day: the first working day after the one on which Christmas is observed. -/
def BoxingDay : Prop := ∃ c, ObservedAfter civil wd c (y, 12, 25) ∧ FirstWorkday wd (c + 1) n

/-- New Year's Day, Christmas and Boxing Day in the United Kingdom. -/
def ChristmasUK : Prop := ObservedAfter civil wd n (y, 1, 1) ∨ ObservedAfter civil wd n (y, 12, 25) ∨ BoxingDay civil wd y n

/-- Good Friday, Easter Monday, first and last Monday of May, and the August bank holiday as the code has it (see C52). -/
def BankUK : Prop :=
  IsEaster civil wd y (n + 2) ∨ IsEaster civil wd y (n - 1) ∨ FirstOf civil wd 0 y 5 n ∨ LastOf civil wd 0 y 5 n ∨
    LateAugustMonday civil wd y n

/-- The Italian holidays around Christmas, moved to working days as in the United Kingdom. -/
def ChristmasItaMoved : Prop := ChristmasUK civil wd y n ∨ ObservedAfter civil wd n (y, 1, 6)

/-- The Italian holidays around Christmas as the law has them: they are not moved. -/
def ChristmasItaLaw : Prop := civil n ∈ [(y, 1, 1), (y, 1, 6), (y, 12, 25), (y, 12, 26)]

/-- Easter Monday, April 25, May 1, June 2, August 15, November 1, December 8. -/
def BankIta : Prop :=
  IsEaster civil wd y (n - 1) ∨ civil n ∈ [(y, 4, 25), (y, 5, 1), (y, 6, 2), (y, 8, 15), (y, 11, 1), (y, 12, 8)]

/-- Federal holidays of the United States. -/
def FederalUS (juneteenth : Bool) : Prop :=
  ObservedNear civil wd n (y, 1, 1) ∨ (1986 ≤ y ∧ NthOf civil wd 0 3 y 1 n) ∨ NthOf civil wd 0 3 y 2 n ∨ LastOf civil wd 0 y 5 n ∨
    ObservedNear civil wd n (y, 7, 4) ∨ NthOf civil wd 0 1 y 9 n ∨ NthOf civil wd 0 2 y 10 n ∨ ObservedNear civil wd n (y, 11, 11) ∨
    NthOf civil wd 3 4 y 11 n ∨ ObservedNear civil wd n (y, 12, 25) ∨
    (juneteenth = true ∧ 2021 ≤ y ∧ ObservedNear civil wd n (y, 6, 19))

end

/-- Instant `t` is midnight of a day of the given kind in some year. -/
def OnDay (kind : Int → Int → Prop) (t : Int) : Prop := ∃ y n, t = n * dayNs ∧ kind y n

end Anticipy.Spec
