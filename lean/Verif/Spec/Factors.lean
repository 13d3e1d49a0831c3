import Verif.Spec.Leverage
import Verif.Spec.Balance

/-
Series with seasonal factors (C117).
-/
namespace Anticipy.Spec
variable {K : Type} [Field K] [LinearOrder K]

/-- The samples that count have the values `v`. -/
def SamplesAre (start : Option Timestamp) (t : STable K) (s : String) (v : Timestamp → K) : Prop := ∀ r ∈ counted start t s, r.y.getD 0 = v r.date

/-- In the season of the date `d` there are two samples that count, on different dates. -/
def SeenTwice (start : Option Timestamp) (t : STable K) (s : String) (season : Timestamp → Int) (d : Timestamp) : Prop :=
  ∃ r1 ∈ counted start t s, ∃ r2 ∈ counted start t s, season r1.date = season d ∧ season r2.date = season d ∧ r1.date ≠ r2.date

/-- In the season of the date `d` there is a sample that counts. -/
def SeenOnce (start : Option Timestamp) (t : STable K) (s : String) (season : Timestamp → Int) (d : Timestamp) : Prop :=
  ∃ r ∈ counted start t s, season r.date = season d

end Anticipy.Spec
