import Verif.Spec.Calendar
import Verif.Model.Freq

/-
Specification of regular date grids, in terms of the day-by-day calendar. Only the type of frequency codes is shared with the model.
-/
namespace Anticipy.Spec

/-- `t` is on the grid with frequency `f` through the instant `o` (same time of day, and the anchor day of `f`). -/
def OnGrid (civil : Int → Int × Int × Int) (wd : Int → Int) (f : Freq) (o t : Int) : Prop :=
  match f with
  | .H => (t - o) % hourNs = 0
  | .D => (t - o) % dayNs = 0
  | .W w => (t - o) % dayNs = 0 ∧ wd (t / dayNs) = w
  | .MS => (t - o) % dayNs = 0 ∧ (civil (t / dayNs)).2.2 = 1
  | .M => (t - o) % dayNs = 0 ∧ (civil (t / dayNs + 1)).2.2 = 1
  | .Q => (t - o) % dayNs = 0 ∧ (civil (t / dayNs + 1)).2.2 = 1 ∧ (civil (t / dayNs)).2.1 % 3 = 0
  | .YS => (t - o) % dayNs = 0 ∧ (civil (t / dayNs)).2 = (1, 1)
  | .Y => (t - o) % dayNs = 0 ∧ (civil (t / dayNs)).2 = (12, 31)

/-- Weekday codes are 0..6. -/
def ValidFreq : Freq → Prop
  | .W w => 0 ≤ w ∧ w ≤ 6
  | _ => True

/-- `a` and `b` are neighbours on the grid. -/
def Neighbours (civil : Int → Int × Int × Int) (wd : Int → Int) (f : Freq) (a b : Int) : Prop :=
  OnGrid civil wd f a a ∧ OnGrid civil wd f a b ∧ a < b ∧ ∀ t, a < t → t < b → ¬ OnGrid civil wd f a t

end Anticipy.Spec
