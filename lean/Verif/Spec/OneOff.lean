import Verif.Spec.Leverage

/-
A single event with a dummy of its own (C110).
-/
namespace Anticipy.Spec
variable {K : Type}

/-- The table without the values on the days of the event. -/
def blanked (event : Timestamp → Bool) (t : STable K) : STable K := { t with rows := t.rows.map fun r => if event r.date then { r with y := none } else r }

/-- 1 on the days of the event, 0 on all others. -/
def eventFlag [Zero K] [One K] (event : Timestamp → Bool) (d : Timestamp) : K := if event d then 1 else 0

end Anticipy.Spec
