import Verif.Spec.Recovery
import Verif.Model.Run
import Verif.Spec.RowOrder

/-
Daily series: dates, sample numbers and order as after normalisation.
-/
namespace Anticipy.Spec
variable {K : Type}

/-- A dated series in order of date, one sample per date, whose coordinate x counts the days from `t0`, with samples on two consecutive days
somewhere. Days may be missing. -/
structure DailySeries (df : Frame K) (t0 : Timestamp) : Prop where
  dated : df.hasDate = true
  days : CountsDays df t0
  sorted : df.rows.Pairwise fun a b => a.x < b.x
  daily : ∃ r ∈ df.rows, ∃ r' ∈ df.rows, r'.x = r.x + 1

/-- A table of one daily series as a user supplies it: a date column without x, one row per date, all at the same time of day, in any order, and rows on two
consecutive days somewhere. -/
structure DailyTable (t : STable K) : Prop where
  oneSource : t.hasSource = false
  onePerDate : OnePerDate t
  daily : ∃ r ∈ t.rows, ∃ r' ∈ t.rows, r'.date = r.date + 24 * 60 * 60 * 1000000000

/-- `a` lies one or more whole weeks before `t`. -/
def WeeksBefore (a t : Timestamp) : Prop := a < t ∧ (t - a) % (7 * (24 * 60 * 60 * 1000000000)) = 0

section
variable [Zero K] [LT K]

/-- A row of the returned table of values that is a non-null observation with positive weight. -/
def UsableActual (res : RunResult K) (a : DRow K) : Prop :=
  a ∈ res.data ∧ a.isActuals = true ∧ a.y ≠ none ∧ ∃ w, a.weight = some w ∧ 0 < w

end
end Anticipy.Spec
