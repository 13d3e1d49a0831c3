import Verif.Spec.Total
import Verif.Spec.DailyRun

/-
Weekly series: dates, sample numbers and order as after normalisation.
-/
namespace Anticipy.Spec
variable {K : Type}

/-- A dated series in order of date, one sample per date, whose coordinate x counts the days from `t0`, all samples at whole weeks from each other, with samples in
two consecutive weeks somewhere. Weeks may be missing. -/
structure WeeklySeries (df : Frame K) (t0 : Timestamp) : Prop where
  dated : df.hasDate = true
  days : CountsDays df t0
  sorted : df.rows.Pairwise fun a b => a.x < b.x
  sameDay : ∀ r ∈ df.rows, ∀ r' ∈ df.rows, (r'.x - r.x) % 7 = 0
  weekly : ∃ r ∈ df.rows, ∃ r' ∈ df.rows, r'.x = r.x + 7

/-- Rows on two consecutive days somewhere. -/
def DailyRows (rows : List (SRow K)) : Prop := ∃ r ∈ rows, ∃ r' ∈ rows, r'.date = r.date + 24 * 60 * 60 * 1000000000

/-- Rows at whole weeks from each other, with rows in two consecutive weeks somewhere. -/
def WeeklyRows (rows : List (SRow K)) : Prop :=
  (∀ r ∈ rows, ∀ r' ∈ rows, (r'.date - r.date) % (7 * (24 * 60 * 60 * 1000000000)) = 0) ∧
  ∃ r ∈ rows, ∃ r' ∈ rows, r'.date = r.date + 7 * (24 * 60 * 60 * 1000000000)

end Anticipy.Spec
