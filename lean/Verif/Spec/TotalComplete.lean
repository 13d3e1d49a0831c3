import Verif.Spec.Grid
import Verif.Spec.Total
import Verif.Spec.DailyRun

/-
Monthly and yearly series without gaps.
-/
namespace Anticipy.Spec
variable {K : Type}

/-- Frequencies of the first or last days of months or years. -/
def CalendarFreq (f : Freq) : Prop := f = .MS ∨ f = .M ∨ f = .YS ∨ f = .Y

/-- Predictions per year. -/
def perYear : Freq → ℚ
  | .MS | .M => 12
  | _ => 1

/-- A dated series in order of date, whose coordinate x counts the days from `t0`, with samples at all dates of the given frequency between the first and the
last one, and at two neighbouring ones. -/
structure CompleteSeries (civil : Int → Int × Int × Int) (wd : Int → Int) (f : Freq) (df : Frame K) (t0 : Timestamp) : Prop where
  dated : df.hasDate = true
  days : CountsDays df t0
  sorted : df.rows.Pairwise fun a b => a.x < b.x
  grid : ∀ r ∈ df.rows, OnGrid civil wd f t0 r.date
  full : ∀ t, OnGrid civil wd f t0 t → (∃ r ∈ df.rows, r.date ≤ t) → (∃ r ∈ df.rows, t ≤ r.date) → t ∈ df.rows.map Row.date
  two : ∃ r ∈ df.rows, ∃ r' ∈ df.rows, Neighbours civil wd f r.date r'.date

/-- Rows at all dates of the given frequency (at the same time of day) between the first and the last one, and at two neighbouring ones. -/
structure CompleteRows (civil : Int → Int × Int × Int) (wd : Int → Int) (f : Freq) (rows : List (SRow K)) : Prop where
  grid : ∀ r ∈ rows, ∀ r' ∈ rows, OnGrid civil wd f r.date r'.date
  full : ∀ t, ∀ r ∈ rows, OnGrid civil wd f r.date t → r.date ≤ t → (∃ r ∈ rows, t ≤ r.date) → t ∈ rows.map SRow.date
  two : ∃ r ∈ rows, ∃ r' ∈ rows, Neighbours civil wd f r.date r'.date

end Anticipy.Spec
