import Verif.Spec.Run
import Verif.Spec.DailyRun

/-
Rows without a value.
-/
namespace Anticipy.Spec
variable {K : Type}

/-- The same table without weights. -/
def unweighted (df : Frame K) : Frame K := { df with hasWeight := false, rows := df.rows.map fun r => { r with weight := none } }

/-- The model does not look at the weights of the observations. -/
def IgnoresWeights (m : ForecastModel K) : Prop :=
  ∀ (ctx : Ctx K) (act : Frame K) (p : Params K) (mult : Bool),
    m.fModel { ctx with actuals := some act } p mult = m.fModel { ctx with actuals := some (unweighted act) } p mult

/-- `df'` is `df` where some rows without a value have been left out, but neither the first nor the last row, nor the first row from the starting date on. -/
structure LeavesOutNulls (start : Option Timestamp) (df df' : Frame K) : Prop where
  part : ∀ r ∈ df'.rows, r ∈ df.rows
  observed : df'.rows.filter (fun r => r.y.isSome) = df.rows.filter fun r => r.y.isSome
  ends : ∀ r ∈ df.rows, ∃ a ∈ df'.rows, ∃ b ∈ df'.rows, a.date ≤ r.date ∧ r.date ≤ b.date
  keptEnds : ∀ r ∈ kept start df, ∃ a ∈ kept start df', ∃ b ∈ kept start df', a.date ≤ r.date ∧ r.date ≤ b.date

/-- The automatic choice of composition is the same for two series with the same samples with values, if neither reaches further than the other. -/
def ChoiceIgnoresNulls [Field K] [LinearOrder K] (corr : Frame K → Res (Option K)) : Prop :=
  ∀ df df' : Frame K, df'.hasDate = df.hasDate → df'.hasWeight = df.hasWeight → df'.rows.filter (fun r => r.y.isSome) = df.rows.filter (fun r => r.y.isSome) →
    (∀ r ∈ df.rows, ∃ a ∈ df'.rows, ∃ b ∈ df'.rows, a.date ≤ r.date ∧ r.date ≤ b.date) →
    (∀ r ∈ df'.rows, ∃ a ∈ df.rows, ∃ b ∈ df.rows, a.date ≤ r.date ∧ r.date ≤ b.date) →
    ∀ ans, isMultiplicative corr df = .ok ans → isMultiplicative corr df' = .ok ans

/-- Not before the starting date. -/
def NotBefore (start : Option Timestamp) (t : Timestamp) : Prop := ∀ d, start = some d → d ≤ t

/-- `t'` is the table `t` where some rows without a value have been left out, but neither the first row of the table, nor the earliest and latest row, nor the earliest
row from the starting date on. From then on, there are two rows on consecutive days. -/
structure TableLeavesOutNulls (start : Option Timestamp) (t t' : STable K) : Prop where
  first : t'.rows.head? = t.rows.head?
  part : ∀ r ∈ t'.rows, r ∈ t.rows
  observed : t'.rows.filter (fun r => r.y.isSome) = t.rows.filter fun r => r.y.isSome
  ends : ∀ r ∈ t.rows, ∃ a ∈ t'.rows, ∃ b ∈ t'.rows, a.date ≤ r.date ∧ r.date ≤ b.date
  keptEnds : ∀ r ∈ t.rows, NotBefore start r.date → ∃ a ∈ t'.rows, NotBefore start a.date ∧ a.date ≤ r.date
  daily : ∃ r ∈ t'.rows, NotBefore start r.date ∧ ∃ r' ∈ t'.rows, r'.date = r.date + 24 * 60 * 60 * 1000000000

/-- Same fits, same predictions, same observations with values. -/
structure SameUpToNulls (res res' : RunResult K) : Prop where
  fits : res'.metadata = res.metadata
  predictions : res'.data.filter (fun r => !r.isActuals) = res.data.filter fun r => !r.isActuals
  observations : res'.data.filter (fun r => r.isActuals && r.y.isSome) = res.data.filter fun r => r.isActuals && r.y.isSome

end Anticipy.Spec
