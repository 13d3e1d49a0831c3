import Verif.Model.Run

/-
What users of `run_forecast` expect, without reference to how the tables are assembled.
-/
namespace Anticipy.Spec
variable {K : Type}

/-- The samples that a forecast is based on: those on or after the starting date (if both a start and dates are given). -/
def kept (start : Option Timestamp) (df : Frame K) : List (Row K) :=
  df.rows.filter fun r => match start with
    | some d => !df.hasDate || decide (d ≤ r.date)
    | none => true

/-- Position on the axis of the result tables: the date, or x for series without dates. -/
def position (df : Frame K) (r : Row K) : Int := if df.hasDate then r.date else r.x

/-- Weight of a sample; without weights every sample counts 1. -/
def givenWeight [One K] (df : Frame K) (r : Row K) : Option K := if df.hasWeight then r.weight else some 1

/-- The table with weight 0 for marked samples and unchanged weights for all others. -/
def weighted [Zero K] [One K] (df : Frame K) (spike : List Bool) : Frame K :=
  ⟨df.hasDate, true, List.zipWith (fun r b => { r with weight := (givenWeight df r).map fun w => if b then 0 else w }) df.rows spike⟩

/-- Score `a` is better than score `b`: smaller, or a number compared to an undefined score. -/
def Better [LT K] [DecidableLT K] (a b : Ext K) : Prop := Ext.lt a b = true ∨ (a ≠ .nan ∧ b = .nan)

/-- Same samples apart from values and weights before `d`. -/
def SameFrom (d : Timestamp) (df df' : Frame K) : Prop :=
  df'.hasDate = df.hasDate ∧ df'.hasWeight = df.hasWeight ∧
  List.Forall₂ (fun r r' : Row K => r'.date = r.date ∧ r'.x = r.x ∧ (d ≤ r.date → r' = r)) df.rows df'.rows

/-- The part of a table that belongs to one source. -/
def only (s : String) (t : STable K) : STable K := { t with rows := t.rows.filter fun r => decide (r.source = some s) }

/-- The rows of one source in a result. -/
def resultOf (s : String) (res : RunResult K) : RunResult K :=
  ⟨res.forecast.filter fun r => decide (r.source = some s), res.data.filter fun r => decide (r.source = s),
   res.metadata.filter fun r => decide (r.source = s)⟩

end Anticipy.Spec
