import Verif.Model.Columns

/-
Roles of columns and batches, as users understand them.
-/
namespace Anticipy.Spec
variable {V K : Type}

/-- The standard column names. -/
def standardNames : List String := ["y", "weight", "x", "date", "source"]

/-- The names given to the roles. -/
def roleNames (a : ColNames) : List String := [a.y, a.weight, a.x, a.date, a.source]

/-- The same table with other column names. -/
def withNames (ρ : String → String) (t : RawTable V) : RawTable V := { t with cols := t.cols.map fun c => (ρ c.1, c.2) }

/-- The five roles have different names, columns have different names, and no column without a role has a standard name. -/
def Unmixed (a : ColNames) (t : RawTable V) : Prop :=
  (roleNames a).Nodup ∧ (t.cols.map Prod.fst).Nodup ∧ ∀ c ∈ t.cols, c.1 ∈ standardNames → c.1 ∈ roleNames a

/-- All columns have `n` cells. -/
def Rectangular (t : RawTable V) : Prop := (∀ c ∈ t.cols, c.2.length = t.n) ∧ ∀ ix, t.index = some ix → ix.length = t.n

/-- Concatenation of results. -/
def joined (l : List (RunResult K)) : RunResult K :=
  ⟨l.flatMap RunResult.forecast, l.flatMap RunResult.data, l.flatMap RunResult.metadata⟩

end Anticipy.Spec
