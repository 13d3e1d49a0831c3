import Verif.Spec.TableSeries

/-
Order of the rows of the result tables (C108).
-/
namespace Anticipy.Spec
variable {K : Type}

/-- Rows in order of time, with no time listed twice. -/
def InTime (rows : List (DRow K)) : Prop := rows.Pairwise fun a b => a.date < b.date

/-- The predictions of one model, in order of time. -/
structure ModelBlock (name : String) (rows : List (DRow K)) : Prop where
  some_rows : rows ≠ []
  one_model : ∀ r ∈ rows, r.isActuals = false ∧ r.model = name
  in_time : InTime rows

/-- The table lists observations first, then the predictions model by model. -/
structure Listing (data obs : List (DRow K)) (names : List String) (blocks : List (List (DRow K))) : Prop where
  parts : data = obs ++ blocks.flatten
  observed : ∀ r ∈ obs, r.isActuals = true
  models : List.Forall₂ ModelBlock names blocks

/-- Order of two rows of a table of intervals for several sources: by source, predictions before observations, then by date. -/
def Before (a b : PRow K) : Prop :=
  a.source.getD "" < b.source.getD "" ∨
    a.source.getD "" = b.source.getD "" ∧ (a.isActuals = false ∧ b.isActuals = true ∨ a.isActuals = b.isActuals ∧ a.date ≤ b.date)

end Anticipy.Spec
