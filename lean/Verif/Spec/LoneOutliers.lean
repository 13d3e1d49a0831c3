import Verif.Spec.Outliers

/-
Vocabulary for series with a single spike or a single step.
-/
namespace Anticipy.Spec
variable {K : Type} [Field K]

/-- The values of the table, none missing. -/
def HasValues (df : Frame K) (l : List K) : Prop := df.rows.map Row.y = l.map some

/-- Dated samples in order of time, no date twice. -/
def InTimeOrder (df : Frame K) : Prop := df.hasDate = true ∧ (df.rows.map Row.date).Pairwise (· < ·)

/-- `i` samples of level `a`, one sample `b`, then `j` samples of level `a`. -/
def loneSpike (a b : K) (i j : Nat) : List K := List.replicate i a ++ b :: List.replicate j a

/-- `i` samples of level `a`, then `j` samples of level `b`. -/
def loneStep (a b : K) (i j : Nat) : List K := List.replicate i a ++ List.replicate j b

/-- The mask of `n` samples that marks sample `i` only. -/
def markOnly (i n : Nat) : List Bool := (List.range n).map fun k => k == i

end Anticipy.Spec
