import Verif.Spec.Misfit

/-
Tables in which samples are given several times.
-/
namespace Anticipy.Spec
variable {K : Type} [Field K] [LinearOrder K]

/-- The second table has every row of the first `k` times, in any order. -/
structure Repeats (k : Nat) (df df' : Frame K) : Prop where
  dated : df'.hasDate = df.hasDate
  weighted : df'.hasWeight = df.hasWeight
  rows : df'.rows.Perm (df.rows.flatMap (List.replicate k))

end Anticipy.Spec
