import Verif.Spec.GroupMeans

/-
Levels with known changes and known special days (C131).
-/
namespace Anticipy.Spec
variable {K : Type}

/-- No change takes effect between the two dates. -/
def sameLevel (changes : List Timestamp) (d t : Timestamp) : Bool := changes.all fun c => decide (c ≤ d) == decide (c ≤ t)

/-- The dates belong to the same kinds of special days. -/
def sameKind (flags : List (Timestamp → Bool)) (d t : Timestamp) : Bool := flags.all fun f => f d == f t

/-- A level and one step for each change. -/
def changeFeatures [Zero K] [One K] (changes : List Timestamp) : List (Int → Timestamp → K) := (fun _ _ => 1) :: changes.map fun c _ t => if c ≤ t then 1 else 0

/-- A level and one effect for each kind of special days. -/
def specialFeatures [Zero K] [One K] (flags : List (Timestamp → Bool)) : List (Int → Timestamp → K) := (fun _ _ => 1) :: flags.map fun f _ t => if f t then 1 else 0

/-- No date belongs to two kinds. -/
def Apart (flags : List (Timestamp → Bool)) : Prop := flags.Pairwise fun f g => ∀ t, ¬(f t = true ∧ g t = true)

end Anticipy.Spec
