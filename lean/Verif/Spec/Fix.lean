import Verif.Model.Core

/-
Specification of "some parameters are fixed": merging fixed values and free parameters position by position.
-/
namespace Anticipy.Spec
variable {K : Type}

/-- Full parameter vector: fixed values stay in place, free positions take the free parameters in order. -/
def merge : List (Option K) → List K → List K
  | [], _ => []
  | some v :: fs, ps => v :: merge fs ps
  | none :: fs, p :: ps => p :: merge fs ps
  | none :: _, [] => []

/-- The entries of a full vector at the free positions. -/
def freePart {α : Type} : List (Option K) → List α → List α
  | none :: fs, a :: as => a :: freePart fs as
  | some _ :: fs, _ :: as => freePart fs as
  | _, _ => []

/-- Number of free positions. -/
def freeCount : List (Option K) → Nat
  | [] => 0
  | none :: fs => freeCount fs + 1
  | some _ :: fs => freeCount fs

/-- A full parameter vector lies inside the bounds. -/
def ParamsWithin [LE K] [DecidableLE K] (q : List K) (b : Bounds K) : Prop :=
  q.length = b.lo.length ∧ q.length = b.hi.length ∧
  ∀ i (h : i < q.length) (hl : i < b.lo.length) (hh : i < b.hi.length),
    Ext.le b.lo[i] (.fin q[i]) = true ∧ Ext.le (.fin q[i]) b.hi[i] = true

end Anticipy.Spec
