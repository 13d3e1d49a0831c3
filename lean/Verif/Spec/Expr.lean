import Verif.Model.Core

/-
Independent specification of "arithmetic of forecast models": expression trees and their meaning
sample by sample.  Only the *fields* of leaf models are used here, none of the composition helpers.
-/
namespace Anticipy.Spec

/-- Arithmetic expressions over leaves of type `α`. -/
inductive Expr (α : Type) where
  | leaf (a : α)
  | add (l r : Expr α)
  | mul (l r : Expr α)

variable {K : Type}

/-- Leaves from left to right. -/
def Expr.leaves {α : Type} : Expr α → List α
  | .leaf a => [a]
  | .add l r => l.leaves ++ r.leaves
  | .mul l r => l.leaves ++ r.leaves

/-- Total number of parameters. -/
def Expr.arity : Expr (ForecastModel K) → Nat
  | .leaf m => m.nParams
  | .add l r => l.arity + r.arity
  | .mul l r => l.arity + r.arity

/-- Value of an array at sample `i` (scalars are constant); `none` is NaN. -/
def valueAt : Arr K → Nat → Option K
  | .scalar v, _ => v
  | .vec l, i => (l[i]?).join

/-- NaN-propagating arithmetic on cells. -/
def cell (op : K → K → K) (a b : Option K) : Option K :=
  a.bind fun x => b.map fun y => op x y

/-- The array has one value for each of `n` samples (or is a constant). -/
def Shaped (n : Nat) : Arr K → Prop
  | .scalar _ => True
  | .vec l => l.length = n

/-- Meaning of an expression as a function of the sample index. `mode` is the mode in which the *enclosing*
expression evaluates; sums evaluate their operands additively, products multiplicatively.
The left operand gets the first `arity` parameters, the right operand the rest. Exceptions of
operands propagate, leftmost first. -/
def Expr.meaning [Add K] [Mul K] (ctx : Ctx K) :
    Expr (ForecastModel K) → List K → Bool → Res (Nat → Option K)
  | .leaf m, p, mode => (m.fModel ctx (some p) mode).map valueAt
  | .add l r, p, _ =>
    match l.meaning ctx (p.take l.arity) false, r.meaning ctx (p.drop l.arity) false with
    | .ok f, .ok g => .ok fun i => cell (· + ·) (f i) (g i)
    | .error e, _ => .error e
    | _, .error e => .error e
  | .mul l r, p, _ =>
    match l.meaning ctx (p.take l.arity) true, r.meaning ctx (p.drop l.arity) true with
    | .ok f, .ok g => .ok fun i => cell (· * ·) (f i) (g i)
    | .error e, _ => .error e
    | _, .error e => .error e

/-- A computed array and its specification agree on `n` samples: same exception, or one value per sample
with the specified value. -/
def Agrees (n : Nat) : Res (Arr K) → Res (Nat → Option K) → Prop
  | .ok a, .ok f => Shaped n a ∧ ∀ i, i < n → valueAt a i = f i
  | .error x, .error y => x = y
  | _, _ => False

/-- Parameter slices handed to the leaves, left to right. -/
def Expr.slices : Expr (ForecastModel K) → List K → List (ForecastModel K × List K)
  | .leaf m, p => [(m, p)]
  | .add l r, p => l.slices (p.take l.arity) ++ r.slices (p.drop l.arity)
  | .mul l r, p => l.slices (p.take l.arity) ++ r.slices (p.drop l.arity)

/-- Every guess value lies between its bounds, position by position, and all lengths are `n`. -/
def WithinBounds [LE K] [DecidableLE K] (n : Nat) (g : List (Ext K)) (b : Bounds K) : Prop :=
  g.length = n ∧ b.lo.length = n ∧ b.hi.length = n ∧
  ∀ i (hg : i < g.length) (hl : i < b.lo.length) (hh : i < b.hi.length),
    Ext.le b.lo[i] g[i] = true ∧ Ext.le g[i] b.hi[i] = true

/-- A stream of uniform variates in [0,1). -/
def UnitStream [Zero K] [One K] [LE K] [LT K] (u : Nat → K) : Prop := ∀ i, 0 ≤ u i ∧ u i < 1

/-- Initial guess and bounds exist, have the declared number of entries, and fit together. -/
def InitOK [Zero K] [One K] [LE K] [LT K] [DecidableLE K] (args : InitArgs K) (m : ForecastModel K) : Prop :=
  ∃ b, m.fBounds args = .ok b ∧
    ∀ u, UnitStream u → ∀ mode, ∃ g, m.fInit u args mode = .ok g ∧ WithinBounds m.nParams g b

end Anticipy.Spec

namespace Anticipy
/-- The Python expression written with the operators of `ForecastModel`. -/
def Spec.Expr.build {K : Type} [Field K] : Spec.Expr (ForecastModel K) → ForecastModel K
  | .leaf m => m
  | .add l r => l.build.add r.build
  | .mul l r => l.build.mul r.build
end Anticipy
