/-
Python-level vocabulary shared by the whole model: exceptions as values, extended floats,
numpy arrays with broadcasting.  Nothing in this file corresponds to code of the repository;
it fixes the meaning of the Python/numpy/pandas operations the repository calls.
-/
namespace Anticipy

/-- The Python exception classes that the modelled code can raise. (all files, e.g. forecast_models.py 507-513) -/
inductive Err where
  | valueError | assertionError | typeError | indexError | keyError | attributeError
  | zeroDivisionError
  deriving DecidableEq, Repr

/-- Result of a Python call: a value or an exception. (all files, e.g. forecast_models.py 507-513) -/
abbrev Res (α : Type) := Except Err α

deriving instance DecidableEq for Except

/-- Python `assert`. (forecast_models.py 148-151) -/
def pyAssert (b : Bool) : Res Unit := if b then .ok () else .error .assertionError

/-- A float that may be NaN or infinite, over exact finite values `K`. (forecast_models.py 64-68, model_utils.py 226-284) -/
inductive Ext (K : Type) where
  | nan | ninf | fin (a : K) | pinf
  deriving DecidableEq, Repr

namespace Ext
variable {K : Type}

/-- IEEE `<=`: false as soon as one side is NaN. (forecast_models.py 1910-1916) -/
def le [LE K] [DecidableLE K] : Ext K → Ext K → Bool
  | nan, _ => false
  | _, nan => false
  | ninf, _ => true
  | _, pinf => true
  | fin a, fin b => decide (a ≤ b)
  | pinf, _ => false
  | fin _, ninf => false

/-- IEEE `<`. (forecast.py 1395) -/
def lt [LT K] [DecidableLT K] : Ext K → Ext K → Bool
  | nan, _ => false
  | _, nan => false
  | ninf, ninf => false
  | ninf, _ => true
  | fin a, fin b => decide (a < b)
  | fin _, pinf => true
  | _, _ => false

/-- `pd.isnull` on a float. (forecast_models.py 1910-1916) -/
def isNan : Ext K → Bool
  | nan => true
  | _ => false

end Ext

/-- Arithmetic on cells that may be NaN: NaN is contagious. (forecast_models.py 71-112) -/
def lift2 {K : Type} (op : K → K → K) : Option K → Option K → Option K
  | some a, some b => some (op a b)
  | _, _ => none

/-- Return value of a model function: numpy broadcasts Python scalars and arrays.
`none` entries are NaN. (forecast_models.py 71-112) -/
inductive Arr (K : Type) where
  | scalar (v : Option K)
  | vec (l : List (Option K))
  deriving DecidableEq, Repr

namespace Arr
variable {K : Type}

/-- Elementwise binary operation with numpy broadcasting: scalars and length-1 arrays are
repeated, other length mismatches raise `ValueError`. (forecast_models.py 71-112) -/
def bin (op : K → K → K) : Arr K → Arr K → Res (Arr K)
  | scalar a, scalar b => .ok (scalar (lift2 op a b))
  | scalar a, vec l => .ok (vec (l.map (fun b => lift2 op a b)))
  | vec l, scalar b => .ok (vec (l.map (fun a => lift2 op a b)))
  | vec l, vec m =>
    if l.length = m.length then .ok (vec (List.zipWith (lift2 op) l m))
    else match l, m with
      | [a], m => .ok (vec (m.map (fun b => lift2 op a b)))
      | l, [b] => .ok (vec (l.map (fun a => lift2 op a b)))
      | _, _ => .error .valueError

end Arr

/-- Array of finite values. (forecast_models.py 754-757) -/
def vecOf {K : Type} (l : List K) : Arr K := .vec (l.map some)

/-- Consecutive pairs `(l[i], l[i+1])`. (model_utils.py 307) -/
def pairs {α : Type} : List α → List (α × α)
  | a :: b :: l => (a, b) :: pairs (b :: l)
  | _ => []

/-- pandas `drop_duplicates(key)`, keeping the first occurrence. (model_utils.py 306, forecast_models.py 578) -/
def dedupBy {α β : Type} [DecidableEq β] (key : α → β) : List α → List α
  | [] => []
  | a :: l => a :: (dedupBy key l).filter (fun b => key b ≠ key a)

/-- pandas `Series.duplicated().any()`. (model_utils.py 349, 383) -/
def hasDup {α : Type} [DecidableEq α] : List α → Bool
  | [] => false
  | a :: l => decide (a ∈ l) || hasDup l

/-- Minimum of a list (pandas `.min()`; `none` for an empty column). (model_utils.py 307) -/
def listMin {α : Type} [LE α] [DecidableLE α] : List α → Option α
  | [] => none
  | a :: l => match listMin l with
    | none => some a
    | some b => some (if a ≤ b then a else b)

/-- Maximum of a list. (model_utils.py 320) -/
def listMax {α : Type} [LE α] [DecidableLE α] : List α → Option α
  | [] => none
  | a :: l => match listMax l with
    | none => some a
    | some b => some (if a ≤ b then b else a)

/-- Stable insertion sort, the meaning of Python's `list.sort` / pandas multi-key `sort_values`. (forecast.py 403, 1346) -/
def insertBy {α : Type} (le : α → α → Bool) (a : α) : List α → List α
  | [] => [a]
  | b :: l => if le a b then a :: b :: l else b :: insertBy le a l

/-- See forecast.py 403, 1346. -/
def sortBy {α : Type} (le : α → α → Bool) : List α → List α
  | [] => []
  | a :: l => insertBy le a (sortBy le l)

/-- pandas single-key `sort_values` uses an unstable quicksort: any ordered permutation may be
returned.  The whole model is parametric in such an algorithm. (forecast.py 403, forecast_models.py 580) -/
structure SortAlg where
  run : {α : Type} → (le : α → α → Bool) → List α → List α
  perm : ∀ {α : Type} (le : α → α → Bool) (l : List α), (run le l).Perm l
  sorted : ∀ {α : Type} (le : α → α → Bool) (l : List α),
    (∀ a b c, le a b → le b c → le a c) → (∀ a b, le a b || le b a) →
    (run le l).Pairwise (fun a b => le a b)
  /-- The order depends on the keys only (`argsort`): lists with the same comparisons are permuted in the same way. -/
  natural : ∀ {α β : Type} (leA : α → α → Bool) (leB : β → β → Bool) (f : α → β) (l : List α),
    (∀ a ∈ l, ∀ b ∈ l, leB (f a) (f b) = leA a b) → run leB (l.map f) = (run leA l).map f

end Anticipy
