import Verif.Model.Py
import Mathlib.Analysis.SpecialFunctions.Log.Basic

/-
Model selection scores, anticipy/model_utils.py 224-298.
-/
namespace Anticipy

/-- Multiples of the smallest positive double, `2 ** -1074`. (model_utils.py 275) -/
noncomputable def tinyUnit : ℝ := (2 : ℝ) ^ (-1074 : ℤ)

/-- `10 ** -320 / n` in multiples of `2 ** -1074`: the double nearest to `10 ** -320` is `2024 * 2 ** -1074`, and the division
rounds half to even. (model_utils.py 275-277) -/
def tinyDiv (n : Nat) : Nat :=
  let q := 2024 / n
  let r := 2024 % n
  if 2 * r < n then q else if n < 2 * r then q + 1 else if q % 2 = 0 then q else q + 1

/-- The formula in model_utils.py 276-277 and 281-282. `k` is the number of parameters, `m` the mean error. -/
noncomputable def aicFormula (m : ℝ) (n k : Nat) : ℝ :=
  n * Real.log m + 2 * k + (2 * k * (k + 1)) / (n - k - 1)

/-- `get_aic_c`, model_utils.py 226-284. `none` is a NaN error (`math.log(nan)` is NaN). `math.log` raises a `ValueError` for arguments
that are not positive. -/
noncomputable def getAicC (fitError : Option ℝ) (n k : Nat) : Res (Ext ℝ) :=
  if n ≤ k + 1 ∨ n = 0 then .error .valueError
  else match fitError with
    | none => .ok .nan
    | some e =>
      if e = 0 then
        if k = 1 then .ok .ninf
        else if tinyDiv n = 0 then .error .valueError
        else .ok (.fin (aicFormula (tinyDiv n * tinyUnit) n k))
      else if e < 0 then .error .valueError
      else .ok (.fin (aicFormula (e / n) n k))

section
variable {K : Type}

/-- Positions at which a predicate holds. (model_utils.py 293) -/
def positions {α : Type} (p : α → Bool) (l : List α) : List Nat :=
  (List.range l.length).filter fun i => match l[i]? with
    | some a => p a
    | none => false

/-- `Series.argmin()` (pandas >= 1.0): the first *position* of a minimal value, skipping nulls. (model_utils.py 296) -/
def argminFrom [LT K] [DecidableLT K] (i : Nat) (best : Option (Nat × Ext K)) : List (Ext K) → Option (Nat × Ext K)
  | [] => best
  | v :: l =>
    if v.isNan then argminFrom (i + 1) best l
    else match best with
      | none => argminFrom (i + 1) (some (i, v)) l
      | some (j, b) => if v.lt b then argminFrom (i + 1) (some (i, v)) l else argminFrom (i + 1) (some (j, b)) l

/-- Is the score minus infinity? (model_utils.py 292) -/
def Ext.isNinf : Ext K → Bool
  | .ninf => true
  | _ => false

/-- `get_s_aic_c_best_result_key`, model_utils.py 287-297, on a series with the given index labels. Unpacking the positions of minus infinity into
one variable (line 293) raises a `ValueError` if there are several. -/
def bestResultKey [LT K] [DecidableLT K] (index : List Int) (vals : List (Ext K)) : Res (Option Int) :=
  if vals.all Ext.isNan then .ok none
  else match positions Ext.isNinf vals with
    | [] => .ok ((argminFrom 0 none vals).map fun p => (p.1 : Int))
    | [i] => match index[i]? with
      | some key => .ok (some key)
      | none => .error .indexError
    | _ => .error .valueError
end

end Anticipy
