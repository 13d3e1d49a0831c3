import Verif.Model.Fit

/-
Specification vocabulary for fitting: which samples count, and the weighted squared error.
-/
namespace Anticipy.Spec
variable {K : Type}

/-- A sample counts if it has a value and, where weights are given, a positive weight. -/
def Usable [Zero K] [LT K] (hasWeight : Bool) (r : Row K) : Prop :=
  (∃ v, r.y = some v) ∧ (hasWeight = true → ∃ w, r.weight = some w ∧ 0 < w)

instance [Zero K] [LinearOrder K] (hw : Bool) (r : Row K) : Decidable (Usable hw r) := by
  unfold Usable
  have h1 : Decidable (∃ v, r.y = some v) :=
    match r.y with
    | none => isFalse (by simp)
    | some v => isTrue ⟨v, rfl⟩
  have h2 : Decidable (∃ w, r.weight = some w ∧ 0 < w) :=
    match r.weight with
    | none => isFalse (by simp)
    | some w => if h : 0 < w then isTrue ⟨w, rfl, h⟩ else isFalse (by simp [h])
  infer_instance

/-- The samples that count, in order. -/
def usableRows [Zero K] [LinearOrder K] (df : Frame K) : List (Row K) :=
  df.rows.filter fun r => decide (Usable df.hasWeight r)

/-- The outcome of a fit as seen by the user (without the descriptive text columns). -/
structure Outcome (K : Type) where
  modelName : String
  isFit : Bool
  cost : Option K
  aic : Ext K
  params : List K
  status : Status
  deriving DecidableEq

def outcome (r : FitResult K) : Outcome K := ⟨r.modelName, r.isFit, r.cost, r.aic, r.params, r.status⟩

/-- Weight of a sample, 1 without a weight column. -/
def weightOf [Zero K] [One K] (hasWeight : Bool) (r : Row K) : K := if hasWeight then r.weight.getD 0 else 1

/-- How many of the samples share the sample's x. -/
def sharing (rows : List (Row K)) (r : Row K) : Nat := rows.countP fun q => q.x = r.x

/-- Half the weighted sum of squared errors of predictions against observations. -/
def weightedCost [Field K] (obs pred weights : List K) : K :=
  1 / 2 * (List.zipWith (fun e w => (e * w) ^ 2) (List.zipWith (fun y p => y - p) obs pred) weights).sum

/-- A model function returns the predictions `pred` for `n` samples, possibly as a single broadcast value. -/
def Predicts (n : Nat) (a : Arr K) (pred : List K) : Prop :=
  pred.length = n ∧ (a = vecOf pred ∨ ∃ c, a = .scalar (some c) ∧ pred = List.replicate n c)

end Anticipy.Spec
