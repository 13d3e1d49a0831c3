import Verif.Spec.Run
import Verif.Spec.Calendar

/-
Specification for C95: what the columns that describe a series must say.
-/
namespace Anticipy.Spec
variable {K : Type}

/-- `a` and `b` are the smallest and the largest of the values. -/
def SpannedBy {α : Type} [LE α] (a b : α) (l : List α) : Prop := a ∈ l ∧ b ∈ l ∧ ∀ t ∈ l, a ≤ t ∧ t ≤ b

/-- The range of a series: the days of the first and the last sample, or their x for a series without dates. -/
def RangeSays (hasDate : Bool) (range : RangeMeta) (positions : List Int) : Prop := match range with
  | .days a b => hasDate = true ∧ ∃ first last, SpannedBy first last positions ∧ FallsOn first a ∧ FallsOn last b
  | .xs a b => hasDate = false ∧ SpannedBy a b positions
  | .hundredths a b => hasDate = false ∧ ∃ first last, SpannedBy first last positions ∧ a = 100 * first ∧ b = 100 * last

/-- Names of the models whose x is divided by 100. -/
def scaledNames : List String := ["logistic", "sigmoid"]

/-- The weights of a series: the text 1, or the smallest and the largest of them. -/
def WeightsSay [One K] [LE K] (text : WeightsMeta K) (weights : List K) : Prop := match text with
  | .one => ∀ w ∈ weights, w = 1
  | .range (some lo) (some hi) => SpannedBy lo hi weights
  | .range _ _ => weights = []

/-- The observations in the table `data`. -/
def observedRows (data : List (DRow K)) : List (DRow K) := data.filter fun r => r.isActuals

/-- Those that a model can be fitted to: with a value and a positive weight. -/
def fitted [Zero K] [LT K] [DecidableLT K] (data : List (DRow K)) : List (DRow K) :=
  (observedRows data).filter fun r => decide (r.y ≠ none ∧ ∃ w ∈ r.weight, 0 < w)

end Anticipy.Spec
