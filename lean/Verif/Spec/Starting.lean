import Verif.Model.Naive
import Verif.Model.Holidays
import Verif.Model.ZooReal

/-
Starting values of a fit.
-/
namespace Anticipy.Spec
variable {K : Type}

/-- As many starting values and bounds as parameters, with and without data. -/
structure RightCount (m : ForecastModel K) : Prop where
  guess : ∀ u args mult g, m.fInit u args mult = .ok g → g.length = m.nParams
  bounds : ∀ args b, m.fBounds args = .ok b → b.lo.length = m.nParams ∧ b.hi.length = m.nParams

section
variable [Field K] [LinearOrder K]

/-- The models of the library over any field, apart from the spike model with free position. -/
def LibraryModel (a : ForecastModel K) : Prop :=
  a ∈ [modelConstant, modelLinear, modelLinearNondec, modelStep, modelTwoSteps, modelRamp, modelSeasonWday, modelSeasonMonth] ∨
    (∃ srt, a = modelNaive srt ∨ a = modelSnaiveWday srt) ∨
    (∃ label d, a = getModelStepDate label d) ∨ (∃ label d d', a = getModelSpikeDate label d d') ∨
    (∃ name f, getModelDummy name f = .ok a) ∨ (∃ cals name, getModelFromCalendars cals name = .ok a) ∨
    (∃ name lists, getModelFromDatelist name lists = .ok a)

/-- `v` is the average of the values in the given month (`civil` maps days since 1970 to year, month, day); there is at least one. -/
def MonthAverage (civil : Int → Int × Int × Int) (ds : List Timestamp) (ay : List K) (k : Int) (v : K) : Prop :=
  ∃ l : List K, l = ((ds.zip ay).filter fun e => (civil (e.1 / (24 * 60 * 60 * 1000000000))).2.1 = k).map Prod.snd ∧ l ≠ [] ∧ v * (l.length : K) = l.sum

/-- Row `i` of the series lies on the far side of the first of the largest jumps between consecutive values. -/
def LargestJump (ay : List K) (i : Nat) : Prop :=
  0 < i ∧ i < ay.length ∧ (∀ j, 0 < j → j < ay.length → |ay.getD j 0 - ay.getD (j - 1) 0| ≤ |ay.getD i 0 - ay.getD (i - 1) 0|) ∧
    ∀ j, 0 < j → j < i → |ay.getD j 0 - ay.getD (j - 1) 0| < |ay.getD i 0 - ay.getD (i - 1) 0|

/-- Row `i` of the series lies on the far side of the first of the largest increases between consecutive values. -/
def LargestIncrease (ay : List K) (i : Nat) : Prop :=
  0 < i ∧ i < ay.length ∧ (∀ j, 0 < j → j < ay.length → ay.getD j 0 - ay.getD (j - 1) 0 ≤ ay.getD i 0 - ay.getD (i - 1) 0) ∧
    ∀ j, 0 < j → j < i → ay.getD j 0 - ay.getD (j - 1) 0 < ay.getD i 0 - ay.getD (i - 1) 0

/-- Row `j` lies on the far side of the first of the largest jumps other than the one at row `i`. -/
def NextJump (ay : List K) (i j : Nat) : Prop :=
  0 < j ∧ j < ay.length ∧ j ≠ i ∧
    (∀ k, 0 < k → k < ay.length → k ≠ i → |ay.getD k 0 - ay.getD (k - 1) 0| ≤ |ay.getD j 0 - ay.getD (j - 1) 0|) ∧
    ∀ k, 0 < k → k < j → k ≠ i → |ay.getD k 0 - ay.getD (k - 1) 0| < |ay.getD j 0 - ay.getD (j - 1) 0|

/-- The bend of the series at row `i`: how far it lies from the straight line through the two rows before. -/
def bendAt (ay : List K) (i : Nat) : K := |(ay.getD i 0 - ay.getD (i - 1) 0) - (ay.getD (i - 1) 0 - ay.getD (i - 2) 0)|

/-- Row `i` has the first of the largest bends of the rows `lo`, …, `hi - 1`, from the third row on. -/
def LargestBend (ay : List K) (lo hi i : Nat) : Prop :=
  2 ≤ i ∧ lo ≤ i ∧ i < hi ∧ (∀ j, 2 ≤ j → lo ≤ j → j < hi → bendAt ay j ≤ bendAt ay i) ∧
    ∀ j, 2 ≤ j → lo ≤ j → j < i → bendAt ay j < bendAt ay i

end
end Anticipy.Spec
