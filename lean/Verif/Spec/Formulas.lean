import Verif.Spec.Expr
import Verif.Model.ZooReal

/-
Specification for C103: the tables of models in the documentation (docs/source/tutorial.rst 222-250, forecast_models.py 313-345) give a number of parameters
and a formula for the value at `x` for each model.
-/
namespace Anticipy.Spec

variable {K : Type}

/-- The model has `n` parameters, and for any `n` numbers its value at `x` is the one of the formula (wherever `dom` holds; a missing value is `none`). -/
def Computes (m : ForecastModel K) (n : Nat) (dom : List K → K → Prop) (formula : List K → K → Option K) : Prop :=
  m.nParams = n ∧ ∀ (p : List K), p.length = n → ∀ ctx : Ctx K, ∃ a, m.fModel ctx (some p) false = .ok a ∧ Shaped ctx.ax.length a ∧
    ∀ (i : Nat) (x : K), ctx.ax[i]? = some x → dom p x → valueAt a i = formula p x

/-- No restriction. -/
def everywhere : List K → K → Prop := fun _ _ => True

variable [Field K] [LinearOrder K]

/-- "y=0". -/
def docNull : List K → K → Option K := fun _ _ => some 0
/-- "y=A". -/
def docConstant : List K → K → Option K
  | [A], _ => some A
  | _, _ => none
/-- "y=Ax + B". -/
def docLinear : List K → K → Option K
  | [A, B], x => some (A * x + B)
  | _, _ => none
/-- "y = (x-A)*B if x>A" (otherwise 0). -/
def docRamp : List K → K → Option K
  | [A, B], x => some (if A < x then (x - A) * B else 0)
  | _, _ => none
/-- "y=0 if x<A, y=B if x>=A". -/
def docStep : List K → K → Option K
  | [A, B], x => some (if x < A then 0 else B)
  | _, _ => none
/-- Two of them. -/
def docTwoSteps : List K → K → Option K
  | [A, B, C, D], x => some ((if x < A then 0 else B) + (if x < C then 0 else D))
  | _, _ => none

/-- "y=A*(x^B) + C". -/
noncomputable def docQuasilinear : List ℝ → ℝ → Option ℝ
  | [A, B, C], x => some (A * x ^ B + C)
  | _, _ => none
/-- "y=A * B^x". -/
noncomputable def docExp : List ℝ → ℝ → Option ℝ
  | [A, B], x => some (A * B ^ x)
  | _, _ => none
/-- "Y = A * e^(B*(x-C)) + D", with four parameters. -/
noncomputable def docDecay : List ℝ → ℝ → Option ℝ
  | [A, B, C, D], x => some (A * Real.exp (B * (x - C)) + D)
  | _, _ => none
/-- "y = A + (B - A) / (1 + np.exp(- D * (x - C)))": four letters but three parameters; read with A = 0. -/
noncomputable def docSigmoid : List ℝ → ℝ → Option ℝ
  | [B, C, D], x => some (B / (1 + Real.exp (-D * (x - C))))
  | _, _ => none

/-- Powers are real numbers: the base is positive, or zero with a non-negative exponent, or negative with an integer exponent. -/
def PowerExists (base expo : ℝ) : Prop := 0 < base ∨ (base = 0 ∧ 0 ≤ expo) ∨ (base < 0 ∧ ∃ n : ℤ, expo = n)

end Anticipy.Spec
