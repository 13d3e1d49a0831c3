import Verif.Model.Core

/-
`+` and `*` between models and numbers, and the built-in `sum` and `math.prod`.
-/
namespace Anticipy
variable {K : Type} [Field K]

/-- What can appear as an operand: a model or a number. (forecast_models.py 425-487) -/
inductive Operand (K : Type) where
  | model (m : ForecastModel K)
  | number (n : Int)

/-- `ForecastModel.__add__` and `ForecastModel.__mul__` (forecast_models.py 425-453, 458-484) with any operand on the right: the null model returns the
operand; otherwise the attribute `name` of the operand is read, which numbers do not have. -/
def ForecastModel.operate (mult : Bool) (m : ForecastModel K) : Operand K → Res (Operand K)
  | .model m' => .ok (.model (compose mult m m'))
  | .number n => if m.name = "null" then .ok (.number n) else .error .attributeError

/-- Python's `a + b` and `a * b`: a number does not know models and leaves the operation to `__radd__` and `__rmul__` of the model, which are
`__add__` and `__mul__` with the same operand. (forecast_models.py 455-456, 486-487) -/
def operate (mult : Bool) : Operand K → Operand K → Res (Operand K)
  | .model m, b => m.operate mult b
  | .number n, .model m => m.operate mult (.number n)
  | .number n, .number n' => .ok (.number (if mult then n * n' else n + n'))

/-- The built-in `sum(l, start)` and `math.prod(l, start=start)`: from left to right. (forecast_models.py 455-456, 486-487) -/
def accumulate (mult : Bool) (start : Operand K) : List (Operand K) → Res (Operand K)
  | [] => .ok start
  | a :: l => do
    let r ← operate mult start a
    accumulate mult r l

end Anticipy
