import Mathlib.Algebra.Field.Defs
import Mathlib.Data.Nat.Cast.Defs

/-
Linear interpolation of a column with empty cells, position by position.
-/
namespace Anticipy.Spec
variable {K : Type} [Field K]

/-- `out` fills the empty cells of `cells`: known cells keep their value; a cell between two known neighbours `p < i < q` is on the straight line
through them; cells after the last known one repeat it; cells before the first known one stay empty. -/
structure LinearFill (cells out : List (Option K)) : Prop where
  length : out.length = cells.length
  known : ∀ (i : Nat) (v : K), cells[i]? = some (some v) → out[i]? = some (some v)
  between : ∀ (p i q : Nat) (a b : K), p < i → i < q → cells[p]? = some (some a) → cells[q]? = some (some b) →
    (∀ j, p < j → j < q → cells[j]? = some none) → out[i]? = some (some (a + (b - a) * ((i - p : Nat) : K) / ((q - p : Nat) : K)))
  after : ∀ (p i : Nat) (a : K), p < i → i < cells.length → cells[p]? = some (some a) →
    (∀ j, p < j → j < cells.length → cells[j]? = some none) → out[i]? = some (some a)
  before : ∀ i, i < cells.length → (∀ j, j ≤ i → cells[j]? = some none) → out[i]? = some none

end Anticipy.Spec
