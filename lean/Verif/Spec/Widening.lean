import Verif.Spec.Interval
import Mathlib.Algebra.BigOperators.Fin
import Mathlib.Data.Fintype.Pi
import Mathlib.Data.Fintype.BigOperators

/-
Averages over the random draws behind prediction intervals.
-/
namespace Anticipy.Spec
variable {K : Type} [Field K]

/-- The random numbers as given by a table: item drawn in round `c` at position `i`. -/
def drawsOf {M N : Nat} (d : Fin 3 × Fin M → Fin N) (c i : Nat) : Nat :=
  if h : c < 3 ∧ i < M then (d (⟨c, h.1⟩, ⟨i, h.2⟩)).val else 0

/-- The average of a quantity over all ways to draw, with replacement and `M` times in each of three rounds, one of `N` items. -/
def onAverage (M N : Nat) (F : (Nat → Nat → Nat) → K) : K :=
  (∑ d : Fin 3 × Fin M → Fin N, F (drawsOf d)) / (N : K) ^ (3 * M)

/-- Mean squared distance from the mean. -/
def variance (l : List K) : K := average (l.map fun a => (a - average l) ^ 2)

/-- The percentiles in the selected rows of the result are those of `nSims` simulated deviations from the forecast of the row. Averaged over all ways to draw,
every deviation is zero, and its square is `sq j` in the `j`-th of these rows. -/
def Simulated [LinearOrder K] [FloorRing K] (run : (Nat → Nat → Nat) → Res (List (PRow K))) (sel : PRow K → Bool) (nSims count M N : Nat)
    (sq : Nat → K) : Prop :=
  ∃ dev : (Nat → Nat → Nat) → Nat → Nat → K,
    (∀ draw, ∃ out, run draw = .ok out ∧ (out.filter sel).length = count ∧ ∀ j r, (out.filter sel)[j]? = some r → r.q ≠ [] ∧
      ∀ p v, (p, v) ∈ r.q → v = lift2 (· + ·) r.y (percentile ((List.range nSims).map fun i => dev draw i j) p)) ∧
    ∀ i < nSims, ∀ j < count, onAverage M N (fun draw => dev draw i j) = 0 ∧ onAverage M N (fun draw => dev draw i j ^ 2) = sq j

/-- The last date with a sample that was used. -/
def LastUsed [LinearOrder K] (t : FTable K) (last : Timestamp) : Prop :=
  (∃ a ∈ t.rows, Used t a = true ∧ a.date = last) ∧ ∀ a ∈ t.rows, Used t a = true → a.date ≤ last

/-- Days from one sample to the next. -/
def daysApart : Freq → Nat
  | .Y | .YS => 365
  | .Q => 91
  | .M | .MS => 30
  | .W _ => 7
  | .D | .H => 1

/-- How many samples there are, at least one, in a period of some days. -/
def samplesIn (f : Freq) (days : Nat) : Nat :=
  match f with
  | .H => 24 * days
  | f => max 1 (days / daysApart f)

end Anticipy.Spec
