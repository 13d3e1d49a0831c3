import Verif.Spec.Misfit
import Verif.Spec.Recovery
import Verif.Model.Normalize

/-
The same series with its coordinate counted from another origin, and tables with the same rows in another order.
-/
namespace Anticipy.Spec
variable {K : Type}

/-- All coordinates raised by `k`; dates, values and weights unchanged. -/
def renumbered (k : Int) (df : Frame K) : Frame K := { df with rows := df.rows.map fun r => { r with x := r.x + k } }

/-- Predictions for coordinates counted from another origin are predictions of the same model with other parameters. -/
def NoOrigin (n : Nat) (val : List K → Int → Timestamp → K) : Prop :=
  ∀ k : Int, ∃ T : List K → List K, ∀ p, p.length = n → (T p).length = n ∧ ∀ x t, val (T p) (x + k) t = val p x t

/-- The same table with its rows in another order. -/
structure Reordered (t t' : STable K) : Prop where
  rows : t'.rows.Perm t.rows
  hasSource : t'.hasSource = t.hasSource
  hasDate : t'.hasDate = t.hasDate
  hasX : t'.hasX = t.hasX
  hasWeight : t'.hasWeight = t.hasWeight

/-- Tables whose rows dated on or after `start` are the same up to order (all rows if `start` is none). Earlier rows may differ in any way: some may be
missing or added. -/
structure AgreeFrom (start : Option Timestamp) (t t' : STable K) : Prop where
  rows : (t'.rows.filter fun r => decide (∀ d ∈ start, d ≤ r.date)).Perm (t.rows.filter fun r => decide (∀ d ∈ start, d ≤ r.date))
  hasSource : t'.hasSource = t.hasSource
  hasDate : t'.hasDate = t.hasDate
  hasX : t'.hasX = t.hasX
  hasWeight : t'.hasWeight = t.hasWeight

/-- A dated table without x column whose dates share the time of day, with at most one row per date and source. -/
structure OnePerDate (t : STable K) : Prop where
  hasX : t.hasX = false
  hasDate : t.hasDate = true
  timeOfDay : ∀ r ∈ t.rows, ∀ r' ∈ t.rows, (r.date - r'.date) % (24 * 60 * 60 * 1000000000) = 0
  distinct : t.rows.Pairwise fun r r' => (t.hasSource = true → r.source = r'.source) → r.date ≠ r'.date

end Anticipy.Spec
