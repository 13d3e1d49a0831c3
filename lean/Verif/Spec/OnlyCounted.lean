import Verif.Spec.Leverage

/-
Two series with the same samples that count.
-/
namespace Anticipy.Spec
variable {K : Type} [Field K] [LinearOrder K]

/-- The samples of a series that count: date, value and weight, from the starting date on; no gaps, no weights of zero. -/
def samplesOf (start : Option Timestamp) (t : STable K) (s : String) : List (Timestamp × K × K) :=
  (counted start t s).map fun r => (r.date, r.y.getD 0, rowWeight t r)

/-- The second series has the samples of the first, in any order, with all weights multiplied by `k`. Rows that do not count may differ in any way. -/
def SameSamples (k : K) (start start' : Option Timestamp) (t t' : STable K) (s s' : String) : Prop :=
  (samplesOf start' t' s').Perm ((samplesOf start t s).map fun p => (p.1, p.2.1, k * p.2.2))

end Anticipy.Spec
