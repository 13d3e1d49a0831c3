import Verif.Model.Core

/-
Models that are built from named parts.
-/
namespace Anticipy.Spec
variable {K : Type} [Field K]

/-- A name without the characters used in the names of compositions. -/
def PlainName (s : String) : Prop := ∀ c ∈ s.toList, c ≠ '(' ∧ c ≠ ')' ∧ c ≠ '+' ∧ c ≠ '*'

/-- A collection of parts with plain names, no name being used twice. -/
structure Parts (A : ForecastModel K → Prop) : Prop where
  plain : ∀ a, A a → PlainName a.name ∧ a.name ≠ "null"
  distinct : ∀ a b, A a → A b → a.name = b.name → a = b

/-- The models that can be built from the parts `A` and the null model with `+` and `*`. -/
inductive BuiltFrom (A : ForecastModel K → Prop) : ForecastModel K → Prop where
  | part (a : ForecastModel K) : A a → BuiltFrom A a
  | null : BuiltFrom A modelNull
  | plus (m m' : ForecastModel K) : BuiltFrom A m → BuiltFrom A m' → BuiltFrom A (m.add m')
  | times (m m' : ForecastModel K) : BuiltFrom A m → BuiltFrom A m' → BuiltFrom A (m.mul m')

end Anticipy.Spec
