import Verif.Spec.Additive

/-
Models that contain another model as a special case.
-/
namespace Anticipy.Spec
variable {K : Type} [Field K] [LinearOrder K]

/-- On series with (`dated`) or without dates, every curve that `m` can draw with admissible parameters can also be drawn by `m'` with admissible
parameters, provided `m'` has admissible parameters at all. -/
def Covers (dated : Bool) (m m' : ForecastModel K) : Prop :=
  ∀ (ax ay : List K) (ds : List Timestamp) (act : Option (Frame K)) (b b' : Bounds K) (p q0 : List K), ax ≠ [] → ds.length = ax.length →
    m.fBounds ⟨some ax, some ay, none⟩ = .ok b → m'.fBounds ⟨some ax, some ay, none⟩ = .ok b' → Admissible p b → Admissible q0 b' →
    ∃ q, Admissible q b' ∧ ∀ a, m.fModel { ax := ax, adate := if dated then some ds else none, actuals := act } (some p) false = .ok a →
      m'.fModel { ax := ax, adate := if dated then some ds else none, actuals := act } (some q) false = .ok a

/-- With some admissible parameters the model has no effect: it is 0 everywhere as a summand, and (`mult`) 1 everywhere as a factor. -/
def CanBeNeutral (dated mult : Bool) (m : ForecastModel K) : Prop :=
  ∀ (ax ay : List K) (ds : List Timestamp) (act : Option (Frame K)) (b : Bounds K) (q0 : List K), ax ≠ [] → ds.length = ax.length →
    m.fBounds ⟨some ax, some ay, none⟩ = .ok b → Admissible q0 b →
    ∃ q, Admissible q b ∧ m.fModel { ax := ax, adate := if dated then some ds else none, actuals := act } (some q) mult =
      .ok (vecOf (ax.map fun _ => if mult then 1 else 0))

/-- The values of the model form an array with one entry for each sample. -/
def OneEach (dated : Bool) (m : ForecastModel K) : Prop :=
  ∀ (ax : List K) (ds : List Timestamp) (act : Option (Frame K)) p mult a, ds.length = ax.length →
    m.fModel { ax := ax, adate := if dated then some ds else none, actuals := act } (some p) mult = .ok a → ∃ l, a = .vec l ∧ l.length = ax.length

/-- The model has the same values as a factor and as a summand. -/
def SameAsFactor (m : ForecastModel K) : Prop := ∀ ctx p, m.fModel ctx (some p) true = m.fModel ctx (some p) false

end Anticipy.Spec
