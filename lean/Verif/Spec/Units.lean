import Verif.Spec.Recovery

/-
What it means that the unit of the values does not matter.
-/
namespace Anticipy.Spec
variable {K : Type} [Field K] [LinearOrder K]

/-- The same sample with its value in another unit: one old unit is `c` new units. -/
def sampleInUnit (c : K) (r : Row K) : Row K := { r with y := r.y.map fun v => c * v }

/-- The same series with values in another unit. -/
def inUnit (c : K) (df : Frame K) : Frame K := { df with rows := df.rows.map (sampleInUnit c) }

/-- Predictions in another unit. -/
def arrInUnit (c : K) : Arr K → Arr K
  | .scalar v => .scalar (v.map fun a => c * a)
  | .vec l => .vec (l.map fun v => v.map fun a => c * a)

/-- The same arguments of a model function, with the table of actuals in another unit. -/
def ctxInUnit (c : K) (ctx : Ctx K) : Ctx K := { ctx with actuals := ctx.actuals.map (inUnit c) }

/-- `T` translates parameters of the model to another unit: same number of parameters, predictions in the new unit, and admissible parameters stay
admissible. `mult` says whether the model is used as a factor. -/
structure Translates (mult : Bool) (c : K) (m : ForecastModel K) (T : List K → List K) : Prop where
  length : ∀ p, (T p).length = p.length
  value : ∀ ctx p a, m.fModel ctx p mult = .ok a → m.fModel (ctxInUnit c ctx) (p.map T) mult = .ok (arrInUnit c a)
  bounds : ∀ ax ay b, m.fBounds ⟨some ax, some ay, none⟩ = .ok b → ∃ b', m.fBounds ⟨some ax, some (ay.map fun v => c * v), none⟩ = .ok b' ∧
    ∀ p, Admissible p b → Admissible (T p) b'
  sized : ∀ args b, m.fBounds args = .ok b → b.lo.length = m.nParams ∧ b.hi.length = m.nParams

/-- The model can describe data in any unit. -/
def UnitFree (mult : Bool) (m : ForecastModel K) : Prop := ∀ c, 0 < c → ∃ T, Translates mult c m T

/-- The factor does not depend on the data. -/
structure PureFactor (m : ForecastModel K) : Prop where
  value : ∀ ctx c p, m.fModel (ctxInUnit c ctx) p true = m.fModel ctx p true
  bounds : ∀ ax ay c, m.fBounds ⟨some ax, some (ay.map fun v => c * v), none⟩ = m.fBounds ⟨some ax, some ay, none⟩
  sized : ∀ args b, m.fBounds args = .ok b → b.lo.length = m.nParams ∧ b.hi.length = m.nParams

end Anticipy.Spec
