import Verif.Model.Core

/-
Specification of "caches are transparent" (C05) and "validation accepts exactly what the parts accept" (C06).
-/
namespace Anticipy.Spec
variable {K : Type}

/-- A registry assigns one feature function to each cache-variable name. -/
abbrev Registry (K : Type) := String → Option (CacheFn K)

/-- Everything stored in the cache is the registered feature computed on these very inputs. -/
def CacheCorrect (reg : Registry K) (ax : List K) (ad : Option (List Timestamp)) (c : String → Option (CacheVal K)) :
    Prop :=
  ∀ k v, c k = some v → ∃ f, reg k = some f ∧ f ax ad = .ok v

/-- The call with cache arguments. -/
def withCache (ctx : Ctx K) (c : String → Option (CacheVal K)) : Ctx K := { ctx with cache := c, hasCache := true }
/-- The call without cache arguments. -/
def noCache (ctx : Ctx K) : Ctx K := { ctx with cache := fun _ => none, hasCache := false }

/-- The model function gives the same result with a correct cache as without. -/
def CacheTransparent (reg : Registry K) (m : ForecastModel K) : Prop :=
  ∀ ctx c p mode, CacheCorrect reg ctx.ax ctx.adate c →
    m.fModel (withCache ctx c) p mode = m.fModel (noCache ctx) p mode

/-- The model computes its cache variables as the registry says (`global` = the module dictionary). -/
def Registered (global : String → Option (CacheFn K)) (reg : Registry K) (m : ForecastModel K) : Prop :=
  (∀ k ∈ m.cacheVars, ∀ f, global k = some f → reg k = some f) ∧
  (∀ e ∈ m.dictFCache, reg e.1 = some e.2)

/-- A validator accepts if it does not raise. -/
def Accepts (v : Validator K) (ax ay : List K) (ad : Option (List Timestamp)) : Prop :=
  ∃ b, v.run ax ay ad = .ok b

end Anticipy.Spec
