import Verif.Lemmas.Composition
import Verif.Lemmas.ListOps
import Verif.Spec.Cache
import Verif.Model.ZooReal
import Verif.Model.Fix
import Mathlib.Algebra.Order.Ring.Rat

/-
C05 (caches never change a forecast), C06 (validation of composites).
-/
namespace Anticipy
open Spec
variable {K : Type} [Field K]

/-! ### C05 -/

theorem evalCache_correct (reg : Registry K) (ax : List K) (ad : Option (List Timestamp))
    (l : List (String × CacheFn K)) (hl : ∀ e ∈ l, reg e.1 = some e.2)
    (c0 c : String → Option (CacheVal K)) (h0 : CacheCorrect reg ax ad c0) (h : evalCache ax ad l c0 = .ok c) :
    CacheCorrect reg ax ad c := by
  induction l generalizing c0 with
  | nil => simp [evalCache] at h; subst h; exact h0
  | cons e l ih =>
    obtain ⟨k, f⟩ := e
    simp only [evalCache, bind, Except.bind] at h
    cases hf : f ax ad with
    | error x => simp [hf] at h
    | ok v =>
      simp only [hf] at h
      refine ih (fun e he => hl e (by simp [he])) _ ?_ h
      intro k' v' hk
      by_cases hkk : k' = k
      · subst hkk
        simp at hk; subst hk
        exact ⟨f, hl (k', f) (by simp), hf⟩
      · simp [hkk] at hk
        exact h0 k' v' hk

theorem initCache_correct (global : String → Option (CacheFn K)) (reg : Registry K) (m : ForecastModel K)
    (hreg : Registered global reg m) (ax : List K) (ad : Option (List Timestamp)) (c : String → Option (CacheVal K))
    (h : m.initCache global ax ad = .ok c) : CacheCorrect reg ax ad c := by
  refine evalCache_correct reg ax ad _ ?_ (fun _ => none) c (by intro k v hk; simp at hk) h
  intro e he
  simp only [List.mem_append, List.mem_filterMap, Option.map_eq_some_iff] at he
  rcases he with ⟨k, hk, f, hf, rfl⟩ | he
  · exact hreg.1 k hk f hf
  · exact hreg.2 e he

theorem registered_compose (global : String → Option (CacheFn K)) (reg : Registry K) (mult : Bool)
    (a b : ForecastModel K) (ha : Registered global reg a) (hb : Registered global reg b) :
    Registered global reg (compose mult a b) := by
  unfold compose
  split
  · exact hb
  split
  · exact ha
  · constructor
    · intro k hk
      have := mem_dedupBy _ _ _ hk
      rcases List.mem_append.1 this with h | h
      · exact ha.1 k h
      · exact hb.1 k h
    · intro e he
      simp only [dictUpdate, List.mem_append, List.mem_filter] at he
      rcases he with h | h
      · exact ha.2 e h.1
      · exact hb.2 e h

theorem transparent_compose (reg : Registry K) (mult : Bool) (a b : ForecastModel K) (ha : CacheTransparent reg a)
    (hb : CacheTransparent reg b) : CacheTransparent reg (compose mult a b) := by
  unfold compose
  split
  · exact hb
  split
  · exact ha
  · intro ctx c p mode hc
    cases mult <;> cases p <;>
      simp [fAdd2, fMult2, splitParams, bind, Except.bind, ha ctx c _ _ hc, hb ctx c _ _ hc]

/-- **C05** For every expression whose components agree on the meaning of shared cache names, the call with the cache
that the composite itself computes for the inputs gives exactly the result of the call without cache (for all
parameters and modes, exceptions included). -/
theorem C05_cache_transparent_partial (global : String → Option (CacheFn K)) (reg : Registry K)
    (e : Expr (ForecastModel K)) (hreg : ∀ m ∈ e.leaves, Registered global reg m)
    (htr : ∀ m ∈ e.leaves, CacheTransparent reg m)
    (ctx : Ctx K) (c : String → Option (CacheVal K)) (hc : e.build.initCache global ctx.ax ctx.adate = .ok c)
    (p : Params K) (mode : Bool) :
    e.build.fModel (withCache ctx c) p mode = e.build.fModel (noCache ctx) p mode := by
  have h1 : Registered global reg e.build := by
    clear hc htr
    induction e with
    | leaf m => exact hreg m (by simp [Expr.leaves])
    | add l r ihl ihr =>
      exact registered_compose global reg false _ _ (ihl fun m hm => hreg m (by simp [Expr.leaves, hm]))
        (ihr fun m hm => hreg m (by simp [Expr.leaves, hm]))
    | mul l r ihl ihr =>
      exact registered_compose global reg true _ _ (ihl fun m hm => hreg m (by simp [Expr.leaves, hm]))
        (ihr fun m hm => hreg m (by simp [Expr.leaves, hm]))
  have h2 : CacheTransparent reg e.build := by
    clear hc hreg h1
    induction e with
    | leaf m => exact htr m (by simp [Expr.leaves])
    | add l r ihl ihr =>
      exact transparent_compose reg false _ _ (ihl fun m hm => htr m (by simp [Expr.leaves, hm]))
        (ihr fun m hm => htr m (by simp [Expr.leaves, hm]))
    | mul l r ihl ihr =>
      exact transparent_compose reg true _ _ (ihl fun m hm => htr m (by simp [Expr.leaves, hm]))
        (ihr fun m hm => htr m (by simp [Expr.leaves, hm]))
  exact h2 ctx c p mode (initCache_correct global reg _ h1 _ _ c hc)

section leaves
variable [LinearOrder K]

/-- Models whose function never looks at the cache. -/
def IgnoresCache (m : ForecastModel K) : Prop :=
  ∀ ctx c p mode, m.fModel (withCache ctx c) p mode = m.fModel (noCache ctx) p mode

omit [LinearOrder K] in
theorem IgnoresCache.transparent {m : ForecastModel K} (h : IgnoresCache m) (reg : Registry K) :
    CacheTransparent reg m := fun ctx c p mode _ => h ctx c p mode

theorem ignores_twoSteps : IgnoresCache (modelTwoSteps : ForecastModel K) := by
  intro ctx c p mode
  simp only [modelTwoSteps, mkModel, fNSteps]
  cases p with
  | none => rfl
  | some params =>
    simp only
    generalize (Arr.scalar (some (if mode = true then (1 : K) else 0))) = y0
    generalize 2 / 2 + 1 = k
    generalize 0 = i
    induction k generalizing i y0 with
    | zero => rfl
    | succ k ih =>
      simp only [fNStepsLoop]
      split
      · have hs : ∀ a b : K, fStep (withCache ctx c) (some [a, b]) mode = fStep (noCache ctx) (some [a, b]) mode :=
          fun _ _ => rfl
        simp only [hs, ih]
      · rfl

theorem transparent_indexed (reg : Registry K) (key : String) (f : CacheFn K) (hk : reg key = some f)
    (m : ForecastModel K) (hm : m.fModel = fModelIndexed key f) : CacheTransparent reg m := by
  intro ctx c p mode hc
  rw [hm]
  simp only [fModelIndexed, withCache, noCache]
  cases p with
  | none => rfl
  | some params =>
    simp only
    cases h : c key with
    | none => rfl
    | some v =>
      obtain ⟨f', hf', hv⟩ := hc key v h
      rw [hk] at hf'
      cases hf'
      rw [hv]; rfl

theorem transparent_dummy (reg : Registry K) (name : String) (f : DummyFn K)
    (hk : reg ("mask_" ++ name) = some (fun ax ad => do let m ← f ax ad; .ok (.mask m)))
    (m : ForecastModel K) (hm : m.fModel = fModelDummy f ("mask_" ++ name)) : CacheTransparent reg m := by
  intro ctx c p mode hc
  rw [hm]
  simp only [fModelDummy, withCache, noCache]
  cases h : c ("mask_" ++ name) with
  | none => rfl
  | some v =>
    obtain ⟨f', hf', hv⟩ := hc _ v h
    rw [hk] at hf'
    cases hf'
    simp only [bind, Except.bind] at hv
    cases hm : f ctx.ax ctx.adate with
    | error x => simp [hm] at hv
    | ok mk => simp [hm] at hv; subst hv; rfl

end leaves

/-- The parameter-only and date-based built-in models without cache variables. -/
noncomputable def plainModels : List (ForecastModel ℝ) :=
  [modelNull, modelConstant, modelLinear, modelLinearNondec, modelQuasilinear, modelExp, modelDecay, modelStep,
   modelTwoSteps, modelSigmoidStep, modelSigmoid, modelRamp, modelSpike]

theorem plain_ignores : ∀ m ∈ plainModels, IgnoresCache m := by
  intro m hm
  simp only [plainModels, List.mem_cons, List.not_mem_nil, or_false] at hm
  rcases hm with rfl|rfl|rfl|rfl|rfl|rfl|rfl|rfl|rfl|rfl|rfl|rfl|rfl
  case _ => exact fun _ _ _ _ => rfl
  case _ => exact fun _ _ _ _ => rfl
  case _ => exact fun _ _ _ _ => rfl
  case _ => exact fun _ _ _ _ => rfl
  case _ => exact fun _ _ _ _ => rfl
  case _ => exact fun _ _ _ _ => rfl
  case _ => exact fun _ _ _ _ => rfl
  case _ => exact fun _ _ _ _ => rfl
  case _ => exact ignores_twoSteps
  case _ => exact fun _ _ _ _ => rfl
  case _ => exact fun _ _ _ _ => rfl
  case _ => exact fun _ _ _ _ => rfl
  case _ => exact fun _ _ _ _ => rfl

/-- Built-in components and user dummies: `dummies` maps dummy names to mask functions (one function per name). -/
inductive Component (dummies : String → Option (DummyFn ℝ)) : ForecastModel ℝ → Prop
  | plain (m) (h : m ∈ plainModels) : Component dummies m
  | stepDate (label d) : Component dummies (getModelStepDate label d)
  | spikeDate (label d1 d2) : Component dummies (getModelSpikeDate label d1 d2)
  | wday : Component dummies modelSeasonWday
  | month : Component dummies modelSeasonMonth
  | fourier : Component dummies modelFourier
  | dummy (name f m) (hf : dummies name = some f) (h : getModelDummy name f = .ok m) : Component dummies m
  | fixed (m0 ps m) (hn : m0.nParams ≠ 0) (h : getFixedModel m0 ps = .ok m) : Component dummies m

/-- The mask function as a cache function. -/
def maskCache (f : DummyFn ℝ) : CacheFn ℝ := fun ax ad => do let m ← f ax ad; .ok (.mask m)

theorem mask_inj (a b : String) (h : "mask_" ++ a = "mask_" ++ b) : a = b := by
  have := congrArg String.toList h
  simp only [String.toList_append, List.append_cancel_left_eq] at this
  exact String.toList_inj.1 this

/-- One function per dummy name is enough for a consistent registry. -/
theorem registry_exists (dummies : String → Option (DummyFn ℝ)) :
    ∃ reg : Registry ℝ, (∀ k f, globalCache k = some f → reg k = some f) ∧
      ∀ name f, dummies name = some f → reg ("mask_" ++ name) = some (maskCache f) := by
  classical
  refine ⟨fun k => match globalCache k with
    | some f => some f
    | none => if h : ∃ name, k = "mask_" ++ name then (dummies h.choose).map maskCache else none, ?_, ?_⟩
  · intro k f h; simp [h]
  · intro name f h
    have hg : globalCache ("mask_" ++ name) = none := by
      have ne : ∀ s : String, s.toList.head? = some 'a' → "mask_" ++ name ≠ s := by
        intro s hs he
        have := congrArg (fun t => t.toList.head?) he
        simp [String.toList_append, hs] at this
      simp [globalCache, ne "a_month" (by decide), ne "a_weekday" (by decide), ne "a_t_fourier" (by decide)]
    have hex : ∃ n', "mask_" ++ name = "mask_" ++ n' := ⟨name, rfl⟩
    have hch : hex.choose = name := (mask_inj _ _ hex.choose_spec).symm
    simp only [hg, hex, dif_pos, hch, h, Option.map_some]

/-- **C05** (built-in models) Any `+`/`*` expression of the built-in trend and seasonality models, date models, fixed models
and user dummies, where each dummy name stands for one mask function, evaluates the same with and without cache. -/
theorem C05_builtin_partial (dummies : String → Option (DummyFn ℝ)) (e : Expr (ForecastModel ℝ))
    (h : ∀ m ∈ e.leaves, Component dummies m) (ctx : Ctx ℝ) (c : String → Option (CacheVal ℝ))
    (hc : e.build.initCache globalCache ctx.ax ctx.adate = .ok c) (p : Params ℝ) (mode : Bool) :
    e.build.fModel (withCache ctx c) p mode = e.build.fModel (noCache ctx) p mode := by
  obtain ⟨reg, hglob, hmask⟩ := registry_exists dummies
  have key : ∀ m, Component dummies m → Registered globalCache reg m ∧ CacheTransparent reg m := by
    intro m hm
    cases hm with
    | plain m h =>
      refine ⟨?_, (plain_ignores m h).transparent reg⟩
      simp only [plainModels, List.mem_cons, List.not_mem_nil, or_false] at h
      rcases h with rfl|rfl|rfl|rfl|rfl|rfl|rfl|rfl|rfl|rfl|rfl|rfl|rfl <;>
        exact ⟨fun k hk => absurd hk List.not_mem_nil, fun k hk => absurd hk List.not_mem_nil⟩
    | stepDate label d =>
      exact ⟨⟨fun k hk => absurd hk List.not_mem_nil, fun k hk => absurd hk List.not_mem_nil⟩, fun _ _ _ _ _ => rfl⟩
    | spikeDate label d1 d2 =>
      exact ⟨⟨fun k hk => absurd hk List.not_mem_nil, fun k hk => absurd hk List.not_mem_nil⟩, fun _ _ _ _ _ => rfl⟩
    | wday =>
      refine ⟨⟨fun k _ f hf => hglob k f hf, fun k hk => absurd hk List.not_mem_nil⟩, ?_⟩
      exact transparent_indexed reg "a_weekday" cacheWeekday (hglob _ _ (by simp [globalCache])) _ rfl
    | month =>
      refine ⟨⟨fun k _ f hf => hglob k f hf, fun k hk => absurd hk List.not_mem_nil⟩, ?_⟩
      exact transparent_indexed reg "a_month" cacheMonth (hglob _ _ (by simp [globalCache])) _ rfl
    | fourier =>
      refine ⟨⟨fun k _ f hf => hglob k f hf, fun k hk => absurd hk List.not_mem_nil⟩, ?_⟩
      intro ctx c p mode hcc
      have hr : reg "a_t_fourier" = some cacheFourier := hglob _ _ (by simp [globalCache])
      simp only [modelFourier, mkModel, fModelFourier, withCache, noCache]
      cases hk : c "a_t_fourier" with
      | none => rfl
      | some v =>
        obtain ⟨f', hf', hv⟩ := hcc _ v hk
        rw [hr] at hf'; cases hf'
        have : cacheFourier [] ctx.adate = cacheFourier ctx.ax ctx.adate := rfl
        simp only [this, hv]; rfl
    | dummy name f m hf hd =>
      have hm : m = mkModel name 1 (fModelDummy f ("mask_" ++ name)) (dictFCache := [("mask_" ++ name, maskCache f)]) := by
        simp only [getModelDummy, bind, Except.bind] at hd
        cases hv : validateFDummy f <;> simp [hv] at hd
        exact hd.symm
      subst hm
      refine ⟨⟨fun k hk => absurd hk List.not_mem_nil, ?_⟩, ?_⟩
      · intro e he
        simp only [mkModel, List.mem_singleton] at he
        subst he
        exact hmask name f hf
      · exact transparent_dummy reg name f (hmask name f hf) _ rfl
    | fixed m0 ps m hn hfix =>
      simp only [getFixedModel, hn, if_false] at hfix
      split at hfix
      · simp at hfix
      · cases hfix
        exact ⟨⟨fun k hk => absurd hk List.not_mem_nil, fun k hk => absurd hk List.not_mem_nil⟩, fun _ _ _ _ _ => rfl⟩
  exact C05_cache_transparent_partial globalCache reg e (fun m hm => (key m (h m hm)).1) (fun m hm => (key m (h m hm)).2)
    ctx c hc p mode

/-- Hypotheses met: `linear + season_wday` on three dates; the cache exists and is used. -/
example : ∃ c, ((modelLinear : ForecastModel ℝ).add modelSeasonWday).initCache globalCache [0, 1, 2]
    (some [0, DAY, 2 * DAY]) = .ok c ∧ c "a_weekday" = some (.ints [3, 4, 5]) := by
  refine ⟨fun s => if s = "a_weekday" then some (.ints [3, 4, 5]) else none, ?_, by simp⟩
  have h : [(0 : Timestamp), DAY, 2 * DAY].map weekday = [3, 4, 5] := by decide +kernel
  simp [ForecastModel.initCache, ForecastModel.add, compose, modelLinear, modelSeasonWday, mkModel, dedupBy, dictUpdate,
      globalCache, evalCache, cacheWeekday, bind, Except.bind, h, List.filterMap]

/-- Two user dummies on different dates that happen to have the same name. -/
def dummyOn (d : Timestamp) : DummyFn ℚ := fun _ ad => match ad with
  | none => .error .typeError
  | some ds => .ok (isinMask ds [d])

def clash : Res (ForecastModel ℚ) := do
  let a ← getModelDummy "promo" (dummyOn (17532 * DAY))
  let b ← getModelDummy "promo" (dummyOn (17533 * DAY))
  .ok (a.add b)

/-- Value of the clashing sum on 2018-01-01 and 2018-01-02 with parameters 5 and 7, without and with cache. -/
def clashValues : Res (Arr ℚ × Arr ℚ) := do
  let m ← clash
  let ctx : Ctx ℚ := { ax := [0, 1], adate := some [17532 * DAY, 17533 * DAY] }
  let c ← m.initCache (fun _ => none) ctx.ax ctx.adate
  let a ← m.fModel (noCache ctx) (some [5, 7]) false
  let b ← m.fModel (withCache ctx c) (some [5, 7]) false
  .ok (a, b)

/-- **C05 refuted without the proviso**: the first dummy silently uses the second one's dates once cached. -/
theorem C05_counterexample : clashValues = .ok (.vec [some 5, some 7], .vec [some 0, some 12]) := by decide +kernel

/-! ### C06 -/

theorem runValidators_true (ax ay : List K) (ad : Option (List Timestamp)) (l : List (Validator K)) :
    runValidators ax ay ad l = .ok true ↔ ∀ v ∈ l, Accepts v ax ay ad := by
  induction l with
  | nil => simp [runValidators]
  | cons v l ih =>
    simp only [runValidators, List.mem_cons, forall_eq_or_imp, ← ih]
    cases h : v.run ax ay ad with
    | ok b => simp [Accepts, h]
    | error e => cases e <;> simp [Accepts, h]

theorem runValidators_false (ax ay : List K) (ad : Option (List Timestamp)) (l : List (Validator K))
    (hl : ∀ v ∈ l, ∀ e, v.run ax ay ad = .error e → e = .assertionError) :
    runValidators ax ay ad l = .ok false ↔ ∃ v ∈ l, v.run ax ay ad = .error .assertionError := by
  induction l with
  | nil => simp [runValidators]
  | cons v l ih =>
    simp only [runValidators, List.mem_cons, exists_eq_or_imp]
    cases h : v.run ax ay ad with
    | ok b => simp [h, ih fun v hv => hl v (by simp [hv])]
    | error e =>
      have := hl v (by simp) e h
      subst this; simp

/-- Function identity: two validators with one identity are the same function. -/
def SameIdSameFn (l : List (Validator K)) : Prop := ∀ v ∈ l, ∀ w ∈ l, v.id = w.id → v = w

/-- **C06** A composite accepts the data exactly when both parts do - in whatever order `list(set(..))` puts the
validators (`vs` is any permutation of the composite's list). -/
theorem C06_validate_composite (mult : Bool) (a b : ForecastModel K) (ha : a.name ≠ "null") (hb : b.name ≠ "null")
    (hid : SameIdSameFn (a.validators ++ b.validators)) (ax ay : List K) (ad : Option (List Timestamp))
    (vs : List (Validator K)) (hvs : vs.Perm (compose mult a b).validators) :
    ({ compose mult a b with validators := vs } : ForecastModel K).validateInput ax ay ad = .ok true ↔
      a.validateInput ax ay ad = .ok true ∧ b.validateInput ax ay ad = .ok true := by
  simp only [ForecastModel.validateInput, runValidators_true]
  have hmem : ∀ v, v ∈ vs ↔ v ∈ a.validators ++ b.validators := by
    intro v
    rw [hvs.mem_iff]
    simp only [compose, ha, hb, if_false]
    constructor
    · exact mem_dedupBy _ _ _
    · intro h
      obtain ⟨w, hw, hk⟩ := mem_dedupBy_key Validator.id _ v h
      rwa [← hid w (mem_dedupBy _ _ _ hw) v h hk]
  simp only [hmem, List.mem_append]
  constructor
  · exact fun h => ⟨fun v hv => h v (.inl hv), fun v hv => h v (.inr hv)⟩
  · rintro ⟨h1, h2⟩ v (h | h)
    · exact h1 v h
    · exact h2 v h

/-- **C06** (rejection) If validators raise nothing but assertion errors, validation is `False` exactly when one of them
raises; hence a composite is rejected exactly when one part is. Missing for the full claim: validators that return `False`, see
`C06_counterexample_return_false`. -/
theorem C06_reject_partial (m : ForecastModel K) (ax ay : List K) (ad : Option (List Timestamp))
    (h : ∀ v ∈ m.validators, ∀ e, v.run ax ay ad = .error e → e = .assertionError) :
    m.validateInput ax ay ad = .ok false ↔ ∃ v ∈ m.validators, v.run ax ay ad = .error .assertionError :=
  runValidators_false ax ay ad m.validators h

/-- A validator that follows the documentation and returns `False` for bad data. -/
def validatorReturningFalse : Validator ℚ := ⟨"user", fun _ ay _ => .ok (ay.all fun y => decide (0 < y))⟩

/-- **C06 refuted for "returns False"**: the documentation promises rejection, the code accepts. -/
theorem C06_counterexample_return_false :
    ∃ (m : ForecastModel ℚ) (ay : List ℚ), (∀ v ∈ m.validators, v.run [0] ay none = .ok false) ∧
      m.validateInput [0] ay none = .ok true :=
  ⟨mkModel "user" 1 fModelConstant (validators := [validatorReturningFalse]), [-1], by decide +kernel, by decide +kernel⟩

/-- Hypotheses met: the composite of the weekday model and the decay model's positivity check. -/
example : ((modelSeasonWday : ForecastModel ℚ).add modelLinear).validateInput [0] [1] none = .ok false := by
  decide +kernel
example : ((modelSeasonWday : ForecastModel ℚ).add modelLinear).validateInput [0, 1, 2, 3, 4, 5, 6] [1, 1, 1, 1, 1, 1, 1]
    (some [0, DAY, 2 * DAY, 3 * DAY, 4 * DAY, 5 * DAY, 6 * DAY]) = .ok true := by decide +kernel

end Anticipy

#print axioms Anticipy.C05_cache_transparent_partial
#print axioms Anticipy.C05_builtin_partial
#print axioms Anticipy.C05_counterexample
#print axioms Anticipy.C06_validate_composite
#print axioms Anticipy.C06_reject_partial
#print axioms Anticipy.C06_counterexample_return_false
