import Verif.Model.Fix
import Verif.Model.ZooReal
import Verif.Spec.Fix
import Verif.Spec.Cache
import Mathlib.Algebra.Order.Ring.Rat
import Mathlib.Data.Rat.Floor

/-
C16 (fixing some parameters), C17 (simplification for degenerate bounds), C18 (fixing all parameters).
-/
namespace Anticipy
open Spec
variable {K : Type} [Field K] [LinearOrder K]

/-! ### C16 -/

/-- State invariant of the shared array: same length, fixed positions untouched. -/
def StateOK (fixed cur : List (Option K)) : Prop :=
  List.Forall₂ (fun f c => ∀ v, f = some v → c = some v) fixed cur

theorem stateOK_refl (fixed : List (Option K)) : StateOK fixed fixed := by
  induction fixed with
  | nil => exact .nil
  | cons a l ih => exact .cons (fun _ h => h) ih

theorem fillNulls_stateOK (fixed cur : List (Option K)) (vs : List K) (h : StateOK fixed cur) :
    StateOK fixed (fillNulls (fixed.map Option.isNone) cur vs) := by
  induction h generalizing vs with
  | nil => exact .nil
  | @cons f c fs cs hfc hrest ih =>
    cases f with
    | some v => exact .cons hfc (ih vs)
    | none =>
      cases vs with
      | nil => exact .cons (by simp) (ih [])
      | cons w ws => exact .cons (by simp) (ih ws)

theorem filter_isNone_length (fixed : List (Option K)) :
    ((fixed.map Option.isNone).filter id).length = freeCount fixed := by
  induction fixed with
  | nil => rfl
  | cons a l ih => cases a <;> simp_all [freeCount]

theorem countNulls_eq (fixed : List (Option K)) : countNulls fixed = freeCount fixed := by
  induction fixed with
  | nil => rfl
  | cons a l ih => cases a <;> simp_all [freeCount, countNulls]

theorem fillNulls_merge (fixed cur : List (Option K)) (vs : List K) (h : StateOK fixed cur)
    (hv : vs.length = freeCount fixed) :
    fillNulls (fixed.map Option.isNone) cur vs = (merge fixed vs).map some := by
  induction h generalizing vs with
  | nil => simp [fillNulls, merge]
  | @cons f c fs cs hfc hrest ih =>
    cases f with
    | some v =>
      simp only [freeCount] at hv
      have := hfc v rfl
      subst this
      simp [fillNulls, merge, ih vs hv]
    | none =>
      cases vs with
      | nil => simp [freeCount] at hv
      | cons w ws =>
        simp [freeCount] at hv
        simp [fillNulls, merge, ih ws hv]

theorem mapM_some (l : List K) : (l.map some).mapM id = some l := by
  induction l with
  | nil => rfl
  | cons a l ih => simp [ih]

/-- The state after a sequence of calls with arbitrary arguments (including ones that raise). -/
def runCalls (m : ForecastModel K) (fixed : List (Option K)) :
    List (Ctx K × Params K × Bool) → List (Option K) → List (Option K)
  | [], cur => cur
  | (ctx, p, mode) :: cs, cur => runCalls m fixed cs (fixedCall m (fixed.map Option.isNone) cur ctx p mode).1

theorem runCalls_stateOK (m : ForecastModel K) (fixed : List (Option K)) (cs : List (Ctx K × Params K × Bool))
    (cur : List (Option K)) (h : StateOK fixed cur) : StateOK fixed (runCalls m fixed cs cur) := by
  induction cs generalizing cur with
  | nil => exact h
  | cons c cs ih =>
    obtain ⟨ctx, p, mode⟩ := c
    apply ih
    simp only [fixedCall]
    cases ha : assignNulls (fixed.map Option.isNone) cur p with
    | error e => exact h
    | ok st =>
      simp only
      simp only [assignNulls] at ha
      cases p with
      | none =>
        simp only at ha
        split at ha
        · cases ha; exact h
        · simp at ha
      | some vs =>
        simp only at ha
        split at ha
        · cases ha; exact fillNulls_stateOK _ _ _ h
        · split at ha
          · cases ha; exact fillNulls_stateOK _ _ _ h
          · simp at ha

/-- **C16** (evaluation, any history) After *any* sequence of earlier calls on the shared array, calling the fixed model with
as many parameters as there are free positions evaluates the original model at the merged vector. -/
theorem C16_history_independent (m : ForecastModel K) (fixed : List (Option K)) (cs : List (Ctx K × Params K × Bool))
    (ctx : Ctx K) (p : List K) (hp : p.length = freeCount fixed) (mode : Bool) :
    (fixedCall m (fixed.map Option.isNone) (runCalls m fixed cs fixed) ctx (some p) mode).2 =
      m.fModel { ax := ctx.ax, adate := ctx.adate } (some (merge fixed p)) mode := by
  have hst := runCalls_stateOK m fixed cs fixed (stateOK_refl fixed)
  simp only [fixedCall, assignNulls, filter_isNone_length, hp, if_true, fillNulls_merge _ _ _ hst hp, mapM_some]

/-- **C16** (the model) `fix_params_fmodel` succeeds exactly for a vector of the right length; the result declares the number of
free positions, evaluates as the original at the merged vector, and its guess and bounds are those of the original at the
free positions. -/
theorem C16_fix_params (label : List (Option K) → String) (m : ForecastModel K) (fixed : List (Option K)) :
    (fixed.length ≠ m.nParams → fixParams label m fixed = .error .assertionError) ∧
    (fixed.length = m.nParams → ∃ m', fixParams label m fixed = .ok m' ∧ m'.nParams = freeCount fixed ∧
      (∀ ctx p mode, p.length = m'.nParams →
        m'.fModel ctx (some p) mode = m.fModel { ax := ctx.ax, adate := ctx.adate } (some (merge fixed p)) mode) ∧
      (∀ u args mode, m'.fInit u args mode = (m.fInit u args mode).map (freePart fixed)) ∧
      (∀ args b, m.fBounds args = .ok b →
        ∃ b', m'.fBounds args = .ok b' ∧ b'.lo = freePart fixed b.lo ∧ b'.hi = freePart fixed b.hi)) := by
  have hsel : ∀ (α : Type) (l : List α), selectNulls (fixed.map Option.isNone) l = freePart fixed l := by
    intro α l
    induction fixed generalizing l with
    | nil => simp [selectNulls, freePart]
    | cons a fs ih =>
      cases l with
      | nil => cases a <;> simp [selectNulls, freePart]
      | cons b l => cases a <;> simp [selectNulls, freePart, ih]
  constructor
  · intro h; simp [fixParams, pyAssert, h, bind, Except.bind]
  · intro h
    refine ⟨_, by simp [fixParams, pyAssert, h, bind, Except.bind]; rfl, ?_, ?_, ?_, ?_⟩
    · simp [mkModel, countNulls_eq]
    · intro ctx p mode hp
      simp only [mkModel, countNulls_eq] at hp
      exact C16_history_independent m fixed [] ctx p hp mode
    · intro u args mode
      simp only [mkModel]
      cases m.fInit u args mode <;> simp [Except.map, hsel]
    · intro args b hb
      exact ⟨_, by simp only [mkModel, hb]; rfl, hsel _ _, hsel _ _⟩

/-- `linear` with slope fixed to 2: one free parameter. -/
example : (do let m ← fixParams (fun _ => "") (modelLinear : ForecastModel ℚ) [some 2, none]
              m.fModel { ax := [0, 1], adate := none } (some [10]) false) = .ok (.vec [some 10, some 12]) := by
  decide +kernel
example : merge [some 2, none, some (5 : ℚ), none] [10, 20] = [2, 10, 5, 20] := by decide +kernel

/-! ### C17 -/

theorem merge_freePart (lo hi : List (Ext K)) (q : List K) (hl : q.length = lo.length) (hh : q.length = hi.length)
    (hw : ∀ i (h : i < q.length) (hl : i < lo.length) (hh : i < hi.length),
      Ext.le lo[i] (.fin q[i]) = true ∧ Ext.le (.fin q[i]) hi[i] = true) :
    merge (degenerate lo hi) (freePart (degenerate lo hi) q) = q := by
  induction q generalizing lo hi with
  | nil =>
    have : lo = [] := List.length_eq_zero_iff.1 (by simpa using hl.symm)
    subst this; simp [degenerate, merge]
  | cons a q ih =>
    cases lo with
    | nil => simp at hl
    | cons l lo =>
      cases hi with
      | nil => simp at hh
      | cons h hi =>
        have ih' := ih lo hi (by simpa using hl) (by simpa using hh) (by
          intro i h1 h2 h3
          have := hw (i + 1) (by simp; omega) (by simp; omega) (by simp; omega)
          simp only [List.getElem_cons_succ] at this
          exact this)
        have h0 := hw 0 (by simp) (by simp) (by simp)
        simp only [List.getElem_cons_zero] at h0
        clear hw hl hh
        simp only [degenerate, List.zipWith_cons_cons] at ih' ⊢
        split
        · rename_i x y
          split
          · rename_i hxy
            subst hxy
            simp [Ext.le] at h0
            have : a = y := le_antisymm h0.2 h0.1
            subst this
            simp [merge, freePart, ih']
          · simp [merge, freePart, ih']
        · simp [merge, freePart, ih']

/-- **C17** (nothing to simplify) The model is returned unchanged when no parameter has equal finite bounds. -/
theorem C17_unchanged (label : List (Option K) → String) (m : ForecastModel K) (args : InitArgs K) (b : Bounds K)
    (hb : m.fBounds args = .ok b)
    (hne : ∀ (i : Nat) (v : K), b.lo[i]? = some (Ext.fin v) → b.hi[i]? ≠ some (Ext.fin v)) :
    simplifyModel label m args = .ok m := by
  have : (degenerate b.lo b.hi).all Option.isNone = true := by
    rw [List.all_eq_true]
    intro o ho
    obtain ⟨i, hi, rfl⟩ := List.getElem_of_mem ho
    simp only [degenerate, List.length_zipWith, List.getElem_zipWith] at hi ⊢
    split
    · rename_i x y hx hy
      split
      · rename_i hxy
        subst hxy
        have h1 : b.lo[i]? = some (.fin y) := by rw [List.getElem?_eq_getElem (by omega), hx]
        have h2 : b.hi[i]? = some (.fin y) := by rw [List.getElem?_eq_getElem (by omega), hy]
        exact absurd h2 (hne i y h1)
      · rfl
    · rfl
  simp [simplifyModel, hb, bind, Except.bind, this]

/-- **C17** (array bounds, the case of composed models) Otherwise the simplified model agrees with the original at every parameter
vector within the bounds. Missing from the full property: models whose bounds are plain lists raise (see below). -/
theorem C17_simplify_partial (label : List (Option K) → String) (m : ForecastModel K) (args : InitArgs K) (b : Bounds K)
    (hb : m.fBounds args = .ok b) (harr : b.isArray = true) (hlo : b.lo.length = m.nParams) (hhi : b.hi.length = m.nParams)
    (hignore : ∀ ctx p mode, m.fModel ctx p mode = m.fModel { ax := ctx.ax, adate := ctx.adate } p mode) :
    ∃ m', simplifyModel label m args = .ok m' ∧ m'.nParams ≤ m.nParams ∧
      ∀ ctx q mode, ParamsWithin q b → ∃ p, p.length = m'.nParams ∧
        m'.fModel ctx (some p) mode = m.fModel ctx (some q) mode := by
  by_cases hall : (degenerate b.lo b.hi).all Option.isNone = true
  · refine ⟨m, by simp [simplifyModel, hb, bind, Except.bind, hall], le_rfl, fun ctx q mode hq => ⟨q, ?_, rfl⟩⟩
    rw [hq.1, hlo]
  · have hlen : (degenerate b.lo b.hi).length = m.nParams := by simp [degenerate, hlo, hhi]
    obtain ⟨m', hm', hn, hev, _⟩ := (C16_fix_params label m (degenerate b.lo b.hi)).2 hlen
    refine ⟨m', ?_, ?_, ?_⟩
    · rw [← hm']
      simp only [simplifyModel, hb, bind, Except.bind, hall, Bool.false_eq_true, if_false, harr, Bool.not_true]
    · rw [hn, ← hlen]
      generalize degenerate b.lo b.hi = l
      induction l with
      | nil => simp [freeCount]
      | cons a l ih => cases a <;> simp [freeCount] <;> omega
    · intro ctx q mode hq
      have hfl : (freePart (degenerate b.lo b.hi) q).length = m'.nParams := by
        rw [hn]
        have : (degenerate b.lo b.hi).length = q.length := by rw [hlen, ← hlo, hq.1]
        revert this
        generalize degenerate b.lo b.hi = l
        clear hq
        induction l generalizing q with
        | nil => intro _; simp [freePart, freeCount]
        | cons a l ih =>
          cases q with
          | nil => intro h; simp at h
          | cons x q => intro h; cases a <;> simp [freePart, freeCount, ih q (by simpa using h)]
      refine ⟨freePart (degenerate b.lo b.hi) q, hfl, ?_⟩
      rw [hev ctx _ mode hfl, merge_freePart b.lo b.hi q hq.1 hq.2.1 hq.2.2, hignore ctx]

/-- A composite with one degenerate bound: `linear_nondec + sigmoid_step`-like; here a product of a model with bounds
`[3,3]` and a constant. -/
def exDegenerate : ForecastModel ℚ :=
  (mkModel "k" 1 fModelConstant (fBounds := fun _ => .ok ⟨[.fin 3], [.fin 3], false⟩)).mul modelConstant

example : (do let m ← simplifyModel (fun _ => "") exDegenerate ⟨none, none, none⟩
              m.fModel { ax := [0, 1], adate := none } (some [10]) false) = .ok (.vec [some 30, some 30]) := by
  decide +kernel

/-- **C17 refuted for plain-list bounds**: `model_sigmoid_step` on constant data has the degenerate bounds [0,0] for its level,
and simplification raises a `TypeError` instead of fixing it. -/
theorem C17_counterexample :
    fBoundsSigmoidStep (K := ℚ) ⟨some [0, 1, 2, 3, 4], some [7, 7, 7, 7, 7], none⟩
      = .ok ⟨[.fin 0, .fin 0, .fin 0], [.fin 0, .fin 4, .pinf], false⟩ ∧
    ∀ label f g, simplifyModel label (mkModel "sigmoid_step" 3 f g (fBoundsSigmoidStep (K := ℚ)))
      ⟨some [0, 1, 2, 3, 4], some [7, 7, 7, 7, 7], none⟩ = .error .typeError := by
  have hb : fBoundsSigmoidStep (K := ℚ) ⟨some [0, 1, 2, 3, 4], some [7, 7, 7, 7, 7], none⟩
      = .ok ⟨[.fin 0, .fin 0, .fin 0], [.fin 0, .fin 4, .pinf], false⟩ := by
    have h1 : listMin ([7, 7, 7, 7, 7] : List ℚ) = some 7 := by decide +kernel
    have h2 : listMax ([7, 7, 7, 7, 7] : List ℚ) = some 7 := by decide +kernel
    have h3 : listMin ([0, 1, 2, 3, 4] : List ℚ) = some 0 := by decide +kernel
    have h4 : listMax ([0, 1, 2, 3, 4] : List ℚ) = some 4 := by decide +kernel
    simp [fBoundsSigmoidStep, h1, h2, h3, h4]
  refine ⟨hb, ?_⟩
  intro label f g
  simp only [simplifyModel, mkModel, hb, bind, Except.bind]
  rfl

/-! ### C18 -/

/-- **C18** `get_fixed_model` accepts exactly parameter lists of the right length (models without parameters are returned as
they are); the result has no parameters and, whatever parameters it is called with, evaluates the original model at the
given values on the same samples. -/
theorem C18_get_fixed_model (m : ForecastModel K) (ps : List K) :
    (m.nParams = 0 → getFixedModel m ps = .ok m) ∧
    (m.nParams ≠ 0 → ps.length ≠ m.nParams → getFixedModel m ps = .error .valueError) ∧
    (m.nParams ≠ 0 → ps.length = m.nParams → ∃ m', getFixedModel m ps = .ok m' ∧ m'.nParams = 0 ∧
      m'.name = m.name ++ "_fixed" ∧
      ∀ ctx p mode, m'.fModel ctx p mode = m.fModel { ax := ctx.ax, adate := ctx.adate } (some ps) mode) := by
  refine ⟨fun h => by simp [getFixedModel, h], fun h1 h2 => by simp [getFixedModel, h1, h2], fun h1 h2 => ?_⟩
  exact ⟨_, by simp only [getFixedModel, h1, h2, if_false, ne_eq, not_true_eq_false]; rfl, rfl, rfl, fun _ _ _ => rfl⟩

example : (do let m ← getFixedModel (modelLinear : ForecastModel ℚ) [2, 1]
              m.fModel { ax := [0, 1, 5], adate := none } none false) = .ok (.vec [some 1, some 3, some 11]) := by
  decide +kernel

end Anticipy

#print axioms Anticipy.C16_history_independent
#print axioms Anticipy.C16_fix_params
#print axioms Anticipy.C17_unchanged
#print axioms Anticipy.C17_simplify_partial
#print axioms Anticipy.C17_counterexample
#print axioms Anticipy.C18_get_fixed_model
