import Verif.Spec.Units
import Verif.Props.Recovery
import Verif.Props.Outliers
import Verif.Props.Aic

/-
C68: the unit of the values has no influence on which model is chosen.
-/
namespace Anticipy
open Spec
variable {K : Type} [Field K] [LinearOrder K]

/-! ### Residuals and costs -/

theorem arrInUnit_inv (c : K) (hc : c ≠ 0) (a : Arr K) : arrInUnit c⁻¹ (arrInUnit c a) = a := by
  cases a with
  | scalar v => cases v <;> simp [arrInUnit, hc]
  | vec l =>
    simp only [arrInUnit, List.map_map, Arr.vec.injEq]
    conv => rhs; rw [← List.map_id l]
    apply List.map_congr_left
    intro v _
    cases v <;> simp [hc]

theorem inUnit_inv (c : K) (hc : c ≠ 0) (df : Frame K) : inUnit c⁻¹ (inUnit c df) = df := by
  obtain ⟨hd, hw, rows⟩ := df
  simp only [inUnit, List.map_map, Frame.mk.injEq, true_and]
  conv => rhs; rw [← List.map_id rows]
  apply List.map_congr_left
  rintro ⟨d, x, y, w⟩ _
  cases y <;> simp [sampleInUnit, hc]

theorem ctxInUnit_inv (c : K) (hc : c ≠ 0) (ctx : Ctx K) : ctxInUnit c⁻¹ (ctxInUnit c ctx) = ctx := by
  obtain ⟨ax, ad, act, ca, hca⟩ := ctx
  simp only [ctxInUnit, Ctx.mk.injEq, true_and, and_true]
  cases act <;> simp [inUnit_inv c hc]

/-- A difference of values in another unit. -/
theorem bin_sub_unit (c : K) (a b r : Arr K) (h : Arr.bin (fun a b => a - b) a b = .ok r) :
    Arr.bin (fun a b => a - b) (arrInUnit c a) (arrInUnit c b) = .ok (arrInUnit c r) := by
  have hl : ∀ u v : Option K, lift2 (fun a b => a - b) (u.map fun a => c * a) (v.map fun a => c * a) =
      (lift2 (fun a b => a - b) u v).map fun a => c * a := by
    intro u v; cases u <;> cases v <;> simp [lift2, mul_sub]
  cases a with
  | scalar u =>
    cases b with
    | scalar v => cases h; simp [arrInUnit, Arr.bin, hl]
    | vec m => cases h; simp [arrInUnit, Arr.bin, hl]
  | vec l =>
    cases b with
    | scalar v => cases h; simp [arrInUnit, Arr.bin, hl]
    | vec m =>
      simp only [arrInUnit, Arr.bin, List.length_map] at h ⊢
      split_ifs at h ⊢ with hlen
      · cases h
        simp only [arrInUnit, List.zipWith_map, hl, List.map_zipWith]
      · match l, m with
        | [u], m =>
          dsimp only at h ⊢
          cases h
          simp [arrInUnit, hl]
        | [], [v] => cases h; simp [arrInUnit]
        | u :: u' :: l, [v] =>
          cases h
          simp [arrInUnit, hl]
        | [], [] => exact absurd rfl hlen
        | [], _ :: _ :: _ => cases h
        | _ :: _ :: _, [] => cases h
        | _ :: _ :: _, _ :: _ :: _ => cases h

/-- Weighted values in another unit. -/
theorem bin_mul_unit (c : K) (a b r : Arr K) (h : Arr.bin (fun a b => a * b) a b = .ok r) :
    Arr.bin (fun a b => a * b) (arrInUnit c a) b = .ok (arrInUnit c r) := by
  have hl : ∀ u v : Option K, lift2 (fun a b => a * b) (u.map fun a => c * a) v = (lift2 (fun a b => a * b) u v).map fun a => c * a := by
    intro u v; cases u <;> cases v <;> simp [lift2, mul_assoc]
  cases a with
  | scalar u =>
    cases b with
    | scalar v => cases h; simp [arrInUnit, Arr.bin, hl]
    | vec m => cases h; simp [arrInUnit, Arr.bin, hl]
  | vec l =>
    cases b with
    | scalar v => cases h; simp [arrInUnit, Arr.bin, hl]
    | vec m =>
      simp only [arrInUnit, Arr.bin, List.length_map] at h ⊢
      split_ifs at h ⊢ with hlen
      · cases h
        simp only [arrInUnit, List.zipWith_map_left, hl, List.map_zipWith]
      · match l, m with
        | [u], m =>
          dsimp only at h ⊢
          cases h
          simp [arrInUnit, hl]
        | [], [v] => cases h; simp [arrInUnit]
        | u :: u' :: l, [v] =>
          cases h
          simp [arrInUnit, hl]
        | [], [] => exact absurd rfl hlen
        | [], _ :: _ :: _ => cases h
        | _ :: _ :: _, [] => cases h
        | _ :: _ :: _, _ :: _ :: _ => cases h

theorem bin_add_unit (c : K) (a b r : Arr K) (h : Arr.bin (fun a b => a + b) a b = .ok r) :
    Arr.bin (fun a b => a + b) (arrInUnit c a) (arrInUnit c b) = .ok (arrInUnit c r) := by
  have hl : ∀ u v : Option K, lift2 (fun a b => a + b) (u.map fun a => c * a) (v.map fun a => c * a) =
      (lift2 (fun a b => a + b) u v).map fun a => c * a := by
    intro u v; cases u <;> cases v <;> simp [lift2, mul_add]
  cases a with
  | scalar u =>
    cases b with
    | scalar v => cases h; simp [arrInUnit, Arr.bin, hl]
    | vec m => cases h; simp [arrInUnit, Arr.bin, hl]
  | vec l =>
    cases b with
    | scalar v => cases h; simp [arrInUnit, Arr.bin, hl]
    | vec m =>
      simp only [arrInUnit, Arr.bin, List.length_map] at h ⊢
      split_ifs at h ⊢ with hlen
      · cases h
        simp only [arrInUnit, List.zipWith_map, hl, List.map_zipWith]
      · match l, m with
        | [u], m =>
          dsimp only at h ⊢
          cases h
          simp [arrInUnit, hl]
        | [], [v] => cases h; simp [arrInUnit]
        | u :: u' :: l, [v] =>
          cases h
          simp [arrInUnit, hl]
        | [], [] => exact absurd rfl hlen
        | [], _ :: _ :: _ => cases h
        | _ :: _ :: _, [] => cases h
        | _ :: _ :: _, _ :: _ :: _ => cases h

theorem abs_unit [IsStrictOrderedRing K] (c : K) (hc : 0 < c) (a : Arr K) : (arrInUnit c a).abs = arrInUnit c a.abs := by
  cases a with
  | scalar v => cases v <;> simp [arrInUnit, Arr.abs, abs_mul, abs_of_pos hc]
  | vec l =>
    simp only [arrInUnit, Arr.abs, List.map_map, Arr.vec.injEq]
    apply List.map_congr_left
    intro v _
    cases v <;> simp [abs_mul, abs_of_pos hc]

/-- Residuals in another unit. -/
theorem getResiduals_unit [IsStrictOrderedRing K] (c : K) (hc : 0 < c) (m : ForecastModel K) (T : List K → List K) (hT : Translates false c m T)
    (ctx : Ctx K) (ay : List K) (aw : Option (List K)) (p : Params K) (r : Arr K) (h : getResiduals m ctx ay aw p = .ok r) :
    getResiduals m (ctxInUnit c ctx) (ay.map fun v => c * v) aw (p.map T) = .ok (arrInUnit c r) := by
  unfold getResiduals at h ⊢
  simp only [bind, Except.bind] at h ⊢
  cases h1 : m.fModel ctx p false with
  | error e => rw [h1] at h; cases h
  | ok pred =>
    rw [h1] at h
    rw [hT.value ctx p pred h1]
    dsimp only at h ⊢
    have hy : (vecOf (ay.map fun v => c * v) : Arr K) = arrInUnit c (vecOf ay) := by simp [vecOf, arrInUnit]
    cases h2 : Arr.bin (fun a b => a - b) (vecOf ay) pred with
    | error e => rw [h2] at h; cases h
    | ok d =>
      rw [h2] at h
      rw [hy, bin_sub_unit c _ _ _ h2]
      dsimp only at h ⊢
      cases aw with
      | none =>
        dsimp only at h ⊢
        cases h
        rw [abs_unit c hc]
      | some w =>
        dsimp only at h ⊢
        cases h3 : Arr.bin (fun a b => a * b) d (vecOf w) with
        | error e => rw [h3] at h; cases h
        | ok d' =>
          rw [h3] at h
          cases h
          rw [bin_mul_unit c _ _ _ h3]
          dsimp only
          rw [abs_unit c hc]

theorem usableRows_inUnit (c : K) (df : Frame K) : usableRows (inUnit c df) = (usableRows df).map (sampleInUnit c) := by
  unfold usableRows inUnit
  dsimp only
  rw [List.filter_map]
  congr 1
  apply List.filter_congr
  rintro ⟨d, x, y, w⟩ _
  cases y <;> simp [Usable, sampleInUnit]

theorem prepare_inUnit (c : K) (df : Frame K) : prepare (inUnit c df) = { prepare df with ys := (prepare df).ys.map fun v => c * v } := by
  have hx : ((usableRows df).map (sampleInUnit c)).map Row.x = (usableRows df).map Row.x := by rw [List.map_map]; rfl
  have hmul : ∀ (l : List (Row K)) r, multiplicity (l.map (sampleInUnit c)) (sampleInUnit c r) = multiplicity l r := by
    intro l r
    unfold multiplicity
    rw [List.filter_map, List.length_map]
    rfl
  rw [prepare_eq, prepare_eq, usableRows_inUnit]
  simp only [FitInput.mk.injEq]
  refine ⟨hx, ?_, ?_, ?_⟩
  · rw [List.map_map, List.map_map]
    apply List.map_congr_left
    intro r _
    cases h : r.y <;> simp [sampleInUnit, h]
  · rw [List.map_map]; rfl
  · rw [hx]
    simp only [List.map_map, Function.comp_def, hmul]
    rfl

theorem sumSq_scale (c : K) (l : List K) : sumSq (l.map fun e => c * e) = c ^ 2 * sumSq l := by
  unfold sumSq
  induction l with
  | nil => simp
  | cons a l ih =>
    simp only [List.map_cons, List.sum_cons] at ih ⊢
    rw [ih]
    ring

theorem halfSumSq_unit (c : K) (a : Arr K) : halfSumSq (arrInUnit c a) = c ^ 2 * halfSumSq a := by
  cases a with
  | scalar v =>
    cases v with
    | none => simp [halfSumSq, arrInUnit]
    | some v => simp only [halfSumSq, arrInUnit, Option.map_some]; ring
  | vec l =>
    induction l with
    | nil => simp [halfSumSq, arrInUnit]
    | cons a l ih =>
      simp only [halfSumSq, arrInUnit, List.map_cons, List.sum_cons] at ih ⊢
      cases a with
      | none => simpa using ih
      | some a =>
        simp only [Option.map_some]
        linear_combination ih

/-- A fit of a model without parameters. -/
theorem fitModel_noparams (env : Env K) (m : ForecastModel K) (df : Frame K) (actuals : Option (Frame K)) (c : Bool) (f : FitResult K)
    (hu : Unpinned m) (hn : m.nParams = 0) (h : fitModel env m df actuals c = .ok f) (hf : f.isFit = true) :
    ∃ res, getResiduals m { ax := scaleX m ((usableRows df).map Row.x), adate := (prepare df).dates, actuals := actuals } (prepare df).ys
        (prepare df).ws none = .ok res ∧ f.cost = some (halfSumSq res) ∧ env.aic f.cost (usableRows df).length m.nParams = .ok f.aic := by
  have hst := (C30_status env m df actuals c f h).2.2
  have hlong := hst.1.1 (.inl (hst.2.2.1 hf))
  obtain ⟨rng, h1⟩ := fitModel_long env m df actuals c hlong.1
  rw [h1, hlong.2] at h
  simp only [Bind.bind, Except.bind, Bool.not_true, Bool.false_eq_true, if_false] at h
  have hp : (prepare df).xs = (usableRows df).map Row.x := by rw [prepare_eq]
  cases h3 : simplifyModel env.label m ⟨some (scaleX m (prepare df).xs), some (prepare df).ys, (prepare df).dates⟩ with
  | error e => rw [h3] at h; cases h
  | ok m' =>
    rw [h3] at h
    dsimp only at h
    have := simplify_unpinned _ _ _ _ hu h3
    subst this
    unfold attemptFit at h
    rw [if_pos hn] at h
    simp only [bind, Except.bind] at h
    rw [← hp]
    cases h4 : getResiduals m' { ax := scaleX m' (prepare df).xs, adate := (prepare df).dates, actuals := actuals } (prepare df).ys (prepare df).ws none with
    | error e => rw [h4] at h; cases h
    | ok res =>
      rw [h4] at h
      dsimp only at h
      cases h5 : env.aic (some (halfSumSq res)) (prepare df).xs.length m'.nParams with
      | error e => rw [h5] at h; cases h
      | ok a =>
        rw [h5] at h
        cases h
        refine ⟨res, rfl, rfl, ?_⟩
        rw [hp, List.length_map] at h5
        exact h5

/-- **C68, cost.** With values in another unit the cost of a fitted model is multiplied by the square of the factor, for every model that can describe
data in any unit, if the solver finds the minimum. -/
theorem C68_cost [IsStrictOrderedRing K] (env env' : Env K) (hmin : FindsMinimum env) (hmin' : FindsMinimum env')
    (hg : env'.globalCache = env.globalCache) (m : ForecastModel K) (hu : Unpinned m) (hm : UnitFree false m) (c : K) (hc : 0 < c) (df : Frame K)
    (actuals : Option (Frame K)) (useCache : Bool) (f f' : FitResult K) (h : fitModel env m df actuals useCache = .ok f)
    (h' : fitModel env' m (inUnit c df) (actuals.map (inUnit c)) useCache = .ok f') (hf : f.isFit = true) (hf' : f'.isFit = true) :
    ∃ e, f.cost = some e ∧ f'.cost = some (c ^ 2 * e) := by
  have hc0 := hc.ne'
  have hx : (usableRows (inUnit c df)).map Row.x = (usableRows df).map Row.x := by rw [usableRows_inUnit, List.map_map]; rfl
  obtain ⟨T, hT⟩ := hm c hc
  by_cases hn : m.nParams = 0
  · obtain ⟨res, h1, h2, -⟩ := fitModel_noparams env m df actuals useCache f hu hn h hf
    obtain ⟨res', h1', h2', -⟩ := fitModel_noparams env' m _ _ useCache f' hu hn h' hf'
    have := getResiduals_unit c hc m T hT _ _ _ _ _ h1
    rw [prepare_inUnit, hx] at h1'
    simp only [ctxInUnit, Option.map_none] at this
    rw [this] at h1'
    have h1' := Except.ok.inj h1'
    refine ⟨_, h2, ?_⟩
    rw [h2', ← h1', halfSumSq_unit]
  · obtain ⟨-, ctx, guess, b, r, h1, h2, h3, h4, h5, h6, -, h8, -, h9, h10, -⟩ := fitModel_solver env m df actuals useCache f hu hn h hf
    obtain ⟨-, ctx', guess', b', r', h1', h2', h3', h4', h5', h6', -, h8', -, h9', h10', -⟩ := fitModel_solver env' m _ _ useCache f' hu hn h' hf'
    have hdates : (if (inUnit c df).hasDate then some ((usableRows (inUnit c df)).map Row.date) else none) =
        (if df.hasDate then some ((usableRows df).map Row.date) else none) := by
      rw [usableRows_inUnit, List.map_map]; rfl
    rw [hx, ← h1] at h1'
    rw [hdates, ← h2] at h2'
    rw [← h3] at h3'
    rw [hg, h1', h2', h9] at h9'
    have h9' := Except.ok.inj h9'
    rw [hg, ← h10] at h10'
    have hctx : ctx' = ctxInUnit c ctx := by
      obtain ⟨a1, a2, a3, a4, a5⟩ := ctx'
      obtain ⟨b1, b2, b3, b4, b5⟩ := ctx
      simp only at h1' h2' h3' h9' h10'
      simp only [ctxInUnit, Ctx.mk.injEq]
      exact ⟨h1', h2', h3', h9'.symm, h10'⟩
    subst hctx
    obtain ⟨p1, l, p2, p3, p4⟩ := hmin _ _ _ _ h5 h6
    obtain ⟨p1', l', p2', p3', p4'⟩ := hmin' _ _ _ _ h5' h6'
    rw [prepare_inUnit] at h4' p2' p4'
    dsimp only at p2 p4 h4' p2' p4'
    have hvec : ∀ (d : K) (l : List K), arrInUnit d (vecOf l) = vecOf (l.map fun e => d * e) := by
      intro d l; simp [vecOf, arrInUnit]
    -- translate the old optimum
    have a1 := getResiduals_unit c hc m T hT _ _ _ _ _ p2
    rw [hvec] at a1
    obtain ⟨b2, e1, e2⟩ := hT.bounds _ _ _ h4
    have : (ctxInUnit c ctx).ax = ctx.ax := rfl
    rw [this, e1] at h4'
    have h4' := Except.ok.inj h4'
    subst h4'
    have a2 := p4' _ _ (e2 _ p1) a1
    rw [sumSq_scale] at a2
    -- and back
    obtain ⟨S, hS⟩ := hm c⁻¹ (inv_pos.2 hc)
    have a3 := getResiduals_unit c⁻¹ (inv_pos.2 hc) m S hS _ _ _ _ _ p2'
    rw [hvec, ctxInUnit_inv c hc0] at a3
    have hback : ((prepare df).ys.map fun v => c * v).map (fun v => c⁻¹ * v) = (prepare df).ys := by
      rw [List.map_map]
      conv => rhs; rw [← List.map_id (prepare df).ys]
      apply List.map_congr_left
      intro v _
      simp [hc0]
    rw [hback] at a3
    obtain ⟨b3, e3, e4⟩ := hS.bounds _ _ _ e1
    rw [hback, h4] at e3
    have e3 := Except.ok.inj e3
    subst e3
    have a4 := p4 _ _ (e4 _ p1') a3
    rw [sumSq_scale] at a4
    refine ⟨_, by rw [h8, p3], ?_⟩
    rw [h8', p3']
    have hfin : sumSq l' = c ^ 2 * sumSq l := by
      apply le_antisymm a2
      have := mul_le_mul_of_nonneg_left a4 (sq_nonneg c)
      rwa [← mul_assoc, ← mul_pow, mul_inv_cancel₀ hc0, one_pow, one_mul] at this
    rw [hfin]
    congr 1
    ring

end Anticipy
