import Verif.Spec.TotalNumeric
import Verif.Props.TotalTable
import Verif.Props.Order

/-
C82 for series without dates: a run ends with a result.
-/
namespace Anticipy
open Spec
variable {K : Type} [Field K] [LinearOrder K]

/-! ### Models -/

theorem undated_plain {global : String → Option (CacheFn K)} {reg : Registry K} (m : ForecastModel K) (hn : m.nParams ≠ 0) (hname : m.name ≠ "null")
    (hb : m.fBounds = fBoundsDefault m.nParams) (hv : m.validators = [validateDefault]) (hc : m.cacheVars = []) (hd : m.dictFCache = [])
    (hi : IgnoresCache m)
    (hg : ∀ (ax ay : List K) u mult, ax.Pairwise (· < ·) → ay.length = ax.length → m.nParams + 2 ≤ ax.length →
      ∃ q : List K, m.fInit u ⟨some ax, some ay, none⟩ mult = .ok (q.map .fin) ∧ q.length = m.nParams)
    (he : ∀ (ctx : Ctx K) p mult, ctx.adate = none → p.length = m.nParams →
      ∃ a, m.fModel (noCache ctx) (some p) mult = .ok a ∧ Shaped ctx.ax.length a ∧ NoNulls a) : DependableUndated global reg m := by
  refine ⟨hn, hname, ?_, ?_, ?_, he, ⟨by rw [hc]; simp, by rw [hd]; simp⟩, hi.transparent reg, ?_⟩
  · intro v hv' ax ay e h
    rw [hv, List.mem_singleton] at hv'
    rw [hv'] at h
    cases h
  · intro ax ay _ _ _
    rw [hb]
    exact ⟨_, rfl, strict_default _⟩
  · intro ax ay u mult h1 h2 h3
    obtain ⟨q, e, l⟩ := hg ax ay u mult h1 h2 h3
    refine ⟨q, e, l, ?_⟩
    intro b h
    rw [hb] at h
    rw [← Except.ok.inj h]
    exact within_unbounded q _ l _
  · intro k f hk
    rw [hc, hd] at hk
    simp at hk

theorem undated_constant {global : String → Option (CacheFn K)} {reg : Registry K} : DependableUndated global reg (modelConstant : ForecastModel K) := by
  refine undated_plain _ (by simp [modelConstant, mkModel]) (by simp [modelConstant, mkModel]) rfl rfl rfl rfl (fun _ _ _ _ => rfl) ?_ ?_
  · intro ax ay u mult hx hl hlen
    obtain ⟨q, e, l, -⟩ := (dependable_constant (global := global) (reg := reg)).guess ax ay u mult hx hl hlen
    exact ⟨q, e, l⟩
  · intro ctx p mult _ hp
    match p, hp with
    | [a], _ => exact ⟨_, rfl, vecOf_map_complete ctx.ax fun _ => a⟩

theorem undated_linear [IsStrictOrderedRing K] {global : String → Option (CacheFn K)} {reg : Registry K} :
    DependableUndated global reg (modelLinear : ForecastModel K) := by
  refine undated_plain _ (by simp [modelLinear, mkModel]) (by simp [modelLinear, mkModel]) rfl rfl rfl rfl (fun _ _ _ _ => rfl) ?_ ?_
  · intro ax ay u mult hx hl hlen
    obtain ⟨q, e, l, -⟩ := (dependable_linear (global := global) (reg := reg)).guess ax ay u mult hx hl hlen
    exact ⟨q, e, l⟩
  · intro ctx p mult _ hp
    match p, hp with
    | [a, b], _ => exact ⟨_, rfl, vecOf_map_complete ctx.ax fun x => a * x + b⟩

theorem undated_ramp {global : String → Option (CacheFn K)} {reg : Registry K} : DependableUndated global reg (modelRamp : ForecastModel K) := by
  have h := dependable_ramp (K := K) (global := global) (reg := reg)
  refine ⟨h.params, h.named, ?_, fun ax ay => h.bounds ax ay none, h.guess, ?_, h.registered, h.transparent, ?_⟩
  · intro v hv ax ay e h
    have hv : v ∈ [validateDefault] := hv
    rw [List.mem_singleton] at hv
    rw [hv] at h
    cases h
  · intro ctx p mult _ hp
    match p, hp with
    | [a, b], _ => exact ⟨_, rfl, vecOf_map_complete ctx.ax _⟩
  · intro k f hk
    rcases hk with ⟨hk, -⟩ | hk
    · exact absurd hk List.not_mem_nil
    · exact absurd hk List.not_mem_nil

/-- Sums and products of dependable models. -/
theorem undated_compose (mult : Bool) {global : String → Option (CacheFn K)} {reg : Registry K} (m1 m2 : ForecastModel K)
    (h1 : DependableUndated global reg m1) (h2 : DependableUndated global reg m2) : DependableUndated global reg (compose mult m1 m2) := by
  have c1 := h1.named
  have c2 := h2.named
  have hn : (compose mult m1 m2).nParams = m1.nParams + m2.nParams := by unfold compose; rw [if_neg c1, if_neg c2]
  refine ⟨?_, ?_, ?_, ?_, ?_, ?_, registered_compose _ _ _ _ _ h1.registered h2.registered, transparent_compose _ _ _ _ h1.transparent h2.transparent, ?_⟩
  · rw [hn]
    have := h1.params
    omega
  · have e : (compose mult m1 m2).name = composedName (if mult then "*" else "+") m1.name m2.name := by unfold compose; rw [if_neg c1, if_neg c2]
    rw [e]
    intro h
    have := congrArg (fun s : String => s.toList.head?) h
    simp [composedName] at this
  · intro v hv
    have hv : v ∈ dedupBy Validator.id (m1.validators ++ m2.validators) := by
      unfold compose at hv; rw [if_neg c1, if_neg c2] at hv; exact hv
    rcases List.mem_append.1 (mem_dedupBy _ _ v hv) with h | h
    · exact h1.validates v h
    · exact h2.validates v h
  · intro ax ay hx hl hlen
    rw [hn] at hlen
    obtain ⟨b1, e1, s1⟩ := h1.bounds ax ay hx hl (by omega)
    obtain ⟨b2, e2, s2⟩ := h2.bounds ax ay hx hl (by omega)
    refine ⟨⟨b1.lo ++ b2.lo, b1.hi ++ b2.hi, true⟩, ?_, ?_, ?_⟩
    · unfold compose
      simp only [if_neg c1, if_neg c2, fConcatBounds, e1, e2, Bind.bind, Except.bind]
    · simp [s1.1, s2.1]
    · intro e he
      rw [List.zip_append s1.1] at he
      rcases List.mem_append.1 he with h | h
      · exact s1.2 e h
      · exact s2.2 e h
  · intro ax ay u mode hx hl hlen
    rw [hn] at hlen
    obtain ⟨q1, e1, l1, w1⟩ := h1.guess ax ay (fun i => u (2 * i)) mult hx hl (by omega)
    obtain ⟨q2, e2, l2, w2⟩ := h2.guess ax ay (fun i => u (2 * i + 1)) mult hx hl (by omega)
    obtain ⟨b1, f1, -⟩ := h1.bounds ax ay hx hl (by omega)
    obtain ⟨b2, f2, -⟩ := h2.bounds ax ay hx hl (by omega)
    refine ⟨q1 ++ q2, ?_, by rw [hn, List.length_append, l1, l2], ?_⟩
    · simp only [compose, if_neg c1, if_neg c2, fInit2, e1, e2, Bind.bind, Except.bind, List.map_append]
    · intro b hb
      have : b = ⟨b1.lo ++ b2.lo, b1.hi ++ b2.hi, true⟩ := by
        simp only [compose, if_neg c1, if_neg c2, fConcatBounds, f1, f2, Bind.bind, Except.bind] at hb
        exact (Except.ok.inj hb).symm
      rw [this]
      exact within_append _ _ _ _ (w1 b1 f1) (w2 b2 f2)
  · intro ctx p mode hd hp
    rw [hn] at hp
    obtain ⟨a1, e1, s1, n1⟩ := h1.evaluates ctx (p.take m1.nParams) mult hd (by rw [List.length_take]; omega)
    obtain ⟨a2, e2, s2, n2⟩ := h2.evaluates ctx (p.drop m1.nParams) mult hd (by rw [List.length_drop]; omega)
    obtain ⟨r, g1, g2, g3⟩ := bin_complete (if mult then (· * ·) else (· + ·)) _ a1 a2 s1 s2 n1 n2
    refine ⟨r, ?_, g2, g3⟩
    cases mult with
    | false =>
      simp only [compose, if_neg c1, if_neg c2, Bool.false_eq_true, if_false, fAdd2, splitParams, Bind.bind, Except.bind, e1, e2] at g1 ⊢
      exact g1
    | true =>
      simp only [compose, if_neg c1, if_neg c2, if_true, fMult2, splitParams, Bind.bind, Except.bind, e1, e2] at g1 ⊢
      exact g1
  · intro k f hk
    simp only [compose, if_neg c1, if_neg c2] at hk
    rcases hk with ⟨hk, hg⟩ | hk
    · rcases List.mem_append.1 (mem_dedupBy _ _ k hk) with h | h
      · exact h1.features k f (.inl ⟨h, hg⟩)
      · exact h2.features k f (.inl ⟨h, hg⟩)
    · rcases List.mem_append.1 hk with h | h
      · exact h1.features k f (.inr (List.mem_filter.1 h).1)
      · exact h2.features k f (.inr h)

/-! ### Fits -/

/-- A dependable model can be fitted to a series without dates. -/
theorem fit_undated [IsStrictOrderedRing K] (env : Env K) (reg : Registry K) (m : ForecastModel K) (hm : DependableUndated env.globalCache reg m) (df : Frame K)
    (act : Option (Frame K)) (c : Bool) (hsolve : SolverReturns env) (hscore : ScoreReturns env (usableRows df).length) (hd : df.hasDate = false)
    (hx : ((usableRows df).map Row.x).Pairwise (· < ·)) (hne : usableRows df ≠ []) :
    ∃ f, fitModel env m df act c = .ok f ∧ (f.isFit = true → f.params.length = m.nParams) := by
  obtain ⟨l1, l2, l3⟩ := prepare_lengths df
  by_cases hlen : m.nParams + 2 ≤ (usableRows df).length
  swap
  · have h0 : 0 < (usableRows df).length := List.length_pos_iff.2 hne
    obtain ⟨r, hr, -, h2, -⟩ := C30_too_short env m df act c h0 (by omega)
    exact ⟨r, hr, by rw [h2]; simp⟩
  obtain ⟨rng, hr⟩ := fitModel_long env m df act c hlen
  rw [hr]
  have hdates : (prepare df).dates = none := by rw [prepare_eq]; simp [hd]
  have hax : (scaleX m (prepare df).xs).Pairwise (· < ·) := by
    apply scaleX_increasing
    rw [prepare_eq]
    exact hx
  have haxl : (scaleX m (prepare df).xs).length = (usableRows df).length := by
    rw [← l1]
    unfold scaleX
    split_ifs <;> simp
  have hv : ∃ b, verdict m df = .ok b := by
    have hv : m.validateInput (scaleX m (prepare df).xs) (prepare df).ys (prepare df).dates = verdict m df := by
      rw [prepare_eq]; rfl
    rw [← hv, hdates]
    unfold ForecastModel.validateInput
    have := hm.validates
    generalize m.validators = vs at this
    induction vs with
    | nil => exact ⟨true, rfl⟩
    | cons v vs ih =>
      unfold runValidators
      cases h : v.run (scaleX m (prepare df).xs) (prepare df).ys none with
      | ok b => exact ih fun v hv => this v (by simp [hv])
      | error e =>
        have := this v (by simp) _ _ _ h
        subst this
        exact ⟨false, rfl⟩
  obtain ⟨valid, hv⟩ := hv
  rw [hv]
  simp only [Bind.bind, Except.bind]
  by_cases hvt : valid = true
  swap
  · rw [if_pos (by simpa using hvt)]
    exact ⟨_, rfl, by simp [noFitResult]⟩
  rw [if_neg (by simp [hvt])]
  have hylen : (prepare df).ys.length = (scaleX m (prepare df).xs).length := by rw [l2, haxl]
  obtain ⟨b0, hb0, hbs0⟩ := hm.bounds _ _ hax hylen (by omega)
  rw [simplify_strict env.label m _ b0 (by rw [hdates]; exact hb0) hbs0]
  dsimp only
  obtain ⟨q, hq, hql, hqw⟩ := hm.guess _ _ env.rnd false hax hylen (by omega)
  have hcache : ∃ ch : String → Option (CacheVal K), (if c then m.initCache env.globalCache (scaleX m (prepare df).xs) (prepare df).dates else .ok (fun _ => none)) = .ok ch := by
    cases c with
    | false => exact ⟨_, rfl⟩
    | true =>
      refine evalCache_ok _ _ _ ?_ _
      intro e he
      rw [hdates]
      refine hm.features e.1 e.2 ?_ _
      rcases List.mem_append.1 he with he | he
      · obtain ⟨k, hk, he⟩ := List.mem_filterMap.1 he
        obtain ⟨f, hf, rfl⟩ := Option.map_eq_some_iff.1 he
        exact .inl ⟨hk, hf⟩
      · exact .inr he
  obtain ⟨ch, hch⟩ := hcache
  obtain ⟨r, e1, e2⟩ := hsolve (fun p => getResiduals m { ax := scaleX m (prepare df).xs, adate := (prepare df).dates, actuals := act, cache := ch, hasCache := c && m.usesCache env.globalCache } (prepare df).ys (prepare df).ws (some p)) q b0 (hqw b0 hb0) hbs0 (by
    intro p hp
    obtain ⟨a, g1, g2, g3⟩ := hm.evaluates { ax := scaleX m (prepare df).xs, adate := (prepare df).dates, actuals := act, cache := ch, hasCache := c && m.usesCache env.globalCache } p false hdates (by rw [hp, hql])
    rw [← cached_value env.globalCache reg m hm.registered hm.transparent c _ rfl hch] at g1
    obtain ⟨r, k1, k2⟩ := residuals_ok m _ (prepare df).ys (prepare df).ws (some p) a g1 (by rw [hylen]; exact g2) l3
    exact ⟨r, k1, k2 g3⟩)
  have hopt : optimizeLeastSquares env m (scaleX m (prepare df).xs) (prepare df).ys (prepare df).dates (prepare df).ws act c =
      .ok (r.getD ⟨false, none, []⟩) := by
    unfold optimizeLeastSquares
    simp only [hq, hb0, C36_assertion q b0 (hqw b0 hb0), pyAssert, Bind.bind, Except.bind, if_true]
    cases c with
    | true =>
      rw [if_pos rfl] at hch ⊢
      rw [hch]
      dsimp only
      rw [e1]
      cases r <;> rfl
    | false =>
      rw [if_neg (by simp)] at hch ⊢
      have hch := Except.ok.inj hch
      subst hch
      rw [e1]
      cases r <;> rfl
  unfold attemptFit
  rw [if_neg hm.params, hopt]
  simp only [Bind.bind, Except.bind]
  obtain ⟨a, ha⟩ := hscore (r.getD ⟨false, none, []⟩).cost m.nParams (by
    cases r with
    | none => simp
    | some s => exact (e2 s rfl).2) hlen
  rw [l1, ha]
  refine ⟨_, rfl, ?_⟩
  cases r with
  | none => simp
  | some s => exact fun _ => by dsimp only [Option.getD]; rw [(e2 s rfl).1, hql]

/-- The gap-filled samples of a series without dates: one per x. -/
theorem undated_actuals (srt : SortAlg) (df : Frame K) (hd : df.hasDate = false) (hn : (df.rows.map Row.x).Nodup) (used : Frame K) (hu : (used.rows.map Row.x).Nodup) :
    ∃ act, actualsInterpolated srt df used = .ok act ∧ act.hasDate = false ∧ (act.rows.map Row.x).Nodup := by
  obtain ⟨out, ho, hcase⟩ := C25_numeric df hd hn
  have hod : out.hasDate = false := by
    unfold interpolateDf at ho
    rw [hd] at ho
    simp only [Bool.false_eq_true, if_false] at ho
    split_ifs at ho
    · rw [← Except.ok.inj ho]; exact hd
    · split at ho
      · rw [← Except.ok.inj ho]
      · rw [← Except.ok.inj ho]; exact hd
  have hon : (out.rows.map Row.x).Nodup := by
    rcases hcase with rfl | ⟨⟨a, -, b, -, -, e⟩, -, -⟩
    · exact hn
    · rw [e]
      refine List.Nodup.map ?_ List.nodup_range
      intro i j h
      simpa using h
  refine ⟨{ out with hasWeight := true, rows := (srt.run (fun a b : Row K => decide (a.x ≤ b.x)) out.rows).flatMap (mergeWeight used.rows) },
    by unfold actualsInterpolated; rw [ho]; rfl, hod, ?_⟩
  dsimp only
  have hone : ∀ r : Row K, (mergeWeight used.rows r).map Row.x = [r.x] := by
    intro r
    unfold mergeWeight
    have hle : ((used.rows.filter fun u => decide (u.x = r.x)).map Row.x).Nodup := hu.sublist (List.filter_sublist.map _)
    have hall : ∀ u ∈ used.rows.filter (fun u => decide (u.x = r.x)), u.x = r.x := fun u hu => of_decide_eq_true (List.mem_filter.1 hu).2
    revert hle hall
    generalize used.rows.filter (fun u => decide (u.x = r.x)) = l
    intro hle hall
    match l, hle, hall with
    | [], _, _ => rfl
    | [u], _, _ => rfl
    | u :: v :: l, hle, hall =>
      have h1 := hall u (by simp)
      have h2 := hall v (by simp)
      simp [h1, h2] at hle
  have hmap : ∀ l : List (Row K), (l.flatMap (mergeWeight used.rows)).map Row.x = l.map Row.x := by
    intro l
    induction l with
    | nil => rfl
    | cons r l ih => rw [List.flatMap_cons, List.map_append, ih, hone]; rfl
  rw [hmap]
  exact ((srt.perm _ _).map Row.x).nodup_iff.2 hon

/-- The naive model can be evaluated at every increasing list of points. -/
theorem undated_naive [IsStrictOrderedRing K] (srt : SortAlg) (act : Frame K) (hd : act.hasDate = false) (hn : (act.rows.map Row.x).Nodup)
    (xs : List Int) (hx : xs.Pairwise (· < ·)) (p : Params K) :
    ∃ a, (modelNaive srt).fModel { ax := scaleX (modelNaive (K := K) srt) xs, adate := none, actuals := some act } p false = .ok a ∧ Shaped xs.length a := by
  have hsx : scaleX (modelNaive (K := K) srt) xs = xs.map fun x : Int => (x : K) := by
    unfold scaleX
    rw [if_neg (by simp [modelNaive, mkModel])]
  have hax : (xs.map fun x : Int => (x : K)).Pairwise (· < ·) := by
    rw [List.pairwise_map]
    exact hx.imp fun h => Int.cast_lt.2 h
  rw [hsx]
  obtain ⟨out, ho, hl, -⟩ := C37_naive srt { ax := xs.map fun x : Int => (x : K), adate := none, actuals := some act } act p false rfl rfl
    ⟨(by intro ds hds; cases hds), (by intro h; rw [hd] at h; cases h)⟩ hax hn
  refine ⟨_, ho, ?_⟩
  change out.length = _
  rw [hl]
  simp

/-- The points of the forecast of a series without dates are increasing. -/
theorem numeric_points (start stop : Int) (y : ℚ) (x0 : Int) : ((sxExtrapolateNum start stop y x0).map Prod.snd).Pairwise (· < ·) := by
  unfold sxExtrapolateNum
  dsimp only
  rw [List.map_snd_zip (by rw [List.length_map, arange_nat]; simp), List.pairwise_map]
  exact (arange_sorted _ _).imp fun h => by omega

variable [IsStrictOrderedRing K] [FloorRing K]

/-- A workable candidate can be fitted in a run on a series without dates. -/
theorem undated_candidate (w : World K) (args : RunArgs K) (source : String) (df : Frame K) (hd : df.hasDate = false) (hx : df.rows.Pairwise fun a b => a.x < b.x)
    (df2 : Frame K) (hout : applyOutliers args.findOutliers (filterStart args.start df) = .ok df2) (wm : WeightsMeta K) (mode : AddMult) (act : Frame K)
    (ha : act.hasDate = false) (hn : (act.rows.map Row.x).Nodup) (global : String → Option (CacheFn K)) (reg : Registry K)
    (m : ForecastModel K) (hm : WorkableUndated w.srt global reg m) (env : Env K) (hglobal : env.globalCache = global) (hsolve : SolverReturns env)
    (hscore : ScoreReturns env (usableRows (usedRows (defaultWeights df2).1)).length) (hne : usableRows (usedRows (defaultWeights df2).1) ≠ []) :
    ∃ f rows, fitModel env m (usedRows (defaultWeights df2).1) (some act) args.useCache = .ok f ∧
      forecastRows (mkSetup w args source df (defaultWeights df2).1 wm mode act) m f = .ok rows := by
  obtain ⟨u1, u2, u3, u4, u5⟩ := used_rows args.findOutliers args.start df df2 hout
  have hux : ((usedRows (defaultWeights df2).1).rows.map Row.x).Pairwise (· < ·) := by
    have h1 : ((usedRows (defaultWeights df2).1).rows.map Row.x).Sublist ((kept args.start df).map Row.x) := by
      rw [← u4]
      exact List.filter_sublist.map _
    refine (List.pairwise_map.2 hx).sublist (h1.trans ?_)
    exact List.filter_sublist.map _
  have hsub : (usableRows (usedRows (defaultWeights df2).1)).Sublist (usedRows (defaultWeights df2).1).rows := List.filter_sublist
  have hxx : ((usableRows (usedRows (defaultWeights df2).1)).map Row.x).Pairwise (· < ·) := hux.sublist (hsub.map _)
  have hhd : (usedRows (defaultWeights df2).1).hasDate = false := u1.trans hd
  have hdates : (prepare (usedRows (defaultWeights df2).1)).dates = none := by
    rw [prepare_eq]
    simp [hhd]
  have hfit : ∃ f, fitModel env m (usedRows (defaultWeights df2).1) (some act) args.useCache = .ok f ∧
      (DependableUndated global reg m → f.isFit = true → f.params.length = m.nParams) := by
    rcases hm with hm | hm | hm
    · obtain ⟨r, h1, h2⟩ := fit_noparams env "null" (fun _ _ isMult => .ok (.scalar (some (if isMult then 1 else 0)))) (usedRows (defaultWeights df2).1) (some act) args.useCache hscore hne ⟨.scalar (some 0), rfl, trivial⟩
      exact ⟨r, hm ▸ h1, fun _ h3 => by rw [h2 h3, hm]; rfl⟩
    · have hev := undated_naive w.srt act ha hn _ hxx none
      rw [List.length_map] at hev
      obtain ⟨r, h1, h2⟩ := fit_noparams env "naive" (fModelNaive w.srt) (usedRows (defaultWeights df2).1) (some act) args.useCache hscore hne (by
        rw [hdates, prepare_eq]
        exact hev)
      exact ⟨r, hm ▸ h1, fun _ h3 => by rw [h2 h3, hm]; rfl⟩
    · obtain ⟨r, h1, h2⟩ := fit_undated env reg m (hglobal ▸ hm) _ (some act) args.useCache hsolve hscore hhd hxx hne
      exact ⟨r, h1, fun _ => h2⟩
  obtain ⟨f, hf, hpl⟩ := hfit
  refine ⟨f, ?_⟩
  unfold forecastRows
  by_cases hisf : f.isFit = true
  swap
  · rw [if_neg hisf]
    exact ⟨[], hf, rfl⟩
  rw [if_pos hisf]
  have hunil : (usedRows (defaultWeights df2).1).rows ≠ [] := by
    intro h0
    rw [h0] at hsub
    exact hne (List.eq_nil_of_sublist_nil hsub)
  simp only [mkSetup]
  cases h2 : listMin ((usedRows (defaultWeights df2).1).rows.map Row.x) with
  | none =>
    exfalso
    have := (listMin_none _).1 h2
    rw [List.map_eq_nil_iff] at this
    exact hunil this
  | some x0 =>
    have h1 : listMin (axisOf (usedRows (defaultWeights df2).1)) = some x0 := by
      unfold axisOf
      rw [hhd]
      exact h2
    rw [h1]
    dsimp only
    unfold extrapolate
    rw [hhd]
    simp only [Bool.false_eq_true, if_false, bind, Except.bind]
    generalize hsx : sxExtrapolateNum x0 ((listMax (axisOf (defaultWeights df2).1)).getD 0) args.years x0 = sx
    have hinc : (sx.map Prod.snd).Pairwise (· < ·) := hsx ▸ numeric_points _ _ _ _
    have hval : ∃ a, m.fModel { ax := scaleX m (sx.map Prod.snd), adate := none, actuals := some act } (some f.params) false = .ok a ∧ Shaped (sx.map Prod.fst).length a := by
      rcases hm with hm | hm | hm
      · subst hm
        exact ⟨.scalar (some 0), rfl, trivial⟩
      · subst hm
        have := undated_naive w.srt act ha hn _ hinc (some f.params)
        rw [List.length_map] at this ⊢
        exact this
      · have hl : (scaleX m (sx.map Prod.snd)).length = (sx.map Prod.fst).length := by
          unfold scaleX
          split_ifs <;> simp
        obtain ⟨a, g1, g2, -⟩ := hm.evaluates { ax := scaleX m (sx.map Prod.snd), adate := none, actuals := some act } f.params false rfl (hpl hm hisf)
        exact ⟨a, g1, hl ▸ g2⟩
    obtain ⟨a, ha, hs⟩ := hval
    rw [ha]
    dsimp only
    obtain ⟨l, hl, -⟩ := series_ok _ a hs
    rw [hl]
    exact ⟨_, hf, rfl⟩

/-- Prediction intervals of a result without dates. -/
theorem getPi_numeric (draw : Nat → Nat → Nat → Nat) (rows : List (DRow K)) (source : String) (nSims : Nat) (nCum : Option Int) (q1 q2 : K) (widening : Freq)
    (hq : 0 < q1 ∧ q1 < 100 ∧ 0 < q2 ∧ q2 < 100) (hsource : ∀ r ∈ rows, r.source = source) (h1 : ∃ a ∈ rows, a.isActuals = true) :
    ∃ out, getPi draw (toFTable false rows) nSims nCum q1 q2 widening = .ok out := by
  have hk : ¬((toFTable false rows).hasSource = true ∧ 1 < (groupKeys (toFTable false rows).rows).length) := by
    rintro ⟨-, h⟩
    unfold groupKeys at h
    rw [(sortBy_perm _ _).length_eq] at h
    have hn := dedupBy_keys_nodup (fun s : String => s) ((toFTable false rows).rows.filterMap FRow.source)
    have hall : ∀ s ∈ dedupBy (fun s : String => s) ((toFTable false rows).rows.filterMap FRow.source), s = source := by
      intro s hs
      rw [mem_dedup] at hs
      obtain ⟨r, hr, e⟩ := List.mem_filterMap.1 hs
      obtain ⟨d, hd, rfl⟩ := List.mem_map.1 hr
      cases e
      exact hsource d hd
    match hl : dedupBy (fun s : String => s) ((toFTable false rows).rows.filterMap FRow.source), h with
    | a :: b :: l, _ =>
      rw [hl] at hall hn
      have ha := hall a (by simp)
      have hb := hall b (by simp)
      subst ha
      rw [hb] at hn
      simp at hn
  unfold getPi
  dsimp only
  rw [if_neg hk]
  obtain ⟨a, ha, ia⟩ := h1
  have hsel : (⟨a.date, some a.source, a.model, a.isActuals, a.isBest, a.y, a.weight⟩ : FRow K) ∈ selectRows (toFTable false rows) := by
    unfold selectRows
    rw [if_pos (show (toFTable false rows).hasBest = true from rfl)]
    exact List.mem_filter.2 ⟨List.mem_map.2 ⟨a, ha, rfl⟩, by simp [ia]⟩
  exact C46_total (draw 0) _ nSims _ q1 q2 hq rfl (List.ne_nil_of_mem hsel) (.inl rfl)

/-- **C82.** A run on a series without dates ends with a result: one sample that counts is enough. -/
theorem C82_numeric_partial (w : World K) (args : RunArgs K) (source : String) (df : Frame K) (hd : df.hasDate = false) (hx : df.rows.Pairwise fun a b => a.x < b.x)
    (hcounts : ∃ (i : Nat) (r : Row K), df.rows[i]? = some r ∧ r.y ≠ none ∧ (∃ v, givenWeight df r = some v ∧ 0 < v) ∧
      (args.findOutliers = true → ∀ step spike, getModelOutliers df 3 = .ok (step, spike) → spike[i]? = some false))
    (global : String → Option (CacheFn K)) (reg : Registry K) (n : Nat) (hn : df.rows.length ≤ n) (hc : UndatedContracts w args source n global reg) :
    ∃ res, runSingle w args source df = .ok res := by
  have hkept : kept args.start df = df.rows := by
    unfold kept
    rw [List.filter_eq_self]
    intro r _
    cases args.start with
    | none => rfl
    | some d => simp [hd]
  have hself : ({ df with rows := kept args.start df } : Frame K) = df := by rw [hkept]
  have hout : ∃ df2, applyOutliers args.findOutliers (filterStart args.start df) = .ok df2 := by
    unfold applyOutliers
    cases args.findOutliers with
    | false => exact ⟨_, rfl⟩
    | true =>
      rw [filterStart_rows, if_pos rfl, hself]
      obtain ⟨m, hm⟩ := (C39_defined df 3).2 (by
        have : ∀ r ∈ df.rows, axis df r = r.x := by
          intro r hr
          unfold axis
          rw [hd]
          rfl
        rw [List.map_congr_left this]
        exact (List.pairwise_map.2 hx).imp fun h => ne_of_lt h)
      simp only [hm, bind, Except.bind]
      exact ⟨_, rfl⟩
  obtain ⟨df2, hout⟩ := hout
  obtain ⟨u1, u2, u3, u4, u5⟩ := used_rows args.findOutliers args.start df df2 hout
  rw [hkept] at u3 u4
  have hdd : (defaultWeights df2).1.hasDate = false := u1.trans hd
  have hwx : ((defaultWeights df2).1.rows.map Row.x).Pairwise (· < ·) := u4 ▸ List.pairwise_map.2 hx
  have hux : ((usedRows (defaultWeights df2).1).rows.map Row.x).Nodup := (hwx.sublist (List.filter_sublist.map _)).imp fun h => ne_of_lt h
  obtain ⟨act, hact1, hact2, hact3⟩ := undated_actuals w.srt df hd ((List.pairwise_map.2 hx).imp fun h => ne_of_lt h) (usedRows (defaultWeights df2).1) hux
  have hne : usableRows (usedRows (defaultWeights df2).1) ≠ [] := by
    obtain ⟨i, r, hi, hy, ⟨v, hv, hv0⟩, hspike⟩ := hcounts
    obtain ⟨spike, hlen, hs1, hs2, e⟩ := weights_stage args.findOutliers _ df2 hout
    rw [filterStart_rows, hself] at e hlen hs1 hs2
    have hb : spike[i]? = some false := by
      cases hf : args.findOutliers with
      | true =>
        obtain ⟨step, hs⟩ := hs1 hf
        exact hspike hf step spike hs
      | false =>
        rw [hs2 hf, List.getElem?_replicate]
        have := (List.getElem?_eq_some_iff.1 hi).1
        rw [if_pos this]
    have hg : (weighted df spike).rows[i]? = some { r with weight := some v } := by
      unfold weighted
      dsimp only
      rw [List.getElem?_zipWith, hi, hb]
      simp [hv]
    rw [← e] at hg
    have hin : ({ r with weight := some v } : Row K) ∈ (usedRows (defaultWeights df2).1).rows :=
      List.mem_filter.2 ⟨List.mem_of_getElem? hg, by rw [decide_eq_true_iff]; exact ⟨v, rfl, hv0⟩⟩
    refine List.ne_nil_of_mem (List.mem_filter.2 ⟨hin, ?_⟩)
    rw [decide_eq_true_iff]
    exact ⟨Option.ne_none_iff_exists'.1 hy, fun _ => ⟨v, rfl, hv0⟩⟩
  have hl0 : (defaultWeights df2).1.rows.length = df.rows.length := by
    have h3 := congrArg List.length u4
    rwa [List.length_map, List.length_map] at h3
  have hlen : (usableRows (usedRows (defaultWeights df2).1)).length ≤ df.rows.length := by
    have h1 : (usableRows (usedRows (defaultWeights df2).1)).length ≤ (usedRows (defaultWeights df2).1).rows.length := List.length_filter_le _ _
    have h2 : (usedRows (defaultWeights df2).1).rows.length ≤ (defaultWeights df2).1.rows.length := List.length_filter_le _ _
    omega
  have hrows : (defaultWeights df2).1.rows ≠ [] := by
    intro h0
    have h1 : (usedRows (defaultWeights df2).1).rows = [] := by unfold usedRows; rw [h0]; rfl
    apply hne
    unfold usableRows
    rw [h1]
    rfl
  have hrange : ∃ range, runRange (defaultWeights df2).1 = .ok range := by
    unfold runRange axisOf
    rw [hdd]
    simp only [Bool.false_eq_true, if_false]
    have n1 : listMin ((defaultWeights df2).1.rows.map Row.x) ≠ none := by
      intro h0
      have := (listMin_none _).1 h0
      rw [List.map_eq_nil_iff] at this
      exact hrows this
    have n2 : listMax ((defaultWeights df2).1.rows.map Row.x) ≠ none := by
      intro h0
      have := (listMax_none _).1 h0
      rw [List.map_eq_nil_iff] at this
      exact hrows this
    obtain ⟨a, ha⟩ := Option.ne_none_iff_exists'.1 n1
    obtain ⟨b, hb⟩ := Option.ne_none_iff_exists'.1 n2
    rw [ha, hb]
    exact ⟨_, rfl⟩
  obtain ⟨range, hrange⟩ := hrange
  have hfreq : runFreq df = none := by unfold runFreq; rw [hd]; rfl
  have hcd : ∃ cand, candidates w.ch args.models (defaultWeights df2).1 (runFreq df) = .ok cand := by
    have hb : ∃ mode, resolveMode w.ch args.models (defaultWeights df2).1 = .ok mode := by
      unfold resolveMode
      cases args.models.mode with
      | auto =>
        have : isMultiplicative w.ch.corr (defaultWeights df2).1 = .ok false := by
          unfold isMultiplicative
          rw [hdd]
          split_ifs <;> first | rfl | simp_all
        rw [this]
        exact ⟨_, rfl⟩
      | _ => exact ⟨_, rfl⟩
    obtain ⟨mode, hb⟩ := hb
    unfold candidates
    rw [hb]
    exact ⟨_, rfl⟩
  obtain ⟨cand, hcd⟩ := hcd
  obtain ⟨hcne, hcw⟩ := hc.models _ hdd cand (hfreq ▸ hcd)
  have hall := fun m hm i => undated_candidate w args source df hd hx df2 hout (defaultWeights df2).2 cand.1 act hact2 hact3 global reg m (hcw m hm) (w.env source i)
    (hc.cacheVars i) (hc.solver i) (hc.score i _ (hlen.trans hn)) hne
  obtain ⟨fits, hfits⟩ := fitLoop_ok (w.env source) (mkSetup w args source df (defaultWeights df2).1 (defaultWeights df2).2 cand.1 act) cand.2
    (fun m hm i => hall m hm i) 0
  obtain ⟨s1, s2, s3⟩ := fitLoop_spec _ _ _ _ _ hfits
  have hfne : fits.1 ≠ [] := by
    intro h0
    rw [h0, List.length_nil] at s1
    exact hcne (List.eq_nil_of_length_eq_zero s1.symm)
  have hruns : runFits w args source df = .ok ((actualsClean (defaultWeights df2).1 source ⟨(defaultWeights df2).2, runFreq df, range⟩ ++ fits.2).map (flagData (bestKey w.srt fits.1)),
      fits.1.map (flagMeta (bestKey w.srt fits.1))) := by
    unfold runFits
    simp only [bind, Except.bind]
    rw [hout]
    dsimp only
    rw [hrange]
    dsimp only
    rw [hcd]
    dsimp only
    rw [hact1]
    dsimp only
    rw [hfits]
    dsimp only
    rw [if_neg hfne]
  unfold runSingle
  simp only [bind, Except.bind]
  rw [hruns]
  dsimp only
  have hsel : ∀ d : List (DRow K) × List (MRow K), (∀ r ∈ (selectFits args.includeAll d).1, r ∈ d.1) ∧ ∀ r ∈ d.1, r.isActuals = true → r ∈ (selectFits args.includeAll d).1 := by
    intro d
    unfold selectFits
    split_ifs
    · exact ⟨fun r h => h, fun r h _ => h⟩
    · exact ⟨fun r h => (List.mem_filter.1 h).1, fun r h h2 => List.mem_filter.2 ⟨h, by simp [h2]⟩⟩
  have hdata : ∀ r ∈ (actualsClean (defaultWeights df2).1 source ⟨(defaultWeights df2).2, runFreq df, range⟩ ++ fits.2).map (flagData (bestKey w.srt fits.1)),
      r.source = source := by
    intro r hr
    obtain ⟨q, hq, rfl⟩ := List.mem_map.1 hr
    rcases List.mem_append.1 hq with hq | hq
    · unfold actualsClean at hq
      obtain ⟨a, ha, rfl⟩ := List.mem_map.1 hq
      rfl
    · obtain ⟨k, m, f, rows, e1, e2, e3, e4⟩ := s3 q hq
      exact (forecastRows_mem _ _ _ _ e3 q e4).2.2.1
  obtain ⟨a, ha⟩ := List.exists_mem_of_ne_nil _ hrows
  obtain ⟨out, hpi⟩ := getPi_numeric (w.draw source) (selectFits args.includeAll ((actualsClean (defaultWeights df2).1 source ⟨(defaultWeights df2).2, runFreq df, range⟩ ++ fits.2).map (flagData (bestKey w.srt fits.1)),
      fits.1.map (flagMeta (bestKey w.srt fits.1)))).1 source 100 args.nCum args.q1 args.q2 args.widening hc.percentiles
    (fun r hr => hdata r ((hsel _).1 r hr))
    ⟨_, (hsel _).2 _ (List.mem_map.2 ⟨_, List.mem_append.2 (.inl (List.mem_map.2 ⟨a, ha, rfl⟩)), rfl⟩) rfl, rfl⟩
  rw [hd, hpi]
  exact ⟨_, rfl⟩

/-! ### Tables -/

/-- A table of one series without dates, as the series that the run works on. -/
theorem numeric_table (w : World K) (args : RunArgs K) (id : String) (t : STable K) (ht : NumericTable t) (hne : t.rows ≠ []) :
    ∃ df : Frame K, df.hasDate = false ∧ (df.rows.Pairwise fun a b => a.x < b.x) ∧ df.hasWeight = t.hasWeight ∧ runForecast w args id t = (runSingle w args id df).map some ∧
      (df.rows.map fun r => (r.y, r.weight)).Perm (t.rows.map fun r => (r.y, r.weight)) := by
  have hx : ∃ rows, withX t t.rows = .ok rows ∧ (rows.map SRow.x).Nodup ∧ rows.map (fun r => (r.y, r.weight)) = t.rows.map fun r => (r.y, r.weight) := by
    unfold withX
    by_cases h : t.hasX = true
    · rw [if_pos h]
      exact ⟨_, rfl, ht.distinct h, rfl⟩
    · rw [if_neg h, ht.undated]
      refine ⟨_, rfl, ?_, ?_⟩
      · have e : (assignX t.rows ((List.range t.rows.length).map fun i : Nat => (i : Int))).map SRow.x = (List.range t.rows.length).map fun i : Nat => (i : Int) := by
          apply List.ext_getElem
          · simp [assignX]
          · intro i h1 h2
            simp [assignX]
        rw [e]
        exact List.Nodup.map (fun i j h => by simpa using h) List.nodup_range
      · apply List.ext_getElem
        · simp [assignX]
        · intro i h1 h2
          simp [assignX]
  obtain ⟨rows, hr, hnd, hyw⟩ := hx
  have hsort := w.srt.sorted (fun a b : SRow K => decide (a.x ≤ b.x))
  have hrun : normalizeDf w.srt t = .ok (some { t with hasX := true, rows := w.srt.run (fun a b : SRow K => decide (a.x ≤ b.x)) rows }) := by
    unfold normalizeDf
    rw [if_neg hne, if_neg (by rw [ht.oneSource]; simp), hr]
    rfl
  have hperm := w.srt.perm (fun a b : SRow K => decide (a.x ≤ b.x)) rows
  refine ⟨frameOf { t with hasX := true, rows := w.srt.run (fun a b : SRow K => decide (a.x ≤ b.x)) rows } (w.srt.run (fun a b : SRow K => decide (a.x ≤ b.x)) rows), ht.undated, ?_, rfl, ?_, ?_⟩
  · have hs := hsort rows (by simp only [decide_eq_true_eq]; intro a b c; exact le_trans) (by simp only [Bool.or_eq_true, decide_eq_true_eq]; intro a b; exact le_total _ _)
    have hn : ((w.srt.run (fun a b : SRow K => decide (a.x ≤ b.x)) rows).map SRow.x).Nodup := (hperm.map SRow.x).nodup_iff.2 hnd
    unfold frameOf
    dsimp only
    rw [List.pairwise_map]
    exact (hs.and (List.pairwise_map.1 hn)).imp fun h => lt_of_le_of_ne (of_decide_eq_true h.1) h.2
  · unfold runForecast
    rw [hrun]
    simp only [bind, Except.bind]
    rw [if_neg (by rw [ht.oneSource]; simp)]
    cases runSingle w args id (frameOf { t with hasX := true, rows := w.srt.run (fun a b : SRow K => decide (a.x ≤ b.x)) rows } (w.srt.run (fun a b : SRow K => decide (a.x ≤ b.x)) rows)) <;> rfl
  · rw [← hyw]
    unfold frameOf
    dsimp only
    rw [List.map_map]
    exact hperm.map _

/-- **C82** for a table of one series without dates, with or without a column x. -/
theorem C82_numeric_table_partial (w : World K) (args : RunArgs K) (id : String) (t : STable K) (ht : NumericTable t) (hout : args.findOutliers = false)
    (hcounts : ∃ r ∈ t.rows, r.y ≠ none ∧ (t.hasWeight = true → ∃ v, r.weight = some v ∧ 0 < v)) (global : String → Option (CacheFn K)) (reg : Registry K)
    (hc : UndatedContracts w args id t.rows.length global reg) : ∃ res, runForecast w args id t = .ok (some res) := by
  obtain ⟨r, hr, hy, hw⟩ := hcounts
  obtain ⟨df, h1, h2, h3, h4, h5⟩ := numeric_table w args id t ht (List.ne_nil_of_mem hr)
  have hm : (r.y, r.weight) ∈ df.rows.map fun r => (r.y, r.weight) := h5.mem_iff.2 (List.mem_map.2 ⟨r, hr, rfl⟩)
  obtain ⟨q, hq, e⟩ := List.mem_map.1 hm
  obtain ⟨ey, ew⟩ := Prod.mk.inj e
  obtain ⟨i, hi⟩ := List.getElem?_of_mem hq
  have hl : df.rows.length ≤ t.rows.length := by
    have := h5.length_eq
    rw [List.length_map, List.length_map] at this
    exact this.le
  obtain ⟨res, hres⟩ := C82_numeric_partial w args id df h1 h2 ⟨i, q, hi, by rw [ey]; exact hy, by
    unfold givenWeight
    by_cases h : df.hasWeight = true
    · rw [if_pos h, ew]
      exact hw (h3 ▸ h)
    · rw [if_neg h]
      exact ⟨1, rfl, zero_lt_one⟩, by rw [hout]; simp⟩ global reg _ hl hc
  exact ⟨res, by rw [h4, hres]; rfl⟩

/-- Default models on series without dates keep the contracts. -/
theorem undated_contracts (w : World ℝ) (testEnv : Env ℝ) (hw : DefaultChoices w testEnv) (args : RunArgs ℝ)
    (hq : 0 < args.q1 ∧ args.q1 < 100 ∧ 0 < args.q2 ∧ args.q2 < 100)
    (hargs : args.models.trend = none ∧ args.models.season = none ∧ args.models.naive = none) (source : String) (n : Nat) (hlen : n ≤ 4047) :
    UndatedContracts w args source n globalCache globalCache := by
  obtain ⟨a1, a2, a3⟩ := hargs
  refine ⟨hq, ?_, hw.global source, hw.solver.2 source, fun i k hk => aic_returns _ (hw.score.2 source i) k (hk.trans hlen)⟩
  intro df hd cand h
  have hcomp : ∀ mult, composedModels w.ch args.models df mult = [modelLinear] := by
    intro mult
    have h1 : useRamp df = false := by unfold useRamp; rw [hd]; rfl
    have h2 : useCalendar df = false := by unfold useCalendar; rw [hd]; rfl
    unfold composedModels
    rw [a1, a2, h1, h2, hd]
    cases args.models.calendar <;> rfl
  unfold candidates at h
  rw [a3, hw.naive] at h
  cases hm : resolveMode w.ch args.models df with
  | error e => rw [hm] at h; cases h
  | ok mode =>
    rw [hm] at h
    simp only [bind, Except.bind, hcomp] at h
    have h := Except.ok.inj h
    subst h
    dsimp only
    have hin : ∀ l : List (ForecastModel ℝ), (∀ m ∈ l, m = modelLinear) →
        sortBy nameLe ([modelNaive w.srt] ++ l) ≠ [] ∧ ∀ m ∈ sortBy nameLe ([modelNaive w.srt] ++ l), WorkableUndated w.srt globalCache globalCache m := by
      intro l hl
      refine ⟨List.ne_nil_of_mem ((sortBy_perm _ _).mem_iff.2 (by simp : modelNaive w.srt ∈ _)), ?_⟩
      intro m hm
      have hm := (sortBy_perm _ _).mem_iff.1 hm
      rcases List.mem_append.1 hm with hm | hm
      · exact .inr (.inl (List.mem_singleton.1 hm))
      · rw [hl m hm]
        exact .inr (.inr undated_linear)
    have hset : ∀ m ∈ w.ch.setOrder ([modelLinear] ++ [modelLinear]), m = (modelLinear : ForecastModel ℝ) := by
      intro m hm
      have := mem_dedupBy _ _ m ((hw.sets ([modelLinear] ++ [modelLinear])).mem_iff.1 hm)
      simpa using this
    cases mode
    · exact hin _ (by simp)
    · exact hin _ (by simp)
    · exact hin _ hset
    · exact hin _ hset

/-- **C82** for the models that are used by default on series without dates, with the scores of the code, on up to 4047 samples. -/
theorem C82_numeric_default_partial (w : World ℝ) (testEnv : Env ℝ) (hw : DefaultChoices w testEnv) (args : RunArgs ℝ)
    (hq : 0 < args.q1 ∧ args.q1 < 100 ∧ 0 < args.q2 ∧ args.q2 < 100)
    (hargs : args.models.trend = none ∧ args.models.season = none ∧ args.models.naive = none)
    (hout : args.findOutliers = false) (id : String) (t : STable ℝ) (ht : NumericTable t) (hlen : t.rows.length ≤ 4047)
    (hcounts : ∃ r ∈ t.rows, r.y ≠ none ∧ (t.hasWeight = true → ∃ v, r.weight = some v ∧ 0 < v)) : ∃ res, runForecast w args id t = .ok (some res) :=
  C82_numeric_table_partial w args id t ht hout hcounts globalCache globalCache (undated_contracts w testEnv hw args hq hargs id _ hlen)

/-- A single sample without date and x, with default arguments: all hypotheses of `C82_numeric_default_partial` hold. -/
example (args : RunArgs ℝ) (hargs : args.models = ⟨none, none, .auto, none, none, none, none⟩) (ho : args.findOutliers = false) (hq : args.q1 = 5 ∧ args.q2 = 20) :
    ∃ res, runForecast defaultWorld args "s" ⟨false, false, false, false, [⟨0, none, 0, some 3, none⟩]⟩ = .ok (some res) :=
  C82_numeric_default_partial defaultWorld _ defaultWorld_choices args (by rw [hq.1, hq.2]; norm_num) (by rw [hargs]; simp) ho "s" _ ⟨rfl, rfl, by simp⟩ (by simp)
    ⟨_, List.mem_singleton.2 rfl, by simp, by simp⟩

/-- A series with gaps, latest first, one sample excluded by its weight. -/
example (args : RunArgs ℝ) (hargs : args.models = ⟨none, none, .auto, none, none, none, none⟩) (ho : args.findOutliers = false) (hq : args.q1 = 5 ∧ args.q2 = 20)
    (n : Nat) (h1 : 10 ≤ n) (h2 : n ≤ 4047) :
    ∃ res, runForecast defaultWorld args "s" ⟨false, false, true, true, (List.range n).map fun i : Nat =>
      ⟨0, none, ((n : Int) - (i : Int)) * (n - i), some (i : ℝ), some (if i = 3 then 0 else 1)⟩⟩ = .ok (some res) := by
  refine C82_numeric_default_partial defaultWorld _ defaultWorld_choices args (by rw [hq.1, hq.2]; norm_num) (by rw [hargs]; simp) ho "s" _ ⟨rfl, rfl, ?_⟩ ?_
    ⟨_, List.mem_map.2 ⟨1, List.mem_range.2 (by omega), rfl⟩, by simp, fun _ => ⟨1, by simp, one_pos⟩⟩
  · intro _
    rw [List.map_map, List.Nodup, List.pairwise_map]
    refine (List.Pairwise.and_mem.1 (List.pairwise_lt_range (n := n))).imp ?_
    rintro a b ⟨ha, hb, hab⟩
    simp only [Function.comp, List.mem_range] at ha hb ⊢
    have : (b : Int) < n := by exact_mod_cast hb
    have : (a : Int) < b := by exact_mod_cast hab
    nlinarith
  · simpa using h2
