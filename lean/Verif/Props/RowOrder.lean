import Verif.Spec.RowOrder
import Verif.Props.Similar
import Verif.Props.AppRun

/-
C80: the order of the rows of the input table does not change the forecast.
-/
namespace Anticipy
open Spec
variable {K : Type} [Field K] [LinearOrder K]

/-! ### Coordinates counted from another origin -/

theorem usableRows_renumbered (k : Int) (df : Frame K) : usableRows (renumbered k df) = (usableRows df).map fun r => { r with x := r.x + k } := by
  unfold usableRows renumbered
  dsimp only
  rw [List.filter_map]
  rfl

theorem misfit_renumbered (k : Int) (df : Frame K) (a a' : Int → Timestamp → K) (h : ∀ x t, a' (x + k) t = a x t) :
    misfit (renumbered k df) a' = misfit df a := by
  unfold misfit
  rw [usableRows_renumbered, List.map_map]
  congr 1
  apply List.map_congr_left
  intro r hr
  simp only [Function.comp_def]
  have e : sharing ((usableRows df).map fun r => { r with x := r.x + k }) { r with x := r.x + k } = sharing (usableRows df) r := by
    unfold sharing
    rw [List.countP_map]
    simp only [Function.comp_def, add_left_inj]
  rw [e, h]
  rfl

theorem applyOutliers_renumbered [FloorRing K] (k : Int) (find : Bool) (df : Frame K) (hd : df.hasDate = true) :
    applyOutliers find (renumbered k df) = (applyOutliers find df).map (renumbered k) := by
  unfold applyOutliers
  cases find with
  | false => rfl
  | true =>
    simp only [if_true, bind, Except.bind]
    have : getModelOutliers (renumbered k df) 3 = getModelOutliers df 3 := by
      have h1 : outlierKeys (renumbered k df) = outlierKeys df := by
        simp only [outlierKeys, renumbered, hd, if_true, List.map_map, Function.comp_def]
      have h2 : (renumbered k df).rows.map Row.y = df.rows.map Row.y := by simp [renumbered, Function.comp_def]
      have h3 : (renumbered k df).hasDate = df.hasDate := rfl
      unfold getModelOutliers
      rw [h1, h2, h3]
    rw [this]
    cases getModelOutliers df 3 with
    | error e => rfl
    | ok masks =>
      simp only [Except.map, renumbered, List.zipWith_map_left, List.map_zipWith]
      rfl

theorem defaultWeights_renumbered (k : Int) (df : Frame K) : (defaultWeights (renumbered k df)).1 = renumbered k (defaultWeights df).1 := by
  obtain ⟨hd, hw, rows⟩ := df
  cases hw with
  | false =>
    simp only [defaultWeights, renumbered, Bool.false_eq_true, if_false, List.map_map]
    rfl
  | true => rfl

theorem usedRows_renumbered (k : Int) (df : Frame K) : usedRows (renumbered k df) = renumbered k (usedRows df) := by
  simp only [usedRows, renumbered, List.filter_map]
  rfl

/-- Two series that agree from the starting date on, up to the origin of x. -/
theorem renumbered_run [FloorRing K] [IsStrictOrderedRing K] (w w' : World K) (args args' : RunArgs K) (source source' : String) (df df' : Frame K)
    (k : Int) (hkept : filterStart args.start df' = renumbered k (filterStart args.start df))
    (res res' : RunResult K) (h : runSingle w args source df = .ok res) (h' : runSingle w' args' source' df' = .ok res')
    (hstart : args'.start = args.start) (hout : args'.findOutliers = args.findOutliers)
    (hmin : ∀ i, FindsMinimum (w.env source i)) (hmin' : ∀ i, FindsMinimum (w'.env source' i))
    (m : ForecastModel K) (hu : Unpinned m) (reg : Registry K) (val : List K → Int → Timestamp → K) {P : Frame K → Prop} (hm : LinearInParameters m reg val P)
    (horig : NoOrigin m.nParams val)
    (hreg : ∀ i, Registered (w.env source i).globalCache reg m) (hreg' : ∀ i, Registered (w'.env source' i).globalCache reg m)
    (hcand : ∀ df'' fr cand, candidates w.ch args.models df'' fr = .ok cand → ∀ m' ∈ cand.2, m'.name = m.name → m' = m)
    (hcand' : ∀ df'' fr cand, candidates w'.ch args'.models df'' fr = .ok cand → ∀ m' ∈ cand.2, m'.name = m.name → m' = m)
    (hdate : df.hasDate = true) (hdate' : df'.hasDate = true) (t0 t0' : Timestamp) (hdays : CountsDays df t0) (hdays' : CountsDays df' t0')
    (hnd : (df.rows.map Row.x).Nodup) (r r' : DRow K) (hr : r ∈ res.data) (hr' : r' ∈ res'.data) (hact : r.isActuals = false) (hact' : r'.isActuals = false)
    (hname : r.model = m.name) (hname' : r'.model = m.name) (hsame : r'.date = r.date)
    (hP : ∀ df2, applyOutliers args'.findOutliers (filterStart args'.start df') = .ok df2 → P (usedRows (defaultWeights df2).1) := by intros; trivial) : r'.y = r.y := by
  have hlen : ∀ (env : Env K), FindsMinimum env → ∀ (used : Frame K) act cc f, fitModel env m used act cc = .ok f → f.isFit = true →
      f.params.length = m.nParams := by
    intro env he used act cc f e hf
    obtain ⟨-, ctx, guess, b, r, -, -, -, h4, h5, h6, h7, -⟩ := fitModel_solver _ m _ _ _ f hu hm.params e hf
    rw [h7]
    exact (hm.free _ _ _ h4).1 (he _ _ _ _ h5 h6).1
  have hval := fun (ctx : Ctx K) xs ds p h1 h2 h3 h4 (h5 : ∀ k, ctx.cache k = none) h6 =>
    hm.value ctx xs ds p h1 h2 h3 h4 (by intro k v hk; rw [h5] at hk; cases hk) h6
  obtain ⟨df2, i, f, act, hOut, e2, hfit, hy⟩ := row_value w args source df res h m (fun df'' => hcand df'' _) val hval
    (fun i used act f e hf => hlen _ (hmin i) used act _ f e hf) hdate t0 hdays r hr hact hname
  obtain ⟨df2', i', f', act', hOut', e2', hfit', hy'⟩ := row_value w' args' source' _ res' h' m (fun df'' => hcand' df'' _) val hval
    (fun i used act f e hf => hlen _ (hmin' i) used act _ f e hf) hdate' t0' hdays' r' hr' hact' hname'
  have hPu := hP df2' hOut'
  have hd1 : (filterStart args.start df).hasDate = true := by rw [filterStart_rows]; exact hdate
  rw [hstart, hout, hkept, applyOutliers_renumbered _ _ _ hd1, hOut] at hOut'
  have hOut' := (Except.ok.inj hOut').symm
  subst hOut'
  rw [defaultWeights_renumbered, usedRows_renumbered] at e2' hPu
  obtain ⟨u1, u2, u3, u4, u5⟩ := used_rows args.findOutliers args.start df df2 hOut
  generalize hused : usedRows (defaultWeights df2).1 = used at e2 e2' u1 u2 u5 hPu
  have hsub : (used.rows.map Row.x).Sublist (df.rows.map Row.x) := by
    have h1 : (used.rows.map Row.x).Sublist ((defaultWeights df2).1.rows.map Row.x) := by
      rw [← hused]
      exact List.Sublist.map _ List.filter_sublist
    rw [u4] at h1
    exact h1.trans (List.Sublist.map _ List.filter_sublist)
  have hnd' : ((renumbered k used).rows.map Row.x).Nodup := by
    have : (renumbered k used).rows.map Row.x = (used.rows.map Row.x).map fun x => x + k := by simp [renumbered, Function.comp_def]
    rw [this]
    exact (hsub.nodup hnd).map (fun a b hab => by simpa using hab)
  have hudate : used.hasDate = true := by rw [u1, hdate]
  have hst := (C30_status _ m _ _ _ f' e2').2.2
  have hlong := hst.1.1 (.inl (hst.2.2.1 hfit'))
  have hv : ∀ (df : Frame K), df.hasDate = true → (usableRows df).map Row.x ≠ [] → ∀ (ctx : Ctx K) b p, CacheCorrect reg ctx.ax ctx.adate ctx.cache →
      ctx.ax = scaleX m ((usableRows df).map Row.x) →
      ctx.adate = (if df.hasDate then some ((usableRows df).map Row.date) else none) →
      m.fBounds ⟨some ctx.ax, some ((usableRows df).map fun r => r.y.getD 0), none⟩ = .ok b → Admissible p b →
      m.fModel ctx (some p) false = .ok (vecOf ((usableRows df).map fun r => val p r.x r.date)) := by
    intro df hd hne ctx b p a1 a2 a3 a4 a5
    rw [hd, if_pos rfl] at a3
    rw [hm.value ctx _ _ p a2 a3 (by simp) ((hm.free _ _ _ a4).1 a5) a1 hne, List.zipWith_map, List.zipWith_self]
  obtain ⟨b, h1, h2, -, h5⟩ := fit_minimal _ (hmin i) m used _ _ f hu hm.params e2 hfit val reg (hreg i) (hv used hudate (fit_nonempty _ m used _ _ f e2 hfit))
  obtain ⟨b', h1', h2', -, h5'⟩ := fit_minimal _ (hmin' i') m _ _ _ f' hu hm.params e2' hfit' val reg (hreg' i') (hv (renumbered k used) hudate (fit_nonempty _ m _ _ _ f' e2' hfit'))
  rw [hm.free _ _ _ h1] at h2
  rw [hm.free _ _ _ h1'] at h2'
  obtain ⟨T, hT⟩ := horig k
  obtain ⟨S, hS⟩ := horig (-k)
  obtain ⟨t1, t2⟩ := hT _ h2
  have hmid : (halfway (T f.params) f'.params).length = m.nParams := by simp [halfway, t1, h2']
  obtain ⟨s1, s2⟩ := hS _ hmid
  have key := misfit_unique (renumbered k used) (val (T f.params)) (val f'.params) (val (halfway (T f.params) f'.params))
    (fun x t => hm.straight _ _ x t t1 h2') (by
      rw [misfit_renumbered k used (val f.params) _ t2,
        misfit_renumbered k used (val (S (halfway (T f.params) f'.params))) _ (by
          intro x t
          have := s2 (x + k) t
          rw [add_neg_cancel_right] at this
          exact this.symm)]
      exact h5 _ ((hm.free _ _ _ h1).2 s1))
    (h5' _ ((hm.free _ _ _ h1').2 hmid))
  rw [hy, hy', hsame]
  congr 1
  rw [← t2]
  have horigin : t0' = t0 - k * (24 * 60 * 60 * 1000000000) := by
    obtain ⟨q, hq⟩ : ∃ q, q ∈ used.rows := by
      apply List.exists_mem_of_ne_nil
      intro hc
      have := hlong.2
      simp [renumbered, usableRows, hc] at hlong
    obtain ⟨q0, h0, e1, e2, -⟩ := u5 q hq
    have hin : { q0 with x := q0.x + k } ∈ (filterStart args.start df').rows := by
      rw [hkept]
      rw [filterStart_rows]
      exact List.mem_map.2 ⟨q0, h0, rfl⟩
    rw [filterStart_rows] at hin
    have a1 := hdays q0 (List.mem_filter.1 h0).1
    have a2 := hdays' _ (List.mem_filter.1 hin).1
    dsimp only at a2
    rw [a1] at a2
    linarith
  have e : (r.date - t0') / (24 * 60 * 60 * 1000000000) = (r.date - t0) / (24 * 60 * 60 * 1000000000) + k := by
    rw [horigin]
    omega
  rw [e]
  exact hm.determined (renumbered k used) hPu _ _ h2' t1 hudate hnd' hlong.1 hlong.2 (fun q hq => (key q hq).symm) _ _

omit [LinearOrder K] in
theorem line_noOrigin : NoOrigin 2 (lineValue : List K → Int → Timestamp → K) := by
  intro k
  refine ⟨fun p => [p.getD 0 0, p.getD 1 0 - p.getD 0 0 * (k : K)], ?_⟩
  intro p hp
  refine ⟨rfl, ?_⟩
  intro x t
  simp only [lineValue, List.getD_cons_zero, List.getD_cons_succ]
  push_cast
  ring

omit [LinearOrder K] in
theorem weekly_noOrigin : NoOrigin 8 (weeklyValue : List K → Int → Timestamp → K) := by
  intro k
  refine ⟨fun p => p.getD 0 0 :: (p.getD 1 0 - p.getD 0 0 * (k : K)) :: p.drop 2, ?_⟩
  intro p hp
  obtain ⟨a, b, s1, s2, s3, s4, s5, s6, rfl⟩ := weekly_params p hp
  refine ⟨rfl, ?_⟩
  intro x t
  simp only [List.getD_cons_zero, List.getD_cons_succ, List.drop_succ_cons, List.drop_zero, weeklyValue_mem]
  push_cast
  ring

/-! ### Tables -/

/-- The rows of a normalised table that make up the series `s`. -/
def seriesPart (t : STable K) (s : String) : List (SRow K) := if t.hasSource then sourcePart t.rows (some s) else t.rows

theorem seriesPart_sublist (t : STable K) (s : String) : (seriesPart t s).Sublist t.rows := by
  unfold seriesPart sourcePart
  split_ifs
  · exact List.filter_sublist
  · exact List.Sublist.refl _

/-- Every row of a result comes from the run on the series of its source. -/
theorem row_series [FloorRing K] [IsStrictOrderedRing K] (w : World K) (args : RunArgs K) (id : String) (t out : STable K) (hn : normalizeDf w.srt t = .ok (some out))
    (res : RunResult K) (h : runForecast w args id t = .ok (some res)) (r : DRow K) (hr : r ∈ res.data) :
    ∃ part, runSingle w args r.source (frameOf out (seriesPart out r.source)) = .ok part ∧ r ∈ part.data ∧
      ∀ q ∈ res.data, q.source = r.source → q ∈ part.data := by
  unfold runForecast at h
  rw [hn] at h
  simp only [bind, Except.bind] at h
  unfold seriesPart
  split_ifs at h with hb hne
  · rw [if_pos hb]
    cases hrun : runSources w args out (dedupBy (fun s : Option String => s) (out.rows.map SRow.source)) with
    | error e => rw [hrun] at h; cases h
    | ok q =>
      rw [hrun] at h
      cases h
      obtain ⟨parts, hp, rfl⟩ := (runSources_inv w args out _ res).1 hrun
      obtain ⟨labels, hl, -, -⟩ := labels_sorted w.srt t out ((C26_samples w.srt t out hn).2.2.2.2.1.symm.trans hb) hn
      rw [hl] at hp
      have key : ∀ r ∈ parts.flatMap (fun p => p.data), ∃ part, runSingle w args r.source (frameOf out (sourcePart out.rows (some r.source))) = .ok part ∧
          r ∈ part.data := by
        intro r hr
        obtain ⟨part, hpt, hq⟩ := List.mem_flatMap.1 hr
        obtain ⟨s, hs, hrel⟩ := forall₂_left hp part hpt
        obtain ⟨l, -, rfl⟩ := List.mem_map.1 hs
        simp only [Option.getD_some] at hrel
        have e := (run_sources w args _ _ part hrel).1 r hq
        exact ⟨part, by rw [e]; exact hrel, hq⟩
      obtain ⟨part, h1, h2⟩ := key r hr
      refine ⟨part, h1, h2, ?_⟩
      intro q hq hs
      obtain ⟨part', h1', h2'⟩ := key q hq
      rw [hs, h1] at h1'
      rw [Except.ok.inj h1']
      exact h2'
  · rw [if_neg hb]
    cases hrun : runSingle w args id (frameOf out out.rows) with
    | error e => rw [hrun] at h; cases h
    | ok q =>
      rw [hrun] at h
      cases h
      refine ⟨res, ?_, hr, fun q hq _ => hq⟩
      rw [(run_sources w args _ _ res hrun).1 r hr]
      exact hrun

/-- The series of a normalised table: x counts days and increases strictly. -/
theorem series_base (srt : SortAlg) (t out : STable K) (ht : OnePerDate t) (hn : normalizeDf srt t = .ok (some out)) (s : String) :
    (∀ q ∈ seriesPart out s, q.date = baseIn t (some s) + q.x * (24 * 60 * 60 * 1000000000)) ∧ (seriesPart out s).Pairwise fun a b => a.x < b.x := by
  have hd := normalize_dated srt t out ht.hasX ht.hasDate hn
  obtain ⟨-, -, -, -, hso, -⟩ := C26_samples srt t out hn
  have hx : ∀ q ∈ out.rows, ∃ q0 ∈ t.rows, q.date = q0.date ∧ q.source = q0.source ∧ q.x = (q.date - baseIn t q.source) / DAY := by
    intro q hq
    obtain ⟨q0, h0, rfl⟩ := List.mem_map.1 (hd.mem_iff.1 hq)
    exact ⟨q0, (List.mem_filter.1 h0).1, rfl, rfl, rfl⟩
  have hbase : ∀ q ∈ out.rows, (q.date - baseIn t q.source) % DAY = 0 := by
    intro q hq
    obtain ⟨q0, h0, e1, e2, -⟩ := hx q hq
    have : ∃ q' ∈ t.rows, baseIn t q.source = q'.date - weekday q'.date * DAY := by
      unfold baseIn
      split_ifs with hs
      · have hne : q.source ≠ none := (normalize_sorted_source srt t out hs hn).2 q hq
        obtain ⟨q', hq', e⟩ := baseOf_spec (sourcePart t.rows q.source) (by
          intro hc
          unfold sourcePart at hc
          rw [List.filter_eq_nil_iff] at hc
          exact hc q0 h0 (by simp [e2] at hne ⊢; exact hne))
        exact ⟨q', (List.mem_filter.1 hq').1, e⟩
      · obtain ⟨q', hq', e⟩ := baseOf_spec t.rows (List.ne_nil_of_mem h0)
        exact ⟨q', hq', e⟩
    obtain ⟨q', hq', e⟩ := this
    have h1 := ht.timeOfDay q0 h0 q' hq'
    rw [e, e1]
    unfold DAY
    omega
  have hsrc : ∀ q ∈ seriesPart out s, q ∈ out.rows ∧ (t.hasSource = true → q.source = some s) := by
    intro q hq
    refine ⟨(seriesPart_sublist out s).subset hq, ?_⟩
    intro hs
    unfold seriesPart at hq
    rw [hso, if_pos hs] at hq
    simpa using (List.mem_filter.1 hq).2
  have hbq : ∀ q ∈ seriesPart out s, baseIn t q.source = baseIn t (some s) := by
    intro q hq
    by_cases hs : t.hasSource = true
    · rw [(hsrc q hq).2 hs]
    · unfold baseIn
      rw [if_neg hs, if_neg hs]
  have hdays : ∀ q ∈ seriesPart out s, q.date = baseIn t (some s) + q.x * (24 * 60 * 60 * 1000000000) := by
    intro q hq
    have h1 := hbase q (hsrc q hq).1
    obtain ⟨-, -, -, -, h2⟩ := hx q (hsrc q hq).1
    rw [hbq q hq] at h1 h2
    unfold DAY at h1 h2
    rw [h2]
    omega
  refine ⟨hdays, ?_⟩
  have hle : (seriesPart out s).Pairwise fun a b => a.x ≤ b.x := by
    by_cases hs : t.hasSource = true
    · have h1 := ((C27_sorted srt t out hn).1 hs).sublist (seriesPart_sublist out s)
      rw [List.pairwise_iff_forall_sublist] at h1 ⊢
      intro a b hab
      obtain ⟨s1, s2, e1, e2, h⟩ := h1 hab
      rw [(hsrc a (hab.subset (by simp))).2 hs] at e1
      rw [(hsrc b (hab.subset (by simp))).2 hs] at e2
      cases e1
      cases e2
      rcases h with h | h
      · exact absurd h (lt_irrefl _)
      · exact h.2
    · exact ((C27_sorted srt t out hn).2 (by simpa using hs)).sublist (seriesPart_sublist out s)
  have hne : (seriesPart out s).Pairwise fun a b => a.date ≠ b.date := by
    have h1 : (labelled t.hasSource t.rows).Pairwise fun r r' => (t.hasSource = true → r.source = r'.source) → r.date ≠ r'.date :=
      ht.distinct.sublist List.filter_sublist
    have h2 : ((labelled t.hasSource t.rows).map fun r => { r with x := (r.date - baseIn t r.source) / DAY }).Pairwise
        fun r r' => (t.hasSource = true → r.source = r'.source) → r.date ≠ r'.date := by
      rw [List.pairwise_map]
      exact h1
    have h3 := (hd.pairwise_iff (R := fun r r' : SRow K => (t.hasSource = true → r.source = r'.source) → r.date ≠ r'.date)
      (fun {a b} hab hs => (hab (fun h => (hs h).symm)).symm)).2 h2
    have h4 := h3.sublist (seriesPart_sublist out s)
    rw [List.pairwise_iff_forall_sublist] at h4 ⊢
    intro a b hab
    exact h4 hab (fun hs => by rw [(hsrc a (hab.subset (by simp))).2 hs, (hsrc b (hab.subset (by simp))).2 hs])
  rw [List.pairwise_iff_forall_sublist] at hle hne ⊢
  intro a b hab
  refine lt_of_le_of_ne (hle hab) ?_
  intro e
  refine hne hab ?_
  rw [hdays a (hab.subset (by simp)), hdays b (hab.subset (by simp)), e]

theorem series_days (srt : SortAlg) (t out : STable K) (ht : OnePerDate t) (hn : normalizeDf srt t = .ok (some out)) (s : String) :
    (∃ t0, ∀ q ∈ seriesPart out s, q.date = t0 + q.x * (24 * 60 * 60 * 1000000000)) ∧ (seriesPart out s).Pairwise fun a b => a.x < b.x :=
  ⟨⟨_, (series_base srt t out ht hn s).1⟩, (series_base srt t out ht hn s).2⟩

omit [Field K] [LinearOrder K] in
theorem onePerDate_reordered (t t' : STable K) (hre : Reordered t t') (ht : OnePerDate t) : OnePerDate t' where
  hasX := hre.hasX.trans ht.hasX
  hasDate := hre.hasDate.trans ht.hasDate
  timeOfDay := fun r hr r' hr' => ht.timeOfDay r (hre.rows.mem_iff.1 hr) r' (hre.rows.mem_iff.1 hr')
  distinct := by
    rw [hre.hasSource]
    exact (hre.rows.pairwise_iff (R := fun r r' : SRow K => (t.hasSource = true → r.source = r'.source) → r.date ≠ r'.date)
      (fun {a b} hab hs => (hab (fun h => (hs h).symm)).symm)).2 ht.distinct

/-- After normalisation the series of tables that agree from `start` on differ by the origin of x only, from `start` on. -/
theorem series_renumbered (srt srt' : SortAlg) (t t' out out' : STable K) (start : Option Timestamp) (hre : AgreeFrom start t t')
    (ht : OnePerDate t) (ht' : OnePerDate t')
    (hn : normalizeDf srt t = .ok (some out)) (hn' : normalizeDf srt' t' = .ok (some out')) (s s' : String) (hs : t.hasSource = true → s' = s) :
    ∃ k, filterStart start (frameOf out' (seriesPart out' s')) = renumbered k (filterStart start (frameOf out (seriesPart out s))) := by
  obtain ⟨⟨t0, hd⟩, hlt⟩ := series_days srt t out ht hn s
  obtain ⟨⟨t0', hd'⟩, hlt'⟩ := series_days srt' t' out' ht' hn' s'
  obtain ⟨hp, -, -, hod, hso, hwo⟩ := C26_samples srt t out hn
  obtain ⟨hp', -, -, hod', hso', hwo'⟩ := C26_samples srt' t' out' hn'
  have hfs : ∀ l : List (SRow K), samples (l.filter fun r => decide (∀ d ∈ start, d ≤ r.date)) =
      (samples l).filter fun p => decide (∀ d ∈ start, d ≤ p.1) := by
    intro l
    unfold samples
    rw [List.filter_map]
    rfl
  have hcomm : ∀ l : List (SRow K), (labelled t.hasSource l).filter (fun r => decide (∀ d ∈ start, d ≤ r.date)) =
      labelled t.hasSource (l.filter fun r => decide (∀ d ∈ start, d ≤ r.date)) := by
    intro l
    unfold labelled
    rw [List.filter_filter, List.filter_filter]
    exact List.filter_congr fun _ _ => Bool.and_comm _ _
  have hall : (samples (out'.rows.filter fun r => decide (∀ d ∈ start, d ≤ r.date))).Perm
      (samples (out.rows.filter fun r => decide (∀ d ∈ start, d ≤ r.date))) := by
    rw [hfs, hfs]
    refine (hp'.filter _).trans (List.Perm.trans ?_ (hp.filter _).symm)
    rw [hre.hasSource, ← hfs, ← hfs, hcomm, hcomm]
    exact (hre.rows.filter _).map _
  have hfrom : ∀ (o : STable K) (s : String), (seriesPart o s).filter (fun r => decide (∀ d ∈ start, d ≤ r.date)) =
      if o.hasSource then sourcePart (o.rows.filter fun r => decide (∀ d ∈ start, d ≤ r.date)) (some s)
      else o.rows.filter fun r => decide (∀ d ∈ start, d ≤ r.date) := by
    intro o s
    unfold seriesPart sourcePart
    split_ifs
    · rw [List.filter_filter, List.filter_filter]
      exact List.filter_congr fun _ _ => Bool.and_comm _ _
    · rfl
  have hframe : ∀ (o : STable K), o.hasDate = true → ∀ l : List (SRow K), filterStart start (frameOf o l) =
      frameOf o (l.filter fun r => decide (∀ d ∈ start, d ≤ r.date)) := by
    intro o ho l
    cases start with
    | none => simp [filterStart]
    | some d =>
      have : (frameOf o l).hasDate = true := ho
      simp only [filterStart, this, if_true]
      simp [frameOf, List.filter_map, Function.comp_def, ho]
  rw [hframe _ (hod'.trans ht'.hasDate), hframe _ (hod.trans ht.hasDate)]
  have hpart : (samples ((seriesPart out' s').filter fun r => decide (∀ d ∈ start, d ≤ r.date))).Perm
      (samples ((seriesPart out s).filter fun r => decide (∀ d ∈ start, d ≤ r.date))) := by
    rw [hfrom, hfrom, hso', hre.hasSource, hso]
    split_ifs with h
    · rw [hs h]
      have := hall.filter fun p => decide (p.2.1 = some s)
      unfold samples at this ⊢
      rw [List.filter_map, List.filter_map] at this
      unfold sourcePart
      have e : ∀ rows : List (SRow K), rows.filter (fun r => decide (r.source = some s ∧ some s ≠ none)) =
          rows.filter ((fun p : Int × Option String × Option K × Option K => decide (p.2.1 = some s)) ∘ fun r => (r.date, r.source, r.y, r.weight)) := by
        intro rows
        apply List.filter_congr
        intro r _
        simp
      rw [e, e]
      exact this
    · exact hall
  replace hd := fun q (hq : q ∈ (seriesPart out s).filter fun r => decide (∀ d ∈ start, d ≤ r.date)) => hd q (List.mem_filter.1 hq).1
  replace hd' := fun q (hq : q ∈ (seriesPart out' s').filter fun r => decide (∀ d ∈ start, d ≤ r.date)) => hd' q (List.mem_filter.1 hq).1
  replace hlt := hlt.sublist (List.filter_sublist (p := fun r : SRow K => decide (∀ d ∈ start, d ≤ r.date)))
  replace hlt' := hlt'.sublist (List.filter_sublist (p := fun r : SRow K => decide (∀ d ∈ start, d ≤ r.date)))
  generalize (seriesPart out' s').filter (fun r => decide (∀ d ∈ start, d ≤ r.date)) = P' at *
  generalize (seriesPart out s).filter (fun r => decide (∀ d ∈ start, d ≤ r.date)) = P at *
  have hdiv : P ≠ [] → ∃ k, t0 = t0' + k * (24 * 60 * 60 * 1000000000) := by
    intro hne
    obtain ⟨q, hq⟩ := List.exists_mem_of_ne_nil _ hne
    have : (q.date, q.source, q.y, q.weight) ∈ samples P' := hpart.mem_iff.2 (List.mem_map.2 ⟨q, hq, rfl⟩)
    obtain ⟨q', hq', e⟩ := List.mem_map.1 this
    simp only [Prod.mk.injEq] at e
    have h1 := hd q hq
    have h2 := hd' q' hq'
    refine ⟨q'.x - q.x, ?_⟩
    rw [e.1, h1] at h2
    linarith
  obtain ⟨k, hk⟩ : ∃ k, P ≠ [] → t0 = t0' + k * (24 * 60 * 60 * 1000000000) := by
    by_cases hne : P ≠ []
    · obtain ⟨k, hk⟩ := hdiv hne
      exact ⟨k, fun _ => hk⟩
    · exact ⟨0, fun h => absurd h hne⟩
  refine ⟨k, ?_⟩
  let g : Int × Option String × Option K × Option K → SRow K := fun p => ⟨p.1, p.2.1, (p.1 - t0') / (24 * 60 * 60 * 1000000000), p.2.2.1, p.2.2.2⟩
  have e1 : P' = (samples P').map g := by
    unfold samples
    rw [List.map_map]
    refine (List.map_id'' (fun q => rfl) _).symm.trans ?_ |>.trans rfl
    apply List.map_congr_left
    intro q hq
    obtain ⟨d, sr, x, y, wt⟩ := q
    have := hd' _ hq
    simp only at this
    simp only [g, Function.comp, id, SRow.mk.injEq, true_and, and_true]
    omega
  have e2 : P.map (fun r => { r with x := r.x + k }) = (samples P).map g := by
    unfold samples
    rw [List.map_map]
    apply List.map_congr_left
    intro q hq
    have h0 := hk (List.ne_nil_of_mem hq)
    obtain ⟨d, sr, x, y, wt⟩ := q
    have := hd _ hq
    simp only at this
    simp only [g, Function.comp, SRow.mk.injEq, true_and, and_true]
    omega
  have hperm : P'.Perm (P.map fun r => { r with x := r.x + k }) := by
    rw [e2]
    refine List.Perm.trans (List.Perm.of_eq e1) (hpart.map g)
  have heq : P' = P.map fun r => { r with x := r.x + k } := by
    refine hperm.eq_of_pairwise (le := fun a b => a.x < b.x) (fun a b _ _ h1 h2 => absurd (lt_trans h1 h2) (lt_irrefl _)) hlt' ?_
    rw [List.pairwise_map]
    exact hlt.imp fun h => by simpa using h
  unfold frameOf renumbered
  rw [heq, hod', hre.hasDate, hod, hwo', hre.hasWeight, hwo]
  simp only [List.map_map]
  rfl

theorem agreeing_run [FloorRing K] [IsStrictOrderedRing K] (w w' : World K) (args args' : RunArgs K) (id id' : String) (t t' : STable K)
    (hre : AgreeFrom args.start t t') (ht : OnePerDate t) (ht' : OnePerDate t') (res res' : RunResult K) (h : runForecast w args id t = .ok (some res))
    (h' : runForecast w' args' id' t' = .ok (some res'))
    (hstart : args'.start = args.start) (hout : args'.findOutliers = args.findOutliers)
    (hmin : ∀ s i, FindsMinimum (w.env s i)) (hmin' : ∀ s i, FindsMinimum (w'.env s i))
    (m : ForecastModel K) (hu : Unpinned m) (reg : Registry K) (val : List K → Int → Timestamp → K) {P : Frame K → Prop} (hm : LinearInParameters m reg val P)
    (horig : NoOrigin m.nParams val)
    (hreg : ∀ s i, Registered (w.env s i).globalCache reg m) (hreg' : ∀ s i, Registered (w'.env s i).globalCache reg m)
    (hcand : ∀ df fr cand, candidates w.ch args.models df fr = .ok cand → ∀ m' ∈ cand.2, m'.name = m.name → m' = m)
    (hcand' : ∀ df fr cand, candidates w'.ch args'.models df fr = .ok cand → ∀ m' ∈ cand.2, m'.name = m.name → m' = m)
    (r r' : DRow K) (hr : r ∈ res.data) (hr' : r' ∈ res'.data) (hact : r.isActuals = false) (hact' : r'.isActuals = false)
    (hsrc : t.hasSource = true → r'.source = r.source)
    (hname : r.model = m.name) (hname' : r'.model = m.name) (hsame : r'.date = r.date)
    (hP : ∀ df part t0, runSingle w' args' r'.source df = .ok part → (∀ q ∈ res'.data, q.source = r'.source → q ∈ part.data) → df.hasDate = true →
      CountsDays df t0 → ∀ df2, applyOutliers args'.findOutliers (filterStart args'.start df) = .ok df2 → P (usedRows (defaultWeights df2).1) := by intros; trivial) : r'.y = r.y := by
  obtain ⟨out, hn⟩ : ∃ out, normalizeDf w.srt t = .ok (some out) := by
    unfold runForecast at h
    cases hn : normalizeDf w.srt t with
    | error e => rw [hn] at h; cases h
    | ok o =>
      cases o with
      | none => rw [hn] at h; cases h
      | some out => exact ⟨out, rfl⟩
  obtain ⟨out', hn'⟩ : ∃ out, normalizeDf w'.srt t' = .ok (some out) := by
    unfold runForecast at h'
    cases hn : normalizeDf w'.srt t' with
    | error e => rw [hn] at h'; cases h'
    | ok o =>
      cases o with
      | none => rw [hn] at h'; cases h'
      | some out => exact ⟨out, rfl⟩
  obtain ⟨part, hp, hrp, -⟩ := row_series w args id t out hn res h r hr
  obtain ⟨part', hp', hrp', hall'⟩ := row_series w' args' id' t' out' hn' res' h' r' hr'
  obtain ⟨k, hk⟩ := series_renumbered w.srt w'.srt t t' out out' args.start hre ht ht' hn hn' r.source r'.source hsrc
  obtain ⟨⟨t0, hd⟩, hlt⟩ := series_days w.srt t out ht hn r.source
  obtain ⟨⟨t0', hd'⟩, -⟩ := series_days w'.srt t' out' ht' hn' r'.source
  have hod' : out'.hasDate = true := ((C26_samples w'.srt t' out' hn').2.2.2.1).trans ht'.hasDate
  have hod : out.hasDate = true := ((C26_samples w.srt t out hn).2.2.2.1).trans ht.hasDate
  refine renumbered_run w w' args args' r.source r'.source _ _ k hk part part' hp hp' hstart hout (hmin _) (hmin' _) m hu reg val hm horig (hreg _) (hreg' _)
    hcand hcand' hod hod' t0 t0' ?_ ?_ ?_ r r' hrp hrp' hact hact' hname hname' hsame
    (hP _ part' t0' hp' hall' hod' ?_)
  · intro q hq
    obtain ⟨q0, h0, rfl⟩ := List.mem_map.1 hq
    exact hd q0 h0
  · intro q hq
    obtain ⟨q0, h0, rfl⟩ := List.mem_map.1 hq
    exact hd' q0 h0
  · unfold frameOf
    rw [List.map_map]
    have : (seriesPart out r.source).Pairwise fun a b => a.x ≠ b.x := hlt.imp fun h => ne_of_lt h
    exact List.pairwise_map.2 this
  · intro q hq
    obtain ⟨q0, h0, rfl⟩ := List.mem_map.1 hq
    exact hd' q0 h0

omit [Field K] [LinearOrder K] in
theorem Spec.Reordered.agree {t t' : STable K} (h : Reordered t t') (start : Option Timestamp) : AgreeFrom start t t' :=
  ⟨h.rows.filter _, h.hasSource, h.hasDate, h.hasX, h.hasWeight⟩

/-- **C80.** A dated table with at most one row per date and source, its rows in any order: the forecast of the linear trend for a source and date is the
same. The first row decides from which day the coordinate is counted, but this has no effect on the forecast. Solver, random numbers, horizon and other
candidate models can differ. -/
theorem C80_line [FloorRing K] [IsStrictOrderedRing K] (w w' : World K) (args args' : RunArgs K) (id id' : String) (t t' : STable K)
    (hre : Reordered t t') (ht : OnePerDate t) (res res' : RunResult K) (h : runForecast w args id t = .ok (some res))
    (h' : runForecast w' args' id' t' = .ok (some res')) (hstart : args'.start = args.start) (hout : args'.findOutliers = args.findOutliers)
    (hmin : ∀ s i, FindsMinimum (w.env s i)) (hmin' : ∀ s i, FindsMinimum (w'.env s i))
    (hcand : ∀ df fr cand, candidates w.ch args.models df fr = .ok cand → ∀ m ∈ cand.2, m.name = "linear" → m = modelLinear)
    (hcand' : ∀ df fr cand, candidates w'.ch args'.models df fr = .ok cand → ∀ m ∈ cand.2, m.name = "linear" → m = modelLinear)
    (r r' : DRow K) (hr : r ∈ res.data) (hr' : r' ∈ res'.data) (hact : r.isActuals = false) (hact' : r'.isActuals = false)
    (hsrc : t.hasSource = true → r'.source = r.source)
    (hname : r.model = "linear") (hname' : r'.model = "linear") (hsame : r'.date = r.date) : r'.y = r.y :=
  agreeing_run w w' args args' id id' t t' (hre.agree _) ht (onePerDate_reordered t t' hre ht) res res' h h' hstart hout hmin hmin' modelLinear linear_unpinned (fun _ => none) lineValue
    linear_inParameters line_noOrigin (by intro s i; constructor <;> simp [modelLinear, mkModel]) (by intro s i; constructor <;> simp [modelLinear, mkModel])
    hcand hcand' r r' hr hr' hact hact' hsrc hname hname' hsame

/-- **C80, weekly.** The same for the linear trend with weekly seasonality. -/
theorem C80_weekly [FloorRing K] [IsStrictOrderedRing K] (w w' : World K) (args args' : RunArgs K) (id id' : String) (t t' : STable K)
    (hre : Reordered t t') (ht : OnePerDate t) (res res' : RunResult K) (h : runForecast w args id t = .ok (some res))
    (h' : runForecast w' args' id' t' = .ok (some res')) (hstart : args'.start = args.start) (hout : args'.findOutliers = args.findOutliers)
    (hmin : ∀ s i, FindsMinimum (w.env s i)) (hmin' : ∀ s i, FindsMinimum (w'.env s i))
    (hcache : ∀ s i f, (w.env s i).globalCache "a_weekday" = some f → f = cacheWeekday)
    (hcache' : ∀ s i f, (w'.env s i).globalCache "a_weekday" = some f → f = cacheWeekday)
    (hcand : ∀ df fr cand, candidates w.ch args.models df fr = .ok cand → ∀ m ∈ cand.2, m.name = "(linear+season_wday)" →
      m = modelLinear.add modelSeasonWday)
    (hcand' : ∀ df fr cand, candidates w'.ch args'.models df fr = .ok cand → ∀ m ∈ cand.2, m.name = "(linear+season_wday)" →
      m = modelLinear.add modelSeasonWday)
    (r r' : DRow K) (hr : r ∈ res.data) (hr' : r' ∈ res'.data) (hact : r.isActuals = false) (hact' : r'.isActuals = false)
    (hsrc : t.hasSource = true → r'.source = r.source)
    (hname : r.model = "(linear+season_wday)") (hname' : r'.model = "(linear+season_wday)") (hsame : r'.date = r.date) : r'.y = r.y :=
  agreeing_run w w' args args' id id' t t' (hre.agree _) ht (onePerDate_reordered t t' hre ht) res res' h h' hstart hout hmin hmin' weeklyModel weekly_unpinned weeklyReg weeklyValue
    weekly_inParameters (by rw [weekly_nParams]; exact weekly_noOrigin) (fun s i => weekly_registered _ (hcache s i)) (fun s i => weekly_registered _ (hcache' s i))
    (by rw [weekly_name]; exact hcand) (by rw [weekly_name]; exact hcand') r r' hr hr' hact hact' hsrc (by rw [weekly_name]; exact hname)
    (by rw [weekly_name]; exact hname') hsame

/-! ### A concrete case -/

/-- Two shops, seven days from Wednesday (day 6) on, values on a line, in order of date. -/
def orderedTable : STable ℚ := ⟨true, true, false, false, (List.range 14).map fun i : Nat =>
  ⟨(6 + (i / 2 : Nat)) * DAY, some (if i % 2 = 0 then "a" else "b"), 0, some (2 * ((i / 2 : Nat) : ℚ) + 5), none⟩⟩

/-- The same, latest rows first. -/
def reversedTable : STable ℚ := { orderedTable with rows := orderedTable.rows.reverse }

example : Reordered orderedTable reversedTable := ⟨List.reverse_perm _, rfl, rfl, rfl, rfl⟩

example : OnePerDate orderedTable := ⟨rfl, rfl, by decide +kernel, by decide +kernel⟩

/-- The coordinate is counted from another Monday: other parameters of the line, same forecast. -/
example : ((runForecast lineWorld (demoArgs [modelLinear] (some [])) "s" orderedTable).toOption.bind fun r => r.map fun r =>
      (r.metadata.map fun q => (q.source, q.params), ((r.data.filter fun q => !q.isActuals).drop 17).map fun q => (q.source, q.date / DAY, q.y))) =
      some ([("a", [2, 1]), ("b", [2, 1])], [("b", 13, some 19), ("b", 14, some 21), ("b", 15, some 23)]) ∧
    ((runForecast { lineWorld with env := fun _ _ => knownEnv [2, 15] } (demoArgs [modelLinear] (some [])) "s" reversedTable).toOption.bind fun r => r.map fun r =>
      (r.metadata.map fun q => (q.source, q.params), ((r.data.filter fun q => !q.isActuals).drop 17).map fun q => (q.source, q.date / DAY, q.y))) =
      some ([("a", [2, 15]), ("b", [2, 15])], [("b", 13, some 19), ("b", 14, some 21), ("b", 15, some 23)]) := by
  constructor <;> decide +kernel

end Anticipy
