import Verif.Props.IntervalUnits
import Verif.Props.Level
import Verif.Props.RunTables
import Verif.Props.Balance

/-
C91 for whole runs: the forecast table with its intervals follows a change of unit and zero point.
-/
namespace Anticipy
open Spec
variable {K : Type} [Field K] [LinearOrder K]

/-! ### The rows of the chosen model -/

theorem fitLoop_only (env : Nat → Env K) (s : FitSetup K) (i : Nat) (l : List (ForecastModel K)) (out : List (MRow K) × List (DRow K))
    (h : fitLoop env s i l = .ok out) (hn : (l.map ForecastModel.name).Nodup) (k : Nat) (m : ForecastModel K) (hk : l[k]? = some m) :
    ∃ f rows, fitModel (env (i + k)) m s.used (some s.actuals) s.useCache = .ok f ∧ forecastRows s m f = .ok rows ∧
      out.2.filter (fun r => decide (r.model = m.name)) = rows := by
  induction l generalizing i out k with
  | nil => cases hk
  | cons m0 l ih =>
    have h0 := h
    simp only [fitLoop, bind, Except.bind] at h
    cases h1 : fitModel (env i) m0 s.used (some s.actuals) s.useCache with
    | error e => rw [h1] at h; cases h
    | ok f =>
      rw [h1] at h
      dsimp only at h
      cases h2 : forecastRows s m0 f with
      | error e => rw [h2] at h; cases h
      | ok d =>
        rw [h2] at h
        dsimp only at h
        cases h3 : fitLoop env s (i + 1) l with
        | error e => rw [h3] at h; cases h
        | ok r =>
          rw [h3] at h
          cases h
          have hd : ∀ q ∈ d, q.model = m0.name := fun q hq => (forecastRows_mem _ _ _ _ h2 q hq).2.2.2.1
          rw [List.map_cons, List.nodup_cons] at hn
          cases k with
          | zero =>
            cases hk
            refine ⟨f, d, h1, h2, ?_⟩
            rw [List.filter_append, List.filter_eq_self.2 (fun q hq => decide_eq_true (hd q hq)), List.filter_eq_nil_iff.2, List.append_nil]
            intro q hq
            obtain ⟨k', m', f', rows', e1, -, e3, e4⟩ := (fitLoop_spec _ _ _ _ _ h3).2.2 q hq
            have := (forecastRows_mem _ _ _ _ e3 q e4).2.2.2.1
            simp only [decide_eq_true_eq]
            intro hc
            rw [this] at hc
            exact hn.1 (hc ▸ List.mem_map_of_mem (List.mem_of_getElem? e1))
          | succ k =>
            obtain ⟨f', rows, e1, e2, e3⟩ := ih (i + 1) r h3 hn.2 k hk
            refine ⟨f', rows, by rw [show i + (k + 1) = i + 1 + k by omega]; exact e1, e2, ?_⟩
            rw [List.filter_append, e3, List.filter_eq_nil_iff.2, List.nil_append]
            intro q hq
            simp only [decide_eq_true_eq]
            rw [hd q hq]
            intro hc
            exact hn.1 (hc ▸ List.mem_map_of_mem (List.mem_of_getElem? hk))

/-- Rows of a fitted model whose prediction has a value everywhere. -/
theorem forecastRows_grid (s : FitSetup K) (m : ForecastModel K) (f : FitResult K) (rows : List (DRow K)) (h : forecastRows s m f = .ok rows)
    (hfit : f.isFit = true) (hdate : s.used.hasDate = true) (val : List K → Int → Timestamp → K)
    (hval : ∀ (ctx : Ctx K) (xs : List Int) (ds : List Timestamp), ctx.ax = scaleX m xs → ctx.adate = some ds → xs.length = ds.length →
      (∀ k, ctx.cache k = none) → xs ≠ [] → m.fModel ctx (some f.params) false = .ok (vecOf (List.zipWith (val f.params) xs ds))) :
    ∃ start x0 sx, listMin (axisOf s.used) = some start ∧ listMin (s.used.rows.map Row.x) = some x0 ∧
      sxExtrapolateDate start s.stop s.freq s.years x0 = .ok sx ∧
      rows = sx.map fun p => ⟨p.1, s.source, ⟨f.weights, s.freq, f.range⟩, m.name, false, some (val f.params p.2 p.1), some 1, false⟩ := by
  unfold forecastRows at h
  rw [if_pos hfit] at h
  cases h1 : listMin (axisOf s.used) with
  | none => rw [h1] at h; cases h
  | some start =>
    cases h2 : listMin (s.used.rows.map Row.x) with
    | none => rw [h1, h2] at h; cases h
    | some x0 =>
      rw [h1, h2] at h
      simp only [bind, Except.bind] at h
      cases h3 : extrapolate m f.params s.used.hasDate start s.stop s.freq s.years x0 s.actuals with
      | error e => rw [h3] at h; cases h
      | ok l =>
        rw [h3] at h
        have h := Except.ok.inj h
        unfold extrapolate at h3
        rw [hdate] at h3
        simp only [if_true, bind, Except.bind] at h3
        cases h4 : sxExtrapolateDate start s.stop s.freq s.years x0 with
        | error e => rw [h4] at h3; cases h3
        | ok sx =>
          refine ⟨start, x0, sx, rfl, rfl, h4, ?_⟩
          rw [h4] at h3
          dsimp only at h3
          by_cases hc : sx = []
          · subst hc
            have : l = [] := by
              by_contra hl
              obtain ⟨p, hp⟩ := List.exists_mem_of_ne_nil _ hl
              exact series_nonempty _ _ _ h3 p hp rfl
            rw [← h, this]
            rfl
          have hne : sx.map Prod.snd ≠ [] := by simpa using hc
          rw [hval _ _ _ rfl rfl (by simp) (fun _ => rfl) hne] at h3
          simp only [seriesOf, vecOf, List.length_map, List.zipWith_map, List.zipWith_self, if_true] at h3
          have h3 := Except.ok.inj h3
          rw [← h, ← h3]
          unfold fcastClean
          rw [List.map_map, List.zip_map', List.filter_map, List.map_map]
          rw [List.filter_eq_self.2 (by intro p _; rfl)]
          rfl

/-- A sample in the table for intervals. -/
def sampleF (hasDate : Bool) (source : String) (r : Row K) : FRow K :=
  ⟨if hasDate then r.date else r.x, some source, "actuals", true, false, r.y, r.weight⟩

/-- The rows from which the intervals are computed, if the returned forecast is that of model `m`. -/
theorem selected_rows [FloorRing K] [IsStrictOrderedRing K] (w : World K) (args : RunArgs K) (source : String) (df : Frame K) (res : RunResult K)
    (h : runSingle w args source df = .ok res) (m : ForecastModel K) (hma : m.name ≠ "actuals")
    (hcand : ∀ df' cand, candidates w.ch args.models df' (runFreq df) = .ok cand → ∀ m' ∈ cand.2, m'.name = m.name → m' = m)
    (hnames : ∀ df' cand, candidates w.ch args.models df' (runFreq df) = .ok cand → (cand.2.map ForecastModel.name).Nodup)
    (hb : ∃ r ∈ res.data, r.isActuals = false ∧ r.isBest = true ∧ r.model = m.name)
    (hdate : df.hasDate = true) (val : List K → Int → Timestamp → K)
    (hval : ∀ (ctx : Ctx K) (xs : List Int) (ds : List Timestamp) p, ctx.ax = scaleX m xs → ctx.adate = some ds → xs.length = ds.length →
      p.length = m.nParams → (∀ k, ctx.cache k = none) → xs ≠ [] → m.fModel ctx (some p) false = .ok (vecOf (List.zipWith (val p) xs ds)))
    (hlenp : ∀ (i : Nat) (used : Frame K) (act : Option (Frame K)) (f : FitResult K), fitModel (w.env source i) m used act args.useCache = .ok f →
      f.isFit = true → f.params.length = m.nParams) :
    ∃ df2 i f act start x0 sx, applyOutliers args.findOutliers (filterStart args.start df) = .ok df2 ∧
      fitModel (w.env source i) m (usedRows (defaultWeights df2).1) (some act) args.useCache = .ok f ∧ f.isFit = true ∧
      listMin (axisOf (usedRows (defaultWeights df2).1)) = some start ∧ listMin ((usedRows (defaultWeights df2).1).rows.map Row.x) = some x0 ∧
      sxExtrapolateDate start ((listMax (axisOf (defaultWeights df2).1)).getD 0) (runFreq df) args.years x0 = .ok sx ∧
      selectRows (toFTable df.hasDate res.data) = (defaultWeights df2).1.rows.map (sampleF (defaultWeights df2).1.hasDate source) ++
        sx.map fun p => ⟨p.1, some source, m.name, false, true, some (val f.params p.2 p.1), some 1⟩ := by
  obtain ⟨d, hd, hdata, -, -⟩ := runSingle_inv w args source df res h
  obtain ⟨st⟩ := runFits_stages w args source df d hd
  have hd1 : d.1 = _ := congrArg Prod.fst st.hd
  obtain ⟨r, hr, ha, hbest, hm⟩ := hb
  have hr1 : r ∈ d.1 := by
    rw [hdata] at hr
    unfold selectFits at hr
    split_ifs at hr
    · exact hr
    · exact (List.mem_filter.1 hr).1
  rw [hd1] at hr1
  obtain ⟨q, hq, rfl⟩ := List.mem_map.1 hr1
  have hq : q ∈ st.fits.2 := by
    rcases List.mem_append.1 hq with hq | hq
    · unfold actualsClean at hq
      obtain ⟨q', -, rfl⟩ := List.mem_map.1 hq
      cases ha
    · exact hq
  have hkey : bestKey w.srt st.fits.1 = some (q.long, m.name) := by
    have := of_decide_eq_true (show decide (bestKey w.srt st.fits.1 = some (q.long, q.model)) = true from hbest)
    rw [this]
    rw [show q.model = m.name from hm]
  obtain ⟨k, m', f0, rows0, e1, -, e3, e4⟩ := (fitLoop_spec _ _ _ _ _ st.hFits).2.2 q hq
  have hmm : m' = m := hcand _ _ st.hCand m' (List.mem_of_getElem? e1) (by
    rw [← (forecastRows_mem _ _ _ _ e3 q e4).2.2.2.1]
    exact hm)
  subst hmm
  obtain ⟨f, rows, g1, g2, g3⟩ := fitLoop_only _ _ _ _ _ st.hFits (hnames _ _ st.hCand) k m' e1
  have hqr : q ∈ rows := by
    rw [← g3]
    exact List.mem_filter.2 ⟨hq, decide_eq_true hm⟩
  obtain ⟨-, -, -, -, hlong, hfit, -⟩ := forecastRows_mem _ _ _ _ g2 q hqr
  obtain ⟨u1, u2, u3, u4, u5⟩ := used_rows args.findOutliers args.start df st.df2 st.hOut
  simp only [mkSetup] at g1
  obtain ⟨start, x0, sx, s1, s2, s3, s4⟩ := forecastRows_grid _ m' f rows g2 hfit (show (usedRows (defaultWeights st.df2).1).hasDate = true by rw [u1, hdate]) val
    (fun ctx xs ds a1 a2 a3 a4 a5 => hval ctx xs ds _ a1 a2 a3 (hlenp _ _ _ f g1 hfit) a4 a5)
  refine ⟨st.df2, _, f, st.actuals, start, x0, sx, st.hOut, g1, hfit, s1, s2, s3, ?_⟩
  have hsel : selectRows (toFTable df.hasDate res.data) = (d.1.filter fun r => r.isActuals || r.isBest).map fun r =>
      (⟨r.date, some r.source, r.model, r.isActuals, r.isBest, r.y, r.weight⟩ : FRow K) := by
    unfold selectRows toFTable
    simp only [if_true]
    rw [hdata, List.filter_map]
    congr 1
    unfold selectFits
    split_ifs
    · rfl
    · rw [List.filter_filter]
      apply List.filter_congr
      intro r _
      simp only [Function.comp]
      cases r.isActuals <;> cases r.isBest <;> rfl
  rw [hsel, hd1, List.map_append, List.filter_append, List.map_append]
  congr 1
  · rw [List.filter_eq_self.2]
    · unfold actualsClean
      rw [List.map_map, List.map_map]
      apply List.map_congr_left
      intro r _
      simp only [Function.comp, flagData, sampleF, hkey]
      rw [decide_eq_false (by
        intro hc
        exact hma (Prod.mk.inj (Option.some.inj hc)).2)]
    · intro r hr
      unfold actualsClean at hr
      rw [List.map_map] at hr
      obtain ⟨r', -, rfl⟩ := List.mem_map.1 hr
      rfl
  · have hflag : (st.fits.2.map (flagData (bestKey w.srt st.fits.1))).filter (fun r => r.isActuals || r.isBest) =
        (st.fits.2.filter fun r => decide (r.model = m'.name)).map (flagData (bestKey w.srt st.fits.1)) := by
      rw [List.filter_map]
      congr 1
      apply List.filter_congr
      intro r hr
      obtain ⟨k2, m2, f2, rows2, -, -, t3, t4⟩ := (fitLoop_spec _ _ _ _ _ st.hFits).2.2 r hr
      have hra := (forecastRows_mem _ _ _ _ t3 r t4).1
      simp only [Function.comp, flagData, hra, Bool.false_or, hkey]
      rw [decide_eq_decide]
      constructor
      · intro hc
        exact (Prod.mk.inj (Option.some.inj hc)).2.symm
      · intro hc
        have hr2 : r ∈ rows := by
          rw [← g3]
          exact List.mem_filter.2 ⟨hr, decide_eq_true hc⟩
        rw [(forecastRows_mem _ _ _ _ g2 r hr2).2.2.2.2.1, hlong, hc]
    rw [hflag, g3, s4, List.map_map, List.map_map]
    apply List.map_congr_left
    intro p _
    simp only [Function.comp, flagData, hkey]
    rw [decide_eq_true (by rw [hlong])]
    rfl

/-- Parameters of two exact fits, before and after a change of unit. -/
theorem fitted_follow [IsStrictOrderedRing K] (env env' : Env K) (hmin : FindsMinimum env) (hmin' : FindsMinimum env') (m : ForecastModel K) (used : Frame K)
    (c d : K) (hc : c ≠ 0) (act act' : Option (Frame K)) (k k' : Bool) (f f' : FitResult K) (hu : Unpinned m) (reg : Registry K)
    (val : List K → Int → Timestamp → K) {P : Frame K → Prop} (hm : LinearInParameters m reg val P) (hreg : Registered env.globalCache reg m)
    (hreg' : Registered env'.globalCache reg m) (h : fitModel env m used act k = .ok f) (h' : fitModel env' m (rescaled c d used) act' k' = .ok f')
    (hfit : f.isFit = true) (hfit' : f'.isFit = true) (hdate : used.hasDate = true) (hnd : (used.rows.map Row.x).Nodup) (hPu : P used) (x : Int) (t : Timestamp) :
    val f'.params x t = c * val f.params x t + d := by
  have hst := (C30_status _ m used _ _ f h).2.2
  have hlong := hst.1.1 (.inl (hst.2.2.1 hfit))
  obtain ⟨l1, l2, hfv⟩ := C74_fitted _ _ hmin hmin' m used c d hc _ _ _ _ f f' hu hm.params h h' hfit hfit' val reg hreg hreg' (by
    intro ctx p a1 a2 a3 a4
    rw [hdate, if_pos rfl] at a3
    rw [hm.value ctx _ _ p a2 a3 (by simp) a4 a1 (fit_nonempty _ m used _ _ f h hfit), List.zipWith_map, List.zipWith_self]) hm.free hm.straight hm.follows
  obtain ⟨T, hT⟩ := hm.follows c d
  obtain ⟨t1, t2⟩ := hT _ l1
  rw [← t2]
  refine hm.determined used hPu _ _ l2 t1 hdate hnd hlong.1 hlong.2 ?_ _ _
  intro q hq
  rw [hfv q hq, t2]

theorem piSingle_selected [FloorRing K] (draw : Nat → Nat → Nat) (t t' : FTable K) (h1 : t'.numDate = t.numDate) (h2 : t'.hasSource = t.hasSource)
    (h3 : t'.hasWeight = t.hasWeight) (h4 : selectRows t' = selectRows t) (nSims : Nat) (nCum : Int) (q1 q2 : K) :
    piSingle draw t' nSims nCum q1 q2 = piSingle draw t nSims nCum q1 q2 := by
  have e1 : ∀ rows, cumPeriod t' rows nCum = cumPeriod t rows nCum := by
    intro rows
    unfold cumPeriod
    rw [h1]
  have e2 : ∀ rows, actualsFiltered t' rows = actualsFiltered t rows := by
    intro rows
    unfold actualsFiltered anyZeroWeight
    rw [h2, h3]
  unfold piSingle
  dsimp only
  rw [h4, e1, e2, h2]

/-- The whole forecast table follows if the returned forecast is that of `m` in both runs. -/
theorem follow_table [FloorRing K] [IsStrictOrderedRing K] (w w' : World K) (args args' : RunArgs K) (source : String) (df : Frame K) (c d : K)
    (hc : c ≠ 0) (res res' : RunResult K) (h : runSingle w args source df = .ok res) (h' : runSingle w' args' source (rescaled c d df) = .ok res')
    (hargs : args'.start = args.start ∧ args'.findOutliers = args.findOutliers ∧ args'.years = args.years ∧ args'.nCum = args.nCum ∧
      args'.q1 = args.q1 ∧ args'.q2 = args.q2 ∧ args'.widening = args.widening) (hdraw : w'.draw source = w.draw source)
    (hmin : ∀ i, FindsMinimum (w.env source i)) (hmin' : ∀ i, FindsMinimum (w'.env source i))
    (m : ForecastModel K) (hma : m.name ≠ "actuals") (hu : Unpinned m) (reg : Registry K) (val : List K → Int → Timestamp → K) {P : Frame K → Prop} (hm : LinearInParameters m reg val P)
    (hreg : ∀ i, Registered (w.env source i).globalCache reg m) (hreg' : ∀ i, Registered (w'.env source i).globalCache reg m)
    (hcand : ∀ df' cand, candidates w.ch args.models df' (runFreq df) = .ok cand → ∀ m' ∈ cand.2, m'.name = m.name → m' = m)
    (hcand' : ∀ df' cand, candidates w'.ch args'.models df' (runFreq df) = .ok cand → ∀ m' ∈ cand.2, m'.name = m.name → m' = m)
    (hnames : ∀ df' cand, candidates w.ch args.models df' (runFreq df) = .ok cand → (cand.2.map ForecastModel.name).Nodup)
    (hnames' : ∀ df' cand, candidates w'.ch args'.models df' (runFreq df) = .ok cand → (cand.2.map ForecastModel.name).Nodup)
    (hdate : df.hasDate = true) (hnd : (df.rows.map Row.x).Nodup)
    (hb : ∃ r ∈ res.data, r.isActuals = false ∧ r.isBest = true ∧ r.model = m.name)
    (hb' : ∃ r ∈ res'.data, r.isActuals = false ∧ r.isBest = true ∧ r.model = m.name)
    (hP : ∀ df2, applyOutliers args.findOutliers (filterStart args.start df) = .ok df2 → P (usedRows (defaultWeights df2).1) := by intros; trivial) :
    res'.forecast = res.forecast.map (if 0 < c then intervalMoved c fun _ => d else intervalMirrored c fun _ => d) := by
  have hlen : ∀ (env : Env K), FindsMinimum env → ∀ (used : Frame K) act cc f, fitModel env m used act cc = .ok f → f.isFit = true →
      f.params.length = m.nParams := by
    intro env he used act cc f e hf
    obtain ⟨-, ctx, guess, b, r, -, -, -, h4, h5, h6, h7, -⟩ := fitModel_solver _ m _ _ _ f hu hm.params e hf
    rw [h7]
    exact (hm.free _ _ _ h4).1 (he _ _ _ _ h5 h6).1
  have hval := fun (ctx : Ctx K) xs ds p h1 h2 h3 h4 (h5 : ∀ k, ctx.cache k = none) h6 =>
    hm.value ctx xs ds p h1 h2 h3 h4 (by intro k v hk; rw [h5] at hk; cases hk) h6
  have hfreq : runFreq (rescaled c d df) = runFreq df := by
    unfold runFreq
    have : (rescaled c d df).rows.map Row.date = df.rows.map Row.date := by simp [rescaled, Function.comp_def]
    have h1 : (rescaled c d df).hasDate = df.hasDate := rfl
    rw [this, h1]
  obtain ⟨df2, i, f, act, start, x0, sx, hOut, e2, hfit, s1, s2, s3, s4⟩ := selected_rows w args source df res h m hma hcand hnames hb hdate val hval
    (fun i used act f e hf => hlen _ (hmin i) used act _ f e hf)
  obtain ⟨df2', i', f', act', start', x0', sx', hOut', e2', hfit', s1', s2', s3', s4'⟩ := selected_rows w' args' source _ res' h' m hma
    (by rw [hfreq]; exact hcand') (by rw [hfreq]; exact hnames') hb' hdate val hval (fun i used act f e hf => hlen _ (hmin' i) used act _ f e hf)
  obtain ⟨a1, a2, a3, a4, a5, a6, a7⟩ := hargs
  rw [a1, a2, filterStart_rescaled, applyOutliers_rescaled c d hc, hOut] at hOut'
  have hOut' := (Except.ok.inj hOut').symm
  subst hOut'
  rw [defaultWeights_rescaled, usedRows_rescaled] at e2'
  rw [defaultWeights_rescaled] at s1' s2' s3' s4'
  rw [usedRows_rescaled] at s1' s2'
  have hax : ∀ g : Frame K, axisOf (rescaled c d g) = axisOf g := by
    intro g
    unfold axisOf rescaled
    simp only [List.map_map]
    rfl
  have hxs : ∀ g : Frame K, (rescaled c d g).rows.map Row.x = g.rows.map Row.x := by
    intro g
    unfold rescaled
    simp only [List.map_map]
    rfl
  rw [hax, s1] at s1'
  rw [hxs, s2] at s2'
  cases s1'
  cases s2'
  rw [hax, hfreq, a3, s3] at s3'
  cases s3'
  obtain ⟨u1, u2, u3, u4, u5⟩ := used_rows args.findOutliers args.start df df2 hOut
  have hsub : ((usedRows (defaultWeights df2).1).rows.map Row.x).Sublist (df.rows.map Row.x) := by
    have h1 : ((usedRows (defaultWeights df2).1).rows.map Row.x).Sublist ((defaultWeights df2).1.rows.map Row.x) :=
      List.Sublist.map _ List.filter_sublist
    rw [u4] at h1
    exact h1.trans (List.Sublist.map _ List.filter_sublist)
  have hfol := fitted_follow _ _ (hmin i) (hmin' i') m _ c d hc _ _ _ _ f f' hu reg val hm (hreg i) (hreg' i') e2 e2' hfit hfit' (by rw [u1, hdate])
    (hsub.nodup hnd) (hP df2 hOut)
  have hrows : selectRows (toFTable (rescaled c d df).hasDate res'.data) = selectRows (valuesMoved c (fun _ => d) (toFTable df.hasDate res.data)) := by
    rw [selectRows_moved, s4, s4', List.map_append, List.map_map]
    congr 1
    · unfold rescaled
      simp only [List.map_map]
      rfl
    · rw [List.map_map]
      apply List.map_congr_left
      intro p _
      simp only [Function.comp, movedF, hfol, Option.map_some]
  obtain ⟨-, -, -, -, hpi⟩ := runSingle_inv w args source df res h
  obtain ⟨-, -, -, -, hpi'⟩ := runSingle_inv w' args' source _ res' h'
  rw [getPi_one_source _ _ _ source (run_sources w args source df res h).1] at hpi
  rw [getPi_one_source _ _ _ source (run_sources w' args' source _ res' h').1, hdraw, a4, a5, a6, a7,
    piSingle_selected _ (valuesMoved c (fun _ => d) (toFTable df.hasDate res.data)) (toFTable (rescaled c d df).hasDate res'.data) rfl rfl rfl hrows, single_moved c hc, hpi] at hpi'
  have := (Except.ok.inj hpi').symm
  rw [this]
  apply List.map_congr_left
  intro r _
  unfold moveOf
  split_ifs <;> rfl

/-- **C91.** If the returned forecast is the linear trend in both runs, all columns of the forecast table follow, `c * y + d`, with the quantile columns in reverse order for
negative `c`. Samples have different coordinates; both solvers find the minimum; the random draws are the same. -/
theorem C91_line [FloorRing K] [IsStrictOrderedRing K] (w w' : World K) (args args' : RunArgs K) (source : String) (df : Frame K) (c d : K)
    (hc : c ≠ 0) (res res' : RunResult K) (h : runSingle w args source df = .ok res) (h' : runSingle w' args' source (rescaled c d df) = .ok res')
    (hargs : args'.start = args.start ∧ args'.findOutliers = args.findOutliers ∧ args'.years = args.years ∧ args'.nCum = args.nCum ∧
      args'.q1 = args.q1 ∧ args'.q2 = args.q2 ∧ args'.widening = args.widening) (hdraw : w'.draw source = w.draw source)
    (hmin : ∀ i, FindsMinimum (w.env source i)) (hmin' : ∀ i, FindsMinimum (w'.env source i))
    (hcand : ∀ df' cand, candidates w.ch args.models df' (runFreq df) = .ok cand → ∀ m ∈ cand.2, m.name = "linear" → m = modelLinear)
    (hcand' : ∀ df' cand, candidates w'.ch args'.models df' (runFreq df) = .ok cand → ∀ m ∈ cand.2, m.name = "linear" → m = modelLinear)
    (hnames : ∀ df' cand, candidates w.ch args.models df' (runFreq df) = .ok cand → (cand.2.map ForecastModel.name).Nodup)
    (hnames' : ∀ df' cand, candidates w'.ch args'.models df' (runFreq df) = .ok cand → (cand.2.map ForecastModel.name).Nodup)
    (hdate : df.hasDate = true) (hnd : (df.rows.map Row.x).Nodup)
    (hb : ∃ r ∈ res.data, r.isActuals = false ∧ r.isBest = true ∧ r.model = "linear")
    (hb' : ∃ r ∈ res'.data, r.isActuals = false ∧ r.isBest = true ∧ r.model = "linear") :
    res'.forecast = res.forecast.map (if 0 < c then intervalMoved c fun _ => d else intervalMirrored c fun _ => d) := by
  refine follow_table w w' args args' source df c d hc res res' h h' hargs hdraw hmin hmin' modelLinear (show "linear" ≠ "actuals" by decide) linear_unpinned (fun _ => none) lineValue
    linear_inParameters ?_ ?_ hcand hcand' hnames hnames' hdate hnd hb hb'
  all_goals
    intro i
    constructor <;> simp [modelLinear, mkModel]

/-- **C91.** As `C91_line`, for the linear trend with weekly seasonality. -/
theorem C91_weekly [FloorRing K] [IsStrictOrderedRing K] (w w' : World K) (args args' : RunArgs K) (source : String) (df : Frame K) (c d : K)
    (hc : c ≠ 0) (res res' : RunResult K) (h : runSingle w args source df = .ok res) (h' : runSingle w' args' source (rescaled c d df) = .ok res')
    (hargs : args'.start = args.start ∧ args'.findOutliers = args.findOutliers ∧ args'.years = args.years ∧ args'.nCum = args.nCum ∧
      args'.q1 = args.q1 ∧ args'.q2 = args.q2 ∧ args'.widening = args.widening) (hdraw : w'.draw source = w.draw source)
    (hmin : ∀ i, FindsMinimum (w.env source i)) (hmin' : ∀ i, FindsMinimum (w'.env source i))
    (hcache : ∀ i f, (w.env source i).globalCache "a_weekday" = some f → f = cacheWeekday)
    (hcache' : ∀ i f, (w'.env source i).globalCache "a_weekday" = some f → f = cacheWeekday)
    (hcand : ∀ df' cand, candidates w.ch args.models df' (runFreq df) = .ok cand → ∀ m ∈ cand.2, m.name = "(linear+season_wday)" → m = modelLinear.add modelSeasonWday)
    (hcand' : ∀ df' cand, candidates w'.ch args'.models df' (runFreq df) = .ok cand → ∀ m ∈ cand.2, m.name = "(linear+season_wday)" → m = modelLinear.add modelSeasonWday)
    (hnames : ∀ df' cand, candidates w.ch args.models df' (runFreq df) = .ok cand → (cand.2.map ForecastModel.name).Nodup)
    (hnames' : ∀ df' cand, candidates w'.ch args'.models df' (runFreq df) = .ok cand → (cand.2.map ForecastModel.name).Nodup)
    (hdate : df.hasDate = true) (hnd : (df.rows.map Row.x).Nodup)
    (hb : ∃ r ∈ res.data, r.isActuals = false ∧ r.isBest = true ∧ r.model = "(linear+season_wday)")
    (hb' : ∃ r ∈ res'.data, r.isActuals = false ∧ r.isBest = true ∧ r.model = "(linear+season_wday)") :
    res'.forecast = res.forecast.map (if 0 < c then intervalMoved c fun _ => d else intervalMirrored c fun _ => d) := 
  follow_table w w' args args' source df c d hc res res' h h' hargs hdraw hmin hmin' weeklyModel (by rw [weekly_name]; decide) weekly_unpinned weeklyReg weeklyValue
    weekly_inParameters (fun i => weekly_registered _ (hcache i)) (fun i => weekly_registered _ (hcache' i)) (by rw [weekly_name]; exact hcand)
    (by rw [weekly_name]; exact hcand') hnames hnames' hdate hnd (by rw [weekly_name]; exact hb) (by rw [weekly_name]; exact hb')

/-- **C91.** As `C91_line`, for the constant model. -/
theorem C91_constant [FloorRing K] [IsStrictOrderedRing K] (w w' : World K) (args args' : RunArgs K) (source : String) (df : Frame K) (c d : K)
    (hc : c ≠ 0) (res res' : RunResult K) (h : runSingle w args source df = .ok res) (h' : runSingle w' args' source (rescaled c d df) = .ok res')
    (hargs : args'.start = args.start ∧ args'.findOutliers = args.findOutliers ∧ args'.years = args.years ∧ args'.nCum = args.nCum ∧
      args'.q1 = args.q1 ∧ args'.q2 = args.q2 ∧ args'.widening = args.widening) (hdraw : w'.draw source = w.draw source)
    (hmin : ∀ i, FindsMinimum (w.env source i)) (hmin' : ∀ i, FindsMinimum (w'.env source i))
    (hcand : ∀ df' cand, candidates w.ch args.models df' (runFreq df) = .ok cand → ∀ m ∈ cand.2, m.name = "constant" → m = modelConstant)
    (hcand' : ∀ df' cand, candidates w'.ch args'.models df' (runFreq df) = .ok cand → ∀ m ∈ cand.2, m.name = "constant" → m = modelConstant)
    (hnames : ∀ df' cand, candidates w.ch args.models df' (runFreq df) = .ok cand → (cand.2.map ForecastModel.name).Nodup)
    (hnames' : ∀ df' cand, candidates w'.ch args'.models df' (runFreq df) = .ok cand → (cand.2.map ForecastModel.name).Nodup)
    (hdate : df.hasDate = true) (hnd : (df.rows.map Row.x).Nodup)
    (hb : ∃ r ∈ res.data, r.isActuals = false ∧ r.isBest = true ∧ r.model = "constant")
    (hb' : ∃ r ∈ res'.data, r.isActuals = false ∧ r.isBest = true ∧ r.model = "constant") :
    res'.forecast = res.forecast.map (if 0 < c then intervalMoved c fun _ => d else intervalMirrored c fun _ => d) := by
  refine follow_table w w' args args' source df c d hc res res' h h' hargs hdraw hmin hmin' modelConstant (show "constant" ≠ "actuals" by decide) constant_unpinned (fun _ => none) levelValue
    constant_inParameters ?_ ?_ hcand hcand' hnames hnames' hdate hnd hb hb'
  all_goals
    intro i
    constructor <;> simp [modelConstant, mkModel]

/-! ### Examples -/

/-- A run on the scattered samples with the parameters `p`. -/
def scatterOf (p : List ℚ) (df : Frame ℚ) : Option (RunResult ℚ) :=
  (runSingle { demoWorld with env := fun _ _ => givenEnv p } (demoArgs [modelLinear] (some [])) "s" df).toOption

/-- Least squares gives `55/31 * x + 13/31`, and `-2` times that plus 3 for the values `3 - 2 * y`. The last day, with its quantiles. -/
example : ((scatterOf [55 / 31, 13 / 31] scatterFrame).map fun r => (r.data.filter fun q => !q.isActuals && q.isBest).map (fun q => q.model)) =
      some (List.replicate 8 "linear") ∧
    ((scatterOf [-(110 / 31), 67 / 31] (rescaled (-2) 3 scatterFrame)).map fun r => r.forecast) =
      (scatterOf [55 / 31, 13 / 31] scatterFrame).map fun r => r.forecast.map (intervalMirrored (-2) fun _ => 3) := by decide +kernel

end Anticipy
