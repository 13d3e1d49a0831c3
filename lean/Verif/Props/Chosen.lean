import Verif.Spec.Chosen
import Verif.Props.MoreModels
import Verif.Props.EachSeries
import Verif.Props.UnitChoice

/-
C121: the model that was chosen gives the same result if it is offered alone.
-/
namespace Anticipy
open Spec
variable {K : Type} [Field K] [LinearOrder K]

/-- Rows of a forecast carry the name of the model and the description of the fit. -/
theorem forecastRows_label (s : FitSetup K) (m : ForecastModel K) (f : FitResult K) (rows : List (DRow K)) (h : forecastRows s m f = .ok rows) :
    ∀ r ∈ rows, r.long = (metaRow s m f).long ∧ r.model = m.name ∧ r.isActuals = false := by
  unfold forecastRows at h
  split_ifs at h
  · cases h1 : listMin (axisOf s.used) with
    | none => rw [h1] at h; cases h
    | some a =>
      cases h2 : listMin (s.used.rows.map Row.x) with
      | none => rw [h1, h2] at h; cases h
      | some b =>
        rw [h1, h2] at h
        simp only [bind, Except.bind] at h
        cases h3 : extrapolate m f.params s.used.hasDate a s.stop s.freq s.years b s.actuals with
        | error e => rw [h3] at h; cases h
        | ok l =>
          rw [h3] at h
          cases h
          intro r hr
          unfold fcastClean at hr
          obtain ⟨p, -, rfl⟩ := List.mem_map.1 hr
          exact ⟨rfl, rfl, rfl⟩
  · cases h
    intro r hr
    cases hr

/-- No row of a loop over models carries a name that was not offered. -/
theorem fitLoop_foreign (env : Nat → Env K) (s : FitSetup K) (n : String) :
    ∀ (l : List (ForecastModel K)) (i : Nat) (out : List (MRow K) × List (DRow K)), fitLoop env s i l = .ok out → (∀ m ∈ l, Unpinned m) → n ∉ l.map ForecastModel.name →
    (∀ r ∈ out.1, r.model ≠ n) ∧ ∀ r ∈ out.2, r.model ≠ n := by
  intro l i out h hu hn
  obtain ⟨h1, h2, h3⟩ := fitLoop_spec _ _ _ _ _ h
  constructor
  · intro r hr e
    obtain ⟨k, hk, hk'⟩ := List.getElem_of_mem hr
    have hlt : k < l.length := by omega
    obtain ⟨f, rows, e1, -, e3, -⟩ := h2 k _ (List.getElem?_eq_getElem hlt)
    rw [List.getElem?_eq_getElem hk, hk'] at e3
    cases e3
    refine hn (List.mem_map.2 ⟨l[k], List.getElem_mem hlt, ?_⟩)
    rw [← e]
    exact (fit_unpinned _ _ _ _ _ _ (hu _ (List.getElem_mem hlt)) e1).symm
  · intro r hr e
    obtain ⟨k, m, f, rows, e1, -, e3, e4⟩ := h3 r hr
    exact hn (List.mem_map.2 ⟨m, List.mem_of_getElem? e1, by rw [← e]; exact ((forecastRows_label s m f rows e3 r e4).2.1).symm⟩)

/-- The rows of one of the models of a loop. -/
theorem fitLoop_named (env : Nat → Env K) (s : FitSetup K) (m : ForecastModel K) (f : FitResult K) (rows : List (DRow K)) (hrows : forecastRows s m f = .ok rows) :
    ∀ (l : List (ForecastModel K)) (i k : Nat) (out : List (MRow K) × List (DRow K)), fitLoop env s i l = .ok out → (∀ m ∈ l, Unpinned m) → (l.map ForecastModel.name).Nodup →
    l[k]? = some m → fitModel (env (i + k)) m s.used (some s.actuals) s.useCache = .ok f →
    out.1.filter (fun r => decide ((r.long, r.model) = ((metaRow s m f).long, m.name))) = [metaRow s m f] ∧
    out.2.filter (fun r => decide ((r.long, r.model) = ((metaRow s m f).long, m.name))) = rows := by
  intro l
  induction l with
  | nil => intro i k out _ _ _ hk; simp at hk
  | cons a l ih =>
    intro i k out h hu hnd hk hf
    have hnd' := List.nodup_cons.1 (show (a.name :: l.map ForecastModel.name).Nodup from hnd)
    unfold fitLoop at h
    simp only [bind, Except.bind] at h
    cases h1 : fitModel (env i) a s.used (some s.actuals) s.useCache with
    | error e => rw [h1] at h; cases h
    | ok g =>
      rw [h1] at h
      dsimp only at h
      cases h2 : forecastRows s a g with
      | error e => rw [h2] at h; cases h
      | ok d =>
        rw [h2] at h
        dsimp only at h
        cases h3 : fitLoop env s (i + 1) l with
        | error e => rw [h3] at h; cases h
        | ok out' =>
          rw [h3] at h
          cases h
          have hg := fit_unpinned _ _ _ _ _ _ (hu a (.head _)) h1
          cases k with
          | zero =>
            cases hk
            rw [Nat.add_zero, h1] at hf
            cases hf
            rw [hrows] at h2
            cases h2
            obtain ⟨q1, q2⟩ := fitLoop_foreign env s m.name l (i + 1) out' h3 (fun x hx => hu x (.tail _ hx)) hnd'.1
            constructor
            · rw [List.filter_cons_of_pos (by simp only [decide_eq_true_eq]; exact Prod.ext rfl hg)]
              rw [List.filter_eq_nil_iff.2 fun r hr e => q1 r hr (congrArg Prod.snd (of_decide_eq_true e))]
            · rw [List.filter_append, List.filter_eq_nil_iff.2 fun r hr e => q2 r hr (congrArg Prod.snd (of_decide_eq_true e)), List.append_nil]
              refine List.filter_eq_self.2 fun r hr => decide_eq_true ?_
              obtain ⟨e1, e2, -⟩ := forecastRows_label s m f rows hrows r hr
              rw [e1, e2]
          | succ k =>
            have hk : l[k]? = some m := by simpa using hk
            have hne : a.name ≠ m.name := fun e => hnd'.1 (by rw [e]; exact List.mem_map.2 ⟨m, List.mem_of_getElem? hk, rfl⟩)
            obtain ⟨q1, q2⟩ := ih (i + 1) k out' h3 (fun x hx => hu x (.tail _ hx)) hnd'.2 hk (by rw [← hf]; congr 2; omega)
            constructor
            · rw [List.filter_cons_of_neg, q1]
              intro e
              exact hne (hg.symm.trans (congrArg Prod.snd (of_decide_eq_true e)))
            · rw [List.filter_append, q2, List.filter_eq_nil_iff.2, List.nil_append]
              intro r hr e
              exact hne ((forecastRows_label s a g d h2 r hr).2.1.symm.trans (congrArg Prod.snd (of_decide_eq_true e)))

theorem candidates_offering (ch : Choices K) (m : ForecastModel K) (mode : AddMult) (hmode : mode = .add ∨ mode = .mult) (df : Frame K) (fr : Option Freq) :
    candidates ch ⟨some [m], some [], mode, none, none, some [], none⟩ df fr = .ok (mode, [m]) := by
  rcases hmode with rfl | rfl <;> rfl

theorem modelAddMult_cases (m : ForecastModel K) (mode : AddMult) (l : List (ForecastModel K)) : modelAddMult m mode l = .add ∨ modelAddMult m mode l = .mult := by
  unfold modelAddMult
  split
  · exact .inl rfl
  · exact .inr rfl
  · split_ifs
    · exact .inl rfl
    · exact .inr rfl

theorem modelAddMult_given (m : ForecastModel K) (mode : AddMult) (hmode : mode = .add ∨ mode = .mult) (l : List (ForecastModel K)) : modelAddMult m mode l = mode := by
  rcases hmode with rfl | rfl <;> rfl

theorem bestKey_single (srt : SortAlg) (r : MRow K) (hf : r.isFit = true) : bestKey srt [r] = some (r.long, r.model) := by
  unfold bestKey
  have hp := srt.perm (fun a b : MRow K => aicLe a.aic b.aic) ([r].filter MRow.isFit)
  rw [show [r].filter MRow.isFit = [r] by simp [hf]] at hp ⊢
  rw [List.perm_singleton.1 hp]
  rfl

/-- Selected rows are those with the key of the best fit. -/
theorem select_key (key : SourceLong K × String) (A D : List (DRow K)) (M : List (MRow K)) (hA : ∀ r ∈ A, r.isActuals = true) (hD : ∀ r ∈ D, r.isActuals = false) :
    selectFits false (((A ++ D).map (flagData (some key)), M.map (flagMeta (some key)))) =
      ((A ++ D.filter fun r => decide ((r.long, r.model) = key)).map (flagData (some key)), (M.filter fun r => decide ((r.long, r.model) = key)).map (flagMeta (some key))) := by
  unfold selectFits
  rw [if_neg (by simp)]
  refine Prod.ext ?_ ?_
  · dsimp only
    rw [List.map_append, List.filter_append, List.map_append]
    congr 1
    · refine List.filter_eq_self.2 fun r hr => ?_
      obtain ⟨q, hq, rfl⟩ := List.mem_map.1 hr
      simp [flagData, hA q hq]
    · rw [List.filter_map]
      congr 1
      refine List.filter_congr fun r hr => ?_
      simp only [Function.comp, flagData, hD r hr, Bool.or_false, Option.some.injEq]
      exact decide_eq_decide.2 eq_comm
  · dsimp only
    rw [List.filter_map]
    congr 1
    refine List.filter_congr fun r hr => ?_
    simp only [Function.comp, flagMeta, Option.some.injEq]
    exact decide_eq_decide.2 eq_comm

section
variable [FloorRing K]

/-- **C121.** The model that was chosen gives exactly the same result if it is offered alone, with the composition that was reported. -/
theorem C121_alone (w : World K) (args : RunArgs K) (source : String) (df : Frame K) (hdet : ∀ i j, w.env source i = w.env source j) (hall : args.includeAll = false)
    (hcand : ∀ dg cand, candidates w.ch args.models dg (runFreq df) = .ok cand → (cand.2.map ForecastModel.name).Nodup ∧ ∀ m ∈ cand.2, Unpinned m)
    (res : RunResult K) (h : runSingle w args source df = .ok res) (b : MRow K) (hb : b ∈ res.metadata) :
    ∃ m, (∃ dg cand, candidates w.ch args.models dg (runFreq df) = .ok cand ∧ m ∈ cand.2) ∧ m.name = b.model ∧ res.metadata = [b] ∧
      runSingle w (offering args m b.addMult) source df = .ok res := by
  obtain ⟨d, hd, hdata, hmeta, hpi⟩ := runSingle_inv w args source df res h
  obtain ⟨st⟩ := runFits_stages w args source df d hd
  obtain ⟨df2, range, cand, actuals, fits, hOut, hRange, hCand, hAct, hFits, hNe, hd'⟩ := st
  obtain ⟨hnd, hu⟩ := hcand _ _ hCand
  rw [hall] at hdata hmeta
  obtain ⟨s1, s2, s3⟩ := fitLoop_spec _ _ _ _ _ hFits
  -- the best fit
  cases hk : bestKey w.srt fits.1 with
  | none =>
    rw [hd', hk] at hmeta
    rw [hmeta] at hb
    have := (List.mem_filter.1 hb)
    obtain ⟨q, -, rfl⟩ := List.mem_map.1 this.1
    simp [flagMeta] at this
  | some key =>
    obtain ⟨r0, hr0, hr0f, rfl, -⟩ := (bestKey_spec w.srt fits.1).2 key hk
    obtain ⟨k, hkl, hkr⟩ := List.getElem_of_mem hr0
    have hlt : k < cand.2.length := by omega
    obtain ⟨f, rows, e1, e2, e3, -⟩ := s2 k _ (List.getElem?_eq_getElem hlt)
    rw [List.getElem?_eq_getElem hkl, hkr] at e3
    have e3 := Option.some.inj e3
    generalize hm : cand.2[k] = m at e1 e2 e3
    have hmem : m ∈ cand.2 := hm ▸ List.getElem_mem hlt
    have hget : cand.2[k]? = some m := by rw [List.getElem?_eq_getElem hlt, hm]
    have hname := fit_unpinned _ _ _ _ _ _ (hu m hmem) e1
    obtain ⟨o1, o2⟩ := fitLoop_named _ _ m f rows e2 cand.2 0 k fits hFits hu hnd hget e1
    have hkey : (r0.long, r0.model) = ((metaRow (mkSetup w args source df (defaultWeights df2).1 (defaultWeights df2).2 cand.1 actuals) m f).long, m.name) := by
      rw [e3]; exact Prod.ext rfl hname
    have hD : ∀ r ∈ fits.2, r.isActuals = false := by
      intro r hr
      obtain ⟨_, _, _, _, -, -, g3, g4⟩ := s3 r hr
      exact (forecastRows_label _ _ _ _ g3 r g4).2.2
    have hA : ∀ r ∈ actualsClean (defaultWeights df2).1 source ⟨(defaultWeights df2).2, runFreq df, range⟩, r.isActuals = true := by
      intro r hr
      unfold actualsClean at hr
      obtain ⟨_, -, rfl⟩ := List.mem_map.1 hr
      rfl
    rw [hd', hk, select_key _ _ _ _ hA hD, hkey, o1, o2] at hdata hmeta
    dsimp only at hdata hmeta
    rw [hmeta, List.map_singleton, List.mem_singleton] at hb
    refine ⟨m, ⟨_, _, hCand, hmem⟩, ?_, by rw [hmeta, hb]; rfl, ?_⟩
    · rw [hb]; exact hname.symm
    -- the second run
    have hba : b.addMult = modelAddMult m cand.1 (composedModels w.ch args.models (defaultWeights df2).1 false) := by rw [hb]; rfl
    have hmode : b.addMult = .add ∨ b.addMult = .mult := by rw [hba]; exact modelAddMult_cases _ _ _
    have hloop : fitLoop (w.env source) (mkSetup w (offering args m b.addMult) source df (defaultWeights df2).1 (defaultWeights df2).2 b.addMult actuals) 0 [m] =
        .ok ([metaRow (mkSetup w args source df (defaultWeights df2).1 (defaultWeights df2).2 cand.1 actuals) m f], rows) := by
      have g1 : fitModel (w.env source 0) m (usedRows (defaultWeights df2).1) (some actuals) args.useCache = .ok f := by rw [hdet 0 (0 + k)]; exact e1
      unfold fitLoop
      simp only [bind, Except.bind]
      rw [show fitModel (w.env source 0) m (mkSetup w (offering args m b.addMult) source df (defaultWeights df2).1 (defaultWeights df2).2 b.addMult actuals).used
        (some (mkSetup w (offering args m b.addMult) source df (defaultWeights df2).1 (defaultWeights df2).2 b.addMult actuals).actuals)
        (mkSetup w (offering args m b.addMult) source df (defaultWeights df2).1 (defaultWeights df2).2 b.addMult actuals).useCache = .ok f from g1]
      dsimp only
      rw [forecastRows_same (mkSetup w args source df (defaultWeights df2).1 (defaultWeights df2).2 cand.1 actuals) (mkSetup w (offering args m b.addMult) source df (defaultWeights df2).1 (defaultWeights df2).2 b.addMult actuals) m f rfl rfl rfl rfl rfl rfl, e2]
      dsimp only
      unfold fitLoop
      dsimp only
      rw [List.append_nil, metaRow_same (mkSetup w args source df (defaultWeights df2).1 (defaultWeights df2).2 cand.1 actuals) (mkSetup w (offering args m b.addMult) source df (defaultWeights df2).1 (defaultWeights df2).2 b.addMult actuals) m f rfl rfl rfl
        ((modelAddMult_given m _ hmode _).trans hba)]
    have hbk := bestKey_single w.srt (metaRow (mkSetup w args source df (defaultWeights df2).1 (defaultWeights df2).2 cand.1 actuals) m f) (by rw [← e3]; exact hr0f)
    have hfits : runFits w (offering args m b.addMult) source df = .ok
        ((actualsClean (defaultWeights df2).1 source ⟨(defaultWeights df2).2, runFreq df, range⟩ ++ rows).map (flagData (some (r0.long, r0.model))),
          [metaRow (mkSetup w args source df (defaultWeights df2).1 (defaultWeights df2).2 cand.1 actuals) m f].map (flagMeta (some (r0.long, r0.model)))) := by
      unfold runFits
      simp only [bind, Except.bind]
      rw [show applyOutliers (offering args m b.addMult).findOutliers (filterStart (offering args m b.addMult).start df) = .ok df2 from hOut]
      dsimp only
      rw [hRange]
      dsimp only
      rw [show candidates w.ch (offering args m b.addMult).models (defaultWeights df2).1 (runFreq df) = .ok (b.addMult, [m]) from candidates_offering w.ch m _ hmode _ _]
      dsimp only
      rw [hAct]
      dsimp only
      rw [hloop]
      dsimp only
      rw [if_neg (by simp), hbk, e3]
    unfold runSingle
    simp only [bind, Except.bind]
    rw [hfits]
    dsimp only
    rw [show (offering args m b.addMult).includeAll = false from hall]
    have hsel := select_key (r0.long, r0.model) (actualsClean (defaultWeights df2).1 source ⟨(defaultWeights df2).2, runFreq df, range⟩) rows
      [metaRow (mkSetup w args source df (defaultWeights df2).1 (defaultWeights df2).2 cand.1 actuals) m f] hA (fun r hr => (forecastRows_label _ _ _ _ e2 r hr).2.2)
    have hsel : selectFits false
        ((actualsClean (defaultWeights df2).1 source ⟨(defaultWeights df2).2, runFreq df, range⟩ ++ rows).map (flagData (some (r0.long, r0.model))),
          [metaRow (mkSetup w args source df (defaultWeights df2).1 (defaultWeights df2).2 cand.1 actuals) m f].map (flagMeta (some (r0.long, r0.model)))) = (res.data, res.metadata) := by
      rw [hsel, hdata, hmeta, hkey]
      refine Prod.ext ?_ ?_
      · dsimp only
        rw [← o2, List.filter_filter]
        simp only [Bool.and_self]
      · dsimp only
        rw [← o1, List.filter_filter]
        simp only [Bool.and_self]
    rw [hsel]
    rw [show getPi (w.draw source) (toFTable df.hasDate (res.data, res.metadata).1) 100 (offering args m b.addMult).nCum (offering args m b.addMult).q1 (offering args m b.addMult).q2
      (offering args m b.addMult).widening = .ok res.forecast from hpi]

/-- **C121, equal choice.** Two runs with different candidates that choose the same model (and report the same composition) have the same result, in all tables. -/
theorem C121_same (w : World K) (args : RunArgs K) (source : String) (df : Frame K) (models : ModelArgs K) (hdet : ∀ i j, w.env source i = w.env source j)
    (hall : args.includeAll = false)
    (hcand : ∀ dg cand, candidates w.ch args.models dg (runFreq df) = .ok cand → (cand.2.map ForecastModel.name).Nodup ∧ ∀ m ∈ cand.2, Unpinned m)
    (hcand' : ∀ dg cand, candidates w.ch models dg (runFreq df) = .ok cand → (cand.2.map ForecastModel.name).Nodup ∧ ∀ m ∈ cand.2, Unpinned m)
    (hname : ∀ dg cand dg' cand', candidates w.ch args.models dg (runFreq df) = .ok cand → candidates w.ch models dg' (runFreq df) = .ok cand' →
      ∀ m ∈ cand.2, ∀ m' ∈ cand'.2, m.name = m'.name → m = m')
    (res res' : RunResult K) (h : runSingle w args source df = .ok res) (h' : runSingle w { args with models := models } source df = .ok res')
    (b b' : MRow K) (hb : b ∈ res.metadata) (hb' : b' ∈ res'.metadata) (hm : b'.model = b.model) (ha : b'.addMult = b.addMult) : res' = res := by
  obtain ⟨m, ⟨dg, cand, c1, c2⟩, c3, -, c4⟩ := C121_alone w args source df hdet hall hcand res h b hb
  obtain ⟨m', ⟨dg', cand', d1, d2⟩, d3, -, d4⟩ := C121_alone w { args with models := models } source df hdet hall hcand' res' h' b' hb'
  have e : m = m' := hname dg cand dg' cand' c1 d1 m c2 m' d2 (by rw [c3, d3, hm])
  subst e
  rw [show offering { args with models := models } m b'.addMult = offering args m b.addMult by rw [ha]; rfl, c4] at d4
  exact (Except.ok.inj d4).symm

/-- Runs on one table with different arguments see the same series. -/
theorem series_pair [IsStrictOrderedRing K] (w : World K) (args : RunArgs K) (id : String) (t : STable K) (res : RunResult K)
    (h : runForecast w args id t = .ok (some res)) (s : String) (hm : IsSeries t id s) :
    ∃ df : Frame K, runSingle w args s df = .ok (partOf t s res) ∧
      (∀ args', runForecast w args' id (if t.hasSource then only s t else t) = (runSingle w args' s df).map some) ∧
      ∀ args' res', runForecast w args' id t = .ok (some res') → runSingle w args' s df = .ok (partOf t s res') := by
  unfold IsSeries partOf at *
  have hn : ∃ t', normalizeDf w.srt t = .ok (some t') := by
    cases hn : normalizeDf w.srt t with
    | error e => unfold runForecast at h; rw [hn] at h; cases h
    | ok o =>
      cases o with
      | none => unfold runForecast at h; rw [hn] at h; cases h
      | some t' => exact ⟨t', rfl⟩
  obtain ⟨t', hn⟩ := hn
  obtain ⟨c1, c2, -, c3, c4, c5⟩ := C26_samples w.srt t t' hn
  cases hs : t.hasSource with
  | true =>
    rw [hs] at hm
    simp only [if_true] at hm ⊢
    have key : ∀ args' res', runForecast w args' id t = .ok (some res') →
        runSingle w args' s (frameOf t' (sourcePart t'.rows (some s))) = .ok (resultOf s res') := by
      intro args' res' h'
      have h1 := C47_independent w args' id t hs res' h' s hm
      rw [runForecast_only w args' id t t' hs hn s hm] at h1
      cases hr : runSingle w args' s (frameOf t' (sourcePart t'.rows (some s))) with
      | error e => rw [hr] at h1; cases h1
      | ok r => rw [hr] at h1; cases h1; rfl
    exact ⟨_, key args res h, fun args' => runForecast_only w args' id t t' hs hn s hm, key⟩
  | false =>
    rw [hs] at hm
    simp only [Bool.false_eq_true, if_false] at hm ⊢
    obtain ⟨rfl, hne⟩ := hm
    have key0 : ∀ args', runForecast w args' s t = (runSingle w args' s (frameOf t' t'.rows)).map some := by
      intro args'
      unfold runForecast
      rw [hn]
      simp only [bind, Except.bind, c4, hs, Bool.false_eq_true, if_false]
      cases runSingle w args' s (frameOf t' t'.rows) with
      | error e => rfl
      | ok r => rfl
    have key : ∀ args' res', runForecast w args' s t = .ok (some res') → runSingle w args' s (frameOf t' t'.rows) = .ok res' := by
      intro args' res' h'
      rw [key0] at h'
      cases hr : runSingle w args' s (frameOf t' t'.rows) with
      | error e => rw [hr] at h'; cases h'
      | ok r => rw [hr] at h'; cases h'; rfl
    exact ⟨_, key args res h, key0, key⟩

/-- **C121, tables.** For each series of a table: `run_forecast` on the rows of the series with nothing but the chosen model gives the part of the result that belongs to the
series, and so does the whole table with that model. -/
theorem C121_table [IsStrictOrderedRing K] (w : World K) (args : RunArgs K) (id : String) (t : STable K) (hdet : ∀ source i j, w.env source i = w.env source j)
    (hall : args.includeAll = false)
    (hcand : ∀ dg fr cand, candidates w.ch args.models dg fr = .ok cand → (cand.2.map ForecastModel.name).Nodup ∧ ∀ m ∈ cand.2, Unpinned m)
    (res : RunResult K) (h : runForecast w args id t = .ok (some res)) (s : String) (hm : IsSeries t id s) (b : MRow K) (hb : b ∈ (partOf t s res).metadata) :
    ∃ m : ForecastModel K, m.name = b.model ∧ (partOf t s res).metadata = [b] ∧
      runForecast w (offering args m b.addMult) id (if t.hasSource then only s t else t) = .ok (some (partOf t s res)) ∧
      ∀ res', runForecast w (offering args m b.addMult) id t = .ok (some res') → partOf t s res' = partOf t s res := by
  obtain ⟨df, h1, h2, h3⟩ := series_pair w args id t res h s hm
  obtain ⟨m, -, c3, c4, c5⟩ := C121_alone w args s df (hdet s) hall (fun dg cand hc => hcand dg _ cand hc) _ h1 b hb
  refine ⟨m, c3, c4, by rw [h2, c5]; rfl, fun res' h' => ?_⟩
  have := h3 _ res' h'
  rw [c5] at this
  exact (Except.ok.inj this).symm

end

theorem composed_nodup (ch : Choices K) (args : ModelArgs K) (df : Frame K) (mult : Bool) : ((composedModels ch args df mult).map ForecastModel.name).Nodup := by
  have key : ∀ l : List (ForecastModel K), ((dedupBy ForecastModel.name l).map ForecastModel.name).Nodup := fun l => List.pairwise_map.2 (dedupBy_keys_nodup _ _)
  unfold composedModels
  dsimp only
  split
  · exact key _
  · rename_i cal _
    by_cases hc : useCalendar df = true
    · rw [if_pos hc]
      exact key _
    · rw [if_neg hc]
      exact key _

/-- Candidates have distinct names if no naive models are asked for. -/
theorem candidates_nodup (ch : Choices K) (args : ModelArgs K) (df : Frame K) (fr : Option Freq) (hset : IsSet ch.setOrder) (hn : args.naive = some [])
    (cand : AddMult × List (ForecastModel K)) (h : candidates ch args df fr = .ok cand) : (cand.2.map ForecastModel.name).Nodup := by
  unfold candidates at h
  simp only [bind, Except.bind] at h
  cases e : resolveMode ch args df with
  | error x => rw [e] at h; cases h
  | ok mode =>
    rw [e] at h
    cases h
    dsimp only
    rw [((sortBy_perm nameLe _).map ForecastModel.name).nodup_iff, hn]
    simp only [Option.getD_some, List.nil_append]
    split
    · exact composed_nodup ch args df false
    · exact composed_nodup ch args df true
    · rw [((hset _).map ForecastModel.name).nodup_iff]
      exact List.pairwise_map.2 (dedupBy_keys_nodup _ _)

/-- Arguments with three candidates: the naive model, the straight line and the constant level. -/
def choiceArgs : RunArgs ℚ := { demoArgs [modelLinear, modelConstant] (some [modelNaive stableSort]) with includeAll := false }

theorem choice_candidates (dg : Frame ℚ) (fr : Option Freq) (cand : AddMult × List (ForecastModel ℚ)) (h : candidates demoWorld.ch choiceArgs.models dg fr = .ok cand) :
    (cand.2.map ForecastModel.name).Nodup ∧ ∀ m ∈ cand.2, Unpinned m := by
  cases h
  constructor
  · rw [((sortBy_perm nameLe _).map ForecastModel.name).nodup_iff]
    exact (by decide +kernel : (["naive", "linear", "constant"] : List String).Nodup)
  · intro m hm
    have hm : m ∈ [modelNaive stableSort, modelLinear, modelConstant] := (sortBy_perm nameLe _).mem_iff.1 hm
    simp only [List.mem_cons, List.not_mem_nil, or_false] at hm
    rcases hm with rfl | rfl | rfl <;> exact default_unpinned _ rfl

/-- For series "a" the straight line is chosen, for series "b" the naive model; both can be had without the other candidates. -/
example : ∃ res : RunResult ℚ, runForecast demoWorld choiceArgs "" demoTable = .ok (some res) ∧
    (res.metadata.map fun r => (r.source, r.model)) = [("a", "linear"), ("b", "naive")] ∧
    ∀ s ∈ ["a", "b"], ∀ b ∈ (partOf demoTable s res).metadata, ∃ m : ForecastModel ℚ, m.name = b.model ∧
      runForecast demoWorld (offering choiceArgs m b.addMult) "" (only s demoTable) = .ok (some (partOf demoTable s res)) := by
  have h1 : (runForecast demoWorld choiceArgs "" demoTable).toOption.map (fun o => o.map fun r => r.metadata.map fun r => (r.source, r.model)) =
    some (some [("a", "linear"), ("b", "naive")]) := by decide +kernel
  cases e : runForecast demoWorld choiceArgs "" demoTable with
  | error x => rw [e] at h1; cases h1
  | ok o =>
    cases o with
    | none => rw [e] at h1; cases h1
    | some res =>
      rw [e] at h1
      refine ⟨res, rfl, Option.some.inj (Option.some.inj h1), fun s hs b hb => ?_⟩
      have hm : IsSeries demoTable "" s := by
        show ∃ r ∈ demoTable.rows, r.source = some s
        simp only [List.mem_cons, List.not_mem_nil, or_false] at hs
        rcases hs with rfl | rfl
        · exact ⟨_, .tail _ (.head _), rfl⟩
        · exact ⟨_, .head _, rfl⟩
      obtain ⟨m, c1, -, c3, -⟩ := C121_table demoWorld choiceArgs "" demoTable (fun _ _ _ => rfl) rfl choice_candidates res e s hm b hb
      exact ⟨m, c1, c3⟩

/-- The straight line is chosen from three and from two candidates: the results are the same. -/
example : ((runForecast demoWorld choiceArgs "" (only "a" demoTable)).toOption.map fun o => o.map fun r => r.metadata.map MRow.model) = some (some ["linear"]) ∧
    runForecast demoWorld choiceArgs "" (only "a" demoTable) =
      runForecast demoWorld { demoArgs [modelLinear, modelConstant] (some []) with includeAll := false } "" (only "a" demoTable) := by
  constructor <;> decide +kernel

/-- The condition on the names is needed: a model offered twice is marked twice, and offered alone it appears once. -/
example : ((runSingle demoWorld { demoArgs [modelLinear] (some [modelNaive stableSort, modelNaive stableSort]) with includeAll := false } "s"
    ⟨true, false, [⟨0, 0, some 5, none⟩, ⟨DAY, 1, some 5, none⟩, ⟨2 * DAY, 2, some 5, none⟩, ⟨3 * DAY, 3, some 6, none⟩]⟩).toOption.map fun r => r.metadata.map MRow.model) =
      some ["naive", "naive"] := by
  decide +kernel

end Anticipy
