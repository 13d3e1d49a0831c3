import Verif.Props.UnitChoice

/-
C73, all models: which model is chosen does not depend on the solver or its random starting point.
-/
namespace Anticipy
open Spec
variable {K : Type} [Field K] [LinearOrder K]

/-- **C73, costs.** Two successful fits of any model to the same samples with exact solvers have the same cost and the same score. -/
theorem C73_cost [IsStrictOrderedRing K] (env env' : Env K) (hmin : FindsMinimum env) (hmin' : FindsMinimum env')
    (hg : env'.globalCache = env.globalCache) (ha : env'.aic = env.aic) (m : ForecastModel K) (hu : Unpinned m) (df : Frame K)
    (actuals : Option (Frame K)) (useCache : Bool) (f f' : FitResult K) (h : fitModel env m df actuals useCache = .ok f)
    (h' : fitModel env' m df actuals useCache = .ok f') (hf : f.isFit = true) (hf' : f'.isFit = true) :
    f'.cost = f.cost ∧ f'.aic = f.aic := by
  have hcost : f'.cost = f.cost := by
    by_cases hn : m.nParams = 0
    · obtain ⟨res, h1, h2, -⟩ := fitModel_noparams env m df actuals useCache f hu hn h hf
      obtain ⟨res', h1', h2', -⟩ := fitModel_noparams env' m _ _ useCache f' hu hn h' hf'
      rw [h1] at h1'
      have h1' := Except.ok.inj h1'
      rw [h2, h2', h1']
    · obtain ⟨-, ctx, guess, b, r, h1, h2, h3, h4, h5, h6, -, h8, -, h9, h10, -⟩ := fitModel_solver env m df actuals useCache f hu hn h hf
      obtain ⟨-, ctx', guess', b', r', h1', h2', h3', h4', h5', h6', -, h8', -, h9', h10', -⟩ := fitModel_solver env' m _ _ useCache f' hu hn h' hf'
      rw [← h1] at h1'
      rw [← h2] at h2'
      rw [← h3] at h3'
      rw [hg, h1', h2', h9] at h9'
      have h9' := Except.ok.inj h9'
      rw [hg, ← h10] at h10'
      have hctx : ctx' = ctx := by
        obtain ⟨a1, a2, a3, a4, a5⟩ := ctx'
        obtain ⟨b1, b2, b3, b4, b5⟩ := ctx
        simp only at h1' h2' h3' h9' h10'
        simp only [Ctx.mk.injEq]
        exact ⟨h1', h2', h3', h9'.symm, h10'⟩
      subst hctx
      rw [h4] at h4'
      have h4' := Except.ok.inj h4'
      subst h4'
      obtain ⟨p1, l, p2, p3, p4⟩ := hmin _ _ _ _ h5 h6
      obtain ⟨p1', l', p2', p3', p4'⟩ := hmin' _ _ _ _ h5' h6'
      have a2 := p4' _ _ p1 p2
      have a4 := p4 _ _ p1' p2'
      rw [h8, h8', p3, p3', le_antisymm a2 a4]
  refine ⟨hcost, ?_⟩
  have s1 := fitModel_score _ m _ _ _ f hu h hf
  have s2 := fitModel_score _ m _ _ _ f' hu h' hf'
  rw [ha, hcost, s1] at s2
  exact (Except.ok.inj s2).symm

/-- **C73, choice.** Two runs on the same series that differ in the solvers and random numbers: if the fits succeed for the same models and one model is
strictly better than all others in the first run, then it is the chosen one in the second run too. -/
theorem C73_choice [FloorRing K] [IsStrictOrderedRing K] (w w' : World K) (hw : w'.ch = w.ch ∧ w'.srt = w.srt) (args : RunArgs K) (source : String)
    (df : Frame K) (res res' : RunResult K) (hall : args.includeAll = true) (h : runSingle w args source df = .ok res)
    (h' : runSingle w' args source df = .ok res')
    (hmin : ∀ i, FindsMinimum (w.env source i)) (hmin' : ∀ i, FindsMinimum (w'.env source i))
    (hcache : ∀ i, (w'.env source i).globalCache = (w.env source i).globalCache) (haic : ∀ i, (w'.env source i).aic = (w.env source i).aic)
    (hmod : ∀ df' cand, candidates w.ch args.models df' (runFreq df) = .ok cand → ∀ m ∈ cand.2, Unpinned m)
    (hsame : res'.metadata.map MRow.isFit = res.metadata.map MRow.isFit)
    (b : MRow K) (hb : b ∈ res.metadata) (hbf : b.isFit = true)
    (hstrict : ∀ q ∈ res.metadata, q.isFit = true → q.model ≠ b.model → Ext.lt b.aic q.aic = true) :
    (∀ q ∈ res'.metadata, q.isBest = true → q.model = b.model) ∧ ∃ q ∈ res'.metadata, q.isBest = true ∧ q.model = b.model := by
  have hfit' : ∃ r ∈ res'.metadata, r.isFit = true := by
    have : true ∈ res.metadata.map MRow.isFit := List.mem_map.2 ⟨b, hb, hbf⟩
    rw [← hsame] at this
    obtain ⟨r, hr, e⟩ := List.mem_map.1 this
    exact ⟨r, hr, e⟩
  obtain ⟨q, hq, hq1, hq2, hq3⟩ := C35_lowest w' args source _ res' hall h' hfit'
  obtain ⟨d, hd, -, hmeta, -⟩ := runSingle_inv w args source df res h
  obtain ⟨d', hd', -, hmeta', -⟩ := runSingle_inv w' args source _ res' h'
  obtain ⟨st⟩ := runFits_stages w args source df d hd
  obtain ⟨st'⟩ := runFits_stages w' args source _ d' hd'
  have hd2 : d.2 = _ := congrArg Prod.snd st.hd
  have hd2' : d'.2 = _ := congrArg Prod.snd st'.hd
  unfold selectFits at hmeta hmeta'
  rw [if_pos hall, hd2] at hmeta
  rw [if_pos hall, hd2'] at hmeta'
  have hOut' := st'.hOut
  rw [st.hOut] at hOut'
  have hdf2 : st.df2 = st'.df2 := Except.ok.inj hOut'
  have hCand' := st'.hCand
  have hAct' := st'.hAct
  have hFits' := st'.hFits
  rw [← hdf2] at hCand' hAct' hFits'
  rw [hw.1, st.hCand] at hCand'
  have hcand : st.cand = st'.cand := Except.ok.inj hCand'
  rw [hw.2, st.hAct] at hAct'
  have hact : st.actuals = st'.actuals := Except.ok.inj hAct'
  rw [← hcand, ← hact] at hFits'
  obtain ⟨len, spec, -⟩ := fitLoop_spec _ _ _ _ _ st.hFits
  obtain ⟨len', spec', -⟩ := fitLoop_spec _ _ _ _ _ hFits'
  have row : ∀ (k : Nat) (m : ForecastModel K), st.cand.2[k]? = some m → ∃ r r' : MRow K, res.metadata[k]? = some r ∧ res'.metadata[k]? = some r' ∧ r.model = m.name ∧
      r'.model = m.name ∧ r'.isFit = r.isFit ∧ (r.isFit = true → r'.aic = r.aic) := by
    intro k m hk
    have hu := hmod _ _ st.hCand m (List.mem_of_getElem? hk)
    obtain ⟨f, rows, f1, -, f3, -⟩ := spec k m hk
    obtain ⟨f', rows', f1', -, f3', -⟩ := spec' k m hk
    simp only [mkSetup] at f1 f1'
    have m1 : res.metadata[k]? = some (flagMeta (bestKey w.srt st.fits.1) (metaRow (mkSetup w args source df (defaultWeights st.df2).1
        (defaultWeights st.df2).2 st.cand.1 st.actuals) m f)) := by
      rw [hmeta, List.getElem?_map, f3]; rfl
    have m1' : res'.metadata[k]? = some (flagMeta (bestKey w'.srt st'.fits.1) (metaRow (mkSetup w' args source df
        (defaultWeights st.df2).1 (defaultWeights st.df2).2 st.cand.1 st.actuals) m f')) := by
      rw [hmeta', List.getElem?_map, f3']; rfl
    have hfit : f'.isFit = f.isFit := by
      have e1 := congrArg (fun l : List Bool => l[k]?) hsame
      simp only [List.getElem?_map, m1, m1', Option.map_some, Option.some.injEq] at e1
      exact e1
    refine ⟨_, _, m1, m1', fit_unpinned _ _ _ _ _ _ hu f1, fit_unpinned _ _ _ _ _ _ hu f1', hfit, ?_⟩
    intro hf
    exact (C73_cost _ _ (hmin _) (hmin' _) (hcache _) (haic _) m hu _ _ _ f f' f1 f1' hf (hfit.trans hf)).2
  have hlen : res.metadata.length = st.cand.2.length := by rw [hmeta, List.length_map, len]
  have hlen' : res'.metadata.length = st.cand.2.length := by rw [hmeta', List.length_map, len']
  obtain ⟨kb, hkb⟩ := List.mem_iff_getElem?.1 hb
  obtain ⟨kq, hkq⟩ := List.mem_iff_getElem?.1 hq
  have hkb' : kb < st.cand.2.length := by
    have := (List.getElem?_eq_some_iff.1 hkb).1
    omega
  have hkq' : kq < st.cand.2.length := by
    have := (List.getElem?_eq_some_iff.1 hkq).1
    omega
  obtain ⟨b0, b', t1, t2, t3, t4, t5, t6⟩ := row kb _ (List.getElem?_eq_getElem hkb')
  obtain ⟨q0, q', u1, u2, u3, u4, u5, u6⟩ := row kq _ (List.getElem?_eq_getElem hkq')
  rw [hkb] at t1
  rw [hkq] at u2
  cases t1
  cases u2
  have hmodel : q.model = b.model := by
    by_contra hne
    have hq0 : q0 ∈ res.metadata := List.mem_of_getElem? u1
    have hqf : q0.isFit = true := by rw [← u5]; exact hq2
    have hlt := hstrict q0 hq0 hqf (by rw [u3, ← u4]; exact hne)
    rw [← t6 hbf, ← u6 hqf] at hlt
    exact hq3 b' (List.mem_of_getElem? t2) (by rw [t5]; exact hbf) (.inl hlt)
  refine ⟨?_, q, hq, hq1, hmodel⟩
  intro r hr hrb
  rw [← hmodel]
  exact (C35_one_model w' args source _ res' h' r q hr hq hrb hq1).1

/-! ### A concrete case -/

/-- Another random stream. -/
def otherWorld : World ℚ := { demoWorld with env := fun _ _ => { knownEnv [2, 1] with rnd := fun i => 1 / ((i : ℚ) + 2) } }

def otherArgs : RunArgs ℚ := demoArgs [modelLinear, modelConstant] (some [modelNaive stableSort])

theorem otherCandidates (df' : Frame ℚ) (cand : AddMult × List (ForecastModel ℚ))
    (h : candidates lineWorld.ch otherArgs.models df' (runFreq lineFrame) = .ok cand) : ∀ m ∈ cand.2, Unpinned m := by
  have e : candidates lineWorld.ch otherArgs.models df' (runFreq lineFrame) = .ok (.add, [modelConstant, modelLinear, modelNaive stableSort]) := rfl
  rw [e] at h
  cases h
  intro m hm
  simp only [List.mem_cons, List.not_mem_nil, or_false] at hm
  rcases hm with rfl | rfl | rfl
  · exact default_unpinned _ rfl
  · exact linear_unpinned
  · exact default_unpinned _ rfl

/-- The hypotheses of `C73_choice` are met: the linear trend is chosen in both runs. -/
example : ∃ res res', runSingle lineWorld otherArgs "s" lineFrame = .ok res ∧ runSingle otherWorld otherArgs "s" lineFrame = .ok res' ∧
    ∃ b ∈ res.metadata, b.model = "linear" ∧ (∀ q ∈ res'.metadata, q.isBest = true → q.model = b.model) ∧
      ∃ q ∈ res'.metadata, q.isBest = true ∧ q.model = b.model := by
  have facts : (match runSingle lineWorld otherArgs "s" lineFrame, runSingle otherWorld otherArgs "s" lineFrame with
      | .ok res, .ok res' => decide (res'.metadata.map MRow.isFit = res.metadata.map MRow.isFit ∧
          ∃ b ∈ res.metadata, b.model = "linear" ∧ b.isFit = true ∧
            ∀ q ∈ res.metadata, q.isFit = true → q.model ≠ b.model → Ext.lt b.aic q.aic = true)
      | _, _ => false) = true := by decide +kernel
  cases h : runSingle lineWorld otherArgs "s" lineFrame with
  | error e => rw [h] at facts; cases facts
  | ok res =>
    cases h' : runSingle otherWorld otherArgs "s" lineFrame with
    | error e => rw [h, h'] at facts; cases facts
    | ok res' =>
      rw [h, h'] at facts
      obtain ⟨f1, b, f3, f4, f5, f6⟩ := of_decide_eq_true facts
      exact ⟨res, res', rfl, rfl, b, f3, f4, C73_choice lineWorld otherWorld ⟨rfl, rfl⟩ otherArgs "s" lineFrame res res' rfl h h'
        (fun _ => knownEnv_minimum _) (fun _ => knownEnv_minimum [2, 1]) (fun _ => rfl) (fun _ => rfl) otherCandidates f1 b f3 f5 f6⟩

end Anticipy
