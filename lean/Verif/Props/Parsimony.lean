import Verif.Spec.Parsimony
import Verif.Props.Recomputed
import Verif.Props.TotalTable
import Verif.Props.UnitChoice

/-
C123: a model is chosen over a simpler one only if it fits better, and by how much.
-/
namespace Anticipy
open Spec
variable {K : Type} [Field K] [LinearOrder K]

/-- The score of a fit is that of its cost, the number of samples and the number of parameters of the candidate. -/
theorem fit_score (env : Env K) (m : ForecastModel K) (df : Frame K) (act : Option (Frame K)) (c : Bool) (f : FitResult K) (h : fitModel env m df act c = .ok f)
    (hf : f.isFit = true) : m.nParams + 2 ≤ (usableRows df).length ∧ env.aic f.cost (usableRows df).length m.nParams = .ok f.aic := by
  have hst := (C30_status env m df act c f h).2.2
  have hlong := hst.1.1 (.inl (hst.2.2.1 hf))
  refine ⟨hlong.1, ?_⟩
  obtain ⟨rng, h1⟩ := fitModel_long env m df act c hlong.1
  rw [h1, hlong.2] at h
  simp only [Bind.bind, Except.bind, Bool.not_true, Bool.false_eq_true, if_false] at h
  have hl : (prepare df).xs.length = (usableRows df).length := (prepare_lengths df).1
  cases h3 : simplifyModel env.label m ⟨some (scaleX m (prepare df).xs), some (prepare df).ys, (prepare df).dates⟩ with
  | error e => rw [h3] at h; cases h
  | ok m' =>
    rw [h3] at h
    dsimp only at h
    unfold attemptFit at h
    rw [hl] at h
    split_ifs at h
    · simp only [bind, Except.bind] at h
      split at h
      · cases h
      · split at h
        · cases h
        · rename_i a ha
          cases h
          exact ha
    · simp only [bind, Except.bind] at h
      split at h
      · cases h
      · split at h
        · cases h
        · rename_i a ha
          cases h
          exact ha

theorem score_split (E : ℝ) (n k : Nat) : Spec.aicc E n k = n * Real.log (E / n) + penalty n k := by
  unfold Spec.aicc penalty
  ring

theorem penalty_lt (n k k' : Nat) (h : k < k') (hn : k' + 2 ≤ n) : penalty n k < penalty n k' := by
  obtain ⟨a, b, ha, hb, hab⟩ := C31_fewer_params 1 n k k' one_pos h hn
  rw [C31_formula 1 n k one_pos (by omega)] at ha
  rw [C31_formula 1 n k' one_pos hn] at hb
  cases ha
  cases hb
  rw [score_split, score_split] at hab
  linarith

/-- **C123, single series.** If all fits are returned, the chosen model has no worse balance of error and parameters than any other model that was fitted: the
logarithm of the ratio of the errors pays for the difference in the number of parameters. A model that fits as well as the chosen one does not have fewer
parameters, a model that fits better has more. -/
theorem C123_run (w : World ℝ) (args : RunArgs ℝ) (source : String) (df : Frame ℝ) (res : RunResult ℝ) (h : runSingle w args source df = .ok res)
    (hall : args.includeAll = true) (hdate : df.hasDate = true) (haic : ∀ i, (w.env source i).aic = getAicC) (m m' : ForecastModel ℝ)
    (hm : NamedOnce w args df m) (hm' : NamedOnce w args df m') (b b' : MRow ℝ) (hb : b ∈ res.metadata) (hb' : b' ∈ res.metadata) (hbm : b.model = m.name)
    (hbm' : b'.model = m'.name) (hbest : b.isBest = true) (hfit' : b'.isFit = true) (e e' : ℝ) (he : b.cost = some e) (he' : b'.cost = some e') (hpos : 0 < e)
    (hpos' : 0 < e') :
    (observed res).length * Real.log (e / e') ≤ penalty (observed res).length m'.nParams - penalty (observed res).length m.nParams ∧
    (e' ≤ e → m.nParams ≤ m'.nParams) ∧ (e' < e → m.nParams < m'.nParams) := by
  obtain ⟨b0, hb0, hbest0, hfit0, hlow⟩ := C35_lowest w args source df res hall h ⟨b', hb', hfit'⟩
  have hsame := (C35_one_model w args source df res h b0 b hb0 hb hbest0 hbest).1
  obtain ⟨d, hd, -, hmeta, -⟩ := runSingle_inv w args source df res h
  obtain ⟨st⟩ := runFits_stages w args source df d hd
  have hsub : ∀ b ∈ res.metadata, b ∈ d.2 := by
    intro b hb
    rw [hmeta] at hb
    unfold selectFits at hb
    rw [if_pos hall] at hb
    exact hb
  obtain ⟨i, m1, f, e1, e2, g1, g2, g3, -, g5⟩ := metadata_stage w args source df d st b (hsub b hb)
  obtain ⟨i', m1', f', e1', e2', g1', g2', g3', -, g5'⟩ := metadata_stage w args source df d st b' (hsub b' hb')
  obtain ⟨i0, m0, f0, e10, e20, g10, g20, g30, -, g50⟩ := metadata_stage w args source df d st b0 (hsub b0 hb0)
  have n1 := fit_unpinned _ _ _ _ _ _ (hm.plain _ _ st.hCand _ (List.mem_of_getElem? e1)) e2
  have n1' := fit_unpinned _ _ _ _ _ _ (hm.plain _ _ st.hCand _ (List.mem_of_getElem? e1')) e2'
  have n0 := fit_unpinned _ _ _ _ _ _ (hm.plain _ _ st.hCand _ (List.mem_of_getElem? e10)) e20
  have hmm : m1 = m := hm.only _ _ st.hCand _ (List.mem_of_getElem? e1) (by rw [← n1, ← g1, hbm])
  have hmm' : m1' = m' := hm'.only _ _ st.hCand _ (List.mem_of_getElem? e1') (by rw [← n1', ← g1', hbm'])
  subst hmm hmm'
  have hij : i0 = i := by
    obtain ⟨hi, ei⟩ := List.getElem?_eq_some_iff.1 e1
    obtain ⟨hj, ej⟩ := List.getElem?_eq_some_iff.1 e10
    refine (List.Nodup.getElem_inj_iff (hm.names _ _ st.hCand) (hi := by simpa using hj) (hj := by simpa using hi)).1 ?_
    simp only [List.getElem_map, ei, ej]
    rw [← n0, ← n1, ← g10, ← g1, hsame]
  subst hij
  rw [e1] at e10
  cases e10
  rw [e2] at e20
  cases e20
  have hfit : f.isFit = true := by rw [← g20, hfit0]
  obtain ⟨df2, hOut, hobs⟩ := observed_rows w args source df res h hdate
  rw [st.hOut] at hOut
  cases hOut
  have hn : (observed res).length = (usableRows (usedRows (defaultWeights st.df2).1)).length := by simpa using congrArg List.length hobs
  obtain ⟨l1, s1⟩ := fit_score _ _ _ _ _ _ e2 hfit
  obtain ⟨l2, s2⟩ := fit_score _ _ _ _ _ _ e2' (by rw [← g2', hfit'])
  rw [← hn] at l1 l2 s1 s2
  rw [haic, ← g3, he, C31_formula e _ _ hpos l1] at s1
  rw [haic, ← g3', he', C31_formula e' _ _ hpos' l2] at s2
  have s1 := Except.ok.inj s1
  have s2 := Except.ok.inj s2
  have hle : Spec.aicc e (observed res).length m1.nParams ≤ Spec.aicc e' (observed res).length m1'.nParams := by
    by_contra hc
    apply hlow b' hb' hfit'
    left
    rw [g5', g50, ← s1, ← s2]
    exact decide_eq_true (not_le.1 hc)
  have hn0 : (0 : ℝ) < (observed res).length := by exact_mod_cast (show 0 < (observed res).length by omega)
  have hmain : (observed res).length * Real.log (e / e') ≤ penalty (observed res).length m1'.nParams - penalty (observed res).length m1.nParams := by
    rw [score_split, score_split, Real.log_div hpos.ne' hn0.ne', Real.log_div hpos'.ne' hn0.ne'] at hle
    rw [Real.log_div hpos.ne' hpos'.ne']
    nlinarith
  refine ⟨hmain, ?_, ?_⟩
  · intro hc
    by_contra hlt
    have h1 := penalty_lt _ _ _ (not_le.1 hlt) l1
    have h2 : 0 ≤ Real.log (e / e') := Real.log_nonneg (by rw [le_div_iff₀ hpos']; linarith)
    have := mul_nonneg hn0.le h2
    linarith
  · intro hc
    have h2 : 0 < Real.log (e / e') := Real.log_pos (by rw [lt_div_iff₀ hpos']; linarith)
    have := mul_pos hn0 h2
    by_contra hlt
    rcases (not_lt.1 hlt).lt_or_eq with h3 | h3
    · have h1 := penalty_lt _ _ _ h3 l1
      linarith
    · rw [h3] at hmain
      linarith

/-- **C123.** The same for every series of a table with one row per date and source. -/
theorem C123_table (w : World ℝ) (args : RunArgs ℝ) (id : String) (t : STable ℝ) (hp : Proper t) (s : String) (hs : IsSeries t id s) (res : RunResult ℝ)
    (h : runForecast w args id t = .ok (some res)) (hall : args.includeAll = true) (haic : ∀ i, (w.env s i).aic = getAicC) (m m' : ForecastModel ℝ)
    (hm : NamedOnce w args (seriesFrame t s) m) (hm' : NamedOnce w args (seriesFrame t s) m') (b b' : MRow ℝ) (hb : b ∈ (partOf t s res).metadata)
    (hb' : b' ∈ (partOf t s res).metadata) (hbm : b.model = m.name) (hbm' : b'.model = m'.name) (hbest : b.isBest = true) (hfit' : b'.isFit = true) (e e' : ℝ)
    (he : b.cost = some e) (he' : b'.cost = some e') (hpos : 0 < e) (hpos' : 0 < e') :
    (observed (partOf t s res)).length * Real.log (e / e') ≤
      penalty (observed (partOf t s res)).length m'.nParams - penalty (observed (partOf t s res)).length m.nParams ∧
    (e' ≤ e → m.nParams ≤ m'.nParams) ∧ (e' < e → m.nParams < m'.nParams) := by
  obtain ⟨hd, hrun⟩ := series_run w id t hp s hs
  exact C123_run w args s _ _ (hrun args res h) hall hd.dated haic m m' hm hm' b b' hb hb' hbm hbm' hbest hfit' e e' he he' hpos hpos'

/-! ### Concrete cases -/

/-- With ten samples a second parameter costs 45/14, so it must reduce the error by the factor exp(-9/28), more than a quarter. -/
example : penalty 10 1 = 5 / 2 ∧ penalty 10 2 = 40 / 7 ∧ penalty 10 2 - penalty 10 1 = 45 / 14 := by
  unfold penalty
  norm_num

/-- The candidates of a run with a level and a straight line. -/
theorem level_or_line (args : RunArgs ℝ) (hargs : args.models = ⟨some [modelConstant, modelLinear], some [], .add, none, none, some [], none⟩) (df : Frame ℝ)
    (fr : Option Freq) (cand : AddMult × List (ForecastModel ℝ)) (h : candidates defaultWorld.ch args.models df fr = .ok cand) :
    cand.2 = [modelConstant, modelLinear] := by
  rw [hargs] at h
  cases h
  rfl

/-- A run with a level and a straight line as candidates on ten days: the run ends with a result, and both models meet the hypotheses of `C123_table`. -/
example (args : RunArgs ℝ) (hargs : args.models = ⟨some [modelConstant, modelLinear], some [], .add, none, none, some [], none⟩) (hs : args.start = none)
    (ho : args.findOutliers = false) (hq : args.q1 = 5 ∧ args.q2 = 20) (y : Nat → ℝ) :
    (∃ res, runForecast defaultWorld args "s" ⟨true, false, false, false, (List.range 10).map fun i : Nat => ⟨(i : Int) * DAY, none, 0, some (y i), none⟩⟩ =
      .ok (some res)) ∧ (∀ s i, (defaultWorld.env s i).aic = getAicC) ∧
    ∀ df, NamedOnce defaultWorld args df modelConstant ∧ NamedOnce defaultWorld args df modelLinear := by
  refine ⟨?_, fun _ _ => rfl, fun df => ?_⟩
  · refine C82_table_partial defaultWorld args "s" _ ⟨rfl, ⟨rfl, rfl, ?_, ?_⟩, ?_⟩ ho ⟨?_, ?_⟩ globalCache globalCache
      ⟨by rw [hq.1, hq.2]; norm_num, by rw [hargs]; simp, ?_, fun _ => rfl, fun _ => guess_returns _ _, fun i k hk => aic_returns _ rfl k (hk.trans (by simp))⟩
    · intro r hr r' hr'
      obtain ⟨i, -, rfl⟩ := List.mem_map.1 hr
      obtain ⟨j, -, rfl⟩ := List.mem_map.1 hr'
      simp only [DAY, HOUR]
      omega
    · rw [List.pairwise_map]
      refine (List.pairwise_lt_range (n := 10)).imp ?_
      intro a b hab _
      simp only [DAY, HOUR]
      omega
    · refine ⟨_, List.mem_map.2 ⟨0, List.mem_range.2 (by omega), rfl⟩, _, List.mem_map.2 ⟨1, List.mem_range.2 (by omega), rfl⟩, ?_⟩
      simp only [DAY, HOUR]
      norm_num
    · refine ⟨_, List.mem_map.2 ⟨0, List.mem_range.2 (by omega), rfl⟩, _, List.mem_map.2 ⟨1, List.mem_range.2 (by omega), rfl⟩, ?_, ?_, ?_⟩
      · simp only [DAY, HOUR]
        norm_num
      · rw [hs]
        intro d hd
        cases hd
      · rw [hs]
        intro d hd
        cases hd
    · refine ⟨_, List.mem_map.2 ⟨0, List.mem_range.2 (by omega), rfl⟩, ?_, by simp, by simp⟩
      rw [hs]
      intro d hd
      cases hd
    · intro df cand h
      rw [level_or_line args hargs df _ cand h]
      refine ⟨by simp, fun m hm => ?_⟩
      simp only [List.mem_cons, List.not_mem_nil, or_false] at hm
      rcases hm with rfl | rfl
      · exact .inr (.inr (.inr dependable_constant))
      · exact .inr (.inr (.inr dependable_linear))
  · have hn : ∀ df' cand, candidates defaultWorld.ch args.models df' (runFreq df) = .ok cand → (cand.2.map ForecastModel.name).Nodup := by
      intro df' cand h
      rw [level_or_line args hargs df' _ cand h]
      exact (by decide +kernel : (["constant", "linear"] : List String).Nodup)
    have hu : ∀ df' cand, candidates defaultWorld.ch args.models df' (runFreq df) = .ok cand → ∀ m' ∈ cand.2, Unpinned m' := by
      intro df' cand h m' hm
      rw [level_or_line args hargs df' _ cand h] at hm
      simp only [List.mem_cons, List.not_mem_nil, or_false] at hm
      rcases hm with rfl | rfl <;> exact default_unpinned _ rfl
    have h1 : (modelConstant : ForecastModel ℝ).name = "constant" := rfl
    have h2 : (modelLinear : ForecastModel ℝ).name = "linear" := rfl
    refine ⟨⟨hn, hu, ?_⟩, ⟨hn, hu, ?_⟩⟩
    · intro df' cand h m' hm hname
      rw [level_or_line args hargs df' _ cand h] at hm
      simp only [List.mem_cons, List.not_mem_nil, or_false] at hm
      rcases hm with rfl | rfl
      · rfl
      · rw [h1, h2] at hname
        exact absurd hname (by decide)
    · intro df' cand h m' hm hname
      rw [level_or_line args hargs df' _ cand h] at hm
      simp only [List.mem_cons, List.not_mem_nil, or_false] at hm
      rcases hm with rfl | rfl
      · rw [h1, h2] at hname
        exact absurd hname (by decide)
      · rfl

end Anticipy
