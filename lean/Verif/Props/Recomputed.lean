import Verif.Spec.Recomputed
import Verif.Props.Shape
import Verif.Props.Nested
import Verif.Props.Aic

/-
C113: the cost and the score of a model can be computed again from the tables of the result.
-/
namespace Anticipy
open Spec
variable {K : Type} [Field K] [LinearOrder K]

/-- The fit behind a row of the metadata, with its place among the candidates. -/
theorem metadata_stage [FloorRing K] [IsStrictOrderedRing K] (w : World K) (args : RunArgs K) (source : String) (df : Frame K)
    (d : List (DRow K) × List (MRow K)) (st : RunStages w args source df d) (b : MRow K) (hb : b ∈ d.2) :
    ∃ k m f, st.cand.2[k]? = some m ∧ fitModel (w.env source k) m (usedRows (defaultWeights st.df2).1) (some st.actuals) args.useCache = .ok f ∧
      b.model = f.modelName ∧ b.isFit = f.isFit ∧ b.cost = f.cost ∧ b.params = f.params ∧ b.aic = f.aic := by
  obtain ⟨s1, s2, -⟩ := fitLoop_spec _ _ _ _ _ st.hFits
  rw [st.hd] at hb
  obtain ⟨r, hr, rfl⟩ := List.mem_map.1 hb
  obtain ⟨k, hk, hk'⟩ := List.getElem_of_mem hr
  have hlt : k < st.cand.2.length := by omega
  obtain ⟨f, rows, e1, -, e3, -⟩ := s2 k _ (List.getElem?_eq_getElem hlt)
  rw [List.getElem?_eq_getElem hk, hk'] at e3
  cases e3
  rw [Nat.zero_add] at e1
  exact ⟨k, _, f, List.getElem?_eq_getElem hlt, e1, rfl, rfl, rfl, rfl, rfl⟩

/-- The cost of a fit is half of the sum of squared errors of the model at the reported parameters. -/
theorem fit_cost [IsStrictOrderedRing K] (env : Env K) (hcost : ReportsCost env) (m : ForecastModel K) (val : List K → Int → Timestamp → K) (hm : HasFormula m false val)
    (reg : Registry K) (hreg : Registered env.globalCache reg m) (ht : CacheTransparent reg m) (df : Frame K) (hdate : df.hasDate = true)
    (act : Option (Frame K)) (c : Bool) (f : FitResult K) (h : fitModel env m df act c = .ok f) (hf : f.isFit = true) (hl : f.params.length = m.nParams) :
    m.nParams + 2 ≤ (usableRows df).length ∧ f.cost = some (misfit df (val f.params) / 2) ∧ env.aic f.cost (usableRows df).length m.nParams = .ok f.aic := by
  obtain ⟨h0, ctx, guess, b, r, h1, h2, h3, h4, h5, h6, h7, h8, -, h9, h10, h11⟩ := fitModel_solver env m df act c f hm.unpinned hm.params h hf
  refine ⟨h0, ?_, h11⟩
  rw [hdate, if_pos rfl] at h2
  rw [h7] at hl
  have hv := hm.value (noCache ctx) ((usableRows df).map Row.x) ((usableRows df).map Row.date) r.params (by unfold noCache; dsimp only; rw [h1, hm.scale])
    (by unfold noCache; dsimp only; rw [h2]) (by simp) hl (fun _ => rfl) (fit_nonempty _ m df _ _ f h hf)
  rw [← cached_value env.globalCache reg m hreg ht c ctx h10 h9, List.zipWith_map, List.zipWith_self] at hv
  have hr := C33_residuals m ctx df (some r.params) _ _ hv ⟨by simp, .inl rfl⟩
  rw [h8, hcost _ _ _ _ _ h5 h6 hr, h7]
  congr 2
  rw [List.zipWith_map_right, List.zipWith_self]
  unfold sumSq misfit
  rw [List.map_map]
  congr 1
  apply List.map_congr_left
  intro q _
  simp only [Function.comp_def, sq_abs]

/-- **C113, single series.** The forecasts are the values of the model at the reported parameters, the reported cost is half of their squared errors over the
observations of the same result, and the score is that of the cost, the number of these observations and the number of parameters. -/
theorem C113_run [FloorRing K] [IsStrictOrderedRing K] (w : World K) (args : RunArgs K) (source : String) (df : Frame K) (res : RunResult K)
    (h : runSingle w args source df = .ok res) (m : ForecastModel K) (val : List K → Int → Timestamp → K) (hf : HasFormula m false val)
    (hx : FitsOnce w args source df m) (hcost : ∀ i, ReportsCost (w.env source i))
    (hall : ∀ df' cand, candidates w.ch args.models df' (runFreq df) = .ok cand → ∀ m1 ∈ cand.2, Unpinned m1)
    (reg : Registry K) (hreg : ∀ i, Registered (w.env source i).globalCache reg m) (ht : CacheTransparent reg m)
    (hdate : df.hasDate = true) (t0 : Timestamp) (hdays : CountsDays df t0) (hnd : (df.rows.map Row.x).Nodup)
    (b : MRow K) (hb : b ∈ res.metadata) (hbm : b.model = m.name) (hbf : b.isFit = true) :
    b.params.length = m.nParams ∧ m.nParams + 2 ≤ (observed res).length ∧
    ForecastsAre res m.name (fun d => val b.params ((d - t0) / (24 * 60 * 60 * 1000000000)) d) ∧
    b.cost = some (squaredErrors res (fun d => val b.params ((d - t0) / (24 * 60 * 60 * 1000000000)) d) / 2) ∧
    ∃ i, (w.env source i).aic b.cost (observed res).length m.nParams = .ok b.aic := by
  obtain ⟨d, hd, hdata, hmeta, -⟩ := runSingle_inv w args source df res h
  obtain ⟨st⟩ := runFits_stages w args source df d hd
  have hsub : ∀ r ∈ res.data, r ∈ d.1 := by
    intro r hr
    rw [hdata] at hr
    unfold selectFits at hr
    split_ifs at hr
    · exact hr
    · exact (List.mem_filter.1 hr).1
  have hb' : b ∈ d.2 := by
    rw [hmeta] at hb
    unfold selectFits at hb
    split_ifs at hb
    · exact hb
    · exact (List.mem_filter.1 hb).1
  have hlen : ∀ (i : Nat) (used : Frame K) (act : Option (Frame K)) (f : FitResult K),
      fitModel (w.env source i) m used act args.useCache = .ok f → f.isFit = true → f.params.length = m.nParams := by
    intro i used act f e hfit
    obtain ⟨-, ctx, guess, b, r, -, -, -, h4, h5, -, h7, -⟩ := fitModel_solver _ m _ _ _ f hf.unpinned hf.params e hfit
    obtain ⟨a, ha⟩ := hf.bounds ⟨some ctx.ax, some (prepare used).ys, none⟩
    rw [ha] at h4
    have h4 := Except.ok.inj h4
    rw [h7, hx.count i _ _ _ _ h5, ← h4]
    simp
  have hrow := fun r hr => row_value_stage w args source df d st m (hx.only _ _ st.hCand) val
    (fun ctx xs ds p h1 h2 h3 h4 h5 h6 => hf.value ctx xs ds p (by rw [h1, hf.scale]) h2 h3 h4 h5 h6) hlen hdate t0 hdays r (hsub r hr)
  obtain ⟨i, m', f, e1, e2, g1, g2, g3, g4, g5⟩ := metadata_stage w args source df d st b hb'
  have hmem := List.mem_of_getElem? e1
  have hmm : m' = m := hx.only _ _ st.hCand _ hmem (by rw [← fit_unpinned _ _ _ _ _ _ (hall _ _ st.hCand _ hmem) e2, ← g1, hbm])
  subst hmm
  have hfit : f.isFit = true := by rw [← g2, hbf]
  obtain ⟨u1, u2, u3, u4, u5⟩ := used_rows args.findOutliers args.start df st.df2 st.hOut
  obtain ⟨df2, hOut, hobs⟩ := observed_rows w args source df res h hdate
  rw [st.hOut] at hOut
  cases hOut
  have hn : (observed res).length = (usableRows (usedRows (defaultWeights st.df2).1)).length := by simpa using congrArg List.length hobs
  obtain ⟨c0, c1, c2⟩ := fit_cost _ (hcost i) m' val hf reg (hreg i) ht _ (by rw [u1, hdate]) _ _ f e2 hfit (hlen _ _ _ _ e2 hfit)
  rw [g4, g3, g5, hn]
  refine ⟨hlen _ _ _ _ e2 hfit, c0, ?_, ?_, i, c2⟩
  · intro r hr ha hm
    obtain ⟨j, f', k1, k2, -, k4⟩ := hrow r hr ha hm
    have hij : j = i := by
      obtain ⟨hi, ei⟩ := List.getElem?_eq_some_iff.1 e1
      obtain ⟨hj, ej⟩ := List.getElem?_eq_some_iff.1 k1
      exact (List.Nodup.getElem_inj_iff (hx.names _ _ st.hCand) (hi := by simpa using hj) (hj := by simpa using hi)).1 (by simp [ei, ej])
    subst hij
    rw [e2] at k2
    rw [k4, ← Except.ok.inj k2]
  · rw [c1]
    congr 2
    generalize hused : usedRows (defaultWeights st.df2).1 = used at u1 u2 u5 hobs
    have hsubx : (used.rows.map Row.x).Sublist (df.rows.map Row.x) := by
      have h1 : (used.rows.map Row.x).Sublist ((defaultWeights st.df2).1.rows.map Row.x) := by
        rw [← hused]
        exact List.Sublist.map _ List.filter_sublist
      rw [u4] at h1
      exact h1.trans (List.Sublist.map _ List.filter_sublist)
    have hndu := hsubx.nodup hnd
    unfold squaredErrors misfit
    have e1 : ∀ F : Timestamp × Option K × Option K → K, ((observed res).map fun a => F (a.date, a.y, a.weight)) =
        (usableRows used).map fun r => F (r.date, r.y, r.weight) := by
      intro F
      have := congrArg (List.map F) hobs
      simpa [List.map_map, Function.comp_def] using this
    rw [e1 fun c => (c.2.2.getD 0 * (c.2.1.getD 0 - val f.params ((c.1 - t0) / (24 * 60 * 60 * 1000000000)) c.1)) ^ 2]
    congr 1
    apply List.map_congr_left
    intro r hr
    have hmem := (List.mem_filter.1 hr).1
    obtain ⟨k, hk, k1, k2, -⟩ := u5 r hmem
    have hd : r.date = t0 + r.x * (24 * 60 * 60 * 1000000000) := by
      rw [k1, k2]
      exact hdays k (List.mem_filter.1 hk).1
    have hx : (r.date - t0) / (24 * 60 * 60 * 1000000000) = r.x := by rw [hd]; omega
    have hsh : sharing (usableRows used) r = 1 := sharing_one _ (hndu.sublist (List.Sublist.map _ List.filter_sublist)) r hr
    rw [hsh]
    dsimp only
    rw [hx]
    unfold weightOf
    rw [u2, if_pos rfl]
    push_cast
    ring

/-- **C113, tables.** In the result of a table with one row per date and source, for every series and every model that has been fitted: the forecasts are the
values of the model at the reported parameters, the reported cost is half of their squared errors over the observations of the same result, and the score
is that of the cost, the number of these observations and the number of parameters. -/
theorem C113_table [FloorRing K] [IsStrictOrderedRing K] (w : World K) (args : RunArgs K) (id : String) (t : STable K) (hp : Proper t) (s : String) (hs : IsSeries t id s)
    (res : RunResult K) (h : runForecast w args id t = .ok (some res)) (m : ForecastModel K) (val : List K → Int → Timestamp → K) (hf : HasFormula m false val)
    (hx : FitsOnce w args s (seriesFrame t s) m) (hcost : ∀ i, ReportsCost (w.env s i))
    (hall : ∀ df' cand, candidates w.ch args.models df' (runFreq (seriesFrame t s)) = .ok cand → ∀ m1 ∈ cand.2, Unpinned m1)
    (reg : Registry K) (hreg : ∀ i, Registered (w.env s i).globalCache reg m) (ht : CacheTransparent reg m)
    (b : MRow K) (hb : b ∈ (partOf t s res).metadata) (hbm : b.model = m.name) (hbf : b.isFit = true) :
    b.params.length = m.nParams ∧ m.nParams + 2 ≤ (observed (partOf t s res)).length ∧
    ForecastsAre (partOf t s res) m.name (fun d => val b.params ((d - originOf t s) / (24 * 60 * 60 * 1000000000)) d) ∧
    b.cost = some (squaredErrors (partOf t s res) (fun d => val b.params ((d - originOf t s) / (24 * 60 * 60 * 1000000000)) d) / 2) ∧
    ∃ i, (w.env s i).aic b.cost (observed (partOf t s res)).length m.nParams = .ok b.aic := by
  obtain ⟨hd, hrun⟩ := series_run w id t hp s hs
  exact C113_run w args s _ _ (hrun args res h) m val hf hx hcost hall reg hreg ht hd.dated _ hd.days hd.nodup b hb hbm hbf

theorem forecastAt_eq (res : RunResult K) (name : String) (v : Timestamp → K) (hv : ForecastsAre res name v) (d : Timestamp)
    (h : ∃ r, ForecastOf res name r ∧ r.date = d) : forecastAt res name d = v d := by
  obtain ⟨r, ⟨h1, h2, h3⟩, h4⟩ := h
  unfold forecastAt
  cases hf : res.data.find? fun r => !r.isActuals && decide (r.model = name) && decide (r.date = d) with
  | none =>
    have := List.find?_eq_none.1 hf r h1
    simp [h2, h3, h4] at this
  | some q =>
    have hq := List.find?_some hf
    simp only [Bool.and_eq_true, Bool.not_eq_true', decide_eq_true_eq] at hq
    rw [Option.bind_some, hv q (List.mem_of_find?_eq_some hf) hq.1.1 hq.1.2, hq.2]
    rfl

/-- **C113, from the rows.** If each observation that counts has a fitted value in the table, the reported cost is half of the weighted squared differences
of observations and fitted values on the same date, as read from the table. -/
theorem C113_rows [FloorRing K] [IsStrictOrderedRing K] (w : World K) (args : RunArgs K) (id : String) (t : STable K) (hp : Proper t) (s : String) (hs : IsSeries t id s)
    (res : RunResult K) (h : runForecast w args id t = .ok (some res)) (m : ForecastModel K) (val : List K → Int → Timestamp → K) (hf : HasFormula m false val)
    (hx : FitsOnce w args s (seriesFrame t s) m) (hcost : ∀ i, ReportsCost (w.env s i))
    (hall : ∀ df' cand, candidates w.ch args.models df' (runFreq (seriesFrame t s)) = .ok cand → ∀ m1 ∈ cand.2, Unpinned m1)
    (reg : Registry K) (hreg : ∀ i, Registered (w.env s i).globalCache reg m) (ht : CacheTransparent reg m)
    (b : MRow K) (hb : b ∈ (partOf t s res).metadata) (hbm : b.model = m.name) (hbf : b.isFit = true) (hfit : HasFittedValues (partOf t s res) m.name) :
    b.cost = some (squaredErrors (partOf t s res) (forecastAt (partOf t s res) m.name) / 2) := by
  obtain ⟨-, -, hv, hc, -⟩ := C113_table w args id t hp s hs res h m val hf hx hcost hall reg hreg ht b hb hbm hbf
  rw [hc]
  congr 2
  unfold squaredErrors
  congr 1
  apply List.map_congr_left
  intro a ha
  rw [forecastAt_eq _ _ _ hv _ (hfit a ha)]

/-- **C113, score.** With the score of the library and an error, the reported score is the AICc of the reported cost, the number of observations that count
and the number of parameters. -/
theorem C113_score (w : World ℝ) (args : RunArgs ℝ) (id : String) (t : STable ℝ) (hp : Proper t) (s : String) (hs : IsSeries t id s)
    (res : RunResult ℝ) (h : runForecast w args id t = .ok (some res)) (m : ForecastModel ℝ) (val : List ℝ → Int → Timestamp → ℝ) (hf : HasFormula m false val)
    (hx : FitsOnce w args s (seriesFrame t s) m) (hcost : ∀ i, ReportsCost (w.env s i)) (haic : ∀ i, (w.env s i).aic = getAicC)
    (hall : ∀ df' cand, candidates w.ch args.models df' (runFreq (seriesFrame t s)) = .ok cand → ∀ m1 ∈ cand.2, Unpinned m1)
    (reg : Registry ℝ) (hreg : ∀ i, Registered (w.env s i).globalCache reg m) (ht : CacheTransparent reg m)
    (b : MRow ℝ) (hb : b ∈ (partOf t s res).metadata) (hbm : b.model = m.name) (hbf : b.isFit = true) (e : ℝ) (he : b.cost = some e) (hpos : 0 < e) :
    b.aic = .fin (Spec.aicc e (observed (partOf t s res)).length m.nParams) := by
  obtain ⟨-, hn, -, -, i, hi⟩ := C113_table w args id t hp s hs res h m val hf hx hcost hall reg hreg ht b hb hbm hbf
  rw [haic, he, C31_formula e _ _ hpos hn] at hi
  exact (Except.ok.inj hi).symm

/-! ### Concrete cases -/

/-- An optimiser that is far from the minimum, but honest about the cost. -/
def honestEnv : Env ℚ := { demoEnv with
  lsq := fun f _ b =>
    let p := (List.range b.lo.length).map fun i : Nat => (i : ℚ)
    (f p).map fun r => some ⟨true, some (halfSumSq r), p⟩
  globalCache := fun k => if k = "a_weekday" then some cacheWeekday else none }

def honestWorld : World ℚ := { demoWorld with env := fun _ _ => honestEnv }

theorem honest_cost : ReportsCost honestEnv := by
  intro f guess b r l h _ hl
  have h : (f ((List.range b.lo.length).map fun i : Nat => (i : ℚ))).map
    (fun r => some (LsqResult.mk true (some (halfSumSq r)) ((List.range b.lo.length).map fun i : Nat => (i : ℚ)))) = .ok (some r) := h
  cases hf : f ((List.range b.lo.length).map fun i : Nat => (i : ℚ)) with
  | error e => rw [hf] at h; cases h
  | ok a =>
    rw [hf] at h
    cases h
    dsimp only at hl ⊢
    rw [hf] at hl
    rw [Except.ok.inj hl, halfSumSq_vecOf]
    unfold sumSq
    congr 1
    rw [one_div, div_eq_inv_mul]
    congr 2
    apply List.map_congr_left
    intro a _
    ring

theorem honest_count : KeepsCount honestEnv := by
  intro f guess b r h
  have h : (f ((List.range b.lo.length).map fun i : Nat => (i : ℚ))).map
    (fun r => some (LsqResult.mk true (some (halfSumSq r)) ((List.range b.lo.length).map fun i : Nat => (i : ℚ)))) = .ok (some r) := h
  cases hf : f ((List.range b.lo.length).map fun i : Nat => (i : ℚ)) with
  | error e => rw [hf] at h; cases h
  | ok a =>
    rw [hf] at h
    cases h
    simp

theorem honest_candidates (df' : Frame ℚ) (cand : AddMult × List (ForecastModel ℚ))
    (h : candidates honestWorld.ch (wildArgs .mult).models df' (runFreq (seriesFrame seasonTable "a")) = .ok cand) :
    cand = (.mult, [modelConstant.mul modelSeasonWday, modelLinear.mul modelSeasonWday]) := by
  have e : candidates honestWorld.ch (wildArgs .mult).models df' (runFreq (seriesFrame seasonTable "a")) =
    .ok (.mult, [modelConstant.mul modelSeasonWday, modelLinear.mul modelSeasonWday]) := rfl
  rw [e] at h
  exact (Except.ok.inj h).symm

/-- The hypotheses of `C113_table` are met for the line with factors for the weekdays. -/
example : FitsOnce honestWorld (wildArgs .mult) "a" (seriesFrame seasonTable "a") (modelLinear.mul modelSeasonWday) ∧
    (∀ df' cand, candidates honestWorld.ch (wildArgs .mult).models df' (runFreq (seriesFrame seasonTable "a")) = .ok cand → ∀ m1 ∈ cand.2, Unpinned m1) ∧
    Registered honestEnv.globalCache honestEnv.globalCache (modelLinear.mul modelSeasonWday) ∧
    CacheTransparent honestEnv.globalCache (modelLinear.mul modelSeasonWday) := by
  refine ⟨⟨fun _ => honest_count, ?_, ?_⟩, ?_, ?_, ?_⟩
  · intro df' cand h
    rw [honest_candidates df' cand h]
    decide
  · intro df' cand h m' hm' hn
    rw [honest_candidates df' cand h] at hm'
    simp only [List.mem_cons, List.not_mem_nil, or_false] at hm'
    rcases hm' with rfl | rfl
    · exact absurd hn (by decide)
    · rfl
  · intro df' cand h m1 hm1
    rw [honest_candidates df' cand h] at hm1
    simp only [List.mem_cons, List.not_mem_nil, or_false] at hm1
    rcases hm1 with rfl | rfl
    · exact (formula_compose true false (formula_constant true) (formula_wday true)).unpinned
    · exact (formula_compose true false (formula_linear true) (formula_wday true)).unpinned
  · exact registered_compose _ _ _ _ _ ⟨by simp [modelLinear, mkModel], by simp [modelLinear, mkModel]⟩
      ⟨fun k _ f hf => hf, by simp [modelSeasonWday, mkModel]⟩
  · exact transparent_compose _ _ _ _ (fun _ _ _ _ _ => rfl) (transparent_indexed _ "a_weekday" cacheWeekday rfl _ rfl)

/-- The reported costs of two models for the table with a null and an ignored observation are those read from the table; both are fitted to 13 observations. -/
example : ((runForecast honestWorld (wildArgs .mult) "" seasonTable).toOption.bind id).map (fun r =>
    ((partOf seasonTable "a" r).metadata.map fun b => (b.model, b.isFit, b.cost), (observed (partOf seasonTable "a" r)).length,
      ["(constant*season_wday)", "(linear*season_wday)"].map fun n => some (squaredErrors (partOf seasonTable "a" r) (forecastAt (partOf seasonTable "a" r) n) / 2))) =
    some ([("(constant*season_wday)", true, some 719), ("(linear*season_wday)", true, some (565 / 2))], 13, [some 719, some (565 / 2)]) := by decide +kernel

end Anticipy
