import Verif.Spec.Explained
import Verif.Props.Recomputed
import Verif.Props.AdditiveTable
import Verif.Props.GroupMeans
import Verif.Props.Regression

/-
C124: the variation of a series is the variation of the fitted values plus twice the reported cost.
-/
namespace Anticipy
open Spec
variable {K : Type} [Field K] [LinearOrder K]

/-- The errors of a fit that are orthogonal to the fitted values and to a constant split the variation. -/
theorem split_variation [IsStrictOrderedRing K] (res : RunResult K) (v : Timestamp → K) (h1 : errorSum res v (fun _ => 1) = 0) (h2 : errorSum res v v = 0) :
    variation res = explained res v + squaredErrors res v := by
  have key : ∀ (l : List (DRow K)) (c : K),
      (l.map fun a => (a.weight.getD 0 * (a.y.getD 0 - c)) ^ 2).sum =
      (l.map fun a => (a.weight.getD 0 * (v a.date - c)) ^ 2).sum + (l.map fun a => (a.weight.getD 0 * (a.y.getD 0 - v a.date)) ^ 2).sum +
      2 * ((l.map fun a => (a.weight.getD 0) ^ 2 * (a.y.getD 0 - v a.date) * v a.date).sum -
        c * (l.map fun a => (a.weight.getD 0) ^ 2 * (a.y.getD 0 - v a.date) * 1).sum) := by
    intro l c
    induction l with
    | nil => simp
    | cons a l ih =>
      simp only [List.map_cons, List.sum_cons]
      rw [ih]
      ring
  unfold errorSum at h1 h2
  unfold variation explained squaredErrors
  rw [key, h1, h2]
  ring

theorem mean_prediction (res : RunResult K) (v : Timestamp → K) (h1 : errorSum res v (fun _ => 1) = 0) : meanPrediction res v = meanOf (observed res) := by
  have key : ∀ l : List (DRow K), ((l.map fun a => { a with y := some (v a.date) }).map fun a => (a.weight.getD 0) ^ 2 * a.y.getD 0).sum =
      (l.map fun a => (a.weight.getD 0) ^ 2 * a.y.getD 0).sum - (l.map fun a => (a.weight.getD 0) ^ 2 * (a.y.getD 0 - v a.date) * 1).sum ∧
      ((l.map fun a => { a with y := some (v a.date) }).map fun a => (a.weight.getD 0) ^ 2) = l.map fun a => (a.weight.getD 0) ^ 2 := by
    intro l
    constructor
    · induction l with
      | nil => simp
      | cons a l ih =>
        simp only [List.map_cons, List.sum_cons, Option.getD_some]
        rw [ih]
        ring
    · rw [List.map_map]
      rfl
  unfold errorSum at h1
  unfold meanPrediction
  rw [meanOf, meanOf, (key _).1, (key _).2, h1, sub_zero]

theorem minimum_reports (env : Env K) (h : FindsMinimum env) : ReportsCost env := by
  intro f guess b r l e1 e2 e3
  obtain ⟨-, l', h1, h2, -⟩ := h f guess b r e1 e2
  rw [e3] at h1
  have : l = l' := by
    have h1 := Except.ok.inj h1
    unfold vecOf at h1
    injection h1 with h1
    exact List.map_injective_iff.2 (Option.some_injective K) h1
  rw [h2, this]

/-- **C124, single series.** -/
theorem C124_run [FloorRing K] [IsStrictOrderedRing K] (w : World K) (args : RunArgs K) (source : String) (df : Frame K) (res : RunResult K)
    (h : runSingle w args source df = .ok res)
    (m : ForecastModel K) (reg : Registry K) (feats : List (Feature K)) (hm : AddsUp m reg feats) (hlev : HasLevel feats) (ht : CacheTransparent reg m)
    (hx : FitsExactly w args source df m reg) (hcount : ∀ i, KeepsCount (w.env source i))
    (hcand : ∀ df' cand, candidates w.ch args.models df' (runFreq df) = .ok cand → (cand.2.map ForecastModel.name).Nodup ∧ ∀ m1 ∈ cand.2, Unpinned m1)
    (hdate : df.hasDate = true) (t0 : Timestamp) (hdays : CountsDays df t0) (hnd : (df.rows.map Row.x).Nodup) (hid : Identifies feats t0 (observed res))
    (hfit : HasFittedValues res m.name) (b : MRow K) (hb : b ∈ res.metadata) (hbm : b.model = m.name) (hbf : b.isFit = true) :
    ∃ c, b.cost = some c ∧ variation res = explained res (forecastAt res m.name) + 2 * c ∧ 0 ≤ c ∧ 2 * c ≤ variation res ∧
      meanPrediction res (forecastAt res m.name) = meanOf (observed res) := by
  have hne : feats ≠ [] := by
    rintro rfl
    obtain ⟨u, hu, e⟩ := hlev
    have := e 0 0
    simp [combination] at this
  obtain ⟨-, hn, hv, hc, -⟩ := C113_run w args source df res h m (combination feats) (hm.formula hne)
    ⟨hcount, fun df' cand e => (hcand df' cand e).1, hx.only⟩ (fun i => minimum_reports _ (hx.minimum i))
    (fun df' cand e => (hcand df' cand e).2) reg hx.registered ht hdate t0 hdays hnd b hb hbm hbf
  obtain ⟨a0, ha0⟩ : ∃ a, a ∈ observed res := List.exists_mem_of_ne_nil _ (by intro e; rw [e] at hn; simp at hn)
  obtain ⟨r0, hr0, -⟩ := hfit a0 ha0
  obtain ⟨p, hp, hv', herr⟩ := C88_additive w args source df res h m reg feats hm hlev hne hx hdate t0 hdays hnd hid r0 hr0
  have same : ∀ a ∈ observed res, combination feats p ((a.date - t0) / (24 * 60 * 60 * 1000000000)) a.date = forecastAt res m.name a.date := by
    intro a ha
    exact (forecastAt_eq _ _ _ hv' _ (hfit a ha)).symm
  have hsum : ∀ (q : List K) (f : List (Feature K)), (∀ φ ∈ f, φ ∈ feats) →
      errorSum res (forecastAt res m.name) (fun t => combination f q ((t - t0) / (24 * 60 * 60 * 1000000000)) t) = 0 := by
    have hz : ∀ φ ∈ feats, errorSum res (forecastAt res m.name) (fun t => φ ((t - t0) / (24 * 60 * 60 * 1000000000)) t) = 0 := by
      intro φ hφ
      rw [← herr φ hφ]
      unfold errorSum
      congr 1
      apply List.map_congr_left
      intro a ha
      dsimp only
      rw [same a ha]
    intro q f
    induction f generalizing q with
    | nil =>
      intro _
      unfold errorSum combination
      simp
    | cons φ f ih =>
      intro hf
      cases q with
      | nil =>
        unfold errorSum combination
        simp
      | cons c q =>
        have h1 := ih q (fun ψ hψ => hf ψ (List.mem_cons_of_mem _ hψ))
        have h2 := hz φ (hf φ List.mem_cons_self)
        have e : errorSum res (forecastAt res m.name) (fun t => combination (φ :: f) (c :: q) ((t - t0) / (24 * 60 * 60 * 1000000000)) t) =
            c * errorSum res (forecastAt res m.name) (fun t => φ ((t - t0) / (24 * 60 * 60 * 1000000000)) t) +
            errorSum res (forecastAt res m.name) (fun t => combination f q ((t - t0) / (24 * 60 * 60 * 1000000000)) t) := by
          unfold errorSum
          rw [← List.sum_map_mul_left, ← List.sum_map_add]
          congr 1
          apply List.map_congr_left
          intro a _
          unfold combination
          dsimp only
          rw [List.zipWith_cons_cons, List.sum_cons]
          ring
        rw [e, h1, h2]
        ring
  have h1 : errorSum res (forecastAt res m.name) (fun _ => 1) = 0 := by
    obtain ⟨u, hu, e⟩ := hlev
    have := hsum u feats (fun _ h => h)
    simp only [e] at this
    exact this
  have h2 : errorSum res (forecastAt res m.name) (forecastAt res m.name) = 0 := by
    rw [← hsum p feats (fun _ h => h)]
    unfold errorSum
    congr 1
    apply List.map_congr_left
    intro a ha
    dsimp only
    rw [same a ha]
  have hE : squaredErrors res (fun d => combination feats b.params ((d - t0) / (24 * 60 * 60 * 1000000000)) d) = squaredErrors res (forecastAt res m.name) := by
    unfold squaredErrors
    congr 1
    apply List.map_congr_left
    intro a ha
    rw [forecastAt_eq _ _ _ hv _ (hfit a ha)]
  have nonneg : ∀ g : DRow K → K, 0 ≤ ((observed res).map fun a => g a ^ 2).sum := by
    intro g
    apply List.sum_nonneg
    intro x hx
    obtain ⟨a, -, rfl⟩ := List.mem_map.1 hx
    exact sq_nonneg _
  have hs := split_variation res _ h1 h2
  have n1 : 0 ≤ explained res (forecastAt res m.name) := nonneg _
  have n2 : 0 ≤ squaredErrors res (forecastAt res m.name) := nonneg _
  refine ⟨_, hc, ?_, ?_, ?_, mean_prediction res _ h1⟩
  · rw [hE, hs]
    ring
  · rw [hE]
    linarith
  · rw [hE, hs]
    linarith

/-- **C124.** In the result of a table with one row per date and source, for every series and every fitted model that adds up effects and has a level: the
variation of the observations about their mean is the variation of the fitted values about it plus twice the reported cost, so twice the cost is at most the
variation; and the mean of the fitted values is the mean of the observations. -/
theorem C124_table [FloorRing K] [IsStrictOrderedRing K] (w : World K) (args : RunArgs K) (id : String) (t : STable K) (hp : Proper t) (s : String) (hs : IsSeries t id s)
    (res : RunResult K) (h : runForecast w args id t = .ok (some res))
    (m : ForecastModel K) (reg : Registry K) (feats : List (Feature K)) (hm : AddsUp m reg feats) (hlev : HasLevel feats) (ht : CacheTransparent reg m)
    (hx : FitsExactly w args s (seriesFrame t s) m reg) (hcount : ∀ i, KeepsCount (w.env s i))
    (hcand : ∀ df' cand, candidates w.ch args.models df' (runFreq (seriesFrame t s)) = .ok cand → (cand.2.map ForecastModel.name).Nodup ∧ ∀ m1 ∈ cand.2, Unpinned m1)
    (hid : Identifies feats (originOf t s) (observed (partOf t s res)))
    (hfit : HasFittedValues (partOf t s res) m.name) (b : MRow K) (hb : b ∈ (partOf t s res).metadata) (hbm : b.model = m.name) (hbf : b.isFit = true) :
    ∃ c, b.cost = some c ∧ variation (partOf t s res) = explained (partOf t s res) (forecastAt (partOf t s res) m.name) + 2 * c ∧ 0 ≤ c ∧
      2 * c ≤ variation (partOf t s res) ∧ meanPrediction (partOf t s res) (forecastAt (partOf t s res) m.name) = meanOf (observed (partOf t s res)) := by
  obtain ⟨hd, hrun⟩ := series_run w id t hp s hs
  exact C124_run w args s _ _ (hrun args res h) m reg feats hm hlev ht hx hcount hcand hd.dated _ hd.days hd.nodup hid hfit b hb hbm hbf

/-- **C124, straight line.** For the linear model no condition on the dates is needed. -/
theorem C124_line [FloorRing K] [IsStrictOrderedRing K] (w : World K) (args : RunArgs K) (id : String) (t : STable K) (hp : Proper t) (s : String) (hs : IsSeries t id s)
    (res : RunResult K) (h : runForecast w args id t = .ok (some res))
    (hx : FitsExactly w args s (seriesFrame t s) modelLinear fun _ => none) (hcount : ∀ i, KeepsCount (w.env s i))
    (hcand : ∀ df' cand, candidates w.ch args.models df' (runFreq (seriesFrame t s)) = .ok cand → (cand.2.map ForecastModel.name).Nodup ∧ ∀ m1 ∈ cand.2, Unpinned m1)
    (hfit : HasFittedValues (partOf t s res) "linear") (hobs : observed (partOf t s res) ≠ [])
    (b : MRow K) (hb : b ∈ (partOf t s res).metadata) (hbm : b.model = "linear") (hbf : b.isFit = true) :
    ∃ c, b.cost = some c ∧ variation (partOf t s res) = explained (partOf t s res) (forecastAt (partOf t s res) "linear") + 2 * c ∧ 0 ≤ c ∧
      2 * c ≤ variation (partOf t s res) ∧ meanPrediction (partOf t s res) (forecastAt (partOf t s res) "linear") = meanOf (observed (partOf t s res)) := by
  obtain ⟨hd, hrun⟩ := series_run w id t hp s hs
  obtain ⟨a0, ha0⟩ := List.exists_mem_of_ne_nil _ hobs
  obtain ⟨r0, hr0, -⟩ := hfit a0 ha0
  have two := observed_twoDays w args s _ _ (hrun args res h) hx.minimum hx.only hd.dated _ hd.days hd.nodup r0 hr0.1 hr0.2.1 hr0.2.2
  have hcomb : ∀ (A B : K) (x : Int) (d : Timestamp), combination lineFeatures [A, B] x d = A * (x : K) + B := by
    intro A B x d
    simp [combination, lineFeatures]
  refine C124_table w args id t hp s hs res h modelLinear (fun _ => none) lineFeatures (addsUp_linear _) ⟨[0, 1], rfl, fun x d => by rw [hcomb]; ring⟩
    (fun _ _ _ _ _ => rfl) hx hcount hcand ?_ hfit b hb hbm hbf
  intro p q hp hq hsame x d
  obtain ⟨p1, p2, rfl⟩ : ∃ a b, p = [a, b] := by
    match p, hp with
    | [a, b], _ => exact ⟨a, b, rfl⟩
  obtain ⟨q1, q2, rfl⟩ : ∃ a b, q = [a, b] := by
    match q, hq with
    | [a, b], _ => exact ⟨a, b, rfl⟩
  obtain ⟨-, u', hu', v', hv', hlt⟩ := two
  obtain ⟨u, hu, rfl⟩ := List.mem_map.1 hu'
  obtain ⟨v, hv, rfl⟩ := List.mem_map.1 hv'
  have g1 := hsame u hu
  have g2 := hsame v hv
  rw [hcomb, hcomb] at g1 g2
  rw [hcomb, hcomb]
  unfold dayNumber at hlt
  dsimp only at hlt
  have hslope : (p1 - q1) * ((((v.date - originOf t s) / (24 * 60 * 60 * 1000000000) : Int) : K) - (((u.date - originOf t s) / (24 * 60 * 60 * 1000000000) : Int) : K)) = 0 := by
    linear_combination g2 - g1
  have hp1 : p1 = q1 := by
    rcases mul_eq_zero.1 hslope with e | e
    · exact sub_eq_zero.1 e
    · exfalso
      linarith
  subst hp1
  have : p2 = q2 := by linarith
  rw [this]

/-! ### Concrete cases -/

/-- The result for the rising samples (squared weights 1, 4, 1, 1) and their regression line. -/
def risingResult : Option (RunResult ℚ) :=
  (runForecast { demoWorld with env := fun _ _ => givenEnv [60 / 31, 17 / 31] } (demoArgs [modelLinear] (some [])) "s" risingTable).toOption.bind id

/-- The variation 244/7 is split into 7200/217 and twice the reported cost 26/31; there are fitted values for all observations. -/
example : (risingResult.map fun res => (variation res, explained res (forecastAt res "linear"), res.metadata.map fun b => (b.isFit, b.cost))) =
      some (244 / 7, 7200 / 217, [(true, some (26 / 31))]) ∧
    (risingResult.map fun res => (meanPrediction res (forecastAt res "linear"), meanOf (observed res))) = some (29 / 7, 29 / 7) ∧
    (risingResult.all fun res => (observed res).length == 4 && (observed res).all fun a => res.data.any fun r => !r.isActuals && r.model == "linear" && r.date == a.date) = true := by
  decide +kernel

/-- Exact solvers return as many parameters as there are bounds. -/
example : KeepsCount (exactEnv demoEnv) := by
  intro f guess b r h
  have hs : r.success = true := by
    unfold exactEnv at h
    dsimp only at h
    split_ifs at h
    · cases h
      rfl
    · cases h
  have := (exactEnv_minimum demoEnv f guess b r h hs).1
  rw [this.2.1]

/-- The candidate has a name of its own and is not changed before the fit. -/
example (df' : Frame ℚ) (fr : Option Freq) (cand : AddMult × List (ForecastModel ℚ)) (h : candidates demoWorld.ch (demoArgs [modelLinear] (some [])).models df' fr = .ok cand) :
    (cand.2.map ForecastModel.name).Nodup ∧ ∀ m1 ∈ cand.2, Unpinned m1 := by
  have e : candidates demoWorld.ch (demoArgs [modelLinear] (some [])).models df' fr = .ok (.add, [modelLinear]) := rfl
  rw [e] at h
  cases h
  refine ⟨by simp, fun m hm => ?_⟩
  rw [List.mem_singleton] at hm
  subst hm
  exact linear_unpinned

end Anticipy
