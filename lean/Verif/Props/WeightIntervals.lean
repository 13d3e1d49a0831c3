import Verif.Props.Additive
import Verif.Props.WeightChoice

/-
C76 for the whole forecast table: with all weights multiplied by the same positive number the intervals are the same as well.
-/
namespace Anticipy
open Spec
variable {K : Type} [Field K] [LinearOrder K]

/-- Weight of an actual row multiplied by `k`. -/
def reweightF (k : K) (r : FRow K) : FRow K := { r with weight := if r.isActuals then r.weight.map fun w => k * w else r.weight }

theorem reweightF_zero [IsStrictOrderedRing K] (k : K) (hk : 0 < k) (r : FRow K) : (reweightF k r).weight = some 0 ↔ r.weight = some 0 := by
  obtain ⟨t, s, m, a, b, y, v⟩ := r
  cases a <;> cases v <;> simp [reweightF, hk.ne']

theorem reweightF_positive [IsStrictOrderedRing K] (k : K) (hk : 0 < k) (r : FRow K) :
    (∃ v ∈ (reweightF k r).weight, 0 < v) ↔ ∃ v ∈ r.weight, 0 < v := by
  obtain ⟨t, s, m, a, b, y, v⟩ := r
  cases a <;> cases v <;> simp [reweightF, hk]

theorem filter_reweightF (k : K) (p : FRow K → Bool) (hp : ∀ r, p (reweightF k r) = p r) (l : List (FRow K)) :
    (l.map (reweightF k)).filter p = (l.filter p).map (reweightF k) := by
  rw [List.filter_map]
  congr 1
  apply List.filter_congr
  intro r _
  exact hp r

theorem unfiltered_reweightF (k : K) (l : List (FRow K)) : actualsUnfiltered (l.map (reweightF k)) = (actualsUnfiltered l).map (reweightF k) := by
  unfold actualsUnfiltered
  exact filter_reweightF k _ (fun r => rfl) l

theorem filtered_reweightF [IsStrictOrderedRing K] (k : K) (hk : 0 < k) (t t' : FTable K) (h2 : t'.hasSource = t.hasSource) (h3 : t'.hasWeight = t.hasWeight)
    (l : List (FRow K)) : actualsFiltered t' (l.map (reweightF k)) = actualsFiltered t l := by
  have hz : anyZeroWeight t' (l.map (reweightF k)) = anyZeroWeight t l := by
    unfold anyZeroWeight
    rw [h3, List.any_map]
    congr 2
    funext r
    simp only [Function.comp, reweightF_zero k hk]
  have hd : (l.map (reweightF k)).filter (fun r => r.isActuals && decide (∃ w ∈ r.weight, 0 < w)) =
      (l.filter fun r => r.isActuals && decide (∃ w ∈ r.weight, 0 < w)).map (reweightF k) := by
    refine filter_reweightF k _ ?_ l
    intro r
    have : (reweightF k r).isActuals = r.isActuals := rfl
    rw [this]
    simp only [reweightF_positive k hk]
  unfold actualsFiltered
  rw [hz, h2]
  split_ifs
  · dsimp only
    rw [hd, unfiltered_reweightF, List.flatMap_map]
    congr 2
    apply List.flatMap_congr
    intro r _
    rw [filter_reweightF k _ (fun _ => rfl), List.filterMap_map]
    rfl
  · rfl
  · rw [unfiltered_reweightF, List.filterMap_map]
    rfl

omit [LinearOrder K] in
theorem residuals_reweightF (k : K) (l : List (FRow K)) (acts : List (ActualRow K)) (b : Bool) : residuals (l.map (reweightF k)) acts b = residuals l acts b := by
  unfold residuals
  rw [List.filter_map, List.flatMap_map]
  rfl

theorem addPercentiles_reweightF [FloorRing K] (k : K) (l : List (FRow K)) (sample : List (List K)) (q1 q2 : K) :
    addPercentiles (l.map (reweightF k)) sample q1 q2 = addPercentiles l sample q1 q2 := by
  unfold addPercentiles
  have : ∀ f : Nat → FRow K → PRow K, (∀ j r, f j (reweightF k r) = f j r) → (l.map (reweightF k)).mapIdx f = l.mapIdx f := by
    intro f hf
    apply List.ext_getElem (by simp)
    intro i h1 h2
    simp [hf]
  dsimp only
  rw [this _ (fun _ _ => rfl)]

/-- The intervals do not depend on a common factor of the weights of the samples. -/
theorem piSingle_reweightF [FloorRing K] [IsStrictOrderedRing K] (k : K) (hk : 0 < k) (draw : Nat → Nat → Nat) (t t' : FTable K) (h1 : t'.numDate = t.numDate)
    (h2 : t'.hasSource = t.hasSource) (h3 : t'.hasWeight = t.hasWeight) (h4 : selectRows t' = (selectRows t).map (reweightF k)) (nSims : Nat) (nCum : Int)
    (q1 q2 : K) : piSingle draw t' nSims nCum q1 q2 = piSingle draw t nSims nCum q1 q2 := by
  have e1 : cumPeriod t' ((selectRows t).map (reweightF k)) nCum = cumPeriod t (selectRows t) nCum := by
    unfold cumPeriod
    rw [h1, List.map_map]
    rfl
  have e3 : ∀ p : FRow K → Bool, (∀ r, p (reweightF k r) = p r) → ((selectRows t).map (reweightF k)).filter p = ((selectRows t).filter p).map (reweightF k) :=
    fun p hp => filter_reweightF k p hp _
  have e4 : ((actualsUnfiltered (selectRows t)).map (reweightF k)).map actualOut = (actualsUnfiltered (selectRows t)).map actualOut := by
    rw [List.map_map]
    rfl
  unfold piSingle
  dsimp only
  rw [h4, e1, filtered_reweightF k hk t t' h2 h3, h2]
  refine congrArg _ (funext fun n => ?_)
  refine congrArg _ (funext fun p => ?_)
  simp only [residuals_reweightF, unfiltered_reweightF, e4, List.map_eq_nil_iff]
  split
  · rename_i last a l hl hr
    rw [e3 _ (fun _ => rfl), e3 _ (fun _ => rfl)]
    simp only [addPercentiles_reweightF, List.length_map]
  · rfl

/-- **C76, forecast table.** Dated series with weights. If the returned forecast is that of the same additive model in both runs, the whole forecast table,
with its quantile columns, is the same when all weights are multiplied by a positive number. Both solvers find the minimum and the random draws are the same. -/
theorem C76_intervals [FloorRing K] [IsStrictOrderedRing K] (w w' : World K) (args args' : RunArgs K) (source : String) (df : Frame K) (k : K)
    (hk : 0 < k) (hw : df.hasWeight = true) (res res' : RunResult K) (h : runSingle w args source df = .ok res)
    (h' : runSingle w' args' source (reweighted k df) = .ok res')
    (hargs : args'.start = args.start ∧ args'.findOutliers = args.findOutliers ∧ args'.years = args.years ∧ args'.nCum = args.nCum ∧
      args'.q1 = args.q1 ∧ args'.q2 = args.q2 ∧ args'.widening = args.widening) (hdraw : w'.draw source = w.draw source)
    (m : ForecastModel K) (hma : m.name ≠ "actuals") (reg : Registry K) (feats : List (Feature K)) (hm : AddsUp m reg feats) (hlev : HasLevel feats)
    (hne : feats ≠ []) (hx : FitsExactly w args source df m reg) (hx' : FitsExactly w' args' source df m reg)
    (hnames : ∀ df' cand, candidates w.ch args.models df' (runFreq df) = .ok cand → (cand.2.map ForecastModel.name).Nodup)
    (hnames' : ∀ df' cand, candidates w'.ch args'.models df' (runFreq df) = .ok cand → (cand.2.map ForecastModel.name).Nodup)
    (hdate : df.hasDate = true) (t0 : Timestamp) (hdays : CountsDays df t0) (hnd : (df.rows.map Row.x).Nodup) (hid : Identifies feats t0 (observed res))
    (hb : ∃ r, ForecastOf res m.name r ∧ r.isBest = true) (hb' : ∃ r, ForecastOf res' m.name r ∧ r.isBest = true) :
    res'.forecast = res.forecast := by
  obtain ⟨r, hr, hbr⟩ := hb
  obtain ⟨r', hr', hbr'⟩ := hb'
  have hlp := hm.inParameters hlev hne
  have hlen : ∀ (env : Env K), FindsMinimum env → ∀ (used : Frame K) act cc f, fitModel env m used act cc = .ok f → f.isFit = true →
      f.params.length = m.nParams := by
    intro env he used act cc f e hf
    obtain ⟨-, ctx, guess, b, r, -, -, -, h4, h5, h6, h7, -⟩ := fitModel_solver _ m _ _ _ f hm.unpinned hlp.params e hf
    rw [h7]
    exact (hlp.free _ _ _ h4).1 (he _ _ _ _ h5 h6).1
  have hval := fun (ctx : Ctx K) xs ds p h1 h2 h3 h4 (h5 : ∀ k, ctx.cache k = none) h6 =>
    hlp.value ctx xs ds p h1 h2 h3 h4 (by intro k v hk; rw [h5] at hk; cases hk) h6
  obtain ⟨df2, i, f, act, start, x0, sx, hOut, e2, hfit, s1, s2, s3, s4⟩ := selected_rows w args source df res h m hma hx.only hnames
    ⟨r, hr.1, hr.2.1, hbr, hr.2.2⟩ hdate _ hval (fun i used act f e hf => hlen _ (hx.minimum i) used act _ f e hf)
  obtain ⟨df2', i', f', act', start', x0', sx', hOut', e2', hfit', s1', s2', s3', s4'⟩ := selected_rows w' args' source _ res' h' m hma
    (by rw [runFreq_reweighted]; exact hx'.only) (by rw [runFreq_reweighted]; exact hnames') ⟨r', hr'.1, hr'.2.1, hbr', hr'.2.2⟩ hdate _ hval
    (fun i used act f e hf => hlen _ (hx'.minimum i) used act _ f e hf)
  obtain ⟨a1, a2, a3, a4, a5, a6, a7⟩ := hargs
  have hsim := reweighted_stages k hk df hw args args' a1 a2 df2 df2' hOut hOut'
  have hw1 : (filterStart args.start df).hasWeight = true := by rw [filterStart_hasWeight]; exact hw
  have hw2 := applyOutliers_hasWeight _ _ _ hw1 hOut
  rw [a1, a2, filterStart_reweighted, applyOutliers_reweighted k _ _ hw1, hOut] at hOut'
  have hOut' := (Except.ok.inj hOut').symm
  subst hOut'
  have hdw : (defaultWeights df2).1 = df2 := defaultWeights_weighted _ hw2
  have hdw' : (defaultWeights (reweighted k df2)).1 = reweighted k df2 := defaultWeights_weighted _ hw2
  have hax : ∀ g : Frame K, axisOf (reweighted k g) = axisOf g := by
    intro g
    unfold axisOf reweighted
    simp only [List.map_map]
    rfl
  have hxs : ∀ g : Frame K, (reweighted k g).rows.map Row.x = g.rows.map Row.x := by
    intro g
    unfold reweighted
    simp only [List.map_map]
    rfl
  obtain ⟨u1, u2, u3, u4, u5⟩ := used_rows args.findOutliers args.start df df2 hOut
  have hsub : ((usedRows (defaultWeights df2).1).rows.map Row.x).Sublist (df.rows.map Row.x) := by
    have h1 : ((usedRows (defaultWeights df2).1).rows.map Row.x).Sublist ((defaultWeights df2).1.rows.map Row.x) :=
      List.Sublist.map _ List.filter_sublist
    rw [u4] at h1
    exact h1.trans (List.Sublist.map _ List.filter_sublist)
  have hst := (C30_status _ m _ _ _ f e2).2.2
  have hlong := hst.1.1 (.inl (hst.2.2.1 hfit))
  obtain ⟨l1, l2, hfv⟩ := similar_fitted _ _ (hx.minimum i) (hx'.minimum i') m _ _ 0 1 0 one_ne_zero hsim _ _ _ _ f f' hm.unpinned (by rw [u1, hdate]) e2 e2'
    hfit hfit' _ reg (hx.registered i) (hx'.registered i') hlp (by intro p x t; rw [add_zero])
  have hfol : ∀ x t, combination feats f'.params x t = combination feats f.params x t :=
    hlp.determined _ (telling_observed w args source df res h hdate t0 hdays feats hid df2 hOut) _ _ l2 l1 (by rw [u1, hdate]) (hsub.nodup hnd) hlong.1 hlong.2
      (by intro q hq; rw [hfv q hq, one_mul, add_zero])
  rw [hdw'] at s1' s2' s3' s4'
  rw [hdw] at s1 s2 s3 s4
  rw [usedRows_reweighted k hk] at s1' s2'
  rw [hax, s1] at s1'
  rw [hxs, s2] at s2'
  cases s1'
  cases s2'
  rw [hax, runFreq_reweighted, a3, s3] at s3'
  cases s3'
  have hrows : selectRows (toFTable (reweighted k df).hasDate res'.data) = (selectRows (toFTable df.hasDate res.data)).map (reweightF k) := by
    rw [s4, s4', List.map_append, List.map_map]
    congr 1
    · unfold reweighted
      simp only [List.map_map]
      rfl
    · rw [List.map_map]
      apply List.map_congr_left
      intro p _
      simp only [Function.comp, reweightF, hfol]
      rfl
  obtain ⟨-, -, -, -, hpi⟩ := runSingle_inv w args source df res h
  obtain ⟨-, -, -, -, hpi'⟩ := runSingle_inv w' args' source _ res' h'
  rw [getPi_one_source _ _ _ source (run_sources w args source df res h).1] at hpi
  rw [getPi_one_source _ _ _ source (run_sources w' args' source _ res' h').1, hdraw, a4, a5, a6, a7,
    piSingle_reweightF k hk _ (toFTable df.hasDate res.data) (toFTable (reweighted k df).hasDate res'.data) rfl rfl rfl hrows, hpi] at hpi'
  exact (Except.ok.inj hpi').symm

/-! ### A concrete case -/

/-- The scattered samples, one of which does not count, with weights seven times as large: least squares gives the same line and the whole table is the same. -/
example : ((scatterOf [55 / 31, 13 / 31] scatterFrame).map fun r => (r.data.filter fun q => !q.isActuals && q.isBest).map (fun q => q.model)) =
      some (List.replicate 8 "linear") ∧
    ((scatterOf [55 / 31, 13 / 31] (reweighted 7 scatterFrame)).map fun r => r.forecast) = (scatterOf [55 / 31, 13 / 31] scatterFrame).map fun r => r.forecast := by
  decide +kernel

end Anticipy
