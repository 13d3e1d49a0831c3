import Verif.Props.AdditiveTable

/-
C88 for single forecasts: the errors balance whether or not the samples tell the parameters apart.
-/
namespace Anticipy
open Spec
variable {K : Type} [Field K] [LinearOrder K]

/-- The errors of the fit behind a forecast are orthogonal to all values the model can take, even if the best fit is not unique. -/
theorem balanced_row [FloorRing K] [IsStrictOrderedRing K] (w : World K) (args : RunArgs K) (source : String) (df : Frame K)
    (res : RunResult K) (h : runSingle w args source df = .ok res) (hmin : ∀ i, FindsMinimum (w.env source i))
    (m : ForecastModel K) (hu : Unpinned m) (reg : Registry K) (val : List K → Int → Timestamp → K) {P : Frame K → Prop} (hm : LinearInParameters m reg val P)
    (hl : LinearPrediction m.nParams val) (hreg : ∀ i, Registered (w.env source i).globalCache reg m)
    (hcand : ∀ df' cand, candidates w.ch args.models df' (runFreq df) = .ok cand → ∀ m' ∈ cand.2, m'.name = m.name → m' = m)
    (hdate : df.hasDate = true) (t0 : Timestamp) (hdays : CountsDays df t0) (hnd : (df.rows.map Row.x).Nodup)
    (r0 : DRow K) (hr : r0 ∈ res.data) (hact : r0.isActuals = false) (hname : r0.model = m.name) :
    observed res ≠ [] ∧ ∃ p : List K, p.length = m.nParams ∧ r0.y = some (val p ((r0.date - t0) / (24 * 60 * 60 * 1000000000)) r0.date) ∧
      ∀ q : List K, q.length = m.nParams →
        errorSum res (fun t => val p ((t - t0) / (24 * 60 * 60 * 1000000000)) t) (fun t => val q ((t - t0) / (24 * 60 * 60 * 1000000000)) t) = 0 := by
  have hval := fun (ctx : Ctx K) xs ds p h1 h2 h3 h4 (h5 : ∀ k, ctx.cache k = none) h6 =>
    hm.value ctx xs ds p h1 h2 h3 h4 (by intro k v hk; rw [h5] at hk; cases hk) h6
  have hlen : ∀ (i : Nat) (used : Frame K) (act : Option (Frame K)) (f : FitResult K), fitModel (w.env source i) m used act args.useCache = .ok f →
      f.isFit = true → f.params.length = m.nParams := by
    intro i used act f e hf
    obtain ⟨-, ctx, guess, b, r, -, -, -, h4, h5, h6, h7, -⟩ := fitModel_solver _ m _ _ _ f hu hm.params e hf
    rw [h7]
    exact (hm.free _ _ _ h4).1 (hmin i _ _ _ _ h5 h6).1
  obtain ⟨df2, hOut, hobs⟩ := observed_rows w args source df res h hdate
  have rowv := fun (r : DRow K) hr ha hn => row_value w args source df res h m hcand val hval hlen hdate t0 hdays r hr ha hn
  obtain ⟨df2', i, f, act, hOut', e2, hfit, hy⟩ := rowv r0 hr hact hname
  rw [hOut] at hOut'
  cases hOut'
  obtain ⟨u1, u2, u3, u4, u5⟩ := used_rows args.findOutliers args.start df df2 hOut
  generalize hused : usedRows (defaultWeights df2).1 = used at e2 u1 u2 u5 hobs
  have hsub : (used.rows.map Row.x).Sublist (df.rows.map Row.x) := by
    have h1 : (used.rows.map Row.x).Sublist ((defaultWeights df2).1.rows.map Row.x) := by
      rw [← hused]
      exact List.Sublist.map _ List.filter_sublist
    rw [u4] at h1
    exact h1.trans (List.Sublist.map _ List.filter_sublist)
  have hndu := hsub.nodup hnd
  have hudate : used.hasDate = true := by rw [u1, hdate]
  have hg : ∀ (ctx : Ctx K) b p, CacheCorrect reg ctx.ax ctx.adate ctx.cache → ctx.ax = scaleX m ((usableRows used).map Row.x) →
      ctx.adate = (if used.hasDate then some ((usableRows used).map Row.date) else none) →
      m.fBounds ⟨some ctx.ax, some ((usableRows used).map fun r => r.y.getD 0), none⟩ = .ok b → Admissible p b →
      m.fModel ctx (some p) false = .ok (vecOf ((usableRows used).map fun r => val p r.x r.date)) := by
    intro ctx b p a1 a2 a3 a4 a5
    rw [hudate, if_pos rfl] at a3
    rw [hm.value ctx _ _ p a2 a3 (by simp) ((hm.free _ _ _ a4).1 a5) a1 (fit_nonempty _ m used _ _ f e2 hfit), List.zipWith_map, List.zipWith_self]
  refine ⟨?_, f.params, hlen _ _ _ _ e2 hfit, hy, ?_⟩
  · intro hnil
    have := fit_nonempty _ m used _ _ f e2 hfit
    rw [hnil, List.map_nil] at hobs
    rw [List.map_eq_nil_iff.1 hobs.symm] at this
    exact this rfl
  · intro q hq
    obtain ⟨b, h1, h2, -, h5⟩ := fit_minimal _ (hmin i) m used _ _ f hu hm.params e2 hfit val reg (hreg i) hg
    rw [hm.free _ _ _ h1] at h2
    obtain ⟨g, hv, hgv⟩ := valued_self used hndu
    have hne := normal_equations used g (val f.params) (val q) (by
      intro s
      rw [hv]
      have : (fun x t => val f.params x t + s * val q x t) = val (combined s f.params q) := by
        funext x t
        rw [hl s _ _ x t h2 hq]
      rw [this]
      apply h5
      rw [hm.free _ _ _ h1]
      simp [combined, h2, hq])
    rw [← hne]
    unfold errorSum errorProduct
    have e1 : ∀ F : Timestamp × Option K × Option K → K, ((observed res).map fun a => F (a.date, a.y, a.weight)) =
        (usableRows used).map fun r => F (r.date, r.y, r.weight) := by
      intro F
      have := congrArg (List.map F) hobs
      simpa [List.map_map, Function.comp_def] using this
    rw [e1 fun c => (c.2.2.getD 0) ^ 2 * (c.2.1.getD 0 - val f.params ((c.1 - t0) / (24 * 60 * 60 * 1000000000)) c.1) *
      val q ((c.1 - t0) / (24 * 60 * 60 * 1000000000)) c.1]
    congr 1
    apply List.map_congr_left
    intro r hr
    have hmem := (List.mem_filter.1 hr).1
    obtain ⟨k, hk, k1, k2, -⟩ := u5 r hmem
    have hd : r.date = t0 + r.x * (24 * 60 * 60 * 1000000000) := by
      rw [k1, k2]
      exact hdays k (List.mem_filter.1 hk).1
    have hx : (r.date - t0) / (24 * 60 * 60 * 1000000000) = r.x := by rw [hd]; omega
    have hsh : sharing (usableRows used) r = 1 := sharing_one _ (hndu.sublist (List.Sublist.map _ List.filter_sublist)) r hr
    rw [hsh, hgv r hmem]
    dsimp only
    rw [hx]
    unfold weightOf
    rw [u2, if_pos rfl]
    push_cast
    ring

/-- **C88, single forecasts.** For any additive model with a level and any of its forecasts: the forecast is a combination of the components whose errors balance along every
component, and there are observations. The samples need not tell the components apart. -/
theorem C88_row [FloorRing K] [IsStrictOrderedRing K] (w : World K) (args : RunArgs K) (id : String) (t : STable K) (hp : Proper t) (s : String) (hs : IsSeries t id s)
    (res : RunResult K) (h : runForecast w args id t = .ok (some res))
    (m : ForecastModel K) (reg : Registry K) (feats : List (Feature K)) (hm : AddsUp m reg feats) (hlev : HasLevel feats) (hne : feats ≠ [])
    (hx : FitsExactly w args s (seriesFrame t s) m reg) (r : DRow K) (hr : ForecastOf (partOf t s res) m.name r) :
    observed (partOf t s res) ≠ [] ∧ ∃ p : List K, p.length = feats.length ∧ r.y = some (combination feats p ((r.date - originOf t s) / (24 * 60 * 60 * 1000000000)) r.date) ∧
      ∀ φ ∈ feats, errorSum (partOf t s res) (fun d => combination feats p ((d - originOf t s) / (24 * 60 * 60 * 1000000000)) d)
        (fun d => φ ((d - originOf t s) / (24 * 60 * 60 * 1000000000)) d) = 0 := by
  obtain ⟨hd, hrun⟩ := series_run w id t hp s hs
  obtain ⟨h0, p, h1, h2, h3⟩ := balanced_row w args s _ _ (hrun args res h) hx.minimum m hm.unpinned reg _ (hm.inParameters hlev hne)
    (by rw [← hm.count]; exact combination_linear feats) hx.registered hx.only hd.dated _ hd.days hd.nodup r hr.1 hr.2.1 hr.2.2
  refine ⟨h0, p, by rw [h1, hm.count], h2, ?_⟩
  intro φ hφ
  obtain ⟨l1, l2, rfl⟩ := List.append_of_mem hφ
  have zero : ∀ (f : List (Feature K)) x t, combination f (List.replicate f.length 0) x t = 0 := by
    intro f x t
    unfold combination
    induction f with
    | nil => rfl
    | cons φ f ih =>
      rw [List.length_cons, List.replicate_succ, List.zipWith_cons_cons, List.sum_cons, ih]
      ring
  have pick : ∀ x t, combination (l1 ++ φ :: l2) (List.replicate l1.length 0 ++ 1 :: List.replicate l2.length 0) x t = φ x t := by
    intro x t
    rw [combination_append _ _ _ _ (by simp), zero]
    have := zero l2 x t
    unfold combination at this ⊢
    rw [List.zipWith_cons_cons, List.sum_cons, this]
    ring
  have := h3 (List.replicate l1.length 0 ++ 1 :: List.replicate l2.length 0) (by rw [← hm.count]; simp)
  simp only [pick] at this
  exact this

end Anticipy
