import Verif.Spec.ScoreCovers
import Verif.Props.Explained
import Verif.Props.Starting
import Verif.Props.Nested

/-
C55: the cost of a model that has a value for each sample accounts for all of them.
-/
namespace Anticipy
open Spec
variable {K : Type} [Field K] [LinearOrder K]

/-- **C55, models with a value for each sample.** The cost of a successful fit is half the weighted sum of the squared errors over all samples used for the
fit, for predictions of the model on these samples; it is 0 only if each sample is predicted exactly. Missing for the full claim: models without a value on
some samples, see `C55_short_series`. -/
theorem C55_covers_partial [IsStrictOrderedRing K] (env : Env K) (hs : ReportsCost env) (hk : KeepsCount env) (m : ForecastModel K) (hu : Unpinned m)
    (hc : RightCount m) (reg : Registry K) (hreg : Registered env.globalCache reg m) (df : Frame K) (actuals : Option (Frame K)) (useCache : Bool) (f : FitResult K)
    (h : fitModel env m df actuals useCache = .ok f) (hf : f.isFit = true)
    (hall : CoversSamples m reg (usableRows df).length (scaleX m ((usableRows df).map Row.x)) (if df.hasDate then some ((usableRows df).map Row.date) else none) actuals) :
    ∃ ctx p a pred, CalledOn m reg (scaleX m ((usableRows df).map Row.x)) (if df.hasDate then some ((usableRows df).map Row.date) else none) actuals ctx ∧
      (m.nParams ≠ 0 → p = some f.params) ∧ m.fModel ctx p false = .ok a ∧ Predicts (usableRows df).length a pred ∧
      f.cost = some (weightedCost ((usableRows df).map fun r => r.y.getD 0) pred
        ((usableRows df).map fun r => weightOf df.hasWeight r / (sharing (usableRows df) r : K))) ∧
      (f.cost = some 0 ↔ pred = (usableRows df).map fun r => r.y.getD 0) := by
  have hys : (prepare df).ys = (usableRows df).map fun r => r.y.getD 0 := by rw [prepare_eq]
  have hds : (prepare df).dates = if df.hasDate then some ((usableRows df).map Row.date) else none := by rw [prepare_eq]
  have hl : (prepare df).ys.length = (usableRows df).length := by rw [hys]; simp
  have key : ∀ ctx p a pred res, m.fModel ctx p false = .ok a → Predicts (usableRows df).length a pred →
      getResiduals m ctx (prepare df).ys (prepare df).ws p = .ok res → f.cost = some (halfSumSq res) →
      f.cost = some (weightedCost ((usableRows df).map fun r => r.y.getD 0) pred
        ((usableRows df).map fun r => weightOf df.hasWeight r / (sharing (usableRows df) r : K))) ∧
      (f.cost = some 0 ↔ pred = (usableRows df).map fun r => r.y.getD 0) := by
    intro ctx p a pred res ha hp hr hcost
    obtain ⟨res1, r1, r2⟩ := C34_cost m ctx (prepare df).ys (prepare df).ws p a pred ha (by rw [hl]; exact hp)
      (by intro w h; rw [hl]; exact prepare_weights_length df w h)
    obtain ⟨res2, r3, r4⟩ := C34_perfect m ctx df p a pred ha hp
    rw [hr] at r1 r3
    cases r1
    cases r3
    rw [hl, prepare_weights, hys] at r2
    rw [hcost]
    refine ⟨by rw [r2], ?_⟩
    rw [← r4, Option.some.injEq]
  by_cases hn : m.nParams = 0
  · obtain ⟨res, h1, h2, -⟩ := fitModel_noparams env m df actuals useCache f hu hn h hf
    rw [hds] at h1
    have hcall : CalledOn m reg (scaleX m ((usableRows df).map Row.x)) (if df.hasDate then some ((usableRows df).map Row.date) else none) actuals
        { ax := scaleX m ((usableRows df).map Row.x), adate := if df.hasDate then some ((usableRows df).map Row.date) else none, actuals := actuals } :=
      ⟨rfl, rfl, rfl, by intro k v hv; cases hv⟩
    obtain ⟨a, pred, ha, hp⟩ := hall _ none hcall (by rw [if_pos hn])
    exact ⟨_, none, a, pred, hcall, fun c => absurd hn c, ha, hp, key _ _ _ _ _ ha hp h1 h2⟩
  · obtain ⟨-, ctx, guess, b, r, h1, h2, h3, h4, h5, h6, h7, h8, h9, -⟩ := fitModel_solver env m df actuals useCache f hu hn h hf
    have hcall : CalledOn m reg (scaleX m ((usableRows df).map Row.x)) (if df.hasDate then some ((usableRows df).map Row.date) else none) actuals ctx :=
      ⟨h1, h2, h3, h9 reg hreg⟩
    have hlen : r.params.length = m.nParams := by rw [hk _ _ _ _ h5, (hc.2 _ _ h4).1]
    obtain ⟨a, pred, ha, hp⟩ := hall ctx (some r.params) hcall (by rw [if_neg hn]; exact ⟨_, rfl, hlen⟩)
    have hr := getResiduals_eq m ctx (prepare df).ys (prepare df).ws (some r.params) a pred ha (by rw [hl]; exact hp)
      (by intro w h; rw [hl]; exact prepare_weights_length df w h)
    have hcost := hs _ _ _ _ _ h5 h6 hr
    refine ⟨ctx, some r.params, a, pred, hcall, fun _ => by rw [h7], ha, hp, key _ _ _ _ _ ha hp hr ?_⟩
    rw [h8, hcost, halfSumSq_vecOf]
    congr 1
    unfold sumSq
    ring

/-- The straight line has a value for each sample, whatever the samples are. -/
theorem covers_line (xs : List Int) (ds : Option (List Timestamp)) (actuals : Option (Frame K)) (reg : Registry K) :
    CoversSamples (modelLinear : ForecastModel K) reg xs.length (scaleX modelLinear xs) ds actuals := by
  intro ctx p hctx hp
  rw [if_neg (by simp [modelLinear, mkModel])] at hp
  obtain ⟨q, rfl, hq⟩ := hp
  obtain ⟨a, b, rfl⟩ := List.length_eq_two.1 hq
  refine ⟨_, (scaleX modelLinear xs).map fun x => a * x + b, rfl, ?_, .inl ?_⟩
  · simp [scaleX]
    split <;> simp
  · simp [hctx.x, vecOf]

/-- The hypotheses hold for the straight line and the exact solver, with samples that do not lie on a line; `Verif/Props/Nested.lean` shows a successful fit. -/
example : ReportsCost (exactEnv demoEnv) ∧ Unpinned (modelLinear : ForecastModel ℚ) ∧ RightCount (modelLinear : ForecastModel ℚ) ∧
    Registered demoEnv.globalCache demoEnv.globalCache (modelLinear : ForecastModel ℚ) ∧
    CoversSamples (modelLinear : ForecastModel ℚ) demoEnv.globalCache 3 (scaleX modelLinear [0, 1, 5]) none none :=
  ⟨minimum_reports _ (exactEnv_minimum _), default_unpinned _ rfl, count_library _ (.inl (by simp)),
    ⟨fun k _ f hf => hf, by simp [modelLinear, mkModel]⟩, covers_line [0, 1, 5] none none _⟩

end Anticipy
