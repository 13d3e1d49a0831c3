import Verif.Props.RunTables
import Verif.Props.RunExamples

/-
C56: forecast values and reported parameters.
-/
namespace Anticipy
open Spec
variable {K : Type} [Field K] [LinearOrder K]

/-- No parameter is pinned by equal bounds. -/
def Spec.Unpinned (m : ForecastModel K) : Prop :=
  ∀ args b, m.fBounds args = .ok b → ∀ p ∈ b.lo.zip b.hi, ∀ v : K, ¬ (p.1 = .fin v ∧ p.2 = .fin v)

omit [Field K] in
theorem degenerate_none (lo hi : List (Ext K)) (h : ∀ p ∈ lo.zip hi, ∀ v : K, ¬ (p.1 = .fin v ∧ p.2 = .fin v)) :
    (degenerate lo hi).all Option.isNone = true := by
  unfold degenerate
  induction lo generalizing hi with
  | nil => rfl
  | cons a lo ih =>
    cases hi with
    | nil => rfl
    | cons b hi =>
      rw [List.zipWith_cons_cons, List.all_cons, ih hi fun p hp => h p (List.mem_cons_of_mem _ hp), Bool.and_true]
      have h0 := h (a, b) (by simp)
      cases a <;> cases b <;> try rfl
      rename_i u v
      dsimp only
      rw [if_neg]
      · rfl
      · rintro rfl
        exact h0 v ⟨rfl, rfl⟩

theorem simplify_unpinned (label : List (Option K) → String) (m m' : ForecastModel K) (args : InitArgs K) (hu : Unpinned m)
    (h : simplifyModel label m args = .ok m') : m' = m := by
  unfold simplifyModel at h
  simp only [bind, Except.bind] at h
  cases hb : m.fBounds args with
  | error e => rw [hb] at h; cases h
  | ok b =>
    rw [hb] at h
    dsimp only at h
    rw [if_pos (degenerate_none b.lo b.hi (hu args b hb))] at h
    exact (Except.ok.inj h).symm

/-- A fit of a model without pinned parameters reports that model. -/
theorem fit_unpinned (env : Env K) (m : ForecastModel K) (df : Frame K) (actuals : Option (Frame K)) (useCache : Bool) (f : FitResult K)
    (hu : Unpinned m) (h : fitModel env m df actuals useCache = .ok f) : f.modelName = m.name := by
  unfold fitModel at h
  simp only [bind, Except.bind] at h
  cases h1 : rangeMeta m (prepare df) with
  | error e => rw [h1] at h; cases h
  | ok rng =>
    rw [h1] at h
    dsimp only at h
    split_ifs at h with c1 c2
    · cases h; rfl
    · cases h; rfl
    · cases h2 : m.validateInput (scaleX m (prepare df).xs) (prepare df).ys (prepare df).dates with
      | error e => rw [h2] at h; cases h
      | ok valid =>
        rw [h2] at h
        dsimp only at h
        split_ifs at h with c3
        · cases h; rfl
        · cases h3 : simplifyModel env.label m ⟨some (scaleX m (prepare df).xs), some (prepare df).ys, (prepare df).dates⟩ with
          | error e => rw [h3] at h; cases h
          | ok m' =>
            rw [h3] at h
            dsimp only at h
            have := simplify_unpinned _ _ _ _ hu h3
            subst this
            unfold attemptFit at h
            simp only [bind, Except.bind] at h
            split_ifs at h with c4
            · cases h4 : getResiduals m' { ax := scaleX m' (prepare df).xs, adate := (prepare df).dates, actuals := actuals } (prepare df).ys
                (prepare df).ws none with
              | error e => rw [h4] at h; cases h
              | ok r =>
                rw [h4] at h
                dsimp only at h
                cases h5 : env.aic (some (halfSumSq r)) (prepare df).xs.length m'.nParams with
                | error e => rw [h5] at h; cases h
                | ok a => rw [h5] at h; cases h; rfl
            · cases h4 : optimizeLeastSquares env m' (scaleX m' (prepare df).xs) (prepare df).ys (prepare df).dates (prepare df).ws actuals useCache with
              | error e => rw [h4] at h; cases h
              | ok r =>
                rw [h4] at h
                dsimp only at h
                cases h5 : env.aic r.cost (prepare df).xs.length m'.nParams with
                | error e => rw [h5] at h; cases h
                | ok a => rw [h5] at h; cases h; rfl

example : Unpinned (modelLinear : ForecastModel ℚ) ∧ Unpinned (modelNaive stableSort : ForecastModel ℚ) := by
  constructor <;>
  · intro args b hb p hp v
    have hb := Except.ok.inj hb
    subst hb
    have : p ∈ [((Ext.ninf : Ext ℚ), (Ext.pinf : Ext ℚ)), (.ninf, .pinf)] := by simpa using hp
    simp only [List.mem_cons, List.not_mem_nil, or_false, or_self] at this
    simp [this]

end Anticipy
