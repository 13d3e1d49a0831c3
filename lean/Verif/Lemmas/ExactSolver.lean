import Verif.Props.Total
import Verif.Props.Unique

/-
A solver that finds a minimum whenever there is one, used for concrete cases.
-/
namespace Anticipy
open Spec
variable {K : Type} [Field K] [LinearOrder K]

/-- `p` with residuals `l` is a global minimum. -/
def IsMinimum (f : List K → Res (Arr K)) (b : Bounds K) (p l : List K) : Prop :=
  Admissible p b ∧ f p = .ok (vecOf l) ∧ ∀ p' l', Admissible p' b → f p' = .ok (vecOf l') → sumSq l ≤ sumSq l'

open Classical in
/-- The environment `e` with a solver that returns a global minimum if there is one, and fails otherwise. -/
noncomputable def exactEnv (e : Env K) : Env K :=
  { e with
    lsq := fun f _ b => if h : ∃ q : List K × List K, IsMinimum f b q.1 q.2 then
      Except.ok (some ⟨true, some (sumSq h.choose.2 / 2), h.choose.1⟩) else Except.ok none }

theorem exactEnv_minimum (e : Env K) : FindsMinimum (exactEnv e) := by
  intro f guess b r h hs
  unfold exactEnv at h
  dsimp only at h
  split_ifs at h with c
  swap
  · cases h
  cases h
  obtain ⟨h1, h2, h3⟩ := c.choose_spec
  exact ⟨h1, _, h2, rfl, h3⟩

/-- It finds one whenever there is one. -/
theorem exactEnv_finds (e : Env K) (f : List K → Res (Arr K)) (guess : List (Ext K)) (b : Bounds K) (p l : List K)
    (h : IsMinimum f b p l) : ∃ r, (exactEnv e).lsq f guess b = .ok (some r) ∧ r.success = true ∧ r.cost = some (sumSq l / 2) := by
  have c : ∃ q : List K × List K, IsMinimum f b q.1 q.2 := ⟨(p, l), h⟩
  refine ⟨⟨true, some (sumSq c.choose.2 / 2), c.choose.1⟩, ?_, rfl, ?_⟩
  · unfold exactEnv
    dsimp only
    rw [dif_pos c]
  · obtain ⟨h1, h2, h3⟩ := c.choose_spec
    have : sumSq c.choose.2 = sumSq l := le_antisymm (h3 _ _ h.1 h.2.1) (h.2.2 _ _ h1 h2)
    rw [this]

theorem sumSq_nonneg' [IsStrictOrderedRing K] (l : List K) : 0 ≤ sumSq l := by
  apply List.sum_nonneg
  intro v hv
  obtain ⟨e, -, rfl⟩ := List.mem_map.1 hv
  exact sq_nonneg e

/-- A dependable model whose squared residuals have a minimum is fitted with that cost. -/
theorem exact_fit [IsStrictOrderedRing K] (e : Env K) (reg : Registry K) (m : ForecastModel K) (hm : Dependable e.globalCache reg m) (df : Frame K)
    (act : Option (Frame K)) (hscore : ScoreReturns e (usableRows df).length) (hd : df.hasDate = true)
    (hx : ((usableRows df).map Row.x).Pairwise (· < ·)) (hlen : m.nParams + 2 ≤ (usableRows df).length) (hval : verdict m df = .ok true) (p l : List K)
    (hmin : ∀ b, m.fBounds ⟨some (scaleX m (prepare df).xs), some (prepare df).ys, none⟩ = .ok b →
      IsMinimum (fun p => getResiduals m { ax := scaleX m (prepare df).xs, adate := (prepare df).dates, actuals := act } (prepare df).ys (prepare df).ws (some p)) b p l) :
    ∃ f, fitModel (exactEnv e) m df act false = .ok f ∧ f.isFit = true ∧ f.cost = some (sumSq l / 2) := by
  obtain ⟨l1, l2, l3⟩ := prepare_lengths df
  obtain ⟨rng, h1⟩ := fitModel_long (exactEnv e) m df act false hlen
  have hax : (scaleX m (prepare df).xs).Pairwise (· < ·) := by
    apply scaleX_increasing
    rw [prepare_eq]
    exact hx
  have haxl : (scaleX m (prepare df).xs).length = (usableRows df).length := by
    rw [← l1]
    unfold scaleX
    split_ifs <;> simp
  obtain ⟨b0, hb0, hs0⟩ := hm.bounds _ (prepare df).ys (prepare df).dates hax (by rw [l2, haxl]) (by rw [haxl]; exact hlen)
  obtain ⟨b, hb, hs⟩ := hm.bounds _ (prepare df).ys none hax (by rw [l2, haxl]) (by rw [haxl]; exact hlen)
  obtain ⟨q, hq, -, hw⟩ := hm.guess _ (prepare df).ys e.rnd false hax (by rw [l2, haxl]) (by rw [haxl]; exact hlen)
  obtain ⟨r, r1, r2, r3⟩ := exactEnv_finds e _ (q.map .fin) b p l (hmin b hb)
  obtain ⟨a, ha⟩ := hscore r.cost m.nParams (by
    intro v hv
    rw [r3] at hv
    cases hv
    exact div_nonneg (sumSq_nonneg' l) (by norm_num)) hlen
  refine ⟨{ modelName := m.name, model := m, weights := weightsMeta df, range := rng, isFit := r.success, cost := r.cost, aic := a, params := r.params, status := (if r.success then Status.fit else Status.noFit) }, ?_, r2, r3⟩
  rw [h1, hval]
  simp only [Bind.bind, Except.bind, Bool.not_true, Bool.false_eq_true, if_false]
  rw [simplify_strict _ m _ _ hb0 hs0]
  dsimp only
  unfold attemptFit
  rw [if_neg hm.params]
  have hopt : optimizeLeastSquares (exactEnv e) m (scaleX m (prepare df).xs) (prepare df).ys (prepare df).dates (prepare df).ws act false = .ok r := by
    unfold optimizeLeastSquares
    have hq' : m.fInit (exactEnv e).rnd ⟨some (scaleX m (prepare df).xs), some (prepare df).ys, none⟩ false = .ok (q.map .fin) := hq
    rw [hq', hb]
    simp only [Bind.bind, Except.bind, C36_assertion q b (hw b hb), pyAssert, if_true, Bool.false_eq_true, if_false, Bool.false_and]
    rw [r1]
  rw [hopt]
  have ha' : (exactEnv e).aic r.cost (prepare df).xs.length m.nParams = .ok a := by rw [l1]; exact ha
  simp only [Bind.bind, Except.bind]
  rw [ha']

end Anticipy
