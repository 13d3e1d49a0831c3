import Verif.Props.Fit
import Verif.Props.Naive

/-
C55: what the score of a model without parameters is based on.
-/
namespace Anticipy
open Spec
variable {K : Type} [Field K] [LinearOrder K]

theorem halfSumSq_undefined (n : Nat) : halfSumSq (K := K) (.vec (List.replicate n none)) = 0 := by
  unfold halfSumSq
  dsimp only
  rw [List.map_replicate]
  simp

omit [LinearOrder K] in
theorem lift2_none_right (op : K → K → K) (l : List (Option K)) (n : Nat) (h : l.length = n) :
    List.zipWith (lift2 op) l (List.replicate n none) = List.replicate n none := by
  subst h
  induction l with
  | nil => rfl
  | cons a l ih =>
    rw [List.length_cons, List.replicate_succ, List.zipWith_cons_cons, ih]
    cases a <;> rfl

omit [LinearOrder K] in
theorem lift2_none_left (op : K → K → K) (l : List (Option K)) (n : Nat) (h : l.length = n) :
    List.zipWith (lift2 op) (List.replicate n none) l = List.replicate n none := by
  subst h
  induction l with
  | nil => rfl
  | cons a l ih =>
    rw [List.length_cons, List.replicate_succ, List.zipWith_cons_cons, ih]
    rfl

/-- Residuals of a model that predicts nothing. -/
theorem residuals_undefined (m : ForecastModel K) (ctx : Ctx K) (ay : List K) (aw : Option (List K)) (p : Params K)
    (h : m.fModel ctx p false = .ok (.vec (List.replicate ay.length none))) (hw : ∀ w, aw = some w → w.length = ay.length) :
    getResiduals m ctx ay aw p = .ok (.vec (List.replicate ay.length none)) := by
  have e1 : Arr.bin (fun a b : K => a - b) (vecOf ay) (.vec (List.replicate ay.length none)) = .ok (.vec (List.replicate ay.length none)) := by
    unfold vecOf Arr.bin
    simp only [List.length_map, List.length_replicate, if_true]
    rw [lift2_none_right _ _ _ (by simp)]
  unfold getResiduals
  rw [h]
  simp only [bind, Except.bind, e1]
  cases aw with
  | none => simp [Arr.abs]
  | some w =>
    have hl := hw w rfl
    have e2 : Arr.bin (fun a b : K => a * b) (.vec (List.replicate ay.length none)) (vecOf w) = .ok (.vec (List.replicate ay.length none)) := by
      unfold vecOf Arr.bin
      simp only [List.length_map, List.length_replicate, hl, if_true]
      rw [lift2_none_left _ _ _ (by simp [hl])]
    simp only [e2]
    simp [Arr.abs]

/-- The samples of a table as arguments of a model function. -/
def sampleCtx (df actuals : Frame K) : Ctx K :=
  { ax := df.rows.map fun r => ((r.x : Int) : K), adate := some (df.rows.map Row.date), actuals := some actuals }

/-- **C55 refuted for short daily series.** Whatever the values are, with at most one sample per weekday the seasonal naive model counts as a successful
fit with cost 0: samples without a prediction are ignored by the cost. -/
theorem C55_short_series [IsStrictOrderedRing K] (env : Env K) (srt : SortAlg) (df actuals : Frame K) (useCache : Bool)
    (hd : df.hasDate = true) (hw : df.hasWeight = true) (hlen : 2 ≤ df.rows.length) (hx : df.rows.Pairwise fun a b => a.x < b.x)
    (hu : ∀ r ∈ df.rows, Usable true r) (had : actuals.hasDate = true) (hax : actuals.rows.Pairwise fun a b => a.x < b.x)
    (hin : ∀ r ∈ df.rows, ∃ q ∈ actuals.rows, q.x = r.x ∧ q.date = r.date)
    (hwd : actuals.rows.Pairwise fun a b => weekday a.date ≠ weekday b.date) (score : Ext K)
    (haic : env.aic (some 0) df.rows.length 0 = .ok score) :
    ∃ f, fitModel env (modelSnaiveWday srt) df (some actuals) useCache = .ok f ∧ f.isFit = true ∧ f.cost = some 0 ∧ f.aic = score := by
  have hf1 : df.rows.filter hasY = df.rows := by
    rw [List.filter_eq_self]
    intro r hr
    obtain ⟨⟨v, hv⟩, -⟩ := hu r hr
    simp [hasY, hv]
  have hf2 : df.rows.filter posWeight = df.rows := by
    rw [List.filter_eq_self]
    intro r hr
    obtain ⟨w, hv, hp⟩ := (hu r hr).2 rfl
    simp [posWeight, hv, hp]
  have hdup : hasDup (df.rows.map Row.x) = false := by
    rw [hasDup_false, List.nodup_iff_pairwise_ne, List.pairwise_map]
    exact hx.imp fun h => h.ne
  have hprep : prepare df = ⟨df.rows.map Row.x, df.rows.map fun r => r.y.getD 0, some (df.rows.map Row.date),
      some (df.rows.map fun r => r.weight.getD 0)⟩ := by
    unfold prepare
    simp only [hf1, hw, if_true, hf2, hdup, hd]
    rfl
  have hne : df.rows ≠ [] := by
    intro hc
    rw [hc] at hlen
    simp at hlen
  obtain ⟨a, ha⟩ : ∃ a, listMin (df.rows.map Row.date) = some a := by
    cases hr : df.rows with
    | nil => exact absurd hr hne
    | cons r l => simp only [List.map_cons, listMin]; cases listMin (l.map Row.date) <;> exact ⟨_, rfl⟩
  obtain ⟨b, hb⟩ : ∃ b, listMax (df.rows.map Row.date) = some b := by
    cases hr : df.rows with
    | nil => exact absurd hr hne
    | cons r l => simp only [List.map_cons, listMax]; cases listMax (l.map Row.date) <;> exact ⟨_, rfl⟩
  have hscale : scaleX (modelSnaiveWday srt) (df.rows.map Row.x) = df.rows.map fun r => ((r.x : Int) : K) := by
    unfold scaleX
    rw [if_neg (by simp [modelSnaiveWday, mkModel])]
    rw [List.map_map]
    rfl
  have hzip : (df.rows.map fun r => ((r.x : Int) : K)).zip (df.rows.map Row.date) = df.rows.map fun r => (((r.x : Int) : K), r.date) := by
    rw [List.zip_map']
  have hmodel : (modelSnaiveWday srt).fModel (sampleCtx df actuals) none false = .ok (.vec (List.replicate df.rows.length none)) := by
    rw [snaive_eval srt _ actuals (df.rows.map Row.date) none false rfl rfl had rfl (by simp [sampleCtx]) ?_ hax ?_]
    · congr 2
      dsimp only [sampleCtx]
      rw [hzip, List.map_map]
      rw [List.eq_replicate_iff]
      refine ⟨by simp, ?_⟩
      intro v hv
      obtain ⟨r, hr, rfl⟩ := List.mem_map.1 hv
      obtain ⟨q, hq, e1, e2⟩ := hin r hr
      simp only [Function.comp]
      cases hs : snaiveValue actuals.rows ((r.x : K), r.date) with
      | none => rfl
      | some v =>
        exfalso
        obtain ⟨p, hp, -, hlt, -⟩ := (snaiveValue_some actuals.rows hax _ v).1 hs
        have hp' := List.mem_filter.1 hp
        have hwp : weekday p.date = weekday q.date := by rw [e2]; exact of_decide_eq_true hp'.2
        have hnd : (actuals.rows.map fun r => weekday r.date).Nodup := by
          rw [List.nodup_iff_pairwise_ne, List.pairwise_map]
          exact hwd
        have hpq : p = q := List.inj_on_of_nodup_map hnd hp'.1 hq hwp
        rw [hpq, e1] at hlt
        exact lt_irrefl _ hlt
    · dsimp only [sampleCtx]
      rw [List.pairwise_map]
      exact hx.imp fun h => by exact_mod_cast h
    · intro e he
      dsimp only [sampleCtx] at he
      rw [hzip] at he
      obtain ⟨r, hr, rfl⟩ := List.mem_map.1 he
      obtain ⟨q, hq, e1, e2⟩ := hin r hr
      exact .inl ⟨q, hq, by rw [e1], e2⟩
  have hres := residuals_undefined (modelSnaiveWday srt) (sampleCtx df actuals) (df.rows.map fun r => r.y.getD 0) (some (df.rows.map fun r => r.weight.getD 0)) none (by simpa using hmodel) (by simp)
  unfold fitModel
  rw [hprep]
  have hrng : rangeMeta (modelSnaiveWday (K := K) srt) (⟨df.rows.map Row.x, df.rows.map fun r => r.y.getD 0, some (df.rows.map Row.date),
      some (df.rows.map fun r => r.weight.getD 0)⟩ : FitInput K) = .ok (.days (dayOf a) (dayOf b)) := by
    simp only [rangeMeta, ha, hb]
  have hval : ∀ ax ay ad, (modelSnaiveWday (K := K) srt).validateInput ax ay ad = .ok true := fun _ _ _ => rfl
  have hsimp : ∀ args, simplifyModel env.label (modelSnaiveWday (K := K) srt) args = .ok (modelSnaiveWday srt) := fun _ => rfl
  have hn0 : (modelSnaiveWday (K := K) srt).nParams = 0 := rfl
  simp only [bind, Except.bind, hrng, hscale, hval, hsimp, hn0]
  rw [if_neg (by simpa using hne), if_neg (by simp; omega)]
  simp only [Bool.not_true, Bool.false_eq_true, if_false, attemptFit, hn0, if_true, bind, Except.bind]
  unfold sampleCtx at hres
  simp only [hres, halfSumSq_undefined]
  simp only [List.length_map, haic]
  exact ⟨_, rfl, rfl, rfl, rfl⟩

end Anticipy
