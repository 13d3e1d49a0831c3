import Verif.Spec.Fit
import Verif.Lemmas.ListOps
import Mathlib.Algebra.Order.Ring.Rat
import Mathlib.Algebra.Order.Field.Basic
import Mathlib.Algebra.Order.BigOperators.Group.List
import Mathlib.Algebra.BigOperators.Ring.List
import Mathlib.Tactic.Linarith
import Mathlib.Tactic.Ring
import Mathlib.Tactic.FieldSimp
import Mathlib.Tactic.Positivity

/-
C29 (ignored samples), C30 (outcomes of a fit), C33 (repeated x), C34 (cost).
-/
namespace Anticipy
open Spec
variable {K : Type} [Field K] [LinearOrder K]

/-! ### C29 -/

theorem hasY_iff (r : Row K) : hasY r = true ↔ ∃ v, r.y = some v := by
  cases h : r.y <;> simp [hasY, h]

theorem posWeight_iff (r : Row K) : posWeight r = true ↔ ∃ w, r.weight = some w ∧ 0 < w := by
  cases h : r.weight <;> simp [posWeight, h]

/-- The two filters of the code select the usable rows. -/
theorem prepare_rows (df : Frame K) :
    (if df.hasWeight then (df.rows.filter hasY).filter posWeight else df.rows.filter hasY) = usableRows df := by
  unfold usableRows
  cases h : df.hasWeight
  · simp only [Bool.false_eq_true, if_false]
    apply List.filter_congr
    intro r _
    rw [Bool.eq_iff_iff, hasY_iff, decide_eq_true_iff]
    simp [Usable]
  · simp only [if_true, List.filter_filter]
    apply List.filter_congr
    intro r _
    rw [Bool.eq_iff_iff, Bool.and_eq_true, hasY_iff, posWeight_iff, decide_eq_true_iff]
    simp only [Usable, true_imp_iff]
    exact and_comm

/-- The arrays handed to a fit as a function of the usable rows. -/
theorem prepare_eq (df : Frame K) : prepare df =
    { xs := (usableRows df).map Row.x
      ys := (usableRows df).map fun r => r.y.getD 0
      dates := if df.hasDate then some ((usableRows df).map Row.date) else none
      ws := if hasDup ((usableRows df).map Row.x) then
          some ((usableRows df).map fun r => (if df.hasWeight then r.weight.getD 0 else 1) / (multiplicity (usableRows df) r : K))
        else if df.hasWeight then some ((usableRows df).map fun r => r.weight.getD 0) else none } := by
  simp only [prepare, prepare_rows]

theorem map_outcome_bind {α : Type} (x : Res α) (f g : α → Res (FitResult K))
    (h : ∀ a, (f a).map outcome = (g a).map outcome) : (x >>= f).map outcome = (x >>= g).map outcome := by
  cases x with
  | error e => rfl
  | ok a => exact h a

theorem attemptFit_outcome (env : Env K) (n : Nat) (m : ForecastModel K) (inp : FitInput K) (ax : List K) (w w' : WeightsMeta K)
    (rng : RangeMeta) (actuals : Option (Frame K)) (c : Bool) :
    (attemptFit env n m inp ax w rng actuals c).map outcome = (attemptFit env n m inp ax w' rng actuals c).map outcome := by
  unfold attemptFit
  split
  · refine map_outcome_bind _ _ _ fun a => map_outcome_bind _ _ _ fun b => rfl
  · refine map_outcome_bind _ _ _ fun a => map_outcome_bind _ _ _ fun b => rfl

/-- **C29.** Two tables with the same usable samples give the same outcome for every model, optimiser, random stream and
score: samples without value, without weight or with a weight of zero or below have no influence. -/
theorem C29_ignored_samples (env : Env K) (m : ForecastModel K) (df df' : Frame K) (actuals : Option (Frame K)) (c : Bool)
    (hd : df.hasDate = df'.hasDate) (hw : df.hasWeight = df'.hasWeight) (h : usableRows df = usableRows df') :
    (fitModel env m df actuals c).map outcome = (fitModel env m df' actuals c).map outcome := by
  have hp : prepare df = prepare df' := by rw [prepare_eq, prepare_eq, h, hd, hw]
  unfold fitModel
  dsimp only
  rw [hp]
  refine map_outcome_bind _ _ _ fun rng => ?_
  split
  · rfl
  split
  · rfl
  refine map_outcome_bind _ _ _ fun v => ?_
  split
  · rfl
  refine map_outcome_bind _ _ _ fun m' => ?_
  exact attemptFit_outcome ..

/-- **C29, insertion form.** Inserting unusable samples anywhere does not change the outcome. -/
theorem C29_insert (env : Env K) (m : ForecastModel K) (df : Frame K) (before after extra : List (Row K)) (actuals : Option (Frame K))
    (c : Bool) (hdf : df.rows = before ++ after) (hx : ∀ r ∈ extra, ¬ Usable df.hasWeight r) :
    (fitModel env m { df with rows := before ++ extra ++ after } actuals c).map outcome =
      (fitModel env m df actuals c).map outcome := by
  apply C29_ignored_samples env m { df with rows := before ++ extra ++ after } df actuals c rfl rfl
  unfold usableRows
  rw [hdf]
  simp only [List.filter_append]
  have : extra.filter (fun r => decide (Usable df.hasWeight r)) = [] := by
    rw [List.filter_eq_nil_iff]
    intro r hr
    simpa using hx r hr
  rw [this, List.append_nil]

/-! ### C30 -/

/-- The x values the code hands to validation. -/
theorem prepare_length (df : Frame K) : (prepare df).xs.length = (usableRows df).length := by
  rw [prepare_eq]; simp

theorem rangeMeta_empty (m : ForecastModel K) (df : Frame K) (h : usableRows df = []) : rangeMeta m (prepare df) = .error .valueError := by
  rw [prepare_eq, h]
  unfold rangeMeta
  cases df.hasDate <;> simp [listMin, listMax]

theorem rangeMeta_nonempty (m : ForecastModel K) (df : Frame K) (h : usableRows df ≠ []) : ∃ r, rangeMeta m (prepare df) = .ok r := by
  rw [prepare_eq]
  unfold rangeMeta
  obtain ⟨a, l, hl⟩ := List.exists_cons_of_ne_nil h
  rw [hl]
  cases df.hasDate with
  | true =>
    simp only [if_true, List.map_cons]
    cases h1 : listMin (a.date :: List.map Row.date l) with
    | none => simp [listMin_none] at h1
    | some u =>
      cases h2 : listMax (a.date :: List.map Row.date l) with
      | none => simp [listMax_none] at h2
      | some v => exact ⟨_, rfl⟩
  | false =>
    simp only [Bool.false_eq_true, if_false, List.map_cons]
    cases h1 : listMin (a.x :: List.map Row.x l) with
    | none => simp [listMin_none] at h1
    | some u =>
      cases h2 : listMax (a.x :: List.map Row.x l) with
      | none => simp [listMax_none] at h2
      | some v => exact ⟨_, rfl⟩

/-- The verdict of the model's own validation on the usable samples. -/
def verdict (m : ForecastModel K) (df : Frame K) : Res Bool :=
  m.validateInput (scaleX m ((usableRows df).map Row.x)) ((usableRows df).map fun r => r.y.getD 0)
    (if df.hasDate then some ((usableRows df).map Row.date) else none)

theorem attemptFit_status (env : Env K) (n : Nat) (m : ForecastModel K) (inp : FitInput K) (ax : List K) (w : WeightsMeta K)
    (rng : RangeMeta) (actuals : Option (Frame K)) (c : Bool) (r : FitResult K) (h : attemptFit env n m inp ax w rng actuals c = .ok r) :
    (r.status = .fit ∧ r.isFit = true) ∨ (r.status = .noFit ∧ r.isFit = false) := by
  unfold attemptFit at h
  split at h
  · cases h1 : getResiduals m { ax := ax, adate := inp.dates, actuals := actuals } inp.ys inp.ws none with
    | error e => rw [h1] at h; cases h
    | ok v =>
      rw [h1] at h
      cases h2 : env.aic (some (halfSumSq v)) inp.xs.length n with
      | error e => simp [Bind.bind, Except.bind, h2] at h
      | ok s =>
        simp only [Bind.bind, Except.bind, h2] at h
        cases h
        exact .inl ⟨rfl, rfl⟩
  · cases h1 : optimizeLeastSquares env m ax inp.ys inp.dates inp.ws actuals c with
    | error e => rw [h1] at h; cases h
    | ok v =>
      rw [h1] at h
      cases h2 : env.aic v.cost inp.xs.length n with
      | error e => simp [Bind.bind, Except.bind, h2] at h
      | ok s =>
        simp only [Bind.bind, Except.bind, h2] at h
        cases h
        cases hs : v.success
        · exact .inr ⟨by simp [hs], by simp [hs]⟩
        · exact .inl ⟨by simp [hs], by simp [hs]⟩

/-- **C30.** Outcome of a fit as a decision table on the number `n` of usable samples and the model's validation. -/
theorem C30_no_samples (env : Env K) (m : ForecastModel K) (df : Frame K) (actuals : Option (Frame K)) (c : Bool)
    (h : usableRows df = []) : fitModel env m df actuals c = .error .valueError := by
  unfold fitModel
  dsimp only
  rw [rangeMeta_empty m df h]
  rfl

theorem C30_too_short (env : Env K) (m : ForecastModel K) (df : Frame K) (actuals : Option (Frame K)) (c : Bool)
    (h0 : 0 < (usableRows df).length) (h : (usableRows df).length < m.nParams + 2) :
    ∃ r, fitModel env m df actuals c = .ok r ∧ r.status = .tooShort ∧ r.isFit = false ∧ r.params = [] ∧ r.cost = none ∧ r.aic = .nan := by
  obtain ⟨rng, hr⟩ := rangeMeta_nonempty m df (by intro e; simp [e] at h0)
  have hx : (prepare df).xs ≠ [] := by
    intro e
    have := prepare_length df
    rw [e] at this
    simp at this; omega
  refine ⟨noFitResult m (weightsMeta df) rng .tooShort, ?_, rfl, rfl, rfl, rfl, rfl⟩
  unfold fitModel
  dsimp only
  rw [hr]
  simp only [Bind.bind, Except.bind]
  rw [if_neg hx, if_pos (by rw [prepare_length]; exact h)]

/-- With enough samples the outcome is decided by the validation, then by the optimiser. -/
theorem fitModel_long (env : Env K) (m : ForecastModel K) (df : Frame K) (actuals : Option (Frame K)) (c : Bool)
    (h : m.nParams + 2 ≤ (usableRows df).length) : ∃ rng,
    fitModel env m df actuals c = (verdict m df >>= fun valid =>
      if !valid then .ok (noFitResult m (weightsMeta df) rng .inputErr)
      else simplifyModel env.label m ⟨some (scaleX m (prepare df).xs), some (prepare df).ys, (prepare df).dates⟩ >>= fun m' =>
        attemptFit env m.nParams m' (prepare df) (scaleX m (prepare df).xs) (weightsMeta df) rng actuals c) := by
  obtain ⟨rng, hr⟩ := rangeMeta_nonempty m df (by intro e; simp [e] at h)
  have hx : (prepare df).xs ≠ [] := by
    intro e
    have := prepare_length df
    rw [e] at this
    simp at this; omega
  refine ⟨rng, ?_⟩
  have hv : m.validateInput (scaleX m (prepare df).xs) (prepare df).ys (prepare df).dates = verdict m df := by
    rw [prepare_eq]; rfl
  unfold fitModel
  dsimp only
  rw [hr]
  simp only [Bind.bind, Except.bind]
  rw [if_neg hx, if_neg (by rw [prepare_length]; omega), hv]

theorem C30_input_err (env : Env K) (m : ForecastModel K) (df : Frame K) (actuals : Option (Frame K)) (c : Bool)
    (h : m.nParams + 2 ≤ (usableRows df).length) (hv : verdict m df = .ok false) :
    ∃ r, fitModel env m df actuals c = .ok r ∧ r.status = .inputErr ∧ r.isFit = false ∧ r.params = [] := by
  obtain ⟨rng, hr⟩ := fitModel_long env m df actuals c h
  refine ⟨noFitResult m (weightsMeta df) rng .inputErr, ?_, rfl, rfl, rfl⟩
  rw [hr, hv]
  rfl

theorem C30_attempted (env : Env K) (m : ForecastModel K) (df : Frame K) (actuals : Option (Frame K)) (c : Bool)
    (h : m.nParams + 2 ≤ (usableRows df).length) (hv : verdict m df = .ok true) (r : FitResult K)
    (hr : fitModel env m df actuals c = .ok r) :
    (r.status = .fit ∧ r.isFit = true) ∨ (r.status = .noFit ∧ r.isFit = false) := by
  obtain ⟨rng, h1⟩ := fitModel_long env m df actuals c h
  rw [h1, hv] at hr
  simp only [Bind.bind, Except.bind, Bool.not_true, Bool.false_eq_true, if_false] at hr
  cases h2 : simplifyModel env.label m ⟨some (scaleX m (prepare df).xs), some (prepare df).ys, (prepare df).dates⟩ with
  | error e => rw [h2] at hr; cases hr
  | ok m' =>
    rw [h2] at hr
    exact attemptFit_status _ _ _ _ _ _ _ _ _ _ hr

/-- **C30, converse.** Each status pins down the number of usable samples and the verdict of the validation; the status
for an empty series is never produced. -/
theorem C30_status (env : Env K) (m : ForecastModel K) (df : Frame K) (actuals : Option (Frame K)) (c : Bool) (r : FitResult K)
    (hr : fitModel env m df actuals c = .ok r) :
    (r.status = .tooShort ↔ 0 < (usableRows df).length ∧ (usableRows df).length < m.nParams + 2) ∧
    (r.status = .inputErr ↔ m.nParams + 2 ≤ (usableRows df).length ∧ verdict m df = .ok false) ∧
    (r.status = .fit ∨ r.status = .noFit ↔ m.nParams + 2 ≤ (usableRows df).length ∧ verdict m df = .ok true) ∧
    r.status ≠ .emptyTs ∧ (r.isFit = true ↔ r.status = .fit) := by
  by_cases h0 : usableRows df = []
  · rw [C30_no_samples env m df actuals c h0] at hr; cases hr
  have hpos : 0 < (usableRows df).length := List.length_pos_iff.2 h0
  by_cases h1 : (usableRows df).length < m.nParams + 2
  · obtain ⟨r', e, hs, hf, -⟩ := C30_too_short env m df actuals c hpos h1
    rw [e] at hr; cases hr
    have h2 : ¬ m.nParams + 2 ≤ (usableRows df).length := by omega
    simp [hs, hf, hpos, h1, h2]
  · have h2 : m.nParams + 2 ≤ (usableRows df).length := by omega
    cases hv : verdict m df with
    | error e =>
      obtain ⟨rng, h3⟩ := fitModel_long env m df actuals c h2
      rw [h3, hv] at hr; cases hr
    | ok b =>
      cases b with
      | false =>
        obtain ⟨r', e, hs, hf, -⟩ := C30_input_err env m df actuals c h2 hv
        rw [e] at hr; cases hr
        simp [hs, hf, h1, h2]
      | true =>
        rcases C30_attempted env m df actuals c h2 hv r hr with ⟨hs, hf⟩ | ⟨hs, hf⟩ <;> simp [hs, hf, h1, h2]

/-- **C30, optimiser.** Unless the series is long enough and valid, the optimiser is not consulted: exchanging it changes nothing. -/
theorem C30_optimiser_unused (env : Env K) (lsq') (m : ForecastModel K) (df : Frame K) (actuals : Option (Frame K)) (c : Bool)
    (h : (usableRows df).length < m.nParams + 2 ∨ verdict m df ≠ .ok true) :
    fitModel { env with lsq := lsq' } m df actuals c = fitModel env m df actuals c := by
  by_cases h0 : usableRows df = []
  · rw [C30_no_samples _ m df actuals c h0, C30_no_samples _ m df actuals c h0]
  by_cases h1 : (usableRows df).length < m.nParams + 2
  · obtain ⟨rng, hr⟩ := rangeMeta_nonempty m df h0
    have hx : (prepare df).xs ≠ [] := by
      intro e
      have := prepare_length df
      rw [e] at this
      simp only [List.length_nil] at this; exact h0 (List.length_eq_zero_iff.1 this.symm)
    unfold fitModel
    dsimp only
    rw [hr]
    simp only [Bind.bind, Except.bind]
    rw [if_neg hx, if_pos (by rw [prepare_length]; exact h1), if_neg hx, if_pos (by rw [prepare_length]; exact h1)]
  · have h2 : m.nParams + 2 ≤ (usableRows df).length := by omega
    have hv : verdict m df ≠ .ok true := by rcases h with h | h <;> [exact absurd h h1; exact h]
    obtain ⟨rng, hr⟩ := rangeMeta_nonempty m df h0
    have hx : (prepare df).xs ≠ [] := by
      intro e
      have := prepare_length df
      rw [e] at this
      simp only [List.length_nil] at this; exact h0 (List.length_eq_zero_iff.1 this.symm)
    have hvv : m.validateInput (scaleX m (prepare df).xs) (prepare df).ys (prepare df).dates = verdict m df := by
      rw [prepare_eq]; rfl
    unfold fitModel
    dsimp only
    rw [hr]
    simp only [Bind.bind, Except.bind]
    rw [if_neg hx, if_neg (by rw [prepare_length]; omega), if_neg hx, if_neg (by rw [prepare_length]; omega), hvv]
    cases hc : verdict m df with
    | error e => rfl
    | ok b =>
      cases b with
      | false => rfl
      | true => exact absurd hc hv

/-! ### C33 -/

theorem bin_predicts (op : K → K → K) (l : List K) (a : Arr K) (pred : List K) (h : Predicts l.length a pred) :
    Arr.bin op (vecOf l) a = .ok (vecOf (List.zipWith op l pred)) := by
  obtain ⟨hlen, h | ⟨c, h, hp⟩⟩ := h
  · subst h
    simp only [vecOf, Arr.bin, List.length_map, hlen, if_true]
    congr 2
    rw [List.zipWith_map, List.map_zipWith]
    rfl
  · subst h hp
    simp only [vecOf, Arr.bin]
    congr 2
    clear hlen
    induction l with
    | nil => rfl
    | cons b l ih => simp only [List.map_cons, List.length_cons, List.replicate_succ, List.zipWith_cons_cons, ih]; rfl

/-- Residuals for a model with predictions `pred`. -/
theorem getResiduals_eq (m : ForecastModel K) (ctx : Ctx K) (ay : List K) (aw : Option (List K)) (p : Params K) (a : Arr K) (pred : List K)
    (ha : m.fModel ctx p false = .ok a) (hp : Predicts ay.length a pred) (hw : ∀ w, aw = some w → w.length = ay.length) :
    getResiduals m ctx ay aw p = .ok (vecOf (List.zipWith (fun e w => |e * w|) (List.zipWith (fun y q => y - q) ay pred)
      (aw.getD (List.replicate ay.length 1)))) := by
  unfold getResiduals
  rw [ha]
  simp only [Bind.bind, Except.bind]
  rw [bin_predicts _ _ _ _ hp]
  have hl : (List.zipWith (fun y q : K => y - q) ay pred).length = ay.length := by simp [hp.1]
  cases aw with
  | none =>
    simp only [Option.getD_none]
    congr 1
    rw [← hl]
    generalize List.zipWith (fun y q : K => y - q) ay pred = l
    simp only [vecOf, Arr.abs]
    congr 1
    induction l with
    | nil => rfl
    | cons b l ih =>
      simp only [List.map_cons, List.length_cons, List.replicate_succ, List.zipWith_cons_cons, mul_one, ← ih]; rfl
  | some w =>
    have hpw : Predicts (List.zipWith (fun y q : K => y - q) ay pred).length (vecOf w) w := ⟨by rw [hl]; exact hw w rfl, .inl rfl⟩
    simp only [Option.getD_some]
    rw [bin_predicts _ _ _ _ hpw]
    simp only [vecOf, Arr.abs, List.map_map, List.map_zipWith]
    rfl

theorem sharing_eq (rows : List (Row K)) (r : Row K) : multiplicity rows r = sharing rows r := by
  simp [multiplicity, sharing, List.countP_eq_length_filter]

theorem sharing_one (rows : List (Row K)) (h : (rows.map Row.x).Nodup) (r : Row K) (hr : r ∈ rows) : sharing rows r = 1 := by
  induction rows with
  | nil => simp at hr
  | cons a l ih =>
    simp only [List.map_cons, List.nodup_cons] at h
    unfold sharing at ih ⊢
    rw [List.countP_cons]
    rcases List.mem_cons.1 hr with rfl | hr
    · have : List.countP (fun q => decide (q.x = r.x)) l = 0 := by
        rw [List.countP_eq_zero]
        intro q hq e
        simp only [decide_eq_true_eq] at e
        exact h.1 (e ▸ List.mem_map_of_mem hq)
      simp [this]
    · have hne : a.x ≠ r.x := fun e => h.1 (e ▸ List.mem_map_of_mem hr)
      rw [ih h.2 hr]; simp [hne]

/-- The weights used in the fit: every sample's weight divided by the number of samples sharing its x. -/
theorem prepare_weights (df : Frame K) :
    (prepare df).ws.getD (List.replicate (usableRows df).length 1) =
      (usableRows df).map fun r => weightOf df.hasWeight r / (sharing (usableRows df) r : K) := by
  rw [prepare_eq]
  dsimp only
  split
  · simp only [Option.getD_some, sharing_eq]; rfl
  · rename_i h
    have hn : ((usableRows df).map Row.x).Nodup := by
      rw [← hasDup_false]; simpa using h
    have key : (usableRows df).map (fun r => weightOf df.hasWeight r / (sharing (usableRows df) r : K)) =
        (usableRows df).map fun r => weightOf df.hasWeight r := by
      apply List.map_congr_left
      intro r hr
      rw [sharing_one _ hn r hr]; simp
    rw [key]
    cases hw : df.hasWeight with
    | true => simp [weightOf]
    | false => simp [weightOf, List.map_const']

theorem prepare_weights_length (df : Frame K) (w : List K) (h : (prepare df).ws = some w) : w.length = (usableRows df).length := by
  have := congrArg List.length (prepare_weights df)
  rw [h] at this
  simpa using this

theorem residual_rows (g : Row K → K) (l : List (Row K)) (pred : List K) (h : pred.length = l.length) :
    List.zipWith (fun e w => |e * w|) (List.zipWith (fun y q => y - q) (l.map fun r => r.y.getD 0) pred) (l.map g) =
      List.zipWith (fun r q => |(r.y.getD 0 - q) * g r|) l pred := by
  induction l generalizing pred with
  | nil => simp
  | cons c l ih =>
    cases pred with
    | nil => simp at h
    | cons q pred =>
      simp only [List.map_cons, List.zipWith_cons_cons]
      rw [ih pred (by simpa using h)]

/-- **C33.** In every evaluation of the residuals during a fit, each usable sample enters with its error times its weight divided
by the number of usable samples at the same x. -/
theorem C33_residuals (m : ForecastModel K) (ctx : Ctx K) (df : Frame K) (p : Params K) (a : Arr K) (pred : List K)
    (ha : m.fModel ctx p false = .ok a) (hp : Predicts (usableRows df).length a pred) :
    getResiduals m ctx (prepare df).ys (prepare df).ws p =
      .ok (vecOf (List.zipWith (fun r q => |(r.y.getD 0 - q) * (weightOf df.hasWeight r / (sharing (usableRows df) r : K))|)
        (usableRows df) pred)) := by
  have hys : (prepare df).ys = (usableRows df).map fun r => r.y.getD 0 := by rw [prepare_eq]
  have hl : (prepare df).ys.length = (usableRows df).length := by rw [hys]; simp
  rw [getResiduals_eq m ctx _ _ p a pred ha (by rw [hl]; exact hp) (by intro w h; rw [hl]; exact prepare_weights_length df w h), hl,
    prepare_weights, hys]
  congr 2
  exact residual_rows _ _ pred hp.1

variable [IsStrictOrderedRing K]

/-- **C33, total weight.** The weights of all samples at one x add up to their average. -/
theorem C33_total_weight (rows : List (Row K)) (hw : Bool) (r : Row K) :
    ((rows.filter fun q => q.x = r.x).map fun q => weightOf hw q / (sharing rows q : K)).sum =
      ((rows.filter fun q => q.x = r.x).map fun q => weightOf hw q).sum / ((rows.filter fun q => q.x = r.x).length : K) := by
  have h1 : ∀ q ∈ rows.filter (fun q => q.x = r.x), (sharing rows q : K) = ((rows.filter fun q => q.x = r.x).length : K) := by
    intro q hq
    have : q.x = r.x := by simpa using (List.mem_filter.1 hq).2
    simp [sharing, this, List.countP_eq_length_filter]
  have h2 : (rows.filter fun q => q.x = r.x).map (fun q => weightOf hw q / (sharing rows q : K)) =
      (rows.filter fun q => q.x = r.x).map (fun q => weightOf hw q / ((rows.filter fun q => q.x = r.x).length : K)) := by
    apply List.map_congr_left
    intro q hq
    rw [h1 q hq]
  rw [h2]
  generalize ((rows.filter fun q => q.x = r.x).length : K) = d
  generalize rows.filter (fun q => q.x = r.x) = l
  induction l with
  | nil => simp
  | cons a l ih => simp only [List.map_cons, List.sum_cons, ih, add_div]

/-- Cost of a list of usable rows for predictions given per row, as in `C33_residuals`. -/
theorem halfSumSq_vecOf (l : List K) : halfSumSq (vecOf l) = 1 / 2 * (l.map fun a => a * a).sum := by
  simp [halfSumSq, vecOf, List.map_map, Function.comp_def]

/-- Cost of a table whose predictions are `f r` for row `r`. -/
def rowCost (hw : Bool) (rows : List (Row K)) (f : Row K → K) : K :=
  halfSumSq (vecOf (rows.map fun r => |(r.y.getD 0 - f r) * (weightOf hw r / (sharing rows r : K))|))

/-- **C33, copies.** `k` copies of a sample contribute `1/k` of the cost of a single one. -/
theorem C33_copies (hw : Bool) (r : Row K) (rest : List (Row K)) (f : Row K → K) (k : Nat) (hk : 0 < k) (hr : ∀ q ∈ rest, q.x ≠ r.x) :
    rowCost hw (List.replicate k r ++ rest) f = 1 / (k : K) * rowCost hw [r] f + rowCost hw rest f := by
  have hs : sharing (List.replicate k r ++ rest) r = k := by
    unfold sharing
    rw [List.countP_append, List.countP_replicate]
    have : rest.countP (fun q => decide (q.x = r.x)) = 0 := by
      rw [List.countP_eq_zero]; intro q hq; simpa using hr q hq
    simp [this]
  have hs1 : sharing [r] r = 1 := by simp [sharing]
  have hrest : ∀ q ∈ rest, sharing (List.replicate k r ++ rest) q = sharing rest q := by
    intro q hq
    unfold sharing
    rw [List.countP_append, List.countP_replicate, if_neg (by simpa using (hr q hq).symm), Nat.zero_add]
  have hm : rest.map (fun q => |(q.y.getD 0 - f q) * (weightOf hw q / (sharing (List.replicate k r ++ rest) q : K))|) =
      rest.map (fun q => |(q.y.getD 0 - f q) * (weightOf hw q / (sharing rest q : K))|) := by
    apply List.map_congr_left; intro q hq; rw [hrest q hq]
  have hk0 : (k : K) ≠ 0 := by exact_mod_cast hk.ne'
  unfold rowCost
  rw [List.map_append, hm, List.map_replicate, halfSumSq_vecOf, halfSumSq_vecOf, halfSumSq_vecOf, List.map_append, List.sum_append,
    List.map_replicate, List.sum_replicate]
  simp only [List.map_cons, List.map_nil, List.sum_cons, List.sum_nil, hs, hs1, abs_mul_abs_self, nsmul_eq_mul, Nat.cast_one, add_zero]
  field_simp

/-! ### C34 -/

theorem zipWith_abs_sq (l w : List K) : ((List.zipWith (fun e w => |e * w|) l w).map fun a => a * a).sum =
    (List.zipWith (fun e w => (e * w) ^ 2) l w).sum := by
  rw [List.map_zipWith]
  congr 1
  congr 1
  funext e v
  rw [abs_mul_abs_self, sq]

/-- **C34, meaning.** The cost reported for residuals is half the weighted squared error. -/
theorem C34_cost (m : ForecastModel K) (ctx : Ctx K) (ay : List K) (aw : Option (List K)) (p : Params K) (a : Arr K) (pred : List K)
    (ha : m.fModel ctx p false = .ok a) (hp : Predicts ay.length a pred) (hw : ∀ w, aw = some w → w.length = ay.length) :
    ∃ res, getResiduals m ctx ay aw p = .ok res ∧ halfSumSq res = weightedCost ay pred (aw.getD (List.replicate ay.length 1)) := by
  refine ⟨_, getResiduals_eq m ctx ay aw p a pred ha hp hw, ?_⟩
  rw [halfSumSq_vecOf, zipWith_abs_sq]
  rfl

/-- **C34, sign.** The cost is never negative, also with undefined predictions. -/
theorem C34_nonneg (res : Arr K) : 0 ≤ halfSumSq res := by
  cases res with
  | scalar v =>
    cases v with
    | none => simp [halfSumSq]
    | some a => simp only [halfSumSq]; have := mul_self_nonneg a; positivity
  | vec l =>
    have : 0 ≤ (l.map fun v => match v with
      | none => (0 : K)
      | some a => a * a).sum := by
      apply List.sum_nonneg
      intro b hb
      obtain ⟨v, -, rfl⟩ := List.mem_map.1 hb
      cases v with
      | none => simp
      | some a => exact mul_self_nonneg a
    simp only [halfSumSq]
    positivity

theorem sumsq_zero (obs pred w : List K) (hp : pred.length = obs.length) (hl : w.length = obs.length) (hw : ∀ v ∈ w, 0 < v) :
    (List.zipWith (fun e w => (e * w) ^ 2) (List.zipWith (fun y p => y - p) obs pred) w).sum = 0 ↔ pred = obs := by
  have hnn : ∀ obs pred w : List K, 0 ≤ (List.zipWith (fun e w => (e * w) ^ 2) (List.zipWith (fun y p => y - p) obs pred) w).sum := by
    intro obs pred w
    apply List.sum_nonneg
    intro b hb
    rw [List.mem_iff_getElem] at hb
    obtain ⟨i, hi, rfl⟩ := hb
    rw [List.getElem_zipWith]
    positivity
  induction obs generalizing pred w with
  | nil => simp at hp; simp [hp]
  | cons y obs ih =>
    cases pred with
    | nil => simp at hp
    | cons q pred =>
      cases w with
      | nil => simp at hl
      | cons v w =>
        simp only [List.zipWith_cons_cons, List.sum_cons, List.cons.injEq]
        have ih' := ih pred w (by simpa using hp) (by simpa using hl) (fun u hu => hw u (List.mem_cons_of_mem _ hu))
        have h0 := hnn obs pred w
        have h1 : 0 ≤ ((y - q) * v) ^ 2 := by positivity
        have hv : v ≠ 0 := (hw v List.mem_cons_self).ne'
        constructor
        · intro h
          have h2 : ((y - q) * v) ^ 2 = 0 := by linarith
          have h3 : y - q = 0 := by
            rcases mul_eq_zero.1 (pow_eq_zero_iff (two_ne_zero) |>.1 h2) with h | h
            · exact h
            · exact absurd h hv
          exact ⟨(sub_eq_zero.1 h3).symm, ih'.1 (by linarith)⟩
        · rintro ⟨rfl, h⟩
          rw [ih'.2 h]; simp

/-- **C34, zero.** With positive weights the cost is zero exactly for perfect predictions. -/
theorem C34_zero_iff (obs pred w : List K) (hp : pred.length = obs.length) (hl : w.length = obs.length) (hw : ∀ v ∈ w, 0 < v) :
    weightedCost obs pred w = 0 ↔ pred = obs := by
  rw [← sumsq_zero obs pred w hp hl hw]
  unfold weightedCost
  constructor
  · intro h
    rcases mul_eq_zero.1 h with h | h
    · norm_num at h
    · exact h
  · intro h; rw [h, mul_zero]

/-- All weights used in a fit are positive. -/
theorem C34_weights_positive (df : Frame K) : ∀ v ∈ (prepare df).ws.getD (List.replicate (usableRows df).length 1), 0 < v := by
  rw [prepare_weights]
  intro v hv
  obtain ⟨r, hr, rfl⟩ := List.mem_map.1 hv
  have hu : Usable df.hasWeight r := by
    have := (List.mem_filter.1 hr).2
    exact of_decide_eq_true this
  have hs : 0 < sharing (usableRows df) r := by
    unfold sharing
    rw [List.countP_pos_iff]
    exact ⟨r, hr, by simp⟩
  have hs' : (0 : K) < (sharing (usableRows df) r : K) := by exact_mod_cast hs
  refine div_pos ?_ hs'
  unfold weightOf
  split
  · rename_i h
    obtain ⟨w, e, hw⟩ := hu.2 h
    rw [e]; exact hw
  · exact one_pos

/-- **C34, perfect fits.** In a fit the cost at given parameters is zero exactly if the model reproduces every usable sample. -/
theorem C34_perfect (m : ForecastModel K) (ctx : Ctx K) (df : Frame K) (p : Params K) (a : Arr K) (pred : List K)
    (ha : m.fModel ctx p false = .ok a) (hp : Predicts (usableRows df).length a pred) :
    ∃ res, getResiduals m ctx (prepare df).ys (prepare df).ws p = .ok res ∧
      (halfSumSq res = 0 ↔ pred = (usableRows df).map fun r => r.y.getD 0) := by
  have hys : (prepare df).ys = (usableRows df).map fun r => r.y.getD 0 := by rw [prepare_eq]
  have hl : (prepare df).ys.length = (usableRows df).length := by rw [hys]; simp
  obtain ⟨res, h1, h2⟩ := C34_cost m ctx (prepare df).ys (prepare df).ws p a pred ha (by rw [hl]; exact hp)
    (by intro w h; rw [hl]; exact prepare_weights_length df w h)
  refine ⟨res, h1, ?_⟩
  rw [h2, hl, ← hys]
  apply C34_zero_iff
  · rw [hl]; exact hp.1
  · rw [prepare_weights, hl]; simp
  · exact C34_weights_positive df

/-- **C34, scaling of the cost.** -/
theorem C34_scale (obs pred w : List K) (c : K) : weightedCost obs pred (w.map fun v => c * v) = c ^ 2 * weightedCost obs pred w := by
  unfold weightedCost
  have : ∀ l w : List K, (List.zipWith (fun e w => (e * w) ^ 2) l (w.map fun v => c * v)).sum =
      c ^ 2 * (List.zipWith (fun e w => (e * w) ^ 2) l w).sum := by
    intro l
    induction l with
    | nil => intro w; simp
    | cons a l ih =>
      intro w
      cases w with
      | nil => simp
      | cons v w =>
        simp only [List.map_cons, List.zipWith_cons_cons, List.sum_cons, ih]
        ring
  rw [this]
  ring

/-- The table with all weights multiplied by `c`. -/
def Spec.scaleWeights (c : K) (df : Frame K) : Frame K :=
  { df with rows := df.rows.map fun r => { r with weight := r.weight.map fun w => c * w } }

theorem usable_scale (c : K) (hc : 0 < c) (hw : Bool) (r : Row K) :
    Usable hw { r with weight := r.weight.map fun w => c * w } ↔ Usable hw r := by
  unfold Usable
  cases h : r.weight with
  | none => simp
  | some w => simp [hc]

theorem usableRows_scale (c : K) (hc : 0 < c) (df : Frame K) :
    usableRows (Spec.scaleWeights c df) = (usableRows df).map fun r => { r with weight := r.weight.map fun w => c * w } := by
  unfold usableRows Spec.scaleWeights
  rw [List.filter_map]
  congr 1
  apply List.filter_congr
  intro r _
  simp only [Function.comp, decide_eq_decide]
  exact usable_scale c hc _ r

/-- **C34, scaling of the data.** Multiplying all weights of a table by `c > 0` multiplies the weights used in the fit by `c`, so for
any two parameter vectors the comparison of costs is the same. -/
theorem C34_scaled_table (c : K) (hc : 0 < c) (df : Frame K) (hw : df.hasWeight = true) :
    (prepare (Spec.scaleWeights c df)).xs = (prepare df).xs ∧ (prepare (Spec.scaleWeights c df)).ys = (prepare df).ys ∧
    (prepare (Spec.scaleWeights c df)).dates = (prepare df).dates ∧
    (prepare (Spec.scaleWeights c df)).ws = (prepare df).ws.map fun w => w.map fun v => c * v := by
  have hu := usableRows_scale c hc df
  have hsh : ∀ r, multiplicity (usableRows (Spec.scaleWeights c df)) { r with weight := r.weight.map fun w => c * w } =
      multiplicity (usableRows df) r := by
    intro r
    rw [hu]
    unfold multiplicity
    rw [List.filter_map, List.length_map]
    rfl
  have hw' : (Spec.scaleWeights c df).hasWeight = true := hw
  have hd : (Spec.scaleWeights c df).hasDate = df.hasDate := rfl
  have hx : (usableRows (Spec.scaleWeights c df)).map Row.x = (usableRows df).map Row.x := by rw [hu, List.map_map]; rfl
  have hg : ∀ o : Option K, (o.map fun w => c * w).getD 0 = c * o.getD 0 := by intro o; cases o <;> simp
  rw [prepare_eq, prepare_eq]
  refine ⟨hx, ?_, ?_, ?_⟩
  · dsimp only; rw [hu, List.map_map]; rfl
  · dsimp only; rw [hd, hu, List.map_map]; rfl
  · dsimp only
    rw [hx, hw', hw]
    simp only [if_true]
    split
    · simp only [Option.map_some, List.map_map]
      congr 1
      conv_lhs => arg 2; rw [hu]
      rw [List.map_map]
      apply List.map_congr_left
      intro r _
      simp only [Function.comp, hsh, hg]
      ring
    · simp only [Option.map_some, List.map_map]
      congr 1
      rw [hu, List.map_map]
      apply List.map_congr_left
      intro r _
      simp only [Function.comp, hg]

theorem C34_same_optimum (obs pred pred' w : List K) (c : K) (hc : 0 < c) :
    weightedCost obs pred (w.map fun v => c * v) ≤ weightedCost obs pred' (w.map fun v => c * v) ↔
      weightedCost obs pred w ≤ weightedCost obs pred' w := by
  rw [C34_scale, C34_scale]
  exact mul_le_mul_iff_right₀ (by positivity)

/-! ### Examples -/

/-- A stub optimiser returning fixed parameters. -/
def exampleEnv : Env ℚ where
  lsq := fun f _ _ => do
    let r ← f [2]
    .ok (some ⟨true, some (halfSumSq r), [2]⟩)
  rnd := fun _ => 1 / 2
  aic := fun c _ k => match c with
    | none => .ok .nan
    | some v => .ok (.fin (v + 2 * k))
  globalCache := fun _ => none
  label := fun _ => ""

/-- Two samples at x = 0, one sample with weight 0, one without value. -/
def exampleFrame : Frame ℚ := ⟨true, true, [⟨0, 0, some 1, some 1⟩, ⟨0, 0, some 3, some 1⟩, ⟨DAY, 1, some 9, some 0⟩,
  ⟨2 * DAY, 2, none, some 1⟩, ⟨3 * DAY, 3, some 2, some 4⟩]⟩

example : (usableRows exampleFrame).map Row.x = [0, 0, 3] := by decide +kernel
example : (prepare exampleFrame).ws = some [1 / 2, 1 / 2, 4] := by decide +kernel
example : (fitModel exampleEnv modelConstant exampleFrame none true).map outcome =
    .ok ⟨"constant", true, some (1 / 4), .fin (9 / 4), [2], .fit⟩ := by decide +kernel
example : (fitModel exampleEnv modelLinear exampleFrame none true).map outcome =
    .ok ⟨"linear", false, none, .nan, [], .tooShort⟩ := by decide +kernel
example : (fitModel exampleEnv modelConstant { exampleFrame with rows := [] } none true).map outcome = .error .valueError := by decide +kernel

end Anticipy
