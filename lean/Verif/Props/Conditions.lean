import Verif.Spec.Conditions
import Verif.Spec.Identity
import Verif.Props.Weekly

/-
C71: models with conditions on the data are fitted only if the data meet them.
-/
namespace Anticipy
open Spec
variable {K : Type} [Field K]

/-- A composite is never called "null". -/
theorem contains_name (c : ForecastModel K) (hc : c.name ≠ "null") (m : ForecastModel K) (h : Contains c m) : m.name ≠ "null" := by
  have comp : ∀ mult (a b : ForecastModel K), (a.name ≠ "null" ∨ b.name ≠ "null") → (compose mult a b).name ≠ "null" := by
    intro mult a b hab
    unfold compose
    by_cases ha : a.name = "null"
    · rw [if_pos ha]; exact hab.resolve_left (not_not.2 ha)
    by_cases hb : b.name = "null"
    · rw [if_neg ha, if_pos hb]; exact ha
    rw [if_neg ha, if_neg hb]
    exact composedName_ne _ _ _
  induction h with
  | self => exact hc
  | addLeft a b _ ih => exact comp _ _ _ (.inl ih)
  | addRight a b _ ih => exact comp _ _ _ (.inr ih)
  | mulLeft a b _ ih => exact comp _ _ _ (.inl ih)
  | mulRight a b _ ih => exact comp _ _ _ (.inr ih)

/-- A composite keeps the conditions of its parts. -/
theorem contains_validator (c : ForecastModel K) (hc : c.name ≠ "null") (v : Validator K) (hv : v ∈ c.validators) (m : ForecastModel K)
    (h : Contains c m) : ∃ u ∈ m.validators, u.id = v.id := by
  have left : ∀ mult (a b : ForecastModel K), a.name ≠ "null" → (∃ u ∈ a.validators, u.id = v.id) →
      ∃ u ∈ (compose mult a b).validators, u.id = v.id := by
    rintro mult a b ha ⟨u, hu, e⟩
    unfold compose
    rw [if_neg ha]
    by_cases hb : b.name = "null"
    · rw [if_pos hb]; exact ⟨u, hu, e⟩
    rw [if_neg hb]
    obtain ⟨u', h1, h2⟩ := mem_dedupBy_key Validator.id (a.validators ++ b.validators) u (List.mem_append_left _ hu)
    exact ⟨u', h1, h2.trans e⟩
  have right : ∀ mult (a b : ForecastModel K), b.name ≠ "null" → (∃ u ∈ b.validators, u.id = v.id) →
      ∃ u ∈ (compose mult a b).validators, u.id = v.id := by
    rintro mult a b hb ⟨u, hu, e⟩
    unfold compose
    by_cases ha : a.name = "null"
    · rw [if_pos ha]; exact ⟨u, hu, e⟩
    rw [if_neg ha, if_neg hb]
    obtain ⟨u', h1, h2⟩ := mem_dedupBy_key Validator.id (a.validators ++ b.validators) u (List.mem_append_right _ hu)
    exact ⟨u', h1, h2.trans e⟩
  induction h with
  | self => exact ⟨v, hv, rfl⟩
  | addLeft a b h ih => exact left _ _ _ (contains_name c hc a h) ih
  | addRight a b h ih => exact right _ _ _ (contains_name c hc b h) ih
  | mulLeft a b h ih => exact left _ _ _ (contains_name c hc a h) ih
  | mulRight a b h ih => exact right _ _ _ (contains_name c hc b h) ih

variable [LinearOrder K]

/-- A fit presupposes that all conditions are met. -/
theorem fit_accepts (env : Env K) (m : ForecastModel K) (df : Frame K) (actuals : Option (Frame K)) (c : Bool) (f : FitResult K)
    (h : fitModel env m df actuals c = .ok f) (hf : f.isFit = true) : ∀ v ∈ m.validators, Accepts v (scaleX m ((usableRows df).map Row.x))
      ((usableRows df).map fun r => r.y.getD 0) (if df.hasDate then some ((usableRows df).map Row.date) else none) := by
  have hst := (C30_status env m df actuals c f h).2.2
  have hv := (hst.1.1 (.inl (hst.2.2.1 hf))).2
  unfold verdict ForecastModel.validateInput at hv
  exact (runValidators_true _ _ _ _).1 hv

theorem wday_accepts (ax ay : List K) (ds : List Timestamp) :
    Accepts validateSeasonWday ax ay (some ds) ↔ (dedupBy id (ds.map weekday)).length = 7 := by
  unfold Accepts
  simp only [validateSeasonWday, bind, Except.bind, pyAssert]
  by_cases h7 : (dedupBy id (ds.map weekday)).length = 7
  · rw [if_pos (by simpa using h7)]
    simp [h7]
  · rw [if_neg (by simpa using h7)]
    simp [h7]

theorem wday_errors (ax ay : List K) (ad : Option (List Timestamp)) (e : Err) (h : (validateSeasonWday : Validator K).run ax ay ad = .error e) :
    e = .assertionError := by
  cases ad with
  | none => cases h; rfl
  | some ds =>
    simp only [validateSeasonWday, bind, Except.bind, pyAssert] at h
    by_cases h7 : (dedupBy id (ds.map weekday)).length = 7
    · rw [if_pos (by simpa using h7)] at h; cases h
    · rw [if_neg (by simpa using h7)] at h; cases h; rfl

/-- The condition of the weekday model. -/
theorem weekday_condition (wd : Int → Int) (hw : IsWeek wd) (df : Frame K) (ax ay : List K) :
    Accepts validateSeasonWday ax ay (if df.hasDate then some ((usableRows df).map Row.date) else none) ↔ AllWeekdays wd df := by
  rw [isWeek_unique wd hw]
  cases hd : df.hasDate with
  | false =>
    constructor
    · rintro ⟨o, ho⟩; cases ho
    · rintro ⟨h, -⟩; rw [hd] at h; cases h
  | true =>
    rw [if_pos rfl]
    have hmem : ∀ d : Int, d ∈ ((usableRows df).map Row.date).map weekday ↔
        ∃ r ∈ df.rows, Usable df.hasWeight r ∧ weekdayOfDay (r.date / (24 * 60 * 60 * 1000000000)) = d := by
      intro d
      rw [List.map_map, List.mem_map]
      constructor
      · rintro ⟨r, hr, e⟩
        obtain ⟨h1, h2⟩ := List.mem_filter.1 hr
        exact ⟨r, h1, by simpa using h2, e⟩
      · rintro ⟨r, h1, h2, e⟩
        exact ⟨r, List.mem_filter.2 ⟨h1, by simpa using h2⟩, e⟩
    have hrange : ∀ i ∈ ((usableRows df).map Row.date).map weekday, 0 ≤ i ∧ i < 7 := by
      intro i hi
      obtain ⟨t, -, rfl⟩ := List.mem_map.1 hi
      exact weekday_range t
    rw [wday_accepts]
    constructor
    · intro h7
      refine ⟨hd, fun d h0 h6 => ?_⟩
      exact (hmem d).1 (seven_weekdays _ hrange h7 d ⟨h0, by omega⟩)
    · rintro ⟨-, h⟩
      have hn : (dedupBy id (((usableRows df).map Row.date).map weekday)).Nodup :=
        List.nodup_iff_pairwise_ne.2 (by simpa using dedupBy_keys_nodup id _)
      rw [← List.toFinset_card_of_nodup hn]
      have : (dedupBy id (((usableRows df).map Row.date).map weekday)).toFinset = Finset.Ico (0 : Int) 7 := by
        ext d
        rw [List.mem_toFinset, Finset.mem_Ico]
        constructor
        · intro hd; exact hrange d (mem_dedupBy _ _ _ hd)
        · rintro ⟨h0, h7⟩
          exact (mem_dedup _ _).2 ((hmem d).2 (h d h0 (by omega)))
      rw [this]
      simp

/-- **C71.** A model with a weekday component is fitted only if each day of the week has a sample that counts; otherwise the optimizer is not even
called. `hid`: a function is not mistaken for another one. -/
theorem C71_weekdays (wd : Int → Int) (hw : IsWeek wd) (env : Env K) (m : ForecastModel K) (hm : Contains modelSeasonWday m)
    (hid : ∀ u ∈ m.validators, u.id = (validateSeasonWday : Validator K).id → u = validateSeasonWday) (df : Frame K) (actuals : Option (Frame K))
    (c : Bool) (f : FitResult K) (h : fitModel env m df actuals c = .ok f) :
    (f.isFit = true → AllWeekdays wd df) ∧
    (¬ AllWeekdays wd df → f.isFit = false ∧ ∀ lsq', fitModel { env with lsq := lsq' } m df actuals c = .ok f) := by
  obtain ⟨u, hu, e⟩ := contains_validator modelSeasonWday (by simp [modelSeasonWday, mkModel]) validateSeasonWday (by simp [modelSeasonWday, mkModel]) m hm
  have hu' := hid u hu e
  subst hu'
  have h1 : f.isFit = true → AllWeekdays wd df := fun hf => (weekday_condition wd hw df _ _).1 (fit_accepts env m df actuals c f h hf _ hu)
  refine ⟨h1, fun hno => ⟨by cases hf : f.isFit with | false => rfl | true => exact absurd (h1 hf) hno, fun lsq' => ?_⟩⟩
  rw [C30_optimiser_unused env lsq' m df actuals c (.inr ?_), h]
  intro hv
  unfold verdict ForecastModel.validateInput at hv
  exact hno ((weekday_condition wd hw df _ _).1 ((runValidators_true _ _ _ _).1 hv _ hu))

/-- **C71, exactly.** The weekday model and its composites with models that accept all data are tried iff there are two more samples than parameters and
each day of the week has a sample that counts; with enough samples but a day missing, the result says that the input is not suitable. -/
theorem C71_tried (wd : Int → Int) (hw : IsWeek wd) (env : Env K) (m : ForecastModel K)
    (hv : ∀ u, u ∈ m.validators → u = validateSeasonWday ∨ ∀ ax ay ad, Accepts u ax ay ad) (hwd : validateSeasonWday ∈ m.validators) (df : Frame K)
    (actuals : Option (Frame K)) (c : Bool) (f : FitResult K) (h : fitModel env m df actuals c = .ok f) :
    (f.status = .fit ∨ f.status = .noFit ↔ m.nParams + 2 ≤ (usableRows df).length ∧ AllWeekdays wd df) ∧
    (f.status = .inputErr ↔ m.nParams + 2 ≤ (usableRows df).length ∧ ¬ AllWeekdays wd df) := by
  obtain ⟨-, h2, h3, -⟩ := C30_status env m df actuals c f h
  have ht : verdict m df = .ok true ↔ AllWeekdays wd df := by
    unfold verdict ForecastModel.validateInput
    rw [runValidators_true, ← weekday_condition wd hw df (scaleX m ((usableRows df).map Row.x)) ((usableRows df).map fun r => r.y.getD 0)]
    constructor
    · intro hall; exact hall _ hwd
    · intro hone u hu
      rcases hv u hu with rfl | hu
      · exact hone
      · exact hu _ _ _
  have hf : verdict m df = .ok false ↔ ¬ AllWeekdays wd df := by
    rw [← ht]
    constructor
    · intro e; rw [e]; simp
    · intro hne
      unfold verdict ForecastModel.validateInput at hne ⊢
      rw [runValidators_false]
      · by_contra hcon
        apply hne
        rw [runValidators_true]
        intro u hu
        rcases hv u hu with rfl | hu'
        · unfold Accepts
          cases e : (validateSeasonWday : Validator K).run (scaleX m ((usableRows df).map Row.x)) ((usableRows df).map fun r => r.y.getD 0)
              (if df.hasDate then some ((usableRows df).map Row.date) else none) with
          | ok o => exact ⟨o, rfl⟩
          | error x =>
            refine absurd ⟨_, hu, ?_⟩ hcon
            rw [e, wday_errors _ _ _ _ e]
        · exact hu' _ _ _
      · intro u hu x hx
        rcases hv u hu with rfl | hu'
        · exact wday_errors _ _ _ _ hx
        · obtain ⟨o, ho⟩ := hu' (scaleX m ((usableRows df).map Row.x)) ((usableRows df).map fun r => r.y.getD 0)
              (if df.hasDate then some ((usableRows df).map Row.date) else none)
          rw [ho] at hx; cases hx
  rw [h2, h3, ht, hf]
  exact ⟨Iff.rfl, Iff.rfl⟩

/-- **C71, in a run.** If a run returns forecasts of a model with a weekday component, then each day of the week has a sample (from the starting date on)
with a value and positive weight. -/
theorem C71_run [FloorRing K] [IsStrictOrderedRing K] (wd : Int → Int) (hw : IsWeek wd) (w : World K) (args : RunArgs K) (source : String) (df : Frame K)
    (res : RunResult K) (h : runSingle w args source df = .ok res) (name : String)
    (hcand : ∀ df' cand, candidates w.ch args.models df' (runFreq df) = .ok cand → ∀ m ∈ cand.2, m.name = name →
      Contains modelSeasonWday m ∧ ∀ u ∈ m.validators, u.id = (validateSeasonWday : Validator K).id → u = validateSeasonWday)
    (r : DRow K) (hr : r ∈ res.data) (hact : r.isActuals = false) (hm : r.model = name) :
    AllWeekdays wd { df with rows := kept args.start df } := by
  obtain ⟨d, hd, hdata, -, -⟩ := runSingle_inv w args source df res h
  obtain ⟨st⟩ := runFits_stages w args source df d hd
  have hd1 : d.1 = _ := congrArg Prod.fst st.hd
  have hr1 : r ∈ d.1 := by
    rw [hdata] at hr
    unfold selectFits at hr
    split_ifs at hr
    · exact hr
    · exact (List.mem_filter.1 hr).1
  rw [hd1] at hr1
  obtain ⟨q, hq, rfl⟩ := List.mem_map.1 hr1
  rcases List.mem_append.1 hq with hq | hq
  · unfold actualsClean at hq
    obtain ⟨q', -, rfl⟩ := List.mem_map.1 hq
    cases hact
  · obtain ⟨k, m, f, rows, e1, e2, e3, e4⟩ := (fitLoop_spec _ _ _ _ _ st.hFits).2.2 q hq
    obtain ⟨-, -, -, hname, -, hfit, -⟩ := forecastRows_mem _ _ _ _ e3 q e4
    obtain ⟨hc, hid⟩ := hcand _ _ st.hCand m (List.mem_of_getElem? e1) (by rw [← hname]; exact hm)
    obtain ⟨u1, u2, u3, u4, u5⟩ := used_rows args.findOutliers args.start df st.df2 st.hOut
    simp only [mkSetup] at e2
    obtain ⟨g1, g2⟩ := (C71_weekdays wd hw _ m hc hid _ _ _ f e2).1 hfit
    rw [u1] at g1
    refine ⟨g1, fun i h0 h6 => ?_⟩
    obtain ⟨s, s1, s2, s3⟩ := g2 i h0 h6
    obtain ⟨s', t1, t2, -, t4, v, t5, t6⟩ := u5 s s1
    refine ⟨s', t1, ⟨by rw [← t4]; exact s2.1, fun hwt => ⟨v, ?_, t6⟩⟩, by rw [← t2]; exact s3⟩
    unfold givenWeight at t5
    rw [if_pos hwt] at t5
    exact t5

/-- **C71, decay.** A model with a decay component is fitted only if all values that count are positive. -/
theorem C71_decay (env : Env ℝ) (m : ForecastModel ℝ) (hm : Contains modelDecay m)
    (hid : ∀ u ∈ m.validators, u.id = validateDecay.id → u = validateDecay) (df : Frame ℝ) (actuals : Option (Frame ℝ))
    (c : Bool) (f : FitResult ℝ) (h : fitModel env m df actuals c = .ok f) (hf : f.isFit = true) :
    ∀ r ∈ df.rows, Usable df.hasWeight r → ∀ v, r.y = some v → 0 < v := by
  obtain ⟨u, hu, e⟩ := contains_validator modelDecay (by simp [modelDecay, mkModel]) validateDecay (by simp [modelDecay, mkModel]) m hm
  have hu' := hid u hu e
  subst hu'
  obtain ⟨o, ho⟩ := fit_accepts env m df actuals c f h hf _ hu
  intro r hr hus v hv
  simp only [validateDecay, bind, Except.bind, pyAssert] at ho
  by_cases hall : (((usableRows df).map fun r => r.y.getD 0).all fun y => decide (0 < y)) = true
  · rw [List.all_eq_true] at hall
    have := hall (r.y.getD 0) (List.mem_map.2 ⟨r, List.mem_filter.2 ⟨hr, by simpa using hus⟩, rfl⟩)
    rw [hv] at this
    simpa using this
  · rw [if_neg hall] at ho; cases ho

/-- Composites of models without conditions have no conditions. -/
theorem built_validators (A : ForecastModel K → Prop) (hA : ∀ a, A a → a.validators = [validateDefault]) (m : ForecastModel K) (h : BuiltFrom A m) :
    ∀ u ∈ m.validators, u = validateDefault := by
  have comp : ∀ mult (a b : ForecastModel K), (∀ u ∈ a.validators, u = validateDefault) → (∀ u ∈ b.validators, u = validateDefault) →
      ∀ u ∈ (compose mult a b).validators, u = validateDefault := by
    intro mult a b ha hb u hu
    unfold compose at hu
    by_cases h1 : a.name = "null"
    · rw [if_pos h1] at hu
      exact hb u hu
    by_cases h2 : b.name = "null"
    · rw [if_neg h1, if_pos h2] at hu
      exact ha u hu
    · rw [if_neg h1, if_neg h2] at hu
      rcases List.mem_append.1 (mem_dedupBy _ _ _ hu) with h | h
      · exact ha u h
      · exact hb u h
  induction h with
  | part a ha => rw [hA a ha]; simp
  | null => intro u hu; simpa [modelNull, mkModel] using hu
  | plus m m' _ _ ih ih' => exact comp _ _ _ ih ih'
  | times m m' _ _ ih ih' => exact comp _ _ _ ih ih'

theorem built_tried (A : ForecastModel K → Prop) (hA : ∀ a, A a → a.validators = [validateDefault]) (m : ForecastModel K) (hm : BuiltFrom A m)
    (env : Env K) (df : Frame K) (actuals : Option (Frame K)) (c : Bool) (f : FitResult K) (h : fitModel env m df actuals c = .ok f) :
    f.status ≠ .inputErr ∧ (f.status = .fit ∨ f.status = .noFit ↔ m.nParams + 2 ≤ (usableRows df).length) := by
  obtain ⟨-, h2, h3, -⟩ := C30_status env m df actuals c f h
  have hv : verdict m df = .ok true := by
    unfold verdict ForecastModel.validateInput
    rw [runValidators_true]
    intro u hu
    rw [built_validators A hA m hm u hu]
    exact ⟨true, rfl⟩
  rw [Ne, h2, h3, hv]
  simp

/-- **C71, no conditions.** All other trend models, the month model, the naive models and everything composed of them accept any data: with two more
samples than parameters they are tried. -/
theorem C71_unconditional [FloorRing K] (m : ForecastModel K)
    (hm : BuiltFrom (fun a => a ∈ [modelConstant, modelLinear, modelLinearNondec, modelStep, modelTwoSteps, modelRamp, modelSpike, modelSeasonMonth] ∨
      ∃ srt, a = modelNaive srt ∨ a = modelSnaiveWday srt) m)
    (env : Env K) (df : Frame K) (actuals : Option (Frame K)) (c : Bool) (f : FitResult K) (h : fitModel env m df actuals c = .ok f) :
    f.status ≠ .inputErr ∧ (f.status = .fit ∨ f.status = .noFit ↔ m.nParams + 2 ≤ (usableRows df).length) := by
  refine built_tried _ ?_ m hm env df actuals c f h
  rintro a (ha | ⟨srt, rfl | rfl⟩)
  · simp only [List.mem_cons, List.not_mem_nil, or_false] at ha
    rcases ha with rfl | rfl | rfl | rfl | rfl | rfl | rfl | rfl <;> rfl
  · rfl
  · rfl

/-- **C71, no conditions,** for the models with transcendental functions. -/
theorem C71_unconditional_real (m : ForecastModel ℝ)
    (hm : BuiltFrom (fun a => a ∈ [modelConstant, modelLinear, modelRamp, modelQuasilinear, modelExp, modelSigmoidStep, modelSigmoid, modelFourier]) m)
    (env : Env ℝ) (df : Frame ℝ) (actuals : Option (Frame ℝ)) (c : Bool) (f : FitResult ℝ) (h : fitModel env m df actuals c = .ok f) :
    f.status ≠ .inputErr ∧ (f.status = .fit ∨ f.status = .noFit ↔ m.nParams + 2 ≤ (usableRows df).length) := by
  refine built_tried _ ?_ m hm env df actuals c f h
  intro a ha
  simp only [List.mem_cons, List.not_mem_nil, or_false] at ha
  rcases ha with rfl | rfl | rfl | rfl | rfl | rfl | rfl | rfl <;> rfl

/-- The hypotheses are met by a sum of a line and the weekday model. -/
example : Contains modelSeasonWday ((modelLinear : ForecastModel ℚ).add modelSeasonWday) ∧
    ∀ u ∈ ((modelLinear : ForecastModel ℚ).add modelSeasonWday).validators, u.id = (validateSeasonWday : Validator ℚ).id → u = validateSeasonWday := by
  refine ⟨.addRight _ _ .self, ?_⟩
  intro u hu hid
  have : u ∈ [validateDefault, (validateSeasonWday : Validator ℚ)] := by rw [← weekly_validators]; exact hu
  simp only [List.mem_cons, List.not_mem_nil, or_false] at this
  rcases this with rfl | rfl
  · exact absurd hid (by decide)
  · rfl

/-- Twelve days with all weekdays: the model is fitted; ten samples without Sundays: it is not. -/
example : ((fitModel demoEnv ((modelLinear : ForecastModel ℚ).add modelSeasonWday)
      ⟨true, false, (List.range 12).map fun i : Nat => ⟨i * DAY, i, some i, none⟩⟩ none false).toOption.map FitResult.status,
    (fitModel demoEnv ((modelLinear : ForecastModel ℚ).add modelSeasonWday)
      ⟨true, false, ((List.range 12).filter fun i => i % 7 ≠ 3).map fun i : Nat => ⟨i * DAY, i, some i, none⟩⟩ none false).toOption.map FitResult.status) =
    (some .fit, some .inputErr) := by decide +kernel

end Anticipy
