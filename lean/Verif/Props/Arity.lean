import Verif.Spec.Arity
import Verif.Spec.Identity
import Verif.Lemmas.Composition
import Verif.Props.CalendarModels
import Verif.Model.ZooReal
import Verif.Model.Naive
import Verif.Model.Fix

/-
C97: a list of parameters of the wrong length is rejected.
-/
namespace Anticipy
open Spec
variable {K : Type} [Field K] [LinearOrder K]

section
omit [Field K] [LinearOrder K]

theorem unpack1_error (p : List K) (h : p.length ≠ 1) : unpack1 (some p) = .error .valueError := by
  match p, h with
  | [], _ => rfl
  | [_], h => exact absurd rfl h
  | _ :: _ :: _, _ => rfl

theorem unpack2_error (p : List K) (h : p.length ≠ 2) : unpack2 (some p) = .error .valueError := by
  match p, h with
  | [], _ => rfl
  | [_], _ => rfl
  | [_, _], h => exact absurd rfl h
  | _ :: _ :: _ :: _, _ => rfl

theorem unpack3_error (p : List K) (h : p.length ≠ 3) : unpack3 (some p) = .error .valueError := by
  match p, h with
  | [], _ => rfl
  | [_], _ => rfl
  | [_, _], _ => rfl
  | [_, _, _], h => exact absurd rfl h
  | _ :: _ :: _ :: _ :: _, _ => rfl
end

/-- Composites of models that reject wrong lists reject wrong lists. -/
theorem rejects_compose (ctx : Ctx K) (mult : Bool) (a b : ForecastModel K) (ha : a.name ≠ "null") (hb : b.name ≠ "null") (h1 : RejectsOthers ctx a) (h2 : RejectsOthers ctx b) :
    RejectsOthers ctx (compose mult a b) := by
  intro p mode hp
  rw [compose_fModel mult a b ha hb]
  rw [compose_nParams mult a b ha hb] at hp
  by_cases hl : (p.take a.nParams).length = a.nParams
  · have h3 : (p.drop a.nParams).length ≠ b.nParams := by
      rw [List.length_take] at hl
      rw [List.length_drop]
      omega
    cases hf : a.fModel ctx (some (p.take a.nParams)) mult with
    | error e => exact ⟨e, rfl⟩
    | ok r =>
      obtain ⟨e, he⟩ := h2 _ mult h3
      exact ⟨e, by simp only [bind, Except.bind, he]⟩
  · obtain ⟨e, he⟩ := h1 _ mult hl
    exact ⟨e, by simp only [bind, Except.bind, he]⟩

theorem rejects_built (ctx : Ctx K) (A : ForecastModel K → Prop) (hA : ∀ a, A a → a.name ≠ "null" ∧ RejectsOthers ctx a) (m : ForecastModel K) (hm : BuiltFrom A m) :
    m = modelNull ∨ (m.name ≠ "null" ∧ RejectsOthers ctx m) := by
  have comp : ∀ mult (a b : ForecastModel K), (a = modelNull ∨ (a.name ≠ "null" ∧ RejectsOthers ctx a)) → (b = modelNull ∨ (b.name ≠ "null" ∧ RejectsOthers ctx b)) →
      (compose mult a b = modelNull ∨ ((compose mult a b).name ≠ "null" ∧ RejectsOthers ctx (compose mult a b))) := by
    rintro mult a b (rfl | ⟨a1, a2⟩) hb
    · have : compose mult modelNull b = b := by
        unfold compose
        exact if_pos rfl
      rw [this]
      exact hb
    · rcases hb with rfl | ⟨b1, b2⟩
      · have : compose mult a modelNull = a := by
          unfold compose
          rw [if_neg a1]
          exact if_pos rfl
        rw [this]
        exact .inr ⟨a1, a2⟩
      · exact .inr ⟨compose_name _ _ _ a1 b1, rejects_compose ctx mult a b a1 b1 a2 b2⟩
  induction hm with
  | part a ha => exact .inr (hA a ha)
  | null => exact .inl rfl
  | plus m m' _ _ h1 h2 => exact comp false _ _ h1 h2
  | times m m' _ _ h1 h2 => exact comp true _ _ h1 h2

theorem rejects_dummy (ctx : Ctx K) (name : String) (f : DummyFn K) : RejectsOthers ctx (dummyModel name f) := by
  intro p mult hp
  have hp : p.length ≠ 1 := hp
  simp only [dummyModel, mkModel, fModelDummy, bind, Except.bind, unpack1_error p hp]
  cases ctx.cache ("mask_" ++ name) with
  | none =>
    dsimp only
    cases f ctx.ax ctx.adate with
    | error e => exact ⟨e, rfl⟩
    | ok v => exact ⟨_, rfl⟩
  | some v =>
    cases v with
    | mask v => exact ⟨_, rfl⟩
    | _ => exact ⟨_, rfl⟩

theorem mapM_member {α β : Type} (f : α → Res β) (l : List α) (r : List β) (h : l.mapM f = .ok r) (x : β) (hx : x ∈ r) : ∃ a ∈ l, f a = .ok x := by
  have h2 := mapM_forall2 f l r h
  clear h
  induction h2 with
  | nil => cases hx
  | cons hab _ ih =>
    rcases List.mem_cons.1 hx with rfl | hx
    · exact ⟨_, by simp, hab⟩
    · obtain ⟨a, ha, e⟩ := ih hx
      exact ⟨a, by simp [ha], e⟩

theorem rejects_dummies (ctx : Ctx K) (m : ForecastModel K) (ms : List (ForecastModel K)) (n : Nat) (hl : n = ms.length + 1)
    (h : ∀ x ∈ m :: ms, x.name ≠ "null" ∧ x.nParams = 1 ∧ RejectsOthers ctx x) (p : List K) (mult : Bool) (hp : p.length ≠ n) :
    ∃ e, fModelSumOrProd (combineModels false m ms) (combineModels true m ms) ctx (some p) mult = .error e := by
  have key : ∀ b, RejectsOthers ctx (combineModels b m ms) := fun b =>
    (combine_induct (fun a => a.name ≠ "null" ∧ RejectsOthers ctx a) b
      (fun x y hx hy => ⟨compose_name _ _ _ hx.1 hy.1, rejects_compose ctx b x y hx.1 hy.1 hx.2 hy.2⟩) m ms (fun x hx => ⟨(h x hx).1, (h x hx).2.2⟩)).2
  have hn : ∀ b, (combineModels b m ms).nParams = n := fun b => by
    rw [(combine_shape b m ms (fun x hx => (h x hx).1) (fun x hx => (h x hx).2.1)).2, hl]
  unfold fModelSumOrProd
  cases mult
  · exact key false p false (by rw [hn]; exact hp)
  · exact key true p true (by rw [hn]; exact hp)

theorem rejects_calendars (ctx : Ctx K) (cals : List Calendar) (hc : ∀ c ∈ cals, c.name ≠ "null") (name : Option String) (a : ForecastModel K)
    (h : getModelFromCalendars cals name = .ok a) : RejectsOthers ctx a := by
  unfold getModelFromCalendars at h
  dsimp only at h
  cases hl : cals.filter (fun c => !c.rules.isEmpty) with
  | nil => rw [hl] at h; cases h
  | cons c0 cs =>
    rw [hl] at h
    dsimp only at h
    cases hd : (c0 :: cs).mapM fun c => getModelDummy (K := K) c.name (fDummyCalendar c.rules) with
    | error e => rw [hd] at h; cases h
    | ok ds =>
      rw [hd] at h
      simp only [bind, Except.bind] at h
      have hx : ∀ x ∈ ds, x.name ≠ "null" ∧ x.nParams = 1 ∧ RejectsOthers ctx x := by
        intro x hx
        obtain ⟨c, hc', hx'⟩ := mapM_member _ _ _ hd x hx
        rw [getModelDummy_ok _ _ _ hx']
        exact ⟨hc c (List.mem_of_mem_filter (by rw [hl]; exact hc')), rfl, rejects_dummy ctx _ _⟩
      cases ds with
      | nil => cases h
      | cons m ms =>
        cases h
        exact fun p mult hp => rejects_dummies ctx m ms _ rfl hx p mult hp

theorem rejects_datelist (ctx : Ctx K) (name : String) (lists : List (List Timestamp)) (a : ForecastModel K)
    (h : getModelFromDatelist name lists = .ok a) : RejectsOthers ctx a := by
  unfold getModelFromDatelist at h
  cases hd : lists.mapM (fun l => do
    let f ← fDummyDates (K := K) l
    getModelDummy (K := K) "model_dummy" f) with
  | error e => rw [hd] at h; cases h
  | ok ds =>
    rw [hd] at h
    simp only [bind, Except.bind] at h
    have hx : ∀ x ∈ ds, x.name ≠ "null" ∧ x.nParams = 1 ∧ RejectsOthers ctx x := by
      intro x hx
      obtain ⟨c, hc', hx'⟩ := mapM_member _ _ _ hd x hx
      cases hf : fDummyDates (K := K) c with
      | error e => rw [hf] at hx'; cases hx'
      | ok f =>
        rw [hf] at hx'
        simp only [bind, Except.bind] at hx'
        rw [getModelDummy_ok _ _ _ hx']
        exact ⟨by simp [dummyModel, mkModel], rfl, rejects_dummy ctx _ _⟩
    cases ds with
    | nil => cases h
    | cons m ms =>
      cases h
      exact fun p mult hp => rejects_dummies ctx m ms _ rfl hx p mult hp

theorem dated_name (c : Char) (l : List Char) (s : String) (h : s.toList = c :: l) (hc : c ≠ 'n') : s ≠ "null" := by
  rintro rfl
  simp at h
  exact hc h.1.symm

theorem rejects_unpacks [FloorRing K] (ctx : Ctx K) (a : ForecastModel K) (h : Unpacks a) : a.name ≠ "null" ∧ RejectsOthers ctx a := by
  rcases h with h | ⟨label, d, rfl⟩ | ⟨label, d, d', rfl⟩ | ⟨name, f, hn, hf⟩ | ⟨hn, cals, name, hc, hf⟩ | ⟨hn, name, lists, hf⟩
  · simp only [List.mem_cons, List.not_mem_nil, or_false] at h
    rcases h with rfl | rfl | rfl | rfl | rfl | rfl
    · refine ⟨by simp [modelConstant, mkModel], fun p mult hp => ⟨.valueError, ?_⟩⟩
      simp only [modelConstant, mkModel, fModelConstant, unpack1_error p hp, bind, Except.bind]
    · refine ⟨by simp [modelLinear, mkModel], fun p mult hp => ⟨.valueError, ?_⟩⟩
      simp only [modelLinear, mkModel, fModelLinear, unpack2_error p hp, bind, Except.bind]
    · refine ⟨by simp [modelLinearNondec, mkModel], fun p mult hp => ⟨.valueError, ?_⟩⟩
      simp only [modelLinearNondec, mkModel, fModelLinear, unpack2_error p hp, bind, Except.bind]
    · refine ⟨by simp [modelStep, mkModel], fun p mult hp => ⟨.valueError, ?_⟩⟩
      simp only [modelStep, mkModel, fStep, unpack2_error p hp, bind, Except.bind]
    · refine ⟨by simp [modelRamp, mkModel], fun p mult hp => ⟨.valueError, ?_⟩⟩
      simp only [modelRamp, mkModel, fRamp, unpack2_error p hp, bind, Except.bind]
    · refine ⟨by simp [modelSpike, mkModel], fun p mult hp => ⟨.valueError, ?_⟩⟩
      simp only [modelSpike, mkModel, fModelSpike, unpack3_error p hp, bind, Except.bind]
  · refine ⟨dated_name 's' _ _ (by simp only [getModelStepDate, mkModel, String.toList_append]; rfl) (by decide), fun p mult hp => ⟨.valueError, ?_⟩⟩
    simp only [getModelStepDate, mkModel, fModelStepDate, unpack1_error p hp, bind, Except.bind]
  · refine ⟨dated_name 's' _ _ (by simp only [getModelSpikeDate, mkModel, String.toList_append]; rfl) (by decide), fun p mult hp => ⟨.valueError, ?_⟩⟩
    simp only [getModelSpikeDate, mkModel, fModelSpikeDate, unpack1_error p hp, bind, Except.bind]
  · rw [getModelDummy_ok name f a hf]
    exact ⟨hn, rejects_dummy ctx name f⟩
  · exact ⟨hn, rejects_calendars ctx cals hc name a hf⟩
  · exact ⟨hn, rejects_datelist ctx name lists a hf⟩

/-- **C97.** The trend models, steps and spikes, dummy variables, calendars and date lists, and everything built of them with `+` and `*` except
the null model itself, raise an exception when they are evaluated with another number of parameters than they have. -/
theorem C97_rejected_partial [FloorRing K] (ctx : Ctx K) (m : ForecastModel K) (hm : BuiltFrom Unpacks m) (hn : m.name ≠ "null") : RejectsOthers ctx m := by
  rcases rejects_built ctx Unpacks (rejects_unpacks ctx) m hm with rfl | h
  · exact absurd rfl hn
  · exact h.2

example : BuiltFrom Unpacks ((modelLinear.add modelStep).mul (getModelSpikeDate (fun _ => "d") 0 DAY) : ForecastModel ℚ) ∧
    ((modelLinear.add modelStep).mul (getModelSpikeDate (fun _ => "d") 0 DAY) : ForecastModel ℚ).nParams = 5 :=
  ⟨.times _ _ (.plus _ _ (.part _ (.inl (by simp))) (.part _ (.inl (by simp)))) (.part _ (.inr (.inr (.inl ⟨_, _, _, rfl⟩)))), by decide +kernel⟩

theorem rejects_fourier (ctx : Ctx ℝ) (hc : ∀ rows, ctx.cache "a_t_fourier" = some (.mat rows) → rows.length = 2 * fourierHarmonics) :
    RejectsOthers ctx modelFourier := by
  intro p mult hp
  have hp : p.length ≠ 2 * fourierHarmonics := hp
  simp only [modelFourier, mkModel, fModelFourier]
  cases hk : ctx.cache "a_t_fourier" with
  | none =>
    cases had : ctx.adate with
    | none => exact ⟨_, rfl⟩
    | some ds =>
      refine ⟨.valueError, ?_⟩
      simp only [cacheFourier, bind, Except.bind]
      rw [if_pos]
      simpa [← two_mul] using hp
  | some c =>
    simp only [bind, Except.bind, pure, Except.pure]
    cases c with
    | mat rows =>
      refine ⟨.valueError, ?_⟩
      dsimp only
      rw [if_pos]
      rw [hc rows hk]
      exact hp
    | _ => exact ⟨_, rfl⟩

/-- **C97, real models.** The same with the models that use transcendental functions, and the yearly season if the cache holds what that model puts there. -/
theorem C97_real_partial (ctx : Ctx ℝ) (hc : ∀ rows, ctx.cache "a_t_fourier" = some (.mat rows) → rows.length = 2 * fourierHarmonics)
    (m : ForecastModel ℝ)
    (hm : BuiltFrom (fun a => Unpacks a ∨ a ∈ [modelQuasilinear, modelExp, modelDecay, modelSigmoidStep, modelSigmoid, modelFourier]) m)
    (hn : m.name ≠ "null") : RejectsOthers ctx m := by
  refine (rejects_built ctx _ ?_ m hm).elim (fun h => absurd (by rw [h]; rfl) hn) (fun h => h.2)
  rintro a (h | h)
  · exact rejects_unpacks ctx a h
  · simp only [List.mem_cons, List.not_mem_nil, or_false] at h
    rcases h with rfl | rfl | rfl | rfl | rfl | rfl
    · refine ⟨by simp [modelQuasilinear, mkModel], fun p mult hp => ⟨.valueError, ?_⟩⟩
      simp only [modelQuasilinear, mkModel, fModelQuasilinear, unpack3_error p hp, bind, Except.bind]
    · refine ⟨by simp [modelExp, mkModel], fun p mult hp => ⟨.valueError, ?_⟩⟩
      simp only [modelExp, mkModel, fModelExp, unpack2_error p hp, bind, Except.bind]
    · refine ⟨by simp [modelDecay, mkModel], fun p mult hp => ⟨.valueError, ?_⟩⟩
      simp only [modelDecay, mkModel, fModelDecay, unpack3_error p hp, bind, Except.bind]
    · refine ⟨by simp [modelSigmoidStep, mkModel], fun p mult hp => ⟨.valueError, ?_⟩⟩
      simp only [modelSigmoidStep, mkModel, fSigmoid, unpack3_error p hp, bind, Except.bind]
    · refine ⟨by simp [modelSigmoid, mkModel], fun p mult hp => ⟨.valueError, ?_⟩⟩
      simp only [modelSigmoid, mkModel, fSigmoid, unpack3_error p hp, bind, Except.bind]
    · exact ⟨by simp [modelFourier, mkModel], rejects_fourier ctx hc⟩

example : BuiltFrom (fun a => Unpacks a ∨ a ∈ [modelQuasilinear, modelExp, modelDecay, modelSigmoidStep, modelSigmoid, modelFourier])
    (modelExp.add modelFourier) := .plus _ _ (.part _ (.inr (by simp))) (.part _ (.inr (by simp)))

theorem gather_short (l : List K) (is : List Int) (i : Int) (hi : i ∈ is) (h : (l.length : Int) ≤ i) : ∃ e, gather l is = .error e := by
  induction is with
  | nil => cases hi
  | cons j is ih =>
    simp only [gather, bind, Except.bind]
    cases hj : pyIndex l j with
    | error e => exact ⟨e, rfl⟩
    | ok v =>
      rcases List.mem_cons.1 hi with rfl | hi
      · have h0 : ¬ i < 0 := by omega
        have hn : l[i.toNat]? = none := by
          rw [List.getElem?_eq_none_iff]
          omega
        simp [pyIndex, h0, hn] at hj
      · obtain ⟨e, he⟩ := ih hi
        exact ⟨e, by simp only [he]⟩

/-- **C97, seasons.** The weekly and the monthly season raise an exception when they are evaluated with too few parameters for samples that reach
the last day or month of the season. -/
theorem C97_season_partial (ctx : Ctx K) (ds : List Timestamp) (hd : ctx.adate = some ds) (p : List K) (mult : Bool) :
    (ctx.cache "a_weekday" = none → (∃ d ∈ ds, weekday d = 6) → p.length < modelSeasonWday (K := K).nParams →
      ∃ e, modelSeasonWday.fModel ctx (some p) mult = .error e) ∧
    (ctx.cache "a_month" = none → (∃ d ∈ ds, month d = 12) → p.length < modelSeasonMonth (K := K).nParams →
      ∃ e, modelSeasonMonth.fModel ctx (some p) mult = .error e) := by
  refine ⟨fun hc ⟨d, hm, h6⟩ hp => ?_, fun hc ⟨d, hm, h6⟩ hp => ?_⟩
  · have hp : p.length < 6 := hp
    obtain ⟨e, he⟩ := gather_short ((if mult then 1 else 0) :: p) (ds.map weekday) 6 (List.mem_map.2 ⟨d, hm, h6⟩) (by simp; omega)
    exact ⟨e, by simp only [modelSeasonWday, mkModel, fModelSeasonWday, fModelIndexed, hc, hd, cacheWeekday, bind, Except.bind, he]⟩
  · have hp : p.length < 11 := hp
    obtain ⟨e, he⟩ := gather_short ((if mult then 1 else 0) :: p) (ds.map fun d => month d - 1) 11 (List.mem_map.2 ⟨d, hm, by omega⟩) (by simp; omega)
    exact ⟨e, by simp only [modelSeasonMonth, mkModel, fModelSeasonMonth, fModelIndexed, hc, hd, cacheMonth, bind, Except.bind, he]⟩

example : (∃ d ∈ [5 * DAY, 10 * DAY], weekday d = 6) ∧ (∃ d ∈ [5 * DAY, 340 * DAY], month d = 12) := by decide +kernel

/-- **C97, two steps.** The model with two steps raises an exception when it is evaluated with too few parameters. -/
theorem C97_two_steps_partial (ctx : Ctx K) (p : List K) (mult : Bool) (hp : p.length < modelTwoSteps (K := K).nParams) :
    ∃ e, modelTwoSteps.fModel ctx (some p) mult = .error e := by
  have hp : p.length < 4 := hp
  simp only [modelTwoSteps, mkModel, fNSteps]
  match p, hp with
  | [], _ => exact ⟨_, rfl⟩
  | [a], _ => exact ⟨_, rfl⟩
  | [a, b], _ | [a, b, c], _ =>
    simp only [fNStepsLoop, List.drop_zero, List.take, Nat.reduceDiv, bind, Except.bind]
    cases fStep ctx (some [a, b]) mult with
    | error e => exact ⟨e, rfl⟩
    | ok s =>
      cases mult
      · cases hy : Arr.bin (fun x1 x2 => x1 + x2) (Arr.scalar (some (0 : K))) s with
        | error e => exact ⟨e, by simp [hy]⟩
        | ok y => exact ⟨_, by simp [hy]; rfl⟩
      · cases hy : Arr.bin (fun x1 x2 => x1 * x2) (Arr.scalar (some (1 : K))) s with
        | error e => exact ⟨e, by simp [hy]⟩
        | ok y => exact ⟨_, by simp [hy]; rfl⟩

/-- **C97, fixed parameters.** A model some of whose parameters are fixed raises an exception when it is evaluated with another number of parameters
than remain free, unless a single value is given. -/
theorem C97_fixed_partial (label : List (Option K) → String) (m m' : ForecastModel K) (fixed : List (Option K)) (h : fixParams label m fixed = .ok m')
    (ctx : Ctx K) (p : List K) (mult : Bool) (hp : p.length ≠ m'.nParams) (h1 : p.length ≠ 1) : ∃ e, m'.fModel ctx (some p) mult = .error e := by
  unfold fixParams at h
  cases ha : pyAssert (decide (fixed.length = m.nParams)) with
  | error e => rw [ha] at h; cases h
  | ok u =>
    rw [ha] at h
    simp only [bind, Except.bind] at h
    cases h
    have hn : ((fixed.map Option.isNone).filter id).length = countNulls fixed := by
      rw [countNulls, List.filter_map, List.length_map]
      rfl
    refine ⟨.valueError, ?_⟩
    have hp : p.length ≠ countNulls fixed := hp
    simp only [mkModel, fixedEval, fixedCall, assignNulls, hn, if_neg hp]
    match p, h1 with
    | [], _ => rfl
    | [_], h1 => exact absurd rfl h1
    | _ :: _ :: _, _ => rfl

theorem isOk_error {α : Type} (r : Res α) (e : Err) (h : r = .error e) (hk : r.isOk = true) : False := by
  rw [h] at hk
  cases hk

/-- Two samples, on a Tuesday and a Wednesday. -/
def twoDays : Ctx ℚ := ⟨[0, 1], some [5 * DAY, 6 * DAY], none, fun _ => none, false⟩

/-- **C97 fails for seasons and two steps.** The weekly season and the model with two steps ignore surplus values, also at the end of a composite;
the weekly season accepts too few values on days of the week that do not need them. -/
theorem C97_counterexample :
    ¬ RejectsOthers twoDays modelSeasonWday ∧ ¬ RejectsOthers twoDays (modelLinear.add modelSeasonWday) ∧ ¬ RejectsOthers twoDays modelTwoSteps ∧
      modelSeasonWday.fModel twoDays (some [1, 2, 3, 4, 5, 6, 7]) false = modelSeasonWday.fModel twoDays (some [1, 2, 3, 4, 5, 6]) false ∧
      modelSeasonWday.fModel twoDays (some [1, 2]) false = modelSeasonWday.fModel twoDays (some [1, 2, 3, 4, 5, 6]) false := by
  refine ⟨fun h => ?_, fun h => ?_, fun h => ?_, ?_, ?_⟩
  · obtain ⟨e, he⟩ := h [1, 2, 3, 4, 5, 6, 7] false (by decide +kernel)
    exact isOk_error _ e he (by decide +kernel)
  · obtain ⟨e, he⟩ := h [1, 2, 3, 4, 5, 6, 7, 8, 9] false (by decide +kernel)
    exact isOk_error _ e he (by decide +kernel)
  · obtain ⟨e, he⟩ := h [1, 2, 3, 4, 5] false (by decide +kernel)
    exact isOk_error _ e he (by decide +kernel)
  · decide +kernel
  · decide +kernel

/-- **C97 fails for fixed parameters.** A single value is silently used for all parameters that remain free. -/
theorem C97_counterexample_fixed : ∃ m' : ForecastModel ℚ, fixParams (fun _ => "") (modelLinear.add modelStep) [none, none, some 1, some 5] = .ok m' ∧ m'.nParams = 2 ∧
    ¬ RejectsOthers twoDays m' ∧ m'.fModel twoDays (some [7]) false = m'.fModel twoDays (some [7, 7]) false := by
  refine ⟨_, rfl, by decide +kernel, fun h => ?_, by decide +kernel⟩
  obtain ⟨e, he⟩ := h [7] false (by decide +kernel)
  exact isOk_error _ e he (by decide +kernel)

end Anticipy
