import Verif.Lemmas.Composition
import Verif.Spec.Horizon
import Verif.Props.TotalTable

/-
Models whose values depend on the samples one by one.
-/
namespace Anticipy
open Spec

section
variable {K : Type}

theorem vecOf_at {α : Type} (l : List α) (g : α → K) : Shaped l.length (vecOf (l.map g)) ∧ ∀ i x, l[i]? = some x → valueAt (vecOf (l.map g)) i = some (g x) := by
  refine ⟨by simp [Shaped, vecOf], ?_⟩
  intro i x hx
  simp [valueAt, vecOf, hx]

/-- Models that map a function over the coordinates. -/
theorem pointByPoint_ax (m : ForecastModel K) (dated : Bool) (h : ∀ (p : List K) (mult : Bool), (∃ g : K → K, ∀ ctx : Ctx K, m.fModel ctx (some p) mult = .ok (vecOf (ctx.ax.map g))) ∨
    ∃ e, ∀ ctx : Ctx K, m.fModel ctx (some p) mult = .error e) : PointByPoint dated m := by
  intro p mult
  rcases h p mult with ⟨g, hg⟩ | ⟨e, he⟩
  · refine ⟨fun x _ => some (g x), ?_⟩
    intro ax ds act a _ ha
    rw [hg] at ha
    cases ha
    obtain ⟨h1, h2⟩ := vecOf_at ax g
    exact ⟨h1, fun i x t hx _ => h2 i x hx⟩
  · refine ⟨fun _ _ => none, ?_⟩
    intro ax ds act a _ ha
    rw [he] at ha
    cases ha

/-- Models that map a function with null values over the x values. -/
theorem pointByPoint_ax_null (m : ForecastModel K) (dated : Bool) (h : ∀ (p : List K) (mult : Bool),
    (∃ g : K → Option K, ∀ ctx : Ctx K, m.fModel ctx (some p) mult = .ok (.vec (ctx.ax.map g))) ∨
    ∃ e, ∀ ctx : Ctx K, m.fModel ctx (some p) mult = .error e) : PointByPoint dated m := by
  intro p mult
  rcases h p mult with ⟨g, hg⟩ | ⟨e, he⟩
  · refine ⟨fun x _ => g x, ?_⟩
    intro ax ds act a _ ha
    rw [hg] at ha
    cases ha
    refine ⟨by simp [Shaped], ?_⟩
    intro i x t hx _
    simp [valueAt, hx]
  · refine ⟨fun _ _ => none, ?_⟩
    intro ax ds act a _ ha
    rw [he] at ha
    cases ha

/-- Models that map a function over the dates. -/
theorem pointByPoint_dates (m : ForecastModel K) (h : ∀ (p : List K) (mult : Bool), ∃ g : Timestamp → Option K, ∀ (ax : List K) (ds : List Timestamp) act a,
    m.fModel { ax := ax, adate := some ds, actuals := act } (some p) mult = .ok a → a = .vec (ds.map g)) : PointByPoint true m := by
  intro p mult
  obtain ⟨g, hg⟩ := h p mult
  refine ⟨fun _ t => g t, ?_⟩
  intro ax ds act a hl ha
  rw [if_pos rfl] at ha
  rw [hg _ _ _ _ ha]
  refine ⟨by simp [Shaped, hl], ?_⟩
  intro i x t _ ht
  simp [valueAt, ht]

variable [Field K]

theorem pointByPoint_null (dated : Bool) : PointByPoint dated (modelNull : ForecastModel K) := by
  intro p mult
  refine ⟨fun _ _ => some (if mult then 1 else 0), ?_⟩
  intro ax ds act a _ ha
  simp only [modelNull, mkModel] at ha
  cases ha
  exact ⟨trivial, fun i x t _ _ => rfl⟩

theorem pointByPoint_compose (mult : Bool) (dated : Bool) (m1 m2 : ForecastModel K) (h1 : PointByPoint dated m1) (h2 : PointByPoint dated m2) :
    PointByPoint dated (compose mult m1 m2) := by
  unfold compose
  by_cases a : m1.name = "null"
  · rw [if_pos a]; exact h2
  rw [if_neg a]
  by_cases b : m2.name = "null"
  · rw [if_pos b]; exact h1
  rw [if_neg b]
  · intro p md
    obtain ⟨g1, k1⟩ := h1 (p.take m1.nParams) mult
    obtain ⟨g2, k2⟩ := h2 (p.drop m1.nParams) mult
    refine ⟨fun x t => cell (if mult then (· * ·) else (· + ·)) (g1 x t) (g2 x t), ?_⟩
    intro ax ds act r hl hr
    have hr : (do
        let a ← m1.fModel { ax := ax, adate := if dated then some ds else none, actuals := act } (some (p.take m1.nParams)) mult
        let b ← m2.fModel { ax := ax, adate := if dated then some ds else none, actuals := act } (some (p.drop m1.nParams)) mult
        Arr.bin (if mult then (· * ·) else (· + ·)) a b) = .ok r := by
      cases mult <;> exact hr
    cases e1 : m1.fModel { ax := ax, adate := if dated then some ds else none, actuals := act } (some (p.take m1.nParams)) mult with
    | error e => rw [e1] at hr; cases hr
    | ok a =>
      cases e2 : m2.fModel { ax := ax, adate := if dated then some ds else none, actuals := act } (some (p.drop m1.nParams)) mult with
      | error e => rw [e1, e2] at hr; cases hr
      | ok b =>
        rw [e1, e2] at hr
        obtain ⟨s1, v1⟩ := k1 _ _ _ _ hl e1
        obtain ⟨s2, v2⟩ := k2 _ _ _ _ hl e2
        obtain ⟨r', hb, s3, v3⟩ := bin_shaped (if mult then (· * ·) else (· + ·)) ax.length a b s1 s2
        have hr : Arr.bin (if mult then (· * ·) else (· + ·)) a b = .ok r := hr
        rw [hb] at hr
        cases hr
        refine ⟨s3, ?_⟩
        intro i x t hx ht
        rw [v3 i (List.getElem?_eq_some_iff.1 hx).1, v1 i x t hx ht, v2 i x t hx ht]

variable [LinearOrder K]

theorem unpack1_cases (p : List K) : (∃ a, unpack1 (some p) = .ok a) ∨ unpack1 (some p) = .error .valueError := by
  rcases p with _ | ⟨a, _ | ⟨b, l⟩⟩
  · exact .inr rfl
  · exact .inl ⟨a, rfl⟩
  · exact .inr rfl

theorem unpack2_cases (p : List K) : (∃ a, unpack2 (some p) = .ok a) ∨ unpack2 (some p) = .error .valueError := by
  rcases p with _ | ⟨a, _ | ⟨b, _ | ⟨c, l⟩⟩⟩
  · exact .inr rfl
  · exact .inr rfl
  · exact .inl ⟨(a, b), rfl⟩
  · exact .inr rfl

theorem unpack3_cases (p : List K) : (∃ a, unpack3 (some p) = .ok a) ∨ unpack3 (some p) = .error .valueError := by
  rcases p with _ | ⟨a, _ | ⟨b, _ | ⟨c, _ | ⟨d, l⟩⟩⟩⟩
  · exact .inr rfl
  · exact .inr rfl
  · exact .inr rfl
  · exact .inl ⟨(a, b, c), rfl⟩
  · exact .inr rfl

theorem pointByPoint_constant (dated : Bool) : PointByPoint dated (modelConstant : ForecastModel K) := by
  apply pointByPoint_ax
  intro p mult
  rcases unpack1_cases p with ⟨a, h⟩ | h
  · refine .inl ⟨fun _ => a, fun ctx => ?_⟩
    change fModelConstant ctx (some p) mult = _
    simp only [fModelConstant, h]; rfl
  · refine .inr ⟨.valueError, fun ctx => ?_⟩
    change fModelConstant ctx (some p) mult = _
    simp only [fModelConstant, h]; rfl

theorem pointByPoint_linear (dated : Bool) : PointByPoint dated (modelLinear : ForecastModel K) ∧ PointByPoint dated (modelLinearNondec : ForecastModel K) := by
  have key : ∀ (p : List K) (mult : Bool), (∃ g : K → K, ∀ ctx : Ctx K, fModelLinear ctx (some p) mult = .ok (vecOf (ctx.ax.map g))) ∨
      ∃ e, ∀ ctx : Ctx K, fModelLinear ctx (some p) mult = .error e := by
    intro p mult
    rcases unpack2_cases p with ⟨⟨a, b⟩, h⟩ | h
    · refine .inl ⟨fun x => a * x + b, fun ctx => ?_⟩
      simp only [fModelLinear, h]; rfl
    · refine .inr ⟨.valueError, fun ctx => ?_⟩
      simp only [fModelLinear, h]; rfl
  exact ⟨pointByPoint_ax _ _ key, pointByPoint_ax _ _ key⟩

theorem pointByPoint_step (dated : Bool) : PointByPoint dated (modelStep : ForecastModel K) := by
  apply pointByPoint_ax
  intro p mult
  rcases unpack2_cases p with ⟨⟨a, b⟩, h⟩ | h
  · refine .inl ⟨fun x => if mult then 1 + (b - 1) * heaviside (x - a) else b * heaviside (x - a), fun ctx => ?_⟩
    change fStep ctx (some p) mult = _
    simp only [fStep, h]; rfl
  · refine .inr ⟨.valueError, fun ctx => ?_⟩
    change fStep ctx (some p) mult = _
    simp only [fStep, h]; rfl

theorem pointByPoint_ramp (dated : Bool) : PointByPoint dated (modelRamp : ForecastModel K) := by
  apply pointByPoint_ax
  intro p mult
  rcases unpack2_cases p with ⟨⟨a, b⟩, h⟩ | h
  · refine .inl ⟨fun x => if mult then 1 + (x - a) * b * heaviside (x - a) else (x - a) * b * heaviside (x - a), fun ctx => ?_⟩
    change fRamp ctx (some p) mult = _
    simp only [fRamp, h]; rfl
  · refine .inr ⟨.valueError, fun ctx => ?_⟩
    change fRamp ctx (some p) mult = _
    simp only [fRamp, h]; rfl

theorem pointByPoint_stepDate (label : Timestamp → String) (d : Timestamp) : PointByPoint true (getModelStepDate label d : ForecastModel K) := by
  apply pointByPoint_dates
  intro p mult
  rcases unpack1_cases p with ⟨a, h⟩ | h
  · refine ⟨fun t => some (if mult then (if d ≤ t then 1 else 0) * (a - 1) + 1 else (if d ≤ t then 1 else 0) * a), ?_⟩
    intro ax ds act r hr
    have hr : fModelStepDate d { ax := ax, adate := some ds, actuals := act } (some p) mult = .ok r := hr
    simp only [fModelStepDate, h, bind, Except.bind] at hr
    cases hr
    simp [vecOf]
  · refine ⟨fun _ => none, ?_⟩
    intro ax ds act r hr
    have hr : fModelStepDate d { ax := ax, adate := some ds, actuals := act } (some p) mult = .ok r := hr
    simp only [fModelStepDate, h] at hr
    cases hr

theorem pointByPoint_spikeDate (label : Timestamp → String) (d1 d2 : Timestamp) : PointByPoint true (getModelSpikeDate label d1 d2 : ForecastModel K) := by
  apply pointByPoint_dates
  intro p mult
  rcases unpack1_cases p with ⟨a, h⟩ | h
  · refine ⟨fun d => some (if mult then (if decide (d1 ≤ d) && decide (d < d2) then 1 else 0) * a + (if decide (d1 ≤ d) && decide (d < d2) then 0 else 1)
      else (if decide (d1 ≤ d) && decide (d < d2) then 1 else 0) * a), ?_⟩
    intro ax ds act r hr
    have hr : fModelSpikeDate d1 d2 { ax := ax, adate := some ds, actuals := act } (some p) mult = .ok r := hr
    simp only [fModelSpikeDate, h, bind, Except.bind] at hr
    cases hr
    simp [vecOf]
  · refine ⟨fun _ => none, ?_⟩
    intro ax ds act r hr
    have hr : fModelSpikeDate d1 d2 { ax := ax, adate := some ds, actuals := act } (some p) mult = .ok r := hr
    simp only [fModelSpikeDate, h] at hr
    cases hr

omit [LinearOrder K] in
theorem gather_at (l : List K) (is : List Int) (r : List (Option K)) (h : gather l is = .ok r) : r = is.map fun i => (pyIndex l i).toOption := by
  induction is generalizing r with
  | nil => cases h; rfl
  | cons i is ih =>
    simp only [gather, bind, Except.bind] at h
    cases e : pyIndex l i with
    | error x => rw [e] at h; cases h
    | ok v =>
      rw [e] at h
      dsimp only at h
      cases e2 : gather l is with
      | error x => rw [e2] at h; cases h
      | ok r' =>
        rw [e2] at h
        cases h
        rw [List.map_cons, e, ← ih r' e2]
        rfl

omit [LinearOrder K] in
theorem pointByPoint_indexed (m : ForecastModel K) (key : String) (f : CacheFn K) (idx : Timestamp → Int) (hf : ∀ ax ds, f ax (some ds) = .ok (.ints (ds.map idx)))
    (hm : m.fModel = fModelIndexed key f) : PointByPoint true m := by
  apply pointByPoint_dates
  intro p mult
  refine ⟨fun t => (pyIndex ((if mult then 1 else 0) :: p) (idx t)).toOption, ?_⟩
  intro ax ds act r hr
  rw [hm] at hr
  simp only [fModelIndexed, bind, Except.bind, hf] at hr
  cases e : gather ((if mult then 1 else 0) :: p) (ds.map idx) with
  | error x => rw [e] at hr; cases hr
  | ok v =>
    rw [e] at hr
    cases hr
    rw [gather_at _ _ _ e, List.map_map]
    rfl

theorem pointByPoint_season : PointByPoint true (modelSeasonWday : ForecastModel K) ∧ PointByPoint true (modelSeasonMonth : ForecastModel K) :=
  ⟨pointByPoint_indexed _ "a_weekday" cacheWeekday weekday (fun _ _ => rfl) rfl,
    pointByPoint_indexed _ "a_month" cacheMonth (fun d => month d - 1) (fun _ _ => rfl) rfl⟩

/-- Dummies that flag dates one by one. -/
theorem pointByPoint_dummy (name : String) (f : DummyFn K) (m : ForecastModel K) (h : getModelDummy name f = .ok m) (flag : Timestamp → K)
    (hf : ∀ ax ds, f ax (some ds) = .ok (ds.map flag)) : PointByPoint true m := by
  unfold getModelDummy at h
  cases hv : validateFDummy f with
  | error e => rw [hv] at h; cases h
  | ok u =>
    rw [hv] at h
    cases h
    apply pointByPoint_dates
    intro p mult
    rcases unpack1_cases p with ⟨a, h⟩ | h
    · refine ⟨fun t => some (if mult then a * flag t + 1 else a * flag t), ?_⟩
      intro ax ds act r hr
      have hr : fModelDummy f ("mask_" ++ name) { ax := ax, adate := some ds, actuals := act } (some p) mult = .ok r := hr
      simp only [fModelDummy, h, bind, Except.bind, hf] at hr
      cases hr
      simp [vecOf]
    · refine ⟨fun _ => none, ?_⟩
      intro ax ds act r hr
      have hr : fModelDummy f ("mask_" ++ name) { ax := ax, adate := some ds, actuals := act } (some p) mult = .ok r := hr
      simp only [fModelDummy, h, bind, Except.bind, hf] at hr
      cases hr

/-- All candidates have a property that is kept by composition, if all components offered have it. -/
theorem candidates_closed (P Q : ForecastModel K → Prop) (hPQ : ∀ m, P m → Q m) (hnull : P modelNull) (hlin : P modelLinear ∧ P modelRamp)
    (hcompose : ∀ mult a b, P a → P b → P (compose mult a b))
    (ch : Choices K) (hset : IsSet ch.setOrder) (args : ModelArgs K)
    (htrend : ∀ t, args.trend = some t → ∀ m ∈ t, P m) (hseason : ∀ s, args.season = some s → ∀ m ∈ s, P m)
    (hyear : ∀ m ∈ offered args.yearly ch.dfltYearly, P m) (hweek : ∀ m ∈ offered args.weekly ch.dfltWeekly, P m)
    (hcal : ∀ c, args.calendar = some c → ∀ m ∈ c, P m) (df : Frame K) (fr : Option Freq)
    (hnaive : ∀ m ∈ args.naive.getD (if fr = some .D then [ch.snaive] else [ch.naive]), Q m)
    (cand : AddMult × List (ForecastModel K)) (h : candidates ch args df fr = .ok cand) : ∀ m ∈ cand.2, Q m := by
  have hauto : ∀ mult, ∀ m ∈ autoSeason (weightedDates df) (3 / 2) mult args.yearly args.weekly ch.dfltYearly ch.dfltWeekly, P m := by
    intro mult m hm
    rcases C42_enough_data _ _ _ _ _ _ _ m hm with rfl | ⟨w, y, rfl, h1, h2⟩
    · exact hnull
    · refine hcompose mult w y ?_ ?_
      · rcases h1 with rfl | h1
        · exact hnull
        · exact hweek w h1.1
      · rcases h2 with rfl | h2
        · exact hnull
        · exact hyear y h2.1
  have hlist : ∀ (t : List (ForecastModel K)) (s : Option (List (ForecastModel K))) (mode : AddMult), (∀ m ∈ t, P m) → (∀ l, s = some l → ∀ m ∈ l, P m) →
      ∀ m ∈ getListModel (some t) s mode, P m := by
    intro t s mode ht hs
    have hs' : ∀ m ∈ s.getD [], P m := by
      cases s with
      | none => simp
      | some l => exact hs l rfl
    unfold getListModel
    dsimp only [Option.getD_some]
    by_cases h1 : s.getD [] = []
    · rw [if_pos h1]
      exact fun m hm => ht m (mem_dedupBy _ _ _ hm)
    rw [if_neg h1]
    by_cases h2 : t = []
    · rw [if_pos h2]
      exact fun m hm => hs' m (mem_dedupBy _ _ _ hm)
    rw [if_neg h2]
    · intro m hm
      have hm := mem_dedupBy _ _ _ hm
      rw [mem_combinations] at hm
      obtain ⟨a, ha, b, hb, (⟨-, rfl⟩ | ⟨-, rfl⟩)⟩ := hm
      · exact hcompose false a b (ht a ha) (hs' b hb)
      · exact hcompose true a b (ht a ha) (hs' b hb)
  have hcomp : ∀ mult, ∀ m ∈ composedModels ch args df mult, P m := by
    intro mult
    unfold composedModels
    have ht : ∀ m ∈ args.trend.getD (if useRamp df then [modelLinear, modelLinear.add modelRamp] else [modelLinear]), P m := by
      cases e : args.trend with
      | some t => exact htrend t e
      | none =>
        dsimp only [Option.getD_none]
        split_ifs
        · intro m hm
          simp only [List.mem_cons, List.not_mem_nil, or_false] at hm
          rcases hm with rfl | rfl
          · exact hlin.1
          · exact hcompose false _ _ hlin.1 hlin.2
        · intro m hm
          rw [List.mem_singleton] at hm
          subst hm
          exact hlin.1
    generalize args.trend.getD (if useRamp df then [modelLinear, modelLinear.add modelRamp] else [modelLinear]) = t at ht
    dsimp only
    generalize (if mult then AddMult.mult else AddMult.add) = mode
    have hs : ∀ l, (match args.season with
        | some s => some s
        | none => if df.hasDate then
            some (autoSeason (weightedDates df) (3 / 2) mult args.yearly args.weekly ch.dfltYearly ch.dfltWeekly)
          else none) = some l → ∀ m ∈ l, P m := by
      intro l
      cases e : args.season with
      | some s => intro h; cases h; exact hseason _ e
      | none =>
        dsimp only
        by_cases hd : df.hasDate = true
        · rw [if_pos hd]; intro h; cases h; exact hauto mult
        · rw [if_neg hd]; intro h; cases h
    have h1 := hlist t _ mode ht hs
    cases e : args.calendar with
    | none => exact h1
    | some cal =>
      dsimp only
      by_cases hu : useCalendar df = true
      · rw [if_pos hu]
        exact hlist _ (some cal) mode h1 (fun l hl => by cases hl; exact hcal _ e)
      · rw [if_neg hu]
        exact h1
  unfold candidates at h
  cases hm : resolveMode ch args df with
  | error e => rw [hm] at h; cases h
  | ok mode =>
    rw [hm] at h
    have h := Except.ok.inj h
    rw [← h]
    dsimp only
    intro m hm
    rcases List.mem_append.1 ((sortBy_perm nameLe _).mem_iff.1 hm) with h | h
    · exact hnaive m h
    · apply hPQ
      have hboth : m ∈ ch.setOrder (composedModels ch args df false ++ composedModels ch args df true) → P m := by
        intro hm
        rcases List.mem_append.1 (mem_dedupBy _ _ _ ((hset (composedModels ch args df false ++ composedModels ch args df true)).mem_iff.1 hm)) with h | h
        · exact hcomp false m h
        · exact hcomp true m h
      cases mode with
      | add => exact hcomp false m h
      | mult => exact hcomp true m h
      | _ => exact hboth h

end

/-! ### Models with transcendental functions -/

theorem pointByPoint_real (dated : Bool) : PointByPoint dated modelQuasilinear ∧ PointByPoint dated modelExp ∧ PointByPoint dated modelDecay ∧
    PointByPoint dated modelSigmoid ∧ PointByPoint dated modelSigmoidStep := by
  refine ⟨?_, ?_, ?_, ?_, ?_⟩
  · apply pointByPoint_ax_null
    intro p mult
    rcases unpack3_cases p with ⟨⟨a, b, c⟩, h⟩ | h
    · refine .inl ⟨fun x => (npPower x b).map fun v => a * v + c, fun ctx => ?_⟩
      change fModelQuasilinear ctx (some p) mult = _
      simp only [fModelQuasilinear, h]; rfl
    · refine .inr ⟨.valueError, fun ctx => ?_⟩
      change fModelQuasilinear ctx (some p) mult = _
      simp only [fModelQuasilinear, h]; rfl
  · apply pointByPoint_ax_null
    intro p mult
    rcases unpack2_cases p with ⟨⟨a, b⟩, h⟩ | h
    · refine .inl ⟨fun x => (npPower b x).map fun v => a * v, fun ctx => ?_⟩
      change fModelExp ctx (some p) mult = _
      simp only [fModelExp, h]; rfl
    · refine .inr ⟨.valueError, fun ctx => ?_⟩
      change fModelExp ctx (some p) mult = _
      simp only [fModelExp, h]; rfl
  · apply pointByPoint_ax
    intro p mult
    rcases unpack3_cases p with ⟨⟨a, b, c⟩, h⟩ | h
    · refine .inl ⟨fun x => a * Real.exp (b * x) + c, fun ctx => ?_⟩
      change fModelDecay ctx (some p) mult = _
      simp only [fModelDecay, h]; rfl
    · refine .inr ⟨.valueError, fun ctx => ?_⟩
      change fModelDecay ctx (some p) mult = _
      simp only [fModelDecay, h]; rfl
  all_goals
    apply pointByPoint_ax
    intro p mult
    rcases unpack3_cases p with ⟨⟨a, b, c⟩, h⟩ | h
    · refine .inl ⟨fun x => (if mult then (1 : ℝ) else 0) + (a - (if mult then (1 : ℝ) else 0)) / (1 + Real.exp (-c * (x - b))), fun ctx => ?_⟩
      change fSigmoid ctx (some p) mult = _
      simp only [fSigmoid, h]; rfl
    · refine .inr ⟨.valueError, fun ctx => ?_⟩
      change fSigmoid ctx (some p) mult = _
      simp only [fSigmoid, h]; rfl

theorem pointByPoint_fourier : PointByPoint true modelFourier := by
  apply pointByPoint_dates
  intro p mult
  refine ⟨fun d => some (List.zipWith (fun q v => q * v) p
    (((List.range fourierHarmonics).map fun i : Nat => Real.sin (fourierK * ((i : ℝ) + 1) * fourierT d)) ++
      ((List.range fourierHarmonics).map fun i : Nat => Real.cos (fourierK * ((i : ℝ) + 1) * fourierT d)))).sum, ?_⟩
  intro ax ds act r hr
  have hr : fModelFourier { ax := ax, adate := some ds, actuals := act } (some p) mult = .ok r := hr
  simp only [fModelFourier, bind, Except.bind, cacheFourier] at hr
  split_ifs at hr
  cases hr
  unfold vecOf
  congr 1
  have hlen : (((List.range fourierHarmonics).map fun i : Nat => ds.map fun d => Real.sin (fourierK * ((i : ℝ) + 1) * fourierT d)) ++
      ((List.range fourierHarmonics).map fun i : Nat => ds.map fun d => Real.cos (fourierK * ((i : ℝ) + 1) * fourierT d))).headD [] =
      ds.map fun d => Real.sin (fourierK * ((0 : ℕ) + 1) * fourierT d) := by
    simp [fourierHarmonics, List.range_succ_eq_map]
  rw [hlen, List.map_map, List.length_map]
  apply List.ext_getElem?
  intro i
  by_cases hi : i < ds.length
  · rw [List.getElem?_map, List.getElem?_range hi, List.getElem?_map, List.getElem?_eq_getElem hi]
    simp only [Option.map_some, Function.comp, matmulCol]
    have e : ∀ rows : List (List ℝ), List.zipWith (fun q row => q * row.getD i 0) p rows = List.zipWith (fun q v => q * v) p (rows.map fun row => row.getD i 0) := by
      intro rows
      rw [List.zipWith_map_right]
    rw [e]
    simp [Function.comp_def, hi]
  · rw [List.getElem?_eq_none (by simpa using hi), List.getElem?_eq_none (by simpa using hi)]

end Anticipy
