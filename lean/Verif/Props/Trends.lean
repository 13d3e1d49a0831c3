import Verif.Model.Zoo
import Verif.Spec.Expr
import Verif.Lemmas.Time
import Verif.Lemmas.Composition
import Mathlib.Algebra.Order.Ring.Rat
import Mathlib.Data.Rat.Floor
import Mathlib.Tactic.Linarith
import Mathlib.Tactic.Ring

/-
C07 - C10, C14, C15: shape of the built-in trend, season and dummy models.
-/
namespace Anticipy
open Spec
variable {K : Type} [Field K] [LinearOrder K]

/-! ### C07 -/

theorem isinMask_01 {α : Type} [DecidableEq α] (l check : List α) :
    ((isinMask (K := K) l check).all fun v => decide (v = 0) || decide (v = 1)) = true := by
  simp only [isinMask, List.all_map, List.all_eq_true, Function.comp]
  intro d _
  split <;> simp

theorem getModelDummy_dates (name : String) (check : List Timestamp) :
    getModelDummy (K := K) name (fDummyListDate check) = .ok (mkModel name 1 (fModelDummy (fDummyListDate check) ("mask_" ++ name))
      (dictFCache := [("mask_" ++ name, fun ax ad => do let m ← fDummyListDate check ax ad; .ok (.mask m))])) := by
  simp only [getModelDummy, validateFDummy, fDummyListDate, bind, Except.bind, pyAssert, isinMask_01, if_true]

theorem getModelDummy_numeric (name : String) (check : List K) :
    getModelDummy (K := K) name (fDummyListNumeric check) =
      .ok (mkModel name 1 (fModelDummy (fDummyListNumeric check) ("mask_" ++ name))
      (dictFCache := [("mask_" ++ name, fun ax ad => do let m ← fDummyListNumeric check ax ad; .ok (.mask m))])) := by
  simp only [getModelDummy, validateFDummy, fDummyListNumeric, bind, Except.bind, pyAssert, isinMask_01, if_true]

/-- **C07** (list of dates) For every non-empty list of dates, `get_model_dummy` succeeds with a one-parameter model that
contributes, in additive mode, its parameter exactly on samples whose timestamp is in the list and 0 elsewhere, and
in multiplicative mode factor 1 elsewhere - and `A + 1` on flagged samples. -/
theorem C07_dummy_dates_partial (name : String) (check : List Timestamp) (hne : check ≠ []) :
    ∃ f m, fDummyDates (K := K) check = .ok f ∧ getModelDummy name f = .ok m ∧ m.nParams = 1 ∧
      ∀ (ax : List K) (ds : List Timestamp) (act : Option (Frame K)) (a : K),
        m.fModel { ax := ax, adate := some ds, actuals := act } (some [a]) false =
          .ok (.vec (ds.map fun d => some (if d ∈ check then a else 0))) ∧
        m.fModel { ax := ax, adate := some ds, actuals := act } (some [a]) true =
          .ok (.vec (ds.map fun d => some (if d ∈ check then a + 1 else 1))) := by
  refine ⟨_, _, by simp only [fDummyDates, hne, if_false], getModelDummy_dates name check, rfl, ?_⟩
  intro ax ds act a
  simp only [mkModel, fModelDummy, fDummyListDate, unpack1, bind, Except.bind, vecOf, isinMask, List.map_map]
  constructor <;> congr 2 <;> apply List.map_congr_left <;> intro d _ <;> simp only [Function.comp] <;>
    by_cases hd : d ∈ check <;> simp [hd]

/-- **C07** (list of numbers) The same for a list of x values. -/
theorem C07_dummy_numeric_partial (name : String) (check : List K) (hne : check ≠ []) :
    ∃ f m, fDummyNumeric (K := K) check = .ok f ∧ getModelDummy name f = .ok m ∧ m.nParams = 1 ∧
      ∀ (ax : List K) (ad : Option (List Timestamp)) (act : Option (Frame K)) (a : K),
        m.fModel { ax := ax, adate := ad, actuals := act } (some [a]) false =
          .ok (.vec (ax.map fun x => some (if x ∈ check then a else 0))) ∧
        m.fModel { ax := ax, adate := ad, actuals := act } (some [a]) true =
          .ok (.vec (ax.map fun x => some (if x ∈ check then a + 1 else 1))) := by
  refine ⟨_, _, by simp only [fDummyNumeric, hne, if_false], getModelDummy_numeric name check, rfl, ?_⟩
  intro ax ad act a
  simp only [mkModel, fModelDummy, fDummyListNumeric, unpack1, bind, Except.bind, vecOf, isinMask, List.map_map]
  constructor <;> congr 2 <;> apply List.map_congr_left <;> intro d _ <;> simp only [Function.comp] <;>
    by_cases hd : d ∈ check <;> simp [hd]

/-- **C07** (any mask function) For an arbitrary 0/1 mask function the contribution is decided by the mask alone. -/
theorem C07_dummy_function_partial (name : String) (f : DummyFn K) (m : ForecastModel K) (h : getModelDummy name f = .ok m)
    (ax : List K) (ad : Option (List Timestamp)) (act : Option (Frame K)) (mask : List K) (hf : f ax ad = .ok mask)
    (h01 : ∀ v ∈ mask, v = 0 ∨ v = 1) (a : K) :
    m.fModel { ax := ax, adate := ad, actuals := act } (some [a]) false =
      .ok (.vec (mask.map fun v => some (if v = 1 then a else 0))) ∧
    m.fModel { ax := ax, adate := ad, actuals := act } (some [a]) true =
      .ok (.vec (mask.map fun v => some (if v = 1 then a + 1 else 1))) := by
  have hm : m.fModel = fModelDummy f ("mask_" ++ name) := by
    simp only [getModelDummy, bind, Except.bind] at h
    cases hv : validateFDummy f <;> simp [hv] at h
    rw [← h]; rfl
  rw [hm]
  simp only [fModelDummy, hf, unpack1, bind, Except.bind, pure, Except.pure, vecOf, List.map_map]
  constructor <;> congr 2 <;> apply List.map_congr_left <;> intro v hv <;> simp only [Function.comp] <;>
      rcases h01 v hv with rfl | rfl <;> simp

/-- **C07 refuted in multiplicative mode**: the documentation promises factor A on flagged samples; the dummy on
2018-01-01 with A = 2 multiplies that day by 3. -/
theorem C07_counterexample_mult :
    (do let f ← fDummyDates (K := ℚ) [17532 * DAY]
        let m ← getModelDummy "d" f
        m.fModel { ax := [0, 1], adate := some [17532 * DAY, 17533 * DAY] } (some [2]) true)
      = .ok (.vec [some 3, some 1]) := by decide +kernel

/-- An empty list is refused. -/
example : (fDummyDates (K := ℚ) []).isOk = false := by decide

/-! ### C08 -/

theorem gather_eq (l : List K) (is : List Int) (h : ∀ i ∈ is, 0 ≤ i ∧ i < l.length) :
    gather l is = .ok (is.map fun i => l[i.toNat]?) := by
  induction is with
  | nil => rfl
  | cons i is ih =>
    have hi := h i (by simp)
    have hlt : i.toNat < l.length := by omega
    have : pyIndex l i = .ok l[i.toNat] := by
      simp only [pyIndex]
      rw [if_neg (by omega : ¬ i < 0), if_neg (by omega : ¬ i < 0)]
      simp [hlt]
    simp only [gather, this, ih fun j hj => h j (by simp [hj]), bind, Except.bind, List.map_cons]
    simp [hlt]

theorem weekday_range (d : Timestamp) : 0 ≤ weekday d ∧ weekday d < 7 := by
  simp only [weekday, weekdayOfDay]; omega

theorem month_range (d : Timestamp) : 1 ≤ month d ∧ month d ≤ 12 := by
  simp only [month]; exact monthOfDay_range _

theorem seasonWday_eq (p1 p2 p3 p4 p5 p6 : K) (ax : List K) (ds : List Timestamp) (mode : Bool) :
    let level : Int → K := fun w =>
      if w = 0 then (if mode then 1 else 0) else if w = 1 then p1 else if w = 2 then p2 else if w = 3 then p3
      else if w = 4 then p4 else if w = 5 then p5 else p6
    modelSeasonWday.nParams (K := K) = 6 ∧
    modelSeasonWday.fModel { ax := ax, adate := some ds } (some [p1, p2, p3, p4, p5, p6]) mode =
      .ok (.vec (ds.map fun d => some (level (weekday d)))) := by
  refine ⟨rfl, ?_⟩
  simp only [modelSeasonWday, mkModel, fModelSeasonWday, fModelIndexed, cacheWeekday, bind, Except.bind]
  rw [gather_eq _ _ (by
    intro i hi
    obtain ⟨d, _, rfl⟩ := List.mem_map.1 hi
    have := weekday_range d
    simp; omega)]
  simp only [List.map_map]
  congr 2
  apply List.map_congr_left
  intro d _
  have hr := weekday_range d
  simp only [Function.comp]
  generalize weekday d = w at hr
  have : w = 0 ∨ w = 1 ∨ w = 2 ∨ w = 3 ∨ w = 4 ∨ w = 5 ∨ w = 6 := by omega
  rcases this with rfl | rfl | rfl | rfl | rfl | rfl | rfl <;> simp

/-- **C08** (weekday) With six parameters the weekday model's value at a date is: the neutral level on Mondays, and the
parameter of that weekday otherwise - nothing but the weekday matters. `wd` is any function that cycles through the weekdays
day by day with Thursday at day 0. -/
theorem C08_weekday (wd : Int → Int) (hwd : Spec.IsWeek wd) (p1 p2 p3 p4 p5 p6 : K) (ax : List K) (ds : List Timestamp)
    (mode : Bool) :
    let level : Int → K := fun w =>
      if w = 0 then (if mode then 1 else 0) else if w = 1 then p1 else if w = 2 then p2 else if w = 3 then p3
      else if w = 4 then p4 else if w = 5 then p5 else p6
    modelSeasonWday.nParams (K := K) = 6 ∧
    modelSeasonWday.fModel { ax := ax, adate := some ds } (some [p1, p2, p3, p4, p5, p6]) mode =
      .ok (.vec (ds.map fun d => some (level (wd (d / Spec.dayNs))))) := by
  rw [isWeek_unique wd hwd]
  exact seasonWday_eq p1 p2 p3 p4 p5 p6 ax ds mode

/-- The weekday counts days modulo 7 from Monday; 1970-01-01 was a Thursday. -/
theorem C08_weekday_calendar (d : Timestamp) :
    weekday 0 = 3 ∧ weekday (d + DAY) = (weekday d + 1) % 7 ∧ weekday (d + 7 * DAY) = weekday d ∧
    ∀ t, 0 ≤ t → t < DAY → weekday (dayOf d * DAY + t) = weekday d := by
  simp only [weekday, weekdayOfDay, dayOf, DAY]
  refine ⟨by decide, by omega, by omega, ?_⟩
  intro t h0 h1; omega

theorem seasonMonth_eq (p : List K) (hp : p.length = 11) (ax : List K) (ds : List Timestamp) (mode : Bool) :
    modelSeasonMonth.nParams (K := K) = 11 ∧
    modelSeasonMonth.fModel { ax := ax, adate := some ds } (some p) mode =
      .ok (.vec (ds.map fun d =>
        if month d = 1 then some (if mode then 1 else 0) else p[(month d - 2).toNat]?)) := by
  refine ⟨rfl, ?_⟩
  simp only [modelSeasonMonth, mkModel, fModelSeasonMonth, fModelIndexed, cacheMonth, bind, Except.bind]
  rw [gather_eq _ _ (by
    intro i hi
    obtain ⟨d, _, rfl⟩ := List.mem_map.1 hi
    have := month_range d
    simp [hp]; omega)]
  simp only [List.map_map]
  congr 2
  apply List.map_congr_left
  intro d _
  have hr := month_range d
  simp only [Function.comp]
  by_cases h1 : month d = 1
  · simp [h1]
  · rw [if_neg h1]
    have : (month d - 1).toNat = (month d - 2).toNat + 1 := by omega
    rw [this]; simp

/-- **C08** (month) With eleven parameters the month model's value at a date is the neutral level in January and the
parameter of that month otherwise. `civil` is the Gregorian calendar, specified day by day. -/
theorem C08_month (civil : Int → Int × Int × Int) (hc : Spec.IsCalendar civil) (p : List K) (hp : p.length = 11)
    (ax : List K) (ds : List Timestamp) (mode : Bool) :
    modelSeasonMonth.nParams (K := K) = 11 ∧
    modelSeasonMonth.fModel { ax := ax, adate := some ds } (some p) mode =
      .ok (.vec (ds.map fun d =>
        if (civil (d / Spec.dayNs)).2.1 = 1 then some (if mode then 1 else 0)
        else p[((civil (d / Spec.dayNs)).2.1 - 2).toNat]?)) := by
  rw [isCalendar_unique civil hc]
  exact seasonMonth_eq p hp ax ds mode

/-- **C08** (free levels) Any assignment of levels to the weekdays (months) that is neutral on Mondays (in January) is realised by some parameters, for
all dates at once. -/
theorem C08_free_levels (wd : Int → Int) (hwd : Spec.IsWeek wd) (civil : Int → Int × Int × Int) (hc : Spec.IsCalendar civil) (level : Int → K) (mode : Bool) :
    (level 0 = (if mode then 1 else 0) → ∃ p : List K, p.length = 6 ∧ ∀ ax ds, modelSeasonWday.fModel { ax := ax, adate := some ds } (some p) mode =
      .ok (.vec (ds.map fun d => some (level (wd (d / Spec.dayNs)))))) ∧
    (level 1 = (if mode then 1 else 0) → ∃ p : List K, p.length = 11 ∧ ∀ ax ds, modelSeasonMonth.fModel { ax := ax, adate := some ds } (some p) mode =
      .ok (.vec (ds.map fun d => some (level (civil (d / Spec.dayNs)).2.1)))) := by
  constructor
  · intro h0
    refine ⟨[level 1, level 2, level 3, level 4, level 5, level 6], rfl, ?_⟩
    intro ax ds
    rw [(C08_weekday wd hwd _ _ _ _ _ _ ax ds mode).2]
    congr 2
    apply List.map_congr_left
    intro d _
    obtain ⟨h1, h2⟩ := hwd.2.2 (d / Spec.dayNs)
    generalize wd (d / Spec.dayNs) = w at h1 h2
    have : w = 0 ∨ w = 1 ∨ w = 2 ∨ w = 3 ∨ w = 4 ∨ w = 5 ∨ w = 6 := by omega
    rcases this with rfl | rfl | rfl | rfl | rfl | rfl | rfl <;> simp [h0]
  · intro h0
    refine ⟨(List.range 11).map fun i : Nat => level (i + 2), by simp, ?_⟩
    intro ax ds
    rw [(C08_month civil hc _ (by simp) ax ds mode).2]
    congr 2
    apply List.map_congr_left
    intro d _
    have h1 := month_range d
    have h2 : (civil (d / Spec.dayNs)).2.1 = month d := by
      rw [isCalendar_unique civil hc]
      rfl
    rw [← h2] at h1
    generalize (civil (d / Spec.dayNs)).2.1 = w at h1
    by_cases h : w = 1
    · rw [if_pos h, h, h0]
    · rw [if_neg h, List.getElem?_map, List.getElem?_range (by omega)]
      simp only [Option.map_some]
      congr 2
      omega

/-- Thursday 1970-01-01 and Monday 1970-01-05. -/
example : (modelSeasonWday : ForecastModel ℚ).fModel { ax := [0, 4], adate := some [0, 4 * DAY] }
    (some [1, 2, 3, 4, 5, 6]) false = .ok (.vec [some 3, some 0]) := by decide +kernel
/-- 1970-01-01 and 1970-12-31. -/
example : (modelSeasonMonth : ForecastModel ℚ).fModel { ax := [0, 364], adate := some [0, 364 * DAY] }
    (some [2, 3, 4, 5, 6, 7, 8, 9, 10, 11, 12]) true = .ok (.vec [some 1, some 12]) := by decide +kernel

/-! ### C09 -/

/-- **C09** (step) Neutral before the location, shifted (scaled) from it on. -/
theorem C09_step [IsStrictOrderedRing K] (loc b : K) (ctx : Ctx K) :
    modelStep.fModel ctx (some [loc, b]) false = .ok (.vec (ctx.ax.map fun x => some (if x < loc then 0 else b))) ∧
    modelStep.fModel ctx (some [loc, b]) true = .ok (.vec (ctx.ax.map fun x => some (if x < loc then 1 else b))) := by
  simp only [modelStep, mkModel, fStep, unpack2, bind, Except.bind, vecOf, List.map_map, heaviside]
  constructor <;> congr 2 <;> apply List.map_congr_left <;> intro x _ <;>
    simp only [Function.comp, sub_neg] <;> by_cases h : x < loc <;> simp [h]

/-- **C09** (ramp) Neutral up to the location, then linear with the given slope. -/
theorem C09_ramp [IsStrictOrderedRing K] (loc b : K) (ctx : Ctx K) :
    modelRamp.fModel ctx (some [loc, b]) false =
      .ok (.vec (ctx.ax.map fun x => some (if x ≤ loc then 0 else b * (x - loc)))) ∧
    modelRamp.fModel ctx (some [loc, b]) true =
      .ok (.vec (ctx.ax.map fun x => some (if x ≤ loc then 1 else 1 + b * (x - loc)))) := by
  simp only [modelRamp, mkModel, fRamp, unpack2, bind, Except.bind, vecOf, List.map_map, heaviside]
  constructor <;> congr 2 <;> apply List.map_congr_left <;> intro x _ <;>
    simp only [Function.comp, sub_neg]
  · rcases lt_trichotomy x loc with h | h | h
    · simp [h, h.le]
    · simp [h]
    · simp [not_lt.2 h.le, not_le.2 h]; ring
  · rcases lt_trichotomy x loc with h | h | h
    · simp [h, h.le]
    · simp [h]
    · simp [not_lt.2 h.le, not_le.2 h]; ring

/-- **C09** (piecewise linear) `linear + ramp` is the line `A x + B` up to the location and has slope `A + C` after it,
continuous at the location. -/
theorem C09_linear_ramp [IsStrictOrderedRing K] (a b loc c : K) (ctx : Ctx K) (mode : Bool) :
    let f : K → K := fun x => if x ≤ loc then a * x + b else (a * loc + b) + (a + c) * (x - loc)
    (modelLinear.add modelRamp).nParams (K := K) = 4 ∧
    (modelLinear.add modelRamp).fModel ctx (some [a, b, loc, c]) mode = .ok (.vec (ctx.ax.map fun x => some (f x))) ∧
    f loc = (a * loc + b) + (a + c) * (loc - loc) := by
  refine ⟨by simp [ForecastModel.add, compose, modelLinear, modelRamp, mkModel], ?_, by simp⟩
  have hr := (C09_ramp loc c ctx).1
  simp only [ForecastModel.add]
  rw [compose_fModel false _ _ (by simp [modelLinear, mkModel]) (by simp [modelRamp, mkModel])]
  have h2 : (modelLinear : ForecastModel K).nParams = 2 := rfl
  simp only [h2, List.take, List.drop, hr, Bool.false_eq_true, if_false]
  simp only [modelLinear, mkModel, fModelLinear, unpack2, bind, Except.bind, vecOf, Arr.bin, List.length_map, if_true]
  congr 2
  rw [List.map_map, List.zipWith_map]
  rw [List.zipWith_self]
  apply List.map_congr_left
  intro x _
  simp only [Function.comp, lift2]
  by_cases h : x ≤ loc <;> simp [h]
  ring

/-- **C09** (two steps) The two-step model is the sum (product) of two independent steps. -/
theorem C09_two_steps [IsStrictOrderedRing K] (l1 b1 l2 b2 : K) (ctx : Ctx K) :
    modelTwoSteps.fModel ctx (some [l1, b1, l2, b2]) false = .ok (.vec (ctx.ax.map fun x =>
      some ((if x < l1 then 0 else b1) + (if x < l2 then 0 else b2)))) ∧
    modelTwoSteps.fModel ctx (some [l1, b1, l2, b2]) true = .ok (.vec (ctx.ax.map fun x =>
      some ((if x < l1 then 1 else b1) * (if x < l2 then 1 else b2)))) := by
  have s : ∀ l b mode, fStep ctx (some [l, b]) mode = modelStep.fModel ctx (some [l, b]) mode := fun _ _ _ => rfl
  simp only [modelTwoSteps, mkModel, fNSteps, fNStepsLoop, List.drop, List.take, s, C09_step, bind, Except.bind,
    Bool.false_eq_true, if_false, if_true, Arr.bin, List.length_map]
  constructor <;> congr 2 <;> rw [List.map_map, List.zipWith_map, List.zipWith_self] <;>
    apply List.map_congr_left <;> intro x _ <;> simp [lift2]

example : (modelLinear.add modelRamp : ForecastModel ℚ).fModel { ax := [0, 1, 2, 3], adate := none }
    (some [1, 10, 2, 5]) false = .ok (.vec [some 10, some 11, some 12, some 18]) := by decide +kernel
example : (modelTwoSteps : ForecastModel ℚ).fModel { ax := [0, 1, 2], adate := none }
    (some [1, 10, 2, 5]) true = .ok (.vec [some 1, some 10, some 50]) := by decide +kernel

/-! ### C10 -/

/-- **C10** The declared bounds of the non-decreasing linear model admit a parameter pair exactly when the forecast it
describes never decreases with x. -/
theorem C10_nondecreasing [IsStrictOrderedRing K] (a b : K) (args : InitArgs K) :
    (∃ bd, modelLinearNondec.fBounds args = .ok bd ∧
        WithinBounds (modelLinearNondec : ForecastModel K).nParams [.fin a, .fin b] bd) ↔
    ∀ (x x' : K) (ad : Option (List Timestamp)) (mode : Bool), x ≤ x' →
      ∃ y y', modelLinearNondec.fModel { ax := [x, x'], adate := ad } (some [a, b]) mode = .ok (.vec [some y, some y'])
        ∧ y ≤ y' := by
  have hf : ∀ (x x' : K) ad mode, (modelLinearNondec : ForecastModel K).fModel { ax := [x, x'], adate := ad } (some [a, b]) mode
      = .ok (.vec [some (a * x + b), some (a * x' + b)]) := fun _ _ _ _ => rfl
  constructor
  · rintro ⟨bd, hbd, _, _, _, hw⟩ x x' ad mode hx
    cases hbd
    have h0 := (hw 0 (by simp) (by simp) (by simp)).1
    simp [Ext.le] at h0
    exact ⟨_, _, hf x x' ad mode, by have := mul_le_mul_of_nonneg_left hx h0; linarith⟩
  · intro h
    refine ⟨_, rfl, rfl, rfl, rfl, ?_⟩
    obtain ⟨y, y', hy, hle⟩ := h 0 1 none false zero_le_one
    rw [hf] at hy
    simp only [Except.ok.injEq, Arr.vec.injEq, List.cons.injEq, Option.some.injEq, and_true] at hy
    obtain ⟨rfl, rfl⟩ := hy
    have ha : 0 ≤ a := by linarith
    intro i hg hl hh
    have : i = 0 ∨ i = 1 := by simp at hg; omega
    rcases this with rfl | rfl <;> simp [Ext.le, ha]

/-- Slope 2 is admitted, slope -1 is not. -/
example : ∃ bd, (modelLinearNondec : ForecastModel ℚ).fBounds ⟨none, none, none⟩ = .ok bd ∧
    Ext.le (bd.lo.headD .nan) (.fin 2) = true ∧ Ext.le (bd.lo.headD .nan) (.fin (-1)) = false :=
  ⟨_, rfl, by decide +kernel, by decide +kernel⟩

/-! ### C14 -/

/-- **C14** (spike between dates) Exactly the samples with start ≤ date < end are changed, by the parameter as offset or
factor. -/
theorem C14_spike_date (label : Timestamp → String) (d1 d2 : Timestamp) (ax : List K) (ds : List Timestamp) (a : K) :
    let m := getModelSpikeDate (K := K) label d1 d2
    m.nParams = 1 ∧
    m.fModel { ax := ax, adate := some ds } (some [a]) false =
      .ok (.vec (ds.map fun d => some (if d1 ≤ d ∧ d < d2 then a else 0))) ∧
    m.fModel { ax := ax, adate := some ds } (some [a]) true =
      .ok (.vec (ds.map fun d => some (if d1 ≤ d ∧ d < d2 then a else 1))) := by
  simp only [getModelSpikeDate, mkModel, fModelSpikeDate, unpack1, bind, Except.bind, vecOf, List.map_map, true_and]
  constructor <;> congr 2 <;> apply List.map_congr_left <;> intro d _ <;> simp only [Function.comp] <;>
    by_cases h1 : d1 ≤ d <;> by_cases h2 : d < d2 <;> simp [h1, h2]

/-- **C14** (step at a date) Exactly the samples at or after the date are changed. -/
theorem C14_step_date (label : Timestamp → String) (d1 : Timestamp) (ax : List K) (ds : List Timestamp) (a : K) :
    let m := getModelStepDate (K := K) label d1
    m.nParams = 1 ∧
    m.fModel { ax := ax, adate := some ds } (some [a]) false =
      .ok (.vec (ds.map fun d => some (if d1 ≤ d then a else 0))) ∧
    m.fModel { ax := ax, adate := some ds } (some [a]) true =
      .ok (.vec (ds.map fun d => some (if d1 ≤ d then a else 1))) := by
  simp only [getModelStepDate, mkModel, fModelStepDate, unpack1, bind, Except.bind, vecOf, List.map_map, true_and]
  constructor <;> congr 2 <;> apply List.map_congr_left <;> intro d _ <;> simp only [Function.comp] <;>
    by_cases h1 : d1 ≤ d <;> simp [h1]

example : (getModelSpikeDate (K := ℚ) (fun _ => "") DAY (2 * DAY)).fModel
    { ax := [0, 1, 2], adate := some [0, DAY, 2 * DAY] } (some [7]) true = .ok (.vec [some 1, some 7, some 1]) := by
  decide +kernel

/-! ### C15 -/

section C15
variable [FloorRing K]

/-- **C15** (characterisation) For parameters inside the series (0 ≤ start ≤ end ≤ n) the spike model returns
`int(start) + int(end - start) + n - int(end)` values; that is one value per sample exactly when truncation is additive. -/
theorem C15_length_partial [IsStrictOrderedRing K] (a x1 x2 : K) (ctx : Ctx K) (mode : Bool) (h0 : 0 ≤ x1) (h1 : x1 ≤ x2)
    (h2 : x2 ≤ ctx.ax.length) :
    ∃ l, modelSpike.fModel ctx (some [a, x1, x2]) mode = .ok (.vec l) ∧
      (l.length = ctx.ax.length ↔ ⌊x1⌋ + ⌊x2 - x1⌋ = ⌊x2⌋) := by
  have e1 : pyInt x1 = ⌊x1⌋ := by simp [pyInt, h0]
  have e2 : pyInt (x2 - x1) = ⌊x2 - x1⌋ := by simp [pyInt, sub_nonneg.2 h1]
  have e3 : pyInt x2 = ⌊x2⌋ := by simp [pyInt, h0.trans h1]
  have p1 : 0 ≤ ⌊x1⌋ := Int.floor_nonneg.2 h0
  have p2 : 0 ≤ ⌊x2 - x1⌋ := Int.floor_nonneg.2 (sub_nonneg.2 h1)
  have p3 : ⌊x2⌋ ≤ ctx.ax.length := by
    have : (⌊x2⌋ : K) ≤ (ctx.ax.length : Int) := le_trans (Int.floor_le x2) (by simpa using h2)
    exact_mod_cast this
  refine ⟨_, by
    simp only [modelSpike, mkModel, fModelSpike, unpack3, bind, Except.bind, npFull, e1, e2, e3,
      if_neg (not_lt.2 p1), if_neg (not_lt.2 p2), if_neg (by omega : ¬ (ctx.ax.length : Int) - ⌊x2⌋ < 0), vecOf]; rfl, ?_⟩
  simp only [List.length_map, List.length_append, List.length_replicate]
  omega

/-- **C15** (whole numbers) With whole-number start and end the model has one value per sample: the parameter exactly on
positions start ≤ i < end, the neutral value elsewhere. -/
theorem C15_whole_partial [IsStrictOrderedRing K] (a : K) (s e : Nat) (ctx : Ctx K) (mode : Bool) (h1 : s ≤ e) (h2 : e ≤ ctx.ax.length) :
    ∃ l, modelSpike.fModel ctx (some [a, (s : K), (e : K)]) mode = .ok (.vec l) ∧ l.length = ctx.ax.length ∧
      ∀ i, i < ctx.ax.length → l[i]? = some (some (if s ≤ i ∧ i < e then a else if mode then 1 else 0)) := by
  have e1 : pyInt (s : K) = s := by simp [pyInt]
  have e2 : pyInt ((e : K) - s) = (e - s : Nat) := by
    have : ((e : K) - s) = ((e - s : Nat) : K) := by rw [Nat.cast_sub h1]
    rw [this]; simp [pyInt]
  have e3 : pyInt (e : K) = e := by simp [pyInt]
  refine ⟨_, by
    simp only [modelSpike, mkModel, fModelSpike, unpack3, bind, Except.bind, npFull, e1, e2, e3,
      if_neg (by omega : ¬ (s : Int) < 0), if_neg (by omega : ¬ ((e - s : Nat) : Int) < 0),
      if_neg (by omega : ¬ (ctx.ax.length : Int) - e < 0), vecOf]; rfl, ?_, ?_⟩
  · simp only [List.length_map, List.length_append, List.length_replicate]; omega
  · intro i hi
    simp only [List.getElem?_map, List.getElem?_append, List.getElem?_replicate, List.length_append,
      List.length_replicate, Int.toNat_natCast]
    by_cases ha : i < s
    · simp [ha, not_le.2 ha, show i < s + (e - s) by omega]
    · by_cases hb : i < e
      · simp [ha, hb, not_lt.1 ha, show i < s + (e - s) by omega, show i - s < e - s by omega]
      · simp [hb, show ¬ i < s + (e - s) by omega, show i - (s + (e - s)) < ctx.ax.length - e by omega]

end C15

/-- **C15 refuted for fractional parameters** (what the optimiser proposes): three samples, two values. -/
theorem C15_counterexample :
    modelSpike.fModel (K := ℚ) { ax := [0, 1, 2], adate := none } (some [5, 1/2, 6/5]) false
      = .ok (.vec [some 0, some 0]) := by decide +kernel

/-- Whole-number example. -/
example : modelSpike.fModel (K := ℚ) { ax := [0, 1, 2], adate := none } (some [5, 1, 2]) false
      = .ok (.vec [some 0, some 5, some 0]) := by decide +kernel

end Anticipy

#print axioms Anticipy.C07_dummy_dates_partial
#print axioms Anticipy.C07_dummy_numeric_partial
#print axioms Anticipy.C07_dummy_function_partial
#print axioms Anticipy.C07_counterexample_mult
#print axioms Anticipy.C08_weekday
#print axioms Anticipy.C08_weekday_calendar
#print axioms Anticipy.C08_month
#print axioms Anticipy.C08_free_levels
#print axioms Anticipy.C09_step
#print axioms Anticipy.C09_ramp
#print axioms Anticipy.C09_linear_ramp
#print axioms Anticipy.C09_two_steps
#print axioms Anticipy.C10_nondecreasing
#print axioms Anticipy.C14_spike_date
#print axioms Anticipy.C14_step_date
#print axioms Anticipy.C15_length_partial
#print axioms Anticipy.C15_whole_partial
#print axioms Anticipy.C15_counterexample
