import Verif.Props.Trends
import Verif.Lemmas.Time

/-
C72: the ready-made models for working days, Christmas and the first day of the month.
-/
namespace Anticipy
open Spec
variable {K : Type} [Field K] [LinearOrder K]

/-- A dummy function that looks at each date. -/
theorem dummy_of_dates (name : String) (f : DummyFn K) (P : Timestamp → Prop) [DecidablePred P]
    (hf : ∀ ax ds, f ax (some ds) = .ok (ds.map fun d => if P d then 1 else 0)) :
    ∃ m, getModelDummy name f = .ok m ∧ m.name = name ∧ m.nParams = 1 ∧ ∀ ctx ds a mult, ctx.adate = some ds → ctx.cache ("mask_" ++ name) = none →
      m.fModel ctx (some [a]) mult = .ok (.vec (ds.map fun t => some (if P t then (if mult then a + 1 else a) else (if mult then 1 else 0)))) := by
  have hval : validateFDummy f = .ok () := by
    unfold validateFDummy
    rw [hf]
    simp only [bind, Except.bind, pyAssert]
    rw [if_pos]
    rw [List.all_eq_true]
    intro v hv
    obtain ⟨d, -, rfl⟩ := List.mem_map.1 hv
    by_cases hd : P d <;> simp [hd]
  refine ⟨_, by unfold getModelDummy; rw [hval]; rfl, rfl, rfl, ?_⟩
  intro ctx ds a mult had hc
  simp only [mkModel, fModelDummy, hc, had, hf, bind, Except.bind, unpack1, vecOf, List.map_map]
  congr 2
  apply List.map_congr_left
  intro t _
  cases mult <;> by_cases hd : P t <;> simp [hd]

/-- **C72, working days.** `model_season_wday_2` has one parameter: the effect of Monday to Friday relative to the weekend. -/
theorem C72_working_days (wd : Int → Int) (hw : IsWeek wd) :
    ∃ m : ForecastModel K, modelSeasonWday2 = .ok m ∧ m.nParams = 1 ∧ ∀ ctx ds a mult, ctx.adate = some ds → ctx.cache "mask_season_wday_2" = none →
      m.fModel ctx (some [a]) mult = .ok (.vec (ds.map fun t =>
        some (if wd (t / (24 * 60 * 60 * 1000000000)) ≤ 4 then (if mult then a + 1 else a) else (if mult then 1 else 0)))) := by
  rw [isWeek_unique wd hw]
  obtain ⟨m, h1, -, h3, h4⟩ := dummy_of_dates (K := K) "season_wday_2" fDummyWeekend
    (fun t => weekdayOfDay (t / (24 * 60 * 60 * 1000000000)) ≤ 4) (by
      intro ax ds
      unfold fDummyWeekend
      dsimp only
      congr 1
      apply List.map_congr_left
      intro t _
      have : weekday t < 5 ↔ weekdayOfDay (t / (24 * 60 * 60 * 1000000000)) ≤ 4 := by
        show weekdayOfDay (t / (24 * 60 * 60 * 1000000000)) < 5 ↔ _
        omega
      simp only [this])
  exact ⟨m, h1, h3, h4⟩

/-- **C72, Christmas.** `model_dummy_christmas` has one parameter: the effect of December 25 of every year, at any time of the day. -/
theorem C72_christmas (civil : Int → Int × Int × Int) (hc : IsCalendar civil) :
    ∃ m : ForecastModel K, modelDummyChristmas = .ok m ∧ m.nParams = 1 ∧ ∀ ctx ds a mult, ctx.adate = some ds → ctx.cache "mask_dummy_christmas" = none →
      m.fModel ctx (some [a]) mult = .ok (.vec (ds.map fun t =>
        some (if (civil (t / (24 * 60 * 60 * 1000000000))).2 = (12, 25) then (if mult then a + 1 else a) else (if mult then 1 else 0)))) := by
  rw [isCalendar_unique civil hc]
  obtain ⟨m, h1, -, h3, h4⟩ := dummy_of_dates (K := K) "dummy_christmas" fDummyChristmas
    (fun t => (civilOfDay (t / (24 * 60 * 60 * 1000000000))).2 = (12, 25)) (by
      intro ax ds
      unfold fDummyChristmas
      dsimp only
      congr 1
      apply List.map_congr_left
      intro t _
      have : (decide (month t = 12) && decide (dom t = 25)) = true ↔ (civilOfDay (t / (24 * 60 * 60 * 1000000000))).2 = (12, 25) := by
        simp only [Bool.and_eq_true, decide_eq_true_eq, Prod.ext_iff]
        rfl
      simp only [this])
  exact ⟨m, h1, h3, h4⟩

/-- **C72, first of the month.** `model_dummy_month_start` has one parameter: the effect of the first day of each month, at any time of the day. -/
theorem C72_month_start (civil : Int → Int × Int × Int) (hc : IsCalendar civil) :
    ∃ m : ForecastModel K, modelDummyMonthStart = .ok m ∧ m.nParams = 1 ∧ ∀ ctx ds a mult, ctx.adate = some ds →
      ctx.cache "mask_dummy_month_start" = none →
      m.fModel ctx (some [a]) mult = .ok (.vec (ds.map fun t =>
        some (if (civil (t / (24 * 60 * 60 * 1000000000))).2.2 = 1 then (if mult then a + 1 else a) else (if mult then 1 else 0)))) := by
  rw [isCalendar_unique civil hc]
  obtain ⟨m, h1, -, h3, h4⟩ := dummy_of_dates (K := K) "dummy_month_start" fDummyMonthStart
    (fun t => (civilOfDay (t / (24 * 60 * 60 * 1000000000))).2.2 = 1) (by intro ax ds; rfl)
  exact ⟨m, h1, h3, h4⟩

/-- Without dates these models raise AttributeError. -/
theorem C72_undated (m : ForecastModel K) (hm : modelSeasonWday2 = .ok m ∨ modelDummyChristmas = .ok m ∨ modelDummyMonthStart = .ok m) (ctx : Ctx K)
    (hd : ctx.adate = none) (hc : ∀ k, ctx.cache k = none) (p : Params K) (mult : Bool) : m.fModel ctx p mult = .error .attributeError := by
  have key : ∀ name (f : DummyFn K), getModelDummy name f = .ok m → f ctx.ax none = .error .attributeError → m.fModel ctx p mult = .error .attributeError := by
    intro name f h hf
    unfold getModelDummy at h
    cases hv : validateFDummy f with
    | error e => rw [hv] at h; cases h
    | ok u =>
      rw [hv] at h
      have h := Except.ok.inj h
      subst h
      simp only [mkModel, fModelDummy, hc, hd, hf, bind, Except.bind]
  rcases hm with h | h | h
  · exact key _ _ h rfl
  · exact key _ _ h rfl
  · exact key _ _ h rfl

/-- Christmas 2020 at 10:00 (a Friday), December 26 (a Saturday) and January 1 2021. -/
example : (modelSeasonWday2 (K := ℚ)).bind (fun m => m.fModel { ax := [0, 1, 2], adate := some [18621 * DAY + 10 * HOUR, 18622 * DAY, 18628 * DAY] }
      (some [5]) false) = .ok (.vec [some 5, some 0, some 5]) ∧
    (modelDummyChristmas (K := ℚ)).bind (fun m => m.fModel { ax := [0, 1, 2], adate := some [18621 * DAY + 10 * HOUR, 18622 * DAY, 18628 * DAY] }
      (some [5]) true) = .ok (.vec [some 6, some 1, some 1]) ∧
    (modelDummyMonthStart (K := ℚ)).bind (fun m => m.fModel { ax := [0, 1, 2], adate := some [18621 * DAY + 10 * HOUR, 18622 * DAY, 18628 * DAY] }
      (some [5]) false) = .ok (.vec [some 0, some 0, some 5]) := by decide +kernel

end Anticipy
