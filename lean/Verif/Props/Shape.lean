import Verif.Spec.Shape
import Verif.Props.GroupMeans

/-
C111: trend and season stay separate in a forecast, whatever the optimiser returns.
-/
namespace Anticipy
open Spec
variable {K : Type} [Field K] [LinearOrder K]

theorem Spec.HasFormula.scale {m : ForecastModel K} {mult : Bool} {val : List K → Int → Timestamp → K} (h : HasFormula m mult val) (xs : List Int) :
    scaleX m xs = xs.map fun x : Int => (x : K) := by
  unfold scaleX
  rw [if_neg]
  rintro (h' | h')
  · exact h.named.2.1 h'
  · exact h.named.2.2 h'

theorem Spec.HasFormula.unpinned {m : ForecastModel K} {mult : Bool} {val : List K → Int → Timestamp → K} (h : HasFormula m mult val) : Unpinned m := by
  intro ar bd hb p hp v
  obtain ⟨a, ha⟩ := h.bounds ar
  rw [ha] at hb
  have hb := (Except.ok.inj hb).symm
  subst hb
  have := (List.of_mem_zip hp).1
  have := List.eq_of_mem_replicate this
  simp [this]

/-- All forecasts of a model in a run come from one list of parameters. -/
theorem rows_value [FloorRing K] [IsStrictOrderedRing K] (w : World K) (args : RunArgs K) (source : String) (df : Frame K) (res : RunResult K)
    (h : runSingle w args source df = .ok res) (m : ForecastModel K) (val : List K → Int → Timestamp → K) (hf : HasFormula m false val)
    (hx : FitsOnce w args source df m) (hdate : df.hasDate = true) (t0 : Timestamp) (hdays : CountsDays df t0) :
    ∃ p : List K, p.length = m.nParams ∧ ForecastsAre res m.name fun d => val p ((d - t0) / (24 * 60 * 60 * 1000000000)) d := by
  obtain ⟨d, hd, hdata, -, -⟩ := runSingle_inv w args source df res h
  obtain ⟨st⟩ := runFits_stages w args source df d hd
  have hsub : ∀ r ∈ res.data, r ∈ d.1 := by
    intro r hr
    rw [hdata] at hr
    unfold selectFits at hr
    split_ifs at hr
    · exact hr
    · exact (List.mem_filter.1 hr).1
  have hlen : ∀ (i : Nat) (used : Frame K) (act : Option (Frame K)) (f : FitResult K),
      fitModel (w.env source i) m used act args.useCache = .ok f → f.isFit = true → f.params.length = m.nParams := by
    intro i used act f e hfit
    obtain ⟨-, ctx, guess, b, r, -, -, -, h4, h5, -, h7, -⟩ := fitModel_solver _ m _ _ _ f hf.unpinned hf.params e hfit
    obtain ⟨a, ha⟩ := hf.bounds ⟨some ctx.ax, some (prepare used).ys, none⟩
    rw [ha] at h4
    have h4 := Except.ok.inj h4
    rw [h7, hx.count i _ _ _ _ h5, ← h4]
    simp
  have hrow := fun r hr => row_value_stage w args source df d st m (hx.only _ _ st.hCand) val
    (fun ctx xs ds p h1 h2 h3 h4 h5 h6 => hf.value ctx xs ds p (by rw [h1, hf.scale]) h2 h3 h4 h5 h6) hlen hdate t0 hdays r (hsub r hr)
  by_cases hex : ∃ r ∈ res.data, r.isActuals = false ∧ r.model = m.name
  · obtain ⟨r0, hr0, ha0, hm0⟩ := hex
    obtain ⟨i, f, e1, e2, e3, -⟩ := hrow r0 hr0 ha0 hm0
    refine ⟨f.params, hlen _ _ _ _ e2 e3, ?_⟩
    intro r hr ha hm
    obtain ⟨j, g, g1, g2, -, g4⟩ := hrow r hr ha hm
    have hij : j = i := by
      obtain ⟨hi, ei⟩ := List.getElem?_eq_some_iff.1 e1
      obtain ⟨hj, ej⟩ := List.getElem?_eq_some_iff.1 g1
      exact (List.Nodup.getElem_inj_iff (hx.names _ _ st.hCand) (hi := by simpa using hj) (hj := by simpa using hi)).1 (by simp [ei, ej])
    subst hij
    rw [e2] at g2
    rw [g4, ← Except.ok.inj g2]
  · refine ⟨List.replicate m.nParams 0, by simp, ?_⟩
    intro r hr ha hm
    exact absurd ⟨r, hr, ha, hm⟩ hex

/-! ### Formulas of sums and products -/

theorem Spec.AddsUp.formula {m : ForecastModel K} {reg : Registry K} {f : List (Feature K)} (h : AddsUp m reg f) (hne : f ≠ []) :
    HasFormula m false (combination f) :=
  ⟨by rw [← h.count]; simpa using hne, h.named, h.bounds, fun ctx xs ds p h1 h2 h3 h4 h5 h6 =>
    h.value ctx xs ds p h1 h2 h3 h4 (by intro k v hk; rw [h5] at hk; cases hk) h6⟩

theorem zip_both (g : K → K → K) (a b : Int → Timestamp → K) (xs : List Int) (ds : List Timestamp) :
    List.zipWith g (List.zipWith a xs ds) (List.zipWith b xs ds) = List.zipWith (fun x t => g (a x t) (b x t)) xs ds := by
  induction xs generalizing ds with
  | nil => rfl
  | cons x xs ih =>
    cases ds with
    | nil => rfl
    | cons t ds => simp only [List.zipWith_cons_cons, ih]

/-- A composition has the sum or the product of the formulas; the parts of a product are used as factors. -/
theorem formula_compose {m1 m2 : ForecastModel K} {v1 v2 : List K → Int → Timestamp → K} (mult mode : Bool) (h1 : HasFormula m1 mult v1) (h2 : HasFormula m2 mult v2) :
    HasFormula (compose mult m1 m2) mode (fun p x t => if mult then v1 (p.take m1.nParams) x t * v2 (p.drop m1.nParams) x t
      else v1 (p.take m1.nParams) x t + v2 (p.drop m1.nParams) x t) := by
  have eb : (compose mult m1 m2).fBounds = fConcatBounds m1 m2 := by
    unfold compose
    rw [if_neg h1.named.1, if_neg h2.named.1]
  have ename : (compose mult m1 m2).name = composedName (if mult then "*" else "+") m1.name m2.name := by
    unfold compose
    rw [if_neg h1.named.1, if_neg h2.named.1]
  have en : (compose mult m1 m2).nParams = m1.nParams + m2.nParams := compose_nParams mult m1 m2 h1.named.1 h2.named.1
  refine ⟨by rw [en]; have := h1.params; omega, by rw [ename]; exact composed_named _ _ _, ?_, ?_⟩
  · intro args
    obtain ⟨a, ha⟩ := h1.bounds args
    obtain ⟨b, hb⟩ := h2.bounds args
    refine ⟨true, ?_⟩
    rw [eb, en]
    simp only [fConcatBounds, ha, hb, bind, Except.bind, List.replicate_append_replicate]
  · intro ctx xs ds p a1 a2 a3 a4 a5 a6
    rw [en] at a4
    have l1 : (p.take m1.nParams).length = m1.nParams := by simp [a4]
    have l2 : (p.drop m1.nParams).length = m2.nParams := by simp [a4]
    rw [compose_fModel mult m1 m2 h1.named.1 h2.named.1 ctx p mode]
    simp only [bind, Except.bind]
    rw [h1.value ctx xs ds _ a1 a2 a3 l1 a5 a6]
    dsimp only
    rw [h2.value ctx xs ds _ a1 a2 a3 l2 a5 a6]
    dsimp only
    rw [bin_vecOf _ _ _ (by simp), zip_both]
    cases mult <;> rfl

/-- A line has its formula also as a factor. -/
theorem formula_linear (mult : Bool) : HasFormula (modelLinear : ForecastModel K) mult (combination lineFeatures) := by
  have h := (addsUp_linear (K := K) fun _ => none).formula (by simp [lineFeatures])
  exact ⟨h.params, h.named, h.bounds, fun ctx xs ds p h1 h2 h3 h4 h5 h6 => h.value ctx xs ds p h1 h2 h3 h4 h5 h6⟩

theorem formula_constant (mult : Bool) : HasFormula (modelConstant : ForecastModel K) mult (combination levelFeatures) := by
  have h := (addsUp_constant (K := K) fun _ => none).formula (by simp [levelFeatures])
  exact ⟨h.params, h.named, h.bounds, fun ctx xs ds p h1 h2 h3 h4 h5 h6 => h.value ctx xs ds p h1 h2 h3 h4 h5 h6⟩

/-- Models that look up one parameter per index; the first is 1 if the model is a factor, 0 otherwise. -/
theorem formula_indexed (mult : Bool) (m : ForecastModel K) (key : String) (f : CacheFn K) (idx : Timestamp → Int)
    (hf : ∀ ax ds, f ax (some ds) = .ok (.ints (ds.map idx))) (hm : m.fModel = fModelIndexed key f) (hn : m.nParams ≠ 0)
    (hi : ∀ t, 0 ≤ idx t ∧ idx t < m.nParams + 1) (hb : m.fBounds = fBoundsDefault m.nParams)
    (hname : m.name ≠ "null" ∧ m.name ≠ "logistic" ∧ m.name ≠ "sigmoid") :
    HasFormula m mult (fun p _ t => (((if mult then (1 : K) else 0) :: p)[(idx t).toNat]?).getD 0) where
  params := hn
  named := hname
  bounds := by intro args; rw [hb]; exact ⟨false, rfl⟩
  value := by
    intro ctx xs ds p h1 h2 h3 h4 h5 _
    rw [hm]
    have hg : gather ((if mult then (1 : K) else 0) :: p) (ds.map idx) = .ok ((ds.map idx).map fun i => ((if mult then (1 : K) else 0) :: p)[i.toNat]?) := by
      apply gather_eq
      intro i hi'
      obtain ⟨t, -, rfl⟩ := List.mem_map.1 hi'
      have := hi t
      rw [List.length_cons, h4]
      push_cast
      exact this
    have hs : fModelIndexed key f ctx (some p) mult = .ok (.vec ((ds.map idx).map fun i => ((if mult then (1 : K) else 0) :: p)[i.toNat]?)) := by
      simp only [fModelIndexed, bind, Except.bind, h5 key]
      rw [h2, hf]
      dsimp only
      rw [hg]
    rw [hs]
    congr 1
    show Arr.vec _ = Arr.vec _
    congr 1
    rw [List.map_map, List.map_zipWith]
    refine zip_second xs ds h3 _ _ ?_
    intro x t
    have h0 := hi t
    have hlt : (idx t).toNat < ((if mult then (1 : K) else 0) :: p).length := by
      rw [List.length_cons, h4]
      omega
    simp only [Function.comp]
    rw [List.getElem?_eq_getElem hlt]
    rfl

theorem formula_wday (mult : Bool) : HasFormula (modelSeasonWday : ForecastModel K) mult (fun p _ t => (((if mult then (1 : K) else 0) :: p)[(weekday t).toNat]?).getD 0) :=
  formula_indexed mult modelSeasonWday "a_weekday" cacheWeekday weekday (fun _ _ => rfl) rfl (by simp [modelSeasonWday, mkModel]) (fun t => weekday_range t) rfl
    (by simp [modelSeasonWday, mkModel])

theorem formula_month (mult : Bool) :
    HasFormula (modelSeasonMonth : ForecastModel K) mult (fun p _ t => (((if mult then (1 : K) else 0) :: p)[(month t - 1).toNat]?).getD 0) :=
  formula_indexed mult modelSeasonMonth "a_month" cacheMonth (fun t => month t - 1) (fun _ _ => rfl) rfl (by simp [modelSeasonMonth, mkModel]) (fun t => by
    have := month_range t
    have e : ((modelSeasonMonth : ForecastModel K).nParams : Int) = 11 := rfl
    omega) rfl (by simp [modelSeasonMonth, mkModel])

/-! ### Shapes -/

omit [LinearOrder K] in
/-- Along a line the value grows by the slope times the number of days. -/
theorem line_grows (p : List K) (hp : p.length = 2) (t0 d n : Int) : combination lineFeatures p ((d + n * (24 * 60 * 60 * 1000000000) - t0) / (24 * 60 * 60 * 1000000000))
    (d + n * (24 * 60 * 60 * 1000000000)) = combination lineFeatures p ((d - t0) / (24 * 60 * 60 * 1000000000)) d + p.headD 0 * (n : K) := by
  obtain ⟨a, b, rfl⟩ := two_params p hp
  have e : (d + n * (24 * 60 * 60 * 1000000000) - t0) / (24 * 60 * 60 * 1000000000) = (d - t0) / (24 * 60 * 60 * 1000000000) + n := by omega
  rw [e]
  simp only [combination, lineFeatures, List.zipWith_cons_cons, List.zipWith_nil_left, List.sum_cons, List.sum_nil, List.headD_cons]
  push_cast
  ring

/-- **C111, level.** In every run, whatever the optimiser returns, a level with a pattern, added or multiplied, repeats: dates of the same season have the same
forecast. -/
theorem C111_repeats [FloorRing K] [IsStrictOrderedRing K] (w : World K) (args : RunArgs K) (id : String) (t : STable K) (hp : Proper t) (s : String) (hs : IsSeries t id s)
    (res : RunResult K) (h : runForecast w args id t = .ok (some res)) (mult : Bool) (season m : ForecastModel K) (idx : Timestamp → Int) (g : List K → Int → K)
    (hseason : HasFormula season mult (fun p _ t => g p (idx t))) (hm : m = if mult then modelConstant.mul season else modelConstant.add season)
    (hx : FitsOnce w args s (seriesFrame t s) m) :
    RepeatsSeasons (partOf t s res) m.name idx := by
  have hm : m = compose mult modelConstant season := by rw [hm]; cases mult <;> rfl
  subst hm
  obtain ⟨hd, hrun⟩ := series_run w id t hp s hs
  obtain ⟨p, hl, hv⟩ := rows_value w args s _ _ (hrun args res h) _ _ (formula_compose mult false (formula_constant mult) hseason) hx hd.dated _ hd.days
  intro r1 r2 h1 h2 he
  have e1 := hv r1 h1.1 h1.2.1 h1.2.2
  have e2 := hv r2 h2.1 h2.2.1 h2.2.2
  dsimp only at e1 e2
  have hc : ∀ q x x' t t', combination (levelFeatures (K := K)) q x t = combination levelFeatures q x' t' := by
    intro q x x' t t'
    apply combination_feature_congr
    intro φ hφ
    rw [List.mem_singleton.1 hφ]
  refine ⟨?_, by rw [e1]; simp⟩
  rw [e1, e2, he, hc _ _ ((r2.date - originOf t s) / (24 * 60 * 60 * 1000000000)) _ r2.date]

/-- **C111, trend.** In every run, whatever the optimiser returns, a line with a pattern grows by the same amount per day in all seasons. -/
theorem C111_grows [FloorRing K] [IsStrictOrderedRing K] (w : World K) (args : RunArgs K) (id : String) (t : STable K) (hp : Proper t) (s : String) (hs : IsSeries t id s)
    (res : RunResult K) (h : runForecast w args id t = .ok (some res)) (season : ForecastModel K) (idx : Timestamp → Int) (g : List K → Int → K)
    (hseason : HasFormula season false (fun p _ t => g p (idx t)))
    (hx : FitsOnce w args s (seriesFrame t s) (modelLinear.add season)) :
    GrowsEvenly (partOf t s res) (modelLinear.add season).name idx := by
  obtain ⟨hd, hrun⟩ := series_run w id t hp s hs
  obtain ⟨p, hl, hv⟩ := rows_value w args s _ _ (hrun args res h) _ _ (formula_compose false false (formula_linear false) hseason) hx hd.dated _ hd.days
  have en : (compose false modelLinear season).nParams = 2 + season.nParams := compose_nParams false _ _ (by simp [modelLinear, mkModel]) hseason.named.1
  rw [en] at hl
  refine ⟨(p.take 2).headD 0, ?_⟩
  intro r1 r2 h1 h2 he n hn
  have e1 := hv r1 h1.1 h1.2.1 h1.2.2
  have e2 := hv r2 h2.1 h2.2.1 h2.2.2
  dsimp only at e1 e2
  rw [if_neg (by decide)] at e1 e2
  refine ⟨_, e1, ?_⟩
  have hg := line_grows (p.take 2) (by simp [hl]) (originOf t s) r1.date n
  rw [e2, ← he]
  unfold DaysAfter at hn
  rw [hn]
  show some (combination lineFeatures (p.take 2) _ _ + _) = _
  rw [hg]
  show _ = some (combination lineFeatures (p.take 2) _ _ + _ + _)
  congr 1
  ring

/-- **C111, line.** In every run, whatever the optimiser returns, the forecast of the linear model is a straight line. -/
theorem C111_line [FloorRing K] [IsStrictOrderedRing K] (w : World K) (args : RunArgs K) (id : String) (t : STable K) (hp : Proper t) (s : String) (hs : IsSeries t id s)
    (res : RunResult K) (h : runForecast w args id t = .ok (some res)) (hx : FitsOnce w args s (seriesFrame t s) modelLinear) :
    GrowsEvenly (partOf t s res) "linear" (fun _ => 0) := by
  obtain ⟨hd, hrun⟩ := series_run w id t hp s hs
  obtain ⟨p, hl, hv⟩ := rows_value w args s _ _ (hrun args res h) _ _ (formula_linear false) hx hd.dated _ hd.days
  refine ⟨p.headD 0, ?_⟩
  intro r1 r2 h1 h2 he n hn
  refine ⟨_, hv r1 h1.1 h1.2.1 h1.2.2, ?_⟩
  rw [hv r2 h2.1 h2.2.1 h2.2.2]
  unfold DaysAfter at hn
  dsimp only
  rw [hn, line_grows p hl]

/-- **C111, proportion.** In every run, whatever the optimiser returns, a line multiplied with a pattern is a multiple of one line in each season. -/
theorem C111_proportion [FloorRing K] [IsStrictOrderedRing K] (w : World K) (args : RunArgs K) (id : String) (t : STable K) (hp : Proper t) (s : String) (hs : IsSeries t id s)
    (res : RunResult K) (h : runForecast w args id t = .ok (some res)) (season : ForecastModel K) (idx : Timestamp → Int) (g : List K → Int → K)
    (hseason : HasFormula season true (fun p _ t => g p (idx t)))
    (hx : FitsOnce w args s (seriesFrame t s) (modelLinear.mul season)) :
    GrowsInProportion (partOf t s res) (modelLinear.mul season).name idx := by
  obtain ⟨hd, hrun⟩ := series_run w id t hp s hs
  obtain ⟨p, hl, hv⟩ := rows_value w args s _ _ (hrun args res h) _ _ (formula_compose true false (formula_linear true) hseason) hx hd.dated _ hd.days
  have en : (compose true modelLinear season).nParams = 2 + season.nParams := compose_nParams true _ _ (by simp [modelLinear, mkModel]) hseason.named.1
  rw [en] at hl
  refine ⟨fun d => combination lineFeatures (p.take 2) ((d - originOf t s) / (24 * 60 * 60 * 1000000000)) d, (p.take 2).headD 0, g (p.drop 2), ?_, ?_⟩
  · intro r1 r2 _ _ n hn
    unfold DaysAfter at hn
    dsimp only
    rw [hn, line_grows (p.take 2) (by simp [hl])]
  · intro r hr
    exact hv r hr.1 hr.2.1 hr.2.2

/-- **C111, weekdays.** The models with a weekly pattern. -/
theorem C111_weekdays [FloorRing K] [IsStrictOrderedRing K] (wd : Int → Int) (hw : IsWeek wd) (w : World K) (args : RunArgs K) (id : String) (t : STable K)
    (hp : Proper t) (s : String) (hs : IsSeries t id s) (res : RunResult K) (h : runForecast w args id t = .ok (some res)) :
    (FitsOnce w args s (seriesFrame t s) (modelConstant.add modelSeasonWday) →
      RepeatsSeasons (partOf t s res) "(constant+season_wday)" (weekdayIn wd)) ∧
    (FitsOnce w args s (seriesFrame t s) (modelConstant.mul modelSeasonWday) →
      RepeatsSeasons (partOf t s res) "(constant*season_wday)" (weekdayIn wd)) ∧
    (FitsOnce w args s (seriesFrame t s) (modelLinear.add modelSeasonWday) →
      GrowsEvenly (partOf t s res) "(linear+season_wday)" (weekdayIn wd)) ∧
    (FitsOnce w args s (seriesFrame t s) (modelLinear.mul modelSeasonWday) →
      GrowsInProportion (partOf t s res) "(linear*season_wday)" (weekdayIn wd)) := by
  have hidx : (weekday : Timestamp → Int) = weekdayIn wd := by
    funext d
    rw [isWeek_unique wd hw]
    rfl
  rw [← hidx]
  exact ⟨C111_repeats w args id t hp s hs res h false _ _ weekday (fun p i => (((if false then (1 : K) else 0) :: p)[i.toNat]?).getD 0) (formula_wday false) rfl,
    C111_repeats w args id t hp s hs res h true _ _ weekday (fun p i => (((if true then (1 : K) else 0) :: p)[i.toNat]?).getD 0) (formula_wday true) rfl,
    C111_grows w args id t hp s hs res h _ weekday (fun p i => (((if false then (1 : K) else 0) :: p)[i.toNat]?).getD 0) (formula_wday false),
    C111_proportion w args id t hp s hs res h _ weekday (fun p i => (((if true then (1 : K) else 0) :: p)[i.toNat]?).getD 0) (formula_wday true)⟩

/-- **C111, months.** The models with a monthly pattern. -/
theorem C111_months [FloorRing K] [IsStrictOrderedRing K] (civil : Int → Int × Int × Int) (hcal : IsCalendar civil) (w : World K) (args : RunArgs K) (id : String)
    (t : STable K) (hp : Proper t) (s : String) (hs : IsSeries t id s) (res : RunResult K) (h : runForecast w args id t = .ok (some res)) :
    (FitsOnce w args s (seriesFrame t s) (modelConstant.add modelSeasonMonth) →
      RepeatsSeasons (partOf t s res) "(constant+season_month)" (monthIn civil)) ∧
    (FitsOnce w args s (seriesFrame t s) (modelConstant.mul modelSeasonMonth) →
      RepeatsSeasons (partOf t s res) "(constant*season_month)" (monthIn civil)) ∧
    (FitsOnce w args s (seriesFrame t s) (modelLinear.add modelSeasonMonth) →
      GrowsEvenly (partOf t s res) "(linear+season_month)" (monthIn civil)) ∧
    (FitsOnce w args s (seriesFrame t s) (modelLinear.mul modelSeasonMonth) →
      GrowsInProportion (partOf t s res) "(linear*season_month)" (monthIn civil)) := by
  have hidx : monthIn civil = month := by
    funext d
    rw [isCalendar_unique civil hcal]
    rfl
  rw [hidx]
  exact ⟨C111_repeats w args id t hp s hs res h false _ _ month (fun p i => (((if false then (1 : K) else 0) :: p)[(i - 1).toNat]?).getD 0) (formula_month false) rfl,
    C111_repeats w args id t hp s hs res h true _ _ month (fun p i => (((if true then (1 : K) else 0) :: p)[(i - 1).toNat]?).getD 0) (formula_month true) rfl,
    C111_grows w args id t hp s hs res h _ month (fun p i => (((if false then (1 : K) else 0) :: p)[(i - 1).toNat]?).getD 0) (formula_month false),
    C111_proportion w args id t hp s hs res h _ month (fun p i => (((if true then (1 : K) else 0) :: p)[(i - 1).toNat]?).getD 0) (formula_month true)⟩

/-! ### Concrete cases -/

/-- An optimiser that is far from the minimum, but returns as many parameters as there are bounds. -/
def wildEnv : Env ℚ := { demoEnv with
  lsq := fun _ _ b => .ok (some ⟨true, some 1, (List.range b.lo.length).map fun i : Nat => (i : ℚ) ^ 2 - 3⟩)
  globalCache := fun k => if k = "a_weekday" then some cacheWeekday else none }

def wildWorld : World ℚ := { demoWorld with env := fun _ _ => wildEnv }

def wildArgs (mode : AddMult) : RunArgs ℚ :=
  { demoArgs [modelConstant] (some []) with models := ⟨some [modelLinear, modelConstant], some [modelSeasonWday], mode, none, none, some [], none⟩, useCache := true }

theorem wild_count : KeepsCount wildEnv := by
  intro f guess b r h
  cases h
  simp

example : FitsOnce wildWorld (wildArgs .add) "a" (seriesFrame seasonTable "a") (modelLinear.add modelSeasonWday) := by
  refine ⟨fun _ => wild_count, ?_, ?_⟩
  all_goals
    intro df' cand h
    have e : candidates wildWorld.ch (wildArgs .add).models df' (runFreq (seriesFrame seasonTable "a")) =
      .ok (.add, [modelConstant.add modelSeasonWday, modelLinear.add modelSeasonWday]) := rfl
    rw [e] at h
    cases h
  · decide
  · intro m' hm' hn
    simp only [List.mem_cons, List.not_mem_nil, or_false] at hm'
    rcases hm' with rfl | rfl
    · exact absurd hn (by decide)
    · rfl

/-- Forecasts on two Mondays and two Tuesdays, nowhere near the data: those of the level repeat, those of the line change by -21 on both days. -/
example : ((runForecast wildWorld (wildArgs .add) "" seasonTable).toOption.bind id).map (fun r =>
    ((partOf seasonTable "a" r).data.filter fun q => !q.isActuals && decide (q.date / DAY ∈ [11, 12, 18, 19])).map fun q =>
      (q.model, weekdayIn weekdayOfDay q.date, q.date / DAY, q.y)) =
    some [("(constant+season_wday)", 0, 11, some (-3)), ("(constant+season_wday)", 1, 12, some (-5)),
      ("(constant+season_wday)", 0, 18, some (-3)), ("(constant+season_wday)", 1, 19, some (-5)),
      ("(linear+season_wday)", 0, 11, some 19), ("(linear+season_wday)", 1, 12, some 17),
      ("(linear+season_wday)", 0, 18, some (-2)), ("(linear+season_wday)", 1, 19, some (-4))] := by decide +kernel

/-- With factors; the factor of a Tuesday is 1 (the square of 2, minus 3). -/
example : ((runForecast wildWorld (wildArgs .mult) "" seasonTable).toOption.bind id).map (fun r =>
    ((partOf seasonTable "a" r).data.filter fun q => !q.isActuals && decide (q.date / DAY ∈ [11, 12, 18, 19])).map fun q =>
      (q.model, weekdayIn weekdayOfDay q.date, q.date / DAY, q.y)) =
    some [("(constant*season_wday)", 0, 11, some (-3)), ("(constant*season_wday)", 1, 12, some 6),
      ("(constant*season_wday)", 0, 18, some (-3)), ("(constant*season_wday)", 1, 19, some 6),
      ("(linear*season_wday)", 0, 11, some 19), ("(linear*season_wday)", 1, 12, some 16),
      ("(linear*season_wday)", 0, 18, some (-2)), ("(linear*season_wday)", 1, 19, some (-5))] := by decide +kernel

end Anticipy
