import Verif.Props.Leverage
import Verif.Props.GroupMeans
import Verif.Props.OnlyCounted
import Verif.Spec.Regression

/-
C126: higher observations never lower a forecast without trend.
-/
namespace Anticipy
open Spec
variable {K : Type} [Field K] [LinearOrder K] [FloorRing K]

omit [LinearOrder K] [FloorRing K] in
theorem filter_sum {α : Type} (l : List α) (p : α → Bool) (f : α → K) : ((l.filter p).map f).sum = (l.map fun a => if p a = true then f a else 0).sum := by
  induction l with
  | nil => rfl
  | cons a l ih =>
    by_cases h : p a = true
    · rw [List.filter_cons_of_pos h]
      simp [h, ih]
    · rw [List.filter_cons_of_neg h]
      simp [h, ih]

/-- Means of a season, as sums over the rows that count. -/
theorem season_mean [IsStrictOrderedRing K] (w : World K) (args : RunArgs K) (id : String) (t : STable K) (res : RunResult K)
    (h : runForecast w args id t = .ok (some res)) (s : String) (hs : IsSeries t id s) (hd : t.hasDate = true) (hout : args.findOutliers = false)
    (idx : Timestamp → Int) (k : Int) :
    meanOf (inSeason idx k (partOf t s res)) =
      ((counted args.start t s).map fun r => if idx r.date = k then rowWeight t r ^ 2 * r.y.getD 0 else 0).sum /
        ((counted args.start t s).map fun r => if idx r.date = k then rowWeight t r ^ 2 else 0).sum := by
  unfold meanOf inSeason
  rw [filter_sum, filter_sum]
  simp only [decide_eq_true_eq]
  rw [observed_sum w args id t res h s hs hd hout (fun d y v => if idx d = k then v ^ 2 * y else 0),
    observed_sum w args id t res h s hs hd hout (fun d y v => if idx d = k then v ^ 2 else 0)]

theorem mean_higher [IsStrictOrderedRing K] (w w' : World K) (args args' : RunArgs K) (id : String) (t : STable K) (hp : Proper t) (s : String)
    (hs : IsSeries t id s) (Y : SRow K → K) (res res' : RunResult K) (h : runForecast w args id t = .ok (some res))
    (h' : runForecast w' args' id (revised Y t) = .ok (some res')) (hstart : args'.start = args.start) (hout : args.findOutliers = false)
    (hout' : args'.findOutliers = false) (hY : ∀ r ∈ rowsOf t s, ∀ y, r.y = some y → y ≤ Y r) (idx : Timestamp → Int) (k : Int) :
    meanOf (inSeason idx k (partOf t s res)) ≤ meanOf (inSeason idx k (partOf t s res')) := by
  have hs' : IsSeries (revised Y t) id s := isSeries_map t (fun r => { r with y := r.y.map fun _ => Y r }) (fun _ => rfl) id s hs
  have e1 := season_mean w args id t res h s hs hp.onePerDate.hasDate hout idx k
  have e2 := season_mean w' args' id (revised Y t) res' h' s hs' hp.onePerDate.hasDate hout' idx k
  have e3 : partOf (revised Y t) s res' = partOf t s res' := rfl
  rw [hstart, counted_revised, List.map_map, List.map_map, e3] at e2
  have hw : ∀ r : SRow K, rowWeight (revised Y t) { r with y := r.y.map fun _ => Y r } = rowWeight t r := fun r => rfl
  simp only [Function.comp_def, hw] at e2
  rw [e1, e2]
  apply div_le_div_of_nonneg_right
  · apply List.sum_le_sum
    intro r hr
    split_ifs
    · have hy := (List.mem_filter.1 hr).2
      simp only [Bool.and_eq_true] at hy
      obtain ⟨y, hy⟩ := Option.isSome_iff_exists.1 hy.1.2
      have := hY r (List.mem_filter.1 hr).1 y hy
      rw [hy]
      exact mul_le_mul_of_nonneg_left this (sq_nonneg _)
    · exact le_refl _
  · apply List.sum_nonneg
    intro x hx
    obtain ⟨r, -, rfl⟩ := List.mem_map.1 hx
    split_ifs
    · exact sq_nonneg _
    · exact le_refl _

/-- **C126, level.** If no observation is lowered, the forecast of the constant model is not lowered. -/
theorem C126_level [IsStrictOrderedRing K] (w w' : World K) (args args' : RunArgs K) (id : String) (t : STable K) (hp : Proper t) (s : String)
    (hs : IsSeries t id s) (Y : SRow K → K) (res res' : RunResult K) (h : runForecast w args id t = .ok (some res))
    (h' : runForecast w' args' id (revised Y t) = .ok (some res')) (hstart : args'.start = args.start) (hout : args.findOutliers = false)
    (hout' : args'.findOutliers = false) (hY : ∀ r ∈ rowsOf t s, ∀ y, r.y = some y → y ≤ Y r) (reg : Registry K)
    (hx : FitsExactly w args s (seriesFrame t s) modelConstant reg) (hx' : FitsExactly w' args' s (seriesFrame (revised Y t) s) modelConstant reg)
    (r r' : DRow K) (hr : ForecastOf (partOf t s res) "constant" r) (hr' : ForecastOf (partOf t s res') "constant" r') :
    ∃ y y', r.y = some y ∧ r'.y = some y' ∧ y ≤ y' := by
  have hp' : Proper (revised Y t) := proper_map t _ 0 (fun _ => rfl) (fun _ => (add_zero _).symm) hp
  have hs' : IsSeries (revised Y t) id s := isSeries_map t (fun r => { r with y := r.y.map fun _ => Y r }) (fun _ => rfl) id s hs
  have e1 := (C109_level w args id t hp s hs res h reg hx r hr).1
  have e2 := (C109_level w' args' id (revised Y t) hp' s hs' res' h' reg hx' r' hr').1
  refine ⟨_, _, e1, e2, ?_⟩
  have := mean_higher w w' args args' id t hp s hs Y res res' h h' hstart hout hout' hY (fun _ => 0) 0
  have hsame : ∀ q : RunResult K, inSeason (fun _ => 0) 0 q = observed q := by simp [inSeason]
  rw [hsame, hsame] at this
  exact this

/-- **C126, weekdays.** If no observation is lowered, no forecast of a level with weekdays is lowered. -/
theorem C126_weekdays [IsStrictOrderedRing K] (w w' : World K) (args args' : RunArgs K) (id : String) (t : STable K) (hp : Proper t) (s : String)
    (hs : IsSeries t id s) (Y : SRow K → K) (res res' : RunResult K) (h : runForecast w args id t = .ok (some res))
    (h' : runForecast w' args' id (revised Y t) = .ok (some res')) (hstart : args'.start = args.start) (hout : args.findOutliers = false)
    (hout' : args'.findOutliers = false) (hY : ∀ r ∈ rowsOf t s, ∀ y, r.y = some y → y ≤ Y r) (reg : Registry K)
    (hreg : reg "a_weekday" = some cacheWeekday)
    (hx : FitsExactly w args s (seriesFrame t s) (modelConstant.add modelSeasonWday) reg)
    (hx' : FitsExactly w' args' s (seriesFrame (revised Y t) s) (modelConstant.add modelSeasonWday) reg)
    (r r' : DRow K) (hr : ForecastOf (partOf t s res) (modelConstant.add (modelSeasonWday (K := K))).name r)
    (hr' : ForecastOf (partOf t s res') (modelConstant.add (modelSeasonWday (K := K))).name r') (hsame : r'.date = r.date) :
    ∃ y y', r.y = some y ∧ r'.y = some y' ∧ y ≤ y' := by
  have hp' : Proper (revised Y t) := proper_map t _ 0 (fun _ => rfl) (fun _ => (add_zero _).symm) hp
  have hs' : IsSeries (revised Y t) id s := isSeries_map t (fun r => { r with y := r.y.map fun _ => Y r }) (fun _ => rfl) id s hs
  have hw : IsWeek weekdayOfDay := weekdayOfDay_isWeek
  have e1 := (C109_weekdays _ hw w args id t hp s hs res h reg hreg hx r hr).2.1
  have e2 := (C109_weekdays _ hw w' args' id (revised Y t) hp' s hs' res' h' reg hreg hx' r' hr').2.1
  refine ⟨_, _, e1, e2, ?_⟩
  rw [hsame]
  exact mean_higher w w' args args' id t hp s hs Y res res' h h' hstart hout hout' hY _ _

/-- **C126, months.** If no observation is lowered, no forecast of a level with months is lowered, provided that its month of the year is observed. -/
theorem C126_months [IsStrictOrderedRing K] (civil : Int → Int × Int × Int) (hcal : IsCalendar civil) (w w' : World K) (args args' : RunArgs K) (id : String)
    (t : STable K) (hp : Proper t) (s : String)
    (hs : IsSeries t id s) (Y : SRow K → K) (res res' : RunResult K) (h : runForecast w args id t = .ok (some res))
    (h' : runForecast w' args' id (revised Y t) = .ok (some res')) (hstart : args'.start = args.start) (hout : args.findOutliers = false)
    (hout' : args'.findOutliers = false) (hY : ∀ r ∈ rowsOf t s, ∀ y, r.y = some y → y ≤ Y r) (reg : Registry K)
    (hreg : reg "a_month" = some cacheMonth)
    (hx : FitsExactly w args s (seriesFrame t s) (modelConstant.add modelSeasonMonth) reg)
    (hx' : FitsExactly w' args' s (seriesFrame (revised Y t) s) (modelConstant.add modelSeasonMonth) reg)
    (r r' : DRow K) (hr : ForecastOf (partOf t s res) (modelConstant.add (modelSeasonMonth (K := K))).name r)
    (hr' : ForecastOf (partOf t s res') (modelConstant.add (modelSeasonMonth (K := K))).name r') (hsame : r'.date = r.date)
    (hobs : ∃ a ∈ observed (partOf t s res), monthIn civil a.date = monthIn civil r.date) :
    ∃ y y', r.y = some y ∧ r'.y = some y' ∧ y ≤ y' := by
  have hp' : Proper (revised Y t) := proper_map t _ 0 (fun _ => rfl) (fun _ => (add_zero _).symm) hp
  have hs' : IsSeries (revised Y t) id s := isSeries_map t (fun r => { r with y := r.y.map fun _ => Y r }) (fun _ => rfl) id s hs
  have hobs' : ∃ a ∈ observed (partOf t s res'), monthIn civil a.date = monthIn civil r'.date := by
    obtain ⟨a, ha, e⟩ := hobs
    obtain ⟨b, hb, eb⟩ := List.mem_map.1 ((revised_dates w w' args args' id t hp s hs Y res res' h h' hstart hout hout').mem_iff.1 (List.mem_map_of_mem ha))
    exact ⟨b, hb, by rw [eb, e, hsame]⟩
  have e1 := (C109_months civil hcal w args id t hp s hs res h reg hreg hx r hr hobs).1
  have e2 := (C109_months civil hcal w' args' id (revised Y t) hp' s hs' res' h' reg hreg hx' r' hr' hobs').1
  refine ⟨_, _, e1, e2, ?_⟩
  rw [hsame]
  exact mean_higher w w' args args' id t hp s hs Y res res' h h' hstart hout hout' hY _ _

/-- Observations of the result and rows that count. -/
theorem usable_counted [IsStrictOrderedRing K] (w : World K) (args : RunArgs K) (id : String) (t : STable K) (res : RunResult K)
    (h : runForecast w args id t = .ok (some res)) (s : String) (hs : IsSeries t id s) (hd : t.hasDate = true) (hout : args.findOutliers = false) :
    (∀ a, UsableActual (partOf t s res) a → ∃ q ∈ counted args.start t s, q.date = a.date ∧ a.y = some (q.y.getD 0)) ∧
    ∀ q ∈ counted args.start t s, ∃ a, UsableActual (partOf t s res) a ∧ a.date = q.date := by
  have hperm := observed_samples w args id t res h s hs hd hout
  unfold samplesOf at hperm
  constructor
  · intro a ⟨h1, h2, h3, c, h4, h5⟩
    have ho : a ∈ observed (partOf t s res) := List.mem_filter.2 ⟨h1, by simp [h2, h4, h5, Option.isSome_iff_ne_none, h3]⟩
    have := hperm.mem_iff.1 (List.mem_map_of_mem (f := fun a : DRow K => (a.date, a.y.getD 0, a.weight.getD 0)) ho)
    obtain ⟨q, hq, e⟩ := List.mem_map.1 this
    obtain ⟨y, hy⟩ := Option.ne_none_iff_exists'.1 h3
    refine ⟨q, hq, (Prod.mk.inj e).1, ?_⟩
    have := (Prod.mk.inj (Prod.mk.inj e).2).1
    rw [this, hy]
    rfl
  · intro q hq
    have := hperm.mem_iff.2 (List.mem_map_of_mem (f := fun r : SRow K => (r.date, r.y.getD 0, rowWeight t r)) hq)
    obtain ⟨a, ha, e⟩ := List.mem_map.1 this
    obtain ⟨h1, h2⟩ := List.mem_filter.1 ha
    simp only [Bool.and_eq_true, decide_eq_true_eq] at h2
    refine ⟨a, ⟨h1, h2.1.1, Option.isSome_iff_ne_none.1 h2.1.2, ?_⟩, (Prod.mk.inj e).1⟩
    cases hw : a.weight with
    | none => rw [hw] at h2; exact absurd h2.2 (lt_irrefl _)
    | some c => rw [hw] at h2; exact ⟨c, rfl, h2.2⟩

omit [Field K] [LinearOrder K] [FloorRing K] in
theorem same_date (t : STable K) (hp : Proper t) (s : String) (q q' : SRow K) (hq : q ∈ rowsOf t s) (hq' : q' ∈ rowsOf t s) (hd : q.date = q'.date) : q = q' := by
  by_contra hne
  have hm : ∀ q ∈ rowsOf t s, q ∈ t.rows ∧ (t.hasSource = true → q.source = some s) := by
    intro q hq
    unfold rowsOf only at hq
    split_ifs at hq with hso
    · obtain ⟨h1, h2⟩ := List.mem_filter.1 hq
      exact ⟨h1, fun _ => of_decide_eq_true h2⟩
    · exact ⟨hq, fun e => absurd e hso⟩
  have hsym : Std.Symm fun r r' : SRow K => (t.hasSource = true → r.source = r'.source) → r.date ≠ r'.date := ⟨fun r r' h hs e => h (fun x => (hs x).symm) e.symm⟩
  exact hp.onePerDate.distinct.forall (hm q hq).1 (hm q' hq').1 hne (fun x => ((hm q hq).2 x).trans ((hm q' hq').2 x).symm) hd

/-- **C126, naive forecasts.** If no observation is lowered, no naive or seasonal naive forecast of a daily series is lowered. -/
theorem C126_naive [IsStrictOrderedRing K] (w w' : World K) (args args' : RunArgs K) (id : String) (t : STable K) (hp : Proper t) (s : String)
    (hs : IsSeries t id s) (hdaily : ∃ r ∈ rowsOf t s, ∃ r' ∈ rowsOf t s, r'.date = r.date + 24 * 60 * 60 * 1000000000)
    (Y : SRow K → K) (res res' : RunResult K) (h : runForecast w args id t = .ok (some res))
    (h' : runForecast w' args' id (revised Y t) = .ok (some res')) (hstart : args'.start = args.start) (hout : args.findOutliers = false)
    (hout' : args'.findOutliers = false) (hY : ∀ r ∈ rowsOf t s, ∀ y, r.y = some y → y ≤ Y r)
    (hcand : ∀ df' cand, candidates w.ch args.models df' (runFreq (seriesFrame t s)) = .ok cand → ∀ m ∈ cand.2,
      (m.name = "naive" → m = modelNaive w.srt) ∧ (m.name = "snaive_wday" → m = modelSnaiveWday w.srt))
    (hcand' : ∀ df' cand, candidates w'.ch args'.models df' (runFreq (seriesFrame (revised Y t) s)) = .ok cand → ∀ m ∈ cand.2,
      (m.name = "naive" → m = modelNaive w'.srt) ∧ (m.name = "snaive_wday" → m = modelSnaiveWday w'.srt))
    (name : String) (hname : name = "naive" ∨ name = "snaive_wday")
    (r r' : DRow K) (hr : ForecastOf (partOf t s res) name r) (hr' : ForecastOf (partOf t s res') name r') (hsame : r'.date = r.date) :
    ∃ y y', r.y = some y ∧ r'.y = some y' ∧ y ≤ y' := by
  have hp' : Proper (revised Y t) := proper_map t _ 0 (fun _ => rfl) (fun _ => (add_zero _).symm) hp
  have hs' : IsSeries (revised Y t) id s := isSeries_map t (fun r => { r with y := r.y.map fun _ => Y r }) (fun _ => rfl) id s hs
  have hrows : rowsOf (revised Y t) s = (rowsOf t s).map fun r => { r with y := r.y.map fun _ => Y r } := rowsOf_map t (fun r => { r with y := r.y.map fun _ => Y r }) (fun _ => rfl) s
  have hdaily' : ∃ r ∈ rowsOf (revised Y t) s, ∃ r' ∈ rowsOf (revised Y t) s, r'.date = r.date + 24 * 60 * 60 * 1000000000 := by
    obtain ⟨a, ha, b, hb, e⟩ := hdaily
    rw [hrows]
    exact ⟨_, List.mem_map_of_mem ha, _, List.mem_map_of_mem hb, e⟩
  obtain ⟨u1, u2⟩ := usable_counted w args id t res h s hs hp.onePerDate.hasDate hout
  obtain ⟨u1', u2'⟩ := usable_counted w' args' id (revised Y t) res' h' s hs' hp.onePerDate.hasDate hout'
  rw [hstart, counted_revised] at u1' u2'
  have hpart : partOf (revised Y t) s res' = partOf t s res' := rfl
  rw [hpart] at u1' u2'
  -- observations of one result are observations of the other
  have to' : ∀ a, UsableActual (partOf t s res) a → ∃ b, UsableActual (partOf t s res') b ∧ b.date = a.date := by
    intro a ha
    obtain ⟨q, hq, e, -⟩ := u1 a ha
    obtain ⟨b, hb, e'⟩ := u2' _ (List.mem_map_of_mem hq)
    exact ⟨b, hb, e'.trans e⟩
  have fro : ∀ b, UsableActual (partOf t s res') b → ∃ a, UsableActual (partOf t s res) a ∧ a.date = b.date := by
    intro b hb
    obtain ⟨q, hq, e, -⟩ := u1' b hb
    obtain ⟨q0, hq0, rfl⟩ := List.mem_map.1 hq
    obtain ⟨a, ha, e'⟩ := u2 q0 hq0
    exact ⟨a, ha, e'.trans e⟩
  have le : ∀ a b, UsableActual (partOf t s res) a → UsableActual (partOf t s res') b → a.date = b.date → ∃ y y', a.y = some y ∧ b.y = some y' ∧ y ≤ y' := by
    intro a b ha hb hd
    obtain ⟨q, hq, e, hy⟩ := u1 a ha
    obtain ⟨q1, hq1, e1, hy1⟩ := u1' b hb
    obtain ⟨q0, hq0, rfl⟩ := List.mem_map.1 hq1
    have e1 : q0.date = b.date := e1
    have hqq : q0 = q := same_date t hp s q0 q (List.mem_filter.1 hq0).1 (List.mem_filter.1 hq).1 (by rw [e1, e, hd])
    subst hqq
    have hsome := (List.mem_filter.1 hq).2
    simp only [Bool.and_eq_true] at hsome
    obtain ⟨y, hqy⟩ := Option.isSome_iff_exists.1 hsome.1.2
    refine ⟨_, _, hy, hy1, ?_⟩
    simp only [hqy, Option.map_some, Option.getD_some]
    exact hY q0 (List.mem_filter.1 hq).1 y hqy
  have c1 := C81_series w args id t hp s hs hdaily res h hcand r hr.1 hr.2.1
  have c2 := C81_series w' args' id (revised Y t) hp' s hs' hdaily' res' h' hcand' r' hr'.1 hr'.2.1
  rw [hpart, hsame] at c2
  rcases hname with rfl | rfl
  · obtain ⟨a, ha, hy, hpos⟩ := c1.1 hr.2.2
    obtain ⟨b, hb, hy', hpos'⟩ := c2.1 hr'.2.2
    rw [hy, hy']
    apply le a b ha hb
    obtain ⟨a', ha', ea⟩ := to' a ha
    obtain ⟨b', hb', eb⟩ := fro b hb
    rcases hpos with ⟨p1, p2⟩ | ⟨p1, p2⟩
    · rcases hpos' with ⟨p1', p2'⟩ | ⟨p1', p2'⟩
      · have i1 := p2 b' hb' (by rw [eb]; exact p1')
        have i2 := p2' a' ha' (by rw [ea]; exact p1)
        omega
      · have := p1' a' ha'
        omega
    · rcases hpos' with ⟨p1', p2'⟩ | ⟨p1', p2'⟩
      · have := p1 b' hb'
        omega
      · have i1 := p2 b' hb'
        have i2 := p2' a' ha'
        omega
  · obtain ⟨a, ha, hy, hw, hlast⟩ := c1.2 hr.2.2
    obtain ⟨b, hb, hy', hw', hlast'⟩ := c2.2 hr'.2.2
    rw [hy, hy']
    apply le a b ha hb
    obtain ⟨a', ha', ea⟩ := to' a ha
    obtain ⟨b', hb', eb⟩ := fro b hb
    have i1 := hlast b' hb' (by rw [eb]; exact hw')
    have i2 := hlast' a' ha' (by rw [ea]; exact hw)
    omega

/-- No value of the three days 0, 0, 3 is lowered, and the level rises from 1 to 2. -/
example : Proper highTable ∧ IsSeries highTable "s" "s" ∧ (∀ r ∈ rowsOf highTable "s", r.y.all fun y => decide (y ≤ higher r)) ∧
    ((runForecast meanWorld (demoArgs [modelConstant] (some [])) "s" highTable).toOption.bind fun r => r.map fun r =>
      ((partOf highTable "s" r).data.filter fun q => !q.isActuals).map fun q => (q.date / DAY, q.y)) = some ((List.range 6).map fun (k : Nat) => ((k : Int), some 1)) ∧
    ((runForecast meanWorld (demoArgs [modelConstant] (some [])) "s" (revised higher highTable)).toOption.bind fun r => r.map fun r =>
      ((partOf highTable "s" r).data.filter fun q => !q.isActuals).map fun q => (q.date / DAY, q.y)) = some ((List.range 6).map fun (k : Nat) => ((k : Int), some 2)) := by
  refine ⟨⟨⟨rfl, rfl, by decide +kernel, by decide +kernel⟩, fun h => by cases h⟩, ?_, by decide +kernel, by decide +kernel, by decide +kernel⟩
  unfold IsSeries
  decide +kernel

/-- Five days, a Thursday to a Monday, with the values 0, 1, 2, 3, 4; then 8, 7, 6, 5, 4. -/
def climbingTable : STable ℚ := ⟨true, false, false, false, (List.range 5).map fun k => ⟨k * DAY, none, 0, some k, none⟩⟩

def fallingValue (r : SRow ℚ) : ℚ := 8 - ((r.date / DAY : Int) : ℚ)

/-- With a trend the claim fails: although no value is lowered, the line predicts 3 instead of 5 for the sixth day. The naive forecast stays at 4. -/
example : (∀ r ∈ rowsOf climbingTable "s", r.y.all fun y => decide (y ≤ fallingValue r)) ∧
    ((runForecast { demoWorld with env := fun _ _ => knownEnv [1, -3] } (demoArgs [modelLinear] (some [modelNaive demoWorld.srt])) "s" climbingTable).toOption.bind fun r =>
      r.map fun r => ((partOf climbingTable "s" r).data.filter fun q => !q.isActuals && decide (q.date = 5 * DAY)).map fun q => (q.model, q.y)) =
      some [("linear", some 5), ("naive", some 4)] ∧
    ((runForecast { demoWorld with env := fun _ _ => knownEnv [-1, 11] } (demoArgs [modelLinear] (some [modelNaive demoWorld.srt])) "s"
      (revised fallingValue climbingTable)).toOption.bind fun r =>
      r.map fun r => ((partOf climbingTable "s" r).data.filter fun q => !q.isActuals && decide (q.date = 5 * DAY)).map fun q => (q.model, q.y)) =
      some [("linear", some 3), ("naive", some 4)] := by decide +kernel

end Anticipy
