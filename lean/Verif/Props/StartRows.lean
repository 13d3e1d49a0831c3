import Verif.Props.RowOrder

/-
C49 for tables: rows before the starting date do not change the forecast.
-/
namespace Anticipy
open Spec
variable {K : Type} [Field K] [LinearOrder K]

/-- **C49 (rows).** Dated tables with at most one row per date and source that agree from the starting date on: earlier rows may be changed, removed or
added. Whenever both runs predict a date of a source with the linear trend, the predictions are the same. (Whether a date is predicted depends on earlier
rows, through the detected frequency.) -/
theorem C49_rows_line_partial [FloorRing K] [IsStrictOrderedRing K] (w w' : World K) (args args' : RunArgs K) (id id' : String) (t t' : STable K)
    (hre : AgreeFrom args.start t t') (ht : OnePerDate t) (ht' : OnePerDate t') (res res' : RunResult K) (h : runForecast w args id t = .ok (some res))
    (h' : runForecast w' args' id' t' = .ok (some res')) (hstart : args'.start = args.start) (hout : args'.findOutliers = args.findOutliers)
    (hmin : ∀ s i, FindsMinimum (w.env s i)) (hmin' : ∀ s i, FindsMinimum (w'.env s i))
    (hcand : ∀ df fr cand, candidates w.ch args.models df fr = .ok cand → ∀ m ∈ cand.2, m.name = "linear" → m = modelLinear)
    (hcand' : ∀ df fr cand, candidates w'.ch args'.models df fr = .ok cand → ∀ m ∈ cand.2, m.name = "linear" → m = modelLinear)
    (r r' : DRow K) (hr : r ∈ res.data) (hr' : r' ∈ res'.data) (hact : r.isActuals = false) (hact' : r'.isActuals = false)
    (hsrc : t.hasSource = true → r'.source = r.source)
    (hname : r.model = "linear") (hname' : r'.model = "linear") (hsame : r'.date = r.date) : r'.y = r.y :=
  agreeing_run w w' args args' id id' t t' hre ht ht' res res' h h' hstart hout hmin hmin' modelLinear linear_unpinned (fun _ => none) lineValue
    linear_inParameters line_noOrigin (by intro s i; constructor <;> simp [modelLinear, mkModel]) (by intro s i; constructor <;> simp [modelLinear, mkModel])
    hcand hcand' r r' hr hr' hact hact' hsrc hname hname' hsame

/-- **C49 (rows), weekly.** The same for the linear trend with weekly seasonality. -/
theorem C49_rows_weekly_partial [FloorRing K] [IsStrictOrderedRing K] (w w' : World K) (args args' : RunArgs K) (id id' : String) (t t' : STable K)
    (hre : AgreeFrom args.start t t') (ht : OnePerDate t) (ht' : OnePerDate t') (res res' : RunResult K) (h : runForecast w args id t = .ok (some res))
    (h' : runForecast w' args' id' t' = .ok (some res')) (hstart : args'.start = args.start) (hout : args'.findOutliers = args.findOutliers)
    (hmin : ∀ s i, FindsMinimum (w.env s i)) (hmin' : ∀ s i, FindsMinimum (w'.env s i))
    (hcache : ∀ s i f, (w.env s i).globalCache "a_weekday" = some f → f = cacheWeekday)
    (hcache' : ∀ s i f, (w'.env s i).globalCache "a_weekday" = some f → f = cacheWeekday)
    (hcand : ∀ df fr cand, candidates w.ch args.models df fr = .ok cand → ∀ m ∈ cand.2, m.name = "(linear+season_wday)" →
      m = modelLinear.add modelSeasonWday)
    (hcand' : ∀ df fr cand, candidates w'.ch args'.models df fr = .ok cand → ∀ m ∈ cand.2, m.name = "(linear+season_wday)" →
      m = modelLinear.add modelSeasonWday)
    (r r' : DRow K) (hr : r ∈ res.data) (hr' : r' ∈ res'.data) (hact : r.isActuals = false) (hact' : r'.isActuals = false)
    (hsrc : t.hasSource = true → r'.source = r.source)
    (hname : r.model = "(linear+season_wday)") (hname' : r'.model = "(linear+season_wday)") (hsame : r'.date = r.date) : r'.y = r.y :=
  agreeing_run w w' args args' id id' t t' hre ht ht' res res' h h' hstart hout hmin hmin' weeklyModel weekly_unpinned weeklyReg weeklyValue
    weekly_inParameters (by rw [weekly_nParams]; exact weekly_noOrigin) (fun s i => weekly_registered _ (hcache s i)) (fun s i => weekly_registered _ (hcache' s i))
    (by rw [weekly_name]; exact hcand) (by rw [weekly_name]; exact hcand') r r' hr hr' hact hact' hsrc (by rw [weekly_name]; exact hname)
    (by rw [weekly_name]; exact hname') hsame

/-! ### A concrete case -/

/-- Two shops, nine days from Wednesday (day 6) on; the values of the first five days are off the line. -/
def earlyTable : STable ℚ := ⟨true, true, false, false, (List.range 18).map fun i : Nat =>
  ⟨(6 + (i / 2 : Nat)) * DAY, some (if i % 2 = 0 then "a" else "b"), 0, some (if i < 10 then 100 else 2 * ((i / 2 : Nat) : ℚ) + 5), none⟩⟩

/-- The same without the rows of the first five days. -/
def lateTable : STable ℚ := { earlyTable with rows := earlyTable.rows.drop 10 }

example : AgreeFrom (some (11 * DAY)) earlyTable lateTable := ⟨by decide +kernel, rfl, rfl, rfl, rfl⟩

example : OnePerDate earlyTable ∧ OnePerDate lateTable :=
  ⟨⟨rfl, rfl, by decide +kernel, by decide +kernel⟩, ⟨rfl, rfl, by decide +kernel, by decide +kernel⟩⟩

/-- Without the early rows the coordinate is counted from a later Monday: other parameters of the line, same forecast. -/
example : ((runForecast lineWorld { demoArgs [modelLinear] (some []) with start := some (11 * DAY) } "s" earlyTable).toOption.bind fun r => r.map fun r =>
      (r.metadata.map fun q => (q.source, q.params), ((r.data.filter fun q => !q.isActuals).drop 11).map fun q => (q.source, q.date / DAY, q.y))) =
      some ([("a", [2, 1]), ("b", [2, 1])], [("b", 15, some 23), ("b", 16, some 25), ("b", 17, some 27)]) ∧
    ((runForecast { lineWorld with env := fun _ _ => knownEnv [2, 15] } { demoArgs [modelLinear] (some []) with start := some (11 * DAY) } "s"
      lateTable).toOption.bind fun r => r.map fun r =>
      (r.metadata.map fun q => (q.source, q.params), ((r.data.filter fun q => !q.isActuals).drop 11).map fun q => (q.source, q.date / DAY, q.y))) =
      some ([("a", [2, 15]), ("b", [2, 15])], [("b", 15, some 23), ("b", 16, some 25), ("b", 17, some 27)]) := by
  constructor <;> decide +kernel

end Anticipy
