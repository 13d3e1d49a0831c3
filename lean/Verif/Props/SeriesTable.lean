import Verif.Props.AdditiveTable
import Verif.Props.Recovery
import Verif.Props.Weekly
import Verif.Props.DailyRun

/-
Further results on runs, for each series of a table as a user supplies it.
-/
namespace Anticipy
open Spec
variable {K : Type} [Field K] [LinearOrder K] [FloorRing K]

/-- **C69, tables.** A series of a table that lies on a line from the starting date on (in the rows that count) is continued on this line by the linear trend. -/
theorem C69_table [IsStrictOrderedRing K] (w : World K) (args : RunArgs K) (id : String) (t : STable K) (hp : Proper t) (s : String) (hs : IsSeries t id s)
    (res : RunResult K) (h : runForecast w args id t = .ok (some res)) (hmin : ∀ i, FindsMinimum (w.env s i))
    (hlin : ∀ df' cand, candidates w.ch args.models df' (runFreq (seriesFrame t s)) = .ok cand → ∀ m ∈ cand.2, m.name = "linear" → m = modelLinear)
    (a b : K) (hline : FollowsRule args.start t s fun x _ => a * (x : K) + b) :
    ForecastsAre (partOf t s res) "linear" fun d => a * (((d - originOf t s) / (24 * 60 * 60 * 1000000000) : Int) : K) + b := by
  obtain ⟨hd, hrun⟩ := series_run w id t hp s hs
  intro r hr hact hm
  exact C69_line w args s _ _ (hrun args res h) hmin hlin hd.dated _ hd.days hd.nodup a b (follows_frame _ _ _ _ hline) r hr hact hm

/-- **C70, tables.** A series of a table that follows a line and a weekly pattern is continued likewise by trend plus weekdays. -/
theorem C70_table [IsStrictOrderedRing K] (wd : Int → Int) (hwd : IsWeek wd) (w : World K) (args : RunArgs K) (id : String) (t : STable K) (hp : Proper t)
    (s : String) (hs : IsSeries t id s) (res : RunResult K) (h : runForecast w args id t = .ok (some res)) (hmin : ∀ i, FindsMinimum (w.env s i))
    (hcache : ∀ i f, (w.env s i).globalCache "a_weekday" = some f → f = cacheWeekday)
    (hcand : ∀ df' cand, candidates w.ch args.models df' (runFreq (seriesFrame t s)) = .ok cand → ∀ m ∈ cand.2, m.name = "(linear+season_wday)" →
      m = modelLinear.add modelSeasonWday)
    (a b : K) (g : Int → K) (hpat : FollowsRule args.start t s fun x d => a * (x : K) + b + g (wd (d / (24 * 60 * 60 * 1000000000)))) :
    ForecastsAre (partOf t s res) "(linear+season_wday)" fun d =>
      a * (((d - originOf t s) / (24 * 60 * 60 * 1000000000) : Int) : K) + b + g (wd (d / (24 * 60 * 60 * 1000000000))) := by
  obtain ⟨hd, hrun⟩ := series_run w id t hp s hs
  intro r hr hact hm
  exact C70_weekly wd hwd w args s _ _ (hrun args res h) hmin hcache hcand hd.dated _ hd.days hd.nodup a b g (follows_frame _ _ _ _ hpat) r hr hact hm

omit [LinearOrder K] [FloorRing K] [Field K] in
/-- A series with rows on two consecutive days is daily. -/
theorem series_daily (t : STable K) (s : String) (hd : DatedSeries (seriesFrame t s) (originOf t s))
    (h : ∃ r ∈ rowsOf t s, ∃ r' ∈ rowsOf t s, r'.date = r.date + 24 * 60 * 60 * 1000000000) : DailySeries (seriesFrame t s) (originOf t s) := by
  refine ⟨hd.dated, hd.days, hd.sorted, ?_⟩
  obtain ⟨r, hr, r', hr', e⟩ := h
  have hin : ∀ q ∈ rowsOf t s, (⟨q.date, (q.date - originOf t s) / (24 * 60 * 60 * 1000000000), q.y, q.weight⟩ : Row K) ∈ (seriesFrame t s).rows :=
    fun q hq => List.mem_map.2 ⟨q, (sortBy_perm _ _).mem_iff.2 hq, rfl⟩
  refine ⟨_, hin r hr, _, hin r' hr', ?_⟩
  dsimp only
  omega

/-- **C81, any table.** Each daily series of a table: the naive model repeats the last usable observation before a date, the seasonal naive model the last one
that lies whole weeks before it. -/
theorem C81_series [IsStrictOrderedRing K] (w : World K) (args : RunArgs K) (id : String) (t : STable K) (hp : Proper t) (s : String) (hs : IsSeries t id s)
    (hdaily : ∃ r ∈ rowsOf t s, ∃ r' ∈ rowsOf t s, r'.date = r.date + 24 * 60 * 60 * 1000000000)
    (res : RunResult K) (h : runForecast w args id t = .ok (some res))
    (hcand : ∀ df' cand, candidates w.ch args.models df' (runFreq (seriesFrame t s)) = .ok cand → ∀ m ∈ cand.2,
      (m.name = "naive" → m = modelNaive w.srt) ∧ (m.name = "snaive_wday" → m = modelSnaiveWday w.srt))
    (r : DRow K) (hr : r ∈ (partOf t s res).data) (hact : r.isActuals = false) :
    (r.model = "naive" → ∃ a, UsableActual (partOf t s res) a ∧ r.y = a.y ∧
      ((a.date < r.date ∧ ∀ b, UsableActual (partOf t s res) b → b.date < r.date → b.date ≤ a.date) ∨
        ((∀ b, UsableActual (partOf t s res) b → r.date ≤ b.date) ∧ ∀ b, UsableActual (partOf t s res) b → a.date ≤ b.date))) ∧
    (r.model = "snaive_wday" → ∃ a, UsableActual (partOf t s res) a ∧ r.y = a.y ∧ WeeksBefore a.date r.date ∧
      ∀ b, UsableActual (partOf t s res) b → WeeksBefore b.date r.date → b.date ≤ a.date) := by
  obtain ⟨hd, hrun⟩ := series_run w id t hp s hs
  have hds := series_daily t s hd hdaily
  exact ⟨C81_naive w args s _ _ (hrun args res h) (fun df' cand hc m hm => (hcand df' cand hc m hm).1) _ hds r hr hact,
    C81_seasonal w args s _ _ (hrun args res h) (fun df' cand hc m hm => (hcand df' cand hc m hm).2) _ hds r hr hact⟩

/-- **C81, periodic series.** A daily series whose usable observations repeat every week is continued exactly by the seasonal naive model. -/
theorem C81_periodic [IsStrictOrderedRing K] (w : World K) (args : RunArgs K) (id : String) (t : STable K) (hp : Proper t) (s : String) (hs : IsSeries t id s)
    (hdaily : ∃ r ∈ rowsOf t s, ∃ r' ∈ rowsOf t s, r'.date = r.date + 24 * 60 * 60 * 1000000000)
    (res : RunResult K) (h : runForecast w args id t = .ok (some res))
    (hcand : ∀ df' cand, candidates w.ch args.models df' (runFreq (seriesFrame t s)) = .ok cand → ∀ m ∈ cand.2,
      (m.name = "naive" → m = modelNaive w.srt) ∧ (m.name = "snaive_wday" → m = modelSnaiveWday w.srt))
    (g : Timestamp → K) (hper : ∀ d, g (d + 7 * (24 * 60 * 60 * 1000000000)) = g d)
    (hobs : ∀ a, UsableActual (partOf t s res) a → a.y = some (g a.date)) : ForecastsAre (partOf t s res) "snaive_wday" g := by
  intro r hr hact hm
  obtain ⟨a, ha, hy, hw, -⟩ := (C81_series w args id t hp s hs hdaily res h hcand r hr hact).2 hm
  rw [hy, hobs a ha]
  have key : ∀ (n : Nat) (d : Timestamp), g (d + (n : Int) * (7 * (24 * 60 * 60 * 1000000000))) = g d := by
    intro n d
    induction n with
    | zero => simp
    | succ n ih =>
      rw [← ih, ← hper (d + (n : Int) * (7 * (24 * 60 * 60 * 1000000000)))]
      congr 1
      push_cast
      ring
  obtain ⟨hlt, hmod⟩ := hw
  have e : r.date = a.date + (((r.date - a.date) / (7 * (24 * 60 * 60 * 1000000000))).toNat : Int) * (7 * (24 * 60 * 60 * 1000000000)) := by omega
  rw [e, key]

/-! ### Concrete cases -/

/-- Two daily series, the second latest first, the first one weekly with a gap. -/
def weeklyTable : STable ℚ := ⟨true, true, false, false,
  ((List.range 15).map fun i : Nat => ⟨((i : Int) + 3) * DAY, some "a", 0, if i = 5 then none else some ((i % 7 : Nat) : ℚ), none⟩) ++
  ((List.range 4).map fun i : Nat => ⟨(20 - (i : Int)) * DAY, some "b", 0, some (i : ℚ), none⟩)⟩

example : Proper weeklyTable := ⟨⟨rfl, rfl, by decide +kernel, by decide +kernel⟩, by decide +kernel⟩

example : IsSeries weeklyTable "" "a" ∧ ∃ r ∈ rowsOf weeklyTable "a", ∃ r' ∈ rowsOf weeklyTable "a", r'.date = r.date + 24 * 60 * 60 * 1000000000 := by
  refine ⟨⟨_, List.mem_cons_self, rfl⟩, by decide +kernel⟩

/-- The seasonal naive forecast for the first source goes on with the pattern (day 3 has value 0). -/
example : ((runForecast demoWorld (demoArgs [] (some [modelSnaiveWday stableSort])) "" weeklyTable).toOption.bind id).map (fun r =>
    (((partOf weeklyTable "a" r).data.filter fun q => !q.isActuals && decide (17 * DAY < q.date)).map fun q => (q.date / DAY, q.y)).take 9) =
    some [(18, some 1), (19, some 2), (20, some 3)] := by decide +kernel

end Anticipy
