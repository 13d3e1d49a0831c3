import Verif.Spec.Output
import Verif.Props.RunExamples

/-
C94: asking for more or less output does not change the output.
-/
namespace Anticipy
open Spec
variable {K : Type} [Field K] [LinearOrder K]

/-- The request for all fits is looked at only after the fits. -/
theorem runFits_all [FloorRing K] (w : World K) (args : RunArgs K) (b : Bool) (source : String) (df : Frame K) :
    runFits w { args with includeAll := b } source df = runFits w args source df := rfl

/-- Selecting rows of the best fit twice is selecting them once. -/
theorem selectRows_select (hasDate : Bool) (rows : List (DRow K)) :
    selectRows (toFTable hasDate (rows.filter fun r => r.isBest || r.isActuals)) = selectRows (toFTable hasDate rows) := by
  unfold selectRows toFTable
  simp only [if_true, List.filter_map, List.filter_filter]
  congr 1
  apply List.filter_congr
  intro r _
  simp only [Function.comp]
  cases r.isBest <;> cases r.isActuals <;> rfl

/-- All rows of the fits carry the source label. -/
theorem runFits_source [FloorRing K] (w : World K) (args : RunArgs K) (source : String) (df : Frame K) (d : List (DRow K) × List (MRow K))
    (hd : runFits w args source df = .ok d) : ∀ r ∈ d.1, r.source = source := by
  obtain ⟨st⟩ := runFits_stages w args source df d hd
  have hd1 : d.1 = _ := congrArg Prod.fst st.hd
  intro r hr
  rw [hd1] at hr
  obtain ⟨q, hq, rfl⟩ := List.mem_map.1 hr
  rcases List.mem_append.1 hq with hq | hq
  · unfold actualsClean at hq
    obtain ⟨q', -, rfl⟩ := List.mem_map.1 hq
    rfl
  · obtain ⟨k, m, f, rows, -, -, h3, h4⟩ := (fitLoop_spec _ _ _ _ _ st.hFits).2.2 q hq
    exact (forecastRows_mem _ _ _ _ h3 q h4).2.2.1

/-- One source: the run for the chosen model only is that for all models with the other rows removed. -/
theorem runSingle_chosen [FloorRing K] (w : World K) (args : RunArgs K) (source : String) (df : Frame K) :
    runSingle w { args with includeAll := false } source df = (runSingle w { args with includeAll := true } source df).map chosenOnly := by
  unfold runSingle
  simp only [runFits_all, bind, Except.bind]
  cases hd : runFits w args source df with
  | error e => rfl
  | ok d =>
    have hs := runFits_source w args source df d hd
    simp only [selectFits, if_true, Bool.false_eq_true, if_false]
    rw [getPi_one_source (w.draw source) df.hasDate d.1 source hs,
      getPi_one_source (w.draw source) df.hasDate _ source (fun r hr => hs r (List.mem_filter.1 hr).1)]
    have hpi : piSingle (w.draw source 0) (toFTable df.hasDate (d.1.filter fun r => r.isBest || r.isActuals)) 100
          (args.nCum.getD (daysFromFreq args.widening)) args.q1 args.q2 =
        piSingle (w.draw source 0) (toFTable df.hasDate d.1) 100 (args.nCum.getD (daysFromFreq args.widening)) args.q1 args.q2 := by
      unfold piSingle
      rw [selectRows_select]
      rfl
    rw [hpi]
    cases piSingle (w.draw source 0) (toFTable df.hasDate d.1) 100 (args.nCum.getD (daysFromFreq args.widening)) args.q1 args.q2 with
    | error e => rfl
    | ok f =>
      simp only [Except.map, chosenOnly, Except.ok.injEq, RunResult.mk.injEq, true_and, and_true]
      apply List.filter_congr
      intro r _
      exact Bool.or_comm _ _

theorem chosenOnly_append (a b : RunResult K) : chosenOnly (a.append b) = (chosenOnly a).append (chosenOnly b) := by
  simp [chosenOnly, RunResult.append]

theorem runSources_chosen [FloorRing K] (w : World K) (args : RunArgs K) (t : STable K) (l : List (Option String)) :
    runSources w { args with includeAll := false } t l = (runSources w { args with includeAll := true } t l).map chosenOnly := by
  induction l with
  | nil => rfl
  | cons s l ih =>
    unfold runSources
    rw [ih, runSingle_chosen]
    simp only [bind, Except.bind]
    cases runSingle w { args with includeAll := true } (s.getD "") (frameOf t (sourcePart t.rows s)) with
    | error e => rfl
    | ok r =>
      simp only [Except.map]
      cases runSources w { args with includeAll := true } t l with
      | error e => rfl
      | ok r' => simp only [chosenOnly_append]

/-- **C94** (include_all_fits). A forecast without the other fits is the forecast with them and the rows of the other models removed from `data` and
`metadata`; the table `forecast` is the same, and one call fails exactly if the other does. -/
theorem C94_all_fits [FloorRing K] (w : World K) (args : RunArgs K) (sourceId : String) (t : STable K) :
    runForecast w { args with includeAll := false } sourceId t =
      (runForecast w { args with includeAll := true } sourceId t).map (Option.map chosenOnly) := by
  unfold runForecast
  simp only [bind, Except.bind]
  cases normalizeDf w.srt t with
  | error e => rfl
  | ok o =>
    cases o with
    | none => rfl
    | some t' =>
      dsimp only
      by_cases hs : t'.hasSource = true
      · rw [if_pos hs, if_pos hs]
        by_cases he : t'.rows = []
        · rw [if_pos he, if_pos he]
          rfl
        · rw [if_neg he, if_neg he, runSources_chosen]
          cases runSources w { args with includeAll := true } t' (dedupBy (fun s : Option String => s) (t'.rows.map SRow.source)) <;> rfl
      · rw [if_neg hs, if_neg hs, runSingle_chosen]
        cases runSingle w { args with includeAll := true } sourceId (frameOf t' t'.rows) <;> rfl

/-- **C94** (simplify_output). The short form of the output is the table `forecast` of the long form, for tables with and without sources; one call
fails exactly if the other does. -/
theorem C94_simplify [FloorRing K] (w : World K) (args : RunArgs K) (sourceId : String) (t : STable K) :
    runForecastOut w args true sourceId t = (runForecastOut w args false sourceId t).map (Option.map forecastOnly) := by
  unfold runForecastOut
  simp only [bind, Except.bind]
  cases normalizeDf w.srt t with
  | error e => rfl
  | ok o =>
    cases o with
    | none => rfl
    | some t' =>
      dsimp only
      by_cases hs : t'.hasSource = true
      · rw [if_pos hs, if_pos hs]
        by_cases he : t'.rows = []
        · rw [if_pos he, if_pos he]
          rfl
        · rw [if_neg he, if_neg he]
          cases outSources w args t' (dedupBy (fun s : Option String => s) (t'.rows.map SRow.source)) <;> rfl
      · rw [if_neg hs, if_neg hs]
        unfold runSingleOut
        simp only [bind, Except.bind]
        cases runSingle w args sourceId (frameOf t' t'.rows) with
        | error e => rfl
        | ok r =>
          dsimp only
          cases runInfo w args sourceId (frameOf t' t'.rows) <;> rfl

/-- The report of the optimiser follows the metadata rows of the loop. -/
theorem infoLoop_eq [FloorRing K] (env : Nat → Env K) (s : FitSetup K) (i : Nat) (l : List (ForecastModel K)) (out : List (MRow K) × List (DRow K))
    (h : fitLoop env s i l = .ok out) : infoLoop env s i l = .ok (out.1.map reportOf) := by
  induction l generalizing i out with
  | nil =>
    unfold fitLoop at h
    cases h
    rfl
  | cons m l ih =>
    unfold fitLoop at h
    unfold infoLoop
    simp only [bind, Except.bind] at h ⊢
    cases h1 : fitModel (env i) m s.used (some s.actuals) s.useCache with
    | error e => rw [h1] at h; cases h
    | ok f =>
      rw [h1] at h
      dsimp only at h ⊢
      cases h2 : forecastRows s m f with
      | error e => rw [h2] at h; cases h
      | ok rows =>
        rw [h2] at h
        dsimp only at h
        cases h3 : fitLoop env s (i + 1) l with
        | error e => rw [h3] at h; cases h
        | ok r =>
          rw [h3] at h
          cases h
          rw [ih (i + 1) r h3]
          rfl

theorem runInfo_eq [FloorRing K] (w : World K) (args : RunArgs K) (source : String) (df : Frame K) (d : List (DRow K) × List (MRow K))
    (hd : runFits w args source df = .ok d) : runInfo w args source df = .ok (d.2.map reportOf) := by
  obtain ⟨st⟩ := runFits_stages w args source df d hd
  have hd2 : d.2 = _ := congrArg Prod.snd st.hd
  unfold runInfo
  simp only [bind, Except.bind]
  rw [st.hOut]
  dsimp only
  rw [st.hCand]
  dsimp only
  rw [st.hAct]
  dsimp only
  rw [infoLoop_eq _ _ _ _ _ st.hFits, hd2, List.map_map]
  rfl

theorem runSingleOut_eq [FloorRing K] (w : World K) (args : RunArgs K) (b : Bool) (source : String) (df : Frame K) :
    runSingleOut w { args with includeAll := b } false source df =
      (runSingle w { args with includeAll := true } source df).map fun r => .dict (withReport b r) := by
  have h0 : runSingle w { args with includeAll := b } source df =
      (runSingle w { args with includeAll := true } source df).map fun r => if b then r else chosenOnly r := by
    cases b with
    | true =>
      simp only [if_true]
      cases runSingle w { args with includeAll := true } source df <;> rfl
    | false =>
      rw [runSingle_chosen]
      rfl
  unfold runSingleOut
  rw [h0]
  cases hr : runSingle w { args with includeAll := true } source df with
  | error e => rfl
  | ok r =>
    obtain ⟨d, hd, -, hm, -⟩ := runSingle_inv w _ source df r hr
    have hm' : r.metadata = d.2 := hm
    simp only [Except.map, bind, Except.bind]
    have hi : runInfo w { args with includeAll := b } source df = .ok (d.2.map reportOf) := runInfo_eq w { args with includeAll := b } source df d hd
    rw [hi]
    simp only [Bool.false_eq_true, if_false, withReport, hm']

theorem outSources_eq [FloorRing K] (w : World K) (args : RunArgs K) (b : Bool) (t : STable K) (l : List (Option String)) :
    outSources w { args with includeAll := b } t l = (runSources w { args with includeAll := true } t l).map (withReport b) := by
  induction l with
  | nil =>
    cases b <;> rfl
  | cons s l ih =>
    unfold outSources runSources
    rw [ih, runSingleOut_eq]
    simp only [bind, Except.bind]
    cases runSingle w { args with includeAll := true } (s.getD "") (frameOf t (sourcePart t.rows s)) with
    | error e => rfl
    | ok r =>
      simp only [Except.map, Output.entries]
      cases runSources w { args with includeAll := true } t l with
      | error e => rfl
      | ok r' =>
        cases b
        · simp [withReport, chosenOnly_append]
          simp [RunResult.append]
        · simp [withReport, RunResult.append]

/-- **C94** (optimize_info). The long form of the output consists of the tables of the other theorems and a report with one row for every model that was
tried, chosen or not, in the order of the metadata and with the same outcome, cost and parameters. -/
theorem C94_report [FloorRing K] (w : World K) (args : RunArgs K) (sourceId : String) (t : STable K) :
    runForecastOut w args false sourceId t =
      (runForecast w { args with includeAll := true } sourceId t).map (Option.map fun r => .dict (withReport args.includeAll r)) := by
  have hargs : args = { args with includeAll := args.includeAll } := rfl
  unfold runForecastOut runForecast
  simp only [bind, Except.bind]
  cases normalizeDf w.srt t with
  | error e => rfl
  | ok o =>
    cases o with
    | none => rfl
    | some t' =>
      dsimp only
      by_cases hs : t'.hasSource = true
      · rw [if_pos hs, if_pos hs]
        by_cases he : t'.rows = []
        · rw [if_pos he, if_pos he]
          rfl
        · rw [if_neg he, if_neg he, hargs, outSources_eq]
          cases runSources w { args with includeAll := true } t' (dedupBy (fun s : Option String => s) (t'.rows.map SRow.source)) <;> rfl
      · rw [if_neg hs, if_neg hs, hargs, runSingleOut_eq]
        cases runSingle w { args with includeAll := true } sourceId (frameOf t' t'.rows) <;> rfl

/-- Two sources, two models each: with all fits the metadata has four rows, without them two; the report always has four and the forecasts agree. -/
example :
    let long (b : Bool) : Option (Nat × List (String × Bool) × List (Timestamp × Option ℚ)) := match runForecastOut demoWorld { demoArgs [modelLinear, modelConstant] (some []) with includeAll := b } false "" demoTable with
      | .ok (some (.dict r)) => some (r.tables.metadata.length, r.info.map (fun i => (i.source, i.success)), r.tables.forecast.map fun p => (p.date, p.y))
      | _ => none
    let short (b : Bool) : Option (List (Timestamp × Option ℚ)) := match runForecastOut demoWorld { demoArgs [modelLinear, modelConstant] (some []) with includeAll := b } true "" demoTable with
      | .ok (some (.table f)) => some (f.map fun p => (p.date, p.y))
      | _ => none
    (long true).map (fun r => (r.1, r.2.1)) = some (4, [("a", true), ("a", true), ("b", true), ("b", true)]) ∧
    (long false).map (fun r => (r.1, r.2.1)) = some (2, [("a", true), ("a", true), ("b", true), ("b", true)]) ∧
    (long true).map (fun r => r.2.2) = short false ∧ short true = short false ∧ (short true).map List.length ≠ some 0 := by
  decide +kernel

end Anticipy
