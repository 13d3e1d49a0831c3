import Verif.Spec.AppRun
import Verif.Props.App
import Verif.Props.Plot
import Verif.Props.Columns
import Verif.Props.Sources
import Verif.Props.RunExamples
import Mathlib.Data.List.Perm.Basic

/-
C78 (the command line app gives the result of the library and shows every observation), C79 (one forecast line per source).
-/
namespace Anticipy
open Spec

/-! ### Options -/

theorem optionValue_some (given : List (String × String)) (name v : String) : optionValue given name = some v ↔ Chosen given name v := by
  unfold optionValue Chosen
  constructor
  · intro h
    rw [Option.map_eq_some_iff] at h
    obtain ⟨p, hp, rfl⟩ := h
    induction given with
    | nil => simp at hp
    | cons q l ih =>
      by_cases hl : l.filter (fun p => decide (p.1 = name)) = []
      · rw [List.filter_cons] at hp
        split_ifs at hp with hq
        · rw [hl] at hp
          simp only [List.getLast?_singleton, Option.some.injEq] at hp
          subst hp
          refine ⟨[], l, ?_, ?_⟩
          · have : q.1 = name := of_decide_eq_true hq
            simp [← this]
          · intro p hp
            have := List.filter_eq_nil_iff.1 hl p hp
            simpa using this
        · rw [hl] at hp; cases hp
      · have : (l.filter (fun p => decide (p.1 = name))).getLast? = some p := by
          rw [List.filter_cons] at hp
          split_ifs at hp with hq
          · rwa [List.getLast?_cons_of_ne_nil hl] at hp
          · exact hp
        obtain ⟨b, a, e, ha⟩ := ih this
        exact ⟨q :: b, a, by simp [e], ha⟩
  · rintro ⟨b, a, rfl, ha⟩
    have : a.filter (fun p => decide (p.1 = name)) = [] := List.filter_eq_nil_iff.2 fun p hp => by simpa using ha p hp
    simp [List.filter_append, List.filter_cons, this]

theorem optionValue_none (given : List (String × String)) (name : String) : optionValue given name = none ↔ ∀ p ∈ given, p.1 ≠ name := by
  unfold optionValue
  rw [Option.map_eq_none_iff, List.getLast?_eq_none_iff, List.filter_eq_nil_iff]
  simp

theorem optionValue_getD (given : List (String × String)) (name dflt : String) : OptionIs given name dflt ((optionValue given name).getD dflt) := by
  cases h : optionValue given name with
  | none => exact .inr ⟨(optionValue_none given name).1 h, rfl⟩
  | some v => exact .inl ((optionValue_some given name v).1 h)

/-- **C78, options.** Every option of the command line reaches its role: the values are the last ones given, or the documented defaults. -/
theorem C78_options (toYears : String → Res ℚ) (given : List (String × String)) (all : Bool) (a : AppArgs) (h : mainArgs toYears given all = .ok a) :
    OptionIs given "--col_name_y" "y" a.cols.y ∧ OptionIs given "--col_name_date" "date" a.cols.date ∧
    OptionIs given "--col_name_weight" "weight" a.cols.weight ∧ OptionIs given "--col_name_source" "source" a.cols.source ∧
    OptionIs given "--col_name_x" "x" a.cols.x ∧ OptionIs given "--output_format" "png" a.format ∧ a.includeAll = all ∧
    (∀ p, a.pathIn = some p ↔ Chosen given "--path_in" (String.ofList p)) ∧
    (∀ p, a.pathOut = some p ↔ Chosen given "--path_out" (String.ofList p)) ∧
    ((∃ s, Chosen given "--forecast_years" s ∧ toYears s = .ok a.years) ∨ ((∀ p ∈ given, p.1 ≠ "--forecast_years") ∧ a.years = 2)) := by
  unfold mainArgs mainCall at h
  simp only [Bind.bind, Except.bind] at h
  cases hy : yearsOption toYears given with
  | error e => rw [hy] at h; cases h
  | ok y =>
    rw [hy] at h
    cases h
    have hpath : ∀ name (p : Path), (optionValue given name).map String.toList = some p ↔ Chosen given name (String.ofList p) := by
      intro name p
      rw [← optionValue_some, Option.map_eq_some_iff]
      constructor
      · rintro ⟨s, hs, rfl⟩; simpa using hs
      · intro hs; exact ⟨_, hs, by simp⟩
    refine ⟨optionValue_getD .., optionValue_getD .., optionValue_getD .., optionValue_getD .., optionValue_getD .., optionValue_getD .., rfl,
      hpath _, hpath _, ?_⟩
    unfold yearsOption at hy
    cases ho : optionValue given "--forecast_years" with
    | none =>
      rw [ho] at hy
      cases hy
      exact .inr ⟨(optionValue_none _ _).1 ho, rfl⟩
    | some s =>
      rw [ho] at hy
      exact .inl ⟨s, (optionValue_some _ _ _).1 ho, hy⟩

/-- The call of the app that is quoted in its source, with two of the columns renamed; the first number of years is overridden. -/
example : mainArgs (fun s => if s = "0.5" then .ok (1 / 2) else .ok 7)
    [("--path_in", "/data/file1.csv"), ("--forecast_years", "7"), ("--col_name_y", "occup"), ("--col_name_source", "bend"), ("--forecast_years", "0.5")] false =
    .ok ⟨some "/data/file1.csv".toList, none, 1 / 2, ⟨"occup", "weight", "x", "date", "bend"⟩, false, "png"⟩ := by decide +kernel

/-! ### All samples appear -/
section
variable {V K : Type} [Field K] [LinearOrder K]

omit [Field K] [LinearOrder K] in
theorem parts_perm (labels : List String) (hn : labels.Nodup) (rows : List (SRow K)) (hr : ∀ r ∈ rows, ∃ s ∈ labels, r.source = some s) :
    (labels.flatMap fun s => sourcePart rows (some s)).Perm rows := by
  induction labels generalizing rows with
  | nil =>
    cases rows with
    | nil => simp
    | cons r l => obtain ⟨s, hs, -⟩ := hr r (by simp); cases hs
  | cons s labels ih =>
    rw [List.nodup_cons] at hn
    let p : SRow K → Bool := fun r => decide (r.source = some s)
    have h1 := ih hn.2 (rows.filter fun r => !p r) (by
      intro r hr'
      obtain ⟨hr1, hr2⟩ := List.mem_filter.1 hr'
      obtain ⟨s', hs', e⟩ := hr r hr1
      rcases List.mem_cons.1 hs' with rfl | hs'
      · simp [p, e] at hr2
      · exact ⟨s', hs', e⟩)
    have h2 : (labels.flatMap fun s' => sourcePart (rows.filter fun r => !p r) (some s')) = labels.flatMap fun s' => sourcePart rows (some s') := by
      rw [List.flatMap_def, List.flatMap_def]
      congr 1
      apply List.map_congr_left
      intro s' hs'
      unfold sourcePart
      rw [List.filter_filter]
      apply List.filter_congr
      intro r _
      have : s' ≠ s := fun e => hn.1 (e ▸ hs')
      by_cases e : r.source = some s'
      · simp [p, e, this]
      · simp [e]
    rw [List.flatMap_cons, ← h2]
    have h3 : sourcePart rows (some s) = rows.filter p := by unfold sourcePart; simp [p]
    rw [h3]
    exact (List.Perm.append_left _ h1).trans (List.filter_append_perm p rows)

omit [Field K] [LinearOrder K] in
/-- Normalization keeps the observations. -/
theorem observations_normalized (srt : SortAlg) (id : String) (t t' : STable K) (hpos : t.hasDate = true ∨ t.hasX = true)
    (hn : normalizeDf srt t = .ok (some t')) :
    (t'.rows.map fun r => (if t.hasSource then r.source.getD "" else id, samplePosition t' r, r.y)).Perm (labelledObservations id t) := by
  obtain ⟨hp1, hp2, -, hd, -, -⟩ := C26_samples srt t t' hn
  by_cases hdate : t.hasDate = true
  · have := hp1.map fun p : Int × Option String × Option K × Option K => (if t.hasSource then p.2.1.getD "" else id, p.1, p.2.2.1)
    unfold samples at this
    rw [List.map_map, List.map_map] at this
    have e1 : ∀ r : SRow K, samplePosition t' r = r.date := fun r => by unfold samplePosition; rw [hd, if_pos hdate]
    have e2 : ∀ r : SRow K, samplePosition t r = r.date := fun r => by unfold samplePosition; rw [if_pos hdate]
    unfold labelledObservations
    simp only [e1, e2]
    refine this.trans (List.Perm.of_eq ?_)
    unfold labelled
    cases hb : t.hasSource <;> simp [Function.comp_def]
  · have hx := hpos.resolve_left hdate
    have := (hp2 hx).map fun r => (if t.hasSource then r.source.getD "" else id, r.x, r.y)
    have e1 : ∀ r : SRow K, samplePosition t' r = r.x := fun r => by unfold samplePosition; rw [hd, if_neg hdate]
    have e2 : ∀ r : SRow K, samplePosition t r = r.x := fun r => by unfold samplePosition; rw [if_neg hdate]
    unfold labelledObservations
    simp only [e1, e2]
    refine this.trans (List.Perm.of_eq ?_)
    unfold labelled
    cases hb : t.hasSource <;> simp

variable [FloorRing K] [IsStrictOrderedRing K]

/-- The samples in the result of one series. -/
theorem single_observations (w : World K) (args : RunArgs K) (hst : args.start = none) (source : String) (t : STable K) (rows : List (SRow K))
    (res : RunResult K) (h : runSingle w args source (frameOf t rows) = .ok res) :
    (res.data.filter DRow.isActuals).map (fun r => (r.source, r.date, r.y)) = rows.map fun r => (source, samplePosition t r, r.y) := by
  have h1 := C48_actuals w args source (frameOf t rows) res h
  have h2 := (run_sources w args source _ res h).1
  have h3 : (res.data.filter DRow.isActuals).map (fun r => (r.source, r.date, r.y)) =
      ((res.data.filter DRow.isActuals).map fun r => (r.date, r.y)).map fun p => (source, p.1, p.2) := by
    rw [List.map_map]
    apply List.map_congr_left
    intro r hr
    simp [h2 r (List.mem_filter.1 hr).1]
  rw [h3, h1, List.map_map]
  have h4 : kept args.start (frameOf t rows) = rows.map fun r => ⟨r.date, r.x, r.y, r.weight⟩ := by
    unfold kept
    rw [hst]
    simp [frameOf]
  rw [h4, List.map_map]
  rfl

/-- **C78, samples.** Whenever a table can be forecast, its observations appear in the result as rows of actuals, each exactly once, under the label of
its source. (The table has dates or x; otherwise the position of a sample is the number of its row. Without a starting date.) -/
theorem C78_samples (w : World K) (args : RunArgs K) (hst : args.start = none) (id : String) (t : STable K) (hpos : t.hasDate = true ∨ t.hasX = true)
    (res : RunResult K) (h : runForecast w args id t = .ok (some res)) :
    ((res.data.filter DRow.isActuals).map fun r => (r.source, r.date, r.y)).Perm (labelledObservations id t) := by
  unfold runForecast at h
  cases hn : normalizeDf w.srt t with
  | error e => rw [hn] at h; cases h
  | ok o =>
    cases o with
    | none => rw [hn] at h; cases h
    | some t' =>
      rw [hn] at h
      obtain ⟨-, -, -, -, hs, -⟩ := C26_samples w.srt t t' hn
      have hobs := observations_normalized w.srt id t t' hpos hn
      refine List.Perm.trans ?_ hobs
      simp only [bind, Except.bind] at h
      cases hb : t.hasSource with
      | false =>
        rw [hs, hb] at h
        simp only [Bool.false_eq_true, if_false] at h
        cases hr : runSingle w args id (frameOf t' t'.rows) with
        | error e => rw [hr] at h; cases h
        | ok r =>
          rw [hr] at h
          cases h
          rw [single_observations w args hst id t' t'.rows res hr]
          simp
      | true =>
        rw [hs, hb] at h
        simp only [if_true] at h
        split_ifs at h
        obtain ⟨labels, hl, hsorted, hmem⟩ := labels_sorted w.srt t t' hb hn
        rw [hl] at h
        cases hr : runSources w args t' (labels.map some) with
        | error e => rw [hr] at h; cases h
        | ok r =>
          rw [hr] at h
          cases h
          obtain ⟨parts, hf, rfl⟩ := (runSources_inv w args t' _ res).1 hr
          rw [List.forall₂_map_left_iff] at hf
          have hnd : labels.Nodup := hsorted.imp fun h => ne_of_lt h
          have hin : ∀ r ∈ t'.rows, ∃ s ∈ labels, r.source = some s := by
            intro r hr'
            have h1 : r.source ∈ dedupBy (fun s : Option String => s) (t'.rows.map SRow.source) := (mem_dedup _ _).2 (List.mem_map.2 ⟨r, hr', rfl⟩)
            rw [hl] at h1
            obtain ⟨s, hs', e⟩ := List.mem_map.1 h1
            exact ⟨s, hs', e.symm⟩
          have hperm := (parts_perm labels hnd t'.rows hin).map fun r => (if true = true then r.source.getD "" else id, samplePosition t' r, r.y)
          refine List.Perm.trans (List.Perm.of_eq ?_) hperm
          clear hperm hin hnd hr hl hsorted hmem
          induction hf with
          | nil => rfl
          | cons h1 h2 ih =>
            rename_i s part labels parts
            dsimp only at ih ⊢
            simp only [List.flatMap_cons, List.filter_append, List.map_append]
            rw [ih, single_observations w args hst s t' _ part h1]
            congr 1
            apply List.map_congr_left
            intro r hr'
            have := (of_decide_eq_true (List.mem_filter.1 hr').2).1
            simp [this]

/-! ### The app and the library -/

/-- What a successful run of the app consists of. -/
theorem appRun_inv (w : World K) (conv : Conv V K) (libs : PlotLibs) (fs : FileSystem) (csv : Path → RawTable V) (a : AppArgs) (f : AppFiles K) :
    appRun w conv libs fs csv a = .ok f ↔ ∃ paths s r, appPaths fs a.pathIn a.pathOut = .ok paths ∧
      parseDates conv a.cols.date (csv (a.pathIn.getD [])) = .ok () ∧
      normalizeRaw w.srt conv a.cols (csv (a.pathIn.getD [])) = .ok (some s) ∧ runForecast w (runDefaults a.years a.includeAll) "src" s = .ok (some r) ∧
      f = ⟨(paths.data, r.data), (paths.metadata, r.metadata), appPlot libs r.data a.format paths.plot⟩ := by
  unfold appRun
  simp only [Bind.bind, Except.bind]
  constructor
  · intro h
    cases h1 : appPaths fs a.pathIn a.pathOut with
    | error e => rw [h1] at h; cases h
    | ok paths =>
      rw [h1] at h
      dsimp only at h
      cases h2 : parseDates conv a.cols.date (csv (a.pathIn.getD [])) with
      | error e => rw [h2] at h; cases h
      | ok u =>
        rw [h2] at h
        dsimp only at h
        cases h3 : normalizeRaw w.srt conv a.cols (csv (a.pathIn.getD [])) with
        | error e => rw [h3] at h; cases h
        | ok o =>
          rw [h3] at h
          cases o with
          | none => cases h
          | some s =>
            dsimp only at h
            cases h4 : runForecast w (runDefaults a.years a.includeAll) "src" s with
            | error e => rw [h4] at h; cases h
            | ok o =>
              rw [h4] at h
              cases o with
              | none => cases h
              | some r =>
                cases h
                exact ⟨paths, s, r, rfl, rfl, rfl, h4, rfl⟩
  · rintro ⟨paths, s, r, h1, h2, h3, h4, rfl⟩
    rw [h1, h2, h3]
    dsimp only
    rw [h4]

/-- A table that has been normalized already gives the same forecast. -/
theorem runForecast_normalized (w : World K) (args : RunArgs K) (id : String) (t t' : STable K) (hn : normalizeDf w.srt t = .ok (some t'))
    (hx : t'.hasSource = true ∨ (t'.rows.map SRow.x).Nodup) (hne : t'.rows ≠ []) : runForecast w args id t' = runForecast w args id t := by
  have hs := (C26_samples w.srt t t' hn).2.2.2.2.1
  have hn' : normalizeDf w.srt t' = .ok (some t') := by
    cases hb : t.hasSource with
    | true => exact C27_idempotent_sources w.srt w.srt t t' hb hn hne
    | false =>
      obtain ⟨o, ho, -, -, he⟩ := C27_idempotent w.srt w.srt t t' hb hn
      rw [he (hx.resolve_left (by rw [hs, hb]; simp))] at ho
      exact ho
  unfold runForecast
  rw [hn, hn']

/-- The order of the rows of the normalized table is determined: there are sources, or x is different for all rows. -/
def Spec.DefiniteOrder (srt : SortAlg) (conv : Conv V K) (a : ColNames) (t : RawTable V) : Prop :=
  ∀ s, normalizeRaw srt conv a t = .ok (some s) → s.hasSource = true ∨ (s.rows.map SRow.x).Nodup

omit [Field K] [FloorRing K] [IsStrictOrderedRing K] [LinearOrder K] in
theorem normalizeRaw_inv (srt : SortAlg) (conv : Conv V K) (a : ColNames) (t : RawTable V) (s : STable K) (h : normalizeRaw srt conv a t = .ok (some s)) :
    ∃ s0, standardise conv a t = .ok (some s0) ∧ normalizeDf srt s0 = .ok (some s) := by
  unfold normalizeRaw at h
  simp only [Bind.bind, Except.bind] at h
  cases h0 : standardise conv a t with
  | error e => rw [h0] at h; cases h
  | ok o =>
    rw [h0] at h
    cases o with
    | none => cases h
    | some s0 => exact ⟨s0, rfl, h⟩

/-- **C78, result.** The files hold what `run_forecast` returns for the table in the input file, with the column names, the years and the choice of fits
given to the app, and the defaults of the library for everything else. -/
theorem C78_result (w : World K) (conv : Conv V K) (libs : PlotLibs) (fs : FileSystem) (csv : Path → RawTable V) (a : AppArgs) (f : AppFiles K)
    (hu : DefiniteOrder w.srt conv a.cols (csv (a.pathIn.getD []))) (h : appRun w conv libs fs csv a = .ok f) :
    ∃ paths r, appPaths fs a.pathIn a.pathOut = .ok paths ∧
      runForecastRaw w conv (plainArgs a.years a.includeAll) "src" a.cols (csv (a.pathIn.getD [])) = .ok (some r) ∧
      f.data = (paths.data, r.data) ∧ f.metadata = (paths.metadata, r.metadata) := by
  obtain ⟨paths, s, r, h1, h2, h3, h4, rfl⟩ := (appRun_inv w conv libs fs csv a f).1 h
  refine ⟨paths, r, h1, ?_, rfl, rfl⟩
  obtain ⟨s0, k1, k2⟩ := normalizeRaw_inv _ _ _ _ _ h3
  have hne : s.rows ≠ [] := by
    intro hc
    unfold runForecast normalizeDf at h4
    rw [if_pos hc] at h4
    cases h4
  unfold runForecastRaw
  rw [k1]
  rw [runForecast_normalized w _ _ s0 s k2 (hu s h3) hne] at h4
  exact h4

/-- **C78, success.** If the paths are valid, the dates can be read and `run_forecast` gives a result, then the app writes it. -/
theorem C78_succeeds (w : World K) (conv : Conv V K) (libs : PlotLibs) (fs : FileSystem) (csv : Path → RawTable V) (a : AppArgs) (paths : AppPaths)
    (r : RunResult K) (hu : DefiniteOrder w.srt conv a.cols (csv (a.pathIn.getD []))) (hp : appPaths fs a.pathIn a.pathOut = .ok paths)
    (hd : ∀ c ∈ (csv (a.pathIn.getD [])).cols, c.1 = a.cols.date → ∃ l, c.2.mapM conv.toDate = .ok l)
    (h : runForecastRaw w conv (plainArgs a.years a.includeAll) "src" a.cols (csv (a.pathIn.getD [])) = .ok (some r)) :
    ∃ plot, appRun w conv libs fs csv a = .ok ⟨(paths.data, r.data), (paths.metadata, r.metadata), plot⟩ := by
  refine ⟨appPlot libs r.data a.format paths.plot, (appRun_inv w conv libs fs csv a _).2 ?_⟩
  unfold runForecastRaw at h
  simp only [Bind.bind, Except.bind] at h
  cases h0 : standardise conv a.cols (csv (a.pathIn.getD [])) with
  | error e => rw [h0] at h; cases h
  | ok o =>
    rw [h0] at h
    cases o with
    | none => cases h
    | some s0 =>
      dsimp only at h
      cases hn : normalizeDf w.srt s0 with
      | error e => unfold runForecast at h; rw [hn] at h; cases h
      | ok o =>
        cases o with
        | none => unfold runForecast at h; rw [hn] at h; cases h
        | some s =>
          have h3 : normalizeRaw w.srt conv a.cols (csv (a.pathIn.getD [])) = .ok (some s) := by
            unfold normalizeRaw
            rw [h0]
            exact hn
          have hne : s.rows ≠ [] := by
            intro hc
            cases hb : s.hasSource with
            | true =>
              unfold runForecast at h
              rw [hn] at h
              simp only [Bind.bind, Except.bind, hb, if_true] at h
              rw [if_pos hc] at h
              cases h
            | false =>
              have hb0 : s0.hasSource = false := ((C26_samples w.srt s0 s hn).2.2.2.2.1).symm.trans hb
              have := (C26_samples w.srt s0 s hn).1
              rw [hc, hb0] at this
              have h5 := this.length_eq
              simp only [samples, labelled, Bool.not_false, Bool.true_or, List.length_map, List.filter_true, List.length_nil] at h5
              unfold runForecast normalizeDf at h
              rw [if_pos (List.length_eq_zero_iff.1 h5.symm)] at h
              cases h
          refine ⟨paths, s, r, hp, ?_, h3, ?_, rfl⟩
          · unfold parseDates colOf
            cases hc : (csv (a.pathIn.getD [])).cols.find? fun c => decide (c.1 = a.cols.date) with
            | none => rfl
            | some c =>
              obtain ⟨l, hl⟩ := hd c (List.mem_of_find?_eq_some hc) (by simpa using List.find?_some hc)
              simp only [Option.map_some, hl, Bind.bind, Except.bind]
          · rw [runForecast_normalized w _ _ s0 s hn (hu s h3) hne]
            exact h

/-- **C78, unreadable dates.** If a date can not be parsed the app ends with the exception of the parser, whatever else is wrong with the file, and writes nothing. -/
theorem C78_unreadable (w : World K) (conv : Conv V K) (libs : PlotLibs) (fs : FileSystem) (csv : Path → RawTable V) (a : AppArgs) (paths : AppPaths)
    (hp : appPaths fs a.pathIn a.pathOut = .ok paths) (c : List V) (hc : (a.cols.date, c) ∈ (csv (a.pathIn.getD [])).cols)
    (hn : ((csv (a.pathIn.getD [])).cols.map Prod.fst).Nodup) (e : Err) (he : c.mapM conv.toDate = .error e) : appRun w conv libs fs csv a = .error e := by
  unfold appRun parseDates
  have hcol := colOf_mem _ hn _ c hc
  simp only [hp, hcol, Bind.bind, Except.bind, he]

omit [LinearOrder K] [FloorRing K] [IsStrictOrderedRing K] in
/-- **C78, failed plots.** A failed assertion while plotting does not end the app; any other exception does, after the tables have been written. -/
theorem C78_plot_failure (libs : PlotLibs) (data : List (DRow K)) (format : String) (path : Path) (e : Err)
    (he : plotForecast libs true (data.map plotRowOf) format (some (String.ofList path)) = .error e) :
    (e = .assertionError → appPlot libs data format path = .ok (.code 1, .nothing)) ∧ (e ≠ .assertionError → appPlot libs data format path = .error e) := by
  unfold appPlot
  rw [he]
  constructor
  · rintro rfl
    rfl
  · intro hne
    cases e <;> first | rfl | exact absurd rfl hne

/-- Predictions of two sources without observations. -/
example (l : SourceLong ℚ) : plotForecast ⟨true, true, true⟩ true (([⟨0, "a", l, "m", false, some 1, none, true⟩, ⟨0, "b", l, "m", false, some 1, none, true⟩] : List (DRow ℚ)).map plotRowOf)
    "png" (some (String.ofList ['p'])) = .error .zeroDivisionError := by
  simp only [List.map_cons, List.map_nil, plotRowOf]
  decide +kernel

/-- **C78, observations.** Every observation of the input file appears exactly once among the actuals in the data file, with its label, date and value.
(The file has a date or an x column; `s0` is the table under the standard column names, see C66.) -/
theorem C78_observations (w : World K) (conv : Conv V K) (libs : PlotLibs) (fs : FileSystem) (csv : Path → RawTable V) (a : AppArgs) (f : AppFiles K)
    (h : appRun w conv libs fs csv a = .ok f) (s0 : STable K) (h0 : standardise conv a.cols (csv (a.pathIn.getD [])) = .ok (some s0))
    (hpos : s0.hasDate = true ∨ s0.hasX = true) :
    ((f.data.2.filter DRow.isActuals).map fun r => (r.source, r.date, r.y)).Perm (labelledObservations "src" s0) := by
  obtain ⟨paths, s, r, h1, h2, h3, h4, rfl⟩ := (appRun_inv w conv libs fs csv a f).1 h
  obtain ⟨s0', k1, k2⟩ := normalizeRaw_inv _ _ _ _ _ h3
  rw [h0] at k1
  cases k1
  obtain ⟨-, -, hx, -, hs, -⟩ := C26_samples w.srt s0 s k2
  have h5 := C78_samples w _ rfl "src" s (.inr hx) r h4
  refine h5.trans ?_
  have hlab : ∀ q ∈ s.rows, s0.hasSource = true → q.source ≠ none := fun q hq hb => (normalize_sorted_source w.srt s0 s hb k2).2 q hq
  have e0 : labelledObservations "src" s = s.rows.map fun q => (if s0.hasSource then q.source.getD "" else "src", samplePosition s q, q.y) := by
    unfold labelledObservations
    rw [hs, List.filter_eq_self.2]
    intro q hq
    cases hb : s0.hasSource with
    | false => rfl
    | true => simpa [Option.isSome_iff_ne_none] using hlab q hq hb
  rw [e0]
  exact observations_normalized w.srt "src" s0 s hpos k2

/-! ### The plot -/

omit [Field K] [LinearOrder K] [FloorRing K] [IsStrictOrderedRing K] in
/-- A plot file shows the panels of the layout. -/
theorem plot_file_inv (libs : PlotLibs) (rows : List (PlotRow K)) (output : String) (path : Option String) (c : PlotReturn) (p : String)
    (panels : List (Panel K)) (h : plotForecast libs true rows output path = .ok (c, .file p panels)) :
    ∃ subplots sources nrows ncols hidden, plotLayout true rows = .ok (subplots, sources, nrows, ncols) ∧
      createPlot (decide (output = "png")) subplots sources nrows ncols rows = .ok (panels, hidden) := by
  unfold plotForecast at h
  simp only [Bind.bind, Except.bind] at h
  cases hl : plotLayout true rows with
  | error e =>
    rw [hl] at h
    split_ifs at h <;> cases h
  | ok l =>
    obtain ⟨subplots, sources, nrows, ncols⟩ := l
    rw [hl] at h
    dsimp only at h
    refine ⟨subplots, sources, nrows, ncols, ?_⟩
    by_cases hpng : output = "png"
    · rw [if_pos hpng] at h
      cases hc : createPlot true subplots sources nrows ncols rows with
      | error e => rw [hc] at h; split_ifs at h <;> cases h
      | ok q =>
        rw [hc] at h
        split_ifs at h <;> cases h
        exact ⟨q.2, rfl, by rw [decide_eq_true hpng, hc]⟩
    · rw [if_neg hpng] at h
      cases hc : createPlot false subplots sources nrows ncols rows with
      | error e => rw [hc] at h; split_ifs at h <;> cases h
      | ok q =>
        rw [hc] at h
        split_ifs at h <;> cases h
        exact ⟨q.2, rfl, by rw [decide_eq_false hpng, hc]⟩

omit [Field K] [LinearOrder K] [FloorRing K] [IsStrictOrderedRing K] in
theorem forall₂_left {α β : Type} {R : α → β → Prop} {l : List α} {l' : List β} (h : List.Forall₂ R l l') (b : β) (hb : b ∈ l') : ∃ a ∈ l, R a b := by
  induction h with
  | nil => cases hb
  | cons h1 h2 ih =>
    rcases List.mem_cons.1 hb with rfl | hb
    · exact ⟨_, by simp, h1⟩
    · obtain ⟨a, ha, hR⟩ := ih hb
      exact ⟨a, by simp [ha], hR⟩

/-- Every row of the result comes from the forecast of the series with its label. -/
theorem row_part (w : World K) (args : RunArgs K) (id : String) (t : STable K) (res : RunResult K) (h : runForecast w args id t = .ok (some res)) :
    ∃ df : String → Frame K, ∀ r ∈ res.data, ∃ part, runSingle w args r.source (df r.source) = .ok part ∧ r ∈ part.data := by
  unfold runForecast at h
  cases hn : normalizeDf w.srt t with
  | error e => rw [hn] at h; cases h
  | ok o =>
    cases o with
    | none => rw [hn] at h; cases h
    | some t' =>
      rw [hn] at h
      simp only [bind, Except.bind] at h
      split_ifs at h with hb hne
      · cases hrun : runSources w args t' (dedupBy (fun s : Option String => s) (t'.rows.map SRow.source)) with
        | error e => rw [hrun] at h; cases h
        | ok q =>
          rw [hrun] at h
          cases h
          obtain ⟨parts, hp, rfl⟩ := (runSources_inv w args t' _ res).1 hrun
          obtain ⟨labels, hl, -, -⟩ := labels_sorted w.srt t t' ((C26_samples w.srt t t' hn).2.2.2.2.1.symm.trans hb) hn
          rw [hl] at hp
          refine ⟨fun s => frameOf t' (sourcePart t'.rows (some s)), ?_⟩
          intro q hq
          obtain ⟨part, hpt, hq⟩ := List.mem_flatMap.1 hq
          obtain ⟨s, hs, hrel⟩ := forall₂_left hp part hpt
          obtain ⟨l, -, rfl⟩ := List.mem_map.1 hs
          simp only [Option.getD_some] at hrel
          have e := (run_sources w args _ _ part hrel).1 q hq
          exact ⟨part, by rw [e]; exact hrel, hq⟩
      · cases hrun : runSingle w args id (frameOf t' t'.rows) with
        | error e => rw [hrun] at h; cases h
        | ok q =>
          rw [hrun] at h
          cases h
          refine ⟨fun _ => frameOf t' t'.rows, fun q hq => ⟨res, ?_, hq⟩⟩
          rw [(run_sources w args _ _ res hrun).1 q hq]
          exact hrun

/-- Forecast rows of one source come from one model, unless all fits are requested. -/
theorem forecast_one_model (w : World K) (args : RunArgs K) (hall : args.includeAll = false) (id : String) (t : STable K) (res : RunResult K)
    (h : runForecast w args id t = .ok (some res)) (r r' : DRow K) (hr : r ∈ res.data) (hr' : r' ∈ res.data) (hf : r.isActuals = false)
    (hf' : r'.isActuals = false) (hs : r.source = r'.source) : r.model = r'.model := by
  obtain ⟨df, hdf⟩ := row_part w args id t res h
  obtain ⟨part, e1, k1⟩ := hdf r hr
  obtain ⟨part', e2, k2⟩ := hdf r' hr'
  rw [← hs, e1] at e2
  cases e2
  have hb := (C48_best_only w args _ _ part hall e1).2
  obtain ⟨-, -, -, m, hm, hmb, -, hmm, -⟩ := hb r k1 hf
  obtain ⟨-, -, -, m', hm', hmb', -, hmm', -⟩ := hb r' k2 hf'
  rw [← hmm, ← hmm']
  exact (C35_one_model w args _ _ part e1 m m' hm hm' hmb hmb').1

/-- Rows of actuals belong to the model called `actuals`. -/
theorem actuals_model (w : World K) (args : RunArgs K) (id : String) (t : STable K) (res : RunResult K) (h : runForecast w args id t = .ok (some res))
    (r : DRow K) (hr : r ∈ res.data) (ha : r.isActuals = true) : r.model = "actuals" := by
  obtain ⟨df, hdf⟩ := row_part w args id t res h
  obtain ⟨part, e1, k1⟩ := hdf r hr
  obtain ⟨d, hd, hdata, -, -⟩ := runSingle_inv w args _ _ part e1
  obtain ⟨st⟩ := runFits_stages w args _ _ d hd
  have h1 : r ∈ (selectFits args.includeAll d).1.filter DRow.isActuals := List.mem_filter.2 ⟨hdata ▸ k1, ha⟩
  rw [actual_rows w args _ _ d st] at h1
  obtain ⟨q, hq, e⟩ := List.mem_map.1 h1
  unfold actualsClean at hq
  obtain ⟨q', -, e'⟩ := List.mem_map.1 hq
  rw [← e, ← e']
  rfl

/-- **C78, plot.** With the library for the requested file format installed, every successful run also writes a plot, next to the tables, that shows every
row of actuals in the data file, and no panel of which mixes sources. -/
theorem C78_plot (w : World K) (conv : Conv V K) (libs : PlotLibs) (fs : FileSystem) (csv : Path → RawTable V) (a : AppArgs) (f : AppFiles K)
    (h : appRun w conv libs fs csv a = .ok f) (ho : (a.format = "png" ∧ libs.matplotlib = true) ∨ (a.format = "html" ∧ libs.plotly = true)) :
    ∃ paths panels, appPaths fs a.pathIn a.pathOut = .ok paths ∧
      f.plot = .ok (.code 0, .file (String.ofList paths.plot ++ "." ++ a.format) panels) ∧
      (∀ r ∈ f.data.2, r.isActuals = true → ∃ p ∈ panels, plotRowOf r ∈ p.actuals) ∧
      (∀ p ∈ panels, ∀ q ∈ p.actuals ++ p.forecast, (∃ r ∈ f.data.2, q = plotRowOf r) ∧ ∀ q' ∈ p.actuals ++ p.forecast, q.source = q'.source) := by
  obtain ⟨paths, s, r, h1, h2, h3, h4, rfl⟩ := (appRun_inv w conv libs fs csv a f).1 h
  obtain ⟨s0, k1, k2⟩ := normalizeRaw_inv _ _ _ _ _ h3
  have hne : s.rows ≠ [] := by
    intro hc
    unfold runForecast normalizeDf at h4
    rw [if_pos hc] at h4
    cases h4
  have hx := (C26_samples w.srt s0 s k2).2.2.1
  have hs := (C26_samples w.srt s0 s k2).2.2.2.2.1
  -- there is a row of actuals
  have hact : ∃ q ∈ r.data, q.isActuals = true := by
    have hperm := C78_samples w _ rfl "src" s (.inr hx) r h4
    have : labelledObservations "src" s ≠ [] := by
      unfold labelledObservations
      rw [List.filter_eq_self.2]
      · simpa using hne
      · intro q hq
        cases hb : s.hasSource with
        | false => rfl
        | true => simpa [Option.isSome_iff_ne_none] using (normalize_sorted_source w.srt s0 s (hs ▸ hb) k2).2 q hq
    obtain ⟨o, ho⟩ := List.exists_mem_of_ne_nil _ this
    rw [← hperm.mem_iff] at ho
    obtain ⟨q, hq, -⟩ := List.mem_map.1 ho
    obtain ⟨hq1, hq2⟩ := List.mem_filter.1 hq
    exact ⟨q, hq1, hq2⟩
  obtain ⟨q, hq, hqa⟩ := hact
  have hpath : String.ofList paths.plot ≠ "" := by
    intro hc
    have hc' : paths.plot = [] := by simpa using congrArg String.toList hc
    obtain ⟨p, -, -, -, -, -, -, hpl⟩ := appPaths_ok fs _ _ paths h1
    rw [hpl] at hc'
    unfold joinPath at hc'
    split_ifs at hc' <;> simp at hc'
  obtain ⟨panels, hpan⟩ := C60_file libs (r.data.map plotRowOf) a.format (String.ofList paths.plot) hpath ho (plotRowOf q)
    (List.mem_map.2 ⟨q, hq, rfl⟩) hqa (by simp [plotRowOf])
  refine ⟨paths, panels, h1, ?_, ?_⟩
  · dsimp only
    unfold appPlot
    rw [hpan]
  obtain ⟨subplots, sources, nrows, ncols, hidden, hl, hc⟩ := plot_file_inv libs _ _ _ _ _ panels hpan
  obtain ⟨j1, j2⟩ := C50_sources _ _ subplots sources nrows ncols hl panels hidden hc
  constructor
  · intro q hq hqa
    refine j2 (plotRowOf q) (List.mem_map.2 ⟨q, hq, rfl⟩) hqa (by simp [plotRowOf]) fun _ => ?_
    show q.model ≠ "weight"
    rw [actuals_model w _ _ s r h4 q hq hqa]
    decide
  · have hin : ∀ p ∈ panels, ∀ q ∈ p.actuals ++ p.forecast, ∃ d ∈ r.data, q = plotRowOf d := by
      intro p hp q hq
      have hrows := C50_panel_rows _ subplots sources nrows ncols _ panels hidden hc p hp q
      have : q ∈ r.data.map plotRowOf := by
        rcases List.mem_append.1 hq with hq | hq
        · exact (hrows.1.1 hq).1
        · exact (hrows.2.1 hq).1
      obtain ⟨d, hd, rfl⟩ := List.mem_map.1 this
      exact ⟨d, hd, rfl⟩
    intro p hp q hq
    refine ⟨hin p hp q hq, fun q' hq' => ?_⟩
    obtain ⟨d, -, e⟩ := hin p hp q hq
    obtain ⟨d', -, e'⟩ := hin p hp q' hq'
    exact j1 p hp q hq q' hq' (by simp [e, plotRowOf]) (by simp [e', plotRowOf])

/-- **C79.** In the plot of the app every panel shows the forecast of one model, unless all fits are requested. -/
theorem C79_one_line_partial (w : World K) (conv : Conv V K) (libs : PlotLibs) (fs : FileSystem) (csv : Path → RawTable V) (a : AppArgs)
    (hall : a.includeAll = false) (f : AppFiles K) (h : appRun w conv libs fs csv a = .ok f) (c : PlotReturn) (file : String) (panels : List (Panel K))
    (hp : f.plot = .ok (c, .file file panels)) : ∀ p ∈ panels, ∀ q ∈ p.forecast, ∀ q' ∈ p.forecast, q.model = q'.model := by
  obtain ⟨paths, s, r, h1, h2, h3, h4, rfl⟩ := (appRun_inv w conv libs fs csv a f).1 h
  dsimp only at hp
  unfold appPlot at hp
  have hp : plotForecast libs true (r.data.map plotRowOf) a.format (some (String.ofList paths.plot)) = .ok (c, .file file panels) := by
    split at hp
    · cases hp
    · exact hp
  obtain ⟨subplots, sources, nrows, ncols, hidden, hl, hc⟩ := plot_file_inv libs _ _ _ _ _ panels hp
  obtain ⟨j1, -⟩ := C50_sources _ _ subplots sources nrows ncols hl panels hidden hc
  intro p hp q hq q' hq'
  have hrows := C50_panel_rows _ subplots sources nrows ncols _ panels hidden hc p hp
  obtain ⟨m1, f1, -⟩ := (hrows q).2.1 hq
  obtain ⟨m2, f2, -⟩ := (hrows q').2.1 hq'
  have hsrc := j1 p hp q (List.mem_append_right _ hq) q' (List.mem_append_right _ hq')
  obtain ⟨d, hd, rfl⟩ := List.mem_map.1 m1
  obtain ⟨d', hd', rfl⟩ := List.mem_map.1 m2
  have e := hsrc (by simp [plotRowOf]) (by simp [plotRowOf])
  exact forecast_one_model w (runDefaults a.years a.includeAll) hall "src" s r h4 d d' hd hd' f1 f2 (by simpa [plotRowOf] using e)

end

/-! ### Examples -/

/-- Cells of a file: labels or numbers; dates are numbers of days. -/
def cellConv : Conv (String ⊕ ℚ) ℚ where
  toFloat v := match v with
    | .inr q => .ok (some q)
    | .inl _ => .error .valueError
  toDate v := match v with
    | .inr q => .ok (q.num * DAY)
    | .inl _ => .error .valueError
  weight v := match v with
    | .inr q => some q
    | .inl _ => none
  x v := match v with
    | .inr q => q.num
    | .inl _ => 0
  label v := match v with
    | .inl s => some s
    | .inr _ => none

/-- Sales of two shops on five days. -/
def shopCsv : RawTable (String ⊕ ℚ) :=
  ⟨10, none, [("shop", ["b", "a", "b", "a", "a", "b", "a", "b", "a", "b"].map .inl), ("day", [1, 1, 2, 2, 3, 3, 4, 4, 5, 5].map .inr),
    ("sales", [1, 5, 3, 5, 5, 4, 5, 7, 6, 9].map .inr)]⟩

def shopArgs (all : Bool) : AppArgs := ⟨some "/data/a.1.csv".toList, none, 3 / 365, ⟨"sales", "weight", "x", "day", "shop"⟩, all, "png"⟩

/-- The files of a run: names, observations per shop in order of the days, chosen models, and the plot. -/
example : ((appRun demoWorld cellConv ⟨true, true, true⟩ demoFs (fun _ => shopCsv) (shopArgs false)).toOption.map fun f =>
    (String.ofList f.data.1, (f.data.2.filter DRow.isActuals).map fun r => (r.source, r.date / DAY, r.y))) =
    some ("/data/a_fcast.csv", [("a", 1, some 5), ("a", 2, some 5), ("a", 3, some 5), ("a", 4, some 5), ("a", 5, some 6), ("b", 1, some 1),
      ("b", 2, some 3), ("b", 3, some 4), ("b", 4, some 7), ("b", 5, some 9)]) := by decide +kernel

example : ((appRun demoWorld cellConv ⟨true, true, true⟩ demoFs (fun _ => shopCsv) (shopArgs false)).toOption.map fun f =>
    (String.ofList f.metadata.1, f.metadata.2.map fun r => (r.source, r.model))) =
    some ("/data/a_metadata.csv", [("a", "snaive_wday"), ("b", "snaive_wday")]) := by decide +kernel

example : ((appRun demoWorld cellConv ⟨true, true, true⟩ demoFs (fun _ => shopCsv) (shopArgs false)).toOption.map fun f =>
    f.plot.toOption.map fun q => match q.2 with
      | .file path panels => (path, panels.map fun p => (p.source, p.cell))
      | _ => ("", [])) = some (some ("/data/a_fcast.png", [("a", (0, 0)), ("b", (1, 0))])) := by decide +kernel

/-- The hypotheses of `C78_unreadable`: the column of the shops is taken for the dates. -/
example : appRun demoWorld cellConv ⟨true, true, true⟩ demoFs (fun _ => shopCsv) { shopArgs false with cols := ⟨"sales", "weight", "x", "shop", "day"⟩ } = .error .valueError :=
  C78_unreadable demoWorld cellConv _ demoFs _ _ ⟨"/data/a_fcast.csv".toList, "/data/a_metadata.csv".toList, "/data/a_fcast".toList⟩ (by decide +kernel) _
    (List.mem_cons_self) (by decide) _ rfl

/-- The file has sources, so that the order of its rows is determined. -/
example : DefiniteOrder demoWorld.srt cellConv (shopArgs false).cols shopCsv := by
  intro s h
  left
  obtain ⟨s0, h0, h1⟩ := normalizeRaw_inv _ _ _ _ _ h
  rw [(C26_samples _ _ _ h1).2.2.2.2.1]
  have : (standardise cellConv (shopArgs false).cols shopCsv).toOption.map (fun o => o.map STable.hasSource) = some (some true) := by decide +kernel
  rw [h0] at this
  simpa [Except.toOption] using this

/-- **C79 refuted for `--include_all_fits`**: the forecasts of all models of a source are drawn as one line. -/
theorem C79_counterexample : ∃ f c file panels,
    appRun demoWorld cellConv ⟨true, true, true⟩ demoFs (fun _ => shopCsv) (shopArgs true) = .ok f ∧ f.plot = .ok (c, .file file panels) ∧
      ∃ p ∈ panels, ∃ q ∈ p.forecast, ∃ q' ∈ p.forecast, q.model = "linear" ∧ q'.model = "snaive_wday" := by
  have key : ((appRun demoWorld cellConv ⟨true, true, true⟩ demoFs (fun _ => shopCsv) (shopArgs true)).toOption.map fun f =>
    f.plot.toOption.map fun q => match q.2 with
      | .file _ panels => panels.any fun p => p.forecast.any (fun q => decide (q.model = "linear")) && p.forecast.any (fun q => decide (q.model = "snaive_wday"))
      | _ => false) = some (some true) := by decide +kernel
  cases hf : appRun demoWorld cellConv ⟨true, true, true⟩ demoFs (fun _ => shopCsv) (shopArgs true) with
  | error e => rw [hf] at key; cases key
  | ok f =>
    rw [hf] at key
    cases hp : f.plot with
    | error e => simp [hp, Except.toOption] at key
    | ok q =>
      obtain ⟨c, e⟩ := q
      simp only [hp, Except.toOption, Option.map_some, Option.some.injEq] at key
      cases e with
      | nothing => simp at key
      | shown l => simp at key
      | file file panels =>
        refine ⟨f, c, file, panels, rfl, hp, ?_⟩
        simp only [List.any_eq_true, Bool.and_eq_true, decide_eq_true_eq] at key
        obtain ⟨p, hp, ⟨q, hq, e⟩, q', hq', e'⟩ := key
        exact ⟨p, hp, q, hq, q', hq', e, e'⟩

#print axioms C78_options
#print axioms C78_samples
#print axioms C78_result
#print axioms C78_succeeds
#print axioms C78_observations
#print axioms C78_plot
#print axioms C79_one_line_partial
#print axioms C79_counterexample
end Anticipy
