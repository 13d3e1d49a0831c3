import Verif.Props.Total
import Verif.Props.UnitChoice
import Verif.Props.MultStats
import Verif.Model.Aic

/-
C82 for tables as a user supplies them, for the default candidates, and where it fails.
-/
namespace Anticipy
open Spec
variable {K : Type} [Field K] [LinearOrder K] [FloorRing K] [IsStrictOrderedRing K]

/-! ### Tables -/

omit [FloorRing K] in
/-- A series that consists of forecastable rows meets the conditions on samples. -/
theorem series_forecastable (start : Option Timestamp) (df : Frame K) (rows : List (SRow K))
    (hp : (df.rows.map fun r => (r.date, r.y, r.weight)).Perm (rows.map fun r => (r.date, r.y, r.weight))) (hf : Forecastable start df.hasWeight rows) :
    2 ≤ (kept start df).length ∧ (kept start df).length ≤ rows.length ∧
      ∃ (i : Nat) (r : Row K), (kept start df)[i]? = some r ∧ r.y ≠ none ∧ ∃ v, givenWeight df r = some v ∧ 0 < v := by
  have hfind : ∀ r ∈ rows, Started start r.date → ∃ q ∈ kept start df, q.date = r.date ∧ q.y = r.y ∧ q.weight = r.weight := by
    intro r hr hs
    have hm : (r.date, r.y, r.weight) ∈ df.rows.map fun r => (r.date, r.y, r.weight) := hp.mem_iff.2 (List.mem_map.2 ⟨r, hr, rfl⟩)
    obtain ⟨q, hq, e⟩ := List.mem_map.1 hm
    simp only [Prod.mk.injEq] at e
    refine ⟨q, List.mem_filter.2 ⟨hq, ?_⟩, e⟩
    cases h : start with
    | none => rfl
    | some d =>
      have := hs d h
      simp only [Bool.or_eq_true, decide_eq_true_eq]
      right
      omega
  refine ⟨?_, ?_, ?_⟩
  · obtain ⟨r, hr, r', hr', hne, h1, h2⟩ := hf.two
    obtain ⟨q, hq, e, -⟩ := hfind r hr h1
    obtain ⟨q', hq', e', -⟩ := hfind r' hr' h2
    match hk : kept start df, hq, hq' with
    | [a], h, h' =>
      rw [hk, List.mem_singleton] at hq hq'
      rw [hq] at e
      rw [hq'] at e'
      omega
    | a :: b :: l, _, _ => simp
  · have h1 : (kept start df).length ≤ df.rows.length := List.length_filter_le _ _
    have h2 := hp.length_eq
    rw [List.length_map, List.length_map] at h2
    omega
  · obtain ⟨r, hr, hs, hy, hw⟩ := hf.counts
    obtain ⟨q, hq, -, ey, ew⟩ := hfind r hr hs
    obtain ⟨i, hi⟩ := List.getElem?_of_mem hq
    refine ⟨i, q, hi, by rw [ey]; exact hy, ?_⟩
    unfold givenWeight
    by_cases h : df.hasWeight = true
    · rw [if_pos h, ew]
      exact hw h
    · rw [if_neg h]
      exact ⟨1, rfl, zero_lt_one⟩

/-- **C82** for a table of one daily series. -/
theorem C82_table_partial (w : World K) (args : RunArgs K) (id : String) (t : STable K) (ht : DailyTable t) (hout : args.findOutliers = false)
    (hf : Forecastable args.start t.hasWeight t.rows) (global : String → Option (CacheFn K)) (reg : Registry K)
    (hc : Contracts w args id t.rows.length global reg) : ∃ res, runForecast w args id t = .ok (some res) := by
  obtain ⟨df, t0, hdaily, hrun, hw, hp⟩ := daily_table w args id t ht
  obtain ⟨h2, hl, i, r, hi, hy, hv⟩ := series_forecastable args.start df t.rows hp (hw ▸ hf)
  obtain ⟨res, hres⟩ := C82_total_partial w args id df t0 hdaily h2 ⟨i, r, hi, hy, hv, by rw [hout]; simp⟩ global reg _ hl hc
  exact ⟨res, by rw [hrun, hres]; rfl⟩

omit [LinearOrder K] [FloorRing K] [IsStrictOrderedRing K] in
theorem labelled_source (t : STable K) (hs : t.hasSource = true) (s : String) : (sourcePart (labelled t.hasSource t.rows) (some s)) = (only s t).rows := by
  unfold sourcePart labelled only
  rw [hs]
  simp only [List.filter_filter]
  apply List.filter_congr
  intro r _
  rw [Bool.eq_iff_iff]
  simp
  rintro h
  simp [h]

/-- One source of a table with several daily series, as the series that the run for this source works on. -/
theorem daily_source_all (w : World K) (id : String) (t : STable K) (hs : t.hasSource = true) (hone : OnePerDate t)
    (hl : ∀ r ∈ t.rows, r.source ≠ none) (s : String) (hd : ∃ r ∈ (only s t).rows, ∃ r' ∈ (only s t).rows, r'.date = r.date + 24 * 60 * 60 * 1000000000) :
    ∃ df t0, DailySeries df t0 ∧ (∀ args, runForecast w args id (only s t) = (runSingle w args s df).map some) ∧ df.hasWeight = t.hasWeight ∧
      (df.rows.map fun r => (r.date, r.y, r.weight)).Perm ((only s t).rows.map fun r => (r.date, r.y, r.weight)) := by
  have hmem : ∃ r ∈ t.rows, r.source = some s := by
    obtain ⟨r, hr, -⟩ := hd
    obtain ⟨h1, h2⟩ := List.mem_filter.1 hr
    exact ⟨r, h1, of_decide_eq_true h2⟩
  obtain ⟨out, hn⟩ := (C26_returns w.srt t).2 (by obtain ⟨r, hr, -⟩ := hmem; exact List.ne_nil_of_mem hr) (.inl fun _ => hl)
  obtain ⟨hp, -, -, hod, hso, hwo⟩ := C26_samples w.srt t out hn
  obtain ⟨⟨t0, hdays⟩, hlt⟩ := series_days w.srt t out hone hn s
  have hpart : seriesPart out s = sourcePart out.rows (some s) := by
    unfold seriesPart
    rw [hso, hs]
    rfl
  rw [hpart] at hdays hlt
  have hps : (samples (sourcePart out.rows (some s))).Perm (samples (only s t).rows) := by
    rw [← labelled_source t hs s]
    have e : ∀ l : List (SRow K), samples (sourcePart l (some s)) = (samples l).filter fun e => decide (e.2.1 = some s) := by
      intro l
      unfold samples sourcePart
      rw [List.filter_map]
      congr 1
      apply List.filter_congr
      intro r _
      simp
    rw [e, e]
    exact hp.filter _
  refine ⟨frameOf out (sourcePart out.rows (some s)), t0, ⟨hod.trans hone.hasDate, ?_, ?_, ?_⟩, fun args => runForecast_only w args id t out hs hn s hmem, hwo, ?_⟩
  · intro q hq
    obtain ⟨q0, h0, rfl⟩ := List.mem_map.1 hq
    exact hdays q0 h0
  · exact List.pairwise_map.2 hlt
  · obtain ⟨r, hr, r', hr', e⟩ := hd
    have hin : ∀ r ∈ (only s t).rows, ∃ q ∈ sourcePart out.rows (some s), q.date = r.date := by
      intro r hr
      have hm : (r.date, r.source, r.y, r.weight) ∈ samples (only s t).rows := List.mem_map.2 ⟨r, hr, rfl⟩
      obtain ⟨q, hq, e⟩ := List.mem_map.1 (hps.mem_iff.2 hm)
      exact ⟨q, hq, congrArg Prod.fst e⟩
    obtain ⟨q, hq, e1⟩ := hin r hr
    obtain ⟨q', hq', e2⟩ := hin r' hr'
    refine ⟨_, List.mem_map.2 ⟨q, hq, rfl⟩, _, List.mem_map.2 ⟨q', hq', rfl⟩, ?_⟩
    have h1 := hdays q hq
    have h2 := hdays q' hq'
    dsimp only
    omega
  · have := hps.map fun r : Timestamp × Option String × Option K × Option K => (r.1, r.2.2.1, r.2.2.2)
    unfold samples at this
    rw [List.map_map, List.map_map] at this
    unfold frameOf
    rw [List.map_map]
    exact this

theorem daily_source (w : World K) (args : RunArgs K) (id : String) (t : STable K) (hs : t.hasSource = true) (hone : OnePerDate t)
    (hl : ∀ r ∈ t.rows, r.source ≠ none) (s : String) (hd : ∃ r ∈ (only s t).rows, ∃ r' ∈ (only s t).rows, r'.date = r.date + 24 * 60 * 60 * 1000000000) :
    ∃ df t0, DailySeries df t0 ∧ runForecast w args id (only s t) = (runSingle w args s df).map some ∧ df.hasWeight = t.hasWeight ∧
      (df.rows.map fun r => (r.date, r.y, r.weight)).Perm ((only s t).rows.map fun r => (r.date, r.y, r.weight)) := by
  obtain ⟨df, t0, h1, h2, h3⟩ := daily_source_all w id t hs hone hl s hd
  exact ⟨df, t0, h1, h2 args, h3⟩

/-- **C82** for a table with any number of daily series. -/
theorem C82_sources_partial (w : World K) (args : RunArgs K) (id : String) (t : STable K) (hs : t.hasSource = true) (hne : t.rows ≠ []) (hone : OnePerDate t)
    (hl : ∀ r ∈ t.rows, r.source ≠ none) (hout : args.findOutliers = false) (global : String → Option (CacheFn K)) (reg : Registry K)
    (hsrc : ∀ s, (∃ r ∈ t.rows, r.source = some s) →
      (∃ r ∈ (only s t).rows, ∃ r' ∈ (only s t).rows, r'.date = r.date + 24 * 60 * 60 * 1000000000) ∧
      Forecastable args.start t.hasWeight (only s t).rows ∧ Contracts w args s (only s t).rows.length global reg) :
    ∃ res, runForecast w args id t = .ok (some res) := by
  refine C47_succeeds w args id t hs hne hl ?_
  intro s hm
  obtain ⟨hd, hf, hc⟩ := hsrc s hm
  obtain ⟨df, t0, hdaily, hrun, hw, hp⟩ := daily_source w args id t hs hone hl s hd
  obtain ⟨h2, hlen, i, r, hi, hy, hv⟩ := series_forecastable args.start df _ hp (hw ▸ hf)
  obtain ⟨res, hres⟩ := C82_total_partial w args s df t0 hdaily h2 ⟨i, r, hi, hy, hv, by rw [hout]; simp⟩ global reg _ hlen hc
  exact ⟨res, by rw [hrun, hres]; rfl⟩

/-! ### Candidates -/

/-- The null model or a dependable model. -/
def NullOr (global : String → Option (CacheFn K)) (reg : Registry K) (m : ForecastModel K) : Prop := m = modelNull ∨ Dependable global reg m

omit [FloorRing K] [IsStrictOrderedRing K] in
theorem nullOr_compose (mult : Bool) {global : String → Option (CacheFn K)} {reg : Registry K} (a b : ForecastModel K) (ha : NullOr global reg a)
    (hb : NullOr global reg b) : NullOr global reg (compose mult a b) ∧ (Dependable global reg a → Dependable global reg (compose mult a b)) := by
  have hnull : (modelNull : ForecastModel K).name = "null" := rfl
  rcases ha with rfl | ha
  · have : compose mult modelNull b = b := by unfold compose; rw [if_pos hnull]
    rw [this]
    exact ⟨hb, fun h => absurd hnull h.named⟩
  · rcases hb with rfl | hb
    · have : compose mult a modelNull = a := by unfold compose; rw [if_neg ha.named, if_pos hnull]
      rw [this]
      exact ⟨.inr ha, fun h => h⟩
    · exact ⟨.inr (dependable_compose mult a b ha hb), fun _ => dependable_compose mult a b ha hb⟩

omit [FloorRing K] [IsStrictOrderedRing K] in
theorem listModel_dependable {global : String → Option (CacheFn K)} {reg : Registry K} (t : List (ForecastModel K)) (s : Option (List (ForecastModel K)))
    (mode : AddMult) (hmode : mode = .add ∨ mode = .mult) (hne : t ≠ []) (ht : ∀ m ∈ t, Dependable global reg m)
    (hs : ∀ l, s = some l → ∀ m ∈ l, NullOr global reg m) :
    getListModel (some t) s mode ≠ [] ∧ ∀ m ∈ getListModel (some t) s mode, Dependable global reg m := by
  unfold getListModel
  dsimp only [Option.getD_some]
  have hs' : ∀ m ∈ s.getD [], NullOr global reg m := by
    cases s with
    | none => simp
    | some l => exact hs l rfl
  have hnd : ∀ l : List (ForecastModel K), l ≠ [] → dedupBy ForecastModel.name l ≠ [] := by
    intro l hl he
    obtain ⟨a, ha⟩ := List.exists_mem_of_ne_nil l hl
    obtain ⟨b, hb, -⟩ := mem_dedupBy_key ForecastModel.name l a ha
    rw [he] at hb
    cases hb
  by_cases h1 : s.getD [] = []
  · rw [if_pos h1]
    exact ⟨hnd t hne, fun m hm => ht m (mem_dedupBy _ _ _ hm)⟩
  rw [if_neg h1, if_neg hne]
  constructor
  · apply hnd
    obtain ⟨a, ha⟩ := List.exists_mem_of_ne_nil t hne
    obtain ⟨b, hb⟩ := List.exists_mem_of_ne_nil _ h1
    rcases hmode with rfl | rfl
    · exact List.ne_nil_of_mem ((mem_combinations t _ .add (a.add b)).2 ⟨a, ha, b, hb, .inl ⟨by simp, rfl⟩⟩)
    · exact List.ne_nil_of_mem ((mem_combinations t _ .mult (a.mul b)).2 ⟨a, ha, b, hb, .inr ⟨by simp, rfl⟩⟩)
  · intro m hm
    have hm := mem_dedupBy _ _ _ hm
    rw [mem_combinations] at hm
    obtain ⟨a, ha, b, hb, (⟨-, rfl⟩ | ⟨-, rfl⟩)⟩ := hm
    · exact (nullOr_compose false a b (.inr (ht a ha)) (hs' b hb)).2 (ht a ha)
    · exact (nullOr_compose true a b (.inr (ht a ha)) (hs' b hb)).2 (ht a ha)

omit [FloorRing K] in
/-- All candidates are workable if all components offered are: trend models dependable, seasonality and calendar models dependable or null. -/
theorem candidates_workable (ch : Choices K) (hset : IsSet ch.setOrder) (args : ModelArgs K) (srt : SortAlg) (global : String → Option (CacheFn K)) (reg : Registry K)
    (htrend : ∀ t, args.trend = some t → t ≠ [] ∧ ∀ m ∈ t, Dependable global reg m) (hseason : ∀ s, args.season = some s → ∀ m ∈ s, NullOr global reg m)
    (hyear : ∀ m ∈ offered args.yearly ch.dfltYearly, NullOr global reg m) (hweek : ∀ m ∈ offered args.weekly ch.dfltWeekly, NullOr global reg m)
    (hcal : ∀ c, args.calendar = some c → ∀ m ∈ c, NullOr global reg m) (freq : Option Freq)
    (hnaive : ∀ m ∈ args.naive.getD (if freq = some .D then [ch.snaive] else [ch.naive]), Workable srt global reg m)
    (df : Frame K) (cand : AddMult × List (ForecastModel K)) (h : candidates ch args df freq = .ok cand) :
    cand.2 ≠ [] ∧ ∀ m ∈ cand.2, Workable srt global reg m := by
  have hauto : ∀ mult, ∀ m ∈ autoSeason (weightedDates df) (3 / 2) mult args.yearly args.weekly ch.dfltYearly ch.dfltWeekly, NullOr global reg m := by
    intro mult m hm
    rcases C42_enough_data _ _ _ _ _ _ _ m hm with rfl | ⟨w, y, rfl, h1, h2⟩
    · exact .inl rfl
    · refine (nullOr_compose mult w y ?_ ?_).1
      · rcases h1 with rfl | h1
        · exact .inl rfl
        · exact hweek w h1.1
      · rcases h2 with rfl | h2
        · exact .inl rfl
        · exact hyear y h2.1
  have hcomp : ∀ mult, composedModels ch args df mult ≠ [] ∧ ∀ m ∈ composedModels ch args df mult, Dependable global reg m := by
    intro mult
    unfold composedModels
    have ht : args.trend.getD (if useRamp df then [modelLinear, modelLinear.add modelRamp] else [modelLinear]) ≠ [] ∧
        ∀ m ∈ args.trend.getD (if useRamp df then [modelLinear, modelLinear.add modelRamp] else [modelLinear]), Dependable global reg m := by
      cases e : args.trend with
      | some t => exact htrend t e
      | none =>
        dsimp only [Option.getD_none]
        split_ifs
        · refine ⟨by simp, ?_⟩
          intro m hm
          simp only [List.mem_cons, List.not_mem_nil, or_false] at hm
          rcases hm with rfl | rfl
          · exact dependable_linear
          · exact dependable_compose false _ _ dependable_linear dependable_ramp
        · refine ⟨by simp, ?_⟩
          intro m hm
          rw [List.mem_singleton] at hm
          subst hm
          exact dependable_linear
    generalize args.trend.getD (if useRamp df then [modelLinear, modelLinear.add modelRamp] else [modelLinear]) = t at ht
    dsimp only
    have hmode : (if mult then AddMult.mult else AddMult.add) = .add ∨ (if mult then AddMult.mult else AddMult.add) = .mult := by cases mult <;> simp
    generalize (if mult then AddMult.mult else AddMult.add) = mode at hmode
    have hs : ∀ l, (match args.season with
        | some s => some s
        | none => if df.hasDate then
            some (autoSeason (weightedDates df) (3 / 2) mult args.yearly args.weekly ch.dfltYearly ch.dfltWeekly)
          else none) = some l → ∀ m ∈ l, NullOr global reg m := by
      intro l
      cases e : args.season with
      | some s => intro h; cases h; exact hseason _ e
      | none =>
        dsimp only
        by_cases hd : df.hasDate = true
        · rw [if_pos hd]; intro h; cases h; exact hauto mult
        · rw [if_neg hd]; intro h; cases h
    have h1 := listModel_dependable t _ mode hmode ht.1 ht.2 hs
    cases e : args.calendar with
    | none => exact h1
    | some cal =>
      dsimp only
      by_cases hu : useCalendar df = true
      · rw [if_pos hu]
        exact listModel_dependable _ (some cal) mode hmode h1.1 h1.2 (fun l hl => by cases hl; exact hcal _ e)
      · rw [if_neg hu]
        exact h1
  unfold candidates at h
  cases hm : resolveMode ch args df with
  | error e => rw [hm] at h; cases h
  | ok mode =>
    rw [hm] at h
    have h := Except.ok.inj h
    rw [← h]
    dsimp only
    have hboth : ch.setOrder (composedModels ch args df false ++ composedModels ch args df true) ≠ [] ∧
        ∀ m ∈ ch.setOrder (composedModels ch args df false ++ composedModels ch args df true), Dependable global reg m := by
      have hperm := hset (composedModels ch args df false ++ composedModels ch args df true)
      constructor
      · intro he
        rw [he] at hperm
        have hnil := hperm.nil_eq
        obtain ⟨a, ha⟩ := List.exists_mem_of_ne_nil _ (hcomp false).1
        obtain ⟨b, hb, -⟩ := mem_dedupBy_key ForecastModel.name (composedModels ch args df false ++ composedModels ch args df true) a (List.mem_append.2 (.inl ha))
        rw [← hnil] at hb
        cases hb
      · intro m hm
        rcases List.mem_append.1 (mem_dedupBy _ _ _ (hperm.mem_iff.1 hm)) with h | h
        · exact (hcomp false).2 m h
        · exact (hcomp true).2 m h
    have final : ∀ l : List (ForecastModel K), (l ≠ [] ∧ ∀ m ∈ l, Dependable global reg m) → sortBy nameLe (args.naive.getD (if freq = some .D then [ch.snaive] else [ch.naive]) ++ l) ≠ [] ∧
        ∀ m ∈ sortBy nameLe (args.naive.getD (if freq = some .D then [ch.snaive] else [ch.naive]) ++ l), Workable srt global reg m := by
      intro l hlp
      have hp := sortBy_perm nameLe (args.naive.getD (if freq = some .D then [ch.snaive] else [ch.naive]) ++ l)
      constructor
      · intro he
        rw [he] at hp
        have := hp.nil_eq
        exact hlp.1 (List.append_eq_nil_iff.1 this.symm).2
      · intro m hm
        rcases List.mem_append.1 (hp.mem_iff.1 hm) with h | h
        · exact hnaive m h
        · exact .inr (.inr (.inr (hlp.2 m h)))
    cases mode with
    | add => exact final _ (hcomp false)
    | mult => exact final _ (hcomp true)
    | _ => exact final _ hboth

/-! ### Scores and the multiplicative test -/

/-- The score of the code can be computed for up to 4047 samples, even for perfect fits. -/
theorem aic_returns (env : Env ℝ) (h : env.aic = getAicC) (n : Nat) (hn : n ≤ 4047) : ScoreReturns env n := by
  intro c k hc hk
  rw [h]
  unfold getAicC
  rw [if_neg (by omega)]
  cases c with
  | none => exact ⟨_, rfl⟩
  | some e =>
    dsimp only
    have := hc e rfl
    rw [if_neg (show ¬ tinyDiv n = 0 from fun h => absurd ((tinyDiv_pos n (by omega)).1 h) (by omega)), if_neg (show ¬ e < 0 by linarith)]
    split_ifs <;> exact ⟨_, rfl⟩

/-- The statistic of the multiplicative test exists if the solver does not give up on the linear fit. -/
theorem multCorr_ok (env : Env ℝ) (hsolve : SolverReturns env) (hnone : ∀ g q b, env.lsq g q b ≠ .ok none) (df : Frame ℝ) (hscore : ScoreReturns env (usableRows df).length)
    (hd : df.hasDate = true) (hx : df.rows.Pairwise fun a b => a.x < b.x) (h4 : 4 ≤ (usableRows df).length) : ∃ c, multCorr env df = .ok c := by
  have hlen : (usableRows df).length ≤ df.rows.length := List.length_filter_le _ _
  have hux : ((usableRows df).map Row.x).Pairwise (· < ·) := List.pairwise_map.2 (hx.sublist List.filter_sublist)
  have hnl : (modelLinear : ForecastModel ℝ).nParams = 2 := rfl
  obtain ⟨f, hf, -, hp⟩ := fit_dependable env (fun _ => none) modelLinear dependable_linear df none true hsolve hscore hd hux
    (List.ne_nil_of_length_pos (by omega))
  have hp := hp hnone (by rw [hnl]; omega) rfl
  rw [hnl] at hp
  have hl : ∃ l, fitLinear env df = .ok l := by
    unfold fitLinear
    simp only [bind, Except.bind, pyAssert]
    rw [if_pos (by simp; omega)]
    dsimp only
    rw [hf]
    dsimp only
    have hne : df.rows ≠ [] := List.ne_nil_of_length_pos (by omega)
    have n1 : listMin (df.rows.map Row.x) ≠ none := by
      intro h0
      have := (listMin_none _).1 h0
      rw [List.map_eq_nil_iff] at this
      exact hne this
    have n2 : listMax (df.rows.map Row.x) ≠ none := by
      intro h0
      have := (listMax_none _).1 h0
      rw [List.map_eq_nil_iff] at this
      exact hne this
    obtain ⟨a, ha⟩ := Option.ne_none_iff_exists'.1 n1
    obtain ⟨b, hb⟩ := Option.ne_none_iff_exists'.1 n2
    rw [ha, hb]
    dsimp only
    match hq : f.params, hp with
    | [p, q], _ => exact ⟨_, rfl⟩
  obtain ⟨l, hl⟩ := hl
  unfold multCorr
  simp only [hl, bind, Except.bind]
  exact ⟨_, rfl⟩

/-! ### Default arguments -/

/-- The module level models and external choices as in the code: the default lists of forecast_models.py 1955-1961, the naive models, and the statistic of the
multiplicative test. -/
structure DefaultChoices (w : World ℝ) (testEnv : Env ℝ) : Prop where
  yearly : w.ch.dfltYearly = [modelFourier, modelNull]
  weekly : w.ch.dfltWeekly = [modelSeasonWday, modelNull]
  seasonalNaive : w.ch.snaive = modelSnaiveWday w.srt
  naive : w.ch.naive = modelNaive w.srt
  statistic : w.ch.corr = multCorr testEnv
  sets : IsSet w.ch.setOrder
  global : ∀ s i, (w.env s i).globalCache = globalCache
  score : testEnv.aic = getAicC ∧ ∀ s i, (w.env s i).aic = getAicC
  solver : SolverReturns testEnv ∧ ∀ s i, SolverReturns (w.env s i)
  gives : ∀ g q b, testEnv.lsq g q b ≠ .ok none

theorem default_contracts (w : World ℝ) (testEnv : Env ℝ) (hw : DefaultChoices w testEnv) (args : RunArgs ℝ)
    (hq : 0 < args.q1 ∧ args.q1 < 100 ∧ 0 < args.q2 ∧ args.q2 < 100)
    (hargs : args.models.trend = none ∧ args.models.season = none ∧ args.models.yearly = none ∧ args.models.weekly = none ∧ args.models.naive = none ∧ args.models.calendar = none)
    (source : String) (n : Nat) (hn : n ≤ 4047) (freq : Option Freq := some .D) : Contracts w args source n globalCache globalCache freq := by
  obtain ⟨a1, a2, a3, a4, a5, a6⟩ := hargs
  refine ⟨hq, ?_, ?_, hw.global source, hw.solver.2 source, fun i k hk => aic_returns _ (hw.score.2 source i) k (hk.trans hn)⟩
  · intro _ df h1 h2 h3 h4
    rw [hw.statistic]
    refine multCorr_ok testEnv hw.solver.1 hw.gives df (aic_returns _ hw.score.1 _ ?_) h1 h2 h3
    have : (usableRows df).length ≤ df.rows.length := List.length_filter_le _ _
    omega
  · intro df cand h
    refine candidates_workable w.ch hw.sets args.models w.srt globalCache globalCache (by rw [a1]; simp) (by rw [a2]; simp) ?_ ?_ (by rw [a6]; simp) freq ?_ df cand h
    · rw [a3, hw.yearly]
      intro m hm
      simp only [offered, List.mem_cons, List.not_mem_nil, or_false] at hm
      rcases hm with rfl | rfl
      · exact .inr (dependable_fourier rfl)
      · exact .inl rfl
    · rw [a4, hw.weekly]
      intro m hm
      simp only [offered, List.mem_cons, List.not_mem_nil, or_false] at hm
      rcases hm with rfl | rfl
      · exact .inr (dependable_weekday (fun f h => h) rfl)
      · exact .inl rfl
    · rw [a5, Option.getD_none, hw.seasonalNaive, hw.naive]
      intro m hm
      split_ifs at hm
      · rw [List.mem_singleton] at hm
        subst hm
        exact .inr (.inr (.inl rfl))
      · rw [List.mem_singleton] at hm
        subst hm
        exact .inr (.inl rfl)

/-- **C82** for the models that are used by default, with the scores of the code, on up to 4047 daily samples. -/
theorem C82_default_partial (w : World ℝ) (testEnv : Env ℝ) (hw : DefaultChoices w testEnv) (args : RunArgs ℝ)
    (hq : 0 < args.q1 ∧ args.q1 < 100 ∧ 0 < args.q2 ∧ args.q2 < 100)
    (hargs : args.models.trend = none ∧ args.models.season = none ∧ args.models.yearly = none ∧ args.models.weekly = none ∧ args.models.naive = none ∧ args.models.calendar = none)
    (hout : args.findOutliers = false) (id : String) (t : STable ℝ) (ht : DailyTable t) (hlen : t.rows.length ≤ 4047)
    (hf : Forecastable args.start t.hasWeight t.rows) : ∃ res, runForecast w args id t = .ok (some res) :=
  C82_table_partial w args id t ht hout hf globalCache globalCache (default_contracts w testEnv hw args hq hargs id _ hlen)

/-! ### Concrete cases -/

/-- An environment whose solver returns the initial guess with its cost. -/
def guessEnv {K : Type} [Field K] [LinearOrder K] (aic : Option K → Nat → Nat → Res (Ext K)) (global : String → Option (CacheFn K)) : Env K :=
  { lsq := fun f guess _ =>
      let p := guess.map fun e => match e with | .fin a => a | _ => 0
      (f p).map fun r => some ⟨true, some (halfSumSq r), p⟩
    rnd := fun _ => 0
    aic := aic
    globalCache := global
    label := fun _ => "" }

omit [FloorRing K] in
theorem guess_returns (aic : Option K → Nat → Nat → Res (Ext K)) (global : String → Option (CacheFn K)) : SolverReturns (guessEnv aic global) := by
  intro f g b _ _ hf
  obtain ⟨a, ha, -⟩ := hf g rfl
  have hg : ((g.map Ext.fin).map fun e => match e with | .fin a => a | _ => (0 : K)) = g := by
    rw [List.map_map]
    conv_rhs => rw [← List.map_id g]
    rfl
  refine ⟨some ⟨true, some (halfSumSq a), g⟩, ?_, ?_⟩
  · change (f ((g.map Ext.fin).map fun e => match e with | .fin a => a | _ => (0 : K))).map (fun r => some (⟨true, some (halfSumSq r), (g.map Ext.fin).map fun e => match e with | .fin a => a | _ => (0 : K)⟩ : LsqResult K)) = _
    rw [hg, ha]
    rfl
  · intro s hs
    cases hs
    exact ⟨rfl, fun e he => by cases he; exact halfSumSq_nonneg a⟩

omit [FloorRing K] [IsStrictOrderedRing K] in
theorem guess_gives (aic : Option K → Nat → Nat → Res (Ext K)) (global : String → Option (CacheFn K)) (g : List K → Res (Arr K)) (q : List (Ext K)) (b : Bounds K) :
    (guessEnv aic global).lsq g q b ≠ .ok none := by
  change (g (q.map fun e => match e with | .fin a => a | _ => (0 : K))).map _ ≠ _
  cases g (q.map fun e => match e with | .fin a => a | _ => (0 : K)) with
  | error e => intro h; cases h
  | ok a => intro h; cases h

/-- A world with the default models and the scores of the code. -/
noncomputable def defaultWorld : World ℝ :=
  { env := fun _ _ => guessEnv getAicC globalCache
    ch := ⟨[modelFourier, modelNull], [modelSeasonWday, modelNull], modelSnaiveWday stableSort, modelNaive stableSort, multCorr (guessEnv getAicC globalCache),
      dedupBy ForecastModel.name⟩
    srt := stableSort
    draw := fun _ k i j => k + i + j }

theorem defaultWorld_choices : DefaultChoices defaultWorld (guessEnv getAicC globalCache) :=
  ⟨rfl, rfl, rfl, rfl, rfl, fun _ => List.Perm.refl _, fun _ _ => rfl, ⟨rfl, fun _ _ => rfl⟩, ⟨guess_returns _ _, fun _ _ => guess_returns _ _⟩, guess_gives _ _⟩

/-- A run with default arguments: n days, latest first, one of them excluded by its weight. All hypotheses of `C82_default_partial` hold. -/
example (args : RunArgs ℝ) (hargs : args.models = ⟨none, none, .auto, none, none, none, none⟩) (hs : args.start = some (100 * DAY)) (ho : args.findOutliers = false)
    (hq : args.q1 = 5 ∧ args.q2 = 20) (n : Nat) (h1 : 200 ≤ n) (h2 : n ≤ 4047) :
    ∃ res, runForecast defaultWorld args "s" ⟨true, false, false, true, (List.range n).map fun i : Nat =>
      ⟨((n : Int) - (i : Int)) * DAY, none, 0, some (i : ℝ), some (if i = 3 then 0 else 1)⟩⟩ = .ok (some res) := by
  refine C82_default_partial defaultWorld _ defaultWorld_choices args (by rw [hq.1, hq.2]; norm_num) (by rw [hargs]; simp) ho "s" _ ⟨rfl, ⟨rfl, rfl, ?_, ?_⟩, ?_⟩ ?_ ⟨?_, ?_⟩
  · intro r hr r' hr'
    obtain ⟨i, -, rfl⟩ := List.mem_map.1 hr
    obtain ⟨j, -, rfl⟩ := List.mem_map.1 hr'
    simp only [DAY, HOUR]
    omega
  · rw [List.pairwise_map]
    refine (List.pairwise_lt_range (n := n)).imp ?_
    intro a b hab _
    simp only [DAY, HOUR]
    omega
  · refine ⟨_, List.mem_map.2 ⟨1, List.mem_range.2 (by omega), rfl⟩, _, List.mem_map.2 ⟨0, List.mem_range.2 (by omega), rfl⟩, ?_⟩
    simp only [DAY, HOUR]
    omega
  · simpa using h2
  · refine ⟨_, List.mem_map.2 ⟨1, List.mem_range.2 (by omega), rfl⟩, _, List.mem_map.2 ⟨0, List.mem_range.2 (by omega), rfl⟩, ?_, ?_, ?_⟩
    · simp only [DAY, HOUR]
      norm_num
    · intro d hd
      rw [hs] at hd
      cases hd
      simp only [DAY, HOUR]
      omega
    · intro d hd
      rw [hs] at hd
      cases hd
      simp only [DAY, HOUR]
      omega
  · refine ⟨_, List.mem_map.2 ⟨1, List.mem_range.2 (by omega), rfl⟩, ?_, by simp, fun _ => ⟨1, by simp, one_pos⟩⟩
    intro d hd
    rw [hs] at hd
    cases hd
    simp only [DAY, HOUR]
    omega

/-! ### Counterexamples -/

/-- The toy world of the other examples with a proper set. -/
def totalWorld : World ℚ := { demoWorld with env := fun _ _ => guessEnv demoEnv.aic demoEnv.globalCache, ch := { demoWorld.ch with setOrder := dedupBy ForecastModel.name } }

theorem total_contracts (start : Option Timestamp) (n : Nat) (freq : Option Freq := some .D) : Contracts totalWorld { demoArgs [modelConstant] (some [modelNaive stableSort]) with start := start } "s" n (fun _ => none) (fun _ => none) freq := by
  refine ⟨by norm_num [demoArgs], fun h => (by cases h), ?_, fun _ => rfl, fun _ => guess_returns _ _, fun _ _ _ => fun c k _ _ => ?_⟩
  · intro df cand h
    refine candidates_workable totalWorld.ch (fun _ => List.Perm.refl _) _ _ _ _ ?_ ?_ ?_ ?_ ?_ freq ?_ df cand h
    · intro t ht
      cases ht
      exact ⟨by simp, by simp [dependable_constant]⟩
    · intro s hs
      cases hs
      simp
    · intro m hm
      left
      simpa [offered, demoArgs, totalWorld, demoWorld] using hm
    · intro m hm
      left
      simpa [offered, demoArgs, totalWorld, demoWorld] using hm
    · intro c hc
      cases hc
    · intro m hm
      right; left
      simpa [demoArgs, totalWorld, demoWorld] using hm
  · cases c <;> exact ⟨_, rfl⟩

theorem demo_daily : DailySeries demoFrame 0 := ⟨rfl, by unfold CountsDays; decide +kernel, by decide +kernel, by decide +kernel⟩

/-- The hypotheses of `C82_total_partial` on a concrete series; the result has rows. -/
example : ∃ res, runSingle totalWorld (demoArgs [modelConstant] (some [modelNaive stableSort])) "s" demoFrame = .ok res :=
  C82_total_partial totalWorld _ "s" demoFrame 0 demo_daily (by decide +kernel) ⟨0, _, rfl, by decide +kernel, ⟨1, rfl, by norm_num⟩, fun h => by cases h⟩ _ _ 6 (by decide +kernel)
    (total_contracts none 6)

/-- A starting date that leaves a single sample makes the run fail, although the sample counts and all contracts are kept. -/
theorem C82_counterexample_single : ∃ (w : World ℚ) (args : RunArgs ℚ) (df : Frame ℚ) (t0 : Timestamp), DailySeries df t0 ∧ (kept args.start df).length = 1 ∧
    (∃ r ∈ kept args.start df, r.y ≠ none ∧ givenWeight df r = some 1) ∧ Contracts w args "s" 6 (fun _ => none) (fun _ => none) ∧
    runSingle w args "s" df = .error .attributeError :=
  ⟨totalWorld, { demoArgs [modelConstant] (some [modelNaive stableSort]) with start := some (5 * DAY) }, demoFrame, 0, demo_daily, by decide +kernel, by decide +kernel,
    total_contracts _ 6, by decide +kernel⟩

/-- If no sample has a positive weight the run fails. -/
theorem C82_counterexample_uncounted : ∃ (w : World ℚ) (args : RunArgs ℚ) (df : Frame ℚ) (t0 : Timestamp), DailySeries df t0 ∧ (kept args.start df).length = 6 ∧
    (∀ r ∈ df.rows, r.y ≠ none) ∧ Contracts w args "s" 6 (fun _ => none) (fun _ => none) ∧ runSingle w args "s" df = .error .valueError :=
  ⟨totalWorld, { demoArgs [modelConstant] (some [modelNaive stableSort]) with start := none }, ⟨true, true, demoFrame.rows.map fun r => { r with weight := some 0 }⟩, 0,
    ⟨rfl, by unfold CountsDays; decide +kernel, by decide +kernel, by decide +kernel⟩, by decide +kernel, by decide +kernel, total_contracts none 6, by decide +kernel⟩

/-- Two sources, the second with a single sample. -/
def unevenTable (withB : Bool) : STable ℚ :=
  ⟨true, true, false, false, (demoFrame.rows.map fun r => ⟨r.date, some "a", 0, r.y, none⟩) ++ if withB then [⟨2 * DAY, some "b", 0, some 1, none⟩] else []⟩

/-- One source with a single sample leaves the other source without a forecast as well. -/
theorem C82_counterexample_sources : ∃ (w : World ℚ) (args : RunArgs ℚ), (∃ res, runForecast w args "" (unevenTable false) = .ok (some res)) ∧
    runForecast w args "" (unevenTable true) = .error .attributeError :=
  ⟨totalWorld, demoArgs [modelConstant] (some [modelNaive stableSort]), by
    have h : ((runForecast totalWorld (demoArgs [modelConstant] (some [modelNaive stableSort])) "" (unevenTable false)).toOption.map Option.isSome) = some true := by
      decide +kernel
    cases e : runForecast totalWorld (demoArgs [modelConstant] (some [modelNaive stableSort])) "" (unevenTable false) with
    | error e' => rw [e] at h; cases h
    | ok r =>
      cases r with
      | none => rw [e] at h; cases h
      | some r => exact ⟨r, rfl⟩, by decide +kernel⟩

end Anticipy
