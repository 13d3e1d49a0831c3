import Verif.Props.Run

/-
C43, C48: the table with prediction intervals that a forecast run returns.
-/
namespace Anticipy
open Spec
variable {K : Type} [Field K] [LinearOrder K]

/-- A data row as a row of the forecast table, without intervals. -/
def Spec.forecastOf (r : DRow K) : PRow K := ⟨r.date, some r.source, r.model, r.isActuals, r.y, []⟩

/-- The forecast can be compared with the data: some sample with a value and positive weight has the date of a best fit row. -/
def Spec.Comparable (data : List (DRow K)) : Prop :=
  ∃ f ∈ data, ∃ a ∈ data, f.isActuals = false ∧ f.isBest = true ∧ f.y ≠ none ∧ a.isActuals = true ∧ a.y ≠ none ∧ a.date = f.date ∧
    ∃ w, a.weight = some w ∧ 0 < w

/-- The intervals of a single series are computed by one call. -/
theorem getPi_one_source [FloorRing K] (draw : Nat → Nat → Nat → Nat) (hasDate : Bool) (rows : List (DRow K)) (source : String)
    (hs : ∀ r ∈ rows, r.source = source) (nSims : Nat) (nCum : Option Int) (q1 q2 : K) (w : Freq) :
    getPi draw (toFTable hasDate rows) nSims nCum q1 q2 w = piSingle (draw 0) (toFTable hasDate rows) nSims (nCum.getD (daysFromFreq w)) q1 q2 := by
  unfold getPi
  dsimp only
  rw [if_neg]
  rintro ⟨-, h⟩
  have hn := groupKeys_nodup (toFTable hasDate rows).rows
  have hm : ∀ s ∈ groupKeys (toFTable hasDate rows).rows, s = source := by
    intro s hs'
    obtain ⟨r, hr, e⟩ := (mem_groupKeys _ _).1 hs'
    unfold toFTable at hr
    obtain ⟨q, hq, rfl⟩ := List.mem_map.1 hr
    rw [← hs q hq]
    exact (Option.some.inj e).symm
  match hk : groupKeys (toFTable hasDate rows).rows with
  | [] => rw [hk] at h; simp at h
  | [a] => rw [hk] at h; simp at h
  | a :: b :: l =>
    rw [hk] at hn hm
    have h1 := hm a (by simp)
    have h2 := hm b (by simp)
    rw [h1, h2] at hn
    simp at hn

/-- The table with intervals starts with the actual samples that have a value; all other rows are forecast rows of the input. -/
theorem piSingle_shape [IsStrictOrderedRing K] [FloorRing K] (draw : Nat → Nat → Nat) (t : FTable K) (nSims : Nat) (nCum : Int)
    (q1 q2 : K) (out : List (PRow K)) (h : piSingle draw t nSims nCum q1 q2 = .ok out) :
    ∃ P, out = (actualsUnfiltered (selectRows t)).map actualOut ++ P ∧
      ∀ r ∈ P, r.isActuals = false ∧ ∃ f ∈ selectRows t, f.isActuals = false ∧ plain r = content f := by
  have key : ∀ (rows : List (FRow K)) (s : List (List K)), (∀ r ∈ rows, r ∈ selectRows t ∧ r.isActuals = false) →
      ∀ r ∈ rows.mapIdx (quantRow q1 q2 s), r.isActuals = false ∧ ∃ f ∈ selectRows t, f.isActuals = false ∧ plain r = content f := by
    intro rows s hrows r hr
    rw [List.mem_mapIdx] at hr
    obtain ⟨j, hj, rfl⟩ := hr
    have := hrows rows[j] (List.getElem_mem hj)
    refine ⟨rfl, rows[j], this.1, this.2, ?_⟩
    simp [plain, quantRow, content, this.2]
  rcases piSingle_inv draw t nSims nCum q1 q2 out h with ⟨he, -⟩ | ⟨hq, ⟨p⟩⟩
  · exact ⟨[], by simpa using he, by simp⟩
  · obtain ⟨fs, ps, -, -, ho⟩ := piSingle_parts draw t nSims nCum q1 q2 hq p
    rw [h] at ho
    cases ho
    refine ⟨p.past.mapIdx (quantRow q1 q2 ps) ++ p.future.mapIdx (quantRow q1 q2 fs), List.append_assoc _ _ _, ?_⟩
    intro r hr
    rcases List.mem_append.1 hr with hr | hr
    · refine key _ ps ?_ r hr
      intro r hr
      have := List.mem_filter.1 hr
      simp only [Bool.and_eq_true, Bool.not_eq_true'] at this
      exact ⟨this.1, this.2.1⟩
    · refine key _ fs ?_ r hr
      intro r hr
      have := List.mem_filter.1 hr
      simp only [Bool.and_eq_true, Bool.not_eq_true'] at this
      exact ⟨this.1, this.2.1⟩

/-- All rows of a run carry its source label. -/
theorem run_sources [FloorRing K] (w : World K) (args : RunArgs K) (source : String) (df : Frame K) (res : RunResult K)
    (h : runSingle w args source df = .ok res) : (∀ r ∈ res.data, r.source = source) ∧ ∀ r ∈ res.metadata, r.source = source := by
  obtain ⟨d, hd, hdata, hmeta, -⟩ := runSingle_inv w args source df res h
  obtain ⟨st⟩ := runFits_stages w args source df d hd
  have hd1 : d.1 = _ := congrArg Prod.fst st.hd
  have hd2 : d.2 = _ := congrArg Prod.snd st.hd
  have h1 : ∀ r ∈ d.1, r.source = source := by
    intro r hr
    rw [hd1] at hr
    obtain ⟨q, hq, rfl⟩ := List.mem_map.1 hr
    rcases List.mem_append.1 hq with hq | hq
    · unfold actualsClean at hq
      obtain ⟨q', -, rfl⟩ := List.mem_map.1 hq
      rfl
    · obtain ⟨k, m, f, rows, -, -, h3, h4⟩ := (fitLoop_spec _ _ _ _ _ st.hFits).2.2 q hq
      exact (forecastRows_mem _ _ _ _ h3 q h4).2.2.1
  have h2 : ∀ r ∈ d.2, r.source = source := by
    intro r hr
    rw [hd2] at hr
    obtain ⟨q, hq, rfl⟩ := List.mem_map.1 hr
    obtain ⟨k, hk⟩ := List.getElem?_of_mem hq
    obtain ⟨hl, ha, -⟩ := fitLoop_spec _ _ _ _ _ st.hFits
    have hlt : k < st.cand.2.length := by
      rw [← hl]
      exact (List.getElem?_eq_some_iff.1 hk).1
    obtain ⟨f, rows, -, -, e, -⟩ := ha k _ (List.getElem?_eq_getElem hlt)
    rw [hk] at e
    cases e
    rfl
  rw [hdata, hmeta]
  unfold selectFits
  split_ifs
  · exact ⟨h1, h2⟩
  · exact ⟨fun r hr => h1 r (List.mem_filter.1 hr).1, fun r hr => h2 r (List.mem_filter.1 hr).1⟩

/-- **C48.** The actual rows of the forecast table are the samples on or after the starting date that have a value, in order; every other row repeats a
best fit row of the data table. All rows carry the source label. -/
theorem C48_forecast_rows [FloorRing K] [IsStrictOrderedRing K] (w : World K) (args : RunArgs K) (source : String) (df : Frame K) (res : RunResult K)
    (h : runSingle w args source df = .ok res) :
    ((res.forecast.filter PRow.isActuals).map fun r => (r.date, r.y)) =
      ((kept args.start df).filter fun r => r.y.isSome).map (fun r => (position df r, r.y)) ∧
    (∀ r ∈ res.forecast, r.source = some source) ∧
    ∀ r ∈ res.forecast, r.isActuals = false → ∃ f ∈ res.data, f.isActuals = false ∧ f.isBest = true ∧ plain r = forecastOf f := by
  obtain ⟨d, hd, hdata, hmeta, hpi⟩ := runSingle_inv w args source df res h
  have hsrc := (run_sources w args source df res h).1
  rw [getPi_one_source _ _ _ source hsrc] at hpi
  obtain ⟨P, he, hP⟩ := piSingle_shape _ _ _ _ _ _ _ hpi
  have hrow : ∀ f ∈ selectRows (toFTable df.hasDate res.data), ∃ r ∈ res.data, content f = forecastOf r ∧ f.isActuals = r.isActuals ∧
      (r.isActuals = true ∨ r.isBest = true) := by
    intro f hf
    rw [selectRows_mem] at hf
    obtain ⟨q, hq, rfl⟩ := List.mem_map.1 hf.1
    refine ⟨q, hq, rfl, rfl, ?_⟩
    rcases hf.2 with hf2 | hf2
    · exact .inl hf2
    · right
      simpa [IsForecast, toFTable] using (Bool.and_eq_true _ _ ▸ hf2).2
  refine ⟨?_, ?_, ?_⟩
  · rw [he, List.filter_append]
    have e1 : P.filter PRow.isActuals = [] := by
      rw [List.filter_eq_nil_iff]
      intro r hr
      rw [(hP r hr).1]
      simp
    have e2 : ((actualsUnfiltered (selectRows (toFTable df.hasDate res.data))).map actualOut).filter PRow.isActuals =
        (actualsUnfiltered (selectRows (toFTable df.hasDate res.data))).map actualOut := by
      rw [List.filter_eq_self]
      intro r hr
      obtain ⟨q, -, rfl⟩ := List.mem_map.1 hr
      rfl
    rw [e1, e2, List.append_nil, List.map_map]
    have e3 : actualsUnfiltered (selectRows (toFTable df.hasDate res.data)) =
        (toFTable df.hasDate res.data).rows.filter fun r => r.isActuals && r.y.isSome := by
      apply selectRows_filter
      intro r _
      cases r.isActuals <;> simp
    rw [e3]
    have e4 := congrArg (List.filter fun p : Timestamp × Option K => p.2.isSome) (C48_actuals w args source df res h)
    rw [List.filter_map, List.filter_map] at e4
    have e5 : (toFTable df.hasDate res.data).rows.filter (fun r => r.isActuals && r.y.isSome) =
        ((res.data.filter DRow.isActuals).filter fun r => r.y.isSome).map
          fun r => ⟨r.date, some r.source, r.model, r.isActuals, r.isBest, r.y, r.weight⟩ := by
      unfold toFTable
      dsimp only
      rw [List.filter_map, List.filter_filter]
      congr 1
      apply List.filter_congr
      intro r _
      simp only [Function.comp]
      cases r.isActuals <;> simp
    rw [e5, List.map_map]
    exact e4
  · intro r hr
    rw [he] at hr
    have hsel : ∀ f ∈ selectRows (toFTable df.hasDate res.data), f.source = some source := by
      intro f hf
      obtain ⟨q, hq, e, -⟩ := hrow f hf
      have := congrArg PRow.source e
      rw [show (forecastOf q).source = some q.source from rfl, hsrc q hq] at this
      exact this
    rcases List.mem_append.1 hr with hr | hr
    · obtain ⟨q, hq, rfl⟩ := List.mem_map.1 hr
      exact hsel q (List.mem_filter.1 hq).1
    · obtain ⟨-, f, hf, -, e⟩ := hP r hr
      have := congrArg PRow.source e
      rw [show (plain r).source = r.source from rfl, show (content f).source = f.source from rfl, hsel f hf] at this
      exact this
  · intro r hr hra
    rw [he] at hr
    rcases List.mem_append.1 hr with hr | hr
    · obtain ⟨q, -, rfl⟩ := List.mem_map.1 hr
      cases hra
    · obtain ⟨-, f, hf, hfa, e⟩ := hP r hr
      obtain ⟨q, hq, e2, e3, e4⟩ := hrow f hf
      rw [hfa] at e3
      refine ⟨q, hq, e3.symm, ?_, e.trans e2⟩
      rcases e4 with e4 | e4
      · rw [e4] at e3; cases e3
      · exact e4

/-- **C48.** If the forecast can be compared with the data, the forecast table consists of exactly the samples with a value and the best fit rows. -/
theorem C48_forecast_complete [FloorRing K] [IsStrictOrderedRing K] (w : World K) (args : RunArgs K) (source : String) (df : Frame K)
    (res : RunResult K) (h : runSingle w args source df = .ok res) (hc : Comparable res.data) :
    (res.forecast.map plain).Perm ((res.data.filter fun r => if r.isActuals then r.y.isSome else r.isBest).map forecastOf) := by
  obtain ⟨d, hd, hdata, hmeta, hpi⟩ := runSingle_inv w args source df res h
  have hsrc := (run_sources w args source df res h).1
  rw [getPi_one_source _ _ _ source hsrc] at hpi
  have hov : Overlap (toFTable df.hasDate res.data) := by
    obtain ⟨f, hf, a, ha, h1, h2, h3, h4, h5, h6, wt, h7, h8⟩ := hc
    refine ⟨_, List.mem_map.2 ⟨f, hf, rfl⟩, _, List.mem_map.2 ⟨a, ha, rfl⟩, ?_, h3, ?_, h6, ?_⟩
    · simp [IsForecast, toFTable, h1, h2]
    · simp [Used, toFTable, h4, h7, h8, Option.isSome_iff_ne_none, h5]
    · simp [hsrc f hf, hsrc a ha]
  refine (C45_rows_partial _ _ _ _ _ _ _ hov hpi).trans (List.Perm.of_eq ?_)
  unfold shown toFTable
  dsimp only
  rw [List.filter_map, List.map_map]
  congr 1
  apply List.filter_congr
  intro r _
  simp only [Function.comp, IsForecast]
  cases r.isActuals <;> simp

/-- **C43 (whole run).** Quantile columns of the forecast table increase with their percentile, for every optimizer result and every random draw; forecast
rows have a value in all of them, actual rows in none. -/
theorem C43_run [FloorRing K] [IsStrictOrderedRing K] (w : World K) (args : RunArgs K) (source : String) (df : Frame K)
    (res : RunResult K) (h : runSingle w args source df = .ok res) (r : PRow K) (hr : r ∈ res.forecast) :
    Spec.Ordered r ∧ (r.isActuals = true → r.q = []) ∧
    (r.isActuals = false → ∀ p ∈ [args.q1, 100 - args.q1, args.q2, 100 - args.q2], ∃ v, (p, some v) ∈ r.q) := by
  obtain ⟨d, hd, hdata, hmeta, hpi⟩ := runSingle_inv w args source df res h
  refine ⟨C43_ordered _ _ _ _ _ _ _ _ hpi r hr, (C43_complete _ _ _ _ _ _ _ _ (by norm_num) hpi r hr).1, ?_⟩
  intro hra p hp
  obtain ⟨v, hv, hn⟩ := (C43_complete _ _ _ _ _ _ _ _ (by norm_num) hpi r hr).2 hra p hp
  obtain ⟨f, hf, hfa, -, e⟩ := (C48_forecast_rows w args source df res h).2.2 r hr hra
  have hy : r.y ≠ none := by
    have e1 : r.y = f.y := congrArg PRow.y e
    rw [e1]
    rw [hdata] at hf
    have hf' : f ∈ d.1 := by
      unfold selectFits at hf
      split_ifs at hf
      · exact hf
      · exact (List.mem_filter.1 hf).1
    obtain ⟨st⟩ := runFits_stages w args source df d hd
    have hd1 : d.1 = _ := congrArg Prod.fst st.hd
    rw [hd1] at hf'
    obtain ⟨q, hq, rfl⟩ := List.mem_map.1 hf'
    rcases List.mem_append.1 hq with hq | hq
    · unfold actualsClean at hq
      obtain ⟨q', -, rfl⟩ := List.mem_map.1 hq
      cases hfa
    · obtain ⟨k, m, fr, rows, -, -, h3, h4⟩ := (fitLoop_spec _ _ _ _ _ st.hFits).2.2 q hq
      exact (forecastRows_mem _ _ _ _ h3 q h4).2.1
  obtain ⟨u, rfl⟩ := Option.ne_none_iff_exists'.1 (hn hy)
  exact ⟨u, hv⟩

end Anticipy
