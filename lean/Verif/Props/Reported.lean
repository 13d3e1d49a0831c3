import Verif.Spec.Reported
import Verif.Props.UnitWeights
import Verif.Props.Ignored

/-
C119: the weights reported by a run that searches for outliers, given as weights of the input, have the same result without any search.
-/
namespace Anticipy
open Spec
variable {K : Type} [Field K] [LinearOrder K]

omit [Field K] [LinearOrder K] in
theorem filterStart_given (u : Int → Option K) (s : Option Timestamp) (df : Frame K) :
    filterStart s (givenFrame u df) = givenFrame u (filterStart s df) := by
  obtain ⟨hd, hw, rows⟩ := df
  cases s with
  | none => rfl
  | some t =>
    cases hd with
    | false => rfl
    | true =>
      simp only [filterStart, givenFrame, if_true, List.filter_map]
      rfl

omit [Field K] [LinearOrder K] in
theorem bare_given (u : Int → Option K) (df : Frame K) : bare (givenFrame u df) = bare df := by
  unfold bare givenFrame
  rw [List.map_map]
  rfl

/-- If the samples carry the weights that the search leaves, the search is the same as giving these weights. -/
theorem search_given [FloorRing K] [IsStrictOrderedRing K] (u : Int → Option K) (df df2 : Frame K) (h : applyOutliers true df = .ok df2)
    (hu : ∀ r ∈ df2.rows, r.weight = u (place df2.hasDate r)) : givenFrame u df = df2 := by
  unfold applyOutliers at h
  rw [if_pos rfl] at h
  cases hm : getModelOutliers df 3 with
  | error e => rw [hm] at h; cases h
  | ok m =>
    rw [hm] at h
    simp only [bind, Except.bind] at h
    have h := Except.ok.inj h
    have hl := (C39_length _ _ _ _ (show getModelOutliers df 3 = Except.ok (m.1, m.2) from hm)).2
    subst h
    unfold givenFrame
    simp only [Frame.mk.injEq, true_and]
    have key : ∀ (rows : List (Row K)) (spike : List Bool), spike.length = rows.length →
        (∀ r ∈ List.zipWith (outlierWeight df.hasWeight) rows spike, r.weight = u (place df.hasDate r)) →
        rows.map (fun r => { r with weight := u (place df.hasDate r) }) = List.zipWith (outlierWeight df.hasWeight) rows spike := by
      intro rows
      induction rows with
      | nil => intro spike _ _; rfl
      | cons r rows ih =>
        intro spike hl hu
        cases spike with
        | nil => simp at hl
        | cons b spike =>
          rw [List.zipWith_cons_cons] at hu ⊢
          rw [List.map_cons, ih spike (by simpa using hl) (fun q hq => hu q (List.mem_cons_of_mem _ hq))]
          congr 1
          have := hu _ List.mem_cons_self
          have e : place df.hasDate (outlierWeight df.hasWeight r b) = place df.hasDate r := rfl
          rw [e] at this
          rw [← this]
          rfl
    exact key df.rows m.2 hl hu

/-- **C119.** The weights reported by a run that searches for outliers, given as weights of the samples, have exactly the same result in a run that does not search. -/
theorem C119_weights [FloorRing K] [IsStrictOrderedRing K] (w : World K) (args : RunArgs K) (source : String) (df : Frame K) (hout : args.findOutliers = true)
    (res : RunResult K) (h : runSingle w args source df = .ok res) (u : Int → Option K) (hu : ReportsWeights u res) :
    runSingle w { args with findOutliers := false } source (givenFrame u df) = .ok res := by
  obtain ⟨d, hd, hdata, -, -⟩ := runSingle_inv w args source df res h
  obtain ⟨st⟩ := runFits_stages w args source df d hd
  have hOut := st.hOut
  rw [hout] at hOut
  have hw2 : st.df2.hasWeight = true := by
    unfold applyOutliers at hOut
    rw [if_pos rfl] at hOut
    cases hm : getModelOutliers (filterStart args.start df) 3 with
    | error e => rw [hm] at hOut; cases hOut
    | ok m =>
      rw [hm] at hOut
      rw [← Except.ok.inj hOut]
  have hdef : (defaultWeights st.df2).1 = st.df2 := by
    unfold defaultWeights
    rw [if_pos hw2]
  have hrows := actual_rows w args source df d st
  rw [← hdata, hdef] at hrows
  have hu2 : ∀ r ∈ st.df2.rows, r.weight = u (place st.df2.hasDate r) := by
    intro r hr
    obtain ⟨q, hq, h1, h2⟩ : ∃ q ∈ res.data.filter DRow.isActuals, q.weight = r.weight ∧ q.date = place st.df2.hasDate r := by
      rw [hrows]
      unfold actualsClean
      rw [List.map_map]
      exact ⟨_, List.mem_map_of_mem hr, rfl, rfl⟩
    have hq := List.mem_filter.1 hq
    rw [← h1, ← h2]
    exact hu _ hq.1 hq.2
  have e2 := search_given u _ _ hOut hu2
  have hfreq : runFreq (givenFrame u df) = runFreq df := by
    unfold runFreq givenFrame
    simp only [List.map_map]
    rfl
  have hact : ∀ used, actualsInterpolated w.srt (givenFrame u df) used = actualsInterpolated w.srt df used := by
    intro used
    rw [← actuals_bare, bare_given, actuals_bare]
  have hset : ∀ a b c d, mkSetup w { args with findOutliers := false } source (givenFrame u df) a b c d = mkSetup w args source df a b c d := by
    intro a b c d
    unfold mkSetup
    rw [hfreq]
  have hfit : runFits w { args with findOutliers := false } source (givenFrame u df) = runFits w args source df := by
    unfold runFits
    dsimp only
    rw [hout, hOut, filterStart_given, e2]
    have : applyOutliers false st.df2 = .ok st.df2 := rfl
    rw [this]
    simp only [hact, hset, hfreq]
  rw [← h]
  unfold runSingle
  rw [hfit]
  rfl

omit [LinearOrder K] in
theorem seriesFrame_given [LinearOrder K] [IsStrictOrderedRing K] (u : Option String → Timestamp → Option K) (t : STable K) (s : String) :
    seriesFrame (givenTable u t) s = givenFrame (u (if t.hasSource then some s else none)) (seriesFrame t s) := by
  refine (seriesFrame_map { t with hasWeight := true } (fun r => { r with weight := u (if t.hasSource then r.source else none) r.date }) 0 (fun _ => rfl) (fun r => by simp) s).trans ?_
  unfold givenFrame seriesFrame
  simp only [List.map_map, Frame.mk.injEq, true_and]
  apply List.map_congr_left
  intro r hr
  have hr : r ∈ rowsOf t s := (sortBy_perm _ _).mem_iff.1 hr
  simp only [Function.comp_apply, place, if_true, Row.mk.injEq, true_and]
  refine ⟨by ring, rfl, ?_⟩
  unfold rowsOf at hr
  split_ifs at hr ⊢ with hs
  · have : r.source = some s := by
      have := (List.mem_filter.1 hr).2
      simpa using this
    rw [this]
  · rfl

/-- **C119, tables.** The same for each series of a table: the weights that a run with search reports for the series, given as weights of the table, have the same result. -/
theorem C119_table [FloorRing K] [IsStrictOrderedRing K] (w : World K) (args : RunArgs K) (id : String) (t : STable K) (hp : Proper t) (s : String) (hs : IsSeries t id s)
    (hout : args.findOutliers = true) (u : Option String → Timestamp → Option K) (res res' : RunResult K) (h : runForecast w args id t = .ok (some res))
    (h' : runForecast w { args with findOutliers := false } id (givenTable u t) = .ok (some res'))
    (hu : ReportsWeights (u (if t.hasSource then some s else none)) (partOf t s res)) : partOf t s res' = partOf t s res := by
  obtain ⟨-, hrun⟩ := series_run w id t hp s hs
  have hp1 : Proper { t with hasWeight := true } := ⟨⟨hp.onePerDate.hasX, hp.onePerDate.hasDate, hp.onePerDate.timeOfDay, hp.onePerDate.distinct⟩, hp.labelled⟩
  have hp' : Proper (givenTable u t) := proper_map { t with hasWeight := true } _ 0 (fun _ => rfl) (fun r => by simp) hp1
  have hs' : IsSeries (givenTable u t) id s :=
    isSeries_map { t with hasWeight := true } (fun r => { r with weight := u (if t.hasSource then r.source else none) r.date }) (fun _ => rfl) id s hs
  obtain ⟨-, hrun'⟩ := series_run w id _ hp' s hs'
  have h2 : runSingle w { args with findOutliers := false } s (seriesFrame (givenTable u t) s) = .ok (partOf t s res') := hrun' _ res' h'
  rw [seriesFrame_given, C119_weights w args s _ hout _ (hrun args res h) _ hu] at h2
  exact (Except.ok.inj h2).symm

end Anticipy
