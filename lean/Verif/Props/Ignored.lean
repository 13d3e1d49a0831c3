import Verif.Spec.Ignored
import Verif.Props.NullRows
import Verif.Props.RunTables
import Verif.Props.RunExamples
import Verif.Props.AdditiveTable

/-
C107: the values of ignored samples have no influence.
-/
namespace Anticipy
open Spec
variable {K : Type}

/-! ### Other values in a table -/

/-- A sample with another value, which depends on its place and its value. -/
def revalueRow (hd : Bool) (h : Int → Option K → Option K) (r : Row K) : Row K := { r with y := h (place hd r) r.y }

/-- A table with other values. -/
def revalue (h : Int → Option K → Option K) (df : Frame K) : Frame K := { df with rows := df.rows.map (revalueRow df.hasDate h) }

/-- The places of the samples. -/
def places (df : Frame K) : List Int := df.rows.map (place df.hasDate)

theorem revalue_map {β : Type} (h : Int → Option K → Option K) (df : Frame K) (g : Row K → β) (hg : ∀ r y, g { r with y := y } = g r) :
    (revalue h df).rows.map g = df.rows.map g := by
  unfold revalue
  rw [List.map_map]
  exact List.map_congr_left fun r _ => hg r _

theorem interpolateDf_revalue (h : Int → Option K → Option K) (df : Frame K) (hn : ∀ t, t ∉ places df → h t none = none) :
    interpolateDf (revalue h df) = (interpolateDf df).map (revalue h) := by
  obtain ⟨hd, hw, rows⟩ := df
  have h1 : (rows.map (revalueRow hd h)).map Row.date = rows.map Row.date := by rw [List.map_map]; rfl
  have h2 : (rows.map (revalueRow hd h)).map Row.x = rows.map Row.x := by rw [List.map_map]; rfl
  have hf : ∀ t, findRow (rows.map (revalueRow hd h)) t = (findRow rows t).map (revalueRow hd h) := by
    intro t
    unfold findRow
    rw [List.find?_map]
    rfl
  cases hd with
  | true =>
    unfold interpolateDf
    simp only [revalue, if_true, h1]
    by_cases hb : nuniqueDiff (dedupBy (fun t : Timestamp => t) (rows.map Row.date)) ≤ 1 ∧
        sparseDaily (detectFreq (rows.map Row.date)) (diffs (dedupBy (fun t : Timestamp => t) (rows.map Row.date))) = false
    · rw [if_pos hb, if_pos hb]; rfl
    rw [if_neg hb, if_neg hb]
    by_cases hdup : hasDup (rows.map Row.date) = true
    · rw [if_pos hdup, if_pos hdup]; rfl
    rw [if_neg hdup, if_neg hdup]
    cases listMin (rows.map Row.date) with
    | none => rfl
    | some a =>
      cases listMax (rows.map Row.date) with
      | none => rfl
      | some b =>
        dsimp only
        simp only [hf, List.map_map, Function.comp_def, Option.map_map]
        have e1 : (fun r : Row K => (((revalueRow true h r).x : Int) : ℚ)) = fun r : Row K => ((r.x : Int) : ℚ) := rfl
        simp only [e1]
        generalize toIntCol _ = ti
        cases ti with
        | error e => rfl
        | ok xs =>
          simp only [Except.map, revalue, List.map_zipWith, List.zipWith_map_left]
          congr 2
          congr 1
          funext t x
          cases hfr : findRow rows t with
          | none =>
            have := hn t (findRow_none rows t hfr)
            simp [revalueRow, place, this]
          | some r =>
            have := (findRow_some rows t r hfr).2
            simp [revalueRow, place, this]
  | false =>
    unfold interpolateDf
    simp only [revalue, Bool.false_eq_true, if_false, h2]
    by_cases hb : nuniqueDiff (dedupBy (fun t : Int => t) (rows.map Row.x)) ≤ 1
    · rw [if_pos hb, if_pos hb]; rfl
    rw [if_neg hb, if_neg hb]
    by_cases hdup : hasDup (rows.map Row.x) = true
    · rw [if_pos hdup, if_pos hdup]; rfl
    rw [if_neg hdup, if_neg hdup]
    cases listMin (rows.map Row.x) with
    | none => rfl
    | some a =>
      cases listMax (rows.map Row.x) with
      | none => rfl
      | some b =>
        dsimp only
        simp only [Except.map, revalue, List.map_map]
        congr 2
        apply List.map_congr_left
        intro i _
        have e2 : (rows.map (revalueRow false h)).find? (fun r : Row K => decide (r.x = a + (i : Int))) =
            (rows.find? fun r : Row K => decide (r.x = a + (i : Int))).map (revalueRow false h) := by rw [List.find?_map]; rfl
        simp only [Function.comp_apply, e2]
        cases hfr : rows.find? (fun r => decide (r.x = a + (i : Int))) with
        | none =>
          have : h (a + (i : Int)) none = none := by
            apply hn
            intro hc
            obtain ⟨r, hr, e⟩ := List.mem_map.1 hc
            rw [List.find?_eq_none] at hfr
            exact hfr r hr (by simpa [place] using e)
          simp [revalueRow, place, this]
        | some r => rfl

/-- A filled table has the samples' own x at their places. -/
theorem interpolated_x (df out : Frame K) (hdis : Distinct df) (ho : interpolateDf df = .ok out) (r : Row K) (hr : r ∈ out.rows) (r0 : Row K) (hr0 : r0 ∈ df.rows)
    (e : place df.hasDate r = place df.hasDate r0) : r.x = r0.x := by
  obtain ⟨hd, hw, rows⟩ := df
  cases hd with
  | false => exact e
  | true =>
    have e : r.date = r0.date := e
    rcases interpolateDf_cases _ _ rfl ho with rfl | ⟨a, b, xs, hn, ha, hb, hxs, rfl⟩
    · exact congrArg Row.x (List.inj_on_of_nodup_map (hdis.dates rfl) hr hr0 e)
    · dsimp only at hr hr0 hn hxs
      obtain ⟨hl, hk⟩ := toIntCol_spec _ _ hxs
      obtain ⟨i, hi⟩ := List.mem_iff_getElem?.1 hr
      have hlen : xs.length = (dateRange a b ((detectFreq (rows.map Row.date)).getD .D)).length := by
        rw [hl]; unfold interpolateCol; rw [interpolateFrom_length, List.length_map]
      have hil : i < (dateRange a b ((detectFreq (rows.map Row.date)).getD .D)).length := by
        have := (List.getElem?_eq_some_iff.1 hi).1
        rwa [fillRows_length _ _ _ hlen] at this
      have h1 := List.getElem?_eq_getElem hil
      have h2 := List.getElem?_eq_getElem (hlen ▸ hil : i < xs.length)
      have h3 := fillRows_get _ rows xs i _ _ h1 h2
      rw [h3] at hi
      cases hi
      dsimp only at e ⊢
      have h4 : (interpolateCol ((dateRange a b ((detectFreq (rows.map Row.date)).getD .D)).map fun t =>
        (findRow rows t).map fun r => ((r.x : Int) : ℚ)))[i]? = some (some ((r0.x : Int) : ℚ)) := by
        apply interpolateFrom_known
        rw [List.getElem?_map, h1]
        simp only [Option.map_some, e, findRow_of_mem rows hn r0 hr0]
      have h5 := hk i r0.x h4
      rw [h2] at h5
      exact Option.some.inj h5

/-! ### The forecast -/

section
variable [Field K] [LinearOrder K]

theorem used_revalue (h : Int → Option K → Option K) (df : Frame K) (hs : ∀ r ∈ df.rows, (∃ w ∈ r.weight, 0 < w) → h (place df.hasDate r) r.y = r.y) :
    usedRows (revalue h df) = usedRows df := by
  obtain ⟨hd, hw, rows⟩ := df
  unfold usedRows revalue
  congr 1
  dsimp only at hs ⊢
  induction rows with
  | nil => rfl
  | cons r l ih =>
    have ih := ih fun q hq => hs q (List.mem_cons_of_mem _ hq)
    rw [List.map_cons, List.filter_cons, List.filter_cons, ih]
    by_cases hc : ∃ w ∈ r.weight, 0 < w
    · have e : revalueRow hd h r = r := by
        unfold revalueRow
        rw [hs r List.mem_cons_self hc]
      rw [e]
    · have hc' : ¬ ∃ w ∈ (revalueRow hd h r).weight, 0 < w := hc
      simp only [hc, hc', decide_false, Bool.false_eq_true, if_false]

/-- The table that naive models see. -/
theorem actuals_revalue (srt : SortAlg) (h : Int → Option K → Option K) (df : Frame K) (used : Frame K) (hdis : Distinct df)
    (hn : ∀ t, t ∉ places df → ∀ y, h t y = y) (hux : (used.rows.map Row.x).Nodup)
    (hs : ∀ r ∈ df.rows, r.x ∈ used.rows.map Row.x → ∀ y, h (place df.hasDate r) y = y) :
    actualsInterpolated srt (revalue h df) used = actualsInterpolated srt df used := by
  unfold actualsInterpolated
  rw [interpolateDf_revalue h df fun t ht => hn t ht none]
  cases ho : interpolateDf df with
  | error e => rfl
  | ok out =>
    simp only [Except.map, bind, Except.bind]
    have hod : out.hasDate = df.hasDate := by
      cases hd : df.hasDate with
      | true =>
        rcases interpolateDf_cases _ _ hd ho with rfl | ⟨a, b, xs, hn, ha, hb, hxs, rfl⟩
        · exact hd
        · exact hd
      | false =>
        obtain ⟨o', ho', -⟩ := C25_numeric df hd hdis.xs
        unfold interpolateDf at ho
        simp only [hd, Bool.false_eq_true, if_false] at ho
        split at ho
        · cases ho; exact hd
        · split at ho
          · cases ho
          · split at ho
            · cases ho; rfl
            · cases ho; exact hd
    unfold revalue
    dsimp only
    rw [hod, srt.natural (fun a b : Row K => decide (a.x ≤ b.x)) (fun a b : Row K => decide (a.x ≤ b.x)) (revalueRow df.hasDate h) out.rows (fun _ _ _ _ => rfl), List.flatMap_map]
    congr 2
    apply List.flatMap_congr
    intro r hr
    have hr : r ∈ out.rows := (srt.perm _ _).mem_iff.1 hr
    have hx : (revalueRow df.hasDate h r).x = r.x := rfl
    by_cases hp : place df.hasDate r ∈ places df
    · obtain ⟨r0, hr0, e⟩ := List.mem_map.1 hp
      have hxx := interpolated_x df out hdis ho r hr r0 hr0 e.symm
      by_cases hu : r.x ∈ used.rows.map Row.x
      · have e2 : revalueRow df.hasDate h r = r := by
          unfold revalueRow
          rw [← e, hs r0 hr0 (hxx ▸ hu)]
        rw [e2]
      · rcases mergeWeight_single used.rows hux (revalueRow df.hasDate h r) with ⟨-, e1⟩ | ⟨u, hu1, hu2, -⟩
        · rcases mergeWeight_single used.rows hux r with ⟨-, e1'⟩ | ⟨u, hu1, hu2, -⟩
          · rw [e1, e1']; rfl
          · exact absurd (List.mem_map.2 ⟨u, hu1, hu2⟩) hu
        · exact absurd (List.mem_map.2 ⟨u, hu1, hu2⟩) hu
    · have e2 : revalueRow df.hasDate h r = r := by
        unfold revalueRow
        rw [hn _ hp]
      rw [e2]

theorem defaultWeights_revalue (h : Int → Option K → Option K) (df : Frame K) :
    defaultWeights (revalue h df) = (revalue h (defaultWeights df).1, (defaultWeights df).2) := by
  obtain ⟨hd, hw, rows⟩ := df
  have e : (rows.map (revalueRow hd h)).filterMap Row.weight = rows.filterMap Row.weight := by rw [List.filterMap_map]; rfl
  cases hw with
  | true => simp only [defaultWeights, revalue, if_true, e]
  | false =>
    simp only [defaultWeights, revalue, Bool.false_eq_true, if_false, List.map_map]
    rfl

theorem range_revalue (h : Int → Option K → Option K) (df : Frame K) : runRange (revalue h df) = runRange df := by
  have e : axisOf (revalue h df) = axisOf df := by
    unfold axisOf
    rw [revalue_map h df _ fun _ _ => rfl, revalue_map h df _ fun _ _ => rfl]
    rfl
  unfold runRange
  rw [e]
  rfl

/-- An observation with another value in a result table. -/
def revalueD (h : Int → Option K → Option K) (r : DRow K) : DRow K := if r.isActuals then { r with y := h r.date r.y } else r

theorem clean_revalue (h : Int → Option K → Option K) (df : Frame K) (source : String) (long : SourceLong K) :
    actualsClean (revalue h df) source long = (actualsClean df source long).map (revalueD h) := by
  unfold actualsClean revalue
  rw [List.map_map, List.map_map]
  apply List.map_congr_left
  intro r _
  cases hd : df.hasDate <;> simp [revalueRow, revalueD, place]

theorem fitLoop_forecast (env : Nat → Env K) (s : FitSetup K) (i : Nat) (l : List (ForecastModel K)) (out : List (MRow K) × List (DRow K)) (h : fitLoop env s i l = .ok out) :
    ∀ r ∈ out.2, r.isActuals = false := by
  induction l generalizing i out with
  | nil => cases h; simp
  | cons m l ih =>
    unfold fitLoop at h
    simp only [bind, Except.bind] at h
    split at h
    · cases h
    rename_i f hf
    split at h
    · cases h
    rename_i d hd
    split at h
    · cases h
    rename_i o ho
    cases h
    intro r hr
    rcases List.mem_append.1 hr with hr | hr
    · unfold forecastRows at hd
      split at hd
      · split at hd
        · simp only [bind, Except.bind] at hd
          split at hd
          · cases hd
          cases hd
          obtain ⟨p, -, rfl⟩ := List.mem_map.1 hr
          rfl
        · cases hd
      · cases hd; simp at hr
    · exact ih _ _ ho r hr

/-- The fits do not change if only values of samples without positive weight change. -/
theorem runFits_revalue [FloorRing K] (w : World K) (args : RunArgs K) (source : String) (df : Frame K) (d : List (DRow K) × List (MRow K)) (st : RunStages w args source df d)
    (h : Int → Option K → Option K) (hdis : Distinct df) (hmode : args.models.mode ≠ .auto)
    (hn : ∀ t, t ∉ places df → ∀ y, h t y = y)
    (hOut : applyOutliers args.findOutliers (filterStart args.start (revalue h df)) = .ok (revalue h st.df2)) (hd2 : st.df2.hasDate = df.hasDate)
    (hsub : ((defaultWeights st.df2).1.rows.map Row.x).Nodup)
    (hs : ∀ r ∈ (usedRows (defaultWeights st.df2).1).rows, ∃ r0 ∈ df.rows, r0.x = r.x ∧ place df.hasDate r0 = place df.hasDate r ∧ ∀ y, h (place df.hasDate r) y = y) :
    runFits w args source (revalue h df) = .ok (d.1.map (revalueD h), d.2) := by
  have hdw : (defaultWeights st.df2).1.hasDate = df.hasDate := by
    rw [← hd2]; unfold defaultWeights; split <;> rfl
  have hww : (defaultWeights st.df2).1.hasWeight = true := by
    unfold defaultWeights
    split
    · assumption
    · rfl
  have husedeq : usedRows (revalue h (defaultWeights st.df2).1) = usedRows (defaultWeights st.df2).1 := by
    apply used_revalue
    intro r hr hc
    obtain ⟨r0, -, -, -, e⟩ := hs r (List.mem_filter.2 ⟨hr, by simpa using hc⟩)
    rw [hdw]
    exact e _
  have hfreq : runFreq (revalue h df) = runFreq df := by
    unfold runFreq
    rw [revalue_map h df _ fun _ _ => rfl]
    rfl
  have hwd : weightedDates (revalue h (defaultWeights st.df2).1) = weightedDates (defaultWeights st.df2).1 := by
    have := congrArg (fun f : Frame K => f.rows.map Row.date) husedeq
    unfold weightedDates
    have e : (revalue h (defaultWeights st.df2).1).hasWeight = true := hww
    rw [if_pos e, if_pos hww]
    exact this
  have hspan : SameSpan (weightedDates (defaultWeights st.df2).1) (weightedDates (revalue h (defaultWeights st.df2).1)) := by
    rw [hwd]; exact ⟨rfl, rfl, rfl⟩
  have hcand : candidates w.ch args.models (revalue h (defaultWeights st.df2).1) (runFreq df) = .ok st.cand := by
    rw [candidates_sameSpan w.ch args.models (defaultWeights st.df2).1 (revalue h (defaultWeights st.df2).1) _ rfl hspan hmode]
    exact st.hCand
  have hact : actualsInterpolated w.srt (revalue h df) (usedRows (defaultWeights st.df2).1) = .ok st.actuals := by
    rw [actuals_revalue w.srt h df _ hdis hn]
    · exact st.hAct
    · exact (List.filter_sublist.map Row.x).nodup hsub
    · intro r hr hx
      obtain ⟨u, hu, e⟩ := List.mem_map.1 hx
      obtain ⟨r0, hr0, e1, e2, e3⟩ := hs u hu
      have : r0 = r := List.inj_on_of_nodup_map hdis.xs hr0 hr (e1.trans e)
      rw [← this, e2]
      exact e3
  have hax : axisOf (revalue h (defaultWeights st.df2).1) = axisOf (defaultWeights st.df2).1 := by
    unfold axisOf
    rw [revalue_map h _ _ fun _ _ => rfl, revalue_map h _ _ fun _ _ => rfl]
    rfl
  have hset : mkSetup w args source (revalue h df) (revalue h (defaultWeights st.df2).1) (defaultWeights st.df2).2 st.cand.1 st.actuals =
      mkSetup w args source df (defaultWeights st.df2).1 (defaultWeights st.df2).2 st.cand.1 st.actuals := by
    unfold mkSetup
    rw [hfreq, husedeq, hax, composed_sameSpan w.ch args.models (defaultWeights st.df2).1 (revalue h (defaultWeights st.df2).1) false rfl hspan]
  unfold runFits
  simp only [bind, Except.bind]
  rw [hOut]
  dsimp only
  rw [defaultWeights_revalue]
  dsimp only
  rw [range_revalue, st.hRange]
  dsimp only
  rw [hfreq, hcand]
  dsimp only
  rw [husedeq, hact]
  dsimp only
  rw [hset, st.hFits]
  dsimp only
  rw [if_neg st.hNe, clean_revalue]
  have e1 := congrArg Prod.fst st.hd
  have e2 := congrArg Prod.snd st.hd
  dsimp only at e1 e2
  refine congrArg Except.ok (Prod.ext ?_ e2.symm)
  dsimp only
  refine Eq.trans ?_ (congrArg (List.map (revalueD h)) e1.symm)
  rw [List.map_append, List.map_append, List.map_append, List.map_map, List.map_map]
  congr 1
  · apply List.map_congr_left
    intro r _
    unfold revalueD flagData
    dsimp only [Function.comp_apply]
    split <;> rfl
  · rw [List.map_map]
    apply List.map_congr_left
    intro r hr
    have := fitLoop_forecast _ _ _ _ _ st.hFits r hr
    unfold revalueD flagData
    simp [this]

/-! ### The prediction intervals -/

/-- An observation with another value in the table handed to the prediction intervals. -/
def revalueF (h : Int → Option K → Option K) (r : FRow K) : FRow K := if r.isActuals then { r with y := h r.date r.y } else r

theorem revalueF_actual (h : Int → Option K → Option K) (r : FRow K) : (revalueF h r).isActuals = r.isActuals := by unfold revalueF; split <;> rfl
theorem revalueF_date (h : Int → Option K → Option K) (r : FRow K) : (revalueF h r).date = r.date := by unfold revalueF; split <;> rfl
theorem revalueF_best (h : Int → Option K → Option K) (r : FRow K) : (revalueF h r).isBest = r.isBest := by unfold revalueF; split <;> rfl
theorem revalueF_weight (h : Int → Option K → Option K) (r : FRow K) : (revalueF h r).weight = r.weight := by unfold revalueF; split <;> rfl
theorem revalueF_source (h : Int → Option K → Option K) (r : FRow K) : (revalueF h r).source = r.source := by unfold revalueF; split <;> rfl
theorem revalueF_prediction (h : Int → Option K → Option K) (r : FRow K) (e : r.isActuals = false) : revalueF h r = r := by unfold revalueF; simp [e]

theorem filter_prediction (h : Int → Option K → Option K) (p : FRow K → Bool) (rows : List (FRow K)) (hp : ∀ r : FRow K, p r = true → r.isActuals = false) :
    (rows.map (revalueF h)).filter p = rows.filter p := by
  induction rows with
  | nil => rfl
  | cons r l ih =>
    rw [List.map_cons, List.filter_cons, List.filter_cons, ih]
    cases ha : r.isActuals with
    | false => rw [revalueF_prediction h r ha]
    | true =>
      have h1 : p r = false := by
        cases hc : p r with
        | false => rfl
        | true => rw [hp r hc] at ha; cases ha
      have h2 : p (revalueF h r) = false := by
        cases hc : p (revalueF h r) with
        | false => rfl
        | true => have := hp _ hc; rw [revalueF_actual, ha] at this; cases this
      rw [h1, h2]
      simp

theorem unfiltered_flatMap {β : Type} (rows : List (FRow K)) (g : FRow K → List β) :
    (actualsUnfiltered rows).flatMap g = rows.flatMap fun r => if r.isActuals && r.y.isSome then g r else [] := by
  unfold actualsUnfiltered
  induction rows with
  | nil => rfl
  | cons r l ih =>
    rw [List.filter_cons, List.flatMap_cons]
    split
    · rw [List.flatMap_cons, ih]
    · rw [ih, List.nil_append]

theorem filtered_revalue (h : Int → Option K → Option K) (t : FTable K) (rows : List (FRow K))
    (hz : ∀ r ∈ rows, r.isActuals = true → (∀ y, h r.date y = y) ∨
      anyZeroWeight t rows = true ∧ ∀ q ∈ rows, q.isActuals = true → q.date = r.date → ¬ ∃ w ∈ q.weight, 0 < w) :
    actualsFiltered t (rows.map (revalueF h)) = actualsFiltered t rows := by
  have hany : ∀ t : FTable K, anyZeroWeight t (rows.map (revalueF h)) = anyZeroWeight t rows := by
    intro t
    unfold anyZeroWeight
    rw [List.any_map]
    congr 2
    funext r
    simp only [Function.comp_apply, revalueF_weight]
  unfold actualsFiltered
  rw [hany]
  cases hc : anyZeroWeight t rows with
  | false =>
    have : rows.map (revalueF h) = rows := by
      conv => rhs; rw [← List.map_id rows]
      apply List.map_congr_left
      intro r hr
      unfold revalueF
      split
      · rename_i ha
        rcases hz r hr ha with e | ⟨e, -⟩
        · rw [e]; rfl
        · rw [hc] at e; cases e
      · rfl
    rw [this]
  | true =>
    simp only [if_true]
    cases t.hasSource with
    | false => rfl
    | true =>
      simp only [if_true]
      congr 2
      rw [unfiltered_flatMap, unfiltered_flatMap, List.flatMap_map]
      apply List.flatMap_congr
      intro r hr
      have hdates : ∀ u, ((((rows.map (revalueF h)).filter fun r => r.isActuals && decide (∃ w ∈ r.weight, 0 < w)).filter fun d => decide (d.date = u)).map FRow.source) =
          (((rows.filter fun r => r.isActuals && decide (∃ w ∈ r.weight, 0 < w)).filter fun d => decide (d.date = u)).map FRow.source) := by
        intro u
        rw [List.filter_map, List.filter_map, List.map_map]
        have e1 : ((fun r : FRow K => r.isActuals && decide (∃ w ∈ r.weight, 0 < w)) ∘ revalueF h) = fun r : FRow K => r.isActuals && decide (∃ w ∈ r.weight, 0 < w) := by
          funext r
          simp only [Function.comp_apply, revalueF_actual, revalueF_weight]
        have e2 : ((fun d : FRow K => decide (d.date = u)) ∘ revalueF h) = fun d : FRow K => decide (d.date = u) := by
          funext r
          simp only [Function.comp_apply, revalueF_date]
        have e3 : FRow.source ∘ revalueF (K := K) h = FRow.source := by
          funext r
          simp only [Function.comp_apply, revalueF_source]
        rw [e1, e2, e3]
      have key : ∀ (l : List (FRow K)) (r : FRow K), (l.filterMap fun d => r.y.map fun v => (⟨r.date, v, d.source⟩ : ActualRow K)) =
          (l.map FRow.source).filterMap fun s => r.y.map fun v => ⟨r.date, v, s⟩ := by
        intro l r
        rw [List.filterMap_map]
        rfl
      rw [key, key, hdates, revalueF_actual, revalueF_date]
      cases ha : r.isActuals with
      | false => rfl
      | true =>
        rcases hz r hr ha with e | ⟨-, e⟩
        · have : (revalueF h r).y = r.y := by unfold revalueF; rw [if_pos ha]; exact e _
          rw [this]
        · have : ((rows.filter fun r => r.isActuals && decide (∃ w ∈ r.weight, 0 < w)).filter fun d => decide (d.date = r.date)) = [] := by
            rw [List.filter_eq_nil_iff]
            intro q hq
            obtain ⟨h1, h2⟩ := List.mem_filter.1 hq
            rw [Bool.and_eq_true, decide_eq_true_eq] at h2
            simp only [decide_eq_true_eq]
            intro e'
            exact e q h1 h2.1 e' h2.2
          rw [this]
          simp

/-- The prediction intervals do not change. -/
theorem pi_revalue [FloorRing K] (draw : Nat → Nat → Nat) (t : FTable K) (nSims : Nat) (nCum : Int) (q1 q2 : K) (h : Int → Option K → Option K) (p : List (PRow K))
    (hp : piSingle draw t nSims nCum q1 q2 = .ok p)
    (hz : ∀ r ∈ selectRows t, r.isActuals = true → (∀ y, h r.date y = y) ∨
      anyZeroWeight t (selectRows t) = true ∧ ∀ q ∈ selectRows t, q.isActuals = true → q.date = r.date → ¬ ∃ w ∈ q.weight, 0 < w) :
    ∃ p', piSingle draw { t with rows := t.rows.map (revalueF h) } nSims nCum q1 q2 = .ok p' ∧ p'.filter (fun r => !r.isActuals) = p.filter fun r => !r.isActuals := by
  have hsel : selectRows { t with rows := t.rows.map (revalueF h) } = (selectRows t).map (revalueF h) := by
    unfold selectRows
    dsimp only
    split
    · rw [List.filter_map]
      congr 1
      apply congrArg (fun f => List.filter f t.rows)
      funext r
      simp only [Function.comp_apply, revalueF_actual, revalueF_best]
    · rfl
  unfold piSingle at hp ⊢
  simp only [hsel]
  revert hp hz
  generalize selectRows t = rows
  intro hp hz
  have hcum : cumPeriod { t with rows := t.rows.map (revalueF h) } (rows.map (revalueF h)) nCum = cumPeriod t rows nCum := by
    unfold cumPeriod
    have : (rows.map (revalueF h)).map FRow.date = rows.map FRow.date := by
      rw [List.map_map]
      apply List.map_congr_left
      intro r _
      exact revalueF_date h r
    rw [this]
  have hfil : actualsFiltered { t with rows := t.rows.map (revalueF h) } (rows.map (revalueF h)) = actualsFiltered t rows := filtered_revalue h t rows hz
  have hres : ∀ acts b, residuals (rows.map (revalueF h)) acts b = residuals rows acts b := by
    intro acts b
    unfold residuals
    rw [filter_prediction h _ rows fun r hr => by simpa using hr]
  have hout : ∀ (l : List (FRow K)), ((actualsUnfiltered l).map actualOut).filter (fun r => !r.isActuals) = [] := by
    intro l
    rw [List.filter_eq_nil_iff]
    intro r hr
    obtain ⟨q, -, rfl⟩ := List.mem_map.1 hr
    simp [actualOut]
  have hnil : (rows.map (revalueF h) = []) ↔ rows = [] := List.map_eq_nil_iff
  rw [hcum, hfil]
  simp only [bind, Except.bind] at hp ⊢
  cases h1 : cumPeriod t rows nCum with
  | error e => rw [h1] at hp; cases hp
  | ok n =>
    rw [h1] at hp
    dsimp only at hp ⊢
    cases h2 : actualsFiltered t rows with
    | error e => rw [h2] at hp; cases hp
    | ok a =>
      rw [h2] at hp
      dsimp only at hp ⊢
      rw [hres]
      have ef : ∀ u : Int, ((rows.map (revalueF h)).filter fun r => !r.isActuals && decide (u < r.date)) = rows.filter fun r => !r.isActuals && decide (u < r.date) :=
        fun u => filter_prediction h _ rows fun r hr => by
          rw [Bool.and_eq_true] at hr; simpa using hr.1
      have ep : ∀ u : Int, ((rows.map (revalueF h)).filter fun r => !r.isActuals && decide (r.date ≤ u)) = rows.filter fun r => !r.isActuals && decide (r.date ≤ u) :=
        fun u => filter_prediction h _ rows fun r hr => by
          rw [Bool.and_eq_true] at hr; simpa using hr.1
      split at hp
      · simp only [ef, ep]
        split at hp
        · cases hp
        rename_i fs hfs
        split at hp
        · cases hp
        rename_i fo hfo
        split at hp
        · cases hp
        rename_i ps hps
        split at hp
        · cases hp
        rename_i po hpo
        cases hp
        refine ⟨_, rfl, ?_⟩
        simp only [List.filter_append, hout]
      · cases hs : t.hasSource with
        | false => rw [hs] at hp; simp at hp
        | true =>
          rw [hs] at hp
          simp only [if_true] at hp
          split at hp
          · cases hp
          rename_i hne
          cases hp
          simp only [if_true]
          rw [if_neg (mt hnil.1 hne)]
          exact ⟨_, rfl, by rw [hout, hout]⟩

/-! ### The run -/

/-- Two rows of a sample that differ in the weight only. -/
def SameButWeight (r r' : Row K) : Prop := r'.date = r.date ∧ r'.x = r.x ∧ r'.y = r.y

theorem outlier_map {β : Type} (g : Row K → β) (hg : ∀ r w, g { r with weight := w } = g r) (hw : Bool) (l : List (Row K)) (m : List Bool) :
    (List.zipWith (outlierWeight hw) l m).map g = (l.take m.length).map g := by
  induction l generalizing m with
  | nil => simp
  | cons r l ih =>
    cases m with
    | nil => simp
    | cons b m =>
      simp only [List.zipWith_cons_cons, List.map_cons, List.length_cons, List.take_succ_cons, ih]
      congr 1
      exact hg r _

/-- The samples after the starting date with the weights of the run. -/
theorem weighted_samples [FloorRing K] (find : Bool) (s : Option Timestamp) (df df2 : Frame K) (h : applyOutliers find (filterStart s df) = .ok df2) :
    df2.hasDate = df.hasDate ∧ ∃ l : List (Row K), l.Sublist df.rows ∧ ∀ (β : Type) (g : Row K → β), (∀ r w, g { r with weight := w } = g r) → df2.rows.map g = l.map g := by
  rw [filterStart_rows] at h
  have hk : (kept s df).Sublist df.rows := List.filter_sublist
  unfold applyOutliers at h
  split at h
  · simp only [bind, Except.bind] at h
    split at h
    · cases h
    rename_i masks hm
    cases h
    refine ⟨rfl, (kept s df).take masks.2.length, (List.take_sublist _ _).trans hk, ?_⟩
    intro β g hg
    exact outlier_map g hg df.hasWeight _ _
  · cases h
    exact ⟨rfl, kept s df, hk, fun _ _ _ => rfl⟩

theorem default_samples (df : Frame K) : (defaultWeights df).1.hasDate = df.hasDate ∧ ∀ (β : Type) (g : Row K → β), (∀ r w, g { r with weight := w } = g r) →
    (defaultWeights df).1.rows.map g = df.rows.map g := by
  unfold defaultWeights
  split
  · exact ⟨rfl, fun _ _ _ => rfl⟩
  · refine ⟨rfl, fun β g hg => ?_⟩
    dsimp only
    rw [List.map_map]
    exact List.map_congr_left fun r _ => hg r _

theorem withValues_revalue (v : Int → Option K) (h : Int → Option K → Option K) (df : Frame K) (e : ∀ r ∈ df.rows, v (place df.hasDate r) = h (place df.hasDate r) r.y) :
    withValues v df = revalue h df := by
  unfold withValues revalue
  congr 1
  apply List.map_congr_left
  intro r hr
  unfold revalueRow
  rw [e r hr]

/-- The actual rows of the table that the prediction intervals are computed from. -/
theorem selected_actual [FloorRing K] (w : World K) (args : RunArgs K) (source : String) (df : Frame K) (d : List (DRow K) × List (MRow K)) (st : RunStages w args source df d)
    (r : FRow K) (hr : r ∈ selectRows (toFTable df.hasDate (selectFits args.includeAll d).1)) (ha : r.isActuals = true) :
    ∃ q ∈ (defaultWeights st.df2).1.rows, r.date = place (defaultWeights st.df2).1.hasDate q ∧ r.weight = q.weight := by
  have h1 : r ∈ (toFTable df.hasDate (selectFits args.includeAll d).1).rows := by
    unfold selectRows at hr
    split at hr
    · exact (List.mem_filter.1 hr).1
    · exact hr
  obtain ⟨p, hp, rfl⟩ := List.mem_map.1 h1
  have h2 : p ∈ d.1 := by
    unfold selectFits at hp
    split at hp
    · exact hp
    · exact (List.mem_filter.1 hp).1
  have e := congrArg Prod.fst st.hd
  rw [e] at h2
  obtain ⟨u, hu, rfl⟩ := List.mem_map.1 h2
  rcases List.mem_append.1 hu with hu | hu
  · obtain ⟨q, hq, rfl⟩ := List.mem_map.1 hu
    exact ⟨q, hq, rfl, rfl⟩
  · have := fitLoop_forecast _ _ _ _ _ st.hFits u hu
    have ha : u.isActuals = true := ha
    rw [this] at ha
    cases ha

theorem data_source [FloorRing K] (w : World K) (args : RunArgs K) (source : String) (df : Frame K) (d : List (DRow K) × List (MRow K)) (h : runFits w args source df = .ok d)
    (f : List (PRow K)) (hf : getPi (w.draw source) (toFTable df.hasDate (selectFits args.includeAll d).1) 100 args.nCum args.q1 args.q2 args.widening = .ok f) :
    ∀ r ∈ (selectFits args.includeAll d).1, r.source = source := by
  have : runSingle w args source df = .ok ⟨f, (selectFits args.includeAll d).1, (selectFits args.includeAll d).2⟩ := by
    unfold runSingle
    rw [h]
    simp only [bind, Except.bind]
    rw [hf]
  exact (run_sources w args source df _ this).1

/-- The run does not change if only values of samples without positive weight change, and the weights stay the same. -/
theorem run_revalue [FloorRing K] (w : World K) (args : RunArgs K) (source : String) (df : Frame K) (v : Int → Option K) (hdis : Distinct df) (hmode : args.models.mode ≠ .auto)
    (d : List (DRow K) × List (MRow K)) (st : RunStages w args source df d) (f : List (PRow K)) (hd : runFits w args source df = .ok d)
    (hf : getPi (w.draw source) (toFTable df.hasDate (selectFits args.includeAll d).1) 100 args.nCum args.q1 args.q2 args.widening = .ok f)
    (hOut : applyOutliers args.findOutliers (filterStart args.start (withValues v df)) = .ok (withValues v st.df2))
    (hval : ∀ r ∈ (usedRows (defaultWeights st.df2).1).rows, v (place df.hasDate r) = r.y)
    (hwt : ∀ r ∈ (defaultWeights st.df2).1.rows, ∃ u, r.weight = some u ∧ 0 ≤ u) :
    ∃ res', runSingle w args source (withValues v df) = .ok res' ∧ SamePredictions ⟨f, (selectFits args.includeAll d).1, (selectFits args.includeAll d).2⟩ res' := by
  classical
  obtain ⟨hd2, l, hl, hg⟩ := weighted_samples _ _ _ _ st.hOut
  obtain ⟨hdw, hgw⟩ := default_samples st.df2
  have hdw' : (defaultWeights st.df2).1.hasDate = df.hasDate := hdw.trans hd2
  have hpn : (df.rows.map (place df.hasDate)).Nodup := by
    cases e : df.hasDate with
    | true => exact hdis.dates e
    | false => exact hdis.xs
  have hgp : ∀ (r : Row K) u, place df.hasDate { r with weight := u } = place df.hasDate r := fun _ _ => rfl
  have hdn : ((defaultWeights st.df2).1.rows.map (place df.hasDate)).Nodup := by
    rw [hgw _ _ hgp, hg _ _ hgp]
    exact (hl.map _).nodup hpn
  have hxn : ((defaultWeights st.df2).1.rows.map Row.x).Nodup := by
    rw [hgw _ _ fun _ _ => rfl, hg _ _ fun _ _ => rfl]
    exact (hl.map _).nodup hdis.xs
  -- every sample with its place, x and value
  let sig : Row K → Int × Int × Option K := fun r => (place df.hasDate r, r.x, r.y)
  have hsig : ∀ r ∈ (defaultWeights st.df2).1.rows, ∃ r0 ∈ df.rows, sig r0 = sig r := by
    intro r hr
    have : sig r ∈ (defaultWeights st.df2).1.rows.map sig := List.mem_map.2 ⟨r, hr, rfl⟩
    rw [hgw _ sig fun _ _ => rfl, hg _ sig fun _ _ => rfl] at this
    obtain ⟨r0, hr0, e⟩ := List.mem_map.1 this
    exact ⟨r0, hl.subset hr0, e⟩
  have hsig2 : ∀ r ∈ st.df2.rows, ∃ r0 ∈ df.rows, sig r0 = sig r := by
    intro r hr
    have : sig r ∈ st.df2.rows.map sig := List.mem_map.2 ⟨r, hr, rfl⟩
    rw [hg _ sig fun _ _ => rfl] at this
    obtain ⟨r0, hr0, e⟩ := List.mem_map.1 this
    exact ⟨r0, hl.subset hr0, e⟩
  let used := (usedRows (defaultWeights st.df2).1).rows.map (place df.hasDate)
  let h : Int → Option K → Option K := fun t y => if t ∈ places df ∧ t ∉ used then v t else y
  have hrow : ∀ r ∈ df.rows, v (place df.hasDate r) = h (place df.hasDate r) r.y := by
    intro r hr
    by_cases hu : place df.hasDate r ∈ used
    · have : h (place df.hasDate r) r.y = r.y := if_neg fun hc => hc.2 hu
      rw [this]
      obtain ⟨u, hu1, hu2⟩ := List.mem_map.1 hu
      obtain ⟨r0, hr0, e⟩ := hsig u (List.mem_filter.1 hu1).1
      have e1 : place df.hasDate r0 = place df.hasDate u := congrArg Prod.fst e
      have e2 : r0.y = u.y := congrArg (fun p => p.2.2) e
      have e3 : r0 = r := List.inj_on_of_nodup_map hpn hr0 hr (e1.trans hu2)
      rw [← hu2, hval u hu1, ← e2, e3]
    · exact (if_pos ⟨List.mem_map.2 ⟨r, hr, rfl⟩, hu⟩).symm
  have he1 : withValues v df = revalue h df := withValues_revalue v h df hrow
  have he2 : withValues v st.df2 = revalue h st.df2 := by
    apply withValues_revalue
    intro r hr
    obtain ⟨r0, hr0, e⟩ := hsig2 r hr
    have e1 : place df.hasDate r0 = place df.hasDate r := congrArg Prod.fst e
    have e2 : r0.y = r.y := congrArg (fun p => p.2.2) e
    rw [hd2, ← e1, ← e2]
    exact hrow r0 hr0
  rw [he1, he2] at hOut
  have hfits := runFits_revalue w args source df d st h hdis hmode (fun t ht y => if_neg fun hc => ht hc.1) hOut hd2 hxn (by
    intro r hr
    obtain ⟨r0, hr0, e⟩ := hsig r (List.mem_filter.1 hr).1
    refine ⟨r0, hr0, congrArg (fun p => p.2.1) e, congrArg Prod.fst e, fun y => if_neg fun hc => hc.2 (List.mem_map.2 ⟨r, hr, rfl⟩)⟩)
  have hsrc := data_source w args source df d hd f hf
  have hsel : selectFits args.includeAll (d.1.map (revalueD h), d.2) = ((selectFits args.includeAll d).1.map (revalueD h), (selectFits args.includeAll d).2) := by
    unfold selectFits
    split
    · rfl
    · dsimp only
      congr 1
      rw [List.filter_map]
      congr 1
      apply congrArg (fun f => List.filter f d.1)
      funext r
      unfold revalueD
      dsimp only [Function.comp_apply]
      split <;> rfl
  have htab : toFTable df.hasDate ((selectFits args.includeAll d).1.map (revalueD h)) =
      { toFTable df.hasDate (selectFits args.includeAll d).1 with rows := (toFTable df.hasDate (selectFits args.includeAll d).1).rows.map (revalueF h) } := by
    unfold toFTable
    dsimp only
    congr 1
    rw [List.map_map, List.map_map]
    apply List.map_congr_left
    intro r _
    unfold revalueD revalueF
    dsimp only [Function.comp_apply]
    split <;> rfl
  have hpi := hf
  rw [getPi_one_source _ _ _ source hsrc] at hpi
  obtain ⟨f', hf', hff⟩ := pi_revalue _ _ _ _ _ _ h f hpi (by
    intro r hr ha
    obtain ⟨q, hq, e1, e2⟩ := selected_actual w args source df d st r hr ha
    rw [hdw'] at e1
    obtain ⟨u, hu, hu0⟩ := hwt q hq
    rcases lt_or_eq_of_le hu0 with hpos | hzero
    · left
      intro y
      refine if_neg fun hc => hc.2 ?_
      rw [e1]
      exact List.mem_map.2 ⟨q, List.mem_filter.2 ⟨hq, by simpa [hu] using hpos⟩, rfl⟩
    · right
      constructor
      · unfold anyZeroWeight
        rw [Bool.and_eq_true]
        refine ⟨rfl, List.any_eq_true.2 ⟨r, hr, ?_⟩⟩
        rw [e2, hu, ← hzero]
        simp
      · intro r' hr' ha' hdate hc
        obtain ⟨q', hq', e1', e2'⟩ := selected_actual w args source df d st r' hr' ha'
        rw [hdw'] at e1'
        have : q' = q := List.inj_on_of_nodup_map hdn hq' hq (by rw [← e1', ← e1, hdate])
        rw [e2', this, hu] at hc
        obtain ⟨b, hb, hb0⟩ := hc
        cases hb
        rw [← hzero] at hb0
        exact lt_irrefl _ hb0)
  refine ⟨⟨f', (selectFits args.includeAll d).1.map (revalueD h), (selectFits args.includeAll d).2⟩, ?_, ⟨rfl, ?_, hff⟩⟩
  · unfold runSingle
    rw [he1, hfits]
    simp only [bind, Except.bind]
    rw [hsel]
    dsimp only
    have : (revalue h df).hasDate = df.hasDate := rfl
    rw [this, getPi_one_source _ _ _ source (by
      intro r hr
      obtain ⟨q, hq, rfl⟩ := List.mem_map.1 hr
      have := hsrc q hq
      unfold revalueD
      split
      · exact this
      · exact this), htab, hf']
  · dsimp only
    induction (selectFits args.includeAll d).1 with
    | nil => rfl
    | cons r l ih =>
      rw [List.map_cons, List.filter_cons, List.filter_cons, ih]
      cases ha : r.isActuals with
      | false =>
        have : revalueD h r = r := by unfold revalueD; simp [ha]
        rw [this, ha]
      | true =>
        have : (revalueD h r).isActuals = true := by unfold revalueD; simp [ha]
        rw [this]
        rfl

theorem filterStart_withValues (v : Int → Option K) (s : Option Timestamp) (df : Frame K) : filterStart s (withValues v df) = withValues v (filterStart s df) := by
  obtain ⟨hd, hw, rows⟩ := df
  cases s with
  | none => rfl
  | some t =>
    cases hd with
    | false => rfl
    | true =>
      simp only [filterStart, withValues, if_true, List.filter_map]
      rfl

/-- What the returned observations say about the samples. -/
theorem confirmed [FloorRing K] (w : World K) (args : RunArgs K) (source : String) (df : Frame K) (d : List (DRow K) × List (MRow K)) (st : RunStages w args source df d)
    (v : Int → Option K) (res : RunResult K) (hdata : res.data = (selectFits args.includeAll d).1) (hv : Confirms v res) :
    ∀ r ∈ (usedRows (defaultWeights st.df2).1).rows, v (place df.hasDate r) = r.y := by
  intro r hr
  obtain ⟨h1, h2⟩ := List.mem_filter.1 hr
  have hdw : (defaultWeights st.df2).1.hasDate = df.hasDate := (default_samples st.df2).1.trans (weighted_samples _ _ _ _ st.hOut).1
  have hm : flagData (bestKey w.srt st.fits.1) { date := place df.hasDate r, source := source, long := ⟨(defaultWeights st.df2).2, runFreq df, st.range⟩, model := "actuals", isActuals := true, y := r.y, weight := r.weight, isBest := false } ∈
      res.data.filter DRow.isActuals := by
    rw [hdata, actual_rows w args source df d st]
    refine List.mem_map.2 ⟨_, List.mem_map.2 ⟨r, h1, rfl⟩, ?_⟩
    rw [hdw]
    rfl
  have hpos : ∃ w, r.weight = some w ∧ 0 < w := by simpa using h2
  exact hv _ (List.mem_filter.1 hm).1 rfl hpos

theorem proper_weights [FloorRing K] (find : Bool) (s : Option Timestamp) (df df2 : Frame K) (h : applyOutliers find (filterStart s df) = .ok df2) (hw : ProperWeights df)
    [IsStrictOrderedRing K] : ∀ r ∈ (defaultWeights df2).1.rows, ∃ u, r.weight = some u ∧ 0 ≤ u := by
  obtain ⟨spike, hl, -, -, h3⟩ := weights_stage _ _ _ h
  rw [h3]
  rw [filterStart_rows]
  intro r hr
  unfold weighted at hr
  dsimp only at hr
  rw [List.mem_iff_getElem?] at hr
  obtain ⟨i, hi⟩ := hr
  rw [List.getElem?_zipWith] at hi
  cases h1 : (kept s df)[i]? with
  | none => rw [h1] at hi; simp at hi
  | some q =>
    cases h2 : spike[i]? with
    | none => rw [h1, h2] at hi; simp at hi
    | some b =>
      rw [h1, h2] at hi
      simp only [Option.some.injEq] at hi
      have hq : q ∈ df.rows := (List.mem_filter.1 (List.mem_of_getElem? h1)).1
      rw [← hi]
      unfold givenWeight
      cases hc : df.hasWeight with
      | false =>
        cases b with
        | false => exact ⟨1, rfl, zero_le_one⟩
        | true => exact ⟨0, rfl, le_refl _⟩
      | true =>
        obtain ⟨u, hu, hu0⟩ := hw hc q hq
        cases b with
        | false => exact ⟨u, by simp [hu, hc], hu0⟩
        | true => exact ⟨0, by simp [hu, hc], le_refl _⟩

theorem outlier_withValues (hw hd : Bool) (v : Int → Option K) (l : List (Row K)) (m m' : List Bool)
    (h : (List.zipWith (outlierWeight hw) (l.map fun r => { r with y := v (place hd r) }) m').map Row.weight = (List.zipWith (outlierWeight hw) l m).map Row.weight) :
    List.zipWith (outlierWeight hw) (l.map fun r => { r with y := v (place hd r) }) m' =
      (List.zipWith (outlierWeight hw) l m).map fun r => { r with y := v (place hd r) } := by
  induction l generalizing m m' with
  | nil => simp
  | cons r l ih =>
    cases m with
    | nil =>
      cases m' with
      | nil => simp
      | cons b' m' => simp at h
    | cons b m =>
      cases m' with
      | nil => simp at h
      | cons b' m' =>
        simp only [List.map_cons, List.zipWith_cons_cons, List.cons.injEq] at h ⊢
        refine ⟨?_, ih m m' h.2⟩
        have := h.1
        unfold outlierWeight at this ⊢
        dsimp only at this ⊢
        rw [this]
        rfl

/-! ### C107 -/

/-- **C107.** The values of samples that are ignored because of their weight, or because they lie before the starting date, have no influence on the forecast: if all weights are
known and not negative, there is one sample per date, and the composition is given, then any other values of ignored samples give the same fits, predictions and prediction intervals. -/
theorem C107_weights_partial [FloorRing K] [IsStrictOrderedRing K] (w : World K) (args : RunArgs K) (source : String) (df : Frame K) (v : Int → Option K) (hdis : Distinct df)
    (hw : ProperWeights df) (hmode : args.models.mode ≠ .auto) (hout : args.findOutliers = false) (hv : ∀ r ∈ df.rows, TakesPart args.start df r → v (place df.hasDate r) = r.y)
    (res : RunResult K) (h : runSingle w args source df = .ok res) : ∃ res', runSingle w args source (withValues v df) = .ok res' ∧ SamePredictions res res' := by
  obtain ⟨d, hd, hdata, hmeta, hf⟩ := runSingle_inv w args source df res h
  obtain ⟨st⟩ := runFits_stages w args source df d hd
  have h2 : st.df2 = filterStart args.start df := by
    have := st.hOut
    unfold applyOutliers at this
    rw [hout] at this
    exact (Except.ok.inj this).symm
  rw [hdata] at hf
  obtain ⟨res', h', hs⟩ := run_revalue w args source df v hdis hmode d st res.forecast hd hf (by
    rw [filterStart_withValues, h2]
    unfold applyOutliers
    rw [hout]
    rfl) (by
    intro r hr
    obtain ⟨h1, h3⟩ := List.mem_filter.1 hr
    rw [h2, filterStart_rows] at h1
    unfold defaultWeights at h1
    dsimp only at h1
    cases hwt : df.hasWeight with
    | true =>
      rw [hwt, if_pos rfl] at h1
      obtain ⟨h4, h5⟩ := List.mem_filter.1 h1
      refine hv r h4 ⟨?_, fun _ => by simpa using h3⟩
      intro hdate t ht
      rw [ht, hdate] at h5
      simpa using h5
    | false =>
      rw [hwt] at h1
      simp only [Bool.false_eq_true, if_false] at h1
      obtain ⟨q, hq, rfl⟩ := List.mem_map.1 h1
      obtain ⟨h4, h5⟩ := List.mem_filter.1 hq
      refine hv q h4 ⟨?_, fun hc => by rw [hwt] at hc; cases hc⟩
      intro hdate t ht
      rw [ht, hdate] at h5
      simpa using h5) (proper_weights _ _ _ _ st.hOut hw)
  obtain ⟨f, dd, mm⟩ := res
  dsimp only at hdata hmeta
  subst hdata hmeta
  exact ⟨res', h', hs⟩

/-- **C107.** Also with the search for outliers: if the observations of two results carry the same weights (in particular zeros at the same spikes), and the same values where the
weight is positive, then all fits, predictions and prediction intervals are the same. -/
theorem C107_spikes_partial [FloorRing K] [IsStrictOrderedRing K] (w : World K) (args : RunArgs K) (source : String) (df : Frame K) (v : Int → Option K) (hdis : Distinct df)
    (hw : ProperWeights df) (hmode : args.models.mode ≠ .auto) (res res' : RunResult K) (h : runSingle w args source df = .ok res)
    (h' : runSingle w args source (withValues v df) = .ok res') (hsame : SameWeights res res') (hv : Confirms v res) : SamePredictions res res' := by
  obtain ⟨d, hd, hdata, hmeta, hf⟩ := runSingle_inv w args source df res h
  obtain ⟨st⟩ := runFits_stages w args source df d hd
  obtain ⟨d', hd', hdata', hmeta', hf'⟩ := runSingle_inv w args source _ res' h'
  obtain ⟨st'⟩ := runFits_stages w args source _ d' hd'
  have hOut : applyOutliers args.findOutliers (filterStart args.start (withValues v df)) = .ok (withValues v st.df2) := by
    have hwts : (defaultWeights st'.df2).1.rows.map Row.weight = (defaultWeights st.df2).1.rows.map Row.weight := by
      have e := hsame
      unfold SameWeights at e
      rw [hdata, hdata', actual_rows w args source _ d' st', actual_rows w args source df d st] at e
      unfold actualsClean at e
      simp only [List.map_map] at e
      exact e
    have e1 := st.hOut
    have e2 := st'.hOut
    rw [e2]
    rw [filterStart_withValues] at e2
    unfold applyOutliers at e1 e2
    cases hfo : args.findOutliers with
    | false =>
      rw [hfo] at e1 e2
      rw [← Except.ok.inj e1, ← Except.ok.inj e2]
    | true =>
      rw [hfo] at e1 e2
      simp only [if_true, bind, Except.bind] at e1 e2
      split at e1
      · cases e1
      rename_i m hm
      split at e2
      · cases e2
      rename_i m' hm'
      have e1 := Except.ok.inj e1
      have e2 := Except.ok.inj e2
      rw [← e1, ← e2] at hwts ⊢
      unfold defaultWeights at hwts
      simp only [if_true] at hwts
      congr 1
      unfold withValues at hwts ⊢
      dsimp only at hwts ⊢
      congr 1
      exact outlier_withValues _ _ v _ _ _ hwts
  rw [hdata] at hf
  obtain ⟨res'', h'', hs⟩ := run_revalue w args source df v hdis hmode d st res.forecast hd hf hOut (confirmed w args source df d st v res hdata hv) (proper_weights _ _ _ _ st.hOut hw)
  rw [h'] at h''
  cases h''
  obtain ⟨f, dd, mm⟩ := res
  dsimp only at hdata hmeta
  subst hdata hmeta
  exact hs

omit [Field K] [LinearOrder K] in
theorem seriesFrame_tableValues (v : Option String → Timestamp → Option K) (t : STable K) (s : String) :
    seriesFrame (tableValues v t) s = withValues (v (if t.hasSource then some s else none)) (seriesFrame t s) := by
  refine (seriesFrame_map t (fun r => { r with y := v (if t.hasSource then r.source else none) r.date }) 0 (fun _ => rfl) (fun r => by simp) s).trans ?_
  unfold withValues seriesFrame
  simp only [List.map_map, Frame.mk.injEq, true_and]
  apply List.map_congr_left
  intro r hr
  have hr : r ∈ rowsOf t s := (sortBy_perm _ _).mem_iff.1 hr
  simp only [Function.comp_apply, place, if_true, Row.mk.injEq, true_and, and_true]
  refine ⟨by ring, ?_⟩
  unfold rowsOf at hr
  split_ifs at hr ⊢ with hs
  · have : r.source = some s := by
      have := (List.mem_filter.1 hr).2
      simpa using this
    rw [this]
  · rfl

/-- **C107.** For tables: two tables that differ only in values, whose results show the same weights, and in which the values agree where the weight is positive, have the same fits,
predictions and prediction intervals, series by series. -/
theorem C107_table_partial [FloorRing K] [IsStrictOrderedRing K] (w : World K) (args : RunArgs K) (id : String) (t : STable K) (hp : Proper t) (s : String) (hs : IsSeries t id s)
    (hw : t.hasWeight = true → ∀ r ∈ rowsOf t s, ∃ u, r.weight = some u ∧ 0 ≤ u) (v : Option String → Timestamp → Option K) (hmode : args.models.mode ≠ .auto)
    (res res' : RunResult K) (h : runForecast w args id t = .ok (some res)) (h' : runForecast w args id (tableValues v t) = .ok (some res'))
    (hsame : SameWeights (partOf t s res) (partOf t s res')) (hv : Confirms (v (if t.hasSource then some s else none)) (partOf t s res)) :
    SamePredictions (partOf t s res) (partOf t s res') := by
  obtain ⟨hdated, hrun⟩ := series_run w id t hp s hs
  have hp' : Proper (tableValues v t) := proper_map t _ 0 (fun _ => rfl) (fun r => by simp) hp
  have hs' : IsSeries (tableValues v t) id s := isSeries_map t (fun r => { r with y := v (if t.hasSource then r.source else none) r.date }) (fun _ => rfl) id s hs
  obtain ⟨-, hrun'⟩ := series_run w id _ hp' s hs'
  have h1 := hrun args res h
  have h2 : runSingle w args s (seriesFrame (tableValues v t) s) = .ok (partOf t s res') := hrun' args res' h'
  rw [seriesFrame_tableValues] at h2
  refine C107_spikes_partial w args s (seriesFrame t s) _ ⟨hdated.nodup, fun _ => ?_⟩ ?_ hmode _ _ h1 h2 hsame hv
  · rw [List.Nodup, List.pairwise_map]
    refine (List.Pairwise.and_mem.1 hdated.sorted).imp ?_
    rintro a b ⟨ha, hb, hab⟩ e
    have h3 := hdated.days a ha
    have h4 := hdated.days b hb
    rw [e] at h3
    omega
  · intro hwt r hr
    obtain ⟨q, hq, rfl⟩ := List.mem_map.1 hr
    exact hw hwt q ((sortBy_perm _ _).mem_iff.1 hq)

end
/-! ### Cases -/

/-- Dates, values and the first quantile of all predictions. -/
def shownPredictions (r : Res (RunResult ℚ)) : Option (List (Int × Option ℚ × Option (ℚ × Option ℚ))) :=
  r.toOption.map fun r => (r.forecast.filter fun q => !q.isActuals).map fun q => (q.date / DAY, q.y, q.q.head?)

/-- Six days; the last sample has weight zero. Its value is 100 or any other. -/
example : Distinct demoWeighted ∧ ProperWeights demoWeighted :=
  ⟨⟨by decide +kernel, fun _ => by decide +kernel⟩, by
    intro _ r hr
    have : ∀ r ∈ demoWeighted.rows, ∃ u ∈ [(0 : ℚ), 1, 2], r.weight = some u := by decide +kernel
    obtain ⟨u, hu, e⟩ := this r hr
    have hall : ∀ u ∈ [(0 : ℚ), 1, 2], 0 ≤ u := by decide +kernel
    exact ⟨u, e, hall u hu⟩⟩

example : (runSingle demoWorld (demoArgs [modelLinear] (some [modelNaive stableSort])) "s" demoWeighted).toOption.isSome = true ∧
    shownPredictions (runSingle demoWorld (demoArgs [modelLinear] (some [modelNaive stableSort])) "s" demoWeighted) =
      shownPredictions (runSingle demoWorld (demoArgs [modelLinear] (some [modelNaive stableSort])) "s"
        (withValues (fun t => if t = 5 * DAY then some (-7) else (findRow demoWeighted.rows t).bind Row.y) demoWeighted)) := by decide +kernel

/-- Another value of a spike that is found in both cases: same weights, same values elsewhere. -/
def otherSpike : Frame ℚ := withValues (fun t => if t = 3 * DAY then some 70 else (findRow demoSpike.rows t).bind Row.y) demoSpike

def spikeArgs : RunArgs ℚ := { demoArgs [modelConstant] (some [modelNaive stableSort]) with findOutliers := true }

example : ((runSingle demoWorld spikeArgs "s" otherSpike).toOption.map fun r => (r.data.filter DRow.isActuals).map fun q => (q.date / DAY, q.y, q.weight)) =
      some [(0, some 1, some 1), (1, some 2, some 1), (2, some 1, some 1), (3, some 70, some 0), (4, some 1, some 1), (5, some 2, some 1), (6, some 1, some 1), (7, some 2, some 1)] := by
  decide +kernel

example : shownPredictions (runSingle demoWorld spikeArgs "s" demoSpike) = shownPredictions (runSingle demoWorld spikeArgs "s" otherSpike) := by decide +kernel

/-- Two samples on the last day, the first of them with weight zero and value `y`. -/
def ignoredTwin (y : ℚ) : Frame ℚ := ⟨true, true, [⟨0, 0, some 1, some 1⟩, ⟨DAY, 1, some 3, some 1⟩, ⟨2 * DAY, 2, some y, some 0⟩, ⟨2 * DAY, 2, some 4, some 1⟩]⟩

/-- A sample without weight in a table with weights, whose value is `y`. -/
def ignoredNull (y : ℚ) : Frame ℚ := ⟨true, true, [⟨0, 0, some 1, some 1⟩, ⟨DAY, 1, some 3, some 1⟩, ⟨2 * DAY, 2, some y, none⟩, ⟨3 * DAY, 3, some 5, some 1⟩]⟩

/-- **C107 refuted for several samples per date.** The sample of weight zero shares its date with a sample that counts: the naive forecast is the value of the ignored sample. -/
theorem C107_counterexample : ∀ y ∈ [(3 : ℚ), 100],
    ((runSingle demoWorld (demoArgs [] (some [modelNaive stableSort])) "s" (ignoredTwin y)).toOption.map fun r =>
      (r.forecast.filter fun q => !q.isActuals && decide (2 * DAY < q.date)).map PRow.y) = some [some y, some y, some y] := by
  decide +kernel

/-- **C107 refuted for null weights.** A sample without weight takes no part in the fit, and its value does not change the predictions, but it changes the prediction intervals. -/
theorem C107_counterexample_null :
    (shownPredictions (runSingle demoWorld (demoArgs [] (some [modelNaive stableSort])) "s" (ignoredNull 3))).map (fun l => l.drop 3) =
      some [(3, some 3, some (5, some 4)), (4, some 5, some (5, some 5)), (5, some 5, some (5, some 4)), (6, some 5, some (5, some 5))] ∧
    (shownPredictions (runSingle demoWorld (demoArgs [] (some [modelNaive stableSort])) "s" (ignoredNull 100))).map (fun l => l.drop 3) =
      some [(3, some 3, some (5, some (-81 / 4))), (4, some 5, some (5, some (-87 / 2))), (5, some 5, some (5, some (-267 / 4))), (6, some 5, some (5, some 5))] := by
  constructor
  · decide +kernel
  · decide +kernel

end Anticipy
