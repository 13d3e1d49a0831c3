import Verif.Spec.Labels
import Verif.Props.RunExamples

/-
C87: the labels of series are only labels.
-/
namespace Anticipy
open Spec
variable {K : Type} [Field K] [LinearOrder K]

/-- Change of the label of a data row. -/
def relabelD (s : String) (r : DRow K) : DRow K := { r with source := s }
/-- Change of the label of a metadata row. -/
def relabelM (s : String) (r : MRow K) : MRow K := { r with source := s }
/-- Change of the label of a row handed to the intervals. -/
def relabelF (s : String) (r : FRow K) : FRow K := { r with source := some s }
/-- Change of the label of a row with intervals. -/
def relabelP (s : String) (r : PRow K) : PRow K := { r with source := some s }

theorem labelledAs_eq (s : String) (res : RunResult K) :
    labelledAs s res = ⟨res.forecast.map (relabelP s), res.data.map (relabelD s), res.metadata.map (relabelM s)⟩ := rfl

theorem forecastRows_relabel (s' : String) (st : FitSetup K) (m : ForecastModel K) (f : FitResult K) :
    forecastRows { st with source := s' } m f = (forecastRows st m f).map (List.map (relabelD s')) := by
  unfold forecastRows
  by_cases hf : f.isFit = true
  · rw [if_pos hf, if_pos hf]
    dsimp only
    cases h1 : listMin (axisOf st.used) with
    | none => rfl
    | some a =>
      cases h2 : listMin (st.used.rows.map Row.x) with
      | none => rfl
      | some b =>
        dsimp only
        simp only [bind, Except.bind]
        cases extrapolate m f.params st.used.hasDate a st.stop st.freq st.years b st.actuals with
        | error e => rfl
        | ok l =>
          simp only [Except.map, fcastClean, List.map_map]
          rfl
  · rw [if_neg hf, if_neg hf]
    rfl

theorem fitLoop_relabel (env : Nat → Env K) (s' : String) (st : FitSetup K) (l : List (ForecastModel K)) (i : Nat) :
    fitLoop env { st with source := s' } i l =
      (fitLoop env st i l).map fun d => (d.1.map (relabelM s'), d.2.map (relabelD s')) := by
  induction l generalizing i with
  | nil => rfl
  | cons m l ih =>
    simp only [fitLoop, bind, Except.bind]
    cases fitModel (env i) m st.used (some st.actuals) st.useCache with
    | error e => rfl
    | ok f =>
      dsimp only
      rw [forecastRows_relabel, ih]
      cases forecastRows st m f with
      | error e => rfl
      | ok d =>
        cases fitLoop env st (i + 1) l with
        | error e => rfl
        | ok r =>
          simp only [Except.map, List.map_cons, List.map_append]
          rfl

theorem bestKey_relabel (srt : SortAlg) (s' : String) (metas : List (MRow K)) : bestKey srt (metas.map (relabelM s')) = bestKey srt metas := by
  unfold bestKey
  have h1 : (metas.map (relabelM s')).filter MRow.isFit = (metas.filter MRow.isFit).map (relabelM s') := by
    rw [List.filter_map]
    rfl
  rw [h1, srt.natural (fun a b : MRow K => aicLe a.aic b.aic) (fun a b : MRow K => aicLe a.aic b.aic) (relabelM s') _ (by intros; rfl),
    List.head?_map, Option.map_map]
  rfl

theorem runFits_relabel [FloorRing K] (w w' : World K) (args : RunArgs K) (s s' : String) (hw : SameFor w w' s s') (df : Frame K) :
    runFits w' args s' df = (runFits w args s df).map fun d => (d.1.map (relabelD s'), d.2.map (relabelM s')) := by
  unfold runFits
  simp only [bind, Except.bind]
  rw [hw.env, hw.choices, hw.sorting]
  cases applyOutliers args.findOutliers (filterStart args.start df) with
  | error e => rfl
  | ok df2 =>
    dsimp only
    cases runRange (defaultWeights df2).1 with
    | error e => rfl
    | ok range =>
      dsimp only
      cases candidates w.ch args.models (defaultWeights df2).1 (runFreq df) with
      | error e => rfl
      | ok cand =>
        dsimp only
        cases actualsInterpolated w.srt df (usedRows (defaultWeights df2).1) with
        | error e => rfl
        | ok actuals =>
          dsimp only
          have hset : mkSetup w' args s' df (defaultWeights df2).1 (defaultWeights df2).2 cand.1 actuals =
              { mkSetup w args s df (defaultWeights df2).1 (defaultWeights df2).2 cand.1 actuals with source := s' } := by
            unfold mkSetup
            rw [hw.choices]
          rw [hset, fitLoop_relabel]
          cases fitLoop (w.env s) (mkSetup w args s df (defaultWeights df2).1 (defaultWeights df2).2 cand.1 actuals) 0 cand.2 with
          | error e => rfl
          | ok fits =>
            simp only [Except.map]
            by_cases hf : fits.1 = []
            · simp [hf]
            · rw [if_neg hf, if_neg (by simpa using hf), bestKey_relabel]
              simp only [List.map_append, List.map_map, actualsClean]
              rfl

theorem selectFits_relabel (s' : String) (all : Bool) (d : List (DRow K) × List (MRow K)) :
    selectFits all (d.1.map (relabelD s'), d.2.map (relabelM s')) =
      ((selectFits all d).1.map (relabelD s'), (selectFits all d).2.map (relabelM s')) := by
  unfold selectFits
  cases all with
  | true => rfl
  | false => simp only [Bool.false_eq_true, if_false, List.filter_map]; rfl

theorem addPercentiles_relabel [FloorRing K] (s' : String) (rows : List (FRow K)) (sample : List (List K)) (q1 q2 : K) :
    addPercentiles (rows.map (relabelF s')) sample q1 q2 = (addPercentiles rows sample q1 q2).map (List.map (relabelP s')) := by
  unfold addPercentiles
  simp only [bind, Except.bind]
  cases pyAssert (decide (0 < q1 ∧ q1 < 100 ∧ 0 < q2 ∧ q2 < 100)) with
  | error e => rfl
  | ok u =>
    simp only [Except.map, List.mapIdx_eq_zipIdx_map, List.zipIdx_map, List.map_map]
    rfl

/-- Residuals do not depend on the label, if all rows carry the same one. -/
theorem residuals_relabel (s s' : String) (rows : List (FRow K)) (hs : ∀ r ∈ rows, r.source = some s) (acts : List (ActualRow K)) (onSource : Bool)
    (ha : onSource = true → ∀ a ∈ acts, a.source = some s) :
    residuals (rows.map (relabelF s')) (acts.map fun a => { a with source := if onSource then some s' else a.source }) onSource =
      residuals rows acts onSource := by
  unfold residuals
  rw [List.filter_map, List.flatMap_map]
  apply List.flatMap_congr
  intro r hr
  have hrs := hs r (List.mem_filter.1 hr).1
  have e : (relabelF s' r).y = r.y := rfl
  rw [e]
  cases r.y with
  | none => rfl
  | some f =>
    dsimp only
    rw [List.filter_map, List.map_map]
    have h1 : acts.filter ((fun a : ActualRow K => decide (a.date = (relabelF s' r).date ∧ (onSource = true → a.source = (relabelF s' r).source))) ∘
        fun a => { a with source := if onSource then some s' else a.source }) =
        acts.filter fun a => decide (a.date = r.date ∧ (onSource = true → a.source = r.source)) := by
      apply List.filter_congr
      intro a ha'
      cases onSource with
      | false => simp [relabelF]
      | true => simp [relabelF, ha rfl a ha', hrs]
    rw [h1]
    rfl

theorem piSingle_relabel [FloorRing K] (draw : Nat → Nat → Nat) (t : FTable K) (s s' : String) (hsrc : t.hasSource = true)
    (hs : ∀ r ∈ t.rows, r.source = some s) (nSims : Nat) (nCum : Int) (q1 q2 : K) :
    piSingle draw { t with rows := t.rows.map (relabelF s') } nSims nCum q1 q2 = (piSingle draw t nSims nCum q1 q2).map (List.map (relabelP s')) := by
  have hsel : selectRows { t with rows := t.rows.map (relabelF s') } = (selectRows t).map (relabelF s') := by
    unfold selectRows
    dsimp only
    cases t.hasBest with
    | false => rfl
    | true => simp only [if_true, List.filter_map]; rfl
  have hs2 : ∀ r ∈ selectRows t, r.source = some s := by
    intro r hr
    unfold selectRows at hr
    split_ifs at hr
    · exact hs r (List.mem_filter.1 hr).1
    · exact hs r hr
  unfold piSingle
  simp only [bind, Except.bind]
  rw [hsel]
  generalize selectRows t = rows at hs2
  have hcum : cumPeriod { t with rows := t.rows.map (relabelF s') } (rows.map (relabelF s')) nCum = cumPeriod t rows nCum := by
    unfold cumPeriod
    rw [List.map_map]
    rfl
  rw [hcum]
  cases cumPeriod t rows nCum with
  | error e => rfl
  | ok n =>
    dsimp only
    have hun : actualsUnfiltered (rows.map (relabelF s')) = (actualsUnfiltered rows).map (relabelF s') := by
      unfold actualsUnfiltered
      rw [List.filter_map]
      rfl
    have hact : ∀ o : List (ActualRow K) × Bool, actualsFiltered t rows = .ok o →
        actualsFiltered { t with rows := t.rows.map (relabelF s') } (rows.map (relabelF s')) =
          .ok (o.1.map (fun a => { a with source := if o.2 then some s' else a.source }), o.2) ∧
        (o.2 = true → ∀ a ∈ o.1, a.source = some s) := by
      intro o ho
      unfold actualsFiltered at ho ⊢
      have hz : anyZeroWeight { t with rows := t.rows.map (relabelF s') } (rows.map (relabelF s')) = anyZeroWeight t rows := by
        unfold anyZeroWeight
        rw [List.any_map]
        rfl
      rw [hz]
      cases hzz : anyZeroWeight t rows with
      | true =>
        rw [hzz] at ho
        simp only [if_true, hsrc] at ho ⊢
        cases ho
        constructor
        · rw [hun, List.flatMap_map, List.map_flatMap]
          congr 2
          apply List.flatMap_congr
          intro r hr
          rw [List.filter_map, List.filter_map, List.filterMap_map, List.map_filterMap]
          congr 1
          funext d
          cases h : r.y <;> simp [relabelF, h]
        · intro _ a ha
          obtain ⟨r, hr, ha⟩ := List.mem_flatMap.1 ha
          obtain ⟨d, hd, e⟩ := List.mem_filterMap.1 ha
          have hd2 := hs2 d (List.mem_filter.1 (List.mem_filter.1 hd).1).1
          cases hy : r.y with
          | none => rw [hy] at e; cases e
          | some v => rw [hy] at e; cases e; exact hd2
      | false =>
        rw [hzz] at ho
        simp only [Bool.false_eq_true, if_false] at ho ⊢
        cases ho
        constructor
        · rw [hun, List.filterMap_map, List.map_filterMap]
          congr 2
          congr 1
          funext r
          cases h : r.y <;> simp [relabelF, h]
        · intro h
          cases h
    cases ho : actualsFiltered t rows with
    | error e =>
      have : actualsFiltered { t with rows := t.rows.map (relabelF s') } (rows.map (relabelF s')) = .error e := by
        unfold actualsFiltered at ho ⊢
        rw [hsrc] at ho
        split_ifs at ho with h1 h2
        exact absurd rfl h2
      rw [this]
      rfl
    | ok o =>
      obtain ⟨h1, h2⟩ := hact o ho
      rw [h1]
      dsimp only
      rw [residuals_relabel s s' rows hs2 o.1 o.2 h2, List.map_map]
      have hdates : o.1.map (ActualRow.date ∘ fun a : ActualRow K => { a with source := if o.2 then some s' else a.source }) = o.1.map ActualRow.date := rfl
      rw [hdates, hun, List.map_map]
      have hao : (actualsUnfiltered rows).map (actualOut ∘ relabelF s') = ((actualsUnfiltered rows).map actualOut).map (relabelP s') := by
        rw [List.map_map]
        rfl
      rw [hao]
      cases hm : listMax (o.1.map ActualRow.date) with
      | none =>
        dsimp only
        rw [hsrc]
        simp only [if_true]
        by_cases hr : rows = []
        · simp [hr, Except.map]
        · rw [if_neg hr, if_neg (by simpa using hr)]
          rfl
      | some last =>
        cases hres : residuals rows o.1 o.2 with
        | nil =>
          dsimp only
          rw [hsrc]
          simp only [if_true]
          by_cases hr : rows = []
          · simp [hr, Except.map]
          · rw [if_neg hr, if_neg (by simpa using hr)]
            rfl
        | cons a l =>
          dsimp only
          have hf1 : ∀ p : FRow K → Bool, (∀ r, p (relabelF s' r) = p r) → (rows.map (relabelF s')).filter p = (rows.filter p).map (relabelF s') := by
            intro p hp
            rw [List.filter_map]
            congr 1
            exact List.filter_congr fun r _ => hp r
          rw [hf1 (fun r => !r.isActuals && decide (last < r.date)) (by intro r; rfl),
            hf1 (fun r => !r.isActuals && decide (r.date ≤ last)) (by intro r; rfl), List.length_map, List.length_map]
          cases futureSample draw (centred (a :: l)) nSims n (rows.filter fun r => !r.isActuals && decide (last < r.date)).length with
          | error e => rfl
          | ok fs =>
            dsimp only
            rw [addPercentiles_relabel]
            cases addPercentiles (rows.filter fun r => !r.isActuals && decide (last < r.date)) fs q1 q2 with
            | error e => rfl
            | ok fo =>
              simp only [Except.map]
              cases pastSample draw (centred (a :: l)) nSims (rows.filter fun r => !r.isActuals && decide (r.date ≤ last)).length with
              | error e => rfl
              | ok ps =>
                dsimp only
                rw [addPercentiles_relabel]
                cases addPercentiles (rows.filter fun r => !r.isActuals && decide (r.date ≤ last)) ps q1 q2 with
                | error e => rfl
                | ok po => simp only [Except.map, List.map_append]

theorem getPi_relabel [FloorRing K] (draw : Nat → Nat → Nat → Nat) (hasDate : Bool) (rows : List (DRow K)) (s s' : String)
    (hs : ∀ r ∈ rows, r.source = s) (nSims : Nat) (nCum : Option Int) (q1 q2 : K) (w : Freq) :
    getPi draw (toFTable hasDate (rows.map (relabelD s'))) nSims nCum q1 q2 w =
      (getPi draw (toFTable hasDate rows) nSims nCum q1 q2 w).map (List.map (relabelP s')) := by
  rw [getPi_one_source draw hasDate rows s hs, getPi_one_source draw hasDate _ s' (by
    intro r hr
    obtain ⟨q, -, rfl⟩ := List.mem_map.1 hr
    rfl), ← piSingle_relabel (draw 0) (toFTable hasDate rows) s s' rfl (by
    intro r hr
    obtain ⟨q, hq, rfl⟩ := List.mem_map.1 hr
    exact congrArg some (hs q hq))]
  congr 1
  unfold toFTable
  simp only [List.map_map]
  rfl

/-- **C87.** A series gives the same result under another label: every row of the three tables carries the new label and is otherwise unchanged. -/
theorem C87_single [FloorRing K] [IsStrictOrderedRing K] (w w' : World K) (args : RunArgs K) (s s' : String) (hw : SameFor w w' s s') (df : Frame K) :
    runSingle w' args s' df = (runSingle w args s df).map (labelledAs s') := by
  unfold runSingle
  simp only [bind, Except.bind]
  rw [runFits_relabel w w' args s s' hw, hw.draw]
  cases hf : runFits w args s df with
  | error e => rfl
  | ok d =>
    simp only [Except.map]
    rw [selectFits_relabel]
    dsimp only
    have hsrc : ∀ r ∈ (selectFits args.includeAll d).1, r.source = s := by
      have h1 := runFits_relabel w w args s s ⟨rfl, rfl, rfl, rfl⟩ df
      rw [hf] at h1
      have h2 : d.1 = d.1.map (relabelD s) := congrArg Prod.fst (Except.ok.inj h1)
      have h3 : ∀ r ∈ d.1, r.source = s := by
        intro r hr
        rw [h2] at hr
        obtain ⟨q, -, rfl⟩ := List.mem_map.1 hr
        rfl
      intro r hr
      unfold selectFits at hr
      split_ifs at hr
      · exact h3 r hr
      · exact h3 r (List.mem_filter.1 hr).1
    rw [getPi_relabel (w.draw s) df.hasDate _ s s' hsrc]
    cases getPi (w.draw s) (toFTable df.hasDate (selectFits args.includeAll d).1) 100 args.nCum args.q1 args.q2 args.widening with
    | error e => rfl
    | ok f => rfl

/-- A table with one label: its x column is that of the table without labels, and it is ordered by x. -/
theorem runForecast_const [FloorRing K] (w : World K) (args : RunArgs K) (id : String) (t : STable K) (hs : t.hasSource = true) (hne : t.rows ≠ [])
    (s : String) (hl : ∀ r ∈ t.rows, r.source = some s) :
    runForecast w args id t = (withX t t.rows).bind fun rows =>
      (runSingle w args s (frameOf t (sortBy (fun a b : SRow K => decide (a.x ≤ b.x)) rows))).map some := by
  have hp : sourcePart t.rows (some s) = t.rows := by
    unfold sourcePart
    rw [List.filter_eq_self]
    intro r hr
    simp [hl r hr]
  have hd : dedupBy (fun s : Option String => s) (t.rows.map SRow.source) = [some s] :=
    dedup_const _ _ (by
      intro b hb
      obtain ⟨r, hr, rfl⟩ := List.mem_map.1 hb
      exact hl r hr) (by simpa using hne)
  unfold runForecast normalizeDf
  rw [if_neg hne, if_pos hs, hd]
  simp only [collectSources, bind, Except.bind, hp]
  cases hx : withX t t.rows with
  | error e => rfl
  | ok rows =>
    have hl' : ∀ r ∈ rows, r.source = some s := by
      intro r hr
      obtain ⟨q, hq, e⟩ := withX_mem_source t _ _ hx r hr
      rw [← e]
      exact hl q hq
    have hne' : rows ≠ [] := by
      intro hc
      have := withX_samples t _ _ hx
      rw [hc] at this
      exact hne (List.map_eq_nil_iff.1 this.symm)
    simp only [List.append_nil, hs, if_true]
    have hsort : sortBy sourceXLe rows = sortBy (fun a b : SRow K => decide (a.x ≤ b.x)) rows := by
      have := stableSort.natural (fun a b : SRow K => decide (a.x ≤ b.x)) sourceXLe (fun r => r) rows (by
        intro a ha b hb
        unfold sourceXLe
        rw [hl' a ha, hl' b hb]
        exact decide_eq_decide.2 ⟨fun h => h.elim (fun h => absurd h (lt_irrefl _)) And.right, fun h => .inr ⟨rfl, h⟩⟩)
      rw [show rows.map (fun r => r) = rows from List.map_id' rows,
        show (stableSort.run (fun a b : SRow K => decide (a.x ≤ b.x)) rows).map (fun r => r) = _ from List.map_id' _] at this
      exact this
    rw [hsort]
    have hperm := sortBy_perm (fun a b : SRow K => decide (a.x ≤ b.x)) rows
    generalize sortBy (fun a b : SRow K => decide (a.x ≤ b.x)) rows = out at hperm
    have hlo : ∀ r ∈ out, r.source = some s := fun r hr => hl' r (hperm.mem_iff.1 hr)
    have hno : out ≠ [] := by
      intro hc
      rw [hc] at hperm
      exact hne' hperm.nil_eq.symm
    rw [if_neg hno, dedup_const _ (some s) (by
      intro b hb
      obtain ⟨r, hr, rfl⟩ := List.mem_map.1 hb
      exact hlo r hr) (by simpa using hno)]
    have hpo : sourcePart out (some s) = out := by
      unfold sourcePart
      rw [List.filter_eq_self]
      intro r hr
      simp [hlo r hr]
    simp only [runSources, bind, Except.bind, hpo, Option.getD_some]
    have hf : frameOf { t with hasSource := true, hasX := true, rows := out } out = frameOf t out := rfl
    rw [hf]
    cases runSingle w args s (frameOf t out) with
    | error e => rfl
    | ok r => simp [RunResult.append, Except.map]

/-- The x column does not depend on the labels. -/
theorem withX_label (t t' : STable K) (hx : t'.hasX = t.hasX) (hd : t'.hasDate = t.hasDate) (s : String) (part : List (SRow K)) :
    withX t' (part.map fun r => { r with source := some s }) = (withX t part).map (List.map fun r => { r with source := some s }) := by
  unfold withX assignX
  rw [hx, hd]
  split_ifs with h1 h2
  · rfl
  · cases part with
    | nil => rfl
    | cons a l =>
      simp only [List.map_cons, Except.map, List.map_map]
      congr 1
      rw [← List.map_cons (f := fun r : SRow K => ({ r with source := some s } : SRow K)), List.zipWith_map_left, List.map_zipWith]
      rfl
  · simp only [Except.map, List.length_map]
    congr 1
    rw [List.zipWith_map_left, List.map_zipWith]

/-- Frames do not depend on the labels. -/
theorem frame_label (t t' : STable K) (hd : t'.hasDate = t.hasDate) (hw : t'.hasWeight = t.hasWeight) (s : String) (rows : List (SRow K)) :
    frameOf t' (sortBy (fun a b : SRow K => decide (a.x ≤ b.x)) (rows.map fun r => { r with source := some s })) =
      frameOf t (sortBy (fun a b : SRow K => decide (a.x ≤ b.x)) rows) := by
  have := stableSort.natural (fun a b : SRow K => decide (a.x ≤ b.x)) (fun a b : SRow K => decide (a.x ≤ b.x))
    (fun r : SRow K => ({ r with source := some s } : SRow K)) rows (by intros; rfl)
  have h2 : sortBy (fun a b : SRow K => decide (a.x ≤ b.x)) (rows.map fun r => { r with source := some s }) =
    (sortBy (fun a b : SRow K => decide (a.x ≤ b.x)) rows).map fun r => { r with source := some s } := this
  rw [h2]
  unfold frameOf
  rw [List.map_map, hd, hw]
  rfl

/-- **C87.** A table with a source column that holds the same label everywhere is forecast like the table without that column and the label given as
`source_id`, provided that no two samples share a coordinate. -/
theorem C87_column [FloorRing K] (w : World K) (args : RunArgs K) (s id : String) (t out : STable K) (hs : t.hasSource = false)
    (hn : normalizeDf w.srt t = .ok (some out)) (hx : (out.rows.map SRow.x).Nodup) :
    runForecast w args id (withLabel s t) = runForecast w args s t := by
  have hne : t.rows ≠ [] := by
    intro hc
    unfold normalizeDf at hn
    rw [if_pos hc] at hn
    cases hn
  have h1 : runForecast w args s t = (runSingle w args s (frameOf out out.rows)).map some := by
    have hos : out.hasSource = false := ((C26_samples _ _ _ hn).2.2.2.2.1).trans hs
    unfold runForecast
    rw [hn]
    simp only [bind, Except.bind, hos, Bool.false_eq_true, if_false]
    cases runSingle w args s (frameOf out out.rows) <;> rfl
  rw [h1, runForecast_const w args id (withLabel s t) rfl (by simpa [withLabel] using hne) s (by
    intro r hr
    obtain ⟨q, -, rfl⟩ := List.mem_map.1 hr
    rfl)]
  have h2 : withX (withLabel s t) (withLabel s t).rows = (withX t t.rows).map (List.map fun r => { r with source := some s }) :=
    withX_label t (withLabel s t) rfl rfl s t.rows
  rw [h2]
  unfold normalizeDf at hn
  rw [if_neg hne, hs] at hn
  simp only [Bool.false_eq_true, if_false, bind, Except.bind] at hn
  cases hw : withX t t.rows with
  | error e => rw [hw] at hn; cases hn
  | ok rows =>
    rw [hw] at hn
    cases hn
    simp only [Except.map, Except.bind]
    rw [frame_label t (withLabel s t) rfl rfl s rows]
    have hsort : sortBy (fun a b : SRow K => decide (a.x ≤ b.x)) rows = w.srt.run (fun a b : SRow K => decide (a.x ≤ b.x)) rows := by
      have htr : ∀ a b c : SRow K, decide (a.x ≤ b.x) → decide (b.x ≤ c.x) → decide (a.x ≤ c.x) := by
        intro a b c h1 h2
        exact decide_eq_true ((of_decide_eq_true h1).trans (of_decide_eq_true h2))
      have hto : ∀ a b : SRow K, decide (a.x ≤ b.x) || decide (b.x ≤ a.x) := by
        intro a b
        rcases le_total a.x b.x with h | h <;> simp [h]
      have hp1 := sortBy_perm (fun a b : SRow K => decide (a.x ≤ b.x)) rows
      have hp2 := w.srt.perm (fun a b : SRow K => decide (a.x ≤ b.x)) rows
      have hs1 := sortBy_sorted (fun a b : SRow K => decide (a.x ≤ b.x)) htr hto rows
      have hs2 := w.srt.sorted (fun a b : SRow K => decide (a.x ≤ b.x)) rows htr hto
      have hnd : (sortBy (fun a b : SRow K => decide (a.x ≤ b.x)) rows).map SRow.x |>.Nodup :=
        ((hp1.trans hp2.symm).map SRow.x).nodup_iff.2 hx
      have hlt : ∀ l : List (SRow K), (l.map SRow.x).Nodup → l.Pairwise (fun a b => decide (a.x ≤ b.x) = true) → l.Pairwise fun a b => a.x < b.x := by
        intro l h1 h2
        rw [List.Nodup, List.pairwise_map] at h1
        refine (h1.and h2).imp ?_
        rintro a b ⟨h3, h4⟩
        exact lt_of_le_of_ne (of_decide_eq_true h4) h3
      exact List.Perm.eq_of_pairwise (le := fun a b : SRow K => a.x < b.x) (fun a b _ _ h1 h2 => absurd (h1.trans h2) (lt_irrefl _))
        (hlt _ hnd hs1) (hlt _ hx hs2) (hp1.trans hp2.symm)
    rw [hsort]
    rfl

/-- The part of a renamed table that belongs to a renamed source. -/
theorem only_renamed (f : String → String) (t : STable K) (s : String)
    (hf : ∀ r ∈ t.rows, ∀ s', r.source = some s' → f s' = f s → s' = s) :
    only (f s) (renamed f t) = { t with rows := (only s t).rows.map fun r => { r with source := some (f s) } } := by
  unfold only renamed
  dsimp only
  congr 1
  rw [List.filter_map]
  have h1 : t.rows.filter ((fun r : SRow K => decide (r.source = some (f s))) ∘ fun r => { r with source := r.source.map f }) =
      t.rows.filter fun r => decide (r.source = some s) := by
    apply List.filter_congr
    intro r hr
    have := hf r hr
    cases h : r.source with
    | none => simp [h]
    | some s' =>
      simp only [Function.comp, h, Option.map_some]
      exact decide_eq_decide.2 ⟨fun h2 => congrArg some (this s' h (Option.some.inj h2)), fun h2 => by rw [Option.some.inj h2]⟩
  rw [h1]
  apply List.map_congr_left
  intro r hr
  rw [of_decide_eq_true (List.mem_filter.1 hr).2]
  rfl

/-- **C87.** One source of a table with renamed sources is forecast like before, under its new label. -/
theorem C87_renamed_source [FloorRing K] [IsStrictOrderedRing K] (w w' : World K) (args : RunArgs K) (id id' : String) (f : String → String)
    (t : STable K) (hs : t.hasSource = true) (s : String) (hm : ∃ r ∈ t.rows, r.source = some s)
    (hf : ∀ r ∈ t.rows, ∀ s', r.source = some s' → f s' = f s → s' = s) (hw : SameFor w w' s (f s)) :
    runForecast w' args id' (only (f s) (renamed f t)) = (runForecast w args id (only s t)).map (Option.map (labelledAs (f s))) := by
  have hne : (only s t).rows ≠ [] := by
    obtain ⟨r, hr, e⟩ := hm
    exact List.ne_nil_of_mem (List.mem_filter.2 ⟨hr, by simp [e]⟩)
  rw [only_renamed f t s hf, runForecast_const w args id (only s t) hs hne s (fun r hr => of_decide_eq_true (List.mem_filter.1 hr).2),
    runForecast_const w' args id' { t with rows := (only s t).rows.map fun r => { r with source := some (f s) } } hs (by simpa using hne) (f s) (by
      intro r hr
      obtain ⟨q, -, rfl⟩ := List.mem_map.1 hr
      rfl)]
  have hx := withX_label (only s t) { t with rows := (only s t).rows.map fun r => { r with source := some (f s) } } rfl rfl (f s) (only s t).rows
  dsimp only at hx ⊢
  rw [hx]
  cases withX (only s t) (only s t).rows with
  | error e => rfl
  | ok rows =>
    simp only [Except.map, Except.bind]
    have hfr := frame_label (only s t) { t with rows := (only s t).rows.map fun r => { r with source := some (f s) } } rfl rfl (f s) rows
    rw [hfr, C87_single w w' args s (f s) hw]
    cases runSingle w args s (frameOf (only s t) (sortBy (fun a b : SRow K => decide (a.x ≤ b.x)) rows)) <;> rfl

/-- The result has rows of the sources of the table only. -/
theorem resultOf_other [FloorRing K] [IsStrictOrderedRing K] (w : World K) (args : RunArgs K) (sourceId : String) (t : STable K)
    (hs : t.hasSource = true) (res : RunResult K) (h : runForecast w args sourceId t = .ok (some res)) (s : String)
    (hm : ¬ ∃ r ∈ t.rows, r.source = some s) : resultOf s res = ⟨[], [], []⟩ := by
  obtain ⟨labels, parts, -, hmem, hf, rfl⟩ := C47_concatenation w args sourceId t hs res h
  have hall : ∀ s ∈ labels, ∃ r ∈ t.rows, r.source = some s := fun s hs => (hmem s).1 hs
  clear hmem h
  induction hf with
  | nil => rfl
  | cons h1 h2 ih =>
    rename_i a r labels parts
    have e1 := runForecast_only_rows w args sourceId t hs a (hall a (by simp)) r h1 s
    rw [if_neg (by rintro rfl; exact hm (hall s (by simp)))] at e1
    have e2 := ih fun s hs => hall s (by simp [hs])
    simp only [resultOf, RunResult.mk.injEq] at e1 e2 ⊢
    simp [List.flatMap_cons, List.filter_append, e1, e2]

/-- **C87.** Renaming the sources of a table, with different names for different sources, renames the rows of the result and changes nothing else. -/
theorem C87_renamed [FloorRing K] [IsStrictOrderedRing K] (w w' : World K) (args : RunArgs K) (id id' : String) (f : String → String)
    (t : STable K) (hs : t.hasSource = true) (hl : ∀ r ∈ t.rows, r.source ≠ none)
    (hf : ∀ r ∈ t.rows, ∀ r' ∈ t.rows, r.source.map f = r'.source.map f → r.source = r'.source)
    (hw : ∀ r ∈ t.rows, ∀ s, r.source = some s → SameFor w w' s (f s)) (res : RunResult K) (h : runForecast w args id t = .ok (some res)) :
    ∃ res', runForecast w' args id' (renamed f t) = .ok (some res') ∧
      (∀ s, (∃ r ∈ t.rows, r.source = some s) → resultOf (f s) res' = labelledAs (f s) (resultOf s res)) ∧
      ∀ s', (∀ r ∈ t.rows, r.source.map f ≠ some s') → resultOf s' res' = ⟨[], [], []⟩ := by
  have hone : ∀ s, (∃ r ∈ t.rows, r.source = some s) →
      runForecast w' args id' (only (f s) (renamed f t)) = .ok (some (labelledAs (f s) (resultOf s res))) := by
    rintro s ⟨r, hr, e⟩
    rw [C87_renamed_source w w' args id id' f t hs s ⟨r, hr, e⟩ (by
        intro r' hr' s' h' hff
        have := hf r' hr' r hr (by rw [h', e]; simp [hff])
        rw [h', e] at this
        exact Option.some.inj this) (hw r hr s e), C47_independent w args id t hs res h s ⟨r, hr, e⟩]
    rfl
  have hne : t.rows ≠ [] := by
    intro hc
    unfold runForecast normalizeDf at h
    rw [if_pos hc] at h
    cases h
  obtain ⟨res', hr'⟩ := C47_succeeds w' args id' (renamed f t) hs (by simpa [renamed] using hne) (by
      intro r hr
      obtain ⟨q, hq, rfl⟩ := List.mem_map.1 hr
      simpa using hl q hq) (by
      rintro s ⟨r, hr, e⟩
      obtain ⟨q, hq, rfl⟩ := List.mem_map.1 hr
      cases hq2 : q.source with
      | none => exact absurd hq2 (hl q hq)
      | some s0 =>
        simp only [hq2, Option.map_some, Option.some.injEq] at e
        subst e
        exact ⟨_, hone s0 ⟨q, hq, hq2⟩⟩)
  refine ⟨res', hr', ?_, ?_⟩
  · rintro s ⟨r, hr, e⟩
    have h1 := C47_independent w' args id' (renamed f t) hs res' hr' (f s) ⟨_, List.mem_map.2 ⟨r, hr, rfl⟩, by simp [e]⟩
    rw [hone s ⟨r, hr, e⟩] at h1
    exact (Option.some.inj (Except.ok.inj h1)).symm
  · intro s' hno
    refine resultOf_other w' args id' (renamed f t) hs res' hr' s' ?_
    rintro ⟨r, hr, e⟩
    obtain ⟨q, hq, rfl⟩ := List.mem_map.1 hr
    exact hno q hq e

/-- The two sources of `demoTable` under names in the opposite order. -/
def swapNames (s : String) : String := if s = "a" then "west" else "east"

example : (∀ r ∈ demoTable.rows, r.source ≠ none) ∧
    (∀ r ∈ demoTable.rows, ∀ r' ∈ demoTable.rows, r.source.map swapNames = r'.source.map swapNames → r.source = r'.source) ∧
    (∀ s, SameFor demoWorld demoWorld s (swapNames s)) ∧
    ((runForecast demoWorld (demoArgs [modelLinear, modelConstant] (some [])) "" (renamed swapNames demoTable)).toOption.map fun o => o.map fun r =>
      (r.metadata.filter MRow.isBest).map fun q => (q.source, q.model)) = some (some [("east", "constant"), ("west", "linear")]) :=
  ⟨by decide +kernel, by decide +kernel, fun _ => ⟨rfl, rfl, rfl, rfl⟩, by decide +kernel⟩

/-- A table without labels whose coordinates are distinct. -/
def plainTable : STable ℚ := ⟨true, false, false, false, [⟨6 * DAY, none, 0, some 5, none⟩, ⟨4 * DAY, none, 0, some 1, none⟩,
  ⟨5 * DAY, none, 0, some 3, none⟩, ⟨7 * DAY, none, 0, some 7, none⟩]⟩

example : ((normalizeDf demoWorld.srt plainTable).toOption.map fun o => o.map fun t => t.rows.map SRow.x) = some (some [0, 1, 2, 3]) ∧
    ((runForecast demoWorld (demoArgs [modelLinear, modelConstant] (some [])) "" (withLabel "a" plainTable)).toOption.map fun o => o.map fun r =>
      (r.metadata.filter MRow.isBest).map fun q => (q.source, q.model)) = some (some [("a", "linear")]) := by
  decide +kernel

/-- Another sorting algorithm: samples with the same coordinate in reverse order. -/
def reverseSort : SortAlg where
  run le l := sortBy le l.reverse
  perm le l := (sortBy_perm le _).trans (List.reverse_perm l)
  sorted le l ht hto := sortBy_sorted le ht hto _
  natural leA leB f l h := by
    rw [← List.map_reverse]
    exact stableSort.natural leA leB f l.reverse (by
      intro a ha b hb
      exact h a (List.mem_reverse.1 ha) b (List.mem_reverse.1 hb))

/-- Two samples for the same day. -/
def twiceTable : STable ℚ := ⟨true, false, false, false, [⟨4 * DAY, none, 0, some 5, none⟩, ⟨5 * DAY, none, 0, some 1, none⟩,
  ⟨5 * DAY, none, 0, some 3, none⟩, ⟨6 * DAY, none, 0, some 7, none⟩]⟩

/-- Why coordinates have to be distinct in `C87_column`: tables without labels are sorted by an algorithm that may exchange samples of the same day, tables
with labels are not. -/
theorem C87_ties : (runForecast { demoWorld with srt := reverseSort } (demoArgs [modelConstant] (some [])) "a" (withLabel "a" twiceTable)) ≠
    runForecast { demoWorld with srt := reverseSort } (demoArgs [modelConstant] (some [])) "a" twiceTable := by
  decide +kernel

end Anticipy

#print axioms Anticipy.C87_single
#print axioms Anticipy.C87_column
#print axioms Anticipy.C87_renamed_source
#print axioms Anticipy.C87_renamed
#print axioms Anticipy.C87_ties
