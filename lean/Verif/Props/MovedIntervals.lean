import Verif.Props.Additive
import Verif.Props.DailyRun
import Verif.Props.UnitModels
import Verif.Props.WeightIntervals

/-
C77 for the whole forecast table: a series moved by whole weeks has the same forecast table with its intervals, moved by as much.
-/
namespace Anticipy
open Spec

/-! ### Frequencies and grids -/

theorem listMin_moved (s : Int) (l : List Int) : listMin (l.map fun t => t + s) = (listMin l).map fun t => t + s := by
  cases h : listMin l with
  | none => rw [(listMin_none l).1 h]; rfl
  | some m =>
    obtain ⟨h1, h2⟩ := (listMin_some l m).1 h
    refine (listMin_some _ _).2 ⟨List.mem_map_of_mem h1, ?_⟩
    intro b hb
    obtain ⟨a, ha, rfl⟩ := List.mem_map.1 hb
    have := h2 a ha
    simp only
    omega

theorem listMax_moved (s : Int) (l : List Int) : listMax (l.map fun t => t + s) = (listMax l).map fun t => t + s := by
  cases h : listMax l with
  | none => rw [(listMax_none l).1 h]; rfl
  | some m =>
    obtain ⟨h1, h2⟩ := (listMax_some l m).1 h
    refine (listMax_some _ _).2 ⟨List.mem_map_of_mem h1, ?_⟩
    intro b hb
    obtain ⟨a, ha, rfl⟩ := List.mem_map.1 hb
    have := h2 a ha
    simp only
    omega

theorem diffs_moved (s : Int) (l : List Int) : diffs (l.map fun t => t + s) = diffs l := by
  unfold diffs
  rw [pairs_map, List.map_map]
  apply List.map_congr_left
  intro p _
  simp only [Function.comp]
  omega

/-- The distinct dates in order move along. -/
theorem distinct_moved (s : Int) (l : List Int) : dedupBy (fun t : Timestamp => t) (sortBy (fun a b : Timestamp => decide (a ≤ b)) (l.map fun t => t + s)) =
    (dedupBy (fun t : Timestamp => t) (sortBy (fun a b : Timestamp => decide (a ≤ b)) l)).map fun t => t + s := by
  rw [sortBy_natural (fun a b : Timestamp => decide (a ≤ b)) (fun a b : Timestamp => decide (a ≤ b)) (fun t : Int => t + s) l (by
    intro a _ b _
    simp)]
  generalize sortBy (fun a b : Timestamp => decide (a ≤ b)) l = k
  induction k with
  | nil => rfl
  | cons a k ih =>
    simp only [List.map_cons, dedupBy, ih, List.filter_map]
    congr 2
    apply List.filter_congr
    intro b _
    simp [Function.comp]

/-- Frequencies whose code does not change when the dates are moved by whole weeks. -/
def NotMonthly (f : Option Freq) : Prop := f ≠ some .M ∧ f ≠ some .MS ∧ f ≠ some .Y ∧ f ≠ some .YS

theorem detectFreq_moved (k : Int) (l : List Timestamp) (h : NotMonthly (detectFreq l)) :
    detectFreq (l.map fun t => t + k * (7 * (24 * 60 * 60 * 1000000000))) = detectFreq l := by
  generalize hs : k * (7 * (24 * 60 * 60 * 1000000000)) = s
  unfold detectFreq NotMonthly at *
  dsimp only at *
  rw [distinct_moved, diffs_moved, listMin_moved]
  generalize dedupBy (fun t : Timestamp => t) (sortBy (fun a b : Timestamp => decide (a ≤ b)) l) = S at *
  split
  · rfl
  · rename_i d hd
    rw [hd] at h
    dsimp only at h
    split_ifs at h ⊢ <;> first | rfl | simp at h | skip
    cases listMin S with
    | none => rfl
    | some t =>
      simp only [Option.map_some]
      rw [← hs, weekday_moved]

/-- The accumulation period does not depend on where the dates start. -/
theorem freqDays_moved (s : Int) (l : List Timestamp) : (detectFreq (l.map fun t => t + s)).map daysFromFreq = (detectFreq l).map daysFromFreq := by
  unfold detectFreq
  dsimp only
  rw [distinct_moved, diffs_moved, listMin_moved]
  generalize dedupBy (fun t : Timestamp => t) (sortBy (fun a b : Timestamp => decide (a ≤ b)) l) = S at *
  split
  · rfl
  · split_ifs <;> first | rfl | skip
    cases listMin S <;> rfl

theorem genRange_moved (next next' : Timestamp → Timestamp) (s : Int) (h : ∀ t, next' (t + s) = next t + s) (stop : Timestamp) (n : Nat) (cur : Timestamp) :
    genRange next' (stop + s) n (cur + s) = (genRange next stop n cur).map fun t => t + s := by
  induction n generalizing cur with
  | zero => rfl
  | succ n ih =>
    simp only [genRange, add_le_add_iff_right]
    split_ifs
    · rw [List.map_cons, h, ih]
    · rfl

theorem rollForward_moved (wd k : Int) (t : Timestamp) :
    rollForward (.W wd) (t + k * (7 * (24 * 60 * 60 * 1000000000))) = rollForward (.W wd) t + k * (7 * (24 * 60 * 60 * 1000000000)) := by
  simp only [rollForward, anchorDay, anchorIdx, dayOf, todOf, DAY]
  omega

theorem nextAnchor_moved (wd k : Int) (t : Timestamp) :
    nextAnchor (.W wd) (t + k * (7 * (24 * 60 * 60 * 1000000000))) = nextAnchor (.W wd) t + k * (7 * (24 * 60 * 60 * 1000000000)) := by
  simp only [nextAnchor, anchorDay, anchorIdx, dayOf, todOf, DAY]
  omega

theorem rollBack_moved (wd k : Int) (t : Timestamp) :
    rollBack (.W wd) (t + k * (7 * (24 * 60 * 60 * 1000000000))) = rollBack (.W wd) t + k * (7 * (24 * 60 * 60 * 1000000000)) := by
  have h1 : onOffset (.W wd) (t + k * (7 * (24 * 60 * 60 * 1000000000))) = onOffset (.W wd) t := by
    simp only [onOffset, rollForward_moved, add_left_inj]
  unfold rollBack
  rw [h1]
  split_ifs
  · rfl
  · simp only [anchorDay, anchorIdx, dayOf, todOf, DAY]
    omega

/-- The grid of an hourly, daily or weekly series moves along. -/
theorem dateRange_moved (k : Int) (start stop : Timestamp) (f : Freq) (hf : f = .H ∨ f = .D ∨ ∃ wd, f = .W wd) :
    dateRange (start + k * (7 * (24 * 60 * 60 * 1000000000))) (stop + k * (7 * (24 * 60 * 60 * 1000000000))) f =
      (dateRange start stop f).map fun t => t + k * (7 * (24 * 60 * 60 * 1000000000)) := by
  have hfuel : ∀ s : Int, ((stop + s - (start + s)) / HOUR + 1).toNat = ((stop - start) / HOUR + 1).toNat := by
    intro s
    rw [add_sub_add_right_eq_sub]
  rcases hf with rfl | rfl | ⟨wd, rfl⟩
  · simp only [dateRange, hfuel]
    exact genRange_moved _ _ _ (by intro t; omega) _ _ _
  · simp only [dateRange, hfuel]
    exact genRange_moved _ _ _ (by intro t; omega) _ _ _
  · have h1 : onOffset (.W wd) (start + k * (7 * (24 * 60 * 60 * 1000000000))) = onOffset (.W wd) start := by
      simp only [onOffset, rollForward_moved, add_left_inj]
    simp only [dateRange, hfuel, h1, rollForward_moved, rollBack_moved]
    split_ifs <;> exact genRange_moved _ _ _ (nextAnchor_moved wd k) _ _ _

/-- The extrapolated axis moves along; the coordinates stay. -/
theorem extrapolate_moved (k : Int) (start stop : Timestamp) (freq : Option Freq) (hf : NotMonthly freq) (y : ℚ) (x0 : Int) :
    sxExtrapolateDate (start + k * (7 * (24 * 60 * 60 * 1000000000))) (stop + k * (7 * (24 * 60 * 60 * 1000000000))) freq y x0 =
      (sxExtrapolateDate start stop freq y x0).map fun l => l.map fun p => (p.1 + k * (7 * (24 * 60 * 60 * 1000000000)), p.2) := by
  have fin : ∀ f : Freq, f = .H ∨ f = .D ∨ (∃ wd, f = .W wd) → ∀ e e' : Res Timestamp, e' = e.map (fun t => t + k * (7 * (24 * 60 * 60 * 1000000000))) →
      (e'.bind fun e => (.ok ((dateRange (start + k * (7 * (24 * 60 * 60 * 1000000000))) e f).map fun t =>
        (t, (t - (start + k * (7 * (24 * 60 * 60 * 1000000000)))) / DAY + x0)) : Res (List (Timestamp × Int)))) =
      (e.bind fun e => (.ok ((dateRange start e f).map fun t => (t, (t - start) / DAY + x0)) : Res (List (Timestamp × Int)))).map
        fun l => l.map fun p => (p.1 + k * (7 * (24 * 60 * 60 * 1000000000)), p.2) := by
    intro f hf e e' he
    subst he
    cases e with
    | error e => rfl
    | ok e =>
      simp only [Except.map, Except.bind, dateRange_moved k start e f hf, List.map_map]
      congr 1
      apply List.map_congr_left
      intro t _
      simp only [Function.comp]
      rw [add_sub_add_right_eq_sub]
  have hor : ∀ f : Freq, f = .H ∨ f = .D ∨ (∃ wd, f = .W wd) → addHorizon f y (stop + k * (7 * (24 * 60 * 60 * 1000000000))) =
      (addHorizon f y stop).map (fun t => t + k * (7 * (24 * 60 * 60 * 1000000000))) := by
    intro f hf
    rcases hf with rfl | rfl | ⟨wd, rfl⟩ <;> simp only [addHorizon, Except.map] <;> congr 1 <;> omega
  unfold sxExtrapolateDate
  rw [weekday_moved]
  cases freq with
  | none => exact fin _ (.inr (.inr ⟨_, rfl⟩)) _ _ (hor _ (.inr (.inr ⟨_, rfl⟩)))
  | some f =>
    cases f with
    | H => exact fin _ (.inl rfl) _ _ (hor _ (.inl rfl))
    | D => exact fin _ (.inr (.inl rfl)) _ _ (hor _ (.inr (.inl rfl)))
    | W wd =>
      by_cases hw : weekday start = wd
      · simp only [hw, decide_true, pyAssert, if_true]
        exact fin _ (.inr (.inr ⟨_, rfl⟩)) _ _ (hor _ (.inr (.inr ⟨_, rfl⟩)))
      · simp only [hw, decide_false, pyAssert]
        rfl
    | Q => rfl
    | M => exact absurd rfl hf.1
    | MS => exact absurd rfl hf.2.1
    | Y => exact absurd rfl hf.2.2.1
    | YS => exact absurd rfl hf.2.2.2

/-! ### Intervals -/

variable {K : Type} [Field K] [LinearOrder K]

/-- A row of the table for intervals, moved. -/
def moveF (s : Int) (r : FRow K) : FRow K := { r with date := r.date + s }
/-- A row of the forecast table, moved. -/
def moveP (s : Int) (r : PRow K) : PRow K := { r with date := r.date + s }
/-- A sample for residuals, moved. -/
def moveA (s : Int) (r : ActualRow K) : ActualRow K := { r with date := r.date + s }

omit [Field K] [LinearOrder K] in
theorem filter_moveF (s : Int) (p q : FRow K → Bool) (hp : ∀ r, p (moveF s r) = q r) (l : List (FRow K)) :
    (l.map (moveF s)).filter p = (l.filter q).map (moveF s) := by
  rw [List.filter_map]
  congr 1
  apply List.filter_congr
  intro r _
  exact hp r

omit [Field K] [LinearOrder K] in
theorem unfiltered_moveF (s : Int) (l : List (FRow K)) : actualsUnfiltered (l.map (moveF s)) = (actualsUnfiltered l).map (moveF s) := by
  unfold actualsUnfiltered
  exact filter_moveF s _ _ (fun r => rfl) l

theorem filtered_moveF (s : Int) (t t' : FTable K) (h2 : t'.hasSource = t.hasSource) (h3 : t'.hasWeight = t.hasWeight)
    (l : List (FRow K)) : actualsFiltered t' (l.map (moveF s)) = (actualsFiltered t l).map fun p => (p.1.map (moveA s), p.2) := by
  have hz : anyZeroWeight t' (l.map (moveF s)) = anyZeroWeight t l := by
    unfold anyZeroWeight
    rw [h3, List.any_map]
    rfl
  unfold actualsFiltered
  rw [hz, h2]
  split_ifs
  · dsimp only
    rw [filter_moveF s _ _ (fun _ => rfl), unfiltered_moveF, List.flatMap_map]
    simp only [Except.map, List.map_flatMap]
    congr 2
    apply List.flatMap_congr
    intro r _
    rw [filter_moveF s _ (fun d => decide (d.date = r.date)) (by intro d; simp [moveF]), List.filterMap_map, List.map_filterMap]
    apply List.filterMap_congr
    intro d _
    simp only [Function.comp, moveF, Option.map_map]
    rfl
  · rfl
  · rw [unfiltered_moveF, List.filterMap_map]
    simp only [Except.map, List.map_filterMap]
    congr 2
    apply List.filterMap_congr
    intro r _
    simp only [Function.comp, moveF, Option.map_map]
    rfl

omit [LinearOrder K] in
theorem residuals_moveF (s : Int) (l : List (FRow K)) (acts : List (ActualRow K)) (b : Bool) :
    residuals (l.map (moveF s)) (acts.map (moveA s)) b = residuals l acts b := by
  unfold residuals
  rw [filter_moveF s _ (fun r => !r.isActuals) (fun _ => rfl), List.flatMap_map]
  apply List.flatMap_congr
  intro r _
  have : (acts.map (moveA s)).filter (fun a => decide (a.date = (moveF s r).date ∧ (b = true → a.source = (moveF s r).source))) =
      (acts.filter fun a => decide (a.date = r.date ∧ (b = true → a.source = r.source))).map (moveA s) := by
    rw [List.filter_map]
    congr 1
    apply List.filter_congr
    intro a _
    rw [Function.comp, decide_eq_decide]
    simp only [moveA, moveF, add_left_inj]
  rw [this]
  simp only [List.map_map]
  rfl

theorem addPercentiles_moveF [FloorRing K] (s : Int) (l : List (FRow K)) (sample : List (List K)) (q1 q2 : K) :
    addPercentiles (l.map (moveF s)) sample q1 q2 = (addPercentiles l sample q1 q2).map fun r => r.map (moveP s) := by
  unfold addPercentiles
  have : ∀ f : Nat → FRow K → PRow K, (∀ j r, f j (moveF s r) = moveP s (f j r)) → (l.map (moveF s)).mapIdx f = (l.mapIdx f).map (moveP s) := by
    intro f hf
    apply List.ext_getElem (by simp)
    intro i h1 h2
    simp [hf]
  dsimp only
  rw [this _ (fun _ _ => rfl)]
  unfold pyAssert
  split_ifs <;> rfl

/-- The intervals move along with the dates. -/
theorem piSingle_moveF [FloorRing K] (s : Int) (draw : Nat → Nat → Nat) (t t' : FTable K) (h1 : t'.numDate = t.numDate)
    (h2 : t'.hasSource = t.hasSource) (h3 : t'.hasWeight = t.hasWeight) (h4 : selectRows t' = (selectRows t).map (moveF s)) (nSims : Nat) (nCum : Int)
    (q1 q2 : K) : piSingle draw t' nSims nCum q1 q2 = (piSingle draw t nSims nCum q1 q2).map fun r => r.map (moveP s) := by
  have e1 : cumPeriod t' ((selectRows t).map (moveF s)) nCum = cumPeriod t (selectRows t) nCum := by
    have hd := freqDays_moved s ((selectRows t).map FRow.date)
    have hm : ((selectRows t).map (moveF s)).map FRow.date = ((selectRows t).map FRow.date).map fun t => t + s := by
      rw [List.map_map, List.map_map]
      rfl
    unfold cumPeriod
    rw [h1, hm]
    split_ifs
    · rfl
    · cases hf : detectFreq ((selectRows t).map FRow.date) with
      | none =>
        rw [hf] at hd
        rw [Option.map_eq_none_iff.1 hd]
      | some f =>
        rw [hf] at hd
        obtain ⟨f', e, hf'⟩ := Option.map_eq_some_iff.1 hd
        rw [e]
        dsimp only
        rw [hf']
  have e4 : ((actualsUnfiltered (selectRows t)).map (moveF s)).map actualOut = ((actualsUnfiltered (selectRows t)).map actualOut).map (moveP s) := by
    rw [List.map_map, List.map_map]
    rfl
  unfold piSingle
  dsimp only
  rw [h4, e1, filtered_moveF s t t' h2 h3, h2]
  cases cumPeriod t (selectRows t) nCum with
  | error e => rfl
  | ok n =>
    cases actualsFiltered t (selectRows t) with
    | error e => rfl
    | ok p =>
      simp only [bind, Except.bind, Except.map, residuals_moveF, unfiltered_moveF, e4, List.map_eq_nil_iff]
      have hmax : listMax ((p.1.map (moveA s)).map ActualRow.date) = (listMax (p.1.map ActualRow.date)).map fun t => t + s := by
        rw [← listMax_moved, List.map_map, List.map_map]
        rfl
      rw [hmax]
      cases listMax (p.1.map ActualRow.date) with
      | none =>
        simp only [Option.map_none]
        split_ifs <;> rfl
      | some last =>
        cases residuals (selectRows t) p.1 p.2 with
        | nil =>
          simp only [Option.map_some]
          split_ifs <;> rfl
        | cons a l =>
          simp only [Option.map_some]
          rw [filter_moveF s (fun r => !r.isActuals && decide (last + s < r.date)) (fun r => !r.isActuals && decide (last < r.date)) (by intro r; simp [moveF]),
            filter_moveF s (fun r => !r.isActuals && decide (r.date ≤ last + s)) (fun r => !r.isActuals && decide (r.date ≤ last)) (by intro r; simp [moveF])]
          simp only [addPercentiles_moveF, List.length_map]
          cases futureSample draw (centred (a :: l)) nSims n ((selectRows t).filter fun r => !r.isActuals && decide (last < r.date)).length with
          | error e => rfl
          | ok fs =>
            dsimp only
            cases addPercentiles ((selectRows t).filter fun r => !r.isActuals && decide (last < r.date)) fs q1 q2 with
            | error e => rfl
            | ok fo =>
              simp only [Except.map]
              cases pastSample draw (centred (a :: l)) nSims ((selectRows t).filter fun r => !r.isActuals && decide (r.date ≤ last)).length with
              | error e => rfl
              | ok ps =>
                dsimp only
                cases addPercentiles ((selectRows t).filter fun r => !r.isActuals && decide (r.date ≤ last)) ps q1 q2 with
                | error e => rfl
                | ok po => simp only [List.map_append]

theorem runFreq_moved (k : Int) (df : Frame K) (h : NotMonthly (runFreq df)) : runFreq (moved (k * (7 * (24 * 60 * 60 * 1000000000))) df) = runFreq df := by
  unfold runFreq at *
  have h1 : (moved (k * (7 * (24 * 60 * 60 * 1000000000))) df).hasDate = df.hasDate := rfl
  have h2 : (moved (k * (7 * (24 * 60 * 60 * 1000000000))) df).rows.map Row.date = (df.rows.map Row.date).map fun t => t + k * (7 * (24 * 60 * 60 * 1000000000)) := by
    simp only [moved, List.map_map]
    rfl
  rw [h1, h2]
  split_ifs at h ⊢
  · exact detectFreq_moved k _ h
  · rfl

/-- **C77, forecast table.** Dated series that is not monthly or yearly, moved by whole weeks together with the starting date. If the returned forecast is that
of the same additive model in both runs, whose features repeat every week, the whole forecast table, with its quantile columns, moves along. Both solvers find the
minimum and the random draws are the same. -/
theorem C77_intervals [FloorRing K] [IsStrictOrderedRing K] (w w' : World K) (args args' : RunArgs K) (source : String) (df : Frame K) (k s : Int)
    (hs : s = k * (7 * (24 * 60 * 60 * 1000000000))) (hfreq : NotMonthly (runFreq df)) (res res' : RunResult K) (h : runSingle w args source df = .ok res)
    (h' : runSingle w' args' source (moved s df) = .ok res')
    (hargs : args'.start = (args.start.map fun t => t + s) ∧ args'.findOutliers = args.findOutliers ∧ args'.years = args.years ∧ args'.nCum = args.nCum ∧
      args'.q1 = args.q1 ∧ args'.q2 = args.q2 ∧ args'.widening = args.widening) (hdraw : w'.draw source = w.draw source)
    (m : ForecastModel K) (hma : m.name ≠ "actuals") (reg : Registry K) (feats : List (Feature K)) (hm : AddsUp m reg feats) (hlev : HasLevel feats)
    (hne : feats ≠ []) (hper : Periodic feats s) (hx : FitsExactly w args source df m reg) (hx' : FitsExactly w' args' source df m reg)
    (hnames : ∀ df' cand, candidates w.ch args.models df' (runFreq df) = .ok cand → (cand.2.map ForecastModel.name).Nodup)
    (hnames' : ∀ df' cand, candidates w'.ch args'.models df' (runFreq df) = .ok cand → (cand.2.map ForecastModel.name).Nodup)
    (hdate : df.hasDate = true) (t0 : Timestamp) (hdays : CountsDays df t0) (hnd : (df.rows.map Row.x).Nodup) (hid : Identifies feats t0 (observed res))
    (hb : ∃ r, ForecastOf res m.name r ∧ r.isBest = true) (hb' : ∃ r, ForecastOf res' m.name r ∧ r.isBest = true) :
    res'.forecast = res.forecast.map fun r => { r with date := r.date + s } := by
  obtain ⟨r, hr, hbr⟩ := hb
  obtain ⟨r', hr', hbr'⟩ := hb'
  have hrf : runFreq (moved s df) = runFreq df := by rw [hs]; exact runFreq_moved k df hfreq
  have hshift : ∀ p x t, combination feats p x (t + s) = combination feats p x t := by
    intro p x t
    unfold combination
    congr 1
    apply List.ext_getElem (by simp)
    intro i h1 h2
    simp only [List.getElem_zipWith]
    rw [hper _ (List.getElem_mem _)]
  have hlp := hm.inParameters hlev hne
  have hlen : ∀ (env : Env K), FindsMinimum env → ∀ (used : Frame K) act cc f, fitModel env m used act cc = .ok f → f.isFit = true →
      f.params.length = m.nParams := by
    intro env he used act cc f e hf
    obtain ⟨-, ctx, guess, b, r, -, -, -, h4, h5, h6, h7, -⟩ := fitModel_solver _ m _ _ _ f hm.unpinned hlp.params e hf
    rw [h7]
    exact (hlp.free _ _ _ h4).1 (he _ _ _ _ h5 h6).1
  have hval := fun (ctx : Ctx K) xs ds p h1 h2 h3 h4 (h5 : ∀ k, ctx.cache k = none) h6 =>
    hlp.value ctx xs ds p h1 h2 h3 h4 (by intro k v hk; rw [h5] at hk; cases hk) h6
  obtain ⟨df2, i, f, act, start, x0, sx, hOut, e2, hfit, s1, s2, s3, s4⟩ := selected_rows w args source df res h m hma hx.only hnames
    ⟨r, hr.1, hr.2.1, hbr, hr.2.2⟩ hdate _ hval (fun i used act f e hf => hlen _ (hx.minimum i) used act _ f e hf)
  obtain ⟨df2', i', f', act', start', x0', sx', hOut', e2', hfit', s1', s2', s3', s4'⟩ := selected_rows w' args' source _ res' h' m hma
    (by rw [hrf]; exact hx'.only) (by rw [hrf]; exact hnames') ⟨r', hr'.1, hr'.2.1, hbr', hr'.2.2⟩ hdate _ hval
    (fun i used act f e hf => hlen _ (hx'.minimum i) used act _ f e hf)
  obtain ⟨a1, a2, a3, a4, a5, a6, a7⟩ := hargs
  have hsim := moved_stages s df args args' a1 a2 df2 df2' hOut hOut'
  rw [a1, a2, filterStart_moved, applyOutliers_moved s, hOut] at hOut'
  have hOut' := (Except.ok.inj hOut').symm
  subst hOut'
  rw [defaultWeights_moved] at s1' s2' s3' s4'
  rw [usedRows_moved] at s1' s2'
  obtain ⟨u1, u2, u3, u4, u5⟩ := used_rows args.findOutliers args.start df df2 hOut
  have hax : ∀ g : Frame K, g.hasDate = true → axisOf (moved s g) = (axisOf g).map fun t => t + s := by
    intro g hg
    unfold axisOf moved
    simp only [hg, if_true, List.map_map]
    rfl
  have hxs : ∀ g : Frame K, (moved s g).rows.map Row.x = g.rows.map Row.x := by
    intro g
    unfold moved
    simp only [List.map_map]
    rfl
  have hsub : ((usedRows (defaultWeights df2).1).rows.map Row.x).Sublist (df.rows.map Row.x) := by
    have h1 : ((usedRows (defaultWeights df2).1).rows.map Row.x).Sublist ((defaultWeights df2).1.rows.map Row.x) :=
      List.Sublist.map _ List.filter_sublist
    rw [u4] at h1
    exact h1.trans (List.Sublist.map _ List.filter_sublist)
  have hst := (C30_status _ m _ _ _ f e2).2.2
  have hlong := hst.1.1 (.inl (hst.2.2.1 hfit))
  obtain ⟨l1, l2, hfv⟩ := similar_fitted _ _ (hx.minimum i) (hx'.minimum i') m _ _ s 1 0 one_ne_zero hsim _ _ _ _ f f' hm.unpinned (by rw [u1, hdate]) e2 e2'
    hfit hfit' _ reg (hx.registered i) (hx'.registered i') hlp hshift
  have hfol : ∀ x t, combination feats f'.params x t = combination feats f.params x t :=
    hlp.determined _ (telling_observed w args source df res h hdate t0 hdays feats hid df2 hOut) _ _ l2 l1 (by rw [u1, hdate]) (hsub.nodup hnd) hlong.1 hlong.2
      (by intro q hq; rw [hfv q hq, one_mul, add_zero])
  have hud : (defaultWeights df2).1.hasDate = true := u1.trans hdate
  rw [hax _ (by rw [u1, hdate]), listMin_moved, s1] at s1'
  rw [hxs, s2] at s2'
  cases s1'
  cases s2'
  have hstop : (listMax (axisOf (moved s (defaultWeights df2).1))).getD 0 = (listMax (axisOf (defaultWeights df2).1)).getD 0 + s := by
    rw [hax _ hud, listMax_moved]
    cases hl : listMax (axisOf (defaultWeights df2).1) with
    | some v => rfl
    | none =>
      exfalso
      have hn := (listMax_none _).1 hl
      have hmem := ((listMin_some _ _).1 s1).1
      unfold axisOf usedRows at hmem
      unfold axisOf at hn
      rw [hud, if_pos rfl] at hn
      rw [List.map_eq_nil_iff.1 hn] at hmem
      simp at hmem
  rw [hstop, hrf, a3, hs, extrapolate_moved k _ _ _ hfreq, ← hs, s3] at s3'
  have s3' := Except.ok.inj s3'
  subst s3'
  have hrows : selectRows (toFTable (moved s df).hasDate res'.data) = (selectRows (toFTable df.hasDate res.data)).map (moveF s) := by
    rw [s4, s4', List.map_append, List.map_map]
    congr 1
    · unfold moved
      simp only [List.map_map]
      apply List.map_congr_left
      intro q _
      simp only [Function.comp, sampleF, moveF, hud, if_true]
    · rw [List.map_map]
      apply List.map_congr_left
      intro p _
      simp only [Function.comp, moveF, hfol, hshift]
  obtain ⟨-, -, -, -, hpi⟩ := runSingle_inv w args source df res h
  obtain ⟨-, -, -, -, hpi'⟩ := runSingle_inv w' args' source _ res' h'
  rw [getPi_one_source _ _ _ source (run_sources w args source df res h).1] at hpi
  rw [getPi_one_source _ _ _ source (run_sources w' args' source _ res' h').1, hdraw, a4, a5, a6, a7,
    piSingle_moveF s _ (toFTable df.hasDate res.data) (toFTable (moved s df).hasDate res'.data) rfl rfl rfl hrows, hpi] at hpi'
  exact (Except.ok.inj hpi').symm

/-! ### A concrete case -/

/-- The scattered samples two weeks earlier: least squares gives the same line and the whole table moves along. -/
example : NotMonthly (runFreq scatterFrame) ∧ Periodic (lineFeatures (K := ℚ)) (-2 * (7 * (24 * 60 * 60 * 1000000000))) ∧
    ((scatterOf [55 / 31, 13 / 31] (moved (-2 * (7 * (24 * 60 * 60 * 1000000000))) scatterFrame)).map fun r => r.forecast) =
      (scatterOf [55 / 31, 13 / 31] scatterFrame).map fun r => r.forecast.map fun q => { q with date := q.date + -2 * (7 * (24 * 60 * 60 * 1000000000)) } := by
  refine ⟨by unfold NotMonthly; decide +kernel, ?_, by decide +kernel⟩
  intro φ hφ x t
  simp only [lineFeatures, List.mem_cons, List.not_mem_nil, or_false] at hφ
  rcases hφ with rfl | rfl <;> rfl

end Anticipy
