import Verif.Spec.NullRows
import Verif.Props.AutoNulls
import Verif.Props.UnitModels
import Verif.Props.Horizon

/-
C84: days without a value may be left out or given as rows without a value.
-/
namespace Anticipy
open Spec Filter
variable {K : Type}

/-! ### Models that do not look at weights -/

section
variable [Field K]

theorem ignores_compose (mult : Bool) (m1 m2 : ForecastModel K) (h1 : IgnoresWeights m1) (h2 : IgnoresWeights m2) : IgnoresWeights (compose mult m1 m2) := by
  unfold compose
  by_cases a : m1.name = "null"
  · rw [if_pos a]; exact h2
  rw [if_neg a]
  by_cases b : m2.name = "null"
  · rw [if_pos b]; exact h1
  rw [if_neg b]
  intro ctx act p md
  cases mult
  · change fAdd2 m1 m2 { ctx with actuals := some act } p md = fAdd2 m1 m2 { ctx with actuals := some (unweighted act) } p md
    unfold fAdd2
    simp only [h1 ctx act, h2 ctx act]
  · change fMult2 m1 m2 { ctx with actuals := some act } p md = fMult2 m1 m2 { ctx with actuals := some (unweighted act) } p md
    unfold fMult2
    simp only [h1 ctx act, h2 ctx act]

theorem ignores_null : IgnoresWeights (modelNull : ForecastModel K) := fun _ _ _ _ => rfl

theorem ignores_fixed [LinearOrder K] (label : List (Option K) → String) (m : ForecastModel K) (hm : IgnoresWeights m) (args : InitArgs K) (m' : ForecastModel K)
    (h : simplifyModel label m args = .ok m') : IgnoresWeights m' := by
  unfold simplifyModel at h
  simp only [Bind.bind, Except.bind] at h
  cases hb : m.fBounds args with
  | error e => rw [hb] at h; cases h
  | ok b =>
    rw [hb] at h
    dsimp only at h
    split_ifs at h
    · cases h; exact hm
    · unfold fixParams at h
      simp only [Bind.bind, Except.bind, pyAssert] at h
      split_ifs at h
      cases h
      exact fun _ _ _ _ => rfl

variable [LinearOrder K]

theorem ignores_naive (srt : SortAlg) : IgnoresWeights (modelNaive srt : ForecastModel K) := by
  intro ctx act p mult
  change fModelNaive srt _ p mult = fModelNaive srt _ p mult
  have e : ∀ qs, outerMerge (unweighted act).hasDate (dedupBy Row.x (unweighted act).rows) qs = outerMerge act.hasDate (dedupBy Row.x act.rows) qs := by
    intro qs
    unfold unweighted
    dsimp only
    rw [dedupBy_image (fun r : Row K => { r with weight := none }) Row.x Row.x (fun _ => rfl)]
    unfold outerMerge
    rw [List.flatMap_map]
    simp only [List.any_map]
    rfl
  unfold fModelNaive
  simp only [e]
  rfl

theorem ignores_snaive (srt : SortAlg) : IgnoresWeights (modelSnaiveWday srt : ForecastModel K) := by
  intro ctx act p mult
  change fModelSnaiveWday srt _ p mult = fModelSnaiveWday srt _ p mult
  have e : fillnaWday srt (dedupBy Row.x (unweighted act).rows) =
      (fillnaWday srt (dedupBy Row.x act.rows)).map fun q => ⟨{ q.row with weight := none }, q.yOut⟩ := by
    unfold unweighted
    dsimp only
    rw [dedupBy_image (fun r : Row K => { r with weight := none }) Row.x Row.x (fun _ => rfl)]
    unfold fillnaWday
    rw [← srt.natural wdayRowLe wdayRowLe (fun q : WdayRow K => ⟨{ q.row with weight := none }, q.yOut⟩) _ (fun _ _ _ _ => rfl), List.map_flatMap]
    congr 2
    funext w
    rw [List.filter_map]
    unfold addYOut
    rw [List.map_map, List.map_zipWith, List.zipWith_map_left]
    rfl
  have e2 : ∀ w, lastWeek ((fillnaWday srt (dedupBy Row.x act.rows)).map fun q => (⟨{ q.row with weight := none }, q.yOut⟩ : WdayRow K)) w =
      lastWeek (fillnaWday srt (dedupBy Row.x act.rows)) w := by
    intro w
    unfold lastWeek
    rw [List.filter_map, List.getLast?_map]
    have ef : ((fun r : WdayRow K => decide (weekday r.row.date = w)) ∘ fun q : WdayRow K => (⟨{ q.row with weight := none }, q.yOut⟩ : WdayRow K)) = fun q => decide (weekday q.row.date = w) := rfl
    rw [ef]
    cases ((fillnaWday srt (dedupBy Row.x act.rows)).filter fun q => decide (weekday q.row.date = w)).getLast? <;> rfl
  unfold fModelSnaiveWday
  simp only [e, e2, List.flatMap_map, List.any_map]
  rfl

end

/-! ### Fits and forecasts -/

section
variable [Field K] [LinearOrder K]

theorem ignores_eq (m : ForecastModel K) (hm : IgnoresWeights m) (ctx : Ctx K) (act act' : Frame K) (h : unweighted act' = unweighted act) (p : Params K) (mult : Bool) :
    m.fModel { ctx with actuals := some act' } p mult = m.fModel { ctx with actuals := some act } p mult := by
  rw [hm ctx act', hm ctx act, h]

theorem residuals_ignore (m : ForecastModel K) (hm : IgnoresWeights m) (ctx : Ctx K) (act act' : Frame K) (h : unweighted act' = unweighted act) (ay : List K)
    (aw : Option (List K)) (p : Params K) : getResiduals m { ctx with actuals := some act' } ay aw p = getResiduals m { ctx with actuals := some act } ay aw p := by
  unfold getResiduals
  rw [ignores_eq m hm ctx act act' h]

theorem fitModel_ignores (env : Env K) (m : ForecastModel K) (hm : IgnoresWeights m) (df df' act act' : Frame K) (useCache : Bool) (hp : prepare df' = prepare df)
    (hw : weightsMeta df' = weightsMeta df) (h : unweighted act' = unweighted act) :
    fitModel env m df' (some act') useCache = fitModel env m df (some act) useCache := by
  have key : ∀ m', IgnoresWeights m' → ∀ n inp ax w rng, attemptFit env n m' inp ax w rng (some act') useCache = attemptFit env n m' inp ax w rng (some act) useCache := by
    intro m' hm' n inp ax w rng
    unfold attemptFit optimizeLeastSquares
    have e1 := fun ay aw p => residuals_ignore m' hm' { ax := ax, adate := inp.dates, actuals := none } act act' h ay aw p
    have e2 := fun cache hc ay aw p => residuals_ignore m' hm' { ax := ax, adate := inp.dates, actuals := none, cache := cache, hasCache := hc } act act' h ay aw p
    dsimp only at e1 e2
    simp only [e1, e2]
  unfold fitModel
  rw [hp, hw]
  dsimp only
  cases rangeMeta m (prepare df) with
  | error e => rfl
  | ok rng =>
    simp only [Bind.bind, Except.bind]
    split_ifs
    · rfl
    · rfl
    · cases m.validateInput (scaleX m (prepare df).xs) (prepare df).ys (prepare df).dates with
      | error e => rfl
      | ok v =>
        dsimp only
        split_ifs
        · rfl
        · cases hs : simplifyModel env.label m ⟨some (scaleX m (prepare df).xs), some (prepare df).ys, (prepare df).dates⟩ with
          | error e => rfl
          | ok m' => exact key m' (ignores_fixed env.label m hm _ m' hs) _ _ _ _ _

theorem forecastRows_ignores (s s' : FitSetup K) (m : ForecastModel K) (f : FitResult K) (hm : IgnoresWeights m) (h0 : s'.source = s.source) (h1 : s'.freq = s.freq)
    (h2 : s'.stop = s.stop) (h3 : s'.years = s.years) (h4 : listMin (axisOf s'.used) = listMin (axisOf s.used))
    (h5 : listMin (s'.used.rows.map Row.x) = listMin (s.used.rows.map Row.x)) (h6 : s'.used.hasDate = s.used.hasDate)
    (h : unweighted s'.actuals = unweighted s.actuals) : forecastRows s' m f = forecastRows s m f := by
  unfold forecastRows
  rw [h0, h1, h2, h3, h4, h5, h6]
  have e : ∀ a b c d e f g, extrapolate m a b c d e f g s'.actuals = extrapolate m a b c d e f g s.actuals := by
    intro a b c d e f g
    rw [extrapolate_eq, extrapolate_eq]
    cases gridOf b c d e f g with
    | error e => rfl
    | ok sx =>
      simp only [Bind.bind, Except.bind]
      have := ignores_eq m hm { ax := scaleX m (sx.map Prod.snd), adate := if b then some (sx.map Prod.fst) else none, actuals := none } s.actuals s'.actuals h (some a) false
      dsimp only at this
      rw [this]
  simp only [e]

theorem fitLoop_ignores (env : Nat → Env K) (s s' : FitSetup K) (l : List (ForecastModel K)) (hl : ∀ m ∈ l, IgnoresWeights m) (i : Nat) (h0 : s'.source = s.source)
    (h1 : s'.freq = s.freq) (h2 : s'.stop = s.stop) (h3 : s'.years = s.years) (h4 : listMin (axisOf s'.used) = listMin (axisOf s.used))
    (h5 : listMin (s'.used.rows.map Row.x) = listMin (s.used.rows.map Row.x)) (h6 : s'.used.hasDate = s.used.hasDate)
    (h7 : s'.weights = s.weights) (h8 : s'.useCache = s.useCache) (h9 : s'.mode = s.mode) (h10 : s'.addModels = s.addModels)
    (hp : prepare s'.used = prepare s.used) (hw : weightsMeta s'.used = weightsMeta s.used)
    (h : unweighted s'.actuals = unweighted s.actuals) : fitLoop env s' i l = fitLoop env s i l := by
  induction l generalizing i with
  | nil => rfl
  | cons m l ih =>
    unfold fitLoop
    have hm := hl m (by simp)
    rw [h8, fitModel_ignores (env i) m hm s.used s'.used s.actuals s'.actuals s.useCache hp hw h, ih (fun m' hm' => hl m' (by simp [hm'])) (i + 1)]
    have e : ∀ f, metaRow s' m f = metaRow s m f := by
      intro f
      unfold metaRow
      rw [h0, h1, h7, h9, h10]
    simp only [e, fun f => forecastRows_ignores s s' m f hm h0 h1 h2 h3 h4 h5 h6 h]

end

/-! ### Spans and differences of dates -/

theorem listMin_of_part (l l' : List Int) (h1 : ∀ a ∈ l', a ∈ l) (h2 : ∀ a ∈ l, ∃ b ∈ l', b ≤ a) : listMin l' = listMin l := by
  cases e : listMin l with
  | none =>
    rw [listMin_none] at e
    subst e
    rw [listMin_none]
    exact List.eq_nil_iff_forall_not_mem.2 fun a ha => by cases h1 a ha
  | some m =>
    obtain ⟨hm, hle⟩ := (listMin_some _ _).1 e
    obtain ⟨b, hb, hbm⟩ := h2 m hm
    have := hle b (h1 b hb)
    obtain rfl : b = m := by omega
    exact (listMin_some _ _).2 ⟨hb, fun a ha => hle a (h1 a ha)⟩

theorem listMax_of_part (l l' : List Int) (h1 : ∀ a ∈ l', a ∈ l) (h2 : ∀ a ∈ l, ∃ b ∈ l', a ≤ b) : listMax l' = listMax l := by
  cases e : listMax l with
  | none =>
    rw [listMax_none] at e
    subst e
    rw [listMax_none]
    exact List.eq_nil_iff_forall_not_mem.2 fun a ha => by cases h1 a ha
  | some m =>
    obtain ⟨hm, hle⟩ := (listMax_some _ _).1 e
    obtain ⟨b, hb, hbm⟩ := h2 m hm
    have := hle b (h1 b hb)
    obtain rfl : b = m := by omega
    exact (listMax_some _ _).2 ⟨hb, fun a ha => hle a (h1 a ha)⟩

theorem map_of_keys {α β : Type} (key : α → Int) (f : α → β) (l l' : List α) (h : l'.map key = l.map key)
    (hf : ∀ a ∈ l, ∀ b ∈ l', key b = key a → f b = f a) : l'.map f = l.map f := by
  induction l generalizing l' with
  | nil =>
    cases l' with
    | nil => rfl
    | cons b l' => cases h
  | cons a l ih =>
    cases l' with
    | nil => cases h
    | cons b l' =>
      rw [List.map_cons, List.map_cons, List.cons.injEq] at h
      rw [List.map_cons, List.map_cons, hf a (by simp) b (by simp) h.1, ih l' h.2 fun a' ha' b' hb' => hf a' (by simp [ha']) b' (by simp [hb'])]

/-- The smallest distance of daily dates with two consecutive days. -/
theorem day_deltas (l : List Timestamp) (hg : ∀ a ∈ l, ∀ b ∈ l, (b - a) % DAY = 0) (a : Timestamp) (ha : a ∈ l) (hb : a + DAY ∈ l) :
    listMin (diffs (distinctDates l)) = some DAY := by
  obtain ⟨d, h1, h2, p, hp, q, hq, hlt, rfl⟩ := minGap l a (a + DAY) ha hb (by unfold DAY; omega)
  have := hg p hp q hq
  have e : q - p = DAY := by
    unfold DAY at *
    omega
  rw [← e]
  exact h1

/-- The dates that are looked at for the choice of models have the same span and the same smallest distance. -/
structure SameSpan (l l' : List Timestamp) : Prop where
  first : listMin (distinctDates l') = listMin (distinctDates l)
  last : listMax (distinctDates l') = listMax (distinctDates l)
  gap : listMin (diffs (distinctDates l')) = listMin (diffs (distinctDates l))

theorem composed_sameSpan [Field K] [LinearOrder K] (ch : Choices K) (args : ModelArgs K) (df df' : Frame K) (mult : Bool) (hd : df'.hasDate = df.hasDate)
    (h : SameSpan (weightedDates df) (weightedDates df')) : composedModels ch args df' mult = composedModels ch args df mult := by
  unfold composedModels useRamp useCalendar autoSeason dateDeltas
  rw [hd, h.first, h.last, h.gap]

theorem candidates_sameSpan [Field K] [LinearOrder K] (ch : Choices K) (args : ModelArgs K) (df df' : Frame K) (freq : Option Freq) (hd : df'.hasDate = df.hasDate)
    (h : SameSpan (weightedDates df) (weightedDates df')) (hm : args.mode ≠ .auto) : candidates ch args df' freq = candidates ch args df freq := by
  unfold candidates
  rw [composed_sameSpan ch args df df' false hd h, composed_sameSpan ch args df df' true hd h]
  have e : resolveMode ch args df' = resolveMode ch args df := by
    unfold resolveMode
    cases hmode : args.mode with
    | auto => exact absurd hmode hm
    | add => rfl
    | mult => rfl
    | both => rfl
  rw [e]

theorem candidates_sameSpan' [Field K] [LinearOrder K] (ch : Choices K) (args : ModelArgs K) (df df' : Frame K) (freq : Option Freq) (hd : df'.hasDate = df.hasDate)
    (h : SameSpan (weightedDates df) (weightedDates df')) (hm : resolveMode ch args df' = resolveMode ch args df) :
    candidates ch args df' freq = candidates ch args df freq := by
  unfold candidates
  rw [composed_sameSpan ch args df df' false hd h, composed_sameSpan ch args df df' true hd h, hm]

/-! ### The observations that the naive models see -/

section
variable [Field K] [LinearOrder K]

theorem interpolated_within {df : Frame K} {t0 : Timestamp} (h : DailySeries df t0) (out : Frame K) (ho : interpolateDf df = .ok out) (r : Row K) (hr : r ∈ out.rows) :
    ∃ a ∈ df.rows, ∃ b ∈ df.rows, a.date ≤ r.date ∧ r.date ≤ b.date := by
  rcases C25_fill civilOfDay civilOfDay_isCalendar weekdayOfDay weekdayOfDay_isWeek df out h.dated ho (by
    intro r hr r' hr'
    have h1 := h.days r hr
    have h2 := h.days r' hr'
    simp only [dayNs]
    omega) with rfl | ⟨a, ha, b, hb, -, -, -, -, hg, -⟩
  · exact ⟨r, hr, r, hr, le_refl _, le_refl _⟩
  · obtain ⟨h1, h2, -⟩ := (hg r.date).1 (List.mem_map.2 ⟨r, hr, rfl⟩)
    exact ⟨a, ha, b, hb, h1, h2⟩

theorem actuals_span (srt : SortAlg) {df : Frame K} {t0 : Timestamp} (h : DailySeries df t0) (used act : Frame K) (hu : UsedPart df used.rows)
    (ha : actualsInterpolated srt df used = .ok act) : (∀ a ∈ act.rows, ∃ p ∈ df.rows, ∃ q ∈ df.rows, p.x ≤ a.x ∧ a.x ≤ q.x) ∧ ∀ r ∈ df.rows, ∃ a ∈ act.rows, a.x = r.x := by
  obtain ⟨out, h0, h1, h2, h3, h4, h5, h6⟩ := daily_interpolated h
  unfold actualsInterpolated at ha
  rw [h0] at ha
  cases ha
  have hperm := srt.perm (fun a b : Row K => decide (a.x ≤ b.x)) out.rows
  have hone : ∀ o, ∃ w y, mergeWeight used.rows o = [{ o with weight := w, y := y }] := by
    intro o
    rcases mergeWeight_single used.rows hu.nodup o with ⟨n, e⟩ | ⟨u, hu1, hu2, e⟩
    · exact ⟨_, _, e⟩
    · exact ⟨_, _, e⟩
  constructor
  · intro a ha
    obtain ⟨o, ho, hao⟩ := List.mem_flatMap.1 ha
    obtain ⟨w, y, e⟩ := hone o
    rw [e, List.mem_singleton] at hao
    subst hao
    rw [hperm.mem_iff] at ho
    obtain ⟨p, hp, q, hq, e1, e2⟩ := interpolated_within h out h0 o ho
    refine ⟨p, hp, q, hq, ?_⟩
    have k1 := h.days p hp
    have k2 := h.days q hq
    have k3 := h2 o ho
    dsimp only
    omega
  · intro r hr
    obtain ⟨w, y, e⟩ := hone r
    exact ⟨{ r with weight := w, y := y }, List.mem_flatMap.2 ⟨r, hperm.mem_iff.2 (h4 r hr), by rw [e]; exact List.mem_singleton.2 rfl⟩, rfl⟩

theorem dailyActuals_y {t0 : Timestamp} {used : List (Row K)} {act : Frame K} (h : DailyActuals t0 used act) (a : Row K) (ha : a ∈ act.rows) (v : K) :
    a.y = some v ↔ ∃ u ∈ used, u.x = a.x ∧ u.y = some v := by
  constructor
  · exact h.values a ha v
  · rintro ⟨u, hu, e1, e2⟩
    obtain ⟨b, hb, e3, e4⟩ := h.all u hu
    have hn : (act.rows.map Row.x).Nodup := (List.pairwise_map.2 h.sorted).imp fun h => ne_of_lt h
    rw [List.inj_on_of_nodup_map hn ha hb (by omega), e4, e2]

/-- The same observations up to weights. -/
theorem actuals_eq (srt : SortAlg) {df df' : Frame K} {t0 : Timestamp} (h : DailySeries df t0) (h' : DailySeries df' t0) (used used' act act' : Frame K)
    (hu : UsedPart df used.rows) (hu' : UsedPart df' used'.rows) (ha : actualsInterpolated srt df used = .ok act) (ha' : actualsInterpolated srt df' used' = .ok act')
    (hpart : ∀ r ∈ df'.rows, r ∈ df.rows) (hends : ∀ r ∈ df.rows, ∃ a ∈ df'.rows, ∃ b ∈ df'.rows, a.date ≤ r.date ∧ r.date ≤ b.date)
    (hobs : ∀ x v, (∃ u ∈ used'.rows, u.x = x ∧ u.y = some v) ↔ ∃ u ∈ used.rows, u.x = x ∧ u.y = some v) : unweighted act' = unweighted act := by
  obtain ⟨_, e1, d1⟩ := daily_actuals srt h used hu
  obtain ⟨_, e2, d2⟩ := daily_actuals srt h' used' hu'
  rw [ha] at e1
  rw [ha'] at e2
  cases e1
  cases e2
  obtain ⟨s1, s2⟩ := actuals_span srt h used act hu ha
  obtain ⟨s3, s4⟩ := actuals_span srt h' used' act' hu' ha'
  have hx : act'.rows.map Row.x = act.rows.map Row.x := by
    refine sorted_ext (List.pairwise_map.2 d2.sorted) (List.pairwise_map.2 d1.sorted) ?_
    intro x
    constructor
    · intro hx
      obtain ⟨a, ha, rfl⟩ := List.mem_map.1 hx
      obtain ⟨p, hp, q, hq, k1, k2⟩ := s3 a ha
      obtain ⟨p', hp', k3⟩ := s2 p (hpart p hp)
      obtain ⟨q', hq', k4⟩ := s2 q (hpart q hq)
      obtain ⟨r, hr, e⟩ := d1.contiguous p' hp' q' hq' a.x (by omega) (by omega)
      exact List.mem_map.2 ⟨r, hr, e⟩
    · intro hx
      obtain ⟨a, ha, rfl⟩ := List.mem_map.1 hx
      obtain ⟨p, hp, q, hq, k1, k2⟩ := s1 a ha
      obtain ⟨p1, hp1, -, -, k3, -⟩ := hends p hp
      obtain ⟨-, -, q1, hq1, -, k4⟩ := hends q hq
      have n1 := h.days p hp
      have n2 := h.days q hq
      have n3 := h'.days p1 hp1
      have n4 := h'.days q1 hq1
      obtain ⟨p', hp', k5⟩ := s4 p1 hp1
      obtain ⟨q', hq', k6⟩ := s4 q1 hq1
      obtain ⟨r, hr, e⟩ := d2.contiguous p' hp' q' hq' a.x (by omega) (by omega)
      exact List.mem_map.2 ⟨r, hr, e⟩
  have hrows : act'.rows.map (fun r => { r with weight := none }) = act.rows.map fun r => { r with weight := none } := by
    refine map_of_keys Row.x _ _ _ hx ?_
    intro a ha b hb e
    have k1 := d1.days a ha
    have k2 := d2.days b hb
    have k3 : b.date = a.date := by rw [k1, k2, e]
    have k4 : b.y = a.y := by
      apply Option.ext
      intro v
      rw [dailyActuals_y d2 b hb v, dailyActuals_y d1 a ha v, e]
      exact hobs _ _
    rw [k3, k4, e]
  unfold unweighted
  rw [hrows, d1.dated, d2.dated]

end

/-! ### C84 -/

section
variable [Field K] [LinearOrder K] [FloorRing K] [IsStrictOrderedRing K]

omit [FloorRing K] [IsStrictOrderedRing K] in
theorem filterStart_kept (start : Option Timestamp) (df : Frame K) : filterStart start df = { df with rows := kept start df } := by
  unfold filterStart kept
  cases start with
  | none => simp
  | some d =>
    dsimp only
    split_ifs with h
    · rw [h]; simp
    · cases df; simp_all

omit [FloorRing K] in
theorem unweighted_used (df : Frame K) (rows : List (Row K)) (hw : df.hasWeight = false) :
    defaultWeights { df with rows := rows } = (⟨df.hasDate, true, rows.map fun r => { r with weight := some 1 }⟩, .one) ∧
    usedRows (⟨df.hasDate, true, rows.map fun r => { r with weight := some 1 }⟩ : Frame K) = ⟨df.hasDate, true, rows.map fun r => { r with weight := some 1 }⟩ := by
  constructor
  · unfold defaultWeights
    dsimp only
    rw [hw]
    rfl
  · unfold usedRows
    dsimp only
    rw [List.filter_eq_self.2]
    intro r hr
    obtain ⟨q, -, rfl⟩ := List.mem_map.1 hr
    simp

/-- **C84** Days without a value may be left out or given as rows without a value: fits, predictions and observations are the same. -/
theorem C84_null_rows_partial (w : World K) (args : RunArgs K) (source : String) (df df' : Frame K) (t0 : Timestamp) (h : DailySeries df t0) (h' : DailySeries df' t0)
    (hno : df.hasWeight = false) (hno' : df'.hasWeight = false) (hl : LeavesOutNulls args.start df df')
    (hpair : ∃ r ∈ kept args.start df', ∃ r' ∈ kept args.start df', r'.x = r.x + 1)
    (hout : args.findOutliers = false) (hmode : args.models.mode ≠ .auto ∨ ChoiceIgnoresNulls w.ch.corr)
    (hcand : ∀ dg fr cand, candidates w.ch args.models dg fr = .ok cand → ∀ m ∈ cand.2, IgnoresWeights m)
    (res res' : RunResult K) (hr : runSingle w args source df = .ok res) (hr' : runSingle w args source df' = .ok res') : SameUpToNulls res res' := by
  obtain ⟨d, hd, hdata, hmeta, -⟩ := runSingle_inv w args source df res hr
  obtain ⟨d', hd', hdata', hmeta', -⟩ := runSingle_inv w _ source df' res' hr'
  obtain ⟨df2, range, cand, actuals, fits, hOut, hRange, hCand, hAct, hFits, hNe, rfl⟩ := runFits_stages w args source df d hd
  obtain ⟨df2', range', cand', actuals', fits', hOut', hRange', hCand', hAct', hFits', hNe', rfl⟩ := runFits_stages w _ source df' d' hd'
  have hu := used_part h _ _ _ hOut
  have hu' := used_part h' _ _ _ hOut'
  rw [hout] at hOut hOut'
  cases hOut
  cases hOut'
  obtain ⟨e1, e2⟩ := unweighted_used df (kept args.start df) hno
  obtain ⟨e1', e2'⟩ := unweighted_used df' (kept args.start df') hno'
  have hkd : ∀ r ∈ kept args.start df, r.date = t0 + r.x * (24 * 60 * 60 * 1000000000) := fun r hr => h.days r (List.mem_filter.1 hr).1
  have hkd' : ∀ r ∈ kept args.start df', r.date = t0 + r.x * (24 * 60 * 60 * 1000000000) := fun r hr => h'.days r (List.mem_filter.1 hr).1
  have hsub : ∀ r ∈ kept args.start df', r ∈ kept args.start df := by
    intro r hr
    unfold kept at hr ⊢
    rw [h'.dated] at hr
    rw [h.dated]
    obtain ⟨a, b⟩ := List.mem_filter.1 hr
    exact List.mem_filter.2 ⟨hl.part r a, b⟩
  have hobs : (kept args.start df').filter (fun r => r.y.isSome) = (kept args.start df).filter fun r => r.y.isSome := by
    unfold kept
    rw [h'.dated, h.dated, List.filter_filter, List.filter_filter]
    have gen : ∀ p : Row K → Bool, df'.rows.filter (fun r => r.y.isSome && p r) = df.rows.filter fun r => r.y.isSome && p r := by
      intro p
      have := congrArg (List.filter p) hl.observed
      rw [List.filter_filter, List.filter_filter] at this
      simpa only [Bool.and_comm] using this
    exact gen _
  rw [filterStart_kept, e1] at hRange hCand hAct hFits hu
  rw [filterStart_kept, e1'] at hRange' hCand' hAct' hFits' hu'
  simp only [filterStart_kept, e1, e1'] at hdata hdata' hmeta hmeta'
  generalize hk : kept args.start df = k at *
  generalize hk' : kept args.start df' = k' at *
  rw [h.dated] at hRange hCand hAct hFits hu hdata e2
  rw [h'.dated] at hRange' hCand' hAct' hFits' hu' hdata' e2'
  dsimp only at hRange hCand hAct hFits hu hRange' hCand' hAct' hFits' hu'
  rw [e2] at hAct hu
  rw [e2'] at hAct' hu'
  have hends := hl.keptEnds
  rw [hk, hk'] at hends
  -- spans
  have hdates : ∀ l : List (Row K), (l.map fun r => ({ r with weight := some 1 } : Row K)).map Row.date = l.map Row.date := fun l => by rw [List.map_map]; rfl
  have hxs : ∀ l : List (Row K), (l.map fun r => ({ r with weight := some 1 } : Row K)).map Row.x = l.map Row.x := fun l => by rw [List.map_map]; rfl
  have hax : ∀ l : List (Row K), axisOf (⟨true, true, l.map fun r => { r with weight := some 1 }⟩ : Frame K) = l.map Row.date := fun l => hdates l
  have hwd : ∀ (l : List (Row K)), weightedDates (⟨true, true, l.map fun r => { r with weight := some 1 }⟩ : Frame K) = l.map Row.date := by
    intro l
    unfold weightedDates
    rw [if_pos rfl, List.filter_eq_self.2, hdates]
    intro r hr
    obtain ⟨q, -, rfl⟩ := List.mem_map.1 hr
    simp
  have hdp : ∀ t ∈ k'.map Row.date, t ∈ k.map Row.date := by
    intro t ht
    obtain ⟨r, hr, rfl⟩ := List.mem_map.1 ht
    exact List.mem_map.2 ⟨r, hsub r hr, rfl⟩
  have hdlo : ∀ t ∈ k.map Row.date, ∃ b ∈ k'.map Row.date, b ≤ t := by
    intro t ht
    obtain ⟨r, hr, rfl⟩ := List.mem_map.1 ht
    obtain ⟨a, ha, -, -, h1, -⟩ := hends r hr
    exact ⟨_, List.mem_map.2 ⟨a, ha, rfl⟩, h1⟩
  have hdhi : ∀ t ∈ k.map Row.date, ∃ b ∈ k'.map Row.date, t ≤ b := by
    intro t ht
    obtain ⟨r, hr, rfl⟩ := List.mem_map.1 ht
    obtain ⟨-, -, b, hb, -, h1⟩ := hends r hr
    exact ⟨_, List.mem_map.2 ⟨b, hb, rfl⟩, h1⟩
  have hmin := listMin_of_part _ _ hdp hdlo
  have hmax := listMax_of_part _ _ hdp hdhi
  have hminx : listMin (k'.map Row.x) = listMin (k.map Row.x) := by
    refine listMin_of_part _ _ ?_ ?_
    · intro t ht
      obtain ⟨r, hr, rfl⟩ := List.mem_map.1 ht
      exact List.mem_map.2 ⟨r, hsub r hr, rfl⟩
    · intro t ht
      obtain ⟨r, hr, rfl⟩ := List.mem_map.1 ht
      obtain ⟨a, ha, -, -, h1, -⟩ := hends r hr
      refine ⟨_, List.mem_map.2 ⟨a, ha, rfl⟩, ?_⟩
      have := hkd r hr
      have := hkd' a ha
      omega
  have hgap : ∀ l : List (Row K), (∀ r ∈ l, r.date = t0 + r.x * (24 * 60 * 60 * 1000000000)) → (∃ r ∈ l, ∃ r' ∈ l, r'.x = r.x + 1) →
      listMin (diffs (distinctDates (l.map Row.date))) = some DAY := by
    rintro l hl ⟨r, hr, r', hr', e⟩
    have h1 := hl r hr
    have h2 := hl r' hr'
    refine day_deltas _ ?_ r.date (List.mem_map.2 ⟨r, hr, rfl⟩) (List.mem_map.2 ⟨r', hr', ?_⟩)
    · intro a ha b hb
      obtain ⟨p, hp, rfl⟩ := List.mem_map.1 ha
      obtain ⟨q, hq, rfl⟩ := List.mem_map.1 hb
      have h1 := hl p hp
      have h2 := hl q hq
      unfold DAY
      omega
    · unfold DAY
      omega
  have hspan : SameSpan (k.map Row.date) (k'.map Row.date) := by
    refine ⟨?_, ?_, ?_⟩
    · exact listMin_of_part _ _ (fun t ht => (mem_distinctDates _ t).2 (hdp t ((mem_distinctDates _ t).1 ht))) fun t ht => by
        obtain ⟨b, hb, h1⟩ := hdlo t ((mem_distinctDates _ t).1 ht)
        exact ⟨b, (mem_distinctDates _ b).2 hb, h1⟩
    · exact listMax_of_part _ _ (fun t ht => (mem_distinctDates _ t).2 (hdp t ((mem_distinctDates _ t).1 ht))) fun t ht => by
        obtain ⟨b, hb, h1⟩ := hdhi t ((mem_distinctDates _ t).1 ht)
        exact ⟨b, (mem_distinctDates _ b).2 hb, h1⟩
    · obtain ⟨r, hr, r', hr', e⟩ := hpair
      rw [hgap k' hkd' ⟨r, hr, r', hr', e⟩, hgap k hkd ⟨r, hsub r hr, r', hsub r' hr', e⟩]
  -- frequency, range and candidates
  have hfreq : runFreq df' = runFreq df := by
    unfold runFreq
    rw [h.dated, h'.dated, daily_freq h, daily_freq h']
  have hrange : range' = range := by
    unfold runRange at hRange hRange'
    rw [hax] at hRange hRange'
    rw [hmin, hmax, hRange] at hRange'
    cases hRange'
    rfl
  subst hrange
  have hcc : cand' = cand := by
    have hmode' : resolveMode w.ch args.models (⟨true, true, k'.map fun r => { r with weight := some 1 }⟩ : Frame K) =
        resolveMode w.ch args.models (⟨true, true, k.map fun r => { r with weight := some 1 }⟩ : Frame K) := by
      rcases hmode with hmode | hmode
      · unfold resolveMode
        cases hm : args.models.mode with
        | auto => exact absurd hm hmode
        | add => rfl
        | mult => rfl
        | both => rfl
      · unfold resolveMode
        cases hm : args.models.mode with
        | add => rfl
        | mult => rfl
        | both => rfl
        | auto =>
          have hget : ∃ ans, isMultiplicative w.ch.corr (⟨true, true, k.map fun r => { r with weight := some 1 }⟩ : Frame K) = .ok ans := by
            unfold candidates resolveMode at hCand
            rw [hm] at hCand
            cases ha : isMultiplicative w.ch.corr (⟨true, true, k.map fun r => { r with weight := some 1 }⟩ : Frame K) with
            | ok ans => exact ⟨ans, rfl⟩
            | error e => rw [ha] at hCand; cases hCand
          obtain ⟨ans, ha⟩ := hget
          have hmapf : ∀ l : List (Row K), (l.map fun r => ({ r with weight := some 1 } : Row K)).filter (fun r => r.y.isSome) =
              (l.filter fun r => r.y.isSome).map fun r => ({ r with weight := some 1 } : Row K) := fun l => by rw [List.filter_map]; rfl
          have := hmode (⟨true, true, k.map fun r => { r with weight := some 1 }⟩ : Frame K) (⟨true, true, k'.map fun r => { r with weight := some 1 }⟩ : Frame K) rfl rfl
            (by dsimp only; rw [hmapf, hmapf, hobs]) (by
              intro r hr
              obtain ⟨q, hq, rfl⟩ := List.mem_map.1 hr
              obtain ⟨a, ha, b, hb, e1, e2⟩ := hends q hq
              exact ⟨_, List.mem_map_of_mem ha, _, List.mem_map_of_mem hb, e1, e2⟩) (by
              intro r hr
              obtain ⟨q, hq, rfl⟩ := List.mem_map.1 hr
              exact ⟨_, List.mem_map_of_mem (hsub q hq), _, List.mem_map_of_mem (hsub q hq), le_refl _, le_refl _⟩) ans ha
          rw [ha, this]
    rw [hfreq, candidates_sameSpan' w.ch args.models (⟨true, true, k.map fun r => { r with weight := some 1 }⟩ : Frame K) (⟨true, true, k'.map fun r => { r with weight := some 1 }⟩ : Frame K) (runFreq df) rfl (by rw [hwd, hwd]; exact hspan) hmode', hCand] at hCand'
    cases hCand'
    rfl
  subst hcc
  -- observations
  have hprep : ∀ l : List (Row K), (l.map fun r => ({ r with weight := some 1 } : Row K)).filter hasY =
      (l.filter fun r => r.y.isSome).map fun r => { r with weight := some 1 } := fun l => by
    rw [List.filter_map]; rfl
  have hact : unweighted actuals' = unweighted actuals := by
    refine actuals_eq w.srt h h' _ _ _ _ hu hu' hAct hAct' hl.part hl.ends ?_
    intro x v
    have key : ∀ l : List (Row K), (∃ u ∈ (l.map fun r => ({ r with weight := some 1 } : Row K)), u.x = x ∧ u.y = some v) ↔
        ∃ u ∈ l.filter fun r => r.y.isSome, u.x = x ∧ u.y = some v := by
      intro l
      constructor
      · rintro ⟨u, hu, e1, e2⟩
        obtain ⟨q, hq, rfl⟩ := List.mem_map.1 hu
        dsimp only at e1 e2
        exact ⟨q, List.mem_filter.2 ⟨hq, by rw [e2]; rfl⟩, e1, e2⟩
      · rintro ⟨u, hu, e1, e2⟩
        exact ⟨_, List.mem_map.2 ⟨u, (List.mem_filter.1 hu).1, rfl⟩, e1, e2⟩
    rw [key, key, hobs]
  -- fits
  have hfits : fits' = fits := by
    rw [fitLoop_ignores (w.env source) (mkSetup w args source df ⟨true, true, k.map fun r => { r with weight := some 1 }⟩ .one cand'.1 actuals)
      (mkSetup w args source df' ⟨true, true, k'.map fun r => { r with weight := some 1 }⟩ .one cand'.1 actuals') cand'.2 (hcand _ _ _ hCand) 0 rfl hfreq ?_ rfl ?_ ?_ ?_ rfl
        rfl rfl ?_ ?_ ?_ hact, hFits] at hFits'
    · cases hFits'
      rfl
    · simp only [mkSetup]
      rw [hax, hax, hmax]
    · simp only [mkSetup]
      rw [e2, e2', hax, hax, hmin]
    · simp only [mkSetup]
      rw [e2, e2']
      dsimp only
      rw [hxs, hxs, hminx]
    · rfl
    · simp only [mkSetup]
      exact composed_sameSpan w.ch args.models _ _ false rfl (by rw [hwd, hwd]; exact hspan)
    · simp only [mkSetup]
      rw [e2, e2']
      unfold prepare
      simp only [hprep, hobs]
    · simp only [mkSetup]
      rw [e2, e2']
      unfold weightsMeta
      simp only [hprep, hobs]
  subst hfits
  rw [hfreq] at hdata'
  have hA : ∀ (l : List (Row K)) (long : SourceLong K), ∀ q ∈ actualsClean ⟨true, true, l.map fun r => { r with weight := some 1 }⟩ source long, q.isActuals = true := by
    intro l long q hq
    unfold actualsClean at hq
    obtain ⟨r, -, rfl⟩ := List.mem_map.1 hq
    rfl
  have hF : ∀ q ∈ fits'.2, q.isActuals = false := by
    intro q hq
    obtain ⟨i, m, f, rows, -, -, hrows, hq⟩ := (fitLoop_spec _ _ _ _ _ hFits).2.2 q hq
    exact (forecastRows_mem _ m f rows hrows q hq).1
  generalize hlong : (⟨.one, runFreq df, range'⟩ : SourceLong K) = long at hdata hdata'
  generalize bestKey w.srt fits'.1 = key at *
  have hpred : ∀ (l : List (Row K)) (M : List (MRow K)),
      (selectFits args.includeAll ((actualsClean ⟨true, true, l.map fun r => { r with weight := some 1 }⟩ source long ++ fits'.2).map (flagData key), M)).1.filter (fun r => !r.isActuals) =
      (selectFits args.includeAll (fits'.2.map (flagData key), M)).1 := by
    intro l M
    have e : ((actualsClean ⟨true, true, l.map fun r => { r with weight := some 1 }⟩ source long ++ fits'.2).map (flagData key)).filter (fun r => !r.isActuals) =
        fits'.2.map (flagData key) := by
      rw [List.map_append, List.filter_append, List.filter_eq_nil_iff.2, List.filter_eq_self.2, List.nil_append]
      · intro q hq
        obtain ⟨q0, hq0, rfl⟩ := List.mem_map.1 hq
        simp [flagData, hF q0 hq0]
      · intro q hq
        obtain ⟨q0, hq0, rfl⟩ := List.mem_map.1 hq
        simp [flagData, hA l long q0 hq0]
    unfold selectFits
    split_ifs
    · exact e
    · dsimp only
      rw [← e, List.filter_filter, List.filter_filter]
      congr 1
      funext r
      rw [Bool.and_comm]
  have hobsd : ∀ (l : List (Row K)) (M : List (MRow K)),
      (selectFits args.includeAll ((actualsClean ⟨true, true, l.map fun r => { r with weight := some 1 }⟩ source long ++ fits'.2).map (flagData key), M)).1.filter
        (fun r => r.isActuals && r.y.isSome) =
      (actualsClean ⟨true, true, (l.filter fun r => r.y.isSome).map fun r => { r with weight := some 1 }⟩ source long).map (flagData key) := by
    intro l M
    have e : ((actualsClean ⟨true, true, l.map fun r => { r with weight := some 1 }⟩ source long ++ fits'.2).map (flagData key)).filter (fun r => r.isActuals && r.y.isSome) =
        (actualsClean ⟨true, true, (l.filter fun r => r.y.isSome).map fun r => { r with weight := some 1 }⟩ source long).map (flagData key) := by
      have enil : (fits'.2.map (flagData key)).filter (fun r => r.isActuals && r.y.isSome) = [] := by
        refine List.filter_eq_nil_iff.2 fun q hq => ?_
        obtain ⟨q0, hq0, rfl⟩ := List.mem_map.1 hq
        simp [flagData, hF q0 hq0]
      rw [List.map_append, List.filter_append, enil, List.append_nil, List.filter_map]
      congr 1
      unfold actualsClean
      dsimp only
      rw [List.map_map, List.map_map, List.filter_map]
      congr 1
    unfold selectFits
    split_ifs
    · exact e
    · dsimp only
      rw [← e, List.filter_filter]
      congr 1
      funext r
      cases r.isActuals <;> simp
  refine ⟨?_, ?_, ?_⟩
  · rw [hmeta, hmeta']
    unfold selectFits
    split_ifs <;> rfl
  · rw [hdata, hdata', hpred, hpred]
  · rw [hdata, hdata', hobsd, hobsd, hobs]

omit [Field K] [LinearOrder K] [FloorRing K] [IsStrictOrderedRing K] in
theorem mem_kept (start : Option Timestamp) (df : Frame K) (hd : df.hasDate = true) (r : Row K) : r ∈ kept start df ↔ r ∈ df.rows ∧ NotBefore start r.date := by
  unfold kept NotBefore
  rw [List.mem_filter, hd]
  cases start with
  | none => simp
  | some d => simp

/-- **C84** for a whole run on a daily table. -/
theorem C84_table_partial (w : World K) (args : RunArgs K) (id : String) (t t' : STable K) (ht : DailyTable t) (ht' : DailyTable t')
    (hno : t.hasWeight = false) (hno' : t'.hasWeight = false) (hl : TableLeavesOutNulls args.start t t')
    (hout : args.findOutliers = false) (hmode : args.models.mode ≠ .auto ∨ ChoiceIgnoresNulls w.ch.corr)
    (hcand : ∀ dg fr cand, candidates w.ch args.models dg fr = .ok cand → ∀ m ∈ cand.2, IgnoresWeights m)
    (res res' : RunResult K) (hr : runForecast w args id t = .ok (some res)) (hr' : runForecast w args id t' = .ok (some res')) : SameUpToNulls res res' := by
  obtain ⟨df, hdaily, hrun, hwt, hperm⟩ := daily_table_base w id t ht
  obtain ⟨df', hdaily', hrun', hwt', hperm'⟩ := daily_table_base w id t' ht'
  have hbase : baseOf t'.rows = baseOf t.rows := by
    have := hl.first
    unfold baseOf
    cases h1 : t.rows with
    | nil =>
      cases h2 : t'.rows with
      | nil => rfl
      | cons b l' => rw [h1, h2] at this; cases this
    | cons a l =>
      cases h2 : t'.rows with
      | nil => rw [h1, h2] at this; cases this
      | cons b l' => rw [h1, h2] at this; cases this; rfl
  rw [hbase] at hdaily'
  rw [hrun] at hr
  rw [hrun'] at hr'
  have key : ∀ (d : Frame K) (r : RunResult K), (runSingle w args id d).map some = .ok (some r) → runSingle w args id d = .ok r := by
    intro d r hr
    cases hs : runSingle w args id d with
    | error e => rw [hs] at hr; cases hr
    | ok q => rw [hs] at hr; cases hr; rfl
  -- rows of the series and rows of the table
  have hin : ∀ (d : Frame K) (t : STable K), (d.rows.map fun r => (r.date, r.y, r.weight)).Perm (t.rows.map fun r => (r.date, r.y, r.weight)) →
      (∀ r ∈ d.rows, ∃ q ∈ t.rows, q.date = r.date ∧ q.y = r.y ∧ q.weight = r.weight) ∧ ∀ q ∈ t.rows, ∃ r ∈ d.rows, r.date = q.date ∧ r.y = q.y ∧ r.weight = q.weight := by
    intro d t hp
    constructor
    · intro r hr
      obtain ⟨q, hq, e⟩ := List.mem_map.1 (hp.mem_iff.1 (List.mem_map.2 ⟨r, hr, rfl⟩))
      injection e with e1 e2
      injection e2 with e2 e3
      exact ⟨q, hq, e1, e2, e3⟩
    · intro q hq
      obtain ⟨r, hr, e⟩ := List.mem_map.1 (hp.mem_iff.2 (List.mem_map.2 ⟨q, hq, rfl⟩))
      injection e with e1 e2
      injection e2 with e2 e3
      exact ⟨r, hr, e1, e2, e3⟩
  obtain ⟨i1, i2⟩ := hin df t hperm
  obtain ⟨i3, i4⟩ := hin df' t' hperm'
  have hpart : ∀ r ∈ df'.rows, r ∈ df.rows := by
    intro r hr
    obtain ⟨q, hq, e1, e2, e3⟩ := i3 r hr
    obtain ⟨r', hr', e4, e5, e6⟩ := i2 q (hl.part q hq)
    have h1 := hdaily'.days r hr
    have h2 := hdaily.days r' hr'
    have hx : r'.x = r.x := by omega
    have : r' = r := by
      cases r
      cases r'
      simp only at e1 e2 e3 e4 e5 e6 hx
      subst hx
      rw [e4, e1, e5, e2, e6, e3]
    rw [← this]
    exact hr'
  have hobs : df'.rows.filter (fun r => r.y.isSome) = df.rows.filter fun r => r.y.isSome := by
    have hmk : ∀ (d : Frame K), CountsDays d (baseOf t.rows) → (d.rows.filter fun r => r.y.isSome) =
        ((d.rows.map fun r => (r.date, r.y, r.weight)).filter fun p => p.2.1.isSome).map fun p => ⟨p.1, (p.1 - baseOf t.rows) / (24 * 60 * 60 * 1000000000), p.2.1, p.2.2⟩ := by
      intro d hd
      rw [List.filter_map, List.map_map]
      conv_lhs => rw [← List.map_id (d.rows.filter fun r => r.y.isSome)]
      apply List.map_congr_left
      intro r hr
      have h1 := hd r (List.mem_filter.1 hr).1
      cases r
      simp only [id_eq, Function.comp_apply, Row.mk.injEq, true_and, and_true] at h1 ⊢
      omega
    have hp : (df'.rows.filter fun r => r.y.isSome).Perm (df.rows.filter fun r => r.y.isSome) := by
      rw [hmk df hdaily.days, hmk df' hdaily'.days]
      refine List.Perm.map _ ?_
      refine (hperm'.filter _).trans (List.Perm.trans ?_ (hperm.filter _).symm)
      rw [List.filter_map, List.filter_map]
      have := congrArg (List.map fun r : SRow K => (r.date, r.y, r.weight)) hl.observed
      exact List.Perm.of_eq this
    exact hp.eq_of_pairwise (le := fun a b => a.x < b.x) (fun a b _ _ h1 h2 => absurd (lt_trans h1 h2) (lt_irrefl _)) (hdaily'.sorted.filter _) (hdaily.sorted.filter _)
  refine C84_null_rows_partial w args id df df' _ hdaily hdaily' (hwt.trans hno) (hwt'.trans hno') ⟨hpart, hobs, ?_, ?_⟩ ?_ hout hmode hcand res res' (key _ _ hr) (key _ _ hr')
  · intro r hr
    obtain ⟨q, hq, e1, -⟩ := i1 r hr
    obtain ⟨a, ha, b, hb, h1, h2⟩ := hl.ends q hq
    obtain ⟨a', ha', e2, -⟩ := i4 a ha
    obtain ⟨b', hb', e3, -⟩ := i4 b hb
    exact ⟨a', ha', b', hb', by omega, by omega⟩
  · intro r hr
    rw [mem_kept _ _ hdaily.dated] at hr
    obtain ⟨q, hq, e1, -⟩ := i1 r hr.1
    obtain ⟨-, -, b, hb, -, h2⟩ := hl.ends q hq
    obtain ⟨a, ha, h0, h1⟩ := hl.keptEnds q hq (by rw [e1]; exact hr.2)
    obtain ⟨a', ha', e2, -⟩ := i4 a ha
    obtain ⟨b', hb', e3, -⟩ := i4 b hb
    refine ⟨a', (mem_kept _ _ hdaily'.dated _).2 ⟨ha', by rw [e2]; exact h0⟩, b', (mem_kept _ _ hdaily'.dated _).2 ⟨hb', ?_⟩, by omega, by omega⟩
    intro d hd
    have := hr.2 d hd
    omega
  · obtain ⟨r, hr, h0, r', hr', e⟩ := hl.daily
    obtain ⟨q, hq, e1, -⟩ := i4 r hr
    obtain ⟨q', hq', e2, -⟩ := i4 r' hr'
    have h1 := hdaily'.days q hq
    have h2 := hdaily'.days q' hq'
    refine ⟨q, (mem_kept _ _ hdaily'.dated _).2 ⟨hq, by rw [e1]; exact h0⟩, q', (mem_kept _ _ hdaily'.dated _).2 ⟨hq', ?_⟩, by omega⟩
    intro d hd
    have := h0 d hd
    omega

end

/-- Models that do not look at weights: the models that are used by default. -/
theorem default_ignore (w : World ℝ) (testEnv : Env ℝ) (hw : DefaultChoices w testEnv) (args : RunArgs ℝ)
    (hargs : args.models.trend = none ∧ args.models.season = none ∧ args.models.yearly = none ∧ args.models.weekly = none ∧ args.models.naive = none ∧ args.models.calendar = none)
    (df : Frame ℝ) (fr : Option Freq) (cand : AddMult × List (ForecastModel ℝ)) (h : candidates w.ch args.models df fr = .ok cand) :
    ∀ m ∈ cand.2, IgnoresWeights m := by
  obtain ⟨a1, a2, a3, a4, a5, a6⟩ := hargs
  refine candidates_closed IgnoresWeights _ (fun m hm => hm) ignores_null ⟨fun _ _ _ _ => rfl, fun _ _ _ _ => rfl⟩
    ignores_compose w.ch hw.sets args.models (by rw [a1]; simp) (by rw [a2]; simp) ?_ ?_ (by rw [a6]; simp) df _ ?_ cand h
  · rw [a3, hw.yearly]
    intro m hm
    simp only [offered, List.mem_cons, List.not_mem_nil, or_false] at hm
    rcases hm with rfl | rfl
    · exact fun _ _ _ _ => rfl
    · exact ignores_null
  · rw [a4, hw.weekly]
    intro m hm
    simp only [offered, List.mem_cons, List.not_mem_nil, or_false] at hm
    rcases hm with rfl | rfl
    · exact fun _ _ _ _ => rfl
    · exact ignores_null
  · rw [a5, Option.getD_none, hw.seasonalNaive, hw.naive]
    intro m hm
    split_ifs at hm
    · rw [List.mem_singleton] at hm
      subst hm
      exact ignores_snaive _
    · rw [List.mem_singleton] at hm
      subst hm
      exact ignores_naive _

/-- **C84** for the models that are used by default. -/
theorem C84_default_partial (w : World ℝ) (testEnv : Env ℝ) (hw : DefaultChoices w testEnv) (args : RunArgs ℝ)
    (hargs : args.models.trend = none ∧ args.models.season = none ∧ args.models.yearly = none ∧ args.models.weekly = none ∧ args.models.naive = none ∧ args.models.calendar = none)
    (hout : args.findOutliers = false) (id : String) (t t' : STable ℝ) (ht : DailyTable t) (ht' : DailyTable t')
    (hno : t.hasWeight = false) (hno' : t'.hasWeight = false) (hl : TableLeavesOutNulls args.start t t') (res res' : RunResult ℝ)
    (hr : runForecast w args id t = .ok (some res)) (hr' : runForecast w args id t' = .ok (some res')) : SameUpToNulls res res' :=
  C84_table_partial w args id t t' ht ht' hno hno' hl hout (.inr (by rw [hw.statistic]; exact C65_observed_partial testEnv))
    (default_ignore w testEnv hw args hargs) res res' hr hr'

/-! ### Concrete cases -/

/-- Seven days; days 2 and 4 have no value. -/
def demoNulls : STable ℚ := ⟨true, false, false, false, [⟨0, none, 0, some 1, none⟩, ⟨DAY, none, 0, some 3, none⟩, ⟨2 * DAY, none, 0, none, none⟩,
  ⟨3 * DAY, none, 0, some 7, none⟩, ⟨4 * DAY, none, 0, none, none⟩, ⟨5 * DAY, none, 0, some 11, none⟩, ⟨6 * DAY, none, 0, some 12, none⟩]⟩
/-- The same without these days. -/
def demoGaps : STable ℚ := ⟨true, false, false, false, [⟨0, none, 0, some 1, none⟩, ⟨DAY, none, 0, some 3, none⟩,
  ⟨3 * DAY, none, 0, some 7, none⟩, ⟨5 * DAY, none, 0, some 11, none⟩, ⟨6 * DAY, none, 0, some 12, none⟩]⟩

/-- Both have the same predictions. -/
example : ((runForecast demoWorld (demoArgs [modelLinear] (some [modelNaive stableSort])) "s" demoNulls).toOption.bind fun r => r.map fun r =>
    (r.metadata, r.data.filter fun q => !q.isActuals)) =
    ((runForecast demoWorld (demoArgs [modelLinear] (some [modelNaive stableSort])) "s" demoGaps).toOption.bind fun r => r.map fun r =>
      (r.metadata, r.data.filter fun q => !q.isActuals)) ∧
    ((runForecast demoWorld (demoArgs [modelLinear] (some [modelNaive stableSort])) "s" demoNulls).toOption.bind fun r => r.map fun r =>
      (dayRows r).filter fun q => q.1 = "naive") =
      some [("naive", false, 0, some 1), ("naive", false, 1, some 1), ("naive", false, 2, some 3), ("naive", false, 3, some 3), ("naive", false, 4, some 7),
        ("naive", false, 5, some 7), ("naive", false, 6, some 11), ("naive", false, 7, some 12), ("naive", false, 8, some 12), ("naive", false, 9, some 12)] := by
  decide +kernel

/-- The hypotheses of `C84_table_partial` in this case. -/
example (res res' : RunResult ℚ) (h : runForecast totalWorld (demoArgs [modelLinear] (some [modelNaive stableSort])) "s" demoNulls = .ok (some res))
    (h' : runForecast totalWorld (demoArgs [modelLinear] (some [modelNaive stableSort])) "s" demoGaps = .ok (some res')) : SameUpToNulls res res' := by
  refine C84_table_partial totalWorld _ "s" demoNulls demoGaps ⟨rfl, ⟨rfl, rfl, by decide +kernel, by decide +kernel⟩, by decide +kernel⟩
    ⟨rfl, ⟨rfl, rfl, by decide +kernel, by decide +kernel⟩, by decide +kernel⟩ rfl rfl
    ⟨rfl, by decide +kernel, by decide +kernel, by decide +kernel, ?_, ?_⟩ rfl (.inl (by decide)) ?_ res res' h h'
  · intro r hr _
    have : ∀ r ∈ demoNulls.rows, ∃ a ∈ demoGaps.rows, a.date ≤ r.date := by decide +kernel
    obtain ⟨a, ha, e⟩ := this r hr
    exact ⟨a, ha, (by intro d hd; cases hd), e⟩
  · exact ⟨⟨0, none, 0, some 1, none⟩, by simp [demoGaps], (by intro d hd; cases hd), ⟨DAY, none, 0, some 3, none⟩, by simp [demoGaps], by decide⟩
  intro df fr cand hc
  refine candidates_closed IgnoresWeights _ (fun m hm => hm) ignores_null ⟨fun _ _ _ _ => rfl, fun _ _ _ _ => rfl⟩ ignores_compose totalWorld.ch (fun _ => List.Perm.refl _)
    _ ?_ ?_ ?_ ?_ ?_ df _ ?_ cand hc
  · intro t ht
    cases ht
    intro m hm
    rw [List.mem_singleton] at hm
    subst hm
    exact fun _ _ _ _ => rfl
  · intro s hs
    cases hs
    simp
  · intro m hm
    have : m = modelNull := by simpa [offered, demoArgs, totalWorld, demoWorld] using hm
    subst this
    exact ignores_null
  · intro m hm
    have : m = modelNull := by simpa [offered, demoArgs, totalWorld, demoWorld] using hm
    subst this
    exact ignores_null
  · intro c hc
    cases hc
  · intro m hm
    have : m = modelNaive stableSort := by simpa [demoArgs] using hm
    subst this
    exact ignores_naive _

/-- Four Sundays. -/
def demoSundays : Frame ℚ := ⟨true, false, [⟨3 * DAY, 3, some 1, none⟩, ⟨10 * DAY, 10, some 3, none⟩, ⟨17 * DAY, 17, some 4, none⟩, ⟨24 * DAY, 24, some 7, none⟩]⟩
/-- The same and a Monday without a value. -/
def demoMonday : Frame ℚ := ⟨true, false, [⟨3 * DAY, 3, some 1, none⟩, ⟨4 * DAY, 4, none, none⟩, ⟨10 * DAY, 10, some 3, none⟩, ⟨17 * DAY, 17, some 4, none⟩, ⟨24 * DAY, 24, some 7, none⟩]⟩

/-- **C84 refuted if only the rows without a value show that the series is daily**: with an additional row without a value, there is a prediction for every day instead of
every Sunday. -/
theorem C84_counterexample : ∃ res res' : RunResult ℚ, runSingle demoWorld (demoArgs [modelLinear] (some [])) "s" demoMonday = .ok res ∧
    runSingle demoWorld (demoArgs [modelLinear] (some [])) "s" demoSundays = .ok res' ∧ LeavesOutNulls none demoMonday demoSundays ∧
    (res.data.filter fun q => !q.isActuals).length = 25 ∧ (res'.data.filter fun q => !q.isActuals).length = 4 ∧ ¬ SameUpToNulls res res' := by
  have h1 : (runSingle demoWorld (demoArgs [modelLinear] (some [])) "s" demoMonday).toOption.map
    (fun r => (r.data.filter fun q => !q.isActuals).length) = some 25 := by decide +kernel
  have h2 : (runSingle demoWorld (demoArgs [modelLinear] (some [])) "s" demoSundays).toOption.map
    (fun r => (r.data.filter fun q => !q.isActuals).length) = some 4 := by decide +kernel
  cases e1 : runSingle demoWorld (demoArgs [modelLinear] (some [])) "s" demoMonday with
  | error e => rw [e1] at h1; cases h1
  | ok res =>
    cases e2 : runSingle demoWorld (demoArgs [modelLinear] (some [])) "s" demoSundays with
    | error e => rw [e2] at h2; cases h2
    | ok res' =>
      rw [e1] at h1
      rw [e2] at h2
      have h1 : (res.data.filter fun q => !q.isActuals).length = 25 := Option.some.inj h1
      have h2 : (res'.data.filter fun q => !q.isActuals).length = 4 := Option.some.inj h2
      refine ⟨res, res', rfl, rfl, ⟨by decide +kernel, by decide +kernel, by decide +kernel, by decide +kernel⟩, h1, h2, ?_⟩
      intro hs
      have := congrArg List.length hs.predictions
      omega

end Anticipy
