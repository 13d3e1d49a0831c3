import Verif.Spec.TotalComplete
import Verif.Props.TotalWeekly

/-
C82 for monthly and yearly series without gaps: a run ends with a result.
-/
namespace Anticipy
open Spec

theorem onGrid_moved (f : Freq) (hf : CalendarFreq f) (o o' t : Int) (ho : (o' - o) % dayNs = 0) (h : OnGrid civilOfDay weekdayOfDay f o t) :
    OnGrid civilOfDay weekdayOfDay f o' t := by
  rcases hf with rfl | rfl | rfl | rfl <;>
  · obtain ⟨h1, h2⟩ := h
    refine ⟨?_, h2⟩
    simp only [dayNs] at *
    omega

/-- The dates of the extrapolation lie on the grid, from the start on. -/
theorem calendar_points (f : Freq) (hf : CalendarFreq f) (a b t : Timestamp) (h : t ∈ dateRange a b f) :
    a ≤ t ∧ OnGrid civilOfDay weekdayOfDay f a t := by
  have hdr : dateRange a b f = genRange (nextAnchor f) (if onOffset f a then rollBack f b else b)
      ((b - a) / HOUR + 1).toNat (rollForward f a) := by rcases hf with rfl | rfl | rfl | rfl <;> rfl
  have hdb := day_tod b
  have htb := tod_range b
  have hrb : rollBack f b ≤ b := by
    unfold rollBack
    split_ifs with h
    · exact le_rfl
    · have : ¬ dayOf b ≤ anchorDay f (anchorIdx f (dayOf b) - 1) := by rw [le_anchorDay_iff]; omega
      simp only [DAY] at *; omega
  rw [hdr] at h
  obtain ⟨h1, -, h2, h3⟩ := (mem_dateRange_anchor f a b _ t (by split_ifs <;> first | exact hrb | exact le_rfl)).1 h
  exact ⟨h1, (onGrid_iff f (by rcases hf with rfl | rfl | rfl | rfl <;> trivial) (by rcases hf with rfl | rfl | rfl | rfl <;> simp) a t).2 ⟨h2, h3⟩⟩

variable {K : Type} [Field K] [LinearOrder K]

/-- Properties of the table of actuals that the naive models see in a run on a series without gaps. -/
structure CompleteActuals (t0 : Timestamp) (df act : Frame K) : Prop where
  dated : act.hasDate = true
  days : CountsDays act t0
  sorted : act.rows.Pairwise fun a b => a.x < b.x
  has : ∀ r ∈ df.rows, ∃ a ∈ act.rows, a.x = r.x
  only : ∀ a ∈ act.rows, ∃ r ∈ df.rows, r.x = a.x

theorem complete_actuals (srt : SortAlg) {f : Freq} (hf : CalendarFreq f) {df : Frame K} {t0 : Timestamp} (h : CompleteSeries civilOfDay weekdayOfDay f df t0) (used : Frame K)
    (hu : (used.rows.map Row.x).Nodup) : ∃ act, actualsInterpolated srt df used = .ok act ∧ CompleteActuals t0 df act := by
  have h0 : interpolateDf df = .ok df := by
    refine C25_no_gaps civilOfDay civilOfDay_isCalendar weekdayOfDay weekdayOfDay_isWeek f (by rcases hf with rfl | rfl | rfl | rfl <;> trivial) df h.dated t0 ?_ h.grid h.full h.two
    rw [List.pairwise_map, List.pairwise_iff_forall_sublist]
    intro a b hab
    have h1 := h.days a (hab.subset (by simp))
    have h2 := h.days b (hab.subset (by simp))
    have h3 := List.pairwise_iff_forall_sublist.1 h.sorted hab
    omega
  refine ⟨{ df with hasWeight := true, rows := (srt.run (fun a b : Row K => decide (a.x ≤ b.x)) df.rows).flatMap (mergeWeight used.rows) },
    by unfold actualsInterpolated; rw [h0]; rfl, ?_⟩
  have hperm := srt.perm (fun a b : Row K => decide (a.x ≤ b.x)) df.rows
  have hsort := srt.sorted (fun a b : Row K => decide (a.x ≤ b.x)) df.rows
    (by simp only [decide_eq_true_eq]; intros; omega) (by simp only [Bool.or_eq_true, decide_eq_true_eq]; intros; omega)
  have hone : ∀ o, ∃ w y, mergeWeight used.rows o = [{ o with weight := w, y := y }] := by
    intro o
    rcases mergeWeight_single used.rows hu o with ⟨n, e⟩ | ⟨u, hu1, hu2, e⟩
    · exact ⟨_, _, e⟩
    · exact ⟨_, _, e⟩
  have hmem : ∀ a, a ∈ (srt.run (fun a b : Row K => decide (a.x ≤ b.x)) df.rows).flatMap (mergeWeight used.rows) ↔
      ∃ o ∈ df.rows, a ∈ mergeWeight used.rows o := by
    intro a
    rw [List.mem_flatMap]
    simp only [hperm.mem_iff]
  refine ⟨h.dated, ?_, ?_, ?_, ?_⟩
  · intro a ha
    obtain ⟨o, ho, hao⟩ := (hmem a).1 ha
    obtain ⟨w, y, e⟩ := hone o
    rw [e, List.mem_singleton] at hao
    subst hao
    exact h.days o ho
  · dsimp only
    rw [List.pairwise_flatMap]
    constructor
    · intro o _
      obtain ⟨w, y, e⟩ := hone o
      rw [e]
      exact List.pairwise_singleton _ _
    · have hlt : (srt.run (fun a b : Row K => decide (a.x ≤ b.x)) df.rows).Pairwise fun a b => a.x < b.x := by
        have hn' : (srt.run (fun a b : Row K => decide (a.x ≤ b.x)) df.rows).Pairwise fun a b => a.x ≠ b.x := by
          have := (hperm.map Row.x).nodup_iff.2 ((List.pairwise_map.2 h.sorted).imp fun h => ne_of_lt h)
          exact List.pairwise_map.1 this
        refine (hsort.and hn').imp ?_
        rintro a b ⟨h1, h2⟩
        rw [decide_eq_true_eq] at h1
        omega
      refine hlt.imp ?_
      intro a b hab x hx y hy
      obtain ⟨w, y', e⟩ := hone a
      obtain ⟨w2, y2, e2⟩ := hone b
      rw [e, List.mem_singleton] at hx
      rw [e2, List.mem_singleton] at hy
      subst hx hy
      exact hab
  · intro r hr
    obtain ⟨w, y, e⟩ := hone r
    exact ⟨{ r with weight := w, y := y }, (hmem _).2 ⟨r, hr, by rw [e]; exact List.mem_singleton.2 rfl⟩, rfl⟩
  · intro a ha
    obtain ⟨o, ho, hao⟩ := (hmem a).1 ha
    obtain ⟨w, y, e⟩ := hone o
    rw [e, List.mem_singleton] at hao
    subst hao
    exact ⟨o, ho, rfl⟩

variable [IsStrictOrderedRing K]

/-- The naive models can be evaluated at samples and later dates. -/
theorem complete_naive (srt : SortAlg) (t0 : Timestamp) (df act : Frame K) (hact : CompleteActuals t0 df act)
    (m : ForecastModel K) (hm : m = modelNaive srt ∨ m = modelSnaiveWday srt) (xs : List Int) (hx : xs.Pairwise (· < ·)) (ds : List Timestamp)
    (hds : ds = xs.map fun x => t0 + x * (24 * 60 * 60 * 1000000000)) (hge : ∀ x ∈ xs, (∃ a ∈ act.rows, a.x = x) ∨ ∀ a ∈ act.rows, a.x < x) (p : Params K) :
    ∃ a, m.fModel { ax := scaleX m xs, adate := some ds, actuals := some act } p false = .ok a ∧ Shaped xs.length a := by
  have hname : ¬(m.name = "logistic" ∨ m.name = "sigmoid") := by
    rcases hm with rfl | rfl <;> simp [modelNaive, modelSnaiveWday, mkModel]
  have hsx : scaleX m xs = xs.map fun x : Int => (x : K) := by
    unfold scaleX
    rw [if_neg hname]
  have hax : (xs.map fun x : Int => (x : K)).Pairwise (· < ·) := by
    rw [List.pairwise_map]
    exact hx.imp fun h => Int.cast_lt.2 h
  rw [hsx]
  subst hds
  rcases hm with rfl | rfl
  · obtain ⟨out, ho, hl, -⟩ := C37_naive srt { ax := xs.map fun x : Int => (x : K), adate := some (xs.map fun x => t0 + x * (24 * 60 * 60 * 1000000000)), actuals := some act } act p false rfl rfl
      (by
        refine ⟨by intro ds hds; cases hds; simp, ?_⟩
        intro _
        refine ⟨_, rfl, ?_⟩
        intro i x d hx hd q hq hqx
        rw [List.getElem?_map] at hx hd
        cases hi : xs[i]? with
        | none => rw [hi] at hx; cases hx
        | some y =>
          rw [hi] at hx hd
          cases hx
          cases hd
          have hq2 : q.x = y := Int.cast_injective (α := K) hqx
          rw [hact.days q hq, hq2])
      hax ((List.pairwise_map.2 hact.sorted).imp fun h => ne_of_lt h)
    refine ⟨_, ho, ?_⟩
    change out.length = _
    rw [hl]
    simp
  · obtain ⟨out, ho, hl, -⟩ := C38_seasonal_naive srt { ax := xs.map fun x : Int => (x : K), adate := some (xs.map fun x => t0 + x * (24 * 60 * 60 * 1000000000)), actuals := some act } act _ p false rfl rfl
      hact.dated rfl (by simp) hax hact.sorted (by
        intro e he
        rw [List.zip_map'] at he
        obtain ⟨x, hx, rfl⟩ := List.mem_map.1 he
        rcases hge x hx with ⟨q, hq, e⟩ | hfut
        · left
          exact ⟨q, hq, by rw [e], by rw [hact.days q hq, e]⟩
        · right
          intro q hq
          have h3 := hfut q hq
          have h4 := hact.days q hq
          refine ⟨by dsimp only; rw [Int.cast_lt]; exact h3, ?_⟩
          intro h5
          dsimp only at h5
          omega)
    refine ⟨_, ho, ?_⟩
    change out.length = _
    rw [hl]
    simp

omit [IsStrictOrderedRing K] in
theorem calendar_freq {f : Freq} (hf : CalendarFreq f) {df : Frame K} {t0 : Timestamp} (h : CompleteSeries civilOfDay weekdayOfDay f df t0) : runFreq df = some f := by
  unfold runFreq
  rw [h.dated, if_pos rfl]
  refine C19_detect_freq civilOfDay civilOfDay_isCalendar weekdayOfDay weekdayOfDay_isWeek f (by rcases hf with rfl | rfl | rfl | rfl <;> trivial) _ t0 ?_ ?_
  · intro t ht
    obtain ⟨r, hr, rfl⟩ := List.mem_map.1 ht
    exact h.grid r hr
  · obtain ⟨r, hr, r', hr', hn⟩ := h.two
    exact ⟨_, List.mem_map.2 ⟨r, hr, rfl⟩, _, List.mem_map.2 ⟨r', hr', rfl⟩, hn⟩

theorem calendar_horizon {f : Freq} (hf : CalendarFreq f) (y : ℚ) (hy : (y * perYear f).den = 1) (t : Timestamp) : ∃ e, addHorizon f y t = .ok e := by
  rcases hf with rfl | rfl | rfl | rfl
  · exact ⟨_, if_pos hy⟩
  · exact ⟨_, if_pos hy⟩
  · exact ⟨_, if_pos hy⟩
  · exact ⟨_, if_pos hy⟩

variable [FloorRing K]

theorem complete_used {f : Freq} {df : Frame K} {t0 : Timestamp} (h : CompleteSeries civilOfDay weekdayOfDay f df t0) (find : Bool) (start : Option Timestamp) (df2 : Frame K)
    (h2 : applyOutliers find (filterStart start df) = .ok df2) : UsedPart df (usedRows (defaultWeights df2).1).rows := by
  obtain ⟨u1, u2, u3, u4, u5⟩ := used_rows find start df df2 h2
  refine ⟨?_, ?_, ?_⟩
  · have h1 : ((usedRows (defaultWeights df2).1).rows.map Row.x).Sublist ((kept start df).map Row.x) := by
      rw [← u4]
      exact List.filter_sublist.map _
    exact (h1.trans (List.filter_sublist.map _)).nodup ((List.pairwise_map.2 h.sorted).imp fun h => ne_of_lt h)
  · intro u hu
    have := (List.mem_filter.1 hu).2
    rw [decide_eq_true_iff] at this
    obtain ⟨w, hw, hp⟩ := this
    exact ⟨w, hw, hp⟩
  · intro u hu
    obtain ⟨q, h1, h2, h3, h4, -⟩ := u5 u hu
    exact ⟨q, (List.mem_filter.1 h1).1, h2, h3, h4⟩

/-- A workable candidate can be fitted in a run on a series without gaps, and its forecast lies on whole days. -/
theorem complete_candidate (w : World K) (args : RunArgs K) (source : String) {f0 : Freq} (hcal : CalendarFreq f0) (hyears : (args.years * perYear f0).den = 1) {df : Frame K} {t0 : Timestamp} (hcomplete : CompleteSeries civilOfDay weekdayOfDay f0 df t0) (df2 : Frame K)
    (hout : applyOutliers args.findOutliers (filterStart args.start df) = .ok df2) (wm : WeightsMeta K) (mode : AddMult) (act : Frame K)
    (hact : CompleteActuals t0 df act) (global : String → Option (CacheFn K)) (reg : Registry K)
    (m : ForecastModel K) (hm : Workable w.srt global reg m) (env : Env K) (hglobal : env.globalCache = global) (hsolve : SolverReturns env)
    (hscore : ScoreReturns env (usableRows (usedRows (defaultWeights df2).1)).length) (hne : usableRows (usedRows (defaultWeights df2).1) ≠ []) :
    ∃ f rows, fitModel env m (usedRows (defaultWeights df2).1) (some act) args.useCache = .ok f ∧
      forecastRows (mkSetup w args source df (defaultWeights df2).1 wm mode act) m f = .ok rows ∧
      ∀ r ∈ rows, ∃ x : Int, r.date = t0 + x * (24 * 60 * 60 * 1000000000) := by
  obtain ⟨u1, u2, u3, u4, u5⟩ := used_rows args.findOutliers args.start df df2 hout
  have hpart := complete_used hcomplete args.findOutliers args.start df2 hout
  have hdd : ∀ q ∈ (usedRows (defaultWeights df2).1).rows, q.date = t0 + q.x * (24 * 60 * 60 * 1000000000) := by
    intro q hq
    obtain ⟨q', h1, h2, h3, -⟩ := hpart.part q hq
    rw [h2, h3]
    exact hcomplete.days q' h1
  have hux : ((usedRows (defaultWeights df2).1).rows.map Row.x).Pairwise (· < ·) := by
    have h1 : ((usedRows (defaultWeights df2).1).rows.map Row.x).Sublist ((kept args.start df).map Row.x) := by
      rw [← u4]
      exact List.filter_sublist.map _
    exact (List.pairwise_map.2 hcomplete.sorted).sublist (h1.trans (List.filter_sublist.map _))
  have hsub : (usableRows (usedRows (defaultWeights df2).1)).Sublist (usedRows (defaultWeights df2).1).rows := List.filter_sublist
  have hxx : ((usableRows (usedRows (defaultWeights df2).1)).map Row.x).Pairwise (· < ·) := hux.sublist (hsub.map _)
  have hhd : (usedRows (defaultWeights df2).1).hasDate = true := u1.trans hcomplete.dated
  have hdates : (prepare (usedRows (defaultWeights df2).1)).dates = some ((usableRows (usedRows (defaultWeights df2).1)).map Row.date) := by
    rw [prepare_eq]
    simp [hhd]
  have hnaive : ∀ name f, m = mkModel name 0 f → (m = modelNaive w.srt ∨ m = modelSnaiveWday w.srt) →
      ∃ r, fitModel env m (usedRows (defaultWeights df2).1) (some act) args.useCache = .ok r ∧ (r.isFit = true → r.params = []) := by
    intro name f hmk hcase
    have hev := complete_naive w.srt t0 df act hact m hcase ((usableRows (usedRows (defaultWeights df2).1)).map Row.x) hxx
      ((usableRows (usedRows (defaultWeights df2).1)).map Row.date) (by
        rw [List.map_map]
        apply List.map_congr_left
        intro r hr
        exact hdd r (hsub.subset hr)) (by
        intro x hx
        obtain ⟨u, hu, rfl⟩ := List.mem_map.1 hx
        obtain ⟨q, hq, -, e, -⟩ := hpart.part u (hsub.subset hu)
        rw [e]
        exact .inl (hact.has q hq)) none
    rw [List.length_map] at hev
    subst hmk
    refine fit_noparams env name f _ (some act) args.useCache hscore hne ?_
    rw [hdates, prepare_eq]
    exact hev
  have hfit : ∃ f, fitModel env m (usedRows (defaultWeights df2).1) (some act) args.useCache = .ok f ∧
      (Dependable global reg m → f.isFit = true → f.params.length = m.nParams) := by
    rcases hm with hm | hm | hm | hm
    · obtain ⟨r, h1, h2⟩ := fit_noparams env "null" (fun _ _ isMult => .ok (.scalar (some (if isMult then 1 else 0)))) (usedRows (defaultWeights df2).1) (some act) args.useCache hscore hne ⟨.scalar (some 0), rfl, trivial⟩
      exact ⟨r, hm ▸ h1, fun _ h3 => by rw [h2 h3, hm]; rfl⟩
    · obtain ⟨r, h1, h2⟩ := hnaive _ _ hm (.inl hm)
      exact ⟨r, h1, fun _ h3 => by rw [h2 h3, hm]; rfl⟩
    · obtain ⟨r, h1, h2⟩ := hnaive _ _ hm (.inr hm)
      exact ⟨r, h1, fun _ h3 => by rw [h2 h3, hm]; rfl⟩
    · obtain ⟨r, h1, h2, -⟩ := fit_dependable env reg m (hglobal ▸ hm) _ (some act) args.useCache hsolve hscore hhd hxx hne
      exact ⟨r, h1, fun _ => h2⟩
  obtain ⟨f, hf, hpl⟩ := hfit
  refine ⟨f, ?_⟩
  unfold forecastRows
  by_cases hisf : f.isFit = true
  swap
  · rw [if_neg hisf]
    exact ⟨[], hf, rfl, by simp⟩
  rw [if_pos hisf]
  have hunil : (usedRows (defaultWeights df2).1).rows ≠ [] := by
    intro h0
    rw [h0] at hsub
    exact hne (List.eq_nil_of_sublist_nil hsub)
  simp only [mkSetup]
  cases h1 : listMin (axisOf (usedRows (defaultWeights df2).1)) with
  | none =>
    exfalso
    have := (listMin_none _).1 h1
    unfold axisOf at this
    rw [if_pos hhd, List.map_eq_nil_iff] at this
    exact hunil this
  | some start =>
    cases h2 : listMin ((usedRows (defaultWeights df2).1).rows.map Row.x) with
    | none =>
      exfalso
      have := (listMin_none _).1 h2
      rw [List.map_eq_nil_iff] at this
      exact hunil this
    | some x0 =>
      obtain ⟨m2, l2⟩ := (listMin_some _ _).1 h2
      obtain ⟨q2, n2, rfl⟩ := List.mem_map.1 m2
      have hstart : start = t0 + q2.x * (24 * 60 * 60 * 1000000000) := by
        unfold axisOf at h1
        rw [if_pos hhd] at h1
        obtain ⟨m1, l1⟩ := (listMin_some _ _).1 h1
        obtain ⟨q1, n1, rfl⟩ := List.mem_map.1 m1
        have a1 := l1 _ (List.mem_map.2 ⟨q2, n2, rfl⟩)
        have a2 := l2 _ (List.mem_map.2 ⟨q1, n1, rfl⟩)
        have b1 := hdd q1 n1
        have b2 := hdd q2 n2
        omega
      dsimp only
      have hfreq : runFreq df = some f0 := calendar_freq hcal hcomplete
      have hsx : ∃ e, sxExtrapolateDate start ((listMax (axisOf (defaultWeights df2).1)).getD 0) (some f0) args.years q2.x =
          .ok ((dateRange start e f0).map fun t => (t, (t - start) / DAY + q2.x)) := by
        obtain ⟨e, he⟩ := calendar_horizon hcal args.years hyears ((listMax (axisOf (defaultWeights df2).1)).getD 0)
        refine ⟨e, ?_⟩
        unfold sxExtrapolateDate
        rcases hcal with rfl | rfl | rfl | rfl <;> simp only [bind, Except.bind, he]
      obtain ⟨e, hsx⟩ := hsx
      unfold extrapolate
      rw [hhd, hfreq]
      simp only [if_true, bind, Except.bind, hsx, List.map_map, Function.comp_def, List.map_id']
      have hgrid0 : ∀ t ∈ dateRange start e f0, t = t0 + (t - t0) / (24 * 60 * 60 * 1000000000) * (24 * 60 * 60 * 1000000000) ∧ start ≤ t ∧
          OnGrid civilOfDay weekdayOfDay f0 t0 t := by
        intro t ht
        obtain ⟨g1, g2⟩ := calendar_points f0 hcal start e t ht
        have g3 := onGrid_moved f0 hcal start t0 t (by simp only [dayNs]; omega) g2
        refine ⟨?_, g1, g3⟩
        have g4 : (t - t0) % dayNs = 0 := by rcases hcal with rfl | rfl | rfl | rfl <;> exact g3.1
        simp only [dayNs] at g4
        omega
      have hgrid : ∀ t ∈ dateRange start e f0, t = t0 + (t - t0) / (24 * 60 * 60 * 1000000000) * (24 * 60 * 60 * 1000000000) := fun t ht => (hgrid0 t ht).1
      have hcov : ∀ t ∈ dateRange start e f0, (∃ a ∈ act.rows, a.x = (t - t0) / (24 * 60 * 60 * 1000000000)) ∨ ∀ a ∈ act.rows, a.x < (t - t0) / (24 * 60 * 60 * 1000000000) := by
        intro t ht
        obtain ⟨g1, g2, g3⟩ := hgrid0 t ht
        by_cases hl : ∃ r ∈ df.rows, t ≤ r.date
        · left
          obtain ⟨q', h1, h2, h3, -⟩ := hpart.part q2 n2
          have h5 := hcomplete.full t g3 ⟨q', h1, by have := hcomplete.days q' h1; omega⟩ hl
          obtain ⟨r, hr, hrt⟩ := List.mem_map.1 h5
          obtain ⟨a, ha, e⟩ := hact.has r hr
          refine ⟨a, ha, ?_⟩
          have := hcomplete.days r hr
          omega
        · right
          intro a ha
          obtain ⟨r, hr, e⟩ := hact.only a ha
          have h6 : ¬ t ≤ r.date := fun h => hl ⟨r, hr, h⟩
          have := hcomplete.days r hr
          omega
      have hx : (dateRange start e f0).map (fun t => (t - start) / DAY + q2.x) = (dateRange start e f0).map fun t => (t - t0) / (24 * 60 * 60 * 1000000000) := by
        apply List.map_congr_left
        intro t _
        rw [hstart]
        simp only [DAY, HOUR]
        omega
      rw [hx]
      have hinc : ((dateRange start e f0).map fun t => (t - t0) / (24 * 60 * 60 * 1000000000)).Pairwise (· < ·) := by
        rw [List.pairwise_map]
        have := dateRange_sorted start e f0
        rw [List.pairwise_iff_forall_sublist] at this ⊢
        intro a b hab
        have h2 := this hab
        have ha := hgrid a (hab.subset (by simp))
        have hb := hgrid b (hab.subset (by simp))
        omega
      have hds : dateRange start e f0 = ((dateRange start e f0).map fun t => (t - t0) / (24 * 60 * 60 * 1000000000)).map fun x => t0 + x * (24 * 60 * 60 * 1000000000) := by
        rw [List.map_map]
        conv_lhs => rw [← List.map_id (dateRange start e f0)]
        apply List.map_congr_left
        intro t ht
        exact hgrid t ht
      have hval : ∃ a, m.fModel { ax := scaleX m ((dateRange start e f0).map fun t => (t - t0) / (24 * 60 * 60 * 1000000000)), adate := some (dateRange start e f0), actuals := some act } (some f.params) false = .ok a ∧
          Shaped (dateRange start e f0).length a := by
        have hn : m = modelNaive w.srt ∨ m = modelSnaiveWday w.srt → _ := fun hc =>
          complete_naive w.srt t0 df act hact m hc ((dateRange start e f0).map fun t => (t - t0) / (24 * 60 * 60 * 1000000000)) hinc (dateRange start e f0) hds (by
            intro x hx
            obtain ⟨t, ht, rfl⟩ := List.mem_map.1 hx
            exact hcov t ht) (some f.params)
        rw [List.length_map] at hn
        rcases hm with hm | hm | hm | hm
        · subst hm
          exact ⟨.scalar (some 0), rfl, trivial⟩
        · exact hn (.inl hm)
        · exact hn (.inr hm)
        · have hl : (scaleX m ((dateRange start e f0).map fun t => (t - t0) / (24 * 60 * 60 * 1000000000))).length = (dateRange start e f0).length := by
            unfold scaleX
            split_ifs <;> simp
          obtain ⟨a, g1, g2, -⟩ := hm.evaluates { ax := scaleX m ((dateRange start e f0).map fun t => (t - t0) / (24 * 60 * 60 * 1000000000)), adate := some (dateRange start e f0), actuals := some act } _ f.params false rfl hl.symm (hpl hm hisf)
          exact ⟨a, g1, hl ▸ g2⟩
      obtain ⟨a, ha, hs⟩ := hval
      rw [ha]
      dsimp only
      obtain ⟨l, hl, hmem⟩ := series_ok _ a hs
      rw [hl]
      refine ⟨_, hf, rfl, ?_⟩
      intro r hr
      unfold fcastClean at hr
      obtain ⟨p, hp, rfl⟩ := List.mem_map.1 hr
      exact ⟨_, hgrid _ (hmem p (List.mem_filter.1 hp).1)⟩

/-- **C82.** A run on a monthly or yearly series without gaps ends with a result, under the conditions for daily series, if the horizon is a whole number of months or years. -/
theorem C82_complete_partial (w : World K) (args : RunArgs K) (source : String) {f0 : Freq} (hcal : CalendarFreq f0) (hyears : (args.years * perYear f0).den = 1) (df : Frame K) (t0 : Timestamp) (hcomplete : CompleteSeries civilOfDay weekdayOfDay f0 df t0)
    (htwo : 2 ≤ (kept args.start df).length)
    (hcounts : ∃ (i : Nat) (r : Row K), (kept args.start df)[i]? = some r ∧ r.y ≠ none ∧ (∃ v, givenWeight df r = some v ∧ 0 < v) ∧
      (args.findOutliers = true → ∀ step spike, getModelOutliers { df with rows := kept args.start df } 3 = .ok (step, spike) → spike[i]? = some false))
    (global : String → Option (CacheFn K)) (reg : Registry K) (n : Nat) (hn : (kept args.start df).length ≤ n) (hc : Contracts w args source n global reg (runFreq df)) :
    ∃ res, runSingle w args source df = .ok res := by
  have hkd : ∀ r ∈ kept args.start df, r.date = t0 + r.x * (24 * 60 * 60 * 1000000000) := fun r hr => hcomplete.days r (List.mem_filter.1 hr).1
  have hkx : (kept args.start df).Pairwise fun a b => a.x < b.x := hcomplete.sorted.sublist List.filter_sublist
  have hout : ∃ df2, applyOutliers args.findOutliers (filterStart args.start df) = .ok df2 := by
    unfold applyOutliers
    cases args.findOutliers with
    | false => exact ⟨_, rfl⟩
    | true =>
      rw [filterStart_rows, if_pos rfl]
      obtain ⟨m, hm⟩ := (C39_defined { df with rows := kept args.start df } 3).2 (by
        have : ∀ r ∈ kept args.start df, axis { df with rows := kept args.start df } r = t0 + r.x * (24 * 60 * 60 * 1000000000) := by
          intro r hr
          unfold axis
          dsimp only
          rw [hcomplete.dated, if_pos rfl]
          exact hkd r hr
        dsimp only
        rw [List.map_congr_left this]
        refine List.pairwise_map.2 (hkx.imp ?_)
        intro a b hab
        omega)
      simp only [hm, bind, Except.bind]
      exact ⟨_, rfl⟩
  obtain ⟨df2, hout⟩ := hout
  obtain ⟨u1, u2, u3, u4, u5⟩ := used_rows args.findOutliers args.start df df2 hout
  have hpart := complete_used hcomplete args.findOutliers args.start df2 hout
  obtain ⟨act, hact1, hact⟩ := complete_actuals w.srt hcal hcomplete _ hpart.nodup
  have hdd : (defaultWeights df2).1.hasDate = true := u1.trans hcomplete.dated
  -- a usable sample
  have hne : usableRows (usedRows (defaultWeights df2).1) ≠ [] := by
    obtain ⟨i, r, hi, hy, ⟨v, hv, hv0⟩, hspike⟩ := hcounts
    obtain ⟨spike, hlen, hs1, hs2, e⟩ := weights_stage args.findOutliers _ df2 hout
    rw [filterStart_rows] at e hlen hs1 hs2
    have hb : spike[i]? = some false := by
      cases hf : args.findOutliers with
      | true =>
        obtain ⟨step, hs⟩ := hs1 hf
        exact hspike hf step spike hs
      | false =>
        rw [hs2 hf, List.getElem?_replicate]
        have := (List.getElem?_eq_some_iff.1 hi).1
        rw [if_pos this]
    have hg : (weighted { df with rows := kept args.start df } spike).rows[i]? = some { r with weight := some v } := by
      unfold weighted
      dsimp only
      rw [List.getElem?_zipWith, hi, hb]
      have : givenWeight { df with rows := kept args.start df } r = some v := hv
      simp [this]
    rw [← e] at hg
    have hin : ({ r with weight := some v } : Row K) ∈ (usedRows (defaultWeights df2).1).rows :=
      List.mem_filter.2 ⟨List.mem_of_getElem? hg, by rw [decide_eq_true_iff]; exact ⟨v, rfl, hv0⟩⟩
    refine List.ne_nil_of_mem (List.mem_filter.2 ⟨hin, ?_⟩)
    rw [decide_eq_true_iff]
    exact ⟨Option.ne_none_iff_exists'.1 hy, fun _ => ⟨v, rfl, hv0⟩⟩
  have hlen : (usableRows (usedRows (defaultWeights df2).1)).length ≤ (kept args.start df).length := by
    have h1 : (usableRows (usedRows (defaultWeights df2).1)).length ≤ (usedRows (defaultWeights df2).1).rows.length := List.length_filter_le _ _
    have h2 : (usedRows (defaultWeights df2).1).rows.length ≤ (defaultWeights df2).1.rows.length := List.length_filter_le _ _
    have h3 := congrArg List.length u4
    rw [List.length_map, List.length_map] at h3
    omega
  have hrows : (defaultWeights df2).1.rows ≠ [] := by
    intro h0
    have h3 := congrArg List.length u4
    rw [List.length_map, List.length_map, h0, List.length_nil] at h3
    omega
  have hrange : ∃ range, runRange (defaultWeights df2).1 = .ok range := by
    unfold runRange axisOf
    rw [if_pos hdd]
    have n1 : listMin ((defaultWeights df2).1.rows.map Row.date) ≠ none := by
      intro h0
      have := (listMin_none _).1 h0
      rw [List.map_eq_nil_iff] at this
      exact hrows this
    have n2 : listMax ((defaultWeights df2).1.rows.map Row.date) ≠ none := by
      intro h0
      have := (listMax_none _).1 h0
      rw [List.map_eq_nil_iff] at this
      exact hrows this
    obtain ⟨a, ha⟩ := Option.ne_none_iff_exists'.1 n1
    obtain ⟨b, hb⟩ := Option.ne_none_iff_exists'.1 n2
    rw [ha, hb]
    exact ⟨_, rfl⟩
  obtain ⟨range, hrange⟩ := hrange
  have hwx : (defaultWeights df2).1.rows.Pairwise fun a b => a.x < b.x := by
    have h1 : ((defaultWeights df2).1.rows.map Row.x).Pairwise (· < ·) := u4 ▸ List.pairwise_map.2 hkx
    exact List.pairwise_map.1 h1
  obtain ⟨cand, hcd⟩ := candidates_ok w.ch args.models (defaultWeights df2).1 (runFreq df) fun h h4 => hc.test h _ hdd hwx h4 (by
    have h3 := congrArg List.length u4
    rw [List.length_map, List.length_map] at h3
    omega)
  obtain ⟨hcne, hcw⟩ := hc.models _ cand hcd
  have hall := fun m hm i => complete_candidate w args source hcal hyears hcomplete df2 hout (defaultWeights df2).2 cand.1 act hact global reg m (hcw m hm) (w.env source i)
    (hc.cacheVars i) (hc.solver i) (hc.score i _ (hlen.trans hn)) hne
  obtain ⟨fits, hfits⟩ := fitLoop_ok (w.env source) (mkSetup w args source df (defaultWeights df2).1 (defaultWeights df2).2 cand.1 act) cand.2
    (by
      intro m hm i
      obtain ⟨f, rows, h1, h2, -⟩ := hall m hm i
      exact ⟨f, rows, h1, h2⟩) 0
  obtain ⟨s1, s2, s3⟩ := fitLoop_spec _ _ _ _ _ hfits
  have hfne : fits.1 ≠ [] := by
    intro h0
    rw [h0, List.length_nil] at s1
    exact hcne (List.eq_nil_of_length_eq_zero s1.symm)
  have hruns : runFits w args source df = .ok ((actualsClean (defaultWeights df2).1 source ⟨(defaultWeights df2).2, runFreq df, range⟩ ++ fits.2).map (flagData (bestKey w.srt fits.1)),
      fits.1.map (flagMeta (bestKey w.srt fits.1))) := by
    unfold runFits
    simp only [bind, Except.bind]
    rw [hout]
    dsimp only
    rw [hrange]
    dsimp only
    rw [hcd]
    dsimp only
    rw [hact1]
    dsimp only
    rw [hfits]
    dsimp only
    rw [if_neg hfne]
  unfold runSingle
  simp only [bind, Except.bind]
  rw [hruns]
  dsimp only
  have hsel : ∀ d : List (DRow K) × List (MRow K), (∀ r ∈ (selectFits args.includeAll d).1, r ∈ d.1) ∧ ∀ r ∈ d.1, r.isActuals = true → r ∈ (selectFits args.includeAll d).1 := by
    intro d
    unfold selectFits
    split_ifs
    · exact ⟨fun r h => h, fun r h _ => h⟩
    · exact ⟨fun r h => (List.mem_filter.1 h).1, fun r h h2 => List.mem_filter.2 ⟨h, by simp [h2]⟩⟩
  have hdata : ∀ r ∈ (actualsClean (defaultWeights df2).1 source ⟨(defaultWeights df2).2, runFreq df, range⟩ ++ fits.2).map (flagData (bestKey w.srt fits.1)),
      r.source = source ∧ ∃ x : Int, r.date = t0 + x * (24 * 60 * 60 * 1000000000) := by
    intro r hr
    obtain ⟨q, hq, rfl⟩ := List.mem_map.1 hr
    rcases List.mem_append.1 hq with hq | hq
    · unfold actualsClean at hq
      obtain ⟨a, ha, rfl⟩ := List.mem_map.1 hq
      refine ⟨rfl, ?_⟩
      have h1 : a.date ∈ (kept args.start df).map Row.date := u3 ▸ List.mem_map.2 ⟨a, ha, rfl⟩
      obtain ⟨k, hk, e⟩ := List.mem_map.1 h1
      refine ⟨k.x, ?_⟩
      unfold flagData
      dsimp only
      rw [if_pos hdd, ← e]
      exact hkd k hk
    · obtain ⟨k, m, f, rows, e1, e2, e3, e4⟩ := s3 q hq
      obtain ⟨f', rows', g1, g2, g3⟩ := hall m (List.mem_of_getElem? e1) (0 + k)
      have : f = f' := Except.ok.inj (e2.symm.trans g1)
      subst this
      have : rows = rows' := Except.ok.inj (e3.symm.trans g2)
      subst this
      refine ⟨?_, g3 q e4⟩
      exact (forecastRows_mem _ _ _ _ e3 q e4).2.2.1
  obtain ⟨out, hpi⟩ := getPi_ok (w.draw source) df.hasDate (selectFits args.includeAll ((actualsClean (defaultWeights df2).1 source ⟨(defaultWeights df2).2, runFreq df, range⟩ ++ fits.2).map (flagData (bestKey w.srt fits.1)),
      fits.1.map (flagMeta (bestKey w.srt fits.1)))).1 source t0 100 args.nCum args.q1 args.q2 args.widening hc.percentiles
    (fun r hr => (hdata r ((hsel _).1 r hr)).1) (fun r hr => (hdata r ((hsel _).1 r hr)).2) (by
      match hk : kept args.start df, htwo with
      | a :: b :: l, _ =>
        have hab : a.x < b.x := by
          rw [hk] at hkx
          exact (List.pairwise_cons.1 hkx).1 b (by simp)
        have hda := hkd a (by rw [hk]; simp)
        have hdb := hkd b (by rw [hk]; simp)
        have hfind : ∀ k ∈ kept args.start df, ∃ d, d ∈ (actualsClean (defaultWeights df2).1 source ⟨(defaultWeights df2).2, runFreq df, range⟩ ++ fits.2).map (flagData (bestKey w.srt fits.1)) ∧ d.isActuals = true ∧ d.date = k.date := by
          intro k hkm
          have h1 : k.date ∈ (defaultWeights df2).1.rows.map Row.date := u3 ▸ List.mem_map.2 ⟨k, hkm, rfl⟩
          obtain ⟨a, ha, e⟩ := List.mem_map.1 h1
          refine ⟨_, List.mem_map.2 ⟨_, List.mem_append.2 (.inl (List.mem_map.2 ⟨a, ha, rfl⟩)), rfl⟩, rfl, ?_⟩
          unfold flagData
          dsimp only
          rw [if_pos hdd, e]
        obtain ⟨d1, i1, j1, k1⟩ := hfind a (by rw [hk]; simp)
        obtain ⟨d2, i2, j2, k2⟩ := hfind b (by rw [hk]; simp)
        refine ⟨d1, (hsel _).2 d1 i1 j1, d2, (hsel _).2 d2 i2 j2, j1, j2, ?_⟩
        omega)
  rw [hpi]
  exact ⟨_, rfl⟩

/-! ### Tables -/

omit [Field K] [LinearOrder K] [IsStrictOrderedRing K] [FloorRing K] in
/-- A series made of the rows of a table without gaps has no gaps. -/
theorem complete_series {f : Freq} (hf : CalendarFreq f) {df : Frame K} {t0 : Timestamp} (h : DatedSeries df t0) (rows : List (SRow K))
    (hp : (df.rows.map fun r => (r.date, r.y, r.weight)).Perm (rows.map fun r => (r.date, r.y, r.weight))) (hc : CompleteRows civilOfDay weekdayOfDay f rows) :
    CompleteSeries civilOfDay weekdayOfDay f df t0 := by
  have hto : ∀ q ∈ df.rows, ∃ r ∈ rows, q.date = r.date := by
    intro q hq
    have hm : (q.date, q.y, q.weight) ∈ rows.map fun r => (r.date, r.y, r.weight) := hp.mem_iff.1 (List.mem_map.2 ⟨q, hq, rfl⟩)
    obtain ⟨r, hr, e⟩ := List.mem_map.1 hm
    exact ⟨r, hr, (congrArg Prod.fst e).symm⟩
  have hof : ∀ r ∈ rows, ∃ q ∈ df.rows, q.date = r.date := by
    intro r hr
    have hm : (r.date, r.y, r.weight) ∈ df.rows.map fun r => (r.date, r.y, r.weight) := hp.mem_iff.2 (List.mem_map.2 ⟨r, hr, rfl⟩)
    obtain ⟨q, hq, e⟩ := List.mem_map.1 hm
    exact ⟨q, hq, congrArg Prod.fst e⟩
  have hday : ∀ q ∈ df.rows, (t0 - q.date) % dayNs = 0 := by
    intro q hq
    have := h.days q hq
    simp only [dayNs]
    omega
  refine ⟨h.dated, h.days, h.sorted, ?_, ?_, ?_⟩
  · intro q hq
    obtain ⟨r, hr, e⟩ := hto q hq
    exact onGrid_moved f hf q.date t0 q.date (hday q hq) (by rw [e]; exact hc.grid r hr r hr)
  · rintro t ht ⟨q, hq, h1⟩ ⟨q', hq', h2⟩
    obtain ⟨r, hr, e⟩ := hto q hq
    obtain ⟨r', hr', e'⟩ := hto q' hq'
    have := hc.full t r hr (e ▸ onGrid_moved f hf t0 q.date t (by have := hday q hq; simp only [dayNs] at *; omega) ht) (e ▸ h1) ⟨r', hr', e' ▸ h2⟩
    obtain ⟨r2, hr2, rfl⟩ := List.mem_map.1 this
    obtain ⟨q2, hq2, e2⟩ := hof r2 hr2
    exact List.mem_map.2 ⟨q2, hq2, e2⟩
  · obtain ⟨r, hr, r', hr', e⟩ := hc.two
    obtain ⟨q, hq, e1⟩ := hof r hr
    obtain ⟨q', hq', e2⟩ := hof r' hr'
    exact ⟨q, hq, q', hq', by rw [e1, e2]; exact e⟩

/-- **C82** for a table of one monthly or yearly series without gaps. -/
theorem C82_complete_table_partial (w : World K) (args : RunArgs K) (id : String) {f : Freq} (hcal : CalendarFreq f) (hyears : (args.years * perYear f).den = 1) (t : STable K)
    (hs : t.hasSource = false) (hone : OnePerDate t) (ht : CompleteRows civilOfDay weekdayOfDay f t.rows)
    (hout : args.findOutliers = false) (hf : Forecastable args.start t.hasWeight t.rows) (global : String → Option (CacheFn K)) (reg : Registry K)
    (hc : Contracts w args id t.rows.length global reg (some f)) : ∃ res, runForecast w args id t = .ok (some res) := by
  obtain ⟨df, hdf, hrun, hw, hp⟩ := series_table w id t hs hone (by obtain ⟨r, hr, -⟩ := ht.two; exact List.ne_nil_of_mem hr)
  have hcomp := complete_series hcal hdf t.rows hp ht
  obtain ⟨h2, hl, i, r, hi, hy, hv⟩ := series_forecastable args.start df t.rows hp (hw ▸ hf)
  obtain ⟨res, hres⟩ := C82_complete_partial w args id hcal hyears df _ hcomp h2 ⟨i, r, hi, hy, hv, by rw [hout]; simp⟩ global reg _ hl (by rw [calendar_freq hcal hcomp]; exact hc)
  exact ⟨res, by rw [hrun, hres]; rfl⟩

/-- **C82** for the models that are used by default, with the scores of the code: any number of series, each of up to 4047 samples and daily, weekly, or monthly or yearly
without gaps. -/
theorem C82_all_default_partial (w : World ℝ) (testEnv : Env ℝ) (hw : DefaultChoices w testEnv) (args : RunArgs ℝ)
    (hq : 0 < args.q1 ∧ args.q1 < 100 ∧ 0 < args.q2 ∧ args.q2 < 100)
    (hargs : args.models.trend = none ∧ args.models.season = none ∧ args.models.yearly = none ∧ args.models.weekly = none ∧ args.models.naive = none ∧ args.models.calendar = none)
    (hout : args.findOutliers = false) (id : String) (t : STable ℝ) (hs : t.hasSource = true) (hne : t.rows ≠ []) (hone : OnePerDate t)
    (hl : ∀ r ∈ t.rows, r.source ≠ none)
    (hsrc : ∀ s, (∃ r ∈ t.rows, r.source = some s) → (only s t).rows.length ≤ 4047 ∧ Forecastable args.start t.hasWeight (only s t).rows ∧
      (DailyRows (only s t).rows ∨ WeeklyRows (only s t).rows ∨
        ∃ f, CalendarFreq f ∧ (args.years * perYear f).den = 1 ∧ CompleteRows civilOfDay weekdayOfDay f (only s t).rows)) :
    ∃ res, runForecast w args id t = .ok (some res) := by
  refine C47_succeeds w args id t hs hne hl ?_
  intro s hm
  obtain ⟨h1, hf, hcase⟩ := hsrc s hm
  rcases hcase with hd | hd | ⟨f, hcal, hyears, hd⟩
  · obtain ⟨df, t0, hdaily, hrun, hw', hp⟩ := daily_source w args id t hs hone hl s hd
    obtain ⟨h2, hlen, i, r, hi, hy, hv⟩ := series_forecastable args.start df _ hp (hw' ▸ hf)
    obtain ⟨res, hres⟩ := C82_total_partial w args s df t0 hdaily h2 ⟨i, r, hi, hy, hv, by rw [hout]; simp⟩ globalCache globalCache _ hlen
      (default_contracts w testEnv hw args hq hargs s _ h1)
    exact ⟨res, by rw [hrun, hres]; rfl⟩
  · obtain ⟨df, hdf, hrun, hw', hp⟩ := series_source w id t hs hone hl s hm
    obtain ⟨h2, hlen, i, r, hi, hy, hv⟩ := series_forecastable args.start df _ hp (hw' ▸ hf)
    obtain ⟨res, hres⟩ := C82_weekly_partial w args s df _ (weekly_series hdf _ hp hd) h2 ⟨i, r, hi, hy, hv, by rw [hout]; simp⟩ globalCache globalCache _ hlen
      (default_contracts w testEnv hw args hq hargs s _ h1 _)
    exact ⟨res, by rw [hrun, hres]; rfl⟩
  · obtain ⟨df, hdf, hrun, hw', hp⟩ := series_source w id t hs hone hl s hm
    obtain ⟨h2, hlen, i, r, hi, hy, hv⟩ := series_forecastable args.start df _ hp (hw' ▸ hf)
    obtain ⟨res, hres⟩ := C82_complete_partial w args s hcal hyears df _ (complete_series hcal hdf _ hp hd) h2 ⟨i, r, hi, hy, hv, by rw [hout]; simp⟩ globalCache globalCache _ hlen
      (default_contracts w testEnv hw args hq hargs s _ h1 _)
    exact ⟨res, by rw [hrun, hres]; rfl⟩

/-! ### Concrete cases -/

/-- The first days of January to April 2021. -/
def monthFrame : Frame ℚ := ⟨true, false, [(0, 5), (31, 7), (59, 6), (90, 9)].map fun p : Int × ℚ => ⟨(18628 + p.1) * DAY, p.1, some p.2, none⟩⟩

theorem month_days : ∀ k : Fin 91, (civilOfDay (18628 + (k : Nat))).2.2 = 1 → (k : Nat) = 0 ∨ (k : Nat) = 31 ∨ (k : Nat) = 59 ∨ (k : Nat) = 90 := by decide +kernel

theorem month_grid (t : Timestamp) (h1 : 18628 * DAY ≤ t) (h2 : t ≤ 18718 * DAY) (h : OnGrid civilOfDay weekdayOfDay .MS (18628 * DAY) t) :
    t = 18628 * DAY ∨ t = 18659 * DAY ∨ t = 18687 * DAY ∨ t = 18718 * DAY := by
  obtain ⟨h3, h4⟩ := h
  simp only [DAY, HOUR, dayNs] at *
  have h5 := month_days ⟨(t / (24 * 60 * 60 * 1000000000) - 18628).toNat, by omega⟩
  have h6 : (18628 : Int) + ((t / (24 * 60 * 60 * 1000000000) - 18628).toNat : Nat) = t / (24 * 60 * 60 * 1000000000) := by omega
  dsimp only at h5
  rw [h6] at h5
  have := h5 h4
  omega

theorem month_series : CompleteSeries civilOfDay weekdayOfDay .MS monthFrame (18628 * DAY) := by
  refine ⟨rfl, by unfold CountsDays; decide +kernel, by decide +kernel, ?_, ?_, ?_⟩
  · have : ∀ r ∈ monthFrame.rows, (r.date - 18628 * DAY) % dayNs = 0 ∧ (civilOfDay (r.date / dayNs)).2.2 = 1 := by decide +kernel
    exact this
  · rintro t h ⟨r, hr, h1⟩ ⟨r', hr', h2⟩
    have a1 : ∀ r ∈ monthFrame.rows, 18628 * DAY ≤ r.date ∧ r.date ≤ 18718 * DAY := by decide +kernel
    rcases month_grid t ((a1 r hr).1.trans h1) (h2.trans (a1 r' hr').2) h with rfl | rfl | rfl | rfl <;> decide +kernel
  · refine ⟨_, List.mem_cons_self, _, List.mem_cons_of_mem _ List.mem_cons_self, ?_, ?_, by decide +kernel, ?_⟩
    · exact (by decide +kernel : ((18628 + 0) * DAY - (18628 + 0) * DAY) % dayNs = 0 ∧ (civilOfDay ((18628 + 0) * DAY / dayNs)).2.2 = 1)
    · exact (by decide +kernel : ((18628 + 31) * DAY - (18628 + 0) * DAY) % dayNs = 0 ∧ (civilOfDay ((18628 + 31) * DAY / dayNs)).2.2 = 1)
    · intro t h1 h2 h
      dsimp only at h1 h2 h
      have h3 := month_grid t (by simp only [DAY, HOUR] at *; omega) (by simp only [DAY, HOUR] at *; omega) h
      simp only [DAY, HOUR] at *
      omega

/-- The hypotheses of `C82_complete_partial` on a concrete series. -/
example : ∃ res, runSingle totalWorld { demoArgs [modelConstant] (some [modelNaive stableSort]) with years := 1 / 4 } "s" monthFrame = .ok res :=
  C82_complete_partial totalWorld _ "s" (.inl rfl) (by decide +kernel) monthFrame _ month_series (by decide +kernel) ⟨0, _, rfl, by decide +kernel, ⟨1, rfl, by norm_num⟩, fun h => by cases h⟩ _ _ 4
    (by decide +kernel)
    ⟨(total_contracts none 4 none).percentiles, (total_contracts none 4 none).test, (total_contracts none 4 _).models, (total_contracts none 4 none).cacheVars, (total_contracts none 4 none).solver,
      (total_contracts none 4 none).score⟩

/-- **C82, counterexample.** For a horizon of a fifth of a year a monthly series gets no forecast, the run ends with ValueError: the calendar offset of 2.4 months
cannot be built. -/
theorem C82_counterexample_months : (match runSingle totalWorld { demoArgs [modelConstant] (some [modelNaive stableSort]) with years := 1 / 5 } "s" monthFrame with
    | .error e => some e | .ok _ => none) = some .valueError := by decide +kernel

/-- The same rows as a table, in another order, as `C82_complete_table_partial` and `C82_all_default_partial` require. -/
def monthTable : STable ℚ := ⟨true, false, false, false, [(59, 6), (0, 5), (90, 9), (31, 7)].map fun p : Int × ℚ => ⟨(18628 + p.1) * DAY, none, 0, some p.2, none⟩⟩

example : CompleteRows civilOfDay weekdayOfDay .MS monthTable.rows := by
  have a1 : ∀ r ∈ monthTable.rows, 18628 * DAY ≤ r.date ∧ r.date ≤ 18718 * DAY ∧ (18628 * DAY - r.date) % dayNs = 0 := by decide +kernel
  refine ⟨?_, ?_, ?_⟩
  · have : ∀ r ∈ monthTable.rows, ∀ r' ∈ monthTable.rows, (r'.date - r.date) % dayNs = 0 ∧ (civilOfDay (r'.date / dayNs)).2.2 = 1 := by decide +kernel
    exact this
  · rintro t r hr h h1 ⟨r', hr', h2⟩
    have h3 := onGrid_moved .MS (.inl rfl) _ (18628 * DAY) t (a1 r hr).2.2 h
    rcases month_grid t ((a1 r hr).1.trans h1) (h2.trans (a1 r' hr').2.1) h3 with rfl | rfl | rfl | rfl <;> decide +kernel
  · obtain ⟨r, hr, r', hr', h⟩ := month_series.two
    have a2 : ∀ r ∈ monthFrame.rows, ∃ q ∈ monthTable.rows, q.date = r.date := by decide +kernel
    obtain ⟨q, hq, e⟩ := a2 r hr
    obtain ⟨q', hq', e'⟩ := a2 r' hr'
    exact ⟨q, hq, q', hq', by rw [e, e']; exact h⟩

end Anticipy
