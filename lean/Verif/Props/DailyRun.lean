import Verif.Spec.DailyRun
import Verif.Props.Interpolate
import Verif.Props.RowOrder
import Verif.Props.Naive
import Verif.Props.RunExamples

/-
Runs on daily series.
-/
namespace Anticipy
open Spec

/-! ### Consecutive days -/

theorem pairs_map {α β : Type} (f : α → β) (l : List α) : pairs (l.map f) = (pairs l).map fun p => (f p.1, f p.2) := by
  induction l with
  | nil => rfl
  | cons a l ih =>
    cases l with
    | nil => rfl
    | cons b l => simp only [List.map_cons, pairs] at ih ⊢; rw [ih]

theorem adjacent_pair (l : List Int) (h : l.Pairwise (· < ·)) (a : Int) (h1 : a ∈ l) (h2 : a + 1 ∈ l) : (a, a + 1) ∈ pairs l := by
  induction l with
  | nil => cases h1
  | cons c l ih =>
    cases l with
    | nil => simp at h1 h2; omega
    | cons d l =>
      rw [List.pairwise_cons] at h
      obtain ⟨hc, hr⟩ := h
      rcases List.mem_cons.1 h1 with rfl | h1
      · have hd := hc d (by simp)
        rcases List.mem_cons.1 h2 with e | h2
        · omega
        · rcases List.mem_cons.1 h2 with e | h2
          · rw [e]; simp [pairs]
          · have := (List.pairwise_cons.1 hr).1 _ h2
            omega
      · have hca := hc a h1
        rcases List.mem_cons.1 h2 with e | h2
        · omega
        · simp only [pairs, List.mem_cons]
          exact .inr (ih hr h1 h2)

theorem contiguous (l : List Int) (h : ∀ p ∈ pairs l, p.2 = p.1 + 1) (a b x : Int) (ha : a ∈ l) (hb : b ∈ l) (h1 : a ≤ x) (h2 : x ≤ b) : x ∈ l := by
  have key : ∀ (l : List Int), (∀ p ∈ pairs l, p.2 = p.1 + 1) → ∀ c, l.head? = some c → ∀ y, y ∈ l ↔ c ≤ y ∧ y < c + l.length := by
    intro l
    induction l with
    | nil => intro _ c hc; cases hc
    | cons d l ih =>
      intro h c hc y
      cases hc
      cases l with
      | nil => simp; omega
      | cons e l =>
        have he : e = d + 1 := h (d, e) (by simp [pairs])
        have := ih (fun p hp => h p (by simp only [pairs, List.mem_cons]; exact .inr hp)) e rfl y
        rw [List.mem_cons, this, List.length_cons, List.length_cons, List.length_cons]
        omega
  cases l with
  | nil => cases ha
  | cons c l =>
    have k := key (c :: l) h c rfl
    rw [k] at ha hb ⊢
    omega

variable {K : Type}

theorem daily_dates {df : Frame K} {t0 : Timestamp} (h : DailySeries df t0) : df.rows.map Row.date = (df.rows.map Row.x).map fun x => t0 + x * (24 * 60 * 60 * 1000000000) := by
  rw [List.map_map]
  apply List.map_congr_left
  intro r hr
  exact h.days r hr

theorem daily_nodup {df : Frame K} {t0 : Timestamp} (h : DailySeries df t0) : (df.rows.map Row.x).Nodup ∧ (df.rows.map Row.date).Nodup := by
  have h1 : (df.rows.map Row.x).Pairwise (· < ·) := List.pairwise_map.2 h.sorted
  have h2 : (df.rows.map Row.x).Nodup := h1.imp fun h => ne_of_lt h
  refine ⟨h2, ?_⟩
  rw [daily_dates h]
  exact h2.map (fun a b hab => by have hab : t0 + a * _ = t0 + b * _ := hab; omega)

/-- The frequency of a daily series is recognised. -/
theorem daily_freq {df : Frame K} {t0 : Timestamp} (h : DailySeries df t0) : detectFreq (df.rows.map Row.date) = some .D := by
  refine C19_detect_freq civilOfDay civilOfDay_isCalendar weekdayOfDay weekdayOfDay_isWeek .D trivial _ t0 ?_ ?_
  · intro t ht
    obtain ⟨r, hr, rfl⟩ := List.mem_map.1 ht
    have := h.days r hr
    simp only [OnGrid, dayNs]
    omega
  · obtain ⟨r, hr, r', hr', e⟩ := h.daily
    refine ⟨r.date, List.mem_map.2 ⟨r, hr, rfl⟩, r'.date, List.mem_map.2 ⟨r', hr', rfl⟩, ?_⟩
    have h1 := h.days r hr
    have h2 := h.days r' hr'
    simp only [Neighbours, OnGrid, dayNs]
    refine ⟨by omega, by omega, by omega, ?_⟩
    intro t ht1 ht2
    omega

/-- Gap filling beyond the short cut for regular data gives the grid of dates. -/
theorem filled_dates (df out : Frame K) (hd : df.hasDate = true) (hn : (df.rows.map Row.date).Nodup)
    (hc : ¬(nuniqueDiff (dedupBy (fun t : Timestamp => t) (df.rows.map Row.date)) ≤ 1 ∧
      sparseDaily (detectFreq (df.rows.map Row.date)) (diffs (dedupBy (fun t : Timestamp => t) (df.rows.map Row.date))) = false))
    (h : interpolateDf df = .ok out) (a b : Timestamp) (ha : listMin (df.rows.map Row.date) = some a) (hb : listMax (df.rows.map Row.date) = some b) :
    out.rows.map Row.date = dateRange a b ((detectFreq (df.rows.map Row.date)).getD .D) := by
  unfold interpolateDf at h
  simp only [hd, if_true, (hasDup_false _).2 hn, ha, hb] at h
  rw [if_neg hc, if_neg (by simp)] at h
  split at h
  · cases h
  · rename_i xs hxs
    cases h
    have hlen : xs.length = (dateRange a b ((detectFreq (df.rows.map Row.date)).getD .D)).length := by
      rw [(toIntCol_spec _ _ hxs).1, interpolateCol, interpolateFrom_length, List.length_map, List.length_map]
    exact fillRows_dates _ df.rows xs hlen

/-- Gap filling of a daily series: every day between the first and the last sample, x still counting the days. -/
theorem daily_interpolated {df : Frame K} {t0 : Timestamp} (h : DailySeries df t0) :
    ∃ out, interpolateDf df = .ok out ∧ out.hasDate = true ∧ CountsDays out t0 ∧ out.rows.Pairwise (fun a b => a.x < b.x) ∧
      (∀ r ∈ df.rows, r ∈ out.rows) ∧ (∀ r ∈ out.rows, r ∈ df.rows ∨ (r.x ∉ df.rows.map Row.x ∧ r.y = none)) ∧
      (∀ a ∈ out.rows, ∀ b ∈ out.rows, ∀ x, a.x ≤ x → x ≤ b.x → ∃ r ∈ out.rows, r.x = x) := by
  obtain ⟨hnx, hnd⟩ := daily_nodup h
  have hfreq := daily_freq h
  obtain ⟨out, hout, hx⟩ := C25_x_consistent_partial weekdayOfDay weekdayOfDay_isWeek df h.dated (by
    intro r hr r' hr'
    have h1 := h.days r hr
    have h2 := h.days r' hr'
    simp only [dayNs]
    omega) hnd (by rw [hfreq]; exact .inl rfl)
  obtain ⟨q, hq, -⟩ := h.daily
  have hdays : CountsDays out t0 := by
    intro r hr
    have h1 := hx r hr q hq
    have h2 := h.days q hq
    simp only [dayNs] at h1
    omega
  refine ⟨out, hout, ?_⟩
  rcases C25_fill civilOfDay civilOfDay_isCalendar weekdayOfDay weekdayOfDay_isWeek df out h.dated hout (by
    intro r hr r' hr'
    have h1 := h.days r hr
    have h2 := h.days r' hr'
    left
    simp only [dayNs]
    omega) with rfl | ⟨first, hf, last, hl, hfl, hd, -, hsort, hgrid, hkeep, hnew⟩
  · refine ⟨h.dated, hdays, h.sorted, fun r hr => hr, fun r hr => .inl hr, ?_⟩
    have hsx : (out.rows.map Row.x).Pairwise (· < ·) := List.pairwise_map.2 h.sorted
    by_cases hc : nuniqueDiff (dedupBy (fun t : Timestamp => t) (out.rows.map Row.date)) ≤ 1 ∧
      sparseDaily (detectFreq (out.rows.map Row.date)) (diffs (dedupBy (fun t : Timestamp => t) (out.rows.map Row.date))) = false
    · have hone : ∀ p ∈ pairs (out.rows.map Row.x), p.2 = p.1 + 1 := by
        obtain ⟨r, hr, r', hr', e⟩ := h.daily
        have hadj := adjacent_pair _ hsx r.x (List.mem_map.2 ⟨r, hr, rfl⟩) (List.mem_map.2 ⟨r', hr', e⟩)
        have hded : dedupBy (fun t : Timestamp => t) (out.rows.map Row.date) = out.rows.map Row.date :=
          dedupBy_of_nodup _ _ hnd
        rw [hded] at hc
        have hlen : (dedupBy (fun d : Int => d) (diffs (out.rows.map Row.date))).length ≤ 1 := hc.1
        have hmem : ∀ p ∈ pairs (out.rows.map Row.x), (p.2 - p.1) * (24 * 60 * 60 * 1000000000) ∈ dedupBy (fun d : Int => d) (diffs (out.rows.map Row.date)) := by
          intro p hp
          rw [mem_dedup]
          unfold diffs
          rw [daily_dates h, pairs_map, List.map_map]
          refine List.mem_map.2 ⟨p, hp, ?_⟩
          simp only [Function.comp]
          ring
        intro p hp
        have m1 := hmem p hp
        have m2 := hmem _ hadj
        match hl : dedupBy (fun d : Int => d) (diffs (out.rows.map Row.date)), hlen with
        | [], _ => rw [hl] at m1; cases m1
        | [d], _ =>
          rw [hl] at m1 m2
          simp only [List.mem_singleton] at m1 m2
          omega
      intro a ha b hb x h1 h2
      obtain ⟨r, hr, e⟩ := List.mem_map.1 (contiguous _ hone a.x b.x x (List.mem_map.2 ⟨a, ha, rfl⟩) (List.mem_map.2 ⟨b, hb, rfl⟩) h1 h2)
      exact ⟨r, hr, e⟩
    · have hdates := filled_dates out out h.dated hnd hc hout
      intro a ha b hb x h1 h2
      have e1 := h.days a ha
      have e2 := h.days b hb
      have hab : listMin (out.rows.map Row.date) ≠ none := by
        intro hn
        have := (listMin_none _).1 hn
        rw [List.map_eq_nil_iff] at this
        rw [this] at ha
        cases ha
      obtain ⟨m, hm⟩ := Option.ne_none_iff_exists'.1 hab
      have hab' : listMax (out.rows.map Row.date) ≠ none := by
        intro hn
        have := (listMax_none _).1 hn
        rw [List.map_eq_nil_iff] at this
        rw [this] at ha
        cases ha
      obtain ⟨M, hM⟩ := Option.ne_none_iff_exists'.1 hab'
      obtain ⟨hm1, hm2⟩ := (listMin_some _ _).1 hm
      obtain ⟨hM1, hM2⟩ := (listMax_some _ _).1 hM
      have hin := hdates m M hm hM
      rw [hfreq] at hin
      have k1 := hm2 _ (List.mem_map.2 ⟨a, ha, rfl⟩)
      have k2 := hM2 _ (List.mem_map.2 ⟨b, hb, rfl⟩)
      obtain ⟨rm, hrm, em⟩ := List.mem_map.1 hm1
      have k3 := h.days rm hrm
      have : t0 + x * (24 * 60 * 60 * 1000000000) ∈ out.rows.map Row.date := by
        rw [hin]
        refine (mem_dateRange .D trivial _ _ _ (.inr (.inl rfl))).2 ⟨by omega, by omega, ?_⟩
        simp only [OnGrid, dayNs]
        omega
      obtain ⟨r, hr, e⟩ := List.mem_map.1 this
      refine ⟨r, hr, ?_⟩
      have := h.days r hr
      omega
  · refine ⟨hd, hdays, ?_, ?_, ?_, ?_⟩
    · rw [List.pairwise_map] at hsort
      rw [List.pairwise_iff_forall_sublist] at hsort ⊢
      intro a b hab
      have h0 := hsort hab
      have h1 := hdays a (hab.subset (by simp))
      have h2 := hdays b (hab.subset (by simp))
      omega
    · intro r hr
      refine hkeep r hr ((hgrid r.date).2 ⟨(hfl r hr).1, (hfl r hr).2, ?_⟩)
      rw [hfreq]
      have h1 := h.days r hr
      have h2 := h.days first hf
      simp only [Option.getD_some, OnGrid, dayNs]
      omega
    · intro r hr
      rcases hnew r hr with h1 | ⟨h1, h2, -⟩
      · exact .inl h1
      · refine .inr ⟨?_, h2⟩
        intro hc
        obtain ⟨r', hr', e⟩ := List.mem_map.1 hc
        refine h1 (List.mem_map.2 ⟨r', hr', ?_⟩)
        rw [h.days r' hr', hdays r hr, e]
    · intro a ha b hb x h1 h2
      have e0 := h.days first hf
      have e1 := h.days last hl
      have e2 := hdays a ha
      have e3 := hdays b hb
      have e4 := ((hgrid a.date).1 (List.mem_map.2 ⟨a, ha, rfl⟩)).1
      have e5 := ((hgrid b.date).1 (List.mem_map.2 ⟨b, hb, rfl⟩)).2.1
      have : t0 + x * (24 * 60 * 60 * 1000000000) ∈ out.rows.map Row.date := by
        rw [hgrid]
        refine ⟨by omega, by omega, ?_⟩
        rw [hfreq]
        simp only [Option.getD_some, OnGrid, dayNs]
        omega
      obtain ⟨r, hr, e⟩ := List.mem_map.1 this
      refine ⟨r, hr, ?_⟩
      have := hdays r hr
      omega

/-! ### The table handed to the naive models -/

variable [Field K] [LinearOrder K]

/-- Samples used in a fit, as a part of the series. -/
structure UsedPart (df : Frame K) (used : List (Row K)) : Prop where
  nodup : (used.map Row.x).Nodup
  positive : ∀ u ∈ used, ∃ w, u.weight = some w ∧ 0 < w
  part : ∀ u ∈ used, ∃ r ∈ df.rows, u.date = r.date ∧ u.x = r.x ∧ u.y = r.y

theorem mergeWeight_single (used : List (Row K)) (hn : (used.map Row.x).Nodup) (r : Row K) :
    (r.x ∉ used.map Row.x ∧ mergeWeight used r = [{ r with weight := some 0, y := none }]) ∨
    ∃ u ∈ used, u.x = r.x ∧ mergeWeight used r = [{ r with weight := some (u.weight.getD 0), y := if (0 : K) < u.weight.getD 0 then r.y else none }] := by
  unfold mergeWeight
  match hl : used.filter fun u => decide (u.x = r.x) with
  | [] =>
    left
    refine ⟨?_, by rw [hl]⟩
    intro hc
    obtain ⟨u, hu, e⟩ := List.mem_map.1 hc
    have : u ∈ used.filter fun u => decide (u.x = r.x) := List.mem_filter.2 ⟨hu, by simpa using e⟩
    rw [hl] at this
    cases this
  | [u] =>
    right
    have : u ∈ used.filter fun u => decide (u.x = r.x) := by rw [hl]; simp
    obtain ⟨h1, h2⟩ := List.mem_filter.1 this
    exact ⟨u, h1, by simpa using h2, by rw [hl]; rfl⟩
  | u :: v :: l =>
    exfalso
    have hsub : (u :: v :: l).Sublist used := hl ▸ List.filter_sublist
    have h1 := (hsub.map Row.x).nodup hn
    have hu : u ∈ used.filter fun u => decide (u.x = r.x) := by rw [hl]; simp
    have hv : v ∈ used.filter fun u => decide (u.x = r.x) := by rw [hl]; simp
    have e1 : u.x = r.x := by simpa using (List.mem_filter.1 hu).2
    have e2 : v.x = r.x := by simpa using (List.mem_filter.1 hv).2
    simp [e1, e2] at h1

/-- Properties of the table of actuals that the naive models see in a run on a daily series. -/
structure DailyActuals (t0 : Timestamp) (used : List (Row K)) (act : Frame K) : Prop where
  dated : act.hasDate = true
  days : CountsDays act t0
  sorted : act.rows.Pairwise fun a b => a.x < b.x
  values : ∀ a ∈ act.rows, ∀ v, a.y = some v → ∃ u ∈ used, u.x = a.x ∧ u.y = some v
  all : ∀ u ∈ used, ∃ a ∈ act.rows, a.x = u.x ∧ a.y = u.y
  contiguous : ∀ a ∈ act.rows, ∀ b ∈ act.rows, ∀ x, a.x ≤ x → x ≤ b.x → ∃ r ∈ act.rows, r.x = x

theorem daily_actuals (srt : SortAlg) {df : Frame K} {t0 : Timestamp} (h : DailySeries df t0) (used : Frame K) (hu : UsedPart df used.rows) :
    ∃ act, actualsInterpolated srt df used = .ok act ∧ DailyActuals t0 used.rows act := by
  obtain ⟨out, h0, h1, h2, h3, h4, h5, h6⟩ := daily_interpolated h
  refine ⟨_, by unfold actualsInterpolated; rw [h0]; rfl, ?_⟩
  have hperm := srt.perm (fun a b : Row K => decide (a.x ≤ b.x)) out.rows
  have hsort := srt.sorted (fun a b : Row K => decide (a.x ≤ b.x)) out.rows
    (by simp only [decide_eq_true_eq]; intros; omega) (by simp only [Bool.or_eq_true, decide_eq_true_eq]; intros; omega)
  have hmem : ∀ a, a ∈ (srt.run (fun a b : Row K => decide (a.x ≤ b.x)) out.rows).flatMap (mergeWeight used.rows) ↔
      ∃ o ∈ out.rows, a ∈ mergeWeight used.rows o := by
    intro a
    rw [List.mem_flatMap]
    simp only [hperm.mem_iff]
  have hone : ∀ o, ∃ w y, mergeWeight used.rows o = [{ o with weight := w, y := y }] ∧
      (∀ v, y = some v → (∃ u ∈ used.rows, u.x = o.x) ∧ o.y = some v) ∧ ((∃ u ∈ used.rows, u.x = o.x) → y = o.y) := by
    intro o
    rcases mergeWeight_single used.rows hu.nodup o with ⟨n, e⟩ | ⟨u, hu1, hu2, e⟩
    · refine ⟨_, _, e, (by intro v hv; cases hv), ?_⟩
      rintro ⟨u, hu1, hu2⟩
      exact absurd (List.mem_map.2 ⟨u, hu1, hu2⟩) n
    · obtain ⟨w, hw, hpos⟩ := hu.positive u hu1
      refine ⟨_, _, e, ?_, ?_⟩
      · intro v hv
        rw [hw, Option.getD_some, if_pos hpos] at hv
        exact ⟨⟨u, hu1, hu2⟩, hv⟩
      · intro _
        rw [hw, Option.getD_some, if_pos hpos]
  have hnx : (df.rows.map Row.x).Nodup := (daily_nodup h).1
  have hox : (out.rows.map Row.x).Nodup := (List.pairwise_map.2 h3).imp fun h => ne_of_lt h
  have hsame : ∀ o ∈ out.rows, ∀ r ∈ df.rows, o.x = r.x → o = r := by
    intro o ho r hr e
    exact List.inj_on_of_nodup_map hox ho (h4 r hr) e
  refine ⟨h1, ?_, ?_, ?_, ?_, ?_⟩
  · intro a ha
    obtain ⟨o, ho, hao⟩ := (hmem a).1 ha
    obtain ⟨w, y, e, -⟩ := hone o
    rw [e, List.mem_singleton] at hao
    subst hao
    exact h2 o ho
  · dsimp only
    rw [List.pairwise_flatMap]
    constructor
    · intro o _
      obtain ⟨w, y, e, -⟩ := hone o
      rw [e]
      exact List.pairwise_singleton _ _
    · have hlt : (srt.run (fun a b : Row K => decide (a.x ≤ b.x)) out.rows).Pairwise fun a b => a.x < b.x := by
        have hn' : (srt.run (fun a b : Row K => decide (a.x ≤ b.x)) out.rows).Pairwise fun a b => a.x ≠ b.x := by
          have := (hperm.map Row.x).nodup_iff.2 hox
          exact List.pairwise_map.1 this
        refine (hsort.and hn').imp ?_
        rintro a b ⟨h1, h2⟩
        rw [decide_eq_true_eq] at h1
        omega
      refine hlt.imp ?_
      intro a b hab x hx y hy
      obtain ⟨w, y', e, -⟩ := hone a
      obtain ⟨w2, y2, e2, -⟩ := hone b
      rw [e, List.mem_singleton] at hx
      rw [e2, List.mem_singleton] at hy
      subst hx hy
      exact hab
  · intro a ha v hv
    obtain ⟨o, ho, hao⟩ := (hmem a).1 ha
    obtain ⟨w, y, e, k1, -⟩ := hone o
    rw [e, List.mem_singleton] at hao
    subst hao
    obtain ⟨⟨u, hu1, hu2⟩, e3⟩ := k1 v hv
    refine ⟨u, hu1, hu2, ?_⟩
    obtain ⟨r, hr, -, e4, e5⟩ := hu.part u hu1
    rw [e5, ← hsame o ho r hr (by omega), e3]
  · intro u hu1
    obtain ⟨r, hr, -, e4, e5⟩ := hu.part u hu1
    obtain ⟨w, y, e, -, k2⟩ := hone r
    refine ⟨{ r with weight := w, y := y }, (hmem _).2 ⟨r, h4 r hr, by rw [e]; exact List.mem_singleton.2 rfl⟩, e4.symm, ?_⟩
    dsimp only
    rw [k2 ⟨u, hu1, e4⟩, e5]
  · have hx : ∀ x, (∃ o ∈ out.rows, o.x = x) ↔ ∃ a ∈ (srt.run (fun a b : Row K => decide (a.x ≤ b.x)) out.rows).flatMap (mergeWeight used.rows), a.x = x := by
      intro x
      constructor
      · rintro ⟨o, ho, e0⟩
        obtain ⟨w, y, e, -⟩ := hone o
        exact ⟨{ o with weight := w, y := y }, (hmem _).2 ⟨o, ho, by rw [e]; exact List.mem_singleton.2 rfl⟩, e0⟩
      · rintro ⟨a, ha, e0⟩
        obtain ⟨o, ho, hao⟩ := (hmem a).1 ha
        obtain ⟨w, y, e, -⟩ := hone o
        rw [e, List.mem_singleton] at hao
        subst hao
        exact ⟨o, ho, e0⟩
    intro a ha b hb x hxa hxb
    obtain ⟨oa, hoa, ea⟩ := (hx a.x).2 ⟨a, ha, rfl⟩
    obtain ⟨ob, hob, eb⟩ := (hx b.x).2 ⟨b, hb, rfl⟩
    exact (hx x).1 (h6 oa hoa ob hob x (by omega) (by omega))

/-! ### Forecast rows of a run -/

variable [FloorRing K] [IsStrictOrderedRing K]

theorem used_part {df : Frame K} {t0 : Timestamp} (h : DailySeries df t0) (find : Bool) (start : Option Timestamp) (df2 : Frame K)
    (h2 : applyOutliers find (filterStart start df) = .ok df2) : UsedPart df (usedRows (defaultWeights df2).1).rows := by
  obtain ⟨u1, u2, u3, u4, u5⟩ := used_rows find start df df2 h2
  refine ⟨?_, ?_, ?_⟩
  · have h1 : ((usedRows (defaultWeights df2).1).rows.map Row.x).Sublist ((kept start df).map Row.x) := by
      rw [← u4]
      exact List.filter_sublist.map _
    exact (h1.trans (List.filter_sublist.map _)).nodup (daily_nodup h).1
  · intro u hu
    have := (List.mem_filter.1 hu).2
    rw [decide_eq_true_iff] at this
    obtain ⟨w, hw, hp⟩ := this
    exact ⟨w, hw, hp⟩
  · intro u hu
    obtain ⟨q, h1, h2, h3, h4, -⟩ := u5 u hu
    exact ⟨q, (List.mem_filter.1 h1).1, h2, h3, h4⟩

/-- What is known about a forecast row of a run on a daily series. -/
structure EvaluatedRow (args : RunArgs K) (df : Frame K) (t0 : Timestamp) (res : RunResult K) (m : ForecastModel K) (r : DRow K) where
  used : List (Row K)
  act : Frame K
  hact : DailyActuals t0 used act
  usable : ∀ u ∈ used, u.y ≠ none → ∃ a, UsableActual res a ∧ a.date = t0 + u.x * (24 * 60 * 60 * 1000000000) ∧ a.y = u.y
  complete : ∀ a, UsableActual res a → ∃ u ∈ used, a.date = t0 + u.x * (24 * 60 * 60 * 1000000000) ∧ u.y = a.y
  x0 : Int
  hx0 : ∃ u ∈ used, u.x = x0
  ds : List Timestamp
  hds : ∃ e, ds = dateRange (t0 + x0 * (24 * 60 * 60 * 1000000000)) e .D
  p : List K
  arr : Arr K
  l : List (Int × Option K)
  value : m.fModel { ax := scaleX m (ds.map fun t => (t - t0) / (24 * 60 * 60 * 1000000000)), adate := some ds, actuals := some act } (some p) false = .ok arr
  series : seriesOf ds arr = .ok l
  mem : (r.date, r.y) ∈ l
  some : r.y ≠ none

theorem row_evaluated (w : World K) (args : RunArgs K) (source : String) (df : Frame K) (res : RunResult K)
    (h : runSingle w args source df = .ok res) (m : ForecastModel K)
    (hcand : ∀ df' cand, candidates w.ch args.models df' (runFreq df) = .ok cand → ∀ m' ∈ cand.2, m'.name = m.name → m' = m)
    (t0 : Timestamp) (hdaily : DailySeries df t0) (r : DRow K) (hr : r ∈ res.data) (hact : r.isActuals = false) (hm : r.model = m.name) :
    Nonempty (EvaluatedRow args df t0 res m r) := by
  obtain ⟨d, hd, hdata, -, -⟩ := runSingle_inv w args source df res h
  obtain ⟨st⟩ := runFits_stages w args source df d hd
  have hd1 : d.1 = _ := congrArg Prod.fst st.hd
  have hr1 : r ∈ d.1 := by
    rw [hdata] at hr
    unfold selectFits at hr
    split_ifs at hr
    · exact hr
    · exact (List.mem_filter.1 hr).1
  rw [hd1] at hr1
  obtain ⟨q, hq, rfl⟩ := List.mem_map.1 hr1
  rcases List.mem_append.1 hq with hq | hq
  · unfold actualsClean at hq
    obtain ⟨q', -, rfl⟩ := List.mem_map.1 hq
    cases hact
  · obtain ⟨k, m', f, rows, e1, e2, e3, e4⟩ := (fitLoop_spec _ _ _ _ _ st.hFits).2.2 q hq
    obtain ⟨-, hy, -, hname, -, hfit, -⟩ := forecastRows_mem _ _ _ _ e3 q e4
    have hmm : m' = m := hcand _ _ st.hCand m' (List.mem_of_getElem? e1) (by rw [← hname]; exact hm)
    subst hmm
    obtain ⟨u1, u2, u3, u4, u5⟩ := used_rows args.findOutliers args.start df st.df2 st.hOut
    have hpart := used_part hdaily args.findOutliers args.start st.df2 st.hOut
    obtain ⟨act, hact1, hact2⟩ := daily_actuals w.srt hdaily _ hpart
    rw [st.hAct] at hact1
    cases hact1
    simp only [mkSetup] at e3
    unfold forecastRows at e3
    rw [if_pos hfit] at e3
    dsimp only at e3
    have hdd : ∀ q ∈ (usedRows (defaultWeights st.df2).1).rows, q.date = t0 + q.x * (24 * 60 * 60 * 1000000000) := by
      intro q hq
      obtain ⟨q', h1, h2, h3, -⟩ := hpart.part q hq
      rw [h2, h3]
      exact hdaily.days q' h1
    have hdf : (defaultWeights st.df2).1.hasDate = true := u1.trans hdaily.dated
    cases h1 : listMin (axisOf (usedRows (defaultWeights st.df2).1)) with
    | none => rw [h1] at e3; cases e3
    | some start =>
      cases h2 : listMin ((usedRows (defaultWeights st.df2).1).rows.map Row.x) with
      | none => rw [h1, h2] at e3; cases e3
      | some x0 =>
        rw [h1, h2] at e3
        obtain ⟨m2, l2⟩ := (listMin_some _ _).1 h2
        obtain ⟨q2, n2, rfl⟩ := List.mem_map.1 m2
        have hstart : start = t0 + q2.x * (24 * 60 * 60 * 1000000000) := by
          unfold axisOf at h1
          rw [u1, hdaily.dated, if_pos rfl] at h1
          obtain ⟨m1, l1⟩ := (listMin_some _ _).1 h1
          obtain ⟨q1, n1, rfl⟩ := List.mem_map.1 m1
          have a1 := l1 _ (List.mem_map.2 ⟨q2, n2, rfl⟩)
          have a2 := l2 _ (List.mem_map.2 ⟨q1, n1, rfl⟩)
          have b1 := hdd q1 n1
          have b2 := hdd q2 n2
          omega
        dsimp only at e3
        simp only [bind, Except.bind] at e3
        cases h3 : extrapolate m' f.params (usedRows (defaultWeights st.df2).1).hasDate start ((listMax (axisOf (defaultWeights st.df2).1)).getD 0)
            (runFreq df) args.years q2.x st.actuals with
        | error e => rw [h3] at e3; cases e3
        | ok l =>
          rw [h3] at e3
          have e3 := Except.ok.inj e3
          rw [← e3] at e4
          unfold fcastClean at e4
          obtain ⟨p, hp, rfl⟩ := List.mem_map.1 e4
          have hp := (List.mem_filter.1 hp).1
          have hfreq : runFreq df = some .D := by unfold runFreq; rw [hdaily.dated, if_pos rfl, daily_freq hdaily]
          unfold extrapolate at h3
          rw [u1, hdaily.dated, hfreq] at h3
          simp only [if_true, bind, Except.bind, sxExtrapolateDate, addHorizon, List.map_map, Function.comp_def, List.map_id'] at h3
          generalize he : ((listMax (axisOf (defaultWeights st.df2).1)).getD 0) + ⌊args.years * unitsPerYear .D * (DAY : ℚ)⌋ = e at h3
          have hx : (dateRange start e .D).map (fun t => (t - start) / DAY + q2.x) = (dateRange start e .D).map fun t => (t - t0) / (24 * 60 * 60 * 1000000000) := by
            apply List.map_congr_left
            intro t _
            rw [hstart]
            simp only [DAY, HOUR]
            omega
          rw [hx] at h3
          cases h4 : m'.fModel { ax := scaleX m' ((dateRange start e .D).map fun t => (t - t0) / (24 * 60 * 60 * 1000000000)), adate := some (dateRange start e .D), actuals := some st.actuals } (some f.params) false with
          | error e => rw [h4] at h3; cases h3
          | ok arr =>
            rw [h4] at h3
            have hsel : ∀ a, a ∈ res.data ∧ a.isActuals = true ↔ ∃ q ∈ (defaultWeights st.df2).1.rows, a = flagData (bestKey w.srt st.fits.1)
                { date := q.date, source := source, long := ⟨(defaultWeights st.df2).2, runFreq df, st.range⟩, model := "actuals", isActuals := true,
                  y := q.y, weight := q.weight, isBest := false } := by
              intro a
              have hin : a ∈ res.data ∧ a.isActuals = true ↔ a ∈ d.1 ∧ a.isActuals = true := by
                rw [hdata]
                unfold selectFits
                split_ifs
                · rfl
                · rw [List.mem_filter]
                  constructor
                  · rintro ⟨⟨h1, -⟩, h2⟩; exact ⟨h1, h2⟩
                  · rintro ⟨h1, h2⟩; exact ⟨⟨h1, by simp [h2]⟩, h2⟩
              rw [hin, hd1]
              constructor
              · rintro ⟨ha, hb⟩
                obtain ⟨q, hq, rfl⟩ := List.mem_map.1 ha
                rcases List.mem_append.1 hq with hq | hq
                · unfold actualsClean at hq
                  obtain ⟨q', hq', rfl⟩ := List.mem_map.1 hq
                  exact ⟨q', hq', by rw [hdf]; rfl⟩
                · obtain ⟨k, m'', f, rows, -, -, e3, e4⟩ := (fitLoop_spec _ _ _ _ _ st.hFits).2.2 q hq
                  have := (forecastRows_mem _ _ _ _ e3 q e4).1
                  have hb : q.isActuals = true := hb
                  rw [this] at hb
                  cases hb
              · rintro ⟨q, hq, rfl⟩
                refine ⟨List.mem_map.2 ⟨_, List.mem_append.2 (.inl ?_), rfl⟩, rfl⟩
                unfold actualsClean
                refine List.mem_map.2 ⟨q, hq, ?_⟩
                rw [hdf]
                rfl
            refine ⟨{ used := _, act := st.actuals, hact := hact2, usable := ?_, complete := ?_, x0 := q2.x, hx0 := ⟨q2, n2, rfl⟩, ds := dateRange start e .D, hds := ⟨e, by rw [hstart]⟩, p := f.params, arr := arr, l := l, value := h4, series := h3, mem := hp, some := hy }⟩
            · intro u hu hne
              obtain ⟨hu1, hu2⟩ := List.mem_filter.1 hu
              obtain ⟨wt, hw, hp⟩ := hpart.positive u hu
              obtain ⟨ha, hb⟩ := (hsel _).2 ⟨u, hu1, rfl⟩
              exact ⟨_, ⟨ha, hb, hne, wt, hw, hp⟩, hdd u hu, rfl⟩
            · rintro a ⟨ha, hb, hc, wt, hw, hp⟩
              obtain ⟨q, hq, rfl⟩ := (hsel a).1 ⟨ha, hb⟩
              have hin : q ∈ (usedRows (defaultWeights st.df2).1).rows := List.mem_filter.2 ⟨hq, by rw [decide_eq_true_iff]; exact ⟨wt, hw, hp⟩⟩
              exact ⟨q, hin, hdd q hin, rfl⟩

/-! ### C81: naive forecasts -/

/-- Coordinates and dates of the grid of a forecast. -/
theorem grid_points {m : ForecastModel K} {args : RunArgs K} {df : Frame K} {t0 : Timestamp} {res : RunResult K} {r : DRow K}
    (e : EvaluatedRow args df t0 res m r) (hs : ¬(m.name = "logistic" ∨ m.name = "sigmoid")) :
    (∀ t ∈ e.ds, t = t0 + (t - t0) / (24 * 60 * 60 * 1000000000) * (24 * 60 * 60 * 1000000000) ∧ e.x0 ≤ (t - t0) / (24 * 60 * 60 * 1000000000)) ∧
    scaleX m (e.ds.map fun t => (t - t0) / (24 * 60 * 60 * 1000000000)) = e.ds.map (fun t => (((t - t0) / (24 * 60 * 60 * 1000000000) : Int) : K)) ∧
    (e.ds.map fun t => (((t - t0) / (24 * 60 * 60 * 1000000000) : Int) : K)).Pairwise (· < ·) := by
  have h1 : ∀ t ∈ e.ds, t = t0 + (t - t0) / (24 * 60 * 60 * 1000000000) * (24 * 60 * 60 * 1000000000) ∧ e.x0 ≤ (t - t0) / (24 * 60 * 60 * 1000000000) := by
    intro t ht
    obtain ⟨stop, hds⟩ := e.hds
    rw [hds] at ht
    obtain ⟨g1, -, g2⟩ := (mem_dateRange .D trivial _ _ _ (.inr (.inl rfl))).1 ht
    simp only [OnGrid, dayNs] at g2
    omega
  refine ⟨h1, ?_, ?_⟩
  · unfold scaleX
    rw [if_neg hs, List.map_map]
    rfl
  · rw [List.pairwise_map]
    have : e.ds.Pairwise (· < ·) := by
      obtain ⟨stop, hds⟩ := e.hds
      rw [hds]
      exact dateRange_sorted _ _ _
    rw [List.pairwise_iff_forall_sublist] at this ⊢
    intro a b hab
    have h2 := this hab
    have ha := (h1 a (hab.subset (by simp))).1
    have hb := (h1 b (hab.subset (by simp))).1
    rw [Int.cast_lt]
    omega

theorem vec_at {ds : List Timestamp} {out : List (Option K)} {l : List (Int × Option K)} (h : seriesOf ds (.vec out) = .ok l) (t : Timestamp) (y : Option K)
    (hm : (t, y) ∈ l) : ∃ i : Nat, ds[i]? = some t ∧ out[i]? = some y := by
  simp only [seriesOf] at h
  split_ifs at h with hl
  cases h
  obtain ⟨i, hi⟩ := List.getElem?_of_mem hm
  rw [List.getElem?_zip_eq_some] at hi
  exact ⟨i, hi⟩

/-- **C81.** On a daily series, every prediction of the naive model is the last non-null observation with positive weight strictly before its date; on dates without
such an observation it is the first one. -/
theorem C81_naive (w : World K) (args : RunArgs K) (source : String) (df : Frame K) (res : RunResult K) (h : runSingle w args source df = .ok res)
    (hcand : ∀ df' cand, candidates w.ch args.models df' (runFreq df) = .ok cand → ∀ m ∈ cand.2, m.name = "naive" → m = modelNaive w.srt)
    (t0 : Timestamp) (hdaily : DailySeries df t0) (r : DRow K) (hr : r ∈ res.data) (hact : r.isActuals = false) (hm : r.model = "naive") :
    ∃ a, UsableActual res a ∧ r.y = a.y ∧
      ((a.date < r.date ∧ ∀ b, UsableActual res b → b.date < r.date → b.date ≤ a.date) ∨
        ((∀ b, UsableActual res b → r.date ≤ b.date) ∧ ∀ b, UsableActual res b → a.date ≤ b.date)) := by
  obtain ⟨e⟩ := row_evaluated w args source df res h (modelNaive w.srt) hcand t0 hdaily r hr hact hm
  obtain ⟨g1, g2, g3⟩ := grid_points e (by simp [modelNaive, modelSnaiveWday, mkModel])
  have hv := e.value
  rw [g2] at hv
  obtain ⟨out, ho, hlen, hval⟩ := C37_naive w.srt
    { ax := e.ds.map fun t => (((t - t0) / (24 * 60 * 60 * 1000000000) : Int) : K), adate := some e.ds, actuals := some e.act } e.act (some e.p) false rfl rfl
    (by
      refine ⟨by intro ds hds; cases hds; simp, ?_⟩
      intro _
      refine ⟨e.ds, rfl, ?_⟩
      intro i x d hx hd q hq hqx
      rw [List.getElem?_map, hd] at hx
      cases hx
      have hq2 : q.x = (d - t0) / (24 * 60 * 60 * 1000000000) := Int.cast_injective (α := K) hqx
      have h1 := (g1 d (List.mem_of_getElem? hd)).1
      have h2 := e.hact.days q hq
      rw [h2, hq2]
      exact h1.symm)
    g3 ((List.pairwise_map.2 e.hact.sorted).imp fun h => ne_of_lt h)
  rw [ho] at hv
  have hv := Except.ok.inj hv
  have hs := e.series
  rw [← hv] at hs
  obtain ⟨i, hi1, hi2⟩ := vec_at hs _ _ e.mem
  obtain ⟨v, hy⟩ := Option.ne_none_iff_exists'.1 e.some
  have hd := (g1 _ (List.mem_of_getElem? hi1)).1
  obtain ⟨k1, k2⟩ := hval i (((r.date - t0) / (24 * 60 * 60 * 1000000000) : Int) : K) (by rw [List.getElem?_map, hi1]; rfl)
  -- observations and rows of the table of actuals
  have hto : ∀ b, UsableActual res b → ∃ q ∈ e.act.rows, b.date = t0 + q.x * (24 * 60 * 60 * 1000000000) ∧ q.y ≠ none := by
    intro b hb
    obtain ⟨u, hu, h1, h2⟩ := e.complete b hb
    obtain ⟨q, hq, h3, h4⟩ := e.hact.all u hu
    exact ⟨q, hq, by rw [h1, h3], by rw [h4, h2]; exact hb.2.2.1⟩
  have hfrom : ∀ q ∈ e.act.rows, ∀ v, q.y = some v → ∃ a, UsableActual res a ∧ a.y = some v ∧ a.date = t0 + q.x * (24 * 60 * 60 * 1000000000) := by
    intro q hq v hv
    obtain ⟨u, hu, h1, h2⟩ := e.hact.values q hq v hv
    obtain ⟨a, ha, h3, h4⟩ := e.usable u hu (by rw [h2]; simp)
    exact ⟨a, ha, by rw [h4, h2], by rw [h3, h1]⟩
  by_cases hlast : ∃ v, LastBefore e.act.rows (((r.date - t0) / (24 * 60 * 60 * 1000000000) : Int) : K) v
  · obtain ⟨v', hl⟩ := hlast
    have h1 := k1 v' hl
    rw [hi2, Option.some.injEq] at h1
    obtain ⟨q, hq, hqy, hqx, hqm⟩ := hl
    obtain ⟨a, ha, ha2, ha3⟩ := hfrom q hq v' hqy
    rw [Int.cast_lt] at hqx
    refine ⟨a, ha, by rw [h1, ha2], .inl ⟨by omega, ?_⟩⟩
    intro b hb hlt
    obtain ⟨q', hq', h2, h3⟩ := hto b hb
    have := hqm q' hq' h3 (by rw [Int.cast_lt]; omega)
    omega
  · rcases k2 hlast with h1 | ⟨v', hf, h1⟩
    · rw [hi2, Option.some.injEq] at h1
      exact absurd h1 e.some
    · rw [hi2, Option.some.injEq] at h1
      obtain ⟨q, hq, hqy, hqm⟩ := hf
      obtain ⟨a, ha, ha2, ha3⟩ := hfrom q hq v' hqy
      have hfirst : ∀ b, UsableActual res b → a.date ≤ b.date := by
        intro b hb
        obtain ⟨q', hq', h2, h3⟩ := hto b hb
        have := hqm q' hq' h3
        omega
      refine ⟨a, ha, by rw [h1, ha2], .inr ⟨?_, hfirst⟩⟩
      intro b hb
      by_contra hc
      rw [not_le] at hc
      -- then there is a last observation before
      apply hlast
      obtain ⟨q', hq', h2, h3⟩ := hto b hb
      have hne : (e.act.rows.filter fun q => decide (q.x < (r.date - t0) / (24 * 60 * 60 * 1000000000)) && q.y.isSome).map Row.x ≠ [] := by
        intro hn
        rw [List.map_eq_nil_iff, List.filter_eq_nil_iff] at hn
        apply hn q' hq'
        rw [Bool.and_eq_true, decide_eq_true_iff, Option.isSome_iff_ne_none]
        exact ⟨by omega, h3⟩
      cases hmx : listMax ((e.act.rows.filter fun q => decide (q.x < (r.date - t0) / (24 * 60 * 60 * 1000000000)) && q.y.isSome).map Row.x) with
      | none => exact absurd ((listMax_none _).1 hmx) hne
      | some x =>
        obtain ⟨h4, h5⟩ := (listMax_some _ _).1 hmx
        obtain ⟨q2, hq2, rfl⟩ := List.mem_map.1 h4
        obtain ⟨h6, h7⟩ := List.mem_filter.1 hq2
        rw [Bool.and_eq_true, decide_eq_true_iff, Option.isSome_iff_exists] at h7
        obtain ⟨h7, v2, h8⟩ := h7
        refine ⟨v2, q2, h6, h8, by rw [Int.cast_lt]; exact h7, ?_⟩
        intro q3 hq3 h9 h10
        rw [Int.cast_lt] at h10
        refine h5 _ (List.mem_map.2 ⟨q3, List.mem_filter.2 ⟨hq3, ?_⟩, rfl⟩)
        rw [Bool.and_eq_true, decide_eq_true_iff, Option.isSome_iff_ne_none]
        exact ⟨h10, h9⟩

/-- **C81, seasonal.** On a daily series, every prediction of the seasonal naive model is the last non-null observation with positive weight that lies a
whole number of weeks before its date. -/
theorem C81_seasonal (w : World K) (args : RunArgs K) (source : String) (df : Frame K) (res : RunResult K) (h : runSingle w args source df = .ok res)
    (hcand : ∀ df' cand, candidates w.ch args.models df' (runFreq df) = .ok cand → ∀ m ∈ cand.2, m.name = "snaive_wday" → m = modelSnaiveWday w.srt)
    (t0 : Timestamp) (hdaily : DailySeries df t0) (r : DRow K) (hr : r ∈ res.data) (hact : r.isActuals = false) (hm : r.model = "snaive_wday") :
    ∃ a, UsableActual res a ∧ r.y = a.y ∧ WeeksBefore a.date r.date ∧ ∀ b, UsableActual res b → WeeksBefore b.date r.date → b.date ≤ a.date := by
  obtain ⟨e⟩ := row_evaluated w args source df res h (modelSnaiveWday w.srt) hcand t0 hdaily r hr hact hm
  obtain ⟨g1, g2, g3⟩ := grid_points e (by simp [modelNaive, modelSnaiveWday, mkModel])
  have hv := e.value
  rw [g2] at hv
  obtain ⟨out, ho, hlen, hval⟩ := C38_seasonal_naive w.srt
    { ax := e.ds.map fun t => (((t - t0) / (24 * 60 * 60 * 1000000000) : Int) : K), adate := some e.ds, actuals := some e.act } e.act e.ds (some e.p) false rfl rfl
    e.hact.dated rfl (by simp) g3 e.hact.sorted (by
      intro p hp
      rw [List.zip_map_left] at hp
      obtain ⟨⟨t, t'⟩, hz, rfl⟩ := List.mem_map.1 hp
      have htt : t' = t ∧ t ∈ e.ds := by
        obtain ⟨i, hi⟩ := List.getElem?_of_mem hz
        rw [List.getElem?_zip_eq_some] at hi
        have h2 := hi.2
        rw [hi.1] at h2
        cases h2
        exact ⟨rfl, List.mem_of_getElem? hi.1⟩
      obtain ⟨rfl, ht⟩ := htt
      obtain ⟨h1, h2⟩ := g1 _ ht
      simp only [Prod.map]
      by_cases hfut : ∀ q ∈ e.act.rows, q.x < (t' - t0) / (24 * 60 * 60 * 1000000000)
      · right
        intro q hq
        have h3 := hfut q hq
        have h4 := e.hact.days q hq
        refine ⟨by rw [Int.cast_lt]; exact h3, ?_⟩
        intro h5
        dsimp only [id] at h5
        omega
      · left
        push Not at hfut
        obtain ⟨q, hq, h3⟩ := hfut
        obtain ⟨u, hu, h4⟩ := e.hx0
        obtain ⟨a, ha, h5, -⟩ := e.hact.all u hu
        obtain ⟨q', hq', h6⟩ := e.hact.contiguous a ha q hq _ (by omega) h3
        have h7 := e.hact.days q' hq'
        refine ⟨q', hq', by rw [h6], ?_⟩
        dsimp only [id]
        rw [h7, h6]
        exact h1.symm)
  rw [ho] at hv
  have hv := Except.ok.inj hv
  have hs := e.series
  rw [← hv] at hs
  obtain ⟨i, hi1, hi2⟩ := vec_at hs _ _ e.mem
  have hd := (g1 _ (List.mem_of_getElem? hi1)).1
  obtain ⟨k1, k2⟩ := hval i (((r.date - t0) / (24 * 60 * 60 * 1000000000) : Int) : K) r.date (by rw [List.getElem?_map, hi1]; rfl) hi1
  have hweek : ∀ x : Int, WeeksBefore (t0 + x * (24 * 60 * 60 * 1000000000)) r.date ↔
      x < (r.date - t0) / (24 * 60 * 60 * 1000000000) ∧ weekday (t0 + x * (24 * 60 * 60 * 1000000000)) = weekday r.date := by
    intro x
    unfold WeeksBefore weekday weekdayOfDay dayOf
    simp only [DAY, HOUR]
    omega
  by_cases hlast : ∃ v, LastSameWeekday e.act.rows r.date (((r.date - t0) / (24 * 60 * 60 * 1000000000) : Int) : K) v
  · obtain ⟨v, hl⟩ := hlast
    have h1 := k1 v hl
    rw [hi2, Option.some.injEq] at h1
    obtain ⟨q, hq, hqy, hqx, hqm⟩ := hl
    obtain ⟨hq1, hq2⟩ := List.mem_filter.1 hq
    rw [decide_eq_true_iff] at hq2
    obtain ⟨u, hu, h2, h3⟩ := e.hact.values q hq1 v hqy
    obtain ⟨a, ha, h4, h5⟩ := e.usable u hu (by rw [h3]; simp)
    rw [Int.cast_lt] at hqx
    have hqd := e.hact.days q hq1
    refine ⟨a, ha, by rw [h1, h5, h3], ?_, ?_⟩
    · rw [h4, h2, hweek, ← hqd]
      exact ⟨hqx, hq2⟩
    · intro b hb hbw
      obtain ⟨u', hu', h6, h7⟩ := e.complete b hb
      obtain ⟨q', hq', h8, h9⟩ := e.hact.all u' hu'
      rw [h6, ← h8, hweek] at hbw
      have hqd' := e.hact.days q' hq'
      have := hqm q' (List.mem_filter.2 ⟨hq', by rw [decide_eq_true_iff, hqd']; exact hbw.2⟩) (by rw [h9, h7]; exact hb.2.2.1)
        (by rw [Int.cast_lt]; exact hbw.1)
      omega
  · have h1 := k2 hlast
    rw [hi2, Option.some.injEq] at h1
    exact absurd h1 e.some

/-! ### From the table of the user -/

/-- A request for one daily series is a run on that series with x counting the days. -/
theorem daily_table_base (w : World K) (id : String) (t : STable K) (ht : DailyTable t) : ∃ df, DailySeries df (baseOf t.rows) ∧
    (∀ args, runForecast w args id t = (runSingle w args id df).map some) ∧ df.hasWeight = t.hasWeight ∧
    (df.rows.map fun r => (r.date, r.y, r.weight)).Perm (t.rows.map fun r => (r.date, r.y, r.weight)) := by
  have hne : t.rows ≠ [] := by
    obtain ⟨r, hr, -⟩ := ht.daily
    intro e
    rw [e] at hr
    cases hr
  obtain ⟨out, hn⟩ := (C26_returns w.srt t).2 hne (.inl fun hs => by rw [ht.oneSource] at hs; cases hs)
  obtain ⟨hp, -, -, hod, hso, hwo⟩ := C26_samples w.srt t out hn
  obtain ⟨hd, hlt⟩ := series_base w.srt t out ht.onePerDate hn ""
  have hpart : seriesPart out "" = out.rows := by unfold seriesPart; rw [hso, ht.oneSource]; rfl
  have hbase : baseIn t (some "") = baseOf t.rows := by unfold baseIn; rw [ht.oneSource]; rfl
  rw [hbase] at hd
  rw [hpart] at hd hlt
  have hlab : labelled t.hasSource t.rows = t.rows := by unfold labelled; rw [ht.oneSource]; simp
  rw [hlab] at hp
  refine ⟨frameOf out out.rows, ⟨hod.trans ht.onePerDate.hasDate, ?_, ?_, ?_⟩, ?_, hwo, ?_⟩
  · intro q hq
    obtain ⟨q0, h0, rfl⟩ := List.mem_map.1 hq
    exact hd q0 h0
  · exact List.pairwise_map.2 hlt
  · obtain ⟨r, hr, r', hr', e⟩ := ht.daily
    have hin : ∀ r ∈ t.rows, ∃ q ∈ out.rows, q.date = r.date := by
      intro r hr
      have hm : (r.date, r.source, r.y, r.weight) ∈ samples t.rows := List.mem_map.2 ⟨r, hr, rfl⟩
      obtain ⟨q, hq, e⟩ := List.mem_map.1 (hp.mem_iff.2 hm)
      exact ⟨q, hq, congrArg Prod.fst e⟩
    obtain ⟨q, hq, e1⟩ := hin r hr
    obtain ⟨q', hq', e2⟩ := hin r' hr'
    refine ⟨_, List.mem_map.2 ⟨q, hq, rfl⟩, _, List.mem_map.2 ⟨q', hq', rfl⟩, ?_⟩
    have h1 := hd q hq
    have h2 := hd q' hq'
    dsimp only
    omega
  · intro args
    unfold runForecast
    rw [hn]
    simp only [bind, Except.bind, hso, ht.oneSource, Bool.false_eq_true, if_false]
    cases runSingle w args id (frameOf out out.rows) <;> rfl
  · have := hp.map fun r : Timestamp × Option String × Option K × Option K => (r.1, r.2.2.1, r.2.2.2)
    unfold samples at this
    rw [List.map_map, List.map_map] at this
    unfold frameOf
    rw [List.map_map]
    exact this

theorem daily_table_all (w : World K) (id : String) (t : STable K) (ht : DailyTable t) : ∃ df t0, DailySeries df t0 ∧
    (∀ args, runForecast w args id t = (runSingle w args id df).map some) ∧ df.hasWeight = t.hasWeight ∧
    (df.rows.map fun r => (r.date, r.y, r.weight)).Perm (t.rows.map fun r => (r.date, r.y, r.weight)) := by
  obtain ⟨df, h⟩ := daily_table_base w id t ht
  exact ⟨df, _, h⟩

theorem daily_table (w : World K) (args : RunArgs K) (id : String) (t : STable K) (ht : DailyTable t) : ∃ df t0, DailySeries df t0 ∧
    runForecast w args id t = (runSingle w args id df).map some ∧ df.hasWeight = t.hasWeight ∧
    (df.rows.map fun r => (r.date, r.y, r.weight)).Perm (t.rows.map fun r => (r.date, r.y, r.weight)) := by
  obtain ⟨df, t0, h1, h2, h3⟩ := daily_table_all w id t ht
  exact ⟨df, t0, h1, h2 args, h3⟩

/-- **C81** for a table of one daily series. -/
theorem C81_table (w : World K) (args : RunArgs K) (id : String) (t : STable K) (ht : DailyTable t) (res : RunResult K)
    (h : runForecast w args id t = .ok (some res))
    (hcand : ∀ df fr cand, candidates w.ch args.models df fr = .ok cand → ∀ m ∈ cand.2,
      (m.name = "naive" → m = modelNaive w.srt) ∧ (m.name = "snaive_wday" → m = modelSnaiveWday w.srt))
    (r : DRow K) (hr : r ∈ res.data) (hact : r.isActuals = false) :
    (r.model = "naive" → ∃ a, UsableActual res a ∧ r.y = a.y ∧
      ((a.date < r.date ∧ ∀ b, UsableActual res b → b.date < r.date → b.date ≤ a.date) ∨
        ((∀ b, UsableActual res b → r.date ≤ b.date) ∧ ∀ b, UsableActual res b → a.date ≤ b.date))) ∧
    (r.model = "snaive_wday" →
      ∃ a, UsableActual res a ∧ r.y = a.y ∧ WeeksBefore a.date r.date ∧ ∀ b, UsableActual res b → WeeksBefore b.date r.date → b.date ≤ a.date) := by
  obtain ⟨df, t0, hdaily, hrun, -⟩ := daily_table w args id t ht
  rw [hrun] at h
  have h : runSingle w args id df = .ok res := by
    cases hs : runSingle w args id df with
    | error e => rw [hs] at h; cases h
    | ok q => rw [hs] at h; cases h; rfl
  exact ⟨C81_naive w args id df res h (fun df' cand hc m hm => (hcand df' _ cand hc m hm).1) t0 hdaily r hr hact,
    C81_seasonal w args id df res h (fun df' cand hc m hm => (hcand df' _ cand hc m hm).2) t0 hdaily r hr hact⟩

/-! ### A concrete case -/

/-- Twelve days, latest first; day 4 is missing, day 8 has no value and day 11 has weight zero. -/
def dailyTable : STable ℚ := ⟨true, false, false, true, ([11, 10, 9, 8, 7, 6, 5, 3, 2, 1, 0].map fun i : Nat =>
  ⟨(i : Int) * DAY, none, 0, if i = 8 then none else some (10 * (i : ℚ) + 1), some (if i = 11 then 0 else 1)⟩)⟩

example : DailyTable dailyTable := ⟨rfl, ⟨rfl, rfl, by decide +kernel, by decide +kernel⟩, by decide +kernel⟩

example : ∀ df fr cand, candidates demoWorld.ch (demoArgs [] (some [modelNaive stableSort, modelSnaiveWday stableSort])).models df fr = .ok cand →
    ∀ m ∈ cand.2, (m.name = "naive" → m = modelNaive demoWorld.srt) ∧ (m.name = "snaive_wday" → m = modelSnaiveWday demoWorld.srt) := by
  intro df fr cand h m hm
  have hm' : m = modelNaive stableSort ∨ m = modelSnaiveWday stableSort := by
    cases h
    have := (sortBy_perm nameLe _).mem_iff.1 hm
    have e : getListModel (some []) (some []) AddMult.add = ([] : List (ForecastModel ℚ)) := rfl
    simpa [demoArgs, composedModels, e] using this
  rcases hm' with rfl | rfl
  · exact ⟨fun _ => rfl, fun h => by simp [modelNaive, mkModel] at h⟩
  · exact ⟨fun h => by simp [modelSnaiveWday, mkModel] at h, fun _ => rfl⟩

/-- The last observations that count are those of day 10 (Sunday), and for the weekdays of days 12 to 14 those of days 5, 6 and 7. -/
example : ((runForecast demoWorld (demoArgs [] (some [modelNaive stableSort, modelSnaiveWday stableSort])) "s" dailyTable).toOption.bind fun r => r.map fun r =>
      (r.data.filter fun q => !q.isActuals && decide (10 * DAY ≤ q.date)).map fun q => (q.model, q.date / DAY, q.y)) =
    some [("naive", 10, some 91), ("naive", 11, some 101), ("naive", 12, some 101), ("naive", 13, some 101), ("naive", 14, some 101),
      ("snaive_wday", 10, some 31), ("snaive_wday", 12, some 51), ("snaive_wday", 13, some 61), ("snaive_wday", 14, some 71)] := by
  decide +kernel

end Anticipy
