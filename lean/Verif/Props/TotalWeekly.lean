import Verif.Props.TotalLong
import Verif.Spec.TotalWeekly
import Verif.Props.TableSeries

/-
Runs on weekly series end with a result.
-/
namespace Anticipy
open Spec

/-! ### Consecutive weeks -/

theorem adjacent_week (l : List Int) (h : l.Pairwise (· < ·)) (hw : ∀ x ∈ l, ∀ y ∈ l, (y - x) % 7 = 0) (a : Int) (h1 : a ∈ l) (h2 : a + 7 ∈ l) : (a, a + 7) ∈ pairs l := by
  induction l with
  | nil => cases h1
  | cons c l ih =>
    cases l with
    | nil => simp at h1 h2; omega
    | cons d l =>
      have hw' := hw
      rw [List.pairwise_cons] at h
      obtain ⟨hc, hr⟩ := h
      rcases List.mem_cons.1 h1 with rfl | h1
      · have hd := hc d (by simp)
        have hw1 := hw a (by simp) d (by simp)
        rcases List.mem_cons.1 h2 with e | h2
        · omega
        · rcases List.mem_cons.1 h2 with e | h2
          · rw [e]; simp [pairs]
          · have := (List.pairwise_cons.1 hr).1 _ h2
            omega
      · have hca := hc a h1
        rcases List.mem_cons.1 h2 with e | h2
        · omega
        · simp only [pairs, List.mem_cons]
          exact .inr (ih hr (fun x hx y hy => hw x (List.mem_cons_of_mem _ hx) y (List.mem_cons_of_mem _ hy)) h1 h2)

theorem contiguous_weeks (l : List Int) (h : ∀ p ∈ pairs l, p.2 = p.1 + 7) (a b x : Int) (ha : a ∈ l) (hb : b ∈ l) (h1 : a ≤ x) (h2 : x ≤ b)
    (h3 : (x - a) % 7 = 0) : x ∈ l := by
  have key : ∀ (l : List Int), (∀ p ∈ pairs l, p.2 = p.1 + 7) → ∀ c, l.head? = some c → ∀ y, y ∈ l ↔ c ≤ y ∧ y < c + 7 * l.length ∧ (y - c) % 7 = 0 := by
    intro l
    induction l with
    | nil => intro _ c hc; cases hc
    | cons d l ih =>
      intro h c hc y
      cases hc
      cases l with
      | nil => simp; omega
      | cons e l =>
        have he : e = d + 7 := h (d, e) (by simp [pairs])
        have := ih (fun p hp => h p (by simp only [pairs, List.mem_cons]; exact .inr hp)) e rfl y
        rw [List.mem_cons, this, List.length_cons, List.length_cons, List.length_cons]
        omega
  cases l with
  | nil => cases ha
  | cons c l =>
    have k := key (c :: l) h c rfl
    rw [k] at ha hb ⊢
    omega

variable {K : Type}

theorem weekly_dates {df : Frame K} {t0 : Timestamp} (h : WeeklySeries df t0) : df.rows.map Row.date = (df.rows.map Row.x).map fun x => t0 + x * (24 * 60 * 60 * 1000000000) := by
  rw [List.map_map]
  apply List.map_congr_left
  intro r hr
  exact h.days r hr

theorem weekly_nodup {df : Frame K} {t0 : Timestamp} (h : WeeklySeries df t0) : (df.rows.map Row.x).Nodup ∧ (df.rows.map Row.date).Nodup := by
  have h1 : (df.rows.map Row.x).Pairwise (· < ·) := List.pairwise_map.2 h.sorted
  have h2 : (df.rows.map Row.x).Nodup := h1.imp fun h => ne_of_lt h
  refine ⟨h2, ?_⟩
  rw [weekly_dates h]
  exact h2.map (fun a b hab => by have hab : t0 + a * _ = t0 + b * _ := hab; omega)

/-- The frequency of a weekly series is recognised, with the weekday of its samples. -/
theorem weekly_freq {df : Frame K} {t0 : Timestamp} (h : WeeklySeries df t0) : ∃ wd, 0 ≤ wd ∧ wd ≤ 6 ∧ detectFreq (df.rows.map Row.date) = some (.W wd) ∧
    ∀ r ∈ df.rows, weekdayOfDay (r.date / dayNs) = wd := by
  obtain ⟨r, hr, r', hr', e⟩ := h.weekly
  have h1 := h.days r hr
  have h2 := h.days r' hr'
  have hday : ∀ q ∈ df.rows, weekdayOfDay (q.date / dayNs) = weekdayOfDay (r.date / dayNs) := by
    intro q hq
    have h3 := h.days q hq
    have h4 := h.sameDay r hr q hq
    simp only [weekdayOfDay, dayNs]
    omega
  have hb : 0 ≤ weekdayOfDay (r.date / dayNs) ∧ weekdayOfDay (r.date / dayNs) ≤ 6 := by
    simp only [weekdayOfDay]
    omega
  refine ⟨weekdayOfDay (r.date / dayNs), hb.1, hb.2, ?_, hday⟩
  refine C19_detect_freq civilOfDay civilOfDay_isCalendar weekdayOfDay weekdayOfDay_isWeek (.W _) hb _ t0 ?_ ?_
  · intro t ht
    obtain ⟨q, hq, rfl⟩ := List.mem_map.1 ht
    have h3 := h.days q hq
    refine ⟨?_, hday q hq⟩
    simp only [dayNs]
    omega
  · refine ⟨r.date, List.mem_map.2 ⟨r, hr, rfl⟩, r'.date, List.mem_map.2 ⟨r', hr', rfl⟩, ?_⟩
    refine ⟨⟨by simp, rfl⟩, ⟨by simp only [dayNs]; omega, hday r' hr'⟩, by omega, ?_⟩
    rintro t ht1 ht2 ⟨g1, g2⟩
    simp only [weekdayOfDay, dayNs] at g1 g2
    omega

/-- Gap filling of a weekly series: every week between the first and the last sample, x still counting the days. -/
theorem weekly_interpolated {df : Frame K} {t0 : Timestamp} (h : WeeklySeries df t0) :
    ∃ out, interpolateDf df = .ok out ∧ out.hasDate = true ∧ CountsDays out t0 ∧ out.rows.Pairwise (fun a b => a.x < b.x) ∧
      (∀ r ∈ df.rows, r ∈ out.rows) ∧ (∀ r ∈ out.rows, r ∈ df.rows ∨ (r.x ∉ df.rows.map Row.x ∧ r.y = none)) ∧
      (∀ a ∈ out.rows, ∀ b ∈ out.rows, ∀ x, a.x ≤ x → x ≤ b.x → (x - a.x) % 7 = 0 → ∃ r ∈ out.rows, r.x = x) ∧
      (∀ a ∈ out.rows, ∀ b ∈ out.rows, (b.x - a.x) % 7 = 0) := by
  obtain ⟨hnx, hnd⟩ := weekly_nodup h
  obtain ⟨wd, hw0, hw6, hfreq, hwd⟩ := weekly_freq h
  obtain ⟨out, hout, hx⟩ := C25_x_consistent_partial weekdayOfDay weekdayOfDay_isWeek df h.dated (by
    intro r hr r' hr'
    have h1 := h.days r hr
    have h2 := h.days r' hr'
    simp only [dayNs]
    omega) hnd (.inr ⟨wd, hfreq, hwd⟩)
  obtain ⟨q, hq, -⟩ := h.weekly
  have hxw : ∀ x ∈ df.rows.map Row.x, ∀ y ∈ df.rows.map Row.x, (y - x) % 7 = 0 := by
    intro x hx y hy
    obtain ⟨a, ha, rfl⟩ := List.mem_map.1 hx
    obtain ⟨b, hb, rfl⟩ := List.mem_map.1 hy
    exact h.sameDay a ha b hb
  have hdays : CountsDays out t0 := by
    intro r hr
    have h1 := hx r hr q hq
    have h2 := h.days q hq
    simp only [dayNs] at h1
    omega
  refine ⟨out, hout, ?_⟩
  rcases C25_fill civilOfDay civilOfDay_isCalendar weekdayOfDay weekdayOfDay_isWeek df out h.dated hout (by
    intro r hr r' hr'
    have h1 := h.days r hr
    have h2 := h.days r' hr'
    left
    simp only [dayNs]
    omega) with rfl | ⟨first, hf, last, hl, hfl, hd, -, hsort, hgrid, hkeep, hnew⟩
  · refine ⟨h.dated, hdays, h.sorted, fun r hr => hr, fun r hr => .inl hr, ?_, fun a ha b hb => h.sameDay a ha b hb⟩
    have hsx : (out.rows.map Row.x).Pairwise (· < ·) := List.pairwise_map.2 h.sorted
    by_cases hc : nuniqueDiff (dedupBy (fun t : Timestamp => t) (out.rows.map Row.date)) ≤ 1 ∧
      sparseDaily (detectFreq (out.rows.map Row.date)) (diffs (dedupBy (fun t : Timestamp => t) (out.rows.map Row.date))) = false
    · have hone : ∀ p ∈ pairs (out.rows.map Row.x), p.2 = p.1 + 7 := by
        obtain ⟨r, hr, r', hr', e⟩ := h.weekly
        have hadj := adjacent_week _ hsx hxw r.x (List.mem_map.2 ⟨r, hr, rfl⟩) (List.mem_map.2 ⟨r', hr', e⟩)
        have hded : dedupBy (fun t : Timestamp => t) (out.rows.map Row.date) = out.rows.map Row.date :=
          dedupBy_of_nodup _ _ hnd
        rw [hded] at hc
        have hlen : (dedupBy (fun d : Int => d) (diffs (out.rows.map Row.date))).length ≤ 1 := hc.1
        have hmem : ∀ p ∈ pairs (out.rows.map Row.x), (p.2 - p.1) * (24 * 60 * 60 * 1000000000) ∈ dedupBy (fun d : Int => d) (diffs (out.rows.map Row.date)) := by
          intro p hp
          rw [mem_dedup]
          unfold diffs
          rw [weekly_dates h, pairs_map, List.map_map]
          refine List.mem_map.2 ⟨p, hp, ?_⟩
          simp only [Function.comp]
          ring
        intro p hp
        have m1 := hmem p hp
        have m2 := hmem _ hadj
        match hl : dedupBy (fun d : Int => d) (diffs (out.rows.map Row.date)), hlen with
        | [], _ => rw [hl] at m1; cases m1
        | [d], _ =>
          rw [hl] at m1 m2
          simp only [List.mem_singleton] at m1 m2
          omega
      intro a ha b hb x h1 h2 h7
      obtain ⟨r, hr, e⟩ := List.mem_map.1 (contiguous_weeks _ hone a.x b.x x (List.mem_map.2 ⟨a, ha, rfl⟩) (List.mem_map.2 ⟨b, hb, rfl⟩) h1 h2 h7)
      exact ⟨r, hr, e⟩
    · have hdates := filled_dates out out h.dated hnd hc hout
      intro a ha b hb x h1 h2 h7
      have e1 := h.days a ha
      have e2 := h.days b hb
      have hab : listMin (out.rows.map Row.date) ≠ none := by
        intro hn
        have := (listMin_none _).1 hn
        rw [List.map_eq_nil_iff] at this
        rw [this] at ha
        cases ha
      obtain ⟨m, hm⟩ := Option.ne_none_iff_exists'.1 hab
      have hab' : listMax (out.rows.map Row.date) ≠ none := by
        intro hn
        have := (listMax_none _).1 hn
        rw [List.map_eq_nil_iff] at this
        rw [this] at ha
        cases ha
      obtain ⟨M, hM⟩ := Option.ne_none_iff_exists'.1 hab'
      obtain ⟨hm1, hm2⟩ := (listMin_some _ _).1 hm
      obtain ⟨hM1, hM2⟩ := (listMax_some _ _).1 hM
      have hin := hdates m M hm hM
      rw [hfreq] at hin
      have k1 := hm2 _ (List.mem_map.2 ⟨a, ha, rfl⟩)
      have k2 := hM2 _ (List.mem_map.2 ⟨b, hb, rfl⟩)
      obtain ⟨rm, hrm, em⟩ := List.mem_map.1 hm1
      have k3 := h.days rm hrm
      obtain ⟨rM, hrM, eM⟩ := List.mem_map.1 hM1
      have k4 := h.days rM hrM
      have k5 := hwd a ha
      have : t0 + x * (24 * 60 * 60 * 1000000000) ∈ out.rows.map Row.date := by
        rw [hin]
        refine (mem_dateRange (.W wd) ⟨hw0, hw6⟩ _ _ _ (.inr (.inr ?_))).2 ⟨by omega, by omega, ?_, ?_⟩
        · simp only [todOf, DAY, HOUR]
          omega
        · simp only [dayNs]
          omega
        · simp only [weekdayOfDay, dayNs] at k5 ⊢
          omega
      obtain ⟨r, hr, e⟩ := List.mem_map.1 this
      refine ⟨r, hr, ?_⟩
      have := h.days r hr
      omega
  · refine ⟨hd, hdays, ?_, ?_, ?_, ?_, ?_⟩
    · rw [List.pairwise_map] at hsort
      rw [List.pairwise_iff_forall_sublist] at hsort ⊢
      intro a b hab
      have h0 := hsort hab
      have h1 := hdays a (hab.subset (by simp))
      have h2 := hdays b (hab.subset (by simp))
      omega
    · intro r hr
      refine hkeep r hr ((hgrid r.date).2 ⟨(hfl r hr).1, (hfl r hr).2, ?_⟩)
      rw [hfreq]
      have h1 := h.days r hr
      have h2 := h.days first hf
      refine ⟨?_, hwd r hr⟩
      simp only [dayNs]
      omega
    · intro r hr
      rcases hnew r hr with h1 | ⟨h1, h2, -⟩
      · exact .inl h1
      · refine .inr ⟨?_, h2⟩
        intro hc
        obtain ⟨r', hr', e⟩ := List.mem_map.1 hc
        refine h1 (List.mem_map.2 ⟨r', hr', ?_⟩)
        rw [h.days r' hr', hdays r hr, e]
    · intro a ha b hb x h1 h2 h7
      have e0 := h.days first hf
      have e1 := h.days last hl
      have e2 := hdays a ha
      have e3 := hdays b hb
      have e4 := ((hgrid a.date).1 (List.mem_map.2 ⟨a, ha, rfl⟩)).1
      have e5 := ((hgrid b.date).1 (List.mem_map.2 ⟨b, hb, rfl⟩)).2.1
      have : t0 + x * (24 * 60 * 60 * 1000000000) ∈ out.rows.map Row.date := by
        rw [hgrid]
        have e6 := ((hgrid a.date).1 (List.mem_map.2 ⟨a, ha, rfl⟩)).2.2
        rw [hfreq] at e6 ⊢
        obtain ⟨e7, e8⟩ := e6
        refine ⟨by omega, by omega, ?_, ?_⟩
        · simp only [dayNs] at e7 ⊢
          omega
        · simp only [weekdayOfDay, dayNs] at e8 ⊢
          omega
      obtain ⟨r, hr, e⟩ := List.mem_map.1 this
      refine ⟨r, hr, ?_⟩
      have := hdays r hr
      omega
    · intro a ha b hb
      have e2 := hdays a ha
      have e3 := hdays b hb
      have e4 := ((hgrid a.date).1 (List.mem_map.2 ⟨a, ha, rfl⟩)).2.2
      have e5 := ((hgrid b.date).1 (List.mem_map.2 ⟨b, hb, rfl⟩)).2.2
      rw [hfreq] at e4 e5
      have e6 := e4.2
      have e7 := e5.2
      simp only [weekdayOfDay, dayNs] at e6 e7
      omega

/-! ### The table handed to the naive models -/

variable [Field K] [LinearOrder K]

/-- Properties of the table of actuals that the naive models see in a run on a weekly series. -/
structure WeeklyActuals (t0 : Timestamp) (used : List (Row K)) (act : Frame K) : Prop where
  dated : act.hasDate = true
  days : CountsDays act t0
  sorted : act.rows.Pairwise fun a b => a.x < b.x
  values : ∀ a ∈ act.rows, ∀ v, a.y = some v → ∃ u ∈ used, u.x = a.x ∧ u.y = some v
  all : ∀ u ∈ used, ∃ a ∈ act.rows, a.x = u.x ∧ a.y = u.y
  contiguous : ∀ a ∈ act.rows, ∀ b ∈ act.rows, ∀ x, a.x ≤ x → x ≤ b.x → (x - a.x) % 7 = 0 → ∃ r ∈ act.rows, r.x = x
  sameDay : ∀ a ∈ act.rows, ∀ b ∈ act.rows, (b.x - a.x) % 7 = 0

theorem weekly_actuals (srt : SortAlg) {df : Frame K} {t0 : Timestamp} (h : WeeklySeries df t0) (used : Frame K) (hu : UsedPart df used.rows) :
    ∃ act, actualsInterpolated srt df used = .ok act ∧ WeeklyActuals t0 used.rows act := by
  obtain ⟨out, h0, h1, h2, h3, h4, h5, h6, h7⟩ := weekly_interpolated h
  refine ⟨_, by unfold actualsInterpolated; rw [h0]; rfl, ?_⟩
  have hperm := srt.perm (fun a b : Row K => decide (a.x ≤ b.x)) out.rows
  have hsort := srt.sorted (fun a b : Row K => decide (a.x ≤ b.x)) out.rows
    (by simp only [decide_eq_true_eq]; intros; omega) (by simp only [Bool.or_eq_true, decide_eq_true_eq]; intros; omega)
  have hmem : ∀ a, a ∈ (srt.run (fun a b : Row K => decide (a.x ≤ b.x)) out.rows).flatMap (mergeWeight used.rows) ↔
      ∃ o ∈ out.rows, a ∈ mergeWeight used.rows o := by
    intro a
    rw [List.mem_flatMap]
    simp only [hperm.mem_iff]
  have hone : ∀ o, ∃ w y, mergeWeight used.rows o = [{ o with weight := w, y := y }] ∧
      (∀ v, y = some v → (∃ u ∈ used.rows, u.x = o.x) ∧ o.y = some v) ∧ ((∃ u ∈ used.rows, u.x = o.x) → y = o.y) := by
    intro o
    rcases mergeWeight_single used.rows hu.nodup o with ⟨n, e⟩ | ⟨u, hu1, hu2, e⟩
    · refine ⟨_, _, e, (by intro v hv; cases hv), ?_⟩
      rintro ⟨u, hu1, hu2⟩
      exact absurd (List.mem_map.2 ⟨u, hu1, hu2⟩) n
    · obtain ⟨w, hw, hpos⟩ := hu.positive u hu1
      refine ⟨_, _, e, ?_, ?_⟩
      · intro v hv
        rw [hw, Option.getD_some, if_pos hpos] at hv
        exact ⟨⟨u, hu1, hu2⟩, hv⟩
      · intro _
        rw [hw, Option.getD_some, if_pos hpos]
  have hnx : (df.rows.map Row.x).Nodup := (weekly_nodup h).1
  have hox : (out.rows.map Row.x).Nodup := (List.pairwise_map.2 h3).imp fun h => ne_of_lt h
  have hsame : ∀ o ∈ out.rows, ∀ r ∈ df.rows, o.x = r.x → o = r := by
    intro o ho r hr e
    exact List.inj_on_of_nodup_map hox ho (h4 r hr) e
  refine ⟨h1, ?_, ?_, ?_, ?_, ?_, ?_⟩
  · intro a ha
    obtain ⟨o, ho, hao⟩ := (hmem a).1 ha
    obtain ⟨w, y, e, -⟩ := hone o
    rw [e, List.mem_singleton] at hao
    subst hao
    exact h2 o ho
  · dsimp only
    rw [List.pairwise_flatMap]
    constructor
    · intro o _
      obtain ⟨w, y, e, -⟩ := hone o
      rw [e]
      exact List.pairwise_singleton _ _
    · have hlt : (srt.run (fun a b : Row K => decide (a.x ≤ b.x)) out.rows).Pairwise fun a b => a.x < b.x := by
        have hn' : (srt.run (fun a b : Row K => decide (a.x ≤ b.x)) out.rows).Pairwise fun a b => a.x ≠ b.x := by
          have := (hperm.map Row.x).nodup_iff.2 hox
          exact List.pairwise_map.1 this
        refine (hsort.and hn').imp ?_
        rintro a b ⟨h1, h2⟩
        rw [decide_eq_true_eq] at h1
        omega
      refine hlt.imp ?_
      intro a b hab x hx y hy
      obtain ⟨w, y', e, -⟩ := hone a
      obtain ⟨w2, y2, e2, -⟩ := hone b
      rw [e, List.mem_singleton] at hx
      rw [e2, List.mem_singleton] at hy
      subst hx hy
      exact hab
  · intro a ha v hv
    obtain ⟨o, ho, hao⟩ := (hmem a).1 ha
    obtain ⟨w, y, e, k1, -⟩ := hone o
    rw [e, List.mem_singleton] at hao
    subst hao
    obtain ⟨⟨u, hu1, hu2⟩, e3⟩ := k1 v hv
    refine ⟨u, hu1, hu2, ?_⟩
    obtain ⟨r, hr, -, e4, e5⟩ := hu.part u hu1
    rw [e5, ← hsame o ho r hr (by omega), e3]
  · intro u hu1
    obtain ⟨r, hr, -, e4, e5⟩ := hu.part u hu1
    obtain ⟨w, y, e, -, k2⟩ := hone r
    refine ⟨{ r with weight := w, y := y }, (hmem _).2 ⟨r, h4 r hr, by rw [e]; exact List.mem_singleton.2 rfl⟩, e4.symm, ?_⟩
    dsimp only
    rw [k2 ⟨u, hu1, e4⟩, e5]
  · have hx : ∀ x, (∃ o ∈ out.rows, o.x = x) ↔ ∃ a ∈ (srt.run (fun a b : Row K => decide (a.x ≤ b.x)) out.rows).flatMap (mergeWeight used.rows), a.x = x := by
      intro x
      constructor
      · rintro ⟨o, ho, e0⟩
        obtain ⟨w, y, e, -⟩ := hone o
        exact ⟨{ o with weight := w, y := y }, (hmem _).2 ⟨o, ho, by rw [e]; exact List.mem_singleton.2 rfl⟩, e0⟩
      · rintro ⟨a, ha, e0⟩
        obtain ⟨o, ho, hao⟩ := (hmem a).1 ha
        obtain ⟨w, y, e, -⟩ := hone o
        rw [e, List.mem_singleton] at hao
        subst hao
        exact ⟨o, ho, e0⟩
    intro a ha b hb x hxa hxb hxw
    obtain ⟨oa, hoa, ea⟩ := (hx a.x).2 ⟨a, ha, rfl⟩
    obtain ⟨ob, hob, eb⟩ := (hx b.x).2 ⟨b, hb, rfl⟩
    exact (hx x).1 (h6 oa hoa ob hob x (by omega) (by omega) (by omega))
  · intro a ha b hb
    obtain ⟨oa, hoa, hao⟩ := (hmem a).1 ha
    obtain ⟨w, y, e, -⟩ := hone oa
    rw [e, List.mem_singleton] at hao
    obtain ⟨ob, hob, hbo⟩ := (hmem b).1 hb
    obtain ⟨w', y', e', -⟩ := hone ob
    rw [e', List.mem_singleton] at hbo
    subst hao hbo
    exact h7 oa hoa ob hob

variable [IsStrictOrderedRing K]

/-- The naive models can be evaluated at every increasing list of weeks from the first week of the actuals on. -/
theorem weekly_naive_total (srt : SortAlg) (t0 : Timestamp) (used : List (Row K)) (act : Frame K) (hact : WeeklyActuals t0 used act)
    (m : ForecastModel K) (hm : m = modelNaive srt ∨ m = modelSnaiveWday srt) (xs : List Int) (hx : xs.Pairwise (· < ·)) (ds : List Timestamp)
    (hds : ds = xs.map fun x => t0 + x * (24 * 60 * 60 * 1000000000)) (hge : ∀ x ∈ xs, ∃ a ∈ act.rows, a.x ≤ x ∧ (x - a.x) % 7 = 0) (p : Params K) :
    ∃ a, m.fModel { ax := scaleX m xs, adate := some ds, actuals := some act } p false = .ok a ∧ Shaped xs.length a := by
  have hname : ¬(m.name = "logistic" ∨ m.name = "sigmoid") := by
    rcases hm with rfl | rfl <;> simp [modelNaive, modelSnaiveWday, mkModel]
  have hsx : scaleX m xs = xs.map fun x : Int => (x : K) := by
    unfold scaleX
    rw [if_neg hname]
  have hax : (xs.map fun x : Int => (x : K)).Pairwise (· < ·) := by
    rw [List.pairwise_map]
    exact hx.imp fun h => Int.cast_lt.2 h
  rw [hsx]
  subst hds
  rcases hm with rfl | rfl
  · obtain ⟨out, ho, hl, -⟩ := C37_naive srt { ax := xs.map fun x : Int => (x : K), adate := some (xs.map fun x => t0 + x * (24 * 60 * 60 * 1000000000)), actuals := some act } act p false rfl rfl
      (by
        refine ⟨by intro ds hds; cases hds; simp, ?_⟩
        intro _
        refine ⟨_, rfl, ?_⟩
        intro i x d hx hd q hq hqx
        rw [List.getElem?_map] at hx hd
        cases hi : xs[i]? with
        | none => rw [hi] at hx; cases hx
        | some y =>
          rw [hi] at hx hd
          cases hx
          cases hd
          have hq2 : q.x = y := Int.cast_injective (α := K) hqx
          rw [hact.days q hq, hq2])
      hax ((List.pairwise_map.2 hact.sorted).imp fun h => ne_of_lt h)
    refine ⟨_, ho, ?_⟩
    change out.length = _
    rw [hl]
    simp
  · obtain ⟨out, ho, hl, -⟩ := C38_seasonal_naive srt { ax := xs.map fun x : Int => (x : K), adate := some (xs.map fun x => t0 + x * (24 * 60 * 60 * 1000000000)), actuals := some act } act _ p false rfl rfl
      hact.dated rfl (by simp) hax hact.sorted (by
        intro e he
        rw [List.zip_map'] at he
        obtain ⟨x, hx, rfl⟩ := List.mem_map.1 he
        by_cases hfut : ∀ q ∈ act.rows, q.x < x
        · right
          intro q hq
          have h3 := hfut q hq
          have h4 := hact.days q hq
          refine ⟨by dsimp only; rw [Int.cast_lt]; exact h3, ?_⟩
          intro h5
          dsimp only at h5
          omega
        · left
          push Not at hfut
          obtain ⟨q, hq, h3⟩ := hfut
          obtain ⟨a, ha, h5, h8⟩ := hge x hx
          obtain ⟨q', hq', h6⟩ := hact.contiguous a ha q hq _ h5 h3 h8
          have h7 := hact.days q' hq'
          exact ⟨q', hq', by rw [h6], by rw [h7, h6]⟩)
    refine ⟨_, ho, ?_⟩
    change out.length = _
    rw [hl]
    simp

variable [FloorRing K]

theorem weekly_used_part {df : Frame K} {t0 : Timestamp} (h : WeeklySeries df t0) (find : Bool) (start : Option Timestamp) (df2 : Frame K)
    (h2 : applyOutliers find (filterStart start df) = .ok df2) : UsedPart df (usedRows (defaultWeights df2).1).rows := by
  obtain ⟨u1, u2, u3, u4, u5⟩ := used_rows find start df df2 h2
  refine ⟨?_, ?_, ?_⟩
  · have h1 : ((usedRows (defaultWeights df2).1).rows.map Row.x).Sublist ((kept start df).map Row.x) := by
      rw [← u4]
      exact List.filter_sublist.map _
    exact (h1.trans (List.filter_sublist.map _)).nodup (weekly_nodup h).1
  · intro u hu
    have := (List.mem_filter.1 hu).2
    rw [decide_eq_true_iff] at this
    obtain ⟨w, hw, hp⟩ := this
    exact ⟨w, hw, hp⟩
  · intro u hu
    obtain ⟨q, h1, h2, h3, h4, -⟩ := u5 u hu
    exact ⟨q, (List.mem_filter.1 h1).1, h2, h3, h4⟩

/-- The dates of the extrapolation of a weekly series lie at whole weeks after the start. -/
theorem weekly_points (wd : Int) (hw0 : 0 ≤ wd) (hw6 : wd ≤ 6) (a b t : Timestamp) (h : t ∈ dateRange a b (.W wd)) :
    a ≤ t ∧ (t - a) % dayNs = 0 ∧ weekdayOfDay (t / dayNs) = wd := by
  have hdr : dateRange a b (.W wd) = genRange (nextAnchor (.W wd)) (if onOffset (.W wd) a then rollBack (.W wd) b else b)
      ((b - a) / HOUR + 1).toNat (rollForward (.W wd) a) := rfl
  have hdb := day_tod b
  have htb := tod_range b
  have hrb : rollBack (.W wd) b ≤ b := by
    unfold rollBack
    split_ifs with h
    · exact le_rfl
    · have : ¬ dayOf b ≤ anchorDay (.W wd) (anchorIdx (.W wd) (dayOf b) - 1) := by rw [le_anchorDay_iff]; omega
      simp only [DAY] at *; omega
  rw [hdr] at h
  obtain ⟨h1, -, h2, h3⟩ := (mem_dateRange_anchor (.W wd) a b _ t (by split_ifs <;> first | exact hrb | exact le_rfl)).1 h
  have h4 := (onGrid_iff (.W wd) ⟨hw0, hw6⟩ (by simp) a t).2 ⟨h2, h3⟩
  exact ⟨h1, h4.1, h4.2⟩

/-- A workable candidate can be fitted in a run on a weekly series, and its forecast lies on whole days. -/
theorem weekly_candidate_ok (w : World K) (args : RunArgs K) (source : String) {df : Frame K} {t0 : Timestamp} (hweekly : WeeklySeries df t0) (df2 : Frame K)
    (hout : applyOutliers args.findOutliers (filterStart args.start df) = .ok df2) (wm : WeightsMeta K) (mode : AddMult) (act : Frame K)
    (hact : WeeklyActuals t0 (usedRows (defaultWeights df2).1).rows act) (global : String → Option (CacheFn K)) (reg : Registry K)
    (m : ForecastModel K) (hm : Workable w.srt global reg m) (env : Env K) (hglobal : env.globalCache = global) (hsolve : SolverReturns env)
    (hscore : ScoreReturns env (usableRows (usedRows (defaultWeights df2).1)).length) (hne : usableRows (usedRows (defaultWeights df2).1) ≠ []) :
    ∃ f rows, fitModel env m (usedRows (defaultWeights df2).1) (some act) args.useCache = .ok f ∧
      forecastRows (mkSetup w args source df (defaultWeights df2).1 wm mode act) m f = .ok rows ∧
      ∀ r ∈ rows, ∃ x : Int, r.date = t0 + x * (24 * 60 * 60 * 1000000000) := by
  obtain ⟨u1, u2, u3, u4, u5⟩ := used_rows args.findOutliers args.start df df2 hout
  have hpart := weekly_used_part hweekly args.findOutliers args.start df2 hout
  have hdd : ∀ q ∈ (usedRows (defaultWeights df2).1).rows, q.date = t0 + q.x * (24 * 60 * 60 * 1000000000) := by
    intro q hq
    obtain ⟨q', h1, h2, h3, -⟩ := hpart.part q hq
    rw [h2, h3]
    exact hweekly.days q' h1
  have hux : ((usedRows (defaultWeights df2).1).rows.map Row.x).Pairwise (· < ·) := by
    have h1 : ((usedRows (defaultWeights df2).1).rows.map Row.x).Sublist ((kept args.start df).map Row.x) := by
      rw [← u4]
      exact List.filter_sublist.map _
    exact (List.pairwise_map.2 hweekly.sorted).sublist (h1.trans (List.filter_sublist.map _))
  have hsub : (usableRows (usedRows (defaultWeights df2).1)).Sublist (usedRows (defaultWeights df2).1).rows := List.filter_sublist
  have hxx : ((usableRows (usedRows (defaultWeights df2).1)).map Row.x).Pairwise (· < ·) := hux.sublist (hsub.map _)
  have hhd : (usedRows (defaultWeights df2).1).hasDate = true := u1.trans hweekly.dated
  have hdates : (prepare (usedRows (defaultWeights df2).1)).dates = some ((usableRows (usedRows (defaultWeights df2).1)).map Row.date) := by
    rw [prepare_eq]
    simp [hhd]
  have hnaive : ∀ name f, m = mkModel name 0 f → (m = modelNaive w.srt ∨ m = modelSnaiveWday w.srt) →
      ∃ r, fitModel env m (usedRows (defaultWeights df2).1) (some act) args.useCache = .ok r ∧ (r.isFit = true → r.params = []) := by
    intro name f hmk hcase
    have hev := weekly_naive_total w.srt t0 _ act hact m hcase ((usableRows (usedRows (defaultWeights df2).1)).map Row.x) hxx
      ((usableRows (usedRows (defaultWeights df2).1)).map Row.date) (by
        rw [List.map_map]
        apply List.map_congr_left
        intro r hr
        exact hdd r (hsub.subset hr)) (by
        intro x hx
        obtain ⟨u, hu, rfl⟩ := List.mem_map.1 hx
        obtain ⟨a, ha, e, -⟩ := hact.all u (hsub.subset hu)
        exact ⟨a, ha, e.le, by rw [e]; simp⟩) none
    rw [List.length_map] at hev
    subst hmk
    refine fit_noparams env name f _ (some act) args.useCache hscore hne ?_
    rw [hdates, prepare_eq]
    exact hev
  have hfit : ∃ f, fitModel env m (usedRows (defaultWeights df2).1) (some act) args.useCache = .ok f ∧
      (Dependable global reg m → f.isFit = true → f.params.length = m.nParams) := by
    rcases hm with hm | hm | hm | hm
    · obtain ⟨r, h1, h2⟩ := fit_noparams env "null" (fun _ _ isMult => .ok (.scalar (some (if isMult then 1 else 0)))) (usedRows (defaultWeights df2).1) (some act) args.useCache hscore hne ⟨.scalar (some 0), rfl, trivial⟩
      exact ⟨r, hm ▸ h1, fun _ h3 => by rw [h2 h3, hm]; rfl⟩
    · obtain ⟨r, h1, h2⟩ := hnaive _ _ hm (.inl hm)
      exact ⟨r, h1, fun _ h3 => by rw [h2 h3, hm]; rfl⟩
    · obtain ⟨r, h1, h2⟩ := hnaive _ _ hm (.inr hm)
      exact ⟨r, h1, fun _ h3 => by rw [h2 h3, hm]; rfl⟩
    · obtain ⟨r, h1, h2, -⟩ := fit_dependable env reg m (hglobal ▸ hm) _ (some act) args.useCache hsolve hscore hhd hxx hne
      exact ⟨r, h1, fun _ => h2⟩
  obtain ⟨f, hf, hpl⟩ := hfit
  refine ⟨f, ?_⟩
  unfold forecastRows
  by_cases hisf : f.isFit = true
  swap
  · rw [if_neg hisf]
    exact ⟨[], hf, rfl, by simp⟩
  rw [if_pos hisf]
  have hunil : (usedRows (defaultWeights df2).1).rows ≠ [] := by
    intro h0
    rw [h0] at hsub
    exact hne (List.eq_nil_of_sublist_nil hsub)
  simp only [mkSetup]
  cases h1 : listMin (axisOf (usedRows (defaultWeights df2).1)) with
  | none =>
    exfalso
    have := (listMin_none _).1 h1
    unfold axisOf at this
    rw [if_pos hhd, List.map_eq_nil_iff] at this
    exact hunil this
  | some start =>
    cases h2 : listMin ((usedRows (defaultWeights df2).1).rows.map Row.x) with
    | none =>
      exfalso
      have := (listMin_none _).1 h2
      rw [List.map_eq_nil_iff] at this
      exact hunil this
    | some x0 =>
      obtain ⟨m2, l2⟩ := (listMin_some _ _).1 h2
      obtain ⟨q2, n2, rfl⟩ := List.mem_map.1 m2
      have hstart : start = t0 + q2.x * (24 * 60 * 60 * 1000000000) := by
        unfold axisOf at h1
        rw [if_pos hhd] at h1
        obtain ⟨m1, l1⟩ := (listMin_some _ _).1 h1
        obtain ⟨q1, n1, rfl⟩ := List.mem_map.1 m1
        have a1 := l1 _ (List.mem_map.2 ⟨q2, n2, rfl⟩)
        have a2 := l2 _ (List.mem_map.2 ⟨q1, n1, rfl⟩)
        have b1 := hdd q1 n1
        have b2 := hdd q2 n2
        omega
      dsimp only
      obtain ⟨wd, hw0, hw6, hdf, hwd⟩ := weekly_freq hweekly
      have hfreq : runFreq df = some (.W wd) := by unfold runFreq; rw [hweekly.dated, if_pos rfl, hdf]
      have hsd : weekday start = wd := by
        obtain ⟨q3, n3, n4, n5, -⟩ := hpart.part q2 n2
        rw [hstart, n5, ← hweekly.days q3 n3]
        exact hwd q3 n3
      unfold extrapolate
      rw [hhd, hfreq]
      simp only [if_true, bind, Except.bind, sxExtrapolateDate, addHorizon, hsd, pyAssert, decide_true, List.map_map, Function.comp_def, List.map_id']
      generalize he : ((listMax (axisOf (defaultWeights df2).1)).getD 0) + ⌊args.years * unitsPerYear (.W wd) * 7 * (DAY : ℚ)⌋ = e
      have hgrid : ∀ t ∈ dateRange start e (.W wd), t = t0 + (t - t0) / (24 * 60 * 60 * 1000000000) * (24 * 60 * 60 * 1000000000) ∧ q2.x ≤ (t - t0) / (24 * 60 * 60 * 1000000000) ∧
          ((t - t0) / (24 * 60 * 60 * 1000000000) - q2.x) % 7 = 0 := by
        intro t ht
        obtain ⟨g1, g2, g3⟩ := weekly_points wd hw0 hw6 start e t ht
        simp only [weekday, dayOf, weekdayOfDay, dayNs, DAY, HOUR] at g2 g3 hsd
        omega
      have hx : (dateRange start e (.W wd)).map (fun t => (t - start) / DAY + q2.x) = (dateRange start e (.W wd)).map fun t => (t - t0) / (24 * 60 * 60 * 1000000000) := by
        apply List.map_congr_left
        intro t _
        rw [hstart]
        simp only [DAY, HOUR]
        omega
      rw [hx]
      have hinc : ((dateRange start e (.W wd)).map fun t => (t - t0) / (24 * 60 * 60 * 1000000000)).Pairwise (· < ·) := by
        rw [List.pairwise_map]
        have := dateRange_sorted start e (.W wd)
        rw [List.pairwise_iff_forall_sublist] at this ⊢
        intro a b hab
        have h2 := this hab
        have ha := (hgrid a (hab.subset (by simp))).1
        have hb := (hgrid b (hab.subset (by simp))).1
        omega
      have hds : dateRange start e (.W wd) = ((dateRange start e (.W wd)).map fun t => (t - t0) / (24 * 60 * 60 * 1000000000)).map fun x => t0 + x * (24 * 60 * 60 * 1000000000) := by
        rw [List.map_map]
        conv_lhs => rw [← List.map_id (dateRange start e (.W wd))]
        apply List.map_congr_left
        intro t ht
        exact (hgrid t ht).1
      have hval : ∃ a, m.fModel { ax := scaleX m ((dateRange start e (.W wd)).map fun t => (t - t0) / (24 * 60 * 60 * 1000000000)), adate := some (dateRange start e (.W wd)), actuals := some act } (some f.params) false = .ok a ∧
          Shaped (dateRange start e (.W wd)).length a := by
        have hn : m = modelNaive w.srt ∨ m = modelSnaiveWday w.srt → _ := fun hc =>
          weekly_naive_total w.srt t0 _ act hact m hc ((dateRange start e (.W wd)).map fun t => (t - t0) / (24 * 60 * 60 * 1000000000)) hinc (dateRange start e (.W wd)) hds (by
            intro x hx
            obtain ⟨t, ht, rfl⟩ := List.mem_map.1 hx
            obtain ⟨a, ha, e, -⟩ := hact.all q2 n2
            exact ⟨a, ha, e.le.trans (hgrid t ht).2.1, by rw [e]; exact (hgrid t ht).2.2⟩) (some f.params)
        rw [List.length_map] at hn
        rcases hm with hm | hm | hm | hm
        · subst hm
          exact ⟨.scalar (some 0), rfl, trivial⟩
        · exact hn (.inl hm)
        · exact hn (.inr hm)
        · have hl : (scaleX m ((dateRange start e (.W wd)).map fun t => (t - t0) / (24 * 60 * 60 * 1000000000))).length = (dateRange start e (.W wd)).length := by
            unfold scaleX
            split_ifs <;> simp
          obtain ⟨a, g1, g2, -⟩ := hm.evaluates { ax := scaleX m ((dateRange start e (.W wd)).map fun t => (t - t0) / (24 * 60 * 60 * 1000000000)), adate := some (dateRange start e (.W wd)), actuals := some act } _ f.params false rfl hl.symm (hpl hm hisf)
          exact ⟨a, g1, hl ▸ g2⟩
      obtain ⟨a, ha, hs⟩ := hval
      rw [ha]
      dsimp only
      obtain ⟨l, hl, hmem⟩ := series_ok _ a hs
      rw [hl]
      refine ⟨_, hf, rfl, ?_⟩
      intro r hr
      unfold fcastClean at hr
      obtain ⟨p, hp, rfl⟩ := List.mem_map.1 hr
      exact ⟨_, (hgrid _ (hmem p (List.mem_filter.1 hp).1)).1⟩

/-- **C82.** A run on a weekly series ends with a result, under the conditions for daily series. -/
theorem C82_weekly_partial (w : World K) (args : RunArgs K) (source : String) (df : Frame K) (t0 : Timestamp) (hweekly : WeeklySeries df t0)
    (htwo : 2 ≤ (kept args.start df).length)
    (hcounts : ∃ (i : Nat) (r : Row K), (kept args.start df)[i]? = some r ∧ r.y ≠ none ∧ (∃ v, givenWeight df r = some v ∧ 0 < v) ∧
      (args.findOutliers = true → ∀ step spike, getModelOutliers { df with rows := kept args.start df } 3 = .ok (step, spike) → spike[i]? = some false))
    (global : String → Option (CacheFn K)) (reg : Registry K) (n : Nat) (hn : (kept args.start df).length ≤ n) (hc : Contracts w args source n global reg (runFreq df)) :
    ∃ res, runSingle w args source df = .ok res := by
  have hkd : ∀ r ∈ kept args.start df, r.date = t0 + r.x * (24 * 60 * 60 * 1000000000) := fun r hr => hweekly.days r (List.mem_filter.1 hr).1
  have hkx : (kept args.start df).Pairwise fun a b => a.x < b.x := hweekly.sorted.sublist List.filter_sublist
  have hout : ∃ df2, applyOutliers args.findOutliers (filterStart args.start df) = .ok df2 := by
    unfold applyOutliers
    cases args.findOutliers with
    | false => exact ⟨_, rfl⟩
    | true =>
      rw [filterStart_rows, if_pos rfl]
      obtain ⟨m, hm⟩ := (C39_defined { df with rows := kept args.start df } 3).2 (by
        have : ∀ r ∈ kept args.start df, axis { df with rows := kept args.start df } r = t0 + r.x * (24 * 60 * 60 * 1000000000) := by
          intro r hr
          unfold axis
          dsimp only
          rw [hweekly.dated, if_pos rfl]
          exact hkd r hr
        dsimp only
        rw [List.map_congr_left this]
        refine List.pairwise_map.2 (hkx.imp ?_)
        intro a b hab
        omega)
      simp only [hm, bind, Except.bind]
      exact ⟨_, rfl⟩
  obtain ⟨df2, hout⟩ := hout
  obtain ⟨u1, u2, u3, u4, u5⟩ := used_rows args.findOutliers args.start df df2 hout
  have hpart := weekly_used_part hweekly args.findOutliers args.start df2 hout
  obtain ⟨act, hact1, hact⟩ := weekly_actuals w.srt hweekly _ hpart
  have hdd : (defaultWeights df2).1.hasDate = true := u1.trans hweekly.dated
  -- a usable sample
  have hne : usableRows (usedRows (defaultWeights df2).1) ≠ [] := by
    obtain ⟨i, r, hi, hy, ⟨v, hv, hv0⟩, hspike⟩ := hcounts
    obtain ⟨spike, hlen, hs1, hs2, e⟩ := weights_stage args.findOutliers _ df2 hout
    rw [filterStart_rows] at e hlen hs1 hs2
    have hb : spike[i]? = some false := by
      cases hf : args.findOutliers with
      | true =>
        obtain ⟨step, hs⟩ := hs1 hf
        exact hspike hf step spike hs
      | false =>
        rw [hs2 hf, List.getElem?_replicate]
        have := (List.getElem?_eq_some_iff.1 hi).1
        rw [if_pos this]
    have hg : (weighted { df with rows := kept args.start df } spike).rows[i]? = some { r with weight := some v } := by
      unfold weighted
      dsimp only
      rw [List.getElem?_zipWith, hi, hb]
      have : givenWeight { df with rows := kept args.start df } r = some v := hv
      simp [this]
    rw [← e] at hg
    have hin : ({ r with weight := some v } : Row K) ∈ (usedRows (defaultWeights df2).1).rows :=
      List.mem_filter.2 ⟨List.mem_of_getElem? hg, by rw [decide_eq_true_iff]; exact ⟨v, rfl, hv0⟩⟩
    refine List.ne_nil_of_mem (List.mem_filter.2 ⟨hin, ?_⟩)
    rw [decide_eq_true_iff]
    exact ⟨Option.ne_none_iff_exists'.1 hy, fun _ => ⟨v, rfl, hv0⟩⟩
  have hlen : (usableRows (usedRows (defaultWeights df2).1)).length ≤ (kept args.start df).length := by
    have h1 : (usableRows (usedRows (defaultWeights df2).1)).length ≤ (usedRows (defaultWeights df2).1).rows.length := List.length_filter_le _ _
    have h2 : (usedRows (defaultWeights df2).1).rows.length ≤ (defaultWeights df2).1.rows.length := List.length_filter_le _ _
    have h3 := congrArg List.length u4
    rw [List.length_map, List.length_map] at h3
    omega
  have hrows : (defaultWeights df2).1.rows ≠ [] := by
    intro h0
    have h3 := congrArg List.length u4
    rw [List.length_map, List.length_map, h0, List.length_nil] at h3
    omega
  have hrange : ∃ range, runRange (defaultWeights df2).1 = .ok range := by
    unfold runRange axisOf
    rw [if_pos hdd]
    have n1 : listMin ((defaultWeights df2).1.rows.map Row.date) ≠ none := by
      intro h0
      have := (listMin_none _).1 h0
      rw [List.map_eq_nil_iff] at this
      exact hrows this
    have n2 : listMax ((defaultWeights df2).1.rows.map Row.date) ≠ none := by
      intro h0
      have := (listMax_none _).1 h0
      rw [List.map_eq_nil_iff] at this
      exact hrows this
    obtain ⟨a, ha⟩ := Option.ne_none_iff_exists'.1 n1
    obtain ⟨b, hb⟩ := Option.ne_none_iff_exists'.1 n2
    rw [ha, hb]
    exact ⟨_, rfl⟩
  obtain ⟨range, hrange⟩ := hrange
  have hwx : (defaultWeights df2).1.rows.Pairwise fun a b => a.x < b.x := by
    have h1 : ((defaultWeights df2).1.rows.map Row.x).Pairwise (· < ·) := u4 ▸ List.pairwise_map.2 hkx
    exact List.pairwise_map.1 h1
  obtain ⟨cand, hcd⟩ := candidates_ok w.ch args.models (defaultWeights df2).1 (runFreq df) fun h h4 => hc.test h _ hdd hwx h4 (by
    have h3 := congrArg List.length u4
    rw [List.length_map, List.length_map] at h3
    omega)
  obtain ⟨hcne, hcw⟩ := hc.models _ cand hcd
  have hall := fun m hm i => weekly_candidate_ok w args source hweekly df2 hout (defaultWeights df2).2 cand.1 act hact global reg m (hcw m hm) (w.env source i)
    (hc.cacheVars i) (hc.solver i) (hc.score i _ (hlen.trans hn)) hne
  obtain ⟨fits, hfits⟩ := fitLoop_ok (w.env source) (mkSetup w args source df (defaultWeights df2).1 (defaultWeights df2).2 cand.1 act) cand.2
    (by
      intro m hm i
      obtain ⟨f, rows, h1, h2, -⟩ := hall m hm i
      exact ⟨f, rows, h1, h2⟩) 0
  obtain ⟨s1, s2, s3⟩ := fitLoop_spec _ _ _ _ _ hfits
  have hfne : fits.1 ≠ [] := by
    intro h0
    rw [h0, List.length_nil] at s1
    exact hcne (List.eq_nil_of_length_eq_zero s1.symm)
  have hruns : runFits w args source df = .ok ((actualsClean (defaultWeights df2).1 source ⟨(defaultWeights df2).2, runFreq df, range⟩ ++ fits.2).map (flagData (bestKey w.srt fits.1)),
      fits.1.map (flagMeta (bestKey w.srt fits.1))) := by
    unfold runFits
    simp only [bind, Except.bind]
    rw [hout]
    dsimp only
    rw [hrange]
    dsimp only
    rw [hcd]
    dsimp only
    rw [hact1]
    dsimp only
    rw [hfits]
    dsimp only
    rw [if_neg hfne]
  unfold runSingle
  simp only [bind, Except.bind]
  rw [hruns]
  dsimp only
  have hsel : ∀ d : List (DRow K) × List (MRow K), (∀ r ∈ (selectFits args.includeAll d).1, r ∈ d.1) ∧ ∀ r ∈ d.1, r.isActuals = true → r ∈ (selectFits args.includeAll d).1 := by
    intro d
    unfold selectFits
    split_ifs
    · exact ⟨fun r h => h, fun r h _ => h⟩
    · exact ⟨fun r h => (List.mem_filter.1 h).1, fun r h h2 => List.mem_filter.2 ⟨h, by simp [h2]⟩⟩
  have hdata : ∀ r ∈ (actualsClean (defaultWeights df2).1 source ⟨(defaultWeights df2).2, runFreq df, range⟩ ++ fits.2).map (flagData (bestKey w.srt fits.1)),
      r.source = source ∧ ∃ x : Int, r.date = t0 + x * (24 * 60 * 60 * 1000000000) := by
    intro r hr
    obtain ⟨q, hq, rfl⟩ := List.mem_map.1 hr
    rcases List.mem_append.1 hq with hq | hq
    · unfold actualsClean at hq
      obtain ⟨a, ha, rfl⟩ := List.mem_map.1 hq
      refine ⟨rfl, ?_⟩
      have h1 : a.date ∈ (kept args.start df).map Row.date := u3 ▸ List.mem_map.2 ⟨a, ha, rfl⟩
      obtain ⟨k, hk, e⟩ := List.mem_map.1 h1
      refine ⟨k.x, ?_⟩
      unfold flagData
      dsimp only
      rw [if_pos hdd, ← e]
      exact hkd k hk
    · obtain ⟨k, m, f, rows, e1, e2, e3, e4⟩ := s3 q hq
      obtain ⟨f', rows', g1, g2, g3⟩ := hall m (List.mem_of_getElem? e1) (0 + k)
      have : f = f' := Except.ok.inj (e2.symm.trans g1)
      subst this
      have : rows = rows' := Except.ok.inj (e3.symm.trans g2)
      subst this
      refine ⟨?_, g3 q e4⟩
      exact (forecastRows_mem _ _ _ _ e3 q e4).2.2.1
  obtain ⟨out, hpi⟩ := getPi_ok (w.draw source) df.hasDate (selectFits args.includeAll ((actualsClean (defaultWeights df2).1 source ⟨(defaultWeights df2).2, runFreq df, range⟩ ++ fits.2).map (flagData (bestKey w.srt fits.1)),
      fits.1.map (flagMeta (bestKey w.srt fits.1)))).1 source t0 100 args.nCum args.q1 args.q2 args.widening hc.percentiles
    (fun r hr => (hdata r ((hsel _).1 r hr)).1) (fun r hr => (hdata r ((hsel _).1 r hr)).2) (by
      match hk : kept args.start df, htwo with
      | a :: b :: l, _ =>
        have hab : a.x < b.x := by
          rw [hk] at hkx
          exact (List.pairwise_cons.1 hkx).1 b (by simp)
        have hda := hkd a (by rw [hk]; simp)
        have hdb := hkd b (by rw [hk]; simp)
        have hfind : ∀ k ∈ kept args.start df, ∃ d, d ∈ (actualsClean (defaultWeights df2).1 source ⟨(defaultWeights df2).2, runFreq df, range⟩ ++ fits.2).map (flagData (bestKey w.srt fits.1)) ∧ d.isActuals = true ∧ d.date = k.date := by
          intro k hkm
          have h1 : k.date ∈ (defaultWeights df2).1.rows.map Row.date := u3 ▸ List.mem_map.2 ⟨k, hkm, rfl⟩
          obtain ⟨a, ha, e⟩ := List.mem_map.1 h1
          refine ⟨_, List.mem_map.2 ⟨_, List.mem_append.2 (.inl (List.mem_map.2 ⟨a, ha, rfl⟩)), rfl⟩, rfl, ?_⟩
          unfold flagData
          dsimp only
          rw [if_pos hdd, e]
        obtain ⟨d1, i1, j1, k1⟩ := hfind a (by rw [hk]; simp)
        obtain ⟨d2, i2, j2, k2⟩ := hfind b (by rw [hk]; simp)
        refine ⟨d1, (hsel _).2 d1 i1 j1, d2, (hsel _).2 d2 i2 j2, j1, j2, ?_⟩
        omega)
  rw [hpi]
  exact ⟨_, rfl⟩

/-! ### Tables -/

omit [Field K] [LinearOrder K] [IsStrictOrderedRing K] [FloorRing K] in
/-- A series made of weekly rows is a weekly series. -/
theorem weekly_series {df : Frame K} {t0 : Timestamp} (h : DatedSeries df t0) (rows : List (SRow K))
    (hp : (df.rows.map fun r => (r.date, r.y, r.weight)).Perm (rows.map fun r => (r.date, r.y, r.weight))) (hw : WeeklyRows rows) : WeeklySeries df t0 := by
  have hto : ∀ q ∈ df.rows, ∃ r ∈ rows, q.date = r.date := by
    intro q hq
    have hm : (q.date, q.y, q.weight) ∈ rows.map fun r => (r.date, r.y, r.weight) := hp.mem_iff.1 (List.mem_map.2 ⟨q, hq, rfl⟩)
    obtain ⟨r, hr, e⟩ := List.mem_map.1 hm
    exact ⟨r, hr, (congrArg Prod.fst e).symm⟩
  have hof : ∀ r ∈ rows, ∃ q ∈ df.rows, q.date = r.date := by
    intro r hr
    have hm : (r.date, r.y, r.weight) ∈ df.rows.map fun r => (r.date, r.y, r.weight) := hp.mem_iff.2 (List.mem_map.2 ⟨r, hr, rfl⟩)
    obtain ⟨q, hq, e⟩ := List.mem_map.1 hm
    exact ⟨q, hq, congrArg Prod.fst e⟩
  refine ⟨h.dated, h.days, h.sorted, ?_, ?_⟩
  · intro q hq q' hq'
    obtain ⟨r, hr, e⟩ := hto q hq
    obtain ⟨r', hr', e'⟩ := hto q' hq'
    have h1 := hw.1 r hr r' hr'
    have h2 := h.days q hq
    have h3 := h.days q' hq'
    omega
  · obtain ⟨r, hr, r', hr', e⟩ := hw.2
    obtain ⟨q, hq, e1⟩ := hof r hr
    obtain ⟨q', hq', e2⟩ := hof r' hr'
    refine ⟨q, hq, q', hq', ?_⟩
    have h2 := h.days q hq
    have h3 := h.days q' hq'
    omega

theorem weekly_contracts {w : World K} {args : RunArgs K} {s : String} {n : Nat} {global : String → Option (CacheFn K)} {reg : Registry K}
    (hc : ∀ wd, Contracts w args s n global reg (some (.W wd))) {df : Frame K} {t0 : Timestamp} (h : WeeklySeries df t0) : Contracts w args s n global reg (runFreq df) := by
  obtain ⟨wd, -, -, hf, -⟩ := weekly_freq h
  unfold runFreq
  rw [h.dated, if_pos rfl, hf]
  exact hc wd

/-- **C82** for a table of one weekly series. -/
theorem C82_weekly_table_partial (w : World K) (args : RunArgs K) (id : String) (t : STable K) (hs : t.hasSource = false) (hone : OnePerDate t) (ht : WeeklyRows t.rows)
    (hout : args.findOutliers = false) (hf : Forecastable args.start t.hasWeight t.rows) (global : String → Option (CacheFn K)) (reg : Registry K)
    (hc : ∀ wd, Contracts w args id t.rows.length global reg (some (.W wd))) : ∃ res, runForecast w args id t = .ok (some res) := by
  obtain ⟨df, hdf, hrun, hw, hp⟩ := series_table w id t hs hone (by obtain ⟨r, hr, -⟩ := ht.2; exact List.ne_nil_of_mem hr)
  have hweekly := weekly_series hdf t.rows hp ht
  obtain ⟨h2, hl, i, r, hi, hy, hv⟩ := series_forecastable args.start df t.rows hp (hw ▸ hf)
  obtain ⟨res, hres⟩ := C82_weekly_partial w args id df _ hweekly h2 ⟨i, r, hi, hy, hv, by rw [hout]; simp⟩ global reg _ hl (weekly_contracts hc hweekly)
  exact ⟨res, by rw [hrun, hres]; rfl⟩

/-- **C82** for a table with any number of series, each of them daily or weekly. -/
theorem C82_mixed_partial (w : World K) (args : RunArgs K) (id : String) (t : STable K) (hs : t.hasSource = true) (hne : t.rows ≠ []) (hone : OnePerDate t)
    (hl : ∀ r ∈ t.rows, r.source ≠ none) (hout : args.findOutliers = false) (global : String → Option (CacheFn K)) (reg : Registry K)
    (hsrc : ∀ s, (∃ r ∈ t.rows, r.source = some s) → Forecastable args.start t.hasWeight (only s t).rows ∧
      ((DailyRows (only s t).rows ∧ Contracts w args s (only s t).rows.length global reg) ∨
        (WeeklyRows (only s t).rows ∧ ∀ wd, Contracts w args s (only s t).rows.length global reg (some (.W wd))))) :
    ∃ res, runForecast w args id t = .ok (some res) := by
  refine C47_succeeds w args id t hs hne hl ?_
  intro s hm
  obtain ⟨hf, hcase⟩ := hsrc s hm
  rcases hcase with ⟨hd, hc⟩ | ⟨hd, hc⟩
  · obtain ⟨df, t0, hdaily, hrun, hw, hp⟩ := daily_source w args id t hs hone hl s hd
    obtain ⟨h2, hlen, i, r, hi, hy, hv⟩ := series_forecastable args.start df _ hp (hw ▸ hf)
    obtain ⟨res, hres⟩ := C82_total_partial w args s df t0 hdaily h2 ⟨i, r, hi, hy, hv, by rw [hout]; simp⟩ global reg _ hlen hc
    exact ⟨res, by rw [hrun, hres]; rfl⟩
  · obtain ⟨df, hdf, hrun, hw, hp⟩ := series_source w id t hs hone hl s hm
    have hweekly := weekly_series hdf _ hp hd
    obtain ⟨h2, hlen, i, r, hi, hy, hv⟩ := series_forecastable args.start df _ hp (hw ▸ hf)
    obtain ⟨res, hres⟩ := C82_weekly_partial w args s df _ hweekly h2 ⟨i, r, hi, hy, hv, by rw [hout]; simp⟩ global reg _ hlen (weekly_contracts hc hweekly)
    exact ⟨res, by rw [hrun, hres]; rfl⟩

/-- **C82** for the models that are used by default, with the scores of the code: any number of series, each of up to 4047 samples and daily or weekly. -/
theorem C82_mixed_default_partial (w : World ℝ) (testEnv : Env ℝ) (hw : DefaultChoices w testEnv) (args : RunArgs ℝ)
    (hq : 0 < args.q1 ∧ args.q1 < 100 ∧ 0 < args.q2 ∧ args.q2 < 100)
    (hargs : args.models.trend = none ∧ args.models.season = none ∧ args.models.yearly = none ∧ args.models.weekly = none ∧ args.models.naive = none ∧ args.models.calendar = none)
    (hout : args.findOutliers = false) (id : String) (t : STable ℝ) (hs : t.hasSource = true) (hne : t.rows ≠ []) (hone : OnePerDate t)
    (hl : ∀ r ∈ t.rows, r.source ≠ none)
    (hsrc : ∀ s, (∃ r ∈ t.rows, r.source = some s) → (only s t).rows.length ≤ 4047 ∧ Forecastable args.start t.hasWeight (only s t).rows ∧
      (DailyRows (only s t).rows ∨ WeeklyRows (only s t).rows)) : ∃ res, runForecast w args id t = .ok (some res) := by
  refine C82_mixed_partial w args id t hs hne hone hl hout globalCache globalCache ?_
  intro s hm
  obtain ⟨h1, h2, h3⟩ := hsrc s hm
  refine ⟨h2, ?_⟩
  rcases h3 with h3 | h3
  · exact .inl ⟨h3, default_contracts w testEnv hw args hq hargs s _ h1⟩
  · exact .inr ⟨h3, fun wd => default_contracts w testEnv hw args hq hargs s _ h1 _⟩

/-! ### Concrete cases -/

/-- Weekly values, one week missing. -/
def weekFrame : Frame ℚ := ⟨true, false, [0, 1, 2, 4, 5, 6].map fun i : Nat => ⟨7 * (i : Int) * DAY, 7 * (i : Int), some (i : ℚ), none⟩⟩

theorem week_series : WeeklySeries weekFrame 0 := ⟨rfl, by unfold CountsDays; decide +kernel, by decide +kernel, by decide +kernel, by decide +kernel⟩

/-- The hypotheses of `C82_weekly_partial` on a concrete series. -/
example : ∃ res, runSingle totalWorld (demoArgs [modelConstant] (some [modelNaive stableSort])) "s" weekFrame = .ok res :=
  C82_weekly_partial totalWorld _ "s" weekFrame 0 week_series (by decide +kernel) ⟨0, _, rfl, by decide +kernel, ⟨1, rfl, by norm_num⟩, fun h => by cases h⟩ _ _ 6 (by decide +kernel)
    (total_contracts none 6 _)

theorem started_none (t : Timestamp) : Started none t := fun _ h => nomatch h

/-- A daily and a weekly source in one table, as `C82_mixed_default_partial` requires. -/
def dayWeekTable : STable ℚ :=
  ⟨true, true, false, false, ([3, 2, 1, 0].map fun i : Nat => ⟨(i : Int) * DAY, some "d", 0, some (i : ℚ), none⟩) ++
    [4, 2, 1, 0].map fun i : Nat => ⟨7 * (i : Int) * DAY, some "w", 0, some (i : ℚ), none⟩⟩

example : OnePerDate dayWeekTable ∧ (∀ r ∈ dayWeekTable.rows, r.source ≠ none) ∧ DailyRows (only "d" dayWeekTable).rows ∧ WeeklyRows (only "w" dayWeekTable).rows ∧
    Forecastable none false (only "d" dayWeekTable).rows ∧ Forecastable none false (only "w" dayWeekTable).rows :=
  ⟨⟨rfl, rfl, by decide +kernel, by decide +kernel⟩, by decide +kernel, by unfold DailyRows; decide +kernel, by unfold WeeklyRows; decide +kernel,
    ⟨⟨_, List.mem_cons_self, _, List.mem_cons_of_mem _ List.mem_cons_self, by decide +kernel, started_none _, started_none _⟩,
      ⟨_, List.mem_cons_self, started_none _, by decide +kernel, by decide +kernel⟩⟩,
    ⟨⟨_, List.mem_cons_self, _, List.mem_cons_of_mem _ List.mem_cons_self, by decide +kernel, started_none _, started_none _⟩,
      ⟨_, List.mem_cons_self, started_none _, by decide +kernel, by decide +kernel⟩⟩⟩


end Anticipy
