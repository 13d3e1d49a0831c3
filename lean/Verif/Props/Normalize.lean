import Verif.Model.Normalize
import Verif.Lemmas.ListOps
import Verif.Lemmas.Split
import Verif.Lemmas.OnGrid
import Mathlib.Data.String.Basic
import Mathlib.Data.List.Nodup

/-
C26 - C28: normalisation of input tables (`normalize_df`).
-/
namespace Anticipy
open Spec

variable {K : Type}

/-! ### Specification -/

/-- The samples of a table: everything but the x coordinate, which may be derived. -/
def Spec.samples (rows : List (SRow K)) : List (Int × Option String × Option K × Option K) :=
  rows.map fun r => (r.date, r.source, r.y, r.weight)

/-- The rows that have a source label, if the table has sources. -/
def Spec.labelled (hasSource : Bool) (rows : List (SRow K)) : List (SRow K) :=
  rows.filter fun r => !hasSource || r.source.isSome

/-- Sorted by source label, then by x. -/
def Spec.SortedBySourceX (rows : List (SRow K)) : Prop :=
  rows.Pairwise fun a b => ∃ s s', a.source = some s ∧ b.source = some s' ∧ (s < s' ∨ (s = s' ∧ a.x ≤ b.x))

/-! ### Helper lemmas -/

theorem normalizedX_length (l : List Int) : (normalizedX l).length = l.length := by
  cases l <;> simp [normalizedX]

theorem assignX_samples (rows : List (SRow K)) (xs : List Int) (h : xs.length = rows.length) :
    samples (assignX rows xs) = samples rows := by
  induction rows generalizing xs with
  | nil => simp [assignX, samples]
  | cons r rows ih =>
    cases xs with
    | nil => simp at h
    | cons x xs =>
      simp only [List.length_cons, Nat.add_right_cancel_iff] at h
      have := ih xs h
      simp only [assignX, samples, List.zipWith_cons_cons, List.map_cons] at this ⊢
      rw [this]

theorem withX_samples (t : STable K) (part out : List (SRow K)) (h : withX t part = .ok out) : samples out = samples part := by
  unfold withX at h
  split at h
  · simp only [Except.ok.injEq] at h; rw [h]
  · split at h
    · split at h
      · simp at h
      · simp only [Except.ok.injEq] at h
        rw [← h, assignX_samples _ _ (by rw [normalizedX_length, List.length_map])]
    · simp only [Except.ok.injEq] at h
      rw [← h, assignX_samples _ _ (by simp)]

theorem withX_id (t : STable K) (hX : t.hasX = true) (part out : List (SRow K)) (h : withX t part = .ok out) : out = part := by
  unfold withX at h
  simp only [hX, if_true, Except.ok.injEq] at h
  exact h.symm

theorem samples_append (a b : List (SRow K)) : samples (a ++ b) = samples a ++ samples b := by simp [samples]

theorem collect_samples (t : STable K) (S : List (Option String)) (out : List (SRow K)) (h : collectSources t S = .ok out) :
    samples out = samples (S.flatMap fun s => sourcePart t.rows s) ∧
    (t.hasX = true → out = S.flatMap fun s => sourcePart t.rows s) := by
  induction S generalizing out with
  | nil => simp only [collectSources, Except.ok.injEq] at h; subst h; simp
  | cons s S ih =>
    simp only [collectSources, bind, Except.bind] at h
    cases hp : withX t (sourcePart t.rows s) with
    | error e => rw [hp] at h; simp at h
    | ok p =>
      rw [hp] at h
      cases hr : collectSources t S with
      | error e => rw [hr] at h; simp at h
      | ok r =>
        rw [hr] at h
        simp only [Except.ok.injEq] at h
        subst h
        obtain ⟨i1, i2⟩ := ih r hr
        constructor
        · rw [List.flatMap_cons, samples_append, samples_append, i1, withX_samples t _ _ hp]
        · intro hX
          rw [List.flatMap_cons, ← i2 hX, withX_id t hX _ _ hp]

theorem sourcePart_flatMap (rows : List (SRow K)) :
    ((dedupBy (fun s : Option String => s) (rows.map SRow.source)).flatMap fun s => sourcePart rows s).Perm
      (labelled true rows) := by
  have hn : (dedupBy (fun s : Option String => s) (rows.map SRow.source)).Nodup := dedupBy_keys_nodup _ _
  have h1 : ((dedupBy (fun s : Option String => s) (rows.map SRow.source)).flatMap fun s => sourcePart rows s) =
      ((dedupBy (fun s : Option String => s) (rows.map SRow.source)).flatMap fun s =>
        (rows.filter fun r => r.source.isSome).filter fun r => decide (r.source = s)) := by
    apply List.flatMap_congr
    intro s _
    rw [List.filter_filter]
    apply List.filter_congr
    intro r _
    by_cases h : r.source = s
    · subst h
      cases r.source <;> simp
    · simp [h]
  rw [h1]
  refine (flatMap_filter_perm SRow.source _ hn _).trans (List.Perm.of_eq ?_)
  rw [List.filter_eq_self.2]
  · simp [labelled]
  · intro r hr
    rw [List.mem_filter] at hr
    simp only [decide_eq_true_eq, mem_dedup]
    exact List.mem_map.2 ⟨r, hr.1, rfl⟩

/-! ### C26 -/

/-- **C26** If normalisation returns a table, it contains exactly the labelled input samples, each as often as in the input, and with
an x column in the input also the x values are kept. Optional columns stay, x is added. -/
theorem C26_samples (srt : SortAlg) (t out : STable K) (h : normalizeDf srt t = .ok (some out)) :
    (samples out.rows).Perm (samples (labelled t.hasSource t.rows)) ∧
    (t.hasX = true → out.rows.Perm (labelled t.hasSource t.rows)) ∧
    out.hasX = true ∧ out.hasDate = t.hasDate ∧ out.hasSource = t.hasSource ∧ out.hasWeight = t.hasWeight := by
  unfold normalizeDf at h
  split at h
  · simp at h
  · split at h
    · rename_i hs
      simp only [bind, Except.bind] at h
      cases hr : collectSources t (dedupBy (fun s : Option String => s) (t.rows.map SRow.source)) with
      | error e => rw [hr] at h; simp at h
      | ok r =>
        rw [hr] at h
        simp only [Except.ok.injEq, Option.some.injEq] at h
        subst h
        obtain ⟨i1, i2⟩ := collect_samples t _ r hr
        have hp := sourcePart_flatMap t.rows
        have hsort := sortBy_perm sourceXLe r
        simp only [hs]
        refine ⟨?_, ?_, by simp⟩
        · have a : (samples (sortBy sourceXLe r)).Perm (samples r) := hsort.map _
          refine a.trans ?_
          rw [i1]
          exact hp.map _
        · intro hX
          refine hsort.trans ?_
          rw [i2 hX]
          exact hp
    · rename_i hs
      simp only [Bool.not_eq_true] at hs
      simp only [bind, Except.bind] at h
      cases hr : withX t t.rows with
      | error e => rw [hr] at h; simp at h
      | ok r =>
        rw [hr] at h
        simp only [Except.ok.injEq, Option.some.injEq] at h
        subst h
        have hl : labelled false t.rows = t.rows := by simp [labelled]
        simp only [hs, hl]
        refine ⟨?_, ?_, by simp⟩
        · have a : (samples (srt.run (fun a b : SRow K => decide (a.x ≤ b.x)) r)).Perm (samples r) := (srt.perm _ r).map _
          rwa [withX_samples t _ _ hr] at a
        · intro hX
          have := srt.perm (fun a b : SRow K => decide (a.x ≤ b.x)) r
          rwa [withX_id t hX _ _ hr] at this ⊢

theorem withX_ok (t : STable K) (part : List (SRow K)) (h : part ≠ [] ∨ t.hasX = true ∨ t.hasDate = false) : ∃ out, withX t part = .ok out := by
  unfold withX
  split
  · exact ⟨_, rfl⟩
  · split
    · split
      · rename_i h1 h2
        simp_all
      · exact ⟨_, rfl⟩
    · exact ⟨_, rfl⟩

theorem collect_ok (t : STable K) (S : List (Option String))
    (h : ∀ s ∈ S, sourcePart t.rows s ≠ [] ∨ t.hasX = true ∨ t.hasDate = false) : ∃ out, collectSources t S = .ok out := by
  induction S with
  | nil => exact ⟨_, rfl⟩
  | cons s S ih =>
    obtain ⟨p, hp⟩ := withX_ok t (sourcePart t.rows s) (h s (by simp))
    obtain ⟨r, hr⟩ := ih (fun s hs => h s (by simp [hs]))
    exact ⟨p ++ r, by simp only [collectSources, bind, Except.bind, hp, hr]⟩

/-- **C26** (normalisation returns) A non-empty table is normalised without error if all rows are labelled (or there are no sources), or
if it has x, or no dates. The empty table gives `None`. -/
theorem C26_returns (srt : SortAlg) (t : STable K) :
    (t.rows = [] → normalizeDf srt t = .ok none) ∧
    (t.rows ≠ [] → (t.hasSource = true → ∀ r ∈ t.rows, r.source ≠ none) ∨ t.hasX = true ∨ t.hasDate = false →
      ∃ out, normalizeDf srt t = .ok (some out)) := by
  constructor
  · intro h; simp [normalizeDf, h]
  · intro hne h
    unfold normalizeDf
    rw [if_neg hne]
    split
    · rename_i hs
      obtain ⟨r, hr⟩ := collect_ok t (dedupBy (fun s : Option String => s) (t.rows.map SRow.source)) (by
        intro s hsm
        rcases h with h | h
        · left
          rw [mem_dedup, List.mem_map] at hsm
          obtain ⟨r, hr, rfl⟩ := hsm
          have h1 := h hs r hr
          intro hc
          unfold sourcePart at hc
          rw [List.filter_eq_nil_iff] at hc
          exact hc r hr (by simp [h1])
        · right; exact h)
      exact ⟨_, by simp only [bind, Except.bind, hr]; rfl⟩
    · obtain ⟨r, hr⟩ := withX_ok t t.rows (.inl hne)
      exact ⟨_, by simp only [bind, Except.bind, hr]; rfl⟩

/-- Two sources, unsorted. -/
def C26_table : STable ℚ := ⟨true, true, false, false,
  [⟨2 * DAY, some "b", 0, some 5, none⟩, ⟨DAY, some "a", 0, some 1, none⟩, ⟨0, some "b", 0, none, none⟩, ⟨2 * DAY, some "a", 0, some 3, none⟩]⟩

example : normalizeDf stableSort C26_table = .ok (some ⟨true, true, true, false,
  [⟨DAY, some "a", 4, some 1, none⟩, ⟨2 * DAY, some "a", 5, some 3, none⟩, ⟨0, some "b", 3, none, none⟩, ⟨2 * DAY, some "b", 5, some 5, none⟩]⟩) := by
  decide +kernel

/-- A dated table without x in which a row has no source label is not normalised at all: `IndexError`. -/
theorem C26_unlabelled_error (srt : SortAlg) :
    normalizeDf srt (⟨true, true, false, false, [⟨0, some "a", 0, some 1, none⟩, ⟨DAY, none, 0, some 2, none⟩]⟩ : STable ℚ) =
      .error .indexError := by
  simp [normalizeDf, collectSources, dedupBy, sourcePart, withX, bind, Except.bind]

/-! ### C27 -/

theorem sourceXLe_trans (a b c : SRow K) (h1 : sourceXLe a b) (h2 : sourceXLe b c) : sourceXLe a c := by
  simp only [sourceXLe, decide_eq_true_eq] at *
  rcases h1 with h1 | ⟨h1, h1'⟩ <;> rcases h2 with h2 | ⟨h2, h2'⟩
  · exact .inl (lt_trans h1 h2)
  · exact .inl (h2 ▸ h1)
  · exact .inl (h1 ▸ h2)
  · exact .inr ⟨h1.trans h2, le_trans h1' h2'⟩

theorem sourceXLe_total (a b : SRow K) : (sourceXLe a b || sourceXLe b a) = true := by
  simp only [sourceXLe, Bool.or_eq_true, decide_eq_true_eq]
  rcases lt_trichotomy (a.source.getD "") (b.source.getD "") with h | h | h
  · exact .inl (.inl h)
  · rcases le_total a.x b.x with h' | h'
    · exact .inl (.inr ⟨h, h'⟩)
    · exact .inr (.inr ⟨h.symm, h'⟩)
  · exact .inr (.inl h)

theorem withX_mem_source (t : STable K) (part out : List (SRow K)) (h : withX t part = .ok out) (r : SRow K) (hr : r ∈ out) :
    ∃ q ∈ part, q.source = r.source := by
  have hs := withX_samples t part out h
  have : (r.date, r.source, r.y, r.weight) ∈ samples part := by
    rw [← hs]; exact List.mem_map.2 ⟨r, hr, rfl⟩
  obtain ⟨q, hq, e⟩ := List.mem_map.1 this
  simp only [Prod.mk.injEq] at e
  exact ⟨q, hq, e.2.1⟩

theorem normalize_sorted_source (srt : SortAlg) (t out : STable K) (hs : t.hasSource = true) (h : normalizeDf srt t = .ok (some out)) :
    out.rows.Pairwise (fun a b => sourceXLe a b) ∧ ∀ r ∈ out.rows, r.source ≠ none := by
  have hperm := (C26_samples srt t out h).1
  rw [hs] at hperm
  constructor
  · unfold normalizeDf at h
    split at h
    · simp at h
    · simp only [hs, if_true, bind, Except.bind] at h
      cases hr : collectSources t (dedupBy (fun s : Option String => s) (t.rows.map SRow.source)) with
      | error e => rw [hr] at h; simp at h
      | ok r =>
        rw [hr] at h
        simp only [Except.ok.injEq, Option.some.injEq] at h
        subst h
        exact sortBy_sorted sourceXLe sourceXLe_trans sourceXLe_total r
  · intro r hr
    have : (r.date, r.source, r.y, r.weight) ∈ samples (labelled true t.rows) :=
      hperm.mem_iff.1 (List.mem_map.2 ⟨r, hr, rfl⟩)
    obtain ⟨q, hq, e⟩ := List.mem_map.1 this
    simp only [labelled, List.mem_filter, Bool.not_true, Bool.false_or] at hq
    simp only [Prod.mk.injEq] at e
    rw [← e.2.1]
    cases hqs : q.source with
    | none => rw [hqs] at hq; simp at hq
    | some s => simp

/-- **C27** A normalised table is sorted by source and then x (by x without sources). -/
theorem C27_sorted (srt : SortAlg) (t out : STable K) (h : normalizeDf srt t = .ok (some out)) :
    (t.hasSource = true → SortedBySourceX out.rows) ∧ (t.hasSource = false → out.rows.Pairwise fun a b => a.x ≤ b.x) := by
  constructor
  · intro hs
    obtain ⟨h1, h2⟩ := normalize_sorted_source srt t out hs h
    refine (List.pairwise_iff_forall_sublist.2 ?_)
    intro a b hab
    have hle := List.pairwise_iff_forall_sublist.1 h1 hab
    have ha := h2 a (hab.subset (by simp))
    have hb := h2 b (hab.subset (by simp))
    obtain ⟨s, hs⟩ := Option.ne_none_iff_exists'.1 ha
    obtain ⟨s', hs'⟩ := Option.ne_none_iff_exists'.1 hb
    refine ⟨s, s', hs, hs', ?_⟩
    simpa [sourceXLe, hs, hs'] using hle
  · intro hs
    unfold normalizeDf at h
    split at h
    · simp at h
    · simp only [hs, Bool.false_eq_true, if_false, bind, Except.bind] at h
      cases hr : withX t t.rows with
      | error e => rw [hr] at h; simp at h
      | ok r =>
        rw [hr] at h
        simp only [Except.ok.injEq, Option.some.injEq] at h
        subst h
        have := srt.sorted (fun a b : SRow K => decide (a.x ≤ b.x)) r (by simp only [decide_eq_true_eq]; intros; omega)
          (by simp only [Bool.or_eq_true, decide_eq_true_eq]; intros; omega)
        exact this.imp fun h => by simpa using h

/-- **C27** (idempotence) Normalising a normalised table with sources returns the same table. -/
theorem C27_idempotent_sources (srt srt' : SortAlg) (t out : STable K) (hs : t.hasSource = true)
    (h : normalizeDf srt t = .ok (some out)) (hne : out.rows ≠ []) : normalizeDf srt' out = .ok (some out) := by
  obtain ⟨h1, h2⟩ := normalize_sorted_source srt t out hs h
  obtain ⟨_, _, hX, _, hS, _⟩ := C26_samples srt t out h
  have hS : out.hasSource = true := hS.trans hs
  obtain ⟨r, hr⟩ := collect_ok out (dedupBy (fun s : Option String => s) (out.rows.map SRow.source)) (fun _ _ => .inr (.inl hX))
  have e := (collect_samples out _ r hr).2 hX
  unfold normalizeDf
  rw [if_neg hne]
  simp only [hS, if_true, bind, Except.bind, hr]
  have hsrt : (out.rows.map SRow.source).Pairwise fun a b => a.getD "" ≤ b.getD "" := by
    rw [List.pairwise_map]
    refine h1.imp fun {a b} h => ?_
    simp only [sourceXLe, decide_eq_true_eq] at h
    rcases h with h | h
    · exact h.le
    · exact h.1.le
  have hrows : r = out.rows := by
    rw [e]
    have hflat : ((dedupBy (fun s : Option String => s) (out.rows.map SRow.source)).flatMap fun s => sourcePart out.rows s) =
        ((dedupBy (fun s : Option String => s) (out.rows.map SRow.source)).flatMap fun s =>
          out.rows.filter fun r => decide (r.source = s)) := by
      apply List.flatMap_congr
      intro s _
      apply List.filter_congr
      intro r hr
      by_cases hrs : r.source = s
      · subst hrs; simp [h2 r hr]
      · simp [hrs]
    rw [hflat]
    apply flatMap_filter_sorted SRow.source (fun o : Option String => o.getD "")
    · have a := hsrt.sublist (dedupBy_sublist (fun s : Option String => s) _)
      have b := dedupBy_keys_nodup (fun s : Option String => s) (out.rows.map SRow.source)
      have c : ∀ s ∈ dedupBy (fun s : Option String => s) (out.rows.map SRow.source), s ≠ none := by
        intro s hsm
        rw [mem_dedup, List.mem_map] at hsm
        obtain ⟨r, hr, rfl⟩ := hsm
        exact h2 r hr
      refine List.pairwise_iff_forall_sublist.2 ?_
      intro p q hpq
      have a' := List.pairwise_iff_forall_sublist.1 a hpq
      have b' := List.pairwise_iff_forall_sublist.1 b hpq
      have hp := c p (hpq.subset (by simp))
      have hq := c q (hpq.subset (by simp))
      refine lt_of_le_of_ne a' ?_
      intro heq
      apply b'
      obtain ⟨s, rfl⟩ := Option.ne_none_iff_exists'.1 hp
      obtain ⟨s', rfl⟩ := Option.ne_none_iff_exists'.1 hq
      simpa using heq
    · rw [List.pairwise_map] at hsrt; exact hsrt
    · intro r hr
      rw [mem_dedup]
      exact List.mem_map.2 ⟨r, hr, rfl⟩
  rw [hrows, sortBy_of_sorted sourceXLe _ h1]
  clear hr e hsrt hrows h h1 h2 hne
  obtain ⟨a, b, c, d, rows⟩ := out
  simp only at hX hS
  rw [hX, hS]

/-- **C27** (idempotence without sources) Normalising again keeps the rows up to reordering among equal x; with distinct x the same
table is returned. The single-key sort of pandas is not stable, so nothing more can be said about ties. -/
theorem C27_idempotent (srt srt' : SortAlg) (t out : STable K) (hs : t.hasSource = false)
    (h : normalizeDf srt t = .ok (some out)) :
    ∃ out', normalizeDf srt' out = .ok (some out') ∧ out'.rows.Perm out.rows ∧ out'.rows.map SRow.x = out.rows.map SRow.x ∧
      ((out.rows.map SRow.x).Nodup → out' = out) := by
  have hsorted := (C27_sorted srt t out h).2 hs
  obtain ⟨hp1, _, hX, _, hS, _⟩ := C26_samples srt t out h
  have hS : out.hasSource = false := hS.trans hs
  have hne : out.rows ≠ [] := by
    intro hc
    unfold normalizeDf at h
    split at h
    · simp at h
    · rename_i hne
      rw [hc, hs] at hp1
      have := hp1.length_eq
      simp [samples, labelled] at this
      exact hne (List.length_eq_zero_iff.1 this.symm)
  obtain ⟨out', h'⟩ := (C26_returns srt' out).2 hne (.inr (.inl hX))
  obtain ⟨_, hp2, hX', hd', hS', hw'⟩ := C26_samples srt' out out' h'
  have hp2 := hp2 hX
  rw [hS] at hp2
  have hp2 : out'.rows.Perm out.rows := by simpa [labelled] using hp2
  have hsorted' := (C27_sorted srt' out out' h').2 hS
  have hxs : out'.rows.map SRow.x = out.rows.map SRow.x := by
    apply List.Perm.eq_of_pairwise (le := fun a b : Int => a ≤ b)
    · intros; omega
    · rw [List.pairwise_map]; exact hsorted'
    · rw [List.pairwise_map]; exact hsorted
    · exact hp2.map _
  refine ⟨out', h', hp2, hxs, ?_⟩
  intro hn
  have : out'.rows = out.rows := by
    have key : ∀ (l m : List (SRow K)), l.Perm m → l.map SRow.x = m.map SRow.x → (m.map SRow.x).Nodup → l = m := by
      intro l m hlm hx hn
      apply List.ext_getElem?
      intro i
      have hi : (l.map SRow.x)[i]? = (m.map SRow.x)[i]? := by rw [hx]
      simp only [List.getElem?_map] at hi
      cases hl : l[i]? with
      | none => rw [hl] at hi; cases hm : m[i]? with
        | none => rfl
        | some b => rw [hm] at hi; simp at hi
      | some a =>
        rw [hl] at hi
        cases hm : m[i]? with
        | none => rw [hm] at hi; simp at hi
        | some b =>
          rw [hm] at hi
          simp only [Option.map_some, Option.some.injEq] at hi
          have ham : a ∈ m := hlm.mem_iff.1 (List.mem_of_getElem? hl)
          have hbm : b ∈ m := List.mem_of_getElem? hm
          rw [List.inj_on_of_nodup_map hn ham hbm hi]
    exact key _ _ hp2 hxs hn
  cases out; cases out'; simp_all

example : normalizeDf stableSort (⟨false, false, false, false, [⟨0, none, 0, some 1, none⟩, ⟨0, none, 0, some 2, none⟩]⟩ : STable ℚ) =
    .ok (some ⟨false, false, true, false, [⟨0, none, 0, some 1, none⟩, ⟨0, none, 1, some 2, none⟩]⟩) := by decide +kernel

/-! ### C28 -/

/-- Monday on or before the first date of a part. -/
def baseOf (part : List (SRow K)) : Int :=
  match part with
  | [] => 0
  | r :: _ => r.date - weekday r.date * DAY

theorem withX_dated (t : STable K) (hX : t.hasX = false) (hd : t.hasDate = true) (part out : List (SRow K)) (h : withX t part = .ok out) :
    out = part.map fun r => { r with x := (r.date - baseOf part) / DAY } := by
  unfold withX at h
  simp only [hX, hd, Bool.false_eq_true, if_false, if_true] at h
  cases part with
  | nil => simp at h
  | cons r part =>
    simp only [Except.ok.injEq] at h
    subst h
    simp only [List.map_cons, normalizedX, baseOf]
    generalize (r.date - weekday r.date * DAY) = b
    simp only [assignX, List.zipWith_cons_cons, List.cons.injEq, true_and]
    induction part with
    | nil => rfl
    | cons q part ih => simp only [List.map_cons, List.zipWith_cons_cons, ih]

theorem collect_dated (t : STable K) (hX : t.hasX = false) (hd : t.hasDate = true) (S : List (Option String)) (out : List (SRow K))
    (h : collectSources t S = .ok out) :
    out = (S.flatMap fun s => sourcePart t.rows s).map fun r => { r with x := (r.date - baseOf (sourcePart t.rows r.source)) / DAY } := by
  induction S generalizing out with
  | nil => simp only [collectSources, Except.ok.injEq] at h; subst h; rfl
  | cons s S ih =>
    simp only [collectSources, bind, Except.bind] at h
    cases hp : withX t (sourcePart t.rows s) with
    | error e => rw [hp] at h; simp at h
    | ok p =>
      rw [hp] at h
      cases hr : collectSources t S with
      | error e => rw [hr] at h; simp at h
      | ok r =>
        rw [hr] at h
        simp only [Except.ok.injEq] at h
        subst h
        rw [List.flatMap_cons, List.map_append, ← ih r hr, withX_dated t hX hd _ _ hp]
        congr 1
        apply List.map_congr_left
        intro r hr
        unfold sourcePart at hr
        rw [List.mem_filter] at hr
        have : r.source = s := by
          have := hr.2
          simp only [decide_eq_true_eq] at this
          exact this.1
        rw [this]

/-- The base of a row's source. -/
def baseIn (t : STable K) (s : Option String) : Int :=
  if t.hasSource then baseOf (sourcePart t.rows s) else baseOf t.rows

/-- The normalised rows are the labelled rows with x counted from the base of the source. -/
theorem normalize_dated (srt : SortAlg) (t out : STable K) (hX : t.hasX = false) (hd : t.hasDate = true)
    (h : normalizeDf srt t = .ok (some out)) :
    out.rows.Perm ((labelled t.hasSource t.rows).map fun r => { r with x := (r.date - baseIn t r.source) / DAY }) := by
  unfold normalizeDf at h
  split at h
  · simp at h
  · split at h
    · rename_i hs
      simp only [bind, Except.bind] at h
      cases hr : collectSources t (dedupBy (fun s : Option String => s) (t.rows.map SRow.source)) with
      | error e => rw [hr] at h; simp at h
      | ok r =>
        rw [hr] at h
        simp only [Except.ok.injEq, Option.some.injEq] at h
        subst h
        simp only
        refine (sortBy_perm _ _).trans ?_
        rw [collect_dated t hX hd _ _ hr, hs]
        simp only [baseIn, hs, if_true]
        exact (sourcePart_flatMap t.rows).map _
    · rename_i hs
      simp only [Bool.not_eq_true] at hs
      simp only [bind, Except.bind] at h
      cases hr : withX t t.rows with
      | error e => rw [hr] at h; simp at h
      | ok r =>
        rw [hr] at h
        simp only [Except.ok.injEq, Option.some.injEq] at h
        subst h
        simp only
        refine (srt.perm _ _).trans ?_
        rw [withX_dated t hX hd _ _ hr, hs]
        simp only [baseIn, hs, Bool.false_eq_true, if_false]
        simp [labelled]

theorem baseOf_spec (part : List (SRow K)) (h : part ≠ []) : ∃ r ∈ part, baseOf part = r.date - weekday r.date * DAY := by
  cases part with
  | nil => exact absurd rfl h
  | cons r part => exact ⟨r, by simp, rfl⟩

/-- **C28** Permuting the rows of a dated table (without x column) whose dates share the time of day: the second result is, up to
order, the first one with the x of every source shifted by a whole number of weeks. -/
theorem C28_permutation (srt srt' : SortAlg) (t t' out out' : STable K) (hperm : t'.rows.Perm t.rows)
    (hflags : t'.hasSource = t.hasSource ∧ t'.hasDate = t.hasDate ∧ t'.hasX = t.hasX) (hX : t.hasX = false) (hd : t.hasDate = true)
    (htod : ∀ r ∈ t.rows, ∀ r' ∈ t.rows, (r.date - r'.date) % dayNs = 0)
    (h : normalizeDf srt t = .ok (some out)) (h' : normalizeDf srt' t' = .ok (some out')) :
    ∃ weeks : Option String → Int, out'.rows.Perm (out.rows.map fun r => { r with x := r.x + 7 * weeks r.source }) := by
  have e1 := normalize_dated srt t out hX hd h
  have e2 := normalize_dated srt' t' out' (hflags.2.2.trans hX) (hflags.2.1.trans hd) h'
  rw [hflags.1] at e2
  refine ⟨fun s => (baseIn t s - baseIn t' s) / (7 * DAY), ?_⟩
  refine e2.trans ?_
  have hl : (labelled t.hasSource t'.rows).Perm (labelled t.hasSource t.rows) := hperm.filter _
  refine (hl.map _).trans ?_
  refine List.Perm.trans (List.Perm.of_eq ?_) (e1.map _).symm
  rw [List.map_map]
  apply List.map_congr_left
  intro r hr
  simp only [labelled, List.mem_filter] at hr
  simp only [Function.comp, SRow.mk.injEq, true_and, and_true]
  have hb : ∃ q ∈ t.rows, baseIn t r.source = q.date - weekday q.date * DAY := by
    unfold baseIn
    split
    · rename_i hs
      have hsome : r.source ≠ none := by
        rw [hs] at hr
        intro hc; rw [hc] at hr; simp at hr
      obtain ⟨q, hq, e⟩ := baseOf_spec (sourcePart t.rows r.source) (by
        intro hc; unfold sourcePart at hc; rw [List.filter_eq_nil_iff] at hc; exact hc r hr.1 (by simp [hsome]))
      exact ⟨q, (List.mem_filter.1 hq).1, e⟩
    · obtain ⟨q, hq, e⟩ := baseOf_spec t.rows (List.ne_nil_of_mem hr.1)
      exact ⟨q, hq, e⟩
  have hb' : ∃ q ∈ t.rows, baseIn t' r.source = q.date - weekday q.date * DAY := by
    have hr' : r ∈ t'.rows := hperm.mem_iff.2 hr.1
    unfold baseIn
    rw [hflags.1]
    split
    · rename_i hs
      have hsome : r.source ≠ none := by
        rw [hs] at hr
        intro hc; rw [hc] at hr; simp at hr
      obtain ⟨q, hq, e⟩ := baseOf_spec (sourcePart t'.rows r.source) (by
        intro hc; unfold sourcePart at hc; rw [List.filter_eq_nil_iff] at hc; exact hc r hr' (by simp [hsome]))
      exact ⟨q, hperm.mem_iff.1 (List.mem_filter.1 hq).1, e⟩
    · obtain ⟨q, hq, e⟩ := baseOf_spec t'.rows (List.ne_nil_of_mem hr')
      exact ⟨q, hperm.mem_iff.1 hq, e⟩
  obtain ⟨q, hq, eq⟩ := hb
  obtain ⟨q', hq', eq'⟩ := hb'
  have a1 := htod r hr.1 q hq
  have a2 := htod r hr.1 q' hq'
  rw [eq, eq']
  simp only [weekday, weekdayOfDay, dayOf, DAY, dayNs] at *
  omega

/-- Reversing a daily series that starts on a Sunday (so that the last date is in another week): x is shifted by one week. -/
example : normalizeDf stableSort (⟨true, false, false, false, [⟨3 * DAY, none, 0, some 1, none⟩, ⟨4 * DAY, none, 0, some 2, none⟩]⟩ : STable ℚ) =
    .ok (some ⟨true, false, true, false, [⟨3 * DAY, none, 6, some 1, none⟩, ⟨4 * DAY, none, 7, some 2, none⟩]⟩) ∧
  normalizeDf stableSort (⟨true, false, false, false, [⟨4 * DAY, none, 0, some 2, none⟩, ⟨3 * DAY, none, 0, some 1, none⟩]⟩ : STable ℚ) =
    .ok (some ⟨true, false, true, false, [⟨3 * DAY, none, -1, some 1, none⟩, ⟨4 * DAY, none, 0, some 2, none⟩]⟩) := by decide +kernel

end Anticipy

#print axioms Anticipy.C26_samples
#print axioms Anticipy.C26_returns
#print axioms Anticipy.C26_unlabelled_error
#print axioms Anticipy.C27_sorted
#print axioms Anticipy.C27_idempotent_sources
#print axioms Anticipy.C27_idempotent
#print axioms Anticipy.C28_permutation
