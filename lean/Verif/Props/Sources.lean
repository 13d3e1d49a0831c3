import Verif.Props.RunTables
import Verif.Props.Normalize

/-
C47: sources are forecast independently.
-/
namespace Anticipy
open Spec
variable {K : Type} [Field K] [LinearOrder K]

/-! ### Stable sorting and filtering -/

theorem insertBy_front {α : Type} (le : α → α → Bool) (a : α) (l : List α) (h : ∀ b ∈ l, le a b = true) : insertBy le a l = a :: l := by
  cases l with
  | nil => rfl
  | cons b l => simp [insertBy, h b (by simp)]

theorem insertBy_filter {α : Type} (le : α → α → Bool) (ht : ∀ a b c, le a b → le b c → le a c) (p : α → Bool) (a : α) (l : List α)
    (hs : l.Pairwise fun a b => le a b) :
    (insertBy le a l).filter p = if p a then insertBy le a (l.filter p) else l.filter p := by
  induction l with
  | nil => cases h : p a <;> simp [insertBy, h]
  | cons b l ih =>
    rw [List.pairwise_cons] at hs
    by_cases hab : le a b = true
    · have hfront : ∀ c ∈ (b :: l).filter p, le a c = true := by
        intro c hc
        rcases List.mem_cons.1 (List.mem_filter.1 hc).1 with rfl | hc'
        · exact hab
        · exact ht a b c hab (hs.1 c hc')
      rw [insertBy_front le a _ hfront]
      simp only [insertBy, hab, if_true]
      cases h : p a <;> simp [h]
    · simp only [insertBy, hab]
      have ih' := ih hs.2
      cases hb : p b with
      | false => simp only [Bool.false_eq_true, if_false, List.filter_cons, hb]; exact ih'
      | true =>
        simp only [Bool.false_eq_true, if_false, List.filter_cons, hb, if_true, ih']
        cases h : p a <;> simp [insertBy, hab]

theorem sortBy_filter {α : Type} (le : α → α → Bool) (ht : ∀ a b c, le a b → le b c → le a c) (hto : ∀ a b, (le a b || le b a) = true)
    (p : α → Bool) (l : List α) : (sortBy le l).filter p = sortBy le (l.filter p) := by
  induction l with
  | nil => rfl
  | cons a l ih =>
    simp only [sortBy]
    rw [insertBy_filter le ht p a _ (sortBy_sorted le ht hto l), ih]
    cases h : p a <;> simp [h, sortBy]

/-! ### Normalization of one source -/

omit [Field K] [LinearOrder K] in
theorem sourcePart_only (t : STable K) (s : String) : (only s t).rows = sourcePart t.rows (some s) := by
  unfold only sourcePart
  simp

omit [Field K] [LinearOrder K] in
theorem sourcePart_idem (rows : List (SRow K)) (s : Option String) : sourcePart (sourcePart rows s) s = sourcePart rows s := by
  unfold sourcePart
  rw [List.filter_filter]
  simp

omit [Field K] [LinearOrder K] in
theorem withX_flags (t t' : STable K) (hx : t'.hasX = t.hasX) (hd : t'.hasDate = t.hasDate) (part : List (SRow K)) : withX t' part = withX t part := by
  unfold withX
  rw [hx, hd]

omit [Field K] [LinearOrder K] in
/-- The rows of a source in the collected table are those of its own part. -/
theorem collect_part (t : STable K) (S : List (Option String)) (hn : S.Nodup) (out : List (SRow K)) (h : collectSources t S = .ok out) (s : String)
    (hs : some s ∈ S) : withX t (sourcePart t.rows (some s)) = .ok (sourcePart out (some s)) := by
  have hother : ∀ (s' : Option String) (part : List (SRow K)), withX t (sourcePart t.rows s') = .ok part → ∀ r ∈ part, r.source = s' := by
    intro s' part hp r hr
    obtain ⟨q, hq, e⟩ := withX_mem_source t _ _ hp r hr
    unfold sourcePart at hq
    rw [← e]
    exact (of_decide_eq_true (List.mem_filter.1 hq).2).1
  have hnone : ∀ (S : List (Option String)) (out : List (SRow K)), collectSources t S = .ok out → some s ∉ S → sourcePart out (some s) = [] := by
    intro S
    induction S with
    | nil => intro out h _; cases h; rfl
    | cons a S ih =>
      intro out h hns
      simp only [collectSources, bind, Except.bind] at h
      cases h1 : withX t (sourcePart t.rows a) with
      | error e => rw [h1] at h; cases h
      | ok p =>
        rw [h1] at h
        cases h2 : collectSources t S with
        | error e => rw [h2] at h; cases h
        | ok r =>
          rw [h2] at h
          cases h
          have e2 := ih r h2 (fun hc => hns (List.mem_cons_of_mem _ hc))
          unfold sourcePart at e2 ⊢
          rw [List.filter_append, e2, List.append_nil, List.filter_eq_nil_iff]
          intro q hq hc
          have := hother a p h1 q hq
          rw [(of_decide_eq_true hc).1] at this
          exact hns (by rw [this]; simp)
  induction S generalizing out with
  | nil => cases hs
  | cons a S ih =>
    rw [List.nodup_cons] at hn
    simp only [collectSources, bind, Except.bind] at h
    cases h1 : withX t (sourcePart t.rows a) with
    | error e => rw [h1] at h; cases h
    | ok p =>
      rw [h1] at h
      cases h2 : collectSources t S with
      | error e => rw [h2] at h; cases h
      | ok r =>
        rw [h2] at h
        cases h
        rcases List.mem_cons.1 hs with rfl | hs'
        · have e2 := hnone S r h2 hn.1
          rw [h1]
          congr 1
          unfold sourcePart at e2 ⊢
          rw [List.filter_append, e2, List.append_nil]
          symm
          rw [List.filter_eq_self]
          intro q hq
          simp [hother (some s) p h1 q hq]
        · rw [ih hn.2 r h2 hs']
          congr 1
          unfold sourcePart
          rw [List.filter_append]
          have : p.filter (fun r => decide (r.source = some s ∧ some s ≠ none)) = [] := by
            rw [List.filter_eq_nil_iff]
            intro q hq hc
            have := hother a p h1 q hq
            rw [(of_decide_eq_true hc).1] at this
            exact hn.1 (this ▸ hs')
          rw [this, List.nil_append]

omit [Field K] [LinearOrder K] in
theorem dedup_const {α : Type} [DecidableEq α] (l : List α) (a : α) (h : ∀ b ∈ l, b = a) (hne : l ≠ []) : dedupBy (fun x : α => x) l = [a] := by
  cases l with
  | nil => exact absurd rfl hne
  | cons b l =>
    have hb := h b (by simp)
    subst hb
    simp only [dedupBy, List.cons.injEq, true_and]
    rw [List.filter_eq_nil_iff]
    intro c hc
    have := h c (List.mem_cons_of_mem _ (mem_dedupBy _ _ _ hc))
    simp [this]

omit [Field K] [LinearOrder K] in
/-- Normalizing one source alone gives its part of the normalized table. -/
theorem normalize_only (srt : SortAlg) (t t' : STable K) (hs : t.hasSource = true) (h : normalizeDf srt t = .ok (some t')) (s : String)
    (hm : ∃ r ∈ t.rows, r.source = some s) :
    normalizeDf srt (only s t) = .ok (some { t' with rows := sourcePart t'.rows (some s) }) := by
  have hne : t.rows ≠ [] := by
    intro hc
    obtain ⟨r, hr, -⟩ := hm
    rw [hc] at hr
    cases hr
  have hpart : sourcePart t.rows (some s) ≠ [] := by
    obtain ⟨r, hr, e⟩ := hm
    exact List.ne_nil_of_mem (List.mem_filter.2 ⟨hr, by simp [e]⟩)
  unfold normalizeDf at h
  rw [if_neg hne, if_pos hs] at h
  simp only [bind, Except.bind] at h
  cases hc : collectSources t (dedupBy (fun s : Option String => s) (t.rows.map SRow.source)) with
  | error e => rw [hc] at h; cases h
  | ok out =>
    rw [hc] at h
    cases h
    have hin : some s ∈ dedupBy (fun s : Option String => s) (t.rows.map SRow.source) := by
      rw [mem_dedup]
      obtain ⟨r, hr, e⟩ := hm
      exact List.mem_map.2 ⟨r, hr, e⟩
    have hw := collect_part t _ (dedupBy_keys_nodup _ _) out hc s hin
    unfold normalizeDf
    have hrows : (only s t).rows = sourcePart t.rows (some s) := sourcePart_only t s
    rw [hrows, if_neg hpart, if_pos (show (only s t).hasSource = true from hs)]
    rw [dedup_const _ (some s) (by
      intro b hb
      obtain ⟨r, hr, rfl⟩ := List.mem_map.1 hb
      exact (of_decide_eq_true (List.mem_filter.1 hr).2).1) (by simpa using hpart)]
    simp only [collectSources, bind, Except.bind]
    rw [hrows, sourcePart_idem, withX_flags t (only s t) rfl rfl, hw]
    simp only [List.append_nil]
    congr 2
    unfold only
    dsimp only
    congr 1
    unfold sourcePart
    rw [sortBy_filter _ sourceXLe_trans sourceXLe_total]

/-! ### C47 -/

/-- One source alone. -/
theorem runForecast_only [FloorRing K] (w : World K) (args : RunArgs K) (sourceId : String) (t t' : STable K) (hs : t.hasSource = true)
    (h : normalizeDf w.srt t = .ok (some t')) (s : String) (hm : ∃ r ∈ t.rows, r.source = some s) :
    runForecast w args sourceId (only s t) = (runSingle w args s (frameOf t' (sourcePart t'.rows (some s)))).map some := by
  have hs' : t'.hasSource = true := ((C26_samples _ _ _ h).2.2.2.2.1).trans hs
  have hne : sourcePart t'.rows (some s) ≠ [] := by
    obtain ⟨r, hr, e⟩ := hm
    have hp := (C26_samples _ _ _ h).1
    have : (r.date, r.source, r.y, r.weight) ∈ samples t'.rows := by
      rw [hp.mem_iff]
      exact List.mem_map.2 ⟨r, List.mem_filter.2 ⟨hr, by simp [e]⟩, rfl⟩
    obtain ⟨q, hq, e'⟩ := List.mem_map.1 this
    simp only [Prod.mk.injEq] at e'
    exact List.ne_nil_of_mem (List.mem_filter.2 ⟨hq, by simp [e'.2.1, e]⟩)
  unfold runForecast
  rw [normalize_only w.srt t t' hs h s hm]
  simp only [bind, Except.bind, hs', if_true]
  rw [if_neg hne]
  rw [dedup_const _ (some s) (by
      intro b hb
      obtain ⟨r, hr, rfl⟩ := List.mem_map.1 hb
      exact (of_decide_eq_true (List.mem_filter.1 hr).2).1) (by simpa using hne)]
  simp only [runSources, bind, Except.bind, sourcePart_idem, Option.getD_some]
  have hf : frameOf { t' with hasSource := true, rows := sourcePart t'.rows (some s) } (sourcePart t'.rows (some s)) = frameOf t' (sourcePart t'.rows (some s)) := rfl
  rw [hf]
  cases runSingle w args s (frameOf t' (sourcePart t'.rows (some s))) with
  | error e => rfl
  | ok r => simp [RunResult.append, Except.map]

/-- The loop over sources. -/
theorem runSources_inv [FloorRing K] (w : World K) (args : RunArgs K) (t : STable K) (l : List (Option String)) (res : RunResult K) :
    runSources w args t l = .ok res ↔ ∃ parts : List (RunResult K),
      List.Forall₂ (fun s r => runSingle w args (s.getD "") (frameOf t (sourcePart t.rows s)) = .ok r) l parts ∧
      res = ⟨parts.flatMap RunResult.forecast, parts.flatMap RunResult.data, parts.flatMap RunResult.metadata⟩ := by
  induction l generalizing res with
  | nil =>
    constructor
    · intro h; cases h; exact ⟨[], .nil, rfl⟩
    · rintro ⟨parts, h, rfl⟩; cases h; rfl
  | cons s l ih =>
    simp only [runSources, bind, Except.bind]
    constructor
    · intro h
      cases h1 : runSingle w args (s.getD "") (frameOf t (sourcePart t.rows s)) with
      | error e => rw [h1] at h; cases h
      | ok r =>
        rw [h1] at h
        cases h2 : runSources w args t l with
        | error e => rw [h2] at h; cases h
        | ok r' =>
          rw [h2] at h
          cases h
          obtain ⟨parts, h3, rfl⟩ := (ih r').1 h2
          exact ⟨r :: parts, .cons h1 h3, rfl⟩
    · rintro ⟨parts, h, rfl⟩
      cases h with
      | cons h1 h2 =>
        rename_i r parts
        rw [h1, (ih _).2 ⟨parts, h2, rfl⟩]
        rfl

/-- The labels of a normalized table are its sources in increasing order. -/
theorem labels_sorted (srt : SortAlg) (t t' : STable K) (hs : t.hasSource = true) (h : normalizeDf srt t = .ok (some t')) :
    ∃ labels : List String, dedupBy (fun s : Option String => s) (t'.rows.map SRow.source) = labels.map some ∧ labels.Pairwise (· < ·) ∧
      ∀ s, s ∈ labels ↔ ∃ r ∈ t.rows, r.source = some s := by
  obtain ⟨h1, h2⟩ := normalize_sorted_source srt t t' hs h
  have hn := dedupBy_keys_nodup (fun s : Option String => s) (t'.rows.map SRow.source)
  have hsub := dedupBy_sublist (fun s : Option String => s) (t'.rows.map SRow.source)
  have hmem := fun a => mem_dedup (t'.rows.map SRow.source) a
  have hpair : (t'.rows.map SRow.source).Pairwise fun a b => a.getD "" ≤ b.getD "" := by
    rw [List.pairwise_map]
    refine h1.imp ?_
    intro a b hab
    rcases of_decide_eq_true hab with hab | hab
    · exact hab.le
    · exact hab.1.le
  generalize dedupBy (fun s : Option String => s) (t'.rows.map SRow.source) = L at hn hsub hmem
  have hsome : ∀ a ∈ L, a ≠ none := by
    intro a ha
    obtain ⟨r, hr, rfl⟩ := List.mem_map.1 ((hmem a).1 ha)
    exact h2 r hr
  refine ⟨L.map (Option.getD · ""), ?_, ?_, ?_⟩
  · rw [List.map_map]
    conv_lhs => rw [← List.map_id L]
    apply List.map_congr_left
    intro a ha
    cases a with
    | none => exact absurd rfl (hsome _ ha)
    | some s => rfl
  · rw [List.pairwise_map]
    have hp2 := hpair.sublist hsub
    refine List.Pairwise.imp_of_mem ?_ (hn.and hp2)
    intro a b ha hb hab
    refine lt_of_le_of_ne hab.2 ?_
    intro e
    cases a with
    | none => exact absurd rfl (hsome _ ha)
    | some u =>
      cases b with
      | none => exact absurd rfl (hsome _ hb)
      | some v => exact hab.1 (congrArg some e)
  · intro s
    have hperm := (C26_samples srt t t' h).1
    rw [hs] at hperm
    constructor
    · intro hm
      obtain ⟨a, ha, e⟩ := List.mem_map.1 hm
      obtain ⟨r, hr, rfl⟩ := List.mem_map.1 ((hmem a).1 ha)
      have hrs : r.source = some s := by
        cases hsr : r.source with
        | none => exact absurd hsr (h2 r hr)
        | some u => rw [hsr] at e; exact congrArg some e
      have : (r.date, r.source, r.y, r.weight) ∈ samples (labelled true t.rows) := hperm.mem_iff.1 (List.mem_map.2 ⟨r, hr, rfl⟩)
      obtain ⟨q, hq, e'⟩ := List.mem_map.1 this
      simp only [Prod.mk.injEq] at e'
      exact ⟨q, (List.mem_filter.1 hq).1, e'.2.1.trans hrs⟩
    · rintro ⟨r, hr, e⟩
      have : (r.date, r.source, r.y, r.weight) ∈ samples t'.rows :=
        hperm.mem_iff.2 (List.mem_map.2 ⟨r, List.mem_filter.2 ⟨hr, by simp [e]⟩, rfl⟩)
      obtain ⟨q, hq, e'⟩ := List.mem_map.1 this
      simp only [Prod.mk.injEq] at e'
      refine List.mem_map.2 ⟨q.source, (hmem _).2 (List.mem_map.2 ⟨q, hq, rfl⟩), ?_⟩
      rw [e'.2.1, e]
      rfl

/-- **C47.** The result for a table with sources is the concatenation, in the order of the labels, of the results for each source alone. -/
theorem C47_concatenation [FloorRing K] (w : World K) (args : RunArgs K) (sourceId : String) (t : STable K) (hs : t.hasSource = true)
    (res : RunResult K) (h : runForecast w args sourceId t = .ok (some res)) :
    ∃ (labels : List String) (parts : List (RunResult K)), labels.Pairwise (· < ·) ∧ (∀ s, s ∈ labels ↔ ∃ r ∈ t.rows, r.source = some s) ∧
      List.Forall₂ (fun s r => runForecast w args sourceId (only s t) = .ok (some r)) labels parts ∧
      res = ⟨parts.flatMap RunResult.forecast, parts.flatMap RunResult.data, parts.flatMap RunResult.metadata⟩ := by
  unfold runForecast at h
  cases hn : normalizeDf w.srt t with
  | error e => rw [hn] at h; cases h
  | ok o =>
    cases o with
    | none => rw [hn] at h; cases h
    | some t' =>
      rw [hn] at h
      have hs' : t'.hasSource = true := ((C26_samples _ _ _ hn).2.2.2.2.1).trans hs
      simp only [bind, Except.bind, hs', if_true] at h
      split_ifs at h with hne
      obtain ⟨labels, hl, hsorted, hmem⟩ := labels_sorted w.srt t t' hs hn
      cases hr : runSources w args t' (dedupBy (fun s : Option String => s) (t'.rows.map SRow.source)) with
      | error e => rw [hr] at h; cases h
      | ok r =>
        rw [hr] at h
        cases h
        obtain ⟨parts, hp, rfl⟩ := (runSources_inv w args t' _ res).1 hr
        refine ⟨labels, parts, hsorted, hmem, ?_, rfl⟩
        rw [hl, List.forall₂_map_left_iff] at hp
        have hall : ∀ s ∈ labels, ∃ r ∈ t.rows, r.source = some s := fun s hs => (hmem s).1 hs
        clear hmem hsorted hl hr
        induction hp with
        | nil => exact .nil
        | cons h1 h2 ih =>
          rename_i s r labels parts
          refine .cons ?_ (ih fun s hs => hall s (by simp [hs]))
          rw [runForecast_only w args sourceId t t' hs hn s (hall s (by simp)), show runSingle w args s _ = .ok r from h1]
          rfl

/-- **C47.** If every source alone can be forecast, so can the whole table. -/
theorem C47_succeeds [FloorRing K] (w : World K) (args : RunArgs K) (sourceId : String) (t : STable K) (hs : t.hasSource = true)
    (hne : t.rows ≠ []) (hl : ∀ r ∈ t.rows, r.source ≠ none)
    (h : ∀ s, (∃ r ∈ t.rows, r.source = some s) → ∃ r, runForecast w args sourceId (only s t) = .ok (some r)) :
    ∃ res, runForecast w args sourceId t = .ok (some res) := by
  obtain ⟨t', hn⟩ := (C26_returns w.srt t).2 hne (.inl fun _ => hl)
  have hs' : t'.hasSource = true := ((C26_samples _ _ _ hn).2.2.2.2.1).trans hs
  obtain ⟨labels, hlab, hsorted, hmem⟩ := labels_sorted w.srt t t' hs hn
  have hne' : t'.rows ≠ [] := by
    intro hc
    have hp := (C26_samples _ _ _ hn).1
    rw [hc] at hp
    cases hr : t.rows with
    | nil => exact hne hr
    | cons r rows =>
      have h0 := hl r (by rw [hr]; simp)
      have : (r.date, r.source, r.y, r.weight) ∈ samples (labelled t.hasSource t.rows) := by
        refine List.mem_map.2 ⟨r, List.mem_filter.2 ⟨by rw [hr]; simp, ?_⟩, rfl⟩
        rw [Option.isSome_iff_ne_none.2 h0]
        simp
      have := hp.mem_iff.2 this
      cases this
  have hparts : ∃ parts : List (RunResult K),
      List.Forall₂ (fun s r => runSingle w args (s.getD "") (frameOf t' (sourcePart t'.rows s)) = .ok r) (labels.map some) parts := by
    have hall : ∀ s ∈ labels, ∃ r ∈ t.rows, r.source = some s := fun s hs => (hmem s).1 hs
    clear hmem hsorted hlab
    induction labels with
    | nil => exact ⟨[], .nil⟩
    | cons s labels ih =>
      obtain ⟨parts, hp⟩ := ih fun s hs => hall s (by simp [hs])
      obtain ⟨r, hr⟩ := h s (hall s (by simp))
      rw [runForecast_only w args sourceId t t' hs hn s (hall s (by simp))] at hr
      cases h1 : runSingle w args s (frameOf t' (sourcePart t'.rows (some s))) with
      | error e => rw [h1] at hr; cases hr
      | ok r' => exact ⟨r' :: parts, .cons h1 hp⟩
  obtain ⟨parts, hp⟩ := hparts
  refine ⟨⟨parts.flatMap RunResult.forecast, parts.flatMap RunResult.data, parts.flatMap RunResult.metadata⟩, ?_⟩
  unfold runForecast
  rw [hn]
  simp only [bind, Except.bind, hs', if_true]
  rw [if_neg hne', hlab, (runSources_inv w args t' _ _).2 ⟨parts, hp, rfl⟩]

/-- All rows of the result for one source carry its label. -/
theorem runForecast_only_rows [FloorRing K] [IsStrictOrderedRing K] (w : World K) (args : RunArgs K) (sourceId : String) (t : STable K)
    (hs : t.hasSource = true) (s : String) (hm : ∃ r ∈ t.rows, r.source = some s) (r : RunResult K)
    (h : runForecast w args sourceId (only s t) = .ok (some r)) (s' : String) : resultOf s' r = if s' = s then r else ⟨[], [], []⟩ := by
  have hrows : ∀ q ∈ (only s t).rows, q.source = some s := by
    intro q hq
    exact of_decide_eq_true (List.mem_filter.1 hq).2
  have hmo : ∃ r ∈ (only s t).rows, r.source = some s := by
    obtain ⟨q, hq, e⟩ := hm
    exact ⟨q, List.mem_filter.2 ⟨hq, by simp [e]⟩, e⟩
  have hoo : only s (only s t) = only s t := by
    have e := sourcePart_only (only s t) s
    have e2 : (only s (only s t)).rows = (only s t).rows := by rw [e, sourcePart_only, sourcePart_idem]
    unfold only at e2 ⊢
    dsimp only at e2 ⊢
    rw [e2]
  cases hn : normalizeDf w.srt (only s t) with
  | error e => unfold runForecast at h; rw [hn] at h; cases h
  | ok o =>
    cases o with
    | none => unfold runForecast at h; rw [hn] at h; cases h
    | some t' =>
      have h1 := runForecast_only w args sourceId (only s t) t' hs hn s hmo
      rw [hoo, h] at h1
      cases h2 : runSingle w args s (frameOf t' (sourcePart t'.rows (some s))) with
      | error e => rw [h2] at h1; cases h1
      | ok r' =>
        rw [h2] at h1
        cases h1
        have k1 := run_sources w args s _ r h2
        have k2 := (C48_forecast_rows w args s _ r h2).2.1
        unfold resultOf
        split_ifs with hss
        · subst hss
          have e1 : r.forecast.filter (fun q => decide (q.source = some s')) = r.forecast :=
            List.filter_eq_self.2 fun q hq => by simp [k2 q hq]
          have e2 : r.data.filter (fun q => decide (q.source = s')) = r.data := List.filter_eq_self.2 fun q hq => by simp [k1.1 q hq]
          have e3 : r.metadata.filter (fun q => decide (q.source = s')) = r.metadata := List.filter_eq_self.2 fun q hq => by simp [k1.2 q hq]
          rw [e1, e2, e3]
        · have hss' : ¬ s = s' := fun hc => hss hc.symm
          have e1 : r.forecast.filter (fun q => decide (q.source = some s')) = [] :=
            List.filter_eq_nil_iff.2 fun q hq => by simp [k2 q hq, hss']
          have e2 : r.data.filter (fun q => decide (q.source = s')) = [] := List.filter_eq_nil_iff.2 fun q hq => by simp [k1.1 q hq, hss']
          have e3 : r.metadata.filter (fun q => decide (q.source = s')) = [] := List.filter_eq_nil_iff.2 fun q hq => by simp [k1.2 q hq, hss']
          rw [e1, e2, e3]

/-- **C47.** The rows of a source in the result of a whole table are the result of that source alone. -/
theorem C47_independent [FloorRing K] [IsStrictOrderedRing K] (w : World K) (args : RunArgs K) (sourceId : String) (t : STable K)
    (hs : t.hasSource = true) (res : RunResult K) (h : runForecast w args sourceId t = .ok (some res)) (s : String)
    (hm : ∃ r ∈ t.rows, r.source = some s) : runForecast w args sourceId (only s t) = .ok (some (resultOf s res)) := by
  obtain ⟨labels, parts, hsorted, hmem, hf, rfl⟩ := C47_concatenation w args sourceId t hs res h
  have hall : ∀ s ∈ labels, ∃ r ∈ t.rows, r.source = some s := fun s hs => (hmem s).1 hs
  have hin : s ∈ labels := (hmem s).2 hm
  have happ : ∀ (a : RunResult K) (l : List (RunResult K)),
      resultOf s (⟨(a :: l).flatMap RunResult.forecast, (a :: l).flatMap RunResult.data, (a :: l).flatMap RunResult.metadata⟩ : RunResult K) =
      (resultOf s a).append (resultOf s ⟨l.flatMap RunResult.forecast, l.flatMap RunResult.data, l.flatMap RunResult.metadata⟩) := by
    intro a l
    simp only [resultOf, RunResult.append, List.flatMap_cons, List.filter_append]
  have hnil : ∀ (labels : List String) (parts : List (RunResult K)), s ∉ labels → (∀ s ∈ labels, ∃ r ∈ t.rows, r.source = some s) →
      List.Forall₂ (fun s r => runForecast w args sourceId (only s t) = .ok (some r)) labels parts →
      resultOf s (⟨parts.flatMap RunResult.forecast, parts.flatMap RunResult.data, parts.flatMap RunResult.metadata⟩ : RunResult K) = ⟨[], [], []⟩ := by
    intro labels parts hns hall hf
    induction hf with
    | nil => rfl
    | cons h1 h2 ih =>
      rename_i a r labels parts
      rw [happ, ih (fun hc => hns (by simp [hc])) (fun s hs => hall s (by simp [hs])),
        runForecast_only_rows w args sourceId t hs a (hall a (by simp)) r h1 s, if_neg (by rintro rfl; exact hns (by simp))]
      rfl
  clear hmem h
  induction hf with
  | nil => cases hin
  | cons h1 h2 ih =>
    rename_i a r labels parts
    rw [List.pairwise_cons] at hsorted
    rw [happ, runForecast_only_rows w args sourceId t hs a (hall a (by simp)) r h1 s]
    by_cases hsa : s = a
    · subst hsa
      have hns : s ∉ labels := fun hc => lt_irrefl _ (hsorted.1 s hc)
      rw [if_pos rfl, hnil labels parts hns (fun s hs => hall s (by simp [hs])) h2, h1]
      simp [RunResult.append]
    · rw [if_neg hsa]
      have := ih hsorted.2 (fun s hs => hall s (by simp [hs])) (by simpa [hsa] using hin)
      rw [this]
      simp [RunResult.append]

/-- **C47.** Two tables that agree on a source give the same result for it. -/
theorem C47_no_influence [FloorRing K] [IsStrictOrderedRing K] (w : World K) (args : RunArgs K) (sourceId : String) (t t' : STable K)
    (hs : t.hasSource = true) (hs' : t'.hasSource = true) (s : String) (hm : ∃ r ∈ t.rows, r.source = some s) (hsame : only s t' = only s t)
    (res res' : RunResult K) (h : runForecast w args sourceId t = .ok (some res)) (h' : runForecast w args sourceId t' = .ok (some res')) :
    resultOf s res' = resultOf s res := by
  have hm' : ∃ r ∈ t'.rows, r.source = some s := by
    obtain ⟨r, hr, e⟩ := hm
    have : r ∈ (only s t).rows := List.mem_filter.2 ⟨hr, by simp [e]⟩
    rw [← hsame] at this
    exact ⟨r, (List.mem_filter.1 this).1, e⟩
  have h1 := C47_independent w args sourceId t hs res h s hm
  have h2 := C47_independent w args sourceId t' hs' res' h' s hm'
  rw [hsame, h1] at h2
  exact (Option.some.inj (Except.ok.inj h2)).symm

end Anticipy
