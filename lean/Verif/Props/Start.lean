import Verif.Props.Run
import Verif.Props.Interpolate

/-
C49: the starting date.
-/
namespace Anticipy
open Spec
variable {K : Type} [Field K] [LinearOrder K]

/-- Equal rows, or rows with equal date and x whose x is not in `xs`. -/
def AlikeRow (xs : List Int) (r r' : Row K) : Prop := r' = r ∨ (r'.date = r.date ∧ r'.x = r.x ∧ r.x ∉ xs)

theorem AlikeRow.date {xs : List Int} {r r' : Row K} (h : AlikeRow xs r r') : r'.date = r.date := by
  rcases h with rfl | h
  · rfl
  · exact h.1

theorem AlikeRow.x {xs : List Int} {r r' : Row K} (h : AlikeRow xs r r') : r'.x = r.x := by
  rcases h with rfl | h
  · rfl
  · exact h.2.1

theorem alike_dates {xs : List Int} {l l' : List (Row K)} (h : List.Forall₂ (AlikeRow xs) l l') : l'.map Row.date = l.map Row.date := by
  induction h with
  | nil => rfl
  | cons h1 _ ih => simp [h1.date, ih]

theorem alike_findRow {xs : List Int} {l l' : List (Row K)} (h : List.Forall₂ (AlikeRow xs) l l') (t : Int) :
    (findRow l t = none ∧ findRow l' t = none) ∨ ∃ r r', findRow l t = some r ∧ findRow l' t = some r' ∧ AlikeRow xs r r' := by
  induction h with
  | nil => exact .inl ⟨rfl, rfl⟩
  | cons h1 _ ih =>
    rename_i r r' l l' _
    unfold findRow at ih ⊢
    rw [List.find?_cons, List.find?_cons, h1.date]
    cases decide (r.date = t) with
    | true => exact .inr ⟨r, r', rfl, rfl, h1⟩
    | false => exact ih

theorem fillRows_alike {xs : List Int} {l l' : List (Row K)} (h : List.Forall₂ (AlikeRow xs) l l') (grid : List Int) (cols : List Int)
    (hcol : ∀ (i : Nat) (t x : Int), grid[i]? = some t → cols[i]? = some x → ∀ r, findRow l t = some r → r.x = x) :
    List.Forall₂ (AlikeRow xs) (fillRows grid l cols) (fillRows grid l' cols) := by
  induction grid generalizing cols with
  | nil => simp [fillRows]
  | cons t grid ih =>
    cases cols with
    | nil => simp [fillRows]
    | cons c cols =>
      have ih' := ih cols (fun i t x h1 h2 => hcol (i + 1) t x (by simpa using h1) (by simpa using h2))
      unfold fillRows at ih' ⊢
      rw [List.map_cons, List.map_cons, List.zipWith_cons_cons, List.zipWith_cons_cons]
      refine .cons ?_ ih'
      rcases alike_findRow h t with ⟨e1, e2⟩ | ⟨r, r', e1, e2, h3⟩
      · left; rw [e1, e2]
      · rw [e1, e2]
        rcases h3 with rfl | h3
        · left; rfl
        · right
          refine ⟨rfl, rfl, ?_⟩
          have := hcol 0 t c rfl rfl r e1
          rw [← this]
          exact h3.2.2

/-- Gap filling of tables that differ only in y and weight of some rows. -/
theorem interpolate_alike {xs : List Int} (df df' : Frame K) (hd : df.hasDate = true) (hd' : df'.hasDate = df.hasDate)
    (hw : df'.hasWeight = df.hasWeight) (h : List.Forall₂ (AlikeRow xs) df.rows df'.rows) :
    (∃ e, interpolateDf df = .error e ∧ interpolateDf df' = .error e) ∨
    ∃ out out', interpolateDf df = .ok out ∧ interpolateDf df' = .ok out' ∧ out'.hasDate = out.hasDate ∧ out'.hasWeight = out.hasWeight ∧
      List.Forall₂ (AlikeRow xs) out.rows out'.rows := by
  have hdates := alike_dates h
  have hx : ∀ grid : List Int, (grid.map fun t => (t, findRow df'.rows t)).map (fun p => p.2.map fun r => ((r.x : Int) : ℚ)) =
      (grid.map fun t => (t, findRow df.rows t)).map (fun p => p.2.map fun r => ((r.x : Int) : ℚ)) := by
    intro grid
    rw [List.map_map, List.map_map]
    apply List.map_congr_left
    intro t _
    rcases alike_findRow h t with ⟨e1, e2⟩ | ⟨r, r', e1, e2, h3⟩
    · simp [e1, e2]
    · simp [e1, e2, h3.x]
  unfold interpolateDf
  rw [hd', hd]
  simp only [if_true, hdates, hx]
  split_ifs with c1 c2
  · exact .inr ⟨df, df', rfl, rfl, hd', hw, h⟩
  · exact .inl ⟨_, rfl, rfl⟩
  · cases h1 : listMin (df.rows.map Row.date) with
    | none => exact .inr ⟨df, df', rfl, rfl, hd', hw, h⟩
    | some a =>
      cases h2 : listMax (df.rows.map Row.date) with
      | none => exact .inr ⟨df, df', rfl, rfl, hd', hw, h⟩
      | some b =>
        dsimp only
        cases h3 : toIntCol (interpolateCol (((dateRange a b ((detectFreq (df.rows.map Row.date)).getD .D)).map fun t => (t, findRow df.rows t)).map
            (fun p => p.2.map fun r => ((r.x : Int) : ℚ)))) with
        | error e => exact .inl ⟨e, rfl, rfl⟩
        | ok cols =>
          refine .inr ⟨_, _, rfl, rfl, rfl, hw, ?_⟩
          apply fillRows_alike h
          intro i t x ht hx r hr
          obtain ⟨hl, hs⟩ := toIntCol_spec _ _ h3
          have hk : (((dateRange a b ((detectFreq (df.rows.map Row.date)).getD .D)).map fun t => (t, findRow df.rows t)).map
            (fun p => p.2.map fun r => ((r.x : Int) : ℚ)))[i]? = some (some ((r.x : Int) : ℚ)) := by
            rw [List.map_map, List.getElem?_map, ht]
            simp [hr]
          have h5 := interpolateFrom_known none _ i _ hk
          have h6 := hs i r.x h5
          rw [hx] at h6
          exact (Option.some.inj h6).symm

/-- Sorting by x permutes alike rows in the same way. -/
theorem sort_alike {xs : List Int} (srt : SortAlg) {l l' : List (Row K)} (h : List.Forall₂ (AlikeRow xs) l l') :
    List.Forall₂ (AlikeRow xs) (srt.run (fun a b : Row K => decide (a.x ≤ b.x)) l) (srt.run (fun a b : Row K => decide (a.x ≤ b.x)) l') := by
  have hP : ∀ p ∈ List.zip l l', AlikeRow xs p.1 p.2 := by
    intro p hp
    exact (List.forall₂_iff_zip.1 h).2 hp
  have e1 : (List.zip l l').map Prod.fst = l := List.map_fst_zip (by rw [h.length_eq])
  have e2 : (List.zip l l').map Prod.snd = l' := List.map_snd_zip (by rw [h.length_eq])
  have n1 := srt.natural (fun p q : Row K × Row K => decide (p.1.x ≤ q.1.x)) (fun a b : Row K => decide (a.x ≤ b.x)) Prod.fst (List.zip l l')
    (fun a _ b _ => rfl)
  have n2 := srt.natural (fun p q : Row K × Row K => decide (p.1.x ≤ q.1.x)) (fun a b : Row K => decide (a.x ≤ b.x)) Prod.snd (List.zip l l')
    (fun a ha b hb => by rw [(hP a ha).x, (hP b hb).x])
  rw [e1] at n1
  rw [e2] at n2
  rw [n1, n2, List.forall₂_map_left_iff, List.forall₂_map_right_iff, List.forall₂_same]
  intro p hp
  exact hP p ((srt.perm _ _).mem_iff.1 hp)

theorem mergeWeight_alike {xs : List Int} (used : List (Row K)) (hu : ∀ u ∈ used, u.x ∈ xs) {r r' : Row K} (h : AlikeRow xs r r') :
    mergeWeight used r' = mergeWeight used r := by
  rcases h with rfl | ⟨h1, h2, h3⟩
  · rfl
  · have e : used.filter (fun u => decide (u.x = r.x)) = [] := by
      rw [List.filter_eq_nil_iff]
      intro u hm hc
      exact h3 (of_decide_eq_true hc ▸ hu u hm)
    unfold mergeWeight
    rw [h2, e]
    dsimp only
    rw [h1]

theorem actualsInterpolated_alike {xs : List Int} (srt : SortAlg) (df df' used : Frame K) (hd : df.hasDate = true) (hd' : df'.hasDate = df.hasDate)
    (hw : df'.hasWeight = df.hasWeight) (h : List.Forall₂ (AlikeRow xs) df.rows df'.rows) (hu : ∀ u ∈ used.rows, u.x ∈ xs) :
    actualsInterpolated srt df' used = actualsInterpolated srt df used := by
  unfold actualsInterpolated
  rcases interpolate_alike df df' hd hd' hw h with ⟨e, e1, e2⟩ | ⟨out, out', e1, e2, e3, -, e5⟩
  · rw [e1, e2]
  · rw [e1, e2]
    simp only [bind, Except.bind, e3]
    congr 2
    have := sort_alike srt e5
    generalize srt.run (fun a b : Row K => decide (a.x ≤ b.x)) out.rows = l at this
    generalize srt.run (fun a b : Row K => decide (a.x ≤ b.x)) out'.rows = l' at this
    induction this with
    | nil => rfl
    | cons h1 _ ih => rw [List.flatMap_cons, List.flatMap_cons, ih, mergeWeight_alike _ hu h1]

/-- **C49 (values).** Values and weights of dated samples before the starting date have no influence on the result, provided that those samples do not
share their x with later ones. -/
theorem C49_values_partial [FloorRing K] [IsStrictOrderedRing K] (w : World K) (args : RunArgs K) (source : String) (d : Timestamp) (df df' : Frame K)
    (hstart : args.start = some d) (hdate : df.hasDate = true) (hsame : SameFrom d df df')
    (hx : ∀ r ∈ df.rows, ∀ s ∈ df.rows, r.date < d → d ≤ s.date → r.x ≠ s.x) :
    runSingle w args source df' = runSingle w args source df := by
  obtain ⟨hd', hw', hrows⟩ := hsame
  have hkept : kept (some d) df' = kept (some d) df := by
    unfold kept
    rw [hd', hdate]
    simp only [Bool.not_true, Bool.false_or]
    clear hx
    generalize df.rows = l at hrows
    generalize df'.rows = l' at hrows
    induction hrows with
    | nil => rfl
    | cons h1 _ ih =>
      rename_i r r' l l' _
      rw [List.filter_cons, List.filter_cons, ih, h1.1]
      by_cases hr : d ≤ r.date
      · rw [h1.2.2 hr]
      · simp [hr]
  have hfilter : filterStart args.start df' = filterStart args.start df := by
    rw [filterStart_rows, filterStart_rows, hstart, hkept, hd', hw']
  have hal : List.Forall₂ (AlikeRow ((kept (some d) df).map Row.x)) df.rows df'.rows := by
    rw [List.forall₂_iff_get] at hrows ⊢
    refine ⟨hrows.1, ?_⟩
    intro i h1 h2
    obtain ⟨k1, k2, k3⟩ := hrows.2 i h1 h2
    by_cases hr : d ≤ (df.rows.get ⟨i, h1⟩).date
    · exact .inl (k3 hr)
    · right
      refine ⟨k1, k2, ?_⟩
      intro hc
      obtain ⟨s, hs, e⟩ := List.mem_map.1 hc
      have hs' := List.mem_filter.1 hs
      rw [hdate] at hs'
      refine hx _ (List.get_mem _ _) s hs'.1 (not_le.1 hr) ?_ e.symm
      simpa using hs'.2
  have hfreq : runFreq df' = runFreq df := by
    unfold runFreq
    rw [hd', alike_dates hal]
  have hfits : runFits w args source df' = runFits w args source df := by
    unfold runFits
    rw [hfilter, hfreq]
    cases h1 : applyOutliers args.findOutliers (filterStart args.start df) with
    | error e => rfl
    | ok df2 =>
      have hact : actualsInterpolated w.srt df' (usedRows (defaultWeights df2).1) = actualsInterpolated w.srt df (usedRows (defaultWeights df2).1) := by
        apply actualsInterpolated_alike _ _ _ _ hdate hd' hw' hal
        intro u hu
        have hu1 := (List.mem_filter.1 hu).1
        obtain ⟨spike, -, -, -, e⟩ := weights_stage _ _ _ h1
        rw [e, filterStart_rows, hstart] at hu1
        unfold weighted at hu1
        obtain ⟨i, hi⟩ := List.getElem?_of_mem hu1
        rw [List.getElem?_zipWith] at hi
        cases hr : (kept (some d) df)[i]? with
        | none => rw [hr] at hi; cases hi
        | some r =>
          rw [hr] at hi
          cases hs : spike[i]? with
          | none => rw [hs] at hi; cases hi
          | some b =>
            rw [hs] at hi
            have hi := Option.some.inj hi
            rw [← hi]
            exact List.mem_map.2 ⟨r, List.mem_of_getElem? hr, rfl⟩
      have hset : ∀ a b c e, mkSetup w args source df' a b c e = mkSetup w args source df a b c e := by
        intro a b c e
        unfold mkSetup
        rw [hfreq]
      simp only [bind, Except.bind, hact, hset]
  unfold runSingle
  rw [hfits, hd']

/-- **C49 (no dates).** For series without dates the starting date is ignored. -/
theorem C49_no_dates [FloorRing K] (w : World K) (args : RunArgs K) (source : String) (df : Frame K) (hdate : df.hasDate = false) :
    runSingle w args source df = runSingle w { args with start := none } source df := by
  have hf : filterStart args.start df = filterStart none df := by
    unfold filterStart
    cases args.start with
    | none => rfl
    | some d => simp [hdate]
  unfold runSingle runFits
  rw [hf]
  rfl

end Anticipy
