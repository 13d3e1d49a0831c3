import Verif.Props.Outliers
import Verif.Spec.LoneOutliers

/-
C93: outlier detection finds a lone spike and a lone step, and nothing else. C39: steps lie between abrupt jumps.
-/
namespace Anticipy
open Spec
variable {K : Type} [Field K] [LinearOrder K] [IsStrictOrderedRing K] [FloorRing K]

/-! ### Columns of the working table -/

theorem get_mkRows_all (ks : List Int) (ds : List (Option K)) (cs is : List Bool) (gs : List Nat) (n : Nat) (r : ORow K)
    (h : (mkRows ks ds cs is gs)[n]? = some r) : is[n]? = some r.inGroup ∧ gs[n]? = some r.group := by
  induction ks generalizing ds cs is gs n with
  | nil => simp [mkRows] at h
  | cons k ks ih =>
    rcases ds with _ | ⟨d, ds⟩ <;> rcases cs with _ | ⟨c, cs⟩ <;> rcases is with _ | ⟨i, is⟩ <;> rcases gs with _ | ⟨g, gs⟩ <;>
      simp only [mkRows, List.getElem?_nil, reduceCtorEq] at h
    cases n with
    | zero => simp at h; subst h; simp
    | succ n =>
      rw [List.getElem?_cons_succ] at h
      simpa using ih _ _ _ _ _ h

theorem colDiff_at (l : List (Option K)) (i : Nat) (u v : K) (h1 : l[i + 1]? = some (some u)) (h0 : l[i]? = some (some v)) :
    (colDiff l)[i + 1]? = some (some (u - v)) := by
  cases l with
  | nil => simp at h0
  | cons a t =>
    unfold colDiff
    rw [List.getElem?_cons_succ, List.getElem?_zipWith, h0]
    rw [List.getElem?_cons_succ] at h1
    rw [h1]
    rfl

theorem rollingAny_here (l : List Bool) (i : Nat) (h0 : 0 < i) (h1 : i + 1 < l.length) (h : l[i]? = some true) :
    (rollingAny 3 l)[i]? = some true := by
  unfold rollingAny
  rw [List.getElem?_map, List.getElem?_range (by omega)]
  simp only [Option.map_some, Option.some.injEq, Bool.and_eq_true, decide_eq_true_eq, List.any_eq_true, id]
  refine ⟨⟨by omega, by omega⟩, true, ?_, rfl⟩
  rw [List.mem_iff_getElem?]
  refine ⟨1, ?_⟩
  rw [List.getElem?_take, if_pos (by omega), List.getElem?_drop, show i + (3 - 1) / 2 + 1 - 3 + 1 = i by omega, h]

theorem changeGroups_go_same (l : List Bool) (p : Bool) (k i : Nat) (b : Bool) (h0 : l[i]? = some b) (h1 : l[i + 1]? = some b) :
    (changeGroups.go p k l)[i]? = (changeGroups.go p k l)[i + 1]? := by
  induction l generalizing p k i with
  | nil => simp at h0
  | cons a l ih =>
    rw [List.getElem?_cons_succ] at h1
    cases i with
    | zero =>
      simp only [List.getElem?_cons_zero, Option.some.injEq] at h0
      subst h0
      cases l with
      | nil => simp at h1
      | cons c l =>
        simp only [List.getElem?_cons_zero, Option.some.injEq] at h1
        subst h1
        simp [changeGroups.go]
    | succ i =>
      rw [List.getElem?_cons_succ] at h0
      simp only [changeGroups.go, List.getElem?_cons_succ]
      exact ih _ _ _ h0 h1

theorem changeGroups_same (l : List Bool) (i : Nat) (b : Bool) (h0 : l[i]? = some b) (h1 : l[i + 1]? = some b) :
    (changeGroups l)[i]? = (changeGroups l)[i + 1]? := by
  cases l with
  | nil => simp at h0
  | cons a l => exact changeGroups_go_same _ _ _ _ _ h0 h1

theorem filter_one {α : Type} (p : α → Bool) (l : List α) (i : Nat) (a : α) (hi : l[i]? = some a) (ha : p a = true)
    (h : ∀ k b, l[k]? = some b → p b = true → k = i) : l.filter p = [a] := by
  induction l generalizing i with
  | nil => simp at hi
  | cons x l ih =>
    cases i with
    | zero =>
      simp only [List.getElem?_cons_zero, Option.some.injEq] at hi
      subst hi
      rw [List.filter_cons_of_pos ha]
      congr 1
      rw [List.filter_eq_nil_iff]
      intro b hb hpb
      obtain ⟨k, hk⟩ := List.mem_iff_getElem?.1 hb
      have := h (k + 1) b (by rw [List.getElem?_cons_succ]; exact hk) hpb
      omega
    | succ i =>
      rw [List.getElem?_cons_succ] at hi
      have hx : ¬ p x = true := fun hp => by
        have := h 0 x rfl hp
        omega
      rw [List.filter_cons_of_neg hx]
      exact ih i hi fun k b hk hp => by
        have := h (k + 1) b (by rw [List.getElem?_cons_succ]; exact hk) hp
        omega

theorem filter_two {α : Type} (p : α → Bool) (l : List α) (i : Nat) (a a' : α) (hi : l[i]? = some a) (hi' : l[i + 1]? = some a')
    (ha : p a = true) (ha' : p a' = true) (h : ∀ k b, l[k]? = some b → p b = true → k = i ∨ k = i + 1) : l.filter p = [a, a'] := by
  induction l generalizing i with
  | nil => simp at hi
  | cons x l ih =>
    rw [List.getElem?_cons_succ] at hi'
    cases i with
    | zero =>
      simp only [List.getElem?_cons_zero, Option.some.injEq] at hi
      subst hi
      rw [List.filter_cons_of_pos ha, filter_one p l 0 a' hi' ha' fun k b hk hp => by
        have := h (k + 1) b (by rw [List.getElem?_cons_succ]; exact hk) hp
        omega]
    | succ i =>
      rw [List.getElem?_cons_succ] at hi
      have hx : ¬ p x = true := fun hp => by
        have := h 0 x rfl hp
        omega
      rw [List.filter_cons_of_neg hx]
      exact ih i hi hi' fun k b hk hp => by
        have := h (k + 1) b (by rw [List.getElem?_cons_succ]; exact hk) hp
        omega

/-- Row `k` of the working table: its position, and whether the jump to it is abrupt. -/
theorem row_at (df : Frame K) (lo hi : K) (ht : iqrThresholds (colDiff (df.rows.map Row.y)) = some (lo, hi)) (w k : Nat) (q : ORow K)
    (hq : (outlierRows w (outlierKeys df) (df.rows.map Row.y))[k]? = some q) :
    (∀ r, df.rows[k]? = some r → q.key = axis df r) ∧ (q.change = true ↔ ∃ d, Jump df k d ∧ (d < lo ∨ hi < d)) ∧
      ∀ d, Jump df k d → q.dif = some d := by
  obtain ⟨hk, hd, hc⟩ := get_mkRows _ _ _ _ _ k q hq
  have hjump : ∀ d, Jump df k d → q.dif = some d := by
    rintro d ⟨r, s, u, v, hr, h0, hs, hu, hv, rfl⟩
    have := colDiff_at (df.rows.map Row.y) (k - 1) u v (by rw [show k - 1 + 1 = k by omega, List.getElem?_map, hr, Option.map_some, hu])
      (by rw [List.getElem?_map, hs, Option.map_some, hv])
    rw [show k - 1 + 1 = k by omega, hd, Option.some.injEq] at this
    exact this
  refine ⟨fun r hr => ?_, ?_, hjump⟩
  · unfold outlierKeys at hk
    unfold axis
    split_ifs at hk ⊢ <;> · rw [List.getElem?_map, hr] at hk; simpa using hk.symm
  · rw [List.getElem?_map, hd, Option.map_some, Option.some.injEq, ht] at hc
    constructor
    · intro h
      rw [h] at hc
      cases hv : q.dif with
      | none => rw [hv] at hc; cases hc
      | some v =>
        rw [hv] at hd hc
        obtain ⟨u, x, h0, hu, hx, e⟩ := colDiff_get _ _ _ hd
        rw [List.getElem?_map] at hu hx
        obtain ⟨ru, hru, eu⟩ := Option.map_eq_some_iff.1 hu
        obtain ⟨rx, hrx, ex⟩ := Option.map_eq_some_iff.1 hx
        exact ⟨v, ⟨ru, rx, u, x, hru, h0, hrx, eu, ex, e⟩, of_decide_eq_true hc⟩
    · rintro ⟨d, hd', ho⟩
      rw [hjump d hd'] at hc
      rw [← hc]
      exact decide_eq_true ho

/-- A row with an abrupt jump, neither first nor last, belongs to a group of changes. -/
theorem inGroup_at (df : Frame K) (lo hi : K) (ht : iqrThresholds (colDiff (df.rows.map Row.y)) = some (lo, hi)) (k : Nat) (q : ORow K)
    (hq : (outlierRows 3 (outlierKeys df) (df.rows.map Row.y))[k]? = some q) (h0 : 0 < k) (h1 : k + 1 < df.rows.length)
    (hc : q.change = true) : q.inGroup = true := by
  obtain ⟨hi', -⟩ := get_mkRows_all _ _ _ _ _ k q hq
  have hc' := (get_mkRows _ _ _ _ _ k q hq).2.2
  rw [hc] at hc'
  rw [rollingAny_here _ k h0 (by rw [List.length_map, colDiff_length, List.length_map]; exact h1) hc', Option.some.injEq] at hi'
  exact hi'.symm

theorem masks_eq (df : Frame K) (w : Nat) (step spike : List Bool) (h : getModelOutliers df w = .ok (step, spike))
    (hc : (outlierRows w (outlierKeys df) (df.rows.map Row.y)).any ORow.change = true) :
    step = (outlierRows w (outlierKeys df) (df.rows.map Row.y)).map (maskStep df.hasDate (iqrThresholds (colDiff (df.rows.map Row.y)))
      (outlierRows w (outlierKeys df) (df.rows.map Row.y))) ∧
    spike = (outlierRows w (outlierKeys df) (df.rows.map Row.y)).map (maskSpike df.hasDate (iqrThresholds (colDiff (df.rows.map Row.y)))
      (outlierRows w (outlierKeys df) (df.rows.map Row.y))) := by
  unfold getModelOutliers at h
  dsimp only at h
  split_ifs at h
  cases h
  exact ⟨rfl, rfl⟩

theorem rows_length (df : Frame K) (w : Nat) : (outlierRows w (outlierKeys df) (df.rows.map Row.y)).length = df.rows.length := by
  have hk : (outlierKeys df).length = (df.rows.map Row.y).length := by unfold outlierKeys; split_ifs <;> simp
  have hl := outlierRows_length w (outlierKeys df) (df.rows.map Row.y) hk
  rwa [List.length_map] at hl

theorem mask_only (l : List (ORow K)) (f : ORow K → Bool) (i n : Nat) (hn : l.length = n)
    (h : ∀ k q, l[k]? = some q → (f q = true ↔ k = i)) : l.map f = markOnly i n := by
  unfold markOnly
  apply List.ext_getElem?
  intro k
  rw [List.getElem?_map, List.getElem?_map]
  rcases Nat.lt_or_ge k n with hk | hk
  · rw [List.getElem?_range hk, List.getElem?_eq_getElem (by omega)]
    simp only [Option.map_some, Option.some.injEq]
    rw [Bool.eq_iff_iff, h k _ (List.getElem?_eq_getElem (by omega))]
    simp
  · rw [List.getElem?_eq_none (by omega), List.getElem?_eq_none (by simp; omega)]; rfl

theorem mask_none (l : List (ORow K)) (f : ORow K → Bool) (n : Nat) (hn : l.length = n) (h : ∀ q ∈ l, f q = false) :
    l.map f = List.replicate n false := by
  rw [List.eq_replicate_iff]
  refine ⟨by simpa using hn, fun b hb => ?_⟩
  obtain ⟨q, hq, rfl⟩ := List.mem_map.1 hb
  exact h q hq

/-- No spike is seen in a group with at most one change. -/
theorem no_spike_one (thr : Option (K × K)) (hthr : ∀ lo hi, thr = some (lo, hi) → lo ≤ hi) (rows : List (ORow K)) (r : ORow K)
    (h : groupRows rows r.group = [] ∨ ∃ q d, groupRows rows r.group = [q] ∧ q.dif = some d) : isSpike thr rows r = false := by
  unfold isSpike
  cases thr with
  | none => rfl
  | some p =>
    obtain ⟨lo, hi⟩ := p
    have := hthr lo hi rfl
    apply decide_eq_false
    rcases h with h | ⟨q, d, h, hd⟩
    · unfold groupMeanAbs groupMean; rw [h]; simp [mean0]; linarith
    · unfold groupMeanAbs groupMean; rw [h]; simp [mean0, mean, hd]; linarith

/-- **C93** A lone abrupt jump (by more than 1.5 interquartile ranges below or above the quartiles of all jumps) in a dated series, not at its
last sample, is reported as a step at that sample; nothing else is reported. -/
theorem C93_step (df : Frame K) (hdate : df.hasDate = true) (step spike : List Bool) (h : getModelOutliers df 3 = .ok (step, spike)) (lo hi : K)
    (ht : iqrThresholds (colDiff (df.rows.map Row.y)) = some (lo, hi)) (i : Nat) (d : K) (hj : Jump df i d) (ho : d < lo ∨ hi < d)
    (honly : ∀ k e, Jump df k e → e < lo ∨ hi < e → k = i) (hlast : i + 1 < df.rows.length) :
    step = markOnly i df.rows.length ∧ spike = List.replicate df.rows.length false := by
  have hlen := rows_length df 3
  have hnd : (df.rows.map (axis df)).Nodup := (C39_defined df 3).1 ⟨_, h⟩
  have h0 : 0 < i := by obtain ⟨_, _, _, _, _, h0, _⟩ := hj; exact h0
  obtain ⟨q, hq⟩ : ∃ q, (outlierRows 3 (outlierKeys df) (df.rows.map Row.y))[i]? = some q :=
    ⟨_, List.getElem?_eq_getElem (by omega)⟩
  obtain ⟨hkey, hch, hdif⟩ := row_at df lo hi ht 3 i q hq
  have hqc : q.change = true := hch.2 ⟨d, hj, ho⟩
  have hqd := hdif d hj
  have hqi := inGroup_at df lo hi ht i q hq h0 hlast hqc
  obtain ⟨e1, e2⟩ := masks_eq df 3 step spike h (List.any_eq_true.2 ⟨q, List.mem_iff_getElem?.2 ⟨i, hq⟩, hqc⟩)
  -- change groups contain at most this row
  have hone : ∀ g, (q.group = g → groupRows (outlierRows 3 (outlierKeys df) (df.rows.map Row.y)) g = [q]) ∧
      (q.group ≠ g → groupRows (outlierRows 3 (outlierKeys df) (df.rows.map Row.y)) g = []) := by
    intro g
    have honly' : ∀ k b, (outlierRows 3 (outlierKeys df) (df.rows.map Row.y))[k]? = some b → (b.change && decide (b.group = g)) = true → k = i := by
      intro k b hk hb
      rw [Bool.and_eq_true] at hb
      obtain ⟨e, he, heo⟩ := (row_at df lo hi ht 3 k b hk).2.1.1 hb.1
      exact honly k e he heo
    constructor
    · intro hg
      exact filter_one _ _ i q hq (by simp [hqc, hg]) honly'
    · intro hg
      unfold groupRows
      rw [List.filter_eq_nil_iff]
      intro b hb hpb
      obtain ⟨k, hk⟩ := List.mem_iff_getElem?.1 hb
      obtain rfl := honly' k b hk hpb
      rw [hq, Option.some.injEq] at hk
      subst hk
      simp [hg] at hpb
  constructor
  · rw [e1]
    apply mask_only _ _ _ _ hlen
    intro k b hk
    unfold maskStep
    rw [Bool.and_eq_true, hdate]
    by_cases hg : q.group = b.group
    · have hspan : groupSpan true (outlierRows 3 (outlierKeys df) (df.rows.map Row.y)) b.group = some (q.key, q.key) := by
        unfold groupSpan
        rw [(hone _).1 hg]
        rfl
      rw [hspan]
      constructor
      · rintro ⟨-, hm⟩
        have hm := of_decide_eq_true hm
        have hke : b.key = q.key := by omega
        have hkl : k < df.rows.length := by rw [← hlen]; exact (List.getElem?_eq_some_iff.1 hk).1
        have hb := (row_at df lo hi ht 3 k b hk).1 _ (List.getElem?_eq_getElem hkl)
        have hq' := hkey _ (List.getElem?_eq_getElem (show i < df.rows.length by omega))
        exact (List.Nodup.getElem_inj_iff hnd (hi := by simpa using hkl) (hj := by simp; omega)).1 (by simp [← hb, ← hq', hke])
      · rintro rfl
        rw [hq, Option.some.injEq] at hk
        subst hk
        refine ⟨?_, by simp⟩
        unfold isStep groupMean
        rw [hqi, (hone _).1 rfl, ht]
        simp [mean0, mean, hqd, outside, ho]
    · have hspan : groupSpan true (outlierRows 3 (outlierKeys df) (df.rows.map Row.y)) b.group = none := by
        unfold groupSpan
        rw [(hone _).2 hg]
        rfl
      rw [hspan]
      constructor
      · rintro ⟨-, hm⟩; cases hm
      · rintro rfl
        rw [hq, Option.some.injEq] at hk
        subst hk
        exact absurd rfl hg
  · rw [e2]
    apply mask_none _ _ _ hlen
    intro b _
    unfold maskSpike
    rw [no_spike_one _ (fun lo hi e => iqr_ordered _ lo hi e) _ b, Bool.false_and]
    by_cases hg : q.group = b.group
    · exact .inr ⟨q, d, (hone _).1 hg, hqd⟩
    · exact .inl ((hone _).2 hg)

/-- Two changes of opposite sign in a group, both larger than half the width of the thresholds. -/
theorem spike_two (lo hi d d' : K) (hs : d * d' < 0) (h : (hi - lo) / 2 < |d|) (h' : (hi - lo) / 2 < |d'|) :
    (hi - lo) / 2 < (|d| + |d'|) / 2 - |(d + d') / 2| := by
  rcases mul_neg_iff.1 hs with ⟨a, b⟩ | ⟨a, b⟩
  · rw [abs_of_pos a] at *
    rw [abs_of_neg b] at *
    rcases abs_cases ((d + d') / 2) with ⟨e, -⟩ | ⟨e, -⟩ <;> rw [e] <;> linarith
  · rw [abs_of_neg a] at *
    rw [abs_of_pos b] at *
    rcases abs_cases ((d + d') / 2) with ⟨e, -⟩ | ⟨e, -⟩ <;> rw [e] <;> linarith

/-- **C93** A lone pair of abrupt jumps in opposite directions, to sample `i` and back from it, each larger than half the distance of the
thresholds, in a dated series in order, not at its end, is reported as a spike at sample `i`, and nothing else is. If the mean of the two
jumps is within the thresholds, no step is reported. -/
theorem C93_spike (df : Frame K) (hdate : InTimeOrder df) (step spike : List Bool) (h : getModelOutliers df 3 = .ok (step, spike)) (lo hi : K)
    (ht : iqrThresholds (colDiff (df.rows.map Row.y)) = some (lo, hi)) (i : Nat) (d d' : K) (hj : Jump df i d) (hj' : Jump df (i + 1) d')
    (ho : d < lo ∨ hi < d) (ho' : d' < lo ∨ hi < d') (hs : d * d' < 0) (hbig : (hi - lo) / 2 < |d|) (hbig' : (hi - lo) / 2 < |d'|)
    (honly : ∀ k e, Jump df k e → e < lo ∨ hi < e → k = i ∨ k = i + 1) (hlast : i + 2 < df.rows.length) :
    spike = markOnly i df.rows.length ∧ (lo ≤ (d + d') / 2 → (d + d') / 2 ≤ hi → step = List.replicate df.rows.length false) := by
  have hlen := rows_length df 3
  obtain ⟨hD, hP⟩ := hdate
  have hax : ∀ (k : Nat) r, df.rows[k]? = some r → axis df r = r.date := fun k r _ => by unfold axis; rw [if_pos hD]
  have h0 : 0 < i := by obtain ⟨_, _, _, _, _, h0, _⟩ := hj; exact h0
  obtain ⟨q, hq⟩ : ∃ q, (outlierRows 3 (outlierKeys df) (df.rows.map Row.y))[i]? = some q :=
    ⟨_, List.getElem?_eq_getElem (by omega)⟩
  obtain ⟨q', hq'⟩ : ∃ q, (outlierRows 3 (outlierKeys df) (df.rows.map Row.y))[i + 1]? = some q :=
    ⟨_, List.getElem?_eq_getElem (by omega)⟩
  obtain ⟨hkey, hch, hdif⟩ := row_at df lo hi ht 3 i q hq
  obtain ⟨hkey', hch', hdif'⟩ := row_at df lo hi ht 3 (i + 1) q' hq'
  have hqc : q.change = true := hch.2 ⟨d, hj, ho⟩
  have hqc' : q'.change = true := hch'.2 ⟨d', hj', ho'⟩
  have hqd := hdif d hj
  have hqd' := hdif' d' hj'
  have hqi := inGroup_at df lo hi ht i q hq h0 (by omega) hqc
  have hqi' := inGroup_at df lo hi ht (i + 1) q' hq' (by omega) (by omega) hqc'
  have hgg : q'.group = q.group := by
    have a := get_mkRows_all _ _ _ _ _ i q hq
    have b := get_mkRows_all _ _ _ _ _ (i + 1) q' hq'
    rw [hqi] at a
    rw [hqi'] at b
    have := changeGroups_same _ i true a.1 b.1
    rw [a.2, b.2, Option.some.injEq] at this
    exact this.symm
  obtain ⟨e1, e2⟩ := masks_eq df 3 step spike h (List.any_eq_true.2 ⟨q, List.mem_iff_getElem?.2 ⟨i, hq⟩, hqc⟩)
  have hpair : ∀ g, (q.group = g → groupRows (outlierRows 3 (outlierKeys df) (df.rows.map Row.y)) g = [q, q']) ∧
      (q.group ≠ g → groupRows (outlierRows 3 (outlierKeys df) (df.rows.map Row.y)) g = []) := by
    intro g
    have honly' : ∀ k b, (outlierRows 3 (outlierKeys df) (df.rows.map Row.y))[k]? = some b → (b.change && decide (b.group = g)) = true →
        k = i ∨ k = i + 1 := by
      intro k b hk hb
      rw [Bool.and_eq_true] at hb
      obtain ⟨e, he, heo⟩ := (row_at df lo hi ht 3 k b hk).2.1.1 hb.1
      exact honly k e he heo
    constructor
    · intro hg
      exact filter_two _ _ i q q' hq hq' (by simp [hqc, hg]) (by simp [hqc', hgg, hg]) honly'
    · intro hg
      unfold groupRows
      rw [List.filter_eq_nil_iff]
      intro b hb hpb
      obtain ⟨k, hk⟩ := List.mem_iff_getElem?.1 hb
      rcases honly' k b hk hpb with rfl | rfl
      · rw [hq, Option.some.injEq] at hk
        subst hk
        simp [hg] at hpb
      · rw [hq', Option.some.injEq] at hk
        subst hk
        simp [hgg, hg] at hpb
  have hmean : groupMean (outlierRows 3 (outlierKeys df) (df.rows.map Row.y)) q.group = (d + d') / 2 := by
    unfold groupMean
    rw [(hpair _).1 rfl]
    simp [mean0, mean, hqd, hqd']
  have hmeanAbs : groupMeanAbs (outlierRows 3 (outlierKeys df) (df.rows.map Row.y)) q.group = (|d| + |d'|) / 2 := by
    unfold groupMeanAbs
    rw [(hpair _).1 rfl]
    simp [mean0, mean, hqd, hqd']
  have hkeys : ∀ k b, (outlierRows 3 (outlierKeys df) (df.rows.map Row.y))[k]? = some b → (q.key ≤ b.key ∧ b.key < q'.key ↔ k = i) := by
    intro k b hk
    have hkl : k < df.rows.length := by rw [← hlen]; exact (List.getElem?_eq_some_iff.1 hk).1
    have hb := (row_at df lo hi ht 3 k b hk).1 _ (List.getElem?_eq_getElem hkl)
    have a1 := hkey _ (List.getElem?_eq_getElem (show i < df.rows.length by omega))
    have a2 := hkey' _ (List.getElem?_eq_getElem (show i + 1 < df.rows.length by omega))
    rw [hax _ _ (List.getElem?_eq_getElem hkl)] at hb
    rw [hax _ _ (List.getElem?_eq_getElem (show i < df.rows.length by omega))] at a1
    rw [hax _ _ (List.getElem?_eq_getElem (show i + 1 < df.rows.length by omega))] at a2
    rw [hb, a1, a2]
    have lt : ∀ m n (hm : m < df.rows.length) (hn : n < df.rows.length), m < n → df.rows[m].date < df.rows[n].date := by
      intro m n hm hn hmn
      have := List.pairwise_iff_getElem.1 hP m n (by simpa using hm) (by simpa using hn) hmn
      simpa using this
    constructor
    · rintro ⟨u, v⟩
      rcases Nat.lt_trichotomy k i with hki | hki | hki
      · have := lt k i hkl (by omega) hki
        omega
      · exact hki
      · rcases Nat.lt_or_ge (i + 1) k with hk2 | hk2
        · have := lt (i + 1) k (by omega) hkl hk2
          omega
        · obtain rfl : k = i + 1 := by omega
          omega
    · rintro rfl
      exact ⟨le_refl _, lt k (k + 1) (by omega) (by omega) (by omega)⟩
  constructor
  · rw [e2]
    apply mask_only _ _ _ _ hlen
    intro k b hk
    unfold maskSpike
    rw [Bool.and_eq_true, hD]
    by_cases hg : q.group = b.group
    · have hspan : groupSpan true (outlierRows 3 (outlierKeys df) (df.rows.map Row.y)) b.group = some (q.key, q'.key) := by
        unfold groupSpan
        rw [(hpair _).1 hg]
        rfl
      rw [hspan]
      have hsp : isSpike (iqrThresholds (colDiff (df.rows.map Row.y))) (outlierRows 3 (outlierKeys df) (df.rows.map Row.y)) b = true := by
        unfold isSpike
        rw [ht, ← hg, hmean, hmeanAbs]
        exact decide_eq_true (spike_two lo hi d d' hs hbig hbig')
      rw [hsp, ← hkeys k b hk]
      simp
    · have hspan : groupSpan true (outlierRows 3 (outlierKeys df) (df.rows.map Row.y)) b.group = none := by
        unfold groupSpan
        rw [(hpair _).2 hg]
        rfl
      rw [hspan]
      constructor
      · rintro ⟨-, hm⟩; cases hm
      · rintro rfl
        rw [hq, Option.some.injEq] at hk
        subst hk
        exact absurd rfl hg
  · intro hm1 hm2
    rw [e1]
    apply mask_none _ _ _ hlen
    intro b _
    unfold maskStep
    rw [hD]
    by_cases hg : q.group = b.group
    · have : isStep (iqrThresholds (colDiff (df.rows.map Row.y))) (outlierRows 3 (outlierKeys df) (df.rows.map Row.y)) b = false := by
        unfold isStep
        rw [ht, ← hg, hmean]
        simp only [outside]
        rw [decide_eq_false (by rw [not_or]; exact ⟨not_lt.2 hm1, not_lt.2 hm2⟩), Bool.and_false]
      rw [this, Bool.false_and]
    · have hspan : groupSpan true (outlierRows 3 (outlierKeys df) (df.rows.map Row.y)) b.group = none := by
        unfold groupSpan
        rw [(hpair _).2 hg]
        rfl
      rw [hspan, Bool.and_false]

/-- **C39.** A detected step in a dated series lies between two abrupt jumps (inclusive). -/
theorem C39_step_between (df : Frame K) (hdate : df.hasDate = true) (w : Nat) (step spike : List Bool)
    (h : getModelOutliers df w = .ok (step, spike)) (i : Nat) (r : Row K) (hr : df.rows[i]? = some r) (hi : step[i]? = some true) :
    ∃ lo hi, iqrThresholds (colDiff (df.rows.map Row.y)) = some (lo, hi) ∧
      ∃ j j' a a' d d', df.rows[j]? = some a ∧ df.rows[j']? = some a' ∧ Jump df j d ∧ Jump df j' d' ∧ (d < lo ∨ hi < d) ∧ (d' < lo ∨ hi < d') ∧
        a.date ≤ r.date ∧ r.date ≤ a'.date := by
  unfold getModelOutliers at h
  dsimp only at h
  split_ifs at h with h1 h2
  · cases h
    rw [List.getElem?_map] at hi
    obtain ⟨q, hq, hm⟩ := Option.map_eq_some_iff.1 hi
    have hax : ∀ r : Row K, axis df r = r.date := fun r => by unfold axis; rw [if_pos hdate]
    unfold maskStep at hm
    rw [Bool.and_eq_true, hdate] at hm
    have hs := hm.1
    have hsp := hm.2
    unfold isStep at hs
    rw [Bool.and_eq_true] at hs
    cases ht : iqrThresholds (colDiff (df.rows.map Row.y)) with
    | none => rw [ht] at hs; cases hs.2
    | some p =>
      obtain ⟨lo, hi⟩ := p
      refine ⟨lo, hi, rfl, ?_⟩
      have hkey := (row_at df lo hi ht w i q hq).1 r hr
      have hne : groupRows (outlierRows w (outlierKeys df) (df.rows.map Row.y)) q.group ≠ [] := by
        intro hnil
        unfold groupSpan at hsp
        rw [hnil] at hsp
        cases hsp
      unfold groupSpan at hsp
      rw [List.head?_eq_some_head hne, List.getLast?_eq_some_getLast hne] at hsp
      have hsp := of_decide_eq_true hsp
      obtain ⟨j, d, a, -, hj, ha, hjd, ho⟩ := groupRows_jump df w _ lo hi ht _ (List.head_mem hne)
      obtain ⟨j', d', a', -, hj', ha', hjd', ho'⟩ := groupRows_jump df w _ lo hi ht _ (List.getLast_mem hne)
      rw [hax] at ha ha' hkey
      exact ⟨j, j', a, a', d, d', hj, hj', hjd, hjd', ho, ho', by rw [ha, ← hkey]; exact hsp.1, by rw [ha', ← hkey]; exact hsp.2⟩
  · cases h
    rw [List.getElem?_map] at hi
    obtain ⟨r, -, hm⟩ := Option.map_eq_some_iff.1 hi
    cases hm

/-! ### Level series with one outlier -/

/-- The jumps of a series without nulls. -/
def difs (l : List K) : List K := (colDiff (l.map some)).filterMap id

omit [LinearOrder K] [IsStrictOrderedRing K] [FloorRing K] in
theorem difs_cons (x y : K) (l : List K) : difs (x :: y :: l) = (y - x) :: difs (y :: l) := by
  simp [difs, colDiff, lift2]

omit [LinearOrder K] [IsStrictOrderedRing K] [FloorRing K] in
theorem difs_level (a : K) (i : Nat) (l : List K) : difs (List.replicate (i + 1) a ++ l) = List.replicate i 0 ++ difs (a :: l) := by
  induction i with
  | zero => rfl
  | succ i ih =>
    rw [List.replicate_succ (n := i + 1), List.replicate_succ (n := i), List.cons_append, List.cons_append, difs_cons, ← List.cons_append,
      ← List.replicate_succ, ih, sub_self, List.replicate_succ, List.cons_append]

omit [LinearOrder K] [IsStrictOrderedRing K] [FloorRing K] in
theorem difs_flat (a : K) (j : Nat) : difs (List.replicate (j + 1) a) = List.replicate j 0 := by
  have := difs_level a j []
  rw [List.append_nil] at this
  rw [this]
  simp [difs, colDiff]

omit [LinearOrder K] [IsStrictOrderedRing K] [FloorRing K] in
theorem difs_spike (a b : K) (i j : Nat) : difs (loneSpike a b (i + 1) (j + 1)) = List.replicate i 0 ++ (b - a) :: (a - b) :: List.replicate j 0 := by
  unfold loneSpike
  rw [difs_level, difs_cons, List.replicate_succ, difs_cons, ← List.replicate_succ, difs_flat]

omit [LinearOrder K] [IsStrictOrderedRing K] [FloorRing K] in
theorem difs_step (a b : K) (i j : Nat) : difs (loneStep a b (i + 1) (j + 1)) = List.replicate i 0 ++ (b - a) :: List.replicate j 0 := by
  unfold loneStep
  rw [difs_level, List.replicate_succ, difs_cons, ← List.replicate_succ, difs_flat]

/-- Quartiles of a list that is zero in the middle when sorted. -/
theorem quartile_zero (l s : List K) (hp : s.Perm l) (hs : s.Pairwise (fun a b => a ≤ b)) (m : Nat) (hm : s.length = m + 6)
    (hz : ∀ k, 1 ≤ k → k ≤ m + 4 → s[k]? = some 0) (q : K) (hq : q = 25 ∨ q = 75) : percentile l q = some 0 := by
  unfold percentile
  rw [sortBy_le_unique l s hp hs]
  dsimp only
  have hpos : 1 ≤ ((s.length - 1 : Nat) : K) * q / 100 ∧ ((s.length - 1 : Nat) : K) * q / 100 < ((m + 4 : Nat) : K) := by
    rw [hm, show m + 6 - 1 = m + 5 by omega]
    have hm0 : (0 : K) ≤ (m : K) := Nat.cast_nonneg m
    push_cast
    rcases hq with rfl | rfl <;> constructor <;> linarith
  have h1 : 1 ≤ ⌊((s.length - 1 : Nat) : K) * q / 100⌋₊ := Nat.le_floor (by simpa using hpos.1)
  have h2 : ⌊((s.length - 1 : Nat) : K) * q / 100⌋₊ < m + 4 := (Nat.floor_lt (by linarith [hpos.1])).2 hpos.2
  rw [hz _ h1 (by omega), hz _ (by omega) (by omega)]
  simp

theorem thresholds_zero (l : List (Option K)) (s : List K) (hp : s.Perm (l.filterMap id)) (hs : s.Pairwise (fun a b => a ≤ b)) (m : Nat)
    (hm : s.length = m + 6) (hz : ∀ k, 1 ≤ k → k ≤ m + 4 → s[k]? = some 0) : iqrThresholds l = some (0, 0) := by
  unfold iqrThresholds
  rw [quartile_zero _ s hp hs m hm hz 25 (.inl rfl), quartile_zero _ s hp hs m hm hz 75 (.inr rfl)]
  simp

theorem zeros_middle (x y : K) (n k : Nat) (h1 : 1 ≤ k) (h2 : k ≤ n) : (x :: (List.replicate n (0 : K) ++ [y]))[k]? = some 0 := by
  obtain ⟨k, rfl⟩ : ∃ k', k = k' + 1 := ⟨k - 1, by omega⟩
  rw [List.getElem?_cons_succ, List.getElem?_append_left (by simp; omega), List.getElem?_replicate, if_pos (by omega)]

theorem sorted_middle (x y : K) (n : Nat) (hx : x ≤ 0) (hy : 0 ≤ y) : (x :: (List.replicate n (0 : K) ++ [y])).Pairwise (fun a b => a ≤ b) := by
  rw [List.pairwise_cons, List.pairwise_append]
  refine ⟨fun b hb => ?_, List.pairwise_replicate_of_refl, List.pairwise_singleton _ _, fun b hb c hc => ?_⟩
  · rw [List.mem_append] at hb
    rcases hb with hb | hb
    · rw [List.eq_of_mem_replicate hb]; exact hx
    · rw [List.mem_singleton.1 hb]; exact hx.trans hy
  · rw [List.eq_of_mem_replicate hb, List.mem_singleton.1 hc]; exact hy

/-- A list of zeros with two other entries next to each other. -/
theorem perm_middle (x y : K) (i j n : Nat) (h : i + j = n) : (x :: (List.replicate n (0 : K) ++ [y])).Perm (List.replicate i 0 ++ x :: y :: List.replicate j 0) := by
  have h1 : (x :: (List.replicate n (0 : K) ++ [y])).Perm (x :: y :: List.replicate n 0) := (List.perm_append_comm).cons x
  have h2 : (List.replicate i (0 : K) ++ x :: y :: List.replicate j 0).Perm (x :: y :: (List.replicate i 0 ++ List.replicate j 0)) :=
    List.perm_middle.trans (List.perm_middle.cons x)
  rw [List.replicate_append_replicate, h] at h2
  exact h1.trans h2.symm

/-- Jumps of a table with the given values. -/
theorem jump_values (df : Frame K) (l : List K) (hv : HasValues df l) (i : Nat) (d : K) :
    Jump df (i + 1) d ↔ ∃ u v, l[i + 1]? = some u ∧ l[i]? = some v ∧ d = u - v := by
  have get : ∀ (k : Nat) (u : K), l[k]? = some u ↔ ∃ r, df.rows[k]? = some r ∧ r.y = some u := fun k u => by
    have := congrArg (fun z => z[k]?) hv
    simp only [List.getElem?_map] at this
    constructor
    · intro h
      rw [h] at this
      obtain ⟨r, hr, e⟩ := Option.map_eq_some_iff.1 this
      exact ⟨r, hr, e⟩
    · rintro ⟨r, hr, e⟩
      rw [hr, Option.map_some, e] at this
      obtain ⟨v, hv, e⟩ := Option.map_eq_some_iff.1 this.symm
      rw [hv, Option.some.inj e]
  constructor
  · rintro ⟨r, s, u, v, hr, -, hs, hu, hv, rfl⟩
    exact ⟨u, v, (get _ _).2 ⟨r, hr, hu⟩, (get _ _).2 ⟨s, hs, hv⟩, rfl⟩
  · rintro ⟨u, v, hu, hv, rfl⟩
    obtain ⟨r, hr, hu⟩ := (get _ _).1 hu
    obtain ⟨s, hs, hv⟩ := (get _ _).1 hv
    exact ⟨r, s, u, v, hr, by omega, hs, hu, hv, rfl⟩

theorem values_length (df : Frame K) (l : List K) (hv : HasValues df l) : df.rows.length = l.length := by
  have := congrArg List.length hv
  simpa using this

omit [Field K] [LinearOrder K] [IsStrictOrderedRing K] [FloorRing K] in
theorem spike_get (a b : K) (i j k : Nat) (u : K) (h : (loneSpike a b i j)[k]? = some u) : (k = i ∧ u = b) ∨ (k ≠ i ∧ u = a) := by
  unfold loneSpike at h
  rcases Nat.lt_trichotomy k i with hk | rfl | hk
  · rw [List.getElem?_append_left (by simpa using hk), List.getElem?_replicate, if_pos hk, Option.some.injEq] at h
    exact .inr ⟨by omega, h.symm⟩
  · rw [List.getElem?_append_right (by simp)] at h
    simp at h
    exact .inl ⟨rfl, h.symm⟩
  · rw [List.getElem?_append_right (by simp; omega)] at h
    obtain ⟨m, hm⟩ : ∃ m, k - (List.replicate i a).length = m + 1 := ⟨k - i - 1, by simp; omega⟩
    rw [hm, List.getElem?_cons_succ, List.getElem?_replicate] at h
    split_ifs at h
    exact .inr ⟨by omega, (Option.some.inj h).symm⟩

omit [Field K] [LinearOrder K] [IsStrictOrderedRing K] [FloorRing K] in
theorem step_get (a b : K) (i j k : Nat) (u : K) (h : (loneStep a b i j)[k]? = some u) : (k < i ∧ u = a) ∨ (i ≤ k ∧ u = b) := by
  unfold loneStep at h
  rcases Nat.lt_or_ge k i with hk | hk
  · rw [List.getElem?_append_left (by simpa using hk), List.getElem?_replicate, if_pos hk, Option.some.injEq] at h
    exact .inl ⟨hk, h.symm⟩
  · rw [List.getElem?_append_right (by simpa using hk), List.getElem?_replicate] at h
    split_ifs at h
    exact .inr ⟨hk, (Option.some.inj h).symm⟩

/-- **C93** A level series of at least 7 dated samples with one different sample, which is neither the first nor one of the last two: exactly
that sample is reported as a spike, whatever its height, and no step is reported. -/
theorem C93_level_spike_partial (df : Frame K) (hdate : InTimeOrder df) (a b : K) (hab : b ≠ a) (i j : Nat) (hv : HasValues df (loneSpike a b i j)) (hi : 1 ≤ i) (hj : 2 ≤ j)
    (hn : 6 ≤ i + j) : getModelOutliers df 3 = .ok (List.replicate (i + 1 + j) false, markOnly i (i + 1 + j)) := by
  have hlen : df.rows.length = i + 1 + j := by rw [values_length df _ hv]; simp [loneSpike]; omega
  have hdef : (df.rows.map (axis df)).Nodup := by
    have : axis df = Row.date := by funext r; unfold axis; rw [if_pos hdate.1]
    rw [this]
    exact hdate.2.imp fun h => by omega
  obtain ⟨⟨step, spike⟩, h⟩ := (C39_defined df 3).2 hdef
  have e : (colDiff (df.rows.map Row.y)).filterMap id = List.replicate (i - 1) 0 ++ (b - a) :: (a - b) :: List.replicate (j - 1) 0 := by
    rw [hv]
    have := difs_spike a b (i - 1) (j - 1)
    rw [show i - 1 + 1 = i by omega, show j - 1 + 1 = j by omega] at this
    exact this
  have ht : iqrThresholds (colDiff (df.rows.map Row.y)) = some (0, 0) := by
    rcases lt_or_gt_of_ne hab with hlt | hgt
    · refine thresholds_zero _ ((b - a) :: (List.replicate (i + j - 2) 0 ++ [a - b])) ?_ (sorted_middle _ _ _ (by linarith) (by linarith)) (i + j - 6)
        (by simp; omega) fun k h1 h2 => zeros_middle _ _ _ _ h1 (by omega)
      rw [e]
      exact perm_middle _ _ _ _ _ (by omega)
    · refine thresholds_zero _ ((a - b) :: (List.replicate (i + j - 2) 0 ++ [b - a])) ?_ (sorted_middle _ _ _ (by linarith) (by linarith)) (i + j - 6)
        (by simp; omega) fun k h1 h2 => zeros_middle _ _ _ _ h1 (by omega)
      rw [e]
      exact (perm_middle _ _ _ _ _ (by omega)).trans (List.Perm.append_left _ (List.Perm.swap _ _ _))
  have hval : ∀ k, k < i + 1 + j → (loneSpike a b i j)[k]? = some (if k = i then b else a) := fun k hk => by
    have hl : k < (loneSpike a b i j).length := by rw [← values_length df _ hv, hlen]; exact hk
    rcases spike_get a b i j k _ (List.getElem?_eq_getElem hl) with ⟨h1, h2⟩ | ⟨h1, h2⟩
    · rw [List.getElem?_eq_getElem hl, h2, if_pos h1]
    · rw [List.getElem?_eq_getElem hl, h2, if_neg h1]
  have hj1 : Jump df i (b - a) := by
    have := (jump_values df _ hv (i - 1) (b - a)).2 ⟨b, a, by rw [hval _ (by omega), if_pos (by omega)], by rw [hval _ (by omega), if_neg (by omega)], rfl⟩
    rwa [show i - 1 + 1 = i by omega] at this
  have hj2 : Jump df (i + 1) (a - b) :=
    (jump_values df _ hv i (a - b)).2 ⟨a, b, by rw [hval _ (by omega), if_neg (by omega)], by rw [hval _ (by omega), if_pos rfl], rfl⟩
  have hne : b - a < 0 ∨ 0 < b - a := by rcases lt_or_gt_of_ne hab with h | h; exacts [.inl (by linarith), .inr (by linarith)]
  obtain ⟨h1, h2⟩ := C93_spike df hdate step spike h 0 0 ht i (b - a) (a - b) hj1 hj2 hne
    (by rcases hne with h | h; exacts [.inr (by linarith), .inl (by linarith)])
    (by have : b - a ≠ 0 := sub_ne_zero.2 hab
        have : 0 < (b - a) * (b - a) := mul_self_pos.2 this
        linarith [show (b - a) * (a - b) = -((b - a) * (b - a)) by ring])
    (by simpa [sub_eq_zero] using hab) (by simpa [sub_eq_zero] using hab.symm)
    (fun k e he hnz => by
      have hk0 : 0 < k := by obtain ⟨_, _, _, _, _, h0, _⟩ := he; exact h0
      obtain ⟨k, rfl⟩ : ∃ k', k = k' + 1 := ⟨k - 1, by omega⟩
      obtain ⟨u, v, hu, hv', rfl⟩ := (jump_values df _ hv k e).1 he
      rcases spike_get _ _ _ _ _ _ hu with ⟨a1, rfl⟩ | ⟨a1, rfl⟩ <;> rcases spike_get _ _ _ _ _ _ hv' with ⟨a2, rfl⟩ | ⟨a2, rfl⟩
      · omega
      · exact .inl a1
      · exact .inr (by omega)
      · simp at hnz)
    (by omega)
  rw [h, h1, h2 (by simp) (by simp), hlen]

/-- **C93** A series of at least 7 dated samples with one level before and another from sample `i` on, `i` neither the first nor the last
sample: exactly sample `i` is reported as a step, whatever its height, and no spike is reported. -/
theorem C93_level_step_partial (df : Frame K) (hdate : InTimeOrder df) (a b : K) (hab : b ≠ a) (i j : Nat) (hv : HasValues df (loneStep a b i j)) (hi : 1 ≤ i) (hj : 2 ≤ j)
    (hn : 7 ≤ i + j) : getModelOutliers df 3 = .ok (markOnly i (i + j), List.replicate (i + j) false) := by
  have hlen : df.rows.length = i + j := by rw [values_length df _ hv]; simp [loneStep]
  have hdef : (df.rows.map (axis df)).Nodup := by
    have : axis df = Row.date := by funext r; unfold axis; rw [if_pos hdate.1]
    rw [this]
    exact hdate.2.imp fun h => by omega
  obtain ⟨⟨step, spike⟩, h⟩ := (C39_defined df 3).2 hdef
  have e : (colDiff (df.rows.map Row.y)).filterMap id = List.replicate (i - 1) 0 ++ (b - a) :: 0 :: List.replicate (j - 2) 0 := by
    rw [hv]
    have := difs_step a b (i - 1) (j - 1)
    rw [show i - 1 + 1 = i by omega, show j - 1 + 1 = j by omega, show j - 1 = j - 2 + 1 by omega, List.replicate_succ] at this
    exact this
  have ht : iqrThresholds (colDiff (df.rows.map Row.y)) = some (0, 0) := by
    rcases lt_or_gt_of_ne hab with hlt | hgt
    · refine thresholds_zero _ ((b - a) :: (List.replicate (i + j - 3) 0 ++ [0])) ?_ (sorted_middle _ _ _ (by linarith) (by linarith)) (i + j - 7)
        (by simp; omega) fun k h1 h2 => zeros_middle _ _ _ _ h1 (by omega)
      rw [e]
      exact perm_middle _ _ _ _ _ (by omega)
    · refine thresholds_zero _ (0 :: (List.replicate (i + j - 3) 0 ++ [b - a])) ?_ (sorted_middle _ _ _ (by linarith) (by linarith)) (i + j - 7)
        (by simp; omega) fun k h1 h2 => zeros_middle _ _ _ _ h1 (by omega)
      rw [e]
      exact (perm_middle _ _ _ _ _ (by omega)).trans (List.Perm.append_left _ (List.Perm.swap _ _ _))
  have hval : ∀ k, k < i + j → (loneStep a b i j)[k]? = some (if k < i then a else b) := fun k hk => by
    have hl : k < (loneStep a b i j).length := by rw [← values_length df _ hv, hlen]; exact hk
    rcases step_get a b i j k _ (List.getElem?_eq_getElem hl) with ⟨h1, h2⟩ | ⟨h1, h2⟩
    · rw [List.getElem?_eq_getElem hl, h2, if_pos h1]
    · rw [List.getElem?_eq_getElem hl, h2, if_neg (by omega)]
  have hj1 : Jump df i (b - a) := by
    have := (jump_values df _ hv (i - 1) (b - a)).2 ⟨b, a, by rw [hval _ (by omega), if_neg (by omega)], by rw [hval _ (by omega), if_pos (by omega)], rfl⟩
    rwa [show i - 1 + 1 = i by omega] at this
  have hne : b - a < 0 ∨ 0 < b - a := by rcases lt_or_gt_of_ne hab with h | h; exacts [.inl (by linarith), .inr (by linarith)]
  obtain ⟨h1, h2⟩ := C93_step df hdate.1 step spike h 0 0 ht i (b - a) hj1 hne
    (fun k e he hnz => by
      have hk0 : 0 < k := by obtain ⟨_, _, _, _, _, h0, _⟩ := he; exact h0
      obtain ⟨k, rfl⟩ : ∃ k', k = k' + 1 := ⟨k - 1, by omega⟩
      obtain ⟨u, v, hu, hv', rfl⟩ := (jump_values df _ hv k e).1 he
      rcases step_get _ _ _ _ _ _ hu with ⟨a1, rfl⟩ | ⟨a1, rfl⟩ <;> rcases step_get _ _ _ _ _ _ hv' with ⟨a2, rfl⟩ | ⟨a2, rfl⟩
      · simp at hnz
      · omega
      · omega
      · simp at hnz)
    (by omega)
  rw [h, h1, h2, hlen]

/-- **C93 (limit).** A spike in the last sample is not reported at all; one in the sample before it is taken for a step. -/
theorem C93_counterexample_end :
    getModelOutliers (dailySeries (loneSpike 0 10 9 0)) 3 = .ok (List.replicate 10 false, List.replicate 10 false) ∧
    getModelOutliers (dailySeries (loneSpike 0 10 8 1)) 3 = .ok (markOnly 8 10, List.replicate 10 false) := by
  constructor <;> decide +kernel

/-- A concrete case of the two theorems on level series. -/
example : HasValues (dailySeries (loneSpike 5 100 3 4)) (loneSpike 5 100 3 4) ∧ InTimeOrder (dailySeries (loneSpike 5 100 3 4)) ∧
    getModelOutliers (dailySeries (loneSpike 5 100 3 4)) 3 = .ok (List.replicate 8 false, [false, false, false, true, false, false, false, false]) := by
  unfold HasValues InTimeOrder
  decide +kernel

/-- A concrete case of `C39_step_between` and `C93_step`: a step in a noisy series. -/
example : (getModelOutliers (dailySeries [0, 0, 1, 0, 0, 10, 10, 10, 11, 10, 10, 11, 10, 10]) 3).map Prod.fst = .ok (markOnly 5 14) := by decide +kernel

#print axioms C93_step
#print axioms C93_spike
#print axioms C93_level_spike_partial
#print axioms C93_level_step_partial
end Anticipy
