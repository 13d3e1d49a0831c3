import Verif.Lemmas.Outliers

/-
C39: outlier detection.
-/
namespace Anticipy
open Spec
variable {K : Type} [Field K] [LinearOrder K] [IsStrictOrderedRing K] [FloorRing K]

theorem colDiff_rescaled (a b : K) (l : List (Option K)) : colDiff (l.map (aff a b)) = (colDiff l).map (aff a 0) := by
  cases l with
  | nil => rfl
  | cons v t =>
    simp only [colDiff, List.map_cons]
    congr 1
    have : ∀ v : Option K, List.zipWith (fun a b => lift2 (fun v u => v - u) b a) (aff a b v :: t.map (aff a b)) (t.map (aff a b)) =
        (List.zipWith (fun a b => lift2 (fun v u => v - u) b a) (v :: t) t).map (aff a 0) := by
      induction t with
      | nil => intro v; rfl
      | cons u t ih =>
        intro v
        have h := ih u
        simp only [List.map_cons, List.zipWith_cons_cons, h, List.cons.injEq, and_true]
        cases u <;> cases v <;> simp [aff, lift2]
        ring
    exact this v

theorem outlierKeys_rescaled (a b : K) (df : Frame K) : outlierKeys (rescaled a b df) = outlierKeys df := by
  unfold outlierKeys rescaled
  simp only [List.map_map]
  rfl

theorem isSpike_scale (a : K) (ha : a ≠ 0) (l : List (Option K)) (rows : List (ORow K)) (r : ORow K) :
    isSpike (iqrThresholds (l.map (aff a 0))) (rows.map (ORow.aff a 0)) (ORow.aff a 0 r) = isSpike (iqrThresholds l) rows r := by
  have hm : groupMean (rows.map (ORow.aff a 0)) r.group = a * groupMean rows r.group := by
    unfold groupMean
    rw [groupDifs_aff, ← mean0_scale]
    simp
  have hma : groupMeanAbs (rows.map (ORow.aff a 0)) r.group = |a| * groupMeanAbs rows r.group := by
    unfold groupMeanAbs
    rw [groupDifs_aff, ← mean0_scale, List.map_map, List.map_map]
    congr 1
    apply List.map_congr_left
    intro v _
    simp [abs_mul]
  have hpos : 0 < |a| := abs_pos.2 ha
  have key : ∀ lo hi lo' hi' : K, hi' - lo' = |a| * (hi - lo) →
      decide ((hi' - lo') / 2 < groupMeanAbs (rows.map (ORow.aff a 0)) (ORow.aff a 0 r).group - |groupMean (rows.map (ORow.aff a 0)) (ORow.aff a 0 r).group|) =
      decide ((hi - lo) / 2 < groupMeanAbs rows r.group - |groupMean rows r.group|) := by
    intro lo hi lo' hi' h
    have hg : (ORow.aff a 0 r).group = r.group := rfl
    rw [hg, hm, hma, h, abs_mul, ← mul_sub, mul_div_assoc]
    congr 1
    rw [eq_iff_iff, mul_lt_mul_iff_right₀ hpos]
  unfold isSpike
  rcases lt_or_gt_of_ne ha with h | h
  · rw [iqr_affine_neg a 0 h]
    cases iqrThresholds l with
    | none => rfl
    | some p => exact key _ _ _ _ (by rw [abs_of_neg h]; ring)
  · rw [iqr_affine_pos a 0 h]
    cases iqrThresholds l with
    | none => rfl
    | some p => exact key _ _ _ _ (by rw [abs_of_pos h]; ring)

theorem isStep_scale (a : K) (ha : a ≠ 0) (l : List (Option K)) (rows : List (ORow K)) (r : ORow K) :
    isStep (iqrThresholds (l.map (aff a 0))) (rows.map (ORow.aff a 0)) (ORow.aff a 0 r) = isStep (iqrThresholds l) rows r := by
  have hm : groupMean (rows.map (ORow.aff a 0)) r.group = a * groupMean rows r.group := by
    unfold groupMean
    rw [groupDifs_aff, ← mean0_scale]
    simp
  unfold isStep
  have hg : (ORow.aff a 0 r).group = r.group := rfl
  have hi : (ORow.aff a 0 r).inGroup = r.inGroup := rfl
  rw [hg, hi, hm]
  have := outside_affine a 0 ha l (some (groupMean rows r.group))
  simp only [aff, Option.map_some, add_zero] at this
  rw [← this]

/-- **C39.** Steps and spikes are the same after adding a constant and multiplying by any non-zero number. -/
theorem C39_affine (a b : K) (ha : a ≠ 0) (df : Frame K) (w : Nat) : getModelOutliers (rescaled a b df) w = getModelOutliers df w := by
  have hys : (rescaled a b df).rows.map Row.y = (df.rows.map Row.y).map (aff a b) := by
    unfold rescaled
    simp only [List.map_map]
    rfl
  have hd : colDiff ((rescaled a b df).rows.map Row.y) = (colDiff (df.rows.map Row.y)).map (aff a 0) := by
    rw [hys, colDiff_rescaled]
  unfold getModelOutliers
  dsimp only
  rw [outlierKeys_rescaled, outlierRows_aff a 0 ha w _ _ _ hd]
  rw [hd]
  have hh : (rescaled a b df).hasDate = df.hasDate := rfl
  have hany : ((outlierRows w (outlierKeys df) (df.rows.map Row.y)).map (ORow.aff a 0)).any ORow.change =
      (outlierRows w (outlierKeys df) (df.rows.map Row.y)).any ORow.change := by
    rw [List.any_map]; rfl
  rw [hany, hh]
  have hst : ((outlierRows w (outlierKeys df) (df.rows.map Row.y)).map (ORow.aff a 0)).map
      (maskStep df.hasDate (iqrThresholds ((colDiff (df.rows.map Row.y)).map (aff a 0)))
        ((outlierRows w (outlierKeys df) (df.rows.map Row.y)).map (ORow.aff a 0))) =
      (outlierRows w (outlierKeys df) (df.rows.map Row.y)).map
        (maskStep df.hasDate (iqrThresholds (colDiff (df.rows.map Row.y))) (outlierRows w (outlierKeys df) (df.rows.map Row.y))) := by
    rw [List.map_map]
    apply List.map_congr_left
    intro r _
    unfold Function.comp maskStep
    rw [isStep_scale a ha, groupSpan_aff]
    rfl
  have hsp : ((outlierRows w (outlierKeys df) (df.rows.map Row.y)).map (ORow.aff a 0)).map
      (maskSpike df.hasDate (iqrThresholds ((colDiff (df.rows.map Row.y)).map (aff a 0)))
        ((outlierRows w (outlierKeys df) (df.rows.map Row.y)).map (ORow.aff a 0))) =
      (outlierRows w (outlierKeys df) (df.rows.map Row.y)).map
        (maskSpike df.hasDate (iqrThresholds (colDiff (df.rows.map Row.y))) (outlierRows w (outlierKeys df) (df.rows.map Row.y))) := by
    rw [List.map_map]
    apply List.map_congr_left
    intro r _
    unfold Function.comp maskSpike
    rw [isSpike_scale a ha, groupSpan_aff]
    rfl
  rw [hst, hsp]
  simp only [List.map_map]
  rfl

/-- **C39.** Both masks have one entry per sample. -/
theorem C39_length (df : Frame K) (w : Nat) (step spike : List Bool) (h : getModelOutliers df w = .ok (step, spike)) :
    step.length = df.rows.length ∧ spike.length = df.rows.length := by
  have hk : (outlierKeys df).length = (df.rows.map Row.y).length := by unfold outlierKeys; split_ifs <;> simp
  have hl := outlierRows_length w (outlierKeys df) (df.rows.map Row.y) hk
  rw [List.length_map] at hl
  unfold getModelOutliers at h
  dsimp only at h
  split_ifs at h
  all_goals
    cases h
    simp [hl]

theorem colDiff_get (l : List (Option K)) (i : Nat) (d : K) (h : (colDiff l)[i]? = some (some d)) :
    ∃ u v, 0 < i ∧ l[i]? = some (some u) ∧ l[i - 1]? = some (some v) ∧ d = u - v := by
  cases l with
  | nil => simp [colDiff] at h
  | cons a t =>
    unfold colDiff at h
    cases i with
    | zero => simp at h
    | succ i =>
      rw [List.getElem?_cons_succ, List.getElem?_zipWith] at h
      cases h1 : (a :: t)[i]? with
      | none => rw [h1] at h; simp at h
      | some p =>
        cases h2 : t[i]? with
        | none => rw [h1, h2] at h; simp at h
        | some q =>
          rw [h1, h2] at h
          cases p <;> cases q <;> simp [lift2] at h
          rename_i v u
          refine ⟨u, v, by omega, ?_, ?_, h.symm⟩
          · rw [List.getElem?_cons_succ]; exact h2
          · simpa using h1

/-- Entries of the working table come from the columns. -/
theorem get_mkRows (ks : List Int) (ds : List (Option K)) (cs is : List Bool) (gs : List Nat) (n : Nat) (r : ORow K)
    (h : (mkRows ks ds cs is gs)[n]? = some r) : ks[n]? = some r.key ∧ ds[n]? = some r.dif ∧ cs[n]? = some r.change := by
  induction ks generalizing ds cs is gs n with
  | nil => simp [mkRows] at h
  | cons k ks ih =>
    rcases ds with _ | ⟨d, ds⟩ <;> rcases cs with _ | ⟨c, cs⟩ <;> rcases is with _ | ⟨i, is⟩ <;> rcases gs with _ | ⟨g, gs⟩ <;>
      simp only [mkRows, List.getElem?_nil, reduceCtorEq] at h
    cases n with
    | zero => simp at h; subst h; simp
    | succ n =>
      rw [List.getElem?_cons_succ] at h
      simpa using ih _ _ _ _ _ h

/-- A row of a change group is an abrupt jump. -/
theorem groupRows_jump (df : Frame K) (w g : Nat) (lo hi : K) (ht : iqrThresholds (colDiff (df.rows.map Row.y)) = some (lo, hi)) (q : ORow K)
    (hq : q ∈ groupRows (outlierRows w (outlierKeys df) (df.rows.map Row.y)) g) :
    ∃ j d r, q.dif = some d ∧ df.rows[j]? = some r ∧ axis df r = q.key ∧ Jump df j d ∧ (d < lo ∨ hi < d) := by
  unfold groupRows at hq
  rw [List.mem_filter, Bool.and_eq_true] at hq
  obtain ⟨j, hj⟩ := List.mem_iff_getElem?.1 hq.1
  obtain ⟨hk, hd, hc⟩ := get_mkRows _ _ _ _ _ j q hj
  rw [List.getElem?_map, hd, Option.map_some, Option.some.injEq, hq.2.1, ht] at hc
  cases hv : q.dif with
  | none => rw [hv] at hc; cases hc
  | some v =>
    rw [hv] at hd hc
    obtain ⟨u, x, h0, hu, hx, rfl⟩ := colDiff_get _ _ _ hd
    rw [List.getElem?_map] at hu hx
    obtain ⟨ru, hru, eu⟩ := Option.map_eq_some_iff.1 hu
    obtain ⟨rx, hrx, ex⟩ := Option.map_eq_some_iff.1 hx
    refine ⟨j, _, ru, rfl, hru, ?_, ⟨ru, rx, u, x, hru, h0, hrx, eu, ex, rfl⟩, of_decide_eq_true hc⟩
    unfold outlierKeys at hk
    unfold axis
    split_ifs at hk ⊢ <;> · rw [List.getElem?_map, hru] at hk; simpa using hk

/-- **C39.** A detected spike starts at an abrupt jump (below or above the quartiles by more than 1.5 interquartile ranges) and ends before another
one; among the abrupt jumps are an upward and a downward one. -/
theorem C39_spike_between (df : Frame K) (w : Nat) (step spike : List Bool) (h : getModelOutliers df w = .ok (step, spike)) (i : Nat) (r : Row K)
    (hr : df.rows[i]? = some r) (hi : spike[i]? = some true) :
    ∃ lo hi, iqrThresholds (colDiff (df.rows.map Row.y)) = some (lo, hi) ∧
      (∃ j j' a a' d d', df.rows[j]? = some a ∧ df.rows[j']? = some a' ∧ Jump df j d ∧ Jump df j' d' ∧ (d < lo ∨ hi < d) ∧ (d' < lo ∨ hi < d') ∧
        axis df a ≤ axis df r ∧ axis df r < axis df a') ∧
      (∃ j d, Jump df j d ∧ (d < lo ∨ hi < d) ∧ 0 < d) ∧ ∃ j d, Jump df j d ∧ (d < lo ∨ hi < d) ∧ d < 0 := by
  unfold getModelOutliers at h
  dsimp only at h
  split_ifs at h with h1 h2
  · cases h
    rw [List.getElem?_map] at hi
    obtain ⟨q, hq, hm⟩ := Option.map_eq_some_iff.1 hi
    have hkey : axis df r = q.key := by
      have := (get_mkRows _ _ _ _ _ i q hq).1
      unfold outlierKeys at this
      unfold axis
      split_ifs at this ⊢ <;> · rw [List.getElem?_map, hr] at this; simpa using this
    unfold maskSpike at hm
    rw [Bool.and_eq_true] at hm
    have hs := hm.1
    have hsp := hm.2
    unfold isSpike at hs
    cases ht : iqrThresholds (colDiff (df.rows.map Row.y)) with
    | none => rw [ht] at hs; cases hs
    | some p =>
      obtain ⟨lo, hi⟩ := p
      rw [ht] at hs
      have hs := of_decide_eq_true hs
      have hord := iqr_ordered _ lo hi ht
      have hgt : 0 < groupMeanAbs (outlierRows w (outlierKeys df) (df.rows.map Row.y)) q.group -
          |groupMean (outlierRows w (outlierKeys df) (df.rows.map Row.y)) q.group| := by
        have : 0 ≤ (hi - lo) / 2 := by linarith
        linarith
      have hmem : ∀ v ∈ (groupRows (outlierRows w (outlierKeys df) (df.rows.map Row.y)) q.group).filterMap ORow.dif,
          ∃ j, Jump df j v ∧ (v < lo ∨ hi < v) := by
        intro v hv
        obtain ⟨q', hq', hqv⟩ := List.mem_filterMap.1 hv
        obtain ⟨j, d, -, hd, -, -, hj, ho⟩ := groupRows_jump df w _ lo hi ht q' hq'
        rw [hqv] at hd
        cases hd
        exact ⟨j, hj, ho⟩
      have hne : groupRows (outlierRows w (outlierKeys df) (df.rows.map Row.y)) q.group ≠ [] := by
        intro hnil
        unfold groupMeanAbs groupMean at hgt
        rw [hnil] at hgt
        simp [mean0] at hgt
      refine ⟨lo, hi, rfl, ?_, ?_⟩
      · unfold groupSpan at hsp
        rw [List.head?_eq_some_head hne, List.getLast?_eq_some_getLast hne] at hsp
        have hsp := of_decide_eq_true hsp
        obtain ⟨j, d, a, -, hj, ha, hjd, ho⟩ := groupRows_jump df w _ lo hi ht _ (List.head_mem hne)
        obtain ⟨j', d', a', -, hj', ha', hjd', ho'⟩ := groupRows_jump df w _ lo hi ht _ (List.getLast_mem hne)
        exact ⟨j, j', a, a', d, d', hj, hj', hjd, hjd', ho, ho', by rw [ha, hkey]; exact hsp.1, by rw [ha', hkey]; exact hsp.2⟩
      by_contra hcon
      rw [not_and_or] at hcon
      rcases hcon with hcon | hcon
      · have hall : ∀ v ∈ (groupRows (outlierRows w (outlierKeys df) (df.rows.map Row.y)) q.group).filterMap ORow.dif, v ≤ 0 := by
          intro v hv
          by_contra hneg
          obtain ⟨j, hj, ho⟩ := hmem v hv
          exact hcon ⟨j, v, hj, ho, not_le.1 hneg⟩
        have := mean0_abs_of_nonpos _ hall
        unfold groupMeanAbs groupMean at hgt
        rw [this, sub_self] at hgt
        exact lt_irrefl _ hgt
      · have hall : ∀ v ∈ (groupRows (outlierRows w (outlierKeys df) (df.rows.map Row.y)) q.group).filterMap ORow.dif, 0 ≤ v := by
          intro v hv
          by_contra hneg
          obtain ⟨j, hj, ho⟩ := hmem v hv
          exact hcon ⟨j, v, hj, ho, not_le.1 hneg⟩
        have := mean0_abs_of_nonneg _ hall
        unfold groupMeanAbs groupMean at hgt
        rw [this, sub_self] at hgt
        exact lt_irrefl _ hgt
  · cases h
    rw [List.getElem?_map] at hi
    obtain ⟨r, -, hm⟩ := Option.map_eq_some_iff.1 hi
    cases hm

/-- **C39.** A series that never falls has no spikes. -/
theorem C39_monotone (df : Frame K) (hm : NeverFalls df) (w : Nat) (step spike : List Bool) (h : getModelOutliers df w = .ok (step, spike)) :
    ∀ b ∈ spike, b = false := by
  intro b hb
  obtain ⟨i, hi⟩ := List.mem_iff_getElem?.1 hb
  cases b with
  | false => rfl
  | true =>
    have hlt : i < df.rows.length := by
      rw [← (C39_length df w step spike h).2]
      exact (List.getElem?_eq_some_iff.1 hi).1
    obtain ⟨lo, hi', -, -, -, j, d, hj, -, hneg⟩ := C39_spike_between df w step spike h i _ (List.getElem?_eq_getElem hlt) hi
    exact absurd (hm j d hj) (not_le.2 hneg)

/-! ### Trends -/

theorem mapIdx_ys (df : Frame K) (b c : K) :
    (tilted b c df).rows.map Row.y = (df.rows.map Row.y).mapIdx fun i y => y.map fun v => v + (b * (i : K) + c) := by
  apply List.ext_getElem?
  intro i
  unfold tilted
  simp only [List.getElem?_map, List.getElem?_mapIdx, Option.map_map]
  rfl

theorem colDiff_tilted (b c : K) (l : List (Option K)) :
    colDiff (l.mapIdx fun i y => y.map fun v => v + (b * (i : K) + c)) = (colDiff l).map (aff 1 b) := by
  cases l with
  | nil => rfl
  | cons v t =>
    apply List.ext_getElem?
    intro i
    rw [List.getElem?_map]
    unfold colDiff
    rw [List.mapIdx_cons]
    cases i with
    | zero => simp [aff]
    | succ i =>
      simp only [List.getElem?_cons_succ]
      rw [List.getElem?_zipWith, List.getElem?_zipWith, ← List.mapIdx_cons (f := fun i (y : Option K) => y.map fun v => v + (b * (i : K) + c)), List.getElem?_mapIdx, List.getElem?_mapIdx]
      cases h1 : (v :: t)[i]? with
      | none => simp
      | some p =>
        cases h2 : t[i]? with
        | none => simp
        | some q =>
          cases p <;> cases q <;> simp [lift2, aff]
          ring

/-- **C39.** In dated series the detected steps are the same after adding a straight line. -/
theorem C39_step_trend (b c : K) (df : Frame K) (hd : df.hasDate = true) (w : Nat) :
    (getModelOutliers (tilted b c df) w).map Prod.fst = (getModelOutliers df w).map Prod.fst := by
  have hcd : colDiff ((tilted b c df).rows.map Row.y) = (colDiff (df.rows.map Row.y)).map (aff 1 b) := by
    rw [mapIdx_ys, colDiff_tilted]
  have hk : outlierKeys (tilted b c df) = outlierKeys df := by
    unfold outlierKeys tilted
    dsimp only
    congr 1 <;>
    · apply List.ext_getElem?
      intro i
      simp only [List.getElem?_map, List.getElem?_mapIdx, Option.map_map]
      rfl
  have hh : (tilted b c df).hasDate = df.hasDate := rfl
  unfold getModelOutliers
  dsimp only
  rw [hk, outlierRows_aff 1 b one_ne_zero w _ _ _ hcd, hcd, hh]
  generalize hrows : outlierRows w (outlierKeys df) (df.rows.map Row.y) = rows
  have hany : (rows.map (ORow.aff 1 b)).any ORow.change = rows.any ORow.change := by
    rw [List.any_map]; rfl
  rw [hany]
  have hst : (rows.map (ORow.aff 1 b)).map
      (maskStep df.hasDate (iqrThresholds ((colDiff (df.rows.map Row.y)).map (aff 1 b))) (rows.map (ORow.aff 1 b))) =
      rows.map (maskStep df.hasDate (iqrThresholds (colDiff (df.rows.map Row.y))) rows) := by
    rw [List.map_map]
    apply List.map_congr_left
    intro r _
    unfold Function.comp maskStep
    rw [groupSpan_aff]
    have hg : (ORow.aff 1 b r).group = r.group := rfl
    have hkk : (ORow.aff 1 b r).key = r.key := rfl
    have hi : (ORow.aff 1 b r).inGroup = r.inGroup := rfl
    rw [hg, hkk]
    by_cases hnil : groupRows rows r.group = []
    · unfold groupSpan
      rw [hnil, hd]
      simp
    · congr 1
      unfold isStep
      rw [hg, hi]
      congr 1
      have hne : (groupRows rows r.group).filterMap ORow.dif ≠ [] := by
        obtain ⟨q, hq⟩ := List.exists_mem_of_ne_nil _ hnil
        intro hno
        have hqr := List.mem_filter.1 hq
        rw [Bool.and_eq_true] at hqr
        obtain ⟨j, hj⟩ := List.mem_iff_getElem?.1 hqr.1
        rw [← hrows] at hj
        obtain ⟨-, hdd, hcc⟩ := get_mkRows _ _ _ _ _ j q hj
        rw [List.getElem?_map, hdd, Option.map_some, Option.some.injEq, hqr.2.1] at hcc
        cases hv : q.dif with
        | none => rw [hv] at hcc; simp [outside] at hcc
        | some v =>
          have : v ∈ (groupRows rows r.group).filterMap ORow.dif := List.mem_filterMap.2 ⟨q, hq, hv⟩
          rw [hno] at this
          cases this
      have hm : groupMean (rows.map (ORow.aff 1 b)) r.group = 1 * groupMean rows r.group + b := by
        unfold groupMean mean0
        rw [groupDifs_aff, if_neg (by simpa using hne), if_neg hne, mean_affine 1 b _ hne]
      rw [hm]
      exact outside_affine 1 b one_ne_zero _ (some (groupMean rows r.group))
  rw [hst]
  split_ifs <;> simp [Except.map]

theorem colDiff_const (d : K) (l : List (Option K)) (h : ∀ v ∈ colDiff l, v = none ∨ v = some d) :
    ∀ v ∈ colDiff l, outside (iqrThresholds (colDiff l)) v = false := by
  intro v hv
  cases ht : iqrThresholds (colDiff l) with
  | none => rfl
  | some p =>
    obtain ⟨lo, hi⟩ := p
    rcases h v hv with rfl | rfl
    · rfl
    · have hall : ∀ a ∈ (colDiff l).filterMap id, d ≤ a ∧ a ≤ d := by
        intro a ha
        obtain ⟨u, hu, hua⟩ := List.mem_filterMap.1 ha
        rcases h u hu with rfl | rfl
        · cases hua
        · cases hua; exact ⟨le_rfl, le_rfl⟩
      unfold iqrThresholds at ht
      cases h1 : percentile ((colDiff l).filterMap id) 25 with
      | none => rw [h1] at ht; cases ht
      | some q1 =>
        cases h2 : percentile ((colDiff l).filterMap id) 75 with
        | none => rw [h1, h2] at ht; cases ht
        | some q3 =>
          rw [h1, h2] at ht
          cases ht
          have e1 := percentile_mem_bounds _ 25 q1 d d (by norm_num) h1 hall
          have e3 := percentile_mem_bounds _ 75 q3 d d (by norm_num) h2 hall
          have f1 : q1 = d := le_antisymm e1.2 e1.1
          have f3 : q3 = d := le_antisymm e3.2 e3.1
          simp [outside, f1, f3]

/-- **C39.** If all jumps are equal (in particular on a straight line, or without two adjacent values) nothing is detected. -/
theorem C39_straight_line (df : Frame K) (d : K) (hj : ∀ i e, Jump df i e → e = d) (w : Nat) (step spike : List Bool)
    (h : getModelOutliers df w = .ok (step, spike)) : (∀ b ∈ step, b = false) ∧ ∀ b ∈ spike, b = false := by
  have hc : ∀ v ∈ colDiff (df.rows.map Row.y), v = none ∨ v = some d := by
    intro v hv
    cases v with
    | none => exact .inl rfl
    | some e =>
      obtain ⟨i, hi⟩ := List.mem_iff_getElem?.1 hv
      obtain ⟨u, x, h0, hu, hx, he⟩ := colDiff_get _ _ _ hi
      rw [List.getElem?_map] at hu hx
      obtain ⟨ru, hru, eu⟩ := Option.map_eq_some_iff.1 hu
      obtain ⟨rx, hrx, ex⟩ := Option.map_eq_some_iff.1 hx
      right
      rw [hj i e ⟨ru, rx, u, x, hru, h0, hrx, eu, ex, he⟩]
  have hout := colDiff_const d _ hc
  have hno : ((outlierRows w (outlierKeys df) (df.rows.map Row.y)).any ORow.change) = false := by
    rw [List.any_eq_false]
    intro r hr
    obtain ⟨j, hj⟩ := List.mem_iff_getElem?.1 hr
    obtain ⟨-, hdd, hcc⟩ := get_mkRows _ _ _ _ _ j r hj
    rw [List.getElem?_map, hdd, Option.map_some, Option.some.injEq, hout _ (List.mem_of_getElem? hdd)] at hcc
    rw [← hcc]
    simp
  unfold getModelOutliers at h
  dsimp only at h
  rw [hno] at h
  split_ifs at h with h1 h2
  · exact absurd h2 (by simp)
  · cases h
    constructor <;> · intro b hb; obtain ⟨r, -, hr⟩ := List.mem_map.1 hb; exact hr.symm

/-- **C39.** Several values at one position of the axis are rejected, anything else is analysed. -/
theorem C39_defined (df : Frame K) (w : Nat) : (∃ m, getModelOutliers df w = .ok m) ↔ (df.rows.map (axis df)).Nodup := by
  have hk : outlierKeys df = df.rows.map (axis df) := by unfold outlierKeys axis; split_ifs <;> rfl
  rw [← hk, ← hasDup_false]
  unfold getModelOutliers
  dsimp only
  constructor
  · rintro ⟨m, hm⟩
    cases hdup : hasDup (outlierKeys df) with
    | false => rfl
    | true => rw [if_pos hdup] at hm; cases hm
  · intro hdup
    rw [if_neg (by rw [hdup]; simp)]
    split_ifs <;> exact ⟨_, rfl⟩

/-! ### Examples -/

/-- Daily series for examples. -/
def dailySeries (l : List ℚ) : Frame ℚ := ⟨true, false, l.mapIdx fun i v => ⟨(i : Int) * DAY, i, some v, none⟩⟩

/-- A spike in a noisy series. -/
example : getModelOutliers (dailySeries [0, 0, 1, 0, 0, 10, 0, 0, 1, 0, 0, 1, 1, 0]) 3 = .ok (List.replicate 14 false,
    List.replicate 5 false ++ [true] ++ List.replicate 8 false) := by decide +kernel

/-- A step. -/
example : getModelOutliers (dailySeries [0, 0, 1, 0, 0, 10, 10, 10, 11, 10, 10, 11, 10, 10]) 3 = .ok (
    List.replicate 5 false ++ [true] ++ List.replicate 8 false, List.replicate 14 false) := by decide +kernel

/-- **C39 (limit).** Spikes are not invariant under trends: the spike of the first example is not found when the same series grows by 20 a day. -/
theorem C39_counterexample_spike_trend : ∃ df : Frame ℚ, df.hasDate = true ∧ (∃ step spike, getModelOutliers df 3 = .ok (step, spike) ∧ true ∈ spike) ∧
    ∃ step spike, getModelOutliers (tilted 20 0 df) 3 = .ok (step, spike) ∧ true ∉ spike := by
  refine ⟨dailySeries [0, 0, 1, 0, 0, 10, 0, 0, 1, 0, 0, 1, 1, 0], rfl, ⟨List.replicate 14 false, List.replicate 5 false ++ [true] ++ List.replicate 8 false,
    by decide +kernel, by decide +kernel⟩, ⟨List.replicate 14 false, List.replicate 14 false, by decide +kernel, by decide +kernel⟩⟩

end Anticipy
