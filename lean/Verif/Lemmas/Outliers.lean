import Verif.Model.Outliers
import Verif.Spec.Outliers
import Verif.Lemmas.Interval
import Mathlib.Data.List.Sort
import Mathlib.Algebra.Order.BigOperators.Group.List

/-
Helper lemmas on outlier detection: every stage commutes with affine maps of the values.
-/
namespace Anticipy
variable {K : Type} [Field K] [LinearOrder K] [IsStrictOrderedRing K]

/-- Affine map of a cell. -/
def aff (a b : K) (v : Option K) : Option K := v.map fun v => a * v + b

/-! ### Percentiles -/
section pct
variable [FloorRing K]

theorem sortBy_le_unique (l s : List K) (hp : s.Perm l) (hs : s.Pairwise (fun a b => a ≤ b)) :
    sortBy (fun a b : K => decide (a ≤ b)) l = s :=
  List.Perm.eq_of_pairwise' (sortBy_le_sorted l) hs ((sortBy_perm _ l).trans hp.symm)

theorem interpAt_map (a b : K) (s : List K) (pos : K) : interpAt (s.map fun v => a * v + b) pos = aff a b (interpAt s pos) := by
  unfold interpAt aff
  rw [List.getElem?_map, List.getElem?_map]
  cases s[⌊pos⌋₊]? with
  | none => rfl
  | some u =>
    cases s[⌊pos⌋₊ + 1]? with
    | none => rfl
    | some v =>
      simp only [Option.map_some, Option.some.injEq]
      ring

theorem interpAt_reverse (s : List K) (pos : K) (hs : s ≠ []) (h0 : 0 ≤ pos) (h1 : pos ≤ ((s.length - 1 : Nat) : K)) :
    interpAt s.reverse pos = interpAt s (((s.length - 1 : Nat) : K) - pos) := by
  have hl : 0 < s.length := List.length_pos_iff.2 hs
  obtain ⟨k, hk⟩ : ∃ k, k = ⌊pos⌋₊ := ⟨_, rfl⟩
  have hkle : k ≤ s.length - 1 := by
    have := Nat.floor_le_floor h1
    rw [Nat.floor_natCast] at this
    omega
  have hkp : (k : K) ≤ pos := by rw [hk]; exact Nat.floor_le h0
  rcases eq_or_lt_of_le hkp with he | hlt
  · have e2 : ((s.length - 1 : Nat) : K) - pos = ((s.length - 1 - k : Nat) : K) := by
      rw [← he, Nat.cast_sub hkle]
    rw [e2]
    unfold interpAt
    rw [← hk, Nat.floor_natCast, ← he, sub_self, sub_self]
    have g1 : s.reverse[k]? = s[s.length - 1 - k]? := List.getElem?_reverse (by omega)
    rw [g1]
    cases s[s.length - 1 - k]? with
    | none => rfl
    | some u =>
      cases s.reverse[k + 1]? <;> cases s[s.length - 1 - k + 1]? <;> simp
  · have hkl : k < s.length - 1 := by
      have : (k : K) < ((s.length - 1 : Nat) : K) := lt_of_lt_of_le hlt h1
      exact_mod_cast this
    have hk1 : pos < (k : K) + 1 := by rw [hk]; exact Nat.lt_floor_add_one pos
    have hc : ((s.length - 1 : Nat) : K) = ((s.length - 2 - k : Nat) : K) + (k : K) + 1 := by
      have : s.length - 1 = (s.length - 2 - k) + k + 1 := by omega
      exact_mod_cast this
    have hf : ⌊((s.length - 1 : Nat) : K) - pos⌋₊ = s.length - 2 - k := by
      rw [Nat.floor_eq_iff (by linarith)]
      constructor <;> linarith
    unfold interpAt
    rw [hf, ← hk]
    have g1 : s.reverse[k]? = s[s.length - 1 - k]? := List.getElem?_reverse (by omega)
    have g2 : s.reverse[k + 1]? = s[s.length - 1 - (k + 1)]? := List.getElem?_reverse (by omega)
    have i1 : s.length - 1 - k = s.length - 2 - k + 1 := by omega
    have i2 : s.length - 1 - (k + 1) = s.length - 2 - k := by omega
    rw [g1, g2, i1, i2, List.getElem?_eq_getElem (show s.length - 2 - k < s.length by omega),
      List.getElem?_eq_getElem (show s.length - 2 - k + 1 < s.length by omega)]
    simp only [Option.some.injEq]
    rw [hc]
    ring

theorem percentile_affine_pos (a b : K) (ha : 0 < a) (l : List K) (q : K) :
    percentile (l.map fun v => a * v + b) q = aff a b (percentile l q) := by
  rw [percentile_eq, percentile_eq, List.length_map, ← interpAt_map]
  congr 1
  apply sortBy_le_unique
  · exact (sortBy_perm _ l).map _
  · rw [List.pairwise_map]
    refine (sortBy_le_sorted l).imp ?_
    intro u v h
    have := mul_le_mul_of_nonneg_left h ha.le
    linarith

theorem percentile_affine_neg (a b : K) (ha : a < 0) (l : List K) (q : K) (h0 : 0 ≤ q) (h1 : q ≤ 100) :
    percentile (l.map fun v => a * v + b) q = aff a b (percentile l (100 - q)) := by
  by_cases hl : l = []
  · subst hl; rw [List.map_nil, percentile_nil, percentile_nil]; rfl
  have hlen : (sortBy (fun a b : K => decide (a ≤ b)) l).length = l.length := (sortBy_perm _ l).length_eq
  have hne : sortBy (fun a b : K => decide (a ≤ b)) l ≠ [] := by
    intro h
    rw [h] at hlen
    exact hl (List.length_eq_zero_iff.1 hlen.symm)
  rw [percentile_eq, percentile_eq, List.length_map, ← interpAt_map]
  have hs : sortBy (fun a b : K => decide (a ≤ b)) (l.map fun v => a * v + b) =
      ((sortBy (fun a b : K => decide (a ≤ b)) l).map fun v => a * v + b).reverse := by
    apply sortBy_le_unique
    · exact (List.reverse_perm _).trans ((sortBy_perm _ l).map _)
    · rw [List.pairwise_reverse, List.pairwise_map]
      refine (sortBy_le_sorted l).imp ?_
      intro u v h
      have := mul_le_mul_of_nonpos_left h ha.le
      linarith
  rw [hs, interpAt_reverse]
  · rw [List.length_map, hlen]
    congr 1
    ring
  · simpa using hne
  · positivity
  · rw [List.length_map, hlen, div_le_iff₀ (by norm_num)]
    exact mul_le_mul_of_nonneg_left h1 (Nat.cast_nonneg _)

theorem filterMap_aff (a b : K) (l : List (Option K)) : (l.map (aff a b)).filterMap id = (l.filterMap id).map fun v => a * v + b := by
  induction l with
  | nil => rfl
  | cons v l ih => cases v <;> simp [aff] at ih ⊢ <;> exact ih

theorem iqr_affine_pos (a b : K) (ha : 0 < a) (l : List (Option K)) :
    iqrThresholds (l.map (aff a b)) = (iqrThresholds l).map fun p => (a * p.1 + b, a * p.2 + b) := by
  unfold iqrThresholds
  rw [filterMap_aff, percentile_affine_pos a b ha, percentile_affine_pos a b ha]
  cases percentile (l.filterMap id) 25 with
  | none => rfl
  | some u =>
    cases percentile (l.filterMap id) 75 with
    | none => rfl
    | some v =>
      simp only [aff, Option.map_some, Option.some.injEq, Prod.mk.injEq]
      constructor <;> ring

theorem iqr_affine_neg (a b : K) (ha : a < 0) (l : List (Option K)) :
    iqrThresholds (l.map (aff a b)) = (iqrThresholds l).map fun p => (a * p.2 + b, a * p.1 + b) := by
  unfold iqrThresholds
  rw [filterMap_aff, percentile_affine_neg a b ha _ 25 (by norm_num) (by norm_num), percentile_affine_neg a b ha _ 75 (by norm_num) (by norm_num)]
  have e1 : (100 : K) - 25 = 75 := by norm_num
  have e2 : (100 : K) - 75 = 25 := by norm_num
  rw [e1, e2]
  cases percentile (l.filterMap id) 25 with
  | none => cases percentile (l.filterMap id) 75 <;> rfl
  | some u =>
    cases percentile (l.filterMap id) 75 with
    | none => rfl
    | some v =>
      simp only [aff, Option.map_some, Option.some.injEq, Prod.mk.injEq]
      constructor <;> ring

theorem outside_affine (a b : K) (ha : a ≠ 0) (l : List (Option K)) (v : Option K) :
    outside (iqrThresholds (l.map (aff a b))) (aff a b v) = outside (iqrThresholds l) v := by
  rcases lt_or_gt_of_ne ha with ha | ha
  · rw [iqr_affine_neg a b ha]
    cases iqrThresholds l with
    | none => rfl
    | some p =>
      cases v with
      | none => rfl
      | some v =>
        simp only [aff, outside, Option.map_some]
        congr 1
        rw [eq_iff_iff, add_lt_add_iff_right, add_lt_add_iff_right, mul_lt_mul_left_of_neg ha, mul_lt_mul_left_of_neg ha]
        exact or_comm
  · rw [iqr_affine_pos a b ha]
    cases iqrThresholds l with
    | none => rfl
    | some p =>
      cases v with
      | none => rfl
      | some v =>
        simp only [aff, outside, Option.map_some]
        congr 1
        rw [eq_iff_iff, add_lt_add_iff_right, add_lt_add_iff_right, mul_lt_mul_iff_right₀ ha, mul_lt_mul_iff_right₀ ha]

theorem iqr_ordered (l : List (Option K)) (lo hi : K) (h : iqrThresholds l = some (lo, hi)) : lo ≤ hi := by
  unfold iqrThresholds at h
  cases h1 : percentile (l.filterMap id) 25 with
  | none => rw [h1] at h; cases h
  | some u =>
    cases h2 : percentile (l.filterMap id) 75 with
    | none => rw [h1, h2] at h; cases h
    | some v =>
      rw [h1, h2] at h
      cases h
      have := percentile_mono _ 25 75 u v (by norm_num) (by norm_num) h1 h2
      linarith

end pct

/-! ### Working table -/

/-- The row with its difference mapped. -/
def ORow.aff (a b : K) (r : ORow K) : ORow K := { r with dif := Anticipy.aff a b r.dif }

omit [IsStrictOrderedRing K] [LinearOrder K] in
theorem mkRows_aff (a b : K) (ks : List Int) (ds : List (Option K)) (cs is : List Bool) (gs : List Nat) :
    mkRows ks (ds.map (Anticipy.aff a b)) cs is gs = (mkRows ks ds cs is gs).map (ORow.aff a b) := by
  induction ks generalizing ds cs is gs with
  | nil => simp [mkRows]
  | cons k ks ih =>
    rcases ds with _ | ⟨d, ds⟩ <;> rcases cs with _ | ⟨c, cs⟩ <;> rcases is with _ | ⟨i, is⟩ <;> rcases gs with _ | ⟨g, gs⟩ <;>
      simp [mkRows, ORow.aff, ih]

omit [IsStrictOrderedRing K] [LinearOrder K] [Field K] in
theorem mkRows_length (ks : List Int) (ds : List (Option K)) (cs is : List Bool) (gs : List Nat) (h1 : ds.length = ks.length)
    (h2 : cs.length = ks.length) (h3 : is.length = ks.length) (h4 : gs.length = ks.length) :
    (mkRows ks ds cs is gs).length = ks.length := by
  induction ks generalizing ds cs is gs with
  | nil => simp [mkRows]
  | cons k ks ih =>
    rcases ds with _ | ⟨d, ds⟩ <;> rcases cs with _ | ⟨c, cs⟩ <;> rcases is with _ | ⟨i, is⟩ <;> rcases gs with _ | ⟨g, gs⟩ <;>
      simp_all [mkRows]

omit [IsStrictOrderedRing K] [LinearOrder K] in
theorem colDiff_length (l : List (Option K)) : (colDiff l).length = l.length := by
  cases l <;> simp [colDiff]

theorem rollingAny_length (w : Nat) (l : List Bool) : (rollingAny w l).length = l.length := by simp [rollingAny]

theorem changeGroups_go_length (p : Bool) (k : Nat) (l : List Bool) : (changeGroups.go p k l).length = l.length := by
  induction l generalizing p k with
  | nil => rfl
  | cons b l ih => simp only [changeGroups.go, List.length_cons, ih]

theorem changeGroups_length (l : List Bool) : (changeGroups l).length = l.length := by
  cases l with
  | nil => rfl
  | cons b l => exact changeGroups_go_length _ _ _

theorem outlierRows_aff [FloorRing K] (a b : K) (ha : a ≠ 0) (w : Nat) (keys : List Int) (ys ys' : List (Option K))
    (h : colDiff ys' = (colDiff ys).map (Anticipy.aff a b)) :
    outlierRows w keys ys' = (outlierRows w keys ys).map (ORow.aff a b) := by
  unfold outlierRows
  dsimp only
  rw [h]
  have hc : ((colDiff ys).map (Anticipy.aff a b)).map (outside (iqrThresholds ((colDiff ys).map (Anticipy.aff a b)))) =
      (colDiff ys).map (outside (iqrThresholds (colDiff ys))) := by
    rw [List.map_map]
    apply List.map_congr_left
    intro v _
    exact outside_affine a b ha _ v
  rw [hc]
  exact mkRows_aff a b _ _ _ _ _

theorem outlierRows_length [FloorRing K] (w : Nat) (keys : List Int) (ys : List (Option K)) (h : keys.length = ys.length) :
    (outlierRows w keys ys).length = ys.length := by
  unfold outlierRows
  dsimp only
  rw [mkRows_length]
  · exact h
  all_goals simp [colDiff_length, rollingAny_length, changeGroups_length, h]

omit [IsStrictOrderedRing K] [LinearOrder K] in
theorem groupRows_aff (a b : K) (rows : List (ORow K)) (g : Nat) :
    groupRows (rows.map (ORow.aff a b)) g = (groupRows rows g).map (ORow.aff a b) := by
  unfold groupRows
  rw [List.filter_map]
  rfl

omit [IsStrictOrderedRing K] [LinearOrder K] in
theorem groupDifs_aff (a b : K) (rows : List (ORow K)) (g : Nat) :
    (groupRows (rows.map (ORow.aff a b)) g).filterMap ORow.dif = ((groupRows rows g).filterMap ORow.dif).map fun v => a * v + b := by
  rw [groupRows_aff]
  induction groupRows rows g with
  | nil => rfl
  | cons r l ih =>
    rw [List.map_cons]
    cases hd : r.dif with
    | none => rw [List.filterMap_cons_none (by simp [ORow.aff, Anticipy.aff, hd]), List.filterMap_cons_none hd, ih]
    | some v =>
      rw [List.filterMap_cons_some (b := a * v + b) (by simp [ORow.aff, Anticipy.aff, hd]), List.filterMap_cons_some hd, List.map_cons, ih]

omit [IsStrictOrderedRing K] [LinearOrder K] in
theorem groupSpan_aff (a b : K) (d : Bool) (rows : List (ORow K)) (g : Nat) :
    groupSpan d (rows.map (ORow.aff a b)) g = groupSpan d rows g := by
  unfold groupSpan
  rw [groupRows_aff, List.head?_map, List.getLast?_map]
  cases (groupRows rows g).head? <;> cases (groupRows rows g).getLast? <;> rfl

theorem mean_affine (a b : K) (l : List K) (h : l ≠ []) : mean (l.map fun v => a * v + b) = a * mean l + b := by
  have hl : (l.length : K) ≠ 0 := by
    have : l.length ≠ 0 := fun h' => h (List.length_eq_zero_iff.1 h')
    exact_mod_cast this
  have hs : (l.map fun v => a * v + b).sum = a * l.sum + (l.length : K) * b := by
    clear hl h
    induction l with
    | nil => simp
    | cons v l ih =>
      simp only [List.map_cons, List.sum_cons, ih, List.length_cons, Nat.cast_add, Nat.cast_one]
      ring
  unfold mean
  rw [hs, List.length_map]
  field_simp

theorem mean0_scale (a : K) (l : List K) : mean0 (l.map fun v => a * v) = a * mean0 l := by
  unfold mean0
  by_cases h : l = []
  · simp [h]
  · rw [if_neg (by simpa using h), if_neg h]
    have := mean_affine a 0 l h
    simpa using this

theorem mean0_nonneg (l : List K) (h : ∀ a ∈ l, 0 ≤ a) : 0 ≤ mean0 l := by
  unfold mean0
  split_ifs
  · exact le_rfl
  · unfold mean
    exact div_nonneg (List.sum_nonneg h) (Nat.cast_nonneg _)

theorem mean0_abs_of_nonneg (l : List K) (h : ∀ a ∈ l, 0 ≤ a) : mean0 (l.map fun a => |a|) = |mean0 l| := by
  have e : (l.map fun a => |a|) = l := by
    conv_rhs => rw [← List.map_id l]
    exact List.map_congr_left fun a ha => abs_of_nonneg (h a ha)
  rw [e, abs_of_nonneg (mean0_nonneg l h)]

theorem mean0_abs_of_nonpos (l : List K) (h : ∀ a ∈ l, a ≤ 0) : mean0 (l.map fun a => |a|) = |mean0 l| := by
  have h' : ∀ a ∈ l.map (fun v => (-1) * v), 0 ≤ a := by
    intro a ha
    obtain ⟨v, hv, rfl⟩ := List.mem_map.1 ha
    have := h v hv
    linarith
  have e := mean0_abs_of_nonneg _ h'
  rw [mean0_scale, List.map_map] at e
  have e1 : (fun a : K => |a|) ∘ (fun v => (-1) * v) = fun a => |a| := by
    funext v; simp
  rw [e1] at e
  rw [e]
  simp

end Anticipy
