import Verif.Spec.Inside
import Verif.Props.Interval

/-
C132: does a forecast lie inside its prediction intervals?
-/
namespace Anticipy
open Spec
variable {K : Type} [Field K] [LinearOrder K]

section
variable [IsStrictOrderedRing K] [FloorRing K]

/-- In a sorted list the entries that are at most zero come first. -/
theorem sorted_below (s : List K) (hs : s.Pairwise (fun a b => a ≤ b)) (i : Nat) (a : K) (ha : s[i]? = some a) :
    a ≤ 0 ↔ i < countBelow s := by
  obtain ⟨hi, rfl⟩ := List.getElem?_eq_some_iff.1 ha
  have hsplit : countBelow s = countBelow (s.take (i + 1)) + countBelow (s.drop (i + 1)) := by
    unfold countBelow
    rw [← List.countP_append, List.take_append_drop]
  have hsplit' : countBelow s = countBelow (s.take i) + countBelow (s.drop i) := by
    unfold countBelow
    rw [← List.countP_append, List.take_append_drop]
  constructor
  · intro h
    have : countBelow (s.take (i + 1)) = i + 1 := by
      unfold countBelow
      have e : (s.take (i + 1)).length = i + 1 := by rw [List.length_take]; omega
      refine Eq.trans ?_ e
      rw [List.countP_eq_length]
      intro b hb
      obtain ⟨k, hk, rfl⟩ := List.mem_iff_getElem.1 hb
      rw [List.length_take] at hk
      rw [List.getElem_take]
      apply decide_eq_true
      rcases Nat.lt_or_ge k i with hki | hki
      · exact (List.pairwise_iff_getElem.1 hs k i (by omega) hi hki).trans h
      · have : k = i := by omega
        subst this
        exact h
    omega
  · intro h
    by_contra hn
    have hz : countBelow (s.drop i) = 0 := by
      unfold countBelow
      rw [List.countP_eq_zero]
      intro b hb
      obtain ⟨k, hk, rfl⟩ := List.mem_iff_getElem.1 hb
      rw [List.length_drop] at hk
      rw [List.getElem_drop, decide_eq_true_iff, not_le]
      refine lt_of_lt_of_le (not_le.1 hn) ?_
      rcases Nat.eq_zero_or_pos k with rfl | hk0
      · exact le_rfl
      · exact List.pairwise_iff_getElem.1 hs i (i + k) hi (by omega) (by omega)
    have hl : countBelow (s.take i) ≤ i := by
      unfold countBelow
      refine List.countP_le_length.trans ?_
      rw [List.length_take]
      omega
    omega

/-- The entries below zero come first, those at least zero last. -/
theorem sorted_above (s : List K) (hs : s.Pairwise (fun a b => a ≤ b)) (i : Nat) (a : K) (ha : s[i]? = some a) :
    0 ≤ a ↔ s.length - i ≤ countAbove s := by
  obtain ⟨hi, rfl⟩ := List.getElem?_eq_some_iff.1 ha
  have hsplit : countAbove s = countAbove (s.take (i + 1)) + countAbove (s.drop (i + 1)) := by
    unfold countAbove
    rw [← List.countP_append, List.take_append_drop]
  have hsplit' : countAbove s = countAbove (s.take i) + countAbove (s.drop i) := by
    unfold countAbove
    rw [← List.countP_append, List.take_append_drop]
  constructor
  · intro h
    have : countAbove (s.drop i) = s.length - i := by
      unfold countAbove
      have e : (s.drop i).length = s.length - i := by rw [List.length_drop]
      rw [← e, List.countP_eq_length]
      intro b hb
      obtain ⟨k, hk, rfl⟩ := List.mem_iff_getElem.1 hb
      rw [List.length_drop] at hk
      rw [List.getElem_drop]
      apply decide_eq_true
      rcases Nat.eq_zero_or_pos k with rfl | hk0
      · exact h
      · exact h.trans (List.pairwise_iff_getElem.1 hs i (i + k) hi (by omega) (by omega))
    omega
  · intro h
    by_contra hn
    have hz : countAbove (s.take (i + 1)) = 0 := by
      unfold countAbove
      rw [List.countP_eq_zero]
      intro b hb
      obtain ⟨k, hk, rfl⟩ := List.mem_iff_getElem.1 hb
      rw [List.length_take] at hk
      rw [List.getElem_take, decide_eq_true_iff, not_le]
      refine lt_of_le_of_lt ?_ (not_le.1 hn)
      rcases Nat.lt_or_ge k i with hki | hki
      · exact List.pairwise_iff_getElem.1 hs k i (by omega) hi hki
      · have : k = i := by omega
        subst this
        exact le_rfl
    have hl : countAbove (s.drop (i + 1)) ≤ s.length - (i + 1) := by
      unfold countAbove
      refine List.countP_le_length.trans ?_
      rw [List.length_drop]
    omega

/-- A percentile is at most zero if more than this share of the values is, and only then. -/
theorem percentile_below (col : List K) (p v : K) (h0 : 0 ≤ p) (hv : percentile col p = some v) :
    (shareOf col.length p + 1 ≤ (countBelow col : K) → v ≤ 0) ∧ (v ≤ 0 → shareOf col.length p < (countBelow col : K)) := by
  have hperm := sortBy_perm (fun a b : K => decide (a ≤ b)) col
  have hs := sortBy_le_sorted col
  have hcount : countBelow (sortBy (fun a b : K => decide (a ≤ b)) col) = countBelow col := hperm.countP_eq _
  rw [percentile_eq] at hv
  have hpos : 0 ≤ shareOf col.length p := by unfold shareOf; positivity
  change interpAt _ (shareOf col.length p) = some v at hv
  generalize shareOf col.length p = pos at hv hpos
  generalize sortBy (fun a b : K => decide (a ≤ b)) col = s at hv hs hcount
  rw [← hcount]
  obtain ⟨a, ha, hav, hvb, hvn⟩ := interpAt_between s pos v hs hpos hv
  have e0 : ((⌊pos⌋₊ : Nat) : K) ≤ pos := Nat.floor_le hpos
  have e1 : pos < ((⌊pos⌋₊ : Nat) : K) + 1 := Nat.lt_floor_add_one pos
  constructor
  · intro hc
    have hc1 : ⌊pos⌋₊ < countBelow s := by
      have : ((⌊pos⌋₊ : Nat) : K) < (countBelow s : K) := by linarith
      exact_mod_cast this
    have ha0 : a ≤ 0 := (sorted_below s hs _ a ha).2 hc1
    cases hb : s[⌊pos⌋₊ + 1]? with
    | none => rw [hvn hb]; exact ha0
    | some b =>
      rcases e0.eq_or_lt with he | hlt
      · unfold interpAt at hv
        rw [ha, hb] at hv
        simp only [Option.some.injEq] at hv
        rw [← hv, ← he]
        simpa using ha0
      · have hc2 : ⌊pos⌋₊ + 1 < countBelow s := by
          have : ((⌊pos⌋₊ + 1 : Nat) : K) < (countBelow s : K) := by push_cast; linarith
          exact_mod_cast this
        exact (hvb b hb).trans ((sorted_below s hs _ b hb).2 hc2)
  · intro hv0
    have hc := (sorted_below s hs _ a ha).1 (hav.trans hv0)
    have : ((⌊pos⌋₊ + 1 : Nat) : K) ≤ (countBelow s : K) := by exact_mod_cast hc
    push_cast at this
    linarith

/-- A percentile is at least zero if more than the remaining share of the values is, and only then. -/
theorem percentile_above (col : List K) (p v : K) (h0 : 0 ≤ p) (hv : percentile col p = some v) :
    (shareOf col.length (100 - p) + 1 ≤ (countAbove col : K) → 0 ≤ v) ∧
    (0 ≤ v → shareOf col.length (100 - p) < (countAbove col : K)) := by
  have hperm := sortBy_perm (fun a b : K => decide (a ≤ b)) col
  have hs := sortBy_le_sorted col
  have hcount : countAbove (sortBy (fun a b : K => decide (a ≤ b)) col) = countAbove col := hperm.countP_eq _
  have hlen := hperm.length_eq
  rw [percentile_eq] at hv
  have hpos : 0 ≤ shareOf col.length p := by unfold shareOf; positivity
  have hrest : shareOf col.length (100 - p) = ((col.length - 1 : Nat) : K) - shareOf col.length p := by unfold shareOf; ring
  rw [hrest]
  change interpAt _ (shareOf col.length p) = some v at hv
  generalize shareOf col.length p = pos at hv hpos
  rw [← hlen]
  generalize sortBy (fun a b : K => decide (a ≤ b)) col = s at hv hs hcount
  rw [← hcount]
  obtain ⟨a, ha, hav, hvb, hvn⟩ := interpAt_between s pos v hs hpos hv
  have e0 : ((⌊pos⌋₊ : Nat) : K) ≤ pos := Nat.floor_le hpos
  have e1 : pos < ((⌊pos⌋₊ : Nat) : K) + 1 := Nat.lt_floor_add_one pos
  obtain ⟨hi, -⟩ := List.getElem?_eq_some_iff.1 ha
  have hl : ((s.length - 1 : Nat) : K) = (s.length : K) - 1 := by
    rw [Nat.cast_sub (by omega)]
    simp
  rw [hl]
  constructor
  · intro hc
    refine le_trans ((sorted_above s hs _ a ha).2 ?_) hav
    have : (s.length : K) < ((countAbove s + ⌊pos⌋₊ + 1 : Nat) : K) := by push_cast; linarith
    have : s.length < countAbove s + ⌊pos⌋₊ + 1 := by exact_mod_cast this
    omega
  · intro hv0
    rcases e0.eq_or_lt with he | hlt
    · have hva : v = a := by
        unfold interpAt at hv
        rw [ha] at hv
        cases hb : s[⌊pos⌋₊ + 1]? with
        | none => rw [hb] at hv; simpa using hv.symm
        | some b =>
          rw [hb] at hv
          simp only [Option.some.injEq] at hv
          rw [← hv, ← he]
          simp
      have hc := (sorted_above s hs _ a ha).1 (hva ▸ hv0)
      have : s.length < countAbove s + ⌊pos⌋₊ + 1 := by omega
      have : (s.length : K) < ((countAbove s + ⌊pos⌋₊ + 1 : Nat) : K) := by exact_mod_cast this
      push_cast at this
      linarith
    · have hc : s.length ≤ countAbove s + ⌊pos⌋₊ + 1 := by
        cases hb : s[⌊pos⌋₊ + 1]? with
        | none =>
          rw [List.getElem?_eq_none_iff] at hb
          omega
        | some b =>
          have := (sorted_above s hs _ b hb).1 (hv0.trans (hvb b hb))
          omega
      have : (s.length : K) ≤ ((countAbove s + ⌊pos⌋₊ + 1 : Nat) : K) := by exact_mod_cast hc
      push_cast at this
      linarith

theorem column_length (a : List (List K)) (j n : Nat) (h : ∀ r ∈ a, r.length = n) (hj : j < n) : (column a j).length = a.length := by
  unfold column
  induction a with
  | nil => rfl
  | cons r l ih =>
    have hr : j < r.length := by rw [h r (by simp)]; exact hj
    rw [List.filterMap_cons, List.getElem?_eq_getElem hr]
    simp only [List.length_cons]
    rw [ih fun r hr => h r (by simp [hr])]

/-- Every forecast row of a result has quantiles of as many deviations as there are simulations. -/
theorem piSingle_devs (draw : Nat → Nat → Nat) (t : FTable K) (nSims : Nat) (nCum : Int) (q1 q2 : K)
    (out : List (PRow K)) (h : piSingle draw t nSims nCum q1 q2 = .ok out) (r : PRow K) (hr : r ∈ out) (hf : r.isActuals = false) :
    ValidPct q1 q2 ∧ ∃ devs : List K, devs.length = nSims ∧
      r.q = (percents q1 q2).map fun p => (p, lift2 (· + ·) r.y (percentile devs p)) := by
  have hact : ∀ r ∈ (actualsUnfiltered (selectRows t)).map actualOut, r.isActuals = true := by
    intro r hr
    rw [List.mem_map] at hr
    obtain ⟨f, -, rfl⟩ := hr
    rfl
  rcases piSingle_inv draw t nSims nCum q1 q2 out h with ⟨rfl, -⟩ | ⟨hq, ⟨p⟩⟩
  · rw [hact r hr] at hf; cases hf
  · obtain ⟨fs, ps, hfs, hps, ho⟩ := piSingle_parts draw t nSims nCum q1 q2 hq p
    rw [h] at ho
    cases ho
    have hres := centred_ne_nil p.res p.hres
    obtain ⟨fs', hfs', l1, l2, -⟩ := futureSample_ok draw (centred p.res) nSims p.n p.future.length hres (cumPeriod_pos t _ nCum p.n p.hn)
    rw [hfs] at hfs'; cases hfs'
    obtain ⟨ps', hps', l3, l4, -⟩ := pastSample_ok draw (centred p.res) nSims p.past.length hres
    rw [hps] at hps'; cases hps'
    have hm : ∀ (rows : List (FRow K)) (s : List (List K)), s.length = nSims → (∀ r ∈ s, r.length = rows.length) →
        r ∈ rows.mapIdx (quantRow q1 q2 s) → ∃ devs : List K, devs.length = nSims ∧
          r.q = (percents q1 q2).map fun p => (p, lift2 (· + ·) r.y (percentile devs p)) := by
      intro rows s e1 e2 hm
      rw [List.mem_mapIdx] at hm
      obtain ⟨j, hj, rfl⟩ := hm
      exact ⟨column s j, by rw [column_length s j _ e2 hj, e1], rfl⟩
    refine ⟨hq, ?_⟩
    rw [List.mem_append, List.mem_append] at hr
    rcases hr with (hr | hr) | hr
    · rw [hact r hr] at hf; cases hf
    · exact hm _ _ l3 l4 hr
    · exact hm _ _ l1 l2 hr

/-- **C132 (partial).** The columns of a forecast row are the forecast plus percentiles of as many deviations as there are simulations. The
forecast lies inside the interval between two of its columns if enough of these deviations are on either side of it, and only then (up to one
deviation). What is missing: nothing makes the deviations fall on both sides, see `C132_counterexample`. -/
theorem C132_inside_partial (draw : Nat → Nat → Nat → Nat) (t : FTable K) (nSims : Nat) (nCum : Option Int) (q1 q2 : K) (w : Freq)
    (out : List (PRow K)) (h : getPi draw t nSims nCum q1 q2 w = .ok out) (r : PRow K) (hr : r ∈ out) (hf : r.isActuals = false) :
    ∃ devs : List K, devs.length = nSims ∧
      (∀ p v, (p, v) ∈ r.q → v = lift2 (· + ·) r.y (percentile devs p)) ∧
      (∀ lo ∈ [q1, 100 - q1, q2, 100 - q2], ∀ hi ∈ [q1, 100 - q1, q2, 100 - q2],
        shareOf nSims lo + 1 ≤ (countBelow devs : K) → shareOf nSims (100 - hi) + 1 ≤ (countAbove devs : K) → InsideInterval lo hi r) ∧
      (∀ lo ∈ [q1, 100 - q1, q2, 100 - q2], ∀ hi ∈ [q1, 100 - q1, q2, 100 - q2], 0 < nSims → r.y ≠ none → InsideInterval lo hi r →
        shareOf nSims lo < (countBelow devs : K) ∧ shareOf nSims (100 - hi) < (countAbove devs : K)) := by
  obtain ⟨i, t', n, o, h1, h2⟩ := getPi_mem draw t nSims nCum q1 q2 w out h r hr
  obtain ⟨hq, devs, hlen, hcols⟩ := piSingle_devs (draw i) t' nSims n q1 q2 o h1 r h2 hf
  have hcol : ∀ p v, (p, v) ∈ r.q → p ∈ percents q1 q2 ∧ v = lift2 (· + ·) r.y (percentile devs p) := by
    intro p v hv
    rw [hcols, List.mem_map] at hv
    obtain ⟨p', hp', e⟩ := hv
    cases e
    exact ⟨hp', rfl⟩
  have hval : ∀ p u y, r.y = some y → (p, some u) ∈ r.q → ∃ c, 0 ≤ p ∧ percentile devs p = some c ∧ u = y + c := by
    intro p u y hy hu
    obtain ⟨hp, hu⟩ := hcol p _ hu
    rw [hy] at hu
    cases hc : percentile devs p with
    | none => rw [hc] at hu; cases hu
    | some c =>
      rw [hc] at hu
      cases hu
      exact ⟨c, (percents_range q1 q2 p hq hp).1.le, rfl, rfl⟩
  refine ⟨devs, hlen, fun p v hv => (hcol p v hv).2, ?_, ?_⟩
  · intro lo _ hi _ hb ha y u v hy hu hv
    obtain ⟨c, hp, hc, rfl⟩ := hval lo u y hy hu
    obtain ⟨d, hp', hd, rfl⟩ := hval hi v y hy hv
    rw [← hlen] at hb ha
    have k1 := (percentile_below devs lo c hp hc).1 hb
    have k2 := (percentile_above devs hi d hp' hd).1 ha
    constructor <;> linarith
  · intro lo hlo hi hhi hn hy hin
    obtain ⟨y, hy⟩ := Option.ne_none_iff_exists'.1 hy
    have hne : devs ≠ [] := by rintro rfl; simp at hlen; omega
    have get : ∀ p ∈ [q1, 100 - q1, q2, 100 - q2], 0 ≤ p ∧ ∃ c, percentile devs p = some c ∧ (p, some (y + c)) ∈ r.q := by
      intro p hp
      have hp' : p ∈ percents q1 q2 := by rw [mem_percents]; simpa using hp
      have hpr := percents_range q1 q2 p hq hp'
      obtain ⟨c, hc⟩ := percentile_some devs p hne hpr.1.le hpr.2.le
      refine ⟨hpr.1.le, c, hc, ?_⟩
      rw [hcols, List.mem_map]
      exact ⟨p, hp', by rw [hy, hc]; rfl⟩
    obtain ⟨p0, c, hc, mc⟩ := get lo hlo
    obtain ⟨p1, d, hd, md⟩ := get hi hhi
    have k := hin y _ _ hy mc md
    rw [← hlen]
    exact ⟨(percentile_below devs lo c p0 hc).2 (by linarith [k.1]), (percentile_above devs hi d p1 hd).2 (by linarith [k.2])⟩

end

/-! ### Example and limit -/

/-- Nine samples 0 and one sample 10, with the mean 1 as forecast. -/
def skewedForecast : FTable ℚ where
  numDate := true
  hasSource := true
  hasBest := true
  hasWeight := false
  rows := ((List.range 10).map fun i => ⟨i, some "a", "actuals", true, false, some (if i = 9 then 10 else 0), none⟩) ++
    (List.range 10).map fun i => ⟨i, some "a", "constant", false, true, some 1, none⟩

/-- Ten simulations: in each row every residual is drawn once. -/
def evenDraws (_ _ i : Nat) : Nat := i / 10

/-- **C132 (limit).** Nine samples 0 and one sample 10 have the mean 1. With draws that are as even as possible (each residual once for each row)
both columns of the inner interval are 0 in every row: the forecast 1 lies above its interval. -/
theorem C132_counterexample :
    (∀ j < 10, Balanced 10 10 ((List.range 10).map fun i => evenDraws 0 2 (i * 10 + j))) ∧
    Spec.average (residualsOf skewedForecast) = 0 ∧
    ∃ out, getPi evenDraws skewedForecast 10 (some 1) 5 20 .D = .ok out ∧
      (∃ r ∈ out, r.isActuals = false) ∧ ∀ r ∈ out, r.isActuals = false → r.y = some 1 ∧ (20, some 0) ∈ r.q ∧ (80, some 0) ∈ r.q ∧ ¬ InsideInterval 20 80 r := by
  have hout : ((getPi evenDraws skewedForecast 10 (some 1) 5 20 .D).toOption.map fun out => decide ((∃ r ∈ out, r.isActuals = false) ∧
      ∀ r ∈ out, r.isActuals = false → r.y = some 1 ∧ (20, some 0) ∈ r.q ∧ (80, some 0) ∈ r.q)) = some true := by decide +kernel
  refine ⟨by unfold Balanced; decide +kernel, by decide +kernel, ?_⟩
  cases h : getPi evenDraws skewedForecast 10 (some 1) 5 20 .D with
  | error e => rw [h] at hout; cases hout
  | ok out =>
    rw [h] at hout
    have hout := of_decide_eq_true (Option.some.inj hout)
    refine ⟨out, rfl, hout.1, fun r hr hf => ?_⟩
    obtain ⟨k1, k2, k3⟩ := hout.2 r hr hf
    refine ⟨k1, k2, k3, fun hin => ?_⟩
    have := (hin 1 0 0 k1 k2 k3).2
    norm_num at this

/-- The hypotheses of `C132_inside_partial` occur: with four deviations, two on either side, the forecast lies inside. -/
example : (shareOf 4 (20 : ℚ) + 1 ≤ (countBelow [-1, 1, -1, (1 : ℚ)] : ℚ) ∧ shareOf 4 (100 - 80 : ℚ) + 1 ≤ (countAbove [-1, 1, -1, (1 : ℚ)] : ℚ)) ∧
    ((getPi (fun _ c i => c + i / 3) exampleForecast 4 (some 1) 5 20 .D).toOption.map fun out =>
      (out[3]?.map fun r => (r.y, r.q))) = some (some (some 2, [(5, some 1), (95, some 3), (20, some 1), (80, some 3)])) := by
  constructor <;> decide +kernel

end Anticipy
