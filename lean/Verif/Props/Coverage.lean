import Verif.Spec.Coverage
import Verif.Props.Inside
import Verif.Props.Widening
import Verif.Props.RunExamples

/-
C133: how many observations lie inside the prediction intervals of their dates?
-/
namespace Anticipy
open Spec
variable {K : Type} [Field K] [LinearOrder K]

section
variable [IsStrictOrderedRing K] [FloorRing K]

omit [Field K] [IsStrictOrderedRing K] [FloorRing K] in
/-- In a list the entries from some position on do not count. -/
theorem countP_take_bound {α : Type} (P : α → Bool) (s : List α) (n : Nat) (h : ∀ i (hi : i < s.length), n ≤ i → P s[i] = false) : s.countP P ≤ n := by
  have e : s.countP P = (s.take n).countP P + (s.drop n).countP P := by rw [← List.countP_append, List.take_append_drop]
  have hz : (s.drop n).countP P = 0 := by
    rw [List.countP_eq_zero]
    intro b hb
    obtain ⟨k, hk, rfl⟩ := List.mem_iff_getElem.1 hb
    rw [List.length_drop] at hk
    rw [List.getElem_drop, h (n + k) (by omega) (by omega)]
    simp
  have hl : (s.take n).countP P ≤ n := by
    refine List.countP_le_length.trans ?_
    rw [List.length_take]
    omega
  omega

/-- Fewer values than the share of the percentile plus one lie below a percentile. -/
theorem count_below_percentile (col : List K) (p v : K) (h0 : 0 ≤ p) (hv : percentile col p = some v) :
    ((col.countP fun d => decide (d < v) : Nat) : K) < shareOf col.length p + 1 := by
  have hperm := sortBy_perm (fun a b : K => decide (a ≤ b)) col
  have hs := sortBy_le_sorted col
  rw [← hperm.countP_eq]
  rw [percentile_eq] at hv
  have hpos : 0 ≤ shareOf col.length p := by unfold shareOf; positivity
  change interpAt _ (shareOf col.length p) = some v at hv
  generalize shareOf col.length p = pos at hv hpos
  generalize sortBy (fun a b : K => decide (a ≤ b)) col = s at hv hs
  obtain ⟨a, ha, hav, hvb, hvn⟩ := interpAt_between s pos v hs hpos hv
  obtain ⟨hi, ea⟩ := List.getElem?_eq_some_iff.1 ha
  have e0 : ((⌊pos⌋₊ : Nat) : K) ≤ pos := Nat.floor_le hpos
  have low : v = a → (s.countP fun d => decide (d < v)) ≤ ⌊pos⌋₊ := by
    intro hva
    apply countP_take_bound
    intro i hi' hle
    rw [decide_eq_false_iff_not, not_lt, hva, ← ea]
    rcases Nat.eq_or_lt_of_le hle with e | hlt
    · subst e; exact le_rfl
    · exact List.pairwise_iff_getElem.1 hs _ _ hi hi' hlt
  have fin : (s.countP fun d => decide (d < v)) ≤ ⌊pos⌋₊ → (((s.countP fun d => decide (d < v)) : Nat) : K) < pos + 1 := by
    intro h
    have : (((s.countP fun d => decide (d < v)) : Nat) : K) ≤ ((⌊pos⌋₊ : Nat) : K) := by exact_mod_cast h
    linarith
  cases hb : s[⌊pos⌋₊ + 1]? with
  | none => exact fin (low (hvn hb))
  | some b =>
    rcases e0.eq_or_lt with he | hlt
    · apply fin
      apply low
      unfold interpAt at hv
      rw [ha, hb] at hv
      simp only [Option.some.injEq] at hv
      rw [← hv, ← he]
      simp
    · obtain ⟨hi2, eb⟩ := List.getElem?_eq_some_iff.1 hb
      have : (s.countP fun d => decide (d < v)) ≤ ⌊pos⌋₊ + 1 := by
        apply countP_take_bound
        intro i hi' hle
        rw [decide_eq_false_iff_not, not_lt]
        refine (hvb b hb).trans ?_
        rw [← eb]
        rcases Nat.eq_or_lt_of_le hle with e | hlt
        · subst e; exact le_rfl
        · exact List.pairwise_iff_getElem.1 hs _ _ hi2 hi' hlt
      have : (((s.countP fun d => decide (d < v)) : Nat) : K) ≤ ((⌊pos⌋₊ + 1 : Nat) : K) := by exact_mod_cast this
      push_cast at this
      linarith

/-- Fewer values than the remaining share plus one lie above a percentile. -/
theorem count_above_percentile (col : List K) (p v : K) (h0 : 0 ≤ p) (hv : percentile col p = some v) :
    ((col.countP fun d => decide (v < d) : Nat) : K) < shareOf col.length (100 - p) + 1 := by
  have hperm := sortBy_perm (fun a b : K => decide (a ≤ b)) col
  have hs := sortBy_le_sorted col
  have hlen := hperm.length_eq
  rw [← hperm.countP_eq]
  rw [percentile_eq] at hv
  have hpos : 0 ≤ shareOf col.length p := by unfold shareOf; positivity
  have hrest : shareOf col.length (100 - p) = ((col.length - 1 : Nat) : K) - shareOf col.length p := by unfold shareOf; ring
  rw [hrest]
  change interpAt _ (shareOf col.length p) = some v at hv
  generalize shareOf col.length p = pos at hv hpos
  rw [← hlen]
  generalize sortBy (fun a b : K => decide (a ≤ b)) col = s at hv hs
  obtain ⟨a, ha, hav, hvb, hvn⟩ := interpAt_between s pos v hs hpos hv
  obtain ⟨hi, ea⟩ := List.getElem?_eq_some_iff.1 ha
  have e1 : pos < ((⌊pos⌋₊ : Nat) : K) + 1 := Nat.lt_floor_add_one pos
  have hrev : s.countP (fun d => decide (v < d)) = s.reverse.countP (fun d => decide (v < d)) := by rw [List.countP_reverse]
  have hle : s.countP (fun d => decide (v < d)) ≤ s.length - 1 - ⌊pos⌋₊ := by
    rw [hrev]
    apply countP_take_bound
    intro i hi' hle
    rw [List.length_reverse] at hi'
    rw [List.getElem_reverse, decide_eq_false_iff_not, not_lt]
    refine le_trans ?_ hav
    rw [← ea]
    rcases Nat.eq_or_lt_of_le (show s.length - 1 - i ≤ ⌊pos⌋₊ by omega) with e | hlt
    · simp only [e]; exact le_rfl
    · exact List.pairwise_iff_getElem.1 hs _ _ (by omega) hi hlt
  have : ((s.countP fun d => decide (v < d) : Nat) : K) + ((⌊pos⌋₊ : Nat) : K) ≤ ((s.length - 1 : Nat) : K) := by
    have : s.countP (fun d => decide (v < d)) + ⌊pos⌋₊ ≤ s.length - 1 := by omega
    exact_mod_cast this
  linarith

/-- Percentiles do not depend on the order of the values. -/
theorem percentile_perm (l l' : List K) (h : l.Perm l') (p : K) : percentile l p = percentile l' p := by
  have e : sortBy (fun a b : K => decide (a ≤ b)) l = sortBy (fun a b : K => decide (a ≤ b)) l' := by
    refine List.Perm.eq_of_pairwise (le := fun a b => a ≤ b) ?_ (sortBy_le_sorted l) (sortBy_le_sorted l') ?_
    · intro a b _ _ h1 h2; exact le_antisymm h1 h2
    · exact ((sortBy_perm _ l).trans h).trans (sortBy_perm _ l').symm
  unfold percentile
  rw [e]

end

/-! ### Balanced draws -/

theorem countP_mod (N : Nat) (hN : 0 < N) (Q : Nat → Bool) (ds : List Nat) :
    (ds.countP fun d => Q (d % N)) = ∑ k ∈ Finset.range N, if Q k = true then (ds.countP fun d => decide (d % N = k)) else 0 := by
  induction ds with
  | nil => simp
  | cons d ds ih =>
    rw [List.countP_cons, ih]
    have : ∀ k ∈ Finset.range N, (if Q k = true then ((d :: ds).countP fun d => decide (d % N = k)) else 0) =
        (if Q k = true then (ds.countP fun d => decide (d % N = k)) else 0) + (if d % N = k then (if Q k = true then 1 else 0) else 0) := by
      intro k _
      rw [List.countP_cons]
      by_cases h1 : Q k = true <;> by_cases h2 : d % N = k <;> simp [h1, h2]
    rw [Finset.sum_congr rfl this, Finset.sum_add_distrib, Finset.sum_ite_eq]
    rw [if_pos (Finset.mem_range.2 (Nat.mod_lt _ hN))]

omit [LinearOrder K] in
theorem countP_getD (P : K → Bool) (l : List K) : l.countP P = ∑ k ∈ Finset.range l.length, if P (l.getD k 0) = true then 1 else 0 := by
  induction l with
  | nil => simp
  | cons a l ih =>
    rw [List.countP_cons, ih, List.length_cons, Finset.sum_range_succ']
    simp

omit [LinearOrder K] in
/-- Balanced draws from a list have the distribution of the list. -/
theorem balanced_count (l : List K) (hl : l ≠ []) (n : Nat) (ds : List Nat) (h : Balanced l.length n ds) (P : K → Bool) :
    ((ds.map fun d => l.getD (d % l.length) 0).countP P) * l.length = n * l.countP P := by
  rw [List.countP_map]
  change (ds.countP fun d => (fun k => P (l.getD k 0)) (d % l.length)) * l.length = _
  rw [countP_mod l.length (List.length_pos_iff.2 hl) (fun k => P (l.getD k 0)) ds, countP_getD P l, Finset.sum_mul, Finset.mul_sum]
  apply Finset.sum_congr rfl
  intro k hk
  have := h.2 k (Finset.mem_range.1 hk)
  by_cases hp : P (l.getD k 0) = true
  · rw [if_pos hp, if_pos hp, this]; simp
  · rw [if_neg hp, if_neg hp]; simp

theorem balanced_perm (l : List K) (hl : l ≠ []) (n : Nat) (ds ds' : List Nat) (h : Balanced l.length n ds) (h' : Balanced l.length n ds') :
    (ds.map fun d => l.getD (d % l.length) 0).Perm (ds'.map fun d => l.getD (d % l.length) 0) := by
  rw [List.perm_iff_count]
  intro a
  have e1 := balanced_count l hl n ds h (· == a)
  have e2 := balanced_count l hl n ds' h' (· == a)
  exact Nat.eq_of_mul_eq_mul_right (List.length_pos_iff.2 hl) (e1.trans e2.symm)

/-! ### Prediction intervals -/

section
variable [IsStrictOrderedRing K] [FloorRing K]

/-- Of the residuals at least the nominal share, up to two of the simulated deviations, lie between two percentiles of balanced draws. -/
theorem balanced_share (l : List K) (hl : l ≠ []) (n : Nat) (hn : 0 < n) (ds : List Nat) (h : Balanced l.length n ds) (lo hi L U : K)
    (hlo : 0 ≤ lo) (hhi : 0 ≤ hi) (hle : hi - lo ≤ 100) (hL : percentile (ds.map fun d => l.getD (d % l.length) 0) lo = some L)
    (hU : percentile (ds.map fun d => l.getD (d % l.length) 0) hi = some U) :
    (l.length : K) * (hi - lo) / 100 < (countWithin L U l : K) + 2 * (l.length : K) / (n : K) := by
  have hc := balanced_count l hl n ds h (fun d => decide (L ≤ d) && decide (d ≤ U))
  have h1 := count_below_percentile _ lo L hlo hL
  have h2 := count_above_percentile _ hi U hhi hU
  have hlen : (ds.map fun d => l.getD (d % l.length) 0).length = n := by rw [List.length_map]; exact h.1
  rw [hlen] at h1 h2
  generalize (ds.map fun d => l.getD (d % l.length) 0) = devs at hc h1 h2 hlen
  have hcover : ∀ devs : List K, devs.length ≤ (devs.countP fun d => decide (d < L)) + (devs.countP fun d => decide (U < d)) +
      devs.countP (fun d => decide (L ≤ d) && decide (d ≤ U)) := by
    intro devs
    induction devs with
    | nil => simp
    | cons d ds ih =>
      simp only [List.countP_cons, List.length_cons]
      by_cases a : d < L
      · simp only [a, decide_true, if_true]; omega
      · by_cases b : U < d
        · simp only [b, decide_true, if_true]; omega
        · have e : (decide (L ≤ d) && decide (d ≤ U)) = true := by simp [not_lt.1 a, not_lt.1 b]
          simp only [e, if_true]; omega
  have hcov := hcover devs
  rw [hlen] at hcov
  have hcov : (n : K) ≤ ((devs.countP fun d => decide (d < L) : Nat) : K) + ((devs.countP fun d => decide (U < d) : Nat) : K) +
      ((devs.countP (fun d => decide (L ≤ d) && decide (d ≤ U)) : Nat) : K) := by exact_mod_cast hcov
  have hc : ((devs.countP (fun d => decide (L ≤ d) && decide (d ≤ U)) : Nat) : K) * (l.length : K) = (n : K) * (countWithin L U l : K) := by
    unfold countWithin
    exact_mod_cast hc
  have hnK : (0 : K) < (n : K) := by exact_mod_cast hn
  have hlK : (0 : K) < (l.length : K) := by exact_mod_cast List.length_pos_iff.2 hl
  have e : ((n - 1 : Nat) : K) = (n : K) - 1 := by rw [Nat.cast_sub hn, Nat.cast_one]
  unfold shareOf at h1 h2
  rw [e] at h1 h2
  have hmain : (n : K) * (hi - lo) / 100 - 2 < ((devs.countP (fun d => decide (L ≤ d) && decide (d ≤ U)) : Nat) : K) := by
    have : ((n : K) - 1) * lo / 100 + ((n : K) - 1) * (100 - hi) / 100 = (n : K) - (n : K) * (hi - lo) / 100 - (100 - (hi - lo)) / 100 := by ring
    linarith
  have := mul_lt_mul_of_pos_right hmain hlK
  rw [hc] at this
  have h3 : ((n : K) * (hi - lo) / 100 - 2) * (l.length : K) / (n : K) < (countWithin L U l : K) := by
    rw [div_lt_iff₀ hnK]; linarith
  have h4 : ((n : K) * (hi - lo) / 100 - 2) * (l.length : K) / (n : K) = (l.length : K) * (hi - lo) / 100 - 2 * (l.length : K) / (n : K) := by
    field_simp
  linarith

theorem centred_zero (l : List K) (h : Spec.average l = 0) : centred l = l := by
  have : centred l = l.map fun a => a - Spec.average l := rfl
  rw [this, h]
  simp

/-- **C133 (partial).** If the forecasts have no bias on the past and the draws for each past date reproduce the distribution of the residuals, then all past dates
have the same interval around their forecasts, and the observations inside it are at least the nominal share of all, up to the weight of two simulations. What is
missing: forecasts with a bias, see `C133_counterexample`. -/
theorem C133_share_partial (draw : Nat → Nat → Nat) (t : FTable K) (nSims : Nat) (nCum : Int) (q1 q2 : K) (out : List (PRow K)) (hreg : Spec.Regular t)
    (hov : Overlap t) (h : piSingle draw t nSims nCum q1 q2 = .ok out) (last : Timestamp) (hlast : LastUsed t last) (hn : 0 < nSims)
    (hbias : Spec.average (residualsOf t) = 0)
    (hbal : Reproduces (residualsOf t).length nSims (t.rows.filter fun r => IsForecast t r && decide (r.date ≤ last)).length (draw 2))
    (lo : K) (hlo : lo ∈ [q1, 100 - q1, q2, 100 - q2]) (hi : K) (hhi : hi ∈ [q1, 100 - q1, q2, 100 - q2]) :
    ∃ L U, (∀ r ∈ out, r.isActuals = false → r.date ≤ last → ∀ y, r.y = some y → ∀ v, Encloses lo hi r v ↔ L ≤ v - y ∧ v - y ≤ U) ∧
      ((residualsOf t).length : K) * (hi - lo) / 100 < (countWithin L U (residualsOf t) : K) + 2 * ((residualsOf t).length : K) / (nSims : K) := by
  obtain ⟨hq, p, hres, hlast'⟩ := piSingle_regular draw t nSims nCum q1 q2 out hreg hov h
  have hl : p.last = last := by
    obtain ⟨⟨a, ha, hu, hd⟩, hle⟩ := hlast'
    obtain ⟨⟨a', ha', hu', hd'⟩, hle'⟩ := hlast
    apply le_antisymm
    · rw [← hd]; exact hle' a ha hu
    · rw [← hd']; exact hle a' ha' hu'
  have hcount : p.past = t.rows.filter fun r => IsForecast t r && decide (r.date ≤ last) := by
    unfold PiParts.past
    rw [hl]
    exact select_forecast t _
  have hne : residualsOf t ≠ [] := by rw [← hres]; exact p.hres
  obtain ⟨out', fs, ps, h1, -, h2, -, h3⟩ := pi_rows draw t nSims nCum q1 q2 hq p
  rw [h] at h1
  cases h1
  rw [hl] at h3
  rw [hres, centred_zero _ hbias, pastSample_entries draw _ nSims _ hne] at h2
  have h2 := Except.ok.inj h2
  rw [← hcount] at hbal
  have hpos : 0 < p.past.length := by
    obtain ⟨f, hf, a, ha, k1, -, k3, k4, -⟩ := hov
    rw [hcount]
    refine List.length_pos_of_mem (a := f) (List.mem_filter.2 ⟨hf, ?_⟩)
    rw [k1, ← k4]
    simpa using hlast.2 a ha k3
  set l := residualsOf t with hldef
  let ds : Nat → List Nat := fun j => (List.range nSims).map fun i => draw 2 (i * p.past.length + j)
  let devs : Nat → List K := fun j => (ds j).map fun d => l.getD (d % l.length) 0
  have hdev : ∀ j < p.past.length, ∀ q, percentile (devs j) q = percentile (devs 0) q := fun j hj q =>
    percentile_perm _ _ (balanced_perm l hne nSims _ _ (hbal j hj) (hbal 0 hpos)) q
  have hmem : ∀ {q : K}, q ∈ [q1, 100 - q1, q2, 100 - q2] → q ∈ percents q1 q2 ∧ 0 ≤ q ∧ q ≤ 100 := by
    intro q hq'
    obtain ⟨a1, a2, a3, a4⟩ := hq
    refine ⟨by rw [mem_percents]; simpa using hq', ?_⟩
    simp only [List.mem_cons, List.not_mem_nil, or_false] at hq'
    rcases hq' with rfl | rfl | rfl | rfl <;> constructor <;> linarith
  have hsome : ∀ {q : K}, q ∈ [q1, 100 - q1, q2, 100 - q2] → ∃ v, percentile (devs 0) q = some v := by
    intro q hq'
    refine percentile_some _ q ?_ (hmem hq').2.1 (hmem hq').2.2
    rw [Ne, List.map_eq_nil_iff, List.map_eq_nil_iff, List.range_eq_nil]
    exact hn.ne'
  obtain ⟨L, hL⟩ := hsome hlo
  obtain ⟨U, hU⟩ := hsome hhi
  refine ⟨L, U, ?_, ?_⟩
  · intro r hr hact hd y hy v
    have hr' : r ∈ p.past.mapIdx (quantRow q1 q2 ps) := by
      rw [← h3, List.mem_filter]
      exact ⟨hr, by rw [hact]; simpa using hd⟩
    rw [List.mem_mapIdx] at hr'
    obtain ⟨j, hj, rfl⟩ := hr'
    have hcol : column ps j = devs j := by
      rw [← h2, column_entries _ nSims _ j hj]
      simp only [devs, ds, List.map_map]
      rfl
    have hqs : (quantRow q1 q2 ps j p.past[j]).q = (percents q1 q2).map fun c => (c, lift2 (· + ·) (quantRow q1 q2 ps j p.past[j]).y (percentile (column ps j) c)) := rfl
    have hval : ∀ {c a : K}, (c, some a) ∈ (quantRow q1 q2 ps j p.past[j]).q → ∀ b, percentile (devs 0) c = some b → a = y + b := by
      intro c a hc b hb
      have := (quantRow_q q1 q2 ps j p.past[j]).2 c _ hc
      have hy' : p.past[j].y = some y := hy
      rw [hy', hcol, hdev j hj, hb] at this
      exact Option.some.inj this
    have hin : ∀ {c b : K}, c ∈ [q1, 100 - q1, q2, 100 - q2] → percentile (devs 0) c = some b → (c, some (y + b)) ∈ (quantRow q1 q2 ps j p.past[j]).q := by
      intro c b hc hb
      rw [hqs, List.mem_map]
      refine ⟨c, (hmem hc).1, ?_⟩
      rw [hy, hcol, hdev j hj, hb]
      rfl
    constructor
    · rintro ⟨a, b, ka, kb, h5, h6⟩
      rw [hval ka L hL] at h5
      rw [hval kb U hU] at h6
      constructor <;> linarith
    · rintro ⟨h5, h6⟩
      exact ⟨y + L, y + U, hin hlo hL, hin hhi hU, by linarith, by linarith⟩
  · exact balanced_share l hne nSims hn (ds 0) (hbal 0 hpos) lo hi L U (hmem hlo).2.1 (hmem hhi).2.1 (by linarith [(hmem hlo).2.1, (hmem hhi).2.2]) hL hU

/-- **C133, bias.** The mean error is taken out of the residuals before the simulation. So an observation that misses its forecast by more than any residual
differs from the mean error lies outside all intervals, whatever the draws. -/
theorem C133_outside (draw : Nat → Nat → Nat) (t : FTable K) (nSims : Nat) (nCum : Int) (q1 q2 : K) (out : List (PRow K)) (hreg : Spec.Regular t)
    (hov : Overlap t) (h : piSingle draw t nSims nCum q1 q2 = .ok out) (m : K)
    (hm : ∀ a ∈ residualsOf t, -m ≤ a - Spec.average (residualsOf t) ∧ a - Spec.average (residualsOf t) ≤ m) (r : PRow K) (hr : r ∈ out)
    (hp : ∃ a ∈ t.rows, Used t a = true ∧ r.date ≤ a.date) (y : K) (hy : r.y = some y) (d : K) (hd : m < |d|) (lo hi : K) : ¬ Encloses lo hi r (y + d) := by
  rintro ⟨a, b, ka, kb, h1, h2⟩
  have ea := C44_past draw t nSims nCum q1 q2 out hreg hov h (-m) m hm r hr hp y hy lo a ka
  have eb := C44_past draw t nSims nCum q1 q2 out hreg hov h (-m) m hm r hr hp y hy hi b kb
  rcases lt_abs.1 hd with k | k <;> linarith [ea.1, ea.2, eb.1, eb.2]

end

/-! ### Example and limit -/

/-- Twenty samples on a rising line; the forecast of each sample is the sample before it, that of the first is the sample itself. -/
def risingForecast : FTable ℚ where
  numDate := true
  hasSource := true
  hasBest := true
  hasWeight := false
  rows := ((List.range 20).map fun i => ⟨i, some "a", "actuals", true, false, some (i + 1), none⟩) ++
    (List.range 22).map fun i => ⟨i, some "a", "naive", false, true, some (max 1 (min i 20)), none⟩

theorem rising_facts : Spec.Regular risingForecast ∧ Overlap risingForecast ∧ ∀ a ∈ residualsOf risingForecast,
    -(19 / 20) ≤ a - Spec.average (residualsOf risingForecast) ∧ a - Spec.average (residualsOf risingForecast) ≤ 19 / 20 :=
  ⟨⟨by decide +kernel, by decide +kernel, by decide +kernel, fun h => by cases h⟩, by unfold Overlap; decide +kernel, by decide +kernel⟩

/-- **C133 (limit).** The last value as forecast for a rising line of twenty samples: whatever is drawn, none of the nineteen observations after the first lies
inside any of the intervals. -/
theorem C133_counterexample (draw : Nat → Nat → Nat) (nSims : Nat) : ∃ out, piSingle draw risingForecast nSims 1 5 20 = .ok out ∧
    (∀ d ∈ List.range 20, (∃ r ∈ out, r.isActuals = false ∧ r.date = d) ∧ ∃ a ∈ out, a.isActuals = true ∧ a.date = d ∧ a.y ≠ none) ∧
    ∀ r ∈ out, r.isActuals = false → 1 ≤ r.date → ∀ a ∈ out, a.isActuals = true → a.date = r.date → ∀ v, a.y = some v → ∀ lo hi, ¬ Encloses lo hi r v := by
  obtain ⟨hreg, hov, hres⟩ := rising_facts
  obtain ⟨out, h⟩ := C46_total draw risingForecast nSims 1 5 20 (by norm_num) rfl (by decide +kernel) (.inl rfl)
  have hrows := C45_rows_partial draw risingForecast nSims 1 5 20 out hov h
  have f1 : ∀ d ∈ List.range 20, (∃ r ∈ (shown risingForecast).map content, r.isActuals = false ∧ r.date = d) ∧
      ∃ a ∈ (shown risingForecast).map content, a.isActuals = true ∧ a.date = d ∧ a.y ≠ none := by decide +kernel
  have f2 : ∀ r ∈ (shown risingForecast).map content, r.isActuals = false → 1 ≤ r.date → ∀ a ∈ (shown risingForecast).map content, a.isActuals = true →
      a.date = r.date → a.y = r.y.map (· + 1) ∧ ∃ a ∈ risingForecast.rows, Used risingForecast a = true ∧ r.date ≤ a.date := by decide +kernel
  have back : ∀ r ∈ (shown risingForecast).map content, ∃ o ∈ out, plain o = r := fun r hr => List.mem_map.1 (hrows.mem_iff.2 hr)
  have forth : ∀ o ∈ out, plain o ∈ (shown risingForecast).map content := fun o ho => hrows.mem_iff.1 (List.mem_map_of_mem ho)
  refine ⟨out, h, ?_, ?_⟩
  · intro d hd
    obtain ⟨⟨r, hr, k1, k2⟩, ⟨a, ha, k3, k4, k5⟩⟩ := f1 d hd
    obtain ⟨r', hr', rfl⟩ := back r hr
    obtain ⟨a', ha', rfl⟩ := back a ha
    exact ⟨⟨r', hr', k1, k2⟩, ⟨a', ha', k3, k4, k5⟩⟩
  · intro r hr hf h1 a ha hact hd v hv lo hi
    obtain ⟨e, hp⟩ := f2 _ (forth r hr) hf h1 _ (forth a ha) hact hd
    have e : a.y = r.y.map (· + 1) := e
    cases hy : r.y with
    | none => rw [hy, hv] at e; cases e
    | some y =>
      rw [hy, hv] at e
      cases e
      exact C133_outside draw risingForecast nSims 1 5 20 out hreg hov h _ hres r hr hp y hy 1 (by norm_num) lo hi

/-- A run yields this table: the naive model on a rising line. -/
example : ((runFits demoWorld (demoArgs [] (some [modelNaive stableSort])) "s"
    ⟨true, false, (List.range 20).map fun i => ⟨i * DAY, i, some (i + 1), none⟩⟩).toOption.map fun d =>
    d.1.map fun q => (q.isActuals, q.date / DAY, q.y)) =
    some (((List.range 20).map fun i => (true, (i : Int), some ((i : ℚ) + 1))) ++ (List.range 23).map fun i => (false, (i : Int), some (max 1 (min (i : ℚ) 20)))) := by
  decide +kernel

/-- The hypotheses of `C133_share_partial` occur: the mean as forecast for nine samples 0 and one sample 10, each residual drawn once for each date. -/
example : Spec.Regular skewedForecast ∧ Overlap skewedForecast ∧ LastUsed skewedForecast 9 ∧ Spec.average (residualsOf skewedForecast) = 0 ∧
    Reproduces (residualsOf skewedForecast).length 10 (skewedForecast.rows.filter fun r => IsForecast skewedForecast r && decide (r.date ≤ 9)).length (evenDraws 0 2) :=
  ⟨⟨by decide +kernel, by decide +kernel, by decide +kernel, fun h => by cases h⟩, by unfold Overlap; decide +kernel, by unfold LastUsed; decide +kernel,
    by decide +kernel, by unfold Reproduces Balanced; decide +kernel⟩

end Anticipy
