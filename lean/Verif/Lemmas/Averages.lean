import Verif.Spec.Widening
import Verif.Lemmas.Interval
import Mathlib.Algebra.BigOperators.Ring.Finset

/-
Helper lemmas: sums over all ways to draw, and the entries of simulated deviations.
-/
namespace Anticipy
open Spec Finset

section Draws
variable {K : Type} [Field K] {ι : Type} [Fintype ι] [DecidableEq ι] {N : Nat}

theorem draws_one (V : Fin N → K) (hV : ∑ a, V a = 0) (i : ι) : ∑ d : ι → Fin N, V (d i) = 0 := by
  have h1 : ∀ d : ι → Fin N, V (d i) = ∏ k, if k = i then V (d k) else 1 := by
    intro d
    rw [Finset.prod_ite_eq' univ i (fun k => V (d k)), if_pos (mem_univ i)]
  have h2 := Finset.prod_univ_sum (fun _ : ι => (univ : Finset (Fin N))) (fun k a => if k = i then V a else 1)
  rw [Fintype.piFinset_univ] at h2
  rw [Finset.sum_congr rfl (fun d _ => h1 d), ← h2]
  exact Finset.prod_eq_zero (mem_univ i) (by simpa using hV)

theorem draws_two (V : Fin N → K) (hV : ∑ a, V a = 0) (i j : ι) :
    ∑ d : ι → Fin N, V (d i) * V (d j) = if i = j then (∑ a, V a ^ 2) * (N : K) ^ (Fintype.card ι - 1) else 0 := by
  have h1 : ∀ d : ι → Fin N, V (d i) * V (d j) = ∏ k, ((if k = i then V (d k) else 1) * if k = j then V (d k) else 1) := by
    intro d
    rw [Finset.prod_mul_distrib, Finset.prod_ite_eq' univ i (fun k => V (d k)), if_pos (mem_univ i),
      Finset.prod_ite_eq' univ j (fun k => V (d k)), if_pos (mem_univ j)]
  have h2 := Finset.prod_univ_sum (fun _ : ι => (univ : Finset (Fin N))) (fun k a => (if k = i then V a else 1) * if k = j then V a else 1)
  rw [Fintype.piFinset_univ] at h2
  rw [Finset.sum_congr rfl (fun d _ => h1 d), ← h2]
  split_ifs with hij
  · subst hij
    rw [← Finset.mul_prod_erase univ _ (mem_univ i)]
    congr 1
    · apply Finset.sum_congr rfl
      intro a _
      rw [if_pos rfl, sq]
    · rw [Finset.prod_congr rfl (g := fun _ => (N : K)) (by
        intro k hk
        have := (Finset.mem_erase.1 hk).1
        simp [this])]
      rw [Finset.prod_const, Finset.card_erase_of_mem (mem_univ i), Finset.card_univ]
  · exact Finset.prod_eq_zero (mem_univ i) (by simpa [hij] using hV)

theorem draws_sum {κ : Type} [Fintype κ] (V : Fin N → K) (hV : ∑ a, V a = 0) (e : κ → ι) : ∑ d : ι → Fin N, ∑ k, V (d (e k)) = 0 := by
  rw [Finset.sum_comm]
  exact Finset.sum_eq_zero fun k _ => draws_one V hV (e k)

theorem draws_square {κ : Type} [Fintype κ] [DecidableEq κ] (V : Fin N → K) (hV : ∑ a, V a = 0) (e : κ → ι) (he : Function.Injective e) :
    ∑ d : ι → Fin N, (∑ k, V (d (e k))) ^ 2 = (Fintype.card κ : K) * ((∑ a, V a ^ 2) * (N : K) ^ (Fintype.card ι - 1)) := by
  have h1 : ∀ d : ι → Fin N, (∑ k, V (d (e k))) ^ 2 = ∑ k, ∑ l, V (d (e k)) * V (d (e l)) := by
    intro d
    rw [sq, Finset.sum_mul_sum]
  rw [Finset.sum_congr rfl (fun d _ => h1 d), Finset.sum_comm]
  have h2 : ∀ k : κ, ∑ d : ι → Fin N, ∑ l, V (d (e k)) * V (d (e l)) = (∑ a, V a ^ 2) * (N : K) ^ (Fintype.card ι - 1) := by
    intro k
    rw [Finset.sum_comm]
    rw [Finset.sum_congr rfl (g := fun l => if k = l then (∑ a, V a ^ 2) * (N : K) ^ (Fintype.card ι - 1) else 0) (by
      intro l _
      rw [draws_two V hV]
      by_cases h : k = l
      · rw [if_pos h, if_pos (congrArg e h)]
      · rw [if_neg h, if_neg (fun hh => h (he hh))])]
    rw [Finset.sum_ite_eq univ k, if_pos (mem_univ k)]
  rw [Finset.sum_congr rfl (fun k _ => h2 k), Finset.sum_const, Finset.card_univ, nsmul_eq_mul]

end Draws

section Entries
variable {K : Type} [Field K] [LinearOrder K]

theorem reshape_entries (rows cols : Nat) (g : Nat → K) : reshape rows cols ((List.range (cols * rows)).map g) =
    .ok ((List.range rows).map fun i => (List.range cols).map fun j => g (i * cols + j)) := by
  unfold reshape
  rw [if_pos (by simp [Nat.mul_comm])]
  congr 1
  apply List.map_congr_left
  intro i hi
  rw [List.mem_range] at hi
  apply List.ext_getElem?
  intro j
  rw [List.getElem?_take]
  split_ifs with hj
  · have h1 : i * cols + j < cols * rows := by
      have := Nat.mul_le_mul_right cols (Nat.succ_le_of_lt hi)
      rw [Nat.succ_mul, Nat.mul_comm rows] at this
      omega
    rw [List.getElem?_drop, List.getElem?_map, List.getElem?_map, List.getElem?_range h1, List.getElem?_range hj]
    rfl
  · rw [List.getElem?_map, List.getElem?_eq_none (by simpa using hj)]
    rfl

omit [LinearOrder K] in
theorem range_sum (g : Nat → K) (n : Nat) : ((List.range n).map g).sum = ∑ l ∈ Finset.range n, g l := by
  induction n with
  | zero => rfl
  | succ n ih => rw [List.range_succ, List.map_append, List.sum_append, ih, Finset.sum_range_succ]; simp

theorem cumsum_entries (acc : K) (g : Nat → K) (m : Nat) : cumsum acc ((List.range m).map g) =
    (List.range m).map fun k => acc + ∑ l ∈ Finset.range (k + 1), g l := by
  have key : ∀ (l : List K) (acc : K) (k : Nat), (cumsum acc l)[k]? = if k < l.length then some (acc + (l.take (k + 1)).sum) else none := by
    intro l
    induction l with
    | nil => intro acc k; simp [cumsum]
    | cons a l ih =>
      intro acc k
      cases k with
      | zero => simp [cumsum]
      | succ k =>
        rw [cumsum, List.getElem?_cons_succ, ih]
        simp [add_assoc]
  apply List.ext_getElem?
  intro k
  rw [key, List.length_map, List.length_range, List.getElem?_map]
  split_ifs with h
  · rw [List.getElem?_range h, Option.map_some, ← List.map_take, List.take_range, Nat.min_eq_left h, range_sum]
  · rw [List.getElem?_eq_none (by simpa using h)]
    rfl

theorem short_few (n c : Nat) (hc : 0 < c) : ⌈(n : ℚ) / (c : ℚ)⌉.toNat ≤ n := by
  have h0 : (0 : ℚ) < (c : ℚ) := by exact_mod_cast hc
  have h1 : (n : ℚ) / (c : ℚ) ≤ (n : ℚ) := div_le_self (by positivity) (by exact_mod_cast hc)
  have h2 : ⌈(n : ℚ) / (c : ℚ)⌉ ≤ (n : Int) := Int.ceil_le.2 (by exact_mod_cast h1)
  omega

theorem short_index (n c j : Nat) (hc : 0 < c) (hj : j < n) : j / c < ⌈(n : ℚ) / (c : ℚ)⌉.toNat := by
  have := short_enough n c hc
  rw [Nat.div_lt_iff_lt_mul hc, Nat.mul_comm]
  omega

/-- The simulated deviations of future samples: one draw for the sample, and one for each period begun. -/
theorem futureSample_entries (draw : Nat → Nat → Nat) (res : List K) (nSims c n : Nat) (hres : res ≠ []) (hc : 0 < c) :
    futureSample draw res nSims c n = .ok ((List.range nSims).map fun i => (List.range n).map fun j =>
      res.getD (draw 1 (i * n + j) % res.length) 0 +
        ∑ k ∈ Finset.range (j / c + 1), res.getD (draw 0 (i * ⌈(n : ℚ) / (c : ℚ)⌉.toNat + k) % res.length) 0) := by
  unfold futureSample sampleWith
  simp only [hres, false_and, if_false, bind, Except.bind]
  rw [reshape_entries, reshape_entries]
  dsimp only
  have hexp : (((List.range nSims).map fun i => (List.range ⌈(n : ℚ) / (c : ℚ)⌉.toNat).map fun j =>
      res.getD (draw 0 (i * ⌈(n : ℚ) / (c : ℚ)⌉.toNat + j) % res.length) 0).map (cumsum 0)).map (fun r => (repeatEach c r).take n) =
      (List.range nSims).map fun i => (List.range n).map fun j =>
        ∑ k ∈ Finset.range (j / c + 1), res.getD (draw 0 (i * ⌈(n : ℚ) / (c : ℚ)⌉.toNat + k) % res.length) 0 := by
    rw [List.map_map, List.map_map]
    apply List.map_congr_left
    intro i _
    simp only [Function.comp]
    rw [cumsum_entries]
    apply List.ext_getElem?
    intro j
    rw [List.getElem?_take]
    split_ifs with hj
    · rw [repeatEach_getElem? c hc, List.getElem?_map, List.getElem?_map, List.getElem?_range hj, List.getElem?_range (short_index n c j hc hj)]
      simp
    · rw [List.getElem?_eq_none (by simpa using hj)]
  rw [hexp]
  unfold addRows
  rw [if_pos (by simp [Function.comp_def])]
  congr 1
  rw [List.zipWith_map, List.zipWith_self]
  apply List.map_congr_left
  intro i _
  rw [List.zipWith_map, List.zipWith_self]

/-- The simulated deviations of past samples: one draw each. -/
theorem pastSample_entries (draw : Nat → Nat → Nat) (res : List K) (nSims n : Nat) (hres : res ≠ []) :
    pastSample draw res nSims n = .ok ((List.range nSims).map fun i => (List.range n).map fun j => res.getD (draw 2 (i * n + j) % res.length) 0) := by
  unfold pastSample sampleWith
  simp only [hres, false_and, if_false, bind, Except.bind]
  rw [reshape_entries]

theorem column_entries (g : Nat → Nat → K) (m n j : Nat) (hj : j < n) :
    column ((List.range m).map fun i => (List.range n).map fun j => g i j) j = (List.range m).map fun i => g i j := by
  unfold column
  rw [List.filterMap_map]
  rw [← List.filterMap_eq_map]
  congr 1
  funext i
  simp [List.getElem?_range hj]

end Entries
end Anticipy
