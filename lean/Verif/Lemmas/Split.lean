import Mathlib.Order.Defs.LinearOrder
import Mathlib.Order.Basic
import Mathlib.Data.List.Perm.Basic
import Mathlib.Data.List.Nodup

/-
Splitting a list by keys.
-/
namespace Anticipy

/-- Splitting a list into the parts of distinct keys and concatenating them is a permutation. -/
theorem flatMap_filter_perm {α β : Type} [DecidableEq β] (key : α → β) (S : List β) (hS : S.Nodup) (L : List α) :
    (S.flatMap fun s => L.filter fun r => decide (key r = s)).Perm (L.filter fun r => decide (key r ∈ S)) := by
  induction S with
  | nil => simp
  | cons s S ih =>
    rw [List.nodup_cons] at hS
    rw [List.flatMap_cons]
    have h := List.filter_append_perm (fun r => decide (key r = s)) (L.filter fun r => decide (key r ∈ s :: S))
    rw [List.filter_filter, List.filter_filter] at h
    refine List.Perm.trans ?_ h
    apply List.Perm.append
    · apply List.Perm.of_eq
      apply List.filter_congr
      intro r _
      by_cases hr : key r = s <;> simp [hr]
    · refine (ih hS.2).trans (List.Perm.of_eq ?_)
      apply List.filter_congr
      intro r _
      by_cases hr : key r = s
      · simp [hr, hS.1]
      · simp [hr]

/-- For a list that is sorted by key, the parts of increasing keys concatenate to the list itself. -/
theorem flatMap_filter_sorted {α β γ : Type} [DecidableEq β] [LinearOrder γ] (key : α → β) (ord : β → γ) (S : List β)
    (hS : S.Pairwise fun a b => ord a < ord b) (L : List α) (hL : L.Pairwise fun a b => ord (key a) ≤ ord (key b))
    (hmem : ∀ r ∈ L, key r ∈ S) :
    (S.flatMap fun s => L.filter fun r => decide (key r = s)) = L := by
  induction S generalizing L with
  | nil =>
    cases L with
    | nil => rfl
    | cons a L => exact absurd (hmem a (by simp)) (by simp)
  | cons s S ih =>
    rw [List.pairwise_cons] at hS
    rw [List.flatMap_cons]
    have hsplit : ∀ L : List α, (L.Pairwise fun a b => ord (key a) ≤ ord (key b)) → (∀ r ∈ L, key r ∈ s :: S) →
        L = (L.filter fun r => decide (key r = s)) ++ L.filter fun r => decide (key r ≠ s) := by
      intro L hL hmem
      induction L with
      | nil => rfl
      | cons a L ihL =>
        rw [List.pairwise_cons] at hL
        have ihL := ihL hL.2 (fun r hr => hmem r (by simp [hr]))
        by_cases ha : key a = s
        · simp only [List.filter_cons, ha, decide_true, if_true, ne_eq, not_true, decide_false, List.cons_append]
          simp only [Bool.false_eq_true, if_false]
          congr 1
        · have haS : key a ∈ S := by
            rcases List.mem_cons.1 (hmem a (by simp)) with h | h
            · exact absurd h ha
            · exact h
          have hnone : ∀ r ∈ L, key r ≠ s := by
            intro r hr h
            have h1 := hL.1 r hr
            rw [h] at h1
            exact absurd (hS.1 _ haS) (not_lt.2 h1)
          have e1 : L.filter (fun r => decide (key r = s)) = [] := by
            rw [List.filter_eq_nil_iff]
            intro r hr
            simpa using hnone r hr
          have e2 : L.filter (fun r => decide (key r ≠ s)) = L := by
            rw [List.filter_eq_self]
            intro r hr
            simpa using hnone r hr
          simp only [List.filter_cons, ha, e1, e2, decide_false, ne_eq, not_false_eq_true, decide_true, if_true]
          simp
    have hrest : (S.flatMap fun s' => L.filter fun r => decide (key r = s')) = L.filter fun r => decide (key r ≠ s) := by
      have := ih hS.2 (L.filter fun r => decide (key r ≠ s)) (hL.filter _) (by
        intro r hr
        rw [List.mem_filter] at hr
        rcases List.mem_cons.1 (hmem r hr.1) with h | h
        · simp [h] at hr
        · exact h)
      rw [← this]
      apply List.flatMap_congr
      intro s' hs'
      rw [List.filter_filter]
      apply List.filter_congr
      intro r hr
      by_cases h : key r = s'
      · have : s' ≠ s := by
          rintro rfl
          exact lt_irrefl _ (hS.1 _ hs')
        simp [h, this]
      · simp [h]
    rw [hrest]
    exact (hsplit L hL hmem).symm

/-- Two permutations of each other that are strictly sorted by a key agree. -/
theorem eq_of_perm_strict {α β : Type} [Preorder β] (key : α → β) (l l' : List α) (h : l.Perm l')
    (hs : l.Pairwise fun a b => key a < key b) (hs' : l'.Pairwise fun a b => key a < key b) : l = l' := by
  apply List.Perm.eq_of_pairwise (le := fun a b : α => key a < key b) _ hs hs' h
  intro a b _ _ h1 h2
  exact absurd (h1.trans h2) (lt_irrefl _)

/-- Sorted by key with distinct keys: strictly sorted. -/
theorem strict_of_sorted_nodup {α β : Type} [PartialOrder β] (key : α → β) (l : List α) (h : l.Pairwise fun a b => key a ≤ key b)
    (hn : (l.map key).Nodup) : l.Pairwise fun a b => key a < key b := by
  rw [List.nodup_iff_pairwise_ne, List.pairwise_map] at hn
  exact (h.and hn).imp fun ⟨h1, h2⟩ => lt_of_le_of_ne h1 h2

end Anticipy
