import Verif.Model.Py
import Mathlib.Order.Defs.LinearOrder
import Mathlib.Order.Basic
import Mathlib.Data.List.Pairwise
import Mathlib.Data.List.Perm.Basic

/-
Helper lemmas on the list operations of `Model/Py`.
-/
namespace Anticipy

theorem mem_dedupBy {α β : Type} [DecidableEq β] (key : α → β) (l : List α) (a : α) (h : a ∈ dedupBy key l) : a ∈ l := by
  induction l with
  | nil => simp [dedupBy] at h
  | cons b l ih =>
    simp only [dedupBy, List.mem_cons, List.mem_filter] at h ⊢
    rcases h with h | h
    · exact .inl h
    · exact .inr (ih h.1)

theorem mem_dedupBy_key {α β : Type} [DecidableEq β] (key : α → β) (l : List α) (a : α) (h : a ∈ l) :
    ∃ b ∈ dedupBy key l, key b = key a := by
  induction l with
  | nil => simp at h
  | cons c l ih =>
    simp only [dedupBy, List.mem_cons, List.mem_filter]
    rcases List.mem_cons.1 h with rfl | h
    · exact ⟨a, .inl rfl, rfl⟩
    · obtain ⟨b, hb, hk⟩ := ih h
      by_cases hc : key b = key c
      · exact ⟨c, .inl rfl, by rw [← hc, hk]⟩
      · exact ⟨b, .inr ⟨hb, by simpa using hc⟩, hk⟩

theorem dedupBy_sublist {α β : Type} [DecidableEq β] (key : α → β) (l : List α) : (dedupBy key l).Sublist l := by
  induction l with
  | nil => exact .slnil
  | cons a l ih => simp only [dedupBy]; exact (List.filter_sublist.trans ih).cons_cons a

theorem dedupBy_keys_nodup {α β : Type} [DecidableEq β] (key : α → β) (l : List α) :
    (dedupBy key l).Pairwise (fun a b => key a ≠ key b) := by
  induction l with
  | nil => exact .nil
  | cons a l ih =>
    simp only [dedupBy, List.pairwise_cons]
    refine ⟨fun b hb => ?_, ih.filter _⟩
    simp only [List.mem_filter, decide_eq_true_eq] at hb
    exact fun h => hb.2 h.symm

theorem mem_dedup {α : Type} [DecidableEq α] (l : List α) (a : α) : a ∈ dedupBy (fun x : α => x) l ↔ a ∈ l := by
  constructor
  · exact mem_dedupBy _ _ _
  · intro h
    obtain ⟨b, hb, e⟩ := mem_dedupBy_key (fun x : α => x) l a h
    rw [← e]; exact hb

theorem dedupBy_of_nodup {α β : Type} [DecidableEq β] (key : α → β) (l : List α)
    (h : l.Pairwise (fun a b => key a ≠ key b)) : dedupBy key l = l := by
  induction l with
  | nil => rfl
  | cons a l ih =>
    rw [List.pairwise_cons] at h
    simp only [dedupBy, ih h.2]
    rw [List.filter_eq_self.2]
    intro b hb
    simpa using fun e => h.1 b hb (Eq.symm e)

theorem insertBy_perm {α : Type} (le : α → α → Bool) (a : α) (l : List α) : (insertBy le a l).Perm (a :: l) := by
  induction l with
  | nil => exact .refl _
  | cons b l ih =>
    simp only [insertBy]
    split
    · exact .refl _
    · exact (List.Perm.cons b ih).trans (List.Perm.swap a b l)

theorem sortBy_perm {α : Type} (le : α → α → Bool) (l : List α) : (sortBy le l).Perm l := by
  induction l with
  | nil => exact .refl _
  | cons a l ih => exact (insertBy_perm le a _).trans (List.Perm.cons a ih)

theorem insertBy_sorted {α : Type} (le : α → α → Bool) (htr : ∀ a b c, le a b → le b c → le a c)
    (htot : ∀ a b, le a b || le b a) (a : α) (l : List α) (h : l.Pairwise (fun a b => le a b)) :
    (insertBy le a l).Pairwise (fun a b => le a b) := by
  induction l with
  | nil => simp [insertBy]
  | cons b l ih =>
    rw [List.pairwise_cons] at h
    simp only [insertBy]
    split
    · rename_i hab
      rw [List.pairwise_cons, List.pairwise_cons]
      refine ⟨fun c hc => ?_, h⟩
      rcases List.mem_cons.1 hc with rfl | hc
      · exact hab
      · exact htr _ _ _ hab (h.1 c hc)
    · rename_i hab
      rw [List.pairwise_cons]
      refine ⟨fun c hc => ?_, ih h.2⟩
      rcases List.mem_cons.1 ((insertBy_perm le a l).mem_iff.1 hc) with rfl | hc
      · have := htot c b; simp [hab] at this; exact this
      · exact h.1 c hc

theorem sortBy_sorted {α : Type} (le : α → α → Bool) (htr : ∀ a b c, le a b → le b c → le a c)
    (htot : ∀ a b, le a b || le b a) (l : List α) : (sortBy le l).Pairwise (fun a b => le a b) := by
  induction l with
  | nil => exact .nil
  | cons a l ih => exact insertBy_sorted le htr htot a _ ih

theorem insertBy_of_le {α : Type} (le : α → α → Bool) (a : α) (l : List α) (h : ∀ b ∈ l, le a b) :
    insertBy le a l = a :: l := by
  cases l with
  | nil => rfl
  | cons b l => simp [insertBy, h b (by simp)]

theorem sortBy_of_sorted {α : Type} (le : α → α → Bool) (l : List α) (h : l.Pairwise (fun a b => le a b)) :
    sortBy le l = l := by
  induction l with
  | nil => rfl
  | cons a l ih =>
    rw [List.pairwise_cons] at h
    simp only [sortBy, ih h.2]
    exact insertBy_of_le le a l h.1

theorem listMin_none {α : Type} [LE α] [DecidableLE α] (l : List α) : listMin l = none ↔ l = [] := by
  cases l with
  | nil => simp [listMin]
  | cons a l => simp only [listMin]; cases listMin l <;> simp

theorem listMax_none {α : Type} [LE α] [DecidableLE α] (l : List α) : listMax l = none ↔ l = [] := by
  cases l with
  | nil => simp [listMax]
  | cons a l => simp only [listMax]; cases listMax l <;> simp

theorem listMin_some {α : Type} [LinearOrder α] (l : List α) (m : α) :
    listMin l = some m ↔ m ∈ l ∧ ∀ x ∈ l, m ≤ x := by
  induction l generalizing m with
  | nil => simp [listMin]
  | cons a l ih =>
    simp only [listMin]
    cases hl : listMin l with
    | none =>
      rw [listMin_none] at hl; subst hl
      simp [eq_comm]
      intro h; exact h ▸ le_rfl
    | some b =>
      obtain ⟨hb1, hb2⟩ := (ih b).1 hl
      simp only [Option.some.injEq, List.mem_cons, forall_eq_or_imp]
      constructor
      · intro h
        split at h
        · subst h; rename_i hab; exact ⟨.inl rfl, le_rfl, fun x hx => hab.trans (hb2 x hx)⟩
        · subst h; rename_i hab; exact ⟨.inr hb1, (le_of_not_ge hab), hb2⟩
      · rintro ⟨h1, h2, h3⟩
        have hmb := h3 b hb1
        rcases h1 with rfl | h1
        · rw [if_pos hmb]
        · have := hb2 m h1
          have e : b = m := le_antisymm this hmb
          subst e
          split
          · rename_i hab; exact le_antisymm hab h2
          · rfl

theorem listMax_some {α : Type} [LinearOrder α] (l : List α) (m : α) :
    listMax l = some m ↔ m ∈ l ∧ ∀ x ∈ l, x ≤ m := by
  induction l generalizing m with
  | nil => simp [listMax]
  | cons a l ih =>
    simp only [listMax]
    cases hl : listMax l with
    | none =>
      rw [listMax_none] at hl; subst hl
      simp [eq_comm]
      intro h; exact h ▸ le_rfl
    | some b =>
      obtain ⟨hb1, hb2⟩ := (ih b).1 hl
      simp only [Option.some.injEq, List.mem_cons, forall_eq_or_imp]
      constructor
      · intro h
        split at h
        · subst h; rename_i hab; exact ⟨.inr hb1, hab, hb2⟩
        · subst h; rename_i hab
          have := le_of_not_ge hab
          exact ⟨.inl rfl, le_rfl, fun x hx => (hb2 x hx).trans this⟩
      · rintro ⟨h1, h2, h3⟩
        have hmb := h3 b hb1
        rcases h1 with rfl | h1
        · split
          · rename_i hab; exact le_antisymm hmb hab
          · rfl
        · have := hb2 m h1
          have e : m = b := le_antisymm this hmb
          subst e
          rw [if_pos h2]

theorem hasDup_false {α : Type} [DecidableEq α] (l : List α) : hasDup l = false ↔ l.Nodup := by
  induction l with
  | nil => simp [hasDup]
  | cons a l ih => simp [hasDup, ih]

theorem insertBy_natural {α β : Type} (leA : α → α → Bool) (leB : β → β → Bool) (f : α → β) (a : α) (l : List α)
    (h : ∀ b ∈ l, leB (f a) (f b) = leA a b) : insertBy leB (f a) (l.map f) = (insertBy leA a l).map f := by
  induction l with
  | nil => rfl
  | cons b l ih =>
    simp only [List.map_cons, insertBy]
    rw [h b (by simp)]
    split
    · rfl
    · rw [List.map_cons, ih fun c hc => h c (by simp [hc])]

theorem sortBy_natural {α β : Type} (leA : α → α → Bool) (leB : β → β → Bool) (f : α → β) (l : List α)
    (h : ∀ a ∈ l, ∀ b ∈ l, leB (f a) (f b) = leA a b) : sortBy leB (l.map f) = (sortBy leA l).map f := by
  induction l with
  | nil => rfl
  | cons a l ih =>
    simp only [List.map_cons, sortBy]
    rw [ih fun b hb c hc => h b (by simp [hb]) c (by simp [hc])]
    apply insertBy_natural
    intro b hb
    exact h a (by simp) b (List.mem_cons_of_mem _ ((sortBy_perm leA l).mem_iff.1 hb))

/-- Insertion sort as an instance of `SortAlg`. -/
def stableSort : SortAlg where
  run le l := sortBy le l
  perm le l := sortBy_perm le l
  sorted le l h1 h2 := sortBy_sorted le h1 h2 l
  natural leA leB f l h := sortBy_natural leA leB f l h

end Anticipy
