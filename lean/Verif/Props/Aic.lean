import Verif.Model.Aic
import Mathlib.Data.Rat.Defs
import Mathlib.Tactic.Linarith
import Mathlib.Tactic.Positivity
import Mathlib.Tactic.FieldSimp
import Mathlib.Tactic.GCongr

/-
C31, C32: the AICc score and the selection of the best one.
-/
namespace Anticipy

/-! ### C31 -/

/-- The documented formula (docstring of `get_aic_c`): `2k + n log(E/n) + 2k(k+1)/(n-k-1)`. -/
noncomputable def Spec.aicc (E : ℝ) (n k : Nat) : ℝ :=
  2 * k + n * Real.log (E / n) + 2 * k * (k + 1) / ((n : ℝ) - k - 1)

/-- **C31** (formula) For a positive error and enough samples the result is the documented formula. -/
theorem C31_formula (E : ℝ) (n k : Nat) (hE : 0 < E) (hn : k + 2 ≤ n) :
    getAicC (some E) n k = .ok (.fin (Spec.aicc E n k)) := by
  unfold getAicC
  rw [if_neg (by omega)]
  simp only
  rw [if_neg (ne_of_gt hE), if_neg (not_lt.2 hE.le)]
  congr 2
  unfold aicFormula Spec.aicc
  ring

/-- **C31** (error) AICc is strictly increasing in the error. -/
theorem C31_lower_error (E E' : ℝ) (n k : Nat) (hE : 0 < E) (hlt : E < E') (hn : k + 2 ≤ n) :
    ∃ a b, getAicC (some E) n k = .ok (.fin a) ∧ getAicC (some E') n k = .ok (.fin b) ∧ a < b := by
  refine ⟨_, _, C31_formula E n k hE hn, C31_formula E' n k (hE.trans hlt) hn, ?_⟩
  have hn0 : (0 : ℝ) < n := by exact_mod_cast (show 0 < n by omega)
  have h1 : Real.log (E / n) < Real.log (E' / n) := Real.log_lt_log (by positivity) (by gcongr)
  have := mul_lt_mul_of_pos_left h1 hn0
  unfold Spec.aicc
  linarith

/-- **C31** (parameters) For a given positive error AICc is strictly increasing in the number of parameters. -/
theorem C31_fewer_params (E : ℝ) (n k k' : Nat) (hE : 0 < E) (hlt : k < k') (hn : k' + 2 ≤ n) :
    ∃ a b, getAicC (some E) n k = .ok (.fin a) ∧ getAicC (some E) n k' = .ok (.fin b) ∧ a < b := by
  refine ⟨_, _, C31_formula E n k hE (by omega), C31_formula E n k' hE hn, ?_⟩
  have h1 : (k : ℝ) < k' := by exact_mod_cast hlt
  have h0 : (0 : ℝ) ≤ k := by positivity
  have h2 : (0 : ℝ) < (n : ℝ) - k' - 1 := by
    have : ((k' + 2 : Nat) : ℝ) ≤ n := by exact_mod_cast hn
    push_cast at this; linarith
  have h3 : 2 * (k : ℝ) * (k + 1) / ((n : ℝ) - k - 1) ≤ 2 * k' * (k' + 1) / ((n : ℝ) - k' - 1) := by
    apply div_le_div₀
    · positivity
    · nlinarith
    · exact h2
    · linarith
  unfold Spec.aicc
  linarith

example : ∃ a b, getAicC (some 2) 10 2 = .ok (.fin a) ∧ getAicC (some 2) 10 3 = .ok (.fin b) ∧ a < b :=
  C31_fewer_params 2 10 2 3 (by norm_num) (by norm_num) (by norm_num)
example : ∃ a b, getAicC (some 1) 4 2 = .ok (.fin a) ∧ getAicC (some (3/2)) 4 2 = .ok (.fin b) ∧ a < b :=
  C31_lower_error 1 (3/2) 4 2 (by norm_num) (by norm_num) (by norm_num)

theorem tinyDiv_aux (q r n : Nat) (h : 1 ≤ q ∨ (q = 0 ∧ r = 2024)) (hc : 1 ≤ q → n < 4048) :
    (if 2 * r < n then q else if n < 2 * r then q + 1 else if q % 2 = 0 then q else q + 1) = 0 ↔ 4048 ≤ n := by
  rcases h with h | ⟨rfl, rfl⟩
  · have := hc h
    constructor
    · intro h'; split_ifs at h' <;> omega
    · intro h'; omega
  · constructor
    · intro h'; split_ifs at h' <;> omega
    · intro h'
      by_cases h1 : 2 * 2024 < n
      · rw [if_pos h1]
      · rw [if_neg h1, if_neg (by omega), if_pos rfl]

theorem tinyDiv_pos (n : Nat) (hn : 0 < n) : tinyDiv n = 0 ↔ 4048 ≤ n := by
  unfold tinyDiv
  refine tinyDiv_aux _ _ n ?_ ?_
  · rcases Nat.lt_or_ge 2024 n with h | h
    · exact .inr ⟨Nat.div_eq_of_lt h, Nat.mod_eq_of_lt h⟩
    · exact .inl ((Nat.one_le_div_iff hn).2 h)
  · intro h
    have := (Nat.one_le_div_iff hn).1 h
    omega

/-- **C31** (definedness) For a non-negative error and a number of samples that the fitting routine admits, the score is a number
or minus infinity, with one exception: a perfect fit whose number of parameters is not 1, on 4048 or more samples, raises a `ValueError`. -/
theorem C31_defined (E : ℝ) (n k : Nat) (hE : 0 ≤ E) (hn : k + 2 ≤ n) :
    (E = 0 ∧ k ≠ 1 ∧ 4048 ≤ n → getAicC (some E) n k = .error .valueError) ∧
    (¬ (E = 0 ∧ k ≠ 1 ∧ 4048 ≤ n) → getAicC (some E) n k = .ok .ninf ∨ ∃ a, getAicC (some E) n k = .ok (.fin a)) := by
  have ht := tinyDiv_pos n (by omega)
  constructor
  · rintro ⟨rfl, hk, h4⟩
    unfold getAicC
    rw [if_neg (by omega)]
    simp only
    simp only [if_true, if_neg hk, if_pos (ht.2 h4)]
  · intro hnot
    by_cases h0 : E = 0
    · subst h0
      unfold getAicC
      rw [if_neg (by omega)]
      simp only [if_true]
      by_cases hk : k = 1
      · rw [if_pos hk]; exact .inl rfl
      · rw [if_neg hk, if_neg]
        · exact .inr ⟨_, rfl⟩
        · rw [ht]; intro h4; exact hnot ⟨rfl, hk, h4⟩
    · exact .inr ⟨_, C31_formula E n k (lt_of_le_of_ne hE (Ne.symm h0)) hn⟩

/-- **C31** (too few samples) With fewer than `k + 2` samples a `ValueError` is raised. -/
theorem C31_too_short (E : Option ℝ) (n k : Nat) (hn : n < k + 2) : getAicC E n k = .error .valueError := by
  unfold getAicC; rw [if_pos (by omega)]

/-- **C31** (perfect fit) Where it is defined, the score of a perfect fit is below that of any fit of the same size whose mean error is at least
`2 ** -1060` (about `8e-320`). -/
theorem C31_perfect_fit_best (E : ℝ) (n k : Nat) (hE : (2 : ℝ) ^ (-1060 : ℤ) ≤ E / n) (hn : k + 2 ≤ n) (a b : ℝ)
    (h0 : getAicC (some 0) n k = .ok (.fin a)) (h1 : getAicC (some E) n k = .ok (.fin b)) : a < b := by
  have hn0 : (0 : ℝ) < n := by exact_mod_cast (show 0 < n by omega)
  have hpos : (0 : ℝ) < (2 : ℝ) ^ (-1060 : ℤ) := zpow_pos (by norm_num) _
  have hEn : 0 < E / n := lt_of_lt_of_le hpos hE
  have hE0 : 0 < E := by
    have := mul_pos hEn hn0
    rwa [div_mul_cancel₀ _ hn0.ne'] at this
  rw [C31_formula E n k hE0 hn] at h1
  simp only [Except.ok.injEq, Ext.fin.injEq] at h1
  unfold getAicC at h0
  rw [if_neg (by omega)] at h0
  simp only [if_true] at h0
  split at h0
  · simp at h0
  split at h0
  · simp at h0
  rename_i hk ht
  simp only [Except.ok.injEq, Ext.fin.injEq] at h0
  rw [← h0, ← h1]
  have hq : tinyDiv n ≤ 2025 := by
    unfold tinyDiv
    have := Nat.div_le_self 2024 n
    simp only
    split_ifs <;> omega
  have hq1 : 1 ≤ tinyDiv n := Nat.one_le_iff_ne_zero.2 ht
  have hlt : (tinyDiv n : ℝ) * tinyUnit < E / n := by
    refine lt_of_lt_of_le ?_ hE
    have e : (2 : ℝ) ^ (-1060 : ℤ) = 16384 * tinyUnit := by
      unfold tinyUnit
      rw [show (-1060 : ℤ) = 14 + (-1074) by norm_num, zpow_add₀ (by norm_num)]
      rw [show ((2 : ℝ) ^ (14 : ℤ)) = 16384 by norm_num]
    have htu : 0 < tinyUnit := zpow_pos (by norm_num) _
    rw [e]
    have : (tinyDiv n : ℝ) ≤ 2025 := by exact_mod_cast hq
    nlinarith
  have htu : 0 < tinyUnit := zpow_pos (by norm_num) _
  have hq' : (0 : ℝ) < tinyDiv n := by exact_mod_cast hq1
  have hlog := Real.log_lt_log (mul_pos hq' htu) hlt
  have := mul_lt_mul_of_pos_left hlog hn0
  unfold aicFormula Spec.aicc
  have e2 : 2 * (k : ℝ) * (k + 1) / ((n : ℝ) - k - 1) = (2 * k * (k + 1)) / (n - k - 1) := rfl
  linarith

/-- **C31, exception at error 0**: among perfect fits the 1-parameter model always wins (score minus infinity), also against a perfect fit
without parameters; "fewer parameters score lower" does not extend to error 0. -/
theorem C31_perfect_fit_exception (n : Nat) (h3 : 3 ≤ n) (hn : n < 4048) :
    getAicC (some 0) n 1 = .ok .ninf ∧ ∃ a, getAicC (some 0) n 0 = .ok (.fin a) := by
  constructor
  · unfold getAicC
    rw [if_neg (by omega)]
    simp
  · unfold getAicC
    rw [if_neg (by omega)]
    simp only [if_true]
    rw [if_neg (by simp), if_neg (by rw [tinyDiv_pos n (by omega)]; omega)]
    exact ⟨_, rfl⟩

/-! ### C32 -/

section
variable {K : Type} [LinearOrder K]

/-- `v` is not above `w` in the usual order of extended numbers. -/
def Spec.NotAbove : Ext K → Ext K → Prop
  | .ninf, _ => True
  | .fin a, .fin b => a ≤ b
  | .fin _, .pinf => True
  | .pinf, .pinf => True
  | _, _ => False

open Spec

theorem notAbove_refl (v : Ext K) (h : v ≠ .nan) : NotAbove v v := by cases v <;> simp_all [NotAbove]

theorem notAbove_trans (u v w : Ext K) (h1 : NotAbove u v) (h2 : NotAbove v w) : NotAbove u w := by
  cases u <;> cases v <;> cases w <;> simp_all [NotAbove]
  exact le_trans h1 h2

theorem notAbove_of_lt (v b : Ext K) (h : v.lt b = true) : NotAbove v b := by
  cases v <;> cases b <;> simp_all [NotAbove, Ext.lt]
  exact h.le

theorem notAbove_of_not_lt (v b : Ext K) (hv : v ≠ .nan) (hb : b ≠ .nan) (h : v.lt b = false) : NotAbove b v := by
  cases v <;> cases b <;> simp_all [NotAbove, Ext.lt]

theorem argminFrom_spec (l : List (Ext K)) (i : Nat) (best : Option (Nat × Ext K))
    (hb : ∀ j b, best = some (j, b) → b ≠ .nan) :
    (argminFrom i best l = none → best = none ∧ ∀ v ∈ l, v = .nan) ∧
    ∀ j b, argminFrom i best l = some (j, b) →
      b ≠ .nan ∧ (best = some (j, b) ∨ ∃ m : Nat, l[m]? = some b ∧ j = i + m) ∧ (∀ v ∈ l, v ≠ .nan → NotAbove b v) ∧
      (∀ j' b', best = some (j', b') → NotAbove b b') := by
  induction l generalizing i best with
  | nil =>
    constructor
    · intro h; simpa [argminFrom] using h
    · intro j b h
      simp only [argminFrom] at h
      refine ⟨hb j b h, .inl h, by simp, ?_⟩
      intro j' b' h'
      rw [h] at h'
      simp only [Option.some.injEq, Prod.mk.injEq] at h'
      rw [← h'.2]
      exact notAbove_refl b (hb j b h)
  | cons v l ih =>
    by_cases hv : v = .nan
    · subst hv
      have e : argminFrom i best (Ext.nan :: l) = argminFrom (i + 1) best l := by simp [argminFrom, Ext.isNan]
      rw [e]
      obtain ⟨h1, h2⟩ := ih (i + 1) best hb
      constructor
      · intro h
        obtain ⟨a, b⟩ := h1 h
        exact ⟨a, by simpa using b⟩
      · intro j b h
        obtain ⟨a1, a2, a3, a4⟩ := h2 j b h
        refine ⟨a1, ?_, ?_, a4⟩
        · rcases a2 with a2 | ⟨m, a2, rfl⟩
          · exact .inl a2
          · exact .inr ⟨m + 1, by simpa using a2, by omega⟩
        · intro w hw hwn
          rcases List.mem_cons.1 hw with rfl | hw
          · exact absurd rfl hwn
          · exact a3 w hw hwn
    · have hnan : v.isNan = false := by cases v <;> simp_all [Ext.isNan]
      cases best with
      | none =>
        have e : argminFrom i none (v :: l) = argminFrom (i + 1) (some (i, v)) l := by simp [argminFrom, hnan]
        rw [e]
        obtain ⟨h1, h2⟩ := ih (i + 1) (some (i, v)) (by rintro j b h; simp at h; rw [← h.2]; exact hv)
        constructor
        · intro h; simpa using (h1 h).1
        · intro j b h
          obtain ⟨a1, a2, a3, a4⟩ := h2 j b h
          refine ⟨a1, .inr ?_, ?_, by simp⟩
          · rcases a2 with a2 | ⟨m, a2, rfl⟩
            · simp only [Option.some.injEq, Prod.mk.injEq] at a2
              exact ⟨0, by simp [a2.2], by omega⟩
            · exact ⟨m + 1, by simpa using a2, by omega⟩
          · intro w hw hwn
            rcases List.mem_cons.1 hw with rfl | hw
            · exact a4 i w rfl
            · exact a3 w hw hwn
      | some p =>
        obtain ⟨j0, b0⟩ := p
        have hb0 := hb j0 b0 rfl
        by_cases hlt : v.lt b0 = true
        · have e : argminFrom i (some (j0, b0)) (v :: l) = argminFrom (i + 1) (some (i, v)) l := by simp [argminFrom, hnan, hlt]
          rw [e]
          obtain ⟨h1, h2⟩ := ih (i + 1) (some (i, v)) (by rintro j b h; simp at h; rw [← h.2]; exact hv)
          constructor
          · intro h; simpa using (h1 h).1
          · intro j b h
            obtain ⟨a1, a2, a3, a4⟩ := h2 j b h
            refine ⟨a1, .inr ?_, ?_, ?_⟩
            · rcases a2 with a2 | ⟨m, a2, rfl⟩
              · simp only [Option.some.injEq, Prod.mk.injEq] at a2
                exact ⟨0, by simp [a2.2], by omega⟩
              · exact ⟨m + 1, by simpa using a2, by omega⟩
            · intro w hw hwn
              rcases List.mem_cons.1 hw with rfl | hw
              · exact a4 i w rfl
              · exact a3 w hw hwn
            · intro j' b' h'
              simp only [Option.some.injEq, Prod.mk.injEq] at h'
              rw [← h'.2]
              exact notAbove_trans _ _ _ (a4 i v rfl) (notAbove_of_lt _ _ hlt)
        · have hlt : v.lt b0 = false := by simpa using hlt
          have e : argminFrom i (some (j0, b0)) (v :: l) = argminFrom (i + 1) (some (j0, b0)) l := by simp [argminFrom, hnan, hlt]
          rw [e]
          obtain ⟨h1, h2⟩ := ih (i + 1) (some (j0, b0)) hb
          constructor
          · intro h; simpa using (h1 h).1
          · intro j b h
            obtain ⟨a1, a2, a3, a4⟩ := h2 j b h
            refine ⟨a1, ?_, ?_, a4⟩
            · rcases a2 with a2 | ⟨m, a2, rfl⟩
              · exact .inl a2
              · exact .inr ⟨m + 1, by simpa using a2, by omega⟩
            · intro w hw hwn
              rcases List.mem_cons.1 hw with rfl | hw
              · exact notAbove_trans _ _ _ (a4 j0 b0 rfl) (notAbove_of_not_lt _ _ hwn hb0 hlt)
              · exact a3 w hw hwn

theorem mem_positions {α : Type} (p : α → Bool) (l : List α) (i : Nat) : i ∈ positions p l ↔ ∃ a, l[i]? = some a ∧ p a = true := by
  simp only [positions, List.mem_filter, List.mem_range]
  constructor
  · rintro ⟨h1, h2⟩
    rw [List.getElem?_eq_getElem h1] at h2
    exact ⟨_, List.getElem?_eq_getElem h1, h2⟩
  · rintro ⟨a, h1, h2⟩
    refine ⟨(List.getElem?_eq_some_iff.1 h1).1, ?_⟩
    rw [h1]; exact h2

/-- **C32** (default index) If some score is not null and at most one is minus infinity, the result is the position of a minimal score; if all scores are
null (or there are none) the result is `None`. -/
theorem C32_best_key_partial (vals : List (Ext K)) :
    ((∀ v ∈ vals, v = .nan) → bestResultKey ((List.range vals.length).map fun i : Nat => (i : Int)) vals = .ok none) ∧
    ((∃ v ∈ vals, v ≠ .nan) → (∀ i j : Nat, vals[i]? = some .ninf → vals[j]? = some .ninf → i = j) →
      ∃ (i : Nat) (v : Ext K), bestResultKey ((List.range vals.length).map fun i : Nat => (i : Int)) vals = .ok (some (i : Int)) ∧
        vals[i]? = some v ∧ v ≠ .nan ∧ ∀ w ∈ vals, w ≠ .nan → NotAbove v w) := by
  constructor
  · intro h
    unfold bestResultKey
    rw [if_pos]
    rw [List.all_eq_true]
    intro v hv
    rw [h v hv]; rfl
  · rintro ⟨v0, hv0, hv0n⟩ huniq
    unfold bestResultKey
    rw [if_neg]
    · cases hp : positions Ext.isNinf vals with
      | nil =>
        simp only
        obtain ⟨h1, h2⟩ := argminFrom_spec vals 0 none (by simp)
        cases ha : argminFrom 0 none vals with
        | none => exact absurd ((h1 ha).2 v0 hv0) hv0n
        | some p =>
          obtain ⟨j, b⟩ := p
          obtain ⟨a1, a2, a3, _⟩ := h2 j b ha
          rcases a2 with a2 | ⟨m, a2, rfl⟩
          · simp at a2
          · exact ⟨m, b, by simp, a2, a1, a3⟩
      | cons i rest =>
        have hi : i ∈ positions Ext.isNinf vals := by rw [hp]; simp
        obtain ⟨a, ha1, ha2⟩ := (mem_positions _ _ _).1 hi
        have ha : a = .ninf := by cases a <;> simp_all [Ext.isNinf]
        subst ha
        cases rest with
        | nil =>
          have hil := (List.getElem?_eq_some_iff.1 ha1).1
          refine ⟨i, .ninf, ?_, ha1, by simp, ?_⟩
          · simp [List.getElem?_map, List.getElem?_range, hil]
          · intro w _ _; simp [NotAbove]
        | cons j rest =>
          exfalso
          have hj : j ∈ positions Ext.isNinf vals := by rw [hp]; simp
          obtain ⟨b, hb1, hb2⟩ := (mem_positions _ _ _).1 hj
          have hb : b = .ninf := by cases b <;> simp_all [Ext.isNinf]
          subst hb
          have hij := huniq i j ha1 hb1
          have hn : (positions Ext.isNinf vals).Nodup := by
            unfold positions; exact List.Nodup.filter _ List.nodup_range
          rw [hp] at hn
          subst hij
          simp at hn
    · rw [List.all_eq_true]
      intro hc
      have := hc v0 hv0
      cases v0 <;> simp_all [Ext.isNan]

end

example : bestResultKey [0, 1, 2, 3] [.fin (3 : ℚ), .nan, .fin 1, .fin 1] = .ok (some 2) ∧
    bestResultKey [0, 1, 2, 3] [.fin (3 : ℚ), .nan, .ninf, .fin 1] = .ok (some 2) := by decide +kernel

/-- **C32 refuted**: two scores of minus infinity raise a `ValueError`; and if the index labels are not the positions, the result is the position
and not the key of the best score. -/
theorem C32_counterexample :
    bestResultKey [0, 1] [.ninf, (.ninf : Ext ℚ)] = .error .valueError ∧
    bestResultKey [10, 20] [.fin (3 : ℚ), .fin 1] = .ok (some 1) := by decide +kernel

end Anticipy

#print axioms Anticipy.C31_formula
#print axioms Anticipy.C31_lower_error
#print axioms Anticipy.C31_fewer_params
#print axioms Anticipy.C31_defined
#print axioms Anticipy.C31_too_short
#print axioms Anticipy.C31_perfect_fit_best
#print axioms Anticipy.C31_perfect_fit_exception
#print axioms Anticipy.C32_best_key_partial
#print axioms Anticipy.C32_counterexample
