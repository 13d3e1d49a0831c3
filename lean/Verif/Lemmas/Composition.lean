import Verif.Spec.Expr
import Mathlib.Tactic.SplitIfs
import Mathlib.Tactic.Ring

namespace Anticipy
open Spec
variable {K : Type}

theorem lift2_eq_cell (op : K → K → K) (a b : Option K) : lift2 op a b = cell op a b := by
  cases a <;> cases b <;> rfl

theorem bin_shaped (op : K → K → K) (n : Nat) (a b : Arr K) (ha : Shaped n a) (hb : Shaped n b) :
    ∃ r, Arr.bin op a b = .ok r ∧ Shaped n r ∧
      ∀ i, i < n → valueAt r i = cell op (valueAt a i) (valueAt b i) := by
  cases a with
  | scalar va =>
    cases b with
    | scalar vb => exact ⟨_, rfl, trivial, fun i _ => lift2_eq_cell op va vb⟩
    | vec l =>
      refine ⟨_, rfl, ?_, ?_⟩
      · simpa [Shaped] using hb
      · intro i hi
        have hl : i < l.length := by simp [Shaped] at hb; omega
        simp [valueAt, hl, lift2_eq_cell]
  | vec l =>
    cases b with
    | scalar vb =>
      refine ⟨_, rfl, ?_, ?_⟩
      · simpa [Shaped] using ha
      · intro i hi
        have hl : i < l.length := by simp [Shaped] at ha; omega
        simp [valueAt, hl, lift2_eq_cell]
    | vec m =>
      simp only [Shaped] at ha hb
      refine ⟨.vec (List.zipWith (lift2 op) l m), ?_, ?_, ?_⟩
      · simp [Arr.bin, ha, hb]
      · simp [Shaped, ha, hb]
      · intro i hi
        have hl : i < l.length := by omega
        have hm : i < m.length := by omega
        simp [valueAt, hl, hm, lift2_eq_cell]

theorem bin_scalar_of (op : K → K → K) (a b : Arr K) (r : Arr K) (h : Arr.bin op a b = .ok r) :
    (∃ v, r = .scalar v) ↔ (∃ v, a = .scalar v) ∧ ∃ v, b = .scalar v := by
  cases a <;> cases b <;> simp [Arr.bin] at h ⊢
  · exact ⟨_, h.symm⟩
  · intro x hx; subst hx; exact absurd h (by simp)
  · intro x hx; subst hx; exact absurd h (by simp)
  · rename_i l m
    intro x hx; subst hx
    split_ifs at h
    · simp at h
    · split at h <;> simp at h

/-- Shaped arrays are determined by "scalar or not" and their values. -/
theorem shaped_ext (n : Nat) (a b : Arr K) (ha : Shaped n a) (hb : Shaped n b) (hn : 0 < n)
    (hs : (∃ v, a = .scalar v) ↔ ∃ v, b = .scalar v)
    (h : ∀ i, i < n → valueAt a i = valueAt b i) : a = b := by
  cases a with
  | scalar va =>
    cases b with
    | scalar vb => have := h 0 hn; simp [valueAt] at this; rw [this]
    | vec l => exact absurd (hs.1 ⟨_, rfl⟩) (by simp)
  | vec l =>
    cases b with
    | scalar vb => exact absurd (hs.2 ⟨_, rfl⟩) (by simp)
    | vec m =>
      simp only [Shaped] at ha hb
      congr 1
      apply List.ext_getElem (by omega)
      intro i h1 h2
      have := h i (by omega)
      simpa [valueAt, h1, h2] using this

variable [Field K]

theorem composedName_ne (op a b : String) : composedName op a b ≠ "null" := by
  intro h
  have := congrArg String.toList h
  simp [composedName, String.toList_append] at this

theorem compose_name (mult : Bool) (m1 m2 : ForecastModel K) (h1 : m1.name ≠ "null") (h2 : m2.name ≠ "null") :
    (compose mult m1 m2).name ≠ "null" := by
  simp [compose, h1, h2, composedName_ne]

theorem build_name (e : Expr (ForecastModel K)) (h : ∀ m ∈ e.leaves, m.name ≠ "null") :
    e.build.name ≠ "null" := by
  induction e with
  | leaf m => exact h m (by simp [Expr.leaves])
  | add l r ihl ihr =>
    exact compose_name _ _ _ (ihl fun m hm => h m (by simp [Expr.leaves, hm]))
      (ihr fun m hm => h m (by simp [Expr.leaves, hm]))
  | mul l r ihl ihr =>
    exact compose_name _ _ _ (ihl fun m hm => h m (by simp [Expr.leaves, hm]))
      (ihr fun m hm => h m (by simp [Expr.leaves, hm]))

theorem build_nParams (e : Expr (ForecastModel K)) (h : ∀ m ∈ e.leaves, m.name ≠ "null") :
    e.build.nParams = e.arity := by
  induction e with
  | leaf m => rfl
  | add l r ihl ihr =>
    have hl : ∀ m ∈ l.leaves, m.name ≠ "null" := fun m hm => h m (by simp [Expr.leaves, hm])
    have hr : ∀ m ∈ r.leaves, m.name ≠ "null" := fun m hm => h m (by simp [Expr.leaves, hm])
    simp [Expr.build, ForecastModel.add, compose, build_name l hl, build_name r hr, Expr.arity, ihl hl, ihr hr]
  | mul l r ihl ihr =>
    have hl : ∀ m ∈ l.leaves, m.name ≠ "null" := fun m hm => h m (by simp [Expr.leaves, hm])
    have hr : ∀ m ∈ r.leaves, m.name ≠ "null" := fun m hm => h m (by simp [Expr.leaves, hm])
    simp [Expr.build, ForecastModel.mul, compose, build_name l hl, build_name r hr, Expr.arity, ihl hl, ihr hr]

/-- The function of a composite of two non-null models. -/
theorem compose_fModel (mult : Bool) (m1 m2 : ForecastModel K) (h1 : m1.name ≠ "null") (h2 : m2.name ≠ "null")
    (ctx : Ctx K) (p : List K) (mode : Bool) :
    (compose mult m1 m2).fModel ctx (some p) mode =
      (do let a ← m1.fModel ctx (some (p.take m1.nParams)) mult
          let b ← m2.fModel ctx (some (p.drop m1.nParams)) mult
          Arr.bin (if mult then (· * ·) else (· + ·)) a b) := by
  cases mult <;> simp [compose, h1, h2, fAdd2, fMult2, splitParams] <;> rfl

end Anticipy
