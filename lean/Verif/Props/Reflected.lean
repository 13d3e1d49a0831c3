import Verif.Model.Reflected
import Verif.Model.Holidays
import Verif.Props.Composition

/-
C98: adding up a list of models.
-/
namespace Anticipy

/-- The sum (product) of a non-empty list, from left to right. -/
def Spec.chain {α : Type} (mult : Bool) (a : α) (l : List α) : Spec.Expr α :=
  l.foldl (fun e x => if mult then .mul e (.leaf x) else .add e (.leaf x)) (.leaf a)

open Spec
variable {K : Type} [Field K]

theorem chain_leaves {α : Type} (mult : Bool) (a : α) (l : List α) : (chain mult a l).leaves = a :: l := by
  have : ∀ e : Expr α, (l.foldl (fun e x => if mult then .mul e (.leaf x) else .add e (.leaf x)) e).leaves = e.leaves ++ l := by
    induction l with
    | nil => simp
    | cons x l ih =>
      intro e
      rw [List.foldl_cons, ih]
      cases mult <;> simp [Expr.leaves]
  rw [chain, this]
  rfl

theorem accumulate_chain (mult : Bool) (l : List (ForecastModel K)) (e : Expr (ForecastModel K)) :
    accumulate mult (.model e.build) (l.map .model) =
      .ok (.model (l.foldl (fun e x => if mult then .mul e (.leaf x) else .add e (.leaf x)) e).build) := by
  induction l generalizing e with
  | nil => rfl
  | cons x l ih =>
    rw [List.map_cons, accumulate, List.foldl_cons, ← ih]
    cases mult <;> rfl

omit [Field K] in
theorem arity_leaves (e : Expr (ForecastModel K)) : e.arity = (e.leaves.map ForecastModel.nParams).sum := by
  induction e with
  | leaf m => simp [Expr.arity, Expr.leaves]
  | add l r hl hr => simp [Expr.arity, Expr.leaves, hl, hr]
  | mul l r hl hr => simp [Expr.arity, Expr.leaves, hl, hr]

theorem compose_nullLeft (mult : Bool) (m : ForecastModel K) : compose mult modelNull m = m := if_pos rfl

/-- **C98** With the null model as explicit start, `sum` (`math.prod`) of a list of models is their sum (product): it has the parameters of all of
them, each model gets its own consecutive part, and the value at every sample is the sum (product) of the values. -/
theorem C98_start_partial (mult : Bool) (n : Nat) (ctx : Ctx K) (a : ForecastModel K) (l : List (ForecastModel K)) (hnull : ∀ m ∈ a :: l, m.name ≠ "null")
    (hshape : ∀ m ∈ a :: l, ∀ p mode r, m.fModel ctx (some p) mode = .ok r → Shaped n r) :
    ∃ s : ForecastModel K, accumulate mult (.model modelNull) ((a :: l).map .model) = .ok (.model s) ∧
      s.nParams = ((a :: l).map ForecastModel.nParams).sum ∧
      ∀ p mode, Agrees n (s.fModel ctx (some p) mode) ((chain mult a l).meaning ctx p mode) := by
  refine ⟨(chain mult a l).build, ?_, ?_, ?_⟩
  · rw [List.map_cons, accumulate]
    simp only [operate, ForecastModel.operate, compose_nullLeft]
    exact accumulate_chain mult l (.leaf a)
  · rw [build_nParams _ (by rw [chain_leaves]; exact hnull), arity_leaves, chain_leaves]
  · intro p mode
    exact C01_composition n ctx _ (by rw [chain_leaves]; exact hnull) (by rw [chain_leaves]; exact hshape) p mode

/-- **C98** `np.sum` (`np.prod`) of a non-empty list of models is their sum (product) too. -/
theorem C98_numpy_partial (mult : Bool) (n : Nat) (ctx : Ctx K) (a : ForecastModel K) (l : List (ForecastModel K)) (hnull : ∀ m ∈ a :: l, m.name ≠ "null")
    (hshape : ∀ m ∈ a :: l, ∀ p mode r, m.fModel ctx (some p) mode = .ok r → Shaped n r) :
    (combineModels mult a l).nParams = ((a :: l).map ForecastModel.nParams).sum ∧
      ∀ p mode, Agrees n ((combineModels mult a l).fModel ctx (some p) mode) ((chain mult a l).meaning ctx p mode) := by
  have h : combineModels mult a l = (chain mult a l).build := by
    have : ∀ e : Expr (ForecastModel K), l.foldl (compose mult) e.build =
        (l.foldl (fun e x => if mult then .mul e (.leaf x) else .add e (.leaf x)) e).build := by
      clear hnull hshape
      induction l with
      | nil => intro e; rfl
      | cons x l ih =>
        intro e
        rw [List.foldl_cons, List.foldl_cons, ← ih]
        cases mult <;> rfl
    exact this (.leaf a)
  rw [h, build_nParams _ (by rw [chain_leaves]; exact hnull), arity_leaves, chain_leaves]
  exact ⟨rfl, fun p mode => C01_composition n ctx _ (by rw [chain_leaves]; exact hnull) (by rw [chain_leaves]; exact hshape) p mode⟩

example : ∀ m ∈ [modelConstant, modelLinear, (modelRamp : ForecastModel ℚ)], m.name ≠ "null" := by
  simp [modelConstant, modelLinear, modelRamp, mkModel]

/-- **C98 fails for `sum(models)`.** The sum (product) starts with a number, which models do not accept: whatever the models, an exception is raised unless all
of them are the null model, and then the result is a number. -/
theorem C98_counterexample (mult : Bool) (n : Int) (l : List (ForecastModel K)) :
    ((∃ m ∈ l, m.name ≠ "null") → accumulate mult (.number n) (l.map .model) = .error .attributeError) ∧
      ((∀ m ∈ l, m.name = "null") → accumulate mult (.number n) (l.map .model) = .ok (.number n)) := by
  induction l with
  | nil => exact ⟨fun ⟨_, h, _⟩ => absurd h (by simp), fun _ => rfl⟩
  | cons m l ih =>
    rw [List.map_cons, accumulate]
    by_cases h : m.name = "null"
    · simp only [operate, ForecastModel.operate, if_pos h, bind, Except.bind]
      refine ⟨fun ⟨x, hx, hn⟩ => ih.1 ⟨x, ?_, hn⟩, fun ha => ih.2 fun x hx => ha x (by simp [hx])⟩
      rcases List.mem_cons.1 hx with rfl | hx
      · exact absurd h hn
      · exact hx
    · simp only [operate, ForecastModel.operate, if_neg h, bind, Except.bind]
      exact ⟨fun _ => trivial, fun ha => absurd (ha m (by simp)) h⟩

example : (∃ m ∈ [modelLinear, (modelSeasonWday : ForecastModel ℚ)], m.name ≠ "null") := ⟨modelLinear, by simp, by decide +kernel⟩

end Anticipy
