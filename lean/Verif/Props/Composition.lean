import Verif.Lemmas.Composition
import Verif.Model.Zoo
import Mathlib.Data.Rat.Defs
import Mathlib.Algebra.Order.Ring.Rat

/-
C01 - C04: composition of forecast models with `+` and `*`.
-/
namespace Anticipy
open Spec
variable {K : Type} [Field K]

/-! ### C01 -/

/-- **C01** Evaluating any `+`/`*` expression of models is the arithmetic of its parts, sample by sample, with
consecutive parameter slices, additive mode below sums and multiplicative mode below products. Exceptions of the
parts surface unchanged. -/
theorem C01_composition (n : Nat) (ctx : Ctx K) (e : Expr (ForecastModel K))
    (hnull : ∀ m ∈ e.leaves, m.name ≠ "null")
    (hshape : ∀ m ∈ e.leaves, ∀ p mode a, m.fModel ctx (some p) mode = .ok a → Shaped n a)
    (p : List K) (mode : Bool) :
    Agrees n (e.build.fModel ctx (some p) mode) (e.meaning ctx p mode) := by
  induction e generalizing p mode with
  | leaf m =>
    simp only [Expr.build, Expr.meaning]
    cases h : m.fModel ctx (some p) mode with
    | error x => simp [Agrees, Except.map]
    | ok a =>
      exact ⟨hshape m (by simp [Expr.leaves]) p mode a h, fun i _ => rfl⟩
  | add l r ihl ihr =>
    have nl : ∀ m ∈ l.leaves, m.name ≠ "null" := fun m hm => hnull m (by simp [Expr.leaves, hm])
    have nr : ∀ m ∈ r.leaves, m.name ≠ "null" := fun m hm => hnull m (by simp [Expr.leaves, hm])
    have il := ihl nl (fun m hm => hshape m (by simp [Expr.leaves, hm])) (p.take l.arity) false
    have ir := ihr nr (fun m hm => hshape m (by simp [Expr.leaves, hm])) (p.drop l.arity) false
    simp only [Expr.build, Expr.meaning, ForecastModel.add,
      compose_fModel false _ _ (build_name l nl) (build_name r nr), build_nParams l nl]
    revert il ir
    generalize l.build.fModel ctx (some (p.take l.arity)) false = ra
    generalize l.meaning ctx (p.take l.arity) false = sa
    generalize r.build.fModel ctx (some (p.drop l.arity)) false = rb
    generalize r.meaning ctx (p.drop l.arity) false = sb
    intro il ir
    cases ra <;> cases sa <;> simp only [Agrees] at il
    · subst il; cases rb <;> cases sb <;> simp [Agrees, bind, Except.bind]
    · cases rb <;> cases sb <;> simp only [Agrees] at ir
      · subst ir; simp [Agrees, bind, Except.bind]
      · rename_i a f b g
        obtain ⟨v, hv, hs, hval⟩ := bin_shaped (· + ·) n a b il.1 ir.1
        simp only [Bool.false_eq_true, if_false, bind, Except.bind, hv, Agrees]
        exact ⟨hs, fun i hi => by rw [hval i hi, il.2 i hi, ir.2 i hi]⟩
  | mul l r ihl ihr =>
    have nl : ∀ m ∈ l.leaves, m.name ≠ "null" := fun m hm => hnull m (by simp [Expr.leaves, hm])
    have nr : ∀ m ∈ r.leaves, m.name ≠ "null" := fun m hm => hnull m (by simp [Expr.leaves, hm])
    have il := ihl nl (fun m hm => hshape m (by simp [Expr.leaves, hm])) (p.take l.arity) true
    have ir := ihr nr (fun m hm => hshape m (by simp [Expr.leaves, hm])) (p.drop l.arity) true
    simp only [Expr.build, Expr.meaning, ForecastModel.mul,
      compose_fModel true _ _ (build_name l nl) (build_name r nr), build_nParams l nl]
    revert il ir
    generalize l.build.fModel ctx (some (p.take l.arity)) true = ra
    generalize l.meaning ctx (p.take l.arity) true = sa
    generalize r.build.fModel ctx (some (p.drop l.arity)) true = rb
    generalize r.meaning ctx (p.drop l.arity) true = sb
    intro il ir
    cases ra <;> cases sa <;> simp only [Agrees] at il
    · subst il; cases rb <;> cases sb <;> simp [Agrees, bind, Except.bind]
    · cases rb <;> cases sb <;> simp only [Agrees] at ir
      · subst ir; simp [Agrees, bind, Except.bind]
      · rename_i a f b g
        obtain ⟨v, hv, hs, hval⟩ := bin_shaped (· * ·) n a b il.1 ir.1
        simp only [if_true, bind, Except.bind, hv, Agrees]
        exact ⟨hs, fun i hi => by rw [hval i hi, il.2 i hi, ir.2 i hi]⟩

/-- **C01** (slices) A parameter vector of the declared length is cut into consecutive slices, one per leaf from left
to right, each of the length that leaf declares. -/
theorem C01_slices (e : Expr (ForecastModel K)) (hnull : ∀ m ∈ e.leaves, m.name ≠ "null")
    (p : List K) (hp : p.length = e.build.nParams) :
    (e.slices p).map Prod.fst = e.leaves ∧ (e.slices p).flatMap Prod.snd = p ∧
      ∀ s ∈ e.slices p, s.2.length = s.1.nParams := by
  rw [build_nParams e hnull] at hp
  clear hnull
  induction e generalizing p with
  | leaf m => simpa [Expr.slices, Expr.leaves, Expr.arity] using hp
  | add l r ihl ihr =>
    simp only [Expr.arity] at hp
    have il := ihl (p.take l.arity) (by simp; omega)
    have ir := ihr (p.drop l.arity) (by simp; omega)
    simp only [Expr.slices, Expr.leaves, List.map_append, il.1, ir.1, List.flatMap_append, il.2.1, ir.2.1,
      List.take_append_drop, List.mem_append, true_and]
    rintro s (h | h)
    · exact il.2.2 s h
    · exact ir.2.2 s h
  | mul l r ihl ihr =>
    simp only [Expr.arity] at hp
    have il := ihl (p.take l.arity) (by simp; omega)
    have ir := ihr (p.drop l.arity) (by simp; omega)
    simp only [Expr.slices, Expr.leaves, List.map_append, il.1, ir.1, List.flatMap_append, il.2.1, ir.2.1,
      List.take_append_drop, List.mem_append, true_and]
    rintro s (h | h)
    · exact il.2.2 s h
    · exact ir.2.2 s h

/-- `(linear + step) * constant` on three samples. -/
def exCtx : Ctx ℚ := { ax := [0, 1, 2], adate := none }
def exExpr : Expr (ForecastModel ℚ) := .mul (.add (.leaf modelLinear) (.leaf modelStep)) (.leaf modelConstant)

example : exExpr.build.name = "((linear+step)*constant)" := by decide
example : exExpr.build.nParams = 5 := by decide
/-- y = (2x + 1 + 10·[x ≥ 1]) · 3 -/
example : exExpr.build.fModel exCtx (some [2, 1, 1, 10, 3]) false = .ok (.vec [some 3, some 39, some 45]) := by
  decide +kernel
example : (exExpr.slices [2, 1, 1, 10, 3]).map Prod.snd = [[2, 1], [1, 10], [3]] := by decide +kernel

theorem ex_shaped : ∀ m ∈ exExpr.leaves, ∀ p mode a, m.fModel exCtx (some p) mode = .ok a → Shaped 3 a := by
  intro m hm p mode a h
  simp only [exExpr, Expr.leaves, List.cons_append, List.nil_append, List.mem_cons, List.not_mem_nil, or_false] at hm
  rcases hm with rfl | rfl | rfl
  · simp only [modelLinear, mkModel, fModelLinear, exCtx] at h
    cases h2 : unpack2 (some p) <;> simp [h2, bind, Except.bind] at h
    subst h; rfl
  · simp only [modelStep, mkModel, fStep, exCtx] at h
    cases h2 : unpack2 (some p) <;> simp [h2, bind, Except.bind] at h
    subst h; rfl
  · simp only [modelConstant, mkModel, fModelConstant, exCtx] at h
    cases h2 : unpack1 (some p) <;> simp [h2, bind, Except.bind] at h
    subst h; rfl

/-- The hypotheses of `C01_composition` are met by the example. -/
example (p : List ℚ) (mode : Bool) : Agrees 3 (exExpr.build.fModel exCtx (some p) mode) (exExpr.meaning exCtx p mode) :=
  C01_composition 3 exCtx exExpr (by decide) ex_shaped p mode

/-! ### C02 -/

/-- **C02** The null model is neutral on both sides of `+` and `*`: the very same model comes back, with the same
name, parameter count, function, guess, bounds, validators and cache. -/
theorem C02_null_neutral (m : ForecastModel K) (h : m.name = "null" → m = modelNull) :
    modelNull.add m = m ∧ m.add modelNull = m ∧ modelNull.mul m = m ∧ m.mul modelNull = m := by
  by_cases hn : m.name = "null"
  · have := h hn; subst this; simp [ForecastModel.add, ForecastModel.mul, compose, modelNull, mkModel]
  · simp [ForecastModel.add, ForecastModel.mul, compose, modelNull, mkModel, hn]

/-- **C02** (value) On its own the null model contributes the neutral value of the operation on every sample. -/
theorem C02_null_value (ctx : Ctx K) (p : Params K) (i : Nat) :
    ((modelNull : ForecastModel K).fModel ctx p false).map (fun a => valueAt a i) = .ok (some 0) ∧
    ((modelNull : ForecastModel K).fModel ctx p true).map (fun a => valueAt a i) = .ok (some 1) := by
  simp [modelNull, mkModel, Except.map, valueAt]

/-- Concrete case: linear + null is linear. -/
example : (modelLinear : ForecastModel ℚ).add modelNull = modelLinear :=
  (C02_null_neutral modelLinear (fun h => absurd h (by decide))).2.1
example : ((modelLinear : ForecastModel ℚ).mul modelStep).name = "(linear*step)" := by decide

/-! ### C03 -/

section C03
variable [LinearOrder K]

omit [LinearOrder K] in
/-- **C03** (one composition) parameter count adds up; bounds and initial guesses are concatenated. -/
theorem C03_compose (mult : Bool) (a b : ForecastModel K) (ha : a.name ≠ "null") (hb : b.name ≠ "null")
    (args : InitArgs K) (ba bb : Bounds K) (h1 : a.fBounds args = .ok ba) (h2 : b.fBounds args = .ok bb) :
    let c := if mult then a.mul b else a.add b
    c.nParams = a.nParams + b.nParams ∧
    (∃ bc, c.fBounds args = .ok bc ∧ bc.lo = ba.lo ++ bb.lo ∧ bc.hi = ba.hi ++ bb.hi) ∧
    ∀ u mode, c.fInit u args mode =
      match a.fInit (fun i => u (2 * i)) args mult, b.fInit (fun i => u (2 * i + 1)) args mult with
      | .ok ga, .ok gb => .ok (ga ++ gb)
      | .error e, _ => .error e
      | _, .error e => .error e := by
  have key : (if mult then a.mul b else a.add b) = compose mult a b := by cases mult <;> rfl
  simp only [key]
  simp only [compose, ha, hb, if_false, fConcatBounds, h1, h2, fInit2, bind, Except.bind, true_and]
  refine ⟨⟨_, rfl, rfl, rfl⟩, ?_⟩
  intro u mode
  cases a.fInit (fun i => u (2 * i)) args mult <;> cases b.fInit (fun i => u (2 * i + 1)) args mult <;> rfl

theorem initOK_compose (mult : Bool) (a b : ForecastModel K) (ha : a.name ≠ "null") (hb : b.name ≠ "null")
    (args : InitArgs K) (h1 : InitOK args a) (h2 : InitOK args b) : InitOK args (compose mult a b) := by
  obtain ⟨ba, hba, ga⟩ := h1
  obtain ⟨bb, hbb, gb⟩ := h2
  refine ⟨⟨ba.lo ++ bb.lo, ba.hi ++ bb.hi, true⟩, ?_, ?_⟩
  · simp [compose, ha, hb, fConcatBounds, hba, hbb, bind, Except.bind]
  · intro u hu mode
    obtain ⟨x, hx, lx1, lx2, lx3, wx⟩ := ga (fun i => u (2 * i)) (fun i => hu _) mult
    obtain ⟨y, hy, ly1, ly2, ly3, wy⟩ := gb (fun i => u (2 * i + 1)) (fun i => hu _) mult
    refine ⟨x ++ y, ?_, ?_⟩
    · simp [compose, ha, hb, fInit2, hx, hy, bind, Except.bind]
    · refine ⟨?_, ?_, ?_, ?_⟩
      · simp [compose, ha, hb, lx1, ly1]
      · simp [compose, ha, hb, lx2, ly2]
      · simp [compose, ha, hb, lx3, ly3]
      · intro i hg hl hh
        simp only [List.getElem_append]
        by_cases hi : i < a.nParams
        · simp only [lx1, lx2, lx3, hi, dif_pos]
          exact wx i (by omega) (by omega) (by omega)
        · simp only [lx1, lx2, lx3, hi, dif_neg, not_false_eq_true]
          simp at hg hl hh
          exact wy (i - a.nParams) (by omega) (by omega) (by omega)

/-- **C03** If every component's initial guess has the declared length and lies inside its bounds (for all random
draws), so does the guess of any `+`/`*` expression built from them. -/
theorem C03_guess_in_bounds (e : Expr (ForecastModel K)) (hnull : ∀ m ∈ e.leaves, m.name ≠ "null")
    (args : InitArgs K) (h : ∀ m ∈ e.leaves, InitOK args m) : InitOK args e.build := by
  induction e with
  | leaf m => exact h m (by simp [Expr.leaves])
  | add l r ihl ihr =>
    have nl : ∀ m ∈ l.leaves, m.name ≠ "null" := fun m hm => hnull m (by simp [Expr.leaves, hm])
    have nr : ∀ m ∈ r.leaves, m.name ≠ "null" := fun m hm => hnull m (by simp [Expr.leaves, hm])
    exact initOK_compose false _ _ (build_name l nl) (build_name r nr) args
      (ihl nl fun m hm => h m (by simp [Expr.leaves, hm])) (ihr nr fun m hm => h m (by simp [Expr.leaves, hm]))
  | mul l r ihl ihr =>
    have nl : ∀ m ∈ l.leaves, m.name ≠ "null" := fun m hm => hnull m (by simp [Expr.leaves, hm])
    have nr : ∀ m ∈ r.leaves, m.name ≠ "null" := fun m hm => hnull m (by simp [Expr.leaves, hm])
    exact initOK_compose true _ _ (build_name l nl) (build_name r nr) args
      (ihl nl fun m hm => h m (by simp [Expr.leaves, hm])) (ihr nr fun m hm => h m (by simp [Expr.leaves, hm]))

end C03

def exArgs : InitArgs ℚ := ⟨some [0, 1, 2, 3], some [5, 7, 6, 9], none⟩

/-- Concrete case: guess and bounds of `linear_nondec + step`. -/
example : ((modelLinearNondec : ForecastModel ℚ).add modelStep).fInit (fun _ => 1/2) exArgs false
    = .ok [.fin (4/3), .fin 5, .fin 3, .fin 6] := by decide +kernel
example : (((modelLinearNondec : ForecastModel ℚ).add modelStep).fBounds exArgs).map (fun b => (b.lo, b.hi))
    = .ok ([.fin 0, .ninf, .ninf, .ninf], [.pinf, .pinf, .pinf, .pinf]) := by decide +kernel

/-! ### C04 -/

theorem bin_assoc (mult : Bool) (n : Nat) (hn : 0 < n) (a b c : Arr K) (ha : Shaped n a) (hb : Shaped n b)
    (hc : Shaped n c) :
    (do let ab ← Arr.bin (if mult then (· * ·) else (· + ·)) a b
        Arr.bin (if mult then (· * ·) else (· + ·)) ab c) =
    (do let bc ← Arr.bin (if mult then (· * ·) else (· + ·)) b c
        Arr.bin (if mult then (· * ·) else (· + ·)) a bc) := by
  set op : K → K → K := if mult then (· * ·) else (· + ·) with hop
  have hassoc : ∀ x y z : Option K, cell op (cell op x y) z = cell op x (cell op y z) := by
    intro x y z
    cases x <;> cases y <;> cases z <;> simp [cell, hop]
    cases mult <;> simp [add_assoc, mul_assoc]
  obtain ⟨ab, hab, sab, vab⟩ := bin_shaped op n a b ha hb
  obtain ⟨bc, hbc, sbc, vbc⟩ := bin_shaped op n b c hb hc
  obtain ⟨l, hl, sl, vl⟩ := bin_shaped op n ab c sab hc
  obtain ⟨r, hr, sr, vr⟩ := bin_shaped op n a bc ha sbc
  simp only [bind, Except.bind, hab, hbc, hl, hr]
  congr 1
  refine shaped_ext n l r sl sr hn ?_ ?_
  · rw [bin_scalar_of op _ _ _ hl, bin_scalar_of op _ _ _ hr, bin_scalar_of op _ _ _ hab, bin_scalar_of op _ _ _ hbc,
      and_assoc]
  · intro i hi
    rw [vl i hi, vr i hi, vab i hi, vbc i hi, hassoc]

/-- **C04** Grouping does not matter: `(a+b)+c` and `a+(b+c)` (and likewise for products) have the same parameter count
and, for every parameter vector and input on which the parts return one value per sample (or raise), the same
result. -/
theorem C04_assoc (mult : Bool) (n : Nat) (hn : 0 < n) (ctx : Ctx K) (a b c : ForecastModel K)
    (ha : a.name ≠ "null") (hb : b.name ≠ "null") (hc : c.name ≠ "null")
    (hshape : ∀ m ∈ [a, b, c], ∀ p mode r, m.fModel ctx (some p) mode = .ok r → Shaped n r)
    (p : List K) (mode : Bool) :
    let op := fun x y : ForecastModel K => if mult then x.mul y else x.add y
    (op (op a b) c).nParams = (op a (op b c)).nParams ∧
    (op (op a b) c).fModel ctx (some p) mode = (op a (op b c)).fModel ctx (some p) mode := by
  have key : ∀ x y : ForecastModel K, (if mult then x.mul y else x.add y) = compose mult x y := by
    intro x y; cases mult <;> rfl
  simp only [key]
  refine ⟨by simp [compose, ha, hb, hc, composedName_ne, Nat.add_assoc], ?_⟩
  have e1 : (compose mult a b).nParams = a.nParams + b.nParams := by simp [compose, ha, hb]
  rw [compose_fModel mult _ _ (compose_name mult a b ha hb) hc, compose_fModel mult _ _ ha (compose_name mult b c hb hc),
    compose_fModel mult _ _ ha hb, compose_fModel mult _ _ hb hc, e1]
  have t1 : (p.take (a.nParams + b.nParams)).take a.nParams = p.take a.nParams := by
    rw [List.take_take]; congr 1; omega
  have t2 : (p.take (a.nParams + b.nParams)).drop a.nParams = (p.drop a.nParams).take b.nParams := by
    rw [List.drop_take]; congr 1; omega
  have t3 : (p.drop a.nParams).drop b.nParams = p.drop (a.nParams + b.nParams) := by
    rw [List.drop_drop]
  rw [t1, t2, t3]
  have s1 := hshape a (by simp) (p.take a.nParams) mult
  have s2 := hshape b (by simp) ((p.drop a.nParams).take b.nParams) mult
  have s3 := hshape c (by simp) (p.drop (a.nParams + b.nParams)) mult
  revert s1 s2 s3
  generalize a.fModel ctx (some (p.take a.nParams)) mult = ra
  generalize b.fModel ctx (some ((p.drop a.nParams).take b.nParams)) mult = rb
  generalize c.fModel ctx (some (p.drop (a.nParams + b.nParams))) mult = rc
  intro s1 s2 s3
  cases ra with
  | error e => rfl
  | ok ra =>
    cases rb with
    | error e => rfl
    | ok rb =>
      cases rc with
      | error e =>
        obtain ⟨ab, hab, _⟩ := bin_shaped (if mult then (· * ·) else (· + ·)) n ra rb (s1 _ rfl) (s2 _ rfl)
        simp only [bind, Except.bind, hab]
      | ok rc => exact bin_assoc mult n hn ra rb rc (s1 _ rfl) (s2 _ rfl) (s3 _ rfl)

theorem bin_comm (op : K → K → K) (hop : ∀ x y, op x y = op y x) (n : Nat) (a b : Arr K) (ha : Shaped n a)
    (hb : Shaped n b) : Arr.bin op a b = Arr.bin op b a := by
  have hl : ∀ x y : Option K, lift2 op x y = lift2 op y x := by
    intro x y; cases x <;> cases y <;> simp [lift2, hop]
  cases a <;> cases b
  · simp [Arr.bin, hl]
  · simp only [Arr.bin]; congr 2; apply List.map_congr_left; intro x _; exact hl _ _
  · simp only [Arr.bin]; congr 2; apply List.map_congr_left; intro x _; exact hl _ _
  · rename_i l m
    simp only [Shaped] at ha hb
    simp only [Arr.bin, ha, hb, if_true]
    congr 2
    rw [List.zipWith_comm]
    congr 1
    funext x y; exact hl _ _

/-- **C04** (order) Swapping the parts only permutes the parameter vector: `a+b` at `p ++ q` is `b+a` at `q ++ p`
(and likewise for products). -/
theorem C04_comm (mult : Bool) (n : Nat) (ctx : Ctx K) (a b : ForecastModel K)
    (ha : a.name ≠ "null") (hb : b.name ≠ "null") (p q : List K) (hp : p.length = a.nParams)
    (hq : q.length = b.nParams) (ra rb : Arr K)
    (h1 : a.fModel ctx (some p) mult = .ok ra) (h2 : b.fModel ctx (some q) mult = .ok rb)
    (s1 : Shaped n ra) (s2 : Shaped n rb) (mode : Bool) :
    let op := fun x y : ForecastModel K => if mult then x.mul y else x.add y
    (op a b).nParams = (op b a).nParams ∧
    (op a b).fModel ctx (some (p ++ q)) mode = (op b a).fModel ctx (some (q ++ p)) mode := by
  have key : ∀ x y : ForecastModel K, (if mult then x.mul y else x.add y) = compose mult x y := by
    intro x y; cases mult <;> rfl
  simp only [key]
  refine ⟨by simp [compose, ha, hb, Nat.add_comm], ?_⟩
  rw [compose_fModel mult _ _ ha hb, compose_fModel mult _ _ hb ha]
  simp only [← hp, ← hq, List.take_left', List.drop_left', List.take_left, List.drop_left, h1, h2, bind, Except.bind]
  exact bin_comm _ (by cases mult <;> simp [add_comm, mul_comm]) n ra rb s1 s2

/-- Concrete cases for C04: three distinct models, both groupings, and a swap. -/
example : (((modelLinear : ForecastModel ℚ).add modelStep).add modelConstant).fModel exCtx (some [2, 1, 1, 10, 3]) false
    = .ok (.vec [some 4, some 16, some 18]) := by decide +kernel
example : ((modelLinear : ForecastModel ℚ).add (modelStep.add modelConstant)).fModel exCtx (some [2, 1, 1, 10, 3]) false
    = .ok (.vec [some 4, some 16, some 18]) := by decide +kernel
example : ((modelStep : ForecastModel ℚ).add modelLinear).fModel exCtx (some [1, 10, 2, 1]) false
    = ((modelLinear : ForecastModel ℚ).add modelStep).fModel exCtx (some [2, 1, 1, 10]) false := by decide +kernel
example : ∀ m ∈ [(modelLinear : ForecastModel ℚ), modelStep, modelConstant],
    ∀ p mode r, m.fModel exCtx (some p) mode = .ok r → Shaped 3 r := ex_shaped

end Anticipy

#print axioms Anticipy.C01_composition
#print axioms Anticipy.C01_slices
#print axioms Anticipy.C02_null_neutral
#print axioms Anticipy.C02_null_value
#print axioms Anticipy.C03_compose
#print axioms Anticipy.C03_guess_in_bounds
#print axioms Anticipy.C04_assoc
#print axioms Anticipy.C04_comm
