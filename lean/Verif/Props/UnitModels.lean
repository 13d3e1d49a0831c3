import Verif.Props.Units
import Verif.Model.ZooReal
import Verif.Model.Naive

/-
C68: which models can describe data in any unit.
-/
namespace Anticipy
open Spec
variable {K : Type} [Field K] [LinearOrder K]

/-! ### Parameters within bounds -/

theorem admissible_default (n : Nat) (p : List K) (b : Bool) : Admissible p ⟨List.replicate n .ninf, List.replicate n .pinf, b⟩ ↔ p.length = n := by
  constructor
  · intro h
    simpa using h.2.1.symm
  · intro h
    refine ⟨by simp, by simpa using h.symm, by simpa using h.symm, ?_⟩
    intro i hg hl hh
    simp only [List.getElem_replicate, List.getElem_map]
    exact ⟨rfl, rfl⟩

theorem admissible_append (p1 p2 : List K) (lo1 hi1 lo2 hi2 : List (Ext K)) (x y z : Bool) (h1 : lo1.length = p1.length) (h2 : hi1.length = p1.length) :
    Admissible (p1 ++ p2) ⟨lo1 ++ lo2, hi1 ++ hi2, x⟩ ↔ Admissible p1 ⟨lo1, hi1, y⟩ ∧ Admissible p2 ⟨lo2, hi2, z⟩ := by
  constructor
  · rintro ⟨a1, a2, a3, a4⟩
    simp only [List.length_append, List.length_map] at a1 a2 a3
    refine ⟨⟨by simp, h1, h2, ?_⟩, ⟨by simp, by dsimp only; omega, by dsimp only; omega, ?_⟩⟩
    · intro i g1 g2 g3
      dsimp only at g2 g3
      have := a4 i (by simp at g1 ⊢; omega) (by simp; omega) (by simp; omega)
      simp only [List.getElem_map] at this ⊢
      rwa [List.getElem_append_left g2, List.getElem_append_left g3, List.getElem_append_left (by simpa using g1)] at this
    · intro i g1 g2 g3
      dsimp only at g2 g3
      rw [List.length_map] at g1
      have := a4 (p1.length + i) (by simp; omega) (by simp; omega) (by simp; omega)
      simp only [List.getElem_map] at this ⊢
      rw [List.getElem_append_right (by omega), List.getElem_append_right (by omega), List.getElem_append_right (by omega)] at this
      simpa [h1, h2] using this
  · rintro ⟨⟨-, a2, a3, a4⟩, ⟨-, b2, b3, b4⟩⟩
    dsimp only at a2 a3 b2 b3
    refine ⟨by simp, by simp; omega, by simp; omega, ?_⟩
    intro i g1 g2 g3
    simp only [List.length_append, List.length_map] at g1 g2 g3
    simp only [List.getElem_map]
    by_cases hi : i < p1.length
    · have := a4 i (by simpa using hi) (by dsimp only; omega) (by dsimp only; omega)
      simp only [List.getElem_map] at this
      rw [List.getElem_append_left (show i < lo1.length by omega), List.getElem_append_left (show i < hi1.length by omega), List.getElem_append_left hi]
      exact this
    · have := b4 (i - p1.length) (by simp; omega) (by dsimp only; omega) (by dsimp only; omega)
      simp only [List.getElem_map] at this
      rw [List.getElem_append_right (by omega), List.getElem_append_right (by omega), List.getElem_append_right (by omega)]
      simpa [h1, h2] using this

/-! ### Sums and products -/

variable [IsStrictOrderedRing K]

theorem translates_concat (mult : Bool) (c : K) (m1 m2 : ForecastModel K) (T1 T2 : List K → List K) (x y : Bool) (h1 : Translates x c m1 T1)
    (h2b : ∀ ax ay b, m2.fBounds ⟨some ax, some ay, none⟩ = .ok b → ∃ b', m2.fBounds ⟨some ax, some (ay.map fun v => c * v), none⟩ = .ok b' ∧
      ∀ p, Admissible p b → Admissible (T2 p) b')
    (h2l : ∀ p, (T2 p).length = p.length)
    (h2s : ∀ args b, m2.fBounds args = .ok b → b.lo.length = m2.nParams ∧ b.hi.length = m2.nParams)
    (hn1 : m1.name ≠ "null") (hn2 : m2.name ≠ "null")
    (hv : ∀ ctx p a, (compose mult m1 m2).fModel ctx p y = .ok a →
      (compose mult m1 m2).fModel (ctxInUnit c ctx) (p.map fun p => T1 (p.take m1.nParams) ++ T2 (p.drop m1.nParams)) y = .ok (arrInUnit c a)) :
    Translates y c (compose mult m1 m2) (fun p => T1 (p.take m1.nParams) ++ T2 (p.drop m1.nParams)) := by
  have hb : (compose mult m1 m2).fBounds = fConcatBounds m1 m2 := by simp [compose, hn1, hn2]
  have hn : (compose mult m1 m2).nParams = m1.nParams + m2.nParams := by simp [compose, hn1, hn2]
  constructor
  · intro p
    rw [List.length_append, h1.length, h2l, ← List.length_append, List.take_append_drop]
  · exact hv
  · intro ax ay b h
    rw [hb] at h ⊢
    unfold fConcatBounds at h ⊢
    simp only [bind, Except.bind] at h ⊢
    cases e1 : m1.fBounds ⟨some ax, some ay, none⟩ with
    | error e => rw [e1] at h; cases h
    | ok b1 =>
      rw [e1] at h
      dsimp only at h
      cases e2 : m2.fBounds ⟨some ax, some ay, none⟩ with
      | error e => rw [e2] at h; cases h
      | ok b2 =>
        rw [e2] at h
        cases h
        obtain ⟨b1', f1, g1⟩ := h1.bounds _ _ _ e1
        obtain ⟨b2', f2, g2⟩ := h2b _ _ _ e2
        rw [f1, f2]
        refine ⟨_, rfl, ?_⟩
        intro p hp
        obtain ⟨s1, s2⟩ := h1.sized _ _ e1
        obtain ⟨s1', s2'⟩ := h1.sized _ _ f1
        obtain ⟨t1, t2⟩ := h2s _ _ e2
        have hlen : p.length = m1.nParams + m2.nParams := by
          have := hp.2.1
          simp only [List.length_append] at this
          omega
        have htake : (p.take m1.nParams).length = m1.nParams := by rw [List.length_take]; omega
        rw [← List.take_append_drop m1.nParams p, admissible_append _ _ _ _ _ _ _ b1.isArray b2.isArray (by omega) (by omega)] at hp
        rw [admissible_append _ _ _ _ _ _ _ b1'.isArray b2'.isArray (by rw [h1.length]; omega) (by rw [h1.length]; omega)]
        exact ⟨g1 _ hp.1, g2 _ hp.2⟩
  · intro args b h
    rw [hb] at h
    unfold fConcatBounds at h
    simp only [bind, Except.bind] at h
    cases e1 : m1.fBounds args with
    | error e => rw [e1] at h; cases h
    | ok b1 =>
      rw [e1] at h
      dsimp only at h
      cases e2 : m2.fBounds args with
      | error e => rw [e2] at h; cases h
      | ok b2 =>
        rw [e2] at h
        cases h
        obtain ⟨s1, s2⟩ := h1.sized _ _ e1
        obtain ⟨t1, t2⟩ := h2s _ _ e2
        rw [hn]
        simp only [List.length_append]
        omega

theorem split_take (T1 T2 : List K → List K) (h1 : ∀ p, (T1 p).length = p.length) (h2 : ∀ p, (T2 p).length = p.length) (n : Nat) (p : List K) :
    (T1 (p.take n) ++ T2 (p.drop n)).take n = T1 (p.take n) ∧ (T1 (p.take n) ++ T2 (p.drop n)).drop n = T2 (p.drop n) := by
  by_cases h : n ≤ p.length
  · have : (T1 (p.take n)).length = n := by rw [h1, List.length_take]; omega
    exact ⟨List.take_left' this, List.drop_left' this⟩
  · have e : T2 (p.drop n) = [] := by
      rw [← List.length_eq_zero_iff, h2, List.length_drop]; omega
    rw [e, List.append_nil]
    have hl : (T1 (p.take n)).length ≤ n := by rw [h1, List.length_take]; omega
    exact ⟨List.take_of_length_le hl, List.drop_eq_nil_of_le hl⟩

/-- **C68.** Sums of models that can describe data in any unit. -/
theorem unitFree_add (y : Bool) (m1 m2 : ForecastModel K) (h1 : UnitFree false m1) (h2 : UnitFree false m2) (hn1 : m1.name ≠ "null")
    (hn2 : m2.name ≠ "null") : UnitFree y (m1.add m2) := by
  intro c hc
  obtain ⟨T1, t1⟩ := h1 c hc
  obtain ⟨T2, t2⟩ := h2 c hc
  refine ⟨_, translates_concat false c m1 m2 T1 T2 false y t1 t2.bounds t2.length t2.sized hn1 hn2 ?_⟩
  intro ctx p a h
  have e : (compose false m1 m2).fModel = fAdd2 m1 m2 := by simp [compose, hn1, hn2]
  rw [e] at h ⊢
  unfold fAdd2 at h ⊢
  simp only [bind, Except.bind] at h ⊢
  cases p with
  | none => cases h
  | some p =>
    obtain ⟨s1, s2⟩ := split_take T1 T2 t1.length t2.length m1.nParams p
    simp only [splitParams, Option.map_some, s1, s2] at h ⊢
    cases e1 : m1.fModel ctx (some (p.take m1.nParams)) false with
    | error e => rw [e1] at h; cases h
    | ok a1 =>
      rw [e1] at h
      dsimp only at h
      cases e2 : m2.fModel ctx (some (p.drop m1.nParams)) false with
      | error e => rw [e2] at h; cases h
      | ok a2 =>
        rw [e2] at h
        have f1 := t1.value _ _ _ e1
        have f2 := t2.value _ _ _ e2
        rw [Option.map_some] at f1 f2
        rw [f1, f2]
        exact bin_add_unit c _ _ _ h

/-- **C68.** Products of a model that can describe data in any unit with a factor that does not depend on the data. -/
theorem unitFree_mul (y : Bool) (m1 m2 : ForecastModel K) (h1 : UnitFree true m1) (h2 : PureFactor m2) (hn1 : m1.name ≠ "null")
    (hn2 : m2.name ≠ "null") : UnitFree y (m1.mul m2) := by
  intro c hc
  obtain ⟨T1, t1⟩ := h1 c hc
  refine ⟨_, translates_concat true c m1 m2 T1 id true y t1 ?_ (fun _ => rfl) h2.sized hn1 hn2 ?_⟩
  · intro ax ay b hb
    exact ⟨b, by rw [h2.bounds]; exact hb, fun p hp => hp⟩
  intro ctx p a h
  have e : (compose true m1 m2).fModel = fMult2 m1 m2 := by simp [compose, hn1, hn2]
  rw [e] at h ⊢
  unfold fMult2 at h ⊢
  simp only [bind, Except.bind] at h ⊢
  cases p with
  | none => cases h
  | some p =>
    obtain ⟨s1, s2⟩ := split_take T1 id t1.length (fun _ => rfl) m1.nParams p
    simp only [splitParams, Option.map_some, s1, s2] at h ⊢
    cases e1 : m1.fModel ctx (some (p.take m1.nParams)) true with
    | error e => rw [e1] at h; cases h
    | ok a1 =>
      rw [e1] at h
      dsimp only at h
      cases e2 : m2.fModel ctx (some (p.drop m1.nParams)) true with
      | error e => rw [e2] at h; cases h
      | ok a2 =>
        rw [e2] at h
        have f1 := t1.value _ _ _ e1
        rw [Option.map_some] at f1
        rw [f1, h2.value, id, e2]
        exact bin_mul_unit c _ _ _ h

/-! ### Simple models -/

/-- Models with unbounded parameters that are all amounts. -/
theorem unitFree_amounts (mult : Bool) (m : ForecastModel K) (hb : m.fBounds = fBoundsDefault m.nParams)
    (hv : ∀ c, 0 < c → ∀ ctx p a, m.fModel ctx p mult = .ok a →
      m.fModel (ctxInUnit c ctx) (p.map fun p => p.map fun v => c * v) mult = .ok (arrInUnit c a)) : UnitFree mult m := by
  intro c hc
  refine ⟨fun p => p.map fun v => c * v, fun p => by simp, hv c hc, ?_, ?_⟩
  · intro ax ay b h
    rw [hb] at h ⊢
    refine ⟨b, h, ?_⟩
    intro p hp
    have h := Except.ok.inj h
    subst h
    rw [admissible_default] at hp ⊢
    simpa using hp
  · intro args b h
    rw [hb] at h
    have h := Except.ok.inj h
    subst h
    simp

omit [LinearOrder K] [IsStrictOrderedRing K] in
theorem arrInUnit_vecOf (c : K) (l : List K) : arrInUnit c (vecOf l) = vecOf (l.map fun e => c * e) := by
  simp [vecOf, arrInUnit]

theorem constant_unitFree (mult : Bool) : UnitFree mult (modelConstant : ForecastModel K) := by
  apply unitFree_amounts _ _ rfl
  intro c hc ctx p a h
  simp only [modelConstant, mkModel, fModelConstant, bind, Except.bind] at h ⊢
  match p, h with
  | some [u], h =>
    simp only [unpack1] at h ⊢
    cases h
    rw [arrInUnit_vecOf, List.map_map]
    rfl

theorem linear_unitFree (mult : Bool) : UnitFree mult (modelLinear : ForecastModel K) := by
  apply unitFree_amounts _ _ rfl
  intro c hc ctx p a h
  simp only [modelLinear, mkModel, fModelLinear, bind, Except.bind] at h ⊢
  match p, h with
  | some [u, v], h =>
    simp only [unpack2] at h ⊢
    cases h
    rw [arrInUnit_vecOf, List.map_map]
    simp only [Option.map_some, List.map_cons, List.map_nil, ctxInUnit]
    congr 2
    apply List.map_congr_left
    intro x _
    simp only [Function.comp]
    ring

omit [IsStrictOrderedRing K] in
theorem gather_unit (c : K) (l : List K) (is : List Int) (r : List (Option K)) (h : gather l is = .ok r) :
    gather (l.map fun v => c * v) is = .ok (r.map fun v => v.map fun a => c * a) := by
  induction is generalizing r with
  | nil => cases h; rfl
  | cons i is ih =>
    unfold gather at h ⊢
    simp only [bind, Except.bind] at h ⊢
    cases e1 : pyIndex l i with
    | error e => rw [e1] at h; cases h
    | ok v =>
      rw [e1] at h
      dsimp only at h
      cases e2 : gather l is with
      | error e => rw [e2] at h; cases h
      | ok r' =>
        rw [e2] at h
        cases h
        have e3 : pyIndex (l.map fun v => c * v) i = .ok (c * v) := by
          unfold pyIndex at e1 ⊢
          simp only [List.length_map, List.getElem?_map] at e1 ⊢
          split_ifs at e1 ⊢ <;> revert e1 <;> split <;> intro e1 <;> cases e1 <;> simp_all
        rw [e3, ih r' e2]
        rfl

theorem indexed_unit (c : K) (key : String) (f : CacheFn K) (ctx : Ctx K) (p : Params K) (a : Arr K) (h : fModelIndexed key f ctx p false = .ok a) :
    fModelIndexed key f (ctxInUnit c ctx) (p.map fun p => p.map fun v => c * v) false = .ok (arrInUnit c a) := by
  unfold fModelIndexed at h ⊢
  cases p with
  | none => cases h
  | some p =>
    simp only [Option.map_some, bind, Except.bind, ctxInUnit] at h ⊢
    have hl : ∀ l : List Int, ∀ r, gather ((if false = true then (1 : K) else 0) :: p) l = .ok r →
        gather ((if false = true then (1 : K) else 0) :: p.map fun v => c * v) l = .ok (r.map fun v => v.map fun a => c * a) := by
      intro l r hr
      have := gather_unit c _ _ _ hr
      simpa using this
    cases hk : ctx.cache key with
    | some w =>
      rw [hk] at h
      dsimp only [pure, Except.pure] at h ⊢
      cases w with
      | ints l =>
        dsimp only at h ⊢
        cases e : gather ((if false = true then (1 : K) else 0) :: p) l with
        | error e' => rw [e] at h; cases h
        | ok r =>
          rw [e] at h
          cases h
          rw [hl _ _ e]
          rfl
      | mat _ => cases h
      | mask _ => cases h
    | none =>
      rw [hk] at h
      dsimp only at h ⊢
      cases e0 : f ctx.ax ctx.adate with
      | error e' => rw [e0] at h; cases h
      | ok w =>
        rw [e0] at h
        cases w with
        | ints l =>
          dsimp only at h ⊢
          cases e : gather ((if false = true then (1 : K) else 0) :: p) l with
          | error e' => rw [e] at h; cases h
          | ok r =>
            rw [e] at h
            cases h
            rw [hl _ _ e]
            rfl
        | mat _ => cases h
        | mask _ => cases h

theorem seasonWday_unitFree : UnitFree false (modelSeasonWday : ForecastModel K) :=
  unitFree_amounts _ _ rfl fun c _ ctx p a h => indexed_unit c _ _ ctx p a h

theorem seasonMonth_unitFree : UnitFree false (modelSeasonMonth : ForecastModel K) :=
  unitFree_amounts _ _ rfl fun c _ ctx p a h => indexed_unit c _ _ ctx p a h

omit [IsStrictOrderedRing K] in
theorem default_sized (n : Nat) (args : InitArgs K) (b : Bounds K) (h : fBoundsDefault n args = .ok b) : b.lo.length = n ∧ b.hi.length = n := by
  have h := Except.ok.inj h
  subst h
  simp

omit [IsStrictOrderedRing K] in
theorem seasonWday_pure : PureFactor (modelSeasonWday : ForecastModel K) := ⟨fun _ _ _ => rfl, fun _ _ _ => rfl, fun args b h => default_sized 6 args b h⟩

omit [IsStrictOrderedRing K] in
theorem seasonMonth_pure : PureFactor (modelSeasonMonth : ForecastModel K) := ⟨fun _ _ _ => rfl, fun _ _ _ => rfl, fun args b h => default_sized 11 args b h⟩

/-- Dummies: the amount of the event is a parameter. -/
theorem dummy_unitFree (name : String) (f : DummyFn K) (m : ForecastModel K) (h : getModelDummy name f = .ok m) : UnitFree false m := by
  unfold getModelDummy at h
  simp only [bind, Except.bind] at h
  cases e : validateFDummy f with
  | error e' => rw [e] at h; cases h
  | ok u =>
    rw [e] at h
    cases h
    apply unitFree_amounts _ _ rfl
    intro c hc ctx p a h
    simp only [mkModel, fModelDummy, bind, Except.bind, ctxInUnit] at h ⊢
    have key : ∀ v, unpack1 p = .ok v → unpack1 (p.map fun p => p.map fun v => c * v) = .ok (c * v) := by
      intro v hv
      match p, hv with
      | some [u], hv => cases hv; rfl
    have fin : ∀ (l : List K) v, vecOf (l.map fun m => if false = true then c * v * m + 1 else c * v * m) =
        arrInUnit c (vecOf (l.map fun m => if false = true then v * m + 1 else v * m)) := by
      intro l v
      rw [arrInUnit_vecOf, List.map_map]
      congr 1
      apply List.map_congr_left
      intro x _
      simp [mul_assoc]
    cases hk : ctx.cache ("mask_" ++ name) with
    | some w =>
      rw [hk] at h
      cases w with
      | mask l =>
        dsimp only [pure, Except.pure] at h ⊢
        cases e1 : unpack1 p with
        | error e' => rw [e1] at h; cases h
        | ok v =>
          rw [e1] at h
          cases h
          rw [key v e1]
          dsimp only
          rw [fin]
      | ints _ => cases h
      | mat _ => cases h
    | none =>
      rw [hk] at h
      dsimp only at h ⊢
      cases e0 : f ctx.ax ctx.adate with
      | error e' => rw [e0] at h; cases h
      | ok l =>
        rw [e0] at h
        dsimp only at h ⊢
        cases e1 : unpack1 p with
        | error e' => rw [e1] at h; cases h
        | ok v =>
          rw [e1] at h
          cases h
          rw [key v e1]
          dsimp only
          rw [fin]

omit [IsStrictOrderedRing K] in
theorem dummy_pure (name : String) (f : DummyFn K) (m : ForecastModel K) (h : getModelDummy name f = .ok m) : PureFactor m := by
  unfold getModelDummy at h
  simp only [bind, Except.bind] at h
  cases e : validateFDummy f with
  | error e' => rw [e] at h; cases h
  | ok u =>
    rw [e] at h
    cases h
    exact ⟨fun _ _ _ => rfl, fun _ _ _ => rfl, fun args b h => default_sized 1 args b h⟩

/-- Translation of a position and an amount. -/
def atAmount (c : K) : List K → List K
  | [a, b] => [a, c * b]
  | p => p

omit [LinearOrder K] [IsStrictOrderedRing K] in
theorem atAmount_length (c : K) (p : List K) : (atAmount c p).length = p.length := by
  match p with
  | [] => rfl
  | [_] => rfl
  | [_, _] => rfl
  | _ :: _ :: _ :: _ => rfl

theorem ramp_unitFree : UnitFree false (modelRamp : ForecastModel K) := by
  intro c hc
  refine ⟨atAmount c, atAmount_length c, ?_, ?_, ?_⟩
  · intro ctx p a h
    simp only [modelRamp, mkModel, fRamp, bind, Except.bind] at h ⊢
    match p, h with
    | some [u, v], h =>
      simp only [unpack2] at h
      cases h
      simp only [Option.map_some, atAmount, unpack2, arrInUnit_vecOf, List.map_map, ctxInUnit]
      congr 2
      apply List.map_congr_left
      intro x _
      simp only [Function.comp, Bool.false_eq_true, if_false]
      ring
  · intro ax ay b h
    refine ⟨b, h, ?_⟩
    simp only [modelRamp, mkModel, fBoundsRamp, bind, Except.bind] at h
    intro p hp
    cases e1 : pyIndex ax (ceil15 ax.length : Int) with
    | error e => rw [e1] at h; cases h
    | ok lo =>
      rw [e1] at h
      dsimp only at h
      cases e2 : pyIndex ax (-(ceil15 ax.length : Int)) with
      | error e => rw [e2] at h; cases h
      | ok hi =>
        rw [e2] at h
        cases h
        obtain ⟨q1, q2, q3, q4⟩ := hp
        match p, q2 with
        | [u, v], _ =>
          refine ⟨rfl, rfl, rfl, ?_⟩
          intro i g1 g2 g3
          simp only [atAmount, List.map_cons, List.map_nil, List.length_cons, List.length_nil] at g1
          match i, g1 with
          | 0, _ => exact q4 0 (by simp) (by simp) (by simp)
          | 1, _ => exact ⟨rfl, rfl⟩
          | _ + 2, g1 => omega
        | [], q2 => simp at q2
        | [_], q2 => simp at q2
        | _ :: _ :: _ :: _, q2 => simp at q2
  · intro args b h
    simp only [modelRamp, mkModel, fBoundsRamp, bind, Except.bind] at h
    cases e0 : args.ax with
    | none => rw [e0] at h; cases h; exact ⟨rfl, rfl⟩
    | some ax =>
      rw [e0] at h
      dsimp only at h
      cases e1 : pyIndex ax (ceil15 ax.length : Int) with
      | error e => rw [e1] at h; cases h
      | ok lo =>
        rw [e1] at h
        dsimp only at h
        cases e2 : pyIndex ax (-(ceil15 ax.length : Int)) with
        | error e => rw [e2] at h; cases h
        | ok hi => rw [e2] at h; cases h; exact ⟨rfl, rfl⟩

theorem step_unitFree : UnitFree false (modelStep : ForecastModel K) := by
  intro c hc
  refine ⟨atAmount c, atAmount_length c, ?_, ?_, fun args b h => default_sized 2 args b h⟩
  · intro ctx p a h
    simp only [modelStep, mkModel, fStep, bind, Except.bind] at h ⊢
    match p, h with
    | some [u, v], h =>
      simp only [unpack2] at h
      cases h
      simp only [Option.map_some, atAmount, unpack2, arrInUnit_vecOf, List.map_map, ctxInUnit]
      congr 2
      apply List.map_congr_left
      intro x _
      simp only [Function.comp, Bool.false_eq_true, if_false]
      ring
  · intro ax ay b h
    refine ⟨b, h, ?_⟩
    have h := Except.ok.inj h
    subst h
    intro p hp
    rw [admissible_default] at hp ⊢
    rw [atAmount_length, hp]

theorem linearNondec_unitFree (mult : Bool) : UnitFree mult (modelLinearNondec : ForecastModel K) := by
  intro c hc
  obtain ⟨T, hT⟩ := linear_unitFree (K := K) mult c hc
  refine ⟨fun p => p.map fun v => c * v, fun p => by simp, ?_, ?_, ?_⟩
  · intro ctx p a h
    simp only [modelLinearNondec, mkModel, fModelLinear, bind, Except.bind] at h ⊢
    match p, h with
    | some [u, v], h =>
      simp only [unpack2] at h ⊢
      cases h
      rw [arrInUnit_vecOf, List.map_map]
      simp only [Option.map_some, List.map_cons, List.map_nil, ctxInUnit]
      congr 2
      apply List.map_congr_left
      intro x _
      simp only [Function.comp]
      ring
  · intro ax ay b h
    refine ⟨b, h, ?_⟩
    have h := Except.ok.inj h
    subst h
    intro p hp
    obtain ⟨q1, q2, q3, q4⟩ := hp
    match p, q2 with
    | [u, v], _ =>
      refine ⟨rfl, rfl, rfl, ?_⟩
      have hu : 0 ≤ u := by
        have := (q4 0 (by simp) (by simp) (by simp)).1
        simpa [Ext.le] using this
      intro i g1 g2 g3
      simp only [List.map_cons, List.map_nil, List.length_cons, List.length_nil] at g1
      match i, g1 with
      | 0, _ =>
        refine ⟨?_, rfl⟩
        simp only [List.map_cons, List.map_nil, List.getElem_cons_zero, Ext.le]
        exact decide_eq_true (mul_nonneg hc.le hu)
      | 1, _ => exact ⟨rfl, rfl⟩
      | _ + 2, g1 => omega
    | [], q2 => simp at q2
    | [_], q2 => simp at q2
    | _ :: _ :: _ :: _, q2 => simp at q2
  · intro args b h
    have h := Except.ok.inj h
    subst h
    exact ⟨rfl, rfl⟩

/-! ### Naive models -/

omit [Field K] [LinearOrder K] [IsStrictOrderedRing K] in
theorem dedupBy_image {α β γ : Type} [DecidableEq γ] (f : α → β) (key : β → γ) (key' : α → γ) (hk : ∀ a, key (f a) = key' a) (l : List α) :
    dedupBy key (l.map f) = (dedupBy key' l).map f := by
  induction l with
  | nil => rfl
  | cons a l ih =>
    simp only [List.map_cons, dedupBy, ih, List.filter_map, hk]
    congr 2
    apply List.filter_congr
    intro b _
    simp [Function.comp, hk]

theorem ffillFrom_image {α β : Type} (f : α → β) (c : Option α) (l : List (Option α)) :
    ffillFrom (c.map f) (l.map fun v => v.map f) = (ffillFrom c l).map fun v => v.map f := by
  induction l generalizing c with
  | nil => rfl
  | cons v l ih =>
    simp only [List.map_cons, ffillFrom]
    have : (v.map f <|> c.map f) = (v <|> c).map f := by cases v <;> rfl
    rw [this, ih]

theorem bfill_image {α β : Type} (f : α → β) (l : List (Option α)) : bfill (l.map fun v => v.map f) = (bfill l).map fun v => v.map f := by
  induction l with
  | nil => rfl
  | cons v l ih =>
    simp only [List.map_cons, bfill, ih, List.head?_map]
    congr 1
    cases v with
    | some v => rfl
    | none =>
      cases (bfill l).head? with
      | none => rfl
      | some w => rfl

theorem shift1_image {α β : Type} (f : α → β) (l : List (Option α)) : shift1 (l.map fun v => v.map f) = (shift1 l).map fun v => v.map f := by
  unfold shift1
  rw [List.length_map, List.map_take]
  rfl

omit [IsStrictOrderedRing K] in
/-- Naive forecasts in another unit. -/
theorem naive_unit (srt : SortAlg) (c : K) (ctx : Ctx K) (p p' : Params K) (mult : Bool) (a : Arr K) (h : fModelNaive srt ctx p mult = .ok a) :
    fModelNaive srt (ctxInUnit c ctx) p' mult = .ok (arrInUnit c a) := by
  obtain ⟨ax, ad, act, ca, hca⟩ := ctx
  have e0 : ctxInUnit c ⟨ax, ad, act, ca, hca⟩ = ⟨ax, ad, act.map (inUnit c), ca, hca⟩ := rfl
  rw [e0]
  unfold fModelNaive at h ⊢
  dsimp only at h ⊢
  by_cases hh : hca = true
  · rw [if_pos hh] at h; cases h
  rw [if_neg hh] at h ⊢
  cases act with
  | none => cases h
  | some df =>
    obtain ⟨hd, hw, rows⟩ := df
    have e1 : (some (⟨hd, hw, rows⟩ : Frame K)).map (inUnit c) = some ⟨hd, hw, rows.map (sampleInUnit c)⟩ := rfl
    rw [e1]
    simp only [bind, Except.bind] at h ⊢
    have hq : queries (⟨ax, ad, some ⟨hd, hw, rows.map (sampleInUnit c)⟩, ca, hca⟩ : Ctx K) = queries ⟨ax, ad, some ⟨hd, hw, rows⟩, ca, hca⟩ := rfl
    rw [hq]
    cases e2 : queries (⟨ax, ad, some ⟨hd, hw, rows⟩, ca, hca⟩ : Ctx K) with
    | error e => rw [e2] at h; cases h
    | ok qs =>
      rw [e2] at h
      dsimp only at h ⊢
      by_cases hdd : (hd && ad.isNone) = true
      · rw [if_pos hdd] at h; cases h
      rw [if_neg hdd] at h ⊢
      have h := Except.ok.inj h
      subst h
      let f : XY K → XY K := fun e => { e with y := e.y.map fun v => c * v }
      have hm : ∀ (hd : Bool) (l : List (Row K)), outerMerge hd (l.map (sampleInUnit c)) qs = (outerMerge hd l qs).map f := by
        intro hd l
        unfold outerMerge
        rw [List.map_append, List.flatMap_map, List.map_flatMap]
        congr 1
        · congr 1
          funext r
          have : joins hd (sampleInUnit c r) = joins hd r := rfl
          rw [this]
          cases qs.filter (joins hd r) with
          | nil => rfl
          | cons q qs =>
            simp only [List.map_map]
            rfl
        · rw [List.map_map]
          simp only [List.any_map]
          rfl
      have hs := srt.natural xyLe xyLe f (outerMerge hd (dedupBy Row.x rows) qs) (fun _ _ _ _ => rfl)
      rw [dedupBy_image (sampleInUnit c) Row.x Row.x (fun _ => rfl), hm, hs]
      generalize srt.run xyLe (outerMerge hd (dedupBy Row.x rows) qs) = s
      have hy : (s.map f).map XY.y = (s.map XY.y).map fun v => v.map fun a => c * a := by simp [f]
      have hff : ffill (((shift1 (s.map XY.y))).map fun v => v.map fun a => c * a) = (ffill (shift1 (s.map XY.y))).map fun v => v.map fun a => c * a :=
        ffillFrom_image (fun a => c * a) none _
      rw [hy, shift1_image, hff, bfill_image]
      generalize bfill (ffill (shift1 (s.map XY.y))) = ys
      simp only [arrInUnit]
      rw [List.zip_map, List.filter_map, List.map_map, List.map_map]
      congr 2

theorem unitFree_noparams (mult : Bool) (m : ForecastModel K) (hb : m.fBounds = fBoundsDefault m.nParams)
    (hv : ∀ (c : K) ctx p p' a, m.fModel ctx p mult = .ok a → m.fModel (ctxInUnit c ctx) p' mult = .ok (arrInUnit c a)) : UnitFree mult m :=
  unitFree_amounts mult m hb fun c _ ctx p a h => hv c ctx p _ a h

theorem naive_unitFree (srt : SortAlg) (mult : Bool) : UnitFree mult (modelNaive srt : ForecastModel K) :=
  unitFree_noparams _ _ rfl fun c ctx p p' a h => naive_unit srt c ctx p p' mult a h

omit [IsStrictOrderedRing K] in
/-- Seasonal naive forecasts in another unit. -/
theorem snaive_unit (srt : SortAlg) (c : K) (ctx : Ctx K) (p p' : Params K) (mult : Bool) (a : Arr K) (h : fModelSnaiveWday srt ctx p mult = .ok a) :
    fModelSnaiveWday srt (ctxInUnit c ctx) p' mult = .ok (arrInUnit c a) := by
  obtain ⟨ax, ad, act, ca, hca⟩ := ctx
  have e0 : ctxInUnit c ⟨ax, ad, act, ca, hca⟩ = ⟨ax, ad, act.map (inUnit c), ca, hca⟩ := rfl
  rw [e0]
  unfold fModelSnaiveWday at h ⊢
  dsimp only at h ⊢
  by_cases hh : hca = true
  · rw [if_pos hh] at h; cases h
  rw [if_neg hh] at h ⊢
  cases act with
  | none => cases h
  | some df =>
    obtain ⟨hd, hw, rows⟩ := df
    have e1 : (some (⟨hd, hw, rows⟩ : Frame K)).map (inUnit c) = some ⟨hd, hw, rows.map (sampleInUnit c)⟩ := rfl
    rw [e1]
    dsimp only at h ⊢
    by_cases hdd : (!hd) = true
    · rw [if_pos hdd] at h; cases h
    rw [if_neg hdd] at h ⊢
    cases ad with
    | none => cases h
    | some ds =>
      dsimp only at h ⊢
      by_cases hlen : ds.length ≠ ax.length
      · rw [if_pos hlen] at h; cases h
      rw [if_neg hlen] at h ⊢
      have h := Except.ok.inj h
      subst h
      let f : WdayRow K → WdayRow K := fun r => ⟨sampleInUnit c r.row, r.yOut.map fun v => c * v⟩
      let g : PointOut K → PointOut K := fun r => { r with yOut := r.yOut.map fun v => c * v }
      have hadd : ∀ l : List (Row K), addYOut (l.map (sampleInUnit c)) = (addYOut l).map f := by
        intro l
        unfold addYOut
        have hy : (l.map (sampleInUnit c)).map Row.y = (l.map Row.y).map fun v => v.map fun a => c * a := by simp [sampleInUnit]
        have hff : ffill (((shift1 (l.map Row.y))).map fun v => v.map fun a => c * a) = (ffill (shift1 (l.map Row.y))).map fun v => v.map fun a => c * a :=
          ffillFrom_image (fun a => c * a) none _
        rw [hy, shift1_image, hff, List.zipWith_map, List.map_zipWith]
      have hact : fillnaWday srt (dedupBy Row.x (rows.map (sampleInUnit c))) = (fillnaWday srt (dedupBy Row.x rows)).map f := by
        rw [dedupBy_image (sampleInUnit c) Row.x Row.x (fun _ => rfl)]
        unfold fillnaWday
        rw [← srt.natural wdayRowLe wdayRowLe f _ (fun _ _ _ _ => rfl), List.map_flatMap]
        congr 2
        funext w
        rw [List.filter_map, hadd]
        rfl
      rw [hact]
      generalize fillnaWday srt (dedupBy Row.x rows) = act
      have h1 : (act.map f).flatMap (fun r => ((ax.zip ds).filter fun p => decide (p.1 = (r.row.x : K)) && decide (p.2 = r.row.date)).map
          fun p => PointOut.mk p.1 r.yOut) = (act.flatMap fun r => ((ax.zip ds).filter fun p => decide (p.1 = (r.row.x : K)) && decide (p.2 = r.row.date)).map
          fun p => PointOut.mk p.1 r.yOut).map g := by
        rw [List.flatMap_map, List.map_flatMap]
        congr 1
        funext r
        rw [List.map_map]
        rfl
      have hlast : ∀ w, lastWeek (act.map f) w = (lastWeek act w).map fun v => c * v := by
        intro w
        unfold lastWeek
        rw [List.filter_map, List.getLast?_map]
        have : ((fun r : WdayRow K => decide (weekday r.row.date = w)) ∘ f) = fun r : WdayRow K => decide (weekday r.row.date = w) := rfl
        rw [this]
        cases (act.filter fun r => decide (weekday r.row.date = w)).getLast? with
        | none => rfl
        | some r =>
          simp only [Option.map_some, f, sampleInUnit]
          cases r.row.y <;> rfl
      have h2 : (((ax.zip ds).filter fun p => !(act.map f).any fun r => decide (r.row.date = p.2)).map
          fun p => PointOut.mk p.1 (lastWeek (act.map f) (weekday p.2))) = (((ax.zip ds).filter fun p => !act.any fun r => decide (r.row.date = p.2)).map
          fun p => PointOut.mk p.1 (lastWeek act (weekday p.2))).map g := by
        rw [List.map_map]
        simp only [List.any_map, hlast]
        rfl
      rw [h1, h2, srt.natural pointLe pointLe g _ (fun _ _ _ _ => rfl), srt.natural pointLe pointLe g _ (fun _ _ _ _ => rfl), ← List.map_append,
        List.map_map]
      simp only [arrInUnit]
      rw [List.map_map]
      rfl

theorem snaive_unitFree (srt : SortAlg) (mult : Bool) : UnitFree mult (modelSnaiveWday srt : ForecastModel K) :=
  unitFree_noparams _ _ rfl fun c ctx p p' a h => snaive_unit srt c ctx p p' mult a h

omit [Field K] [LinearOrder K] [IsStrictOrderedRing K] in
/-- The yearly Fourier season. -/
theorem fourier_unitFree (mult : Bool) : UnitFree mult modelFourier := by
  apply unitFree_amounts _ _ rfl
  intro c hc ctx p a h
  simp only [modelFourier, mkModel, fModelFourier, bind, Except.bind, ctxInUnit] at h ⊢
  have key : ∀ (params : List ℝ) (rows : List (List ℝ)) j, matmulCol (params.map fun v => c * v) rows j = c * matmulCol params rows j := by
    intro params rows j
    unfold matmulCol
    rw [List.zipWith_map_left]
    have : List.zipWith (fun a (b : List ℝ) => c * a * b.getD j 0) params rows = (List.zipWith (fun p row => p * row.getD j 0) params rows).map fun v => c * v := by
      rw [List.map_zipWith]
      simp only [mul_assoc]
    rw [this, List.sum_map_mul_left, List.map_id']
  cases hk : ctx.cache "a_t_fourier" with
  | some w =>
    rw [hk] at h
    dsimp only [pure, Except.pure] at h ⊢
    match p, w, h with
    | some p, .mat rows, h =>
      dsimp only [Option.map_some] at h ⊢
      rw [List.length_map]
      split_ifs at h ⊢
      cases h
      rw [arrInUnit_vecOf, List.map_map]
      simp only [key]
      rfl
  | none =>
    rw [hk] at h
    dsimp only at h ⊢
    cases e : cacheFourier [] ctx.adate with
    | error e' => rw [e] at h; cases h
    | ok w =>
      rw [e] at h
      match p, w, h with
      | some p, .mat rows, h =>
        dsimp only [Option.map_some] at h ⊢
        rw [List.length_map]
        split_ifs at h ⊢
        cases h
        rw [arrInUnit_vecOf, List.map_map]
        simp only [key]
        rfl

omit [Field K] [LinearOrder K] [IsStrictOrderedRing K] in
theorem fourier_pure : PureFactor modelFourier := ⟨fun _ _ _ => rfl, fun _ _ _ => rfl, fun args b h => default_sized _ args b h⟩

end Anticipy
