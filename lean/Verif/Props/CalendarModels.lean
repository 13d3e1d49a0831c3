import Verif.Props.HolidayMasks
import Verif.Props.CacheValidate
import Mathlib.Algebra.BigOperators.Group.List.Basic

/-
C54 and C57: models built from calendars and from lists of dates have one parameter per calendar or list, and add (or multiply) the
effects of those that contain the date.
-/
namespace Anticipy
open Spec
variable {K : Type} [Field K] [LinearOrder K]

/-- The effect of parameter `a` on a sample whose 0/1 indicator is `g`. -/
def Spec.effect (mult : Bool) (a g : K) : K := if mult then a * g + 1 else a * g

/-- Total effect of all parameters on a sample with the given indicators. -/
def Spec.totalEffect (mult : Bool) (p gs : List K) : K :=
  if mult then (List.zipWith (effect true) p gs).prod else (List.zipWith (effect false) p gs).sum

/-- The model `get_model_dummy` returns. -/
def dummyModel (name : String) (f : DummyFn K) : ForecastModel K :=
  mkModel name 1 (fModelDummy f ("mask_" ++ name))
    (dictFCache := [("mask_" ++ name, fun ax ad => do let m ← f ax ad; .ok (.mask m))])

theorem getModelDummy_ok (name : String) (f : DummyFn K) (m : ForecastModel K) (h : getModelDummy name f = .ok m) :
    m = dummyModel name f := by
  simp only [getModelDummy, Bind.bind, Except.bind] at h
  cases hv : validateFDummy f <;> simp [hv] at h
  exact h.symm

theorem combine_snoc (mult : Bool) (m : ForecastModel K) (ms : List (ForecastModel K)) (x : ForecastModel K) :
    combineModels mult m (ms ++ [x]) = compose mult (combineModels mult m ms) x := by
  simp [combineModels]

omit [LinearOrder K] in
theorem compose_nParams (mult : Bool) (a b : ForecastModel K) (ha : a.name ≠ "null") (hb : b.name ≠ "null") :
    (compose mult a b).nParams = a.nParams + b.nParams := by simp [compose, ha, hb]

theorem combine_shape (mult : Bool) (m : ForecastModel K) (ms : List (ForecastModel K)) (h : ∀ x ∈ m :: ms, x.name ≠ "null")
    (h1 : ∀ x ∈ m :: ms, x.nParams = 1) :
    (combineModels mult m ms).name ≠ "null" ∧ (combineModels mult m ms).nParams = ms.length + 1 := by
  induction ms using List.reverseRecOn with
  | nil => exact ⟨h m (by simp), h1 m (by simp)⟩
  | append_singleton ms x ih =>
    obtain ⟨i1, i2⟩ := ih (fun z hz => h z (by simp at hz ⊢; tauto)) (fun z hz => h1 z (by simp at hz ⊢; tauto))
    rw [combine_snoc]
    refine ⟨compose_name _ _ _ i1 (h x (by simp)), ?_⟩
    rw [compose_nParams _ _ _ i1 (h x (by simp)), i2, h1 x (by simp), List.length_append, List.length_singleton]

omit [LinearOrder K] in
theorem bin_vecOf (op : K → K → K) (a b : List K) (h : a.length = b.length) :
    Arr.bin op (vecOf a) (vecOf b) = .ok (vecOf (List.zipWith op a b)) := by
  simp only [vecOf, Arr.bin, List.length_map, if_pos h]
  congr 2
  rw [List.zipWith_map, List.map_zipWith]
  rfl

/-- Values of a dummy model without cached mask. -/
theorem dummy_value (name : String) (f : DummyFn K) (ctx : Ctx K) (hc : ctx.cache ("mask_" ++ name) = none) (mask : List K)
    (hf : f ctx.ax ctx.adate = .ok mask) (a : K) (mult : Bool) :
    (dummyModel name f).fModel ctx (some [a]) mult = .ok (vecOf (mask.map (effect mult a))) := by
  simp only [dummyModel, mkModel, fModelDummy, hc, hf, Bind.bind, Except.bind, unpack1]
  cases mult <;> rfl

/-- Values of a sum or product of dummy models. -/
theorem combine_value (mult : Bool) (d : String × DummyFn K) (l : List (String × DummyFn K)) (ctx : Ctx K) (ds : List Int)
    (g : String × DummyFn K → Int → K)
    (hn : ∀ e ∈ d :: l, e.1 ≠ "null") (hc : ∀ e ∈ d :: l, ctx.cache ("mask_" ++ e.1) = none)
    (hf : ∀ e ∈ d :: l, e.2 ctx.ax ctx.adate = .ok (ds.map (g e))) (p : List K) (hp : p.length = l.length + 1) :
    (combineModels mult (dummyModel d.1 d.2) (l.map fun e => dummyModel e.1 e.2)).fModel ctx (some p) mult =
      .ok (vecOf (ds.map fun t => totalEffect mult p ((d :: l).map fun e => g e t))) := by
  induction l using List.reverseRecOn generalizing p with
  | nil =>
    obtain ⟨a, rfl⟩ := List.length_eq_one_iff.1 hp
    simp only [combineModels, List.map_nil, List.foldl_nil]
    rw [dummy_value d.1 d.2 ctx (hc d (by simp)) _ (hf d (by simp))]
    congr 2
    rw [List.map_map]
    apply List.map_congr_left
    intro t _
    cases mult <;> simp [totalEffect]
  | append_singleton l x ih =>
    have sub : ∀ e ∈ d :: l, e ∈ d :: (l ++ [x]) := fun e he => by simp at he ⊢; tauto
    have shape := combine_shape mult (dummyModel d.1 d.2) (l.map fun e => dummyModel e.1 e.2)
      (by
        intro z hz
        rw [← List.map_cons (f := fun e : String × DummyFn K => dummyModel e.1 e.2)] at hz
        obtain ⟨e, he, rfl⟩ := List.mem_map.1 hz
        exact hn e (sub e he))
      (by
        intro z hz
        rw [← List.map_cons (f := fun e : String × DummyFn K => dummyModel e.1 e.2)] at hz
        obtain ⟨e, he, rfl⟩ := List.mem_map.1 hz
        rfl)
    rw [List.map_append, List.map_singleton, combine_snoc,
      compose_fModel mult _ _ shape.1 (hn x (by simp)), shape.2, List.length_map]
    obtain ⟨a, ha⟩ : ∃ a, p.drop (l.length + 1) = [a] :=
      List.length_eq_one_iff.1 (by rw [List.length_drop, hp, List.length_append, List.length_singleton]; omega)
    have hpt : p = p.take (l.length + 1) ++ [a] := by rw [← ha, List.take_append_drop]
    have htl : (p.take (l.length + 1)).length = l.length + 1 := by
      rw [List.length_take, hp, List.length_append, List.length_singleton]; omega
    rw [ih (fun e he => hn e (sub e he)) (fun e he => hc e (sub e he)) (fun e he => hf e (sub e he)) _ htl, ha,
      dummy_value x.1 x.2 ctx (hc x (by simp)) _ (hf x (by simp))]
    simp only [Bind.bind, Except.bind]
    rw [bin_vecOf _ _ _ (by simp)]
    congr 2
    rw [List.map_map, List.zipWith_map, List.zipWith_self]
    apply List.map_congr_left
    intro t _
    generalize p.take (l.length + 1) = q at *
    rw [hpt]
    rw [← List.cons_append, List.map_append, List.map_singleton]
    simp only [totalEffect]
    rw [List.zipWith_append (by simp [htl]), List.zipWith_append (by simp [htl])]
    cases mult <;> simp [effect]

theorem mapM_forall2 {α β : Type} (f : α → Res β) (l : List α) (r : List β) (h : l.mapM f = .ok r) :
    List.Forall₂ (fun a b => f a = .ok b) l r := by
  induction l generalizing r with
  | nil => simp only [List.mapM_nil] at h; cases h; exact .nil
  | cons a l ih =>
    simp only [List.mapM_cons, Bind.bind, Except.bind] at h
    cases hf : f a with
    | error e => simp [hf] at h
    | ok b =>
      simp only [hf] at h
      cases hl : l.mapM f with
      | error e => simp [hl] at h
      | ok bs =>
        simp only [hl, pure, Except.pure] at h
        cases h
        exact .cons hf (ih bs hl)

theorem mapM_ok_of {α β : Type} (f : α → Res β) (g : α → β) (l : List α) (h : ∀ a ∈ l, f a = .ok (g a)) :
    l.mapM f = .ok (l.map g) := by
  induction l with
  | nil => rfl
  | cons a l ih =>
    simp only [List.mapM_cons, h a (by simp), ih fun b hb => h b (by simp [hb]), Bind.bind, Except.bind, pure, Except.pure,
      List.map_cons]

/-- Dummies whose masks are 0/1 on the validation dates pass validation. -/
theorem getModelDummy_indicator (name : String) (f : DummyFn K)
    (h : ∀ ax ds, ds ≠ [] → ∃ P : Int → Bool, f ax (some ds) = .ok (ds.map fun t => if P t then 1 else 0)) :
    getModelDummy name f = .ok (dummyModel name f) := by
  obtain ⟨P, hP⟩ := h ((List.range 10).map fun i : Nat => (i : K)) ((List.range 10).map fun i : Nat => (17532 + (i : Int)) * DAY)
    (by simp)
  simp only [getModelDummy, validateFDummy, hP, Bind.bind, Except.bind, pyAssert]
  rw [if_pos]
  · rfl
  · rw [List.all_map, List.all_eq_true]
    intro t _
    simp only [Function.comp]
    split <;> simp

open Classical in
theorem calendar_mask (rules : List HolidayRule) (hr : ∀ r ∈ rules, NearYear r) (ax : List K) (ds : List Int) (hd : ds ≠ []) :
    fDummyCalendar rules ax (some ds) = .ok (ds.map fun t => if IsHoliday rules t then 1 else 0) :=
  C54_flags rules hr none .fresh ds hd

open Classical in
theorem calendar_dummy (c : Calendar) (hr : ∀ r ∈ c.rules, NearYear r) :
    getModelDummy (K := K) c.name (fDummyCalendar c.rules) = .ok (dummyModel c.name (fDummyCalendar c.rules)) :=
  getModelDummy_indicator _ _ fun ax ds hd => ⟨fun t => decide (IsHoliday c.rules t), by
    rw [calendar_mask c.rules hr ax ds hd]; simp⟩

theorem fromCalendars_eq (c : Calendar) (cs : List Calendar) (h : ∀ d ∈ c :: cs, d.rules ≠ [])
    (hr : ∀ d ∈ c :: cs, ∀ r ∈ d.rules, NearYear r) (name : Option String) :
    getModelFromCalendars (K := K) (c :: cs) name =
      let m := dummyModel c.name (fDummyCalendar c.rules)
      let ms := cs.map fun d => dummyModel d.name (fDummyCalendar d.rules)
      .ok (mkModel (name.getD c.name) (cs.length + 1) (fModelSumOrProd (combineModels false m ms) (combineModels true m ms))
        (fInit := fInitOnesZeros (cs.length + 1)) (cacheVars := (combineModels false m ms).cacheVars)
        (dictFCache := (combineModels false m ms).dictFCache)) := by
  have hf : ((c :: cs).filter fun d => !d.rules.isEmpty) = c :: cs := by
    rw [List.filter_eq_self]
    intro d hd
    have := h d hd
    cases hr : d.rules
    · exact absurd hr this
    · rfl
  unfold getModelFromCalendars
  rw [hf]
  dsimp only
  rw [mapM_ok_of _ (fun d => dummyModel d.name (fDummyCalendar d.rules)) _ (fun d hd => calendar_dummy d (hr d hd))]
  simp only [Bind.bind, Except.bind, List.map_cons, mkModel, List.length_map]

/-- **C54** A model can be built from any non-empty list of calendars with rules, and has one parameter per calendar.
Missing for the full claim: one parameter per holiday rule, see `C54_counterexample_rules`. -/
theorem C54_params_partial (c : Calendar) (cs : List Calendar) (h : ∀ d ∈ c :: cs, d.rules ≠ [])
    (hr : ∀ d ∈ c :: cs, ∀ r ∈ d.rules, NearYear r) (name : Option String) :
    ∃ m : ForecastModel K, getModelFromCalendars (c :: cs) name = .ok m ∧ m.nParams = (c :: cs).length ∧
      m.name = name.getD c.name := by
  rw [fromCalendars_eq c cs h hr name]
  exact ⟨_, rfl, rfl, rfl⟩

open Classical in
/-- **C54** Value of a calendar model: each parameter acts on exactly the samples whose date is a holiday of its calendar, additively or
as a factor `1 + parameter`, whatever the other dates are. -/
theorem C54_values (c : Calendar) (cs : List Calendar) (h : ∀ d ∈ c :: cs, d.rules ≠ [])
    (hr : ∀ d ∈ c :: cs, ∀ r ∈ d.rules, NearYear r) (hn : ∀ d ∈ c :: cs, d.name ≠ "null") (name : Option String)
    (m : ForecastModel K) (hm : getModelFromCalendars (c :: cs) name = .ok m) (ctx : Ctx K)
    (hc : ∀ d ∈ c :: cs, ctx.cache ("mask_" ++ d.name) = none) (ds : List Int) (hd : ds ≠ []) (had : ctx.adate = some ds)
    (p : List K) (hp : p.length = (c :: cs).length) (mult : Bool) :
    m.fModel ctx (some p) mult = .ok (vecOf (ds.map fun t =>
      totalEffect mult p ((c :: cs).map fun d => if IsHoliday d.rules t then 1 else 0))) := by
  rw [fromCalendars_eq c cs h hr name] at hm
  cases hm
  simp only [mkModel, fModelSumOrProd]
  have key := fun mult => combine_value mult (c.name, fDummyCalendar (K := K) c.rules)
    (cs.map fun d => (d.name, fDummyCalendar (K := K) d.rules)) ctx ds
    (fun e t => match e.2 ctx.ax (some [t]) with
      | .ok [v] => v
      | _ => 0)
    (by
      rw [← List.map_cons (f := fun d : Calendar => (d.name, fDummyCalendar (K := K) d.rules))]
      intro e he
      obtain ⟨d, hd', rfl⟩ := List.mem_map.1 he
      exact hn d hd')
    (by
      rw [← List.map_cons (f := fun d : Calendar => (d.name, fDummyCalendar (K := K) d.rules))]
      intro e he
      obtain ⟨d, hd', rfl⟩ := List.mem_map.1 he
      exact hc d hd')
    (by
      rw [← List.map_cons (f := fun d : Calendar => (d.name, fDummyCalendar (K := K) d.rules))]
      intro e he
      obtain ⟨d, hd', rfl⟩ := List.mem_map.1 he
      rw [had]
      dsimp only
      rw [calendar_mask d.rules (hr d hd') _ ds hd]
      congr 1
      apply List.map_congr_left
      intro t _
      rw [calendar_mask d.rules (hr d hd') _ [t] (by simp)]
      rfl)
    p (by rw [List.length_map]; exact hp)
  have := key mult
  rw [List.map_map] at this
  have e2 : (if mult = true then combineModels true (dummyModel c.name (fDummyCalendar c.rules))
        (cs.map fun d => dummyModel d.name (fDummyCalendar d.rules))
      else combineModels false (dummyModel c.name (fDummyCalendar c.rules))
        (cs.map fun d => dummyModel d.name (fDummyCalendar d.rules))) =
      combineModels mult (dummyModel c.name (fDummyCalendar (K := K) c.rules))
        (cs.map fun d => dummyModel d.name (fDummyCalendar d.rules)) := by cases mult <;> rfl
  rw [e2]
  refine Eq.trans this ?_
  congr 2
  apply List.map_congr_left
  intro t _
  rw [← List.map_cons (f := fun d : Calendar => (d.name, fDummyCalendar (K := K) d.rules)), List.map_map]
  congr 1
  apply List.map_congr_left
  intro d hd'
  simp only [Function.comp]
  rw [calendar_mask d.rules (hr d hd') _ [t] (by simp)]
  rfl

/-! ### Date lists -/

theorem fromDatelist_eq (name : String) (l : List Int) (ls : List (List Int)) (h : ∀ x ∈ l :: ls, x ≠ []) :
    getModelFromDatelist (K := K) name (l :: ls) =
      let m := dummyModel "model_dummy" (fDummyListDate l)
      let ms := ls.map fun x => dummyModel "model_dummy" (fDummyListDate x)
      .ok (mkModel name (ls.length + 1) (fModelSumOrProd (combineModels false m ms) (combineModels true m ms))
        (fInit := fInitOnesZeros (ls.length + 1))) := by
  unfold getModelFromDatelist
  rw [mapM_ok_of _ (fun x => dummyModel "model_dummy" (fDummyListDate x))]
  · simp only [Bind.bind, Except.bind, List.map_cons, mkModel, List.length_map]
  · intro x hx
    simp only [fDummyDates, h x hx, if_false, Bind.bind, Except.bind]
    exact getModelDummy_indicator _ _ fun ax ds _ => ⟨fun t => decide (t ∈ x), by simp [fDummyListDate, isinMask]⟩

/-- **C57** A model built from one or more non-empty lists of dates has one parameter per list, and each parameter acts exactly on the
samples whose date is in its list (overlapping lists add up, or multiply). -/
theorem C57_values (name : String) (l : List Int) (ls : List (List Int)) (h : ∀ x ∈ l :: ls, x ≠ []) :
    ∃ m : ForecastModel K, getModelFromDatelist name (l :: ls) = .ok m ∧ m.nParams = (l :: ls).length ∧
      ∀ (ctx : Ctx K), ctx.cache "mask_model_dummy" = none → ∀ (ds : List Int), ctx.adate = some ds →
        ∀ (p : List K), p.length = (l :: ls).length → ∀ mult,
          m.fModel ctx (some p) mult = .ok (vecOf (ds.map fun t =>
            totalEffect mult p ((l :: ls).map fun x => if t ∈ x then 1 else 0))) := by
  rw [fromDatelist_eq name l ls h]
  refine ⟨_, rfl, rfl, ?_⟩
  intro ctx hc ds had p hp mult
  simp only [mkModel, fModelSumOrProd]
  have key := combine_value mult ("model_dummy", fDummyListDate (K := K) l) (ls.map fun x => ("model_dummy", fDummyListDate (K := K) x))
    ctx ds
    (fun e t => match e.2 ctx.ax (some [t]) with
      | .ok [v] => v
      | _ => 0)
    (by
      rw [← List.map_cons (f := fun x : List Int => ("model_dummy", fDummyListDate (K := K) x))]
      intro e he
      obtain ⟨d, hd', rfl⟩ := List.mem_map.1 he
      show "model_dummy" ≠ "null"
      decide)
    (by
      rw [← List.map_cons (f := fun x : List Int => ("model_dummy", fDummyListDate (K := K) x))]
      intro e he
      obtain ⟨d, hd', rfl⟩ := List.mem_map.1 he
      exact hc)
    (by
      rw [← List.map_cons (f := fun x : List Int => ("model_dummy", fDummyListDate (K := K) x))]
      intro e he
      obtain ⟨d, hd', rfl⟩ := List.mem_map.1 he
      rw [had]
      rfl)
    p (by rw [List.length_map]; exact hp)
  rw [List.map_map] at key
  have e2 : (if mult = true then combineModels true (dummyModel "model_dummy" (fDummyListDate l))
        (ls.map fun x => dummyModel "model_dummy" (fDummyListDate x))
      else combineModels false (dummyModel "model_dummy" (fDummyListDate l))
        (ls.map fun x => dummyModel "model_dummy" (fDummyListDate x))) =
      combineModels mult (dummyModel "model_dummy" (fDummyListDate (K := K) l))
        (ls.map fun x => dummyModel "model_dummy" (fDummyListDate x)) := by cases mult <;> rfl
  rw [e2]
  refine Eq.trans key ?_
  congr 2
  apply List.map_congr_left
  intro t _
  rw [← List.map_cons (f := fun x : List Int => ("model_dummy", fDummyListDate (K := K) x)), List.map_map]
  rfl

/-- An empty list of dates, or no list at all, is rejected. -/
theorem C57_rejects (name : String) (a b : List (List Int)) :
    getModelFromDatelist (K := K) name [] = .error .assertionError ∧
      ((∀ x ∈ a, x ≠ []) → getModelFromDatelist (K := K) name (a ++ [] :: b) = .error .assertionError) := by
  refine ⟨rfl, fun h => ?_⟩
  unfold getModelFromDatelist
  rw [List.mapM_append, mapM_ok_of _ (fun x => dummyModel "model_dummy" (fDummyListDate x)) a]
  · simp [fDummyDates, Bind.bind, Except.bind]
  · intro x hx
    simp only [fDummyDates, h x hx, if_false, Bind.bind, Except.bind]
    exact getModelDummy_indicator _ _ fun ax ds _ => ⟨fun t => decide (t ∈ x), by simp [fDummyListDate, isinMask]⟩

/-! ### Cached masks -/

theorem combine_induct (P : ForecastModel K → Prop) (mult : Bool) (hc : ∀ a b, P a → P b → P (compose mult a b))
    (m : ForecastModel K) (ms : List (ForecastModel K)) (h : ∀ x ∈ m :: ms, P x) : P (combineModels mult m ms) := by
  induction ms using List.reverseRecOn with
  | nil => exact h m (by simp)
  | append_singleton ms x ih =>
    rw [combine_snoc]
    exact hc _ _ (ih fun z hz => h z (by simp at hz ⊢; tauto)) (h x (by simp))

/-- **C54** Using the masks the calendar model itself caches for the dates gives the same values, if calendars with the same name have the
same rules. -/
theorem C54_cached (global : String → Option (CacheFn K)) (c : Calendar) (cs : List Calendar) (h : ∀ d ∈ c :: cs, d.rules ≠ [])
    (hr : ∀ d ∈ c :: cs, ∀ r ∈ d.rules, NearYear r)
    (hsame : ∀ d ∈ c :: cs, ∀ d' ∈ c :: cs, d.name = d'.name → d.rules = d'.rules) (name : Option String)
    (m : ForecastModel K) (hm : getModelFromCalendars (c :: cs) name = .ok m) (ctx : Ctx K)
    (cache : String → Option (CacheVal K)) (hcache : m.initCache global ctx.ax ctx.adate = .ok cache) (p : Params K) (mult : Bool) :
    m.fModel (withCache ctx cache) p mult = m.fModel (noCache ctx) p mult := by
  rw [fromCalendars_eq c cs h hr name] at hm
  cases hm
  let reg : Registry K := fun k => ((c :: cs).find? fun d => decide ("mask_" ++ d.name = k)).map fun d =>
    fun ax ad => do let m ← fDummyCalendar (K := K) d.rules ax ad; .ok (.mask m)
  have hreg : ∀ d ∈ c :: cs, reg ("mask_" ++ d.name) =
      some (fun ax ad => do let m ← fDummyCalendar (K := K) d.rules ax ad; .ok (.mask m)) := by
    intro d hd
    simp only [reg]
    cases hf : (c :: cs).find? fun e => decide ("mask_" ++ e.name = "mask_" ++ d.name) with
    | none =>
      have := List.find?_eq_none.1 hf d hd
      simp at this
    | some e =>
      have h1 := List.mem_of_find?_eq_some hf
      have h2 := List.find?_some hf
      simp only [decide_eq_true_eq] at h2
      rw [Option.map_some, hsame e h1 d hd (mask_inj _ _ h2)]
  have hall : ∀ x ∈ dummyModel c.name (fDummyCalendar (K := K) c.rules) :: cs.map fun d => dummyModel d.name (fDummyCalendar d.rules),
      Registered global reg x ∧ CacheTransparent reg x := by
    intro x hx
    rw [← List.map_cons (f := fun d : Calendar => dummyModel d.name (fDummyCalendar (K := K) d.rules))] at hx
    obtain ⟨d, hd, rfl⟩ := List.mem_map.1 hx
    refine ⟨⟨fun k hk => absurd hk List.not_mem_nil, ?_⟩, transparent_dummy reg d.name _ (hreg d hd) _ rfl⟩
    intro e he
    simp only [dummyModel, mkModel, List.mem_singleton] at he
    subst he
    exact hreg d hd
  have hR : Registered global reg (combineModels false (dummyModel c.name (fDummyCalendar (K := K) c.rules))
      (cs.map fun d => dummyModel d.name (fDummyCalendar d.rules))) :=
    combine_induct _ false (fun a b => registered_compose global reg false a b) _ _ fun x hx => (hall x hx).1
  have hT : ∀ mult, CacheTransparent reg (combineModels mult (dummyModel c.name (fDummyCalendar (K := K) c.rules))
      (cs.map fun d => dummyModel d.name (fDummyCalendar d.rules))) := fun mult =>
    combine_induct _ mult (fun a b => transparent_compose reg mult a b) _ _ fun x hx => (hall x hx).2
  have hcc : CacheCorrect reg ctx.ax ctx.adate cache := initCache_correct global reg _ hR ctx.ax ctx.adate cache hcache
  simp only [mkModel, fModelSumOrProd]
  cases mult
  · exact hT false ctx cache p false hcc
  · exact hT true ctx cache p true hcc

/-! ### Built-in models, and what the documentation promises -/

/-- UK calendar model on Christmas Day 2020 (Friday), December 26 (Saturday), December 28 (Monday) and Good Friday 2020, parameters 5 and 7. -/
example : (do
    let m ← modelCalendarUK (K := ℚ)
    m.fModel { ax := [0, 1, 2, 3], adate := some [ofCivil 2020 12 25 * DAY, ofCivil 2020 12 26 * DAY, ofCivil 2020 12 28 * DAY,
      ofCivil 2020 4 10 * DAY] } (some [5, 7]) false) = .ok (vecOf [5, 0, 5, 7]) := by decide +kernel

/-- A single calendar with two rules. -/
def twoRules : Calendar := ⟨"two", [christmasDay, newYear]⟩

/-- **C54 refuted** (documentation of `get_model_from_calendars`, lines 1701-1708: one parameter per rule): a calendar with rules for Christmas and
New Year gives a model with a single parameter. -/
theorem C54_counterexample_rules :
    (getModelFromCalendars (K := ℚ) [twoRules] none).map (fun m => m.nParams) = .ok 1 ∧ twoRules.rules.length = 2 := by
  constructor
  · decide +kernel
  · rfl

/-- **C58 refuted** A sample taken at 10:00 on Christmas Day 2020 is not recognised as a holiday: only midnight samples are. -/
theorem C58_counterexample :
    fDummyCalendar (K := ℚ) christmasUK [0, 1] (some [ofCivil 2020 12 25 * DAY, ofCivil 2020 12 25 * DAY + 10 * HOUR]) =
      .ok [1, 0] := by decide +kernel

/-- **C58** A sample is flagged iff it is a midnight sample on a holiday: if all samples are at midnight (daily data), every sample on a holiday is
flagged. -/
theorem C58_midnight_partial (rules : List HolidayRule) (hr : ∀ r ∈ rules, NearYear r)
    (hopen : ∀ r ∈ rules, r.startDate = none ∧ r.endDate = none) (ax : List K) (ds : List Int) (hd : ds ≠ [])
    (hmid : ∀ t ∈ ds, dayNs ∣ t) :
    ∃ mask, fDummyCalendar rules ax (some ds) = .ok mask ∧ mask.length = ds.length ∧
      ∀ i (hi : i < ds.length) (hi' : i < mask.length),
        (mask[i] = 1 ↔ ∃ r ∈ rules, ∃ y, FallsOn ds[i] (r.dayIn y)) ∧ (mask[i] = 0 ∨ mask[i] = 1) := by
  classical
  refine ⟨_, calendar_mask rules hr ax ds hd, by simp, ?_⟩
  intro i hi hi'
  rw [List.getElem_map]
  have hdvd := hmid ds[i] (List.getElem_mem hi)
  have e : IsHoliday rules ds[i] ↔ ∃ r ∈ rules, ∃ y, FallsOn ds[i] (r.dayIn y) := by
    unfold IsHoliday
    refine exists_congr fun r => and_congr_right fun hrm => exists_congr fun y => ?_
    rw [(hopen r hrm).1, (hopen r hrm).2]
    obtain ⟨k, hk⟩ := hdvd
    rw [hk]
    unfold FallsOn dayNs
    simp only [Option.not_mem_none, false_implies, implies_true, and_true]
    constructor
    · intro h; omega
    · intro h; omega
  rw [← e]
  split
  · simp_all
  · simp_all

#print axioms C54_values
#print axioms C57_values
end Anticipy
