import Verif.Model.Fit
import Verif.Model.ZooReal
import Verif.Spec.Fix
import Verif.Lemmas.ListOps
import Mathlib.Algebra.Order.Ring.Rat
import Mathlib.Data.Rat.Floor
import Mathlib.Tactic.Linarith
import Mathlib.Tactic.NormNum

/-
C36 (initial guesses lie inside the bounds).
-/
namespace Anticipy
open Spec
variable {K : Type} [Field K] [LinearOrder K]

/-- For the given data and random stream the initial guess of the model is finite and lies inside the declared bounds. -/
def Spec.Feasible (m : ForecastModel K) (u : Nat → K) (args : InitArgs K) (mult : Bool) : Prop :=
  ∃ (q : List K) (b : Bounds K), m.fInit u args mult = .ok (q.map .fin) ∧ m.fBounds args = .ok b ∧ ParamsWithin q b

/-- A feasible guess passes the assertion before the optimisation. -/
theorem C36_assertion (q : List K) (b : Bounds K) (h : ParamsWithin q b) : validateInitialGuess (q.map .fin) b = true := by
  obtain ⟨h1, h2, h3⟩ := h
  unfold validateInitialGuess
  rw [List.all_eq_true]
  intro e he
  obtain ⟨i, hi, rfl⟩ := List.mem_iff_getElem.1 he
  simp only [List.length_zip, List.length_map] at hi
  simp only [List.getElem_zip, List.getElem_map]
  have := h3 i (by omega) (by omega) (by omega)
  simp [this.1, this.2]

theorem within_unbounded (q : List K) (n : Nat) (h : q.length = n) (arr : Bool) :
    ParamsWithin q ⟨List.replicate n .ninf, List.replicate n .pinf, arr⟩ := by
  refine ⟨by simp [h], by simp [h], fun i _ _ _ => ?_⟩
  simp [Ext.le]

theorem feasible_of_unbounded (m : ForecastModel K) (u : Nat → K) (args : InitArgs K) (mult : Bool) (n : Nat) (q : List K)
    (hb : m.fBounds = fBoundsDefault n) (hi : m.fInit u args mult = .ok (q.map .fin)) (hn : q.length = n) : Spec.Feasible m u args mult :=
  ⟨q, _, hi, by rw [hb]; rfl, within_unbounded q n hn _⟩

/-- **C36, constant.** -/
theorem C36_constant (u : Nat → K) (ax ay : List K) (d : Option (List Timestamp)) (mult : Bool) (h : ay ≠ []) :
    Spec.Feasible modelConstant u ⟨some ax, some ay, d⟩ mult := by
  obtain ⟨a, l, rfl⟩ := List.exists_cons_of_ne_nil h
  exact feasible_of_unbounded _ _ _ _ 1 [mean (a :: l) + uniform 0 1 (u 0)] rfl rfl rfl

/-- The x values are not all the same. -/
def Spec.TwoDistinct (ax : List K) : Prop := ∃ x ∈ ax, ∃ x' ∈ ax, x ≠ x'

theorem dedup_ge_two (ax : List K) (h : Spec.TwoDistinct ax) : 2 ≤ (dedupBy id ax).length := by
  obtain ⟨x, hx, x', hx', hne⟩ := h
  have h1 := (mem_dedup ax x).2 hx
  have h2 := (mem_dedup ax x').2 hx'
  change x ∈ dedupBy id ax at h1
  change x' ∈ dedupBy id ax at h2
  rcases hd : dedupBy id ax with _ | ⟨a, _ | ⟨b, l⟩⟩
  · rw [hd] at h1; simp at h1
  · rw [hd] at h1 h2
    simp only [List.mem_singleton] at h1 h2
    exact absurd (h1.trans h2.symm) hne
  · simp

theorem fInitLinear_head [IsStrictOrderedRing K] (u : Nat → K) (ax ay : List K) (d : Option (List Timestamp)) (mult : Bool) (hy : ay ≠ [])
    (h : Spec.TwoDistinct ax) : ∃ a, fInitLinear u ⟨some ax, some ay, d⟩ mult = .ok [.fin a, .fin (ay.head hy)] := by
  obtain ⟨y0, l, rfl⟩ := List.exists_cons_of_ne_nil hy
  have h2 := dedup_ge_two ax h
  have h3 : ((dedupBy id ax).length : K) - 1 ≠ 0 := by
    intro e
    have e1 : ((dedupBy id ax).length : K) = 1 := sub_eq_zero.1 e
    have e2 : (dedupBy id ax).length = 1 := by exact_mod_cast e1
    omega
  refine ⟨((y0 :: l).getLast (by simp) - y0) / (((dedupBy id ax).length : K) - 1), ?_⟩
  simp only [fInitLinear, extDiv, if_neg h3, List.head_cons]

theorem fInitLinear_eq [IsStrictOrderedRing K] (u : Nat → K) (ax ay : List K) (d : Option (List Timestamp)) (mult : Bool) (hy : ay ≠ [])
    (h : Spec.TwoDistinct ax) : ∃ a b, fInitLinear u ⟨some ax, some ay, d⟩ mult = .ok [.fin a, .fin b] := by
  obtain ⟨a, e⟩ := fInitLinear_head u ax ay d mult hy h
  exact ⟨a, _, e⟩

/-- **C36, linear.** -/
theorem C36_linear_partial [IsStrictOrderedRing K] (u : Nat → K) (ax ay : List K) (d : Option (List Timestamp)) (mult : Bool) (hy : ay ≠ [])
    (h : Spec.TwoDistinct ax) : Spec.Feasible modelLinear u ⟨some ax, some ay, d⟩ mult := by
  obtain ⟨a, b, e⟩ := fInitLinear_eq u ax ay d mult hy h
  exact feasible_of_unbounded _ _ _ _ 2 [a, b] rfl e rfl

/-- **C36, non-decreasing linear.** -/
theorem C36_nondec_partial [IsStrictOrderedRing K] (u : Nat → K) (ax ay : List K) (d : Option (List Timestamp)) (mult : Bool) (hy : ay ≠ [])
    (h : Spec.TwoDistinct ax) : Spec.Feasible modelLinearNondec u ⟨some ax, some ay, d⟩ mult := by
  obtain ⟨a, b, e⟩ := fInitLinear_eq u ax ay d false hy h
  refine ⟨[if a < 0 then 0 else a, b], _, ?_, rfl, rfl, rfl, ?_⟩
  · change fInitLinearNondec u ⟨some ax, some ay, d⟩ mult = _
    simp only [fInitLinearNondec, e, Bind.bind, Except.bind, Ext.lt, decide_eq_true_eq]
    split <;> rfl
  · intro i hi _ _
    have : i = 0 ∨ i = 1 := by simp at hi; omega
    rcases this with rfl | rfl
    · simp only [List.getElem_cons_zero, Ext.le, decide_eq_true_eq]
      exact ⟨by split <;> [exact le_rfl; exact not_lt.1 ‹_›], trivial⟩
    · simp [Ext.le]

/-- **C36, decay.** Data accepted by the validation of the decay model, at least two samples. -/
theorem C36_decay (u : Nat → ℝ) (ax ay : List ℝ) (d : Option (List Timestamp)) (mult : Bool)
    (hv : modelDecay.validateInput ax ay d = .ok true) (hy : 2 ≤ ay.length) : Spec.Feasible modelDecay u ⟨some ax, some ay, d⟩ mult := by
  have hpos : ∀ y ∈ ay, 0 < y := by
    by_contra hc
    have : (ay.all fun y => decide (0 < y)) = false := by
      rw [Bool.eq_false_iff]
      intro h
      apply hc
      intro y hyy
      simpa using List.all_eq_true.1 h y hyy
    simp only [ForecastModel.validateInput, modelDecay, mkModel, runValidators, validateDecay, this, pyAssert, Bind.bind, Except.bind,
      Bool.false_eq_true, if_false] at hv
    cases hv
  match ay, hy, hpos with
  | y0 :: y1 :: ys, _, hpos =>
    obtain ⟨mn, hmn⟩ : ∃ m, listMin (y0 :: y1 :: ys) = some m := by
      cases h : listMin (y0 :: y1 :: ys) with
      | none => simp [listMin_none] at h
      | some m => exact ⟨m, rfl⟩
    obtain ⟨mx, hmx⟩ : ∃ m, listMax (y0 :: y1 :: ys) = some m := by
      cases h : listMax (y0 :: y1 :: ys) with
      | none => simp [listMax_none] at h
      | some m => exact ⟨m, rfl⟩
    have h1 := (listMin_some _ _).1 hmn
    have h2 := (listMax_some _ _).1 hmx
    have pmn : 0 < mn := hpos _ h1.1
    have pmx : 0 < mx := hpos _ h2.1
    have hq : 0 < mn / mx := div_pos pmn pmx
    have hq1 : mn / mx ≤ 1 := (div_le_one pmx).2 (h2.2 mn h1.1)
    have hb : Real.log (mn / mx) / (((y0 :: y1 :: ys).length : ℝ) - 1) ≤ 0 := by
      apply div_nonpos_of_nonpos_of_nonneg (Real.log_nonpos hq.le hq1)
      simp only [List.length_cons]; push_cast
      have : (0 : ℝ) ≤ ys.length := Nat.cast_nonneg _
      linarith
    refine ⟨[y0 - (y0 :: y1 :: ys).getLast (by simp), Real.log (mn / mx) / (((y0 :: y1 :: ys).length : ℝ) - 1),
      (y0 :: y1 :: ys).getLast (by simp)], _, ?_, rfl, rfl, rfl, ?_⟩
    · change fInitDecay u ⟨some ax, some (y0 :: y1 :: ys), d⟩ mult = _
      unfold fInitDecay
      simp only
      rw [hmn, hmx]
      simp only [if_neg pmx.ne', if_neg hq.ne', if_neg (not_lt.2 hq.le), if_neg (not_lt.2 hb), List.map_cons, List.map_nil]
      simp
    · intro i hi _ _
      have : i = 0 ∨ i = 1 ∨ i = 2 := by simp at hi; omega
      rcases this with rfl | rfl | rfl
      · simp [Ext.le]
      · simp only [List.getElem_cons_succ, List.getElem_cons_zero, Ext.le, decide_eq_true_eq]
        exact ⟨trivial, hb⟩
      · simp [Ext.le]

/-! ### Ramp -/

theorem argmaxFirst_lt (l : List K) (i : Nat) (h : argmaxFirst l = some i) : i < l.length := by
  induction l generalizing i with
  | nil => simp [argmaxFirst] at h
  | cons a l ih =>
    simp only [argmaxFirst] at h
    cases hc : argmaxFirst l with
    | none => rw [hc] at h; simp at h; subst h; simp
    | some j =>
      rw [hc] at h
      simp only at h
      have := ih j hc
      split at h <;> (simp at h; subst h; simp; try omega)

theorem argmaxFirst_none (l : List K) : argmaxFirst l = none ↔ l = [] := by
  cases l with
  | nil => simp [argmaxFirst]
  | cons a l =>
    simp only [argmaxFirst]
    cases argmaxFirst l with
    | none => simp
    | some j => simp only; split <;> simp

/-- The row picked by `argmaxKey` is one of the rows with a value. -/
theorem argmaxKey_mem (l : List (K × Option K)) (a b : K) (h : argmaxKey l = some (a, b)) : (a, some b) ∈ l := by
  unfold argmaxKey at h
  simp only at h
  split at h
  · simp at h
  · have := List.mem_of_getElem? h
    rw [List.mem_filterMap] at this
    obtain ⟨⟨k, v⟩, hm, he⟩ := this
    cases v with
    | none => simp at he
    | some w =>
      simp only [Option.map_some, Option.some.injEq, Prod.mk.injEq] at he
      rw [← he.1, ← he.2]; exact hm

theorem argmaxKey_some (l : List (K × Option K)) (h : ∃ e ∈ l, e.2.isSome) : ∃ a b, argmaxKey l = some (a, b) := by
  obtain ⟨⟨k, v⟩, hm, hs⟩ := h
  obtain ⟨w, rfl⟩ := Option.isSome_iff_exists.1 hs
  unfold argmaxKey
  simp only
  have hne : l.filterMap (fun e => e.2.map fun v => (e.1, v)) ≠ [] := by
    intro e
    have : (k, w) ∈ l.filterMap (fun e => e.2.map fun v => (e.1, v)) := List.mem_filterMap.2 ⟨_, hm, rfl⟩
    rw [e] at this; simp at this
  split
  · rename_i hc
    rw [argmaxFirst_none] at hc
    simp only [List.map_eq_nil_iff] at hc
    exact absurd hc hne
  · rename_i i hc
    have := argmaxFirst_lt _ _ hc
    simp only [List.length_map] at this
    exact ⟨_, _, List.getElem?_eq_getElem this⟩

theorem pairs_length {α : Type} (l : List α) : (pairs l).length = l.length - 1 := by
  induction l with
  | nil => rfl
  | cons a l ih =>
    cases l with
    | nil => rfl
    | cons b l => simp only [pairs, List.length_cons, ih]; simp

theorem diff2_length (l : List K) : (diff2 l).length = l.length := by
  unfold diff2
  simp only [List.length_append, List.length_replicate, List.length_map, pairs_length]
  omega

theorem diff2_isSome (l : List K) (i : Nat) (h2 : 2 ≤ i) (hi : i < l.length) : ∃ v, (diff2 l)[i]? = some (some v) := by
  unfold diff2
  simp only
  rw [List.getElem?_append_right (by simp; omega)]
  simp only [List.length_replicate, List.getElem?_map]
  have hlt : i - min 2 l.length < (pairs ((pairs l).map fun p => p.2 - p.1)).length := by
    simp only [List.length_map, pairs_length]; omega
  rw [List.getElem?_eq_getElem hlt]
  exact ⟨_, rfl⟩

theorem pyIndex_nonneg {α : Type} (l : List α) (i : Nat) (h : i < l.length) : pyIndex l (i : Int) = .ok l[i] := by
  unfold pyIndex
  have : ¬ ((i : Int) < 0) := by omega
  simp [this, List.getElem?_eq_getElem h]

theorem pyIndex_neg {α : Type} (l : List α) (i : Nat) (h0 : 0 < i) (h : i ≤ l.length) :
    pyIndex l (-(i : Int)) = .ok (l[l.length - i]'(by omega)) := by
  unfold pyIndex
  have h1 : (-(i : Int)) < 0 := by omega
  have h2 : ¬ (-(i : Int) + l.length < 0) := by omega
  have h3 : (-(i : Int) + l.length).toNat = l.length - i := by omega
  simp only [h1, if_true, h2, if_false, h3]
  rw [List.getElem?_eq_getElem (by omega)]

theorem dedup_zip_of_nodup (ax ay : List K) (hx : ax.Pairwise (· < ·)) (hl : ay.length = ax.length) : dedupBy Prod.fst (ax.zip ay) = ax.zip ay := by
  apply dedupBy_of_nodup
  have : ((ax.zip ay).map Prod.fst).Pairwise (· < ·) := by
    rw [List.map_fst_zip (by omega)]; exact hx
  rw [List.pairwise_map] at this
  exact this.imp fun h => h.ne

/-- **C36, ramp.** Strictly increasing x (one sample per x), at least four samples, as demanded by the fitting routine. -/
theorem C36_ramp_partial (u : Nat → K) (ax ay : List K) (d : Option (List Timestamp)) (mult : Bool) (hx : ax.Pairwise (· < ·))
    (hl : ay.length = ax.length) (h4 : modelRamp.nParams (K := K) + 2 ≤ ax.length) : Spec.Feasible modelRamp u ⟨some ax, some ay, d⟩ mult := by
  have h4 : 4 ≤ ax.length := h4
  have hskip : 1 ≤ ceil15 ax.length ∧ 2 * ceil15 ax.length < ax.length ∧ ceil15 ax.length + 3 ≤ ax.length := by
    unfold ceil15; omega
  obtain ⟨hs1, hs2, hs3⟩ := hskip
  have hkey := dedup_zip_of_nodup ax ay hx hl
  have hf : (ax.zip ay).map (·.1) = ax := List.map_fst_zip (by omega)
  have hsn : (ax.zip ay).map (·.2) = ay := List.map_snd_zip (by omega)
  have hrl : (ax.zip (diff2 ay)).length = ax.length := by simp [diff2_length, hl]
  set rows := ax.zip (diff2 ay) with hrows
  set s := ceil15 ax.length with hs
  -- the picked row
  have hex : ∃ e ∈ (rows.take (rows.length - s)).drop s, e.2.isSome := by
    obtain ⟨v, hv⟩ := diff2_isSome ay (max s 2) (by omega) (by omega)
    have hidx : max s 2 < rows.length := by omega
    have : rows[max s 2]'hidx ∈ (rows.take (rows.length - s)).drop s := by
      rw [List.mem_iff_getElem]
      refine ⟨max s 2 - s, by simp; omega, ?_⟩
      rw [List.getElem_drop, List.getElem_take]
      congr 1; omega
    refine ⟨_, this, ?_⟩
    have h5 : (diff2 ay)[max s 2]'(by rw [diff2_length]; omega) = some v := by
      have := List.getElem?_eq_some_iff.1 hv
      exact this.2
    simp only [hrows, List.getElem_zip, h5]
    rfl
  obtain ⟨a, b, hab⟩ := argmaxKey_some _ hex
  have hmem := argmaxKey_mem _ _ _ hab
  obtain ⟨j, hj, hje⟩ := List.mem_iff_getElem.1 hmem
  simp only [List.length_drop, List.length_take] at hj
  rw [List.getElem_drop, List.getElem_take] at hje
  have hjl : s + j < ax.length := by omega
  have ha : ax[s + j]'hjl = a := by
    have := congrArg Prod.fst hje
    simpa [hrows] using this
  have hmono : ∀ i k (hi : i < ax.length) (hk : k < ax.length), i ≤ k → ax[i] ≤ ax[k] := by
    intro i k hi hk hik
    rcases Nat.lt_or_ge i k with h | h
    · exact (List.pairwise_iff_getElem.1 hx i k hi hk h).le
    · have : i = k := by omega
      subst this; exact le_rfl
  refine ⟨[a, b], ⟨[.fin (ax[s]'(by omega)), .ninf], [.fin (ax[ax.length - s]'(by omega)), .pinf], false⟩, ?_, ?_, rfl, rfl, ?_⟩
  · change fInitRamp u ⟨some ax, some ay, d⟩ mult = _
    unfold fInitRamp
    simp only [hkey, hf, hsn]
    rw [← hrows, hrl] 
    rw [hrl] at hab
    rw [← hs, hab]
    rfl
  · change fBoundsRamp ⟨some ax, some ay, d⟩ = _
    unfold fBoundsRamp
    simp only
    rw [← hs, pyIndex_nonneg ax s (by omega), pyIndex_neg ax s (by omega) (by omega)]
    rfl
  · intro i hi _ _
    have : i = 0 ∨ i = 1 := by simp at hi; omega
    rcases this with rfl | rfl
    · simp only [List.getElem_cons_zero, Ext.le, decide_eq_true_eq]
      rw [← ha]
      exact ⟨hmono _ _ _ _ (by omega), hmono _ _ _ _ (by omega)⟩
    · simp [Ext.le]

/-! ### Composites and other models -/

theorem within_append (q q' : List K) (b b' : Bounds K) (h : ParamsWithin q b) (h' : ParamsWithin q' b') :
    ParamsWithin (q ++ q') ⟨b.lo ++ b'.lo, b.hi ++ b'.hi, true⟩ := by
  obtain ⟨h1, h2, h3⟩ := h
  obtain ⟨h1', h2', h3'⟩ := h'
  refine ⟨by simp [h1, h1'], by simp [h2, h2'], ?_⟩
  intro i hi hlo hhi
  simp only [List.length_append] at hi hlo hhi
  by_cases hc : i < q.length
  · have := h3 i hc (by omega) (by omega)
    rw [List.getElem_append_left hc, List.getElem_append_left (h1 ▸ hc), List.getElem_append_left (h2 ▸ hc)]
    exact this
  · have := h3' (i - q.length) (by omega) (by omega) (by omega)
    rw [List.getElem_append_right (by omega), List.getElem_append_right (by omega), List.getElem_append_right (by omega)]
    simp only [← h1, ← h2]
    exact this

/-- **C36, composites.** Sums and products of models with feasible guesses have feasible guesses. -/
theorem C36_compose (op : Bool) (m1 m2 : ForecastModel K) (u : Nat → K) (args : InitArgs K) (mult : Bool) (hn1 : m1.name ≠ "null")
    (hn2 : m2.name ≠ "null") (h1 : Spec.Feasible m1 (fun i => u (2 * i)) args op)
    (h2 : Spec.Feasible m2 (fun i => u (2 * i + 1)) args op) :
    Spec.Feasible (compose op m1 m2) u args mult := by
  obtain ⟨q1, b1, e1, f1, w1⟩ := h1
  obtain ⟨q2, b2, e2, f2, w2⟩ := h2
  refine ⟨q1 ++ q2, ⟨b1.lo ++ b2.lo, b1.hi ++ b2.hi, true⟩, ?_, ?_, within_append _ _ _ _ w1 w2⟩
  · simp only [compose, if_neg hn1, if_neg hn2, fInit2, e1, e2, Bind.bind, Except.bind, List.map_append]
  · simp only [compose, if_neg hn1, if_neg hn2, fConcatBounds, f1, f2, Bind.bind, Except.bind]

/-- **C36, default initialisation** (weekday seasonality, dummies, calendars with default settings …). -/
theorem C36_default (name : String) (n : Nat) (f) (v cv dc) (u : Nat → K) (args : InitArgs K) (mult : Bool) :
    Spec.Feasible (mkModel name n f (validators := v) (cacheVars := cv) (dictFCache := dc)) u args mult := by
  refine feasible_of_unbounded _ _ _ _ n ((List.range n).map fun i => uniform (1/1000) 1 (u i)) rfl ?_ (by simp)
  simp [mkModel, fInitDefault, Function.comp_def]

/-- **C36, default piecewise trend.** The automatic candidate `linear + ramp` always starts from a feasible guess. -/
theorem C36_linear_ramp [IsStrictOrderedRing K] (op : Bool) (u : Nat → K) (ax ay : List K) (d : Option (List Timestamp)) (mult : Bool)
    (hx : ax.Pairwise (· < ·)) (hl : ay.length = ax.length) (h4 : 4 ≤ ax.length) :
    Spec.Feasible (compose op modelLinear modelRamp) u ⟨some ax, some ay, d⟩ mult := by
  have hy : ay ≠ [] := by intro e; subst e; simp at hl; omega
  have ht : Spec.TwoDistinct ax := by
    have := List.pairwise_iff_getElem.1 hx 0 1 (by omega) (by omega) (by omega)
    exact ⟨_, List.getElem_mem (by omega), _, List.getElem_mem (by omega), this.ne⟩
  exact C36_compose op _ _ u _ mult (show "linear" ≠ "null" by decide) (show "ramp" ≠ "null" by decide) (C36_linear_partial _ ax ay d op hy ht) (C36_ramp_partial _ ax ay d op hx hl h4)

/-! ### Violations -/

/-- **C36, violated.** Linear trend when all samples share one x and the first and last value agree: the guess is NaN and the
assertion fails. -/
theorem C36_counterexample_linear : ∃ (ax ay : List ℚ) (u : Nat → ℚ) (g : List (Ext ℚ)) (b : Bounds ℚ),
    modelLinear.fInit u ⟨some ax, some ay, none⟩ false = .ok g ∧ modelLinear.fBounds ⟨some ax, some ay, none⟩ = .ok b ∧
    4 ≤ ax.length ∧ validateInitialGuess g b = false :=
  ⟨[0, 0, 0, 0], [1, 2, 3, 1], fun _ => 0, [.nan, .fin 1], ⟨[.ninf, .ninf], [.pinf, .pinf], false⟩, by decide +kernel, by rfl, by decide, by decide +kernel⟩

/-- **C36, violated.** Ramp with repeated x: the guess is searched among the distinct x, the bounds among all samples. -/
theorem C36_counterexample_ramp : ∃ (ax ay : List ℚ) (u : Nat → ℚ) (g : List (Ext ℚ)) (b : Bounds ℚ),
    modelRamp.fInit u ⟨some ax, some ay, none⟩ false = .ok g ∧ modelRamp.fBounds ⟨some ax, some ay, none⟩ = .ok b ∧
    ax.Pairwise (· ≤ ·) ∧ validateInitialGuess g b = false :=
  ⟨[0, 1, 2, 3, 3, 3, 3, 3, 3, 3, 3, 3, 3, 3, 3, 3, 3, 3, 3, 3], [0, 1, 5, 3, 3, 3, 3, 3, 3, 3, 3, 3, 3, 3, 3, 3, 3, 3, 3, 3],
    fun _ => 0, [.fin 2, .fin 3], ⟨[.fin 3, .ninf], [.fin 3, .pinf], false⟩, by decide +kernel, by rfl, by decide +kernel, by decide +kernel⟩

/-- **C36, violated.** Sigmoid step on a series around 10: the guessed level 11 is outside of twice the range of the data. -/
theorem C36_counterexample_sigmoid_step : ∃ (ax ay : List ℚ) (u : Nat → ℚ) (g : List (Ext ℚ)) (b : Bounds ℚ),
    fInitSigmoidStep u ⟨some ax, some ay, none⟩ false = .ok g ∧ fBoundsSigmoidStep ⟨some ax, some ay, none⟩ = .ok b ∧
    ax.Pairwise (· < ·) ∧ validateInitialGuess g b = false :=
  ⟨[0, 1, 2, 3, 4], [10, 10, 11, 11, 11], fun _ => 0, [.fin 11, .fin 2, .fin 121], ⟨[.fin (-2), .fin 0, .fin 0], [.fin 2, .fin 4, .pinf], false⟩,
    by decide +kernel, by decide +kernel, by decide +kernel, by decide +kernel⟩

/-! ### Examples -/

example : Spec.TwoDistinct ([0, 0, 1] : List ℚ) := ⟨0, by simp, 1, by simp, by norm_num⟩
example : (modelRamp : ForecastModel ℚ).fInit (fun _ => 0) ⟨some [0, 1, 2, 3, 4], some [0, 0, 0, 2, 4], none⟩ false = .ok [.fin 3, .fin 2] := by
  decide +kernel

end Anticipy
