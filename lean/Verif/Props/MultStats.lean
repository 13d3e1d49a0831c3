import Verif.Model.MultStats
import Verif.Spec.MultStats
import Verif.Spec.Candidates
import Verif.Props.Fit
import Verif.Props.InitialGuess
import Verif.Lemmas.Grid
import Verif.Lemmas.ListOps
import Mathlib.Tactic.LinearCombination
import Mathlib.Tactic.Linarith
import Mathlib.Tactic.Ring
import Mathlib.Tactic.FieldSimp
import Mathlib.Tactic.Positivity

/-
C64 (statistics of the multiplicative test), C65 (influence of ignored samples on it).
-/
namespace Anticipy
open Spec

/-! ### Helper lemmas: sums, variances, correlation -/

theorem filterMap_id_map (f : ℝ → ℝ) (l : List (Option ℝ)) : (l.map (Option.map f)).filterMap id = (l.filterMap id).map f := by
  induction l with
  | nil => rfl
  | cons a l ih => cases a <;> simp_all [List.filterMap_map, Function.comp_def]

theorem sum_affine (c e : ℝ) (l : List ℝ) : (l.map fun v => c * v + e).sum = c * l.sum + (l.length : ℝ) * e := by
  induction l with
  | nil => simp
  | cons a l ih => simp only [List.map_cons, List.sum_cons, ih, List.length_cons]; push_cast; ring

theorem sum_scale (c : ℝ) {α : Type} (f : α → ℝ) (l : List α) : (l.map fun v => c * f v).sum = c * (l.map f).sum := by
  induction l with
  | nil => simp
  | cons a l ih => simp only [List.map_cons, List.sum_cons, ih]; ring

theorem colMean_scale (c : ℝ) (l : List (Option ℝ)) : colMean (l.map (Option.map fun v => c * v)) = (colMean l).map fun v => c * v := by
  unfold colMean
  simp only [filterMap_id_map, List.map_eq_nil_iff, List.length_map]
  split
  · rfl
  · have := sum_affine c 0 (l.filterMap id)
    simp only [add_zero, mul_zero] at this
    rw [this, Option.map_some, mul_div_assoc]

theorem colVar_affine (c e : ℝ) (l : List (Option ℝ)) :
    colVar (l.map (Option.map fun v => c * v + e)) = (colVar l).map fun v => c * c * v := by
  unfold colVar
  simp only [filterMap_id_map, List.length_map]
  split
  · rfl
  · rename_i h
    generalize l.filterMap id = v at *
    have hn : (v.length : ℝ) ≠ 0 := by
      intro h0; have : v.length = 0 := by exact_mod_cast h0
      omega
    rw [Option.map_some, sum_affine, List.map_map, ← mul_div_assoc, ← sum_scale]
    congr 3
    apply List.map_congr_left
    intro u _
    simp only [Function.comp]
    rw [add_div, mul_div_cancel_left₀ _ hn, mul_div_assoc]
    ring

theorem monthStats_congr {ρ : Type} (rows : List ρ) (g g' : ρ → Row ℝ × Option ℝ)
    (hdate : ∀ q, monthOfTs (g' q).1.date = monthOfTs (g q).1.date) (μ ν : Option ℝ → Option ℝ)
    (hm : ∀ part : List ρ, colMean (part.map fun q => (g' q).1.y) = μ (colMean (part.map fun q => (g q).1.y)))
    (hv : ∀ part : List ρ, colVar (part.map fun q => resOf (g' q)) = ν (colVar (part.map fun q => resOf (g q)))) :
    monthStats (rows.map g') = (monthStats (rows.map g)).map fun p => (μ p.1, ν p.2) := by
  unfold monthStats
  simp only [List.map_map, Function.comp_def, hdate, List.filter_map]
  cases listMin (rows.map fun q => monthOfTs (g q).1.date) with
  | none => rfl
  | some a =>
  cases listMax (rows.map fun q => monthOfTs (g q).1.date) with
  | none => rfl
  | some b =>
    simp only [List.map_map, Function.comp_def, hm, hv]

theorem completePairs_map (f g : ℝ → ℝ) (l : List (Option ℝ × Option ℝ)) :
    completePairs (l.map fun p => (p.1.map f, p.2.map g)) = (completePairs l).map fun p => (f p.1, g p.2) := by
  unfold completePairs
  induction l with
  | nil => rfl
  | cons p l ih =>
    obtain ⟨a, b⟩ := p
    cases a <;> cases b <;> simp_all

theorem pearson_scale (c e : ℝ) (hc : 0 < c) (he : 0 < e) (l : List (ℝ × ℝ)) :
    pearson (l.map fun p => (c * p.1, e * p.2)) = pearson l := by
  unfold pearson
  simp only [List.map_map, Function.comp_def, List.length_map]
  have h1 : (l.map fun p : ℝ × ℝ => c * p.1).sum = c * (l.map Prod.fst).sum := sum_scale c Prod.fst l
  have h2 : (l.map fun p : ℝ × ℝ => e * p.2).sum = e * (l.map Prod.snd).sum := sum_scale e Prod.snd l
  rw [h1, h2]
  generalize (l.map Prod.fst).sum = s
  generalize (l.map Prod.snd).sum = t
  generalize (l.length : ℝ) = n
  have e1 : (l.map fun p : ℝ × ℝ => (c * p.1 - c * s / n) * (c * p.1 - c * s / n)).sum =
      c * c * (l.map fun p : ℝ × ℝ => (p.1 - s / n) * (p.1 - s / n)).sum := by
    rw [← sum_scale]; congr 1; apply List.map_congr_left; intro p _; rw [mul_div_assoc]; ring
  have e2 : (l.map fun p : ℝ × ℝ => (e * p.2 - e * t / n) * (e * p.2 - e * t / n)).sum =
      e * e * (l.map fun p : ℝ × ℝ => (p.2 - t / n) * (p.2 - t / n)).sum := by
    rw [← sum_scale]; congr 1; apply List.map_congr_left; intro p _; rw [mul_div_assoc]; ring
  have e3 : (l.map fun p : ℝ × ℝ => (c * p.1 - c * s / n) * (e * p.2 - e * t / n)).sum =
      c * e * (l.map fun p : ℝ × ℝ => (p.1 - s / n) * (p.2 - t / n)).sum := by
    rw [← sum_scale]; congr 1; apply List.map_congr_left; intro p _; rw [mul_div_assoc, mul_div_assoc]; ring
  rw [e1, e2, e3]
  generalize (l.map fun p : ℝ × ℝ => (p.1 - s / n) * (p.1 - s / n)).sum = X
  generalize (l.map fun p : ℝ × ℝ => (p.2 - t / n) * (p.2 - t / n)).sum = Y
  generalize (l.map fun p : ℝ × ℝ => (p.1 - s / n) * (p.2 - t / n)).sum = Z
  have hce : 0 < c * e := mul_pos hc he
  have h3 : Real.sqrt (c * c * X * (e * e * Y)) = c * e * Real.sqrt (X * Y) := by
    rw [show c * c * X * (e * e * Y) = (c * e) * (c * e) * (X * Y) by ring,
      Real.sqrt_mul (mul_self_nonneg _), Real.sqrt_mul_self hce.le]
  rw [h3]
  have h4 : (c * e * Real.sqrt (X * Y) = 0) = (Real.sqrt (X * Y) = 0) := by
    rw [mul_eq_zero]; simp [hce.ne']
  simp only [h4]
  split
  · rfl
  · rw [mul_div_mul_left _ _ hce.ne']

theorem sum_nonneg_zero {α : Type} (l : List α) (f : α → ℝ) (hf : ∀ a ∈ l, 0 ≤ f a) (h : (l.map f).sum ≤ 0) : ∀ a ∈ l, f a = 0 := by
  induction l with
  | nil => simp
  | cons b l ih =>
    have h1 : 0 ≤ (l.map f).sum := List.sum_nonneg fun x hx => by
      obtain ⟨a, ha, rfl⟩ := List.mem_map.1 hx
      exact hf a (List.mem_cons_of_mem _ ha)
    have h2 := hf b List.mem_cons_self
    simp only [List.map_cons, List.sum_cons] at h
    intro a ha
    rcases List.mem_cons.1 ha with rfl | ha
    · linarith
    · exact ih (fun a ha => hf a (List.mem_cons_of_mem _ ha)) (by linarith) a ha

theorem pearson_line (k m : ℝ) (hk : 0 < k) (l : List (ℝ × ℝ)) (h : ∀ p ∈ l, p.2 = k * p.1 + m)
    (h2 : ∃ p ∈ l, ∃ q ∈ l, p.1 ≠ q.1) : pearson l = some 1 := by
  unfold pearson
  dsimp only
  have hn : (l.length : ℝ) ≠ 0 := by
    obtain ⟨p, hp, _⟩ := h2
    have := List.length_pos_of_mem hp
    positivity
  have hy : (l.map Prod.snd).sum = k * (l.map Prod.fst).sum + (l.length : ℝ) * m := by
    rw [show l.map Prod.snd = (l.map Prod.fst).map fun v => k * v + m by
      rw [List.map_map]; exact List.map_congr_left fun p hp => h p hp, sum_affine, List.length_map]
  generalize (l.map Prod.fst).sum = s at *
  rw [hy]
  have hmy : (k * s + (l.length : ℝ) * m) / (l.length : ℝ) = k * (s / (l.length : ℝ)) + m := by
    rw [add_div, mul_div_cancel_left₀ _ hn, mul_div_assoc]
  rw [hmy]
  generalize s / (l.length : ℝ) = μ
  have e2 : (l.map fun p : ℝ × ℝ => (p.2 - (k * μ + m)) * (p.2 - (k * μ + m))).sum =
      k * k * (l.map fun p : ℝ × ℝ => (p.1 - μ) * (p.1 - μ)).sum := by
    rw [← sum_scale]; congr 1; apply List.map_congr_left; intro p hp; rw [h p hp]; ring
  have e3 : (l.map fun p : ℝ × ℝ => (p.1 - μ) * (p.2 - (k * μ + m))).sum =
      k * (l.map fun p : ℝ × ℝ => (p.1 - μ) * (p.1 - μ)).sum := by
    rw [← sum_scale]; congr 1; apply List.map_congr_left; intro p hp; rw [h p hp]; ring
  rw [e2, e3]
  have hpos : 0 < (l.map fun p : ℝ × ℝ => (p.1 - μ) * (p.1 - μ)).sum := by
    by_contra hc
    have hz := sum_nonneg_zero l (fun p : ℝ × ℝ => (p.1 - μ) * (p.1 - μ)) (fun p _ => mul_self_nonneg _) (not_lt.1 hc)
    obtain ⟨p, hp, q, hq, hpq⟩ := h2
    have h3 := mul_self_eq_zero.1 (hz p hp)
    have h4 := mul_self_eq_zero.1 (hz q hq)
    exact hpq (by linarith)
  generalize (l.map fun p : ℝ × ℝ => (p.1 - μ) * (p.1 - μ)).sum = X at *
  have h3 : Real.sqrt (X * (k * k * X)) = k * X := by
    rw [show X * (k * k * X) = (k * X) * (k * X) by ring, Real.sqrt_mul_self (by positivity)]
  rw [h3, if_neg (by positivity), div_self (by positivity)]

theorem pearson_const (l : List (ℝ × ℝ)) (h : ∀ p ∈ l, p.2 = 0) : pearson l = none := by
  unfold pearson
  dsimp only
  have hy : (l.map Prod.snd).sum = 0 := by
    rw [show l.map Prod.snd = l.map fun _ => (0 : ℝ) from List.map_congr_left h]
    simp
  rw [hy]
  have e2 : (l.map fun p : ℝ × ℝ => (p.2 - 0 / (l.length : ℝ)) * (p.2 - 0 / (l.length : ℝ))).sum = 0 := by
    rw [show (l.map fun p : ℝ × ℝ => (p.2 - 0 / (l.length : ℝ)) * (p.2 - 0 / (l.length : ℝ))) = l.map fun _ => (0 : ℝ) from
      List.map_congr_left fun p hp => by rw [h p hp]; simp]
    simp
  rw [e2, mul_zero, Real.sqrt_zero, if_pos rfl]

/-! ### Helper lemmas: least squares lines -/

theorem lineError_nonneg (obs : List (ℝ × ℝ × ℝ)) (a b : ℝ) : 0 ≤ lineError obs a b :=
  List.sum_nonneg fun x hx => by
    obtain ⟨o, _, rfl⟩ := List.mem_map.1 hx
    positivity

theorem lineError_mid (obs : List (ℝ × ℝ × ℝ)) (a b a' b' : ℝ) :
    (obs.map fun o => (o.2.2 * ((a - a') * o.1 + (b - b'))) ^ 2).sum =
      2 * lineError obs a b + 2 * lineError obs a' b' - 4 * lineError obs ((a + a') / 2) ((b + b') / 2) := by
  unfold lineError
  induction obs with
  | nil => simp
  | cons o obs ih => simp only [List.map_cons, List.sum_cons, ih]; ring

theorem leastSquares_unique (obs : List (ℝ × ℝ × ℝ)) (a b a' b' : ℝ) (h : LeastSquares obs a b) (h' : LeastSquares obs a' b')
    (hx : ∃ o ∈ obs, ∃ p ∈ obs, o.1 ≠ p.1 ∧ o.2.2 ≠ 0 ∧ p.2.2 ≠ 0) : a = a' ∧ b = b' := by
  have hmid := lineError_mid obs a b a' b'
  have h1 := h ((a + a') / 2) ((b + b') / 2)
  have h2 := h' ((a + a') / 2) ((b + b') / 2)
  have hz := sum_nonneg_zero obs (fun o : ℝ × ℝ × ℝ => (o.2.2 * ((a - a') * o.1 + (b - b'))) ^ 2) (fun o _ => by positivity) (by linarith)
  obtain ⟨o, ho, p, hp, hxx, hw1, hw2⟩ := hx
  have e1 : (a - a') * o.1 + (b - b') = 0 := by
    have := pow_eq_zero_iff (two_ne_zero) |>.1 (hz o ho)
    exact (mul_eq_zero.1 this).resolve_left hw1
  have e2 : (a - a') * p.1 + (b - b') = 0 := by
    have := pow_eq_zero_iff (two_ne_zero) |>.1 (hz p hp)
    exact (mul_eq_zero.1 this).resolve_left hw2
  have e3 : (a - a') * (o.1 - p.1) = 0 := by linear_combination e1 - e2
  have e4 : a - a' = 0 := (mul_eq_zero.1 e3).resolve_right (sub_ne_zero.2 hxx)
  refine ⟨by linarith, ?_⟩
  rw [e4] at e1
  linarith

/-! ### Helper lemmas: the model -/

theorem sxNum_zero (a b : Int) : ((sxExtrapolateNum a (b + 1) 0 0).map fun p => ((p.2 : Int) : ℝ)) =
    (List.range (b + 1 - a).toNat).map fun i : Nat => (i : ℝ) := by
  have h1 : (arange a (((b + 1 : Int) : ℚ) + 100 * 0)) = (List.range (b + 1 - a).toNat).map fun i : Nat => a + (i : Int) := by
    unfold arange
    rw [show (((b + 1 : Int) : ℚ) + 100 * 0 - (a : ℚ)) = ((b + 1 - a : Int) : ℚ) by push_cast; ring, Int.ceil_intCast]
  unfold sxExtrapolateNum
  dsimp only
  rw [h1]
  have h2 : (arange 0 (((0 : Int) : ℚ) + ((((List.range (b + 1 - a).toNat).map fun i : Nat => a + (i : Int)).length : Nat) : ℚ))) =
      (List.range (b + 1 - a).toNat).map fun i : Nat => (i : Int) := by
    unfold arange
    rw [List.length_map, List.length_range]
    rw [show (((0 : Int) : ℚ) + (((b + 1 - a).toNat : Nat) : ℚ) - ((0 : Int) : ℚ)) = ((((b + 1 - a).toNat : Nat) : Int) : ℚ) by push_cast; ring,
      Int.ceil_intCast, Int.toNat_natCast]
    simp
  rw [h2]
  apply List.ext_getElem?
  intro i
  simp only [List.getElem?_map, List.getElem?_zip_eq_some, List.map_map]
  by_cases hi : i < (b + 1 - a).toNat
  · rw [List.getElem?_eq_getElem (by simpa using hi)]
    simp [hi]
  · rw [List.getElem?_eq_none (by simpa using hi), List.getElem?_eq_none (by simpa using hi)]
    rfl

theorem fitLinear_line (env : Env ℝ) (df : Frame ℝ) (r : FitResult ℝ) (a b : ℝ) (h4 : 4 ≤ df.rows.length)
    (hr : fitModel env modelLinear df none true = .ok r) (hp : r.params = [a, b]) :
    ∃ d, fitLinear env df = .ok (df.rows.map fun q => (q, some (a * (q.x : ℝ) + d))) := by
  unfold fitLinear
  simp only [pyAssert, h4, decide_true, if_true, Bind.bind, Except.bind, hr]
  cases hmin : listMin (df.rows.map Row.x) with
  | none => rw [listMin_none, List.map_eq_nil_iff] at hmin; rw [hmin] at h4; simp at h4
  | some lo =>
  cases hmax : listMax (df.rows.map Row.x) with
  | none => rw [listMax_none, List.map_eq_nil_iff] at hmax; rw [hmax] at h4; simp at h4
  | some hi =>
  refine ⟨b - a * (lo : ℝ), ?_⟩
  simp only [sxNum_zero, modelLinear, mkModel, fModelLinear, hp, unpack2, Bind.bind, Except.bind, vecOf, Except.ok.injEq]
  apply List.map_congr_left
  intro q hq
  have h1 := ((listMin_some _ _).1 hmin).2 _ (List.mem_map.2 ⟨q, hq, rfl⟩)
  have h2 := ((listMax_some _ _).1 hmax).2 _ (List.mem_map.2 ⟨q, hq, rfl⟩)
  have h3 : (q.x - lo).toNat < (hi + 1 - lo).toNat := by omega
  congr 1
  simp only [List.getElem?_map, List.getElem?_range h3, Option.map_some, Option.getD_some, Option.some.injEq]
  have h5 : (((q.x - lo).toNat : Nat) : ℝ) = (q.x : ℝ) - (lo : ℝ) := by
    have : (((q.x - lo).toNat : Nat) : Int) = q.x - lo := by omega
    exact_mod_cast congrArg (fun z : Int => (z : ℝ)) this
  rw [h5]; ring

theorem deviation_nonneg (l : List ℝ) : 0 ≤ deviation l :=
  List.sum_nonneg fun x hx => by
    obtain ⟨o, _, rfl⟩ := List.mem_map.1 hx
    positivity

theorem pearson_eq (l : List (ℝ × ℝ)) : pearson l = correlation l := by
  have hx : (l.map fun p : ℝ × ℝ => (p.1 - (l.map Prod.fst).sum / (l.length : ℝ)) * (p.1 - (l.map Prod.fst).sum / (l.length : ℝ))).sum =
      deviation (l.map Prod.fst) := by
    simp only [deviation, avg, List.map_map, List.length_map, Function.comp_def, pow_two]
  have hy : (l.map fun p : ℝ × ℝ => (p.2 - (l.map Prod.snd).sum / (l.length : ℝ)) * (p.2 - (l.map Prod.snd).sum / (l.length : ℝ))).sum =
      deviation (l.map Prod.snd) := by
    simp only [deviation, avg, List.map_map, List.length_map, Function.comp_def, pow_two]
  have hxy : (l.map fun p : ℝ × ℝ => (p.1 - (l.map Prod.fst).sum / (l.length : ℝ)) * (p.2 - (l.map Prod.snd).sum / (l.length : ℝ))).sum =
      codeviation l := by
    simp only [codeviation, avg, List.length_map]
  unfold pearson correlation
  dsimp only
  rw [hx, hy, hxy, Real.sqrt_mul (deviation_nonneg _)]
  have : (Real.sqrt (deviation (l.map Prod.fst)) * Real.sqrt (deviation (l.map Prod.snd)) = 0) =
      (deviation (l.map Prod.fst) = 0 ∨ deviation (l.map Prod.snd) = 0) := by
    rw [mul_eq_zero, Real.sqrt_eq_zero (deviation_nonneg _), Real.sqrt_eq_zero (deviation_nonneg _)]
  simp only [this]

theorem month_iff (t : Timestamp) (k : Int) : monthOfTs t = k ↔ (civilOfDay (t / dayNs)).1 = k / 12 ∧ (civilOfDay (t / dayNs)).2.1 = k % 12 + 1 := by
  have h := monthIdx_civil (dayOf t)
  have hd : t / dayNs = dayOf t := rfl
  unfold monthOfTs
  rw [hd]
  simp only [civilOfDay]
  omega

theorem colMean_avg (l : List (Option ℝ)) (v : List ℝ) (h : l.filterMap id = v) (hv : v ≠ []) : colMean l = some (avg v) := by
  subst h
  unfold colMean
  dsimp only
  rw [if_neg hv]
  rfl

theorem colVar_sampleVar (l : List (Option ℝ)) (v : List ℝ) (h : l.filterMap id = v) : colVar l = if v.length < 2 then none else some (sampleVar v) := by
  subst h
  unfold colVar
  simp only [sampleVar, avg, pow_two]

theorem filterMap_filter {α β : Type} (p : α → Bool) (f : α → Option β) (l : List α) :
    (l.filter p).filterMap f = l.filterMap fun a => if p a then f a else none := by
  induction l with
  | nil => rfl
  | cons a l ih =>
    rw [List.filter_cons]
    split <;> simp_all [List.filterMap_cons]

/-- The pair of statistics of month `k`. -/
theorem month_pair (df : Frame ℝ) (a b d : ℝ) (k : Int) :
    (colMean ((df.rows.filter fun q => decide (monthOfTs q.date = k)).map fun q => q.y)).bind (fun u =>
      (colVar ((df.rows.filter fun q => decide (monthOfTs q.date = k)).map fun q => resOf (q, some (a * (q.x : ℝ) + d)))).map fun v => (u, v)) =
    if 2 ≤ (inMonth civilOfDay df (k / 12) (k % 12 + 1)).length then some (monthPoint civilOfDay df a b (k / 12, k % 12 + 1)) else none := by
  have hin : ∀ {β : Type} (f : Int → ℝ → β), ((df.rows.filter fun q => decide (monthOfTs q.date = k)).map fun q => q.y.map fun v => f q.x v).filterMap id =
      (inMonth civilOfDay df (k / 12) (k % 12 + 1)).map fun o => f o.1 o.2 := by
    intro β f
    rw [List.filterMap_map, filterMap_filter]
    unfold inMonth
    rw [List.map_filterMap]
    apply List.filterMap_congr
    intro q _
    simp only [decide_eq_true_eq, month_iff, Function.comp_def, id_eq]
    split
    · cases q.y <;> rfl
    · rfl
  have hy := hin (fun _ v => v)
  simp only [Option.map_id'] at hy
  have hr := hin (fun x v => v - (a * (x : ℝ) + b))
  have hres : ((df.rows.filter fun q => decide (monthOfTs q.date = k)).map fun q => resOf (q, some (a * (q.x : ℝ) + d))) =
      (((df.rows.filter fun q => decide (monthOfTs q.date = k)).map fun q => q.y.map fun v => v - (a * (q.x : ℝ) + b)).map
        (Option.map fun v => (-1) * v + (d - b))) := by
    rw [List.map_map]
    apply List.map_congr_left
    intro q _
    simp only [resOf, Function.comp_def]
    cases q.y with
    | none => rfl
    | some v => simp only [lift2, Option.map_some, Option.some.injEq]; ring
  rw [hres, colVar_affine, colVar_sampleVar _ _ hr, List.length_map]
  by_cases h2 : 2 ≤ (inMonth civilOfDay df (k / 12) (k % 12 + 1)).length
  · rw [if_neg (by omega), if_pos h2, colMean_avg _ _ hy (by intro e; rw [List.map_eq_nil_iff] at e; simp [e] at h2)]
    simp [monthPoint]
  · rw [if_pos (by omega), if_neg h2]
    simp

theorem filterMap_ite {α β : Type} (p : α → Prop) [DecidablePred p] (f : α → β) (l : List α) :
    (l.filterMap fun a => if p a then some (f a) else none) = (l.filter fun a => decide (p a)).map f := by
  induction l with
  | nil => rfl
  | cons a l ih => by_cases h : p a <;> simp [h, ih]

/-! ### C64 -/

/-- **C64.** The figure behind the automatic choice is the correlation, over all calendar months with at least two values, between the average value of the
month and the variance of the distances to the fitted line in this month. -/
theorem C64_statistic (civil : Int → Int × Int × Int) (hc : IsCalendar civil) (env : Env ℝ) (df : Frame ℝ) (r : FitResult ℝ) (a b : ℝ)
    (h4 : 4 ≤ df.rows.length) (hr : fitModel env modelLinear df none true = .ok r) (hp : r.params = [a, b]) :
    ∃ L : List (Int × Int), L.Nodup ∧ (∀ y m, (y, m) ∈ L ↔ 2 ≤ (inMonth civil df y m).length) ∧
      multCorr env df = .ok (correlation (L.map (monthPoint civil df a b))) := by
  rw [isCalendar_unique civil hc]
  obtain ⟨d, hl⟩ := fitLinear_line env df r a b h4 hr hp
  unfold multCorr
  simp only [hl, Bind.bind, Except.bind, pearson_eq, Except.ok.injEq]
  unfold monthStats
  simp only [List.map_map, Function.comp_def, List.filter_map]
  cases hmin : listMin (df.rows.map fun q => monthOfTs q.date) with
  | none => rw [listMin_none, List.map_eq_nil_iff] at hmin; rw [hmin] at h4; simp at h4
  | some lo =>
  cases hmax : listMax (df.rows.map fun q => monthOfTs q.date) with
  | none => rw [listMax_none, List.map_eq_nil_iff] at hmax; rw [hmax] at h4; simp at h4
  | some hi =>
  refine ⟨(((List.range (hi + 1 - lo).toNat).map fun i : Nat => lo + (i : Int)).filter fun k =>
    decide (2 ≤ (inMonth civilOfDay df (k / 12) (k % 12 + 1)).length)).map fun k => (k / 12, k % 12 + 1), ?_, ?_, ?_⟩
  · apply List.Nodup.map (fun k k' h => by simp only [Prod.mk.injEq] at h; omega)
    apply List.Nodup.filter
    exact List.Nodup.map (fun i j h => by omega) List.nodup_range
  · intro y m
    simp only [List.mem_map, List.mem_filter, List.mem_range, decide_eq_true_eq, Prod.mk.injEq]
    constructor
    · rintro ⟨k, ⟨⟨i, hi, rfl⟩, hk⟩, rfl, rfl⟩; exact hk
    · intro h2
      have hex : ∃ q ∈ df.rows, (civilOfDay (q.date / dayNs)).1 = y ∧ (civilOfDay (q.date / dayNs)).2.1 = m := by
        by_contra hno
        have : inMonth civilOfDay df y m = [] := by
          unfold inMonth
          rw [List.filterMap_eq_nil_iff]
          intro q hq
          rw [if_neg fun h => hno ⟨q, hq, h⟩]
        rw [this] at h2; simp at h2
      obtain ⟨q, hq, h1, h3⟩ := hex
      have h5 := (month_iff q.date (monthOfTs q.date)).1 rfl
      have h6 := ((listMin_some _ _).1 hmin).2 _ (List.mem_map.2 ⟨q, hq, rfl⟩)
      have h7 := ((listMax_some _ _).1 hmax).2 _ (List.mem_map.2 ⟨q, hq, rfl⟩)
      have e1 : monthOfTs q.date / 12 = y := by omega
      have e2 : monthOfTs q.date % 12 + 1 = m := by omega
      refine ⟨monthOfTs q.date, ⟨⟨(monthOfTs q.date - lo).toNat, by omega, by omega⟩, ?_⟩, e1, e2⟩
      rw [e1, e2]; exact h2
  · congr 1
    unfold completePairs
    rw [List.filterMap_map, List.map_map, List.filter_map, List.map_map]
    simp only [Function.comp_def]
    rw [← filterMap_ite]
    apply List.filterMap_congr
    intro i _
    exact month_pair df a b d (lo + (i : Int))

theorem usable_filter (df : Frame ℝ) : (df.rows.filter fun r => r.y.isSome && (!df.hasWeight || decide (∃ w ∈ r.weight, 0 < w))) = usableRows df := by
  unfold usableRows
  apply List.filter_congr
  intro r _
  rw [Bool.eq_iff_iff, Bool.and_eq_true, Bool.or_eq_true, Option.isSome_iff_exists, decide_eq_true_eq, decide_eq_true_eq]
  unfold Usable
  cases df.hasWeight <;> simp

/-- Whatever the correlation is computed from: for eligible series the choice is multiplicative exactly if it is at least 0.8. -/
theorem C64_decision (corr : Frame ℝ → Res (Option ℝ)) (df : Frame ℝ) (he : Eligible df) (o : Option ℝ) (ho : corr df = .ok o) :
    ∃ answer, isMultiplicative corr df = .ok answer ∧ (answer = true ↔ ∃ v, o = some v ∧ (8 : ℝ) / 10 ≤ v) := by
  obtain ⟨h1, h2, ⟨r, hr, q, hq, h3⟩, h4⟩ := he
  unfold isMultiplicative
  rw [if_neg, if_neg, if_neg, if_neg, ho]
  · refine ⟨_, rfl, ?_⟩
    simp only [decide_eq_true_eq, Option.mem_def]
  · rw [usable_filter]; omega
  · cases hmin : listMin (df.rows.map Row.date) with
    | none => simp
    | some lo =>
    cases hmax : listMax (df.rows.map Row.date) with
    | none => simp
    | some hi =>
      have h5 := ((listMin_some _ _).1 hmin).2 _ (List.mem_map.2 ⟨r, hr, rfl⟩)
      have h6 := ((listMax_some _ _).1 hmax).2 _ (List.mem_map.2 ⟨q, hq, rfl⟩)
      have : DAY = dayNs := rfl
      simp only [decide_eq_true_eq]
      omega
  · simp [h2]
  · rw [List.any_eq_true]
    rintro ⟨r, hr, h⟩
    rw [decide_eq_true_eq] at h
    obtain ⟨v, hv, h0⟩ := h
    exact absurd (h1 r hr v hv) (not_lt.2 h0)

/-- **C64.** If the variance around the fitted line grows in proportion to the average of the month, the choice is multiplicative. -/
theorem C64_detects (civil : Int → Int × Int × Int) (hc : IsCalendar civil) (env : Env ℝ) (df : Frame ℝ) (he : Eligible df) (r : FitResult ℝ) (a b k c : ℝ)
    (hr : fitModel env modelLinear df none true = .ok r) (hp : r.params = [a, b]) (hk : 0 < k)
    (hvar : ∀ y m, 2 ≤ (inMonth civil df y m).length → (monthPoint civil df a b (y, m)).2 = k * (monthPoint civil df a b (y, m)).1 + c)
    (hdiff : ∃ p q : Int × Int, 2 ≤ (inMonth civil df p.1 p.2).length ∧ 2 ≤ (inMonth civil df q.1 q.2).length ∧
      (monthPoint civil df a b p).1 ≠ (monthPoint civil df a b q).1) :
    isMultiplicative (multCorr env) df = .ok true := by
  have h4 : 4 ≤ df.rows.length := le_trans he.2.2.2 (List.length_filter_le ..)
  obtain ⟨L, -, hL, hm⟩ := C64_statistic civil hc env df r a b h4 hr hp
  have h1 : correlation (L.map (monthPoint civil df a b)) = some 1 := by
    rw [← pearson_eq]
    apply pearson_line k c hk
    · intro p hp
      obtain ⟨⟨y, m⟩, hym, rfl⟩ := List.mem_map.1 hp
      exact hvar y m ((hL y m).1 hym)
    · obtain ⟨p, q, hp, hq, hne⟩ := hdiff
      exact ⟨_, List.mem_map.2 ⟨p, (hL _ _).2 hp, rfl⟩, _, List.mem_map.2 ⟨q, (hL _ _).2 hq, rfl⟩, hne⟩
  rw [h1] at hm
  obtain ⟨ans, hans, hiff⟩ := C64_decision (multCorr env) df he (some 1) hm
  rw [hans, hiff.2 ⟨1, rfl, by norm_num⟩]

/-- **C64.** If the distances to the fitted line vary equally in every month (in particular if all values lie on a line that is found), the choice is additive. -/
theorem C64_additive (civil : Int → Int × Int × Int) (hc : IsCalendar civil) (env : Env ℝ) (df : Frame ℝ) (he : Eligible df) (r : FitResult ℝ) (a b s : ℝ)
    (hr : fitModel env modelLinear df none true = .ok r) (hp : r.params = [a, b])
    (hvar : ∀ y m, 2 ≤ (inMonth civil df y m).length → (monthPoint civil df a b (y, m)).2 = s) :
    isMultiplicative (multCorr env) df = .ok false := by
  have h4 : 4 ≤ df.rows.length := le_trans he.2.2.2 (List.length_filter_le ..)
  obtain ⟨L, -, hL, hm⟩ := C64_statistic civil hc env df r a b h4 hr hp
  have h1 : correlation (L.map (monthPoint civil df a b)) = none := by
    unfold correlation
    rw [if_pos]
    right
    have e : (L.map (monthPoint civil df a b)).map Prod.snd = L.map fun _ => s := by
      rw [List.map_map]
      exact List.map_congr_left fun p hp => hvar p.1 p.2 ((hL _ _).1 hp)
    rw [e]
    unfold deviation avg
    rcases hl : L with _ | ⟨p, l⟩
    · simp
    · have hs : ((p :: l).map fun _ => s).sum = (((p :: l).map fun _ => s).length : ℝ) * s := by
        simp; ring
      have hn : (((p :: l).map fun _ => s).length : ℝ) ≠ 0 := by simp; positivity
      rw [hs, mul_div_cancel_left₀ _ hn]
      simp
  rw [h1] at hm
  obtain ⟨ans, hans, hiff⟩ := C64_decision (multCorr env) df he none hm
  rw [hans]
  cases ans
  · rfl
  · obtain ⟨v, hv, _⟩ := hiff.1 rfl
    cases hv

theorem usableRows_scaleY (c : ℝ) (df : Frame ℝ) :
    usableRows (scaleY c df) = (usableRows df).map fun r => { r with y := r.y.map fun v => c * v } := by
  unfold usableRows scaleY
  rw [List.filter_map]
  congr 1
  apply List.filter_congr
  intro r _
  simp only [Function.comp_def, decide_eq_decide]
  unfold Usable
  cases r.y <;> simp

theorem observations_scaleY (c : ℝ) (df : Frame ℝ) : observations (scaleY c df) = (observations df).map fun o => (o.1, c * o.2.1, o.2.2) := by
  unfold observations
  rw [usableRows_scaleY, List.map_map, List.map_map]
  apply List.map_congr_left
  intro r _
  have hs : sharing ((usableRows df).map fun r : Row ℝ => { r with y := r.y.map fun v => c * v }) { r with y := r.y.map fun v => c * v } =
      sharing (usableRows df) r := by
    unfold sharing
    rw [List.countP_map]
    rfl
  simp only [Function.comp_def, hs]
  have hw : weightOf (scaleY c df).hasWeight { r with y := r.y.map fun v => c * v } = weightOf df.hasWeight r := rfl
  rw [hw]
  cases r.y <;> simp

theorem lineError_scale (c : ℝ) (obs : List (ℝ × ℝ × ℝ)) (a b : ℝ) :
    lineError (obs.map fun o => (o.1, c * o.2.1, o.2.2)) (c * a) (c * b) = c ^ 2 * lineError obs a b := by
  unfold lineError
  rw [List.map_map, ← sum_scale]
  congr 1
  apply List.map_congr_left
  intro o _
  simp only [Function.comp_def]
  ring

theorem leastSquares_scale (c : ℝ) (hc : 0 < c) (obs : List (ℝ × ℝ × ℝ)) (a b : ℝ) (h : LeastSquares obs a b) :
    LeastSquares (obs.map fun o => (o.1, c * o.2.1, o.2.2)) (c * a) (c * b) := by
  intro a' b'
  have h1 := h (a' / c) (b' / c)
  have h2 := lineError_scale c obs (a' / c) (b' / c)
  rw [mul_div_cancel₀ _ hc.ne', mul_div_cancel₀ _ hc.ne'] at h2
  rw [lineError_scale, h2]
  exact mul_le_mul_of_nonneg_left h1 (by positivity)

theorem observation_weight (df : Frame ℝ) (r : Row ℝ) (hr : r ∈ usableRows df) :
    weightOf df.hasWeight r / (sharing (usableRows df) r : ℝ) ≠ 0 := by
  have hs : 0 < sharing (usableRows df) r := List.countP_pos_iff.2 ⟨r, hr, by simp⟩
  have hu : Usable df.hasWeight r := by
    have := (List.mem_filter.1 hr).2
    simpa using this
  have hw : weightOf df.hasWeight r ≠ 0 := by
    unfold weightOf
    split
    · rename_i h
      obtain ⟨w, hw, h0⟩ := hu.2 h
      rw [hw]; exact h0.ne'
    · exact one_ne_zero
  exact div_ne_zero hw (by positivity)

theorem multCorr_scale (env : Env ℝ) (df : Frame ℝ) (c a b d d' : ℝ) (hc : 0 < c)
    (h : fitLinear env df = .ok (df.rows.map fun q => (q, some (a * (q.x : ℝ) + d))))
    (h' : fitLinear env (scaleY c df) = .ok ((scaleY c df).rows.map fun q => (q, some (c * a * (q.x : ℝ) + d')))) :
    multCorr env (scaleY c df) = multCorr env df := by
  unfold multCorr
  rw [h, h']
  simp only [Bind.bind, Except.bind, Except.ok.injEq]
  have key : monthStats ((scaleY c df).rows.map fun q => (q, some (c * a * (q.x : ℝ) + d'))) =
      (monthStats (df.rows.map fun q => (q, some (a * (q.x : ℝ) + d)))).map fun p => (p.1.map fun v => c * v, p.2.map fun v => c * c * v) := by
    unfold scaleY
    dsimp only
    rw [List.map_map]
    refine monthStats_congr df.rows (fun q => (q, some (a * (q.x : ℝ) + d))) _ ?_ (Option.map fun v => c * v) (Option.map fun v => c * c * v)
      (fun part => ?_) (fun part => ?_)
    · intro q; rfl
    · rw [← colMean_scale, List.map_map]; rfl
    · rw [← colVar_affine c (d' - c * d), List.map_map]
      congr 1
      apply List.map_congr_left
      intro q _
      simp only [Function.comp_def, resOf]
      cases q.y with
      | none => rfl
      | some v => simp only [lift2, Option.map_some, Option.some.injEq]; ring
  rw [key, completePairs_map, pearson_scale c (c * c) hc (by positivity)]

/-- **C64.** The choice does not depend on the unit of the values: multiplying all values by a positive constant does not change it,
provided the linear fit finds the least squares line in both cases. -/
theorem C64_unit (env : Env ℝ) (df : Frame ℝ) (c : ℝ) (hc : 0 < c) (a b a' b' : ℝ) (hf : FitsLine env df a b) (hf' : FitsLine env (scaleY c df) a' b')
    (hx : ∃ r ∈ usableRows df, ∃ q ∈ usableRows df, r.x ≠ q.x) :
    isMultiplicative (multCorr env) (scaleY c df) = isMultiplicative (multCorr env) df := by
  have hcorr : 4 ≤ df.rows.length → multCorr env (scaleY c df) = multCorr env df := by
    intro h4
    obtain ⟨⟨r, hr, hp⟩, hls⟩ := hf
    obtain ⟨⟨r', hr', hp'⟩, hls'⟩ := hf'
    rw [observations_scaleY] at hls'
    obtain ⟨p, hpm, q, hqm, hne⟩ := hx
    have hu := leastSquares_unique _ _ _ _ _ hls' (leastSquares_scale c hc _ a b hls)
      ⟨_, List.mem_map.2 ⟨_, List.mem_map.2 ⟨p, hpm, rfl⟩, rfl⟩, _, List.mem_map.2 ⟨_, List.mem_map.2 ⟨q, hqm, rfl⟩, rfl⟩,
        by dsimp only; exact_mod_cast hne, observation_weight df p hpm, observation_weight df q hqm⟩
    obtain ⟨d, hd⟩ := fitLinear_line env df r a b h4 hr hp
    obtain ⟨d', hd'⟩ := fitLinear_line env (scaleY c df) r' a' b' (by simpa [scaleY] using h4) hr' hp'
    rw [hu.1] at hd'
    exact multCorr_scale env df c a b d d' hc hd hd'
  unfold isMultiplicative
  rw [usable_filter, usable_filter, usableRows_scaleY, List.length_map]
  have e1 : (scaleY c df).rows.any (fun r => decide (∃ v ∈ r.y, v ≤ 0)) = df.rows.any (fun r => decide (∃ v ∈ r.y, v ≤ 0)) := by
    unfold scaleY
    rw [List.any_map]
    congr 1
    funext r
    simp only [Function.comp_def, decide_eq_decide]
    cases r.y with
    | none => simp
    | some v =>
      simp only [Option.map_some, Option.mem_def, Option.some.injEq, exists_eq_left']
      constructor
      · intro h; by_contra h0; exact absurd (mul_pos hc (not_le.1 h0)) (not_lt.2 h)
      · intro h; exact mul_nonpos_of_nonneg_of_nonpos hc.le h
  have e2 : (scaleY c df).rows.map Row.date = df.rows.map Row.date := by simp [scaleY, Function.comp_def]
  have e3 : (scaleY c df).hasDate = df.hasDate := rfl
  rw [e1, e2, e3]
  by_cases h4 : (usableRows df).length < 4
  · rw [if_pos h4, if_pos h4]
  · rw [if_neg h4, if_neg h4, hcorr (le_trans (not_lt.1 h4) (List.length_filter_le ..))]

/-! ### C65 -/

theorem C64_not_eligible (corr : Frame ℝ → Res (Option ℝ)) (df : Frame ℝ) (h : ¬ Eligible df) : isMultiplicative corr df = .ok false := by
  unfold isMultiplicative
  rw [usable_filter]
  by_cases h1 : df.rows.any (fun r => decide (∃ v ∈ r.y, v ≤ 0)) = true
  · rw [if_pos h1]
  rw [if_neg h1]
  by_cases h2 : (!df.hasDate) = true
  · rw [if_pos h2]
  rw [if_neg h2]
  by_cases h4 : (usableRows df).length < 4
  · rw [if_pos h4, ite_self]
  rw [if_pos]
  cases hmin : listMin (df.rows.map Row.date) with
  | none =>
    rw [listMin_none, List.map_eq_nil_iff] at hmin
    simp [usableRows, hmin] at h4
  | some lo =>
  cases hmax : listMax (df.rows.map Row.date) with
  | none =>
    rw [listMax_none, List.map_eq_nil_iff] at hmax
    simp [usableRows, hmax] at h4
  | some hi =>
    simp only [decide_eq_true_eq]
    by_contra hge
    apply h
    obtain ⟨p, hp, rfl⟩ := List.mem_map.1 ((listMin_some _ _).1 hmin).1
    obtain ⟨q, hq, rfl⟩ := List.mem_map.1 ((listMax_some _ _).1 hmax).1
    have hD : DAY = dayNs := rfl
    refine ⟨fun r hr v hv => ?_, by simpa using h2, ⟨p, hp, q, hq, by omega⟩, by omega⟩
    by_contra h0
    exact h1 (List.any_eq_true.2 ⟨r, hr, decide_eq_true ⟨v, hv, not_lt.1 h0⟩⟩)

theorem correlation_perm (l l' : List (ℝ × ℝ)) (h : l.Perm l') : correlation l = correlation l' := by
  have h1 : avg (l.map Prod.fst) = avg (l'.map Prod.fst) := by
    unfold avg; rw [(h.map Prod.fst).sum_eq, (h.map Prod.fst).length_eq]
  have h2 : avg (l.map Prod.snd) = avg (l'.map Prod.snd) := by
    unfold avg; rw [(h.map Prod.snd).sum_eq, (h.map Prod.snd).length_eq]
  have h3 : deviation (l.map Prod.fst) = deviation (l'.map Prod.fst) := by
    unfold deviation; rw [h1]; exact ((h.map Prod.fst).map _).sum_eq
  have h4 : deviation (l.map Prod.snd) = deviation (l'.map Prod.snd) := by
    unfold deviation; rw [h2]; exact ((h.map Prod.snd).map _).sum_eq
  have h5 : codeviation l = codeviation l' := by
    unfold codeviation; rw [h1, h2]; exact (h.map _).sum_eq
  unfold correlation
  rw [h3, h4, h5]

/-- **C65.** Samples without a value have no influence on the choice, as long as they do not stretch the dates to 60 days. -/
theorem C65_null_partial (env : Env ℝ) (df : Frame ℝ) (before after extra : List (Row ℝ)) (hdf : df.rows = before ++ after) (hx : ∀ r ∈ extra, r.y = none)
    (hspan : (∃ r ∈ before ++ extra ++ after, ∃ q ∈ before ++ extra ++ after, 60 * dayNs ≤ q.date - r.date) →
      ∃ r ∈ df.rows, ∃ q ∈ df.rows, 60 * dayNs ≤ q.date - r.date)
    (r : FitResult ℝ) (a b : ℝ) (hr : fitModel env modelLinear df none true = .ok r) (hp : r.params = [a, b]) :
    isMultiplicative (multCorr env) { df with rows := before ++ extra ++ after } = isMultiplicative (multCorr env) df := by
  have hun : ∀ q ∈ extra, ¬ Usable df.hasWeight q := by
    intro q hq h
    obtain ⟨v, hv⟩ := h.1
    rw [hx q hq] at hv; cases hv
  have hur : usableRows { df with rows := before ++ extra ++ after } = usableRows df := by
    unfold usableRows
    rw [hdf]
    simp only [List.filter_append]
    have : extra.filter (fun r => decide (Usable df.hasWeight r)) = [] := by
      rw [List.filter_eq_nil_iff]
      intro r hr
      simpa using hun r hr
    rw [this, List.append_nil]
  have hin : inMonth civilOfDay { df with rows := before ++ extra ++ after } = inMonth civilOfDay df := by
    funext y m
    unfold inMonth
    rw [hdf]
    simp only [List.filterMap_append]
    have : (extra.filterMap fun r => if (civilOfDay (r.date / dayNs)).1 = y ∧ (civilOfDay (r.date / dayNs)).2.1 = m then
        r.y.map fun v => (r.x, v) else none) = [] := by
      rw [List.filterMap_eq_nil_iff]
      intro q hq
      rw [hx q hq]
      simp
    rw [this, List.append_nil]
  have hsub : ∀ q ∈ df.rows, q ∈ before ++ extra ++ after := by
    intro q hq
    rw [hdf] at hq
    simp only [List.mem_append] at hq ⊢
    rcases hq with h | h
    · exact .inl (.inl h)
    · exact .inr h
  have hel : Eligible { df with rows := before ++ extra ++ after } ↔ Eligible df := by
    unfold Eligible
    rw [hur]
    constructor
    · rintro ⟨h1, h2, h3, h4⟩
      exact ⟨fun q hq => h1 q (hsub q hq), h2, hspan h3, h4⟩
    · rintro ⟨h1, h2, ⟨p, hp, q, hq, h3⟩, h4⟩
      refine ⟨fun q hq v hv => ?_, h2, ⟨p, hsub p hp, q, hsub q hq, h3⟩, h4⟩
      have : q ∈ df.rows := by
        rw [hdf]
        simp only [List.mem_append] at hq ⊢
        rcases hq with (h | h) | h
        · exact .inl h
        · rw [hx q h] at hv; cases hv
        · exact .inr h
      exact h1 q this v hv
  by_cases he : Eligible df
  · have h29 := C29_insert env modelLinear df before after extra none true hdf hun
    rw [hr] at h29
    obtain ⟨r', hr', hp'⟩ : ∃ r', fitModel env modelLinear { df with rows := before ++ extra ++ after } none true = .ok r' ∧ r'.params = [a, b] := by
      cases h : fitModel env modelLinear { df with rows := before ++ extra ++ after } none true with
      | error e => rw [h] at h29; cases h29
      | ok r' =>
        rw [h] at h29
        simp only [Except.map, Except.ok.injEq] at h29
        exact ⟨r', rfl, by rw [← hp]; exact congrArg Outcome.params h29⟩
    have he' := hel.2 he
    have n4 := le_trans he.2.2.2 (List.length_filter_le ..)
    have n4' := le_trans he'.2.2.2 (List.length_filter_le ..)
    obtain ⟨L, hn, hL, hm⟩ := C64_statistic civilOfDay civilOfDay_isCalendar env df r a b n4 hr hp
    obtain ⟨L', hn', hL', hm'⟩ := C64_statistic civilOfDay civilOfDay_isCalendar env _ r' a b n4' hr' hp'
    have hperm : L'.Perm L := by
      rw [List.perm_ext_iff_of_nodup hn' hn]
      rintro ⟨y, m⟩
      rw [hL, hL', hin]
    have hmp : monthPoint civilOfDay { df with rows := before ++ extra ++ after } a b = monthPoint civilOfDay df a b := by
      funext p; unfold monthPoint; rw [hin]
    rw [hmp, correlation_perm _ _ (hperm.map _)] at hm'
    obtain ⟨ans, h1, h2⟩ := C64_decision (multCorr env) df he _ hm
    obtain ⟨ans', h1', h2'⟩ := C64_decision (multCorr env) _ he' _ hm'
    rw [h1, h1']
    congr 1
    rw [Bool.eq_iff_iff, h2, h2']
  · rw [C64_not_eligible _ _ he, C64_not_eligible _ _ (fun h => he (hel.1 h))]

/-! ### Examples -/

/-- With an optimiser that always answers, the linear fit returns its parameters. -/
theorem fitModel_linear (env : Env ℝ) (df : Frame ℝ) (s : ℝ → LsqResult ℝ) (e : Ext ℝ)
    (hl : ∀ f a y0 b, env.lsq f [.fin a, .fin y0] b = .ok (some (s y0)))
    (ha : ∀ c n k, env.aic c n k = .ok e) (h4 : 4 ≤ (usableRows df).length) (hx : ∃ r ∈ usableRows df, ∃ q ∈ usableRows df, r.x ≠ q.x)
    (q0 : Row ℝ) (l : List (Row ℝ)) (h0 : usableRows df = q0 :: l) :
    ∃ r, fitModel env modelLinear df none true = .ok r ∧ r.params = (s (q0.y.getD 0)).params := by
  obtain ⟨rng, hr⟩ := fitModel_long env modelLinear df none true h4
  rw [hr]
  have hv : verdict (modelLinear : ForecastModel ℝ) df = .ok true := rfl
  have hsx : scaleX (modelLinear : ForecastModel ℝ) (prepare df).xs = (usableRows df).map fun r => (r.x : ℝ) := by
    rw [prepare_eq]
    unfold scaleX
    rw [if_neg (by simp [modelLinear, mkModel]), List.map_map]
    rfl
  have hys' : (prepare df).ys = q0.y.getD 0 :: l.map fun r => r.y.getD 0 := by
    rw [prepare_eq, h0]; rfl
  have hys : (prepare df).ys ≠ [] := by
    rw [hys']; simp
  have h2 : Spec.TwoDistinct (scaleX (modelLinear : ForecastModel ℝ) (prepare df).xs) := by
    rw [hsx]
    obtain ⟨r, hr, q, hq, hne⟩ := hx
    exact ⟨_, List.mem_map.2 ⟨r, hr, rfl⟩, _, List.mem_map.2 ⟨q, hq, rfl⟩, by exact_mod_cast hne⟩
  have hs : ∀ args, simplifyModel env.label (modelLinear : ForecastModel ℝ) args = .ok modelLinear := by
    intro args
    rfl
  rw [hv, hs]
  simp only [Bind.bind, Except.bind, Bool.not_true, Bool.false_eq_true, if_false]
  obtain ⟨a, hg⟩ := fInitLinear_head env.rnd _ (prepare df).ys none false hys h2
  have hh : (prepare df).ys.head hys = q0.y.getD 0 := by simp only [hys', List.head_cons]
  rw [hh] at hg
  obtain ⟨g, b, hg', hb, hw⟩ := C36_linear_partial env.rnd _ (prepare df).ys none false hys h2
  have hgg : g.map Ext.fin = [.fin a, .fin (q0.y.getD 0)] := by
    have : (modelLinear : ForecastModel ℝ).fInit = fInitLinear := rfl
    rw [this, hg] at hg'
    exact (Except.ok.inj hg').symm
  unfold attemptFit
  rw [if_neg (by simp [modelLinear, mkModel])]
  unfold optimizeLeastSquares
  rw [hg', hb]
  simp only [Bind.bind, Except.bind, pyAssert, C36_assertion g b hw, if_true]
  have hc : ∀ gc ax ad, (modelLinear : ForecastModel ℝ).initCache gc ax ad = .ok fun _ => none := fun _ _ _ => rfl
  rw [hc, hgg]
  simp only [hl, ha]
  exact ⟨_, rfl, rfl⟩

namespace MultExample

/-- Two samples in January and two in March; the spread grows with the level. -/
noncomputable def rows : List (Row ℝ) :=
  [⟨0 * DAY, 0, some 164, some 1⟩, ⟨2 * DAY, 2, some 164, some 1⟩, ⟨60 * DAY, 60, some 1096, some 1⟩, ⟨62 * DAY, 62, some 1036, some 1⟩]
noncomputable def df : Frame ℝ := ⟨true, true, rows⟩

/-- An optimiser that knows the least squares lines of this series and of its double. -/
noncomputable def env : Env ℝ where
  lsq := fun _ g _ => .ok (some ⟨true, none, match g with
    | [_, .fin y0] => [15 * (y0 / 164), 150 * (y0 / 164)]
    | _ => []⟩)
  rnd := fun _ => 0
  aic := fun _ _ _ => .ok (.fin 0)
  globalCache := fun _ => none
  label := fun _ => ""

theorem usable_scaled (c : ℝ) : usableRows (scaleY c df) = (scaleY c df).rows := by
  unfold usableRows
  rw [List.filter_eq_self]
  intro r hr
  rw [decide_eq_true_eq]
  simp only [scaleY, df, rows, List.map_cons, List.map_nil, List.mem_cons, List.not_mem_nil, or_false, Option.map_some] at hr
  rcases hr with rfl | rfl | rfl | rfl <;> exact ⟨⟨_, rfl⟩, fun _ => ⟨1, rfl, one_pos⟩⟩

theorem scale_one : scaleY 1 df = df := by simp [scaleY, df, rows]

theorem fits (c : ℝ) : FitsLine env (scaleY c df) (15 * c) (150 * c) := by
  constructor
  · obtain ⟨r, h1, h2⟩ := fitModel_linear env (scaleY c df) (fun y0 => ⟨true, none, [15 * (y0 / 164), 150 * (y0 / 164)]⟩) (.fin 0) (fun _ _ _ _ => rfl)
      (fun _ _ _ => rfl) (by rw [usable_scaled]; simp [scaleY, df, rows])
      (by rw [usable_scaled]; simp [scaleY, df, rows]) ⟨0 * DAY, 0, some (c * 164), some 1⟩ (scaleY c df).rows.tail
      (by rw [usable_scaled]; rfl)
    refine ⟨r, h1, ?_⟩
    rw [h2]
    simp
  · intro a' b'
    have ho : observations (scaleY c df) = [(0, c * 164, 1), (2, c * 164, 1), (60, c * 1096, 1), (62, c * 1036, 1)] := by
      unfold observations
      rw [usable_scaled]
      simp [scaleY, df, rows, sharing, weightOf]
    rw [ho]
    have key : lineError [(0, c * 164, 1), (2, c * 164, 1), (60, c * 1096, 1), (62, c * 1036, 1)] a' b' =
        lineError [(0, c * 164, 1), (2, c * 164, 1), (60, c * 1096, 1), (62, c * 1036, 1)] (15 * c) (150 * c) +
        ((b' - 150 * c) ^ 2 + ((a' - 15 * c) * 2 + (b' - 150 * c)) ^ 2 + ((a' - 15 * c) * 60 + (b' - 150 * c)) ^ 2 +
          ((a' - 15 * c) * 62 + (b' - 150 * c)) ^ 2) := by
      simp only [lineError, List.map_cons, List.map_nil, List.sum_cons, List.sum_nil]
      ring
    rw [key]
    have : 0 ≤ (b' - 150 * c) ^ 2 + ((a' - 15 * c) * 2 + (b' - 150 * c)) ^ 2 + ((a' - 15 * c) * 60 + (b' - 150 * c)) ^ 2 +
          ((a' - 15 * c) * 62 + (b' - 150 * c)) ^ 2 := by positivity
    linarith

theorem eligible : Eligible df := by
  refine ⟨?_, rfl, ⟨⟨0 * DAY, 0, some 164, some 1⟩, by simp [df, rows], ⟨62 * DAY, 62, some 1036, some 1⟩, by simp [df, rows], by decide⟩, ?_⟩
  · intro r hr v hv
    simp only [df, rows, List.mem_cons, List.not_mem_nil, or_false] at hr
    rcases hr with rfl | rfl | rfl | rfl <;> (cases hv; norm_num)
  · have := usable_scaled 1
    rw [scale_one] at this
    rw [this]; simp [df, rows]

theorem civ : (civilOfDay (0 * DAY / dayNs)).1 = 1970 ∧ (civilOfDay (0 * DAY / dayNs)).2.1 = 1 ∧ (civilOfDay (2 * DAY / dayNs)).1 = 1970 ∧
    (civilOfDay (2 * DAY / dayNs)).2.1 = 1 ∧ (civilOfDay (60 * DAY / dayNs)).1 = 1970 ∧ (civilOfDay (60 * DAY / dayNs)).2.1 = 3 ∧
    (civilOfDay (62 * DAY / dayNs)).1 = 1970 ∧ (civilOfDay (62 * DAY / dayNs)).2.1 = 3 := by decide

theorem january : inMonth civilOfDay df 1970 1 = [(0, 164), (2, 164)] := by
  obtain ⟨a1, a2, b1, b2, c1, c2, d1, d2⟩ := civ
  simp only [inMonth, df, rows, List.filterMap_cons, List.filterMap_nil, a1, a2, b1, b2, c1, c2, d1, d2]
  simp

theorem march : inMonth civilOfDay df 1970 3 = [(60, 1096), (62, 1036)] := by
  obtain ⟨a1, a2, b1, b2, c1, c2, d1, d2⟩ := civ
  simp only [inMonth, df, rows, List.filterMap_cons, List.filterMap_nil, a1, a2, b1, b2, c1, c2, d1, d2]
  simp

theorem others (y m : Int) (h : 2 ≤ (inMonth civilOfDay df y m).length) : (y, m) = (1970, 1) ∨ (y, m) = (1970, 3) := by
  obtain ⟨a1, a2, b1, b2, c1, c2, d1, d2⟩ := civ
  by_contra hno
  rw [not_or] at hno
  have : inMonth civilOfDay df y m = [] := by
    unfold inMonth
    rw [List.filterMap_eq_nil_iff]
    intro r hr
    rw [if_neg]
    rintro ⟨h1, h2⟩
    simp only [df, rows, List.mem_cons, List.not_mem_nil, or_false] at hr
    rcases hr with rfl | rfl | rfl | rfl
    · exact hno.1 (by rw [← h1, ← h2, a1, a2])
    · exact hno.1 (by rw [← h1, ← h2, b1, b2])
    · exact hno.2 (by rw [← h1, ← h2, c1, c2])
    · exact hno.2 (by rw [← h1, ← h2, d1, d2])
  rw [this] at h
  simp at h

theorem fit_df : ∃ r, fitModel env modelLinear df none true = .ok r ∧ r.params = [15, 150] := by
  have := (fits 1).1
  rw [scale_one, mul_one, mul_one] at this
  exact this

theorem multiplicative : isMultiplicative (multCorr env) df = .ok true := by
  obtain ⟨r, hr, hp⟩ := fit_df
  have hj : monthPoint civilOfDay df 15 150 (1970, 1) = (164, 450) := by
    simp only [monthPoint, january, avg, sampleVar, List.map_cons, List.map_nil, List.sum_cons, List.sum_nil, List.length_cons, List.length_nil]
    norm_num
  have hm : monthPoint civilOfDay df 15 150 (1970, 3) = (1066, 4050) := by
    simp only [monthPoint, march, avg, sampleVar, List.map_cons, List.map_nil, List.sum_cons, List.sum_nil, List.length_cons, List.length_nil]
    norm_num
  refine C64_detects civilOfDay civilOfDay_isCalendar env df eligible r 15 150 (3600 / 902) (450 - 3600 / 902 * 164) hr hp (by norm_num) ?_
    ⟨(1970, 1), (1970, 3), by rw [january]; simp, by rw [march]; simp, by rw [hj, hm]; norm_num⟩
  intro y m h
  rcases others y m h with h | h
  · rw [h, hj]; norm_num
  · rw [h, hm]; norm_num

/-- The unit theorem applies to this series and any positive factor. -/
example (c : ℝ) (hc : 0 < c) : isMultiplicative (multCorr env) (scaleY c df) = .ok true := by
  have h1 := fits 1
  rw [scale_one] at h1
  rw [C64_unit env df c hc _ _ _ _ h1 (fits c) (by
    have := usable_scaled 1
    rw [scale_one] at this
    rw [this]; simp [df, rows]), multiplicative]

/-- Samples without values in between, before and after the others do not matter. -/
example : isMultiplicative (multCorr env) { df with rows := [] ++ [⟨30 * DAY, 30, none, some 5⟩, ⟨-400 * DAY, -400, none, none⟩] ++ rows } = .ok true := by
  obtain ⟨r, hr, hp⟩ := fit_df
  rw [C65_null_partial env df [] rows _ rfl (by simp) (fun _ => eligible.2.2.1) r 15 150 hr hp, multiplicative]

/-- A falling line for which the spread of the distances is the same in January and March. -/
noncomputable def envFalling : Env ℝ := { env with lsq := fun _ _ _ => .ok (some ⟨true, none, [-15, 0]⟩) }

example : isMultiplicative (multCorr envFalling) df = .ok false := by
  have hu := usable_scaled 1
  rw [scale_one] at hu
  obtain ⟨r, hr, hp⟩ := fitModel_linear envFalling df (fun _ => ⟨true, none, [-15, 0]⟩) (.fin 0) (fun _ _ _ _ => rfl) (fun _ _ _ => rfl)
    eligible.2.2.2 (by rw [hu]; simp [df, rows]) _ _ hu
  refine C64_additive civilOfDay civilOfDay_isCalendar envFalling df eligible r (-15) 0 450 hr hp ?_
  intro y m h
  rcases others y m h with h | h
  · rw [h]
    simp only [monthPoint, january, avg, sampleVar, List.map_cons, List.map_nil, List.sum_cons, List.sum_nil, List.length_cons, List.length_nil]
    norm_num
  · rw [h]
    simp only [monthPoint, march, avg, sampleVar, List.map_cons, List.map_nil, List.sum_cons, List.sum_nil, List.length_cons, List.length_nil]
    norm_num

end MultExample

open MultExample in
/-- **C65, disagreement.** A sample that is switched off by a weight of zero decides the choice. -/
theorem C65_counterexample : ∃ (env : Env ℝ) (df : Frame ℝ) (q : Row ℝ), df.hasWeight = true ∧ q.weight = some 0 ∧
    isMultiplicative (multCorr env) df = .ok true ∧ isMultiplicative (multCorr env) { df with rows := df.rows ++ [q] } = .ok false := by
  refine ⟨env, df, ⟨61 * DAY, 61, some 0, some 0⟩, rfl, rfl, multiplicative, ?_⟩
  apply C64_not_eligible
  rintro ⟨h, -⟩
  exact absurd (h ⟨61 * DAY, 61, some 0, some 0⟩ (by simp) 0 rfl) (lt_irrefl _)

end Anticipy

#print axioms Anticipy.C64_statistic
#print axioms Anticipy.C64_decision
#print axioms Anticipy.C64_detects
#print axioms Anticipy.C64_additive
#print axioms Anticipy.C64_unit
#print axioms Anticipy.C65_null_partial
#print axioms Anticipy.C65_counterexample
