import Verif.Spec.Refit
import Verif.Props.Leverage

/-
C114: a model fitted to its own fitted values changes nothing.
-/
namespace Anticipy
open Spec
variable {K : Type} [Field K] [LinearOrder K] [FloorRing K]

omit [Field K] [LinearOrder K] [FloorRing K] in
theorem rowsOf_otherValues (Y : SRow K → Option K) (t : STable K) (s : String) :
    rowsOf (otherValues Y t) s = (rowsOf t s).map fun r => { r with y := Y r } := rowsOf_map t (fun r => { r with y := Y r }) (fun _ => rfl) s

omit [Field K] [LinearOrder K] [FloorRing K] in
theorem originOf_otherValues (Y : SRow K → Option K) (t : STable K) (s : String) : originOf (otherValues Y t) s = originOf t s := by
  unfold originOf
  rw [rowsOf_otherValues]
  cases rowsOf t s <;> rfl

omit [Field K] [LinearOrder K] [FloorRing K] in
theorem proper_otherValues (Y : SRow K → Option K) (t : STable K) (hp : Proper t) : Proper (otherValues Y t) :=
  proper_map t (fun r => { r with y := Y r }) 0 (fun _ => rfl) (fun _ => (add_zero _).symm) hp

omit [Field K] [LinearOrder K] [FloorRing K] in
theorem isSeries_otherValues (Y : SRow K → Option K) (t : STable K) (id s : String) (hs : IsSeries t id s) : IsSeries (otherValues Y t) id s :=
  isSeries_map t (fun r => { r with y := Y r }) (fun _ => rfl) id s hs

/-- **C114.** The values of a series are replaced by the fitted values of an additive model with a level (some may be left out): the same model, fitted to
them, has the same forecasts. -/
theorem C114_fitted [IsStrictOrderedRing K] (w w' : World K) (args args' : RunArgs K) (id : String) (t : STable K) (hp : Proper t) (s : String)
    (hs : IsSeries t id s) (Y : SRow K → Option K) (res res' : RunResult K) (h : runForecast w args id t = .ok (some res))
    (h' : runForecast w' args' id (otherValues Y t) = .ok (some res'))
    (m : ForecastModel K) (reg : Registry K) (feats : List (Feature K)) (hm : AddsUp m reg feats) (hlev : HasLevel feats) (hne : feats ≠ [])
    (hx : FitsExactly w args s (seriesFrame t s) m reg) (hx' : FitsExactly w' args' s (seriesFrame (otherValues Y t) s) m reg)
    (hid : Identifies feats (originOf t s) (observed (partOf t s res))) (hid' : Identifies feats (originOf t s) (observed (partOf t s res')))
    (hY : TakesFitted (partOf t s res) m.name args'.start t s Y)
    (r r' : DRow K) (hr : ForecastOf (partOf t s res) m.name r) (hr' : ForecastOf (partOf t s res') m.name r') (hsame : r'.date = r.date) : r'.y = r.y := by
  obtain ⟨p, hpl, hf, -⟩ := C88_table w args id t hp s hs res h m reg feats hm hlev hne hx hid r hr
  have ho := originOf_otherValues Y t s
  have := C96_table w' args' id (otherValues Y t) (proper_otherValues Y t hp) s (isSeries_otherValues Y t id s hs) res' h' m reg feats hm hne hx'
    (by rw [ho]; exact hid') p hpl (by
      intro q hq hc v hv
      rw [rowsOf_otherValues] at hq
      obtain ⟨q, hq', rfl⟩ := List.mem_map.1 hq
      obtain ⟨f, hff, e1, e2⟩ := hY q hq' hc v hv
      rw [hf f hff.1 hff.2.1 hff.2.2, e1] at e2
      rw [ho]
      exact (Option.some.inj e2).symm)
  rw [hf r hr.1 hr.2.1 hr.2.2, this r' hr'.1 hr'.2.1 hr'.2.2, hsame, ho]

/-- Coefficients whose errors balance out for every combination of the features are those of the fit. -/
theorem balanced_combination [IsStrictOrderedRing K] (w : World K) (args : RunArgs K) (id : String) (t : STable K) (hp : Proper t) (s : String)
    (hs : IsSeries t id s) (res : RunResult K) (h : runForecast w args id t = .ok (some res)) (hout : args.findOutliers = false)
    (m : ForecastModel K) (reg : Registry K) (feats : List (Feature K)) (hm : AddsUp m reg feats) (hlev : HasLevel feats) (hne : feats ≠ [])
    (hx : FitsExactly w args s (seriesFrame t s) m reg) (hid : Identifies feats (originOf t s) (observed (partOf t s res)))
    (p : List K) (hl : p.length = feats.length)
    (hbal : ∀ q : List K, q.length = feats.length → ((counted args.start t s).map fun r => rowWeight t r ^ 2 *
      (r.y.getD 0 - combination feats p ((r.date - originOf t s) / (24 * 60 * 60 * 1000000000)) r.date) *
        combination feats q ((r.date - originOf t s) / (24 * 60 * 60 * 1000000000)) r.date).sum = 0) (r : DRow K) (hr : ForecastOf (partOf t s res) m.name r) :
    r.y = some (combination feats p ((r.date - originOf t s) / (24 * 60 * 60 * 1000000000)) r.date) := by
  obtain ⟨q, hql, hf, ho⟩ := C88_table w args id t hp s hs res h m reg feats hm hlev hne hx hid r hr
  have hd : t.hasDate = true := hp.onePerDate.hasDate
  have a : ∀ φ ∈ feats, ((counted args.start t s).map fun r => rowWeight t r ^ 2 *
      (r.y.getD 0 - combination feats q ((r.date - originOf t s) / (24 * 60 * 60 * 1000000000)) r.date) *
        φ ((r.date - originOf t s) / (24 * 60 * 60 * 1000000000)) r.date).sum = 0 := by
    intro φ hφ
    have := ho φ hφ
    unfold errorSum at this
    rw [observed_sum w args id t res h s hs hd hout fun d y wt => wt ^ 2 *
      (y - combination feats q ((d - originOf t s) / (24 * 60 * 60 * 1000000000)) d) * φ ((d - originOf t s) / (24 * 60 * 60 * 1000000000)) d] at this
    exact this
  have b1 := hbal p hl
  have b2 := hbal q hql
  have b3 := combination_sum _ _ _ feats p a
  have b4 := combination_sum _ _ _ feats q a
  have c := congrArg₂ (· - ·) (congrArg₂ (· - ·) b2 b1) (congrArg₂ (· - ·) b4 b3)
  rw [sum_map_minus, sum_map_minus, sum_map_minus] at c
  have c' : ((counted args.start t s).map fun r => rowWeight t r ^ 2 *
      (combination feats q ((r.date - originOf t s) / (24 * 60 * 60 * 1000000000)) r.date -
        combination feats p ((r.date - originOf t s) / (24 * 60 * 60 * 1000000000)) r.date) ^ 2).sum = 0 := by
    refine Eq.trans ?_ (c.trans (by ring))
    congr 1
    apply List.map_congr_left
    intro r _
    ring
  have z : ∀ a ∈ observed (partOf t s res), combination feats q ((a.date - originOf t s) / (24 * 60 * 60 * 1000000000)) a.date =
      combination feats p ((a.date - originOf t s) / (24 * 60 * 60 * 1000000000)) a.date := by
    rw [← observed_sum w args id t res h s hs hd hout fun d _ wt => wt ^ 2 *
      (combination feats q ((d - originOf t s) / (24 * 60 * 60 * 1000000000)) d -
        combination feats p ((d - originOf t s) / (24 * 60 * 60 * 1000000000)) d) ^ 2] at c'
    intro a ha
    have h0 := (List.all_zero_of_le_zero_le_of_sum_eq_zero (l := (observed (partOf t s res)).map _) (by
      intro x hx
      obtain ⟨b, -, rfl⟩ := List.mem_map.1 hx
      exact mul_nonneg (sq_nonneg _) (sq_nonneg _)) c') (List.mem_map_of_mem ha)
    have hw : 0 < a.weight.getD 0 := by
      have := (List.mem_filter.1 ha).2
      simp only [Bool.and_eq_true, decide_eq_true_eq] at this
      exact this.2
    rcases mul_eq_zero.1 h0 with h0 | h0
    · exact absurd (pow_eq_zero_iff (by norm_num) |>.1 h0) hw.ne'
    · exact sub_eq_zero.1 (pow_eq_zero_iff (by norm_num) |>.1 h0)
  rw [hf r hr.1 hr.2.1 hr.2.2]
  congr 1
  exact hid q p hql hl z _ _

/-- Coefficients whose errors balance out for every feature are those of the fit. -/
theorem balanced_unique [IsStrictOrderedRing K] (w : World K) (args : RunArgs K) (id : String) (t : STable K) (hp : Proper t) (s : String)
    (hs : IsSeries t id s) (res : RunResult K) (h : runForecast w args id t = .ok (some res)) (hout : args.findOutliers = false)
    (m : ForecastModel K) (reg : Registry K) (feats : List (Feature K)) (hm : AddsUp m reg feats) (hlev : HasLevel feats) (hne : feats ≠ [])
    (hx : FitsExactly w args s (seriesFrame t s) m reg) (hid : Identifies feats (originOf t s) (observed (partOf t s res)))
    (p : List K) (hl : p.length = feats.length)
    (hbal : ∀ φ ∈ feats, ((counted args.start t s).map fun r => rowWeight t r ^ 2 *
      (r.y.getD 0 - combination feats p ((r.date - originOf t s) / (24 * 60 * 60 * 1000000000)) r.date) *
        φ ((r.date - originOf t s) / (24 * 60 * 60 * 1000000000)) r.date).sum = 0) (r : DRow K) (hr : ForecastOf (partOf t s res) m.name r) :
    r.y = some (combination feats p ((r.date - originOf t s) / (24 * 60 * 60 * 1000000000)) r.date) :=
  balanced_combination w args id t hp s hs res h hout m reg feats hm hlev hne hx hid p hl (fun q _ => combination_sum _ _ _ feats q hbal) r hr

omit [FloorRing K] in
/-- Sums over the rows that count, after gaps are filled: filled rows contribute nothing. -/
theorem counted_filled (start : Option Timestamp) (t : STable K) (s : String) (Y : SRow K → Option K) (F : Timestamp → K → K → K)
    (hkeep : ∀ r ∈ rowsOf t s, r.y ≠ none → Y r = r.y)
    (hnew : ∀ r ∈ rowsOf t s, r.y = none → (∀ d, start = some d → d ≤ r.date) → 0 < rowWeight t r → ∀ v, Y r = some v → F r.date v (rowWeight t r) = 0) :
    ((counted start (otherValues Y t) s).map fun r => F r.date (r.y.getD 0) (rowWeight t r)).sum =
      ((counted start t s).map fun r => F r.date (r.y.getD 0) (rowWeight t r)).sum := by
  have hcount : ∀ t : STable K, counted start t s =
      (rowsOf t s).filter fun r => decide (∀ d, start = some d → d ≤ r.date) && r.y.isSome && decide (0 < rowWeight t r) := by
    intro t
    unfold counted
    apply List.filter_congr
    intro r _
    cases start <;> simp
  rw [hcount, hcount, rowsOf_otherValues]
  have hw : ∀ r : SRow K, rowWeight (otherValues Y t) r = rowWeight t r := fun _ => rfl
  have hw' : ∀ r : SRow K, rowWeight t { r with y := Y r } = rowWeight t r := fun _ => rfl
  simp only [hw]
  generalize rowsOf t s = l at hkeep hnew
  induction l with
  | nil => rfl
  | cons r l ih =>
    have ih := ih (fun r hr => hkeep r (List.mem_cons_of_mem _ hr)) (fun r hr => hnew r (List.mem_cons_of_mem _ hr))
    rw [List.map_cons, List.filter_cons, List.filter_cons]
    dsimp only at ih ⊢
    rw [hw']
    cases hy : r.y with
    | some y =>
      have hk := hkeep r List.mem_cons_self (by simp [hy])
      rw [hk, hy]
      by_cases hc : (decide (∀ d, start = some d → d ≤ r.date) && (some y).isSome && decide (0 < rowWeight t r)) = true
      · rw [if_pos hc, if_pos hc, List.map_cons, List.map_cons, List.sum_cons, List.sum_cons, ih, hy]
        rfl
      · rw [if_neg hc, if_neg hc, ih]
    | none =>
      rw [if_neg (c := (decide (∀ d, start = some d → d ≤ r.date) && (none : Option K).isSome && decide (0 < rowWeight t r)) = true)
        (by simp)]
      by_cases hc : (decide (∀ d, start = some d → d ≤ r.date) && (Y r).isSome && decide (0 < rowWeight t r)) = true
      · rw [if_pos hc, List.map_cons, List.sum_cons, ih]
        simp only [Bool.and_eq_true, decide_eq_true_eq] at hc
        obtain ⟨v, hv⟩ := Option.isSome_iff_exists.1 hc.1.2
        have := hnew r List.mem_cons_self hy hc.1.1 hc.2 v hv
        simp only [hv, Option.getD_some]
        have e : rowWeight t { r with y := some v } = rowWeight t r := rfl
        rw [e, this, zero_add]
      · rw [if_neg hc, ih]

/-- Whoever tells combinations apart by some observations does so by more. -/
theorem identifies_filled [IsStrictOrderedRing K] (w w' : World K) (args args' : RunArgs K) (id : String) (t : STable K) (s : String)
    (hs : IsSeries t id s) (hd : t.hasDate = true) (Y : SRow K → Option K) (res res' : RunResult K) (h : runForecast w args id t = .ok (some res))
    (h' : runForecast w' args' id (otherValues Y t) = .ok (some res')) (hstart : args'.start = args.start) (hout : args.findOutliers = false)
    (hout' : args'.findOutliers = false) (hkeep : ∀ r ∈ rowsOf t s, r.y ≠ none → Y r = r.y) (feats : List (Feature K)) (t0 : Timestamp)
    (hid : Identifies feats t0 (observed (partOf t s res))) : Identifies feats t0 (observed (partOf t s res')) := by
  have hpart : partOf (otherValues Y t) s res' = partOf t s res' := rfl
  have hp := (C48_table w args id t res h s hs hd).2 hout
  have hp' := (C48_table w' args' id (otherValues Y t) res' h' s (isSeries_otherValues Y t id s hs) hd).2 hout'
  rw [rowsOf_otherValues, hpart, hstart] at hp'
  intro p q hpl hql hagree
  refine hid p q hpl hql ?_
  intro a ha
  unfold observed at ha
  simp only [List.mem_filter, Bool.and_eq_true, decide_eq_true_eq] at ha
  obtain ⟨ha, ⟨hact, hy⟩, hwt⟩ := ha
  obtain ⟨b, hb, e⟩ := List.mem_map.1 (hp.mem_iff.1 (List.mem_map_of_mem (f := fun r : DRow K => (r.date, r.y, r.weight)) (List.mem_filter.2 ⟨ha, hact⟩)))
  obtain ⟨hb1, hb2⟩ := List.mem_filter.1 hb
  simp only [Prod.mk.injEq] at e
  obtain ⟨e1, e2, e3⟩ := e
  have hk := hkeep b hb1 (by rw [e2]; intro hn; rw [hn] at hy; cases hy)
  have : (b.date, Y b, if t.hasWeight then b.weight else some 1) ∈ ((((rowsOf t s).map fun r => ({ r with y := Y r } : SRow K)).filter fun r =>
      decide (∀ d, args.start = some d → d ≤ r.date)).map fun r => (r.date, r.y, if (otherValues Y t).hasWeight then r.weight else some 1)) :=
    List.mem_map.2 ⟨{ b with y := Y b }, List.mem_filter.2 ⟨List.mem_map_of_mem (f := fun r : SRow K => ({ r with y := Y r } : SRow K)) hb1, hb2⟩, rfl⟩
  obtain ⟨c, hc, e⟩ := List.mem_map.1 (hp'.mem_iff.2 this)
  simp only [Prod.mk.injEq] at e
  obtain ⟨f1, f2, f3⟩ := e
  have hc' := List.mem_filter.1 hc
  have := hagree c (List.mem_filter.2 ⟨hc'.1, by
    simp only [Bool.and_eq_true, decide_eq_true_eq]
    refine ⟨⟨hc'.2, ?_⟩, ?_⟩
    · rw [f2, hk, e2]; exact hy
    · rw [f3, e3]; exact hwt⟩)
  rw [f1, e1] at this
  exact this

/-- **C114, gaps.** Gaps of a series (dates without value) are filled with the fitted values of an additive model with a level: the forecasts of this model stay
as they are. -/
theorem C114_gaps [IsStrictOrderedRing K] (w w' : World K) (args args' : RunArgs K) (id : String) (t : STable K) (hp : Proper t) (s : String)
    (hs : IsSeries t id s) (Y : SRow K → Option K) (res res' : RunResult K) (h : runForecast w args id t = .ok (some res))
    (h' : runForecast w' args' id (otherValues Y t) = .ok (some res')) (hstart : args'.start = args.start) (hout : args.findOutliers = false)
    (hout' : args'.findOutliers = false)
    (m : ForecastModel K) (reg : Registry K) (feats : List (Feature K)) (hm : AddsUp m reg feats) (hlev : HasLevel feats) (hne : feats ≠ [])
    (hx : FitsExactly w args s (seriesFrame t s) m reg) (hx' : FitsExactly w' args' s (seriesFrame (otherValues Y t) s) m reg)
    (hid : Identifies feats (originOf t s) (observed (partOf t s res)))
    (hY : FillsGaps (partOf t s res) m.name args.start t s Y)
    (r r' : DRow K) (hr : ForecastOf (partOf t s res) m.name r) (hr' : ForecastOf (partOf t s res') m.name r') (hsame : r'.date = r.date) : r'.y = r.y := by
  obtain ⟨p, hpl, hf, hbal⟩ := C88_table w args id t hp s hs res h m reg feats hm hlev hne hx hid r hr
  have hd : t.hasDate = true := hp.onePerDate.hasDate
  have ho := originOf_otherValues Y t s
  have hid' := identifies_filled w w' args args' id t s hs hd Y res res' h h' hstart hout hout' (fun r hr => (hY r hr).1) feats _ hid
  have := balanced_unique w' args' id (otherValues Y t) (proper_otherValues Y t hp) s (isSeries_otherValues Y t id s hs) res' h' hout' m reg feats hm hlev hne hx'
    (by rw [ho]; exact hid') p hpl (by
      intro φ hφ
      have := hbal φ hφ
      unfold errorSum at this
      rw [observed_sum w args id t res h s hs hd hout fun d y wt => wt ^ 2 *
        (y - combination feats p ((d - originOf t s) / (24 * 60 * 60 * 1000000000)) d) * φ ((d - originOf t s) / (24 * 60 * 60 * 1000000000)) d] at this
      rw [ho, hstart]
      refine Eq.trans (counted_filled args.start t s Y (fun d y wt => wt ^ 2 *
        (y - combination feats p ((d - originOf t s) / (24 * 60 * 60 * 1000000000)) d) * φ ((d - originOf t s) / (24 * 60 * 60 * 1000000000)) d)
        (fun r hr => (hY r hr).1) ?_) this
      intro q hq hy hs hw v hv
      obtain ⟨f, hff, e1, e2⟩ := (hY q hq).2 hy ⟨hs, by
        intro hh
        unfold rowWeight at hw
        rw [if_pos hh] at hw
        cases hqw : q.weight with
        | none => rw [hqw] at hw; exact absurd hw (lt_irrefl _)
        | some x => rw [hqw] at hw; exact ⟨x, rfl, hw⟩⟩ v hv
      rw [hf f hff.1 hff.2.1 hff.2.2, e1] at e2
      rw [← Option.some.inj e2]
      ring) r' hr'
  rw [hf r hr.1 hr.2.1 hr.2.2, this, hsame, ho]

/-! ### A concrete case -/

/-- The gap of a series of four days gets the value 1, which is the mean of the others. -/
def gapTable : STable ℚ := ⟨true, false, false, false, [⟨0, none, 0, some 0, none⟩, ⟨DAY, none, 0, none, none⟩, ⟨2 * DAY, none, 0, some 0, none⟩,
  ⟨3 * DAY, none, 0, some 3, none⟩]⟩

/-- Gaps become 1. -/
def filledGap (r : SRow ℚ) : Option ℚ := some (r.y.getD 1)

example : Proper gapTable ∧ IsSeries gapTable "s" "s" ∧ otherValues filledGap gapTable ≠ gapTable := by
  refine ⟨⟨⟨rfl, rfl, by decide +kernel, by decide +kernel⟩, fun h => by cases h⟩, ?_, by decide +kernel⟩
  unfold IsSeries
  decide +kernel

/-- Forecasts before and after the gap is filled, and for a table with fitted values only. -/
example : ((runForecast meanWorld (demoArgs [modelConstant] (some [])) "s" gapTable).toOption.bind fun r => r.map fun r =>
      (r.data.filter fun q => !q.isActuals).map fun q => q.y) = some (List.replicate 7 (some 1)) ∧
    ((runForecast meanWorld (demoArgs [modelConstant] (some [])) "s" (otherValues filledGap gapTable)).toOption.bind fun r => r.map fun r =>
      (r.data.filter fun q => !q.isActuals).map fun q => q.y) = some (List.replicate 7 (some 1)) ∧
    ((runForecast meanWorld (demoArgs [modelConstant] (some [])) "s" (otherValues (fun _ => some 1) gapTable)).toOption.bind fun r => r.map fun r =>
      (r.data.filter fun q => !q.isActuals).map fun q => q.y) = some (List.replicate 7 (some 1)) := by decide +kernel

/-- A value other than the fitted one changes the forecasts. -/
example : ((runForecast meanWorld (demoArgs [modelConstant] (some [])) "s" (otherValues (fun r => some (r.y.getD 5)) gapTable)).toOption.bind fun r => r.map fun r =>
      (r.data.filter fun q => !q.isActuals).map fun q => q.y) = some (List.replicate 7 (some 2)) := by decide +kernel

end Anticipy
