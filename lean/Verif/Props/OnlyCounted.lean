import Verif.Spec.OnlyCounted
import Verif.Props.Refit

/-
C115: the forecasts of an additive model depend only on the samples that count.
-/
namespace Anticipy
open Spec
variable {K : Type} [Field K] [LinearOrder K] [FloorRing K]

/-- The observations of the result are the samples that count. -/
theorem observed_samples [IsStrictOrderedRing K] (w : World K) (args : RunArgs K) (id : String) (t : STable K) (res : RunResult K)
    (h : runForecast w args id t = .ok (some res)) (s : String) (hs : IsSeries t id s) (hd : t.hasDate = true) (hout : args.findOutliers = false) :
    ((observed (partOf t s res)).map fun a => (a.date, a.y.getD 0, a.weight.getD 0)).Perm (samplesOf args.start t s) := by
  have hp := (C48_table w args id t res h s hs hd).2 hout
  have h2 := (hp.filter fun q => q.2.1.isSome && decide (0 < q.2.2.getD 0)).map fun q => (q.1, q.2.1.getD 0, q.2.2.getD 0)
  rw [List.filter_map, List.filter_map, List.map_map, List.map_map, List.filter_filter, List.filter_filter] at h2
  have e1 : (observed (partOf t s res)) =
      (partOf t s res).data.filter fun a => (((fun q : Timestamp × Option K × Option K => q.2.1.isSome && decide (0 < q.2.2.getD 0)) ∘
        fun r : DRow K => (r.date, r.y, r.weight)) a && a.isActuals) := by
    unfold observed
    apply List.filter_congr
    intro a _
    simp only [Function.comp]
    cases a.isActuals <;> simp
  have e2 : ∀ r : SRow K, (if t.hasWeight = true then r.weight else some (1 : K)).getD 0 = rowWeight t r := by
    intro r
    unfold rowWeight
    split_ifs <;> rfl
  have e3 : counted args.start t s =
      (rowsOf t s).filter fun a => (((fun q : Timestamp × Option K × Option K => q.2.1.isSome && decide (0 < q.2.2.getD 0)) ∘
        fun r : SRow K => (r.date, r.y, if t.hasWeight then r.weight else some 1)) a && decide (∀ d, args.start = some d → d ≤ a.date)) := by
    unfold counted
    apply List.filter_congr
    intro a _
    simp only [Function.comp, e2]
    cases args.start <;> simp [Bool.and_comm, Bool.and_assoc, and_comm]
  unfold samplesOf
  rw [e1, e3]
  refine List.Perm.trans (List.Perm.of_eq ?_) (h2.trans (List.Perm.of_eq ?_))
  · rfl
  · apply List.map_congr_left
    intro r _
    simp only [Function.comp, e2]

omit [LinearOrder K] [FloorRing K] in
/-- The days of two origins. -/
theorem days_shift (o o' d : Timestamp) (k : Int) (hk : o - o' = k * (24 * 60 * 60 * 1000000000)) :
    (d - o') / (24 * 60 * 60 * 1000000000) = (d - o) / (24 * 60 * 60 * 1000000000) + k := by
  omega

omit [FloorRing K] in
/-- Sums over the rows that count are sums over the samples. -/
theorem counted_samples (start : Option Timestamp) (t : STable K) (s : String) (F : Timestamp → K → K → K) :
    ((counted start t s).map fun r => F r.date (r.y.getD 0) (rowWeight t r)).sum = ((samplesOf start t s).map fun p => F p.1 p.2.1 p.2.2).sum := by
  unfold samplesOf
  rw [List.map_map]
  rfl

/-- **C115.** Two tables, each with a series; the samples of the second series that count (from its starting date on, with a value and a weight above zero) are
those of the first, in any order, with all weights multiplied by a common factor. Then an additive model that has a level and does not depend on where x starts has
the same forecasts in both results, on every date for which both have one. -/
theorem C115_samples [IsStrictOrderedRing K] (w w' : World K) (args args' : RunArgs K) (id id' : String) (t t' : STable K) (hp : Proper t) (hp' : Proper t')
    (s s' : String) (hs : IsSeries t id s) (hs' : IsSeries t' id' s') (res res' : RunResult K) (h : runForecast w args id t = .ok (some res))
    (h' : runForecast w' args' id' t' = .ok (some res')) (hout : args.findOutliers = false) (hout' : args'.findOutliers = false)
    (k : K) (hsame : SameSamples k args.start args'.start t t' s s')
    (m : ForecastModel K) (reg : Registry K) (feats : List (Feature K)) (hm : AddsUp m reg feats) (hlev : HasLevel feats) (hne : feats ≠ [])
    (horig : NoOrigin feats.length (combination feats))
    (hx : FitsExactly w args s (seriesFrame t s) m reg) (hx' : FitsExactly w' args' s' (seriesFrame t' s') m reg)
    (hid : Identifies feats (originOf t s) (observed (partOf t s res)))
    (r r' : DRow K) (hr : ForecastOf (partOf t s res) m.name r) (hr' : ForecastOf (partOf t' s' res') m.name r') (hdate : r'.date = r.date) : r'.y = r.y := by
  have hd : t.hasDate = true := hp.onePerDate.hasDate
  have hd' : t'.hasDate = true := hp'.onePerDate.hasDate
  have ho := observed_samples w args id t res h s hs hd hout
  have ho' := observed_samples w' args' id' t' res' h' s' hs' hd' hout'
  -- the same dates are observed
  have hdates : ∀ a ∈ observed (partOf t s res), ∃ b ∈ observed (partOf t' s' res'), b.date = a.date := by
    intro a ha
    have h1 := ho.mem_iff.1 (List.mem_map_of_mem (f := fun a : DRow K => (a.date, a.y.getD 0, a.weight.getD 0)) ha)
    have h2 := hsame.mem_iff.2 (List.mem_map_of_mem (f := fun p : Timestamp × K × K => (p.1, p.2.1, k * p.2.2)) h1)
    obtain ⟨b, hb, e⟩ := List.mem_map.1 (ho'.mem_iff.2 h2)
    exact ⟨b, hb, congrArg Prod.fst e⟩
  -- some sample counts
  have hsome : ∃ a, a ∈ observed (partOf t s res) := by
    by_contra hn
    push Not at hn
    obtain ⟨u, hu, hone⟩ := hlev
    have := hid u (List.replicate feats.length 0) hu (by simp) (fun a ha => absurd ha (hn a)) 0 0
    rw [hone] at this
    have z : combination feats (List.replicate feats.length 0) 0 0 = 0 := by
      unfold combination
      apply List.sum_eq_zero
      intro x hx
      obtain ⟨i, hi, rfl⟩ := List.getElem_of_mem hx
      simp
    rw [z] at this
    exact one_ne_zero this
  -- the origins are whole days apart
  obtain ⟨hds, hrun⟩ := series_run w id t hp s hs
  obtain ⟨hds', hrun'⟩ := series_run w' id' t' hp' s' hs'
  obtain ⟨j, hj⟩ : ∃ j : Int, originOf t s - originOf t' s' = j * (24 * 60 * 60 * 1000000000) := by
    obtain ⟨a, ha⟩ := hsome
    obtain ⟨b, hb, e⟩ := hdates a ha
    obtain ⟨x, hx⟩ := observed_days w args s _ _ (hrun args res h) hds.dated _ hds.days a ha
    obtain ⟨y, hy⟩ := observed_days w' args' s' _ _ (hrun' args' res' h') hds'.dated _ hds'.days b hb
    refine ⟨y - x, ?_⟩
    rw [e] at hy
    linarith
  have hj' : originOf t' s' - originOf t s = -j * (24 * 60 * 60 * 1000000000) := by linarith
  obtain ⟨T, hT⟩ := horig j
  obtain ⟨T', hT'⟩ := horig (-j)
  have day : ∀ d, (d - originOf t' s') / (24 * 60 * 60 * 1000000000) = (d - originOf t s) / (24 * 60 * 60 * 1000000000) + j := fun d => days_shift _ _ d j hj
  have day' : ∀ d, (d - originOf t s) / (24 * 60 * 60 * 1000000000) = (d - originOf t' s') / (24 * 60 * 60 * 1000000000) + -j := fun d => days_shift _ _ d (-j) hj'
  have moved : ∀ p : List K, p.length = feats.length → ∀ d, combination feats (T p) ((d - originOf t' s') / (24 * 60 * 60 * 1000000000)) d =
      combination feats p ((d - originOf t s) / (24 * 60 * 60 * 1000000000)) d := by
    intro p hp d
    rw [day, (hT p hp).2]
  have moved' : ∀ p : List K, p.length = feats.length → ∀ d, combination feats (T' p) ((d - originOf t s) / (24 * 60 * 60 * 1000000000)) d =
      combination feats p ((d - originOf t' s') / (24 * 60 * 60 * 1000000000)) d := by
    intro p hp d
    rw [day', (hT' p hp).2]
  have hid' : Identifies feats (originOf t' s') (observed (partOf t' s' res')) := by
    intro p q hpl hql hagree x d
    have := hid (T' p) (T' q) (hT' p hpl).1 (hT' q hql).1 (by
      intro a ha
      obtain ⟨b, hb, e⟩ := hdates a ha
      rw [moved' p hpl, moved' q hql, ← e]
      exact hagree b hb)
    rw [← (hT' p hpl).2, ← (hT' q hql).2, this]
  obtain ⟨p, hpl, hf, hbal⟩ := C88_table w args id t hp s hs res h m reg feats hm hlev hne hx hid r hr
  have := balanced_combination w' args' id' t' hp' s' hs' res' h' hout' m reg feats hm hlev hne hx' hid' (T p) (hT p hpl).1 (by
    intro q hql
    simp only [moved p hpl, ← moved' q hql]
    have a1 : ∀ φ ∈ feats, ((counted args.start t s).map fun r => rowWeight t r ^ 2 *
        (r.y.getD 0 - combination feats p ((r.date - originOf t s) / (24 * 60 * 60 * 1000000000)) r.date) *
          φ ((r.date - originOf t s) / (24 * 60 * 60 * 1000000000)) r.date).sum = 0 := by
      intro φ hφ
      have := hbal φ hφ
      unfold errorSum at this
      rw [observed_sum w args id t res h s hs hd hout fun d y wt => wt ^ 2 *
        (y - combination feats p ((d - originOf t s) / (24 * 60 * 60 * 1000000000)) d) * φ ((d - originOf t s) / (24 * 60 * 60 * 1000000000)) d] at this
      exact this
    have a2 := combination_sum _ _ _ feats (T' q) a1
    rw [counted_samples args.start t s fun d y wt => wt ^ 2 * (y - combination feats p ((d - originOf t s) / (24 * 60 * 60 * 1000000000)) d) *
      combination feats (T' q) ((d - originOf t s) / (24 * 60 * 60 * 1000000000)) d] at a2
    rw [counted_samples args'.start t' s' fun d y wt => wt ^ 2 * (y - combination feats p ((d - originOf t s) / (24 * 60 * 60 * 1000000000)) d) *
      combination feats (T' q) ((d - originOf t s) / (24 * 60 * 60 * 1000000000)) d, (hsame.map _).sum_eq, List.map_map]
    simp only [Function.comp_def, mul_pow, mul_assoc]
    simp only [mul_assoc] at a2
    rw [List.sum_map_mul_left, a2, mul_zero]) r' hr'
  rw [hf r hr.1 hr.2.1 hr.2.2, this, moved p hpl, hdate]

omit [FloorRing K] in
/-- Rows that do not count can be left out. -/
theorem sameSamples_without (start : Option Timestamp) (t : STable K) (s : String) (keep : SRow K → Bool)
    (hkeep : ∀ r ∈ counted start t s, keep r = true) : SameSamples 1 start start t { t with rows := t.rows.filter keep } s s := by
  have e : counted start { t with rows := t.rows.filter keep } s = (counted start t s).filter keep := by
    unfold counted rowsOf only rowWeight
    cases t.hasSource <;> simp only [List.filter_filter, if_true, Bool.false_eq_true, if_false] <;> apply List.filter_congr <;> intro r _ <;>
      cases keep r <;> simp
  unfold SameSamples samplesOf
  rw [e, List.filter_eq_self.2 hkeep, List.map_map]
  refine List.Perm.of_eq (List.map_congr_left fun r _ => ?_)
  simp only [Function.comp, one_mul]
  rfl

omit [FloorRing K] in
/-- Equal weights can be left out. -/
theorem sameSamples_unweighted [IsStrictOrderedRing K] (start : Option Timestamp) (t : STable K) (s : String) (c : K) (hc : 0 < c)
    (hw : t.hasWeight = true) (heq : ∀ r ∈ rowsOf t s, r.weight = some c) : SameSamples c⁻¹ start start t { t with hasWeight := false } s s := by
  have hr : rowsOf { t with hasWeight := false } s = rowsOf t s := rfl
  have e : counted start { t with hasWeight := false } s = counted start t s := by
    unfold counted
    rw [hr]
    apply List.filter_congr
    intro r hm
    unfold rowWeight
    simp [hw, heq r hm, hc]
  unfold SameSamples samplesOf
  rw [e, List.map_map]
  refine List.Perm.of_eq (List.map_congr_left fun r hm => ?_)
  have hm' : r ∈ rowsOf t s := List.mem_of_mem_filter hm
  simp [rowWeight, hw, heq r hm', inv_mul_cancel₀ hc.ne']

/-- **C115.** Rows that do not count (no value, weight zero, before the starting date) can be left out of the table. -/
theorem C115_without [IsStrictOrderedRing K] (w : World K) (args : RunArgs K) (id : String) (t : STable K) (keep : SRow K → Bool) (hp : Proper t)
    (hp' : Proper { t with rows := t.rows.filter keep }) (s : String) (hs : IsSeries t id s) (hs' : IsSeries { t with rows := t.rows.filter keep } id s)
    (hkeep : ∀ r ∈ counted args.start t s, keep r = true) (res res' : RunResult K) (h : runForecast w args id t = .ok (some res))
    (h' : runForecast w args id { t with rows := t.rows.filter keep } = .ok (some res')) (hout : args.findOutliers = false)
    (m : ForecastModel K) (reg : Registry K) (feats : List (Feature K)) (hm : AddsUp m reg feats) (hlev : HasLevel feats) (hne : feats ≠ [])
    (horig : NoOrigin feats.length (combination feats)) (hx : FitsExactly w args s (seriesFrame t s) m reg)
    (hx' : FitsExactly w args s (seriesFrame { t with rows := t.rows.filter keep } s) m reg)
    (hid : Identifies feats (originOf t s) (observed (partOf t s res)))
    (r r' : DRow K) (hr : ForecastOf (partOf t s res) m.name r) (hr' : ForecastOf (partOf { t with rows := t.rows.filter keep } s res') m.name r')
    (hdate : r'.date = r.date) : r'.y = r.y :=
  C115_samples w w args args id id t _ hp hp' s s hs hs' res res' h h' hout hout 1 (sameSamples_without args.start t s keep hkeep) m reg feats hm hlev hne horig
    hx hx' hid r r' hr hr' hdate

/-- **C115.** A column of equal weights can be left out. -/
theorem C115_unweighted [IsStrictOrderedRing K] (w : World K) (args : RunArgs K) (id : String) (t : STable K) (c : K) (hc : 0 < c) (hw : t.hasWeight = true)
    (hp : Proper t) (hp' : Proper { t with hasWeight := false }) (s : String) (hs : IsSeries t id s) (heq : ∀ r ∈ rowsOf t s, r.weight = some c)
    (res res' : RunResult K) (h : runForecast w args id t = .ok (some res)) (h' : runForecast w args id { t with hasWeight := false } = .ok (some res'))
    (hout : args.findOutliers = false)
    (m : ForecastModel K) (reg : Registry K) (feats : List (Feature K)) (hm : AddsUp m reg feats) (hlev : HasLevel feats) (hne : feats ≠ [])
    (horig : NoOrigin feats.length (combination feats)) (hx : FitsExactly w args s (seriesFrame t s) m reg)
    (hx' : FitsExactly w args s (seriesFrame { t with hasWeight := false } s) m reg)
    (hid : Identifies feats (originOf t s) (observed (partOf t s res)))
    (r r' : DRow K) (hr : ForecastOf (partOf t s res) m.name r) (hr' : ForecastOf (partOf { t with hasWeight := false } s res') m.name r')
    (hdate : r'.date = r.date) : r'.y = r.y :=
  C115_samples w w args args id id t _ hp hp' s s hs hs res res' h h' hout hout c⁻¹ (sameSamples_unweighted args.start t s c hc hw heq) m reg feats hm hlev hne horig
    hx hx' hid r r' hr hr' hdate

/-! ### A concrete case -/

/-- Days 0 to 5: an outlier of weight zero, a gap, and four values of weight 2. -/
def patchyTable : STable ℚ := ⟨true, false, false, true, [⟨0, none, 0, some 90, some 0⟩, ⟨DAY, none, 0, some 1, some 2⟩, ⟨2 * DAY, none, 0, none, some 5⟩,
  ⟨3 * DAY, none, 0, some 2, some 2⟩, ⟨4 * DAY, none, 0, some 0, some 2⟩, ⟨5 * DAY, none, 0, some 1, some 2⟩]⟩

/-- The four values under another name, without weights, in another order. -/
def cleanTable : STable ℚ := ⟨true, false, false, false, [⟨5 * DAY, none, 0, some 1, none⟩, ⟨DAY, none, 0, some 1, none⟩, ⟨4 * DAY, none, 0, some 0, none⟩,
  ⟨3 * DAY, none, 0, some 2, none⟩]⟩

example : Proper patchyTable ∧ Proper cleanTable ∧ IsSeries patchyTable "p" "p" ∧ IsSeries cleanTable "q" "q" ∧
    SameSamples (1 / 2) none none patchyTable cleanTable "p" "q" ∧ NoOrigin (lineFeatures (K := ℚ)).length (combination (lineFeatures (K := ℚ))) := by
  refine ⟨⟨⟨rfl, rfl, by decide +kernel, by decide +kernel⟩, fun h => by cases h⟩, ⟨⟨rfl, rfl, by decide +kernel, by decide +kernel⟩, fun h => by cases h⟩,
    ?_, ?_, ?_, noOrigin_line⟩
  · unfold IsSeries; decide +kernel
  · unfold IsSeries; decide +kernel
  · unfold SameSamples; decide +kernel

/-- Forecasts on the common dates. -/
example : ((runForecast meanWorld (demoArgs [modelConstant] (some [])) "p" patchyTable).toOption.bind fun r => r.map fun r =>
      (r.data.filter fun q => !q.isActuals).map fun q => (q.date / DAY, q.y)) =
        some [(1, some 1), (2, some 1), (3, some 1), (4, some 1), (5, some 1), (6, some 1), (7, some 1), (8, some 1)] ∧
    ((runForecast meanWorld (demoArgs [modelConstant] (some [])) "q" cleanTable).toOption.bind fun r => r.map fun r =>
      (r.data.filter fun q => !q.isActuals).map fun q => (q.date / DAY, q.y)) =
        some [(1, some 1), (2, some 1), (3, some 1), (4, some 1), (5, some 1), (6, some 1), (7, some 1), (8, some 1)] := by decide +kernel

end Anticipy
