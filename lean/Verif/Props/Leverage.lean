import Verif.Spec.Leverage
import Verif.Props.AdditiveTable
import Verif.Props.EachSeries
import Verif.Props.Repeated

/-
Fitted values follow the observations, but not beyond them.
-/
namespace Anticipy
open Spec
variable {K : Type} [Field K] [LinearOrder K] [FloorRing K]

/-- Sums over the observations of the result are sums over the rows that count. -/
theorem observed_sum (w : World K) (args : RunArgs K) (id : String) (t : STable K) (res : RunResult K) (h : runForecast w args id t = .ok (some res)) (s : String)
    (hs : IsSeries t id s) (hd : t.hasDate = true) (hout : args.findOutliers = false) [IsStrictOrderedRing K] (F : Timestamp → K → K → K) :
    ((observed (partOf t s res)).map fun a => F a.date (a.y.getD 0) (a.weight.getD 0)).sum =
      ((counted args.start t s).map fun r => F r.date (r.y.getD 0) (rowWeight t r)).sum := by
  have hp := (C48_table w args id t res h s hs hd).2 hout
  have h2 := (hp.filter fun q => q.2.1.isSome && decide (0 < q.2.2.getD 0)).map fun q => F q.1 (q.2.1.getD 0) (q.2.2.getD 0)
  have h3 := h2.sum_eq
  rw [List.filter_map, List.filter_map, List.map_map, List.map_map, List.filter_filter, List.filter_filter] at h3
  have e1 : (observed (partOf t s res)) =
      (partOf t s res).data.filter fun a => (((fun q : Timestamp × Option K × Option K => q.2.1.isSome && decide (0 < q.2.2.getD 0)) ∘
        fun r : DRow K => (r.date, r.y, r.weight)) a && a.isActuals) := by
    unfold observed
    apply List.filter_congr
    intro a _
    simp only [Function.comp]
    cases a.isActuals <;> simp
  have e2 : ∀ r : SRow K, (if t.hasWeight = true then r.weight else some (1 : K)).getD 0 = rowWeight t r := by
    intro r
    unfold rowWeight
    split_ifs <;> rfl
  have e3 : counted args.start t s =
      (rowsOf t s).filter fun a => (((fun q : Timestamp × Option K × Option K => q.2.1.isSome && decide (0 < q.2.2.getD 0)) ∘
        fun r : SRow K => (r.date, r.y, if t.hasWeight then r.weight else some 1)) a && decide (∀ d, args.start = some d → d ≤ a.date)) := by
    unfold counted
    apply List.filter_congr
    intro a _
    simp only [Function.comp, e2]
    cases args.start <;> simp [Bool.and_comm, Bool.and_assoc, and_comm]
  rw [e1, e3]
  refine Eq.trans (Eq.trans ?_ h3) ?_
  · rfl
  · congr 1
    apply List.map_congr_left
    intro r _
    simp only [Function.comp, e2]

omit [FloorRing K] in
/-- The rows that count are the same after a revision of the values. -/
theorem counted_revised (start : Option Timestamp) (t : STable K) (s : String) (Y : SRow K → K) :
    counted start (revised Y t) s = (counted start t s).map fun r => { r with y := r.y.map fun _ => Y r } := by
  have e : rowsOf (revised Y t) s = (rowsOf t s).map fun r => { r with y := r.y.map fun _ => Y r } := by
    unfold rowsOf revised only
    dsimp only
    split_ifs
    · rw [List.filter_map]
      rfl
    · rfl
  unfold counted
  rw [e, List.filter_map]
  congr 1
  apply List.filter_congr
  intro r _
  simp only [Function.comp, Option.isSome_map]
  rfl

omit [LinearOrder K] [FloorRing K] in
/-- A sum that vanishes for all features vanishes for all combinations. -/
theorem combination_sum (l : List (SRow K)) (c : SRow K → K) (t0 : Timestamp) (feats : List (Feature K)) (p : List K)
    (h : ∀ φ ∈ feats, (l.map fun r => c r * φ ((r.date - t0) / (24 * 60 * 60 * 1000000000)) r.date).sum = 0) :
    (l.map fun r => c r * combination feats p ((r.date - t0) / (24 * 60 * 60 * 1000000000)) r.date).sum = 0 := by
  induction feats generalizing p with
  | nil => simp [combination]
  | cons φ feats ih =>
    cases p with
    | nil => simp [combination]
    | cons a p =>
      have h1 := h φ (by simp)
      have h2 := ih p fun ψ hψ => h ψ (by simp [hψ])
      have : ∀ r : SRow K, c r * combination (φ :: feats) (a :: p) ((r.date - t0) / (24 * 60 * 60 * 1000000000)) r.date =
          a * (c r * φ ((r.date - t0) / (24 * 60 * 60 * 1000000000)) r.date) +
            c r * combination feats p ((r.date - t0) / (24 * 60 * 60 * 1000000000)) r.date := by
        intro r
        unfold combination
        rw [List.zipWith_cons_cons, List.sum_cons]
        ring
      simp only [this]
      rw [List.sum_map_add, List.sum_map_mul_left, h1, h2]
      ring

omit [LinearOrder K] [FloorRing K] in
theorem sum_map_minus (l : List (SRow K)) (f g : SRow K → K) : (l.map f).sum - (l.map g).sum = (l.map fun r => f r - g r).sum := by
  induction l with
  | nil => simp
  | cons a l ih => simp only [List.map_cons, List.sum_cons, ← ih]; ring

/-- The observations of the result are the rows that count. -/
theorem observed_perm [IsStrictOrderedRing K] (w : World K) (args : RunArgs K) (id : String) (t : STable K) (res : RunResult K)
    (h : runForecast w args id t = .ok (some res)) (s : String)
    (hs : IsSeries t id s) (hd : t.hasDate = true) (hout : args.findOutliers = false) :
    ((observed (partOf t s res)).map DRow.date).Perm ((counted args.start t s).map SRow.date) := by
  have hp := (C48_table w args id t res h s hs hd).2 hout
  have h2 := (hp.filter fun q => q.2.1.isSome && decide (0 < q.2.2.getD 0)).map fun q => q.1
  rw [List.filter_map, List.filter_map, List.map_map, List.map_map, List.filter_filter, List.filter_filter] at h2
  have e1 : (observed (partOf t s res)) =
      (partOf t s res).data.filter fun a => (((fun q : Timestamp × Option K × Option K => q.2.1.isSome && decide (0 < q.2.2.getD 0)) ∘
        fun r : DRow K => (r.date, r.y, r.weight)) a && a.isActuals) := by
    unfold observed
    apply List.filter_congr
    intro a _
    simp only [Function.comp]
    cases a.isActuals <;> simp
  have e2 : ∀ r : SRow K, (if t.hasWeight = true then r.weight else some (1 : K)).getD 0 = rowWeight t r := by
    intro r
    unfold rowWeight
    split_ifs <;> rfl
  have e3 : counted args.start t s =
      (rowsOf t s).filter fun a => (((fun q : Timestamp × Option K × Option K => q.2.1.isSome && decide (0 < q.2.2.getD 0)) ∘
        fun r : SRow K => (r.date, r.y, if t.hasWeight then r.weight else some 1)) a && decide (∀ d, args.start = some d → d ≤ a.date)) := by
    unfold counted
    apply List.filter_congr
    intro a _
    simp only [Function.comp, e2]
    cases args.start <;> simp [Bool.and_comm, Bool.and_assoc, and_comm]
  rw [e1, e3]
  exact h2

omit [FloorRing K] in
/-- Whether observations tell combinations apart depends on their dates only. -/
theorem identifies_dates (feats : List (Feature K)) (t0 : Timestamp) (l l' : List (DRow K)) (h : (l.map DRow.date).Perm (l'.map DRow.date)) (hid : Identifies feats t0 l) :
    Identifies feats t0 l' := by
  intro p q hp hq he
  refine hid p q hp hq ?_
  intro r hr
  obtain ⟨r', hr', e⟩ := List.mem_map.1 (h.mem_iff.1 (List.mem_map_of_mem hr))
  rw [← e]
  exact he r' hr'

/-- A revision of values leaves the dates of the observations as they are. -/
theorem revised_dates [IsStrictOrderedRing K] (w w' : World K) (args args' : RunArgs K) (id : String) (t : STable K) (hp : Proper t) (s : String)
    (hs : IsSeries t id s) (Y : SRow K → K) (res res' : RunResult K) (h : runForecast w args id t = .ok (some res))
    (h' : runForecast w' args' id (revised Y t) = .ok (some res')) (hstart : args'.start = args.start) (hout : args.findOutliers = false)
    (hout' : args'.findOutliers = false) : ((observed (partOf t s res)).map DRow.date).Perm ((observed (partOf t s res')).map DRow.date) := by
  have hd : t.hasDate = true := hp.onePerDate.hasDate
  have hs' : IsSeries (revised Y t) id s := isSeries_map t (fun r => { r with y := r.y.map fun _ => Y r }) (fun _ => rfl) id s hs
  have h1 := observed_perm w args id t res h s hs hd hout
  have h2 := observed_perm w' args' id (revised Y t) res' h' s hs' hd hout'
  rw [counted_revised, List.map_map, hstart] at h2
  exact h1.trans h2.symm

/-- The fitted values before and after a revision solve the normal equations of the observations and of the revised values. -/
theorem fit_normal [IsStrictOrderedRing K] (w w' : World K) (args args' : RunArgs K) (id : String) (t : STable K) (hp : Proper t) (s : String)
    (hs : IsSeries t id s) (Y : SRow K → K) (res res' : RunResult K) (h : runForecast w args id t = .ok (some res))
    (h' : runForecast w' args' id (revised Y t) = .ok (some res')) (hstart : args'.start = args.start) (hout : args.findOutliers = false)
    (hout' : args'.findOutliers = false)
    (m : ForecastModel K) (reg : Registry K) (feats : List (Feature K)) (hm : AddsUp m reg feats) (hlev : HasLevel feats) (hne : feats ≠ [])
    (hx : FitsExactly w args s (seriesFrame t s) m reg) (hx' : FitsExactly w' args' s (seriesFrame (revised Y t) s) m reg)
    (hid : Identifies feats (originOf t s) (observed (partOf t s res)))
    (r0 r0' : DRow K) (hr : ForecastOf (partOf t s res) m.name r0) (hr' : ForecastOf (partOf t s res') m.name r0') :
    ∃ p p' : List K, p.length = feats.length ∧ p'.length = feats.length ∧
      ForecastsAre (partOf t s res) m.name (fun d => combination feats p ((d - originOf t s) / (24 * 60 * 60 * 1000000000)) d) ∧
      ForecastsAre (partOf t s res') m.name (fun d => combination feats p' ((d - originOf t s) / (24 * 60 * 60 * 1000000000)) d) ∧
      (∀ φ ∈ feats, ((counted args.start t s).map fun r => rowWeight t r ^ 2 *
        (r.y.getD 0 - combination feats p ((r.date - originOf t s) / (24 * 60 * 60 * 1000000000)) r.date) *
          φ ((r.date - originOf t s) / (24 * 60 * 60 * 1000000000)) r.date).sum = 0) ∧
      ∀ φ ∈ feats, ((counted args.start t s).map fun r => rowWeight t r ^ 2 *
        (Y r - combination feats p' ((r.date - originOf t s) / (24 * 60 * 60 * 1000000000)) r.date) *
          φ ((r.date - originOf t s) / (24 * 60 * 60 * 1000000000)) r.date).sum = 0 := by
  have ho : originOf (revised Y t) s = originOf t s := by
    unfold originOf rowsOf revised only
    dsimp only
    split_ifs
    · rw [List.filter_map]
      cases hl : t.rows.filter ((fun r => decide (r.source = some s)) ∘ fun r : SRow K => { r with y := r.y.map fun _ => Y r }) with
      | nil =>
        have : t.rows.filter (fun r => decide (r.source = some s)) = [] := hl
        rw [this]; rfl
      | cons a l =>
        have : t.rows.filter (fun r => decide (r.source = some s)) = a :: l := hl
        rw [this]; rfl
    · cases t.rows <;> rfl
  have hpart : partOf (revised Y t) s res' = partOf t s res' := rfl
  have hp' : Proper (revised Y t) := proper_map t _ 0 (fun _ => rfl) (fun _ => (add_zero _).symm) hp
  have hs' : IsSeries (revised Y t) id s := isSeries_map t (fun r => { r with y := r.y.map fun _ => Y r }) (fun _ => rfl) id s hs
  obtain ⟨p, hpl, hf, ho1⟩ := C88_table w args id t hp s hs res h m reg feats hm hlev hne hx hid r0 hr
  have hid' := identifies_dates feats (originOf t s) _ _ (revised_dates w w' args args' id t hp s hs Y res res' h h' hstart hout hout') hid
  obtain ⟨p', hpl', hf', ho1'⟩ := C88_table w' args' id (revised Y t) hp' s hs' res' h' m reg feats hm hlev hne hx' (by rw [ho, hpart]; exact hid') r0' hr'
  rw [hpart, ho] at hf' ho1'
  have hd : t.hasDate = true := hp.onePerDate.hasDate
  have a1 : ∀ φ ∈ feats, ((counted args.start t s).map fun r => rowWeight t r ^ 2 *
      (r.y.getD 0 - combination feats p ((r.date - originOf t s) / (24 * 60 * 60 * 1000000000)) r.date) *
        φ ((r.date - originOf t s) / (24 * 60 * 60 * 1000000000)) r.date).sum = 0 := by
    intro φ hφ
    have := ho1 φ hφ
    unfold errorSum at this
    rw [observed_sum w args id t res h s hs hd hout fun d y wt => wt ^ 2 *
      (y - combination feats p ((d - originOf t s) / (24 * 60 * 60 * 1000000000)) d) * φ ((d - originOf t s) / (24 * 60 * 60 * 1000000000)) d] at this
    exact this
  have a2 : ∀ φ ∈ feats, ((counted args.start t s).map fun r => rowWeight t r ^ 2 *
      (Y r - combination feats p' ((r.date - originOf t s) / (24 * 60 * 60 * 1000000000)) r.date) *
        φ ((r.date - originOf t s) / (24 * 60 * 60 * 1000000000)) r.date).sum = 0 := by
    intro φ hφ
    have := ho1' φ hφ
    unfold errorSum at this
    rw [← hpart, observed_sum w' args' id (revised Y t) res' h' s hs' hd hout' fun d y wt => wt ^ 2 *
      (y - combination feats p' ((d - originOf t s) / (24 * 60 * 60 * 1000000000)) d) * φ ((d - originOf t s) / (24 * 60 * 60 * 1000000000)) d,
      counted_revised, List.map_map, hstart] at this
    refine Eq.trans ?_ this
    congr 1
    apply List.map_congr_left
    intro r hr
    have hy : r.y.isSome = true := by
      have := (List.mem_filter.1 hr).2
      simp only [Bool.and_eq_true] at this
      exact this.1.2
    obtain ⟨y, hy⟩ := Option.isSome_iff_exists.1 hy
    simp only [Function.comp, hy]
    rfl
  exact ⟨p, p', hpl, hpl', hf, hf', a1, a2⟩

/-- The fitted values before and after a revision: the change of the fit, summed against itself, is its sum against the revision. -/
theorem fit_change [IsStrictOrderedRing K] (w w' : World K) (args args' : RunArgs K) (id : String) (t : STable K) (hp : Proper t) (s : String)
    (hs : IsSeries t id s) (Y : SRow K → K) (res res' : RunResult K) (h : runForecast w args id t = .ok (some res))
    (h' : runForecast w' args' id (revised Y t) = .ok (some res')) (hstart : args'.start = args.start) (hout : args.findOutliers = false)
    (hout' : args'.findOutliers = false)
    (m : ForecastModel K) (reg : Registry K) (feats : List (Feature K)) (hm : AddsUp m reg feats) (hlev : HasLevel feats) (hne : feats ≠ [])
    (hx : FitsExactly w args s (seriesFrame t s) m reg) (hx' : FitsExactly w' args' s (seriesFrame (revised Y t) s) m reg)
    (hid : Identifies feats (originOf t s) (observed (partOf t s res)))
    (r0 r0' : DRow K) (hr : ForecastOf (partOf t s res) m.name r0) (hr' : ForecastOf (partOf t s res') m.name r0') :
    ∃ p p' : List K, p.length = feats.length ∧ p'.length = feats.length ∧
      ForecastsAre (partOf t s res) m.name (fun d => combination feats p ((d - originOf t s) / (24 * 60 * 60 * 1000000000)) d) ∧
      ForecastsAre (partOf t s res') m.name (fun d => combination feats p' ((d - originOf t s) / (24 * 60 * 60 * 1000000000)) d) ∧
      ((counted args.start t s).map fun r => rowWeight t r ^ 2 * (Y r - r.y.getD 0) *
        (combination feats p' ((r.date - originOf t s) / (24 * 60 * 60 * 1000000000)) r.date -
          combination feats p ((r.date - originOf t s) / (24 * 60 * 60 * 1000000000)) r.date)).sum =
      squares args.start t s fun r => combination feats p' ((r.date - originOf t s) / (24 * 60 * 60 * 1000000000)) r.date -
          combination feats p ((r.date - originOf t s) / (24 * 60 * 60 * 1000000000)) r.date := by
  obtain ⟨p, p', hpl, hpl', hf, hf', a1, a2⟩ := fit_normal w w' args args' id t hp s hs Y res res' h h' hstart hout hout' m reg feats hm hlev hne hx hx' hid r0 r0' hr hr'
  refine ⟨p, p', hpl, hpl', hf, hf', ?_⟩
  have b1 := combination_sum _ _ _ feats p a1
  have b1' := combination_sum _ _ _ feats p' a1
  have b2 := combination_sum _ _ _ feats p a2
  have b2' := combination_sum _ _ _ feats p' a2
  unfold squares
  rw [← sub_eq_zero]
  have e := sum_map_minus (K := K)
  have c1 := congrArg₂ (· - ·) b2' b2
  have c2 := congrArg₂ (· - ·) b1' b1
  have c3 := congrArg₂ (· - ·) c1 c2
  rw [e, e, e] at c3
  rw [e]
  refine Eq.trans ?_ (c3.trans (by ring))
  congr 1
  apply List.map_congr_left
  intro r _
  ring

omit [FloorRing K] in
theorem sum_nonneg_of [IsStrictOrderedRing K] (l : List (SRow K)) (f g : SRow K → K) (h : ∀ r ∈ l, f r ≤ g r) : (l.map f).sum ≤ (l.map g).sum := by
  induction l with
  | nil => simp
  | cons a l ih =>
    simp only [List.map_cons, List.sum_cons]
    exact add_le_add (h a (by simp)) (ih fun r hr => h r (by simp [hr]))

/-- **C106, whole series.** Whatever values are revised, the fitted values of an additive model move no further than the observations: the sum of the squares of
their changes over the rows that count, with squared weights, is at most that of the changes of the observations. -/
theorem C106_total [IsStrictOrderedRing K] (w w' : World K) (args args' : RunArgs K) (id : String) (t : STable K) (hp : Proper t) (s : String)
    (hs : IsSeries t id s) (Y : SRow K → K) (res res' : RunResult K) (h : runForecast w args id t = .ok (some res))
    (h' : runForecast w' args' id (revised Y t) = .ok (some res')) (hstart : args'.start = args.start) (hout : args.findOutliers = false)
    (hout' : args'.findOutliers = false)
    (m : ForecastModel K) (reg : Registry K) (feats : List (Feature K)) (hm : AddsUp m reg feats) (hlev : HasLevel feats) (hne : feats ≠ [])
    (hx : FitsExactly w args s (seriesFrame t s) m reg) (hx' : FitsExactly w' args' s (seriesFrame (revised Y t) s) m reg)
    (hid : Identifies feats (originOf t s) (observed (partOf t s res)))
    (r0 r0' : DRow K) (hr : ForecastOf (partOf t s res) m.name r0) (hr' : ForecastOf (partOf t s res') m.name r0') :
    ∃ f f' : Timestamp → K, ForecastsAre (partOf t s res) m.name f ∧ ForecastsAre (partOf t s res') m.name f' ∧
      squares args.start t s (fun r => f' r.date - f r.date) ≤ squares args.start t s fun r => Y r - r.y.getD 0 := by
  obtain ⟨p, p', -, -, hf, hf', e⟩ := fit_change w w' args args' id t hp s hs Y res res' h h' hstart hout hout' m reg feats hm hlev hne hx hx' hid r0 r0' hr hr'
  refine ⟨_, _, hf, hf', ?_⟩
  have key : ((counted args.start t s).map fun r => rowWeight t r ^ 2 * (Y r - r.y.getD 0) *
        (combination feats p' ((r.date - originOf t s) / (24 * 60 * 60 * 1000000000)) r.date -
          combination feats p ((r.date - originOf t s) / (24 * 60 * 60 * 1000000000)) r.date)).sum +
      ((counted args.start t s).map fun r => rowWeight t r ^ 2 * (Y r - r.y.getD 0) *
        (combination feats p' ((r.date - originOf t s) / (24 * 60 * 60 * 1000000000)) r.date -
          combination feats p ((r.date - originOf t s) / (24 * 60 * 60 * 1000000000)) r.date)).sum ≤
      squares args.start t s (fun r => Y r - r.y.getD 0) +
      squares args.start t s fun r => combination feats p' ((r.date - originOf t s) / (24 * 60 * 60 * 1000000000)) r.date -
          combination feats p ((r.date - originOf t s) / (24 * 60 * 60 * 1000000000)) r.date := by
    unfold squares
    rw [← List.sum_map_add, ← List.sum_map_add]
    apply sum_nonneg_of
    intro r _
    nlinarith [mul_nonneg (sq_nonneg (rowWeight t r)) (sq_nonneg ((Y r - r.y.getD 0) -
      (combination feats p' ((r.date - originOf t s) / (24 * 60 * 60 * 1000000000)) r.date -
          combination feats p ((r.date - originOf t s) / (24 * 60 * 60 * 1000000000)) r.date)))]
  rw [e] at key
  linarith

omit [FloorRing K] in
theorem counted_distinct (start : Option Timestamp) (t : STable K) (s : String) (hp : Proper t) :
    (counted start t s).Pairwise fun r r' => r.date ≠ r'.date := by
  unfold counted
  refine List.Pairwise.filter _ ?_
  unfold rowsOf only
  split_ifs with hs
  · refine (List.pairwise_filter.2 (hp.onePerDate.distinct.imp ?_))
    intro a b h ha hb
    exact h fun _ => by rw [of_decide_eq_true ha, of_decide_eq_true hb]
  · refine hp.onePerDate.distinct.imp ?_
    intro a b h
    exact h fun hc => absurd hc hs

omit [FloorRing K] in
theorem sum_le_one [IsStrictOrderedRing K] (l : List (SRow K)) (f : SRow K → K) (a : SRow K) (ha : a ∈ l) (hd : l.Pairwise fun r r' => r.date ≠ r'.date)
    (h : ∀ r ∈ l, r.date ≠ a.date → f r ≤ 0) : (l.map f).sum ≤ f a := by
  induction l with
  | nil => cases ha
  | cons b l ih =>
    rw [List.map_cons, List.sum_cons]
    rw [List.pairwise_cons] at hd
    rcases List.mem_cons.1 ha with rfl | ha'
    · have : (l.map f).sum ≤ (l.map fun _ => (0 : K)).sum := sum_nonneg_of l _ _ fun r hr => h r (by simp [hr]) (Ne.symm (hd.1 r hr))
      simp at this
      linarith
    · have h1 := h b (by simp) (hd.1 a ha')
      have h2 := ih ha' hd.2 fun r hr => h r (by simp [hr])
      linarith

/-- **C106.** If one observation of a series is revised, the forecast of an additive model for its date moves in the same direction, and by no more. -/
theorem C106_follows [IsStrictOrderedRing K] (w w' : World K) (args args' : RunArgs K) (id : String) (t : STable K) (hp : Proper t) (s : String)
    (hs : IsSeries t id s) (Y : SRow K → K) (a : SRow K) (ha : a ∈ counted args.start t s)
    (hY : ∀ r ∈ counted args.start t s, r.date ≠ a.date → r.y = some (Y r))
    (res res' : RunResult K) (h : runForecast w args id t = .ok (some res))
    (h' : runForecast w' args' id (revised Y t) = .ok (some res')) (hstart : args'.start = args.start) (hout : args.findOutliers = false)
    (hout' : args'.findOutliers = false)
    (m : ForecastModel K) (reg : Registry K) (feats : List (Feature K)) (hm : AddsUp m reg feats) (hlev : HasLevel feats) (hne : feats ≠ [])
    (hx : FitsExactly w args s (seriesFrame t s) m reg) (hx' : FitsExactly w' args' s (seriesFrame (revised Y t) s) m reg)
    (hid : Identifies feats (originOf t s) (observed (partOf t s res)))
    (r r' : DRow K) (hr : ForecastOf (partOf t s res) m.name r) (hr' : ForecastOf (partOf t s res') m.name r')
    (hdate : r.date = a.date) (hdate' : r'.date = a.date) :
    ∃ old f f', a.y = some old ∧ r.y = some f ∧ r'.y = some f' ∧
      (old ≤ Y a → f ≤ f' ∧ f' - f ≤ Y a - old) ∧ (Y a ≤ old → f' ≤ f ∧ f - f' ≤ old - Y a) := by
  obtain ⟨p, p', -, -, hf, hf', e⟩ := fit_change w w' args args' id t hp s hs Y res res' h h' hstart hout hout' m reg feats hm hlev hne hx hx' hid r r' hr hr'
  have hmem := List.mem_filter.1 ha
  have hy : a.y.isSome = true ∧ 0 < rowWeight t a := by
    have := hmem.2
    simp only [Bool.and_eq_true, decide_eq_true_eq] at this
    exact ⟨this.1.2, this.2⟩
  obtain ⟨old, hold⟩ := Option.isSome_iff_exists.1 hy.1
  refine ⟨old, _, _, hold, hf r hr.1 hr.2.1 hr.2.2, hf' r' hr'.1 hr'.2.1 hr'.2.2, ?_⟩
  rw [hdate, hdate']
  dsimp only
  generalize hF : (fun d => combination feats p ((d - originOf t s) / (24 * 60 * 60 * 1000000000)) d) = F at hf
  generalize hF' : (fun d => combination feats p' ((d - originOf t s) / (24 * 60 * 60 * 1000000000)) d) = F' at hf'
  have f1 : ∀ d, combination feats p ((d - originOf t s) / (24 * 60 * 60 * 1000000000)) d = F d := fun d => congrFun hF d
  have f2 : ∀ d, combination feats p' ((d - originOf t s) / (24 * 60 * 60 * 1000000000)) d = F' d := fun d => congrFun hF' d
  simp only [f1, f2] at e ⊢
  have key : rowWeight t a ^ 2 * (F' a.date - F a.date) ^ 2 ≤ rowWeight t a ^ 2 * (Y a - old) * (F' a.date - F a.date) := by
    have z : ((counted args.start t s).map fun r => rowWeight t r ^ 2 * (Y r - r.y.getD 0) * (F' r.date - F r.date) -
        rowWeight t r ^ 2 * (F' r.date - F r.date) ^ 2).sum = 0 := by
      rw [← sum_map_minus]
      exact sub_eq_zero.2 e
    have := sum_le_one (counted args.start t s) (fun r => rowWeight t r ^ 2 * (Y r - r.y.getD 0) * (F' r.date - F r.date) -
        rowWeight t r ^ 2 * (F' r.date - F r.date) ^ 2) a ha (counted_distinct args.start t s hp) (by
      intro q hq hne
      rw [hY q hq hne]
      dsimp only [Option.getD]
      rw [sub_self, mul_zero, zero_mul, zero_sub]
      exact neg_nonpos.2 (mul_nonneg (sq_nonneg _) (sq_nonneg _)))
    rw [z, hold] at this
    dsimp only [Option.getD] at this
    linarith
  have hw : 0 < rowWeight t a ^ 2 := by have := hy.2; positivity
  have k2 : (F' a.date - F a.date) ^ 2 ≤ (Y a - old) * (F' a.date - F a.date) := by
    rw [mul_assoc] at key
    exact le_of_mul_le_mul_left key hw
  constructor
  · intro hle
    constructor
    · by_contra hc
      nlinarith
    · by_contra hc
      nlinarith
  · intro hle
    constructor
    · by_contra hc
      nlinarith
    · by_contra hc
      nlinarith

/-- Three days with the values 0, 0 and 3. -/
def highTable : STable ℚ := ⟨true, false, false, false, [⟨0, none, 0, some 0, none⟩, ⟨DAY, none, 0, some 0, none⟩, ⟨2 * DAY, none, 0, some 3, none⟩]⟩

/-- The last value becomes 6. -/
def higher (r : SRow ℚ) : ℚ := if r.date = 2 * DAY then 6 else 0

example : Proper highTable ∧ IsSeries highTable "s" "s" ∧ (counted none highTable "s").length = 3 ∧
    (∀ r ∈ counted none highTable "s", r.date ≠ 2 * DAY → r.y = some (higher r)) := by
  refine ⟨⟨⟨rfl, rfl, by decide +kernel, by decide +kernel⟩, fun h => by cases h⟩, ?_, by decide +kernel, by decide +kernel⟩
  unfold IsSeries
  decide +kernel

/-- The fitted value rises from 1 to 2, the observation from 3 to 6. -/
example : ((runForecast meanWorld (demoArgs [modelConstant] (some [])) "s" highTable).toOption.bind fun r => r.map fun r =>
      (r.data.filter fun q => !q.isActuals).map fun q => q.y) = some (List.replicate 6 (some 1)) ∧
    ((runForecast meanWorld (demoArgs [modelConstant] (some [])) "s" (revised higher highTable)).toOption.bind fun r => r.map fun r =>
      (r.data.filter fun q => !q.isActuals).map fun q => q.y) = some (List.replicate 6 (some 2)) := by decide +kernel

end Anticipy
