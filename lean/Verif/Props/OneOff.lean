import Verif.Spec.OneOff
import Verif.Props.Leverage

/-
C110: an event with a dummy of its own has no influence on the rest of the fit.
-/
namespace Anticipy
open Spec
variable {K : Type} [Field K] [LinearOrder K] [FloorRing K]

omit [FloorRing K] in
/-- Without the values on the days of the event, these rows do not count any more; the others stay as they are. -/
theorem counted_blanked (start : Option Timestamp) (t : STable K) (s : String) (event : Timestamp → Bool) :
    counted start (blanked event t) s = (counted start t s).filter fun r => !event r.date := by
  have hso : ∀ r : SRow K, (if event r.date then { r with y := none } else r).source = r.source := by intro r; split <;> rfl
  have e : rowsOf (blanked event t) s = (rowsOf t s).map fun r => if event r.date then { r with y := none } else r := by
    unfold rowsOf blanked only
    dsimp only
    split_ifs
    · rw [List.filter_map]
      congr 1
      apply List.filter_congr
      intro r _
      simp only [Function.comp, hso]
    · rfl
  unfold counted
  rw [e, List.filter_filter]
  induction rowsOf t s with
  | nil => rfl
  | cons r l ih =>
    rw [List.map_cons, List.filter_cons, List.filter_cons, ih]
    cases hev : event r.date
    · simp only [Bool.false_eq_true, if_false, hev, Bool.not_false, Bool.true_and]
      rfl
    · simp

omit [FloorRing K] in
theorem origin_blanked (t : STable K) (s : String) (event : Timestamp → Bool) : originOf (blanked event t) s = originOf t s := by
  have hg : ∀ r : SRow K, (if event r.date then { r with y := none } else r).date = r.date := by intro r; split <;> rfl
  have hso : ∀ r : SRow K, (if event r.date then { r with y := none } else r).source = r.source := by intro r; split <;> rfl
  have e : rowsOf (blanked event t) s = (rowsOf t s).map fun r => if event r.date then { r with y := none } else r := by
    unfold rowsOf blanked only
    dsimp only
    split_ifs
    · rw [List.filter_map]
      congr 1
      apply List.filter_congr
      intro r _
      simp only [Function.comp, hso]
    · rfl
  unfold originOf
  rw [e]
  cases rowsOf t s with
  | nil => rfl
  | cons r l => simp only [List.map_cons, hg]

omit [LinearOrder K] [FloorRing K] in
theorem sum_on_event (l : List (SRow K)) (event : Timestamp → Bool) (f : SRow K → K) (v : K) (h : ∀ r ∈ l, event r.date = true → f r = v) :
    (l.map fun r => f r * eventFlag event r.date).sum = ((l.filter fun r => event r.date).length : K) * v := by
  induction l with
  | nil => simp
  | cons r l ih =>
    rw [List.map_cons, List.sum_cons, ih fun q hq => h q (List.mem_cons_of_mem _ hq), List.filter_cons]
    unfold eventFlag
    cases hev : event r.date
    · simp
    · simp only [if_true, mul_one, List.length_cons]
      rw [h r List.mem_cons_self hev]
      push_cast
      ring

omit [LinearOrder K] [FloorRing K] in
theorem sum_off_event (l : List (SRow K)) (event : Timestamp → Bool) (f : SRow K → K) (h : ∀ r ∈ l, event r.date = true → f r = 0) :
    (l.map f).sum = ((l.filter fun r => !event r.date).map f).sum := by
  induction l with
  | nil => simp
  | cons r l ih =>
    rw [List.map_cons, List.sum_cons, ih fun q hq => h q (List.mem_cons_of_mem _ hq), List.filter_cons]
    cases hev : event r.date
    · simp
    · simp [h r List.mem_cons_self hev]

omit [FloorRing K] in
/-- Two solutions of the normal equations agree wherever there are observations. -/
theorem normal_unique [IsStrictOrderedRing K] (l : List (SRow K)) (W Y : SRow K → K) (hW : ∀ r ∈ l, 0 < W r) (t0 : Timestamp) (feats : List (Feature K)) (p q : List K)
    (hp : ∀ φ ∈ feats, (l.map fun r => W r ^ 2 * (Y r - combination feats p ((r.date - t0) / (24 * 60 * 60 * 1000000000)) r.date) *
      φ ((r.date - t0) / (24 * 60 * 60 * 1000000000)) r.date).sum = 0)
    (hq : ∀ φ ∈ feats, (l.map fun r => W r ^ 2 * (Y r - combination feats q ((r.date - t0) / (24 * 60 * 60 * 1000000000)) r.date) *
      φ ((r.date - t0) / (24 * 60 * 60 * 1000000000)) r.date).sum = 0) :
    ∀ r ∈ l, combination feats p ((r.date - t0) / (24 * 60 * 60 * 1000000000)) r.date = combination feats q ((r.date - t0) / (24 * 60 * 60 * 1000000000)) r.date := by
  have a1 := combination_sum _ _ _ feats p hp
  have a2 := combination_sum _ _ _ feats q hp
  have b1 := combination_sum _ _ _ feats p hq
  have b2 := combination_sum _ _ _ feats q hq
  have e := sum_map_minus (K := K)
  have c := congrArg₂ (· - ·) (congrArg₂ (· - ·) b1 b2) (congrArg₂ (· - ·) a1 a2)
  rw [e, e, e] at c
  have z : (l.map fun r => W r ^ 2 * (combination feats p ((r.date - t0) / (24 * 60 * 60 * 1000000000)) r.date -
      combination feats q ((r.date - t0) / (24 * 60 * 60 * 1000000000)) r.date) ^ 2).sum = 0 := by
    refine Eq.trans ?_ (c.trans (by ring))
    congr 1
    apply List.map_congr_left
    intro r _
    ring
  intro r hr
  have hz : W r ^ 2 * (combination feats p ((r.date - t0) / (24 * 60 * 60 * 1000000000)) r.date -
      combination feats q ((r.date - t0) / (24 * 60 * 60 * 1000000000)) r.date) ^ 2 = 0 := by
    refine le_antisymm ?_ (mul_nonneg (sq_nonneg _) (sq_nonneg _))
    rw [← z]
    exact List.single_le_sum (by
      intro x hx
      obtain ⟨q, -, rfl⟩ := List.mem_map.1 hx
      exact mul_nonneg (sq_nonneg _) (sq_nonneg _)) _ (List.mem_map.2 ⟨r, hr, rfl⟩)
  have hw := hW r hr
  rcases mul_eq_zero.1 hz with h0 | h0
  · exact absurd h0 (ne_of_gt (pow_pos hw 2))
  · exact sub_eq_zero.1 (pow_eq_zero_iff two_ne_zero |>.1 h0)

/-- **C110.** A model with a dummy for an event that is observed on one date only: on this date the fit is exact, and everywhere else the forecasts are those of the
model without the dummy for the series without the observation. -/
theorem C110_event [IsStrictOrderedRing K] (w w' : World K) (args args' : RunArgs K) (id : String) (t : STable K) (hp : Proper t) (s : String) (hs : IsSeries t id s)
    (event : Timestamp → Bool) (res res' : RunResult K) (h : runForecast w args id t = .ok (some res))
    (h' : runForecast w' args' id (blanked event t) = .ok (some res')) (hstart : args'.start = args.start) (hout : args.findOutliers = false)
    (hout' : args'.findOutliers = false)
    (a : SRow K) (ha : a ∈ counted args.start t s) (hev : event a.date = true) (hone : ∀ r ∈ counted args.start t s, event r.date = true → r.date = a.date)
    (m e : ForecastModel K) (reg : Registry K) (feats : List (Feature K)) (hm : AddsUp m reg feats) (he : AddsUp e reg (flagFeature (eventFlag event)))
    (hlev : HasLevel feats) (hne : feats ≠ [])
    (hx : FitsExactly w args s (seriesFrame t s) (m.add e) reg) (hx' : FitsExactly w' args' s (seriesFrame (blanked event t) s) m reg)
    (hid : Identifies feats (originOf t s) (observed (partOf t s res')))
    (r r' : DRow K) (hr : ForecastOf (partOf t s res) (m.add e).name r) (hr' : ForecastOf (partOf t s res') m.name r') :
    (r.date = a.date → r.y = a.y) ∧ (r'.date = r.date → event r.date = false → r'.y = r.y) := by
  have hd : t.hasDate = true := hp.onePerDate.hasDate
  have hg : ∀ r : SRow K, (if event r.date then { r with y := none } else r).date = r.date := by intro r; split <;> rfl
  have hso : ∀ r : SRow K, (if event r.date then { r with y := none } else r).source = r.source := by intro r; split <;> rfl
  have hp' : Proper (blanked event t) := proper_map t _ 0 hso (fun r => by rw [hg, add_zero]) hp
  have hs' : IsSeries (blanked event t) id s := isSeries_map t _ hso id s hs
  have ho := origin_blanked t s event
  have hpart : partOf (blanked event t) s res' = partOf t s res' := rfl
  have hdates : ∀ d, (∃ o ∈ observed (partOf t s res'), o.date = d) ↔ ∃ q ∈ counted args.start t s, q.date = d ∧ event d = false := by
    intro d
    have hperm := (observed_perm w' args' id (blanked event t) res' h' s hs' hd hout').mem_iff (a := d)
    rw [counted_blanked, hpart, hstart] at hperm
    simp only [List.mem_map, List.mem_filter, Bool.not_eq_true'] at hperm
    rw [hperm]
    constructor
    · rintro ⟨q, ⟨h1, h2⟩, rfl⟩
      exact ⟨q, h1, rfl, h2⟩
    · rintro ⟨q, h1, rfl, h2⟩
      exact ⟨q, ⟨h1, h2⟩, rfl⟩
  have hdates1 : ∀ d, (∃ o ∈ observed (partOf t s res), o.date = d) ↔ ∃ q ∈ counted args.start t s, q.date = d := by
    intro d
    have hperm := (observed_perm w args id t res h s hs hd hout).mem_iff (a := d)
    simp only [List.mem_map] at hperm
    exact hperm
  have hflag : ∀ (c : K) x d, combination (flagFeature (eventFlag event)) [c] x d = c * eventFlag event d := by
    intro c x d
    simp [combination, flagFeature]
  have hsplit : ∀ P : List K, P.length = (feats ++ flagFeature (eventFlag (K := K) event)).length → ∃ p c, P = p ++ [c] ∧ p.length = feats.length ∧
      ∀ x d, combination (feats ++ flagFeature (eventFlag event)) P x d = combination feats p x d + c * eventFlag event d := by
    intro P hP
    rw [List.length_append] at hP
    have hlen : (flagFeature (eventFlag (K := K) event)).length = 1 := rfl
    rw [hlen] at hP
    have hPne : P ≠ [] := by intro hc; rw [hc] at hP; cases hP
    have hdl : P.dropLast.length = feats.length := by rw [List.length_dropLast, hP]; rfl
    refine ⟨P.dropLast, P.getLast hPne, (List.dropLast_append_getLast hPne).symm, hdl, ?_⟩
    intro x d
    conv_lhs => rw [← List.dropLast_append_getLast hPne]
    rw [combination_append _ _ _ _ hdl, hflag]
  -- the samples tell the combinations apart
  have hid1 : Identifies (feats ++ flagFeature (eventFlag event)) (originOf t s) (observed (partOf t s res)) := by
    intro P Q hP hQ hagree
    obtain ⟨p, c, -, hpl, hPv⟩ := hsplit P hP
    obtain ⟨q, c', -, hql, hQv⟩ := hsplit Q hQ
    have hbase : ∀ x d, combination feats p x d = combination feats q x d := by
      refine hid p q hpl hql ?_
      intro o ho'
      obtain ⟨q0, hq0, e0, e1⟩ := (hdates o.date).1 ⟨o, ho', rfl⟩
      obtain ⟨o1, ho1, e2⟩ := (hdates1 o.date).2 ⟨q0, hq0, e0⟩
      have := hagree o1 ho1
      rw [hPv, hQv, e2] at this
      have hz : eventFlag (K := K) event o.date = 0 := by unfold eventFlag; rw [e1]; rfl
      rw [hz, mul_zero, mul_zero, add_zero, add_zero] at this
      exact this
    obtain ⟨o1, ho1, e2⟩ := (hdates1 a.date).2 ⟨a, ha, rfl⟩
    have hc := hagree o1 ho1
    have h1 : eventFlag (K := K) event a.date = 1 := by unfold eventFlag; rw [hev]; rfl
    rw [hPv, hQv, e2, h1, mul_one, mul_one, hbase] at hc
    intro x d
    rw [hPv, hQv, hbase, add_left_cancel hc]
  obtain ⟨P, hPl, hf, ho1⟩ := C88_table w args id t hp s hs res h (m.add e) reg _ (hm.add he) (hasLevel_left _ _ hlev) (by simp [hne]) hx hid1 r hr
  obtain ⟨q, hql, hf', ho2⟩ := C88_table w' args' id (blanked event t) hp' s hs' res' h' m reg feats hm hlev hne hx' (by rw [ho, hpart]; exact hid) r' hr'
  rw [hpart, ho] at hf' ho2
  obtain ⟨p, c, -, hpl, hPv⟩ := hsplit P hPl
  have hW : ∀ r ∈ counted args.start t s, 0 < rowWeight t r := by
    intro r hr
    have := (List.mem_filter.1 hr).2
    simp only [Bool.and_eq_true, decide_eq_true_eq] at this
    exact this.2
  have a1 : ∀ φ ∈ feats ++ flagFeature (eventFlag event), ((counted args.start t s).map fun r => rowWeight t r ^ 2 *
      (r.y.getD 0 - (combination feats p ((r.date - originOf t s) / (24 * 60 * 60 * 1000000000)) r.date + c * eventFlag event r.date)) *
        φ ((r.date - originOf t s) / (24 * 60 * 60 * 1000000000)) r.date).sum = 0 := by
    intro φ hφ
    have := ho1 φ hφ
    unfold errorSum at this
    rw [observed_sum w args id t res h s hs hd hout fun d y wt => wt ^ 2 *
      (y - combination (feats ++ flagFeature (eventFlag event)) P ((d - originOf t s) / (24 * 60 * 60 * 1000000000)) d) *
        φ ((d - originOf t s) / (24 * 60 * 60 * 1000000000)) d] at this
    simp only [hPv] at this
    exact this
  have hsame : ∀ r ∈ counted args.start t s, event r.date = true → r = a := by
    intro r hr hrev
    by_contra hc
    have hpw := counted_distinct args.start t s hp
    haveI : Std.Symm fun r r' : SRow K => r.date ≠ r'.date := ⟨fun _ _ h => h.symm⟩
    have hd' : ∀ x ∈ counted args.start t s, ∀ y ∈ counted args.start t s, x ≠ y → x.date ≠ y.date :=
      fun x hx y hy hxy => hpw.forall hx hy hxy
    exact hd' r hr a ha hc (hone r hr hrev)
  -- the error on the day of the event vanishes
  have hzero : a.y.getD 0 - (combination feats p ((a.date - originOf t s) / (24 * 60 * 60 * 1000000000)) a.date + c * eventFlag event a.date) = 0 := by
    have := a1 (fun _ d => eventFlag event d) (List.mem_append_right _ (List.mem_singleton.2 rfl))
    rw [sum_on_event _ event (fun r => rowWeight t r ^ 2 *
      (r.y.getD 0 - (combination feats p ((r.date - originOf t s) / (24 * 60 * 60 * 1000000000)) r.date + c * eventFlag event r.date)))
      (rowWeight t a ^ 2 * (a.y.getD 0 - (combination feats p ((a.date - originOf t s) / (24 * 60 * 60 * 1000000000)) a.date + c * eventFlag event a.date)))
      (fun r hr hrev => by rw [hsame r hr hrev])] at this
    rcases mul_eq_zero.1 this with h0 | h0
    · exfalso
      have hl : 0 < ((counted args.start t s).filter fun r => event r.date).length := List.length_pos_of_mem (List.mem_filter.2 ⟨ha, hev⟩)
      exact absurd h0 (by exact_mod_cast hl.ne')
    · rcases mul_eq_zero.1 h0 with h0 | h0
      · exact absurd h0 (ne_of_gt (pow_pos (hW a ha) 2))
      · exact h0
  have b1 : ∀ φ ∈ feats, (((counted args.start t s).filter fun r => !event r.date).map fun r => rowWeight t r ^ 2 *
      (r.y.getD 0 - combination feats p ((r.date - originOf t s) / (24 * 60 * 60 * 1000000000)) r.date) *
        φ ((r.date - originOf t s) / (24 * 60 * 60 * 1000000000)) r.date).sum = 0 := by
    intro φ hφ
    have := a1 φ (List.mem_append_left _ hφ)
    rw [sum_off_event _ event _ (fun r hr hrev => by rw [hsame r hr hrev, hzero, mul_zero, zero_mul])] at this
    refine Eq.trans ?_ this
    congr 1
    apply List.map_congr_left
    intro r hr
    have hz : eventFlag (K := K) event r.date = 0 := by
      have := (List.mem_filter.1 hr).2
      unfold eventFlag
      rw [Bool.not_eq_true'] at this
      rw [this]
      rfl
    rw [hz, mul_zero, add_zero]
  have b2 : ∀ φ ∈ feats, (((counted args.start t s).filter fun r => !event r.date).map fun r => rowWeight t r ^ 2 *
      (r.y.getD 0 - combination feats q ((r.date - originOf t s) / (24 * 60 * 60 * 1000000000)) r.date) *
        φ ((r.date - originOf t s) / (24 * 60 * 60 * 1000000000)) r.date).sum = 0 := by
    intro φ hφ
    have := ho2 φ hφ
    unfold errorSum at this
    rw [← hpart, observed_sum w' args' id (blanked event t) res' h' s hs' hd hout' fun d y wt => wt ^ 2 *
      (y - combination feats q ((d - originOf t s) / (24 * 60 * 60 * 1000000000)) d) * φ ((d - originOf t s) / (24 * 60 * 60 * 1000000000)) d,
      counted_blanked, hstart] at this
    exact this
  have hagree := normal_unique _ (rowWeight t) (fun r => r.y.getD 0) (fun r hr => hW r (List.mem_filter.1 hr).1) _ feats p q b1 b2
  have hall : ∀ x d, combination feats p x d = combination feats q x d := by
    refine hid p q hpl hql ?_
    intro o ho'
    obtain ⟨q0, hq0, e0, e1⟩ := (hdates o.date).1 ⟨o, ho', rfl⟩
    have := hagree q0 (List.mem_filter.2 ⟨hq0, by rw [e0, e1]; rfl⟩)
    rw [e0] at this
    exact this
  have hv := hf r hr.1 hr.2.1 hr.2.2
  have hv' := hf' r' hr'.1 hr'.2.1 hr'.2.2
  constructor
  · intro hda
    rw [hv, hda]
    dsimp only
    rw [hPv]
    have hy : a.y.isSome = true := by
      have := (List.mem_filter.1 ha).2
      simp only [Bool.and_eq_true] at this
      exact this.1.2
    obtain ⟨y, hy⟩ := Option.isSome_iff_exists.1 hy
    rw [hy, Option.getD_some] at hzero
    rw [hy]
    congr 1
    linear_combination -hzero
  · intro hda hno
    rw [hv, hv', hda]
    dsimp only
    rw [hPv, hall]
    have hz : eventFlag (K := K) event r.date = 0 := by unfold eventFlag; rw [hno]; rfl
    rw [hz, mul_zero, add_zero]

omit [FloorRing K] in
theorem flag_spike (d1 d2 : Timestamp) (reg : Registry K) (label : Timestamp → String) :
    AddsUp (getModelSpikeDate label d1 d2 : ForecastModel K) reg (flagFeature (eventFlag fun d => decide (d1 ≤ d ∧ d < d2))) := by
  have e : (flagFeature (eventFlag fun d => decide (d1 ≤ d ∧ d < d2)) : List (Feature K)) = flagFeature fun t => if d1 ≤ t ∧ t < d2 then 1 else 0 := by
    unfold flagFeature eventFlag
    simp only [decide_eq_true_eq]
  rw [e]
  exact addsUp_spikeDate reg label d1 d2

omit [FloorRing K] in
theorem flag_dates (check : List Timestamp) (name : String) (hname : name ≠ "null" ∧ name ≠ "logistic" ∧ name ≠ "sigmoid") (reg : Registry K)
    (hr : reg ("mask_" ++ name) = none ∨ reg ("mask_" ++ name) = some fun ax ad => do let m ← fDummyListDate check ax ad; .ok (.mask m)) :
    AddsUp (dummyModel name (fDummyListDate check) : ForecastModel K) reg (flagFeature (eventFlag fun d => decide (d ∈ check))) := by
  refine addsUp_dummy reg name (fDummyListDate check) _ ?_ hr hname
  intro ax ds _
  simp only [fDummyListDate, isinMask]
  congr 1
  apply List.map_congr_left
  intro d _
  simp only [eventFlag, decide_eq_true_eq]

/-- **C110, spikes.** A spike model for a period with a single observation. -/
theorem C110_spike [IsStrictOrderedRing K] (w w' : World K) (args args' : RunArgs K) (id : String) (t : STable K) (hp : Proper t) (s : String) (hs : IsSeries t id s)
    (label : Timestamp → String) (d1 d2 : Timestamp) (res res' : RunResult K) (h : runForecast w args id t = .ok (some res))
    (h' : runForecast w' args' id (blanked (fun d => decide (d1 ≤ d ∧ d < d2)) t) = .ok (some res')) (hstart : args'.start = args.start)
    (hout : args.findOutliers = false) (hout' : args'.findOutliers = false)
    (a : SRow K) (ha : a ∈ counted args.start t s) (hev : d1 ≤ a.date ∧ a.date < d2) (hone : ∀ r ∈ counted args.start t s, d1 ≤ r.date → r.date < d2 → r.date = a.date)
    (m : ForecastModel K) (reg : Registry K) (feats : List (Feature K)) (hm : AddsUp m reg feats) (hlev : HasLevel feats) (hne : feats ≠ [])
    (hx : FitsExactly w args s (seriesFrame t s) (m.add (getModelSpikeDate label d1 d2)) reg)
    (hx' : FitsExactly w' args' s (seriesFrame (blanked (fun d => decide (d1 ≤ d ∧ d < d2)) t) s) m reg)
    (hid : Identifies feats (originOf t s) (observed (partOf t s res')))
    (r r' : DRow K) (hr : ForecastOf (partOf t s res) (m.add (getModelSpikeDate label d1 d2)).name r) (hr' : ForecastOf (partOf t s res') m.name r') :
    (r.date = a.date → r.y = a.y) ∧ (r'.date = r.date → (r.date < d1 ∨ d2 ≤ r.date) → r'.y = r.y) := by
  obtain ⟨h1, h2⟩ := C110_event w w' args args' id t hp s hs (fun d => decide (d1 ≤ d ∧ d < d2)) res res' h h' hstart hout hout' a ha (decide_eq_true hev)
    (fun r hr he => hone r hr (of_decide_eq_true he).1 (of_decide_eq_true he).2) m _ reg feats hm (flag_spike d1 d2 reg label) hlev hne hx hx' hid r r' hr hr'
  exact ⟨h1, fun hd hno => h2 hd (decide_eq_false (by omega))⟩

/-- **C110, lists of dates.** A dummy for a list of dates of which one is observed. -/
theorem C110_dates [IsStrictOrderedRing K] (w w' : World K) (args args' : RunArgs K) (id : String) (t : STable K) (hp : Proper t) (s : String) (hs : IsSeries t id s)
    (name : String) (hname : name ≠ "null" ∧ name ≠ "logistic" ∧ name ≠ "sigmoid") (check : List Timestamp)
    (res res' : RunResult K) (h : runForecast w args id t = .ok (some res))
    (h' : runForecast w' args' id (blanked (fun d => decide (d ∈ check)) t) = .ok (some res')) (hstart : args'.start = args.start)
    (hout : args.findOutliers = false) (hout' : args'.findOutliers = false)
    (a : SRow K) (ha : a ∈ counted args.start t s) (hev : a.date ∈ check) (hone : ∀ r ∈ counted args.start t s, r.date ∈ check → r.date = a.date)
    (m e : ForecastModel K) (he : getModelDummy name (fDummyListDate check) = .ok e)
    (reg : Registry K) (hreg : reg ("mask_" ++ name) = none ∨ reg ("mask_" ++ name) = some fun ax ad => do let m ← fDummyListDate check ax ad; .ok (.mask m))
    (feats : List (Feature K)) (hm : AddsUp m reg feats) (hlev : HasLevel feats) (hne : feats ≠ [])
    (hx : FitsExactly w args s (seriesFrame t s) (m.add e) reg)
    (hx' : FitsExactly w' args' s (seriesFrame (blanked (fun d => decide (d ∈ check)) t) s) m reg)
    (hid : Identifies feats (originOf t s) (observed (partOf t s res')))
    (r r' : DRow K) (hr : ForecastOf (partOf t s res) (m.add e).name r) (hr' : ForecastOf (partOf t s res') m.name r') :
    (r.date = a.date → r.y = a.y) ∧ (r'.date = r.date → r.date ∉ check → r'.y = r.y) := by
  have hdm : e = dummyModel name (fDummyListDate check) := by
    unfold getModelDummy at he
    simp only [bind, Except.bind] at he
    split at he
    · cases he
    · exact (Except.ok.inj he).symm
  subst hdm
  obtain ⟨h1, h2⟩ := C110_event w w' args args' id t hp s hs (fun d => decide (d ∈ check)) res res' h h' hstart hout hout' a ha (decide_eq_true hev)
    (fun r hr he => hone r hr (of_decide_eq_true he)) m _ reg feats hm (flag_dates check name hname reg hreg) hlev hne hx hx' hid r r' hr hr'
  exact ⟨h1, fun hd hno => h2 hd (decide_eq_false hno)⟩

/-! ### A concrete case -/

/-- Six days on the line `2 x + 1` but for an event on day 7; a missing value before it. -/
def eventTable : STable ℚ := ⟨true, true, false, false, [⟨4 * DAY, some "a", 0, some 1, none⟩, ⟨5 * DAY, some "a", 0, some 3, none⟩, ⟨6 * DAY, some "a", 0, none, none⟩,
  ⟨7 * DAY, some "a", 0, some 50, none⟩, ⟨9 * DAY, some "a", 0, some 11, none⟩, ⟨8 * DAY, some "a", 0, some 9, none⟩]⟩

def eventModel : ForecastModel ℚ := getModelSpikeDate (fun _ => "") (7 * DAY) (8 * DAY)

example : Proper eventTable ∧ IsSeries eventTable "" "a" ∧ (counted none eventTable "a").length = 5 ∧
    (∀ r ∈ counted none eventTable "a", 7 * DAY ≤ r.date → r.date < 8 * DAY → r.date = 7 * DAY) :=
  ⟨⟨⟨rfl, rfl, by decide +kernel, by decide +kernel⟩, by decide +kernel⟩, ⟨_, List.mem_cons_self, rfl⟩, by decide +kernel, by decide +kernel⟩

/-- Both fits: the event takes up 43, and without the observation and the dummy all other values are the same. -/
example : (((runForecast { demoWorld with env := fun _ _ => knownEnv [2, 1, 43] } (demoArgs [modelLinear.add eventModel] (some [])) "" eventTable).toOption.bind id).map
      fun r => ((partOf eventTable "a" r).data.filter fun q => !q.isActuals).map fun q => (q.date / DAY, q.y)) =
    some [(4, some 1), (5, some 3), (6, some 5), (7, some 50), (8, some 9), (9, some 11), (10, some 13), (11, some 15), (12, some 17)] ∧
    (((runForecast lineWorld (demoArgs [modelLinear] (some [])) "" (blanked (fun d => decide (7 * DAY ≤ d ∧ d < 8 * DAY)) eventTable)).toOption.bind id).map
      fun r => ((partOf eventTable "a" r).data.filter fun q => !q.isActuals).map fun q => (q.date / DAY, q.y)) =
    some [(4, some 1), (5, some 3), (6, some 5), (7, some 7), (8, some 9), (9, some 11), (10, some 13), (11, some 15), (12, some 17)] := by
  constructor <;> decide +kernel

end Anticipy
