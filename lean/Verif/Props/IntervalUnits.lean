import Verif.Spec.IntervalUnits
import Verif.Props.Interval
import Verif.Lemmas.Outliers
import Mathlib.Tactic.Positivity

/-
C91: prediction intervals follow a change of unit and of the zero point, which can be different for each date.
-/
namespace Anticipy
open Spec
variable {K : Type} [Field K] [LinearOrder K]

/-! ### Simulated deviations are linear in the residuals -/

omit [LinearOrder K] in
theorem centred_mul (c : K) (l : List K) : centred (l.map (c * ·)) = (centred l).map (c * ·) := by
  have hm : mean (l.map (c * ·)) = c * mean l := by
    have hs : (l.map (c * ·)).sum = c * l.sum := by
      induction l with
      | nil => simp
      | cons a l ih => simp only [List.map_cons, List.sum_cons, ih, mul_add]
    unfold mean
    rw [List.length_map, hs, mul_div_assoc]
  unfold centred
  rw [hm, List.map_map, List.map_map]
  apply List.map_congr_left
  intro a _
  simp only [Function.comp]
  ring

omit [LinearOrder K] in
theorem sampleWith_mul (c : K) (draw : Nat → Nat) (s : List K) (n : Nat) :
    sampleWith draw (s.map (c * ·)) n = (sampleWith draw s n).map (List.map (c * ·)) := by
  unfold sampleWith
  simp only [List.map_eq_nil_iff, List.length_map]
  by_cases h : s = [] ∧ n ≠ 0
  · rw [if_pos h, if_pos h]; rfl
  rw [if_neg h, if_neg h]
  simp only [Except.map, List.map_map]
  congr 1
  apply List.map_congr_left
  intro i _
  simp only [Function.comp, List.getD_eq_getElem?_getD, List.getElem?_map]
  cases s[draw i % s.length]? <;> simp

omit [LinearOrder K] in
theorem reshape_mul (c : K) (rows cols : Nat) (a : List K) :
    reshape rows cols (a.map (c * ·)) = (reshape rows cols a).map (List.map (List.map (c * ·))) := by
  unfold reshape
  rw [List.length_map]
  by_cases h : a.length = rows * cols
  · rw [if_pos h, if_pos h]
    simp only [Except.map, List.map_map]
    congr 1
    apply List.map_congr_left
    intro i _
    simp [List.map_take, List.map_drop]
  · rw [if_neg h, if_neg h]; rfl

omit [LinearOrder K] in
theorem cumsum_mul (c acc : K) (l : List K) : cumsum (c * acc) (l.map (c * ·)) = (cumsum acc l).map (c * ·) := by
  induction l generalizing acc with
  | nil => rfl
  | cons a l ih =>
    simp only [List.map_cons, cumsum]
    rw [← mul_add, ih]

omit [LinearOrder K] in
theorem addRows_mul (c : K) (a b : List (List K)) :
    addRows (a.map (List.map (c * ·))) (b.map (List.map (c * ·))) = (addRows a b).map (List.map (List.map (c * ·))) := by
  unfold addRows
  have hl : ∀ l : List (List K), (l.map (List.map (c * ·))).map List.length = l.map List.length := by
    intro l
    rw [List.map_map]
    apply List.map_congr_left
    intro r _
    simp
  rw [hl, hl]
  by_cases h : a.map List.length = b.map List.length
  · rw [if_pos h, if_pos h]
    simp only [Except.map, List.zipWith_map, List.map_zipWith]
    congr 2
    funext r s
    simp only [List.zipWith_map, List.map_zipWith, mul_add]
  · rw [if_neg h, if_neg h]; rfl

omit [LinearOrder K] in
theorem futureSample_mul (c : K) (draw : Nat → Nat → Nat) (res : List K) (nSims nCum n : Nat) :
    futureSample draw (res.map (c * ·)) nSims nCum n = (futureSample draw res nSims nCum n).map (List.map (List.map (c * ·))) := by
  unfold futureSample
  dsimp only
  rw [sampleWith_mul, sampleWith_mul]
  cases sampleWith (draw 0) res (⌈(n : ℚ) / (nCum : ℚ)⌉.toNat * nSims) with
  | error e => rfl
  | ok s1 =>
    simp only [Except.map, bind, Except.bind]
    rw [reshape_mul]
    cases reshape nSims ⌈(n : ℚ) / (nCum : ℚ)⌉.toNat s1 with
    | error e => rfl
    | ok cum =>
      simp only [Except.map]
      cases sampleWith (draw 1) res (n * nSims) with
      | error e => rfl
      | ok s2 =>
        simp only
        rw [reshape_mul]
        cases reshape nSims n s2 with
        | error e => rfl
        | ok base =>
          simp only [Except.map]
          refine Eq.trans ?_ (addRows_mul c base _)
          congr 1
          simp only [List.map_map]
          apply List.map_congr_left
          intro r _
          simp only [Function.comp]
          have := cumsum_mul c 0 r
          rw [mul_zero] at this
          rw [this]
          simp only [repeatEach, List.map_take, List.map_flatMap, List.flatMap_map, List.map_replicate]

omit [LinearOrder K] in
theorem pastSample_mul (c : K) (draw : Nat → Nat → Nat) (res : List K) (nSims n : Nat) :
    pastSample draw (res.map (c * ·)) nSims n = (pastSample draw res nSims n).map (List.map (List.map (c * ·))) := by
  unfold pastSample
  rw [sampleWith_mul]
  cases sampleWith (draw 2) res (n * nSims) with
  | error e => rfl
  | ok s =>
    simp only [Except.map, bind, Except.bind]
    exact reshape_mul c nSims n s

omit [LinearOrder K] in
theorem column_mul (c : K) (a : List (List K)) (j : Nat) : column (a.map (List.map (c * ·))) j = (column a j).map (c * ·) := by
  unfold column
  rw [List.filterMap_map, List.map_filterMap]
  apply List.filterMap_congr
  intro r _
  simp

/-! ### Percentiles -/

theorem interpAt_mul [IsStrictOrderedRing K] [FloorRing K] (c : K) (s : List K) (pos : K) : interpAt (s.map (c * ·)) pos = (interpAt s pos).map (c * ·) := by
  unfold interpAt
  rw [List.getElem?_map, List.getElem?_map]
  cases s[⌊pos⌋₊]? with
  | none => rfl
  | some a =>
    cases s[⌊pos⌋₊ + 1]? with
    | none => rfl
    | some b =>
      simp only [Option.map_some]
      congr 1
      ring

theorem percentile_mul_pos [IsStrictOrderedRing K] [FloorRing K] (c : K) (hc : 0 < c) (col : List K) (p : K) :
    percentile (col.map (c * ·)) p = (percentile col p).map (c * ·) := by
  rw [percentile_eq, percentile_eq, List.length_map,
    sortBy_natural (fun a b : K => decide (a ≤ b)) (fun a b : K => decide (a ≤ b)) (c * ·) col (by
      intro a _ b _
      simp only [decide_eq_decide]
      exact mul_le_mul_iff_right₀ hc)]
  exact interpAt_mul c _ _

theorem interpAt_backwards [IsStrictOrderedRing K] [FloorRing K] (s : List K) (pos : K) (h0 : 0 ≤ pos) (h1 : pos ≤ ((s.length - 1 : Nat) : K)) :
    interpAt s.reverse pos = interpAt s (((s.length - 1 : Nat) : K) - pos) := by
  by_cases hs : s = []
  · subst hs; rfl
  · exact interpAt_reverse s pos hs h0 h1

theorem percentile_mul_neg [IsStrictOrderedRing K] [FloorRing K] (c : K) (hc : c < 0) (col : List K) (p : K) (h0 : 0 ≤ p) (h1 : p ≤ 100) :
    percentile (col.map (c * ·)) p = (percentile col (100 - p)).map (c * ·) := by
  rw [percentile_eq, percentile_eq, List.length_map]
  have hsort : sortBy (fun a b : K => decide (a ≤ b)) (col.map (c * ·)) = ((sortBy (fun a b : K => decide (a ≤ b)) col).map (c * ·)).reverse := by
    apply sortBy_le_unique
    · exact (List.reverse_perm _).trans ((sortBy_perm _ col).map _)
    · rw [List.pairwise_reverse, List.pairwise_map]
      refine (sortBy_le_sorted col).imp ?_
      intro a b hab
      exact mul_le_mul_of_nonpos_left hab hc.le
  have hlen : ((sortBy (fun a b : K => decide (a ≤ b)) col).map (c * ·)).length = col.length := by
    rw [List.length_map, (sortBy_perm _ col).length_eq]
  have hn : (0 : K) ≤ ((col.length - 1 : Nat) : K) := Nat.cast_nonneg _
  have hp0 : 0 ≤ ((col.length - 1 : Nat) : K) * p / 100 := by positivity
  have hp1 : ((col.length - 1 : Nat) : K) * p / 100 ≤ ((col.length - 1 : Nat) : K) := by
    rw [div_le_iff₀ (by norm_num)]
    exact mul_le_mul_of_nonneg_left h1 hn
  rw [hsort, interpAt_backwards _ _ hp0 (by rw [hlen]; exact hp1), hlen]
  have hpos : ((col.length - 1 : Nat) : K) - ((col.length - 1 : Nat) : K) * p / 100 = ((col.length - 1 : Nat) : K) * (100 - p) / 100 := by
    field_simp
  rw [hpos]
  exact interpAt_mul c _ _

/-! ### Rows -/

/-- The row with its value moved. -/
def movedF (c : K) (g : Timestamp → K) (r : FRow K) : FRow K := { r with y := r.y.map fun v => c * v + g r.date }
def movedA (c : K) (g : Timestamp → K) (a : ActualRow K) : ActualRow K := { a with value := c * a.value + g a.date }

omit [LinearOrder K] in
theorem selectRows_moved (c : K) (g : Timestamp → K) (t : FTable K) : selectRows (valuesMoved c g t) = (selectRows t).map (movedF c g) := by
  unfold selectRows valuesMoved
  cases t.hasBest with
  | true => simp only [if_true, List.filter_map]; rfl
  | false => rfl

omit [LinearOrder K] in
theorem unfiltered_moved (c : K) (g : Timestamp → K) (rows : List (FRow K)) :
    actualsUnfiltered (rows.map (movedF c g)) = (actualsUnfiltered rows).map (movedF c g) := by
  unfold actualsUnfiltered
  rw [List.filter_map]
  congr 1
  apply List.filter_congr
  intro r _
  simp [movedF]

theorem filtered_moved (c : K) (g : Timestamp → K) (t : FTable K) (rows : List (FRow K)) :
    actualsFiltered (valuesMoved c g t) (rows.map (movedF c g)) = (actualsFiltered t rows).map fun a => (a.1.map (movedA c g), a.2) := by
  have hz : anyZeroWeight (valuesMoved c g t) (rows.map (movedF c g)) = anyZeroWeight t rows := by
    unfold anyZeroWeight
    rw [List.any_map]
    rfl
  have hd : (rows.map (movedF c g)).filter (fun r => r.isActuals && decide (∃ w ∈ r.weight, 0 < w)) =
      (rows.filter fun r => r.isActuals && decide (∃ w ∈ r.weight, 0 < w)).map (movedF c g) := by
    rw [List.filter_map]
    rfl
  unfold actualsFiltered
  rw [hz]
  by_cases h : anyZeroWeight t rows = true
  · rw [if_pos h, if_pos h]
    have hs : (valuesMoved c g t).hasSource = t.hasSource := rfl
    rw [hs]
    by_cases h1 : t.hasSource = true
    · rw [if_pos h1, if_pos h1]
      dsimp only
      rw [hd, unfiltered_moved]
      simp only [Except.map, List.flatMap_map, List.map_flatMap, List.filter_map, List.filterMap_map, List.map_filterMap]
      congr 3
      funext r
      apply List.filterMap_congr
      intro d _
      cases hy : r.y <;> simp [movedF, movedA, hy]
    · rw [if_neg h1, if_neg h1]; rfl
  · rw [if_neg h, if_neg h, unfiltered_moved]
    simp only [Except.map, List.filterMap_map, List.map_filterMap]
    congr 2
    apply List.filterMap_congr
    intro r _
    cases hy : r.y <;> simp [movedF, movedA, hy]

theorem residuals_moved (c : K) (g : Timestamp → K) (rows : List (FRow K)) (acts : List (ActualRow K)) (b : Bool) :
    residuals (rows.map (movedF c g)) (acts.map (movedA c g)) b = (residuals rows acts b).map (c * ·) := by
  unfold residuals
  rw [List.filter_map, List.flatMap_map, List.map_flatMap]
  have : ((fun r : FRow K => !r.isActuals) ∘ movedF c g) = fun r => !r.isActuals := rfl
  rw [this]
  apply List.flatMap_congr
  intro r _
  cases hy : r.y with
  | none => simp [movedF, hy]
  | some f =>
    simp only [movedF, hy, Option.map_some, List.filter_map, List.map_map]
    have hp : ((fun a : ActualRow K => decide (a.date = r.date ∧ (b = true → a.source = r.source))) ∘ movedA c g) =
        fun a => decide (a.date = r.date ∧ (b = true → a.source = r.source)) := rfl
    rw [hp]
    apply List.map_congr_left
    intro a ha
    have hda := (of_decide_eq_true (List.mem_filter.1 ha).2).1
    simp only [Function.comp, movedA, hda]
    ring

/-- What happens to a row of the result. -/
def moveOf (c : K) (g : Timestamp → K) (r : PRow K) : PRow K := if 0 < c then intervalMoved c g r else intervalMirrored c g r

theorem quantRow_moved [IsStrictOrderedRing K] [FloorRing K] (c : K) (hc : c ≠ 0) (g : Timestamp → K) (q1 q2 : K) (hq : ValidPct q1 q2) (s : List (List K)) (j : Nat) (r : FRow K) :
    quantRow q1 q2 (s.map (List.map (c * ·))) j (movedF c g r) = moveOf c g (quantRow q1 q2 s j r) := by
  unfold moveOf
  by_cases hp : 0 < c
  · rw [if_pos hp]
    unfold quantRow intervalMoved
    simp only [movedF, List.map_map, column_mul]
    congr 1
    apply List.map_congr_left
    intro p _
    simp only [Function.comp, percentile_mul_pos c hp]
    cases r.y with
    | none => rfl
    | some y =>
      cases percentile (column s j) p with
      | none => rfl
      | some v =>
        simp only [Option.map_some, lift2]
        congr 2
        ring
  · rw [if_neg hp]
    have hn : c < 0 := lt_of_le_of_ne (not_lt.1 hp) hc
    unfold quantRow intervalMirrored
    simp only [movedF, List.map_map, column_mul]
    congr 1
    apply List.map_congr_left
    intro p hpp
    obtain ⟨p0, p1⟩ := percents_range q1 q2 p hq hpp
    have hmem : 100 - p ∈ percents q1 q2 := by
      rw [mem_percents] at hpp ⊢
      rcases hpp with rfl | rfl | rfl | rfl <;> simp
    simp only [Function.comp, percentile_mul_neg c hn _ p p0.le p1.le]
    have hfind : ∀ l : List K, 100 - p ∈ l → ∀ h : K → Option K, ((l.map fun p => (p, h p)).find? fun e => decide (e.1 = 100 - p)).bind Prod.snd = h (100 - p) := by
      intro l hl h
      induction l with
      | nil => cases hl
      | cons a l ih =>
        rw [List.map_cons, List.find?_cons]
        by_cases ha : a = 100 - p
        · simp [ha]
        · simp only [ha, decide_false]
          exact ih (by
            rcases List.mem_cons.1 hl with h | h
            · exact absurd h.symm ha
            · exact h)
    unfold quantile
    rw [hfind _ hmem (fun p => lift2 (· + ·) r.y (percentile (column s j) p))]
    cases r.y with
    | none => rfl
    | some y =>
      cases percentile (column s j) (100 - p) with
      | none => rfl
      | some v =>
        simp only [Option.map_some, lift2]
        congr 2
        ring

theorem percentiles_moved [IsStrictOrderedRing K] [FloorRing K] (c : K) (hc : c ≠ 0) (g : Timestamp → K) (rows : List (FRow K)) (s : List (List K)) (q1 q2 : K) :
    addPercentiles (rows.map (movedF c g)) (s.map (List.map (c * ·))) q1 q2 = (addPercentiles rows s q1 q2).map (List.map (moveOf c g)) := by
  rw [addPercentiles_eq, addPercentiles_eq]
  by_cases hq : ValidPct q1 q2
  · rw [if_pos hq, if_pos hq]
    simp only [Except.map]
    congr 1
    apply List.ext_getElem?
    intro i
    simp only [List.getElem?_mapIdx, List.getElem?_map, Option.map_map]
    cases rows[i]? with
    | none => rfl
    | some r => simp only [Option.map_some, Function.comp, quantRow_moved c hc g q1 q2 hq]
  · rw [if_neg hq, if_neg hq]; rfl

omit [LinearOrder K] in
theorem cumPeriod_moved (c : K) (g : Timestamp → K) (t : FTable K) (rows : List (FRow K)) (n : Int) :
    cumPeriod (valuesMoved c g t) (rows.map (movedF c g)) n = cumPeriod t rows n := by
  have : (rows.map (movedF c g)).map FRow.date = rows.map FRow.date := by rw [List.map_map]; rfl
  unfold cumPeriod
  rw [this]
  rfl

theorem actualOut_moved (c : K) (g : Timestamp → K) (r : FRow K) : actualOut (movedF c g r) = moveOf c g (actualOut r) := by
  unfold moveOf
  split_ifs <;> rfl

theorem single_moved [IsStrictOrderedRing K] [FloorRing K] (c : K) (hc : c ≠ 0) (g : Timestamp → K) (draw : Nat → Nat → Nat) (t : FTable K) (nSims : Nat) (nCum : Int) (q1 q2 : K) :
    piSingle draw (valuesMoved c g t) nSims nCum q1 q2 = (piSingle draw t nSims nCum q1 q2).map (List.map (moveOf c g)) := by
  have hout : ∀ rows : List (FRow K), (actualsUnfiltered (rows.map (movedF c g))).map actualOut = ((actualsUnfiltered rows).map actualOut).map (moveOf c g) := by
    intro rows
    rw [unfiltered_moved, List.map_map, List.map_map]
    apply List.map_congr_left
    intro r _
    exact actualOut_moved c g r
  have hrest : (if (valuesMoved c g t).hasSource then
        if (selectRows t).map (movedF c g) = [] then .error .indexError else .ok ((actualsUnfiltered ((selectRows t).map (movedF c g))).map actualOut)
      else (.error .attributeError : Res (List (PRow K)))) =
      (if t.hasSource then if selectRows t = [] then .error .indexError else .ok ((actualsUnfiltered (selectRows t)).map actualOut)
      else (.error .attributeError : Res (List (PRow K)))).map (List.map (moveOf c g)) := by
    have hs : (valuesMoved c g t).hasSource = t.hasSource := rfl
    rw [hs, hout]
    cases t.hasSource with
    | false => rfl
    | true =>
      simp only [if_true, List.map_eq_nil_iff]
      by_cases h0 : selectRows t = []
      · rw [if_pos h0, if_pos h0]; rfl
      · rw [if_neg h0, if_neg h0]; rfl
  have hfilt : ∀ P : FRow K → Bool, (∀ r, P (movedF c g r) = P r) → ((selectRows t).map (movedF c g)).filter P = ((selectRows t).filter P).map (movedF c g) := by
    intro P hP
    rw [List.filter_map]
    congr 1
    apply List.filter_congr
    intro r _
    exact hP r
  unfold piSingle
  dsimp only
  rw [selectRows_moved, cumPeriod_moved, filtered_moved]
  cases cumPeriod t (selectRows t) nCum with
  | error e => rfl
  | ok n =>
    cases actualsFiltered t (selectRows t) with
    | error e => rfl
    | ok a =>
      obtain ⟨acts, b⟩ := a
      simp only [Except.map, bind, Except.bind]
      have hdates : (acts.map (movedA c g)).map ActualRow.date = acts.map ActualRow.date := by rw [List.map_map]; rfl
      rw [hdates, residuals_moved]
      cases listMax (acts.map ActualRow.date) with
      | none => exact hrest
      | some last =>
        cases hres : residuals (selectRows t) acts b with
        | nil => exact hrest
        | cons r0 res =>
          rw [List.map_cons]
          dsimp only
          rw [← List.map_cons (f := (c * ·)), centred_mul, hfilt _ (fun r => rfl), hfilt _ (fun r => rfl), hout, List.length_map, List.length_map, futureSample_mul]
          cases futureSample draw (centred (r0 :: res)) nSims n ((selectRows t).filter fun r => !r.isActuals && decide (last < r.date)).length with
          | error e => rfl
          | ok fs =>
            simp only [Except.map]
            rw [percentiles_moved c hc g]
            cases addPercentiles ((selectRows t).filter fun r => !r.isActuals && decide (last < r.date)) fs q1 q2 with
            | error e => rfl
            | ok fo =>
              simp only [Except.map]
              rw [pastSample_mul]
              cases pastSample draw (centred (r0 :: res)) nSims ((selectRows t).filter fun r => !r.isActuals && decide (r.date ≤ last)).length with
              | error e => rfl
              | ok ps =>
                simp only [Except.map]
                rw [percentiles_moved c hc g]
                cases addPercentiles ((selectRows t).filter fun r => !r.isActuals && decide (r.date ≤ last)) ps q1 q2 with
                | error e => rfl
                | ok po => simp [Except.map]

theorem pi_moved [IsStrictOrderedRing K] [FloorRing K] (c : K) (hc : c ≠ 0) (g : Timestamp → K) (draw : Nat → Nat → Nat → Nat) (t : FTable K) (nSims : Nat) (nCum : Option Int)
    (q1 q2 : K) (w : Freq) :
    getPi draw (valuesMoved c g t) nSims nCum q1 q2 w = (getPi draw t nSims nCum q1 q2 w).map (List.map (moveOf c g)) := by
  have hkeys : groupKeys (valuesMoved c g t).rows = groupKeys t.rows := by
    unfold groupKeys valuesMoved
    rw [List.filterMap_map]
    rfl
  have hg : ∀ (l : List String) (k : Nat) (n : Int), piGroups draw (valuesMoved c g t) nSims n q1 q2 k l =
      (piGroups draw t nSims n q1 q2 k l).map (List.map (moveOf c g)) := by
    intro l
    induction l with
    | nil => intro k n; rfl
    | cons s l ih =>
      intro k n
      have hp : ({ valuesMoved c g t with rows := (valuesMoved c g t).rows.filter fun r => decide (r.source = some s) } : FTable K) =
          valuesMoved c g { t with rows := t.rows.filter fun r => decide (r.source = some s) } := by
        unfold valuesMoved
        simp only [List.filter_map]
        rfl
      simp only [piGroups]
      rw [hp, single_moved c hc, ih]
      cases piSingle (draw k) { t with rows := t.rows.filter fun r => decide (r.source = some s) } nSims n q1 q2 with
      | error e => rfl
      | ok p =>
        cases piGroups draw t nSims n q1 q2 (k + 1) l with
        | error e => rfl
        | ok r => simp [Except.map, bind, Except.bind]
  have hsrc : (valuesMoved c g t).hasSource = t.hasSource := rfl
  unfold getPi
  dsimp only
  rw [hkeys, hsrc, hg]
  by_cases h : t.hasSource = true ∧ 1 < (groupKeys t.rows).length
  · rw [if_pos h, if_pos h]
    cases piGroups draw t nSims (nCum.getD (daysFromFreq w)) q1 q2 0 (groupKeys t.rows) with
    | error e => rfl
    | ok r =>
      simp only [Except.map, bind, Except.bind]
      rw [sortBy_natural prowLe prowLe (moveOf c g) r (by
        intro a _ b _
        unfold moveOf
        split_ifs <;> rfl)]
  · rw [if_neg h, if_neg h, single_moved c hc]

/-- **C91.** The intervals follow when the values of all rows, actuals and forecasts, are multiplied by a positive factor and moved by an amount that can be
different for each date. The random draws are the same. -/
theorem C91_unit [IsStrictOrderedRing K] [FloorRing K] (c : K) (hc : 0 < c) (g : Timestamp → K) (draw : Nat → Nat → Nat → Nat) (t : FTable K) (nSims : Nat)
    (nCum : Option Int) (q1 q2 : K) (w : Freq) :
    getPi draw (valuesMoved c g t) nSims nCum q1 q2 w = (getPi draw t nSims nCum q1 q2 w).map (List.map (intervalMoved c g)) := by
  rw [pi_moved c hc.ne']
  congr 2
  funext r
  unfold moveOf
  rw [if_pos hc]

/-- **C91.** For a negative factor the lower and upper columns change places. -/
theorem C91_mirror [IsStrictOrderedRing K] [FloorRing K] (c : K) (hc : c < 0) (g : Timestamp → K) (draw : Nat → Nat → Nat → Nat) (t : FTable K) (nSims : Nat)
    (nCum : Option Int) (q1 q2 : K) (w : Freq) :
    getPi draw (valuesMoved c g t) nSims nCum q1 q2 w = (getPi draw t nSims nCum q1 q2 w).map (List.map (intervalMirrored c g)) := by
  rw [pi_moved c hc.ne]
  congr 2
  funext r
  unfold moveOf
  rw [if_neg (not_lt.2 hc.le)]

/-- The example of C43-C46: the last forecast row, moved by its date, and mirrored. -/
example : ((getPi (fun _ c i => c + i / 3) (valuesMoved 2 (fun t => (t : ℚ)) exampleForecast) 4 (some 1) 5 20 .D).toOption.map fun out => out[7]?.map fun r => (r.y, r.q)) =
      some (some (some (16 : ℚ), [((5 : ℚ), some 14), (95, some (87 / 5)), (20, some 14), (80, some (78 / 5))])) ∧
    ((getPi (fun _ c i => c + i / 3) (valuesMoved (-1) (fun _ => 0) exampleForecast) 4 (some 1) 5 20 .D).toOption.map fun out => out[7]?.map fun r => (r.y, r.q)) =
      some (some (some (-6 : ℚ), [((5 : ℚ), some (-(67 / 10) : ℚ)), (95, some (-5)), (20, some (-(29 / 5))), (80, some (-5))])) := by decide +kernel

end Anticipy
