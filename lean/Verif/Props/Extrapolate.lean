import Verif.Lemmas.GridFn

/-
C21 - C24: the extrapolated time axis.
-/
namespace Anticipy
open Spec

/-! ### C21 -/

/-- Documented number of samples per year. -/
def Spec.samplesPerYear : Freq → ℚ
  | .H => 8760
  | .D => 365
  | .W _ => 52
  | .MS => 12
  | .M => 12
  | .Q => 4
  | .YS => 1
  | .Y => 1

/-- What a user expects of the extrapolated dates: increasing, on the grid, covering all grid dates of the actuals without holes, and
with `extra` dates after the last actual one. -/
def Spec.CoversHorizon (civil : Int → Int × Int × Int) (wd : Int → Int) (f : Freq) (start stop : Int) (dates : List Int) (extra : Int) : Prop :=
  dates.Pairwise (· < ·) ∧
  (∀ t ∈ dates, start ≤ t ∧ OnGrid civil wd f start t) ∧
  (∀ t, OnGrid civil wd f start t → start ≤ t → t ≤ stop → t ∈ dates) ∧
  (∀ t ∈ dates, ∀ s, OnGrid civil wd f start s → start ≤ s → s ≤ t → s ∈ dates) ∧
  ((dates.filter fun t => decide (stop < t)).length : Int) = extra

theorem covers_of (f : Freq) (hf : ValidFreq f) (a stop e ks m : Int) (hm : 0 ≤ m) (hle : a ≤ stop) (hks : stop = gridAt f a ks)
    (htod : f = .H ∨ f = .D ∨ todOf a ≤ todOf e) (hend : ∀ k, gridAt f a k ≤ e ↔ k ≤ ks + m) :
    CoversHorizon civilOfDay weekdayOfDay f a stop (dateRange a e f) m := by
  have hmem := fun t => mem_dateRange f hf a e t htod
  have hse : stop ≤ e := by rw [hks, hend]; omega
  refine ⟨dateRange_sorted a e f, ?_, ?_, ?_, ?_⟩
  · intro t ht
    obtain ⟨h1, _, h3⟩ := (hmem t).1 ht
    exact ⟨h1, h3⟩
  · intro t h1 h2 h3
    exact (hmem t).2 ⟨h2, by omega, h1⟩
  · intro t ht s h1 h2 h3
    have := (hmem t).1 ht
    exact (hmem s).2 ⟨h2, by omega, h1⟩
  · subst hks
    exact count_after f hf a e ks m hm hle hmem hend

theorem floor_nonneg' (y c : ℚ) (hy : 0 ≤ y) (hc : 0 ≤ c) : 0 ≤ ⌊y * c⌋ := Int.floor_nonneg.2 (mul_nonneg hy hc)

/-- **C21** For a series that starts and ends on its frequency grid, extrapolation by `y` years succeeds and the dates are the grid
dates from the first date on, without holes, with `⌊y * samples per year⌋` dates after the last actual date.
Missing from the full property: month-end data (`C21_month_end_partial`), quarterly data and fractional years/months
(counterexamples below); weekly data with a time of day need a horizon of whole days. -/
theorem C21_extrapolate_partial (civil : Int → Int × Int × Int) (hc : IsCalendar civil) (wd : Int → Int) (hw : IsWeek wd)
    (f : Freq) (hf : ValidFreq f) (hM : f ≠ .M) (hQ : f ≠ .Q) (start stop : Int) (y : ℚ) (x0 : Int) (hy : 0 ≤ y)
    (hs : OnGrid civil wd f start start) (he : OnGrid civil wd f start stop) (hle : start ≤ stop)
    (hweek : ∀ w, f = .W w → start % dayNs = 0 ∨ (364 * y).den = 1)
    (hint : f = .MS ∨ f = .YS ∨ f = .Y → (y * samplesPerYear f).den = 1) :
    ∃ l, sxExtrapolateDate start stop (some f) y x0 = .ok l ∧
      CoversHorizon civil wd f start stop (l.map Prod.fst) ⌊y * samplesPerYear f⌋ ∧
      ∀ p ∈ l, p.2 = x0 + (p.1 - start) / dayNs := by
  rw [isCalendar_unique civil hc, isWeek_unique wd hw] at *
  obtain ⟨ks, hks⟩ := (onGrid_gridAt f hf start stop).1 he
  have hts := tod_range start
  have hx : ∀ (dates : List Int), ((dates.map fun t => (t, (t - start) / DAY + x0)).map Prod.fst) = dates := by
    intro d; simp [List.map_map, Function.comp_def]
  have hx2 : ∀ (dates : List Int), ∀ p ∈ (dates.map fun t => (t, (t - start) / DAY + x0)), p.2 = x0 + (p.1 - start) / dayNs := by
    intro d p hp
    obtain ⟨t, _, rfl⟩ := List.mem_map.1 hp
    simp only [dayNs_eq]; omega
  have htstop : f ≠ .H → todOf stop = todOf start := by
    intro hH
    exact ((onGrid_iff f hf hH start stop).1 he).1
  cases f with
  | Q => exact absurd rfl hQ
  | M => exact absurd rfl hM
  | H =>
    refine ⟨_, by simp only [sxExtrapolateDate, addHorizon, bind, Except.bind]; rfl, ?_, hx2 _⟩
    rw [hx]
    refine covers_of .H hf start stop _ ks _ (floor_nonneg' _ _ hy (by norm_num [samplesPerYear])) hle hks (.inl rfl) ?_
    intro k
    have h1 := floor_mul_le (y * unitsPerYear .H) HOUR (k - ks) (by simp [HOUR])
    rw [show samplesPerYear .H = unitsPerYear .H by norm_num [samplesPerYear, unitsPerYear]]
    rw [hks]
    simp only [gridAt]
    have : (start + k * HOUR ≤ start + ks * HOUR + ⌊y * unitsPerYear .H * (HOUR : ℚ)⌋) ↔ (k - ks) * HOUR ≤ ⌊y * unitsPerYear .H * (HOUR : ℚ)⌋ := by
      rw [Int.sub_mul]; omega
    rw [this, h1]; omega
  | D =>
    refine ⟨_, by simp only [sxExtrapolateDate, addHorizon, bind, Except.bind]; rfl, ?_, hx2 _⟩
    rw [hx]
    refine covers_of .D hf start stop _ ks _ (floor_nonneg' _ _ hy (by norm_num [samplesPerYear])) hle hks (.inr (.inl rfl)) ?_
    intro k
    have h1 := floor_mul_le (y * unitsPerYear .D) DAY (k - ks) (by simp [DAY])
    rw [show samplesPerYear .D = unitsPerYear .D by norm_num [samplesPerYear, unitsPerYear]]
    rw [hks]
    simp only [gridAt, anchorDay]
    have : (k * DAY + todOf start ≤ ks * DAY + todOf start + ⌊y * unitsPerYear .D * (DAY : ℚ)⌋) ↔ (k - ks) * DAY ≤ ⌊y * unitsPerYear .D * (DAY : ℚ)⌋ := by
      rw [Int.sub_mul]; omega
    rw [this, h1]; omega
  | W w =>
    have hwd : weekday start = w := hs.2
    refine ⟨_, by simp only [sxExtrapolateDate, addHorizon, bind, Except.bind, hwd, pyAssert, decide_true, if_true]; rfl, ?_, hx2 _⟩
    rw [hx]
    refine covers_of (.W w) hf start stop _ ks _ (floor_nonneg' _ _ hy (by norm_num [samplesPerYear])) hle hks ?_ ?_
    · right; right
      rcases hweek w rfl with h0 | h0
      · have : todOf start = 0 := h0
        rw [this]; exact (tod_range _).1
      · have e1 : y * unitsPerYear (.W w) * 7 * (DAY : ℚ) = (((364 * y).num * DAY : Int) : ℚ) := by
          have : ((364 * y).num : ℚ) = 364 * y := Rat.den_eq_one_iff _ |>.1 h0
          push_cast
          rw [this]; simp only [unitsPerYear]; ring
        rw [e1, Int.floor_intCast]
        have := htstop (by simp)
        have : todOf (stop + (364 * y).num * DAY) = todOf stop := by simp only [todOf, DAY]; omega
        omega
    · intro k
      have h1 := floor_mul_le (y * unitsPerYear (.W w)) (7 * DAY) (k - ks) (by simp [DAY])
      rw [show samplesPerYear (.W w) = unitsPerYear (.W w) by norm_num [samplesPerYear, unitsPerYear]]
      rw [hks]
      rw [show ((7 * DAY : Int) : ℚ) = 7 * (DAY : ℚ) by push_cast; rfl,
        show y * unitsPerYear (.W w) * (7 * (DAY : ℚ)) = y * unitsPerYear (.W w) * 7 * (DAY : ℚ) by ring] at h1
      simp only [gridAt, anchorDay]
      have : ((7 * k + w - 3) * DAY + todOf start ≤ (7 * ks + w - 3) * DAY + todOf start + ⌊y * unitsPerYear (.W w) * 7 * (DAY : ℚ)⌋) ↔
          (k - ks) * (7 * DAY) ≤ ⌊y * unitsPerYear (.W w) * 7 * (DAY : ℚ)⌋ := by
        simp only [DAY]; omega
      rw [this, h1]; omega
  | MS =>
    have hd := hint (.inl rfl)
    have hu : samplesPerYear .MS = unitsPerYear .MS := rfl
    rw [hu] at hd ⊢
    refine ⟨_, by simp only [sxExtrapolateDate, addHorizon, bind, Except.bind, hd, if_true]; rfl, ?_, hx2 _⟩
    rw [hx]
    simp only [gridAt, anchorDay] at hks
    refine covers_of .MS hf start stop _ ks _ (floor_nonneg' _ _ hy (by norm_num [unitsPerYear])) hle hks ?_ ?_
    · right; right; rw [addMonths_tod, htstop (by simp)]
    · intro k
      rw [floor_of_den_one _ hd, hks, addMonths_monthStart _ _ _ hts.1 hts.2]
      exact (gridAt_strictMono .MS start).le_iff_le (a := k) (b := ks + (y * unitsPerYear .MS).num)
  | YS =>
    have hd := hint (.inr (.inl rfl))
    have hu : samplesPerYear .YS = unitsPerYear .YS := rfl
    rw [hu] at hd ⊢
    refine ⟨_, by simp only [sxExtrapolateDate, addHorizon, bind, Except.bind, hd, if_true]; rfl, ?_, hx2 _⟩
    rw [hx]
    simp only [gridAt, anchorDay] at hks
    refine covers_of .YS hf start stop _ ks _ (floor_nonneg' _ _ hy (by norm_num [unitsPerYear])) hle hks ?_ ?_
    · right; right; rw [addMonths_tod, htstop (by simp)]
    · intro k
      rw [floor_of_den_one _ hd, hks, addMonths_monthStart _ _ _ hts.1 hts.2]
      rw [show 12 * ks + 12 * (y * unitsPerYear .YS).num = 12 * (ks + (y * unitsPerYear .YS).num) by ring]
      exact (gridAt_strictMono .YS start).le_iff_le (a := k) (b := ks + (y * unitsPerYear .YS).num)
  | Y =>
    have hd := hint (.inr (.inr rfl))
    have hu : samplesPerYear .Y = unitsPerYear .Y := rfl
    rw [hu] at hd ⊢
    refine ⟨_, by simp only [sxExtrapolateDate, addHorizon, bind, Except.bind, hd, if_true]; rfl, ?_, hx2 _⟩
    rw [hx]
    simp only [gridAt, anchorDay] at hks
    refine covers_of .Y hf start stop _ ks _ (floor_nonneg' _ _ hy (by norm_num [unitsPerYear])) hle hks ?_ ?_
    · right; right; rw [addMonths_tod, htstop (by simp)]
    · intro k
      rw [floor_of_den_one _ hd, hks, addMonths_monthEnd _ _ _ hts.1 hts.2]
      generalize (y * unitsPerYear .Y).num = n
      rw [show 12 * ks + 11 + 12 * n = 12 * (ks + n) + 11 by ring]
      rw [show (12 * ks + 11) % 12 + 1 = 12 by omega, show (12 * (ks + n) + 11) % 12 + 1 = 12 by omega]
      have e : ∀ y, daysInMonth y 12 = 31 := by intro y; simp [daysInMonth]
      have hsucc := monthStart_succ (12 * (ks + n) + 11)
      rw [show (12 * (ks + n) + 11) % 12 + 1 = 12 by omega, e] at hsucc
      have hm : monthStart (12 * (ks + n) + 11) + (min (daysInMonth ((12 * ks + 11) / 12) 12) (daysInMonth ((12 * (ks + n) + 11) / 12) 12) - 1)
          = anchorDay .Y (ks + n) := by
        rw [e, e]; simp only [anchorDay, monthEnd]; omega
      rw [hm]
      exact (gridAt_strictMono .Y start).le_iff_le (a := k) (b := ks + n)

/-- Daily data from 1970-01-01 to 1970-01-03, horizon 2/365 of a year. -/
example : (sxExtrapolateDate 0 (2 * DAY) (some .D) (2 / 365) 3) =
    .ok [(0, 3), (DAY, 4), (2 * DAY, 5), (3 * DAY, 6), (4 * DAY, 7)] := by decide +kernel
/-- Month starts over a leap February. -/
example : (sxExtrapolateDate (ofCivil 2020 1 1 * DAY) (ofCivil 2020 2 1 * DAY) (some .MS) (1 / 12) 0) =
    .ok [(ofCivil 2020 1 1 * DAY, 0), (ofCivil 2020 2 1 * DAY, 31), (ofCivil 2020 3 1 * DAY, 60)] := by decide +kernel

/-- **C21** (month-end data) The dates are as promised, except that the last one is missing exactly if the target month
(`12 y` months after the last actual month) is longer than the last actual month. -/
theorem C21_month_end_partial (civil : Int → Int × Int × Int) (hc : IsCalendar civil) (wd : Int → Int) (hw : IsWeek wd)
    (start stop : Int) (y : ℚ) (x0 : Int) (hy : 0 ≤ y) (he : OnGrid civil wd .M start stop) (hle : start ≤ stop)
    (hint : (y * 12).den = 1) :
    let last := civil (stop / dayNs)
    let target := 12 * last.1 + (last.2.1 - 1) + (y * 12).num
    let missing := last.2.2 < monthLength (target / 12) (target % 12 + 1)
    ∃ l, sxExtrapolateDate start stop (some .M) y x0 = .ok l ∧
      CoversHorizon civil wd .M start stop (l.map Prod.fst) (if missing then (y * 12).num - 1 else (y * 12).num) ∧
      ∀ p ∈ l, p.2 = x0 + (p.1 - start) / dayNs := by
  rw [isCalendar_unique civil hc, isWeek_unique wd hw] at *
  intro last target missing
  obtain ⟨ks, hks⟩ := (onGrid_gridAt .M trivial start stop).1 he
  have hts := tod_range start
  have htstop := ((onGrid_iff .M trivial (by simp) start stop).1 he).1
  have hn : 0 ≤ (y * 12).num := Rat.num_nonneg.2 (by positivity)
  refine ⟨_, by simp only [sxExtrapolateDate, addHorizon, bind, Except.bind, unitsPerYear, hint, if_true]; rfl, ?_, ?_⟩
  · simp only [List.map_map, Function.comp_def, List.map_id']
    simp only [gridAt, anchorDay] at hks
    have hday : stop / dayNs = monthEnd ks := by
      rw [hks]; exact (dayOf_mul_add _ _ hts.1 hts.2).1
    have hidx := monthIdx_monthEnd ks
    have htarget : target = ks + (y * 12).num := by
      simp only [target, last, hday, civilOfDay]
      unfold monthIdxOfDay at hidx
      omega
    have hmissing : missing ↔ daysInMonth (ks / 12) (ks % 12 + 1) < daysInMonth (target / 12) (target % 12 + 1) := by
      simp only [missing, last, hday, civilOfDay, monthLength_eq, dom_monthEnd]
    generalize (y * 12).num = n at *
    have hr1 := daysInMonth_range (ks / 12) (ks % 12 + 1)
    have hr2 := daysInMonth_range (target / 12) (target % 12 + 1)
    have hsucc := monthStart_succ target
    have hstep := monthStart_step target
    refine covers_of .M trivial start stop _ ks _ ?_ hle hks ?_ ?_
    · by_cases h : missing
      · rw [if_pos h]
        rw [hmissing] at h
        rcases Int.lt_or_le n 1 with h1 | h1
        · have : n = 0 := by omega
          subst this
          rw [htarget] at h; simp at h
        · omega
      · rw [if_neg h]; exact hn
    · right; right; rw [addMonths_tod, htstop]
    · intro k
      rw [hks, addMonths_monthEnd _ _ _ hts.1 hts.2, ← htarget]
      by_cases h : missing
      · rw [if_pos h]
        rw [hmissing] at h
        rw [min_eq_left h.le]
        have key : monthEnd k ≤ monthStart target + (daysInMonth (ks / 12) (ks % 12 + 1) - 1) ↔ k ≤ target - 1 := by
          unfold monthEnd
          constructor
          · intro hk
            by_contra hc
            have := monthStart_strictMono.monotone (show target + 1 ≤ k + 1 by omega)
            omega
          · intro hk
            have := monthStart_strictMono.monotone (show k + 1 ≤ target by omega)
            omega
        simp only [gridAt, anchorDay]
        have : (monthEnd k * DAY + todOf start ≤ (monthStart target + (daysInMonth (ks / 12) (ks % 12 + 1) - 1)) * DAY + todOf start) ↔
            monthEnd k ≤ monthStart target + (daysInMonth (ks / 12) (ks % 12 + 1) - 1) := by
          simp only [DAY]; omega
        rw [this, key]; omega
      · rw [if_neg h]
        rw [hmissing] at h
        rw [min_eq_right (by omega)]
        have key : monthStart target + (daysInMonth (target / 12) (target % 12 + 1) - 1) = anchorDay .M target := by
          simp only [anchorDay, monthEnd]; omega
        rw [key, htarget]
        exact (gridAt_strictMono .M start).le_iff_le (a := k) (b := ks + n)
  · intro p hp
    obtain ⟨t, _, rfl⟩ := List.mem_map.1 hp
    simp only [dayNs_eq]; omega

/-- **C21 refuted for month-end data**: actuals 2021-03-31 and 2021-04-30, one month of forecast gives no forecast date at all
(2021-04-30 + 1 month is 2021-05-30, before 2021-05-31). -/
theorem C21_counterexample_month_end :
    sxExtrapolateDate (ofCivil 2021 3 31 * DAY) (ofCivil 2021 4 30 * DAY) (some .M) (1 / 12) 0 =
      .ok [(ofCivil 2021 3 31 * DAY, 0), (ofCivil 2021 4 30 * DAY, 30)] := by decide +kernel

/-- **C21 refuted for quarterly data**: every extrapolation raises a `TypeError`. -/
theorem C21_counterexample_quarter (start stop : Int) (y : ℚ) (x0 : Int) :
    sxExtrapolateDate start stop (some .Q) y x0 = .error .typeError := rfl

/-- **C21 refuted for yearly data with a fractional horizon**: the default horizon of 2.5 years raises a `ValueError`. -/
theorem C21_counterexample_fractional_years (start stop x0 : Int) :
    sxExtrapolateDate start stop (some .YS) (5 / 2) x0 = .error .valueError ∧
    sxExtrapolateDate start stop (some .Y) (5 / 2) x0 = .error .valueError := by
  have h1 : ¬ ((5 / 2 : ℚ) * unitsPerYear .YS).den = 1 := by decide +kernel
  have h2 : ¬ ((5 / 2 : ℚ) * unitsPerYear .Y).den = 1 := by decide +kernel
  constructor
  · simp only [sxExtrapolateDate, addHorizon, bind, Except.bind, h1, if_false]
  · simp only [sxExtrapolateDate, addHorizon, bind, Except.bind, h2, if_false]

/-! ### C22 -/

theorem sxExtrapolateDate_x (s stop : Int) (f : Option Freq) (y : ℚ) (x0 : Int) (l : List (Int × Int))
    (hl : sxExtrapolateDate s stop f y x0 = .ok l) : ∃ dates : List Int, l = dates.map fun t => (t, (t - s) / DAY + x0) := by
  unfold sxExtrapolateDate at hl
  simp only [bind, Except.bind] at hl
  repeat' split at hl
  all_goals first
    | (simp only [Except.ok.injEq] at hl; exact ⟨_, hl.symm⟩)
    | simp at hl

/-- **C22** With x derived from dates (first row `d0`), the x used for extrapolation at a date `t` - computed from the first fitted
date `s` and its x - equals the x the date has in the fitted data, if `s` is a whole number of days away from the first row. In
particular this holds for `s = d0` (sorted data, nothing filtered), and for all daily, weekly, monthly and yearly grids.
Missing: hourly data whose first samples are filtered out, see the counterexample. -/
theorem C22_same_x_partial (d0 s t x0 xt : Int) (rest : List Int) (i j : Nat)
    (hi : (d0 :: rest)[i]? = some s) (hj : (d0 :: rest)[j]? = some t)
    (hx0 : (normalizedX (d0 :: rest))[i]? = some x0) (hxt : (normalizedX (d0 :: rest))[j]? = some xt)
    (hwhole : (s - d0) % dayNs = 0) (stop : Int) (f : Option Freq) (y : ℚ) (l : List (Int × Int)) (x : Int)
    (hl : sxExtrapolateDate s stop f y x0 = .ok l) (hmem : (t, x) ∈ l) : x = xt := by
  have hx : x = (t - s) / DAY + x0 := by
    obtain ⟨dates, hd⟩ := sxExtrapolateDate_x s stop f y x0 l hl
    subst hd
    obtain ⟨t', _, ht'⟩ := List.mem_map.1 hmem
    simp only [Prod.mk.injEq] at ht'
    rw [← ht'.2, ht'.1]
  simp only [normalizedX, List.getElem?_map, hi, hj, Option.map_some, Option.some.injEq] at hx0 hxt
  subst hx hx0 hxt
  simp only [DAY, dayNs] at *
  omega

example : (normalizedX [0, DAY, 2 * DAY])[1]? = some 4 ∧ (DAY - 0) % dayNs = 0 ∧
    sxExtrapolateDate DAY (2 * DAY) (some .D) (1 / 365) 4 = .ok [(DAY, 4), (2 * DAY, 5), (3 * DAY, 6)] := by decide +kernel

/-- **C22 refuted for hourly data** whose first 12 samples have weight 0: at 06:00 of the next day the fit uses x = 4, the
extrapolation x = 3. -/
theorem C22_counterexample :
    (normalizedX ((List.range 31).map fun i : Nat => (i : Int) * HOUR))[30]? = some 4 ∧
    (normalizedX ((List.range 31).map fun i : Nat => (i : Int) * HOUR))[12]? = some 3 ∧
    ∃ l, sxExtrapolateDate (12 * HOUR) (30 * HOUR) (some .H) 0 3 = .ok l ∧ (30 * HOUR, 3) ∈ l := by
  refine ⟨by decide +kernel, by decide +kernel, _, rfl, by decide +kernel⟩

/-! ### C23 -/

theorem arange_length (a : Int) (b : ℚ) : (arange a b).length = (⌈b - (a : ℚ)⌉).toNat := by simp [arange]

theorem arange_nat (a : Int) (n : Nat) : arange a ((a : ℚ) + (n : ℚ)) = (List.range n).map fun i : Nat => a + (i : Int) := by
  unfold arange
  rw [show ((a : ℚ) + (n : ℚ) - (a : ℚ)) = ((n : Int) : ℚ) by push_cast; ring, Int.ceil_intCast]
  simp

/-- **C23** Series without dates whose first x is 0 and with a positive horizon: the index and the x values coincide and are the
consecutive integers 0, 1, … below `stop + 100 y`; all actual x are covered. -/
theorem C23_numeric_partial (stop : Int) (y : ℚ) (hy : 0 < y) :
    sxExtrapolateNum 0 stop y 0 =
      ((List.range (⌈(stop : ℚ) + 100 * y⌉).toNat).map fun i : Nat => ((i : Int), (i : Int))) ∧
    ∀ k : Int, 0 ≤ k → k ≤ stop → (k, k) ∈ sxExtrapolateNum 0 stop y 0 := by
  have h : sxExtrapolateNum 0 stop y 0 =
      ((List.range (⌈(stop : ℚ) + 100 * y⌉).toNat).map fun i : Nat => ((i : Int), (i : Int))) := by
    unfold sxExtrapolateNum
    simp only [arange_nat]
    rw [arange_length]
    unfold arange
    simp only [Int.cast_zero, sub_zero, List.map_map, Int.zero_add]
    rw [List.zip_map']
    apply List.map_congr_left
    intro i _
    simp
  refine ⟨h, ?_⟩
  intro k h0 h1
  rw [h, List.mem_map]
  refine ⟨k.toNat, ?_, by simp [h0]⟩
  rw [List.mem_range]
  have : (k : ℚ) < (stop : ℚ) + 100 * y := by
    have : (k : ℚ) ≤ (stop : ℚ) := by exact_mod_cast h1
    linarith
  have := Int.lt_ceil.2 this
  omega

example : sxExtrapolateNum 0 2 (2 / 100) 0 = [(0, 0), (1, 1), (2, 2), (3, 3)] := by decide +kernel

/-- **C23 refuted**: a series with x = 5, 6, 7 is extrapolated at x = 10, 11, … although the index says 5, 6, …; and with
a zero horizon the last actual sample is not covered. -/
theorem C23_counterexample :
    sxExtrapolateNum 5 7 (1 / 100) 5 = [(5, 10), (6, 11), (7, 12)] ∧
    sxExtrapolateNum 0 2 0 0 = [(0, 0), (1, 1)] := by decide +kernel

/-! ### C24 -/

/-- **C24** Extrapolating with a weekly frequency raises an assertion error exactly if the first date is not on the frequency's
weekday. -/
theorem C24_weekday_check (wd : Int → Int) (hw : IsWeek wd) (start stop : Int) (w : Int) (y : ℚ) (x0 : Int) :
    (wd (start / dayNs) ≠ w → sxExtrapolateDate start stop (some (.W w)) y x0 = .error .assertionError) ∧
    (wd (start / dayNs) = w → ∃ l, sxExtrapolateDate start stop (some (.W w)) y x0 = .ok l) := by
  rw [isWeek_unique wd hw]
  have e : weekdayOfDay (start / dayNs) = weekday start := rfl
  rw [e]
  constructor
  · intro h
    simp [sxExtrapolateDate, pyAssert, h, bind, Except.bind]
  · intro h
    exact ⟨_, by simp only [sxExtrapolateDate, pyAssert, h, bind, Except.bind, decide_true, if_true, addHorizon]; rfl⟩

/-- A Thursday with a Thursday and a Monday frequency. -/
example : sxExtrapolateDate 0 0 (some (.W 3)) 0 0 = .ok [(0, 0)] ∧
    sxExtrapolateDate 0 0 (some (.W 0)) 0 0 = .error .assertionError := by decide +kernel

end Anticipy

#print axioms Anticipy.C21_extrapolate_partial
#print axioms Anticipy.C21_month_end_partial
#print axioms Anticipy.C21_counterexample_month_end
#print axioms Anticipy.C21_counterexample_quarter
#print axioms Anticipy.C21_counterexample_fractional_years
#print axioms Anticipy.C22_same_x_partial
#print axioms Anticipy.C22_counterexample
#print axioms Anticipy.C23_numeric_partial
#print axioms Anticipy.C23_counterexample
#print axioms Anticipy.C24_weekday_check
