import Verif.Spec.Factors
import Verif.Props.MoreWeight

/-
C117: a series with seasonal factors is continued with the same factors.
-/
namespace Anticipy
open Spec
variable {K : Type} [Field K] [LinearOrder K]

/-- A sum of squares over the rows that count is zero only if all terms are. -/
theorem squares_zero [IsStrictOrderedRing K] (start : Option Timestamp) (t : STable K) (s : String) (g : SRow K → K) (h : squares start t s g ≤ 0) :
    ∀ r ∈ counted start t s, g r = 0 := by
  intro r hr
  unfold squares at h
  have hnn : ∀ x ∈ (counted start t s).map (fun r => rowWeight t r ^ 2 * g r ^ 2), 0 ≤ x := by
    intro x hx
    obtain ⟨q, -, rfl⟩ := List.mem_map.1 hx
    positivity
  have hle := (List.single_le_sum hnn _ (List.mem_map_of_mem (f := fun r => rowWeight t r ^ 2 * g r ^ 2) hr)).trans h
  have hw : 0 < rowWeight t r := by
    have := (List.mem_filter.1 hr).2
    simp only [Bool.and_eq_true, decide_eq_true_eq] at this
    exact this.2
  have h2 : g r ^ 2 ≤ 0 := by
    by_contra hc
    push Not at hc
    have := mul_pos (pow_pos hw 2) hc
    linarith
  exact pow_eq_zero_iff (two_ne_zero) |>.1 (le_antisymm h2 (sq_nonneg _))

variable [FloorRing K]

/-- If some parameters reproduce the samples, a forecast is the value of the model at parameters that reproduce the samples. -/
theorem exact_row [IsStrictOrderedRing K] (w : World K) (args : RunArgs K) (id : String) (t : STable K) (hp : Proper t) (s : String) (hs : IsSeries t id s)
    (res : RunResult K) (h : runForecast w args id t = .ok (some res)) (hout : args.findOutliers = false) (m : ForecastModel K)
    (val : List K → Int → Timestamp → K) (hm : HasFormula m false val)
    (reg : Registry K) (ht : CacheTransparent reg m) (hx : FitsExactly w args s (seriesFrame t s) m reg)
    (p0 : List K) (hp0 : p0.length = m.nParams) (hy : SamplesAre args.start t s fun d => val p0 ((d - originOf t s) / (24 * 60 * 60 * 1000000000)) d)
    (r : DRow K) (hr : ForecastOf (partOf t s res) m.name r) :
    ∃ p : List K, p.length = m.nParams ∧ r.y = some (val p ((r.date - originOf t s) / (24 * 60 * 60 * 1000000000)) r.date) ∧
      SamplesAre args.start t s fun d => val p ((d - originOf t s) / (24 * 60 * 60 * 1000000000)) d := by
  obtain ⟨p, h1, h2, h3⟩ := best_row w args id t hp s hs res h hout m val hm reg ht hx r hr
  refine ⟨p, h1, h2, fun q hq => ?_⟩
  have hz : squares args.start t s (fun r => r.y.getD 0 - val p0 ((r.date - originOf t s) / (24 * 60 * 60 * 1000000000)) r.date) = 0 := by
    unfold squares
    apply List.sum_eq_zero
    intro x hx
    obtain ⟨q, hq, rfl⟩ := List.mem_map.1 hx
    have := hy q hq
    dsimp only at this ⊢
    rw [this]
    simp
  have := squares_zero args.start t s _ ((h3 p0 hp0).trans hz.le) q hq
  linarith

/-- **C117, fitted values.** If a model with a formula can reproduce the samples that count, its fitted values are the samples. -/
theorem C117_reproduced [IsStrictOrderedRing K] (w : World K) (args : RunArgs K) (id : String) (t : STable K) (hp : Proper t) (s : String) (hs : IsSeries t id s)
    (res : RunResult K) (h : runForecast w args id t = .ok (some res)) (hout : args.findOutliers = false) (m : ForecastModel K)
    (val : List K → Int → Timestamp → K) (hm : HasFormula m false val)
    (reg : Registry K) (ht : CacheTransparent reg m) (hx : FitsExactly w args s (seriesFrame t s) m reg)
    (p0 : List K) (hp0 : p0.length = m.nParams) (hy : SamplesAre args.start t s fun d => val p0 ((d - originOf t s) / (24 * 60 * 60 * 1000000000)) d)
    (q : SRow K) (hq : q ∈ counted args.start t s) (r : DRow K) (hr : ForecastOf (partOf t s res) m.name r) (hd : r.date = q.date) : r.y = q.y := by
  obtain ⟨p, -, h2, h3⟩ := exact_row w args id t hp s hs res h hout m val hm reg ht hx p0 hp0 hy r hr
  have h4 := h3 q hq
  dsimp only at h4
  rw [h2, hd, ← h4]
  have := (List.mem_filter.1 hq).2
  simp only [Bool.and_eq_true] at this
  obtain ⟨y, e⟩ := Option.isSome_iff_exists.1 this.1.2
  rw [e]
  rfl

/-- The value of a model with one factor for each season; the factor of season 0 is 1. -/
def seasonFactor (idx : Timestamp → Int) (p : List K) (t : Timestamp) : K := (((1 : K) :: p)[(idx t).toNat]?).getD 0

/-- The factors of the seasons 1 to `n` relative to season 0. -/
def relativeFactors (f : Int → K) (n : Nat) : List K := (List.range n).map fun i : Nat => f ((i : Int) + 1) / f 0

omit [LinearOrder K] [FloorRing K] in
theorem seasonFactor_relative (idx : Timestamp → Int) (f : Int → K) (n : Nat) (h0 : f 0 ≠ 0) (t : Timestamp) (hi : 0 ≤ idx t ∧ idx t < n + 1) :
    f 0 * seasonFactor idx (relativeFactors f n) t = f (idx t) := by
  unfold seasonFactor relativeFactors
  obtain ⟨k, hk⟩ := Int.eq_ofNat_of_zero_le hi.1
  rw [hk] at hi ⊢
  cases k with
  | zero => simp
  | succ k =>
    have hlt : k < n := by omega
    simp only [Int.toNat_natCast, List.getElem?_cons_succ, List.getElem?_map, List.getElem?_range hlt, Option.map_some, Option.getD_some]
    push_cast
    field_simp

/-- **C117.** The samples that count are a straight line times a factor for each season (weekday or month, say). Then the forecasts of the product of linear trend and
seasonality are the same line times the same factors, on every date whose season has two samples. -/
theorem C117_line [IsStrictOrderedRing K] (w : World K) (args : RunArgs K) (id : String) (t : STable K) (hp : Proper t) (s : String) (hs : IsSeries t id s)
    (res : RunResult K) (h : runForecast w args id t = .ok (some res)) (hout : args.findOutliers = false) (ms : ForecastModel K) (idx : Timestamp → Int)
    (hms : HasFormula ms true fun p _ d => seasonFactor idx p d) (hidx : ∀ d, 0 ≤ idx d ∧ idx d < ms.nParams + 1)
    (reg : Registry K) (ht : CacheTransparent reg (modelLinear.mul ms)) (hx : FitsExactly w args s (seriesFrame t s) (modelLinear.mul ms) reg)
    (a b : K) (f : Int → K) (hf : f 0 ≠ 0) (hy : SamplesAre args.start t s fun d => dayLine (originOf t s) a b d * f (idx d))
    (r : DRow K) (hr : ForecastOf (partOf t s res) (modelLinear.mul ms).name r) (hseen : SeenTwice args.start t s idx r.date) :
    r.y = some (dayLine (originOf t s) a b r.date * f (idx r.date)) := by
  have hm := formula_compose true false (formula_linear (K := K) true) hms
  have h2 : (modelLinear : ForecastModel K).nParams = 2 := rfl
  have hn : (modelLinear.mul ms : ForecastModel K).nParams = 2 + ms.nParams := by
    exact compose_nParams true _ _ (formula_linear (K := K) true).named.1 hms.named.1
  simp only [if_true, h2] at hm
  have hline : ∀ (A B : K) (l : List K) x d, combination lineFeatures ((A :: B :: l).take 2) x d = A * (x : K) + B := by
    intro A B l x d
    simp [combination, lineFeatures]
  obtain ⟨p, hpl, e, hp'⟩ := exact_row w args id t hp s hs res h hout (modelLinear.mul ms) _ hm reg ht hx ([a * f 0, b * f 0] ++ relativeFactors f ms.nParams)
    (by rw [hn]; simp [relativeFactors]; omega) (by
      intro q hq
      rw [hy q hq]
      dsimp only
      rw [show [a * f 0, b * f 0] ++ relativeFactors f ms.nParams = a * f 0 :: b * f 0 :: relativeFactors f ms.nParams from rfl, hline]
      simp only [List.drop_succ_cons, List.drop_zero]
      rw [← seasonFactor_relative idx f ms.nParams hf q.date (hidx _)]
      unfold dayLine
      ring) r hr
  obtain ⟨A, B, l, rfl⟩ : ∃ A B l, p = A :: B :: l := by
    match p, hpl with
    | [], hpl => rw [hn] at hpl; simp at hpl; omega
    | [_], hpl => rw [hn] at hpl; simp at hpl; omega
    | A :: B :: l, _ => exact ⟨A, B, l, rfl⟩
  simp only [hline, List.drop_succ_cons, List.drop_zero] at e hp'
  obtain ⟨r1, k1, r2, k2, s1, s2, hne⟩ := hseen
  have fac : ∀ d d', idx d = idx d' → seasonFactor idx l d = seasonFactor idx l d' := by
    intro d d' h
    unfold seasonFactor
    rw [h]
  have g1 := (hy r1 k1).symm.trans (hp' r1 k1)
  have g2 := (hy r2 k2).symm.trans (hp' r2 k2)
  dsimp only at g1 g2
  rw [s1, fac _ _ s1] at g1
  rw [s2, fac _ _ s2] at g2
  have hx12 : (((r1.date - originOf t s) / (24 * 60 * 60 * 1000000000) : Int) : K) ≠ (((r2.date - originOf t s) / (24 * 60 * 60 * 1000000000) : Int) : K) := by
    intro hc
    have hc := Int.cast_injective hc
    have hmem : ∀ q ∈ counted args.start t s, q ∈ t.rows := by
      intro q hq
      have := (List.mem_filter.1 hq).1
      unfold rowsOf only at this
      split_ifs at this
      · exact (List.mem_filter.1 this).1
      · exact this
    have := hp.onePerDate.timeOfDay r1 (hmem r1 k1) r2 (hmem r2 k2)
    apply hne
    generalize originOf t s = o at hc
    omega
  unfold dayLine at g1 g2 ⊢
  generalize (((r1.date - originOf t s) / (24 * 60 * 60 * 1000000000) : Int) : K) = x1 at g1 hx12
  generalize (((r2.date - originOf t s) / (24 * 60 * 60 * 1000000000) : Int) : K) = x2 at g2 hx12
  rw [e]
  generalize (((r.date - originOf t s) / (24 * 60 * 60 * 1000000000) : Int) : K) = x
  generalize f (idx r.date) = F at g1 g2 ⊢
  generalize seasonFactor idx l r.date = c at g1 g2 ⊢
  have hA : a * F = A * c := by
    have : (x1 - x2) * (a * F - A * c) = 0 := by linear_combination g1 - g2
    rcases mul_eq_zero.1 this with h | h
    · exact absurd (sub_eq_zero.1 h) hx12
    · exact sub_eq_zero.1 h
  have hB : b * F = B * c := by linear_combination g1 - x1 * hA
  congr 1
  linear_combination -(x * hA) - hB

/-- **C117, level.** The same for a level times a factor for each season: one sample for the season of the date is enough. -/
theorem C117_level [IsStrictOrderedRing K] (w : World K) (args : RunArgs K) (id : String) (t : STable K) (hp : Proper t) (s : String) (hs : IsSeries t id s)
    (res : RunResult K) (h : runForecast w args id t = .ok (some res)) (hout : args.findOutliers = false) (ms : ForecastModel K) (idx : Timestamp → Int)
    (hms : HasFormula ms true fun p _ d => seasonFactor idx p d) (hidx : ∀ d, 0 ≤ idx d ∧ idx d < ms.nParams + 1)
    (reg : Registry K) (ht : CacheTransparent reg (modelConstant.mul ms)) (hx : FitsExactly w args s (seriesFrame t s) (modelConstant.mul ms) reg)
    (f : Int → K) (hf : f 0 ≠ 0) (hy : SamplesAre args.start t s fun d => f (idx d))
    (r : DRow K) (hr : ForecastOf (partOf t s res) (modelConstant.mul ms).name r) (hseen : SeenOnce args.start t s idx r.date) :
    r.y = some (f (idx r.date)) := by
  have hm := formula_compose true false (formula_constant (K := K) true) hms
  have h2 : (modelConstant : ForecastModel K).nParams = 1 := rfl
  have hn : (modelConstant.mul ms : ForecastModel K).nParams = 1 + ms.nParams := by
    exact compose_nParams true _ _ (formula_constant (K := K) true).named.1 hms.named.1
  simp only [if_true, h2] at hm
  have hline : ∀ (A : K) (l : List K) x d, combination levelFeatures ((A :: l).take 1) x d = A := by
    intro A l x d
    simp [combination, levelFeatures]
  obtain ⟨p, hpl, e, hp'⟩ := exact_row w args id t hp s hs res h hout (modelConstant.mul ms) _ hm reg ht hx (f 0 :: relativeFactors f ms.nParams)
    (by rw [hn]; simp [relativeFactors]; omega) (by
      intro q hq
      rw [hy q hq]
      dsimp only
      rw [hline]
      simp only [List.drop_succ_cons, List.drop_zero]
      rw [seasonFactor_relative idx f ms.nParams hf q.date (hidx _)]) r hr
  obtain ⟨A, l, rfl⟩ : ∃ A l, p = A :: l := by
    match p, hpl with
    | [], hpl => rw [hn] at hpl; simp at hpl; omega
    | A :: l, _ => exact ⟨A, l, rfl⟩
  simp only [hline, List.drop_succ_cons, List.drop_zero] at e hp'
  obtain ⟨r1, k1, s1⟩ := hseen
  have g1 := (hy r1 k1).symm.trans (hp' r1 k1)
  dsimp only at g1
  rw [e, ← s1, g1]
  unfold seasonFactor
  rw [s1]

/-- **C117, weekdays.** -/
theorem C117_weekly [IsStrictOrderedRing K] (w : World K) (args : RunArgs K) (id : String) (t : STable K) (hp : Proper t) (s : String) (hs : IsSeries t id s)
    (res : RunResult K) (h : runForecast w args id t = .ok (some res)) (hout : args.findOutliers = false)
    (reg : Registry K) (hreg : reg "a_weekday" = some cacheWeekday)
    (hx : FitsExactly w args s (seriesFrame t s) (modelLinear.mul modelSeasonWday) reg)
    (a b : K) (f : Int → K) (hf : f 0 ≠ 0) (hy : SamplesAre args.start t s fun d => dayLine (originOf t s) a b d * f (weekday d))
    (r : DRow K) (hr : ForecastOf (partOf t s res) "(linear*season_wday)" r) (hseen : SeenTwice args.start t s weekday r.date) :
    r.y = some (dayLine (originOf t s) a b r.date * f (weekday r.date)) :=
  C117_line w args id t hp s hs res h hout modelSeasonWday weekday (formula_wday true) (fun d => weekday_range d) reg
    (transparent_compose _ _ _ _ (fun _ _ _ _ _ => rfl) (transparent_indexed _ "a_weekday" cacheWeekday hreg _ rfl)) hx a b f hf hy r hr hseen

/-- **C117, months.** Season 0 is January. -/
theorem C117_monthly [IsStrictOrderedRing K] (w : World K) (args : RunArgs K) (id : String) (t : STable K) (hp : Proper t) (s : String) (hs : IsSeries t id s)
    (res : RunResult K) (h : runForecast w args id t = .ok (some res)) (hout : args.findOutliers = false)
    (reg : Registry K) (hreg : reg "a_month" = some cacheMonth)
    (hx : FitsExactly w args s (seriesFrame t s) (modelLinear.mul modelSeasonMonth) reg)
    (a b : K) (f : Int → K) (hf : f 0 ≠ 0) (hy : SamplesAre args.start t s fun d => dayLine (originOf t s) a b d * f (month d - 1))
    (r : DRow K) (hr : ForecastOf (partOf t s res) "(linear*season_month)" r) (hseen : SeenTwice args.start t s (fun d => month d - 1) r.date) :
    r.y = some (dayLine (originOf t s) a b r.date * f (month r.date - 1)) :=
  C117_line w args id t hp s hs res h hout modelSeasonMonth (fun d => month d - 1) (formula_month true) (fun d => by
    have := month_range d
    have e : ((modelSeasonMonth : ForecastModel K).nParams : Int) = 11 := rfl
    omega) reg (transparent_compose _ _ _ _ (fun _ _ _ _ _ => rfl) (transparent_indexed _ "a_month" cacheMonth hreg _ rfl)) hx a b f hf hy r hr hseen

/-! ### A concrete case -/

/-- The factors of the example: 4 on Thursdays, 2 on other days. -/
def exampleFactor (i : Int) : ℚ := if i = 3 then 4 else 2

/-- A growing series with a weekly factor; the first day is an outlier of weight 0. -/
def factorTable : STable ℚ := ⟨true, true, false, true, (List.range 15).map fun i : Nat =>
  ⟨(4 + (i : Int)) * DAY, some "a", 0, if i = 0 then some 1000 else some (((i : ℚ) + 3) * exampleFactor (weekday ((4 + (i : Int)) * DAY))), some (if i = 0 then 0 else 1)⟩⟩

def factorWorld : World ℚ := { demoWorld with env := fun _ _ => { knownEnv [2, 6, 1, 1, 2, 1, 1, 1] with
  globalCache := fun k => if k = "a_weekday" then some cacheWeekday else none } }

def factorArgs : RunArgs ℚ := { demoArgs [modelConstant] (some []) with models := ⟨some [modelLinear], some [modelSeasonWday], .mult, none, none, some [], none⟩, useCache := true }

/-- The hypotheses of `C117_weekly` are met: the samples have the values, and every weekday is seen twice. -/
example : Proper factorTable ∧ IsSeries factorTable "" "a" ∧
    (SamplesAre factorArgs.start factorTable "a" fun d => dayLine (originOf factorTable "a") 1 3 d * exampleFactor (weekday d)) ∧ exampleFactor 0 ≠ 0 ∧
    ∀ k ∈ List.range 7, SeenTwice factorArgs.start factorTable "a" weekday ((20 + (k : Int)) * DAY) := by
  refine ⟨⟨⟨rfl, rfl, by decide +kernel, by decide +kernel⟩, by decide +kernel⟩, ⟨_, List.mem_cons_self, rfl⟩, ?_, by decide +kernel, ?_⟩
  · unfold SamplesAre
    decide +kernel
  · unfold SeenTwice
    decide +kernel

example : FitsExactly factorWorld factorArgs "a" (seriesFrame factorTable "a") (modelLinear.mul modelSeasonWday) (fun k => if k = "a_weekday" then some cacheWeekday else none) := by
  refine ⟨fun _ => knownEnv_minimum _, ?_, fun _ => registered_compose _ _ _ _ _ ⟨by simp [modelLinear, mkModel], by simp [modelLinear, mkModel]⟩
      ⟨fun k _ f hf => hf, by simp [modelSeasonWday, mkModel]⟩⟩
  intro df' cand h m' hm' hn
  have e : candidates factorWorld.ch factorArgs.models df' (runFreq (seriesFrame factorTable "a")) = .ok (.mult, [modelLinear.mul modelSeasonWday]) := rfl
  rw [e] at h
  cases h
  simpa using hm'

/-- The forecasts after the samples are those of the line `x + 3` times 4 on the Thursday and 2 on the other days. -/
example : ((runForecast factorWorld factorArgs "" factorTable).toOption.bind fun r => r.map fun r =>
      ((r.data.filter fun q => !q.isActuals && decide (18 * DAY < q.date)).map fun q => (q.date / DAY, q.model, q.y))) =
    some ([(19, 36), (20, 38), (21, 80)].map fun p => (p.1, "(linear*season_wday)", some p.2)) := by
  decide +kernel

end Anticipy
