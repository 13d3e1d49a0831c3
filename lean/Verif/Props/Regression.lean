import Verif.Spec.Regression
import Verif.Props.OnlyCounted
import Verif.Lemmas.ExactSolver

/-
C122: the forecast of the linear model is the regression line of the samples.
-/
namespace Anticipy
open Spec
variable {K : Type} [Field K] [LinearOrder K]

/-! ### Sums -/

omit [LinearOrder K] in
theorem weightedSum_lin (l : List (Timestamp × K × K)) (c d : K) (f g : Timestamp → K → K) :
    weightedSum l (fun t y => c * f t y + d * g t y) = c * weightedSum l f + d * weightedSum l g := by
  unfold weightedSum
  induction l with
  | nil => simp
  | cons a l ih => simp only [List.map_cons, List.sum_cons]; rw [ih]; ring

theorem weightedSum_nonneg [IsStrictOrderedRing K] (l : List (Timestamp × K × K)) (f : Timestamp → K → K) (h : ∀ q ∈ l, 0 ≤ f q.1 q.2.1) :
    0 ≤ weightedSum l f := by
  apply List.sum_nonneg
  intro e he
  obtain ⟨b, hb, rfl⟩ := List.mem_map.1 he
  exact mul_nonneg (sq_nonneg _) (h b hb)

theorem weightedSum_pos [IsStrictOrderedRing K] (l : List (Timestamp × K × K)) (f : Timestamp → K → K) (h : ∀ q ∈ l, 0 ≤ f q.1 q.2.1)
    (q : Timestamp × K × K) (hq : q ∈ l) (hw : 0 < q.2.2) (hf : 0 < f q.1 q.2.1) : 0 < weightedSum l f := by
  induction l with
  | nil => cases hq
  | cons a l ih =>
    have e : weightedSum (a :: l) f = a.2.2 ^ 2 * f a.1 a.2.1 + weightedSum l f := by simp [weightedSum]
    rw [e]
    rcases List.mem_cons.1 hq with rfl | hq
    · have := weightedSum_nonneg l f fun b hb => h b (List.mem_cons_of_mem _ hb)
      have := mul_pos (pow_pos hw 2) hf
      linarith
    · have := ih (fun b hb => h b (List.mem_cons_of_mem _ hb)) hq
      have := mul_nonneg (sq_nonneg a.2.2) (h a List.mem_cons_self)
      linarith

/-- Sum over all pairs of samples of the product of two differences. -/
def pairSum (l : List (Timestamp × K × K)) (f g : Timestamp → K → K) : K :=
  weightedSum l fun t y => weightedSum l fun t' y' => (f t' y' - f t y) * (g t' y' - g t y)

omit [LinearOrder K] in
theorem pairSum_eq (l : List (Timestamp × K × K)) (f g : Timestamp → K → K) :
    pairSum l f g = 2 * (weightedSum l (fun _ _ => 1) * weightedSum l (fun t y => f t y * g t y) - weightedSum l f * weightedSum l g) := by
  have inner : ∀ F G : K, weightedSum l (fun t' y' => (f t' y' - F) * (g t' y' - G)) =
      weightedSum l (fun t y => f t y * g t y) - G * weightedSum l f - F * weightedSum l g + F * G * weightedSum l (fun _ _ => 1) := by
    intro F G
    unfold weightedSum
    induction l with
    | nil => simp
    | cons a l ih => simp only [List.map_cons, List.sum_cons]; rw [ih]; ring
  have outer : ∀ A B C D : K, weightedSum l (fun t y => A - g t y * B - f t y * C + f t y * g t y * D) =
      A * weightedSum l (fun _ _ => 1) - weightedSum l g * B - weightedSum l f * C + weightedSum l (fun t y => f t y * g t y) * D := by
    intro A B C D
    clear inner
    unfold weightedSum
    induction l with
    | nil => simp
    | cons a l ih => simp only [List.map_cons, List.sum_cons]; rw [ih]; ring
  unfold pairSum
  simp only [inner]
  rw [outer]
  ring

/-- Two samples on different days. -/
def TwoDays (t0 : Timestamp) (l : List (Timestamp × K × K)) : Prop :=
  (∀ q ∈ l, 0 < q.2.2) ∧ ∃ a ∈ l, ∃ b ∈ l, (dayNumber t0 a.1 : K) < dayNumber t0 b.1

theorem weightedSum_one [IsStrictOrderedRing K] (t0 : Timestamp) (l : List (Timestamp × K × K)) (h : TwoDays t0 l) : 0 < weightedSum l (fun _ _ => (1 : K)) := by
  obtain ⟨hw, a, ha, -⟩ := h
  exact weightedSum_pos l _ (fun _ _ => zero_le_one) a ha (hw a ha) zero_lt_one

theorem daySpread_pos [IsStrictOrderedRing K] (t0 : Timestamp) (l : List (Timestamp × K × K)) (h : TwoDays t0 l) : 0 < daySpread t0 l := by
  obtain ⟨hw, a, ha, b, hb, hab⟩ := h
  unfold daySpread
  have h0 : ∀ q ∈ l, 0 ≤ (dayNumber t0 q.1 - meanDay t0 l) ^ 2 := fun q _ => sq_nonneg _
  by_cases hz : dayNumber t0 a.1 = meanDay t0 l
  · exact weightedSum_pos l _ h0 b hb (hw b hb) (by rw [← hz]; exact pow_pos (sub_pos.2 hab) 2)
  · exact weightedSum_pos l _ h0 a ha (hw a ha) (lt_of_le_of_ne (sq_nonneg _) (Ne.symm (pow_ne_zero 2 (sub_ne_zero.2 hz))))

/-- The normal equations determine the line. -/
theorem normal_line [IsStrictOrderedRing K] (t0 : Timestamp) (l : List (Timestamp × K × K)) (h : TwoDays t0 l) (a b : K)
    (h1 : weightedSum l (fun t y => y - (a * dayNumber t0 t + b)) = 0)
    (h2 : weightedSum l (fun t y => (y - (a * dayNumber t0 t + b)) * dayNumber t0 t) = 0) :
    a = slopeOf t0 l ∧ ∀ t, a * dayNumber t0 t + b = regressionLine t0 l t := by
  have hW := weightedSum_one t0 l h
  have hS := daySpread_pos t0 l h
  have e1 : weightedSum l (fun t y => y - (a * dayNumber t0 t + b)) =
      weightedSum l (fun _ y => y) - a * weightedSum l (fun t _ => dayNumber t0 t) - b * weightedSum l (fun _ _ => 1) := by
    clear h1 h2 hS hW h
    unfold weightedSum
    induction l with
    | nil => simp
    | cons q l ih => simp only [List.map_cons, List.sum_cons]; rw [ih]; ring
  have hb : b = meanValue l - a * meanDay t0 l := by
    rw [e1] at h1
    unfold meanValue meanDay
    field_simp
    linarith
  have e2 : weightedSum l (fun t y => (dayNumber t0 t - meanDay t0 l) * (y - meanValue l)) = a * daySpread t0 l := by
    have : weightedSum l (fun t y => (dayNumber t0 t - meanDay t0 l) * (y - meanValue l)) =
        weightedSum l (fun t y => (y - (a * dayNumber t0 t + b)) * dayNumber t0 t) - meanDay t0 l * weightedSum l (fun t y => y - (a * dayNumber t0 t + b)) +
          a * weightedSum l (fun t _ => (dayNumber t0 t - meanDay t0 l) ^ 2) := by
      subst hb
      generalize meanDay t0 l = mx
      generalize meanValue l = my
      clear h1 h2 e1 hS hW h
      unfold weightedSum
      induction l with
      | nil => simp
      | cons a l ih => simp only [List.map_cons, List.sum_cons]; rw [ih]; ring
    rw [this, h1, h2]
    unfold daySpread
    ring
  have ha : a = slopeOf t0 l := by
    unfold slopeOf
    rw [e2, mul_div_assoc, div_self hS.ne', mul_one]
  refine ⟨ha, fun t => ?_⟩
  unfold regressionLine
  rw [← ha, hb]
  ring

/-- The slope lies between the least and the greatest growth per day. -/
theorem slope_bounds [IsStrictOrderedRing K] (t0 : Timestamp) (l : List (Timestamp × K × K)) (h : TwoDays t0 l) (a b : K)
    (h1 : weightedSum l (fun t y => y - (a * dayNumber t0 t + b)) = 0)
    (h2 : weightedSum l (fun t y => (y - (a * dayNumber t0 t + b)) * dayNumber t0 t) = 0)
    (lo hi : K) (hg : GrowsBetween lo hi t0 l) : lo ≤ a ∧ a ≤ hi := by
  have hpos : 0 < pairSum l (fun t _ => (dayNumber t0 t : K)) (fun t _ => dayNumber t0 t) := by
    obtain ⟨hw, p, hp, q, hq, hpq⟩ := h
    unfold pairSum
    refine weightedSum_pos l _ (fun r _ => weightedSum_nonneg l _ fun r' _ => ?_) p hp (hw p hp)
      (weightedSum_pos l _ (fun r' _ => ?_) q hq (hw q hq) ?_)
    · exact mul_self_nonneg _
    · exact mul_self_nonneg _
    · exact mul_pos (sub_pos.2 hpq) (sub_pos.2 hpq)
  have mono : ∀ s t : Timestamp, s ≤ t → (dayNumber t0 s : K) ≤ dayNumber t0 t := by
    intro s t hst
    unfold dayNumber
    exact Int.cast_le.2 (Int.ediv_le_ediv (by decide) (by omega))
  have key : ∀ c : K, pairSum l (fun t y => y - c * dayNumber t0 t) (fun t _ => dayNumber t0 t) =
      (a - c) * pairSum l (fun t _ => (dayNumber t0 t : K)) (fun t _ => dayNumber t0 t) := by
    intro c
    have z : pairSum l (fun t y => y - (a * dayNumber t0 t + b)) (fun t _ => dayNumber t0 t) = 0 := by
      rw [pairSum_eq, h1, h2]
      ring
    have : pairSum l (fun t y => y - c * dayNumber t0 t) (fun t _ => dayNumber t0 t) =
        pairSum l (fun t y => y - (a * dayNumber t0 t + b)) (fun t _ => dayNumber t0 t) +
          (a - c) * pairSum l (fun t _ => (dayNumber t0 t : K)) (fun t _ => dayNumber t0 t) := by
      have inner : ∀ t y, weightedSum l (fun t' y' => (y' - c * dayNumber t0 t' - (y - c * dayNumber t0 t)) * (dayNumber t0 t' - dayNumber t0 t)) =
          1 * weightedSum l (fun t' y' => (y' - (a * dayNumber t0 t' + b) - (y - (a * dayNumber t0 t + b))) * (dayNumber t0 t' - dayNumber t0 t)) +
            (a - c) * weightedSum l (fun t' _ => (dayNumber t0 t' - dayNumber t0 t) * (dayNumber t0 t' - dayNumber t0 t)) := by
        intro t y
        rw [← weightedSum_lin]
        congr 1
        funext t' y'
        ring
      unfold pairSum
      simp only [inner]
      rw [weightedSum_lin, one_mul]
    rw [this, z, zero_add]
  have sides : ∀ p ∈ l, ∀ q ∈ l, 0 ≤ (q.2.1 - lo * dayNumber t0 q.1 - (p.2.1 - lo * dayNumber t0 p.1)) * (dayNumber t0 q.1 - dayNumber t0 p.1) ∧
      (q.2.1 - hi * dayNumber t0 q.1 - (p.2.1 - hi * dayNumber t0 p.1)) * (dayNumber t0 q.1 - dayNumber t0 p.1) ≤ 0 := by
    intro p hp q hq
    rcases le_total p.1 q.1 with hle | hle
    · obtain ⟨g1, g2⟩ := hg p hp q hq hle
      have := mono _ _ hle
      exact ⟨mul_nonneg (by linarith) (by linarith), mul_nonpos_of_nonpos_of_nonneg (by linarith) (by linarith)⟩
    · obtain ⟨g1, g2⟩ := hg q hq p hp hle
      have := mono _ _ hle
      exact ⟨mul_nonneg_of_nonpos_of_nonpos (by linarith) (by linarith), mul_nonpos_of_nonneg_of_nonpos (by linarith) (by linarith)⟩
  constructor
  · have h0 : 0 ≤ pairSum l (fun t y => y - lo * dayNumber t0 t) (fun t _ => dayNumber t0 t) :=
      weightedSum_nonneg l _ fun p hp => weightedSum_nonneg l _ fun q hq => (sides p hp q hq).1
    rw [key] at h0
    exact sub_nonneg.1 (nonneg_of_mul_nonneg_left h0 hpos)
  · have h0 : 0 ≤ -pairSum l (fun t y => y - hi * dayNumber t0 t) (fun t _ => dayNumber t0 t) := by
      have e : -pairSum l (fun t y => y - hi * dayNumber t0 t) (fun t _ => dayNumber t0 t) =
          weightedSum l fun t y => weightedSum l fun t' y' => -((y' - hi * dayNumber t0 t' - (y - hi * dayNumber t0 t)) * (dayNumber t0 t' - dayNumber t0 t)) := by
        have neg : ∀ f : Timestamp → K → K, weightedSum l (fun t y => -f t y) = -weightedSum l f := by
          intro f
          have := weightedSum_lin l (-1) 0 f f
          simpa using this
        unfold pairSum
        simp only [neg]
      rw [e]
      exact weightedSum_nonneg l _ fun p hp => weightedSum_nonneg l _ fun q hq => neg_nonneg.2 (sides p hp q hq).2
    rw [key, ← neg_mul] at h0
    have := nonneg_of_mul_nonneg_left h0 hpos
    linarith

/-! ### Runs -/

theorem observed_sumOf (res : RunResult K) (f : Timestamp → K → K) (v g : Timestamp → K) (h : ∀ t y, f t y = (y - v t) * g t) :
    weightedSum (observedSamples res) f = errorSum res v g := by
  unfold weightedSum observedSamples errorSum
  rw [List.map_map]
  congr 1
  apply List.map_congr_left
  intro a _
  simp only [Function.comp, h, mul_assoc]

/-- A linear model that is fitted has observations on at least two days. -/
theorem observed_twoDays [FloorRing K] [IsStrictOrderedRing K] (w : World K) (args : RunArgs K) (source : String) (df : Frame K)
    (res : RunResult K) (h : runSingle w args source df = .ok res) (hmin : ∀ i, FindsMinimum (w.env source i))
    (hcand : ∀ df' cand, candidates w.ch args.models df' (runFreq df) = .ok cand → ∀ m' ∈ cand.2, m'.name = "linear" → m' = modelLinear)
    (hdate : df.hasDate = true) (t0 : Timestamp) (hdays : CountsDays df t0) (hnd : (df.rows.map Row.x).Nodup)
    (r : DRow K) (hr : r ∈ res.data) (hact : r.isActuals = false) (hname : r.model = "linear") : TwoDays t0 (observedSamples res) := by
  refine ⟨?_, ?_⟩
  · intro q hq
    obtain ⟨a, ha, rfl⟩ := List.mem_map.1 hq
    have := (List.mem_filter.1 ha).2
    simp only [Bool.and_eq_true, decide_eq_true_eq] at this
    exact this.2
  obtain ⟨df2, hOut, hobs⟩ := observed_rows w args source df res h hdate
  have hval := fun (ctx : Ctx K) xs ds p h1 h2 h3 h4 (h5 : ∀ k, ctx.cache k = none) h6 =>
    (linear_inParameters (K := K)).value ctx xs ds p h1 h2 h3 h4 (by intro k v hk; rw [h5] at hk; cases hk) h6
  obtain ⟨df2', i, f, act, hOut', e2, hfit, -⟩ := row_value w args source df res h modelLinear hcand lineValue hval (by
    intro i used act f e hf
    obtain ⟨-, ctx, guess, b, r, -, -, -, h4, h5, h6, h7, -⟩ := fitModel_solver _ _ _ _ _ f linear_unpinned linear_inParameters.params e hf
    rw [h7]
    exact (linear_inParameters.free _ _ _ h4).1 (hmin i _ _ _ _ h5 h6).1) hdate t0 hdays r hr hact hname
  rw [hOut] at hOut'
  cases hOut'
  obtain ⟨hlen, -⟩ := fitModel_solver _ _ _ _ _ f linear_unpinned linear_inParameters.params e2 hfit
  obtain ⟨-, -, -, u4, u5⟩ := used_rows args.findOutliers args.start df df2 hOut
  have hndk : ((kept args.start df).map Row.x).Nodup := hnd.sublist (List.Sublist.map _ List.filter_sublist)
  have hndu : ((usableRows (usedRows (defaultWeights df2).1)).map Row.x).Nodup := by
    rw [← u4] at hndk
    exact hndk.sublist (List.Sublist.map _ (List.filter_sublist.trans List.filter_sublist))
  have hl : 4 ≤ (usableRows (usedRows (defaultWeights df2).1)).length := by
    have e : (modelLinear : ForecastModel K).nParams = 2 := by simp [modelLinear, mkModel]
    rw [e] at hlen
    exact hlen
  have day : ∀ q ∈ usableRows (usedRows (defaultWeights df2).1), (dayNumber t0 q.date : K) = (q.x : K) ∧
      ∃ a ∈ observedSamples res, a.1 = q.date := by
    intro q hq
    obtain ⟨k, hk, k1, k2, -⟩ := u5 q (List.mem_filter.1 hq).1
    have hx := hdays k (List.mem_filter.1 hk).1
    refine ⟨?_, ?_⟩
    · unfold dayNumber
      congr 1
      rw [k1, k2, hx]
      omega
    · have hm : (q.date, q.y, q.weight) ∈ (observed res).map fun a => (a.date, a.y, a.weight) := by
        rw [hobs]
        exact List.mem_map_of_mem hq
      obtain ⟨a, ha, e⟩ := List.mem_map.1 hm
      exact ⟨_, List.mem_map_of_mem ha, congrArg Prod.fst e⟩
  match hu : usableRows (usedRows (defaultWeights df2).1), hl with
  | p :: q :: l, _ =>
    rw [hu] at hndu day
    have hne : p.x ≠ q.x := by
      intro e
      simp [e] at hndu
    obtain ⟨d1, a, ha, ea⟩ := day p (by simp)
    obtain ⟨d2, b, hb, eb⟩ := day q (by simp)
    rcases lt_or_gt_of_ne hne with hlt | hlt
    · exact ⟨a, ha, b, hb, by rw [ea, eb, d1, d2]; exact_mod_cast hlt⟩
    · exact ⟨b, hb, a, ha, by rw [ea, eb, d1, d2]; exact_mod_cast hlt⟩

theorem line_stage [FloorRing K] [IsStrictOrderedRing K] (w : World K) (args : RunArgs K) (source : String) (df : Frame K)
    (res : RunResult K) (h : runSingle w args source df = .ok res) (hx : FitsExactly w args source df modelLinear fun _ => none)
    (hdate : df.hasDate = true) (t0 : Timestamp) (hdays : CountsDays df t0) (hnd : (df.rows.map Row.x).Nodup)
    (r0 : DRow K) (hr : ForecastOf res "linear" r0) :
    TwoDays t0 (observedSamples res) ∧ ∃ a b : K, ForecastsAre res "linear" (fun t => a * dayNumber t0 t + b) ∧
      weightedSum (observedSamples res) (fun t y => y - (a * dayNumber t0 t + b)) = 0 ∧
      weightedSum (observedSamples res) (fun t y => (y - (a * dayNumber t0 t + b)) * dayNumber t0 t) = 0 := by
  refine ⟨observed_twoDays w args source df res h hx.minimum hx.only hdate t0 hdays hnd r0 hr.1 hr.2.1 hr.2.2, ?_⟩
  obtain ⟨a, b, h1, h2, h3⟩ := C88_line w args source df res h hx.minimum hx.only hdate t0 hdays hnd r0 hr.1 hr.2.1 hr.2.2
  refine ⟨a, b, h1, ?_, ?_⟩
  · rw [observed_sumOf res _ (dayLine t0 a b) (fun _ => 1) (fun t y => by unfold dayLine dayNumber; ring)]
    exact h2
  · rw [observed_sumOf res _ (dayLine t0 a b) (dayLine t0 1 0) (fun t y => by unfold dayLine dayNumber; ring)]
    exact h3

variable [FloorRing K]

/-- **C122.** Every forecast of the linear model lies on the regression line of the observations of its series: the line through the mean day and the mean
value with slope covariance by variance, everything weighted with the squares of the weights. The formula does not divide by zero. -/
theorem C122_observed [IsStrictOrderedRing K] (w : World K) (args : RunArgs K) (id : String) (t : STable K) (hp : Proper t) (s : String) (hs : IsSeries t id s)
    (res : RunResult K) (h : runForecast w args id t = .ok (some res)) (hx : FitsExactly w args s (seriesFrame t s) modelLinear fun _ => none)
    (r : DRow K) (hr : ForecastOf (partOf t s res) "linear" r) :
    0 < weightedSum (observedSamples (partOf t s res)) (fun _ _ => 1) ∧ 0 < daySpread (originOf t s) (observedSamples (partOf t s res)) ∧
      r.y = some (regressionLine (originOf t s) (observedSamples (partOf t s res)) r.date) := by
  obtain ⟨hd, hrun⟩ := series_run w id t hp s hs
  obtain ⟨two, a, b, h1, h2, h3⟩ := line_stage w args s _ _ (hrun args res h) hx hd.dated _ hd.days hd.nodup r hr
  refine ⟨weightedSum_one _ _ two, daySpread_pos _ _ two, ?_⟩
  rw [h1 r hr.1 hr.2.1 hr.2.2]
  exact congrArg some ((normal_line _ _ two a b h2 h3).2 r.date)

omit [LinearOrder K] [FloorRing K] in
theorem weightedSum_perm {l l' : List (Timestamp × K × K)} (h : l.Perm l') : weightedSum (K := K) l = weightedSum l' := by
  funext f
  exact (h.map _).sum_eq

omit [LinearOrder K] [FloorRing K] in
theorem regressionLine_perm {l l' : List (Timestamp × K × K)} (h : l.Perm l') (t0 : Timestamp) :
    regressionLine (K := K) t0 l = regressionLine t0 l' ∧ daySpread t0 l = daySpread t0 l' := by
  have e := weightedSum_perm h
  have e1 : meanDay t0 l = meanDay t0 l' := by unfold meanDay; rw [e]
  have e2 : meanValue l = meanValue l' := by unfold meanValue; rw [e]
  have e3 : daySpread t0 l = daySpread t0 l' := by unfold daySpread; rw [e, e1]
  refine ⟨?_, e3⟩
  funext t
  unfold regressionLine slopeOf
  rw [e, e1, e2, e3]

/-- **C122.** In terms of the input: every forecast of the linear model lies on the regression line of the samples of the table that count. -/
theorem C122_table [IsStrictOrderedRing K] (w : World K) (args : RunArgs K) (id : String) (t : STable K) (hp : Proper t) (s : String) (hs : IsSeries t id s)
    (res : RunResult K) (h : runForecast w args id t = .ok (some res)) (hout : args.findOutliers = false)
    (hx : FitsExactly w args s (seriesFrame t s) modelLinear fun _ => none) (r : DRow K) (hr : ForecastOf (partOf t s res) "linear" r) :
    0 < weightedSum (samplesOf args.start t s) (fun _ _ => 1) ∧ 0 < daySpread (originOf t s) (samplesOf args.start t s) ∧
      r.y = some (regressionLine (originOf t s) (samplesOf args.start t s) r.date) := by
  have hperm : (observedSamples (partOf t s res)).Perm (samplesOf args.start t s) := observed_samples w args id t res h s hs hp.onePerDate.hasDate hout
  obtain ⟨h1, h2, h3⟩ := C122_observed w args id t hp s hs res h hx r hr
  rw [weightedSum_perm hperm] at h1
  rw [(regressionLine_perm hperm _).2] at h2
  rw [(regressionLine_perm hperm _).1] at h3
  exact ⟨h1, h2, h3⟩

/-- **C122, growth.** If the values grow by at least `lo` and at most `hi` per day between any two samples, so do the forecasts. With `lo = 0`: the linear
forecast of a series that does not fall does not fall. -/
theorem C122_growth [IsStrictOrderedRing K] (w : World K) (args : RunArgs K) (id : String) (t : STable K) (hp : Proper t) (s : String) (hs : IsSeries t id s)
    (res : RunResult K) (h : runForecast w args id t = .ok (some res)) (hout : args.findOutliers = false)
    (hx : FitsExactly w args s (seriesFrame t s) modelLinear fun _ => none) (lo hi : K) (hg : GrowsBetween lo hi (originOf t s) (samplesOf args.start t s))
    (r r' : DRow K) (hr : ForecastOf (partOf t s res) "linear" r) (hr' : ForecastOf (partOf t s res) "linear" r') (hle : r.date ≤ r'.date) :
    ∃ v v', r.y = some v ∧ r'.y = some v' ∧ lo * (dayNumber (originOf t s) r'.date - dayNumber (originOf t s) r.date) ≤ v' - v ∧
      v' - v ≤ hi * (dayNumber (originOf t s) r'.date - dayNumber (originOf t s) r.date) := by
  have hperm : (observedSamples (partOf t s res)).Perm (samplesOf args.start t s) := observed_samples w args id t res h s hs hp.onePerDate.hasDate hout
  obtain ⟨hd, hrun⟩ := series_run w id t hp s hs
  obtain ⟨two, a, b, h1, h2, h3⟩ := line_stage w args s _ _ (hrun args res h) hx hd.dated _ hd.days hd.nodup r hr
  obtain ⟨b1, b2⟩ := slope_bounds _ _ two a b h2 h3 lo hi (by
    intro p hp q hq
    exact hg p (hperm.mem_iff.1 hp) q (hperm.mem_iff.1 hq))
  refine ⟨_, _, h1 r hr.1 hr.2.1 hr.2.2, h1 r' hr'.1 hr'.2.1 hr'.2.2, ?_⟩
  have hm : (dayNumber (originOf t s) r.date : K) ≤ dayNumber (originOf t s) r'.date := by
    unfold dayNumber
    exact Int.cast_le.2 (Int.ediv_le_ediv (by decide) (by omega))
  have e : a * dayNumber (originOf t s) r'.date + b - (a * dayNumber (originOf t s) r.date + b) =
      a * (dayNumber (originOf t s) r'.date - dayNumber (originOf t s) r.date) := by ring
  rw [e]
  exact ⟨mul_le_mul_of_nonneg_right b1 (sub_nonneg.2 hm), mul_le_mul_of_nonneg_right b2 (sub_nonneg.2 hm)⟩

/-! ### Concrete cases -/

/-- Samples that rise, but not along a line; one null, one with another weight. -/
def risingTable : STable ℚ := ⟨true, false, false, true, [⟨4 * DAY, none, 0, some 1, some 1⟩, ⟨6 * DAY, none, 0, some 4, some 2⟩, ⟨5 * DAY, none, 0, some 3, some 1⟩,
  ⟨7 * DAY, none, 0, none, some 1⟩, ⟨8 * DAY, none, 0, some 9, some 1⟩]⟩

/-- The solution of the least squares problem, computed with the formula; the run reports this line. -/
example : slopeOf (originOf risingTable "s") (samplesOf none risingTable "s") = 60 / 31 ∧
    ((runForecast { demoWorld with env := fun _ _ => givenEnv [60 / 31, 17 / 31] } (demoArgs [modelLinear] (some [])) "s" risingTable).toOption.bind fun r =>
      r.map fun r => (r.data.filter fun q => !q.isActuals).map fun q => (q.date / DAY, q.y)) =
    some ([4, 5, 6, 7, 8, 9, 10, 11].map fun k : Int => (k, some (regressionLine (originOf risingTable "s") (samplesOf none risingTable "s") (k * DAY)))) := by
  decide +kernel

/-- Growth of one to two and a half per day. -/
example : Proper risingTable ∧ IsSeries risingTable "s" "s" ∧
    GrowsBetween 1 (5 / 2) (originOf risingTable "s") (samplesOf none risingTable "s") := by
  refine ⟨⟨⟨rfl, rfl, by decide +kernel, by decide +kernel⟩, fun h => by cases h⟩, ?_, ?_⟩
  · unfold IsSeries; decide +kernel
  · unfold GrowsBetween; decide +kernel

/-- There are solvers that find the minimum of every problem that has one. -/
example : FitsExactly { demoWorld with env := fun _ _ => exactEnv demoEnv } (demoArgs [modelLinear] (some [])) "s" (seriesFrame risingTable "s") modelLinear
    (fun _ => none) := by
  refine ⟨fun _ => exactEnv_minimum _, ?_, fun _ => ⟨by simp [modelLinear, mkModel], by simp [modelLinear, mkModel]⟩⟩
  intro df' cand h
  have e : candidates demoWorld.ch (demoArgs [modelLinear] (some [])).models df' (runFreq (seriesFrame risingTable "s")) = .ok (.add, [modelLinear]) := rfl
  rw [e] at h
  cases h
  simp

end Anticipy
