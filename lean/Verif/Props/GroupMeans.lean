import Verif.Spec.GroupMeans
import Verif.Props.AdditiveTable
import Verif.Props.BalanceRow
import Verif.Props.SeriesTable
import Verif.Props.Trends
import Verif.Props.Repeated
import Verif.Props.Conditions

/-
C109: a level with a seasonal pattern predicts the means of the seasons; predictions stay within the observations.
-/
namespace Anticipy
open Spec
variable {K : Type} [Field K] [LinearOrder K]

omit [LinearOrder K] in
theorem combination_feature_congr (feats : List (Feature K)) (p : List K) (x x' : Int) (t t' : Timestamp) (h : ∀ φ ∈ feats, φ x t = φ x' t') :
    combination feats p x t = combination feats p x' t' := by
  unfold combination
  induction feats generalizing p with
  | nil => simp
  | cons φ feats ih =>
    cases p with
    | nil => rfl
    | cons c p =>
      rw [List.zipWith_cons_cons, List.zipWith_cons_cons, List.sum_cons, List.sum_cons, ih p fun φ hφ => h φ (List.mem_cons_of_mem _ hφ),
        h φ List.mem_cons_self]

/-- A level and one flag for each season but the first. -/
abbrev seasonFeatures (idx : Timestamp → Int) (n : Nat) : List (Feature K) := levelFeatures ++ indexFeatures idx n

omit [LinearOrder K] in
theorem season_same (idx : Timestamp → Int) (n : Nat) (p : List K) (x x' : Int) (t t' : Timestamp) (h : idx t = idx t') :
    combination (seasonFeatures idx n) p x t = combination (seasonFeatures idx n) p x' t' := by
  apply combination_feature_congr
  intro φ hφ
  rcases List.mem_append.1 hφ with hφ | hφ
  · rw [List.mem_singleton.1 hφ]
  · obtain ⟨i, -, rfl⟩ := List.mem_map.1 hφ
    simp only [h]

/-- If every season is observed, the observations tell the patterns apart. -/
theorem season_identifies (idx : Timestamp → Int) (n : Nat) (t0 : Timestamp) (obs : List (DRow K)) (hobs : ∀ t, ∃ a ∈ obs, idx a.date = idx t) :
    Identifies (seasonFeatures idx n) t0 obs := by
  intro p q _ _ h x t
  obtain ⟨a, ha, e⟩ := hobs t
  rw [season_same idx n p x _ t a.date e.symm, h a ha, season_same idx n q _ x a.date t e]

theorem errorSum_combination (res : RunResult K) (v : Timestamp → K) (t0 : Timestamp) (feats : List (Feature K)) (u : List K)
    (h : ∀ φ ∈ feats, errorSum res v (fun t => φ ((t - t0) / (24 * 60 * 60 * 1000000000)) t) = 0) :
    errorSum res v (fun t => combination feats u ((t - t0) / (24 * 60 * 60 * 1000000000)) t) = 0 := by
  induction feats generalizing u with
  | nil => simp [errorSum, combination]
  | cons φ feats ih =>
    cases u with
    | nil => simp [errorSum, combination]
    | cons c u =>
      have h1 := h φ List.mem_cons_self
      have h2 := ih u fun φ hφ => h φ (List.mem_cons_of_mem _ hφ)
      have e : errorSum res v (fun t => combination (φ :: feats) (c :: u) ((t - t0) / (24 * 60 * 60 * 1000000000)) t) =
          c * errorSum res v (fun t => φ ((t - t0) / (24 * 60 * 60 * 1000000000)) t) +
            errorSum res v (fun t => combination feats u ((t - t0) / (24 * 60 * 60 * 1000000000)) t) := by
        unfold errorSum combination
        rw [← List.sum_map_mul_left, ← List.sum_map_add]
        congr 1
        apply List.map_congr_left
        intro a _
        dsimp only
        rw [List.zipWith_cons_cons, List.sum_cons]
        ring
      rw [e, h1, h2]
      ring

omit [LinearOrder K] in
theorem flags_total (idx : Timestamp → Int) (n : Nat) (t : Timestamp) (x : Int) :
    combination (indexFeatures idx n) (List.replicate n (-1 : K)) x t = if 1 ≤ idx t ∧ idx t ≤ n then -1 else 0 := by
  have e : combination (indexFeatures idx n) (List.replicate n (-1 : K)) x t =
      ((List.range n).map fun i : Nat => if idx t = (i : Int) + 1 then (-1 : K) else 0).sum := by
    unfold combination indexFeatures
    congr 1
    apply List.ext_getElem
    · simp
    · intro i h1 h2
      simp
  rw [e]
  clear e
  induction n with
  | zero =>
    rw [if_neg (by push_cast; omega)]
    rfl
  | succ n ih =>
    rw [List.range_succ, List.map_append, List.sum_append, ih]
    simp only [List.map_cons, List.map_nil, List.sum_cons, List.sum_nil, add_zero]
    push_cast
    split_ifs <;> first | omega | simp

/-- The flag of each season can be combined from the features. -/
theorem season_flag (idx : Timestamp → Int) (n : Nat) (hi : ∀ t, 0 ≤ idx t ∧ idx t ≤ n) (k : Int) (hk : 0 ≤ k ∧ k ≤ n) (res : RunResult K) (v : Timestamp → K) (t0 : Timestamp)
    (h : ∀ φ ∈ seasonFeatures (K := K) idx n, errorSum res v (fun t => φ ((t - t0) / (24 * 60 * 60 * 1000000000)) t) = 0) :
    errorSum res v (fun t => if idx t = k then 1 else 0) = 0 := by
  by_cases hk0 : k = 0
  · subst hk0
    have := errorSum_combination res v t0 (seasonFeatures idx n) (1 :: List.replicate n (-1 : K)) h
    refine Eq.trans ?_ this
    congr 1
    funext t
    have e : combination (seasonFeatures idx n) (1 :: List.replicate n (-1 : K)) ((t - t0) / (24 * 60 * 60 * 1000000000)) t =
        1 + combination (indexFeatures idx n) (List.replicate n (-1 : K)) ((t - t0) / (24 * 60 * 60 * 1000000000)) t := by
      unfold combination seasonFeatures levelFeatures
      rw [List.singleton_append, List.zipWith_cons_cons, List.sum_cons, one_mul]
    rw [e, flags_total]
    have := hi t
    split_ifs <;> first | omega | ring
  · have hm : (fun (_ : Int) (t : Timestamp) => if idx t = k then (1 : K) else 0) ∈ seasonFeatures (K := K) idx n := by
      refine List.mem_append_right _ (List.mem_map.2 ⟨(k - 1).toNat, List.mem_range.2 (by omega), ?_⟩)
      funext x t
      have : (((k - 1).toNat : Nat) : Int) + 1 = k := by omega
      rw [this]
    exact h _ hm

theorem group_mean [IsStrictOrderedRing K] (idx : Timestamp → Int) (k : Int) (res : RunResult K) (v : Timestamp → K) (c : K) (hc : ∀ t, idx t = k → v t = c)
    (hobs : ∃ a ∈ observed res, idx a.date = k) (h : errorSum res v (fun t => if idx t = k then 1 else 0) = 0) : c = meanOf (inSeason idx k res) := by
  have hpos : 0 < ((inSeason idx k res).map fun a => (a.weight.getD 0) ^ 2).sum := by
    obtain ⟨a, ha, e⟩ := hobs
    have hw : ∀ b ∈ inSeason idx k res, 0 < b.weight.getD 0 := by
      intro b hb
      have := (List.mem_filter.1 (List.mem_filter.1 hb).1).2
      simp only [Bool.and_eq_true, decide_eq_true_eq] at this
      exact this.2
    apply List.sum_pos
    · intro q hq
      obtain ⟨b, hb, rfl⟩ := List.mem_map.1 hq
      exact pow_pos (hw b hb) 2
    · intro hnil
      have : a ∈ inSeason idx k res := List.mem_filter.2 ⟨ha, decide_eq_true e⟩
      rw [List.map_eq_nil_iff.1 hnil] at this
      cases this
  unfold meanOf
  rw [eq_div_iff (ne_of_gt hpos)]
  unfold errorSum at h
  have e : ((observed res).map fun a => (a.weight.getD 0) ^ 2 * (a.y.getD 0 - v a.date) * if idx a.date = k then 1 else 0).sum =
      ((inSeason idx k res).map fun a => (a.weight.getD 0) ^ 2 * a.y.getD 0).sum - c * ((inSeason idx k res).map fun a => (a.weight.getD 0) ^ 2).sum := by
    unfold inSeason
    clear h hpos hobs
    induction observed res with
    | nil => simp
    | cons a l ih =>
      rw [List.map_cons, List.sum_cons, ih, List.filter_cons]
      by_cases hk : idx a.date = k
      · rw [if_pos hk, if_pos (decide_eq_true hk), hc _ hk]
        simp only [List.map_cons, List.sum_cons]
        ring
      · rw [if_neg hk, if_neg (by simpa using hk)]
        ring
  rw [e] at h
  linear_combination -h

/-- **C109.** A level with one flag for each season, whatever the seasons: each prediction for an observed season is the mean of the observations of this season. -/
theorem C109_seasons [FloorRing K] [IsStrictOrderedRing K] (w : World K) (args : RunArgs K) (id : String) (t : STable K) (hp : Proper t) (s : String) (hs : IsSeries t id s)
    (res : RunResult K) (h : runForecast w args id t = .ok (some res)) (m : ForecastModel K) (reg : Registry K) (idx : Timestamp → Int) (n : Nat)
    (hi : ∀ d, 0 ≤ idx d ∧ idx d ≤ n) (hm : AddsUp m reg (levelFeatures ++ indexFeatures idx n)) (hx : FitsExactly w args s (seriesFrame t s) m reg)
    (r : DRow K) (hr : ForecastOf (partOf t s res) m.name r) (hobs : ∃ a ∈ observed (partOf t s res), idx a.date = idx r.date) :
    r.y = some (meanOf (inSeason idx (idx r.date) (partOf t s res))) := by
  obtain ⟨-, p, -, hf, he⟩ := C88_row w args id t hp s hs res h m reg _ hm (hasLevel_left _ _ ⟨[1], rfl, fun x t => by simp [combination, levelFeatures]⟩)
    (by simp [levelFeatures]) hx r hr
  rw [hf]
  congr 1
  exact group_mean idx (idx r.date) (partOf t s res) _ _ (fun d hd => season_same idx n p _ _ d r.date hd) hobs
    (season_flag idx n hi _ (hi r.date) _ _ _ he)

theorem mean_within [IsStrictOrderedRing K] (res : RunResult K) (l : List (DRow K)) (hl : ∀ a ∈ l, a ∈ observed res) (hne : l ≠ []) (lo hi : K)
    (hb : ∀ a ∈ l, lo ≤ a.y.getD 0 ∧ a.y.getD 0 ≤ hi) : lo ≤ meanOf l ∧ meanOf l ≤ hi := by
  have hw : ∀ b ∈ l, 0 < (b.weight.getD 0) ^ 2 := by
    intro b hb
    have := (List.mem_filter.1 (hl b hb)).2
    simp only [Bool.and_eq_true, decide_eq_true_eq] at this
    exact pow_pos this.2 2
  have hpos : 0 < (l.map fun a => (a.weight.getD 0) ^ 2).sum := by
    apply List.sum_pos
    · intro q hq
      obtain ⟨b, hb, rfl⟩ := List.mem_map.1 hq
      exact hw b hb
    · simpa using hne
  unfold meanOf
  rw [le_div_iff₀ hpos, div_le_iff₀ hpos, ← List.sum_map_mul_left, ← List.sum_map_mul_left]
  constructor <;> refine List.sum_le_sum fun a ha => ?_
  · nlinarith [hw a ha, (hb a ha).1]
  · nlinarith [hw a ha, (hb a ha).2]

theorem in_season_within [IsStrictOrderedRing K] (idx : Timestamp → Int) (res : RunResult K) (d : Timestamp) (hobs : ∃ a ∈ observed res, idx a.date = idx d) (lo hi : K)
    (hb : ∀ a ∈ observed res, idx a.date = idx d → ∀ y ∈ a.y, lo ≤ y ∧ y ≤ hi) :
    lo ≤ meanOf (inSeason idx (idx d) res) ∧ meanOf (inSeason idx (idx d) res) ≤ hi := by
  refine mean_within res _ (fun a ha => (List.mem_filter.1 ha).1) ?_ lo hi ?_
  · obtain ⟨a, ha, e⟩ := hobs
    exact List.ne_nil_of_mem (List.mem_filter.2 ⟨ha, decide_eq_true e⟩)
  · intro a ha
    obtain ⟨h1, h2⟩ := List.mem_filter.1 ha
    have h3 := (List.mem_filter.1 h1).2
    simp only [Bool.and_eq_true, decide_eq_true_eq] at h3
    obtain ⟨y, hy⟩ := Option.isSome_iff_exists.1 h3.1.2
    rw [hy, Option.getD_some]
    exact hb a h1 (of_decide_eq_true h2) y hy

/-- Every weekday is among the observations if a model with weekdays has been fitted. -/
theorem weekdays_observed [FloorRing K] [IsStrictOrderedRing K] (wd : Int → Int) (hw : IsWeek wd) (w : World K) (args : RunArgs K) (source : String) (df : Frame K)
    (res : RunResult K) (h : runSingle w args source df = .ok res) (hdate : df.hasDate = true) (name : String)
    (hcand : ∀ df' cand, candidates w.ch args.models df' (runFreq df) = .ok cand → ∀ m ∈ cand.2, m.name = name →
      Contains modelSeasonWday m ∧ ∀ u ∈ m.validators, u.id = (validateSeasonWday : Validator K).id → u = validateSeasonWday)
    (r : DRow K) (hr : r ∈ res.data) (hact : r.isActuals = false) (hm : r.model = name) (k : Int) (h0 : 0 ≤ k) (h6 : k ≤ 6) :
    ∃ a ∈ observed res, weekdayIn wd a.date = k := by
  obtain ⟨df2, hOut, hobs⟩ := observed_rows w args source df res h hdate
  obtain ⟨d, hd, hdata, -, -⟩ := runSingle_inv w args source df res h
  obtain ⟨st⟩ := runFits_stages w args source df d hd
  have hsame : st.df2 = df2 := by
    have := st.hOut
    rw [hOut] at this
    exact (Except.ok.inj this).symm
  have hd1 : d.1 = _ := congrArg Prod.fst st.hd
  have hr1 : r ∈ d.1 := by
    rw [hdata] at hr
    unfold selectFits at hr
    split_ifs at hr
    · exact hr
    · exact (List.mem_filter.1 hr).1
  rw [hd1] at hr1
  obtain ⟨q, hq, rfl⟩ := List.mem_map.1 hr1
  rcases List.mem_append.1 hq with hq | hq
  · unfold actualsClean at hq
    obtain ⟨q', -, rfl⟩ := List.mem_map.1 hq
    cases hact
  · obtain ⟨i, m, f, rows, e1, e2, e3, e4⟩ := (fitLoop_spec _ _ _ _ _ st.hFits).2.2 q hq
    obtain ⟨-, -, -, hname, -, hfit, -⟩ := forecastRows_mem _ _ _ _ e3 q e4
    obtain ⟨hc, hid⟩ := hcand _ _ st.hCand m (List.mem_of_getElem? e1) (by rw [← hname]; exact hm)
    simp only [mkSetup] at e2
    obtain ⟨-, g2⟩ := (C71_weekdays wd hw _ m hc hid _ _ _ f e2).1 hfit
    obtain ⟨s, s1, s2, s3⟩ := g2 k h0 h6
    rw [hsame] at s1 s2
    have : (s.date, s.y, s.weight) ∈ (observed res).map fun a => (a.date, a.y, a.weight) := by
      rw [hobs]
      exact List.mem_map.2 ⟨s, List.mem_filter.2 ⟨s1, by simpa using s2⟩, rfl⟩
    obtain ⟨a, ha, e⟩ := List.mem_map.1 this
    refine ⟨a, ha, ?_⟩
    have ed : a.date = s.date := congrArg Prod.fst e
    unfold weekdayIn
    rw [ed]
    exact s3

theorem level_wday_validators : ((modelConstant : ForecastModel K).add modelSeasonWday).validators = [validateDefault, validateSeasonWday] := by
  rfl

/-- **C109, weekdays.** A level with weekdays predicts for each date the mean of the observations on its weekday, of which there are some; so predictions stay
between the lowest and the highest of these. -/
theorem C109_weekdays [FloorRing K] [IsStrictOrderedRing K] (wd : Int → Int) (hw : IsWeek wd) (w : World K) (args : RunArgs K) (id : String) (t : STable K) (hp : Proper t)
    (s : String) (hs : IsSeries t id s)
    (res : RunResult K) (h : runForecast w args id t = .ok (some res)) (reg : Registry K) (hreg : reg "a_weekday" = some cacheWeekday)
    (hx : FitsExactly w args s (seriesFrame t s) (modelConstant.add modelSeasonWday) reg) (r : DRow K)
    (hr : ForecastOf (partOf t s res) (modelConstant.add (modelSeasonWday (K := K))).name r) :
    inSeason (weekdayIn wd) (weekdayIn wd r.date) (partOf t s res) ≠ [] ∧
    r.y = some (meanOf (inSeason (weekdayIn wd) (weekdayIn wd r.date) (partOf t s res))) ∧
    ∀ lo hi, (∀ a ∈ observed (partOf t s res), weekdayIn wd a.date = weekdayIn wd r.date → ∀ y ∈ a.y, lo ≤ y ∧ y ≤ hi) → ∀ y ∈ r.y, lo ≤ y ∧ y ≤ hi := by
  obtain ⟨hd, hrun⟩ := series_run w id t hp s hs
  have hrange : ∀ d, 0 ≤ weekdayIn wd d ∧ weekdayIn wd d ≤ 6 := fun d => hw.2.2 _
  have hobs : ∀ d, ∃ a ∈ observed (partOf t s res), weekdayIn wd a.date = weekdayIn wd d := by
    intro d
    refine weekdays_observed wd hw w args s _ _ (hrun args res h) hd.dated _ ?_ r hr.1 hr.2.1 hr.2.2 _ (hrange d).1 (hrange d).2
    intro df' cand hc m hm hn
    rw [hx.only df' cand hc m hm hn]
    refine ⟨.addRight _ _ .self, ?_⟩
    intro u hu e
    rw [level_wday_validators] at hu
    simp only [List.mem_cons, List.not_mem_nil, or_false] at hu
    rcases hu with rfl | rfl
    · exact absurd e (by simp [validateDefault, validateSeasonWday])
    · rfl
  have hidx : (weekday : Timestamp → Int) = weekdayIn wd := by
    funext d
    rw [isWeek_unique wd hw]
    rfl
  have e := C109_seasons w args id t hp s hs res h _ reg (weekdayIn wd) 6 hrange
    (by rw [← hidx]; exact (addsUp_constant reg).add (addsUp_wday reg hreg)) hx r hr (hobs _)
  refine ⟨?_, e, ?_⟩
  · obtain ⟨a, ha, hd⟩ := hobs r.date
    exact List.ne_nil_of_mem (List.mem_filter.2 ⟨ha, decide_eq_true hd⟩)
  · intro lo hi hb y hy
    rw [e] at hy
    cases hy
    exact in_season_within _ _ r.date (hobs _) lo hi hb

/-- **C109, months.** A level with months predicts for each date the mean of the observations in its month of the year, if there are any. -/
theorem C109_months [FloorRing K] [IsStrictOrderedRing K] (civil : Int → Int × Int × Int) (hcal : IsCalendar civil) (w : World K) (args : RunArgs K) (id : String)
    (t : STable K) (hp : Proper t) (s : String) (hs : IsSeries t id s)
    (res : RunResult K) (h : runForecast w args id t = .ok (some res)) (reg : Registry K) (hreg : reg "a_month" = some cacheMonth)
    (hx : FitsExactly w args s (seriesFrame t s) (modelConstant.add modelSeasonMonth) reg)
    (r : DRow K) (hr : ForecastOf (partOf t s res) (modelConstant.add (modelSeasonMonth (K := K))).name r)
    (hobs : ∃ a ∈ observed (partOf t s res), monthIn civil a.date = monthIn civil r.date) :
    r.y = some (meanOf (inSeason (monthIn civil) (monthIn civil r.date) (partOf t s res))) ∧
    ∀ lo hi, (∀ a ∈ observed (partOf t s res), monthIn civil a.date = monthIn civil r.date → ∀ y ∈ a.y, lo ≤ y ∧ y ≤ hi) → ∀ y ∈ r.y, lo ≤ y ∧ y ≤ hi := by
  have hidx : monthIn civil = month := by
    funext d
    rw [isCalendar_unique civil hcal]
    rfl
  rw [hidx] at hobs ⊢
  have hd : ∀ d, 1 ≤ month d ∧ month d ≤ 12 := month_range
  have e := C109_seasons w args id t hp s hs res h _ reg (fun d => month d - 1) 11 (fun d => by have := hd d; push_cast; omega)
    ((addsUp_constant reg).add (addsUp_month reg hreg)) hx r hr (by
      obtain ⟨a, ha, e⟩ := hobs
      exact ⟨a, ha, by rw [e]⟩)
  have hsame : inSeason (fun d => month d - 1) (month r.date - 1) (partOf t s res) = inSeason month (month r.date) (partOf t s res) := by
    unfold inSeason
    congr 1
    funext a
    by_cases hm : month a.date = month r.date
    · simp [hm]
    · simp only [hm, decide_false, decide_eq_false_iff_not]
      omega
  rw [hsame] at e
  refine ⟨e, ?_⟩
  intro lo hi hb y hy
  rw [e] at hy
  cases hy
  exact in_season_within month _ r.date hobs lo hi hb

/-- **C109, level.** The constant model predicts the mean of all observations. -/
theorem C109_level [FloorRing K] [IsStrictOrderedRing K] (w : World K) (args : RunArgs K) (id : String) (t : STable K) (hp : Proper t) (s : String) (hs : IsSeries t id s)
    (res : RunResult K) (h : runForecast w args id t = .ok (some res)) (reg : Registry K)
    (hx : FitsExactly w args s (seriesFrame t s) modelConstant reg) (r : DRow K)
    (hr : ForecastOf (partOf t s res) "constant" r) :
    r.y = some (meanOf (observed (partOf t s res))) ∧
    ∀ lo hi, (∀ a ∈ observed (partOf t s res), ∀ y ∈ a.y, lo ≤ y ∧ y ≤ hi) → ∀ y ∈ r.y, lo ≤ y ∧ y ≤ hi := by
  obtain ⟨a, ha⟩ := List.exists_mem_of_ne_nil _ (C88_row w args id t hp s hs res h modelConstant reg _ (addsUp_constant reg)
    ⟨[1], rfl, fun x t => by simp [combination, levelFeatures]⟩ (by simp [levelFeatures]) hx r hr).1
  have e := C109_seasons w args id t hp s hs res h modelConstant reg (fun _ => 0) 0 (fun d => by simp) (addsUp_constant reg) hx r hr ⟨a, ha, rfl⟩
  have hsame : inSeason (fun _ => 0) 0 (partOf t s res) = observed (partOf t s res) := by simp [inSeason]
  rw [hsame] at e
  refine ⟨e, ?_⟩
  intro lo hi hb y hy
  rw [e] at hy
  cases hy
  rw [← hsame]
  exact in_season_within (fun _ => 0) _ r.date ⟨a, ha, rfl⟩ lo hi fun a ha _ => hb a ha

/-- **C109, naive forecasts.** Forecasts of the naive models stay between the lowest and the highest observation; those of the seasonal naive model between the
lowest and the highest on the same weekday. -/
theorem C109_naive [FloorRing K] [IsStrictOrderedRing K] (w : World K) (args : RunArgs K) (id : String) (t : STable K) (hp : Proper t) (s : String) (hs : IsSeries t id s)
    (hdaily : ∃ r ∈ rowsOf t s, ∃ r' ∈ rowsOf t s, r'.date = r.date + 24 * 60 * 60 * 1000000000)
    (res : RunResult K) (h : runForecast w args id t = .ok (some res)) (wd : Int → Int) (hw : IsWeek wd)
    (hcand : ∀ df' cand, candidates w.ch args.models df' (runFreq (seriesFrame t s)) = .ok cand → ∀ m ∈ cand.2,
      (m.name = "naive" → m = modelNaive w.srt) ∧ (m.name = "snaive_wday" → m = modelSnaiveWday w.srt)) (r : DRow K) (lo hi : K) :
    (ForecastOf (partOf t s res) "naive" r → (∀ a ∈ observed (partOf t s res), ∀ y ∈ a.y, lo ≤ y ∧ y ≤ hi) → ∃ y, r.y = some y ∧ lo ≤ y ∧ y ≤ hi) ∧
    (ForecastOf (partOf t s res) "snaive_wday" r → (∀ a ∈ observed (partOf t s res), weekdayIn wd a.date = weekdayIn wd r.date → ∀ y ∈ a.y, lo ≤ y ∧ y ≤ hi) →
      ∃ y, r.y = some y ∧ lo ≤ y ∧ y ≤ hi) := by
  have obs : ∀ a, UsableActual (partOf t s res) a → a ∈ observed (partOf t s res) ∧ ∃ y, a.y = some y := by
    intro a ⟨h1, h2, h3, c, h4, h5⟩
    refine ⟨List.mem_filter.2 ⟨h1, ?_⟩, Option.ne_none_iff_exists'.1 h3⟩
    simp [h2, h4, h5, Option.isSome_iff_ne_none, h3]
  constructor
  · intro hr hb
    obtain ⟨a, ha, hy, -⟩ := (C81_series w args id t hp s hs hdaily res h hcand r hr.1 hr.2.1).1 hr.2.2
    obtain ⟨h1, y, h2⟩ := obs a ha
    exact ⟨y, hy.trans h2, hb a h1 y h2⟩
  · intro hr hb
    obtain ⟨a, ha, hy, ⟨-, hweeks⟩, -⟩ := (C81_series w args id t hp s hs hdaily res h hcand r hr.1 hr.2.1).2 hr.2.2
    obtain ⟨h1, y, h2⟩ := obs a ha
    exact ⟨y, hy.trans h2, hb a h1 (by rw [isWeek_unique wd hw]; unfold weekdayIn weekdayOfDay; omega) y h2⟩

/-! ### Concrete cases -/

/-- Fifteen days from a Monday on, latest first, with a source; the same value on the same weekday, one Wednesday missing, a first Monday that does not count. -/
def seasonTable : STable ℚ := ⟨true, true, false, true, (List.range 15).map fun i : Nat =>
  ⟨(18 - (i : Int)) * DAY, some "a", 0, if i = 5 then none else if i = 14 then some 100 else some (10 + if i % 7 = 1 then 3 else 0), some (if i = 14 then 0 else 1)⟩⟩

def seasonWorld : World ℚ := { demoWorld with env := fun _ _ => { knownEnv [10, 0, 0, 0, 0, 0, 3] with
  globalCache := fun k => if k = "a_weekday" then some cacheWeekday else none } }

def seasonArgs : RunArgs ℚ := { demoArgs [modelConstant] (some []) with models := ⟨some [modelConstant], some [modelSeasonWday], .add, none, none, some [], none⟩, useCache := true }

example : Proper seasonTable ∧ IsSeries seasonTable "" "a" :=
  ⟨⟨⟨rfl, rfl, by decide +kernel, by decide +kernel⟩, by decide +kernel⟩, ⟨_, List.mem_cons_self, rfl⟩⟩

example : FitsExactly seasonWorld seasonArgs "a" (seriesFrame seasonTable "a") (modelConstant.add modelSeasonWday)
    (fun k => if k = "a_weekday" then some cacheWeekday else none) := by
  refine ⟨fun _ => knownEnv_minimum _, ?_, ?_⟩
  · intro df' cand h m' hm' _
    have e : candidates seasonWorld.ch seasonArgs.models df' (runFreq (seriesFrame seasonTable "a")) = .ok (.add, [modelConstant.add modelSeasonWday]) := rfl
    rw [e] at h
    cases h
    simpa using hm'
  · intro i
    exact registered_compose _ _ _ _ _ ⟨by simp [modelConstant, mkModel], by simp [modelConstant, mkModel]⟩
      ⟨by simp [modelSeasonWday, mkModel, seasonWorld], by simp [modelSeasonWday, mkModel, seasonWorld]⟩

/-- Every weekday is observed, and the forecast repeats the means of the weekdays. -/
example : ((runForecast seasonWorld seasonArgs "" seasonTable).toOption.bind id).map (fun r =>
    ((List.range 7).all fun k => (observed (partOf seasonTable "a" r)).any fun a => decide (weekdayIn weekdayOfDay a.date = (k : Int)),
      ((partOf seasonTable "a" r).data.filter fun q => !q.isActuals && decide (16 * DAY ≤ q.date)).map fun q =>
        (q.date / DAY, q.y, meanOf (inSeason (weekdayIn weekdayOfDay) (weekdayIn weekdayOfDay q.date) (partOf seasonTable "a" r))))) =
    some (true, [(16, some 10, 10), (17, some 13, 13), (18, some 10, 10), (19, some 10, 10), (20, some 10, 10), (21, some 10, 10)]) := by decide +kernel

/-- Observations that differ, with weights: the constant model predicts their mean. -/
def unequalTable : STable ℚ := ⟨true, true, false, true, [⟨6 * DAY, some "a", 0, some 4, some 1⟩, ⟨4 * DAY, some "a", 0, some 1, some 2⟩, ⟨5 * DAY, some "a", 0, none, some 1⟩,
  ⟨7 * DAY, some "a", 0, some 7, some 1⟩]⟩

example : ((runForecast meanWorld (demoArgs [modelConstant] (some [])) "" unequalTable).toOption.bind id).map (fun r =>
    (((partOf unequalTable "a" r).data.filter fun q => !q.isActuals && decide (7 * DAY < q.date)).map fun q => (q.date / DAY, q.y),
      meanOf (observed (partOf unequalTable "a" r)))) = some ([(8, some (5 / 2)), (9, some (5 / 2)), (10, some (5 / 2))], 5 / 2) := by decide +kernel

end Anticipy
