import Verif.Props.TotalTable

/-
C82, counterexample: a constant daily series of 4048 samples or more has no forecast with the default arguments, whatever the optimizer does.
-/
namespace Anticipy
open Spec

section
variable {K : Type} [Field K] [LinearOrder K]

/-- The naive models repeat values of the actuals at the samples of a fit. -/
theorem naive_repeats [IsStrictOrderedRing K] (srt : SortAlg) (t0 : Timestamp) (used : List (Row K)) (act : Frame K) (hact : DailyActuals t0 used act)
    (m : ForecastModel K) (hm : m = modelNaive srt ∨ m = modelSnaiveWday srt) (xs : List Int) (hx : xs.Pairwise (· < ·)) (ds : List Timestamp)
    (hds : ds = xs.map fun x => t0 + x * (24 * 60 * 60 * 1000000000)) (hge : ∀ x ∈ xs, ∃ a ∈ act.rows, a.x ≤ x) (p : Params K)
    (P : K → Prop) (hP : ∀ a ∈ act.rows, ∀ v, a.y = some v → P v) :
    ∃ out, m.fModel { ax := scaleX m xs, adate := some ds, actuals := some act } p false = .ok (.vec out) ∧ out.length = xs.length ∧
      ∀ v ∈ out, ∀ a, v = some a → P a := by
  have hname : ¬(m.name = "logistic" ∨ m.name = "sigmoid") := by
    rcases hm with rfl | rfl <;> simp [modelNaive, modelSnaiveWday, mkModel]
  have hsx : scaleX m xs = xs.map fun x : Int => (x : K) := by
    unfold scaleX
    rw [if_neg hname]
  have hax : (xs.map fun x : Int => (x : K)).Pairwise (· < ·) := by
    rw [List.pairwise_map]
    exact hx.imp fun h => Int.cast_lt.2 h
  rw [hsx]
  subst hds
  rcases hm with rfl | rfl
  · obtain ⟨out, ho, hl, hv⟩ := C37_naive srt { ax := xs.map fun x : Int => (x : K), adate := some (xs.map fun x => t0 + x * (24 * 60 * 60 * 1000000000)), actuals := some act } act p false rfl rfl
      (by
        refine ⟨by intro ds hds; cases hds; simp, ?_⟩
        intro _
        refine ⟨_, rfl, ?_⟩
        intro i x d hx hd q hq hqx
        rw [List.getElem?_map] at hx hd
        cases hi : xs[i]? with
        | none => rw [hi] at hx; cases hx
        | some y =>
          rw [hi] at hx hd
          cases hx
          cases hd
          have hq2 : q.x = y := Int.cast_injective (α := K) hqx
          rw [hact.days q hq, hq2])
      hax ((List.pairwise_map.2 hact.sorted).imp fun h => ne_of_lt h)
    refine ⟨_, ho, hl.trans (by simp), ?_⟩
    intro v hvm a hva
    obtain ⟨i, hi⟩ := List.getElem?_of_mem hvm
    have hlt := (List.getElem?_eq_some_iff.1 hi).1
    rw [hl] at hlt
    obtain ⟨h1, h2⟩ := hv i _ (List.getElem?_eq_getElem hlt)
    by_cases hex : ∃ v, LastBefore act.rows ((xs.map fun x : Int => (x : K))[i]) v
    · obtain ⟨b, hb⟩ := hex
      have := h1 b hb
      rw [hi, hva] at this
      cases this
      obtain ⟨r, hr, e, -⟩ := hb
      exact hP r hr _ e
    · rcases h2 hex with h3 | ⟨b, ⟨r, hr, e, -⟩, h3⟩
      · rw [hi, hva] at h3
        cases h3
      · rw [hi, hva] at h3
        cases h3
        exact hP r hr _ e
  · obtain ⟨out, ho, hl, hv⟩ := C38_seasonal_naive srt { ax := xs.map fun x : Int => (x : K), adate := some (xs.map fun x => t0 + x * (24 * 60 * 60 * 1000000000)), actuals := some act } act _ p false rfl rfl
      hact.dated rfl (by simp) hax hact.sorted (by
        intro e he
        rw [List.zip_map'] at he
        obtain ⟨x, hx, rfl⟩ := List.mem_map.1 he
        by_cases hfut : ∀ q ∈ act.rows, q.x < x
        · right
          intro q hq
          have h3 := hfut q hq
          have h4 := hact.days q hq
          refine ⟨by dsimp only; rw [Int.cast_lt]; exact h3, ?_⟩
          intro h5
          dsimp only at h5
          omega
        · left
          push Not at hfut
          obtain ⟨q, hq, h3⟩ := hfut
          obtain ⟨a, ha, h5⟩ := hge x hx
          obtain ⟨q', hq', h6⟩ := hact.contiguous a ha q hq _ h5 h3
          have h7 := hact.days q' hq'
          exact ⟨q', hq', by rw [h6], by rw [h7, h6]⟩)
    refine ⟨_, ho, hl.trans (by simp), ?_⟩
    intro v hvm a hva
    obtain ⟨i, hi⟩ := List.getElem?_of_mem hvm
    have hlt := (List.getElem?_eq_some_iff.1 hi).1
    rw [hl] at hlt
    have hlt2 : i < (xs.map fun x => t0 + x * (24 * 60 * 60 * 1000000000)).length := by simpa using hlt
    obtain ⟨h1, h2⟩ := hv i _ _ (List.getElem?_eq_getElem hlt) (List.getElem?_eq_getElem hlt2)
    by_cases hex : ∃ v, LastSameWeekday act.rows ((xs.map fun x => t0 + x * (24 * 60 * 60 * 1000000000))[i]) ((xs.map fun x : Int => (x : K))[i]) v
    · obtain ⟨b, hb⟩ := hex
      have := h1 b hb
      rw [hi, hva] at this
      cases this
      obtain ⟨r, hr, e, -⟩ := hb
      exact hP r (List.mem_filter.1 hr).1 _ e
    · have := h2 hex
      rw [hi, hva] at this
      cases this

/-- Residuals of predictions that are null or exact have no cost. -/
theorem exact_cost [IsStrictOrderedRing K] (m : ForecastModel K) (ctx : Ctx K) (ay : List K) (aw : Option (List K)) (p : Params K) (out : List (Option K)) (c : K)
    (h : m.fModel ctx p false = .ok (.vec out)) (hl : out.length = ay.length) (hout : ∀ v ∈ out, ∀ a, v = some a → a = c) (hay : ∀ y ∈ ay, y = c)
    (hw : ∀ w, aw = some w → w.length = ay.length) : ∃ r, getResiduals m ctx ay aw p = .ok r ∧ halfSumSq r = 0 := by
  have key : ∀ l : List (Option K), (∀ v ∈ l, ∀ a, v = some a → a = 0) → halfSumSq (.vec l : Arr K) = 0 := by
    intro l hl
    unfold halfSumSq
    dsimp only
    rw [List.sum_eq_zero, mul_zero]
    intro x hx
    obtain ⟨v, hv, rfl⟩ := List.mem_map.1 hx
    cases v with
    | none => rfl
    | some a => simp [hl _ hv a rfl]
  have habs : ∀ l : List (Option K), (∀ v ∈ l, ∀ a, v = some a → a = 0) → ∀ v ∈ l.map (fun v => v.map fun a => |a|), ∀ a, v = some a → a = 0 := by
    intro l hl v hv a ha
    obtain ⟨u, hu, rfl⟩ := List.mem_map.1 hv
    cases u with
    | none => cases ha
    | some b =>
      cases ha
      rw [hl _ hu b rfl]
      exact abs_zero
  have hdiff : ∀ v ∈ List.zipWith (lift2 fun a b : K => a - b) (ay.map some) out, ∀ a, v = some a → a = 0 := by
    intro v hv a ha
    obtain ⟨i, hi⟩ := List.getElem?_of_mem hv
    rw [List.getElem?_zipWith] at hi
    cases h1 : (ay.map some)[i]? with
    | none => rw [h1] at hi; cases hi
    | some y =>
      cases h2 : out[i]? with
      | none => rw [h1, h2] at hi; cases hi
      | some o =>
        rw [h1, h2] at hi
        cases hi
        obtain ⟨y', hy', rfl⟩ := List.mem_map.1 (List.mem_of_getElem? h1)
        cases o with
        | none => cases ha
        | some b =>
          cases ha
          rw [hay _ hy', hout _ (List.mem_of_getElem? h2) b rfl]
          exact sub_self c
  unfold getResiduals
  rw [h]
  simp only [Bind.bind, Except.bind]
  have e1 : Arr.bin (fun a b : K => a - b) (vecOf ay) (.vec out) = .ok (.vec (List.zipWith (lift2 fun a b : K => a - b) (ay.map some) out)) := by
    unfold Arr.bin vecOf
    dsimp only
    rw [if_pos (by simp [hl])]
  rw [e1]
  cases aw with
  | none => exact ⟨_, rfl, key _ (habs _ hdiff)⟩
  | some w =>
    have hw := hw w rfl
    have e2 : Arr.bin (fun a b : K => a * b) (.vec (List.zipWith (lift2 fun a b : K => a - b) (ay.map some) out)) (vecOf w) =
        .ok (.vec (List.zipWith (lift2 fun a b : K => a * b) (List.zipWith (lift2 fun a b : K => a - b) (ay.map some) out) (w.map some))) := by
      unfold Arr.bin vecOf
      dsimp only
      rw [if_pos (by simp [hl, hw])]
    dsimp only
    rw [e2]
    refine ⟨_, rfl, key _ (habs _ ?_)⟩
    intro v hv a ha
    obtain ⟨i, hi⟩ := List.getElem?_of_mem hv
    rw [List.getElem?_zipWith] at hi
    cases h1 : (List.zipWith (lift2 fun a b : K => a - b) (ay.map some) out)[i]? with
    | none => rw [h1] at hi; cases hi
    | some y =>
      cases h2 : (w.map some)[i]? with
      | none => rw [h1, h2] at hi; cases hi
      | some o =>
        rw [h1, h2] at hi
        cases hi
        cases y with
        | none => cases ha
        | some b =>
          cases o with
          | none => cases ha
          | some b' =>
            cases ha
            rw [hdiff _ (List.mem_of_getElem? h1) b rfl]
            exact zero_mul b'

end

/-- **C82, counterexample.** With the default naive models and the scores of the code, no constant daily series of 4048 samples or more has a forecast, whatever the
optimizer does. -/
theorem C82_counterexample_long (w : World ℝ) (hs : w.ch.snaive = modelSnaiveWday w.srt) (haic : ∀ s i, (w.env s i).aic = getAicC) (args : RunArgs ℝ)
    (hargs : args.models.naive = none ∧ args.start = none ∧ args.findOutliers = false) (source : String) (df : Frame ℝ) (t0 : Timestamp)
    (hdaily : DailySeries df t0) (hw : df.hasWeight = false) (c : ℝ) (hc : ∀ r ∈ df.rows, r.y = some c) (hlen : 4048 ≤ df.rows.length) (res : RunResult ℝ) :
    runSingle w args source df ≠ .ok res := by
  intro hrun
  obtain ⟨a1, a2, a3⟩ := hargs
  obtain ⟨d, hd, -⟩ := runSingle_inv w args source df res hrun
  obtain ⟨st⟩ := runFits_stages w args source df d hd
  have hfreq : runFreq df = some .D := by unfold runFreq; rw [hdaily.dated, if_pos rfl, daily_freq hdaily]
  have hmem : modelSnaiveWday w.srt ∈ st.cand.2 := by
    have h1 := st.hCand
    unfold candidates at h1
    cases h2 : resolveMode w.ch args.models (defaultWeights st.df2).1 with
    | error e => rw [h2] at h1; cases h1
    | ok mode =>
      rw [h2, a1, hfreq, hs] at h1
      simp only [Bind.bind, Except.bind, Except.ok.injEq, Option.getD_none, if_true] at h1
      rw [← h1]
      exact (sortBy_perm nameLe _).mem_iff.2 (by simp)
  obtain ⟨k, hk⟩ := List.getElem?_of_mem hmem
  obtain ⟨f, rows, hfit, -⟩ := (fitLoop_spec _ _ 0 _ _ st.hFits).2.1 k _ hk
  have hout := st.hOut
  obtain ⟨u1, u2, u3, u4, u5⟩ := used_rows args.findOutliers args.start df st.df2 hout
  have hpart := used_part hdaily args.findOutliers args.start st.df2 hout
  obtain ⟨act, hact1, hact⟩ := daily_actuals w.srt hdaily _ hpart
  rw [st.hAct] at hact1
  cases hact1
  -- all samples are used
  have hkept : kept args.start df = df.rows := by
    unfold kept
    rw [a2]
    simp
  have hrows : (usableRows (usedRows (defaultWeights st.df2).1)).length = df.rows.length := by
    obtain ⟨spike, h1, -, h2, e⟩ := weights_stage args.findOutliers _ st.df2 hout
    rw [filterStart_rows] at e h1 h2
    rw [hkept] at e h1 h2
    have hsp := h2 a3
    have hall : ∀ r ∈ (weighted { df with rows := df.rows } spike).rows, r.weight = some 1 ∧ r.y = some c := by
      intro r hr
      unfold weighted at hr
      obtain ⟨i, hi⟩ := List.getElem?_of_mem hr
      dsimp only at hi
      rw [List.getElem?_zipWith] at hi
      cases h3 : df.rows[i]? with
      | none => rw [h3] at hi; cases hi
      | some q =>
        have hlt := (List.getElem?_eq_some_iff.1 h3).1
        rw [h3, hsp, List.getElem?_replicate, if_pos hlt] at hi
        have hi := (Option.some.inj hi).symm
        subst hi
        refine ⟨?_, hc q (List.mem_of_getElem? h3)⟩
        unfold givenWeight
        dsimp only
        rw [hw]
        rfl
    unfold usableRows usedRows
    rw [e]
    dsimp only
    rw [List.filter_eq_self.2, List.filter_eq_self.2]
    · unfold weighted
      dsimp only
      rw [List.length_zipWith, h1, Nat.min_self]
    · intro r hr
      rw [decide_eq_true_iff]
      exact ⟨1, (hall r hr).1, one_pos⟩
    · intro r hr
      rw [decide_eq_true_iff]
      have hr := (List.mem_filter.1 hr).1
      exact ⟨⟨c, (hall r hr).2⟩, fun _ => ⟨1, (hall r hr).1, one_pos⟩⟩
  have hval : ∀ r ∈ (usedRows (defaultWeights st.df2).1).rows, r.y = some c := by
    intro r hr
    obtain ⟨q, hq, -, -, h3, -⟩ := u5 r hr
    rw [h3]
    exact hc q (List.mem_filter.1 hq).1
  have hdd : ∀ q ∈ (usedRows (defaultWeights st.df2).1).rows, q.date = t0 + q.x * (24 * 60 * 60 * 1000000000) := by
    intro q hq
    obtain ⟨q', h1, h2, h3, -⟩ := hpart.part q hq
    rw [h2, h3]
    exact hdaily.days q' h1
  have hux : ((usedRows (defaultWeights st.df2).1).rows.map Row.x).Pairwise (· < ·) := by
    have h1 : ((usedRows (defaultWeights st.df2).1).rows.map Row.x).Sublist ((kept args.start df).map Row.x) := by
      rw [← u4]
      exact List.filter_sublist.map _
    exact (List.pairwise_map.2 hdaily.sorted).sublist (h1.trans (List.filter_sublist.map _))
  have hsub : (usableRows (usedRows (defaultWeights st.df2).1)).Sublist (usedRows (defaultWeights st.df2).1).rows := List.filter_sublist
  have hxx : ((usableRows (usedRows (defaultWeights st.df2).1)).map Row.x).Pairwise (· < ·) := hux.sublist (hsub.map _)
  have hhd : (usedRows (defaultWeights st.df2).1).hasDate = true := u1.trans hdaily.dated
  have hdates : (prepare (usedRows (defaultWeights st.df2).1)).dates = some ((usableRows (usedRows (defaultWeights st.df2).1)).map Row.date) := by
    rw [prepare_eq]
    simp [hhd]
  obtain ⟨out, ho, hol, hov⟩ := naive_repeats w.srt t0 _ st.actuals hact (modelSnaiveWday w.srt) (.inr rfl)
    ((usableRows (usedRows (defaultWeights st.df2).1)).map Row.x) hxx ((usableRows (usedRows (defaultWeights st.df2).1)).map Row.date) (by
      rw [List.map_map]
      apply List.map_congr_left
      intro r hr
      exact hdd r (hsub.subset hr)) (by
      intro x hx
      obtain ⟨u, hu, rfl⟩ := List.mem_map.1 hx
      obtain ⟨a, ha, e, -⟩ := hact.all u (hsub.subset hu)
      exact ⟨a, ha, e.le⟩) none (fun v => v = c) (by
      intro a ha v hv
      obtain ⟨u, hu, -, h2⟩ := hact.values a ha v hv
      rw [hval u hu] at h2
      exact (Option.some.inj h2).symm)
  rw [List.length_map] at hol
  obtain ⟨l1, l2, l3⟩ := prepare_lengths (usedRows (defaultWeights st.df2).1)
  obtain ⟨r, hr, hcost⟩ := exact_cost (modelSnaiveWday w.srt)
    { ax := scaleX (modelSnaiveWday w.srt) (prepare (usedRows (defaultWeights st.df2).1)).xs, adate := (prepare (usedRows (defaultWeights st.df2).1)).dates, actuals := some st.actuals }
    (prepare (usedRows (defaultWeights st.df2).1)).ys (prepare (usedRows (defaultWeights st.df2).1)).ws none out c (by rw [hdates, prepare_eq]; exact ho) (hol.trans l2.symm) hov (by
      rw [prepare_eq]
      intro y hy
      obtain ⟨u, hu, rfl⟩ := List.mem_map.1 hy
      rw [hval u (hsub.subset hu)]
      rfl) l3
  have hn0 : (modelSnaiveWday w.srt : ForecastModel ℝ).nParams = 0 := rfl
  obtain ⟨rng, hlong⟩ := fitModel_long (w.env source (0 + k)) (modelSnaiveWday w.srt) (usedRows (defaultWeights st.df2).1) (some st.actuals) args.useCache (by omega)
  have hfit' : fitModel (w.env source (0 + k)) (modelSnaiveWday w.srt) (usedRows (defaultWeights st.df2).1) (some st.actuals) args.useCache = .ok f := hfit
  rw [hlong] at hfit'
  have hv : verdict (modelSnaiveWday w.srt) (usedRows (defaultWeights st.df2).1) = .ok true := by
    unfold verdict
    rfl
  rw [hv, simplify_strict (w.env source (0 + k)).label (modelSnaiveWday w.srt) _ _ rfl (strict_default 0)] at hfit'
  simp only [Bind.bind, Except.bind] at hfit'
  rw [if_neg (by simp)] at hfit'
  unfold attemptFit at hfit'
  rw [if_pos hn0] at hfit'
  simp only [Bind.bind, Except.bind] at hfit'
  rw [hr] at hfit'
  dsimp only at hfit'
  rw [hcost, l1, haic, hrows, hn0, (C31_defined 0 df.rows.length 0 le_rfl (by omega)).1 ⟨rfl, by omega, hlen⟩] at hfit'
  cases hfit'

/-- A case: eleven years and a month of zeros, one sample a day, with the default arguments. -/
example (args : RunArgs ℝ) (hargs : args.models = ⟨none, none, .auto, none, none, none, none⟩) (hs : args.start = none) (ho : args.findOutliers = false) (n : Nat)
    (hn : 4048 ≤ n) (res : RunResult ℝ) :
    runSingle defaultWorld args "s" ⟨true, false, (List.range n).map fun i : Nat => ⟨(i : Int) * DAY, (i : Int), some 0, none⟩⟩ ≠ .ok res := by
  refine C82_counterexample_long defaultWorld rfl (fun _ _ => rfl) args ⟨by rw [hargs], hs, ho⟩ "s" _ 0 ⟨rfl, ?_, ?_, ?_⟩ rfl 0 ?_ ?_ res
  · intro r hr
    obtain ⟨i, -, rfl⟩ := List.mem_map.1 hr
    simp [DAY, HOUR]
  · rw [List.pairwise_map]
    refine (List.pairwise_lt_range (n := n)).imp ?_
    intro a b hab
    dsimp only
    omega
  · exact ⟨_, List.mem_map.2 ⟨0, List.mem_range.2 (by omega), rfl⟩, _, List.mem_map.2 ⟨1, List.mem_range.2 (by omega), rfl⟩, by norm_num⟩
  · intro r hr
    obtain ⟨i, -, rfl⟩ := List.mem_map.1 hr
    rfl
  · simpa using hn

end Anticipy
