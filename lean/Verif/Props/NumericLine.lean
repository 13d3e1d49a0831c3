import Verif.Spec.NumericLine
import Verif.Props.Recovery
import Verif.Props.TotalNumericSources

/-
C128: straight lines in series without dates.
-/
namespace Anticipy
open Spec
variable {K : Type} [Field K] [LinearOrder K]

/-- The points of the forecast of a series without dates: the coordinate is the position plus the first coordinate. -/
theorem numeric_shifted' (x0 stop : Int) (y : ℚ) : sxExtrapolateNum x0 stop y x0 = (arange x0 ((stop : ℚ) + 100 * y)).map fun i => (i, i + x0) := by
  unfold sxExtrapolateNum
  dsimp only
  have e : arange x0 ((x0 : ℚ) + ((arange x0 ((stop : ℚ) + 100 * y)).length : ℚ)) = arange x0 ((stop : ℚ) + 100 * y) := by
    unfold arange
    simp only [List.length_map, List.length_range]
    congr 2
    have : ⌈(x0 : ℚ) + (((⌈(stop : ℚ) + 100 * y - (x0 : ℚ)⌉).toNat : ℕ) : ℚ) - (x0 : ℚ)⌉ = (((⌈(stop : ℚ) + 100 * y - (x0 : ℚ)⌉).toNat : ℕ) : Int) := by
      rw [add_sub_cancel_left, Int.ceil_natCast]
    rw [this, Int.toNat_natCast]
  rw [e]
  conv_lhs => rw [← List.map_id (arange x0 ((stop : ℚ) + 100 * y))]
  rw [List.map_map, List.zip_map']
  rfl

theorem numeric_shifted (x0 stop : Int) (y : ℚ) : ∃ l : List Int, sxExtrapolateNum x0 stop y x0 = l.map fun i => (i, i + x0) :=
  ⟨_, numeric_shifted' x0 stop y⟩

variable [FloorRing K] [IsStrictOrderedRing K]

/-- **C128, what happens.** If the samples of a series without dates lie on a line, every forecast row of the linear trend is the value of this line at the
position plus the first position that counts. -/
theorem C128_shifted (w : World K) (args : RunArgs K) (source : String) (df : Frame K) (res : RunResult K)
    (h : runSingle w args source df = .ok res) (hmin : ∀ i, FindsMinimum (w.env source i))
    (hlin : ∀ df' cand, candidates w.ch args.models df' (runFreq df) = .ok cand → ∀ m ∈ cand.2, m.name = "linear" → m = modelLinear)
    (hdate : df.hasDate = false) (hnd : (df.rows.map Row.x).Nodup) (a b : K) (hline : OnLine df a b) (x0 : Int) (hfirst : FirstCounted res x0)
    (r : DRow K) (hr : r ∈ res.data) (hact : r.isActuals = false) (hm : r.model = "linear") :
    r.y = some (a * ((r.date + x0 : Int) : K) + b) := by
  obtain ⟨d, hd, hdata, -, -⟩ := runSingle_inv w args source df res h
  obtain ⟨st⟩ := runFits_stages w args source df d hd
  have hd1 : d.1 = _ := congrArg Prod.fst st.hd
  have hkept : kept args.start df = df.rows := by
    unfold kept
    rw [List.filter_eq_self]
    intro q _
    cases args.start <;> simp [hdate]
  have hr1 : r ∈ d.1 := by
    rw [hdata] at hr
    unfold selectFits at hr
    split_ifs at hr
    · exact hr
    · exact (List.mem_filter.1 hr).1
  rw [hd1] at hr1
  obtain ⟨q, hq, rfl⟩ := List.mem_map.1 hr1
  rcases List.mem_append.1 hq with hq | hq
  · unfold actualsClean at hq
    obtain ⟨q', -, rfl⟩ := List.mem_map.1 hq
    cases hact
  · obtain ⟨k, m, f, rows, e1, e2, e3, e4⟩ := (fitLoop_spec _ _ _ _ _ st.hFits).2.2 q hq
    obtain ⟨-, -, -, hname, -, hfit, -⟩ := forecastRows_mem _ _ _ _ e3 q e4
    have hmm : m = modelLinear := hlin _ _ st.hCand m (List.mem_of_getElem? e1) (by rw [← hname]; exact hm)
    subst hmm
    obtain ⟨u1, u2, u3, u4, u5⟩ := used_rows args.findOutliers args.start df st.df2 st.hOut
    have hddate : (defaultWeights st.df2).1.hasDate = false := u1.trans hdate
    simp only [mkSetup] at e2 e3
    have hmem : ∀ q, q ∈ (usedRows (defaultWeights st.df2).1).rows ↔ q ∈ (defaultWeights st.df2).1.rows ∧ ∃ v, q.weight = some v ∧ 0 < v := by
      intro q
      unfold usedRows
      simp [List.mem_filter]
    have hobs : ∀ x, (∃ q ∈ (usedRows (defaultWeights st.df2).1).rows, q.x = x) ↔
        ∃ a ∈ res.data, a.isActuals = true ∧ (∃ v, a.weight = some v ∧ 0 < v) ∧ a.date = x := by
      intro x
      have hin : ∀ a : DRow K, a.isActuals = true → (a ∈ res.data ↔ a ∈ d.1) := by
        intro a ha
        rw [hdata]
        unfold selectFits
        split_ifs
        · rfl
        · simp [List.mem_filter, ha]
      constructor
      · rintro ⟨q, hq, rfl⟩
        obtain ⟨h1, h2⟩ := (hmem q).1 hq
        have hq1 : flagData (bestKey w.srt st.fits.1) ⟨if (defaultWeights st.df2).1.hasDate then q.date else q.x, source, ⟨(defaultWeights st.df2).2, runFreq df, st.range⟩,
            "actuals", true, q.y, q.weight, false⟩ ∈ (List.map (flagData (bestKey w.srt st.fits.1)) (actualsClean (defaultWeights st.df2).1 source
              ⟨(defaultWeights st.df2).2, runFreq df, st.range⟩ ++ st.fits.2), List.map (flagMeta (bestKey w.srt st.fits.1)) st.fits.1).1 :=
          List.mem_map.2 ⟨_, List.mem_append.2 (.inl (List.mem_map.2 ⟨q, h1, rfl⟩)), rfl⟩
        rw [← hd1] at hq1
        refine ⟨_, (hin _ rfl).2 hq1, rfl, h2, ?_⟩
        simp [flagData, hddate]
      · rintro ⟨a, ha, hb, hw, rfl⟩
        have ha := (hin a hb).1 ha
        rw [hd1] at ha
        obtain ⟨a', ha', rfl⟩ := List.mem_map.1 ha
        rcases List.mem_append.1 ha' with ha' | ha'
        · unfold actualsClean at ha'
          obtain ⟨q, hq, rfl⟩ := List.mem_map.1 ha'
          exact ⟨q, (hmem q).2 ⟨hq, hw⟩, by simp [flagData, hddate]⟩
        · obtain ⟨k', m', f', rows', -, -, g3, g4⟩ := (fitLoop_spec _ _ _ _ _ st.hFits).2.2 a' ha'
          have := (forecastRows_mem _ _ _ _ g3 a' g4).1
          simp [flagData, this] at hb
    generalize hused : usedRows (defaultWeights st.df2).1 = used at e2 e3 u1 u2 u5 hmem hobs
    have hsub : (used.rows.map Row.x).Sublist (df.rows.map Row.x) := by
      have h1 : (used.rows.map Row.x).Sublist ((defaultWeights st.df2).1.rows.map Row.x) := by
        rw [← hused]
        exact List.Sublist.map _ List.filter_sublist
      rw [u4] at h1
      exact h1.trans (List.Sublist.map _ List.filter_sublist)
    have hus : ∀ q ∈ usableRows used, q ∈ used.rows := fun q hq => (List.mem_filter.1 hq).1
    have hpar := fit_line _ (hmin _) used _ _ f e2 hfit a b
      ((hsub.nodup hnd).sublist (List.Sublist.map _ List.filter_sublist)) (by
        intro q hq
        obtain ⟨q', h1, -, h3, h4, h5⟩ := u5 q (hus q hq)
        have hu : Usable used.hasWeight q := by simpa using (List.mem_filter.1 hq).2
        obtain ⟨v, hv⟩ := hu.1
        rw [hv, h3, hline q' (hkept ▸ h1) h5 v (by rw [← h4]; exact hv)])
    unfold forecastRows at e3
    rw [if_pos hfit] at e3
    dsimp only at e3
    have hax : axisOf used = used.rows.map Row.x := by
      unfold axisOf
      rw [u1, hdate]
      rfl
    have hx0 : listMin (used.rows.map Row.x) = some x0 := by
      rw [listMin_some]
      obtain ⟨k1, k2⟩ := hfirst
      obtain ⟨q0, n1, n2⟩ := (hobs x0).2 k1
      refine ⟨List.mem_map.2 ⟨q0, n1, n2⟩, ?_⟩
      intro x hx
      obtain ⟨q1, n3, n4⟩ := List.mem_map.1 hx
      obtain ⟨a1, b1, b2, b3, b4⟩ := (hobs x).1 ⟨q1, n3, n4⟩
      rw [← b4]
      exact k2 a1 b1 b2 b3
    rw [hax, hx0] at e3
    dsimp only at e3
    simp only [bind, Except.bind] at e3
    cases h3 : extrapolate modelLinear f.params used.hasDate x0 ((listMax (axisOf (defaultWeights st.df2).1)).getD 0)
        (runFreq df) args.years x0 st.actuals with
    | error e => rw [h3] at e3; cases e3
    | ok l =>
      rw [h3] at e3
      have e3 := Except.ok.inj e3
      rw [← e3] at e4
      unfold fcastClean at e4
      obtain ⟨p, hp, rfl⟩ := List.mem_map.1 e4
      have hp := (List.mem_filter.1 hp).1
      unfold extrapolate at h3
      obtain ⟨ix, hix⟩ := numeric_shifted x0 ((listMax (axisOf (defaultWeights st.df2).1)).getD 0) args.years
      rw [u1, hdate, hpar, hix] at h3
      simp only [if_false, Bool.false_eq_true, bind, Except.bind] at h3
      have hsc : ∀ l : List Int, scaleX (modelLinear : ForecastModel K) l = l.map fun x : Int => (x : K) := by
        intro l
        unfold scaleX
        rw [if_neg]
        simp [modelLinear, mkModel]
      simp only [hsc] at h3
      simp only [modelLinear, mkModel, fModelLinear, unpack2, bind, Except.bind, seriesOf, vecOf, List.map_map, List.length_map, if_true] at h3
      have h3 := Except.ok.inj h3
      rw [← h3, List.zip_map', List.mem_map] at hp
      obtain ⟨t, -, rfl⟩ := hp
      simp only [flagData, Function.comp_def]

/-- **C128.** A straight line over the numeric coordinate is continued as this line, if the first position that counts is 0. Missing for the full claim: series
that start elsewhere, see `C128_counterexample`. -/
theorem C128_line_partial (w : World K) (args : RunArgs K) (source : String) (df : Frame K) (res : RunResult K)
    (h : runSingle w args source df = .ok res) (hmin : ∀ i, FindsMinimum (w.env source i))
    (hlin : ∀ df' cand, candidates w.ch args.models df' (runFreq df) = .ok cand → ∀ m ∈ cand.2, m.name = "linear" → m = modelLinear)
    (hdate : df.hasDate = false) (hnd : (df.rows.map Row.x).Nodup) (a b : K) (hline : OnLine df a b) (hfirst : FirstCounted res 0) :
    ForecastsAre res "linear" fun x => a * ((x : Int) : K) + b := by
  intro r hr hact hm
  rw [C128_shifted w args source df res h hmin hlin hdate hnd a b hline 0 hfirst r hr hact hm, add_zero]

/-- **C128 refuted** for every series that starts elsewhere and is not constant: no forecast row has the value of the line at its position. -/
theorem C128_off (w : World K) (args : RunArgs K) (source : String) (df : Frame K) (res : RunResult K)
    (h : runSingle w args source df = .ok res) (hmin : ∀ i, FindsMinimum (w.env source i))
    (hlin : ∀ df' cand, candidates w.ch args.models df' (runFreq df) = .ok cand → ∀ m ∈ cand.2, m.name = "linear" → m = modelLinear)
    (hdate : df.hasDate = false) (hnd : (df.rows.map Row.x).Nodup) (a b : K) (hline : OnLine df a b) (x0 : Int) (hfirst : FirstCounted res x0)
    (ha : a ≠ 0) (hx : x0 ≠ 0) (r : DRow K) (hr : r ∈ res.data) (hact : r.isActuals = false) (hm : r.model = "linear") :
    r.y ≠ some (a * (r.date : K) + b) := by
  rw [C128_shifted w args source df res h hmin hlin hdate hnd a b hline x0 hfirst r hr hact hm]
  intro e
  have e := Option.some.inj e
  push_cast at e
  have e : a * (x0 : K) = 0 := by linear_combination e
  rcases mul_eq_zero.1 e with e | e
  · exact ha e
  · exact hx (by exact_mod_cast e)

/-! ### Tables -/

omit [FloorRing K] [IsStrictOrderedRing K] [Field K] [LinearOrder K] in
/-- The coordinates of a table without dates. -/
theorem positioned_rows (t : STable K) (hd : t.hasDate = false) :
    ∃ rows, withX t t.rows = .ok rows ∧ rows.map (fun r => (r.x, r.y, r.weight)) = positioned t := by
  unfold withX positioned
  by_cases h : t.hasX = true
  · rw [if_pos h, if_pos h]
    exact ⟨_, rfl, rfl⟩
  · rw [if_neg h, hd, if_neg h]
    refine ⟨_, rfl, ?_⟩
    apply List.ext_getElem
    · simp [assignX]
    · intro i h1 h2
      simp [assignX]

/-- A table of one series without dates, as the series that the run works on, with coordinates. -/
theorem numeric_table_x (w : World K) (args : RunArgs K) (id : String) (t : STable K) (ht : NumericTable t) (hne : t.rows ≠ []) :
    ∃ df : Frame K, df.hasDate = false ∧ (df.rows.map Row.x).Nodup ∧ df.hasWeight = t.hasWeight ∧ runForecast w args id t = (runSingle w args id df).map some ∧
      (df.rows.map fun r => (r.x, r.y, r.weight)).Perm (positioned t) := by
  obtain ⟨rows, hr, hpos⟩ := positioned_rows t ht.undated
  obtain ⟨rows', hr', hnd, -⟩ := undated_coordinates t t.rows ht.undated ht.distinct
  rw [hr] at hr'
  cases hr'
  have hrun : normalizeDf w.srt t = .ok (some { t with hasX := true, rows := w.srt.run (fun a b : SRow K => decide (a.x ≤ b.x)) rows }) := by
    unfold normalizeDf
    rw [if_neg hne, if_neg (by rw [ht.oneSource]; simp), hr]
    rfl
  have hperm := w.srt.perm (fun a b : SRow K => decide (a.x ≤ b.x)) rows
  refine ⟨frameOf { t with hasX := true, rows := w.srt.run (fun a b : SRow K => decide (a.x ≤ b.x)) rows } (w.srt.run (fun a b : SRow K => decide (a.x ≤ b.x)) rows), ht.undated, ?_, rfl, ?_, ?_⟩
  · unfold frameOf
    dsimp only
    rw [List.map_map]
    exact (hperm.map SRow.x).nodup_iff.2 hnd
  · unfold runForecast
    rw [hrun]
    simp only [bind, Except.bind]
    rw [if_neg (by rw [ht.oneSource]; simp)]
    cases runSingle w args id (frameOf { t with hasX := true, rows := w.srt.run (fun a b : SRow K => decide (a.x ≤ b.x)) rows } (w.srt.run (fun a b : SRow K => decide (a.x ≤ b.x)) rows)) <;> rfl
  · rw [← hpos]
    unfold frameOf
    dsimp only
    rw [List.map_map]
    exact hperm.map _

/-- **C128, tables.** A table of one series without dates: the line is continued if the first position that counts is 0, and shifted otherwise. -/
theorem C128_table_partial (w : World K) (args : RunArgs K) (id : String) (t : STable K) (ht : NumericTable t) (res : RunResult K)
    (h : runForecast w args id t = .ok (some res)) (hmin : ∀ i, FindsMinimum (w.env id i))
    (hlin : ∀ df' cand, candidates w.ch args.models df' none = .ok cand → ∀ m ∈ cand.2, m.name = "linear" → m = modelLinear)
    (a b : K) (hline : TableOnLine t a b) (x0 : Int) (hfirst : FirstCounted res x0) :
    ForecastsAre res "linear" fun x => a * ((x + x0 : Int) : K) + b := by
  have hne : t.rows ≠ [] := by
    intro h0
    unfold runForecast normalizeDf at h
    rw [if_pos h0] at h
    cases h
  obtain ⟨df, h1, h2, h3, h4, h5⟩ := numeric_table_x w args id t ht hne
  rw [h4] at h
  cases hrun : runSingle w args id df with
  | error e => rw [hrun] at h; cases h
  | ok res' =>
    rw [hrun] at h
    have h := Option.some.inj (Except.ok.inj h)
    subst h
    have hf : runFreq df = none := by
      unfold runFreq
      rw [h1]
      rfl
    intro r hr hact hm
    refine C128_shifted w args id df res' hrun hmin (by rw [hf]; exact hlin) h1 h2 a b ?_ x0 hfirst r hr hact hm
    intro q hq hw v hv
    have hmem : (q.x, q.y, q.weight) ∈ positioned t := h5.mem_iff.1 (List.mem_map.2 ⟨q, hq, rfl⟩)
    refine hline _ hmem ?_ v hv
    intro htw
    obtain ⟨u, hu, hpos⟩ := hw
    unfold givenWeight at hu
    rw [h3, if_pos htw] at hu
    exact ⟨u, hu, hpos⟩

/-- The part of the result for one source of a table without dates, as the result for a series. -/
theorem numeric_source_run (w : World K) (args : RunArgs K) (id : String) (t : STable K) (ht : NumericSources t) (res : RunResult K)
    (h : runForecast w args id t = .ok (some res)) (s : String) (hs : ∃ r ∈ t.rows, r.source = some s) :
    ∃ df : Frame K, df.hasDate = false ∧ (df.rows.map Row.x).Nodup ∧ df.hasWeight = t.hasWeight ∧
      (df.rows.map fun r => (r.x, r.y, r.weight)).Perm (positioned (only s t)) ∧ runSingle w args s df = .ok (resultOf s res) := by
  obtain ⟨df, h1, h2, h3, h4, -, rows, h5, h6⟩ := numeric_source w args id t ht.sources ht.undated s hs (ht.distinct s)
  have h7 := C47_independent w args id t ht.sources res h s hs
  rw [h4] at h7
  obtain ⟨rows', h8, h9⟩ := positioned_rows (only s t) ht.undated
  rw [h5] at h8
  cases h8
  rw [h9] at h6
  refine ⟨df, h1, ?_, h3, h6, ?_⟩
  · rw [List.Nodup, List.pairwise_map]
    exact h2.imp fun h => h.ne
  · cases hrun : runSingle w args s df with
    | error e => rw [hrun] at h7; cases h7
    | ok res' =>
      rw [hrun] at h7
      rw [Option.some.inj (Except.ok.inj h7)]

/-- **C128, sources.** The same for every source of a table without dates: its line is continued if its first position that counts is 0, and shifted otherwise. -/
theorem C128_sources_partial (w : World K) (args : RunArgs K) (id : String) (t : STable K) (ht : NumericSources t) (res : RunResult K)
    (h : runForecast w args id t = .ok (some res)) (s : String) (hs : ∃ r ∈ t.rows, r.source = some s) (hmin : ∀ i, FindsMinimum (w.env s i))
    (hlin : ∀ df' cand, candidates w.ch args.models df' none = .ok cand → ∀ m ∈ cand.2, m.name = "linear" → m = modelLinear)
    (a b : K) (hline : TableOnLine (only s t) a b) (x0 : Int) (hfirst : FirstCounted (resultOf s res) x0) :
    ForecastsAre (resultOf s res) "linear" fun x => a * ((x + x0 : Int) : K) + b := by
  obtain ⟨df, h1, h2, h3, h5, hrun⟩ := numeric_source_run w args id t ht res h s hs
  have hf : runFreq df = none := by
    unfold runFreq
    rw [h1]
    rfl
  intro r hr hact hm
  refine C128_shifted w args s df _ hrun hmin (by rw [hf]; exact hlin) h1 h2 a b ?_ x0 hfirst r hr hact hm
  intro q hq hw v hv
  have hmem : (q.x, q.y, q.weight) ∈ positioned (only s t) := h5.mem_iff.1 (List.mem_map.2 ⟨q, hq, rfl⟩)
  refine hline _ hmem ?_ v hv
  intro htw
  obtain ⟨u, hu, hpos⟩ := hw
  unfold givenWeight at hu
  rw [h3, if_pos (show t.hasWeight = true from htw)] at hu
  exact ⟨u, hu, hpos⟩

/-! ### Concrete runs -/

/-- Six samples on the line `2 * x + 1`, without dates, from position `k` on. -/
def numericLine (k : Int) : Frame ℚ := ⟨false, false, (List.range 6).map fun i : Nat => ⟨0, k + i, some (2 * ((k + i : Int) : ℚ) + 1), none⟩⟩

/-- The result for such a series with a solver that knows the line; the horizon of 1/50 years is 2 positions. -/
def numericRun (k : Int) : Res (RunResult ℚ) :=
  runSingle { demoWorld with env := fun _ _ => knownEnv [2, 1] } { demoArgs [modelLinear] (some []) with years := 1 / 50 } "s" (numericLine k)

/-- The hypotheses of `C128_shifted` hold, wherever the series starts. -/
example (k : Int) : (numericLine k).hasDate = false ∧ OnLine (numericLine k) 2 1 ∧ FindsMinimum (knownEnv [2, 1]) := by
  refine ⟨rfl, ?_, knownEnv_minimum _⟩
  intro r hr _ v hv
  obtain ⟨i, -, rfl⟩ := List.mem_map.1 hr
  exact (Option.some.inj hv).symm

/-- From 0 on, the line is continued: 13 at position 6. -/
example : (match numericRun 0 with
    | .ok res => some (((res.data.filter fun r => !r.isActuals).map fun r => (r.date, r.y)))
    | .error _ => none) = some [(0, some 1), (1, some 3), (2, some 5), (3, some 7), (4, some 9), (5, some 11), (6, some 13)] := by
  decide +kernel

/-- **C128 refuted** by a run from 3 on: the observations at 3 and 4 are 7 and 9, the forecast for these positions is 13 and 15. -/
theorem C128_counterexample : (match numericRun 3 with
    | .ok res => some (((res.data.filter fun r => r.isActuals).map fun r => (r.date, r.y)), ((res.data.filter fun r => !r.isActuals).map fun r => (r.date, r.y)))
    | .error _ => none) =
      some ([(3, some 7), (4, some 9), (5, some 11), (6, some 13), (7, some 15), (8, some 17)],
        [(3, some 13), (4, some 15), (5, some 17), (6, some 19), (7, some 21), (8, some 23), (9, some 25)]) := by
  decide +kernel

end Anticipy
