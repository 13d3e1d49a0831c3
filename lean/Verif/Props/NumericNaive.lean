import Verif.Spec.DailyRun
import Verif.Props.DailyRun
import Verif.Props.NumericLine

/-
C129: naive forecasts of series without dates.
-/
namespace Anticipy
open Spec
variable {K : Type} [Field K] [LinearOrder K]

/-- The gap-filled samples of a series without dates have exactly the values of the samples used. -/
theorem undated_values (srt : SortAlg) (df : Frame K) (hd : df.hasDate = false) (hn : (df.rows.map Row.x).Nodup) (used : Frame K)
    (hu : (used.rows.map Row.x).Nodup) (hpos : ∀ u ∈ used.rows, ∃ v, u.weight = some v ∧ 0 < v) (hfrom : ∀ u ∈ used.rows, ∃ q ∈ df.rows, u.x = q.x ∧ u.y = q.y)
    (act : Frame K) (h : actualsInterpolated srt df used = .ok act) :
    (∀ u ∈ used.rows, ∃ q ∈ act.rows, q.x = u.x ∧ q.y = u.y) ∧ (∀ q ∈ act.rows, ∀ v, q.y = some v → ∃ u ∈ used.rows, u.x = q.x ∧ u.y = some v) := by
  obtain ⟨out, ho, hcase⟩ := C25_numeric df hd hn
  have hact : act.rows = (srt.run (fun a b : Row K => decide (a.x ≤ b.x)) out.rows).flatMap (mergeWeight used.rows) := by
    unfold actualsInterpolated at h
    rw [ho] at h
    rw [← Except.ok.inj h]
  have hin : ∀ r ∈ df.rows, r ∈ out.rows := by
    rcases hcase with rfl | ⟨-, h1, -⟩
    · exact fun r hr => hr
    · exact h1
  have hout : ∀ r ∈ out.rows, r ∈ df.rows ∨ (r.x ∉ df.rows.map Row.x ∧ r.y = none ∧ r.weight = none) := by
    rcases hcase with rfl | ⟨-, -, h1⟩
    · exact fun r hr => .inl hr
    · exact h1
  have hsame : ∀ r ∈ df.rows, ∀ q ∈ df.rows, r.x = q.x → r = q := fun r hr q hq e => List.inj_on_of_nodup_map hn hr hq e
  have hperm := srt.perm (fun a b : Row K => decide (a.x ≤ b.x)) out.rows
  constructor
  · intro u hu'
    obtain ⟨q, hq, e1, e2⟩ := hfrom u hu'
    obtain ⟨v, hv, hp⟩ := hpos u hu'
    have hmem : u ∈ used.rows.filter fun u => decide (u.x = q.x) := List.mem_filter.2 ⟨hu', by simp [e1]⟩
    refine ⟨{ q with weight := some (u.weight.getD 0), y := if (0 : K) < u.weight.getD 0 then q.y else none }, ?_, e1.symm, ?_⟩
    · rw [hact, List.mem_flatMap]
      refine ⟨q, hperm.mem_iff.2 (hin q hq), ?_⟩
      unfold mergeWeight
      revert hmem
      generalize used.rows.filter (fun u => decide (u.x = q.x)) = l
      intro hmem
      match l, hmem with
      | c :: l, hmem => exact List.mem_map.2 ⟨u, hmem, rfl⟩
    · simp [hv, hp, e2]
  · intro q hq v hv
    rw [hact, List.mem_flatMap] at hq
    obtain ⟨r, hr, hq⟩ := hq
    have hr := hperm.mem_iff.1 hr
    unfold mergeWeight at hq
    have hall : ∀ u ∈ used.rows.filter (fun u => decide (u.x = r.x)), u ∈ used.rows ∧ u.x = r.x := fun u hu => by simpa using List.mem_filter.1 hu
    revert hq hall
    generalize used.rows.filter (fun u => decide (u.x = r.x)) = l
    intro hq hall
    match l, hq, hall with
    | [], hq, _ =>
      rw [List.mem_singleton] at hq
      rw [hq] at hv
      cases hv
    | c :: l, hq, hall =>
      obtain ⟨u, hu', rfl⟩ := List.mem_map.1 hq
      obtain ⟨h1, h2⟩ := hall u hu'
      refine ⟨u, h1, h2, ?_⟩
      dsimp only at hv
      split_ifs at hv
      obtain ⟨q0, hq0, e1, e2⟩ := hfrom u h1
      rcases hout r hr with h3 | ⟨-, h3, -⟩
      · have := hsame r h3 q0 hq0 (by rw [← h2, e1])
        rw [e2, ← this, hv]
      · rw [h3] at hv
        cases hv

/-- What is known about a forecast row of a run on a series without dates. -/
structure UndatedRow (res : RunResult K) (m : ForecastModel K) (x0 : Int) (r : DRow K) where
  used : List (Row K)
  act : Frame K
  undated : act.hasDate = false
  distinct : (act.rows.map Row.x).Nodup
  all : ∀ u ∈ used, ∃ q ∈ act.rows, q.x = u.x ∧ q.y = u.y
  values : ∀ q ∈ act.rows, ∀ v, q.y = some v → ∃ u ∈ used, u.x = q.x ∧ u.y = some v
  usable : ∀ u ∈ used, u.y ≠ none → ∃ a, UsableActual res a ∧ a.date = u.x ∧ a.y = u.y
  complete : ∀ a, UsableActual res a → ∃ u ∈ used, a.date = u.x ∧ u.y = a.y
  ix : List Int
  sorted : ix.Pairwise (· < ·)
  p : List K
  arr : Arr K
  l : List (Int × Option K)
  value : m.fModel { ax := scaleX m (ix.map fun i => i + x0), adate := none, actuals := some act } (some p) false = .ok arr
  series : seriesOf ix arr = .ok l
  mem : (r.date, r.y) ∈ l
  some : r.y ≠ none

variable [FloorRing K] [IsStrictOrderedRing K]

theorem undated_row (w : World K) (args : RunArgs K) (source : String) (df : Frame K) (res : RunResult K) (h : runSingle w args source df = .ok res)
    (m : ForecastModel K) (hcand : ∀ df' cand, candidates w.ch args.models df' (runFreq df) = .ok cand → ∀ m' ∈ cand.2, m'.name = m.name → m' = m)
    (hdate : df.hasDate = false) (hnd : (df.rows.map Row.x).Nodup) (x0 : Int) (hfirst : FirstCounted res x0)
    (r : DRow K) (hr : r ∈ res.data) (hact : r.isActuals = false) (hm : r.model = m.name) : Nonempty (UndatedRow res m x0 r) := by
  obtain ⟨d, hd, hdata, -, -⟩ := runSingle_inv w args source df res h
  obtain ⟨st⟩ := runFits_stages w args source df d hd
  have hd1 : d.1 = _ := congrArg Prod.fst st.hd
  have hkept : kept args.start df = df.rows := by
    unfold kept
    rw [List.filter_eq_self]
    intro q _
    cases args.start <;> simp [hdate]
  have hr1 : r ∈ d.1 := by
    rw [hdata] at hr
    unfold selectFits at hr
    split_ifs at hr
    · exact hr
    · exact (List.mem_filter.1 hr).1
  rw [hd1] at hr1
  obtain ⟨q, hq, rfl⟩ := List.mem_map.1 hr1
  rcases List.mem_append.1 hq with hq | hq
  · unfold actualsClean at hq
    obtain ⟨q', -, rfl⟩ := List.mem_map.1 hq
    cases hact
  · obtain ⟨k, m', f, rows, e1, e2, e3, e4⟩ := (fitLoop_spec _ _ _ _ _ st.hFits).2.2 q hq
    obtain ⟨-, -, -, hname, -, hfit, -⟩ := forecastRows_mem _ _ _ _ e3 q e4
    have hmm : m' = m := hcand _ _ st.hCand m' (List.mem_of_getElem? e1) (by rw [← hname]; exact hm)
    subst hmm
    obtain ⟨u1, u2, u3, u4, u5⟩ := used_rows args.findOutliers args.start df st.df2 st.hOut
    have hddate : (defaultWeights st.df2).1.hasDate = false := u1.trans hdate
    simp only [mkSetup] at e2 e3
    have hmem : ∀ q, q ∈ (usedRows (defaultWeights st.df2).1).rows ↔ q ∈ (defaultWeights st.df2).1.rows ∧ ∃ v, q.weight = some v ∧ 0 < v := by
      intro q
      unfold usedRows
      simp [List.mem_filter]
    have hobs : ∀ x y, (∃ q ∈ (usedRows (defaultWeights st.df2).1).rows, q.x = x ∧ q.y = y) ↔
        ∃ a ∈ res.data, a.isActuals = true ∧ (∃ v, a.weight = some v ∧ 0 < v) ∧ a.date = x ∧ a.y = y := by
      intro x y
      have hin : ∀ a : DRow K, a.isActuals = true → (a ∈ res.data ↔ a ∈ d.1) := by
        intro a ha
        rw [hdata]
        unfold selectFits
        split_ifs
        · rfl
        · simp [List.mem_filter, ha]
      constructor
      · rintro ⟨q, hq, rfl, rfl⟩
        obtain ⟨h1, h2⟩ := (hmem q).1 hq
        have hq1 : flagData (bestKey w.srt st.fits.1) ⟨if (defaultWeights st.df2).1.hasDate then q.date else q.x, source, ⟨(defaultWeights st.df2).2, runFreq df, st.range⟩,
            "actuals", true, q.y, q.weight, false⟩ ∈ (List.map (flagData (bestKey w.srt st.fits.1)) (actualsClean (defaultWeights st.df2).1 source
              ⟨(defaultWeights st.df2).2, runFreq df, st.range⟩ ++ st.fits.2), List.map (flagMeta (bestKey w.srt st.fits.1)) st.fits.1).1 :=
          List.mem_map.2 ⟨_, List.mem_append.2 (.inl (List.mem_map.2 ⟨q, h1, rfl⟩)), rfl⟩
        rw [← hd1] at hq1
        refine ⟨_, (hin _ rfl).2 hq1, rfl, h2, ?_, rfl⟩
        simp [flagData, hddate]
      · rintro ⟨a, ha, hb, hw, rfl, rfl⟩
        have ha := (hin a hb).1 ha
        rw [hd1] at ha
        obtain ⟨a', ha', rfl⟩ := List.mem_map.1 ha
        rcases List.mem_append.1 ha' with ha' | ha'
        · unfold actualsClean at ha'
          obtain ⟨q, hq, rfl⟩ := List.mem_map.1 ha'
          exact ⟨q, (hmem q).2 ⟨hq, hw⟩, by simp [flagData, hddate], rfl⟩
        · obtain ⟨k', m', f', rows', -, -, g3, g4⟩ := (fitLoop_spec _ _ _ _ _ st.hFits).2.2 a' ha'
          have := (forecastRows_mem _ _ _ _ g3 a' g4).1
          simp [flagData, this] at hb
    have hinterp := st.hAct
    generalize hused : usedRows (defaultWeights st.df2).1 = used at e2 e3 u1 u2 u5 hmem hobs hinterp
    have hsub : (used.rows.map Row.x).Sublist (df.rows.map Row.x) := by
      have h1 : (used.rows.map Row.x).Sublist ((defaultWeights st.df2).1.rows.map Row.x) := by
        rw [← hused]
        exact List.Sublist.map _ List.filter_sublist
      rw [u4] at h1
      exact h1.trans (List.Sublist.map _ List.filter_sublist)
    obtain ⟨act', ha1, ha2, ha3⟩ := undated_actuals w.srt df hdate hnd used (hsub.nodup hnd)
    rw [hinterp] at ha1
    have ha1 := Except.ok.inj ha1
    subst ha1
    obtain ⟨hv1, hv2⟩ := undated_values w.srt df hdate hnd used (hsub.nodup hnd) (fun u hu => ((hmem u).1 hu).2) (by
      intro u hu
      obtain ⟨q', k1, -, k3, k4, -⟩ := u5 u hu
      exact ⟨q', hkept ▸ k1, k3, k4⟩) _ hinterp
    unfold forecastRows at e3
    rw [if_pos hfit] at e3
    dsimp only at e3
    have hax : axisOf used = used.rows.map Row.x := by
      unfold axisOf
      rw [u1, hdate]
      rfl
    have hx0 : listMin (used.rows.map Row.x) = some x0 := by
      rw [listMin_some]
      obtain ⟨⟨a1, b1, b2, b3, b4⟩, k2⟩ := hfirst
      obtain ⟨q0, n1, n2, -⟩ := (hobs x0 a1.y).2 ⟨a1, b1, b2, b3, b4, rfl⟩
      refine ⟨List.mem_map.2 ⟨q0, n1, n2⟩, ?_⟩
      intro x hx
      obtain ⟨q1, n3, n4⟩ := List.mem_map.1 hx
      obtain ⟨a1, b1, b2, b3, b4, -⟩ := (hobs x q1.y).1 ⟨q1, n3, n4, rfl⟩
      rw [← b4]
      exact k2 a1 b1 b2 b3
    rw [hax, hx0] at e3
    dsimp only at e3
    simp only [bind, Except.bind] at e3
    cases h3 : extrapolate m' f.params used.hasDate x0 ((listMax (axisOf (defaultWeights st.df2).1)).getD 0)
        (runFreq df) args.years x0 st.actuals with
    | error e => rw [h3] at e3; cases e3
    | ok l =>
      rw [h3] at e3
      have e3 := Except.ok.inj e3
      rw [← e3] at e4
      unfold fcastClean at e4
      obtain ⟨p, hp, rfl⟩ := List.mem_map.1 e4
      obtain ⟨hp, hsome⟩ := List.mem_filter.1 hp
      unfold extrapolate at h3
      have hixs : sxExtrapolateNum x0 ((listMax (axisOf (defaultWeights st.df2).1)).getD 0) args.years x0 =
          (arange x0 ((((listMax (axisOf (defaultWeights st.df2).1)).getD 0 : Int) : ℚ) + 100 * args.years)).map fun i => (i, i + x0) := numeric_shifted' _ _ _
      rw [u1, hdate, hixs] at h3
      simp only [if_false, Bool.false_eq_true, bind, Except.bind, List.map_map] at h3
      have hc1 : ∀ l : List Int, l.map (Prod.snd ∘ fun i => (i, i + x0)) = l.map fun i => i + x0 := fun l => rfl
      have hc2 : ∀ l : List Int, l.map (Prod.fst ∘ fun i => (i, i + x0)) = l := fun l => List.map_id l
      rw [hc1, hc2] at h3
      have hix := arange_sorted x0 ((((listMax (axisOf (defaultWeights st.df2).1)).getD 0 : Int) : ℚ) + 100 * args.years)
      generalize arange x0 ((((listMax (axisOf (defaultWeights st.df2).1)).getD 0 : Int) : ℚ) + 100 * args.years) = ix at h3 hix
      cases hval : m'.fModel { ax := scaleX m' (ix.map fun i => i + x0), adate := none, actuals := some st.actuals } (some f.params) false with
      | error e => rw [hval] at h3; cases h3
      | ok arr =>
        rw [hval] at h3
        refine ⟨{ used := used.rows, act := st.actuals, undated := ha2, distinct := ha3, all := hv1, values := hv2, usable := ?_, complete := ?_, ix := ix, sorted := hix, p := f.params, arr := arr, l := l, value := hval, series := h3, mem := hp, some := ?_ }⟩
        · intro u hu hy
          obtain ⟨a1, b1, b2, b3, b4, b5⟩ := (hobs u.x u.y).1 ⟨u, hu, rfl, rfl⟩
          exact ⟨a1, ⟨b1, b2, by rw [b5]; exact hy, b3⟩, b4, b5⟩
        · rintro a ⟨b1, b2, b3, b4⟩
          obtain ⟨u, hu, k1, k2⟩ := (hobs a.date a.y).2 ⟨a, b1, b2, b4, rfl, rfl⟩
          exact ⟨u, hu, k1.symm, k2⟩
        · exact Option.isSome_iff_ne_none.1 hsome

/-- **C129, what happens.** In a series without dates, every prediction of the naive model is the last observation that counts before its position plus the first
position that counts; where there is none, it is the first observation. -/
theorem C129_shifted (w : World K) (args : RunArgs K) (source : String) (df : Frame K) (res : RunResult K) (h : runSingle w args source df = .ok res)
    (hcand : ∀ df' cand, candidates w.ch args.models df' (runFreq df) = .ok cand → ∀ m ∈ cand.2, m.name = "naive" → m = modelNaive w.srt)
    (hdate : df.hasDate = false) (hnd : (df.rows.map Row.x).Nodup) (x0 : Int) (hfirst : FirstCounted res x0)
    (r : DRow K) (hr : r ∈ res.data) (hact : r.isActuals = false) (hm : r.model = "naive") :
    ∃ a, UsableActual res a ∧ r.y = a.y ∧
      ((a.date < r.date + x0 ∧ ∀ b, UsableActual res b → b.date < r.date + x0 → b.date ≤ a.date) ∨
        ((∀ b, UsableActual res b → r.date + x0 ≤ b.date) ∧ ∀ b, UsableActual res b → a.date ≤ b.date)) := by
  obtain ⟨e⟩ := undated_row w args source df res h (modelNaive w.srt) hcand hdate hnd x0 hfirst r hr hact hm
  have hv := e.value
  have hsx : scaleX (modelNaive (K := K) w.srt) (e.ix.map fun i => i + x0) = e.ix.map fun i => ((i + x0 : Int) : K) := by
    unfold scaleX
    rw [if_neg (by simp [modelNaive, mkModel]), List.map_map]
    rfl
  rw [hsx] at hv
  obtain ⟨out, ho, hlen, hval⟩ := C37_naive w.srt
    { ax := e.ix.map fun i => ((i + x0 : Int) : K), adate := none, actuals := some e.act } e.act (some e.p) false rfl rfl
    ⟨(by intro ds hds; cases hds), (by intro h; rw [e.undated] at h; cases h)⟩
    (by rw [List.pairwise_map]; exact e.sorted.imp fun h => Int.cast_lt.2 (by omega)) e.distinct
  rw [ho] at hv
  have hv := Except.ok.inj hv
  have hs := e.series
  rw [← hv] at hs
  obtain ⟨i, hi1, hi2⟩ := vec_at hs _ _ e.mem
  obtain ⟨k1, k2⟩ := hval i ((r.date + x0 : Int) : K) (by rw [List.getElem?_map, hi1]; rfl)
  have hto : ∀ b, UsableActual res b → ∃ q ∈ e.act.rows, b.date = q.x ∧ q.y ≠ none := by
    intro b hb
    obtain ⟨u, hu, h1, h2⟩ := e.complete b hb
    obtain ⟨q, hq, h3, h4⟩ := e.all u hu
    exact ⟨q, hq, by rw [h1, h3], by rw [h4, h2]; exact hb.2.2.1⟩
  have hfrom : ∀ q ∈ e.act.rows, ∀ v, q.y = some v → ∃ a, UsableActual res a ∧ a.y = some v ∧ a.date = q.x := by
    intro q hq v hv
    obtain ⟨u, hu, h1, h2⟩ := e.values q hq v hv
    obtain ⟨a, ha, h3, h4⟩ := e.usable u hu (by rw [h2]; simp)
    exact ⟨a, ha, by rw [h4, h2], by rw [h3, h1]⟩
  by_cases hlast : ∃ v, LastBefore e.act.rows ((r.date + x0 : Int) : K) v
  · obtain ⟨v', hl⟩ := hlast
    have h1 := k1 v' hl
    rw [hi2, Option.some.injEq] at h1
    obtain ⟨q, hq, hqy, hqx, hqm⟩ := hl
    obtain ⟨a, ha, ha2, ha3⟩ := hfrom q hq v' hqy
    rw [Int.cast_lt] at hqx
    refine ⟨a, ha, by rw [h1, ha2], .inl ⟨by omega, ?_⟩⟩
    intro b hb hlt
    obtain ⟨q', hq', h2, h3⟩ := hto b hb
    have := hqm q' hq' h3 (by rw [Int.cast_lt]; omega)
    omega
  · rcases k2 hlast with h1 | ⟨v', hf, h1⟩
    · rw [hi2, Option.some.injEq] at h1
      exact absurd h1 e.some
    · rw [hi2, Option.some.injEq] at h1
      obtain ⟨q, hq, hqy, hqm⟩ := hf
      obtain ⟨a, ha, ha2, ha3⟩ := hfrom q hq v' hqy
      have hfirst : ∀ b, UsableActual res b → a.date ≤ b.date := by
        intro b hb
        obtain ⟨q', hq', h2, h3⟩ := hto b hb
        have := hqm q' hq' h3
        omega
      refine ⟨a, ha, by rw [h1, ha2], .inr ⟨?_, hfirst⟩⟩
      intro b hb
      by_contra hc
      rw [not_le] at hc
      apply hlast
      obtain ⟨q', hq', h2, h3⟩ := hto b hb
      have hne : (e.act.rows.filter fun q => decide (q.x < r.date + x0) && q.y.isSome).map Row.x ≠ [] := by
        intro hn
        rw [List.map_eq_nil_iff, List.filter_eq_nil_iff] at hn
        apply hn q' hq'
        rw [Bool.and_eq_true, decide_eq_true_iff, Option.isSome_iff_ne_none]
        exact ⟨by omega, h3⟩
      cases hmx : listMax ((e.act.rows.filter fun q => decide (q.x < r.date + x0) && q.y.isSome).map Row.x) with
      | none => exact absurd ((listMax_none _).1 hmx) hne
      | some x =>
        obtain ⟨h4, h5⟩ := (listMax_some _ _).1 hmx
        obtain ⟨q2, hq2, rfl⟩ := List.mem_map.1 h4
        obtain ⟨h6, h7⟩ := List.mem_filter.1 hq2
        rw [Bool.and_eq_true, decide_eq_true_iff, Option.isSome_iff_exists] at h7
        obtain ⟨h7, v2, h8⟩ := h7
        refine ⟨v2, q2, h6, h8, by rw [Int.cast_lt]; exact h7, ?_⟩
        intro q3 hq3 h9 h10
        rw [Int.cast_lt] at h10
        refine h5 _ (List.mem_map.2 ⟨q3, List.mem_filter.2 ⟨hq3, ?_⟩, rfl⟩)
        rw [Bool.and_eq_true, decide_eq_true_iff, Option.isSome_iff_ne_none]
        exact ⟨h10, h9⟩

/-- **C129, series from 0 on.** If the first position that counts is 0, every prediction of the naive model is the last observation before its position, and the first
observation where there is none. -/
theorem C129_all_partial (w : World K) (args : RunArgs K) (source : String) (df : Frame K) (res : RunResult K) (h : runSingle w args source df = .ok res)
    (hcand : ∀ df' cand, candidates w.ch args.models df' (runFreq df) = .ok cand → ∀ m ∈ cand.2, m.name = "naive" → m = modelNaive w.srt)
    (hdate : df.hasDate = false) (hnd : (df.rows.map Row.x).Nodup) (hfirst : FirstCounted res 0)
    (r : DRow K) (hr : r ∈ res.data) (hact : r.isActuals = false) (hm : r.model = "naive") :
    ∃ a, UsableActual res a ∧ r.y = a.y ∧
      ((a.date < r.date ∧ ∀ b, UsableActual res b → b.date < r.date → b.date ≤ a.date) ∨
        ((∀ b, UsableActual res b → r.date ≤ b.date) ∧ ∀ b, UsableActual res b → a.date ≤ b.date)) := by
  have := C129_shifted w args source df res h hcand hdate hnd 0 hfirst r hr hact hm
  rwa [add_zero] at this

/-- **C129, the future.** If no position is negative, every prediction after the last observation has the value of the last observation. -/
theorem C129_future_partial (w : World K) (args : RunArgs K) (source : String) (df : Frame K) (res : RunResult K) (h : runSingle w args source df = .ok res)
    (hcand : ∀ df' cand, candidates w.ch args.models df' (runFreq df) = .ok cand → ∀ m ∈ cand.2, m.name = "naive" → m = modelNaive w.srt)
    (hdate : df.hasDate = false) (hnd : (df.rows.map Row.x).Nodup) (x0 : Int) (hfirst : FirstCounted res x0) (hpos : 0 ≤ x0)
    (r : DRow K) (hr : r ∈ res.data) (hact : r.isActuals = false) (hm : r.model = "naive") (hafter : ∀ b, UsableActual res b → b.date < r.date) :
    ∃ a, UsableActual res a ∧ r.y = a.y ∧ ∀ b, UsableActual res b → b.date ≤ a.date := by
  obtain ⟨a, h1, h2, h3⟩ := C129_shifted w args source df res h hcand hdate hnd x0 hfirst r hr hact hm
  refine ⟨a, h1, h2, ?_⟩
  rcases h3 with ⟨-, h3⟩ | ⟨h3, -⟩
  · intro b hb
    have := hafter b hb
    exact h3 b hb (by omega)
  · have h4 := h3 a h1
    have h5 := hafter a h1
    omega

/-- **C129, looking ahead.** Wherever an observation lies at the position of a prediction or less than the first position after it, the prediction has the value of an
observation that is not before it. -/
theorem C129_ahead (w : World K) (args : RunArgs K) (source : String) (df : Frame K) (res : RunResult K) (h : runSingle w args source df = .ok res)
    (hcand : ∀ df' cand, candidates w.ch args.models df' (runFreq df) = .ok cand → ∀ m ∈ cand.2, m.name = "naive" → m = modelNaive w.srt)
    (hdate : df.hasDate = false) (hnd : (df.rows.map Row.x).Nodup) (x0 : Int) (hfirst : FirstCounted res x0)
    (r : DRow K) (hr : r ∈ res.data) (hact : r.isActuals = false) (hm : r.model = "naive")
    (c : DRow K) (hc : UsableActual res c) (hc1 : r.date ≤ c.date) (hc2 : c.date < r.date + x0) :
    ∃ a, UsableActual res a ∧ r.y = a.y ∧ r.date ≤ a.date := by
  obtain ⟨a, h1, h2, h3⟩ := C129_shifted w args source df res h hcand hdate hnd x0 hfirst r hr hact hm
  refine ⟨a, h1, h2, ?_⟩
  rcases h3 with ⟨-, h3⟩ | ⟨h3, -⟩
  · exact hc1.trans (h3 c hc hc2)
  · have := h3 c hc
    omega

/-- **C129, tables.** The same for a table of one series without dates, as the user supplies it. -/
theorem C129_table_partial (w : World K) (args : RunArgs K) (id : String) (t : STable K) (ht : NumericTable t) (res : RunResult K)
    (h : runForecast w args id t = .ok (some res))
    (hcand : ∀ df' cand, candidates w.ch args.models df' none = .ok cand → ∀ m ∈ cand.2, m.name = "naive" → m = modelNaive w.srt)
    (x0 : Int) (hfirst : FirstCounted res x0) (r : DRow K) (hr : r ∈ res.data) (hact : r.isActuals = false) (hm : r.model = "naive") :
    (∃ a, UsableActual res a ∧ r.y = a.y ∧
      ((a.date < r.date + x0 ∧ ∀ b, UsableActual res b → b.date < r.date + x0 → b.date ≤ a.date) ∨
        ((∀ b, UsableActual res b → r.date + x0 ≤ b.date) ∧ ∀ b, UsableActual res b → a.date ≤ b.date))) ∧
      (0 ≤ x0 → (∀ b, UsableActual res b → b.date < r.date) → ∃ a, UsableActual res a ∧ r.y = a.y ∧ ∀ b, UsableActual res b → b.date ≤ a.date) := by
  have hne : t.rows ≠ [] := by
    intro h0
    unfold runForecast normalizeDf at h
    rw [if_pos h0] at h
    cases h
  obtain ⟨df, h1, h2, h3, h4, -⟩ := numeric_table_x w args id t ht hne
  rw [h4] at h
  cases hrun : runSingle w args id df with
  | error e => rw [hrun] at h; cases h
  | ok res' =>
    rw [hrun] at h
    have h := Option.some.inj (Except.ok.inj h)
    subst h
    have hf : runFreq df = none := by
      unfold runFreq
      rw [h1]
      rfl
    exact ⟨C129_shifted w args id df res' hrun (by rw [hf]; exact hcand) h1 h2 x0 hfirst r hr hact hm,
      fun hp ha => C129_future_partial w args id df res' hrun (by rw [hf]; exact hcand) h1 h2 x0 hfirst hp r hr hact hm ha⟩

/-- **C129, sources.** The same for every source of a table without dates. -/
theorem C129_sources_partial (w : World K) (args : RunArgs K) (id : String) (t : STable K) (ht : NumericSources t) (res : RunResult K)
    (h : runForecast w args id t = .ok (some res)) (s : String) (hs : ∃ r ∈ t.rows, r.source = some s)
    (hcand : ∀ df' cand, candidates w.ch args.models df' none = .ok cand → ∀ m ∈ cand.2, m.name = "naive" → m = modelNaive w.srt)
    (x0 : Int) (hfirst : FirstCounted (resultOf s res) x0)
    (r : DRow K) (hr : r ∈ (resultOf s res).data) (hact : r.isActuals = false) (hm : r.model = "naive") :
    (∃ a, UsableActual (resultOf s res) a ∧ r.y = a.y ∧
      ((a.date < r.date + x0 ∧ ∀ b, UsableActual (resultOf s res) b → b.date < r.date + x0 → b.date ≤ a.date) ∨
        ((∀ b, UsableActual (resultOf s res) b → r.date + x0 ≤ b.date) ∧ ∀ b, UsableActual (resultOf s res) b → a.date ≤ b.date))) ∧
      (0 ≤ x0 → (∀ b, UsableActual (resultOf s res) b → b.date < r.date) →
        ∃ a, UsableActual (resultOf s res) a ∧ r.y = a.y ∧ ∀ b, UsableActual (resultOf s res) b → b.date ≤ a.date) := by
  obtain ⟨df, h1, h2, -, -, hrun⟩ := numeric_source_run w args id t ht res h s hs
  have hf : runFreq df = none := by
    unfold runFreq
    rw [h1]
    rfl
  exact ⟨C129_shifted w args s df _ hrun (by rw [hf]; exact hcand) h1 h2 x0 hfirst r hr hact hm,
    fun hp ha => C129_future_partial w args s df _ hrun (by rw [hf]; exact hcand) h1 h2 x0 hfirst hp r hr hact hm ha⟩

/-! ### Concrete runs -/

/-- The naive forecast for six samples on a line, from position `k` on, for two more positions. -/
def naiveRun (k : Int) : Res (RunResult ℚ) :=
  runSingle demoWorld { demoArgs [modelNaive demoWorld.srt] (some []) with years := 1 / 50 } "s" (numericLine k)

/-- A table with two sources whose rows are mixed and not in order. -/
def mixedSources : STable ℚ := ⟨false, true, true, false, [⟨0, some "a", 2, some 5, none⟩, ⟨0, some "b", 4, some 7, none⟩, ⟨0, some "a", 0, some 1, none⟩,
  ⟨0, some "b", 3, none, none⟩, ⟨0, some "b", 2, some 3, none⟩, ⟨0, some "a", 1, some 3, none⟩]⟩

example : NumericSources mixedSources := by
  refine ⟨rfl, rfl, fun s _ => ?_⟩
  by_cases h1 : s = "a"
  · subst h1
    decide
  · by_cases h2 : s = "b"
    · subst h2
      decide
    · have : (only s mixedSources).rows = [] := by
        unfold only mixedSources
        simp [Ne.symm h1, Ne.symm h2]
      rw [this]
      exact List.nodup_nil

/-- The naive forecasts of both sources: "a" starts at 0, where all predictions are right; "b" starts at 2, where the predictions for 2 and 3 look ahead. -/
example : (match runForecast demoWorld { demoArgs [modelNaive demoWorld.srt] (some []) with years := 1 / 50 } "" mixedSources with
    | .ok (some res) => some ((((resultOf "a" res).data.filter fun r => !r.isActuals).map fun r => (r.date, r.y)),
        ((resultOf "b" res).data.filter fun r => !r.isActuals).map fun r => (r.date, r.y))
    | _ => none) = some ([(0, some 1), (1, some 1), (2, some 3), (3, some 5)], [(2, some 3), (3, some 7), (4, some 7), (5, some 7)]) := by
  decide +kernel

/-- From 0 on, every prediction is the observation before, and the first one has the value of the first observation. -/
example : (match naiveRun 0 with
    | .ok res => some (((res.data.filter fun r => !r.isActuals).map fun r => (r.date, r.y)))
    | .error _ => none) = some [(0, some 1), (1, some 1), (2, some 3), (3, some 5), (4, some 7), (5, some 9), (6, some 11)] := by
  decide +kernel

/-- **C129 refuted** by a run from 3 on: the prediction for position 3 is 11, the observation at position 5. The future is right. -/
theorem C129_counterexample : (match naiveRun 3 with
    | .ok res => some (((res.data.filter fun r => r.isActuals).map fun r => (r.date, r.y)), ((res.data.filter fun r => !r.isActuals).map fun r => (r.date, r.y)))
    | .error _ => none) =
      some ([(3, some 7), (4, some 9), (5, some 11), (6, some 13), (7, some 15), (8, some 17)],
        [(3, some 11), (4, some 13), (5, some 15), (6, some 17), (7, some 17), (8, some 17), (9, some 17)]) := by
  decide +kernel

/-- Negative positions: from -3 on, the prediction for the position after the last observation is an observation three positions too old. -/
theorem C129_negative : (match naiveRun (-3) with
    | .ok res => some (((res.data.filter fun r => r.isActuals).map fun r => (r.date, r.y)), ((res.data.filter fun r => !r.isActuals).map fun r => (r.date, r.y)))
    | .error _ => none) =
      some ([(-3, some (-5)), (-2, some (-3)), (-1, some (-1)), (0, some 1), (1, some 3), (2, some 5)],
        [(-3, some (-5)), (-2, some (-5)), (-1, some (-5)), (0, some (-5)), (1, some (-5)), (2, some (-3)), (3, some (-1))]) := by
  decide +kernel

end Anticipy
