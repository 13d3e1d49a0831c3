import Verif.Props.Recovery

/-
C56: the forecast rows of a fitted model are exactly its values at the reported parameters.
-/
namespace Anticipy
open Spec
variable {K : Type} [Field K] [LinearOrder K]

/-- Without outlier removal all samples with positive weight are used. -/
theorem used_all [FloorRing K] [IsStrictOrderedRing K] (start : Option Timestamp) (df df2 : Frame K)
    (h : applyOutliers false (filterStart start df) = .ok df2) (q : Row K) (hq : q ∈ kept start df) (v : K) (hv : givenWeight df q = some v) (hp : 0 < v) :
    ∃ r ∈ (usedRows (defaultWeights df2).1).rows, r.date = q.date ∧ r.x = q.x := by
  obtain ⟨spike, -, -, h3, e⟩ := weights_stage false _ df2 h
  rw [filterStart_rows] at e h3
  rw [h3 rfl] at e
  rw [e]
  obtain ⟨i, hi, rfl⟩ := List.mem_iff_getElem.1 hq
  refine ⟨{ (kept start df)[i] with weight := some v }, ?_, rfl, rfl⟩
  unfold usedRows weighted
  dsimp only
  refine List.mem_filter.2 ⟨List.mem_iff_getElem.2 ⟨i, by simpa using hi, ?_⟩, by simpa using hp⟩
  rw [List.getElem_zipWith]
  have : givenWeight { df with rows := kept start df } (kept start df)[i] = some v := hv
  simp [this]

/-- **C56.** If no candidate has pinned parameters, then for every fitted model in the metadata the forecast rows under its name are the values of
this candidate, evaluated at the reported parameters by `extrapolate_model` from the first sample used to the horizon beyond the last sample. Every value
that is defined occurs in the table, and, if the names of the candidates are distinct, no other forecast row carries the name. The candidate list is
that of the run. -/
theorem C56_values_partial [FloorRing K] [IsStrictOrderedRing K] (w : World K) (args : RunArgs K) (source : String) (df : Frame K) (res : RunResult K)
    (h : runSingle w args source df = .ok res)
    (hu : ∀ df' cand, candidates w.ch args.models df' (runFreq df) = .ok cand → ∀ m ∈ cand.2, Unpinned m) (b : MRow K)
    (hb : b ∈ res.metadata) (hfit : b.isFit = true) :
    ∃ (df' : Frame K) (cand : AddMult × List (ForecastModel K)) (m : ForecastModel K) (start stop x0 : Int) (actuals : Frame K) (l : List (Int × Option K)),
      candidates w.ch args.models df' (runFreq df) = .ok cand ∧ m ∈ cand.2 ∧ m.name = b.model ∧
      (∃ q ∈ kept args.start df, position df q = start ∧ ∃ v, givenWeight df q = some v ∧ 0 < v) ∧
      (args.findOutliers = false → ∀ q ∈ kept args.start df, ∀ v, givenWeight df q = some v → 0 < v → start ≤ position df q ∧ x0 ≤ q.x) ∧
      (∃ q ∈ kept args.start df, position df q = stop) ∧ (∀ q ∈ kept args.start df, position df q ≤ stop) ∧
      (∃ q ∈ kept args.start df, q.x = x0 ∧ ∃ v, givenWeight df q = some v ∧ 0 < v) ∧
      extrapolate m b.params df.hasDate start stop (runFreq df) args.years x0 actuals = .ok l ∧
      (∀ t v, (t, some v) ∈ l → ∃ r ∈ res.data, r.isActuals = false ∧ r.model = b.model ∧ r.long = b.long ∧ r.date = t ∧ r.y = some v ∧
        r.isBest = b.isBest) ∧
      ((cand.2.map ForecastModel.name).Nodup → ∀ r ∈ res.data, r.isActuals = false → r.model = b.model → (r.date, r.y) ∈ l) := by
  obtain ⟨d, hd, hdata, hmeta, -⟩ := runSingle_inv w args source df res h
  obtain ⟨st⟩ := runFits_stages w args source df d hd
  have hd1 : d.1 = _ := congrArg Prod.fst st.hd
  have hd2 : d.2 = _ := congrArg Prod.snd st.hd
  have hb' : b ∈ d.2 ∧ (args.includeAll = true ∨ b.isBest = true) := by
    rw [hmeta] at hb
    unfold selectFits at hb
    split_ifs at hb with c
    · exact ⟨hb, .inl c⟩
    · exact ⟨(List.mem_filter.1 hb).1, .inr (List.mem_filter.1 hb).2⟩
  have hin : ∀ r ∈ d.1, r.isBest = b.isBest → r ∈ res.data := by
    intro r hr he
    rw [hdata]
    unfold selectFits
    split_ifs with c
    · exact hr
    · have := hb'.2.resolve_left c
      exact List.mem_filter.2 ⟨hr, by rw [he, this]; rfl⟩
  have hout : ∀ r ∈ res.data, r ∈ d.1 := by
    intro r hr
    rw [hdata] at hr
    unfold selectFits at hr
    split_ifs at hr with c
    · exact hr
    · exact (List.mem_filter.1 hr).1
  obtain ⟨hb, -⟩ := hb'
  rw [hd2] at hb
  obtain ⟨b0, hb0, rfl⟩ := List.mem_map.1 hb
  obtain ⟨hl, ha, hrev⟩ := fitLoop_spec _ _ _ _ _ st.hFits
  obtain ⟨k, hk⟩ := List.getElem?_of_mem hb0
  have hlt : k < st.cand.2.length := by
    rw [← hl]
    exact (List.getElem?_eq_some_iff.1 hk).1
  obtain ⟨f, rows, e1, e2, e3, e4⟩ := ha k _ (List.getElem?_eq_getElem hlt)
  rw [hk] at e3
  cases e3
  have hmem : st.cand.2[k] ∈ st.cand.2 := List.getElem_mem hlt
  have hkm : st.cand.2[k]? = some st.cand.2[k] := List.getElem?_eq_getElem hlt
  generalize st.cand.2[k] = m at e1 e2 hb hb0 hk hfit hmem hkm hin
  have hum : Unpinned m := hu _ _ st.hCand _ hmem
  have hname := fit_unpinned _ _ _ _ _ _ hum e1
  obtain ⟨u1, u2, u3, u4, u5⟩ := used_rows args.findOutliers args.start df st.df2 st.hOut
  have hff : f.isFit = true := hfit
  have e2' := e2
  unfold forecastRows at e2'
  rw [if_pos hff] at e2'
  have hdw : (defaultWeights st.df2).1.hasDate = df.hasDate := by
    rw [← u1]
    rfl
  have hpos : ∀ g : Frame K, g.hasDate = df.hasDate → axisOf g = g.rows.map (position df) := by
    intro g hg
    unfold axisOf position
    rw [hg]
    split_ifs <;> rfl
  have hpos2 : axisOf (defaultWeights st.df2).1 = (kept args.start df).map (position df) := by
    unfold axisOf position
    rw [hdw, u3, u4]
    split_ifs <;> rfl
  cases h1 : listMin (axisOf (usedRows (defaultWeights st.df2).1)) with
  | none => simp only [mkSetup, h1] at e2'; cases e2'
  | some start =>
    cases h2 : listMin ((usedRows (defaultWeights st.df2).1).rows.map Row.x) with
    | none => simp only [mkSetup, h1, h2] at e2'; cases e2'
    | some x0 =>
      simp only [mkSetup, h1, h2, bind, Except.bind] at e2'
      cases h3 : extrapolate m f.params (usedRows (defaultWeights st.df2).1).hasDate start ((listMax (axisOf (defaultWeights st.df2).1)).getD 0)
          (runFreq df) args.years x0 st.actuals with
      | error e => rw [h3] at e2'; cases e2'
      | ok l =>
        rw [h3] at e2'
        have e2' := Except.ok.inj e2'
        rw [hpos _ u1, listMin_some] at h1
        rw [listMin_some] at h2
        obtain ⟨q1, hq1, rfl⟩ := List.mem_map.1 h1.1
        obtain ⟨q2, hq2, rfl⟩ := List.mem_map.1 h2.1
        obtain ⟨k1, hk1, a1, a2, -, a3⟩ := u5 q1 hq1
        obtain ⟨k2, hk2, b1, b2, -, b3⟩ := u5 q2 hq2
        have hp1 : position df k1 = position df q1 := by unfold position; rw [a1, a2]
        obtain ⟨stop, hstop⟩ : ∃ stop, listMax (axisOf (defaultWeights st.df2).1) = some stop := by
          cases hm : listMax (axisOf (defaultWeights st.df2).1) with
          | some v => exact ⟨v, rfl⟩
          | none =>
            rw [listMax_none, hpos2, List.map_eq_nil_iff] at hm
            rw [hm] at hk1
            cases hk1
        rw [hstop, Option.getD_some] at h3
        rw [hpos2, listMax_some] at hstop
        obtain ⟨q3, hq3, rfl⟩ := List.mem_map.1 hstop.1
        refine ⟨_, st.cand, m, position df q1, position df q3, q2.x, st.actuals, l, st.hCand, hmem, hname.symm, ⟨k1, hk1, hp1, a3⟩, ?_, ⟨q3, hq3, rfl⟩,
          fun q hq => hstop.2 _ (List.mem_map_of_mem hq), ⟨k2, hk2, b2.symm, b3⟩, by rw [← u1]; exact h3, ?_, ?_⟩
        · intro hno q hq v hv hp
          have hO := st.hOut
          rw [hno] at hO
          obtain ⟨r, hr, r1, r2⟩ := used_all args.start df st.df2 hO q hq v hv hp
          have i1 := h1.2 _ (List.mem_map_of_mem (f := position df) hr)
          have i2 := h2.2 _ (List.mem_map_of_mem (f := Row.x) hr)
          have : position df r = position df q := by unfold position; rw [r1, r2]
          exact ⟨this ▸ i1, r2 ▸ i2⟩
        · intro t v htv
          have hrow : (⟨t, source, ⟨f.weights, runFreq df, f.range⟩, m.name, false, some v, some 1, false⟩ : DRow K) ∈ rows := by
            rw [← e2']
            unfold fcastClean
            exact List.mem_map.2 ⟨(t, some v), List.mem_filter.2 ⟨htv, rfl⟩, rfl⟩
          have hbest : (flagData (bestKey w.srt st.fits.1) (⟨t, source, ⟨f.weights, runFreq df, f.range⟩, m.name, false, some v, some 1, false⟩ : DRow K)).isBest =
              (flagMeta (bestKey w.srt st.fits.1) (metaRow (mkSetup w args source df (defaultWeights st.df2).1 (defaultWeights st.df2).2 st.cand.1 st.actuals) m f)).isBest := by
            show decide (bestKey w.srt st.fits.1 = some (_, m.name)) = decide (bestKey w.srt st.fits.1 = some (_, f.modelName))
            rw [hname]
            rfl
          refine ⟨flagData (bestKey w.srt st.fits.1) (⟨t, source, ⟨f.weights, runFreq df, f.range⟩, m.name, false, some v, some 1, false⟩ : DRow K),
            hin _ ?_ hbest, rfl, hname.symm, rfl, rfl, rfl, hbest⟩
          rw [hd1]
          exact List.mem_map.2 ⟨_, List.mem_append_right _ (e4 _ hrow), rfl⟩
        · intro hnd r hr hact hmod
          have hr := hout r hr
          rw [hd1] at hr
          obtain ⟨r0, hr0, rfl⟩ := List.mem_map.1 hr
          rcases List.mem_append.1 hr0 with hr0 | hr0
          · exfalso
            unfold actualsClean at hr0
            obtain ⟨q, -, rfl⟩ := List.mem_map.1 hr0
            cases hact
          · obtain ⟨k', m', f', rows', c1, c2, c3, c4⟩ := hrev r0 hr0
            have hm' := (forecastRows_mem _ _ _ _ c3 r0 c4).2.2.2.1
            have hkk : k' = k := by
              refine (List.getElem?_inj (l := st.cand.2.map ForecastModel.name) ?_ hnd).1 ?_
              · rw [List.length_map]
                exact (List.getElem?_eq_some_iff.1 c1).1
              · rw [List.getElem?_map, List.getElem?_map, c1, hkm]
                simp only [Option.map_some, Option.some.injEq]
                rw [← hm']
                exact hmod.trans hname
            subst hkk
            rw [hkm] at c1
            cases c1
            rw [e1] at c2
            cases c2
            rw [e2] at c3
            cases c3
            rw [← e2'] at c4
            unfold fcastClean at c4
            obtain ⟨p, hp, rfl⟩ := List.mem_map.1 c4
            exact (List.mem_filter.1 hp).1

/-- Names of the candidates of the demonstration are distinct. -/
example : (candidates demoWorld.ch (demoArgs [modelLinear] none).models demoFrame (some .D)).toOption.map (fun c => c.2.map ForecastModel.name) =
    some ["linear", "snaive_wday"] := by decide +kernel

end Anticipy
