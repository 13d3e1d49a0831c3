import Verif.Lemmas.Horizon
import Verif.Props.DailyRun
import Verif.Props.PointByPoint

/-
C83: a longer horizon only adds predictions.
-/
namespace Anticipy
open Spec

/-- The points at which a model is extrapolated. -/
def gridOf (hasDate : Bool) (start stop : Int) (freq : Option Freq) (years : ℚ) (x0 : Int) : Res (List (Int × Int)) :=
  if hasDate then sxExtrapolateDate start stop freq years x0 else .ok (sxExtrapolateNum start stop years x0)

theorem gridOf_extends (hasDate : Bool) (start stop : Int) (freq : Option Freq) (y y' : ℚ) (x0 : Int) (h0 : 0 < y) (hy : y ≤ y')
    (hst : hasDate = false ∨ freq = some .H ∨ freq = some .D ∨ todOf start = 0) (l l' : List (Int × Int)) (h : gridOf hasDate start stop freq y x0 = .ok l)
    (h' : gridOf hasDate start stop freq y' x0 = .ok l') :
    ∃ bnd tl, stop ≤ bnd ∧ l' = l ++ tl ∧ (∀ p ∈ l, p.1 ≤ bnd) ∧ ∀ p ∈ tl, bnd < p.1 := by
  unfold gridOf at h h'
  cases hasDate with
  | false =>
    cases h
    cases h'
    exact sxNum_extends start stop y y' x0 h0 hy
  | true =>
    rcases hst with e | hst
    · cases e
    · exact sxDate_extends start stop freq y y' x0 h0.le hy hst l l' h h'

section
variable {K : Type} [Field K] [LinearOrder K]

theorem extrapolate_eq (m : ForecastModel K) (params : List K) (hasDate : Bool) (start stop : Int) (freq : Option Freq) (years : ℚ) (x0 : Int)
    (actuals : Frame K) : extrapolate m params hasDate start stop freq years x0 actuals =
    (gridOf hasDate start stop freq years x0 >>= fun sx =>
      m.fModel { ax := scaleX m (sx.map Prod.snd), adate := if hasDate then some (sx.map Prod.fst) else none, actuals := some actuals } (some params) false >>=
        fun a => seriesOf (sx.map Prod.fst) a) := by
  cases hasDate <;> rfl

/-- On the points of the horizon, the values of a model are a function of the point. -/
def PointValues (m : ForecastModel K) (params : List K) (actuals : Frame K) (hasDate : Bool) (grid : List (Int × Int) → Prop) : Prop :=
  ∃ g : Int × Int → Option K, ∀ sx a, grid sx →
    m.fModel { ax := scaleX m (sx.map Prod.snd), adate := if hasDate then some (sx.map Prod.fst) else none, actuals := some actuals } (some params) false = .ok a →
    Shaped sx.length a ∧ ∀ i p, sx[i]? = some p → valueAt a i = g p

theorem forecastRows_extends (s : FitSetup K) (m : ForecastModel K) (f : FitResult K) (y' : ℚ) (rows rows' : List (DRow K)) (start x0 bnd : Int)
    (sx tl : List (Int × Int)) (h : forecastRows s m f = .ok rows) (h' : forecastRows { s with years := y' } m f = .ok rows')
    (h1 : listMin (axisOf s.used) = some start) (h2 : listMin (s.used.rows.map Row.x) = some x0)
    (g1 : gridOf s.used.hasDate start s.stop s.freq s.years x0 = .ok sx) (g2 : gridOf s.used.hasDate start s.stop s.freq y' x0 = .ok (sx ++ tl))
    (hb : ∀ p ∈ sx, p.1 ≤ bnd) (hb' : ∀ p ∈ tl, bnd < p.1)
    (hv : f.isFit = true → PointValues m f.params s.actuals s.used.hasDate fun g => g = sx ∨ g = sx ++ tl) :
    ∃ more, rows' = rows ++ more ∧ (∀ q ∈ rows, q.date ≤ bnd) ∧ ∀ q ∈ more, bnd < q.date := by
  unfold forecastRows at h h'
  dsimp only at h h'
  split_ifs at h h' with hf
  · rw [h1, h2] at h h'
    dsimp only at h h'
    rw [extrapolate_eq, g1] at h
    rw [extrapolate_eq, g2] at h'
    obtain ⟨g, hg⟩ := hv hf
    simp only [bind, Except.bind] at h h'
    cases e1 : m.fModel { ax := scaleX m (sx.map Prod.snd), adate := if s.used.hasDate then some (sx.map Prod.fst) else none, actuals := some s.actuals }
        (some f.params) false with
    | error e => rw [e1] at h; cases h
    | ok a =>
      cases e2 : m.fModel { ax := scaleX m ((sx ++ tl).map Prod.snd), adate := if s.used.hasDate then some ((sx ++ tl).map Prod.fst) else none, actuals := some s.actuals } (some f.params) false with
      | error e => rw [e2] at h'; cases h'
      | ok a' =>
        rw [e1] at h
        rw [e2] at h'
        dsimp only at h h'
        cases e3 : seriesOf (sx.map Prod.fst) a with
        | error e => rw [e3] at h; cases h
        | ok l =>
          cases e4 : seriesOf ((sx ++ tl).map Prod.fst) a' with
          | error e => rw [e4] at h'; cases h'
          | ok l' =>
            rw [e3] at h
            rw [e4] at h'
            cases h
            cases h'
            obtain ⟨r1, r2⟩ := series_extends g sx tl a a' l l' (hg sx a (.inl rfl) e1) (hg (sx ++ tl) a' (.inr rfl) e2) e3 e4
            have r3 : l' = l ++ tl.map fun p => (p.1, g p) := by rw [r1, r2, List.map_append]
            refine ⟨fcastClean (tl.map fun p => (p.1, g p)) s.source ⟨f.weights, s.freq, f.range⟩ m.name, ?_, ?_, ?_⟩
            · rw [r3]
              unfold fcastClean
              rw [List.filter_append, List.map_append]
            · intro q hq
              unfold fcastClean at hq
              obtain ⟨p, hp, rfl⟩ := List.mem_map.1 hq
              have hp := (List.mem_filter.1 hp).1
              rw [r1] at hp
              obtain ⟨p', hp', rfl⟩ := List.mem_map.1 hp
              exact hb p' hp'
            · intro q hq
              unfold fcastClean at hq
              obtain ⟨p, hp, rfl⟩ := List.mem_map.1 hq
              have hp := (List.mem_filter.1 hp).1
              obtain ⟨p', hp', rfl⟩ := List.mem_map.1 hp
              exact hb' p' hp'
  · cases h
    cases h'
    exact ⟨[], rfl, by simp, by simp⟩

/-- The loop over models with a longer horizon. -/
theorem fitLoop_extends (env : Nat → Env K) (s : FitSetup K) (y' : ℚ) (bnd : Int) (l : List (ForecastModel K)) (i : Nat)
    (out out' : List (MRow K) × List (DRow K)) (h : fitLoop env s i l = .ok out) (h' : fitLoop env { s with years := y' } i l = .ok out')
    (hrows : ∀ m ∈ l, ∀ j f rows rows', fitModel (env j) m s.used (some s.actuals) s.useCache = .ok f → forecastRows s m f = .ok rows →
      forecastRows { s with years := y' } m f = .ok rows' →
      ∃ more, rows' = rows ++ more ∧ (∀ q ∈ rows, q.date ≤ bnd) ∧ ∀ q ∈ more, bnd < q.date) :
    out'.1 = out.1 ∧ out.2.Sublist out'.2 ∧ (∀ q ∈ out.2, q.date ≤ bnd) ∧ ∀ q ∈ out'.2, q ∈ out.2 ∨ bnd < q.date := by
  induction l generalizing i out out' with
  | nil =>
    cases h
    cases h'
    exact ⟨rfl, List.Sublist.refl _, by simp, by simp⟩
  | cons m l ih =>
    unfold fitLoop at h h'
    simp only [bind, Except.bind] at h h'
    cases e1 : fitModel (env i) m s.used (some s.actuals) s.useCache with
    | error e => rw [e1] at h; cases h
    | ok f =>
      rw [e1] at h h'
      dsimp only at h h'
      cases e2 : forecastRows s m f with
      | error e => rw [e2] at h; cases h
      | ok rows =>
        cases e3 : forecastRows { s with years := y' } m f with
        | error e => rw [e3] at h'; cases h'
        | ok rows' =>
          rw [e2] at h
          rw [e3] at h'
          dsimp only at h h'
          cases e4 : fitLoop env s (i + 1) l with
          | error e => rw [e4] at h; cases h
          | ok r =>
            cases e5 : fitLoop env { s with years := y' } (i + 1) l with
            | error e => rw [e5] at h'; cases h'
            | ok r' =>
              rw [e4] at h
              rw [e5] at h'
              cases h
              cases h'
              obtain ⟨more, r1, r2, r3⟩ := hrows m (by simp) i f rows rows' e1 e2 e3
              obtain ⟨i1, i2, i3, i4⟩ := ih (i + 1) r r' e4 e5 (fun m' hm' => hrows m' (by simp [hm']))
              refine ⟨?_, ?_, ?_, ?_⟩
              · dsimp only
                rw [i1]
                rfl
              · dsimp only
                rw [r1, List.append_assoc]
                exact (List.Sublist.refl _).append (i2.trans (List.sublist_append_right _ _))
              · intro q hq
                rcases List.mem_append.1 hq with hq | hq
                · exact r2 q hq
                · exact i3 q hq
              · intro q hq
                rcases List.mem_append.1 hq with hq | hq
                · rw [r1] at hq
                  rcases List.mem_append.1 hq with hq | hq
                  · exact .inl (List.mem_append_left _ hq)
                  · exact .inr (r3 q hq)
                · rcases i4 q hq with hq | hq
                  · exact .inl (List.mem_append_right _ hq)
                  · exact .inr hq

end

section
variable {K : Type} [Field K] [LinearOrder K] [FloorRing K] [IsStrictOrderedRing K]

/-- A run with a longer horizon, for models whose values are a function of the points. -/
theorem horizon_core (w : World K) (args : RunArgs K) (source : String) (df : Frame K) (y' : ℚ) (res res' : RunResult K)
    (h : runSingle w args source df = .ok res) (h' : runSingle w { args with years := y' } source df = .ok res') (h0 : 0 < args.years) (hy : args.years ≤ y')
    (hclock : df.hasDate = false ∨ runFreq df = some .H ∨ runFreq df = some .D ∨ AtMidnight (df.rows.map Row.date))
    (hv : ∀ df2 cand actuals, applyOutliers args.findOutliers (filterStart args.start df) = .ok df2 →
      candidates w.ch args.models (defaultWeights df2).1 (runFreq df) = .ok cand → actualsInterpolated w.srt df (usedRows (defaultWeights df2).1) = .ok actuals →
      ∀ m ∈ cand.2, ∀ i f, fitModel (w.env source i) m (usedRows (defaultWeights df2).1) (some actuals) args.useCache = .ok f → f.isFit = true →
      ∀ start x0, listMin (axisOf (usedRows (defaultWeights df2).1)) = some start → listMin ((usedRows (defaultWeights df2).1).rows.map Row.x) = some x0 →
      PointValues m f.params actuals df.hasDate fun sx => ∃ y, gridOf df.hasDate start ((listMax (axisOf (defaultWeights df2).1)).getD 0) (runFreq df) y x0 = .ok sx) :
    OnlyAdds res res' := by
  obtain ⟨d, hd, hdata, hmeta, -⟩ := runSingle_inv w args source df res h
  obtain ⟨d', hd', hdata', hmeta', -⟩ := runSingle_inv w _ source df res' h'
  obtain ⟨df2, range, cand, actuals, fits, hOut, hRange, hCand, hAct, hFits, hNe, rfl⟩ := runFits_stages w args source df d hd
  obtain ⟨df2', range', cand', actuals', fits', hOut', hRange', hCand', hAct', hFits', hNe', rfl⟩ := runFits_stages w _ source df d' hd'
  dsimp only at hOut' hCand' hFits' hdata' hmeta'
  rw [hOut] at hOut'
  cases hOut'
  rw [hRange] at hRange'
  cases hRange'
  rw [hCand] at hCand'
  cases hCand'
  rw [hAct] at hAct'
  cases hAct'
  obtain ⟨u1, u2, u3, u4, u5⟩ := used_rows args.findOutliers args.start df df2 hOut
  -- all dates are samples of the series
  have key : ∃ bnd : Int, (∀ t ∈ axisOf (defaultWeights df2).1, t ≤ bnd) ∧ ∀ m ∈ cand.2, ∀ j f rows rows',
      fitModel (w.env source j) m (usedRows (defaultWeights df2).1) (some actuals) args.useCache = .ok f →
      forecastRows (mkSetup w args source df (defaultWeights df2).1 (defaultWeights df2).2 cand.1 actuals) m f = .ok rows →
      forecastRows { mkSetup w args source df (defaultWeights df2).1 (defaultWeights df2).2 cand.1 actuals with years := y' } m f = .ok rows' →
      ∃ more, rows' = rows ++ more ∧ (∀ q ∈ rows, q.date ≤ bnd) ∧ ∀ q ∈ more, bnd < q.date := by
    have hstop : ∀ t ∈ axisOf (defaultWeights df2).1, t ≤ (listMax (axisOf (defaultWeights df2).1)).getD 0 := by
      intro t ht
      cases hmx : listMax (axisOf (defaultWeights df2).1) with
      | none => rw [(listMax_none _).1 hmx] at ht; cases ht
      | some b => exact ((listMax_some _ _).1 hmx).2 t ht
    -- nothing is fitted: any bound will do
    by_cases hany : ∃ start x0 sx sx', listMin (axisOf (usedRows (defaultWeights df2).1)) = some start ∧
        listMin ((usedRows (defaultWeights df2).1).rows.map Row.x) = some x0 ∧
        gridOf df.hasDate start ((listMax (axisOf (defaultWeights df2).1)).getD 0) (runFreq df) args.years x0 = .ok sx ∧
        gridOf df.hasDate start ((listMax (axisOf (defaultWeights df2).1)).getD 0) (runFreq df) y' x0 = .ok sx'
    · obtain ⟨start, x0, sx, sx', k1, k2, k3, k4⟩ := hany
      have hst : df.hasDate = false ∨ runFreq df = some .H ∨ runFreq df = some .D ∨ todOf start = 0 := by
        by_cases hdt : df.hasDate = true
        · rcases hclock with c | c | c | c
          · exact .inl c
          · exact .inr (.inl c)
          · exact .inr (.inr (.inl c))
          · refine .inr (.inr (.inr ?_))
            unfold axisOf at k1
            rw [u1, hdt, if_pos rfl] at k1
            obtain ⟨r, hr, rfl⟩ := List.mem_map.1 ((listMin_some _ _).1 k1).1
            obtain ⟨q, hq, hqd, -⟩ := u5 r hr
            have := c q.date (List.mem_map.2 ⟨q, (List.mem_filter.1 hq).1, rfl⟩)
            rw [hqd]
            unfold todOf
            simpa [DAY, HOUR] using this
        · exact .inl (by simpa using hdt)
      obtain ⟨bnd, tl, b1, b2, b3, b4⟩ := gridOf_extends _ _ _ _ _ _ _ h0 hy hst _ _ k3 k4
      refine ⟨bnd, fun t ht => le_trans (hstop t ht) b1, ?_⟩
      intro m hm j f rows rows' e1 e2 e3
      rw [b2] at k4
      refine forecastRows_extends _ m f y' rows rows' start x0 bnd sx tl e2 e3 k1 k2 ?_ ?_ b3 b4 ?_
      · simp only [mkSetup]; rw [u1]; exact k3
      · simp only [mkSetup]; rw [u1]; exact k4
      · intro hf
        obtain ⟨g, hg⟩ := hv df2 cand actuals hOut hCand hAct m hm j f e1 hf start x0 k1 k2
        simp only [mkSetup]
        rw [u1]
        refine ⟨g, fun s a hs ha => hg s a ?_ ha⟩
        rcases hs with rfl | rfl
        · exact ⟨_, k3⟩
        · exact ⟨_, k4⟩
    · refine ⟨(listMax (axisOf (defaultWeights df2).1)).getD 0, hstop, ?_⟩
      intro m hm j f rows rows' e1 e2 e3
      by_cases hf : f.isFit = true
      · exfalso
        unfold forecastRows at e2 e3
        rw [if_pos hf] at e2 e3
        simp only [mkSetup] at e2 e3
        apply hany
        cases k1 : listMin (axisOf (usedRows (defaultWeights df2).1)) with
        | none => rw [k1] at e2; cases e2
        | some start =>
          cases k2 : listMin ((usedRows (defaultWeights df2).1).rows.map Row.x) with
          | none => rw [k1, k2] at e2; cases e2
          | some x0 =>
            rw [k1, k2] at e2 e3
            dsimp only at e2 e3
            rw [extrapolate_eq, u1] at e2 e3
            cases k3 : gridOf df.hasDate start ((listMax (axisOf (defaultWeights df2).1)).getD 0) (runFreq df) args.years x0 with
            | error e => rw [k3] at e2; cases e2
            | ok sx =>
              cases k4 : gridOf df.hasDate start ((listMax (axisOf (defaultWeights df2).1)).getD 0) (runFreq df) y' x0 with
              | error e => rw [k4] at e3; cases e3
              | ok sx' => exact ⟨start, x0, sx, sx', rfl, rfl, k3, k4⟩
      · unfold forecastRows at e2 e3
        rw [if_neg hf] at e2 e3
        cases e2
        cases e3
        exact ⟨[], rfl, by simp, by simp⟩
  obtain ⟨bnd, hbnd, hrows⟩ := key
  obtain ⟨f1, f2, f3, f4⟩ := fitLoop_extends (w.env source) (mkSetup w args source df (defaultWeights df2).1 (defaultWeights df2).2 cand.1 actuals) y' bnd
    cand.2 0 fits fits' hFits hFits' hrows
  -- the selection
  have hactd : ∀ q ∈ actualsClean (defaultWeights df2).1 source ⟨(defaultWeights df2).2, runFreq df, range⟩, q.date ≤ bnd := by
    intro q hq
    unfold actualsClean at hq
    obtain ⟨r, hr, rfl⟩ := List.mem_map.1 hq
    apply hbnd
    unfold axisOf
    dsimp only
    split_ifs
    · exact List.mem_map.2 ⟨r, hr, rfl⟩
    · exact List.mem_map.2 ⟨r, hr, rfl⟩
  have hsub : (actualsClean (defaultWeights df2).1 source ⟨(defaultWeights df2).2, runFreq df, range⟩ ++ fits.2).Sublist
      (actualsClean (defaultWeights df2).1 source ⟨(defaultWeights df2).2, runFreq df, range⟩ ++ fits'.2) := (List.Sublist.refl _).append f2
  have hdate : ∀ q ∈ res.data, q.date ≤ bnd := by
    intro q hq
    rw [hdata] at hq
    have hq : q ∈ (actualsClean (defaultWeights df2).1 source ⟨(defaultWeights df2).2, runFreq df, range⟩ ++ fits.2).map (flagData (bestKey w.srt fits.1)) := by
      unfold selectFits at hq
      split_ifs at hq
      · exact hq
      · exact (List.mem_filter.1 hq).1
    obtain ⟨q0, hq0, rfl⟩ := List.mem_map.1 hq
    rcases List.mem_append.1 hq0 with hq0 | hq0
    · exact hactd q0 hq0
    · exact f3 q0 hq0
  refine ⟨?_, ?_, ?_⟩
  · rw [hmeta', hmeta]
    unfold selectFits
    split_ifs
    · dsimp only; rw [f1]
    · dsimp only; rw [f1]
  · rw [hdata', hdata]
    unfold selectFits
    split_ifs
    · dsimp only; rw [f1]; exact hsub.map _
    · dsimp only; rw [f1]; exact (hsub.map _).filter _
  · intro r hr
    have hr1 : ∃ q ∈ (actualsClean (defaultWeights df2).1 source ⟨(defaultWeights df2).2, runFreq df, range⟩ ++ fits'.2),
        flagData (bestKey w.srt fits.1) q = r ∧ (args.includeAll = true ∨ (r.isBest || r.isActuals) = true) := by
      rw [hdata'] at hr
      unfold selectFits at hr
      dsimp only at hr
      rw [f1] at hr
      split_ifs at hr with hi
      · obtain ⟨q, hq, e⟩ := List.mem_map.1 hr
        exact ⟨q, hq, e, .inl hi⟩
      · obtain ⟨a, b⟩ := List.mem_filter.1 hr
        obtain ⟨q, hq, e⟩ := List.mem_map.1 a
        exact ⟨q, hq, e, .inr b⟩
    obtain ⟨q, hq, rfl, hsel⟩ := hr1
    have hin : q ∈ actualsClean (defaultWeights df2).1 source ⟨(defaultWeights df2).2, runFreq df, range⟩ ++ fits.2 → flagData (bestKey w.srt fits.1) q ∈ res.data := by
      intro hq
      rw [hdata]
      unfold selectFits
      split_ifs with hi
      · exact List.mem_map.2 ⟨q, hq, rfl⟩
      · rcases hsel with e | e
        · exact absurd e hi
        · exact List.mem_filter.2 ⟨List.mem_map.2 ⟨q, hq, rfl⟩, e⟩
    rcases List.mem_append.1 hq with hq | hq
    · exact .inl (hin (List.mem_append_left _ hq))
    · rcases f4 q hq with hq' | hlt
      · exact .inl (hin (List.mem_append_right _ hq'))
      · right
        obtain ⟨k, m', f, rows, -, -, e3, e4⟩ := (fitLoop_spec _ _ _ _ _ hFits').2.2 q hq
        refine ⟨(forecastRows_mem _ _ _ _ e3 q e4).1, fun p hp _ => ?_⟩
        have := hdate p hp
        change p.date < q.date
        omega

/-- Values of a model that works point by point. -/
theorem pointValues_of (m : ForecastModel K) (hasDate : Bool) (hm : PointByPoint hasDate m) (params : List K) (actuals : Frame K) (grid : List (Int × Int) → Prop) :
    PointValues m params actuals hasDate grid := by
  obtain ⟨g, hg⟩ := hm params false
  have hsc : ∃ c : Int → K, ∀ xs, scaleX m xs = xs.map c := by
    unfold scaleX
    split_ifs
    · exact ⟨_, fun _ => rfl⟩
    · exact ⟨_, fun _ => rfl⟩
  obtain ⟨c, hc⟩ := hsc
  refine ⟨fun p => g (c p.2) p.1, ?_⟩
  intro sx a _ ha
  rw [hc] at ha
  obtain ⟨h1, h2⟩ := hg _ (sx.map Prod.fst) _ a (by simp) ha
  refine ⟨by simpa using h1, ?_⟩
  intro i p hp
  exact h2 i _ _ (by rw [List.getElem?_map, List.getElem?_map, hp]; rfl) (by rw [List.getElem?_map, hp]; rfl)

/-! ### Naive models on daily series -/

omit [FloorRing K] in
/-- With two non-null observations, the naive model has a value everywhere. -/
theorem naive_two (srt : SortAlg) (ctx : Ctx K) (df : Frame K) (p : Params K) (mult : Bool)
    (hc : ctx.hasCache = false) (ha : ctx.actuals = some df) (hcons : Consistent ctx df)
    (hax : ctx.ax.Pairwise (· < ·)) (hrows : (df.rows.map Row.x).Nodup)
    (htwo : ∃ r ∈ df.rows, ∃ r' ∈ df.rows, r.y ≠ none ∧ r'.y ≠ none ∧ r.x < r'.x) :
    ∃ out, (modelNaive srt).fModel ctx p mult = .ok (.vec out) ∧ out.length = ctx.ax.length ∧
      ∀ (i : Nat) (x : K), ctx.ax[i]? = some x →
        (∀ v, LastBefore df.rows x v → out[i]? = some (some v)) ∧
        ((¬ ∃ v, LastBefore df.rows x v) → ∃ v, FirstValue df.rows v ∧ out[i]? = some (some v)) := by
  obtain ⟨out, h1, h2, h3⟩ := C37_naive srt ctx df p mult hc ha hcons hax hrows
  obtain ⟨qs, hq, hqx, hd, hj⟩ := queries_ok ctx df hcons
  obtain ⟨S, hS, hmem, hev⟩ := naive_eval srt ctx df p mult qs hq hc ha hd hax hqx hrows hj
  refine ⟨out, h1, h2, fun i x hx => ⟨(h3 i x hx).1, fun hno => ?_⟩⟩
  rcases (h3 i x hx).2 hno with hn | hv
  · exfalso
    rw [hev] at h1
    have h1 := Except.ok.inj h1
    injection h1 with h1
    rw [← h1, List.getElem?_map, hx] at hn
    simp only [Option.map_some, Option.some.injEq] at hn
    have hfill : firstFill (S.map XY.y) = none := by
      cases hl : lastBelow XY.x XY.y S x with
      | none => rw [hl] at hn; exact hn
      | some v => rw [hl] at hn; cases hn
    rw [firstFill_eq, ← List.map_dropLast, List.filterMap_map, List.head?_eq_none_iff, List.filterMap_eq_nil_iff] at hfill
    obtain ⟨r, hr, r', hr', hy, hy', hlt⟩ := htwo
    have hrS : (⟨(r.x : K), r.y⟩ : XY K) ∈ S := (hmem _).2 (.inl ⟨r, hr, rfl⟩)
    have hrS' : (⟨(r'.x : K), r'.y⟩ : XY K) ∈ S := (hmem _).2 (.inl ⟨r', hr', rfl⟩)
    have hne : S ≠ [] := List.ne_nil_of_mem hrS
    have hin : (⟨(r.x : K), r.y⟩ : XY K) ∈ S.dropLast := by
      rw [← List.dropLast_append_getLast hne] at hrS hrS' hS
      rw [List.mem_append] at hrS hrS'
      rcases hrS with h | h
      · exact h
      · rw [List.mem_singleton] at h
        have hcast : (r.x : K) < (r'.x : K) := Int.cast_lt.2 hlt
        rcases hrS' with h' | h'
        · have := (List.pairwise_append.1 hS).2.2 _ h' _ (List.mem_singleton.2 rfl)
          rw [← h] at this
          exact absurd this (not_lt.2 hcast.le)
        · rw [List.mem_singleton, ← h] at h'
          have := congrArg XY.x h'
          exact absurd this hcast.ne'
    exact hy (hfill _ hin)
  · exact hv

omit [Field K] [LinearOrder K] [FloorRing K] [IsStrictOrderedRing K] in
theorem firstValue_unique (rows : List (Row K)) (h : (rows.map Row.x).Nodup) (v v' : K) (h1 : FirstValue rows v) (h2 : FirstValue rows v') : v = v' := by
  obtain ⟨r, hr, hy, hm⟩ := h1
  obtain ⟨r', hr', hy', hm'⟩ := h2
  have e : r.x = r'.x := le_antisymm (hm r' hr' (by rw [hy']; simp)) (hm' r hr (by rw [hy]; simp))
  have : r = r' := List.inj_on_of_nodup_map h hr hr' e
  rw [this, hy'] at hy
  exact (Option.some.inj hy).symm

/-- The points of a horizon of a daily series. -/
theorem daily_grid (t0 x0 start stop : Int) (y : ℚ) (sx : List (Int × Int)) (hs : start = t0 + x0 * (24 * 60 * 60 * 1000000000))
    (h : gridOf true start stop (some .D) y x0 = .ok sx) :
    (∀ p ∈ sx, p.1 = t0 + p.2 * (24 * 60 * 60 * 1000000000) ∧ x0 ≤ p.2) ∧ sx.Pairwise fun a b => a.2 < b.2 := by
  simp only [gridOf, if_true, sxExtrapolateDate, addHorizon, bind, Except.bind] at h
  have h := Except.ok.inj h
  generalize stop + ⌊y * unitsPerYear .D * (DAY : ℚ)⌋ = e at h
  have hm : ∀ t ∈ dateRange start e .D, t = t0 + ((t - start) / DAY + x0) * (24 * 60 * 60 * 1000000000) ∧ x0 ≤ (t - start) / DAY + x0 := by
    intro t ht
    obtain ⟨g1, -, g2⟩ := (mem_dateRange .D trivial _ _ _ (.inr (.inl rfl))).1 ht
    simp only [OnGrid, dayNs, DAY, HOUR] at g2 ⊢
    omega
  rw [← h]
  constructor
  · intro p hp
    obtain ⟨t, ht, rfl⟩ := List.mem_map.1 hp
    exact hm t ht
  · rw [List.pairwise_map]
    have := dateRange_sorted start e .D
    rw [List.pairwise_iff_forall_sublist] at this ⊢
    intro a b hab
    have h2 := this hab
    have ha := (hm a (hab.subset (by simp))).1
    have hb := (hm b (hab.subset (by simp))).1
    dsimp only
    omega

omit [FloorRing K] in
theorem pointValues_naive (srt : SortAlg) (t0 : Int) (used : List (Row K)) (act : Frame K) (hact : DailyActuals t0 used act)
    (htwo : ∃ r ∈ act.rows, ∃ r' ∈ act.rows, r.y ≠ none ∧ r'.y ≠ none ∧ r.x < r'.x) (params : List K) (start stop x0 : Int)
    (hs : start = t0 + x0 * (24 * 60 * 60 * 1000000000)) :
    PointValues (modelNaive srt) params act true fun sx => ∃ y, gridOf true start stop (some .D) y x0 = .ok sx := by
  classical
  refine ⟨fun p => if h : ∃ v, LastBefore act.rows (p.2 : K) v then some h.choose else if h : ∃ v, FirstValue act.rows v then some h.choose else none, ?_⟩
  rintro sx a ⟨y, hgrid⟩ ha
  obtain ⟨g1, g2⟩ := daily_grid t0 x0 start stop y sx hs hgrid
  have hsc : scaleX (modelNaive srt : ForecastModel K) (sx.map Prod.snd) = sx.map fun p => (p.2 : K) := by
    unfold scaleX
    rw [if_neg (by simp [modelNaive, mkModel]), List.map_map]
    rfl
  rw [hsc, if_pos rfl] at ha
  have hnd : (act.rows.map Row.x).Nodup := (List.pairwise_map.2 hact.sorted).imp fun h => ne_of_lt h
  obtain ⟨out, ho, hlen, hval⟩ := naive_two srt { ax := sx.map fun p => (p.2 : K), adate := some (sx.map Prod.fst), actuals := some act } act (some params) false rfl rfl
    (by
      refine ⟨by intro ds hds; cases hds; simp, ?_⟩
      intro _
      refine ⟨sx.map Prod.fst, rfl, ?_⟩
      intro i x d hx hd q hq hqx
      rw [List.getElem?_map] at hx hd
      cases hp : sx[i]? with
      | none => rw [hp] at hx; cases hx
      | some p =>
        rw [hp] at hx hd
        cases hx
        cases hd
        have hq2 : q.x = p.2 := Int.cast_injective (α := K) hqx
        have h1 := (g1 p (List.mem_of_getElem? hp)).1
        have h2 := hact.days q hq
        rw [h2, hq2]
        exact h1.symm)
    (by rw [List.pairwise_map]; exact g2.imp fun h => Int.cast_lt.2 h) hnd htwo
  rw [ho] at ha
  cases ha
  refine ⟨by simpa [Shaped] using hlen, ?_⟩
  intro i p hp
  obtain ⟨k1, k2⟩ := hval i (p.2 : K) (by rw [List.getElem?_map, hp]; rfl)
  dsimp only
  split_ifs with c1 c2
  · simp only [valueAt, k1 _ c1.choose_spec, Option.join_some]
  · obtain ⟨v, hv, hov⟩ := k2 c1
    simp only [valueAt, hov, Option.join_some]
    rw [firstValue_unique _ hnd _ _ hv c2.choose_spec]
  · obtain ⟨v, hv, -⟩ := k2 c1
    exact absurd ⟨v, hv⟩ c2

omit [FloorRing K] in
theorem pointValues_snaive (srt : SortAlg) (t0 : Int) (used : List (Row K)) (act : Frame K) (hact : DailyActuals t0 used act)
    (params : List K) (start stop x0 : Int) (hs : start = t0 + x0 * (24 * 60 * 60 * 1000000000)) (hx0 : ∃ u ∈ used, u.x = x0) :
    PointValues (modelSnaiveWday srt) params act true fun sx => ∃ y, gridOf true start stop (some .D) y x0 = .ok sx := by
  refine ⟨fun p => snaiveValue act.rows ((p.2 : K), p.1), ?_⟩
  rintro sx a ⟨y, hgrid⟩ ha
  obtain ⟨g1, g2⟩ := daily_grid t0 x0 start stop y sx hs hgrid
  have hsc : scaleX (modelSnaiveWday srt : ForecastModel K) (sx.map Prod.snd) = sx.map fun p => (p.2 : K) := by
    unfold scaleX
    rw [if_neg (by simp [modelSnaiveWday, mkModel]), List.map_map]
    rfl
  rw [hsc, if_pos rfl] at ha
  have hzip : (sx.map fun p => (p.2 : K)).zip (sx.map Prod.fst) = sx.map fun p => ((p.2 : K), p.1) := by
    rw [List.zip_map']
  rw [snaive_eval srt { ax := sx.map fun p => (p.2 : K), adate := some (sx.map Prod.fst), actuals := some act } act (sx.map Prod.fst) (some params) false rfl rfl
    hact.dated rfl (by simp) (by rw [List.pairwise_map]; exact g2.imp fun h => Int.cast_lt.2 h) hact.sorted (by
      intro e he
      rw [hzip] at he
      obtain ⟨p, hp, rfl⟩ := List.mem_map.1 he
      obtain ⟨h1, h2⟩ := g1 p hp
      by_cases hfut : ∀ q ∈ act.rows, q.x < p.2
      · right
        intro q hq
        have h3 := hfut q hq
        have h4 := hact.days q hq
        refine ⟨Int.cast_lt.2 h3, ?_⟩
        intro h5
        dsimp only at h5
        omega
      · left
        push Not at hfut
        obtain ⟨q, hq, h3⟩ := hfut
        obtain ⟨u, hu, h4⟩ := hx0
        obtain ⟨a, ha, h5, -⟩ := hact.all u hu
        obtain ⟨q', hq', h6⟩ := hact.contiguous a ha q hq _ (by omega) h3
        have h7 := hact.days q' hq'
        refine ⟨q', hq', by rw [h6], ?_⟩
        dsimp only
        rw [h7, h6]
        exact h1.symm)] at ha
  rw [hzip, List.map_map] at ha
  cases ha
  refine ⟨by simp [Shaped], ?_⟩
  intro i p hp
  simp [valueAt, hp]

/-! ### C83 -/

/-- **C83.** A run with a longer (positive) horizon has the same fits and all rows of values of the run with the shorter one, and otherwise only predictions that
are later than all of these - for series without dates, hourly and daily series, and series whose dates are at midnight, with models whose value at a sample
depends on that sample only. Missing: weekly series with a time of day, see the counterexample; the spike model, whose values depend on the number of samples. -/
theorem C83_horizon_partial (w : World K) (args : RunArgs K) (source : String) (df : Frame K) (y' : ℚ) (res res' : RunResult K)
    (h : runSingle w args source df = .ok res) (h' : runSingle w { args with years := y' } source df = .ok res') (h0 : 0 < args.years) (hy : args.years ≤ y')
    (hclock : df.hasDate = false ∨ runFreq df = some .H ∨ runFreq df = some .D ∨ AtMidnight (df.rows.map Row.date))
    (hcand : ∀ df' cand, candidates w.ch args.models df' (runFreq df) = .ok cand → ∀ m ∈ cand.2, PointByPoint df.hasDate m) :
    OnlyAdds res res' := by
  refine horizon_core w args source df y' res res' h h' h0 hy hclock ?_
  intro df2 cand actuals _ hc _ m hm i f _ _ start x0 _ _
  exact pointValues_of m df.hasDate (hcand _ _ hc m hm) f.params actuals _

omit [FloorRing K] [IsStrictOrderedRing K] in
/-- A model that was fitted had at least two samples. -/
theorem fitted_two (env : Env K) (m : ForecastModel K) (df : Frame K) (actuals : Option (Frame K)) (c : Bool) (f : FitResult K)
    (h : fitModel env m df actuals c = .ok f) (hf : f.isFit = true) : 2 ≤ (usableRows df).length := by
  by_contra hlt
  by_cases h0 : usableRows df = []
  · rw [C30_no_samples env m df actuals c h0] at h
    cases h
  · obtain ⟨r, hr, -, hfit, -⟩ := C30_too_short env m df actuals c (List.length_pos_iff.2 h0) (by omega)
    rw [hr] at h
    cases h
    rw [hfit] at hf
    cases hf

/-- **C83** for daily series, naive models included. -/
theorem C83_daily_partial (w : World K) (args : RunArgs K) (source : String) (df : Frame K) (t0 : Timestamp) (hdaily : DailySeries df t0) (y' : ℚ)
    (res res' : RunResult K) (h : runSingle w args source df = .ok res) (h' : runSingle w { args with years := y' } source df = .ok res')
    (h0 : 0 < args.years) (hy : args.years ≤ y')
    (hcand : ∀ df' cand, candidates w.ch args.models df' (some .D) = .ok cand → ∀ m ∈ cand.2,
      m = modelNaive w.srt ∨ m = modelSnaiveWday w.srt ∨ PointByPoint true m) :
    OnlyAdds res res' := by
  have hfreq : runFreq df = some .D := by unfold runFreq; rw [hdaily.dated, if_pos rfl, daily_freq hdaily]
  refine horizon_core w args source df y' res res' h h' h0 hy (.inr (.inr (.inl hfreq))) ?_
  intro df2 cand actuals hOut hc hAct m hm i f hfit hf start x0 h1 h2
  obtain ⟨u1, u2, u3, u4, u5⟩ := used_rows args.findOutliers args.start df df2 hOut
  have hpart := used_part hdaily args.findOutliers args.start df2 hOut
  obtain ⟨act, hact1, hact2⟩ := daily_actuals w.srt hdaily _ hpart
  rw [hAct] at hact1
  cases hact1
  have hdd : ∀ q ∈ (usedRows (defaultWeights df2).1).rows, q.date = t0 + q.x * (24 * 60 * 60 * 1000000000) := by
    intro q hq
    obtain ⟨q', h1, h2, h3, -⟩ := hpart.part q hq
    rw [h2, h3]
    exact hdaily.days q' h1
  obtain ⟨m2, l2⟩ := (listMin_some _ _).1 h2
  obtain ⟨q2, n2, rfl⟩ := List.mem_map.1 m2
  have hstart : start = t0 + q2.x * (24 * 60 * 60 * 1000000000) := by
    unfold axisOf at h1
    rw [u1, hdaily.dated, if_pos rfl] at h1
    obtain ⟨m1, l1⟩ := (listMin_some _ _).1 h1
    obtain ⟨q1, n1, rfl⟩ := List.mem_map.1 m1
    have a1 := l1 _ (List.mem_map.2 ⟨q2, n2, rfl⟩)
    have a2 := l2 _ (List.mem_map.2 ⟨q1, n1, rfl⟩)
    have b1 := hdd q1 n1
    have b2 := hdd q2 n2
    omega
  rw [hfreq] at hc ⊢
  rw [hdaily.dated]
  rcases hcand _ _ hc m hm with rfl | rfl | hm
  · refine pointValues_naive w.srt t0 _ actuals hact2 ?_ f.params start _ q2.x hstart
    have hlen := fitted_two _ _ _ _ _ _ hfit hf
    have hsub : (usableRows (usedRows (defaultWeights df2).1)).Pairwise fun a b => a.x ≠ b.x := by
      unfold usableRows
      exact (List.pairwise_map.1 hpart.nodup).filter _
    rcases hu : usableRows (usedRows (defaultWeights df2).1) with _ | ⟨a, _ | ⟨b, l⟩⟩
    · rw [hu] at hlen; simp at hlen
    · rw [hu] at hlen; simp at hlen
    · rw [hu] at hsub
      have hin : ∀ q ∈ usableRows (usedRows (defaultWeights df2).1), q ∈ (usedRows (defaultWeights df2).1).rows ∧ q.y ≠ none := by
        intro q hq
        obtain ⟨c1, c2⟩ := List.mem_filter.1 hq
        obtain ⟨v, hv⟩ := (of_decide_eq_true c2).1
        exact ⟨c1, by rw [hv]; simp⟩
      obtain ⟨ha, hay⟩ := hin a (by rw [hu]; simp)
      obtain ⟨hb, hby⟩ := hin b (by rw [hu]; simp)
      obtain ⟨a', ha', e1, e2⟩ := hact2.all a ha
      obtain ⟨b', hb', e3, e4⟩ := hact2.all b hb
      rcases lt_or_gt_of_ne ((List.pairwise_cons.1 hsub).1 b (by simp)) with hlt | hlt
      · exact ⟨a', ha', b', hb', by rw [e2]; exact hay, by rw [e4]; exact hby, by rw [e1, e3]; exact hlt⟩
      · exact ⟨b', hb', a', ha', by rw [e4]; exact hby, by rw [e2]; exact hay, by rw [e1, e3]; exact hlt⟩
  · exact pointValues_snaive w.srt t0 _ actuals hact2 f.params start _ q2.x hstart ⟨q2, n2, rfl⟩
  · exact pointValues_of m true hm f.params actuals _

/-- **C83** for a whole run on a daily table. -/
theorem C83_table_partial (w : World K) (args : RunArgs K) (id : String) (t : STable K) (ht : DailyTable t) (y' : ℚ) (res res' : RunResult K)
    (h : runForecast w args id t = .ok (some res)) (h' : runForecast w { args with years := y' } id t = .ok (some res')) (h0 : 0 < args.years) (hy : args.years ≤ y')
    (hcand : ∀ df' cand, candidates w.ch args.models df' (some .D) = .ok cand → ∀ m ∈ cand.2,
      m = modelNaive w.srt ∨ m = modelSnaiveWday w.srt ∨ PointByPoint true m) :
    OnlyAdds res res' := by
  obtain ⟨df, t0, hdaily, hrun, -⟩ := daily_table_all w id t ht
  rw [hrun] at h h'
  have key : ∀ (a : RunArgs K) (r : RunResult K), (runSingle w a id df).map some = .ok (some r) → runSingle w a id df = .ok r := by
    intro a r hr
    cases hs : runSingle w a id df with
    | error e => rw [hs] at hr; cases hr
    | ok q => rw [hs] at hr; cases hr; rfl
  exact C83_daily_partial w args id df t0 hdaily y' res res' (key _ _ h) (key _ _ h') h0 hy hcand

/-- **C83** for a table with several daily series: for each of them. -/
theorem C83_sources_partial (w : World K) (args : RunArgs K) (id : String) (t : STable K) (hs : t.hasSource = true) (hone : OnePerDate t)
    (hl : ∀ r ∈ t.rows, r.source ≠ none) (y' : ℚ) (res res' : RunResult K)
    (h : runForecast w args id t = .ok (some res)) (h' : runForecast w { args with years := y' } id t = .ok (some res')) (h0 : 0 < args.years) (hy : args.years ≤ y')
    (hcand : ∀ df' cand, candidates w.ch args.models df' (some .D) = .ok cand → ∀ m ∈ cand.2,
      m = modelNaive w.srt ∨ m = modelSnaiveWday w.srt ∨ PointByPoint true m)
    (s : String) (hd : ∃ r ∈ (only s t).rows, ∃ r' ∈ (only s t).rows, r'.date = r.date + 24 * 60 * 60 * 1000000000) :
    OnlyAdds (resultOf s res) (resultOf s res') := by
  obtain ⟨df, t0, hdaily, hrun, -⟩ := daily_source_all w id t hs hone hl s hd
  have hm : ∃ r ∈ t.rows, r.source = some s := by
    obtain ⟨r, hr, -⟩ := hd
    obtain ⟨h1, h2⟩ := List.mem_filter.1 hr
    exact ⟨r, h1, of_decide_eq_true h2⟩
  have h := C47_independent w args id t hs res h s hm
  have h' := C47_independent w _ id t hs res' h' s hm
  rw [hrun] at h h'
  have key : ∀ (a : RunArgs K) (r : RunResult K), (runSingle w a s df).map some = .ok (some r) → runSingle w a s df = .ok r := by
    intro a r hr
    cases hs : runSingle w a s df with
    | error e => rw [hs] at hr; cases hr
    | ok q => rw [hs] at hr; cases hr; rfl
  exact C83_daily_partial w args s df t0 hdaily y' _ _ (key _ _ h) (key _ _ h') h0 hy hcand

end

theorem default_points (w : World ℝ) (testEnv : Env ℝ) (hw : DefaultChoices w testEnv) (args : RunArgs ℝ)
    (hargs : args.models.trend = none ∧ args.models.season = none ∧ args.models.yearly = none ∧ args.models.weekly = none ∧ args.models.naive = none ∧ args.models.calendar = none)
    (df : Frame ℝ) (cand : AddMult × List (ForecastModel ℝ)) (h : candidates w.ch args.models df (some .D) = .ok cand) :
    ∀ m ∈ cand.2, m = modelNaive w.srt ∨ m = modelSnaiveWday w.srt ∨ PointByPoint true m := by
  obtain ⟨a1, a2, a3, a4, a5, a6⟩ := hargs
  refine candidates_closed (PointByPoint true) _ (fun m hm => .inr (.inr hm)) (pointByPoint_null true) ⟨(pointByPoint_linear true).1, pointByPoint_ramp true⟩
    (fun mult a b => pointByPoint_compose mult true a b) w.ch hw.sets args.models (by rw [a1]; simp) (by rw [a2]; simp) ?_ ?_ (by rw [a6]; simp) df _ ?_ cand h
  · rw [a3, hw.yearly]
    intro m hm
    simp only [offered, List.mem_cons, List.not_mem_nil, or_false] at hm
    rcases hm with rfl | rfl
    · exact pointByPoint_fourier
    · exact pointByPoint_null true
  · rw [a4, hw.weekly]
    intro m hm
    simp only [offered, List.mem_cons, List.not_mem_nil, or_false] at hm
    rcases hm with rfl | rfl
    · exact pointByPoint_season.1
    · exact pointByPoint_null true
  · rw [a5, Option.getD_none, if_pos rfl, hw.seasonalNaive]
    intro m hm
    rw [List.mem_singleton] at hm
    subst hm
    exact .inr (.inl rfl)

/-- **C83** for the models that are used by default. -/
theorem C83_default_partial (w : World ℝ) (testEnv : Env ℝ) (hw : DefaultChoices w testEnv) (args : RunArgs ℝ)
    (hargs : args.models.trend = none ∧ args.models.season = none ∧ args.models.yearly = none ∧ args.models.weekly = none ∧ args.models.naive = none ∧ args.models.calendar = none)
    (id : String) (t : STable ℝ) (ht : DailyTable t) (y' : ℚ) (res res' : RunResult ℝ)
    (h : runForecast w args id t = .ok (some res)) (h' : runForecast w { args with years := y' } id t = .ok (some res')) (h0 : 0 < args.years) (hy : args.years ≤ y') :
    OnlyAdds res res' :=
  C83_table_partial w args id t ht y' res res' h h' h0 hy fun df cand hc => default_points w testEnv hw args hargs df cand hc

/-! ### Concrete cases -/

/-- The rows of values of a run, with days counted from the first. -/
def dayRows (r : RunResult ℚ) : List (String × Bool × Int × Option ℚ) := r.data.map fun q => (q.model, q.isActuals, q.date / DAY, q.y)

/-- Three days and five days ahead. -/
example : ((runSingle demoWorld (demoArgs [modelLinear] (some [modelNaive stableSort])) "s" demoFrame).toOption.map fun r => (dayRows r).filter fun q => 5 ≤ q.2.2.1) =
    some [("actuals", true, 5, some 11), ("linear", false, 5, some 11), ("linear", false, 6, some 13), ("linear", false, 7, some 15), ("linear", false, 8, some 17),
      ("naive", false, 5, some 9), ("naive", false, 6, some 11), ("naive", false, 7, some 11), ("naive", false, 8, some 11)] := by decide +kernel

example : ((runSingle demoWorld { demoArgs [modelLinear] (some [modelNaive stableSort]) with years := 5 / 365 } "s" demoFrame).toOption.map fun r =>
    (dayRows r).filter fun q => 5 ≤ q.2.2.1) =
    some [("actuals", true, 5, some 11), ("linear", false, 5, some 11), ("linear", false, 6, some 13), ("linear", false, 7, some 15), ("linear", false, 8, some 17),
      ("linear", false, 9, some 19), ("linear", false, 10, some 21),
      ("naive", false, 5, some 9), ("naive", false, 6, some 11), ("naive", false, 7, some 11), ("naive", false, 8, some 11), ("naive", false, 9, some 11),
      ("naive", false, 10, some 11)] := by decide +kernel

/-- The hypotheses of `C83_daily_partial` in this case. -/
example (res res' : RunResult ℚ) (h : runSingle totalWorld (demoArgs [modelLinear] (some [modelNaive stableSort])) "s" demoFrame = .ok res)
    (h' : runSingle totalWorld { demoArgs [modelLinear] (some [modelNaive stableSort]) with years := 5 / 365 } "s" demoFrame = .ok res') : OnlyAdds res res' := by
  refine C83_daily_partial totalWorld _ "s" demoFrame 0 demo_daily (5 / 365) res res' h h' (by norm_num [demoArgs]) (by norm_num [demoArgs]) ?_
  intro df cand hc
  refine candidates_closed (PointByPoint true) _ (fun m hm => .inr (.inr hm)) (pointByPoint_null true) ⟨(pointByPoint_linear true).1, pointByPoint_ramp true⟩
    (fun mult a b => pointByPoint_compose mult true a b) totalWorld.ch (fun _ => List.Perm.refl _) _ ?_ ?_ ?_ ?_ ?_ df _ ?_ cand hc
  · intro t ht
    cases ht
    simp [(pointByPoint_linear true).1]
  · intro s hs
    cases hs
    simp
  · intro m hm
    have : m = modelNull := by simpa [offered, demoArgs, totalWorld, demoWorld] using hm
    subst this
    exact pointByPoint_null true
  · intro m hm
    have : m = modelNull := by simpa [offered, demoArgs, totalWorld, demoWorld] using hm
    subst this
    exact pointByPoint_null true
  · intro c hc
    cases hc
  · intro m hm
    left
    simpa [demoArgs, totalWorld, demoWorld] using hm

/-- Six Sundays, 18:00. -/
def demoEvening : Frame ℚ := ⟨true, false, [⟨4 * DAY - 6 * HOUR, 0, some 0, none⟩, ⟨11 * DAY - 6 * HOUR, 1, some 1, none⟩, ⟨18 * DAY - 6 * HOUR, 2, some 4, none⟩,
  ⟨25 * DAY - 6 * HOUR, 3, some 9, none⟩, ⟨32 * DAY - 6 * HOUR, 4, some 16, none⟩, ⟨39 * DAY - 6 * HOUR, 5, some 25, none⟩]⟩

/-- **C83 refuted for weekly series with a time of day**: with a slightly longer horizon the last predicted week is gone, since the end of the horizon is taken
back to a Sunday with the time of day of the end. -/
theorem C83_counterexample : ∃ res res' : RunResult ℚ, runSingle demoWorld { demoArgs [modelLinear] (some []) with years := 99 / 1000 } "s" demoEvening = .ok res ∧
    runSingle demoWorld { demoArgs [modelLinear] (some []) with years := 100 / 1000 } "s" demoEvening = .ok res' ∧ runFreq demoEvening = some (.W 6) ∧
    (res.data.filter fun q => !q.isActuals).length = 11 ∧ (res'.data.filter fun q => !q.isActuals).length = 10 ∧ ¬ OnlyAdds res res' := by
  have h1 : (runSingle demoWorld { demoArgs [modelLinear] (some []) with years := 99 / 1000 } "s" demoEvening).toOption.map
    (fun r => (r.data.filter fun q => !q.isActuals).length) = some 11 := by decide +kernel
  have h2 : (runSingle demoWorld { demoArgs [modelLinear] (some []) with years := 100 / 1000 } "s" demoEvening).toOption.map
    (fun r => (r.data.filter fun q => !q.isActuals).length) = some 10 := by decide +kernel
  cases e1 : runSingle demoWorld { demoArgs [modelLinear] (some []) with years := 99 / 1000 } "s" demoEvening with
  | error e => rw [e1] at h1; cases h1
  | ok res =>
    cases e2 : runSingle demoWorld { demoArgs [modelLinear] (some []) with years := 100 / 1000 } "s" demoEvening with
    | error e => rw [e2] at h2; cases h2
    | ok res' =>
      rw [e1] at h1
      rw [e2] at h2
      have h1 : (res.data.filter fun q => !q.isActuals).length = 11 := Option.some.inj h1
      have h2 : (res'.data.filter fun q => !q.isActuals).length = 10 := Option.some.inj h2
      refine ⟨res, res', rfl, rfl, by decide +kernel, h1, h2, ?_⟩
      intro hadds
      have := (hadds.kept.filter fun q => !q.isActuals).length_le
      rw [h1, h2] at this
      omega

end Anticipy
