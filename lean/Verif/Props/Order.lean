import Verif.Spec.Order
import Verif.Props.EachSeries
import Verif.Props.Horizon
import Verif.Props.Pattern
import Verif.Props.RunExamples

/-
C108: the rows of the result tables are in order.
-/
namespace Anticipy
open Spec
variable {K : Type} [Field K] [LinearOrder K]

/-! ### The grid of dates -/

theorem arange_sorted (a : Int) (b : ℚ) : (arange a b).Pairwise (· < ·) := by
  unfold arange
  rw [List.pairwise_map]
  exact (List.pairwise_lt_range).imp fun h => by omega

theorem zip_fst_sorted {α β : Type} (R : α → α → Prop) (l : List α) (l' : List β) (h : l.Pairwise R) :
    (List.zip l l').Pairwise fun p q => R p.1 q.1 := by
  induction l generalizing l' with
  | nil => simp
  | cons a l ih =>
    cases l' with
    | nil => simp
    | cons b l' =>
      rw [List.pairwise_cons] at h
      rw [List.zip_cons_cons, List.pairwise_cons]
      exact ⟨fun p hp => h.1 p.1 (List.of_mem_zip (a := p.1) (b := p.2) hp).1, ih l' h.2⟩

theorem grid_sorted (hasDate : Bool) (start stop : Int) (freq : Option Freq) (years : ℚ) (x0 : Int) (l : List (Int × Int))
    (h : gridOf hasDate start stop freq years x0 = .ok l) : l.Pairwise fun p q => p.1 < q.1 := by
  unfold gridOf at h
  cases hasDate with
  | false =>
    rw [if_neg (by simp)] at h
    cases h
    exact zip_fst_sorted (· < ·) _ _ (arange_sorted _ _)
  | true =>
    rw [if_pos rfl] at h
    have key : ∀ (g : Res Freq) (l : List (Int × Int)), (g >>= fun f => addHorizon f years stop >>= fun e =>
        (.ok ((dateRange start e f).map fun t => (t, (t - start) / DAY + x0)) : Res _)) = .ok l → l.Pairwise fun p q => p.1 < q.1 := by
      intro g l h
      cases g with
      | error e => cases h
      | ok f =>
        change (addHorizon f years stop >>= _) = _ at h
        cases h1 : addHorizon f years stop with
        | error e => rw [h1] at h; cases h
        | ok e =>
          rw [h1] at h
          cases h
          rw [List.pairwise_map]
          exact dateRange_sorted _ _ _
    unfold sxExtrapolateDate at h
    dsimp only at h
    split at h
    · exact key (.ok _) l h
    · rename_i wd
      cases h1 : pyAssert (decide (weekday start = wd)) with
      | error e => rw [h1] at h; cases h
      | ok u =>
        rw [h1] at h
        exact key (.ok (.W wd)) l h
    · exact key (.ok _) l h

omit [Field K] [LinearOrder K] in
theorem seriesOf_sorted (index : List Int) (a : Arr K) (l : List (Int × Option K)) (hi : index.Pairwise (· < ·)) (h : seriesOf index a = .ok l) :
    l.Pairwise fun p q => p.1 < q.1 := by
  cases a with
  | scalar v =>
    cases h
    rw [List.pairwise_map]
    exact hi
  | vec v =>
    unfold seriesOf at h
    dsimp only at h
    split_ifs at h with c
    cases h
    exact zip_fst_sorted (· < ·) _ _ hi

theorem extrapolate_sorted (m : ForecastModel K) (params : List K) (hasDate : Bool) (start stop : Int) (freq : Option Freq) (years : ℚ) (x0 : Int)
    (actuals : Frame K) (l : List (Int × Option K)) (h : extrapolate m params hasDate start stop freq years x0 actuals = .ok l) :
    l.Pairwise fun p q => p.1 < q.1 := by
  rw [extrapolate_eq] at h
  cases h1 : gridOf hasDate start stop freq years x0 with
  | error e => rw [h1] at h; cases h
  | ok sx =>
    rw [h1] at h
    simp only [bind, Except.bind] at h
    split at h
    · cases h
    · refine seriesOf_sorted _ _ l ?_ h
      rw [List.pairwise_map]
      exact grid_sorted _ _ _ _ _ _ _ h1

/-- Rows of one fit: in order of time, one name, one long source. -/
structure FitBlock (name : String) (long : SourceLong K) (rows : List (DRow K)) : Prop where
  same : ∀ r ∈ rows, r.isActuals = false ∧ r.model = name ∧ r.long = long
  sorted : rows.Pairwise fun a b => a.date < b.date

theorem forecastRows_block (s : FitSetup K) (m : ForecastModel K) (f : FitResult K) (rows : List (DRow K)) (h : forecastRows s m f = .ok rows) :
    FitBlock m.name ⟨f.weights, s.freq, f.range⟩ rows := by
  unfold forecastRows at h
  split_ifs at h with c
  · split at h
    · simp only [bind, Except.bind] at h
      split at h
      · cases h
      · rename_i l hl
        cases h
        unfold fcastClean
        refine ⟨?_, ?_⟩
        · intro r hr
          obtain ⟨p, -, rfl⟩ := List.mem_map.1 hr
          exact ⟨rfl, rfl, rfl⟩
        · rw [List.pairwise_map]
          exact (extrapolate_sorted _ _ _ _ _ _ _ _ _ _ hl).filter _
    · cases h
  · cases h
    exact ⟨by simp, by simp⟩

theorem fitLoop_blocks (env : Nat → Env K) (s : FitSetup K) (i : Nat) (l : List (ForecastModel K)) (out : List (MRow K) × List (DRow K))
    (h : fitLoop env s i l = .ok out) :
    ∃ blocks : List (List (DRow K)), out.2 = blocks.flatten ∧ ∀ b ∈ blocks, ∃ name long, FitBlock name long b := by
  induction l generalizing i out with
  | nil =>
    unfold fitLoop at h
    cases h
    exact ⟨[], rfl, by simp⟩
  | cons m l ih =>
    unfold fitLoop at h
    simp only [bind, Except.bind] at h
    cases h1 : fitModel (env i) m s.used (some s.actuals) s.useCache with
    | error e => rw [h1] at h; cases h
    | ok f =>
      rw [h1] at h
      dsimp only at h
      cases h2 : forecastRows s m f with
      | error e => rw [h2] at h; cases h
      | ok d =>
        rw [h2] at h
        dsimp only at h
        cases h3 : fitLoop env s (i + 1) l with
        | error e => rw [h3] at h; cases h
        | ok r =>
          rw [h3] at h
          cases h
          obtain ⟨bs, hb, hall⟩ := ih _ _ h3
          refine ⟨d :: bs, by simp [hb], ?_⟩
          intro b hb'
          rcases List.mem_cons.1 hb' with rfl | hb'
          · exact ⟨_, _, forecastRows_block s m f _ h2⟩
          · exact hall b hb'

/-- Blocks that are left when rows of other models are removed: a block is either kept or dropped. -/
theorem blocks_select (key : Option (SourceLong K × String)) (blocks : List (List (DRow K))) (hall : ∀ b ∈ blocks, ∃ name long, FitBlock name long b)
    (p : DRow K → Bool) (hp : p = (fun _ => true) ∨ p = fun r => r.isBest || r.isActuals) :
    ∃ names bs, (blocks.flatten.map (flagData key)).filter p = bs.flatten ∧
      List.Forall₂ ModelBlock names bs ∧ ∀ b ∈ bs, ∃ v, (∀ r ∈ b, r.isBest = v) ∧ (v = true → ∃ k, key = some k ∧ ∀ r ∈ b, r.model = k.2) := by
  induction blocks with
  | nil => exact ⟨[], [], by simp, .nil, by simp⟩
  | cons b blocks ih =>
    obtain ⟨names, bs, he, hf, hk⟩ := ih fun b hb => hall b (List.mem_cons_of_mem _ hb)
    obtain ⟨name, long, hb⟩ := hall b List.mem_cons_self
    rw [List.flatten_cons, List.map_append, List.filter_append, he]
    have hrows : ∀ r ∈ b.map (flagData key), r.isActuals = false ∧ r.model = name ∧ r.isBest = decide (key = some (long, name)) := by
      intro r hr
      obtain ⟨q, hq, rfl⟩ := List.mem_map.1 hr
      obtain ⟨h1, h2, h3⟩ := hb.same q hq
      refine ⟨h1, h2, ?_⟩
      unfold flagData
      dsimp only
      rw [h2, h3]
    have hfil : (b.map (flagData key)).filter p = b.map (flagData key) ∨ (b.map (flagData key)).filter p = [] := by
      rcases hp with rfl | rfl
      · left
        simp
      · by_cases c : key = some (long, name)
        · left
          rw [List.filter_eq_self]
          intro r hr
          rw [(hrows r hr).2.2, decide_eq_true c]
          rfl
        · right
          rw [List.filter_eq_nil_iff]
          intro r hr
          rw [(hrows r hr).2.2, (hrows r hr).1, decide_eq_false c]
          decide
    rcases hfil with hfil | hfil
    · rw [hfil]
      by_cases c : b = []
      · subst c
        exact ⟨names, bs, by simp, hf, hk⟩
      · refine ⟨name :: names, b.map (flagData key) :: bs, by simp, .cons ⟨by simpa using c, fun r hr => ⟨(hrows r hr).1, (hrows r hr).2.1⟩, ?_⟩ hf, ?_⟩
        · unfold InTime
          rw [List.pairwise_map]
          exact hb.sorted
        · intro b' hb'
          rcases List.mem_cons.1 hb' with rfl | hb'
          · refine ⟨_, fun r hr => (hrows r hr).2.2, fun hv => ⟨(long, name), of_decide_eq_true hv, fun r hr => (hrows r hr).2.1⟩⟩
          · exact hk b' hb'
    · rw [hfil]
      exact ⟨names, bs, by simp, hf, hk⟩

/-- Predictions of the chosen model when no name occurs twice. -/
theorem best_in_time (key : Option (SourceLong K × String)) (names : List String) (bs : List (List (DRow K))) (hf : List.Forall₂ ModelBlock names bs)
    (hn : names.Nodup) (hk : ∀ b ∈ bs, ∃ v, (∀ r ∈ b, r.isBest = v) ∧ (v = true → ∃ k, key = some k ∧ ∀ r ∈ b, r.model = k.2)) :
    InTime (bs.flatten.filter fun r => r.isBest) := by
  induction hf with
  | nil => exact .nil
  | @cons name b names bs hb hf ih =>
    rw [List.nodup_cons] at hn
    have ih' := ih hn.2 fun b hb => hk b (List.mem_cons_of_mem _ hb)
    obtain ⟨v, hv, hbest⟩ := hk b List.mem_cons_self
    rw [List.flatten_cons, List.filter_append]
    cases v with
    | false =>
      rw [List.filter_eq_nil_iff.2 fun r hr => by rw [hv r hr]; decide]
      exact ih'
    | true =>
      obtain ⟨k, hk1, hk2⟩ := hbest rfl
      obtain ⟨r0, hr0⟩ := List.exists_mem_of_ne_nil _ hb.some_rows
      have hname : name = k.2 := by rw [← (hb.one_model r0 hr0).2, hk2 r0 hr0]
      have hrest : bs.flatten.filter (fun r => r.isBest) = [] := by
        rw [List.filter_eq_nil_iff]
        intro r hr hbest
        obtain ⟨b', hb', hr'⟩ := List.mem_flatten.1 hr
        obtain ⟨v', hv', h2⟩ := hk b' (List.mem_cons_of_mem _ hb')
        have : v' = true := (hv' r hr').symm.trans hbest
        obtain ⟨k', e1, e2⟩ := h2 this
        rw [hk1] at e1
        cases e1
        obtain ⟨i, hi, rfl⟩ := List.mem_iff_getElem.1 hb'
        have hl := hf.length_eq
        have hm := (List.forall₂_iff_get.1 hf).2 i (by omega) hi
        apply hn.1
        rw [hname, ← e2 r hr', (hm.one_model r hr').2]
        exact List.getElem_mem _
      rw [hrest, List.append_nil]
      exact hb.in_time.filter _

/-! ### One series -/

theorem data_listing [FloorRing K] (w : World K) (args : RunArgs K) (source : String) (df : Frame K) (res : RunResult K)
    (h : runSingle w args source df = .ok res) :
    ∃ obs names blocks, Listing res.data obs names blocks ∧ (names.Nodup → InTime (blocks.flatten.filter fun r => r.isBest)) := by
  obtain ⟨d, hd, hdata, -, -⟩ := runSingle_inv w args source df res h
  obtain ⟨st⟩ := runFits_stages w args source df d hd
  obtain ⟨blocks, hb, hall⟩ := fitLoop_blocks _ _ _ _ _ st.hFits
  have hd1 : d.1 = _ := congrArg Prod.fst st.hd
  have hsel : ∃ p : DRow K → Bool, (p = (fun _ => true) ∨ p = fun r => r.isBest || r.isActuals) ∧ res.data = d.1.filter p := by
    rw [hdata]
    unfold selectFits
    split_ifs with c
    · exact ⟨fun _ => true, .inl rfl, by simp⟩
    · exact ⟨_, .inr rfl, rfl⟩
  obtain ⟨p, hp, hsel⟩ := hsel
  obtain ⟨names, bs, he, hf, hk⟩ := blocks_select (bestKey w.srt st.fits.1) blocks hall p hp
  refine ⟨(actualsClean (defaultWeights st.df2).1 source ⟨(defaultWeights st.df2).2, runFreq df, st.range⟩).map (flagData (bestKey w.srt st.fits.1)), names, bs,
    ⟨?_, ?_, hf⟩, fun hn => best_in_time _ names bs hf hn hk⟩
  · rw [hsel, hd1, List.map_append, List.filter_append, hb, he]
    congr 1
    rw [List.filter_eq_self]
    intro r hr
    obtain ⟨q, hq, rfl⟩ := List.mem_map.1 hr
    unfold actualsClean at hq
    obtain ⟨q', -, rfl⟩ := List.mem_map.1 hq
    rcases hp with rfl | rfl
    · rfl
    · simp [flagData]
  · intro r hr
    obtain ⟨q, hq, rfl⟩ := List.mem_map.1 hr
    unfold actualsClean at hq
    obtain ⟨q', -, rfl⟩ := List.mem_map.1 hq
    rfl

/-- **C108.** The table `data` of a series lists the observations first, then the predictions model by model, each model in order of time; the observations come in the order of the
series. -/
theorem C108_data [FloorRing K] [IsStrictOrderedRing K] (w : World K) (args : RunArgs K) (source : String) (df : Frame K) (res : RunResult K)
    (h : runSingle w args source df = .ok res) :
    ∃ obs names blocks, Listing res.data obs names blocks ∧ obs.map DRow.date = (kept args.start df).map (position df) := by
  obtain ⟨obs, names, blocks, hl, -⟩ := data_listing w args source df res h
  refine ⟨obs, names, blocks, hl, ?_⟩
  have h1 := congrArg (List.map Prod.fst) (C48_actuals w args source df res h)
  rw [List.map_map, List.map_map] at h1
  have h2 : res.data.filter DRow.isActuals = obs := by
    rw [hl.parts, List.filter_append, List.filter_eq_self.2 hl.observed, List.filter_eq_nil_iff.2, List.append_nil]
    intro r hr
    obtain ⟨b, hb, hr'⟩ := List.mem_flatten.1 hr
    obtain ⟨i, hi, rfl⟩ := List.mem_iff_getElem.1 hb
    have hm := (List.forall₂_iff_get.1 hl.models).2 i (by have := hl.models.length_eq; omega) hi
    rw [(hm.one_model r hr').1]
    decide
  rw [h2] at h1
  exact h1

theorem listing_predictions (data obs : List (DRow K)) (names : List String) (blocks : List (List (DRow K))) (hl : Listing data obs names blocks) (p : DRow K → Bool) :
    data.filter (fun r => !r.isActuals && p r) = blocks.flatten.filter p := by
  rw [hl.parts, List.filter_append, List.filter_eq_nil_iff.2 (fun r hr => by rw [hl.observed r hr]; simp), List.nil_append]
  apply List.filter_congr
  intro r hr
  obtain ⟨b, hb, hr'⟩ := List.mem_flatten.1 hr
  obtain ⟨i, hi, rfl⟩ := List.mem_iff_getElem.1 hb
  have hm := (List.forall₂_iff_get.1 hl.models).2 i (by have := hl.models.length_eq; omega) hi
  rw [(hm.one_model r hr').1]
  simp

theorem quant_dates [FloorRing K] (q1 q2 : K) (s : List (List K)) (rows : List (FRow K)) : (rows.mapIdx (quantRow q1 q2 s)).map PRow.date = rows.map FRow.date := by
  apply List.ext_getElem
  · simp
  · intro i h1 h2
    simp [quantRow]

/-- **C108.** The table `forecast` of a series lists the observations first, in the same order as `data` (without those that are null), then the predictions of the chosen model; if no two of the models listed in
`data` share a name, the predictions are in order of time. -/
theorem C108_forecast [FloorRing K] [IsStrictOrderedRing K] (w : World K) (args : RunArgs K) (source : String) (df : Frame K) (res : RunResult K)
    (h : runSingle w args source df = .ok res) :
    ∃ obs preds, res.forecast = obs ++ preds ∧ (∀ r ∈ obs, r.isActuals = true) ∧ (∀ r ∈ preds, r.isActuals = false) ∧
      obs.map (fun r => (r.date, r.y)) = ((res.data.filter DRow.isActuals).filter fun r => r.y.isSome).map (fun r => (r.date, r.y)) ∧
      ∃ o names blocks, Listing res.data o names blocks ∧ (names.Nodup → preds.Pairwise fun a b => a.date < b.date) := by
  obtain ⟨d, hd, -, -, hpi⟩ := runSingle_inv w args source df res h
  obtain ⟨o, names, blocks, hl, hbest⟩ := data_listing w args source df res h
  rw [getPi_one_source _ _ _ source (run_sources w args source df res h).1] at hpi
  set t := toFTable df.hasDate res.data with ht
  have hobs : (res.forecast.filter PRow.isActuals).map (fun r => (r.date, r.y)) =
      ((res.data.filter DRow.isActuals).filter fun r => r.y.isSome).map fun r => (r.date, r.y) := by
    have e := congrArg (List.filter fun p : Timestamp × Option K => p.2.isSome) (C48_actuals w args source df res h)
    rw [List.filter_map, List.filter_map] at e
    exact (C48_forecast_rows w args source df res h).1.trans e.symm
  have hact : ∀ obs preds : List (PRow K), res.forecast = obs ++ preds → (∀ r ∈ obs, r.isActuals = true) → (∀ r ∈ preds, r.isActuals = false) →
      obs.map (fun r => (r.date, r.y)) = ((res.data.filter DRow.isActuals).filter fun r => r.y.isSome).map fun r => (r.date, r.y) := by
    intro obs preds he h1 h2
    rw [← hobs, he, List.filter_append, List.filter_eq_self.2 h1, List.filter_eq_nil_iff.2 (fun r hr => by rw [h2 r hr]; decide), List.append_nil]
  have hobs' : ∀ r ∈ (actualsUnfiltered (selectRows t)).map actualOut, r.isActuals = true := by
    intro r hr
    obtain ⟨q, -, rfl⟩ := List.mem_map.1 hr
    rfl
  rcases piSingle_inv _ t _ _ _ _ _ hpi with ⟨he, -⟩ | ⟨hq, ⟨p⟩⟩
  · have h0 : res.forecast = (actualsUnfiltered (selectRows t)).map actualOut ++ [] := by rw [he, List.append_nil]
    exact ⟨_, [], h0, hobs', by simp, hact _ _ h0 hobs' (by simp), o, names, blocks, hl, by simp⟩
  · obtain ⟨fs, ps, -, -, ho⟩ := piSingle_parts (w.draw source 0) t 100 (args.nCum.getD (daysFromFreq args.widening)) args.q1 args.q2 hq p
    rw [hpi] at ho
    have hpred : ∀ r ∈ p.past.mapIdx (quantRow args.q1 args.q2 ps) ++ p.future.mapIdx (quantRow args.q1 args.q2 fs), r.isActuals = false := by
      intro r hr
      rcases List.mem_append.1 hr with hr | hr <;>
        (rw [List.mem_mapIdx] at hr; obtain ⟨j, hj, rfl⟩ := hr; rfl)
    have h0 : res.forecast = (actualsUnfiltered (selectRows t)).map actualOut ++ (p.past.mapIdx (quantRow args.q1 args.q2 ps) ++ p.future.mapIdx (quantRow args.q1 args.q2 fs)) := by
      rw [Except.ok.inj ho, List.append_assoc]
    refine ⟨_, _, h0, hobs', hpred, hact _ _ h0 hobs' hpred, o, names, blocks, hl, ?_⟩
    · intro hn
      have h1 := hbest hn
      rw [← listing_predictions _ _ _ _ hl] at h1
      have h2 : ((selectRows t).filter fun r => !r.isActuals).Pairwise fun a b => a.date < b.date := by
        have e : (selectRows t).filter (fun r => !r.isActuals) =
            (res.data.filter fun r => !r.isActuals && r.isBest).map fun r => ⟨r.date, some r.source, r.model, r.isActuals, r.isBest, r.y, r.weight⟩ := by
          unfold selectRows
          rw [if_pos (show t.hasBest = true from rfl), List.filter_filter, ht]
          unfold toFTable
          dsimp only
          rw [List.filter_map]
          congr 1
          apply List.filter_congr
          intro r _
          dsimp only [Function.comp]
          cases r.isActuals <;> cases r.isBest <;> rfl
        rw [e, List.pairwise_map]
        exact h1
      rw [← List.pairwise_map (f := PRow.date) (R := (· < ·)), List.map_append, quant_dates, quant_dates]
      have e1 : p.past = ((selectRows t).filter fun r => !r.isActuals).filter fun r => decide (r.date ≤ p.last) := by
        rw [List.filter_filter]
        exact List.filter_congr fun r _ => Bool.and_comm _ _
      have e2 : p.future = ((selectRows t).filter fun r => !r.isActuals).filter fun r => decide (p.last < r.date) := by
        rw [List.filter_filter]
        exact List.filter_congr fun r _ => Bool.and_comm _ _
      rw [e1, e2, List.pairwise_append, List.pairwise_map, List.pairwise_map]
      refine ⟨h2.filter _, h2.filter _, ?_⟩
      intro a ha b hb
      obtain ⟨a, ha', rfl⟩ := List.mem_map.1 ha
      obtain ⟨b, hb', rfl⟩ := List.mem_map.1 hb
      have h1 := of_decide_eq_true (List.mem_filter.1 ha').2
      have h2 := of_decide_eq_true (List.mem_filter.1 hb').2
      omega

/-! ### Tables -/

/-- **C108.** For tables with one row per date and source: the observations of each series are listed in order of time. -/
theorem C108_observations_partial [FloorRing K] [IsStrictOrderedRing K] (w : World K) (args : RunArgs K) (id : String) (t : STable K) (hp : Proper t) (res : RunResult K)
    (h : runForecast w args id t = .ok (some res)) (s : String) (hs : IsSeries t id s) : InTime ((partOf t s res).data.filter DRow.isActuals) := by
  obtain ⟨hd, hrun⟩ := series_run w id t hp s hs
  have h1 := congrArg (List.map Prod.fst) (C48_actuals w args s _ _ (hrun args res h))
  rw [List.map_map, List.map_map] at h1
  unfold InTime
  rw [← List.pairwise_map (f := DRow.date) (R := (· < ·))]
  change List.map (fun r : DRow K => r.date) _ = _ at h1
  rw [h1, List.pairwise_map]
  have hsub : (kept args.start (seriesFrame t s)).Pairwise fun a b => a.x < b.x := by
    unfold kept
    exact hd.sorted.filter _
  refine (List.Pairwise.and_mem.1 hsub).imp ?_
  rintro a b ⟨ha, hb, hab⟩
  have hk : ∀ r ∈ kept args.start (seriesFrame t s), r ∈ (seriesFrame t s).rows := by
    intro r hr
    unfold kept at hr
    exact (List.mem_filter.1 hr).1
  have e1 := hd.days a (hk a ha)
  have e2 := hd.days b (hk b hb)
  simp only [Function.comp, position, hd.dated, if_true]
  omega

/-- **C108.** Without dates: the observations of each series are listed in increasing order of `x`. -/
theorem C108_observations_numbered [FloorRing K] [IsStrictOrderedRing K] (w : World K) (args : RunArgs K) (id : String) (t : STable K) (hd : t.hasDate = false) (res : RunResult K)
    (h : runForecast w args id t = .ok (some res)) (s : String) (hs : IsSeries t id s) :
    ((partOf t s res).data.filter DRow.isActuals).Pairwise fun a b => a.date ≤ b.date := by
  obtain ⟨df, h1, -, -, hsort, -, hrun⟩ := each_series w args id t res h s hs
  have h2 := congrArg (List.map Prod.fst) (C48_actuals w args s _ _ hrun)
  rw [List.map_map, List.map_map] at h2
  rw [← List.pairwise_map (f := DRow.date) (R := (· ≤ ·))]
  change List.map (fun r : DRow K => r.date) _ = _ at h2
  rw [h2, List.pairwise_map]
  unfold kept
  refine (hsort.filter _).imp ?_
  intro a b hab
  simp only [Function.comp, position, h1, hd]
  exact hab

theorem flat_sources {α β : Type} [LinearOrder β] (f : α → β) (labels : List β) (parts : List (List α)) (hl : labels.Pairwise (· < ·))
    (h : List.Forall₂ (fun s p => ∀ r ∈ p, f r = s) labels parts) : parts.flatten.Pairwise fun a b => f a ≤ f b := by
  induction h with
  | nil => exact .nil
  | @cons s p labels parts hp hf ih =>
    rw [List.pairwise_cons] at hl
    rw [List.flatten_cons, List.pairwise_append]
    refine ⟨List.pairwise_of_forall_mem_list fun a ha b hb => by rw [hp a ha, hp b hb], ih hl.2, ?_⟩
    intro a ha b hb
    obtain ⟨q, hq, hb'⟩ := List.mem_flatten.1 hb
    obtain ⟨i, hi, rfl⟩ := List.mem_iff_getElem.1 hq
    have hm := (List.forall₂_iff_get.1 hf).2 i (by have := hf.length_eq; omega) hi
    rw [hp a ha, hm b hb']
    exact le_of_lt (hl.1 _ (List.getElem_mem _))

/-- **C108.** The rows of all three tables are grouped by source, in the order of the labels. -/
theorem C108_sources [FloorRing K] [IsStrictOrderedRing K] (w : World K) (args : RunArgs K) (id : String) (t : STable K) (hs : t.hasSource = true) (res : RunResult K)
    (h : runForecast w args id t = .ok (some res)) :
    (res.forecast.Pairwise fun a b => a.source.getD "" ≤ b.source.getD "") ∧ (res.data.Pairwise fun a b => a.source ≤ b.source) ∧
      res.metadata.Pairwise fun a b => a.source ≤ b.source := by
  obtain ⟨labels, parts, hsorted, hmem, hf, rfl⟩ := C47_concatenation w args id t hs res h
  have hone : ∀ s ∈ labels, ∀ r : RunResult K, runForecast w args id (only s t) = .ok (some r) →
      (∀ q ∈ r.forecast, q.source.getD "" = s) ∧ (∀ q ∈ r.data, q.source = s) ∧ ∀ q ∈ r.metadata, q.source = s := by
    intro s hs' r hr
    have e := runForecast_only_rows w args id t hs s ((hmem s).1 hs') r hr s
    rw [if_pos rfl] at e
    have e1 := congrArg RunResult.forecast e
    have e2 := congrArg RunResult.data e
    have e3 := congrArg RunResult.metadata e
    unfold resultOf at e1 e2 e3
    dsimp only at e1 e2 e3
    rw [List.filter_eq_self] at e1 e2 e3
    exact ⟨fun q hq => by rw [of_decide_eq_true (e1 q hq)]; rfl, fun q hq => of_decide_eq_true (e2 q hq), fun q hq => of_decide_eq_true (e3 q hq)⟩
  have hall : List.Forall₂ (fun s (r : RunResult K) => (∀ q ∈ r.forecast, q.source.getD "" = s) ∧ (∀ q ∈ r.data, q.source = s) ∧ ∀ q ∈ r.metadata, q.source = s) labels parts := by
    clear h hsorted hmem
    induction hf with
    | nil => exact .nil
    | cons h1 h2 ih => exact .cons (hone _ List.mem_cons_self _ h1) (ih fun s hs => hone s (List.mem_cons_of_mem _ hs))
  refine ⟨?_, ?_, ?_⟩
  · rw [List.flatMap_def]
    exact flat_sources (fun r : PRow K => r.source.getD "") labels _ hsorted (List.forall₂_map_right_iff.2 (hall.imp fun _ _ h => h.1))
  · rw [List.flatMap_def]
    exact flat_sources DRow.source labels _ hsorted (List.forall₂_map_right_iff.2 (hall.imp fun _ _ h => h.2.1))
  · rw [List.flatMap_def]
    exact flat_sources MRow.source labels _ hsorted (List.forall₂_map_right_iff.2 (hall.imp fun _ _ h => h.2.2))

/-! ### Several sources in `get_pi` -/

omit [Field K] [LinearOrder K] in
theorem prowLe_before (a b : PRow K) : prowLe a b = true ↔ Before a b := by
  unfold prowLe Before
  rw [decide_eq_true_eq]

/-- **C108.** The table of intervals for several sources is in order: by source, predictions before observations, then by date. -/
theorem C108_intervals [FloorRing K] (draw : Nat → Nat → Nat → Nat) (t : FTable K) (nSims : Nat) (nCum : Option Int) (q1 q2 : K) (widening : Freq) (out : List (PRow K))
    (h : getPi draw t nSims nCum q1 q2 widening = .ok out) (hs : t.hasSource = true)
    (hmany : ∃ r ∈ t.rows, ∃ r' ∈ t.rows, ∃ s s', r.source = some s ∧ r'.source = some s' ∧ s ≠ s') : out.Pairwise Before := by
  unfold getPi at h
  dsimp only at h
  rw [if_pos] at h
  · cases h1 : piGroups draw t nSims (nCum.getD (daysFromFreq widening)) q1 q2 0 (groupKeys t.rows) with
    | error e => rw [h1] at h; cases h
    | ok r =>
      rw [h1] at h
      cases h
      refine (sortBy_sorted prowLe ?_ ?_ r).imp fun h => (prowLe_before _ _).1 h
      · intro a b c hab hbc
        rw [prowLe_before] at *
        unfold Before at *
        rcases hab with hab | ⟨e1, hab⟩ <;> rcases hbc with hbc | ⟨e2, hbc⟩
        · exact .inl (hab.trans hbc)
        · exact .inl (e2 ▸ hab)
        · exact .inl (e1 ▸ hbc)
        · refine .inr ⟨e1.trans e2, ?_⟩
          rcases hab with ⟨a1, a2⟩ | ⟨a1, a2⟩ <;> rcases hbc with ⟨b1, b2⟩ | ⟨b1, b2⟩
          · exact .inl ⟨a1, b2⟩
          · exact .inl ⟨a1, b1 ▸ a2⟩
          · exact .inl ⟨a1.trans b1, b2⟩
          · exact .inr ⟨a1.trans b1, a2.trans b2⟩
      · intro a b
        rw [Bool.or_eq_true, prowLe_before, prowLe_before]
        unfold Before
        rcases lt_trichotomy (a.source.getD "") (b.source.getD "") with hlt | heq | hgt
        · exact .inl (.inl hlt)
        · cases ha : a.isActuals <;> cases hb : b.isActuals
          · rcases le_total a.date b.date with hd | hd
            · exact .inl (.inr ⟨heq, .inr ⟨rfl, hd⟩⟩)
            · exact .inr (.inr ⟨heq.symm, .inr ⟨rfl, hd⟩⟩)
          · exact .inl (.inr ⟨heq, .inl ⟨rfl, rfl⟩⟩)
          · exact .inr (.inr ⟨heq.symm, .inl ⟨rfl, rfl⟩⟩)
          · rcases le_total a.date b.date with hd | hd
            · exact .inl (.inr ⟨heq, .inr ⟨rfl, hd⟩⟩)
            · exact .inr (.inr ⟨heq.symm, .inr ⟨rfl, hd⟩⟩)
        · exact .inr (.inl hgt)
  · refine ⟨hs, ?_⟩
    obtain ⟨r, hr, r', hr', s, s', e, e', hne⟩ := hmany
    have m1 : s ∈ groupKeys t.rows := (mem_groupKeys _ _).2 ⟨r, hr, e⟩
    have m2 : s' ∈ groupKeys t.rows := (mem_groupKeys _ _).2 ⟨r', hr', e'⟩
    match hk : groupKeys t.rows with
    | [] => rw [hk] at m1; simp at m1
    | [a] =>
      rw [hk] at m1 m2
      exact absurd ((List.mem_singleton.1 m1).trans (List.mem_singleton.1 m2).symm) hne
    | _ :: _ :: _ => simp

/-! ### Examples -/

/-- Two sources listed in mixed order, observations out of order: the result is in order. -/
def mixedTable : STable ℚ := ⟨true, true, false, false, [⟨6 * DAY, some "b", 0, some 5, none⟩, ⟨4 * DAY, some "a", 0, some 1, none⟩,
  ⟨7 * DAY, some "a", 0, some 7, none⟩, ⟨5 * DAY, some "b", 0, some 5, none⟩, ⟨4 * DAY, some "b", 0, some 5, none⟩, ⟨6 * DAY, some "a", 0, some 5, none⟩,
  ⟨5 * DAY, some "a", 0, some 3, none⟩, ⟨7 * DAY, some "b", 0, some 6, none⟩]⟩

example : (((runForecast demoWorld { demoArgs [modelLinear, modelConstant] (some []) with years := 1 / 365 } "" mixedTable).toOption.bind id).map fun r =>
    (r.data.filter fun q => decide (q.source = "a")).map fun q => (q.model, q.date / DAY)) =
    some [("actuals", 4), ("actuals", 5), ("actuals", 6), ("actuals", 7), ("constant", 4), ("constant", 5), ("constant", 6),
      ("constant", 7), ("constant", 8), ("linear", 4), ("linear", 5), ("linear", 6), ("linear", 7), ("linear", 8)] := by
  decide +kernel

example : (((runForecast demoWorld { demoArgs [modelLinear, modelConstant] (some []) with years := 1 / 365 } "" mixedTable).toOption.bind id).map fun r =>
    r.metadata.map fun q => (q.source, q.model)) = some [("a", "constant"), ("a", "linear"), ("b", "constant"), ("b", "linear")] := by
  decide +kernel

/-- Two sources in a table of forecasts, not in order. -/
def mixedForecast : FTable ℚ := ⟨false, true, false, false, [⟨5 * DAY, some "b", "actuals", true, true, some 4, none⟩, ⟨5 * DAY, some "b", "m", false, true, some 5, none⟩,
  ⟨4 * DAY, some "b", "m", false, true, some 5, none⟩, ⟨4 * DAY, some "b", "actuals", true, true, some 5, none⟩, ⟨4 * DAY, some "a", "actuals", true, true, some 1, none⟩,
  ⟨5 * DAY, some "a", "m", false, true, some 1, none⟩, ⟨4 * DAY, some "a", "m", false, true, some 2, none⟩]⟩

example : ((getPi (fun _ _ _ => 0) mixedForecast 4 (some 1) 5 20 .D).toOption.map fun l => l.map fun r => (r.source, r.isActuals, r.date / DAY)) =
    some [(some "a", false, 4), (some "a", false, 5), (some "a", true, 4), (some "b", false, 4), (some "b", false, 5), (some "b", true, 4), (some "b", true, 5)] := by
  decide +kernel

/-- Hours of the observations in the result for a table with the given hours. -/
def listedHours (l : List Int) : Option (List Int) :=
  ((runForecast demoWorld { demoArgs [modelConstant] (some []) with years := 1 / 8760 } "s" (plainDates (l.map fun i : Int => i * HOUR))).toOption.bind id).map fun r =>
    (r.data.filter DRow.isActuals).map fun q => q.date / HOUR

/-- **C108, refuted for times within a day.** Observations of an hourly series that are not given in order are not listed in order: rows are ordered by whole days. -/
theorem C108_counterexample : listedHours [0, 2, 1, 3, 4, 5, 6, 7] = some [0, 2, 1, 3, 4, 5, 6, 7] := by decide +kernel

/-- Even hours that are given in strictly decreasing order, all on one day, come back in an order that is neither: days are counted from the time of the first row. -/
theorem C108_counterexample_origin : listedHours [7, 6, 5, 4, 3, 2, 1, 0] = some [6, 5, 4, 3, 2, 1, 0, 7] := by decide +kernel

end Anticipy
