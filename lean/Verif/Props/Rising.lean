import Verif.Spec.Rising
import Verif.Props.MoreWeight
import Verif.Props.RealModels

/-
C118: a trend that must not fall does not fall, and a decay comes to rest.
-/
namespace Anticipy
open Spec
variable {K : Type} [Field K] [LinearOrder K]

/-- The value of the model is a formula `val`, and its bounds say that the parameters satisfy `ok`. -/
structure BoundedFormula (m : ForecastModel K) (mult : Bool) (ok : List K → Prop) (val : List K → Int → Timestamp → K) : Prop where
  params : m.nParams ≠ 0
  named : m.name ≠ "null" ∧ m.name ≠ "logistic" ∧ m.name ≠ "sigmoid"
  bounds : ∀ args, ∃ b, m.fBounds args = .ok b ∧ b.lo.length = m.nParams ∧ b.hi.length = m.nParams ∧ ∀ p, Admissible p b ↔ p.length = m.nParams ∧ ok p
  unpinned : Unpinned m
  value : ∀ (ctx : Ctx K) (xs : List Int) (ds : List Timestamp) p, ctx.ax = (xs.map fun x : Int => (x : K)) → ctx.adate = some ds → xs.length = ds.length →
    p.length = m.nParams → (∀ k, ctx.cache k = none) → xs ≠ [] → m.fModel ctx (some p) mult = .ok (vecOf (List.zipWith (val p) xs ds))

theorem Spec.HasFormula.bounded {m : ForecastModel K} {mult : Bool} {val : List K → Int → Timestamp → K} (h : HasFormula m mult val) :
    BoundedFormula m mult (fun _ => True) val := by
  refine ⟨h.params, h.named, ?_, h.unpinned, h.value⟩
  intro args
  obtain ⟨a, ha⟩ := h.bounds args
  exact ⟨_, ha, by simp, by simp, fun p => by rw [admissible_default]; simp⟩

theorem bounded_nondec (mult : Bool) : BoundedFormula (modelLinearNondec : ForecastModel K) mult (fun p => 0 ≤ p.headD 0) (combination lineFeatures) := by
  refine ⟨by simp [modelLinearNondec, mkModel], by simp [modelLinearNondec, mkModel], ?_, ?_, (formula_linear mult).value⟩
  · intro args
    refine ⟨_, rfl, rfl, rfl, fun p => ?_⟩
    constructor
    · rintro ⟨-, h2, -, h4⟩
      refine ⟨h2.symm, ?_⟩
      have h2' : 2 = p.length := h2
      have := (h4 0 (by simp; omega) (by simp) (by simp)).1
      cases p with
      | nil => cases h2'
      | cons a l => simpa [Ext.le] using this
    · rintro ⟨h1, h2⟩
      obtain ⟨a, b, rfl⟩ := two_params p h1
      refine ⟨rfl, rfl, rfl, ?_⟩
      intro i hg _ _
      have h2 : 0 ≤ a := h2
      have : i = 0 ∨ i = 1 := by simp at hg; omega
      rcases this with rfl | rfl <;> simp [Ext.le, h2]
  · intro args b hb p hp v
    cases hb
    simp at hp
    rcases hp with rfl | rfl <;> simp

theorem bounded_compose {m1 m2 : ForecastModel K} {ok1 ok2 : List K → Prop} {v1 v2 : List K → Int → Timestamp → K} (mult mode : Bool)
    (h1 : BoundedFormula m1 mult ok1 v1) (h2 : BoundedFormula m2 mult ok2 v2) :
    BoundedFormula (compose mult m1 m2) mode (fun p => ok1 (p.take m1.nParams) ∧ ok2 (p.drop m1.nParams))
      (fun p x t => if mult then v1 (p.take m1.nParams) x t * v2 (p.drop m1.nParams) x t else v1 (p.take m1.nParams) x t + v2 (p.drop m1.nParams) x t) := by
  have eb : (compose mult m1 m2).fBounds = fConcatBounds m1 m2 := by
    unfold compose
    rw [if_neg h1.named.1, if_neg h2.named.1]
  have ename : (compose mult m1 m2).name = composedName (if mult then "*" else "+") m1.name m2.name := by
    unfold compose
    rw [if_neg h1.named.1, if_neg h2.named.1]
  have en : (compose mult m1 m2).nParams = m1.nParams + m2.nParams := compose_nParams mult m1 m2 h1.named.1 h2.named.1
  refine ⟨by rw [en]; have := h1.params; omega, by rw [ename]; exact composed_named _ _ _, ?_, ?_, ?_⟩
  · intro args
    obtain ⟨b1, e1, l1, l1', a1⟩ := h1.bounds args
    obtain ⟨b2, e2, l2, l2', a2⟩ := h2.bounds args
    refine ⟨⟨b1.lo ++ b2.lo, b1.hi ++ b2.hi, true⟩, ?_, by simp [en, l1, l2], by simp [en, l1', l2'], fun p => ?_⟩
    · rw [eb]
      simp only [fConcatBounds, e1, e2, bind, Except.bind]
    have key : p.length = m1.nParams + m2.nParams →
        (Admissible p ⟨b1.lo ++ b2.lo, b1.hi ++ b2.hi, true⟩ ↔ Admissible (p.take m1.nParams) b1 ∧ Admissible (p.drop m1.nParams) b2) := by
      intro hl
      conv_lhs => rw [← List.take_append_drop m1.nParams p]
      exact admissible_append _ _ b1.lo b1.hi b2.lo b2.hi true b1.isArray b2.isArray (by simp [hl, l1]) (by simp [hl, l1'])
    rw [en]
    constructor
    · intro h
      have hl : p.length = m1.nParams + m2.nParams := by
        have := h.2.1
        simp [l1, l2] at this
        omega
      obtain ⟨k1, k2⟩ := (key hl).1 h
      exact ⟨hl, ((a1 _).1 k1).2, ((a2 _).1 k2).2⟩
    · rintro ⟨hl, o1, o2⟩
      exact (key hl).2 ⟨(a1 _).2 ⟨by simp [hl], o1⟩, (a2 _).2 ⟨by simp [hl], o2⟩⟩
  · intro args b hb q hq v
    obtain ⟨b1, e1, l1, l1', -⟩ := h1.bounds args
    obtain ⟨b2, e2, l2, l2', -⟩ := h2.bounds args
    rw [eb] at hb
    simp only [fConcatBounds, e1, e2, bind, Except.bind] at hb
    have hb := (Except.ok.inj hb).symm
    subst hb
    dsimp only at hq
    rw [List.zip_append (by rw [l1, l1'])] at hq
    rcases List.mem_append.1 hq with hq | hq
    · exact h1.unpinned args b1 e1 q hq v
    · exact h2.unpinned args b2 e2 q hq v
  · intro ctx xs ds p a1 a2 a3 a4 a5 a6
    rw [en] at a4
    have l1 : (p.take m1.nParams).length = m1.nParams := by simp [a4]
    have l2 : (p.drop m1.nParams).length = m2.nParams := by simp [a4]
    rw [compose_fModel mult m1 m2 h1.named.1 h2.named.1 ctx p mode]
    simp only [bind, Except.bind]
    rw [h1.value ctx xs ds _ a1 a2 a3 l1 a5 a6]
    dsimp only
    rw [h2.value ctx xs ds _ a1 a2 a3 l2 a5 a6]
    dsimp only
    rw [bin_vecOf _ _ _ (by simp), zip_both]
    cases mult <;> rfl

theorem BoundedFormula.scale {m : ForecastModel K} {mult : Bool} {ok : List K → Prop} {val : List K → Int → Timestamp → K} (h : BoundedFormula m mult ok val)
    (xs : List Int) : scaleX m xs = xs.map fun x : Int => (x : K) := by
  unfold scaleX
  rw [if_neg]
  rintro (h' | h')
  · exact h.named.2.1 h'
  · exact h.named.2.2 h'

/-- All forecasts of a model in a run come from one list of parameters within the bounds. -/
theorem bounded_rows [FloorRing K] [IsStrictOrderedRing K] (w : World K) (args : RunArgs K) (id : String) (t : STable K) (hp : Proper t) (s : String) (hs : IsSeries t id s)
    (res : RunResult K) (h : runForecast w args id t = .ok (some res)) (m : ForecastModel K) (ok : List K → Prop) (val : List K → Int → Timestamp → K)
    (hf : BoundedFormula m false ok val) (hx : FitsInside w args s (seriesFrame t s) m) :
    (∃ r, ForecastOf (partOf t s res) m.name r) →
    ∃ p : List K, p.length = m.nParams ∧ ok p ∧ ForecastsAre (partOf t s res) m.name fun d => val p ((d - originOf t s) / (24 * 60 * 60 * 1000000000)) d := by
  obtain ⟨hds, hrun⟩ := series_run w id t hp s hs
  obtain ⟨d, hd, hdata, -, -⟩ := runSingle_inv w args s _ _ (hrun args res h)
  obtain ⟨st⟩ := runFits_stages w args s _ d hd
  have hsub : ∀ r ∈ (partOf t s res).data, r ∈ d.1 := by
    intro r hr
    rw [hdata] at hr
    unfold selectFits at hr
    split_ifs at hr
    · exact hr
    · exact (List.mem_filter.1 hr).1
  have hlen : ∀ (i : Nat) (used : Frame K) (act : Option (Frame K)) (f : FitResult K),
      fitModel (w.env s i) m used act args.useCache = .ok f → f.isFit = true → f.params.length = m.nParams ∧ ok f.params := by
    intro i used act f e hfit
    obtain ⟨-, ctx, guess, b, r, -, -, -, h4, h5, h6, h7, -⟩ := fitModel_solver _ m _ _ _ f hf.unpinned hf.params e hfit
    obtain ⟨b', ha, -, -, hok⟩ := hf.bounds ⟨some ctx.ax, some (prepare used).ys, none⟩
    rw [ha] at h4
    have h4 := Except.ok.inj h4
    rw [h7]
    apply (hok _).1
    rw [h4]
    exact hx.inside i _ _ _ _ h5 h6
  have hrow := fun r hr => row_value_stage w args s _ d st m (hx.only _ _ st.hCand) val
    (fun ctx xs ds p h1 h2 h3 h4 h5 h6 => hf.value ctx xs ds p (by rw [h1, hf.scale]) h2 h3 h4 h5 h6) (fun i u a f e hfit => (hlen i u a f e hfit).1)
    hds.dated _ hds.days r (hsub r hr)
  rintro ⟨r0, hr0, ha0, hm0⟩
  obtain ⟨i, f, e1, e2, e3, -⟩ := hrow r0 hr0 ha0 hm0
  obtain ⟨l1, l2⟩ := hlen _ _ _ _ e2 e3
  refine ⟨f.params, l1, l2, ?_⟩
  intro r hr ha hm
  obtain ⟨j, g, g1, g2, -, g4⟩ := hrow r hr ha hm
  have hij : j = i := by
    obtain ⟨hi, ei⟩ := List.getElem?_eq_some_iff.1 e1
    obtain ⟨hj, ej⟩ := List.getElem?_eq_some_iff.1 g1
    exact (List.Nodup.getElem_inj_iff (hx.names _ _ st.hCand) (hi := by simpa using hj) (hj := by simpa using hi)).1 (by simp [ei, ej])
  subst hij
  rw [e2] at g2
  rw [g4, ← Except.ok.inj g2]

omit [LinearOrder K] in
theorem line_value (p : List K) (hp : p.length = 2) (x : Int) (d : Timestamp) : combination lineFeatures p x d = p.headD 0 * (x : K) + p.getLastD 0 := by
  obtain ⟨a, b, rfl⟩ := two_params p hp
  simp [combination, lineFeatures]

theorem days_mono (d1 d2 t0 : Int) (h : d1 ≤ d2) : (d1 - t0) / (24 * 60 * 60 * 1000000000) ≤ (d2 - t0) / (24 * 60 * 60 * 1000000000) :=
  Int.ediv_le_ediv (by norm_num) (by omega)

theorem line_mono [IsStrictOrderedRing K] (p : List K) (hp : p.length = 2) (ha : 0 ≤ p.headD 0) (t0 d1 d2 : Int) (h : d1 ≤ d2) :
    combination lineFeatures p ((d1 - t0) / (24 * 60 * 60 * 1000000000)) d1 ≤ combination lineFeatures p ((d2 - t0) / (24 * 60 * 60 * 1000000000)) d2 := by
  rw [line_value p hp, line_value p hp]
  have := Int.cast_le (R := K) |>.2 (days_mono d1 d2 t0 h)
  have := mul_le_mul_of_nonneg_left this ha
  linarith

variable [FloorRing K]

/-- **C118, trend.** In every run with a solver that keeps to the bounds, the forecast of the non-decreasing line never falls. -/
theorem C118_line [IsStrictOrderedRing K] (w : World K) (args : RunArgs K) (id : String) (t : STable K) (hp : Proper t) (s : String) (hs : IsSeries t id s)
    (res : RunResult K) (h : runForecast w args id t = .ok (some res)) (hx : FitsInside w args s (seriesFrame t s) modelLinearNondec) :
    DoesNotFall (partOf t s res) "linear_nondec" (fun _ => 0) := by
  intro r1 r2 h1 h2 _ hle
  obtain ⟨p, hl, hok, hv⟩ := bounded_rows w args id t hp s hs res h _ _ _ (bounded_nondec false) hx ⟨r1, h1⟩
  exact ⟨_, _, hv r1 h1.1 h1.2.1 h1.2.2, hv r2 h2.1 h2.2.1 h2.2.2, line_mono p hl hok _ _ _ hle⟩

/-- **C118, season.** With a seasonal pattern added, it never falls from a date to a later date of the same season. -/
theorem C118_season [IsStrictOrderedRing K] (w : World K) (args : RunArgs K) (id : String) (t : STable K) (hp : Proper t) (s : String) (hs : IsSeries t id s)
    (res : RunResult K) (h : runForecast w args id t = .ok (some res)) (season : ForecastModel K) (idx : Timestamp → Int) (g : List K → Int → K)
    (hseason : HasFormula season false (fun p _ t => g p (idx t))) (hx : FitsInside w args s (seriesFrame t s) (modelLinearNondec.add season)) :
    DoesNotFall (partOf t s res) (modelLinearNondec.add season).name idx := by
  intro r1 r2 h1 h2 he hle
  obtain ⟨p, hl, hok, hv⟩ := bounded_rows w args id t hp s hs res h _ _ _ (bounded_compose false false (bounded_nondec false) hseason.bounded) hx ⟨r1, h1⟩
  have en : (modelLinearNondec.add season : ForecastModel K).nParams = 2 + season.nParams :=
    compose_nParams false _ _ (bounded_nondec (K := K) false).named.1 hseason.named.1
  replace hl := hl.trans en
  refine ⟨_, _, hv r1 h1.1 h1.2.1 h1.2.2, hv r2 h2.1 h2.2.1 h2.2.2, ?_⟩
  dsimp only
  rw [if_neg (by decide), if_neg (by decide), he]
  exact add_le_add_left (line_mono (p.take 2) (by simp [hl]) hok.1 _ _ _ hle) _

/-- **C118, factors.** With seasonal factors, each season never falls or never rises. -/
theorem C118_factors [IsStrictOrderedRing K] (w : World K) (args : RunArgs K) (id : String) (t : STable K) (hp : Proper t) (s : String) (hs : IsSeries t id s)
    (res : RunResult K) (h : runForecast w args id t = .ok (some res)) (season : ForecastModel K) (idx : Timestamp → Int) (g : List K → Int → K)
    (hseason : HasFormula season true (fun p _ t => g p (idx t))) (hx : FitsInside w args s (seriesFrame t s) (modelLinearNondec.mul season)) :
    KeepsDirection (partOf t s res) (modelLinearNondec.mul season).name idx := by
  intro k
  by_cases hex : ∃ r, ForecastOf (partOf t s res) (modelLinearNondec.mul season).name r
  swap
  · exact .inl fun r1 _ h1 => absurd ⟨r1, h1⟩ hex
  obtain ⟨p, hl, hok, hv⟩ := bounded_rows w args id t hp s hs res h _ _ _ (bounded_compose true false (bounded_nondec true) hseason.bounded) hx hex
  have en : (modelLinearNondec.mul season : ForecastModel K).nParams = 2 + season.nParams :=
    compose_nParams true _ _ (bounded_nondec (K := K) true).named.1 hseason.named.1
  replace hl := hl.trans en
  have hmono := fun (d1 d2 : Int) hle => line_mono (p.take 2) (by simp [hl]) hok.1 (originOf t s) d1 d2 hle
  rcases le_total 0 (g (p.drop 2) k) with hg | hg
  · refine .inl fun r1 r2 h1 h2 k1 k2 hle => ⟨_, _, hv r1 h1.1 h1.2.1 h1.2.2, hv r2 h2.1 h2.2.1 h2.2.2, ?_⟩
    dsimp only
    rw [if_pos rfl, if_pos rfl, k1, k2]
    exact mul_le_mul_of_nonneg_right (hmono _ _ hle) hg
  · refine .inr fun r1 r2 h1 h2 k1 k2 hle => ⟨_, _, hv r1 h1.1 h1.2.1 h1.2.2, hv r2 h2.1 h2.2.1 h2.2.2, ?_⟩
    dsimp only
    rw [if_pos rfl, if_pos rfl, k1, k2]
    exact mul_le_mul_of_nonpos_right (hmono _ _ hle) hg

/-! ### Decay -/

theorem bounded_decay (mult : Bool) : BoundedFormula modelDecay mult (fun p => p.getD 1 0 ≤ 0) (fun p x _ => p.getD 0 0 * Real.exp (p.getD 1 0 * (x : ℝ)) + p.getD 2 0) := by
  refine ⟨by simp [modelDecay, mkModel], by simp [modelDecay, mkModel], ?_, ?_, ?_⟩
  · intro args
    refine ⟨_, rfl, rfl, rfl, fun p => ?_⟩
    constructor
    · rintro ⟨-, h2, -, h4⟩
      refine ⟨h2.symm, ?_⟩
      have h2' : 3 = p.length := h2
      match p, h2', h4 with
      | [a, b, c], _, h4 =>
        have := (h4 1 (by simp) (by simp) (by simp)).2
        simpa [Ext.le] using this
    · rintro ⟨h1, h2⟩
      match p, h1 with
      | [a, b, c], _ =>
        refine ⟨rfl, rfl, rfl, ?_⟩
        intro i hg _ _
        have h2 : b ≤ 0 := h2
        have : i = 0 ∨ i = 1 ∨ i = 2 := by simp at hg; omega
        rcases this with rfl | rfl | rfl <;> simp [Ext.le, h2]
  · intro args b hb p hp v
    cases hb
    simp at hp
    rcases hp with rfl | rfl | rfl <;> simp
  · intro ctx xs ds p h1 h2 h3 h4 h5 h6
    match p, h4 with
    | [a, b, c], _ =>
      show Except.ok _ = _
      rw [h1]
      congr 2
      rw [List.map_map]
      simp only [List.getD_cons_zero, List.getD_cons_succ]
      exact zip_first xs ds h3 _ _ fun _ _ => rfl

/-- **C118, decay.** In every run with a solver that keeps to the bounds, the forecast of the exponential decay stays on one side of a level and comes closer to it. -/
theorem C118_decay (w : World ℝ) (args : RunArgs ℝ) (id : String) (t : STable ℝ) (hp : Proper t) (s : String) (hs : IsSeries t id s)
    (res : RunResult ℝ) (h : runForecast w args id t = .ok (some res)) (hx : FitsInside w args s (seriesFrame t s) modelDecay) :
    ∃ d, Approaches (partOf t s res) "decay" d := by
  by_cases hex : ∃ r, ForecastOf (partOf t s res) "decay" r
  swap
  · exact ⟨0, .inl ⟨fun r h1 => absurd ⟨r, h1⟩ hex, fun r _ h1 => absurd ⟨r, h1⟩ hex⟩⟩
  obtain ⟨p, hl, hok, hv⟩ := bounded_rows w args id t hp s hs res h _ _ _ (bounded_decay false) hx hex
  match p, hl with
  | [a, b, c], _ =>
    have hb : b ≤ 0 := hok
    have hmono : ∀ d1 d2 : Int, d1 ≤ d2 → Real.exp (b * (((d2 - originOf t s) / (24 * 60 * 60 * 1000000000) : Int) : ℝ)) ≤
        Real.exp (b * (((d1 - originOf t s) / (24 * 60 * 60 * 1000000000) : Int) : ℝ)) := by
      intro d1 d2 hle
      rw [Real.exp_le_exp]
      exact mul_le_mul_of_nonpos_left (Int.cast_le.2 (days_mono d1 d2 _ hle)) hb
    have hv : ∀ r, ForecastOf (partOf t s res) "decay" r → r.y = some (a * Real.exp (b * (((r.date - originOf t s) / (24 * 60 * 60 * 1000000000) : Int) : ℝ)) + c) :=
      fun r hr => hv r hr.1 hr.2.1 hr.2.2
    refine ⟨c, ?_⟩
    rcases le_total 0 a with ha | ha
    · refine .inl ⟨fun r hr => ⟨_, hv r hr, ?_⟩, fun r1 r2 h1 h2 hle => ⟨_, _, hv r1 h1, hv r2 h2, ?_⟩⟩
      · have := mul_nonneg ha (Real.exp_pos (b * (((r.date - originOf t s) / (24 * 60 * 60 * 1000000000) : Int) : ℝ))).le
        linarith
      · have := mul_le_mul_of_nonneg_left (hmono _ _ hle) ha
        linarith
    · refine .inr ⟨fun r hr => ⟨_, hv r hr, ?_⟩, fun r1 r2 h1 h2 hle => ⟨_, _, hv r1 h1, hv r2 h2, ?_⟩⟩
      · have := mul_nonpos_of_nonpos_of_nonneg ha (Real.exp_pos (b * (((r.date - originOf t s) / (24 * 60 * 60 * 1000000000) : Int) : ℝ))).le
        linarith
      · have := mul_le_mul_of_nonpos_left (hmono _ _ hle) ha
        linarith

/-! ### The best parameters within the bounds -/

omit [FloorRing K] in
/-- A fit of a model with bounds: no parameters within the bounds give a smaller sum of squares. -/
theorem bounded_minimal [IsStrictOrderedRing K] (env : Env K) (hmin : FindsMinimum env) (m : ForecastModel K) (ok : List K → Prop) (val : List K → Int → Timestamp → K)
    (hm : BoundedFormula m false ok val) (reg : Registry K) (hreg : Registered env.globalCache reg m) (ht : CacheTransparent reg m) (df : Frame K)
    (hdate : df.hasDate = true) (act : Option (Frame K)) (c : Bool) (f : FitResult K) (h : fitModel env m df act c = .ok f) (hf : f.isFit = true) :
    f.params.length = m.nParams ∧ ok f.params ∧ f.cost = some (misfit df (val f.params) / 2) ∧
      ∀ p : List K, p.length = m.nParams → ok p → misfit df (val f.params) ≤ misfit df (val p) := by
  obtain ⟨h0, ctx, guess, b, r, h1, h2, h3, h4, h5, h6, h7, h8, -, h9, h10, h11⟩ := fitModel_solver env m df act c f hm.unpinned hm.params h hf
  obtain ⟨hadm, l, hl, hcost, hle⟩ := hmin _ _ _ _ h5 h6
  rw [hdate, if_pos rfl] at h2
  obtain ⟨b', hb, -, -, hlen⟩ := hm.bounds ⟨some ctx.ax, some (prepare df).ys, none⟩
  rw [hb] at h4
  have h4 := Except.ok.inj h4
  rw [← h4] at hadm hle
  have hvalue : ∀ p : List K, p.length = m.nParams → ∃ l', getResiduals m ctx (prepare df).ys (prepare df).ws (some p) = .ok (vecOf l') ∧ sumSq l' = misfit df (val p) := by
    intro p hp
    have hv := hm.value (noCache ctx) ((usableRows df).map Row.x) ((usableRows df).map Row.date) p (by unfold noCache; dsimp only; rw [h1, hm.scale])
      (by unfold noCache; dsimp only; rw [h2]) (by simp) hp (fun _ => rfl) (fit_nonempty _ m df _ _ f h hf)
    rw [← cached_value env.globalCache reg m hreg ht c ctx h10 h9, List.zipWith_map, List.zipWith_self] at hv
    refine ⟨_, C33_residuals m ctx df (some p) _ _ hv ⟨by simp, .inl rfl⟩, ?_⟩
    rw [List.zipWith_map_right, List.zipWith_self]
    unfold sumSq misfit
    rw [List.map_map]
    congr 1
    apply List.map_congr_left
    intro q _
    simp only [Function.comp_def, sq_abs]
  obtain ⟨hpl, hok⟩ := (hlen _).1 hadm
  obtain ⟨l1, e1, e2⟩ := hvalue _ hpl
  have e3 : sumSq l = sumSq l1 := by
    have := hl.symm.trans e1
    have h := Except.ok.inj this
    unfold vecOf at h
    rw [List.map_injective_iff.2 (Option.some_injective K) (Arr.vec.inj h)]
  rw [h7, h8]
  refine ⟨hpl, hok, by rw [hcost, e3, e2], ?_⟩
  intro p hp hokp
  obtain ⟨l2, e4, e5⟩ := hvalue p hp
  rw [← e2, ← e5, ← e3]
  exact hle p l2 ((hlen p).2 ⟨hp, hokp⟩) e4

/-- A forecast is the value of the model at parameters within the bounds of which no others within the bounds give a smaller sum of squared errors over the rows that
count. -/
theorem bounded_best_row [IsStrictOrderedRing K] (w : World K) (args : RunArgs K) (id : String) (t : STable K) (hp : Proper t) (s : String) (hs : IsSeries t id s)
    (res : RunResult K) (h : runForecast w args id t = .ok (some res)) (hout : args.findOutliers = false) (m : ForecastModel K) (ok : List K → Prop)
    (val : List K → Int → Timestamp → K) (hm : BoundedFormula m false ok val)
    (reg : Registry K) (ht : CacheTransparent reg m) (hx : FitsExactly w args s (seriesFrame t s) m reg) (r : DRow K) (hr : ForecastOf (partOf t s res) m.name r) :
    ∃ p : List K, p.length = m.nParams ∧ ok p ∧ r.y = some (val p ((r.date - originOf t s) / (24 * 60 * 60 * 1000000000)) r.date) ∧
      ∀ q : List K, q.length = m.nParams → ok q →
        squares args.start t s (fun r => r.y.getD 0 - val p ((r.date - originOf t s) / (24 * 60 * 60 * 1000000000)) r.date) ≤
          squares args.start t s (fun r => r.y.getD 0 - val q ((r.date - originOf t s) / (24 * 60 * 60 * 1000000000)) r.date) := by
  obtain ⟨hd, hrun⟩ := series_run w id t hp s hs
  have h1 := hrun args res h
  obtain ⟨d, hd1, hdata, -, -⟩ := runSingle_inv w args s _ _ h1
  obtain ⟨st⟩ := runFits_stages w args s _ d hd1
  have hsub : r ∈ d.1 := by
    have hr := hr.1
    rw [hdata] at hr
    unfold selectFits at hr
    split_ifs at hr
    · exact hr
    · exact (List.mem_filter.1 hr).1
  obtain ⟨u1, -⟩ := used_rows args.findOutliers args.start _ st.df2 st.hOut
  have hfit : ∀ (i : Nat) (used : Frame K) (act : Option (Frame K)) (f : FitResult K),
      fitModel (w.env s i) m used act args.useCache = .ok f → f.isFit = true → f.params.length = m.nParams := by
    intro i used act f e hf
    obtain ⟨-, ctx, guess, b, r, -, -, -, h4, h5, h6, h7, -⟩ := fitModel_solver _ m _ _ _ f hm.unpinned hm.params e hf
    obtain ⟨hadm, -⟩ := hx.minimum i _ _ _ _ h5 h6
    obtain ⟨a, ha, -, -, hok⟩ := hm.bounds ⟨some ctx.ax, some (prepare used).ys, none⟩
    rw [ha] at h4
    rw [h7]
    rw [← Except.ok.inj h4] at hadm
    exact ((hok _).1 hadm).1
  obtain ⟨i, f, -, e2, e3, e4⟩ := row_value_stage w args s _ d st m (hx.only _ _ st.hCand) val
    (fun ctx xs ds p h1 h2 h3 h4 h5 h6 => hm.value ctx xs ds p (by rw [h1, hm.scale]) h2 h3 h4 h5 h6) hfit hd.dated _ hd.days r hsub hr.2.1 hr.2.2
  obtain ⟨g1, g2, -, g3⟩ := bounded_minimal _ (hx.minimum i) m ok val hm reg (hx.registered i) ht _ (by rw [u1]; exact hd.dated) _ _ f e2 e3
  refine ⟨f.params, g1, g2, e4, fun q hq hokq => ?_⟩
  have := g3 q hq hokq
  rw [misfit_observed w args s _ _ h1 st.df2 st.hOut hd.dated _ hd.days hd.nodup, misfit_observed w args s _ _ h1 st.df2 st.hOut hd.dated _ hd.days hd.nodup] at this
  unfold squaredErrors at this
  rw [observed_sum w args id t res h s hs hp.onePerDate.hasDate hout fun d y wt => (wt * (y - val f.params ((d - originOf t s) / (24 * 60 * 60 * 1000000000)) d)) ^ 2,
    observed_sum w args id t res h s hs hp.onePerDate.hasDate hout fun d y wt => (wt * (y - val q ((d - originOf t s) / (24 * 60 * 60 * 1000000000)) d)) ^ 2] at this
  unfold squares
  simpa only [mul_pow] using this

/-! ### Falling samples -/

section
variable {α : Type} (L : List α) (W X Y : α → K)

omit [FloorRing K] [LinearOrder K] in
theorem line_squares (A B : K) : (L.map fun r => W r * (Y r - (A * X r + B)) ^ 2).sum =
    (L.map fun r => W r * Y r ^ 2).sum - 2 * A * (L.map fun r => W r * (X r * Y r)).sum - 2 * B * (L.map fun r => W r * Y r).sum +
      A ^ 2 * (L.map fun r => W r * X r ^ 2).sum + 2 * A * B * (L.map fun r => W r * X r).sum + B ^ 2 * (L.map W).sum := by
  induction L with
  | nil => simp
  | cons r L ih =>
    simp only [List.map_cons, List.sum_cons, ih]
    ring

omit [FloorRing K] [LinearOrder K] in
theorem cross_sum (x c : K) : (L.map fun r => W r * ((X r - x) * (Y r - c))).sum =
    (L.map fun r => W r * (X r * Y r)).sum - c * (L.map fun r => W r * X r).sum - x * (L.map fun r => W r * Y r).sum + x * c * (L.map W).sum := by
  induction L with
  | nil => simp
  | cons r L ih =>
    simp only [List.map_cons, List.sum_cons, ih]
    ring

omit [FloorRing K] in
theorem separating_value (x : K) (h : ∀ a ∈ L, ∀ b ∈ L, X a ≤ x → x < X b → Y b ≤ Y a) :
    ∃ c, ∀ r ∈ L, (X r ≤ x → c ≤ Y r) ∧ (x < X r → Y r ≤ c) := by
  induction L with
  | nil => exact ⟨0, by simp⟩
  | cons r L ih =>
    obtain ⟨c, hc⟩ := ih fun a ha b hb => h a (List.mem_cons_of_mem _ ha) b (List.mem_cons_of_mem _ hb)
    by_cases hr : X r ≤ x
    · refine ⟨min c (Y r), ?_⟩
      intro q hq
      rcases List.mem_cons.1 hq with rfl | hq
      · exact ⟨fun _ => min_le_right _ _, fun hlt => absurd hr (not_le.2 hlt)⟩
      · exact ⟨fun hle => (min_le_left _ _).trans ((hc q hq).1 hle), fun hlt => le_min ((hc q hq).2 hlt) (h r List.mem_cons_self q (List.mem_cons_of_mem _ hq) hr hlt)⟩
    · push Not at hr
      refine ⟨max c (Y r), ?_⟩
      intro q hq
      rcases List.mem_cons.1 hq with rfl | hq
      · exact ⟨fun hle => absurd hle (not_le.2 hr), fun _ => le_max_right _ _⟩
      · exact ⟨fun hle => max_le ((hc q hq).1 hle) (h q (List.mem_cons_of_mem _ hq) r List.mem_cons_self hle hr), fun hlt => ((hc q hq).2 hlt).trans (le_max_left _ _)⟩

omit [FloorRing K] in
/-- Among the lines that do not fall, the level at the mean is the only one with the smallest sum of squares for values that do not rise. -/
theorem falling_level [IsStrictOrderedRing K] (hW : ∀ r ∈ L, 0 < W r) (hfall : ∀ a ∈ L, ∀ b ∈ L, X a ≤ X b → Y b ≤ Y a) (htwo : ∃ a ∈ L, ∃ b ∈ L, X a ≠ X b) (A B : K) (hA : 0 ≤ A)
    (hmin : ∀ B', (L.map fun r => W r * (Y r - (A * X r + B)) ^ 2).sum ≤ (L.map fun r => W r * (Y r - (0 * X r + B')) ^ 2).sum) :
    A = 0 ∧ B = (L.map fun r => W r * Y r).sum / (L.map W).sum := by
  obtain ⟨a, ha, b, hb, hab⟩ := htwo
  have hS : 0 < (L.map W).sum := by
    refine lt_of_lt_of_le (hW a ha) (List.single_le_sum ?_ _ (List.mem_map_of_mem ha))
    intro q hq
    obtain ⟨r, hr, rfl⟩ := List.mem_map.1 hq
    exact (hW r hr).le
  obtain ⟨c, hc⟩ := separating_value L X Y ((L.map fun r => W r * X r).sum / (L.map W).sum)
    (fun a ha b hb h1 h2 => hfall a ha b hb (h1.trans h2.le))
  have hcov : (L.map fun r => W r * ((X r - (L.map fun r => W r * X r).sum / (L.map W).sum) * (Y r - c))).sum ≤ 0 := by
    have hnn : ∀ x ∈ L.map (fun r => -(W r * ((X r - (L.map fun r => W r * X r).sum / (L.map W).sum) * (Y r - c)))), 0 ≤ x := by
      intro q hq
      obtain ⟨r, hr, rfl⟩ := List.mem_map.1 hq
      have hw := hW r hr
      rcases le_or_gt (X r) ((L.map fun r => W r * X r).sum / (L.map W).sum) with hx | hx
      · have h1 := (hc r hr).1 hx
        have := mul_nonneg hw.le (mul_nonneg (sub_nonneg.2 hx) (sub_nonneg.2 h1))
        nlinarith
      · have h1 := (hc r hr).2 hx
        have := mul_nonneg hw.le (mul_nonneg (sub_nonneg.2 hx.le) (sub_nonneg.2 h1))
        nlinarith
    have := List.sum_nonneg hnn
    rw [show (fun r => -(W r * ((X r - (L.map fun r => W r * X r).sum / (L.map W).sum) * (Y r - c)))) =
      fun r => (-1) * (W r * ((X r - (L.map fun r => W r * X r).sum / (L.map W).sum) * (Y r - c))) by funext r; ring, List.sum_map_mul_left] at this
    linarith
  have hvar : 0 < (L.map fun r => W r * ((X r - (L.map fun r => W r * X r).sum / (L.map W).sum) * (X r - (L.map fun r => W r * X r).sum / (L.map W).sum))).sum := by
    generalize (L.map fun r => W r * X r).sum / (L.map W).sum = x
    have hnn : ∀ q ∈ L.map (fun r => W r * ((X r - x) * (X r - x))), 0 ≤ q := by
      intro q hq
      obtain ⟨r, hr, rfl⟩ := List.mem_map.1 hq
      exact mul_nonneg (hW r hr).le (mul_self_nonneg _)
    have hex : ∃ r ∈ L, X r ≠ x := by
      by_contra hcon
      push Not at hcon
      exact hab ((hcon a ha).trans (hcon b hb).symm)
    obtain ⟨r, hr, hne⟩ := hex
    refine lt_of_lt_of_le ?_ (List.single_le_sum hnn _ (List.mem_map_of_mem (f := fun r => W r * ((X r - x) * (X r - x))) hr))
    exact mul_pos (hW r hr) (mul_self_pos.2 (sub_ne_zero.2 hne))
  rw [cross_sum] at hcov hvar
  have h0 := hmin ((L.map fun r => W r * Y r).sum / (L.map W).sum)
  rw [line_squares, line_squares] at h0
  rw [show (fun r => W r * (X r * X r)) = fun r => W r * X r ^ 2 by funext r; ring] at hvar
  generalize (L.map W).sum = S at *
  generalize (L.map fun r => W r * X r).sum = Sx at *
  generalize (L.map fun r => W r * Y r).sum = Sy at *
  generalize (L.map fun r => W r * (X r * Y r)).sum = Sxy at *
  generalize (L.map fun r => W r * X r ^ 2).sum = Sxx at *
  generalize (L.map fun r => W r * Y r ^ 2).sum = Syy at *
  have hxS : Sx / S * S = Sx := div_mul_cancel₀ _ hS.ne'
  have hyS : Sy / S * S = Sy := div_mul_cancel₀ _ hS.ne'
  generalize Sx / S = x at *
  generalize Sy / S = y at *
  subst hxS hyS
  have h1 : A ^ 2 * (Sxx - x ^ 2 * S) + S * (B + A * x - y) ^ 2 ≤ 2 * A * (Sxy - x * (y * S)) := by nlinarith
  have h2 : 2 * A * (Sxy - x * (y * S)) ≤ 0 := by nlinarith
  have h3 : 0 ≤ S * (B + A * x - y) ^ 2 := mul_nonneg hS.le (sq_nonneg _)
  have h4 : A ^ 2 * (Sxx - x ^ 2 * S) ≤ 0 := by linarith
  have hA0 : A = 0 := by
    by_contra hne
    have : 0 < A ^ 2 := by positivity
    have := mul_pos this (show 0 < Sxx - x ^ 2 * S by nlinarith)
    linarith
  refine ⟨hA0, ?_⟩
  subst hA0
  have h5 : S * (B + 0 * x - y) ^ 2 ≤ 0 := by nlinarith
  have h6 : (B + 0 * x - y) ^ 2 ≤ 0 := by
    by_contra hcon
    push Not at hcon
    have := mul_pos hS hcon
    linarith
  have h7 := pow_eq_zero_iff (two_ne_zero) |>.1 (le_antisymm h6 (sq_nonneg _))
  linarith

end

/-- **C118, falling samples.** If the samples never rise, the non-decreasing line predicts their mean for all dates. -/
theorem C118_falling [IsStrictOrderedRing K] (w : World K) (args : RunArgs K) (id : String) (t : STable K) (hp : Proper t) (s : String) (hs : IsSeries t id s)
    (res : RunResult K) (h : runForecast w args id t = .ok (some res)) (hout : args.findOutliers = false) (reg : Registry K)
    (hx : FitsExactly w args s (seriesFrame t s) modelLinearNondec reg) (hfall : NeverRise args.start t s)
    (htwo : ∃ r1 ∈ counted args.start t s, ∃ r2 ∈ counted args.start t s, r1.date ≠ r2.date)
    (r : DRow K) (hr : ForecastOf (partOf t s res) "linear_nondec" r) : r.y = some (countedMean args.start t s) := by
  obtain ⟨p, hl, hok, e, hmin⟩ := bounded_best_row w args id t hp s hs res h hout modelLinearNondec _ _ (bounded_nondec false) reg (fun _ _ _ _ _ => rfl) hx r hr
  obtain ⟨A, B, rfl⟩ := two_params p hl
  have hline : ∀ (A B : K) x d, combination lineFeatures [A, B] x d = A * (x : K) + B := by
    intro A B x d
    simp [combination, lineFeatures]
  simp only [hline] at e hmin
  have hmem : ∀ q ∈ counted args.start t s, q ∈ t.rows := by
    intro q hq
    have := (List.mem_filter.1 hq).1
    unfold rowsOf only at this
    split_ifs at this
    · exact (List.mem_filter.1 this).1
    · exact this
  have hiff : ∀ a ∈ counted args.start t s, ∀ b ∈ counted args.start t s,
      (a.date - originOf t s) / (24 * 60 * 60 * 1000000000) ≤ (b.date - originOf t s) / (24 * 60 * 60 * 1000000000) → a.date ≤ b.date := by
    intro a ha b hb hle
    have := hp.onePerDate.timeOfDay a (hmem a ha) b (hmem b hb)
    generalize originOf t s = o at hle
    omega
  obtain ⟨h1, h2⟩ := falling_level (counted args.start t s) (fun r => rowWeight t r ^ 2)
    (fun r => (((r.date - originOf t s) / (24 * 60 * 60 * 1000000000) : Int) : K)) (fun r => r.y.getD 0) (by
      intro q hq
      have := (List.mem_filter.1 hq).2
      simp only [Bool.and_eq_true, decide_eq_true_eq] at this
      exact pow_pos this.2 2)
    (fun a ha b hb hle => hfall a ha b hb (hiff a ha b hb (Int.cast_le.1 hle)))
    (by
      obtain ⟨a, ha, b, hb, hne⟩ := htwo
      refine ⟨a, ha, b, hb, fun hc => hne ?_⟩
      have hc := Int.cast_injective hc
      exact le_antisymm (hiff a ha b hb hc.le) (hiff b hb a ha hc.ge))
    A B hok (by
      intro B'
      have := hmin [0, B'] rfl (le_refl _)
      simp only [hline] at this
      exact this)
  rw [e, h1, h2, zero_mul, zero_add]
  rfl

/-! ### Concrete cases -/

/-- A value between two bounds, if there is one. -/
def pickInside : Ext ℚ × Ext ℚ → ℚ
  | (.fin a, _) => a + 1
  | (_, .fin b) => b - 1
  | _ => 3

/-- A solver that does not look at the residuals, but keeps to the bounds. -/
def insideEnv : Env ℚ := { demoEnv with
  lsq := fun _ _ b => if b.lo.length = b.hi.length ∧ (b.lo.zip b.hi).all (fun q => Ext.le q.1 (.fin (pickInside q)) && Ext.le (.fin (pickInside q)) q.2) = true then
    .ok (some ⟨true, some 1, (b.lo.zip b.hi).map pickInside⟩) else .ok none
  globalCache := fun k => if k = "a_weekday" then some cacheWeekday else none }

def insideWorld : World ℚ := { demoWorld with env := fun _ _ => insideEnv }

theorem insideEnv_inside : StaysInside insideEnv := by
  intro f guess b r h _
  simp only [insideEnv] at h
  split_ifs at h with hc
  · cases h
    obtain ⟨hl, hall⟩ := hc
    refine ⟨by simp, by simp [hl], by simp [hl], ?_⟩
    intro i hg h1 h2
    simp only [List.getElem_map, List.getElem_zip]
    have := List.all_eq_true.1 hall (b.lo[i], b.hi[i]) (by
      rw [← List.getElem_zip (h := by simp [hl]; omega)]
      exact List.getElem_mem _)
    simpa [Bool.and_eq_true] using this
  · cases h

/-- Six days of falling values; the first does not count. -/
def fallingTable : STable ℚ := ⟨true, true, false, true, [⟨4 * DAY, some "a", 0, some 0, some 0⟩, ⟨5 * DAY, some "a", 0, some 9, some 1⟩, ⟨6 * DAY, some "a", 0, some 9, some 2⟩,
  ⟨7 * DAY, some "a", 0, none, some 1⟩, ⟨8 * DAY, some "a", 0, some 5, some 1⟩, ⟨9 * DAY, some "a", 0, some 4, some 1⟩, ⟨10 * DAY, some "a", 0, some 3, some 1⟩]⟩

example : Proper fallingTable ∧ IsSeries fallingTable "" "a" ∧ NeverRise none fallingTable "a" ∧
    (∃ r1 ∈ counted none fallingTable "a", ∃ r2 ∈ counted none fallingTable "a", r1.date ≠ r2.date) ∧ countedMean none fallingTable "a" = 57 / 8 := by
  refine ⟨⟨⟨rfl, rfl, by decide +kernel, by decide +kernel⟩, by decide +kernel⟩, ⟨_, List.mem_cons_self, rfl⟩, ?_, by decide +kernel, by decide +kernel⟩
  unfold NeverRise
  decide +kernel

theorem falling_candidates (w : World ℚ) (hw : w.ch = demoWorld.ch) (df' : Frame ℚ) (cand : AddMult × List (ForecastModel ℚ))
    (h : candidates w.ch (demoArgs [modelLinearNondec] (some [])).models df' (runFreq (seriesFrame fallingTable "a")) = .ok cand) : cand.2 = [modelLinearNondec] := by
  have e : candidates demoWorld.ch (demoArgs [modelLinearNondec] (some [])).models df' (runFreq (seriesFrame fallingTable "a")) = .ok (.add, [modelLinearNondec]) := rfl
  rw [hw, e] at h
  cases h
  rfl

example : FitsInside insideWorld (demoArgs [modelLinearNondec] (some [])) "a" (seriesFrame fallingTable "a") modelLinearNondec := by
  refine ⟨fun _ => insideEnv_inside, ?_, ?_⟩
  all_goals
    intro df' cand h
    rw [falling_candidates insideWorld rfl df' cand h]
    simp

/-- There are solvers that find the minimum within the bounds. -/
example : FitsExactly { demoWorld with env := fun _ _ => exactEnv demoEnv } (demoArgs [modelLinearNondec] (some [])) "a" (seriesFrame fallingTable "a") modelLinearNondec
    (fun _ => none) := by
  refine ⟨fun _ => exactEnv_minimum _, ?_, fun _ => ⟨by simp [modelLinearNondec, mkModel], by simp [modelLinearNondec, mkModel]⟩⟩
  intro df' cand h
  rw [falling_candidates _ rfl df' cand h]
  simp

/-- With the solver that only keeps to the bounds the forecast of the falling series rises. With one that returns the parameters 0 and 57/8 it is the mean. -/
example : (((runForecast insideWorld (demoArgs [modelLinearNondec] (some [])) "" fallingTable).toOption.bind id).map fun r =>
      ((partOf fallingTable "a" r).data.filter fun q => !q.isActuals && decide (8 * DAY ≤ q.date)).map fun q => (q.date / DAY, q.y)) =
    some [(8, some 7), (9, some 8), (10, some 9), (11, some 10), (12, some 11), (13, some 12)] ∧
    (((runForecast { demoWorld with env := fun _ _ => { demoEnv with lsq := fun _ _ _ => .ok (some ⟨true, some 1, [0, 57 / 8]⟩) } } (demoArgs [modelLinearNondec] (some [])) ""
      fallingTable).toOption.bind id).map fun r =>
      ((partOf fallingTable "a" r).data.filter fun q => !q.isActuals && decide (11 * DAY ≤ q.date)).map fun q => (q.date / DAY, q.y)) =
    some [(11, some (57 / 8)), (12, some (57 / 8)), (13, some (57 / 8))] := by decide +kernel

end Anticipy
