import Verif.Spec.Nested
import Verif.Props.Unique
import Verif.Props.UnitModels
import Verif.Props.UnitChoice
import Verif.Props.EachSeries
import Verif.Props.Starting
import Verif.Props.Total
import Verif.Props.PointByPoint
import Verif.Lemmas.ExactSolver

/-
C102: a richer model never fits worse.
-/
namespace Anticipy
open Spec
variable {K : Type} [Field K] [LinearOrder K]

/-! ### One fit -/

/-- **C102, two fits of the same series.** -/
theorem C102_fit_partial [IsStrictOrderedRing K] (env env' : Env K) (hmin : FindsMinimum env) (hmin' : FindsMinimum env') (m m' : ForecastModel K) (df : Frame K)
    (act : Option (Frame K)) (c c' : Bool) (f f' : FitResult K) (hu : Unpinned m) (hu' : Unpinned m') (hn : m.nParams ≠ 0) (hn' : m'.nParams ≠ 0)
    (h : fitModel env m df act c = .ok f) (h' : fitModel env' m' df act c' = .ok f') (hf : f.isFit = true) (hf' : f'.isFit = true)
    (reg reg' : Registry K) (hreg : Registered env.globalCache reg m) (hreg' : Registered env'.globalCache reg' m')
    (ht : CacheTransparent reg m) (ht' : CacheTransparent reg' m') (hs : m.name ≠ "logistic" ∧ m.name ≠ "sigmoid")
    (hs' : m'.name ≠ "logistic" ∧ m'.name ≠ "sigmoid") (hcov : Covers df.hasDate m m') :
    ∃ e e', f.cost = some e ∧ f'.cost = some e' ∧ e' ≤ e := by
  obtain ⟨k1, ctx, guess, b, r, h1, h2, h3, h4, h5, h6, h7, h8, -, h9, h10, -⟩ := fitModel_solver env m df act c f hu hn h hf
  obtain ⟨-, ctx', guess', b', r', h1', h2', h3', h4', h5', h6', h7', h8', -, h9', h10', -⟩ := fitModel_solver env' m' df act c' f' hu' hn' h' hf'
  obtain ⟨ha, l, hl, hc, -⟩ := hmin _ _ _ _ h5 h6
  obtain ⟨ha', l', hl', hc', hle⟩ := hmin' _ _ _ _ h5' h6'
  rw [h8, h8', hc, hc']
  refine ⟨_, _, rfl, rfl, ?_⟩
  have hx : ctx'.ax = ctx.ax := by
    rw [h1, h1']
    unfold scaleX
    rw [if_neg (not_or.2 hs), if_neg (not_or.2 hs')]
  have hlen : ctx.ax.length = (usableRows df).length := by
    rw [h1]
    unfold scaleX
    split_ifs <;> simp
  rw [hx] at h4'
  obtain ⟨q, hq, hv⟩ := hcov ctx.ax _ ((usableRows df).map Row.date) act b b' _ _ (by intro e; rw [e] at hlen; simp at hlen; omega) (by simp [hlen]) h4 h4' ha ha'
  have hctx : noCache ctx = { ax := ctx.ax, adate := if df.hasDate then some ((usableRows df).map Row.date) else none, actuals := act } := by
    unfold noCache
    rw [h2, h3]
  have hctx' : noCache ctx' = { ax := ctx.ax, adate := if df.hasDate then some ((usableRows df).map Row.date) else none, actuals := act } := by
    unfold noCache
    rw [h2', h3', hx]
  have key : getResiduals m' ctx' (prepare df).ys (prepare df).ws (some q) = .ok (vecOf l) := by
    unfold getResiduals at hl ⊢
    simp only [bind, Except.bind] at hl ⊢
    rw [cached_value env.globalCache reg m hreg ht c ctx h10 h9, hctx] at hl
    rw [cached_value env'.globalCache reg' m' hreg' ht' c' ctx' h10' h9', hctx']
    cases hp : m.fModel { ax := ctx.ax, adate := if df.hasDate then some ((usableRows df).map Row.date) else none, actuals := act } (some r.params) false with
    | error e => rw [hp] at hl; cases hl
    | ok a =>
      rw [hp] at hl
      rw [hv a hp]
      exact hl
  have := hle q l hq key
  exact div_le_div_of_nonneg_right this (by norm_num)

/-! ### Whole runs -/

/-- The fit behind a row of the metadata of a run. -/
theorem metadata_fit [FloorRing K] [IsStrictOrderedRing K] (w : World K) (args : RunArgs K) (source : String) (df : Frame K) (res : RunResult K)
    (h : runSingle w args source df = .ok res) :
    ∃ (used : Frame K) (act : Option (Frame K)) (c : Bool) (df' : Frame K) (cand : AddMult × List (ForecastModel K)), used.hasDate = df.hasDate ∧
      candidates w.ch args.models df' (runFreq df) = .ok cand ∧
      ∀ b ∈ res.metadata, ∃ k, ∃ m ∈ cand.2, ∃ f, fitModel (w.env source k) m used act c = .ok f ∧ b.model = f.modelName ∧ b.isFit = f.isFit ∧
        b.cost = f.cost ∧ b.params = f.params := by
  obtain ⟨d, h1, -, h3, -⟩ := runSingle_inv w args source df res h
  obtain ⟨st⟩ := runFits_stages w args source df d h1
  obtain ⟨s1, s2, -⟩ := fitLoop_spec _ _ _ _ _ st.hFits
  refine ⟨usedRows (defaultWeights st.df2).1, some st.actuals,
    (mkSetup w args source df (defaultWeights st.df2).1 (defaultWeights st.df2).2 st.cand.1 st.actuals).useCache, _, _, ?_, st.hCand, ?_⟩
  · obtain ⟨spike, -, -, -, hd⟩ := weights_stage _ _ _ st.hOut
    rw [hd, filterStart_rows]
    rfl
  · intro b hb
    have hb' : b ∈ d.2 := by
      rw [h3] at hb
      unfold selectFits at hb
      split_ifs at hb
      · exact hb
      · exact (List.mem_filter.1 hb).1
    rw [st.hd] at hb'
    obtain ⟨r, hr, rfl⟩ := List.mem_map.1 hb'
    obtain ⟨k, hk, hk'⟩ := List.getElem_of_mem hr
    obtain ⟨f, rows, e1, -, e3, -⟩ := s2 k _ (List.getElem?_eq_getElem (by omega : k < st.cand.2.length))
    rw [List.getElem?_eq_getElem hk, hk'] at e3
    cases e3
    exact ⟨_, _, List.getElem_mem _, f, e1, rfl, rfl, rfl, rfl⟩

/-- **C102, whole runs.** A run with a solver that finds minima: if a model `m'` can draw every curve of a model `m`, the metadata report for `m'` at most the
cost that they report for `m`. -/
theorem C102_run_partial [IsStrictOrderedRing K] [FloorRing K] (w : World K) (args : RunArgs K) (source : String) (df : Frame K) (res : RunResult K)
    (h : runSingle w args source df = .ok res) (m m' : ForecastModel K) (reg reg' : Registry K) (hx : FitsExactly w args source df m reg)
    (hx' : FitsExactly w args source df m' reg')
    (hall : ∀ df' cand, candidates w.ch args.models df' (runFreq df) = .ok cand → ∀ m1 ∈ cand.2, Unpinned m1) (hn : m.nParams ≠ 0) (hn' : m'.nParams ≠ 0)
    (ht : CacheTransparent reg m) (ht' : CacheTransparent reg' m') (hs : m.name ≠ "logistic" ∧ m.name ≠ "sigmoid")
    (hs' : m'.name ≠ "logistic" ∧ m'.name ≠ "sigmoid") (hcov : Covers df.hasDate m m') (b b' : MRow K) (hb : b ∈ res.metadata) (hb' : b' ∈ res.metadata)
    (hbm : b.model = m.name) (hbm' : b'.model = m'.name) (hf : b.isFit = true) (hf' : b'.isFit = true) :
    ∃ e e', b.cost = some e ∧ b'.cost = some e' ∧ e' ≤ e := by
  obtain ⟨used, act, c, df', cand, h1, h2, h3⟩ := metadata_fit w args source df res h
  obtain ⟨k, m1, q1, f, q2, q3, q4, q5, -⟩ := h3 b hb
  obtain ⟨k', m1', q1', f', q2', q3', q4', q5', -⟩ := h3 b' hb'
  have e1 : m1 = m := hx.only _ _ h2 _ q1 (by rw [← fit_unpinned _ _ _ _ _ _ (hall _ _ h2 _ q1) q2, ← q3, hbm])
  have e1' : m1' = m' := hx'.only _ _ h2 _ q1' (by rw [← fit_unpinned _ _ _ _ _ _ (hall _ _ h2 _ q1') q2', ← q3', hbm'])
  subst e1 e1'
  rw [q5, q5']
  exact C102_fit_partial _ _ (hx.minimum k) (hx'.minimum k') m1 m1' used act c c f f' (hall _ _ h2 _ q1) (hall _ _ h2 _ q1') hn hn' q2 q2'
    (by rw [← q4, hf]) (by rw [← q4', hf']) reg reg' (hx.registered k) (hx'.registered k') ht ht' hs hs' (by rw [h1]; exact hcov)

/-- **C102, tables.** The same for every series of a table. -/
theorem C102_table_partial [IsStrictOrderedRing K] [FloorRing K] (w : World K) (args : RunArgs K) (id : String) (t : STable K) (res : RunResult K)
    (h : runForecast w args id t = .ok (some res)) (s : String) (hser : IsSeries t id s) (m m' : ForecastModel K) (reg reg' : Registry K)
    (hmin : ∀ i, FindsMinimum (w.env s i)) (hreg : ∀ i, Registered (w.env s i).globalCache reg m) (hreg' : ∀ i, Registered (w.env s i).globalCache reg' m')
    (hcand : ∀ df' fr cand, candidates w.ch args.models df' fr = .ok cand → ∀ m1 ∈ cand.2, Unpinned m1 ∧ (m1.name = m.name → m1 = m) ∧ (m1.name = m'.name → m1 = m'))
    (hn : m.nParams ≠ 0) (hn' : m'.nParams ≠ 0)
    (ht : CacheTransparent reg m) (ht' : CacheTransparent reg' m') (hs : m.name ≠ "logistic" ∧ m.name ≠ "sigmoid")
    (hs' : m'.name ≠ "logistic" ∧ m'.name ≠ "sigmoid") (hcov : Covers t.hasDate m m') (b b' : MRow K) (hb : b ∈ (partOf t s res).metadata)
    (hb' : b' ∈ (partOf t s res).metadata) (hbm : b.model = m.name) (hbm' : b'.model = m'.name) (hf : b.isFit = true) (hf' : b'.isFit = true) :
    ∃ e e', b.cost = some e ∧ b'.cost = some e' ∧ e' ≤ e := by
  obtain ⟨df, e1, -, -, -, -, e⟩ := each_series w args id t res h s hser
  exact C102_run_partial w args s df _ e m m' reg reg' ⟨hmin, fun df' cand hc m1 h1 => (hcand _ _ _ hc m1 h1).2.1, hreg⟩
    ⟨hmin, fun df' cand hc m1 h1 => (hcand _ _ _ hc m1 h1).2.2, hreg'⟩ (fun df' cand hc m1 h1 => (hcand _ _ _ hc m1 h1).1) hn hn' ht ht' hs hs'
    (by rw [e1]; exact hcov) b b' hb hb' hbm hbm' hf hf'

/-! ### Models that contain others -/

theorem covers_refl (dated : Bool) (m : ForecastModel K) : Covers dated m m := by
  intro ax ay ds act b b' p q0 h0 hd h1 h2 hp hq
  rw [h1] at h2
  cases h2
  exact ⟨p, hp, fun a ha => ha⟩

/-- What contains a model that contains a third, contains the third (the model in between has admissible parameters whenever the first does). -/
theorem covers_trans (dated : Bool) (m1 m2 m3 : ForecastModel K) (h12 : Covers dated m1 m2) (h23 : Covers dated m2 m3)
    (hb : ∀ args b1 b3, m1.fBounds args = .ok b1 → m3.fBounds args = .ok b3 → ∃ b2 q, m2.fBounds args = .ok b2 ∧ Admissible q b2) : Covers dated m1 m3 := by
  intro ax ay ds act b b' p q0 h0 hd h1 h2 hp hq
  obtain ⟨b2, q2, e1, e2⟩ := hb _ _ _ h1 h2
  obtain ⟨r, r1, r2⟩ := h12 ax ay ds act b b2 p q2 h0 hd h1 e1 hp e2
  obtain ⟨q, s1, s2⟩ := h23 ax ay ds act b2 b' r q0 h0 hd e1 h2 r1 hq
  exact ⟨q, s1, fun a ha => s2 a (r2 a ha)⟩

/-- **C102, further components.** A sum (product) contains its first part if the second part can be without effect. -/
theorem C102_component_partial (dated mult : Bool) (m m2 : ForecastModel K) (hm : m.name ≠ "null") (hm2 : m2.name ≠ "null") (hc : RightCount m)
    (hv : OneEach dated m) (hmode : mult = true → SameAsFactor m) (hneutral : CanBeNeutral dated mult m2) : Covers dated m (compose mult m m2) := by
  intro ax ay ds act b b' p q0 h0 hd h1 h2 hp hq
  have hbounds : (compose mult m m2).fBounds = fConcatBounds m m2 := by simp [compose, hm, hm2]
  rw [hbounds] at h2
  unfold fConcatBounds at h2
  rw [h1] at h2
  simp only [bind, Except.bind] at h2
  cases h3 : m2.fBounds ⟨some ax, some ay, none⟩ with
  | error e => rw [h3] at h2; cases h2
  | ok b2 =>
    rw [h3] at h2
    cases h2
    obtain ⟨c1, c2⟩ := hc.bounds _ _ h1
    have hl : p.length = m.nParams := by rw [← c1]; exact hp.2.1.symm
    have hq' : q0 = q0.take m.nParams ++ q0.drop m.nParams := (List.take_append_drop _ _).symm
    have hlen : b.lo.length + b2.lo.length = q0.length := by simpa using hq.2.1
    rw [hq'] at hq
    obtain ⟨-, g2⟩ := (admissible_append _ _ _ _ _ _ true b.isArray b2.isArray (by rw [c1, List.length_take]; omega) (by rw [c2, List.length_take]; omega)).1 hq
    obtain ⟨q2, k1, k2⟩ := hneutral ax ay ds act b2 _ h0 hd h3 g2
    refine ⟨p ++ q2, (admissible_append _ _ _ _ _ _ true b.isArray b2.isArray (by omega) (by omega)).2 ⟨hp, k1⟩, ?_⟩
    intro a ha
    rw [compose_fModel mult m m2 hm hm2]
    rw [List.take_left' hl, List.drop_left' hl, k2]
    have ha' : m.fModel { ax := ax, adate := if dated then some ds else none, actuals := act } (some p) mult = .ok a := by
      cases mult with
      | false => exact ha
      | true => rw [hmode rfl]; exact ha
    rw [ha']
    obtain ⟨l, rfl, hl'⟩ := hv ax ds act p mult a hd ha'
    have lens : l.length = ((ax.map fun _ => if mult = true then (1 : K) else 0).map some).length := by simp [hl']
    have zip : ∀ (op : K → K → K) (e : K), (∀ v, op v e = v) → ∀ (l : List (Option K)) (k : List K), l.length = k.length →
        List.zipWith (lift2 op) l ((k.map fun _ => e).map some) = l := by
      intro op e he l
      induction l with
      | nil => intro k _; rfl
      | cons v l ih =>
        intro k hk
        cases k with
        | nil => cases hk
        | cons x k =>
          simp only [List.map_cons, List.zipWith_cons_cons]
          rw [ih k (by simpa using hk)]
          congr 1
          cases v with
          | none => rfl
          | some v => simp [lift2, he]
    cases mult with
    | false =>
      simp only [bind, Except.bind, vecOf, Arr.bin, Bool.false_eq_true, if_false] at lens ⊢
      rw [if_pos lens, zip (fun a b => a + b) 0 (fun v => add_zero v) l ax hl']
    | true =>
      simp only [bind, Except.bind, vecOf, Arr.bin, if_true] at lens ⊢
      rw [if_pos lens, zip (fun a b => a * b) 1 (fun v => mul_one v) l ax hl']

/-- A sum of components without effect, and a product of components without effect, are without effect. -/
theorem neutral_compose (dated mult : Bool) (a b : ForecastModel K) (ha : a.name ≠ "null") (hb : b.name ≠ "null") (hc : RightCount a)
    (h1 : CanBeNeutral dated mult a) (h2 : CanBeNeutral dated mult b) : CanBeNeutral dated mult (compose mult a b) := by
  intro ax ay ds act bd q0 h0 hd hbd hq
  have hbounds : (compose mult a b).fBounds = fConcatBounds a b := by simp [compose, ha, hb]
  rw [hbounds] at hbd
  unfold fConcatBounds at hbd
  simp only [bind, Except.bind] at hbd
  cases e1 : a.fBounds ⟨some ax, some ay, none⟩ with
  | error e => rw [e1] at hbd; cases hbd
  | ok ba =>
    cases e2 : b.fBounds ⟨some ax, some ay, none⟩ with
    | error e => rw [e1, e2] at hbd; cases hbd
    | ok bb =>
      rw [e1, e2] at hbd
      cases hbd
      obtain ⟨c1, c2⟩ := hc.bounds _ _ e1
      have hlen : ba.lo.length + bb.lo.length = q0.length := by simpa using hq.2.1
      rw [← List.take_append_drop a.nParams q0] at hq
      obtain ⟨g1, g2⟩ := (admissible_append _ _ _ _ _ _ true ba.isArray bb.isArray (by rw [c1, List.length_take]; omega) (by rw [c2, List.length_take]; omega)).1 hq
      obtain ⟨p, p1, p2⟩ := h1 ax ay ds act ba _ h0 hd e1 g1
      obtain ⟨q, q1, q2⟩ := h2 ax ay ds act bb _ h0 hd e2 g2
      have hl : p.length = a.nParams := by rw [← c1]; exact p1.2.1.symm
      refine ⟨p ++ q, (admissible_append _ _ _ _ _ _ true ba.isArray bb.isArray (by omega) (by omega)).2 ⟨p1, q1⟩, ?_⟩
      rw [compose_fModel mult a b ha hb, List.take_left' hl, List.drop_left' hl, p2, q2]
      simp only [bind, Except.bind, vecOf, Arr.bin, List.length_map, if_true]
      rw [List.zipWith_map_left, List.zipWith_map_right, List.zipWith_self] 
      cases mult <;> simp [lift2]

/-! ### Models of the library -/

theorem oneEach_trend (dated : Bool) (m : ForecastModel K) (h : m ∈ [modelConstant, modelLinear, modelLinearNondec, modelStep, modelRamp]) :
    OneEach dated m := by
  intro ax ds act p mult a hd ha
  simp only [List.mem_cons, List.not_mem_nil, or_false] at h
  rcases h with rfl | rfl | rfl | rfl | rfl
  · simp only [modelConstant, mkModel, fModelConstant, bind, Except.bind] at ha
    rcases unpack1_cases p with ⟨v, e⟩ | e <;> rw [e] at ha <;> cases ha
    exact ⟨_, rfl, by simp⟩
  · simp only [modelLinear, mkModel, fModelLinear, bind, Except.bind] at ha
    rcases unpack2_cases p with ⟨v, e⟩ | e <;> rw [e] at ha <;> cases ha
    exact ⟨_, rfl, by simp⟩
  · simp only [modelLinearNondec, mkModel, fModelLinear, bind, Except.bind] at ha
    rcases unpack2_cases p with ⟨v, e⟩ | e <;> rw [e] at ha <;> cases ha
    exact ⟨_, rfl, by simp⟩
  · simp only [modelStep, mkModel, fStep, bind, Except.bind] at ha
    rcases unpack2_cases p with ⟨v, e⟩ | e <;> rw [e] at ha <;> cases ha
    exact ⟨_, rfl, by simp⟩
  · simp only [modelRamp, mkModel, fRamp, bind, Except.bind] at ha
    rcases unpack2_cases p with ⟨v, e⟩ | e <;> rw [e] at ha <;> cases ha
    exact ⟨_, rfl, by simp⟩

theorem oneEach_compose (dated mult : Bool) (a b : ForecastModel K) (ha : a.name ≠ "null") (hb : b.name ≠ "null") (h1 : OneEach dated a) (h2 : OneEach dated b) :
    OneEach dated (compose mult a b) := by
  intro ax ds act p mode r hd hr
  rw [compose_fModel mult a b ha hb] at hr
  simp only [bind, Except.bind] at hr
  split at hr
  · cases hr
  · rename_i v hv
    split at hr
    · cases hr
    · rename_i v' hv'
      obtain ⟨l, rfl, e1⟩ := h1 ax ds act _ _ _ hd hv
      obtain ⟨l', rfl, e2⟩ := h2 ax ds act _ _ _ hd hv'
      have e3 : l.length = l'.length := e1.trans e2.symm
      cases mult
      all_goals
        simp only [Arr.bin, e3, if_true, Bool.false_eq_true, if_false] at hr
        cases hr
        exact ⟨_, rfl, by simp [e1, e2]⟩

theorem sameAsFactor_line : SameAsFactor (modelConstant : ForecastModel K) ∧ SameAsFactor (modelLinear : ForecastModel K) ∧
    SameAsFactor (modelLinearNondec : ForecastModel K) := ⟨fun _ _ => rfl, fun _ _ => rfl, fun _ _ => rfl⟩

theorem sameAsFactor_compose (mult : Bool) (a b : ForecastModel K) (ha : a.name ≠ "null") (hb : b.name ≠ "null") : SameAsFactor (compose mult a b) := by
  intro ctx p
  rw [compose_fModel mult a b ha hb, compose_fModel mult a b ha hb]

theorem admissible_free (n : Nat) (m : ForecastModel K) (hm : m.fBounds = fBoundsDefault n) (args : InitArgs K) (b : Bounds K) (h : m.fBounds args = .ok b)
    (p : List K) : Admissible p b ↔ p.length = n := by
  rw [hm] at h
  cases h
  exact admissible_default n p false

/-- A line contains every level, and every line that does not fall; a line that does not fall contains every level. -/
theorem C102_trends_partial [IsStrictOrderedRing K] (dated : Bool) : Covers dated (modelConstant : ForecastModel K) modelLinear ∧
    Covers dated (modelConstant : ForecastModel K) modelLinearNondec ∧ Covers dated (modelLinearNondec : ForecastModel K) modelLinear := by
  refine ⟨?_, ?_, ?_⟩
  · intro ax ay ds act b b' p q0 h0 hd h1 h2 hp hq
    rw [admissible_free 1 modelConstant rfl _ _ h1] at hp
    obtain ⟨v, rfl⟩ := List.length_eq_one_iff.1 hp
    refine ⟨[0, v], (admissible_free 2 modelLinear rfl _ _ h2 _).2 rfl, ?_⟩
    intro a ha
    cases ha
    simp only [modelLinear, mkModel, fModelLinear, unpack2, bind, Except.bind, zero_mul, zero_add]
  · intro ax ay ds act b b' p q0 h0 hd h1 h2 hp hq
    rw [admissible_free 1 modelConstant rfl _ _ h1] at hp
    obtain ⟨v, rfl⟩ := List.length_eq_one_iff.1 hp
    cases h2
    refine ⟨[0, v], ⟨rfl, rfl, rfl, ?_⟩, ?_⟩
    · intro i g1 g2 g3
      have : i = 0 ∨ i = 1 := by simp at g1; omega
      rcases this with rfl | rfl
      · exact ⟨decide_eq_true (le_refl (0 : K)), rfl⟩
      · exact ⟨rfl, rfl⟩
    · intro a ha
      cases ha
      simp only [modelLinearNondec, mkModel, fModelLinear, unpack2, bind, Except.bind, zero_mul, zero_add]
  · intro ax ay ds act b b' p q0 h0 hd h1 h2 hp hq
    cases h1
    have hl : p.length = 2 := hp.2.1.symm
    exact ⟨p, (admissible_free 2 modelLinear rfl _ _ h2 _).2 hl, fun a ha => ha⟩

/-- Trends and steps can be without effect, on series with and without dates. -/
theorem neutral_trend (dated mult : Bool) (m : ForecastModel K) (h : m ∈ [modelConstant, modelLinear, modelStep, modelRamp]) : CanBeNeutral dated mult m := by
  intro ax ay ds act b q0 h0 hd hb hq
  simp only [List.mem_cons, List.not_mem_nil, or_false] at h
  rcases h with rfl | rfl | rfl | rfl
  · refine ⟨[if mult then 1 else 0], (admissible_free 1 modelConstant rfl _ _ hb _).2 rfl, ?_⟩
    simp only [modelConstant, mkModel, fModelConstant, unpack1, bind, Except.bind]
  · refine ⟨[0, if mult then 1 else 0], (admissible_free 2 modelLinear rfl _ _ hb _).2 rfl, ?_⟩
    simp only [modelLinear, mkModel, fModelLinear, unpack2, bind, Except.bind, zero_mul, zero_add]
  · refine ⟨[0, if mult then 1 else 0], (admissible_free 2 modelStep rfl _ _ hb _).2 rfl, ?_⟩
    cases mult <;> simp [modelStep, mkModel, fStep, unpack2, bind, Except.bind]
  · have hl : b.lo.length = 2 ∧ b.hi.length = 2 := (count_library modelRamp (.inl (by simp))).bounds _ _ hb
    have hl2 : q0.length = 2 := by rw [← hl.1]; exact hq.2.1.symm
    obtain ⟨a, c, rfl⟩ := List.length_eq_two.1 hl2
    refine ⟨[a, 0], ⟨rfl, hl.1, hl.2, ?_⟩, ?_⟩
    · intro i g1 g2 g3
      have := hq.2.2.2 0 (by simp) (by omega) (by omega)
      have hi : i = 0 ∨ i = 1 := by simp at g1; omega
      rcases hi with rfl | rfl
      · exact this
      · simp only [modelRamp, mkModel, fBoundsRamp, bind, Except.bind] at hb
        split at hb
        · cases hb
        · split at hb
          · cases hb
          · cases hb
            exact ⟨rfl, rfl⟩
    · cases mult <;> simp [modelRamp, mkModel, fRamp, unpack2, bind, Except.bind]

theorem map_const_length {α β γ : Type} (c : γ) (l : List α) (k : List β) (h : l.length = k.length) : (l.map fun _ => c) = k.map fun _ => c := by
  apply List.ext_getElem (by simp [h])
  intro i h1 h2
  simp

/-- Seasons, steps and spikes at dates, and dummy variables can be without effect on series with dates. -/
theorem neutral_dated (mult : Bool) (m : ForecastModel K)
    (h : m ∈ [modelSeasonWday, modelSeasonMonth] ∨ (∃ label d, m = getModelStepDate label d) ∨ (∃ label d d', m = getModelSpikeDate label d d') ∨
      ∃ name f, getModelDummy name f = .ok m ∧ ∀ ax ds, ds.length = ax.length → ax ≠ [] → ∃ mask, f ax (some ds) = .ok mask ∧ mask.length = ax.length) :
    CanBeNeutral true mult m := by
  intro ax ay ds act b q0 h0 hd hb hq
  simp only [List.mem_cons, List.not_mem_nil, or_false] at h
  rcases h with (rfl | rfl) | ⟨label, d, rfl⟩ | ⟨label, d, d', rfl⟩ | ⟨name, f, hf, hmask⟩
  · refine ⟨List.replicate 6 (if mult then 1 else 0), (admissible_free 6 modelSeasonWday rfl _ _ hb _).2 (by simp), ?_⟩
    refine Eq.trans (seasonWday_eq (if mult then 1 else 0) (if mult then 1 else 0) (if mult then 1 else 0) (if mult then 1 else 0) (if mult then 1 else 0)
      (if mult then 1 else 0) ax ds mult).2 ?_
    simp only [ite_self, vecOf]
    rw [List.map_map]
    simp only [Function.comp_def]
    rw [map_const_length _ ds ax hd]
  · refine ⟨List.replicate 11 (if mult then 1 else 0), (admissible_free 11 modelSeasonMonth rfl _ _ hb _).2 (by simp), ?_⟩
    refine Eq.trans (seasonMonth_eq (List.replicate 11 (if mult then 1 else 0)) (by simp) ax ds mult).2 ?_
    unfold vecOf
    rw [List.map_map]
    simp only [Function.comp_def]
    rw [← map_const_length (some (if mult = true then (1 : K) else 0)) ds ax hd]
    congr 2
    apply List.map_congr_left
    intro t _
    have := month_range t
    split_ifs with c1
    all_goals first | rfl | skip
    all_goals rw [List.getElem?_replicate, if_pos (by omega)]
  · refine ⟨[if mult then 1 else 0], (admissible_free 1 (getModelStepDate label d) rfl _ _ hb _).2 rfl, ?_⟩
    simp only [getModelStepDate, mkModel, fModelStepDate, unpack1, bind, Except.bind, if_true]
    rw [← map_const_length _ ds ax hd]
    cases mult <;> simp
  · refine ⟨[if mult then 1 else 0], (admissible_free 1 (getModelSpikeDate label d d') rfl _ _ hb _).2 rfl, ?_⟩
    simp only [getModelSpikeDate, mkModel, fModelSpikeDate, unpack1, bind, Except.bind, if_true]
    rw [← map_const_length _ ds ax hd]
    cases mult
    · simp
    · congr 2
      apply List.map_congr_left
      intro t _
      split_ifs <;> simp
  · rw [getModelDummy_ok name f m hf] at hb ⊢
    refine ⟨[0], (admissible_free 1 (dummyModel name f) rfl _ _ hb _).2 rfl, ?_⟩
    obtain ⟨mask, e1, e2⟩ := hmask ax ds hd h0
    simp only [dummyModel, mkModel, fModelDummy, unpack1, bind, Except.bind, if_true, e1]
    rw [← map_const_length _ mask ax e2]
    cases mult <;> simp

/-! ### Concrete cases -/

/-- A trend with weekly season, in sum and in product, contains the trend; with a yearly step at a date on top it contains both. -/
example (d : Timestamp) : Covers true (modelLinear : ForecastModel ℚ) (modelLinear.add modelSeasonWday) ∧
    Covers true (modelLinear : ForecastModel ℚ) (modelLinear.mul modelSeasonWday) ∧
    Covers true (modelLinear.add modelRamp : ForecastModel ℚ) ((modelLinear.add modelRamp).add (getModelStepDate (fun _ => "d") d)) := by
  have hl : RightCount (modelLinear : ForecastModel ℚ) := count_library _ (.inl (by simp))
  have n1 : (modelLinear : ForecastModel ℚ).name ≠ "null" := by simp [modelLinear, mkModel]
  have n2 : (modelRamp : ForecastModel ℚ).name ≠ "null" := by simp [modelRamp, mkModel]
  have n3 : (modelSeasonWday : ForecastModel ℚ).name ≠ "null" := by simp [modelSeasonWday, mkModel]
  have n4 : (getModelStepDate (fun _ => "d") d : ForecastModel ℚ).name ≠ "null" := by simp [getModelStepDate, mkModel]
  refine ⟨C102_component_partial true false _ _ n1 n3 hl (oneEach_trend _ _ (by simp)) (by simp) (neutral_dated _ _ (.inl (by simp))),
    C102_component_partial true true _ _ n1 n3 hl (oneEach_trend _ _ (by simp)) (fun _ => sameAsFactor_line.2.1) (neutral_dated _ _ (.inl (by simp))),
    C102_component_partial true false _ _ (compose_name _ _ _ n1 n2) n4 (count_compose _ _ _ hl (count_library _ (.inl (by simp))))
      (oneEach_compose _ _ _ _ n1 n2 (oneEach_trend _ _ (by simp)) (oneEach_trend _ _ (by simp))) (by simp) (neutral_dated _ _ (.inr (.inl ⟨_, _, rfl⟩)))⟩

/-- Four days on a line. -/
def risingFrame : Frame ℚ := ⟨true, false, [⟨0, 0, some 1, none⟩, ⟨DAY, 1, some 3, none⟩, ⟨2 * DAY, 2, some 5, none⟩, ⟨3 * DAY, 3, some 7, none⟩]⟩

/-- The level fits the four days at cost 10, the line at cost 0. -/
example : ∃ (f f' : FitResult ℚ), FindsMinimum (exactEnv demoEnv) ∧ fitModel (exactEnv demoEnv) modelConstant risingFrame none false = .ok f ∧
    fitModel (exactEnv demoEnv) modelLinear risingFrame none false = .ok f' ∧ f.isFit = true ∧ f'.isFit = true ∧ f.cost = some 10 ∧ f'.cost = some 0 := by
  have hs : ScoreReturns demoEnv (usableRows risingFrame).length := fun _ _ _ _ => ⟨_, rfl⟩
  have hu : usableRows risingFrame = risingFrame.rows := by
    unfold usableRows
    rw [List.filter_eq_self]
    intro r hr
    simp only [risingFrame, List.mem_cons, List.not_mem_nil, or_false] at hr
    rcases hr with rfl | rfl | rfl | rfl <;> simp [Usable, risingFrame]
  have hp : prepare risingFrame = ⟨[0, 1, 2, 3], [1, 3, 5, 7], some [0, DAY, 2 * DAY, 3 * DAY], none⟩ := by
    rw [prepare_eq, hu]
    simp [risingFrame, hasDup]
  have hx : ((usableRows risingFrame).map Row.x).Pairwise (· < ·) := by
    rw [hu]
    simp [risingFrame]
  obtain ⟨f, f1, f2, f3⟩ := exact_fit demoEnv demoEnv.globalCache modelConstant dependable_constant risingFrame none hs rfl hx
    (by rw [hu]; simp [risingFrame, modelConstant, mkModel]) rfl [4] [3, 1, 1, 3] (by
      intro b hb
      rw [hp]
      refine ⟨(admissible_free 1 modelConstant rfl _ _ hb _).2 rfl, ?_, ?_⟩
      · have : getResiduals modelConstant { ax := scaleX modelConstant [0, 1, 2, 3], adate := some [0, DAY, 2 * DAY, 3 * DAY] } [1, 3, 5, 7] none (some [(4 : ℚ)]) =
          .ok (vecOf [|(1 : ℚ) - 4|, |3 - 4|, |5 - 4|, |7 - 4|]) := rfl
        dsimp only
        rw [this]
        congr 2 <;> norm_num [abs_of_neg, abs_of_pos]
      · intro p' l' hp' hl'
        obtain ⟨c, rfl⟩ := List.length_eq_one_iff.1 ((admissible_free 1 modelConstant rfl _ _ hb _).1 hp')
        have : getResiduals modelConstant { ax := scaleX modelConstant [0, 1, 2, 3], adate := some [0, DAY, 2 * DAY, 3 * DAY] } [1, 3, 5, 7] none (some [c]) =
          .ok (vecOf [|1 - c|, |3 - c|, |5 - c|, |7 - c|]) := rfl
        dsimp only at hl'
        rw [this] at hl'
        have e : l' = [|1 - c|, |3 - c|, |5 - c|, |7 - c|] := (List.map_injective_iff.2 (Option.some_injective ℚ) (Arr.vec.inj (Except.ok.inj hl'))).symm
        rw [e]
        simp only [sumSq, List.map_cons, List.map_nil, List.sum_cons, List.sum_nil, sq_abs]
        nlinarith [sq_nonneg (c - 4)])
  obtain ⟨f', g1, g2, g3⟩ := exact_fit demoEnv demoEnv.globalCache modelLinear dependable_linear risingFrame none hs rfl hx
    (by rw [hu]; simp [risingFrame, modelLinear, mkModel]) rfl [2, 1] [0, 0, 0, 0] (by
      intro b hb
      rw [hp]
      refine ⟨(admissible_free 2 modelLinear rfl _ _ hb _).2 rfl, ?_, ?_⟩
      · decide +kernel
      · intro p' l' hp' hl'
        have : sumSq [(0 : ℚ), 0, 0, 0] = 0 := by decide +kernel
        rw [this]
        exact sumSq_nonneg' l')
  refine ⟨f, f', exactEnv_minimum _, f1, g1, f2, g2, ?_, ?_⟩
  · rw [f3]
    congr 1
    decide +kernel
  · rw [g3]
    congr 1
    decide +kernel

end Anticipy
