import Verif.Spec.WildValue
import Verif.Props.Reported
import Verif.Props.LoneOutlierRuns
import Verif.Props.AdditiveTable

/-
C120: a single wild value does not spoil the forecast if outliers are searched for.
-/
namespace Anticipy
open Spec
variable {K : Type} [Field K] [LinearOrder K] [IsStrictOrderedRing K] [FloorRing K]

/-- The weights that a result reports. -/
def weightAt (res : RunResult K) (d : Int) : Option K := (res.data.find? fun r => r.isActuals && decide (r.date = d)).bind DRow.weight

omit [Field K] [LinearOrder K] [IsStrictOrderedRing K] [FloorRing K] in
/-- If observations have different dates, they are reported with the weights looked up by date. -/
theorem weightAt_reports (res : RunResult K) (hnd : ((res.data.filter DRow.isActuals).map DRow.date).Nodup) : ReportsWeights (weightAt res) res := by
  intro r hr ha
  unfold weightAt
  have hfind : ∀ (l : List (DRow K)), r ∈ l → ((l.filter DRow.isActuals).map DRow.date).Nodup →
      l.find? (fun q => q.isActuals && decide (q.date = r.date)) = some r := by
    intro l
    induction l with
    | nil => intro h _; cases h
    | cons q l ih =>
      intro hm hn
      by_cases hq : q.isActuals = true
      · rw [List.filter_cons_of_pos hq, List.map_cons, List.nodup_cons] at hn
        rcases List.mem_cons.1 hm with rfl | hm
        · rw [List.find?_cons_of_pos (by simp [ha])]
        · have hne : q.date ≠ r.date := fun e => hn.1 (e ▸ List.mem_map_of_mem (List.mem_filter.2 ⟨hm, ha⟩))
          rw [List.find?_cons_of_neg (by simp [hne])]
          exact ih hm hn.2
      · rw [List.filter_cons_of_neg hq] at hn
        rcases List.mem_cons.1 hm with rfl | hm
        · exact absurd ha hq
        · rw [List.find?_cons_of_neg (by simp [hq])]
          exact ih hm hn
  rw [hfind res.data hr hnd]
  rfl

/-- **C120, observations.** With or without a search for outliers: if the observations of the result that carry weight are an exact combination of the features of an additive
model, the forecasts of the model continue this combination. -/
theorem C120_observed (w : World K) (args : RunArgs K) (source : String) (df : Frame K) (res : RunResult K) (h : runSingle w args source df = .ok res)
    (m : ForecastModel K) (reg : Registry K) (feats : List (Feature K)) (hm : AddsUp m reg feats) (hne : feats ≠ [])
    (hx : FitsExactly w args source df m reg) (hdate : df.hasDate = true) (t0 : Timestamp) (hdays : CountsDays df t0) (hnd : (df.rows.map Row.x).Nodup)
    (hid : Identifies feats t0 (observed res)) (p : List K) (hp : p.length = feats.length)
    (hexact : ∀ r ∈ observed res, r.y = some (combination feats p ((r.date - t0) / (24 * 60 * 60 * 1000000000)) r.date)) :
    ForecastsAre res m.name (fun t => combination feats p ((t - t0) / (24 * 60 * 60 * 1000000000)) t) := by
  obtain ⟨spike, hl, h1, h2, h3⟩ := C40_weights w args source df res h
  have hpos : ∀ r, position df r = r.date := fun r => by unfold position; rw [if_pos hdate]
  -- each sample from the starting date on is an observation
  have hrow : ∀ r ∈ kept args.start df, ∃ q ∈ res.data, q.isActuals = true ∧ q.date = r.date ∧ q.y = r.y ∧
      ∃ b ∈ spike, q.weight = (givenWeight df r).map fun w => if b then 0 else w := by
    intro r hr
    obtain ⟨k, hk, e⟩ := List.getElem_of_mem hr
    have hmem : (position df r, r.y, (givenWeight df r).map fun w => if spike[k]'(by omega) then 0 else w) ∈
        (res.data.filter DRow.isActuals).map fun r => (r.date, r.y, r.weight) := by
      rw [h3]
      refine List.mem_iff_getElem.2 ⟨k, by simp; omega, ?_⟩
      rw [List.getElem_zipWith, e]
    obtain ⟨q, hq, e2⟩ := List.mem_map.1 hmem
    have hq := List.mem_filter.1 hq
    simp only [Prod.mk.injEq, hpos] at e2
    exact ⟨q, hq.1, hq.2, e2.1, e2.2.1, _, List.getElem_mem _, e2.2.2⟩
  have hsub : ∀ r ∈ kept args.start df, r ∈ df.rows := fun r hr => (List.mem_filter.1 hr).1
  have hval : ∀ r ∈ kept args.start df, ∀ q ∈ res.data, q.isActuals = true → q.date = r.date → q.y = r.y → (∃ v, q.weight = some v ∧ 0 < v) →
      ∀ v, r.y = some v → v = combination feats p r.x r.date := by
    rintro r hr q hq ha hd hy ⟨u, hu, hu0⟩ v hv
    have hob : q ∈ observed res := by
      unfold observed
      rw [List.mem_filter]
      refine ⟨hq, ?_⟩
      rw [ha, hy, hv, hu]
      simpa using hu0
    have := hexact q hob
    rw [hy, hv, hd] at this
    have hx : (r.date - t0) / (24 * 60 * 60 * 1000000000) = r.x := by
      have := hdays r (hsub r hr)
      omega
    rw [hx] at this
    exact Option.some.inj this
  by_cases hs : args.findOutliers = true
  · have hndates : ((res.data.filter DRow.isActuals).map DRow.date).Nodup := by
      have e : (res.data.filter DRow.isActuals).map DRow.date = (kept args.start df).map Row.date := by
        have := congrArg (List.map Prod.fst) h3
        rw [List.map_map, List.map_zipWith] at this
        refine Eq.trans ?_ (this.trans ?_)
        · rfl
        · simp only [hpos]
          rw [← List.map_uncurry_zip_eq_zipWith]
          have hz : ((kept args.start df).zip spike).map Prod.fst = kept args.start df := List.map_fst_zip (by omega)
          conv_rhs => rw [← hz]
          rw [List.map_map]
          rfl
      rw [e]
      have hn1 : (df.rows.map Row.date).Nodup := by
        rw [List.Nodup, List.pairwise_map] at hnd ⊢
        refine hnd.imp_of_mem ?_
        intro a b ha hb hab he
        have e1 := hdays a ha
        have e2 := hdays b hb
        omega
      exact hn1.sublist ((List.filter_sublist).map _)
    have hu := weightAt_reports res hndates
    have h' := C119_weights w args source df hs res h _ hu
    have hfreq : runFreq (givenFrame (weightAt res) df) = runFreq df := by
      unfold runFreq givenFrame
      simp only [List.map_map]
      rfl
    have hk : kept args.start (givenFrame (weightAt res) df) = (kept args.start df).map fun r => { r with weight := weightAt res (place df.hasDate r) } := by
      unfold kept givenFrame
      rw [List.filter_map]
      rfl
    refine C96_continued w { args with findOutliers := false } source (givenFrame (weightAt res) df) res h' m reg feats hm hne
      ⟨hx.minimum, fun df' cand hc => ?_, hx.registered⟩ hdate t0 ?_ ?_ hid p hp ?_
    · rw [hfreq] at hc
      exact hx.only df' cand hc
    · intro r hr
      obtain ⟨q, hq, rfl⟩ := List.mem_map.1 hr
      exact hdays q hq
    · unfold givenFrame
      rw [List.map_map]
      exact hnd
    · intro r hr hw v hv
      have hr : r ∈ kept args.start (givenFrame (weightAt res) df) := hr
      rw [hk] at hr
      obtain ⟨q, hq, rfl⟩ := List.mem_map.1 hr
      obtain ⟨o, ho, ha, hd, hy, -⟩ := hrow q hq
      refine hval q hq o ho ha hd hy ?_ v hv
      have : o.weight = weightAt res q.date := by rw [hu o ho ha, hd]
      rw [this]
      have hpl : place df.hasDate q = q.date := by unfold place; rw [if_pos hdate]
      simpa [givenWeight, givenFrame, hpl] using hw
  · have hs : args.findOutliers = false := by simpa using hs
    refine C96_continued w args source df res h m reg feats hm hne hx hdate t0 hdays hnd hid p hp ?_
    intro r hr hw v hv
    obtain ⟨o, ho, ha, hd, hy, b, hb, hwt⟩ := hrow r hr
    refine hval r hr o ho ha hd hy ?_ v hv
    rw [hwt, h2 hs b hb]
    simpa using hw

/-- **C120, observations of a table.** -/
theorem C120_table (w : World K) (args : RunArgs K) (id : String) (t : STable K) (hp : Proper t) (s : String) (hs : IsSeries t id s)
    (res : RunResult K) (h : runForecast w args id t = .ok (some res))
    (m : ForecastModel K) (reg : Registry K) (feats : List (Feature K)) (hm : AddsUp m reg feats) (hne : feats ≠ [])
    (hx : FitsExactly w args s (seriesFrame t s) m reg) (hid : Identifies feats (originOf t s) (observed (partOf t s res)))
    (p : List K) (hl : p.length = feats.length)
    (hexact : ∀ r ∈ observed (partOf t s res), r.y = some (combination feats p ((r.date - originOf t s) / (24 * 60 * 60 * 1000000000)) r.date)) :
    ForecastsAre (partOf t s res) m.name (fun d => combination feats p ((d - originOf t s) / (24 * 60 * 60 * 1000000000)) d) := by
  obtain ⟨hd, hrun⟩ := series_run w id t hp s hs
  exact C120_observed w args s _ _ (hrun args res h) m reg feats hm hne hx hd.dated _ hd.days hd.nodup hid p hl hexact

/-! ### A straight line with a single wild value -/

theorem quartile_middle (c : K) (l s : List K) (hp : s.Perm l) (hs : s.Pairwise (fun a b => a ≤ b)) (m : Nat) (hm : s.length = m + 6)
    (hz : ∀ k, 1 ≤ k → k ≤ m + 4 → s[k]? = some c) (q : K) (hq : q = 25 ∨ q = 75) : percentile l q = some c := by
  unfold percentile
  rw [sortBy_le_unique l s hp hs]
  dsimp only
  have hpos : 1 ≤ ((s.length - 1 : Nat) : K) * q / 100 ∧ ((s.length - 1 : Nat) : K) * q / 100 < ((m + 4 : Nat) : K) := by
    rw [hm, show m + 6 - 1 = m + 5 by omega]
    have hm0 : (0 : K) ≤ (m : K) := Nat.cast_nonneg m
    push_cast
    rcases hq with rfl | rfl <;> constructor <;> linarith
  have h1 : 1 ≤ ⌊((s.length - 1 : Nat) : K) * q / 100⌋₊ := Nat.le_floor (by simpa using hpos.1)
  have h2 : ⌊((s.length - 1 : Nat) : K) * q / 100⌋₊ < m + 4 := (Nat.floor_lt (by linarith [hpos.1])).2 hpos.2
  rw [hz _ h1 (by omega), hz _ (by omega) (by omega)]
  simp

/-- A list of equal numbers but for a smaller and a larger one has both quartiles equal to that number. -/
theorem thresholds_middle (c x y : K) (l : List (Option K)) (n : Nat) (hn : 4 ≤ n) (hx : x ≤ c) (hy : c ≤ y)
    (hp : (x :: (List.replicate n c ++ [y])).Perm (l.filterMap id)) : iqrThresholds l = some (c, c) := by
  have hs : (x :: (List.replicate n c ++ [y])).Pairwise (fun a b => a ≤ b) := by
    rw [List.pairwise_cons, List.pairwise_append]
    refine ⟨fun b hb => ?_, List.pairwise_replicate_of_refl, List.pairwise_singleton _ _, fun b hb c hc => ?_⟩
    · rw [List.mem_append] at hb
      rcases hb with hb | hb
      · rw [List.eq_of_mem_replicate hb]; exact hx
      · rw [List.mem_singleton.1 hb]; exact hx.trans hy
    · rw [List.eq_of_mem_replicate hb, List.mem_singleton.1 hc]; exact hy
  have hz : ∀ k, 1 ≤ k → k ≤ (n - 4) + 4 → (x :: (List.replicate n c ++ [y]))[k]? = some c := by
    intro k h1 h2
    obtain ⟨k, rfl⟩ : ∃ k', k = k' + 1 := ⟨k - 1, by omega⟩
    rw [List.getElem?_cons_succ, List.getElem?_append_left (by simp; omega), List.getElem?_replicate, if_pos (by omega)]
  have hlen : (x :: (List.replicate n c ++ [y])).length = (n - 4) + 6 := by simp; omega
  unfold iqrThresholds
  rw [quartile_middle c _ _ hp hs _ hlen hz 25 (.inl rfl), quartile_middle c _ _ hp hs _ hlen hz 75 (.inr rfl)]
  simp

omit [LinearOrder K] [IsStrictOrderedRing K] [FloorRing K] in
theorem lineSpike_get (a c h : K) (i j k : Nat) (hk : k < i + 1 + j) : (lineSpike a c h i j)[k]? = some (a * (k : K) + c + if k = i then h else 0) := by
  unfold lineSpike
  rw [List.getElem?_map, List.getElem?_range hk]
  rfl

omit [LinearOrder K] [IsStrictOrderedRing K] [FloorRing K] in
theorem difs_get (l : List K) : ∀ k, (difs l)[k]? = match l[k]?, l[k + 1]? with | some u, some v => some (v - u) | _, _ => none := by
  induction l with
  | nil => intro k; simp [difs, colDiff]
  | cons x l ih =>
    cases l with
    | nil => intro k; cases k <;> simp [difs, colDiff]
    | cons y l =>
      intro k
      rw [difs_cons]
      cases k with
      | zero => rfl
      | succ k => rw [List.getElem?_cons_succ, ih k]; rfl

omit [LinearOrder K] [IsStrictOrderedRing K] [FloorRing K] in
theorem difs_line (a c h : K) (i j : Nat) (hi : 1 ≤ i) (hj : 1 ≤ j) :
    difs (lineSpike a c h i j) = List.replicate (i - 1) a ++ (a + h) :: (a - h) :: List.replicate (j - 1) a := by
  apply List.ext_getElem?
  intro k
  rw [difs_get]
  rcases Nat.lt_or_ge (k + 1) (i + 1 + j) with hk | hk
  · rw [lineSpike_get a c h i j k (by omega), lineSpike_get a c h i j (k + 1) hk]
    dsimp only
    have off : ∀ n : Nat, n ≠ i → (if n = i then h else 0) = 0 := fun n hn => if_neg hn
    have on : ∀ n : Nat, n = i → (if n = i then h else 0) = h := fun n hn => if_pos hn
    rcases Nat.lt_trichotomy k (i - 1) with h1 | h1 | h1
    · rw [List.getElem?_append_left (by simpa using h1), List.getElem?_replicate, if_pos h1, off k (by omega), off (k + 1) (by omega)]
      congr 1
      push_cast
      ring
    · rw [List.getElem?_append_right (by simp; omega), off k (by omega), on (k + 1) (by omega), List.length_replicate, h1, Nat.sub_self,
        List.getElem?_cons_zero]
      congr 1
      push_cast
      ring
    · rw [List.getElem?_append_right (by simp; omega)]
      obtain ⟨e, he⟩ : ∃ e, k = i + e := ⟨k - i, by omega⟩
      subst he
      rw [List.length_replicate, show i + e - (i - 1) = e + 1 by omega, List.getElem?_cons_succ]
      cases e with
      | zero =>
        rw [List.getElem?_cons_zero, on (i + 0) (by omega), off (i + 0 + 1) (by omega)]
        congr 1
        push_cast
        ring
      | succ e =>
        rw [List.getElem?_cons_succ, List.getElem?_replicate, off (i + (e + 1)) (by omega), off (i + (e + 1) + 1) (by omega), if_pos (show e < j - 1 by omega)]
        congr 1
        push_cast
        ring
  · have : (lineSpike a c h i j)[k + 1]? = none := List.getElem?_eq_none (by simp only [lineSpike, List.length_map, List.length_range]; omega)
    have e : (List.replicate (i - 1) a ++ (a + h) :: (a - h) :: List.replicate (j - 1) a)[k]? = none :=
      List.getElem?_eq_none (by simp only [List.length_append, List.length_cons, List.length_replicate]; omega)
    rw [this, e]
    cases (lineSpike a c h i j)[k]? <;> rfl

/-- **C120, search.** A straight line of at least 7 samples with one sample that is off by more than the slope and is neither the first nor one of the last two: the search for
outliers reports this sample as a spike and nothing else. -/
theorem C120_found (df : Frame K) (hdate : InTimeOrder df) (a c h : K) (hh : |a| < |h|) (i j : Nat) (hv : HasValues df (lineSpike a c h i j)) (hi : 1 ≤ i) (hj : 2 ≤ j)
    (hn : 6 ≤ i + j) : getModelOutliers df 3 = .ok (List.replicate (i + 1 + j) false, markOnly i (i + 1 + j)) := by
  have hlen : df.rows.length = i + 1 + j := by rw [values_length df _ hv]; simp [lineSpike]
  have hdef : (df.rows.map (axis df)).Nodup := by
    have : axis df = Row.date := by funext r; unfold axis; rw [if_pos hdate.1]
    rw [this]
    exact hdate.2.imp fun h => by omega
  obtain ⟨⟨step, spike⟩, hm⟩ := (C39_defined df 3).2 hdef
  have hh0 : h ≠ 0 := by
    rintro rfl
    rw [abs_zero] at hh
    exact absurd hh (not_lt.2 (abs_nonneg a))
  have e : (colDiff (df.rows.map Row.y)).filterMap id = List.replicate (i - 1) a ++ (a + h) :: (a - h) :: List.replicate (j - 1) a := by
    rw [hv]
    exact difs_line a c h i j hi (by omega)
  have perm : ∀ x y : K, (x :: (List.replicate (i + j - 2) a ++ [y])).Perm (List.replicate (i - 1) a ++ x :: y :: List.replicate (j - 1) a) := by
    intro x y
    have h1 : (x :: (List.replicate (i + j - 2) a ++ [y])).Perm (x :: y :: List.replicate (i + j - 2) a) := (List.perm_append_comm).cons x
    have h2 : (List.replicate (i - 1) a ++ x :: y :: List.replicate (j - 1) a).Perm (x :: y :: (List.replicate (i - 1) a ++ List.replicate (j - 1) a)) :=
      List.perm_middle.trans (List.perm_middle.cons x)
    rw [List.replicate_append_replicate, show i - 1 + (j - 1) = i + j - 2 by omega] at h2
    exact h1.trans h2.symm
  have ht : iqrThresholds (colDiff (df.rows.map Row.y)) = some (a, a) := by
    rcases lt_or_gt_of_ne hh0 with hlt | hgt
    · refine thresholds_middle a (a + h) (a - h) _ (i + j - 2) (by omega) (by linarith) (by linarith) ?_
      rw [e]
      exact perm _ _
    · refine thresholds_middle a (a - h) (a + h) _ (i + j - 2) (by omega) (by linarith) (by linarith) ?_
      rw [e]
      exact (perm _ _).trans (List.Perm.append_left _ (List.Perm.swap _ _ _))
  have jump : ∀ k d, Jump df (k + 1) d → d = a + (if k + 1 = i then h else 0) - (if k = i then h else 0) := by
    intro k d hjp
    obtain ⟨u, v, hu, hv', rfl⟩ := (jump_values df _ hv k d).1 hjp
    have hk : k + 1 < i + 1 + j := by
      by_contra hc
      rw [List.getElem?_eq_none (by simp [lineSpike]; omega)] at hu
      cases hu
    rw [lineSpike_get _ _ _ _ _ _ hk, Option.some.injEq] at hu
    rw [lineSpike_get _ _ _ _ _ _ (by omega), Option.some.injEq] at hv'
    rw [← hu, ← hv']
    push_cast
    ring
  have hj1 : Jump df i (a + h) := by
    have := (jump_values df _ hv (i - 1) (a + h)).2 ⟨_, _, lineSpike_get a c h i j (i - 1 + 1) (by omega), lineSpike_get a c h i j (i - 1) (by omega), by
      rw [if_pos (by omega), if_neg (by omega)]; push_cast; ring⟩
    rwa [show i - 1 + 1 = i by omega] at this
  have hj2 : Jump df (i + 1) (a - h) :=
    (jump_values df _ hv i (a - h)).2 ⟨_, _, lineSpike_get a c h i j (i + 1) (by omega), lineSpike_get a c h i j i (by omega), by
      rw [if_neg (by omega), if_pos rfl]; push_cast; ring⟩
  have hprod : (a + h) * (a - h) < 0 := by
    have := sq_lt_sq.2 hh
    nlinarith [this]
  have hne1 : a + h ≠ 0 := fun hz => by rw [hz, zero_mul] at hprod; exact lt_irrefl _ hprod
  have hne2 : a - h ≠ 0 := fun hz => by rw [hz, mul_zero] at hprod; exact lt_irrefl _ hprod
  obtain ⟨h1, h2⟩ := C93_spike df hdate step spike hm a a ht i (a + h) (a - h) hj1 hj2
    (by rcases lt_or_gt_of_ne hh0 with h | h; exacts [.inl (by linarith), .inr (by linarith)])
    (by rcases lt_or_gt_of_ne hh0 with h | h; exacts [.inr (by linarith), .inl (by linarith)])
    hprod (by simpa using hne1) (by simpa using hne2)
    (fun k e he hnz => by
      have hk0 : 0 < k := by obtain ⟨_, _, _, _, _, h0, _⟩ := he; exact h0
      obtain ⟨k, rfl⟩ : ∃ k', k = k' + 1 := ⟨k - 1, by omega⟩
      have := jump k e he
      by_contra hc
      rw [if_neg (by omega), if_neg (by omega)] at this
      rw [this] at hnz
      simp at hnz)
    (by omega)
  rw [hm, h1, h2 (by linarith) (by linarith), hlen]

/-- The observations of a run with search on a line with a single wild value. -/
theorem wild_observed (w : World K) (args : RunArgs K) (id : String) (t : STable K) (hp : Proper t) (s : String) (hs : IsSeries t id s) (res : RunResult K)
    (h : runForecast w args id t = .ok (some res)) (hsearch : args.findOutliers = true) (hstart : args.start = none) (hw : t.hasWeight = false)
    (a c e : K) (hbig : |a| < |e|) (i j : Nat) (hi : 1 ≤ i) (hj : 2 ≤ j) (hn : 6 ≤ i + j) (hv : ValuesAre t s (lineSpike a c e i j)) :
    (∀ q ∈ observed (partOf t s res), ∃ k : Nat, k < i + 1 + j ∧ k ≠ i ∧ ((inOrder t s).map SRow.date)[k]? = some q.date ∧ q.y = some (a * (k : K) + c)) ∧
    ∀ k : Nat, k < i + 1 + j → k ≠ i → ∃ q ∈ observed (partOf t s res), ((inOrder t s).map SRow.date)[k]? = some q.date ∧ q.y = some (a * (k : K) + c) := by
  obtain ⟨hser, hrun⟩ := series_run w id t hp s hs
  have hr := hrun args res h
  have hord : InTimeOrder (seriesFrame t s) := by
    refine ⟨rfl, ?_⟩
    rw [List.pairwise_map]
    refine List.Pairwise.imp_of_mem ?_ hser.sorted
    intro p q hp hq hpq
    have e1 := hser.days p hp
    have e2 := hser.days q hq
    omega
  have hval : HasValues (seriesFrame t s) (lineSpike a c e i j) := by
    unfold HasValues
    rw [← hv]
    simp [seriesFrame, inOrder]
  have hlen : (seriesFrame t s).rows.length = i + 1 + j := by rw [values_length _ _ hval]; simp [lineSpike]
  obtain ⟨spike, hl, h1, -, h3⟩ := C40_weights w args s _ _ hr
  obtain ⟨step, hm⟩ := h1 hsearch
  have hk : kept args.start (seriesFrame t s) = (seriesFrame t s).rows := by unfold kept; rw [hstart]; simp
  rw [hk] at hl hm h3
  have hf : ({ seriesFrame t s with rows := (seriesFrame t s).rows } : Frame K) = seriesFrame t s := rfl
  rw [hf, C120_found _ hord a c e hbig i j hval hi hj hn] at hm
  cases hm
  -- the observations, one by one
  have hat : ∀ k : Nat, k < i + 1 + j → ∃ d, ((inOrder t s).map SRow.date)[k]? = some d ∧
      (((partOf t s res).data.filter DRow.isActuals).map fun r => (r.date, r.y, r.weight))[k]? =
        some (d, some (a * (k : K) + c + if k = i then e else 0), some (if k = i then 0 else 1)) := by
    intro k hk
    obtain ⟨r, hr⟩ : ∃ r, (seriesFrame t s).rows[k]? = some r := ⟨_, List.getElem?_eq_getElem (by omega)⟩
    have hd : ((inOrder t s).map SRow.date)[k]? = some r.date := by
      have : (inOrder t s).map SRow.date = (seriesFrame t s).rows.map Row.date := by simp [seriesFrame, inOrder]
      rw [this, List.getElem?_map, hr]
      rfl
    have hy : r.y = some (a * (k : K) + c + if k = i then e else 0) := by
      have := congrArg (fun z => z[k]?) hval
      simp only [List.getElem?_map, hr, lineSpike_get a c e i j k hk, Option.map_some, Option.some.injEq] at this
      exact this
    refine ⟨r.date, hd, ?_⟩
    rw [h3, List.getElem?_zipWith, hr]
    have hmark : (markOnly i (i + 1 + j))[k]? = some (k == i) := by
      unfold markOnly
      rw [List.getElem?_map, List.getElem?_range hk]
      rfl
    rw [hmark]
    have hgw : givenWeight (seriesFrame t s) r = some 1 := by
      unfold givenWeight
      rw [if_neg (by rw [show (seriesFrame t s).hasWeight = t.hasWeight from rfl, hw]; simp)]
    simp only [hgw, hy, Option.map_some, beq_iff_eq, position, show (seriesFrame t s).hasDate = true from rfl, if_true]
  have hmem : ∀ q, q ∈ observed (partOf t s res) ↔ q ∈ (partOf t s res).data.filter DRow.isActuals ∧ q.y.isSome = true ∧ 0 < q.weight.getD 0 := by
    intro q
    unfold observed
    simp only [List.mem_filter, Bool.and_eq_true, decide_eq_true_eq]
    tauto
  constructor
  · intro q hq
    obtain ⟨hq, -, hpos⟩ := (hmem q).1 hq
    obtain ⟨k, hk, hget⟩ := List.getElem_of_mem hq
    have hkn : k < i + 1 + j := by
      have := congrArg List.length h3
      simp only [List.length_map, List.length_zipWith] at this
      omega
    obtain ⟨d, hd, hrow⟩ := hat k hkn
    rw [List.getElem?_map, List.getElem?_eq_getElem hk, hget, Option.map_some, Option.some.injEq, Prod.mk.injEq, Prod.mk.injEq] at hrow
    have hki : k ≠ i := by
      intro hki
      rw [hrow.2.2, if_pos hki] at hpos
      simp at hpos
    refine ⟨k, hkn, hki, by rw [hd, hrow.1], ?_⟩
    rw [hrow.2.1, if_neg hki, add_zero]
  · intro k hk hki
    obtain ⟨d, hd, hrow⟩ := hat k hk
    rw [if_neg hki, if_neg hki, add_zero, List.getElem?_map, Option.map_eq_some_iff] at hrow
    obtain ⟨q, hq, e2⟩ := hrow
    simp only [Prod.mk.injEq] at e2
    refine ⟨q, (hmem q).2 ⟨List.mem_of_getElem? hq, by rw [e2.2.1]; rfl, by rw [e2.2.2]; simp⟩, by rw [hd, e2.1], e2.2.1⟩

/-- **C120, line.** A table without weights, a series with one value each day, at least 7 of them, on a straight line but for one value, which is off by more than the slope and
is neither the first nor one of the last two. A run that searches for outliers forecasts the line. -/
theorem C120_line (w : World K) (args : RunArgs K) (id : String) (t : STable K) (hp : Proper t) (s : String) (hs : IsSeries t id s) (res : RunResult K)
    (h : runForecast w args id t = .ok (some res)) (hsearch : args.findOutliers = true) (hstart : args.start = none) (hw : t.hasWeight = false)
    (reg : Registry K) (hx : FitsExactly w args s (seriesFrame t s) modelLinear reg)
    (a c e : K) (hbig : |a| < |e|) (i j : Nat) (hi : 1 ≤ i) (hj : 2 ≤ j) (hn : 6 ≤ i + j) (hv : ValuesAre t s (lineSpike a c e i j))
    (d0 : Timestamp) (hd : EveryDay t s d0 (i + 1 + j)) : ForecastsAre (partOf t s res) "linear" (dayLine d0 a c) := by
  obtain ⟨hser, hrun⟩ := series_run w id t hp s hs
  obtain ⟨o1, o2⟩ := wild_observed w args id t hp s hs res h hsearch hstart hw a c e hbig i j hi hj hn hv
  have hday : ∀ k : Nat, k < i + 1 + j → ((inOrder t s).map SRow.date)[k]? = some (d0 + (k : Int) * (24 * 60 * 60 * 1000000000)) := by
    intro k hk
    rw [hd, List.getElem?_map, List.getElem?_range hk]
    rfl
  obtain ⟨x0, hx0⟩ : ∃ x0 : Int, d0 = originOf t s + x0 * (24 * 60 * 60 * 1000000000) := by
    have h0 := hday 0 (by omega)
    have e1 : (inOrder t s).map SRow.date = (seriesFrame t s).rows.map Row.date := by simp [seriesFrame, inOrder]
    rw [e1, List.getElem?_map, Option.map_eq_some_iff] at h0
    obtain ⟨r, hr, e2⟩ := h0
    refine ⟨r.x, ?_⟩
    have := hser.days r (List.mem_of_getElem? hr)
    rw [← this, e2]
    simp
  have hcomb : ∀ (A B : K) (x : Int) (d : Timestamp), combination lineFeatures [A, B] x d = A * (x : K) + B := by
    intro A B x d
    simp [combination, lineFeatures]
  have hid : Identifies lineFeatures (originOf t s) (observed (partOf t s res)) := by
    intro p q hp hq hsame x d
    obtain ⟨p1, p2, rfl⟩ : ∃ a b, p = [a, b] := by
      match p, hp with
      | [a, b], _ => exact ⟨a, b, rfl⟩
    obtain ⟨q1, q2, rfl⟩ : ∃ a b, q = [a, b] := by
      match q, hq with
      | [a, b], _ => exact ⟨a, b, rfl⟩
    obtain ⟨u, hu, hdu, -⟩ := o2 0 (by omega) (by omega)
    obtain ⟨v, hv, hdv, -⟩ := o2 (i + 1) (by omega) (by omega)
    rw [hday _ (by omega), Option.some.injEq] at hdu hdv
    have g1 := hsame u hu
    have g2 := hsame v hv
    have k1 : (u.date - originOf t s) / (24 * 60 * 60 * 1000000000) = x0 := by rw [← hdu, hx0]; push_cast; omega
    have k2 : (v.date - originOf t s) / (24 * 60 * 60 * 1000000000) = x0 + ((i : Int) + 1) := by rw [← hdv, hx0]; push_cast; omega
    rw [hcomb, hcomb, k1] at g1
    rw [hcomb, hcomb, k2] at g2
    push_cast at g2
    have hslope : (p1 - q1) * ((i : K) + 1) = 0 := by linear_combination g2 - g1
    have hi0 : ((i : K) + 1) ≠ 0 := by positivity
    have e1 : p1 = q1 := by
      rcases mul_eq_zero.1 hslope with h | h
      · exact sub_eq_zero.1 h
      · exact absurd h hi0
    subst e1
    have e2 : p2 = q2 := by linear_combination g1
    rw [e2]
  have key := C120_table w args id t hp s hs res h modelLinear reg lineFeatures (addsUp_linear reg) (by simp [lineFeatures]) hx hid [a, c - a * (x0 : K)] rfl (by
    intro q hq
    obtain ⟨k, hk, hki, hdq, hy⟩ := o1 q hq
    rw [hday k hk, Option.some.injEq] at hdq
    have k1 : (q.date - originOf t s) / (24 * 60 * 60 * 1000000000) = x0 + (k : Int) := by rw [← hdq, hx0]; omega
    rw [hy, hcomb, k1]
    push_cast
    congr 1
    ring)
  intro r hr hact hname
  rw [key r hr hact hname]
  dsimp only
  rw [hcomb]
  unfold dayLine
  have k1 : (r.date - originOf t s) / (24 * 60 * 60 * 1000000000) = (r.date - d0) / (24 * 60 * 60 * 1000000000) + x0 := by rw [hx0]; omega
  rw [k1]
  push_cast
  congr 1
  ring

/-- **C120, level.** A level series of at least 7 values with a single different value, which is neither the first nor one of the last two, on any dates. A run that searches for
outliers forecasts the level, with every additive model that can represent a level and is determined by the other values. -/
theorem C120_level (w : World K) (args : RunArgs K) (id : String) (t : STable K) (hp : Proper t) (s : String) (hs : IsSeries t id s) (res : RunResult K)
    (h : runForecast w args id t = .ok (some res)) (hsearch : args.findOutliers = true) (hstart : args.start = none) (hw : t.hasWeight = false)
    (m : ForecastModel K) (reg : Registry K) (feats : List (Feature K)) (hm : AddsUp m reg feats) (hlev : HasLevel feats) (hne : feats ≠ [])
    (hx : FitsExactly w args s (seriesFrame t s) m reg) (hid : Identifies feats (originOf t s) (observed (partOf t s res)))
    (c e : K) (he : e ≠ 0) (i j : Nat) (hi : 1 ≤ i) (hj : 2 ≤ j) (hn : 6 ≤ i + j) (hv : ValuesAre t s (loneSpike c (c + e) i j)) :
    ForecastsAre (partOf t s res) m.name fun _ => c := by
  have hv' : ValuesAre t s (lineSpike 0 c e i j) := by
    unfold ValuesAre at hv ⊢
    rw [hv]
    congr 1
    apply List.ext_getElem?
    intro k
    rcases Nat.lt_or_ge k (i + 1 + j) with hk | hk
    · have hl : k < (loneSpike c (c + e) i j).length := by simp [loneSpike]; omega
      rw [lineSpike_get 0 c e i j k hk, List.getElem?_eq_getElem hl]
      rcases spike_get c (c + e) i j k _ (List.getElem?_eq_getElem hl) with ⟨h1, h2⟩ | ⟨h1, h2⟩
      · rw [h2, if_pos h1]; simp
      · rw [h2, if_neg h1]; simp
    · rw [List.getElem?_eq_none (by simp [loneSpike]; omega), List.getElem?_eq_none (by simp [lineSpike]; omega)]
  obtain ⟨o1, -⟩ := wild_observed w args id t hp s hs res h hsearch hstart hw 0 c e (by simpa using he) i j hi hj hn hv'
  obtain ⟨u, hu, hone⟩ := hlev
  have hcomb : ∀ x d, combination feats (u.map fun v => c * v) x d = c := by
    intro x d
    have hz : ∀ (l : List K) (f : List (Feature K)), (List.zipWith (fun (c : K) (φ : Feature K) => c * φ x d) (l.map fun v => c * v) f).sum =
        c * (List.zipWith (fun (c : K) (φ : Feature K) => c * φ x d) l f).sum := by
      intro l
      induction l with
      | nil => intro f; simp
      | cons v l ih =>
        intro f
        cases f with
        | nil => simp
        | cons φ f => simp only [List.map_cons, List.zipWith_cons_cons, List.sum_cons, ih]; ring
    have := hone x d
    unfold combination at this ⊢
    rw [hz, this, mul_one]
  have key := C120_table w args id t hp s hs res h m reg feats hm hne hx hid (u.map fun v => c * v) (by simpa using hu) (by
    intro q hq
    obtain ⟨k, -, -, -, hy⟩ := o1 q hq
    rw [hy, hcomb]
    simp)
  intro r hr hact hname
  rw [key r hr hact hname]
  dsimp only
  rw [hcomb]

/-! ### Concrete cases -/

/-- Values 1, 3, 5, 100, 9, 11, 13, 15 on eight days from Monday, 5 January 1970 on; listed in another order. -/
def wildTable : STable ℚ := ⟨true, true, false, false, [⟨5 * DAY, some "a", 0, some 3, none⟩, ⟨4 * DAY, some "a", 0, some 1, none⟩, ⟨6 * DAY, some "a", 0, some 5, none⟩,
  ⟨7 * DAY, some "a", 0, some 100, none⟩, ⟨8 * DAY, some "a", 0, some 9, none⟩, ⟨11 * DAY, some "a", 0, some 15, none⟩, ⟨10 * DAY, some "a", 0, some 13, none⟩,
  ⟨9 * DAY, some "a", 0, some 11, none⟩]⟩

/-- A solver that knows the line. -/
def wildLineWorld : World ℚ := { demoWorld with env := fun _ _ => knownEnv [2, 1] }
/-- A run that searches for outliers. -/
def wildLineArgs : RunArgs ℚ := { demoArgs [modelLinear] (some []) with findOutliers := true }

example : Proper wildTable ∧ IsSeries wildTable "" "a" ∧ ValuesAre wildTable "a" (lineSpike 2 1 93 3 4) ∧ EveryDay wildTable "a" (4 * DAY) 8 ∧ |(2 : ℚ)| < |93| := by
  refine ⟨⟨⟨rfl, rfl, by decide +kernel, by decide +kernel⟩, by decide +kernel⟩, ⟨_, List.mem_cons_self, rfl⟩, ?_, ?_, by decide +kernel⟩
  · unfold ValuesAre
    decide +kernel
  · unfold EveryDay
    decide +kernel

example : FitsExactly wildLineWorld wildLineArgs "a" (seriesFrame wildTable "a") modelLinear (fun _ => none) := by
  refine ⟨fun _ => knownEnv_minimum _, ?_, fun _ => ⟨by simp [modelLinear, mkModel], by simp [modelLinear, mkModel]⟩⟩
  intro df' cand h m hm _
  have e : candidates wildLineWorld.ch wildLineArgs.models df' (runFreq (seriesFrame wildTable "a")) = .ok (.add, [modelLinear]) := rfl
  rw [e] at h
  cases h
  simpa using hm

/-- The run forecasts the line, also on the day of the wild value. -/
example : (((runForecast wildLineWorld wildLineArgs "" wildTable).toOption.bind id).map fun r =>
      (r.data.filter fun q => !q.isActuals && decide (6 * DAY ≤ q.date)).map fun q => (q.date / DAY, q.y)) =
    some [(6, some 5), (7, some 7), (8, some 9), (9, some 11), (10, some 13), (11, some 15), (12, some 17), (13, some 19), (14, some 21)] := by decide +kernel

/-- The weights that this run reports, by date. -/
def wildWeights (s : Option String) (d : Timestamp) : Option ℚ := if s = some "a" ∧ d = 7 * DAY then some 0 else some 1

/-- Given as weights of the table, they have the same result without search. -/
example : (∀ r ∈ (runForecast wildLineWorld wildLineArgs "" wildTable).toOption.bind id, ReportsWeights (wildWeights (some "a")) (partOf wildTable "a" r)) ∧
    (runForecast wildLineWorld { wildLineArgs with findOutliers := false } "" (givenTable wildWeights wildTable)).toOption =
      (runForecast wildLineWorld wildLineArgs "" wildTable).toOption ∧
    ((runForecast wildLineWorld wildLineArgs "" wildTable).toOption.bind id).isSome = true := by
  unfold ReportsWeights
  decide +kernel

/-- A value that is off by less than the slope is not found. -/
example : getModelOutliers (dailySeries (lineSpike 2 1 1 3 4)) 3 = .ok (List.replicate 8 false, List.replicate 8 false) := by decide +kernel

end Anticipy

#print axioms Anticipy.C119_weights
#print axioms Anticipy.C119_table
#print axioms Anticipy.C120_observed
#print axioms Anticipy.C120_table
#print axioms Anticipy.C120_found
#print axioms Anticipy.C120_line
#print axioms Anticipy.C120_level
