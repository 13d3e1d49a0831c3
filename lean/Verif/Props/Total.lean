import Verif.Spec.Total
import Verif.Props.DailyRun
import Verif.Props.InitialGuess
import Verif.Props.CacheValidate
import Verif.Props.RunValues
import Verif.Props.Trends
import Verif.Model.ZooReal

/-
C82: a run on a daily series ends with a result.
-/
namespace Anticipy
open Spec
variable {K : Type} [Field K] [LinearOrder K]

/-! ### Dependable models -/

omit [Field K] [LinearOrder K] in
theorem lift2_some (op : K → K → K) (a b : Option K) (ha : a ≠ none) (hb : b ≠ none) : lift2 op a b ≠ none := by
  obtain ⟨x, rfl⟩ := Option.ne_none_iff_exists'.1 ha
  obtain ⟨y, rfl⟩ := Option.ne_none_iff_exists'.1 hb
  simp [lift2]

omit [Field K] [LinearOrder K] in
/-- Operations on arrays without nulls give arrays without nulls. -/
theorem bin_complete (op : K → K → K) (n : Nat) (a b : Arr K) (ha : Shaped n a) (hb : Shaped n b) (na : NoNulls a) (nb : NoNulls b) :
    ∃ r, Arr.bin op a b = .ok r ∧ Shaped n r ∧ NoNulls r := by
  cases a with
  | scalar x =>
    cases b with
    | scalar y => exact ⟨_, rfl, trivial, lift2_some op x y na nb⟩
    | vec l =>
      refine ⟨_, rfl, by simpa [Shaped] using hb, ?_⟩
      intro v hv
      obtain ⟨y, hy, rfl⟩ := List.mem_map.1 hv
      exact lift2_some op x y na (nb y hy)
  | vec l =>
    cases b with
    | scalar y =>
      refine ⟨_, rfl, by simpa [Shaped] using ha, ?_⟩
      intro v hv
      obtain ⟨x, hx, rfl⟩ := List.mem_map.1 hv
      exact lift2_some op x y (na x hx) nb
    | vec l' =>
      have ha : l.length = n := ha
      have hb : l'.length = n := hb
      refine ⟨.vec (List.zipWith (lift2 op) l l'), by simp only [Arr.bin, if_pos (ha.trans hb.symm)], by simp [Shaped, ha, hb], ?_⟩
      intro v hv
      obtain ⟨i, hi, rfl⟩ := List.mem_iff_getElem.1 hv
      simp only [List.length_zipWith] at hi
      rw [List.getElem_zipWith]
      exact lift2_some op _ _ (na _ (List.getElem_mem _)) (nb _ (List.getElem_mem _))

omit [Field K] [LinearOrder K] in
theorem vecOf_complete (l : List K) : Shaped l.length (vecOf l) ∧ NoNulls (vecOf l) := by
  refine ⟨by simp [Shaped, vecOf], ?_⟩
  intro v hv
  obtain ⟨x, -, rfl⟩ := List.mem_map.1 hv
  simp

omit [Field K] [LinearOrder K] in
theorem vecOf_map_complete {α : Type} (l : List α) (g : α → K) : Shaped l.length (vecOf (l.map g)) ∧ NoNulls (vecOf (l.map g)) := by
  have := vecOf_complete (l.map g)
  rwa [List.length_map] at this

theorem within_length (q : List K) (b : Bounds K) (h : ParamsWithin q b) : b.lo.length = q.length ∧ b.hi.length = q.length := ⟨h.1.symm, h.2.1.symm⟩

/-- Unbounded parameters. -/
theorem strict_default (n : Nat) : StrictBounds (⟨List.replicate n .ninf, List.replicate n .pinf, false⟩ : Bounds K) := by
  refine ⟨by simp, ?_⟩
  intro e he
  rw [List.zip_replicate', List.mem_replicate] at he
  rw [he.2]
  rfl

/-- Sums and products of dependable models. -/
theorem dependable_compose (mult : Bool) {global : String → Option (CacheFn K)} {reg : Registry K} (m1 m2 : ForecastModel K)
    (h1 : Dependable global reg m1) (h2 : Dependable global reg m2) : Dependable global reg (compose mult m1 m2) := by
  have c1 := h1.named
  have c2 := h2.named
  have hn : (compose mult m1 m2).nParams = m1.nParams + m2.nParams := by unfold compose; rw [if_neg c1, if_neg c2]
  refine ⟨?_, ?_, ?_, ?_, ?_, ?_, registered_compose _ _ _ _ _ h1.registered h2.registered, transparent_compose _ _ _ _ h1.transparent h2.transparent, ?_⟩
  · rw [hn]
    have := h1.params
    omega
  · have e : (compose mult m1 m2).name = composedName (if mult then "*" else "+") m1.name m2.name := by unfold compose; rw [if_neg c1, if_neg c2]
    rw [e]
    intro h
    have := congrArg (fun s : String => s.toList.head?) h
    simp [composedName] at this
  · intro v hv
    have hv : v ∈ dedupBy Validator.id (m1.validators ++ m2.validators) := by
      unfold compose at hv; rw [if_neg c1, if_neg c2] at hv; exact hv
    rcases List.mem_append.1 (mem_dedupBy _ _ v hv) with h | h
    · exact h1.validates v h
    · exact h2.validates v h
  · intro ax ay d hx hl hlen
    rw [hn] at hlen
    obtain ⟨b1, e1, s1⟩ := h1.bounds ax ay d hx hl (by omega)
    obtain ⟨b2, e2, s2⟩ := h2.bounds ax ay d hx hl (by omega)
    refine ⟨⟨b1.lo ++ b2.lo, b1.hi ++ b2.hi, true⟩, ?_, ?_, ?_⟩
    · unfold compose
      simp only [if_neg c1, if_neg c2, fConcatBounds, e1, e2, Bind.bind, Except.bind]
    · simp [s1.1, s2.1]
    · intro e he
      rw [List.zip_append s1.1] at he
      rcases List.mem_append.1 he with h | h
      · exact s1.2 e h
      · exact s2.2 e h
  · intro ax ay u mode hx hl hlen
    rw [hn] at hlen
    obtain ⟨q1, e1, l1, w1⟩ := h1.guess ax ay (fun i => u (2 * i)) mult hx hl (by omega)
    obtain ⟨q2, e2, l2, w2⟩ := h2.guess ax ay (fun i => u (2 * i + 1)) mult hx hl (by omega)
    obtain ⟨b1, f1, -⟩ := h1.bounds ax ay none hx hl (by omega)
    obtain ⟨b2, f2, -⟩ := h2.bounds ax ay none hx hl (by omega)
    refine ⟨q1 ++ q2, ?_, by rw [hn, List.length_append, l1, l2], ?_⟩
    · simp only [compose, if_neg c1, if_neg c2, fInit2, e1, e2, Bind.bind, Except.bind, List.map_append]
    · intro b hb
      have : b = ⟨b1.lo ++ b2.lo, b1.hi ++ b2.hi, true⟩ := by
        simp only [compose, if_neg c1, if_neg c2, fConcatBounds, f1, f2, Bind.bind, Except.bind] at hb
        exact (Except.ok.inj hb).symm
      rw [this]
      exact within_append _ _ _ _ (w1 b1 f1) (w2 b2 f2)
  · intro ctx ds p mode hd hl hp
    rw [hn] at hp
    obtain ⟨a1, e1, s1, n1⟩ := h1.evaluates ctx ds (p.take m1.nParams) mult hd hl (by rw [List.length_take]; omega)
    obtain ⟨a2, e2, s2, n2⟩ := h2.evaluates ctx ds (p.drop m1.nParams) mult hd hl (by rw [List.length_drop]; omega)
    obtain ⟨r, g1, g2, g3⟩ := bin_complete (if mult then (· * ·) else (· + ·)) _ a1 a2 s1 s2 n1 n2
    refine ⟨r, ?_, g2, g3⟩
    cases mult with
    | false =>
      simp only [compose, if_neg c1, if_neg c2, Bool.false_eq_true, if_false, fAdd2, splitParams, Bind.bind, Except.bind, e1, e2] at g1 ⊢
      exact g1
    | true =>
      simp only [compose, if_neg c1, if_neg c2, if_true, fMult2, splitParams, Bind.bind, Except.bind, e1, e2] at g1 ⊢
      exact g1
  · intro k f hk
    simp only [compose, if_neg c1, if_neg c2] at hk
    rcases hk with ⟨hk, hg⟩ | hk
    · rcases List.mem_append.1 (mem_dedupBy _ _ k hk) with h | h
      · exact h1.features k f (.inl ⟨h, hg⟩)
      · exact h2.features k f (.inl ⟨h, hg⟩)
    · rcases List.mem_append.1 hk with h | h
      · exact h1.features k f (.inr (List.mem_filter.1 h).1)
      · exact h2.features k f (.inr h)

/-- Models with unbounded parameters that do not look at the cache. -/
theorem dependable_plain {global : String → Option (CacheFn K)} {reg : Registry K} (m : ForecastModel K) (hn : m.nParams ≠ 0) (hname : m.name ≠ "null")
    (hb : m.fBounds = fBoundsDefault m.nParams) (hv : m.validators = [validateDefault]) (hc : m.cacheVars = []) (hd : m.dictFCache = [])
    (hi : IgnoresCache m)
    (hg : ∀ (ax ay : List K) u mult, ax.Pairwise (· < ·) → ay.length = ax.length → m.nParams + 2 ≤ ax.length →
      ∃ q : List K, m.fInit u ⟨some ax, some ay, none⟩ mult = .ok (q.map .fin) ∧ q.length = m.nParams)
    (he : ∀ (ctx : Ctx K) ds p mult, ctx.adate = some ds → ds.length = ctx.ax.length → p.length = m.nParams →
      ∃ a, m.fModel (noCache ctx) (some p) mult = .ok a ∧ Shaped ctx.ax.length a ∧ NoNulls a) : Dependable global reg m := by
  refine ⟨hn, hname, ?_, ?_, ?_, he, ⟨by rw [hc]; simp, by rw [hd]; simp⟩, hi.transparent reg, ?_⟩
  · intro v hv' ax ay ds e h
    rw [hv, List.mem_singleton] at hv'
    rw [hv'] at h
    cases h
  · intro ax ay d _ _ _
    rw [hb]
    exact ⟨_, rfl, strict_default _⟩
  · intro ax ay u mult h1 h2 h3
    obtain ⟨q, e, l⟩ := hg ax ay u mult h1 h2 h3
    refine ⟨q, e, l, ?_⟩
    intro b h
    rw [hb] at h
    rw [← Except.ok.inj h]
    exact within_unbounded q _ l _
  · intro k f hk
    rw [hc, hd] at hk
    simp at hk

theorem two_distinct (ax : List K) (hx : ax.Pairwise (· < ·)) (h : 2 ≤ ax.length) : TwoDistinct ax := by
  have := List.pairwise_iff_getElem.1 hx 0 1 (by omega) (by omega) (by omega)
  exact ⟨_, List.getElem_mem (by omega), _, List.getElem_mem (by omega), this.ne⟩

theorem dependable_constant {global : String → Option (CacheFn K)} {reg : Registry K} : Dependable global reg (modelConstant : ForecastModel K) := by
  refine dependable_plain _ (by simp [modelConstant, mkModel]) (by simp [modelConstant, mkModel]) rfl rfl rfl rfl (fun _ _ _ _ => rfl) ?_ ?_
  · intro ax ay u mult hx hl hlen
    have hy : ay ≠ [] := by intro e; subst e; simp at hl; omega
    obtain ⟨a, l, rfl⟩ := List.exists_cons_of_ne_nil hy
    exact ⟨[mean (a :: l) + uniform 0 1 (u 0)], rfl, rfl⟩
  · intro ctx ds p mult _ _ hp
    match p, hp with
    | [a], _ => exact ⟨_, rfl, vecOf_map_complete ctx.ax fun _ => a⟩

theorem dependable_linear [IsStrictOrderedRing K] {global : String → Option (CacheFn K)} {reg : Registry K} :
    Dependable global reg (modelLinear : ForecastModel K) := by
  refine dependable_plain _ (by simp [modelLinear, mkModel]) (by simp [modelLinear, mkModel]) rfl rfl rfl rfl (fun _ _ _ _ => rfl) ?_ ?_
  · intro ax ay u mult hx hl hlen
    have hlen : 4 ≤ ax.length := hlen
    have hy : ay ≠ [] := by intro e; subst e; simp at hl; omega
    obtain ⟨a, b, e⟩ := fInitLinear_eq u ax ay none mult hy (two_distinct ax hx (by omega))
    exact ⟨[a, b], e, rfl⟩
  · intro ctx ds p mult _ _ hp
    match p, hp with
    | [a, b], _ => exact ⟨_, rfl, vecOf_map_complete ctx.ax fun x => a * x + b⟩

theorem dependable_ramp {global : String → Option (CacheFn K)} {reg : Registry K} : Dependable global reg (modelRamp : ForecastModel K) := by
  have hbounds : ∀ (ax ay : List K) d, ax.Pairwise (· < ·) → 4 ≤ ax.length →
      ∃ lo hi : K, (modelRamp : ForecastModel K).fBounds ⟨some ax, some ay, d⟩ = .ok ⟨[.fin lo, .ninf], [.fin hi, .pinf], false⟩ ∧ lo < hi := by
    intro ax ay d hx h4
    have h15 : 1 ≤ ceil15 ax.length ∧ 2 * ceil15 ax.length < ax.length := by unfold ceil15; omega
    have hlt := List.pairwise_iff_getElem.1 hx (ceil15 ax.length) (ax.length - ceil15 ax.length) (by omega) (by omega) (by omega)
    refine ⟨_, _, ?_, hlt⟩
    change fBoundsRamp ⟨some ax, some ay, d⟩ = _
    unfold fBoundsRamp
    simp only
    rw [pyIndex_nonneg ax _ (by omega), pyIndex_neg ax _ (by omega) (by omega)]
    rfl
  refine ⟨by simp [modelRamp, mkModel], by simp [modelRamp, mkModel], ?_, ?_, ?_, ?_, ⟨fun k hk => absurd hk List.not_mem_nil, fun k hk => absurd hk List.not_mem_nil⟩, fun _ _ _ _ _ => rfl, ?_⟩
  · intro v hv ax ay ds e h
    have hv : v ∈ [validateDefault] := hv
    rw [List.mem_singleton] at hv
    rw [hv] at h
    cases h
  · intro ax ay d hx hl h4
    obtain ⟨lo, hi, e, hlt⟩ := hbounds ax ay d hx h4
    refine ⟨_, e, rfl, ?_⟩
    intro p hp
    simp only [List.zip_cons_cons, List.zip_nil_right, List.mem_cons, List.not_mem_nil, or_false] at hp
    rcases hp with rfl | rfl
    · simp only [Ext.lt, decide_eq_true_eq]; exact hlt
    · rfl
  · intro ax ay u mult hx hl h4
    obtain ⟨q, b, e1, e2, e3⟩ := C36_ramp_partial u ax ay none mult hx hl h4
    refine ⟨q, e1, ?_, ?_⟩
    · obtain ⟨lo, hi, e, -⟩ := hbounds ax ay none hx h4
      rw [e] at e2
      have := e3.1
      rw [← Except.ok.inj e2] at this
      exact this
    · intro b' hb'
      rw [e2] at hb'
      rw [← Except.ok.inj hb']
      exact e3
  · intro ctx ds p mult _ _ hp
    match p, hp with
    | [a, b], _ => exact ⟨_, rfl, vecOf_map_complete ctx.ax _⟩
  · intro k f hk
    rcases hk with ⟨hk, -⟩ | hk
    · exact absurd hk List.not_mem_nil
    · exact absurd hk List.not_mem_nil

/-- Seasonality by weekday or month. -/
theorem indexed_evaluates (key : String) (f : CacheFn K) (n : Nat) (idx : Timestamp → Int) (hf : ∀ ax ds, f ax (some ds) = .ok (.ints (ds.map idx)))
    (hr : ∀ d, 0 ≤ idx d ∧ idx d < n + 1) (ctx : Ctx K) (ds : List Timestamp) (p : List K) (mult : Bool) (hd : ctx.adate = some ds)
    (hl : ds.length = ctx.ax.length) (hp : p.length = n) :
    ∃ a, fModelIndexed key f (noCache ctx) (some p) mult = .ok a ∧ Shaped ctx.ax.length a ∧ NoNulls a := by
  simp only [fModelIndexed, noCache, hd, Bind.bind, Except.bind, hf]
  rw [gather_eq _ _ (by
    intro i hi
    obtain ⟨d, -, rfl⟩ := List.mem_map.1 hi
    have := hr d
    simp only [List.length_cons, hp]
    omega)]
  refine ⟨_, rfl, by simp [Shaped, hl], ?_⟩
  intro v hv
  rw [List.map_map] at hv
  obtain ⟨d, -, rfl⟩ := List.mem_map.1 hv
  have := hr d
  simp only [Function.comp_def]
  rw [List.getElem?_eq_getElem (by simp only [List.length_cons, hp]; omega)]
  simp

theorem dependable_weekday {global : String → Option (CacheFn K)} {reg : Registry K} (hreg : ∀ f, global "a_weekday" = some f → reg "a_weekday" = some f)
    (hw : reg "a_weekday" = some cacheWeekday) : Dependable global reg (modelSeasonWday : ForecastModel K) := by
  refine ⟨by simp [modelSeasonWday, mkModel], by simp [modelSeasonWday, mkModel], ?_, fun _ _ _ _ _ _ => ⟨_, rfl, strict_default _⟩, ?_, ?_, ⟨?_, fun k hk => absurd hk List.not_mem_nil⟩,
    transparent_indexed reg _ _ hw _ rfl, ?_⟩
  · intro v hv ax ay ds e h
    have hv : v ∈ [validateSeasonWday] := hv
    rw [List.mem_singleton] at hv
    subst hv
    simp only [validateSeasonWday, pyAssert, Bind.bind, Except.bind] at h
    split_ifs at h
    cases h
    rfl
  · intro ax ay u mult _ _ _
    refine ⟨(List.range 6).map fun i => uniform (1/1000) 1 (u i), by simp [modelSeasonWday, mkModel, fInitDefault, Function.comp_def], rfl, ?_⟩
    intro b hb
    have hb : fBoundsDefault 6 ⟨some ax, some ay, none⟩ = .ok b := hb
    rw [← Except.ok.inj hb]
    exact within_unbounded _ _ (by simp) _
  · intro ctx ds p mult hd hl hp
    exact indexed_evaluates "a_weekday" cacheWeekday 6 weekday (fun _ _ => rfl) (fun d => by have := weekday_range d; omega) ctx ds p mult hd hl hp
  · intro k hk f hf
    have hk : k ∈ ["a_weekday"] := hk
    rw [List.mem_singleton] at hk
    subst hk
    exact hreg f hf
  · intro k f hk ax ds _
    rcases hk with ⟨hk, hg⟩ | hk
    · have hk : k ∈ ["a_weekday"] := hk
      rw [List.mem_singleton] at hk
      subst hk
      have := hreg f hg
      rw [hw] at this
      cases this
      exact ⟨_, rfl⟩
    · exact absurd hk List.not_mem_nil

theorem dependable_month {global : String → Option (CacheFn K)} {reg : Registry K} (hreg : ∀ f, global "a_month" = some f → reg "a_month" = some f)
    (hw : reg "a_month" = some cacheMonth) : Dependable global reg (modelSeasonMonth : ForecastModel K) := by
  refine ⟨by simp [modelSeasonMonth, mkModel], by simp [modelSeasonMonth, mkModel], ?_, fun _ _ _ _ _ _ => ⟨_, rfl, strict_default _⟩, ?_, ?_, ⟨?_, fun k hk => absurd hk List.not_mem_nil⟩,
    transparent_indexed reg _ _ hw _ rfl, ?_⟩
  · intro v hv ax ay ds e h
    have hv : v ∈ [validateDefault] := hv
    rw [List.mem_singleton] at hv
    subst hv
    cases h
  · intro ax ay u mult _ _ _
    refine ⟨(List.range 11).map fun i => uniform (-1) 1 (u i), by simp [modelSeasonMonth, mkModel, fInitSeasonMonth, Function.comp_def], rfl, ?_⟩
    intro b hb
    have hb : fBoundsDefault 11 ⟨some ax, some ay, none⟩ = .ok b := hb
    rw [← Except.ok.inj hb]
    exact within_unbounded _ _ (by simp) _
  · intro ctx ds p mult hd hl hp
    exact indexed_evaluates "a_month" cacheMonth 11 (fun d => month d - 1) (fun _ _ => rfl) (fun d => by have := month_range d; omega) ctx ds p mult hd hl hp
  · intro k hk f hf
    have hk : k ∈ ["a_month"] := hk
    rw [List.mem_singleton] at hk
    subst hk
    exact hreg f hf
  · intro k f hk ax ds _
    rcases hk with ⟨hk, hg⟩ | hk
    · have hk : k ∈ ["a_month"] := hk
      rw [List.mem_singleton] at hk
      subst hk
      have := hreg f hg
      rw [hw] at this
      cases this
      exact ⟨_, rfl⟩
    · exact absurd hk List.not_mem_nil

theorem dependable_fourier {reg : Registry ℝ} (hw : reg "a_t_fourier" = some cacheFourier) : Dependable globalCache reg modelFourier := by
  have hfour : ∀ f, globalCache "a_t_fourier" = some f → f = cacheFourier := by
    intro f hf
    simp [globalCache] at hf
    exact hf.symm
  refine ⟨by simp [modelFourier, mkModel, fourierHarmonics], by simp [modelFourier, mkModel], ?_, fun _ _ _ _ _ _ => ⟨_, rfl, strict_default _⟩, ?_, ?_,
    ⟨?_, fun k hk => absurd hk List.not_mem_nil⟩, ?_, ?_⟩
  · intro v hv ax ay ds e h
    have hv : v ∈ [validateDefault] := hv
    rw [List.mem_singleton] at hv
    subst hv
    cases h
  · intro ax ay u mult _ hl hlen
    have hy : ay ≠ [] := by
      intro e
      subst e
      have : (modelFourier.nParams) + 2 ≤ 0 := by simpa [← hl] using hlen
      omega
    cases hmin : listMin ay with
    | none => exact absurd ((listMin_none _).1 hmin) hy
    | some mn =>
      cases hmax : listMax ay with
      | none => exact absurd ((listMax_none _).1 hmax) hy
      | some mx =>
        refine ⟨(List.range (2 * fourierHarmonics)).map fun i => (mx - mn) * uniform (1/1000) 1 (u i),
          by simp [modelFourier, mkModel, fInitFourier, hmin, hmax, Function.comp_def], by simp [modelFourier, mkModel], ?_⟩
        intro b hb
        have hb : fBoundsDefault (2 * fourierHarmonics) ⟨some ax, some ay, none⟩ = .ok b := hb
        rw [← Except.ok.inj hb]
        exact within_unbounded _ _ (by simp) _
  · intro ctx ds p mult hd hl hp
    have hp : p.length = 20 := hp
    refine ⟨vecOf ((List.range ds.length).map fun j => matmulCol p ((List.range fourierHarmonics).map (fun i : Nat =>
      ds.map fun d => Real.sin (fourierK * ((i : ℝ) + 1) * fourierT d)) ++ (List.range fourierHarmonics).map fun i : Nat =>
      ds.map fun d => Real.cos (fourierK * ((i : ℝ) + 1) * fourierT d)) j), ?_, ?_⟩
    · simp only [modelFourier, mkModel, fModelFourier, noCache, hd, cacheFourier, Bind.bind, Except.bind]
      rw [if_neg (by simp [hp, fourierHarmonics])]
      simp [fourierHarmonics, List.range_succ]
    · have := vecOf_map_complete (List.range ds.length) (fun j => matmulCol p ((List.range fourierHarmonics).map (fun i : Nat =>
        ds.map fun d => Real.sin (fourierK * ((i : ℝ) + 1) * fourierT d)) ++ (List.range fourierHarmonics).map fun i : Nat =>
        ds.map fun d => Real.cos (fourierK * ((i : ℝ) + 1) * fourierT d)) j)
      rw [List.length_range] at this
      rw [← hl]
      exact this
  · intro k hk f hf
    have hk : k ∈ ["a_t_fourier"] := hk
    rw [List.mem_singleton] at hk
    subst hk
    rw [hfour f hf]
    exact hw
  · intro ctx c p mode hcc
    simp only [modelFourier, mkModel, fModelFourier, withCache, noCache]
    cases hk : c "a_t_fourier" with
    | none => rfl
    | some v =>
      obtain ⟨f', hf', hv⟩ := hcc _ v hk
      rw [hw] at hf'; cases hf'
      have : cacheFourier [] ctx.adate = cacheFourier ctx.ax ctx.adate := rfl
      simp only [this, hv]; rfl
  · intro k f hk ax ds _
    rcases hk with ⟨hk, hg⟩ | hk
    · have hk : k ∈ ["a_t_fourier"] := hk
      rw [List.mem_singleton] at hk
      subst hk
      rw [hfour f hg]
      exact ⟨_, rfl⟩
    · exact absurd hk List.not_mem_nil

/-! ### Fits -/

theorem simplify_strict (label : List (Option K) → String) (m : ForecastModel K) (args : InitArgs K) (b : Bounds K) (hb : m.fBounds args = .ok b)
    (hs : StrictBounds b) : simplifyModel label m args = .ok m := by
  unfold simplifyModel
  rw [hb]
  simp only [Bind.bind, Except.bind]
  rw [if_pos]
  rw [List.all_eq_true]
  intro v hv
  unfold degenerate at hv
  obtain ⟨i, hi, rfl⟩ := List.mem_iff_getElem.1 hv
  simp only [List.length_zipWith] at hi
  have h := hs.2 (b.lo[i], b.hi[i]) (List.mem_iff_getElem.2 ⟨i, by simp; omega, by simp⟩)
  rw [List.getElem_zipWith]
  revert h
  dsimp only
  generalize b.lo[i] = l
  generalize b.hi[i] = r
  intro h
  cases l <;> cases r <;> try rfl
  simp only [Ext.lt, decide_eq_true_eq] at h
  dsimp only
  rw [if_neg h.ne']
  rfl

omit [Field K] [LinearOrder K] in
theorem evalCache_ok (ax : List K) (ad : Option (List Timestamp)) (l : List (String × CacheFn K)) (h : ∀ e ∈ l, ∃ v, e.2 ax ad = .ok v)
    (c : String → Option (CacheVal K)) : ∃ c', evalCache ax ad l c = .ok c' := by
  induction l generalizing c with
  | nil => exact ⟨c, rfl⟩
  | cons e l ih =>
    obtain ⟨k, f⟩ := e
    obtain ⟨v, hv⟩ := h (k, f) (by simp)
    have hv : f ax ad = .ok v := hv
    simp only [evalCache, hv, Bind.bind, Except.bind]
    exact ih (fun e he => h e (by simp [he])) _

theorem scaleX_increasing [IsStrictOrderedRing K] (m : ForecastModel K) (xs : List Int) (h : xs.Pairwise (· < ·)) : (scaleX m xs).Pairwise (· < ·) := by
  unfold scaleX
  split_ifs <;> rw [List.pairwise_map] <;> refine h.imp ?_
  · intro a b hab
    exact div_lt_div_of_pos_right (Int.cast_lt.2 hab) (by norm_num)
  · intro a b hab
    exact Int.cast_lt.2 hab

omit [Field K] [LinearOrder K] in
theorem abs_complete [Field K] [LinearOrder K] (a : Arr K) (h : NoNulls a) : NoNulls a.abs := by
  cases a with
  | scalar v =>
    have h : v ≠ none := h
    change v.map _ ≠ none
    simpa using h
  | vec l =>
    intro v hv
    obtain ⟨x, hx, rfl⟩ := List.mem_map.1 hv
    have := h x hx
    simpa using this

theorem residuals_ok (m : ForecastModel K) (ctx : Ctx K) (ay : List K) (aw : Option (List K)) (p : Params K) (a : Arr K) (h : m.fModel ctx p false = .ok a)
    (hs : Shaped ay.length a) (hw : ∀ w, aw = some w → w.length = ay.length) : ∃ r, getResiduals m ctx ay aw p = .ok r ∧ (NoNulls a → NoNulls r) := by
  have ha := vecOf_complete ay
  obtain ⟨r1, e1, s1, -⟩ := bin_shaped (fun a b => a - b) ay.length _ a ha.1 hs
  have n1 : NoNulls a → NoNulls r1 := by
    intro hn
    obtain ⟨r, e, -, n⟩ := bin_complete (fun a b => a - b) ay.length _ a ha.1 hs ha.2 hn
    rw [e1] at e
    rwa [Except.ok.inj e]
  unfold getResiduals
  rw [h]
  simp only [Bind.bind, Except.bind]
  rw [e1]
  cases aw with
  | none => exact ⟨_, rfl, fun hn => abs_complete _ (n1 hn)⟩
  | some w =>
    have hw := hw w rfl
    have hwc := vecOf_complete w
    rw [hw] at hwc
    obtain ⟨r2, e2, s2, -⟩ := bin_shaped (fun a b => a * b) ay.length r1 (vecOf w) s1 hwc.1
    dsimp only
    rw [e2]
    refine ⟨_, rfl, fun hn => abs_complete _ ?_⟩
    obtain ⟨r, e, -, n⟩ := bin_complete (fun a b => a * b) ay.length r1 (vecOf w) s1 hwc.1 (n1 hn) hwc.2
    rw [e2] at e
    rwa [Except.ok.inj e]

/-- The weights of a fit have the length of its samples. -/
theorem prepare_lengths (df : Frame K) : (prepare df).xs.length = (usableRows df).length ∧ (prepare df).ys.length = (usableRows df).length ∧
    ∀ w, (prepare df).ws = some w → w.length = (prepare df).ys.length := by
  rw [prepare_eq]
  refine ⟨by simp, by simp, ?_⟩
  intro w hw
  simp only at hw ⊢
  split_ifs at hw <;> cases hw <;> simp

theorem unused_cache (global : String → Option (CacheFn K)) (m : ForecastModel K) (ax : List K) (ad : Option (List Timestamp)) (h : m.usesCache global = false) :
    m.initCache global ax ad = .ok fun _ => none := by
  unfold ForecastModel.usesCache at h
  rw [Bool.or_eq_false_iff] at h
  obtain ⟨h1, h2⟩ := h
  have e2 : m.dictFCache = [] := by simpa using h2
  have e1 : m.cacheVars.filterMap (fun k => (global k).map fun f => (k, f)) = [] := by
    rw [List.filterMap_eq_nil_iff]
    intro k hk
    rw [List.any_eq_false] at h1
    have := h1 k hk
    simpa using this
  unfold ForecastModel.initCache
  rw [e1, e2]
  rfl

/-- With the cache of the fit the model has the value without. -/
theorem cached_value (global : String → Option (CacheFn K)) (reg : Registry K) (m : ForecastModel K) (hr : Registered global reg m) (ht : CacheTransparent reg m)
    (c : Bool) (ctx : Ctx K) (hc : ctx.hasCache = (c && m.usesCache global))
    (hch : (if c then m.initCache global ctx.ax ctx.adate else .ok (fun _ => none)) = .ok ctx.cache) (p : Params K) (mult : Bool) :
    m.fModel ctx p mult = m.fModel (noCache ctx) p mult := by
  obtain ⟨ax, ad, act, ch, hs⟩ := ctx
  dsimp only at hc hch
  by_cases hs' : hs = true
  · subst hs'
    rw [eq_comm, Bool.and_eq_true] at hc
    rw [if_pos hc.1] at hch
    exact ht ⟨ax, ad, act, ch, true⟩ ch p mult (initCache_correct global reg m hr _ _ _ hch)
  · have hs' : hs = false := by simpa using hs'
    subst hs'
    have : ch = fun _ => none := by
      cases c with
      | false => exact (Except.ok.inj hch).symm
      | true =>
        rw [if_pos rfl, unused_cache global m ax ad (by simpa using hc.symm)] at hch
        exact (Except.ok.inj hch).symm
    subst this
    rfl

/-- A dependable model can be fitted. -/
theorem fit_dependable [IsStrictOrderedRing K] (env : Env K) (reg : Registry K) (m : ForecastModel K) (hm : Dependable env.globalCache reg m) (df : Frame K)
    (act : Option (Frame K)) (c : Bool) (hsolve : SolverReturns env) (hscore : ScoreReturns env (usableRows df).length) (hd : df.hasDate = true)
    (hx : ((usableRows df).map Row.x).Pairwise (· < ·)) (hne : usableRows df ≠ []) :
    ∃ f, fitModel env m df act c = .ok f ∧ (f.isFit = true → f.params.length = m.nParams) ∧
      ((∀ g q b, env.lsq g q b ≠ .ok none) → m.nParams + 2 ≤ (usableRows df).length → verdict m df = .ok true → f.params.length = m.nParams) := by
  obtain ⟨l1, l2, l3⟩ := prepare_lengths df
  by_cases hlen : m.nParams + 2 ≤ (usableRows df).length
  swap
  · have h0 : 0 < (usableRows df).length := List.length_pos_iff.2 hne
    obtain ⟨r, hr, -, h2, -⟩ := C30_too_short env m df act c h0 (by omega)
    exact ⟨r, hr, by rw [h2]; simp, fun _ h => absurd h hlen⟩
  obtain ⟨rng, hr⟩ := fitModel_long env m df act c hlen
  rw [hr]
  have hdates : (prepare df).dates = some ((usableRows df).map Row.date) := by rw [prepare_eq]; simp [hd]
  have hax : (scaleX m (prepare df).xs).Pairwise (· < ·) := by
    apply scaleX_increasing
    rw [prepare_eq]
    exact hx
  have haxl : (scaleX m (prepare df).xs).length = (usableRows df).length := by
    rw [← l1]
    unfold scaleX
    split_ifs <;> simp
  have hv : ∃ b, verdict m df = .ok b := by
    have hv : m.validateInput (scaleX m (prepare df).xs) (prepare df).ys (prepare df).dates = verdict m df := by
      rw [prepare_eq]; rfl
    rw [← hv, hdates]
    unfold ForecastModel.validateInput
    have := hm.validates
    generalize m.validators = vs at this
    induction vs with
    | nil => exact ⟨true, rfl⟩
    | cons v vs ih =>
      unfold runValidators
      cases h : v.run (scaleX m (prepare df).xs) (prepare df).ys (some ((usableRows df).map Row.date)) with
      | ok b => exact ih fun v hv => this v (by simp [hv])
      | error e =>
        have := this v (by simp) _ _ _ _ h
        subst this
        exact ⟨false, rfl⟩
  obtain ⟨valid, hv⟩ := hv
  rw [hv]
  simp only [Bind.bind, Except.bind]
  by_cases hvt : valid = true
  swap
  · rw [if_pos (by simpa using hvt)]
    exact ⟨_, rfl, by simp [noFitResult], fun _ _ h => absurd (Except.ok.inj h) hvt⟩
  rw [if_neg (by simp [hvt])]
  have hylen : (prepare df).ys.length = (scaleX m (prepare df).xs).length := by rw [l2, haxl]
  obtain ⟨b, hb, hbs⟩ := hm.bounds _ _ (prepare df).dates hax hylen (by omega)
  rw [simplify_strict env.label m _ b hb hbs]
  dsimp only
  obtain ⟨b0, hb0, hbs0⟩ := hm.bounds _ _ none hax hylen (by omega)
  obtain ⟨q, hq, hql, hqw⟩ := hm.guess _ _ env.rnd false hax hylen (by omega)
  have hcache : ∃ ch : String → Option (CacheVal K), (if c then m.initCache env.globalCache (scaleX m (prepare df).xs) (prepare df).dates else .ok (fun _ => none)) = .ok ch := by
    cases c with
    | false => exact ⟨_, rfl⟩
    | true =>
      refine evalCache_ok _ _ _ ?_ _
      intro e he
      rw [hdates]
      refine hm.features e.1 e.2 ?_ _ _ (by rw [haxl]; simp)
      rcases List.mem_append.1 he with he | he
      · obtain ⟨k, hk, he⟩ := List.mem_filterMap.1 he
        obtain ⟨f, hf, rfl⟩ := Option.map_eq_some_iff.1 he
        exact .inl ⟨hk, hf⟩
      · exact .inr he
  obtain ⟨ch, hch⟩ := hcache
  obtain ⟨r, e1, e2⟩ := hsolve (fun p => getResiduals m { ax := scaleX m (prepare df).xs, adate := (prepare df).dates, actuals := act, cache := ch, hasCache := c && m.usesCache env.globalCache } (prepare df).ys (prepare df).ws (some p)) q b0 (hqw b0 hb0) hbs0 (by
    intro p hp
    obtain ⟨a, g1, g2, g3⟩ := hm.evaluates { ax := scaleX m (prepare df).xs, adate := (prepare df).dates, actuals := act, cache := ch, hasCache := c && m.usesCache env.globalCache } _ p false hdates (by rw [haxl]; simp) (by rw [hp, hql])
    rw [← cached_value env.globalCache reg m hm.registered hm.transparent c _ rfl hch] at g1
    obtain ⟨r, k1, k2⟩ := residuals_ok m _ (prepare df).ys (prepare df).ws (some p) a g1 (by rw [hylen]; exact g2) l3
    exact ⟨r, k1, k2 g3⟩)
  have hopt : optimizeLeastSquares env m (scaleX m (prepare df).xs) (prepare df).ys (prepare df).dates (prepare df).ws act c =
      .ok (r.getD ⟨false, none, []⟩) := by
    unfold optimizeLeastSquares
    simp only [hq, hb0, C36_assertion q b0 (hqw b0 hb0), pyAssert, Bind.bind, Except.bind, if_true]
    cases c with
    | true =>
      rw [if_pos rfl] at hch ⊢
      rw [hch]
      dsimp only
      rw [e1]
      cases r <;> rfl
    | false =>
      rw [if_neg (by simp)] at hch ⊢
      have hch := Except.ok.inj hch
      subst hch
      rw [e1]
      cases r <;> rfl
  unfold attemptFit
  rw [if_neg hm.params, hopt]
  simp only [Bind.bind, Except.bind]
  have hsc : ∀ s : LsqResult K, (∀ e, s.cost = some e → 0 ≤ e) → ∃ a, env.aic s.cost (prepare df).xs.length m.nParams = .ok a := by
    intro s hs
    rw [l1]
    exact hscore _ _ hs hlen
  obtain ⟨a, ha⟩ := hsc (r.getD ⟨false, none, []⟩) (by
    cases r with
    | none => simp
    | some s => exact (e2 s rfl).2)
  rw [ha]
  refine ⟨_, rfl, ?_⟩
  cases r with
  | none => exact ⟨by simp, fun h => absurd e1 (h _ _ _)⟩
  | some s => exact ⟨fun _ => by dsimp only [Option.getD]; rw [(e2 s rfl).1, hql], fun _ _ _ => by dsimp only [Option.getD]; rw [(e2 s rfl).1, hql]⟩

theorem halfSumSq_nonneg [IsStrictOrderedRing K] (a : Arr K) : 0 ≤ halfSumSq a := by
  cases a with
  | scalar v =>
    cases v with
    | none => exact le_rfl
    | some x => exact mul_nonneg (by norm_num) (mul_self_nonneg x)
  | vec l =>
    refine mul_nonneg (by norm_num) (List.sum_nonneg ?_)
    intro x hx
    obtain ⟨v, -, rfl⟩ := List.mem_map.1 hx
    cases v with
    | none => exact le_rfl
    | some x => exact mul_self_nonneg x

/-- A model without parameters can be fitted if it can be evaluated. -/
theorem fit_noparams [IsStrictOrderedRing K] (env : Env K) (name : String) (f : Ctx K → Params K → Bool → Res (Arr K)) (df : Frame K) (act : Option (Frame K)) (c : Bool)
    (hscore : ScoreReturns env (usableRows df).length) (hne : usableRows df ≠ [])
    (heval : ∃ a, f { ax := scaleX (mkModel name 0 f) (prepare df).xs, adate := (prepare df).dates, actuals := act } none false = .ok a ∧
      Shaped (usableRows df).length a) :
    ∃ r, fitModel env (mkModel name 0 f) df act c = .ok r ∧ (r.isFit = true → r.params = []) := by
  obtain ⟨l1, l2, l3⟩ := prepare_lengths df
  by_cases hlen : (mkModel name 0 f).nParams + 2 ≤ (usableRows df).length
  swap
  · have h0 : 0 < (usableRows df).length := List.length_pos_iff.2 hne
    obtain ⟨r, hr, -, h2, -⟩ := C30_too_short env (mkModel name 0 f) df act c h0 (by omega)
    exact ⟨r, hr, by rw [h2]; simp⟩
  obtain ⟨rng, hr⟩ := fitModel_long env (mkModel name 0 f) df act c hlen
  rw [hr]
  have hv : verdict (mkModel name 0 f) df = .ok true := by
    unfold verdict
    rfl
  rw [hv, simplify_strict env.label (mkModel name 0 f) _ _ rfl (strict_default 0)]
  simp only [Bind.bind, Except.bind]
  rw [if_neg (by simp)]
  unfold attemptFit
  rw [if_pos (show (mkModel name 0 f).nParams = 0 from rfl)]
  obtain ⟨a, ha, hs⟩ := heval
  obtain ⟨res, hres, -⟩ := residuals_ok (mkModel name 0 f) { ax := scaleX (mkModel name 0 f) (prepare df).xs, adate := (prepare df).dates, actuals := act }
    (prepare df).ys (prepare df).ws none a ha (by rw [l2]; exact hs) l3
  simp only [Bind.bind, Except.bind]
  rw [hres]
  obtain ⟨sc, hsc⟩ := hscore (some (halfSumSq res)) (mkModel name 0 f).nParams (by intro e he; cases he; exact halfSumSq_nonneg res) hlen
  dsimp only
  rw [l1, hsc]
  exact ⟨_, rfl, fun _ => rfl⟩

/-- The naive models can be evaluated at every increasing list of days from the first day of the actuals on. -/
theorem naive_total [IsStrictOrderedRing K] (srt : SortAlg) (t0 : Timestamp) (used : List (Row K)) (act : Frame K) (hact : DailyActuals t0 used act)
    (m : ForecastModel K) (hm : m = modelNaive srt ∨ m = modelSnaiveWday srt) (xs : List Int) (hx : xs.Pairwise (· < ·)) (ds : List Timestamp)
    (hds : ds = xs.map fun x => t0 + x * (24 * 60 * 60 * 1000000000)) (hge : ∀ x ∈ xs, ∃ a ∈ act.rows, a.x ≤ x) (p : Params K) :
    ∃ a, m.fModel { ax := scaleX m xs, adate := some ds, actuals := some act } p false = .ok a ∧ Shaped xs.length a := by
  have hname : ¬(m.name = "logistic" ∨ m.name = "sigmoid") := by
    rcases hm with rfl | rfl <;> simp [modelNaive, modelSnaiveWday, mkModel]
  have hsx : scaleX m xs = xs.map fun x : Int => (x : K) := by
    unfold scaleX
    rw [if_neg hname]
  have hax : (xs.map fun x : Int => (x : K)).Pairwise (· < ·) := by
    rw [List.pairwise_map]
    exact hx.imp fun h => Int.cast_lt.2 h
  rw [hsx]
  subst hds
  rcases hm with rfl | rfl
  · obtain ⟨out, ho, hl, -⟩ := C37_naive srt { ax := xs.map fun x : Int => (x : K), adate := some (xs.map fun x => t0 + x * (24 * 60 * 60 * 1000000000)), actuals := some act } act p false rfl rfl
      (by
        refine ⟨by intro ds hds; cases hds; simp, ?_⟩
        intro _
        refine ⟨_, rfl, ?_⟩
        intro i x d hx hd q hq hqx
        rw [List.getElem?_map] at hx hd
        cases hi : xs[i]? with
        | none => rw [hi] at hx; cases hx
        | some y =>
          rw [hi] at hx hd
          cases hx
          cases hd
          have hq2 : q.x = y := Int.cast_injective (α := K) hqx
          rw [hact.days q hq, hq2])
      hax ((List.pairwise_map.2 hact.sorted).imp fun h => ne_of_lt h)
    refine ⟨_, ho, ?_⟩
    change out.length = _
    rw [hl]
    simp
  · obtain ⟨out, ho, hl, -⟩ := C38_seasonal_naive srt { ax := xs.map fun x : Int => (x : K), adate := some (xs.map fun x => t0 + x * (24 * 60 * 60 * 1000000000)), actuals := some act } act _ p false rfl rfl
      hact.dated rfl (by simp) hax hact.sorted (by
        intro e he
        rw [List.zip_map'] at he
        obtain ⟨x, hx, rfl⟩ := List.mem_map.1 he
        by_cases hfut : ∀ q ∈ act.rows, q.x < x
        · right
          intro q hq
          have h3 := hfut q hq
          have h4 := hact.days q hq
          refine ⟨by dsimp only; rw [Int.cast_lt]; exact h3, ?_⟩
          intro h5
          dsimp only at h5
          omega
        · left
          push Not at hfut
          obtain ⟨q, hq, h3⟩ := hfut
          obtain ⟨a, ha, h5⟩ := hge x hx
          obtain ⟨q', hq', h6⟩ := hact.contiguous a ha q hq _ h5 h3
          have h7 := hact.days q' hq'
          exact ⟨q', hq', by rw [h6], by rw [h7, h6]⟩)
    refine ⟨_, ho, ?_⟩
    change out.length = _
    rw [hl]
    simp

/-! ### All candidates -/

/-- The frequency of dates at whole days from each other is detected, whatever it is. -/
theorem grid_freq (t0 : Timestamp) (dates : List Timestamp) (hg : ∀ t ∈ dates, ∃ x : Int, t = t0 + x * (24 * 60 * 60 * 1000000000))
    (h2 : ∃ a ∈ dates, ∃ b ∈ dates, a ≠ b) : detectFreq dates ≠ none := by
  obtain ⟨a, ha, b, hb, hab⟩ := h2
  have hlt : ∃ a ∈ dates, ∃ b ∈ dates, a < b := by
    rcases lt_or_gt_of_ne hab with h | h
    · exact ⟨a, ha, b, hb, h⟩
    · exact ⟨b, hb, a, ha, h⟩
  obtain ⟨a, ha, b, hb, hab⟩ := hlt
  obtain ⟨d, hd, -, p, hp, q, hq, hpq, hdpq⟩ := minGap dates a b ha hb hab
  obtain ⟨-, hmem⟩ := sortedDates_spec dates
  obtain ⟨xp, ep⟩ := hg p hp
  obtain ⟨xq, eq⟩ := hg q hq
  have h23 : 23 * HOUR ≤ d := by
    simp only [HOUR]
    omega
  unfold detectFreq
  simp only [hd]
  have hne : listMin (dedupBy (fun t : Timestamp => t) (sortBy (fun a b : Timestamp => decide (a ≤ b)) dates)) ≠ none := by
    intro hn
    have h1 := (listMin_none _).1 hn
    have h2 := (hmem a).2 ha
    rw [h1] at h2
    cases h2
  obtain ⟨t, ht⟩ := Option.ne_none_iff_exists'.1 hne
  rw [ht, if_pos h23]
  split_ifs <;> simp

theorem series_ok (ds : List Timestamp) (a : Arr K) (h : Shaped ds.length a) : ∃ l, seriesOf ds a = .ok l ∧ ∀ e ∈ l, e.1 ∈ ds := by
  cases a with
  | scalar v =>
    refine ⟨_, rfl, ?_⟩
    intro e he
    obtain ⟨t, ht, rfl⟩ := List.mem_map.1 he
    exact ht
  | vec l =>
    refine ⟨_, by simp only [seriesOf]; rw [if_pos (show l.length = ds.length from h)], ?_⟩
    intro e he
    exact (List.of_mem_zip he).1

variable [FloorRing K] [IsStrictOrderedRing K]

/-- A workable candidate can be fitted in a run on a daily series, and its forecast lies on whole days. -/
theorem candidate_ok (w : World K) (args : RunArgs K) (source : String) {df : Frame K} {t0 : Timestamp} (hdaily : DailySeries df t0) (df2 : Frame K)
    (hout : applyOutliers args.findOutliers (filterStart args.start df) = .ok df2) (wm : WeightsMeta K) (mode : AddMult) (act : Frame K)
    (hact : DailyActuals t0 (usedRows (defaultWeights df2).1).rows act) (global : String → Option (CacheFn K)) (reg : Registry K)
    (m : ForecastModel K) (hm : Workable w.srt global reg m) (env : Env K) (hglobal : env.globalCache = global) (hsolve : SolverReturns env)
    (hscore : ScoreReturns env (usableRows (usedRows (defaultWeights df2).1)).length) (hne : usableRows (usedRows (defaultWeights df2).1) ≠ []) :
    ∃ f rows, fitModel env m (usedRows (defaultWeights df2).1) (some act) args.useCache = .ok f ∧
      forecastRows (mkSetup w args source df (defaultWeights df2).1 wm mode act) m f = .ok rows ∧
      ∀ r ∈ rows, ∃ x : Int, r.date = t0 + x * (24 * 60 * 60 * 1000000000) := by
  obtain ⟨u1, u2, u3, u4, u5⟩ := used_rows args.findOutliers args.start df df2 hout
  have hpart := used_part hdaily args.findOutliers args.start df2 hout
  have hdd : ∀ q ∈ (usedRows (defaultWeights df2).1).rows, q.date = t0 + q.x * (24 * 60 * 60 * 1000000000) := by
    intro q hq
    obtain ⟨q', h1, h2, h3, -⟩ := hpart.part q hq
    rw [h2, h3]
    exact hdaily.days q' h1
  have hux : ((usedRows (defaultWeights df2).1).rows.map Row.x).Pairwise (· < ·) := by
    have h1 : ((usedRows (defaultWeights df2).1).rows.map Row.x).Sublist ((kept args.start df).map Row.x) := by
      rw [← u4]
      exact List.filter_sublist.map _
    exact (List.pairwise_map.2 hdaily.sorted).sublist (h1.trans (List.filter_sublist.map _))
  have hsub : (usableRows (usedRows (defaultWeights df2).1)).Sublist (usedRows (defaultWeights df2).1).rows := List.filter_sublist
  have hxx : ((usableRows (usedRows (defaultWeights df2).1)).map Row.x).Pairwise (· < ·) := hux.sublist (hsub.map _)
  have hhd : (usedRows (defaultWeights df2).1).hasDate = true := u1.trans hdaily.dated
  have hdates : (prepare (usedRows (defaultWeights df2).1)).dates = some ((usableRows (usedRows (defaultWeights df2).1)).map Row.date) := by
    rw [prepare_eq]
    simp [hhd]
  have hnaive : ∀ name f, m = mkModel name 0 f → (m = modelNaive w.srt ∨ m = modelSnaiveWday w.srt) →
      ∃ r, fitModel env m (usedRows (defaultWeights df2).1) (some act) args.useCache = .ok r ∧ (r.isFit = true → r.params = []) := by
    intro name f hmk hcase
    have hev := naive_total w.srt t0 _ act hact m hcase ((usableRows (usedRows (defaultWeights df2).1)).map Row.x) hxx
      ((usableRows (usedRows (defaultWeights df2).1)).map Row.date) (by
        rw [List.map_map]
        apply List.map_congr_left
        intro r hr
        exact hdd r (hsub.subset hr)) (by
        intro x hx
        obtain ⟨u, hu, rfl⟩ := List.mem_map.1 hx
        obtain ⟨a, ha, e, -⟩ := hact.all u (hsub.subset hu)
        exact ⟨a, ha, e.le⟩) none
    rw [List.length_map] at hev
    subst hmk
    refine fit_noparams env name f _ (some act) args.useCache hscore hne ?_
    rw [hdates, prepare_eq]
    exact hev
  have hfit : ∃ f, fitModel env m (usedRows (defaultWeights df2).1) (some act) args.useCache = .ok f ∧
      (Dependable global reg m → f.isFit = true → f.params.length = m.nParams) := by
    rcases hm with hm | hm | hm | hm
    · obtain ⟨r, h1, h2⟩ := fit_noparams env "null" (fun _ _ isMult => .ok (.scalar (some (if isMult then 1 else 0)))) (usedRows (defaultWeights df2).1) (some act) args.useCache hscore hne ⟨.scalar (some 0), rfl, trivial⟩
      exact ⟨r, hm ▸ h1, fun _ h3 => by rw [h2 h3, hm]; rfl⟩
    · obtain ⟨r, h1, h2⟩ := hnaive _ _ hm (.inl hm)
      exact ⟨r, h1, fun _ h3 => by rw [h2 h3, hm]; rfl⟩
    · obtain ⟨r, h1, h2⟩ := hnaive _ _ hm (.inr hm)
      exact ⟨r, h1, fun _ h3 => by rw [h2 h3, hm]; rfl⟩
    · obtain ⟨r, h1, h2, -⟩ := fit_dependable env reg m (hglobal ▸ hm) _ (some act) args.useCache hsolve hscore hhd hxx hne
      exact ⟨r, h1, fun _ => h2⟩
  obtain ⟨f, hf, hpl⟩ := hfit
  refine ⟨f, ?_⟩
  unfold forecastRows
  by_cases hisf : f.isFit = true
  swap
  · rw [if_neg hisf]
    exact ⟨[], hf, rfl, by simp⟩
  rw [if_pos hisf]
  have hunil : (usedRows (defaultWeights df2).1).rows ≠ [] := by
    intro h0
    rw [h0] at hsub
    exact hne (List.eq_nil_of_sublist_nil hsub)
  simp only [mkSetup]
  cases h1 : listMin (axisOf (usedRows (defaultWeights df2).1)) with
  | none =>
    exfalso
    have := (listMin_none _).1 h1
    unfold axisOf at this
    rw [if_pos hhd, List.map_eq_nil_iff] at this
    exact hunil this
  | some start =>
    cases h2 : listMin ((usedRows (defaultWeights df2).1).rows.map Row.x) with
    | none =>
      exfalso
      have := (listMin_none _).1 h2
      rw [List.map_eq_nil_iff] at this
      exact hunil this
    | some x0 =>
      obtain ⟨m2, l2⟩ := (listMin_some _ _).1 h2
      obtain ⟨q2, n2, rfl⟩ := List.mem_map.1 m2
      have hstart : start = t0 + q2.x * (24 * 60 * 60 * 1000000000) := by
        unfold axisOf at h1
        rw [if_pos hhd] at h1
        obtain ⟨m1, l1⟩ := (listMin_some _ _).1 h1
        obtain ⟨q1, n1, rfl⟩ := List.mem_map.1 m1
        have a1 := l1 _ (List.mem_map.2 ⟨q2, n2, rfl⟩)
        have a2 := l2 _ (List.mem_map.2 ⟨q1, n1, rfl⟩)
        have b1 := hdd q1 n1
        have b2 := hdd q2 n2
        omega
      dsimp only
      have hfreq : runFreq df = some .D := by unfold runFreq; rw [hdaily.dated, if_pos rfl, daily_freq hdaily]
      unfold extrapolate
      rw [hhd, hfreq]
      simp only [if_true, bind, Except.bind, sxExtrapolateDate, addHorizon, List.map_map, Function.comp_def, List.map_id']
      generalize he : ((listMax (axisOf (defaultWeights df2).1)).getD 0) + ⌊args.years * unitsPerYear .D * (DAY : ℚ)⌋ = e
      have hgrid : ∀ t ∈ dateRange start e .D, t = t0 + (t - t0) / (24 * 60 * 60 * 1000000000) * (24 * 60 * 60 * 1000000000) ∧ q2.x ≤ (t - t0) / (24 * 60 * 60 * 1000000000) := by
        intro t ht
        obtain ⟨g1, -, g2⟩ := (mem_dateRange .D trivial _ _ _ (.inr (.inl rfl))).1 ht
        simp only [OnGrid, dayNs] at g2
        omega
      have hx : (dateRange start e .D).map (fun t => (t - start) / DAY + q2.x) = (dateRange start e .D).map fun t => (t - t0) / (24 * 60 * 60 * 1000000000) := by
        apply List.map_congr_left
        intro t _
        rw [hstart]
        simp only [DAY, HOUR]
        omega
      rw [hx]
      have hinc : ((dateRange start e .D).map fun t => (t - t0) / (24 * 60 * 60 * 1000000000)).Pairwise (· < ·) := by
        rw [List.pairwise_map]
        have := dateRange_sorted start e .D
        rw [List.pairwise_iff_forall_sublist] at this ⊢
        intro a b hab
        have h2 := this hab
        have ha := (hgrid a (hab.subset (by simp))).1
        have hb := (hgrid b (hab.subset (by simp))).1
        omega
      have hds : dateRange start e .D = ((dateRange start e .D).map fun t => (t - t0) / (24 * 60 * 60 * 1000000000)).map fun x => t0 + x * (24 * 60 * 60 * 1000000000) := by
        rw [List.map_map]
        conv_lhs => rw [← List.map_id (dateRange start e .D)]
        apply List.map_congr_left
        intro t ht
        exact (hgrid t ht).1
      have hval : ∃ a, m.fModel { ax := scaleX m ((dateRange start e .D).map fun t => (t - t0) / (24 * 60 * 60 * 1000000000)), adate := some (dateRange start e .D), actuals := some act } (some f.params) false = .ok a ∧
          Shaped (dateRange start e .D).length a := by
        have hn : m = modelNaive w.srt ∨ m = modelSnaiveWday w.srt → _ := fun hc =>
          naive_total w.srt t0 _ act hact m hc ((dateRange start e .D).map fun t => (t - t0) / (24 * 60 * 60 * 1000000000)) hinc (dateRange start e .D) hds (by
            intro x hx
            obtain ⟨t, ht, rfl⟩ := List.mem_map.1 hx
            obtain ⟨a, ha, e, -⟩ := hact.all q2 n2
            exact ⟨a, ha, e.le.trans (hgrid t ht).2⟩) (some f.params)
        rw [List.length_map] at hn
        rcases hm with hm | hm | hm | hm
        · subst hm
          exact ⟨.scalar (some 0), rfl, trivial⟩
        · exact hn (.inl hm)
        · exact hn (.inr hm)
        · have hl : (scaleX m ((dateRange start e .D).map fun t => (t - t0) / (24 * 60 * 60 * 1000000000))).length = (dateRange start e .D).length := by
            unfold scaleX
            split_ifs <;> simp
          obtain ⟨a, g1, g2, -⟩ := hm.evaluates { ax := scaleX m ((dateRange start e .D).map fun t => (t - t0) / (24 * 60 * 60 * 1000000000)), adate := some (dateRange start e .D), actuals := some act } _ f.params false rfl hl.symm (hpl hm hisf)
          exact ⟨a, g1, hl ▸ g2⟩
      obtain ⟨a, ha, hs⟩ := hval
      rw [ha]
      dsimp only
      obtain ⟨l, hl, hmem⟩ := series_ok _ a hs
      rw [hl]
      refine ⟨_, hf, rfl, ?_⟩
      intro r hr
      unfold fcastClean at hr
      obtain ⟨p, hp, rfl⟩ := List.mem_map.1 hr
      exact ⟨_, (hgrid _ (hmem p (List.mem_filter.1 hp).1)).1⟩

omit [FloorRing K] [IsStrictOrderedRing K] in
theorem fitLoop_ok (env : Nat → Env K) (s : FitSetup K) (l : List (ForecastModel K))
    (h : ∀ m ∈ l, ∀ i, ∃ f rows, fitModel (env i) m s.used (some s.actuals) s.useCache = .ok f ∧ forecastRows s m f = .ok rows) :
    ∀ i, ∃ out, fitLoop env s i l = .ok out := by
  induction l with
  | nil => exact fun i => ⟨_, rfl⟩
  | cons m l ih =>
    intro i
    obtain ⟨f, rows, h1, h2⟩ := h m (by simp) i
    obtain ⟨out, h3⟩ := ih (fun m hm => h m (by simp [hm])) (i + 1)
    refine ⟨(metaRow s m f :: out.1, rows ++ out.2), ?_⟩
    unfold fitLoop
    simp only [bind, Except.bind]
    rw [h1]
    dsimp only
    rw [h2]
    dsimp only
    rw [h3]

/-- Prediction intervals of the result of a run on whole days can be computed. -/
theorem getPi_ok (draw : Nat → Nat → Nat → Nat) (hasDate : Bool) (rows : List (DRow K)) (source : String) (t0 : Timestamp) (nSims : Nat) (nCum : Option Int) (q1 q2 : K) (widening : Freq)
    (hq : 0 < q1 ∧ q1 < 100 ∧ 0 < q2 ∧ q2 < 100) (hsource : ∀ r ∈ rows, r.source = source)
    (hg : ∀ r ∈ rows, ∃ x : Int, r.date = t0 + x * (24 * 60 * 60 * 1000000000))
    (h2 : ∃ a ∈ rows, ∃ b ∈ rows, a.isActuals = true ∧ b.isActuals = true ∧ a.date ≠ b.date) :
    ∃ out, getPi draw (toFTable hasDate rows) nSims nCum q1 q2 widening = .ok out := by
  have hk : ¬((toFTable hasDate rows).hasSource = true ∧ 1 < (groupKeys (toFTable hasDate rows).rows).length) := by
    rintro ⟨-, h⟩
    unfold groupKeys at h
    rw [(sortBy_perm _ _).length_eq] at h
    have hn := dedupBy_keys_nodup (fun s : String => s) ((toFTable hasDate rows).rows.filterMap FRow.source)
    have hall : ∀ s ∈ dedupBy (fun s : String => s) ((toFTable hasDate rows).rows.filterMap FRow.source), s = source := by
      intro s hs
      rw [mem_dedup] at hs
      obtain ⟨r, hr, e⟩ := List.mem_filterMap.1 hs
      obtain ⟨d, hd, rfl⟩ := List.mem_map.1 hr
      cases e
      exact hsource d hd
    match hl : dedupBy (fun s : String => s) ((toFTable hasDate rows).rows.filterMap FRow.source), h with
    | a :: b :: l, _ =>
      rw [hl] at hall hn
      have ha := hall a (by simp)
      have hb := hall b (by simp)
      subst ha
      rw [hb] at hn
      simp at hn
  unfold getPi
  dsimp only
  rw [if_neg hk]
  obtain ⟨a, ha, b, hb, ia, ib, hab⟩ := h2
  have hsel : ∀ d ∈ rows, d.isActuals = true → (⟨d.date, some d.source, d.model, d.isActuals, d.isBest, d.y, d.weight⟩ : FRow K) ∈ selectRows (toFTable hasDate rows) := by
    intro d hd hi
    unfold selectRows
    rw [if_pos (show (toFTable hasDate rows).hasBest = true from rfl)]
    exact List.mem_filter.2 ⟨List.mem_map.2 ⟨d, hd, rfl⟩, by simp [hi]⟩
  refine C46_total (draw 0) _ nSims _ q1 q2 hq rfl (List.ne_nil_of_mem (hsel a ha ia)) (.inr ?_)
  refine grid_freq t0 _ ?_ ⟨a.date, List.mem_map.2 ⟨_, hsel a ha ia, rfl⟩, b.date, List.mem_map.2 ⟨_, hsel b hb ib, rfl⟩, hab⟩
  intro t ht
  obtain ⟨r, hr, rfl⟩ := List.mem_map.1 ht
  have hr : r ∈ (toFTable hasDate rows).rows := by
    unfold selectRows at hr
    split_ifs at hr
    · exact (List.mem_filter.1 hr).1
    · exact hr
  obtain ⟨d, hd, rfl⟩ := List.mem_map.1 hr
  exact hg d hd

omit [FloorRing K] [IsStrictOrderedRing K] in
theorem candidates_ok (ch : Choices K) (args : ModelArgs K) (df : Frame K) (freq : Option Freq) 
    (hcorr : args.mode = .auto → 4 ≤ (usableRows df).length → ∃ c, ch.corr df = .ok c) :
    ∃ cand, candidates ch args df freq = .ok cand := by
  have hm : ∃ mode, resolveMode ch args df = .ok mode := by
    unfold resolveMode
    cases h : args.mode with
    | auto =>
      have hb : ∃ b, isMultiplicative ch.corr df = .ok b := by
        have hu : (df.rows.filter fun r => r.y.isSome && (!df.hasWeight || decide (∃ w ∈ r.weight, 0 < w))) = usableRows df := by
          apply List.filter_congr
          intro r _
          rw [Bool.eq_iff_iff, Bool.and_eq_true, Bool.or_eq_true, Option.isSome_iff_exists, decide_eq_true_eq, decide_eq_true_eq]
          unfold Usable
          cases df.hasWeight <;> simp
        unfold isMultiplicative
        rw [hu]
        split_ifs with h1 h2 h3 h4
        · exact ⟨_, rfl⟩
        · exact ⟨_, rfl⟩
        · exact ⟨_, rfl⟩
        · exact ⟨_, rfl⟩
        · obtain ⟨c, hc⟩ := hcorr h (by omega)
          rw [hc]
          exact ⟨_, rfl⟩
      obtain ⟨b, hb⟩ := hb
      simp only [hb, bind, Except.bind]
      exact ⟨_, rfl⟩
    | _ => exact ⟨_, rfl⟩
  obtain ⟨mode, hm⟩ := hm
  unfold candidates
  simp only [hm, bind, Except.bind]
  exact ⟨_, rfl⟩

/-! ### C82 -/

/-- **C82.** A run on a daily series ends with a result: no exception, if two samples remain after the starting date, one of them counts, the percentiles lie
between 0 and 100, the candidates are dependable or naive models, and solver and score keep their contracts. -/
theorem C82_total_partial (w : World K) (args : RunArgs K) (source : String) (df : Frame K) (t0 : Timestamp) (hdaily : DailySeries df t0)
    (htwo : 2 ≤ (kept args.start df).length)
    (hcounts : ∃ (i : Nat) (r : Row K), (kept args.start df)[i]? = some r ∧ r.y ≠ none ∧ (∃ v, givenWeight df r = some v ∧ 0 < v) ∧
      (args.findOutliers = true → ∀ step spike, getModelOutliers { df with rows := kept args.start df } 3 = .ok (step, spike) → spike[i]? = some false))
    (global : String → Option (CacheFn K)) (reg : Registry K) (n : Nat) (hn : (kept args.start df).length ≤ n) (hc : Contracts w args source n global reg) :
    ∃ res, runSingle w args source df = .ok res := by
  have hkd : ∀ r ∈ kept args.start df, r.date = t0 + r.x * (24 * 60 * 60 * 1000000000) := fun r hr => hdaily.days r (List.mem_filter.1 hr).1
  have hkx : (kept args.start df).Pairwise fun a b => a.x < b.x := hdaily.sorted.sublist List.filter_sublist
  have hout : ∃ df2, applyOutliers args.findOutliers (filterStart args.start df) = .ok df2 := by
    unfold applyOutliers
    cases args.findOutliers with
    | false => exact ⟨_, rfl⟩
    | true =>
      rw [filterStart_rows, if_pos rfl]
      obtain ⟨m, hm⟩ := (C39_defined { df with rows := kept args.start df } 3).2 (by
        have : ∀ r ∈ kept args.start df, axis { df with rows := kept args.start df } r = t0 + r.x * (24 * 60 * 60 * 1000000000) := by
          intro r hr
          unfold axis
          dsimp only
          rw [hdaily.dated, if_pos rfl]
          exact hkd r hr
        dsimp only
        rw [List.map_congr_left this]
        refine List.pairwise_map.2 (hkx.imp ?_)
        intro a b hab
        omega)
      simp only [hm, bind, Except.bind]
      exact ⟨_, rfl⟩
  obtain ⟨df2, hout⟩ := hout
  obtain ⟨u1, u2, u3, u4, u5⟩ := used_rows args.findOutliers args.start df df2 hout
  have hpart := used_part hdaily args.findOutliers args.start df2 hout
  obtain ⟨act, hact1, hact⟩ := daily_actuals w.srt hdaily _ hpart
  have hdd : (defaultWeights df2).1.hasDate = true := u1.trans hdaily.dated
  have hfreq : runFreq df = some .D := by unfold runFreq; rw [hdaily.dated, if_pos rfl, daily_freq hdaily]
  -- a usable sample
  have hne : usableRows (usedRows (defaultWeights df2).1) ≠ [] := by
    obtain ⟨i, r, hi, hy, ⟨v, hv, hv0⟩, hspike⟩ := hcounts
    obtain ⟨spike, hlen, hs1, hs2, e⟩ := weights_stage args.findOutliers _ df2 hout
    rw [filterStart_rows] at e hlen hs1 hs2
    have hb : spike[i]? = some false := by
      cases hf : args.findOutliers with
      | true =>
        obtain ⟨step, hs⟩ := hs1 hf
        exact hspike hf step spike hs
      | false =>
        rw [hs2 hf, List.getElem?_replicate]
        have := (List.getElem?_eq_some_iff.1 hi).1
        rw [if_pos this]
    have hg : (weighted { df with rows := kept args.start df } spike).rows[i]? = some { r with weight := some v } := by
      unfold weighted
      dsimp only
      rw [List.getElem?_zipWith, hi, hb]
      have : givenWeight { df with rows := kept args.start df } r = some v := hv
      simp [this]
    rw [← e] at hg
    have hin : ({ r with weight := some v } : Row K) ∈ (usedRows (defaultWeights df2).1).rows :=
      List.mem_filter.2 ⟨List.mem_of_getElem? hg, by rw [decide_eq_true_iff]; exact ⟨v, rfl, hv0⟩⟩
    refine List.ne_nil_of_mem (List.mem_filter.2 ⟨hin, ?_⟩)
    rw [decide_eq_true_iff]
    exact ⟨Option.ne_none_iff_exists'.1 hy, fun _ => ⟨v, rfl, hv0⟩⟩
  have hlen : (usableRows (usedRows (defaultWeights df2).1)).length ≤ (kept args.start df).length := by
    have h1 : (usableRows (usedRows (defaultWeights df2).1)).length ≤ (usedRows (defaultWeights df2).1).rows.length := List.length_filter_le _ _
    have h2 : (usedRows (defaultWeights df2).1).rows.length ≤ (defaultWeights df2).1.rows.length := List.length_filter_le _ _
    have h3 := congrArg List.length u4
    rw [List.length_map, List.length_map] at h3
    omega
  have hrows : (defaultWeights df2).1.rows ≠ [] := by
    intro h0
    have h3 := congrArg List.length u4
    rw [List.length_map, List.length_map, h0, List.length_nil] at h3
    omega
  have hrange : ∃ range, runRange (defaultWeights df2).1 = .ok range := by
    unfold runRange axisOf
    rw [if_pos hdd]
    have n1 : listMin ((defaultWeights df2).1.rows.map Row.date) ≠ none := by
      intro h0
      have := (listMin_none _).1 h0
      rw [List.map_eq_nil_iff] at this
      exact hrows this
    have n2 : listMax ((defaultWeights df2).1.rows.map Row.date) ≠ none := by
      intro h0
      have := (listMax_none _).1 h0
      rw [List.map_eq_nil_iff] at this
      exact hrows this
    obtain ⟨a, ha⟩ := Option.ne_none_iff_exists'.1 n1
    obtain ⟨b, hb⟩ := Option.ne_none_iff_exists'.1 n2
    rw [ha, hb]
    exact ⟨_, rfl⟩
  obtain ⟨range, hrange⟩ := hrange
  have hwx : (defaultWeights df2).1.rows.Pairwise fun a b => a.x < b.x := by
    have h1 : ((defaultWeights df2).1.rows.map Row.x).Pairwise (· < ·) := u4 ▸ List.pairwise_map.2 hkx
    exact List.pairwise_map.1 h1
  obtain ⟨cand, hcd⟩ := candidates_ok w.ch args.models (defaultWeights df2).1 (runFreq df) fun h h4 => hc.test h _ hdd hwx h4 (by
    have h3 := congrArg List.length u4
    rw [List.length_map, List.length_map] at h3
    omega)
  obtain ⟨hcne, hcw⟩ := hc.models _ cand (hfreq ▸ hcd)
  have hall := fun m hm i => candidate_ok w args source hdaily df2 hout (defaultWeights df2).2 cand.1 act hact global reg m (hcw m hm) (w.env source i)
    (hc.cacheVars i) (hc.solver i) (hc.score i _ (hlen.trans hn)) hne
  obtain ⟨fits, hfits⟩ := fitLoop_ok (w.env source) (mkSetup w args source df (defaultWeights df2).1 (defaultWeights df2).2 cand.1 act) cand.2
    (by
      intro m hm i
      obtain ⟨f, rows, h1, h2, -⟩ := hall m hm i
      exact ⟨f, rows, h1, h2⟩) 0
  obtain ⟨s1, s2, s3⟩ := fitLoop_spec _ _ _ _ _ hfits
  have hfne : fits.1 ≠ [] := by
    intro h0
    rw [h0, List.length_nil] at s1
    exact hcne (List.eq_nil_of_length_eq_zero s1.symm)
  have hruns : runFits w args source df = .ok ((actualsClean (defaultWeights df2).1 source ⟨(defaultWeights df2).2, runFreq df, range⟩ ++ fits.2).map (flagData (bestKey w.srt fits.1)),
      fits.1.map (flagMeta (bestKey w.srt fits.1))) := by
    unfold runFits
    simp only [bind, Except.bind]
    rw [hout]
    dsimp only
    rw [hrange]
    dsimp only
    rw [hcd]
    dsimp only
    rw [hact1]
    dsimp only
    rw [hfits]
    dsimp only
    rw [if_neg hfne]
  unfold runSingle
  simp only [bind, Except.bind]
  rw [hruns]
  dsimp only
  have hsel : ∀ d : List (DRow K) × List (MRow K), (∀ r ∈ (selectFits args.includeAll d).1, r ∈ d.1) ∧ ∀ r ∈ d.1, r.isActuals = true → r ∈ (selectFits args.includeAll d).1 := by
    intro d
    unfold selectFits
    split_ifs
    · exact ⟨fun r h => h, fun r h _ => h⟩
    · exact ⟨fun r h => (List.mem_filter.1 h).1, fun r h h2 => List.mem_filter.2 ⟨h, by simp [h2]⟩⟩
  have hdata : ∀ r ∈ (actualsClean (defaultWeights df2).1 source ⟨(defaultWeights df2).2, runFreq df, range⟩ ++ fits.2).map (flagData (bestKey w.srt fits.1)),
      r.source = source ∧ ∃ x : Int, r.date = t0 + x * (24 * 60 * 60 * 1000000000) := by
    intro r hr
    obtain ⟨q, hq, rfl⟩ := List.mem_map.1 hr
    rcases List.mem_append.1 hq with hq | hq
    · unfold actualsClean at hq
      obtain ⟨a, ha, rfl⟩ := List.mem_map.1 hq
      refine ⟨rfl, ?_⟩
      have h1 : a.date ∈ (kept args.start df).map Row.date := u3 ▸ List.mem_map.2 ⟨a, ha, rfl⟩
      obtain ⟨k, hk, e⟩ := List.mem_map.1 h1
      refine ⟨k.x, ?_⟩
      unfold flagData
      dsimp only
      rw [if_pos hdd, ← e]
      exact hkd k hk
    · obtain ⟨k, m, f, rows, e1, e2, e3, e4⟩ := s3 q hq
      obtain ⟨f', rows', g1, g2, g3⟩ := hall m (List.mem_of_getElem? e1) (0 + k)
      have : f = f' := Except.ok.inj (e2.symm.trans g1)
      subst this
      have : rows = rows' := Except.ok.inj (e3.symm.trans g2)
      subst this
      refine ⟨?_, g3 q e4⟩
      exact (forecastRows_mem _ _ _ _ e3 q e4).2.2.1
  obtain ⟨out, hpi⟩ := getPi_ok (w.draw source) df.hasDate (selectFits args.includeAll ((actualsClean (defaultWeights df2).1 source ⟨(defaultWeights df2).2, runFreq df, range⟩ ++ fits.2).map (flagData (bestKey w.srt fits.1)),
      fits.1.map (flagMeta (bestKey w.srt fits.1)))).1 source t0 100 args.nCum args.q1 args.q2 args.widening hc.percentiles
    (fun r hr => (hdata r ((hsel _).1 r hr)).1) (fun r hr => (hdata r ((hsel _).1 r hr)).2) (by
      match hk : kept args.start df, htwo with
      | a :: b :: l, _ =>
        have hab : a.x < b.x := by
          rw [hk] at hkx
          exact (List.pairwise_cons.1 hkx).1 b (by simp)
        have hda := hkd a (by rw [hk]; simp)
        have hdb := hkd b (by rw [hk]; simp)
        have hfind : ∀ k ∈ kept args.start df, ∃ d, d ∈ (actualsClean (defaultWeights df2).1 source ⟨(defaultWeights df2).2, runFreq df, range⟩ ++ fits.2).map (flagData (bestKey w.srt fits.1)) ∧ d.isActuals = true ∧ d.date = k.date := by
          intro k hkm
          have h1 : k.date ∈ (defaultWeights df2).1.rows.map Row.date := u3 ▸ List.mem_map.2 ⟨k, hkm, rfl⟩
          obtain ⟨a, ha, e⟩ := List.mem_map.1 h1
          refine ⟨_, List.mem_map.2 ⟨_, List.mem_append.2 (.inl (List.mem_map.2 ⟨a, ha, rfl⟩)), rfl⟩, rfl, ?_⟩
          unfold flagData
          dsimp only
          rw [if_pos hdd, e]
        obtain ⟨d1, i1, j1, k1⟩ := hfind a (by rw [hk]; simp)
        obtain ⟨d2, i2, j2, k2⟩ := hfind b (by rw [hk]; simp)
        refine ⟨d1, (hsel _).2 d1 i1 j1, d2, (hsel _).2 d2 i2 j2, j1, j2, ?_⟩
        omega)
  rw [hpi]
  exact ⟨_, rfl⟩

end Anticipy
