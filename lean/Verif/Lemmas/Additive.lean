import Verif.Spec.Additive
import Verif.Spec.Superposition
import Verif.Spec.Misfit
import Verif.Props.Unique
import Verif.Props.CalendarModels
import Verif.Props.Identity
import Verif.Props.RealModels
import Verif.Props.Trends

/-
Models that add up features: closure under addition, and the models shipped with the library.
-/
namespace Anticipy
open Spec
variable {K : Type} [Field K] [LinearOrder K]

section
omit [LinearOrder K]

theorem combination_zip (α β : K) (feats : List (Feature K)) (p q : List K) (hp : p.length = feats.length) (hq : q.length = feats.length) (x : Int)
    (t : Timestamp) : combination feats (List.zipWith (fun a b => α * a + β * b) p q) x t = α * combination feats p x t + β * combination feats q x t := by
  unfold combination
  induction feats generalizing p q with
  | nil => simp_all
  | cons φ feats ih =>
    cases p with
    | nil => cases hp
    | cons a p =>
      cases q with
      | nil => cases hq
      | cons b q =>
        simp only [List.zipWith_cons_cons, List.sum_cons]
        rw [ih p q (by simpa using hp) (by simpa using hq)]
        ring

theorem combination_append (f1 f2 : List (Feature K)) (p1 p2 : List K) (h : p1.length = f1.length) (x : Int) (t : Timestamp) :
    combination (f1 ++ f2) (p1 ++ p2) x t = combination f1 p1 x t + combination f2 p2 x t := by
  unfold combination
  rw [List.zipWith_append h, List.sum_append]

theorem combination_straight (feats : List (Feature K)) [CharZero K] : Straight feats.length (combination feats) := by
  intro p q x t hp hq
  have := combination_zip (1 / 2) (1 / 2) feats p q hp hq x t
  have e : halfway p q = List.zipWith (fun a b => 1 / 2 * a + 1 / 2 * b) p q := by
    unfold halfway
    congr 1
    funext a b
    ring
  rw [e, this]
  ring

theorem combination_linear (feats : List (Feature K)) : LinearPrediction feats.length (combination feats) := by
  intro s p q x t hp hq
  have := combination_zip 1 s feats p q hp hq x t
  have e : combined s p q = List.zipWith (fun a b => 1 * a + s * b) p q := by
    unfold combined
    congr 1
    funext a b
    ring
  rw [e, this]
  ring

/-- One flag of several is set. -/
theorem combination_index (idx : Timestamp → Int) (p : List K) (x : Int) (t : Timestamp) :
    combination (indexFeatures idx p.length) p x t = if 1 ≤ idx t then p.getD (idx t - 1).toNat 0 else 0 := by
  have key : ∀ (p : List K) (s : Nat), (List.zipWith (fun c (φ : Feature K) => c * φ x t) p
      ((List.range p.length).map fun (i : Nat) _ t => if idx t = (i : Int) + s + 1 then 1 else 0)).sum =
        if (s : Int) + 1 ≤ idx t then p.getD (idx t - s - 1).toNat 0 else 0 := by
    intro p
    induction p with
    | nil => intro s; simp
    | cons a p ih =>
      intro s
      rw [List.length_cons, List.range_succ_eq_map, List.map_cons, List.map_map, List.zipWith_cons_cons, List.sum_cons]
      have e : ((fun (i : Nat) (_ : Int) (t : Timestamp) => if idx t = (i : Int) + s + 1 then (1 : K) else 0) ∘ Nat.succ) =
          fun (i : Nat) _ t => if idx t = (i : Int) + (s + 1 : Nat) + 1 then 1 else 0 := by
        funext i x t
        simp only [Function.comp]
        congr 1
        push_cast
        apply propext
        constructor <;> intro h <;> omega
      rw [e, ih (s + 1)]
      push_cast
      by_cases h1 : idx t = s + 1
      · rw [if_pos (by omega), if_neg (by omega), if_pos (by omega)]
        have : (idx t - s - 1).toNat = 0 := by omega
        rw [this]
        simp
      · rw [if_neg (by omega)]
        by_cases h2 : (s : Int) + 1 + 1 ≤ idx t
        · rw [if_pos (by omega), if_pos (by omega)]
          obtain ⟨k, hk⟩ : ∃ k, (idx t - s - 1).toNat = k + 1 := ⟨(idx t - s - 1).toNat - 1, by omega⟩
          have hk' : (idx t - (s + 1) - 1).toNat = k := by omega
          rw [hk, hk']
          simp
        · rw [if_neg (by omega), if_neg (by omega)]
          simp
  have := key p 0
  unfold combination indexFeatures
  simpa using this

theorem hasLevel_left (f1 f2 : List (Feature K)) (h : HasLevel f1) : HasLevel (f1 ++ f2) := by
  obtain ⟨u, h1, h2⟩ := h
  refine ⟨u ++ List.replicate f2.length 0, by simp [h1], ?_⟩
  intro x t
  rw [combination_append _ _ _ _ h1, h2]
  have : ∀ f : List (Feature K), combination f (List.replicate f.length 0) x t = 0 := by
    intro f
    unfold combination
    induction f with
    | nil => rfl
    | cons φ f ih =>
      rw [List.length_cons, List.replicate_succ, List.zipWith_cons_cons, List.sum_cons, ih]
      ring
  rw [this]
  ring

theorem combination_follows (feats : List (Feature K)) (h : HasLevel feats) (c d : K) : ∃ T : List K → List K, ∀ p : List K, p.length = feats.length →
    (T p).length = feats.length ∧ ∀ x t, combination feats (T p) x t = c * combination feats p x t + d := by
  obtain ⟨u, h1, h2⟩ := h
  refine ⟨fun p => List.zipWith (fun a b => c * a + d * b) p u, ?_⟩
  intro p hp
  refine ⟨by simp [hp, h1], ?_⟩
  intro x t
  rw [combination_zip _ _ _ _ _ hp h1, h2, mul_one]

end

/-! ### Sums of models -/

theorem composed_named (op a b : String) : composedName op a b ≠ "null" ∧ composedName op a b ≠ "logistic" ∧ composedName op a b ≠ "sigmoid" := by
  have key : ∀ (s : String) (c : Char) (l : List Char), s.toList = c :: l → c ≠ '(' → composedName op a b ≠ s := by
    intro s c l hs hc h
    have := congrArg String.toList h
    rw [composedName_toList, hs] at this
    exact hc (List.cons.inj this).1.symm
  exact ⟨key "null" 'n' ['u', 'l', 'l'] (by decide) (by decide), key "logistic" 'l' ['o', 'g', 'i', 's', 't', 'i', 'c'] (by decide) (by decide),
    key "sigmoid" 's' ['i', 'g', 'm', 'o', 'i', 'd'] (by decide) (by decide)⟩

theorem Spec.AddsUp.add {m1 m2 : ForecastModel K} {reg : Registry K} {f1 f2 : List (Feature K)} (h1 : AddsUp m1 reg f1) (h2 : AddsUp m2 reg f2) :
    AddsUp (m1.add m2) reg (f1 ++ f2) := by
  have eb : (m1.add m2).fBounds = fConcatBounds m1 m2 := by
    unfold ForecastModel.add compose
    rw [if_neg h1.named.1, if_neg h2.named.1]
  have ename : (m1.add m2).name = composedName "+" m1.name m2.name := by
    unfold ForecastModel.add compose
    rw [if_neg h1.named.1, if_neg h2.named.1]
    rfl
  have en : (m1.add m2).nParams = m1.nParams + m2.nParams := compose_nParams false m1 m2 h1.named.1 h2.named.1
  refine ⟨by rw [en]; simp [h1.count, h2.count], by rw [ename]; exact composed_named _ _ _, ?_, ?_⟩
  · intro args
    obtain ⟨a, ha⟩ := h1.bounds args
    obtain ⟨b, hb⟩ := h2.bounds args
    refine ⟨true, ?_⟩
    rw [eb, en]
    simp only [fConcatBounds, ha, hb, bind, Except.bind, List.replicate_append_replicate]
  · intro ctx xs ds p a1 a2 a3 a4 a5 a6
    have l1 : (p.take m1.nParams).length = m1.nParams := by
      rw [en] at a4
      simp [a4]
    have l2 : (p.drop m1.nParams).length = m2.nParams := by
      rw [en] at a4
      simp [a4]
    have := compose_fModel false m1 m2 h1.named.1 h2.named.1 ctx p false
    rw [ForecastModel.add, this]
    simp only [bind, Except.bind]
    rw [h1.value ctx xs ds _ a1 a2 a3 l1 a5 a6]
    dsimp only
    rw [h2.value ctx xs ds _ a1 a2 a3 l2 a5 a6]
    dsimp only
    rw [bin_vecOf _ _ _ (by simp)]
    congr 2
    have hs : ∀ x t, combination (f1 ++ f2) p x t = combination f1 (p.take m1.nParams) x t + combination f2 (p.drop m1.nParams) x t := by
      intro x t
      rw [← combination_append _ _ _ _ (by rw [l1, h1.count]), List.take_append_drop]
    clear a1 a2 a6 l1 l2 a4 a5 this
    induction xs generalizing ds with
    | nil => simp
    | cons x xs ih =>
      cases ds with
      | nil => rfl
      | cons t ds =>
        simp only [List.zipWith_cons_cons]
        rw [ih ds (by simpa using a3), hs]
        rfl

theorem Spec.AddsUp.combine {reg : Registry K} (l : List (ForecastModel K × List (Feature K))) (m : ForecastModel K) (f : List (Feature K))
    (h : AddsUp m reg f) (hl : ∀ e ∈ l, AddsUp e.1 reg e.2) :
    AddsUp (combineModels false m (l.map Prod.fst)) reg (f ++ (l.map Prod.snd).flatten) := by
  induction l generalizing m f with
  | nil => simpa [combineModels] using h
  | cons e l ih =>
    have := ih (m.add e.1) (f ++ e.2) (h.add (hl e (by simp))) (fun e' he => hl e' (by simp [he]))
    rw [List.append_assoc] at this
    exact this

theorem Spec.AddsUp.unpinned {m : ForecastModel K} {reg : Registry K} {f : List (Feature K)} (h : AddsUp m reg f) : Unpinned m := by
  intro ar bd hb p hp v
  obtain ⟨a, ha⟩ := h.bounds ar
  rw [ha] at hb
  have hb := (Except.ok.inj hb).symm
  subst hb
  have := (List.of_mem_zip hp).1
  have := List.eq_of_mem_replicate this
  simp [this]

/-- The samples of a fit tell all combinations apart. -/
def Telling (feats : List (Feature K)) (used : Frame K) : Prop :=
  ∀ p q : List K, p.length = feats.length → q.length = feats.length →
    (∀ r ∈ usableRows used, combination feats p r.x r.date = combination feats q r.x r.date) → ∀ x t, combination feats p x t = combination feats q x t

theorem Spec.AddsUp.inParameters [IsStrictOrderedRing K] {m : ForecastModel K} {reg : Registry K} {f : List (Feature K)} (h : AddsUp m reg f) (hf : HasLevel f)
    (hne : f ≠ []) : LinearInParameters m reg (combination f) (Telling f) where
  params := by
    rw [← h.count]
    simpa using hne
  free := by
    intro args b p hb
    obtain ⟨a, ha⟩ := h.bounds args
    rw [ha] at hb
    have hb := (Except.ok.inj hb).symm
    subst hb
    exact admissible_default _ p _
  value := by
    intro ctx xs ds p h1 h2 h3 h4 h5 h6
    refine h.value ctx xs ds p ?_ h2 h3 h4 h5 h6
    rw [h1]
    unfold scaleX
    rw [if_neg]
    rintro (h' | h')
    · exact h.named.2.1 h'
    · exact h.named.2.2 h'
  straight := by
    rw [← h.count]
    exact combination_straight f
  follows := by
    rw [← h.count]
    exact fun c d => combination_follows f hf c d
  determined := by
    intro used hu p p0 hp hp0 _ _ _ _ he x t
    rw [← h.count] at hp hp0
    exact hu p p0 hp hp0 he x t

/-! ### The models of the library -/

section
omit [LinearOrder K]

omit [Field K] in
theorem zip_first (xs : List Int) (ds : List Timestamp) (h : xs.length = ds.length) (g : Int → K) (v : Int → Timestamp → K) (hv : ∀ x t, v x t = g x) :
    xs.map g = List.zipWith v xs ds := by
  induction xs generalizing ds with
  | nil => rfl
  | cons x xs ih =>
    cases ds with
    | nil => cases h
    | cons t ds => rw [List.map_cons, List.zipWith_cons_cons, ih ds (by simpa using h), hv]

omit [Field K] in
theorem zip_second (xs : List Int) (ds : List Timestamp) (h : xs.length = ds.length) (g : Timestamp → K) (v : Int → Timestamp → K) (hv : ∀ x t, v x t = g t) :
    ds.map g = List.zipWith v xs ds := by
  induction xs generalizing ds with
  | nil => cases ds with
    | nil => rfl
    | cons t ds => cases h
  | cons x xs ih =>
    cases ds with
    | nil => cases h
    | cons t ds => rw [List.map_cons, List.zipWith_cons_cons, ih ds (by simpa using h), hv]
end

theorem addsUp_constant (reg : Registry K) : AddsUp (modelConstant : ForecastModel K) reg levelFeatures where
  count := rfl
  named := by simp [modelConstant, mkModel]
  bounds := fun _ => ⟨false, rfl⟩
  value := by
    intro ctx xs ds p h1 h2 h3 h4 _ _
    obtain ⟨a, rfl⟩ := List.length_eq_one_iff.1 h4
    simp only [modelConstant, mkModel, fModelConstant, unpack1, bind, Except.bind, h1, List.map_map]
    congr 2
    exact zip_first xs ds h3 _ _ (by intro x t; simp [combination, levelFeatures])

theorem addsUp_linear (reg : Registry K) : AddsUp (modelLinear : ForecastModel K) reg lineFeatures where
  count := rfl
  named := by simp [modelLinear, mkModel]
  bounds := fun _ => ⟨false, rfl⟩
  value := by
    intro ctx xs ds p h1 h2 h3 h4 _ _
    obtain ⟨a, b, rfl⟩ := two_params p h4
    simp only [modelLinear, mkModel, fModelLinear, unpack2, bind, Except.bind, h1, List.map_map]
    congr 2
    exact zip_first xs ds h3 _ _ (by intro x t; simp [combination, lineFeatures])

/-- Models that look up one parameter per index. -/
theorem addsUp_indexed (reg : Registry K) (m : ForecastModel K) (key : String) (f : CacheFn K) (idx : Timestamp → Int)
    (hf : ∀ ax ds, f ax (some ds) = .ok (.ints (ds.map idx))) (hr : reg key = some f) (hm : m.fModel = fModelIndexed key f)
    (hi : ∀ t, 0 ≤ idx t ∧ idx t < m.nParams + 1) (hb : m.fBounds = fBoundsDefault m.nParams)
    (hname : m.name ≠ "null" ∧ m.name ≠ "logistic" ∧ m.name ≠ "sigmoid") : AddsUp m reg (indexFeatures idx m.nParams) where
  count := by simp [indexFeatures]
  named := hname
  bounds := by intro args; rw [hb]; exact ⟨false, rfl⟩
  value := by
    intro ctx xs ds p h1 h2 h3 h4 h5 _
    rw [hm]
    have hg : gather ((0 : K) :: p) (ds.map idx) = .ok ((ds.map idx).map fun i => ((0 : K) :: p)[i.toNat]?) := by
      apply gather_eq
      intro i hi'
      obtain ⟨t, -, rfl⟩ := List.mem_map.1 hi'
      have := hi t
      rw [List.length_cons, h4]
      push_cast
      exact this
    have hc : (match ctx.cache key with | some c => pure c | none => f ctx.ax ctx.adate : Res (CacheVal K)) = .ok (.ints (ds.map idx)) := by
      cases hk : ctx.cache key with
      | none => rw [h2]; exact hf _ _
      | some v =>
        obtain ⟨g, g1, g2⟩ := h5 _ _ hk
        rw [hr, Option.some.injEq] at g1
        subst g1
        rw [h2, hf] at g2
        rw [← Except.ok.inj g2]
        rfl
    have hs : fModelIndexed key f ctx (some p) false = .ok (.vec ((ds.map idx).map fun i => ((0 : K) :: p)[i.toNat]?)) := by
      simp only [fModelIndexed, bind, Except.bind, Bool.false_eq_true, if_false]
      cases hk : ctx.cache key with
      | none =>
        rw [hk] at hc
        dsimp only at hc ⊢
        rw [hc]
        dsimp only
        rw [hg]
      | some v =>
        rw [hk] at hc
        have hc := Except.ok.inj hc
        subst hc
        dsimp only [pure, Except.pure]
        rw [hg]
    rw [hs]
    congr 1
    show Arr.vec _ = Arr.vec _
    congr 1
    rw [List.map_map, List.map_zipWith]
    refine zip_second xs ds h3 _ _ ?_
    intro x t
    have h0 := hi t
    simp only [Function.comp]
    rw [← h4, combination_index]
    by_cases hz : 1 ≤ idx t
    · obtain ⟨k, hk⟩ : ∃ k : Nat, idx t = k + 1 := ⟨(idx t - 1).toNat, by omega⟩
      rw [if_pos hz, hk]
      have e1 : ((k : Int) + 1).toNat = k + 1 := by omega
      have e2 : ((k : Int) + 1 - 1).toNat = k := by omega
      rw [e1, e2, List.getElem?_cons_succ]
      have : k < p.length := by rw [h4]; omega
      simp [this]
    · have : idx t = 0 := by omega
      rw [if_neg hz, this]
      rfl

theorem addsUp_wday (reg : Registry K) (hr : reg "a_weekday" = some cacheWeekday) :
    AddsUp (modelSeasonWday : ForecastModel K) reg (indexFeatures weekday 6) :=
  addsUp_indexed reg modelSeasonWday "a_weekday" cacheWeekday weekday (fun _ _ => rfl) hr rfl (fun t => weekday_range t) rfl
    (by simp [modelSeasonWday, mkModel])

theorem addsUp_month (reg : Registry K) (hr : reg "a_month" = some cacheMonth) :
    AddsUp (modelSeasonMonth : ForecastModel K) reg (indexFeatures (fun t => month t - 1) 11) :=
  addsUp_indexed reg modelSeasonMonth "a_month" cacheMonth (fun t => month t - 1) (fun _ _ => rfl) hr rfl (fun t => by
    have := month_range t
    have e : ((modelSeasonMonth : ForecastModel K).nParams : Int) = 11 := rfl
    omega) rfl (by simp [modelSeasonMonth, mkModel])

/-- Dummies that flag dates. -/
theorem addsUp_dummy (reg : Registry K) (name : String) (f : DummyFn K) (flag : Timestamp → K) (hf : ∀ ax ds, ds ≠ [] → f ax (some ds) = .ok (ds.map flag))
    (hr : reg ("mask_" ++ name) = none ∨ reg ("mask_" ++ name) = some fun ax ad => do let m ← f ax ad; .ok (.mask m))
    (hname : name ≠ "null" ∧ name ≠ "logistic" ∧ name ≠ "sigmoid") : AddsUp (dummyModel name f) reg (flagFeature flag) where
  count := rfl
  named := hname
  bounds := fun _ => ⟨false, rfl⟩
  value := by
    intro ctx xs ds p h1 h2 h3 h4 h5 h6
    have hds : ds ≠ [] := by
      intro hc
      subst hc
      exact h6 (List.length_eq_zero_iff.1 h3)
    obtain ⟨a, rfl⟩ := List.length_eq_one_iff.1 h4
    have hc : (match ctx.cache ("mask_" ++ name) with | some (.mask m) => pure m | some _ => .error .typeError | none => f ctx.ax ctx.adate : Res (List K)) =
        .ok (ds.map flag) := by
      cases hk : ctx.cache ("mask_" ++ name) with
      | none => rw [h2]; exact hf _ _ hds
      | some v =>
        obtain ⟨g, g1, g2⟩ := h5 _ _ hk
        rcases hr with hr | hr
        · rw [hr] at g1
          cases g1
        rw [hr, Option.some.injEq] at g1
        subst g1
        rw [h2] at g2
        simp only [bind, Except.bind, hf _ _ hds] at g2
        rw [← Except.ok.inj g2]
        rfl
    have hs : (dummyModel name f).fModel ctx (some [a]) false = .ok (vecOf ((ds.map flag).map fun m => a * m)) := by
      simp only [dummyModel, mkModel, fModelDummy, bind, Except.bind, Bool.false_eq_true, if_false, unpack1]
      cases hk : ctx.cache ("mask_" ++ name) with
      | none =>
        rw [hk] at hc
        dsimp only at hc ⊢
        rw [hc]
      | some v =>
        rw [hk] at hc
        cases v with
        | mask v =>
          have hc := Except.ok.inj hc
          subst hc
          rfl
        | _ => cases hc
    rw [hs]
    congr 2
    rw [List.map_map]
    exact zip_second xs ds h3 _ _ (by intro x t; simp [combination, flagFeature])

theorem bracketed_named (c d : Char) (l : List Char) (s : String) (h : s.toList = c :: d :: l) (hc : c ≠ 'n' ∧ c ≠ 'l' ∧ (c = 's' → d ≠ 'i')) :
    s ≠ "null" ∧ s ≠ "logistic" ∧ s ≠ "sigmoid" := by
  refine ⟨?_, ?_, ?_⟩ <;> (rintro rfl; simp at h; obtain ⟨rfl, rfl, -⟩ := h; simp at hc)

theorem addsUp_stepDate (reg : Registry K) (label : Timestamp → String) (d : Timestamp) :
    AddsUp (getModelStepDate label d : ForecastModel K) reg (flagFeature fun t => if d ≤ t then 1 else 0) where
  count := rfl
  named := bracketed_named 's' 't' _ _ (by simp only [getModelStepDate, mkModel, String.toList_append]; rfl) (by decide)
  bounds := fun _ => ⟨false, rfl⟩
  value := by
    intro ctx xs ds p h1 h2 h3 h4 _ _
    obtain ⟨a, rfl⟩ := List.length_eq_one_iff.1 h4
    simp only [getModelStepDate, mkModel, fModelStepDate, unpack1, bind, Except.bind, h2, Bool.false_eq_true, if_false]
    congr 2
    exact zip_second xs ds h3 _ _ (by intro x t; simp [combination, flagFeature])

theorem addsUp_spikeDate (reg : Registry K) (label : Timestamp → String) (d1 d2 : Timestamp) :
    AddsUp (getModelSpikeDate label d1 d2 : ForecastModel K) reg (flagFeature fun t => if d1 ≤ t ∧ t < d2 then 1 else 0) where
  count := rfl
  named := bracketed_named 's' 'p' _ _ (by simp only [getModelSpikeDate, mkModel, String.toList_append]; rfl) (by decide)
  bounds := fun _ => ⟨false, rfl⟩
  value := by
    intro ctx xs ds p h1 h2 h3 h4 _ _
    obtain ⟨a, rfl⟩ := List.length_eq_one_iff.1 h4
    simp only [getModelSpikeDate, mkModel, fModelSpikeDate, unpack1, bind, Except.bind, h2, Bool.false_eq_true, if_false]
    congr 2
    exact zip_second xs ds h3 _ _ (by intro x t; simp [combination, flagFeature])

/-- Models that evaluate a sum under another name. -/
theorem addsUp_renamed (reg : Registry K) (m s : ForecastModel K) (feats : List (Feature K)) (hs : AddsUp s reg feats) (hn : m.nParams = s.nParams)
    (hb : m.fBounds = fBoundsDefault m.nParams) (hm : ∀ ctx p, m.fModel ctx p false = s.fModel ctx p false)
    (hname : m.name ≠ "null" ∧ m.name ≠ "logistic" ∧ m.name ≠ "sigmoid") : AddsUp m reg feats where
  count := by rw [hs.count, hn]
  named := hname
  bounds := by intro args; rw [hb]; exact ⟨false, rfl⟩
  value := by
    intro ctx xs ds p h1 h2 h3 h4 h5 h6
    rw [hm]
    exact hs.value ctx xs ds p h1 h2 h3 (by rw [h4, hn]) h5 h6

open Classical in
/-- Calendar models: one flag per calendar. -/
theorem addsUp_calendars (reg : Registry K) (c : Calendar) (cs : List Calendar) (h : ∀ d ∈ c :: cs, d.rules ≠ [])
    (hr : ∀ d ∈ c :: cs, ∀ r ∈ d.rules, NearYear r) (hn : ∀ d ∈ c :: cs, d.name ≠ "null" ∧ d.name ≠ "logistic" ∧ d.name ≠ "sigmoid") (name : Option String)
    (hname : name.getD c.name ≠ "null" ∧ name.getD c.name ≠ "logistic" ∧ name.getD c.name ≠ "sigmoid")
    (hreg : ∀ d ∈ c :: cs, reg ("mask_" ++ d.name) = none ∨
      reg ("mask_" ++ d.name) = some fun ax ad => do let m ← fDummyCalendar d.rules ax ad; .ok (.mask m))
    (m : ForecastModel K) (hm : getModelFromCalendars (c :: cs) name = .ok m) :
    AddsUp m reg ((c :: cs).flatMap fun d => flagFeature fun t => if IsHoliday d.rules t then 1 else 0) := by
  rw [fromCalendars_eq c cs h hr name] at hm
  cases hm
  have one : ∀ d ∈ c :: cs, AddsUp (dummyModel d.name (fDummyCalendar (K := K) d.rules)) reg (flagFeature fun t => if IsHoliday d.rules t then 1 else 0) :=
    fun d hd => addsUp_dummy reg d.name _ _ (fun ax ds hds => calendar_mask d.rules (hr d hd) ax ds hds) (hreg d hd) (hn d hd)
  have sum := Spec.AddsUp.combine (cs.map fun d => (dummyModel d.name (fDummyCalendar (K := K) d.rules),
    flagFeature fun t => if IsHoliday d.rules t then (1 : K) else 0)) _ _ (one c (by simp)) (by
      intro e he
      obtain ⟨d, hd, rfl⟩ := List.mem_map.1 he
      exact one d (by simp [hd]))
  rw [List.map_map, List.map_map] at sum
  refine addsUp_renamed reg _ _ _ sum ?_ rfl (fun _ _ => rfl) hname
  have := sum.count
  rw [← show _ = (combineModels false _ _).nParams from this]
  simp [mkModel, flagFeature, Function.comp_def]

/-- Models for lists of dates: one flag per list. -/
theorem addsUp_datelist (reg : Registry K) (name : String) (l : List Int) (ls : List (List Int)) (h : ∀ x ∈ l :: ls, x ≠ [])
    (hname : name ≠ "null" ∧ name ≠ "logistic" ∧ name ≠ "sigmoid") (hreg : reg "mask_model_dummy" = none)
    (m : ForecastModel K) (hm : getModelFromDatelist name (l :: ls) = .ok m) :
    AddsUp m reg ((l :: ls).flatMap fun x => flagFeature fun t => if t ∈ x then 1 else 0) := by
  rw [fromDatelist_eq name l ls h] at hm
  cases hm
  have one : ∀ x ∈ l :: ls, AddsUp (dummyModel "model_dummy" (fDummyListDate (K := K) x)) reg (flagFeature fun t => if t ∈ x then 1 else 0) :=
    fun x _ => addsUp_dummy reg "model_dummy" _ _ (fun ax ds _ => rfl) (.inl hreg) (by decide)
  have sum := Spec.AddsUp.combine (ls.map fun x => (dummyModel "model_dummy" (fDummyListDate (K := K) x),
    flagFeature fun t => if t ∈ x then (1 : K) else 0)) _ _ (one l (by simp)) (by
      intro e he
      obtain ⟨d, hd, rfl⟩ := List.mem_map.1 he
      exact one d (by simp [hd]))
  rw [List.map_map, List.map_map] at sum
  refine addsUp_renamed reg _ _ _ sum ?_ rfl (fun _ _ => rfl) hname
  have := sum.count
  rw [← show _ = (combineModels false _ _).nParams from this]
  simp [mkModel, flagFeature, Function.comp_def]

/-- Ten sines and ten cosines of the day number. -/
noncomputable def yearlyFeatures : List (Feature ℝ) :=
  ((List.range 10).map fun (i : ℕ) _ d => Real.sin (2 * Real.pi / (1461 / 4) * ((i : ℝ) + 1) * ((dayOf d : ℤ) : ℝ))) ++
  ((List.range 10).map fun (i : ℕ) _ d => Real.cos (2 * Real.pi / (1461 / 4) * ((i : ℝ) + 1) * ((dayOf d : ℤ) : ℝ)))

theorem yearly_value (p : List ℝ) (x : Int) (t : Timestamp) : combination yearlyFeatures p x t = (List.zipWith (· * ·) p (fourierBasis t)).sum := by
  have e : fourierBasis t = yearlyFeatures.map fun φ => φ x t := by
    simp [fourierBasis, yearlyFeatures, List.map_map, Function.comp_def]
  rw [e, List.zipWith_map_right]
  rfl

theorem addsUp_fourier (reg : Registry ℝ) (hr : reg "a_t_fourier" = some cacheFourier) : AddsUp modelFourier reg yearlyFeatures where
  count := by simp [yearlyFeatures, modelFourier, mkModel, fourierHarmonics]
  named := by simp [modelFourier, mkModel]
  bounds := fun _ => ⟨false, rfl⟩
  value := by
    intro ctx xs ds p h1 h2 h3 h4 h5 _
    have e : modelFourier.fModel ctx (some p) false = modelFourier.fModel { ax := ctx.ax, adate := some ds } (some p) false := by
      simp only [modelFourier, mkModel, fModelFourier]
      congr 1
      cases hk : ctx.cache "a_t_fourier" with
      | none => rw [h2]
      | some v =>
        obtain ⟨g, g1, g2⟩ := h5 _ _ hk
        rw [hr, Option.some.injEq] at g1
        subst g1
        rw [h2] at g2
        have g2 : cacheFourier [] (some ds) = .ok v := g2
        rw [g2]
        rfl
    rw [e, fourier_eval p h4]
    congr 1
    show Arr.vec _ = Arr.vec _
    congr 1
    rw [List.map_zipWith]
    exact zip_second xs ds h3 _ _ (by intro x t; rw [yearly_value])

end Anticipy
