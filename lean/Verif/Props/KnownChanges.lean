import Verif.Spec.KnownChanges
import Verif.Props.GroupMeans
import Verif.Props.BalanceRow

/-
C131: a level with known changes predicts the mean since the last change; a level with special days predicts the mean of the ordinary days and the means of the special days.
-/
namespace Anticipy
open Spec
variable {K : Type} [Field K] [LinearOrder K]

/-- Mean of the dates with property `P`, if the errors on these dates balance. -/
theorem part_mean [IsStrictOrderedRing K] (P : Timestamp → Bool) (res : RunResult K) (v : Timestamp → K) (c : K) (hc : ∀ t, P t = true → v t = c)
    (hobs : ∃ a ∈ observed res, P a.date = true) (h : errorSum res v (fun t => if P t then 1 else 0) = 0) : c = meanOf ((observed res).filter fun a => P a.date) := by
  have hp : ∀ t, ((if P t then (1 : Int) else 0) = 1) ↔ P t = true := by
    intro t
    cases P t <;> simp
  have e : inSeason (fun t => if P t then (1 : Int) else 0) 1 res = (observed res).filter fun a => P a.date := by
    unfold inSeason
    congr 1
    funext a
    cases hP : P a.date <;> simp [hP]
  rw [← e]
  refine group_mean _ 1 res v c (fun t ht => hc t ((hp t).1 ht)) ?_ ?_
  · obtain ⟨a, ha, e⟩ := hobs
    exact ⟨a, ha, (hp _).2 e⟩
  · refine Eq.trans ?_ h
    congr 1
    funext t
    cases P t <;> simp

theorem errorSum_sub (res : RunResult K) (v f g : Timestamp → K) : errorSum res v (fun t => f t - g t) = errorSum res v f - errorSum res v g := by
  unfold errorSum
  induction observed res with
  | nil => simp
  | cons a l ih =>
    simp only [List.map_cons, List.sum_cons, ih]
    ring

/-- The part of the dates between two neighbouring changes is the difference of two steps. -/
theorem between_changes (changes : List Timestamp) (d : Timestamp) (res : RunResult K) (v : Timestamp → K) (t0 : Timestamp)
    (h : ∀ φ ∈ changeFeatures (K := K) changes, errorSum res v (fun t => φ ((t - t0) / (24 * 60 * 60 * 1000000000)) t) = 0) :
    errorSum res v (fun t => if sameLevel changes d t then 1 else 0) = 0 := by
  have hlow : ∃ f : Timestamp → K, errorSum res v f = 0 ∧ (∀ t, f t = if (∀ c ∈ changes, c ≤ d → c ≤ t) then 1 else 0) := by
    by_cases hn : changes.filter (fun c => decide (c ≤ d)) = []
    · refine ⟨fun _ => 1, h _ List.mem_cons_self, fun t => ?_⟩
      rw [if_pos]
      intro c hc hcd
      have : c ∈ changes.filter (fun c => decide (c ≤ d)) := List.mem_filter.2 ⟨hc, decide_eq_true hcd⟩
      rw [hn] at this
      cases this
    · obtain ⟨m, hm, hmax⟩ : ∃ m ∈ changes.filter (fun c => decide (c ≤ d)), ∀ c ∈ changes.filter (fun c => decide (c ≤ d)), c ≤ m := by
        refine ⟨(changes.filter (fun c => decide (c ≤ d))).max hn, List.max_mem hn, fun c hc => List.le_max_of_mem hc⟩
      obtain ⟨m1, m2⟩ := List.mem_filter.1 hm
      refine ⟨fun t => if m ≤ t then 1 else 0, h _ (List.mem_cons_of_mem _ (List.mem_map.2 ⟨m, m1, rfl⟩)), fun t => ?_⟩
      refine if_congr ?_ rfl rfl
      constructor
      · intro hmt c hc hcd
        exact le_trans (hmax c (List.mem_filter.2 ⟨hc, decide_eq_true hcd⟩)) hmt
      · intro hall
        exact hall m m1 (of_decide_eq_true m2)
  have hup : ∃ f : Timestamp → K, errorSum res v f = 0 ∧ (∀ t, f t = if (∃ c ∈ changes, d < c ∧ c ≤ t) then 1 else 0) := by
    by_cases hn : changes.filter (fun c => decide (d < c)) = []
    · refine ⟨fun _ => 0, by simp [errorSum], fun t => ?_⟩
      rw [if_neg]
      rintro ⟨c, hc, hcd, -⟩
      have : c ∈ changes.filter (fun c => decide (d < c)) := List.mem_filter.2 ⟨hc, decide_eq_true hcd⟩
      rw [hn] at this
      cases this
    · obtain ⟨m, hm, hmin⟩ : ∃ m ∈ changes.filter (fun c => decide (d < c)), ∀ c ∈ changes.filter (fun c => decide (d < c)), m ≤ c := by
        refine ⟨(changes.filter (fun c => decide (d < c))).min hn, List.min_mem hn, fun c hc => List.min_le_of_mem hc⟩
      obtain ⟨m1, m2⟩ := List.mem_filter.1 hm
      refine ⟨fun t => if m ≤ t then 1 else 0, h _ (List.mem_cons_of_mem _ (List.mem_map.2 ⟨m, m1, rfl⟩)), fun t => ?_⟩
      refine if_congr ?_ rfl rfl
      constructor
      · intro hmt
        exact ⟨m, m1, of_decide_eq_true m2, hmt⟩
      · rintro ⟨c, hc, hcd, hct⟩
        exact le_trans (hmin c (List.mem_filter.2 ⟨hc, decide_eq_true hcd⟩)) hct
  obtain ⟨f, f1, f2⟩ := hlow
  obtain ⟨g, g1, g2⟩ := hup
  have e : (fun t => if sameLevel changes d t then (1 : K) else 0) = fun t => f t - g t := by
    funext t
    rw [f2, g2]
    by_cases hle : d ≤ t
    · have a1 : ∀ c ∈ changes, c ≤ d → c ≤ t := fun c _ hc => le_trans hc hle
      rw [if_pos a1]
      by_cases hex : ∃ c ∈ changes, d < c ∧ c ≤ t
      · rw [if_pos hex, if_neg, sub_self]
        intro hs
        obtain ⟨c, hc, h1, h2⟩ := hex
        have := List.all_eq_true.1 hs c hc
        rw [beq_iff_eq, decide_eq_decide] at this
        omega
      · rw [if_neg hex, if_pos, sub_zero]
        apply List.all_eq_true.2
        intro c hc
        rw [beq_iff_eq, decide_eq_decide]
        constructor
        · exact a1 c hc
        · intro hct
          by_contra hcd
          exact hex ⟨c, hc, by omega, hct⟩
    · have a1 : ¬∃ c ∈ changes, d < c ∧ c ≤ t := by
        rintro ⟨c, -, h1, h2⟩
        omega
      rw [if_neg a1, sub_zero]
      congr 1
      apply propext
      unfold sameLevel
      rw [List.all_eq_true]
      constructor
      · intro hs c hc hcd
        have := hs c hc
        rw [beq_iff_eq, decide_eq_decide] at this
        exact this.1 hcd
      · intro hs c hc
        rw [beq_iff_eq, decide_eq_decide]
        exact ⟨hs c hc, fun _ => by omega⟩
  rw [e, errorSum_sub, f1, g1, sub_zero]

omit [LinearOrder K] in
theorem level_same (changes : List Timestamp) (p : List K) (x x' : Int) (d t : Timestamp) (h : sameLevel changes d t = true) :
    combination (changeFeatures changes) p x d = combination (changeFeatures changes) p x' t := by
  apply combination_feature_congr
  intro φ hφ
  rcases List.mem_cons.1 hφ with rfl | hφ
  · rfl
  · obtain ⟨c, hc, rfl⟩ := List.mem_map.1 hφ
    have := List.all_eq_true.1 h c hc
    rw [beq_iff_eq, decide_eq_decide] at this
    simp only [this]

omit [LinearOrder K] in
theorem sameLevel_symm (changes : List Timestamp) (d t : Timestamp) (h : sameLevel changes d t = true) : sameLevel changes t d = true := by
  apply List.all_eq_true.2
  intro c hc
  have := List.all_eq_true.1 h c hc
  rw [beq_iff_eq] at this ⊢
  exact this.symm

/-- The model: a level and one step for each change. -/
def levelWithChanges (label : Timestamp → String) (changes : List Timestamp) : ForecastModel K := changes.foldl (fun m c => m.add (getModelStepDate label c)) modelConstant

theorem levelWithChanges_adds (reg : Registry K) (label : Timestamp → String) (changes : List Timestamp) :
    AddsUp (levelWithChanges label changes : ForecastModel K) reg (changeFeatures changes) := by
  have key : ∀ (l : List Timestamp) (m : ForecastModel K) feats, AddsUp m reg feats →
      AddsUp (l.foldl (fun m c => m.add (getModelStepDate label c)) m) reg (feats ++ l.map fun c _ t => if c ≤ t then 1 else 0) := by
    intro l
    induction l with
    | nil =>
      intro m feats hm
      simpa using hm
    | cons c l ih =>
      intro m feats hm
      have := ih _ _ (hm.add (addsUp_stepDate reg label c))
      rw [List.foldl_cons, List.map_cons, ← List.singleton_append, ← List.append_assoc]
      exact this
  exact key changes _ _ (addsUp_constant reg)

/-- **C131.** A level with known changes of level: each forecast is the mean of the observations on its own level, i.e. of those from which no change separates it, if there are
any. -/
theorem C131_changes [FloorRing K] [IsStrictOrderedRing K] (w : World K) (args : RunArgs K) (id : String) (t : STable K) (hp : Proper t) (s : String) (hs : IsSeries t id s)
    (res : RunResult K) (h : runForecast w args id t = .ok (some res)) (label : Timestamp → String) (changes : List Timestamp) (reg : Registry K)
    (hx : FitsExactly w args s (seriesFrame t s) (levelWithChanges label changes) reg)
    (r : DRow K) (hr : ForecastOf (partOf t s res) (levelWithChanges (K := K) label changes).name r)
    (hobs : ∃ a ∈ observed (partOf t s res), sameLevel changes r.date a.date = true) :
    r.y = some (meanOf ((observed (partOf t s res)).filter fun a => sameLevel changes r.date a.date)) := by
  obtain ⟨-, p, -, hf, he⟩ := C88_row w args id t hp s hs res h _ reg _ (levelWithChanges_adds reg label changes)
    (hasLevel_left levelFeatures _ ⟨[1], rfl, fun x t => by simp [combination, levelFeatures]⟩) (by simp [changeFeatures]) hx r hr
  rw [hf]
  congr 1
  exact part_mean (fun d => sameLevel changes r.date d) (partOf t s res) _ _ (fun d hd => (level_same changes p _ _ r.date d hd).symm) hobs
    (between_changes changes r.date _ _ _ he)

/-- **C131, the future.** From the last change on, the forecast is the mean of the observations since that change: older ones have no influence, whatever they are. -/
theorem C131_latest [FloorRing K] [IsStrictOrderedRing K] (w : World K) (args : RunArgs K) (id : String) (t : STable K) (hp : Proper t) (s : String) (hs : IsSeries t id s)
    (res : RunResult K) (h : runForecast w args id t = .ok (some res)) (label : Timestamp → String) (changes : List Timestamp) (reg : Registry K)
    (hx : FitsExactly w args s (seriesFrame t s) (levelWithChanges label changes) reg)
    (last : Timestamp) (hl : last ∈ changes) (hlast : ∀ c ∈ changes, c ≤ last) (r : DRow K)
    (hr : ForecastOf (partOf t s res) (levelWithChanges (K := K) label changes).name r) (hfut : last ≤ r.date)
    (hobs : ∃ a ∈ observed (partOf t s res), last ≤ a.date) :
    r.y = some (meanOf ((observed (partOf t s res)).filter fun a => decide (last ≤ a.date))) := by
  have key : ∀ d, sameLevel changes r.date d = true ↔ last ≤ d := by
    intro d
    unfold sameLevel
    rw [List.all_eq_true]
    constructor
    · intro hall
      have := hall last hl
      rw [beq_iff_eq, decide_eq_decide] at this
      exact this.1 hfut
    · intro hla c hc
      have := hlast c hc
      rw [beq_iff_eq, decide_eq_decide]
      constructor <;> intro <;> omega
  obtain ⟨a, ha, e⟩ := hobs
  rw [C131_changes w args id t hp s hs res h label changes reg hx r hr ⟨a, ha, (key _).2 e⟩]
  congr 3
  funext a
  rw [Bool.eq_iff_iff, decide_eq_true_iff, key]

/-- **C131, range.** Forecasts never leave the range of the observations on their own level. -/
theorem C131_range [FloorRing K] [IsStrictOrderedRing K] (w : World K) (args : RunArgs K) (id : String) (t : STable K) (hp : Proper t) (s : String) (hs : IsSeries t id s)
    (res : RunResult K) (h : runForecast w args id t = .ok (some res)) (label : Timestamp → String) (changes : List Timestamp) (reg : Registry K)
    (hx : FitsExactly w args s (seriesFrame t s) (levelWithChanges label changes) reg)
    (r : DRow K) (hr : ForecastOf (partOf t s res) (levelWithChanges (K := K) label changes).name r)
    (hobs : ∃ a ∈ observed (partOf t s res), sameLevel changes r.date a.date = true) (lo hi : K)
    (hb : ∀ a ∈ observed (partOf t s res), sameLevel changes r.date a.date = true → ∀ y ∈ a.y, lo ≤ y ∧ y ≤ hi) :
    ∃ y, r.y = some y ∧ lo ≤ y ∧ y ≤ hi := by
  refine ⟨_, C131_changes w args id t hp s hs res h label changes reg hx r hr hobs, ?_⟩
  refine mean_within (partOf t s res) _ (fun a ha => (List.mem_filter.1 ha).1) ?_ lo hi ?_
  · obtain ⟨a, ha, e⟩ := hobs
    exact List.ne_nil_of_mem (List.mem_filter.2 ⟨ha, e⟩)
  · intro a ha
    obtain ⟨h1, h2⟩ := List.mem_filter.1 ha
    have h3 := (List.mem_filter.1 h1).2
    simp only [Bool.and_eq_true, decide_eq_true_eq] at h3
    obtain ⟨y, hy⟩ := Option.isSome_iff_exists.1 h3.1.2
    rw [hy, Option.getD_some]
    exact hb a h1 h2 y hy

/-! ### Special days -/

omit [LinearOrder K] in
theorem kind_same (flags : List (Timestamp → Bool)) (p : List K) (x x' : Int) (d t : Timestamp) (h : sameKind flags d t = true) :
    combination (specialFeatures flags) p x d = combination (specialFeatures flags) p x' t := by
  apply combination_feature_congr
  intro φ hφ
  rcases List.mem_cons.1 hφ with rfl | hφ
  · rfl
  · obtain ⟨f, hf, rfl⟩ := List.mem_map.1 hφ
    have := List.all_eq_true.1 h f hf
    rw [beq_iff_eq] at this
    simp only [this]

omit [LinearOrder K] in
theorem sameKind_symm (flags : List (Timestamp → Bool)) (d t : Timestamp) (h : sameKind flags d t = true) : sameKind flags t d = true := by
  apply List.all_eq_true.2
  intro c hc
  have := List.all_eq_true.1 h c hc
  rw [beq_iff_eq] at this ⊢
  exact this.symm

/-- The errors of each kind of days balance. -/
theorem kind_balance (flags : List (Timestamp → Bool)) (hdis : Apart flags) (d : Timestamp) (res : RunResult K) (v : Timestamp → K) (t0 : Timestamp)
    (h : ∀ φ ∈ specialFeatures (K := K) flags, errorSum res v (fun t => φ ((t - t0) / (24 * 60 * 60 * 1000000000)) t) = 0) :
    errorSum res v (fun t => if sameKind flags d t then 1 else 0) = 0 := by
  have hex : ∀ f ∈ flags, ∀ g ∈ flags, ∀ t, f t = true → g t = true → f = g := by
    intro f hf g hg t h1 h2
    by_contra hne
    have : Std.Symm (fun f g : Timestamp → Bool => ∀ t, ¬(f t = true ∧ g t = true)) := ⟨fun f g hfg t ht => hfg t ⟨ht.2, ht.1⟩⟩
    exact List.Pairwise.forall hdis hf hg hne t ⟨h1, h2⟩
  by_cases hsp : ∃ f ∈ flags, f d = true
  · obtain ⟨f, hf, hfd⟩ := hsp
    refine Eq.trans ?_ (h _ (List.mem_cons_of_mem _ (List.mem_map.2 ⟨f, hf, rfl⟩)))
    congr 1
    funext t
    congr 1
    apply propext
    unfold sameKind
    rw [List.all_eq_true]
    constructor
    · intro hall
      have := hall f hf
      rw [beq_iff_eq] at this
      rw [← this, hfd]
    · intro hft g hg
      rw [beq_iff_eq, Bool.eq_iff_iff]
      constructor
      · intro hgd
        rw [← hex f hf g hg d hfd hgd, hft]
      · intro hgt
        rw [← hex f hf g hg t hft hgt, hfd]
  · have hno : ∀ f ∈ flags, f d = false := fun f hf => by
      cases hfd : f d with
      | false => rfl
      | true => exact absurd ⟨f, hf, hfd⟩ hsp
    have hrest : ∀ l : List (Timestamp → Bool), (∀ f ∈ l, f ∈ flags) → Apart l →
        errorSum res v (fun t => if l.all (fun f => !f t) then 1 else 0) = 0 := by
      intro l
      induction l with
      | nil =>
        intro _ _
        exact h _ List.mem_cons_self
      | cons f l ih =>
        intro hl hd
        have e : (fun t => if (f :: l).all (fun f => !f t) then (1 : K) else 0) =
            fun t => (if l.all (fun f => !f t) then 1 else 0) - if f t then 1 else 0 := by
          funext t
          rw [List.all_cons]
          cases hft : f t with
          | false => simp
          | true =>
            have : l.all (fun f => !f t) = true := by
              apply List.all_eq_true.2
              intro g hg
              cases hgt : g t with
              | false => rfl
              | true => exact absurd ⟨hft, hgt⟩ ((List.pairwise_cons.1 hd).1 g hg t)
            simp only [this]
            simp
        rw [e, errorSum_sub, ih (fun g hg => hl g (List.mem_cons_of_mem _ hg)) (List.pairwise_cons.1 hd).2,
          h _ (List.mem_cons_of_mem _ (List.mem_map.2 ⟨f, hl f List.mem_cons_self, rfl⟩)), sub_zero]
    refine Eq.trans ?_ (hrest flags (fun _ h => h) hdis)
    congr 1
    funext t
    congr 1
    apply propext
    unfold sameKind
    rw [List.all_eq_true, List.all_eq_true]
    constructor
    · intro hall f hf
      have := hall f hf
      rw [beq_iff_eq, hno f hf] at this
      rw [← this]
      rfl
    · intro hall f hf
      have := hall f hf
      rw [beq_iff_eq, hno f hf]
      simpa using this.symm

/-- **C131, special days.** A level with an effect for each of several kinds of special days, no day being of two kinds:
each forecast is the mean of the observations on days of its kind, if there are any; for ordinary days, the mean of the ordinary days. -/
theorem C131_special [FloorRing K] [IsStrictOrderedRing K] (w : World K) (args : RunArgs K) (id : String) (t : STable K) (hp : Proper t) (s : String) (hs : IsSeries t id s)
    (res : RunResult K) (h : runForecast w args id t = .ok (some res)) (m : ForecastModel K) (reg : Registry K) (flags : List (Timestamp → Bool)) (hdis : Apart flags)
    (hm : AddsUp m reg (specialFeatures flags)) (hx : FitsExactly w args s (seriesFrame t s) m reg)
    (r : DRow K) (hr : ForecastOf (partOf t s res) m.name r) (hobs : ∃ a ∈ observed (partOf t s res), sameKind flags r.date a.date = true) :
    r.y = some (meanOf ((observed (partOf t s res)).filter fun a => sameKind flags r.date a.date)) := by
  obtain ⟨-, p, -, hf, he⟩ := C88_row w args id t hp s hs res h _ reg _ hm
    (hasLevel_left levelFeatures _ ⟨[1], rfl, fun x t => by simp [combination, levelFeatures]⟩) (by simp [specialFeatures]) hx r hr
  rw [hf]
  congr 1
  exact part_mean (fun d => sameKind flags r.date d) (partOf t s res) _ _ (fun d hd => (kind_same flags p _ _ r.date d hd).symm) hobs
    (kind_balance flags hdis r.date _ _ _ he)

/-- **C131, lists of dates.** The same for a level and lists of dates without a common date: for a date in a list the forecast is the mean of the observations on dates of
this list, for all other dates it is the mean of the observations on dates that are in no list. -/
theorem C131_dates [FloorRing K] [IsStrictOrderedRing K] (w : World K) (args : RunArgs K) (id : String) (t : STable K) (hp : Proper t) (s : String) (hs : IsSeries t id s)
    (res : RunResult K) (h : runForecast w args id t = .ok (some res)) (name : String) (hname : name ≠ "null" ∧ name ≠ "logistic" ∧ name ≠ "sigmoid")
    (l : List Timestamp) (ls : List (List Timestamp)) (hne : ∀ x ∈ l :: ls, x ≠ []) (hdis : (l :: ls).Pairwise fun x y => ∀ d ∈ x, d ∉ y)
    (m : ForecastModel K) (hm : getModelFromDatelist name (l :: ls) = .ok m) (reg : Registry K) (hreg : reg "mask_model_dummy" = none)
    (hx : FitsExactly w args s (seriesFrame t s) (modelConstant.add m) reg)
    (r : DRow K) (hr : ForecastOf (partOf t s res) (modelConstant.add m).name r) :
    (∀ x ∈ l :: ls, r.date ∈ x → (∃ a ∈ observed (partOf t s res), a.date ∈ x) → r.y = some (meanOf ((observed (partOf t s res)).filter fun a => decide (a.date ∈ x)))) ∧
    ((∀ x ∈ l :: ls, r.date ∉ x) → (∃ a ∈ observed (partOf t s res), ∀ x ∈ l :: ls, a.date ∉ x) → r.y = some (meanOf ((observed (partOf t s res)).filter fun a => (l :: ls).all fun x => decide (a.date ∉ x)))) := by
  generalize hL : l :: ls = L at *
  have hfe : levelFeatures ++ (L.flatMap fun x => flagFeature fun t => if t ∈ x then (1 : K) else 0) = specialFeatures (L.map fun x t => decide (t ∈ x)) := by
    unfold specialFeatures levelFeatures
    rw [List.map_map]
    show _ :: _ = _
    congr 1
    have : ∀ L : List (List Timestamp), (L.flatMap fun x => flagFeature fun t => if t ∈ x then (1 : K) else 0) =
        L.map ((fun f _ t => if f t = true then 1 else 0) ∘ fun x t => decide (t ∈ x)) := by
      intro L
      induction L with
      | nil => rfl
      | cons x L ih =>
        rw [List.flatMap_cons, List.map_cons, ih]
        simp [flagFeature, Function.comp_def]
    exact this L
  have hap : Apart (L.map fun x t => decide (t ∈ x)) := by
    unfold Apart
    rw [List.pairwise_map]
    refine hdis.imp fun {x y} hxy t ht => ?_
    exact hxy t (of_decide_eq_true ht.1) (of_decide_eq_true ht.2)
  have hadd : AddsUp (modelConstant.add m) reg (specialFeatures (L.map fun x t => decide (t ∈ x))) := by
    rw [← hfe]
    subst hL
    exact (addsUp_constant reg).add (addsUp_datelist reg name l ls hne hname hreg m hm)
  have hex : ∀ x ∈ L, ∀ y ∈ L, ∀ d, d ∈ x → d ∈ y → x = y := by
    intro x hx y hy d h1 h2
    by_contra hxy
    have : Std.Symm (fun x y : List Timestamp => ∀ d ∈ x, d ∉ y) := ⟨fun x y hxy d hd hd' => hxy d hd' hd⟩
    exact List.Pairwise.forall hdis hx hy hxy d h1 h2
  have kind : ∀ d e, sameKind (L.map fun x t => decide (t ∈ x)) d e = true ↔ ∀ x ∈ L, (d ∈ x ↔ e ∈ x) := by
    intro d e
    unfold sameKind
    rw [List.all_eq_true]
    constructor
    · intro hall x hx
      have := hall _ (List.mem_map.2 ⟨x, hx, rfl⟩)
      rwa [beq_iff_eq, decide_eq_decide] at this
    · intro hall f hf
      obtain ⟨x, hx, rfl⟩ := List.mem_map.1 hf
      rw [beq_iff_eq, decide_eq_decide]
      exact hall x hx
  have inList : ∀ x ∈ L, ∀ d ∈ x, ∀ e, sameKind (L.map fun x t => decide (t ∈ x)) d e = true ↔ e ∈ x := by
    intro x hx d hd e
    rw [kind]
    constructor
    · intro hall
      exact (hall x hx).1 hd
    · intro he y hy
      constructor
      · intro hdy
        rw [← hex x hx y hy d hd hdy]
        exact he
      · intro hey
        rw [← hex x hx y hy e he hey]
        exact hd
  have ordinary : ∀ d, (∀ x ∈ L, d ∉ x) → ∀ e, sameKind (L.map fun x t => decide (t ∈ x)) d e = true ↔ ∀ x ∈ L, e ∉ x := by
    intro d hd e
    rw [kind]
    constructor
    · intro hall x hx he
      exact hd x hx ((hall x hx).2 he)
    · intro he x hx
      exact ⟨fun h => absurd h (hd x hx), fun h => absurd h (he x hx)⟩
  have main := C131_special w args id t hp s hs res h _ reg _ hap hadd hx r hr
  constructor
  · rintro x hx hrx ⟨a, ha, hax⟩
    rw [main ⟨a, ha, (inList x hx _ hrx _).2 hax⟩]
    congr 3
    funext a
    rw [Bool.eq_iff_iff, inList x hx r.date hrx, decide_eq_true_iff]
  · rintro hno ⟨a, ha, hax⟩
    rw [main ⟨a, ha, (ordinary _ hno _).2 hax⟩]
    congr 3
    funext a
    rw [Bool.eq_iff_iff, ordinary r.date hno, List.all_eq_true]
    simp

/-! ### A concrete case -/

/-- Two changes, on day 6 and on day 8; a missing value on day 7 and a sample of weight 0 on day 4. -/
def changedTable : STable ℚ := ⟨true, false, false, true, [⟨4 * DAY, none, 0, some 70, some 0⟩, ⟨5 * DAY, none, 0, some 2, some 1⟩, ⟨6 * DAY, none, 0, some 11, some 1⟩,
  ⟨7 * DAY, none, 0, none, some 1⟩, ⟨8 * DAY, none, 0, some 5, some 1⟩, ⟨9 * DAY, none, 0, some 5, some 3⟩, ⟨10 * DAY, none, 0, some 5, some 1⟩]⟩

def changedModel : ForecastModel ℚ := levelWithChanges (fun c => toString (c / DAY)) [8 * DAY, 6 * DAY]
def changedWorld : World ℚ := { demoWorld with env := fun _ _ => knownEnv [2, -6, 9] }
def changedArgs : RunArgs ℚ := demoArgs [changedModel] (some [])

example : Proper changedTable ∧ IsSeries changedTable "s" "s" :=
  ⟨⟨⟨rfl, rfl, by decide +kernel, by decide +kernel⟩, by decide +kernel⟩, by unfold IsSeries; decide +kernel⟩

example : FitsExactly changedWorld changedArgs "s" (seriesFrame changedTable "s") changedModel (fun _ => none) := by
  refine ⟨fun _ => knownEnv_minimum _, ?_, ?_⟩
  · intro df' cand h m' hm' _
    have e : candidates changedWorld.ch changedArgs.models df' (runFreq (seriesFrame changedTable "s")) = .ok (.add, [changedModel]) := rfl
    rw [e] at h
    cases h
    simpa using hm'
  · intro i
    show Registered _ _ (compose false (compose false modelConstant (getModelStepDate _ (8 * DAY))) (getModelStepDate _ (6 * DAY)))
    exact registered_compose _ _ _ _ _ (registered_compose _ _ _ _ _ ⟨by simp [modelConstant, mkModel], by simp [modelConstant, mkModel]⟩
      ⟨by simp [getModelStepDate, mkModel], by simp [getModelStepDate, mkModel]⟩) ⟨by simp [getModelStepDate, mkModel], by simp [getModelStepDate, mkModel]⟩

/-- Every level is observed. -/
example (d : Timestamp) : ∃ a ∈ [5 * DAY, 6 * DAY, 8 * DAY], sameLevel [8 * DAY, 6 * DAY] d a = true := by
  by_cases h8 : 8 * DAY ≤ d
  · exact ⟨8 * DAY, by simp, by simp only [sameLevel, DAY, List.all_cons, List.all_nil] at *; simp; omega⟩
  · by_cases h6 : 6 * DAY ≤ d
    · exact ⟨6 * DAY, by simp, by simp only [sameLevel, DAY, List.all_cons, List.all_nil] at *; simp; omega⟩
    · exact ⟨5 * DAY, by simp, by simp only [sameLevel, DAY, List.all_cons, List.all_nil] at *; simp; omega⟩

/-- Each forecast is the mean of its level; from day 8 on the earlier levels do not matter. -/
example : ((runForecast changedWorld changedArgs "s" changedTable).toOption.bind id).map (fun r =>
    ((partOf changedTable "s" r).data.filter fun q => !q.isActuals).map fun q =>
      (q.date / DAY, q.y, meanOf ((observed (partOf changedTable "s" r)).filter fun a => sameLevel [8 * DAY, 6 * DAY] q.date a.date))) =
    some [(5, some 2, 2), (6, some 11, 11), (7, some 11, 11), (8, some 5, 5), (9, some 5, 5), (10, some 5, 5), (11, some 5, 5), (12, some 5, 5),
      (13, some 5, 5)] := by decide +kernel

end Anticipy
