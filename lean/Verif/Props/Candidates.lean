import Verif.Spec.Candidates
import Verif.Lemmas.Split
import Verif.Props.DetectFreq
import Verif.Model.ZooReal
import Mathlib.Data.String.Basic

/-
C41 (candidate models), C42 (automatic seasonality), C53 (multiplicative detection).
-/
namespace Anticipy
open Spec
variable {K : Type} [Field K]

/-! ### C41 -/

theorem mem_products {α β : Type} (l : List α) (m : List β) (a : α) (b : β) : (a, b) ∈ products l m ↔ a ∈ l ∧ b ∈ m := by
  unfold products
  simp only [List.mem_flatMap, List.mem_map, Prod.mk.injEq]
  constructor
  · rintro ⟨a', ha, b', hb, rfl, rfl⟩
    exact ⟨ha, hb⟩
  · rintro ⟨ha, hb⟩
    exact ⟨a, ha, b, hb, rfl, rfl⟩

/-- The list of all combinations before removing duplicates. -/
theorem mem_combinations (t s : List (ForecastModel K)) (mode : AddMult) (m : ForecastModel K) :
    m ∈ (if mode ≠ .mult then (products t s).map (fun p => p.1.add p.2) else []) ++
      (if mode ≠ .add then (products t s).map (fun p => p.1.mul p.2) else []) ↔ Combination mode t s m := by
  unfold Combination
  rw [List.mem_append]
  constructor
  · rintro (h | h)
    · split_ifs at h with hm
      · rw [List.mem_map] at h
        obtain ⟨⟨a, b⟩, hp, rfl⟩ := h
        rw [mem_products] at hp
        exact ⟨a, hp.1, b, hp.2, .inl ⟨hm, rfl⟩⟩
      · cases h
    · split_ifs at h with hm
      · rw [List.mem_map] at h
        obtain ⟨⟨a, b⟩, hp, rfl⟩ := h
        rw [mem_products] at hp
        exact ⟨a, hp.1, b, hp.2, .inr ⟨hm, rfl⟩⟩
      · cases h
  · rintro ⟨a, ha, b, hb, (⟨hm, rfl⟩ | ⟨hm, rfl⟩)⟩
    · left
      rw [if_pos hm, List.mem_map]
      exact ⟨(a, b), (mem_products t s a b).2 ⟨ha, hb⟩, rfl⟩
    · right
      rw [if_pos hm, List.mem_map]
      exact ⟨(a, b), (mem_products t s a b).2 ⟨ha, hb⟩, rfl⟩

/-- **C41.** The candidate list contains only requested combinations, one for every name, and no name twice. -/
theorem C41_combinations (t s : List (ForecastModel K)) (ht : t ≠ []) (hs : s ≠ []) (mode : AddMult) :
    (∀ m ∈ getListModel (some t) (some s) mode, Combination mode t s m) ∧
    (∀ m, Combination mode t s m → ∃ m' ∈ getListModel (some t) (some s) mode, m'.name = m.name) ∧
    ((getListModel (some t) (some s) mode).map ForecastModel.name).Nodup := by
  unfold getListModel
  simp only [Option.getD_some, if_neg ht, if_neg hs]
  refine ⟨fun m hm => (mem_combinations t s mode m).1 (mem_dedupBy _ _ _ hm), fun m hm => ?_, ?_⟩
  · exact mem_dedupBy_key ForecastModel.name _ m ((mem_combinations t s mode m).2 hm)
  · rw [List.nodup_iff_pairwise_ne, List.pairwise_map]
    exact dedupBy_keys_nodup ForecastModel.name _

/-- **C41.** If names identify the combinations, the list consists of exactly the combinations. -/
theorem C41_exact_partial (t s : List (ForecastModel K)) (ht : t ≠ []) (hs : s ≠ []) (mode : AddMult)
    (hu : Unambiguous (Combination mode t s)) (m : ForecastModel K) :
    m ∈ getListModel (some t) (some s) mode ↔ Combination mode t s m := by
  obtain ⟨h1, h2, -⟩ := C41_combinations t s ht hs mode
  refine ⟨h1 m, fun hm => ?_⟩
  obtain ⟨m', hm', hn⟩ := h2 m hm
  rw [hu m m' hm (h1 m' hm') hn.symm]
  exact hm'

/-- **C41.** Without seasonality models the candidates are the trends, and without trends the seasonality models, each name once. -/
theorem C41_degenerate (l : List (ForecastModel K)) (hl : l ≠ []) (mode : AddMult) :
    getListModel (some l) none mode = dedupBy ForecastModel.name l ∧
    getListModel (some l) (some []) mode = dedupBy ForecastModel.name l ∧
    getListModel none (some l) mode = dedupBy ForecastModel.name l ∧
    getListModel (some []) (some l) mode = dedupBy ForecastModel.name l := by
  unfold getListModel
  simp [hl]

theorem nameLe_trans (a b c : ForecastModel K) (h1 : nameLe a b) (h2 : nameLe b c) : nameLe a c := by
  unfold nameLe at *
  rw [decide_eq_true_iff] at *
  exact le_trans h1 h2

theorem nameLe_total (a b : ForecastModel K) : nameLe a b || nameLe b a := by
  unfold nameLe
  rw [Bool.or_eq_true, decide_eq_true_iff, decide_eq_true_iff]
  exact le_total _ _

theorem sortBy_append {α : Type} (le : α → α → Bool) (l m : List α) : sortBy le (l ++ m) = l.foldr (insertBy le) (sortBy le m) := by
  induction l with
  | nil => rfl
  | cons a l ih => rw [List.cons_append, sortBy, ih, List.foldr_cons]

/-- Sorting by name does not depend on the order of models with distinct names. -/
theorem sortBy_name_perm (l l' : List (ForecastModel K)) (h : l.Perm l') (hn : (l.map ForecastModel.name).Nodup) :
    sortBy nameLe l = sortBy nameLe l' := by
  have p1 := sortBy_perm nameLe l
  have p2 := sortBy_perm nameLe l'
  have s1 := (sortBy_sorted nameLe nameLe_trans nameLe_total l).imp fun {a b} h => (of_decide_eq_true h : a.name ≤ b.name)
  have s2 := (sortBy_sorted nameLe nameLe_trans nameLe_total l').imp fun {a b} h => (of_decide_eq_true h : a.name ≤ b.name)
  have n1 : ((sortBy nameLe l).map ForecastModel.name).Nodup := (p1.map ForecastModel.name).nodup_iff.2 hn
  have n2 : ((sortBy nameLe l').map ForecastModel.name).Nodup := ((p2.trans h.symm).map ForecastModel.name).nodup_iff.2 hn
  exact eq_of_perm_strict ForecastModel.name _ _ (p1.trans (h.trans p2.symm))
    (strict_of_sorted_nodup ForecastModel.name _ s1 n1) (strict_of_sorted_nodup ForecastModel.name _ s2 n2)

variable [LinearOrder K]

/-- What Python guarantees for `list(set(l))`: one representative (the first) of every name, in any order. -/
def Spec.IsSet (f : List (ForecastModel K) → List (ForecastModel K)) : Prop := ∀ l, (f l).Perm (dedupBy ForecastModel.name l)

/-- **C41.** The candidate list does not depend on the order in which Python returns the elements of a set. -/
theorem C41_reproducible (ch : Choices K) (order order' : List (ForecastModel K) → List (ForecastModel K)) (h : Spec.IsSet order)
    (h' : Spec.IsSet order') (args : ModelArgs K) (df : Frame K) (freq : Option Freq) :
    candidates { ch with setOrder := order } args df freq = candidates { ch with setOrder := order' } args df freq := by
  have key : ∀ l naive : List (ForecastModel K), sortBy nameLe (naive ++ order l) = sortBy nameLe (naive ++ order' l) := by
    intro l naive
    rw [sortBy_append, sortBy_append]
    congr 1
    apply sortBy_name_perm _ _ ((h l).trans (h' l).symm)
    rw [((h l).map ForecastModel.name).nodup_iff, List.nodup_iff_pairwise_ne, List.pairwise_map]
    exact dedupBy_keys_nodup ForecastModel.name l
  unfold candidates
  have hm : resolveMode { ch with setOrder := order } args df = resolveMode { ch with setOrder := order' } args df := rfl
  have hc : ∀ b, composedModels { ch with setOrder := order } args df b = composedModels { ch with setOrder := order' } args df b :=
    fun _ => rfl
  rw [hm]
  cases resolveMode { ch with setOrder := order' } args df with
  | error e => rfl
  | ok mode =>
    simp only [bind, Except.bind]
    cases mode <;> simp only [hc, key]

/-- **C41.** Candidates are tried in the order of their names; no candidate is less (`<`) than an earlier one. -/
theorem C41_sorted (ch : Choices K) (args : ModelArgs K) (df : Frame K) (freq : Option Freq) (mode : AddMult) (l : List (ForecastModel K))
    (h : candidates ch args df freq = .ok (mode, l)) : l.Pairwise fun a b => a.name ≤ b.name ∧ b.lt a = false := by
  unfold candidates at h
  cases hm : resolveMode ch args df with
  | error e => rw [hm] at h; cases h
  | ok m =>
    rw [hm] at h
    simp only [bind, Except.bind, Except.ok.injEq, Prod.mk.injEq] at h
    rw [← h.2]
    refine (sortBy_sorted nameLe nameLe_trans nameLe_total _).imp fun h => ?_
    have := of_decide_eq_true h
    exact ⟨this, decide_eq_false (not_lt.2 this)⟩

/-- **C41.** The candidates of a run with given trend, seasonality and naive models are the naive models and the requested combinations: sums, products,
or both. Of combinations with the same name one is tried. -/
theorem C41_candidates (ch : Choices K) (hset : Spec.IsSet ch.setOrder) (args : ModelArgs K) (hmode : args.mode ≠ .auto) (df : Frame K)
    (freq : Option Freq) (t s naive : List (ForecastModel K)) (ht : args.trend = some t) (hs : args.season = some s) (hn : args.naive = some naive)
    (hcal : args.calendar = none) (ht0 : t ≠ []) (hs0 : s ≠ []) :
    ∃ l, candidates ch args df freq = .ok (args.mode, l) ∧ (∀ m ∈ l, m ∈ naive ∨ Combination args.mode t s m) ∧ (∀ m ∈ naive, m ∈ l) ∧
      ∀ m, Combination args.mode t s m → ∃ m' ∈ l, m'.name = m.name ∧ Combination args.mode t s m' := by
  have hcomp : ∀ mult, composedModels ch args df mult = getListModel (some t) (some s) (if mult then .mult else .add) := by
    intro mult
    simp [composedModels, ht, hs, hcal]
  have hres : resolveMode ch args df = .ok args.mode := by
    unfold resolveMode
    split
    · rename_i h; exact absurd h hmode
    · rfl
  have hadd := C41_combinations t s ht0 hs0 .add
  have hmul := C41_combinations t s ht0 hs0 .mult
  unfold candidates
  rw [hres]
  simp only [hcomp, hn, bind, Except.bind, Option.getD_some, Bool.false_eq_true, if_false, if_true]
  refine ⟨_, rfl, ?_⟩
  have key : ∀ L : List (ForecastModel K), (∀ m ∈ L, Combination args.mode t s m) →
      (∀ m, Combination args.mode t s m → ∃ m' ∈ L, m'.name = m.name) →
      (∀ m ∈ sortBy nameLe (naive ++ L), m ∈ naive ∨ Combination args.mode t s m) ∧ (∀ m ∈ naive, m ∈ sortBy nameLe (naive ++ L)) ∧
      ∀ m, Combination args.mode t s m → ∃ m' ∈ sortBy nameLe (naive ++ L), m'.name = m.name ∧ Combination args.mode t s m' := by
    intro L h1 h2
    have hp := sortBy_perm nameLe (naive ++ L)
    refine ⟨?_, ?_, ?_⟩
    · intro m hm
      rcases List.mem_append.1 (hp.mem_iff.1 hm) with h | h
      · exact .inl h
      · exact .inr (h1 m h)
    · intro m hm
      exact hp.mem_iff.2 (List.mem_append_left _ hm)
    · intro m hm
      obtain ⟨m', hm', e⟩ := h2 m hm
      exact ⟨m', hp.mem_iff.2 (List.mem_append_right _ hm'), e, h1 m' hm'⟩
  cases hm : args.mode with
  | auto => exact absurd hm hmode
  | add =>
    rw [hm] at key
    exact key _ hadd.1 hadd.2.1
  | mult =>
    rw [hm] at key
    exact key _ hmul.1 hmul.2.1
  | both =>
    rw [hm] at key
    refine key _ ?_ ?_
    · intro m h
      rcases List.mem_append.1 (mem_dedupBy _ _ _ ((hset _).mem_iff.1 h)) with h | h
      · obtain ⟨a, ha, b, hb, h⟩ := hadd.1 m h
        rcases h with h | h
        · exact ⟨a, ha, b, hb, .inl ⟨by simp, h.2⟩⟩
        · exact absurd rfl h.1
      · obtain ⟨a, ha, b, hb, h⟩ := hmul.1 m h
        rcases h with h | h
        · exact absurd rfl h.1
        · exact ⟨a, ha, b, hb, .inr ⟨by simp, h.2⟩⟩
    · rintro m ⟨a, ha, b, hb, h⟩
      have : ∃ m' ∈ getListModel (some t) (some s) .add ++ getListModel (some t) (some s) .mult, m'.name = m.name := by
        rcases h with h | h
        · obtain ⟨m', h1, h2⟩ := hadd.2.1 m ⟨a, ha, b, hb, .inl ⟨by simp, h.2⟩⟩
          exact ⟨m', List.mem_append_left _ h1, h2⟩
        · obtain ⟨m', h1, h2⟩ := hmul.2.1 m ⟨a, ha, b, hb, .inr ⟨by simp, h.2⟩⟩
          exact ⟨m', List.mem_append_right _ h1, h2⟩
      obtain ⟨m', h1, h2⟩ := this
      obtain ⟨b, hb, e⟩ := mem_dedupBy_key ForecastModel.name _ m' h1
      exact ⟨b, (hset _).mem_iff.2 hb, e.trans h2⟩

/-! ### C42 -/

theorem mem_distinctDates (l : List Timestamp) (t : Timestamp) : t ∈ distinctDates l ↔ t ∈ l := (sortedDates_spec l).2 t

/-- Smallest gap and span of a series. -/
theorem dateDeltas_some (l : List Timestamp) (d sp : Int) (h : dateDeltas l = some (d, sp)) :
    (∀ e : Int, d ≤ e ↔ Close l e) ∧ ∀ e : ℚ, e < (sp : ℚ) ↔ Spans l e := by
  unfold dateDeltas at h
  cases h1 : listMin (diffs (distinctDates l)) with
  | none => rw [h1] at h; cases h
  | some d' =>
    cases h2 : listMin (distinctDates l) with
    | none => rw [h1, h2] at h; cases h
    | some a =>
      cases h3 : listMax (distinctDates l) with
      | none => rw [h1, h2, h3] at h; cases h
      | some b =>
        rw [h1, h2, h3] at h
        cases h
        rw [listMin_some] at h1 h2
        rw [listMax_some] at h3
        obtain ⟨hs, hm⟩ := sortedDates_spec l
        constructor
        · intro e
          constructor
          · intro hd
            obtain ⟨p, hp, q, hq, hpq, he⟩ := mem_diffs _ hs d h1.1
            exact ⟨p, (hm p).1 hp, q, (hm q).1 hq, hpq, by omega⟩
          · rintro ⟨p, hp, q, hq, hpq, he⟩
            obtain ⟨e', he', hle⟩ := diffs_le _ hs p q ((hm p).2 hp) ((hm q).2 hq) hpq
            have := h1.2 e' he'
            omega
        · intro e
          constructor
          · intro he
            exact ⟨a, (hm a).1 h2.1, b, (hm b).1 h3.1, he⟩
          · rintro ⟨p, hp, q, hq, he⟩
            have e1 := h2.2 p ((hm p).2 hp)
            have e2 := h3.2 q ((hm q).2 hq)
            have : ((q - p : Int) : ℚ) ≤ ((b - a : Int) : ℚ) := by
              have : q - p ≤ b - a := by omega
              exact_mod_cast this
            exact lt_of_lt_of_le he this

theorem dateDeltas_none (l : List Timestamp) (h : dateDeltas l = none) (e : Int) : ¬ Close l e := by
  rintro ⟨a, ha, b, hb, hab, -⟩
  obtain ⟨d, hd, -⟩ := minGap l a b ha hb hab
  unfold dateDeltas at h
  have hd' : listMin (diffs (distinctDates l)) = some d := hd
  have hne : distinctDates l ≠ [] := List.ne_nil_of_mem ((mem_distinctDates l a).2 ha)
  cases h2 : listMin (distinctDates l) with
  | none => exact hne ((listMin_none _).1 h2)
  | some x =>
    cases h3 : listMax (distinctDates l) with
    | none => exact hne ((listMax_none _).1 h3)
    | some y => rw [hd', h2, h3] at h; cases h

theorem mem_addSeason (mult : Bool) (res : List (ForecastModel K)) (p : ForecastModel K × ForecastModel K) (m : ForecastModel K)
    (h : m ∈ addSeason mult res p) : m ∈ res ∨ m = compose mult p.1 p.2 := by
  unfold addSeason at h
  dsimp only at h
  split_ifs at h
  · exact .inl h
  · exact .inl h
  · rw [List.mem_append, List.mem_singleton] at h; exact h

theorem mem_foldl_addSeason (mult : Bool) (l : List (ForecastModel K × ForecastModel K)) (res : List (ForecastModel K)) (m : ForecastModel K)
    (h : m ∈ l.foldl (addSeason mult) res) : m ∈ res ∨ ∃ p ∈ l, m = compose mult p.1 p.2 := by
  induction l generalizing res with
  | nil => exact .inl h
  | cons p l ih =>
    rw [List.foldl_cons] at h
    rcases ih _ h with h | ⟨q, hq, rfl⟩
    · rcases mem_addSeason mult res p m h with h | rfl
      · exact .inl h
      · exact .inr ⟨p, by simp, rfl⟩
    · exact .inr ⟨q, by simp [hq], rfl⟩

theorem addSeason_superset (mult : Bool) (res : List (ForecastModel K)) (p : ForecastModel K × ForecastModel K) (m : ForecastModel K)
    (h : m ∈ res) : m ∈ addSeason mult res p := by
  unfold addSeason
  dsimp only
  split_ifs
  · exact h
  · exact h
  · exact List.mem_append_left _ h

theorem foldl_addSeason_superset (mult : Bool) (l : List (ForecastModel K × ForecastModel K)) (res : List (ForecastModel K)) (m : ForecastModel K)
    (h : m ∈ res) : m ∈ l.foldl (addSeason mult) res := by
  induction l generalizing res with
  | nil => exact h
  | cons p l ih => exact ih _ (addSeason_superset mult res p m h)

theorem foldl_addSeason_complete (mult : Bool) (l : List (ForecastModel K × ForecastModel K)) (res : List (ForecastModel K))
    (hnull : ∃ m ∈ res, m.name = "null") (p : ForecastModel K × ForecastModel K) (hp : p ∈ l) :
    ∃ m ∈ l.foldl (addSeason mult) res, m.name = (compose mult p.1 p.2).name := by
  induction l generalizing res with
  | nil => cases hp
  | cons q l ih =>
    rw [List.foldl_cons]
    rcases List.mem_cons.1 hp with rfl | hp
    · have : ∃ m ∈ addSeason mult res p, m.name = (compose mult p.1 p.2).name := by
        unfold addSeason
        dsimp only
        split_ifs with h1 h2
        · obtain ⟨m, hm, hn⟩ := hnull
          exact ⟨m, hm, hn.trans h1.symm⟩
        · rw [Bool.and_eq_true, List.any_eq_true] at h2
          obtain ⟨-, m, hm, hn⟩ := h2
          exact ⟨m, hm, of_decide_eq_true hn⟩
        · exact ⟨_, List.mem_append_right _ (List.mem_singleton.2 rfl), rfl⟩
      obtain ⟨m, hm, hn⟩ := this
      exact ⟨m, foldl_addSeason_superset mult l _ m hm, hn⟩
    · refine ih _ ?_ hp
      obtain ⟨m, hm, hn⟩ := hnull
      exact ⟨m, addSeason_superset mult res q m hm, hn⟩

/-- The component list that is offered if a component is used. -/
def Spec.offered (given : Option (List (ForecastModel K))) (dflt : List (ForecastModel K)) : List (ForecastModel K) :=
  match given with
  | none => dflt
  | some [] => [modelNull]
  | some l => l

theorem seasonList_true (given : Option (List (ForecastModel K))) (dflt : List (ForecastModel K)) :
    seasonList true given dflt = Spec.offered given dflt := by
  unfold seasonList Spec.offered
  rw [if_pos rfl]
  rcases given with _ | _ | _ <;> rfl

/-- **C42.** The model without seasonality is always a candidate. -/
theorem C42_null_always (dates : List Timestamp) (mp : ℚ) (mult : Bool) (yearly weekly : Option (List (ForecastModel K)))
    (dy dw : List (ForecastModel K)) : modelNull ∈ autoSeason dates mp mult yearly weekly dy dw := by
  unfold autoSeason
  cases dateDeltas dates with
  | none => simp
  | some p =>
    obtain ⟨d, sp⟩ := p
    dsimp only
    rw [(sortBy_perm nameLe _).mem_iff]
    exact foldl_addSeason_superset mult _ _ _ (by simp)

/-- **C42.** Every other candidate is a combination of components, and a weekly (yearly) component occurs only if the series spans more than the
minimum number of weeks (years) and has two samples at most a day (92 days) apart. -/
theorem C42_enough_data (dates : List Timestamp) (mp : ℚ) (mult : Bool) (yearly weekly : Option (List (ForecastModel K)))
    (dy dw : List (ForecastModel K)) (m : ForecastModel K) (hm : m ∈ autoSeason dates mp mult yearly weekly dy dw) :
    m = modelNull ∨ ∃ w y, m = compose mult w y ∧
      (w = modelNull ∨ (w ∈ Spec.offered weekly dw ∧ Spans dates (mp * 7 * (DAY : ℚ)) ∧ Close dates DAY)) ∧
      (y = modelNull ∨ (y ∈ Spec.offered yearly dy ∧ Spans dates (mp * 365 * (DAY : ℚ)) ∧ Close dates (92 * DAY))) := by
  unfold autoSeason at hm
  cases hd : dateDeltas dates with
  | none =>
    rw [hd] at hm
    left
    simpa using hm
  | some p =>
    obtain ⟨d, sp⟩ := p
    obtain ⟨hc, hsp⟩ := dateDeltas_some dates d sp hd
    rw [hd] at hm
    dsimp only at hm
    rw [(sortBy_perm nameLe _).mem_iff] at hm
    rcases mem_foldl_addSeason mult _ _ m hm with h | ⟨⟨w, y⟩, hp, rfl⟩
    · left; simpa using h
    · right
      rw [mem_products] at hp
      refine ⟨w, y, rfl, ?_, ?_⟩
      · have h := hp.1
        by_cases hu : mp * 7 * (DAY : ℚ) < (sp : ℚ) ∧ d ≤ DAY
        · rw [decide_eq_true hu, seasonList_true] at h
          exact .inr ⟨h, (hsp _).1 hu.1, (hc _).1 hu.2⟩
        · rw [decide_eq_false hu] at h
          left; simpa [seasonList] using h
      · have h := hp.2
        by_cases hu : mp * 365 * (DAY : ℚ) < (sp : ℚ) ∧ d ≤ 92 * DAY
        · rw [decide_eq_true hu, seasonList_true] at h
          exact .inr ⟨h, (hsp _).1 hu.1, (hc _).1 hu.2⟩
        · rw [decide_eq_false hu] at h
          left; simpa [seasonList] using h

/-- **C42.** With enough data every combination of the offered components is a candidate (by name). -/
theorem C42_all_tried (dates : List Timestamp) (mp : ℚ) (mult : Bool) (yearly weekly : Option (List (ForecastModel K)))
    (dy dw : List (ForecastModel K)) (hmp : 0 ≤ mp) (hs : Spans dates (mp * 365 * (DAY : ℚ))) (hc : Close dates DAY) (w y : ForecastModel K)
    (hw : w ∈ Spec.offered weekly dw) (hy : y ∈ Spec.offered yearly dy) :
    ∃ m ∈ autoSeason dates mp mult yearly weekly dy dw, m.name = (compose mult w y).name := by
  unfold autoSeason
  cases hd : dateDeltas dates with
  | none => exact absurd hc (dateDeltas_none dates hd DAY)
  | some p =>
    obtain ⟨d, sp⟩ := p
    obtain ⟨hc', hsp⟩ := dateDeltas_some dates d sp hd
    dsimp only
    have hD : (0 : ℚ) ≤ (DAY : ℚ) := by norm_num [DAY, HOUR]
    have h1 : mp * 365 * (DAY : ℚ) < (sp : ℚ) := (hsp _).2 hs
    have h2 : mp * 7 * (DAY : ℚ) < (sp : ℚ) := by
      refine lt_of_le_of_lt ?_ h1
      have := mul_nonneg hmp hD
      nlinarith
    have h3 : d ≤ DAY := (hc' _).2 hc
    have h4 : d ≤ 92 * DAY := by simp only [DAY, HOUR] at *; omega
    rw [decide_eq_true (And.intro h2 h3), decide_eq_true (And.intro h1 h4), seasonList_true, seasonList_true]
    obtain ⟨m, hm, hn⟩ := foldl_addSeason_complete mult (products (Spec.offered weekly dw) (Spec.offered yearly dy)) [modelNull]
      ⟨modelNull, by simp, rfl⟩ (w, y) ((mem_products _ _ _ _).2 ⟨hw, hy⟩)
    exact ⟨m, (sortBy_perm nameLe _).mem_iff.2 hm, hn⟩

/-- **C42.** Without dates and without given seasonality models only the trends are tried. -/
theorem C42_no_dates (ch : Choices K) (args : ModelArgs K) (df : Frame K) (mult : Bool) (hd : df.hasDate = false) (hs : args.season = none) :
    composedModels ch args df mult = dedupBy ForecastModel.name (args.trend.getD [modelLinear]) := by
  unfold composedModels useRamp useCalendar
  simp only [hd, hs, Bool.false_and, Bool.false_eq_true, if_false]
  cases args.calendar <;> · unfold getListModel; simp

/-- **C42.** The piecewise linear default trend requires samples of positive weight more than 730 days apart. -/
theorem C42_ramp (df : Frame K) : useRamp df = true ↔ df.hasDate = true ∧ Spans (weightedDates df) (2 * 365 * (DAY : ℚ)) := by
  unfold useRamp
  rw [Bool.and_eq_true]
  apply and_congr Iff.rfl
  cases h2 : listMin (distinctDates (weightedDates df)) with
  | none =>
    simp only [Bool.false_eq_true, false_iff]
    rintro ⟨a, ha, -⟩
    rw [listMin_none] at h2
    have := (mem_distinctDates _ a).2 ha
    rw [h2] at this
    cases this
  | some a =>
    cases h3 : listMax (distinctDates (weightedDates df)) with
    | none =>
      simp only [Bool.false_eq_true, false_iff]
      rintro ⟨a, ha, -⟩
      rw [listMax_none] at h3
      have := (mem_distinctDates _ a).2 ha
      rw [h3] at this
      cases this
    | some b =>
      rw [listMin_some] at h2
      rw [listMax_some] at h3
      rw [decide_eq_true_iff]
      constructor
      · intro h
        refine ⟨a, (mem_distinctDates _ a).1 h2.1, b, (mem_distinctDates _ b).1 h3.1, ?_⟩
        exact_mod_cast h
      · rintro ⟨p, hp, q, hq, h⟩
        have e1 := h2.2 p ((mem_distinctDates _ p).2 hp)
        have e2 := h3.2 q ((mem_distinctDates _ q).2 hq)
        have h' : 2 * 365 * DAY < q - p := by exact_mod_cast h
        omega

/-- **C42.** Calendar models require samples of positive weight more than 365 days apart, and two at most a day apart. -/
theorem C42_calendar (df : Frame K) : useCalendar df = true ↔
    df.hasDate = true ∧ Spans (weightedDates df) (365 * (DAY : ℚ)) ∧ Close (weightedDates df) DAY := by
  unfold useCalendar
  rw [Bool.and_eq_true]
  apply and_congr Iff.rfl
  cases hd : dateDeltas (weightedDates df) with
  | none =>
    simp only [Bool.false_eq_true, false_iff]
    exact fun h => dateDeltas_none _ hd DAY h.2
  | some p =>
    obtain ⟨d, sp⟩ := p
    obtain ⟨hc, hsp⟩ := dateDeltas_some _ d sp hd
    dsimp only
    rw [decide_eq_true_iff, ← hc, ← hsp]
    apply and_congr _ Iff.rfl
    constructor
    · intro h; exact_mod_cast h
    · intro h; exact_mod_cast h

/-! ### C53 -/

/-- **C53.** Multiplicative composition is chosen automatically only if no value is zero or negative, there are dates that stretch over at least 60 days,
at least four samples count, and the computed correlation is at least 0.8. -/
theorem C53_required (corr : Frame K → Res (Option K)) (df : Frame K) (h : isMultiplicative corr df = .ok true) :
    (∀ r ∈ df.rows, ∀ v, r.y = some v → 0 < v) ∧ df.hasDate = true ∧
    (∃ a ∈ df.rows, ∃ b ∈ df.rows, 60 * DAY ≤ b.date - a.date) ∧
    (∃ l : List (Row K), l.Sublist df.rows ∧ 4 ≤ l.length ∧ ∀ r ∈ l, Counts df r) ∧
    ∃ c, corr df = .ok (some c) ∧ (8 : K) / 10 ≤ c := by
  unfold isMultiplicative at h
  by_cases h1 : df.rows.any (fun r => decide (∃ v ∈ r.y, v ≤ 0)) = true
  · rw [if_pos h1] at h; cases h
  rw [if_neg h1] at h
  by_cases h2 : (!df.hasDate) = true
  · rw [if_pos h2] at h; cases h
  rw [if_neg h2] at h
  by_cases h4 : (df.rows.filter fun r => r.y.isSome && (!df.hasWeight || decide (∃ w ∈ r.weight, 0 < w))).length < 4
  · rw [if_pos h4] at h; split_ifs at h <;> cases h
  · rw [if_neg h4] at h
    have h4' : ∃ l : List (Row K), l.Sublist df.rows ∧ 4 ≤ l.length ∧ ∀ r ∈ l, Counts df r := by
      refine ⟨_, List.filter_sublist, not_lt.1 h4, ?_⟩
      intro r hr
      rw [List.mem_filter, Bool.and_eq_true] at hr
      obtain ⟨-, hy, hw⟩ := hr
      refine ⟨(by intro hn; rw [hn] at hy; cases hy), fun hww => ?_⟩
      rw [hww] at hw
      simpa using hw
    have hne : df.rows ≠ [] := by
      rintro hnil
      rw [hnil] at h4
      simp at h4
    cases ha : listMin (df.rows.map Row.date) with
    | none => rw [listMin_none, List.map_eq_nil_iff] at ha; exact absurd ha hne
    | some a =>
      cases hb : listMax (df.rows.map Row.date) with
      | none => rw [listMax_none, List.map_eq_nil_iff] at hb; exact absurd hb hne
      | some b =>
        rw [ha, hb] at h
        dsimp only at h
        by_cases h3 : b - a < 60 * DAY
        · rw [if_pos (decide_eq_true h3)] at h; cases h
        rw [if_neg (fun hh => h3 (of_decide_eq_true hh))] at h
        rw [listMin_some] at ha
        rw [listMax_some] at hb
        obtain ⟨ra, hra, ea⟩ := List.mem_map.1 ha.1
        obtain ⟨rb, hrb, eb⟩ := List.mem_map.1 hb.1
        refine ⟨?_, by simpa using h2, ⟨ra, hra, rb, hrb, by rw [ea, eb]; omega⟩, h4', ?_⟩
        · intro r hr v hv
          by_contra hneg
          apply h1
          rw [List.any_eq_true]
          exact ⟨r, hr, decide_eq_true ⟨v, hv, not_lt.1 hneg⟩⟩
        · cases hcorr : corr df with
          | error e => rw [hcorr] at h; cases h
          | ok c =>
            rw [hcorr] at h
            simp only [bind, Except.bind, Except.ok.injEq, decide_eq_true_iff] at h
            obtain ⟨v, hv, h⟩ := h
            exact ⟨v, by rw [Option.mem_def.1 hv], h⟩

/-- **C53.** With a zero or negative value, without dates, with less than 60 days or fewer than four samples that count, the answer is "additive" whatever
the statistics would do (even if they would raise an exception). -/
theorem C53_additive (corr : Frame K → Res (Option K)) (df : Frame K)
    (h : (∃ r ∈ df.rows, ∃ v, r.y = some v ∧ v ≤ 0) ∨ df.hasDate = false ∨
      (df.rows ≠ [] ∧ ∀ a ∈ df.rows, ∀ b ∈ df.rows, b.date - a.date < 60 * DAY) ∨
      (∀ l : List (Row K), l.Sublist df.rows → (∀ r ∈ l, Counts df r) → l.length < 4)) :
    isMultiplicative corr df = .ok false := by
  unfold isMultiplicative
  by_cases h1 : df.rows.any (fun r => decide (∃ v ∈ r.y, v ≤ 0)) = true
  · rw [if_pos h1]
  rw [if_neg h1]
  by_cases h2 : (!df.hasDate) = true
  · rw [if_pos h2]
  rw [if_neg h2]
  rcases h with ⟨r, hr, v, hv, hv0⟩ | hd | ⟨hne, hspan⟩ | hfew
  · exact absurd (List.any_eq_true.2 ⟨r, hr, decide_eq_true ⟨v, hv, hv0⟩⟩) h1
  · rw [hd] at h2; exact absurd rfl h2
  · cases ha : listMin (df.rows.map Row.date) with
    | none => rw [listMin_none, List.map_eq_nil_iff] at ha; exact absurd ha hne
    | some a =>
      cases hb : listMax (df.rows.map Row.date) with
      | none => rw [listMax_none, List.map_eq_nil_iff] at hb; exact absurd hb hne
      | some b =>
        rw [listMin_some] at ha
        rw [listMax_some] at hb
        obtain ⟨ra, hra, rfl⟩ := List.mem_map.1 ha.1
        obtain ⟨rb, hrb, rfl⟩ := List.mem_map.1 hb.1
        dsimp only
        rw [if_pos (decide_eq_true (hspan ra hra rb hrb))]
  · have h4 : (df.rows.filter fun r => r.y.isSome && (!df.hasWeight || decide (∃ w ∈ r.weight, 0 < w))).length < 4 := by
      apply hfew _ List.filter_sublist
      intro r hr
      rw [List.mem_filter, Bool.and_eq_true] at hr
      obtain ⟨-, hy, hw⟩ := hr
      refine ⟨(by intro hn; rw [hn] at hy; cases hy), fun hww => ?_⟩
      rw [hww] at hw
      simpa using hw
    rw [if_pos h4]
    split_ifs <;> rfl

/-- **C53.** In automatic mode the composition is multiplicative exactly if the test says so, otherwise the requested mode is used unchanged. -/
theorem C53_mode (ch : Choices K) (args : ModelArgs K) (df : Frame K) (mode : AddMult) (h : resolveMode ch args df = .ok mode) :
    (args.mode = .auto → mode = if isMultiplicative ch.corr df = .ok true then .mult else .add) ∧ (args.mode ≠ .auto → mode = args.mode) := by
  unfold resolveMode at h
  cases hm : args.mode with
  | auto =>
    rw [hm] at h
    cases hi : isMultiplicative ch.corr df with
    | error e => rw [hi] at h; cases h
    | ok b =>
      rw [hi] at h
      simp only [bind, Except.bind, Except.ok.injEq] at h
      refine ⟨fun _ => ?_, fun h => absurd rfl h⟩
      rw [← h]
      cases b <;> simp
  | add => rw [hm] at h; cases h; simp
  | mult => rw [hm] at h; cases h; simp
  | both => rw [hm] at h; cases h; simp

/-! ### Examples and limits -/

/-- Two years of daily dates satisfy the data requirements. -/
example : Spans ((List.range 731).map fun i : Nat => (i : Int) * DAY) (3 / 2 * 365 * (DAY : ℚ)) ∧
    Close ((List.range 731).map fun i : Nat => (i : Int) * DAY) DAY := by
  refine ⟨⟨0, List.mem_map.2 ⟨0, by simp, rfl⟩, 730 * DAY, List.mem_map.2 ⟨730, by simp, rfl⟩, ?_⟩,
    ⟨0, List.mem_map.2 ⟨0, by simp, rfl⟩, DAY, List.mem_map.2 ⟨1, by simp, by simp⟩, by simp [DAY, HOUR], by simp⟩⟩
  norm_num [DAY, HOUR]

/-- Names of the automatic candidates for twenty days of data: a weekly component, no yearly one. -/
example : (autoSeason (K := ℚ) ((List.range 20).map fun i : Nat => (i : Int) * DAY) (3 / 2) false none none [modelSeasonMonth, modelNull]
    [modelSeasonWday, modelNull]).map ForecastModel.name = ["null", "season_wday"] := by decide +kernel

/-- Names of the candidates for two trends and two seasonalities. -/
example : (getListModel (K := ℚ) (some [modelLinear, modelConstant]) (some [modelNull, modelSeasonWday]) .both).map ForecastModel.name =
    ["linear", "(linear+season_wday)", "constant", "(constant+season_wday)", "(linear*season_wday)", "(constant*season_wday)"] := by
  decide +kernel

example : isMultiplicative (fun _ => .ok (some (9 / 10))) (⟨true, false, [⟨0, 0, some 1, none⟩, ⟨DAY, 1, some 2, none⟩, ⟨2 * DAY, 2, some 1, none⟩,
    ⟨70 * DAY, 70, some 3, none⟩]⟩ : Frame ℚ) = .ok true := by decide +kernel

/-- **C41 (limit).** Different models with the same name count as one: of two fixed steps of different size only the first remains. -/
theorem C41_counterexample : ∃ a b : ForecastModel ℚ, createFixedStep 5 1 = .ok a ∧ createFixedStep 7 2 = .ok b ∧
    getListModel (some [a, b]) none .add = [a] ∧
    (a.fModel { ax := [2], adate := none } none false ≠ b.fModel { ax := [2], adate := none } none false) := by
  refine ⟨_, _, rfl, rfl, ?_, by decide +kernel⟩
  unfold getListModel
  simp [dedupBy, mkModel]

/-- In 'both' mode the naive model is reported as multiplicative although it is not composed at all. -/
example : modelAddMult (modelNaive stableSort : ForecastModel ℚ) .both [modelLinear] = .mult := by decide +kernel

end Anticipy
