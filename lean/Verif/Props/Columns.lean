import Verif.Spec.Columns
import Verif.Props.RunExamples
import Mathlib.Tactic.NormNum

/-
C66 (column names), C67 (batches of inputs).
-/
namespace Anticipy
open Spec
variable {V K : Type}

/-! ### C66 -/

theorem colOf_map (l : List (String × List V)) (name : String) (g : String → String) (old : String)
    (h : ∀ c ∈ l, (g c.1 = name ↔ c.1 = old)) : colOf (l.map fun c => (g c.1, c.2)) name = colOf l old := by
  unfold colOf
  induction l with
  | nil => rfl
  | cons c l ih =>
    simp only [List.map_cons, List.find?_cons]
    have h1 := h c List.mem_cons_self
    by_cases h2 : c.1 = old
    · rw [decide_eq_true h2, decide_eq_true (h1.2 h2)]
      rfl
    · simp only [h2, mt h1.1 h2, decide_false]
      exact ih fun c hc => h c (List.mem_cons_of_mem _ hc)

theorem standardise_congr (conv : Conv V K) (a a' : ColNames) (t t' : RawTable V) (hn : t'.n = t.n) (hi : t'.index = t.index)
    (he : t'.cols = [] ↔ t.cols = []) (hy : a'.y ∈ t'.cols.map Prod.fst ↔ a.y ∈ t.cols.map Prod.fst)
    (hcol : ∀ name ∈ standardNames, colOf (t'.cols.map fun c => (a'.rename c.1, c.2)) name = colOf (t.cols.map fun c => (a.rename c.1, c.2)) name) :
    standardise conv a' t' = standardise conv a t := by
  unfold standardise
  simp only [hcol "y" (by decide), hcol "weight" (by decide), hcol "x" (by decide), hcol "date" (by decide), hcol "source" (by decide), hn, hi, he, hy]

/-- **C66.** By default the roles have the names y, weight, x, date and source: no column is renamed. -/
theorem C66_default_names (n : String) : roleNames .std = ["y", "weight", "x", "date", "source"] ∧ ColNames.std.rename n = n := by
  refine ⟨rfl, ?_⟩
  unfold ColNames.rename ColNames.std
  dsimp only
  split_ifs <;> simp_all

/-- Position of a standard name among the roles. -/
def Spec.roleOf (a : ColNames) (name : String) : String :=
  if name = "y" then a.y else if name = "weight" then a.weight else if name = "x" then a.x else if name = "date" then a.date else a.source

theorem rename_role (a : ColNames) (hd : (roleNames a).Nodup) (n name : String) (hname : name ∈ standardNames)
    (hn : n ∈ standardNames → n ∈ roleNames a) : a.rename n = name ↔ n = roleOf a name := by
  obtain ⟨y, w, x, d, s⟩ := a
  simp only [roleNames, List.nodup_cons, List.mem_cons, List.not_mem_nil, or_false, not_or, List.nodup_nil, and_true, not_false_eq_true] at hd hn
  obtain ⟨⟨h1, h2, h3, h4⟩, ⟨h5, h6, h7⟩, ⟨h8, h9⟩, h10⟩ := hd
  simp only [standardNames, List.mem_cons, List.not_mem_nil, or_false] at hname hn
  unfold ColNames.rename roleOf
  dsimp only
  rcases hname with rfl | rfl | rfl | rfl | rfl <;> simp <;> grind

/-- The table with standard columns is built from the columns that have the roles. -/
theorem standard_cols (a : ColNames) (hd : (roleNames a).Nodup) (l : List (String × List V))
    (hm : ∀ c ∈ l, c.1 ∈ standardNames → c.1 ∈ roleNames a) (name : String) (hname : name ∈ standardNames) :
    colOf (l.map fun c => (a.rename c.1, c.2)) name = colOf l (roleOf a name) :=
  colOf_map l name a.rename (roleOf a name) fun c hc => rename_role a hd c.1 name hname (hm c hc)

/-- **C66.** The names of the columns do not matter: if all columns get other names, and the roles are named accordingly, the result is the same. -/
theorem C66_names_partial (srt : SortAlg) (conv : Conv V K) (a a' : ColNames) (t : RawTable V) (ρ : String → String)
    (hinj : ∀ m ∈ t.cols.map Prod.fst ++ roleNames a, ∀ n ∈ t.cols.map Prod.fst ++ roleNames a, ρ m = ρ n → m = n)
    (hroles : roleNames a' = (roleNames a).map ρ) (hu : Unmixed a t) (hu' : Unmixed a' (withNames ρ t)) :
    normalizeRaw srt conv a' (withNames ρ t) = normalizeRaw srt conv a t := by
  obtain ⟨hd, -, hm⟩ := hu
  obtain ⟨hd', -, hm'⟩ := hu'
  have hρ : ∀ name ∈ standardNames, roleOf a' name = ρ (roleOf a name) ∧ roleOf a name ∈ roleNames a := by
    obtain ⟨y, w, x, d, s⟩ := a
    obtain ⟨y', w', x', d', s'⟩ := a'
    simp only [roleNames, List.map_cons, List.map_nil, List.cons.injEq, and_true] at hroles
    obtain ⟨rfl, rfl, rfl, rfl, rfl⟩ := hroles
    intro name hname
    simp only [standardNames, List.mem_cons, List.not_mem_nil, or_false] at hname
    rcases hname with rfl | rfl | rfl | rfl | rfl <;> simp [roleOf, roleNames]
  have key : standardise conv a' (withNames ρ t) = standardise conv a t := by
    apply standardise_congr conv a a' t (withNames ρ t) rfl rfl
    · simp [withNames]
    · have hy : a'.y = ρ a.y := (hρ "y" (by decide)).1
      rw [hy]
      simp only [withNames, List.map_map, List.mem_map, Function.comp_def]
      constructor
      · rintro ⟨c, hc, e⟩
        exact ⟨c, hc, hinj _ (List.mem_append_left _ (List.mem_map.2 ⟨c, hc, rfl⟩)) _ (List.mem_append_right _ (by simp [roleNames])) e⟩
      · rintro ⟨c, hc, e⟩
        exact ⟨c, hc, by rw [e]⟩
    · intro name hname
      rw [standard_cols a hd _ hm name hname, standard_cols a' hd' _ hm' name hname, (hρ name hname).1]
      exact colOf_map t.cols _ ρ _ fun c hc => ⟨hinj _ (List.mem_append_left _ (List.mem_map.2 ⟨c, hc, rfl⟩)) _
        (List.mem_append_right _ (hρ name hname).2), fun e => by rw [e]⟩
  unfold normalizeRaw
  rw [key]

theorem mapM_spec {α β : Type} (f : α → Res β) (l : List α) (r : List β) (h : l.mapM f = .ok r) :
    r.length = l.length ∧ ∀ (i : Nat) (a : α), l[i]? = some a → ∃ b, r[i]? = some b ∧ f a = .ok b := by
  induction l generalizing r with
  | nil => cases h; simp
  | cons a l ih =>
    rw [List.mapM_cons] at h
    cases hf : f a with
    | error e => rw [hf] at h; cases h
    | ok b =>
      cases hr : l.mapM f with
      | error e => rw [hf, hr] at h; cases h
      | ok bs =>
        rw [hf, hr] at h
        cases h
        obtain ⟨h1, h2⟩ := ih bs hr
        refine ⟨by simp [h1], fun i => ?_⟩
        cases i with
        | zero => intro a' ha; simp only [List.getElem?_cons_zero, Option.some.injEq] at ha; subst ha; exact ⟨b, rfl, hf⟩
        | succ i => exact h2 i

theorem colOf_mem (l : List (String × List V)) (hn : (l.map Prod.fst).Nodup) (name : String) (c : List V) (h : (name, c) ∈ l) : colOf l name = some c := by
  unfold colOf
  induction l with
  | nil => cases h
  | cons d l ih =>
    simp only [List.map_cons, List.nodup_cons] at hn
    rw [List.find?_cons]
    rcases List.mem_cons.1 h with rfl | h
    · simp
    · have : d.1 ≠ name := by
        intro e
        exact hn.1 (e ▸ List.mem_map.2 ⟨_, h, rfl⟩)
      simp only [this, decide_false]
      exact ih hn.2 h

theorem colOf_some (l : List (String × List V)) (name : String) (c : List V) (h : colOf l name = some c) : (name, c) ∈ l := by
  unfold colOf at h
  rw [Option.map_eq_some_iff] at h
  obtain ⟨d, hd, rfl⟩ := h
  have h1 := List.mem_of_find?_eq_some hd
  have h2 := List.find?_some hd
  rw [decide_eq_true_eq] at h2
  rw [← h2]
  exact h1

theorem colOf_none (l : List (String × List V)) (name : String) : colOf l name = none ↔ name ∉ l.map Prod.fst := by
  unfold colOf
  simp only [Option.map_eq_none_iff, List.find?_eq_none, decide_eq_true_eq, List.mem_map, not_exists, not_and]

/-- **C66.** Each role is filled from the column that is named for it: row `i` of the table that is forecast takes its value, weight, x, source and date from
row `i` of these columns (the date from the index if there is no date column), and other columns are not used. -/
theorem C66_roles_partial (conv : Conv V K) (a : ColNames) (t : RawTable V) (hu : Unmixed a t) (hrect : Rectangular t) (s : STable K)
    (h : standardise conv a t = .ok (some s)) :
    s.rows.length = t.n ∧
    (s.hasWeight = true ↔ a.weight ∈ t.cols.map Prod.fst) ∧ (s.hasX = true ↔ a.x ∈ t.cols.map Prod.fst) ∧
    (s.hasSource = true ↔ a.source ∈ t.cols.map Prod.fst) ∧ (s.hasDate = true ↔ a.date ∈ t.cols.map Prod.fst ∨ t.index ≠ none) ∧
    ∀ (i : Nat) (r : SRow K), s.rows[i]? = some r →
      (∃ c v, (a.y, c) ∈ t.cols ∧ c[i]? = some v ∧ conv.toFloat v = .ok r.y) ∧
      (∀ c, (a.weight, c) ∈ t.cols → ∃ v, c[i]? = some v ∧ r.weight = conv.weight v) ∧
      (∀ c, (a.x, c) ∈ t.cols → ∃ v, c[i]? = some v ∧ r.x = conv.x v) ∧
      (∀ c, (a.source, c) ∈ t.cols → ∃ v, c[i]? = some v ∧ r.source = conv.label v) ∧
      (∀ c, (a.date, c) ∈ t.cols → ∃ v, c[i]? = some v ∧ conv.toDate v = .ok r.date) ∧
      (∀ ix, a.date ∉ t.cols.map Prod.fst → t.index = some ix → ix[i]? = some r.date) := by
  obtain ⟨hd, hn, hm⟩ := hu
  obtain ⟨hlen, hix⟩ := hrect
  have cy := standard_cols a hd t.cols hm "y" (by decide)
  have cw := standard_cols a hd t.cols hm "weight" (by decide)
  have cx := standard_cols a hd t.cols hm "x" (by decide)
  have cd := standard_cols a hd t.cols hm "date" (by decide)
  have cs := standard_cols a hd t.cols hm "source" (by decide)
  have ry : roleOf a "y" = a.y := rfl
  have rw' : roleOf a "weight" = a.weight := rfl
  have rx : roleOf a "x" = a.x := rfl
  have rd : roleOf a "date" = a.date := rfl
  have rs : roleOf a "source" = a.source := rfl
  rw [ry] at cy; rw [rw'] at cw; rw [rx] at cx; rw [rd] at cd; rw [rs] at cs
  unfold standardise at h
  by_cases h0 : t.n = 0 ∨ t.cols = []
  · rw [if_pos h0] at h; cases h
  rw [if_neg h0] at h
  simp only [cy, cw, cx, cd, cs, Bind.bind, Except.bind, pyAssert] at h
  by_cases h1 : a.y ∈ t.cols.map Prod.fst
  · simp only [h1, decide_true, if_true] at h
    cases hy : colOf t.cols a.y with
    | none => rw [hy] at h; cases h
    | some cells =>
      rw [hy] at h
      dsimp only at h
      cases hys : cells.mapM conv.toFloat with
      | error e => rw [hys] at h; cases h
      | ok ys =>
        rw [hys] at h
        dsimp only at h
        cases hds : rawDates conv t.index (colOf t.cols a.date) with
        | error e => rw [hds] at h; cases h
        | ok dates =>
          rw [hds] at h
          simp only [Except.ok.injEq, Option.some.injEq] at h
          subst h
          dsimp only
          have hsome : ∀ name, (colOf t.cols name).isSome = true ↔ name ∈ t.cols.map Prod.fst := by
            intro name
            rw [← not_iff_not, ← colOf_none, Option.not_isSome_iff_eq_none]
          refine ⟨by simp [buildRows], hsome _, hsome _, hsome _, ?_, ?_⟩
          · cases hcd : colOf t.cols a.date with
            | none =>
              rw [hcd] at hds
              simp only [rawDates, Except.ok.injEq] at hds
              subst hds
              rw [colOf_none] at hcd
              simp [hcd, Option.isSome_iff_ne_none]
            | some c =>
              rw [hcd] at hds
              simp only [rawDates] at hds
              have : a.date ∈ t.cols.map Prod.fst := List.mem_map.2 ⟨_, colOf_some _ _ _ hcd, rfl⟩
              cases hmm : c.mapM conv.toDate with
              | error e => rw [hmm] at hds; cases hds
              | ok l => rw [hmm] at hds; cases hds; simp only [Option.isSome_some, true_iff]; exact .inl this
          · intro i r hr
            unfold buildRows at hr
            rw [List.getElem?_map, Option.map_eq_some_iff] at hr
            obtain ⟨j, hj, rfl⟩ := hr
            have hi : i < t.n := by
              by_contra hc
              rw [List.getElem?_eq_none (by simpa using hc)] at hj
              cases hj
            rw [List.getElem?_range hi, Option.some.injEq] at hj
            subst hj
            have cell : ∀ name c, (name, c) ∈ t.cols → ∃ v, c[i]? = some v := by
              intro name c hc
              have := hlen _ hc
              exact ⟨c[i]'(by dsimp only at this; omega), List.getElem?_eq_getElem _⟩
            dsimp only
            refine ⟨?_, ?_, ?_, ?_, ?_, ?_⟩
            · obtain ⟨v, hv⟩ := cell _ _ (colOf_some _ _ _ hy)
              obtain ⟨b, hb, hf⟩ := (mapM_spec conv.toFloat cells ys hys).2 i v hv
              exact ⟨cells, v, colOf_some _ _ _ hy, hv, by rw [hf, hb]; rfl⟩
            · intro c hc
              obtain ⟨v, hv⟩ := cell _ _ hc
              exact ⟨v, hv, by rw [colOf_mem _ hn _ _ hc, Option.getD_some, hv]; rfl⟩
            · intro c hc
              obtain ⟨v, hv⟩ := cell _ _ hc
              exact ⟨v, hv, by rw [colOf_mem _ hn _ _ hc, Option.getD_some, hv]; rfl⟩
            · intro c hc
              obtain ⟨v, hv⟩ := cell _ _ hc
              exact ⟨v, hv, by rw [colOf_mem _ hn _ _ hc, Option.getD_some, hv]; rfl⟩
            · intro c hc
              obtain ⟨v, hv⟩ := cell _ _ hc
              rw [colOf_mem _ hn _ _ hc] at hds
              simp only [rawDates] at hds
              cases hmm : c.mapM conv.toDate with
              | error e => rw [hmm] at hds; cases hds
              | ok l =>
                rw [hmm] at hds
                cases hds
                obtain ⟨b, hb, hf⟩ := (mapM_spec conv.toDate c l hmm).2 i v hv
                exact ⟨v, hv, by rw [hf, Option.getD_some, hb]; rfl⟩
            · intro ix hno hx
              rw [(colOf_none _ _).2 hno] at hds
              simp only [rawDates, Except.ok.injEq] at hds
              subst hds
              rw [hx, Option.getD_some, List.getElem?_eq_getElem (by rw [hix ix hx]; exact hi)]
              rfl
  · simp only [h1, decide_false, Bool.false_eq_true, if_false] at h
    cases h

/-- **C66.** Columns that have neither a role nor a standard name have no influence. -/
theorem C66_other_columns (srt : SortAlg) (conv : Conv V K) (a : ColNames) (t : RawTable V) (other : List (String × List V))
    (ho : ∀ c ∈ other, c.1 ∉ standardNames ∧ c.1 ∉ roleNames a) (hne : t.cols ≠ []) :
    normalizeRaw srt conv a { t with cols := t.cols ++ other } = normalizeRaw srt conv a t := by
  have hr : ∀ c ∈ other, a.rename c.1 = c.1 := by
    intro c hc
    obtain ⟨-, h⟩ := ho c hc
    simp only [roleNames, List.mem_cons, List.not_mem_nil, or_false, not_or] at h
    obtain ⟨h1, h2, h3, h4, h5⟩ := h
    simp [ColNames.rename, h1, h2, h3, h4, h5]
  have key : standardise conv a { t with cols := t.cols ++ other } = standardise conv a t := by
    apply standardise_congr conv a a t { t with cols := t.cols ++ other } rfl rfl
    · simp [hne]
    · simp only [List.map_append, List.mem_append]
      constructor
      · rintro (h | h)
        · exact h
        · obtain ⟨c, hc, e⟩ := List.mem_map.1 h
          exact absurd (e ▸ (by simp [roleNames] : a.y ∈ roleNames a)) (ho c hc).2
      · exact .inl
    · intro name hname
      unfold colOf
      dsimp only
      rw [List.map_append, List.find?_append]
      have : (other.map fun c => (a.rename c.1, c.2)).find? (fun c => decide (c.1 = name)) = none := by
        rw [List.find?_eq_none]
        intro c hc
        obtain ⟨d, hd, rfl⟩ := List.mem_map.1 hc
        simp only [decide_eq_true_eq, hr d hd]
        intro e
        exact (ho d hd).1 (e ▸ hname)
      rw [this, Option.or_none]
  unfold normalizeRaw
  rw [key]

/-- **C66.** A table without the value column is rejected with an assertion error. -/
theorem C66_missing (srt : SortAlg) (conv : Conv V K) (a : ColNames) (t : RawTable V) (hn : t.n ≠ 0) (hc : t.cols ≠ []) (h : a.y ∉ t.cols.map Prod.fst) :
    normalizeRaw srt conv a t = .error .assertionError := by
  unfold normalizeRaw standardise
  rw [if_neg (by simp [hn, hc])]
  simp only [h, decide_false, pyAssert, Bind.bind, Except.bind, Bool.false_eq_true, if_false]

/-- Cells that are rational numbers. -/
def numConv : Conv ℚ ℚ := ⟨fun v => .ok (some v), fun v => .ok (v.num * DAY), some, Rat.num, fun _ => none⟩

/-- **C66, disagreement.** A column called `weight` can not be the value column. -/
theorem C66_counterexample (srt : SortAlg) : ∃ (a : ColNames) (t : RawTable ℚ), a.y ∈ t.cols.map Prod.fst ∧ Rectangular t ∧ t.n ≠ 0 ∧
    normalizeRaw srt numConv a t = .error .keyError := by
  refine ⟨{ ColNames.std with y := "weight" }, ⟨2, none, [("date", [0, 1]), ("weight", [70, 71])]⟩, by decide, ⟨by decide, by simp⟩, by decide, rfl⟩

/-- A table with own column names and an unused column: the values are found. -/
example (srt : SortAlg) : normalizeRaw srt numConv ⟨"sales", "w", "x", "day", "source"⟩ ⟨2, none, [("day", [0, 1]), ("sales", [70, 71]), ("temp", [5, 6])]⟩ =
    normalizeRaw srt numConv .std ⟨2, none, [("date", [0, 1]), ("y", [70, 71]), ("temp", [5, 6])]⟩ :=
  C66_names_partial srt numConv .std ⟨"sales", "w", "x", "day", "source"⟩ ⟨2, none, [("date", [0, 1]), ("y", [70, 71]), ("temp", [5, 6])]⟩
    (fun n => if n = "date" then "day" else if n = "y" then "sales" else if n = "weight" then "w" else n) (by decide) (by decide)
    (by unfold Unmixed; decide) (by unfold Unmixed; decide)

/-- The hypotheses of the theorem on roles, with dates in the index. -/
example : ∃ s, standardise numConv ⟨"sales", "w", "x", "day", "source"⟩ ⟨2, some [0, DAY], [("w", [1, 2]), ("sales", [70, 71]), ("temp", [5, 6])]⟩ = .ok (some s) ∧
    s.hasDate = true ∧ s.rows.map SRow.y = [some 70, some 71] ∧ s.rows.map SRow.weight = [some 1, some 2] := ⟨_, rfl, by decide +kernel⟩
example : Unmixed ⟨"sales", "w", "x", "day", "source"⟩ (⟨2, some [0, DAY], [("w", [1, 2]), ("sales", [70, 71]), ("temp", [5, 6])]⟩ : RawTable ℚ) := by
  unfold Unmixed; decide

/-! ### C67 -/

section
variable [Field K] [LinearOrder K] [FloorRing K]

theorem joined_cons (r : RunResult K) (l : List (RunResult K)) : joined (r :: l) = r.append (joined l) := by
  simp [joined, RunResult.append]

theorem aggregate_iff (l : List (Option (RunResult K))) (res : RunResult K) :
    aggregate l = .ok res ↔ ∃ rs, l = rs.map some ∧ res = joined rs := by
  induction l generalizing res with
  | nil =>
    simp only [aggregate, Except.ok.injEq]
    constructor
    · rintro rfl; exact ⟨[], rfl, rfl⟩
    · rintro ⟨rs, h, rfl⟩
      rw [eq_comm, List.map_eq_nil_iff] at h
      subst h; rfl
  | cons o l ih =>
    cases o with
    | none =>
      simp only [aggregate]
      constructor
      · intro h; cases h
      · rintro ⟨rs, h, -⟩
        cases rs <;> simp at h
    | some r =>
      simp only [aggregate, Bind.bind, Except.bind]
      constructor
      · intro h
        cases hl : aggregate l with
        | error e => rw [hl] at h; cases h
        | ok res' =>
          rw [hl] at h
          cases h
          obtain ⟨rs, rfl, rfl⟩ := (ih res').1 hl
          exact ⟨r :: rs, rfl, by rw [joined_cons]⟩
      · rintro ⟨rs, h, rfl⟩
        cases rs with
        | nil => simp at h
        | cons r' rs =>
          simp only [List.map_cons, List.cons.injEq, Option.some.injEq] at h
          obtain ⟨rfl, rfl⟩ := h
          rw [(ih (joined rs)).2 ⟨rs, rfl, rfl⟩, joined_cons]

theorem runInputs_iff (w : World K) (args : RunArgs K) (l : List (ForecastInput K)) (rs : List (Option (RunResult K))) :
    runInputs w args l = .ok rs ↔ List.Forall₂ (fun i r => runForecast w (i.args args) i.sourceId i.table = .ok r) l rs := by
  induction l generalizing rs with
  | nil =>
    simp only [runInputs, Except.ok.injEq, List.forall₂_nil_left_iff]
    exact eq_comm
  | cons i l ih =>
    simp only [runInputs, Bind.bind, Except.bind, List.forall₂_cons_left_iff]
    constructor
    · intro h
      cases hr : runForecast w (i.args args) i.sourceId i.table with
      | error e => rw [hr] at h; cases h
      | ok r =>
        rw [hr] at h
        dsimp only at h
        cases hl : runInputs w args l with
        | error e => rw [hl] at h; cases h
        | ok rs' =>
          rw [hl] at h
          cases h
          exact ⟨r, rs', rfl, (ih rs').1 hl, rfl⟩
    · rintro ⟨r, rs', hr, hl, rfl⟩
      rw [hr]
      dsimp only
      rw [(ih rs').2 hl]

/-- **C67.** A batch of inputs gives the results of the single inputs one after the other, and succeeds if and only if each of them gives a result. -/
theorem C67_batch_partial (w : World K) (args : RunArgs K) (l : List (ForecastInput K)) (hne : l ≠ []) (res : RunResult K) :
    runLForecast w args l = .ok res ↔
      ∃ rs : List (RunResult K), List.Forall₂ (fun i r => runForecast w (i.args args) i.sourceId i.table = .ok (some r)) l rs ∧ res = joined rs := by
  unfold runLForecast
  constructor
  · intro h
    cases hr : runInputs w args l with
    | error e => rw [hr] at h; cases h
    | ok rs =>
      rw [hr] at h
      simp only [Bind.bind, Except.bind] at h
      split_ifs at h with h0
      obtain ⟨rs', rfl, rfl⟩ := (aggregate_iff rs res).1 h
      refine ⟨rs', ?_, rfl⟩
      have h1 := (runInputs_iff w args l _).1 hr
      rw [List.forall₂_map_right_iff] at h1
      exact h1
  · rintro ⟨rs, hr, rfl⟩
    have h1 := (runInputs_iff w args l (rs.map some)).2 (by rw [List.forall₂_map_right_iff]; exact hr)
    rw [h1]
    simp only [Bind.bind, Except.bind]
    rw [if_neg]
    · exact (aggregate_iff _ _).2 ⟨rs, rfl, rfl⟩
    · intro h0
      rw [List.map_eq_nil_iff] at h0
      subst h0
      rw [List.forall₂_nil_right_iff] at hr
      exact hne hr

/-- **C67.** The `weights_y_values` of an input have no effect at all. -/
theorem C67_weights (w : World K) (args : RunArgs K) (l : List (ForecastInput K)) (f : ForecastInput K → K) :
    runLForecast w args (l.map fun i => { i with weights := f i }) = runLForecast w args l := by
  have : ∀ l : List (ForecastInput K), runInputs w args (l.map fun i => { i with weights := f i }) = runInputs w args l := by
    intro l
    induction l with
    | nil => rfl
    | cons i l ih => simp only [List.map_cons, runInputs, ih]; rfl
  unfold runLForecast
  rw [this]

/-- **C67, arguments.** Each input is forecast with its own trend models (the linear trend if it gives none), its own season models and its own starting date, and
with the arguments of the batch for everything else. -/
theorem C67_arguments (i : ForecastInput K) (args : RunArgs K) :
    (∀ l, i.trend = some l → (i.args args).models.trend = some l) ∧ (i.trend = none → (i.args args).models.trend = some [modelLinear]) ∧
    (i.args args).models.season = i.season ∧ (i.args args).start = i.start ∧
    { i.args args with models := { (i.args args).models with trend := args.models.trend, season := args.models.season }, start := args.start } = args := by
  refine ⟨fun l h => ?_, fun h => ?_, rfl, rfl, rfl⟩ <;> simp [ForecastInput.args, h]

/-- **C67, disagreement.** An input without samples, which on its own gives no result and no error, makes a batch fail that would otherwise succeed. -/
theorem C67_empty_input (w : World K) (args : RunArgs K) (l : List (ForecastInput K)) (res : RunResult K) (h : runLForecast w args l = .ok res)
    (i : ForecastInput K) (hi : i.table.rows = []) :
    runForecast w (i.args args) i.sourceId i.table = .ok none ∧ runLForecast w args (l ++ [i]) = .error .typeError := by
  have h1 : runForecast w (i.args args) i.sourceId i.table = .ok none := by
    unfold runForecast normalizeDf
    rw [if_pos hi]
    rfl
  refine ⟨h1, ?_⟩
  unfold runLForecast at h ⊢
  cases hr : runInputs w args l with
  | error e => rw [hr] at h; cases h
  | ok rs =>
    rw [hr] at h
    simp only [Bind.bind, Except.bind] at h
    split_ifs at h with h0
    obtain ⟨rs', rfl, rfl⟩ := (aggregate_iff rs res).1 h
    have h2 : runInputs w args (l ++ [i]) = .ok (rs'.map some ++ [none]) := by
      rw [runInputs_iff]
      exact List.rel_append ((runInputs_iff w args l _).1 hr) (.cons h1 .nil)
    rw [h2]
    simp only [Bind.bind, Except.bind]
    rw [if_neg (by simp)]
    have h3 : ∀ l : List (RunResult K), aggregate (l.map some ++ [none]) = .error .typeError := by
      intro l
      induction l with
      | nil => rfl
      | cons r l ih => simp only [List.map_cons, List.cons_append, aggregate, ih]; rfl
    exact h3 rs'

end

/-- Two inputs, one with a linear and one with a constant trend. -/
def demoInput (trend : List (ForecastModel ℚ)) (s : String) : ForecastInput ℚ :=
  ⟨s, ⟨true, false, false, false, demoFrame.rows.map fun r => ⟨r.date, none, 0, r.y, none⟩⟩, some trend, some [], 1, none⟩

example : ((runLForecast demoWorld (demoArgs [] (some [])) [demoInput [modelLinear] "u", demoInput [modelConstant] "v"]).toOption.map fun r =>
    r.metadata.map fun m => (m.source, m.model)) = some [("u", "linear"), ("v", "constant")] := by
  decide +kernel

theorem C67_counterexample : (∃ res, runLForecast demoWorld (demoArgs [] (some [])) [demoInput [modelLinear] "u"] = .ok res) ∧
    runLForecast demoWorld (demoArgs [] (some [])) [demoInput [modelLinear] "u", { demoInput [modelLinear] "v" with table := ⟨true, false, false, false, []⟩ }] =
      .error .typeError := by
  have h : ∃ res, runLForecast demoWorld (demoArgs [] (some [])) [demoInput [modelLinear] "u"] = .ok res := by
    have h1 : (runLForecast demoWorld (demoArgs [] (some [])) [demoInput [modelLinear] "u"]).toOption.isSome = true := by decide +kernel
    cases hr : runLForecast demoWorld (demoArgs [] (some [])) [demoInput [modelLinear] "u"] with
    | error e => rw [hr] at h1; cases h1
    | ok res => exact ⟨res, rfl⟩
  refine ⟨h, ?_⟩
  obtain ⟨res, hr⟩ := h
  exact (C67_empty_input demoWorld _ _ res hr { demoInput [modelLinear] "v" with table := ⟨true, false, false, false, []⟩ } rfl).2

end Anticipy

#print axioms Anticipy.C66_names_partial
#print axioms Anticipy.C66_roles_partial
#print axioms Anticipy.C66_other_columns
#print axioms Anticipy.C66_missing
#print axioms Anticipy.C66_counterexample
#print axioms Anticipy.C67_batch_partial
#print axioms Anticipy.C67_weights
#print axioms Anticipy.C67_empty_input
#print axioms Anticipy.C67_counterexample
