import Verif.Model.Naive
import Verif.Spec.Naive
import Verif.Lemmas.ListOps
import Verif.Lemmas.Split
import Mathlib.Algebra.Order.Ring.Rat
import Mathlib.Algebra.Order.Ring.Cast
import Mathlib.Tactic.Linarith

/-
C37 (naive model), C38 (seasonal naive model).
-/
namespace Anticipy
open Spec

/-! ### Filling -/

/-- Last value of a list, or the given one. -/
def lastSome {α : Type} (c : Option α) (l : List (Option α)) : Option α := l.foldl (fun c v => v <|> c) c

/-- The last value before each position. -/
def prevs {α : Type} : Option α → List (Option α) → List (Option α)
  | _, [] => []
  | c, v :: l => c :: prevs (v <|> c) l

theorem ffill_shift_aux {α : Type} (c a : Option α) (l : List (Option α)) :
    ffillFrom c ((a :: l).take l.length) = prevs (a <|> c) l := by
  induction l generalizing c a with
  | nil => rfl
  | cons v l ih =>
    simp only [List.length_cons, List.take_succ_cons, ffillFrom, prevs]
    rw [ih]

theorem ffill_shift {α : Type} (l : List (Option α)) : ffill (shift1 l) = prevs none l := by
  unfold ffill shift1
  rw [ffill_shift_aux]
  rfl

theorem prevs_length {α : Type} (c : Option α) (l : List (Option α)) : (prevs c l).length = l.length := by
  induction l generalizing c with
  | nil => rfl
  | cons v l ih => simp [prevs, ih]

theorem prevs_getElem {α : Type} (c : Option α) (l : List (Option α)) (i : Nat) (h : i < l.length) :
    (prevs c l)[i]? = some (lastSome c (l.take i)) := by
  induction l generalizing c i with
  | nil => simp at h
  | cons v l ih =>
    cases i with
    | zero => simp [prevs, lastSome]
    | succ i =>
      simp only [prevs, List.getElem?_cons_succ]
      rw [ih _ _ (by simpa using h)]
      simp [lastSome]

theorem bfill_prevs_some {α : Type} (a : α) (l : List (Option α)) : bfill (prevs (some a) l) = prevs (some a) l := by
  induction l generalizing a with
  | nil => rfl
  | cons v l ih =>
    simp only [prevs, bfill]
    cases v with
    | none => simp [ih]
    | some b => simp [ih]

/-- The value that fills the leading gap. -/
def firstFill {α : Type} (l : List (Option α)) : Option α := (bfill (prevs none l)).head?.join

theorem bfill_prevs {α : Type} (l : List (Option α)) :
    bfill (prevs none l) = (prevs none l).map fun v => v <|> firstFill l := by
  induction l with
  | nil => rfl
  | cons v l ih =>
    unfold firstFill
    simp only [prevs, bfill, List.head?_cons, Option.join_some, List.map_cons]
    cases v with
    | none =>
      simp only [Option.none_or, Option.orElse_eq_orElse] at ih ⊢
      simp only [HOrElse.hOrElse, OrElse.orElse, Option.orElse] at ih ⊢
      rw [ih]
      congr 1
      cases l with
      | nil => rfl
      | cons w l => rfl
    | some b =>
      rw [show ((some b <|> none : Option α)) = some b from rfl, bfill_prevs_some]
      congr 1
      apply List.ext_getElem?
      intro i
      simp only [List.getElem?_map]
      by_cases hi : i < l.length
      · rw [prevs_getElem _ _ _ hi]
        have : ∀ (l : List (Option α)) (b : α), ∃ c, lastSome (some b) l = some c := by
          intro l
          induction l with
          | nil => intro b; exact ⟨b, rfl⟩
          | cons v l ih => intro b; cases v <;> simpa [lastSome] using ih _
        obtain ⟨c, hc⟩ := this (l.take i) b
        rw [hc]; rfl
      · rw [List.getElem?_eq_none (by rw [prevs_length]; omega)]; rfl

theorem firstFill_eq {α : Type} (l : List (Option α)) : firstFill l = (l.dropLast.filterMap id).head? := by
  induction l with
  | nil => rfl
  | cons v l ih =>
    cases l with
    | nil => rfl
    | cons w l =>
      cases v with
      | none =>
        rw [List.dropLast_cons₂]
        rw [List.filterMap_cons_none rfl, ← ih]
        rfl
      | some b => rfl

/-! ### Strictly sorted tables -/

theorem take_eq_filter {α β : Type} [LinearOrder β] (key : α → β) (S : List α) (hS : S.Pairwise fun a b => key a < key b) (i : Nat)
    (h : i < S.length) : S.take i = S.filter fun e => decide (key e < key S[i]) := by
  induction S generalizing i with
  | nil => simp at h
  | cons a S ih =>
    rw [List.pairwise_cons] at hS
    cases i with
    | zero =>
      symm
      simp only [List.take_zero, List.filter_eq_nil_iff, List.getElem_cons_zero, decide_eq_true_eq, not_lt]
      intro b hb
      rcases List.mem_cons.1 hb with rfl | hb
      · exact le_rfl
      · exact (hS.1 b hb).le
    | succ i =>
      have hi : i < S.length := by simpa using h
      simp only [List.take_succ_cons, List.getElem_cons_succ]
      rw [List.filter_cons_of_pos (by simpa using hS.1 _ (List.getElem_mem hi)), ih hS.2 i hi]

/-- Value of the last non-null row with key below `k`. -/
def lastBelow {α β γ : Type} [LinearOrder β] (key : α → β) (val : α → Option γ) (S : List α) (k : β) : Option γ :=
  lastSome none ((S.filter fun e => decide (key e < k)).map val)

theorem zip_prevs {α β γ : Type} [LinearOrder β] (key : α → β) (val : α → Option γ) (S : List α)
    (hS : S.Pairwise fun a b => key a < key b) :
    prevs none (S.map val) = S.map fun e => lastBelow key val S (key e) := by
  apply List.ext_getElem?
  intro i
  by_cases hi : i < S.length
  · rw [prevs_getElem _ _ _ (by simpa using hi), List.getElem?_map, List.getElem?_eq_getElem hi]
    simp only [Option.map_some, lastBelow]
    rw [← List.map_take, take_eq_filter key S hS i hi]
  · rw [List.getElem?_eq_none (by rw [prevs_length]; simpa using hi), List.getElem?_eq_none (by simpa using hi)]

theorem lastSome_none {α γ : Type} (val : α → Option γ) (l : List α) (c : Option γ) :
    lastSome c (l.map val) = none ↔ c = none ∧ ∀ e ∈ l, val e = none := by
  induction l generalizing c with
  | nil => simp [lastSome]
  | cons a l ih =>
    simp only [lastSome, List.map_cons, List.foldl_cons] at ih ⊢
    rw [ih]
    cases h : val a <;> cases c <;> simp [h]

theorem lastSome_some {α β γ : Type} [LinearOrder β] (key : α → β) (val : α → Option γ) (l : List α) (hl : l.Pairwise fun a b => key a < key b)
    (v : γ) : lastSome none (l.map val) = some v ↔ ∃ e ∈ l, val e = some v ∧ ∀ e' ∈ l, val e' ≠ none → key e' ≤ key e := by
  have gen : ∀ (l : List α) (c : Option γ) (hl : l.Pairwise fun a b => key a < key b), lastSome c (l.map val) = some v ↔
      (c = some v ∧ ∀ e ∈ l, val e = none) ∨ ∃ e ∈ l, val e = some v ∧ ∀ e' ∈ l, val e' ≠ none → key e' ≤ key e := by
    intro l
    induction l with
    | nil => intro c _; simp [lastSome]
    | cons a l ih =>
      intro c hl
      rw [List.pairwise_cons] at hl
      have hstep : lastSome c ((a :: l).map val) = lastSome (val a <|> c) (l.map val) := rfl
      rw [hstep, ih _ hl.2]
      constructor
      · rintro (⟨h1, h2⟩ | ⟨e, he, h1, h2⟩)
        · cases ha : val a with
          | none =>
            rw [ha] at h1
            left
            refine ⟨by simpa using h1, ?_⟩
            intro e he
            rcases List.mem_cons.1 he with rfl | he
            · exact ha
            · exact h2 e he
          | some b =>
            rw [ha] at h1
            right
            refine ⟨a, by simp, by rw [ha]; simpa using h1, ?_⟩
            intro e he hne
            rcases List.mem_cons.1 he with rfl | he
            · exact le_rfl
            · exact absurd (h2 e he) hne
        · right
          refine ⟨e, by simp [he], h1, ?_⟩
          intro e' he' hne
          rcases List.mem_cons.1 he' with rfl | he'
          · exact (hl.1 e he).le
          · exact h2 e' he' hne
      · rintro (⟨h1, h2⟩ | ⟨e, he, h1, h2⟩)
        · left
          refine ⟨by rw [h2 a (by simp)]; simpa using h1, fun e he => h2 e (by simp [he])⟩
        · rcases List.mem_cons.1 he with rfl | he
          · left
            refine ⟨by rw [h1]; rfl, ?_⟩
            intro e' he'
            by_contra hne
            exact absurd (h2 e' (by simp [he']) hne) (not_le.2 (hl.1 e' he'))
          · right
            exact ⟨e, he, h1, fun e' he' => h2 e' (by simp [he'])⟩
  rw [gen l none hl]
  simp

theorem lastBelow_none {α β γ : Type} [LinearOrder β] (key : α → β) (val : α → Option γ) (S : List α) (k : β) :
    lastBelow key val S k = none ↔ ∀ e ∈ S, key e < k → val e = none := by
  unfold lastBelow
  rw [lastSome_none]
  simp

theorem lastBelow_some {α β γ : Type} [LinearOrder β] (key : α → β) (val : α → Option γ) (S : List α)
    (hS : S.Pairwise fun a b => key a < key b) (k : β) (v : γ) :
    lastBelow key val S k = some v ↔
      ∃ e ∈ S, val e = some v ∧ key e < k ∧ ∀ e' ∈ S, val e' ≠ none → key e' < k → key e' ≤ key e := by
  unfold lastBelow
  rw [lastSome_some key val _ (hS.filter _)]
  simp only [List.mem_filter, decide_eq_true_eq]
  constructor
  · rintro ⟨e, ⟨h1, h2⟩, h3, h4⟩
    exact ⟨e, h1, h3, h2, fun e' he' hn hk => h4 e' ⟨he', hk⟩ hn⟩
  · rintro ⟨e, h1, h3, h2, h4⟩
    exact ⟨e, ⟨h1, h2⟩, h3, fun e' ⟨he', hk⟩ hn => h4 e' he' hn hk⟩

/-- The keys of a strictly sorted table that belong to a strictly sorted list contained in them are that list. -/
theorem filter_mem_eq {β : Type} [LinearOrder β] (S ax : List β) (hS : S.Pairwise (· < ·)) (hax : ax.Pairwise (· < ·))
    (hsub : ∀ x ∈ ax, x ∈ S) : (S.filter fun x => decide (x ∈ ax)) = ax := by
  apply eq_of_perm_strict id
  · rw [List.perm_ext_iff_of_nodup]
    · intro x
      simp only [List.mem_filter, decide_eq_true_eq]
      exact ⟨fun h => h.2, fun h => ⟨hsub x h, h⟩⟩
    · exact (hS.imp fun h => h.ne).filter _
    · exact hax.imp fun h => h.ne
  · exact hS.filter _
  · exact hax

/-! ### C37 -/

section
variable {K : Type} [Field K] [LinearOrder K]

theorem filter_joins_le_one (hasDate : Bool) (r : Row K) (qs : List (Query K)) (h : (qs.map Query.x).Pairwise (· < ·)) :
    (qs.filter (joins hasDate r)) = [] ∨ ∃ q, (qs.filter (joins hasDate r)) = [q] := by
  have hp : (qs.filter (joins hasDate r)).Pairwise fun a b => a.x < b.x := by
    rw [List.pairwise_map] at h
    exact h.filter _
  have hall : ∀ q ∈ qs.filter (joins hasDate r), (r.x : K) = q.x := by
    intro q hq
    have := (List.mem_filter.1 hq).2
    simp only [joins, Bool.and_eq_true, decide_eq_true_eq] at this
    exact this.1
  rcases hl : qs.filter (joins hasDate r) with _ | ⟨a, _ | ⟨b, l⟩⟩
  · exact .inl rfl
  · exact .inr ⟨a, rfl⟩
  · exfalso
    rw [hl] at hp hall
    rw [List.pairwise_cons] at hp
    have := hp.1 b (by simp)
    rw [← hall a (by simp), ← hall b (by simp)] at this
    exact lt_irrefl _ this

theorem outerMerge_eq (hasDate : Bool) (left : List (Row K)) (qs : List (Query K)) (h : (qs.map Query.x).Pairwise (· < ·))
    (hcons : ∀ r ∈ left, ∀ q ∈ qs, (r.x : K) = q.x → joins hasDate r q = true) :
    outerMerge hasDate left qs = (left.map fun r => ⟨(r.x : K), r.y⟩) ++
      (qs.filter fun q => decide (q.x ∉ left.map fun r => (r.x : K))).map fun q => ⟨q.x, none⟩ := by
  unfold outerMerge
  congr 1
  · rw [← List.flatMap_singleton' (List.map _ left), List.flatMap_map]
    apply List.flatMap_congr
    intro r hr
    rcases filter_joins_le_one hasDate r qs h with e | ⟨q, e⟩ <;> rw [e] <;> rfl
  · congr 1
    apply List.filter_congr
    intro q hq
    rw [Bool.eq_iff_iff]
    simp only [Bool.not_eq_true', decide_eq_true_eq, List.mem_map, not_exists, not_and]
    rw [Bool.eq_false_iff]
    simp only [ne_eq, List.any_eq_true, not_exists, not_and]
    constructor
    · intro h1 r hr e
      exact h1 r hr (hcons r hr q hq e)
    · intro h1 r hr e
      simp only [joins, Bool.and_eq_true, decide_eq_true_eq] at e
      exact h1 r hr e.1

theorem xyLe_trans (a b c : XY K) (h1 : xyLe a b) (h2 : xyLe b c) : xyLe a c := by
  simp only [xyLe, decide_eq_true_eq] at *; exact h1.trans h2
theorem xyLe_total (a b : XY K) : (xyLe a b || xyLe b a) = true := by
  simp only [xyLe, Bool.or_eq_true, decide_eq_true_eq]; exact le_total _ _

/-- Result of the naive model. -/
theorem naive_eval [IsStrictOrderedRing K] (srt : SortAlg) (ctx : Ctx K) (df : Frame K) (p : Params K) (mult : Bool) (qs : List (Query K))
    (hq : queries ctx = .ok qs) (hc : ctx.hasCache = false) (ha : ctx.actuals = some df) (hd : df.hasDate = true → ctx.adate ≠ none)
    (hax : ctx.ax.Pairwise (· < ·)) (hqx : qs.map Query.x = ctx.ax)
    (hrows : (df.rows.map Row.x).Nodup)
    (hcons : ∀ r ∈ df.rows, ∀ q ∈ qs, (r.x : K) = q.x → joins df.hasDate r q = true) :
    ∃ S : List (XY K), S.Pairwise (fun a b => a.x < b.x) ∧
      (∀ e, e ∈ S ↔ (∃ r ∈ df.rows, e = ⟨(r.x : K), r.y⟩) ∨ (∃ x ∈ ctx.ax, (∀ r ∈ df.rows, (r.x : K) ≠ x) ∧ e = ⟨x, none⟩)) ∧
      (modelNaive srt).fModel ctx p mult = .ok (.vec (ctx.ax.map fun x => lastBelow XY.x XY.y S x <|> firstFill (S.map XY.y))) := by
  have hded : dedupBy Row.x df.rows = df.rows := by
    apply dedupBy_of_nodup
    rw [List.nodup_iff_pairwise_ne, List.pairwise_map] at hrows
    exact hrows
  have hqs : (qs.map Query.x).Pairwise (· < ·) := by rw [hqx]; exact hax
  have hM := outerMerge_eq df.hasDate df.rows qs hqs hcons
  set M := outerMerge df.hasDate df.rows qs with hMdef
  have hmem : ∀ e, e ∈ M ↔ (∃ r ∈ df.rows, e = ⟨(r.x : K), r.y⟩) ∨
      (∃ x ∈ ctx.ax, (∀ r ∈ df.rows, (r.x : K) ≠ x) ∧ e = ⟨x, none⟩) := by
    intro e
    rw [hM, List.mem_append]
    apply or_congr
    · simp only [List.mem_map]
      constructor
      · rintro ⟨r, h1, h2⟩; exact ⟨r, h1, h2.symm⟩
      · rintro ⟨r, h1, h2⟩; exact ⟨r, h1, h2.symm⟩
    · simp only [List.mem_map, List.mem_filter, decide_eq_true_eq]
      rw [← hqx]
      constructor
      · rintro ⟨q, ⟨h1, h2⟩, rfl⟩
        exact ⟨q.x, List.mem_map_of_mem h1, fun r hr e => h2 ⟨r, hr, e⟩, rfl⟩
      · rintro ⟨x, h1, h2, rfl⟩
        obtain ⟨q, hq, rfl⟩ := List.mem_map.1 h1
        exact ⟨q, ⟨hq, fun ⟨r, hr, e⟩ => h2 r hr e⟩, rfl⟩
  have hMn : (M.map XY.x).Nodup := by
    rw [hM, List.map_append, List.nodup_append]
    refine ⟨?_, ?_, ?_⟩
    · rw [List.map_map]
      have : (XY.x ∘ fun r : Row K => (⟨(r.x : K), r.y⟩ : XY K)) = (fun n : Int => (n : K)) ∘ Row.x := rfl
      rw [this, ← List.map_map]
      exact hrows.map Int.cast_injective
    · rw [List.map_map]
      have : (XY.x ∘ fun q : Query K => (⟨q.x, none⟩ : XY K)) = Query.x := rfl
      rw [this]
      rw [List.pairwise_map] at hqs
      rw [List.nodup_iff_pairwise_ne, List.pairwise_map]
      exact (hqs.filter _).imp fun h => h.ne
    · intro a h1 b h2
      simp only [List.map_map, List.mem_map, Function.comp] at h1 h2
      obtain ⟨r, hr, rfl⟩ := h1
      obtain ⟨q, hq, rfl⟩ := h2
      intro e
      simp only [List.mem_filter, decide_eq_true_eq] at hq
      exact hq.2 (by simpa using ⟨r, hr, e⟩)
  set S := srt.run xyLe M with hSdef
  have hperm : S.Perm M := srt.perm xyLe M
  have hsorted : S.Pairwise fun a b => a.x < b.x := by
    apply strict_of_sorted_nodup XY.x
    · exact (srt.sorted xyLe M xyLe_trans xyLe_total).imp fun h => by simpa [xyLe] using h
    · exact (hperm.map XY.x).nodup_iff.2 hMn
  refine ⟨S, hsorted, fun e => by rw [hperm.mem_iff, hmem], ?_⟩
  change fModelNaive srt ctx p mult = _
  have hd' : (df.hasDate && ctx.adate.isNone) = false := by
    cases h1 : df.hasDate with
    | false => rfl
    | true =>
      have := hd h1
      cases h2 : ctx.adate with
      | none => exact absurd h2 this
      | some _ => rfl
  unfold fModelNaive
  simp only [hc, Bool.false_eq_true, if_false, ha, hq, Bind.bind, Except.bind, hd', hded]
  rw [← hMdef, ← hSdef]
  congr 2
  rw [ffill_shift, bfill_prevs, zip_prevs XY.x XY.y S hsorted, List.map_map]
  have hz : S.zip (S.map ((fun v => v <|> firstFill (S.map XY.y)) ∘ fun e => lastBelow XY.x XY.y S e.x)) =
      S.map fun e => (e, lastBelow XY.x XY.y S e.x <|> firstFill (S.map XY.y)) := by
    rw [List.zip_map_right]
    have : S.zip S = S.map fun e => (e, e) := by
      clear_value S
      clear hperm hsorted hSdef
      induction S with
      | nil => rfl
      | cons a S ih => simp [ih]
    rw [this, List.map_map]
    rfl
  rw [hz, List.filter_map, List.map_map]
  have hf := filter_mem_eq (S.map XY.x) ctx.ax (by rw [List.pairwise_map]; exact hsorted) hax (by
    intro x hx
    rw [List.mem_map]
    by_cases hr : ∃ r ∈ df.rows, (r.x : K) = x
    · obtain ⟨r, hr, e⟩ := hr
      exact ⟨⟨(r.x : K), r.y⟩, hperm.mem_iff.2 ((hmem _).2 (.inl ⟨r, hr, rfl⟩)), e⟩
    · push_neg at hr
      exact ⟨⟨x, none⟩, hperm.mem_iff.2 ((hmem _).2 (.inr ⟨x, hx, hr, rfl⟩)), rfl⟩)
  rw [List.filter_map] at hf
  conv_rhs => rw [← hf]
  rw [List.map_map]
  rfl

/-- The points handed to a model and the actuals agree on dates: equal x means equal date. -/
def Spec.Consistent (ctx : Ctx K) (df : Frame K) : Prop :=
  (∀ ds, ctx.adate = some ds → ds.length = ctx.ax.length) ∧
  (df.hasDate = true → ∃ ds, ctx.adate = some ds ∧ ∀ (i : Nat) (x : K) (d : Timestamp), ctx.ax[i]? = some x → ds[i]? = some d →
    ∀ r ∈ df.rows, (r.x : K) = x → r.date = d)

theorem queries_ok (ctx : Ctx K) (df : Frame K) (h : Spec.Consistent ctx df) : ∃ qs, queries ctx = .ok qs ∧ qs.map Query.x = ctx.ax ∧
    (df.hasDate = true → ctx.adate ≠ none) ∧ ∀ r ∈ df.rows, ∀ q ∈ qs, (r.x : K) = q.x → joins df.hasDate r q = true := by
  obtain ⟨h1, h2⟩ := h
  cases hd : ctx.adate with
  | none =>
    have hf : df.hasDate = false := by
      rw [Bool.eq_false_iff]
      intro h
      obtain ⟨ds, e, -⟩ := h2 h
      rw [hd] at e; cases e
    refine ⟨ctx.ax.map fun x => ⟨x, none⟩, by simp [queries, hd], by simp [Function.comp_def], by simp [hf], ?_⟩
    intro r _ q _ e
    simp [joins, hf, e]
  | some ds =>
    have hl := h1 ds hd
    refine ⟨List.zipWith (fun x d => ⟨x, some d⟩) ctx.ax ds, by simp [queries, hd, hl], ?_, by simp, ?_⟩
    · apply List.ext_getElem
      · simp [hl]
      · intro i h1 h2; simp
    · intro r hr q hq e
      obtain ⟨i, hi, rfl⟩ := List.mem_iff_getElem.1 hq
      simp only [List.length_zipWith] at hi
      simp only [List.getElem_zipWith] at e ⊢
      simp only [joins, e, decide_true, Bool.true_and, Bool.or_eq_true, Bool.not_eq_true', decide_eq_true_eq]
      cases hf : df.hasDate with
      | false => simp
      | true =>
        right
        obtain ⟨ds', e', h3⟩ := h2 hf
        rw [hd] at e'
        cases e'
        rw [h3 i _ _ (List.getElem?_eq_getElem (by omega)) (List.getElem?_eq_getElem (by omega)) r hr e]

/-- **C37.** At every requested point the naive model predicts the last non-null actual strictly before it; where there is none, it
predicts the first non-null actual or nothing. -/
theorem C37_naive [IsStrictOrderedRing K] (srt : SortAlg) (ctx : Ctx K) (df : Frame K) (p : Params K) (mult : Bool)
    (hc : ctx.hasCache = false) (ha : ctx.actuals = some df) (hcons : Spec.Consistent ctx df)
    (hax : ctx.ax.Pairwise (· < ·)) (hrows : (df.rows.map Row.x).Nodup) :
    ∃ out, (modelNaive srt).fModel ctx p mult = .ok (.vec out) ∧ out.length = ctx.ax.length ∧
      ∀ (i : Nat) (x : K), ctx.ax[i]? = some x →
        (∀ v, LastBefore df.rows x v → out[i]? = some (some v)) ∧
        ((¬ ∃ v, LastBefore df.rows x v) → out[i]? = some none ∨ ∃ v, FirstValue df.rows v ∧ out[i]? = some (some v)) := by
  obtain ⟨qs, hq, hqx, hd, hj⟩ := queries_ok ctx df hcons
  obtain ⟨S, hS, hmem, hev⟩ := naive_eval srt ctx df p mult qs hq hc ha hd hax hqx hrows hj
  have hlast : ∀ x v, lastBelow XY.x XY.y S x = some v ↔ LastBefore df.rows x v := by
    intro x v
    rw [lastBelow_some _ _ _ hS]
    constructor
    · rintro ⟨e, he, h1, h2, h3⟩
      rcases (hmem e).1 he with ⟨r, hr, rfl⟩ | ⟨x', _, _, rfl⟩
      · refine ⟨r, hr, h1, h2, fun r' hr' hn hlt => ?_⟩
        have : (r'.x : K) ≤ (r.x : K) := h3 ⟨(r'.x : K), r'.y⟩ ((hmem _).2 (.inl ⟨r', hr', rfl⟩)) hn hlt
        exact_mod_cast this
      · cases h1
    · rintro ⟨r, hr, h1, h2, h3⟩
      refine ⟨⟨(r.x : K), r.y⟩, (hmem _).2 (.inl ⟨r, hr, rfl⟩), h1, h2, ?_⟩
      intro e' he' hn hlt
      rcases (hmem e').1 he' with ⟨r', hr', rfl⟩ | ⟨x', _, _, rfl⟩
      · have := h3 r' hr' hn hlt
        change (r'.x : K) ≤ (r.x : K)
        exact_mod_cast this
      · exact absurd rfl hn
  refine ⟨_, hev, by simp, ?_⟩
  intro i x hx
  simp only [List.getElem?_map, hx, Option.map_some]
  constructor
  · intro v hv
    rw [(hlast x v).2 hv]; rfl
  · intro hno
    have : lastBelow XY.x XY.y S x = none := by
      cases h : lastBelow XY.x XY.y S x with
      | none => rfl
      | some v => exact absurd ⟨v, (hlast x v).1 h⟩ hno
    rw [this]
    cases hf : firstFill (S.map XY.y) with
    | none => left; rfl
    | some v =>
      right
      refine ⟨v, ?_, rfl⟩
      rw [firstFill_eq, ← List.map_dropLast, List.filterMap_map] at hf
      -- first non-null row of S
      have aux : ∀ (l : List (XY K)), l.Pairwise (fun a b => a.x < b.x) → (l.filterMap (id ∘ XY.y)).head? = some v →
          ∃ e ∈ l, e.y = some v ∧ ∀ e' ∈ l, e'.y ≠ none → e.x ≤ e'.x := by
        intro l
        induction l with
        | nil => intro _ h; simp at h
        | cons a l ih =>
          intro hl h
          rw [List.pairwise_cons] at hl
          cases hy : a.y with
          | none =>
            rw [List.filterMap_cons_none (by simp [hy])] at h
            obtain ⟨e, he, h1, h2⟩ := ih hl.2 h
            refine ⟨e, by simp [he], h1, fun e' he' hn => ?_⟩
            rcases List.mem_cons.1 he' with rfl | he'
            · exact absurd hy hn
            · exact h2 e' he' hn
          | some b =>
            rw [List.filterMap_cons_some (by simp [hy]; rfl)] at h
            simp only [List.head?_cons, Option.some.injEq] at h
            refine ⟨a, by simp, by rw [hy, h], fun e' he' _ => ?_⟩
            rcases List.mem_cons.1 he' with rfl | he'
            · exact le_rfl
            · exact (hl.1 e' he').le
      obtain ⟨e, he, h1, h2⟩ := aux S.dropLast (hS.sublist (List.dropLast_sublist S)) hf
      have heS : e ∈ S := (List.dropLast_sublist S).subset he
      rcases (hmem e).1 heS with ⟨r, hr, rfl⟩ | ⟨x', _, _, rfl⟩
      · refine ⟨r, hr, h1, ?_⟩
        intro r' hr' hn
        have hr'S : (⟨(r'.x : K), r'.y⟩ : XY K) ∈ S := (hmem _).2 (.inl ⟨r', hr', rfl⟩)
        have hle : (r.x : K) ≤ (r'.x : K) := by
          by_cases hin : (⟨(r'.x : K), r'.y⟩ : XY K) ∈ S.dropLast
          · exact h2 _ hin hn
          · have hne : S ≠ [] := by rintro rfl; simp at heS
            rw [← List.dropLast_append_getLast hne] at hr'S hS
            rw [List.mem_append] at hr'S
            rcases hr'S with h | h
            · exact absurd h hin
            · simp only [List.mem_singleton] at h
              have := (List.pairwise_append.1 hS).2.2 _ he _ (List.mem_singleton.2 h)
              exact this.le
        exact_mod_cast hle
      · cases h1

/-- **C37, future.** Beyond the actuals the naive forecast is the last non-null actual. -/
theorem C37_future [IsStrictOrderedRing K] (srt : SortAlg) (ctx : Ctx K) (df : Frame K) (p : Params K) (mult : Bool)
    (hc : ctx.hasCache = false) (ha : ctx.actuals = some df) (hcons : Spec.Consistent ctx df)
    (hax : ctx.ax.Pairwise (· < ·)) (hrows : (df.rows.map Row.x).Nodup) (r : Row K) (v : K) (hr : r ∈ df.rows) (hv : r.y = some v)
    (hlast : ∀ r' ∈ df.rows, r'.y ≠ none → r'.x ≤ r.x) (i : Nat) (x : K) (hx : ctx.ax[i]? = some x) (hfut : ∀ r' ∈ df.rows, (r'.x : K) < x) :
    ∃ out, (modelNaive srt).fModel ctx p mult = .ok (.vec out) ∧ out[i]? = some (some v) := by
  obtain ⟨out, h1, _, h2⟩ := C37_naive srt ctx df p mult hc ha hcons hax hrows
  exact ⟨out, h1, (h2 i x hx).1 v ⟨r, hr, hv, hfut r hr, fun r' hr' hn _ => hlast r' hr' hn⟩⟩

/-- **C37, no look-ahead.** Changing actuals at or after a point that has an actual value before it does not change the prediction there. -/
theorem C37_no_lookahead [IsStrictOrderedRing K] (srt srt' : SortAlg) (ctx : Ctx K) (df df' : Frame K) (p : Params K) (mult : Bool)
    (hc : ctx.hasCache = false) (hcons : Spec.Consistent ctx df) (hcons' : Spec.Consistent ctx df')
    (hax : ctx.ax.Pairwise (· < ·)) (hrows : (df.rows.map Row.x).Nodup) (hrows' : (df'.rows.map Row.x).Nodup) (i : Nat) (x : K)
    (hx : ctx.ax[i]? = some x) (hsame : ∀ r, (r.x : K) < x → (r ∈ df.rows ↔ r ∈ df'.rows))
    (hval : ∃ r ∈ df.rows, (r.x : K) < x ∧ r.y ≠ none) :
    ∃ out out' v, (modelNaive srt).fModel { ctx with actuals := some df } p mult = .ok (.vec out) ∧
      (modelNaive srt').fModel { ctx with actuals := some df' } p mult = .ok (.vec out') ∧ out[i]? = some (some v) ∧ out'[i]? = some (some v) := by
  obtain ⟨out, h1, _, h2⟩ := C37_naive srt { ctx with actuals := some df } df p mult hc rfl hcons hax hrows
  obtain ⟨out', h1', _, h2'⟩ := C37_naive srt' { ctx with actuals := some df' } df' p mult hc rfl hcons' hax hrows'
  -- the last value before x
  have hex : ∃ v, LastBefore df.rows x v := by
    obtain ⟨r0, hr0, hlt0, hy0⟩ := hval
    have hne : (df.rows.filter fun r => decide ((r.x : K) < x) && r.y.isSome).map Row.x ≠ [] := by
      intro e
      rw [List.map_eq_nil_iff, List.filter_eq_nil_iff] at e
      apply e r0 hr0
      simp [hlt0, Option.isSome_iff_ne_none, hy0]
    cases hm : listMax ((df.rows.filter fun r => decide ((r.x : K) < x) && r.y.isSome).map Row.x) with
    | none => exact absurd ((listMax_none _).1 hm) hne
    | some m =>
      obtain ⟨h3, h4⟩ := (listMax_some _ _).1 hm
      obtain ⟨r, hr, rfl⟩ := List.mem_map.1 h3
      rw [List.mem_filter, Bool.and_eq_true, decide_eq_true_eq] at hr
      obtain ⟨v, hv⟩ := Option.isSome_iff_exists.1 hr.2.2
      refine ⟨v, r, hr.1, hv, hr.2.1, fun r' hr' hn hlt => h4 _ (List.mem_map.2 ⟨r', ?_, rfl⟩)⟩
      rw [List.mem_filter, Bool.and_eq_true, decide_eq_true_eq]
      exact ⟨hr', hlt, Option.isSome_iff_ne_none.2 hn⟩
  obtain ⟨v, hv⟩ := hex
  have hv' : LastBefore df'.rows x v := by
    obtain ⟨r, hr, e1, e2, e3⟩ := hv
    exact ⟨r, (hsame r e2).1 hr, e1, e2, fun r' hr' hn hlt => e3 r' ((hsame r' hlt).2 hr') hn hlt⟩
  exact ⟨out, out', v, h1, h1', (h2 i x hx).1 v hv, (h2' i x hx).1 v hv'⟩

/-! ### C38 -/

theorem wdayRowLe_trans (a b c : WdayRow K) (h1 : wdayRowLe a b) (h2 : wdayRowLe b c) : wdayRowLe a c := by
  simp only [wdayRowLe, decide_eq_true_eq] at *; exact h1.trans h2
theorem wdayRowLe_total (a b : WdayRow K) : (wdayRowLe a b || wdayRowLe b a) = true := by
  simp only [wdayRowLe, Bool.or_eq_true, decide_eq_true_eq]; exact le_total _ _
theorem pointLe_trans (a b c : PointOut K) (h1 : pointLe a b) (h2 : pointLe b c) : pointLe a c := by
  simp only [pointLe, decide_eq_true_eq] at *; exact h1.trans h2
theorem pointLe_total (a b : PointOut K) : (pointLe a b || pointLe b a) = true := by
  simp only [pointLe, Bool.or_eq_true, decide_eq_true_eq]; exact le_total _ _

/-- The rows on a weekday. -/
def onWday (rows : List (Row K)) (w : Int) : List (Row K) := rows.filter fun r => decide (weekday r.date = w)

/-- Value of the last non-null row on the same weekday before x. -/
def wdayValue (rows : List (Row K)) (w : Int) (x : Int) : Option K := lastBelow Row.x Row.y (onWday rows w) x

theorem zipWith_self_map {α β : Type} (f : α → α → β) (l : List α) : List.zipWith f l l = l.map fun a => f a a := by
  induction l with
  | nil => rfl
  | cons a l ih => simp only [List.zipWith_cons_cons, List.map_cons, ih]

theorem addYOut_eq (l : List (Row K)) (h : l.Pairwise fun a b => a.x < b.x) :
    addYOut l = l.map fun r => ⟨r, lastBelow Row.x Row.y l r.x⟩ := by
  unfold addYOut
  rw [ffill_shift, zip_prevs Row.x Row.y l h, List.zipWith_map_right]
  exact zipWith_self_map _ _

theorem weekday_mem (d : Timestamp) : ∃ w : Nat, w < 7 ∧ weekday d = (w : Int) := by
  have h : 0 ≤ weekday d ∧ weekday d < 7 := by unfold weekday weekdayOfDay; omega
  exact ⟨(weekday d).toNat, by omega, by omega⟩

theorem fillnaWday_eq (srt : SortAlg) (rows : List (Row K)) (h : rows.Pairwise fun a b => a.x < b.x) :
    fillnaWday srt rows = rows.map fun r => ⟨r, wdayValue rows (weekday r.date) r.x⟩ := by
  unfold fillnaWday
  set L := (List.range 7).flatMap fun w : Nat => addYOut (rows.filter fun r => decide (weekday r.date = (w : Int))) with hL
  have hperm : L.Perm (rows.map fun r => ⟨r, wdayValue rows (weekday r.date) r.x⟩) := by
    have e : L = ((List.range 7).flatMap fun w : Nat => rows.filter fun r => decide ((weekday r.date).toNat = w)).map
        fun r => (⟨r, wdayValue rows (weekday r.date) r.x⟩ : WdayRow K) := by
      rw [hL, List.map_flatMap]
      apply List.flatMap_congr
      intro w _
      rw [addYOut_eq _ (h.filter _)]
      have hf : (rows.filter fun r => decide (weekday r.date = (w : Int))) = rows.filter fun r => decide ((weekday r.date).toNat = w) := by
        apply List.filter_congr
        intro r _
        obtain ⟨k, _, hk⟩ := weekday_mem r.date
        rw [hk]
        simp
      rw [← hf]
      apply List.map_congr_left
      intro r hr
      have hw : weekday r.date = (w : Int) := by simpa using (List.mem_filter.1 hr).2
      simp only [wdayValue, onWday, hw]
    rw [e]
    apply List.Perm.map
    refine (flatMap_filter_perm (fun r : Row K => (weekday r.date).toNat) (List.range 7) List.nodup_range rows).trans (List.Perm.of_eq ?_)
    rw [List.filter_eq_self]
    intro r _
    obtain ⟨k, hk, e⟩ := weekday_mem r.date
    simp [e, hk]
  apply eq_of_perm_strict (fun r : WdayRow K => r.row.x)
  · exact (srt.perm _ _).trans hperm
  · apply strict_of_sorted_nodup
    · exact (srt.sorted wdayRowLe L wdayRowLe_trans wdayRowLe_total).imp fun h => by simpa [wdayRowLe] using h
    · rw [(((srt.perm wdayRowLe L).trans hperm).map _).nodup_iff, List.map_map, List.nodup_iff_pairwise_ne]
      rw [List.pairwise_map]
      exact h.imp fun h => h.ne
  · rw [List.pairwise_map]; exact h

/-- The last non-null actual of a weekday, anywhere before `x`. -/
theorem lastWeek_eq (rows : List (Row K)) (h : rows.Pairwise fun a b => a.x < b.x) (w x : Int) (hx : ∀ r ∈ rows, r.x < x) :
    lastWeek (rows.map fun r => ⟨r, wdayValue rows (weekday r.date) r.x⟩) w = wdayValue rows w x := by
  unfold lastWeek
  rw [List.filter_map]
  have hcomp : ((fun r : WdayRow K => decide (weekday r.row.date = w)) ∘ fun r : Row K => (⟨r, wdayValue rows (weekday r.date) r.x⟩ : WdayRow K)) =
      fun r : Row K => decide (weekday r.date = w) := rfl
  rw [hcomp, List.getLast?_map]
  rw [show (rows.filter fun r : Row K => decide (weekday r.date = w)) = onWday rows w from rfl]
  have hp : (onWday rows w).Pairwise fun a b => a.x < b.x := h.filter _
  have hall : ∀ r ∈ onWday rows w, r.x < x := fun r hr => hx r (List.mem_filter.1 hr).1
  have hwd : ∀ r ∈ onWday rows w, weekday r.date = w := fun r hr => by simpa using (List.mem_filter.1 hr).2
  have hfull : wdayValue rows w x = lastSome none ((onWday rows w).map Row.y) := by
    unfold wdayValue lastBelow
    congr 2
    rw [List.filter_eq_self]
    intro r hr
    simpa using hall r hr
  rw [hfull]
  rcases List.eq_nil_or_concat (onWday rows w) with e | ⟨l, a, e⟩
  · rw [e]; rfl
  · rw [List.concat_eq_append] at e
    have ha : a ∈ onWday rows w := by rw [e]; simp
    have hval : wdayValue rows (weekday a.date) a.x = lastSome none (l.map Row.y) := by
      rw [hwd a ha]
      unfold wdayValue lastBelow
      congr 2
      rw [e] at hp
      have hp' := List.pairwise_append.1 hp
      rw [e, List.filter_append, List.filter_singleton]
      simp only [lt_irrefl, decide_false, cond_false, List.append_nil]
      rw [List.filter_eq_self]
      intro r hr
      simpa using hp'.2.2 r hr a (by simp)
    rw [e]
    simp only [List.getLast?_append, List.getLast?_singleton, Option.some_or, Option.map_some, hval]
    simp only [List.map_append, List.map_cons, List.map_nil, lastSome, List.foldl_append, List.foldl_cons, List.foldl_nil]

/-- `v` is the last non-null observation on the weekday of `d` with x below `x`. -/
def Spec.LastSameWeekday (rows : List (Row K)) (d : Timestamp) (x v : K) : Prop :=
  LastBefore (rows.filter fun r => decide (weekday r.date = weekday d)) x v

/-- A requested point is an actual sample, or lies after all of them. -/
def Spec.SampleOrFuture (rows : List (Row K)) (x : K) (d : Timestamp) : Prop :=
  (∃ r ∈ rows, (r.x : K) = x ∧ r.date = d) ∨ (∀ r ∈ rows, (r.x : K) < x ∧ r.date ≠ d)

theorem wdayValue_some [IsStrictOrderedRing K] (rows : List (Row K)) (h : rows.Pairwise fun a b => a.x < b.x) (d : Timestamp) (x : Int) (v : K) :
    wdayValue rows (weekday d) x = some v ↔ Spec.LastSameWeekday rows d (x : K) v := by
  unfold wdayValue Spec.LastSameWeekday LastBefore onWday
  rw [lastBelow_some Row.x Row.y _ (h.filter _)]
  simp only [Int.cast_lt]

/-- Values of the seasonal naive model at the requested points. -/
def snaiveValue (rows : List (Row K)) (p : K × Timestamp) : Option K :=
  lastSome none (((onWday rows (weekday p.2)).filter fun r => decide ((r.x : K) < p.1)).map Row.y)

theorem snaiveValue_some [IsStrictOrderedRing K] (rows : List (Row K)) (h : rows.Pairwise fun a b => a.x < b.x) (p : K × Timestamp) (v : K) :
    snaiveValue rows p = some v ↔ Spec.LastSameWeekday rows p.2 p.1 v := by
  unfold snaiveValue Spec.LastSameWeekday LastBefore onWday
  rw [lastSome_some Row.x Row.y _ ((h.filter _).filter _)]
  simp only [List.mem_filter, decide_eq_true_eq]
  constructor
  · rintro ⟨e, ⟨⟨h1, h2⟩, h3⟩, h4, h5⟩
    exact ⟨e, ⟨h1, h2⟩, h4, h3, fun r' hr' hn hlt => h5 r' ⟨hr', hlt⟩ hn⟩
  · rintro ⟨e, h1, h4, h3, h5⟩
    exact ⟨e, ⟨h1, h3⟩, h4, fun r' hr' hn => h5 r' hr'.1 hn hr'.2⟩

theorem snaive_eval [IsStrictOrderedRing K] (srt : SortAlg) (ctx : Ctx K) (df : Frame K) (ds : List Timestamp) (p : Params K) (mult : Bool)
    (hc : ctx.hasCache = false) (ha : ctx.actuals = some df) (hd : df.hasDate = true) (hds : ctx.adate = some ds)
    (hl : ds.length = ctx.ax.length) (hax : ctx.ax.Pairwise (· < ·)) (hrows : df.rows.Pairwise fun a b => a.x < b.x)
    (hpts : ∀ e ∈ ctx.ax.zip ds, Spec.SampleOrFuture df.rows e.1 e.2) :
    (modelSnaiveWday srt).fModel ctx p mult = .ok (.vec ((ctx.ax.zip ds).map (snaiveValue df.rows))) := by
  have hded : dedupBy Row.x df.rows = df.rows := dedupBy_of_nodup _ _ (hrows.imp fun h => h.ne)
  change fModelSnaiveWday srt ctx p mult = _
  unfold fModelSnaiveWday
  simp only [hc, Bool.false_eq_true, if_false, ha, hd, Bool.not_true, hds, hl, ne_eq, not_true, hded]
  rw [fillnaWday_eq srt df.rows hrows]
  congr 2
  set rows := df.rows with hrowsdef
  set pts := ctx.ax.zip ds with hptsdef
  have hps : pts.Pairwise fun a b => a.1 < b.1 := by
    have : (pts.map Prod.fst).Pairwise (· < ·) := by
      rw [hptsdef, List.map_fst_zip (by omega)]; exact hax
    rwa [List.pairwise_map] at this
  -- classification of the points
  let isS : K × Timestamp → Bool := fun e => rows.any fun r => decide (r.date = e.2)
  have hS : ∀ e ∈ pts, isS e = true → ∃ r ∈ rows, (r.x : K) = e.1 ∧ r.date = e.2 := by
    intro e he hs
    rcases hpts e he with h | h
    · exact h
    · exfalso
      obtain ⟨r, hr, e'⟩ := List.any_eq_true.1 hs
      exact (h r hr).2 (by simpa using e')
  have hF : ∀ e ∈ pts, isS e = false → ∀ r ∈ rows, (r.x : K) < e.1 := by
    intro e he hs
    rcases hpts e he with ⟨r, hr, _, h2⟩ | h
    · exfalso
      rw [Bool.eq_false_iff] at hs
      exact hs (List.any_eq_true.2 ⟨r, hr, by simpa using h2⟩)
    · exact fun r hr => (h r hr).1
  have hsplit : pts = pts.filter isS ++ pts.filter fun e => !isS e := by
    have gen : ∀ l : List (K × Timestamp), (∀ e ∈ l, e ∈ pts) → (l.Pairwise fun a b => a.1 < b.1) →
        l = l.filter isS ++ l.filter fun e => !isS e := by
      intro l
      induction l with
      | nil => intros; rfl
      | cons a l ih =>
        intro hm hp
        rw [List.pairwise_cons] at hp
        have ih := ih (fun e he => hm e (by simp [he])) hp.2
        cases hs : isS a with
        | true =>
          rw [List.filter_cons_of_pos hs, List.filter_cons_of_neg (by simp [hs]), List.cons_append]
          congr 1
        | false =>
          have hnone : l.filter isS = [] := by
            rw [List.filter_eq_nil_iff]
            intro b hb hsb
            obtain ⟨r, hr, h1, _⟩ := hS b (hm b (by simp [hb])) hsb
            have h2 := hF a (hm a (by simp)) hs r hr
            have h3 := hp.1 b hb
            rw [h1] at h2
            exact lt_asymm h2 h3
          have hall : l.filter (fun e => !isS e) = l := by rw [hnone] at ih; exact ih.symm
          rw [List.filter_cons_of_neg (by simp [hs]), List.filter_cons_of_pos (by simp [hs]), hnone, hall]
          rfl
    exact gen pts (fun e h => h) hps
  -- points found in the actuals
  have hfound : srt.run pointLe ((rows.map fun r => (⟨r, wdayValue rows (weekday r.date) r.x⟩ : WdayRow K)).flatMap fun r =>
      (pts.filter fun p => decide (p.1 = (r.row.x : K)) && decide (p.2 = r.row.date)).map fun p => PointOut.mk p.1 r.yOut) =
      (pts.filter isS).map fun e => PointOut.mk e.1 (snaiveValue rows e) := by
    set F := (rows.map fun r => (⟨r, wdayValue rows (weekday r.date) r.x⟩ : WdayRow K)).flatMap fun r =>
      (pts.filter fun p => decide (p.1 = (r.row.x : K)) && decide (p.2 = r.row.date)).map fun p => PointOut.mk p.1 r.yOut with hFdef
    have hperm : F.Perm ((pts.filter isS).map fun e => PointOut.mk e.1 (snaiveValue rows e)) := by
      have e1 : F = ((rows.map fun r => (r.x : K)).flatMap fun k => (pts.filter isS).filter fun q => decide (q.1 = k)).map
          fun e => PointOut.mk e.1 (snaiveValue rows e) := by
        rw [hFdef, List.flatMap_map, List.map_flatMap, List.flatMap_map]
        apply List.flatMap_congr
        intro r hr
        have hfil : (pts.filter fun p => decide (p.1 = (r.x : K)) && decide (p.2 = r.date)) =
            (pts.filter isS).filter fun q => decide (q.1 = (r.x : K)) := by
          rw [List.filter_filter]
          apply List.filter_congr
          intro q hq
          rw [Bool.eq_iff_iff]
          simp only [Bool.and_eq_true, decide_eq_true_eq]
          constructor
          · rintro ⟨h1, h2⟩
            exact ⟨h1, List.any_eq_true.2 ⟨r, hr, by simpa using h2.symm⟩⟩
          · rintro ⟨h1, h2⟩
            refine ⟨h1, ?_⟩
            obtain ⟨r', hr', h3, h4⟩ := hS q hq h2
            have hxx : r'.x = r.x := by
              have : (r'.x : K) = (r.x : K) := by rw [h3, h1]
              exact_mod_cast this
            have : r' = r := by
              by_contra hne
              have hnd : (rows.map Row.x).Nodup := by
                rw [List.nodup_iff_pairwise_ne, List.pairwise_map]; exact hrows.imp fun h => h.ne
              exact hne (List.inj_on_of_nodup_map hnd hr' hr hxx)
            rw [← this]; exact h4.symm
        rw [hfil]
        apply List.map_congr_left
        intro q hq
        rw [List.mem_filter, List.mem_filter, decide_eq_true_eq] at hq
        congr 1
        obtain ⟨r', hr', h3, h4⟩ := hS q hq.1.1 hq.1.2
        have hxx : r'.x = r.x := by
          have : (r'.x : K) = (r.x : K) := by rw [h3, hq.2]
          exact_mod_cast this
        have hnd : (rows.map Row.x).Nodup := by
          rw [List.nodup_iff_pairwise_ne, List.pairwise_map]; exact hrows.imp fun h => h.ne
        have : r' = r := List.inj_on_of_nodup_map hnd hr' hr hxx
        subst this
        unfold wdayValue snaiveValue lastBelow
        rw [h4, ← h3]
        simp only [Int.cast_lt]
      rw [e1]
      apply List.Perm.map
      have hndk : (rows.map fun r => (r.x : K)).Nodup := by
        rw [List.nodup_iff_pairwise_ne, List.pairwise_map]
        exact hrows.imp fun h => by simpa using h.ne
      refine (flatMap_filter_perm (fun q : K × Timestamp => q.1) _ hndk (pts.filter isS)).trans (List.Perm.of_eq ?_)
      rw [List.filter_eq_self]
      intro q hq
      rw [List.mem_filter] at hq
      obtain ⟨r, hr, h1, _⟩ := hS q hq.1 hq.2
      simp only [decide_eq_true_eq, List.mem_map]
      exact ⟨r, hr, h1⟩
    have hstrict : ((pts.filter isS).map fun e => PointOut.mk e.1 (snaiveValue rows e)).Pairwise fun a b => a.x < b.x := by
      rw [List.pairwise_map]; exact hps.filter _
    apply eq_of_perm_strict PointOut.x _ _ ((srt.perm _ _).trans hperm) _ hstrict
    apply strict_of_sorted_nodup
    · exact (srt.sorted pointLe F pointLe_trans pointLe_total).imp fun h => by simpa [pointLe] using h
    · rw [(((srt.perm pointLe F).trans hperm).map _).nodup_iff, List.nodup_iff_pairwise_ne, List.pairwise_map]
      exact hstrict.imp fun h => h.ne
  -- points after the actuals
  have hextra : srt.run pointLe ((pts.filter fun p => !(rows.map fun r => (⟨r, wdayValue rows (weekday r.date) r.x⟩ : WdayRow K)).any
      fun r => decide (r.row.date = p.2)).map fun p =>
        PointOut.mk p.1 (lastWeek (rows.map fun r => ⟨r, wdayValue rows (weekday r.date) r.x⟩) (weekday p.2))) =
      (pts.filter fun e => !isS e).map fun e => PointOut.mk e.1 (snaiveValue rows e) := by
    have e1 : ((pts.filter fun p => !(rows.map fun r => (⟨r, wdayValue rows (weekday r.date) r.x⟩ : WdayRow K)).any
      fun r => decide (r.row.date = p.2)).map fun p =>
        PointOut.mk p.1 (lastWeek (rows.map fun r => ⟨r, wdayValue rows (weekday r.date) r.x⟩) (weekday p.2))) =
      (pts.filter fun e => !isS e).map fun e => PointOut.mk e.1 (snaiveValue rows e) := by
      have hf : (pts.filter fun p => !(rows.map fun r => (⟨r, wdayValue rows (weekday r.date) r.x⟩ : WdayRow K)).any
          fun r => decide (r.row.date = p.2)) = pts.filter fun e => !isS e := by
        apply List.filter_congr
        intro q _
        simp only [List.any_map, isS]
        rfl
      rw [hf]
      apply List.map_congr_left
      intro q hq
      rw [List.mem_filter] at hq
      have hfut := hF q hq.1 (by simpa using hq.2)
      congr 1
      -- an integer beyond all x
      obtain ⟨B, hB⟩ : ∃ B : Int, ∀ r ∈ rows, r.x < B := by
        clear * -
        induction rows with
        | nil => exact ⟨0, by simp⟩
        | cons a l ih =>
          obtain ⟨B, hB⟩ := ih
          refine ⟨max B (a.x + 1), ?_⟩
          intro r hr
          rcases List.mem_cons.1 hr with rfl | hr
          · omega
          · have := hB r hr; omega
      rw [lastWeek_eq rows hrows _ B hB]
      unfold wdayValue snaiveValue lastBelow
      congr 2
      apply List.filter_congr
      intro r hr
      have hr' := (List.mem_filter.1 hr).1
      simp [hB r hr', hfut r hr']
    rw [e1]
    set E := (pts.filter fun e => !isS e).map fun e => PointOut.mk e.1 (snaiveValue rows e)
    have hstrict : E.Pairwise fun a b => a.x < b.x := by
      rw [List.pairwise_map]; exact hps.filter _
    apply eq_of_perm_strict PointOut.x _ _ (srt.perm _ _) _ hstrict
    apply strict_of_sorted_nodup
    · exact (srt.sorted pointLe E pointLe_trans pointLe_total).imp fun h => by simpa [pointLe] using h
    · rw [((srt.perm pointLe E).map _).nodup_iff, List.nodup_iff_pairwise_ne, List.pairwise_map]
      exact hstrict.imp fun h => h.ne
  rw [hfound, hextra, ← List.map_append, ← hsplit, List.map_map]
  rfl

/-- **C38.** At every requested point that is an actual sample or lies after the actuals, the seasonal naive model predicts the last
non-null actual on the same weekday strictly before it, and nothing if there is none. -/
theorem C38_seasonal_naive [IsStrictOrderedRing K] (srt : SortAlg) (ctx : Ctx K) (df : Frame K) (ds : List Timestamp) (p : Params K) (mult : Bool)
    (hc : ctx.hasCache = false) (ha : ctx.actuals = some df) (hd : df.hasDate = true) (hds : ctx.adate = some ds)
    (hl : ds.length = ctx.ax.length) (hax : ctx.ax.Pairwise (· < ·)) (hrows : df.rows.Pairwise fun a b => a.x < b.x)
    (hpts : ∀ e ∈ ctx.ax.zip ds, Spec.SampleOrFuture df.rows e.1 e.2) :
    ∃ out, (modelSnaiveWday srt).fModel ctx p mult = .ok (.vec out) ∧ out.length = ctx.ax.length ∧
      ∀ (i : Nat) (x : K) (d : Timestamp), ctx.ax[i]? = some x → ds[i]? = some d →
        (∀ v, Spec.LastSameWeekday df.rows d x v → out[i]? = some (some v)) ∧
        ((¬ ∃ v, Spec.LastSameWeekday df.rows d x v) → out[i]? = some none) := by
  refine ⟨_, snaive_eval srt ctx df ds p mult hc ha hd hds hl hax hrows hpts, by simp [hl], ?_⟩
  intro i x d hx hdd
  have hz : (ctx.ax.zip ds)[i]? = some (x, d) := by
    rw [List.getElem?_zip_eq_some]; exact ⟨hx, hdd⟩
  simp only [List.getElem?_map, hz, Option.map_some]
  constructor
  · intro v hv
    rw [(snaiveValue_some df.rows hrows (x, d) v).2 hv]
  · intro hno
    cases h : snaiveValue df.rows (x, d) with
    | none => rfl
    | some v => exact absurd ⟨v, (snaiveValue_some df.rows hrows (x, d) v).1 h⟩ hno

end

/-! ### Examples and limits -/

/-- Actuals with a gap in y at x = 2. -/
def naiveFrame : Frame ℚ := ⟨true, false, [⟨0, 0, some 5, none⟩, ⟨DAY, 1, some 7, none⟩, ⟨2 * DAY, 2, none, none⟩, ⟨3 * DAY, 3, some 8, none⟩]⟩
def naiveCtx : Ctx ℚ := { ax := [0, 1, 2, 3, 4, 5], adate := some [0, DAY, 2 * DAY, 3 * DAY, 4 * DAY, 5 * DAY], actuals := some naiveFrame }

example : (modelNaive stableSort).fModel naiveCtx none false = .ok (.vec [some 5, some 5, some 7, some 7, some 8, some 8]) := by
  decide +kernel
example : naiveCtx.ax.Pairwise (· < ·) ∧ (naiveFrame.rows.map Row.x).Nodup := by decide +kernel
example : LastBefore naiveFrame.rows 3 7 := by
  refine ⟨⟨DAY, 1, some 7, none⟩, by simp [naiveFrame], rfl, by norm_num, ?_⟩
  intro r hr
  simp only [naiveFrame, List.mem_cons, List.not_mem_nil, or_false] at hr
  rcases hr with rfl | rfl | rfl | rfl <;> simp

example : (modelSnaiveWday stableSort).fModel
    { ax := [0, 1, 7, 8, 9, 14], adate := some [0, DAY, 7 * DAY, 8 * DAY, 9 * DAY, 14 * DAY],
      actuals := some (⟨true, false, [⟨0, 0, some 5, none⟩, ⟨DAY, 1, some 6, none⟩, ⟨7 * DAY, 7, some 9, none⟩]⟩ : Frame ℚ) } none false =
    .ok (.vec [none, none, some 5, some 6, none, some 9]) := by decide +kernel

/-- With several samples at one x the naive model predicts a sample by another sample at the same x. -/
theorem C37_counterexample_repeated_x :
    (modelNaive stableSort).fModel
    { ax := [0, 1, 1], adate := none,
      actuals := some (⟨false, false, [⟨0, 0, some 5, none⟩, ⟨0, 1, some 7, none⟩, ⟨0, 1, some 9, none⟩]⟩ : Frame ℚ) } none false =
    .ok (.vec [some 5, some 5, some 7]) := by decide +kernel

/-- **C37, C38** Dates and positions of different number are rejected by both naive models. -/
theorem C37_mismatch {K : Type} [Field K] [LinearOrder K] (srt : SortAlg) (ctx : Ctx K) (p : Params K) (mult : Bool) (df : Frame K) (ds : List Int)
    (hc : ctx.hasCache = false) (ha : ctx.actuals = some df) (hdf : df.hasDate = true) (hd : ctx.adate = some ds) (hl : ds.length ≠ ctx.ax.length) :
    (modelNaive srt).fModel ctx p mult = .error .valueError ∧ (modelSnaiveWday srt).fModel ctx p mult = .error .valueError := by
  constructor
  · change fModelNaive srt ctx p mult = _
    simp [fModelNaive, hc, ha, queries, hd, hl, Bind.bind, Except.bind]
  · change fModelSnaiveWday srt ctx p mult = _
    simp [fModelSnaiveWday, hc, ha, hd, hl, hdf]

/-- If dates inside the range of the actuals are missing from them, the seasonal naive model returns its values in another order than
requested: the value for day 9 is returned at the position of day 2. -/
theorem C38_counterexample_gap :
    (modelSnaiveWday stableSort).fModel
    { ax := [0, 1, 9], adate := some [0, DAY, 9 * DAY],
      actuals := some (⟨true, false, [⟨0, 0, some 1, none⟩, ⟨2 * DAY, 2, some 3, none⟩, ⟨9 * DAY, 9, some 5, none⟩]⟩ : Frame ℚ) } none false =
    .ok (.vec [none, some 3, none]) := by decide +kernel

/-- The naive models cannot be evaluated with cache variables, which a fit passes whenever the composite has a cached component. -/
theorem C37_no_cache {K : Type} [Field K] [LinearOrder K] (srt : SortAlg) (ctx : Ctx K) (p : Params K) (mult : Bool) (h : ctx.hasCache = true) :
    (modelNaive srt).fModel ctx p mult = .error .typeError ∧ (modelSnaiveWday srt).fModel ctx p mult = .error .typeError := by
  constructor
  · change fModelNaive srt ctx p mult = _
    simp [fModelNaive, h]
  · change fModelSnaiveWday srt ctx p mult = _
    simp [fModelSnaiveWday, h]

end Anticipy
