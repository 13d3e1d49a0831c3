import Verif.Props.RowOrder
import Verif.Props.Sources
import Verif.Spec.TableSeries
import Verif.Spec.Balance

/-
The series that a run works on, for tables as a user supplies them: dates without x, one row per date and source, all at the same time of day, in any
order, with or without sources.
-/
namespace Anticipy
open Spec
variable {K : Type} [Field K] [LinearOrder K] [FloorRing K]

/-- A series with coordinates that count days, in order. -/
structure DatedSeries (df : Frame K) (t0 : Timestamp) : Prop where
  dated : df.hasDate = true
  days : CountsDays df t0
  sorted : df.rows.Pairwise fun a b => a.x < b.x

omit [Field K] [LinearOrder K] [FloorRing K] in
theorem DatedSeries.nodup {df : Frame K} {t0 : Timestamp} (h : DatedSeries df t0) : (df.rows.map Row.x).Nodup := by
  rw [List.Nodup, List.pairwise_map]
  exact h.sorted.imp fun h => ne_of_lt h

omit [Field K] [LinearOrder K] [FloorRing K] in
theorem only_labelled (t : STable K) (hs : t.hasSource = true) (s : String) : (sourcePart (labelled t.hasSource t.rows) (some s)) = (only s t).rows := by
  unfold sourcePart labelled only
  rw [hs]
  simp only [List.filter_filter]
  apply List.filter_congr
  intro r _
  rw [Bool.eq_iff_iff]
  simp
  rintro h
  simp [h]

/-- One source of a table. -/
theorem series_source (w : World K) (id : String) (t : STable K) (hs : t.hasSource = true) (hone : OnePerDate t)
    (hl : ∀ r ∈ t.rows, r.source ≠ none) (s : String) (hm : ∃ r ∈ t.rows, r.source = some s) :
    ∃ df, DatedSeries df (baseIn t (some s)) ∧ (∀ args, runForecast w args id (only s t) = (runSingle w args s df).map some) ∧ df.hasWeight = t.hasWeight ∧
      (df.rows.map fun r => (r.date, r.y, r.weight)).Perm ((only s t).rows.map fun r => (r.date, r.y, r.weight)) := by
  obtain ⟨out, hn⟩ := (C26_returns w.srt t).2 (by obtain ⟨r, hr, -⟩ := hm; exact List.ne_nil_of_mem hr) (.inl fun _ => hl)
  obtain ⟨hp, -, -, hod, hso, hwo⟩ := C26_samples w.srt t out hn
  obtain ⟨hdays, hlt⟩ := series_base w.srt t out hone hn s
  have hpart : seriesPart out s = sourcePart out.rows (some s) := by
    unfold seriesPart
    rw [hso, hs]
    rfl
  rw [hpart] at hdays hlt
  have hps : (samples (sourcePart out.rows (some s))).Perm (samples (only s t).rows) := by
    rw [← only_labelled t hs s]
    have e : ∀ l : List (SRow K), samples (sourcePart l (some s)) = (samples l).filter fun e => decide (e.2.1 = some s) := by
      intro l
      unfold samples sourcePart
      rw [List.filter_map]
      congr 1
      apply List.filter_congr
      intro r _
      simp
    rw [e, e]
    exact hp.filter _
  refine ⟨frameOf out (sourcePart out.rows (some s)), ⟨hod.trans hone.hasDate, ?_, ?_⟩, fun args => runForecast_only w args id t out hs hn s hm, hwo, ?_⟩
  · intro q hq
    obtain ⟨q0, h0, rfl⟩ := List.mem_map.1 hq
    exact hdays q0 h0
  · exact List.pairwise_map.2 hlt
  · have := hps.map fun r : Timestamp × Option String × Option K × Option K => (r.1, r.2.2.1, r.2.2.2)
    unfold samples at this
    rw [List.map_map, List.map_map] at this
    unfold frameOf
    rw [List.map_map]
    exact this

/-- A table without sources. -/
theorem series_table (w : World K) (id : String) (t : STable K) (hs : t.hasSource = false) (hone : OnePerDate t) (hne : t.rows ≠ []) :
    ∃ df, DatedSeries df (baseOf t.rows) ∧ (∀ args, runForecast w args id t = (runSingle w args id df).map some) ∧ df.hasWeight = t.hasWeight ∧
      (df.rows.map fun r => (r.date, r.y, r.weight)).Perm (t.rows.map fun r => (r.date, r.y, r.weight)) := by
  obtain ⟨out, hn⟩ := (C26_returns w.srt t).2 hne (.inl fun h => by rw [hs] at h; cases h)
  obtain ⟨hp, -, -, hod, hso, hwo⟩ := C26_samples w.srt t out hn
  obtain ⟨hd, hlt⟩ := series_base w.srt t out hone hn ""
  have hb : baseIn t (some "") = baseOf t.rows := by unfold baseIn; rw [hs]; rfl
  rw [hb] at hd
  have hpart : seriesPart out "" = out.rows := by unfold seriesPart; rw [hso, hs]; rfl
  rw [hpart] at hd hlt
  have hlab : labelled t.hasSource t.rows = t.rows := by unfold labelled; rw [hs]; simp
  rw [hlab] at hp
  refine ⟨frameOf out out.rows, ⟨hod.trans hone.hasDate, ?_, ?_⟩, ?_, hwo, ?_⟩
  · intro q hq
    obtain ⟨q0, h0, rfl⟩ := List.mem_map.1 hq
    exact hd q0 h0
  · exact List.pairwise_map.2 hlt
  · intro args
    unfold runForecast
    rw [hn]
    simp only [bind, Except.bind, hso, hs, Bool.false_eq_true, if_false]
    cases runSingle w args id (frameOf out out.rows) <;> rfl
  · have := hp.map fun r : Timestamp × Option String × Option K × Option K => (r.1, r.2.2.1, r.2.2.2)
    unfold samples at this
    rw [List.map_map, List.map_map] at this
    unfold frameOf
    rw [List.map_map]
    exact this

omit [Field K] [LinearOrder K] [FloorRing K] in
theorem sourcePart_only_rows (t : STable K) (s : String) : sourcePart t.rows (some s) = (only s t).rows := by
  unfold sourcePart only
  apply List.filter_congr
  intro r _
  simp

omit [Field K] [LinearOrder K] [FloorRing K] in
theorem originOf_eq (t : STable K) (s : String) : originOf t s = baseIn t (some s) := by
  unfold originOf baseIn rowsOf
  rw [sourcePart_only_rows]
  split_ifs <;> rfl

omit [Field K] [LinearOrder K] [FloorRing K] in
/-- A series is determined by its origin and its samples. -/
theorem dated_unique (df : Frame K) (t0 : Timestamp) (rows : List (SRow K)) (h : DatedSeries df t0)
    (hp : (df.rows.map fun r => (r.date, r.y, r.weight)).Perm (rows.map fun r => (r.date, r.y, r.weight))) :
    df.rows = (sortBy (fun a b : SRow K => decide (a.date ≤ b.date)) rows).map fun r => ⟨r.date, (r.date - t0) / (24 * 60 * 60 * 1000000000), r.y, r.weight⟩ := by
  have hs : (df.rows.map fun r => (r.date, r.y, r.weight)).Pairwise fun a b => a.1 < b.1 := by
    rw [List.pairwise_map]
    refine h.sorted.imp_of_mem ?_
    intro a b ha hb hab
    have := h.days a ha
    have := h.days b hb
    dsimp only
    omega
  have hsort : ((sortBy (fun a b : SRow K => decide (a.date ≤ b.date)) rows).map fun r => (r.date, r.y, r.weight)).Pairwise fun a b => a.1 ≤ b.1 := by
    rw [List.pairwise_map]
    refine (sortBy_sorted _ ?_ ?_ rows).imp ?_
    · intro a b c; simp only [decide_eq_true_eq]; omega
    · intro a b; simp only [Bool.or_eq_true, decide_eq_true_eq]; omega
    · intro a b; simp only [decide_eq_true_eq]; exact id
  have hp' := hp.trans ((sortBy_perm (fun a b : SRow K => decide (a.date ≤ b.date)) rows).symm.map fun r => (r.date, r.y, r.weight))
  have hsort' : ((sortBy (fun a b : SRow K => decide (a.date ≤ b.date)) rows).map fun r => (r.date, r.y, r.weight)).Pairwise fun a b => a.1 < b.1 := by
    have hnd : ((df.rows.map fun r => (r.date, r.y, r.weight)).map Prod.fst).Nodup := by
      rw [List.Nodup, List.pairwise_map]
      exact hs.imp ne_of_lt
    have hnd' := (hp'.map Prod.fst).nodup_iff.1 hnd
    rw [List.Nodup, List.pairwise_map] at hnd'
    exact (hsort.and hnd').imp fun h => lt_of_le_of_ne h.1 h.2
  have heq := hp'.eq_of_pairwise (fun a b _ _ h1 h2 => absurd (h1.trans h2) (lt_irrefl _)) hs hsort'
  have := congrArg (List.map fun e : Timestamp × Option K × Option K => (⟨e.1, (e.1 - t0) / (24 * 60 * 60 * 1000000000), e.2.1, e.2.2⟩ : Row K)) heq
  rw [List.map_map, List.map_map] at this
  refine Eq.trans ?_ this
  refine (List.map_id _).symm.trans (List.map_congr_left ?_)
  intro r hr
  have := h.days r hr
  obtain ⟨d, x, y, v⟩ := r
  simp only [id, Function.comp, Row.mk.injEq, true_and, and_true]
  dsimp only at this
  omega

/-- The result for one series of a table is that of the run for the series. -/
theorem series_run [IsStrictOrderedRing K] (w : World K) (id : String) (t : STable K) (hp : Proper t) (s : String) (hm : IsSeries t id s) :
    DatedSeries (seriesFrame t s) (originOf t s) ∧
      ∀ args res, runForecast w args id t = .ok (some res) → runSingle w args s (seriesFrame t s) = .ok (partOf t s res) := by
  have key : ∃ df, DatedSeries df (baseIn t (some s)) ∧ df.hasWeight = t.hasWeight ∧
      (df.rows.map fun r => (r.date, r.y, r.weight)).Perm ((rowsOf t s).map fun r => (r.date, r.y, r.weight)) ∧
      ∀ args res, runForecast w args id t = .ok (some res) → runSingle w args s df = .ok (partOf t s res) := by
    unfold IsSeries rowsOf partOf at *
    cases hs : t.hasSource with
    | true =>
      rw [hs] at hm
      obtain ⟨df, h1, h2, h3, h4⟩ := series_source w id t hs hp.onePerDate (hp.labelled hs) s hm
      refine ⟨df, h1, h3, h4, fun args res h => ?_⟩
      have := C47_independent w args id t hs res h s hm
      rw [h2] at this
      cases hr : runSingle w args s df with
      | error e => rw [hr] at this; cases this
      | ok r => rw [hr] at this; cases this; rfl
    | false =>
      rw [hs] at hm
      obtain ⟨rfl, hne⟩ := hm
      obtain ⟨df, h1, h2, h3, h4⟩ := series_table w s t hs hp.onePerDate hne
      have hb : baseIn t (some s) = baseOf t.rows := by unfold baseIn; rw [hs]; rfl
      rw [hb]
      refine ⟨df, h1, h3, h4, fun args res h => ?_⟩
      rw [h2] at h
      cases hr : runSingle w args s df with
      | error e => rw [hr] at h; cases h
      | ok r => rw [hr] at h; cases h; rfl
  obtain ⟨df, h1, h2, h3, h4⟩ := key
  rw [← originOf_eq] at h1
  have e : seriesFrame t s = df := by
    have e1 := dated_unique df _ _ h1 h3
    have e2 := h1.dated
    obtain ⟨a, b, rows⟩ := df
    unfold seriesFrame
    dsimp only at e1 e2 h2
    rw [e1, e2, h2]
  rw [e]
  exact ⟨h1, h4⟩

/-! ### Series of changed tables -/

omit [Field K] [LinearOrder K] [FloorRing K] in
theorem rowsOf_map (t : STable K) (g : SRow K → SRow K) (hg : ∀ r, (g r).source = r.source) (s : String) :
    rowsOf { t with rows := t.rows.map g } s = (rowsOf t s).map g := by
  unfold rowsOf only
  dsimp only
  split_ifs
  · rw [List.filter_map]
    congr 1
    apply List.filter_congr
    intro r _
    simp [hg]
  · rfl

omit [Field K] [LinearOrder K] [FloorRing K] in
/-- Rows are changed one by one, their dates by a number of weeks. -/
theorem seriesFrame_map (t : STable K) (g : SRow K → SRow K) (k : Int) (hg : ∀ r, (g r).source = r.source) (hd : ∀ r, (g r).date = r.date + 7 * k * (24 * 60 * 60 * 1000000000))
    (s : String) :
    seriesFrame { t with rows := t.rows.map g } s = ⟨true, t.hasWeight, (sortBy (fun a b => decide (a.date ≤ b.date)) (rowsOf t s)).map fun r =>
      ⟨r.date + 7 * k * (24 * 60 * 60 * 1000000000), (r.date - originOf t s) / (24 * 60 * 60 * 1000000000), (g r).y, (g r).weight⟩⟩ := by
  by_cases hne : rowsOf t s = []
  · unfold seriesFrame
    rw [rowsOf_map t g hg s, hne]
    rfl
  have ho : originOf { t with rows := t.rows.map g } s = originOf t s + 7 * k * (24 * 60 * 60 * 1000000000) := by
    unfold originOf
    rw [rowsOf_map t g hg s]
    cases hr : rowsOf t s with
    | nil => exact absurd hr hne
    | cons r l =>
      simp only [List.map_cons, hd]
      have e1 : (r.date + 7 * k * (24 * 60 * 60 * 1000000000)) / (24 * 60 * 60 * 1000000000) = r.date / (24 * 60 * 60 * 1000000000) + 7 * k := by omega
      rw [e1]
      have e2 : (r.date / (24 * 60 * 60 * 1000000000) + 7 * k + 3) % 7 = (r.date / (24 * 60 * 60 * 1000000000) + 3) % 7 := by omega
      rw [e2]
      omega
  unfold seriesFrame
  rw [rowsOf_map t g hg s, ho, sortBy_natural (fun a b : SRow K => decide (a.date ≤ b.date)) _ g _ (by
    intro a _ b _
    rw [hd, hd]
    simp), List.map_map]
  congr 1
  apply List.map_congr_left
  intro r _
  simp only [Function.comp, hd, Row.mk.injEq, and_true, true_and]
  congr 1
  omega

theorem seriesFrame_rescaled (c d : K) (t : STable K) (s : String) : seriesFrame (rescaledTable c d t) s = rescaled c d (seriesFrame t s) := by
  refine (seriesFrame_map t (fun r => { r with y := r.y.map fun v => c * v + d }) 0 (fun _ => rfl) (fun r => by simp) s).trans ?_
  unfold rescaled seriesFrame
  simp [List.map_map, Function.comp_def]

theorem seriesFrame_reweighted (k : K) (t : STable K) (s : String) : seriesFrame (reweightedTable k t) s = reweighted k (seriesFrame t s) := by
  refine (seriesFrame_map t (fun r => { r with weight := r.weight.map fun w => k * w }) 0 (fun _ => rfl) (fun r => by simp) s).trans ?_
  unfold reweighted seriesFrame
  simp [List.map_map, Function.comp_def]

theorem seriesFrame_moved (k : Int) (t : STable K) (s : String) :
    seriesFrame (movedTable (7 * k * (24 * 60 * 60 * 1000000000)) t) s = moved (7 * k * (24 * 60 * 60 * 1000000000)) (seriesFrame t s) := by
  refine (seriesFrame_map t (fun r => { r with date := r.date + 7 * k * (24 * 60 * 60 * 1000000000) }) k (fun _ => rfl) (fun r => rfl) s).trans ?_
  unfold moved seriesFrame
  simp [List.map_map, Function.comp_def]

omit [Field K] [LinearOrder K] [FloorRing K] in
theorem seriesFrame_valued (u : Option String → Timestamp → K) (t : STable K) (s : String) (h : CountsDays (seriesFrame t s) (originOf t s)) :
    seriesFrame (valuedTable u t) s =
      valued (fun x => u (if t.hasSource then some s else none) (originOf t s + x * (24 * 60 * 60 * 1000000000))) (seriesFrame t s) := by
  refine (seriesFrame_map t (fun r => { r with y := r.y.map fun _ => u (if t.hasSource then r.source else none) r.date }) 0 (fun _ => rfl)
    (fun r => by simp) s).trans ?_
  unfold valued
  unfold CountsDays at h
  unfold seriesFrame at h ⊢
  simp only [List.map_map, Frame.mk.injEq, true_and]
  apply List.map_congr_left
  intro r hr
  have hd := h _ (List.mem_map_of_mem hr)
  dsimp only at hd
  have hsrc : (if t.hasSource then r.source else none) = if t.hasSource then some s else none := by
    have := (sortBy_perm _ _).mem_iff.1 hr
    unfold rowsOf only at this
    split_ifs at this ⊢ with hs
    · exact of_decide_eq_true (List.mem_filter.1 this).2
    · rfl
  simp only [Function.comp, hsrc, ← hd]
  simp

omit [Field K] [LinearOrder K] [FloorRing K] in
theorem insertBy_append {α : Type} (le : α → α → Bool) (a : α) (l e : List α) (h : ∀ b ∈ e, le a b = true) :
    insertBy le a (l ++ e) = insertBy le a l ++ e := by
  induction l with
  | nil =>
    cases e with
    | nil => rfl
    | cons b e => simp [insertBy, h b]
  | cons c l ih =>
    simp only [List.cons_append, insertBy]
    split_ifs
    · rfl
    · rw [ih]; rfl

omit [Field K] [LinearOrder K] [FloorRing K] in
theorem sortBy_append_later {α : Type} (le : α → α → Bool) (l e : List α) (h : ∀ a ∈ l, ∀ b ∈ e, le a b = true) :
    sortBy le (l ++ e) = sortBy le l ++ sortBy le e := by
  induction l with
  | nil => rfl
  | cons a l ih =>
    simp only [List.cons_append, sortBy]
    rw [ih fun c hc => h c (List.mem_cons_of_mem _ hc), insertBy_append]
    intro b hb
    exact h a List.mem_cons_self b ((sortBy_perm _ _).mem_iff.1 hb)

omit [Field K] [LinearOrder K] [FloorRing K] in
theorem rowsOf_extended (t : STable K) (extra : List (SRow K)) (s : String) :
    rowsOf (extendedTable t extra) s = rowsOf t s ++ rowsOf { t with rows := extra } s := by
  unfold rowsOf only extendedTable
  dsimp only
  split_ifs
  · rw [List.filter_append]
  · rfl

omit [Field K] [LinearOrder K] [FloorRing K] in
/-- Rows with later dates are appended to the series. -/
theorem seriesFrame_extended (t : STable K) (extra : List (SRow K)) (s : String) (hne : rowsOf t s ≠ [])
    (hlater : ∀ r ∈ rowsOf t s, ∀ q ∈ rowsOf { t with rows := extra } s, r.date ≤ q.date) :
    seriesFrame (extendedTable t extra) s = extended (seriesFrame t s)
      ((sortBy (fun a b => decide (a.date ≤ b.date)) (rowsOf { t with rows := extra } s)).map fun r =>
        ⟨r.date, (r.date - originOf t s) / (24 * 60 * 60 * 1000000000), r.y, r.weight⟩) := by
  have ho : originOf (extendedTable t extra) s = originOf t s := by
    unfold originOf
    rw [rowsOf_extended]
    cases hr : rowsOf t s with
    | nil => exact absurd hr hne
    | cons r l => rfl
  unfold seriesFrame extended
  rw [rowsOf_extended, ho, sortBy_append_later _ _ _ fun a ha b hb => decide_eq_true (hlater a ha b hb), List.map_append]
  rfl

end Anticipy
