import Verif.Model.Plot
import Verif.Lemmas.ListOps
import Mathlib.Data.List.Nodup
import Mathlib.Data.List.Range
import Mathlib.Tactic.Ring
import Mathlib.Tactic.Linarith

/-
C50 (plot grids), C60 (return codes of plots).
-/
namespace Anticipy
variable {K : Type}

theorem gridRows_spec (n : Nat) : n ≤ gridRows n * gridRows n ∧ (1 ≤ n → (gridRows n - 1) * (gridRows n - 1) < n ∧ 1 ≤ gridRows n) := by
  have h1 := Nat.sqrt_le n
  have h2 := Nat.lt_succ_sqrt n
  unfold gridRows
  split
  · rename_i h
    refine ⟨by omega, fun hn => ?_⟩
    have hs : 1 ≤ n.sqrt := by
      rcases Nat.eq_zero_or_pos n.sqrt with h0 | h0
      · rw [h0] at h; omega
      · exact h0
    refine ⟨?_, hs⟩
    obtain ⟨k, hk⟩ : ∃ k, n.sqrt = k + 1 := ⟨n.sqrt - 1, by omega⟩
    rw [hk] at h ⊢
    simp only [Nat.add_sub_cancel]
    nlinarith
  · rename_i h
    refine ⟨by simpa using Nat.le_of_lt h2, fun hn => ⟨?_, by omega⟩⟩
    simp only [Nat.add_sub_cancel]
    omega

/-- **C50** The grid for `n ≥ 1` sources has a cell for each of them and no empty row. -/
theorem C50_grid (n : Nat) (hn : 1 ≤ n) :
    ∃ ncols, gridCols n (gridRows n) = .ok ncols ∧ n ≤ gridRows n * ncols ∧ (gridRows n - 1) * ncols < n ∧ 1 ≤ ncols := by
  obtain ⟨h1, h2⟩ := gridRows_spec n
  obtain ⟨h2, h3⟩ := h2 hn
  generalize gridRows n = r at *
  refine ⟨(n + r - 1) / r, by simp [gridCols]; omega, ?_, ?_, ?_⟩
  · have := Nat.div_add_mod (n + r - 1) r
    have := Nat.mod_lt (n + r - 1) h3
    omega
  · obtain ⟨k, rfl⟩ : ∃ k, r = k + 1 := ⟨r - 1, by omega⟩
    simp only [Nat.add_sub_cancel] at *
    by_cases hc : n ≤ (k + 1) * k
    · have : (n + (k + 1) - 1) / (k + 1) ≤ k := by
        rw [Nat.div_le_iff_le_mul_add_pred (by omega)]
        rw [show n + (k + 1) - 1 = n + k by omega, Nat.add_sub_cancel]
        nlinarith
      calc k * ((n + (k + 1) - 1) / (k + 1)) ≤ k * k := Nat.mul_le_mul_left _ this
        _ < n := h2
    · have : (n + (k + 1) - 1) / (k + 1) ≤ k + 1 := by
        rw [Nat.div_le_iff_le_mul_add_pred (by omega)]
        rw [show n + (k + 1) - 1 = n + k by omega, Nat.add_sub_cancel]
        nlinarith
      calc k * ((n + (k + 1) - 1) / (k + 1)) ≤ k * (k + 1) := Nat.mul_le_mul_left _ this
        _ < n := by nlinarith
  · rw [Nat.one_le_div_iff h3]; omega

/-- Position number `k` in row-major order. -/
def cellAt (ncols base k : Nat) : Nat × Nat := (k / ncols + base, k % ncols + base)

theorem nextCell_at (ncols base k : Nat) (hc : 1 ≤ ncols) : nextCell ncols base (cellAt ncols base k) = cellAt ncols base (k + 1) := by
  unfold nextCell cellAt
  have h1 := Nat.div_add_mod k ncols
  have h2 := Nat.mod_lt k hc
  dsimp only
  split
  · rename_i h
    have e : k + 1 = ncols * (k / ncols + 1) := by rw [Nat.mul_add]; omega
    rw [e, Nat.mul_div_cancel_left _ hc, Nat.mul_mod_right]
    simp only [Prod.mk.injEq]
    omega
  · rename_i h
    have e : k + 1 = k % ncols + 1 + ncols * (k / ncols) := by omega
    have hl : k % ncols + 1 < ncols := by omega
    rw [e, Nat.add_mul_div_left _ _ hc, Nat.add_mul_mod_self_left, Nat.mod_eq_of_lt hl, Nat.div_eq_of_lt hl]
    simp only [Prod.mk.injEq]
    omega

theorem place_spec {α : Type} (nrows ncols base : Nat) (hc : 1 ≤ ncols) (ss : List α) (k : Nat) (h : k + ss.length ≤ nrows * ncols) :
    placeSources nrows ncols base ss (cellAt ncols base k) =
      .ok (ss.zip ((List.range ss.length).map fun i => cellAt ncols base (k + i)), cellAt ncols base (k + ss.length)) := by
  induction ss generalizing k with
  | nil => simp [placeSources]
  | cons s ss ih =>
    simp only [List.length_cons] at h
    have hin : k / ncols < nrows := (Nat.div_lt_iff_lt_mul hc).2 (by omega)
    have hm := Nat.mod_lt k hc
    unfold placeSources
    rw [if_pos (by simp only [cellAt]; omega), nextCell_at ncols base k hc, ih (k + 1) (by omega)]
    simp only [Bind.bind, Except.bind, List.length_cons]
    rw [List.range_succ_eq_map, List.map_cons, List.map_map, List.zip_cons_cons]
    congr 2
    · congr 4
      funext i
      simp only [Function.comp]
      congr 1; omega
    · congr 1; omega

theorem cellAt_inj (ncols base a b : Nat) (h : cellAt ncols base a = cellAt ncols base b) : a = b := by
  simp only [cellAt, Prod.mk.injEq] at h
  have h1 := Nat.div_add_mod a ncols
  have h2 := Nat.div_add_mod b ncols
  have e1 : a / ncols = b / ncols := by omega
  rw [e1] at h1
  omega

theorem mem_hideRow (x y ncols : Nat) (c : Nat × Nat) : c ∈ hideRow x y ncols ↔ c.1 = x ∧ y ≤ c.2 ∧ c.2 < ncols := by
  obtain ⟨a, b⟩ := c
  simp only [hideRow, List.mem_map, List.mem_range, Prod.mk.injEq]
  constructor
  · rintro ⟨i, hi, rfl, rfl⟩; omega
  · rintro ⟨rfl, h1, h2⟩; exact ⟨b - y, by omega, rfl, by omega⟩

theorem mem_hideRest (k x y ncols : Nat) (c : Nat × Nat) :
    c ∈ hideRest k x y ncols ↔ x ≤ c.1 ∧ c.1 < x + k ∧ c.2 < ncols ∧ (c.1 = x → y ≤ c.2) := by
  induction k generalizing x y with
  | zero => simp only [hideRest, List.not_mem_nil, false_iff]; omega
  | succ k ih =>
    simp only [hideRest, List.mem_append, mem_hideRow, ih]
    omega

/-- Sources whose actuals are in the table, and layout for more than one source. -/
theorem layout_many (rows : List (PlotRow K)) (subplots : Bool) (sources : List String) (nrows ncols : Nat)
    (hs : Bool) (h : plotLayout hs rows = .ok (subplots, sources, nrows, ncols)) :
    sources.Nodup ∧ 1 ≤ sources.length ∧ sources.length ≤ nrows * ncols ∧ (nrows - 1) * ncols < sources.length ∧ 1 ≤ ncols := by
  unfold plotLayout at h
  split at h
  · simp only [Bind.bind, Except.bind] at h
    set srcs := uniq ((rows.filter fun r => r.isActuals).filterMap fun r => r.source) with hsrc
    cases hg : gridCols srcs.length (gridRows srcs.length) with
    | error e => simp [hg] at h
    | ok c =>
      simp only [hg, Except.ok.injEq, Prod.mk.injEq] at h
      obtain ⟨rfl, rfl, rfl, rfl⟩ := h
      have hn : 1 ≤ srcs.length := by
        by_contra h0
        have : srcs.length = 0 := by omega
        rw [this] at hg
        simp [gridCols, gridRows] at hg
      obtain ⟨c', h1, h2, h3, h4⟩ := C50_grid srcs.length hn
      rw [h1] at hg
      cases hg
      refine ⟨?_, hn, h2, h3, h4⟩
      rw [hsrc]
      have := dedupBy_keys_nodup (fun s : String => s) ((rows.filter fun r => r.isActuals).filterMap fun r => r.source)
      exact this
  · cases h
    simp

/-- **C50** Whatever the table, if a layout is found the plot is drawn: one panel per source in order, in different cells inside the
grid; every row of the grid is used; with matplotlib the remaining cells are exactly the hidden ones. -/
theorem C50_panels (matplotlib hs : Bool) (rows : List (PlotRow K)) (subplots : Bool) (sources : List String) (nrows ncols : Nat)
    (h : plotLayout hs rows = .ok (subplots, sources, nrows, ncols)) :
    ∃ panels hidden, createPlot matplotlib subplots sources nrows ncols rows = .ok (panels, hidden) ∧
      panels.map (fun p => p.source) = sources ∧ sources.Nodup ∧ (panels.map fun p => p.cell).Nodup ∧
      (∀ p ∈ panels, (if matplotlib then 0 else 1) ≤ p.cell.1 ∧ p.cell.1 < nrows + (if matplotlib then 0 else 1) ∧
        (if matplotlib then 0 else 1) ≤ p.cell.2 ∧ p.cell.2 < ncols + (if matplotlib then 0 else 1)) ∧
      (∀ x, (if matplotlib then 0 else 1) ≤ x → x < nrows + (if matplotlib then 0 else 1) → ∃ p ∈ panels, p.cell.1 = x) ∧
      (matplotlib = true → ∀ c : Nat × Nat, c.1 < nrows → c.2 < ncols → (c ∈ hidden ↔ ∀ p ∈ panels, p.cell ≠ c)) := by
  obtain ⟨hnd, hn, hfit, hused, hcol⟩ := layout_many rows subplots sources nrows ncols hs h
  unfold createPlot
  set base := if matplotlib then 0 else 1 with hbase
  have hstart : (base, base) = cellAt ncols base 0 := by simp [cellAt]
  have hp := place_spec nrows ncols base hcol sources 0 (by omega)
  dsimp only
  rw [hstart, hp]
  simp only [Bind.bind, Except.bind, Nat.zero_add]
  set cells := (List.range sources.length).map fun i => cellAt ncols base i with hcells
  have hlen : cells.length = sources.length := by simp [hcells]
  refine ⟨_, _, rfl, ?_, hnd, ?_, ?_, ?_, ?_⟩
  · rw [List.map_map]
    exact List.map_fst_zip (by omega)
  · rw [List.map_map]
    have : (sources.zip cells).map (fun p => p.2) = cells := List.map_snd_zip (by omega)
    simp only [Function.comp_def]
    rw [this, hcells]
    exact List.nodup_range.map fun a b hab => cellAt_inj ncols base a b hab
  · intro p hp
    obtain ⟨q, hq, rfl⟩ := List.mem_map.1 hp
    have hc := (List.of_mem_zip hq).2
    obtain ⟨i, hi, hqi⟩ := List.mem_map.1 hc
    dsimp only
    rw [← hqi]
    simp only [cellAt]
    have hi := List.mem_range.1 hi
    have : i / ncols < nrows := (Nat.div_lt_iff_lt_mul hcol).2 (by omega)
    have := Nat.mod_lt i hcol
    generalize i / ncols = q1 at *
    generalize i % ncols = q2 at *
    omega
  · intro x hx1 hx2
    have hk : (x - base) * ncols < sources.length := by
      have : x - base ≤ nrows - 1 := by omega
      calc (x - base) * ncols ≤ (nrows - 1) * ncols := Nat.mul_le_mul_right _ this
        _ < _ := hused
    refine ⟨_, List.mem_map.2 ⟨(sources[(x - base) * ncols], cells[(x - base) * ncols]'(by omega)), ?_, rfl⟩, ?_⟩
    · have : (sources.zip cells)[(x - base) * ncols]'(by simp [hlen]; omega) =
          (sources[(x - base) * ncols], cells[(x - base) * ncols]'(by omega)) := List.getElem_zip
      rw [← this]
      exact List.getElem_mem _
    · simp only [hcells, List.getElem_map, List.getElem_range, cellAt]
      rw [Nat.mul_div_cancel _ hcol]
      omega
  · intro hm c hc1 hc2
    have hb : base = 0 := by rw [hbase, hm]; rfl
    rw [if_pos hm, mem_hideRest]
    simp only [hb, cellAt, Nat.add_zero] at *
    have hmain : (sources.length / ncols ≤ c.1 ∧ c.1 < sources.length / ncols + (nrows - sources.length / ncols) ∧ c.2 < ncols ∧
        (c.1 = sources.length / ncols → sources.length % ncols ≤ c.2)) ↔ sources.length ≤ c.1 * ncols + c.2 := by
      have h1 := Nat.div_add_mod sources.length ncols
      have h2 := Nat.mod_lt sources.length hcol
      constructor
      · rintro ⟨a1, a2, a3, a4⟩
        by_cases e : c.1 = sources.length / ncols
        · have := a4 e
          rw [e, Nat.mul_comm]; omega
        · have : (sources.length / ncols + 1) * ncols ≤ c.1 * ncols := Nat.mul_le_mul_right _ (by omega)
          rw [Nat.add_mul, Nat.mul_comm (sources.length / ncols)] at this
          omega
      · intro hle
        have a1 : sources.length / ncols ≤ c.1 := by
          by_contra hlt
          have : (c.1 + 1) * ncols ≤ (sources.length / ncols) * ncols := Nat.mul_le_mul_right _ (by omega)
          rw [Nat.add_mul, Nat.mul_comm (sources.length / ncols)] at this
          omega
        refine ⟨a1, by omega, hc2, fun e => ?_⟩
        rw [e, Nat.mul_comm] at hle
        omega
    rw [hmain]
    constructor
    · intro hle p hp he
      obtain ⟨q, hq, rfl⟩ := List.mem_map.1 hp
      obtain ⟨i, hi, hqi⟩ := List.mem_map.1 (List.of_mem_zip hq).2
      dsimp only at he
      rw [← hqi] at he
      have h1 := Nat.div_add_mod i ncols
      have hi := List.mem_range.1 hi
      have e1 : c.1 = i / ncols := by rw [← he]; simp [cellAt, base, hm]
      have e2 : c.2 = i % ncols := by rw [← he]; simp [cellAt, base, hm]
      rw [e1, e2, Nat.mul_comm] at hle
      omega
    · intro hall
      by_contra hlt
      have hi : c.1 * ncols + c.2 < sources.length := by omega
      refine hall _ (List.mem_map.2 ⟨(sources[c.1 * ncols + c.2], cells[c.1 * ncols + c.2]'(by omega)), ?_, rfl⟩) ?_
      · have : (sources.zip cells)[c.1 * ncols + c.2]'(by simp [hlen]; omega) =
            (sources[c.1 * ncols + c.2], cells[c.1 * ncols + c.2]'(by omega)) := List.getElem_zip
        rw [← this]
        exact List.getElem_mem _
      · simp only [hcells, List.getElem_map, List.getElem_range]
        rw [Nat.mul_comm, Nat.mul_add_div hcol, Nat.div_eq_of_lt hc2, Nat.mul_add_mod, Nat.mod_eq_of_lt hc2]
        simp

/-- **C50** Each panel shows the rows of its source and nothing else; with a single source it shows everything (matplotlib leaves out the
rows of the weight model). -/
theorem C50_panel_rows (matplotlib subplots : Bool) (sources : List String) (nrows ncols : Nat) (rows : List (PlotRow K))
    (panels : List (Panel K)) (hidden : List (Nat × Nat)) (h : createPlot matplotlib subplots sources nrows ncols rows = .ok (panels, hidden))
    (p : Panel K) (hp : p ∈ panels) (r : PlotRow K) :
    (r ∈ p.actuals ↔ r ∈ rows ∧ r.isActuals = true ∧ (subplots = true → r.source = some p.source) ∧ (matplotlib = true → r.model ≠ "weight")) ∧
    (r ∈ p.forecast ↔ r ∈ rows ∧ r.isActuals = false ∧ (subplots = true → r.source = some p.source) ∧
      (matplotlib = true → r.model ≠ "weight")) := by
  unfold createPlot at h
  simp only [Bind.bind, Except.bind] at h
  split at h
  · cases h
  · cases h
    obtain ⟨q, _, rfl⟩ := List.mem_map.1 hp
    cases matplotlib <;> cases subplots <;> simp [panelRows] <;> tauto

/-- **C50** A plot does not mix sources, and shows all actuals: rows with different sources are never in the same panel, and every row of the actuals with
a source (with matplotlib: that does not belong to the weight model) is shown. -/
theorem C50_sources (matplotlib : Bool) (rows : List (PlotRow K)) (subplots : Bool) (sources : List String) (nrows ncols : Nat)
    (h : plotLayout true rows = .ok (subplots, sources, nrows, ncols)) (panels : List (Panel K)) (hidden : List (Nat × Nat))
    (hc : createPlot matplotlib subplots sources nrows ncols rows = .ok (panels, hidden)) :
    (∀ p ∈ panels, ∀ r ∈ p.actuals ++ p.forecast, ∀ r' ∈ p.actuals ++ p.forecast, r.source ≠ none → r'.source ≠ none → r.source = r'.source) ∧
    ∀ r ∈ rows, r.isActuals = true → r.source ≠ none → (matplotlib = true → r.model ≠ "weight") → ∃ p ∈ panels, r ∈ p.actuals := by
  obtain ⟨panels', hidden', hc', hsrc, -⟩ := C50_panels matplotlib true rows subplots sources nrows ncols h
  rw [hc] at hc'
  cases hc'
  have hrows := C50_panel_rows matplotlib subplots sources nrows ncols rows panels hidden hc
  have hone : subplots = false → sources = ["y"] ∧ (uniq (rows.filterMap fun r => r.source)).length ≤ 1 := by
    intro hs
    unfold plotLayout at h
    split at h
    · cases hg : gridCols (uniq ((rows.filter fun r => r.isActuals).filterMap fun r => r.source)).length
          (gridRows (uniq ((rows.filter fun r => r.isActuals).filterMap fun r => r.source)).length) with
      | error e => simp [hg, Bind.bind, Except.bind] at h
      | ok c => simp [hg, Bind.bind, Except.bind, hs] at h
    · rename_i hn
      simp only [Bool.true_and, decide_eq_true_eq, gt_iff_lt, not_lt] at hn
      cases h
      exact ⟨rfl, hn⟩
  have hmany : subplots = true → sources = uniq ((rows.filter fun r => r.isActuals).filterMap fun r => r.source) := by
    intro hs
    unfold plotLayout at h
    split at h
    · cases hg : gridCols (uniq ((rows.filter fun r => r.isActuals).filterMap fun r => r.source)).length
          (gridRows (uniq ((rows.filter fun r => r.isActuals).filterMap fun r => r.source)).length) with
      | error e => simp [hg, Bind.bind, Except.bind] at h
      | ok c =>
        simp only [hg, Bind.bind, Except.bind, Except.ok.injEq, Prod.mk.injEq] at h
        exact h.2.1.symm
    · cases h; cases hs
  have huniq : ∀ (l : List String) s, s ∈ l → s ∈ uniq l := by
    intro l s hs
    obtain ⟨b, hb, e⟩ := mem_dedupBy_key (fun s : String => s) l s hs
    have e : b = s := e
    rwa [e] at hb
  constructor
  · intro p hp r hr r' hr' hn hn'
    have hin : ∀ r ∈ p.actuals ++ p.forecast, r ∈ rows ∧ (subplots = true → r.source = some p.source) := by
      intro r hr
      rcases List.mem_append.1 hr with hr | hr
      · have := (hrows p hp r).1.1 hr; exact ⟨this.1, this.2.2.1⟩
      · have := (hrows p hp r).2.1 hr; exact ⟨this.1, this.2.2.1⟩
    cases hs : subplots with
    | true => rw [(hin r hr).2 hs, (hin r' hr').2 hs]
    | false =>
      obtain ⟨s, e⟩ := Option.ne_none_iff_exists'.1 hn
      obtain ⟨s', e'⟩ := Option.ne_none_iff_exists'.1 hn'
      have m1 := huniq _ s (List.mem_filterMap.2 ⟨r, (hin r hr).1, e⟩)
      have m2 := huniq _ s' (List.mem_filterMap.2 ⟨r', (hin r' hr').1, e'⟩)
      have := (hone hs).2
      generalize uniq (rows.filterMap fun r => r.source) = l at m1 m2 this
      match l with
      | [] => cases m1
      | [a] =>
        rw [List.mem_singleton] at m1 m2
        rw [e, e', m1, m2]
      | _ :: _ :: _ => simp at this
  · intro r hr ha hn hw
    obtain ⟨s, e⟩ := Option.ne_none_iff_exists'.1 hn
    cases hs : subplots with
    | true =>
      have m := huniq _ s (List.mem_filterMap.2 ⟨r, List.mem_filter.2 ⟨hr, ha⟩, e⟩)
      rw [← hmany hs, ← hsrc] at m
      obtain ⟨p, hp, e2⟩ := List.mem_map.1 m
      exact ⟨p, hp, (hrows p hp r).1.2 ⟨hr, ha, fun _ => by rw [e, e2], hw⟩⟩
    | false =>
      have : "y" ∈ panels.map fun p => p.source := by rw [hsrc, (hone hs).1]; simp
      obtain ⟨p, hp, -⟩ := List.mem_map.1 this
      exact ⟨p, hp, (hrows p hp r).1.2 ⟨hr, ha, fun h => absurd (hs.symm.trans h) (by decide), hw⟩⟩

/-- Two sources: two panels. -/
example : (let rows := [⟨some "a", true, "actuals", 0, some 1⟩, ⟨some "b", true, "actuals", 0, some 2⟩, ⟨some "b", false, "linear", 1, some 3⟩]
    ((plotLayout (K := Nat) true rows).bind fun l => createPlot false l.1 l.2.1 l.2.2.1 l.2.2.2 rows).map fun c =>
      c.1.map fun p => (p.source, p.actuals.map PlotRow.y, p.forecast.map PlotRow.y)) =
    .ok [("a", [some 1], []), ("b", [some 2], [some 3])] := by decide +kernel

/-- Five sources in a 3x2 grid, the last cell hidden. -/
example : (let rows := ["a", "b", "c", "d", "e"].map fun s => (PlotRow.mk (some s) true "actuals" 0 (some 1) : PlotRow Nat)
    (plotLayout true rows).map (fun l => (l.2.2.1, l.2.2.2)) = .ok (3, 2) ∧
    (createPlot true true ["a", "b", "c", "d", "e"] 3 2 rows).map (fun r => (r.1.map (fun p => p.cell), r.2)) =
      .ok ([(0, 0), (0, 1), (1, 0), (1, 1), (2, 0)], [(2, 1)])) := by decide +kernel

/-! ### C60: return codes -/

/-- A plot has been produced. -/
def Spec.Produced (e : PlotEffect K) : Prop := e ≠ .nothing

/-- **C60** If the library needed for the format is installed, an integer code is 0 exactly if a plot has been produced, and 1 otherwise. -/
theorem C60_code_partial (libs : PlotLibs) (hs : Bool) (rows : List (PlotRow K)) (output : String) (path : Option String)
    (hpng : output = "png" → libs.matplotlib = true) (hhtml : output = "html" → libs.plotly = true)
    (hjup : output = "jupyter" → libs.plotly = true ∧ libs.ipython = true) (n : Nat) (e : PlotEffect K)
    (h : plotForecast libs hs rows output path = .ok (.code n, e)) : (n = 0 ↔ Spec.Produced e) ∧ (n = 0 ∨ n = 1) := by
  unfold plotForecast at h
  split at h
  · cases h; simp [Spec.Produced]
  · simp only [Bind.bind, Except.bind] at h
    cases hl : plotLayout hs rows with
    | error x => simp [hl] at h
    | ok l =>
      obtain ⟨sp, srcs, nr, nc⟩ := l
      simp only [hl] at h
      by_cases h1 : output = "png"
      · simp only [if_pos h1, if_pos (hpng h1)] at h
        cases hc : createPlot true sp srcs nr nc rows with
        | error x => simp [hc] at h
        | ok q => simp only [hc] at h; cases h; simp [Spec.Produced]
      · by_cases h2 : output = "html"
        · simp only [if_neg h1, if_pos h2, if_pos (hhtml h2)] at h
          cases hc : createPlot false sp srcs nr nc rows with
          | error x => simp [hc] at h
          | ok q => simp only [hc] at h; cases h; simp [Spec.Produced]
        · by_cases h3 : output = "jupyter"
          · simp only [if_neg h1, if_neg h2, if_pos h3, (hjup h3).1, (hjup h3).2, Bool.and_self, if_true] at h
            cases hc : createPlot false sp srcs nr nc rows with
            | error x => simp [hc] at h
            | ok q => simp only [hc] at h; cases h
          · simp only [if_neg h1, if_neg h2, if_neg h3] at h
            cases h; simp [Spec.Produced]

/-- **C60** For png and html with the library installed and a path, a table with at least one actuals row whose source is known is always plotted and
the file has the format's extension. -/
theorem C60_file (libs : PlotLibs) (rows : List (PlotRow K)) (output path : String) (hp : path ≠ "")
    (ho : (output = "png" ∧ libs.matplotlib = true) ∨ (output = "html" ∧ libs.plotly = true))
    (r : PlotRow K) (hr : r ∈ rows) (ha : r.isActuals = true) (hsrc : r.source ≠ none) :
    ∃ panels, plotForecast libs true rows output (some path) = .ok (.code 0, .file (path ++ "." ++ output) panels) := by
  have hlay : ∃ l, plotLayout true rows = .ok l := by
    unfold plotLayout
    split
    · have hne : 1 ≤ (uniq ((rows.filter fun r => r.isActuals).filterMap fun r => r.source)).length := by
        obtain ⟨s, hs⟩ := Option.ne_none_iff_exists'.1 hsrc
        have hm : s ∈ (rows.filter fun r => r.isActuals).filterMap fun r => r.source :=
          List.mem_filterMap.2 ⟨r, List.mem_filter.2 ⟨hr, ha⟩, hs⟩
        obtain ⟨b, hb, _⟩ := mem_dedupBy_key (fun s : String => s) _ s hm
        exact List.length_pos_of_mem hb
      obtain ⟨c, hc, _⟩ := C50_grid _ hne
      simp only [Bind.bind, Except.bind, hc]
      exact ⟨_, rfl⟩
    · exact ⟨_, rfl⟩
  obtain ⟨⟨sp, srcs, nr, nc⟩, hl⟩ := hlay
  rcases ho with ⟨rfl, hlib⟩ | ⟨rfl, hlib⟩
  · obtain ⟨panels, hidden, hc, _⟩ := C50_panels true true rows sp srcs nr nc hl
    refine ⟨panels, ?_⟩
    unfold plotForecast
    simp only [pathMissing, hp, decide_false, Bool.false_and, Bool.false_eq_true, if_false, hl, Bind.bind, Except.bind, if_true, hlib, hc,
      Option.getD_some]
    rw [String.append_assoc]; rfl
  · obtain ⟨panels, hidden, hc, _⟩ := C50_panels false true rows sp srcs nr nc hl
    refine ⟨panels, ?_⟩
    unfold plotForecast
    simp only [pathMissing, hp, decide_false, Bool.false_and, Bool.false_eq_true, if_false, hl, Bind.bind, Except.bind, if_true, hlib, hc,
      Option.getD_some, show ¬ ("html" = "png") by decide]
    rw [String.append_assoc]; rfl

/-- **C60** Without a path no file is written and the code is 1, for png and html, whatever the table and the installed libraries. -/
theorem C60_no_path (libs : PlotLibs) (hs : Bool) (rows : List (PlotRow K)) (output : String) (path : Option String) (hp : path = none ∨ path = some "")
    (ho : output = "png" ∨ output = "html") : plotForecast libs hs rows output path = .ok (.code 1, .nothing) := by
  unfold plotForecast
  rcases hp with rfl | rfl <;> rcases ho with rfl | rfl <;> simp [pathMissing]

/-- A table with one actuals row. -/
def oneRow : List (PlotRow Nat) := [⟨some "a", true, "actuals", 0, some 1⟩]

/-- **C60 refuted in general**: without matplotlib a png plot reports success (code 0) although nothing is written. -/
theorem C60_counterexample :
    plotForecast ⟨false, true, true⟩ true oneRow "png" (some "out") = .ok (.code 0, .nothing) := by decide +kernel

/-- A table with two sources and forecast rows only cannot be plotted: there are no panels and the layout divides by zero. -/
theorem C60_counterexample_no_actuals :
    plotForecast (K := Nat) ⟨true, true, true⟩ true [⟨some "a", false, "m", 0, some 1⟩, ⟨some "b", false, "m", 0, some 1⟩] "png" (some "out") =
      .error .zeroDivisionError := by decide +kernel

#print axioms C50_panels
#print axioms C60_code_partial
end Anticipy
