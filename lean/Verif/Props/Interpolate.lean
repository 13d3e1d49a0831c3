import Verif.Props.DetectFreq
import Verif.Lemmas.GridFn

/-
C25: gap filling (`interpolate_df` as used by the forecasting code, i.e. without interpolating y).
-/
namespace Anticipy
open Spec

variable {K : Type}

/-! ### Helper lemmas -/

theorem interpolateFrom_length {F : Type} [Field F] (p : Option F) (l : List (Option F)) : (interpolateFrom p l).length = l.length := by
  induction l generalizing p with
  | nil => rfl
  | cons a l ih =>
    cases a with
    | some v => simp [interpolateFrom, ih]
    | none => cases p <;> simp [interpolateFrom, ih]

theorem interpolateFrom_known {F : Type} [Field F] (p : Option F) (l : List (Option F)) (i : Nat) (v : F) (h : l[i]? = some (some v)) :
    (interpolateFrom p l)[i]? = some (some v) := by
  induction l generalizing p i with
  | nil => simp at h
  | cons a l ih =>
    cases i with
    | zero =>
      simp only [List.getElem?_cons_zero, Option.some.injEq] at h
      subst h; simp [interpolateFrom]
    | succ i =>
      simp only [List.getElem?_cons_succ] at h
      cases a with
      | some w => simp only [interpolateFrom, List.getElem?_cons_succ]; exact ih _ _ h
      | none => cases p <;> (simp only [interpolateFrom, List.getElem?_cons_succ]; exact ih _ _ h)

theorem toIntCol_spec (l : List (Option ℚ)) (xs : List Int) (h : toIntCol l = .ok xs) :
    xs.length = l.length ∧ ∀ (i : Nat) (v : Int), l[i]? = some (some (v : ℚ)) → xs[i]? = some v := by
  induction l generalizing xs with
  | nil => simp only [toIntCol, Except.ok.injEq] at h; subst h; simp
  | cons a l ih =>
    cases a with
    | none => simp [toIntCol] at h
    | some w =>
      simp only [toIntCol, bind, Except.bind] at h
      cases hr : toIntCol l with
      | error e => rw [hr] at h; simp at h
      | ok r =>
        rw [hr] at h
        simp only [Except.ok.injEq] at h
        subst h
        obtain ⟨h1, h2⟩ := ih r hr
        refine ⟨by simp [h1], ?_⟩
        intro i v hv
        cases i with
        | zero =>
          simp only [List.getElem?_cons_zero, Option.some.injEq] at hv
          subst hv
          simp
        | succ i => simp only [List.getElem?_cons_succ] at hv ⊢; exact h2 i v hv

theorem findRow_some (rows : List (Row K)) (t : Int) (r : Row K) (h : findRow rows t = some r) : r ∈ rows ∧ r.date = t := by
  unfold findRow at h
  have h1 := List.mem_of_find?_eq_some h
  have h2 := List.find?_some h
  exact ⟨h1, by simpa using h2⟩

theorem findRow_none (rows : List (Row K)) (t : Int) (h : findRow rows t = none) : t ∉ rows.map Row.date := by
  unfold findRow at h
  rw [List.find?_eq_none] at h
  intro hc
  obtain ⟨r, hr, e⟩ := List.mem_map.1 hc
  exact h r hr (by simpa using e)

theorem findRow_of_mem (rows : List (Row K)) (hn : (rows.map Row.date).Nodup) (r : Row K) (hr : r ∈ rows) :
    findRow rows r.date = some r := by
  induction rows with
  | nil => simp at hr
  | cons q rows ih =>
    simp only [List.map_cons, List.nodup_cons] at hn
    unfold findRow
    rw [List.find?_cons]
    by_cases hq : q.date = r.date
    · simp only [hq, decide_true]
      rcases List.mem_cons.1 hr with rfl | hm
      · rfl
      · exact absurd (List.mem_map.2 ⟨r, hm, hq.symm⟩) hn.1
    · simp only [hq, decide_false]
      rcases List.mem_cons.1 hr with rfl | hm
      · exact absurd rfl hq
      · exact ih hn.2 hm

/-- The rows built from the grid, the matching input rows and the interpolated x. -/
def fillRows (grid : List Int) (rows : List (Row K)) (xs : List Int) : List (Row K) :=
  List.zipWith (fun (p : Int × Option (Row K)) (x : Int) =>
    ({ date := p.1, x := x, y := p.2.bind Row.y, weight := p.2.bind Row.weight } : Row K))
    (grid.map fun t => (t, findRow rows t)) xs

/-- What a gap-filling run does if it returns. -/
theorem interpolateDf_cases (df out : Frame K) (hd : df.hasDate = true) (h : interpolateDf df = .ok out) :
    out = df ∨ ∃ a b xs, (df.rows.map Row.date).Nodup ∧ listMin (df.rows.map Row.date) = some a ∧
      listMax (df.rows.map Row.date) = some b ∧
      toIntCol (interpolateCol ((dateRange a b ((detectFreq (df.rows.map Row.date)).getD .D)).map fun t =>
        (findRow df.rows t).map fun r => ((r.x : Int) : ℚ))) = .ok xs ∧
      out = { df with rows := fillRows (dateRange a b ((detectFreq (df.rows.map Row.date)).getD .D)) df.rows xs } := by
  unfold interpolateDf at h
  simp only [hd, if_true] at h
  split at h
  · left; simp only [Except.ok.injEq] at h; exact h.symm
  · split at h
    · simp at h
    · rename_i hdup
      split at h
      · rename_i a b ha hb
        split at h
        · simp at h
        · rename_i xs hxs
          simp only [Except.ok.injEq] at h
          right
          refine ⟨a, b, xs, ?_, ha, hb, ?_, by rw [← h, hd]; rfl⟩
          · rw [← hasDup_false]; simpa using hdup
          · rw [← hxs]; simp [List.map_map, Function.comp_def]
      · left; simp only [Except.ok.injEq] at h; exact h.symm

theorem fillRows_length (grid : List Int) (rows : List (Row K)) (xs : List Int) (h : xs.length = grid.length) :
    (fillRows grid rows xs).length = grid.length := by simp [fillRows, h]

theorem fillRows_dates (grid : List Int) (rows : List (Row K)) (xs : List Int) (h : xs.length = grid.length) :
    (fillRows grid rows xs).map Row.date = grid := by
  induction grid generalizing xs with
  | nil => simp [fillRows]
  | cons t grid ih =>
    cases xs with
    | nil => simp at h
    | cons x xs =>
      simp only [List.length_cons, Nat.add_right_cancel_iff] at h
      have := ih xs h
      simp only [fillRows, List.map_cons, List.zipWith_cons_cons] at this ⊢
      rw [this]

theorem fillRows_get (grid : List Int) (rows : List (Row K)) (xs : List Int) (i : Nat) (t x : Int) (h1 : grid[i]? = some t)
    (h2 : xs[i]? = some x) :
    (fillRows grid rows xs)[i]? =
      some { date := t, x := x, y := (findRow rows t).bind Row.y, weight := (findRow rows t).bind Row.weight } := by
  simp [fillRows, List.getElem?_zipWith, h1, h2]

theorem weekday_range06 (t : Int) : 0 ≤ weekday t ∧ weekday t ≤ 6 := by
  unfold weekday weekdayOfDay; omega

theorem detectFreq_valid (l : List Int) : ValidFreq ((detectFreq l).getD .D) := by
  unfold detectFreq
  simp only
  repeat' split
  all_goals first
    | trivial
    | exact weekday_range06 _

/-! ### Properties -/

/-- **C25** If gap filling returns, it returns its input, or a table
* with strictly increasing dates, which are exactly the grid dates of the detected frequency between the first and the last date,
* that contains every observed sample on the grid unchanged (including its x),
* whose other rows are new dates with null y and null weight. -/
theorem C25_fill (civil : Int → Int × Int × Int) (hc : IsCalendar civil) (wd : Int → Int) (hw : IsWeek wd)
    (df out : Frame K) (hd : df.hasDate = true) (h : interpolateDf df = .ok out)
    (htod : ∀ r ∈ df.rows, ∀ r' ∈ df.rows, (r.date - r'.date) % dayNs = 0 ∨ detectFreq (df.rows.map Row.date) = some .H) :
    out = df ∨
    ∃ first ∈ df.rows, ∃ last ∈ df.rows, (∀ r ∈ df.rows, first.date ≤ r.date ∧ r.date ≤ last.date) ∧
      out.hasDate = true ∧ out.hasWeight = df.hasWeight ∧
      (out.rows.map Row.date).Pairwise (· < ·) ∧
      (∀ t, t ∈ out.rows.map Row.date ↔ first.date ≤ t ∧ t ≤ last.date ∧
        OnGrid civil wd ((detectFreq (df.rows.map Row.date)).getD .D) first.date t) ∧
      (∀ r ∈ df.rows, r.date ∈ out.rows.map Row.date → r ∈ out.rows) ∧
      (∀ r ∈ out.rows, r ∈ df.rows ∨ (r.date ∉ df.rows.map Row.date ∧ r.y = none ∧ r.weight = none)) := by
  rw [isCalendar_unique civil hc, isWeek_unique wd hw]
  rcases interpolateDf_cases df out hd h with h | ⟨a, b, xs, hn, ha, hb, hxs, rfl⟩
  · exact .inl h
  right
  obtain ⟨ha1, ha2⟩ := (listMin_some _ _).1 ha
  obtain ⟨hb1, hb2⟩ := (listMax_some _ _).1 hb
  obtain ⟨first, hf1, rfl⟩ := List.mem_map.1 ha1
  obtain ⟨last, hl1, rfl⟩ := List.mem_map.1 hb1
  have hvalid := detectFreq_valid (df.rows.map Row.date)
  have htr : (detectFreq (df.rows.map Row.date)).getD .D = .H ∨ (detectFreq (df.rows.map Row.date)).getD .D = .D ∨
      todOf first.date ≤ todOf last.date := by
    rcases htod first hf1 last hl1 with h1 | h1
    · right; right; rw [(tod_eq_iff _ _).1 h1]
    · left; simp [h1]
  generalize (detectFreq (df.rows.map Row.date)).getD .D = f at *
  have hlen : xs.length = (dateRange first.date last.date f).length := by
    rw [(toIntCol_spec _ _ hxs).1, interpolateCol, interpolateFrom_length, List.length_map]
  refine ⟨first, hf1, last, hl1, ?_, hd, rfl, ?_, ?_, ?_, ?_⟩
  · intro r hr
    exact ⟨ha2 _ (List.mem_map.2 ⟨r, hr, rfl⟩), hb2 _ (List.mem_map.2 ⟨r, hr, rfl⟩)⟩
  · simp only [fillRows_dates _ _ _ hlen]; exact dateRange_sorted _ _ _
  · intro t
    simp only [fillRows_dates _ _ _ hlen]
    exact mem_dateRange f hvalid _ _ t htr
  · intro r hr hmem
    simp only [fillRows_dates _ _ _ hlen] at hmem
    obtain ⟨i, hi⟩ := List.getElem?_of_mem hmem
    have hfind := findRow_of_mem df.rows hn r hr
    have hx : xs[i]? = some r.x := by
      apply (toIntCol_spec _ _ hxs).2
      apply interpolateFrom_known
      simp [List.getElem?_map, hi, hfind]
    have := fillRows_get _ df.rows xs i _ _ hi hx
    rw [hfind] at this
    exact List.mem_of_getElem? this
  · intro r hr
    obtain ⟨i, hi⟩ := List.getElem?_of_mem hr
    simp only at hi
    have hil : i < (dateRange first.date last.date f).length := by
      have := (List.getElem?_eq_some_iff.1 hi).1
      rwa [fillRows_length _ _ _ hlen] at this
    have hg := List.getElem?_eq_getElem hil
    have hx := List.getElem?_eq_getElem (show i < xs.length by omega)
    have hrow := fillRows_get _ df.rows xs i _ _ hg hx
    rw [hi] at hrow
    simp only [Option.some.injEq] at hrow
    cases hfr : findRow df.rows ((dateRange first.date last.date f)[i]) with
    | none =>
      right
      rw [hfr] at hrow
      subst hrow
      exact ⟨findRow_none _ _ hfr, rfl, rfl⟩
    | some q =>
      left
      obtain ⟨hq1, hq2⟩ := findRow_some _ _ _ hfr
      have hxq : xs[i]? = some q.x := by
        apply (toIntCol_spec _ _ hxs).2
        apply interpolateFrom_known
        simp [List.getElem?_map, hg, hfr]
      rw [hfr] at hrow
      rw [hx, Option.some.injEq] at hxq
      rw [hxq, ← hq2] at hrow
      subst hrow
      exact hq1

/-- A daily series with a missing day. -/
example : interpolateDf (K := ℚ) ⟨true, false, [⟨0, 3, some 1, none⟩, ⟨DAY, 4, some 2, none⟩, ⟨3 * DAY, 6, some 4, none⟩]⟩ =
    .ok ⟨true, false, [⟨0, 3, some 1, none⟩, ⟨DAY, 4, some 2, none⟩, ⟨2 * DAY, 5, none, none⟩, ⟨3 * DAY, 6, some 4, none⟩]⟩ := by
  decide +kernel

/-! x stays consistent with dates -/

theorem nextVal_linear (A c : ℚ) (l : List (Option ℚ)) (i : Nat)
    (hl : ∀ (j : Nat) (v : ℚ), l[j]? = some (some v) → v = A + c * ((i + j : Nat) : ℚ))
    (n : Nat) (b : ℚ) (h : nextVal l = some (n, b)) : b + c = A + c * ((i + n : Nat) : ℚ) := by
  induction l generalizing i n with
  | nil => simp [nextVal] at h
  | cons a l ih =>
    cases a with
    | some v =>
      simp only [nextVal, Option.some.injEq, Prod.mk.injEq] at h
      obtain ⟨rfl, rfl⟩ := h
      have := hl 0 v (by simp)
      rw [this]; push_cast; ring
    | none =>
      simp only [nextVal] at h
      cases hn : nextVal l with
      | none => rw [hn] at h; simp at h
      | some p =>
        rw [hn] at h
        simp only [Option.map_some, Option.some.injEq, Prod.mk.injEq] at h
        obtain ⟨rfl, rfl⟩ := h
        have := ih (i + 1) (fun j v hv => by
          have := hl (j + 1) v (by simpa using hv)
          rw [this]; push_cast; ring) p.1 (by rw [hn])
        rw [this]; push_cast; ring

theorem nextVal_none (l : List (Option ℚ)) (h : nextVal l = none) (j : Nat) (v : ℚ) : l[j]? ≠ some (some v) := by
  induction l generalizing j with
  | nil => simp
  | cons a l ih =>
    cases a with
    | some w => simp [nextVal] at h
    | none =>
      simp only [nextVal, Option.map_eq_none_iff] at h
      cases j with
      | zero => simp
      | succ j => simpa using ih h j

theorem interp_linear (A c : ℚ) (l : List (Option ℚ)) (i : Nat)
    (hl : ∀ (j : Nat) (v : ℚ), l[j]? = some (some v) → v = A + c * ((i + j : Nat) : ℚ))
    (hlast : l = [] ∨ ∃ v, l.getLast? = some (some v)) :
    interpolateFrom (some (A + c * (i : ℚ) - c)) l = (List.range l.length).map fun j : Nat => some (A + c * ((i + j : Nat) : ℚ)) := by
  induction l generalizing i with
  | nil => rfl
  | cons a l ih =>
    have hlast' : l = [] ∨ ∃ v, l.getLast? = some (some v) := by
      cases l with
      | nil => exact .inl rfl
      | cons b l =>
        right
        rcases hlast with h | h
        · simp at h
        · simpa using h
    have ih := ih (i + 1) (fun j v hv => by
          have := hl (j + 1) v (by simpa using hv)
          rw [this]; push_cast; ring) hlast'
    rw [List.length_cons, List.range_succ_eq_map, List.map_cons, List.map_map]
    have e1 : (A + c * ((i + 1 : Nat) : ℚ) - c) = A + c * (i : ℚ) := by push_cast; ring
    rw [e1] at ih
    have e2 : (fun j : Nat => some (A + c * ((i + 1 + j : Nat) : ℚ))) = ((fun j : Nat => some (A + c * ((i + j : Nat) : ℚ))) ∘ Nat.succ) := by
      funext j; simp only [Function.comp, Option.some.injEq]; push_cast; ring
    rw [← e2, ← ih]
    cases a with
    | some v =>
      have hv := hl 0 v (by simp)
      simp only [Nat.add_zero] at hv
      simp only [interpolateFrom, Nat.add_zero, hv]
    | none =>
      have hne : l ≠ [] := by
        rintro rfl
        rcases hlast with h | ⟨v, h⟩ <;> simp at h
      have hval : interpStep (A + c * (i : ℚ) - c) (nextVal l) = A + c * (i : ℚ) := by
        cases hn : nextVal l with
        | none =>
          exfalso
          rcases hlast' with h | ⟨v, h⟩
          · exact hne h
          · rw [List.getLast?_eq_getElem?] at h
            exact nextVal_none l hn _ v h
        | some p =>
          have := nextVal_linear A c l (i + 1) (fun j v hv => by
            have := hl (j + 1) v (by simpa using hv)
            rw [this]; push_cast; ring) p.1 p.2 (by rw [hn])
          have h2 : p.2 = A + c * ((i + 1 + p.1 : Nat) : ℚ) - c := by linarith
          have h3 : ((p.1 : ℚ) + 1) ≠ 0 := by positivity
          simp only [interpStep, h2]
          field_simp
          push_cast
          ring
      simp only [interpolateFrom, Nat.add_zero]
      rw [hval]

theorem toIntCol_ints (l : List Int) : toIntCol (l.map fun v : Int => some (v : ℚ)) = .ok l := by
  induction l with
  | nil => rfl
  | cons a l ih => simp [toIntCol, ih, bind, Except.bind]

/-- Number of days between neighbouring dates of a daily or weekly grid. -/
def Spec.stepDays : Freq → Int
  | .W _ => 7
  | _ => 1

/-- A daily or weekly range between two grid points. -/
theorem dateRange_steps (f : Freq) (hf : f = .D ∨ ∃ w, f = .W w) (hv : ValidFreq f) (a : Int) (n : Nat)
    (hon : OnGrid civilOfDay weekdayOfDay f a a) :
    dateRange a (a + (n : Int) * (stepDays f * DAY)) f = (List.range (n + 1)).map fun i : Nat => a + (i : Int) * (stepDays f * DAY) := by
  apply sorted_ext
  · exact dateRange_sorted _ _ _
  · rw [List.pairwise_map]
    refine List.pairwise_lt_range.imp fun {i j} h => ?_
    rcases hf with rfl | ⟨w, rfl⟩ <;> simp only [stepDays, DAY] <;> omega
  · intro t
    rw [mem_dateRange f hv]
    · simp only [List.mem_map, List.mem_range]
      rcases hf with rfl | ⟨w, rfl⟩
      · simp only [OnGrid, stepDays, DAY, dayNs]
        constructor
        · intro h; exact ⟨((t - a) / 86400000000000).toNat, by omega, by omega⟩
        · rintro ⟨i, hi, rfl⟩; omega
      · simp only [OnGrid, stepDays, DAY, dayNs, weekdayOfDay] at hon ⊢
        constructor
        · intro h; exact ⟨((t - a) / (7 * 86400000000000)).toNat, by omega, by omega⟩
        · rintro ⟨i, hi, rfl⟩; omega
    · right; right
      have : todOf (a + (n : Int) * (stepDays f * DAY)) = todOf a := by
        rcases hf with rfl | ⟨w, rfl⟩ <;> simp only [stepDays, todOf, DAY] <;> omega
      omega

/-- **C25** (x of daily and weekly data) If differences of x are differences of days in the input and the first and last dates are on
the grid, then gap filling does not fail, and differences of x are differences of days in its result. -/
theorem C25_x_consistent_partial (wd : Int → Int) (hw : IsWeek wd) (df : Frame K) (hd : df.hasDate = true)
    (hx : ∀ r ∈ df.rows, ∀ r' ∈ df.rows, r.date - r'.date = (r.x - r'.x) * dayNs)
    (hn : (df.rows.map Row.date).Nodup)
    (hf : (detectFreq (df.rows.map Row.date)).getD .D = .D ∨
      ∃ w, detectFreq (df.rows.map Row.date) = some (.W w) ∧ ∀ r ∈ df.rows, wd (r.date / dayNs) = w) :
    ∃ out, interpolateDf df = .ok out ∧
      ∀ r ∈ out.rows, ∀ r' ∈ df.rows, r.date - r'.date = (r.x - r'.x) * dayNs := by
  rw [isWeek_unique wd hw] at hf
  have hdup := (hasDup_false _).2 hn
  have hvalid := detectFreq_valid (df.rows.map Row.date)
  unfold interpolateDf
  simp only [hd, if_true, hdup]
  split
  · exact ⟨df, rfl, hx⟩
  rw [if_neg (by simp)]
  cases ha : listMin (df.rows.map Row.date) with
  | none => exact ⟨df, rfl, hx⟩
  | some a =>
  cases hb : listMax (df.rows.map Row.date) with
  | none => exact ⟨df, rfl, hx⟩
  | some b =>
  simp only
  obtain ⟨ha1, ha2⟩ := (listMin_some _ _).1 ha
  obtain ⟨hb1, hb2⟩ := (listMax_some _ _).1 hb
  obtain ⟨first, hf1, rfl⟩ := List.mem_map.1 ha1
  obtain ⟨last, hl1, rfl⟩ := List.mem_map.1 hb1
  generalize hff : (detectFreq (df.rows.map Row.date)).getD .D = f at *
  have hkind : f = .D ∨ ∃ w, f = .W w := by
    rcases hf with h | ⟨w, h, _⟩
    · exact .inl h
    · right; rw [h] at hff; exact ⟨w, hff.symm⟩
  have hle := ha2 _ hb1
  have hmult : ∀ r ∈ df.rows, ∃ n : Nat, r.date = first.date + (n : Int) * (stepDays f * DAY) := by
    intro r hr
    have h1 := ha2 _ (List.mem_map.2 ⟨r, hr, rfl⟩)
    have h2 := hx r hr first hf1
    rcases hf with rfl | ⟨w, h, hwd⟩
    · refine ⟨(r.x - first.x).toNat, ?_⟩
      simp only [stepDays, DAY, dayNs] at *; omega
    · rw [h] at hff
      simp only [Option.getD_some] at hff
      subst hff
      have e1 := hwd r hr
      have e2 := hwd first hf1
      simp only [stepDays, DAY, dayNs, weekdayOfDay] at *
      exact ⟨((r.x - first.x) / 7).toNat, by omega⟩
  have hon : OnGrid civilOfDay weekdayOfDay f first.date first.date := by
    rcases hf with rfl | ⟨w, h, hwd⟩
    · simp [OnGrid]
    · rw [h] at hff
      simp only [Option.getD_some] at hff
      subst hff
      exact ⟨by simp, hwd first hf1⟩
  obtain ⟨n, hn'⟩ := hmult last hl1
  rw [hn', dateRange_steps f hkind hvalid first.date n hon]
  -- the column of x values
  have hS : 0 < stepDays f ∧ (stepDays f * DAY = stepDays f * dayNs) := by
    rcases hkind with rfl | ⟨w, rfl⟩ <;> simp [stepDays, dayNs_eq]
  have hxrow : ∀ (i : Nat) (r : Row K), r ∈ df.rows → r.date = first.date + (i : Int) * (stepDays f * DAY) →
      r.x = first.x + stepDays f * (i : Int) := by
    intro i r hr e
    have h2 := hx r hr first hf1
    rcases hkind with rfl | ⟨w, rfl⟩ <;> simp only [stepDays, DAY, dayNs] at * <;> omega
  have hcol : interpolateCol ((((List.range (n + 1)).map fun i : Nat => first.date + (i : Int) * (stepDays f * DAY)).map
      fun t => (t, findRow df.rows t)).map fun p => p.2.map fun r => ((r.x : Int) : ℚ)) =
      ((List.range (n + 1)).map fun i : Nat => first.x + stepDays f * (i : Int)).map fun v : Int => some (v : ℚ) := by
    unfold interpolateCol
    rw [List.map_map, List.map_map, List.range_succ_eq_map, List.map_cons, List.map_cons]
    have h0 := findRow_of_mem df.rows hn first hf1
    simp only [Function.comp, Nat.cast_zero, Int.zero_mul, Int.add_zero, h0, Option.map_some]
    simp only [interpolateFrom]
    rw [List.map_map]
    change some (first.x : ℚ) :: interpolateFrom (some (first.x : ℚ)) (List.map ((fun x : Nat => Option.map (fun r : Row K => ((r.x : Int) : ℚ)) (findRow df.rows (first.date + (x : Int) * (stepDays f * DAY)))) ∘ Nat.succ)
        (List.range n)) = _
    have hlin := interp_linear (first.x : ℚ) (stepDays f : ℚ)
      (List.map ((fun x : Nat => Option.map (fun r : Row K => ((r.x : Int) : ℚ)) (findRow df.rows (first.date + (x : Int) * (stepDays f * DAY)))) ∘ Nat.succ)
        (List.range n)) 1 ?_ ?_
    · rw [show ((first.x : ℚ) + (stepDays f : ℚ) * ((1 : Nat) : ℚ) - (stepDays f : ℚ)) = (first.x : ℚ) by push_cast; ring] at hlin
      rw [hlin]
      simp only [List.map_cons, List.map_map, List.length_map, List.length_range]
      congr 1
      · simp
      · apply List.map_congr_left
        intro j _
        simp only [Function.comp, Option.some.injEq]
        push_cast; ring
    · intro j v hv
      simp only [List.getElem?_map, Option.map_eq_some_iff, Function.comp] at hv
      obtain ⟨j', hj', r, hr, rfl⟩ := hv
      have hj : j' = j := by
        have := List.getElem?_eq_some_iff.1 hj'
        obtain ⟨h1, h2⟩ := this
        simpa using h2.symm
      subst hj
      obtain ⟨hr1, hr2⟩ := findRow_some _ _ _ hr
      have := hxrow (Nat.succ j') r hr1 hr2
      rw [this]; push_cast; ring
    · cases n with
      | zero => left; simp
      | succ n =>
        right
        refine ⟨(last.x : ℚ), ?_⟩
        rw [List.range_succ, List.map_append]
        simp only [List.map_cons, List.map_nil, List.getLast?_append, List.getLast?_singleton, Option.some_or, Function.comp,
          Option.some.injEq]
        rw [Nat.succ_eq_add_one, ← hn', findRow_of_mem df.rows hn last hl1]
        rfl
  rw [hcol, toIntCol_ints]
  refine ⟨_, rfl, ?_⟩
  intro r hr r' hr'
  obtain ⟨i, hi⟩ := List.getElem?_of_mem hr
  simp only at hi
  change (fillRows _ df.rows _)[i]? = some r at hi
  have hil : i < n + 1 := by
    have := (List.getElem?_eq_some_iff.1 hi).1
    rw [fillRows_length _ _ _ (by simp)] at this
    simpa using this
  rw [fillRows_get _ df.rows _ i (first.date + (i : Int) * (stepDays f * DAY)) (first.x + stepDays f * (i : Int))
    (by simp [List.getElem?_map, List.getElem?_range, hil]) (by simp [List.getElem?_map, List.getElem?_range, hil])] at hi
  simp only [Option.some.injEq] at hi
  subst hi
  have h1 := hx first hf1 r' hr'
  simp only
  rcases hkind with rfl | ⟨w, rfl⟩ <;> simp only [stepDays, DAY, dayNs] at * <;> omega

/-- Weekly data with two missing weeks. -/
example : interpolateDf (K := ℚ) ⟨true, false, [⟨0, 3, some 1, none⟩, ⟨7 * DAY, 10, some 2, none⟩, ⟨28 * DAY, 31, some 4, none⟩]⟩ =
    .ok ⟨true, false, [⟨0, 3, some 1, none⟩, ⟨7 * DAY, 10, some 2, none⟩, ⟨14 * DAY, 17, none, none⟩, ⟨21 * DAY, 24, none, none⟩,
      ⟨28 * DAY, 31, some 4, none⟩]⟩ := by
  decide +kernel

/-- **C25 refuted for monthly data**: 2021-01-01, 2021-03-01, 2021-04-01 (x = 0, 59, 90); the new row for 2021-02-01 gets x = 29, although it is
31 days after the first date. -/
theorem C25_counterexample_monthly :
    (interpolateDf (K := ℚ) ⟨true, false, [⟨ofCivil 2021 1 1 * DAY, 0, some 1, none⟩, ⟨ofCivil 2021 3 1 * DAY, 59, some 2, none⟩,
      ⟨ofCivil 2021 4 1 * DAY, 90, some 4, none⟩]⟩).map (fun o => o.rows.map fun r => (r.date, r.x)) =
    .ok [(ofCivil 2021 1 1 * DAY, 0), (ofCivil 2021 2 1 * DAY, 29), (ofCivil 2021 3 1 * DAY, 59), (ofCivil 2021 4 1 * DAY, 90)] := by
  decide +kernel

/-- **C25** (no gaps) A series whose dates are sorted and form a regular grid without holes is returned unchanged. -/
theorem C25_no_gaps (civil : Int → Int × Int × Int) (hc : IsCalendar civil) (wd : Int → Int) (hw : IsWeek wd)
    (f : Freq) (hf : ValidFreq f) (df : Frame K) (hd : df.hasDate = true) (o : Int)
    (hsorted : (df.rows.map Row.date).Pairwise (· < ·))
    (hgrid : ∀ r ∈ df.rows, OnGrid civil wd f o r.date)
    (hfull : ∀ t, OnGrid civil wd f o t → (∃ r ∈ df.rows, r.date ≤ t) → (∃ r ∈ df.rows, t ≤ r.date) → t ∈ df.rows.map Row.date)
    (hnb : ∃ r ∈ df.rows, ∃ r' ∈ df.rows, Neighbours civil wd f r.date r'.date) :
    interpolateDf df = .ok df := by
  have hdet : detectFreq (df.rows.map Row.date) = some f := by
    apply C19_detect_freq civil hc wd hw f hf _ o
    · intro t ht
      obtain ⟨r, hr, rfl⟩ := List.mem_map.1 ht
      exact hgrid r hr
    · obtain ⟨r, hr, r', hr', h⟩ := hnb
      exact ⟨_, List.mem_map.2 ⟨r, hr, rfl⟩, _, List.mem_map.2 ⟨r', hr', rfl⟩, h⟩
  rw [isCalendar_unique civil hc, isWeek_unique wd hw] at *
  have hn : (df.rows.map Row.date).Nodup := hsorted.imp fun h => by omega
  have hdup := (hasDup_false _).2 hn
  unfold interpolateDf
  simp only [hd, if_true, hdup, hdet, Option.getD_some]
  split
  · rfl
  rw [if_neg (by simp)]
  cases ha : listMin (df.rows.map Row.date) with
  | none => rfl
  | some a =>
  cases hb : listMax (df.rows.map Row.date) with
  | none => rfl
  | some b =>
  simp only
  obtain ⟨ha1, ha2⟩ := (listMin_some _ _).1 ha
  obtain ⟨hb1, hb2⟩ := (listMax_some _ _).1 hb
  obtain ⟨first, hf1, rfl⟩ := List.mem_map.1 ha1
  obtain ⟨last, hl1, rfl⟩ := List.mem_map.1 hb1
  -- origin change
  have horigin : ∀ t, OnGrid civilOfDay weekdayOfDay f first.date t ↔ OnGrid civilOfDay weekdayOfDay f o t := by
    intro t
    have h0 := hgrid first hf1
    have h1 : f ≠ .H → ((t - first.date) % dayNs = 0 ↔ (t - o) % dayNs = 0) := by
      intro hH
      have h0 : (first.date - o) % dayNs = 0 := by cases f <;> simp_all [OnGrid]
      simp only [dayNs] at *; omega
    cases f
    case H => simp only [OnGrid, hourNs] at h0 ⊢; omega
    all_goals simp only [OnGrid, h1 (by simp)]
  have hrange : f = .H ∨ f = .D ∨ todOf first.date ≤ todOf last.date := by
    by_cases hH : f = .H
    · exact .inl hH
    · right; right
      have h1 := ((onGrid_iff f hf hH _ _).1 (hgrid first hf1)).1
      have h2 := ((onGrid_iff f hf hH _ _).1 (hgrid last hl1)).1
      omega
  have hdates : dateRange first.date last.date f = df.rows.map Row.date := by
    apply sorted_ext (dateRange_sorted _ _ _) hsorted
    intro t
    rw [mem_dateRange f hf _ _ t hrange, horigin]
    constructor
    · rintro ⟨h1, h2, h3⟩
      exact hfull t h3 ⟨first, hf1, h1⟩ ⟨last, hl1, h2⟩
    · intro ht
      refine ⟨ha2 _ ht, hb2 _ ht, ?_⟩
      obtain ⟨r, hr, rfl⟩ := List.mem_map.1 ht
      exact hgrid r hr
  rw [hdates]
  have hfound : (df.rows.map Row.date).map (fun t => (t, findRow df.rows t)) = df.rows.map fun r => (r.date, some r) := by
    rw [List.map_map]
    apply List.map_congr_left
    intro r hr
    simp only [Function.comp, findRow_of_mem df.rows hn r hr]
  rw [hfound]
  have hcol : interpolateCol ((df.rows.map fun r => (r.date, some r)).map fun p => p.2.map fun r : Row K => ((r.x : Int) : ℚ)) =
      (df.rows.map Row.x).map fun v : Int => some (v : ℚ) := by
    simp only [List.map_map, Function.comp_def, Option.map_some]
    unfold interpolateCol
    generalize (none : Option ℚ) = p
    induction df.rows generalizing p with
    | nil => rfl
    | cons r l ih => simp only [List.map_cons, interpolateFrom]; rw [ih]
  rw [hcol, toIntCol_ints]
  simp only [Except.ok.injEq]
  have : ∀ l : List (Row K), List.zipWith (fun (p : Int × Option (Row K)) (x : Int) =>
      ({ date := p.1, x := x, y := p.2.bind Row.y, weight := p.2.bind Row.weight } : Row K))
      (l.map fun r => (r.date, some r)) (l.map Row.x) = l := by
    intro l
    induction l with
    | nil => rfl
    | cons r l ih => simp only [List.map_cons, List.zipWith_cons_cons, ih]; rfl
  rw [this]
  cases df; simp_all

/-- Three month starts. -/
example : interpolateDf (K := ℚ) ⟨true, false, [⟨ofCivil 2021 1 1 * DAY, 0, some 1, none⟩, ⟨ofCivil 2021 2 1 * DAY, 31, some 2, none⟩,
      ⟨ofCivil 2021 3 1 * DAY, 59, some 4, none⟩]⟩ =
    .ok ⟨true, false, [⟨ofCivil 2021 1 1 * DAY, 0, some 1, none⟩, ⟨ofCivil 2021 2 1 * DAY, 31, some 2, none⟩,
      ⟨ofCivil 2021 3 1 * DAY, 59, some 4, none⟩]⟩ := by decide +kernel

/-- **C25** (several samples per date) An irregular series with a repeated date is rejected with a `ValueError`. -/
theorem C25_duplicates (df : Frame K) (hd : df.hasDate = true) (hdup : ¬ (df.rows.map Row.date).Nodup) :
    interpolateDf df = .ok df ∨ interpolateDf df = .error .valueError := by
  have hdup : hasDup (df.rows.map Row.date) = true := by
    rw [← hasDup_false] at hdup; simpa using hdup
  unfold interpolateDf
  simp only [hd, if_true, hdup]
  split
  · exact .inl rfl
  · exact .inr rfl

example : interpolateDf (K := ℚ) ⟨true, false, [⟨0, 3, some 1, none⟩, ⟨DAY, 4, some 2, none⟩, ⟨DAY, 4, some 2, none⟩, ⟨3 * DAY, 6, some 4, none⟩]⟩ =
    .error .valueError := by decide +kernel

/-- **C25** (series without dates) If x repeats no value, gap filling never fails; its x values are all integers from the first
to the last x in order, observed rows are kept, the others have null y and weight. -/
theorem C25_numeric (df : Frame K) (hd : df.hasDate = false) (hn : (df.rows.map Row.x).Nodup) :
    ∃ out, interpolateDf df = .ok out ∧ (out = df ∨
      ((∃ a ∈ df.rows, ∃ b ∈ df.rows, (∀ r ∈ df.rows, a.x ≤ r.x ∧ r.x ≤ b.x) ∧
        out.rows.map Row.x = (List.range (b.x + 1 - a.x).toNat).map fun i : Nat => a.x + (i : Int)) ∧
      (∀ r ∈ df.rows, r ∈ out.rows) ∧
      (∀ r ∈ out.rows, r ∈ df.rows ∨ (r.x ∉ df.rows.map Row.x ∧ r.y = none ∧ r.weight = none)))) := by
  have hdup := (hasDup_false _).2 hn
  unfold interpolateDf
  simp only [hd, Bool.false_eq_true, if_false, hdup]
  split
  · exact ⟨df, rfl, .inl rfl⟩
  cases ha : listMin (df.rows.map Row.x) with
  | none => exact ⟨df, rfl, .inl rfl⟩
  | some a =>
  cases hb : listMax (df.rows.map Row.x) with
  | none => exact ⟨df, rfl, .inl rfl⟩
  | some b =>
  obtain ⟨ha1, ha2⟩ := (listMin_some _ _).1 ha
  obtain ⟨hb1, hb2⟩ := (listMax_some _ _).1 hb
  obtain ⟨first, hf1, rfl⟩ := List.mem_map.1 ha1
  obtain ⟨last, hl1, rfl⟩ := List.mem_map.1 hb1
  refine ⟨_, rfl, .inr ⟨⟨first, hf1, last, hl1, ?_, ?_⟩, ?_, ?_⟩⟩
  · intro r hr
    exact ⟨ha2 _ (List.mem_map.2 ⟨r, hr, rfl⟩), hb2 _ (List.mem_map.2 ⟨r, hr, rfl⟩)⟩
  · simp only [List.map_map]
    apply List.map_congr_left
    intro i _
    simp only [Function.comp]
    split
    · rename_i r hr
      have := List.find?_some hr
      simpa using this
    · rfl
  · intro r hr
    have h1 := ha2 _ (List.mem_map.2 ⟨r, hr, rfl⟩)
    have h2 := hb2 _ (List.mem_map.2 ⟨r, hr, rfl⟩)
    rw [List.mem_map]
    refine ⟨(r.x - first.x).toNat, by rw [List.mem_range]; omega, ?_⟩
    have e : first.x + ((r.x - first.x).toNat : Int) = r.x := by omega
    rw [e]
    have hfind : df.rows.find? (fun q => decide (q.x = r.x)) = some r := by
      clear ha hb ha1 ha2 hb1 hb2 hf1 hl1 h1 h2 hdup
      revert hn hr
      generalize df.rows = rows
      intro hn hr
      induction rows with
      | nil => simp at hr
      | cons q l ih =>
        simp only [List.map_cons, List.nodup_cons] at hn
        rw [List.find?_cons]
        by_cases hq : q.x = r.x
        · simp only [hq, decide_true]
          rcases List.mem_cons.1 hr with rfl | hm
          · rfl
          · exact absurd (List.mem_map.2 ⟨r, hm, hq.symm⟩) hn.1
        · simp only [hq, decide_false]
          rcases List.mem_cons.1 hr with rfl | hm
          · exact absurd rfl hq
          · exact ih hn.2 hm
    rw [hfind]
  · intro r hr
    obtain ⟨i, _, rfl⟩ := List.mem_map.1 hr
    split
    · rename_i q hq
      exact .inl (List.mem_of_find?_eq_some hq)
    · rename_i hq
      right
      refine ⟨?_, rfl, rfl⟩
      rw [List.find?_eq_none] at hq
      intro hc
      obtain ⟨q, hq1, hq2⟩ := List.mem_map.1 hc
      exact hq q hq1 (by simpa using hq2)

example : (interpolateDf (K := ℚ) ⟨false, false, [⟨0, 3, some 1, none⟩, ⟨0, 4, some 2, none⟩, ⟨0, 6, some 4, none⟩]⟩).map
    (fun o => o.rows.map fun r => (r.x, r.y)) = .ok [(3, some 1), (4, some 2), (5, none), (6, some 4)] := by decide +kernel

end Anticipy

#print axioms Anticipy.C25_fill
#print axioms Anticipy.C25_x_consistent_partial
#print axioms Anticipy.C25_counterexample_monthly
#print axioms Anticipy.C25_no_gaps
#print axioms Anticipy.C25_duplicates
#print axioms Anticipy.C25_numeric
