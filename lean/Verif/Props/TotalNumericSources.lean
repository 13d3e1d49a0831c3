import Verif.Props.TotalNumeric

/-
C82: tables with several sources without dates.
-/
namespace Anticipy
open Spec
variable {K : Type} [Field K] [LinearOrder K]

omit [Field K] [LinearOrder K] in
/-- The coordinate of rows without dates: given, or the position. -/
theorem undated_coordinates (t : STable K) (part : List (SRow K)) (hd : t.hasDate = false) (hdist : t.hasX = true → (part.map SRow.x).Nodup) :
    ∃ rows, withX t part = .ok rows ∧ (rows.map SRow.x).Nodup ∧ rows.map (fun r => (r.source, r.y, r.weight)) = part.map fun r => (r.source, r.y, r.weight) := by
  unfold withX
  by_cases h : t.hasX = true
  · rw [if_pos h]
    exact ⟨_, rfl, hdist h, rfl⟩
  · rw [if_neg h, hd]
    refine ⟨_, rfl, ?_, ?_⟩
    · have e : (assignX part ((List.range part.length).map fun i : Nat => (i : Int))).map SRow.x = (List.range part.length).map fun i : Nat => (i : Int) := by
        apply List.ext_getElem
        · simp [assignX]
        · intro i h1 h2
          simp [assignX]
      rw [e]
      exact List.Nodup.map (fun i j h => by simpa using h) List.nodup_range
    · apply List.ext_getElem
      · simp [assignX]
      · intro i h1 h2
        simp [assignX]

/-- A source of a table without dates, as the series that the run works on. -/
theorem numeric_source [IsStrictOrderedRing K] [FloorRing K] (w : World K) (args : RunArgs K) (id : String) (t : STable K) (hs : t.hasSource = true) (hd : t.hasDate = false) (s : String)
    (hm : ∃ r ∈ t.rows, r.source = some s) (hdist : t.hasX = true → ((only s t).rows.map SRow.x).Nodup) :
    ∃ df : Frame K, df.hasDate = false ∧ (df.rows.Pairwise fun a b => a.x < b.x) ∧ df.hasWeight = t.hasWeight ∧
      runForecast w args id (only s t) = (runSingle w args s df).map some ∧
      (df.rows.map fun r => (r.y, r.weight)).Perm ((only s t).rows.map fun r => (r.y, r.weight)) ∧
      ∃ rows, withX (only s t) (only s t).rows = .ok rows ∧ (df.rows.map fun r => (r.x, r.y, r.weight)).Perm (rows.map fun r => (r.x, r.y, r.weight)) := by
  have hmo : ∃ r ∈ (only s t).rows, r.source = some s := by
    obtain ⟨r, hr, e⟩ := hm
    exact ⟨r, List.mem_filter.2 ⟨hr, by simp [e]⟩, e⟩
  have hne : (only s t).rows ≠ [] := by
    obtain ⟨r, hr, -⟩ := hmo
    exact List.ne_nil_of_mem hr
  have hsrc : ∀ q ∈ (only s t).rows, q.source = some s := fun q hq => of_decide_eq_true (List.mem_filter.1 hq).2
  have hpart : sourcePart (only s t).rows (some s) = (only s t).rows := by
    unfold sourcePart
    rw [List.filter_eq_self]
    intro q hq
    simp [hsrc q hq]
  obtain ⟨rows, hr, hnd, hyw⟩ := undated_coordinates (only s t) (only s t).rows hd hdist
  have hsrc' : ∀ q ∈ rows, q.source = some s := by
    intro q hq
    have : (q.source, q.y, q.weight) ∈ rows.map fun r => (r.source, r.y, r.weight) := List.mem_map.2 ⟨q, hq, rfl⟩
    rw [hyw] at this
    obtain ⟨q0, h0, e⟩ := List.mem_map.1 this
    rw [← (Prod.mk.inj e).1]
    exact hsrc q0 h0
  have hnorm : normalizeDf w.srt (only s t) = .ok (some { only s t with hasX := true, rows := sortBy sourceXLe rows }) := by
    unfold normalizeDf
    rw [if_neg hne, if_pos (show (only s t).hasSource = true from hs), dedup_const _ (some s) (by
      intro b hb
      obtain ⟨r, hr, rfl⟩ := List.mem_map.1 hb
      exact hsrc r hr) (by simpa using hne)]
    simp only [collectSources, bind, Except.bind, hpart, hr, List.append_nil]
  have hperm := sortBy_perm sourceXLe rows
  have hpart' : sourcePart (sortBy sourceXLe rows) (some s) = sortBy sourceXLe rows := by
    unfold sourcePart
    rw [List.filter_eq_self]
    intro q hq
    simp [hsrc' q (hperm.mem_iff.1 hq)]
  have hrun := runForecast_only w args id (only s t) _ hs hnorm s hmo
  have hoo : only s (only s t) = only s t := by
    unfold only
    simp [List.filter_filter]
  rw [hoo] at hrun
  dsimp only at hrun
  rw [hpart'] at hrun
  refine ⟨_, ?_, ?_, ?_, hrun, ?_, rows, hr, ?_⟩
  · exact hd
  · have hsorted := sortBy_sorted sourceXLe sourceXLe_trans sourceXLe_total rows
    have hn : ((sortBy sourceXLe rows).map SRow.x).Nodup := (hperm.map SRow.x).nodup_iff.2 hnd
    unfold frameOf
    dsimp only
    rw [List.pairwise_map]
    refine (List.Pairwise.and_mem.1 (hsorted.and (List.pairwise_map.1 hn))).imp ?_
    rintro a b ⟨ha, hb, h1, h2⟩
    have ea := hsrc' a (hperm.mem_iff.1 ha)
    have eb := hsrc' b (hperm.mem_iff.1 hb)
    unfold sourceXLe at h1
    rw [ea, eb] at h1
    have h1 := of_decide_eq_true h1
    rcases h1 with h1 | ⟨-, h1⟩
    · exact absurd h1 (lt_irrefl _)
    · exact lt_of_le_of_ne h1 h2
  · rfl
  · unfold frameOf
    dsimp only
    rw [List.map_map]
    have h1 := hperm.map fun r : SRow K => (r.y, r.weight)
    have h2 := congrArg (List.map Prod.snd) hyw
    rw [List.map_map, List.map_map] at h2
    exact h1.trans (List.Perm.of_eq h2)
  · unfold frameOf
    dsimp only
    rw [List.map_map]
    exact hperm.map _

/-- **C82** for tables with any number of sources without dates: if every source has one sample that counts and no duplicates in a given column x, there is a result. -/
theorem C82_numeric_sources_partial [IsStrictOrderedRing K] [FloorRing K] (w : World K) (args : RunArgs K) (id : String) (t : STable K) (hs : t.hasSource = true)
    (hd : t.hasDate = false) (hne : t.rows ≠ []) (hl : ∀ r ∈ t.rows, r.source ≠ none) (hout : args.findOutliers = false)
    (global : String → Option (CacheFn K)) (reg : Registry K)
    (hsrc : ∀ s, (∃ r ∈ t.rows, r.source = some s) → (t.hasX = true → ((only s t).rows.map SRow.x).Nodup) ∧
      (∃ r ∈ (only s t).rows, r.y ≠ none ∧ (t.hasWeight = true → ∃ v, r.weight = some v ∧ 0 < v)) ∧ UndatedContracts w args s (only s t).rows.length global reg) :
    ∃ res, runForecast w args id t = .ok (some res) := by
  refine C47_succeeds w args id t hs hne hl ?_
  intro s hm
  obtain ⟨hdist, ⟨r, hr, hy, hw⟩, hc⟩ := hsrc s hm
  obtain ⟨df, h1, h2, h3, h4, h5, -⟩ := numeric_source w args id t hs hd s hm hdist
  have hmem : (r.y, r.weight) ∈ df.rows.map fun r => (r.y, r.weight) := h5.mem_iff.2 (List.mem_map.2 ⟨r, hr, rfl⟩)
  obtain ⟨q, hq, e⟩ := List.mem_map.1 hmem
  obtain ⟨ey, ew⟩ := Prod.mk.inj e
  obtain ⟨i, hi⟩ := List.getElem?_of_mem hq
  have hlen : df.rows.length ≤ (only s t).rows.length := by
    have := h5.length_eq
    rw [List.length_map, List.length_map] at this
    exact this.le
  obtain ⟨res, hres⟩ := C82_numeric_partial w args s df h1 h2 ⟨i, q, hi, by rw [ey]; exact hy, by
    unfold givenWeight
    by_cases h : df.hasWeight = true
    · rw [if_pos h, ew]
      exact hw (h3 ▸ h)
    · rw [if_neg h]
      exact ⟨1, rfl, zero_lt_one⟩, by rw [hout]; simp⟩ global reg _ hlen hc
  exact ⟨res, by rw [h4, hres]; rfl⟩

/-- **C82** for the default models on tables with several sources without dates, each of up to 4047 samples. -/
theorem C82_numeric_sources_default_partial (w : World ℝ) (testEnv : Env ℝ) (hw : DefaultChoices w testEnv) (args : RunArgs ℝ)
    (hq : 0 < args.q1 ∧ args.q1 < 100 ∧ 0 < args.q2 ∧ args.q2 < 100)
    (hargs : args.models.trend = none ∧ args.models.season = none ∧ args.models.naive = none)
    (hout : args.findOutliers = false) (id : String) (t : STable ℝ) (hs : t.hasSource = true) (hd : t.hasDate = false) (hne : t.rows ≠ [])
    (hl : ∀ r ∈ t.rows, r.source ≠ none)
    (hsrc : ∀ s, (∃ r ∈ t.rows, r.source = some s) → (only s t).rows.length ≤ 4047 ∧ (t.hasX = true → ((only s t).rows.map SRow.x).Nodup) ∧
      ∃ r ∈ (only s t).rows, r.y ≠ none ∧ (t.hasWeight = true → ∃ v, r.weight = some v ∧ 0 < v)) :
    ∃ res, runForecast w args id t = .ok (some res) := by
  refine C82_numeric_sources_partial w args id t hs hd hne hl hout globalCache globalCache ?_
  intro s hm
  obtain ⟨h1, h2, h3⟩ := hsrc s hm
  exact ⟨h2, h3, undated_contracts w testEnv hw args hq hargs s _ h1⟩

/-- Two sources with default arguments, one of them with a single sample and the other with a null value and values of `x` that are not in order. -/
example (args : RunArgs ℝ) (hargs : args.models = ⟨none, none, .auto, none, none, none, none⟩) (ho : args.findOutliers = false) (hq : args.q1 = 5 ∧ args.q2 = 20) :
    ∃ res, runForecast defaultWorld args "" ⟨false, true, true, false, [⟨0, some "a", 7, some 3, none⟩, ⟨0, some "b", 7, none, none⟩, ⟨0, some "b", 2, some 1, none⟩]⟩ =
      .ok (some res) := by
  refine C82_numeric_sources_default_partial defaultWorld _ defaultWorld_choices args (by rw [hq.1, hq.2]; norm_num) (by rw [hargs]; simp) ho "" _ rfl rfl (by simp) (by simp) ?_
  rintro s ⟨r, hr, e⟩
  simp only [List.mem_cons, List.not_mem_nil, or_false] at hr
  rcases hr with rfl | rfl | rfl <;> (cases e; simp [only])

end Anticipy
