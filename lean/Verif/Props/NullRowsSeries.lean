import Verif.Props.NullRows
import Verif.Props.TableSeries

/-
C84 for each series of a table.
-/
namespace Anticipy
open Spec
variable {K : Type} [Field K] [LinearOrder K] [FloorRing K]

/-- **C84** for one series of a table with any number of sources. -/
theorem C84_series_partial [IsStrictOrderedRing K] (w : World K) (args : RunArgs K) (id : String) (t t' : STable K) (hp : Proper t) (hp' : Proper t') (s : String)
    (hs : IsSeries t id s) (hs' : IsSeries t' id s)
    (hno : t.hasWeight = false) (hno' : t'.hasWeight = false) (hl : TableLeavesOutNulls args.start { t with rows := rowsOf t s } { t' with rows := rowsOf t' s })
    (hout : args.findOutliers = false) (hmode : args.models.mode ≠ .auto ∨ ChoiceIgnoresNulls w.ch.corr)
    (hcand : ∀ dg fr cand, candidates w.ch args.models dg fr = .ok cand → ∀ m ∈ cand.2, IgnoresWeights m)
    (res res' : RunResult K) (hr : runForecast w args id t = .ok (some res)) (hr' : runForecast w args id t' = .ok (some res')) :
    SameUpToNulls (partOf t s res) (partOf t' s res') := by
  obtain ⟨hd, hrun⟩ := series_run w id t hp s hs
  obtain ⟨hd', hrun'⟩ := series_run w id t' hp' s hs'
  have hbase : originOf t' s = originOf t s := by
    have := hl.first
    dsimp only at this
    unfold originOf
    cases h1 : rowsOf t s with
    | nil =>
      cases h2 : rowsOf t' s with
      | nil => rfl
      | cons b l' => rw [h1, h2] at this; cases this
    | cons a l =>
      cases h2 : rowsOf t' s with
      | nil => rw [h1, h2] at this; cases this
      | cons b l' => rw [h1, h2] at this; cases this; rfl
  rw [hbase] at hd'
  have hseries : ∀ t : STable K, ((seriesFrame t s).rows.map fun r => (r.date, r.y, r.weight)).Perm ((rowsOf t s).map fun r => (r.date, r.y, r.weight)) := by
    intro t
    unfold seriesFrame
    rw [List.map_map]
    exact (sortBy_perm _ _).map _
  have hperm := hseries t
  have hperm' := hseries t'
  -- rows of the series and rows of the table
  have hin : ∀ (d : Frame K) (t : STable K), (d.rows.map fun r => (r.date, r.y, r.weight)).Perm (t.rows.map fun r => (r.date, r.y, r.weight)) →
      (∀ r ∈ d.rows, ∃ q ∈ t.rows, q.date = r.date ∧ q.y = r.y ∧ q.weight = r.weight) ∧ ∀ q ∈ t.rows, ∃ r ∈ d.rows, r.date = q.date ∧ r.y = q.y ∧ r.weight = q.weight := by
    intro d t hp
    constructor
    · intro r hr
      obtain ⟨q, hq, e⟩ := List.mem_map.1 (hp.mem_iff.1 (List.mem_map.2 ⟨r, hr, rfl⟩))
      injection e with e1 e2
      injection e2 with e2 e3
      exact ⟨q, hq, e1, e2, e3⟩
    · intro q hq
      obtain ⟨r, hr, e⟩ := List.mem_map.1 (hp.mem_iff.2 (List.mem_map.2 ⟨q, hq, rfl⟩))
      injection e with e1 e2
      injection e2 with e2 e3
      exact ⟨r, hr, e1, e2, e3⟩
  obtain ⟨i1, i2⟩ := hin (seriesFrame t s) { t with rows := rowsOf t s } hperm
  obtain ⟨i3, i4⟩ := hin (seriesFrame t' s) { t' with rows := rowsOf t' s } hperm'
  have hr := hrun args res hr
  have hr' := hrun' args res' hr'
  have hwt : (seriesFrame t s).hasWeight = t.hasWeight := rfl
  have hwt' : (seriesFrame t' s).hasWeight = t'.hasWeight := rfl
  generalize seriesFrame t s = df at *
  generalize seriesFrame t' s = df' at *
  have hdaily : DailySeries df (originOf t s) := by
    obtain ⟨r, hr, -, r', hr', e⟩ := hl.daily
    obtain ⟨q, hq, e1, -⟩ := i2 r (hl.part r hr)
    obtain ⟨q', hq', e2, -⟩ := i2 r' (hl.part r' hr')
    have h1 := hd.days q hq
    have h2 := hd.days q' hq'
    exact ⟨hd.dated, hd.days, hd.sorted, q, hq, q', hq', by omega⟩
  have hdaily' : DailySeries df' (originOf t s) := by
    obtain ⟨r, hr, -, r', hr', e⟩ := hl.daily
    obtain ⟨q, hq, e1, -⟩ := i4 r hr
    obtain ⟨q', hq', e2, -⟩ := i4 r' hr'
    have h1 := hd'.days q hq
    have h2 := hd'.days q' hq'
    exact ⟨hd'.dated, hd'.days, hd'.sorted, q, hq, q', hq', by omega⟩
  have hpart : ∀ r ∈ df'.rows, r ∈ df.rows := by
    intro r hr
    obtain ⟨q, hq, e1, e2, e3⟩ := i3 r hr
    obtain ⟨r', hr', e4, e5, e6⟩ := i2 q (hl.part q hq)
    have h1 := hdaily'.days r hr
    have h2 := hdaily.days r' hr'
    have hx : r'.x = r.x := by omega
    have : r' = r := by
      cases r
      cases r'
      simp only at e1 e2 e3 e4 e5 e6 hx
      subst hx
      rw [e4, e1, e5, e2, e6, e3]
    rw [← this]
    exact hr'
  have hobs : df'.rows.filter (fun r => r.y.isSome) = df.rows.filter fun r => r.y.isSome := by
    have hmk : ∀ (d : Frame K), CountsDays d (originOf t s) → (d.rows.filter fun r => r.y.isSome) =
        ((d.rows.map fun r => (r.date, r.y, r.weight)).filter fun p => p.2.1.isSome).map fun p => ⟨p.1, (p.1 - originOf t s) / (24 * 60 * 60 * 1000000000), p.2.1, p.2.2⟩ := by
      intro d hd
      rw [List.filter_map, List.map_map]
      conv_lhs => rw [← List.map_id (d.rows.filter fun r => r.y.isSome)]
      apply List.map_congr_left
      intro r hr
      have h1 := hd r (List.mem_filter.1 hr).1
      cases r
      simp only [id_eq, Function.comp_apply, Row.mk.injEq, true_and, and_true] at h1 ⊢
      omega
    have hp : (df'.rows.filter fun r => r.y.isSome).Perm (df.rows.filter fun r => r.y.isSome) := by
      rw [hmk df hdaily.days, hmk df' hdaily'.days]
      refine List.Perm.map _ ?_
      refine (hperm'.filter _).trans (List.Perm.trans ?_ (hperm.filter _).symm)
      rw [List.filter_map, List.filter_map]
      have := congrArg (List.map fun r : SRow K => (r.date, r.y, r.weight)) hl.observed
      exact List.Perm.of_eq this
    exact hp.eq_of_pairwise (le := fun a b => a.x < b.x) (fun a b _ _ h1 h2 => absurd (lt_trans h1 h2) (lt_irrefl _)) (hdaily'.sorted.filter _) (hdaily.sorted.filter _)
  refine C84_null_rows_partial w args s df df' _ hdaily hdaily' (hwt.trans hno) (hwt'.trans hno') ⟨hpart, hobs, ?_, ?_⟩ ?_ hout hmode hcand _ _ hr hr'
  · intro r hr
    obtain ⟨q, hq, e1, -⟩ := i1 r hr
    obtain ⟨a, ha, b, hb, h1, h2⟩ := hl.ends q hq
    obtain ⟨a', ha', e2, -⟩ := i4 a ha
    obtain ⟨b', hb', e3, -⟩ := i4 b hb
    exact ⟨a', ha', b', hb', by omega, by omega⟩
  · intro r hr
    rw [mem_kept _ _ hdaily.dated] at hr
    obtain ⟨q, hq, e1, -⟩ := i1 r hr.1
    obtain ⟨-, -, b, hb, -, h2⟩ := hl.ends q hq
    obtain ⟨a, ha, h0, h1⟩ := hl.keptEnds q hq (by rw [e1]; exact hr.2)
    obtain ⟨a', ha', e2, -⟩ := i4 a ha
    obtain ⟨b', hb', e3, -⟩ := i4 b hb
    refine ⟨a', (mem_kept _ _ hdaily'.dated _).2 ⟨ha', by rw [e2]; exact h0⟩, b', (mem_kept _ _ hdaily'.dated _).2 ⟨hb', ?_⟩, by omega, by omega⟩
    intro d hd
    have := hr.2 d hd
    omega
  · obtain ⟨r, hr, h0, r', hr', e⟩ := hl.daily
    obtain ⟨q, hq, e1, -⟩ := i4 r hr
    obtain ⟨q', hq', e2, -⟩ := i4 r' hr'
    have h1 := hdaily'.days q hq
    have h2 := hdaily'.days q' hq'
    refine ⟨q, (mem_kept _ _ hdaily'.dated _).2 ⟨hq, by rw [e1]; exact h0⟩, q', (mem_kept _ _ hdaily'.dated _).2 ⟨hq', ?_⟩, by omega⟩
    intro d hd
    have := h0 d hd
    omega


/-! ### A concrete case -/

/-- The series of `demoNulls` and another one, row by row. -/
def demoNulls2 : STable ℚ := ⟨true, true, false, false, [⟨0, some "s", 0, some 1, none⟩, ⟨DAY, some "t", 0, some 2, none⟩, ⟨DAY, some "s", 0, some 3, none⟩,
  ⟨2 * DAY, some "s", 0, none, none⟩, ⟨2 * DAY, some "t", 0, some 2, none⟩, ⟨3 * DAY, some "s", 0, some 7, none⟩, ⟨4 * DAY, some "s", 0, none, none⟩,
  ⟨5 * DAY, some "s", 0, some 11, none⟩, ⟨6 * DAY, some "s", 0, some 12, none⟩]⟩
/-- The same without the empty rows. -/
def demoGaps2 : STable ℚ := { demoNulls2 with rows := demoNulls2.rows.filter fun r => r.y.isSome }

example : Proper demoNulls2 ∧ Proper demoGaps2 :=
  ⟨⟨⟨rfl, rfl, by decide +kernel, by decide +kernel⟩, by decide +kernel⟩, ⟨⟨rfl, rfl, by decide +kernel, by decide +kernel⟩, by decide +kernel⟩⟩

example : TableLeavesOutNulls none { demoNulls2 with rows := rowsOf demoNulls2 "s" } { demoGaps2 with rows := rowsOf demoGaps2 "s" } := by
  refine ⟨by decide +kernel, by decide +kernel, by decide +kernel, by decide +kernel, ?_, ?_⟩
  · intro r hr _
    have : ∀ r ∈ rowsOf demoNulls2 "s", ∃ a ∈ rowsOf demoGaps2 "s", a.date ≤ r.date := by decide +kernel
    obtain ⟨a, ha, e⟩ := this r hr
    exact ⟨a, ha, (by intro d hd; cases hd), e⟩
  · exact ⟨⟨0, some "s", 0, some 1, none⟩, by decide +kernel, (by intro d hd; cases hd), ⟨DAY, some "s", 0, some 3, none⟩, by decide +kernel, by decide⟩

/-- Predictions of both runs for the first series. -/
example : ((runForecast demoWorld (demoArgs [] (some [modelNaive stableSort])) "" demoNulls2).toOption.bind fun r => r.map fun r =>
      ((partOf demoNulls2 "s" r).data.filter fun q => !q.isActuals).map fun q => (q.date / DAY, q.y)) =
    some [(0, some 1), (1, some 1), (2, some 3), (3, some 3), (4, some 7), (5, some 7), (6, some 11), (7, some 12), (8, some 12), (9, some 12)] ∧
    ((runForecast demoWorld (demoArgs [] (some [modelNaive stableSort])) "" demoGaps2).toOption.bind fun r => r.map fun r =>
      ((partOf demoGaps2 "s" r).data.filter fun q => !q.isActuals).map fun q => (q.date / DAY, q.y)) =
    some [(0, some 1), (1, some 1), (2, some 3), (3, some 3), (4, some 7), (5, some 7), (6, some 11), (7, some 12), (8, some 12), (9, some 12)] := by decide +kernel

end Anticipy
