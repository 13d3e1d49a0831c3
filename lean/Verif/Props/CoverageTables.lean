import Verif.Props.Coverage
import Verif.Props.AdditiveTable
import Verif.Props.RunTables
import Verif.Props.GroupMeans
import Verif.Props.RunExamples

/-
C133 for tables: a model with a level has no mean error on the data it was fitted to.
-/
namespace Anticipy
open Spec
variable {K : Type} [Field K] [LinearOrder K]

theorem sum_flatMap_filterMap {α β M : Type} [AddCommMonoid M] (F : List α) (A : List β) (h : α → β → Option K) (φ : K → M) :
    ((F.flatMap fun f => A.filterMap (h f)).map φ).sum = (A.map fun a => (F.map fun f => ((h f a).map φ).getD 0).sum).sum := by
  induction F with
  | nil => simp
  | cons f F ih =>
    have e : ((A.filterMap (h f)).map φ).sum = (A.map fun a => ((h f a).map φ).getD 0).sum := by
      clear ih
      induction A with
      | nil => rfl
      | cons a A ih =>
        rw [List.map_cons, List.sum_cons, ← ih]
        cases ha : h f a with
        | none => rw [List.filterMap_cons_none ha]; simp
        | some v => rw [List.filterMap_cons_some ha]; simp
    rw [List.flatMap_cons, List.map_append, List.sum_append, ih, e, ← List.sum_map_add]
    simp only [List.map_cons, List.sum_cons]

theorem sum_indicator {α M : Type} [AddCommMonoid M] (F : List α) (P : α → Bool) (c : M) :
    (F.map fun f => if P f = true then c else 0).sum = F.countP P • c := by
  induction F with
  | nil => simp
  | cons f F ih =>
    rw [List.map_cons, List.sum_cons, ih, List.countP_cons]
    cases P f
    · simp
    · simp only [if_true]; rw [add_nsmul, one_nsmul, add_comm]

/-- If each used observation has exactly one forecast, the residuals are the errors of the observations. -/
theorem residuals_plain (t : FTable K) (g : Timestamp → K) (hf : ∀ f ∈ t.rows, IsForecast t f = true → f.y = some (g f.date))
    (hc : ∀ a ∈ t.rows, Used t a = true → (t.rows.countP fun f => IsForecast t f && decide (f.date = a.date)) = 1) {M : Type} [AddCommMonoid M] (φ : K → M) :
    ((residualsOf t).map φ).sum = ((t.rows.filter (Used t)).map fun a => φ (a.y.getD 0 - g a.date)).sum := by
  unfold residualsOf
  rw [sum_flatMap_filterMap]
  congr 1
  apply List.map_congr_left
  intro a ha
  obtain ⟨ha, hu⟩ := List.mem_filter.1 ha
  have hy : a.y.isSome = true := by
    unfold Used at hu
    simp only [Bool.and_eq_true] at hu
    exact hu.1.2
  obtain ⟨v, hv⟩ := Option.isSome_iff_exists.1 hy
  refine (congrArg List.sum (List.map_congr_left (g := fun f : FRow K => if decide (f.date = a.date) = true then φ (v - g a.date) else 0) ?_)).trans ?_
  · intro f hf'
    obtain ⟨h1, h2⟩ := List.mem_filter.1 hf'
    rw [hf f h1 h2, hv]
    by_cases hd : f.date = a.date
    · simp [hd]
    · have : ¬ a.date = f.date := fun e => hd e.symm
      simp [hd, this]
  rw [sum_indicator, List.countP_filter]
  have := hc a ha hu
  simp only [Bool.and_comm] at this ⊢
  rw [this, one_nsmul, hv]
  rfl

/-- Row of the table for the intervals. -/
def toFRow (r : DRow K) : FRow K := ⟨r.date, some r.source, r.model, r.isActuals, r.isBest, r.y, r.weight⟩

theorem used_observed (b : Bool) (res : RunResult K) : (toFTable b res.data).rows.filter (Used (toFTable b res.data)) = (observed res).map toFRow := by
  unfold observed
  change (res.data.map toFRow).filter _ = _
  rw [List.filter_map]
  congr 1
  apply List.filter_congr
  intro r _
  cases h : r.weight <;> simp [Used, toFTable, toFRow, h]

section
variable [FloorRing K] [IsStrictOrderedRing K]

/-- The table of a plain fit is regular, the residuals are the errors of the observations. -/
theorem plain_facts (w : World K) (args : RunArgs K) (source : String) (df : Frame K) (res : RunResult K) (h : runSingle w args source df = .ok res)
    (name : String) (hplain : PlainFit res name) (v : Timestamp → K) (hv : ForecastsAre res name v) (hobs : observed res ≠ []) :
    Spec.Regular (toFTable df.hasDate res.data) ∧ Overlap (toFTable df.hasDate res.data) ∧
    ∀ {M : Type} [AddCommMonoid M] (φ : K → M), ((residualsOf (toFTable df.hasDate res.data)).map φ).sum = ((observed res).map fun a => φ (a.y.getD 0 - v a.date)).sum := by
  have hsrc := (run_sources w args source df res h).1
  set t := toFTable df.hasDate res.data with ht
  have hrows : t.rows = res.data.map toFRow := rfl
  have hmem : ∀ {r}, r ∈ t.rows → ∃ d ∈ res.data, toFRow d = r := fun hr => List.mem_map.1 (by rw [← hrows]; exact hr)
  have hfor : ∀ d : DRow K, IsForecast t (toFRow d) = (!d.isActuals && d.isBest) := fun d => rfl
  have hused : ∀ d : DRow K, Used t (toFRow d) = true → d.isActuals = true ∧ d.y ≠ none := by
    intro d hu
    unfold Used at hu
    simp only [Bool.and_eq_true] at hu
    exact ⟨hu.1.1, fun e => by have := hu.1.2; simp [toFRow, e] at this⟩
  have hf : ∀ f ∈ t.rows, IsForecast t f = true → f.y = some (v f.date) := by
    intro f hf hi
    obtain ⟨d, hd, rfl⟩ := hmem hf
    rw [hfor] at hi
    simp only [Bool.and_eq_true, Bool.not_eq_true'] at hi
    exact hv d hd hi.1 (hplain.chosen d hd hi.1 hi.2)
  have hc : ∀ a ∈ t.rows, Used t a = true → (t.rows.countP fun f => IsForecast t f && decide (f.date = a.date)) = 1 := by
    intro a ha hu
    obtain ⟨d, hd, rfl⟩ := hmem ha
    obtain ⟨k1, k2⟩ := hused d hu
    rw [hrows, List.countP_map]
    exact hplain.covered d hd k1 k2
  have hnd := hplain.onePerDate
  refine ⟨⟨?_, ?_, ?_, ?_⟩, ?_, ?_⟩
  · intro r hr r' hr'
    obtain ⟨d, hd, rfl⟩ := hmem hr
    obtain ⟨d', hd', rfl⟩ := hmem hr'
    simp only [toFRow, hsrc d hd, hsrc d' hd']
  · intro r hr r' hr' h1 h2 h3
    obtain ⟨d, hd, rfl⟩ := hmem hr
    obtain ⟨d', hd', rfl⟩ := hmem hr'
    have m1 : d ∈ res.data.filter DRow.isActuals := List.mem_filter.2 ⟨hd, h1⟩
    have m2 : d' ∈ res.data.filter DRow.isActuals := List.mem_filter.2 ⟨hd', h2⟩
    rw [List.inj_on_of_nodup_map hnd m1 m2 h3]
  · rw [hrows, List.filter_map]
    refine List.Nodup.of_map FRow.date ?_
    rw [List.map_map]
    exact hnd
  · intro _ r hr ha
    obtain ⟨d, hd, rfl⟩ := hmem hr
    exact ⟨1, hplain.unweighted d hd ha, zero_le_one⟩
  · obtain ⟨a, ha⟩ := List.exists_mem_of_ne_nil _ hobs
    have hu : toFRow a ∈ t.rows.filter (Used t) := by rw [ht, used_observed]; exact List.mem_map_of_mem ha
    obtain ⟨hu1, hu2⟩ := List.mem_filter.1 hu
    have h1 := hc _ hu1 hu2
    have : 0 < t.rows.countP fun f => IsForecast t f && decide (f.date = (toFRow a).date) := by omega
    obtain ⟨f, hf1, hf2⟩ := List.countP_pos_iff.1 this
    simp only [Bool.and_eq_true, decide_eq_true_eq] at hf2
    refine ⟨f, hf1, toFRow a, hu1, hf2.1, by rw [hf f hf1 hf2.1]; simp, hu2, hf2.2.symm, ?_⟩
    obtain ⟨d, hd, rfl⟩ := hmem hf1
    have ha' := (List.mem_filter.1 ha).1
    simp only [toFRow, hsrc d hd, hsrc a ha']
  · intro M _ φ
    rw [residuals_plain t v hf hc φ, ht, used_observed, List.map_map]
    rfl

/-- **C133, tables (partial).** A model with a level is fitted to a series without weights by an optimiser that finds the minimum and is chosen. Then the draws that
reproduce the distribution of the errors give intervals of one shape for all past dates, and of the observations at least the nominal share (up to the weight of
two of the hundred simulations) lies inside the intervals of their dates. -/
theorem C133_table_partial (w : World K) (args : RunArgs K) (id : String) (t : STable K) (hp : Proper t) (s : String) (hs : IsSeries t id s)
    (res : RunResult K) (h : runForecast w args id t = .ok (some res))
    (m : ForecastModel K) (reg : Registry K) (feats : List (Feature K)) (hm : AddsUp m reg feats) (hlev : HasLevel feats) (hne : feats ≠ [])
    (hx : FitsExactly w args s (seriesFrame t s) m reg) (hid : Identifies feats (originOf t s) (observed (partOf t s res)))
    (r0 : DRow K) (hr : ForecastOf (partOf t s res) m.name r0) (hplain : PlainFit (partOf t s res) m.name)
    (last : Timestamp) (hlast : (∃ a ∈ observed (partOf t s res), a.date = last) ∧ ∀ a ∈ observed (partOf t s res), a.date ≤ last)
    (hbal : Reproduces (observed (partOf t s res)).length 100
      ((partOf t s res).data.countP fun r => !r.isActuals && r.isBest && decide (r.date ≤ last)) (w.draw s 0 2))
    (lo : K) (hlo : lo ∈ [args.q1, 100 - args.q1, args.q2, 100 - args.q2]) (hi : K) (hhi : hi ∈ [args.q1, 100 - args.q1, args.q2, 100 - args.q2]) :
    ∃ (L U : K) (v : Timestamp → K), ForecastsAre (partOf t s res) m.name v ∧
      (∀ r ∈ (partOf t s res).forecast, r.isActuals = false → r.date ≤ last → r.y = some (v r.date) ∧
        ∀ u, Encloses lo hi r u ↔ L ≤ u - v r.date ∧ u - v r.date ≤ U) ∧
      ((observed (partOf t s res)).length : K) * (hi - lo) / 100 <
        (((observed (partOf t s res)).countP fun a => decide (L ≤ a.y.getD 0 - v a.date) && decide (a.y.getD 0 - v a.date ≤ U) : Nat) : K) +
        ((observed (partOf t s res)).length : K) / 50 := by
  obtain ⟨hd, hrun⟩ := series_run w id t hp s hs
  have hsingle := hrun args res h
  obtain ⟨p, -, hv, hbalance⟩ := C88_table w args id t hp s hs res h m reg feats hm hlev hne hx hid r0 hr
  set P := partOf t s res with hP
  set v : Timestamp → K := fun d => combination feats p ((d - originOf t s) / (24 * 60 * 60 * 1000000000)) d with hvdef
  have hobs : observed P ≠ [] := by
    obtain ⟨⟨a, ha, -⟩, -⟩ := hlast
    exact List.ne_nil_of_mem ha
  obtain ⟨hreg, hov, hres⟩ := plain_facts w args s _ P hsingle m.name hplain v hv hobs
  obtain ⟨d, -, -, -, hpi⟩ := runSingle_inv w args s _ P hsingle
  set T := toFTable (seriesFrame t s).hasDate P.data with hT
  rw [getPi_one _ _ _ _ _ _ _ hreg.oneSource] at hpi
  have hzero : errorSum P v (fun _ => 1) = 0 := by
    obtain ⟨u, -, hu⟩ := hlev
    have := errorSum_combination P v (originOf t s) feats u hbalance
    simpa only [hu] using this
  have hsum : (residualsOf T).sum = 0 := by
    have e := hres (fun a : K => a)
    rw [List.map_id'] at e
    rw [e]
    refine Eq.trans ?_ hzero
    unfold errorSum
    congr 1
    apply List.map_congr_left
    intro a ha
    have := List.mem_filter.1 ha
    simp only [Bool.and_eq_true] at this
    rw [hplain.unweighted a this.1 this.2.1.1]
    simp
  have hlen : (residualsOf T).length = (observed P).length := by
    have e := hres (fun _ : K => (1 : Nat))
    simpa using e
  have hbias : Spec.average (residualsOf T) = 0 := by
    unfold Spec.average
    rw [hsum, zero_div]
  have hl : LastUsed T last := by
    have key : ∀ a, (a ∈ T.rows ∧ Used T a = true) ↔ ∃ d ∈ observed P, toFRow d = a := by
      intro a
      rw [← List.mem_filter, hT, used_observed, List.mem_map]
    refine ⟨?_, ?_⟩
    · obtain ⟨⟨a, ha, e⟩, -⟩ := hlast
      obtain ⟨k1, k2⟩ := (key (toFRow a)).2 ⟨a, ha, rfl⟩
      exact ⟨_, k1, k2, e⟩
    · intro a ha hu
      obtain ⟨d, hd, rfl⟩ := (key a).1 ⟨ha, hu⟩
      exact hlast.2 d hd
  have hcount : (T.rows.filter fun r => IsForecast T r && decide (r.date ≤ last)).length = P.data.countP fun r => !r.isActuals && r.isBest && decide (r.date ≤ last) := by
    rw [← List.countP_eq_length_filter]
    change (P.data.map toFRow).countP _ = _
    rw [List.countP_map]
    rfl
  obtain ⟨L, U, h1, h2⟩ := C133_share_partial _ T 100 _ args.q1 args.q2 _ hreg hov hpi last hl (by norm_num) hbias
    (by rw [hlen, hcount]; exact hbal) lo hlo hi hhi
  refine ⟨L, U, v, hv, ?_, ?_⟩
  · intro r hr hf hd
    have hy : r.y = some (v r.date) := by
      have hrows := C45_rows_partial _ T 100 _ args.q1 args.q2 _ hov hpi
      have := hrows.mem_iff.1 (List.mem_map_of_mem hr)
      obtain ⟨f, hf', e⟩ := List.mem_map.1 this
      unfold shown at hf'
      obtain ⟨hf1, hf2⟩ := List.mem_filter.1 hf'
      obtain ⟨q, hq, rfl⟩ := List.mem_map.1 (show f ∈ P.data.map toFRow from hf1)
      have ea : q.isActuals = r.isActuals := congrArg PRow.isActuals e
      have ey : q.y = r.y := congrArg PRow.y e
      have ed : q.date = r.date := congrArg PRow.date e
      rw [hf] at ea
      have hb : q.isBest = true := by
        have : ((q.isActuals && q.y.isSome) || (!q.isActuals && q.isBest)) = true := hf2
        rw [ea] at this
        simpa using this
      rw [← ey, ← ed]
      exact hv q hq ea (hplain.chosen q hq ea hb)
    exact ⟨hy, h1 r hr hf hd _ hy⟩
  · have hw : countWithin L U (residualsOf T) = (observed P).countP fun a => decide (L ≤ a.y.getD 0 - v a.date) && decide (a.y.getD 0 - v a.date ≤ U) := by
      have e := hres (fun d : K => if (decide (L ≤ d) && decide (d ≤ U)) = true then (1 : Nat) else 0)
      have c1 : countWithin L U (residualsOf T) = ((residualsOf T).map fun d : K => if (decide (L ≤ d) && decide (d ≤ U)) = true then (1 : Nat) else 0).sum := by
        rw [sum_indicator (residualsOf T) (fun d => decide (L ≤ d) && decide (d ≤ U)) (1 : Nat)]
        simp [countWithin]
      rw [c1, e, sum_indicator (observed P) (fun a => decide (L ≤ a.y.getD 0 - v a.date) && decide (a.y.getD 0 - v a.date ≤ U)) (1 : Nat)]
      simp
    rw [hw, hlen] at h2
    have e : 2 * ((observed P).length : K) / ((100 : Nat) : K) = ((observed P).length : K) / 50 := by
      push_cast
      ring
    rw [e] at h2
    exact h2

end

/-- Four days with the values 1, 3, 1, 3. -/
def evenTable : STable ℚ := ⟨true, true, false, false, (List.range 4).map fun i => ⟨i * DAY, some "a", 0, some (if i % 2 = 0 then 1 else 3), none⟩⟩

/-- Draws of the example: for each of four dates every one of four residuals is drawn 25 times. -/
def evenWorld : World ℚ := { demoWorld with draw := fun _ _ _ k => k / 4 }

/-- A run that meets the conditions on the result and on the draws: the mean 2 is chosen, its errors are -1, 1, -1, 1. (For the conditions on the optimiser
and the model see the examples of C88.) -/
example : ((runForecast evenWorld (demoArgs [modelConstant] (some [])) "" evenTable).toOption.bind id).map (fun res =>
    let P := partOf evenTable "a" res
    decide (((P.data.filter DRow.isActuals).map DRow.date).Nodup ∧ (∀ a ∈ P.data, a.isActuals = true → a.weight = some 1) ∧
      (∀ r ∈ P.data, r.isActuals = false → r.isBest = true → r.model = "constant") ∧
      (∀ a ∈ P.data, a.isActuals = true → a.y ≠ none → (P.data.countP fun r => !r.isActuals && r.isBest && decide (r.date = a.date)) = 1) ∧
      (∀ a ∈ observed P, a.date ≤ 3 * DAY) ∧ (observed P).length = 4 ∧ (P.data.countP fun r => !r.isActuals && r.isBest && decide (r.date ≤ 3 * DAY)) = 4 ∧
      (P.data.filter fun r => !r.isActuals).all (fun r => r.y == some 2))) = some true := by decide +kernel

example : Reproduces 4 100 4 (evenWorld.draw "a" 0 2) := by unfold Reproduces Balanced; decide +kernel

end Anticipy
