import Verif.Props.UnitChoice
import Verif.Props.ReportedValues
import Verif.Props.AdditiveTable

/-
C56 and C68 for each series of a table as a user supplies it.
-/
namespace Anticipy
open Spec
variable {K : Type} [Field K] [LinearOrder K] [FloorRing K] [IsStrictOrderedRing K]

omit [FloorRing K] [IsStrictOrderedRing K] in
theorem seriesFrame_inUnit (c : K) (t : STable K) (s : String) : seriesFrame (rescaledTable c 0 t) s = inUnit c (seriesFrame t s) := by
  refine (seriesFrame_map t (fun r => { r with y := r.y.map fun v => c * v + 0 }) 0 (fun _ => rfl) (fun r => by simp) s).trans ?_
  unfold inUnit sampleInUnit seriesFrame
  simp [List.map_map, Function.comp_def]

/-- **C68, tables.** Multiplying all values of a table by a positive factor does not change which model is chosen for a series, if it is strictly better
than the others and no fit is perfect. -/
theorem C68_table (w w' : World K) (hw : w'.ch = w.ch ∧ w'.srt = w.srt) (args : RunArgs K) (id : String) (t : STable K) (hp : Proper t)
    (s : String) (hs : IsSeries t id s) (c : K) (hc : 0 < c)
    (res res' : RunResult K) (hall : args.includeAll = true) (h : runForecast w args id t = .ok (some res))
    (h' : runForecast w' args id (rescaledTable c 0 t) = .ok (some res'))
    (hmin : ∀ i, FindsMinimum (w.env s i)) (hmin' : ∀ i, FindsMinimum (w'.env s i))
    (hcache : ∀ i, (w'.env s i).globalCache = (w.env s i).globalCache)
    (score : Option K → Nat → Nat → Res (Ext K)) (hscore : UnitFreeScore c score) (haic : ∀ i, (w.env s i).aic = score)
    (haic' : ∀ i, (w'.env s i).aic = score)
    (hcorr : ∀ df, w.ch.corr (inUnit c df) = w.ch.corr df)
    (hmod : ∀ df' freq cand, candidates w.ch args.models df' freq = .ok cand → ∀ m ∈ cand.2, Unpinned m ∧ UnitFree false m)
    (hsame : (partOf t s res').metadata.map MRow.isFit = (partOf t s res).metadata.map MRow.isFit)
    (hpos : ∀ r ∈ (partOf t s res).metadata, ∀ e, r.cost = some e → 0 < e) (b : MRow K) (hb : b ∈ (partOf t s res).metadata) (hbf : b.isFit = true)
    (hstrict : ∀ q ∈ (partOf t s res).metadata, q.isFit = true → q.model ≠ b.model → Ext.lt b.aic q.aic = true) :
    (∀ q ∈ (partOf t s res').metadata, q.isBest = true → q.model = b.model) ∧
      ∃ q ∈ (partOf t s res').metadata, q.isBest = true ∧ q.model = b.model := by
  obtain ⟨-, hrun⟩ := series_run w id t hp s hs
  obtain ⟨-, hrun'⟩ := series_run w' id (rescaledTable c 0 t) (proper_map t _ 0 (fun _ => rfl) (fun _ => (add_zero _).symm) hp) s
    (isSeries_map t (fun r => { r with y := r.y.map fun v => c * v + 0 }) (fun _ => rfl) id s hs)
  have h2 := hrun' args res' h'
  rw [seriesFrame_inUnit] at h2
  exact C68_choice w w' hw args s _ c hc _ _ hall (hrun args res h) h2 hmin hmin' hcache score hscore haic haic' hcorr
    (fun df' cand hcand => hmod df' _ cand hcand) hsame hpos b hb hbf hstrict

/-- **C56, tables (partial).** For every fitted model in the metadata of a series of a table, the data of the series hold the values of a candidate of that name at the
reported parameters, from the first sample that counts to the end of the horizon. -/
theorem C56_table_partial (w : World K) (args : RunArgs K) (id : String) (t : STable K) (hp : Proper t) (s : String) (hs : IsSeries t id s)
    (res : RunResult K) (h : runForecast w args id t = .ok (some res))
    (hu : ∀ df' freq cand, candidates w.ch args.models df' freq = .ok cand → ∀ m ∈ cand.2, Unpinned m) (b : MRow K)
    (hb : b ∈ (partOf t s res).metadata) (hfit : b.isFit = true) :
    ∃ (freq : Option Freq) (df' : Frame K) (cand : AddMult × List (ForecastModel K)) (m : ForecastModel K) (start stop x0 : Int) (actuals : Frame K)
      (l : List (Int × Option K)),
      candidates w.ch args.models df' freq = .ok cand ∧ m ∈ cand.2 ∧ m.name = b.model ∧
      (∃ q ∈ kept args.start (seriesFrame t s), q.date = start ∧ ∃ v, givenWeight (seriesFrame t s) q = some v ∧ 0 < v) ∧
      (∃ q ∈ kept args.start (seriesFrame t s), q.date = stop) ∧ (∀ q ∈ kept args.start (seriesFrame t s), q.date ≤ stop) ∧
      (∃ q ∈ kept args.start (seriesFrame t s), q.x = x0 ∧ ∃ v, givenWeight (seriesFrame t s) q = some v ∧ 0 < v) ∧
      extrapolate m b.params true start stop freq args.years x0 actuals = .ok l ∧
      (∀ d v, (d, some v) ∈ l → ∃ r ∈ (partOf t s res).data, r.isActuals = false ∧ r.model = b.model ∧ r.date = d ∧ r.y = some v ∧ r.isBest = b.isBest) ∧
      ((cand.2.map ForecastModel.name).Nodup → ∀ r ∈ (partOf t s res).data, r.isActuals = false → r.model = b.model → (r.date, r.y) ∈ l) := by
  obtain ⟨hd, hrun⟩ := series_run w id t hp s hs
  obtain ⟨df', cand, m, start, stop, x0, actuals, l, k1, k2, k3, k4, k5, k6, k7, k8, k9, k10, k11⟩ :=
    C56_values_partial w args s _ _ (hrun args res h) (fun df' cand hcand => hu df' _ cand hcand) b hb hfit
  have hpos : ∀ q, position (seriesFrame t s) q = q.date := fun q => by unfold position; rw [if_pos hd.dated]
  refine ⟨_, df', cand, m, start, stop, x0, actuals, l, k1, k2, k3, ?_, ?_, ?_, k8, k9, ?_, k11⟩
  · obtain ⟨q, hq, e, hv⟩ := k4
    exact ⟨q, hq, (hpos q) ▸ e, hv⟩
  · obtain ⟨q, hq, e⟩ := k6
    exact ⟨q, hq, (hpos q) ▸ e⟩
  · intro q hq
    rw [← hpos q]
    exact k7 q hq
  · intro d v hv
    obtain ⟨r, hr, e1, e2, -, e3, e4, e5⟩ := k10 d v hv
    exact ⟨r, hr, e1, e2, e3, e4, e5⟩

/-! ### A concrete case -/

/-- The twelve days of `toyFrame` for source "a" and other values for source "b". -/
def toyTable : STable ℚ := ⟨true, true, false, false, (toyFrame.rows.map fun r => ⟨r.date, some "a", 0, r.y, none⟩) ++
  toyFrame.rows.map fun r => ⟨r.date, some "b", 0, r.y.map fun v => 20 - v, none⟩⟩

/-- The hypotheses of `C68_table` are met: the seasonal naive model is chosen for source "a", with the values in pounds or in pence. -/
example : Proper toyTable ∧ ∃ res res', runForecast toyWorld toyArgs "" toyTable = .ok (some res) ∧
    runForecast toyWorld toyArgs "" (rescaledTable 100 0 toyTable) = .ok (some res') ∧
    ∃ b ∈ (partOf toyTable "a" res).metadata, b.model = "snaive_wday" ∧ (∀ q ∈ (partOf toyTable "a" res').metadata, q.isBest = true → q.model = b.model) ∧
      ∃ q ∈ (partOf toyTable "a" res').metadata, q.isBest = true ∧ q.model = b.model := by
  have hp : Proper toyTable := ⟨⟨rfl, rfl, by decide +kernel, by decide +kernel⟩, by decide +kernel⟩
  have facts : (match runForecast toyWorld toyArgs "" toyTable, runForecast toyWorld toyArgs "" (rescaledTable 100 0 toyTable) with
      | .ok (some res), .ok (some res') => decide ((partOf toyTable "a" res').metadata.map MRow.isFit = (partOf toyTable "a" res).metadata.map MRow.isFit ∧
          (∀ r ∈ (partOf toyTable "a" res).metadata, ∀ e ∈ r.cost, 0 < e) ∧ ∃ b ∈ (partOf toyTable "a" res).metadata, b.model = "snaive_wday" ∧ b.isFit = true ∧
            ∀ q ∈ (partOf toyTable "a" res).metadata, q.isFit = true → q.model ≠ b.model → Ext.lt b.aic q.aic = true)
      | _, _ => false) = true := by decide +kernel
  have hmin : ∀ i, FindsMinimum (toyWorld.env "a" i) := by
    intro i f guess bd r hr
    cases hr
  refine ⟨hp, ?_⟩
  cases h : runForecast toyWorld toyArgs "" toyTable with
  | error e => rw [h] at facts; cases facts
  | ok o =>
    cases o with
    | none => rw [h] at facts; cases facts
    | some res =>
      cases h' : runForecast toyWorld toyArgs "" (rescaledTable 100 0 toyTable) with
      | error e => rw [h, h'] at facts; cases facts
      | ok o' =>
        cases o' with
        | none => rw [h, h'] at facts; cases facts
        | some res' =>
          rw [h, h'] at facts
          obtain ⟨f1, f2, b, f3, f4, f5, f6⟩ := of_decide_eq_true facts
          exact ⟨res, res', rfl, rfl, b, f3, f4, C68_table toyWorld toyWorld ⟨rfl, rfl⟩ toyArgs "" toyTable hp "a" ⟨_, List.mem_cons_self, rfl⟩ 100 (by norm_num)
            res res' rfl h h' hmin hmin (fun _ => rfl) _ (toyScore 100 (by norm_num)) (fun _ => rfl) (fun _ => rfl) (fun _ => rfl) toyCandidates f1 f2 b f3 f5 f6⟩

/-- The hypotheses of `C56_table_partial` are met by the same table: no candidate has parameters that are pinned. -/
example : ∀ df' freq cand, candidates toyWorld.ch toyArgs.models df' freq = .ok cand → ∀ m ∈ cand.2, Unpinned m :=
  fun df' freq cand h m hm => (toyCandidates df' freq cand h m hm).1

end Anticipy
