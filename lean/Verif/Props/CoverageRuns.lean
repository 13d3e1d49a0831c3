import Verif.Props.Coverage
import Verif.Props.Run

/-
C133 for a whole run, whatever the random draws.
-/
namespace Anticipy
open Spec

/-- Twenty days on a rising line. -/
def risingDays : Frame ℚ := ⟨true, false, (List.range 20).map fun i => ⟨i * DAY, i, some (i + 1), none⟩⟩

/-- What the run reports for it with the naive model. -/
def risingRows : List (DRow ℚ) :=
  ((runFits demoWorld (demoArgs [] (some [modelNaive stableSort])) "s" risingDays).toOption.map Prod.fst).getD []

theorem risingRows_facts : let t := toFTable true risingRows
    Spec.Regular t ∧ Overlap t ∧ (∀ a ∈ residualsOf t, -(19 / 20) ≤ a - Spec.average (residualsOf t) ∧ a - Spec.average (residualsOf t) ≤ 19 / 20) ∧
    (∀ r ∈ t.rows, ∀ r' ∈ t.rows, r.source = r'.source) ∧ selectRows t ≠ [] ∧ detectFreq ((selectRows t).map FRow.date) ≠ none := by
  intro t
  have h4 : ∀ r ∈ t.rows, r.isActuals = true → r.weight = some 1 := by decide +kernel
  refine ⟨⟨by decide +kernel, by decide +kernel, by decide +kernel, fun _ r hr ha => ⟨1, h4 r hr ha, zero_le_one⟩⟩, by unfold Overlap; decide +kernel, by decide +kernel,
    by decide +kernel, by decide +kernel, by decide +kernel⟩

/-- **C133 (limit), runs.** A run with the naive model on twenty days of a rising line: whatever is drawn, the run succeeds and nineteen of its twenty
observations lie outside all the intervals that it reports for their dates. -/
theorem C133_run_counterexample (draw : String → Nat → Nat → Nat → Nat) : ∃ res,
    runSingle { demoWorld with draw := draw } (demoArgs [] (some [modelNaive stableSort])) "s" risingDays = .ok res ∧
    (∀ i ∈ List.range 20, (∃ r ∈ res.forecast, r.isActuals = false ∧ r.date = i * DAY) ∧
      ∃ a ∈ res.forecast, a.isActuals = true ∧ a.date = i * DAY ∧ a.y = some ((i : ℚ) + 1)) ∧
    ∀ r ∈ res.forecast, r.isActuals = false → DAY ≤ r.date → ∀ a ∈ res.forecast, a.isActuals = true → a.date = r.date → ∀ v, a.y = some v →
      ∀ lo hi, ¬ Encloses lo hi r v := by
  obtain ⟨hreg, hov, hres, hone, hne, hfreq⟩ := risingRows_facts
  have hok : (runFits demoWorld (demoArgs [] (some [modelNaive stableSort])) "s" risingDays).toOption.isSome = true := by decide +kernel
  have hall : (demoArgs [] (some [modelNaive stableSort])).includeAll = true := rfl
  have hdraw : runFits { demoWorld with draw := draw } (demoArgs [] (some [modelNaive stableSort])) "s" risingDays =
    runFits demoWorld (demoArgs [] (some [modelNaive stableSort])) "s" risingDays := rfl
  have hrows : risingRows = ((runFits demoWorld (demoArgs [] (some [modelNaive stableSort])) "s" risingDays).toOption.map Prod.fst).getD [] := rfl
  cases hd : runFits demoWorld (demoArgs [] (some [modelNaive stableSort])) "s" risingDays with
  | error e => rw [hd] at hok; cases hok
  | ok d =>
    rw [hd] at hrows hdraw
    have hrows : risingRows = d.1 := hrows
    obtain ⟨out, h⟩ := C46_total (draw "s" 0) (toFTable true risingRows) 100 1 5 20 (by norm_num) rfl hne (.inr hfreq)
    have hpi : getPi (draw "s") (toFTable true d.1) 100 (some 1) 5 20 .D = .ok out := by
      rw [← hrows, getPi_one _ _ _ _ _ _ _ hone]
      exact h
    refine ⟨⟨out, d.1, d.2⟩, ?_, ?_⟩
    · unfold runSingle
      rw [hdraw]
      simp only [bind, Except.bind, selectFits, hall, if_true]
      have hpi' : getPi (draw "s") (toFTable risingDays.hasDate d.1) 100 (demoArgs [] (some [modelNaive stableSort])).nCum
          (demoArgs [] (some [modelNaive stableSort])).q1 (demoArgs [] (some [modelNaive stableSort])).q2
          (demoArgs [] (some [modelNaive stableSort])).widening = .ok out := hpi
      rw [hpi']
    · have hperm := C45_rows_partial (draw "s" 0) (toFTable true risingRows) 100 1 5 20 out hov h
      have f1 : ∀ i ∈ List.range 20, (∃ r ∈ (shown (toFTable true risingRows)).map content, r.isActuals = false ∧ r.date = i * DAY) ∧
          ∃ a ∈ (shown (toFTable true risingRows)).map content, a.isActuals = true ∧ a.date = i * DAY ∧ a.y = some ((i : ℚ) + 1) := by decide +kernel
      have f2 : ∀ r ∈ (shown (toFTable true risingRows)).map content, r.isActuals = false → DAY ≤ r.date → ∀ a ∈ (shown (toFTable true risingRows)).map content,
          a.isActuals = true → a.date = r.date →
          a.y = r.y.map (· + 1) ∧ ∃ a ∈ (toFTable true risingRows).rows, Used (toFTable true risingRows) a = true ∧ r.date ≤ a.date := by decide +kernel
      have forth : ∀ o ∈ out, plain o ∈ (shown (toFTable true risingRows)).map content := fun o ho => hperm.mem_iff.1 (List.mem_map_of_mem ho)
      refine ⟨?_, ?_⟩
      · intro i hi
        obtain ⟨⟨r, hr, k1, k2⟩, ⟨a, ha, k3, k4, k5⟩⟩ := f1 i hi
        obtain ⟨r', hr', rfl⟩ := List.mem_map.1 (hperm.mem_iff.2 hr)
        obtain ⟨a', ha', rfl⟩ := List.mem_map.1 (hperm.mem_iff.2 ha)
        exact ⟨⟨r', hr', k1, k2⟩, ⟨a', ha', k3, k4, k5⟩⟩
      · intro r hr hf h1 a ha hact hdt v hv lo hi
        obtain ⟨e, hp⟩ := f2 _ (forth r hr) hf h1 _ (forth a ha) hact hdt
        have e : a.y = r.y.map (· + 1) := e
        cases hy : r.y with
        | none => rw [hy, hv] at e; cases e
        | some y =>
          rw [hy, hv] at e
          cases e
          exact C133_outside _ _ _ _ _ _ out hreg hov h _ hres r hr hp y hy 1 (by norm_num) lo hi

end Anticipy
