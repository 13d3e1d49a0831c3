import Verif.Props.Higher
import Verif.Props.KnownChanges

/-
C126 for levels with known changes and for special days.
-/
namespace Anticipy
open Spec
variable {K : Type} [Field K] [LinearOrder K] [FloorRing K]

/-- The mean of the observations that a condition on the date selects does not fall if no observation is lowered, and the same dates are observed. -/
theorem mean_higher_where [IsStrictOrderedRing K] (w w' : World K) (args args' : RunArgs K) (id : String) (t : STable K) (hp : Proper t) (s : String)
    (hs : IsSeries t id s) (Y : SRow K → K) (res res' : RunResult K) (h : runForecast w args id t = .ok (some res))
    (h' : runForecast w' args' id (revised Y t) = .ok (some res')) (hstart : args'.start = args.start) (hout : args.findOutliers = false)
    (hout' : args'.findOutliers = false) (hY : ∀ r ∈ rowsOf t s, ∀ y, r.y = some y → y ≤ Y r) (P : Timestamp → Bool) :
    meanOf ((observed (partOf t s res)).filter fun a => P a.date) ≤ meanOf ((observed (partOf t s res')).filter fun a => P a.date) ∧
      ((∃ a ∈ observed (partOf t s res), P a.date = true) → ∃ a ∈ observed (partOf t s res'), P a.date = true) := by
  constructor
  · have := mean_higher w w' args args' id t hp s hs Y res res' h h' hstart hout hout' hY (fun d => if P d = true then 1 else 0) 1
    have e : ∀ q : RunResult K, inSeason (fun d => if P d = true then 1 else 0) 1 q = (observed q).filter fun a => P a.date := by
      intro q
      unfold inSeason
      apply List.filter_congr
      intro a _
      by_cases hP : P a.date = true <;> simp [hP]
    rw [e, e] at this
    exact this
  · rintro ⟨a, ha, e⟩
    obtain ⟨b, hb, eb⟩ := List.mem_map.1 ((revised_dates w w' args args' id t hp s hs Y res res' h h' hstart hout hout').mem_iff.1 (List.mem_map_of_mem ha))
    exact ⟨b, hb, by rw [eb, e]⟩

/-- **C126, known changes.** If no observation is lowered, no forecast of a level with steps at known dates is lowered, provided that its level is observed. -/
theorem C126_changes [IsStrictOrderedRing K] (w w' : World K) (args args' : RunArgs K) (id : String) (t : STable K) (hp : Proper t) (s : String)
    (hs : IsSeries t id s) (Y : SRow K → K) (res res' : RunResult K) (h : runForecast w args id t = .ok (some res))
    (h' : runForecast w' args' id (revised Y t) = .ok (some res')) (hstart : args'.start = args.start) (hout : args.findOutliers = false)
    (hout' : args'.findOutliers = false) (hY : ∀ r ∈ rowsOf t s, ∀ y, r.y = some y → y ≤ Y r) (label : Timestamp → String) (changes : List Timestamp)
    (reg : Registry K) (hx : FitsExactly w args s (seriesFrame t s) (levelWithChanges label changes) reg)
    (hx' : FitsExactly w' args' s (seriesFrame (revised Y t) s) (levelWithChanges label changes) reg)
    (r r' : DRow K) (hr : ForecastOf (partOf t s res) (levelWithChanges (K := K) label changes).name r)
    (hr' : ForecastOf (partOf t s res') (levelWithChanges (K := K) label changes).name r') (hsame : r'.date = r.date)
    (hobs : ∃ a ∈ observed (partOf t s res), sameLevel changes r.date a.date = true) : ∃ y y', r.y = some y ∧ r'.y = some y' ∧ y ≤ y' := by
  have hp' : Proper (revised Y t) := proper_map t _ 0 (fun _ => rfl) (fun _ => (add_zero _).symm) hp
  have hs' : IsSeries (revised Y t) id s := isSeries_map t (fun r => { r with y := r.y.map fun _ => Y r }) (fun _ => rfl) id s hs
  obtain ⟨hm, hex⟩ := mean_higher_where w w' args args' id t hp s hs Y res res' h h' hstart hout hout' hY fun d => sameLevel changes r.date d
  refine ⟨_, _, C131_changes w args id t hp s hs res h label changes reg hx r hr hobs,
    C131_changes w' args' id (revised Y t) hp' s hs' res' h' label changes reg hx' r' hr' (by rw [hsame]; exact hex hobs), ?_⟩
  rw [hsame]
  exact hm

/-- **C126, special days.** If no observation is lowered, no forecast of a level with effects for special days is lowered, provided that its kind of day is
observed. -/
theorem C126_special [IsStrictOrderedRing K] (w w' : World K) (args args' : RunArgs K) (id : String) (t : STable K) (hp : Proper t) (s : String)
    (hs : IsSeries t id s) (Y : SRow K → K) (res res' : RunResult K) (h : runForecast w args id t = .ok (some res))
    (h' : runForecast w' args' id (revised Y t) = .ok (some res')) (hstart : args'.start = args.start) (hout : args.findOutliers = false)
    (hout' : args'.findOutliers = false) (hY : ∀ r ∈ rowsOf t s, ∀ y, r.y = some y → y ≤ Y r)
    (m : ForecastModel K) (reg : Registry K) (flags : List (Timestamp → Bool)) (hdis : Apart flags) (hm : AddsUp m reg (specialFeatures flags))
    (hx : FitsExactly w args s (seriesFrame t s) m reg) (hx' : FitsExactly w' args' s (seriesFrame (revised Y t) s) m reg)
    (r r' : DRow K) (hr : ForecastOf (partOf t s res) m.name r) (hr' : ForecastOf (partOf t s res') m.name r') (hsame : r'.date = r.date)
    (hobs : ∃ a ∈ observed (partOf t s res), sameKind flags r.date a.date = true) : ∃ y y', r.y = some y ∧ r'.y = some y' ∧ y ≤ y' := by
  have hp' : Proper (revised Y t) := proper_map t _ 0 (fun _ => rfl) (fun _ => (add_zero _).symm) hp
  have hs' : IsSeries (revised Y t) id s := isSeries_map t (fun r => { r with y := r.y.map fun _ => Y r }) (fun _ => rfl) id s hs
  obtain ⟨hmean, hex⟩ := mean_higher_where w w' args args' id t hp s hs Y res res' h h' hstart hout hout' hY fun d => sameKind flags r.date d
  refine ⟨_, _, C131_special w args id t hp s hs res h m reg flags hdis hm hx r hr hobs,
    C131_special w' args' id (revised Y t) hp' s hs' res' h' m reg flags hdis hm hx' r' hr' (by rw [hsame]; exact hex hobs), ?_⟩
  rw [hsame]
  exact hmean

/-- The example of C131 with two more on day 6 and one more from day 8 on. -/
def raisedValue (r : SRow ℚ) : ℚ := r.y.getD 0 + (if r.date = 6 * DAY then 2 else if 8 * DAY ≤ r.date then 1 else 0)

/-- No forecast is lowered: 2 stays 2 before day 6, 11 becomes 13 from day 6 and 5 becomes 6 from day 8 on. -/
example : (∀ r ∈ rowsOf changedTable "s", r.y.all fun y => decide (y ≤ raisedValue r)) ∧
    ((runForecast { demoWorld with env := fun _ _ => knownEnv [2, -7, 11] } changedArgs "s" (revised raisedValue changedTable)).toOption.bind fun r => r.map fun r =>
      ((partOf changedTable "s" r).data.filter fun q => !q.isActuals).map fun q => (q.date / DAY, q.y)) =
    some [(5, some 2), (6, some 13), (7, some 13), (8, some 6), (9, some 6), (10, some 6), (11, some 6), (12, some 6), (13, some 6)] := by decide +kernel

end Anticipy
