import Verif.Spec.ConstantWidth
import Verif.Props.Coverage

/-
C134: the prediction intervals of past dates have the same width everywhere.
-/
namespace Anticipy
open Spec
variable {K : Type} [Field K] [LinearOrder K]

/-- Draws that reproduce a distribution are the same for all rows, apart from their order. -/
theorem sameDraws_of_reproduces (N n count : Nat) (hN : 0 < N) (draws : Nat → Nat) (h : Reproduces N n count draws) : SameDraws N n count draws := by
  intro j hj j' hj'
  rw [List.perm_iff_count]
  intro k
  by_cases hk : k < N
  · have e : ∀ j, ((List.range n).map fun i => draws (i * count + j) % N).count k =
        ((List.range n).map fun i => draws (i * count + j)).countP fun d => decide (d % N = k) := by
      intro j
      rw [List.count, List.countP_map, List.countP_map]
      rfl
    rw [e, e]
    exact Nat.eq_of_mul_eq_mul_right hN (((h j hj).2 k hk).trans ((h j' hj').2 k hk).symm)
  · have e : ∀ j, ((List.range n).map fun i => draws (i * count + j) % N).count k = 0 := by
      intro j
      rw [List.count_eq_zero, List.mem_map]
      rintro ⟨i, -, rfl⟩
      exact hk (Nat.mod_lt _ hN)
    rw [e, e]

section
variable [IsStrictOrderedRing K] [FloorRing K]

/-- **C134 (partial).** If for all past dates the same residuals are drawn, in whatever order, then all past dates have the same interval around their
forecasts. What is missing: draws that differ from date to date, see `C134_counterexample`. -/
theorem C134_past_partial (draw : Nat → Nat → Nat) (t : FTable K) (nSims : Nat) (nCum : Int) (q1 q2 : K) (out : List (PRow K)) (hreg : Spec.Regular t)
    (hov : Overlap t) (h : piSingle draw t nSims nCum q1 q2 = .ok out) (last : Timestamp) (hlast : LastUsed t last)
    (hsame : SameDraws (residualsOf t).length nSims (t.rows.filter fun r => IsForecast t r && decide (r.date ≤ last)).length (draw 2))
    (r : PRow K) (hr : r ∈ out) (hf : r.isActuals = false) (hd : r.date ≤ last)
    (r' : PRow K) (hr' : r' ∈ out) (hf' : r'.isActuals = false) (hd' : r'.date ≤ last) : SameShape r r' := by
  obtain ⟨hq, p, hres, hlast'⟩ := piSingle_regular draw t nSims nCum q1 q2 out hreg hov h
  have hl : p.last = last := by
    obtain ⟨⟨a, ha, hu, hd⟩, hle⟩ := hlast'
    obtain ⟨⟨a', ha', hu', hd'⟩, hle'⟩ := hlast
    apply le_antisymm
    · rw [← hd]; exact hle' a ha hu
    · rw [← hd']; exact hle a' ha' hu'
  have hcount : p.past = t.rows.filter fun r => IsForecast t r && decide (r.date ≤ last) := by
    unfold PiParts.past
    rw [hl]
    exact select_forecast t _
  have hne : centred (residualsOf t) ≠ [] := by rw [← hres]; exact centred_ne_nil _ p.hres
  obtain ⟨out', fs, ps, h1, -, h2, -, h3⟩ := pi_rows draw t nSims nCum q1 q2 hq p
  rw [h] at h1
  cases h1
  rw [hl] at h3
  rw [hres, pastSample_entries draw _ nSims _ hne] at h2
  have h2 := Except.ok.inj h2
  rw [← hcount] at hsame
  have hlen : (centred (residualsOf t)).length = (residualsOf t).length := by simp [centred]
  rw [hlen] at h2
  set l := centred (residualsOf t)
  let devs : Nat → List K := fun j => ((List.range nSims).map fun i => draw 2 (i * p.past.length + j) % (residualsOf t).length).map fun d => l.getD d 0
  have hcol : ∀ j < p.past.length, column ps j = devs j := by
    intro j hj
    rw [← h2, column_entries _ nSims _ j hj]
    simp only [devs, List.map_map]
    rfl
  have hrow : ∀ r ∈ out, r.isActuals = false → r.date ≤ last → ∃ j < p.past.length, ∀ y, r.y = some y → ∀ c a, (c, some a) ∈ r.q →
      percentile (devs j) c = some (a - y) := by
    intro r hr hact hd
    have hr' : r ∈ p.past.mapIdx (quantRow q1 q2 ps) := by
      rw [← h3, List.mem_filter]
      exact ⟨hr, by rw [hact]; simpa using hd⟩
    rw [List.mem_mapIdx] at hr'
    obtain ⟨j, hj, rfl⟩ := hr'
    refine ⟨j, hj, ?_⟩
    intro y hy c a hc
    have := (quantRow_q q1 q2 ps j p.past[j]).2 c _ hc
    have hy' : p.past[j].y = some y := hy
    rw [hy', hcol j hj] at this
    cases hp : percentile (devs j) c with
    | none => rw [hp] at this; cases this
    | some b =>
      rw [hp] at this
      have e : a = y + b := Option.some.inj this
      rw [e, add_sub_cancel_left]
  obtain ⟨j, hj, hv⟩ := hrow r hr hf hd
  obtain ⟨j', hj', hv'⟩ := hrow r' hr' hf' hd'
  intro y y' hy hy' c a a' hc hc'
  have e1 := hv y hy c a hc
  have e2 := hv' y' hy' c a' hc'
  rw [percentile_perm _ _ ((hsame j hj j' hj').map _) c, e2] at e1
  exact (Option.some.inj e1).symm

/-- **C134 (partial), even draws.** The same if the draws reproduce the distribution of the residuals at each date. -/
theorem C134_even_partial (draw : Nat → Nat → Nat) (t : FTable K) (nSims : Nat) (nCum : Int) (q1 q2 : K) (out : List (PRow K)) (hreg : Spec.Regular t)
    (hov : Overlap t) (h : piSingle draw t nSims nCum q1 q2 = .ok out) (last : Timestamp) (hlast : LastUsed t last)
    (hbal : Reproduces (residualsOf t).length nSims (t.rows.filter fun r => IsForecast t r && decide (r.date ≤ last)).length (draw 2))
    (r : PRow K) (hr : r ∈ out) (hf : r.isActuals = false) (hd : r.date ≤ last)
    (r' : PRow K) (hr' : r' ∈ out) (hf' : r'.isActuals = false) (hd' : r'.date ≤ last) : SameShape r r' := by
  obtain ⟨-, p, hres, -⟩ := piSingle_regular draw t nSims nCum q1 q2 out hreg hov h
  have hne : residualsOf t ≠ [] := by rw [← hres]; exact p.hres
  exact C134_past_partial draw t nSims nCum q1 q2 out hreg hov h last hlast
    (sameDraws_of_reproduces _ _ _ (List.length_pos_iff.2 hne) _ hbal) r hr hf hd r' hr' hf' hd'

end

/-! ### Example and limit -/

/-- Draws as a random generator may give them: for the first row the last residual five times and the first one five times, for all other rows each one once. -/
def unevenDraws (_ i : Nat) : Nat := if i % 10 = 0 then (if i < 50 then 9 else 0) else i / 10

/-- **C134 (limit).** The mean as forecast for nine samples 0 and one sample 10. With draws that differ from date to date the interval between the 20 % and
80 % columns reaches from 0 to 10 at the first date and from 0 to 0 at the second, both in the past and with the same forecast. -/
theorem C134_counterexample : LastUsed skewedForecast 9 ∧ ∃ out, piSingle unevenDraws skewedForecast 10 1 5 20 = .ok out ∧
    ∃ r ∈ out, ∃ r' ∈ out, (r.isActuals = false ∧ r.date = 0 ∧ r.y = some 1 ∧ (20, some 0) ∈ r.q ∧ (80, some 10) ∈ r.q) ∧
      (r'.isActuals = false ∧ r'.date = 1 ∧ r'.y = some 1 ∧ (20, some 0) ∈ r'.q ∧ (80, some 0) ∈ r'.q) ∧ ¬ SameShape r r' := by
  refine ⟨by unfold LastUsed; decide +kernel, ?_⟩
  have hout : ∃ r ∈ (piSingle unevenDraws skewedForecast 10 1 5 20).toOption.getD [],
      r.isActuals = false ∧ r.date = 0 ∧ r.y = some 1 ∧ (20, some 0) ∈ r.q ∧ (80, some 10) ∈ r.q := by decide +kernel
  have hout' : ∃ r' ∈ (piSingle unevenDraws skewedForecast 10 1 5 20).toOption.getD [],
      r'.isActuals = false ∧ r'.date = 1 ∧ r'.y = some 1 ∧ (20, some 0) ∈ r'.q ∧ (80, some 0) ∈ r'.q := by decide +kernel
  cases h : piSingle unevenDraws skewedForecast 10 1 5 20 with
  | error e => rw [h] at hout; obtain ⟨r, hr, -⟩ := hout; cases hr
  | ok out =>
    rw [h] at hout hout'
    obtain ⟨r, hr, h1⟩ := hout
    obtain ⟨r', hr', h2⟩ := hout'
    refine ⟨out, rfl, r, hr, r', hr', h1, h2, fun hs => ?_⟩
    have := hs 1 1 h1.2.2.1 h2.2.2.1 80 10 0 h1.2.2.2.2 h2.2.2.2.2
    norm_num at this

/-- The hypotheses of `C134_past_partial` occur, with draws that are not even: only the first and the last residual are drawn. -/
example : Spec.Regular skewedForecast ∧ Overlap skewedForecast ∧ LastUsed skewedForecast 9 ∧
    SameDraws (residualsOf skewedForecast).length 10 (skewedForecast.rows.filter fun r => IsForecast skewedForecast r && decide (r.date ≤ 9)).length
      (fun i => 9 * (i / 10 % 2)) :=
  ⟨⟨by decide +kernel, by decide +kernel, by decide +kernel, fun h => by cases h⟩, by unfold Overlap; decide +kernel, by unfold LastUsed; decide +kernel,
    by unfold SameDraws; decide +kernel⟩

end Anticipy
