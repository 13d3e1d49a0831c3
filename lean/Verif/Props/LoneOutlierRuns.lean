import Verif.Props.LoneOutliers
import Verif.Props.UnitWeights

/-
C93 for whole runs.
-/
namespace Anticipy
open Spec
variable {K : Type} [Field K] [LinearOrder K] [IsStrictOrderedRing K] [FloorRing K]

omit [IsStrictOrderedRing K] [FloorRing K] in
theorem ones_but (rows : List (Row K)) (df : Frame K) (hw : df.hasWeight = false) (i j : Nat) (hl : rows.length = i + 1 + j) :
    List.zipWith (fun r b => (givenWeight df r).map fun w => if b then 0 else w) rows (markOnly i (i + 1 + j)) =
      (loneSpike (1 : K) 0 i j).map some := by
  apply List.ext_getElem?
  intro k
  rw [List.getElem?_zipWith, List.getElem?_map]
  unfold markOnly
  rw [List.getElem?_map]
  rcases Nat.lt_or_ge k (i + 1 + j) with hk | hk
  · rw [List.getElem?_range hk, List.getElem?_eq_getElem (by omega)]
    simp only [Option.map_some, givenWeight, hw, Bool.false_eq_true, if_false, beq_iff_eq]
    have hl' : k < (loneSpike (1 : K) 0 i j).length := by simp [loneSpike]; omega
    rcases spike_get (1 : K) 0 i j k _ (List.getElem?_eq_getElem hl') with ⟨h1, h2⟩ | ⟨h1, h2⟩
    · rw [List.getElem?_eq_getElem hl', if_pos h1]
      simp only [Option.map_some]
      exact congrArg (fun z => some (some z)) h2.symm
    · rw [List.getElem?_eq_getElem hl', if_neg h1]
      simp only [Option.map_some]
      exact congrArg (fun z => some (some z)) h2.symm
  · rw [List.getElem?_eq_none (by omega), List.getElem?_eq_none (by simp; omega), List.getElem?_eq_none (by simp [loneSpike]; omega)]
    rfl

/-- **C93** A run that searches for outliers on a level series without weights with one different sample, neither the first nor one of the last
two, gives that sample weight 0 and all others weight 1. -/
theorem C93_run_partial (w : World K) (args : RunArgs K) (source : String) (df : Frame K) (res : RunResult K)
    (h : runSingle w args source df = .ok res) (hsearch : args.findOutliers = true) (hstart : args.start = none) (hw : df.hasWeight = false)
    (hdate : InTimeOrder df) (a b : K) (hab : b ≠ a) (i j : Nat) (hv : HasValues df (loneSpike a b i j)) (hi : 1 ≤ i) (hj : 2 ≤ j) (hn : 6 ≤ i + j) :
    (res.data.filter DRow.isActuals).map DRow.weight = (loneSpike (1 : K) 0 i j).map some := by
  obtain ⟨spike, hl, h1, -, h3⟩ := C40_weights w args source df res h
  obtain ⟨step, hs⟩ := h1 hsearch
  have hk : kept args.start df = df.rows := by unfold kept; rw [hstart]; simp
  rw [hk] at hl hs h3
  have hf : ({ df with rows := df.rows } : Frame K) = df := rfl
  rw [hf, C93_level_spike_partial df hdate a b hab i j hv hi hj hn] at hs
  cases hs
  have := congrArg (List.map fun e : Int × Option K × Option K => e.2.2) h3
  rw [List.map_map, List.map_zipWith] at this
  refine Eq.trans ?_ (Eq.trans this (ones_but df.rows df hw i j ?_))
  · rfl
  · rw [values_length df _ hv]; simp [loneSpike]; omega

/-- The run on a level series with one spike succeeds. -/
example : (demoSearch true (dailySeries (loneSpike 5 100 3 4))).map (fun r => (r.data.filter DRow.isActuals).map DRow.weight) =
    some [some 1, some 1, some 1, some 0, some 1, some 1, some 1, some 1] := by decide +kernel

#print axioms C93_run_partial
end Anticipy
