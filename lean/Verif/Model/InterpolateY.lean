import Verif.Model.Freq

/-
`interpolate_df` with interpolation of the values and the mask of new rows, anticipy/model_utils.py 342-396. The form without
interpolated values is `interpolateDf` in `Verif/Model/Freq.lean`.
-/
namespace Anticipy
variable {K : Type} [Field K]

/-- Assemble the rows of the gap-filled table from its columns. (model_utils.py 386-393) -/
def zipRows : List Timestamp → List Int → List (Option K) → List (Option K) → List (Row K)
  | d :: ds, x :: xs, y :: ys, w :: ws => ⟨d, x, y, w⟩ :: zipRows ds xs ys ws
  | _, _, _, _ => []

/-- `is_gap_filled`, model_utils.py 395. -/
def gapMask (includeMask : Bool) (old new : List Int) : Option (List Bool) :=
  if includeMask then some (new.map fun x => decide (x ∉ old)) else none

/-- `interpolate_df(df, include_mask, interpolate_y=True)`, model_utils.py 342-396, on a table with columns date (optional), x, y and weight. Tables without
gaps are returned as they are, without the mask column (lines 346 and 376). `interpolate()` applies to all numeric columns. -/
def interpolateFull (includeMask : Bool) (df : Frame K) : Res (Frame K × Option (List Bool)) :=
  if df.hasDate then
    let dates := dedupBy (fun t : Timestamp => t) (df.rows.map Row.date)
    let freq := detectFreq (df.rows.map Row.date)
    if nuniqueDiff dates ≤ 1 ∧ sparseDaily freq (diffs dates) = false then .ok (df, none)
    else if hasDup (df.rows.map Row.date) then .error .valueError
    else
      match listMin (df.rows.map Row.date), listMax (df.rows.map Row.date) with
      | some a, some b =>
        let grid := dateRange a b (freq.getD .D)
        match toIntCol (interpolateCol (grid.map fun t => (findRow df.rows t).map fun r => ((r.x : Int) : ℚ))) with
        | .error e => .error e
        | .ok xs =>
          .ok ({ df with rows := zipRows grid xs (interpolateCol (grid.map fun t => (findRow df.rows t).bind Row.y))
                          (interpolateCol (grid.map fun t => (findRow df.rows t).bind Row.weight)) },
            gapMask includeMask (df.rows.map Row.x) xs)
      | _, _ => .ok (df, none)
  else
    let xs := dedupBy (fun t : Int => t) (df.rows.map Row.x)
    if nuniqueDiff xs ≤ 1 then .ok (df, none)
    else if hasDup (df.rows.map Row.x) then .error .valueError
    else
      match listMin (df.rows.map Row.x), listMax (df.rows.map Row.x) with
      | some a, some b =>
        let grid := (List.range (b + 1 - a).toNat).map fun i : Nat => a + (i : Int)
        let find := fun x : Int => df.rows.find? fun r => decide (r.x = x)
        .ok ({ df with rows := zipRows (grid.map fun x => ((find x).map Row.date).getD 0) grid
                        (interpolateCol (grid.map fun x => (find x).bind Row.y))
                        (interpolateCol (grid.map fun x => (find x).bind Row.weight)) },
          gapMask includeMask (df.rows.map Row.x) grid)
      | _, _ => .ok (df, none)

end Anticipy
