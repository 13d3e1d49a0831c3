import Verif.Spec.Run

/-
Labels of series.
-/
namespace Anticipy.Spec
variable {K : Type}

/-- A result whose rows all carry the label `s`; everything else is unchanged. -/
def labelledAs (s : String) (res : RunResult K) : RunResult K :=
  ⟨res.forecast.map fun r => { r with source := some s }, res.data.map fun r => { r with source := s },
   res.metadata.map fun r => { r with source := s }⟩

/-- A table with its labels changed by `f`; rows without a label keep none. -/
def renamed (f : String → String) (t : STable K) : STable K := { t with rows := t.rows.map fun r => { r with source := r.source.map f } }

/-- The table with a source column that holds `s` in every row. -/
def withLabel (s : String) (t : STable K) : STable K := { t with hasSource := true, rows := t.rows.map fun r => { r with source := some s } }

/-- Optimiser and random draws treat the series called `s'` in `w'` as they treat the series called `s` in `w`; everything else is the same. -/
structure SameFor (w w' : World K) (s s' : String) : Prop where
  env : w'.env s' = w.env s
  draw : w'.draw s' = w.draw s
  choices : w'.ch = w.ch
  sorting : w'.srt = w.srt

end Anticipy.Spec
