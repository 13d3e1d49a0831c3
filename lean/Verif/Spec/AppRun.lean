import Verif.Model.AppRun

/-
Specification vocabulary for the command line app.
-/
namespace Anticipy.Spec
variable {K : Type}

/-- Position of a sample: its date, or its x for tables without dates. -/
def samplePosition (t : STable K) (r : SRow K) : Int := if t.hasDate then r.date else r.x

/-- The samples of a table with their labels (`id` for tables without labels); samples with a null label are left out. -/
def labelledObservations (id : String) (t : STable K) : List (String × Int × Option K) :=
  (t.rows.filter fun r => !t.hasSource || r.source.isSome).map fun r =>
    (if t.hasSource then r.source.getD "" else id, samplePosition t r, r.y)

/-- The last value that the user has given for an option. -/
def Chosen (given : List (String × String)) (name : String) (v : String) : Prop :=
  ∃ before after, given = before ++ (name, v) :: after ∧ ∀ p ∈ after, p.1 ≠ name

/-- The value that an option has: the last one given, or else the default. -/
def OptionIs (given : List (String × String)) (name dflt v : String) : Prop :=
  Chosen given name v ∨ ((∀ p ∈ given, p.1 ≠ name) ∧ v = dflt)

/-- The documented defaults of `run_forecast`: additive composition, default models, no starting date, no search for outliers, intervals of 5 and 20 percent from
the last year of residuals, with cached features. -/
def plainArgs [OfNat K 5] [OfNat K 20] (years : ℚ) (all : Bool) : RunArgs K where
  models := { trend := none, season := none, mode := .add, yearly := none, weekly := none, naive := none, calendar := none }
  start := none
  years := years
  includeAll := all
  findOutliers := false
  nCum := none
  q1 := 5
  q2 := 20
  widening := .Y
  useCache := true

end Anticipy.Spec
