import Verif.Spec.Cache
import Verif.Spec.Expr
import Verif.Spec.Fix
import Verif.Spec.Fit
import Verif.Model.Naive
import Verif.Model.Run

/-
What is needed of candidate models, solver and score for a run to come to an end without an exception.
-/
namespace Anticipy.Spec
variable {K : Type}

/-- No value is missing. -/
def NoNulls : Arr K → Prop
  | .scalar v => v ≠ none
  | .vec l => ∀ v ∈ l, v ≠ none

section
variable [LT K] [DecidableLT K]

/-- Every lower bound is strictly less than the upper bound, as `scipy.optimize.least_squares` demands. -/
def StrictBounds (b : Bounds K) : Prop := b.lo.length = b.hi.length ∧ ∀ e ∈ b.lo.zip b.hi, Ext.lt e.1 e.2 = true

end

variable [Field K] [LinearOrder K]

/-- The solver keeps its contract: started within proper bounds on a function that can always be evaluated without nulls, it does not raise (other than the
`LinAlgError` that the code catches), returns as many parameters as it was given, and a cost that is null or not negative. -/
def SolverReturns (env : Env K) : Prop :=
  ∀ (f : List K → Res (Arr K)) (g : List K) (b : Bounds K), ParamsWithin g b → StrictBounds b →
    (∀ p : List K, p.length = g.length → ∃ a, f p = .ok a ∧ NoNulls a) →
    ∃ r, env.lsq f (g.map .fin) b = .ok r ∧ ∀ s, r = some s → s.params.length = g.length ∧ ∀ e, s.cost = some e → 0 ≤ e

/-- The score of a fit on `n` samples can be computed whenever there are at least two samples more than parameters. -/
def ScoreReturns (env : Env K) (n : Nat) : Prop :=
  ∀ (c : Option K) (k : Nat), (∀ e, c = some e → 0 ≤ e) → k + 2 ≤ n → ∃ a, env.aic c n k = .ok a

/-- A model with parameters that can be fitted to every dated series with increasing x: it does not raise on input of the right shape, and starts within its
bounds. Its name is not that of the null model. `reg` gives the meaning of the cache variables. -/
structure Dependable (global : String → Option (CacheFn K)) (reg : Registry K) (m : ForecastModel K) : Prop where
  params : m.nParams ≠ 0
  named : m.name ≠ "null"
  validates : ∀ v ∈ m.validators, ∀ ax ay : List K, ∀ ds e, v.run ax ay (some ds) = .error e → e = .assertionError
  bounds : ∀ (ax ay : List K) d, ax.Pairwise (· < ·) → ay.length = ax.length → m.nParams + 2 ≤ ax.length →
    ∃ b, m.fBounds ⟨some ax, some ay, d⟩ = .ok b ∧ StrictBounds b
  guess : ∀ (ax ay : List K) u mult, ax.Pairwise (· < ·) → ay.length = ax.length → m.nParams + 2 ≤ ax.length →
    ∃ q : List K, m.fInit u ⟨some ax, some ay, none⟩ mult = .ok (q.map .fin) ∧ q.length = m.nParams ∧
      ∀ b, m.fBounds ⟨some ax, some ay, none⟩ = .ok b → ParamsWithin q b
  evaluates : ∀ (ctx : Ctx K) ds p mult, ctx.adate = some ds → ds.length = ctx.ax.length → p.length = m.nParams →
    ∃ a, m.fModel (noCache ctx) (some p) mult = .ok a ∧ Shaped ctx.ax.length a ∧ NoNulls a
  registered : Registered global reg m
  transparent : CacheTransparent reg m
  features : ∀ k f, ((k ∈ m.cacheVars ∧ global k = some f) ∨ (k, f) ∈ m.dictFCache) → ∀ ax ds, ds.length = ax.length → ∃ v, f ax (some ds) = .ok v

/-- A dependable model, the null model, or one of the two naive models. -/
def Workable (srt : SortAlg) (global : String → Option (CacheFn K)) (reg : Registry K) (m : ForecastModel K) : Prop :=
  m = modelNull ∨ m = modelNaive srt ∨ m = modelSnaiveWday srt ∨ Dependable global reg m

/-- What a run for one source on at most `n` samples of the given frequency needs: percentiles between 0 and 100; the statistic of the multiplicative test exists; there are
candidate models, and all of them are workable; solver and score keep their contracts. -/
structure Contracts (w : World K) (args : RunArgs K) (source : String) (n : Nat) (global : String → Option (CacheFn K)) (reg : Registry K)
    (freq : Option Freq := some .D) : Prop where
  percentiles : 0 < args.q1 ∧ args.q1 < 100 ∧ 0 < args.q2 ∧ args.q2 < 100
  test : args.models.mode = .auto → ∀ df : Frame K, df.hasDate = true → df.rows.Pairwise (fun a b => a.x < b.x) → 4 ≤ (usableRows df).length →
    df.rows.length ≤ n → ∃ c, w.ch.corr df = .ok c
  models : ∀ df cand, candidates w.ch args.models df freq = .ok cand → cand.2 ≠ [] ∧ ∀ m ∈ cand.2, Workable w.srt global reg m
  cacheVars : ∀ i, (w.env source i).globalCache = global
  solver : ∀ i, SolverReturns (w.env source i)
  score : ∀ i, ∀ k ≤ n, ScoreReturns (w.env source i) k

/-- The date is not before the starting date, if one is given. -/
def Started (start : Option Timestamp) (t : Timestamp) : Prop := ∀ d, start = some d → d ≤ t

/-- There are samples at two dates from the starting date on, and a sample from the starting date on with a value and positive weight. -/
structure Forecastable (start : Option Timestamp) (hasWeight : Bool) (rows : List (SRow K)) : Prop where
  two : ∃ r ∈ rows, ∃ r' ∈ rows, r.date ≠ r'.date ∧ Started start r.date ∧ Started start r'.date
  counts : ∃ r ∈ rows, Started start r.date ∧ r.y ≠ none ∧ (hasWeight = true → ∃ v, r.weight = some v ∧ 0 < v)

end Anticipy.Spec
