import Verif.Spec.Total

/-
What is needed of candidate models for a run on a series without dates to come to an end without an exception.
-/
namespace Anticipy.Spec
variable {K : Type} [Field K] [LinearOrder K]

/-- A model with parameters that can be fitted to every series without dates and with increasing x: it does not raise on input of the right shape, and starts
within its bounds. -/
structure DependableUndated (global : String → Option (CacheFn K)) (reg : Registry K) (m : ForecastModel K) : Prop where
  params : m.nParams ≠ 0
  named : m.name ≠ "null"
  validates : ∀ v ∈ m.validators, ∀ ax ay : List K, ∀ e, v.run ax ay none = .error e → e = .assertionError
  bounds : ∀ ax ay : List K, ax.Pairwise (· < ·) → ay.length = ax.length → m.nParams + 2 ≤ ax.length →
    ∃ b, m.fBounds ⟨some ax, some ay, none⟩ = .ok b ∧ StrictBounds b
  guess : ∀ (ax ay : List K) u mult, ax.Pairwise (· < ·) → ay.length = ax.length → m.nParams + 2 ≤ ax.length →
    ∃ q : List K, m.fInit u ⟨some ax, some ay, none⟩ mult = .ok (q.map .fin) ∧ q.length = m.nParams ∧
      ∀ b, m.fBounds ⟨some ax, some ay, none⟩ = .ok b → ParamsWithin q b
  evaluates : ∀ (ctx : Ctx K) p mult, ctx.adate = none → p.length = m.nParams →
    ∃ a, m.fModel (noCache ctx) (some p) mult = .ok a ∧ Shaped ctx.ax.length a ∧ NoNulls a
  registered : Registered global reg m
  transparent : CacheTransparent reg m
  features : ∀ k f, ((k ∈ m.cacheVars ∧ global k = some f) ∨ (k, f) ∈ m.dictFCache) → ∀ ax, ∃ v, f ax none = .ok v

/-- A dependable model, the null model, or the naive model. -/
def WorkableUndated (srt : SortAlg) (global : String → Option (CacheFn K)) (reg : Registry K) (m : ForecastModel K) : Prop :=
  m = modelNull ∨ m = modelNaive srt ∨ DependableUndated global reg m

/-- What a run for one source without dates on at most `n` samples needs: percentiles between 0 and 100; there are candidate models, and all of them are
workable; solver and score keep their contracts. (Without dates the multiplicative test is not computed.) -/
structure UndatedContracts (w : World K) (args : RunArgs K) (source : String) (n : Nat) (global : String → Option (CacheFn K)) (reg : Registry K) : Prop where
  percentiles : 0 < args.q1 ∧ args.q1 < 100 ∧ 0 < args.q2 ∧ args.q2 < 100
  models : ∀ df : Frame K, df.hasDate = false → ∀ cand, candidates w.ch args.models df none = .ok cand → cand.2 ≠ [] ∧ ∀ m ∈ cand.2, WorkableUndated w.srt global reg m
  cacheVars : ∀ i, (w.env source i).globalCache = global
  solver : ∀ i, SolverReturns (w.env source i)
  score : ∀ i, ∀ k ≤ n, ScoreReturns (w.env source i) k

/-- A table of one series without dates, as a user supplies it: either it has a column x without duplicates, or none, and then the position of a row is its x. -/
structure NumericTable (t : STable K) : Prop where
  oneSource : t.hasSource = false
  undated : t.hasDate = false
  distinct : t.hasX = true → (t.rows.map SRow.x).Nodup

end Anticipy.Spec
