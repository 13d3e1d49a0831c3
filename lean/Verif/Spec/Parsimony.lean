import Verif.Props.RunValues
import Verif.Props.Aic

/-
The price of additional parameters (C123).
-/
namespace Anticipy.Spec
variable {K : Type} [Field K] [LinearOrder K]

/-- In a run on `df` the candidates have different names, none of them is changed before its fit, and `m` is the one with its name. -/
structure NamedOnce (w : World K) (args : RunArgs K) (df : Frame K) (m : ForecastModel K) : Prop where
  names : ∀ df' cand, candidates w.ch args.models df' (runFreq df) = .ok cand → (cand.2.map ForecastModel.name).Nodup
  plain : ∀ df' cand, candidates w.ch args.models df' (runFreq df) = .ok cand → ∀ m' ∈ cand.2, Unpinned m'
  only : ∀ df' cand, candidates w.ch args.models df' (runFreq df) = .ok cand → ∀ m' ∈ cand.2, m'.name = m.name → m' = m

/-- What `k` parameters cost in the score of a fit to `n` samples. -/
noncomputable def penalty (n k : Nat) : ℝ := 2 * k + 2 * k * (k + 1) / ((n : ℝ) - k - 1)

end Anticipy.Spec
