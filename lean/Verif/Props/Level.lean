import Verif.Props.ComesTrue
import Verif.Props.Similar
import Verif.Props.RowOrder
import Verif.Props.StartRows

/-
C49, C74, C75, C76, C77, C80 for the constant model, as for the linear trend.
-/
namespace Anticipy
open Spec
variable {K : Type} [Field K] [LinearOrder K]

omit [LinearOrder K] in
theorem level_noOrigin : NoOrigin 1 (levelValue : List K → Int → Timestamp → K) := by
  intro d
  exact ⟨fun p => p, fun p hp => ⟨hp, fun x t => rfl⟩⟩

/-- **C74, constant.** As `C74_line`. -/
theorem C74_constant [FloorRing K] [IsStrictOrderedRing K] (w w' : World K) (args args' : RunArgs K) (source source' : String) (df : Frame K) (c d : K)
    (hc : c ≠ 0) (res res' : RunResult K) (h : runSingle w args source df = .ok res) (h' : runSingle w' args' source' (rescaled c d df) = .ok res')
    (hstart : args'.start = args.start) (hout : args'.findOutliers = args.findOutliers)
    (hmin : ∀ i, FindsMinimum (w.env source i)) (hmin' : ∀ i, FindsMinimum (w'.env source' i))
    (hcand : ∀ df' cand, candidates w.ch args.models df' (runFreq df) = .ok cand → ∀ m ∈ cand.2, m.name = "constant" → m = modelConstant)
    (hcand' : ∀ df' cand, candidates w'.ch args'.models df' (runFreq df) = .ok cand → ∀ m ∈ cand.2, m.name = "constant" → m = modelConstant)
    (hdate : df.hasDate = true) (t0 : Timestamp) (hdays : CountsDays df t0) (hnd : (df.rows.map Row.x).Nodup)
    (r r' : DRow K) (hr : r ∈ res.data) (hr' : r' ∈ res'.data) (hact : r.isActuals = false) (hact' : r'.isActuals = false)
    (hname : r.model = "constant") (hname' : r'.model = "constant") (hsame : r'.date = r.date) :
    ∃ v, r.y = some v ∧ r'.y = some (c * v + d) := by
  refine follow_run w w' args args' source source' df c d hc res res' h h' hstart hout hmin hmin' modelConstant constant_unpinned (fun _ => none) levelValue
    constant_inParameters ?_ ?_ hcand hcand' hdate t0 hdays hnd r r' hr hr' hact hact' hname hname' hsame
  all_goals
    intro i
    constructor <;> simp [modelConstant, mkModel]

/-- **C75, constant.** As `C75_line`. -/
theorem C75_constant [FloorRing K] [IsStrictOrderedRing K] (w w' w'' : World K) (args args' args'' : RunArgs K) (source source' source'' : String)
    (df : Frame K) (u v : Int → K) (a b : K) (res res' res'' : RunResult K) (h : runSingle w args source (valued u df) = .ok res)
    (h' : runSingle w' args' source' (valued v df) = .ok res') (h'' : runSingle w'' args'' source'' (valued (fun x => a * u x + b * v x) df) = .ok res'')
    (hstart' : args'.start = args.start) (hstart'' : args''.start = args.start) (hout : args.findOutliers = false) (hout' : args'.findOutliers = false)
    (hout'' : args''.findOutliers = false)
    (hmin : ∀ i, FindsMinimum (w.env source i)) (hmin' : ∀ i, FindsMinimum (w'.env source' i)) (hmin'' : ∀ i, FindsMinimum (w''.env source'' i))
    (hcand : ∀ df' cand, candidates w.ch args.models df' (runFreq df) = .ok cand → ∀ m' ∈ cand.2, m'.name = "constant" → m' = modelConstant)
    (hcand' : ∀ df' cand, candidates w'.ch args'.models df' (runFreq df) = .ok cand → ∀ m' ∈ cand.2, m'.name = "constant" → m' = modelConstant)
    (hcand'' : ∀ df' cand, candidates w''.ch args''.models df' (runFreq df) = .ok cand → ∀ m' ∈ cand.2, m'.name = "constant" → m' = modelConstant)
    (hdate : df.hasDate = true) (t0 : Timestamp) (hdays : CountsDays df t0) (hnd : (df.rows.map Row.x).Nodup)
    (r r' r'' : DRow K) (hr : r ∈ res.data) (hr' : r' ∈ res'.data) (hr'' : r'' ∈ res''.data) (hact : r.isActuals = false) (hact' : r'.isActuals = false)
    (hact'' : r''.isActuals = false) (hname : r.model = "constant") (hname' : r'.model = "constant") (hname'' : r''.model = "constant")
    (hsame' : r'.date = r.date) (hsame'' : r''.date = r.date) :
    ∃ y y', r.y = some y ∧ r'.y = some y' ∧ r''.y = some (a * y + b * y') := by
  refine superposition_run w w' w'' args args' args'' source source' source'' df u v a b res res' res'' h h' h'' hstart' hstart'' hout hout' hout'' hmin hmin'
    hmin'' modelConstant constant_unpinned (fun _ => none) levelValue constant_inParameters level_linear ?_ ?_ ?_ hcand hcand' hcand'' hdate t0 hdays hnd r r' r''
    hr hr' hr'' hact hact' hact'' hname hname' hname'' hsame' hsame''
  all_goals
    intro i
    constructor <;> simp [modelConstant, mkModel]

/-- **C76, constant.** As `C76_line`. -/
theorem C76_constant [FloorRing K] [IsStrictOrderedRing K] (w w' : World K) (args args' : RunArgs K) (source source' : String) (df : Frame K) (k : K)
    (hk : 0 < k) (hw : df.hasWeight = true) (res res' : RunResult K) (h : runSingle w args source df = .ok res)
    (h' : runSingle w' args' source' (reweighted k df) = .ok res')
    (hstart : args'.start = args.start) (hout : args'.findOutliers = args.findOutliers)
    (hmin : ∀ i, FindsMinimum (w.env source i)) (hmin' : ∀ i, FindsMinimum (w'.env source' i))
    (hcand : ∀ df' cand, candidates w.ch args.models df' (runFreq df) = .ok cand → ∀ m ∈ cand.2, m.name = "constant" → m = modelConstant)
    (hcand' : ∀ df' cand, candidates w'.ch args'.models df' (runFreq df) = .ok cand → ∀ m ∈ cand.2, m.name = "constant" → m = modelConstant)
    (hdate : df.hasDate = true) (t0 : Timestamp) (hdays : CountsDays df t0) (hnd : (df.rows.map Row.x).Nodup)
    (r r' : DRow K) (hr : r ∈ res.data) (hr' : r' ∈ res'.data) (hact : r.isActuals = false) (hact' : r'.isActuals = false)
    (hname : r.model = "constant") (hname' : r'.model = "constant") (hsame : r'.date = r.date) : r'.y = r.y := by
  obtain ⟨v, e1, e2⟩ := similar_run w w' args args' source source' df (reweighted k df) 0 1 0 one_ne_zero res res' h h'
    (reweighted_stages k hk df hw args args' hstart hout) hmin hmin' modelConstant constant_unpinned (fun _ => none) levelValue
    constant_inParameters (by intro p x t; rw [add_zero]) (by intro i; constructor <;> simp [modelConstant, mkModel])
    (by intro i; constructor <;> simp [modelConstant, mkModel]) hcand
    (by rw [runFreq_reweighted]; exact hcand') hdate hdate t0 hdays
    (reweighted_days k df t0 hdays) hnd r r' hr hr' hact hact' hname hname' (by rw [add_zero]; exact hsame)
  rw [e1, e2, one_mul, add_zero]

/-- **C77, constant.** As `C77_line`. -/
theorem C77_constant [FloorRing K] [IsStrictOrderedRing K] (w w' : World K) (args args' : RunArgs K) (source source' : String) (df : Frame K) (s : Int)
    (res res' : RunResult K) (h : runSingle w args source df = .ok res) (h' : runSingle w' args' source' (moved s df) = .ok res')
    (hstart : args'.start = args.start.map fun t => t + s) (hout : args'.findOutliers = args.findOutliers)
    (hmin : ∀ i, FindsMinimum (w.env source i)) (hmin' : ∀ i, FindsMinimum (w'.env source' i))
    (hcand : ∀ df' cand, candidates w.ch args.models df' (runFreq df) = .ok cand → ∀ m ∈ cand.2, m.name = "constant" → m = modelConstant)
    (hcand' : ∀ df' cand, candidates w'.ch args'.models df' (runFreq (moved s df)) = .ok cand → ∀ m ∈ cand.2, m.name = "constant" → m = modelConstant)
    (hdate : df.hasDate = true) (t0 : Timestamp) (hdays : CountsDays df t0) (hnd : (df.rows.map Row.x).Nodup)
    (r r' : DRow K) (hr : r ∈ res.data) (hr' : r' ∈ res'.data) (hact : r.isActuals = false) (hact' : r'.isActuals = false)
    (hname : r.model = "constant") (hname' : r'.model = "constant") (hsame : r'.date = r.date + s) : r'.y = r.y := by
  obtain ⟨v, e1, e2⟩ := similar_run w w' args args' source source' df (moved s df) s 1 0 one_ne_zero res res' h h'
    (moved_stages s df args args' hstart hout) hmin hmin' modelConstant constant_unpinned (fun _ => none) levelValue
    constant_inParameters (by intro p x t; rfl) (by intro i; constructor <;> simp [modelConstant, mkModel])
    (by intro i; constructor <;> simp [modelConstant, mkModel]) hcand hcand' hdate hdate t0 hdays
    (moved_days s df t0 hdays) hnd r r' hr hr' hact hact' hname hname' hsame
  rw [e1, e2, one_mul, add_zero]

/-- **C80, constant.** As `C80_line`. -/
theorem C80_constant [FloorRing K] [IsStrictOrderedRing K] (w w' : World K) (args args' : RunArgs K) (id id' : String) (t t' : STable K)
    (hre : Reordered t t') (ht : OnePerDate t) (res res' : RunResult K) (h : runForecast w args id t = .ok (some res))
    (h' : runForecast w' args' id' t' = .ok (some res')) (hstart : args'.start = args.start) (hout : args'.findOutliers = args.findOutliers)
    (hmin : ∀ s i, FindsMinimum (w.env s i)) (hmin' : ∀ s i, FindsMinimum (w'.env s i))
    (hcand : ∀ df fr cand, candidates w.ch args.models df fr = .ok cand → ∀ m ∈ cand.2, m.name = "constant" → m = modelConstant)
    (hcand' : ∀ df fr cand, candidates w'.ch args'.models df fr = .ok cand → ∀ m ∈ cand.2, m.name = "constant" → m = modelConstant)
    (r r' : DRow K) (hr : r ∈ res.data) (hr' : r' ∈ res'.data) (hact : r.isActuals = false) (hact' : r'.isActuals = false)
    (hsrc : t.hasSource = true → r'.source = r.source)
    (hname : r.model = "constant") (hname' : r'.model = "constant") (hsame : r'.date = r.date) : r'.y = r.y :=
  agreeing_run w w' args args' id id' t t' (hre.agree _) ht (onePerDate_reordered t t' hre ht) res res' h h' hstart hout hmin hmin' modelConstant constant_unpinned (fun _ => none) levelValue
    constant_inParameters level_noOrigin (by intro s i; constructor <;> simp [modelConstant, mkModel]) (by intro s i; constructor <;> simp [modelConstant, mkModel])
    hcand hcand' r r' hr hr' hact hact' hsrc hname hname' hsame

/-- **C49, constant.** As `C49_rows_line_partial`. -/
theorem C49_rows_constant_partial [FloorRing K] [IsStrictOrderedRing K] (w w' : World K) (args args' : RunArgs K) (id id' : String) (t t' : STable K)
    (hre : AgreeFrom args.start t t') (ht : OnePerDate t) (ht' : OnePerDate t') (res res' : RunResult K) (h : runForecast w args id t = .ok (some res))
    (h' : runForecast w' args' id' t' = .ok (some res')) (hstart : args'.start = args.start) (hout : args'.findOutliers = args.findOutliers)
    (hmin : ∀ s i, FindsMinimum (w.env s i)) (hmin' : ∀ s i, FindsMinimum (w'.env s i))
    (hcand : ∀ df fr cand, candidates w.ch args.models df fr = .ok cand → ∀ m ∈ cand.2, m.name = "constant" → m = modelConstant)
    (hcand' : ∀ df fr cand, candidates w'.ch args'.models df fr = .ok cand → ∀ m ∈ cand.2, m.name = "constant" → m = modelConstant)
    (r r' : DRow K) (hr : r ∈ res.data) (hr' : r' ∈ res'.data) (hact : r.isActuals = false) (hact' : r'.isActuals = false)
    (hsrc : t.hasSource = true → r'.source = r.source)
    (hname : r.model = "constant") (hname' : r'.model = "constant") (hsame : r'.date = r.date) : r'.y = r.y :=
  agreeing_run w w' args args' id id' t t' hre ht ht' res res' h h' hstart hout hmin hmin' modelConstant constant_unpinned (fun _ => none) levelValue
    constant_inParameters level_noOrigin (by intro s i; constructor <;> simp [modelConstant, mkModel]) (by intro s i; constructor <;> simp [modelConstant, mkModel])
    hcand hcand' r r' hr hr' hact hact' hsrc hname hname' hsame

/-! ### Concrete runs -/

/-- The mean of the scattered values is `26/7`, in another unit `2 * 26/7 + 1`, and with all weights tripled or all dates moved the same. -/
example : ([(rescaled 2 1 scatterFrame, (59 : ℚ) / 7), (reweighted 3 scatterFrame, 26 / 7), (moved (100 * DAY) scatterFrame, 26 / 7)].all fun c =>
    match runSingle { demoWorld with env := fun _ _ => givenEnv [c.2] } (demoArgs [modelConstant] (some [])) "s" c.1 with
    | .ok r => decide (errorSum r (fun _ => c.2) (fun _ => 1) = 0) && (r.data.filter fun q => !q.isActuals).all (fun q => decide (q.y = some c.2)) && decide (r.data.length = 13)
    | .error _ => false) = true := by decide +kernel

end Anticipy
