import Verif.Spec.MoreModels
import Verif.Props.RunExamples
import Verif.Props.TotalTable

/-
C85: more candidate models do not change the other fits, and never give a worse best score.
-/
namespace Anticipy
open Spec
variable {K : Type} [Field K] [LinearOrder K]

theorem forecastRows_same (s s' : FitSetup K) (m : ForecastModel K) (f : FitResult K) (h0 : s'.source = s.source) (h1 : s'.freq = s.freq)
    (h2 : s'.stop = s.stop) (h3 : s'.years = s.years) (h4 : s'.used = s.used) (h5 : s'.actuals = s.actuals) : forecastRows s' m f = forecastRows s m f := by
  unfold forecastRows
  rw [h0, h1, h2, h3, h4, h5]

theorem metaRow_same (s s' : FitSetup K) (m : ForecastModel K) (f : FitResult K) (h0 : s'.source = s.source) (h1 : s'.freq = s.freq) (h2 : s'.weights = s.weights)
    (h3 : modelAddMult m s'.mode s'.addModels = modelAddMult m s.mode s.addModels) : metaRow s' m f = metaRow s m f := by
  unfold metaRow
  rw [h0, h1, h2, h3]

section
variable [FloorRing K]

/-- What two runs on the same series with different candidates have in common. -/
theorem superset_stages (w : World K) (args : RunArgs K) (source : String) (df : Frame K) (models : ModelArgs K) (hdet : ∀ i j, w.env source i = w.env source j)
    (hcand : ∀ dg cand cand', candidates w.ch args.models dg (runFreq df) = .ok cand → candidates w.ch models dg (runFreq df) = .ok cand' →
      cand'.1 = cand.1 ∧ ∀ m ∈ cand.2, m ∈ cand'.2 ∧
        modelAddMult m cand.1 (composedModels w.ch models dg false) = modelAddMult m cand.1 (composedModels w.ch args.models dg false))
    (d d' : List (DRow K) × List (MRow K)) (st : RunStages w args source df d) (st' : RunStages w { args with models := models } source df d') :
    st'.df2 = st.df2 ∧ st'.range = st.range ∧ (∀ r ∈ st.fits.1, r ∈ st'.fits.1) ∧ ∀ r ∈ st.fits.2, r ∈ st'.fits.2 := by
  obtain ⟨df2, range, cand, actuals, fits, hOut, hRange, hCand, hAct, hFits, hNe, hd⟩ := st
  obtain ⟨df2', range', cand', actuals', fits', hOut', hRange', hCand', hAct', hFits', hNe', hd'⟩ := st'
  dsimp only at hOut' hCand' hFits' ⊢
  rw [hOut] at hOut'
  cases hOut'
  rw [hRange] at hRange'
  cases hRange'
  rw [hAct] at hAct'
  cases hAct'
  obtain ⟨c1, c3⟩ := hcand _ _ _ hCand hCand'
  obtain ⟨-, spec, back⟩ := fitLoop_spec _ _ _ _ _ hFits
  obtain ⟨-, spec', -⟩ := fitLoop_spec _ _ _ _ _ hFits'
  -- the same model at another position
  have key : ∀ (k : Nat) (m : ForecastModel K) (f : FitResult K) (rows : List (DRow K)), cand.2[k]? = some m →
      fitModel (w.env source (0 + k)) m (usedRows (defaultWeights df2).1) (some actuals) args.useCache = .ok f →
      forecastRows (mkSetup w args source df (defaultWeights df2).1 (defaultWeights df2).2 cand.1 actuals) m f = .ok rows →
      metaRow (mkSetup w args source df (defaultWeights df2).1 (defaultWeights df2).2 cand.1 actuals) m f ∈ fits'.1 ∧ ∀ r ∈ rows, r ∈ fits'.2 := by
    intro k m f rows hk hf hrows
    obtain ⟨k', hk'⟩ := List.mem_iff_getElem?.1 (c3 m (List.mem_of_getElem? hk)).1
    obtain ⟨f', rows', h1, h2, h3, h4⟩ := spec' k' m hk'
    simp only [mkSetup] at h1
    rw [hdet (0 + k') (0 + k), hf] at h1
    cases h1
    rw [forecastRows_same (mkSetup w args source df (defaultWeights df2).1 (defaultWeights df2).2 cand.1 actuals) (mkSetup w { args with models := models } source df (defaultWeights df2).1 (defaultWeights df2).2 cand'.1 actuals) m f rfl rfl rfl rfl rfl rfl,
      hrows] at h2
    cases h2
    rw [metaRow_same (mkSetup w args source df (defaultWeights df2).1 (defaultWeights df2).2 cand.1 actuals) (mkSetup w { args with models := models } source df (defaultWeights df2).1 (defaultWeights df2).2 cand'.1 actuals) m f rfl rfl rfl
      (by simp only [mkSetup]; rw [c1]; exact (c3 m (List.mem_of_getElem? hk)).2)] at h3
    exact ⟨List.mem_of_getElem? h3, h4⟩
  refine ⟨rfl, rfl, ?_, ?_⟩
  · intro r hr
    obtain ⟨k, hk⟩ := List.mem_iff_getElem?.1 hr
    have hlt : k < cand.2.length := by
      have := (List.getElem?_eq_some_iff.1 hk).1
      have := (fitLoop_spec _ _ _ _ _ hFits).1
      omega
    obtain ⟨f, rows, h1, h2, h3, -⟩ := spec k _ (List.getElem?_eq_getElem hlt)
    rw [hk] at h3
    cases h3
    exact (key k _ f rows (List.getElem?_eq_getElem hlt) h1 h2).1
  · intro r hr
    obtain ⟨k, m, f, rows, h1, h2, h3, h4⟩ := back r hr
    exact (key k m f rows h1 h2 h3).2 r h4

/-- **C85, independence.** With more candidate models (all fits requested), all fits and all rows of values are found again, unchanged apart from the mark of the best
model. -/
theorem C85_independent (w : World K) (args : RunArgs K) (source : String) (df : Frame K) (models : ModelArgs K) (hdet : ∀ i j, w.env source i = w.env source j)
    (hcand : ∀ dg cand cand', candidates w.ch args.models dg (runFreq df) = .ok cand → candidates w.ch models dg (runFreq df) = .ok cand' →
      cand'.1 = cand.1 ∧ ∀ m ∈ cand.2, m ∈ cand'.2 ∧
        modelAddMult m cand.1 (composedModels w.ch models dg false) = modelAddMult m cand.1 (composedModels w.ch args.models dg false))
    (hall : args.includeAll = true) (res res' : RunResult K) (h : runSingle w args source df = .ok res)
    (h' : runSingle w { args with models := models } source df = .ok res') : FoundIn res res' := by
  obtain ⟨d, hd, hdata, hmeta, -⟩ := runSingle_inv w args source df res h
  obtain ⟨d', hd', hdata', hmeta', -⟩ := runSingle_inv w _ source df res' h'
  obtain ⟨st⟩ := runFits_stages w args source df d hd
  obtain ⟨st'⟩ := runFits_stages w _ source df d' hd'
  obtain ⟨e1, e2, e3, e4⟩ := superset_stages w args source df models hdet hcand d d' st st'
  unfold selectFits at hdata hmeta hdata' hmeta'
  rw [if_pos hall, st.hd] at hdata hmeta
  rw [if_pos hall, st'.hd] at hdata' hmeta'
  constructor
  · intro r hr
    rw [hmeta] at hr
    obtain ⟨q, hq, rfl⟩ := List.mem_map.1 hr
    rw [hmeta']
    exact ⟨_, List.mem_map.2 ⟨q, e3 q hq, rfl⟩, rfl⟩
  · intro r hr
    rw [hdata] at hr
    obtain ⟨q, hq, rfl⟩ := List.mem_map.1 hr
    rw [hdata']
    refine ⟨_, List.mem_map.2 ⟨q, ?_, rfl⟩, rfl⟩
    rw [e1, e2]
    rcases List.mem_append.1 hq with hq | hq
    · exact List.mem_append_left _ hq
    · exact List.mem_append_right _ (e4 q hq)

/-- **C85, score.** With more candidate models, the best score is not worse: no fit of the smaller run has a better score than the model marked as best. -/
theorem C85_score (w : World K) (args : RunArgs K) (source : String) (df : Frame K) (models : ModelArgs K) (hdet : ∀ i j, w.env source i = w.env source j)
    (hcand : ∀ dg cand cand', candidates w.ch args.models dg (runFreq df) = .ok cand → candidates w.ch models dg (runFreq df) = .ok cand' →
      cand'.1 = cand.1 ∧ ∀ m ∈ cand.2, m ∈ cand'.2 ∧
        modelAddMult m cand.1 (composedModels w.ch models dg false) = modelAddMult m cand.1 (composedModels w.ch args.models dg false))
    (res res' : RunResult K) (h : runSingle w args source df = .ok res)
    (h' : runSingle w { args with models := models } source df = .ok res') (r : MRow K) (hr : r ∈ res.metadata) (hf : r.isFit = true) :
    ∃ b ∈ res'.metadata, b.isBest = true ∧ b.isFit = true ∧ ¬ Better r.aic b.aic := by
  obtain ⟨d, hd, hdata, hmeta, -⟩ := runSingle_inv w args source df res h
  obtain ⟨d', hd', hdata', hmeta', -⟩ := runSingle_inv w _ source df res' h'
  obtain ⟨st⟩ := runFits_stages w args source df d hd
  obtain ⟨st'⟩ := runFits_stages w _ source df d' hd'
  obtain ⟨e1, e2, e3, e4⟩ := superset_stages w args source df models hdet hcand d d' st st'
  have hr0 : ∃ q ∈ st.fits.1, flagMeta (bestKey w.srt st.fits.1) q = r := by
    have hr : r ∈ st.fits.1.map (flagMeta (bestKey w.srt st.fits.1)) := by
      rw [hmeta, st.hd] at hr
      unfold selectFits at hr
      split_ifs at hr
      · exact hr
      · exact (List.mem_filter.1 hr).1
    exact List.mem_map.1 hr
  obtain ⟨q, hq, rfl⟩ := hr0
  obtain ⟨hnone, hsome⟩ := bestKey_spec w.srt st'.fits.1
  cases hk : bestKey w.srt st'.fits.1 with
  | none =>
    have h1 := hnone.1 hk q (e3 q hq)
    have h2 : q.isFit = true := hf
    rw [h1] at h2
    cases h2
  | some key =>
    obtain ⟨b, hb, hbf, hbk, hbest⟩ := hsome key hk
    refine ⟨flagMeta (some key) b, ?_, by simp [flagMeta, hbk], hbf, hbest q (e3 q hq) hf⟩
    rw [hmeta', st'.hd, hk]
    unfold selectFits
    have hin : flagMeta (some key) b ∈ st'.fits.1.map (flagMeta (some key)) := List.mem_map.2 ⟨b, hb, rfl⟩
    split_ifs
    · exact hin
    · exact List.mem_filter.2 ⟨hin, by simp [flagMeta, hbk]⟩

theorem dedupBy_prefix {α β : Type} [DecidableEq β] (key : α → β) (A B : List α) : dedupBy key A <+: dedupBy key (A ++ B) := by
  induction A with
  | nil => exact List.nil_prefix
  | cons a A ih =>
    simp only [List.cons_append, dedupBy]
    exact List.prefix_cons_inj a |>.2 (ih.filter _)

theorem dedupBy_ne {α β : Type} [DecidableEq β] (key : α → β) (A : List α) (h : A ≠ []) : dedupBy key A ≠ [] := by
  cases A with
  | nil => exact absurd rfl h
  | cons a A => simp [dedupBy]

/-- More trends at the end of the list give more compositions at the end of the list. -/
theorem getListModel_prefix (t t' : List (ForecastModel K)) (s : Option (List (ForecastModel K))) (mode : AddMult) (hm : mode = .add ∨ mode = .mult)
    (hne : t ≠ []) (hp : t <+: t') : getListModel (some t) s mode <+: getListModel (some t') s mode ∧ getListModel (some t) s mode ≠ [] := by
  obtain ⟨more, rfl⟩ := hp
  unfold getListModel
  simp only [Option.getD_some]
  by_cases hs : s.getD [] = []
  · rw [if_pos hs, if_pos hs]
    exact ⟨dedupBy_prefix _ _ _, dedupBy_ne _ _ hne⟩
  · have hne' : t ++ more ≠ [] := by simp [hne]
    have hpr : products (t ++ more) (s.getD []) = products t (s.getD []) ++ products more (s.getD []) := by
      simp [products, List.flatMap_append]
    have hnn : products t (s.getD []) ≠ [] := by
      cases t with
      | nil => exact absurd rfl hne
      | cons a t =>
        cases h : s.getD [] with
        | nil => exact absurd h hs
        | cons b l => simp [products]
    rw [if_neg hs, if_neg hs, if_neg hne, if_neg hne', hpr]
    rcases hm with rfl | rfl
    · simp only [ne_eq, reduceCtorEq, not_false_eq_true, if_true, not_true_eq_false, if_false, List.append_nil, List.map_append]
      exact ⟨dedupBy_prefix _ _ _, dedupBy_ne _ _ (by simpa using hnn)⟩
    · simp only [ne_eq, reduceCtorEq, not_false_eq_true, if_true, not_true_eq_false, if_false, List.nil_append, List.map_append]
      exact ⟨dedupBy_prefix _ _ _, dedupBy_ne _ _ (by simpa using hnn)⟩

theorem composedModels_prefix (ch : Choices K) (args : ModelArgs K) (t more : List (ForecastModel K)) (ht : args.trend = some t) (hne : t ≠ []) (df : Frame K) (mult : Bool) :
    composedModels ch args df mult <+: composedModels ch { args with trend := some (t ++ more) } df mult := by
  have hmode : (if mult then AddMult.mult else AddMult.add) = .add ∨ (if mult then AddMult.mult else AddMult.add) = .mult := by
    cases mult
    · exact .inl rfl
    · exact .inr rfl
  have key := fun s => getListModel_prefix t (t ++ more) s _ hmode hne (List.prefix_append _ _)
  unfold composedModels
  simp only [ht, Option.getD_some]
  cases args.calendar with
  | none => exact (key _).1
  | some cal =>
    dsimp only
    by_cases hc : useCalendar df = true
    · rw [if_pos hc, if_pos hc]
      exact (getListModel_prefix _ _ (some cal) _ hmode (key _).2 (key _).1).1
    · rw [if_neg hc, if_neg hc]
      exact (key _).1

theorem mem_dedupBy_first {α β : Type} [DecidableEq β] (key : α → β) (l : List α) (m : α) :
    m ∈ dedupBy key l ↔ l.find? (fun a => decide (key a = key m)) = some m := by
  induction l with
  | nil => simp [dedupBy]
  | cons a l ih =>
    simp only [dedupBy, List.mem_cons, List.mem_filter, List.find?_cons]
    by_cases e : key a = key m
    · simp only [e, decide_true, ne_eq, not_true_eq_false, decide_false, Bool.false_eq_true, and_false, or_false, Option.some.injEq]
      simp [eq_comm]
    · have hne : m ≠ a := fun h => e (by rw [h])
      have e' : key m ≠ key a := fun h => e h.symm
      simp [e, hne, ih, e']

/-- Sums and products of which the old ones come first: the representatives of the old names remain, if no old product has the name of a new sum. -/
theorem dedupBy_both {α β : Type} [DecidableEq β] (key : α → β) (A A' B B' : List α) (hA : A <+: A') (hB : B <+: B') (m : α) (hm : m ∈ dedupBy key (A ++ B))
    (hnew : ∀ a ∈ A', key a = key m → ∃ a0 ∈ A, key a0 = key m) : m ∈ dedupBy key (A' ++ B') := by
  obtain ⟨X, rfl⟩ := hA
  obtain ⟨Y, rfl⟩ := hB
  rw [mem_dedupBy_first, List.find?_append] at hm
  rw [mem_dedupBy_first, List.find?_append, List.find?_append, List.find?_append]
  cases hf : A.find? (fun a => decide (key a = key m)) with
  | some a =>
    rw [hf] at hm
    simpa using hm
  | none =>
    have hX : X.find? (fun a => decide (key a = key m)) = none := by
      rw [List.find?_eq_none] at hf ⊢
      intro a ha he
      obtain ⟨a0, h0, e0⟩ := hnew a (List.mem_append_right _ ha) (of_decide_eq_true he)
      exact hf a0 h0 (decide_eq_true e0)
    rw [hf] at hm
    simp only [Option.none_or] at hm
    rw [hX]
    simp [hm]

/-- Names of sums that are new with more trend models are not names of models that were already offered. For 'both' only: there the entry for the kind of composition
tells sums from other models by their names. -/
def NewNames (ch : Choices K) (args args' : ModelArgs K) (fr : Option Freq) : Prop :=
  ∀ dg cand, candidates ch args dg fr = .ok cand → ∀ m ∈ cand.2, ∀ a ∈ composedModels ch args' dg false, a.name = m.name →
    ∃ a0 ∈ composedModels ch args dg false, a0.name = m.name

/-- The candidates when more trend models are given. -/
theorem candidates_trend (ch : Choices K) (args : ModelArgs K) (t more : List (ForecastModel K)) (ht : args.trend = some t) (hne : t ≠ [])
    (df : Frame K) (fr : Option Freq)
    (hmode : args.mode ≠ .both ∨ IsSet ch.setOrder ∧ NewNames ch args { args with trend := some (t ++ more) } fr)
    (cand cand' : AddMult × List (ForecastModel K)) (h : candidates ch args df fr = .ok cand)
    (h' : candidates ch { args with trend := some (t ++ more) } df fr = .ok cand') :
    cand'.1 = cand.1 ∧ ∀ m ∈ cand.2, m ∈ cand'.2 ∧
      modelAddMult m cand.1 (composedModels ch { args with trend := some (t ++ more) } df false) = modelAddMult m cand.1 (composedModels ch args df false) := by
  have hres : resolveMode ch { args with trend := some (t ++ more) } df = resolveMode ch args df := rfl
  have hprod : ∀ m, resolveMode ch args df = .ok m → m = .add ∨ m = .mult ∨ m = .both ∧ args.mode = .both := by
    intro m hm
    unfold resolveMode at hm
    cases e : args.mode with
    | add => rw [e] at hm; cases hm; exact .inl rfl
    | mult => rw [e] at hm; cases hm; exact .inr (.inl rfl)
    | both => rw [e] at hm; cases hm; exact .inr (.inr ⟨rfl, rfl⟩)
    | auto =>
      rw [e] at hm
      dsimp only at hm
      cases hb : isMultiplicative ch.corr df with
      | error e => rw [hb] at hm; cases hm
      | ok b =>
        rw [hb] at hm
        cases hm
        cases b
        · exact .inl rfl
        · exact .inr (.inl rfl)
  have h0 := h
  unfold candidates at h h'
  rw [hres] at h'
  cases hm : resolveMode ch args df with
  | error e => rw [hm] at h; cases h
  | ok mode =>
    rw [hm] at h h'
    cases h
    cases h'
    refine ⟨rfl, ?_⟩
    intro m hmem
    have hmem0 := hmem
    have hmem := (sortBy_perm _ _).mem_iff.1 hmem
    have pre := fun b => composedModels_prefix ch args t more ht hne df b
    rcases hprod _ hm with rfl | rfl | ⟨rfl, hb⟩
    · refine ⟨(sortBy_perm _ _).mem_iff.2 ?_, rfl⟩
      rcases List.mem_append.1 hmem with hn | hn
      · exact List.mem_append_left _ hn
      · exact List.mem_append_right _ ((pre false).subset hn)
    · refine ⟨(sortBy_perm _ _).mem_iff.2 ?_, rfl⟩
      rcases List.mem_append.1 hmem with hn | hn
      · exact List.mem_append_left _ hn
      · exact List.mem_append_right _ ((pre true).subset hn)
    · obtain ⟨hset, hnames⟩ := hmode.resolve_left (fun hc => hc hb)
      have hnew := hnames df _ h0 m hmem0
      refine ⟨(sortBy_perm _ _).mem_iff.2 ?_, ?_⟩
      · rcases List.mem_append.1 hmem with hn | hn
        · exact List.mem_append_left _ hn
        · refine List.mem_append_right _ ((hset _).mem_iff.2 ?_)
          exact dedupBy_both _ _ _ _ _ (pre false) (pre true) m ((hset _).mem_iff.1 hn) hnew
      · unfold modelAddMult
        dsimp only
        have hany : (composedModels ch { args with trend := some (t ++ more) } df false).any (fun a => decide (a.name = m.name)) =
            (composedModels ch args df false).any (fun a => decide (a.name = m.name)) := ?_
        · rw [hany]
        rw [Bool.eq_iff_iff, List.any_eq_true, List.any_eq_true]
        constructor
        · rintro ⟨a, ha, e⟩
          obtain ⟨a0, h1, h2⟩ := hnew a ha (of_decide_eq_true e)
          exact ⟨a0, h1, decide_eq_true h2⟩
        · rintro ⟨a, ha, e⟩
          exact ⟨a, (pre false).subset ha, e⟩

/-- The candidates when more naive models are given. -/
theorem candidates_naive (ch : Choices K) (args : ModelArgs K) (n more : List (ForecastModel K)) (hn : args.naive = some n)
    (df : Frame K) (fr : Option Freq) (cand cand' : AddMult × List (ForecastModel K)) (h : candidates ch args df fr = .ok cand)
    (h' : candidates ch { args with naive := some (n ++ more) } df fr = .ok cand') :
    cand'.1 = cand.1 ∧ ∀ m ∈ cand.2, m ∈ cand'.2 ∧
      modelAddMult m cand.1 (composedModels ch { args with naive := some (n ++ more) } df false) = modelAddMult m cand.1 (composedModels ch args df false) := by
  have hres : resolveMode ch { args with naive := some (n ++ more) } df = resolveMode ch args df := rfl
  have hcomp : ∀ mult, composedModels ch { args with naive := some (n ++ more) } df mult = composedModels ch args df mult := fun _ => rfl
  unfold candidates at h h'
  rw [hres] at h'
  cases hm : resolveMode ch args df with
  | error e => rw [hm] at h; cases h
  | ok mode =>
    rw [hm] at h h'
    cases h
    cases h'
    refine ⟨rfl, ?_⟩
    intro m hmem
    have hmem := (sortBy_perm _ _).mem_iff.1 hmem
    refine ⟨(sortBy_perm _ _).mem_iff.2 ?_, rfl⟩
    simp only [hn, Option.getD_some] at hmem
    simp only [Option.getD_some]
    rcases List.mem_append.1 hmem with h0 | h0
    · exact List.mem_append_left _ (List.mem_append_left _ h0)
    · exact List.mem_append_right _ h0

/-- **C85, more trend models.** Trend models added to `l_model_trend` leave all other fits and predictions as they are; for `season_add_mult='both'` if the new sums do
not have names of models that were already offered. -/
theorem C85_trend (w : World K) (args : RunArgs K) (source : String) (df : Frame K) (t more : List (ForecastModel K)) (hdet : ∀ i j, w.env source i = w.env source j)
    (ht : args.models.trend = some t) (hne : t ≠ [])
    (hmode : args.models.mode ≠ .both ∨ IsSet w.ch.setOrder ∧ NewNames w.ch args.models { args.models with trend := some (t ++ more) } (runFreq df))
    (hall : args.includeAll = true) (res res' : RunResult K)
    (h : runSingle w args source df = .ok res)
    (h' : runSingle w { args with models := { args.models with trend := some (t ++ more) } } source df = .ok res') : FoundIn res res' :=
  C85_independent w args source df _ hdet (fun dg cand cand' h1 h2 => candidates_trend w.ch args.models t more ht hne dg _ hmode cand cand' h1 h2) hall res res' h h'

/-- **C85, more naive models.** The same for models added to `l_model_naive`. -/
theorem C85_naive (w : World K) (args : RunArgs K) (source : String) (df : Frame K) (n more : List (ForecastModel K)) (hdet : ∀ i j, w.env source i = w.env source j)
    (hn : args.models.naive = some n) (hall : args.includeAll = true) (res res' : RunResult K)
    (h : runSingle w args source df = .ok res)
    (h' : runSingle w { args with models := { args.models with naive := some (n ++ more) } } source df = .ok res') : FoundIn res res' :=
  C85_independent w args source df _ hdet (fun dg cand cand' h1 h2 => candidates_naive w.ch args.models n more hn dg _ cand cand' h1 h2) hall res res' h h'

/-- The same for every source of a table. -/
theorem sources_found (w : World K) (args args' : RunArgs K) (t : STable K)
    (hone : ∀ source df res res', runSingle w args source df = .ok res → runSingle w args' source df = .ok res' → FoundIn res res') :
    ∀ (l : List (Option String)) (res res' : RunResult K), runSources w args t l = .ok res → runSources w args' t l = .ok res' → FoundIn res res' := by
  intro l
  induction l with
  | nil =>
    intro res res' h h'
    cases h
    cases h'
    exact ⟨fun r hr => (nomatch hr), fun r hr => (nomatch hr)⟩
  | cons s l ih =>
    intro res res' h h'
    simp only [runSources] at h h'
    cases e : runSingle w args (s.getD "") (frameOf t (sourcePart t.rows s)) with
    | error x => rw [e] at h; cases h
    | ok a =>
      cases e' : runSingle w args' (s.getD "") (frameOf t (sourcePart t.rows s)) with
      | error x => rw [e'] at h'; cases h'
      | ok a' =>
        cases g : runSources w args t l with
        | error x => rw [e, g] at h; cases h
        | ok b =>
          cases g' : runSources w args' t l with
          | error x => rw [e', g'] at h'; cases h'
          | ok b' =>
            rw [e, g] at h
            rw [e', g'] at h'
            cases h
            cases h'
            have h1 := hone _ _ _ _ e e'
            have h2 := ih b b' g g'
            constructor
            · intro r hr
              rcases List.mem_append.1 hr with hr | hr
              · obtain ⟨q, hq, hs⟩ := h1.fits r hr
                exact ⟨q, List.mem_append_left _ hq, hs⟩
              · obtain ⟨q, hq, hs⟩ := h2.fits r hr
                exact ⟨q, List.mem_append_right _ hq, hs⟩
            · intro r hr
              rcases List.mem_append.1 hr with hr | hr
              · obtain ⟨q, hq, hs⟩ := h1.values r hr
                exact ⟨q, List.mem_append_left _ hq, hs⟩
              · obtain ⟨q, hq, hs⟩ := h2.values r hr
                exact ⟨q, List.mem_append_right _ hq, hs⟩

theorem table_found (w : World K) (args args' : RunArgs K) (id : String) (t : STable K)
    (hone : ∀ source df res res', runSingle w args source df = .ok res → runSingle w args' source df = .ok res' → FoundIn res res') (res res' : RunResult K)
    (h : runForecast w args id t = .ok (some res)) (h' : runForecast w args' id t = .ok (some res')) : FoundIn res res' := by
  unfold runForecast at h h'
  cases e : normalizeDf w.srt t with
  | error x => rw [e] at h; cases h
  | ok n =>
    rw [e] at h h'
    cases n with
    | none => cases h
    | some t' =>
      simp only [bind, Except.bind] at h h'
      split_ifs at h h' with h1 h2
      · generalize dedupBy (fun s : Option String => s) (t'.rows.map SRow.source) = l at h h'
        cases g : runSources w args t' l with
        | error x => rw [g] at h; cases h
        | ok b =>
          cases g' : runSources w args' t' l with
          | error x => rw [g'] at h'; cases h'
          | ok b' =>
            rw [g] at h
            rw [g'] at h'
            cases h
            cases h'
            exact sources_found w args args' t' hone _ _ _ g g'
      · cases g : runSingle w args id (frameOf t' t'.rows) with
        | error x => rw [g] at h; cases h
        | ok b =>
          cases g' : runSingle w args' id (frameOf t' t'.rows) with
          | error x => rw [g'] at h'; cases h'
          | ok b' =>
            rw [g] at h
            rw [g'] at h'
            cases h
            cases h'
            exact hone _ _ _ _ g g'

/-- **C85, more trend models, for tables** with one or several sources. -/
theorem C85_table_trend (w : World K) (args : RunArgs K) (id : String) (t : STable K) (trend more : List (ForecastModel K))
    (hdet : ∀ source i j, w.env source i = w.env source j)
    (ht : args.models.trend = some trend) (hne : trend ≠ [])
    (hmode : args.models.mode ≠ .both ∨ IsSet w.ch.setOrder ∧ ∀ fr, NewNames w.ch args.models { args.models with trend := some (trend ++ more) } fr)
    (hall : args.includeAll = true) (res res' : RunResult K)
    (h : runForecast w args id t = .ok (some res))
    (h' : runForecast w { args with models := { args.models with trend := some (trend ++ more) } } id t = .ok (some res')) : FoundIn res res' :=
  table_found w args _ id t (fun source df a a' h1 h2 => C85_trend w args source df trend more (hdet source) ht hne (hmode.imp (fun h => h) fun h => ⟨h.1, h.2 _⟩) hall a a' h1 h2) res res' h h'

/-- **C85, more naive models, for tables** with one or several sources. -/
theorem C85_table_naive (w : World K) (args : RunArgs K) (id : String) (t : STable K) (n more : List (ForecastModel K))
    (hdet : ∀ source i j, w.env source i = w.env source j)
    (hn : args.models.naive = some n) (hall : args.includeAll = true) (res res' : RunResult K)
    (h : runForecast w args id t = .ok (some res))
    (h' : runForecast w { args with models := { args.models with naive := some (n ++ more) } } id t = .ok (some res')) : FoundIn res res' :=
  table_found w args _ id t (fun source df a a' h1 h2 => C85_naive w args source df n more (hdet source) hn hall a a' h1 h2) res res' h h'

end

/-- A constant level added to the straight line: the fit of the straight line and its predictions stay. -/
example : ∃ res res' : RunResult ℚ, runSingle demoWorld { demoArgs [modelLinear] (some []) with includeAll := true } "s" demoFrame = .ok res ∧
    runSingle demoWorld { demoArgs [modelLinear, modelConstant] (some []) with includeAll := true } "s" demoFrame = .ok res' ∧
    res.metadata.length = 1 ∧ res'.metadata.length = 2 ∧ FoundIn res res' := by
  have h1 : (runSingle demoWorld { demoArgs [modelLinear] (some []) with includeAll := true } "s" demoFrame).toOption.map
    (fun r => r.metadata.length) = some 1 := by decide +kernel
  have h2 : (runSingle demoWorld { demoArgs [modelLinear, modelConstant] (some []) with includeAll := true } "s" demoFrame).toOption.map
    (fun r => r.metadata.length) = some 2 := by decide +kernel
  cases e1 : runSingle demoWorld { demoArgs [modelLinear] (some []) with includeAll := true } "s" demoFrame with
  | error e => rw [e1] at h1; cases h1
  | ok res =>
    cases e2 : runSingle demoWorld { demoArgs [modelLinear, modelConstant] (some []) with includeAll := true } "s" demoFrame with
    | error e => rw [e2] at h2; cases h2
    | ok res' =>
      rw [e1] at h1
      rw [e2] at h2
      exact ⟨res, res', rfl, rfl, Option.some.inj h1, Option.some.inj h2,
        C85_trend demoWorld { demoArgs [modelLinear] (some []) with includeAll := true } "s" demoFrame [modelLinear] [modelConstant] (fun _ _ => rfl) rfl (by simp)
          (.inl (by decide)) rfl res res' e1 e2⟩

/-- A straight line, then also a constant level, both with weekdays, in sums and products: the condition on names holds. -/
example (fr : Option Freq) : IsSet totalWorld.ch.setOrder ∧ NewNames totalWorld.ch
    ⟨some [modelLinear], some [modelSeasonWday], .both, none, none, some [], none⟩ ⟨some [modelLinear, modelConstant], some [modelSeasonWday], .both, none, none, some [], none⟩ fr := by
  refine ⟨fun l => List.Perm.refl _, ?_⟩
  intro dg cand h m hm a ha e
  cases h
  have hm := (sortBy_perm _ _).mem_iff.1 hm
  have hm : m ∈ [modelLinear.add modelSeasonWday, modelLinear.mul modelSeasonWday] := List.mem_of_find?_eq_some ((mem_dedupBy_first _ _ _).1 hm)
  rcases List.mem_cons.1 hm with rfl | hm
  · exact ⟨_, .head _, rfl⟩
  · rw [List.mem_singleton.1 hm] at e
    have ha : a ∈ [modelLinear.add modelSeasonWday, modelConstant.add modelSeasonWday] := List.mem_of_find?_eq_some ((mem_dedupBy_first _ _ _).1 ha)
    rcases List.mem_cons.1 ha with rfl | ha
    · exact absurd e (by decide +kernel)
    · rw [List.mem_singleton.1 ha] at e
      exact absurd e (by decide +kernel)

end Anticipy
