import Verif.Spec.Widening
import Verif.Lemmas.Averages
import Verif.Props.Interval
import Verif.Props.DetectFreq

/-
C105: on average over the random draws, prediction intervals are centred on the forecast, are equally wide for all past rows, and widen by one variance of the
residuals at the beginning of every requested period. Refuted for hourly and quarterly series, where the periods have the wrong length.
-/
namespace Anticipy
open Spec
variable {K : Type} [Field K] [LinearOrder K]

section
variable [IsStrictOrderedRing K]

theorem sum_getD (l : List K) : ∑ a : Fin l.length, l.getD a.val 0 = l.sum := by
  rw [← List.sum_ofFn]
  congr 1
  apply List.ext_getElem
  · simp
  · intro i h1 h2
    simp [h2]

omit [LinearOrder K] [IsStrictOrderedRing K] in
theorem sum_getD_sq (l : List K) : ∑ a : Fin l.length, l.getD a.val 0 ^ 2 = (l.map fun v => v ^ 2).sum := by
  rw [← List.sum_ofFn]
  congr 1
  apply List.ext_getElem
  · simp
  · intro i h1 h2
    simp at h2
    simp [h2]

theorem centred_sum (l : List K) (h : l ≠ []) : (centred l).sum = 0 := by
  unfold centred mean
  have h0 : (l.length : K) ≠ 0 := by
    have := List.length_pos_iff.2 h
    exact_mod_cast this.ne'
  have : ∀ (l : List K) (m : K), (l.map fun a => a - m).sum = l.sum - l.length * m := by
    intro l m
    induction l with
    | nil => simp
    | cons a l ih => simp only [List.map_cons, List.sum_cons, ih, List.length_cons]; push_cast; ring
  rw [this, mul_div_cancel₀ _ h0, sub_self]

/-- The average of a sum of distinct draws, and of its square. -/
theorem average_draws {κ : Type} [Fintype κ] [DecidableEq κ] [Nonempty κ] (M : Nat) (l : List K) (hl : l ≠ []) (e : κ → Fin 3 × Fin M)
    (he : Function.Injective e) (F : (Nat → Nat → Nat) → K)
    (hF : ∀ d : Fin 3 × Fin M → Fin (centred l).length, F (drawsOf d) = ∑ k, (centred l).getD (d (e k)).val 0) :
    onAverage M l.length F = 0 ∧ onAverage M l.length (fun d => F d ^ 2) = Fintype.card κ * variance l := by
  have hlen : (centred l).length = l.length := by simp [centred]
  rw [← hlen]
  have hV : ∑ a : Fin (centred l).length, (centred l).getD a.val 0 = 0 := by rw [sum_getD, centred_sum l hl]
  unfold onAverage
  constructor
  · rw [Finset.sum_congr rfl (fun d _ => hF d), draws_sum (fun a : Fin (centred l).length => (centred l).getD a.val 0) hV e, zero_div]
  · have := draws_square (fun a : Fin (centred l).length => (centred l).getD a.val 0) hV e he
    simp only [hF]
    rw [this, sum_getD_sq]
    have hN : ((centred l).length : K) ≠ 0 := by
      have := List.length_pos_iff.2 hl
      rw [hlen]
      exact_mod_cast this.ne'
    have hcard : Fintype.card (Fin 3 × Fin M) = 3 * M := by simp
    have hpos : 0 < Fintype.card (Fin 3 × Fin M) := Fintype.card_pos_iff.2 ⟨e (Classical.arbitrary κ)⟩
    rw [← hcard]
    obtain ⟨c, hc⟩ : ∃ c, Fintype.card (Fin 3 × Fin M) = c + 1 := ⟨_, (Nat.succ_pred_eq_of_pos hpos).symm⟩
    rw [hc, Nat.add_sub_cancel, pow_succ]
    have hv : variance l = ((centred l).map fun v => v ^ 2).sum / ((centred l).length : K) := by
      unfold variance average centred mean
      simp [List.map_map, Function.comp_def]
    rw [hv]
    field_simp

theorem piSingle_of_regular [FloorRing K] (t : FTable K) (nCum : Int) (hreg : Spec.Regular t) (hov : Overlap t) (hs : t.hasSource = true)
    (n : Nat) (hn : cumPeriod t (selectRows t) nCum = .ok n) (q1 q2 : K) (hq : 0 < q1 ∧ q1 < 100 ∧ 0 < q2 ∧ q2 < 100) :
    ∃ p : PiParts t nCum, p.n = n ∧ p.res = residualsOf t ∧
      ((∃ a ∈ t.rows, Used t a = true ∧ a.date = p.last) ∧ ∀ a ∈ t.rows, Used t a = true → a.date ≤ p.last) := by
  have hf : t.numDate = true ∨ detectFreq ((selectRows t).map FRow.date) ≠ none := by
    by_contra hc
    push Not at hc
    unfold cumPeriod at hn
    simp only [hc.1, hc.2, if_false, bind, Except.bind] at hn
    cases hn
  have hne : selectRows t ≠ [] := by
    obtain ⟨f, hf, -, -, h1, -⟩ := hov
    refine List.ne_nil_of_mem ((selectRows_mem t f).2 ⟨hf, .inr h1⟩)
  obtain ⟨out, h⟩ := C46_total (fun _ _ => 0) t 0 nCum q1 q2 hq hs hne hf
  obtain ⟨-, p, h1, h2⟩ := piSingle_regular (fun _ _ => 0) t 0 nCum q1 q2 out hreg hov h
  refine ⟨p, ?_, h1, h2⟩
  have := p.hn
  rw [hn] at this
  exact (Except.ok.inj this).symm

theorem quantRow_q [FloorRing K] (q1 q2 : K) (s : List (List K)) (j : Nat) (f : FRow K) : (quantRow q1 q2 s j f).q ≠ [] ∧
    ∀ p v, (p, v) ∈ (quantRow q1 q2 s j f).q → v = lift2 (· + ·) f.y (percentile (column s j) p) := by
  constructor
  · unfold quantRow percents
    simp [dedupBy]
  · intro p v hv
    simp only [quantRow, List.mem_map, Prod.mk.injEq] at hv
    obtain ⟨p', -, rfl, rfl⟩ := hv
    rfl

/-- Rows of the result after and up to the last used sample. -/
theorem pi_rows [FloorRing K] (draw : Nat → Nat → Nat) (t : FTable K) (nSims : Nat) (nCum : Int) (q1 q2 : K) (hq : ValidPct q1 q2) (p : PiParts t nCum) :
    ∃ out fs ps, piSingle draw t nSims nCum q1 q2 = .ok out ∧ futureSample draw (centred p.res) nSims p.n p.future.length = .ok fs ∧
      pastSample draw (centred p.res) nSims p.past.length = .ok ps ∧
      (out.filter fun r => !r.isActuals && decide (p.last < r.date)) = p.future.mapIdx (quantRow q1 q2 fs) ∧
      (out.filter fun r => !r.isActuals && decide (r.date ≤ p.last)) = p.past.mapIdx (quantRow q1 q2 ps) := by
  obtain ⟨fs, ps, hfs, hps, ho⟩ := piSingle_parts draw t nSims nCum q1 q2 hq p
  refine ⟨_, fs, ps, ho, hfs, hps, ?_, ?_⟩
  · have e1 : (((actualsUnfiltered (selectRows t)).map actualOut).filter fun r => !r.isActuals && decide (p.last < r.date)) = [] := by
      rw [List.filter_eq_nil_iff]
      intro r hr
      rw [List.mem_map] at hr
      obtain ⟨f, -, rfl⟩ := hr
      simp [actualOut]
    have e2 : ((p.past.mapIdx (quantRow q1 q2 ps)).filter fun r => !r.isActuals && decide (p.last < r.date)) = [] := by
      rw [List.filter_eq_nil_iff]
      intro r hr
      rw [List.mem_mapIdx] at hr
      obtain ⟨j, hj, rfl⟩ := hr
      have := List.getElem_mem hj
      unfold PiParts.past at this
      rw [List.mem_filter, Bool.and_eq_true, decide_eq_true_iff] at this
      have h2 : p.past[j].date ≤ p.last := this.2.2
      rw [show (quantRow q1 q2 ps j p.past[j]).date = p.past[j].date from rfl, decide_eq_false (not_lt.2 h2)]
      simp
    have e3 : ((p.future.mapIdx (quantRow q1 q2 fs)).filter fun r => !r.isActuals && decide (p.last < r.date)) =
        p.future.mapIdx (quantRow q1 q2 fs) := by
      rw [List.filter_eq_self]
      intro r hr
      rw [List.mem_mapIdx] at hr
      obtain ⟨j, hj, rfl⟩ := hr
      have := List.getElem_mem hj
      unfold PiParts.future at this
      rw [List.mem_filter, Bool.and_eq_true, decide_eq_true_iff] at this
      have h2 : p.last < p.future[j].date := this.2.2
      rw [show (quantRow q1 q2 fs j p.future[j]).date = p.future[j].date from rfl, decide_eq_true h2]
      rfl
    rw [List.filter_append, List.filter_append, e1, e2, e3, List.nil_append, List.nil_append]
  · have e1 : (((actualsUnfiltered (selectRows t)).map actualOut).filter fun r => !r.isActuals && decide (r.date ≤ p.last)) = [] := by
      rw [List.filter_eq_nil_iff]
      intro r hr
      rw [List.mem_map] at hr
      obtain ⟨f, -, rfl⟩ := hr
      simp [actualOut]
    have e2 : ((p.future.mapIdx (quantRow q1 q2 fs)).filter fun r => !r.isActuals && decide (r.date ≤ p.last)) = [] := by
      rw [List.filter_eq_nil_iff]
      intro r hr
      rw [List.mem_mapIdx] at hr
      obtain ⟨j, hj, rfl⟩ := hr
      have := List.getElem_mem hj
      unfold PiParts.future at this
      rw [List.mem_filter, Bool.and_eq_true, decide_eq_true_iff] at this
      have h2 : p.last < p.future[j].date := this.2.2
      rw [show (quantRow q1 q2 fs j p.future[j]).date = p.future[j].date from rfl, decide_eq_false (not_le.2 h2)]
      simp
    have e3 : ((p.past.mapIdx (quantRow q1 q2 ps)).filter fun r => !r.isActuals && decide (r.date ≤ p.last)) =
        p.past.mapIdx (quantRow q1 q2 ps) := by
      rw [List.filter_eq_self]
      intro r hr
      rw [List.mem_mapIdx] at hr
      obtain ⟨j, hj, rfl⟩ := hr
      have := List.getElem_mem hj
      unfold PiParts.past at this
      rw [List.mem_filter, Bool.and_eq_true, decide_eq_true_iff] at this
      have h2 : p.past[j].date ≤ p.last := this.2.2
      rw [show (quantRow q1 q2 ps j p.past[j]).date = p.past[j].date from rfl, decide_eq_true h2]
      rfl
    rw [List.filter_append, List.filter_append, e1, e2, e3, List.nil_append, List.append_nil]

theorem select_forecast (t : FTable K) (P : FRow K → Bool) : (selectRows t).filter (fun r => !r.isActuals && P r) = t.rows.filter fun r => IsForecast t r && P r := by
  apply selectRows_filter
  intro r _
  unfold IsForecast
  cases r.isActuals <;> cases t.hasBest <;> cases r.isBest <;> cases P r <;> rfl

theorem drawsOf_mod {M N : Nat} (d : Fin 3 × Fin M → Fin N) (c i : Nat) (hc : c < 3) (hi : i < M) : drawsOf d c i % N = (d (⟨c, hc⟩, ⟨i, hi⟩)).val := by
  unfold drawsOf
  rw [dif_pos ⟨hc, hi⟩, Nat.mod_eq_of_lt (Fin.is_lt _)]

theorem index_bound (i j n m : Nat) (hi : i < m) (hj : j < n) : i * n + j < m * n := by
  have := Nat.mul_le_mul_right n (Nat.succ_le_of_lt hi)
  rw [Nat.succ_mul] at this
  omega

/-- **C105, future.** For the rows after the last used sample: intervals are percentiles of deviations from the forecast which are zero on average, with a mean
square of `j / n + 2` variances of the residuals in the `j`-th row, where `n` is the number of samples per period. -/
theorem C105_future_partial [FloorRing K] (t : FTable K) (nSims : Nat) (nCum : Int) (q1 q2 : K) (hreg : Spec.Regular t) (hov : Overlap t)
    (hs : t.hasSource = true) (hq : 0 < q1 ∧ q1 < 100 ∧ 0 < q2 ∧ q2 < 100) (n : Nat) (hn : cumPeriod t (selectRows t) nCum = .ok n)
    (last : Timestamp) (hlast : LastUsed t last) (M : Nat) (hM : nSims * t.rows.length ≤ M) :
    Simulated (fun draw => piSingle draw t nSims nCum q1 q2) (fun r => !r.isActuals && decide (last < r.date)) nSims
      (t.rows.filter fun r => IsForecast t r && decide (last < r.date)).length M (residualsOf t).length
      fun j => ((j / n + 2 : Nat) : K) * variance (residualsOf t) := by
  obtain ⟨p, hpn, hres, ⟨⟨a, ha, hu, hd⟩, hle⟩⟩ := piSingle_of_regular t nCum hreg hov hs n hn q1 q2 hq
  have hl : p.last = last := by
    obtain ⟨⟨a', ha', hu', hd'⟩, hle'⟩ := hlast
    apply le_antisymm
    · rw [← hd]; exact hle' a ha hu
    · rw [← hd']; exact hle a' ha' hu'
  have hcount : p.future = t.rows.filter fun r => IsForecast t r && decide (last < r.date) := by
    unfold PiParts.future
    rw [hl]
    exact select_forecast t _
  have hn0 := cumPeriod_pos t _ nCum p.n p.hn
  have hne : residualsOf t ≠ [] := by rw [← hres]; exact p.hres
  have hcl : (centred (residualsOf t)).length = (residualsOf t).length := by simp [centred]
  set N := p.future.length with hN
  have hNM : nSims * N ≤ M := le_trans (Nat.mul_le_mul_left _ (by rw [hN, hcount]; exact List.length_filter_le _ _)) hM
  set S := ⌈(N : ℚ) / (p.n : ℚ)⌉.toNat with hS
  refine ⟨fun draw i j => (centred p.res).getD (draw 1 (i * N + j) % (centred p.res).length) 0 +
        ∑ k ∈ Finset.range (j / p.n + 1), (centred p.res).getD (draw 0 (i * S + k) % (centred p.res).length) 0, ?_, ?_⟩
  · intro draw
    obtain ⟨out, fs, ps, h1, h2, -, h3, -⟩ := pi_rows draw t nSims nCum q1 q2 hq p
    rw [hl] at h3
    refine ⟨out, h1, by rw [h3, ← hcount, List.length_mapIdx], ?_⟩
    intro j r hr
    rw [h3, List.getElem?_mapIdx] at hr
    rw [futureSample_entries draw _ nSims p.n _ (centred_ne_nil p.res p.hres) hn0] at h2
    have h2 := Except.ok.inj h2
    cases hf : p.future[j]? with
    | none => rw [hf] at hr; cases hr
    | some f =>
      rw [hf] at hr
      cases hr
      have hj : j < N := (List.getElem?_eq_some_iff.1 hf).1
      obtain ⟨a1, a2⟩ := quantRow_q q1 q2 fs j f
      refine ⟨a1, ?_⟩
      intro q v hv
      rw [a2 q v hv, ← h2, column_entries _ nSims _ j hj]
      rfl
  · intro i hi j hj
    rw [← hcount, ← hN] at hj
    have b1 : i * N + j < M := lt_of_lt_of_le (index_bound i j N nSims hi hj) hNM
    have hSN : S ≤ N := short_few N p.n hn0
    have hjS : j / p.n < S := short_index N p.n j hn0 hj
    have b2 : ∀ k : Fin (j / p.n + 1), i * S + k.val < M := by
      intro k
      have := index_bound i k.val S nSims hi (by have := k.isLt; omega)
      have h2 := Nat.mul_le_mul_left nSims hSN
      omega
    have key := average_draws (κ := Option (Fin (j / p.n + 1))) M (residualsOf t) hne
      (fun o => match o with | none => (⟨1, by omega⟩, ⟨i * N + j, b1⟩) | some k => (⟨0, by omega⟩, ⟨i * S + k.val, b2 k⟩)) (by
        intro u v huv
        match u, v with
        | none, none => rfl
        | none, some k => simp at huv
        | some k, none => simp at huv
        | some k, some l =>
          simp only [Prod.mk.injEq, true_and, Fin.mk.injEq] at huv
          congr 1
          exact Fin.ext (by omega)) (fun draw => (centred p.res).getD (draw 1 (i * N + j) % (centred p.res).length) 0 +
        ∑ k ∈ Finset.range (j / p.n + 1), (centred p.res).getD (draw 0 (i * S + k) % (centred p.res).length) 0) (by
        intro d
        rw [Fintype.sum_option, hres, drawsOf_mod d 1 _ (by omega) b1, Finset.sum_range]
        congr 1
        apply Finset.sum_congr rfl
        intro k _
        rw [drawsOf_mod d 0 _ (by omega) (b2 k)])
    refine ⟨key.1, ?_⟩
    refine key.2.trans ?_
    congr 1
    rw [Fintype.card_option, Fintype.card_fin, hpn]

/-- **C105, past.** For the rows up to the last used sample the mean square is the variance of the residuals in every row. -/
theorem C105_past [FloorRing K] (t : FTable K) (nSims : Nat) (nCum : Int) (q1 q2 : K) (hreg : Spec.Regular t) (hov : Overlap t)
    (hs : t.hasSource = true) (hq : 0 < q1 ∧ q1 < 100 ∧ 0 < q2 ∧ q2 < 100) (hf : t.numDate = true ∨ detectFreq ((selectRows t).map FRow.date) ≠ none)
    (last : Timestamp) (hlast : LastUsed t last) (M : Nat) (hM : nSims * t.rows.length ≤ M) :
    Simulated (fun draw => piSingle draw t nSims nCum q1 q2) (fun r => !r.isActuals && decide (r.date ≤ last)) nSims
      (t.rows.filter fun r => IsForecast t r && decide (r.date ≤ last)).length M (residualsOf t).length fun _ => variance (residualsOf t) := by
  have hn : ∃ n, cumPeriod t (selectRows t) nCum = .ok n := by
    unfold cumPeriod
    rcases hf with hf | hf
    · simp only [hf, if_true, bind, Except.bind]
      exact ⟨_, rfl⟩
    · obtain ⟨f, hf⟩ := Option.ne_none_iff_exists'.1 hf
      cases t.numDate <;> simp only [hf, if_true, bind, Except.bind] <;> exact ⟨_, rfl⟩
  obtain ⟨n, hn⟩ := hn
  obtain ⟨p, hpn, hres, ⟨⟨a, ha, hu, hd⟩, hle⟩⟩ := piSingle_of_regular t nCum hreg hov hs n hn q1 q2 hq
  have hl : p.last = last := by
    obtain ⟨⟨a', ha', hu', hd'⟩, hle'⟩ := hlast
    apply le_antisymm
    · rw [← hd]; exact hle' a ha hu
    · rw [← hd']; exact hle a' ha' hu'
  have hcount : p.past = t.rows.filter fun r => IsForecast t r && decide (r.date ≤ last) := by
    unfold PiParts.past
    rw [hl]
    exact select_forecast t _
  have hne : residualsOf t ≠ [] := by rw [← hres]; exact p.hres
  set N := p.past.length with hN
  have hNM : nSims * N ≤ M := le_trans (Nat.mul_le_mul_left _ (by rw [hN, hcount]; exact List.length_filter_le _ _)) hM
  refine ⟨fun draw i j => (centred p.res).getD (draw 2 (i * N + j) % (centred p.res).length) 0, ?_, ?_⟩
  · intro draw
    obtain ⟨out, fs, ps, h1, -, h2, -, h3⟩ := pi_rows draw t nSims nCum q1 q2 hq p
    rw [hl] at h3
    refine ⟨out, h1, by rw [h3, ← hcount, List.length_mapIdx], ?_⟩
    intro j r hr
    rw [h3, List.getElem?_mapIdx] at hr
    rw [pastSample_entries draw _ nSims _ (centred_ne_nil p.res p.hres)] at h2
    have h2 := Except.ok.inj h2
    cases hf : p.past[j]? with
    | none => rw [hf] at hr; cases hr
    | some f =>
      rw [hf] at hr
      cases hr
      have hj : j < N := (List.getElem?_eq_some_iff.1 hf).1
      obtain ⟨a1, a2⟩ := quantRow_q q1 q2 ps j f
      refine ⟨a1, ?_⟩
      intro q v hv
      rw [a2 q v hv, ← h2, column_entries _ nSims _ j hj]
      rfl
  · intro i hi j hj
    rw [← hcount, ← hN] at hj
    have b1 : i * N + j < M := lt_of_lt_of_le (index_bound i j N nSims hi hj) hNM
    have key := average_draws (κ := Unit) M (residualsOf t) hne (fun _ => (⟨2, by omega⟩, ⟨i * N + j, b1⟩)) (fun _ _ _ => rfl)
      (fun draw => (centred p.res).getD (draw 2 (i * N + j) % (centred p.res).length) 0) (by
        intro d
        rw [hres, drawsOf_mod d 2 _ (by omega) b1]
        simp)
    refine ⟨key.1, key.2.trans ?_⟩
    simp

/-- A table with one source is not split. -/
theorem getPi_one [FloorRing K] (draw : Nat → Nat → Nat → Nat) (t : FTable K) (nSims : Nat) (nCum : Option Int) (q1 q2 : K) (w : Freq)
    (h : ∀ r ∈ t.rows, ∀ r' ∈ t.rows, r.source = r'.source) :
    getPi draw t nSims nCum q1 q2 w = piSingle (draw 0) t nSims (nCum.getD (daysFromFreq w)) q1 q2 := by
  unfold getPi
  dsimp only
  rw [if_neg]
  rintro ⟨-, hl⟩
  have hnd := groupKeys_nodup t.rows
  have hall : ∀ a ∈ groupKeys t.rows, ∀ b ∈ groupKeys t.rows, a = b := by
    intro a ha b hb
    obtain ⟨r, hr, e⟩ := (mem_groupKeys t.rows a).1 ha
    obtain ⟨r', hr', e'⟩ := (mem_groupKeys t.rows b).1 hb
    have := h r hr r' hr'
    rw [e, e'] at this
    exact Option.some.inj this
  match hg : groupKeys t.rows with
  | [] => rw [hg] at hl; simp at hl
  | [_] => rw [hg] at hl; simp at hl
  | a :: b :: l =>
    rw [hg] at hnd hall
    have := hall a (by simp) b (by simp)
    subst this
    simp at hnd

/-- **C105, periods.** For tables on a daily, weekly, monthly or yearly grid the accumulation period has as many samples as fit into the requested number of
days, at least one. -/
theorem C105_period_partial (civil : Int → Int × Int × Int) (hc : IsCalendar civil) (wd : Int → Int) (hw : IsWeek wd)
    (f : Freq) (hf : ValidFreq f) (hH : f ≠ .H) (hQ : f ≠ .Q) (t : FTable K) (hd : t.numDate = false) (o : Int)
    (hgrid : ∀ r ∈ selectRows t, OnGrid civil wd f o r.date) (hnb : ∃ a ∈ selectRows t, ∃ b ∈ selectRows t, Neighbours civil wd f a.date b.date)
    (days : Nat) : cumPeriod t (selectRows t) days = .ok (samplesIn f days) := by
  have h : detectFreq ((selectRows t).map FRow.date) = some f := by
    refine C19_detect_freq civil hc wd hw f hf _ o ?_ ?_
    · intro d hd
      obtain ⟨r, hr, rfl⟩ := List.mem_map.1 hd
      exact hgrid r hr
    · obtain ⟨a, ha, b, hb, hab⟩ := hnb
      exact ⟨_, List.mem_map_of_mem ha, _, List.mem_map_of_mem hb, hab⟩
  unfold cumPeriod
  simp only [hd, h, Bool.false_eq_true, if_false, bind, Except.bind]
  congr 1
  have key : ∀ k : Nat, (if (days : Int).tdiv (k : Int) < 1 then 1 else ((days : Int).tdiv (k : Int)).toNat) = max 1 (days / k) := by
    intro k
    have e : (days : Int).tdiv (k : Int) = ((days / k : Nat) : Int) := rfl
    rw [e]
    split_ifs with h <;> omega
  cases f with
  | H => exact absurd rfl hH
  | Q => exact absurd rfl hQ
  | D => exact key 1
  | W _ => exact key 7
  | M => exact key 30
  | MS => exact key 30
  | Y => exact key 365
  | YS => exact key 365

/-- **C105.** `get_pi` on a daily, weekly, monthly or yearly forecast table of one source: on average over the random draws the deviations from the forecast are
zero, and their mean square is the variance of the residuals in the past and grows, after the last used sample, by as much at the beginning of every period. -/
theorem C105_widening_partial [FloorRing K] (civil : Int → Int × Int × Int) (hc : IsCalendar civil) (wd : Int → Int) (hw : IsWeek wd)
    (f : Freq) (hf : ValidFreq f) (hH : f ≠ .H) (hQ : f ≠ .Q) (t : FTable K) (hd : t.numDate = false) (o : Int)
    (hgrid : ∀ r ∈ selectRows t, OnGrid civil wd f o r.date) (hnb : ∃ a ∈ selectRows t, ∃ b ∈ selectRows t, Neighbours civil wd f a.date b.date)
    (nSims : Nat) (q1 q2 : K) (hreg : Spec.Regular t) (hov : Overlap t)
    (hs : t.hasSource = true) (hq : 0 < q1 ∧ q1 < 100 ∧ 0 < q2 ∧ q2 < 100) (widening : Freq) (hwide : widening ≠ .Q)
    (last : Timestamp) (hlast : LastUsed t last) (M : Nat) (hM : nSims * t.rows.length ≤ M) :
    Simulated (fun draw => getPi (fun _ => draw) t nSims none q1 q2 widening) (fun r => !r.isActuals && decide (last < r.date)) nSims
      (t.rows.filter fun r => IsForecast t r && decide (last < r.date)).length M (residualsOf t).length
      (fun j => ((j / samplesIn f (daysApart widening) + 2 : Nat) : K) * variance (residualsOf t)) ∧
    Simulated (fun draw => getPi (fun _ => draw) t nSims none q1 q2 widening) (fun r => !r.isActuals && decide (r.date ≤ last)) nSims
      (t.rows.filter fun r => IsForecast t r && decide (r.date ≤ last)).length M (residualsOf t).length fun _ => variance (residualsOf t) := by
  have hdays : daysFromFreq widening = ((daysApart widening : Nat) : Int) := by
    cases widening <;> first | rfl | exact absurd rfl hwide
  have hn := C105_period_partial civil hc wd hw f hf hH hQ t hd o hgrid hnb (daysApart widening)
  have hfq : t.numDate = true ∨ detectFreq ((selectRows t).map FRow.date) ≠ none := by
    right
    intro hx
    unfold cumPeriod at hn
    simp only [hd, hx, Bool.false_eq_true, if_false, bind, Except.bind] at hn
    cases hn
  have e : (fun draw => getPi (fun _ => draw) t nSims none q1 q2 widening) =
      fun draw => piSingle draw t nSims ((daysApart widening : Nat) : Int) q1 q2 := by
    funext draw
    rw [getPi_one _ _ _ _ _ _ _ hreg.oneSource, ← hdays]
    rfl
  rw [e]
  exact ⟨C105_future_partial t nSims _ q1 q2 hreg hov hs hq _ hn last hlast M hM, C105_past t nSims _ q1 q2 hreg hov hs hq hfq last hlast M hM⟩

theorem percentile_one [FloorRing K] (a p : K) : percentile [a] p = some a := by
  simp [percentile, sortBy, insertBy]

/-- With one simulation the deviations can be read off the result. -/
theorem simulated_unique [FloorRing K] (run : (Nat → Nat → Nat) → Res (List (PRow K))) (sel : PRow K → Bool) (count M N : Nat) (sq sq' : Nat → K)
    (h : Simulated run sel 1 count M N sq) (h' : Simulated run sel 1 count M N sq')
    (hy : ∀ draw out, run draw = .ok out → ∀ r ∈ out, r.y ≠ none) (j : Nat) (hj : j < count) : sq j = sq' j := by
  obtain ⟨dev, h1, h2⟩ := h
  obtain ⟨dev', h1', h2'⟩ := h'
  have key : ∀ draw, dev draw 0 j = dev' draw 0 j := by
    intro draw
    obtain ⟨out, e, hl, hr⟩ := h1 draw
    obtain ⟨out', e', -, hr'⟩ := h1' draw
    rw [e] at e'
    cases e'
    have hj' : j < (out.filter sel).length := by rw [hl]; exact hj
    have hg := List.getElem?_eq_getElem hj'
    obtain ⟨a1, a2⟩ := hr j _ hg
    obtain ⟨-, a2'⟩ := hr' j _ hg
    obtain ⟨⟨p, v⟩, hpv⟩ := List.exists_mem_of_ne_nil _ a1
    have b1 := a2 p v hpv
    have b2 := a2' p v hpv
    rw [b1] at b2
    have hy1 := hy draw out e _ (List.mem_filter.1 (List.getElem_mem hj')).1
    obtain ⟨y, hy2⟩ := Option.ne_none_iff_exists'.1 hy1
    rw [hy2] at b2
    have : List.range 1 = [0] := rfl
    rw [this, List.map_singleton, List.map_singleton, percentile_one, percentile_one] at b2
    simpa [lift2] using b2
  have e1 := (h2 0 one_pos j hj).2
  have e2 := (h2' 0 one_pos j hj).2
  rw [← e1, ← e2]
  congr 1
  funext draw
  rw [key]

end

/-- Two samples with the values 1 and 3, and a forecast of 2 for all dates. -/
def flatForecast (dates : List Timestamp) : FTable ℚ where
  numDate := false
  hasSource := true
  hasBest := true
  hasWeight := false
  rows := ((dates.take 2).zip [1, 3]).map (fun p => ⟨p.1, some "a", "actuals", true, false, some p.2, none⟩) ++
    dates.map fun d => ⟨d, some "a", "mean", false, true, some 2, none⟩

theorem flat_one (dates : List Timestamp) : ∀ r ∈ (flatForecast dates).rows, r.source = some "a" ∧ r.y ≠ none ∧ r.weight = none := by
  intro r hr
  rcases List.mem_append.1 hr with h | h <;> obtain ⟨p, -, rfl⟩ := List.mem_map.1 h <;> exact ⟨rfl, Option.some_ne_none _, rfl⟩

theorem flat_values (dates : List Timestamp) (nSims : Nat) (nCum : Int) (hov : Overlap (flatForecast dates)) (draw : Nat → Nat → Nat) (out : List (PRow ℚ))
    (h : piSingle draw (flatForecast dates) nSims nCum 5 20 = .ok out) : ∀ r ∈ out, r.y ≠ none := by
  intro r hr
  have hp := C45_rows_partial draw _ _ _ _ _ out hov h
  have hm : plain r ∈ (shown (flatForecast dates)).map content := hp.mem_iff.1 (List.mem_map_of_mem hr)
  obtain ⟨f, hf, e⟩ := List.mem_map.1 hm
  have : r.y = f.y := by
    have := congrArg PRow.y e
    exact this.symm
  rw [this]
  exact (flat_one dates f (List.mem_filter.1 hf).1).2.1

/-- Hourly samples, the first two of them known. -/
def hourlyForecast : FTable ℚ := flatForecast [0, HOUR, 2 * HOUR, 3 * HOUR]

/-- The ends of the quarters of 1970 and 1971, the first two of them known. -/
def quarterlyForecast : FTable ℚ := flatForecast [89 * DAY, 180 * DAY, 272 * DAY, 364 * DAY, 454 * DAY, 545 * DAY, 637 * DAY]

/-- Daily samples, the first two of them known. -/
def dailyForecast : FTable ℚ := flatForecast [0, DAY, 2 * DAY, 3 * DAY]

/-- **C105 (limit).** An hourly forecast whose interval should widen by the day widens with every hour, and a quarterly one whose interval should widen by the
year does not widen after a year: in both cases the mean square of the deviations is not the promised one. -/
theorem C105_counterexample :
    ((∀ r ∈ hourlyForecast.rows, OnGrid civilOfDay weekdayOfDay .H 0 r.date) ∧
      ¬ Simulated (fun draw => getPi (fun _ => draw) hourlyForecast 1 none 5 20 .D) (fun r => !r.isActuals && decide (HOUR < r.date)) 1 2 6 2
        (fun j => ((j / samplesIn .H (daysApart .D) + 2 : Nat) : ℚ) * variance (residualsOf hourlyForecast))) ∧
    ((∀ r ∈ quarterlyForecast.rows, OnGrid civilOfDay weekdayOfDay .Q 0 r.date) ∧
      ¬ Simulated (fun draw => getPi (fun _ => draw) quarterlyForecast 1 none 5 20 .Y) (fun r => !r.isActuals && decide (180 * DAY < r.date)) 1 5 9 2
        (fun j => ((j / samplesIn .Q (daysApart .Y) + 2 : Nat) : ℚ) * variance (residualsOf quarterlyForecast))) := by
  have base : ∀ (dates : List Timestamp) (w : Freq) (n : Nat) (last : Timestamp) (count M : Nat) (sq : Nat → ℚ) (j : Nat),
      Spec.Regular (flatForecast dates) → Overlap (flatForecast dates) → cumPeriod (flatForecast dates) (selectRows (flatForecast dates)) (daysFromFreq w) = .ok n →
      LastUsed (flatForecast dates) last → (flatForecast dates).rows.length ≤ M →
      ((flatForecast dates).rows.filter fun r => IsForecast (flatForecast dates) r && decide (last < r.date)).length = count →
      (residualsOf (flatForecast dates)).length = 2 → j < count →
      sq j ≠ ((j / n + 2 : Nat) : ℚ) * variance (residualsOf (flatForecast dates)) →
      ¬ Simulated (fun draw => getPi (fun _ => draw) (flatForecast dates) 1 none 5 20 w) (fun r => !r.isActuals && decide (last < r.date)) 1 count M 2 sq := by
    intro dates w n last count M sq j hreg hov hn hlast hM hc h2 hj hne hS
    have e : (fun draw => getPi (fun _ => draw) (flatForecast dates) 1 none 5 20 w) =
        fun draw => piSingle draw (flatForecast dates) 1 (daysFromFreq w) 5 20 := by
      funext draw
      rw [getPi_one _ _ _ _ _ _ _ hreg.oneSource]
      rfl
    rw [e] at hS
    have hT := C105_future_partial (flatForecast dates) 1 (daysFromFreq w) 5 20 hreg hov rfl (by norm_num) n hn last hlast M (by rw [one_mul]; exact hM)
    rw [hc, h2] at hT
    exact hne (simulated_unique _ _ _ _ _ _ _ hS hT (fun draw out h => flat_values dates 1 _ hov draw out h) j hj)
  refine ⟨⟨?_, ?_⟩, ⟨?_, ?_⟩⟩
  · have : ∀ r ∈ hourlyForecast.rows, (r.date - 0) % hourNs = 0 := by decide +kernel
    exact this
  · refine base _ .D 1 HOUR 2 6 _ 1 ?_ ?_ (by decide +kernel) ?_ (by decide +kernel) (by decide +kernel) (by decide +kernel) (by decide) (by decide +kernel)
    · exact ⟨by decide +kernel, by decide +kernel, by decide +kernel, fun h => by cases h⟩
    · unfold Overlap; decide +kernel
    · unfold LastUsed; decide +kernel
  · have : ∀ r ∈ quarterlyForecast.rows,
        (r.date - 0) % dayNs = 0 ∧ (civilOfDay (r.date / dayNs + 1)).2.2 = 1 ∧ (civilOfDay (r.date / dayNs)).2.1 % 3 = 0 := by decide +kernel
    exact this
  · refine base _ .Y 365 (180 * DAY) 5 9 _ 4 ?_ ?_ (by decide +kernel) ?_ (by decide +kernel) (by decide +kernel) (by decide +kernel) (by decide) (by decide +kernel)
    · exact ⟨by decide +kernel, by decide +kernel, by decide +kernel, fun h => by cases h⟩
    · unfold Overlap; decide +kernel
    · unfold LastUsed; decide +kernel

/-- The hypotheses of `C105_widening_partial` for the daily forecast. -/
example : Spec.Regular dailyForecast ∧ Overlap dailyForecast ∧ LastUsed dailyForecast DAY ∧ residualsOf dailyForecast = [-1, 1] ∧
    variance (residualsOf dailyForecast) = 1 ∧ (∀ r ∈ selectRows dailyForecast, OnGrid civilOfDay weekdayOfDay .D 0 r.date) ∧
    ∃ a ∈ selectRows dailyForecast, ∃ b ∈ selectRows dailyForecast, Neighbours civilOfDay weekdayOfDay .D a.date b.date := by
  refine ⟨⟨by decide +kernel, by decide +kernel, by decide +kernel, fun h => by cases h⟩, by unfold Overlap; decide +kernel,
    by unfold LastUsed; decide +kernel, by decide +kernel, by decide +kernel, ?_, ?_⟩
  · have : ∀ r ∈ selectRows dailyForecast, (r.date - 0) % dayNs = 0 := by decide +kernel
    exact this
  · refine ⟨⟨0, some "a", "mean", false, true, some 2, none⟩, by decide +kernel, ⟨DAY, some "a", "mean", false, true, some 2, none⟩, by decide +kernel, ?_⟩
    unfold Neighbours OnGrid dayNs DAY
    dsimp only
    refine ⟨by omega, by omega, by omega, ?_⟩
    intro t h1 h2
    omega

/-- A single simulation for the daily forecast with weekly widening: the first quantile of each row. -/
example : ((getPi (fun _ c i => (c + i) % 2) dailyForecast 1 none 5 20 (.W 0)).toOption.map fun out => (out.filter fun r => !r.isActuals).map fun r =>
    (r.date / DAY, (r.q.head?.bind Prod.snd))) = some [(0, some 1), (1, some 3), (2, some 2), (3, some 0)] := by decide +kernel

end Anticipy
