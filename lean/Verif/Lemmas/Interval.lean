import Verif.Model.Interval
import Verif.Lemmas.ListOps
import Mathlib.Tactic.Linarith
import Mathlib.Tactic.Ring
import Mathlib.Tactic.FieldSimp

/-
Helper lemmas on the ingredients of prediction intervals.
-/
namespace Anticipy
variable {K : Type} [Field K] [LinearOrder K]

section pct
variable [IsStrictOrderedRing K] [FloorRing K]

/-- Value of a sorted list at a fractional position. -/
def interpAt (s : List K) (pos : K) : Option K :=
  match s[⌊pos⌋₊]?, s[⌊pos⌋₊ + 1]? with
  | some a, some b => some (a + (pos - ((⌊pos⌋₊ : Nat) : K)) * (b - a))
  | some a, none => some a
  | none, _ => none

theorem percentile_eq (col : List K) (q : K) : percentile col q =
    interpAt (sortBy (fun a b : K => decide (a ≤ b)) col) (((col.length - 1 : Nat) : K) * q / 100) := by
  have h : (sortBy (fun a b : K => decide (a ≤ b)) col).length = col.length := (sortBy_perm _ col).length_eq
  unfold percentile interpAt
  dsimp only
  rw [h]
  rfl

theorem sortBy_le_sorted (col : List K) :
    (sortBy (fun a b : K => decide (a ≤ b)) col).Pairwise (fun a b => a ≤ b) := by
  have h := sortBy_sorted (fun a b : K => decide (a ≤ b)) (by
    intro a b c h1 h2
    exact decide_eq_true ((of_decide_eq_true h1).trans (of_decide_eq_true h2))) (by
    intro a b
    rcases le_total a b with h | h <;> simp [h]) col
  exact h.imp fun h => of_decide_eq_true h

theorem interpAt_some (s : List K) (pos : K) (hs : s ≠ []) (h0 : 0 ≤ pos) (h1 : pos ≤ ((s.length - 1 : Nat) : K)) :
    ∃ v, interpAt s pos = some v := by
  have hl : 0 < s.length := List.length_pos_iff.2 hs
  have hf : ⌊pos⌋₊ ≤ s.length - 1 := by
    have := Nat.floor_le_floor h1
    rwa [Nat.floor_natCast] at this
  have hlt : ⌊pos⌋₊ < s.length := by omega
  unfold interpAt
  rw [List.getElem?_eq_getElem hlt]
  cases s[⌊pos⌋₊ + 1]? <;> exact ⟨_, rfl⟩

theorem interpAt_between (s : List K) (pos v : K) (hs : s.Pairwise (fun a b => a ≤ b)) (h0 : 0 ≤ pos)
    (hv : interpAt s pos = some v) :
    ∃ a, s[⌊pos⌋₊]? = some a ∧ a ≤ v ∧ (∀ b, s[⌊pos⌋₊ + 1]? = some b → v ≤ b) ∧
      (s[⌊pos⌋₊ + 1]? = none → v = a) := by
  unfold interpAt at hv
  cases ha : s[⌊pos⌋₊]? with
  | none => rw [ha] at hv; cases hv
  | some a =>
    rw [ha] at hv
    have e0 : ((⌊pos⌋₊ : Nat) : K) ≤ pos := Nat.floor_le h0
    have e1 : pos < ((⌊pos⌋₊ : Nat) : K) + 1 := Nat.lt_floor_add_one pos
    refine ⟨a, rfl, ?_⟩
    cases hb : s[⌊pos⌋₊ + 1]? with
    | none =>
      rw [hb] at hv
      simp only [Option.some.injEq] at hv
      exact ⟨hv.le, by simp, fun _ => hv.symm⟩
    | some b =>
      rw [hb] at hv
      simp only [Option.some.injEq] at hv
      have hab : a ≤ b := by
        rw [List.getElem?_eq_some_iff] at ha hb
        obtain ⟨i1, rfl⟩ := ha
        obtain ⟨i2, rfl⟩ := hb
        exact List.pairwise_iff_getElem.1 hs _ _ i1 i2 (by omega)
      refine ⟨?_, ?_, by simp⟩
      · rw [← hv]
        have := mul_nonneg (sub_nonneg.2 e0) (sub_nonneg.2 hab)
        linarith
      · rintro b' hb'
        cases hb'
        rw [← hv]
        have := mul_nonneg (sub_nonneg.2 e1.le) (sub_nonneg.2 hab)
        nlinarith

theorem interpAt_mono (s : List K) (p p' v v' : K) (hs : s.Pairwise (fun a b => a ≤ b)) (h0 : 0 ≤ p) (hpp : p ≤ p')
    (hv : interpAt s p = some v) (hv' : interpAt s p' = some v') : v ≤ v' := by
  have hfl : ⌊p⌋₊ ≤ ⌊p'⌋₊ := Nat.floor_le_floor hpp
  obtain ⟨a, ha, hav, hvb, hvn⟩ := interpAt_between s p v hs h0 hv
  obtain ⟨a', ha', hav', hvb', hvn'⟩ := interpAt_between s p' v' hs (h0.trans hpp) hv'
  rcases hfl.lt_or_eq with hlt | heq
  · have hmid : ⌊p⌋₊ + 1 < s.length := by
      rw [List.getElem?_eq_some_iff] at ha'
      obtain ⟨i, _⟩ := ha'
      omega
    have h1 := hvb _ (List.getElem?_eq_getElem hmid)
    refine h1.trans (le_trans ?_ hav')
    rw [List.getElem?_eq_some_iff] at ha'
    obtain ⟨i, rfl⟩ := ha'
    rcases Nat.lt_or_ge (⌊p⌋₊ + 1) ⌊p'⌋₊ with h | h
    · exact List.pairwise_iff_getElem.1 hs _ _ hmid i h
    · have : ⌊p⌋₊ + 1 = ⌊p'⌋₊ := by omega
      simp only [this]; exact le_rfl
  · unfold interpAt at hv hv'
    rw [← heq] at hv'
    rw [ha] at hv hv'
    cases hb : s[⌊p⌋₊ + 1]? with
    | none =>
      rw [hb] at hv hv'
      simp only [Option.some.injEq] at hv hv'
      rw [← hv, ← hv']
    | some b =>
      rw [hb] at hv hv'
      simp only [Option.some.injEq] at hv hv'
      have hab : a ≤ b := by
        rw [List.getElem?_eq_some_iff] at ha hb
        obtain ⟨i1, rfl⟩ := ha
        obtain ⟨i2, rfl⟩ := hb
        exact List.pairwise_iff_getElem.1 hs _ _ i1 i2 (by omega)
      rw [← hv, ← hv']
      have := mul_nonneg (sub_nonneg.2 hpp) (sub_nonneg.2 hab)
      nlinarith

theorem percentile_some (col : List K) (p : K) (hc : col ≠ []) (h0 : 0 ≤ p) (h1 : p ≤ 100) :
    ∃ v, percentile col p = some v := by
  rw [percentile_eq]
  have hn : sortBy (fun a b : K => decide (a ≤ b)) col ≠ [] := by
    intro h
    have := (sortBy_perm (fun a b : K => decide (a ≤ b)) col).length_eq
    rw [h] at this
    exact hc (List.length_eq_zero_iff.1 this.symm)
  apply interpAt_some _ _ hn
  · positivity
  · rw [(sortBy_perm (fun a b : K => decide (a ≤ b)) col).length_eq]
    rw [div_le_iff₀ (by norm_num)]
    exact mul_le_mul_of_nonneg_left h1 (Nat.cast_nonneg _)

theorem percentile_mono (col : List K) (p p' v v' : K) (h0 : 0 ≤ p) (hp : p ≤ p')
    (hv : percentile col p = some v) (hv' : percentile col p' = some v') : v ≤ v' := by
  rw [percentile_eq] at hv hv'
  refine interpAt_mono _ _ _ v v' (sortBy_le_sorted col) (by positivity) ?_ hv hv'
  apply div_le_div_of_nonneg_right _ (by norm_num)
  exact mul_le_mul_of_nonneg_left hp (Nat.cast_nonneg _)

theorem percentile_mem_bounds (col : List K) (p v lo hi : K) (h0 : 0 ≤ p) (hv : percentile col p = some v)
    (hb : ∀ a ∈ col, lo ≤ a ∧ a ≤ hi) : lo ≤ v ∧ v ≤ hi := by
  rw [percentile_eq] at hv
  obtain ⟨a, ha, hav, hvb, hvn⟩ := interpAt_between _ _ v (sortBy_le_sorted col) (by positivity) hv
  have hm : ∀ (i : Nat) (c : K), (sortBy (fun a b : K => decide (a ≤ b)) col)[i]? = some c → lo ≤ c ∧ c ≤ hi := by
    intro i c hc
    exact hb c ((sortBy_perm _ col).mem_iff.1 (List.mem_of_getElem? hc))
  refine ⟨(hm _ _ ha).1.trans hav, ?_⟩
  cases hn : (sortBy (fun a b : K => decide (a ≤ b)) col)[⌊((col.length - 1 : Nat) : K) * p / 100⌋₊ + 1]? with
  | none => rw [hvn hn]; exact (hm _ _ ha).2
  | some b => exact (hvb b hn).trans (hm _ _ hn).2

theorem percentile_nil (p : K) : percentile ([] : List K) p = none := by
  rw [percentile_eq]; simp [sortBy, interpAt]

end pct

/-! ### Sampling and arrays -/

theorem sampleWith_ok (draw : Nat → Nat) (s : List K) (n : Nat) (hs : s ≠ []) :
    ∃ l, sampleWith draw s n = .ok l ∧ l.length = n ∧ ∀ a ∈ l, a ∈ s := by
  unfold sampleWith
  rw [if_neg (by simp [hs])]
  refine ⟨_, rfl, by simp, ?_⟩
  intro a ha
  rw [List.mem_map] at ha
  obtain ⟨i, _, rfl⟩ := ha
  have hl : 0 < s.length := List.length_pos_iff.2 hs
  have hlt : draw i % s.length < s.length := Nat.mod_lt _ hl
  rw [List.getD_eq_getElem?_getD, List.getElem?_eq_getElem hlt, Option.getD_some]
  exact List.getElem_mem hlt

theorem reshape_ok (rows cols : Nat) (a : List K) (h : a.length = rows * cols) :
    ∃ m, reshape rows cols a = .ok m ∧ m.length = rows ∧ ∀ r ∈ m, r.length = cols ∧ ∀ v ∈ r, v ∈ a := by
  unfold reshape
  rw [if_pos h]
  refine ⟨_, rfl, by simp, ?_⟩
  intro r hr
  rw [List.mem_map] at hr
  obtain ⟨i, hi, rfl⟩ := hr
  rw [List.mem_range] at hi
  constructor
  · rw [List.length_take, List.length_drop, h]
    have : i * cols + cols ≤ rows * cols := by
      have := Nat.mul_le_mul_right cols (Nat.succ_le_of_lt hi)
      rw [Nat.succ_mul] at this
      exact this
    omega
  · intro v hv
    exact List.mem_of_mem_drop (List.mem_of_mem_take hv)

theorem cumsum_length (acc : K) (l : List K) : (cumsum acc l).length = l.length := by
  induction l generalizing acc with
  | nil => rfl
  | cons a l ih => simp [cumsum, ih]

theorem cumsum_bounds [IsStrictOrderedRing K] (acc : K) (l : List K) (lo hi : K) (hb : ∀ a ∈ l, lo ≤ a ∧ a ≤ hi) (k : Nat) (v : K)
    (hv : (cumsum acc l)[k]? = some v) : acc + ((k : K) + 1) * lo ≤ v ∧ v ≤ acc + ((k : K) + 1) * hi := by
  induction l generalizing acc k with
  | nil => simp [cumsum] at hv
  | cons a l ih =>
    have ha := hb a (by simp)
    cases k with
    | zero =>
      simp only [cumsum, List.getElem?_cons_zero, Option.some.injEq] at hv
      subst hv
      simp only [Nat.cast_zero, zero_add, one_mul]
      exact ⟨by linarith [ha.1], by linarith [ha.2]⟩
    | succ k =>
      simp only [cumsum, List.getElem?_cons_succ] at hv
      have := ih (acc + a) (fun c hc => hb c (by simp [hc])) k hv
      push_cast
      constructor
      · nlinarith [this.1, ha.1]
      · nlinarith [this.2, ha.2]

theorem repeatEach_length (n : Nat) (l : List K) : (repeatEach n l).length = n * l.length := by
  unfold repeatEach
  induction l with
  | nil => rfl
  | cons a l ih => rw [List.flatMap_cons, List.length_append, ih]; simp [Nat.mul_succ, Nat.add_comm]

theorem repeatEach_getElem? (n : Nat) (hn : 0 < n) (l : List K) (j : Nat) : (repeatEach n l)[j]? = l[j / n]? := by
  unfold repeatEach
  induction l generalizing j with
  | nil => simp
  | cons a l ih =>
    rw [List.flatMap_cons]
    rcases Nat.lt_or_ge j n with h | h
    · rw [List.getElem?_append_left (by simpa using h), Nat.div_eq_of_lt h]
      simp [h]
    · rw [List.getElem?_append_right (by simpa using h), List.length_replicate, ih]
      have : j / n = (j - n) / n + 1 := by
        rw [Nat.div_eq_sub_div hn h]
      rw [this, List.getElem?_cons_succ]

theorem column_mem (a : List (List K)) (j : Nat) (v : K) (h : v ∈ column a j) : ∃ r ∈ a, r[j]? = some v := by
  unfold column at h
  rw [List.mem_filterMap] at h
  exact h

theorem column_ne_nil (a : List (List K)) (j n : Nat) (ha : a ≠ []) (hl : ∀ r ∈ a, r.length = n) (hj : j < n) :
    column a j ≠ [] := by
  cases a with
  | nil => exact absurd rfl ha
  | cons r a =>
    have : r[j]? = some (r[j]'(by rw [hl r (by simp)]; exact hj)) := List.getElem?_eq_getElem _
    unfold column
    rw [List.filterMap_cons, this]
    simp

/-- Enough rows for every future sample. -/
theorem short_enough (n c : Nat) (hc : 0 < c) : n ≤ c * ⌈(n : ℚ) / (c : ℚ)⌉.toNat := by
  have h0 : (0 : ℚ) < (c : ℚ) := by exact_mod_cast hc
  have h1 : (n : ℚ) / (c : ℚ) ≤ (⌈(n : ℚ) / (c : ℚ)⌉ : ℚ) := Int.le_ceil _
  rw [div_le_iff₀ h0] at h1
  have h2 : (0 : Int) ≤ ⌈(n : ℚ) / (c : ℚ)⌉ := Int.ceil_nonneg (by positivity)
  have h3 : (n : Int) ≤ ⌈(n : ℚ) / (c : ℚ)⌉ * (c : Int) := by exact_mod_cast h1
  have h4 : ((⌈(n : ℚ) / (c : ℚ)⌉.toNat : Nat) : Int) = ⌈(n : ℚ) / (c : ℚ)⌉ := Int.toNat_of_nonneg h2
  rw [← h4] at h3
  have : n ≤ ⌈(n : ℚ) / (c : ℚ)⌉.toNat * c := by exact_mod_cast h3
  rwa [Nat.mul_comm]

/-- The simulated future deviations: right shape, and column `j` accumulates `j / c + 2` residuals. -/
theorem futureSample_ok [IsStrictOrderedRing K] (draw : Nat → Nat → Nat) (res : List K) (nSims c n : Nat) (hres : res ≠ []) (hc : 0 < c) :
    ∃ m, futureSample draw res nSims c n = .ok m ∧ m.length = nSims ∧ (∀ r ∈ m, r.length = n) ∧
      ∀ lo hi : K, (∀ a ∈ res, lo ≤ a ∧ a ≤ hi) → ∀ r ∈ m, ∀ (j : Nat) (v : K), r[j]? = some v →
        ((j / c + 2 : Nat) : K) * lo ≤ v ∧ v ≤ ((j / c + 2 : Nat) : K) * hi := by
  obtain ⟨s1, hs1, hl1, hm1⟩ := sampleWith_ok (draw 0) res (⌈(n : ℚ) / (c : ℚ)⌉.toNat * nSims) hres
  obtain ⟨cum, hcum, hlc, hmc⟩ := reshape_ok nSims ⌈(n : ℚ) / (c : ℚ)⌉.toNat s1 (by rw [hl1, Nat.mul_comm])
  obtain ⟨s2, hs2, hl2, hm2⟩ := sampleWith_ok (draw 1) res (n * nSims) hres
  obtain ⟨base, hbase, hlb, hmb⟩ := reshape_ok nSims n s2 (by rw [hl2, Nat.mul_comm])
  have hexp : ∀ r ∈ (cum.map (cumsum 0)).map (fun r => (repeatEach c r).take n), r.length = n := by
    intro r hr
    simp only [List.map_map, List.mem_map, Function.comp] at hr
    obtain ⟨r0, hr0, rfl⟩ := hr
    rw [List.length_take, repeatEach_length, cumsum_length, (hmc r0 hr0).1]
    have := short_enough n c hc
    omega
  have hlen : base.map List.length = ((cum.map (cumsum 0)).map (fun r => (repeatEach c r).take n)).map List.length := by
    have e1 : base.map List.length = List.replicate nSims n := by
      rw [List.eq_replicate_iff]
      refine ⟨by simp [hlb], ?_⟩
      intro b hb
      rw [List.mem_map] at hb
      obtain ⟨r, hr, rfl⟩ := hb
      exact (hmb r hr).1
    have e2 : ((cum.map (cumsum 0)).map (fun r => (repeatEach c r).take n)).map List.length = List.replicate nSims n := by
      rw [List.eq_replicate_iff]
      refine ⟨by simp [hlc], ?_⟩
      intro b hb
      rw [List.mem_map] at hb
      obtain ⟨r, hr, rfl⟩ := hb
      exact hexp r hr
    rw [e1, e2]
  refine ⟨List.zipWith (List.zipWith (· + ·)) base ((cum.map (cumsum 0)).map fun r => (repeatEach c r).take n), ?_, ?_, ?_, ?_⟩
  · unfold futureSample
    simp only [hs1, hcum, hs2, hbase, bind, Except.bind]
    unfold addRows
    rw [if_pos hlen]
  · simp [hlb, hlc]
  · intro r hr
    rw [List.mem_iff_getElem?] at hr
    obtain ⟨i, hi⟩ := hr
    rw [List.getElem?_zipWith_eq_some] at hi
    obtain ⟨b, e, hb, he, rfl⟩ := hi
    rw [List.length_zipWith, (hmb b (List.mem_of_getElem? hb)).1, hexp e (List.mem_of_getElem? he)]
    simp
  · intro lo hi hbd r hr j v hv
    rw [List.mem_iff_getElem?] at hr
    obtain ⟨i, hi'⟩ := hr
    rw [List.getElem?_zipWith_eq_some] at hi'
    obtain ⟨b, e, hb, he, rfl⟩ := hi'
    rw [List.getElem?_zipWith_eq_some] at hv
    obtain ⟨u, w, hu, hw, rfl⟩ := hv
    have hb1 := hbd u (hm2 u ((hmb b (List.mem_of_getElem? hb)).2 u (List.mem_of_getElem? hu)))
    rw [List.getElem?_map, List.getElem?_map] at he
    obtain ⟨r0, hr0, rfl⟩ : ∃ r0, cum[i]? = some r0 ∧ (repeatEach c (cumsum 0 r0)).take n = e := by
      cases h : cum[i]? with
      | none => simp [h] at he
      | some r0 => exact ⟨r0, rfl, by simpa [h] using he⟩
    rw [List.getElem?_take] at hw
    split at hw
    · rw [repeatEach_getElem? c hc] at hw
      have h2 := cumsum_bounds 0 r0 lo hi (fun a ha => hbd a (hm1 a ((hmc r0 (List.mem_of_getElem? hr0)).2 a ha))) (j / c) w hw
      push_cast
      constructor
      · nlinarith [h2.1, hb1.1]
      · nlinarith [h2.2, hb1.2]
    · cases hw

theorem pastSample_ok (draw : Nat → Nat → Nat) (res : List K) (nSims n : Nat) (hres : res ≠ []) :
    ∃ m, pastSample draw res nSims n = .ok m ∧ m.length = nSims ∧ (∀ r ∈ m, r.length = n) ∧ ∀ r ∈ m, ∀ v ∈ r, v ∈ res := by
  obtain ⟨s, hs, hl, hm⟩ := sampleWith_ok (draw 2) res (n * nSims) hres
  obtain ⟨m, hm', hlm, hmm⟩ := reshape_ok nSims n s (by rw [hl, Nat.mul_comm])
  refine ⟨m, ?_, hlm, fun r hr => (hmm r hr).1, fun r hr v hv => hm v ((hmm r hr).2 v hv)⟩
  unfold pastSample
  simp only [hs, bind, Except.bind, hm']

end Anticipy
