import Verif.Model.Freq
import Verif.Lemmas.Time
import Mathlib.Order.Monotone.Basic
import Mathlib.Tactic.Linarith

/-
Month arithmetic and date grids: helper lemmas for C19-C25.
-/
namespace Anticipy

theorem monthIdx_range (k : Int) : 1 ≤ k % 12 + 1 ∧ k % 12 + 1 ≤ 12 := by omega

theorem monthStart_succ (k : Int) : monthStart (k + 1) = monthStart k + daysInMonth (k / 12) (k % 12 + 1) := by
  have hr := monthIdx_range k
  have e := daysInMonth_eq (k / 12) (k % 12 + 1) hr.1 hr.2
  unfold monthStart ofCivil
  by_cases h : k % 12 = 11
  · have h1 : (k + 1) / 12 = k / 12 + 1 := by omega
    have h2 : (k + 1) % 12 = 0 := by omega
    have hy := monthOffset_succ_year (k / 12)
    rw [h] at e ⊢
    rw [h1, h2]
    have z : monthOffset (isLeap (k / 12 + 1)) (0 + 1) = 0 := by simp [monthOffset]
    rw [z]
    norm_num at e hy ⊢
    omega
  · have h1 : (k + 1) / 12 = k / 12 := by omega
    have h2 : (k + 1) % 12 = k % 12 + 1 := by omega
    rw [h1, h2, e]; omega

theorem monthStart_step (k : Int) : monthStart k + 28 ≤ monthStart (k + 1) ∧ monthStart (k + 1) ≤ monthStart k + 31 := by
  have := daysInMonth_range (k / 12) (k % 12 + 1)
  rw [monthStart_succ]; omega

theorem monthStart_strictMono : StrictMono monthStart :=
  strictMono_int_of_lt_succ fun k => by have := monthStart_step k; omega

theorem monthStart_add (k : Int) (n : Nat) : monthStart k + 28 * n ≤ monthStart (k + n) := by
  induction n with
  | zero => simp
  | succ n ih =>
    have := monthStart_step (k + n)
    push_cast
    rw [← Int.add_assoc]; omega

theorem monthIdx_civil (d : Int) : monthIdxOfDay d / 12 = yearOfDay d ∧ monthIdxOfDay d % 12 + 1 = monthOfDay d := by
  have := monthOfDay_range d
  unfold monthIdxOfDay; omega

theorem domOfDay_eq (d : Int) : domOfDay d = d - monthStart (monthIdxOfDay d) + 1 := by
  have ⟨h1, h2⟩ := monthIdx_civil d
  unfold monthStart
  rw [h1, h2]
  unfold domOfDay ofCivil; omega

theorem monthIdx_spec (d : Int) : monthStart (monthIdxOfDay d) ≤ d ∧ d < monthStart (monthIdxOfDay d + 1) := by
  have ⟨h1, h2⟩ := monthIdx_civil d
  have hr := domOfDay_range d
  have he := domOfDay_eq d
  rw [monthStart_succ, h1, h2]; omega

/-- Galois connection between month starts and month indices. -/
theorem monthStart_le_iff (j d : Int) : monthStart j ≤ d ↔ j ≤ monthIdxOfDay d := by
  have ⟨h1, h2⟩ := monthIdx_spec d
  constructor
  · intro h
    by_contra hc
    have : monthStart (monthIdxOfDay d + 1) ≤ monthStart j := monthStart_strictMono.monotone (by omega)
    omega
  · intro h
    have : monthStart j ≤ monthStart (monthIdxOfDay d) := monthStart_strictMono.monotone h
    omega

theorem monthIdx_monthStart (k : Int) : monthIdxOfDay (monthStart k) = k := by
  apply le_antisymm
  · have := (monthIdx_spec (monthStart k)).1
    exact monthStart_strictMono.le_iff_le.1 this
  · exact (monthStart_le_iff k _).1 le_rfl

theorem monthIdx_monthEnd (k : Int) : monthIdxOfDay (monthEnd k) = k := by
  unfold monthEnd
  have h := monthStart_step k
  apply le_antisymm
  · have := (monthIdx_spec (monthStart (k + 1) - 1)).1
    have : monthStart (monthIdxOfDay (monthStart (k + 1) - 1)) < monthStart (k + 1) := by omega
    have := monthStart_strictMono.lt_iff_lt.1 this
    omega
  · exact (monthStart_le_iff k _).1 (by omega)

theorem dom_one_iff (d : Int) : domOfDay d = 1 ↔ d = monthStart (monthIdxOfDay d) := by
  rw [domOfDay_eq]; omega

theorem newYear_iff (d : Int) : (domOfDay d = 1 ∧ monthOfDay d = 1) ↔ d = monthStart (12 * yearOfDay d) := by
  have ⟨h1, h2⟩ := monthIdx_civil d
  constructor
  · rintro ⟨a, b⟩
    have : monthIdxOfDay d = 12 * yearOfDay d := by omega
    rw [← this]; exact (dom_one_iff d).1 a
  · intro h
    have e : monthIdxOfDay d = 12 * yearOfDay d := by
      conv_lhs => rw [h]
      exact monthIdx_monthStart _
    refine ⟨(dom_one_iff d).2 (by rw [e]; exact h), by omega⟩

/-- Galois connection between days and anchors. -/
theorem le_anchorDay_iff (f : Freq) (k d : Int) : d ≤ anchorDay f k ↔ anchorIdx f d ≤ k := by
  have ⟨h1, h2⟩ := monthIdx_civil d
  have ⟨s1, s2⟩ := monthIdx_spec d
  cases f with
  | H => rfl
  | D => rfl
  | W wd => simp only [anchorDay, anchorIdx]; omega
  | MS =>
    simp only [anchorDay, anchorIdx]
    split_ifs with h
    · have h := (dom_one_iff d).1 h
      conv_lhs => rw [h]
      exact monthStart_strictMono.le_iff_le
    · have : d ≤ monthStart k ↔ d < monthStart k := by
        constructor
        · intro hk
          rcases lt_or_eq_of_le hk with h' | h'
          · exact h'
          · exact absurd ((dom_one_iff d).2 (by rw [h', monthIdx_monthStart])) h
        · exact le_of_lt
      rw [this, ← not_le, monthStart_le_iff]; omega
  | M =>
    simp only [anchorDay, anchorIdx, monthEnd]
    rw [Int.le_sub_one_iff, ← not_le, monthStart_le_iff]; omega
  | Q =>
    simp only [anchorDay, anchorIdx, monthEnd]
    rw [Int.le_sub_one_iff, ← not_le, monthStart_le_iff]; omega
  | YS =>
    simp only [anchorDay, anchorIdx]
    split_ifs with h
    · have h := (newYear_iff d).1 h
      conv_lhs => rw [h]
      rw [monthStart_strictMono.le_iff_le]; omega
    · have : d ≤ monthStart (12 * k) ↔ d < monthStart (12 * k) := by
        constructor
        · intro hk
          rcases lt_or_eq_of_le hk with h' | h'
          · exact h'
          · exfalso; apply h
            rw [newYear_iff, ← h1, h', monthIdx_monthStart]
            congr 1; omega
        · exact le_of_lt
      rw [this, ← not_le, monthStart_le_iff]; omega
  | Y =>
    simp only [anchorDay, anchorIdx, monthEnd]
    rw [Int.le_sub_one_iff, ← not_le, monthStart_le_iff]; omega

theorem anchorDay_strictMono (f : Freq) : StrictMono (anchorDay f) := by
  apply strictMono_int_of_lt_succ
  intro k
  cases f with
  | H => simp [anchorDay]
  | D => simp [anchorDay]
  | W wd => simp only [anchorDay]; omega
  | MS => simp only [anchorDay]; exact monthStart_strictMono (by omega)
  | M => simp only [anchorDay, monthEnd]; have := monthStart_strictMono (show k + 1 < k + 1 + 1 by omega); omega
  | Q => simp only [anchorDay, monthEnd]; have := monthStart_strictMono (show 3 * k + 2 + 1 < 3 * (k + 1) + 2 + 1 by omega); omega
  | YS => simp only [anchorDay]; exact monthStart_strictMono (by omega)
  | Y => simp only [anchorDay, monthEnd]; have := monthStart_strictMono (show 12 * k + 11 + 1 < 12 * (k + 1) + 11 + 1 by omega); omega

theorem anchorIdx_anchorDay (f : Freq) (k : Int) : anchorIdx f (anchorDay f k) = k := by
  apply le_antisymm
  · exact (le_anchorDay_iff f k _).1 le_rfl
  · have := (le_anchorDay_iff f _ (anchorDay f k)).2 le_rfl
    exact (anchorDay_strictMono f).le_iff_le.1 this

theorem dayOf_mul_add (d t : Int) (h0 : 0 ≤ t) (h1 : t < DAY) : dayOf (d * DAY + t) = d ∧ todOf (d * DAY + t) = t := by
  simp only [dayOf, todOf, DAY] at *; omega

theorem day_tod (t : Timestamp) : dayOf t * DAY + todOf t = t := by
  simp only [dayOf, todOf, DAY]; omega

theorem tod_range (t : Timestamp) : 0 ≤ todOf t ∧ todOf t < DAY := by
  simp only [todOf, DAY]; omega

/-- On-anchor test in terms of the anchors. -/
theorem onOffset_iff (f : Freq) (t : Timestamp) : onOffset f t = true ↔ ∃ k, dayOf t = anchorDay f k := by
  unfold onOffset
  rw [decide_eq_true_iff]
  unfold rollForward
  have hd := day_tod t
  constructor
  · intro h
    refine ⟨anchorIdx f (dayOf t), ?_⟩
    simp only [DAY] at *; omega
  · rintro ⟨k, hk⟩
    rw [hk, anchorIdx_anchorDay, ← hk, hd]

/-- Membership in the generating loop, for a step that advances at least one hour. -/
theorem mem_genRange (next : Timestamp → Timestamp) (stop : Timestamp) (hstep : ∀ t, t + HOUR ≤ next t) (n : Nat) (cur t : Timestamp)
    (hn : (stop - cur) / HOUR + 1 ≤ n) :
    t ∈ genRange next stop n cur ↔ t ≤ stop ∧ ∃ i, t = next^[i] cur := by
  induction n generalizing cur with
  | zero =>
    simp only [genRange, List.not_mem_nil, false_iff, not_and, not_exists]
    intro h i hi
    have hlow : ∀ i, cur ≤ next^[i] cur := by
      intro i
      induction i with
      | zero => simp
      | succ i ih =>
        rw [Function.iterate_succ_apply']
        have := hstep (next^[i] cur)
        simp only [HOUR] at this; omega
    have := hlow i
    simp only [HOUR] at hn; omega
  | succ n ih =>
    simp only [genRange]
    have hlow : ∀ i, cur ≤ next^[i] cur := by
      intro i
      induction i with
      | zero => simp
      | succ i ih =>
        rw [Function.iterate_succ_apply']
        have := hstep (next^[i] cur)
        simp only [HOUR] at this; omega
    split_ifs with h
    · rw [List.mem_cons, ih (next cur) (by have := hstep cur; simp only [HOUR] at *; push_cast at hn; omega)]
      constructor
      · rintro (rfl | ⟨h1, i, rfl⟩)
        · exact ⟨h, 0, rfl⟩
        · exact ⟨h1, i + 1, rfl⟩
      · rintro ⟨h1, i, rfl⟩
        cases i with
        | zero => left; rfl
        | succ i => right; exact ⟨h1, i, rfl⟩
    · simp only [List.not_mem_nil, false_iff, not_and, not_exists]
      intro h1 i hi
      have := hlow i
      omega

/-- The generated dates are strictly increasing. -/
theorem genRange_sorted (next : Timestamp → Timestamp) (stop : Timestamp) (hstep : ∀ t, t + HOUR ≤ next t) (n : Nat) (cur : Timestamp) :
    (genRange next stop n cur).Pairwise (· < ·) ∧ ∀ t ∈ genRange next stop n cur, cur ≤ t := by
  induction n generalizing cur with
  | zero => simp [genRange]
  | succ n ih =>
    simp only [genRange]
    split_ifs with h
    · obtain ⟨i1, i2⟩ := ih (next cur)
      have hs := hstep cur
      simp only [HOUR] at hs
      constructor
      · rw [List.pairwise_cons]
        exact ⟨fun t ht => by have := i2 t ht; omega, i1⟩
      · intro t ht
        rcases List.mem_cons.1 ht with rfl | ht
        · exact le_rfl
        · have := i2 t ht; omega
    · simp

theorem nextAnchor_step (f : Freq) (t : Timestamp) : t + HOUR ≤ nextAnchor f t := by
  have h1 := (le_anchorDay_iff f (anchorIdx f (dayOf t)) (dayOf t)).2 le_rfl
  have h2 := anchorDay_strictMono f (show anchorIdx f (dayOf t) < anchorIdx f (dayOf t) + 1 by omega)
  have hd := day_tod t
  simp only [nextAnchor, HOUR, DAY] at *; omega

theorem nextAnchor_iterate (f : Freq) (k tod : Int) (h0 : 0 ≤ tod) (h1 : tod < DAY) (i : Nat) :
    (nextAnchor f)^[i] (anchorDay f k * DAY + tod) = anchorDay f (k + i) * DAY + tod := by
  induction i with
  | zero => simp
  | succ i ih =>
    rw [Function.iterate_succ_apply', ih, nextAnchor, (dayOf_mul_add _ _ h0 h1).1, (dayOf_mul_add _ _ h0 h1).2, anchorIdx_anchorDay]
    push_cast
    rw [← Int.add_assoc]

theorem iterate_add (c : Int) (i : Nat) (t : Int) : (fun t : Int => t + c)^[i] t = t + i * c := by
  induction i with
  | zero => simp
  | succ i ih => rw [Function.iterate_succ_apply', ih]; push_cast; ring

/-- Membership in the calendar part of `date_range`. -/
theorem mem_dateRange_anchor (f : Freq) (a b stop' t : Timestamp) (hs : stop' ≤ b) :
    t ∈ genRange (nextAnchor f) stop' ((b - a) / HOUR + 1).toNat (rollForward f a) ↔
      a ≤ t ∧ t ≤ stop' ∧ todOf t = todOf a ∧ ∃ k, dayOf t = anchorDay f k := by
  have hta := tod_range a
  have hda := day_tod a
  have hg := (le_anchorDay_iff f (anchorIdx f (dayOf a)) (dayOf a)).2 le_rfl
  have hra : a ≤ rollForward f a := by simp only [rollForward, DAY] at *; omega
  by_cases hlt : stop' < a
  · constructor
    · intro h
      have h1 := (genRange_sorted (nextAnchor f) stop' (nextAnchor_step f) ((b - a) / HOUR + 1).toNat (rollForward f a)).2 t h
      have h2 : t ≤ stop' := by
        have : ∀ n cur, t ∈ genRange (nextAnchor f) stop' n cur → t ≤ stop' := by
          intro n
          induction n with
          | zero => intro cur h; simp [genRange] at h
          | succ n ih =>
            intro cur h
            simp only [genRange] at h
            split_ifs at h with hc
            · rcases List.mem_cons.1 h with rfl | h
              · exact hc
              · exact ih _ h
            · simp at h
        exact this _ _ h
      omega
    · rintro ⟨h1, h2, _⟩; omega
  · rw [mem_genRange _ _ (nextAnchor_step f) _ _ _ (by
      simp only [HOUR] at *; omega)]
    simp only [rollForward, nextAnchor_iterate f _ _ hta.1 hta.2]
    constructor
    · rintro ⟨h1, i, rfl⟩
      obtain ⟨e1, e2⟩ := dayOf_mul_add (anchorDay f (anchorIdx f (dayOf a) + i)) _ hta.1 hta.2
      refine ⟨?_, h1, e2, _, e1⟩
      have := (anchorDay_strictMono f).monotone (show anchorIdx f (dayOf a) ≤ anchorIdx f (dayOf a) + i by omega)
      simp only [DAY] at *; omega
    · rintro ⟨h1, h2, h3, k, hk⟩
      refine ⟨h2, ?_⟩
      have hd := day_tod t
      have hle : dayOf a ≤ anchorDay f k := by
        rw [← hk]; simp only [dayOf, DAY]; omega
      have := (le_anchorDay_iff f k _).1 hle
      refine ⟨(k - anchorIdx f (dayOf a)).toNat, ?_⟩
      rw [← hd, hk, h3]
      congr 3; omega

/-- Membership in `date_range` for calendar frequencies. -/
theorem mem_dateRange_cal (f : Freq) (hH : f ≠ .H) (hD : f ≠ .D) (a b t : Timestamp) (hab : todOf a ≤ todOf b) :
    t ∈ dateRange a b f ↔ a ≤ t ∧ t ≤ b ∧ todOf t = todOf a ∧ ∃ k, dayOf t = anchorDay f k := by
  have hdr : dateRange a b f = genRange (nextAnchor f) (if onOffset f a then rollBack f b else b)
      ((b - a) / HOUR + 1).toNat (rollForward f a) := by
    cases f <;> simp_all [dateRange]
  have hdb := day_tod b
  have htb := tod_range b
  have hrb : rollBack f b ≤ b := by
    unfold rollBack
    split_ifs with h
    · exact le_rfl
    · have : ¬ dayOf b ≤ anchorDay f (anchorIdx f (dayOf b) - 1) := by rw [le_anchorDay_iff]; omega
      simp only [DAY] at *; omega
  rw [hdr]
  split_ifs with h
  · rw [mem_dateRange_anchor f a b _ t hrb]
    constructor
    · rintro ⟨h1, h2, h3⟩; exact ⟨h1, by omega, h3⟩
    · rintro ⟨h1, h2, h3, k, hk⟩
      refine ⟨h1, ?_, h3, k, hk⟩
      unfold rollBack
      split_ifs with hb
      · exact h2
      · have hdt := day_tod t
        have hday : anchorDay f k ≤ dayOf b := by
          rw [← hk]; simp only [dayOf, DAY]; omega
        have hne : anchorDay f k ≠ dayOf b := fun e => hb ((onOffset_iff f b).2 ⟨k, e.symm⟩)
        have hk' : k ≤ anchorIdx f (dayOf b) - 1 := by
          by_contra hc
          have := (le_anchorDay_iff f k (dayOf b)).2 (by omega)
          omega
        have := (anchorDay_strictMono f).monotone hk'
        simp only [DAY] at *; omega
  · exact mem_dateRange_anchor f a b b t le_rfl

/-- Membership in `date_range` for fixed steps. -/
theorem mem_dateRange_H (a b t : Timestamp) : t ∈ dateRange a b .H ↔ a ≤ t ∧ t ≤ b ∧ (t - a) % HOUR = 0 := by
  simp only [dateRange]
  by_cases hlt : b < a
  · have : ((b - a) / HOUR + 1).toNat = 0 := by simp only [HOUR]; omega
    rw [this]; simp only [genRange, List.not_mem_nil, false_iff]; omega
  · rw [mem_genRange _ _ (fun t => le_rfl) _ _ _ (by simp only [HOUR] at *; omega)]
    simp only [iterate_add]
    constructor
    · rintro ⟨h1, i, rfl⟩; simp only [HOUR] at *; omega
    · rintro ⟨h1, h2, h3⟩
      refine ⟨h2, ((t - a) / HOUR).toNat, ?_⟩
      simp only [HOUR] at *; omega

theorem mem_dateRange_D (a b t : Timestamp) : t ∈ dateRange a b .D ↔ a ≤ t ∧ t ≤ b ∧ (t - a) % DAY = 0 := by
  simp only [dateRange]
  by_cases hlt : b < a
  · have : ((b - a) / HOUR + 1).toNat = 0 := by simp only [HOUR]; omega
    rw [this]; simp only [genRange, List.not_mem_nil, false_iff]; omega
  · rw [mem_genRange _ _ (fun t => by simp only [HOUR, DAY]; omega) _ _ _ (by simp only [HOUR] at *; omega)]
    simp only [iterate_add]
    constructor
    · rintro ⟨h1, i, rfl⟩; simp only [DAY] at *; omega
    · rintro ⟨h1, h2, h3⟩
      refine ⟨h2, ((t - a) / DAY).toNat, ?_⟩
      simp only [DAY] at *; omega

theorem dateRange_sorted (a b : Timestamp) (f : Freq) : (dateRange a b f).Pairwise (· < ·) := by
  have h1 := genRange_sorted (· + HOUR) b (fun t => le_rfl) ((b - a) / HOUR + 1).toNat a
  have h2 := genRange_sorted (· + DAY) b (fun t => by simp only [HOUR, DAY]; omega) ((b - a) / HOUR + 1).toNat a
  have h3 := genRange_sorted (nextAnchor f) (if onOffset f a then rollBack f b else b) (nextAnchor_step f)
    ((b - a) / HOUR + 1).toNat (rollForward f a)
  cases f
  · exact h1.1
  · exact h2.1
  all_goals exact h3.1

end Anticipy
