import Verif.Spec.NullRows
import Verif.Props.MultStats

/-
C65: the automatic choice of composition depends on the samples with a value and on the first and last date.
-/
namespace Anticipy
open Spec

theorem filterMap_observed {β : Type} (l l' : List (Row ℝ)) (h : l'.filter (fun r => r.y.isSome) = l.filter fun r => r.y.isSome) (f : Row ℝ → Option β)
    (hf : ∀ r, r.y = none → f r = none) : l'.filterMap f = l.filterMap f := by
  have key : ∀ l : List (Row ℝ), l.filterMap f = (l.filter fun r => r.y.isSome).filterMap f := by
    intro l
    induction l with
    | nil => rfl
    | cons r l ih =>
      cases hy : r.y with
      | none => rw [List.filterMap_cons_none (hf r hy), List.filter_cons_of_neg (by simp [hy]), ih]
      | some y => rw [List.filter_cons_of_pos (by simp [hy]), List.filterMap_cons, List.filterMap_cons, ih]
  rw [key l, key l', h]

/-- A fit of the line that the choice is based on, if it was made. -/
theorem choice_fit (env : Env ℝ) (df : Frame ℝ) (he : Eligible df) (ans : Bool) (h : isMultiplicative (multCorr env) df = .ok ans) :
    ∃ r a b, fitModel env modelLinear df none true = .ok r ∧ r.params = [a, b] := by
  have hc : ∃ c, multCorr env df = .ok c := by
    cases hc : multCorr env df with
    | ok c => exact ⟨c, rfl⟩
    | error e =>
      exfalso
      obtain ⟨h1, h2, ⟨p, hp, q, hq, h3⟩, h4⟩ := he
      unfold isMultiplicative at h
      rw [usable_filter, if_neg, h2, if_neg (by simp), if_neg, if_neg (by omega), hc] at h
      · cases h
      · cases hmin : listMin (df.rows.map Row.date) with
        | none => simp
        | some lo =>
          cases hmax : listMax (df.rows.map Row.date) with
          | none => simp
          | some hi =>
            have k1 := ((listMin_some _ _).1 hmin).2 p.date (List.mem_map_of_mem hp)
            have k2 := ((listMax_some _ _).1 hmax).2 q.date (List.mem_map_of_mem hq)
            have hD : DAY = dayNs := rfl
            simp only [decide_eq_true_eq]
            omega
      · simp only [List.any_eq_true, decide_eq_true_eq, not_exists, not_and, not_le]
        intro r hr v hv
        exact h1 r hr v hv
  obtain ⟨c, hc⟩ := hc
  have n4 := le_trans he.2.2.2 (List.length_filter_le ..)
  unfold multCorr fitLinear at hc
  simp only [pyAssert, n4, decide_true, if_true, Bind.bind, Except.bind] at hc
  cases hr : fitModel env modelLinear df none true with
  | error e => rw [hr] at hc; cases hc
  | ok r =>
    rw [hr] at hc
    dsimp only at hc
    cases hmin : listMin (df.rows.map Row.x) with
    | none => rw [hmin] at hc; cases hc
    | some lo =>
      cases hmax : listMax (df.rows.map Row.x) with
      | none => rw [hmin, hmax] at hc; cases hc
      | some hi =>
        rw [hmin, hmax] at hc
        dsimp only at hc
        have hp : ∃ a b, r.params = [a, b] := by
          rcases hpar : r.params with _ | ⟨a, _ | ⟨b, _ | ⟨c, l⟩⟩⟩
          · rw [hpar] at hc; cases hc
          · rw [hpar] at hc; cases hc
          · exact ⟨a, b, rfl⟩
          · rw [hpar] at hc; cases hc
        obtain ⟨a, b, hp⟩ := hp
        exact ⟨r, a, b, rfl, hp⟩

/-- **C65, samples without a value.** Two series with the same samples with values whose dates have the same first and last day: the same choice. -/
theorem C65_observed_partial (env : Env ℝ) : ChoiceIgnoresNulls (multCorr env) := by
  intro df df' hd hw hobs hends hends' ans h
  have hur : usableRows df' = usableRows df := by
    have : ∀ l : List (Row ℝ), l.filter (fun r => decide (Usable df.hasWeight r)) = (l.filter fun r => r.y.isSome).filter fun r => decide (Usable df.hasWeight r) := by
      intro l
      rw [List.filter_filter]
      apply List.filter_congr
      intro r _
      rw [Bool.eq_iff_iff]
      simp only [Bool.and_eq_true, decide_eq_true_eq]
      constructor
      · intro hu
        obtain ⟨v, hv⟩ := hu.1
        exact ⟨hu, by rw [hv]; rfl⟩
      · exact fun h => h.1
    unfold usableRows
    rw [hw, this, hobs, ← this]
  have hin : inMonth civilOfDay df' = inMonth civilOfDay df := by
    funext y m
    unfold inMonth
    exact filterMap_observed _ _ hobs _ (by intro r hr; rw [hr]; simp)
  have hmem : ∀ r : Row ℝ, ∀ v, r.y = some v → (r ∈ df'.rows ↔ r ∈ df.rows) := by
    intro r v hv
    have k : ∀ l : List (Row ℝ), r ∈ l.filter (fun r => r.y.isSome) ↔ r ∈ l := by
      intro l
      rw [List.mem_filter, hv]
      simp
    rw [← k df'.rows, hobs, k]
  have hel : Eligible df' ↔ Eligible df := by
    unfold Eligible
    rw [hur, hd]
    constructor
    · rintro ⟨h1, h2, ⟨p, hp, q, hq, h3⟩, h4⟩
      obtain ⟨a, ha, -, -, e1, -⟩ := hends' p hp
      obtain ⟨-, -, b, hb, -, e2⟩ := hends' q hq
      exact ⟨fun q hq v hv => h1 q ((hmem q v hv).2 hq) v hv, h2, ⟨a, ha, b, hb, by omega⟩, h4⟩
    · rintro ⟨h1, h2, ⟨p, hp, q, hq, h3⟩, h4⟩
      obtain ⟨a, ha, -, -, e1, -⟩ := hends p hp
      obtain ⟨-, -, b, hb, -, e2⟩ := hends q hq
      exact ⟨fun q hq v hv => h1 q ((hmem q v hv).1 hq) v hv, h2, ⟨a, ha, b, hb, by omega⟩, h4⟩
  by_cases he : Eligible df
  · obtain ⟨r, a, b, hr, hp⟩ := choice_fit env df he ans h
    have h29 := C29_ignored_samples env modelLinear df' df none true hd hw hur
    rw [hr] at h29
    obtain ⟨r', hr', hp'⟩ : ∃ r', fitModel env modelLinear df' none true = .ok r' ∧ r'.params = [a, b] := by
      cases h : fitModel env modelLinear df' none true with
      | error e => rw [h] at h29; cases h29
      | ok r' =>
        rw [h] at h29
        simp only [Except.map, Except.ok.injEq] at h29
        exact ⟨r', rfl, by rw [← hp]; exact congrArg Outcome.params h29⟩
    have he' := hel.2 he
    have n4 := le_trans he.2.2.2 (List.length_filter_le ..)
    have n4' := le_trans he'.2.2.2 (List.length_filter_le ..)
    obtain ⟨L, hn, hL, hm⟩ := C64_statistic civilOfDay civilOfDay_isCalendar env df r a b n4 hr hp
    obtain ⟨L', hn', hL', hm'⟩ := C64_statistic civilOfDay civilOfDay_isCalendar env _ r' a b n4' hr' hp'
    have hperm : L'.Perm L := by
      rw [List.perm_ext_iff_of_nodup hn' hn]
      rintro ⟨y, m⟩
      rw [hL, hL', hin]
    have hmp : monthPoint civilOfDay df' a b = monthPoint civilOfDay df a b := by
      funext p; unfold monthPoint; rw [hin]
    rw [hmp, correlation_perm _ _ (hperm.map _)] at hm'
    obtain ⟨ans1, h1, h2⟩ := C64_decision (multCorr env) df he _ hm
    obtain ⟨ans', h1', h2'⟩ := C64_decision (multCorr env) _ he' _ hm'
    rw [← h, h1, h1']
    congr 1
    rw [Bool.eq_iff_iff, h2, h2']
  · rw [C64_not_eligible _ _ he] at h
    rw [C64_not_eligible _ _ (fun h => he (hel.1 h)), h]

end Anticipy
