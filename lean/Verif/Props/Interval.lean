import Verif.Spec.Interval
import Verif.Lemmas.Interval
import Verif.Lemmas.Split

/-
C43-C46: prediction intervals.
-/
namespace Anticipy
open Spec
variable {K : Type} [Field K] [LinearOrder K]

/-! ### Shape of the result -/

/-- The four percentiles. -/
def percents (q1 q2 : K) : List K := dedupBy (fun p : K => p) [q1, 100 - q1, q2, 100 - q2]

/-- A result row with quantiles from column `j` of the sample. -/
def quantRow [FloorRing K] (q1 q2 : K) (sample : List (List K)) (j : Nat) (r : FRow K) : PRow K :=
  { date := r.date, source := r.source, model := r.model, isActuals := false, y := r.y,
    q := (percents q1 q2).map fun p => (p, lift2 (· + ·) r.y (percentile (column sample j) p)) }

/-- Percentiles in the accepted range. -/
def ValidPct (q1 q2 : K) : Prop := 0 < q1 ∧ q1 < 100 ∧ 0 < q2 ∧ q2 < 100

instance (q1 q2 : K) : Decidable (ValidPct q1 q2) := by unfold ValidPct; infer_instance

theorem addPercentiles_eq [FloorRing K] (rows : List (FRow K)) (s : List (List K)) (q1 q2 : K) :
    addPercentiles rows s q1 q2 = if ValidPct q1 q2 then .ok (rows.mapIdx (quantRow q1 q2 s)) else .error .assertionError := by
  unfold addPercentiles
  by_cases h : ValidPct q1 q2
  · have h' := h
    unfold ValidPct at h'
    rw [decide_eq_true h', if_pos h]
    rfl
  · have h' := h
    unfold ValidPct at h'
    rw [decide_eq_false h', if_neg h]
    rfl

/-- What a successful run for one source returns. -/
structure PiParts (t : FTable K) (nCum : Int) where
  n : Nat
  acts : List (ActualRow K)
  onSource : Bool
  last : Timestamp
  hn : cumPeriod t (selectRows t) nCum = .ok n
  hacts : actualsFiltered t (selectRows t) = .ok (acts, onSource)
  hlast : listMax (acts.map ActualRow.date) = some last
  hres : residuals (selectRows t) acts onSource ≠ []

namespace PiParts
variable {t : FTable K} {nCum : Int}
/-- Residuals. -/
def res (p : PiParts t nCum) : List K := residuals (selectRows t) p.acts p.onSource
def future (p : PiParts t nCum) : List (FRow K) := (selectRows t).filter fun r => !r.isActuals && decide (p.last < r.date)
def past (p : PiParts t nCum) : List (FRow K) := (selectRows t).filter fun r => !r.isActuals && decide (r.date ≤ p.last)
end PiParts

theorem centred_ne_nil (l : List K) (h : l ≠ []) : centred l ≠ [] := by
  cases l with
  | nil => exact absurd rfl h
  | cons a l => simp [centred]

theorem cumPeriod_pos (t : FTable K) (rows : List (FRow K)) (nCum : Int) (n : Nat) (h : cumPeriod t rows nCum = .ok n) : 0 < n := by
  unfold cumPeriod at h
  have key : ∀ d : Int, (if nCum.tdiv d < 1 then 1 else (nCum.tdiv d).toNat) = n → 0 < n := by
    intro d hd
    split_ifs at hd <;> omega
  by_cases hd : t.numDate
  · simp only [hd, if_true, bind, Except.bind, Except.ok.injEq] at h
    exact key _ h
  · simp only [hd, Bool.false_eq_true, if_false] at h
    cases hf : detectFreq (rows.map FRow.date) with
    | none => simp [hf, bind, Except.bind] at h
    | some f =>
      simp only [hf, bind, Except.bind, Except.ok.injEq] at h
      exact key _ h

/-- With residuals the run succeeds for valid percentiles, and the result has three parts. -/
theorem piSingle_parts [IsStrictOrderedRing K] [FloorRing K] (draw : Nat → Nat → Nat) (t : FTable K) (nSims : Nat) (nCum : Int)
    (q1 q2 : K) (hq : ValidPct q1 q2) (p : PiParts t nCum) :
    ∃ fs ps, futureSample draw (centred p.res) nSims p.n p.future.length = .ok fs ∧
      pastSample draw (centred p.res) nSims p.past.length = .ok ps ∧
      piSingle draw t nSims nCum q1 q2 = .ok ((actualsUnfiltered (selectRows t)).map actualOut ++
        p.past.mapIdx (quantRow q1 q2 ps) ++ p.future.mapIdx (quantRow q1 q2 fs)) := by
  have hres := centred_ne_nil p.res p.hres
  obtain ⟨fs, hfs, -⟩ := futureSample_ok draw (centred p.res) nSims p.n p.future.length hres
    (cumPeriod_pos t _ nCum p.n p.hn)
  obtain ⟨ps, hps, -⟩ := pastSample_ok draw (centred p.res) nSims p.past.length hres
  refine ⟨fs, ps, hfs, hps, ?_⟩
  have e3 : residuals (selectRows t) p.acts p.onSource = p.res := rfl
  unfold piSingle
  simp only [p.hn, p.hacts, e3, p.hlast, bind, Except.bind]
  cases hr : p.res with
  | nil => exact absurd hr p.hres
  | cons a l =>
    simp only [addPercentiles_eq, if_pos hq]
    rw [← hr]
    have e4 : futureSample draw (centred p.res) nSims p.n
        ((selectRows t).filter (fun r => !r.isActuals && decide (p.last < r.date))).length = .ok fs := hfs
    have e5 : pastSample draw (centred p.res) nSims
        ((selectRows t).filter (fun r => !r.isActuals && decide (r.date ≤ p.last))).length = .ok ps := hps
    simp only [e4, e5]
    rfl

/-- Every successful run either had nothing to compare, or has the parts above and valid percentiles. -/
theorem piSingle_inv [IsStrictOrderedRing K] [FloorRing K] (draw : Nat → Nat → Nat) (t : FTable K) (nSims : Nat) (nCum : Int)
    (q1 q2 : K) (out : List (PRow K)) (h : piSingle draw t nSims nCum q1 q2 = .ok out) :
    (out = (actualsUnfiltered (selectRows t)).map actualOut ∧ ∃ acts b, actualsFiltered t (selectRows t) = .ok (acts, b) ∧
      residuals (selectRows t) acts b = []) ∨
    (ValidPct q1 q2 ∧ Nonempty (PiParts t nCum)) := by
  have h0 := h
  unfold piSingle at h
  change (cumPeriod t (selectRows t) nCum >>= fun n => actualsFiltered t (selectRows t) >>= _) = _ at h
  cases hn : cumPeriod t (selectRows t) nCum with
  | error e => rw [hn] at h; cases h
  | ok n =>
    cases ha : actualsFiltered t (selectRows t) with
    | error e => rw [hn, ha] at h; cases h
    | ok p =>
      obtain ⟨acts, b⟩ := p
      cases hr : residuals (selectRows t) acts b with
      | nil =>
        left
        refine ⟨?_, acts, b, rfl, hr⟩
        rw [hn, ha] at h
        simp only [bind, Except.bind] at h
        rw [hr] at h
        cases hl : listMax (acts.map ActualRow.date) <;>
        · rw [hl] at h
          dsimp only at h
          split_ifs at h
          exact (Except.ok.inj h).symm
      | cons a l =>
        right
        cases hl : listMax (acts.map ActualRow.date) with
        | none =>
          rw [listMax_none, List.map_eq_nil_iff] at hl
          subst hl
          exfalso
          have : residuals (selectRows t) ([] : List (ActualRow K)) b = [] := by
            unfold residuals
            rw [List.flatMap_eq_nil_iff]
            intro r _
            cases r.y <;> simp
          rw [this] at hr
          cases hr
        | some last =>
          have parts : PiParts t nCum := ⟨n, acts, b, last, hn, ha, hl, by rw [hr]; simp⟩
          refine ⟨?_, ⟨parts⟩⟩
          by_contra hq
          rw [hn, ha] at h
          simp only [bind, Except.bind] at h
          rw [hr, hl] at h
          dsimp only at h
          simp only [addPercentiles_eq, if_neg hq] at h
          split at h <;> cases h


/-! ### From several sources to one -/

theorem piGroups_mem [FloorRing K] (draw : Nat → Nat → Nat → Nat) (t : FTable K) (nSims : Nat) (nCum : Int) (q1 q2 : K) (l : List String)
    (k : Nat) (out : List (PRow K)) (h : piGroups draw t nSims nCum q1 q2 k l = .ok out) (r : PRow K) (hr : r ∈ out) :
    ∃ i t' o, piSingle (draw i) t' nSims nCum q1 q2 = .ok o ∧ r ∈ o := by
  induction l generalizing k out with
  | nil => cases h; cases hr
  | cons s l ih =>
    simp only [piGroups, bind, Except.bind] at h
    cases h1 : piSingle (draw k) { t with rows := t.rows.filter fun r => decide (r.source = some s) } nSims nCum q1 q2 with
    | error e => rw [h1] at h; cases h
    | ok o =>
      rw [h1] at h
      cases h2 : piGroups draw t nSims nCum q1 q2 (k + 1) l with
      | error e => rw [h2] at h; cases h
      | ok o2 =>
        rw [h2] at h
        cases h
        rcases List.mem_append.1 hr with hr | hr
        · exact ⟨k, _, o, h1, hr⟩
        · exact ih (k + 1) o2 h2 hr

theorem getPi_mem [FloorRing K] (draw : Nat → Nat → Nat → Nat) (t : FTable K) (nSims : Nat) (nCum : Option Int) (q1 q2 : K) (w : Freq)
    (out : List (PRow K)) (h : getPi draw t nSims nCum q1 q2 w = .ok out) (r : PRow K) (hr : r ∈ out) :
    ∃ i t' n o, piSingle (draw i) t' nSims n q1 q2 = .ok o ∧ r ∈ o := by
  unfold getPi at h
  dsimp only at h
  split_ifs at h
  · simp only [bind, Except.bind] at h
    cases h1 : piGroups draw t nSims (nCum.getD (daysFromFreq w)) q1 q2 0 (groupKeys t.rows) with
    | error e => rw [h1] at h; cases h
    | ok o =>
      rw [h1] at h
      cases h
      obtain ⟨i, t', o', h2, h3⟩ := piGroups_mem draw t nSims _ q1 q2 _ 0 o h1 r ((sortBy_perm _ o).mem_iff.1 hr)
      exact ⟨i, t', _, o', h2, h3⟩
  · exact ⟨0, t, _, out, h, hr⟩

/-- Every row of a result: an actual row without quantiles, or a row with quantiles of a sample. -/
theorem piSingle_row [IsStrictOrderedRing K] [FloorRing K] (draw : Nat → Nat → Nat) (t : FTable K) (nSims : Nat) (nCum : Int) (q1 q2 : K)
    (out : List (PRow K)) (h : piSingle draw t nSims nCum q1 q2 = .ok out) (r : PRow K) (hr : r ∈ out) :
    (r.isActuals = true ∧ r.q = [] ∧ r.y ≠ none) ∨
    (ValidPct q1 q2 ∧ ∃ (s : List (List K)) (j : Nat) (f : FRow K), r = quantRow q1 q2 s j f ∧ (0 < nSims → column s j ≠ [])) := by
  have hact : ∀ r ∈ (actualsUnfiltered (selectRows t)).map actualOut, r.isActuals = true ∧ r.q = [] ∧ r.y ≠ none := by
    intro r hr
    rw [List.mem_map] at hr
    obtain ⟨f, hf, rfl⟩ := hr
    unfold actualsUnfiltered at hf
    rw [List.mem_filter] at hf
    refine ⟨rfl, rfl, ?_⟩
    intro h
    have h' : f.y = none := h
    simp [h'] at hf
  rcases piSingle_inv draw t nSims nCum q1 q2 out h with ⟨rfl, -⟩ | ⟨hq, ⟨p⟩⟩
  · exact .inl (hact r hr)
  · obtain ⟨fs, ps, hfs, hps, ho⟩ := piSingle_parts draw t nSims nCum q1 q2 hq p
    rw [h] at ho
    cases ho
    have hres := centred_ne_nil p.res p.hres
    obtain ⟨fs', hfs', l1, l2, -⟩ := futureSample_ok draw (centred p.res) nSims p.n p.future.length hres (cumPeriod_pos t _ nCum p.n p.hn)
    rw [hfs] at hfs'; cases hfs'
    obtain ⟨ps', hps', l3, l4, -⟩ := pastSample_ok draw (centred p.res) nSims p.past.length hres
    rw [hps] at hps'; cases hps'
    have hm : ∀ (rows : List (FRow K)) (s : List (List K)), s.length = nSims → (∀ r ∈ s, r.length = rows.length) →
        r ∈ rows.mapIdx (quantRow q1 q2 s) → ∃ (s : List (List K)) (j : Nat) (f : FRow K), r = quantRow q1 q2 s j f ∧
          (0 < nSims → column s j ≠ []) := by
      intro rows s e1 e2 hm
      rw [List.mem_mapIdx] at hm
      obtain ⟨j, hj, rfl⟩ := hm
      refine ⟨s, j, _, rfl, fun hn => column_ne_nil s j _ (by rintro rfl; simp at e1; omega) e2 hj⟩
    rw [List.mem_append, List.mem_append] at hr
    rcases hr with (hr | hr) | hr
    · exact .inl (hact r hr)
    · exact .inr ⟨hq, hm _ _ l3 l4 hr⟩
    · exact .inr ⟨hq, hm _ _ l1 l2 hr⟩

theorem mem_percents (q1 q2 p : K) : p ∈ percents q1 q2 ↔ p = q1 ∨ p = 100 - q1 ∨ p = q2 ∨ p = 100 - q2 := by
  unfold percents
  rw [mem_dedup]
  simp

theorem percents_range [IsStrictOrderedRing K] (q1 q2 p : K) (hq : ValidPct q1 q2) (hp : p ∈ percents q1 q2) : 0 < p ∧ p < 100 := by
  obtain ⟨h1, h2, h3, h4⟩ := hq
  rw [mem_percents] at hp
  rcases hp with rfl | rfl | rfl | rfl <;> constructor <;> linarith

/-! ### C43 -/

/-- **C43.** In every row of every result the quantile columns increase with their percentile, whatever was drawn. -/
theorem C43_ordered [IsStrictOrderedRing K] [FloorRing K] (draw : Nat → Nat → Nat → Nat) (t : FTable K) (nSims : Nat) (nCum : Option Int)
    (q1 q2 : K) (w : Freq) (out : List (PRow K)) (h : getPi draw t nSims nCum q1 q2 w = .ok out) :
    ∀ r ∈ out, Spec.Ordered r := by
  intro r hr
  obtain ⟨i, t', n, o, h1, h2⟩ := getPi_mem draw t nSims nCum q1 q2 w out h r hr
  rcases piSingle_row (draw i) t' nSims n q1 q2 o h1 r h2 with ⟨-, hq, -⟩ | ⟨hv, s, j, f, rfl, -⟩
  · intro a ha; rw [hq] at ha; cases ha
  · intro a ha b hb hab u v hu hv'
    simp only [quantRow, List.mem_map] at ha hb
    obtain ⟨p, hp, rfl⟩ := ha
    obtain ⟨p', hp', rfl⟩ := hb
    dsimp only at hab hu hv'
    cases hy : f.y with
    | none => rw [hy] at hu; cases hu
    | some y =>
      rw [hy] at hu hv'
      cases e1 : percentile (column s j) p with
      | none => rw [e1] at hu; cases hu
      | some c =>
        cases e2 : percentile (column s j) p' with
        | none => rw [e2] at hv'; cases hv'
        | some c' =>
          rw [e1] at hu; rw [e2] at hv'
          cases hu; cases hv'
          have := percentile_mono (column s j) p p' c c' (percents_range q1 q2 p hv hp).1.le hab e1 e2
          exact add_le_add le_rfl this

/-- **C43.** Every forecast row has a value in each of the four quantile columns unless its forecast is null; actual rows have none. -/
theorem C43_complete [IsStrictOrderedRing K] [FloorRing K] (draw : Nat → Nat → Nat → Nat) (t : FTable K) (nSims : Nat) (nCum : Option Int)
    (q1 q2 : K) (w : Freq) (out : List (PRow K)) (hs : 0 < nSims) (h : getPi draw t nSims nCum q1 q2 w = .ok out) (r : PRow K)
    (hr : r ∈ out) :
    (r.isActuals = true → r.q = []) ∧
    (r.isActuals = false → ∀ p ∈ [q1, 100 - q1, q2, 100 - q2], ∃ v, (p, v) ∈ r.q ∧ (r.y ≠ none → v ≠ none)) := by
  obtain ⟨i, t', n, o, h1, h2⟩ := getPi_mem draw t nSims nCum q1 q2 w out h r hr
  rcases piSingle_row (draw i) t' nSims n q1 q2 o h1 r h2 with ⟨ha, hq, -⟩ | ⟨hv, s, j, f, rfl, hc⟩
  · exact ⟨fun _ => hq, fun hf => by rw [ha] at hf; cases hf⟩
  · refine ⟨fun hf => (by cases hf), fun _ p hp => ?_⟩
    have hp' : p ∈ percents q1 q2 := by rw [mem_percents]; simpa using hp
    refine ⟨_, List.mem_map.2 ⟨p, hp', rfl⟩, ?_⟩
    intro hy
    have hr := percents_range q1 q2 p hv hp'
    obtain ⟨v, hv⟩ := percentile_some (column s j) p (hc hs) hr.1.le hr.2.le
    rw [hv]
    cases hf : f.y with
    | none => exact absurd hf hy
    | some y => simp [lift2]

/-- **C43.** The outer and the inner interval are nested: for `q1 ≤ q2 ≤ 50` the four columns are in the order
`q1, q2, 100 - q2, 100 - q1`. -/
theorem C43_nested [IsStrictOrderedRing K] [FloorRing K] (draw : Nat → Nat → Nat → Nat) (t : FTable K) (nSims : Nat) (nCum : Option Int)
    (q1 q2 : K) (w : Freq) (out : List (PRow K)) (hs : 0 < nSims) (h : getPi draw t nSims nCum q1 q2 w = .ok out)
    (h12 : q1 ≤ q2) (h2 : q2 ≤ 50) (r : PRow K) (hr : r ∈ out) (hf : r.isActuals = false) (hy : r.y ≠ none) :
    ∃ a b c d, (q1, some a) ∈ r.q ∧ (q2, some b) ∈ r.q ∧ (100 - q2, some c) ∈ r.q ∧ (100 - q1, some d) ∈ r.q ∧
      a ≤ b ∧ b ≤ c ∧ c ≤ d := by
  have hc := (C43_complete draw t nSims nCum q1 q2 w out hs h r hr).2 hf
  have ho := C43_ordered draw t nSims nCum q1 q2 w out h r hr
  have get : ∀ p ∈ [q1, 100 - q1, q2, 100 - q2], ∃ v, (p, some v) ∈ r.q := by
    intro p hp
    obtain ⟨v, hv, hn⟩ := hc p hp
    obtain ⟨u, rfl⟩ := Option.ne_none_iff_exists'.1 (hn hy)
    exact ⟨u, hv⟩
  obtain ⟨a, ha⟩ := get q1 (by simp)
  obtain ⟨b, hb⟩ := get q2 (by simp)
  obtain ⟨c, hc⟩ := get (100 - q2) (by simp)
  obtain ⟨d, hd⟩ := get (100 - q1) (by simp)
  refine ⟨a, b, c, d, ha, hb, hc, hd, ho _ ha _ hb h12 _ _ rfl rfl, ho _ hb _ hc ?_ _ _ rfl rfl, ho _ hc _ hd ?_ _ _ rfl rfl⟩
  · show q2 ≤ 100 - q2
    linarith
  · show 100 - q2 ≤ 100 - q1
    linarith


/-! ### C45 -/

theorem selectRows_mem (t : FTable K) (r : FRow K) : r ∈ selectRows t ↔ r ∈ t.rows ∧ (r.isActuals = true ∨ IsForecast t r = true) := by
  unfold selectRows IsForecast
  cases t.hasBest <;> cases ha : r.isActuals <;> simp [List.mem_filter, ha]

theorem selectRows_filter (t : FTable K) (P : FRow K → Bool) (Q : FRow K → Bool)
    (h : ∀ r ∈ t.rows, Q r = (P r && (r.isActuals || IsForecast t r))) : (selectRows t).filter P = t.rows.filter Q := by
  unfold selectRows
  cases hb : t.hasBest with
  | true =>
    rw [if_pos rfl, List.filter_filter]
    apply List.filter_congr
    intro r hr
    rw [h r hr]
    unfold IsForecast
    rw [hb]
    cases r.isActuals <;> cases r.isBest <;> cases P r <;> rfl
  | false =>
    rw [if_neg (by simp)]
    apply List.filter_congr
    intro r hr
    rw [h r hr]
    unfold IsForecast
    rw [hb]
    cases r.isActuals <;> cases P r <;> rfl

theorem overlap_residuals (t : FTable K) (h : Overlap t) (acts : List (ActualRow K)) (b : Bool)
    (ha : actualsFiltered t (selectRows t) = .ok (acts, b)) : residuals (selectRows t) acts b ≠ [] := by
  obtain ⟨f, hf, a, ha', hff, hfy, hu, hd, hs⟩ := h
  have hfa : f.isActuals = false := by
    unfold IsForecast at hff
    cases h : f.isActuals
    · rfl
    · simp [h] at hff
  have hfs : f ∈ selectRows t := (selectRows_mem t f).2 ⟨hf, .inr hff⟩
  unfold Used at hu
  rw [Bool.and_eq_true, Bool.and_eq_true] at hu
  obtain ⟨⟨hu1, hu2⟩, hu3⟩ := hu
  have has : a ∈ selectRows t := (selectRows_mem t a).2 ⟨ha', .inl hu1⟩
  have haf : a ∈ actualsUnfiltered (selectRows t) := by
    unfold actualsUnfiltered
    rw [List.mem_filter]
    exact ⟨has, by rw [hu1, hu2]; rfl⟩
  obtain ⟨v, hv⟩ := Option.isSome_iff_exists.1 hu2
  obtain ⟨u, hu⟩ := Option.ne_none_iff_exists'.1 hfy
  have hmem : ∃ c ∈ acts, c.date = a.date ∧ (b = true → c.source = a.source) := by
    unfold actualsFiltered at ha
    split_ifs at ha with h1 h2
    · cases ha
      refine ⟨⟨a.date, v, a.source⟩, ?_, rfl, fun _ => rfl⟩
      rw [List.mem_flatMap]
      refine ⟨a, haf, ?_⟩
      rw [List.mem_filterMap]
      refine ⟨a, ?_, by rw [hv]; rfl⟩
      rw [List.mem_filter, List.mem_filter]
      refine ⟨⟨has, ?_⟩, by simp⟩
      rw [hu1]
      unfold anyZeroWeight at h1
      rw [Bool.and_eq_true] at h1
      rw [h1.1] at hu3
      cases hw : a.weight with
      | none => rw [hw] at hu3; simp at hu3
      | some w => rw [hw] at hu3; simpa using hu3
    · cases ha
      refine ⟨⟨a.date, v, none⟩, ?_, rfl, fun h => (by cases h)⟩
      rw [List.mem_filterMap]
      exact ⟨a, haf, by rw [hv]; rfl⟩
  obtain ⟨c, hc, hcd, hcs⟩ := hmem
  intro hnil
  unfold residuals at hnil
  rw [List.flatMap_eq_nil_iff] at hnil
  have := hnil f (by rw [List.mem_filter]; exact ⟨hfs, by rw [hfa]; rfl⟩)
  rw [hu] at this
  simp only [List.map_eq_nil_iff, List.filter_eq_nil_iff] at this
  exact this c hc (decide_eq_true ⟨hcd.trans hd, fun hb => (hcs hb).trans hs⟩)

theorem map_plain_quantRow [FloorRing K] (q1 q2 : K) (s : List (List K)) (rows : List (FRow K)) (h : ∀ r ∈ rows, r.isActuals = false) :
    (rows.mapIdx (quantRow q1 q2 s)).map plain = rows.map content := by
  apply List.ext_getElem?
  intro i
  rw [List.getElem?_map, List.getElem?_mapIdx, List.getElem?_map]
  cases hr : rows[i]? with
  | none => rfl
  | some r =>
    simp only [Option.map_some, plain, quantRow, content, h r (List.mem_of_getElem? hr)]

/-- **C45 (one source).** If forecast and data overlap, the result consists of exactly the actual samples with a value and the forecast
rows of the selected model, each once and with its values. -/
theorem C45_rows_partial [IsStrictOrderedRing K] [FloorRing K] (draw : Nat → Nat → Nat) (t : FTable K) (nSims : Nat) (nCum : Int)
    (q1 q2 : K) (out : List (PRow K)) (hov : Overlap t) (h : piSingle draw t nSims nCum q1 q2 = .ok out) :
    (out.map plain).Perm ((shown t).map content) := by
  rcases piSingle_inv draw t nSims nCum q1 q2 out h with ⟨-, acts, b, ha, hr⟩ | ⟨hq, ⟨p⟩⟩
  · exact absurd hr (overlap_residuals t hov acts b ha)
  · obtain ⟨fs, ps, hfs, hps, ho⟩ := piSingle_parts draw t nSims nCum q1 q2 hq p
    rw [h] at ho
    cases ho
    have e1 : ((actualsUnfiltered (selectRows t)).map actualOut).map plain = (actualsUnfiltered (selectRows t)).map content := by
      rw [List.map_map]
      apply List.map_congr_left
      intro r hr
      unfold actualsUnfiltered at hr
      rw [List.mem_filter, Bool.and_eq_true] at hr
      simp only [Function.comp, plain, actualOut, content, hr.2.1]
    rw [List.map_append, List.map_append, e1, map_plain_quantRow, map_plain_quantRow, ← List.map_append, ← List.map_append]
    · apply List.Perm.map
      have e2 : shown t = (selectRows t).filter fun r => (r.isActuals && r.y.isSome) || !r.isActuals := by
        symm
        apply selectRows_filter
        intro r _
        unfold IsForecast
        cases r.isActuals <;> cases r.y.isSome <;> cases t.hasBest <;> cases r.isBest <;> rfl
      rw [e2]
      have p1 := List.filter_append_perm (fun r : FRow K => r.isActuals)
        ((selectRows t).filter fun r => (r.isActuals && r.y.isSome) || !r.isActuals)
      refine List.Perm.trans ?_ p1
      have p2 := List.filter_append_perm (fun r : FRow K => decide (r.date ≤ p.last))
        ((selectRows t).filter fun r => !r.isActuals)
      rw [List.append_assoc]
      apply List.Perm.append
      · apply List.Perm.of_eq
        unfold actualsUnfiltered
        rw [List.filter_filter]
        apply List.filter_congr
        intro r _
        cases r.isActuals <;> cases r.y.isSome <;> rfl
      · rw [List.filter_filter] at p2 ⊢
        have e3 : p.past = (selectRows t).filter (fun r => decide (r.date ≤ p.last) && !r.isActuals) := by
          unfold PiParts.past
          apply List.filter_congr
          intro r _
          rw [Bool.and_comm]
        have e4 : p.future = ((selectRows t).filter fun r => !r.isActuals).filter (fun r => !decide (r.date ≤ p.last)) := by
          unfold PiParts.future
          rw [List.filter_filter]
          apply List.filter_congr
          intro r _
          rw [Bool.and_comm]
          congr 1
          by_cases hle : r.date ≤ p.last
          · simp [hle, not_lt.2 hle]
          · simp [hle, not_le.1 hle]
        rw [e3, e4]
        refine p2.trans (List.Perm.of_eq ?_)
        apply List.filter_congr
        intro r _
        cases r.isActuals <;> cases r.y.isSome <;> rfl
    · intro r hr
      unfold PiParts.future at hr
      rw [List.mem_filter] at hr
      cases h : r.isActuals with
      | false => rfl
      | true => simp [h] at hr
    · intro r hr
      unfold PiParts.past at hr
      rw [List.mem_filter] at hr
      cases h : r.isActuals with
      | false => rfl
      | true => simp [h] at hr

/-- The part of a table with one source label. -/
def part (t : FTable K) (s : String) : FTable K := { t with rows := t.rows.filter fun r => decide (r.source = some s) }

theorem groupKeys_nodup (rows : List (FRow K)) : (groupKeys rows).Nodup := by
  unfold groupKeys
  rw [(sortBy_perm _ _).nodup_iff]
  exact dedupBy_keys_nodup (fun s : String => s) _

theorem mem_groupKeys (rows : List (FRow K)) (s : String) : s ∈ groupKeys rows ↔ ∃ r ∈ rows, r.source = some s := by
  unfold groupKeys
  rw [(sortBy_perm _ _).mem_iff, mem_dedup, List.mem_filterMap]

theorem piGroups_rows [IsStrictOrderedRing K] [FloorRing K] (draw : Nat → Nat → Nat → Nat) (t : FTable K) (nSims : Nat) (nCum : Int)
    (q1 q2 : K) (l : List String) (hov : ∀ s ∈ l, Overlap (part t s)) (k : Nat) (out : List (PRow K))
    (h : piGroups draw t nSims nCum q1 q2 k l = .ok out) :
    (out.map plain).Perm ((l.flatMap fun s => shown (part t s)).map content) := by
  induction l generalizing k out with
  | nil => cases h; simp
  | cons s l ih =>
    simp only [piGroups, bind, Except.bind] at h
    cases h1 : piSingle (draw k) { t with rows := t.rows.filter fun r => decide (r.source = some s) } nSims nCum q1 q2 with
    | error e => rw [h1] at h; cases h
    | ok o =>
      rw [h1] at h
      cases h2 : piGroups draw t nSims nCum q1 q2 (k + 1) l with
      | error e => rw [h2] at h; cases h
      | ok o2 =>
        rw [h2] at h
        cases h
        rw [List.map_append, List.flatMap_cons, List.map_append]
        exact (C45_rows_partial (draw k) (part t s) nSims nCum q1 q2 o (hov s (by simp)) h1).append
          (ih (fun s hs => hov s (by simp [hs])) (k + 1) o2 h2)

/-- **C45 (several sources).** The same for labelled tables in which forecast and data overlap for every source. -/
theorem C45_sources_partial [IsStrictOrderedRing K] [FloorRing K] (draw : Nat → Nat → Nat → Nat) (t : FTable K) (nSims : Nat)
    (nCum : Option Int) (q1 q2 : K) (w : Freq) (out : List (PRow K)) (hsrc : t.hasSource = true)
    (hlab : ∀ r ∈ t.rows, r.source ≠ none) (hne : t.rows ≠ []) (hov : ∀ s, (∃ r ∈ t.rows, r.source = some s) → Overlap (part t s))
    (h : getPi draw t nSims nCum q1 q2 w = .ok out) :
    (out.map plain).Perm ((shown t).map content) := by
  unfold getPi at h
  dsimp only at h
  split_ifs at h with hc
  · simp only [bind, Except.bind] at h
    cases h1 : piGroups draw t nSims (nCum.getD (daysFromFreq w)) q1 q2 0 (groupKeys t.rows) with
    | error e => rw [h1] at h; cases h
    | ok o =>
      rw [h1] at h
      cases h
      have h2 := piGroups_rows draw t nSims _ q1 q2 (groupKeys t.rows) (fun s hs => hov s ((mem_groupKeys _ _).1 hs)) 0 o h1
      refine ((sortBy_perm prowLe o).map plain).trans (h2.trans ?_)
      apply List.Perm.map
      have h3 := flatMap_filter_perm (fun r : FRow K => r.source.getD "") (groupKeys t.rows) (groupKeys_nodup _) (shown t)
      have e1 : (shown t).filter (fun r => decide (r.source.getD "" ∈ groupKeys t.rows)) = shown t := by
        rw [List.filter_eq_self]
        intro r hr
        unfold shown at hr
        rw [List.mem_filter] at hr
        obtain ⟨s, hs⟩ := Option.ne_none_iff_exists'.1 (hlab r hr.1)
        rw [decide_eq_true_iff, mem_groupKeys, hs]
        exact ⟨r, hr.1, hs⟩
      rw [e1] at h3
      refine List.Perm.trans (List.Perm.of_eq ?_) h3
      apply List.flatMap_congr
      intro s _
      unfold shown part
      rw [List.filter_filter, List.filter_filter]
      apply List.filter_congr
      intro r hr
      obtain ⟨s', hs'⟩ := Option.ne_none_iff_exists'.1 (hlab r hr)
      rw [hs', Bool.and_comm]
      simp [IsForecast]
  · have hlen : (groupKeys t.rows).length ≤ 1 := by
      by_contra hn
      exact hc ⟨hsrc, by omega⟩
    obtain ⟨r0, hr0⟩ := List.exists_mem_of_ne_nil _ hne
    obtain ⟨s, hs⟩ := Option.ne_none_iff_exists'.1 (hlab r0 hr0)
    have hall : part t s = t := by
      unfold part
      have : t.rows.filter (fun r => decide (r.source = some s)) = t.rows := by
        rw [List.filter_eq_self]
        intro r hr
        obtain ⟨s', hs'⟩ := Option.ne_none_iff_exists'.1 (hlab r hr)
        have m1 : s ∈ groupKeys t.rows := (mem_groupKeys _ _).2 ⟨r0, hr0, hs⟩
        have m2 : s' ∈ groupKeys t.rows := (mem_groupKeys _ _).2 ⟨r, hr, hs'⟩
        rw [hs', decide_eq_true_iff]
        congr 1
        match hk : groupKeys t.rows, hlen with
        | [], _ => rw [hk] at m1; cases m1
        | [a], _ =>
          rw [hk] at m1 m2
          simp only [List.mem_singleton] at m1 m2
          rw [m1, m2]
      rw [this]
    have := C45_rows_partial (draw 0) t nSims _ q1 q2 out (by have := hov s ⟨r0, hr0, hs⟩; rwa [hall] at this) h
    exact this


/-! ### C44 -/

/-- A table of one source with one actual row per date and non-negative weights. -/
structure Spec.Regular (t : FTable K) : Prop where
  oneSource : ∀ r ∈ t.rows, ∀ r' ∈ t.rows, r.source = r'.source
  oneActual : ∀ r ∈ t.rows, ∀ r' ∈ t.rows, r.isActuals = true → r'.isActuals = true → r.date = r'.date → r = r'
  once : (t.rows.filter fun r => r.isActuals).Nodup
  weights : t.hasWeight = true → ∀ r ∈ t.rows, r.isActuals = true → ∃ w, r.weight = some w ∧ 0 ≤ w

theorem filter_eq_singleton {α : Type} [DecidableEq α] (l : List α) (P : α → Bool) (a : α) (hl : l.Nodup) (ha : a ∈ l) (hP : P a = true)
    (h : ∀ b ∈ l, P b = true → b = a) : l.filter P = [a] := by
  have h1 : (l.filter P).Nodup := hl.filter _
  have h2 : ∀ b ∈ l.filter P, b = a := fun b hb => h b (List.mem_filter.1 hb).1 (List.mem_filter.1 hb).2
  have h3 : a ∈ l.filter P := List.mem_filter.2 ⟨ha, hP⟩
  match hf : l.filter P with
  | [] => rw [hf] at h3; cases h3
  | [b] => rw [h2 b (by rw [hf]; simp)]
  | b :: c :: m =>
    rw [hf] at h1 h2
    have e1 := h2 b (by simp)
    have e2 := h2 c (by simp)
    rw [e1, e2] at h1
    simp at h1

theorem selectRows_actuals (t : FTable K) (P : FRow K → Bool) :
    (selectRows t).filter (fun r => r.isActuals && P r) = t.rows.filter (fun r => r.isActuals && P r) := by
  apply selectRows_filter
  intro r _
  cases r.isActuals <;> cases P r <;> rfl

/-- The actual rows that residuals are computed from are the used ones. -/
theorem actualsFiltered_used (t : FTable K) (hreg : Spec.Regular t) (acts : List (ActualRow K)) (b : Bool)
    (ha : actualsFiltered t (selectRows t) = .ok (acts, b)) :
    acts = (t.rows.filter (Used t)).filterMap fun r => r.y.map fun v => ⟨r.date, v, if b then r.source else none⟩ := by
  unfold actualsFiltered at ha
  have hun : actualsUnfiltered (selectRows t) = t.rows.filter (fun r => r.isActuals && r.y.isSome) := by
    unfold actualsUnfiltered
    exact selectRows_actuals t (fun r => r.y.isSome)
  split_ifs at ha with h1 h2
  · cases ha
    rw [hun]
    have hw : t.hasWeight = true := by
      unfold anyZeroWeight at h1
      rw [Bool.and_eq_true] at h1
      exact h1.1
    rw [selectRows_actuals]
    have key : ∀ r ∈ t.rows.filter (fun r => r.isActuals && r.y.isSome),
        (((t.rows.filter fun r => r.isActuals && decide (∃ w ∈ r.weight, 0 < w)).filter fun d => decide (d.date = r.date)).filterMap
          fun d => r.y.map fun v => (⟨r.date, v, d.source⟩ : ActualRow K)) =
        if Used t r then (r.y.map fun v => (⟨r.date, v, r.source⟩ : ActualRow K)).toList else [] := by
      intro r hr
      rw [List.mem_filter, Bool.and_eq_true] at hr
      obtain ⟨hr, hra, hry⟩ := hr
      rw [List.filter_filter]
      have hUsed : Used t r = decide (∃ w ∈ r.weight, 0 < w) := by
        unfold Used
        rw [hra, hry, hw]
        cases r.weight with
        | none => simp
        | some w => simp
      have hnd : (t.rows.filter fun r => r.isActuals).Nodup := hreg.once
      have hsplit : t.rows.filter (fun d => decide (d.date = r.date) && (d.isActuals && decide (∃ w ∈ d.weight, 0 < w))) =
          (t.rows.filter fun r => r.isActuals).filter (fun d => decide (d.date = r.date) && decide (∃ w ∈ d.weight, 0 < w)) := by
        rw [List.filter_filter]
        apply List.filter_congr
        intro d _
        cases d.isActuals <;> simp
      rw [hsplit]
      by_cases hU : Used t r = true
      · rw [if_pos hU]
        rw [hUsed] at hU
        have : (t.rows.filter fun r => r.isActuals).filter (fun d => decide (d.date = r.date) && decide (∃ w ∈ d.weight, 0 < w)) = [r] := by
          apply filter_eq_singleton _ _ _ hnd (List.mem_filter.2 ⟨hr, hra⟩)
          · rw [hU]; simp
          · intro b hb hP
            rw [List.mem_filter] at hb
            rw [Bool.and_eq_true, decide_eq_true_iff] at hP
            exact hreg.oneActual b hb.1 r hr hb.2 hra hP.1
        rw [this]
        cases r.y <;> rfl
      · rw [if_neg hU]
        rw [hUsed] at hU
        have : (t.rows.filter fun r => r.isActuals).filter (fun d => decide (d.date = r.date) && decide (∃ w ∈ d.weight, 0 < w)) = [] := by
          rw [List.filter_eq_nil_iff]
          intro b hb hP
          rw [List.mem_filter] at hb
          rw [Bool.and_eq_true, decide_eq_true_iff] at hP
          have := hreg.oneActual b hb.1 r hr hb.2 hra hP.1
          rw [this] at hP
          exact hU hP.2
        rw [this]
        rfl
    rw [List.flatMap_congr key]
    have e : t.rows.filter (Used t) = (t.rows.filter (fun r => r.isActuals && r.y.isSome)).filter (Used t) := by
      rw [List.filter_filter]
      apply List.filter_congr
      intro r _
      unfold Used
      cases r.isActuals <;> cases r.y.isSome <;> simp
    rw [e]
    generalize t.rows.filter (fun r => r.isActuals && r.y.isSome) = L
    induction L with
    | nil => rfl
    | cons r L ih =>
      rw [List.flatMap_cons, ih, List.filter_cons]
      by_cases hU : Used t r = true
      · rw [if_pos hU, if_pos hU, List.filterMap_cons]
        cases r.y <;> rfl
      · rw [if_neg hU, if_neg hU]
        rfl
  · cases ha
    rw [hun]
    have : t.rows.filter (fun r => r.isActuals && r.y.isSome) = t.rows.filter (Used t) := by
      apply List.filter_congr
      intro r hr
      unfold Used
      cases hra : r.isActuals with
      | false => rfl
      | true =>
        cases hry : r.y.isSome with
        | false => rfl
        | true =>
          cases hw : t.hasWeight with
          | false => rfl
          | true =>
            obtain ⟨w, hw1, hw2⟩ := hreg.weights hw r hr hra
            rw [hw1]
            have : 0 < w := by
              rcases hw2.lt_or_eq with h | h
              · exact h
              · exfalso
                apply h1
                unfold anyZeroWeight
                rw [hw, Bool.true_and, List.any_eq_true]
                exact ⟨r, (selectRows_mem t r).2 ⟨hr, .inl hra⟩, by rw [hw1, ← h]; simp⟩
            simp [this]
    rw [this]
    rfl

/-- **C44.** The residuals behind the intervals are the differences between used actual samples and forecasts of the same date. -/
theorem C44_residuals (t : FTable K) (hreg : Spec.Regular t) (acts : List (ActualRow K)) (b : Bool)
    (ha : actualsFiltered t (selectRows t) = .ok (acts, b)) :
    residuals (selectRows t) acts b = residualsOf t := by
  have hacts := actualsFiltered_used t hreg acts b ha
  unfold residuals residualsOf
  have e : (selectRows t).filter (fun r => !r.isActuals) = t.rows.filter (IsForecast t) := by
    apply selectRows_filter
    intro r _
    unfold IsForecast
    cases r.isActuals <;> cases t.hasBest <;> cases r.isBest <;> rfl
  rw [e]
  apply List.flatMap_congr
  intro f hf
  rw [List.mem_filter] at hf
  have hsame : ∀ r ∈ t.rows.filter (Used t), r.source = f.source := fun r hr => hreg.oneSource r (List.mem_filter.1 hr).1 f hf.1
  cases hy : f.y with
  | none =>
    symm
    rw [List.filterMap_eq_nil_iff]
    intro a _
    rfl
  | some u =>
    rw [hacts]
    dsimp only
    generalize t.rows.filter (Used t) = L at hsame
    induction L with
    | nil => rfl
    | cons a L ih =>
      have ih := ih (fun r hr => hsame r (by simp [hr]))
      have hs := hsame a (by simp)
      rw [List.filterMap_cons, List.filterMap_cons]
      cases hay : a.y with
      | none => exact ih
      | some v =>
        dsimp only [Option.map_some]
        rw [List.filter_cons]
        by_cases hd : a.date = f.date
        · have hc : (a.date = f.date ∧ (b = true → (if b = true then a.source else none) = f.source)) :=
            ⟨hd, fun hb => by rw [if_pos hb, hs]⟩
          rw [decide_eq_true hc, if_pos rfl, List.map_cons, ih, if_pos hd]
        · have hc : ¬ (a.date = f.date ∧ (b = true → (if b = true then a.source else none) = f.source)) := fun h => hd h.1
          rw [decide_eq_false hc, if_neg (by simp), ih, if_neg hd]

/-- The parts of a successful run on a regular table with overlap: residuals, last date, results. -/
theorem piSingle_regular [IsStrictOrderedRing K] [FloorRing K] (draw : Nat → Nat → Nat) (t : FTable K) (nSims : Nat) (nCum : Int)
    (q1 q2 : K) (out : List (PRow K)) (hreg : Spec.Regular t) (hov : Overlap t) (h : piSingle draw t nSims nCum q1 q2 = .ok out) :
    ValidPct q1 q2 ∧ ∃ p : PiParts t nCum, p.res = residualsOf t ∧
      ((∃ a ∈ t.rows, Used t a = true ∧ a.date = p.last) ∧ ∀ a ∈ t.rows, Used t a = true → a.date ≤ p.last) := by
  rcases piSingle_inv draw t nSims nCum q1 q2 out h with ⟨-, acts, b, ha, hr⟩ | ⟨hq, ⟨p⟩⟩
  · exact absurd hr (overlap_residuals t hov acts b ha)
  · refine ⟨hq, p, C44_residuals t hreg p.acts p.onSource p.hacts, ?_⟩
    have hl := p.hlast
    rw [actualsFiltered_used t hreg p.acts p.onSource p.hacts] at hl
    rw [listMax_some] at hl
    have hmem : ∀ d : Timestamp, d ∈ ((t.rows.filter (Used t)).filterMap fun r => r.y.map fun v =>
        (⟨r.date, v, if p.onSource then r.source else none⟩ : ActualRow K)).map ActualRow.date ↔
        ∃ a ∈ t.rows, Used t a = true ∧ a.date = d := by
      intro d
      simp only [List.mem_map, List.mem_filterMap, List.mem_filter]
      constructor
      · rintro ⟨c, ⟨a, ⟨ha, hu⟩, hc⟩, rfl⟩
        refine ⟨a, ha, hu, ?_⟩
        cases hy : a.y with
        | none => rw [hy] at hc; cases hc
        | some v => rw [hy] at hc; cases hc; rfl
      · rintro ⟨a, ha, hu, rfl⟩
        have hu' := hu
        unfold Used at hu'
        rw [Bool.and_eq_true, Bool.and_eq_true] at hu'
        obtain ⟨v, hv⟩ := Option.isSome_iff_exists.1 hu'.1.2
        exact ⟨⟨a.date, v, if p.onSource then a.source else none⟩, ⟨a, ⟨ha, hu⟩, by rw [hv]; rfl⟩, rfl⟩
    refine ⟨(hmem _).1 hl.1, fun a ha hu => hl.2 _ ((hmem _).2 ⟨a, ha, hu, rfl⟩)⟩

/-- The mean of a list lies between any bounds of the list. -/
theorem centred_bounds [IsStrictOrderedRing K] (l : List K) (lo hi : K)
    (h : ∀ a ∈ l, lo ≤ a - average l ∧ a - average l ≤ hi) : ∀ a ∈ centred l, lo ≤ a ∧ a ≤ hi := by
  intro a ha
  unfold centred at ha
  rw [List.mem_map] at ha
  obtain ⟨c, hc, rfl⟩ := ha
  exact h c hc

/-- Quantiles of a column of bounded values are bounded. -/
theorem quantRow_bounds [IsStrictOrderedRing K] [FloorRing K] (q1 q2 : K) (hq : ValidPct q1 q2) (s : List (List K)) (j : Nat) (f : FRow K)
    (lo hi y : K) (hy : f.y = some y) (hb : ∀ a ∈ column s j, lo ≤ a ∧ a ≤ hi) :
    ∀ p v, (p, some v) ∈ (quantRow q1 q2 s j f).q → y + lo ≤ v ∧ v ≤ y + hi := by
  intro p v hv
  simp only [quantRow, List.mem_map, Prod.mk.injEq] at hv
  obtain ⟨p', hp', rfl, hv⟩ := hv
  rw [hy] at hv
  cases hc : percentile (column s j) p' with
  | none => rw [hc] at hv; cases hv
  | some c =>
    rw [hc] at hv
    cases hv
    have := percentile_mem_bounds (column s j) p' c lo hi (percents_range q1 q2 p' hq hp').1.le hc hb
    exact ⟨add_le_add le_rfl this.1, add_le_add le_rfl this.2⟩

/-- **C44.** For forecast rows up to the last used sample all quantiles lie within the forecast plus the extreme centred residuals. -/
theorem C44_past [IsStrictOrderedRing K] [FloorRing K] (draw : Nat → Nat → Nat) (t : FTable K) (nSims : Nat) (nCum : Int)
    (q1 q2 : K) (out : List (PRow K)) (hreg : Spec.Regular t) (hov : Overlap t) (h : piSingle draw t nSims nCum q1 q2 = .ok out)
    (lo hi : K) (hb : ∀ a ∈ residualsOf t, lo ≤ a - average (residualsOf t) ∧ a - average (residualsOf t) ≤ hi)
    (r : PRow K) (hr : r ∈ out) (hpast : ∃ a ∈ t.rows, Used t a = true ∧ r.date ≤ a.date) (y : K) (hy : r.y = some y) :
    ∀ p v, (p, some v) ∈ r.q → y + lo ≤ v ∧ v ≤ y + hi := by
  obtain ⟨hq, p, hres, ⟨-, hle⟩⟩ := piSingle_regular draw t nSims nCum q1 q2 out hreg hov h
  obtain ⟨a, ha, hu, hd⟩ := hpast
  have hlast : r.date ≤ p.last := hd.trans (hle a ha hu)
  obtain ⟨fs, ps, hfs, hps, ho⟩ := piSingle_parts draw t nSims nCum q1 q2 hq p
  rw [h] at ho
  cases ho
  obtain ⟨ps', hps', -, -, hm⟩ := pastSample_ok draw (centred p.res) nSims p.past.length (centred_ne_nil p.res p.hres)
  rw [hps] at hps'; cases hps'
  rw [List.mem_append, List.mem_append] at hr
  rcases hr with (hr | hr) | hr
  · rw [List.mem_map] at hr
    obtain ⟨f, -, rfl⟩ := hr
    intro p v hv
    cases hv
  · rw [List.mem_mapIdx] at hr
    obtain ⟨j, hj, rfl⟩ := hr
    refine quantRow_bounds q1 q2 hq ps j _ lo hi y hy ?_
    intro c hc
    obtain ⟨row, hrow, hc⟩ := column_mem ps j c hc
    have := hm row hrow c (List.mem_of_getElem? hc)
    rw [hres] at this
    exact centred_bounds _ lo hi hb c this
  · rw [List.mem_mapIdx] at hr
    obtain ⟨j, hj, rfl⟩ := hr
    exfalso
    have := List.getElem_mem hj
    unfold PiParts.future at this
    rw [List.mem_filter, Bool.and_eq_true, decide_eq_true_iff] at this
    exact absurd this.2.2 (not_lt.2 hlast)

/-- **C44.** For the `j`-th forecast row after the last used sample all quantiles lie within the forecast plus `j / n + 2` times the extreme
centred residuals, where `n` is the accumulation period. -/
theorem C44_future [IsStrictOrderedRing K] [FloorRing K] (draw : Nat → Nat → Nat) (t : FTable K) (nSims : Nat) (nCum : Int)
    (q1 q2 : K) (out : List (PRow K)) (hreg : Spec.Regular t) (hov : Overlap t) (h : piSingle draw t nSims nCum q1 q2 = .ok out)
    (n : Nat) (hn : cumPeriod t (selectRows t) nCum = .ok n)
    (lo hi : K) (hb : ∀ a ∈ residualsOf t, lo ≤ a - average (residualsOf t) ∧ a - average (residualsOf t) ≤ hi)
    (last : Timestamp) (hlast : (∃ a ∈ t.rows, Used t a = true ∧ a.date = last) ∧ ∀ a ∈ t.rows, Used t a = true → a.date ≤ last)
    (j : Nat) (r : PRow K) (hr : (out.filter fun r => !r.isActuals && decide (last < r.date))[j]? = some r) (y : K) (hy : r.y = some y) :
    ∀ p v, (p, some v) ∈ r.q → y + ((j / n + 2 : Nat) : K) * lo ≤ v ∧ v ≤ y + ((j / n + 2 : Nat) : K) * hi := by
  obtain ⟨hq, p, hres, ⟨⟨a, ha, hu, hd⟩, hle⟩⟩ := piSingle_regular draw t nSims nCum q1 q2 out hreg hov h
  have hl : p.last = last := by
    obtain ⟨⟨a', ha', hu', hd'⟩, hle'⟩ := hlast
    apply le_antisymm
    · rw [← hd]; exact hle' a ha hu
    · rw [← hd']; exact hle a' ha' hu'
  have hpn : p.n = n := by have := p.hn; rw [hn] at this; exact (Except.ok.inj this).symm
  obtain ⟨fs, ps, hfs, hps, ho⟩ := piSingle_parts draw t nSims nCum q1 q2 hq p
  rw [h] at ho
  cases ho
  obtain ⟨fs', hfs', -, -, hm⟩ := futureSample_ok draw (centred p.res) nSims p.n p.future.length (centred_ne_nil p.res p.hres)
    (cumPeriod_pos t _ nCum p.n p.hn)
  rw [hfs] at hfs'; cases hfs'
  have e1 : (((actualsUnfiltered (selectRows t)).map actualOut).filter fun r => !r.isActuals && decide (last < r.date)) = [] := by
    rw [List.filter_eq_nil_iff]
    intro r hr
    rw [List.mem_map] at hr
    obtain ⟨f, -, rfl⟩ := hr
    simp [actualOut]
  have e2 : ((p.past.mapIdx (quantRow q1 q2 ps)).filter fun r => !r.isActuals && decide (last < r.date)) = [] := by
    rw [List.filter_eq_nil_iff]
    intro r hr
    rw [List.mem_mapIdx] at hr
    obtain ⟨j, hj, rfl⟩ := hr
    have := List.getElem_mem hj
    unfold PiParts.past at this
    rw [List.mem_filter, Bool.and_eq_true, decide_eq_true_iff] at this
    have h2 : p.past[j].date ≤ last := this.2.2.trans hl.le
    rw [show (quantRow q1 q2 ps j p.past[j]).date = p.past[j].date from rfl, decide_eq_false (not_lt.2 h2)]
    simp
  have e3 : ((p.future.mapIdx (quantRow q1 q2 fs)).filter fun r => !r.isActuals && decide (last < r.date)) =
      p.future.mapIdx (quantRow q1 q2 fs) := by
    rw [List.filter_eq_self]
    intro r hr
    rw [List.mem_mapIdx] at hr
    obtain ⟨j, hj, rfl⟩ := hr
    have := List.getElem_mem hj
    unfold PiParts.future at this
    rw [List.mem_filter, Bool.and_eq_true, decide_eq_true_iff] at this
    have h2 : last < p.future[j].date := lt_of_le_of_lt hl.ge this.2.2
    rw [show (quantRow q1 q2 fs j p.future[j]).date = p.future[j].date from rfl, decide_eq_true h2]
    rfl
  rw [List.filter_append, List.filter_append, e1, e2, e3, List.nil_append, List.nil_append, List.getElem?_mapIdx] at hr
  cases hf : p.future[j]? with
  | none => rw [hf] at hr; cases hr
  | some f =>
    rw [hf] at hr
    cases hr
    refine quantRow_bounds q1 q2 hq fs j _ _ _ y hy ?_
    intro c hc
    obtain ⟨row, hrow, hc⟩ := column_mem fs j c hc
    rw [← hpn]
    refine hm lo hi ?_ row hrow j c hc
    rw [hres]
    exact centred_bounds _ lo hi hb

/-- **C44.** If all residuals are equal the interval is the point forecast, in the past and in the future. -/
theorem C44_collapse [IsStrictOrderedRing K] [FloorRing K] (draw : Nat → Nat → Nat) (t : FTable K) (nSims : Nat) (nCum : Int)
    (q1 q2 : K) (out : List (PRow K)) (hreg : Spec.Regular t) (hov : Overlap t) (h : piSingle draw t nSims nCum q1 q2 = .ok out)
    (c : K) (hc : ∀ a ∈ residualsOf t, a = c) (r : PRow K) (hr : r ∈ out) : ∀ p v, (p, some v) ∈ r.q → some v = r.y := by
  obtain ⟨hq, p, hres, hlast⟩ := piSingle_regular draw t nSims nCum q1 q2 out hreg hov h
  have hrep : residualsOf t = List.replicate (residualsOf t).length c := List.eq_replicate_iff.2 ⟨rfl, hc⟩
  have hne : residualsOf t ≠ [] := by rw [← hres]; exact p.hres
  have havg : average (residualsOf t) = c := by
    have hlen : ((residualsOf t).length : K) ≠ 0 := by
      have : 0 < (residualsOf t).length := List.length_pos_iff.2 hne
      exact_mod_cast this.ne'
    unfold average
    have hsum : (residualsOf t).sum = ((residualsOf t).length : K) * c := by
      conv_lhs => rw [hrep]
      rw [List.sum_replicate, nsmul_eq_mul]
    rw [hsum, mul_div_cancel_left₀ _ hlen]
  have hb : ∀ a ∈ residualsOf t, (0 : K) ≤ a - average (residualsOf t) ∧ a - average (residualsOf t) ≤ 0 := by
    intro a ha
    rw [havg, hc a ha, sub_self]
    exact ⟨le_rfl, le_rfl⟩
  intro q v hv
  cases hact : r.isActuals with
  | true =>
    rcases piSingle_row draw t nSims nCum q1 q2 out h r hr with ⟨-, hq', -⟩ | ⟨-, s, j, f, rfl, -⟩
    · rw [hq'] at hv; cases hv
    · cases hact
  | false =>
    cases hy : r.y with
    | none =>
      rcases piSingle_row draw t nSims nCum q1 q2 out h r hr with ⟨-, hq', -⟩ | ⟨-, s, j, f, rfl, -⟩
      · rw [hq'] at hv; cases hv
      · simp only [quantRow, List.mem_map, Prod.mk.injEq] at hv hy
        rw [hy] at hv
        obtain ⟨_, _, _, hv⟩ := hv
        cases hv
    | some y =>
      obtain ⟨⟨a, ha, hu, hd⟩, hle⟩ := hlast
      by_cases hdl : r.date ≤ p.last
      · have := C44_past draw t nSims nCum q1 q2 out hreg hov h 0 0 hb r hr ⟨a, ha, hu, by rw [hd]; exact hdl⟩ y hy q v hv
        rw [add_zero] at this
        rw [le_antisymm this.1 this.2]
      · have hmem : r ∈ out.filter fun r => !r.isActuals && decide (p.last < r.date) := by
          rw [List.mem_filter, hact]
          exact ⟨hr, by simpa using not_le.1 hdl⟩
        obtain ⟨j, hj⟩ := List.mem_iff_getElem?.1 hmem
        have := C44_future draw t nSims nCum q1 q2 out hreg hov h p.n p.hn 0 0 hb p.last ⟨⟨a, ha, hu, hd⟩, hle⟩ j r hj y hy q v hv
        rw [mul_zero, add_zero] at this
        rw [le_antisymm this.1 this.2]

/-! ### C46 -/

/-- **C46.** The accumulation period is at least one sample. -/
theorem C46_period (t : FTable K) (rows : List (FRow K)) (nCum : Int) (n : Nat) (h : cumPeriod t rows nCum = .ok n) : 1 ≤ n :=
  cumPeriod_pos t rows nCum n h

/-- **C46.** For every number of future samples, simulations and accumulation period the simulated deviations exist and have the right shape. -/
theorem C46_shapes [IsStrictOrderedRing K] (draw : Nat → Nat → Nat) (res : List K) (nSims c n : Nat) (hres : res ≠ []) (hc : 1 ≤ c) :
    ∃ m, futureSample draw res nSims c n = .ok m ∧ m.length = nSims ∧ ∀ r ∈ m, r.length = n := by
  obtain ⟨m, h1, h2, h3, -⟩ := futureSample_ok draw res nSims c n hres hc
  exact ⟨m, h1, h2, h3⟩

/-- **C46.** Intervals of a non-empty labelled table are computed without exception if dates are numbers or have a detectable frequency, for
every accumulation period and valid percentiles. -/
theorem C46_total [IsStrictOrderedRing K] [FloorRing K] (draw : Nat → Nat → Nat) (t : FTable K) (nSims : Nat) (nCum : Int) (q1 q2 : K)
    (hq : 0 < q1 ∧ q1 < 100 ∧ 0 < q2 ∧ q2 < 100) (hs : t.hasSource = true) (hne : selectRows t ≠ [])
    (hf : t.numDate = true ∨ detectFreq ((selectRows t).map FRow.date) ≠ none) :
    ∃ out, piSingle draw t nSims nCum q1 q2 = .ok out := by
  have hn : ∃ n, cumPeriod t (selectRows t) nCum = .ok n := by
    unfold cumPeriod
    rcases hf with hf | hf
    · simp only [hf, if_true, bind, Except.bind]
      exact ⟨_, rfl⟩
    · obtain ⟨f, hf⟩ := Option.ne_none_iff_exists'.1 hf
      cases t.numDate <;> simp only [hf, if_true, bind, Except.bind] <;> exact ⟨_, rfl⟩
  obtain ⟨n, hn⟩ := hn
  have ha : ∃ acts b, actualsFiltered t (selectRows t) = .ok (acts, b) := by
    unfold actualsFiltered
    split_ifs
    · exact ⟨_, _, rfl⟩
    · exact ⟨_, _, rfl⟩
  obtain ⟨acts, b, ha⟩ := ha
  by_cases hr : residuals (selectRows t) acts b = []
  · unfold piSingle
    simp only [hn, ha, hr, bind, Except.bind]
    cases listMax (acts.map ActualRow.date) <;>
    · dsimp only
      rw [if_pos hs, if_neg hne]
      exact ⟨_, rfl⟩
  · cases hl : listMax (acts.map ActualRow.date) with
    | none =>
      rw [listMax_none, List.map_eq_nil_iff] at hl
      subst hl
      exfalso
      apply hr
      unfold residuals
      rw [List.flatMap_eq_nil_iff]
      intro r _
      cases r.y <;> simp
    | some last =>
      obtain ⟨_, _, _, _, h⟩ := piSingle_parts draw t nSims nCum q1 q2 hq ⟨n, acts, b, last, hn, ha, hl, hr⟩
      exact ⟨_, h⟩

/-- **C46 (limit).** A dated table whose frequency cannot be detected raises `AttributeError`. -/
theorem C46_no_frequency [FloorRing K] (draw : Nat → Nat → Nat) (t : FTable K) (nSims : Nat) (nCum : Int) (q1 q2 : K)
    (hd : t.numDate = false) (hf : detectFreq ((selectRows t).map FRow.date) = none) :
    piSingle draw t nSims nCum q1 q2 = .error .attributeError := by
  unfold piSingle cumPeriod
  simp only [hd, hf, Bool.false_eq_true, if_false, bind, Except.bind]

/-- **C46 (limit).** A table with a zero weight but without source column raises `KeyError`. -/
theorem C46_zero_weight [FloorRing K] (draw : Nat → Nat → Nat) (t : FTable K) (nSims : Nat) (nCum : Int) (q1 q2 : K)
    (hs : t.hasSource = false) (hw : t.hasWeight = true) (r : FRow K) (hr : r ∈ selectRows t) (hz : r.weight = some 0)
    (hf : t.numDate = true ∨ detectFreq ((selectRows t).map FRow.date) ≠ none) :
    piSingle draw t nSims nCum q1 q2 = .error .keyError := by
  have hn : ∃ n, cumPeriod t (selectRows t) nCum = .ok n := by
    unfold cumPeriod
    rcases hf with hf | hf
    · simp only [hf, if_true, bind, Except.bind]
      exact ⟨_, rfl⟩
    · obtain ⟨f, hf⟩ := Option.ne_none_iff_exists'.1 hf
      cases t.numDate <;> simp only [hf, if_true, bind, Except.bind] <;> exact ⟨_, rfl⟩
  obtain ⟨n, hn⟩ := hn
  have hz' : anyZeroWeight t (selectRows t) = true := by
    unfold anyZeroWeight
    rw [hw, Bool.true_and, List.any_eq_true]
    exact ⟨r, hr, decide_eq_true hz⟩
  unfold piSingle actualsFiltered
  simp only [hn, hz', hs, Bool.false_eq_true, if_true, if_false, bind, Except.bind]


/-! ### Examples and limits -/

/-- Three actual samples (the second excluded by its weight), forecasts for five dates. -/
def exampleForecast : FTable ℚ where
  numDate := true
  hasSource := true
  hasBest := true
  hasWeight := true
  rows := [⟨0, some "a", "actuals", true, false, some 1, some 1⟩, ⟨1, some "a", "actuals", true, false, some 9, some 0⟩,
    ⟨2, some "a", "actuals", true, false, some 5, some 1⟩,
    ⟨0, some "a", "linear", false, true, some 2, none⟩, ⟨1, some "a", "linear", false, true, some 3, none⟩,
    ⟨2, some "a", "linear", false, true, some 4, none⟩, ⟨3, some "a", "linear", false, true, some 5, none⟩,
    ⟨4, some "a", "linear", false, true, some 6, none⟩, ⟨0, some "a", "constant", false, false, some 4, none⟩]

example : Overlap exampleForecast :=
  ⟨⟨0, some "a", "linear", false, true, some 2, none⟩, by decide +kernel, ⟨0, some "a", "actuals", true, false, some 1, some 1⟩,
    by decide +kernel, by decide +kernel, by decide +kernel, by decide +kernel, by decide +kernel, by decide +kernel⟩

example : Spec.Regular exampleForecast := by
  refine ⟨?_, ?_, ?_, ?_⟩
  · decide +kernel
  · decide +kernel
  · decide +kernel
  · intro _ r hr ha
    have : r = ⟨0, some "a", "actuals", true, false, some 1, some 1⟩ ∨ r = ⟨1, some "a", "actuals", true, false, some 9, some 0⟩ ∨
        r = ⟨2, some "a", "actuals", true, false, some 5, some 1⟩ := by
      revert r
      decide +kernel
    rcases this with rfl | rfl | rfl
    · exact ⟨1, rfl, by norm_num⟩
    · exact ⟨0, rfl, le_rfl⟩
    · exact ⟨1, rfl, by norm_num⟩

/-- The residuals are −1 and 1: the excluded sample does not count. -/
example : residualsOf exampleForecast = [-1, 1] := by decide +kernel

/-- A run with four simulations: the rows and two of the intervals. -/
example : ((getPi (fun _ c i => c + i) exampleForecast 4 (some 1) 5 20 .D).toOption.map fun out =>
    (out.map fun r => (r.date, r.isActuals)) ) =
    some [(0, true), (1, true), (2, true), (0, false), (1, false), (2, false), (3, false), (4, false)] := by decide +kernel

example : ((getPi (fun _ c i => c + i / 3) exampleForecast 4 (some 1) 5 20 .D).toOption.map fun out =>
    (out[3]?.map PRow.q, out[7]?.map PRow.q)) =
    some (some [(5, some 1), (95, some 3), (20, some 1), (80, some 3)],
      some [(5, some 5), (95, some (67/10)), (20, some 5), (80, some (29/5))]) := by decide +kernel

/-- **C45 (limit).** Without a common date of forecast and data (here: a forecast of future dates only) all forecast rows are dropped. -/
theorem C45_counterexample : ∃ (t : FTable ℚ) (out : List (PRow ℚ)), (∃ a ∈ t.rows, a.isActuals = true ∧ a.y ≠ none) ∧
    (∃ f ∈ t.rows, IsForecast t f = true ∧ f.y ≠ none) ∧
    (∀ draw nSims n, piSingle draw t nSims n 5 20 = .ok out) ∧ ∀ r ∈ out, r.isActuals = true := by
  refine ⟨⟨true, true, true, false, [⟨0, some "a", "actuals", true, false, some 1, none⟩,
    ⟨1, some "a", "linear", false, true, some 2, none⟩]⟩, [⟨0, some "a", "actuals", true, some 1, []⟩], by decide +kernel,
    by decide +kernel, ?_, by decide +kernel⟩
  intro draw nSims n
  unfold piSingle cumPeriod
  simp only [if_true, bind, Except.bind]
  rfl

/-- The hypotheses of `C46_no_frequency` and `C46_zero_weight` occur. -/
example : piSingle (fun _ _ => 0) (⟨false, true, false, false, [⟨0, some "a", "actuals", true, false, some (1 : ℚ), none⟩]⟩ : FTable ℚ)
    100 365 5 20 = .error .attributeError := by decide +kernel
example : piSingle (fun _ _ => 0) (⟨true, false, false, true, [⟨0, none, "actuals", true, false, some (1 : ℚ), some 0⟩]⟩ : FTable ℚ)
    100 365 5 20 = .error .keyError := by decide +kernel

end Anticipy
