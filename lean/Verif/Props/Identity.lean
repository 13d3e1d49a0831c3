import Verif.Spec.Identity
import Verif.Props.Candidates
import Verif.Model.Fix

/-
C86: models are identified by their names.
-/
namespace Anticipy
open Spec
variable {K : Type} [Field K]

/-- **C86, comparisons.** `==` is an equivalence relation, `!=` its negation, equal models have equal hashes, and of two models exactly one of `<`, `==`, `>` holds. -/
theorem C86_comparisons (h : String → Int) (a b c : ForecastModel K) :
    a.eqv a = true ∧ (a.eqv b = b.eqv a) ∧ (a.eqv b = true → b.eqv c = true → a.eqv c = true) ∧ (a.nev b = true ↔ ¬ a.eqv b = true) ∧
    (a.eqv b = true → a.hashWith h = b.hashWith h) ∧ (a.lt b = true → b.lt c = true → a.lt c = true) ∧
    (a.lt b = true → a.eqv b = false ∧ b.lt a = false) ∧ (a.lt b = true ∨ a.eqv b = true ∨ b.lt a = true) := by
  unfold ForecastModel.nev ForecastModel.hashWith ForecastModel.eqv ForecastModel.lt
  simp only [decide_eq_true_eq, decide_eq_false_iff_not, Bool.not_eq_true', decide_eq_decide]
  refine ⟨trivial, eq_comm, Eq.trans, trivial, fun e => by rw [e], lt_trans, fun l => ⟨ne_of_lt l, lt_asymm l⟩, lt_trichotomy _ _⟩

/-- **C86, composition.** Compositions of equal models are equal. -/
theorem C86_congruence (a a' b b' : ForecastModel K) (ha : a.eqv a' = true) (hb : b.eqv b' = true) :
    (a.add b).eqv (a'.add b') = true ∧ (a.mul b).eqv (a'.mul b') = true := by
  have ha : a.name = a'.name := of_decide_eq_true ha
  have hb : b.name = b'.name := of_decide_eq_true hb
  have key : ∀ mult, (compose mult a b).name = (compose mult a' b').name := by
    intro mult
    unfold compose
    rw [ha, hb]
    by_cases h1 : a'.name = "null"
    · rw [if_pos h1, if_pos h1, hb]
    · by_cases h2 : b'.name = "null"
      · rw [if_neg h1, if_neg h1, if_pos h2, if_pos h2, ha]
      · rw [if_neg h1, if_neg h1, if_neg h2, if_neg h2]
  exact ⟨decide_eq_true (key false), decide_eq_true (key true)⟩

/-- Compositions without null models. -/
inductive Tree (K : Type) where
  | leaf (a : ForecastModel K)
  | node (mult : Bool) (l r : Tree K)

/-- The model of a tree. -/
def Tree.model : Tree K → ForecastModel K
  | leaf a => a
  | node mult l r => compose mult l.model r.model

/-- All leaves are parts. -/
def Tree.Over (A : ForecastModel K → Prop) : Tree K → Prop
  | leaf a => A a
  | node _ l r => l.Over A ∧ r.Over A

/-- The name of the model of a tree, as characters. -/
def Tree.chars : Tree K → List Char
  | leaf a => a.name.toList
  | node mult l r => '(' :: (l.chars ++ (if mult then '*' else '+') :: (r.chars ++ [')']))

theorem composedName_toList (op a b : String) : (composedName op a b).toList = '(' :: (a.toList ++ (op.toList ++ (b.toList ++ [')']))) := by
  unfold composedName
  simp [String.toList_append]

theorem composedName_ne_null (op a b : String) : composedName op a b ≠ "null" := by
  intro h
  have := congrArg String.toList h
  rw [composedName_toList] at this
  have h2 : "null".toList = ['n', 'u', 'l', 'l'] := by decide
  rw [h2] at this
  simp at this

theorem Tree.name_spec (A : ForecastModel K → Prop) (hA : Parts A) (t : Tree K) (ht : t.Over A) : t.model.name ≠ "null" ∧ t.model.name.toList = t.chars := by
  induction t with
  | leaf a => exact ⟨(hA.plain a ht).2, rfl⟩
  | node mult l r ihl ihr =>
    obtain ⟨n1, c1⟩ := ihl ht.1
    obtain ⟨n2, c2⟩ := ihr ht.2
    have hm : (Tree.node mult l r).model.name = composedName (if mult then "*" else "+") l.model.name r.model.name := by
      simp only [Tree.model]
      unfold compose
      rw [if_neg n1, if_neg n2]
    rw [hm]
    refine ⟨composedName_ne_null _ _ _, ?_⟩
    rw [composedName_toList, c1, c2, Tree.chars]
    cases mult <;> rfl

/-- Every model that is built from parts is null or has a tree without null models. -/
theorem built_tree (A : ForecastModel K → Prop) (hA : Parts A) (m : ForecastModel K) (h : BuiltFrom A m) : m = modelNull ∨ ∃ t : Tree K, t.Over A ∧ t.model = m := by
  have step : ∀ mult (a b : ForecastModel K), (a = modelNull ∨ ∃ t : Tree K, t.Over A ∧ t.model = a) → (b = modelNull ∨ ∃ t : Tree K, t.Over A ∧ t.model = b) →
      compose mult a b = modelNull ∨ ∃ t : Tree K, t.Over A ∧ t.model = compose mult a b := by
    intro mult a b ha hb
    rcases ha with rfl | ⟨t, ht, rfl⟩
    · have : compose mult modelNull b = b := by
        unfold compose
        exact if_pos rfl
      rw [this]
      exact hb
    · rcases hb with rfl | ⟨t', ht', rfl⟩
      · have : compose mult t.model modelNull = t.model := by
          unfold compose
          rw [if_neg (Tree.name_spec A hA t ht).1]
          exact if_pos rfl
        rw [this]
        exact .inr ⟨t, ht, rfl⟩
      · exact .inr ⟨.node mult t t', ⟨ht, ht'⟩, rfl⟩
  induction h with
  | part a ha => exact .inr ⟨.leaf a, ha, rfl⟩
  | null => exact .inl rfl
  | plus a b _ _ iha ihb => exact step false a b iha ihb
  | times a b _ _ iha ihb => exact step true a b iha ihb

/-- What may follow the name of a part: nothing, an operator or a closing parenthesis. -/
def Follows (r : List Char) : Prop := r = [] ∨ ∃ c r', r = c :: r' ∧ (c = '+' ∨ c = '*' ∨ c = ')')

theorem plain_split (l l' r r' : List Char) (hl : ∀ c ∈ l, c ≠ '(' ∧ c ≠ ')' ∧ c ≠ '+' ∧ c ≠ '*') (hl' : ∀ c ∈ l', c ≠ '(' ∧ c ≠ ')' ∧ c ≠ '+' ∧ c ≠ '*')
    (hr : Follows r) (hr' : Follows r') (h : l ++ r = l' ++ r') : l = l' ∧ r = r' := by
  induction l generalizing l' with
  | nil =>
    cases l' with
    | nil => exact ⟨rfl, h⟩
    | cons c l' =>
      obtain ⟨-, h1, h2, h3⟩ := hl' c (by simp)
      rcases hr with rfl | ⟨d, q, rfl, hd⟩
      · simp at h
      · simp only [List.nil_append, List.cons_append, List.cons.injEq] at h
        rcases hd with rfl | rfl | rfl
        · exact absurd h.1.symm h2
        · exact absurd h.1.symm h3
        · exact absurd h.1.symm h1
  | cons c l ih =>
    cases l' with
    | nil =>
      obtain ⟨-, h1, h2, h3⟩ := hl c (by simp)
      rcases hr' with rfl | ⟨d, q, rfl, hd⟩
      · simp at h
      · simp only [List.nil_append, List.cons_append, List.cons.injEq] at h
        rcases hd with rfl | rfl | rfl
        · exact absurd h.1 h2
        · exact absurd h.1 h3
        · exact absurd h.1 h1
    | cons d l' =>
      simp only [List.cons_append, List.cons.injEq] at h
      obtain ⟨e1, e2⟩ := ih l' (fun c hc => hl c (by simp [hc])) (fun c hc => hl' c (by simp [hc])) h.2
      exact ⟨by rw [h.1, e1], e2⟩

theorem plain_not_paren (l r q : List Char) (hl : ∀ c ∈ l, c ≠ '(' ∧ c ≠ ')' ∧ c ≠ '+' ∧ c ≠ '*') (hr : Follows r) : l ++ r ≠ '(' :: q := by
  intro h
  cases l with
  | nil =>
    rcases hr with rfl | ⟨d, q, rfl, hd⟩
    · cases h
    · simp only [List.nil_append, List.cons.injEq] at h
      rcases hd with rfl | rfl | rfl <;> exact absurd h.1 (by decide)
  | cons c l =>
    simp only [List.cons_append, List.cons.injEq] at h
    exact (hl c (by simp)).1 h.1

/-- A name can be read in one way only. -/
theorem chars_unique (A : ForecastModel K → Prop) (hA : Parts A) (t t' : Tree K) (ht : t.Over A) (ht' : t'.Over A) (r r' : List Char) (hr : Follows r) (hr' : Follows r')
    (h : t.chars ++ r = t'.chars ++ r') : t.model = t'.model ∧ r = r' := by
  induction t generalizing t' r r' with
  | leaf a =>
    cases t' with
    | leaf b =>
      obtain ⟨h1, h2⟩ := plain_split _ _ _ _ (hA.plain a ht).1 (hA.plain b ht').1 hr hr' h
      exact ⟨hA.distinct a b ht ht' (String.toList_inj.1 h1), h2⟩
    | node mult l q => exact absurd h (plain_not_paren _ _ _ (hA.plain a ht).1 hr)
  | node mult l q ihl ihq =>
    cases t' with
    | leaf b => exact absurd h.symm (plain_not_paren _ _ _ (hA.plain b ht').1 hr')
    | node mult' l' q' =>
      simp only [Tree.chars, List.cons_append, List.append_assoc, List.cons.injEq, true_and] at h
      have f1 : ∀ (b : Bool) (s : List Char), Follows ((if b then '*' else '+') :: s) := by
        intro b s
        exact .inr ⟨_, _, rfl, by cases b <;> simp⟩
      have f2 : ∀ s : List Char, Follows (')' :: s) := fun s => .inr ⟨_, _, rfl, .inr (.inr rfl)⟩
      obtain ⟨e1, e2⟩ := ihl l' ht.1 ht'.1 _ _ (f1 _ _) (f1 _ _) h
      simp only [List.cons.injEq] at e2
      obtain ⟨e3, e4⟩ := ihq q' ht.2 ht'.2 _ _ (f2 _) (f2 _) e2.2
      have em : mult = mult' := by
        cases mult <;> cases mult' <;> first | rfl | exact absurd e2.1 (by decide)
      simp only [List.nil_append, List.cons.injEq, true_and] at e4
      exact ⟨by simp only [Tree.model]; rw [e1, e3, em], e4⟩

/-- **C86.** Models that are built with `+` and `*` from parts with distinct plain names are the same if they compare as equal. -/
theorem C86_identity_partial (A : ForecastModel K → Prop) (hA : Parts A) (m m' : ForecastModel K) (hm : BuiltFrom A m) (hm' : BuiltFrom A m') (h : m.eqv m' = true) : m = m' := by
  have hn : m.name = m'.name := of_decide_eq_true h
  rcases built_tree A hA m hm with rfl | ⟨t, ht, rfl⟩
  · rcases built_tree A hA m' hm' with rfl | ⟨t', ht', rfl⟩
    · rfl
    · exact absurd hn.symm (Tree.name_spec A hA t' ht').1
  · rcases built_tree A hA m' hm' with rfl | ⟨t', ht', rfl⟩
    · exact absurd hn (Tree.name_spec A hA t ht).1
    · refine (chars_unique A hA t t' ht ht' [] [] (.inl rfl) (.inl rfl) ?_).1
      rw [← (Tree.name_spec A hA t ht).2, ← (Tree.name_spec A hA t' ht').2, hn]

/-- **C86, candidates.** No combination is lost when candidate lists of such models are combined. -/
theorem C86_candidates_partial (A : ForecastModel K → Prop) (hA : Parts A) (t s : List (ForecastModel K)) (ht : t ≠ []) (hs : s ≠ []) (hta : ∀ m ∈ t, BuiltFrom A m)
    (hsa : ∀ m ∈ s, BuiltFrom A m) (mode : AddMult) (m : ForecastModel K) : m ∈ getListModel (some t) (some s) mode ↔ Combination mode t s m := by
  have hb : ∀ m, Combination mode t s m → BuiltFrom A m := by
    rintro m ⟨a, ha, b, hb, ⟨-, rfl⟩ | ⟨-, rfl⟩⟩
    · exact .plus _ _ (hta a ha) (hsa b hb)
    · exact .times _ _ (hta a ha) (hsa b hb)
  exact C41_exact_partial t s ht hs mode (fun m m' h h' e => C86_identity_partial A hA m m' (hb m h) (hb m' h') (decide_eq_true e)) m

/-- The straight line, the ramp and the constant are parts with distinct plain names. -/
def demoParts (m : ForecastModel ℚ) : Prop := m = modelLinear ∨ m = modelRamp ∨ m = modelConstant

theorem demoParts_spec : Parts demoParts := by
  have plain : ∀ m : ForecastModel ℚ, (m.name.toList.all fun c => c != '(' && c != ')' && c != '+' && c != '*') = true → PlainName m.name := by
    intro m h c hc
    have := List.all_eq_true.1 h c hc
    simpa [and_assoc] using this
  constructor
  · rintro a (rfl | rfl | rfl)
    · exact ⟨plain _ (by decide), by decide⟩
    · exact ⟨plain _ (by decide), by decide⟩
    · exact ⟨plain _ (by decide), by decide⟩
  · rintro a b (rfl | rfl | rfl) (rfl | rfl | rfl) h <;> first | rfl | exact absurd h (by decide)

example : (modelLinear.add ((modelRamp : ForecastModel ℚ).mul modelConstant)).eqv ((modelLinear.add modelRamp).mul modelConstant) = false := by decide

example (m m' : ForecastModel ℚ) (hm : m ∈ [modelLinear, modelLinear.add modelRamp]) (hm' : m' ∈ [modelNull, modelConstant]) :
    m.mul m' ∈ getListModel (some [modelLinear, modelLinear.add modelRamp]) (some [modelNull, modelConstant]) .mult := by
  refine (C86_candidates_partial demoParts demoParts_spec _ _ (by simp) (by simp) ?_ ?_ .mult _).2 ⟨m, hm, m', hm', .inr ⟨by decide, rfl⟩⟩
  · intro q hq
    rcases List.mem_cons.1 hq with rfl | hq
    · exact .part _ (.inl rfl)
    · rw [List.mem_singleton] at hq
      subst hq
      exact .plus _ _ (.part _ (.inl rfl)) (.part _ (.inr (.inl rfl)))
  · intro q hq
    rcases List.mem_cons.1 hq with rfl | hq
    · exact .null
    · rw [List.mem_singleton] at hq
      subst hq
      exact .part _ (.inr (.inr rfl))

/-- **C86 refuted for models with fixed parameters** from `get_fixed_model`: two constants with the values 1 and 2 compare as equal, and if both are given as trends, the
second is not a candidate. -/
theorem C86_counterexample : ∃ m m' : ForecastModel ℚ, getFixedModel modelConstant [1] = .ok m ∧ getFixedModel modelConstant [2] = .ok m' ∧ m.eqv m' = true ∧
    (∃ ctx, m.fModel ctx none false ≠ m'.fModel ctx none false) ∧ (getListModel (some [m, m']) none .add).length = 1 := by
  refine ⟨_, _, rfl, rfl, by decide, ⟨{ ax := [0], adate := none }, ?_⟩, by decide +kernel⟩
  intro h
  have : (([some 1] : List (Option ℚ)) = [some 2]) := by
    injection h with h
    injection h
  simp at this

/-- **C86 refuted for names with operators**: a model of one's own that is called `(linear+ramp)` is equal to the sum of these models. -/
theorem C86_counterexample_name : ∃ m : ForecastModel ℚ, m.nParams = 0 ∧ m.eqv (modelLinear.add modelRamp) = true ∧ (modelLinear.add (modelRamp : ForecastModel ℚ)).nParams = 4 :=
  ⟨mkModel "(linear+ramp)" 0 (fun _ _ _ => .ok (.scalar none)), rfl, by decide, rfl⟩

end Anticipy
