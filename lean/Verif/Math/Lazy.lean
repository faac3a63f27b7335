import Mathlib.Data.Set.Card.Arithmetic
import Mathlib.Algebra.BigOperators.Fin
import Mathlib.Data.Fintype.BigOperators

/-!
# Random functions, value by value

A procedure that asks for values of a function sees the same, whether the function is chosen at random in the beginning, or each value is chosen when
it is asked for the first time.
-/

namespace Ed448

/-- A procedure that asks for values and ends with yes or no. -/
inductive Tree (α β : Type)
  | done (p : Prop)
  | ask (x : α) (c : β → Tree α β)

namespace Tree

variable {α β : Type} [BEq α]

/-- The result for the function `f`. -/
def run (f : α → β) : Tree α β → Prop
  | done p => p
  | ask x c => (c (f x)).run f

/-- The result if new values are taken from a tape; each question takes an entry of the tape. -/
def lazy : Tree α β → List (α × β) → List β → Prop
  | done p, _, _ => p
  | ask _ _, _, [] => False
  | ask x c, t, o :: tape => (c ((t.lookup x).getD o)).lazy (t ++ [(x, (t.lookup x).getD o)]) tape

/-- Every path asks `n` questions, and all of them are in `D`. -/
def Asks (D : Set α) : Tree α β → ℕ → Prop
  | done _, n => n = 0
  | ask x c, n => x ∈ D ∧ ∃ m, n = m + 1 ∧ ∀ o, (c o).Asks D m

end Tree

section

variable {α β : Type}

open Finset Classical in
theorem ncard_prod_sum {α β : Type} [Fintype α] [Fintype β] (P : α → β → Prop) : Set.ncard {x : α × β | P x.1 x.2} = ∑ a, Set.ncard {b | P a b} := by
  have e : ∀ {γ : Type} [Fintype γ] (Q : γ → Prop), Set.ncard {x | Q x} = (univ.filter Q).card := by
    intro γ _ Q
    rw [← Set.ncard_coe_finset]
    congr 1
    ext x
    simp
  rw [e]
  simp only [e]
  rw [← card_sigma]
  refine card_bij' (fun x _ => ⟨x.1, x.2⟩) (fun y _ => (y.1, y.2)) ?_ ?_ ?_ ?_ <;> simp

theorem ncard_cons [Fintype β] {n : ℕ} (P : β → List β → Prop) :
    Set.ncard {h : Fin (n + 1) → β | P (h 0) (List.ofFn fun i : Fin n => h i.succ)} = ∑ o, Set.ncard {h : Fin n → β | P o (List.ofFn h)} := by
  classical
  rw [← ncard_prod_sum (fun (o : β) (h : Fin n → β) => P o (List.ofFn h))]
  refine Set.ncard_congr (fun h _ => (h 0, fun i => h i.succ)) ?_ ?_ ?_
  · exact fun h hh => hh
  · intro h h' _ _ e
    rw [Prod.mk.injEq] at e
    funext i
    refine Fin.cases e.1 (fun i => congrFun e.2 i) i
  · rintro ⟨o, h⟩ hh
    refine ⟨Fin.cons o h, ?_, ?_⟩
    · simpa using hh
    · simp

variable [BEq α] [LawfulBEq α]

/-- The function has the values of the table. -/
def Agree {D : Set α} (t : List (α × β)) (f : D → β) : Prop := ∀ x o, t.lookup x.1 = some o → f x = o

variable {D : Set α} [Finite D] [Fintype β]

omit [BEq α] [LawfulBEq α] in
theorem ncard_value (x : D) (P : (D → β) → Prop) : Set.ncard {f : D → β | P f} = ∑ o, Set.ncard {f : D → β | f x = o ∧ P f} := by
  classical
  have _ : Fintype D := Fintype.ofFinite D
  have e : Set.ncard {f : D → β | P f} = Set.ncard {y : β × (D → β) | y.2 x = y.1 ∧ P y.2} := by
    refine Set.ncard_congr (fun f _ => (f x, f)) (fun f hf => ⟨rfl, hf⟩) ?_ ?_
    · intro f f' _ _ e
      exact congrArg Prod.snd e
    · rintro ⟨o, f⟩ ⟨h1, h2⟩
      exact ⟨f, h2, by rw [show f x = o from h1]⟩
  rw [e, ncard_prod_sum (fun (o : β) (f : D → β) => f x = o ∧ P f)]

omit [Finite D] [Fintype β] in
theorem agree_new {t : List (α × β)} {x : D} (hx : t.lookup x.1 = none) (o : β) (f : D → β) : Agree (t ++ [(x.1, o)]) f ↔ f x = o ∧ Agree t f := by
  constructor
  · intro h
    refine ⟨h x o (by rw [List.lookup_append, hx]; simp), fun y o' hy => h y o' (by rw [List.lookup_append, hy]; rfl)⟩
  · rintro ⟨h1, h2⟩ y o' hy
    rw [List.lookup_append] at hy
    cases hl : t.lookup y.1 with
    | some v =>
      rw [hl] at hy
      exact h2 y o' (hl.trans hy)
    | none =>
      rw [hl, Option.none_or, List.lookup_cons] at hy
      by_cases e : y.1 = x.1
      · rw [e, beq_self_eq_true] at hy
        rw [Subtype.ext e, h1]
        exact Option.some.inj hy
      · rw [beq_eq_false_iff_ne.mpr e] at hy
        simp at hy

omit [Finite D] [Fintype β] in
theorem agree_old {t : List (α × β)} {x : α} {v : β} (hx : t.lookup x = some v) (f : D → β) : Agree (t ++ [(x, v)]) f ↔ Agree t f := by
  constructor
  · exact fun h y o hy => h y o (by rw [List.lookup_append, hy]; rfl)
  · intro h y o hy
    rw [List.lookup_append] at hy
    cases hl : t.lookup y.1 with
    | some u => rw [hl] at hy; exact h y o (hl.trans hy)
    | none =>
      rw [hl, Option.none_or, List.lookup_cons] at hy
      by_cases e : y.1 = x
      · rw [e, hx] at hl; cases hl
      · rw [beq_eq_false_iff_ne.mpr e] at hy
        simp at hy

omit [Finite D] [Fintype β] [LawfulBEq α] in
theorem agree_card {t : List (α × β)} {x : D} (hx : t.lookup x.1 = none) (o o' : β) :
    Set.ncard {f : D → β | f x = o ∧ Agree t f} = Set.ncard {f : D → β | f x = o' ∧ Agree t f} := by
  classical
  have aux : ∀ o' f, Agree t f → Agree t (Function.update f x o') := by
    intro o' f hf y v hy
    rw [Function.update_of_ne]
    · exact hf y v hy
    · rintro rfl
      rw [hx] at hy
      cases hy
  refine Set.ncard_congr (fun f _ => Function.update f x o') ?_ ?_ ?_
  · rintro f ⟨_, hf⟩
    exact ⟨Function.update_self .., aux o' f hf⟩
  · rintro f f' ⟨h1, _⟩ ⟨h2, _⟩ e
    have := congrArg (fun g => Function.update g x o) e
    simp only [Function.update_idem] at this
    rwa [← h1, Function.update_eq_self, h1, ← h2, Function.update_eq_self] at this
  · rintro f ⟨h1, h2⟩
    refine ⟨Function.update f x o, ⟨Function.update_self .., aux o f h2⟩, ?_⟩
    rw [Function.update_idem, ← h1, Function.update_eq_self]

/-- The values of `f` at strings outside `D` do not matter. -/
theorem lazy_count (ext : (D → β) → α → β) (hext : ∀ f (x : D), ext f x = f x) : ∀ (T : Tree α β) (n : ℕ) (t : List (α × β)), T.Asks D n →
    Set.ncard {f : D → β | Agree t f ∧ T.run (ext f)} * Fintype.card β ^ n =
      Set.ncard {h : Fin n → β | T.lazy t (List.ofFn h)} * Set.ncard {f : D → β | Agree t f}
  | .done p, n, t, ha => by
    obtain rfl : n = 0 := ha
    by_cases hp : p
    · simp [Tree.run, Tree.lazy, hp]
    · simp [Tree.run, Tree.lazy, hp]
  | .ask x c, n, t, ha => by
    classical
    obtain ⟨hx, m, rfl, hc⟩ := ha
    have ih := fun o t => lazy_count ext hext (c o) m t (hc o)
    have hrun : ∀ f, (Tree.ask x c).run (ext f) = (c (f ⟨x, hx⟩)).run (ext f) := by
      intro f
      rw [Tree.run, hext f ⟨x, hx⟩]
    have hlazy := ncard_cons (n := m) (fun (o : β) tape => (c ((t.lookup x).getD o)).lazy (t ++ [(x, (t.lookup x).getD o)]) tape)
    have hl' : {h : Fin (m + 1) → β | (Tree.ask x c).lazy t (List.ofFn h)} =
        {h : Fin (m + 1) → β | (c ((t.lookup x).getD (h 0))).lazy (t ++ [(x, (t.lookup x).getD (h 0))]) (List.ofFn fun i : Fin m => h i.succ)} := by
      ext h
      rw [Set.mem_ofPred_eq, Set.mem_ofPred_eq, List.ofFn_succ, Tree.lazy]
    rw [hl', hlazy]
    simp only [hrun]
    cases hlk : t.lookup x with
    | some v =>
      simp only [Option.getD_some]
      have h1 : {f : D → β | Agree t f ∧ (c (f ⟨x, hx⟩)).run (ext f)} = {f : D → β | Agree (t ++ [(x, v)]) f ∧ (c v).run (ext f)} := by
        ext f
        rw [Set.mem_ofPred_eq, Set.mem_ofPred_eq, agree_old hlk]
        constructor
        · rintro ⟨h1, h2⟩
          rw [h1 ⟨x, hx⟩ v hlk] at h2
          exact ⟨h1, h2⟩
        · rintro ⟨h1, h2⟩
          rw [← h1 ⟨x, hx⟩ v hlk] at h2
          exact ⟨h1, h2⟩
      have h2 : {f : D → β | Agree t f} = {f : D → β | Agree (t ++ [(x, v)]) f} := by
        ext f
        exact (agree_old hlk f).symm
      rw [h1, h2, pow_succ, ← mul_assoc, ih v (t ++ [(x, v)]), Finset.sum_const, Finset.card_univ, smul_eq_mul]
      ring
    | none =>
      simp only [Option.getD_none]
      rw [ncard_value ⟨x, hx⟩ (fun f => Agree t f ∧ (c (f ⟨x, hx⟩)).run (ext f)), ncard_value ⟨x, hx⟩ (fun f : D → β => Agree t f), pow_succ, Finset.sum_mul,
        Finset.sum_mul]
      refine Finset.sum_congr rfl fun o _ => ?_
      have h1 : {f : D → β | f ⟨x, hx⟩ = o ∧ Agree t f ∧ (c (f ⟨x, hx⟩)).run (ext f)} = {f : D → β | Agree (t ++ [(x, o)]) f ∧ (c o).run (ext f)} := by
        ext f
        rw [Set.mem_ofPred_eq, Set.mem_ofPred_eq, agree_new (x := ⟨x, hx⟩) hlk]
        constructor
        · rintro ⟨e, h1, h2⟩
          rw [e] at h2
          exact ⟨⟨e, h1⟩, h2⟩
        · rintro ⟨⟨e, h1⟩, h2⟩
          refine ⟨e, h1, ?_⟩
          rwa [e]
      have h2 : {f : D → β | Agree (t ++ [(x, o)]) f} = {f : D → β | f ⟨x, hx⟩ = o ∧ Agree t f} := by
        ext f
        exact agree_new (x := ⟨x, hx⟩) hlk o f
      have h3 : ∑ o', Set.ncard {f : D → β | f ⟨x, hx⟩ = o' ∧ Agree t f} = Fintype.card β * Set.ncard {f : D → β | f ⟨x, hx⟩ = o ∧ Agree t f} := by
        rw [Finset.sum_congr rfl fun o' _ => agree_card (x := ⟨x, hx⟩) hlk o' o, Finset.sum_const, Finset.card_univ, smul_eq_mul]
      rw [h3, h1, ← mul_assoc, ih o (t ++ [(x, o)]), h2]
      ring

end

end Ed448
