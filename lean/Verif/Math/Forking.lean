import Mathlib.Algebra.Order.Chebyshev
import Mathlib.Data.Fintype.BigOperators
import Mathlib.Data.Fintype.Pi
import Mathlib.Logic.Equiv.Basic
import Mathlib.Tactic.Ring
import Mathlib.Tactic.Linarith

/-!
# The forking lemma, by counting

Tapes of `n` answers from a finite set; `fork h h' j` has the answers of `h` before position `j` and those of `h'` from there on.
-/

namespace Ed448

open Finset

variable {H : Type} {n : ℕ}

/-- The answers of `h` before `j`, those of `h'` from `j` on. -/
def fork (h h' : Fin n → H) (j : Fin n) : Fin n → H := fun i => if i < j then h i else h' i

theorem fork_lt (h h' : Fin n → H) {j i : Fin n} (hi : i < j) : fork h h' j i = h i := if_pos hi

theorem fork_ge (h h' : Fin n → H) {j i : Fin n} (hi : j ≤ i) : fork h h' j i = h' i := if_neg (not_lt.mpr hi)

open Classical in
/-- Among all pairs of tapes at least the square of the size of `S` are such that the first and the fork are in `S`. -/
theorem fork_pairs [Fintype H] (S : Finset (Fin n → H)) (j : Fin n) :
    S.card ^ 2 ≤ (univ.filter fun x : (Fin n → H) × (Fin n → H) => x.1 ∈ S ∧ fork x.1 x.2 j ∈ S).card := by
  let P := {i : Fin n // i < j} → H
  let T := {i : Fin n // ¬ i < j} → H
  let e : (Fin n → H) ≃ P × T := Equiv.piEquivPiSubtypeProd (fun i => i < j) (fun _ => H)
  let f : P → ℕ := fun u => (univ.filter fun v : T => e.symm (u, v) ∈ S).card
  have hS : S.card = ∑ u, f u := by
    rw [← Finset.card_sigma]
    refine Finset.card_bij' (fun h _ => ⟨(e h).1, (e h).2⟩) (fun x _ => e.symm (x.1, x.2)) ?_ ?_ ?_ ?_
    · intro h hh
      simpa using hh
    · intro x hx
      simpa using hx
    · intro h hh
      simp
    · intro x hx
      simp
  have hfork : ∀ h h', e (fork h h' j) = ((e h).1, (e h').2) := by
    intro h h'
    refine Prod.ext (funext fun i => ?_) (funext fun i => ?_)
    · exact if_pos i.2
    · exact if_neg i.2
  have hpairs : (univ.filter fun x : (Fin n → H) × (Fin n → H) => x.1 ∈ S ∧ fork x.1 x.2 j ∈ S).card = Fintype.card P * ∑ u, f u ^ 2 := by
    have h1 : (univ.filter fun x : (Fin n → H) × (Fin n → H) => x.1 ∈ S ∧ fork x.1 x.2 j ∈ S).card =
        ((univ : Finset P) ×ˢ (univ : Finset P).sigma fun u => (univ.filter fun v : T => e.symm (u, v) ∈ S) ×ˢ (univ.filter fun v : T => e.symm (u, v) ∈ S)).card := by
      refine Finset.card_bij' (fun x _ => ((e x.2).1, ⟨(e x.1).1, (e x.1).2, (e x.2).2⟩))
        (fun y _ => (e.symm (y.2.1, y.2.2.1), e.symm (y.1, y.2.2.2))) ?_ ?_ ?_ ?_
      · rintro ⟨h, h'⟩ hx
        simp only [mem_filter, mem_univ, true_and] at hx
        have h2 := hfork h h'
        rw [← Equiv.eq_symm_apply] at h2
        simp only [mem_product, mem_univ, true_and, mem_sigma, mem_filter]
        exact ⟨by simpa using hx.1, h2 ▸ hx.2⟩
      · rintro ⟨w, u, v, v'⟩ hx
        simp only [mem_product, mem_univ, true_and, mem_sigma, mem_filter] at hx ⊢
        refine ⟨hx.1, ?_⟩
        have h2 := hfork (e.symm (u, v)) (e.symm (w, v'))
        rw [← Equiv.eq_symm_apply] at h2
        rw [h2]
        simpa using hx.2
      · rintro ⟨h, h'⟩ hx
        simp
      · rintro ⟨w, u, v, v'⟩ hx
        simp
    rw [h1, card_product, card_sigma, card_univ]
    congr 1
    refine sum_congr rfl fun u _ => ?_
    rw [card_product, sq]
  rw [hS, hpairs]
  have := sq_sum_le_card_mul_sum_sq (s := (univ : Finset P)) (f := f)
  rwa [card_univ] at this

open Classical in
/-- The forking lemma: `J` names a position for each successful tape. -/
theorem forking [Fintype H] (J : (Fin n → H) → Option (Fin n)) :
    (univ.filter fun h => J h ≠ none).card ^ 2 ≤
      n * (univ.filter fun x : (Fin n → H) × (Fin n → H) => ∃ j, J x.1 = some j ∧ J (fork x.1 x.2 j) = some j).card := by
  have h1 : (univ.filter fun h => J h ≠ none).card = ∑ j, (univ.filter fun h => J h = some j).card := by
    rw [← card_biUnion]
    · congr 1
      ext h
      simp [Option.ne_none_iff_exists']
    · intro a _ b _ hab
      rw [Function.onFun, disjoint_left]
      intro h ha hb
      simp only [mem_filter, mem_univ, true_and] at ha hb
      exact hab (Option.some.inj (ha.symm.trans hb))
  have h2 : (univ.filter fun x : (Fin n → H) × (Fin n → H) => ∃ j, J x.1 = some j ∧ J (fork x.1 x.2 j) = some j).card =
      ∑ j, (univ.filter fun x : (Fin n → H) × (Fin n → H) => x.1 ∈ (univ.filter fun h => J h = some j) ∧ fork x.1 x.2 j ∈ (univ.filter fun h => J h = some j)).card := by
    rw [← card_biUnion]
    · congr 1
      ext x
      simp
    · intro a _ b _ hab
      rw [Function.onFun, disjoint_left]
      intro h ha hb
      simp only [mem_filter, mem_univ, true_and] at ha hb
      exact hab (Option.some.inj (ha.1.symm.trans hb.1))
  rw [h1, h2]
  calc (∑ j, (univ.filter fun h => J h = some j).card) ^ 2
      ≤ (univ : Finset (Fin n)).card * ∑ j, (univ.filter fun h => J h = some j).card ^ 2 := sq_sum_le_card_mul_sum_sq
    _ ≤ _ := by
      rw [card_univ, Fintype.card_fin]
      exact Nat.mul_le_mul_left _ (sum_le_sum fun j _ => fork_pairs _ j)

open Classical in
/-- The tapes whose answer at `j` is in a set. -/
theorem card_answer [Fintype H] (j : Fin n) (C : Finset H) :
    (univ.filter fun h : Fin n → H => h j ∈ C).card = C.card * Fintype.card H ^ (n - 1) := by
  have : (univ.filter fun h : Fin n → H => h j ∈ C) = Fintype.piFinset fun i => if i = j then C else univ := by
    ext h
    simp only [mem_filter, mem_univ, true_and, Fintype.mem_piFinset]
    constructor
    · intro hh i
      split
      · next hi => rw [hi]; exact hh
      · exact mem_univ _
    · intro hh
      simpa using hh j
  rw [this, Fintype.card_piFinset, ← Finset.mul_prod_erase univ _ (mem_univ j), if_pos rfl]
  congr 1
  rw [Finset.prod_congr rfl (g := fun _ => Fintype.card H) (fun i hi => by rw [if_neg (Finset.ne_of_mem_erase hi), card_univ]), prod_const,
    card_erase_of_mem (mem_univ j), card_univ, Fintype.card_fin]

open Classical in
/-- The forking lemma with different answers at the position of the fork: `R` relates answers that do not count as different; no answer is related to more than
`M` others. -/
theorem forking_different [Fintype H] (J : (Fin n → H) → Option (Fin n)) (R : H → H → Prop) (M : ℕ)
    (hM : ∀ a, (univ.filter fun b => R a b).card ≤ M) :
    (univ.filter fun h => J h ≠ none).card ^ 2 ≤
      n * ((univ.filter fun x : (Fin n → H) × (Fin n → H) => ∃ j, J x.1 = some j ∧ J (fork x.1 x.2 j) = some j ∧ ¬ R (x.1 j) (x.2 j)).card +
        (univ.filter fun h => J h ≠ none).card * (M * Fintype.card H ^ (n - 1))) := by
  refine (forking J).trans (Nat.mul_le_mul_left _ ?_)
  have hbad : (univ.filter fun x : (Fin n → H) × (Fin n → H) => ∃ j, J x.1 = some j ∧ R (x.1 j) (x.2 j)).card ≤
      (univ.filter fun h => J h ≠ none).card * (M * Fintype.card H ^ (n - 1)) := by
    have : (univ.filter fun x : (Fin n → H) × (Fin n → H) => ∃ j, J x.1 = some j ∧ R (x.1 j) (x.2 j)).card =
        ∑ h ∈ univ.filter (fun h => J h ≠ none), (univ.filter fun h' : Fin n → H => ∃ j, J h = some j ∧ R (h j) (h' j)).card := by
      rw [← card_sigma]
      refine card_bij' (fun x _ => ⟨x.1, x.2⟩) (fun y _ => (y.1, y.2)) ?_ ?_ ?_ ?_
      · rintro ⟨h, h'⟩ hx
        simp only [mem_filter, mem_univ, true_and] at hx
        obtain ⟨j, h1, h2⟩ := hx
        simp [h1, h2]
      · rintro ⟨h, h'⟩ hx
        simp only [mem_sigma, mem_filter, mem_univ, true_and] at hx ⊢
        exact hx.2
      · exact fun _ _ => rfl
      · exact fun _ _ => rfl
    rw [this]
    refine Finset.sum_le_card_nsmul _ _ _ fun h hh => ?_
    simp only [mem_filter, mem_univ, true_and] at hh
    obtain ⟨j, hj⟩ := Option.ne_none_iff_exists'.mp hh
    have : (univ.filter fun h' : Fin n → H => ∃ j, J h = some j ∧ R (h j) (h' j)) = univ.filter fun h' : Fin n → H => h' j ∈ univ.filter fun b => R (h j) b := by
      ext h'
      simp [hj]
    rw [this, card_answer]
    exact Nat.mul_le_mul_right _ (hM _)
  refine le_trans (card_le_card (t := (univ.filter fun x : (Fin n → H) × (Fin n → H) => ∃ j, J x.1 = some j ∧ J (fork x.1 x.2 j) = some j ∧ ¬ R (x.1 j) (x.2 j)) ∪
    (univ.filter fun x : (Fin n → H) × (Fin n → H) => ∃ j, J x.1 = some j ∧ R (x.1 j) (x.2 j))) ?_) ((card_union_le _ _).trans (Nat.add_le_add_left hbad _))
  intro x hx
  simp only [mem_filter, mem_univ, true_and, mem_union] at hx ⊢
  obtain ⟨j, h1, h2⟩ := hx
  by_cases hr : R (x.1 j) (x.2 j)
  · exact Or.inr ⟨j, h1, hr⟩
  · exact Or.inl ⟨j, h1, h2, hr⟩

end Ed448
