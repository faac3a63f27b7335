import Verif.Model.Loops
import Mathlib.Tactic.Ring

/-!
# Loops over indices
-/

namespace Ed448

theorem loop_append {σ : Type} (body : ℕ → σ → Rust σ) : ∀ (l l' : List ℕ) (st : σ),
    loop body (l ++ l') st = (loop body l st >>= fun st => loop body l' st)
  | [], _, _ => rfl
  | i :: is, l', st => by
    simp only [List.cons_append, loop]
    cases body i st with
    | error e => rfl
    | ok st' => exact loop_append body is l' st'

/-- A loop whose state after `i` iterations is `f i`. -/
theorem forTo_eq {σ : Type} (n : ℕ) (st : σ) (body : ℕ → σ → Rust σ) (f : ℕ → σ) (h0 : f 0 = st)
    (hs : ∀ i < n, body i (f i) = .ok (f (i + 1))) : forTo n st body = .ok (f n) := by
  subst h0
  induction n with
  | zero => rfl
  | succ n ih =>
    rw [forTo, List.range_succ, loop_append, ← forTo, ih (fun i hi => hs i (by omega))]
    show (body n (f n) >>= fun st => pure st) = _
    rw [hs n (by omega)]
    rfl

/-- Two bodies that agree on the states satisfying an invariant. -/
theorem loop_congr {σ : Type} {body body' : ℕ → σ → Rust σ} : ∀ (l : List ℕ) (st : σ),
    (∀ i ∈ l, ∀ st, body i st = body' i st) → loop body l st = loop body' l st
  | [], _, _ => rfl
  | i :: is, st, h => by
    simp only [loop]
    rw [h i (by simp)]
    congr 1
    exact funext fun st => loop_congr is st (fun j hj => h j (by simp [hj]))

/-- The list recursion behind a loop over two arrays with an accumulator. -/
def scan {α β γ σ : Type} (f : α → β → σ → γ × σ) : List α → List β → σ → List γ × σ
  | a :: as, b :: bs, s => ((f a b s).1 :: (scan f as bs (f a b s).2).1, (scan f as bs (f a b s).2).2)
  | _, _, s => ([], s)

theorem scan_length {α β γ σ : Type} (f : α → β → σ → γ × σ) : ∀ (a : List α) (b : List β) (s : σ), a.length = b.length →
    (scan f a b s).1.length = a.length
  | [], [], _, _ => rfl
  | _ :: as, _ :: bs, s, h => by simp [scan, scan_length f as bs _ (by simpa using h)]

theorem scan_snoc {α β γ σ : Type} (f : α → β → σ → γ × σ) : ∀ (a : List α) (b : List β) (x : α) (y : β) (s : σ), a.length = b.length →
    scan f (a ++ [x]) (b ++ [y]) s = ((scan f a b s).1 ++ [(f x y (scan f a b s).2).1], (f x y (scan f a b s).2).2)
  | [], [], _, _, _, _ => rfl
  | _ :: as, _ :: bs, x, y, s, h => by simp [scan, scan_snoc f as bs x y _ (by simpa using h)]

theorem scan_inv {α β γ σ : Type} (f : α → β → σ → γ × σ) (P : σ → Prop) (hP : ∀ x y st, P st → P (f x y st).2) :
    ∀ (a : List α) (b : List β) (s : σ), P s → P (scan f a b s).2
  | [], _, _, h => by simpa [scan] using h
  | _ :: _, [], _, h => by simpa [scan] using h
  | a :: as, b :: bs, s, h => by
    simp only [scan]
    exact scan_inv f P hP as bs _ (hP _ _ _ h)

theorem idx_eq {α : Type} (l : List α) (i : ℕ) (h : i < l.length) : idx l i = .ok l[i] := by
  simp [idx, h]

theorem setIdx_eq {α : Type} (l : List α) (i : ℕ) (x : α) (h : i < l.length) : setIdx l i x = .ok (l.set i x) := by
  simp [setIdx, h]

/-- A loop that in iteration `i` replaces entry `i` of `r`, using entry `i` of two lists and an accumulator. The hypothesis about the body may use that the entries of
`r` from `i` on are still the initial ones. -/
theorem forTo_scan {α β γ σ : Type} (n : ℕ) (f : α → β → σ → γ × σ) (P : σ → Prop) (hP : ∀ x y st, P st → P (f x y st).2)
    (a : List α) (b : List β) (ha : a.length = n) (hb : b.length = n) (r0 : List γ) (hr : r0.length = n) (s0 : σ) (h0 : P s0)
    (body : ℕ → List γ × σ → Rust (List γ × σ))
    (hbody : ∀ (i : ℕ) (hi : i < n) (r : List γ) (st : σ), P st → (hl : r.length = n) → r[i] = r0[i] →
      body i (r, st) = .ok (r.set i (f a[i] b[i] st).1, (f a[i] b[i] st).2)) :
    forTo n (r0, s0) body = .ok (scan f a b s0) := by
  have key := forTo_eq n (r0, s0) body
    (fun i => ((scan f (a.take i) (b.take i) s0).1 ++ r0.drop i, (scan f (a.take i) (b.take i) s0).2)) (by simp [scan]) ?_
  · rw [key]
    rw [List.take_of_length_le (by omega), List.take_of_length_le (by omega), List.drop_of_length_le (by omega), List.append_nil]
  · intro i hi
    have e1 : a.take (i + 1) = a.take i ++ [a[i]] := by rw [List.take_add_one, List.getElem?_eq_getElem (by omega)]; rfl
    have e2 : b.take (i + 1) = b.take i ++ [b[i]] := by rw [List.take_add_one, List.getElem?_eq_getElem (by omega)]; rfl
    have el : (a.take i).length = (b.take i).length := by simp; omega
    have hlen : (scan f (a.take i) (b.take i) s0).1.length = i := by
      rw [scan_length f _ _ _ el, List.length_take]; omega
    have hd : r0.drop i = r0[i] :: r0.drop (i + 1) := List.drop_eq_getElem_cons (by omega)
    rw [hbody i hi _ _ (scan_inv f P hP _ _ _ h0) (by simp [hlen]; omega)
      (by rw [List.getElem_append_right (by omega), List.getElem_drop]; simp [hlen])]
    simp only [e1, e2, scan_snoc f _ _ _ _ _ el, List.append_assoc, List.cons_append, List.nil_append]
    congr 2
    generalize (f a[i] b[i] _).1 = v
    rw [hd, List.set_append_right _ _ (by omega), hlen, Nat.sub_self, List.set_cons_zero]

theorem chkI64_ok {x : ℤ} (h1 : -2 ^ 63 ≤ x) (h2 : x < 2 ^ 63) : chkI64 x = .ok x := if_pos ⟨h1, h2⟩
theorem chkU64_ok {x : ℕ} (h : x < 2 ^ 64) : chkU64 x = .ok x := if_pos h
theorem chkU32_ok {x : ℕ} (h : x < 2 ^ 32) : chkU32 x = .ok x := if_pos h
theorem subU_ok {a b : ℕ} (h : b ≤ a) : subU a b = .ok (a - b) := if_pos h

end Ed448
