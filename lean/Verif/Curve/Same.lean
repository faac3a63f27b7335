import Verif.Curve.DoubleMul
import Verif.Curve.Decode

/-!
# The multiplications depend only on the values of the coordinates

Two points whose coordinates are congruent modulo p, or congruent up to one common sign, give congruent coordinates in all later
computations.
-/

set_option exponentiation.threshold 1000

namespace Ed448

/-- The coordinates of `P'` are `m` times those of `P`. -/
structure Scaled (m : F) (P P' : Pt) : Prop where
  red : P.Red
  red' : P'.Red
  x : P'.x.toF = m * P.x.toF
  y : P'.y.toF = m * P.y.toF
  z : P'.z.toF = m * P.z.toF
  t : P'.t.toF = m * P.t.toF

/-- The same for points in projective Niels form, with a sign. -/
structure ScaledN (m : F) (n n' : PNiels) : Prop where
  red : n.Red
  red' : n'.Red
  a : n'.n.a.toF = m * n.n.a.toF
  b : n'.n.b.toF = m * n.n.b.toF
  c : n'.n.c.toF = m * n.n.c.toF
  z : n'.z.toF = m * n.z.toF

/-- Equal up to sign. -/
def SignN (n n' : PNiels) : Prop := ∃ m : F, m * m = 1 ∧ ScaledN m n n'

attribute [local irreducible] mul square sub add add_raw sub_x_bias BN.toF Ed448.neg

theorem Scaled.refl {P : Pt} (h : P.Red) : Scaled 1 P P := ⟨h, h, by ring, by ring, by ring, by ring⟩

theorem double_internal_t (P : Pt) (h : P.Red) : (P.double_internal true).t.toF = P.y.toF ^ 2 - P.x.toF ^ 2 := by
  obtain ⟨c1, c2⟩ := square_spec h.x.mb
  obtain ⟨a1, a2⟩ := square_spec h.y.mb
  obtain ⟨t3, t4⟩ := sub_spec a2 c2
  show (sub (square P.y) (square P.x)).toF = _
  rw [t3, a1, c1]
  ring

theorem Scaled.dbl {m : F} (hm : m * m = 1) {P P' : Pt} (h : Scaled m P P') (bd : Bool) : Scaled 1 (P.double_internal bd) (P'.double_internal bd) := by
  obtain ⟨r, x, y, z, t⟩ := double_internal_spec h.red bd
  obtain ⟨r', x', y', z', t'⟩ := double_internal_spec h.red' bd
  have hm4 : m ^ 4 = 1 := by rw [show m ^ 4 = (m * m) ^ 2 by ring, hm]; ring
  refine ⟨r, r', ?_, ?_, ?_, ?_⟩
  · rw [x, x', h.x, h.y, h.z]
    linear_combination ((2 * P.z.toF ^ 2 - (P.y.toF ^ 2 - P.x.toF ^ 2)) * (2 * (P.x.toF * P.y.toF))) * hm4
  · rw [y, y', h.x, h.y]
    linear_combination ((P.y.toF ^ 2 - P.x.toF ^ 2) * (P.x.toF ^ 2 + P.y.toF ^ 2)) * hm4
  · rw [z, z', h.x, h.y, h.z]
    linear_combination ((P.y.toF ^ 2 - P.x.toF ^ 2) * (2 * P.z.toF ^ 2 - (P.y.toF ^ 2 - P.x.toF ^ 2))) * hm4
  · cases bd
    · rw [t rfl, t' rfl, h.x, h.y]
      linear_combination (2 * (P.x.toF * P.y.toF) * (P.x.toF ^ 2 + P.y.toF ^ 2)) * hm4
    · rw [double_internal_t P h.red, double_internal_t P' h.red', h.x, h.y]
      linear_combination (P.y.toF ^ 2 - P.x.toF ^ 2) * hm

theorem add_projected_eq (P : Pt) (n : PNiels) (bd : Bool) :
    P.add_projected_niels_to_extended n bd = Pt.add_niels_to_extended { P with z := mul P.z n.z } n.n bd := rfl

theorem sub_projected_eq (P : Pt) (n : PNiels) (bd : Bool) :
    P.sub_projected_niels_from_extended_point n bd = Pt.sub_niels_from_extended_point { P with z := mul P.z n.z } n.n bd := rfl

theorem add_niels_t (P : Pt) (n : TwistedNiels) : (P.add_niels_to_extended n true).t = P.t := by
  unfold Pt.add_niels_to_extended
  dsimp only
  rw [if_neg (by decide)]

theorem sub_niels_t (P : Pt) (n : TwistedNiels) : (P.sub_niels_from_extended_point n true).t = P.t := by
  unfold Pt.sub_niels_from_extended_point
  dsimp only
  rw [if_neg (by decide)]

attribute [local irreducible] Pt.add_niels_to_extended Pt.sub_niels_from_extended_point Pt.double_internal

theorem Scaled.addP {m k : F} (hm : m * m = 1) (hk : k * k = 1) {P P' : Pt} (h : Scaled m P P') {n n' : PNiels} (hn : ScaledN k n n') (bd : Bool)
    (hb : bd = false ∨ m = 1) : Scaled 1 (P.add_projected_niels_to_extended n bd) (P'.add_projected_niels_to_extended n' bd) := by
  obtain ⟨z1, z2⟩ := mul_spec h.red.z.mb hn.red.z.mb
  obtain ⟨z3, z4⟩ := mul_spec h.red'.z.mb hn.red'.z.mb
  obtain ⟨r, x, y, z, t⟩ := add_niels_spec (h.red.setZ z2) hn.red.n bd
  obtain ⟨r', x', y', z', t'⟩ := add_niels_spec (h.red'.setZ z4) hn.red'.n bd
  dsimp only at x y z t x' y' z' t'
  rw [z1] at x y z
  rw [z3, h.z, hn.z] at x' y' z'
  rw [h.x, h.y, hn.a, hn.b] at x' y' t'
  rw [h.t, hn.c] at x' y' z'
  have hmk : (m * k) ^ 2 = 1 := by rw [show (m * k) ^ 2 = (m * m) * (k * k) by ring, hm, hk]; ring
  rw [add_projected_eq, add_projected_eq]
  refine ⟨r, r', ?_, ?_, ?_, ?_⟩
  · rw [x, x']
    linear_combination ((P.z.toF * n.z.toF - n.n.c.toF * P.t.toF) *
      (n.n.b.toF * (P.x.toF + P.y.toF) - n.n.a.toF * (P.y.toF - P.x.toF))) * hmk
  · rw [y, y']
    linear_combination ((P.z.toF * n.z.toF + n.n.c.toF * P.t.toF) *
      (n.n.b.toF * (P.x.toF + P.y.toF) + n.n.a.toF * (P.y.toF - P.x.toF))) * hmk
  · rw [z, z']
    linear_combination ((P.z.toF * n.z.toF + n.n.c.toF * P.t.toF) * (P.z.toF * n.z.toF - n.n.c.toF * P.t.toF)) * hmk
  · cases bd
    · rw [t rfl, t' rfl]
      linear_combination ((n.n.b.toF * (P.x.toF + P.y.toF) - n.n.a.toF * (P.y.toF - P.x.toF)) *
        (n.n.b.toF * (P.x.toF + P.y.toF) + n.n.a.toF * (P.y.toF - P.x.toF))) * hmk
    · rw [add_niels_t, add_niels_t]
      rcases hb with hb | hb
      · simp at hb
      · rw [h.t, hb]

theorem Scaled.subP {m k : F} (hm : m * m = 1) (hk : k * k = 1) {P P' : Pt} (h : Scaled m P P') {n n' : PNiels} (hn : ScaledN k n n') (bd : Bool)
    (hb : bd = false ∨ m = 1) : Scaled 1 (P.sub_projected_niels_from_extended_point n bd) (P'.sub_projected_niels_from_extended_point n' bd) := by
  obtain ⟨z1, z2⟩ := mul_spec h.red.z.mb hn.red.z.mb
  obtain ⟨z3, z4⟩ := mul_spec h.red'.z.mb hn.red'.z.mb
  obtain ⟨r, x, y, z, t⟩ := sub_niels_spec (h.red.setZ z2) hn.red.n bd
  obtain ⟨r', x', y', z', t'⟩ := sub_niels_spec (h.red'.setZ z4) hn.red'.n bd
  dsimp only at x y z t x' y' z' t'
  rw [z1] at x y z
  rw [z3, h.z, hn.z] at x' y' z'
  rw [h.x, h.y, hn.a, hn.b] at x' y' t'
  rw [h.t, hn.c] at x' y' z'
  have hmk : (m * k) ^ 2 = 1 := by rw [show (m * k) ^ 2 = (m * m) * (k * k) by ring, hm, hk]; ring
  rw [sub_projected_eq, sub_projected_eq]
  refine ⟨r, r', ?_, ?_, ?_, ?_⟩
  · rw [x, x']
    linear_combination ((P.z.toF * n.z.toF - -n.n.c.toF * P.t.toF) *
      (n.n.a.toF * (P.x.toF + P.y.toF) - n.n.b.toF * (P.y.toF - P.x.toF))) * hmk
  · rw [y, y']
    linear_combination ((P.z.toF * n.z.toF + -n.n.c.toF * P.t.toF) *
      (n.n.a.toF * (P.x.toF + P.y.toF) + n.n.b.toF * (P.y.toF - P.x.toF))) * hmk
  · rw [z, z']
    linear_combination ((P.z.toF * n.z.toF + -n.n.c.toF * P.t.toF) * (P.z.toF * n.z.toF - -n.n.c.toF * P.t.toF)) * hmk
  · cases bd
    · rw [t rfl, t' rfl]
      linear_combination ((n.n.a.toF * (P.x.toF + P.y.toF) - n.n.b.toF * (P.y.toF - P.x.toF)) *
        (n.n.a.toF * (P.x.toF + P.y.toF) + n.n.b.toF * (P.y.toF - P.x.toF))) * hmk
    · rw [sub_niels_t, sub_niels_t]
      rcases hb with hb | hb
      · simp at hb
      · rw [h.t, hb]

theorem Scaled.addN {P P' : Pt} (h : Scaled 1 P P') {n : TwistedNiels} (hn : n.Red) (bd : Bool) :
    Scaled 1 (P.add_niels_to_extended n bd) (P'.add_niels_to_extended n bd) := by
  obtain ⟨r, x, y, z, t⟩ := add_niels_spec h.red hn bd
  obtain ⟨r', x', y', z', t'⟩ := add_niels_spec h.red' hn bd
  simp only [h.x, h.y, h.z, h.t, one_mul] at x' y' z' t'
  refine ⟨r, r', by rw [x, x', one_mul], by rw [y, y', one_mul], by rw [z, z', one_mul], ?_⟩
  cases bd
  · rw [t rfl, t' rfl, one_mul]
  · rw [add_niels_t, add_niels_t]
    exact h.t

theorem Scaled.subN {P P' : Pt} (h : Scaled 1 P P') {n : TwistedNiels} (hn : n.Red) (bd : Bool) :
    Scaled 1 (P.sub_niels_from_extended_point n bd) (P'.sub_niels_from_extended_point n bd) := by
  obtain ⟨r, x, y, z, t⟩ := sub_niels_spec h.red hn bd
  obtain ⟨r', x', y', z', t'⟩ := sub_niels_spec h.red' hn bd
  simp only [h.x, h.y, h.z, h.t, one_mul] at x' y' z' t'
  refine ⟨r, r', by rw [x, x', one_mul], by rw [y, y', one_mul], by rw [z, z', one_mul], ?_⟩
  cases bd
  · rw [t rfl, t' rfl, one_mul]
  · rw [sub_niels_t, sub_niels_t]
    exact h.t

theorem ScaledN.ofP {m : F} (hm : m * m = 1) {n n' : PNiels} (h : ScaledN m n n') : Scaled 1 n.to_extended_point n'.to_extended_point := by
  obtain ⟨r, x, y, z, t⟩ := to_extended_point_spec h.red
  obtain ⟨r', x', y', z', t'⟩ := to_extended_point_spec h.red'
  refine ⟨r, r', ?_, ?_, ?_, ?_⟩
  · rw [x, x', h.z, h.a, h.b]
    linear_combination (n.z.toF * (n.n.b.toF - n.n.a.toF)) * hm
  · rw [y, y', h.z, h.a, h.b]
    linear_combination (n.z.toF * (n.n.b.toF + n.n.a.toF)) * hm
  · rw [z, z', h.z]
    linear_combination (n.z.toF ^ 2) * hm
  · rw [t, t', h.a, h.b]
    linear_combination ((n.n.b.toF - n.n.a.toF) * (n.n.b.toF + n.n.a.toF)) * hm

theorem ScaledN.neg {m : F} {n n' : PNiels} (h : ScaledN m n n') (b : Bool) :
    ScaledN m { n with n := n.n.conditional_negate (maskOf b) } { n' with n := n'.n.conditional_negate (maskOf b) } := by
  have r : PNiels.Red { n with n := n.n.conditional_negate (maskOf b) } := ⟨h.red.n.conditional_negate b, h.red.z⟩
  have r' : PNiels.Red { n' with n := n'.n.conditional_negate (maskOf b) } := ⟨h.red'.n.conditional_negate b, h.red'.z⟩
  refine ⟨r, r', ?_, ?_, ?_, h.z⟩ <;> dsimp only <;> rw [conditional_negate_niels, conditional_negate_niels] <;> cases b
  · exact h.a
  · exact h.b
  · exact h.b
  · exact h.a
  · exact h.c
  · show (Ed448.neg _).toF = m * (Ed448.neg _).toF
    rw [(neg_spec h.red'.n.c).1, (neg_spec h.red.n.c).1, h.c]
    ring

/-! ### Two runs side by side -/

/-- Both runs fail in the same way, or both return and the results are related. -/
def Both {α β : Type} (R : α → β → Prop) (a : Rust α) (b : Rust β) : Prop :=
  (∃ e, a = .error e ∧ b = .error e) ∨ ∃ x y, a = .ok x ∧ b = .ok y ∧ R x y

theorem Both.ok {α β : Type} {R : α → β → Prop} {x : α} {y : β} (h : R x y) : Both R (.ok x) (.ok y) := Or.inr ⟨x, y, rfl, rfl, h⟩

theorem Both.bind {α β γ δ : Type} {R : α → β → Prop} {S : γ → δ → Prop} {a : Rust α} {b : Rust β} {f : α → Rust γ} {g : β → Rust δ}
    (h : Both R a b) (hf : ∀ x y, R x y → Both S (f x) (g y)) : Both S (a >>= f) (b >>= g) := by
  rcases h with ⟨e, rfl, rfl⟩ | ⟨x, y, rfl, rfl, h⟩
  · exact Or.inl ⟨e, rfl, rfl⟩
  · exact hf x y h

theorem Both.same {α γ δ : Type} {S : γ → δ → Prop} (a : Rust α) {f : α → Rust γ} {g : α → Rust δ} (hf : ∀ x, Both S (f x) (g x)) :
    Both S (a >>= f) (a >>= g) := by
  cases a with
  | error e => exact Or.inl ⟨e, rfl, rfl⟩
  | ok x => exact hf x

theorem Both.idx {α β : Type} {R : α → β → Prop} {l : List α} {l' : List β} (h : List.Forall₂ R l l') (i : ℕ) : Both R (idx l i) (idx l' i) := by
  induction h generalizing i with
  | nil => exact Or.inl ⟨.bounds, rfl, rfl⟩
  | cons h1 h2 ih =>
    cases i with
    | zero => exact Both.ok h1
    | succ i =>
      have := ih i
      unfold Ed448.idx at this ⊢
      rw [List.getElem?_cons_succ, List.getElem?_cons_succ]
      exact this

theorem Scaled.toP {m : F} {P P' : Pt} (h : Scaled m P P') : Both (ScaledN m) P.to_projected_niels P'.to_projected_niels := by
  obtain ⟨n, e, r, a, b, c, z⟩ := to_projected_niels_spec h.red
  obtain ⟨n', e', r', a', b', c', z'⟩ := to_projected_niels_spec h.red'
  rw [e, e']
  refine Both.ok ⟨r, r', ?_, ?_, ?_, ?_⟩
  · rw [a, a', h.x, h.y]; ring
  · rw [b, b', h.x, h.y]; ring
  · rw [c, c', h.t]; ring
  · rw [z, z', h.z]; ring

theorem fixedWindow_both {k : F} (hk : k * k = 1) {pn pn' : PNiels} (hn : ScaledN k pn pn') : ∀ (j : ℕ) {m : F} (_ : m * m = 1) {P P' : Pt} (_ : Scaled m P P'),
    Both (List.Forall₂ SignN) (fixedWindowLoop pn j P) (fixedWindowLoop pn' j P')
  | 0, _, _, _, _, _ => Both.ok .nil
  | j + 1, m, hm, P, P', h => by
    have h1 := h.addP hm hk hn false (.inl rfl)
    rw [fixedWindowLoop, fixedWindowLoop]
    refine h1.toP.bind fun e e' he => ?_
    exact (fixedWindow_both hk hn j (m := 1) (by ring) h1).bind fun l l' hl => Both.ok (.cons ⟨1, by ring, he⟩ hl)

theorem prepare_both {m : F} (hm : m * m = 1) {P P' : Pt} (h : Scaled m P P') :
    Both (List.Forall₂ SignN) P.prepare_fixed_window P'.prepare_fixed_window := by
  unfold Pt.prepare_fixed_window
  refine (h.dbl hm false).toP.bind fun pn pn' hn => ?_
  refine h.toP.bind fun e e' he => ?_
  exact (fixedWindow_both (by ring) hn 15 hm h).bind fun l l' hl => Both.ok (.cons ⟨m, hm, he⟩ hl)

theorem maskOf_inv (bits : W32) (h : bits.toNat < 32) : ∃ neg, (bits >>> 4) - (@OfNat.ofNat (BitVec 32) 1 BitVec.instOfNat) = maskOf neg := by
  obtain ⟨neg, h1, _⟩ := window_select bits h
  exact ⟨neg, h1⟩

theorem select_both {l l' : List PNiels} (hl : List.Forall₂ SignN l l') (s : List W32) (hs : s.length = 14) (i : ℕ) (hi : i < 446) :
    Both SignN (selectMultiple l s i) (selectMultiple l' s i) := by
  obtain ⟨b, h1, h2⟩ := window_digit s hs i hi
  obtain ⟨neg, h3⟩ := maskOf_inv b (by rw [h2]; exact Nat.mod_lt _ (by norm_num))
  rw [h3] at h1
  unfold selectMultiple
  rw [h1, bind_ok, bind_ok]
  refine (Both.idx hl _).bind fun n n' hn => ?_
  obtain ⟨k, hk, hn⟩ := hn
  exact Both.ok ⟨k, hk, hn.neg neg⟩

theorem doubleTimes_both : ∀ (k : ℕ) {P P' : Pt} (_ : Scaled 1 P P'), Scaled 1 (Pt.doubleTimes k P) (Pt.doubleTimes k P')
  | 0, _, _, h => h
  | k + 1, _, _, h => (doubleTimes_both k h).dbl (by ring) true

theorem mulLoop_both {l l' : List PNiels} (hl : List.Forall₂ SignN l l') (s : List W32) (hs : s.length = 14) : ∀ (k : ℕ) (_ : k < 90) {P P' : Pt} (_ : Scaled 1 P P'),
    Both (Scaled 1) (scalarMulLoop l s k P) (scalarMulLoop l' s k P')
  | 0, _, _, _, h => Both.ok h
  | k + 1, hk, P, P', h => by
    rw [scalarMulLoop, scalarMulLoop]
    refine (select_both hl s hs (5 * k) (by omega)).bind fun n n' hn => ?_
    obtain ⟨j, hj, hn⟩ := hn
    exact mulLoop_both hl s hs k (by omega) (((doubleTimes_both 4 h).dbl (by ring) false).addP (by ring) hj hn false (.inl rfl))

/-- The window multiplication. -/
theorem scalar_mul_both {m : F} (hm : m * m = 1) {P P' : Pt} (h : Scaled m P P') (s : Scalar) :
    Both (Scaled 1) (P.point_scalar_mul s) (P'.point_scalar_mul s) := by
  unfold Pt.point_scalar_mul
  refine (prepare_both hm h).bind fun l l' hl => ?_
  refine (select_both hl _ (halve (scalarAdd s scalar_adjustment)).2 445 (by norm_num)).bind fun n n' hn => ?_
  obtain ⟨j, hj, hn⟩ := hn
  exact mulLoop_both hl _ (halve (scalarAdd s scalar_adjustment)).2 89 (by norm_num) (hn.ofP hj)

theorem wnafTable_both {m : F} (hm : m * m = 1) {P P' : Pt} (h : Scaled m P P') :
    Both (List.Forall₂ SignN) (decaf_prepare_wnaf_table P) (decaf_prepare_wnaf_table P') := by
  unfold decaf_prepare_wnaf_table
  have hd := h.dbl hm false
  refine h.toP.bind fun d0 d0' h0 => ?_
  refine hd.toP.bind fun tw tw' ht => ?_
  have h1 := hd.addP (by ring) hm h0 false (.inl rfl)
  refine h1.toP.bind fun d1 d1' h2 => ?_
  rw [wnafTableLoop_eq, wnafTableLoop_eq]
  exact (fixedWindow_both (by ring) ht 6 (m := 1) (by ring) h1).bind fun l l' hl => Both.ok (.cons ⟨m, hm, h0⟩ (.cons ⟨1, by ring, h2⟩ hl))

theorem addVar_both {l l' : List PNiels} (hl : List.Forall₂ SignN l l') (i : ℤ) (ev : SmvtControl) (cp : Bool) {P P' : Pt} (h : Scaled 1 P P') :
    Both (Scaled 1) (addVar l i ev cp P) (addVar l' i ev cp P') := by
  unfold addVar
  split
  · refine (Both.idx hl _).bind fun n n' hn => ?_
    obtain ⟨k, hk, hn⟩ := hn
    exact Both.ok (h.addP (by ring) hk hn _ (.inr rfl))
  · refine (Both.idx hl _).bind fun n n' hn => ?_
    obtain ⟨k, hk, hn⟩ := hn
    exact Both.ok (h.subP (by ring) hk hn _ (.inr rfl))

theorem table_both : List.Forall₂ (fun n n' : TwistedNiels => n = n' ∧ n.Red) DECAF_WNAF_TABLE DECAF_WNAF_TABLE := by
  have : ∀ l : List TwistedNiels, (∀ k (h : k < l.length), l[k].Red) → List.Forall₂ (fun n n' : TwistedNiels => n = n' ∧ n.Red) l l := by
    intro l hl
    induction l with
    | nil => exact .nil
    | cons x xs ih => exact .cons ⟨rfl, hl 0 (by simp)⟩ (ih fun k h => hl (k + 1) (by simpa using h))
  exact this _ fun k h => (wnaf_table_rep k h).1

theorem addPre_both (i : ℤ) (ep : SmvtControl) {P P' : Pt} (h : Scaled 1 P P') : Both (Scaled 1) (addPre i ep P) (addPre i ep P') := by
  unfold addPre
  split
  · refine (Both.idx table_both _).bind fun n n' hn => ?_
    obtain ⟨rfl, hn⟩ := hn
    exact Both.ok (h.addN hn _)
  · refine (Both.idx table_both _).bind fun n n' hn => ?_
    obtain ⟨rfl, hn⟩ := hn
    exact Both.ok (h.subN hn _)

theorem dsLoop_both {l l' : List PNiels} (hl : List.Forall₂ SignN l l') (cv cp : List SmvtControl) : ∀ (k a b : ℕ) {P P' : Pt} (_ : Scaled 1 P P'),
    Both (Scaled 1) (doubleScalarLoop cv cp l k a b P) (doubleScalarLoop cv cp l' k a b P')
  | 0, _, _, _, _, h => Both.ok h
  | k + 1, a, b, P, P', h => by
    rw [doubleScalarLoop, doubleScalarLoop]
    refine Both.same _ fun ev => Both.same _ fun ep => ?_
    refine Both.bind (R := Scaled 1) ?_ fun o o' ho => ?_
    · cases ((k : ℤ) == ev.power)
      · exact Both.ok (h.dbl (by ring) _)
      · exact addVar_both hl _ _ _ (h.dbl (by ring) _)
    refine Both.bind (R := Scaled 1) ?_ fun o2 o2' ho2 => ?_
    · cases ((k : ℤ) == ep.power)
      · exact Both.ok ho
      · exact addPre_both _ _ ho
    exact dsLoop_both hl cv cp k _ _ ho2

theorem firstDigits_both {l l' : List PNiels} (hl : List.Forall₂ SignN l l') (v0 p0 : SmvtControl) :
    Both (fun r r' => Scaled 1 r.1 r'.1 ∧ r.2 = r'.2) (firstDigits v0 p0 l) (firstDigits v0 p0 l') := by
  unfold firstDigits
  dsimp only
  split
  · refine (Both.idx hl _).bind fun n n' hn => ?_
    obtain ⟨k, hk, hn⟩ := hn
    exact Both.ok ⟨hn.ofP hk, rfl⟩
  · split
    · refine (Both.idx hl _).bind fun n n' hn => ?_
      obtain ⟨k, hk, hn⟩ := hn
      refine (Both.idx table_both _).bind fun f f' hf => ?_
      obtain ⟨rfl, hf⟩ := hf
      exact Both.ok ⟨(hn.ofP hk).addN hf _, rfl⟩
    · refine (Both.idx table_both _).bind fun f f' hf => ?_
      obtain ⟨rfl, hf⟩ := hf
      exact Both.ok ⟨Scaled.refl (niels_to_extended_spec hf).1, rfl⟩

/-- The double multiplication. -/
theorem double_mul_both {m : F} (hm : m * m = 1) {P P' : Pt} (h : Scaled m P P') (sp sv : Scalar) :
    Both (Scaled 1) (P.point_double_scalamul_non_secret sp sv) (P'.point_double_scalamul_non_secret sp sv) := by
  unfold Pt.point_double_scalamul_non_secret
  refine Both.same _ fun cp => Both.same _ fun cv => ?_
  refine (wnafTable_both hm h).bind fun l l' hl => ?_
  refine Both.same _ fun v0 => Both.same _ fun p0 => ?_
  refine (firstDigits_both hl v0 p0).bind fun r r' hr => ?_
  obtain ⟨hr, e⟩ := hr
  rw [← e]
  split
  · exact Both.ok (Scaled.refl identity_red)
  · exact dsLoop_both hl cv cp _ _ _ hr

end Ed448
