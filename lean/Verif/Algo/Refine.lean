import Verif.Algo.Defs
import Verif.Curve.Same
import Verif.Eddsa.Verify

/-!
# The code computes what the algorithms on field elements compute
-/

set_option exponentiation.threshold 1000

namespace Ed448.Alg

open Ed448

variable {K : Type} [Num K]

/-- The numbers of type `K` stand for elements of the field. -/
structure Hom (K : Type) [Num K] where
  c : K → F
  add : ∀ a b, c (a + b) = c a + c b
  sub : ∀ a b, c (a - b) = c a - c b
  mul : ∀ a b, c (a * b) = c a * c b
  nat : ∀ n : ℕ, c (Num.nat n) = (n : F)
  val : ∀ a, Num.val a = (c a).val
  strict : ∀ {α : Type} (a : K) (k : K → α), Num.strict a k = k a

/-- The limbs of `P` represent the coordinates `p`. -/
structure Sh (h : Hom K) (P : Pt) (p : P4 K) : Prop where
  red : P.Red
  x : P.x.toF = h.c p.x
  y : P.y.toF = h.c p.y
  z : P.z.toF = h.c p.z
  t : P.t.toF = h.c p.t

structure Sh3 (h : Hom K) (n : TwistedNiels) (m : N3 K) : Prop where
  red : n.Red
  a : n.a.toF = h.c m.a
  b : n.b.toF = h.c m.b
  c : n.c.toF = h.c m.c

structure Sh4 (h : Hom K) (q : PNiels) (m : N4 K) : Prop where
  n : Sh3 h q.n m.n
  zred : q.z.Red
  z : q.z.toF = h.c m.z

theorem Sh4.red {h : Hom K} {n : PNiels} {m : N4 K} (s : Sh4 h n m) : n.Red := ⟨s.n.red, s.zred⟩

theorem force_eq (h : Hom K) {α : Type} (p : P4 K) (k : P4 K → α) : p.force k = k p := by
  rw [P4.force, h.strict, h.strict, h.strict, h.strict]

theorem force4_eq (h : Hom K) {α : Type} (p : N4 K) (k : N4 K → α) : p.force k = k p := by
  rw [N4.force, h.strict, h.strict, h.strict, h.strict]

attribute [local irreducible] Ed448.mul Ed448.square Ed448.sub Ed448.add Ed448.add_raw Ed448.sub_x_bias BN.toF Ed448.neg

theorem Sh.double {h : Hom K} {P : Pt} {p : P4 K} (s : Sh h P p) (bd : Bool) : Sh h (P.double_internal bd) (p.double bd) := by
  obtain ⟨r, x, y, z, t⟩ := double_internal_spec s.red bd
  refine ⟨r, ?_, ?_, ?_, ?_⟩
  · rw [x, s.x, s.y, s.z]
    simp only [P4.double, h.add, h.sub, h.mul]
    ring
  · rw [y, s.x, s.y]
    simp only [P4.double, h.add, h.sub, h.mul]
    ring
  · rw [z, s.x, s.y, s.z]
    simp only [P4.double, h.add, h.sub, h.mul]
    ring
  · cases bd
    · rw [t rfl, s.x, s.y]
      simp only [P4.double, h.add, h.sub, h.mul, Bool.false_eq_true, if_false]
      ring
    · rw [double_internal_t P s.red, s.x, s.y]
      simp only [P4.double, h.sub, h.mul, if_true]
      ring

attribute [local irreducible] Pt.add_niels_to_extended Pt.sub_niels_from_extended_point Pt.double_internal

theorem Sh.addN {h : Hom K} {P : Pt} {p : P4 K} (s : Sh h P p) {n : TwistedNiels} {m : N3 K} (sn : Sh3 h n m) (bd : Bool) :
    Sh h (P.add_niels_to_extended n bd) (p.addN m bd) := by
  obtain ⟨r, x, y, z, t⟩ := add_niels_spec s.red sn.red bd
  refine ⟨r, ?_, ?_, ?_, ?_⟩
  · rw [x, s.x, s.y, s.z, s.t, sn.a, sn.b, sn.c]
    simp only [P4.addN, h.add, h.sub, h.mul]
  · rw [y, s.x, s.y, s.z, s.t, sn.a, sn.b, sn.c]
    simp only [P4.addN, h.add, h.sub, h.mul]
    ring
  · rw [z, s.z, s.t, sn.c]
    simp only [P4.addN, h.add, h.sub, h.mul]
    ring
  · cases bd
    · rw [t rfl, s.x, s.y, sn.a, sn.b]
      simp only [P4.addN, h.add, h.sub, h.mul, Bool.false_eq_true, if_false]
      ring
    · rw [add_niels_t, s.t]
      simp only [P4.addN, if_true]

theorem Sh.subN {h : Hom K} {P : Pt} {p : P4 K} (s : Sh h P p) {n : TwistedNiels} {m : N3 K} (sn : Sh3 h n m) (bd : Bool) :
    Sh h (P.sub_niels_from_extended_point n bd) (p.subN m bd) := by
  obtain ⟨r, x, y, z, t⟩ := sub_niels_spec s.red sn.red bd
  refine ⟨r, ?_, ?_, ?_, ?_⟩
  · rw [x, s.x, s.y, s.z, s.t, sn.a, sn.b, sn.c]
    simp only [P4.subN, h.add, h.sub, h.mul]
    ring
  · rw [y, s.x, s.y, s.z, s.t, sn.a, sn.b, sn.c]
    simp only [P4.subN, h.add, h.sub, h.mul]
    ring
  · rw [z, s.z, s.t, sn.c]
    simp only [P4.subN, h.add, h.sub, h.mul]
    ring
  · cases bd
    · rw [t rfl, s.x, s.y, sn.a, sn.b]
      simp only [P4.subN, h.add, h.sub, h.mul, Bool.false_eq_true, if_false]
      ring
    · rw [sub_niels_t, s.t]
      simp only [P4.subN, if_true]

theorem Sh.setZ {h : Hom K} {P : Pt} {p : P4 K} (s : Sh h P p) {n : PNiels} {m : N4 K} (sn : Sh4 h n m) :
    Sh h { P with z := Ed448.mul P.z n.z } { p with z := p.z * m.z } := by
  obtain ⟨z1, z2⟩ := mul_spec s.red.z.mb sn.zred.mb
  refine ⟨s.red.setZ z2, s.x, s.y, ?_, s.t⟩
  show (Ed448.mul P.z n.z).toF = _
  rw [z1, s.z, sn.z, h.mul]

theorem Sh.addP {h : Hom K} {P : Pt} {p : P4 K} (s : Sh h P p) {n : PNiels} {m : N4 K} (sn : Sh4 h n m) (bd : Bool) :
    Sh h (P.add_projected_niels_to_extended n bd) (p.addP m bd) := by
  rw [add_projected_eq]
  exact (s.setZ sn).addN sn.n bd

theorem Sh.subP {h : Hom K} {P : Pt} {p : P4 K} (s : Sh h P p) {n : PNiels} {m : N4 K} (sn : Sh4 h n m) (bd : Bool) :
    Sh h (P.sub_projected_niels_from_extended_point n bd) (p.subP m bd) := by
  rw [sub_projected_eq]
  exact (s.setZ sn).subN sn.n bd

theorem Sh.toN4 {h : Hom K} {P : Pt} {p : P4 K} (s : Sh h P p) : ∃ n, P.to_projected_niels = .ok n ∧ Sh4 h n p.toN4 := by
  obtain ⟨n, e, r, a, b, c, z⟩ := to_projected_niels_spec s.red
  refine ⟨n, e, ⟨r.n, ?_, ?_, ?_⟩, r.z, ?_⟩
  · rw [a, s.x, s.y, P4.toN4, h.sub]
  · rw [b, s.x, s.y, P4.toN4, h.add]
  · rw [c, s.t, P4.toN4, h.sub, h.mul, h.nat, h.nat, edD]
    push_cast
    ring
  · rw [z, s.z, P4.toN4, h.add]
    ring

theorem Sh4.toP4 {h : Hom K} {n : PNiels} {m : N4 K} (s : Sh4 h n m) : Sh h n.to_extended_point m.toP4 := by
  obtain ⟨r, x, y, z, t⟩ := to_extended_point_spec s.red
  refine ⟨r, ?_, ?_, ?_, ?_⟩
  · rw [x, s.z, s.n.a, s.n.b, N4.toP4, h.mul, h.sub]
  · rw [y, s.z, s.n.a, s.n.b, N4.toP4, h.mul, h.add]
  · rw [z, s.z, N4.toP4, h.mul]
    ring
  · rw [t, s.n.a, s.n.b, N4.toP4, h.mul, h.sub, h.add]

theorem Sh3.toP4 {h : Hom K} {n : TwistedNiels} {m : N3 K} (s : Sh3 h n m) : Sh h n.to_extended m.toP4 := by
  obtain ⟨r, x, y, z, t⟩ := niels_to_extended_spec s.red
  refine ⟨r, ?_, ?_, ?_, ?_⟩
  · rw [x, s.a, s.b, N3.toP4, h.sub]
  · rw [y, s.a, s.b, N3.toP4, h.add]
  · rw [z, N3.toP4, h.nat, Nat.cast_one]
  · rw [t, s.a, s.b, N3.toP4, h.mul, h.sub, h.add]
    ring

theorem Sh4.negate {h : Hom K} {n : PNiels} {m : N4 K} (s : Sh4 h n m) (b : Bool) :
    Sh4 h { n with n := n.n.conditional_negate (maskOf b) } (if maskOf b = 0 then m else { m with n := m.n.negate }) := by
  rw [conditional_negate_niels]
  cases b
  · rw [if_neg Bool.false_ne_true, if_pos (by decide)]
    exact s
  · rw [if_pos rfl, if_neg (by decide)]
    obtain ⟨n1, n2⟩ := neg_spec s.n.red.c
    refine ⟨⟨⟨s.n.red.b, s.n.red.a, n2⟩, s.n.b, s.n.a, ?_⟩, s.zred, s.z⟩
    show (Ed448.neg n.n.c).toF = h.c (Num.nat 0 - m.n.c)
    rw [n1, s.n.c, h.sub, h.nat, Nat.cast_zero, zero_sub]

theorem ofTable_val (b : BN) : b.toList.foldr (fun w acc => w.toNat + 2 ^ 28 * acc) 0 = b.val := by
  simp only [BN.toList, List.foldr, BN.val, BN.ev, Nat.cast_id]
  ring

theorem sh_table (h : Hom K) {n : TwistedNiels} (r : n.Red) : Sh3 h n (ofTable n) := by
  refine ⟨r, ?_, ?_, ?_⟩ <;> simp only [ofTable, ofTable_val, h.nat] <;> unfold BN.toF <;> rfl

theorem sh_identity (h : Hom K) : Sh h Pt.identity P4.identity := by
  refine ⟨identity_red, ?_, ?_, ?_, ?_⟩
  · show BIG_ZERO.toF = _
    rw [toF_zero, P4.identity, h.nat, Nat.cast_zero]
  · show BIG_ONE.toF = _
    rw [toF_one, P4.identity, h.nat, Nat.cast_one]
  · show BIG_ONE.toF = _
    rw [toF_one, P4.identity, h.nat, Nat.cast_one]
  · show BIG_ZERO.toF = _
    rw [toF_zero, P4.identity, h.nat, Nat.cast_zero]

/-! ### The multiplications -/

theorem windowLoop_sh {h : Hom K} {pn : PNiels} {m : N4 K} (sn : Sh4 h pn m) : ∀ (j : ℕ) {P : Pt} {p : P4 K} (_ : Sh h P p),
    ∃ l, fixedWindowLoop pn j P = .ok l ∧ List.Forall₂ (Sh4 h) l (windowLoop m j p)
  | 0, _, _, _ => ⟨[], rfl, .nil⟩
  | j + 1, P, p, s => by
    have s1 := s.addP sn false
    obtain ⟨e, e1, e2⟩ := s1.toN4
    obtain ⟨l, l1, l2⟩ := windowLoop_sh sn j s1
    refine ⟨e :: l, ?_, ?_⟩
    · rw [fixedWindowLoop, e1, bind_ok, l1, bind_ok]
      rfl
    · rw [windowLoop, force_eq h, force4_eq h]
      exact .cons e2 l2

theorem window_sh {h : Hom K} {P : Pt} {p : P4 K} (s : Sh h P p) : ∃ l, P.prepare_fixed_window = .ok l ∧ List.Forall₂ (Sh4 h) l p.window := by
  obtain ⟨pn, n1, n2⟩ := (s.double false).toN4
  obtain ⟨e, e1, e2⟩ := s.toN4
  obtain ⟨l, l1, l2⟩ := windowLoop_sh n2 15 s
  refine ⟨e :: l, ?_, ?_⟩
  · unfold Pt.prepare_fixed_window
    dsimp only
    rw [n1, bind_ok, e1, bind_ok, l1, bind_ok]
    rfl
  · rw [P4.window, force4_eq h, force4_eq h]
    exact .cons e2 l2

theorem select_sh {h : Hom K} {l : List PNiels} {l' : List (N4 K)} (hl : List.Forall₂ (Sh4 h) l l') (s : List W32) (hs : s.length = 14) (i : ℕ)
    (hi : i < 446) : Both (Sh4 h) (selectMultiple l s i) (select l' s i) := by
  obtain ⟨b, h1, h2⟩ := window_digit s hs i hi
  obtain ⟨neg, h3⟩ := maskOf_inv b (by rw [h2]; exact Nat.mod_lt _ (by norm_num))
  rw [h3] at h1
  unfold selectMultiple select
  rw [h1, bind_ok, bind_ok]
  refine (Both.idx hl _).bind fun n m hn => ?_
  exact Both.ok (hn.negate neg)

theorem doubleTimes_sh {h : Hom K} : ∀ (k : ℕ) {P : Pt} {p : P4 K} (_ : Sh h P p), Sh h (Pt.doubleTimes k P) (P4.doubleTimes k p)
  | 0, _, _, s => s
  | k + 1, _, _, s => (doubleTimes_sh k s).double true

theorem mulLoop_sh {h : Hom K} {l : List PNiels} {l' : List (N4 K)} (hl : List.Forall₂ (Sh4 h) l l') (s : List W32) (hs : s.length = 14) :
    ∀ (k : ℕ) (_ : k < 90) {P : Pt} {p : P4 K} (_ : Sh h P p), Both (Sh h) (scalarMulLoop l s k P) (mulLoop l' s k p)
  | 0, _, _, _, sh => Both.ok sh
  | k + 1, hk, P, p, sh => by
    rw [scalarMulLoop, mulLoop, force_eq h]
    refine (select_sh hl s hs (5 * k) (by omega)).bind fun n m hn => ?_
    exact mulLoop_sh hl s hs k (by omega) (((doubleTimes_sh 4 sh).double false).addP hn false)

theorem mul_sh {h : Hom K} {P : Pt} {p : P4 K} (sh : Sh h P p) (s : Scalar) : Both (Sh h) (P.point_scalar_mul s) (p.mul s) := by
  obtain ⟨l, l1, l2⟩ := window_sh sh
  unfold Pt.point_scalar_mul P4.mul
  dsimp only
  rw [l1, bind_ok]
  refine (select_sh l2 _ (halve (scalarAdd s scalar_adjustment)).2 445 (by norm_num)).bind fun n m hn => ?_
  exact mulLoop_sh l2 _ (halve (scalarAdd s scalar_adjustment)).2 89 (by norm_num) hn.toP4

theorem wnafTable_sh {h : Hom K} {P : Pt} {p : P4 K} (s : Sh h P p) : ∃ l, decaf_prepare_wnaf_table P = .ok l ∧ List.Forall₂ (Sh4 h) l p.wnafTable := by
  have sd := s.double false
  obtain ⟨d0, d1, d2⟩ := s.toN4
  obtain ⟨tw, t1, t2⟩ := sd.toN4
  have s1 := sd.addP d2 false
  obtain ⟨e, e1, e2⟩ := s1.toN4
  obtain ⟨l, l1, l2⟩ := windowLoop_sh t2 6 s1
  refine ⟨d0 :: e :: l, ?_, ?_⟩
  · unfold decaf_prepare_wnaf_table
    dsimp only
    rw [d1, bind_ok, t1, bind_ok, e1, bind_ok, wnafTableLoop_eq, l1, bind_ok]
    rfl
  · rw [P4.wnafTable, force_eq h, force4_eq h, force4_eq h, force4_eq h]
    exact .cons d2 (.cons e2 l2)

theorem addVar_sh {h : Hom K} {l : List PNiels} {l' : List (N4 K)} (hl : List.Forall₂ (Sh4 h) l l') (i : ℤ) (ev : SmvtControl) (cp : Bool) {P : Pt}
    {p : P4 K} (s : Sh h P p) : Both (Sh h) (Ed448.addVar l i ev cp P) (addVar l' i ev cp p) := by
  unfold Ed448.addVar addVar
  split
  · exact (Both.idx hl _).bind fun n m hn => Both.ok (s.addP hn _)
  · exact (Both.idx hl _).bind fun n m hn => Both.ok (s.subP hn _)

theorem addPre_sh {h : Hom K} (i : ℤ) (ep : SmvtControl) {P : Pt} {p : P4 K} (s : Sh h P p) : Both (Sh h) (Ed448.addPre i ep P) (addPre i ep p) := by
  unfold Ed448.addPre addPre
  split
  · refine (Both.idx table_both _).bind fun n n' hn => ?_
    obtain ⟨rfl, hn⟩ := hn
    exact Both.ok (s.addN (sh_table h hn) _)
  · refine (Both.idx table_both _).bind fun n n' hn => ?_
    obtain ⟨rfl, hn⟩ := hn
    exact Both.ok (s.subN (sh_table h hn) _)

theorem doubleLoop_sh {h : Hom K} {l : List PNiels} {l' : List (N4 K)} (hl : List.Forall₂ (Sh4 h) l l') (cv cp : List SmvtControl) :
    ∀ (k a b : ℕ) {P : Pt} {p : P4 K} (_ : Sh h P p), Both (Sh h) (doubleScalarLoop cv cp l k a b P) (doubleLoop cv cp l' k a b p)
  | 0, _, _, _, _, s => Both.ok s
  | k + 1, a, b, P, p, s => by
    rw [doubleScalarLoop, doubleLoop, force_eq h]
    refine Both.same _ fun ev => Both.same _ fun ep => ?_
    refine Both.bind (R := Sh h) ?_ fun o o' ho => ?_
    · cases ((k : ℤ) == ev.power)
      · exact Both.ok (s.double _)
      · exact addVar_sh hl _ _ _ (s.double _)
    refine Both.bind (R := Sh h) ?_ fun o2 o2' ho2 => ?_
    · cases ((k : ℤ) == ep.power)
      · exact Both.ok ho
      · exact addPre_sh _ _ ho
    exact doubleLoop_sh hl cv cp k _ _ ho2

theorem firstDigits_sh {h : Hom K} {l : List PNiels} {l' : List (N4 K)} (hl : List.Forall₂ (Sh4 h) l l') (v0 p0 : SmvtControl) :
    Both (fun r r' => Sh h r.1 r'.1 ∧ r.2 = r'.2) (Ed448.firstDigits v0 p0 l) (firstDigits v0 p0 l') := by
  unfold Ed448.firstDigits firstDigits
  dsimp only
  split
  · exact (Both.idx hl _).bind fun n m hn => Both.ok ⟨hn.toP4, rfl⟩
  · split
    · refine (Both.idx hl _).bind fun n m hn => ?_
      refine (Both.idx table_both _).bind fun f f' hf => ?_
      obtain ⟨rfl, hf⟩ := hf
      exact Both.ok ⟨hn.toP4.addN (sh_table h hf) _, rfl⟩
    · refine (Both.idx table_both _).bind fun f f' hf => ?_
      obtain ⟨rfl, hf⟩ := hf
      exact Both.ok ⟨(sh_table h hf).toP4, rfl⟩

theorem doubleMul_sh {h : Hom K} {P : Pt} {p : P4 K} (s : Sh h P p) (sp sv : Scalar) :
    Both (Sh h) (P.point_double_scalamul_non_secret sp sv) (p.doubleMul sp sv) := by
  obtain ⟨l, l1, l2⟩ := wnafTable_sh s
  unfold Pt.point_double_scalamul_non_secret P4.doubleMul
  refine Both.same _ fun cp => Both.same _ fun cv => ?_
  rw [l1, bind_ok]
  refine Both.same _ fun v0 => Both.same _ fun p0 => ?_
  refine (firstDigits_sh l2 v0 p0).bind fun r r' hr => ?_
  obtain ⟨hr, e⟩ := hr
  rw [← e]
  split
  · exact Both.ok (sh_identity h)
  · exact doubleLoop_sh l2 cv cp _ _ _ hr

/-! ### Decoding and encoding -/

theorem pow_c (h : Hom K) (a : K) : ∀ (k n : ℕ), n < 2 ^ k → h.c (pow a k n) = h.c a ^ n
  | 0, n, hn => by
    obtain rfl : n = 0 := by simpa using hn
    rw [pow, h.nat, Nat.cast_one, pow_zero]
  | k + 1, n, hn => by
    have ih := pow_c h a k (n / 2) (by rw [pow_succ] at hn; omega)
    rw [pow, h.strict]
    split
    · next h0 =>
      rw [h.mul, ih, ← pow_add]
      congr 1
      omega
    · next h0 =>
      rw [h.mul, h.mul, ih, ← pow_add, ← pow_succ]
      congr 1
      omega

theorem lowZero_iff (h : Hom K) (a : K) : lowZero a = decide (LowZero (h.c a)) := by
  rw [lowZero, h.val, Bool.eq_iff_iff, decide_eq_true_iff, LowZero]
  exact iff_of_eq Nat.beq_eq

theorem root_c (h : Hom K) (y : K) : h.c (root y) = xCand (h.c y) := by
  have e : (p - 3) / 4 = 2 ^ 446 - 2 ^ 222 - 1 := by
    rw [p_eq4, Nat.add_sub_cancel, Nat.mul_div_cancel_left _ (by norm_num)]
  rw [root, xCand, e, h.mul, pow_c h _ _ _ (by decide +kernel)]
  simp only [h.mul, h.sub, h.add, h.nat, edD]
  generalize 2 ^ 446 - 2 ^ 222 - 1 = N
  push_cast
  rw [pow_two]
  congr 2
  ring

theorem decodeX_c (h : Hom K) (y : K) (s : ℕ) : h.c (decodeX y s) = -xChoice (h.c y) s := by
  rw [decodeX, h.strict, xChoice, h.val, root_c]
  split
  · rw [h.sub, root_c, h.nat, Nat.cast_zero, zero_sub]
  · rw [root_c, neg_neg]

theorem isogeny_sh {h : Hom K} {x y : BN} (hx : x.Red) (hy : y.Red) {a b : K} (ea : x.toF = h.c a) (eb : y.toF = h.c b) :
    Sh h (decodeIsogeny x y) (isogeny a b) := by
  obtain ⟨r, dx, dy, dz, dt⟩ := decodeIsogeny_spec hx hy
  refine ⟨r, ?_, ?_, ?_, ?_⟩
  · rw [dx, ea, eb]
    simp only [isogeny, h.add, h.sub, h.mul, h.nat, Nat.cast_one]
    ring
  · rw [dy, ea, eb]
    simp only [isogeny, h.add, h.sub, h.mul]
    ring
  · rw [dz, ea, eb]
    simp only [isogeny, h.add, h.sub, h.mul, h.nat, Nat.cast_one]
    ring
  · rw [dt, ea, eb]
    simp only [isogeny, h.add, h.sub, h.mul]
    ring

theorem onCurve_iff {h : Hom K} {P : Pt} {p : P4 K} (s : Sh h P p) : p.onCurve = true ↔ LowZero (P.x.toF * P.y.toF - P.z.toF * P.t.toF) ∧
    LowZero (P.y.toF ^ 2 - P.x.toF ^ 2 - (P.z.toF ^ 2 - (1 - edD) * P.t.toF ^ 2)) ∧ ¬ LowZero P.z.toF := by
  have k : (1 - edD) = ((39082 : ℕ) : F) := by rw [edD]; push_cast; ring
  rw [P4.onCurve, Bool.and_eq_true, Bool.and_eq_true, lowZero_iff h, lowZero_iff h, lowZero_iff h, Bool.not_eq_true', decide_eq_true_iff,
    decide_eq_true_iff, decide_eq_false_iff_not, h.sub, h.mul, h.mul, h.sub, h.sub, h.mul, h.mul, h.sub, h.mul, h.mul, h.mul, h.nat,
    s.x, s.y, s.z, s.t, k, and_assoc]
  simp only [pow_two]

/-- Equal errors, or values that are related. -/
def Same {α β : Type} (R : α → β → Prop) : Except Err α → Except Err β → Prop
  | .ok a, .ok b => R a b
  | .error e, .error e' => e = e'
  | _, _ => False

theorem decode_sh (h : Hom K) (b : List Byte) : Both (Same (Sh h)) (eddsa_like_decode b) (decode (K := K) b) := by
  rw [decode]
  by_cases hb : b.length = 57
  swap
  · rw [if_neg hb, decode_length hb]
    exact Both.ok rfl
  rw [if_pos hb, h.strict, h.strict, force_eq h]
  obtain ⟨x, y, hx, hy, y1, x1, e⟩ := decode57_spec ⟨b, hb⟩
  have e2 : eddsa_like_decode b = eddsaDecode57 ⟨b, hb⟩ := by
    unfold eddsa_like_decode
    rw [dif_pos hb]
  rw [e2, e]
  have sh := isogeny_sh (h := h) hx hy (a := decodeX (Num.nat (yNat b)) (signBit b)) (b := Num.nat (yNat b))
    (by rw [x1, decodeX_c, h.nat]) (by rw [y1, h.nat])
  rw [decodeFinish_spec sh.red]
  by_cases hc : (isogeny (decodeX (Num.nat (yNat b)) (signBit b)) (Num.nat (yNat b) : K)).onCurve = true ∧
      (padBits b == 0 && decide (PassesCheck (yNat b))) = true
  · rw [if_pos (by have := (onCurve_iff sh).mp hc.1; tauto), if_pos (by rw [Bool.and_eq_true]; exact hc)]
    exact (mul_sh sh quarterScalar).bind fun P p hP => Both.ok hP
  · rw [if_neg (by intro h'; exact hc ⟨(onCurve_iff sh).mpr (by tauto), by tauto⟩), if_neg (by rw [Bool.and_eq_true]; exact hc)]
    exact Both.ok rfl

theorem inv_eq_pow (a : F) : a⁻¹ = a ^ (p - 2) := by
  rcases eq_or_ne a 0 with rfl | h
  · rw [inv_zero, zero_pow]
    rw [p_def]
    decide +kernel
  · have h1 : a ^ (p - 1) = 1 := ZMod.pow_card_sub_one_eq_one h
    have h2 : p - 1 = (p - 2) + 1 := by
      have : 3 < p := by rw [p_def]; decide +kernel
      omega
    rw [h2, pow_succ] at h1
    exact (eq_inv_of_mul_eq_one_left h1).symm

theorem parity_eq (n : ℕ) : (if n % 2 == 1 then 1 else 0 : ℕ) = n % 2 := by
  rcases Nat.mod_two_eq_zero_or_one n with h | h <;> rw [h] <;> rfl

theorem encode_sh {h : Hom K} {P : Pt} {k : P4 K} (s : Sh h P k) : P.eddsa_like_encode.1 = k.encode := by
  have hp : 2 ^ 448 - 2 ^ 224 - 3 = p - 2 := by rw [p_def]; decide +kernel
  have hb : p - 2 < 2 ^ 448 := by rw [p_def]; decide +kernel
  rw [encode_coords s.red, P4.encode, h.strict, parity_eq, h.val, h.val, hp, h.mul, h.mul, h.mul, h.mul, pow_c h _ _ _ hb]
  simp only [h.mul, h.add, h.sub, s.x, s.y, s.z]
  rw [inv_eq_pow]
  generalize p - 2 = N
  have e1 : h.c k.x ^ 2 + h.c k.y ^ 2 = h.c k.x * h.c k.x + h.c k.y * h.c k.y := by ring
  have e2 : 2 * h.c k.z ^ 2 - (h.c k.y ^ 2 - h.c k.x ^ 2) =
    h.c k.z * h.c k.z + h.c k.z * h.c k.z - (h.c k.y * h.c k.y - h.c k.x * h.c k.x) := by ring
  have e3 : -2 * (h.c k.x * h.c k.y) = h.c k.x * h.c k.x + h.c k.y * h.c k.y - (h.c k.y + h.c k.x) * (h.c k.y + h.c k.x) := by ring
  rw [e1, e2, e3, pow_two, pow_two]

/-! ### Verification -/

theorem same_sh {h : Hom K} {P Q : Pt} {k l : P4 K} (s : Sh h P k) (s' : Sh h Q l) : P.mod_equal Q = k.same l := by
  rw [mod_equal_spec s.red s'.red, P4.same, lowZero, h.val, h.sub, h.mul, h.mul, s.x, s.y, s'.x, s'.y, Bool.eq_iff_iff, beq_iff_eq]
  exact (iff_of_eq Nat.beq_eq).symm

attribute [local irreducible] Pt.point_scalar_mul P4.mul Pt.point_double_scalamul_non_secret P4.doubleMul P4.encode Pt.eddsa_like_encode
  eddsa_like_decode decode

theorem compare_sh {h : Hom K} (xof : Xof) {P P2 R : Pt} {k k2 r : P4 K} (s : Sh h P k) (s2 : Sh h P2 k2) (sr : Sh h R r) (sig1 sig2 : Arr Byte 57)
    (m : List Byte) : Both (fun r b => r.1.mod_equal r.2 = b) (verifyPoints xof P P2 R sig1 sig2 m) (compare xof k k2 r sig1.1 sig2.1 m) := by
  unfold verifyPoints compare
  dsimp only
  rw [encode_sh s]
  refine (mul_sh sr SCALAR_FOUR).bind fun A a ha => ?_
  refine (doubleMul_sh s2 _ _).bind fun B b hb => ?_
  exact Both.ok (same_sh ha hb)

theorem verify_sh (h : Hom K) (xof : Xof) (pk sig m : List Byte) : Both Eq (dsa_verify xof pk sig m) (verify K xof pk sig m) := by
  unfold dsa_verify verify
  refine (decode_sh h pk).bind fun D d hd => ?_
  match D, d, hd with
  | .error e, .error e', hd =>
    obtain rfl : e = e' := hd
    cases e
    all_goals first | exact Both.ok rfl | exact Or.inl ⟨_, rfl, rfl⟩
  | .ok P, .ok k, hd =>
    refine (mul_sh (h := h) hd SCALAR_FOUR).bind fun P2 k2 h2 => ?_
    by_cases hl : sig.length < 114
    · rw [if_pos hl]
      left
      refine ⟨.bounds, ?_, rfl⟩
      by_cases h1 : sig.length < 57
      · rw [sliceArr_err (by omega) (by norm_num)]
        rfl
      · obtain ⟨a, a1, a2⟩ := sliceArr_ok (l := sig) (lo := 0) (n := 57) (by omega)
        rw [a1, bind_ok, sliceArr_err (by omega) (by norm_num)]
        rfl
    · rw [if_neg hl]
      obtain ⟨a, a1, a2⟩ := sliceArr_ok (l := sig) (lo := 0) (n := 57) (by omega)
      obtain ⟨b, b1, b2⟩ := sliceArr_ok (l := sig) (lo := 57) (n := 57) (by omega)
      rw [a1, bind_ok, b1, bind_ok, ← b2, show List.take 57 sig = a.1 by rw [a2, List.drop_zero]]
      refine (decode_sh h a.1).bind fun D d hd' => ?_
      match D, d, hd' with
      | .error e, .error e', hd' =>
        obtain rfl : e = e' := hd'
        cases e
        all_goals first | exact Both.ok rfl | exact Or.inl ⟨_, rfl, rfl⟩
      | .ok R, .ok r, hd' =>
        exact (compare_sh (h := h) xof hd h2 hd' a b m).bind fun x y hxy => Both.ok (by rw [hxy])

/-- The code and the algorithm on field elements give the same answer, for every key, signature and message. -/
theorem dsa_verify_eq (h : Hom K) (xof : Xof) (pk sig m : List Byte) : dsa_verify xof pk sig m = verify K xof pk sig m := by
  rcases verify_sh h xof pk sig m with ⟨e, h1, h2⟩ | ⟨x, y, h1, h2, rfl⟩ <;> rw [h1, h2]

end Ed448.Alg
