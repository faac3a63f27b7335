import Verif.Properties.ManyUsers
import Verif.Properties.OneRepair
import Verif.Properties.Limits

/-!
# C96: forgers against the verifier as it is, without any repair
-/

namespace Ed448

set_option exponentiation.threshold 1000

/-- The string `b` is taken for the point `R`: it is accepted, and the coordinates computed from it, multiplied by 4, are in the ratio of those of the image of `R`. -/
def TakenFor (b : List Byte) (R : E) : Prop :=
  ∃ r P, eddsa_like_decode b = .ok (.ok r) ∧ r.point_scalar_mul SCALAR_FOUR = .ok P ∧ P.y.toF ≠ 0 ∧ P.x.toF * R.phiY = P.y.toF * R.phiX

/-- A near miss: the signature is accepted, and for the points `P` and `Q` that verification compares, both coordinates of `P` are 0; or their coordinates
have different ratios, but the difference `P.y Q.x - P.x Q.y` is a multiple of `2^420` as a number below p, and the comparison does not see it. -/
def NearMiss (xof : Xof) (pk m sig : List Byte) : Prop :=
  ed448_verify xof pk sig m = .ok (.ok true) ∧ ∃ P Q : Pt, Compared xof pk sig m P Q ∧
    (P.x.toF = 0 ∧ P.y.toF = 0 ∨
      P.y.toF * Q.x.toF - P.x.toF * Q.y.toF ≠ 0 ∧ (P.y.toF * Q.x.toF - P.x.toF * Q.y.toF).val % 2 ^ 420 = 0)

attribute [local irreducible] Pt.point_scalar_mul eddsa_like_decode Pt.point_double_scalamul_non_secret Pt.eddsa_like_encode decode_long
  hash_with_dom scalarSub Pt.mod_equal

/-- Comparison with coordinates in the same ratio as those of the image of `C`. -/
theorem cross_ratio {P Q : Pt} {C D : E} (hQ : Rep Q D) (h : P.x.toF * C.phiY = P.y.toF * C.phiX) (h0 : P.y.toF ≠ 0) : cross P Q = 0 ↔ 4 • C = 4 • D := by
  obtain ⟨_, l, e, l0, _, hx, hy, _⟩ := hQ
  rw [cross, hx, hy, ← Edw.cross_eq_iff]
  have v0 := C.phiY_ne_zero
  constructor
  · intro h'
    have h2 : l * P.y.toF * (C.phiX * D.phiY - C.phiY * D.phiX) = 0 := by linear_combination (-C.phiY) * h' - l * D.phiY * h
    exact sub_eq_zero.mp ((mul_eq_zero.mp h2).resolve_left (mul_ne_zero l0 h0))
  · intro h'
    refine mul_left_cancel₀ v0 ?_
    linear_combination (-l * P.y.toF) * h' - l * D.phiY * h

theorem takenFor_same {b : List Byte} {R R' : E} (h : TakenFor b R) (h' : TakenFor b R') : 4 • R = 4 • R' := by
  obtain ⟨r, P, h1, h2, h3, h4⟩ := h
  obtain ⟨r', P', k1, k2, k3, k4⟩ := h'
  obtain rfl : r = r' := Except.ok.inj (Except.ok.inj (h1.symm.trans k1))
  obtain rfl : P = P' := Except.ok.inj (h2.symm.trans k2)
  rw [← Edw.cross_eq_iff]
  refine mul_left_cancel₀ h3 ?_
  linear_combination R.phiY * k4 - R'.phiY * h4

/-- A string that encodes a point is taken for this point, if it is accepted. -/
theorem decodes_taken {b : List Byte} {R : E} {r : Pt} (h : Decodes b R) (hr : eddsa_like_decode b = .ok (.ok r)) : TakenFor b R := by
  have hl : b.length = 57 := by
    by_contra hl
    rw [decode_length hl] at hr
    cases hr
  have hrep : RepT r (recoded quarterScalar • R) := by
    rcases decode_cases hl with ⟨_, r', g1, _, g3⟩ | ⟨_, g⟩
    · rw [hr] at g1
      injection g1 with g1
      injection g1 with g1
      rw [g1]
      exact g3 R h
    · rw [hr] at g
      cases g
  obtain ⟨P, h1, h2⟩ := point_scalar_mul_rep hrep SCALAR_FOUR
  have h4 := four_quarter R
  obtain ⟨_, l, e, l0, _, hx, hy, _⟩ := h2.rep
  rw [← Edw.cross_eq_iff] at h4
  refine ⟨r, P, hr, h1, ?_, ?_⟩
  · rw [hy]
    exact mul_ne_zero l0 (Edw.phiY_ne_zero _)
  · rw [hx, hy]
    linear_combination l * h4

/-- What is valid when strings are read as points is valid for every other way of reading. -/
theorem Loose.read {xof : Xof} {pk m sig : List Byte} (h : Loose plain xof pk m sig) (ρ : Reading) : Loose ρ xof pk m sig := by
  obtain ⟨h1, A, R, h2, h3, h4⟩ := h
  exact ⟨h1, A, R, h2, ρ.point h3, h4⟩

/-- How verification reads the first half of a signature. -/
def asRead : Reading where
  reads b R := Decodes b R ∨ TakenFor b R
  point := Or.inl
  same h h' := by
    rcases h with h | h <;> rcases h' with h' | h'
    · rw [h.unique h']
    · have ⟨r, _, hr, _⟩ := h'
      exact takenFor_same (decodes_taken h hr) h'
    · have ⟨r, _, hr, _⟩ := h
      exact takenFor_same h (decodes_taken h' hr)
    · exact takenFor_same h h'

theorem compared_unique {xof : Xof} {pk sig m : List Byte} {P Q P' Q' : Pt} (h : Compared xof pk sig m P Q) (h' : Compared xof pk sig m P' Q') :
    P = P' ∧ Q = Q' := by
  obtain ⟨p, p2, r, s1, s2, a1, a2, a3, a4, a5, a6⟩ := h
  obtain ⟨p', p2', r', s1', s2', b1, b2, b3, b4, b5, b6⟩ := h'
  obtain rfl : p = p' := Except.ok.inj (Except.ok.inj (a1.symm.trans b1))
  obtain rfl : p2 = p2' := Except.ok.inj (a2.symm.trans b2)
  obtain rfl : s1 = s1' := Except.ok.inj (a3.symm.trans b3)
  obtain rfl : s2 = s2' := Except.ok.inj (a4.symm.trans b4)
  obtain rfl : r = r' := Except.ok.inj (Except.ok.inj (a5.symm.trans b5))
  exact Prod.ext_iff.mp (Except.ok.inj (a6.symm.trans b6))

/-- The two points that are compared, for a key that decodes to a point: the first comes from the first half of the signature, and the second represents
a point `D` that is right for this first half if and only if the equation holds. -/
theorem compared_spec {xof : Xof} {pk sig m : List Byte} {P Q : Pt} {A : E} (hA : Decodes pk A) (h : Compared xof pk sig m P Q) :
    (∃ r, eddsa_like_decode (sig.take 57) = .ok (.ok r) ∧ r.point_scalar_mul SCALAR_FOUR = .ok P) ∧ ∃ D, Rep Q D ∧ ∀ C : E, 4 • C = 4 • D ↔
      RFC.Equation (leNat ((sig.drop 57).take 57)) C A (RFC.challenge xof (sig.take 57) (encodePoint ((q + 1) • A)) m) := by
  obtain ⟨p, p2, r, sig1, sig2, c1, c2, c3, c4, c5, c6⟩ := h
  have f1 : sig1.1 = sig.take 57 := by
    unfold sliceArr at c3
    split at c3
    · injection c3 with c3
      rw [← c3]
      rfl
    · cases c3
  have f2 : sig2.1 = (sig.drop 57).take 57 := by
    unfold sliceArr at c4
    split at c4
    · injection c4 with c4
      rw [← c4]
    · cases c4
  have hl : pk.length = 57 := by
    by_contra hl
    rw [decode_length hl] at c1
    cases c1
  have hpA : RepT p (recoded quarterScalar • A) := by
    rcases decode_cases hl with ⟨_, p', g1, _, g3⟩ | ⟨_, g⟩
    · rw [c1] at g1
      injection g1 with g1
      injection g1 with g1
      rw [g1]
      exact g3 A hA
    · rw [c1] at g
      cases g
  have hr : r.Red := by
    rcases decode_cases sig1.2 with ⟨_, r', g1, g2, _⟩ | ⟨_, g⟩
    · rw [c5] at g1
      injection g1 with g1
      injection g1 with g1
      rw [g1]
      exact g2
    · rw [c5] at g
      cases g
  obtain ⟨P', n2, _⟩ := point_scalar_mul_red hr SCALAR_FOUR
  obtain ⟨p2', g1, g2⟩ := point_scalar_mul_rep hpA SCALAR_FOUR
  rw [c2] at g1
  injection g1 with g1
  subst g1
  have hlt : ∀ b, (decode_long b).val < q := fun b => by rw [decode_long_val]; exact Nat.mod_lt _ q_pos
  have hz : SCALAR_ZERO.val < q := by rw [SCALAR_ZERO_val]; exact q_pos
  have hn := scalarSub_val SCALAR_ZERO (decode_long (hash_with_dom xof (sig1.1 ++ p.eddsa_like_encode.1 ++ m) 114).1) hz (hlt _)
  rw [SCALAR_ZERO_val, decode_long_val] at hn
  have hnlt : (scalarSub SCALAR_ZERO (decode_long (hash_with_dom xof (sig1.1 ++ p.eddsa_like_encode.1 ++ m) 114).1)).val < q := by
    rw [hn]; exact Nat.mod_lt _ q_pos
  obtain ⟨Q', Q1, Q2⟩ := double_mul_rep g2 (hlt sig2.1) hnlt
  unfold verifyPoints at c6
  rw [n2, bind_ok] at c6
  dsimp only at c6
  rw [Q1, bind_ok] at c6
  injection c6 with c6
  injection c6 with c6 c7
  subst c6 c7
  have e1 : leNat (hash_with_dom xof (sig1.1 ++ p.eddsa_like_encode.1 ++ m) 114).1 =
      RFC.challenge xof sig1.1 (encodePoint ((q + 1) • A)) m := by
    rw [hash_with_dom_eq, RFC.challenge, encode_rep hpA.rep, quarter_four, List.append_assoc, List.append_assoc, List.append_assoc]
  rw [e1] at hn
  refine ⟨⟨r, by rw [← f1]; exact c5, n2⟩, _, Q2, fun C => ?_⟩
  rw [← f1, ← f2, ← equation_iff (R := C) (decode_long_val _) hn, four_quarter]

/-- C96. Under a public key that the library has derived, an accepted signature either satisfies the equation of RFC 8032, with the point for which
verification takes its first half, or is a near miss. A verifier that compares field elements exactly and has no other repair accepts it if and only if the first
half encodes a point, and the equation holds. -/
theorem C96_accepted (xof : Xof) (k pk : Arr Byte 57) (m sig : List Byte) (hk : ed448_derive_public xof k = .ok pk)
    (h : ed448_verify xof pk.1 sig m = .ok (.ok true)) :
    (NearMiss xof pk.1 m sig ↔ ¬ Loose asRead xof pk.1 m sig) ∧ (Repairs.first.ed448_verify xof pk.1 sig m = .ok (.ok true) ↔ Loose plain xof pk.1 m sig) := by
  obtain ⟨hz, hp, hl, hr, P, Q, hc, hlow, _⟩ := C06_sound_partial xof pk.1 sig m h
  obtain ⟨pk', k1, k2⟩ := derive_spec xof k
  rw [hk] at k1
  injection k1 with k1
  subst k1
  have hA : Decodes pk.1 (keyScalar xof k.1 • B) := by rw [k2]; exact decodes_encode _
  obtain ⟨⟨r, r1, r2⟩, D, hD, he⟩ := compared_spec hA hc
  rw [cleared_smul_B, ← k2] at he
  constructor
  · constructor
    · rintro ⟨_, P', Q', hc', h⟩ ⟨_, A, R, hA', hR, e⟩
      obtain ⟨rfl, rfl⟩ := compared_unique hc hc'
      rw [decodesTo_iff, k2, encodePoint_inj] at hA'
      rw [← hA'] at e
      have ht : TakenFor (sig.take 57) R := by
        rcases hR with hR | hR
        · exact decodes_taken hR r1
        · exact hR
      obtain ⟨r', P', t1, t2, t3, t4⟩ := ht
      obtain rfl : r = r' := Except.ok.inj (Except.ok.inj (r1.symm.trans t1))
      obtain rfl : P = P' := Except.ok.inj (r2.symm.trans t2)
      rcases h with h | h
      · exact t3 h.2
      · exact h.1 ((cross_ratio hD t4 t3).mpr ((he R).mpr e))
    · intro hL
      refine ⟨h, P, Q, hc, ?_⟩
      by_cases h0 : P.y.toF * Q.x.toF - P.x.toF * Q.y.toF = 0
      swap
      · exact Or.inr ⟨h0, hlow⟩
      left
      by_contra hn
      apply hL
      have ⟨_, l, _, l0, _, hx, hy, _⟩ := hD
      rw [hx, hy] at h0
      have h1 : P.x.toF * D.phiY = P.y.toF * D.phiX := by
        refine mul_left_cancel₀ l0 ?_
        linear_combination -h0
      have h2 : P.y.toF ≠ 0 := by
        intro h2
        rw [h2, zero_mul] at h1
        exact hn ⟨(mul_eq_zero.mp h1).resolve_right D.phiY_ne_zero, h2⟩
      exact ⟨hl, _, D, decodesTo_iff.mpr k2, Or.inr ⟨r, P, r1, r2, h2, h1⟩, (he D).mp rfl⟩
  constructor
  · exact C87_loose Repairs.first rfl xof k pk m sig hk
  · rintro ⟨_, A, R, hA', hR, e⟩
    rw [decodesTo_iff, k2, encodePoint_inj] at hA'
    subst hA'
    refine (C87_exact Repairs.first rfl _ _ _ _).mpr ⟨hz, hl, _, R, ⟨hp.1, hp.2.1, hp.2.2.1, hA, (fun h => by cases h)⟩,
      ⟨hr.1, hr.2.1, hr.2.2.1, hR, (fun h => by cases h)⟩, (fun h => by cases h), ?_⟩
    show RFC.Equation _ R _ (RFC.challenge xof _ (encodePoint ((q + 1) • (keyScalar xof k.1 • B))) m)
    rw [cleared_smul_B, ← k2]
    exact e

theorem forges_or {F : List Byte → Forger} {xof : Xof} {k : Arr Byte 57} {n : ℕ}
    (h : LibForges (fun xof pk m sig => ed448_verify xof pk sig m = .ok (.ok true)) F xof k n) : LibForges (Loose asRead) F xof k n ∨ LibForges NearMiss F xof k n := by
  obtain ⟨pk, h1, h2, h3⟩ := h
  by_cases h : Loose asRead xof pk.1 ((F pk.1).forge (libSeen (F pk.1) xof k n)).1 ((F pk.1).forge (libSeen (F pk.1) xof k n)).2
  · exact Or.inl ⟨pk, h1, h2, h⟩
  · exact Or.inr ⟨pk, h1, h2, (C96_accepted xof k pk _ _ h1 h3).1.mpr h⟩

/-- C96. The bound of C86 for the verifier as it is: what is added is the chance of a near miss. -/
theorem C96_library (F : List Byte → Forger) (L : ℕ) (hF : Bounded F L) (n : ℕ) (hn : n < 2 ^ 100) (w u : ℚ) (hw : 0 ≤ w)
    (hs : (n + 1) * extractChance F n ≤ w ^ 2)
    (hu : chance {x : ordinaryKeys × (Short L → Out) | LibForges NearMiss F (hashOf x.2) (keyOf x.1) n} ≤ u) :
    chance {x : ordinaryKeys × (Short L → Out) | LibForges (fun xof pk m sig => ed448_verify xof pk sig m = .ok (.ok true)) F (hashOf x.2) (keyOf x.1) n} ≤
      2 * w + 1 / 2 ^ 240 + u :=
  chance_or (numbers_bound (fun xof k => LibForges (Loose asRead) F xof k n) F L hF n hn (forges_new fun _ _ _ _ _ _ h => h) w hw hs) hu fun _ h => forges_or h

/-- C96. The same for keys as the library generates them, as C88. -/
theorem C96_all (F : List Byte → Forger) (L : ℕ) (hF : Bounded F L) (n : ℕ) (hn : n < 2 ^ 100) (w v u : ℚ) (hw : 0 ≤ w)
    (hs : (n + 1) * extractChance F n ≤ w ^ 2) (hv : findChance F n ≤ v)
    (hu : chance {x : (Fin 57 → Byte) × (Short L → Out) | LibForges NearMiss F (hashOf x.2) (keyOf x.1) n} ≤ u) :
    chance {x : (Fin 57 → Byte) × (Short L → Out) | LibForges (fun xof pk m sig => ed448_verify xof pk sig m = .ok (.ok true)) F (hashOf x.2) (keyOf x.1) n} ≤
      2 * w + v + 1 / 2 ^ 240 + u :=
  chance_or (all_numbers (fun xof k => LibForges (Loose asRead) F xof k n) F L hF n hn (forges_new fun _ _ _ _ _ _ h => h) w v hw hs hv) hu fun _ h => forges_or h

/-- C96. The same for many users, as C92. -/
theorem C96_users {N : ℕ} (G : (Fin N → List Byte) → UserForger N) (L : ℕ) (hG : UsersBounded G L) (n : ℕ) (hn : N + 2 * n < 2 ^ 100) (w v u : ℚ) (hw : 0 ≤ w)
    (hs : ∀ j ks, (↑(N + 2 * n) + 1) * extractChance (against G j ks) (N + 2 * n) ≤ w ^ 2) (hv : ∀ j ks, findChance (against G j ks) (N + 2 * n) ≤ v)
    (hu : chance {x : (Fin N → Fin 57 → Byte) × (Short L → Out) | UsersForge NearMiss G (hashOf x.2) (fun i => keyOf (x.1 i)) n} ≤ u) :
    chance {x : (Fin N → Fin 57 → Byte) × (Short L → Out) |
      UsersForge (fun xof pk m sig => ed448_verify xof pk sig m = .ok (.ok true)) G (hashOf x.2) (fun i => keyOf (x.1 i)) n} ≤ N * (2 * w + v + 1 / 2 ^ 240) + u := by
  refine chance_or (users_bound (fun ks xof => UsersForge (Loose asRead) G xof ks n) G L hG n hn (fun F xof k => LibForges (Loose asRead) F xof k (N + 2 * n)) forge_against
    (fun _ => forges_new fun _ _ _ _ _ _ h => h) w v hw hs hv) hu ?_
  rintro x ⟨pks, h1, h2, h3⟩
  have h := (C96_accepted _ _ _ _ _ (h1 _) h3).1
  rcases Classical.em (Loose asRead _ _ _ _) with h' | h'
  · exact Or.inl ⟨pks, h1, h2, h'⟩
  · exact Or.inr ⟨pks, h1, h2, h.mpr h'⟩

/-! ### Other signatures of the same message -/

/-- The forger offers a message and a signature that is not a variant of one that they got from the library: no signature of this message was made for them with the
same first half and, modulo q, the same second half. -/
def LibOther (Ok : Xof → List Byte → List Byte → List Byte → Prop) (F : List Byte → Forger) (xof : Xof) (k : Arr Byte 57) (n : ℕ) : Prop :=
  ∃ pk, ed448_derive_public xof k = .ok pk ∧
    let f := (F pk.1).forge (libSeen (F pk.1) xof k n)
    (∀ i < n, (F pk.1).next (libSeen (F pk.1) xof k i) = .sign f.1 →
      ¬ ((libReply xof k (.sign f.1)).take 57 = f.2.take 57 ∧ leNat ((libReply xof k (.sign f.1)).drop 57) % q = leNat ((f.2.drop 57).take 57) % q)) ∧
    Ok xof pk.1 f.1 f.2

/-- With the same first half the second half is the same modulo q. -/
theorem same_second (xof : Xof) (k pk : Arr Byte 57) (m sig : List Byte) (hk : ed448_derive_public xof k = .ok pk) (h : Loose ρ xof pk.1 m sig)
    (he : (libReply xof k (.sign m)).take 57 = sig.take 57) : leNat ((libReply xof k (.sign m)).drop 57) % q = leNat ((sig.drop 57).take 57) % q := by
  obtain ⟨pk', sg, k1, k2, ⟨v0, A, R, v1, v2, v3, v4⟩, _⟩ := C57_valid_elsewhere xof k m
  obtain rfl : pk' = pk := by rw [k1] at hk; cases hk; rfl
  have hr : libReply xof k (.sign m) = sg.1 := by rw [libReply, k2]
  rw [hr] at he ⊢
  obtain ⟨_, A', R', w1, w2, w3⟩ := h
  rw [← he] at w2 w3
  rw [decodesTo_iff] at v1 w1 v2
  have e1 : A' = A := encodePoint_inj.mp (w1.symm.trans v1)
  have e2 : 4 • R' = 4 • R := ρ.same w2 (ρ.point (by rw [v2]; exact decodes_encode _))
  rw [e1, RFC.Equation, e2] at w3
  exact C46_unique_S _ _ _ _ _ v4 w3

theorem other_new {F : List Byte → Forger} {n : ℕ} (xof : Xof) (k : Arr Byte 57) (h : LibOther (Loose ρ) F xof k n) : LibNew ρ F xof k n := by
  obtain ⟨pk, h1, h2, h3⟩ := h
  exact ⟨pk, h1, fun i hi e e' => h2 i hi e ⟨e', same_second xof k pk _ _ h1 h3 e'⟩, h3⟩

/-- C96. As C89, for the verifier as it is. What it accepts is a variant of a signature that the library made, with a multiple of q added to the second half or with
more bytes at the end, except with the chance of C88 and that of a near miss. -/
theorem C96_strong (F : List Byte → Forger) (L : ℕ) (hF : Bounded F L) (n : ℕ) (hn : n < 2 ^ 100) (w v u : ℚ) (hw : 0 ≤ w)
    (hs : (n + 1) * extractChance F n ≤ w ^ 2) (hv : findChance F n ≤ v)
    (hu : chance {x : (Fin 57 → Byte) × (Short L → Out) | LibOther NearMiss F (hashOf x.2) (keyOf x.1) n} ≤ u) :
    chance {x : (Fin 57 → Byte) × (Short L → Out) | LibOther (fun xof pk m sig => ed448_verify xof pk sig m = .ok (.ok true)) F (hashOf x.2) (keyOf x.1) n} ≤
      2 * w + v + 1 / 2 ^ 240 + u := by
  refine chance_or (all_numbers (fun xof k => LibOther (Loose asRead) F xof k n) F L hF n hn other_new w v hw hs hv) hu ?_
  rintro x ⟨pk, h1, h2, h3⟩
  have h := (C96_accepted _ _ _ _ _ h1 h3).1
  rcases Classical.em (Loose asRead (hashOf x.2) pk.1 ((F pk.1).forge (libSeen (F pk.1) (hashOf x.2) (keyOf x.1) n)).1
    ((F pk.1).forge (libSeen (F pk.1) (hashOf x.2) (keyOf x.1) n)).2) with h' | h'
  · exact Or.inl ⟨pk, h1, h2, h'⟩
  · exact Or.inr ⟨pk, h1, h2, h.mpr h'⟩

/-! ## Concrete cases -/

/-- Guesses, for `C96_strong`. -/
example (Rs ms : ℕ → List Byte) (m sig : List Byte) (L n : ℕ) (hn : n < 2 ^ 100) (hR : ∀ i, (Rs i).length = 57) (hs : 57 ≤ sig.length)
    (hms : ∀ i, (ms i).length + 124 ≤ L) (hm : m.length + 124 ≤ L) :
    chance {x : (Fin 57 → Byte) × (Short L → Out) |
      LibOther (fun xof pk m sig => ed448_verify xof pk sig m = .ok (.ok true)) (guesser Rs ms m sig) (hashOf x.2) (keyOf x.1) n} ≤
    1 / 2 ^ 170 + chance {x : (Fin 57 → Byte) × (Short L → Out) | LibOther NearMiss (guesser Rs ms m sig) (hashOf x.2) (keyOf x.1) n} := by
  refine (C96_strong (guesser Rs ms m sig) L (guesser_bounded hR hms hm) n hn (1 / 2 ^ 172) (1 / 2 ^ 344) _ (by positivity)
    (fixed_chance _ n hn fun _ _ _ => rfl) (guesser_findChance Rs ms m sig n hn hR hs) le_rfl).trans ?_
  exact add_le_add_left small_sum _

/-- A signature of the library, if it is accepted, is no near miss. -/
example (xof : Xof) (k A : Arr Byte 57) (m : List Byte) (sig : Arr Byte 114) (h1 : ed448_derive_public xof k = .ok A) (h2 : ed448_sign xof k m = .ok sig)
    (h : ed448_verify xof A.1 sig.1 m = .ok (.ok true)) : ¬ NearMiss xof A.1 m sig.1 := by
  obtain ⟨A', sig', a1, a2, a3, _⟩ := C57_valid_elsewhere xof k m
  obtain rfl : A' = A := Except.ok.inj (a1.symm.trans h1)
  obtain rfl : sig' = sig := Except.ok.inj (a2.symm.trans h2)
  rw [(C96_accepted xof k A' m sig'.1 h1 h).1, not_not]
  exact (valid_loose a3).read asRead

/-- Guesses, without assumptions: the chance is at most `2^(-170)` more than that of a near miss. -/
example (Rs ms : ℕ → List Byte) (m sig : List Byte) (L n : ℕ) (hn : n < 2 ^ 100) (hR : ∀ i, (Rs i).length = 57) (hs : 57 ≤ sig.length)
    (hms : ∀ i, (ms i).length + 124 ≤ L) (hm : m.length + 124 ≤ L) :
    chance {x : (Fin 57 → Byte) × (Short L → Out) |
      LibForges (fun xof pk m sig => ed448_verify xof pk sig m = .ok (.ok true)) (guesser Rs ms m sig) (hashOf x.2) (keyOf x.1) n} ≤
    1 / 2 ^ 170 + chance {x : (Fin 57 → Byte) × (Short L → Out) | LibForges NearMiss (guesser Rs ms m sig) (hashOf x.2) (keyOf x.1) n} := by
  refine (C96_all (guesser Rs ms m sig) L (guesser_bounded hR hms hm) n hn (1 / 2 ^ 172) (1 / 2 ^ 344) _ (by positivity)
    (fixed_chance _ n hn fun _ _ _ => rfl) (guesser_findChance Rs ms m sig n hn hR hs) le_rfl).trans ?_
  exact add_le_add_left small_sum _

/-- The same for a fixed second half. -/
example (n : ℕ) (hn : n < 2 ^ 100) :
    chance {x : ordinaryKeys × (Short 126 → Out) |
      LibForges (fun xof pk m sig => ed448_verify xof pk sig m = .ok (.ok true)) fixedForger (hashOf x.2) (keyOf x.1) n} ≤
    1 / 2 ^ 170 + chance {x : ordinaryKeys × (Short 126 → Out) | LibForges NearMiss fixedForger (hashOf x.2) (keyOf x.1) n} := by
  refine (C96_library fixedForger 126 fixedForger_bounded n hn (1 / 2 ^ 172) _ (by positivity) (fixed_chance _ n hn fixedForger_fixed) le_rfl).trans ?_
  exact add_le_add_left small_sum' _

/-- The same for many users. -/
example {N : ℕ} (is : ℕ → Fin N) (Rs ms : ℕ → List Byte) (i : Fin N) (m sig : List Byte) (L n : ℕ) (hn : N + 2 * n < 2 ^ 100)
    (hR : ∀ i, (Rs i).length = 57) (hs : 57 ≤ sig.length) (hms : ∀ i, (ms i).length + 124 ≤ L) (hm : m.length + 124 ≤ L) :
    chance {x : (Fin N → Fin 57 → Byte) × (Short L → Out) |
      UsersForge (fun xof pk m sig => ed448_verify xof pk sig m = .ok (.ok true)) (usersGuesser is Rs ms i m sig) (hashOf x.2) (fun i => keyOf (x.1 i)) n} ≤
    N / 2 ^ 170 + chance {x : (Fin N → Fin 57 → Byte) × (Short L → Out) |
      UsersForge NearMiss (usersGuesser is Rs ms i m sig) (hashOf x.2) (fun i => keyOf (x.1 i)) n} := by
  refine (C96_users _ L (usersGuesser_bounded hR hms hm) n hn (1 / 2 ^ 172) (1 / 2 ^ 344) _ (by positivity)
    (fun j ks => fixed_chance (against (usersGuesser is Rs ms i m sig) j ks) _ hn fun _ _ _ => rfl) (usersGuesser_findChance is Rs ms i m sig n hn hR hs)
    le_rfl).trans ?_
  have := mul_le_mul_of_nonneg_left small_sum (Nat.cast_nonneg (α := ℚ) N)
  rw [← div_eq_mul_one_div (N : ℚ) (2 ^ 170)] at this
  exact add_le_add_left this _

end Ed448
