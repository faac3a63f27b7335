import Verif.Model.Goldilocks
import Verif.Curve.Decode
import Verif.Spec.Rfc8032

/-!
# Key derivation and signing
-/

set_option exponentiation.threshold 1000

namespace Ed448

/-! ### Clamping -/

theorem split57 {l : List Byte} (h : l.length = 57) : ∃ x m y z, l = x :: (m ++ [y, z]) ∧ m.length = 54 := by
  match l, h with
  | x :: xs, h =>
    have hx : xs.length = 56 := by simpa using h
    refine ⟨x, xs.take 54, xs[54]'(by omega), xs[55]'(by omega), ?_, by simp [hx]⟩
    congr 1
    apply List.ext_getElem (by simp [hx])
    intro i h1 h2
    rw [List.getElem_append]
    split
    · simp
    · next h3 =>
      have : i = 54 ∨ i = 55 := by
        simp [hx] at h3
        omega
      rcases this with rfl | rfl <;> simp [hx]

theorem clamp_split (x : Byte) (m : List Byte) (y z : Byte) (h : m.length = 54) :
    clampList (x :: (m ++ [y, z])) = (x &&& 0xfc) :: (m ++ [y ||| 0x80, 0]) := by
  unfold clampList
  simp [h]

theorem clamp_bytes : ∀ n : Fin 256, ((BitVec.ofFin n : Byte) &&& @OfNat.ofNat (BitVec 8) 0xfc BitVec.instOfNat).toNat = n.val / 4 * 4 ∧
    ((BitVec.ofFin n : Byte) ||| @OfNat.ofNat (BitVec 8) 0x80 BitVec.instOfNat).toNat = n.val % 128 + 128 := by
  decide +kernel

theorem clamp_val {l : List Byte} (h : l.length = 57) : leNat (clampList l) = RFC.secretScalar l := by
  obtain ⟨x, m, y, z, rfl, hm⟩ := split57 h
  rw [clamp_split x m y z hm, RFC.secretScalar, leNat, leNat, leNat_append, leNat_append, hm, leNat, leNat, leNat, leNat, leNat, leNat,
    (clamp_bytes x.toFin).1, (clamp_bytes y.toFin).2]
  have hM := leNat_lt m
  rw [hm] at hM
  generalize leNat m = M at *
  have h1 := x.isLt
  have h2 := y.isLt
  have h3 := z.isLt
  have e1 : x.toFin.val = x.toNat := rfl
  have e2 : y.toFin.val = y.toNat := rfl
  rw [e1, e2, show (@OfNat.ofNat (BitVec 8) 0 BitVec.instOfNat).toNat = 0 from rfl]
  norm_num at *
  omega

theorem clampList_length (l : List Byte) : (clampList l).length = l.length := by simp [clampList]

theorem clampList_take {l : List Byte} : (clampList l).take 57 = clampList (l.take 57) := by
  unfold clampList
  simp [List.take_set]

theorem clampList_drop {l : List Byte} : (clampList l).drop 57 = l.drop 57 := by
  unfold clampList
  simp [List.drop_set]

theorem secretScalar_clamp {l : List Byte} (h : l.length = 57) : RFC.secretScalar (clampList l) = RFC.secretScalar l := by
  rw [RFC.secretScalar, clamp_val h, RFC.secretScalar]
  generalize leNat l = n
  have := Nat.mod_lt n (show 0 < 2 ^ 447 by norm_num)
  generalize n % 2 ^ 447 = m at *
  norm_num at *
  omega

/-! ### Multiples of the base point -/

attribute [local irreducible] precomputed_scalar_mul decode_long halve Pt.eddsa_like_encode

theorem four_halve {s : Scalar} (h : s.val < q) : (halve (halve s)).val < q ∧ 4 * (halve (halve s)).val % q = s.val := by
  obtain ⟨h1, h2⟩ := halve_spec s h
  obtain ⟨h3, h4⟩ := halve_spec _ h1
  refine ⟨h3, ?_⟩
  rw [← h2, ← h4, Nat.mul_mod_mod]
  congr 1
  ring

theorem base_mul (b : List Byte) : ∃ P, precomputed_scalar_mul (halve (halve (decode_long b))) = .ok P ∧
    P.eddsa_like_encode.1 = encodePoint (leNat b • B) := by
  have hlt : (decode_long b).val < q := by rw [decode_long_val]; exact Nat.mod_lt _ q_pos
  obtain ⟨h1, h2⟩ := four_halve hlt
  obtain ⟨P, h3, h4⟩ := precomputed_scalar_mul_rep h1
  refine ⟨P, h3, ?_⟩
  rw [encode_rep h4, smul_smul]
  congr 1
  rw [smul_B_inj, h2, decode_long_val]

theorem point_by_secret_spec (k : Arr Byte 57) : ∃ P, point_by_secret k = .ok P ∧
    P.eddsa_like_encode.1 = RFC.publicOf (RFC.secretScalar k.1) := by
  obtain ⟨P, h1, h2⟩ := base_mul (clamp k).1
  refine ⟨P, h1, ?_⟩
  rw [h2, show (clamp k).1 = clampList k.1 from rfl, clamp_val k.2, RFC.publicOf]

/-! ### Hash inputs -/

theorem dom_eq : domPrefix = RFC.dom4 := by decide +kernel

theorem hash_length (xof : Xof) (m : List Byte) (n : ℕ) : (RFC.hash xof m n).length = n := by simp [RFC.hash]

theorem sha3_eq (xof : Xof) (m : List Byte) (n : ℕ) : (sha3 xof m n).1 = RFC.hash xof m n := rfl

theorem hash_take (xof : Xof) (m : List Byte) : (RFC.hash xof m 114).take 57 = RFC.hash xof m 57 := by
  rw [RFC.hash, RFC.hash, ← List.map_take, List.take_range]
  rfl

theorem hash_with_dom_eq (xof : Xof) (m : List Byte) (n : ℕ) : (hash_with_dom xof m n).1 = RFC.hash xof (RFC.dom4 ++ m) n := by
  rw [hash_with_dom, sha3_eq, dom_eq]

/-! ### Deriving and signing -/

theorem secret_to_public_spec (k : Arr Byte 57) : ∃ A, secret_to_public k = .ok A ∧ A.1 = RFC.publicOf (RFC.secretScalar k.1) := by
  obtain ⟨P, h1, h2⟩ := point_by_secret_spec k
  refine ⟨P.eddsa_like_encode, ?_, h2⟩
  unfold secret_to_public
  rw [h1, bind_ok]
  rfl

theorem private_to_secret_scalar (xof : Xof) (k : Arr Byte 57) :
    RFC.secretScalar (private_to_secret xof k).1 = RFC.secretScalar ((RFC.hash xof k.1 114).take 57) := by
  rw [hash_take]
  show RFC.secretScalar ((RFC.hash xof k.1 57).set 56 _) = _
  obtain ⟨x, m, y, z, h, hm⟩ := split57 (hash_length xof k.1 57)
  rw [h]
  have : ∀ w, (x :: (m ++ [y, z])).set 56 w = x :: (m ++ [y, w]) := by
    intro w
    simp [hm]
  have key : ∀ w, RFC.secretScalar (x :: (m ++ [y, w])) = RFC.secretScalar (x :: (m ++ [y, z])) := by
    intro w
    rw [RFC.secretScalar, RFC.secretScalar]
    congr 3
    simp only [leNat, leNat_append, hm]
    rw [show 256 ^ 54 = 2 ^ 432 by norm_num]
    generalize leNat m = M at *
    have h1 := x.isLt
    norm_num
    omega
  rw [this, key]

theorem private_to_public_spec (xof : Xof) (k : Arr Byte 57) : ∃ A, private_to_public xof k = .ok A ∧ A.1 = RFC.publicKey xof k.1 := by
  obtain ⟨A, h1, h2⟩ := secret_to_public_spec (private_to_secret xof k)
  refine ⟨A, h1, ?_⟩
  rw [h2, private_to_secret_scalar, RFC.publicKey]

/-- The common part of the two signing functions. -/
theorem sign_core (xof : Xof) {P : Pt} {s : ℕ} {pre m : List Byte} {sec : Scalar} (hP : P.eddsa_like_encode.1 = RFC.publicOf s)
    (hs : sec.val = s % q) :
    ∃ sig : Arr Byte 114, (do
      let np ← precomputed_scalar_mul (halve (halve (decode_long (hash_with_dom xof (pre ++ m) 114).1)))
      pure (joinSig np.eddsa_like_encode (scalarEncode (scalarAdd (scalarMul (decode_long
        (hash_with_dom xof (np.eddsa_like_encode.1 ++ P.eddsa_like_encode.1 ++ m) 114).1) sec)
        (decode_long (hash_with_dom xof (pre ++ m) 114).1))))) = (.ok sig : Rust (Arr Byte 114)) ∧ sig.1 = RFC.signWith xof s pre m := by
  obtain ⟨np, h1, h2⟩ := base_mul (hash_with_dom xof (pre ++ m) 114).1
  refine ⟨_, by rw [h1, bind_ok]; rfl, ?_⟩
  show np.eddsa_like_encode.1 ++ (scalarEncode _).1 = _
  have hsec : sec.val < q := by rw [hs]; exact Nat.mod_lt _ q_pos
  have hr : ∀ b, (decode_long b).val < q := fun b => by rw [decode_long_val]; exact Nat.mod_lt _ q_pos
  have hc := scalarMul_val (decode_long (hash_with_dom xof (np.eddsa_like_encode.1 ++ P.eddsa_like_encode.1 ++ m) 114).1) sec hsec
  rw [scalarEncode_val, scalarAdd_val _ _ (by
    have := hr (hash_with_dom xof (pre ++ m) 114).1
    rw [hc]
    have := Nat.mod_lt ((decode_long (hash_with_dom xof (np.eddsa_like_encode.1 ++ P.eddsa_like_encode.1 ++ m) 114).1).val * sec.val) q_pos
    omega), hc, decode_long_val, decode_long_val, hs, h2, hP]
  have e1 : leNat (hash_with_dom xof (pre ++ m) 114).1 = RFC.nonce xof pre m := by
    rw [hash_with_dom_eq, RFC.nonce, List.append_assoc]
  rw [e1]
  have e2 : leNat (hash_with_dom xof (encodePoint (RFC.nonce xof pre m • B) ++ RFC.publicOf s ++ m) 114).1 =
      RFC.challenge xof (encodePoint (RFC.nonce xof pre m • B)) (RFC.publicOf s) m := by
    rw [hash_with_dom_eq, RFC.challenge, List.append_assoc, List.append_assoc, List.append_assoc]
  rw [e2, RFC.signWith, ← Nat.mul_mod, ← Nat.add_mod, Nat.add_comm]

attribute [local irreducible] scalarAdd scalarMul scalarEncode hash_with_dom

theorem sign_by_private_spec (xof : Xof) (k : Arr Byte 57) (m : List Byte) :
    ∃ sig, sign_by_private xof k m = .ok sig ∧ sig.1 = RFC.sign xof k.1 m := by
  have h57 : ((RFC.hash xof k.1 114).take 57).length = 57 := by rw [hash_take, hash_length]
  obtain ⟨P, h1, h2⟩ := point_by_secret_spec ⟨(clamp (sha3 xof k.1 114)).1.take 57, by simp [(clamp (sha3 xof k.1 114)).2]⟩
  have e1 : (clamp (sha3 xof k.1 114)).1.take 57 = clampList ((RFC.hash xof k.1 114).take 57) := clampList_take
  have e2 : (clamp (sha3 xof k.1 114)).1.drop 57 = (RFC.hash xof k.1 114).drop 57 := clampList_drop
  have hs : (decode_long ((clamp (sha3 xof k.1 114)).1.take 57)).val = RFC.secretScalar ((RFC.hash xof k.1 114).take 57) % q := by
    rw [e1, decode_long_val, clamp_val h57]
  have h3 : P.eddsa_like_encode.1 = RFC.publicOf (RFC.secretScalar ((RFC.hash xof k.1 114).take 57)) := by
    rw [h2]
    simp only
    rw [e1, secretScalar_clamp h57]
  obtain ⟨sig, h4, h5⟩ := sign_core xof (pre := (RFC.hash xof k.1 114).drop 57) (m := m) h3 hs
  refine ⟨sig, ?_, h5⟩
  unfold sign_by_private
  dsimp only
  rw [h1, bind_ok, e2]
  exact h4

theorem sign_with_secret_spec (xof : Xof) (k n : Arr Byte 57) (m : List Byte) :
    ∃ sig, sign_with_secret_and_nonce xof k n m = .ok sig ∧ sig.1 = RFC.signWith xof (RFC.secretScalar k.1) n.1 m := by
  obtain ⟨P, h1, h2⟩ := point_by_secret_spec k
  have hs : (decode_long (clamp k).1).val = RFC.secretScalar k.1 % q := by
    rw [decode_long_val, ← clamp_val k.2]
    rfl
  obtain ⟨sig, h4, h5⟩ := sign_core xof (pre := n.1) (m := m) h2 hs
  refine ⟨sig, ?_, h5⟩
  unfold sign_with_secret_and_nonce
  dsimp only
  rw [h1, bind_ok]
  exact h4

end Ed448
