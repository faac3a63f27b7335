import Verif.Model.LoopsApi
import Verif.Checked.ScalarBytes
import Verif.Checked.Wnaf

/-!
# The checked versions of decoding, signing and verification
-/

namespace Ed448

attribute [local irreducible] square mul isr Ed448.sub Ed448.add BN.ofList Ed448.dsa_like_deserialize Chk.dsa_like_deserialize
  Chk.BigNumber.sub Chk.BigNumber.isr Chk.BigNumber.low_bit Chk.BigNumber.decaf_cond_negate Chk.is_on_curve Chk.point_scalar_mul Chk.decode_long Chk.halve
  Chk.eddsa_like_encode Chk.precomputed_scalar_mul Chk.point_double_scalamul_non_secret Chk.mod_equal Chk.mul Chk.add Chk.sub Chk.encode
  Pt.point_scalar_mul Ed448.precomputed_scalar_mul Pt.point_double_scalamul_non_secret Pt.mod_equal Pt.eddsa_like_encode
  Ed448.decode_long Ed448.halve scalarMul scalarAdd scalarSub scalarEncode Pt.is_on_curve Ed448.low_bit Ed448.decaf_cond_negate

/-! ## Slices -/

theorem copy57 {l : List Byte} (h : l.length = 57) : copyInto (List.replicate 57 0) 0 57 l = .ok l := by
  rw [copyInto, if_pos ⟨by norm_num, by simp, by simpa using h⟩]
  simp

theorem slice_ok {l : List Byte} {lo hi : ℕ} (h : lo ≤ hi) (h2 : hi ≤ l.length) : slice l lo hi = .ok ((l.drop lo).take (hi - lo)) := if_pos ⟨h, h2⟩

/-- The two ways of writing a copied slice. -/
theorem slice_copy (l : List Byte) (lo : ℕ) {β : Type} (f : List Byte → Rust β) :
    (do
      let s ← slice l lo (lo + 57)
      let a ← copyInto (List.replicate 57 0) 0 57 s
      f a) = (sliceArr l lo 57 >>= fun a => f a.1) := by
  by_cases h : lo + 57 ≤ l.length
  · have hl : ((l.drop lo).take 57).length = 57 := by simp; omega
    rw [slice_ok (by omega) h, bind_ok', sliceArr, dif_pos hl, bind_ok', show lo + 57 - lo = 57 by omega, copy57 hl, bind_ok']
  · have hl : ¬ ((l.drop lo).take 57).length = 57 := by simp; omega
    rw [slice, if_neg (by omega), sliceArr, dif_neg hl, error_bind, error_bind]

theorem getD_eq (l : List Byte) {i : ℕ} (h : i < l.length) : l.getD i 0 = l[i] := by
  simp [List.getD, h]

/-! ## Decoding -/

theorem Chk.decodeRoot_eq (y : BN) (low : W32) : Chk.decodeRoot y low = Ed448.decodeRoot y low := by
  rw [Chk.decodeRoot, Ed448.decodeRoot]
  dsimp only
  rw [Chk.BigNumber.sub_eq, bind_ok', Chk.BigNumber.mul_with_signed_curve_constant_eq _ (by decide)]
  congr 1
  funext t
  rw [Chk.BigNumber.sub_eq, bind_ok', Chk.BigNumber.isr_eq, bind_ok', Chk.BigNumber.low_bit_eq, bind_ok', Chk.BigNumber.decaf_cond_negate_eq, pure_ok]

theorem Chk.decodeIsogeny_eq (x y : BN) : Chk.decodeIsogeny x y = .ok (Ed448.decodeIsogeny x y) := by
  rw [Chk.decodeIsogeny]
  dsimp only
  rw [Chk.BigNumber.sub_eq, bind_ok', Chk.BigNumber.sub_eq, bind_ok', Chk.BigNumber.sub_eq, bind_ok', pure_ok, Ed448.decodeIsogeny]

theorem Chk.decodeFinish_eq (p : Pt) (succ : W32) : Chk.decodeFinish p succ = Ed448.decodeFinish p succ := by
  rw [Chk.decodeFinish, Ed448.decodeFinish, Chk.is_on_curve_eq]
  congr 1
  funext ok
  rw [Chk.halve_eq, bind_ok', Chk.halve_eq, bind_ok', Chk.point_scalar_mul_eq]

theorem Chk.eddsa_like_decode_eq (src : List Byte) : Chk.eddsa_like_decode src = Ed448.eddsa_like_decode src := by
  rw [Chk.eddsa_like_decode, Ed448.eddsa_like_decode]
  by_cases h : src.length = 57
  swap
  · rw [if_pos h, dif_neg h]
  rw [if_neg (by simpa using h), dif_pos h, eddsaDecode57]
  have i56 : idx src 56 = .ok (src[56]'(by omega)) := idx_eq _ _ (by omega)
  rw [copy57 h, bind_ok', i56, bind_ok']
  dsimp only
  rw [setIdx_eq _ _ _ (by omega), bind_ok', idx_eq _ _ (by simp; omega), bind_ok', List.getElem_set_self]
  have := Chk.dsa_like_deserialize_eq ⟨src.set 56 (src[56]'(by omega) &&& (~~~(0x80 : W32)).setWidth 8), by simp [h]⟩
  rw [this, bind_ok']
  dsimp only
  rw [BN.ofList_toList, Chk.decodeRoot_eq]
  congr 1
  funext x
  rw [Chk.decodeIsogeny_eq, bind_ok', Chk.decodeFinish_eq]

/-! ## Verification -/

theorem Chk.clamp_eq {n : ℕ} (pk : Arr Byte n) (h : 57 ≤ n) : Chk.clamp pk.1 = .ok (Ed448.clamp pk).1 := by
  have hl := pk.2
  rw [Chk.clamp, idx_eq _ _ (by omega), bind_ok', setIdx_eq _ _ _ (by omega), bind_ok', setIdx_eq _ _ _ (by simp; omega), bind_ok',
    idx_eq _ _ (by simp; omega), bind_ok', setIdx_eq _ _ _ (by simp; omega)]
  rw [Ed448.clamp]
  unfold clampList
  dsimp only
  rw [getD_eq _ (by omega), getD_eq _ (by simp; omega)]

theorem Chk.verifyWith_eq (xof : Xof) (p : Pt) (sig message : List Byte) : Chk.verifyWith xof p sig message = (do
    let p2 ← p.point_scalar_mul SCALAR_FOUR
    let sig1 ← sliceArr sig 0 57
    let sig2 ← sliceArr sig 57 57
    match ← Ed448.eddsa_like_decode sig1.1 with
    | .error .InvalidLengthError => pure (.error .InvalidSignatureLengthError)
    | .error .DecodeError => pure (.error .DecodeSignatureError)
    | .error _ => .error .explicit
    | .ok r_point =>
      let r ← verifyPoints xof p p2 r_point sig1 sig2 message
      pure (.ok (r.1.mod_equal r.2))) := by
  rw [Chk.verifyWith, Chk.point_scalar_mul_eq]
  congr 1
  funext p2
  rw [slice_copy sig 0]
  congr 1
  funext sig1
  rw [slice_copy sig 57]
  congr 1
  funext sig2
  rw [Chk.eddsa_like_decode_eq]
  congr 1
  funext r
  rcases r with e | r_point
  · cases e <;> rfl
  · dsimp only
    rw [verifyPoints, Chk.point_scalar_mul_eq, bind_assoc']
    congr 1
    funext r4
    rw [Chk.eddsa_like_encode_eq, bind_ok', Chk.decode_long_eq, bind_ok', Chk.sub_eq, bind_ok', Chk.decode_long_eq, bind_ok',
      Chk.point_double_scalamul_non_secret_eq]
    dsimp only
    rw [bind_assoc']
    congr 1
    funext pk
    rw [Chk.mod_equal_eq, bind_ok', pure_bind']

theorem Chk.dsa_verify_eq (xof : Xof) (pk sig message : List Byte) : Chk.dsa_verify xof pk sig message = Ed448.dsa_verify xof pk sig message := by
  rw [Chk.dsa_verify, Ed448.dsa_verify, Chk.eddsa_like_decode_eq]
  congr 1
  funext r
  rcases r with e | p
  · cases e <;> rfl
  · exact Chk.verifyWith_eq xof p sig message

theorem Chk.ed448_verify_eq (xof : Xof) (pk sig message : List Byte) : Chk.ed448_verify xof pk sig message = Ed448.ed448_verify xof pk sig message := by
  rw [Chk.ed448_verify, Ed448.ed448_verify, Chk.dsa_verify_eq]

theorem Chk.ed448_verify_with_error_eq (xof : Xof) (pk sig message : List Byte) :
    Chk.ed448_verify_with_error xof pk sig message = Ed448.ed448_verify_with_error xof pk sig message := by
  rw [Chk.ed448_verify_with_error, Ed448.ed448_verify_with_error, Chk.dsa_verify_eq]
  rfl

/-! ## Signing -/

theorem Chk.point_by_secret_eq (p : Arr Byte 57) : Chk.point_by_secret p.1 = Ed448.point_by_secret p := by
  rw [Chk.point_by_secret, Chk.clamp_eq p (by norm_num), bind_ok', Chk.decode_long_eq, bind_ok', Chk.halve_eq, bind_ok', Chk.halve_eq, bind_ok',
    Chk.precomputed_scalar_mul_eq, Ed448.point_by_secret]

theorem Chk.private_to_secret_eq (xof : Xof) (pk : Arr Byte 57) : Chk.private_to_secret xof pk.1 = .ok (Ed448.private_to_secret xof pk).1 := by
  have hl := (sha3 xof pk.1 57).2
  rw [Chk.private_to_secret, Ed448.private_to_secret]
  dsimp only
  rw [idx_eq _ _ (by omega), bind_ok', setIdx_eq _ _ _ (by omega), getD_eq _ (by omega)]

theorem Chk.secret_to_public_eq (sk : Arr Byte 57) : Chk.secret_to_public sk.1 = (Ed448.secret_to_public sk >>= fun a => pure a.1) := by
  rw [Chk.secret_to_public, Chk.point_by_secret_eq, Ed448.secret_to_public, bind_assoc']
  congr 1
  funext h
  rw [Chk.eddsa_like_encode_eq, pure_bind', pure_ok]

theorem Chk.private_to_public_eq (xof : Xof) (pk : Arr Byte 57) :
    Chk.private_to_public xof pk.1 = (Ed448.private_to_public xof pk >>= fun a => pure a.1) := by
  rw [Chk.private_to_public, Chk.private_to_secret_eq, bind_ok', Chk.secret_to_public_eq, Ed448.private_to_public]

theorem topBit_iff (pk : Arr Byte 57) : topBitClear pk = true ↔ (pk.1[56]'(by rw [pk.2]; norm_num)) &&& 0x80 = 0 := by
  rw [topBitClear, beq_iff_eq]

theorem Chk.ed448_derive_public_eq (xof : Xof) (pk : Arr Byte 57) :
    Chk.ed448_derive_public xof pk.1 = (Ed448.ed448_derive_public xof pk >>= fun a => pure a.1) := by
  have hl := pk.2
  rw [Chk.ed448_derive_public, Ed448.ed448_derive_public, subU_ok (by norm_num), bind_ok', idx_eq _ _ (by omega), bind_ok']
  by_cases h : topBitClear pk = true
  · rw [if_pos ((topBit_iff pk).1 h), if_pos h, Chk.private_to_public_eq]
  · rw [if_neg (fun h' => h ((topBit_iff pk).2 h')), if_neg h, Chk.secret_to_public_eq]

theorem join_eq (r s : Arr Byte 57) : (do
      let result ← copyInto (List.replicate 114 0) 0 57 r.1
      copyInto result 57 114 s.1) = .ok (joinSig r s).1 := by
  have hr := r.2
  have hs := s.2
  have e : copyInto (List.replicate 114 0) 0 57 r.1 = .ok (r.1 ++ List.replicate 57 0) := by
    rw [copyInto, if_pos ⟨by norm_num, by simp, by simpa using hr⟩]
    simp
  rw [e, bind_ok', copyInto, if_pos ⟨by norm_num, by simp [hr], by simpa using hs⟩, List.take_left' hr, List.drop_eq_nil_of_le (by simp [hr]), List.append_nil, joinSig]

/-- The common part of the two signing functions in the main model. -/
theorem Chk.signTail_eq (xof : Xof) (point : Pt) (sec : Scalar) (seed message : List Byte) :
    Chk.signTail xof point sec.1 seed message = (do
      let nonce_scalar := Ed448.decode_long (hash_with_dom xof (seed ++ message) 114).1
      let np ← Ed448.precomputed_scalar_mul (Ed448.halve (Ed448.halve nonce_scalar))
      let nonce_point := np.eddsa_like_encode
      let challenge := hash_with_dom xof (nonce_point.1 ++ point.eddsa_like_encode.1 ++ message) 114
      pure (joinSig nonce_point (scalarEncode (scalarAdd (scalarMul (Ed448.decode_long challenge.1) sec) nonce_scalar))).1) := by
  rw [Chk.signTail]
  dsimp only
  rw [Chk.decode_long_eq, bind_ok', Chk.halve_eq, bind_ok', Chk.halve_eq, bind_ok', Chk.precomputed_scalar_mul_eq]
  congr 1
  funext np
  rw [Chk.eddsa_like_encode_eq, bind_ok', Chk.eddsa_like_encode_eq, bind_ok', Chk.decode_long_eq, bind_ok', Chk.mul_eq, bind_ok', Chk.add_eq, bind_ok']
  rw [pure_ok, ← join_eq]
  congr 1
  funext r
  rw [Chk.encode_eq, bind_ok']

theorem Chk.sign_with_secret_and_nonce_eq (xof : Xof) (secret n : Arr Byte 57) (message : List Byte) :
    Chk.sign_with_secret_and_nonce xof secret.1 n.1 message = (Ed448.sign_with_secret_and_nonce xof secret n message >>= fun a => pure a.1) := by
  rw [Chk.sign_with_secret_and_nonce, Chk.clamp_eq _ (by norm_num), bind_ok', Chk.decode_long_eq, bind_ok', Chk.point_by_secret_eq,
    Ed448.sign_with_secret_and_nonce, bind_assoc']
  congr 1
  funext p
  rw [Chk.signTail_eq, bind_assoc']
  rfl

theorem Chk.sign_by_private_eq (xof : Xof) (pk : Arr Byte 57) (message : List Byte) :
    Chk.sign_by_private xof pk.1 message = (Ed448.sign_by_private xof pk message >>= fun a => pure a.1) := by
  have hl := (Ed448.clamp (sha3 xof pk.1 114)).2
  have h1 : (((Ed448.clamp (sha3 xof pk.1 114)).1.drop 0).take (57 - 0)).length = 57 := by simp [hl]
  have h2 : (((Ed448.clamp (sha3 xof pk.1 114)).1.drop 57).take (114 - 57)).length = 57 := by simp [hl]
  have e2 : ((Ed448.clamp (sha3 xof pk.1 114)).1.drop 57).take (114 - 57) = (Ed448.clamp (sha3 xof pk.1 114)).1.drop 57 :=
    List.take_of_length_le (by simp [hl])
  rw [Chk.sign_by_private, Ed448.sign_by_private]
  dsimp only
  rw [Chk.clamp_eq _ (by norm_num), bind_ok', slice_ok (by norm_num) (by omega), bind_ok', copy57 h1, bind_ok', Chk.decode_long_eq, bind_ok',
    slice_ok (by norm_num) (by omega), bind_ok', copy57 h2, bind_ok', e2]
  have := Chk.point_by_secret_eq ⟨((Ed448.clamp (sha3 xof pk.1 114)).1.drop 0).take (57 - 0), h1⟩
  rw [this, bind_assoc']
  congr 1
  funext p
  rw [Chk.signTail_eq, bind_assoc']
  rfl

theorem Chk.ed448_sign_eq (xof : Xof) (pk : Arr Byte 57) (message : List Byte) :
    Chk.ed448_sign xof pk.1 message = (Ed448.ed448_sign xof pk message >>= fun a => pure a.1) := by
  have hl := pk.2
  rw [Chk.ed448_sign, Ed448.ed448_sign, subU_ok (by norm_num), bind_ok', idx_eq _ _ (by omega), bind_ok']
  by_cases h : topBitClear pk = true
  · rw [if_pos ((topBit_iff pk).1 h), if_pos h, Chk.sign_by_private_eq]
  · rw [if_neg (fun h' => h ((topBit_iff pk).2 h')), if_neg h, Chk.clamp_eq _ (by norm_num), bind_ok', Chk.sign_with_secret_and_nonce_eq]

end Ed448
