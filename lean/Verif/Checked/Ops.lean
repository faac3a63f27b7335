import Verif.Checked.Field

/-!
# The field and point operations with the checked constants of `bias`, `square_n` and `mul_with_signed_curve_constant`
-/

namespace Ed448

attribute [local irreducible] square mul weak_reduce Ed448.strong_reduce squarePairs

theorem Chk.BigNumber.neg_eq (x : BN) : Chk.BigNumber.neg x = .ok (Ed448.neg x) := by
  rw [Chk.BigNumber.neg, Chk.bias_eq _ _ (by decide), bind_ok', pure_ok]
  rfl

theorem Chk.BigNumber.sub_eq (x y : BN) : Chk.BigNumber.sub x y = .ok (Ed448.sub x y) := by
  rw [Chk.BigNumber.sub, Chk.bias_eq _ _ (by decide), bind_ok', pure_ok]
  rfl

theorem Chk.BigNumber.sub_x_bias_eq (x y : BN) {amt : W32} (h : amt.toNat ≤ 16) : Chk.BigNumber.sub_x_bias x y amt = .ok (Ed448.sub_x_bias x y amt) := by
  rw [Chk.BigNumber.sub_x_bias, Chk.bias_eq _ _ h, bind_ok', pure_ok]
  rfl

theorem Chk.BigNumber.low_bit_eq (x : BN) : Chk.BigNumber.low_bit x = .ok (Ed448.low_bit x) := by
  rw [Chk.BigNumber.low_bit, Chk.strong_reduce_eq, bind_ok', pure_ok]
  rfl

theorem Chk.BigNumber.isr_eq (x : BN) : Chk.BigNumber.isr x = .ok (Ed448.isr x) := by
  rw [Chk.BigNumber.isr]
  dsimp only
  rw [Chk.square_n_eq _ _ (by norm_num), bind_ok', Chk.square_n_eq _ _ (by norm_num), bind_ok', Chk.square_n_eq _ _ (by norm_num), bind_ok',
    Chk.square_n_eq _ _ (by norm_num), bind_ok', Chk.square_n_eq _ _ (by norm_num), bind_ok', Chk.square_n_eq _ _ (by norm_num), bind_ok',
    Chk.square_n_eq _ _ (by norm_num), bind_ok', Chk.square_n_eq _ _ (by norm_num), bind_ok', pure_ok, Ed448.isr]

theorem Chk.BigNumber.invert_eq (x : BN) : Chk.BigNumber.invert x = .ok (Ed448.invert x) := by
  rw [Chk.BigNumber.invert]
  dsimp only
  rw [Chk.BigNumber.isr_eq, bind_ok', pure_ok, Ed448.invert]

theorem BN.ofList_toList (n : BN) : BN.ofList n.toList = n := rfl

theorem Chk.BigNumber.constant_time_select_eq (x y : BN) (first : W32) :
    Chk.BigNumber.constant_time_select x y first = .ok (Ed448.constant_time_select x y first) := by
  rw [Chk.BigNumber.constant_time_select, Chk.conditional_swap_eq, bind_ok']
  rfl

theorem Chk.BigNumber.conditional_negate_eq (n : BN) (negate : W32) :
    Chk.BigNumber.conditional_negate n negate = .ok (Ed448.conditional_negate n negate) := by
  rw [Chk.BigNumber.conditional_negate, Chk.BigNumber.neg_eq, bind_ok', Chk.BigNumber.constant_time_select_eq, Ed448.conditional_negate]

theorem Chk.BigNumber.mul_with_signed_curve_constant_eq (x : BN) {c : ℤ} (h : -2 ^ 63 < c) :
    Chk.BigNumber.mul_with_signed_curve_constant x c = Ed448.mul_with_signed_curve_constant x c := by
  rw [Chk.BigNumber.mul_with_signed_curve_constant, Ed448.mul_with_signed_curve_constant]
  by_cases hc : c > 0
  · rw [if_pos hc, if_pos hc]
  · rw [if_neg hc, if_neg hc, chkI64_ok (by omega) (by omega), bind_ok']
    congr 1

theorem Chk.BigNumber.decaf_equal_eq (n x : BN) : Chk.BigNumber.decaf_equal n x = .ok (Ed448.decaf_equal n x) := by
  rw [Chk.BigNumber.decaf_equal, Chk.BigNumber.sub_eq, bind_ok', Chk.strong_reduce_eq, bind_ok', pure_ok, Ed448.decaf_equal]
  rw [show (0 : W32) = 0#32 from rfl, BitVec.zero_or]

theorem Chk.BigNumber.decaf_cond_negate_eq (n : BN) (neg : W32) : Chk.BigNumber.decaf_cond_negate n neg = .ok (Ed448.decaf_cond_negate n neg) := by
  rw [Chk.BigNumber.decaf_cond_negate, Chk.BigNumber.sub_eq, bind_ok', pure_ok, Ed448.decaf_cond_negate]

/-! ## Points -/

theorem Chk.to_extended_point_eq (p : PNiels) : Chk.to_extended_point p = .ok p.to_extended_point := by
  rw [Chk.to_extended_point]
  dsimp only
  rw [Chk.BigNumber.sub_eq, bind_ok', pure_ok, PNiels.to_extended_point]

theorem Chk.double_internal_eq (p : Pt) (b : Bool) : Chk.double_internal p b = .ok (p.double_internal b) := by
  rw [Chk.double_internal]
  dsimp only
  rw [Chk.BigNumber.sub_x_bias_eq _ _ (by decide), bind_ok', Chk.BigNumber.sub_eq, bind_ok', Chk.BigNumber.sub_x_bias_eq _ _ (by decide), bind_ok', pure_ok, Pt.double_internal]

theorem Chk.mod_equal_eq (p p2 : Pt) : Chk.mod_equal p p2 = .ok (p.mod_equal p2) := by
  rw [Chk.mod_equal]
  rw [Chk.BigNumber.decaf_equal_eq, bind_ok', pure_ok, Pt.mod_equal]

theorem Chk.add_niels_to_extended_eq (p : Pt) (np : TwistedNiels) (b : Bool) :
    Chk.add_niels_to_extended p np b = .ok (p.add_niels_to_extended np b) := by
  rw [Chk.add_niels_to_extended]
  dsimp only
  rw [Chk.BigNumber.sub_eq, bind_ok', Chk.BigNumber.sub_eq, bind_ok', Chk.BigNumber.sub_eq, bind_ok', pure_ok, Pt.add_niels_to_extended]

theorem Chk.sub_niels_from_extended_point_eq (p : Pt) (np : TwistedNiels) (b : Bool) :
    Chk.sub_niels_from_extended_point p np b = .ok (p.sub_niels_from_extended_point np b) := by
  rw [Chk.sub_niels_from_extended_point]
  dsimp only
  rw [Chk.BigNumber.sub_eq, bind_ok', Chk.BigNumber.sub_eq, bind_ok', Chk.BigNumber.sub_eq, bind_ok', pure_ok, Pt.sub_niels_from_extended_point]

theorem Chk.add_projected_niels_to_extended_eq (p : Pt) (np : PNiels) (b : Bool) :
    Chk.add_projected_niels_to_extended p np b = .ok (p.add_projected_niels_to_extended np b) := by
  rw [Chk.add_projected_niels_to_extended, Pt.add_projected_niels_to_extended]
  rw [Chk.add_niels_to_extended_eq]

theorem Chk.sub_projected_niels_from_extended_point_eq (p : Pt) (np : PNiels) (b : Bool) :
    Chk.sub_projected_niels_from_extended_point p np b = .ok (p.sub_projected_niels_from_extended_point np b) := by
  rw [Chk.sub_projected_niels_from_extended_point, Pt.sub_projected_niels_from_extended_point]
  rw [Chk.sub_niels_from_extended_point_eq]

theorem low_bit_set (l : List Byte) (h : l.length = 56) (x : Byte) :
    (copyInto (List.replicate 57 0) 0 56 l >>= fun res => setIdx res 56 x) = .ok (l ++ [x]) := by
  have e : copyInto (List.replicate 57 0) 0 56 l = .ok (l ++ [0]) := by
    rw [copyInto, if_pos ⟨by norm_num, by simp, by simpa using h⟩]
    rfl
  rw [e, bind_ok', setIdx, if_pos (by simp [h]), List.set_append_right _ _ (by omega), h]
  rfl

theorem Chk.eddsa_like_encode_eq (p : Pt) : Chk.eddsa_like_encode p = .ok p.eddsa_like_encode.1 := by
  rw [Chk.eddsa_like_encode]
  dsimp only
  rw [Chk.BigNumber.sub_eq, bind_ok', Chk.BigNumber.sub_eq, bind_ok', Chk.BigNumber.sub_eq, bind_ok', Chk.BigNumber.invert_eq, bind_ok',
    Chk.dsa_like_serialize_eq, bind_ok', Chk.BigNumber.low_bit_eq]
  simp only [bind_ok']
  rw [low_bit_set _ (Ed448.dsa_like_serialize _).2, Pt.eddsa_like_encode]

theorem Chk.is_on_curve_eq (p : Pt) : Chk.is_on_curve p = p.is_on_curve := by
  rw [Chk.is_on_curve, Pt.is_on_curve]
  dsimp only
  rw [Chk.BigNumber.decaf_equal_eq, bind_ok', Chk.BigNumber.sub_eq, bind_ok', chkI64_ok (by decide) (by decide), bind_ok']
  congr 1
  funext c
  rw [Chk.BigNumber.sub_eq, bind_ok', Chk.BigNumber.decaf_equal_eq, bind_ok', Chk.BigNumber.decaf_equal_eq, bind_ok']

theorem Chk.to_projected_niels_eq (p : Pt) : Chk.to_projected_niels p = p.to_projected_niels := by
  rw [Chk.to_projected_niels, Pt.to_projected_niels]
  dsimp only
  rw [Chk.BigNumber.sub_eq, bind_ok', chkI64_ok (by decide) (by decide), bind_ok', chkI64_ok (by decide) (by decide), bind_ok',
    Chk.BigNumber.mul_with_signed_curve_constant_eq _ (by decide)]

theorem Chk.conditional_negate_eq (n : TwistedNiels) (neg : W32) : Chk.conditional_negate n neg = .ok (n.conditional_negate neg) := by
  rw [Chk.conditional_negate, Chk.conditional_swap_eq, bind_ok']
  dsimp only
  rw [Chk.BigNumber.conditional_negate_eq, bind_ok', BN.ofList_toList, BN.ofList_toList, pure_ok, TwistedNiels.conditional_negate]

theorem Chk.to_extended_eq (n : TwistedNiels) : Chk.to_extended n = .ok n.to_extended := by
  rw [Chk.to_extended]
  dsimp only
  rw [Chk.BigNumber.sub_eq, bind_ok', pure_ok, TwistedNiels.to_extended]

end Ed448
