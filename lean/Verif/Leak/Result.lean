import Verif.Model.Leak

/-!
# The record does not change the results
-/

namespace Ed448.Leak

open Ed448

@[simp] theorem result_bind {α β : Type} (x : Leak α) (f : α → Leak β) : (x >>= f).result = x.result >>= fun a => (f a).result := rfl

@[simp] theorem result_pure {α : Type} (a : α) : (pure a : Leak α).result = pure a := rfl

@[simp] theorem result_branch (b : Bool) : (branch b).result = pure () := rfl

@[simp] theorem result_idx {α : Type} (l : List α) (i : Nat) : (idx l i).result = Ed448.idx l i := rfl

@[simp] theorem result_setIdx {α : Type} (l : List α) (i : Nat) (x : α) : (setIdx l i x).result = Ed448.setIdx l i x := rfl

@[simp] theorem result_lookup (l : List TwistedNiels) (i : Nat) : (lookup l i).result = Ed448.idx l i := rfl

@[simp] theorem result_slice (b : List Byte) (lo hi : Nat) : (slice b lo hi).result = Ed448.slice b lo hi := rfl

@[simp] theorem result_copyInto (dst : List Byte) (lo hi : Nat) (src : List Byte) :
    (copyInto dst lo hi src).result = Ed448.copyInto dst lo hi src := rfl

@[simp] theorem result_chkI64 (x : Int) : (chkI64 x).result = Ed448.chkI64 x := rfl
@[simp] theorem result_chkU64 (x : Nat) : (chkU64 x).result = Ed448.chkU64 x := rfl
@[simp] theorem result_chkU32 (x : Nat) : (chkU32 x).result = Ed448.chkU32 x := rfl
@[simp] theorem result_chkI32 (x : Int) : (chkI32 x).result = Ed448.chkI32 x := rfl
@[simp] theorem result_subU (a b : Nat) : (subU a b).result = Ed448.subU a b := rfl
@[simp] theorem result_shl32 (x : W32) (n : Nat) : (shl32 x n).result = Ed448.shl32 x n := rfl
@[simp] theorem result_shr32 (x : W32) (n : Nat) : (shr32 x n).result = Ed448.shr32 x n := rfl
@[simp] theorem result_silent {α : Type} (x : Rust α) : (silent x).result = x := rfl
@[simp] theorem result_sha3 (xof : Xof) (l : List Byte) (n : Nat) : (sha3 xof l n).result = pure (Ed448.sha3 xof l n).1 := rfl
@[simp] theorem result_hash_with_dom (xof : Xof) (l : List Byte) (n : Nat) :
    (hash_with_dom xof l n).result = pure (Ed448.hash_with_dom xof l n).1 := rfl

@[simp] theorem result_ite {α : Type} (c : Prop) [Decidable c] (x y : Leak α) :
    (if c then x else y).result = if c then x.result else y.result := by split <;> rfl

theorem bind_unit {α : Type} (f : Unit → Rust α) : ((pure () : Rust Unit) >>= f) = f () := rfl

@[simp] theorem result_loop {σ : Type} (body : Nat → σ → Leak σ) : ∀ (is : List Nat) (st : σ),
    (loop body is st).result = Ed448.loop (fun i st => (body i st).result) is st
  | [], _ => rfl
  | i :: is, st => by
    rw [loop, Ed448.loop, result_bind]
    congr 1
    funext a
    exact result_loop body is a

@[simp] theorem result_forTo {σ : Type} (n : Nat) (st : σ) (body : Nat → σ → Leak σ) :
    (forTo n st body).result = Ed448.forTo n st (fun i st => (body i st).result) := result_loop ..

@[simp] theorem result_forRev {σ : Type} (n : Nat) (st : σ) (body : Nat → σ → Leak σ) :
    (forRev n st body).result = Ed448.forRev n st (fun i st => (body i st).result) := result_loop ..

@[simp] theorem result_while {σ : Type} (cond : σ → Bool) (body : σ → Leak σ) : ∀ (fuel : Nat) (st : σ),
    (while' cond body fuel st).result = Ed448.while' cond (fun st => (body st).result) fuel st
  | 0, _ => rfl
  | fuel + 1, st => by
    rw [while', Ed448.while', result_bind, result_branch, bind_unit, result_ite, result_bind]
    split
    · congr 1
      funext a
      exact result_while cond body fuel a
    · rfl

theorem sub_extra_result (a b : List W32) (c : W32) : (sub_extra a b c).result = Chk.sub_extra a b c := by
  simp only [sub_extra, Chk.sub_extra, result_bind, result_forTo, result_chkI64, result_pure]
  rfl

theorem add_result (a b : List W32) : (add a b).result = Chk.add a b := by
  simp only [add, Chk.add, result_bind, result_forTo, sub_extra_result]
  rfl

theorem halve_result (a : List W32) : (halve a).result = Chk.halve a := by
  simp only [halve, Chk.halve, result_bind, result_forTo]
  rfl

theorem mmStep_result (x y : List W32) (i : Nat) (st : List W32 × W32) : (mmStep x y i st).result = Chk.mmStep x y i st := by
  simp only [mmStep, Chk.mmStep, result_bind, result_forTo, result_ite, result_branch, bind_unit]
  rfl

theorem montgomery_multiply_result (x y : List W32) : (montgomery_multiply x y).result = Chk.montgomery_multiply x y := by
  simp only [montgomery_multiply, Chk.montgomery_multiply, result_bind, result_forTo, mmStep_result, sub_extra_result]

theorem mul_result (x y : List W32) : (mul x y).result = Chk.mul x y := by
  simp only [mul, Chk.mul, result_bind, montgomery_multiply_result]

/-- One pass of the loop as in `Chk.packLoop`. -/
def packBody (b : List Byte) (size : Nat) (j : Nat) (st : W32 × Nat) : Rust (W32 × Nat) :=
  if st.2 ≥ size then pure st else Ed448.idx b st.2 >>= fun bk => pure (st.1 ||| (bk.setWidth 32 <<< (8 * j)), st.2 + 1)

theorem packBody_stopped (b : List Byte) (size : Nat) (st : W32 × Nat) (h : st.2 ≥ size) : ∀ js : List Nat, Ed448.loop (packBody b size) js st = pure st
  | [] => rfl
  | j :: js => by
    rw [Ed448.loop, packBody, if_pos h]
    exact packBody_stopped b size st h js

theorem packFrom_result (b : List Byte) (size : Nat) : ∀ (js : List Nat) (st : W32 × Nat), (packFrom b size js st).result = Ed448.loop (packBody b size) js st
  | [], _ => rfl
  | j :: js, (out, k) => by
    rw [packFrom, Ed448.loop, packBody, result_bind, result_branch, result_ite]
    by_cases h : k ≥ size
    · rw [if_pos h, if_pos h]
      exact (packBody_stopped b size (out, k) h js).symm
    · rw [if_neg h, if_neg h, result_bind, result_idx]
      cases Ed448.idx b k with
      | error e => rfl
      | ok bk => exact packFrom_result b size js _

theorem packLoop_result (b : List Byte) (size k : Nat) : (packLoop b size k).result = Chk.packLoop b size k := by
  rw [packLoop, packFrom_result]
  rfl

theorem decode_short_result (b : List Byte) (size : Nat) : (decode_short b size).result = Chk.decode_short b size := by
  simp only [decode_short, Chk.decode_short, result_bind, result_forTo, packLoop_result]
  rfl

theorem decode_result (b : List Byte) : (decode b).result = Chk.decode b := by
  simp only [decode, Chk.decode, result_bind, result_forTo, decode_short_result, mul_result]
  rfl

theorem encode_result (s : List W32) : (encode s).result = Chk.encode s := by
  simp only [encode, Chk.encode, result_bind, result_forTo]
  rfl

theorem decode_long_from_result (b : List Byte) (size : Nat) : (decode_long_from b size).result = Chk.decode_long_from b size := by
  simp only [decode_long_from, Chk.decode_long_from, result_bind, result_while, decode_short_result, mul_result, decode_result,
    montgomery_multiply_result, add_result, result_ite, result_branch, bind_unit]
  rfl

theorem decode_long_result (b : List Byte) : (decode_long b).result = Chk.decode_long b := by
  simp only [decode_long, Chk.decode_long, result_bind, decode_long_from_result, result_ite, result_branch, bind_unit]
  rfl

theorem bias_result (n : BN) (b : W32) : (bias n b).result = Chk.bias n b := rfl

theorem squareFirst_result (x : BN) (y : Nat) : (squareFirst x y).result = Chk.squareFirst x y := by
  simp only [squareFirst, Chk.squareFirst, result_bind, result_ite, result_branch, bind_unit]
  rfl

theorem square_n_result (x : BN) (y : Nat) : (square_n x y).result = Chk.square_n x y := by
  simp only [square_n, Chk.square_n, result_bind, result_while, squareFirst_result]
  rfl

theorem conditional_swap_result (n x : List W32) (swap : W32) : (conditional_swap n x swap).result = Chk.conditional_swap n x swap := by
  simp only [conditional_swap, Chk.conditional_swap, result_bind, result_forTo]
  rfl

theorem srSub_result (c : Int) (n : W32) (m : Int) : (srSub c n m).result = Chk.srSub c n m := rfl

theorem srAdd_result (c : Nat) (n : W32) (m : Nat) : (srAdd c n m).result = Chk.srAdd c n m := rfl

theorem strong_reduce_result (n : BN) : (strong_reduce n).result = Chk.strong_reduce n := by
  simp only [strong_reduce, Chk.strong_reduce, result_bind, srSub_result, srAdd_result, result_pure]

theorem serFill_result (x : List W32) (fill j : Nat) (buffer : W64) : (serFill x fill j buffer).result = Chk.serFill x fill j buffer := by
  simp only [serFill, Chk.serFill, result_bind, result_ite, result_branch, bind_unit]
  rfl

theorem serialize_result (x : List W32) : (serialize x).result = Chk.serialize x := by
  simp only [serialize, Chk.serialize, result_bind, result_forTo, serFill_result]
  rfl

theorem dsa_like_serialize_result (n : BN) : (dsa_like_serialize n).result = Chk.dsa_like_serialize n := by
  simp only [dsa_like_serialize, Chk.dsa_like_serialize, result_bind, serialize_result, strong_reduce_result]

namespace BigNumber

theorem neg_result (x : BN) : (neg x).result = Chk.BigNumber.neg x := rfl

theorem sub_result (x y : BN) : (sub x y).result = Chk.BigNumber.sub x y := rfl

theorem sub_x_bias_result (x y : BN) (amt : W32) : (sub_x_bias x y amt).result = Chk.BigNumber.sub_x_bias x y amt := rfl

theorem low_bit_result (x : BN) : (low_bit x).result = Chk.BigNumber.low_bit x := by
  simp only [low_bit, Chk.BigNumber.low_bit, result_bind, strong_reduce_result, result_pure]

theorem isr_result (x : BN) : (isr x).result = Chk.BigNumber.isr x := by
  simp only [isr, Chk.BigNumber.isr, result_bind, square_n_result, result_pure]

theorem invert_result (x : BN) : (invert x).result = Chk.BigNumber.invert x := by
  simp only [invert, Chk.BigNumber.invert, result_bind, isr_result, result_pure]

theorem constant_time_select_result (x y : BN) (first : W32) :
    (constant_time_select x y first).result = Chk.BigNumber.constant_time_select x y first := by
  simp only [constant_time_select, Chk.BigNumber.constant_time_select, result_bind, conditional_swap_result]
  rfl

theorem conditional_negate_result (n : BN) (negate : W32) :
    (conditional_negate n negate).result = Chk.BigNumber.conditional_negate n negate := by
  simp only [conditional_negate, Chk.BigNumber.conditional_negate, result_bind, neg_result, constant_time_select_result]

end BigNumber

theorem double_internal_result (p : Pt) (b : Bool) : (double_internal p b).result = Chk.double_internal p b := by
  simp only [double_internal, Chk.double_internal, result_bind, BigNumber.sub_result, BigNumber.sub_x_bias_result, result_branch, bind_unit,
    result_pure]

theorem add_niels_to_extended_result (p : Pt) (np : TwistedNiels) (b : Bool) :
    (add_niels_to_extended p np b).result = Chk.add_niels_to_extended p np b := by
  simp only [add_niels_to_extended, Chk.add_niels_to_extended, result_bind, BigNumber.sub_result, result_branch, bind_unit, result_pure]

theorem eddsa_like_encode_result (p : Pt) : (eddsa_like_encode p).result = Chk.eddsa_like_encode p := by
  simp only [eddsa_like_encode, Chk.eddsa_like_encode, result_bind, BigNumber.sub_result, BigNumber.invert_result, dsa_like_serialize_result,
    BigNumber.low_bit_result, result_copyInto, result_setIdx]

theorem conditional_negate_result (n : TwistedNiels) (neg : W32) : (conditional_negate n neg).result = Chk.conditional_negate n neg := by
  simp only [conditional_negate, Chk.conditional_negate, result_bind, conditional_swap_result, BigNumber.conditional_negate_result]
  rfl

theorem to_extended_result (n : TwistedNiels) : (to_extended n).result = Chk.to_extended n := rfl

theorem combTab_result (s : List W32) (i j : Nat) : (combTab s i j).result = Chk.combTab s i j := by
  simp only [combTab, Chk.combTab, result_bind, result_forTo, result_ite, result_branch, bind_unit]
  rfl

theorem combSelect_result (s : List W32) (i j : Nat) : (combSelect s i j).result = Chk.combSelect s i j := by
  simp only [combSelect, Chk.combSelect, result_bind, combTab_result, conditional_negate_result, result_lookup, result_subU, result_chkI32]

theorem precomputed_scalar_mul_result (s : List W32) : (precomputed_scalar_mul s).result = Chk.precomputed_scalar_mul s := by
  simp only [precomputed_scalar_mul, Chk.precomputed_scalar_mul, result_bind, add_result, halve_result, result_forRev, result_forTo, result_ite,
    result_branch, bind_unit, combSelect_result, double_internal_result, add_niels_to_extended_result, to_extended_result, result_subU, result_pure]

theorem clamp_result (pk : List Byte) : (clamp pk).result = Chk.clamp pk := rfl

theorem point_by_secret_result (p : List Byte) : (point_by_secret p).result = Chk.point_by_secret p := by
  simp only [point_by_secret, Chk.point_by_secret, result_bind, clamp_result, decode_long_result, halve_result, precomputed_scalar_mul_result]

theorem private_to_secret_result (xof : Xof) (pk : List Byte) : (private_to_secret xof pk).result = Chk.private_to_secret xof pk := rfl

theorem secret_to_public_result (sk : List Byte) : (secret_to_public sk).result = Chk.secret_to_public sk := by
  simp only [secret_to_public, Chk.secret_to_public, result_bind, point_by_secret_result, eddsa_like_encode_result]

theorem private_to_public_result (xof : Xof) (pk : List Byte) : (private_to_public xof pk).result = Chk.private_to_public xof pk := by
  simp only [private_to_public, Chk.private_to_public, result_bind, private_to_secret_result, secret_to_public_result]

theorem bind_pure {α β : Type} (a : α) (f : α → Rust β) : ((pure a : Rust α) >>= f) = f a := Eq.trans rfl rfl

theorem signTail_result (xof : Xof) (point : Pt) (sec : List W32) (seed message : List Byte) :
    (signTail xof point sec seed message).result = Chk.signTail xof point sec seed message := by
  simp only [signTail, Chk.signTail, result_bind, result_hash_with_dom, bind_pure, decode_long_result, halve_result,
    precomputed_scalar_mul_result, eddsa_like_encode_result, mul_result, add_result, encode_result, result_copyInto]

theorem sign_by_private_result (xof : Xof) (pk message : List Byte) :
    (sign_by_private xof pk message).result = Chk.sign_by_private xof pk message := by
  simp only [sign_by_private, Chk.sign_by_private, result_bind, result_sha3, bind_pure, clamp_result, result_slice, result_copyInto,
    decode_long_result, point_by_secret_result, signTail_result]

theorem sign_with_secret_and_nonce_result (xof : Xof) (secret n message : List Byte) :
    (sign_with_secret_and_nonce xof secret n message).result = Chk.sign_with_secret_and_nonce xof secret n message := by
  simp only [sign_with_secret_and_nonce, Chk.sign_with_secret_and_nonce, result_bind, clamp_result, decode_long_result,
    point_by_secret_result, signTail_result]

theorem ed448_derive_public_result (xof : Xof) (pk : List Byte) : (ed448_derive_public xof pk).result = Chk.ed448_derive_public xof pk := by
  simp only [ed448_derive_public, Chk.ed448_derive_public, result_bind, result_subU, result_idx, result_branch, bind_unit, result_ite,
    private_to_public_result, secret_to_public_result]

theorem ed448_sign_result (xof : Xof) (pk message : List Byte) : (ed448_sign xof pk message).result = Chk.ed448_sign xof pk message := by
  simp only [ed448_sign, Chk.ed448_sign, result_bind, result_subU, result_idx, result_branch, bind_unit, result_ite, sign_by_private_result,
    sign_with_secret_and_nonce_result, clamp_result]

end Ed448.Leak
