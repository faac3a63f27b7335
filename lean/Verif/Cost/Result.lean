import Verif.Model.Cost

/-!
# The counting functions compute the same results
-/

namespace Ed448.Cost

theorem bind_def {α β : Type} (x : Cost α) (f : α → Cost β) : x >>= f = x.andThen f := rfl

@[simp] theorem pure_result {α : Type} (a : α) : (pure a : Cost α).result = .ok a := Eq.trans rfl rfl

@[simp] theorem free_result {α : Type} (x : Rust α) : (free x).result = x := Eq.trans rfl rfl

@[simp] theorem bind_result {α β : Type} (x : Cost α) (f : α → Cost β) : (x >>= f).result = (x.result >>= fun a => (f a).result) := by
  rw [bind_def, andThen]
  cases x.result <;> rfl

@[simp] theorem mul_w_result (x : BN) (w : W64) : (mul_w x w).result = Ed448.mul_w x w := Eq.trans rfl rfl

theorem ok_bind {α β : Type} (a : α) (f : α → Rust β) : (Except.ok a >>= f : Rust β) = f a := Eq.trans rfl rfl

attribute [local irreducible] Ed448.mul Ed448.square Ed448.sub Ed448.add Ed448.add_raw Ed448.sub_x_bias

theorem double_eq (p : Pt) (b : Bool) : double_internal p b = ⟨cond b 7 8, [], .ok (p.double_internal b)⟩ := by cases b <;> rfl

theorem add_niels_eq (p : Pt) (np : TwistedNiels) (b : Bool) :
    add_niels_to_extended p np b = ⟨cond b 6 7, [], .ok (p.add_niels_to_extended np b)⟩ := by cases b <;> rfl

theorem sub_niels_eq (p : Pt) (np : TwistedNiels) (b : Bool) :
    sub_niels_from_extended_point p np b = ⟨cond b 6 7, [], .ok (p.sub_niels_from_extended_point np b)⟩ := by cases b <;> rfl

theorem add_proj_eq (p : Pt) (np : PNiels) (b : Bool) :
    add_projected_niels_to_extended p np b = ⟨cond b 7 8, [], .ok (p.add_projected_niels_to_extended np b)⟩ := by cases b <;> rfl

theorem sub_proj_eq (p : Pt) (np : PNiels) (b : Bool) :
    sub_projected_niels_from_extended_point p np b = ⟨cond b 7 8, [], .ok (p.sub_projected_niels_from_extended_point np b)⟩ := by cases b <;> rfl

theorem to_extended_point_eq (p : PNiels) : to_extended_point p = ⟨4, [], .ok p.to_extended_point⟩ := rfl

theorem to_extended_eq (n : TwistedNiels) : to_extended n = ⟨1, [], .ok n.to_extended⟩ := rfl

theorem mod_equal_eq (p p2 : Pt) : mod_equal p p2 = ⟨2, [], .ok (p.mod_equal p2)⟩ := rfl

theorem decodeIsogeny_eq (x y : BN) : decodeIsogeny x y = ⟨8, [], .ok (Ed448.decodeIsogeny x y)⟩ := rfl

theorem squarePairs_eq (k : Nat) (n : BN) : squarePairs k n = ⟨2 * k, [], .ok (Ed448.squarePairs k n)⟩ := by
  induction k generalizing n with
  | zero => rfl
  | succ k ih =>
    rw [squarePairs, bind_def, andThen]
    simp only [square, bind_def, andThen, ih, Ed448.squarePairs, List.nil_append, mk.injEq, and_true]
    omega

theorem square_n_eq (x : BN) (y : Nat) (hy : 0 < y) : square_n x y = ⟨y, [], .ok (Ed448.square_n x y)⟩ := by
  rw [square_n, Ed448.square_n]
  split <;> simp only [square, bind_def, andThen, squarePairs_eq, List.nil_append, mk.injEq, and_true] <;> omega

/-- `k` multiplications before a computation. -/
def tick {α : Type} (k : Nat) (x : Cost α) : Cost α := ⟨k + x.mults, x.hashed, x.result⟩

theorem tick_pure {α : Type} (k : Nat) (a : α) : tick k (pure a) = ⟨k, [], .ok a⟩ := rfl

theorem square_bind {α : Type} (x : BN) (f : BN → Cost α) : square x >>= f = tick 1 (f (Ed448.square x)) := rfl

theorem mul_bind {α : Type} (x y : BN) (f : BN → Cost α) : mul x y >>= f = tick 1 (f (Ed448.mul x y)) := rfl

theorem square_n_bind {α : Type} (x : BN) (y : Nat) (hy : 0 < y) (f : BN → Cost α) :
    square_n x y >>= f = tick y (f (Ed448.square_n x y)) := by rw [square_n_eq x y hy]; rfl

theorem tick_tick {α : Type} (a b : Nat) (x : Cost α) : tick a (tick b x) = tick (a + b) x := by
  simp only [tick, Nat.add_assoc]

theorem isr_eq (x : BN) : isr x = ⟨459, [], .ok (Ed448.isr x)⟩ := by
  rw [isr, square_bind, mul_bind, square_bind, mul_bind, square_n_bind _ _ (by decide), mul_bind, square_n_bind _ _ (by decide), mul_bind,
    square_n_bind _ _ (by decide), mul_bind, square_bind, mul_bind, square_n_bind _ _ (by decide), mul_bind, square_n_bind _ _ (by decide),
    mul_bind, square_n_bind _ _ (by decide), mul_bind, square_n_bind _ _ (by decide), mul_bind, square_bind, mul_bind, square_n_bind _ _ (by
    decide), mul_bind, square_bind, mul_bind]
  rw [tick_tick, tick_tick, tick_tick, tick_tick, tick_tick, tick_tick, tick_tick, tick_tick, tick_tick, tick_tick, tick_tick, tick_tick,
    tick_tick, tick_tick, tick_tick, tick_tick, tick_tick, tick_tick, tick_tick, tick_tick, tick_tick, tick_tick, tick_tick, tick_tick, tick_tick, tick_pure]
  rw [Ed448.isr]

attribute [local irreducible] Ed448.isr

theorem invert_eq (x : BN) : invert x = ⟨462, [], .ok (Ed448.invert x)⟩ := by
  rw [invert]
  simp only [isr_eq]
  rfl

attribute [local irreducible] Ed448.invert Ed448.dsa_like_serialize Ed448.low_bit

theorem invert_bind {α : Type} (x : BN) (f : BN → Cost α) : invert x >>= f = tick 462 (f (Ed448.invert x)) := by rw [invert_eq]; rfl

theorem encode_eq (p : Pt) : eddsa_like_encode p = ⟨471, [], .ok p.eddsa_like_encode⟩ := by
  rw [eddsa_like_encode]
  dsimp only
  rw [square_bind, square_bind, square_bind, square_bind, mul_bind, mul_bind, mul_bind, invert_bind, mul_bind, mul_bind, tick_tick,
    tick_tick, tick_tick, tick_tick, tick_tick, tick_tick, tick_tick, tick_tick, tick_tick, tick_pure, Pt.eddsa_like_encode]

theorem doubleTimes_eq (k : Nat) (p : Pt) : doubleTimes k p = ⟨7 * k, [], .ok (Pt.doubleTimes k p)⟩ := by
  induction k with
  | zero => rfl
  | succ k ih => rw [doubleTimes, ih]; simp only [bind_def, andThen, double_eq, Pt.doubleTimes]; rfl

@[simp] theorem square_result (x : BN) : (square x).result = .ok (Ed448.square x) := Eq.trans rfl rfl
@[simp] theorem mul_result (x y : BN) : (mul x y).result = .ok (Ed448.mul x y) := Eq.trans rfl rfl
@[simp] theorem sha3_result (xof : Xof) (l : List Byte) (n : Nat) : (sha3 xof l n).result = .ok (Ed448.sha3 xof l n) := Eq.trans rfl rfl
@[simp] theorem hash_result (xof : Xof) (l : List Byte) (n : Nat) : (hash_with_dom xof l n).result = .ok (Ed448.hash_with_dom xof l n) := Eq.trans rfl rfl
@[simp] theorem isr_result (x : BN) : (isr x).result = .ok (Ed448.isr x) := by rw [isr_eq]
@[simp] theorem double_result (p : Pt) (b : Bool) : (double_internal p b).result = .ok (p.double_internal b) := by rw [double_eq]
@[simp] theorem add_niels_result (p : Pt) (np : TwistedNiels) (b : Bool) :
    (add_niels_to_extended p np b).result = .ok (p.add_niels_to_extended np b) := by rw [add_niels_eq]
@[simp] theorem sub_niels_result (p : Pt) (np : TwistedNiels) (b : Bool) :
    (sub_niels_from_extended_point p np b).result = .ok (p.sub_niels_from_extended_point np b) := by rw [sub_niels_eq]
@[simp] theorem add_proj_result (p : Pt) (np : PNiels) (b : Bool) :
    (add_projected_niels_to_extended p np b).result = .ok (p.add_projected_niels_to_extended np b) := by rw [add_proj_eq]
@[simp] theorem sub_proj_result (p : Pt) (np : PNiels) (b : Bool) :
    (sub_projected_niels_from_extended_point p np b).result = .ok (p.sub_projected_niels_from_extended_point np b) := by rw [sub_proj_eq]
@[simp] theorem to_extended_point_result (p : PNiels) : (to_extended_point p).result = .ok p.to_extended_point := Eq.trans rfl rfl
@[simp] theorem to_extended_result (n : TwistedNiels) : (to_extended n).result = .ok n.to_extended := Eq.trans rfl rfl
@[simp] theorem mod_equal_result (p p2 : Pt) : (mod_equal p p2).result = .ok (p.mod_equal p2) := Eq.trans rfl rfl
@[simp] theorem decodeIsogeny_result (x y : BN) : (decodeIsogeny x y).result = .ok (Ed448.decodeIsogeny x y) := Eq.trans rfl rfl
@[simp] theorem encode_result (p : Pt) : (eddsa_like_encode p).result = .ok p.eddsa_like_encode := by rw [encode_eq]
@[simp] theorem doubleTimes_result (k : Nat) (p : Pt) : (doubleTimes k p).result = .ok (Pt.doubleTimes k p) := by rw [doubleTimes_eq]

@[simp] theorem ite_result {α : Type} (c : Prop) [Decidable c] (x y : Cost α) : (if c then x else y).result = if c then x.result else y.result := by
  split <;> rfl

@[simp] theorem cond_result {α : Type} (c : Bool) (x y : Cost α) : (cond c x y).result = cond c x.result y.result := by cases c <;> rfl

theorem pure_eq_ok {α : Type} (a : α) : (pure a : Rust α) = .ok a := Eq.trans rfl rfl

attribute [local irreducible] Pt.double_internal Pt.add_niels_to_extended Pt.sub_niels_from_extended_point Pt.add_projected_niels_to_extended
  Pt.sub_projected_niels_from_extended_point PNiels.to_extended_point TwistedNiels.to_extended Pt.mod_equal Ed448.decodeIsogeny
  Pt.eddsa_like_encode Pt.doubleTimes Ed448.mul_w

@[simp] theorem mul_sc_result (x : BN) (c : Int) : (mul_with_signed_curve_constant x c).result = Ed448.mul_with_signed_curve_constant x c := by
  simp only [mul_with_signed_curve_constant, Ed448.mul_with_signed_curve_constant, ite_result, bind_result, mul_w_result, pure_result]
  rfl

@[simp] theorem is_on_curve_result (p : Pt) : (is_on_curve p).result = p.is_on_curve := by
  simp only [is_on_curve, Pt.is_on_curve, bind_result, mul_result, square_result, ok_bind, mul_w_result, pure_result]
  rfl

@[simp] theorem to_projected_niels_result (p : Pt) : (to_projected_niels p).result = p.to_projected_niels := by
  simp only [to_projected_niels, Pt.to_projected_niels, bind_result, mul_sc_result, pure_result]
  rfl

@[simp] theorem fixedWindowLoop_result (pn : PNiels) : ∀ (k : Nat) (p : Pt), (fixedWindowLoop pn k p).result = Ed448.fixedWindowLoop pn k p
  | 0, _ => rfl
  | k + 1, p => by
    simp only [fixedWindowLoop, Ed448.fixedWindowLoop, bind_result, add_proj_result, ok_bind, to_projected_niels_result,
      fixedWindowLoop_result pn k, pure_result, pure_eq_ok]

theorem prepare_fixed_window_rest (p d : Pt) (n : Nat) :
    (do
      let pn ← to_projected_niels d
      let e ← to_projected_niels p
      let rest ← fixedWindowLoop pn n p
      pure (e :: rest) : Cost (List PNiels)).result = (do
      let pn ← d.to_projected_niels
      let e ← p.to_projected_niels
      let rest ← Ed448.fixedWindowLoop pn n p
      pure (e :: rest)) := by
  simp only [bind_result, to_projected_niels_result, fixedWindowLoop_result, pure_result, pure_eq_ok]

@[simp] theorem prepare_fixed_window_result (p : Pt) : (prepare_fixed_window p).result = p.prepare_fixed_window := by
  rw [prepare_fixed_window, bind_result, double_result, ok_bind, prepare_fixed_window_rest, Pt.prepare_fixed_window]

@[simp] theorem scalarMulLoop_result (l : List PNiels) (s : List W32) : ∀ (k : Nat) (p : Pt), (scalarMulLoop l s k p).result = Ed448.scalarMulLoop l s k p
  | 0, _ => rfl
  | k + 1, p => by
    simp only [scalarMulLoop, Ed448.scalarMulLoop, bind_result, add_proj_result, ok_bind, free_result, doubleTimes_result, double_result,
      scalarMulLoop_result l s k]

@[simp] theorem point_scalar_mul_result (p : Pt) (s : Scalar) : (point_scalar_mul p s).result = p.point_scalar_mul s := by
  simp only [point_scalar_mul, Pt.point_scalar_mul, bind_result, prepare_fixed_window_result, free_result, to_extended_point_result, ok_bind,
    scalarMulLoop_result]

@[simp] theorem wnafTableLoop_result (pn : PNiels) : ∀ (k : Nat) (p : Pt), (wnafTableLoop pn k p).result = Ed448.wnafTableLoop pn k p
  | 0, _ => rfl
  | k + 1, p => by
    simp only [wnafTableLoop, Ed448.wnafTableLoop, bind_result, add_proj_result, ok_bind, to_projected_niels_result,
      wnafTableLoop_result pn k, pure_result, pure_eq_ok]

theorem prepare_wnaf_last (d0 tw : PNiels) (p : Pt) (n : Nat) :
    (do
      let d1 ← to_projected_niels p
      let rest ← wnafTableLoop tw n p
      pure (d0 :: d1 :: rest) : Cost (List PNiels)).result = (do
      let d1 ← p.to_projected_niels
      let rest ← Ed448.wnafTableLoop tw n p
      pure (d0 :: d1 :: rest)) := by
  simp only [bind_result, to_projected_niels_result, wnafTableLoop_result, pure_result, pure_eq_ok]

theorem prepare_wnaf_rest (d0 : PNiels) (p : Pt) (n : Nat) :
    (do
      let tw_op ← to_projected_niels p
      let p ← add_projected_niels_to_extended p d0 false
      let d1 ← to_projected_niels p
      let rest ← wnafTableLoop tw_op n p
      pure (d0 :: d1 :: rest) : Cost (List PNiels)).result = (do
      let tw_op ← p.to_projected_niels
      let d1 ← (p.add_projected_niels_to_extended d0 false).to_projected_niels
      let rest ← Ed448.wnafTableLoop tw_op n (p.add_projected_niels_to_extended d0 false)
      pure (d0 :: d1 :: rest)) := by
  rw [bind_result, to_projected_niels_result]
  congr 1
  funext tw
  rw [bind_result, add_proj_result, ok_bind, prepare_wnaf_last]

@[simp] theorem prepare_wnaf_result (p : Pt) : (decaf_prepare_wnaf_table p).result = Ed448.decaf_prepare_wnaf_table p := by
  rw [decaf_prepare_wnaf_table, Ed448.decaf_prepare_wnaf_table, bind_result, to_projected_niels_result]
  congr 1
  funext d0
  rw [bind_result, double_result, ok_bind, prepare_wnaf_rest]

@[simp] theorem addVar_result (l : List PNiels) (i : Int) (ev : SmvtControl) (cp : Bool) (out : Pt) :
    (addVar l i ev cp out).result = Ed448.addVar l i ev cp out := by
  simp only [addVar, Ed448.addVar, ite_result, bind_result, free_result, add_proj_result, sub_proj_result, pure_eq_ok]

@[simp] theorem addPre_result (i : Int) (ep : SmvtControl) (out : Pt) : (addPre i ep out).result = Ed448.addPre i ep out := by
  simp only [addPre, Ed448.addPre, ite_result, bind_result, free_result, add_niels_result, sub_niels_result, pure_eq_ok]

@[simp] theorem doubleScalarLoop_result (cv cp : List SmvtControl) (l : List PNiels) : ∀ (k v p : Nat) (out : Pt),
    (doubleScalarLoop cv cp l k v p out).result = Ed448.doubleScalarLoop cv cp l k v p out
  | 0, _, _, _ => rfl
  | k + 1, v, p, out => by
    simp only [doubleScalarLoop, Ed448.doubleScalarLoop, bind_result, free_result, double_result, ok_bind, cond_result, addVar_result,
      addPre_result, pure_result, pure_eq_ok, doubleScalarLoop_result cv cp l k]

@[simp] theorem firstDigits_result (v0 p0 : SmvtControl) (l : List PNiels) : (firstDigits v0 p0 l).result = Ed448.firstDigits v0 p0 l := by
  simp only [firstDigits, Ed448.firstDigits, ite_result, bind_result, free_result, to_extended_point_result, ok_bind, add_niels_result,
    to_extended_result, pure_result, pure_eq_ok]

@[simp] theorem double_scalarmul_result (p : Pt) (s t : Scalar) :
    (point_double_scalamul_non_secret p s t).result = p.point_double_scalamul_non_secret s t := by
  simp only [point_double_scalamul_non_secret, Pt.point_double_scalamul_non_secret, ite_result, bind_result, free_result,
    prepare_wnaf_result, firstDigits_result, doubleScalarLoop_result, pure_result, pure_eq_ok]

@[simp] theorem decodeRoot_result (y : BN) (low : W32) : (decodeRoot y low).result = Ed448.decodeRoot y low := by
  simp only [decodeRoot, Ed448.decodeRoot, bind_result, square_result, ok_bind, mul_sc_result, mul_result, isr_result, pure_result, pure_eq_ok]

@[simp] theorem decodeFinish_result (p : Pt) (succ : W32) : (decodeFinish p succ).result = Ed448.decodeFinish p succ := by
  simp only [decodeFinish, Ed448.decodeFinish, bind_result, ite_result, is_on_curve_result, point_scalar_mul_result, pure_result, pure_eq_ok]

@[simp] theorem eddsaDecode57_result (b : Arr Byte 57) : (eddsaDecode57 b).result = Ed448.eddsaDecode57 b := by
  simp only [eddsaDecode57, Ed448.eddsaDecode57, bind_result, decodeRoot_result, decodeIsogeny_result, ok_bind, decodeFinish_result]

@[simp] theorem decode_result (b : List Byte) : (eddsa_like_decode b).result = Ed448.eddsa_like_decode b := by
  rw [eddsa_like_decode, Ed448.eddsa_like_decode]
  split
  · exact eddsaDecode57_result _
  · rfl

@[simp] theorem combInner_result (s : List W32) (i : Nat) : ∀ (js : List Nat) (p : Pt), (combInner s i js p).result = Ed448.combInner s i js p
  | [], _ => rfl
  | j :: js, p => by
    by_cases h : i ≠ 17 ∨ j ≠ 0 <;>
      simp only [combInner, Ed448.combInner, bind_result, free_result, h, if_true, if_false, add_niels_result, to_extended_result, ok_bind,
        combInner_result s i js]

@[simp] theorem combOuter_result (s : List W32) (k : Nat) (p : Pt) : (combOuter s k p).result = Ed448.combOuter s k p := by
  induction k generalizing p with
  | zero => rfl
  | succ k ih =>
    rw [combOuter, Ed448.combOuter]
    by_cases h : k ≠ 17
    · simp only [if_pos h, bind_result, double_result, ok_bind, combInner_result, ih]
    · simp only [if_neg h, bind_result, pure_result, ok_bind, combInner_result, ih]

@[simp] theorem precomputed_result (s : Scalar) : (precomputed_scalar_mul s).result = Ed448.precomputed_scalar_mul s := combOuter_result ..

@[simp] theorem verifyPoints_result (xof : Xof) (p p2 r : Pt) (sig1 sig2 : Arr Byte 57) (m : List Byte) :
    (verifyPoints xof p p2 r sig1 sig2 m).result = Ed448.verifyPoints xof p p2 r sig1 sig2 m := by
  simp only [verifyPoints, Ed448.verifyPoints, bind_result, point_scalar_mul_result, encode_result, ok_bind, hash_result,
    double_scalarmul_result, pure_result, pure_eq_ok]

theorem dsa_verify_result (xof : Xof) (pubkey sig m : List Byte) : (dsa_verify xof pubkey sig m).result = Ed448.dsa_verify xof pubkey sig m := by
  rw [dsa_verify, Ed448.dsa_verify, bind_result, decode_result]
  congr 1
  funext r
  cases r with
  | error e => cases e <;> rfl
  | ok p =>
    simp only [bind_result, point_scalar_mul_result, free_result, decode_result]
    congr 1
    funext p2
    congr 1
    funext sig1
    congr 1
    funext sig2
    congr 1
    funext r
    cases r with
    | error e => cases e <;> rfl
    | ok r => simp only [bind_result, verifyPoints_result, mod_equal_result, ok_bind, pure_result, pure_eq_ok]

theorem ed448_verify_result (xof : Xof) (pubkey sig m : List Byte) :
    (ed448_verify xof pubkey sig m).result = Ed448.ed448_verify xof pubkey sig m := by
  rw [ed448_verify, Ed448.ed448_verify, ite_result, dsa_verify_result]
  rfl

theorem point_by_secret_result (p : Arr Byte 57) : (point_by_secret p).result = Ed448.point_by_secret p := precomputed_result _

theorem secret_to_public_result (sk : Arr Byte 57) : (secret_to_public sk).result = Ed448.secret_to_public sk := by
  simp only [secret_to_public, Ed448.secret_to_public, bind_result, point_by_secret_result, encode_result, pure_eq_ok]

theorem private_to_public_result (xof : Xof) (pk : Arr Byte 57) : (private_to_public xof pk).result = Ed448.private_to_public xof pk := by
  simp only [private_to_public, private_to_secret, Ed448.private_to_public, Ed448.private_to_secret, bind_result, sha3_result, ok_bind,
    pure_result, secret_to_public_result]

theorem sign_by_private_result (xof : Xof) (pk : Arr Byte 57) (m : List Byte) :
    (sign_by_private xof pk m).result = Ed448.sign_by_private xof pk m := by
  simp only [sign_by_private, signTail, Ed448.sign_by_private, bind_result, sha3_result, hash_result, ok_bind, point_by_secret_result,
    precomputed_result, encode_result, pure_result, pure_eq_ok]

theorem sign_with_secret_and_nonce_result (xof : Xof) (sk n : Arr Byte 57) (m : List Byte) :
    (sign_with_secret_and_nonce xof sk n m).result = Ed448.sign_with_secret_and_nonce xof sk n m := by
  simp only [sign_with_secret_and_nonce, signTail, Ed448.sign_with_secret_and_nonce, bind_result, hash_result, ok_bind,
    point_by_secret_result, precomputed_result, encode_result, pure_result, pure_eq_ok]

theorem ed448_derive_public_result (xof : Xof) (pk : Arr Byte 57) : (ed448_derive_public xof pk).result = Ed448.ed448_derive_public xof pk := by
  rw [ed448_derive_public, Ed448.ed448_derive_public, ite_result, private_to_public_result, secret_to_public_result]

theorem ed448_sign_result (xof : Xof) (pk : Arr Byte 57) (m : List Byte) : (ed448_sign xof pk m).result = Ed448.ed448_sign xof pk m := by
  simp only [ed448_sign, Ed448.ed448_sign, ite_result, sign_by_private_result, sign_with_secret_and_nonce_result]

end Ed448.Cost
