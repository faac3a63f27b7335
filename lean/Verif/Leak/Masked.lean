import Verif.Leak.Tables
import Verif.Model.Masked
import Verif.Checked.Ops
import Verif.Field.Select
import Verif.Curve.Tables

/-!
# The look-up that reads every entry
-/

namespace Ed448

namespace Leak.Masked

open Leak Ed448

/-! ## Results -/

theorem select_mask (x y : BN) (k : ℕ) (t : W32) (hk : k < 16) :
    Ed448.constant_time_select x y (is_zero_mask (BitVec.ofNat 32 k ^^^ t)) = if t.toNat = k then x else y := by
  have e : is_zero_mask (BitVec.ofNat 32 k ^^^ t) = maskOf (decide (t.toNat = k)) := by
    rw [is_zero_mask_spec, maskOf]
    have : BitVec.ofNat 32 k ^^^ t = 0 ↔ t.toNat = k := by
      constructor
      · intro h
        have h : BitVec.ofNat 32 k = t := by simpa using h
        rw [← h, BitVec.toNat_ofNat, Nat.mod_eq_of_lt (by omega)]
      · rintro rfl
        simp
    by_cases h : t.toNat = k
    · rw [if_pos (this.2 h), decide_eq_true h, if_pos rfl]
    · rw [if_neg (fun e => h (this.1 e)), decide_eq_false h, if_neg (by decide)]
  rw [e, Ed448.constant_time_select, conditional_swap_spec]
  by_cases h : t.toNat = k <;> simp [h]

/-- One round of `select`. -/
def selectStep (l : List TwistedNiels) (j : ℕ) (t : W32) (k : ℕ) (acc : TwistedNiels) : Rust TwistedNiels := do
  let e ← Ed448.idx l ((j <<< 4) + k)
  let a ← Chk.BigNumber.constant_time_select e.a acc.a (is_zero_mask (BitVec.ofNat 32 k ^^^ t))
  let b ← Chk.BigNumber.constant_time_select e.b acc.b (is_zero_mask (BitVec.ofNat 32 k ^^^ t))
  let c ← Chk.BigNumber.constant_time_select e.c acc.c (is_zero_mask (BitVec.ofNat 32 k ^^^ t))
  pure ⟨a, b, c⟩

theorem selectStep_eq (l : List TwistedNiels) (j : ℕ) (t : W32) (k : ℕ) (acc : TwistedNiels) (hk : k < 16) (hl : (j <<< 4) + k < l.length) :
    selectStep l j t k acc = .ok (if t.toNat = k then l[(j <<< 4) + k] else acc) := by
  rw [selectStep, idx_eq _ _ hl]
  simp only [bind_ok', Chk.BigNumber.constant_time_select_eq, select_mask _ _ _ _ hk]
  by_cases h : t.toNat = k
  · simp only [if_pos h]
    rfl
  · simp only [if_neg h]
    rfl

theorem loop_result (l : List TwistedNiels) (j : ℕ) (t : W32) (hl : ∀ k < 16, (j <<< 4) + k < l.length) (e : TwistedNiels)
    (he : l[(j <<< 4) + t.toNat]? = some e) : ∀ (is : List ℕ) (acc : TwistedNiels), (∀ k ∈ is, k < 16) →
    Ed448.loop (selectStep l j t) is acc = .ok (if t.toNat ∈ is then e else acc)
  | [], acc, _ => rfl
  | k :: is, acc, h => by
    have hk := h k (by simp)
    rw [Ed448.loop, selectStep_eq _ _ _ _ _ hk (hl k hk), bind_ok', loop_result l j t hl e he is _ fun k hk => h k (by simp [hk])]
    congr 1
    by_cases h1 : t.toNat ∈ is
    · simp [h1]
    · by_cases h2 : t.toNat = k
      · subst h2
        rw [List.getElem?_eq_getElem (hl _ hk)] at he
        cases he
        simp [h1]
      · simp [h1, h2]

theorem select_result (j : ℕ) (t : W32) (ht : t.toNat < 16) :
    (select DECAF_PRECOMP_TABLE j 4 t).result = Ed448.idx DECAF_PRECOMP_TABLE ((j <<< 4) + t.toNat) := by
  have hs : j <<< 4 = j * 16 := by rw [Nat.shiftLeft_eq]
  have hl := comb_table_length
  simp only [select, result_forTo, result_bind, result_lookup, BigNumber.constant_time_select_result, result_pure]
  generalize DECAF_PRECOMP_TABLE = l at hl ⊢
  by_cases hj : j < 5
  · have := loop_result l j t (fun k hk => by omega) (l[(j <<< 4) + t.toNat]'(by omega)) (List.getElem?_eq_getElem _) (List.range (1 <<< 4))
      ⟨BIG_ZERO, BIG_ZERO, BIG_ZERO⟩ (fun k hk => by simpa using hk)
    rw [if_pos (by simpa using ht)] at this
    rw [idx_eq _ _ (by omega)]
    exact this
  · have e0 : l[(j <<< 4) + 0]? = none := List.getElem?_eq_none (by omega)
    have e1 : l[(j <<< 4) + t.toNat]? = none := List.getElem?_eq_none (by omega)
    rw [Ed448.forTo, show List.range (1 <<< 4) = 0 :: (List.range 15).map (· + 1) from rfl, Ed448.loop, Ed448.idx, Ed448.idx, e0, e1]
    rfl

theorem combSelect_result (s : List W32) (i j : Nat) : (combSelect s i j).result = Chk.combSelect s i j := by
  rw [← Leak.combSelect_result]
  simp only [combSelect, Leak.combSelect, result_bind, result_subU, result_chkI32, result_lookup]
  congr 1
  funext tab
  show (Ed448.chkI32 _ >>= _) = (Ed448.chkI32 _ >>= _)
  congr 1
  funext inv
  show ((select DECAF_PRECOMP_TABLE j 4 _).result >>= _) = _
  rw [select_result]
  · rfl
  · rw [BitVec.toNat_and]
    exact lt_of_le_of_lt Nat.and_le_right (by decide)

theorem precomputed_scalar_mul_result (s : List W32) : (precomputed_scalar_mul s).result = Chk.precomputed_scalar_mul s := by
  simp only [precomputed_scalar_mul, Chk.precomputed_scalar_mul, result_bind, add_result, halve_result, result_forRev, result_forTo, result_ite,
    result_branch, bind_unit, combSelect_result, double_internal_result, add_niels_to_extended_result, to_extended_result, result_subU, result_pure]

theorem point_by_secret_result (p : List Byte) : (point_by_secret p).result = Chk.point_by_secret p := by
  simp only [point_by_secret, Chk.point_by_secret, result_bind, clamp_result, decode_long_result, halve_result, precomputed_scalar_mul_result]

theorem secret_to_public_result (sk : List Byte) : (secret_to_public sk).result = Chk.secret_to_public sk := by
  simp only [secret_to_public, Chk.secret_to_public, result_bind, point_by_secret_result, eddsa_like_encode_result]

theorem private_to_public_result (xof : Xof) (pk : List Byte) : (private_to_public xof pk).result = Chk.private_to_public xof pk := by
  simp only [private_to_public, Chk.private_to_public, result_bind, private_to_secret_result, secret_to_public_result]

theorem signTail_result (xof : Xof) (point : Pt) (sec : List W32) (seed message : List Byte) :
    (signTail xof point sec seed message).result = Chk.signTail xof point sec seed message := by
  simp only [signTail, Chk.signTail, result_bind, result_hash_with_dom, bind_pure, decode_long_result, halve_result,
    precomputed_scalar_mul_result, eddsa_like_encode_result, mul_result, add_result, encode_result, result_copyInto]

theorem sign_by_private_result (xof : Xof) (pk message : List Byte) :
    (sign_by_private xof pk message).result = Chk.sign_by_private xof pk message := by
  simp only [sign_by_private, Chk.sign_by_private, result_bind, result_sha3, bind_pure, clamp_result, result_slice, result_copyInto,
    decode_long_result, point_by_secret_result, signTail_result]

theorem sign_with_secret_and_nonce_result (xof : Xof) (secret n message : List Byte) :
    (sign_with_secret_and_nonce xof secret n message).result = Chk.sign_with_secret_and_nonce xof secret n message := by
  simp only [sign_with_secret_and_nonce, Chk.sign_with_secret_and_nonce, result_bind, clamp_result, decode_long_result,
    point_by_secret_result, signTail_result]

theorem ed448_derive_public_result (xof : Xof) (pk : List Byte) : (ed448_derive_public xof pk).result = Chk.ed448_derive_public xof pk := by
  simp only [ed448_derive_public, Chk.ed448_derive_public, result_bind, result_subU, result_idx, result_branch, bind_unit, result_ite,
    private_to_public_result, secret_to_public_result]

theorem ed448_sign_result (xof : Xof) (pk message : List Byte) : (ed448_sign xof pk message).result = Chk.ed448_sign xof pk message := by
  simp only [ed448_sign, Chk.ed448_sign, result_bind, result_subU, result_idx, result_branch, bind_unit, result_ite, sign_by_private_result,
    sign_with_secret_and_nonce_result, clamp_result]

/-! ## The same branches and accesses -/

theorem select_same (l l' : List TwistedNiels) (j n : Nat) (t t' : W32) : Same Any (select l j n t) (select l' j n t') := by
  unfold select
  refine .forTo _ any fun k _ _ _ => ?_
  refine .bind (.lookup ..) fun _ _ _ => ?_
  refine .bind (BigNumber.constant_time_select_same ..) fun _ _ _ => ?_
  refine .bind (BigNumber.constant_time_select_same ..) fun _ _ _ => ?_
  exact .bind (BigNumber.constant_time_select_same ..) fun _ _ _ => .pure any

theorem combSelect_same (s s' : List W32) (i j : Nat) : Same Any (combSelect s i j) (combSelect s' i j) := by
  unfold combSelect
  refine .bind (combTab_same ..) fun _ _ _ => ?_
  refine .bind (.subU _ _) fun n _ e => ?_
  subst e
  refine .bind (.chkI32 _ _) fun _ _ _ => ?_
  refine .bind (.subU _ _) fun n _ e => ?_
  subst e
  exact .bind (select_same ..) fun _ _ _ => conditional_negate_same ..

theorem precomputed_scalar_mul_same (s s' : List W32) : Same Any (precomputed_scalar_mul s) (precomputed_scalar_mul s') := by
  unfold precomputed_scalar_mul
  refine .bind (add_same ..) fun _ _ _ => ?_
  refine .bind (halve_same ..) fun _ _ _ => ?_
  refine .forRev _ any fun i _ _ _ => ?_
  refine .bind (.subU _ _) fun n _ e => ?_
  subst e
  refine .bind (.branch _) fun _ _ _ => ?_
  refine .bind (R := Any) (.ite Iff.rfl (double_internal_same ..) (.pure any)) fun _ _ _ => ?_
  refine .forTo _ any fun j _ _ _ => ?_
  refine .bind (combSelect_same ..) fun _ _ _ => ?_
  refine .bind (.subU _ _) fun n _ e => ?_
  subst e
  refine .bind (.branch _) fun _ _ _ => ?_
  exact .ite Iff.rfl (add_niels_to_extended_same ..) (to_extended_same ..)

theorem point_by_secret_same {p p' : List Byte} (h : Len p p') : Same Any (point_by_secret p) (point_by_secret p') := by
  unfold point_by_secret
  refine .bind (clamp_same h) fun _ _ h => ?_
  refine .bind (decode_long_same h) fun _ _ _ => ?_
  refine .bind (halve_same ..) fun _ _ _ => ?_
  exact .bind (halve_same ..) fun _ _ _ => precomputed_scalar_mul_same ..

theorem secret_to_public_same {p p' : List Byte} (h : Len p p') : Same Len (secret_to_public p) (secret_to_public p') := by
  unfold secret_to_public
  exact .bind (point_by_secret_same h) fun _ _ _ => eddsa_like_encode_same ..

theorem private_to_public_same (xof xof' : Xof) {pk pk' : List Byte} (h : Len pk pk') :
    Same Len (private_to_public xof pk) (private_to_public xof' pk') := by
  unfold private_to_public
  exact .bind (private_to_secret_same _ _ h) fun _ _ h => secret_to_public_same h

theorem signTail_same (xof xof' : Xof) (p p' : Pt) (sec sec' : List W32) {seed seed' m m' : List Byte} (hs : Len seed seed') (hm : Len m m') :
    Same Len (signTail xof p sec seed m) (signTail xof' p' sec' seed' m') := by
  unfold signTail
  refine .bind (.hash_with_dom _ _ (len_append hs hm) _) fun _ _ h => ?_
  refine .bind (decode_long_same h) fun _ _ _ => ?_
  refine .bind (halve_same ..) fun _ _ _ => ?_
  refine .bind (halve_same ..) fun _ _ _ => ?_
  refine .bind (precomputed_scalar_mul_same ..) fun _ _ _ => ?_
  refine .bind (eddsa_like_encode_same ..) fun _ _ h1 => ?_
  refine .bind (eddsa_like_encode_same ..) fun _ _ h2 => ?_
  refine .bind (.hash_with_dom _ _ (len_append (len_append h1 h2) hm) _) fun _ _ h => ?_
  refine .bind (decode_long_same h) fun _ _ _ => ?_
  refine .bind (mul_same ..) fun _ _ _ => ?_
  refine .bind (add_same ..) fun _ _ _ => ?_
  refine .bind (.copyInto rfl ..) fun _ _ h => ?_
  exact .bind (encode_same ..) fun _ _ _ => .copyInto h ..

theorem sign_by_private_same (xof xof' : Xof) {pk pk' m m' : List Byte} (h : Len pk pk') (hm : Len m m') :
    Same Len (sign_by_private xof pk m) (sign_by_private xof' pk' m') := by
  unfold sign_by_private
  refine .bind (.sha3 _ _ h _) fun _ _ h => ?_
  refine .bind (clamp_same h) fun _ _ h => ?_
  refine .bind (.slice ..) fun _ _ _ => ?_
  refine .bind (.copyInto rfl ..) fun _ _ h1 => ?_
  refine .bind (decode_long_same h1) fun _ _ _ => ?_
  refine .bind (.slice ..) fun _ _ _ => ?_
  refine .bind (.copyInto rfl ..) fun _ _ h2 => ?_
  exact .bind (point_by_secret_same h1) fun _ _ _ => signTail_same _ _ _ _ _ _ h2 hm

theorem sign_with_secret_and_nonce_same (xof xof' : Xof) {s s' n n' m m' : List Byte} (h : Len s s') (hn : Len n n') (hm : Len m m') :
    Same Len (sign_with_secret_and_nonce xof s n m) (sign_with_secret_and_nonce xof' s' n' m') := by
  unfold sign_with_secret_and_nonce
  refine .bind (clamp_same h) fun _ _ h1 => ?_
  refine .bind (decode_long_same h1) fun _ _ _ => ?_
  exact .bind (point_by_secret_same h) fun _ _ _ => signTail_same _ _ _ _ _ _ hn hm

theorem ed448_derive_public_same (xof xof' : Xof) {pk pk' : List Byte} (h : Len pk pk')
    (hk : (pk[56]?.map fun b => b &&& 0x80) = (pk'[56]?.map fun b => b &&& 0x80)) :
    Same Len (ed448_derive_public xof pk) (ed448_derive_public xof' pk') := by
  unfold ed448_derive_public
  refine .bind (R := fun a b => a = 56 ∧ b = 56) ?_ fun a b e => ?_
  · refine ⟨fun a b ha hb => ?_⟩
    cases ha
    cases hb
    exact ⟨rfl, rfl, rfl⟩
  obtain ⟨rfl, rfl⟩ := e
  refine .bind (idx_kind 56 hk) fun _ _ e => ?_
  rw [e]
  exact .bind (.branch _) fun _ _ _ => .ite Iff.rfl (private_to_public_same _ _ h) (secret_to_public_same h)

theorem ed448_sign_same (xof xof' : Xof) {pk pk' m m' : List Byte} (h : Len pk pk') (hm : Len m m')
    (hk : (pk[56]?.map fun b => b &&& 0x80) = (pk'[56]?.map fun b => b &&& 0x80)) :
    Same Len (ed448_sign xof pk m) (ed448_sign xof' pk' m') := by
  unfold ed448_sign
  refine .bind (R := fun a b => a = 56 ∧ b = 56) ?_ fun a b e => ?_
  · refine ⟨fun a b ha hb => ?_⟩
    cases ha
    cases hb
    exact ⟨rfl, rfl, rfl⟩
  obtain ⟨rfl, rfl⟩ := e
  refine .bind (idx_kind 56 hk) fun _ _ e => ?_
  rw [e]
  refine .bind (.branch _) fun _ _ _ => .ite Iff.rfl (sign_by_private_same _ _ h hm) ?_
  exact .bind (clamp_same h) fun _ _ h => sign_with_secret_and_nonce_same _ _ h h hm

/-! ## The positions -/

/-- The positions that a multiplication of the base point reads: the 16 entries of each of the five tables, in each of the 18 rounds. -/
def positions : List Nat := (List.range 18).reverse.flatMap fun _ => (List.range 5).flatMap fun j => (List.range 16).map fun k => 16 * j + k

theorem select_reads (l : List TwistedNiels) (j : Nat) (t : W32) : Reads ((List.range 16).map fun k => 16 * j + k) (select l j 4 t) := by
  have h := Reads.loop (g := fun k => [(j <<< 4) + k]) (body := fun k (acc : TwistedNiels) => do
    let e ← lookup l ((j <<< 4) + k)
    let mask := is_zero_mask (BitVec.ofNat 32 k ^^^ t)
    let a ← BigNumber.constant_time_select e.a acc.a mask
    let b ← BigNumber.constant_time_select e.b acc.b mask
    let c ← BigNumber.constant_time_select e.c acc.c mask
    pure ⟨a, b, c⟩) (fun k acc => by
      refine .before ⟨fun _ _ => rfl⟩ fun e => ?_
      refine .bind (BigNumber.constant_time_select_quiet ..) fun _ => ?_
      refine .bind (BigNumber.constant_time_select_quiet ..) fun _ => ?_
      exact .bind (BigNumber.constant_time_select_quiet ..) fun _ => .pure _) (List.range (1 <<< 4)) ⟨BIG_ZERO, BIG_ZERO, BIG_ZERO⟩
  have e : ((List.range (1 <<< 4)).flatMap fun k => [(j <<< 4) + k]) = (List.range 16).map fun k => 16 * j + k := by
    rw [show j <<< 4 = 16 * j by rw [Nat.shiftLeft_eq, Nat.mul_comm]]
    rfl
  rw [← e]
  exact h

theorem combSelect_reads (s : List W32) (i j : Nat) : Reads ((List.range 16).map fun k => 16 * j + k) (combSelect s i j) := by
  unfold combSelect
  refine .after (combTab_quiet ..) fun tab htab => ?_
  refine .after (.subU ..) fun n hn => ?_
  cases hn
  refine .after (.chkI32 _) fun inv hinv => ?_
  refine .after (.subU ..) fun m hm => ?_
  exact .before (select_reads ..) fun _ => conditional_negate_quiet ..

theorem precomputed_scalar_mul_reads (s : List W32) : Reads positions (precomputed_scalar_mul s) := by
  unfold precomputed_scalar_mul
  refine .after (add_quiet ..) fun a ha => .after (halve_quiet ..) fun s2 hs => ?_
  refine Reads.loop (g := fun _ => (List.range 5).flatMap fun j => (List.range 16).map fun k => 16 * j + k) (fun i p => ?_) _ _
  refine .after (.subU ..) fun l _ => .after (.branch _) fun _ _ => .after (.ite (double_internal_quiet ..) (.pure _)) fun p _ => ?_
  refine Reads.loop (fun j p => ?_) _ _
  refine .before (combSelect_reads s2 i j) fun np => .bind (.subU ..) fun _ => .bind (.branch _) fun _ => ?_
  exact .ite (add_niels_to_extended_quiet ..) (to_extended_quiet ..)

theorem point_by_secret_reads (p : List Byte) : Reads positions (point_by_secret p) := by
  unfold point_by_secret
  exact .after (clamp_quiet ..) fun _ _ => .after (decode_long_quiet ..) fun _ _ => .after (halve_quiet ..) fun _ _ =>
    .after (halve_quiet ..) fun _ _ => precomputed_scalar_mul_reads ..

theorem secret_to_public_reads (p : List Byte) : Reads positions (secret_to_public p) :=
  .before (point_by_secret_reads p) fun _ => eddsa_like_encode_quiet ..

theorem private_to_public_reads (xof : Xof) (p : List Byte) : Reads positions (private_to_public xof p) :=
  .after (private_to_secret_quiet ..) fun _ _ => secret_to_public_reads ..

theorem signTail_reads (xof : Xof) (p : Pt) (sec : List W32) (seed m : List Byte) : Reads positions (signTail xof p sec seed m) := by
  unfold signTail
  refine .after (.hash_with_dom ..) fun _ _ => .after (decode_long_quiet ..) fun _ _ => .after (halve_quiet ..) fun _ _ =>
    .after (halve_quiet ..) fun _ _ => .before (precomputed_scalar_mul_reads ..) fun _ => ?_
  have h1 := fun x => eddsa_like_encode_quiet x
  have h2 := fun x => decode_long_quiet x
  have h3 := fun x y => mul_quiet x y
  have h4 := fun x y => add_quiet x y
  have h5 := fun x => encode_quiet x
  exact .bind (h1 _) fun _ => .bind (h1 _) fun _ => .bind (.hash_with_dom ..) fun _ => .bind (h2 _) fun _ => .bind (h3 _ _) fun _ =>
    .bind (h4 _ _) fun _ => .bind (.copyInto ..) fun _ => .bind (h5 _) fun _ => .copyInto ..

theorem sign_by_private_reads (xof : Xof) (pk m : List Byte) : Reads (positions ++ positions) (sign_by_private xof pk m) := by
  unfold sign_by_private
  exact .after (.sha3 ..) fun _ _ => .after (clamp_quiet ..) fun _ _ => .after (.slice ..) fun _ _ => .after (.copyInto ..) fun _ _ =>
    .after (decode_long_quiet ..) fun _ _ => .after (.slice ..) fun _ _ => .after (.copyInto ..) fun _ _ =>
    .bind (point_by_secret_reads ..) fun _ _ => signTail_reads ..

theorem sign_with_secret_and_nonce_reads (xof : Xof) (s n m : List Byte) : Reads (positions ++ positions) (sign_with_secret_and_nonce xof s n m) := by
  unfold sign_with_secret_and_nonce
  exact .after (clamp_quiet ..) fun _ _ => .after (decode_long_quiet ..) fun _ _ => .bind (point_by_secret_reads ..) fun _ _ => signTail_reads ..

theorem ed448_derive_public_reads (xof : Xof) (pk : List Byte) : Reads positions (ed448_derive_public xof pk) := by
  unfold ed448_derive_public
  exact .after (.subU ..) fun _ _ => .after (.idx ..) fun _ _ => .after (.branch _) fun _ _ =>
    .ite (private_to_public_reads ..) (secret_to_public_reads ..)

theorem ed448_sign_reads (xof : Xof) (pk m : List Byte) : Reads (positions ++ positions) (ed448_sign xof pk m) := by
  unfold ed448_sign
  exact .after (.subU ..) fun _ _ => .after (.idx ..) fun _ _ => .after (.branch _) fun _ _ =>
    .ite (sign_by_private_reads ..) (.after (clamp_quiet ..) fun _ _ => sign_with_secret_and_nonce_reads ..)

end Leak.Masked

end Ed448
