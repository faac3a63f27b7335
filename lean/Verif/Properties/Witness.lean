import Verif.Eddsa.Encode

/-!
# Concrete inputs used beside the theorems to show that their hypotheses are met
-/

set_option exponentiation.threshold 1000

namespace Ed448.Witness

/-- A direct-secret key: 56 zero bytes and 0x80. Its secret scalar is 2^447. -/
def key0 : Arr Byte 57 := ⟨List.replicate 56 0 ++ [0x80], by simp⟩

/-- An ordinary private key, the one of the first test vector of RFC 8032, section 7.4. -/
def rfcKey : Arr Byte 57 :=
  ⟨[0x6c, 0x82, 0xa5, 0x62, 0xcb, 0x80, 0x8d, 0x10, 0xd6, 0x32, 0xbe, 0x89, 0xc8, 0x51, 0x3e, 0xbf, 0x6c, 0x92, 0x9f, 0x34, 0xdd, 0xfa,
    0x8c, 0x9f, 0x63, 0xc9, 0x96, 0x0e, 0xf6, 0xe3, 0x48, 0xa3, 0x52, 0x8c, 0x8a, 0x3f, 0xcc, 0x2f, 0x04, 0x4e, 0x39, 0xa3, 0xfc, 0x5b,
    0x94, 0x49, 0x2f, 0x8f, 0x03, 0x2e, 0x75, 0x49, 0xa2, 0x00, 0x98, 0xf9, 0x5b], rfl⟩

/-- A hash whose outputs are the number one. -/
def oneXof : Xof := fun _ i => if i = 0 then 1 else 0

/-- A hash that looks at its input: the first output byte is the length of the input, the others are zero. -/
def lenXof : Xof := fun m i => if i = 0 then BitVec.ofNat 8 m.length else 0

theorem key0_sign : signBit key0.1 = 1 := by decide +kernel

theorem rfcKey_sign : signBit rfcKey.1 = 0 := by decide +kernel

theorem key0_scalar : RFC.secretScalar key0.1 = 2 ^ 447 := by decide +kernel

/-- Coordinates of `2^447 B`. -/
def k0x : ℕ := 255740607611806891018260425171523734717828991333586250783360671509989692026911531061450085134111847669402248287857336321795062891690348
def k0y : ℕ := 695812071467612490264027039012623908996710234313887023815676804491240785234612352361843210869746313620475539384856432560941397177948308

theorem key0_coords : (2 ^ 447 • B).x = (k0x : F) ∧ (2 ^ 447 • B).y = (k0y : F) :=
  isMultiple_coords (by decide +kernel)

/-- The public key of `key0`. -/
theorem key0_public : RFC.publicOf (RFC.secretScalar key0.1) = leBytes 57 k0y := by
  rw [RFC.publicOf, key0_scalar, encode_of_coords key0_coords.1 key0_coords.2 (by decide +kernel) (by decide +kernel)]
  decide +kernel

theorem key0_accepted : Accepted (RFC.publicOf (RFC.secretScalar key0.1)) := by
  rw [RFC.publicOf, key0_scalar, accepted_of_coords key0_coords.1 key0_coords.2 (by decide +kernel)]
  decide +kernel

/-- Coordinates of the base point as numbers. -/
theorem B_coords : B.x = ((pB.1 : ℕ) : F) ∧ B.y = ((pB.2.1 : ℕ) : F) := by
  obtain ⟨_, h2, h3⟩ := pB_rep
  simpa [pB] using And.intro h2 h3

theorem B_accepted : Accepted (encodePoint B) := by
  rw [accepted_of_coords B_coords.1 B_coords.2 (by decide +kernel)]
  decide +kernel

theorem zero_coords : (0 : E).x = ((0 : ℕ) : F) ∧ (0 : E).y = ((1 : ℕ) : F) := by simp

theorem zero_accepted : Accepted (encodePoint 0) := by
  rw [accepted_of_coords zero_coords.1 zero_coords.2 (by decide +kernel)]
  decide +kernel

theorem zero_encode : encodePoint 0 = 1 :: List.replicate 56 0 := by
  rw [encode_of_coords zero_coords.1 zero_coords.2 (by decide +kernel) (by decide +kernel)]
  decide +kernel

/-! ### A key whose public key the decoder rejects -/

/-- The secret scalar. -/
def badS : ℕ := 363419362147803445274661903944002267176820680343659030140745099590319644056698961663095525356881782780381260803133093578453358813209988

/-- The direct-secret key with this scalar. -/
def badKey : Arr Byte 57 := ⟨leBytes 57 (badS + 2 ^ 455), by simp⟩

def badX : ℕ := 87592618911635927678407839000765444070748682686655683884520465669080407707505586039926508137334800318376000008228430255400449661007773
def badY : ℕ := 113875305706289203698019550391351886724058382992183248757383871818343083891948927880510721037495028925267768658204718980357221213

theorem badKey_sign : signBit badKey.1 = 1 := by decide +kernel

theorem badKey_scalar : RFC.secretScalar badKey.1 = badS := by decide +kernel

theorem bad_coords : (badS • B).x = (badX : F) ∧ (badS • B).y = (badY : F) := isMultiple_coords (by decide +kernel)

theorem bad_rejected : ¬ Accepted (RFC.publicOf badS) := by
  rw [RFC.publicOf, accepted_of_coords bad_coords.1 bad_coords.2 (by decide +kernel)]
  decide +kernel

end Ed448.Witness
