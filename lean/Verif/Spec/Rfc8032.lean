import Verif.Spec.Decode

/-!
# Ed448 signatures (RFC 8032, sections 5.2.5 to 5.2.7), with the empty context

`shake` stands for SHAKE256: a function from the hashed string and a position to the byte of the output at that position. Nothing is
assumed about it.
-/

set_option exponentiation.threshold 1000

namespace Ed448.RFC

/-- The first `n` bytes of output. -/
def hash (shake : List (BitVec 8) → ℕ → BitVec 8) (msg : List (BitVec 8)) (n : ℕ) : List (BitVec 8) :=
  (List.range n).map (shake msg)

/-- `dom4(0, "")`: the string "SigEd448", the octet 0, the octet 0 (length of the context). -/
def dom4 : List (BitVec 8) := "SigEd448".toList.map (fun c => BitVec.ofNat 8 c.toNat) ++ [0, 0]

/-- Section 5.2.5, steps 2 and 3, for 57 bytes read as a little-endian number: the two least significant bits of the first
octet are cleared, all bits of the last octet are cleared, and the highest bit of the second to last octet is set. -/
def secretScalar (h : List (BitVec 8)) : ℕ := leNat h % 2 ^ 447 / 4 * 4 + 2 ^ 447

/-- The public key for a secret scalar, section 5.2.5, step 4. -/
noncomputable def publicOf (s : ℕ) : List (BitVec 8) := encodePoint (s • B)

/-- The public key of a private key, section 5.2.5. -/
noncomputable def publicKey (shake : List (BitVec 8) → ℕ → BitVec 8) (k : List (BitVec 8)) : List (BitVec 8) :=
  publicOf (secretScalar ((hash shake k 114).take 57))

/-- The number `k` of the challenge, section 5.2.6, step 4. -/
def challenge (shake : List (BitVec 8) → ℕ → BitVec 8) (R A m : List (BitVec 8)) : ℕ := leNat (hash shake (dom4 ++ R ++ A ++ m) 114)

/-- The number `r`, section 5.2.6, step 2. -/
def nonce (shake : List (BitVec 8) → ℕ → BitVec 8) (pre m : List (BitVec 8)) : ℕ := leNat (hash shake (dom4 ++ pre ++ m) 114)

/-- Section 5.2.6, steps 2 to 6, for the secret scalar `s` and the string `pre`. -/
noncomputable def signWith (shake : List (BitVec 8) → ℕ → BitVec 8) (s : ℕ) (pre m : List (BitVec 8)) : List (BitVec 8) :=
  let r := nonce shake pre m
  let R := encodePoint (r • B)
  R ++ leBytes 57 ((r + challenge shake R (publicOf s) m * s) % q)

/-- The signature of `m` under the private key `k`, section 5.2.6. -/
noncomputable def sign (shake : List (BitVec 8) → ℕ → BitVec 8) (k m : List (BitVec 8)) : List (BitVec 8) :=
  signWith shake (secretScalar ((hash shake k 114).take 57)) ((hash shake k 114).drop 57) m

/-- The group equation of section 5.2.7, step 3: `[4][S]B = [4]R + [4][k]A`. -/
def Equation (S : ℕ) (R A : E) (k : ℕ) : Prop := 4 • (S • B) = 4 • R + 4 • (k • A)

end Ed448.RFC
