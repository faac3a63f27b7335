import Verif.Model.Eddsa
import Mathlib.Data.Nat.Notation

/-!
# SHAKE256

FIPS 202 on lists of natural numbers, in a form the kernel can evaluate. The code calls the crate `sha3`; the theorems hold for every
function in its place, and this is the one that is meant. `forced` does not change the value of anything, it only fixes the order of evaluation.
-/

namespace Ed448.Shake

/-- `k a`, after `a` has been evaluated. -/
def forced {α : Type} (a : ℕ) (k : ℕ → α) : α := Nat.casesOn a (k 0) fun n => k (Nat.succ n)

/-- `k l`, after all elements of `l` have been evaluated. -/
def forcedList {α : Type} : List ℕ → (List ℕ → α) → α
  | [], k => k []
  | a :: l, k => forced a fun a => forcedList l fun l => k (a :: l)

/-- The lane at position `i`. -/
def lane : List ℕ → ℕ → ℕ
  | [], _ => 0
  | a :: _, 0 => a
  | _ :: l, i + 1 => lane l i

/-- Rotation of a 64-bit word to the left. -/
def rotl (x n : ℕ) : ℕ := Nat.lor (Nat.mod (Nat.shiftLeft x n) 18446744073709551616) (Nat.shiftRight x (64 - n))

/-- Offsets of the step ρ, FIPS 202 table 2, for the lane `x + 5 y`. -/
def offsets : List ℕ := [0, 1, 62, 28, 27, 36, 44, 6, 55, 20, 3, 10, 43, 25, 39, 41, 45, 15, 21, 8, 18, 2, 61, 56, 14]

/-- Constants of the step ι. -/
def constants : List ℕ :=
  [0x0000000000000001, 0x0000000000008082, 0x800000000000808a, 0x8000000080008000,
   0x000000000000808b, 0x0000000080000001, 0x8000000080008081, 0x8000000000008009,
   0x000000000000008a, 0x0000000000000088, 0x0000000080008009, 0x000000008000000a,
   0x000000008000808b, 0x800000000000008b, 0x8000000000008089, 0x8000000000008003,
   0x8000000000008002, 0x8000000000000080, 0x000000000000800a, 0x800000008000000a,
   0x8000000080008081, 0x8000000000008080, 0x0000000080000001, 0x8000000080008008]

def five : List ℕ := [0, 1, 2, 3, 4]

def twentyFive : List ℕ := [0, 1, 2, 3, 4, 5, 6, 7, 8, 9, 10, 11, 12, 13, 14, 15, 16, 17, 18, 19, 20, 21, 22, 23, 24]

/-- The parity of the column `x`. -/
def parity (s : List ℕ) (x : ℕ) : ℕ :=
  Nat.xor (Nat.xor (Nat.xor (Nat.xor (lane s x) (lane s (x + 5))) (lane s (x + 10))) (lane s (x + 15))) (lane s (x + 20))

/-- θ, FIPS 202 section 3.2.1. -/
def theta {α : Type} (s : List ℕ) (k : List ℕ → α) : α :=
  forcedList (five.map (parity s)) fun c =>
  forcedList (five.map fun x => Nat.xor (lane c ((x + 4) % 5)) (rotl (lane c ((x + 1) % 5)) 1)) fun d =>
  forcedList (twentyFive.map fun i => Nat.xor (lane s i) (lane d (i % 5))) k

/-- ρ and π, FIPS 202 sections 3.2.2 and 3.2.3: the lane `(x, y)` of the result is the rotated lane `(x + 3 y, x)`. -/
def rhoPi {α : Type} (s : List ℕ) (k : List ℕ → α) : α :=
  forcedList (twentyFive.map fun i => forced ((i % 5 + 3 * (i / 5)) % 5 + 5 * (i % 5)) fun j => rotl (lane s j) (lane offsets j)) k

/-- χ and ι, FIPS 202 sections 3.2.4 and 3.2.5. -/
def chiIota {α : Type} (s : List ℕ) (c : ℕ) (k : List ℕ → α) : α :=
  forcedList (twentyFive.map fun i =>
    Nat.xor (Nat.xor (lane s i) (Nat.land (18446744073709551615 - lane s ((i % 5 + 1) % 5 + 5 * (i / 5))) (lane s ((i % 5 + 2) % 5 + 5 * (i / 5)))))
      (if i = 0 then c else 0)) k

/-- The rounds of Keccak-f[1600], FIPS 202 section 3.3. -/
def rounds : List ℕ → List ℕ → List ℕ
  | [], s => s
  | c :: cs, s => theta s fun s => rhoPi s fun s => chiIota s c fun s => rounds cs s

/-- Keccak-f[1600]. -/
def keccak (s : List ℕ) : List ℕ := rounds constants s

/-- The 64-bit words of a list of bytes, little endian. -/
def words : ℕ → List ℕ → List ℕ
  | 0, _ => []
  | n + 1, l => (l.take 8).foldr (fun b a => b + 256 * a) 0 :: words n (l.drop 8)

/-- Absorbs `n` blocks of 136 bytes. -/
def absorb : ℕ → List ℕ → List ℕ → List ℕ
  | 0, _, s => s
  | n + 1, l, s => forcedList (List.zipWith Nat.xor s (words 17 l ++ [0, 0, 0, 0, 0, 0, 0, 0])) fun s => absorb n (l.drop 136) (keccak s)

/-- The suffix of SHAKE and the padding pad10*1, on `n` bytes. -/
def padding (n : ℕ) : List ℕ := if n = 1 then [0x9f] else 0x1f :: (List.replicate (n - 2) 0 ++ [0x80])

/-- The state after absorbing a message. -/
def start (m : List Byte) : List ℕ :=
  forcedList (m.map BitVec.toNat) fun l => absorb (l.length / 136 + 1) (l ++ padding (136 - l.length % 136)) (List.replicate 25 0)

/-- The state after `n` more permutations. -/
def squeeze : ℕ → List ℕ → List ℕ
  | 0, s => s
  | n + 1, s => squeeze n (keccak s)

/-- SHAKE256, FIPS 202 section 6.2: byte `i` of the output for the message `m`. -/
def shake256 : Xof := fun m i =>
  BitVec.ofNat 8 (Nat.shiftRight (lane (squeeze (i / 136) (start m)) (i % 136 / 8)) (8 * (i % 8)))

end Ed448.Shake
