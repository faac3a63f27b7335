import Verif.Model.BigNumber
import Verif.Model.CombTable

/-!
# Functions that no other function of the crate calls

src/bignumber.rs and src/scalar.rs contain helpers marked `#[allow(dead_code)]`; only unit tests call them.
-/

namespace Ed448

namespace Unused

/-- `LMASK`, src/constants32.rs:7. -/
abbrev LMASK : W32 := 0xffffffff

/-- `constant_time_greater_or_equal_p`, src/bignumber.rs:52-62. `n[4] + 1` is checked. -/
def constant_time_greater_or_equal_p (n : BN) : Rust W32 := do
  let ge := LMASK &&& n.l0 &&& n.l1 &&& n.l2 &&& n.l3
  if n.l4 = LMASK then .error .overflow
  else
    let ge := (ge &&& (n.l4 + 1)) ||| is_zero_mask (n.l4 ^^^ RADIX_MASK)
    let ge := ge &&& n.l5 &&& n.l6 &&& n.l7
    pure (~~~ is_zero_mask (ge ^^^ RADIX_MASK))

/-- The inner loop of `deserialize_return_mask`, src/bignumber.rs:575-578: `n` remaining values of `j`. Returns `out` and the bytes that are left. -/
def packPair : Nat → Nat → W64 → List Byte → W64 × List Byte
  | 0, _, out, l => (out, l)
  | _ + 1, _, out, [] => (out, [])
  | n + 1, j, out, b :: l => packPair n (j + 1) (out ||| (b.setWidth 64 <<< (8 * j))) l

/-- The outer loop of `deserialize_return_mask`, src/bignumber.rs:574-582: `n` remaining values of `i`. -/
def packPairs : Nat → List Byte → List W32
  | 0, _ => []
  | n + 1, l =>
    let r := packPair 7 0 0 l
    (lo32 r.1 &&& RADIX_MASK) :: lo32 (r.1 >>> 28) :: packPairs n r.2

/-- `deserialize_return_mask`, src/bignumber.rs:571-585. -/
def deserialize_return_mask (inp : Arr Byte 56) : Rust (BN × W32) := do
  let n := BN.ofList (packPairs 8 inp.1)
  let mask ← constant_time_greater_or_equal_p n
  pure (n, mask)

/-- `deserialize`, src/bignumber.rs:588-592. -/
def deserialize (inp : Arr Byte 56) : Rust (BN × Bool) := do
  let r ← deserialize_return_mask inp
  pure (r.1, r.2 == LMASK)

/-- `must_deserialize`, src/bignumber.rs:595-602. -/
def must_deserialize (inp : Arr Byte 56) : Rust BN := do
  let r ← deserialize inp
  if !r.2 then .error .explicit else pure r.1

/-- `copy`, src/scalar.rs:16-20. -/
def copy (a : Scalar) : Scalar := a

/-- `set`, src/scalar.rs:23-27. -/
def set (w : W32) : Scalar := ⟨w :: List.replicate 13 0, by simp⟩

end Unused

end Ed448
