import Verif.Model.Karatsuba

/-!
# Karatsuba squaring

Generated by tools/gen_model.py from the text of src/karatsuba_square_32.rs, statement by statement: `wrapping_add`, `wrapping_sub`,
`wrapping_mul` and `<<` on `u64` become the `BitVec 64` operations. The products written with a plain `*`
have `u32` factors, so they cannot overflow `u64` and the wrapping product is the checked one.
-/

namespace Ed448

/-- src/karatsuba_square_32.rs:17-43, the accumulators `(z0, z1)` just before limbs 0 and 8 are stored. -/
def sqBlock0 (a : BN) (aa : Oct) : W64 × W64 :=
  let z2 : W64 := 0
  let z2 : W64 := (z2 + (u64 a.l0 * u64 a.l0))
  let z1 : W64 := (aa.o0 * aa.o0)
  let z1 : W64 := (z1 - z2)
  let z0 : W64 := (u64 a.l8 * u64 a.l8)
  let z0 : W64 := (z0 + z2)
  let z2 : W64 := 0
  let z2 : W64 := (z2 + ((aa.o7 * aa.o1) <<< 1))
  let z2 : W64 := (z2 + ((aa.o6 * aa.o2) <<< 1))
  let z2 : W64 := (z2 + ((aa.o5 * aa.o3) <<< 1))
  let z2 : W64 := (z2 + (aa.o4 * aa.o4))
  let z1 : W64 := (z1 + ((u64 a.l15 * u64 a.l9) <<< 1))
  let z1 : W64 := (z1 + ((u64 a.l14 * u64 a.l10) <<< 1))
  let z1 : W64 := (z1 + ((u64 a.l13 * u64 a.l11) <<< 1))
  let z1 : W64 := (z1 + (u64 a.l12 * u64 a.l12))
  let z1 : W64 := (z1 + z2)
  let z0 : W64 := (z0 - ((u64 a.l7 * u64 a.l1) <<< 1))
  let z0 : W64 := (z0 - ((u64 a.l6 * u64 a.l2) <<< 1))
  let z0 : W64 := (z0 - ((u64 a.l5 * u64 a.l3) <<< 1))
  let z0 : W64 := (z0 - (u64 a.l4 * u64 a.l4))
  let z0 : W64 := (z0 + z2)
  (z0, z1)

/-- src/karatsuba_square_32.rs:49-74, the accumulators `(z0, z1)` just before limbs 1 and 9 are stored. -/
def sqBlock1 (a : BN) (aa : Oct) (z0 z1 : W64) : W64 × W64 :=
  let z2 : W64 := ((u64 a.l1 * u64 a.l0) <<< 1)
  let z1 : W64 := (z1 + ((aa.o1 * aa.o0) <<< 1))
  let z1 : W64 := (z1 - z2)
  let z0 : W64 := (z0 + ((u64 a.l9 * u64 a.l8) <<< 1))
  let z0 : W64 := (z0 + z2)
  let z2 : W64 := 0
  let z2 : W64 := (z2 + (aa.o7 * aa.o2))
  let z2 : W64 := (z2 + (aa.o6 * aa.o3))
  let z2 : W64 := (z2 + (aa.o5 * aa.o4))
  let z2 : W64 := z2 <<< 1
  let z1 : W64 := (z1 + ((u64 a.l15 * u64 a.l10) <<< 1))
  let z1 : W64 := (z1 + ((u64 a.l14 * u64 a.l11) <<< 1))
  let z1 : W64 := (z1 + ((u64 a.l13 * u64 a.l12) <<< 1))
  let z1 : W64 := (z1 + z2)
  let z0 : W64 := (z0 - ((u64 a.l7 * u64 a.l2) <<< 1))
  let z0 : W64 := (z0 - ((u64 a.l6 * u64 a.l3) <<< 1))
  let z0 : W64 := (z0 - ((u64 a.l5 * u64 a.l4) <<< 1))
  let z0 : W64 := (z0 + z2)
  (z0, z1)

/-- src/karatsuba_square_32.rs:80-109, the accumulators `(z0, z1)` just before limbs 2 and 10 are stored. -/
def sqBlock2 (a : BN) (aa : Oct) (z0 z1 : W64) : W64 × W64 :=
  let z2 : W64 := 0
  let z2 : W64 := (z2 + ((u64 a.l2 * u64 a.l0) <<< 1))
  let z2 : W64 := (z2 + (u64 a.l1 * u64 a.l1))
  let z1 : W64 := (z1 + ((aa.o2 * aa.o0) <<< 1))
  let z1 : W64 := (z1 + (aa.o1 * aa.o1))
  let z1 : W64 := (z1 - z2)
  let z0 : W64 := (z0 + ((u64 a.l10 * u64 a.l8) <<< 1))
  let z0 : W64 := (z0 + (u64 a.l9 * u64 a.l9))
  let z0 : W64 := (z0 + z2)
  let z2 : W64 := 0
  let z2 : W64 := (z2 + (aa.o7 * aa.o3))
  let z2 : W64 := (z2 + (aa.o6 * aa.o4))
  let z2 : W64 := z2 <<< 1
  let z2 : W64 := (z2 + (aa.o5 * aa.o5))
  let z1 : W64 := (z1 + ((u64 a.l15 * u64 a.l11) <<< 1))
  let z1 : W64 := (z1 + ((u64 a.l14 * u64 a.l12) <<< 1))
  let z1 : W64 := (z1 + (u64 a.l13 * u64 a.l13))
  let z1 : W64 := (z1 + z2)
  let z0 : W64 := (z0 - ((u64 a.l7 * u64 a.l3) <<< 1))
  let z0 : W64 := (z0 - ((u64 a.l6 * u64 a.l4) <<< 1))
  let z0 : W64 := (z0 - (u64 a.l5 * u64 a.l5))
  let z0 : W64 := (z0 + z2)
  (z0, z1)

/-- src/karatsuba_square_32.rs:115-141, the accumulators `(z0, z1)` just before limbs 3 and 11 are stored. -/
def sqBlock3 (a : BN) (aa : Oct) (z0 z1 : W64) : W64 × W64 :=
  let z2 : W64 := 0
  let z2 : W64 := (z2 + (u64 a.l3 * u64 a.l0))
  let z2 : W64 := (z2 + (u64 a.l2 * u64 a.l1))
  let z2 : W64 := z2 <<< 1
  let z1 : W64 := (z1 + ((aa.o3 * aa.o0) <<< 1))
  let z1 : W64 := (z1 + ((aa.o2 * aa.o1) <<< 1))
  let z1 : W64 := (z1 - z2)
  let z0 : W64 := (z0 + ((u64 a.l11 * u64 a.l8) <<< 1))
  let z0 : W64 := (z0 + ((u64 a.l10 * u64 a.l9) <<< 1))
  let z0 : W64 := (z0 + z2)
  let z2 : W64 := 0
  let z2 : W64 := (z2 + ((aa.o7 * aa.o4) <<< 1))
  let z2 : W64 := (z2 + ((aa.o6 * aa.o5) <<< 1))
  let z0 : W64 := (z0 - ((u64 a.l7 * u64 a.l4) <<< 1))
  let z0 : W64 := (z0 - ((u64 a.l6 * u64 a.l5) <<< 1))
  let z0 : W64 := (z0 + z2)
  let z1 : W64 := (z1 + ((u64 a.l15 * u64 a.l12) <<< 1))
  let z1 : W64 := (z1 + ((u64 a.l14 * u64 a.l13) <<< 1))
  let z1 : W64 := (z1 + z2)
  (z0, z1)

/-- src/karatsuba_square_32.rs:147-175, the accumulators `(z0, z1)` just before limbs 4 and 12 are stored. -/
def sqBlock4 (a : BN) (aa : Oct) (z0 z1 : W64) : W64 × W64 :=
  let z2 : W64 := 0
  let z2 : W64 := (z2 + ((u64 a.l4 * u64 a.l0) <<< 1))
  let z2 : W64 := (z2 + ((u64 a.l3 * u64 a.l1) <<< 1))
  let z2 : W64 := (z2 + (u64 a.l2 * u64 a.l2))
  let z1 : W64 := (z1 + ((aa.o4 * aa.o0) <<< 1))
  let z1 : W64 := (z1 + ((aa.o3 * aa.o1) <<< 1))
  let z1 : W64 := (z1 + (aa.o2 * aa.o2))
  let z1 : W64 := (z1 - z2)
  let z0 : W64 := (z0 + ((u64 a.l12 * u64 a.l8) <<< 1))
  let z0 : W64 := (z0 + ((u64 a.l11 * u64 a.l9) <<< 1))
  let z0 : W64 := (z0 + (u64 a.l10 * u64 a.l10))
  let z0 : W64 := (z0 + z2)
  let z2 : W64 := 0
  let z2 : W64 := (z2 + ((aa.o7 * aa.o5) <<< 1))
  let z2 : W64 := (z2 + (aa.o6 * aa.o6))
  let z1 : W64 := (z1 + ((u64 a.l15 * u64 a.l13) <<< 1))
  let z1 : W64 := (z1 + (u64 a.l14 * u64 a.l14))
  let z1 : W64 := (z1 + z2)
  let z0 : W64 := (z0 - ((u64 a.l7 * u64 a.l5) <<< 1))
  let z0 : W64 := (z0 - (u64 a.l6 * u64 a.l6))
  let z0 : W64 := (z0 + z2)
  (z0, z1)

/-- src/karatsuba_square_32.rs:181-206, the accumulators `(z0, z1)` just before limbs 5 and 13 are stored. -/
def sqBlock5 (a : BN) (aa : Oct) (z0 z1 : W64) : W64 × W64 :=
  let z2 : W64 := 0
  let z2 : W64 := (z2 + ((u64 a.l5 * u64 a.l0) <<< 1))
  let z2 : W64 := (z2 + ((u64 a.l4 * u64 a.l1) <<< 1))
  let z2 : W64 := (z2 + ((u64 a.l3 * u64 a.l2) <<< 1))
  let z1 : W64 := (z1 + ((aa.o5 * aa.o0) <<< 1))
  let z1 : W64 := (z1 + ((aa.o4 * aa.o1) <<< 1))
  let z1 : W64 := (z1 + ((aa.o3 * aa.o2) <<< 1))
  let z1 : W64 := (z1 - z2)
  let z0 : W64 := (z0 + ((u64 a.l13 * u64 a.l8) <<< 1))
  let z0 : W64 := (z0 + ((u64 a.l12 * u64 a.l9) <<< 1))
  let z0 : W64 := (z0 + ((u64 a.l11 * u64 a.l10) <<< 1))
  let z0 : W64 := (z0 + z2)
  let z2 : W64 := 0
  let z2 : W64 := (z2 + ((aa.o7 * aa.o6) <<< 1))
  let z1 : W64 := (z1 + ((u64 a.l15 * u64 a.l14) <<< 1))
  let z1 : W64 := (z1 + z2)
  let z0 : W64 := (z0 - ((u64 a.l7 * u64 a.l6) <<< 1))
  let z0 : W64 := (z0 + z2)
  (z0, z1)

/-- src/karatsuba_square_32.rs:212-238, the accumulators `(z0, z1)` just before limbs 6 and 14 are stored. -/
def sqBlock6 (a : BN) (aa : Oct) (z0 z1 : W64) : W64 × W64 :=
  let z2 : W64 := 0
  let z2 : W64 := (z2 + ((u64 a.l6 * u64 a.l0) <<< 1))
  let z2 : W64 := (z2 + ((u64 a.l5 * u64 a.l1) <<< 1))
  let z2 : W64 := (z2 + ((u64 a.l4 * u64 a.l2) <<< 1))
  let z2 : W64 := (z2 + (u64 a.l3 * u64 a.l3))
  let z1 : W64 := (z1 + ((aa.o6 * aa.o0) <<< 1))
  let z1 : W64 := (z1 + ((aa.o5 * aa.o1) <<< 1))
  let z1 : W64 := (z1 + ((aa.o4 * aa.o2) <<< 1))
  let z1 : W64 := (z1 + (aa.o3 * aa.o3))
  let z1 : W64 := (z1 - z2)
  let z0 : W64 := (z0 + ((u64 a.l14 * u64 a.l8) <<< 1))
  let z0 : W64 := (z0 + ((u64 a.l13 * u64 a.l9) <<< 1))
  let z0 : W64 := (z0 + ((u64 a.l12 * u64 a.l10) <<< 1))
  let z0 : W64 := (z0 + (u64 a.l11 * u64 a.l11))
  let z0 : W64 := (z0 + z2)
  let z2 : W64 := 0
  let z2 : W64 := (z2 + (aa.o7 * aa.o7))
  let z1 : W64 := (z1 + (u64 a.l15 * u64 a.l15))
  let z1 : W64 := (z1 + z2)
  let z0 : W64 := (z0 - (u64 a.l7 * u64 a.l7))
  let z0 : W64 := (z0 + z2)
  (z0, z1)

/-- src/karatsuba_square_32.rs:244-267, the accumulators `(z0, z1)` just before limbs 7 and 15 are stored. -/
def sqBlock7 (a : BN) (aa : Oct) (z0 z1 : W64) : W64 × W64 :=
  let z2 : W64 := 0
  let z2 : W64 := (z2 + ((u64 a.l7 * u64 a.l0) <<< 1))
  let z2 : W64 := (z2 + ((u64 a.l6 * u64 a.l1) <<< 1))
  let z2 : W64 := (z2 + ((u64 a.l5 * u64 a.l2) <<< 1))
  let z2 : W64 := (z2 + ((u64 a.l4 * u64 a.l3) <<< 1))
  let z1 : W64 := (z1 + ((aa.o7 * aa.o0) <<< 1))
  let z1 : W64 := (z1 + ((aa.o6 * aa.o1) <<< 1))
  let z1 : W64 := (z1 + ((aa.o5 * aa.o2) <<< 1))
  let z1 : W64 := (z1 + ((aa.o4 * aa.o3) <<< 1))
  let z1 : W64 := (z1 - z2)
  let z0 : W64 := (z0 + ((u64 a.l15 * u64 a.l8) <<< 1))
  let z0 : W64 := (z0 + ((u64 a.l14 * u64 a.l9) <<< 1))
  let z0 : W64 := (z0 + ((u64 a.l13 * u64 a.l10) <<< 1))
  let z0 : W64 := (z0 + ((u64 a.l12 * u64 a.l11) <<< 1))
  let z0 : W64 := (z0 + z2)
  let z2 : W64 := 0
  let z1 : W64 := (z1 + z2)
  let z0 : W64 := (z0 + z2)
  (z0, z1)

/-- `karatsuba_square`, src/karatsuba_square_32.rs:3-288. Lines 7-14 compute the same sums `aa` as the
multiplication does. -/
def karatsuba_square (a : BN) : BN :=
  let aa := foldHalves a
  let r0 := sqBlock0 a aa
  let r1 := sqBlock1 a aa (r0.1 >>> 28) (r0.2 >>> 28)
  let r2 := sqBlock2 a aa (r1.1 >>> 28) (r1.2 >>> 28)
  let r3 := sqBlock3 a aa (r2.1 >>> 28) (r2.2 >>> 28)
  let r4 := sqBlock4 a aa (r3.1 >>> 28) (r3.2 >>> 28)
  let r5 := sqBlock5 a aa (r4.1 >>> 28) (r4.2 >>> 28)
  let r6 := sqBlock6 a aa (r5.1 >>> 28) (r5.2 >>> 28)
  let r7 := sqBlock7 a aa (r6.1 >>> 28) (r6.2 >>> 28)
  let z0 := r7.1 >>> 28
  let z1 := r7.2 >>> 28
  let c0 := lowLimb r0.1
  let c8 := lowLimb r0.2
  let z0 := z0 + z1
  let z0 := z0 + u64 c8
  let z1 := z1 + u64 c0
  ⟨lowLimb z1, lowLimb r1.1 + lo32 (z1 >>> 28), lowLimb r2.1, lowLimb r3.1, lowLimb r4.1,
    lowLimb r5.1, lowLimb r6.1, lowLimb r7.1, lowLimb z0, lowLimb r1.2 + lo32 (z0 >>> 28),
    lowLimb r2.2, lowLimb r3.2, lowLimb r4.2, lowLimb r5.2, lowLimb r6.2, lowLimb r7.2⟩

end Ed448
