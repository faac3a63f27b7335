import Verif.Model.Rust

/-!
# Karatsuba multiplication

Generated by tools/gen_model.py from the text of src/karatsuba_32.rs, statement by statement: `wrapping_add`, `wrapping_sub`,
`wrapping_mul` and `<<` on `u64` become the `BitVec 64` operations. The products written with a plain `*`
have `u32` factors, so they cannot overflow `u64` and the wrapping product is the checked one.
-/

namespace Ed448

/-- `(z as Word) & RADIX_MASK`, e.g. src/karatsuba_32.rs:47. -/
def lowLimb (z : W64) : W32 := lo32 z &&& 0xfffffff

/-- The loop computing `aa[i] = a[i] + a[i+8]`, src/karatsuba_32.rs:8-11. -/
def foldHalves (a : BN) : Oct :=
  ⟨u64 a.l0 + u64 a.l8, u64 a.l1 + u64 a.l9, u64 a.l2 + u64 a.l10, u64 a.l3 + u64 a.l11,
    u64 a.l4 + u64 a.l12, u64 a.l5 + u64 a.l13, u64 a.l6 + u64 a.l14, u64 a.l7 + u64 a.l15⟩

/-- src/karatsuba_32.rs:13-48, the accumulators `(z0, z1)` just before limbs 0 and 8 are stored. -/
def mulBlock0 (a b : BN) (aa bb : Oct) : W64 × W64 :=
  let z2 : W64 := (u64 a.l0 * u64 b.l0)
  let z1 : W64 := (aa.o0 * bb.o0)
  let z1 : W64 := (z1 - z2)
  let z0 : W64 := (u64 a.l8 * u64 b.l8)
  let z0 : W64 := (z0 + z2)
  let z2 : W64 := 0
  let z2 : W64 := (z2 + (aa.o7 * bb.o1))
  let z2 : W64 := (z2 + (aa.o6 * bb.o2))
  let z2 : W64 := (z2 + (aa.o5 * bb.o3))
  let z2 : W64 := (z2 + (aa.o4 * bb.o4))
  let z2 : W64 := (z2 + (aa.o3 * bb.o5))
  let z2 : W64 := (z2 + (aa.o2 * bb.o6))
  let z2 : W64 := (z2 + (aa.o1 * bb.o7))
  let z1 : W64 := (z1 + (u64 a.l15 * u64 b.l9))
  let z1 : W64 := (z1 + (u64 a.l14 * u64 b.l10))
  let z1 : W64 := (z1 + (u64 a.l13 * u64 b.l11))
  let z1 : W64 := (z1 + (u64 a.l12 * u64 b.l12))
  let z1 : W64 := (z1 + (u64 a.l11 * u64 b.l13))
  let z1 : W64 := (z1 + (u64 a.l10 * u64 b.l14))
  let z1 : W64 := (z1 + (u64 a.l9 * u64 b.l15))
  let z1 : W64 := (z1 + z2)
  let z0 : W64 := (z0 - (u64 a.l7 * u64 b.l1))
  let z0 : W64 := (z0 - (u64 a.l6 * u64 b.l2))
  let z0 : W64 := (z0 - (u64 a.l5 * u64 b.l3))
  let z0 : W64 := (z0 - (u64 a.l4 * u64 b.l4))
  let z0 : W64 := (z0 - (u64 a.l3 * u64 b.l5))
  let z0 : W64 := (z0 - (u64 a.l2 * u64 b.l6))
  let z0 : W64 := (z0 - (u64 a.l1 * u64 b.l7))
  let z0 : W64 := (z0 + z2)
  (z0, z1)

/-- src/karatsuba_32.rs:54-92, the accumulators `(z0, z1)` just before limbs 1 and 9 are stored. -/
def mulBlock1 (a b : BN) (aa bb : Oct) (z0 z1 : W64) : W64 × W64 :=
  let z2 : W64 := 0
  let z2 : W64 := (z2 + (u64 a.l1 * u64 b.l0))
  let z2 : W64 := (z2 + (u64 a.l0 * u64 b.l1))
  let z1 : W64 := (z1 + (aa.o1 * bb.o0))
  let z1 : W64 := (z1 + (aa.o0 * bb.o1))
  let z1 : W64 := (z1 - z2)
  let z0 : W64 := (z0 + (u64 a.l9 * u64 b.l8))
  let z0 : W64 := (z0 + (u64 a.l8 * u64 b.l9))
  let z0 : W64 := (z0 + z2)
  let z2 : W64 := 0
  let z2 : W64 := (z2 + (aa.o7 * bb.o2))
  let z2 : W64 := (z2 + (aa.o6 * bb.o3))
  let z2 : W64 := (z2 + (aa.o5 * bb.o4))
  let z2 : W64 := (z2 + (aa.o4 * bb.o5))
  let z2 : W64 := (z2 + (aa.o3 * bb.o6))
  let z2 : W64 := (z2 + (aa.o2 * bb.o7))
  let z1 : W64 := (z1 + (u64 a.l15 * u64 b.l10))
  let z1 : W64 := (z1 + (u64 a.l14 * u64 b.l11))
  let z1 : W64 := (z1 + (u64 a.l13 * u64 b.l12))
  let z1 : W64 := (z1 + (u64 a.l12 * u64 b.l13))
  let z1 : W64 := (z1 + (u64 a.l11 * u64 b.l14))
  let z1 : W64 := (z1 + (u64 a.l10 * u64 b.l15))
  let z1 : W64 := (z1 + z2)
  let z0 : W64 := (z0 - (u64 a.l7 * u64 b.l2))
  let z0 : W64 := (z0 - (u64 a.l6 * u64 b.l3))
  let z0 : W64 := (z0 - (u64 a.l5 * u64 b.l4))
  let z0 : W64 := (z0 - (u64 a.l4 * u64 b.l5))
  let z0 : W64 := (z0 - (u64 a.l3 * u64 b.l6))
  let z0 : W64 := (z0 - (u64 a.l2 * u64 b.l7))
  let z0 : W64 := (z0 + z2)
  (z0, z1)

/-- src/karatsuba_32.rs:98-135, the accumulators `(z0, z1)` just before limbs 2 and 10 are stored. -/
def mulBlock2 (a b : BN) (aa bb : Oct) (z0 z1 : W64) : W64 × W64 :=
  let z2 : W64 := 0
  let z2 : W64 := (z2 + (u64 a.l2 * u64 b.l0))
  let z2 : W64 := (z2 + (u64 a.l1 * u64 b.l1))
  let z2 : W64 := (z2 + (u64 a.l0 * u64 b.l2))
  let z1 : W64 := (z1 + (aa.o2 * bb.o0))
  let z1 : W64 := (z1 + (aa.o1 * bb.o1))
  let z1 : W64 := (z1 + (aa.o0 * bb.o2))
  let z1 : W64 := (z1 - z2)
  let z0 : W64 := (z0 + (u64 a.l10 * u64 b.l8))
  let z0 : W64 := (z0 + (u64 a.l9 * u64 b.l9))
  let z0 : W64 := (z0 + (u64 a.l8 * u64 b.l10))
  let z0 : W64 := (z0 + z2)
  let z2 : W64 := 0
  let z2 : W64 := (z2 + (aa.o7 * bb.o3))
  let z2 : W64 := (z2 + (aa.o6 * bb.o4))
  let z2 : W64 := (z2 + (aa.o5 * bb.o5))
  let z2 : W64 := (z2 + (aa.o4 * bb.o6))
  let z2 : W64 := (z2 + (aa.o3 * bb.o7))
  let z1 : W64 := (z1 + (u64 a.l15 * u64 b.l11))
  let z1 : W64 := (z1 + (u64 a.l14 * u64 b.l12))
  let z1 : W64 := (z1 + (u64 a.l13 * u64 b.l13))
  let z1 : W64 := (z1 + (u64 a.l12 * u64 b.l14))
  let z1 : W64 := (z1 + (u64 a.l11 * u64 b.l15))
  let z1 : W64 := (z1 + z2)
  let z0 : W64 := (z0 - (u64 a.l7 * u64 b.l3))
  let z0 : W64 := (z0 - (u64 a.l6 * u64 b.l4))
  let z0 : W64 := (z0 - (u64 a.l5 * u64 b.l5))
  let z0 : W64 := (z0 - (u64 a.l4 * u64 b.l6))
  let z0 : W64 := (z0 - (u64 a.l3 * u64 b.l7))
  let z0 : W64 := (z0 + z2)
  (z0, z1)

/-- src/karatsuba_32.rs:141-178, the accumulators `(z0, z1)` just before limbs 3 and 11 are stored. -/
def mulBlock3 (a b : BN) (aa bb : Oct) (z0 z1 : W64) : W64 × W64 :=
  let z2 : W64 := 0
  let z2 : W64 := (z2 + (u64 a.l3 * u64 b.l0))
  let z2 : W64 := (z2 + (u64 a.l2 * u64 b.l1))
  let z2 : W64 := (z2 + (u64 a.l1 * u64 b.l2))
  let z2 : W64 := (z2 + (u64 a.l0 * u64 b.l3))
  let z1 : W64 := (z1 + (aa.o3 * bb.o0))
  let z1 : W64 := (z1 + (aa.o2 * bb.o1))
  let z1 : W64 := (z1 + (aa.o1 * bb.o2))
  let z1 : W64 := (z1 + (aa.o0 * bb.o3))
  let z1 : W64 := (z1 - z2)
  let z0 : W64 := (z0 + (u64 a.l11 * u64 b.l8))
  let z0 : W64 := (z0 + (u64 a.l10 * u64 b.l9))
  let z0 : W64 := (z0 + (u64 a.l9 * u64 b.l10))
  let z0 : W64 := (z0 + (u64 a.l8 * u64 b.l11))
  let z0 : W64 := (z0 + z2)
  let z2 : W64 := 0
  let z2 : W64 := (z2 + (aa.o7 * bb.o4))
  let z2 : W64 := (z2 + (aa.o6 * bb.o5))
  let z2 : W64 := (z2 + (aa.o5 * bb.o6))
  let z2 : W64 := (z2 + (aa.o4 * bb.o7))
  let z0 : W64 := (z0 - (u64 a.l7 * u64 b.l4))
  let z0 : W64 := (z0 - (u64 a.l6 * u64 b.l5))
  let z0 : W64 := (z0 - (u64 a.l5 * u64 b.l6))
  let z0 : W64 := (z0 - (u64 a.l4 * u64 b.l7))
  let z0 : W64 := (z0 + z2)
  let z1 : W64 := (z1 + (u64 a.l15 * u64 b.l12))
  let z1 : W64 := (z1 + (u64 a.l14 * u64 b.l13))
  let z1 : W64 := (z1 + (u64 a.l13 * u64 b.l14))
  let z1 : W64 := (z1 + (u64 a.l12 * u64 b.l15))
  let z1 : W64 := (z1 + z2)
  (z0, z1)

/-- src/karatsuba_32.rs:184-221, the accumulators `(z0, z1)` just before limbs 4 and 12 are stored. -/
def mulBlock4 (a b : BN) (aa bb : Oct) (z0 z1 : W64) : W64 × W64 :=
  let z2 : W64 := 0
  let z2 : W64 := (z2 + (u64 a.l4 * u64 b.l0))
  let z2 : W64 := (z2 + (u64 a.l3 * u64 b.l1))
  let z2 : W64 := (z2 + (u64 a.l2 * u64 b.l2))
  let z2 : W64 := (z2 + (u64 a.l1 * u64 b.l3))
  let z2 : W64 := (z2 + (u64 a.l0 * u64 b.l4))
  let z1 : W64 := (z1 + (aa.o4 * bb.o0))
  let z1 : W64 := (z1 + (aa.o3 * bb.o1))
  let z1 : W64 := (z1 + (aa.o2 * bb.o2))
  let z1 : W64 := (z1 + (aa.o1 * bb.o3))
  let z1 : W64 := (z1 + (aa.o0 * bb.o4))
  let z1 : W64 := (z1 - z2)
  let z0 : W64 := (z0 + (u64 a.l12 * u64 b.l8))
  let z0 : W64 := (z0 + (u64 a.l11 * u64 b.l9))
  let z0 : W64 := (z0 + (u64 a.l10 * u64 b.l10))
  let z0 : W64 := (z0 + (u64 a.l9 * u64 b.l11))
  let z0 : W64 := (z0 + (u64 a.l8 * u64 b.l12))
  let z0 : W64 := (z0 + z2)
  let z2 : W64 := 0
  let z2 : W64 := (z2 + (aa.o7 * bb.o5))
  let z2 : W64 := (z2 + (aa.o6 * bb.o6))
  let z2 : W64 := (z2 + (aa.o5 * bb.o7))
  let z1 : W64 := (z1 + (u64 a.l15 * u64 b.l13))
  let z1 : W64 := (z1 + (u64 a.l14 * u64 b.l14))
  let z1 : W64 := (z1 + (u64 a.l13 * u64 b.l15))
  let z1 : W64 := (z1 + z2)
  let z0 : W64 := (z0 - (u64 a.l7 * u64 b.l5))
  let z0 : W64 := (z0 - (u64 a.l6 * u64 b.l6))
  let z0 : W64 := (z0 - (u64 a.l5 * u64 b.l7))
  let z0 : W64 := (z0 + z2)
  (z0, z1)

/-- src/karatsuba_32.rs:227-264, the accumulators `(z0, z1)` just before limbs 5 and 13 are stored. -/
def mulBlock5 (a b : BN) (aa bb : Oct) (z0 z1 : W64) : W64 × W64 :=
  let z2 : W64 := 0
  let z2 : W64 := (z2 + (u64 a.l5 * u64 b.l0))
  let z2 : W64 := (z2 + (u64 a.l4 * u64 b.l1))
  let z2 : W64 := (z2 + (u64 a.l3 * u64 b.l2))
  let z2 : W64 := (z2 + (u64 a.l2 * u64 b.l3))
  let z2 : W64 := (z2 + (u64 a.l1 * u64 b.l4))
  let z2 : W64 := (z2 + (u64 a.l0 * u64 b.l5))
  let z1 : W64 := (z1 + (aa.o5 * bb.o0))
  let z1 : W64 := (z1 + (aa.o4 * bb.o1))
  let z1 : W64 := (z1 + (aa.o3 * bb.o2))
  let z1 : W64 := (z1 + (aa.o2 * bb.o3))
  let z1 : W64 := (z1 + (aa.o1 * bb.o4))
  let z1 : W64 := (z1 + (aa.o0 * bb.o5))
  let z1 : W64 := (z1 - z2)
  let z0 : W64 := (z0 + (u64 a.l13 * u64 b.l8))
  let z0 : W64 := (z0 + (u64 a.l12 * u64 b.l9))
  let z0 : W64 := (z0 + (u64 a.l11 * u64 b.l10))
  let z0 : W64 := (z0 + (u64 a.l10 * u64 b.l11))
  let z0 : W64 := (z0 + (u64 a.l9 * u64 b.l12))
  let z0 : W64 := (z0 + (u64 a.l8 * u64 b.l13))
  let z0 : W64 := (z0 + z2)
  let z2 : W64 := 0
  let z2 : W64 := (z2 + (aa.o7 * bb.o6))
  let z2 : W64 := (z2 + (aa.o6 * bb.o7))
  let z1 : W64 := (z1 + (u64 a.l15 * u64 b.l14))
  let z1 : W64 := (z1 + (u64 a.l14 * u64 b.l15))
  let z1 : W64 := (z1 + z2)
  let z0 : W64 := (z0 - (u64 a.l7 * u64 b.l6))
  let z0 : W64 := (z0 - (u64 a.l6 * u64 b.l7))
  let z0 : W64 := (z0 + z2)
  (z0, z1)

/-- src/karatsuba_32.rs:270-305, the accumulators `(z0, z1)` just before limbs 6 and 14 are stored. -/
def mulBlock6 (a b : BN) (aa bb : Oct) (z0 z1 : W64) : W64 × W64 :=
  let z2 : W64 := 0
  let z2 : W64 := (z2 + (u64 a.l6 * u64 b.l0))
  let z2 : W64 := (z2 + (u64 a.l5 * u64 b.l1))
  let z2 : W64 := (z2 + (u64 a.l4 * u64 b.l2))
  let z2 : W64 := (z2 + (u64 a.l3 * u64 b.l3))
  let z2 : W64 := (z2 + (u64 a.l2 * u64 b.l4))
  let z2 : W64 := (z2 + (u64 a.l1 * u64 b.l5))
  let z2 : W64 := (z2 + (u64 a.l0 * u64 b.l6))
  let z1 : W64 := (z1 + (aa.o6 * bb.o0))
  let z1 : W64 := (z1 + (aa.o5 * bb.o1))
  let z1 : W64 := (z1 + (aa.o4 * bb.o2))
  let z1 : W64 := (z1 + (aa.o3 * bb.o3))
  let z1 : W64 := (z1 + (aa.o2 * bb.o4))
  let z1 : W64 := (z1 + (aa.o1 * bb.o5))
  let z1 : W64 := (z1 + (aa.o0 * bb.o6))
  let z1 : W64 := (z1 - z2)
  let z0 : W64 := (z0 + (u64 a.l14 * u64 b.l8))
  let z0 : W64 := (z0 + (u64 a.l13 * u64 b.l9))
  let z0 : W64 := (z0 + (u64 a.l12 * u64 b.l10))
  let z0 : W64 := (z0 + (u64 a.l11 * u64 b.l11))
  let z0 : W64 := (z0 + (u64 a.l10 * u64 b.l12))
  let z0 : W64 := (z0 + (u64 a.l9 * u64 b.l13))
  let z0 : W64 := (z0 + (u64 a.l8 * u64 b.l14))
  let z0 : W64 := (z0 + z2)
  let z2 : W64 := 0
  let z2 : W64 := (z2 + (aa.o7 * bb.o7))
  let z1 : W64 := (z1 + (u64 a.l15 * u64 b.l15))
  let z1 : W64 := (z1 + z2)
  let z0 : W64 := (z0 - (u64 a.l7 * u64 b.l7))
  let z0 : W64 := (z0 + z2)
  (z0, z1)

/-- src/karatsuba_32.rs:311-346, the accumulators `(z0, z1)` just before limbs 7 and 15 are stored. -/
def mulBlock7 (a b : BN) (aa bb : Oct) (z0 z1 : W64) : W64 × W64 :=
  let z2 : W64 := 0
  let z2 : W64 := (z2 + (u64 a.l7 * u64 b.l0))
  let z2 : W64 := (z2 + (u64 a.l6 * u64 b.l1))
  let z2 : W64 := (z2 + (u64 a.l5 * u64 b.l2))
  let z2 : W64 := (z2 + (u64 a.l4 * u64 b.l3))
  let z2 : W64 := (z2 + (u64 a.l3 * u64 b.l4))
  let z2 : W64 := (z2 + (u64 a.l2 * u64 b.l5))
  let z2 : W64 := (z2 + (u64 a.l1 * u64 b.l6))
  let z2 : W64 := (z2 + (u64 a.l0 * u64 b.l7))
  let z1 : W64 := (z1 + (aa.o7 * bb.o0))
  let z1 : W64 := (z1 + (aa.o6 * bb.o1))
  let z1 : W64 := (z1 + (aa.o5 * bb.o2))
  let z1 : W64 := (z1 + (aa.o4 * bb.o3))
  let z1 : W64 := (z1 + (aa.o3 * bb.o4))
  let z1 : W64 := (z1 + (aa.o2 * bb.o5))
  let z1 : W64 := (z1 + (aa.o1 * bb.o6))
  let z1 : W64 := (z1 + (aa.o0 * bb.o7))
  let z1 : W64 := (z1 - z2)
  let z0 : W64 := (z0 + (u64 a.l15 * u64 b.l8))
  let z0 : W64 := (z0 + (u64 a.l14 * u64 b.l9))
  let z0 : W64 := (z0 + (u64 a.l13 * u64 b.l10))
  let z0 : W64 := (z0 + (u64 a.l12 * u64 b.l11))
  let z0 : W64 := (z0 + (u64 a.l11 * u64 b.l12))
  let z0 : W64 := (z0 + (u64 a.l10 * u64 b.l13))
  let z0 : W64 := (z0 + (u64 a.l9 * u64 b.l14))
  let z0 : W64 := (z0 + (u64 a.l8 * u64 b.l15))
  let z0 : W64 := (z0 + z2)
  let z2 : W64 := 0
  let z1 : W64 := (z1 + z2)
  let z0 : W64 := (z0 + z2)
  (z0, z1)

/-- `karatsuba_mul`, src/karatsuba_32.rs:3-367. Between the blocks the code stores limbs `j` and `j+8` and
shifts both accumulators right by 28; the last part (`// finish`, lines 351-366) folds the final carries. -/
def karatsuba_mul (a b : BN) : BN :=
  let aa := foldHalves a
  let bb := foldHalves b
  let r0 := mulBlock0 a b aa bb
  let r1 := mulBlock1 a b aa bb (r0.1 >>> 28) (r0.2 >>> 28)
  let r2 := mulBlock2 a b aa bb (r1.1 >>> 28) (r1.2 >>> 28)
  let r3 := mulBlock3 a b aa bb (r2.1 >>> 28) (r2.2 >>> 28)
  let r4 := mulBlock4 a b aa bb (r3.1 >>> 28) (r3.2 >>> 28)
  let r5 := mulBlock5 a b aa bb (r4.1 >>> 28) (r4.2 >>> 28)
  let r6 := mulBlock6 a b aa bb (r5.1 >>> 28) (r5.2 >>> 28)
  let r7 := mulBlock7 a b aa bb (r6.1 >>> 28) (r6.2 >>> 28)
  let z0 := r7.1 >>> 28
  let z1 := r7.2 >>> 28
  let c0 := lowLimb r0.1
  let c8 := lowLimb r0.2
  let z0 := z0 + z1
  let z0 := z0 + u64 c8
  let z1 := z1 + u64 c0
  ⟨lowLimb z1, lowLimb r1.1 + lo32 (z1 >>> 28), lowLimb r2.1, lowLimb r3.1, lowLimb r4.1,
    lowLimb r5.1, lowLimb r6.1, lowLimb r7.1, lowLimb z0, lowLimb r1.2 + lo32 (z0 >>> 28),
    lowLimb r2.2, lowLimb r3.2, lowLimb r4.2, lowLimb r5.2, lowLimb r6.2, lowLimb r7.2⟩

end Ed448
