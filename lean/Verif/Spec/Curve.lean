import Verif.Math.FieldInst
import Verif.Spec.Bytes

/-!
# The curve Ed448 (RFC 8032, section 5.2)

`x² + y² = 1 + d x² y²` with `d = -39081` over the integers modulo `p`. The type `Edw d` of points (coordinates with a proof of the
equation), the addition law and the group structure are in Verif/Math/Edwards.lean; `n • A` is `A + ... + A`.
-/

set_option exponentiation.threshold 1000

namespace Ed448

/-- The constant `d` of RFC 8032, table of section 5.2. -/
def edD : F := -39081

/-- The order of the base point, `L` in RFC 8032. -/
@[irreducible] def q : ℕ := 2 ^ 446 - 13818066809895115352007386748515426880336692474882178609894547503885

instance : IsogenyCoeff edD where
  nonsquare := by
    rintro ⟨r, hr⟩
    have h := sqrt_39081
    generalize (627894490647874670780146803011075515225223784391788159207390309582568626050729514829594252134780030556161172229750791477826575600769225 : F) = s at h
    have hs : s ≠ 0 := by
      rintro rfl
      have := cast_ne_of_mod (a := 39081) (b := 0) (by decide +kernel)
      apply this
      rw [Nat.cast_zero, Nat.cast_ofNat, ← h]
      ring
    apply F_neg_one_nonsquare
    refine ⟨r / s, ?_⟩
    rw [edD] at hr
    field_simp
    linear_combination hr - h
  two_ne_zero := F_two_ne_zero
  neg_one := F_neg_one_nonsquare
  twist := by
    have h := sqrt_neg_39082
    generalize (53931230830471128485834955405575080614406917727690396148695844614693367092499110851330350603979079659962871539650022903565748232560454 : F) = s at h
    exact ⟨s, by rw [edD]; linear_combination -h⟩

/-- The group of points of Ed448. -/
abbrev E := Edw edD

/-- The base point `B` of RFC 8032, section 5.2. -/
noncomputable def B : E where
  x := 224580040295924300187604334099896036246789641632564134246125461686950415467406032909029192869357953282578032075146446173674602635247710
  y := 298819210078481492676017930443930673437544040154080242095928241372331506189835876003536878655418784733982303233503462500531545062832660
  on := by
    have := cast_eq_of_mod
      (a := 224580040295924300187604334099896036246789641632564134246125461686950415467406032909029192869357953282578032075146446173674602635247710 ^ 2 + 298819210078481492676017930443930673437544040154080242095928241372331506189835876003536878655418784733982303233503462500531545062832660 ^ 2 + 39081 * 224580040295924300187604334099896036246789641632564134246125461686950415467406032909029192869357953282578032075146446173674602635247710 ^ 2 * 298819210078481492676017930443930673437544040154080242095928241372331506189835876003536878655418784733982303233503462500531545062832660 ^ 2)
      (b := 1) (by decide +kernel)
    simp only [Nat.cast_add, Nat.cast_mul, Nat.cast_pow, Nat.cast_ofNat, Nat.cast_one] at this
    generalize (224580040295924300187604334099896036246789641632564134246125461686950415467406032909029192869357953282578032075146446173674602635247710 : F) = x at *
    generalize (298819210078481492676017930443930673437544040154080242095928241372331506189835876003536878655418784733982303233503462500531545062832660 : F) = y at *
    rw [edD]
    linear_combination this

/-- Encoding of a point as 57 bytes (RFC 8032, section 5.2.2): the y coordinate in little-endian order, the least significant bit of x
in the most significant bit of the last byte. -/
def encodePoint (A : E) : List (BitVec 8) := leBytes 57 (A.y.val + 2 ^ 455 * (A.x.val % 2))

end Ed448
