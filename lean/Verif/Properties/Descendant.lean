import Verif.Properties.Child

/-!
# C111, descendants: numbers are added one after the other
-/

namespace Ed448

set_option exponentiation.threshold 1000

/-- A descendant of a key: the numbers are added one after the other, and each sum is stored as a direct-secret key. -/
def descendant (xof : Xof) (k : Arr Byte 57) : List ℕ → Arr Byte 57
  | [] => k
  | d :: ds => descendant xof (secretForm (keyScalar xof k.1 + d)) ds

theorem descendant_scalar (xof : Xof) (ds : List ℕ) : ∀ k : Arr Byte 57, (∀ d ∈ ds, 4 ∣ d) → keyScalar xof k.1 + ds.sum < 2 ^ 448 →
    keyScalar xof (descendant xof k ds).1 = keyScalar xof k.1 + ds.sum := by
  induction ds with
  | nil => exact fun k _ _ => rfl
  | cons d ds ih =>
    intro k h4 hlt
    rw [List.sum_cons] at hlt ⊢
    obtain ⟨r1, r2, r3⟩ := keyScalar_range xof k.1
    have h := h4 d List.mem_cons_self
    have e : keyScalar xof (secretForm (keyScalar xof k.1 + d)).1 = keyScalar xof k.1 + d := by
      rw [keyScalar_secretForm]
      omega
    have := ih (secretForm (keyScalar xof k.1 + d)) (fun x hx => h4 x (List.mem_cons_of_mem _ hx)) (by rw [e]; omega)
    rw [descendant, this, e, Nat.add_assoc]

/-- C111. Any number of generations: if all numbers are multiples of four and nothing is carried out of the 448 bits in the end, then the public key of the
descendant can be computed from that of the first key and the numbers, and the descendant signs for it. -/
theorem C111_path (xof : Xof) (k A : Arr Byte 57) (P : E) (ds : List ℕ) (h4 : ∀ d ∈ ds, 4 ∣ d) (hlt : keyScalar xof k.1 + ds.sum < 2 ^ 448)
    (hA : ed448_derive_public xof k = .ok A) (hP : RFC.DecodesTo A.1 P) (m : List Byte) :
    ∃ A' sig, ed448_derive_public xof (descendant xof k ds) = .ok A' ∧ RFC.DecodesTo A'.1 (P + ds.sum • B) ∧
      ed448_sign xof (descendant xof k ds) m = .ok sig ∧ RFC.Valid xof A'.1 m sig.1 := by
  obtain ⟨A', sig, c1, c2, c3, _⟩ := C57_valid_elsewhere xof (descendant xof k ds) m
  refine ⟨A', sig, c1, ?_, c2, c3⟩
  obtain ⟨_, a1, a2⟩ := derive_spec xof k
  obtain rfl := Except.ok.inj (hA.symm.trans a1)
  obtain ⟨_, a3, a4⟩ := derive_spec xof (descendant xof k ds)
  obtain rfl := Except.ok.inj (c1.symm.trans a3)
  have e : P = keyScalar xof k.1 • B := encodePoint_inj.mp ((decodesTo_iff.mp hP).symm.trans a2)
  rw [decodesTo_iff, a4, descendant_scalar xof ds k h4 hlt, e, add_smul]

/-- C111. The order of the numbers does not matter, nor how they are split: descendants with the same sum have the same public key. -/
theorem C111_order (xof : Xof) (k : Arr Byte 57) (ds ds' : List ℕ) (h4 : ∀ d ∈ ds, 4 ∣ d) (h4' : ∀ d ∈ ds', 4 ∣ d) (hs : ds.sum = ds'.sum)
    (hlt : keyScalar xof k.1 + ds.sum < 2 ^ 448) :
    ed448_derive_public xof (descendant xof k ds) = ed448_derive_public xof (descendant xof k ds') := by
  obtain ⟨A, a1, a2⟩ := derive_spec xof (descendant xof k ds)
  obtain ⟨A', b1, b2⟩ := derive_spec xof (descendant xof k ds')
  rw [descendant_scalar xof ds k h4 hlt] at a2
  rw [descendant_scalar xof ds' k h4' (hs ▸ hlt), ← hs] at b2
  rw [a1, b1, Subtype.ext (a2.trans b2.symm)]

/-- Without these conditions the order matters: 2 is lost when it is added alone, but not together with 2. -/
example (xof : Xof) : keyScalar xof (descendant xof (secretForm 0) [2, 2]).1 = 2 ^ 447 ∧ keyScalar xof (descendant xof (secretForm 0) [4]).1 = 2 ^ 447 + 4 := by
  constructor <;> simp only [descendant, keyScalar_secretForm] <;> norm_num

/-- Three generations of the direct-secret key with the smallest scalar meet the conditions. -/
example (xof : Xof) : (∀ d ∈ [8, 4, 2 ^ 400], 4 ∣ d) ∧ keyScalar xof (secretForm 0).1 + [8, 4, 2 ^ 400].sum < 2 ^ 448 := by
  rw [keyScalar_secretForm]
  constructor
  · simp
  · norm_num

end Ed448
