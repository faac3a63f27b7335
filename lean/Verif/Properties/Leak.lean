import Verif.Leak.Positions
import Verif.Properties.Witness

/-!
# C64: what deriving and signing show to an observer of branches and memory accesses
-/

set_option exponentiation.threshold 1000

namespace Ed448

open Leak

/-- The recording functions compute what the library computes. -/
theorem C64_same_results (xof : Xof) (k : Arr Byte 57) (m : List Byte) :
    (Leak.ed448_derive_public xof k.1).result = (ed448_derive_public xof k >>= fun A => pure A.1) ∧
      (Leak.ed448_sign xof k.1 m).result = (ed448_sign xof k m >>= fun sig => pure sig.1) := by
  rw [Leak.ed448_derive_public_result, Leak.ed448_sign_result, Chk.ed448_derive_public_eq, Chk.ed448_sign_eq]
  exact ⟨rfl, rfl⟩

theorem leak_ok (xof : Xof) (k : Arr Byte 57) (m : List Byte) :
    (∃ A, (Leak.ed448_derive_public xof k.1).result = .ok A) ∧ (∃ sig, (Leak.ed448_sign xof k.1 m).result = .ok sig) := by
  obtain ⟨⟨A, h1⟩, ⟨sig, h2⟩⟩ := C29_no_panic xof k m
  rw [(C64_same_results xof k m).1, (C64_same_results xof k m).2, h1, h2]
  exact ⟨⟨A.1, rfl⟩, ⟨sig.1, rfl⟩⟩

theorem kind_eq {k k' : Arr Byte 57} (h : signBit k.1 = signBit k'.1) :
    (k.1[56]?.map fun b => b &&& 0x80) = (k'.1[56]?.map fun b => b &&& 0x80) := by
  rw [List.getElem?_eq_getElem (by rw [k.2]; norm_num), List.getElem?_eq_getElem (by rw [k'.2]; norm_num), Option.map_some, Option.map_some]
  have h1 := kind_iff k
  have h2 := kind_iff k'
  rw [h] at h1
  have key : ∀ b : Byte, b &&& 0x80 = 0 ∨ b &&& 0x80 = 0x80 := by decide
  rcases key (k.1[56]'(by rw [k.2]; norm_num)) with e | e <;> rcases key (k'.1[56]'(by rw [k'.2]; norm_num)) with e' | e'
  · rw [e, e']
  · rw [h2.2 (h1.1 e)] at e'
    exact absurd e' (by decide)
  · rw [h1.2 (h2.1 e')] at e
    exact absurd e (by decide)
  · rw [e, e']

/-- C64. Whatever the keys, the messages and the hash function: when the keys are of the same kind and the messages have the same
length, all branches and all positions of memory accesses are the same, except for the positions in the precomputed table. -/
theorem C64_control_flow (xof xof' : Xof) (k k' : Arr Byte 57) (m m' : List Byte) (hk : signBit k.1 = signBit k'.1)
    (hm : m.length = m'.length) :
    (Leak.ed448_derive_public xof k.1).events.map Event.hide = (Leak.ed448_derive_public xof' k'.1).events.map Event.hide ∧
      (Leak.ed448_sign xof k.1 m).events.map Event.hide = (Leak.ed448_sign xof' k'.1 m').events.map Event.hide := by
  have hl : Len k.1 k'.1 := k.2.trans k'.2.symm
  obtain ⟨⟨A, h1⟩, ⟨s, h2⟩⟩ := leak_ok xof k m
  obtain ⟨⟨A', h3⟩, ⟨s', h4⟩⟩ := leak_ok xof' k' m'
  exact ⟨((Leak.ed448_derive_public_same xof xof' hl (kind_eq hk)).out A A' h1 h3).1,
    ((Leak.ed448_sign_same xof xof' hl hm (kind_eq hk)).out s s' h2 h4).1⟩


/-- C64. The positions read in the precomputed table: 90 when a public key is derived, a function of the secret scalar; 180 when a
message is signed, the first 90 the same and the others a function of the nonce. -/
theorem C64_positions (xof : Xof) (k : Arr Byte 57) (m : List Byte) :
    ∃ h g, CombOf (keyScalar xof k.1) h ∧ CombOf (RFC.nonce xof (keySeed xof k.1) m) g ∧
      tables (Leak.ed448_derive_public xof k.1).events = combPositions h ∧
      tables (Leak.ed448_sign xof k.1 m).events = combPositions h ++ combPositions g := by
  obtain ⟨h, hh⟩ := combOf_exists (keyScalar xof k.1)
  obtain ⟨g, hg⟩ := combOf_exists (RFC.nonce xof (keySeed xof k.1) m)
  obtain ⟨⟨A, h1⟩, ⟨s, h2⟩⟩ := leak_ok xof k m
  exact ⟨h, g, hh, hg, (ed448_derive_public_reads hh).out A h1, (ed448_sign_reads hh hg).out s h2⟩

/-- Every number has exactly one `h`. -/
theorem C64_unique (n : ℕ) : ∃! h, CombOf n h := by
  obtain ⟨h, hh⟩ := combOf_exists n
  exact ⟨h, hh, fun h' hh' => combOf_unique hh' hh⟩

theorem combPositions_length (h : ℕ) : (combPositions h).length = 90 := by
  rw [combPositions_map, List.length_map, List.length_range]

/-- C64. Two runs look alike exactly when the numbers `h` and `g` of `C64_positions` give the same positions. -/
theorem C64_distinguish (xof xof' : Xof) (k k' : Arr Byte 57) (m m' : List Byte) (hk : signBit k.1 = signBit k'.1)
    (hm : m.length = m'.length) (h g h' g' : ℕ) (hh : CombOf (keyScalar xof k.1) h) (hg : CombOf (RFC.nonce xof (keySeed xof k.1) m) g)
    (hh' : CombOf (keyScalar xof' k'.1) h') (hg' : CombOf (RFC.nonce xof' (keySeed xof' k'.1) m') g') :
    ((Leak.ed448_derive_public xof k.1).events = (Leak.ed448_derive_public xof' k'.1).events ↔ combPositions h = combPositions h') ∧
      ((Leak.ed448_sign xof k.1 m).events = (Leak.ed448_sign xof' k'.1 m').events ↔
        combPositions h = combPositions h' ∧ combPositions g = combPositions g') := by
  obtain ⟨c1, c2⟩ := C64_control_flow xof xof' k k' m m' hk hm
  obtain ⟨a, b, ha, hb, p1, p2⟩ := C64_positions xof k m
  obtain ⟨a', b', ha', hb', p1', p2'⟩ := C64_positions xof' k' m'
  rw [combOf_unique ha hh] at p1 p2
  rw [combOf_unique hb hg] at p2
  rw [combOf_unique ha' hh'] at p1' p2'
  rw [combOf_unique hb' hg'] at p2'
  refine ⟨⟨fun e => ?_, fun e => ?_⟩, ⟨fun e => ?_, fun e => ?_⟩⟩
  · rw [← p1, ← p1', e]
  · exact events_determined _ _ c1 (by rw [p1, p1', e])
  · rw [e, p2'] at p2
    have := List.append_inj p2 (by rw [combPositions_length, combPositions_length])
    exact ⟨this.1.symm, this.2.symm⟩
  · exact events_determined _ _ c2 (by rw [p2, p2', e.1, e.2])

/-- The two secret scalars `2^447` and `2^447 + 4`. -/
def leakKey : Arr Byte 57 := ⟨4 :: List.replicate 55 0 ++ [0x80], by simp⟩

theorem leakKey_scalar : RFC.secretScalar leakKey.1 = 2 ^ 447 + 4 := by decide +kernel

theorem leakKey_sign : signBit leakKey.1 = 1 := by decide +kernel

/-- Keys and messages as in `C64_control_flow` and `C64_distinguish`. -/
example : signBit Witness.key0.1 = signBit leakKey.1 ∧ Witness.key0 ≠ leakKey ∧ ([1, 2] : List Byte).length = ([3, 4] : List Byte).length :=
  ⟨Witness.key0_sign.trans leakKey_sign.symm, by decide +kernel, rfl⟩

/-- The number `h` for `2^447`. -/
def leakH : ℕ := 136282260805426291977998213979000850191307755128872136302779412346473502022336323988800877409444534244245497994736524702111946911644385

/-- The number `h` for `2^447 + 4`. -/
def leakH' : ℕ := 45427420268475430659332737993000283397102585042957378767593137448900500041566531130702999763598346262590351140190693549725068981819496

theorem comb_key0 : CombOf (2 ^ 447) leakH := by
  unfold CombOf
  rw [q_def]
  decide +kernel

theorem comb_leakKey : CombOf (2 ^ 447 + 4) leakH' := by
  unfold CombOf
  rw [q_def]
  decide +kernel

/-- C64. The positions do depend on the secret: the records of two keys of the same kind differ. -/
theorem C64_leaks (xof : Xof) : ∃ k k' : Arr Byte 57, signBit k.1 = signBit k'.1 ∧
    (Leak.ed448_derive_public xof k.1).events ≠ (Leak.ed448_derive_public xof k'.1).events ∧
    ∀ m, (Leak.ed448_sign xof k.1 m).events ≠ (Leak.ed448_sign xof k'.1 m).events := by
  have hs : signBit Witness.key0.1 = signBit leakKey.1 := Witness.key0_sign.trans leakKey_sign.symm
  have e1 : keyScalar xof Witness.key0.1 = 2 ^ 447 := by
    rw [keyScalar, if_neg (by rw [Witness.key0_sign]; norm_num), Witness.key0_scalar]
  have e2 : keyScalar xof leakKey.1 = 2 ^ 447 + 4 := by
    rw [keyScalar, if_neg (by rw [leakKey_sign]; norm_num), leakKey_scalar]
  have hp : ¬combPositions leakH = combPositions leakH' :=
    fun e => absurd (combPositions_get e (i := 0) (j := 0) (by norm_num) (by norm_num)) (by decide +kernel)
  refine ⟨Witness.key0, leakKey, hs, ?_, fun m => ?_⟩
  · obtain ⟨g, hg⟩ := combOf_exists (RFC.nonce xof (keySeed xof Witness.key0.1) [])
    obtain ⟨g', hg'⟩ := combOf_exists (RFC.nonce xof (keySeed xof leakKey.1) [])
    exact fun e => hp ((C64_distinguish xof xof Witness.key0 leakKey [] [] hs rfl _ g _ g' (e1 ▸ comb_key0) hg (e2 ▸ comb_leakKey) hg').1.1 e)
  · obtain ⟨g, hg⟩ := combOf_exists (RFC.nonce xof (keySeed xof Witness.key0.1) m)
    obtain ⟨g', hg'⟩ := combOf_exists (RFC.nonce xof (keySeed xof leakKey.1) m)
    exact fun e => hp ((C64_distinguish xof xof Witness.key0 leakKey m m hs rfl _ g _ g' (e1 ▸ comb_key0) hg (e2 ▸ comb_leakKey) hg').2.1 e).1

/-- The number to which `h` belongs. -/
theorem combOf_number {n h : ℕ} (hh : CombOf n h) : n % q = (8 * h + 4 * (2 ^ 450 - 1) * (q - 1)) % q := by
  obtain ⟨-, h2⟩ := hh
  generalize 4 * (2 ^ 450 - 1) = c at *
  have h3 : n + c + c * (q - 1) ≡ 8 * h + c * (q - 1) [MOD q] := (h2.symm).add_right _
  have h4 : n + c + c * (q - 1) = n + c * q := by
    have hq := q_pos
    obtain ⟨r, hr⟩ : ∃ r, q = r + 1 := ⟨q - 1, by omega⟩
    rw [hr, Nat.add_sub_cancel]
    ring
  rw [h4] at h3
  have h5 : n + c * q ≡ n [MOD q] := by
    show (n + c * q) % q = n % q
    rw [Nat.add_mul_mod_self_right]
  exact h5.symm.trans h3

/-- C64. What the positions tell about the key: of the secret scalars modulo the group order, at most `2^86` are consistent with the
record of one derivation. -/
theorem C64_narrows (xof : Xof) (k : Arr Byte 57) :
    {n | ∃ (xof' : Xof) (k' : Arr Byte 57), signBit k'.1 = signBit k.1 ∧
      (Leak.ed448_derive_public xof' k'.1).events = (Leak.ed448_derive_public xof k.1).events ∧ n = keyScalar xof' k'.1 % q}.encard ≤ 2 ^ 86 := by
  obtain ⟨h, g, hh, hg, _⟩ := C64_positions xof k []
  let S := (Finset.range q).filter fun h' => combPositions h' = combPositions h
  let T : Finset ℕ := S.image fun h' => (8 * h' + 4 * (2 ^ 450 - 1) * (q - 1)) % q
  have hsub : {n | ∃ (xof' : Xof) (k' : Arr Byte 57), signBit k'.1 = signBit k.1 ∧
      (Leak.ed448_derive_public xof' k'.1).events = (Leak.ed448_derive_public xof k.1).events ∧ n = keyScalar xof' k'.1 % q} ⊆ (T : Set ℕ) := by
    rintro n ⟨xof', k', hk, he, rfl⟩
    obtain ⟨h', g', hh', hg', _⟩ := C64_positions xof' k' []
    have := (C64_distinguish xof' xof k' k [] [] hk rfl h' g' h g hh' hg' hh hg).1.1 he
    rw [Finset.mem_coe, Finset.mem_image]
    exact ⟨h', Finset.mem_filter.2 ⟨Finset.mem_range.2 hh'.1, this⟩, (combOf_number hh').symm⟩
  refine (Set.encard_le_encard hsub).trans ?_
  rw [Set.encard_coe_eq_coe_finsetCard]
  have h1 : T.card ≤ 2 ^ 86 := Finset.card_image_le.trans (positions_card _)
  exact_mod_cast h1

end Ed448
