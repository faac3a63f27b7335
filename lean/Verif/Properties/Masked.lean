import Verif.Leak.Masked
import Verif.Properties.Leak

/-!
# C81: reading every table entry removes what C64 shows
-/

set_option exponentiation.threshold 1000

namespace Ed448

open Leak

/-- C81. The functions with the repaired look-up return what the library returns, for every hash function, key and message. -/
theorem C81_same_results (xof : Xof) (k : Arr Byte 57) (m : List Byte) :
    (Masked.ed448_derive_public xof k.1).result = (ed448_derive_public xof k >>= fun A => pure A.1) ∧
      (Masked.ed448_sign xof k.1 m).result = (ed448_sign xof k m >>= fun sig => pure sig.1) := by
  rw [Masked.ed448_derive_public_result, Masked.ed448_sign_result, Chk.ed448_derive_public_eq, Chk.ed448_sign_eq]
  exact ⟨rfl, rfl⟩

theorem masked_ok (xof : Xof) (k : Arr Byte 57) (m : List Byte) :
    (∃ A, (Masked.ed448_derive_public xof k.1).result = .ok A) ∧ (∃ sig, (Masked.ed448_sign xof k.1 m).result = .ok sig) := by
  obtain ⟨⟨A, h1⟩, ⟨sig, h2⟩⟩ := C29_no_panic xof k m
  rw [(C81_same_results xof k m).1, (C81_same_results xof k m).2, h1, h2]
  exact ⟨⟨A.1, rfl⟩, ⟨sig.1, rfl⟩⟩

/-- C81. With the repaired look-up the whole record, positions included, is the same for all keys of one kind, all messages of one length
and all hash functions. -/
theorem C81_constant (xof xof' : Xof) (k k' : Arr Byte 57) (m m' : List Byte) (hk : signBit k.1 = signBit k'.1)
    (hm : m.length = m'.length) :
    (Masked.ed448_derive_public xof k.1).events = (Masked.ed448_derive_public xof' k'.1).events ∧
      (Masked.ed448_sign xof k.1 m).events = (Masked.ed448_sign xof' k'.1 m').events := by
  have hl : Len k.1 k'.1 := k.2.trans k'.2.symm
  obtain ⟨⟨A, h1⟩, ⟨s, h2⟩⟩ := masked_ok xof k m
  obtain ⟨⟨A', h3⟩, ⟨s', h4⟩⟩ := masked_ok xof' k' m'
  refine ⟨events_determined _ _ ((Masked.ed448_derive_public_same xof xof' hl (kind_eq hk)).out A A' h1 h3).1 ?_,
    events_determined _ _ ((Masked.ed448_sign_same xof xof' hl hm (kind_eq hk)).out s s' h2 h4).1 ?_⟩
  · rw [(Masked.ed448_derive_public_reads xof k.1).out A h1, (Masked.ed448_derive_public_reads xof' k'.1).out A' h3]
  · rw [(Masked.ed448_sign_reads xof k.1 m).out s h2, (Masked.ed448_sign_reads xof' k'.1 m').out s' h4]

/-- C81. What the repair costs: 1440 entries are read instead of 90 when a public key is derived, 2880 instead of 180 when a message is
signed. -/
theorem C81_cost (xof : Xof) (k : Arr Byte 57) (m : List Byte) :
    (tables (Masked.ed448_derive_public xof k.1).events).length = 16 * (tables (Leak.ed448_derive_public xof k.1).events).length ∧
      (tables (Masked.ed448_sign xof k.1 m).events).length = 16 * (tables (Leak.ed448_sign xof k.1 m).events).length ∧
      (tables (Leak.ed448_derive_public xof k.1).events).length = 90 ∧ (tables (Leak.ed448_sign xof k.1 m).events).length = 180 := by
  obtain ⟨⟨A, h1⟩, ⟨s, h2⟩⟩ := masked_ok xof k m
  obtain ⟨h, g, _, _, p1, p2⟩ := C64_positions xof k m
  have hp : Masked.positions.length = 1440 := by decide +kernel
  rw [(Masked.ed448_derive_public_reads xof k.1).out A h1, (Masked.ed448_sign_reads xof k.1 m).out s h2, p1, p2, List.length_append,
    List.length_append, combPositions_length, combPositions_length, hp]
  exact ⟨rfl, rfl, rfl, rfl⟩

/-- Keys as in `C81_constant` whose records differ in the library (`C64_leaks`). -/
example (xof : Xof) : ∃ k k' : Arr Byte 57, signBit k.1 = signBit k'.1 ∧
    (Leak.ed448_derive_public xof k.1).events ≠ (Leak.ed448_derive_public xof k'.1).events ∧
    (Masked.ed448_derive_public xof k.1).events = (Masked.ed448_derive_public xof k'.1).events := by
  obtain ⟨k, k', hk, h, _⟩ := C64_leaks xof
  exact ⟨k, k', hk, h, (C81_constant xof xof k k' [] [] hk rfl).1⟩

end Ed448
