import Verif.Leak.Trace
import Verif.Properties.Masked
import Mathlib.Algebra.BigOperators.Group.List.Basic
import Mathlib.Algebra.Group.Prod

/-!
# C94: everything an observer of branches and memory accesses sees, written out
-/

namespace Ed448

open Leak

namespace Trace

theorem tables_flatMap {α : Type} (l : List α) (f : α → List Event) : tables (l.flatMap f) = l.flatMap fun a => tables (f a) := by
  induction l with
  | nil => rfl
  | cons a l ih => rw [List.flatMap_cons, List.flatMap_cons, tables_append, ih]

theorem tables_cons_branch (b : Bool) (l : List Event) : tables (.branch b :: l) = tables l := rfl

theorem teeth_tables (i j : ℕ) : tables (teeth i j) = [] := by
  rw [teeth, each, tables_flatMap, List.flatMap_eq_nil_iff]
  intro k _
  split <;> rfl

theorem swap_tables : tables swap = [] := by decide +kernel

theorem tooth_tables (look : List Event) (i j : ℕ) : tables (tooth look i j) = tables look := by
  rw [tooth, tables_append, tables_append, tables_append, tables_append, teeth_tables, swap_tables, tables_cons_branch]
  split <;> simp [tables]

theorem comb_tables (look : ℕ → ℕ → List Event) :
    tables (comb look) = (List.range 18).reverse.flatMap fun i => (List.range 5).flatMap fun j => tables (look i j) := by
  rw [comb, tables_append, tables_append, show tables add = [] by decide +kernel, show tables halve = [] by decide +kernel, tables_flatMap, List.nil_append,
    List.nil_append]
  refine congrArg (fun f => (List.range 18).reverse.flatMap f) (funext fun i => ?_)
  rw [tables_cons_branch, tables_append, each, tables_flatMap]
  simp only [tooth_tables]
  split <;> rfl

theorem secret_tables (look : ℕ → ℕ → List Event) : tables (secret look) = tables (comb look) := by
  rw [secret, tables_append, tables_append, tables_append, tables_append, show tables clamp = [] by decide +kernel,
    show tables (long 57 1) = [] by decide +kernel, show tables halve = [] by decide +kernel, List.nil_append, List.nil_append, List.nil_append, List.nil_append]

theorem derive_tables (seed : Bool) (look : ℕ → ℕ → List Event) : tables (derive seed look) = tables (comb look) := by
  rw [derive, show ∀ l, tables (.read 56 :: .branch seed :: l) = tables l from fun _ => rfl, tables_append, tables_append, secret_tables,
    show tables point = [] by decide +kernel, List.append_nil,
    show tables (if seed then [.hash 57 57, .read 56, .write 56] else []) = [] by cases seed <;> rfl, List.nil_append]

theorem finish_tables (m : ℕ) (look : ℕ → ℕ → List Event) : tables (finish m look) = tables (comb look) := by
  have h (e : Event) (he : tables [e] = []) (l : List Event) : tables (e :: l) = tables l := by
    rw [← List.singleton_append, tables_append, he, List.nil_append]
  rw [finish, h _ rfl, tables_append, tables_append, tables_append, tables_append, tables_append, tables_append, h _ rfl, tables_append, tables_append,
    tables_append, h _ rfl, tables_append, show tables (long 114 2) = [] by decide +kernel, show tables halve = [] by decide +kernel,
    show tables point = [] by decide +kernel, show tables mul = [] by decide +kernel, show tables add = [] by decide +kernel,
    show tables encode = [] by decide +kernel]
  simp [tables]

theorem sign_tables (seed : Bool) (m : ℕ) (look look' : ℕ → ℕ → List Event) : tables (sign seed m look look') = tables (comb look) ++ tables (comb look') := by
  rw [sign, show ∀ l, tables (.read 56 :: .branch seed :: l) = tables l from fun _ => rfl, tables_append, tables_append, secret_tables, finish_tables]
  have e : tables (if seed then .hash 57 114 :: (clamp ++ (.copy 0 57 :: .copy 0 57 :: (long 57 1 ++ [.copy 57 114, .copy 0 57])))
    else clamp ++ (clamp ++ long 57 1)) = [] := by
    cases seed
    · decide +kernel
    · decide +kernel
  rw [e, List.nil_append]

theorem comb_one (h : ℕ) : tables (comb (one (combPosition h))) = combPositions h := by
  rw [comb_tables, combPositions]
  simp only [List.map_eq_flatMap]
  rfl

theorem comb_all : tables (comb all) = Masked.positions := by
  rw [comb_tables]
  decide +kernel

end Trace

/-- C94. Deriving a public key: whatever the key and the hash function, the record is the list `Trace.derive`, for the kind of the key and for
positions in the precomputed table that come from the secret scalar. -/
theorem C94_derive (xof : Xof) (k : Arr Byte 57) :
    ∃ h, CombOf (keyScalar xof k.1) h ∧
      (Leak.ed448_derive_public xof k.1).events = Trace.derive (decide (signBit k.1 = 0)) (Trace.one (combPosition h)) := by
  obtain ⟨h, g, hh, hg, p1, -⟩ := C64_positions xof k []
  obtain ⟨⟨A, h1⟩, -⟩ := leak_ok xof k []
  exact ⟨h, hh, events_determined _ _ ((Leak.ed448_derive_public_shows (combPosition h) xof k).out A h1).1
    (by rw [p1, Trace.derive_tables, Trace.comb_one])⟩

/-- C94. Signing: whatever the key, the message and the hash function, the record is the list `Trace.sign`, for the kind of the key, the length of the
message, and positions in the precomputed table that come from the secret scalar and from the nonce. -/
theorem C94_sign (xof : Xof) (k : Arr Byte 57) (m : List Byte) :
    ∃ h g, CombOf (keyScalar xof k.1) h ∧ CombOf (RFC.nonce xof (keySeed xof k.1) m) g ∧
      (Leak.ed448_sign xof k.1 m).events =
        Trace.sign (decide (signBit k.1 = 0)) m.length (Trace.one (combPosition h)) (Trace.one (combPosition g)) := by
  obtain ⟨h, g, hh, hg, -, p2⟩ := C64_positions xof k m
  obtain ⟨-, ⟨s, h2⟩⟩ := leak_ok xof k m
  exact ⟨h, g, hh, hg, events_determined _ _ ((Leak.ed448_sign_shows (combPosition h) (combPosition g) xof k m).out s h2).1
    (by rw [p2, Trace.sign_tables, Trace.comb_one, Trace.comb_one])⟩

/-- C94. With the look-up that reads every entry nothing remains but the kind of the key and the length of the message. -/
theorem C94_masked (xof : Xof) (k : Arr Byte 57) (m : List Byte) :
    (Masked.ed448_derive_public xof k.1).events = Trace.derive (decide (signBit k.1 = 0)) Trace.all ∧
      (Masked.ed448_sign xof k.1 m).events = Trace.sign (decide (signBit k.1 = 0)) m.length Trace.all Trace.all := by
  obtain ⟨⟨A, h1⟩, ⟨s, h2⟩⟩ := masked_ok xof k m
  refine ⟨events_determined _ _ ((Masked.ed448_derive_public_shows xof k).out A h1).1 ?_,
    events_determined _ _ ((Masked.ed448_sign_shows xof k m).out s h2).1 ?_⟩
  · rw [(Masked.ed448_derive_public_reads xof k.1).out A h1, Trace.derive_tables, Trace.comb_all]
  · rw [(Masked.ed448_sign_reads xof k.1 m).out s h2, Trace.sign_tables, Trace.comb_all]

/-! ## Counting -/

namespace Trace

theorem tally_append (a b : List Event) : tally (a ++ b) = tally a + tally b := by
  simp only [tally, List.countP_append, Prod.mk_add_mk]

theorem tally_cons (e : Event) (l : List Event) : tally (e :: l) = tally [e] + tally l := tally_append [e] l

theorem tally_nil : tally [] = 0 := rfl

theorem tally_flatMap {α : Type} (l : List α) (f : α → List Event) : tally (l.flatMap f) = (l.map fun a => tally (f a)).sum := by
  induction l with
  | nil => rfl
  | cons a l ih => rw [List.flatMap_cons, tally_append, ih, List.map_cons, List.sum_cons]

theorem tooth_tally (look : List Event) (i j : ℕ) : tally (tooth look i j) = tally (tooth [] i j) + tally look := by
  simp only [tooth, tally_append, tally_nil]
  abel

theorem comb_tally (look : ℕ → ℕ → List Event) (c : ℕ × ℕ × ℕ × ℕ × ℕ × ℕ) (h : ∀ i j, tally (look i j) = c) :
    tally (comb look) = tally (comb fun _ _ => []) + 90 • c := by
  have row (i : ℕ) : tally (each 5 fun j => tooth (look i j) i j) = tally (each 5 fun j => tooth [] i j) + 5 • c := by
    simp only [each, tally_flatMap, tooth_tally (look i _), h]
    simp only [List.range_succ, List.range_zero, List.nil_append, List.cons_append, List.map_cons, List.map_nil, List.sum_cons, List.sum_nil]
    abel
  have line (i : ℕ) : tally (.branch (decide (i ≠ 17)) :: ((if i ≠ 17 then [.branch true] else []) ++ each 5 fun j => tooth (look i j) i j)) =
      tally (.branch (decide (i ≠ 17)) :: ((if i ≠ 17 then [.branch true] else []) ++ each 5 fun j => tooth [] i j)) + 5 • c := by
    rw [tally_cons, tally_cons _ (_ ++ _), tally_append, tally_append, row]
    abel
  have total (l : List ℕ) (f : ℕ → ℕ × ℕ × ℕ × ℕ × ℕ × ℕ) : (l.map fun i => f i + 5 • c).sum = (l.map f).sum + l.length • 5 • c := by
    generalize 5 • c = d
    induction l with
    | nil => simp
    | cons a l ih =>
      rw [List.map_cons, List.sum_cons, ih, List.map_cons, List.sum_cons, List.length_cons, succ_nsmul]
      abel
  rw [comb, comb, tally_append, tally_append, tally_append, tally_append, tally_flatMap, tally_flatMap]
  simp only [line]
  rw [total, List.length_reverse, List.length_range, smul_smul, add_assoc, add_assoc, show 18 * 5 = 90 from rfl]

theorem comb_none : tally (comb fun _ _ => []) = (664, 6346, 5830, 0, 0, 0) := by
  rw [comb, tally_append, tally_append, tally_flatMap]
  decide +kernel

theorem comb_one_tally (pos : ℕ → ℕ → ℕ) : tally (comb (one pos)) = (664, 6346, 5830, 0, 90, 0) := by
  rw [comb_tally _ (0, 0, 0, 0, 1, 0) (fun _ _ => rfl), comb_none]
  rfl

theorem comb_all_tally : tally (comb all) = (664, 144586, 144070, 0, 1440, 0) := by
  rw [comb_tally _ (0, 1536, 1536, 0, 16, 0) (fun i j => ?_), comb_none]
  · rfl
  · rw [all, each, tally_flatMap]
    have h (k : ℕ) : tally (.table (16 * j + k) :: (swap ++ (swap ++ swap))) = (0, 96, 96, 0, 1, 0) := by
      rw [tally_cons, tally_append, tally_append, show tally swap = (0, 32, 32, 0, 0, 0) by decide +kernel]
      rfl
    simp only [h]
    decide +kernel

theorem long57_tally : tally (long 57 1) = (664, 2773, 1330, 2, 0, 0) := by decide +kernel

theorem long114_tally : tally (long 114 2) = (1310, 5546, 2646, 3, 0, 0) := by decide +kernel

theorem mul_tally : tally mul = (392, 1736, 840, 0, 0, 0) := by decide +kernel

theorem add_tally : tally add = (0, 84, 42, 0, 0, 0) := by decide +kernel

theorem halve_tally : tally halve = (0, 56, 28, 0, 0, 0) := by decide +kernel

theorem point_tally : tally point = (288, 16, 57, 1, 0, 0) := by decide +kernel

theorem encode_tally : tally encode = (0, 56, 56, 0, 0, 0) := by decide +kernel

theorem clamp_tally : tally clamp = (0, 2, 3, 0, 0, 0) := rfl

theorem secret_tally (look : ℕ → ℕ → List Event) : tally (secret look) = tally (comb look) + (664, 2887, 1389, 2, 0, 0) := by
  rw [secret, tally_append, tally_append, tally_append, tally_append, clamp_tally, long57_tally, halve_tally, add_comm]
  generalize tally (comb look) = c
  simp only [Prod.ext_iff, Prod.fst_add, Prod.snd_add]
  omega

theorem derive_tally (seed : Bool) (look : ℕ → ℕ → List Event) :
    tally (derive seed look) = tally (comb look) + if seed then (953, 2905, 1447, 3, 0, 1) else (953, 2904, 1446, 3, 0, 0) := by
  rw [derive, tally_cons, tally_cons (.branch seed), tally_append, tally_append, secret_tally, point_tally]
  generalize tally (comb look) = c
  cases seed <;> simp [Prod.ext_iff, tally] <;> omega

theorem finish_tally (m : ℕ) (look : ℕ → ℕ → List Event) : tally (finish m look) = tally (comb look) + (3588, 13112, 6400, 10, 0, 2) := by
  rw [finish, tally_cons, tally_append, tally_append, tally_append, tally_append, tally_append, tally_append, tally_cons (.hash (124 + m) 114), tally_append, tally_append,
    tally_append, tally_cons (.copy 0 57), tally_append, long114_tally, halve_tally, point_tally, mul_tally, add_tally, encode_tally]
  generalize tally (comb look) = c
  simp [Prod.ext_iff, tally]
  omega

theorem sign_tally (seed : Bool) (m : ℕ) (look look' : ℕ → ℕ → List Event) :
    tally (sign seed m look look') =
      tally (comb look) + tally (comb look') + if seed then (4917, 18775, 9122, 18, 0, 3) else (4917, 18777, 9125, 14, 0, 2) := by
  rw [sign, tally_cons, tally_cons (.branch seed), tally_append, tally_append, secret_tally, finish_tally]
  have e : tally (if seed then .hash 57 114 :: (clamp ++ (.copy 0 57 :: .copy 0 57 :: (long 57 1 ++ [.copy 57 114, .copy 0 57])))
    else clamp ++ (clamp ++ long 57 1)) = if seed then (664, 2775, 1333, 6, 0, 1) else (664, 2777, 1336, 2, 0, 0) := by
    cases seed
    · rw [if_neg Bool.false_ne_true, if_neg Bool.false_ne_true, tally_append, tally_append, long57_tally, clamp_tally]
      decide +kernel
    · rw [if_pos rfl, if_pos rfl, tally_cons, tally_append, tally_cons (.copy 0 57) (_ :: _), tally_cons (.copy 0 57) (_ ++ _), tally_append, long57_tally, clamp_tally]
      decide +kernel
  rw [e]
  generalize tally (comb look) = c
  generalize tally (comb look') = c'
  cases seed <;> simp [Prod.ext_iff, tally] <;> omega

end Trace

/-- C94. How many branches, reads, writes, copies, reads of the precomputed table and calls of SHAKE256 the library makes, for every key, message and
hash function. -/
theorem C94_counts (xof : Xof) (k : Arr Byte 57) (m : List Byte) :
    Trace.tally (Leak.ed448_derive_public xof k.1).events =
        (if signBit k.1 = 0 then (1617, 9251, 7277, 3, 90, 1) else (1617, 9250, 7276, 3, 90, 0)) ∧
      Trace.tally (Leak.ed448_sign xof k.1 m).events =
        if signBit k.1 = 0 then (6245, 31467, 20782, 18, 180, 3) else (6245, 31469, 20785, 14, 180, 2) := by
  obtain ⟨h, -, e⟩ := C94_derive xof k
  obtain ⟨h', g, -, -, e'⟩ := C94_sign xof k m
  rw [e, e', Trace.derive_tally, Trace.sign_tally, Trace.comb_one_tally, Trace.comb_one_tally, Trace.comb_one_tally]
  by_cases hk : signBit k.1 = 0 <;> simp [hk]

/-- C94. The same with the look-up that reads every entry. -/
theorem C94_masked_counts (xof : Xof) (k : Arr Byte 57) (m : List Byte) :
    Trace.tally (Masked.ed448_derive_public xof k.1).events =
        (if signBit k.1 = 0 then (1617, 147491, 145517, 3, 1440, 1) else (1617, 147490, 145516, 3, 1440, 0)) ∧
      Trace.tally (Masked.ed448_sign xof k.1 m).events =
        if signBit k.1 = 0 then (6245, 307947, 297262, 18, 2880, 3) else (6245, 307949, 297265, 14, 2880, 2) := by
  rw [(C94_masked xof k m).1, (C94_masked xof k m).2, Trace.derive_tally, Trace.sign_tally, Trace.comb_all_tally]
  by_cases hk : signBit k.1 = 0 <;> simp [hk]

/-- The first events of a derivation with a seed: the last byte is read, the top bit is tested, and 57 bytes are hashed to 57 bytes. -/
example (xof : Xof) : ((Leak.ed448_derive_public xof (List.replicate 57 0)).events).take 5 =
    [.read 56, .branch true, .hash 57 57, .read 56, .write 56] := by
  obtain ⟨h, -, e⟩ := C94_derive xof ⟨List.replicate 57 0, List.length_replicate ..⟩
  rw [show decide (signBit (List.replicate 57 (0 : Byte)) = 0) = true by decide +kernel] at e
  rw [e]
  rfl

end Ed448
