import Mathlib.Data.Set.Finite.List
import Verif.Math.Lazy
import Verif.Properties.RandomHash
import Verif.Properties.Repaired

/-!
# C86: forging signatures of the library, for a random hash function
-/

namespace Ed448

set_option exponentiation.threshold 1000

/-! ## Statement -/

/-- What a forger gets who uses the library: values of the hash function, and signatures under the private key `k`. -/
def libReply (xof : Xof) (k : Arr Byte 57) : Request → List Byte
  | .hash x => RFC.hash xof x 114
  | .sign m => match ed448_sign xof k m with
    | .ok sig => sig.1
    | .error _ => []

/-- All replies in the first `n` rounds. -/
def libSeen (F : Forger) (xof : Xof) (k : Arr Byte 57) : ℕ → List (List Byte)
  | 0 => []
  | n + 1 => libSeen F xof k n ++ [libReply xof k (F.next (libSeen F xof k n))]

/-- The forger, who knows the public key, offers a signature of a message for which they did not ask. `Ok xof pk m sig` says that the signature counts. -/
def LibForges (Ok : Xof → List Byte → List Byte → List Byte → Prop) (F : List Byte → Forger) (xof : Xof) (k : Arr Byte 57) (n : ℕ) : Prop :=
  ∃ pk, ed448_derive_public xof k = .ok pk ∧
    let f := (F pk.1).forge (libSeen (F pk.1) xof k n)
    (∀ i < n, (F pk.1).next (libSeen (F pk.1) xof k i) ≠ .sign f.1) ∧ Ok xof pk.1 f.1 f.2

/-- The forger offers something that was not made for them, even with the same message: the first half is another one. It is enough that the equation holds. -/
def LibNew (ρ : Reading) (F : List Byte → Forger) (xof : Xof) (k : Arr Byte 57) (n : ℕ) : Prop :=
  ∃ pk, ed448_derive_public xof k = .ok pk ∧
    let f := (F pk.1).forge (libSeen (F pk.1) xof k n)
    (∀ i < n, (F pk.1).next (libSeen (F pk.1) xof k i) = .sign f.1 → (libReply xof k (.sign f.1)).take 57 ≠ f.2.take 57) ∧ Loose ρ xof pk.1 f.1 f.2

/-- Strings of at most `L` bytes. -/
abbrev Short (L : ℕ) : Set (List Byte) := {x | x.length ≤ L}

/-- The hash function with the values of `f` (and zero for longer strings). -/
def hashOf {L : ℕ} (f : Short L → Out) : Xof := fun x i => if h : x.length ≤ L ∧ i < 114 then f ⟨x, h.1⟩ ⟨i, h.2⟩ else 0

/-- The strings that are hashed on requests of the forger have at most `L` bytes (10 + 57 + 57 bytes come before the message). -/
def Bounded (F : List Byte → Forger) (L : ℕ) : Prop :=
  ∀ pk, pk.length = 57 → ∀ seen, (∀ x, (F pk).next seen = .hash x → x.length ≤ L) ∧ (∀ m, (F pk).next seen = .sign m → m.length + 124 ≤ L) ∧
    ((F pk).forge seen).1.length + 124 ≤ L

/-- An offer that the repaired verifier accepts counts. -/
theorem C86_accepted (F : List Byte → Forger) (xof : Xof) (k pk : Arr Byte 57) (n : ℕ) (hk : ed448_derive_public xof k = .ok pk)
    (hm : ∀ i < n, (F pk.1).next (libSeen (F pk.1) xof k i) ≠ .sign ((F pk.1).forge (libSeen (F pk.1) xof k n)).1)
    (hv : Repaired.ed448_verify xof pk.1 ((F pk.1).forge (libSeen (F pk.1) xof k n)).2 ((F pk.1).forge (libSeen (F pk.1) xof k n)).1 = .ok (.ok true)) :
    LibForges RFC.Valid F xof k n :=
  ⟨pk, hk, hm, ((C80_exact _ _ _ _).1.mp hv).2⟩

/-! ## The library as a procedure that asks for values of the hash function -/

/-- The first 114 bytes. -/
def outOf (xof : Xof) (x : List Byte) : Out := fun i => xof x i

theorem ofFn_outOf (xof : Xof) (x : List Byte) : List.ofFn (outOf xof x) = RFC.hash xof x 114 := by
  apply List.ext_getElem
  · rw [List.length_ofFn, RFC.hash, List.length_map, List.length_range]
  · intro i h1 h2
    simp only [RFC.hash, List.getElem_map, List.getElem_range, List.getElem_ofFn, outOf]

theorem outNat_outOf (xof : Xof) (x : List Byte) : outNat (outOf xof x) = leNat (RFC.hash xof x 114) := by rw [outNat, ofFn_outOf]

/-- `sig` is valid if the hash function has the value `c` for its challenge. -/
def ValidWith (ρ : Reading) (pk sig : List Byte) (c : Out) : Prop :=
  114 ≤ sig.length ∧ ∃ A R : E, RFC.DecodesTo pk A ∧ ρ.reads (sig.take 57) R ∧ RFC.Equation (leNat ((sig.drop 57).take 57)) R A (outNat c)

theorem validWith_iff (xof : Xof) (pk m sig : List Byte) : ValidWith ρ pk sig (outOf xof (challengeString pk m sig)) ↔ Loose ρ xof pk m sig := by
  rw [ValidWith, Loose, outNat_outOf]
  rfl

theorem won_iff (g : Game) (F : Forger) (shake : Xof) (pk : List Byte) (f : Out) :
    g.Won ρ F shake pk f ↔ (∀ s, g.signed.lookup (F.forge g.seen).1 = some s → s.take 57 ≠ (F.forge g.seen).2.take 57) ∧
      ValidWith ρ pk (F.forge g.seen).2 (value g.table (challengeString pk (F.forge g.seen).1 (F.forge g.seen).2) f) := by
  rw [Game.Won, Loose, challenge_won]
  rfl

/-- The rounds and the offer. Each round asks twice; for a hash request the first question is one whose answer is known. -/
noncomputable def rounds (ρ : Reading) (F : Forger) (k : List Byte) (s : ℕ) (seed : List Byte) : ℕ → List (List Byte) → List (List Byte × List Byte) → Tree (List Byte) Out
  | 0, seen, reqs =>
    .ask (challengeString (RFC.publicOf s) (F.forge seen).1 (F.forge seen).2) fun c =>
      .done ((∀ s, ((F.forge seen).1, s) ∈ reqs → s.take 57 ≠ (F.forge seen).2.take 57) ∧ ValidWith ρ (RFC.publicOf s) (F.forge seen).2 c)
  | n + 1, seen, reqs =>
    match F.next seen with
    | .hash x => .ask k fun _ => .ask x fun v => rounds ρ F k s seed n (seen ++ [List.ofFn v]) reqs
    | .sign m => .ask (RFC.dom4 ++ seed ++ m) fun r => .ask (RFC.dom4 ++ encodePoint (outNat r • B) ++ RFC.publicOf s ++ m) fun c =>
      rounds ρ F k s seed n (seen ++ [encodePoint (outNat r • B) ++ leBytes 57 ((outNat r + outNat c * s) % q)])
        (reqs ++ [(m, encodePoint (outNat r • B) ++ leBytes 57 ((outNat r + outNat c * s) % q))])

/-- The bytes of an output for the secret scalar, and the others. -/
def firstHalf (o : Out) : Fin 57 → Byte := fun i => o (Fin.castAdd 57 i)

def secondHalf (o : Out) : Fin 57 → Byte := fun i => o (Fin.natAdd 57 i)

theorem keyHash_halves (o : Out) : keyHash (firstHalf o) (secondHalf o) = o := Fin.append_castAdd_natAdd (m := 57) (n := 57) (f := o)

/-- All of it, with the derivation of the key. -/
noncomputable def libTree (ρ : Reading) (F : List Byte → Forger) (k : List Byte) (n : ℕ) : Tree (List Byte) Out :=
  .ask k fun o =>
    rounds ρ (F (RFC.publicOf (RFC.secretScalar (List.ofFn (firstHalf o))))) k (RFC.secretScalar (List.ofFn (firstHalf o))) (List.ofFn (secondHalf o)) n [] []

theorem halves_hash (xof : Xof) (k : List Byte) : List.ofFn (firstHalf (outOf xof k)) = (RFC.hash xof k 114).take 57 ∧
    List.ofFn (secondHalf (outOf xof k)) = (RFC.hash xof k 114).drop 57 := by
  constructor
  · apply List.ext_getElem
    · rw [List.length_ofFn, List.length_take, RFC.hash, List.length_map, List.length_range]; rfl
    · intro i h1 h2
      simp only [RFC.hash, List.getElem_take, List.getElem_map, List.getElem_range, List.getElem_ofFn, firstHalf, outOf, Fin.val_castAdd]
  · apply List.ext_getElem
    · rw [List.length_ofFn, List.length_drop, RFC.hash, List.length_map, List.length_range]
    · intro i h1 h2
      simp only [RFC.hash, List.getElem_drop, List.getElem_map, List.getElem_range, List.getElem_ofFn, secondHalf, outOf, Fin.val_natAdd]

theorem run_rounds (F : Forger) (xof : Xof) (k : Arr Byte 57) : ∀ n i reqs,
    (rounds ρ F k.1 (keyScalar xof k.1) (keySeed xof k.1) n (libSeen F xof k i) reqs).run (outOf xof) ↔
      ((∀ s, ((F.forge (libSeen F xof k (i + n))).1, s) ∈ reqs → s.take 57 ≠ (F.forge (libSeen F xof k (i + n))).2.take 57) ∧
        ∀ j, i ≤ j → j < i + n → F.next (libSeen F xof k j) = .sign (F.forge (libSeen F xof k (i + n))).1 →
          (libReply xof k (.sign (F.forge (libSeen F xof k (i + n))).1)).take 57 ≠ (F.forge (libSeen F xof k (i + n))).2.take 57) ∧
        Loose ρ xof (RFC.publicOf (keyScalar xof k.1)) (F.forge (libSeen F xof k (i + n))).1 (F.forge (libSeen F xof k (i + n))).2
  | 0, i, reqs => by
    simp only [rounds, Tree.run, validWith_iff, Nat.add_zero]
    constructor
    · rintro ⟨h1, h2⟩
      exact ⟨⟨h1, fun j h3 h4 => by omega⟩, h2⟩
    · rintro ⟨⟨h1, _⟩, h2⟩
      exact ⟨h1, h2⟩
  | n + 1, i, reqs => by
    have ih := run_rounds (ρ := ρ) F xof k n (i + 1)
    have hseen : libSeen F xof k (i + 1) = libSeen F xof k i ++ [libReply xof k (F.next (libSeen F xof k i))] := rfl
    rw [rounds]
    rw [show i + 1 + n = i + (n + 1) by omega] at ih
    cases hreq : F.next (libSeen F xof k i) with
    | hash x =>
      rw [hreq, libReply, ← ofFn_outOf] at hseen
      simp only [Tree.run]
      rw [← hseen, ih]
      refine and_congr_left fun _ => and_congr_right fun _ => ?_
      constructor
      · intro h j h1 h2
        rcases Nat.eq_or_lt_of_le h1 with rfl | h3
        · rw [hreq]; exact fun e => Request.noConfusion e
        · exact h j h3 h2
      · exact fun h j h1 h2 => h j (by omega) h2
    | sign m =>
      obtain ⟨sig, h1, h2⟩ := sign_spec xof k m
      have hs : libReply xof k (.sign m) = RFC.signWith xof (keyScalar xof k.1) (keySeed xof k.1) m := by rw [libReply, h1, ← h2]
      rw [hreq, hs] at hseen
      have hs2 : RFC.signWith xof (keyScalar xof k.1) (keySeed xof k.1) m = encodePoint (outNat (outOf xof (RFC.dom4 ++ keySeed xof k.1 ++ m)) • B) ++
          leBytes 57 ((outNat (outOf xof (RFC.dom4 ++ keySeed xof k.1 ++ m)) + outNat (outOf xof (RFC.dom4 ++
            encodePoint (outNat (outOf xof (RFC.dom4 ++ keySeed xof k.1 ++ m)) • B) ++ RFC.publicOf (keyScalar xof k.1) ++ m)) * keyScalar xof k.1) % q) := by
        simp only [outNat_outOf]
        rw [RFC.signWith]
        simp only [RFC.nonce, RFC.challenge]
      simp only [Tree.run]
      rw [← hs2, ← hseen, ih]
      refine and_congr_left fun _ => ?_
      constructor
      · rintro ⟨h3, h4⟩
        refine ⟨fun s h5 => h3 s (List.mem_append_left _ h5), fun j h5 h6 h7 => ?_⟩
        rcases Nat.eq_or_lt_of_le h5 with rfl | h8
        · rw [hreq] at h7
          obtain rfl := Request.sign.inj h7
          rw [hs]
          exact h3 _ (List.mem_append_right _ (List.mem_singleton.mpr rfl))
        · exact h4 j h8 h6 h7
      · rintro ⟨h3, h4⟩
        refine ⟨fun s h5 => ?_, fun j h5 h6 => h4 j (by omega) h6⟩
        rcases List.mem_append.mp h5 with h5 | h5
        · exact h3 s h5
        · obtain ⟨e1, e2⟩ := Prod.mk.inj (List.mem_singleton.mp h5)
          have := h4 i (Nat.le_refl _) (by omega) (by rw [hreq, e1])
          rw [e1, hs] at this
          rw [e2]
          exact this

theorem run_start (F : List Byte → Forger) (xof : Xof) (k : Arr Byte 57) (n : ℕ) :
    (rounds ρ (F (RFC.publicOf (keyScalar xof k.1))) k.1 (keyScalar xof k.1) (keySeed xof k.1) n [] []).run (outOf xof) ↔ LibNew ρ F xof k n := by
  have h3 := run_rounds (ρ := ρ) (F (RFC.publicOf (keyScalar xof k.1))) xof k n 0 []
  rw [show libSeen (F (RFC.publicOf (keyScalar xof k.1))) xof k 0 = [] from rfl] at h3
  rw [h3, LibNew]
  obtain ⟨pk, h4, h5⟩ := derive_spec xof k
  have h6 : pk.1 = RFC.publicOf (keyScalar xof k.1) := h5
  constructor
  · rintro ⟨⟨_, h7⟩, h8⟩
    refine ⟨pk, h4, ?_⟩
    rw [h6]
    simp only [Nat.zero_add] at h7 h8 ⊢
    exact ⟨fun i hi => h7 i (Nat.zero_le _) hi, h8⟩
  · rintro ⟨pk', h4', h7, h8⟩
    obtain rfl : pk' = pk := by rw [h4] at h4'; cases h4'; rfl
    rw [h6] at h7 h8
    simp only [Nat.zero_add]
    exact ⟨⟨by simp, fun j _ hj => h7 j hj⟩, h8⟩

/-- For a private key without the sign bit, the library behaves like the procedure. -/
theorem run_libTree (F : List Byte → Forger) (xof : Xof) (k : Arr Byte 57) (hk : signBit k.1 = 0) (n : ℕ) :
    (libTree ρ F k.1 n).run (outOf xof) ↔ LibNew ρ F xof k n := by
  obtain ⟨h1, h2⟩ := halves_hash xof k.1
  have e1 : RFC.secretScalar (List.ofFn (firstHalf (outOf xof k.1))) = keyScalar xof k.1 := by rw [h1, keyScalar, if_pos hk]
  have e2 : List.ofFn (secondHalf (outOf xof k.1)) = keySeed xof k.1 := by rw [h2, keySeed, if_pos hk]
  rw [libTree, Tree.run, e1, e2]
  exact run_start F xof k n

/-! ## The procedure with a tape is the game -/

/-- The entries of the two tapes in the order in which they are used. -/
def merged (h r : ℕ → Out) : ℕ → ℕ → List Out
  | i, 0 => [h i]
  | i, n + 1 => r i :: h i :: merged h r (i + 1) n

theorem lookup_same {t : Table} {x : List Byte} {v : Out} (h : t.lookup x = some v) (y : List Byte) : (t ++ [(x, v)]).lookup y = t.lookup y := by
  by_cases e : y = x
  · rw [e, h]; exact lookup_append_some h
  · exact lookup_other e

/-- The table `t` and the requests `reqs` belong to the state `g`. -/
structure Sim (k : List Byte) (s : ℕ) (seed : List Byte) (t : Table) (g : Game) (reqs : List (List Byte × List Byte)) : Prop where
  table : ∀ x, t.lookup x = g.table.lookup x
  reqs : ∀ m sig, (m, sig) ∈ reqs ↔ g.signed.lookup m = some sig
  signed : ∀ m sig, g.signed.lookup m = some sig → ∃ r c, t.lookup (RFC.dom4 ++ seed ++ m) = some r ∧
    t.lookup (RFC.dom4 ++ encodePoint (outNat r • B) ++ RFC.publicOf s ++ m) = some c ∧
    sig = encodePoint (outNat r • B) ++ leBytes 57 ((outNat r + outNat c * s) % q)
  key : ∃ o, t.lookup k = some o

theorem value_lookup {t : Table} {x : List Byte} (f : Out) : (t ++ [(x, value t x f)]).lookup x = some (value t x f) := by
  cases hx : t.lookup x with
  | none => rw [lookup_append_none hx, List.lookup_cons, beq_self_eq_true]
  | some v => rw [value_some hx, lookup_append_some hx]

theorem lazy_rounds (F : Forger) (shake : Xof) (kl : List Byte) (o : Out) (s : ℕ) (seed : List Byte) (h r : ℕ → Out) : ∀ n i t reqs,
    Sim kl s seed t (fullPlay F kl o s seed h r i) reqs →
    ((rounds ρ F kl s seed n (fullPlay F kl o s seed h r i).seen reqs).lazy t (merged h r i n) ↔
      (fullPlay F kl o s seed h r (i + n)).Won ρ F shake (RFC.publicOf s) (h (i + n)))
  | 0, i, t, reqs, hs => by
    rw [won_iff, rounds, merged, Tree.lazy, Tree.lazy, hs.table]
    simp only [hs.reqs]
    rfl
  | n + 1, i, t, reqs, hs => by
    have ih := lazy_rounds (ρ := ρ) F shake kl o s seed h r n (i + 1)
    rw [show i + 1 + n = i + (n + 1) by omega] at ih
    have hg : fullPlay F kl o s seed h r (i + 1) = (fullPlay F kl o s seed h r i).fullRound F s seed (h i) (r i) := rfl
    rw [hg] at ih
    generalize fullPlay F kl o s seed h r (i + (n + 1)) = gn at *
    generalize fullPlay F kl o s seed h r i = g at *
    rw [merged, rounds]
    rw [Game.fullRound] at ih
    cases hreq : F.next g.seen with
    | hash x =>
      simp only [hreq] at ih
      obtain ⟨o, ho⟩ := hs.key
      simp only [Tree.lazy, ho, Option.getD_some, lookup_same ho, hs.table x]
      refine ih _ reqs ⟨fun y => ?_, hs.reqs, fun m sig hm => ?_, o, lookup_append_some (lookup_append_some ho)⟩
      · rw [List.lookup_append, lookup_same ho, List.lookup_append, hs.table]
        rfl
      · obtain ⟨r', c, h1, h2, h3⟩ := hs.signed m sig hm
        exact ⟨r', c, lookup_append_some (lookup_append_some h1), lookup_append_some (lookup_append_some h2), h3⟩
    | sign m =>
      simp only [hreq] at ih
      cases hl : g.signed.lookup m with
      | some sig =>
        simp only [hl] at ih
        obtain ⟨r', c, h1, h2, h3⟩ := hs.signed m sig hl
        simp only [Tree.lazy, h1, Option.getD_some, lookup_same h1, h2, ← h3]
        refine ih _ _ ⟨fun y => ?_, fun m' sig' => ?_, fun m' sig' hm => ?_, ?_⟩
        · rw [lookup_same (by rw [lookup_same h1, h2]), lookup_same h1, hs.table]
        · rw [List.mem_append, List.mem_singleton, hs.reqs]
          refine ⟨fun e => e.elim id fun e => ?_, Or.inl⟩
          obtain ⟨rfl, rfl⟩ := Prod.mk.inj e
          exact hl
        · obtain ⟨r'', c', e1, e2, e3⟩ := hs.signed m' sig' hm
          exact ⟨r'', c', lookup_append_some (lookup_append_some e1), lookup_append_some (lookup_append_some e2), e3⟩
        · obtain ⟨o, ho⟩ := hs.key
          exact ⟨o, lookup_append_some (lookup_append_some ho)⟩
      | none =>
        simp only [hl, realSigner] at ih
        have e1 : (t.lookup (RFC.dom4 ++ seed ++ m)).getD (r i) = value g.table (RFC.dom4 ++ seed ++ m) (r i) := by rw [hs.table]; rfl
        simp only [Tree.lazy, e1]
        have hR := value_lookup (t := g.table) (x := RFC.dom4 ++ seed ++ m) (r i)
        generalize value g.table (RFC.dom4 ++ seed ++ m) (r i) = r' at *
        have e0 : ∀ y, (t ++ [(RFC.dom4 ++ seed ++ m, r')]).lookup y = (g.table ++ [(RFC.dom4 ++ seed ++ m, r')]).lookup y := by
          intro y
          rw [List.lookup_append, List.lookup_append, hs.table]
        have e2 : ((t ++ [(RFC.dom4 ++ seed ++ m, r')]).lookup (RFC.dom4 ++ encodePoint (outNat r' • B) ++ RFC.publicOf s ++ m)).getD (h i) =
            value (g.table ++ [(RFC.dom4 ++ seed ++ m, r')]) (RFC.dom4 ++ encodePoint (outNat r' • B) ++ RFC.publicOf s ++ m) (h i) := by
          rw [e0]
          rfl
        simp only [e2]
        have hC := value_lookup (t := g.table ++ [(RFC.dom4 ++ seed ++ m, r')]) (x := RFC.dom4 ++ encodePoint (outNat r' • B) ++ RFC.publicOf s ++ m) (h i)
        generalize value (g.table ++ [(RFC.dom4 ++ seed ++ m, r')]) (RFC.dom4 ++ encodePoint (outNat r' • B) ++ RFC.publicOf s ++ m) (h i) = c at *
        have e3 : ∀ y, (t ++ [(RFC.dom4 ++ seed ++ m, r')] ++ [(RFC.dom4 ++ encodePoint (outNat r' • B) ++ RFC.publicOf s ++ m, c)]).lookup y =
            (g.table ++ [(RFC.dom4 ++ seed ++ m, r')] ++ [(RFC.dom4 ++ encodePoint (outNat r' • B) ++ RFC.publicOf s ++ m, c)]).lookup y := by
          intro y
          rw [List.lookup_append (l₁ := t ++ _), e0, ← List.lookup_append]
        refine ih _ _ ⟨e3, fun m' sig' => ?_, fun m' sig' hm => ?_, ?_⟩
        · rw [List.mem_append, List.mem_singleton, hs.reqs, List.lookup_append, List.lookup_cons, Prod.mk.injEq]
          by_cases e : m' = m
          · rw [e, hl]
            simp [eq_comm]
          · simp [e, beq_eq_false_iff_ne.mpr e]
        · rw [List.lookup_append] at hm
          cases hm' : g.signed.lookup m' with
          | some sig'' =>
            rw [hm'] at hm
            obtain ⟨r'', c', f1, f2, f3⟩ := hs.signed m' sig'' hm'
            rw [show sig' = sig'' from (Option.some.inj hm).symm]
            exact ⟨r'', c', lookup_append_some (lookup_append_some f1), lookup_append_some (lookup_append_some f2), f3⟩
          | none =>
            rw [hm', Option.none_or, List.lookup_cons] at hm
            by_cases e : m' = m
            · rw [e, beq_self_eq_true] at hm
              rw [e]
              refine ⟨r', c, ?_, ?_, (Option.some.inj hm).symm⟩
              · rw [e3]; exact lookup_append_some hR
              · rw [e3]; exact hC
            · rw [beq_eq_false_iff_ne.mpr e] at hm
              simp at hm
        · obtain ⟨o, ho⟩ := hs.key
          exact ⟨o, lookup_append_some (lookup_append_some ho)⟩

theorem lazy_libTree (F : List Byte → Forger) (shake : Xof) (k : List Byte) (o : Out) (h r : ℕ → Out) (n : ℕ) :
    (libTree ρ F k n).lazy [] (o :: merged h r 0 n) ↔
      FullWins ρ (F (RFC.publicOf (RFC.secretScalar (List.ofFn (firstHalf o))))) shake k o (RFC.secretScalar (List.ofFn (firstHalf o)))
        (List.ofFn (secondHalf o)) n h r := by
  rw [libTree, Tree.lazy, FullWins]
  have := lazy_rounds (ρ := ρ) (F (RFC.publicOf (RFC.secretScalar (List.ofFn (firstHalf o))))) shake k o (RFC.secretScalar (List.ofFn (firstHalf o)))
    (List.ofFn (secondHalf o)) h r n 0 [(k, o)] [] ⟨fun x => by rw [fullPlay], fun m sig => by simp [fullPlay], fun m sig hm => by simp [fullPlay] at hm, o, by simp⟩
  rw [Nat.zero_add] at this
  exact this

/-! ## Counting -/

theorem asks_rounds {F : Forger} {L : ℕ} (hF : ∀ seen, (∀ x, F.next seen = .hash x → x.length ≤ L) ∧ (∀ m, F.next seen = .sign m → m.length + 124 ≤ L) ∧
    (F.forge seen).1.length + 124 ≤ L) (k : List Byte) (hk : k.length = 57) (s : ℕ) (seed : List Byte) (hs : seed.length = 57) : ∀ n seen reqs,
    (rounds ρ F k s seed n seen reqs).Asks (Short L) (2 * n + 1)
  | 0, seen, reqs => by
    rw [rounds]
    refine ⟨?_, 0, rfl, fun c => rfl⟩
    have h1 := (hF seen).2.2
    have hd : RFC.dom4.length = 10 := by decide
    have h2 : (RFC.publicOf s).length = 57 := encodePoint_length _
    show (challengeString _ _ _).length ≤ L
    rw [challengeString, List.length_append, List.length_append, List.length_append, List.length_take, hd, h2]
    omega
  | n + 1, seen, reqs => by
    have hd : RFC.dom4.length = 10 := by decide
    have h2 : (RFC.publicOf s).length = 57 := encodePoint_length _
    rw [rounds]
    obtain ⟨f1, f2, f3⟩ := hF seen
    cases hreq : F.next seen with
    | hash x =>
      refine ⟨show k.length ≤ L by omega, 2 * n + 2, by omega, fun _ => ⟨f1 x hreq, 2 * n + 1, rfl, fun v => asks_rounds hF k hk s seed hs n _ _⟩⟩
    | sign m =>
      have h3 := f2 m hreq
      refine ⟨?_, 2 * n + 2, by omega, fun r => ⟨?_, 2 * n + 1, rfl, fun v => asks_rounds hF k hk s seed hs n _ _⟩⟩
      · show (RFC.dom4 ++ seed ++ m).length ≤ L
        rw [List.length_append, List.length_append, hd, hs]
        omega
      · show (RFC.dom4 ++ encodePoint (outNat r • B) ++ RFC.publicOf s ++ m).length ≤ L
        rw [List.length_append, List.length_append, List.length_append, hd, h2, encodePoint_length]
        omega

theorem asks_libTree {F : List Byte → Forger} {L : ℕ} (hF : Bounded F L) (k : List Byte) (hk : k.length = 57) (n : ℕ) :
    (libTree ρ F k n).Asks (Short L) (2 * n + 2) := by
  have h1 := (hF (RFC.publicOf 0) (encodePoint_length _) []).2.2
  exact ⟨show k.length ≤ L by omega, 2 * n + 1, rfl, fun o => asks_rounds (hF _ (encodePoint_length _)) k hk _ _ List.length_ofFn n _ _⟩

theorem outOf_hashOf {L : ℕ} (f : Short L → Out) (x : Short L) : outOf (hashOf f) x = f x := by
  funext i
  rw [outOf, hashOf, dif_pos ⟨x.2, i.2⟩]

instance (L : ℕ) : Finite (Short L) := List.finite_length_le Byte L

/-- The private key as the library takes it. -/
def keyOf (k : Fin 57 → Byte) : Arr Byte 57 := ⟨List.ofFn k, List.length_ofFn⟩

/-- A random function may be chosen value by value. -/
theorem chance_tree {L n : ℕ} (T : Tree (List Byte) Out) (hT : T.Asks (Short L) n) (E : (Short L → Out) → Prop) (hE : ∀ f, T.run (outOf (hashOf f)) ↔ E f) :
    chance {f : Short L → Out | E f} = chance {v : Fin n → Out | T.lazy [] (List.ofFn v)} := by
  have _ : Fintype Out := Fintype.ofFinite Out
  have key := lazy_count (fun f => outOf (hashOf f)) outOf_hashOf T n [] hT
  have e1 : ∀ f : Short L → Out, Agree [] f := fun f x o h => by simp at h
  have e2 : {f : Short L → Out | Agree [] f ∧ T.run (outOf (hashOf f))} = {f : Short L → Out | E f} := by
    ext f
    rw [Set.mem_ofPred_eq, Set.mem_ofPred_eq, hE]
    exact ⟨fun h => h.2, fun h => ⟨e1 f, h⟩⟩
  have e3 : {f : Short L → Out | Agree [] f} = Set.univ := by
    ext f
    simp [e1]
  rw [e2, e3, Set.ncard_univ] at key
  rw [chance, chance, Nat.card_fun (β := Out), Nat.card_fun (α := Fin n) (β := Out), Nat.card_eq_fintype_card (α := Out), Nat.card_fin]
  rw [Nat.card_fun (β := Out), Nat.card_eq_fintype_card (α := Out)] at key
  have h0 : 0 < Fintype.card Out := Fintype.card_pos
  generalize Fintype.card Out = c at *
  have h1 : ((c ^ Nat.card (Short L) : ℕ) : ℚ) ≠ 0 := by positivity
  have h2 : ((c ^ n : ℕ) : ℚ) ≠ 0 := by positivity
  rw [div_eq_div_iff h1 h2]
  exact_mod_cast key

theorem chance_lazy {F : List Byte → Forger} {L : ℕ} (hF : Bounded F L) (k : Fin 57 → Byte) (hk : signBit (List.ofFn k) = 0) (n : ℕ) :
    chance {f : Short L → Out | LibNew ρ F (hashOf f) (keyOf k) n} = chance {v : Fin (2 * n + 2) → Out | (libTree ρ F (List.ofFn k) n).lazy [] (List.ofFn v)} :=
  chance_tree _ (asks_libTree hF _ List.length_ofFn n) _ fun f => run_libTree F (hashOf f) (keyOf k) hk n

theorem merged_eq (h r : ℕ → Out) : ∀ n i (w : List Out) (hw : w.length = 2 * n + 1), (∀ j (hj : j < n), r (i + j) = w[2 * j] ∧ h (i + j) = w[2 * j + 1]) →
    h (i + n) = w[2 * n] → w = merged h r i n
  | 0, i, w, hw, _, h2 => by
    match w, hw with
    | [x], _ => rw [merged]; exact congrArg (fun y => [y]) h2.symm
  | n + 1, i, w, hw, h1, h2 => by
    match w, hw with
    | x :: y :: w, hw =>
      have h3 := h1 0 (by omega)
      have ih := merged_eq h r n (i + 1) w (by simpa [Nat.mul_add] using hw) (fun j hj => by
        have := h1 (j + 1) (by omega)
        rw [show i + 1 + j = i + (j + 1) by omega]
        simpa [Nat.mul_add] using this) (by
        rw [show i + 1 + n = i + (n + 1) by omega]
        simpa [Nat.mul_add] using h2)
      rw [merged, ← ih]
      simp only [Nat.add_zero, Nat.mul_zero, List.getElem_cons_zero, Nat.zero_add, List.getElem_cons_succ] at h3
      rw [h3.1, h3.2]

/-- The parts of a tape. -/
def oddPart {n : ℕ} (v : Fin (2 * n + 2) → Out) : Fin n → Out := fun i => v ⟨2 * i.1 + 1, by omega⟩

def evenPart {n : ℕ} (v : Fin (2 * n + 2) → Out) : Fin (n + 1) → Out := fun i =>
  if h : i.1 < n then v ⟨2 * i.1 + 2, by omega⟩ else v ⟨2 * n + 1, by omega⟩

theorem ofFn_parts {n : ℕ} (v : Fin (2 * n + 2) → Out) : List.ofFn v = v 0 :: merged (extend (evenPart v)) (extend (oddPart v)) 0 n := by
  rw [List.ofFn_succ]
  congr 1
  refine merged_eq _ _ n 0 _ List.length_ofFn (fun j hj => ?_) ?_
  · rw [List.getElem_ofFn, List.getElem_ofFn, Nat.zero_add, extend, extend, dif_pos hj, dif_pos (by omega), oddPart, evenPart]
    simp only [hj, dif_pos]
    exact ⟨rfl, rfl⟩
  · rw [List.getElem_ofFn, Nat.zero_add, extend, dif_pos (by omega), evenPart]
    simp only [Nat.lt_irrefl, dif_neg, not_false_eq_true]
    rfl

theorem parts_inj {n : ℕ} (v v' : Fin (2 * n + 2) → Out) (h0 : v 0 = v' 0) (h1 : evenPart v = evenPart v') (h2 : oddPart v = oddPart v') : v = v' := by
  apply List.ofFn_injective
  rw [ofFn_parts, ofFn_parts, h0, h1, h2]

theorem halves_inj {o o' : Out} (h1 : firstHalf o = firstHalf o') (h2 : secondHalf o = secondHalf o') : o = o' := by
  rw [← keyHash_halves o, ← keyHash_halves o', h1, h2]

theorem chance_avg {α β : Type} [Finite α] [Nonempty α] [Fintype β] (P : α × β → Prop) :
    chance {x | P x} = (∑ b, chance {a | P (a, b)}) / Fintype.card β := by
  have _ : Fintype α := Fintype.ofFinite α
  have ha : (Nat.card α : ℚ) ≠ 0 := by exact_mod_cast Nat.card_pos.ne'
  simp only [chance]
  rw [ncard_prod_right, Nat.card_prod, ← Finset.sum_div, div_div, Nat.card_eq_fintype_card (α := β)]
  push_cast
  rfl

theorem chance_fibre {α β γ : Type} [Finite α] [Finite β] [Finite γ] [Nonempty β] [Nonempty γ] (P : α × β → Prop) (Q : α × γ → Prop)
    (h : ∀ a, chance {b | P (a, b)} = chance {c | Q (a, c)}) : chance {x | P x} = chance {x | Q x} := by
  have _ : Fintype α := Fintype.ofFinite α
  have _ : Fintype β := Fintype.ofFinite β
  have _ : Fintype γ := Fintype.ofFinite γ
  have aux : ∀ {δ : Type} [Fintype δ] (R : α × δ → Prop), chance {x | R x} = (∑ a, chance {b | R (a, b)}) / Nat.card α := by
    intro δ _ R
    simp only [chance]
    rw [ncard_prod_left, Nat.card_prod, ← Finset.sum_div, div_div]
    push_cast
    rw [mul_comm]
  rw [aux, aux]
  simp only [h]

/-- The chance to forge signatures of the library is that to win the game. -/
theorem chance_library {F : List Byte → Forger} {L : ℕ} (hF : Bounded F L) (shake : Xof) (K : Set (Fin 57 → Byte)) (hK : ∀ k ∈ K, signBit (List.ofFn k) = 0) (n : ℕ) :
    chance {x : K × (Short L → Out) | LibNew ρ F (hashOf x.2) (keyOf x.1) n} ≤
      chance {x : ((K × (Fin 57 → Byte)) × ((Fin (n + 1) → Out) × (Fin n → Out))) × (Fin 57 → Byte) |
        FullWins ρ (F (RFC.publicOf (RFC.secretScalar (List.ofFn x.2)))) shake (List.ofFn x.1.1.1.1) (keyHash x.2 x.1.1.2) (RFC.secretScalar (List.ofFn x.2))
          (List.ofFn x.1.1.2) n (extend x.1.2.1) (extend x.1.2.2)} := by
  rw [chance_fibre (fun x : K × (Short L → Out) => LibNew ρ F (hashOf x.2) (keyOf x.1) n)
    (fun x : K × (Fin (2 * n + 2) → Out) => (libTree ρ F (List.ofFn x.1.1) n).lazy [] (List.ofFn x.2)) fun k => chance_lazy hF k.1 (hK k.1 k.2) n]
  rw [chance, chance]
  have hcard : Nat.card (K × (Fin (2 * n + 2) → Out)) = Nat.card (((K × (Fin 57 → Byte)) × ((Fin (n + 1) → Out) × (Fin n → Out))) × (Fin 57 → Byte)) := by
    simp only [Nat.card_prod, nat_card_tape, nat_card_bytes]
    have e : (256 : ℕ) ^ 57 * 256 ^ 57 = 2 ^ 912 := by norm_num
    rw [show 2 * n + 2 = (n + 1) + n + 1 by omega, pow_succ, pow_add, ← e]
    generalize (256 : ℕ) ^ 57 = u
    ring
  rw [hcard]
  refine div_le_div_of_nonneg_right ?_ (Nat.cast_nonneg _)
  rw [Nat.cast_le]
  refine Set.ncard_le_ncard_of_injOn (fun x => (((x.1, secondHalf (x.2 0)), (evenPart x.2, oddPart x.2)), firstHalf (x.2 0))) ?_ ?_ (Set.toFinite _)
  · rintro ⟨k, v⟩ hx
    rw [Set.mem_ofPred_eq] at hx ⊢
    simp only at hx ⊢
    rw [ofFn_parts] at hx
    rw [keyHash_halves]
    exact (lazy_libTree F shake (List.ofFn k.1) (v 0) _ _ n).mp hx
  · rintro ⟨k, v⟩ _ ⟨k', v'⟩ _ e
    simp only [Prod.mk.injEq] at e
    obtain ⟨⟨⟨e1, e2⟩, e3, e4⟩, e5⟩ := e
    rw [e1, parts_inj v v' (halves_inj e5 e2) e3 e4]

/-- The three steps for each secret give the bound for a random one. -/
theorem average {ι : Type} [Fintype ι] [Nonempty ι] (full real blind solves : ι → ℚ) (c d e δ m w : ℚ) (hw : 0 ≤ w) (hm : 0 ≤ m) (hc : 0 ≤ c) (hd : 0 ≤ d)
    (h1 : ∀ a, full a ≤ real a + δ) (h2 : ∀ a, real a ≤ c * (blind a + e)) (h3 : ∀ a, blind a ^ 2 ≤ m * (solves a + blind a * d))
    (hs : m * ((∑ a, solves a) / Fintype.card ι) ≤ w ^ 2) : (∑ a, full a) / Fintype.card ι ≤ c * (w + m * d + e) + δ := by
  have hM : (0 : ℚ) < Fintype.card ι := by exact_mod_cast Fintype.card_pos
  have hsq : (∑ a, blind a) ^ 2 ≤ Fintype.card ι * ∑ a, blind a ^ 2 := by
    have := sq_sum_le_card_mul_sum_sq (s := (Finset.univ : Finset ι)) (f := blind)
    rwa [Finset.card_univ] at this
  have hsum : ∑ a, blind a ^ 2 ≤ m * (∑ a, solves a + (∑ a, blind a) * d) := by
    rw [Finset.sum_mul, ← Finset.sum_add_distrib, Finset.mul_sum]
    exact Finset.sum_le_sum fun a _ => h3 a
  have hfull : ∑ a, full a ≤ c * (∑ a, blind a + Fintype.card ι * e) + Fintype.card ι * δ := by
    calc ∑ a, full a ≤ ∑ a, (c * (blind a + e) + δ) := Finset.sum_le_sum fun a _ => (h1 a).trans (by linarith [h2 a])
      _ = _ := by
        rw [Finset.sum_add_distrib, ← Finset.mul_sum, Finset.sum_add_distrib, Finset.sum_const, Finset.sum_const, Finset.card_univ, nsmul_eq_mul, nsmul_eq_mul]
  generalize ∑ a, full a = f at *
  generalize ∑ a, blind a = b at *
  generalize ∑ a, solves a = s at *
  generalize ∑ a, blind a ^ 2 = b2 at *
  generalize (Fintype.card ι : ℚ) = M at *
  have hs' : m * s ≤ w ^ 2 * M := by
    rw [mul_div_assoc', div_le_iff₀ hM] at hs
    exact hs
  have hb : b ≤ M * (w + m * d) := by
    by_contra hlt
    push Not at hlt
    have h4 : b ^ 2 ≤ M * (w ^ 2 * M + m * (b * d)) := hsq.trans (mul_le_mul_of_nonneg_left (hsum.trans (by linarith)) hM.le)
    have h5 : 0 ≤ M * w := by positivity
    have h6 : 0 ≤ M * (m * d) := by positivity
    have h7 : M * w < b - M * (m * d) := by linarith
    nlinarith
  rw [div_le_iff₀ hM]
  have h8 : c * (b + M * e) ≤ c * (M * (w + m * d) + M * e) := mul_le_mul_of_nonneg_left (by linarith) hc
  linarith

theorem forges_new {Ok : Xof → List Byte → List Byte → List Byte → Prop}
    (hOk : ∀ xof k pk m sig, ed448_derive_public xof k = .ok pk → Ok xof pk.1 m sig → Loose ρ xof pk.1 m sig) {F : List Byte → Forger} {n : ℕ} (xof : Xof) (k : Arr Byte 57)
    (h : LibForges Ok F xof k n) : LibNew ρ F xof k n := by
  obtain ⟨pk, h1, h2, h3⟩ := h
  exact ⟨pk, h1, fun i hi e => absurd e (h2 i hi), hOk _ _ _ _ _ h1 h3⟩

/-- For all ways `W` to win that imply `LibNew`. -/
theorem library_bound (W : Xof → Arr Byte 57 → Prop) (F : List Byte → Forger) (L : ℕ) (hF : Bounded F L) (K : Set (Fin 57 → Byte)) (hK : K.Nonempty)
    (hb : ∀ k ∈ K, signBit (List.ofFn k) = 0) (n : ℕ) (hW : ∀ xof k, W xof k → LibNew ρ F xof k n) (w : ℚ) (hw : 0 ≤ w)
    (hs : (n + 1) * chance {x : (((Fin (n + 1) → Out) × (Fin (n + 1) → Out)) × (Fin n → Fin q)) × (Fin 57 → Byte) |
      let s := RFC.secretScalar (List.ofFn x.2)
      let A := s • B
      extract (F (encodePoint A)) (fun i => blindSigner A (coin x.1.2 i)) (encodePoint A) n (extend x.1.1.1) (extend x.1.1.2) % q = s % q} ≤ w ^ 2) :
    chance {x : K × (Short L → Out) | W (hashOf x.2) (keyOf x.1)} ≤
      (1 + q / 2 ^ 912) ^ n * (w + (n + 1) * (1 / q + 1 / 2 ^ 912) + n ^ 2 / q) + (n + 1) * (1 / Nat.card K + 1 / 2 ^ 456) := by
  have _ : Fintype (Fin 57 → Byte) := Fintype.ofFinite _
  have _ : Nonempty K := hK.to_subtype
  refine (chance_mono (fun x hx => hW _ _ hx)).trans ?_
  refine (chance_library hF (fun _ _ => 0) K hb n).trans ?_
  rw [chance_avg]
  rw [chance_avg] at hs
  have hM : (0 : ℚ) < Fintype.card (Fin 57 → Byte) := by exact_mod_cast Fintype.card_pos
  have h1 := fun a : Fin 57 → Byte => C86_secrets ρ (F (RFC.publicOf (RFC.secretScalar (List.ofFn a)))) (fun _ _ => 0) K hK a n
  have h2 := fun a : Fin 57 → Byte => C86_blind ρ (F (RFC.publicOf (RFC.secretScalar (List.ofFn a)))) (fun _ _ => 0) (RFC.secretScalar (List.ofFn a)) n
  have h3 := fun a : Fin 57 → Byte => C86_extract ρ (F (RFC.publicOf (RFC.secretScalar (List.ofFn a)))) (fun _ _ => 0) (RFC.secretScalar (List.ofFn a)) n
  simp only at h1 h3 hs ⊢
  exact average _ _ _ _ _ _ _ _ _ w hw (by positivity) (by positivity) (by positivity) h1 h2 h3 hs

theorem valid_loose {xof : Xof} {pk m sig : List Byte} (h : RFC.Valid xof pk m sig) : Loose plain xof pk m sig := by
  obtain ⟨h1, A, R, h2, h3, _, h4⟩ := h
  have h5 : (sig.drop 57).take 57 = sig.drop 57 := List.take_of_length_le (by rw [List.length_drop]; omega)
  exact ⟨h1.ge, A, R, h2, ⟨h3.2.2.2.1, Or.inr h3.2.2.2.2⟩, by rw [h5]; exact h4⟩

/-- C86. Let a private key be chosen at random from the set `K` of keys without the sign bit, and the hash function at random from all functions from strings of
at most `L` bytes to 114 bytes. A forger knows the public key and makes `n` requests for values of the hash function and for signatures of chosen
messages by the library. If the procedure `extract`, that uses the forger but not the secret, finds a random secret from the public key with a chance of at most
`w² / (n + 1)`, then the forger offers a valid signature of a new message with a chance of at most the given bound, which is hardly more than `w`. -/
theorem C86_library (F : List Byte → Forger) (L : ℕ) (hF : Bounded F L) (K : Set (Fin 57 → Byte)) (hK : K.Nonempty)
    (hb : ∀ k ∈ K, signBit (List.ofFn k) = 0) (n : ℕ) (w : ℚ) (hw : 0 ≤ w)
    (hs : (n + 1) * chance {x : (((Fin (n + 1) → Out) × (Fin (n + 1) → Out)) × (Fin n → Fin q)) × (Fin 57 → Byte) |
      let s := RFC.secretScalar (List.ofFn x.2)
      let A := s • B
      extract (F (encodePoint A)) (fun i => blindSigner A (coin x.1.2 i)) (encodePoint A) n (extend x.1.1.1) (extend x.1.1.2) % q = s % q} ≤ w ^ 2) :
    chance {x : K × (Short L → Out) | LibForges RFC.Valid F (hashOf x.2) (keyOf x.1) n} ≤
      (1 + q / 2 ^ 912) ^ n * (w + (n + 1) * (1 / q + 1 / 2 ^ 912) + n ^ 2 / q) + (n + 1) * (1 / Nat.card K + 1 / 2 ^ 456) :=
  library_bound (fun xof k => LibForges RFC.Valid F xof k n) F L hF K hK hb n (forges_new fun _ _ _ _ _ _ => valid_loose) w hw hs

/-! ## Numbers -/

/-- All private keys without the sign bit. -/
def ordinaryKeys : Set (Fin 57 → Byte) := {k | signBit (List.ofFn k) = 0}

theorem many_keys : 2 ^ 448 ≤ Nat.card ordinaryKeys := by
  have h1 : Nat.card (Fin 56 → Byte) ≤ Nat.card ordinaryKeys := by
    refine Nat.card_le_card_of_injective (fun k => ⟨Fin.snoc k (0 : Byte), ?_⟩) ?_
    · show signBit (List.ofFn (Fin.snoc k (0 : Byte) : Fin 57 → Byte)) = 0
      rw [signBit, List.getD_eq_getElem?_getD, List.getElem?_ofFn, dif_pos (by omega)]
      have : (Fin.snoc k (0 : Byte) : Fin 57 → Byte) ⟨56, by omega⟩ = 0 := Fin.snoc_last (α := fun _ => Byte) 0 k
      rw [Option.getD_some, this]
      rfl
    · intro k k' e
      exact (Fin.snoc_injective2 (Subtype.mk.inj e)).1
  rw [nat_card_bytes] at h1
  refine le_trans (le_of_eq ?_) h1
  norm_num

theorem growth (x : ℚ) (n : ℕ) (h0 : 0 ≤ x) (h1 : n * x ≤ 1 / 2) (h2 : x ≤ 1) : (1 + x) ^ n ≤ 2 := by
  have h3 : 1 + n * -x ≤ (1 + -x) ^ n := one_add_mul_le_pow (by linarith) n
  have h4 : (1 + x) ^ n * (1 + -x) ^ n ≤ 1 := by
    rw [← mul_pow]
    exact pow_le_one₀ (by nlinarith) (by nlinarith)
  have h5 : (0 : ℚ) ≤ (1 + x) ^ n := by positivity
  nlinarith

theorem q_bounds : (2 : ℚ) ^ 445 ≤ q ∧ (q : ℚ) ≤ 2 ^ 446 := by
  have h1 : 2 ^ 445 ≤ q := by rw [q_def]; decide +kernel
  have h2 := q_lt.le
  exact ⟨by exact_mod_cast h1, by exact_mod_cast h2⟩

theorem numbers_bound (W : Xof → Arr Byte 57 → Prop) (F : List Byte → Forger) (L : ℕ) (hF : Bounded F L) (n : ℕ) (hn : n < 2 ^ 100) (hW : ∀ xof k, W xof k → LibNew ρ F xof k n) (w : ℚ) (hw : 0 ≤ w)
    (hs : (n + 1) * chance {x : (((Fin (n + 1) → Out) × (Fin (n + 1) → Out)) × (Fin n → Fin q)) × (Fin 57 → Byte) |
      let s := RFC.secretScalar (List.ofFn x.2)
      let A := s • B
      extract (F (encodePoint A)) (fun i => blindSigner A (coin x.1.2 i)) (encodePoint A) n (extend x.1.1.1) (extend x.1.1.2) % q = s % q} ≤ w ^ 2) :
    chance {x : ordinaryKeys × (Short L → Out) | W (hashOf x.2) (keyOf x.1)} ≤ 2 * w + 1 / 2 ^ 240 := by
  have hne : ordinaryKeys.Nonempty := by
    have := many_keys
    by_contra he
    rw [Set.not_nonempty_iff_eq_empty] at he
    rw [he, Nat.card_of_isEmpty] at this
    exact absurd this (Nat.not_le.mpr (Nat.two_pow_pos _))
  refine (library_bound W F L hF ordinaryKeys hne (fun k hk => hk) n hW w hw hs).trans ?_
  obtain ⟨q1, q2⟩ := q_bounds
  have hK : (2 : ℚ) ^ 448 ≤ Nat.card ordinaryKeys := by exact_mod_cast many_keys
  have hn0 : (0 : ℚ) ≤ n := Nat.cast_nonneg n
  have hn1 : (n : ℚ) + 1 ≤ 2 ^ 100 := by exact_mod_cast hn
  clear hs
  generalize (Nat.card ordinaryKeys : ℚ) = k at *
  generalize (q : ℚ) = Q at *
  have hQ : 0 < Q := lt_of_lt_of_le (by positivity) q1
  have hQ1 : 1 / Q ≤ 1 / 2 ^ 445 := one_div_le_one_div_of_le (by positivity) q1
  have hk1 : 1 / k ≤ 1 / 2 ^ 448 := one_div_le_one_div_of_le (by positivity) hK
  have hx : Q / 2 ^ 912 ≤ 2 ^ 446 / 2 ^ 912 := div_le_div_of_nonneg_right q2 (by positivity)
  have hx0 : 0 ≤ Q / 2 ^ 912 := by positivity
  have hg : (1 + Q / 2 ^ 912) ^ n ≤ 2 := by
    refine growth _ n hx0 ?_ (hx.trans (by norm_num))
    have : (n : ℚ) * (Q / 2 ^ 912) ≤ 2 ^ 100 * (2 ^ 446 / 2 ^ 912) := mul_le_mul (by linarith) hx hx0 (by positivity)
    exact this.trans (by norm_num)
  have he : ((n : ℚ) + 1) * (1 / Q + 1 / 2 ^ 912) + n ^ 2 / Q ≤ 2 ^ 100 * (1 / 2 ^ 445 + 1 / 2 ^ 912) + (2 ^ 100) ^ 2 * (1 / 2 ^ 445) := by
    have h1 : ((n : ℚ) + 1) * (1 / Q + 1 / 2 ^ 912) ≤ 2 ^ 100 * (1 / 2 ^ 445 + 1 / 2 ^ 912) :=
      mul_le_mul hn1 (by linarith) (by positivity) (by positivity)
    have h2 : (n : ℚ) ^ 2 / Q ≤ (2 ^ 100) ^ 2 * (1 / 2 ^ 445) := by
      rw [div_eq_mul_one_div]
      exact mul_le_mul (pow_le_pow_left₀ hn0 (by linarith) 2) hQ1 (by positivity) (by positivity)
    linarith
  have hd : ((n : ℚ) + 1) * (1 / k + 1 / 2 ^ 456) ≤ 2 ^ 100 * (1 / 2 ^ 448 + 1 / 2 ^ 456) := by
    have hk0 : 0 < k := lt_of_lt_of_le (by positivity) hK
    exact mul_le_mul hn1 (by linarith) (by positivity) (by positivity)
  have he0 : 0 ≤ ((n : ℚ) + 1) * (1 / Q + 1 / 2 ^ 912) + n ^ 2 / Q := by positivity
  have hm : (1 + Q / 2 ^ 912) ^ n * (w + (n + 1) * (1 / Q + 1 / 2 ^ 912) + n ^ 2 / Q) ≤
      2 * (w + (n + 1) * (1 / Q + 1 / 2 ^ 912) + n ^ 2 / Q) := mul_le_mul_of_nonneg_right hg (by linarith)
  have hnum : 2 * (2 ^ 100 * (1 / 2 ^ 445 + 1 / 2 ^ 912) + (2 ^ 100) ^ 2 * (1 / 2 ^ 445)) + 2 ^ 100 * (1 / 2 ^ 448 + 1 / 2 ^ 456) ≤ (1 : ℚ) / 2 ^ 240 := by
    norm_num
  linarith

/-- C86, with numbers. The private key is random among those without the sign bit, and the forger makes less than 2^100 requests. If `extract` finds a random
secret with a chance of at most `w² / (n + 1)`, the chance that the forger succeeds is at most `2 w + 2^(-240)`. -/
theorem C86_numbers (F : List Byte → Forger) (L : ℕ) (hF : Bounded F L) (n : ℕ) (hn : n < 2 ^ 100) (w : ℚ) (hw : 0 ≤ w)
    (hs : (n + 1) * chance {x : (((Fin (n + 1) → Out) × (Fin (n + 1) → Out)) × (Fin n → Fin q)) × (Fin 57 → Byte) |
      let s := RFC.secretScalar (List.ofFn x.2)
      let A := s • B
      extract (F (encodePoint A)) (fun i => blindSigner A (coin x.1.2 i)) (encodePoint A) n (extend x.1.1.1) (extend x.1.1.2) % q = s % q} ≤ w ^ 2) :
    chance {x : ordinaryKeys × (Short L → Out) | LibForges RFC.Valid F (hashOf x.2) (keyOf x.1) n} ≤ 2 * w + 1 / 2 ^ 240 :=
  numbers_bound (fun xof k => LibForges RFC.Valid F xof k n) F L hF n hn (forges_new fun _ _ _ _ _ _ => valid_loose) w hw hs

/-! ## Concrete cases -/

/-- A forger who asks for a signature and for a value of the hash function in turn, and offers the last reply for another message. -/
def exampleForger : List Byte → Forger := fun pk =>
  ⟨fun seen => if seen.length % 2 = 0 then .sign [BitVec.ofNat 8 seen.length] else .hash (RFC.dom4 ++ pk ++ (seen.getLast?.getD []).take 57),
    fun seen => ([7, 7], seen.getLast?.getD [])⟩

theorem exampleForger_bounded : Bounded exampleForger 126 := by
  intro pk hpk seen
  have hd : RFC.dom4.length = 10 := by decide
  refine ⟨fun x hx => ?_, fun m hm => ?_, Nat.le_refl _⟩
  · simp only [exampleForger] at hx
    split at hx
    · cases hx
    · obtain rfl := Request.hash.inj hx
      rw [List.length_append, List.length_append, List.length_take, hd, hpk]
      omega
  · simp only [exampleForger] at hm
    split at hm
    · obtain rfl := Request.sign.inj hm
      simp
    · cases hm

/-- The hypotheses of `C86_numbers` are met. With such numbers the bound is above 1 and says nothing; `C95_fixed_half` is about forgers for whom the numbers are small. -/
example : chance {x : ordinaryKeys × (Short 126 → Out) | LibForges RFC.Valid exampleForger (hashOf x.2) (keyOf x.1) 3} ≤ 2 * 2 + 1 / 2 ^ 240 := by
  refine C86_numbers exampleForger 126 exampleForger_bounded 3 (by norm_num) 2 (by norm_num) ?_
  refine (mul_le_mul_of_nonneg_left (chance_le_one _) (by positivity)).trans ?_
  norm_num

/-- For each key and hash function there is a forger who succeeds, namely one who has got a signature in another way. -/
example (xof : Xof) (k : Arr Byte 57) : ∃ F, LibForges RFC.Valid F xof k 0 := by
  obtain ⟨pk, sig, h1, h2, h3, _⟩ := C57_valid_elsewhere xof k []
  exact ⟨fun _ => ⟨fun _ => .hash [], fun _ => ([], sig.1)⟩, pk, h1, fun i hi => absurd hi (Nat.not_lt_zero _), h3⟩

end Ed448
