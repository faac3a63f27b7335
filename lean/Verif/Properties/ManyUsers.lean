import Verif.Properties.Distinct
import Verif.Properties.Strong

/-!
# C92: forgers who see the signatures of many users
-/

namespace Ed448

set_option exponentiation.threshold 1000

/-! ## Statement -/

/-- What a forger can ask who sees the public keys of `N` users. -/
inductive UserRequest (N : ℕ)
  | hash (x : List Byte)
  | sign (i : Fin N) (m : List Byte)

/-- A forger who sees the public keys of `N` users: the next request, and the final offer of a user, a message and a signature. -/
structure UserForger (N : ℕ) where
  next : List (List Byte) → UserRequest N
  forge : List (List Byte) → Fin N × List Byte × List Byte

/-- What the forger gets: values of the hash function, and signatures that the library makes with the private key of a user. -/
def usersReply {N : ℕ} (xof : Xof) (ks : Fin N → Arr Byte 57) : UserRequest N → List Byte
  | .hash x => RFC.hash xof x 114
  | .sign i m => match ed448_sign xof (ks i) m with
    | .ok sig => sig.1
    | .error _ => []

/-- All replies in the first `n` rounds. -/
def usersSeen {N : ℕ} (G : UserForger N) (xof : Xof) (ks : Fin N → Arr Byte 57) : ℕ → List (List Byte)
  | 0 => []
  | n + 1 => usersSeen G xof ks n ++ [usersReply xof ks (G.next (usersSeen G xof ks n))]

/-- The forger, who knows all public keys, offers a user, a message and a signature. They did not ask this user for a signature of this message, or they got
another one. `Ok xof pk m sig` says that the signature counts. -/
def UsersStrong {N : ℕ} (Ok : Xof → List Byte → List Byte → List Byte → Prop) (G : (Fin N → List Byte) → UserForger N) (xof : Xof) (ks : Fin N → Arr Byte 57)
    (n : ℕ) : Prop :=
  ∃ pks : Fin N → Arr Byte 57, (∀ i, ed448_derive_public xof (ks i) = .ok (pks i)) ∧
    let g := G fun i => (pks i).1
    let f := g.forge (usersSeen g xof ks n)
    (∀ t < n, g.next (usersSeen g xof ks t) = .sign f.1 f.2.1 → usersReply xof ks (.sign f.1 f.2.1) ≠ f.2.2) ∧ Ok xof (pks f.1).1 f.2.1 f.2.2

/-- The forger, who knows all public keys, offers a signature of a message for which they did not ask the user. -/
def UsersForge {N : ℕ} (Ok : Xof → List Byte → List Byte → List Byte → Prop) (G : (Fin N → List Byte) → UserForger N) (xof : Xof) (ks : Fin N → Arr Byte 57)
    (n : ℕ) : Prop :=
  ∃ pks : Fin N → Arr Byte 57, (∀ i, ed448_derive_public xof (ks i) = .ok (pks i)) ∧
    let g := G fun i => (pks i).1
    let f := g.forge (usersSeen g xof ks n)
    (∀ t < n, g.next (usersSeen g xof ks t) ≠ .sign f.1 f.2.1) ∧ Ok xof (pks f.1).1 f.2.1 f.2.2

/-- The strings that are hashed on requests of the forger have at most `L` bytes. -/
def UsersBounded {N : ℕ} (G : (Fin N → List Byte) → UserForger N) (L : ℕ) : Prop :=
  ∀ pks, (∀ i, (pks i).length = 57) → ∀ seen, (∀ x, (G pks).next seen = .hash x → x.length ≤ L) ∧ (∀ i m, (G pks).next seen = .sign i m → m.length + 124 ≤ L) ∧
    ((G pks).forge seen).2.1.length + 124 ≤ L

/-! ## A forger for one key who acts for all other users

This forger knows the private keys of the other users. First they ask for the hash of each of these keys; then each request of the forger for many users takes
two requests. -/

/-- A hash function with one value. -/
def oneValue (o : List Byte) : Xof := fun _ i => o.getD i 0

/-- The signature of a user with the scalar `s`, from the two values of the hash function. -/
noncomputable def signFrom (s : ℕ) (a b : List Byte) : List Byte := encodePoint (leNat a • B) ++ leBytes 57 ((leNat a + leNat b * s) % q)

/-- The private key of a user and the hash of the key. -/
structure Known where
  key : List Byte
  out : List Byte

noncomputable def Known.scalar (u : Known) : ℕ := keyScalar (oneValue u.out) u.key

def Known.seed (u : Known) : List Byte := keySeed (oneValue u.out) u.key

section acting
variable {N : ℕ} (j : Fin N) (us : Fin N → Known)

/-- The requests for one request of the forger for many users, after the replies `rest`. -/
noncomputable def acting : UserRequest N → List (List Byte) → Request
  | .hash x, _ => .hash x
  | .sign i m, rest => if i = j then .sign m else match rest with
    | [] => .hash (RFC.dom4 ++ (us i).seed ++ m)
    | a :: _ => .hash (RFC.dom4 ++ encodePoint (leNat a • B) ++ RFC.publicOf (us i).scalar ++ m)

/-- The reply for the forger for many users, from the two replies. -/
noncomputable def combine (a b : List Byte) : UserRequest N → List Byte
  | .hash _ => a
  | .sign i _ => if i = j then a else signFrom (us i).scalar a b

/-- The replies for the forger for many users, and the replies that are left. -/
noncomputable def progress (g : UserForger N) : List (List Byte) → List (List Byte) → List (List Byte) × List (List Byte)
  | ms, a :: b :: rest => progress g (ms ++ [combine j us a b (g.next ms)]) rest
  | ms, rest => (ms, rest)

/-- The keys of the other users with the replies in the first rounds. -/
def knownOf (ks : Fin N → Arr Byte 57) (seen : List (List Byte)) : Fin N → Known := fun i => ⟨(ks i).1, seen.getD i.1 []⟩

/-- All public keys. -/
noncomputable def publicsOf (pk : List Byte) : Fin N → List Byte := fun i => if i = j then pk else RFC.publicOf (us i).scalar

end acting

open Classical in
/-- The forger for the key of user `j`, who knows the private keys of the other users. -/
noncomputable def against {N : ℕ} (G : (Fin N → List Byte) → UserForger N) (j : Fin N) (ks : Fin N → Arr Byte 57) : List Byte → Forger := fun pk =>
  ⟨fun seen =>
    if h : seen.length < N then .hash (ks ⟨seen.length, h⟩).1 else
      let us := knownOf ks seen
      let g := G (publicsOf j us pk)
      let p := progress j us g [] (seen.drop N)
      acting j us (g.next p.1) p.2,
   fun seen =>
    let us := knownOf ks seen
    let g := G (publicsOf j us pk)
    (g.forge (progress j us g [] (seen.drop N)).1).2⟩

/-! ## Proofs -/

theorem hash_oneValue (xof : Xof) (x y : List Byte) : RFC.hash (oneValue (RFC.hash xof x 114)) y 114 = RFC.hash xof x 114 := by
  rw [RFC.hash]
  refine List.ext_getElem (by simp [RFC.hash]) fun i h1 h2 => ?_
  have hi : i < 114 := by simpa using h1
  rw [List.getElem_map, List.getElem_range, oneValue, List.getD_eq_getElem?_getD, List.getElem?_eq_getElem h2]
  rfl

theorem known_eq (xof : Xof) (k : List Byte) : Known.scalar ⟨k, RFC.hash xof k 114⟩ = keyScalar xof k ∧ Known.seed ⟨k, RFC.hash xof k 114⟩ = keySeed xof k := by
  rw [Known.scalar, Known.seed, keyScalar, keyScalar, keySeed, keySeed]
  simp only [hash_oneValue, and_self]

theorem known_seed_length (u : Known) : u.seed.length = 57 := keySeed_length _ _

section
variable {N : ℕ} (j : Fin N) (us : Fin N → Known) (g : UserForger N)

theorem progress_append : ∀ l ms, (progress j us g ms l).2 = [] → ∀ a,
    progress j us g ms (l ++ [a]) = ((progress j us g ms l).1, [a]) ∧
    ∀ b, progress j us g ms (l ++ [a] ++ [b]) =
      ((progress j us g ms l).1 ++ [combine j us a b (g.next (progress j us g ms l).1)], [])
  | [], ms, _, a => by
    refine ⟨rfl, fun b => ?_⟩
    show progress j us g ms [a, b] = _
    rw [progress]
    rfl
  | [x], ms, h, a => by cases h
  | x :: y :: l, ms, h, a => by
    rw [progress] at h ⊢
    exact progress_append l _ h a

end

/-- What the forger for one key sees after the first rounds. -/
theorem seen_length (F : Forger) (xof : Xof) (k : Arr Byte 57) : ∀ n, (libSeen F xof k n).length = n
  | 0 => rfl
  | n + 1 => by rw [libSeen, List.length_append, seen_length F xof k n]; rfl

theorem seen_prefix (F : Forger) (xof : Xof) (k : Arr Byte 57) (n : ℕ) : ∀ t, (libSeen F xof k (n + t)).take n = libSeen F xof k n
  | 0 => List.take_of_length_le (by rw [seen_length]; exact Nat.le_refl _)
  | t + 1 => by
    rw [← Nat.add_assoc, libSeen, List.take_append_of_le_length (by rw [seen_length]; omega), seen_prefix F xof k n t]

theorem sign_users {N : ℕ} (xof : Xof) (ks : Fin N → Arr Byte 57) (i : Fin N) (m : List Byte) : usersReply xof ks (.sign i m) = libReply xof (ks i) (.sign m) := rfl

theorem sign_from {N : ℕ} (xof : Xof) (ks : Fin N → Arr Byte 57) (i : Fin N) (m : List Byte) (u : Known) (hu : u.scalar = keyScalar xof (ks i).1)
    (hu' : u.seed = keySeed xof (ks i).1) :
    let a := RFC.hash xof (RFC.dom4 ++ u.seed ++ m) 114
    usersReply xof ks (.sign i m) = signFrom u.scalar a (RFC.hash xof (RFC.dom4 ++ encodePoint (leNat a • B) ++ RFC.publicOf u.scalar ++ m) 114) := by
  obtain ⟨sig, h1, h2⟩ := sign_spec xof (ks i) m
  rw [hu, hu']
  simp only [usersReply, h1, h2, RFC.signWith, signFrom, RFC.nonce, RFC.challenge]

theorem knownOf_stable {N : ℕ} (ks : Fin N → Arr Byte 57) (F : Forger) (xof : Xof) (k : Arr Byte 57) (t : ℕ) :
    knownOf ks (libSeen F xof k (N + t)) = knownOf ks (libSeen F xof k N) := by
  funext i
  rw [knownOf, knownOf, ← seen_prefix F xof k N t, List.getD_eq_getElem?_getD, List.getD_eq_getElem?_getD, List.getElem?_take_of_lt i.2]

section
variable {N : ℕ} {G : (Fin N → List Byte) → UserForger N} {j : Fin N} {ks ks' : Fin N → Arr Byte 57}

/-- The first rounds. -/
theorem known_users (hks : ∀ i, i ≠ j → ks i = ks' i) (xof : Xof) (pk : List Byte) (i : Fin N) (hi : i ≠ j) :
    (knownOf ks (libSeen (against G j ks pk) xof (ks' j) N) i).scalar = keyScalar xof (ks' i).1 ∧
    (knownOf ks (libSeen (against G j ks pk) xof (ks' j) N) i).seed = keySeed xof (ks' i).1 := by
  have h1 : (libSeen (against G j ks pk) xof (ks' j) N).getD i.1 [] = RFC.hash xof (ks' i).1 114 := by
    have e : N = (i.1 + 1) + (N - (i.1 + 1)) := by have := i.2; omega
    have h2 := seen_prefix (against G j ks pk) xof (ks' j) (i.1 + 1) (N - (i.1 + 1))
    rw [← e] at h2
    have h3 : ((libSeen (against G j ks pk) xof (ks' j) N).take (i.1 + 1))[i.1]? = some (RFC.hash xof (ks' i).1 114) := by
      rw [h2, libSeen, List.getElem?_append_right (by rw [seen_length]), seen_length, Nat.sub_self]
      have h4 : (against G j ks pk).next (libSeen (against G j ks pk) xof (ks' j) i.1) = .hash (ks' i).1 := by
        have h5 := seen_length (against G j ks pk) xof (ks' j) i.1
        generalize libSeen (against G j ks pk) xof (ks' j) i.1 = l at h5 ⊢
        have h6 : l.length < N := by rw [h5]; exact i.2
        have h7 : (⟨l.length, h6⟩ : Fin N) = i := Fin.ext h5
        show (if h : l.length < N then Request.hash (ks ⟨l.length, h⟩).1 else _) = _
        rw [dif_pos h6, h7, hks i hi]
      rw [h4]
      rfl
    rw [List.getElem?_take_of_lt (Nat.lt_succ_self _)] at h3
    rw [List.getD_eq_getElem?_getD, h3]
    rfl
  rw [knownOf, h1, hks i hi]
  exact known_eq xof (ks' i).1

theorem publics_users (hks : ∀ i, i ≠ j → ks i = ks' i) {xof : Xof} {pks : Fin N → Arr Byte 57} (hpk : ∀ i, ed448_derive_public xof (ks' i) = .ok (pks i)) :
    publicsOf j (knownOf ks (libSeen (against G j ks (pks j).1) xof (ks' j) N)) (pks j).1 = fun i => (pks i).1 := by
  funext i
  rw [publicsOf]
  by_cases hi : i = j
  · rw [if_pos hi, hi]
  · obtain ⟨A, h1, h2⟩ := derive_spec xof (ks' i)
    rw [hpk i] at h1
    injection h1 with h1
    rw [if_neg hi, (known_users hks xof _ i hi).1, RFC.publicOf, h1, h2]

/-- Two requests for one. -/
theorem combine_reply {us : Fin N → Known} {xof : Xof} (hu : ∀ i, i ≠ j → (us i).scalar = keyScalar xof (ks' i).1 ∧ (us i).seed = keySeed xof (ks' i).1)
    (r : UserRequest N) :
    let a := libReply xof (ks' j) (acting j us r [])
    combine j us a (libReply xof (ks' j) (acting j us r [a])) r = usersReply xof ks' r := by
  cases r with
  | hash x => rfl
  | sign i m =>
    by_cases hi : i = j
    · simp only [acting, combine, if_pos hi]
      rw [sign_users, hi]
    · simp only [acting, combine, if_neg hi, libReply]
      exact (sign_from xof ks' i m (us i) (hu i hi).1 (hu i hi).2).symm

/-- All rounds. -/
theorem next_users {us : Fin N → Known} {g : UserForger N} {F : Forger} {xof : Xof} {k : Arr Byte 57}
    (hu : knownOf ks (libSeen F xof k N) = us) (pk : List Byte) (hF : F = against G j ks pk) (hg : G (publicsOf j us pk) = g) (t : ℕ) :
    F.next (libSeen F xof k (N + t)) =
      acting j us (g.next (progress j us g [] ((libSeen F xof k (N + t)).drop N)).1) (progress j us g [] ((libSeen F xof k (N + t)).drop N)).2 := by
  have h1 := knownOf_stable ks F xof k t
  have h2 := seen_length F xof k (N + t)
  rw [hu] at h1
  generalize libSeen F xof k (N + t) = l at h1 h2 ⊢
  subst hF
  show (if h : l.length < N then Request.hash (ks ⟨l.length, h⟩).1 else _) = _
  rw [dif_neg (by omega)]
  simp only [h1, hg]

theorem progress_users {us : Fin N → Known} {g : UserForger N} {F : Forger} {xof : Xof}
    (hu' : ∀ i, i ≠ j → (us i).scalar = keyScalar xof (ks' i).1 ∧ (us i).seed = keySeed xof (ks' i).1)
    (hu : knownOf ks (libSeen F xof (ks' j) N) = us) (pk : List Byte) (hF : F = against G j ks pk) (hg : G (publicsOf j us pk) = g) : ∀ t,
    progress j us g [] ((libSeen F xof (ks' j) (N + 2 * t)).drop N) = (usersSeen g xof ks' t, []) ∧
    F.next (libSeen F xof (ks' j) (N + 2 * t)) = acting j us (g.next (usersSeen g xof ks' t)) [] ∧
    F.next (libSeen F xof (ks' j) (N + 2 * t + 1)) =
      acting j us (g.next (usersSeen g xof ks' t)) [libReply xof (ks' j) (acting j us (g.next (usersSeen g xof ks' t)) [])] ∧
    progress j us g [] ((libSeen F xof (ks' j) (N + 2 * (t + 1))).drop N) = (usersSeen g xof ks' (t + 1), []) := by
  have step : ∀ t, progress j us g [] ((libSeen F xof (ks' j) (N + 2 * t)).drop N) = (usersSeen g xof ks' t, []) →
      F.next (libSeen F xof (ks' j) (N + 2 * t)) = acting j us (g.next (usersSeen g xof ks' t)) [] ∧
      F.next (libSeen F xof (ks' j) (N + 2 * t + 1)) =
        acting j us (g.next (usersSeen g xof ks' t)) [libReply xof (ks' j) (acting j us (g.next (usersSeen g xof ks' t)) [])] ∧
      progress j us g [] ((libSeen F xof (ks' j) (N + 2 * (t + 1))).drop N) = (usersSeen g xof ks' (t + 1), []) := by
    intro t h
    have h1 := next_users hu pk hF hg (2 * t)
    rw [h] at h1
    have h0 : (progress j us g [] ((libSeen F xof (ks' j) (N + 2 * t)).drop N)).2 = [] := by rw [h]
    have hl := seen_length F xof (ks' j) (N + 2 * t)
    have e1 : (libSeen F xof (ks' j) (N + 2 * t + 1)).drop N =
        (libSeen F xof (ks' j) (N + 2 * t)).drop N ++ [libReply xof (ks' j) (F.next (libSeen F xof (ks' j) (N + 2 * t)))] := by
      rw [libSeen, List.drop_append_of_le_length (by rw [hl]; omega)]
    obtain ⟨p1, p2⟩ := progress_append j us g _ [] h0 (libReply xof (ks' j) (F.next (libSeen F xof (ks' j) (N + 2 * t))))
    rw [← e1, h] at p1
    have h2 := next_users hu pk hF hg (2 * t + 1)
    rw [← Nat.add_assoc, p1, h1] at h2
    have e2 : (libSeen F xof (ks' j) (N + 2 * (t + 1))).drop N =
        (libSeen F xof (ks' j) (N + 2 * t + 1)).drop N ++ [libReply xof (ks' j) (F.next (libSeen F xof (ks' j) (N + 2 * t + 1)))] := by
      have hl' := seen_length F xof (ks' j) (N + 2 * t + 1)
      rw [show N + 2 * (t + 1) = N + 2 * t + 1 + 1 by omega, libSeen, List.drop_append_of_le_length (by rw [hl']; omega)]
    have h3 := p2 (libReply xof (ks' j) (F.next (libSeen F xof (ks' j) (N + 2 * t + 1))))
    rw [← e1, ← e2, h, h2, h1] at h3
    refine ⟨h1, h2, ?_⟩
    rw [h3, usersSeen]
    have h4 := combine_reply (ks' := ks') hu' (g.next (usersSeen g xof ks' t))
    simp only at h4 ⊢
    rw [h4]
  intro t
  have h : progress j us g [] ((libSeen F xof (ks' j) (N + 2 * t)).drop N) = (usersSeen g xof ks' t, []) := by
    induction t with
    | zero =>
      rw [Nat.mul_zero, Nat.add_zero, List.drop_of_length_le (by rw [seen_length])]
      rfl
    | succ t ih => exact (step t ih).2.2
  exact ⟨h, step t h⟩

theorem acting_sign {us : Fin N → Known} {r : UserRequest N} {l : List (List Byte)} {m : List Byte} (h : acting j us r l = .sign m) : r = .sign j m := by
  cases r with
  | hash x => cases h
  | sign i m' =>
    cases l <;>
    · simp only [acting] at h
      split at h
      · next hi => rw [hi, Request.sign.inj h]
      · cases h

/-- What the forger for one key offers, and the signatures for which they ask. -/
theorem against_users (hks : ∀ i, i ≠ j → ks i = ks' i) {xof : Xof} {pks : Fin N → Arr Byte 57} (hpk : ∀ i, ed448_derive_public xof (ks' i) = .ok (pks i)) (n : ℕ) :
    let g := G fun i => (pks i).1
    let F := against G j ks (pks j).1
    F.forge (libSeen F xof (ks' j) (N + 2 * n)) = (g.forge (usersSeen g xof ks' n)).2 ∧
    ∀ i < N + 2 * n, ∀ m, F.next (libSeen F xof (ks' j) i) = .sign m → ∃ t < n, g.next (usersSeen g xof ks' t) = .sign j m := by
  intro g F
  have hu' := known_users (G := G) hks xof (pks j).1
  have hg : G (publicsOf j (knownOf ks (libSeen F xof (ks' j) N)) (pks j).1) = g := by rw [publics_users hks hpk]
  have hp := progress_users hu' rfl (pks j).1 rfl hg
  have hs := knownOf_stable ks F xof (ks' j) (2 * n)
  constructor
  · show ((G (publicsOf j (knownOf ks (libSeen F xof (ks' j) (N + 2 * n))) (pks j).1)).forge (progress j _ _ [] _).1).2 = _
    rw [hs, hg, (hp n).1]
  · intro i hi m h
    by_cases h1 : i < N
    · exfalso
      have h5 := seen_length F xof (ks' j) i
      generalize libSeen F xof (ks' j) i = l at h5 h
      have h2 : (if h : l.length < N then Request.hash (ks ⟨l.length, h⟩).1 else _) = Request.sign m := h
      rw [dif_pos (by omega)] at h2
      cases h2
    · obtain ⟨t, ht | ht⟩ : ∃ t, i = N + 2 * t ∨ i = N + 2 * t + 1 := ⟨(i - N) / 2, by omega⟩
      · rw [ht, (hp t).2.1] at h
        exact ⟨t, by omega, acting_sign h⟩
      · rw [ht, (hp t).2.2.1] at h
        exact ⟨t, by omega, acting_sign h⟩

theorem against_strong {Ok : Xof → List Byte → List Byte → List Byte → Prop} (hks : ∀ i, i ≠ j → ks i = ks' i) {xof : Xof} {n : ℕ} {pks : Fin N → Arr Byte 57}
    (hpk : ∀ i, ed448_derive_public xof (ks' i) = .ok (pks i)) :
    let g := G fun i => (pks i).1
    let f := g.forge (usersSeen g xof ks' n)
    (∀ t < n, g.next (usersSeen g xof ks' t) = .sign f.1 f.2.1 → usersReply xof ks' (.sign f.1 f.2.1) ≠ f.2.2) → Ok xof (pks f.1).1 f.2.1 f.2.2 → f.1 = j →
    LibStrong Ok (against G j ks) xof (ks' j) (N + 2 * n) := by
  intro g f h1 h2 h3
  obtain ⟨a1, a2⟩ := against_users (G := G) hks hpk n
  refine ⟨pks j, hpk j, ?_⟩
  rw [a1]
  refine ⟨fun i hi e => ?_, by rw [← h3]; exact h2⟩
  obtain ⟨t, ht, h4⟩ := a2 i hi _ e
  have h5 := h1 t ht (by rw [h3]; exact h4)
  rw [sign_users, h3] at h5
  exact h5

theorem against_forges {Ok : Xof → List Byte → List Byte → List Byte → Prop} (hks : ∀ i, i ≠ j → ks i = ks' i) {xof : Xof} {n : ℕ} {pks : Fin N → Arr Byte 57}
    (hpk : ∀ i, ed448_derive_public xof (ks' i) = .ok (pks i)) :
    let g := G fun i => (pks i).1
    let f := g.forge (usersSeen g xof ks' n)
    (∀ t < n, g.next (usersSeen g xof ks' t) ≠ .sign f.1 f.2.1) → Ok xof (pks f.1).1 f.2.1 f.2.2 → f.1 = j →
    LibForges Ok (against G j ks) xof (ks' j) (N + 2 * n) := by
  intro g f h1 h2 h3
  obtain ⟨a1, a2⟩ := against_users (G := G) hks hpk n
  refine ⟨pks j, hpk j, ?_⟩
  rw [a1]
  refine ⟨fun i hi e => ?_, by rw [← h3]; exact h2⟩
  obtain ⟨t, ht, h4⟩ := a2 i hi _ e
  exact h1 t ht (by rw [h3]; exact h4)

theorem against_bounded {L : ℕ} (hG : UsersBounded G L) : Bounded (against G j ks) L := by
  intro pk hpk seen
  have hd : RFC.dom4.length = 10 := by decide
  have hp : ∀ us : Fin N → Known, ∀ i, (publicsOf j us pk i).length = 57 := by
    intro us i
    rw [publicsOf]
    split
    · exact hpk
    · exact encodePoint_length _
  obtain ⟨f1, f2, f3⟩ := hG _ (hp (knownOf ks seen)) (progress j (knownOf ks seen) (G (publicsOf j (knownOf ks seen) pk)) [] (seen.drop N)).1
  have hnext : (against G j ks pk).next seen = if h : seen.length < N then .hash (ks ⟨seen.length, h⟩).1 else
      acting j (knownOf ks seen) ((G (publicsOf j (knownOf ks seen) pk)).next (progress j (knownOf ks seen) (G (publicsOf j (knownOf ks seen) pk)) [] (seen.drop N)).1)
        (progress j (knownOf ks seen) (G (publicsOf j (knownOf ks seen) pk)) [] (seen.drop N)).2 := rfl
  refine ⟨fun x hx => ?_, fun m hm => ?_, f3⟩
  · rw [hnext] at hx
    split at hx
    · obtain rfl := Request.hash.inj hx
      rw [(ks _).2]
      omega
    · generalize (progress j (knownOf ks seen) (G (publicsOf j (knownOf ks seen) pk)) [] (seen.drop N)).2 = l at hx
      generalize (G (publicsOf j (knownOf ks seen) pk)).next (progress j (knownOf ks seen) (G (publicsOf j (knownOf ks seen) pk)) [] (seen.drop N)).1 = r at hx f1 f2
      cases r with
      | hash y =>
        obtain rfl := Request.hash.inj hx
        exact f1 _ rfl
      | sign i m =>
        have h1 := f2 i m rfl
        cases l with
        | nil =>
          simp only [acting] at hx
          split at hx
          · cases hx
          · obtain rfl := Request.hash.inj hx
            rw [List.length_append, List.length_append, hd, known_seed_length]
            omega
        | cons a l =>
          simp only [acting] at hx
          split at hx
          · cases hx
          · obtain rfl := Request.hash.inj hx
            rw [List.length_append, List.length_append, List.length_append, hd, encodePoint_length, RFC.publicOf, encodePoint_length]
            omega
  · rw [hnext] at hm
    split at hm
    · cases hm
    · exact f2 j m (acting_sign hm)

end

/-! ## Counting -/

/-- One of several keys, and all others fixed. -/
theorem chance_one_of {N : ℕ} {K A : Type} [Finite K] [Finite A] [Nonempty K] [Nonempty A] (j : Fin N) (Q : (Fin N → K) → K → A → Prop)
    (hQ : ∀ ks b, Q (Function.update ks j b) = Q ks) (c : ℚ) (h : ∀ ks, chance {x : K × A | Q ks x.1 x.2} ≤ c) :
    chance {x : (Fin N → K) × A | Q x.1 (x.1 j) x.2} ≤ c := by
  have e : chance {x : (Fin N → K) × A | Q x.1 (x.1 j) x.2} = chance {x : (K × A) × (Fin N → K) | Q x.2 x.1.1 x.1.2} := by
    rw [← chance_snd (α := K) {x : (Fin N → K) × A | Q x.1 (x.1 j) x.2}]
    let σ : (K × ((Fin N → K) × A)) ≃ ((K × A) × (Fin N → K)) :=
      ⟨fun x => ((x.2.1 j, x.2.2), Function.update x.2.1 j x.1), fun y => (y.2 j, (Function.update y.2 j y.1.1, y.1.2)),
        fun x => by simp, fun y => by simp⟩
    rw [← chance_equiv σ fun x => Q x.2 x.1.1 x.1.2]
    refine chance_congr fun x => ?_
    show Q x.2.1 (x.2.1 j) x.2.2 ↔ Q (Function.update x.2.1 j x.1) (x.2.1 j) x.2.2
    rw [hQ]
  rw [e]
  exact chance_prod_le (fun x : (K × A) × (Fin N → K) => Q x.2 x.1.1 x.1.2) c h

/-- The chance that the forger, run twice with the same replies up to one of the requests, reveals a random secret. Only the public key is needed for this. -/
noncomputable def extractChance (F : List Byte → Forger) (n : ℕ) : ℚ :=
  chance {x : (((Fin (n + 1) → Out) × (Fin (n + 1) → Out)) × (Fin n → Fin q)) × (Fin 57 → Byte) |
    let s := RFC.secretScalar (List.ofFn x.2)
    let A := s • B
    extract (F (encodePoint A)) (fun i => blindSigner A (coin x.1.2 i)) (encodePoint A) n (extend x.1.1.1) (extend x.1.1.2) % q = s % q}

/-- The chance that a random secret is in one of the strings at which the forger asks for the hash function. Only the public key is needed for this. -/
noncomputable def findChance (F : List Byte → Forger) (n : ℕ) : ℚ :=
  chance {x : ((Fin (n + 1) → Out) × (Fin n → Fin q)) × (Fin 57 → Byte) |
    let s := RFC.secretScalar (List.ofFn x.2)
    let A := s • B
    Finds (F (encodePoint A)) (fun i => blindSigner A (coin x.1.2 i)) (encodePoint A) n (extend x.1.1) s}

theorem users_bound {N : ℕ} (W : (Fin N → Arr Byte 57) → Xof → Prop) (G : (Fin N → List Byte) → UserForger N) (L : ℕ) (hG : UsersBounded G L) (n : ℕ)
    (hn : N + 2 * n < 2 ^ 100) (V : (List Byte → Forger) → Xof → Arr Byte 57 → Prop)
    (hW : ∀ ks' xof, W ks' xof → ∃ j, ∀ ks, (∀ i, i ≠ j → ks i = ks' i) → V (against G j ks) xof (ks' j))
    (hV : ∀ F xof k, V F xof k → LibNew ρ F xof k (N + 2 * n)) (w v : ℚ) (hw : 0 ≤ w)
    (hs : ∀ j ks, (↑(N + 2 * n) + 1) * extractChance (against G j ks) (N + 2 * n) ≤ w ^ 2) (hv : ∀ j ks, findChance (against G j ks) (N + 2 * n) ≤ v) :
    chance {x : (Fin N → Fin 57 → Byte) × (Short L → Out) | W (fun i => keyOf (x.1 i)) (hashOf x.2)} ≤ N * (2 * w + v + 1 / 2 ^ 240) := by
  let z : Fin 57 → Byte := fun _ => 0
  let P : Fin N → (Fin N → Fin 57 → Byte) → (Fin 57 → Byte) → (Short L → Out) → Prop := fun j ks k f =>
    V (against G j fun i => keyOf (Function.update ks j z i)) (hashOf f) (keyOf k)
  have h1 : ∀ j, chance {x : (Fin N → Fin 57 → Byte) × (Short L → Out) | P j x.1 (x.1 j) x.2} ≤ 2 * w + v + 1 / 2 ^ 240 := by
    intro j
    refine chance_one_of j (P j) (fun ks b => ?_) _ fun ks => ?_
    · funext k f
      simp only [P, Function.update_idem]
    · exact all_numbers (V (against G j fun i => keyOf (Function.update ks j z i))) _ L (against_bounded hG) (N + 2 * n) hn (fun xof k => hV _ xof k) w v hw
        (hs j _) (hv j _)
  have h2 := chance_exists (fun j (x : (Fin N → Fin 57 → Byte) × (Short L → Out)) => P j x.1 (x.1 j) x.2) _ h1
  rw [Fintype.card_fin] at h2
  refine (chance_imp fun x hx => ?_).trans h2
  obtain ⟨j, hj⟩ := hW _ _ hx
  exact ⟨j, hj _ fun i hi => by rw [Function.update_of_ne hi]⟩

theorem strong_against {N : ℕ} {Ok : Xof → List Byte → List Byte → List Byte → Prop} {G : (Fin N → List Byte) → UserForger N} {n : ℕ} (ks' : Fin N → Arr Byte 57)
    (xof : Xof) (h : UsersStrong Ok G xof ks' n) : ∃ j, ∀ ks, (∀ i, i ≠ j → ks i = ks' i) → LibStrong Ok (against G j ks) xof (ks' j) (N + 2 * n) := by
  obtain ⟨pks, h1, h2, h3⟩ := h
  exact ⟨_, fun ks hks => against_strong hks h1 h2 h3 rfl⟩

theorem forge_against {N : ℕ} {Ok : Xof → List Byte → List Byte → List Byte → Prop} {G : (Fin N → List Byte) → UserForger N} {n : ℕ} (ks' : Fin N → Arr Byte 57)
    (xof : Xof) (h : UsersForge Ok G xof ks' n) : ∃ j, ∀ ks, (∀ i, i ≠ j → ks i = ks' i) → LibForges Ok (against G j ks) xof (ks' j) (N + 2 * n) := by
  obtain ⟨pks, h1, h2, h3⟩ := h
  exact ⟨_, fun ks hks => against_forges hks h1 h2 h3 rfl⟩

/-- C92. There are `N` users whose private keys are chosen at random from all strings of 57 bytes, and the hash function is random. The forger sees all public
keys and gets signatures of all users for messages of their choice. `against G j ks` is the forger for the key of user `j` who makes the signatures of the other
users, with private keys `ks`, on their own. If the two procedures of C88 find a random secret with each of these forgers with a chance of at most
`w² / (N + 2 n + 1)` and of at most `v`, then the chance that the forger offers a valid signature of any user that they did not get from this user is at most
`N (2 w + v + 2^(-240))`. -/
theorem C92_strong {N : ℕ} (G : (Fin N → List Byte) → UserForger N) (L : ℕ) (hG : UsersBounded G L) (n : ℕ) (hn : N + 2 * n < 2 ^ 100) (w v : ℚ) (hw : 0 ≤ w)
    (hs : ∀ j ks, (↑(N + 2 * n) + 1) * extractChance (against G j ks) (N + 2 * n) ≤ w ^ 2) (hv : ∀ j ks, findChance (against G j ks) (N + 2 * n) ≤ v) :
    chance {x : (Fin N → Fin 57 → Byte) × (Short L → Out) | UsersStrong RFC.Valid G (hashOf x.2) (fun i => keyOf (x.1 i)) n} ≤ N * (2 * w + v + 1 / 2 ^ 240) :=
  users_bound (fun ks xof => UsersStrong RFC.Valid G xof ks n) G L hG n hn (fun F xof k => LibStrong RFC.Valid F xof k (N + 2 * n)) strong_against
    (fun _ => strong_new fun _ _ _ _ _ _ h => ⟨valid_loose h, h.1, h.2.choose_spec.choose_spec.2.2.1⟩) w v hw hs hv

/-- C92. The same for signatures that a verifier accepts that compares field elements exactly, checks the length of the signature and checks the range of its
second half. -/
theorem C92_verifiers {N : ℕ} (f : Repairs) (hf : f.limb15 = true) (hl : f.sigLength = true) (hr : f.range = true) (G : (Fin N → List Byte) → UserForger N) (L : ℕ)
    (hG : UsersBounded G L) (n : ℕ) (hn : N + 2 * n < 2 ^ 100) (w v : ℚ) (hw : 0 ≤ w)
    (hs : ∀ j ks, (↑(N + 2 * n) + 1) * extractChance (against G j ks) (N + 2 * n) ≤ w ^ 2) (hv : ∀ j ks, findChance (against G j ks) (N + 2 * n) ≤ v) :
    chance {x : (Fin N → Fin 57 → Byte) × (Short L → Out) |
      UsersStrong (fun xof pk m sig => f.ed448_verify xof pk sig m = .ok (.ok true)) G (hashOf x.2) (fun i => keyOf (x.1 i)) n} ≤ N * (2 * w + v + 1 / 2 ^ 240) :=
  users_bound (fun ks xof => UsersStrong (fun xof pk m sig => f.ed448_verify xof pk sig m = .ok (.ok true)) G xof ks n) G L hG n hn
    (fun F xof k => LibStrong (fun xof pk m sig => f.ed448_verify xof pk sig m = .ok (.ok true)) F xof k (N + 2 * n)) strong_against
    (fun _ => strong_new fun xof k pk m sig hk h => accepts_canonical f hf hl hr xof k pk m sig hk h) w v hw hs hv

/-- C92. With exact comparison alone, the same for signatures of messages for which the forger did not ask the user. -/
theorem C92_messages {N : ℕ} (f : Repairs) (hf : f.limb15 = true) (G : (Fin N → List Byte) → UserForger N) (L : ℕ)
    (hG : UsersBounded G L) (n : ℕ) (hn : N + 2 * n < 2 ^ 100) (w v : ℚ) (hw : 0 ≤ w)
    (hs : ∀ j ks, (↑(N + 2 * n) + 1) * extractChance (against G j ks) (N + 2 * n) ≤ w ^ 2) (hv : ∀ j ks, findChance (against G j ks) (N + 2 * n) ≤ v) :
    chance {x : (Fin N → Fin 57 → Byte) × (Short L → Out) |
      UsersForge (fun xof pk m sig => f.ed448_verify xof pk sig m = .ok (.ok true)) G (hashOf x.2) (fun i => keyOf (x.1 i)) n} ≤ N * (2 * w + v + 1 / 2 ^ 240) :=
  users_bound (fun ks xof => UsersForge (fun xof pk m sig => f.ed448_verify xof pk sig m = .ok (.ok true)) G xof ks n) G L hG n hn
    (fun F xof k => LibForges (fun xof pk m sig => f.ed448_verify xof pk sig m = .ok (.ok true)) F xof k (N + 2 * n)) forge_against
    (fun _ => forges_new fun xof k pk m sig hk h => C87_loose f hf xof k pk m sig hk h) w v hw hs hv

/-! ## Concrete cases -/

/-- A forger who asks both users for signatures in turn, and offers the last one, which the second user made, as a signature of the first user. -/
def exampleUsers : (Fin 2 → List Byte) → UserForger 2 := fun pks =>
  ⟨fun seen => if seen.length = 0 then .hash (RFC.dom4 ++ pks 0 ++ pks 1) else .sign (if seen.length % 2 = 0 then 1 else 0) [BitVec.ofNat 8 seen.length],
    fun seen => (0, [2], seen.getLast?.getD [])⟩

theorem exampleUsers_bounded : UsersBounded exampleUsers 125 := by
  intro pks hpks seen
  have hd : RFC.dom4.length = 10 := by decide
  refine ⟨fun x hx => ?_, fun i m hm => ?_, Nat.le_refl _⟩
  · simp only [exampleUsers] at hx
    split at hx
    · obtain rfl := UserRequest.hash.inj hx
      rw [List.length_append, List.length_append, hd, hpks, hpks]
      omega
    · cases hx
  · simp only [exampleUsers] at hm
    split at hm
    · cases hm
    · obtain ⟨_, rfl⟩ := UserRequest.sign.inj hm
      simp

/-- The hypotheses of `C92_strong` are met. With such numbers the bound is above 1 and says nothing; `C95_guess_users` has a forger for whom
the numbers are small. -/
example : chance {x : (Fin 2 → Fin 57 → Byte) × (Short 125 → Out) | UsersStrong RFC.Valid exampleUsers (hashOf x.2) (fun i => keyOf (x.1 i)) 3} ≤
    (2 : ℕ) * (2 * 3 + 1 + 1 / 2 ^ 240) := by
  have _ : Nonempty (Fin q) := ⟨⟨0, q_pos⟩⟩
  refine C92_strong exampleUsers 125 exampleUsers_bounded 3 (by norm_num) 3 1 (by norm_num) (fun j ks => ?_) fun j ks => chance_le_one _
  refine (mul_le_mul_of_nonneg_left (chance_le_one _) (by positivity)).trans ?_
  norm_num

/-- This forger succeeds if both users have the same key. -/
example (xof : Xof) (k : Arr Byte 57) : UsersStrong RFC.Valid exampleUsers xof (fun _ => k) 3 := by
  obtain ⟨pk, sig, h1, h2, h3, _⟩ := C57_valid_elsewhere xof k [2]
  refine ⟨fun _ => pk, fun _ => h1, ?_⟩
  have h4 : ∀ i : Fin 2, usersReply xof (fun _ : Fin 2 => k) (.sign i [2]) = sig.1 := fun i => by rw [usersReply, h2]
  have h5 : (exampleUsers fun _ => pk.1).forge (usersSeen (exampleUsers fun _ => pk.1) xof (fun _ => k) 3) = (0, [2], sig.1) := by
    rw [← h4 1]
    simp [usersSeen, exampleUsers]
  simp only [h5]
  refine ⟨fun t ht e => ?_, h3⟩
  exfalso
  match t, ht with
  | 0, _ => simp [usersSeen, exampleUsers] at e
  | 1, _ => simp [usersSeen, exampleUsers] at e
  | 2, _ => simp [usersSeen, exampleUsers] at e

end Ed448
