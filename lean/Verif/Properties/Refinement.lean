import Verif.Properties.Threads
import Verif.Spec.History

/-!
# C93: what a program holds after any sequence of calls
-/

namespace Ed448

open Client

/-! ## Statement -/

/-- The public key for a private key of either kind. -/
noncomputable def publicBytes (xof : Xof) (k : List Byte) : List Byte := RFC.publicOf (keyScalar xof k)

/-- The signature of `m` with a private key of either kind, and the public key. -/
noncomputable def signedBytes (xof : Xof) (k m : List Byte) : List Byte := RFC.signWith xof (keyScalar xof k) (keySeed xof k) m ++ publicBytes xof k

/-- What the program holds is what the description in terms of bytes says: secret and verifying keys have these bytes, a signing key has the bytes of its private
key and of the public key for it, and a signature is that of RFC 8032 for the private key and the message, with the public key. -/
structure Matches {σ : Type} (xof : Xof) (c : Client σ) (p : Plain σ) : Prop where
  rng : c.rng = p.rng
  secrets : c.secrets.map (fun k => k.key.1) = p.secrets
  verifying : c.verifying.map VerifyingKey.as_bytes = p.verifying
  signing : c.signing.map (fun k => (k.to_bytes.1, k.get_verifying_key.as_bytes)) = p.signing.map fun k => (k, publicBytes xof k)
  signatures : c.signatures.map Signature.as_slice = p.signatures.map fun s => signedBytes xof s.1 s.2

/-! ## Proofs -/

theorem hexOf_same {s b b' : List Byte} (h : HexOf s b) (h' : HexOf s b') : b = b' :=
  Option.some.inj (((hexDecodeList_iff s b).mpr h).symm.trans ((hexDecodeList_iff s b').mpr h'))

theorem spelled_ok {s : List Byte} {a : Arr Byte 57} (h : hexToArr 57 s = .ok a) : spelled s = [a.1] := by
  have h1 := (hexToArr_iff 57 s a).mp h
  have h2 : ∃ b, b.length = 57 ∧ HexOf s b := ⟨a.1, a.2, h1⟩
  rw [spelled, dif_pos h2, hexOf_same h2.choose_spec.2 h1]

theorem spelled_err {s : List Byte} (h : hexToArr 57 s = .error .expect) : spelled s = [] := by
  rw [spelled, dif_neg]
  rintro ⟨b, h1, h2⟩
  rw [(hexToArr_iff 57 s ⟨b, h1⟩).mpr h2] at h
  cases h

theorem secret_str (s : List Byte) : (gained (SecretKey.from_str s)).map (fun k => k.key.1) = spelled s := by
  rw [SecretKey.from_str, hex_to_private_key]
  rcases hexToArr_total 57 s with ⟨a, h⟩ | h
  · rw [h, spelled_ok h, bind_ok]; rfl
  · rw [h, spelled_err h, bind_err]; rfl

theorem verifying_str (s : List Byte) : (gained (VerifyingKey.from_str s)).map VerifyingKey.as_bytes = spelled s := by
  rw [VerifyingKey.from_str, hex_to_private_key]
  rcases hexToArr_total 57 s with ⟨a, h⟩ | h
  · rw [h, spelled_ok h, bind_ok]; rfl
  · rw [h, spelled_err h, bind_err]; rfl

theorem derive_bytes {xof : Xof} {k A : Arr Byte 57} (h : ed448_derive_public xof k = .ok A) : A.1 = publicBytes xof k.1 := by
  obtain ⟨A', h1, h2⟩ := derive_spec xof k
  rw [h] at h1
  injection h1 with h1
  rw [h1, h2, publicBytes, RFC.publicOf]

theorem signing_str (xof : Xof) (s : List Byte) :
    (gained (SigningKey.from_str xof s)).map (fun k => (k.to_bytes.1, k.get_verifying_key.as_bytes)) = (spelled s).map fun k => (k, publicBytes xof k) := by
  rw [SigningKey.from_str, hex_to_private_key]
  rcases hexToArr_total 57 s with ⟨a, h⟩ | h
  · obtain ⟨A, h1, h2⟩ := derive_spec xof a
    rw [h, spelled_ok h, bind_ok, h1, bind_ok]
    exact congrArg (fun x => [(a.1, x)]) (derive_bytes h1)
  · rw [h, spelled_err h, bind_err]; rfl

theorem secret_bytes (b : List Byte) : (gained (SecretKey.from_bytes b)).map (fun k => k.key.1) = taken b := by
  rw [SecretKey.from_bytes, toArr57, taken]
  by_cases h : b.length = 57
  · rw [dif_pos h, if_pos h, bind_ok]; rfl
  · rw [dif_neg h, if_neg h, bind_err]; rfl

theorem verifying_bytes (b : List Byte) : (gained (VerifyingKey.from_bytes b)).map VerifyingKey.as_bytes = taken b := by
  rw [VerifyingKey.from_bytes, toArr57, taken]
  by_cases h : b.length = 57
  · rw [dif_pos h, if_pos h, bind_ok]; rfl
  · rw [dif_neg h, if_neg h, bind_err]; rfl

theorem signing_slice (xof : Xof) (b : List Byte) :
    (gained (SigningKey.from_slice xof b)).map (fun k => (k.to_bytes.1, k.get_verifying_key.as_bytes)) = (taken b).map (fun k => (k, publicBytes xof k)) ∧
    (gainedOk (SigningKey.from_bytes xof b)).map (fun k => (k.to_bytes.1, k.get_verifying_key.as_bytes)) = (taken b).map (fun k => (k, publicBytes xof k)) := by
  rw [taken]
  by_cases h : b.length = 57
  · obtain ⟨A, h1, h2, h3⟩ := from_slice_spec (xof := xof) h
    rw [h2, h3, if_pos h]
    have := derive_bytes h1
    exact ⟨congrArg (fun x => [(b, x)]) this, congrArg (fun x => [(b, x)]) this⟩
  · obtain ⟨h2, h3⟩ := from_slice_bad (xof := xof) h
    rw [h2, h3, if_neg h]
    exact ⟨rfl, rfl⟩

theorem gained_delivered {α β : Type} (from_str : List Byte → Rust α) (g : α → β) (h : List Byte → β) (hs : ∀ s, (gained (from_str s)).map g = (spelled s).map h)
    (d : Deserializer Unit) : (gainedOk (deserializeWith from_str d)).map g = (delivered d).map h := by
  obtain ⟨r, s⟩ := d
  cases r with
  | false => rfl
  | true =>
    cases s with
    | error e => rfl
    | ok s =>
      show (gainedOk (do let k ← from_str s; pure (.ok k))).map g = (spelled s).map h
      rw [← hs s]
      rcases from_str s with e | a <;> rfl

theorem prehash_bytes {xof : Xof} (k : SigningKey) (hk : k.get_verifying_key.as_bytes = publicBytes xof k.to_bytes.1) (m : List Byte) :
    (gainedOk (k.sign_prehash xof m)).map Signature.as_slice = [signedBytes xof k.to_bytes.1 m] := by
  obtain ⟨sig, h1, h2⟩ := sign_spec xof k.secret_key.key m
  rw [SigningKey.sign_prehash, h1, bind_ok]
  show [sig.1 ++ k.get_verifying_key.as_bytes] = _
  rw [hk, h2]
  rfl

section
variable {σ : Type} {xof : Xof} {c : Client σ} {p : Plain σ}

theorem Matches.get (h : Matches xof c p) (i : ℕ) : c.signing[i]?.map (fun k => (k.to_bytes.1, k.get_verifying_key.as_bytes)) = p.signing[i]?.map fun k => (k, publicBytes xof k) := by
  rw [← List.getElem?_map, ← List.getElem?_map, h.signing]

theorem Matches.cases (h : Matches xof c p) (i : ℕ) : (c.signing[i]? = none ∧ p.signing[i]? = none) ∨
    ∃ k, c.signing[i]? = some k ∧ p.signing[i]? = some k.to_bytes.1 ∧ k.get_verifying_key.as_bytes = publicBytes xof k.to_bytes.1 := by
  have h1 := h.get i
  rcases h2 : c.signing[i]? with _ | k <;> rcases h3 : p.signing[i]? with _ | k' <;> rw [h2, h3] at h1
  · exact Or.inl ⟨rfl, rfl⟩
  · cases h1
  · cases h1
  · have h4 := Option.some.inj h1
    obtain ⟨h5, h6⟩ := Prod.mk.inj h4
    exact Or.inr ⟨k, rfl, by rw [h5], by rw [h6, h5]⟩

theorem Matches.step (h : Matches xof c p) (rng : Rng σ) (call : Call) : Matches xof (c.step xof rng call) (p.step (publicBytes xof) rng call) := by
  obtain ⟨h0, h1, h2, h3, h4⟩ := id h
  have ha : ∀ {α β : Type} {f : α → β} {l m : List α} {x y : List β}, l.map f = x → m.map f = y → (l ++ m).map f = x ++ y := by
    rintro α β f l m x y rfl rfl
    exact List.map_append
  have hb : ∀ {α β γ : Type} {f : α → β} {g : γ → β} {l m : List α} {x y : List γ}, l.map f = x.map g → m.map f = y.map g → (l ++ m).map f = (x ++ y).map g := by
    intro α β γ f g l m x y e1 e2
    rw [List.map_append, List.map_append, e1, e2]
  cases call with
  | secretFromStr s => exact ⟨h0, ha h1 (secret_str s), h2, h3, h4⟩
  | secretFromBytes b => exact ⟨h0, ha h1 (secret_bytes b), h2, h3, h4⟩
  | secretDeserialize d =>
    refine ⟨h0, ha h1 ?_, h2, h3, h4⟩
    rw [← List.map_id (delivered d)]
    exact gained_delivered _ _ id (fun s => by rw [secret_str, List.map_id]) d
  | secretOf i =>
    refine ⟨h0, ha h1 ?_, h2, h3, h4⟩
    rcases h.cases i with ⟨e1, e2⟩ | ⟨k, e1, e2, e3⟩ <;> rw [e1, e2] <;> rfl
  | verifyingFromStr s => exact ⟨h0, h1, ha h2 (verifying_str s), h3, h4⟩
  | verifyingFromBytes b => exact ⟨h0, h1, ha h2 (verifying_bytes b), h3, h4⟩
  | verifyingDeserialize d =>
    refine ⟨h0, h1, ha h2 ?_, h3, h4⟩
    rw [← List.map_id (delivered d)]
    exact gained_delivered _ _ id (fun s => by rw [verifying_str, List.map_id]) d
  | verifyingOf i =>
    refine ⟨h0, h1, ha h2 ?_, h3, h4⟩
    rcases h.cases i with ⟨e1, e2⟩ | ⟨k, e1, e2, e3⟩ <;> rw [e1, e2]
    · rfl
    · exact congrArg (fun x => [x]) e3
  | signingFromStr s => exact ⟨h0, h1, h2, hb h3 (signing_str xof s), h4⟩
  | signingFromSlice b => exact ⟨h0, h1, h2, hb h3 (signing_slice xof b).1, h4⟩
  | signingFromBytes b => exact ⟨h0, h1, h2, hb h3 (signing_slice xof b).2, h4⟩
  | signingFromSecret i =>
    have e : c.secrets[i]?.map (fun k => k.key.1) = p.secrets[i]? := by rw [← h1, List.getElem?_map]
    rcases h5 : c.secrets[i]? with _ | s
    · rw [h5] at e
      have e1 : c.step xof rng (.signingFromSecret i) = c := by simp only [Client.step, h5]
      rw [e1]
      refine ⟨h0, h1, h2, ?_, h4⟩
      simp only [Plain.step, ← e]
      simpa using h3
    · rw [h5] at e
      have e1 : c.step xof rng (.signingFromSecret i) = { c with signing := c.signing ++ gained (SigningKey.fromSecretKey xof s) } := by simp only [Client.step, h5]
      rw [e1]
      refine ⟨h0, h1, h2, hb h3 ?_, h4⟩
      rw [← e, SigningKey.fromSecretKey, (signing_slice xof s.key.1).1, taken, if_pos s.key.2]
      rfl
  | signingDeserialize d => exact ⟨h0, h1, h2, hb h3 (gained_delivered _ _ _ (signing_str xof) d), h4⟩
  | signingRandom =>
    obtain ⟨A, a1, a2, _⟩ := from_slice_spec (xof := xof) (rng.fill_bytes 57 c.rng).1.2
    have e1 : SigningKey.random xof rng c.rng = .ok (⟨⟨(rng.fill_bytes 57 c.rng).1⟩, ⟨A⟩⟩, (rng.fill_bytes 57 c.rng).2) := by
      rw [SigningKey.random, a2, bind_ok]
      rfl
    simp only [Client.step, e1]
    refine ⟨?_, h1, h2, hb h3 ?_, h4⟩
    · show (rng.fill_bytes 57 c.rng).2 = (rng.fill_bytes 57 p.rng).2
      rw [h0]
    · rw [← h0]
      exact congrArg (fun x => [(_, x)]) (derive_bytes a1)
  | signPrehash i m =>
    rcases h.cases i with ⟨e1, e2⟩ | ⟨k, e1, e2, e3⟩
    · simp only [Client.step, Plain.step, e1, e2]
      refine ⟨h0, h1, h2, h3, ?_⟩
      simpa using h4
    · simp only [Client.step, Plain.step, e1, e2]
      exact ⟨h0, h1, h2, h3, hb h4 (prehash_bytes k e3 m)⟩

end

/-- C93. After every sequence of calls, with any arguments, a program holds exactly what the description in terms of bytes says: each call adds what belongs to
its argument, or to the object at the given position, and nothing else changes. -/
theorem C93_every_history {σ : Type} (xof : Xof) (rng : Rng σ) (st : σ) (calls : List Call) :
    Matches xof ((Client.start st).run xof rng calls) ((Plain.start st).run (publicBytes xof) rng calls) := by
  have h : ∀ (calls : List Call) (c : Client σ) (p : Plain σ), Matches xof c p → Matches xof (c.run xof rng calls) (p.run (publicBytes xof) rng calls) := by
    intro calls
    induction calls with
    | nil => exact fun c p h => h
    | cons call calls ih => exact fun c p h => ih _ _ (h.step rng call)
  exact h calls _ _ ⟨rfl, rfl, rfl, rfl, rfl⟩

/-! ## Where private keys and signatures come from -/

theorem mem_taken {a b : List Byte} (h : b ∈ taken a) : b.length = 57 ∧ a = b := by
  rw [taken] at h
  split at h
  · next hl =>
    obtain rfl := List.mem_singleton.mp h
    exact ⟨hl, rfl⟩
  · cases h

theorem mem_spelled {s b : List Byte} (h : b ∈ spelled s) : b.length = 57 ∧ HexOf s b := by
  rw [spelled] at h
  split at h
  · next hl =>
    obtain rfl := List.mem_singleton.mp h
    exact hl.choose_spec
  · cases h

theorem mem_delivered {d : Deserializer Unit} {b : List Byte} (h : b ∈ delivered d) :
    d.is_human_readable = true ∧ ∃ s, d.string = .ok s ∧ b.length = 57 ∧ HexOf s b := by
  rw [delivered] at h
  split at h
  · next s h1 h2 => exact ⟨h1, s, h2, mem_spelled h⟩
  · cases h

/-- Private keys come from the arguments of calls or from the generator. -/
def HasOrigin {σ : Type} (rng : Rng σ) (st : σ) (calls : List Call) (b : List Byte) : Prop :=
  (∃ c ∈ calls, c.Supplies b) ∨ ∃ m < randomCalls calls, b = drawnBlock rng st m

theorem HasOrigin.append {σ : Type} {rng : Rng σ} {st : σ} {calls : List Call} {b : List Byte} (h : HasOrigin rng st calls b) (c : Call) :
    HasOrigin rng st (calls ++ [c]) b := by
  rcases h with ⟨c', h1, h2⟩ | ⟨m, h1, h2⟩
  · exact Or.inl ⟨c', List.mem_append_left _ h1, h2⟩
  · refine Or.inr ⟨m, ?_, h2⟩
    rw [randomCalls, List.countP_append]
    exact Nat.lt_of_lt_of_le h1 (Nat.le_add_right _ _)

theorem plain_origin {σ : Type} (pub : List Byte → List Byte) (rng : Rng σ) (st : σ) (calls : List Call) :
    let p := (Plain.start st).run pub rng calls
    p.rng = Nat.repeat (fun s => (rng.fill_bytes 57 s).2) (randomCalls calls) st ∧ (∀ b ∈ p.secrets, HasOrigin rng st calls b) ∧
    (∀ b ∈ p.signing, HasOrigin rng st calls b) ∧ ∀ s ∈ p.signatures, s.1 ∈ p.signing ∧ ∃ i, .signPrehash i s.2 ∈ calls := by
  induction calls using List.reverseRecOn with
  | nil =>
    intro p
    refine ⟨rfl, fun b hb => ?_, fun b hb => ?_, fun b hb => ?_⟩ <;> cases hb
  | append_singleton calls c ih =>
    have e : (Plain.start st).run pub rng (calls ++ [c]) = ((Plain.start st).run pub rng calls).step pub rng c := by
      rw [Plain.run, Plain.run, List.foldl_append]
      rfl
    intro p
    have hp : p = _ := e
    clear_value p
    subst hp
    generalize (Plain.start st).run pub rng calls = p at ih
    obtain ⟨h0, h1, h2, h3⟩ := ih
    have g1 : ∀ b ∈ p.secrets, HasOrigin rng st (calls ++ [c]) b := fun b hb => (h1 b hb).append c
    have g2 : ∀ b ∈ p.signing, HasOrigin rng st (calls ++ [c]) b := fun b hb => (h2 b hb).append c
    have g3 : ∀ (extra : List (List Byte)), ∀ s ∈ p.signatures, s.1 ∈ p.signing ++ extra ∧ ∃ i, .signPrehash i s.2 ∈ calls ++ [c] := by
      intro extra s hs
      obtain ⟨k1, i, k2⟩ := h3 s hs
      exact ⟨List.mem_append_left _ k1, i, List.mem_append_left _ k2⟩
    have g4 : ∀ s ∈ p.signatures, s.1 ∈ p.signing ∧ ∃ i, .signPrehash i s.2 ∈ calls ++ [c] := by
      intro s hs
      obtain ⟨k1, i, k2⟩ := h3 s hs
      exact ⟨k1, i, List.mem_append_left _ k2⟩
    have new : ∀ {l l' : List (List Byte)}, (∀ b ∈ l, HasOrigin rng st (calls ++ [c]) b) → (∀ b ∈ l', c.Supplies b) → ∀ b ∈ l ++ l', HasOrigin rng st (calls ++ [c]) b := by
      intro l l' k1 k2 b hb
      rcases List.mem_append.mp hb with hb | hb
      · exact k1 b hb
      · exact Or.inl ⟨c, by simp, k2 b hb⟩
    have old : ∀ {l l' : List (List Byte)}, (∀ b ∈ l, HasOrigin rng st (calls ++ [c]) b) → (∀ b ∈ l', HasOrigin rng st (calls ++ [c]) b) → ∀ b ∈ l ++ l', HasOrigin rng st (calls ++ [c]) b := by
      intro l l' k1 k2 b hb
      rcases List.mem_append.mp hb with hb | hb
      · exact k1 b hb
      · exact k2 b hb
    have pick : ∀ {l : List (List Byte)} (i : ℕ), (∀ b ∈ l, HasOrigin rng st (calls ++ [c]) b) → ∀ b ∈ l[i]?.toList, HasOrigin rng st (calls ++ [c]) b := by
      intro l i k1 b hb
      rw [Option.mem_toList] at hb
      exact k1 b (List.mem_of_getElem? hb)
    have hr : randomCalls (calls ++ [c]) = randomCalls calls + randomCalls [c] := by rw [randomCalls, List.countP_append]; rfl
    cases c with
    | secretFromStr s => exact ⟨by rw [hr]; exact h0, new g1 fun b => mem_spelled, g2, g4⟩
    | secretFromBytes b => exact ⟨by rw [hr]; exact h0, new g1 fun b => mem_taken, g2, g4⟩
    | secretDeserialize d => exact ⟨by rw [hr]; exact h0, new g1 fun b => mem_delivered, g2, g4⟩
    | secretOf i => exact ⟨by rw [hr]; exact h0, old g1 (pick i g2), g2, g4⟩
    | verifyingFromStr s => exact ⟨by rw [hr]; exact h0, g1, g2, g4⟩
    | verifyingFromBytes b => exact ⟨by rw [hr]; exact h0, g1, g2, g4⟩
    | verifyingDeserialize d => exact ⟨by rw [hr]; exact h0, g1, g2, g4⟩
    | verifyingOf i => exact ⟨by rw [hr]; exact h0, g1, g2, g4⟩
    | signingFromStr s => exact ⟨by rw [hr]; exact h0, g1, new g2 fun b => mem_spelled, g3 _⟩
    | signingFromSlice b => exact ⟨by rw [hr]; exact h0, g1, new g2 fun b => mem_taken, g3 _⟩
    | signingFromBytes b => exact ⟨by rw [hr]; exact h0, g1, new g2 fun b => mem_taken, g3 _⟩
    | signingFromSecret i => exact ⟨by rw [hr]; exact h0, g1, old g2 (pick i g1), g3 _⟩
    | signingDeserialize d => exact ⟨by rw [hr]; exact h0, g1, new g2 fun b => mem_delivered, g3 _⟩
    | signingRandom =>
      have hr' : randomCalls (calls ++ [.signingRandom]) = randomCalls calls + 1 := hr
      refine ⟨?_, g1, old g2 fun b hb => ?_, g3 _⟩
      · rw [hr', Nat.repeat, ← h0]
        rfl
      · obtain rfl := List.mem_singleton.mp hb
        refine Or.inr ⟨randomCalls calls, by rw [hr']; exact Nat.lt_succ_self _, ?_⟩
        rw [drawnBlock, ← h0]
    | signPrehash i m =>
      refine ⟨by rw [hr]; exact h0, g1, g2, fun s hs => ?_⟩
      rcases List.mem_append.mp hs with hs | hs
      · exact g4 s hs
      · rw [Option.mem_toList, Option.map_eq_some_iff] at hs
        obtain ⟨k, k1, rfl⟩ := hs
        exact ⟨List.mem_of_getElem? k1, i, by simp⟩

/-- C93. Nothing comes from nowhere. After every sequence of calls, the bytes of each secret key and each signing key were the argument of a call, or spelled in
one, or are a block of 57 bytes that the generator delivered; and each signature was made, with a signing key that the program holds, for a message for which
the program asked for a signature. -/
theorem C93_origin {σ : Type} (xof : Xof) (rng : Rng σ) (st : σ) (calls : List Call) :
    let c := (Client.start st).run xof rng calls
    (∀ s ∈ c.secrets, HasOrigin rng st calls s.key.1) ∧ (∀ k ∈ c.signing, HasOrigin rng st calls k.to_bytes.1) ∧
    ∀ S ∈ c.signatures, ∃ k ∈ c.signing, ∃ i m, .signPrehash i m ∈ calls ∧ S.as_slice = signedBytes xof k.to_bytes.1 m := by
  intro c
  obtain ⟨_, h1, h2, h3, h4⟩ := C93_every_history xof rng st calls
  obtain ⟨_, g1, g2, g3⟩ := plain_origin (publicBytes xof) rng st calls
  have h5 : c.signing.map (fun k => k.to_bytes.1) = ((Plain.start st).run (publicBytes xof) rng calls).signing := by
    have := congrArg (List.map Prod.fst) h3
    rw [List.map_map, List.map_map] at this
    rw [← List.map_id (Plain.signing _)]
    exact this
  refine ⟨fun s hs => g1 _ ?_, fun k hk => g2 _ ?_, fun S hS => ?_⟩
  · rw [← h1]
    exact List.mem_map_of_mem hs
  · rw [← h5]
    exact List.mem_map_of_mem (f := fun k : SigningKey => k.to_bytes.1) hk
  · have h6 : S.as_slice ∈ c.signatures.map Signature.as_slice := List.mem_map_of_mem hS
    rw [show c.signatures.map Signature.as_slice = _ from h4] at h6
    obtain ⟨s, s1, s2⟩ := List.mem_map.mp h6
    obtain ⟨t1, i, t2⟩ := g3 s s1
    rw [← h5] at t1
    obtain ⟨k, k1, k2⟩ := List.mem_map.mp t1
    exact ⟨k, k1, i, s.2, t2, by rw [← s2, k2]⟩

/-! ## Threads -/

/-- The same for several threads: all of them hold what the description says, and the generator is where it says. -/
def ThreadsMatch {ι σ : Type} (xof : Xof) (t : Threads ι σ) (p : PlainThreads ι σ) : Prop :=
  ∀ i, Matches xof { t.held i with rng := t.rng } { p.held i with rng := p.rng }

theorem eraseIdx_map {α β : Type} (f : α → β) : ∀ (l : List α) (n : ℕ), (l.eraseIdx n).map f = (l.map f).eraseIdx n
  | [], _ => rfl
  | _ :: _, 0 => rfl
  | a :: l, n + 1 => congrArg (f a :: ·) (eraseIdx_map f l n)

theorem ThreadsMatch.step {ι σ : Type} [DecidableEq ι] {xof : Xof} {t : Threads ι σ} {p : PlainThreads ι σ} (h : ThreadsMatch xof t p) (rng : Rng σ) (a : Action ι) :
    ThreadsMatch xof (t.step xof rng a) (p.step (publicBytes xof) rng a) := by
  cases a with
  | call i c =>
    intro j
    have h1 := (h i).step rng c
    by_cases hj : j = i
    · subst hj
      simp only [Threads.step, PlainThreads.step, if_true, Function.update_self]
      exact h1
    · obtain ⟨_, k1, k2, k3, k4⟩ := h j
      simp only [Threads.step, PlainThreads.step, if_neg hj, Function.update_of_ne hj]
      exact ⟨h1.rng, k1, k2, k3, k4⟩
  | handSecret i j n =>
    intro k
    obtain ⟨k0, k1, k2, k3, k4⟩ := h k
    by_cases hk : k = j
    · subst hk
      simp only [Threads.step, PlainThreads.step, if_true, Function.update_self]
      refine ⟨k0, ?_, k2, k3, k4⟩
      show ((t.held k).secrets ++ (t.held i).secrets[n]?.toList).map _ = (p.held k).secrets ++ (p.held i).secrets[n]?.toList
      have e := (h i).secrets
      simp only at e k1
      rw [List.map_append, k1, ← e, List.getElem?_map]
      rcases (t.held i).secrets[n]? with _ | s <;> rfl
    · simp only [Threads.step, PlainThreads.step, if_neg hk, Function.update_of_ne hk]
      exact ⟨k0, k1, k2, k3, k4⟩
  | handVerifying i j n =>
    intro k
    obtain ⟨k0, k1, k2, k3, k4⟩ := h k
    by_cases hk : k = j
    · subst hk
      simp only [Threads.step, PlainThreads.step, if_true, Function.update_self]
      refine ⟨k0, k1, ?_, k3, k4⟩
      show ((t.held k).verifying ++ (t.held i).verifying[n]?.toList).map _ = (p.held k).verifying ++ (p.held i).verifying[n]?.toList
      have e := (h i).verifying
      simp only at e k2
      rw [List.map_append, k2, ← e, List.getElem?_map]
      rcases (t.held i).verifying[n]? with _ | s <;> rfl
    · simp only [Threads.step, PlainThreads.step, if_neg hk, Function.update_of_ne hk]
      exact ⟨k0, k1, k2, k3, k4⟩
  | handSigning i j n =>
    intro k
    obtain ⟨k0, k1, k2, k3, k4⟩ := h k
    by_cases hk : k = j
    · subst hk
      simp only [Threads.step, PlainThreads.step, if_true, Function.update_self]
      refine ⟨k0, k1, k2, ?_, k4⟩
      show ((t.held k).signing ++ (t.held i).signing[n]?.toList).map _ = ((p.held k).signing ++ (p.held i).signing[n]?.toList).map _
      have e := (h i).cases n
      simp only at e k3
      rw [List.map_append, List.map_append, k3]
      rcases e with ⟨e1, e2⟩ | ⟨x, e1, e2, e3⟩ <;> rw [e1, e2]
      · rfl
      · exact congrArg (fun y => _ ++ [(x.to_bytes.1, y)]) e3
    · simp only [Threads.step, PlainThreads.step, if_neg hk, Function.update_of_ne hk]
      exact ⟨k0, k1, k2, k3, k4⟩
  | handSignature i j n =>
    intro k
    obtain ⟨k0, k1, k2, k3, k4⟩ := h k
    have hl : ∀ k, (if k = i then (t.held k).signatures.eraseIdx n else (t.held k).signatures).map Signature.as_slice =
        ((Function.update p.held i { p.held i with signatures := (p.held i).signatures.eraseIdx n } k).signatures).map fun s => signedBytes xof s.1 s.2 := by
      intro k
      have e := (h k).signatures
      simp only at e
      by_cases hk : k = i
      · subst hk
        rw [if_pos rfl, Function.update_self, eraseIdx_map, e, eraseIdx_map]
      · rw [if_neg hk, Function.update_of_ne hk, e]
    have hf : ∀ k, { Function.update p.held i { p.held i with signatures := (p.held i).signatures.eraseIdx n } k with signatures := (p.held k).signatures } = p.held k := by
      intro k
      by_cases hk : k = i
      · subst hk
        rw [Function.update_self]
      · rw [Function.update_of_ne hk]
    have f1 := congrArg Plain.secrets (hf k)
    have f2 := congrArg Plain.verifying (hf k)
    have f3 := congrArg Plain.signing (hf k)
    simp only at f1 f2 f3 k1 k2 k3
    by_cases hk : k = j
    · subst hk
      simp only [Threads.step, PlainThreads.step, if_true, Function.update_self]
      refine ⟨k0, by rw [f1]; exact k1, by rw [f2]; exact k2, by rw [f3]; exact k3, ?_⟩
      simp only
      rw [List.map_append, List.map_append, hl k]
      have e := congrArg (fun l => l[n]?) (h i).signatures
      simp only [List.getElem?_map] at e
      rcases e1 : (t.held i).signatures[n]? with _ | x <;> rcases e2 : (p.held i).signatures[n]? with _ | y <;> rw [e1, e2] at e
      · rfl
      · cases e
      · cases e
      · exact congrArg (fun y => _ ++ [y]) (Option.some.inj e)
    · simp only [Threads.step, PlainThreads.step, if_neg hk, Function.update_of_ne hk]
      exact ⟨k0, by rw [f1]; exact k1, by rw [f2]; exact k2, by rw [f3]; exact k3, hl k⟩

/-- C93. The same for every schedule of several threads that share a generator and hand keys and signatures to each other. -/
theorem C93_every_schedule {ι σ : Type} [DecidableEq ι] (xof : Xof) (rng : Rng σ) (st : σ) (schedule : List (Action ι)) :
    ThreadsMatch xof ((Threads.start st).run xof rng schedule) ((PlainThreads.start st).run (publicBytes xof) rng schedule) := by
  have h : ∀ (s : List (Action ι)) (t : Threads ι σ) (p : PlainThreads ι σ), ThreadsMatch xof t p → ThreadsMatch xof (t.run xof rng s) (p.run (publicBytes xof) rng s) := by
    intro s
    induction s with
    | nil => exact fun t p h => h
    | cons a s ih => exact fun t p h => ih _ _ (h.step rng a)
  exact h schedule _ _ fun i => ⟨rfl, rfl, rfl, rfl, rfl⟩

/-! ## Concrete cases -/

/-- A program that reads a key, makes a signing key of it, asks for its keys and signs with it. -/
example (xof : Xof) : ∃ S : Signature,
    ((Client.start ()).run xof ⟨fun n _ => (⟨List.replicate n 0, by simp⟩, ())⟩
      [.secretFromBytes Witness.rfcKey.1, .secretFromBytes [1, 2], .signingFromSecret 0, .signingFromSecret 1, .signingRandom, .signPrehash 1 [5], .signPrehash 2 [6]]).signatures = [S] ∧
    S.as_slice = signedBytes xof (List.replicate 57 0) [5] := by
  have h := (C93_every_history xof ⟨fun n _ => (⟨List.replicate n 0, by simp⟩, ())⟩ ()
      [.secretFromBytes Witness.rfcKey.1, .secretFromBytes [1, 2], .signingFromSecret 0, .signingFromSecret 1, .signingRandom, .signPrehash 1 [5], .signPrehash 2 [6]]).signatures
  have e : ((Plain.start ()).run (publicBytes xof) ⟨fun n _ => (⟨List.replicate n 0, by simp⟩, ())⟩
      [.secretFromBytes Witness.rfcKey.1, .secretFromBytes [1, 2], .signingFromSecret 0, .signingFromSecret 1, .signingRandom, .signPrehash 1 [5], .signPrehash 2 [6]]).signatures =
      [(List.replicate 57 0, [5])] := by
    simp [Plain.run, Plain.start, Plain.step, taken, Witness.rfcKey.2]
  rw [e] at h
  obtain ⟨S, h1, h2⟩ := List.map_eq_singleton_iff.mp h
  exact ⟨S, h1, h2⟩

end Ed448
