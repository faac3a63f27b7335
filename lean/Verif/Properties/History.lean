import Verif.Model.Client
import Verif.Properties.Api
import Verif.Properties.Interop

/-!
# C78, C79: everything a program can get in any sequence of calls
-/

namespace Ed448

open Client

theorem gained_mem {α : Type} {r : Rust α} {a : α} : a ∈ gained r ↔ r = .ok a := by
  rcases r with e | b
  · simp [gained]
  · simp [gained, eq_comm]

theorem gainedOk_mem {α ε : Type} {r : Rust (Except ε α)} {a : α} : a ∈ gainedOk r ↔ r = .ok (.ok a) := by
  rcases r with e | e | b
  · simp [gainedOk]
  · simp [gainedOk]
  · simp [gainedOk, eq_comm]

/-- What a signature made with `k` for `m` looks like: the signature proper and the public key of `k`. -/
def MadeBy (xof : Xof) (k : SigningKey) (m : List Byte) (S : Signature) : Prop :=
  ∃ sig A, ed448_sign xof k.to_bytes m = .ok sig ∧ ed448_derive_public xof k.to_bytes = .ok A ∧ S.as_slice = sig.1 ++ A.1

/-- The invariant of all runs. -/
structure Client.Good {σ : Type} (xof : Xof) (c : Client σ) : Prop where
  keys : ∀ k ∈ c.signing, Obtained xof k
  signatures : ∀ S ∈ c.signatures, ∃ k ∈ c.signing, ∃ m, MadeBy xof k m S

theorem good_signing {σ : Type} {xof : Xof} {c : Client σ} (h : c.Good xof) (st : σ) {l : List SigningKey} (hl : ∀ k ∈ l, Obtained xof k) :
    Client.Good xof { c with rng := st, signing := c.signing ++ l } := by
  refine ⟨fun k hk => ?_, fun S hS => ?_⟩
  · rcases List.mem_append.mp hk with h1 | h1
    · exact h.keys k h1
    · exact hl k h1
  · obtain ⟨k, hk, m, hm⟩ := h.signatures S hS
    exact ⟨k, List.mem_append_left _ hk, m, hm⟩

theorem step_good {σ : Type} {xof : Xof} {rng : Rng σ} {c : Client σ} (h : c.Good xof) (call : Call) : (c.step xof rng call).Good xof := by
  cases call with
  | secretFromStr s => exact ⟨h.keys, h.signatures⟩
  | secretFromBytes b => exact ⟨h.keys, h.signatures⟩
  | secretDeserialize d => exact ⟨h.keys, h.signatures⟩
  | secretOf i => exact ⟨h.keys, h.signatures⟩
  | verifyingFromStr s => exact ⟨h.keys, h.signatures⟩
  | verifyingFromBytes b => exact ⟨h.keys, h.signatures⟩
  | verifyingDeserialize d => exact ⟨h.keys, h.signatures⟩
  | verifyingOf i => exact ⟨h.keys, h.signatures⟩
  | signingFromStr s => exact good_signing h c.rng fun k hk => .from_str (gained_mem.mp hk)
  | signingFromSlice b => exact good_signing h c.rng fun k hk => .from_slice (gained_mem.mp hk)
  | signingFromBytes b => exact good_signing h c.rng fun k hk => .from_bytes (gainedOk_mem.mp hk)
  | signingFromSecret i =>
    simp only [Client.step]
    split
    · exact good_signing h c.rng fun k hk => .from_secret (gained_mem.mp hk)
    · exact h
  | signingDeserialize d => exact good_signing h c.rng fun k hk => .deserialize (gainedOk_mem.mp hk)
  | signingRandom =>
    simp only [Client.step]
    split
    · next k st hk => exact good_signing h st fun k' hk' => by rw [List.mem_singleton.mp hk']; exact .random hk
    · exact h
  | signPrehash i m =>
    simp only [Client.step]
    split
    · next k hk =>
      have hmem : k ∈ c.signing := List.mem_of_getElem? hk
      refine ⟨h.keys, fun S hS => ?_⟩
      rcases List.mem_append.mp hS with h1 | h1
      · exact h.signatures S h1
      · obtain ⟨sig, S', s1, s2, _, s4⟩ := C26_prehash_layout xof k m
        rw [gainedOk_mem, s2] at h1
        injection h1 with h1
        injection h1 with h1
        subst h1
        exact ⟨k, hmem, m, sig, _, s1, C20_verifying_key xof k (h.keys k hmem), s4⟩
    · exact h

theorem run_good {σ : Type} {xof : Xof} {rng : Rng σ} (calls : List Call) : ∀ {c : Client σ}, c.Good xof → (c.run xof rng calls).Good xof := by
  induction calls with
  | nil => exact fun h => h
  | cons call calls ih => exact fun h => ih (step_good h call)

/-- C78. Whatever calls a program makes, in any order and number, with any arguments: every signing key it holds at the end carries the public key of its
secret; two signing keys with the same bytes are equal; and every signature it holds was made by one of its signing keys: it consists of the result of
`ed448_sign` for the bytes of that key and some message, and of the public key of that key. -/
theorem C78_every_history {σ : Type} (xof : Xof) (rng : Rng σ) (st : σ) (calls : List Call) :
    let c := (Client.start st).run xof rng calls
    (∀ k ∈ c.signing, ed448_derive_public xof k.to_bytes = .ok k.get_verifying_key.key) ∧
    (∀ k ∈ c.signing, ∀ k' ∈ c.signing, k.to_bytes = k'.to_bytes → k = k') ∧
    (∀ S ∈ c.signatures, ∃ k ∈ c.signing, ∃ m sig, ed448_sign xof k.to_bytes m = .ok sig ∧ S.as_slice = sig.1 ++ k.get_verifying_key.as_bytes) := by
  intro c
  have h : c.Good xof := run_good calls ⟨fun k hk => absurd hk (by simp [Client.start]), fun S hS => absurd hS (by simp [Client.start])⟩
  refine ⟨fun k hk => C20_verifying_key xof k (h.keys k hk), fun k hk k' hk' e => (C45_deterministic xof k k' (h.keys k hk) (h.keys k' hk') e []).1,
    fun S hS => ?_⟩
  obtain ⟨k, hk, m, sig, A, h1, h2, h3⟩ := h.signatures S hS
  have := C20_verifying_key xof k (h.keys k hk)
  rw [h2] at this
  injection this with this
  subst this
  exact ⟨k, hk, m, sig, h1, h3⟩

/-- A program that makes a key from bytes, takes out its secret, makes a key from that, refuses a string of the wrong length, and signs. -/
example (xof : Xof) (rng : Rng Unit) (b : Arr Byte 57) : ∃ k S, (Client.start ()).run xof rng
    [.signingFromSlice b.1, .secretOf 0, .signingFromSecret 0, .signingFromBytes [1, 2], .signPrehash 1 [3]] =
      ⟨(), [k.get_secret_key], [], [k, k], [S]⟩ := by
  obtain ⟨A, _, h1, _⟩ := from_slice_spec (xof := xof) b.2
  obtain ⟨sig, S, _, h2, _⟩ := C26_prehash_layout xof ⟨⟨b⟩, ⟨A⟩⟩ [3]
  refine ⟨⟨⟨b⟩, ⟨A⟩⟩, S, ?_⟩
  have h3 : SigningKey.from_bytes xof [1, 2] = .ok (.error (.InvalidPrivKeyLengthErrro 2)) := (from_slice_bad (by decide)).2
  have h4 : SigningKey.fromSecretKey xof ⟨b⟩ = .ok ⟨⟨b⟩, ⟨A⟩⟩ := h1
  simp only [Client.run, Client.start, List.foldl_cons, List.foldl_nil, Client.step, h1, gained, List.nil_append, List.getElem?_cons_zero,
    Option.map_some, Option.toList_some, SigningKey.get_secret_key, h4, List.cons_append, h3, gainedOk, List.append_nil, List.getElem?_cons_succ, h2]

/-- C78. Keys and signatures that a program holds never change or disappear: later calls only add to them. -/
theorem C78_only_added {σ : Type} (xof : Xof) (rng : Rng σ) (calls : List Call) : ∀ c : Client σ,
    let c' := c.run xof rng calls
    c.secrets <+: c'.secrets ∧ c.verifying <+: c'.verifying ∧ c.signing <+: c'.signing ∧ c.signatures <+: c'.signatures := by
  have hstep : ∀ (c : Client σ) (call : Call), c.secrets <+: (c.step xof rng call).secrets ∧ c.verifying <+: (c.step xof rng call).verifying ∧
      c.signing <+: (c.step xof rng call).signing ∧ c.signatures <+: (c.step xof rng call).signatures := by
    intro c call
    have hs := List.prefix_append c.secrets
    have hv := List.prefix_append c.verifying
    have hk := List.prefix_append c.signing
    have hg := List.prefix_append c.signatures
    have rs := List.prefix_refl c.secrets
    have rv := List.prefix_refl c.verifying
    have rk := List.prefix_refl c.signing
    have rg := List.prefix_refl c.signatures
    cases call <;> simp only [Client.step] <;> (try split) <;> exact ⟨by first | exact hs _ | exact rs, by first | exact hv _ | exact rv,
      by first | exact hk _ | exact rk, by first | exact hg _ | exact rg⟩
  induction calls with
  | nil => exact fun c => ⟨List.prefix_refl _, List.prefix_refl _, List.prefix_refl _, List.prefix_refl _⟩
  | cons call calls ih =>
    intro c
    obtain ⟨a1, a2, a3, a4⟩ := hstep c call
    obtain ⟨b1, b2, b3, b4⟩ := ih (c.step xof rng call)
    exact ⟨a1.trans b1, a2.trans b2, a3.trans b3, a4.trans b4⟩

/-- C79. With a generator that delivers the bytes of a stream one after the other: in every history, whatever other calls are made in between, the
calls of `SigningKey::random` use consecutive blocks of 57 bytes, and no other call uses the generator. -/
theorem C79_random_blocks (xof : Xof) (stream : ℕ → Byte) (rng : Rng ℕ)
    (hrng : ∀ n pos, (rng.fill_bytes n pos).1.1 = (List.range n).map (fun i => stream (pos + i)) ∧ (rng.fill_bytes n pos).2 = pos + n)
    (before : List Call) :
    let n := before.countP fun c => match c with | .signingRandom => true | _ => false
    let c := (Client.start 0).run xof rng before
    c.rng = 57 * n ∧ ∃ k, (c.step xof rng .signingRandom).signing = c.signing ++ [k] ∧
      k.to_bytes.1 = (List.range 57).map (fun j => stream (57 * n + j)) := by
  intro n c
  have hstep : ∀ (c : Client ℕ) (call : Call), (c.step xof rng call).rng = c.rng + 57 * (if (match call with | .signingRandom => true | _ => false) then 1 else 0) := by
    intro c call
    cases call with
    | signingRandom =>
      obtain ⟨_, k, h1, _⟩ := C44_random xof rng c.rng
      simp only [Client.step, h1, (hrng 57 c.rng).2]
      rfl
    | signingFromSecret i => simp only [Client.step]; split <;> rfl
    | signPrehash i m => simp only [Client.step]; split <;> rfl
    | _ => rfl
  have hrun : ∀ (calls : List Call) (c : Client ℕ), (c.run xof rng calls).rng =
      c.rng + 57 * calls.countP fun c => match c with | .signingRandom => true | _ => false := by
    intro calls
    induction calls with
    | nil => exact fun c => rfl
    | cons call calls ih =>
      intro c
      rw [Client.run, List.foldl_cons, ← Client.run, ih, hstep, List.countP_cons]
      omega
  have hc : c.rng = 57 * n := by
    show ((Client.start 0).run xof rng before).rng = _
    rw [hrun]
    simp [Client.start, n]
  refine ⟨hc, ?_⟩
  obtain ⟨_, k, h1, h2, _⟩ := C44_random xof rng c.rng
  refine ⟨k, ?_, ?_⟩
  · simp only [Client.step, h1]
  · rw [h2, (hrng 57 c.rng).1, hc]

/-- Such a generator. -/
example (stream : ℕ → Byte) : ∃ rng : Rng ℕ, ∀ n pos, (rng.fill_bytes n pos).1.1 = (List.range n).map (fun i => stream (pos + i)) ∧
    (rng.fill_bytes n pos).2 = pos + n :=
  ⟨⟨fun n pos => (⟨(List.range n).map (fun i => stream (pos + i)), by simp⟩, pos + n)⟩, fun _ _ => ⟨rfl, rfl⟩⟩

end Ed448
