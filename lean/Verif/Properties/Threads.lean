import Verif.Model.Threads
import Verif.Properties.History
import Verif.Spec.Threads

/-!
# C84: every schedule of several threads
-/

namespace Ed448

open Client

variable {ι σ : Type} [DecidableEq ι]

/-- The invariant of all schedules. -/
structure Threads.Good (xof : Xof) (t : Threads ι σ) : Prop where
  keys : ∀ i, ∀ k ∈ (t.held i).signing, Obtained xof k
  signatures : ∀ i, ∀ S ∈ (t.held i).signatures, ∃ j, ∃ k ∈ (t.held j).signing, ∃ m, MadeBy xof k m S

/-- What one call adds. -/
theorem step_new (xof : Xof) (rng : Rng σ) (c : Client σ) (call : Call) (hk : ∀ k ∈ c.signing, Obtained xof k) :
    (∀ k ∈ (c.step xof rng call).signing, Obtained xof k) ∧
    (∀ S ∈ (c.step xof rng call).signatures, S ∈ c.signatures ∨ ∃ k ∈ c.signing, ∃ m, MadeBy xof k m S) := by
  have h0 : Client.Good xof { c with signatures := [] } := ⟨hk, fun S hS => absurd hS (by simp)⟩
  have h1 := step_good (rng := rng) h0 call
  have e1 : ({ c with signatures := [] } : Client σ).step xof rng call = { c.step xof rng call with
      signatures := (({ c with signatures := [] } : Client σ).step xof rng call).signatures } := by
    cases call <;> simp only [Client.step] <;> (try split) <;> rfl
  have e2 : (c.step xof rng call).signatures = c.signatures ++ (({ c with signatures := [] } : Client σ).step xof rng call).signatures ∧
      ((({ c with signatures := [] } : Client σ).step xof rng call).signatures ≠ [] → (c.step xof rng call).signing = c.signing) := by
    cases call <;> simp only [Client.step] <;> (try split) <;> simp
  constructor
  · intro k hk
    have := h1.keys k
    rw [e1] at this
    exact this hk
  · intro S hS
    rw [e2.1, List.mem_append] at hS
    rcases hS with hS | hS
    · exact Or.inl hS
    · obtain ⟨k, hk, m, hm⟩ := h1.signatures S hS
      rw [e1] at hk
      have hk : k ∈ (c.step xof rng call).signing := hk
      rw [e2.2 (List.ne_nil_of_mem hS)] at hk
      exact Or.inr ⟨k, hk, m, hm⟩

theorem threads_step_good {xof : Xof} {rng : Rng σ} {t : Threads ι σ} (h : t.Good xof) (e : Action ι) : (t.step xof rng e).Good xof := by
  cases e with
  | call i c =>
    obtain ⟨h1, h2⟩ := step_new xof rng { t.held i with rng := t.rng } c (h.keys i)
    have hold : ∀ j, ∀ k ∈ (t.held j).signing, k ∈ ((t.step xof rng (.call i c)).held j).signing := by
      intro j k hk
      simp only [Threads.step]
      split
      · next hj =>
        subst hj
        exact (C78_only_added xof rng [c] { t.held j with rng := t.rng }).2.2.1.subset hk
      · exact hk
    refine ⟨fun j k hk => ?_, fun j S hS => ?_⟩
    · simp only [Threads.step] at hk
      split at hk
      · exact h1 k hk
      · exact h.keys j k hk
    · have : S ∈ (t.held j).signatures ∨ ∃ k ∈ (t.held i).signing, ∃ m, MadeBy xof k m S := by
        simp only [Threads.step] at hS
        split at hS
        · next hj =>
          subst hj
          exact h2 S hS
        · exact Or.inl hS
      rcases this with h3 | ⟨k, hk, hm⟩
      · obtain ⟨l, k, hk, hm⟩ := h.signatures j S h3
        exact ⟨l, k, hold l k hk, hm⟩
      · exact ⟨i, k, hold i k hk, hm⟩
  | handSecret i j n =>
    have e : ∀ k, ((t.step xof rng (.handSecret i j n)).held k).signing = (t.held k).signing ∧
        ((t.step xof rng (.handSecret i j n)).held k).signatures = (t.held k).signatures := by
      intro k
      simp only [Threads.step]
      split <;> exact ⟨rfl, rfl⟩
    refine ⟨fun k => by rw [(e k).1]; exact h.keys k, fun k S hS => ?_⟩
    rw [(e k).2] at hS
    obtain ⟨l, K, hK, hm⟩ := h.signatures k S hS
    exact ⟨l, K, by rw [(e l).1]; exact hK, hm⟩
  | handVerifying i j n =>
    have e : ∀ k, ((t.step xof rng (.handVerifying i j n)).held k).signing = (t.held k).signing ∧
        ((t.step xof rng (.handVerifying i j n)).held k).signatures = (t.held k).signatures := by
      intro k
      simp only [Threads.step]
      split <;> exact ⟨rfl, rfl⟩
    refine ⟨fun k => by rw [(e k).1]; exact h.keys k, fun k S hS => ?_⟩
    rw [(e k).2] at hS
    obtain ⟨l, K, hK, hm⟩ := h.signatures k S hS
    exact ⟨l, K, by rw [(e l).1]; exact hK, hm⟩
  | handSigning i j n =>
    refine ⟨fun l k hk => ?_, fun l S hS => ?_⟩
    · simp only [Threads.step] at hk
      split at hk
      · rcases List.mem_append.mp hk with h1 | h1
        · exact h.keys l k h1
        · exact h.keys i k (List.mem_of_getElem? (Option.mem_toList.mp h1))
      · exact h.keys l k hk
    · have hS' : S ∈ (t.held l).signatures := by
        simp only [Threads.step] at hS
        split at hS <;> exact hS
      obtain ⟨l', k, hk, hm⟩ := h.signatures l S hS'
      refine ⟨l', k, ?_, hm⟩
      simp only [Threads.step]
      split
      · exact List.mem_append_left _ hk
      · exact hk
  | handSignature i j n =>
    refine ⟨fun l k hk => h.keys l k hk, fun l S hS => ?_⟩
    have hS' : ∃ l, S ∈ (t.held l).signatures := by
      have hleft : S ∈ (if l = i then (t.held l).signatures.eraseIdx n else (t.held l).signatures) → S ∈ (t.held l).signatures := by
        split
        · exact fun hx => (List.eraseIdx_sublist _ _).subset hx
        · exact fun hx => hx
      simp only [Threads.step] at hS
      split at hS
      · rcases List.mem_append.mp hS with h1 | h1
        · exact ⟨l, hleft h1⟩
        · exact ⟨i, List.mem_of_getElem? (Option.mem_toList.mp h1)⟩
      · exact ⟨l, hleft hS⟩
    obtain ⟨l', hl'⟩ := hS'
    exact h.signatures l' S hl'

theorem threads_run_good {xof : Xof} {rng : Rng σ} (schedule : List (Action ι)) :
    ∀ {t : Threads ι σ}, t.Good xof → (t.run xof rng schedule).Good xof := by
  induction schedule with
  | nil => exact fun h => h
  | cons e schedule ih => exact fun h => ih (threads_step_good h e)

/-- C84. Whatever the threads do, in any order, and whatever they hand to each other: every signing key that a thread holds carries the public key of its
secret; signing keys with the same bytes, also of different threads, are equal; and every signature was made by a signing key that some thread holds. -/
theorem C84_every_schedule (xof : Xof) (rng : Rng σ) (st : σ) (schedule : List (Action ι)) :
    let t := (Threads.start st : Threads ι σ).run xof rng schedule
    (∀ i, ∀ k ∈ (t.held i).signing, ed448_derive_public xof k.to_bytes = .ok k.get_verifying_key.key) ∧
    (∀ i j, ∀ k ∈ (t.held i).signing, ∀ k' ∈ (t.held j).signing, k.to_bytes = k'.to_bytes → k = k') ∧
    (∀ i, ∀ S ∈ (t.held i).signatures, ∃ j, ∃ k ∈ (t.held j).signing, ∃ m sig, ed448_sign xof k.to_bytes m = .ok sig ∧
      S.as_slice = sig.1 ++ k.get_verifying_key.as_bytes) := by
  intro t
  have h : t.Good xof := threads_run_good schedule
    ⟨fun i k hk => absurd hk (by simp [Threads.start, Client.start]), fun i S hS => absurd hS (by simp [Threads.start, Client.start])⟩
  refine ⟨fun i k hk => C20_verifying_key xof k (h.keys i k hk),
    fun i j k hk k' hk' e => (C45_deterministic xof k k' (h.keys i k hk) (h.keys j k' hk') e []).1, fun i S hS => ?_⟩
  obtain ⟨j, k, hk, m, sig, A, h1, h2, h3⟩ := h.signatures i S hS
  have := C20_verifying_key xof k (h.keys j k hk)
  rw [h2] at this
  injection this with this
  subst this
  exact ⟨j, k, hk, m, sig, h1, h3⟩

/-- C84. After every schedule, each signature that a thread holds is, for some message, a valid signature in the sense of RFC 8032 under the public key that
it carries; the verification of this library says so too, both for its first 114 bytes and for all of it, unless its decoder rejects the key or the first
half of the signature (C05). -/
theorem C84_signatures_valid (xof : Xof) (rng : Rng σ) (st : σ) (schedule : List (Action ι)) :
    let t := (Threads.start st : Threads ι σ).run xof rng schedule
    ∀ i, ∀ S ∈ (t.held i).signatures, ∃ m, RFC.Valid xof (S.as_slice.drop 114) m (S.as_slice.take 114) ∧
      (Accepted (S.as_slice.drop 114) → Accepted (S.as_slice.take 57) →
        ed448_verify xof (S.as_slice.drop 114) (S.as_slice.take 114) m = .ok (.ok true) ∧ ed448_verify xof (S.as_slice.drop 114) S.as_slice m = .ok (.ok true)) := by
  intro t i S hS
  have h : t.Good xof := threads_run_good schedule
    ⟨fun i k hk => absurd hk (by simp [Threads.start, Client.start]), fun i S hS => absurd hS (by simp [Threads.start, Client.start])⟩
  obtain ⟨j, k, hk, m, sig, A, h1, h2, h3⟩ := h.signatures i S hS
  obtain ⟨S', s1, s2, _⟩ := C27_prehash_verifies_partial xof k (h.keys j k hk) m
  obtain ⟨sig', S'', g1, g2, _, g4⟩ := C26_prehash_layout xof k m
  obtain rfl : S' = S'' := Except.ok.inj (Except.ok.inj (s1.symm.trans g2))
  obtain rfl : sig' = sig := Except.ok.inj (g1.symm.trans h1)
  obtain rfl : A = k.get_verifying_key.key := Except.ok.inj (h2.symm.trans (C20_verifying_key xof k (h.keys j k hk)))
  have e : S.as_slice = S'.as_slice := h3.trans g4.symm
  rw [← e] at s2
  refine ⟨m, ?_, s2⟩
  obtain ⟨A', sig'', a1, a2, a3, _⟩ := C57_valid_elsewhere xof k.to_bytes m
  obtain rfl := Except.ok.inj (a1.symm.trans h2)
  obtain rfl := Except.ok.inj (a2.symm.trans h1)
  rw [h3, List.drop_left' sig''.2, List.take_left' sig''.2]
  exact a3

/-- Two clients that hold the same, whatever their generators are. -/
structure Client.Same {σ τ : Type} (c : Client σ) (c' : Client τ) : Prop where
  secrets : c.secrets = c'.secrets
  verifying : c.verifying = c'.verifying
  signing : c.signing = c'.signing
  signatures : c.signatures = c'.signatures

theorem same_step {σ τ : Type} (xof : Xof) {rng : Rng σ} {rng' : Rng τ} {c : Client σ} {c' : Client τ} (h : c.Same c') (call : Call)
    (hr : isRandom call = true → (rng.fill_bytes 57 c.rng).1 = (rng'.fill_bytes 57 c'.rng).1) :
    (c.step xof rng call).Same (c'.step xof rng' call) ∧
    (c.step xof rng call).rng = (if isRandom call = true then (rng.fill_bytes 57 c.rng).2 else c.rng) ∧
    (c'.step xof rng' call).rng = (if isRandom call = true then (rng'.fill_bytes 57 c'.rng).2 else c'.rng) := by
  obtain ⟨st, a, b, d, e⟩ := c
  obtain ⟨st', a', b', d', e'⟩ := c'
  obtain ⟨h1, h2, h3, h4⟩ := h
  simp only at h1 h2 h3 h4
  subst h1 h2 h3 h4
  cases call with
  | signingRandom =>
    have hr := hr rfl
    simp only at hr
    obtain ⟨_, k, h1, h2, h3⟩ := C44_random xof rng st
    obtain ⟨_, k', h1', h2', h3'⟩ := C44_random xof rng' st'
    have hk : k = k' := by
      rw [hr, h3'] at h3
      injection h3 with h3
      obtain ⟨⟨x⟩, ⟨y⟩⟩ := k
      obtain ⟨⟨x'⟩, ⟨y'⟩⟩ := k'
      have e1 : x = x' := h2.trans (hr.trans h2'.symm)
      have e2 : y' = y := h3
      rw [e1, e2]
    simp only [Client.step, h1, h1', hk]
    exact ⟨⟨rfl, rfl, rfl, rfl⟩, rfl, rfl⟩
  | signingFromSecret i => simp only [Client.step]; split <;> exact ⟨⟨rfl, rfl, rfl, rfl⟩, rfl, rfl⟩
  | signPrehash i m => simp only [Client.step]; split <;> exact ⟨⟨rfl, rfl, rfl, rfl⟩, rfl, rfl⟩
  | _ => exact ⟨⟨rfl, rfl, rfl, rfl⟩, rfl, rfl⟩

theorem tape_first (l l' : List Byte) (h : l.length = 57) : (tapeRng.fill_bytes 57 (l ++ l')).1.1 = l ∧ (tapeRng.fill_bytes 57 (l ++ l')).2 = l' := by
  refine ⟨?_, ?_⟩
  · show List.take 57 (l ++ l' ++ List.replicate 57 0) = l
    rw [List.append_assoc, List.take_left' h]
  · show List.drop 57 (l ++ l') = l'
    rw [List.drop_left' h]

theorem alone_from (xof : Xof) (stream : ℕ → Byte) (rng : Rng ℕ)
    (hrng : ∀ n pos, (rng.fill_bytes n pos).1.1 = (List.range n).map (fun i => stream (pos + i)) ∧ (rng.fill_bytes n pos).2 = pos + n) (i : ι)
    (s : List (ι × Call)) : ∀ (t : Threads ι ℕ) (c : Client (List Byte)) (n : ℕ), t.rng = 57 * n → (t.held i).Same c →
      c.rng = (ownBlocks i n (randomOrder s)).flatMap (block stream) →
      (t.run xof rng (s.map fun e => .call e.1 e.2)).rng = 57 * (n + (randomOrder s).length) ∧
      ((t.run xof rng (s.map fun e => .call e.1 e.2)).held i).Same (c.run xof tapeRng (ownCalls i s)) := by
  induction s with
  | nil => exact fun t c n h1 h2 h3 => ⟨h1, h2⟩
  | cons e s ih =>
    intro t c n h1 h2 h3
    obtain ⟨j, call⟩ := e
    have hpos : (t.step xof rng (.call j call)).rng = 57 * (n + if isRandom call = true then 1 else 0) := by
      have := (same_step xof (rng := rng) (rng' := rng) (c := { t.held j with rng := t.rng }) (c' := { t.held j with rng := t.rng }) ⟨rfl, rfl, rfl, rfl⟩
        call fun _ => rfl).2.1
      simp only [Threads.step, this]
      split
      · rw [(hrng 57 _).2, h1]; omega
      · rw [h1]; omega
    have horder : randomOrder ((j, call) :: s) = (if isRandom call = true then [j] else []) ++ randomOrder s := by
      by_cases hc : isRandom call = true <;> simp [randomOrder, hc]
    have hlen : n + (randomOrder ((j, call) :: s)).length = (n + if isRandom call = true then 1 else 0) + (randomOrder s).length := by
      rw [horder]
      split
      · simp; omega
      · simp
    rw [List.map_cons, Threads.run, List.foldl_cons, ← Threads.run, hlen]
    by_cases hj : j = i
    · subst hj
      have hown : ownCalls j ((j, call) :: s) = call :: ownCalls j s := by simp [ownCalls]
      rw [hown, Client.run, List.foldl_cons, ← Client.run]
      have hheld : (t.step xof rng (.call j call)).held j = Client.step xof rng { t.held j with rng := t.rng } call := by simp [Threads.step]
      have hsame : Client.Same { t.held j with rng := t.rng } c := ⟨h2.1, h2.2, h2.3, h2.4⟩
      have hblock : isRandom call = true → c.rng = block stream n ++ (ownBlocks j (n + 1) (randomOrder s)).flatMap (block stream) := by
        intro hc
        rw [h3, horder, if_pos hc]
        simp [ownBlocks, List.zipIdx_cons]
      obtain ⟨g1, _, g3⟩ := same_step xof (rng := rng) (rng' := tapeRng) hsame call fun hc => by
        apply Subtype.ext
        rw [hblock hc, (tape_first _ _ (by simp [block])).1, (hrng 57 _).1, block]
        simp only [h1]
      refine ih _ _ _ hpos (hheld ▸ g1) ?_
      rw [g3]
      by_cases hc : isRandom call = true
      · rw [if_pos hc, if_pos hc, hblock hc, (tape_first _ _ (by simp [block])).2]
      · rw [if_neg hc, if_neg hc, h3, horder, if_neg hc]
        rfl
    · have hown : ownCalls i ((j, call) :: s) = ownCalls i s := by simp [ownCalls, hj]
      rw [hown]
      have hheld : (t.step xof rng (.call j call)).held i = t.held i := by simp [Threads.step, Ne.symm hj]
      refine ih _ _ _ hpos (by rw [hheld]; exact h2) ?_
      rw [h3, horder]
      by_cases hc : isRandom call = true
      · rw [if_pos hc, if_pos hc]
        simp [ownBlocks, List.zipIdx_cons, hj]
      · rw [if_neg hc, if_neg hc]
        rfl

/-- C84. What a thread gets does not depend on the others, for any number of threads and every order of their calls: it is what it would get alone,
with the generator delivering the blocks of 57 bytes that the calls of `SigningKey::random` of this thread have drawn. The blocks are numbered in the order
of these calls of all threads; no block is used twice and none is left out. -/
theorem C84_alone (xof : Xof) (stream : ℕ → Byte) (rng : Rng ℕ)
    (hrng : ∀ n pos, (rng.fill_bytes n pos).1.1 = (List.range n).map (fun i => stream (pos + i)) ∧ (rng.fill_bytes n pos).2 = pos + n)
    (s : List (ι × Call)) :
    let t := (Threads.start 0 : Threads ι ℕ).run xof rng (s.map fun e => .call e.1 e.2)
    (∀ i, let c := (Client.start ((ownBlocks i 0 (randomOrder s)).flatMap (block stream))).run xof tapeRng (ownCalls i s)
      (t.held i).secrets = c.secrets ∧ (t.held i).verifying = c.verifying ∧ (t.held i).signing = c.signing ∧ (t.held i).signatures = c.signatures) ∧
    t.rng = 57 * (randomOrder s).length ∧
    (∀ b < (randomOrder s).length, ∃! i, b ∈ ownBlocks i 0 (randomOrder s)) ∧
    ∀ i, (ownBlocks i 0 (randomOrder s)).Nodup := by
  intro t
  have hf : ∀ i, _ := fun i => alone_from xof stream rng hrng i s (Threads.start 0)
    (Client.start ((ownBlocks i 0 (randomOrder s)).flatMap (block stream))) 0 rfl ⟨rfl, rfl, rfl, rfl⟩ rfl
  have hmem : ∀ i b, b ∈ ownBlocks i 0 (randomOrder s) ↔ (randomOrder s)[b]? = some i := by
    intro i b
    simp only [ownBlocks, List.mem_map, List.mem_filter, decide_eq_true_eq, Prod.exists, List.mem_zipIdx_iff_getElem?]
    constructor
    · rintro ⟨a, b', ⟨h1, h2⟩, h3⟩
      subst h2 h3
      exact h1
    · exact fun h => ⟨i, b, ⟨h, rfl⟩, rfl⟩
  refine ⟨fun i => ?_, ?_, fun b hb => ?_, fun i => ?_⟩
  · obtain ⟨h1, h2, h3, h4⟩ := (hf i).2
    exact ⟨h1, h2, h3, h4⟩
  · rcases s with _ | ⟨e, s⟩
    · rfl
    · have := (hf e.1).1
      rw [Nat.zero_add] at this
      exact this
  · refine ⟨(randomOrder s)[b], ?_, fun j hj => ?_⟩
    · exact (hmem _ _).mpr (List.getElem?_eq_getElem hb)
    · have := (hmem _ _).mp hj
      rw [List.getElem?_eq_getElem hb] at this
      exact (Option.some.inj this).symm
  · have hz : ((randomOrder s).zipIdx.map Prod.snd).Nodup := by
      rw [List.zipIdx_map_snd]
      exact List.nodup_range'
    exact (List.filter_sublist.map Prod.snd).nodup hz

/-- C84. The results of a thread that draws no random keys do not depend on the others or on the generator. -/
theorem C84_no_random (xof : Xof) (stream : ℕ → Byte) (rng : Rng ℕ)
    (hrng : ∀ n pos, (rng.fill_bytes n pos).1.1 = (List.range n).map (fun i => stream (pos + i)) ∧ (rng.fill_bytes n pos).2 = pos + n)
    (s s' : List (ι × Call)) (i : ι) (hs : ownCalls i s = ownCalls i s') (hr : ∀ c ∈ ownCalls i s, isRandom c = false) :
    let t := (Threads.start 0 : Threads ι ℕ).run xof rng (s.map fun e => .call e.1 e.2)
    let t' := (Threads.start 0 : Threads ι ℕ).run xof rng (s'.map fun e => .call e.1 e.2)
    (t.held i).secrets = (t'.held i).secrets ∧ (t.held i).verifying = (t'.held i).verifying ∧ (t.held i).signing = (t'.held i).signing ∧
      (t.held i).signatures = (t'.held i).signatures := by
  have hnone : ∀ s : List (ι × Call), (∀ c ∈ ownCalls i s, isRandom c = false) → ownBlocks i 0 (randomOrder s) = [] := by
    intro s hr
    rw [List.eq_nil_iff_forall_not_mem]
    intro b hb
    simp only [ownBlocks, List.mem_map, List.mem_filter, decide_eq_true_eq, Prod.exists, List.mem_zipIdx_iff_getElem?] at hb
    obtain ⟨a, b', ⟨h1, h2⟩, h3⟩ := hb
    have hm := List.mem_of_getElem? h1
    simp only [randomOrder, List.mem_map, List.mem_filter, Prod.exists] at hm
    obtain ⟨j, c, ⟨hm, hc⟩, hj⟩ := hm
    have := hr c (by
      simp only [ownCalls, List.mem_map, List.mem_filter, decide_eq_true_eq, Prod.exists]
      exact ⟨j, c, ⟨hm, hj.trans h2⟩, rfl⟩)
    rw [hc] at this
    cases this
  have h1 := (C84_alone xof stream rng hrng s).1 i
  have h2 := (C84_alone xof stream rng hrng s').1 i
  rw [hnone s hr] at h1
  rw [hnone s' (hs ▸ hr), ← hs] at h2
  exact ⟨h1.1.trans h2.1.symm, h1.2.1.trans h2.2.1.symm, h1.2.2.1.trans h2.2.2.1.symm, h1.2.2.2.trans h2.2.2.2.symm⟩

/-- Two threads; the second draws between the two draws of the first: the first has the blocks 0 and 2. -/
example : randomOrder [(true, .signingRandom), (false, .signingRandom), (false, .secretOf 0), (true, .signingRandom)] = [true, false, true] ∧
    ownBlocks true 0 [true, false, true] = [0, 2] ∧ ownBlocks false 0 [true, false, true] = [1] ∧
    ownCalls false [(true, .signingRandom), (false, .signingRandom), (false, .secretOf 0), (true, .signingRandom)] = [.signingRandom, .secretOf 0] :=
  ⟨rfl, rfl, rfl, rfl⟩

/-- A generator as required. -/
example (stream : ℕ → Byte) : ∃ rng : Rng ℕ, ∀ n pos, (rng.fill_bytes n pos).1.1 = (List.range n).map (fun i => stream (pos + i)) ∧
    (rng.fill_bytes n pos).2 = pos + n :=
  ⟨⟨fun n pos => (⟨(List.range n).map (fun i => stream (pos + i)), by simp⟩, pos + n)⟩, fun _ _ => ⟨rfl, rfl⟩⟩

/-- One thread makes a key and hands it to another, which signs and gives the signature to the first. -/
example (xof : Xof) (rng : Rng Unit) (b : Arr Byte 57) : ∃ k S,
    let t := (Threads.start () : Threads Bool Unit).run xof rng [.call true (.signingFromSlice b.1), .handSigning true false 0,
      .call false (.signPrehash 0 [3]), .handSignature false true 0]
    (t.held true).signing = [k] ∧ (t.held true).signatures = [S] ∧ (t.held false).signing = [k] ∧ (t.held false).signatures = [] := by
  obtain ⟨A, _, h1, _⟩ := from_slice_spec (xof := xof) b.2
  obtain ⟨sig, S, _, h2, _⟩ := C26_prehash_layout xof ⟨⟨b⟩, ⟨A⟩⟩ [3]
  refine ⟨⟨⟨b⟩, ⟨A⟩⟩, S, ?_⟩
  have h3 : SigningKey.sign_prehash xof ⟨⟨b⟩, ⟨A⟩⟩ [3#8] = .ok (.ok S) := h2
  simp [Threads.run, Threads.start, Threads.step, Client.start, Client.step, h1, h3, gained, gainedOk]

end Ed448
