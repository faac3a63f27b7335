import Verif.Math.Forking
import Verif.Spec.Forger
import Verif.Properties.Forgery

/-!
# C86: a forger can be used to find the secret
-/

namespace Ed448

set_option exponentiation.threshold 1000

/-! ## The game -/

theorem value_some {t : Table} {s : List Byte} {o : Out} (h : t.lookup s = some o) (f : Out) : value t s f = o := by rw [value, h]; rfl

theorem value_none {t : Table} {s : List Byte} (h : t.lookup s = none) (f : Out) : value t s f = f := by rw [value, h]; rfl

theorem lookup_append_some {t t' : Table} {s : List Byte} {o : Out} (h : t.lookup s = some o) : (t ++ t').lookup s = some o := by
  rw [List.lookup_append, h]; rfl

theorem lookup_append_none {t t' : Table} {s : List Byte} (h : t.lookup s = none) : (t ++ t').lookup s = t'.lookup s := by
  rw [List.lookup_append, h]; rfl

theorem play_congr (F : Forger) (S : ℕ → Signer) {h h' : ℕ → Out} : ∀ n, (∀ i < n, h i = h' i) → play F S h n = play F S h' n
  | 0, _ => rfl
  | n + 1, e => by rw [play, play, play_congr F S n (fun i hi => e i (by omega)), e n (by omega)]

theorem round_table (F : Forger) (S : Signer) (f : Out) (g : Game) : ∃ t, (g.round F S f).table = g.table ++ t := by
  rw [Game.round]
  split
  · exact ⟨_, rfl⟩
  · split
    · exact ⟨[], by simp⟩
    · exact ⟨_, rfl⟩

theorem round_signed (F : Forger) (S : Signer) (f : Out) (g : Game) : ∃ t, (g.round F S f).signed = g.signed ++ t := by
  rw [Game.round]
  split
  · exact ⟨[], by simp⟩
  · split
    · exact ⟨[], by simp⟩
    · exact ⟨_, rfl⟩

theorem play_table (F : Forger) (S : ℕ → Signer) (h : ℕ → Out) {i n : ℕ} (hi : i ≤ n) : ∃ t, (play F S h n).table = (play F S h i).table ++ t := by
  induction n with
  | zero => exact ⟨[], by rw [show i = 0 by omega, List.append_nil]⟩
  | succ n ih =>
    rcases Nat.lt_or_ge n i with hn | hn
    · exact ⟨[], by rw [show i = n + 1 by omega, List.append_nil]⟩
    · obtain ⟨t, ht⟩ := ih hn
      obtain ⟨t', ht'⟩ := round_table F (S n) (h n) (play F S h n)
      exact ⟨t ++ t', by rw [play, ht', ht, List.append_assoc]⟩

theorem play_signed (F : Forger) (S : ℕ → Signer) (h : ℕ → Out) {i n : ℕ} (hi : i ≤ n) : ∃ t, (play F S h n).signed = (play F S h i).signed ++ t := by
  induction n with
  | zero => exact ⟨[], by rw [show i = 0 by omega, List.append_nil]⟩
  | succ n ih =>
    rcases Nat.lt_or_ge n i with hn | hn
    · exact ⟨[], by rw [show i = n + 1 by omega, List.append_nil]⟩
    · obtain ⟨t, ht⟩ := ih hn
      obtain ⟨t', ht'⟩ := round_signed F (S n) (h n) (play F S h n)
      exact ⟨t ++ t', by rw [play, ht', ht, List.append_assoc]⟩

/-- The strings hashed for signatures have the form of challenge strings. -/
def Layout (S : ℕ → Signer) (pk : List Byte) : Prop := ∀ i t f m, ∃ r, r.length = 57 ∧ (S i t f m).str = RFC.dom4 ++ r ++ pk ++ m ∧ (S i t f m).sig.take 57 = r

theorem layout_inj {pk r r' m m' : List Byte} (hr : r.length = 57) (hr' : r'.length = 57)
    (h : RFC.dom4 ++ r ++ pk ++ m = RFC.dom4 ++ r' ++ pk ++ m') : r = r' ∧ m = m' := by
  simp only [List.append_assoc, List.append_cancel_left_eq] at h
  obtain ⟨h1, h2⟩ := List.append_inj h (hr.trans hr'.symm)
  exact ⟨h1, List.append_cancel_left h2⟩

/-- The round that fixed the value for the challenge of a winning offer: before it the value was open; it is the answer to a hash request (or to
the question of the verifier, at the end). -/
theorem fixed_spec {F : Forger} {S : ℕ → Signer} {shake : Xof} {pk : List Byte} {n : ℕ} {h : ℕ → Out} (hS : Layout S pk) (hw : Wins ρ F S shake pk n h) :
    let o := offer F S pk n h
    let j := fixedIn F S pk n h
    o.val = h j ∧ ((j < n ∧ F.next (play F S h j).seen = .hash (challengeString pk o.msg o.sig)) ∨ j = n) := by
  intro o j
  obtain ⟨h1, h2⟩ := hw
  have hlen : 114 ≤ o.sig.length := h2.1
  have h1 : ∀ s, (play F S h n).signed.lookup o.msg = some s → s.take 57 ≠ o.sig.take 57 := h1
  have hval : o.val = value (play F S h n).table (challengeString pk o.msg o.sig) (h n) := rfl
  have hj : j = ((List.range n).find? fun i => ((play F S h (i + 1)).table.lookup (challengeString pk o.msg o.sig)).isSome).getD n := rfl
  generalize hstr : challengeString pk o.msg o.sig = str at *
  cases hf : (List.range n).find? fun i => ((play F S h (i + 1)).table.lookup str).isSome with
  | none =>
    rw [hf] at hj
    have hj : j = n := hj
    refine ⟨?_, Or.inr hj⟩
    rw [hval, hj, value_none]
    rcases n with _ | n
    · rfl
    · have := List.find?_eq_none.mp hf n (by simp)
      rwa [Option.not_isSome_iff_eq_none] at this
  | some i =>
    rw [hf] at hj
    have hj : j = i := hj
    subst hj
    obtain ⟨hi, as, bs, hr, hbefore⟩ := List.find?_eq_some_iff_append.mp hf
    have hjn : j < n := List.mem_range.mp (List.mem_of_find?_eq_some hf)
    have hnone : (play F S h j).table.lookup str = none := by
      rcases Nat.eq_zero_or_pos j with h0 | h0
      · rw [h0]; rfl
      · have hmem : j - 1 ∈ as := by
          have hlast : as = List.range j := by
            have hl : as.length = j := by
              have := congrArg (fun l => l[as.length]?) hr
              simp only [List.getElem?_append_right (Nat.le_refl _), Nat.sub_self, List.getElem?_cons_zero] at this
              rw [List.getElem?_eq_some_iff] at this
              obtain ⟨hx, hy⟩ := this
              rw [List.getElem_range] at hy
              exact hy
            have := congrArg (List.take j) hr
            rw [List.take_left' hl, List.take_range, Nat.min_eq_left (by omega)] at this
            exact this.symm
          rw [hlast, List.mem_range]
          omega
        have := hbefore _ hmem
        rw [Nat.sub_add_cancel h0] at this
        simpa using this
    rw [play] at hi
    have hlast : (play F S h n).table.lookup str = ((play F S h j).round F (S j) (h j)).table.lookup str := by
      obtain ⟨t, ht⟩ := play_table F S h (i := j + 1) (n := n) (by omega)
      obtain ⟨x, hx⟩ := Option.isSome_iff_exists.mp hi
      rw [ht, hx]
      exact lookup_append_some (by rw [play, hx])
    rw [hval, value, hlast]
    obtain ⟨sg, hsg⟩ := play_signed F S h (i := j + 1) (n := n) (by omega)
    rw [Game.round] at hi ⊢
    split at hi
    · next s hs =>
      have hs' : s = str := by
        by_contra hne
        rw [lookup_append_none hnone, List.lookup_cons, List.lookup_nil] at hi
        have : (str == s) = false := by simpa using fun e => hne e.symm
        rw [this] at hi
        simp at hi
      subst hs'
      refine ⟨?_, Or.inl ⟨hjn, hs⟩⟩
      rw [lookup_append_none hnone, List.lookup_cons, beq_self_eq_true]
      exact value_none hnone _
    · next m hm =>
      split at hi
      · rw [hnone] at hi
        simp at hi
      · next hm' =>
        exfalso
        obtain ⟨r, hr1, hr2, hr3⟩ := hS j (play F S h j).table (h j) m
        have hs' : (S j (play F S h j).table (h j) m).str = str := by
          by_contra hne
          rw [lookup_append_none hnone, List.lookup_cons, List.lookup_nil] at hi
          have : (str == (S j (play F S h j).table (h j) m).str) = false := by simpa using fun e => hne e.symm
          rw [this] at hi
          simp at hi
        rw [hr2, ← hstr, challengeString] at hs'
        obtain ⟨hrr, hmm⟩ := layout_inj hr1 (by rw [List.length_take]; omega) hs'
        rw [hsg, play, Game.round, hm] at h1
        simp only [hm'] at h1
        rw [hmm] at hm' h1 hr3
        refine h1 _ ?_ (hr3.trans hrr)
        rw [List.lookup_append, List.lookup_append, hm', Option.none_or, List.lookup_cons, beq_self_eq_true]
        rfl

/-! ## Two runs -/

/-- The tape `h` before round `j`, the tape `h'` from there on. -/
def splice (h h' : ℕ → Out) (j : ℕ) : ℕ → Out := fun i => if i < j then h i else h' i

/-- What to compute with a forger: let them play with the tape `h`, and again with the tape `h'` from the round on that fixed the value of the hash function
for the challenge, and divide the difference of the second halves of the two signatures by the difference of the challenges. -/
noncomputable def extract (F : Forger) (S : ℕ → Signer) (pk : List Byte) (n : ℕ) (h h' : ℕ → Out) : ℕ :=
  let o := offer F S pk n h
  let o' := offer F S pk n (splice h h' (fixedIn F S pk n h))
  quotient (leNat ((o.sig.drop 57).take 57)) (leNat ((o'.sig.drop 57).take 57)) (outNat o.val) (outNat o'.val)

theorem challenge_program (shake : Xof) (t : Table) (R pk m : List Byte) (o : Out) (h : t.lookup (RFC.dom4 ++ R ++ pk ++ m) = some o) :
    RFC.challenge (program shake t) R pk m = outNat o := by
  rw [RFC.challenge, outNat]
  congr 1
  apply List.ext_getElem
  · rw [RFC.hash, List.length_map, List.length_range, List.length_ofFn]
  · intro i h1 h2
    have hi : i < 114 := by rwa [List.length_ofFn] at h2
    simp only [RFC.hash, List.getElem_map, List.getElem_range, List.getElem_ofFn, program, h, hi, dif_pos]

/-- Only strings that encode a point stand for a point. -/
def plain : Reading := ⟨Decodes, id, fun h h' => by rw [h.unique h']⟩

/-- A winning offer satisfies the equation. -/
theorem wins_equation {F : Forger} {S : ℕ → Signer} {shake : Xof} {pk : List Byte} {A : E} (hA : RFC.DecodesTo pk A) {n : ℕ} {h : ℕ → Out}
    (hw : Wins ρ F S shake pk n h) :
    let o := offer F S pk n h
    114 ≤ o.sig.length ∧ ∃ R, ρ.reads (o.sig.take 57) R ∧ RFC.Equation (leNat ((o.sig.drop 57).take 57)) R A (outNat o.val) := by
  intro o
  obtain ⟨_, hl, A', R, hA', hR, he⟩ := hw
  refine ⟨hl, R, hR, ?_⟩
  rw [decodesTo_iff] at hA hA'
  obtain rfl := encodePoint_inj.mp (hA'.symm.trans hA)
  rw [challenge_program (o := o.val)] at he
  · exact he
  · have hval : o.val = value (play F S h n).table (challengeString pk o.msg o.sig) (h n) := rfl
    show List.lookup (challengeString pk o.msg o.sig) ((play F S h n).table ++ [(challengeString pk o.msg o.sig, o.val)]) = some o.val
    cases hx : (play F S h n).table.lookup (challengeString pk o.msg o.sig) with
    | none => rw [lookup_append_none hx, List.lookup_cons, beq_self_eq_true]
    | some v =>
      rw [value_some hx] at hval
      rw [hval]
      exact lookup_append_some hx

/-- Two winning runs that part in the round that fixed the challenge, with different challenges, give the discrete logarithm. -/
theorem extract_spec {F : Forger} {S : ℕ → Signer} {shake : Xof} {pk : List Byte} {A : E} (hA : RFC.DecodesTo pk A) (hS : Layout S pk) {n : ℕ} {h h' : ℕ → Out}
    (hw : Wins ρ F S shake pk n h) (hw' : Wins ρ F S shake pk n (splice h h' (fixedIn F S pk n h)))
    (hj : fixedIn F S pk n (splice h h' (fixedIn F S pk n h)) = fixedIn F S pk n h)
    (hc : outNat (h (fixedIn F S pk n h)) % q ≠ outNat (h' (fixedIn F S pk n h)) % q) : (q + 1) • A = extract F S pk n h h' • B := by
  obtain ⟨v1, p1⟩ := fixed_spec hS hw
  obtain ⟨v2, p2⟩ := fixed_spec hS hw'
  obtain ⟨l1, R, d1, e1⟩ := wins_equation hA hw
  obtain ⟨l2, R', d2, e2⟩ := wins_equation hA hw'
  rw [hj] at v2 p2
  rw [extract]
  generalize fixedIn F S pk n h = j at *
  have hplay : play F S (splice h h' j) j = play F S h j := play_congr F S j fun i hi => if_pos hi
  have hfresh : splice h h' j j = h' j := if_neg (by omega)
  have hstr : challengeString pk (offer F S pk n h).msg (offer F S pk n h).sig =
      challengeString pk (offer F S pk n (splice h h' j)).msg (offer F S pk n (splice h h' j)).sig := by
    rw [hplay] at p2
    rcases p1 with ⟨hn, p1⟩ | p1
    · rcases p2 with ⟨_, p2⟩ | p2
      · rw [p1] at p2
        exact Request.hash.inj p2
      · omega
    · subst p1
      simp only [offer, hplay]
  have hR : 4 • R = 4 • R' := by
    rw [challengeString, challengeString] at hstr
    have := (layout_inj (by rw [List.length_take]; omega) (by rw [List.length_take]; omega) hstr).1
    rw [this] at d1
    exact ρ.same d1 d2
  rw [v1] at e1 ⊢
  rw [v2, hfresh] at e2 ⊢
  rw [RFC.Equation, ← hR] at e2
  exact C59_extract _ _ _ _ R A e1 e2 hc

theorem fixedIn_le (F : Forger) (S : ℕ → Signer) (pk : List Byte) (n : ℕ) (h : ℕ → Out) : fixedIn F S pk n h ≤ n := by
  rw [fixedIn]
  cases hf : (List.range n).find? fun i => ((play F S h (i + 1)).table.lookup (challengeString pk (offer F S pk n h).msg (offer F S pk n h).sig)).isSome with
  | none => exact Nat.le_refl _
  | some i => exact (List.mem_range.mp (List.mem_of_find?_eq_some hf)).le

theorem extend_fork {n : ℕ} (h h' : Fin n → Out) (j : Fin n) : extend (fork h h' j) = splice (extend h) (extend h') j.1 := by
  funext i
  rw [extend, splice, extend, extend]
  by_cases hi : i < n
  · simp only [hi, dif_pos, fork, Fin.lt_def]
  · simp only [hi, dif_neg, not_false_eq_true, ite_self]

/-- C86, for signatures made in any way that hashes strings of the right form. Let `wins` be the tapes on which the forger wins, `solves` the pairs of tapes for
which `extract` gives the discrete logarithm of the key. Then `wins² ≤ (n + 1) (solves + wins · (2^912 / q + 1) · 2^(912 n))`. -/
theorem fork_count (F : Forger) (S : ℕ → Signer) (shake : Xof) (pk : List Byte) (A : E) (hA : RFC.DecodesTo pk A) (hS : Layout S pk) (n : ℕ) :
    let wins := {h : Fin (n + 1) → Out | Wins ρ F S shake pk n (extend h)}
    let solves := {x : (Fin (n + 1) → Out) × (Fin (n + 1) → Out) | (q + 1) • A = extract F S pk n (extend x.1) (extend x.2) • B}
    wins.ncard ^ 2 ≤ (n + 1) * (solves.ncard + wins.ncard * ((2 ^ 912 / q + 1) * 2 ^ (912 * n))) := by
  classical
  intro wins solves
  have hfin : Finite Byte := Finite.of_injective _ BitVec.toFin_injective
  let _ : Fintype Out := Fintype.ofFinite Out
  have hcard : Fintype.card Out = 2 ^ 912 := by
    have h1 := ncard_strings 114 fun _ => True
    simp only [and_true] at h1
    rw [← Nat.card_eq_fintype_card, ← Set.ncard_univ, show (Set.univ : Set Out) = {h : Fin 114 → Byte | True} by ext; simp, h1,
      show {v : ℕ | v < 256 ^ 114} = ((Finset.range (256 ^ 114) : Finset ℕ) : Set ℕ) by ext v; simp, Set.ncard_coe_finset, Finset.card_range]
    norm_num
  let J : (Fin (n + 1) → Out) → Option (Fin (n + 1)) := fun h =>
    if Wins ρ F S shake pk n (extend h) then some ⟨fixedIn F S pk n (extend h), Nat.lt_succ_of_le (fixedIn_le F S pk n _)⟩ else none
  have hJ : ∀ h j, J h = some j ↔ Wins ρ F S shake pk n (extend h) ∧ fixedIn F S pk n (extend h) = j.1 := by
    intro h j
    simp only [J]
    split
    · next hw =>
      rw [Option.some.injEq, Fin.ext_iff]
      exact ⟨fun e => ⟨hw, e⟩, fun e => e.2⟩
    · next hw => simp [hw]
  have hJn : ∀ h, J h ≠ none ↔ Wins ρ F S shake pk n (extend h) := by
    intro h
    simp only [J]
    split <;> simp [*]
  obtain ⟨R, hR⟩ : ∃ R : Out → Out → Prop, ∀ a b, R a b ↔ outNat a % q = outNat b % q := ⟨_, fun _ _ => Iff.rfl⟩
  have hM : ∀ a : Out, (Finset.univ.filter fun b : Out => R a b).card ≤ 2 ^ 912 / q + 1 := by
    intro a
    rw [← Set.ncard_coe_finset]
    have : ((Finset.univ.filter fun b : Out => R a b : Finset Out) : Set Out) =
        {b : Fin 114 → Byte | leNat (List.ofFn b) % q = outNat a % q} := by
      ext b
      rw [Finset.coe_filter, Set.mem_ofPred_eq, Set.mem_ofPred_eq]
      exact ⟨fun e => ((hR _ _).mp e.2).symm, fun e => ⟨Finset.mem_univ _, (hR _ _).mpr e.symm⟩⟩
    rw [this, ncard_strings 114 fun v => v % q = outNat a % q, show 256 ^ 114 = 2 ^ 912 by norm_num]
    rcases ncard_residue (2 ^ 912) q (outNat a % q) q_pos (Nat.mod_lt _ q_pos) with h | h
    · rw [h]; exact Nat.le_succ _
    · rw [h]
  generalize 2 ^ 912 / q + 1 = M at *
  have key := forking_different J R M fun a => by convert hM a
  have hwins : (Finset.univ.filter fun h => J h ≠ none).card = wins.ncard := by
    rw [← Set.ncard_coe_finset]
    congr 1
    ext h
    simp only [Finset.coe_filter, Finset.mem_univ, true_and, hJn]
    rfl
  have hsolves : (Finset.univ.filter fun x : (Fin (n + 1) → Out) × (Fin (n + 1) → Out) =>
      ∃ j, J x.1 = some j ∧ J (fork x.1 x.2 j) = some j ∧ ¬ R (x.1 j) (x.2 j)).card ≤ solves.ncard := by
    rw [← Set.ncard_coe_finset]
    refine Set.ncard_le_ncard ?_ (Set.toFinite _)
    rintro ⟨h, h'⟩ hx
    simp only [Finset.coe_filter, Finset.mem_univ, true_and, Set.mem_ofPred_eq] at hx
    obtain ⟨j, h1, h2, h3⟩ := hx
    rw [hJ] at h1 h2
    rw [extend_fork] at h2
    obtain ⟨w1, j1⟩ := h1
    have e : ∀ g : Fin (n + 1) → Out, extend g j.1 = g j := fun g => dif_pos j.2
    rw [← j1] at h2
    refine extract_spec hA hS w1 h2.1 h2.2 ?_
    rw [j1, e, e]
    exact fun e' => h3 ((hR _ _).mpr e')
  rw [hwins, hcard, Nat.add_sub_cancel, ← pow_mul] at key
  exact key.trans (Nat.mul_le_mul_left _ (Nat.add_le_add_right hsolves _))

end Ed448
