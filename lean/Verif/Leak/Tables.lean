import Verif.Leak.Same

/-!
# The positions read in the precomputed table
-/

namespace Ed448

theorem tables_append (a b : List Event) : tables (a ++ b) = tables a ++ tables b := List.filterMap_append ..

/-- The record is determined by what remains when the positions are hidden, and by the positions. -/
theorem events_determined : ∀ a b : List Event, a.map Event.hide = b.map Event.hide → tables a = tables b → a = b
  | [], [], _, _ => rfl
  | [], _ :: _, h, _ => by cases h
  | _ :: _, [], h, _ => by cases h
  | x :: a, y :: b, h, ht => by
    rw [List.map_cons, List.map_cons, List.cons.injEq] at h
    cases x <;> cases y <;> try (simp only [Event.hide, reduceCtorEq, false_and] at h; done)
    case table.table i j =>
      have ht : i :: tables a = j :: tables b := ht
      rw [List.cons.injEq] at ht
      rw [ht.1, events_determined a b h.2 ht.2]
    all_goals
      have ht : tables a = tables b := ht
      have h1 := h.1
      simp only [Event.hide] at h1
      rw [h1, events_determined a b h.2 ht]

namespace Leak

open Ed448

/-- The computation does not read the precomputed table. -/
structure Quiet {α : Type} (x : Leak α) : Prop where
  out : tables x.events = []

namespace Quiet

variable {α β : Type}

theorem bind {x : Leak α} {f : α → Leak β} (h : Quiet x) (hf : ∀ a, Quiet (f a)) : Quiet (x >>= f) := by
  refine ⟨?_⟩
  show tables (x.events ++ (match x.result with
    | .ok a => (f a).events
    | .error _ => [])) = _
  rw [tables_append, h.out]
  cases x.result with
  | ok a => exact (hf a).out
  | error e => rfl

theorem pure (a : α) : Quiet (pure a : Leak α) := ⟨rfl⟩
theorem silent (x : Rust α) : Quiet (silent x) := ⟨rfl⟩
theorem branch (b : Bool) : Quiet (branch b) := ⟨rfl⟩
theorem idx (l : List α) (i : Nat) : Quiet (idx l i) := ⟨rfl⟩
theorem setIdx (l : List α) (i : Nat) (x : α) : Quiet (setIdx l i x) := ⟨rfl⟩
theorem slice (l : List Byte) (i j : Nat) : Quiet (slice l i j) := ⟨rfl⟩
theorem copyInto (l : List Byte) (i j : Nat) (l' : List Byte) : Quiet (copyInto l i j l') := ⟨rfl⟩
theorem chkI64 (x : Int) : Quiet (chkI64 x) := ⟨rfl⟩
theorem chkU64 (x : Nat) : Quiet (chkU64 x) := ⟨rfl⟩
theorem chkU32 (x : Nat) : Quiet (chkU32 x) := ⟨rfl⟩
theorem chkI32 (x : Int) : Quiet (chkI32 x) := ⟨rfl⟩
theorem subU (x y : Nat) : Quiet (subU x y) := ⟨rfl⟩
theorem shl32 (x : W32) (n : Nat) : Quiet (shl32 x n) := ⟨rfl⟩
theorem shr32 (x : W32) (n : Nat) : Quiet (shr32 x n) := ⟨rfl⟩
theorem sha3 (xof : Xof) (l : List Byte) (n : Nat) : Quiet (sha3 xof l n) := ⟨rfl⟩
theorem hash_with_dom (xof : Xof) (l : List Byte) (n : Nat) : Quiet (hash_with_dom xof l n) := ⟨rfl⟩

theorem ite {c : Prop} [Decidable c] {x y : Leak α} (hx : Quiet x) (hy : Quiet y) : Quiet (if c then x else y) := by
  by_cases h : c
  · rw [if_pos h]
    exact hx
  · rw [if_neg h]
    exact hy

theorem loop {body : Nat → α → Leak α} (h : ∀ i a, Quiet (body i a)) : ∀ is a, Quiet (loop body is a)
  | [], a => .pure a
  | i :: is, a => .bind (h i a) fun a => loop h is a

theorem forTo {body : Nat → α → Leak α} (n : Nat) (a : α) (h : ∀ i a, Quiet (body i a)) : Quiet (forTo n a body) := loop h _ _

theorem while' {cond : α → Bool} {body : α → Leak α} (h : ∀ a, Quiet (body a)) : ∀ fuel a, Quiet (while' cond body fuel a)
  | 0, _ => .silent _
  | fuel + 1, a => .bind (.branch _) fun _ => .ite (.bind (h a) fun a => while' h fuel a) (.pure a)

end Quiet

/-- Proves `Quiet` from the lemmas for the functions that are called. -/
macro "quiet" : tactic => `(tactic| repeat' first
  | exact .pure _
  | exact .idx _ _
  | exact .setIdx _ _ _
  | exact .slice _ _ _
  | exact .copyInto _ _ _ _
  | exact .chkI64 _
  | exact .chkU64 _
  | exact .chkU32 _
  | exact .chkI32 _
  | exact .subU _ _
  | exact .shl32 _ _
  | exact .shr32 _ _
  | exact .branch _
  | exact .sha3 _ _ _
  | exact .hash_with_dom _ _ _
  | assumption
  | refine .ite ?_ ?_
  | refine .forTo _ _ fun _ _ => ?_
  | refine .while' (fun _ => ?_) _ _
  | refine .bind ?_ fun _ => ?_)

theorem sub_extra_quiet (a b : List W32) (c : W32) : Quiet (sub_extra a b c) := by
  unfold sub_extra
  quiet

theorem add_quiet (a b : List W32) : Quiet (add a b) := by
  unfold add
  refine .bind (by quiet) fun _ => sub_extra_quiet ..

theorem halve_quiet (a : List W32) : Quiet (halve a) := by
  unfold halve
  quiet

theorem mmStep_quiet (x y : List W32) (i : Nat) (st : List W32 × W32) : Quiet (mmStep x y i st) := by
  unfold mmStep
  quiet

theorem montgomery_multiply_quiet (x y : List W32) : Quiet (montgomery_multiply x y) := by
  unfold montgomery_multiply
  exact .bind (.forTo _ _ fun _ _ => mmStep_quiet ..) fun _ => sub_extra_quiet ..

theorem mul_quiet (x y : List W32) : Quiet (mul x y) := by
  unfold mul
  exact .bind (montgomery_multiply_quiet ..) fun _ => montgomery_multiply_quiet ..

theorem packFrom_quiet (b : List Byte) (size : Nat) : ∀ (js : List Nat) (st : W32 × Nat), Quiet (packFrom b size js st)
  | [], _ => .pure _
  | _ :: js, (_, _) => .bind (.branch _) fun _ => .ite (.pure _) (.bind (.idx _ _) fun _ => packFrom_quiet b size js _)

theorem packLoop_quiet (b : List Byte) (size k : Nat) : Quiet (packLoop b size k) := packFrom_quiet ..

theorem decode_short_quiet (b : List Byte) (size : Nat) : Quiet (decode_short b size) := by
  unfold decode_short
  exact .bind (.forTo _ _ fun _ _ => .bind (packLoop_quiet ..) fun _ => by quiet) fun _ => .pure _

theorem decode_quiet (b : List Byte) : Quiet (decode b) := by
  unfold decode
  exact .bind (decode_short_quiet ..) fun _ => .bind (by quiet) fun _ => mul_quiet ..

theorem encode_quiet (s : List W32) : Quiet (encode s) := by
  unfold encode
  quiet

theorem decode_long_from_quiet (b : List Byte) (size : Nat) : Quiet (decode_long_from b size) := by
  unfold decode_long_from
  refine .bind (.slice ..) fun _ => .bind (.subU ..) fun _ => .bind (decode_short_quiet ..) fun _ => .bind (.branch _) fun _ =>
    .ite (mul_quiet ..) (.bind (.while' (fun _ => ?_) _ _) fun _ => .pure _)
  exact .bind (.subU ..) fun _ => .bind (montgomery_multiply_quiet ..) fun _ => .bind (.slice ..) fun _ => .bind (decode_quiet _) fun _ =>
    .bind (add_quiet ..) fun _ => .pure _

theorem decode_long_quiet (b : List Byte) : Quiet (decode_long b) := by
  unfold decode_long
  exact .bind (.subU ..) fun _ => .bind (.branch _) fun _ => .ite (.pure _) (.bind (.branch _) fun _ =>
    .ite (.bind (.subU ..) fun _ => decode_long_from_quiet ..) (decode_long_from_quiet ..))

theorem bias_quiet (n : BN) (b : W32) : Quiet (bias n b) := by
  unfold bias
  quiet

theorem squareFirst_quiet (x : BN) (y : Nat) : Quiet (squareFirst x y) := by
  unfold squareFirst
  quiet

theorem square_n_quiet (x : BN) (y : Nat) : Quiet (square_n x y) := by
  unfold square_n
  exact .bind (squareFirst_quiet ..) fun _ => by quiet

theorem conditional_swap_quiet (n x : List W32) (s : W32) : Quiet (conditional_swap n x s) := by
  unfold conditional_swap
  quiet

theorem srSub_quiet (c : Int) (n : W32) (m : Int) : Quiet (srSub c n m) := by
  unfold srSub
  quiet

theorem srAdd_quiet (c : Nat) (n : W32) (m : Nat) : Quiet (srAdd c n m) := by
  unfold srAdd
  quiet

theorem strong_reduce_quiet (n : BN) : Quiet (strong_reduce n) := by
  unfold strong_reduce
  iterate 16 refine .bind (srSub_quiet ..) fun _ => ?_
  iterate 16 refine .bind (srAdd_quiet ..) fun _ => ?_
  exact .pure _

theorem serFill_quiet (x : List W32) (fill j : Nat) (w : W64) : Quiet (serFill x fill j w) := by
  unfold serFill
  quiet

theorem serialize_quiet (x : List W32) : Quiet (serialize x) := by
  unfold serialize
  exact .bind (.forTo _ _ fun _ _ => .bind (serFill_quiet ..) fun _ => by quiet) fun _ => .pure _

theorem dsa_like_serialize_quiet (n : BN) : Quiet (dsa_like_serialize n) := by
  unfold dsa_like_serialize
  exact .bind (strong_reduce_quiet ..) fun _ => serialize_quiet ..

namespace BigNumber

theorem neg_quiet (x : BN) : Quiet (neg x) := .bind (bias_quiet ..) fun _ => .pure _

theorem sub_quiet (x y : BN) : Quiet (sub x y) := .bind (bias_quiet ..) fun _ => .pure _

theorem sub_x_bias_quiet (x y : BN) (a : W32) : Quiet (sub_x_bias x y a) := .bind (bias_quiet ..) fun _ => .pure _

theorem low_bit_quiet (x : BN) : Quiet (low_bit x) := .bind (strong_reduce_quiet ..) fun _ => .pure _

theorem isr_quiet (x : BN) : Quiet (isr x) := by
  unfold isr
  iterate 8 refine .bind (square_n_quiet ..) fun _ => ?_
  exact .pure _

theorem invert_quiet (x : BN) : Quiet (invert x) := .bind (isr_quiet ..) fun _ => .pure _

theorem constant_time_select_quiet (x y : BN) (f : W32) : Quiet (constant_time_select x y f) :=
  .bind (conditional_swap_quiet ..) fun _ => .pure _

theorem conditional_negate_quiet (x : BN) (f : W32) : Quiet (conditional_negate x f) :=
  .bind (neg_quiet ..) fun _ => constant_time_select_quiet ..

end BigNumber

theorem double_internal_quiet (p : Pt) (b : Bool) : Quiet (double_internal p b) := by
  unfold double_internal
  exact .bind (BigNumber.sub_x_bias_quiet ..) fun _ => .bind (BigNumber.sub_quiet ..) fun _ => .bind (BigNumber.sub_x_bias_quiet ..) fun _ =>
    .bind (.branch _) fun _ => .pure _

theorem add_niels_to_extended_quiet (p : Pt) (n : TwistedNiels) (b : Bool) : Quiet (add_niels_to_extended p n b) := by
  unfold add_niels_to_extended
  iterate 3 refine .bind (BigNumber.sub_quiet ..) fun _ => ?_
  exact .bind (.branch _) fun _ => .pure _

theorem eddsa_like_encode_quiet (p : Pt) : Quiet (eddsa_like_encode p) := by
  unfold eddsa_like_encode
  iterate 3 refine .bind (BigNumber.sub_quiet ..) fun _ => ?_
  exact .bind (BigNumber.invert_quiet ..) fun _ => .bind (dsa_like_serialize_quiet ..) fun _ => .bind (.copyInto ..) fun _ =>
    .bind (BigNumber.low_bit_quiet ..) fun _ => .setIdx ..

theorem conditional_negate_quiet (n : TwistedNiels) (w : W32) : Quiet (conditional_negate n w) := by
  unfold conditional_negate
  exact .bind (conditional_swap_quiet ..) fun _ => .bind (BigNumber.conditional_negate_quiet ..) fun _ => .pure _

theorem to_extended_quiet (n : TwistedNiels) : Quiet (to_extended n) := .bind (BigNumber.sub_quiet ..) fun _ => .pure _

theorem combTab_quiet (s : List W32) (i j : Nat) : Quiet (combTab s i j) := by
  unfold combTab
  quiet

theorem clamp_quiet (pk : List Byte) : Quiet (clamp pk) := by
  unfold clamp
  quiet

theorem private_to_secret_quiet (xof : Xof) (pk : List Byte) : Quiet (private_to_secret xof pk) := by
  unfold private_to_secret
  quiet

/-- When the computation returns, it has read the precomputed table at the positions `l`. -/
structure Reads {α : Type} (l : List Nat) (x : Leak α) : Prop where
  out : ∀ a, x.result = .ok a → tables x.events = l

theorem Quiet.reads {α : Type} {x : Leak α} (h : Quiet x) : Reads [] x := ⟨fun _ _ => h.out⟩

namespace Reads

variable {α β : Type}

theorem bind {l l' : List Nat} {x : Leak α} {f : α → Leak β} (h : Reads l x) (hf : ∀ a, x.result = .ok a → Reads l' (f a)) :
    Reads (l ++ l') (x >>= f) := by
  refine ⟨fun b hb => ?_⟩
  obtain ⟨a, ha, hb⟩ := bind_ok_iff hb
  rw [events_bind ha, tables_append, h.out a ha, (hf a ha).out b hb]

/-- The first computation does not read the table. -/
theorem after {l : List Nat} {x : Leak α} {f : α → Leak β} (h : Quiet x) (hf : ∀ a, x.result = .ok a → Reads l (f a)) : Reads l (x >>= f) :=
  .bind h.reads hf

/-- The second computation does not read the table. -/
theorem before {l : List Nat} {x : Leak α} {f : α → Leak β} (h : Reads l x) (hf : ∀ a, Quiet (f a)) : Reads l (x >>= f) := by
  have := h.bind fun a _ => (hf a).reads
  rwa [List.append_nil] at this

theorem loop {body : Nat → α → Leak α} {g : Nat → List Nat} (h : ∀ i a, Reads (g i) (body i a)) :
    ∀ (is : List Nat) (a : α), Reads (is.flatMap g) (loop body is a)
  | [], a => (Quiet.pure a).reads
  | i :: is, a => by
    rw [List.flatMap_cons]
    exact .bind (h i a) fun a _ => loop h is a

theorem ite {l : List Nat} {c : Prop} [Decidable c] {x y : Leak α} (hx : Reads l x) (hy : Reads l y) : Reads l (if c then x else y) := by
  by_cases h : c
  · rw [if_pos h]
    exact hx
  · rw [if_neg h]
    exact hy

end Reads

/-- If the loop over the teeth returns `tab`, the entry read is the one computed from it. -/
theorem combSelect_reads (s : List W32) (i j : Nat) (pos : Nat)
    (h : ∀ tab, Chk.combTab s i j = .ok tab → (j <<< 4) + ((tab ^^^ BitVec.ofInt 32 (tab.toInt / 2 ^ 4 - 1)) &&& BitVec.ofNat 32 15).toNat = pos) :
    Reads [pos] (combSelect s i j) := by
  unfold combSelect
  refine .after (combTab_quiet ..) fun tab htab => ?_
  rw [combTab_result] at htab
  refine .after (.subU ..) fun n hn => ?_
  cases hn
  refine .after (.chkI32 _) fun inv hinv => ?_
  have hinv : inv = tab.toInt / 2 ^ 4 - 1 := by
    simp only [result_chkI32, Ed448.chkI32] at hinv
    split at hinv
    · cases hinv
      rfl
    · cases hinv
  subst hinv
  refine .after (.subU ..) fun m hm => ?_
  cases hm
  refine .before ⟨fun _ _ => ?_⟩ fun _ => conditional_negate_quiet ..
  rw [← h tab htab]
  rfl

theorem precomputed_scalar_mul_reads (s : List W32) (pos : Nat → Nat → Nat)
    (h : ∀ a s2, Chk.add s scalar_adjustment.1 = .ok a → Chk.halve a = .ok s2 → ∀ i j, Reads [pos i j] (combSelect s2 i j)) :
    Reads ((List.range 18).reverse.flatMap fun i => (List.range 5).flatMap fun j => [pos i j]) (precomputed_scalar_mul s) := by
  unfold precomputed_scalar_mul
  refine .after (add_quiet ..) fun a ha => .after (halve_quiet ..) fun s2 hs => ?_
  rw [add_result] at ha
  rw [halve_result] at hs
  refine Reads.loop (fun i p => ?_) _ _
  refine .after (.subU ..) fun l _ => .after (.branch _) fun _ _ => .after (.ite (double_internal_quiet ..) (.pure _)) fun p _ => ?_
  refine Reads.loop (fun j p => ?_) _ _
  refine .before (h a s2 ha hs i j) fun np => .bind (.subU ..) fun _ => .bind (.branch _) fun _ => ?_
  exact .ite (add_niels_to_extended_quiet ..) (to_extended_quiet ..)

end Leak

end Ed448
