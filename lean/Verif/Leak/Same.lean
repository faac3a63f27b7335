import Verif.Leak.Result
import Verif.Spec.Leak

/-!
# Two runs are observed alike, except for the positions in the precomputed table
-/

namespace Ed448

namespace Leak

open Ed448

/-- Two runs that both return have the same record up to the positions in the precomputed table, and their results are related by `R`. -/
structure Same {α β : Type} (R : α → β → Prop) (x : Leak α) (y : Leak β) : Prop where
  out : ∀ a b, x.result = .ok a → y.result = .ok b → x.events.map Event.hide = y.events.map Event.hide ∧ R a b

/-- No relation between the results. -/
def Any {α β : Type} (_ : α) (_ : β) : Prop := True

/-- Lists of the same length. -/
def Len {α β : Type} (a : List α) (b : List β) : Prop := a.length = b.length

theorem any {α β : Type} {a : α} {b : β} : Any a b := trivial

theorem bind_ok_iff {α β : Type} {x : Rust α} {f : α → Rust β} {b : β} (h : x >>= f = .ok b) : ∃ a, x = .ok a ∧ f a = .ok b := by
  cases x with
  | error e => exact absurd h (by intro h; cases h)
  | ok a => exact ⟨a, rfl, h⟩

theorem events_bind {α β : Type} {x : Leak α} {f : α → Leak β} {a : α} (h : x.result = .ok a) :
    (x >>= f).events = x.events ++ (f a).events := by
  show x.events ++ (match x.result with
    | .ok a => (f a).events
    | .error _ => []) = _
  rw [h]

namespace Same

variable {α β γ δ : Type}

theorem bind {R : α → β → Prop} {S : γ → δ → Prop} {x : Leak α} {y : Leak β} {f : α → Leak γ} {g : β → Leak δ} (h : Same R x y)
    (hf : ∀ a b, R a b → Same S (f a) (g b)) : Same S (x >>= f) (y >>= g) := by
  refine ⟨fun c d hc hd => ?_⟩
  obtain ⟨a, ha, hc⟩ := bind_ok_iff hc
  obtain ⟨b, hb, hd⟩ := bind_ok_iff hd
  obtain ⟨h1, h2⟩ := h.out a b ha hb
  obtain ⟨h3, h4⟩ := (hf a b h2).out c d hc hd
  rw [events_bind ha, events_bind hb, List.map_append, List.map_append, h1, h3]
  exact ⟨rfl, h4⟩

theorem pure {R : α → β → Prop} {a : α} {b : β} (h : R a b) : Same R (pure a : Leak α) (pure b : Leak β) := by
  refine ⟨fun c d hc hd => ?_⟩
  cases hc
  cases hd
  exact ⟨rfl, h⟩

theorem mono {R S : α → β → Prop} {x : Leak α} {y : Leak β} (h : Same R x y) (hs : ∀ a b, R a b → S a b) : Same S x y :=
  ⟨fun a b ha hb => ⟨(h.out a b ha hb).1, hs a b (h.out a b ha hb).2⟩⟩

theorem toAny {R : α → β → Prop} {x : Leak α} {y : Leak β} (h : Same R x y) : Same Any x y := h.mono fun _ _ _ => trivial

theorem branch (b : Bool) : Same Any (branch b) (branch b) := ⟨fun _ _ _ _ => ⟨rfl, trivial⟩⟩

theorem silent (x : Rust α) (y : Rust β) : Same Any (silent x) (silent y) := ⟨fun _ _ _ _ => ⟨rfl, trivial⟩⟩

theorem idx (l : List α) (l' : List β) (i : Nat) : Same Any (idx l i) (idx l' i) := ⟨fun _ _ _ _ => ⟨rfl, trivial⟩⟩

theorem lookup (l l' : List TwistedNiels) (i i' : Nat) : Same Any (lookup l i) (lookup l' i') := ⟨fun _ _ _ _ => ⟨rfl, trivial⟩⟩

theorem setIdx {l : List α} {l' : List β} (h : Len l l') (i : Nat) (x : α) (x' : β) : Same Len (setIdx l i x) (setIdx l' i x') := by
  refine ⟨fun a b ha hb => ?_⟩
  refine ⟨rfl, ?_⟩
  simp only [result_setIdx, Ed448.setIdx] at ha hb
  split at ha
  · split at hb
    · cases ha
      cases hb
      simpa [Len] using h
    · cases hb
  · cases ha

theorem setIdx' (l : List α) (l' : List β) (i : Nat) (x : α) (x' : β) : Same Any (Leak.setIdx l i x) (Leak.setIdx l' i x') :=
  ⟨fun _ _ _ _ => ⟨rfl, trivial⟩⟩

theorem slice (l l' : List Byte) (lo hi : Nat) : Same Len (slice l lo hi) (slice l' lo hi) := by
  refine ⟨fun a b ha hb => ?_⟩
  refine ⟨rfl, ?_⟩
  simp only [result_slice, Ed448.slice] at ha hb
  split at ha
  · split at hb
    · cases ha
      cases hb
      simp only [Len, List.length_take, List.length_drop]
      omega
    · cases hb
  · cases ha

theorem copyInto {dst dst' : List Byte} (h : Len dst dst') (lo hi : Nat) (s s' : List Byte) :
    Same Len (copyInto dst lo hi s) (copyInto dst' lo hi s') := by
  refine ⟨fun a b ha hb => ?_⟩
  refine ⟨rfl, ?_⟩
  simp only [result_copyInto, Ed448.copyInto] at ha hb
  split at ha
  · split at hb
    · cases ha
      cases hb
      simp only [Len, List.length_append, List.length_take, List.length_drop] at h ⊢
      omega
    · cases hb
  · cases ha

theorem chkI64 (x y : Int) : Same Any (chkI64 x) (chkI64 y) := silent _ _
theorem chkU64 (x y : Nat) : Same Any (chkU64 x) (chkU64 y) := silent _ _
theorem chkU32 (x y : Nat) : Same Any (chkU32 x) (chkU32 y) := silent _ _
theorem chkI32 (x y : Int) : Same Any (chkI32 x) (chkI32 y) := silent _ _
theorem shl32 (x y : W32) (n m : Nat) : Same Any (shl32 x n) (shl32 y m) := silent _ _
theorem shr32 (x y : W32) (n m : Nat) : Same Any (shr32 x n) (shr32 y m) := silent _ _

theorem subU (a b : Nat) : Same Eq (subU a b) (subU a b) := by
  refine ⟨fun c d hc hd => ?_⟩
  rw [hc] at hd
  cases hd
  exact ⟨rfl, rfl⟩

theorem subU' (a b a' b' : Nat) : Same Any (Leak.subU a b) (Leak.subU a' b') := silent _ _

theorem sha3 (xof xof' : Xof) {l l' : List Byte} (h : Len l l') (n : Nat) : Same Len (sha3 xof l n) (sha3 xof' l' n) := by
  refine ⟨fun a b ha hb => ?_⟩
  cases ha
  cases hb
  refine ⟨?_, ?_⟩
  · simp only [Leak.sha3, show l.length = l'.length from h]
  · exact (Ed448.sha3 xof l n).2.trans (Ed448.sha3 xof' l' n).2.symm

theorem hash_with_dom (xof xof' : Xof) {l l' : List Byte} (h : Len l l') (n : Nat) :
    Same Len (hash_with_dom xof l n) (hash_with_dom xof' l' n) := by
  refine ⟨fun a b ha hb => ?_⟩
  cases ha
  cases hb
  refine ⟨?_, ?_⟩
  · simp only [Leak.hash_with_dom, show l.length = l'.length from h]
  · exact (Ed448.hash_with_dom xof l n).2.trans (Ed448.hash_with_dom xof' l' n).2.symm

theorem ite {R : α → β → Prop} {c c' : Prop} [Decidable c] [Decidable c'] (h : c ↔ c') {x y : Leak α} {x' y' : Leak β} (h1 : Same R x x')
    (h2 : Same R y y') : Same R (if c then x else y) (if c' then x' else y') := by
  by_cases hc : c
  · rw [if_pos hc, if_pos (h.1 hc)]
    exact h1
  · rw [if_neg hc, if_neg (fun e => hc (h.2 e))]
    exact h2

theorem loop {R : α → β → Prop} {body : Nat → α → Leak α} {body' : Nat → β → Leak β}
    (h : ∀ i a b, R a b → Same R (body i a) (body' i b)) : ∀ (is : List Nat) (a : α) (b : β), R a b → Same R (loop body is a) (loop body' is b)
  | [], _, _, hab => .pure hab
  | i :: is, a, b, hab => .bind (h i a b hab) fun a b hab => loop h is a b hab

theorem forTo {R : α → β → Prop} {body : Nat → α → Leak α} {body' : Nat → β → Leak β} (n : Nat) {a : α} {b : β} (hab : R a b)
    (h : ∀ i a b, R a b → Same R (body i a) (body' i b)) : Same R (forTo n a body) (forTo n b body') := loop h _ _ _ hab

theorem forRev {R : α → β → Prop} {body : Nat → α → Leak α} {body' : Nat → β → Leak β} (n : Nat) {a : α} {b : β} (hab : R a b)
    (h : ∀ i a b, R a b → Same R (body i a) (body' i b)) : Same R (forRev n a body) (forRev n b body') := loop h _ _ _ hab

theorem while' {R : α → β → Prop} {cond : α → Bool} {cond' : β → Bool} {body : α → Leak α} {body' : β → Leak β}
    (hc : ∀ a b, R a b → cond a = cond' b) (h : ∀ a b, R a b → Same R (body a) (body' b)) :
    ∀ (fuel : Nat) (a : α) (b : β), R a b → Same R (while' cond body fuel a) (while' cond' body' fuel b)
  | 0, _, _, _ => ⟨fun _ _ ha _ => by cases ha⟩
  | fuel + 1, a, b, hab => by
    rw [Leak.while', Leak.while', hc a b hab]
    refine .bind (.branch _) fun _ _ _ => .ite Iff.rfl ?_ (.pure hab)
    exact .bind (h a b hab) fun a b hab => while' hc h fuel a b hab

end Same

open Same

/-- The first components are related. -/
def Fst {α β γ δ : Type} (R : α → β → Prop) (a : α × γ) (b : β × δ) : Prop := R a.1 b.1

/-- The second components are related. -/
def Snd {α β γ δ : Type} (R : γ → δ → Prop) (a : α × γ) (b : β × δ) : Prop := R a.2 b.2

/-- Proves `Same Any` for code without loops and branches from the lemmas for the functions it calls. -/
macro "same" : tactic => `(tactic| repeat' first
  | exact .pure any
  | exact .idx _ _ _
  | exact .setIdx' _ _ _ _ _
  | exact .chkI64 _ _
  | exact .chkU64 _ _
  | exact .chkU32 _ _
  | exact .chkI32 _ _
  | exact .shl32 _ _ _ _
  | exact .shr32 _ _ _ _
  | exact .branch _
  | exact .lookup _ _ _ _
  | exact .subU' _ _ _ _
  | refine .bind (R := Any) ?_ (fun _ _ _ => ?_))

theorem sub_extra_same (a b a' b' : List W32) (c c' : W32) : Same Any (sub_extra a b c) (sub_extra a' b' c') := by
  unfold sub_extra
  refine .bind (R := Any) (.forTo _ any fun i _ _ _ => by same) fun _ _ _ => ?_
  refine .bind (.chkI64 _ _) fun _ _ _ => ?_
  exact .bind (R := Any) (.forTo _ any fun i _ _ _ => by same) fun _ _ _ => .pure any

theorem add_same (a b a' b' : List W32) : Same Any (add a b) (add a' b') := by
  unfold add
  refine .bind (R := Any) (.forTo _ any fun i _ _ _ => by same) fun _ _ _ => sub_extra_same ..

theorem halve_same (a a' : List W32) : Same Any (halve a) (halve a') := by
  unfold halve
  refine .bind (.idx _ _ _) fun _ _ _ => ?_
  refine .bind (R := Any) (.forTo _ any fun i _ _ _ => by same) fun _ _ _ => ?_
  refine .bind (.subU _ _) fun n _ e => ?_
  subst e
  refine .bind (R := Any) (.forTo _ any fun i _ _ _ => by same) fun _ _ _ => ?_
  same

theorem mmStep_same (x y x' y' : List W32) (i : Nat) (st st' : List W32 × W32) : Same Any (mmStep x y i st) (mmStep x' y' i st') := by
  unfold mmStep
  refine .bind (.idx _ _ _) fun _ _ _ => ?_
  refine .bind (R := Any) (.forTo _ any fun i _ _ _ => by same) fun _ _ _ => ?_
  refine .bind (.idx _ _ _) fun _ _ _ => ?_
  refine .bind (R := Any) (.forTo _ any fun i _ _ _ => ?_) fun _ _ _ => ?_
  · refine .bind (.idx _ _ _) fun _ _ _ => ?_
    refine .bind (.idx _ _ _) fun _ _ _ => ?_
    refine .bind (.branch _) fun _ _ _ => ?_
    refine .ite (c := i > 0) (c' := i > 0) Iff.rfl ?_ (.bind (R := Any) (.pure any) fun _ _ _ => .pure any)
    refine .bind (.subU _ _) fun n _ e => ?_
    subst e
    exact .bind (.setIdx' ..) fun _ _ _ => .pure any
  · same

theorem montgomery_multiply_same (x y x' y' : List W32) : Same Any (montgomery_multiply x y) (montgomery_multiply x' y') := by
  unfold montgomery_multiply
  exact .bind (R := Any) (.forTo _ any fun i _ _ _ => mmStep_same ..) fun _ _ _ => sub_extra_same ..

theorem mul_same (x y x' y' : List W32) : Same Any (mul x y) (mul x' y') := by
  unfold mul
  exact .bind (montgomery_multiply_same ..) fun _ _ _ => montgomery_multiply_same ..

theorem packFrom_same (b b' : List Byte) (size : Nat) : ∀ (js : List Nat) (o o' : W32) (k : Nat),
    Same (Snd Eq) (packFrom b size js (o, k)) (packFrom b' size js (o', k))
  | [], _, _, _ => .pure rfl
  | j :: js, o, o', k => by
    rw [packFrom, packFrom]
    refine .bind (.branch _) fun _ _ _ => .ite Iff.rfl (.pure rfl) ?_
    exact .bind (.idx _ _ _) fun _ _ _ => packFrom_same b b' size js _ _ _

theorem packLoop_same (b b' : List Byte) (size k : Nat) : Same (Snd Eq) (packLoop b size k) (packLoop b' size k) := packFrom_same ..

theorem decode_short_same (b b' : List Byte) (size : Nat) : Same Any (decode_short b size) (decode_short b' size) := by
  unfold decode_short
  refine .bind (R := Any) (.toAny (R := Snd Eq) (.forTo _ rfl fun i st st' h => ?_)) fun _ _ _ => .pure any
  obtain ⟨o, k⟩ := st
  obtain ⟨o', k'⟩ := st'
  cases (show k = k' from h)
  refine .bind (packLoop_same ..) fun x y hxy => ?_
  obtain ⟨o, k⟩ := x
  obtain ⟨o', k'⟩ := y
  cases (show k = k' from hxy)
  exact .bind (.setIdx' ..) fun _ _ _ => .pure rfl

theorem decode_same (b b' : List Byte) : Same Any (decode b) (decode b') := by
  unfold decode
  refine .bind (decode_short_same ..) fun _ _ _ => ?_
  exact .bind (R := Any) (.forTo _ any fun i _ _ _ => by same) fun _ _ _ => mul_same ..

theorem encode_same (s s' : List W32) : Same Len (encode s) (encode s') := by
  unfold encode
  refine .bind (R := fun a b : List Byte × Nat => Len a.1 b.1 ∧ a.2 = b.2) (.forTo _ ⟨rfl, rfl⟩ fun i _ _ h => .forTo _ h fun j st st' h => ?_)
    fun _ _ h => .pure h.1
  obtain ⟨o, k⟩ := st
  obtain ⟨o', k'⟩ := st'
  cases (show k = k' from h.2)
  refine .bind (.idx _ _ _) fun _ _ _ => ?_
  exact .bind (.setIdx h.1 ..) fun _ _ h => .pure ⟨h, rfl⟩

theorem decode_long_from_same {b b' : List Byte} (h : Len b b') (size : Nat) : Same Any (decode_long_from b size) (decode_long_from b' size) := by
  unfold decode_long_from
  rw [show b.length = b'.length from h]
  refine .bind (.slice ..) fun _ _ _ => ?_
  refine .bind (.subU _ _) fun n _ e => ?_
  subst e
  refine .bind (decode_short_same ..) fun _ _ _ => ?_
  refine .bind (.branch _) fun _ _ _ => .ite Iff.rfl (mul_same ..) ?_
  refine .bind (R := Any) (.toAny (R := Fst Eq) (.while' (fun a b h => by rw [show a.1 = b.1 from h]) (fun st st' h => ?_) _ _ _ rfl))
    fun _ _ _ => .pure any
  obtain ⟨k, o⟩ := st
  obtain ⟨k', o'⟩ := st'
  cases (show k = k' from h)
  refine .bind (.subU _ _) fun n _ e => ?_
  subst e
  refine .bind (montgomery_multiply_same ..) fun _ _ _ => ?_
  refine .bind (.slice ..) fun _ _ _ => ?_
  refine .bind (decode_same ..) fun _ _ _ => ?_
  exact .bind (add_same ..) fun _ _ _ => .pure rfl

theorem decode_long_same {b b' : List Byte} (h : Len b b') : Same Any (decode_long b) (decode_long b') := by
  unfold decode_long
  rw [show b.length = b'.length from h]
  refine .bind (.subU _ _) fun n _ e => ?_
  subst e
  refine .bind (.branch _) fun _ _ _ => .ite Iff.rfl (.pure any) ?_
  refine .bind (.branch _) fun _ _ _ => .ite Iff.rfl ?_ (decode_long_from_same h _)
  refine .bind (.subU _ _) fun n _ e => ?_
  subst e
  exact decode_long_from_same h _

theorem bias_same (n n' : BN) (b b' : W32) : Same Any (bias n b) (bias n' b') := by
  unfold bias
  same

theorem squareFirst_same (x x' : BN) (y : Nat) : Same (Snd Eq) (squareFirst x y) (squareFirst x' y) := by
  unfold squareFirst
  refine .bind (.branch _) fun _ _ _ => .ite Iff.rfl ?_ ?_
  all_goals
    refine .bind (.subU _ _) fun n _ e => ?_
    subst e
    exact .pure rfl

theorem square_n_same (x x' : BN) (y : Nat) : Same Any (square_n x y) (square_n x' y) := by
  unfold square_n
  refine .bind (squareFirst_same ..) fun st st' h => ?_
  obtain ⟨o, k⟩ := st
  obtain ⟨o', k'⟩ := st'
  cases (show k = k' from h)
  refine .bind (R := Any) (.toAny (R := Snd Eq) (.while' (fun a b h => by rw [show a.2 = b.2 from h]) (fun st st' h => ?_) _ _ _ rfl))
    fun _ _ _ => .pure any
  obtain ⟨o, k⟩ := st
  obtain ⟨o', k'⟩ := st'
  cases (show k = k' from h)
  refine .bind (.subU _ _) fun n _ e => ?_
  subst e
  exact .pure rfl

theorem conditional_swap_same (n x n' x' : List W32) (s s' : W32) : Same Any (conditional_swap n x s) (conditional_swap n' x' s') := by
  unfold conditional_swap
  exact .forTo _ any fun i _ _ _ => by same

theorem srSub_same (c c' : Int) (n n' : W32) (m m' : Int) : Same Any (srSub c n m) (srSub c' n' m') := by
  unfold srSub
  same

theorem srAdd_same (c c' : Nat) (n n' : W32) (m m' : Nat) : Same Any (srAdd c n m) (srAdd c' n' m') := by
  unfold srAdd
  same

theorem strong_reduce_same (n n' : BN) : Same Any (strong_reduce n) (strong_reduce n') := by
  unfold strong_reduce
  iterate 16 refine .bind (srSub_same ..) fun _ _ _ => ?_
  iterate 16 refine .bind (srAdd_same ..) fun _ _ _ => ?_
  exact .pure any

theorem serFill_same (x x' : List W32) (fill j : Nat) (w w' : W64) :
    Same (fun a b => a.1 = b.1 ∧ a.2.1 = b.2.1) (serFill x fill j w) (serFill x' fill j w') := by
  unfold serFill
  refine .bind (.branch _) fun _ _ _ => .ite Iff.rfl ?_ (.pure ⟨rfl, rfl⟩)
  exact .bind (.idx _ _ _) fun _ _ _ => .pure ⟨rfl, rfl⟩

theorem serialize_same (x x' : List W32) : Same Any (serialize x) (serialize x') := by
  unfold serialize
  refine .bind (R := Any) (.toAny (R := fun a b => a.2.1 = b.2.1 ∧ a.2.2.1 = b.2.2.1) (.forTo _ ⟨rfl, rfl⟩ fun i st st' h => ?_))
    fun _ _ _ => .pure any
  obtain ⟨r, f, j, b⟩ := st
  obtain ⟨r', f', j', b'⟩ := st'
  cases (show f = f' from h.1)
  cases (show j = j' from h.2)
  refine .bind (serFill_same ..) fun st st' h => ?_
  obtain ⟨f, j, b⟩ := st
  obtain ⟨f', j', b'⟩ := st'
  cases (show f = f' from h.1)
  cases (show j = j' from h.2)
  refine .bind (.setIdx' ..) fun _ _ _ => ?_
  refine .bind (.subU _ _) fun n _ e => ?_
  subst e
  exact .pure ⟨rfl, rfl⟩

theorem dsa_like_serialize_same (n n' : BN) : Same Any (dsa_like_serialize n) (dsa_like_serialize n') := by
  unfold dsa_like_serialize
  exact .bind (strong_reduce_same ..) fun _ _ _ => serialize_same ..

namespace BigNumber

theorem neg_same (x x' : BN) : Same Any (neg x) (neg x') := by
  unfold neg
  exact .bind (bias_same ..) fun _ _ _ => .pure any

theorem sub_same (x y x' y' : BN) : Same Any (sub x y) (sub x' y') := by
  unfold sub
  exact .bind (bias_same ..) fun _ _ _ => .pure any

theorem sub_x_bias_same (x y x' y' : BN) (a a' : W32) : Same Any (sub_x_bias x y a) (sub_x_bias x' y' a') := by
  unfold sub_x_bias
  exact .bind (bias_same ..) fun _ _ _ => .pure any

theorem low_bit_same (x x' : BN) : Same Any (low_bit x) (low_bit x') := by
  unfold low_bit
  exact .bind (strong_reduce_same ..) fun _ _ _ => .pure any

theorem isr_same (x x' : BN) : Same Any (isr x) (isr x') := by
  unfold isr
  iterate 8 refine .bind (square_n_same ..) fun _ _ _ => ?_
  exact .pure any

theorem invert_same (x x' : BN) : Same Any (invert x) (invert x') := by
  unfold invert
  exact .bind (isr_same ..) fun _ _ _ => .pure any

theorem constant_time_select_same (x y x' y' : BN) (f f' : W32) : Same Any (constant_time_select x y f) (constant_time_select x' y' f') := by
  unfold constant_time_select
  exact .bind (conditional_swap_same ..) fun _ _ _ => .pure any

theorem conditional_negate_same (x x' : BN) (f f' : W32) : Same Any (conditional_negate x f) (conditional_negate x' f') := by
  unfold conditional_negate
  exact .bind (neg_same ..) fun _ _ _ => constant_time_select_same ..

end BigNumber

theorem double_internal_same (p p' : Pt) (b : Bool) : Same Any (double_internal p b) (double_internal p' b) := by
  unfold double_internal
  refine .bind (BigNumber.sub_x_bias_same ..) fun _ _ _ => ?_
  refine .bind (BigNumber.sub_same ..) fun _ _ _ => ?_
  refine .bind (BigNumber.sub_x_bias_same ..) fun _ _ _ => ?_
  exact .bind (.branch _) fun _ _ _ => .pure any

theorem add_niels_to_extended_same (p p' : Pt) (n n' : TwistedNiels) (b : Bool) :
    Same Any (add_niels_to_extended p n b) (add_niels_to_extended p' n' b) := by
  unfold add_niels_to_extended
  iterate 3 refine .bind (BigNumber.sub_same ..) fun _ _ _ => ?_
  exact .bind (.branch _) fun _ _ _ => .pure any

theorem eddsa_like_encode_same (p p' : Pt) : Same Len (eddsa_like_encode p) (eddsa_like_encode p') := by
  unfold eddsa_like_encode
  iterate 3 refine .bind (BigNumber.sub_same ..) fun _ _ _ => ?_
  refine .bind (BigNumber.invert_same ..) fun _ _ _ => ?_
  refine .bind (dsa_like_serialize_same ..) fun _ _ _ => ?_
  refine .bind (.copyInto rfl ..) fun _ _ h => ?_
  exact .bind (BigNumber.low_bit_same ..) fun _ _ _ => .setIdx h ..

theorem conditional_negate_same (n n' : TwistedNiels) (w w' : W32) : Same Any (conditional_negate n w) (conditional_negate n' w') := by
  unfold conditional_negate
  refine .bind (conditional_swap_same ..) fun _ _ _ => ?_
  exact .bind (BigNumber.conditional_negate_same ..) fun _ _ _ => .pure any

theorem to_extended_same (n n' : TwistedNiels) : Same Any (to_extended n) (to_extended n') := by
  unfold to_extended
  exact .bind (BigNumber.sub_same ..) fun _ _ _ => .pure any

theorem combTab_same (s s' : List W32) (i j : Nat) : Same Any (combTab s i j) (combTab s' i j) := by
  unfold combTab
  refine .forTo _ any fun k _ _ _ => ?_
  refine .bind (.branch _) fun _ _ _ => .ite Iff.rfl ?_ (.pure any)
  same

theorem combSelect_same (s s' : List W32) (i j : Nat) : Same Any (combSelect s i j) (combSelect s' i j) := by
  unfold combSelect
  refine .bind (combTab_same ..) fun _ _ _ => ?_
  refine .bind (.subU _ _) fun n _ e => ?_
  subst e
  refine .bind (.chkI32 _ _) fun _ _ _ => ?_
  refine .bind (.subU _ _) fun n _ e => ?_
  subst e
  exact .bind (.lookup ..) fun _ _ _ => conditional_negate_same ..

theorem precomputed_scalar_mul_same (s s' : List W32) : Same Any (precomputed_scalar_mul s) (precomputed_scalar_mul s') := by
  unfold precomputed_scalar_mul
  refine .bind (add_same ..) fun _ _ _ => ?_
  refine .bind (halve_same ..) fun _ _ _ => ?_
  refine .forRev _ any fun i _ _ _ => ?_
  refine .bind (.subU _ _) fun n _ e => ?_
  subst e
  refine .bind (.branch _) fun _ _ _ => ?_
  refine .bind (R := Any) (.ite Iff.rfl (double_internal_same ..) (.pure any)) fun _ _ _ => ?_
  refine .forTo _ any fun j _ _ _ => ?_
  refine .bind (combSelect_same ..) fun _ _ _ => ?_
  refine .bind (.subU _ _) fun n _ e => ?_
  subst e
  refine .bind (.branch _) fun _ _ _ => ?_
  exact .ite Iff.rfl (add_niels_to_extended_same ..) (to_extended_same ..)

theorem clamp_same {pk pk' : List Byte} (h : Len pk pk') : Same Len (clamp pk) (clamp pk') := by
  unfold clamp
  refine .bind (.idx _ _ _) fun _ _ _ => ?_
  refine .bind (.setIdx h ..) fun _ _ h => ?_
  refine .bind (.setIdx h ..) fun _ _ h => ?_
  exact .bind (.idx _ _ _) fun _ _ _ => .setIdx h ..

theorem point_by_secret_same {p p' : List Byte} (h : Len p p') : Same Any (point_by_secret p) (point_by_secret p') := by
  unfold point_by_secret
  refine .bind (clamp_same h) fun _ _ h => ?_
  refine .bind (decode_long_same h) fun _ _ _ => ?_
  refine .bind (halve_same ..) fun _ _ _ => ?_
  exact .bind (halve_same ..) fun _ _ _ => precomputed_scalar_mul_same ..

theorem private_to_secret_same (xof xof' : Xof) {pk pk' : List Byte} (h : Len pk pk') :
    Same Len (private_to_secret xof pk) (private_to_secret xof' pk') := by
  unfold private_to_secret
  refine .bind (.sha3 _ _ h _) fun _ _ h => ?_
  exact .bind (.idx _ _ _) fun _ _ _ => .setIdx h ..

theorem secret_to_public_same {p p' : List Byte} (h : Len p p') : Same Len (secret_to_public p) (secret_to_public p') := by
  unfold secret_to_public
  exact .bind (point_by_secret_same h) fun _ _ _ => eddsa_like_encode_same ..

theorem private_to_public_same (xof xof' : Xof) {pk pk' : List Byte} (h : Len pk pk') :
    Same Len (private_to_public xof pk) (private_to_public xof' pk') := by
  unfold private_to_public
  exact .bind (private_to_secret_same _ _ h) fun _ _ h => secret_to_public_same h

theorem len_append {α β : Type} {a b : List α} {a' b' : List β} (h : Len a a') (h' : Len b b') : Len (a ++ b) (a' ++ b') := by
  simp only [Len, List.length_append] at *
  omega

theorem signTail_same (xof xof' : Xof) (p p' : Pt) (sec sec' : List W32) {seed seed' m m' : List Byte} (hs : Len seed seed') (hm : Len m m') :
    Same Len (signTail xof p sec seed m) (signTail xof' p' sec' seed' m') := by
  unfold signTail
  refine .bind (.hash_with_dom _ _ (len_append hs hm) _) fun _ _ h => ?_
  refine .bind (decode_long_same h) fun _ _ _ => ?_
  refine .bind (halve_same ..) fun _ _ _ => ?_
  refine .bind (halve_same ..) fun _ _ _ => ?_
  refine .bind (precomputed_scalar_mul_same ..) fun _ _ _ => ?_
  refine .bind (eddsa_like_encode_same ..) fun _ _ h1 => ?_
  refine .bind (eddsa_like_encode_same ..) fun _ _ h2 => ?_
  refine .bind (.hash_with_dom _ _ (len_append (len_append h1 h2) hm) _) fun _ _ h => ?_
  refine .bind (decode_long_same h) fun _ _ _ => ?_
  refine .bind (mul_same ..) fun _ _ _ => ?_
  refine .bind (add_same ..) fun _ _ _ => ?_
  refine .bind (.copyInto rfl ..) fun _ _ h => ?_
  exact .bind (encode_same ..) fun _ _ _ => .copyInto h ..

theorem sign_by_private_same (xof xof' : Xof) {pk pk' m m' : List Byte} (h : Len pk pk') (hm : Len m m') :
    Same Len (sign_by_private xof pk m) (sign_by_private xof' pk' m') := by
  unfold sign_by_private
  refine .bind (.sha3 _ _ h _) fun _ _ h => ?_
  refine .bind (clamp_same h) fun _ _ h => ?_
  refine .bind (.slice ..) fun _ _ _ => ?_
  refine .bind (.copyInto rfl ..) fun _ _ h1 => ?_
  refine .bind (decode_long_same h1) fun _ _ _ => ?_
  refine .bind (.slice ..) fun _ _ _ => ?_
  refine .bind (.copyInto rfl ..) fun _ _ h2 => ?_
  exact .bind (point_by_secret_same h1) fun _ _ _ => signTail_same _ _ _ _ _ _ h2 hm

theorem sign_with_secret_and_nonce_same (xof xof' : Xof) {s s' n n' m m' : List Byte} (h : Len s s') (hn : Len n n') (hm : Len m m') :
    Same Len (sign_with_secret_and_nonce xof s n m) (sign_with_secret_and_nonce xof' s' n' m') := by
  unfold sign_with_secret_and_nonce
  refine .bind (clamp_same h) fun _ _ h1 => ?_
  refine .bind (decode_long_same h1) fun _ _ _ => ?_
  exact .bind (point_by_secret_same h) fun _ _ _ => signTail_same _ _ _ _ _ _ hn hm

/-- Equal results. -/
theorem idx_kind {pk pk' : List Byte} (i : Nat) (h : (pk[i]?.map fun b => b &&& 0x80) = (pk'[i]?.map fun b => b &&& 0x80)) :
    Same (fun a b => a &&& 0x80 = b &&& 0x80) (idx pk i) (idx pk' i) := by
  refine ⟨fun a b ha hb => ?_⟩
  refine ⟨rfl, ?_⟩
  simp only [result_idx, Ed448.idx] at ha hb
  cases h1 : pk[i]? <;> rw [h1] at ha h <;> cases ha
  cases h2 : pk'[i]? <;> rw [h2] at hb h <;> cases hb
  simpa using h

theorem ed448_derive_public_same (xof xof' : Xof) {pk pk' : List Byte} (h : Len pk pk')
    (hk : (pk[56]?.map fun b => b &&& 0x80) = (pk'[56]?.map fun b => b &&& 0x80)) :
    Same Len (ed448_derive_public xof pk) (ed448_derive_public xof' pk') := by
  unfold ed448_derive_public
  refine .bind (R := fun a b => a = 56 ∧ b = 56) ?_ fun a b e => ?_
  · refine ⟨fun a b ha hb => ?_⟩
    cases ha
    cases hb
    exact ⟨rfl, rfl, rfl⟩
  obtain ⟨rfl, rfl⟩ := e
  refine .bind (idx_kind 56 hk) fun _ _ e => ?_
  rw [e]
  exact .bind (.branch _) fun _ _ _ => .ite Iff.rfl (private_to_public_same _ _ h) (secret_to_public_same h)

theorem ed448_sign_same (xof xof' : Xof) {pk pk' m m' : List Byte} (h : Len pk pk') (hm : Len m m')
    (hk : (pk[56]?.map fun b => b &&& 0x80) = (pk'[56]?.map fun b => b &&& 0x80)) :
    Same Len (ed448_sign xof pk m) (ed448_sign xof' pk' m') := by
  unfold ed448_sign
  refine .bind (R := fun a b => a = 56 ∧ b = 56) ?_ fun a b e => ?_
  · refine ⟨fun a b ha hb => ?_⟩
    cases ha
    cases hb
    exact ⟨rfl, rfl, rfl⟩
  obtain ⟨rfl, rfl⟩ := e
  refine .bind (idx_kind 56 hk) fun _ _ e => ?_
  rw [e]
  refine .bind (.branch _) fun _ _ _ => .ite Iff.rfl (sign_by_private_same _ _ h hm) ?_
  exact .bind (clamp_same h) fun _ _ h => sign_with_secret_and_nonce_same _ _ h h hm

end Leak

end Ed448
