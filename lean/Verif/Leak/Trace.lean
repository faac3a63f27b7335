import Verif.Spec.Trace
import Verif.Leak.Positions
import Verif.Leak.Masked

/-!
# The records are those written out in `Spec/Trace.lean`
-/

namespace Ed448

namespace Leak

open Ed448

/-- When the computation returns, its record is `l`, apart from the positions in the precomputed table, and its result satisfies `P`. -/
structure Emits {α : Type} (P : α → Prop) (l : List Event) (x : Leak α) : Prop where
  out : ∀ a, x.result = .ok a → x.events.map Event.hide = l.map Event.hide ∧ P a

/-- When the computation returns, its record is `l`, apart from the positions in the precomputed table. -/
abbrev Shows {α : Type} (l : List Event) (x : Leak α) : Prop := Emits (fun _ => True) l x

namespace Emits

variable {α β : Type} {P : α → Prop} {Q : β → Prop} {l l' : List Event}

theorem mono {P' : α → Prop} {x : Leak α} (h : Emits P l x) (hp : ∀ a, P a → P' a) : Emits P' l x :=
  ⟨fun a ha => ⟨(h.out a ha).1, hp a (h.out a ha).2⟩⟩

theorem shows {x : Leak α} (h : Emits P l x) : Shows l x := h.mono fun _ _ => trivial

theorem bind {x : Leak α} {f : α → Leak β} (h : Emits P l x) (hf : ∀ a, P a → Emits Q l' (f a)) : Emits Q (l ++ l') (x >>= f) := by
  refine ⟨fun b hb => ?_⟩
  obtain ⟨a, ha, hb⟩ := bind_ok_iff hb
  obtain ⟨h1, h2⟩ := h.out a ha
  obtain ⟨h3, h4⟩ := (hf a h2).out b hb
  rw [events_bind ha, List.map_append, List.map_append, h1, h3]
  exact ⟨rfl, h4⟩

/-- A computation without a record comes first. -/
theorem after {x : Leak α} {f : α → Leak β} (h : Emits P [] x) (hf : ∀ a, P a → Emits Q l (f a)) : Emits Q l (x >>= f) := h.bind hf

/-- A computation with one event comes first. -/
theorem cons {e : Event} {x : Leak α} {f : α → Leak β} (h : Emits P [e] x) (hf : ∀ a, P a → Emits Q l (f a)) : Emits Q (e :: l) (x >>= f) := h.bind hf

/-- A computation without a record comes last. -/
theorem before {x : Leak α} {f : α → Leak β} (h : Emits P l x) (hf : ∀ a, P a → Emits Q [] (f a)) : Emits Q l (x >>= f) := by
  have := h.bind hf
  rwa [List.append_nil] at this

theorem pure {a : α} (h : P a) : Emits P [] (pure a : Leak α) := by
  refine ⟨fun b hb => ?_⟩
  cases hb
  exact ⟨rfl, h⟩

theorem silent (x : Rust α) : Shows [] (silent x) := ⟨fun _ _ => ⟨rfl, trivial⟩⟩
theorem branch (b : Bool) : Shows [.branch b] (branch b) := ⟨fun _ _ => ⟨rfl, trivial⟩⟩
theorem idx (l : List α) (i : Nat) : Shows [.read i] (idx l i) := ⟨fun _ _ => ⟨rfl, trivial⟩⟩
theorem setIdx (l : List α) (i : Nat) (x : α) : Shows [.write i] (setIdx l i x) := ⟨fun _ _ => ⟨rfl, trivial⟩⟩
theorem lookup (l : List TwistedNiels) (i j : Nat) : Shows [.table j] (lookup l i) := ⟨fun _ _ => ⟨rfl, trivial⟩⟩
theorem chkI64 (x : Int) : Shows [] (chkI64 x) := .silent _
theorem chkU64 (x : Nat) : Shows [] (chkU64 x) := .silent _
theorem chkU32 (x : Nat) : Shows [] (chkU32 x) := .silent _
theorem chkI32 (x : Int) : Shows [] (chkI32 x) := .silent _
theorem shl32 (x : W32) (n : Nat) : Shows [] (shl32 x n) := .silent _
theorem shr32 (x : W32) (n : Nat) : Shows [] (shr32 x n) := .silent _

theorem subU (a b : Nat) : Emits (fun n => n = a - b) [] (subU a b) := by
  refine ⟨fun n hn => ⟨rfl, ?_⟩⟩
  simp only [result_subU, Ed448.subU] at hn
  split at hn
  · cases hn
    rfl
  · cases hn

theorem slice (b : List Byte) (lo hi : Nat) : Emits (fun a => a.length = hi - lo) [.copy lo hi] (slice b lo hi) := by
  refine ⟨fun a ha => ⟨rfl, ?_⟩⟩
  simp only [result_slice, Ed448.slice] at ha
  split at ha
  · cases ha
    simp only [List.length_take, List.length_drop]
    omega
  · cases ha

theorem copyInto (dst : List Byte) (lo hi : Nat) (s : List Byte) : Emits (fun a => a.length = dst.length) [.copy lo hi] (copyInto dst lo hi s) := by
  refine ⟨fun a ha => ⟨rfl, ?_⟩⟩
  simp only [result_copyInto, Ed448.copyInto] at ha
  split at ha
  · cases ha
    simp only [List.length_append, List.length_take, List.length_drop]
    omega
  · cases ha

theorem setIdx_length (l : List α) (i : Nat) (x : α) : Emits (fun a => a.length = l.length) [.write i] (Leak.setIdx l i x) := by
  refine ⟨fun a ha => ⟨rfl, ?_⟩⟩
  simp only [result_setIdx, Ed448.setIdx] at ha
  split at ha
  · cases ha
    simp
  · cases ha

theorem sha3 (xof : Xof) (b : List Byte) (n : Nat) : Emits (fun a => a.length = n) [.hash b.length n] (sha3 xof b n) := by
  refine ⟨fun a ha => ⟨rfl, ?_⟩⟩
  cases ha
  exact (Ed448.sha3 xof b n).2

theorem hash_with_dom (xof : Xof) (b : List Byte) (n : Nat) :
    Emits (fun a => a.length = n) [.hash (10 + b.length) n] (hash_with_dom xof b n) := by
  refine ⟨fun a ha => ⟨rfl, ?_⟩⟩
  cases ha
  exact (Ed448.hash_with_dom xof b n).2

/-- A loop that keeps an invariant. -/
theorem loop {body : Nat → α → Leak α} {g : Nat → List Event} {I : Nat → α → Prop} {N : Nat}
    (h : ∀ i a, i < N → I i a → Emits (I (i + 1)) (g i) (body i a)) :
    ∀ (n i : Nat) (a : α), i + n ≤ N → I i a → Emits (I (i + n)) ((List.range' i n).flatMap g) (loop body (List.range' i n) a)
  | 0, _, _, _, ha => .pure ha
  | n + 1, i, a, hn, ha => by
    rw [List.range'_succ, List.flatMap_cons]
    refine .bind (h i a (by omega) ha) fun b hb => ?_
    have := loop h n (i + 1) b (by omega) hb
    rwa [show i + 1 + n = i + (n + 1) by omega] at this

theorem forInv {body : Nat → α → Leak α} {g : Nat → List Event} (n : Nat) {a : α} (I : Nat → α → Prop) (ha : I 0 a)
    (h : ∀ i a, i < n → I i a → Emits (I (i + 1)) (g i) (body i a)) : Emits (I n) (Trace.each n g) (forTo n a body) := by
  have := loop h n 0 a (by omega) ha
  rw [Nat.zero_add, ← List.range_eq_range'] at this
  exact this

/-- A loop whose record does not depend on its state. -/
theorem list {body : Nat → α → Leak α} {g : Nat → List Event} (h : ∀ i a, Shows (g i) (body i a)) :
    ∀ (is : List Nat) (a : α), Shows (is.flatMap g) (Leak.loop body is a)
  | [], _ => .pure trivial
  | i :: is, a => by
    rw [List.flatMap_cons]
    exact .bind (h i a) fun a _ => list h is a

theorem forTo {body : Nat → α → Leak α} {g : Nat → List Event} (n : Nat) (a : α) (h : ∀ i a, Shows (g i) (body i a)) :
    Shows (Trace.each n g) (forTo n a body) := list h _ _

theorem ite {c : Prop} [Decidable c] {x y : Leak α} (hx : c → Emits P l x) (hy : ¬c → Emits P l' y) :
    Emits P (if c then l else l') (if c then x else y) := by
  by_cases h : c
  · rw [if_pos h, if_pos h]
    exact hx h
  · rw [if_neg h, if_neg h]
    exact hy h

end Emits

open Emits

/-- Proves `Shows` for code without branches, whose record is given as a list of single events. -/
macro "shows" : tactic => `(tactic| repeat' first
  | exact .pure trivial
  | exact .idx _ _
  | exact .setIdx _ _ _
  | exact .branch _
  | exact .chkI64 _
  | exact .chkU64 _
  | exact .chkU32 _
  | exact .chkI32 _
  | exact .shl32 _ _
  | exact .shr32 _ _
  | refine .cons (.idx _ _) fun _ _ => ?_
  | refine .cons (.setIdx _ _ _) fun _ _ => ?_
  | refine .cons (.branch _) fun _ _ => ?_
  | refine .after (.chkI64 _) fun _ _ => ?_
  | refine .after (.chkU64 _) fun _ _ => ?_
  | refine .after (.chkU32 _) fun _ _ => ?_
  | refine .after (.chkI32 _) fun _ _ => ?_
  | refine .after (.shl32 _ _) fun _ _ => ?_
  | refine .after (.shr32 _ _) fun _ _ => ?_)

theorem sub_extra_shows (a b : List W32) (c : W32) : Shows Trace.reduce (sub_extra a b c) := by
  unfold sub_extra
  refine .bind (l := Trace.pass) (.forTo _ _ fun i _ => by shows) fun _ _ => .after (.chkI64 _) fun _ _ => ?_
  exact .before (.forTo _ _ fun i _ => by shows) fun _ _ => .pure trivial

theorem add_shows (a b : List W32) : Shows Trace.add (add a b) := by
  unfold add
  exact .bind (l := Trace.pass) (.forTo _ _ fun i _ => by shows) fun _ _ => sub_extra_shows ..

theorem halve_shows (a : List W32) : Shows Trace.halve (halve a) := by
  unfold halve
  refine .cons (.idx _ _) fun _ _ => .bind (l := Trace.pass) (.forTo _ _ fun i _ => by shows) fun _ _ => .after (.subU _ _) fun n hn => ?_
  subst hn
  refine .bind (.forTo _ _ fun i _ => by shows) fun _ _ => ?_
  shows

theorem mmStep_shows (x y : List W32) (i : Nat) (st : List W32 × W32) : Shows (Trace.montgomeryRound i) (mmStep x y i st) := by
  unfold mmStep
  refine .cons (.idx _ _) fun _ _ => .bind (l := Trace.pass) (.forTo _ _ fun i _ => by shows) fun _ _ => .cons (.idx _ _) fun _ _ => ?_
  refine .bind (.forTo _ _ fun j _ => ?_) fun _ _ => ?_
  · refine .cons (.idx _ _) fun _ _ => .cons (.idx _ _) fun _ _ => .cons (.branch _) fun _ _ => ?_
    refine .ite (c := j > 0) (fun _ => .after (.subU _ _) fun n hn => ?_) fun _ => .after (P := fun _ => True) (.pure trivial) fun _ _ => .pure trivial
    subst hn
    exact .cons (.setIdx ..) fun _ _ => .pure trivial
  · shows

theorem montgomery_multiply_shows (x y : List W32) : Shows Trace.montgomery (montgomery_multiply x y) := by
  unfold montgomery_multiply
  exact .bind (.forTo _ _ fun _ _ => mmStep_shows ..) fun _ _ => sub_extra_shows ..

theorem mul_shows (x y : List W32) : Shows Trace.mul (mul x y) := by
  unfold mul
  exact .bind (montgomery_multiply_shows ..) fun _ _ => montgomery_multiply_shows ..

theorem packFrom_shows (b : List Byte) (size : Nat) : ∀ (js : List Nat) (out : W32) (k : Nat), k ≤ size →
    Emits (fun st => st.2 = min (k + js.length) size)
      (Trace.each (min js.length (size - k)) (fun t => [.branch false, .read (k + t)]) ++ if size < k + js.length then [.branch true] else [])
      (packFrom b size js (out, k))
  | [], out, k, hk => by
    rw [List.length_nil, Nat.zero_min, if_neg (by omega)]
    exact .pure (by simp only; omega)
  | j :: js, out, k, hk => by
    rw [packFrom, List.length_cons]
    by_cases h : k ≥ size
    · rw [if_pos (by omega), if_pos h, show min (js.length + 1) (size - k) = 0 by omega]
      refine .cons (P := fun _ => True) ?_ fun _ _ => .pure (by simp only; omega)
      rw [decide_eq_true h]
      exact .branch _
    · rw [if_neg h, show min (js.length + 1) (size - k) = min js.length (size - (k + 1)) + 1 by omega, Trace.each, List.range_succ_eq_map,
        List.flatMap_cons, List.flatMap_map]
      refine .cons (P := fun _ => True) ?_ fun _ _ => .cons (.idx _ _) fun _ _ => ?_
      · rw [decide_eq_false h]
        exact .branch _
      · have := packFrom_shows b size js (out ||| (‹Byte›.setWidth 32 <<< (8 * j))) (k + 1) (by omega)
        rw [Trace.each] at this
        rw [show (fun a => [Event.branch false, Event.read (k + Nat.succ a)]) = fun t => [Event.branch false, Event.read (k + 1 + t)] from
          funext fun t => by rw [show k + Nat.succ t = k + 1 + t by omega], show k + (js.length + 1) = k + 1 + js.length by omega]
        exact this

theorem packLoop_shows (b : List Byte) (size i : Nat) :
    Emits (fun st => st.2 = min (4 * (i + 1)) size) (Trace.word size i) (packLoop b size (min (4 * i) size)) := by
  have := packFrom_shows b size (List.range 4) 0 (min (4 * i) size) (by omega)
  rw [List.length_range] at this
  have e : Trace.word size i = Trace.each (min 4 (size - min (4 * i) size)) (fun t => [.branch false, .read (min (4 * i) size + t)]) ++
      if size < min (4 * i) size + 4 then [.branch true] else [] := by
    rw [Trace.word]
    by_cases h : 4 * i ≤ size
    · rw [Nat.min_eq_left h]
    · rw [show min (4 * i) size = size by omega, show min 4 (size - size) = 0 by omega, show min 4 (size - 4 * i) = 0 by omega, if_pos (by omega), if_pos (by omega)]
      rfl
  rw [e]
  exact this.mono fun a ha => by omega

theorem decode_short_shows (b : List Byte) (size : Nat) : Shows (Trace.short size) (decode_short b size) := by
  unfold decode_short
  refine .before (.forInv 14 (fun i (st : List W32 × Nat) => st.2 = min (4 * i) size) (by simp) fun i st _ h => ?_) fun _ _ => .pure trivial
  obtain ⟨s, k⟩ := st
  cases (show k = _ from h)
  refine .bind (packLoop_shows ..) fun st h => ?_
  exact .cons (.setIdx ..) fun _ _ => .pure h

theorem decode_shows (b : List Byte) : Shows Trace.decode (decode b) := by
  unfold decode
  exact .bind (decode_short_shows ..) fun _ _ => .bind (.forTo _ _ fun _ _ => by shows) fun _ _ => mul_shows ..

theorem encode_shows (s : List W32) : Shows Trace.encode (encode s) := by
  unfold encode
  refine .before (.forInv 14 (fun i (st : List Byte × Nat) => st.2 = 4 * i) (by simp) fun i st _ h => ?_) fun _ _ => .pure trivial
  refine (Emits.forInv 4 (fun j (st : List Byte × Nat) => st.2 = 4 * i + j) h fun j st _ h => ?_).mono fun _ h => by omega
  obtain ⟨d, k⟩ := st
  cases (show k = _ from h)
  refine .cons (.idx ..) fun _ _ => .cons (.setIdx ..) fun _ _ => .pure ?_
  show 4 * i + j + 1 = _
  omega

theorem long_while (b : List Byte) : ∀ (blocks fuel : Nat) (res : List W32), blocks < fuel →
    Shows ((List.range blocks).reverse.flatMap (fun i => .branch true :: (Trace.montgomery ++ (.copy (56 * i) b.length :: (Trace.decode ++ Trace.add)))) ++ [.branch false])
      (while' (fun st : Nat × List W32 => decide (st.1 > 0)) (fun (size, res) => do
        let size ← subU size 56
        let res ← montgomery_multiply res SCALAR_R2.1
        let sl ← slice b size b.length
        let y ← decode sl
        let res ← add res y
        pure (size, res)) fuel (56 * blocks, res))
  | _, 0, _, h => absurd h (by omega)
  | 0, fuel + 1, res, _ => by
    rw [while']
    exact .cons (.branch _) fun _ _ => .pure trivial
  | blocks + 1, fuel + 1, res, h => by
    rw [while', List.range_succ, List.reverse_append, List.reverse_cons, List.reverse_nil, List.nil_append, List.cons_append, List.nil_append, List.flatMap_cons,
      List.append_assoc, List.cons_append, if_pos (decide_eq_true (by omega)), decide_eq_true (by omega)]
    refine .cons (.branch _) fun _ _ => ?_
    refine Emits.bind (P := fun st => st.1 = 56 * blocks) ?_ fun st hst => ?_
    · refine .after (.subU _ _) fun n hn => ?_
      rw [show 56 * (blocks + 1) - 56 = 56 * blocks by omega] at hn
      subst hn
      refine .bind (montgomery_multiply_shows ..) fun _ _ => .cons (.slice ..) fun _ _ => .bind (decode_shows _) fun _ _ => ?_
      exact .before (add_shows ..) fun _ _ => .pure rfl
    · obtain ⟨k, r⟩ := st
      cases (show k = _ from hst)
      exact long_while b blocks fuel r (by omega)

theorem decode_long_shows (b : List Byte) (blocks rest : Nat) (hn : b.length = 56 * blocks + rest) (h0 : 0 < rest) (h1 : rest < 56) :
    Shows (Trace.long b.length blocks) (decode_long b) := by
  unfold decode_long
  refine .after (.subU _ _) fun n e => ?_
  rw [show b.length - b.length % 56 = 56 * blocks by omega] at e
  subst e
  rw [if_neg (by omega), if_neg (by omega), decide_eq_false (by omega), decide_eq_false (by omega)]
  refine .cons (.branch _) fun _ _ => .cons (.branch _) fun _ _ => ?_
  unfold decode_long_from
  refine .cons (.slice ..) fun _ _ => .after (.subU _ _) fun n e => ?_
  subst e
  refine .bind (decode_short_shows ..) fun _ _ => ?_
  rw [if_neg (by omega), decide_eq_false (by omega)]
  refine .cons (.branch _) fun _ _ => .before (long_while b blocks (b.length + 1) _ (by omega)) fun _ _ => .pure trivial

theorem decode_long_57 (b : List Byte) (h : b.length = 57) : Shows (Trace.long 57 1) (decode_long b) := by
  have := decode_long_shows b 1 1 h (by omega) (by omega)
  rwa [h] at this

theorem decode_long_114 (b : List Byte) (h : b.length = 114) : Shows (Trace.long 114 2) (decode_long b) := by
  have := decode_long_shows b 2 2 h (by omega) (by omega)
  rwa [h] at this

theorem bias_shows (n : BN) (b : W32) : Shows [] (bias n b) := by
  unfold bias
  exact .after (.chkU32 _) fun _ _ => .after (.subU ..) fun _ _ => .pure trivial

theorem squares_while (fuel : Nat) : ∀ (k : Nat) (n : BN), k < fuel →
    Shows (List.replicate k (.branch true) ++ [.branch false]) (while' (fun st : BN × Nat => decide (st.2 > 0)) (fun (n, y) => do
      let y1 ← subU y 2
      pure (square (square n), y1)) fuel (n, 2 * k)) := by
  induction fuel with
  | zero => exact fun k _ h => absurd h (by omega)
  | succ fuel ih =>
    intro k n h
    cases k with
    | zero =>
      rw [while']
      exact .cons (.branch _) fun _ _ => .pure trivial
    | succ k =>
      rw [while', List.replicate_succ, List.cons_append, if_pos (decide_eq_true (by omega)), decide_eq_true (by omega)]
      refine .cons (.branch _) fun _ _ => ?_
      refine Emits.after (P := fun st => st.2 = 2 * k) (.after (.subU _ _) fun m hm => .pure ?_) fun st hst => ?_
      · show m = _
        omega
      · obtain ⟨n, y⟩ := st
        cases (show y = _ from hst)
        exact ih k n (by omega)

theorem square_n_shows (x : BN) (y : Nat) (hy : 0 < y) : Shows (Trace.squares y) (square_n x y) := by
  unfold square_n
  refine Emits.bind (l := [_]) (P := fun st => st.2 = 2 * ((y - 1) / 2)) ?_ fun st hst => ?_
  · unfold squareFirst
    refine .cons (P := fun _ => True) ?_ fun _ _ => ?_
    · rw [show decide (y % 2 ≠ 0) = decide (y % 2 = 1) by
        congr 1
        rw [eq_iff_iff]
        omega]
      exact .branch _
    · split
      · refine .after (.subU _ _) fun n hn => .pure ?_
        show n = _
        omega
      · refine .after (.subU _ _) fun n hn => .pure ?_
        show n = _
        omega
  · obtain ⟨n, k⟩ := st
    cases (show k = _ from hst)
    exact .before (squares_while _ _ _ (by omega)) fun _ _ => .pure trivial

theorem conditional_swap_shows (n x : List W32) (s : W32) : Shows Trace.swap (conditional_swap n x s) := by
  unfold conditional_swap
  exact .forTo _ _ fun _ _ => by shows

theorem srSub_shows (c : Int) (n : W32) (m : Int) : Shows [] (srSub c n m) := by
  unfold srSub
  shows

theorem srAdd_shows (c : Nat) (n : W32) (m : Nat) : Shows [] (srAdd c n m) := by
  unfold srAdd
  shows

theorem strong_reduce_shows (n : BN) : Shows [] (strong_reduce n) := by
  unfold strong_reduce
  iterate 16 refine .after (srSub_shows ..) fun _ _ => ?_
  iterate 16 refine .after (srAdd_shows ..) fun _ _ => ?_
  exact .pure trivial

theorem serialize_shows (x : List W32) : Shows Trace.serialize (serialize x) := by
  unfold serialize
  refine .before (.forInv 56 (fun i (st : List Byte × Nat × Nat × W64) => st.2.2.1 = (2 * i + 6) / 7 ∧ st.2.1 + 8 * i = 28 * st.2.2.1) (by simp)
    fun i st hi h => ?_) fun _ _ => .pure trivial
  obtain ⟨res, fill, j, buf⟩ := st
  obtain ⟨h1, h2⟩ := h
  simp only at h1 h2
  refine Emits.bind (P := fun st => st.2.1 = (2 * i + 8) / 7 ∧ st.1 + 8 * i = 28 * st.2.1) ?_ fun st hst => ?_
  · unfold serFill
    by_cases h : (2 * i + 6) / 7 < (2 * i + 8) / 7
    · rw [if_pos h, if_pos (by omega), decide_eq_true (by omega), ← h1]
      refine .cons (.branch _) fun _ _ => .cons (.idx _ _) fun _ _ => .pure ?_
      simp only
      omega
    · rw [if_neg h, if_neg (by omega), decide_eq_false (by omega)]
      refine .cons (.branch _) fun _ _ => .pure ?_
      simp only
      omega
  · obtain ⟨fill, j, buf⟩ := st
    obtain ⟨h3, h4⟩ := hst
    simp only at h3 h4
    refine .cons (.setIdx ..) fun _ _ => .after (.subU ..) fun n hn => .pure ?_
    simp only
    omega

theorem dsa_like_serialize_shows (n : BN) : Shows Trace.serialize (dsa_like_serialize n) := by
  unfold dsa_like_serialize
  exact .after (strong_reduce_shows ..) fun _ _ => serialize_shows ..

namespace BigNumber

theorem neg_shows (x : BN) : Shows [] (neg x) := .after (bias_shows ..) fun _ _ => .pure trivial

theorem sub_shows (x y : BN) : Shows [] (sub x y) := .after (bias_shows ..) fun _ _ => .pure trivial

theorem sub_x_bias_shows (x y : BN) (a : W32) : Shows [] (sub_x_bias x y a) := .after (bias_shows ..) fun _ _ => .pure trivial

theorem low_bit_shows (x : BN) : Shows [] (low_bit x) := .after (strong_reduce_shows ..) fun _ _ => .pure trivial

theorem isr_shows (x : BN) : Shows Trace.invert (isr x) := by
  unfold isr Trace.invert
  iterate 8
    rw [List.flatMap_cons]
    refine .bind (square_n_shows _ _ (by norm_num)) fun _ _ => ?_
  exact .pure trivial

theorem invert_shows (x : BN) : Shows Trace.invert (invert x) := .before (isr_shows ..) fun _ _ => .pure trivial

theorem constant_time_select_shows (x y : BN) (f : W32) : Shows Trace.swap (constant_time_select x y f) :=
  .before (conditional_swap_shows ..) fun _ _ => .pure trivial

theorem conditional_negate_shows (x : BN) (f : W32) : Shows Trace.swap (conditional_negate x f) :=
  .after (neg_shows ..) fun _ _ => constant_time_select_shows ..

end BigNumber

theorem double_internal_shows (p : Pt) : Shows [.branch true] (double_internal p false) := by
  unfold double_internal
  exact .after (BigNumber.sub_x_bias_shows ..) fun _ _ => .after (BigNumber.sub_shows ..) fun _ _ => .after (BigNumber.sub_x_bias_shows ..) fun _ _ =>
    .cons (.branch _) fun _ _ => .pure trivial

theorem add_niels_to_extended_shows (p : Pt) (n : TwistedNiels) (b : Bool) : Shows [.branch (!b)] (add_niels_to_extended p n b) := by
  unfold add_niels_to_extended
  iterate 3 refine .after (BigNumber.sub_shows ..) fun _ _ => ?_
  exact .cons (.branch _) fun _ _ => .pure trivial

theorem eddsa_like_encode_shows (p : Pt) : Emits (fun b => b.length = 57) Trace.point (eddsa_like_encode p) := by
  unfold eddsa_like_encode
  iterate 3 refine .after (BigNumber.sub_shows ..) fun _ _ => ?_
  refine .bind (BigNumber.invert_shows ..) fun _ _ => .bind (dsa_like_serialize_shows ..) fun _ _ => .cons (.copyInto ..) fun res h => ?_
  refine .after (BigNumber.low_bit_shows ..) fun _ _ => (Emits.setIdx_length ..).mono fun a ha => ?_
  rw [ha, h, List.length_replicate]

theorem conditional_negate_shows (n : TwistedNiels) (w : W32) : Shows (Trace.swap ++ Trace.swap) (conditional_negate n w) := by
  unfold conditional_negate
  exact .bind (conditional_swap_shows ..) fun _ _ => .before (BigNumber.conditional_negate_shows ..) fun _ _ => .pure trivial

theorem to_extended_shows (n : TwistedNiels) : Shows [] (to_extended n) := .after (BigNumber.sub_shows ..) fun _ _ => .pure trivial

theorem combTab_shows (s : List W32) (i j : Nat) : Shows (Trace.teeth i j) (combTab s i j) := by
  unfold combTab
  refine .forTo _ _ fun k _ => ?_
  dsimp only
  by_cases h : i + 18 * (k + j * 5) < 446
  · rw [if_pos h, if_pos h, decide_eq_true h]
    shows
  · rw [if_neg h, if_neg h, decide_eq_false h]
    shows

theorem clamp_shows (pk : List Byte) : Emits (fun b => b.length = pk.length) Trace.clamp (clamp pk) := by
  unfold clamp
  refine .cons (.idx ..) fun _ _ => .cons (.setIdx_length ..) fun _ h1 => .cons (.setIdx_length ..) fun _ h2 => .cons (.idx ..) fun _ _ => ?_
  exact (Emits.setIdx_length ..).mono fun a ha => by rw [ha, h2, h1]

theorem private_to_secret_shows (xof : Xof) (pk : List Byte) (h : pk.length = 57) :
    Emits (fun b => b.length = 57) [.hash 57 57, .read 56, .write 56] (private_to_secret xof pk) := by
  unfold private_to_secret
  rw [← h]
  refine .cons (.sha3 ..) fun _ h1 => .cons (.idx ..) fun _ _ => ?_
  exact (Emits.setIdx_length ..).mono fun a ha => by rw [ha, h1]

theorem combSelect_shows (s : List W32) (i j pos : Nat) :
    Shows (Trace.teeth i j ++ ([.table pos] ++ (Trace.swap ++ Trace.swap))) (combSelect s i j) := by
  unfold combSelect
  refine .bind (combTab_shows ..) fun _ _ => .after (.subU ..) fun _ _ => .after (.chkI32 _) fun _ _ => .after (.subU ..) fun _ _ => ?_
  exact .bind (.lookup ..) fun _ _ => conditional_negate_shows ..

/-- What is common to the two multiplications. -/
theorem comb_shows {sel : List W32 → Nat → Nat → Leak TwistedNiels} {look : Nat → Nat → List Event}
    (h : ∀ s i j, Shows (Trace.teeth i j ++ (look i j ++ (Trace.swap ++ Trace.swap))) (sel s i j)) (s : List W32) :
    Shows (Trace.comb look) (do
      let scalar2 ← add s scalar_adjustment.1
      let scalar2 ← halve scalar2
      forRev 18 Pt.zero fun i p => do
        let l ← subU 18 1
        branch (decide (i ≠ l))
        let p ← (if i ≠ l then double_internal p false else pure p)
        forTo 5 p fun j p => do
          let np ← sel scalar2 i j
          let l5 ← subU 5 1
          branch (decide (i ≠ l ∨ j ≠ 0))
          if i ≠ l ∨ j ≠ 0 then add_niels_to_extended p np (j == l5 && i != 0) else to_extended np) := by
  refine .bind (add_shows ..) fun _ _ => .bind (halve_shows ..) fun s2 _ => Emits.list (fun i p => ?_) _ _
  refine .after (.subU ..) fun l hl => ?_
  subst hl
  refine .cons (.branch _) fun _ _ => .bind (.ite (fun _ => double_internal_shows _) fun _ => .pure trivial) fun _ _ => .forTo _ _ fun j _ => ?_
  have e : Trace.tooth (look i j) i j = (Trace.teeth i j ++ (look i j ++ (Trace.swap ++ Trace.swap))) ++ (.branch (decide (i ≠ 17 ∨ j ≠ 0)) ::
      if i ≠ 17 ∨ j ≠ 0 then [.branch (decide (j ≠ 4 ∨ i = 0))] else []) := by
    simp only [Trace.tooth, List.append_assoc]
  rw [e]
  refine .bind (h ..) fun _ _ => .after (.subU ..) fun l hl => ?_
  subst hl
  refine .cons (.branch _) fun _ _ => .ite (fun _ => ?_) fun _ => to_extended_shows ..
  have e2 : decide (j ≠ 4 ∨ i = 0) = !(j == 5 - 1 && i != 0) := by
    by_cases h1 : j = 4 <;> by_cases h2 : i = 0 <;> simp [h1, h2]
  rw [e2]
  exact add_niels_to_extended_shows ..

theorem precomputed_scalar_mul_shows (pos : Nat → Nat → Nat) (s : List W32) : Shows (Trace.comb (Trace.one pos)) (precomputed_scalar_mul s) :=
  comb_shows (fun s i j => combSelect_shows s i j (pos i j)) s

theorem point_by_secret_shows (pos : Nat → Nat → Nat) (p : List Byte) (h : p.length = 57) :
    Shows (Trace.secret (Trace.one pos)) (point_by_secret p) := by
  unfold point_by_secret
  exact .bind (clamp_shows ..) fun d hd => .bind (decode_long_57 _ (hd.trans h)) fun _ _ => .bind (halve_shows ..) fun _ _ => .bind (halve_shows ..) fun _ _ =>
    precomputed_scalar_mul_shows ..

theorem secret_to_public_shows (pos : Nat → Nat → Nat) (p : List Byte) (h : p.length = 57) :
    Shows (Trace.secret (Trace.one pos) ++ Trace.point) (secret_to_public p) := by
  unfold secret_to_public
  exact .bind (point_by_secret_shows pos p h) fun _ _ => (eddsa_like_encode_shows ..).shows

theorem ed448_derive_public_shows (pos : Nat → Nat → Nat) (xof : Xof) (k : Arr Byte 57) :
    Shows (Trace.derive (decide (signBit k.1 = 0)) (Trace.one pos)) (ed448_derive_public xof k.1) := by
  unfold ed448_derive_public
  refine .after (.subU ..) fun n hn => ?_
  subst hn
  refine .cons (P := fun b => b &&& 0x80 = 0 ↔ signBit k.1 = 0) ⟨fun b hb => ⟨rfl, ?_⟩⟩ fun b hb => ?_
  · rw [result_idx, idx_eq _ _ (by rw [k.2]; norm_num)] at hb
    cases hb
    exact kind_iff k
  · rw [show decide (b &&& 0x80 = 0) = decide (signBit k.1 = 0) by simp only [hb]]
    refine .cons (.branch _) fun _ _ => ?_
    by_cases hk : signBit k.1 = 0
    · rw [if_pos (hb.2 hk), if_pos (decide_eq_true hk)]
      unfold private_to_public
      exact .bind (private_to_secret_shows xof k.1 k.2) fun s hs => secret_to_public_shows pos s hs
    · rw [if_neg (fun e => hk (hb.1 e)), if_neg (by simpa using hk)]
      exact secret_to_public_shows pos k.1 k.2

theorem signTail_shows (pos : Nat → Nat → Nat) (xof : Xof) (p : Pt) (sec : List W32) (seed m : List Byte) (hs : seed.length = 57) :
    Shows (Trace.finish m.length (Trace.one pos)) (signTail xof p sec seed m) := by
  unfold signTail
  refine .cons (P := fun a => a.length = 114) ?_ fun n hn => .bind (decode_long_114 _ hn) fun _ _ => .bind (halve_shows ..) fun _ _ =>
    .bind (halve_shows ..) fun _ _ => .bind (precomputed_scalar_mul_shows pos _) fun _ _ => .bind (eddsa_like_encode_shows ..) fun r hr =>
    .bind (eddsa_like_encode_shows ..) fun a ha => .cons (P := fun a => a.length = 114) ?_ fun n hn => .bind (decode_long_114 _ hn) fun _ _ =>
    .bind (mul_shows ..) fun _ _ => .bind (add_shows ..) fun _ _ => .cons (.copyInto ..) fun _ _ => .bind (encode_shows _) fun _ _ => (Emits.copyInto ..).shows
  · have := Emits.hash_with_dom xof (seed ++ m) 114
    rwa [List.length_append, hs, ← Nat.add_assoc] at this
  · have := Emits.hash_with_dom xof (r ++ a ++ m) 114
    rwa [List.length_append, List.length_append, hr, ha, ← Nat.add_assoc] at this

theorem sign_by_private_shows (pos pos' : Nat → Nat → Nat) (xof : Xof) (k m : List Byte) (hk : k.length = 57) :
    Shows ((.hash 57 114 :: (Trace.clamp ++ (.copy 0 57 :: .copy 0 57 :: (Trace.long 57 1 ++ [.copy 57 114, .copy 0 57])))) ++
      (Trace.secret (Trace.one pos) ++ Trace.finish m.length (Trace.one pos'))) (sign_by_private xof k m) := by
  unfold sign_by_private
  simp only [List.cons_append, List.append_assoc, List.nil_append]
  have e := Emits.sha3 xof k 114
  rw [hk] at e
  exact .cons e fun _ _ => .bind (clamp_shows ..) fun _ _ => .cons (.slice ..) fun _ _ => .cons (.copyInto ..) fun s hs =>
    .bind (decode_long_57 _ (hs.trans (List.length_replicate ..))) fun _ _ => .cons (.slice ..) fun _ _ => .cons (.copyInto ..) fun n hn =>
    .bind (point_by_secret_shows pos _ (hs.trans (List.length_replicate ..))) fun _ _ => signTail_shows pos' _ _ _ _ _ (hn.trans (List.length_replicate ..))

theorem sign_with_secret_and_nonce_shows (pos pos' : Nat → Nat → Nat) (xof : Xof) (s n m : List Byte) (hs : s.length = 57) (hn : n.length = 57) :
    Shows (Trace.clamp ++ (Trace.long 57 1 ++ (Trace.secret (Trace.one pos) ++ Trace.finish m.length (Trace.one pos')))) (sign_with_secret_and_nonce xof s n m) := by
  unfold sign_with_secret_and_nonce
  exact .bind (clamp_shows ..) fun _ h => .bind (decode_long_57 _ (h.trans hs)) fun _ _ => .bind (point_by_secret_shows pos _ hs) fun _ _ =>
    signTail_shows pos' _ _ _ _ _ hn

theorem ed448_sign_shows (pos pos' : Nat → Nat → Nat) (xof : Xof) (k : Arr Byte 57) (m : List Byte) :
    Shows (Trace.sign (decide (signBit k.1 = 0)) m.length (Trace.one pos) (Trace.one pos')) (ed448_sign xof k.1 m) := by
  unfold ed448_sign
  refine .after (.subU ..) fun n hn => ?_
  subst hn
  refine .cons (P := fun b => b &&& 0x80 = 0 ↔ signBit k.1 = 0) ⟨fun b hb => ⟨rfl, ?_⟩⟩ fun b hb => ?_
  · rw [result_idx, idx_eq _ _ (by rw [k.2]; norm_num)] at hb
    cases hb
    exact kind_iff k
  · rw [show decide (b &&& 0x80 = 0) = decide (signBit k.1 = 0) by simp only [hb]]
    refine .cons (.branch _) fun _ _ => ?_
    by_cases hk : signBit k.1 = 0
    · rw [if_pos (hb.2 hk), if_pos (decide_eq_true hk)]
      exact sign_by_private_shows pos pos' xof k.1 m k.2
    · rw [if_neg (fun e => hk (hb.1 e)), if_neg (by simpa using hk), List.append_assoc, List.append_assoc]
      exact .bind (clamp_shows ..) fun d hd => sign_with_secret_and_nonce_shows pos pos' xof d d m (hd.trans k.2) (hd.trans k.2)

namespace Masked

theorem select_shows (i j : Nat) (l : List TwistedNiels) (t : W32) : Shows (Trace.all i j) (select l j 4 t) := by
  unfold select
  refine Emits.forTo 16 _ fun k _ => .cons (.lookup ..) fun _ _ => ?_
  exact .bind (BigNumber.constant_time_select_shows ..) fun _ _ => .bind (BigNumber.constant_time_select_shows ..) fun _ _ =>
    .before (BigNumber.constant_time_select_shows ..) fun _ _ => .pure trivial

theorem combSelect_shows (s : List W32) (i j : Nat) :
    Shows (Trace.teeth i j ++ (Trace.all i j ++ (Trace.swap ++ Trace.swap))) (combSelect s i j) := by
  unfold combSelect
  refine .bind (combTab_shows ..) fun _ _ => .after (.subU ..) fun n hn => ?_
  subst hn
  refine .after (.chkI32 _) fun _ _ => .after (.subU ..) fun _ _ => ?_
  exact .bind (select_shows ..) fun _ _ => conditional_negate_shows ..

theorem precomputed_scalar_mul_shows (s : List W32) : Shows (Trace.comb Trace.all) (precomputed_scalar_mul s) := comb_shows combSelect_shows s

theorem point_by_secret_shows (p : List Byte) (h : p.length = 57) :
    Shows (Trace.secret Trace.all) (point_by_secret p) := by
  unfold point_by_secret
  exact .bind (clamp_shows ..) fun d hd => .bind (decode_long_57 _ (hd.trans h)) fun _ _ => .bind (halve_shows ..) fun _ _ => .bind (halve_shows ..) fun _ _ =>
    precomputed_scalar_mul_shows ..

theorem secret_to_public_shows (p : List Byte) (h : p.length = 57) :
    Shows (Trace.secret Trace.all ++ Trace.point) (secret_to_public p) := by
  unfold secret_to_public
  exact .bind (point_by_secret_shows p h) fun _ _ => (eddsa_like_encode_shows ..).shows

theorem ed448_derive_public_shows (xof : Xof) (k : Arr Byte 57) :
    Shows (Trace.derive (decide (signBit k.1 = 0)) Trace.all) (ed448_derive_public xof k.1) := by
  unfold ed448_derive_public
  refine .after (.subU ..) fun n hn => ?_
  subst hn
  refine .cons (P := fun b => b &&& 0x80 = 0 ↔ signBit k.1 = 0) ⟨fun b hb => ⟨rfl, ?_⟩⟩ fun b hb => ?_
  · rw [result_idx, idx_eq _ _ (by rw [k.2]; norm_num)] at hb
    cases hb
    exact kind_iff k
  · rw [show decide (b &&& 0x80 = 0) = decide (signBit k.1 = 0) by simp only [hb]]
    refine .cons (.branch _) fun _ _ => ?_
    by_cases hk : signBit k.1 = 0
    · rw [if_pos (hb.2 hk), if_pos (decide_eq_true hk)]
      unfold private_to_public
      exact .bind (private_to_secret_shows xof k.1 k.2) fun s hs => secret_to_public_shows s hs
    · rw [if_neg (fun e => hk (hb.1 e)), if_neg (by simpa using hk)]
      exact secret_to_public_shows k.1 k.2

theorem signTail_shows (xof : Xof) (p : Pt) (sec : List W32) (seed m : List Byte) (hs : seed.length = 57) :
    Shows (Trace.finish m.length Trace.all) (signTail xof p sec seed m) := by
  unfold signTail
  refine .cons (P := fun a => a.length = 114) ?_ fun n hn => .bind (decode_long_114 _ hn) fun _ _ => .bind (halve_shows ..) fun _ _ =>
    .bind (halve_shows ..) fun _ _ => .bind (precomputed_scalar_mul_shows _) fun _ _ => .bind (eddsa_like_encode_shows ..) fun r hr =>
    .bind (eddsa_like_encode_shows ..) fun a ha => .cons (P := fun a => a.length = 114) ?_ fun n hn => .bind (decode_long_114 _ hn) fun _ _ =>
    .bind (mul_shows ..) fun _ _ => .bind (add_shows ..) fun _ _ => .cons (.copyInto ..) fun _ _ => .bind (encode_shows _) fun _ _ => (Emits.copyInto ..).shows
  · have := Emits.hash_with_dom xof (seed ++ m) 114
    rwa [List.length_append, hs, ← Nat.add_assoc] at this
  · have := Emits.hash_with_dom xof (r ++ a ++ m) 114
    rwa [List.length_append, List.length_append, hr, ha, ← Nat.add_assoc] at this

theorem sign_by_private_shows (xof : Xof) (k m : List Byte) (hk : k.length = 57) :
    Shows ((.hash 57 114 :: (Trace.clamp ++ (.copy 0 57 :: .copy 0 57 :: (Trace.long 57 1 ++ [.copy 57 114, .copy 0 57])))) ++
      (Trace.secret Trace.all ++ Trace.finish m.length Trace.all)) (sign_by_private xof k m) := by
  unfold sign_by_private
  simp only [List.cons_append, List.append_assoc, List.nil_append]
  have e := Emits.sha3 xof k 114
  rw [hk] at e
  exact .cons e fun _ _ => .bind (clamp_shows ..) fun _ _ => .cons (.slice ..) fun _ _ => .cons (.copyInto ..) fun s hs =>
    .bind (decode_long_57 _ (hs.trans (List.length_replicate ..))) fun _ _ => .cons (.slice ..) fun _ _ => .cons (.copyInto ..) fun n hn =>
    .bind (point_by_secret_shows _ (hs.trans (List.length_replicate ..))) fun _ _ => signTail_shows _ _ _ _ _ (hn.trans (List.length_replicate ..))

theorem sign_with_secret_and_nonce_shows (xof : Xof) (s n m : List Byte) (hs : s.length = 57) (hn : n.length = 57) :
    Shows (Trace.clamp ++ (Trace.long 57 1 ++ (Trace.secret Trace.all ++ Trace.finish m.length Trace.all))) (sign_with_secret_and_nonce xof s n m) := by
  unfold sign_with_secret_and_nonce
  exact .bind (clamp_shows ..) fun _ h => .bind (decode_long_57 _ (h.trans hs)) fun _ _ => .bind (point_by_secret_shows _ hs) fun _ _ =>
    signTail_shows _ _ _ _ _ hn

theorem ed448_sign_shows (xof : Xof) (k : Arr Byte 57) (m : List Byte) :
    Shows (Trace.sign (decide (signBit k.1 = 0)) m.length Trace.all Trace.all) (ed448_sign xof k.1 m) := by
  unfold ed448_sign
  refine .after (.subU ..) fun n hn => ?_
  subst hn
  refine .cons (P := fun b => b &&& 0x80 = 0 ↔ signBit k.1 = 0) ⟨fun b hb => ⟨rfl, ?_⟩⟩ fun b hb => ?_
  · rw [result_idx, idx_eq _ _ (by rw [k.2]; norm_num)] at hb
    cases hb
    exact kind_iff k
  · rw [show decide (b &&& 0x80 = 0) = decide (signBit k.1 = 0) by simp only [hb]]
    refine .cons (.branch _) fun _ _ => ?_
    by_cases hk : signBit k.1 = 0
    · rw [if_pos (hb.2 hk), if_pos (decide_eq_true hk)]
      exact sign_by_private_shows xof k.1 m k.2
    · rw [if_neg (fun e => hk (hb.1 e)), if_neg (by simpa using hk), List.append_assoc, List.append_assoc]
      exact .bind (clamp_shows ..) fun d hd => sign_with_secret_and_nonce_shows xof d d m (hd.trans k.2) (hd.trans k.2)

end Masked

end Leak

end Ed448
