import Verif.Cost.Result
import Verif.Curve.DoubleMul
import Verif.Scalar.Bytes

/-!
# The cost of the functions

`Exact x k h`: the computation performs at most `k` multiplications and hashes at most the lengths `h`, and exactly these if it does not panic.
`AtMost x k h`: at most these.
-/

set_option exponentiation.threshold 1000

namespace Ed448.Cost

structure Exact {α : Type} (x : Cost α) (k : ℕ) (h : List ℕ) : Prop where
  le : x.mults ≤ k
  pre : x.hashed <+: h
  eq : ∀ a, x.result = .ok a → x.mults = k ∧ x.hashed = h

theorem Exact.bind {α β : Type} {x : Cost α} {f : α → Cost β} {k k' : ℕ} {h h' : List ℕ} (hx : Exact x k h)
    (hf : ∀ a, x.result = .ok a → Exact (f a) k' h') : Exact (x >>= f) (k + k') (h ++ h') := by
  have hle := hx.le
  refine ⟨?_, ?_, ?_⟩
  · rw [bind_def, andThen]
    split
    · rename_i a ha
      have := (hf a ha).le
      dsimp only
      omega
    · dsimp only
      omega
  · rw [bind_def, andThen]
    split
    · rename_i a ha
      dsimp only
      rw [(hx.eq a ha).2]
      exact (List.prefix_append_right_inj _).mpr (hf a ha).pre
    · exact hx.pre.trans (List.prefix_append _ _)
  · intro b hb
    rw [bind_def, andThen] at hb ⊢
    split at hb
    · rename_i a ha
      obtain ⟨h1, h2⟩ := hx.eq a ha
      obtain ⟨h3, h4⟩ := (hf a ha).eq b hb
      exact ⟨by dsimp only; rw [h1, h3], by dsimp only; rw [h2, h4]⟩
    · cases hb

theorem Exact.mk' {α : Type} (k : ℕ) (h : List ℕ) (r : Rust α) : Exact (⟨k, h, r⟩ : Cost α) k h := ⟨le_refl _, List.prefix_refl _, fun _ _ => ⟨rfl, rfl⟩⟩

theorem Exact.pure {α : Type} (a : α) : Exact (Pure.pure a : Cost α) 0 [] := Exact.mk' ..

theorem Exact.free {α : Type} (x : Rust α) : Exact (free x) 0 [] := Exact.mk' ..

theorem Exact.then {α β : Type} {x : Cost α} {f : α → Cost β} {k k' n : ℕ} {h h' l : List ℕ} (hx : Exact x k h)
    (hf : ∀ a, Exact (f a) k' h') (hn : k + k' = n) (hl : h ++ h' = l) : Exact (x >>= f) n l := by
  subst hn hl
  exact hx.bind fun a _ => hf a

theorem Exact.of_eq {α : Type} {x : Cost α} {k : ℕ} {h : List ℕ} {r : Rust α} (e : x = ⟨k, h, r⟩) : Exact x k h := by
  rw [e]
  exact Exact.mk' ..

theorem mul_w_exact (x : BN) (w : W64) : Exact (mul_w x w) 1 [] := Exact.mk' ..

theorem mul_exact (x y : BN) : Exact (mul x y) 1 [] := Exact.mk' ..

theorem square_exact (x : BN) : Exact (square x) 1 [] := Exact.mk' ..

theorem mul_sc_exact (x : BN) (c : ℤ) : Exact (mul_with_signed_curve_constant x c) 1 [] := by
  rw [mul_with_signed_curve_constant]
  split
  · exact mul_w_exact ..
  · exact (mul_w_exact _ _).then (fun _ => Exact.pure _) rfl rfl

theorem is_on_curve_exact (p : Pt) : Exact (is_on_curve p) 7 [] := by
  rw [is_on_curve]
  refine (mul_exact _ _).then (k' := 6) (fun _ => ?_) rfl rfl
  refine (mul_exact _ _).then (k' := 5) (fun _ => ?_) rfl rfl
  refine (square_exact _).then (k' := 4) (fun _ => ?_) rfl rfl
  refine (square_exact _).then (k' := 3) (fun _ => ?_) rfl rfl
  refine (square_exact _).then (k' := 2) (fun _ => ?_) rfl rfl
  refine (mul_w_exact _ _).then (k' := 1) (fun _ => ?_) rfl rfl
  exact (square_exact _).then (fun _ => Exact.pure _) rfl rfl

theorem to_projected_niels_exact (p : Pt) : Exact (to_projected_niels p) 1 [] := by
  rw [to_projected_niels]
  exact (mul_sc_exact _ _).then (fun _ => Exact.pure _) rfl rfl

theorem double_exact (p : Pt) (b : Bool) : Exact (double_internal p b) (cond b 7 8) [] := Exact.of_eq (double_eq p b)

theorem add_niels_exact (p : Pt) (np : TwistedNiels) (b : Bool) : Exact (add_niels_to_extended p np b) (cond b 6 7) [] :=
  Exact.of_eq (add_niels_eq p np b)

theorem sub_niels_exact (p : Pt) (np : TwistedNiels) (b : Bool) : Exact (sub_niels_from_extended_point p np b) (cond b 6 7) [] :=
  Exact.of_eq (sub_niels_eq p np b)

theorem add_proj_exact (p : Pt) (np : PNiels) (b : Bool) : Exact (add_projected_niels_to_extended p np b) (cond b 7 8) [] :=
  Exact.of_eq (add_proj_eq p np b)

theorem sub_proj_exact (p : Pt) (np : PNiels) (b : Bool) : Exact (sub_projected_niels_from_extended_point p np b) (cond b 7 8) [] :=
  Exact.of_eq (sub_proj_eq p np b)

theorem fixedWindowLoop_exact (pn : PNiels) : ∀ (k : ℕ) (p : Pt), Exact (fixedWindowLoop pn k p) (9 * k) []
  | 0, p => Exact.pure _
  | k + 1, p => by
    rw [fixedWindowLoop]
    refine (add_proj_exact _ _ _).then (k' := 1 + 9 * k) (fun p => ?_) (by simp only [cond]; omega) rfl
    refine (to_projected_niels_exact _).then (k' := 9 * k) (fun _ => ?_) rfl rfl
    exact (fixedWindowLoop_exact pn k _).then (fun _ => Exact.pure _) rfl rfl

theorem prepare_fixed_window_exact (p : Pt) : Exact (prepare_fixed_window p) 145 [] := by
  rw [prepare_fixed_window]
  refine (double_exact _ _).then (k' := 137) (fun _ => ?_) rfl rfl
  refine (to_projected_niels_exact _).then (k' := 136) (fun _ => ?_) rfl rfl
  refine (to_projected_niels_exact _).then (k' := 135) (fun _ => ?_) rfl rfl
  exact (fixedWindowLoop_exact _ 15 _).then (fun _ => Exact.pure _) rfl rfl

theorem scalarMulLoop_exact (l : List PNiels) (s : List W32) : ∀ (k : ℕ) (p : Pt), Exact (scalarMulLoop l s k p) (44 * k) []
  | 0, p => Exact.pure _
  | k + 1, p => by
    rw [scalarMulLoop]
    refine (Exact.free _).then (k' := 28 + (8 + (8 + 44 * k))) (fun e => ?_) (by omega) rfl
    refine (Exact.of_eq (doubleTimes_eq 4 p)).then (k' := 8 + (8 + 44 * k)) (fun _ => ?_) (by omega) rfl
    refine (double_exact _ _).then (k' := 8 + 44 * k) (fun _ => ?_) rfl rfl
    exact (add_proj_exact _ _ _).then (fun _ => scalarMulLoop_exact l s k _) rfl rfl

theorem point_scalar_mul_exact (p : Pt) (s : Scalar) : Exact (point_scalar_mul p s) 4065 [] := by
  rw [point_scalar_mul]
  refine (prepare_fixed_window_exact _).then (k' := 3920) (fun _ => ?_) rfl rfl
  refine (Exact.free _).then (k' := 3920) (fun _ => ?_) rfl rfl
  exact (Exact.of_eq (to_extended_point_eq _)).then (fun _ => scalarMulLoop_exact _ _ 89 _) rfl rfl

theorem wnafTableLoop_exact (pn : PNiels) : ∀ (k : ℕ) (p : Pt), Exact (wnafTableLoop pn k p) (9 * k) []
  | 0, p => Exact.pure _
  | k + 1, p => by
    rw [wnafTableLoop]
    refine (add_proj_exact _ _ _).then (k' := 1 + 9 * k) (fun p => ?_) (by simp only [cond]; omega) rfl
    refine (to_projected_niels_exact _).then (k' := 9 * k) (fun _ => ?_) rfl rfl
    exact (wnafTableLoop_exact pn k _).then (fun _ => Exact.pure _) rfl rfl

theorem prepare_wnaf_exact (p : Pt) : Exact (decaf_prepare_wnaf_table p) 73 [] := by
  rw [decaf_prepare_wnaf_table]
  refine (to_projected_niels_exact _).then (k' := 72) (fun _ => ?_) rfl rfl
  refine (double_exact _ _).then (k' := 64) (fun _ => ?_) rfl rfl
  refine (to_projected_niels_exact _).then (k' := 63) (fun _ => ?_) rfl rfl
  refine (add_proj_exact _ _ _).then (k' := 55) (fun _ => ?_) rfl rfl
  refine (to_projected_niels_exact _).then (k' := 54) (fun _ => ?_) rfl rfl
  exact (wnafTableLoop_exact _ 6 _).then (fun _ => Exact.pure _) rfl rfl

theorem combStep_exact (s : List W32) (i j : ℕ) (js : List ℕ) (p : Pt) (k n : ℕ) (hr : ∀ p, Exact (combInner s i js p) k [])
    (hn : (if i ≠ 17 ∨ j ≠ 0 then cond (j == 4 && i != 0) 6 7 else 1) + k = n) : Exact (combInner s i (j :: js) p) n [] := by
  rw [combInner]
  refine (Exact.free _).then (k' := n) (fun np => ?_) (by omega) rfl
  split at hn
  · rename_i h
    simp only [if_pos h]
    exact (add_niels_exact _ _ _).then (fun p => hr p) hn rfl
  · rename_i h
    simp only [if_neg h]
    exact (Exact.of_eq (to_extended_eq _)).then (fun p => hr p) hn rfl

theorem combInner_exact (s : List W32) (i : ℕ) (p : Pt) :
    Exact (combInner s i [0, 1, 2, 3, 4] p) (if i = 17 then 28 else if i = 0 then 35 else 34) [] := by
  have h4 : ∀ p, Exact (combInner s i [4] p) (if i = 0 then 7 else 6) [] := fun p =>
    combStep_exact s i 4 [] p 0 _ (fun p => Exact.pure p) (by
      by_cases h : i = 0
      · subst h
        rfl
      · simp [h, show (i != 0) = true from bne_iff_ne.mpr h])
  have h3 : ∀ p, Exact (combInner s i [3, 4] p) (7 + if i = 0 then 7 else 6) [] := fun p =>
    combStep_exact s i 3 _ p _ _ h4 (by simp)
  have h2 : ∀ p, Exact (combInner s i [2, 3, 4] p) (14 + if i = 0 then 7 else 6) [] := fun p =>
    combStep_exact s i 2 _ p _ _ h3 (by simp; omega)
  have h1 : ∀ p, Exact (combInner s i [1, 2, 3, 4] p) (21 + if i = 0 then 7 else 6) [] := fun p =>
    combStep_exact s i 1 _ p _ _ h2 (by simp; omega)
  refine combStep_exact s i 0 _ p _ _ h1 ?_
  by_cases h17 : i = 17
  · subst h17
    rfl
  · by_cases h0 : i = 0
    · subst h0
      rfl
    · simp [h17, h0]

theorem combOuter_exact (s : List W32) : ∀ (k : ℕ) (p : Pt), k ≤ 17 → Exact (combOuter s k p) (if k = 0 then 0 else 42 * k + 1) []
  | 0, p, _ => Exact.pure _
  | k + 1, p, hk => by
    rw [combOuter]
    simp only [if_pos (show k ≠ 17 by omega)]
    have ih := fun p => combOuter_exact s k p (by omega)
    have hin := fun p => combInner_exact s k p
    simp only [if_neg (show k ≠ 17 by omega)] at hin
    refine (double_exact _ _).then (k' := 42 * k + 35) (fun p => ?_) (by rw [if_neg (by omega)]; simp only [cond]; omega) rfl
    refine (hin p).then (fun p => ih p) ?_ rfl
    by_cases h0 : k = 0
    · simp [h0]
    · rw [if_neg h0, if_neg h0]
      omega

theorem precomputed_exact (s : Scalar) : Exact (precomputed_scalar_mul s) 743 [] := by
  show Exact (combOuter _ 18 _) 743 []
  generalize (halve (scalarAdd s scalar_adjustment)).1 = w
  rw [combOuter]
  simp only [if_neg (show ¬ (17 ≠ 17) by omega)]
  refine (Exact.pure _).then (k' := 743) (fun p => ?_) rfl rfl
  exact (combInner_exact w 17 _).then (fun p => combOuter_exact w 17 p (by omega)) rfl rfl

theorem encode_exact (p : Pt) : Exact (eddsa_like_encode p) 471 [] := Exact.of_eq (encode_eq p)

theorem hash_exact (xof : Xof) (l : List Byte) (n k : ℕ) (hk : 10 + l.length = k) : Exact (hash_with_dom xof l n) 0 [k] := by
  rw [hash_with_dom, sha3, List.length_append, show domPrefix.length = 10 from rfl, hk]
  exact Exact.mk' ..

/-! ## Keys and signatures -/

theorem point_by_secret_exact (p : Arr Byte 57) : Exact (point_by_secret p) 743 [] := precomputed_exact _

theorem secret_to_public_exact (sk : Arr Byte 57) : Exact (secret_to_public sk) 1214 [] := by
  rw [secret_to_public]
  exact (point_by_secret_exact _).then (fun _ => encode_exact _) rfl rfl

theorem private_to_public_exact (xof : Xof) (pk : Arr Byte 57) : Exact (private_to_public xof pk) 1214 [57] := by
  rw [private_to_public, private_to_secret]
  refine Exact.then (k := 0) (h := [57]) ?_ (fun _ => secret_to_public_exact _) rfl rfl
  refine Exact.then (k := 0) (h := [57]) ?_ (fun _ => Exact.pure _) rfl rfl
  rw [sha3, pk.2]
  exact Exact.mk' ..

theorem signTail_exact (xof : Xof) (point : Pt) (sec : Scalar) (seed m : List Byte) (hs : seed.length = 57) :
    Exact (signTail xof point sec seed m) 1685 [67 + m.length, 124 + m.length] := by
  rw [signTail]
  refine (hash_exact xof (seed ++ m) 114 (67 + m.length) (by rw [List.length_append]; omega)).then (k' := 1685) (fun nonce => ?_) rfl rfl
  refine (precomputed_exact _).then (k' := 942) (fun np => ?_) rfl rfl
  refine (encode_exact _).then (k' := 471) (fun r => ?_) rfl rfl
  refine (encode_exact _).then (k' := 0) (fun a => ?_) rfl rfl
  exact (hash_exact xof (r.1 ++ a.1 ++ m) 114 (124 + m.length) (by rw [List.length_append, List.length_append, r.2, a.2]; omega)).then
    (fun _ => Exact.pure _) rfl rfl

theorem sign_by_private_exact (xof : Xof) (pk : Arr Byte 57) (m : List Byte) :
    Exact (sign_by_private xof pk m) 2428 [57, 67 + m.length, 124 + m.length] := by
  rw [sign_by_private]
  refine Exact.then (k := 0) (h := [57]) (k' := 2428) ?_ (fun secret => ?_) rfl rfl
  · rw [sha3, pk.2]
    exact Exact.mk' ..
  · refine (point_by_secret_exact _).then (fun _ => signTail_exact xof _ _ _ m ?_) rfl rfl
    rw [List.length_drop, (clamp secret).2]

theorem sign_with_secret_and_nonce_exact (xof : Xof) (sk n : Arr Byte 57) (m : List Byte) :
    Exact (sign_with_secret_and_nonce xof sk n m) 2428 [67 + m.length, 124 + m.length] := by
  rw [sign_with_secret_and_nonce]
  exact (point_by_secret_exact _).then (fun _ => signTail_exact xof _ _ _ m n.2) rfl rfl

/-! ## Verification -/

/-- At most `k` multiplications and at most the hashed lengths `h`. -/
structure AtMost {α : Type} (x : Cost α) (k : ℕ) (h : List ℕ) : Prop where
  le : x.mults ≤ k
  pre : x.hashed <+: h

theorem Exact.atMost {α : Type} {x : Cost α} {k : ℕ} {h : List ℕ} (hx : Exact x k h) : AtMost x k h := ⟨hx.le, hx.pre⟩

theorem AtMost.mono {α : Type} {x : Cost α} {k n : ℕ} {h l : List ℕ} (hx : AtMost x k h) (hk : k ≤ n) (hl : h <+: l) : AtMost x n l :=
  ⟨hx.le.trans hk, hx.pre.trans hl⟩

theorem AtMost.nothing {α : Type} (r : Rust α) (k : ℕ) (h : List ℕ) : AtMost (⟨0, [], r⟩ : Cost α) k h := ⟨Nat.zero_le _, List.nil_prefix⟩

/-- The first computation hashes nothing. -/
theorem AtMost.bind {α β : Type} {x : Cost α} {f : α → Cost β} {k k' : ℕ} {h : List ℕ} (hx : AtMost x k [])
    (hf : ∀ a, x.result = .ok a → AtMost (f a) k' h) : AtMost (x >>= f) (k + k') h := by
  have hle := hx.le
  have hp := List.prefix_nil.mp hx.pre
  constructor
  · rw [bind_def, andThen]
    split
    · rename_i a ha
      have := (hf a ha).le
      dsimp only
      omega
    · dsimp only
      omega
  · rw [bind_def, andThen]
    split
    · rename_i a ha
      dsimp only
      rw [hp, List.nil_append]
      exact (hf a ha).pre
    · dsimp only
      rw [hp]
      exact List.nil_prefix

/-- The second computation hashes nothing. -/
theorem AtMost.bindQuiet {α β : Type} {x : Cost α} {f : α → Cost β} {k k' : ℕ} {h : List ℕ} (hx : AtMost x k h)
    (hf : ∀ a, AtMost (f a) k' []) : AtMost (x >>= f) (k + k') h := by
  have hle := hx.le
  constructor
  · rw [bind_def, andThen]
    split
    · rename_i a ha
      have := (hf a).le
      dsimp only
      omega
    · dsimp only
      omega
  · rw [bind_def, andThen]
    split
    · rename_i a ha
      dsimp only
      rw [List.prefix_nil.mp (hf a).pre, List.append_nil]
      exact hx.pre
    · exact hx.pre

theorem decodeRoot_exact (y : BN) (low : W32) : Exact (decodeRoot y low) 463 [] := by
  rw [decodeRoot]
  refine (square_exact _).then (k' := 462) (fun _ => ?_) rfl rfl
  refine (mul_sc_exact _ _).then (k' := 461) (fun _ => ?_) rfl rfl
  refine (mul_exact _ _).then (k' := 460) (fun _ => ?_) rfl rfl
  refine (Exact.of_eq (isr_eq _)).then (k' := 1) (fun _ => ?_) rfl rfl
  exact (mul_exact _ _).then (fun _ => Exact.pure _) rfl rfl

theorem decodeFinish_atMost (p : Pt) (succ : W32) : AtMost (decodeFinish p succ) 4072 [] := by
  rw [decodeFinish]
  refine ((is_on_curve_exact _).atMost.bind (k' := 4065) fun ok _ => ?_).mono (by norm_num) (List.prefix_refl _)
  split
  · exact AtMost.nothing _ _ _
  · exact ((point_scalar_mul_exact _ _).then (fun _ => Exact.pure _) rfl rfl).atMost

theorem decode_atMost (b : List Byte) : AtMost (eddsa_like_decode b) 4543 [] := by
  rw [eddsa_like_decode]
  split
  · rw [eddsaDecode57]
    refine ((decodeRoot_exact _ _).atMost.bind (k' := 4080) fun x _ => ?_).mono (by norm_num) (List.prefix_refl _)
    exact ((Exact.of_eq (decodeIsogeny_eq _ _)).atMost.bind fun p _ => decodeFinish_atMost _ _).mono (by norm_num) (List.prefix_refl _)
  · exact AtMost.nothing _ _ _

end Ed448.Cost
