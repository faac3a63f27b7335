import Verif.Model.Debug
import Verif.Properties.Checked

/-!
# Debug output: C69
-/

namespace Ed448

/-- The numbers spelled by the maximal runs of decimal digits in a text, in their order; `run` is the part of the current run that was read. -/
def numbersFrom (run : List Char) : List Char → List ℕ
  | [] => if run = [] then [] else [decimalValue run]
  | c :: cs => if c.isDigit then numbersFrom (run ++ [c]) cs else (if run = [] then [] else [decimalValue run]) ++ numbersFrom [] cs

/-- The numbers in a text. -/
def numbersIn (text : List Char) : List ℕ := numbersFrom [] text

theorem numbersIn_skip {l : List Char} (h : ∀ c ∈ l, c.isDigit = false) (rest : List Char) : numbersIn (l ++ rest) = numbersIn rest := by
  induction l with
  | nil => rfl
  | cons c l ih =>
    have hc := h c List.mem_cons_self
    rw [List.cons_append, numbersIn, numbersFrom, hc, if_neg Bool.false_ne_true, if_pos rfl, List.nil_append]
    exact ih fun c' h' => h c' (List.mem_cons_of_mem _ h')

theorem numbersFrom_digits {ds : List Char} (h : ∀ c ∈ ds, c.isDigit = true) (run rest : List Char) :
    numbersFrom run (ds ++ rest) = numbersFrom (run ++ ds) rest := by
  induction ds generalizing run with
  | nil => simp
  | cons c l ih =>
    have hc := h c List.mem_cons_self
    rw [List.cons_append, numbersFrom, hc, if_pos rfl, ih fun c' h' => h c' (List.mem_cons_of_mem _ h'), List.append_assoc, List.singleton_append]

theorem displayNat_ne_nil (n : ℕ) : displayNat n ≠ [] := by
  rw [displayNat]
  split <;> simp

theorem numbersIn_none {l : List Char} (h : ∀ c ∈ l, c.isDigit = false) : numbersIn l = [] := by
  have := numbersIn_skip h []
  rwa [List.append_nil] at this

/-- A number followed by something that is not a digit. -/
theorem numbersIn_number (n : ℕ) {c : Char} (hc : c.isDigit = false) (rest : List Char) : numbersIn (displayNat n ++ c :: rest) = n :: numbersIn rest := by
  obtain ⟨h1, h2⟩ := displayNat_value n
  rw [numbersIn, numbersFrom_digits h2, List.nil_append, numbersFrom, hc, if_neg Bool.false_ne_true, if_neg (displayNat_ne_nil n), h1]
  rfl

theorem numbersIn_bytes (bytes : List Byte) (rest : List Char) :
    numbersIn (debugBytes bytes ++ rest) = bytes.map BitVec.toNat ++ numbersIn rest := by
  have key : ∀ l : List Byte, numbersIn (commaSeparated (l.map fun b => displayNat b.toNat) ++ ']' :: rest) = l.map BitVec.toNat ++ numbersIn rest := by
    intro l
    induction l with
    | nil => exact numbersIn_skip (l := [']']) (by decide) rest
    | cons a l ih =>
      cases l with
      | nil =>
        rw [List.map_cons, List.map_nil, commaSeparated, numbersIn_number _ (by decide)]
        rfl
      | cons b l =>
        rw [List.map_cons, List.map_cons, commaSeparated, ← List.map_cons (f := fun b : Byte => displayNat b.toNat), List.append_assoc, List.append_assoc, List.cons_append,
          numbersIn_number _ (by decide), List.cons_append, List.nil_append]
        have := numbersIn_skip (l := [' ']) (by decide) (commaSeparated ((b :: l).map fun b => displayNat b.toNat) ++ ']' :: rest)
        rw [List.singleton_append] at this
        rw [this, ih]
        rfl
  rw [debugBytes, List.append_assoc, List.append_assoc, numbersIn_skip (by decide), List.singleton_append, key]

theorem numbersIn_key {name : List Char} (h : ∀ c ∈ name, c.isDigit = false) (bytes : List Byte) (rest : List Char) :
    numbersIn (debugStruct name [("key".toList, debugBytes bytes)] ++ rest) = bytes.map BitVec.toNat ++ numbersIn rest := by
  simp only [debugStruct, List.map_cons, List.map_nil, commaSeparated, List.append_assoc]
  rw [numbersIn_skip h, numbersIn_skip (by decide), numbersIn_skip (by decide), numbersIn_skip (by decide), numbersIn_bytes, numbersIn_skip (by decide)]

theorem map_toNat_inj {l l' : List Byte} (h : l.map BitVec.toNat = l'.map BitVec.toNat) : l = l' :=
  List.map_injective_iff.mpr (fun _ _ => BitVec.eq_of_toNat_eq) h

/-- C69. The numbers in the `{:?}` output of a secret key are the bytes of the key; those in the output of a signing key are the bytes of the secret key followed
by those of the public key. -/
theorem C69_debug_reveals :
    (∀ k : SecretKey, numbersIn k.debug = k.key.1.map BitVec.toNat) ∧
    (∀ k : VerifyingKey, numbersIn k.debug = k.as_bytes.map BitVec.toNat) ∧
    (∀ k : SigningKey, numbersIn k.debug = k.to_bytes.1.map BitVec.toNat ++ k.get_verifying_key.as_bytes.map BitVec.toNat) := by
  have h1 : ∀ c ∈ "SecretKey".toList, c.isDigit = false := by decide
  have h2 : ∀ c ∈ "VerifyingKey".toList, c.isDigit = false := by decide
  refine ⟨fun k => ?_, fun k => ?_, fun k => ?_⟩
  · have := numbersIn_key h1 k.key.1 []
    rw [List.append_nil] at this
    rw [SecretKey.debug, this, numbersIn, numbersFrom, if_pos rfl, List.append_nil]
  · have := numbersIn_key h2 k.key.1 []
    rw [List.append_nil] at this
    rw [VerifyingKey.debug, this, numbersIn, numbersFrom, if_pos rfl, List.append_nil]
    rfl
  · rw [SigningKey.debug]
    simp only [debugStruct, List.map_cons, List.map_nil, commaSeparated, List.append_assoc, SecretKey.debug, VerifyingKey.debug]
    have e1 := fun rest => numbersIn_key h1 k.secret_key.key.1 rest
    have e2 := fun rest => numbersIn_key h2 k.verifying_key.key.1 rest
    simp only [debugStruct, List.map_cons, List.map_nil, commaSeparated, List.append_assoc] at e1 e2
    rw [numbersIn_skip (by decide), numbersIn_skip (by decide), numbersIn_skip (by decide), numbersIn_skip (by decide), e1,
      numbersIn_skip (by decide), numbersIn_skip (by decide), numbersIn_skip (by decide), e2, numbersIn_none (by decide), List.append_nil]
    rfl

theorem numbersIn_length (n : ℕ) : numbersIn (Err.InvalidPrivKeyLengthErrro n).debug = [n] := by
  have h1 : ∀ c ∈ "InvalidPrivKeyLengthErrro".toList, c.isDigit = false := by decide +kernel
  unfold Err.debug
  generalize "InvalidPrivKeyLengthErrro".toList = l at *
  dsimp only
  rw [List.append_assoc, List.append_assoc, numbersIn_skip h1, numbersIn_skip (by decide), numbersIn_number _ (by decide)]
  rfl

/-- C69. Two keys with the same output are equal, and two errors with the same output are equal. -/
theorem C69_debug_injective :
    (∀ k k' : SecretKey, k.debug = k'.debug → k = k') ∧ (∀ k k' : VerifyingKey, k.debug = k'.debug → k = k') ∧
    (∀ k k' : SigningKey, k.debug = k'.debug → k = k') ∧ (∀ e e' : Err, e.debug = e'.debug → e = e') := by
  obtain ⟨h1, h2, h3⟩ := C69_debug_reveals
  refine ⟨fun k k' h => ?_, fun k k' h => ?_, fun k k' h => ?_, fun e e' h => ?_⟩
  · obtain ⟨a⟩ := k
    obtain ⟨b⟩ := k'
    have : a.1 = b.1 := map_toNat_inj ((h1 ⟨a⟩).symm.trans ((congrArg numbersIn h).trans (h1 ⟨b⟩)))
    rw [Subtype.ext this]
  · obtain ⟨a⟩ := k
    obtain ⟨b⟩ := k'
    have : a.1 = b.1 := map_toNat_inj ((h2 ⟨a⟩).symm.trans ((congrArg numbersIn h).trans (h2 ⟨b⟩)))
    rw [Subtype.ext this]
  · obtain ⟨⟨a⟩, ⟨a'⟩⟩ := k
    obtain ⟨⟨b⟩, ⟨b'⟩⟩ := k'
    have := (h3 ⟨⟨a⟩, ⟨a'⟩⟩).symm.trans ((congrArg numbersIn h).trans (h3 ⟨⟨b⟩, ⟨b'⟩⟩))
    obtain ⟨e1, e2⟩ := List.append_inj this (by rw [List.length_map, List.length_map]; exact a.2.trans b.2.symm)
    have e3 : a.1 = b.1 := map_toNat_inj e1
    have e4 : a'.1 = b'.1 := map_toNat_inj e2
    rw [Subtype.ext e3, Subtype.ext e4]
  · have hn := numbersIn_length
    have hs : ∀ n l, (∀ c ∈ l, c.isDigit = false) → (Err.InvalidPrivKeyLengthErrro n).debug ≠ l := fun n l hl h0 => by
      have := congrArg numbersIn h0
      rw [hn, numbersIn_none hl] at this
      exact absurd this (List.cons_ne_nil _ _)
    cases e <;> cases e' <;> first
      | rfl
      | (exact absurd h (hs _ _ (by unfold Err.debug; decide)))
      | (exact absurd h.symm (hs _ _ (by unfold Err.debug; decide)))
      | (exact absurd h (by unfold Err.debug; decide))
      | (have := congrArg numbersIn h; rw [hn, hn] at this; rw [List.singleton_injective this])

/-! ## The form with several lines -/

theorem numbersFrom_padLines (t : List Char) : ∀ (start : Bool) (run rest : List Char), (start = true → run = []) →
    numbersFrom run (padLines start t ++ rest) = numbersFrom run (t ++ rest) := by
  induction t with
  | nil => intros; rfl
  | cons c t ih =>
    intro start run rest h
    have step : numbersFrom run (c :: padLines (c == '\n') t ++ rest) = numbersFrom run (c :: t ++ rest) := by
      rw [List.cons_append, List.cons_append, numbersFrom, numbersFrom]
      by_cases hc : c.isDigit = true
      · have hn : (c == '\n') = false := by
          rw [beq_eq_false_iff_ne]
          rintro rfl
          revert hc
          decide
        rw [if_pos hc, if_pos hc, hn, ih false _ rest (by simp)]
      · rw [if_neg hc, if_neg hc, ih _ [] rest fun _ => rfl]
    rw [padLines]
    cases start with
    | false => exact step
    | true =>
      rw [h rfl] at step ⊢
      rw [if_pos rfl, List.append_assoc]
      exact (numbersIn_skip (l := [' ', ' ', ' ', ' ']) (by decide) _).trans step

theorem numbersIn_padded (t rest : List Char) : numbersIn (padded t ++ rest) = numbersIn (t ++ ',' :: rest) := by
  have h := numbersFrom_padLines (t ++ [',', '\n']) true [] rest fun _ => rfl
  rw [padded, numbersIn, h, List.append_assoc]
  have key : ∀ (t run : List Char), numbersFrom run (t ++ ([',', '\n'] ++ rest)) = numbersFrom run (t ++ ',' :: rest) := by
    intro t
    induction t with
    | nil =>
      intro run
      show numbersFrom run (',' :: '\n' :: rest) = numbersFrom run (',' :: rest)
      have : numbersFrom [] ('\n' :: rest) = numbersFrom [] rest := numbersIn_skip (l := ['\n']) (by decide) rest
      have hd : ¬ (',').isDigit = true := by decide
      have e : ∀ l, numbersFrom run (',' :: l) = (if run = [] then [] else [decimalValue run]) ++ numbersFrom [] l := fun l => by
        rw [numbersFrom, if_neg hd]
      rw [e, e, this]
    | cons c t ih =>
      intro run
      have e : ∀ l, numbersFrom run (c :: l) =
          if c.isDigit then numbersFrom (run ++ [c]) l else (if run = [] then [] else [decimalValue run]) ++ numbersFrom [] l := fun l => by rw [numbersFrom]
      show numbersFrom run (c :: (t ++ ([',', '\n'] ++ rest))) = numbersFrom run (c :: (t ++ ',' :: rest))
      rw [e, e, ih, ih]
  exact key t []

theorem numbersIn_prettyBytes (bytes : List Byte) (rest : List Char) :
    numbersIn (prettyBytes bytes ++ rest) = bytes.map BitVec.toNat ++ numbersIn rest := by
  have key : ∀ l : List Byte, numbersIn ((l.map fun b => padded (displayNat b.toNat)).flatten ++ ']' :: rest) = l.map BitVec.toNat ++ numbersIn rest := by
    intro l
    induction l with
    | nil => exact numbersIn_skip (l := [']']) (by decide) rest
    | cons a l ih =>
      rw [List.map_cons, List.flatten_cons, List.append_assoc, numbersIn_padded, numbersIn_number _ (by decide), ih]
      rfl
  rw [prettyBytes, List.append_assoc, List.append_assoc, List.append_assoc, numbersIn_skip (by decide), numbersIn_skip (by split <;> decide), List.singleton_append, key]

theorem numbersIn_prettyKey {name : List Char} (h : ∀ c ∈ name, c.isDigit = false) (bytes : List Byte) (rest : List Char) :
    numbersIn (prettyStruct name [("key".toList, prettyBytes bytes)] ++ rest) = bytes.map BitVec.toNat ++ numbersIn rest := by
  simp only [prettyStruct, List.map_cons, List.map_nil, List.flatten_cons, List.flatten_nil, List.append_assoc, List.nil_append]
  rw [numbersIn_skip h, numbersIn_skip (by decide), numbersIn_padded, List.append_assoc, List.append_assoc, numbersIn_skip (by decide), numbersIn_skip (by decide),
    numbersIn_prettyBytes, ← List.singleton_append, numbersIn_skip (by decide), numbersIn_skip (by decide)]

/-- C69, for `{:#?}`. The numbers are the same as with `{:?}`. -/
theorem C69_pretty :
    (∀ k : SecretKey, numbersIn k.pretty = numbersIn k.debug) ∧ (∀ k : VerifyingKey, numbersIn k.pretty = numbersIn k.debug) ∧
    (∀ k : SigningKey, numbersIn k.pretty = numbersIn k.debug) ∧ (∀ e : Err, numbersIn e.pretty = numbersIn e.debug) := by
  have h1 : ∀ c ∈ "SecretKey".toList, c.isDigit = false := by decide
  have h2 : ∀ c ∈ "VerifyingKey".toList, c.isDigit = false := by decide
  obtain ⟨d1, d2, d3⟩ := C69_debug_reveals
  refine ⟨fun k => ?_, fun k => ?_, fun k => ?_, fun e => ?_⟩
  · rw [d1]
    have := numbersIn_prettyKey h1 k.key.1 []
    rw [List.append_nil] at this
    rw [SecretKey.pretty, this, numbersIn, numbersFrom, if_pos rfl, List.append_nil]
  · rw [d2]
    have := numbersIn_prettyKey h2 k.key.1 []
    rw [List.append_nil] at this
    rw [VerifyingKey.pretty, this, numbersIn, numbersFrom, if_pos rfl, List.append_nil]
    rfl
  · rw [d3, SigningKey.pretty, prettyStruct]
    simp only [List.map_cons, List.map_nil, List.flatten_cons, List.flatten_nil, List.append_assoc, List.nil_append]
    rw [numbersIn_skip (by decide), numbersIn_skip (by decide), numbersIn_padded, List.append_assoc, List.append_assoc, numbersIn_skip (by decide),
      numbersIn_skip (by decide), SecretKey.pretty, numbersIn_prettyKey h1, ← List.singleton_append, numbersIn_skip (by decide), numbersIn_padded, List.append_assoc,
      List.append_assoc, numbersIn_skip (by decide), numbersIn_skip (by decide), VerifyingKey.pretty, numbersIn_prettyKey h2, numbersIn_none (by decide), List.append_nil]
    rfl
  · cases e with
    | InvalidPrivKeyLengthErrro n =>
      rw [numbersIn_length]
      have h3 : ∀ c ∈ "InvalidPrivKeyLengthErrro".toList, c.isDigit = false := by decide +kernel
      unfold Err.pretty
      generalize "InvalidPrivKeyLengthErrro".toList = l at *
      dsimp only
      rw [List.append_assoc, List.append_assoc, numbersIn_skip h3, numbersIn_skip (by decide), numbersIn_padded, numbersIn_number _ (by decide), numbersIn_none (by decide)]
    | _ => rfl

/-- C69, for `{:#?}`. Two keys with the same output are equal. -/
theorem C69_pretty_injective :
    (∀ k k' : SecretKey, k.pretty = k'.pretty → k = k') ∧ (∀ k k' : VerifyingKey, k.pretty = k'.pretty → k = k') ∧
    (∀ k k' : SigningKey, k.pretty = k'.pretty → k = k') := by
  obtain ⟨h1, h2, h3, _⟩ := C69_pretty
  obtain ⟨d1, d2, d3⟩ := C69_debug_reveals
  refine ⟨fun k k' h => ?_, fun k k' h => ?_, fun k k' h => ?_⟩
  · have h := congrArg numbersIn h
    rw [h1, h1, d1, d1] at h
    obtain ⟨a⟩ := k
    obtain ⟨b⟩ := k'
    have e : a.1 = b.1 := map_toNat_inj h
    rw [Subtype.ext e]
  · have h := congrArg numbersIn h
    rw [h2, h2, d2, d2] at h
    obtain ⟨a⟩ := k
    obtain ⟨b⟩ := k'
    have e : a.1 = b.1 := map_toNat_inj h
    rw [Subtype.ext e]
  · have h := congrArg numbersIn h
    rw [h3, h3, d3, d3] at h
    obtain ⟨⟨a⟩, ⟨a'⟩⟩ := k
    obtain ⟨⟨b⟩, ⟨b'⟩⟩ := k'
    obtain ⟨e1, e2⟩ := List.append_inj h (by rw [List.length_map, List.length_map]; exact a.2.trans b.2.symm)
    have e3 : a.1 = b.1 := map_toNat_inj e1
    have e4 : a'.1 = b'.1 := map_toNat_inj e2
    rw [Subtype.ext e3, Subtype.ext e4]

/-- A short array on several lines. -/
example : prettyStruct "A".toList [("k".toList, prettyBytes [7, 25])] = "A {\n    k: [\n        7,\n        25,\n    ],\n}".toList := by
  have h1 : displayNat 7 = ['7'] := by simp [displayNat]
  have h2 : displayNat 25 = ['2', '5'] := by simp [displayNat]
  rw [prettyBytes]
  simp only [List.map_cons, List.map_nil]
  rw [show (7 : Byte).toNat = 7 from rfl, show (25 : Byte).toNat = 25 from rfl, h1, h2]
  decide

/-- A short array. -/
example : debugBytes [7, 255, 0] = "[7, 255, 0]".toList := by
  have h1 : displayNat 7 = ['7'] := by simp [displayNat]
  have h2 : displayNat 255 = ['2', '5', '5'] := by simp [displayNat]
  have h3 : displayNat 0 = ['0'] := by simp [displayNat]
  rw [debugBytes]
  simp only [List.map_cons, List.map_nil]
  rw [show (7 : Byte).toNat = 7 from rfl, show (255 : Byte).toNat = 255 from rfl, show (0 : Byte).toNat = 0 from rfl, h1, h2, h3]
  decide

end Ed448
