import Verif.Model.Lib

/-!
# A program that uses the library

The fields of the key types are private (src/lib.rs:23-41), so a program gets keys and signatures only as results of the public functions of
src/lib.rs. Its state is what it has got so far, and each step is one call. A call that panics or returns an error adds nothing (the panic
may be caught). The library has no global state; the generator handed to `SigningKey::random` is part of the state of the program.
-/

namespace Ed448

/-- What a program holds. -/
structure Client (σ : Type) where
  rng : σ
  secrets : List SecretKey
  verifying : List VerifyingKey
  signing : List SigningKey
  signatures : List Signature

/-- A program at its start. -/
def Client.start {σ : Type} (st : σ) : Client σ := ⟨st, [], [], [], []⟩

/-- The calls that give keys or signatures; numbers are positions in the lists of the state. Copies (src/lib.rs:23, 28, 33) need no call. -/
inductive Call
  /-- src/lib.rs:44-48 -/
  | secretFromStr (s : List Byte)
  /-- src/lib.rs:50-54 -/
  | secretFromBytes (b : List Byte)
  /-- src/lib.rs:204-216 -/
  | secretDeserialize (d : Deserializer Unit)
  /-- src/lib.rs:142-144 -/
  | secretOf (i : Nat)
  /-- src/lib.rs:64-68 -/
  | verifyingFromStr (s : List Byte)
  /-- src/lib.rs:70-74 -/
  | verifyingFromBytes (b : List Byte)
  /-- src/lib.rs:228-240 -/
  | verifyingDeserialize (d : Deserializer Unit)
  /-- src/lib.rs:138-140 -/
  | verifyingOf (i : Nat)
  /-- src/lib.rs:82-92 -/
  | signingFromStr (s : List Byte)
  /-- src/lib.rs:97-108 -/
  | signingFromSlice (b : List Byte)
  /-- src/lib.rs:110-126 -/
  | signingFromBytes (b : List Byte)
  /-- src/lib.rs:57-61 -/
  | signingFromSecret (i : Nat)
  /-- src/lib.rs:180-192 -/
  | signingDeserialize (d : Deserializer Unit)
  /-- src/lib.rs:128-136 -/
  | signingRandom
  /-- src/lib.rs:151-162 -/
  | signPrehash (i : Nat) (m : List Byte)

/-- What a call that cannot return an error adds. -/
def gained {α : Type} : Rust α → List α
  | .ok a => [a]
  | .error _ => []

/-- What a call that can return an error adds. -/
def gainedOk {α ε : Type} : Rust (Except ε α) → List α
  | .ok (.ok a) => [a]
  | _ => []

/-- One call. -/
def Client.step {σ : Type} (xof : Xof) (rng : Rng σ) (c : Client σ) : Call → Client σ
  | .secretFromStr s => { c with secrets := c.secrets ++ gained (SecretKey.from_str s) }
  | .secretFromBytes b => { c with secrets := c.secrets ++ gained (SecretKey.from_bytes b) }
  | .secretDeserialize d => { c with secrets := c.secrets ++ gainedOk (SecretKey.deserialize d) }
  | .secretOf i => { c with secrets := c.secrets ++ (c.signing[i]?.map SigningKey.get_secret_key).toList }
  | .verifyingFromStr s => { c with verifying := c.verifying ++ gained (VerifyingKey.from_str s) }
  | .verifyingFromBytes b => { c with verifying := c.verifying ++ gained (VerifyingKey.from_bytes b) }
  | .verifyingDeserialize d => { c with verifying := c.verifying ++ gainedOk (VerifyingKey.deserialize d) }
  | .verifyingOf i => { c with verifying := c.verifying ++ (c.signing[i]?.map SigningKey.get_verifying_key).toList }
  | .signingFromStr s => { c with signing := c.signing ++ gained (SigningKey.from_str xof s) }
  | .signingFromSlice b => { c with signing := c.signing ++ gained (SigningKey.from_slice xof b) }
  | .signingFromBytes b => { c with signing := c.signing ++ gainedOk (SigningKey.from_bytes xof b) }
  | .signingFromSecret i =>
    match c.secrets[i]? with
    | some s => { c with signing := c.signing ++ gained (SigningKey.fromSecretKey xof s) }
    | none => c
  | .signingDeserialize d => { c with signing := c.signing ++ gainedOk (SigningKey.deserialize xof d) }
  | .signingRandom =>
    match SigningKey.random xof rng c.rng with
    | .ok (k, st) => { c with rng := st, signing := c.signing ++ [k] }
    | .error _ => c
  | .signPrehash i m =>
    match c.signing[i]? with
    | some k => { c with signatures := c.signatures ++ gainedOk (k.sign_prehash xof m) }
    | none => c

/-- A run: any number of calls, one after the other. -/
def Client.run {σ : Type} (xof : Xof) (rng : Rng σ) (c : Client σ) (calls : List Call) : Client σ := calls.foldl (Client.step xof rng) c

end Ed448
