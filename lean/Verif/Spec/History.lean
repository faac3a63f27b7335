import Mathlib.Logic.Function.Basic
import Verif.Model.Threads
import Verif.Spec.Hex

/-!
# A program that uses the library, in terms of byte strings

The notions in which C93 describes the calls of a program: keys are strings of 57 bytes, a signing key is nothing but its private key, and a signature is a
private key and a message. A call adds one entry to a list, or nothing if its argument is not as it should be.
-/

namespace Ed448

/-- What a program holds. -/
structure Plain (σ : Type) where
  rng : σ
  secrets : List (List Byte)
  verifying : List (List Byte)
  /-- The private keys of the signing keys. -/
  signing : List (List Byte)
  /-- For each signature the private key and the message. -/
  signatures : List (List Byte × List Byte)

/-- A program at its start. -/
def Plain.start {σ : Type} (st : σ) : Plain σ := ⟨st, [], [], [], []⟩

/-- A key from bytes: there must be 57 of them. -/
def taken (b : List Byte) : List (List Byte) := if b.length = 57 then [b] else []

open Classical in
/-- A key from a string: it must spell 57 bytes with hexadecimal digits. -/
noncomputable def spelled (s : List Byte) : List (List Byte) := if h : ∃ b, b.length = 57 ∧ HexOf s b then [h.choose] else []

/-- A key from a serde format: it must be for humans and deliver a string. -/
noncomputable def delivered (d : Deserializer Unit) : List (List Byte) :=
  match d.is_human_readable, d.string with
  | true, .ok s => spelled s
  | _, _ => []

/-- One call; `pub k` is the public key for the private key `k`. -/
noncomputable def Plain.step {σ : Type} (pub : List Byte → List Byte) (rng : Rng σ) (p : Plain σ) : Call → Plain σ
  | .secretFromStr s => { p with secrets := p.secrets ++ spelled s }
  | .secretFromBytes b => { p with secrets := p.secrets ++ taken b }
  | .secretDeserialize d => { p with secrets := p.secrets ++ delivered d }
  | .secretOf i => { p with secrets := p.secrets ++ p.signing[i]?.toList }
  | .verifyingFromStr s => { p with verifying := p.verifying ++ spelled s }
  | .verifyingFromBytes b => { p with verifying := p.verifying ++ taken b }
  | .verifyingDeserialize d => { p with verifying := p.verifying ++ delivered d }
  | .verifyingOf i => { p with verifying := p.verifying ++ (p.signing[i]?.map pub).toList }
  | .signingFromStr s => { p with signing := p.signing ++ spelled s }
  | .signingFromSlice b => { p with signing := p.signing ++ taken b }
  | .signingFromBytes b => { p with signing := p.signing ++ taken b }
  | .signingFromSecret i => { p with signing := p.signing ++ p.secrets[i]?.toList }
  | .signingDeserialize d => { p with signing := p.signing ++ delivered d }
  | .signingRandom => { p with rng := (rng.fill_bytes 57 p.rng).2, signing := p.signing ++ [(rng.fill_bytes 57 p.rng).1.1] }
  | .signPrehash i m => { p with signatures := p.signatures ++ (p.signing[i]?.map fun k => (k, m)).toList }

/-- A run. -/
noncomputable def Plain.run {σ : Type} (pub : List Byte → List Byte) (rng : Rng σ) (p : Plain σ) (calls : List Call) : Plain σ := calls.foldl (Plain.step pub rng) p

/-- Several threads with one generator. -/
structure PlainThreads (ι σ : Type) where
  rng : σ
  held : ι → Plain σ

/-- All threads at their start. -/
def PlainThreads.start {ι σ : Type} (st : σ) : PlainThreads ι σ := ⟨st, fun _ => .start st⟩

/-- One step. Keys are copied from one thread to the other; signatures move. -/
noncomputable def PlainThreads.step {ι σ : Type} [DecidableEq ι] (pub : List Byte → List Byte) (rng : Rng σ) (t : PlainThreads ι σ) : Action ι → PlainThreads ι σ
  | .call i c =>
    let after := Plain.step pub rng { t.held i with rng := t.rng } c
    ⟨after.rng, Function.update t.held i after⟩
  | .handSecret i j n => { t with held := Function.update t.held j { t.held j with secrets := (t.held j).secrets ++ (t.held i).secrets[n]?.toList } }
  | .handVerifying i j n => { t with held := Function.update t.held j { t.held j with verifying := (t.held j).verifying ++ (t.held i).verifying[n]?.toList } }
  | .handSigning i j n => { t with held := Function.update t.held j { t.held j with signing := (t.held j).signing ++ (t.held i).signing[n]?.toList } }
  | .handSignature i j n =>
    let without := Function.update t.held i { t.held i with signatures := (t.held i).signatures.eraseIdx n }
    { t with held := Function.update without j { without j with signatures := (without j).signatures ++ (t.held i).signatures[n]?.toList } }

/-- A run of the schedule. -/
noncomputable def PlainThreads.run {ι σ : Type} [DecidableEq ι] (pub : List Byte → List Byte) (rng : Rng σ) (t : PlainThreads ι σ) (schedule : List (Action ι)) :
    PlainThreads ι σ := schedule.foldl (PlainThreads.step pub rng) t

/-- The call hands the private key `b` to the library. -/
def Call.Supplies (b : List Byte) : Call → Prop
  | .secretFromStr s | .signingFromStr s => b.length = 57 ∧ HexOf s b
  | .secretFromBytes a | .signingFromSlice a | .signingFromBytes a => b.length = 57 ∧ a = b
  | .secretDeserialize d | .signingDeserialize d => d.is_human_readable = true ∧ ∃ s, d.string = .ok s ∧ b.length = 57 ∧ HexOf s b
  | _ => False

/-- The `m`-th block of 57 bytes that a generator delivers (from 0 on). -/
def drawnBlock {σ : Type} (rng : Rng σ) (st : σ) (m : Nat) : List Byte := (rng.fill_bytes 57 (Nat.repeat (fun s => (rng.fill_bytes 57 s).2) m st)).1.1

/-- The number of calls of `SigningKey::random`. -/
def randomCalls (calls : List Call) : Nat := calls.countP fun c => match c with | .signingRandom => true | _ => false

end Ed448
