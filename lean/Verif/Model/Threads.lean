import Verif.Model.Client

/-!
# Threads that use the library

Several threads, each with what it holds (Model/Client.lean), and one generator that they share, for example behind a lock, because
`SigningKey::random` needs exclusive access to it (`rng: &mut R`, src/lib.rs:128). The library has no global state and no interior mutability:
all its types are plain arrays. The keys derive `Clone` and `Copy` (src/lib.rs:23, 28, 33), so a key handed to another thread is then held by both; a
`Signature` (src/lib.rs:39-41) derives neither and moves. A schedule is any order of the steps of the threads.

Simplification: a call is one step. Between the calls of two threads there is no order that either can observe, since a call reads and writes nothing but
its arguments, its result and the generator.
-/

namespace Ed448

/-- The state: the generator and what each thread holds. The generators in the states of the threads are not used. -/
structure Threads (ι σ : Type) where
  rng : σ
  held : ι → Client σ

/-- All threads at their start. -/
def Threads.start {ι σ : Type} (st : σ) : Threads ι σ := ⟨st, fun _ => .start st⟩

/-- A step of the schedule. -/
inductive Action (ι : Type)
  /-- Thread `i` makes a call. -/
  | call (i : ι) (c : Call)
  /-- Thread `i` hands its `n`-th secret key to thread `j` (src/lib.rs:23: `SecretKey` is `Copy`). -/
  | handSecret (i j : ι) (n : Nat)
  /-- Thread `i` hands its `n`-th verifying key to thread `j` (src/lib.rs:28). -/
  | handVerifying (i j : ι) (n : Nat)
  /-- Thread `i` hands its `n`-th signing key to thread `j` (src/lib.rs:33). -/
  | handSigning (i j : ι) (n : Nat)
  /-- Thread `i` gives its `n`-th signature to thread `j` (src/lib.rs:39-41: `Signature` is not `Copy`). -/
  | handSignature (i j : ι) (n : Nat)

/-- One step; every call uses the shared generator. -/
def Threads.step {ι σ : Type} [DecidableEq ι] (xof : Xof) (rng : Rng σ) (t : Threads ι σ) : Action ι → Threads ι σ
  | .call i c =>
    let after := Client.step xof rng { t.held i with rng := t.rng } c
    ⟨after.rng, fun j => if j = i then after else t.held j⟩
  | .handSecret i j n => { t with held := fun k =>
      if k = j then { t.held k with secrets := (t.held k).secrets ++ (t.held i).secrets[n]?.toList } else t.held k }
  | .handVerifying i j n => { t with held := fun k =>
      if k = j then { t.held k with verifying := (t.held k).verifying ++ (t.held i).verifying[n]?.toList } else t.held k }
  | .handSigning i j n => { t with held := fun k =>
      if k = j then { t.held k with signing := (t.held k).signing ++ (t.held i).signing[n]?.toList } else t.held k }
  | .handSignature i j n => { t with held := fun k =>
      let left := if k = i then (t.held k).signatures.eraseIdx n else (t.held k).signatures
      { t.held k with signatures := if k = j then left ++ (t.held i).signatures[n]?.toList else left } }

/-- A run of the schedule. -/
def Threads.run {ι σ : Type} [DecidableEq ι] (xof : Xof) (rng : Rng σ) (t : Threads ι σ) (schedule : List (Action ι)) : Threads ι σ :=
  schedule.foldl (Threads.step xof rng) t

end Ed448
