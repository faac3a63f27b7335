import Verif.Model.Client

/-!
# Who draws what from a shared generator

The notions in which C84 speaks about the calls of several threads: a schedule is a list of pairs of a thread and its call.
-/

namespace Ed448

/-- The calls that draw from the generator. -/
def isRandom : Call → Bool
  | .signingRandom => true
  | _ => false

/-- The threads that draw, in the order in which they draw. -/
def randomOrder {ι : Type} (s : List (ι × Call)) : List ι := (s.filter fun e => isRandom e.2).map Prod.fst

/-- The calls of thread `i`, in order. -/
def ownCalls {ι : Type} [DecidableEq ι] (i : ι) (s : List (ι × Call)) : List Call := (s.filter fun e => decide (e.1 = i)).map Prod.snd

/-- The numbers of the draws of thread `i`, if the draws are made in this order and numbered from `n` on. -/
def ownBlocks {ι : Type} [DecidableEq ι] (i : ι) (n : Nat) (order : List ι) : List Nat :=
  ((order.zipIdx n).filter fun e => decide (e.1 = i)).map Prod.snd

/-- Block `b` of the stream: 57 bytes. -/
def block (stream : Nat → Byte) (b : Nat) : List Byte := (List.range 57).map fun j => stream (57 * b + j)

/-- A generator that delivers the bytes of a tape (and zeros when it is used up). -/
def tapeRng : Rng (List Byte) := ⟨fun n tape => (⟨(tape ++ List.replicate n 0).take n, by simp⟩, tape.drop n)⟩

end Ed448
