import Verif.Spec.Forger

/-!
# Somebody who watches a signer

An observer asks for values of the hash function and for signatures of messages of their choice, and answers a question with yes or no. What the observer sees can be
imitated by somebody who has only the public key and chooses the values of the hash function.
-/

namespace Ed448

/-- An observer: the next request and the final answer, both depending on all replies so far. -/
structure Observer where
  next : List (List (BitVec 8)) → Request
  yes : List (List (BitVec 8)) → Prop

/-- The observer as a player of the forger's game, who offers nothing. -/
def Observer.player (D : Observer) : Forger := ⟨D.next, fun _ => ([], [])⟩

/-- The replies in the first `n` rounds when they are made from the point `A` of the public key, without the secret: values of the hash function are taken from the tape
`h`, and a signature in round `i` is made with the second half `z i`. -/
noncomputable def imitate (D : Observer) (A : E) (z : ℕ → ℕ) (h : ℕ → Out) (n : ℕ) : List (List (BitVec 8)) :=
  (play D.player (fun i => blindSigner A (z i)) h n).seen

/-- For private keys with the sign bit: one of the strings that were hashed for the replies gives the secret scalar `s`. -/
def Observer.Finds (D : Observer) (A : E) (z : ℕ → ℕ) (h : ℕ → Out) (n s : ℕ) : Prop :=
  ∃ x ∈ (play D.player (fun i => blindSigner A (z i)) h n).table.map Prod.fst, ∃ v ∈ tries x, v % q = s % q

end Ed448
