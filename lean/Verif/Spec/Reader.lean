import Verif.Spec.Owner

/-!
# Seeing the signature of a message that one does not know

Somebody sees a public key and the signature of a message, but not the message. Their computing power is not limited; only the number of values of the hash function that
they ask for is.
-/

namespace Ed448

/-- The next string for which the value of the hash function is asked, and the final answer, both depending on all values so far. -/
structure Reader (α : Type) where
  next : List (List (BitVec 8)) → List (BitVec 8)
  answer : List (List (BitVec 8)) → α

/-- The first `n` values of the hash function. -/
def Reader.seen {α : Type} (r : Reader α) (shake : List (BitVec 8) → ℕ → BitVec 8) : ℕ → List (List (BitVec 8))
  | 0 => []
  | n + 1 => r.seen shake n ++ [RFC.hash shake (r.next (r.seen shake n)) 114]

/-- The answer after `n` values. -/
def Reader.says {α : Type} (r : Reader α) (shake : List (BitVec 8) → ℕ → BitVec 8) (n : ℕ) : α := r.answer (r.seen shake n)

end Ed448
