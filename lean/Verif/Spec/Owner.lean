import Verif.Spec.Forger

/-!
# Looking for a signature with two meanings

Somebody looks for a signature that is valid for two messages, or under two keys. They may choose all keys themselves, and their computing power is not limited; only the
number of values of the hash function that they ask for is.
-/

namespace Ed448

/-- What is found: two keys, a message for each, and one signature. -/
structure Claim where
  pk : List (BitVec 8)
  msg : List (BitVec 8)
  pk' : List (BitVec 8)
  msg' : List (BitVec 8)
  sig : List (BitVec 8)

/-- The next string for which the value of the hash function is asked, and the final claim, both depending on all values so far. -/
structure Searcher where
  next : List (List (BitVec 8)) → List (BitVec 8)
  claim : List (List (BitVec 8)) → Claim

/-- The first `n` values of the hash function. -/
def Searcher.seen (G : Searcher) (shake : List (BitVec 8) → ℕ → BitVec 8) : ℕ → List (List (BitVec 8))
  | 0 => []
  | n + 1 => G.seen shake n ++ [RFC.hash shake (G.next (G.seen shake n)) 114]

/-- The key stands for one of the four points whose multiple by 4 is 0. -/
def SmallOrder (pk : List (BitVec 8)) : Prop := ∃ A : E, RFC.DecodesTo pk A ∧ 4 • A = 0

/-- The claim after `n` values is a signature with two meanings. `Ok shake pk m sig` says that a signature counts. -/
def Ambiguous (Ok : (List (BitVec 8) → ℕ → BitVec 8) → List (BitVec 8) → List (BitVec 8) → List (BitVec 8) → Prop) (G : Searcher)
    (shake : List (BitVec 8) → ℕ → BitVec 8) (n : ℕ) : Prop :=
  let c := G.claim (G.seen shake n)
  (c.pk, c.msg) ≠ (c.pk', c.msg') ∧ ¬ SmallOrder c.pk ∧ ¬ SmallOrder c.pk' ∧ Ok shake c.pk c.msg c.sig ∧ Ok shake c.pk' c.msg' c.sig

end Ed448
