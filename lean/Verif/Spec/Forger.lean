import Verif.Spec.Decode
import Verif.Spec.Verify

/-!
# The game of a forger

A forger may ask for values of the hash function and for signatures of messages of their choice, and wins with a valid signature that was not made
for them: of another message, or of the same message with another first half. The hash function is given by a table, which is filled while the game goes on: the answer in round `n` is the `n`-th entry of a tape
of outputs (of 114 bytes), unless the same string was asked before. How many of all tapes let the forger win is the probability of winning
against a random hash function.
-/

namespace Ed448

/-- An output of the hash function. -/
abbrev Out := Fin 114 → BitVec 8

/-- The number an output stands for. -/
def outNat (o : Out) : ℕ := leNat (List.ofFn o)

/-- The values of the hash function that are fixed so far. The first entry for a string counts. -/
abbrev Table := List (List (BitVec 8) × Out)

/-- The value of the hash function at `s`: from the table, or else `fresh`. -/
def value (t : Table) (s : List (BitVec 8)) (fresh : Out) : Out := (t.lookup s).getD fresh

/-- A hash function with the values of the table. -/
def program (shake : List (BitVec 8) → ℕ → BitVec 8) (t : Table) : List (BitVec 8) → ℕ → BitVec 8 := fun s i =>
  match t.lookup s with
  | some o => if hi : i < 114 then o ⟨i, hi⟩ else 0
  | none => shake s i

/-- What a forger can ask. -/
inductive Request
  | hash (s : List (BitVec 8))
  | sign (m : List (BitVec 8))

/-- A forger: the next request and the final message and signature, both depending on all replies so far. -/
structure Forger where
  next : List (List (BitVec 8)) → Request
  forge : List (List (BitVec 8)) → List (BitVec 8) × List (BitVec 8)

/-- The state of the game: fixed values of the hash function, signatures that were made, and the replies that the forger has got. -/
structure Game where
  table : Table
  signed : List (List (BitVec 8) × List (BitVec 8))
  seen : List (List (BitVec 8))

/-- A new signature, the string hashed for its challenge, and the value of the hash function there. -/
structure Made where
  sig : List (BitVec 8)
  str : List (BitVec 8)
  val : Out

/-- A way to make signatures: from the table, the next entry of the tape and the message. -/
abbrev Signer := Table → Out → List (BitVec 8) → Made

/-- One round. A message that was signed before gets the same signature again. -/
def Game.round (F : Forger) (S : Signer) (fresh : Out) (g : Game) : Game :=
  match F.next g.seen with
  | .hash s => ⟨g.table ++ [(s, value g.table s fresh)], g.signed, g.seen ++ [List.ofFn (value g.table s fresh)]⟩
  | .sign m =>
    match g.signed.lookup m with
    | some sig => ⟨g.table, g.signed, g.seen ++ [sig]⟩
    | none => ⟨g.table ++ [((S g.table fresh m).str, (S g.table fresh m).val)], g.signed ++ [(m, (S g.table fresh m).sig)],
        g.seen ++ [(S g.table fresh m).sig]⟩

/-- The first `n` rounds, with the tape `h`; the signature in round `i` is made by `S i`. -/
def play (F : Forger) (S : ℕ → Signer) (h : ℕ → Out) : ℕ → Game
  | 0 => ⟨[], [], []⟩
  | n + 1 => (play F S h n).round F (S n) (h n)

/-- The string that is hashed for the challenge of a signature `sig` of `m`. -/
def challengeString (pk m sig : List (BitVec 8)) : List (BitVec 8) := RFC.dom4 ++ sig.take 57 ++ pk ++ m

/-- What the forger offers after `n` rounds, and the value of the hash function for its challenge. -/
structure Offer where
  msg : List (BitVec 8)
  sig : List (BitVec 8)
  val : Out

def offer (F : Forger) (S : ℕ → Signer) (pk : List (BitVec 8)) (n : ℕ) (h : ℕ → Out) : Offer :=
  let g := play F S h n
  let f := F.forge g.seen
  ⟨f.1, f.2, value g.table (challengeString pk f.1 f.2) (h n)⟩

/-- How the first half of a signature is read: the points for which a string may stand. A string that encodes a point stands for this point, and all points for
which a string stands have the same multiple by 4. Other strings may stand for a point, too. -/
structure Reading where
  reads : List (BitVec 8) → E → Prop
  point : ∀ {b : List (BitVec 8)} {R : E}, Decodes b R → reads b R
  same : ∀ {b : List (BitVec 8)} {R R' : E}, reads b R → reads b R' → 4 • R = 4 • R'

/-- A weaker form of `RFC.Valid`: bytes after the first 114 do not matter, R may be encoded with y ≥ p, with any of the seven unused bits set, or with
the sign bit for x = 0, and the second half may be any number. What is left is that the first half stands for a point, and the equation. -/
def Loose (ρ : Reading) (shake : List (BitVec 8) → ℕ → BitVec 8) (pk m sig : List (BitVec 8)) : Prop :=
  114 ≤ sig.length ∧ ∃ A R : E, RFC.DecodesTo pk A ∧ ρ.reads (sig.take 57) R ∧
    RFC.Equation (leNat ((sig.drop 57).take 57)) R A (RFC.challenge shake (sig.take 57) pk m)

/-- The forger has won: the signature that is offered is valid, at least in the weaker form, for a hash function with the values fixed in the game, and no
signature of the message with the same first half was made. -/
def Game.Won (g : Game) (ρ : Reading) (F : Forger) (shake : List (BitVec 8) → ℕ → BitVec 8) (pk : List (BitVec 8)) (fresh : Out) : Prop :=
  let f := F.forge g.seen
  let x := challengeString pk f.1 f.2
  (∀ s, g.signed.lookup f.1 = some s → s.take 57 ≠ f.2.take 57) ∧ Loose ρ (program shake (g.table ++ [(x, value g.table x fresh)])) pk f.1 f.2

/-- The forger wins in `n` rounds with the tape `h`, whose last entry is used for the offer. -/
def Wins (ρ : Reading) (F : Forger) (S : ℕ → Signer) (shake : List (BitVec 8) → ℕ → BitVec 8) (pk : List (BitVec 8)) (n : ℕ) (h : ℕ → Out) : Prop :=
  (play F S h n).Won ρ F shake pk (h n)

/-- The round in which the value of the hash function for the challenge of the offer was fixed. -/
def fixedIn (F : Forger) (S : ℕ → Signer) (pk : List (BitVec 8)) (n : ℕ) (h : ℕ → Out) : ℕ :=
  let o := offer F S pk n h
  ((List.range n).find? fun i => ((play F S h (i + 1)).table.lookup (challengeString pk o.msg o.sig)).isSome).getD n

/-- A tape of finite length, continued. -/
def extend {n : ℕ} (h : Fin n → Out) : ℕ → Out := fun i => if hi : i < n then h ⟨i, hi⟩ else fun _ => 0

/-- How signatures are made: with the secret scalar `s` and the nonce `r`, as in RFC 8032, section 5.2.6. -/
noncomputable def realSigner (s r : ℕ) : Signer := fun t fresh m =>
  let R := encodePoint (r • B)
  let str := RFC.dom4 ++ R ++ RFC.publicOf s ++ m
  let c := value t str fresh
  ⟨R ++ leBytes 57 ((r + outNat c * s) % q), str, c⟩

/-- How they are made without the secret: S is chosen first, and the value of the hash function is fixed where it fits. -/
noncomputable def blindSigner (A : E) (S : ℕ) : Signer := fun _ fresh m =>
  let R := encodePoint (S • B - outNat fresh • A)
  ⟨R ++ leBytes 57 S, RFC.dom4 ++ R ++ encodePoint A ++ m, fresh⟩

/-! ## The game with all values of the hash function

The secret scalar, the seed of the nonces and the nonces are values of the hash function, too, and are in the same table. -/

/-- The value of the hash function at a private key: 57 bytes for the secret scalar, and the seed of the nonces (RFC 8032, section 5.2.5, step 1). -/
def keyHash (a b : Fin 57 → BitVec 8) : Out := Fin.append a b

/-- One round. A new signature takes two values of the hash function: that for its nonce, and that for its challenge. -/
noncomputable def Game.fullRound (F : Forger) (s : ℕ) (seed : List (BitVec 8)) (fresh fresh' : Out) (g : Game) : Game :=
  match F.next g.seen with
  | .hash x => ⟨g.table ++ [(x, value g.table x fresh)], g.signed, g.seen ++ [List.ofFn (value g.table x fresh)]⟩
  | .sign m =>
    match g.signed.lookup m with
    | some sig => ⟨g.table, g.signed, g.seen ++ [sig]⟩
    | none =>
      let x := RFC.dom4 ++ seed ++ m
      let r := value g.table x fresh'
      let t := g.table ++ [(x, r)]
      let made := realSigner s (outNat r) t fresh m
      ⟨t ++ [(made.str, made.val)], g.signed ++ [(m, made.sig)], g.seen ++ [made.sig]⟩

/-- The first `n` rounds, for the secret scalar `s` and the given seed of the nonces. At the start the value `o` of the hash function at the private key `k` is
fixed; `h` and `r` are the tapes for new values. -/
noncomputable def fullPlay (F : Forger) (k : List (BitVec 8)) (o : Out) (s : ℕ) (seed : List (BitVec 8)) (h r : ℕ → Out) : ℕ → Game
  | 0 => ⟨[(k, o)], [], []⟩
  | n + 1 => (fullPlay F k o s seed h r n).fullRound F s seed (h n) (r n)

/-- The forger wins in `n` rounds. -/
def FullWins (ρ : Reading) (F : Forger) (shake : List (BitVec 8) → ℕ → BitVec 8) (k : List (BitVec 8)) (o : Out) (s : ℕ) (seed : List (BitVec 8)) (n : ℕ) (h r : ℕ → Out) :
    Prop :=
  (fullPlay F k o s seed h r n).Won ρ F shake (RFC.publicOf s) (h n)

/-! ## Private keys with the sign bit

They give the secret scalar directly, and the seed of the nonces is the secret scalar, too. So a forger who asks for a value of the hash function at the
private key, or at a string that is hashed for a nonce, knows the secret. -/

/-- The strings at which the hash function was used in `n` rounds and for the offer. -/
def hashed (F : Forger) (S : ℕ → Signer) (pk : List (BitVec 8)) (n : ℕ) (h : ℕ → Out) : List (List (BitVec 8)) :=
  let g := play F S h n
  g.table.map Prod.fst ++ [challengeString pk (F.forge g.seen).1 (F.forge g.seen).2]

/-- The numbers to try for such a string. -/
def tries (x : List (BitVec 8)) : List ℕ := [RFC.secretScalar x, leNat ((x.drop 10).take 57)]

/-- One of these numbers is the secret. Whether it is can be seen from the public key. -/
def Finds (F : Forger) (S : ℕ → Signer) (pk : List (BitVec 8)) (n : ℕ) (h : ℕ → Out) (s : ℕ) : Prop :=
  ∃ x ∈ hashed F S pk n h, ∃ v ∈ tries x, v % q = s % q

/-- The probability that a uniformly chosen element is in `S`. -/
noncomputable def chance {α : Type} (S : Set α) : ℚ := S.ncard / Nat.card α

end Ed448
