import Verif.Model.Leak

/-!
# The records of deriving and signing, written out

What an observer of branches and memory accesses sees, as lists of events that are built from public numbers only: the kind of the key, the length of
the message, and the positions read in the precomputed table. Nothing here refers to the functions of the model.
-/

namespace Ed448

namespace Trace

/-- The events of `for i in 0..n`. -/
def each (n : Nat) (f : Nat → List Event) : List Event := (List.range n).flatMap f

/-- A pass through two numbers of 14 words that writes a third one. -/
def pass : List Event := each 14 fun i => [.read i, .read i, .write i]

/-- Reduction of a number modulo the group order. -/
def reduce : List Event := pass ++ pass

/-- Addition of scalars. -/
def add : List Event := pass ++ reduce

/-- Halving of a scalar. -/
def halve : List Event := .read 0 :: (pass ++ (each 13 (fun i => [.read i, .read (i + 1), .write i]) ++ [.read 13, .write 13]))

/-- One round of a Montgomery multiplication. The results of the second loop are written one word lower, and there is no word below the first. -/
def montgomeryRound (i : Nat) : List Event :=
  .read i :: (pass ++ (.read 0 ::
    (each 14 (fun j => [.read j, .read j, .branch (decide (0 < j))] ++ if 0 < j then [.write (j - 1)] else []) ++ [.write 13])))

/-- A Montgomery multiplication. -/
def montgomery : List Event := each 14 montgomeryRound ++ reduce

/-- A multiplication of scalars. -/
def mul : List Event := montgomery ++ montgomery

/-- The word `i` of a number read from `size` bytes: before each of its four bytes a test if the end is reached. -/
def word (size i : Nat) : List Event :=
  each (min 4 (size - 4 * i)) (fun j => [.branch false, .read (4 * i + j)]) ++ if size < 4 * i + 4 then [.branch true] else []

/-- A number read from `size` bytes. -/
def short (size : Nat) : List Event := each 14 fun i => word size i ++ [.write i]

/-- A scalar read from 56 bytes. -/
def decode : List Event := short 56 ++ (each 14 (fun i => [.read i, .read i]) ++ mul)

/-- A scalar written to bytes. -/
def encode : List Event := each 14 fun i => each 4 fun j => [.read i, .write (4 * i + j)]

/-- A scalar read from `n` bytes, which are `blocks` blocks of 56 bytes and some more bytes: the last bytes first, then block after block. -/
def long (n blocks : Nat) : List Event :=
  .branch false :: .branch false :: .copy (56 * blocks) n :: (short (n - 56 * blocks) ++ (.branch false ::
    ((List.range blocks).reverse.flatMap (fun b => .branch true :: (montgomery ++ (.copy (56 * b) n :: (decode ++ add)))) ++ [.branch false])))

/-- `y` squarings: one or two, then two at a time. -/
def squares (y : Nat) : List Event := .branch (decide (y % 2 = 1)) :: (List.replicate ((y - 1) / 2) (.branch true) ++ [.branch false])

/-- An inversion. -/
def invert : List Event := [3, 3, 9, 18, 37, 37, 111, 223].flatMap squares

/-- A conditional swap of two field elements. -/
def swap : List Event := each 16 fun i => [.read i, .read i, .write i, .write i]

/-- A field element written to 56 bytes. The limbs have 28 bits: before byte `i`, `⌈2 i / 7⌉` limbs have been read. -/
def serialize : List Event :=
  each 56 fun i => (if (2 * i + 6) / 7 < (2 * i + 8) / 7 then [.branch true, .read ((2 * i + 6) / 7)] else [.branch false]) ++ [.write i]

/-- A point written to 57 bytes. -/
def point : List Event := invert ++ (serialize ++ [.copy 0 56, .write 56])

/-- The five bits of the scalar that belong together. -/
def teeth (i j : Nat) : List Event :=
  each 5 fun k => if i + 18 * (k + j * 5) < 446 then [.branch true, .read ((i + 18 * (k + j * 5)) / 32)] else [.branch false]

/-- The use of these bits, `look` being the events of the look-up: what is looked up is negated if necessary, and added unless it is the first. -/
def tooth (look : List Event) (i j : Nat) : List Event :=
  teeth i j ++ (look ++ (swap ++ (swap ++ (.branch (decide (i ≠ 17 ∨ j ≠ 0)) ::
    if i ≠ 17 ∨ j ≠ 0 then [.branch (decide (j ≠ 4 ∨ i = 0))] else []))))

/-- A multiple of the base point. `look i j` are the events of the look-ups. -/
def comb (look : Nat → Nat → List Event) : List Event :=
  add ++ (halve ++ (List.range 18).reverse.flatMap fun i =>
    .branch (decide (i ≠ 17)) :: ((if i ≠ 17 then [.branch true] else []) ++ each 5 fun j => tooth (look i j) i j))

/-- Clamping of a secret. -/
def clamp : List Event := [.read 0, .write 0, .write 56, .read 55, .write 55]

/-- The public point of a secret. -/
def secret (look : Nat → Nat → List Event) : List Event := clamp ++ (long 57 1 ++ (halve ++ (halve ++ comb look)))

/-- The public key of a key; `seed` tells if the key is a seed. -/
def derive (seed : Bool) (look : Nat → Nat → List Event) : List Event :=
  .read 56 :: .branch seed :: ((if seed then [.hash 57 57, .read 56, .write 56] else []) ++ (secret look ++ point))

/-- A signature on a message of `m` bytes, after the secret point is known. -/
def finish (m : Nat) (look : Nat → Nat → List Event) : List Event :=
  .hash (67 + m) 114 :: (long 114 2 ++ (halve ++ (halve ++ (comb look ++ (point ++ (point ++ (.hash (124 + m) 114 ::
    (long 114 2 ++ (mul ++ (add ++ (.copy 0 57 :: (encode ++ [.copy 57 114]))))))))))))

/-- A signature on a message of `m` bytes. The first look-ups are for the public key, the second ones for the nonce. -/
def sign (seed : Bool) (m : Nat) (look look' : Nat → Nat → List Event) : List Event :=
  .read 56 :: .branch seed :: ((if seed then .hash 57 114 :: (clamp ++ (.copy 0 57 :: .copy 0 57 :: (long 57 1 ++ [.copy 57 114, .copy 0 57])))
    else clamp ++ (clamp ++ long 57 1)) ++ (secret look ++ finish m look'))

/-- A look-up that reads one position. -/
def one (pos : Nat → Nat → Nat) (i j : Nat) : List Event := [.table (pos i j)]

/-- A look-up that reads all entries of a table, and keeps or drops the three parts of each. -/
def all (_i j : Nat) : List Event := each 16 fun k => .table (16 * j + k) :: (swap ++ (swap ++ swap))

/-- How many branches, reads, writes, copies, reads of the precomputed table and calls of SHAKE256 there are. -/
def tally (l : List Event) : Nat × Nat × Nat × Nat × Nat × Nat :=
  (l.countP fun e => e matches .branch _, l.countP fun e => e matches .read _, l.countP fun e => e matches .write _,
    l.countP fun e => e matches .copy _ _, l.countP fun e => e matches .table _, l.countP fun e => e matches .hash _ _)

end Trace

end Ed448
