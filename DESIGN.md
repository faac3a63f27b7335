# Formal model of core-coin/ed448-rs in Lean 4

## 1. Layout

All Lean modules are under `lean/Verif`.

* `Model/*`: the model, one definition per Rust function, each with a comment citing file and lines.
  `Rust.lean` (words, panics, arrays), `BigNumber.lean`, `Karatsuba.lean`, `KaratsubaSquare.lean`, `Scalar.lean`, `Point.lean`, `ExtendedPoint.lean`,
  `CombTable.lean`, `WnafTable.lean`, `Eddsa.lean`, `Goldilocks.lean`, `Lib.lean`, `Errors.lean`, `Debug.lean`, `Unused.lean` follow the source files.
  `Client.lean` is a program that uses the library: what it holds, and one step for each call. `Threads.lean` is several of them with a shared generator.
  Three files do not model existing code: `Repaired.lean`, the verifier with six local changes, used in C80 and C110 only, `RepairSet.lean`, the verifier
  with any choice of these changes, used in C82, C87 to C89 and C92 only, and `Masked.lean`, signing with a table look-up that reads every entry, used in C81 and C94 only.
  `Loops.lean` and `LoopsApi.lean` (namespace `Chk`) transcribe the same code a second time, closer to the text: every loop index, bounds check,
  shift and overflow check of a checked build is there. `Leak.lean` (namespace `Leak`) is a third copy of the signing side, which also records
  branches and positions of memory accesses. `Cost.lean` (namespace `Cost`) is a fourth copy of signing and verification, which counts multiplications in
  the field and records the lengths of hashed strings; it is used in C83 and C100 only.
  `Platform.lean` (namespace `Platform`) is a fifth copy of the functions that compute with `usize`, for any width of that type; it is used in C106 only.
  `Fault.lean` (namespace `Faulty`) has the signing functions once more with places for faults of the memory; it is used in C110 only.
* `Spec/*`: independent specification. `Bytes`, `Field`, `Curve`, `WeakKeys`, `Rfc8032`, `Decode`, `Verify`, `Variants`, `Hex`, `Shake`, `Forger` do not import the model (`Shake` only
  its type abbreviations); `Leak` imports the type of recorded events, `Threads` the type of calls, `RepairSet` the type of choices of repairs. `Line` and `Panics` import the functions that are called, `Fault` the type of faults.
* `Math/*`: pure mathematics: primality of p and q, group law of the Edwards curve, order of the group, isogeny; `Forking` and `Lazy` count runs of a procedure that uses a random function.
* `Field/*`, `Scalar/*`, `Curve/*`, `Eddsa/*`: refinement proofs, layer by layer.
* `Checked/*`: `Chk` computes the same as the main model, so no check of a checked build ever fails, except where the main model panics too. `Checked/Width`: so does `Platform`.
* `Algo/*`: the same algorithms on elements of the field instead of limbs; verification refines them. They run fast enough for the kernel
  to evaluate complete verifications.
* `Leak/*`: the recording copy has the same results; two runs have the same record up to positions in the precomputed table; which positions these are.
* `Cost/*`: the counting copy has the same results; what each function costs.
* `Properties/*`: the theorems named in `MANIFEST.json`, with the concrete cases beside them. `Witness.lean` has concrete keys and points.
* `Tests.lean`, `UnitTests.lean`: every unit test of the repository (but the random `batch_test_sign_verify`) evaluated on
  the model, limb by limb where the test compares limbs (tests, not proofs; fidelity check only).

## 2. How Rust is modelled

* `u8/u32/u64` are `BitVec 8/32/64`; wrapping operations are the `BitVec` operations.
* `usize` is a natural number; conversions of signed numbers to it are those of a 64-bit platform. C106 shows that other widths give the same results.
* `i64` accumulators (`Sdword`) are mathematical integers, `as u32` is reduction modulo 2^32, `>>` is floor division. In `Chk` every result is
  checked to be in the range of `i64`, `u64`, ..., and `Checked/*` shows that the checks succeed.
* `[u32;16]` (field element) is a record `BN` with sixteen `BitVec 32` fields; `[u32;14]` (scalar) and byte arrays are `Arr α n`, lists with a
  proof of their length. Slices and `Vec` are lists. In `Chk` and `Leak` all arrays are lists and lengths are checked by the operations.
* a panic (failed bounds check, arithmetic overflow in checked builds, `expect`, `panic!`, slice length mismatch) is
  `Except.error` in `Rust α = Except Panic α`. A `while` loop has fuel; running out of it is a separate error, shown to be unreachable.
* `Result<T,E>` is `Except Err T`, so a fallible function has type `Rust (Except Err T)`.
* SHAKE256 is a universally quantified function `xof : List Byte -> Nat -> Byte` (message, output position): every theorem holds
  for every such function, in particular for SHAKE256. The only facts used are determinism and that a shorter read is a prefix of
  a longer one. `Spec/Shake.lean` defines SHAKE256 (FIPS 202), for the complete runs in `Properties/Vectors.lean`.
  C86 to C92, C95, C96, C98, C99 and C101, and the last theorems of C103, C104 and C105, and the first ones of C107, alone are about a random function in the place of SHAKE256: they count functions.
* The random generator is a state machine: a state and a function that delivers bytes and the next state.
* serde: a serializer is modelled by the string handed to it; a deserializer by its `is_human_readable` flag and the
  result of reading a string from it.
* Mutation (`&mut self`) is state passing.
* What an observer sees (C64, C94) is a list of events: outcome of every `if` and of every `while` test, computed positions of reads and writes, ranges of copies,
  positions in the precomputed table, lengths of what is hashed. Not recorded: accesses at literal positions in straight-line code, checks that never
  fail, the inside of SHAKE256. Word arithmetic is taken to run in constant time. Compilers may of course introduce branches.

Modelled: all functions of `bignumber.rs`, `karatsuba_32.rs`, `karatsuba_square_32.rs`, `scalar.rs`, `extended_point.rs`, `decaf_combs_32.rs`,
`decaf_wnaf_table.rs`, `eddsa.rs`, `goldilocks.rs`, `errors.rs`, `lib.rs`, and the constants of `constants32.rs`, including the helpers that only unit tests
call (`deserialize`, `must_deserialize`, `constant_time_greater_or_equal_p` in `Model/Unused.lean`, `copy`, `set`). Derived implementations: `Debug` of the public types in
`Model/Debug.lean`, `PartialEq` of the public types in `Model/Equality.lean`; `Clone` and `Copy` are the identity. Those of the private types are used by unit tests only.

Not modelled: timing beyond the events above, memory zeroisation, formatting flags of `Debug` output other than `#`, internals of the thread-local random generator, the crates `sha3`, `hex`, `rand`,
`serdect` themselves (hex is modelled by its documented behaviour), unit tests, and `prehash.rs`, which is not part of the crate (no `mod prehash`).

## 3. Trusted base

The kernel of Lean 4.33; the axioms `propext`, `Classical.choice`, `Quot.sound`, and no others, for every theorem in `MANIFEST.json` (checked with
`#print axioms`). No axioms are added; there is no `sorry`, `admit`, `native_decide` or `bv_decide`. Large concrete computations (table checks, primality
certificates, order of the base point, complete runs) are done by the kernel's own `Nat` arithmetic through `decide`/`rfl`/`norm_num` and proof terms.
Trusted by inspection: that the model says what the Rust code says (citations beside each definition; the two transcriptions, proved equal; the repository's test vectors), and that
`Spec` says what RFC 8032 and FIPS 202 say (also tested by the RFC's vectors in `Properties/Vectors.lean` and `Properties/RfcVectors.lean`).

## 4. Proof architecture

1. Field layer: `val : BN -> Nat`, `toF : BN -> ZMod p`. For every operation: result bound and `toF (op x y) = op (toF x) (toF y)`,
   under limb bounds that are shown to be maintained by all callers. Karatsuba accumulators are computed in the ring `BitVec 64`,
   identified with an explicit non-negative integer expression, and shown to be `< 2^64`.
2. Scalar layer: `val : Scalar -> Nat`, every operation correct modulo q, with canonical results.
3. Curve layer: the complete Edwards curve `E : x^2+y^2 = 1 + d x^2 y^2`, `d = -39081`, as an `AddCommGroup` (d is not a square;
   associativity by an explicit polynomial certificate). The code works on a 4-isogenous twisted curve with incomplete
   formulas. `Rep P A` says that the extended point P represents `± phi(A)`, A in E, where
   `phi(x,y) = (2xy/(x^2-y^2), (x^2+y^2)/(2-x^2-y^2))`; all code operations are shown to preserve `Rep`, in particular no exceptional
   case of the twisted formulas is reachable.
4. Scalar multiplication: comb, fixed window and wNAF loops by invariants; all 112 table entries checked by the kernel.
5. EdDSA layer: encode, decode, sign, verify against `Spec`.
6. API layer: keys, hex, serde.
7. Two-run layer (C31, C32, C43, C54): two decodings of the same class stay proportional through verification, so results are equal even where the
   comparison is wrong.
8. Leakage layer (C64, C94): a relation between two runs, and an explicit record, for every function.

## 5. Defects found (each is a theorem)

* `decaf_equal` never looks at limb 15, so "equal" means "equal up to a multiple of 2^420". Consequences: verification accepts
  if the cross product of the points is such a multiple (C06 is only partial, `C06_refuted`), the decoder can accept a string that is no point (C34), and such strings appear in
  accepted signatures under every accepted key that decodes to a point, for every message (C97).
* `dsa_like_deserialize`'s canonicity check does not do what it is meant to do: it accepts y >= p (C31) and rejects some canonical y
  (C33), so some honest keys and nonces produce signatures that do not verify (C05 and C27 are false as stated; proved with the exact side
  condition). Exactly 129 * 2^406 values of y fail the carry check
  (C33_count, by a bijection with the choices of the digits); at most 129 * 2^407 + 2^32 points are concerned in all, fewer than one in 2^31 (C55).
* `dsa_verify` slices the signature without checking its length: panics below 114 bytes (C09), ignores bytes beyond 114 (C10).
* S is not range checked (C11). The sign bit for x = 0 is not checked (C32). Small-order keys are accepted (C42). The
  challenge hash uses the re-encoded, torsion-cleared key (C43).
* Deserializing a malformed key panics instead of returning an error (C24). One direct-secret key has the neutral element as public key (C48).
* Signing reads the precomputed table at positions that depend on the secret and the nonce (C64); the source says "NOT CONSTANT TIME".
* The unused strict decoder of field elements tests the wrong half of its input (C63).

Six local repairs of the verifier remove the causes of the first three points: with them C05, C06, C27 and C30 hold in full (C80). No
theorem other than those of C80 and C82 is about the repaired code. A look-up that reads every entry of the table removes the leak of C64 (C81).

## 6. Plan per property

| id | modelled | proof |
|----|----------|-------|
| C01-C04 | derive/sign functions down to limbs | refinement to Spec via layers 1-5 |
| C05, C27 | sign + verify | algebra in E from C02/C04/C07/C15; partial: side condition = decoder byte check; refuted by concrete keys; exceptions counted |
| C06 | verify | partial: exact characterisation of acceptance, the group equation up to the comparison defect; refuted by a concrete key off the curve |
| C07 | verify | from layers 3-4: equal points have equal cross products |
| C08-C14 | verify, errors, panics | case analysis on the model plus panic-freedom of all callees |
| C15 | encode, decode, mult by 1/4 | isogeny composition = 4, halving twice inverts 4 modulo q |
| C16, C17 | encode, sign | strong_reduce canonical, sub_extra canonical |
| C18, C19 | private_to_secret, clamp | byte-level reasoning |
| C20-C26, C45 | lib.rs | unfolding plus hex round-trip lemmas |
| C28 | hash_with_dom inputs | list injectivity; which strings are hashed |
| C29 | derive, sign | panic-freedom of the comb |
| C30-C34 | decode | exact characterisation of acceptance (C30 partial), witnesses computed outside and checked by the kernel; layer 7 for "same key" |
| C35, C36 | scalar.rs | induction over limbs / chunks |
| C37 | bignumber.rs, karatsuba*.rs | layer 1 |
| C38-C41 | extended_point.rs | layer 4 |
| C42, C46 | verify | corollaries of the exact characterisation and the group law |
| C43, C54 | verify | layer 7: equality of results, not only of equations |
| C44 | lib.rs, generator as state machine | unfolding; histories of several keys by induction |
| C47, C61 | derive | order of the base point; injectivity of the encoding |
| C48 | derive | concrete key with scalar 4q |
| C49, C50 | goldilocks.rs functions not reached through ed448_sign | as C01, C02 |
| C51 | checked transcription | equality of `Chk` with the model |
| C52, C53 | serialize, error messages | unfolding; distinctness of the strings |
| C55, C56 | decoder | counting the y that fail the check, induction over digits; counting accepted non-points |
| C57, C58 | sign, verify against Spec/Verify | RFC 8032 decoding and validity; from C02, C07, C06_reject |
| C59, C60 | sign | linear algebra modulo q |
| C62 | verify | refinement to `Algo`; runs on the RFC's and the repository's vectors with SHAKE256 in the kernel |
| C63 | deserialize | carry chain as in the field layer |
| C64 | Model/Leak | layer 8; explicit positions from the bits of the recoded scalar; counting |
| C65, C66 | sign, verify | order of the base point; linear algebra modulo q |
| C67 | sign, derive, with the hash function changed on one string (`Spec/Count.lean`) | counting of residues; injectivity of clamping |
| C68 | verify | kernel of multiplication by 4; C43; counts of C55 |
| C69 | Model/Debug | reading maximal runs of digits; indenting lines keeps them |
| C70 | `reprogram` (Spec/Count), equation of C06/C07 | C59_extract, or all successes lie in one residue class |
| C71 | derive, key kinds | counting strings by residue (C67) |
| C72 | Spec/Variants: `dom4` with flag and context, Ed448ph | cancelling the prefix; C65 |
| C73 | sign_with_secret_and_nonce | C50, linear algebra modulo q |
| C74 | private_to_secret, derive, sign | C02, C04, C18 |
| C75 | verify | four times a point is a multiple of the base point (`four_mem_B`), the number of points (C68), C07 |
| C76 | verify | C07 with a point of order dividing 4 added to R |
| C77 | derive, sign | C64; two numbers with the same positions differ in complete columns of the comb |
| C78, C79 | `Model/Client.lean`: a program that calls the functions of lib.rs | invariant, induction over the calls; C20, C26, C44, C45 |
| C80 | `Model/Repaired.lean`: the verifier with six local changes | the layers of C06/C07 with exact comparisons; C57 |
| C81 | `Model/Masked.lean`: the recording functions with another look-up | the records agree up to positions as in C64; the positions are constant |
| C82 | `Model/RepairSet.lean`: the verifier with six flags | all flags: C80; for each flag that is off, an input accepted wrongly, rejected wrongly or causing a panic |
| C83 | `Model/Cost.lean`: signing and verification with a count of multiplications | a calculus of exact and largest costs; digits of a recoded scalar are few because they are spaced |
| C84 | `Model/Threads.lean`: any number of threads, a shared generator, hand-over of keys and signatures | invariant over all schedules; simulation of each thread by a run of its own calls on the tape of its own blocks |
| C85 | verification equation of RFC 8032 for two keys and one signature | algebra in the group of order 4q; counting of residues as in C70 |
| C86 | sign, derive; a forger as an arbitrary function from replies to requests (Spec/Forger); random hash function | value-by-value choice of a random function (Math/Lazy), the game with signatures made without the secret, forking by counting (Math/Forking), C59_extract |
| C87 | ed448_verify with any choice of repairs that contains the first; a forger as in C86 | all cases of decoding and verification for exact comparison; the game of C86 is for the weaker `Loose` validity, which each of these verifiers implies |
| C88 | as C86 and C87, with all private keys | for keys with the sign bit the values of the hash function at the nonce strings are chosen at random in any order (Math/Lazy), and meeting them means finding the secret; flipping the sign bit keeps the scalar, so both halves have the same distribution of scalars |
| C89 | as C88; the offer may have a message that was signed | the game of C86 is won with any new pair of message and first half; with the same first half the equation leaves one second half below q (C46). Attacks: C10, C87_exact |
| C90 | the functions of C05 and C27, with a random private key and a random hash function | C05_exceptions counts the scalars with a rejected encoding; the secret scalar and each nonce are values of a random function, at two different strings, so the chance for each is at most their share, and the chances are added |
| C91 | `ed448_sign` and `ed448_derive_public` with a random hash function | the value of a random function at a string found without looking at it may be chosen again; strings for different messages or seeds differ; chances for all pairs are added |
| C92 | `ed448_sign` and `ed448_derive_public` with the keys of N users and a random hash function; verifiers as in C89 | reduction to C88 and C89: a forger for one key who knows the keys of all other users makes their signatures with two values of the hash function each (`against`); the two games go the same way (induction over rounds); the chance for each user, with all other keys fixed, is bounded by C88, and the chances are added |
| C93 | the program of C78 and the threads of C84; Spec/History has the machine on byte strings | refinement: the relation between the two states (`Matches`) is kept by each call; the origin of keys is an invariant of the machine on byte strings |
| C94 | Model/Leak, Model/Masked; Spec/Trace writes the records out | for every function: when it returns, its record is the list (`Emits`), by invariants of the loops; the positions as in C64; counting adds up the parts |
| C95 | forgers of C86 to C89: one with the discrete logarithm of the key, one with fixed requests and a fixed offer, and all with a fixed second half | the first signs with the logarithm and nonce 1; for the second, both procedures of C88 give numbers that do not depend on the secret, so C89, and C92 for many users, apply with small numbers; for the others `extract` divides zero, so C86 and C87 do |
| C96 | as C86, C88 and C92, with `ed448_verify` as it is | the game of C86 is for any way of reading first halves as points up to 4-torsion (`Reading`, Spec/Forger); `TakenFor` is such a reading, since coordinates in the ratio of those of the image of R fix 4R; `C96_accepted` splits acceptance into the equation for this reading and near misses, by the cases of verification; the chances are added |
| C97 | `ed448_verify`, `eddsa_like_decode`, `point_scalar_mul` | a y outside the curve whose defect is a multiple of 2^420 was searched for; the kernel evaluates decoding and the multiplication by 4 on numbers modulo p (Algo/) and finds the ratio of coordinates of the image of a point; from there on verification goes as for that point; the second half exists since 4E is generated by B |
| C98 | verification against Spec; a search as an arbitrary function from values of the hash function to requests and a claim (Spec/Owner) | two equations with the same R and S give c A = c' A' up to small order; for a string that was not hashed before, the value of a random function can be chosen again, and one residue modulo q fits; sum over pairs of requests |
| C99 | signing by the library against signatures made without the secret (Spec/Observer, with the game of Spec/Forger) | an observer becomes a forger who, on yes, signs a message with the discrete logarithm of the public key: then the two steps of C86 that do not need an assumption compare the chances; the opposite answer gives the other direction; for the sign bit, an observer who finds the nonce |
| C100 | verification with a count of multiplications (Model/Cost), numbers with odd signed digits (Spec/Digits) | the recoding of C41 gives the only list of such digits; the loop costs 7 for each place, 8 and 7 for each digit; all four cases of the first digits; the cost of the other parts is fixed (C83) |
| C101 | signing by the library; somebody who sees a signature as an arbitrary function from values of the hash function to requests and an answer (Spec/Reader) | the values for the nonce and the challenge can be replaced by other random values that do not depend on the message; then what is seen is the same for all messages until one of the strings contains the message; a string contains at most two; otherwise the challenge of the new signature has a value that was never used |
| C102 | derived `PartialEq` of the keys and of the errors (Model/Equality) | the comparison of bytes decides equality; the verifying key is a function of the bytes (C20); the keys that sign alike are counted with C67; C18, C43, C53 |
| C103 | `ed448_verify`, the decoder, `ed448_derive_public` | the points killed by 4 have x = 0 or y = 0; the numbers below 2^448 with y = 0, 1, -1 modulo p are listed; C42 for the forgery, C65 for the other keys, the order of B for derived keys; counting of scalars as in C90 for random keys |
| C104 | the decoder (`Accepted`, `Decodes`) | strings without padding bits are pairs of a number and a bit (DecoderCount); numbers below 2^448 with a given residue; numbers below 2^392 and from 2^428 on pass the byte check; counting of scalars as in C90 for random keys |
| C105 | `ed448_sign`, `ed448_derive_public` | the parts of a signature (C65); a multiple of the base point is killed by 4 only if it is zero; a quotient modulo q as in C59; the chance of one nonce as in C90 |
| C106 | a second model of the point functions, the decoder, signing and verification in which `usize` has `u` bits (Model/Platform) | equality with the base model, function by function: digits of the recoding are at most 64, a negative index is out of range for every width; for at most 8 bits two keys with different scalars get the same public key |
| C107 | `ed448_derive_public`, `ed448_sign`, `ed448_verify`, the verifiers of C87 | the value of the random function for the string that is hashed on arrival is drawn last (as in C101); that this string is the one hashed for the nonce has the chance of one nonce (C91); for the second half: q is odd and has more than 445 bits, one S for each R (C46) |
| C108 | `ed448_derive_public` | the range of the clamped numbers, each taken by some direct secret (C67); multiples 4t of the base point for 2^445 numbers in a row below 2q differ; t + u = 2q for opposite keys |
| C109 | every public function that can panic in the model | one type with a constructor for each function; cases, from C09, C22, C29, C44, C49, C50; a string spells n bytes iff it consists of 2n digits, by induction |
| C110 | a second model of `ed448_sign` and the two functions it calls, with any function applied to each buffer after it is filled (Model/Fault) | the same argument as for C02 and C04 with the disturbed values; two linear equations for the secret scalar (C59); uniqueness of the second half (C46); for other verifiers through `Loose` (C87, C96); the order of the base point for a disturbed scalar; for the chance the second challenge is drawn last, as in C107 |
| C111 | `ed448_derive_public`, `ed448_sign` | clamping as arithmetic: what it changes in a sum is 0 to 3, or that plus 2^447 or 2^448, and none of these but 0 is a multiple of q; the parents without a child are counted from the top; for the chance each value of the scalar has chance 2^-445 at most (C90); induction over the generations |

## 7. How to read `seeded/LOG.jsonl`

Each line is one edit of the model in a scratch copy. `first_failures` are the declarations where the build reported errors; `theorems_failed` are the named
theorems that depend on one of them. A theorem in this list was not proved for the edited model by the proof as it stands. This does not show
that it is false there: proofs of refinement lemmas follow the text of a definition, and the control m386, an edit without any effect, breaks
one of them. The build also stops at the first module with errors, so theorems in later modules may be missing from the list.
For this reason m339, m340 and m342 to m353 (events left out of the record) were repeated with the failing helper proofs left out in the scratch copy, until
the build reached the lemmas that C94 rests on. Notes say where an edit was equivalent, was not a valid definition, or where the expectation was wrong.
The notes of m292, m297 and m301 refer to repetitions m336 to m338 that were run after these notes had first been committed; they came out as the notes say.
