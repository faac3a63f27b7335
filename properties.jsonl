{"id": "C01", "title": "Public keys of ordinary private keys are RFC 8032 public keys", "statement": "ed448_derive_public(k) is the RFC 8032 (section 5.2.5) Ed448 public key of k: the 57-byte encoding of [s]B, where s is the clamped little-endian value of the first 57 bytes of SHAKE256(k).", "quantifier": "every 57-byte private key whose top bit (bit 7 of byte 56) is clear, every SHAKE256 output", "why_tests_cant": "2^455 keys and every carry pattern in the field and comb code; test vectors exercise a handful", "anchors": ["src/goldilocks.rs: ed448_derive_public, private_to_public, secret_to_public, point_by_secret", "src/extended_point.rs: precomputed_scalar_mul, eddsa_like_encode", "src/decaf_combs_32.rs: DECAF_PRECOMP_TABLE"]}
{"id": "C02", "title": "Signatures of ordinary private keys are RFC 8032 signatures", "statement": "ed448_sign(k, m) equals the RFC 8032 (section 5.2.6, Ed448, empty context) signature of m under k, byte for byte.", "quantifier": "every 57-byte private key with top bit clear, every message of every length, every SHAKE256 output", "why_tests_cant": "unbounded messages, 2^455 keys; nonce and challenge take all 912-bit values", "anchors": ["src/goldilocks.rs: ed448_sign, sign_by_private", "src/scalar.rs: decode_long, mul, add, encode", "src/eddsa.rs: hash_with_dom, clamp"]}
{"id": "C03", "title": "Public keys of direct-secret keys", "statement": "When bit 7 of byte 56 is set, ed448_derive_public(k) is the encoding of [s]B where s is the clamped value of k itself (no hashing); in particular it does not depend on the hash.", "quantifier": "every 57-byte key with top bit set", "why_tests_cant": "2^455 keys; the branch on one bit selects a different secret derivation", "anchors": ["src/goldilocks.rs: ed448_derive_public, secret_to_public, point_by_secret"]}
{"id": "C04", "title": "Signatures of direct-secret keys", "statement": "When bit 7 of byte 56 is set, ed448_sign(k, m) is the EdDSA signature with secret scalar clamp(k) and nonce seed clamp(k): R = [r]B with r = H(dom||clamp(k)||m) mod q, S = r + H(dom||R||A||m)*s mod q.", "quantifier": "every 57-byte key with top bit set, every message, every hash", "why_tests_cant": "unbounded messages and 2^455 keys", "anchors": ["src/goldilocks.rs: ed448_sign, sign_with_secret_and_nonce"]}
{"id": "C05", "title": "A signature verifies under the key that made it", "statement": "ed448_verify(ed448_derive_public(k), ed448_sign(k,m), m) = Ok(true).", "quantifier": "every 57-byte private key of either kind, every message, every hash", "why_tests_cant": "the property fails only for about 2^-35 of the keys (and of the nonces), which random testing does not reach; it has to be settled by proof or by a constructed counterexample", "anchors": ["src/goldilocks.rs: ed448_sign, ed448_verify, ed448_derive_public", "src/eddsa.rs: dsa_verify", "src/bignumber.rs: dsa_like_deserialize"]}
{"id": "C06", "title": "A verified signature satisfies the EdDSA equation", "statement": "If ed448_verify(A,sig,m) = Ok(true) then A and R=sig[0..57] decode to curve points and 4*S*B = 4*R + 4*H(..)*A.", "quantifier": "every public key string, signature string, message and hash", "why_tests_cant": "an accepting forged input cannot be found by sampling; equality of points is decided by a comparison that ignores one limb", "anchors": ["src/eddsa.rs: dsa_verify", "src/extended_point.rs: mod_equal, eddsa_like_decode, is_on_curve", "src/bignumber.rs: decaf_equal"]}
{"id": "C07", "title": "Every signature satisfying the EdDSA equation is accepted", "statement": "If the public key and R decode and the group equation 4*S*B = 4*R + 4*c*A holds, where c is the challenge the verifier computes, then ed448_verify returns Ok(true).", "quantifier": "every public key, signature of at least 114 bytes, message, hash, not only honestly produced ones", "why_tests_cant": "all group elements including small-order and mixed-order points and all scalars, including those exercising special cases of the wNAF recoding (zero scalars, equal top positions)", "anchors": ["src/eddsa.rs: dsa_verify", "src/extended_point.rs: point_double_scalamul_non_secret, recode_wnaf"]}
{"id": "C08", "title": "Verification errors name the input at fault", "statement": "ed448_verify returns InvalidSignatureError exactly for the all-zero key or all-zero 114-byte signature; otherwise InvalidPubkeyLengthError exactly when the key is not 57 bytes, DecodePubkeyError exactly when a 57-byte key does not decode, DecodeSignatureError exactly when the key decodes and R does not; no other error is ever returned.", "quantifier": "every byte string for key, signature (>= 114 bytes where it is reached) and message", "why_tests_cant": "all byte strings of all lengths", "anchors": ["src/goldilocks.rs: ed448_verify", "src/eddsa.rs: dsa_verify", "src/errors.rs: LibgoldilockErrors"]}
{"id": "C09", "title": "Verification panics exactly on short signatures under decodable keys", "statement": "ed448_verify and ed448_verify_with_error panic if and only if the public key decodes and the signature is shorter than 114 bytes; in particular no arithmetic overflow, index or 'Unexpected error type' panic is reachable, and a signature of 114 or more bytes never panics.", "quantifier": "every public key, signature and message byte string of every length", "why_tests_cant": "absence of panics over all inputs, including all carry patterns and wNAF digit patterns", "anchors": ["src/eddsa.rs: dsa_verify", "src/extended_point.rs: recode_wnaf, point_double_scalamul_non_secret, point_scalar_mul", "src/bignumber.rs: mul_w"]}
{"id": "C10", "title": "Signature bytes after the first 114 do not influence verification", "statement": "For signatures of at least 114 bytes, ed448_verify(A, sig ++ t, m) gives the same result as ed448_verify(A, sig[..114], m) provided the latter is not the all-zero signature.", "quantifier": "every key, every signature, every trailing byte string, every message", "why_tests_cant": "unbounded trailing data", "anchors": ["src/eddsa.rs: dsa_verify", "src/goldilocks.rs: ed448_verify"]}
{"id": "C11", "title": "Only S modulo the group order matters (signatures are malleable)", "statement": "Replacing the S half of a signature by any 57-byte string with the same value modulo q does not change the result of ed448_verify (neither signature being all zero); S >= q is accepted, so a valid signature can be altered without the key.", "quantifier": "every key, R, message, and every pair of 57-byte S strings congruent modulo q", "why_tests_cant": "congruence classes of 2^456 strings", "anchors": ["src/eddsa.rs: dsa_verify", "src/scalar.rs: decode_long"]}
{"id": "C12", "title": "ed448_verify_with_error and ed448_verify agree", "statement": "ed448_verify_with_error returns Ok(()) exactly when ed448_verify returns Ok(true), Err(InvalidSignatureError) when it returns Ok(false), and the same error otherwise; they panic on the same inputs.", "quantifier": "every key, signature and message", "why_tests_cant": "all inputs", "anchors": ["src/goldilocks.rs: ed448_verify, ed448_verify_with_error"]}
{"id": "C13", "title": "All-zero public keys and signatures are rejected", "statement": "ed448_verify returns Err(InvalidSignatureError) whenever the key is 57 zero bytes or the signature is 114 zero bytes, whatever the other arguments (even malformed ones).", "quantifier": "every other argument of every length", "why_tests_cant": "the other arguments are unbounded", "anchors": ["src/goldilocks.rs: ed448_verify"]}
{"id": "C14", "title": "Keys of the wrong length are rejected before anything else is looked at", "statement": "If the public key is not 57 bytes long, ed448_verify returns Err(InvalidPubkeyLengthError) (or InvalidSignatureError for the all-zero signature), for signatures of any length, without panicking.", "quantifier": "every key length except 57, every signature of every length", "why_tests_cant": "all lengths", "anchors": ["src/eddsa.rs: dsa_verify", "src/extended_point.rs: eddsa_like_decode"]}
{"id": "C15", "title": "Decoding a derived public key gives back that key", "statement": "Every point [n]B encodes to a string that, if it passes the decoder's byte check, the verifier decodes to a point with the same encoding; so the key bytes the challenge hash uses in verification equal the key bytes used in signing.", "quantifier": "every scalar n", "why_tests_cant": "2^446 points; goes through a square root, two isogenies and a multiplication by 1/4", "anchors": ["src/extended_point.rs: eddsa_like_encode, eddsa_like_decode, point_scalar_mul", "src/bignumber.rs: isr"]}
{"id": "C16", "title": "Public keys are canonical encodings", "statement": "The output of ed448_derive_public is the canonical RFC 8032 encoding of a point of E: its first 56 bytes are a little-endian y < p, the low 7 bits of byte 56 are zero, bit 7 is the parity of x, and (x,y) is on the curve.", "quantifier": "every 57-byte private key", "why_tests_cant": "2^456 keys; strong reduction must be right for every limb pattern", "anchors": ["src/extended_point.rs: eddsa_like_encode", "src/bignumber.rs: dsa_like_serialize, strong_reduce, low_bit"]}
{"id": "C17", "title": "Signatures are canonical", "statement": "In the output of ed448_sign the first 57 bytes are a canonical point encoding and the last 57 bytes are the little-endian encoding of a number S < q (so byte 113 is zero).", "quantifier": "every key, message and hash", "why_tests_cant": "all keys and messages; final conditional subtraction must be right for every carry", "anchors": ["src/goldilocks.rs: ed448_sign", "src/scalar.rs: add, sub_extra, encode"]}
{"id": "C18", "title": "Hashed secret expansion", "statement": "private_to_secret(k) has its top bit set and ed448_derive_public(private_to_secret(k)) = ed448_derive_public(k) for ordinary keys k.", "quantifier": "every ordinary 57-byte key, every hash", "why_tests_cant": "2^455 keys; needs that clamping removes exactly the bits that were changed", "anchors": ["src/goldilocks.rs: private_to_secret, ed448_derive_public"]}
{"id": "C19", "title": "Clamped bits of a direct-secret key are irrelevant", "statement": "Two direct-secret keys that differ only in bits 0-1 of byte 0, bit 7 of byte 55 and bits 0-6 of byte 56 have the same public key and produce the same signature on every message.", "quantifier": "every pair of such keys, every message, every hash", "why_tests_cant": "all keys and messages", "anchors": ["src/goldilocks.rs: ed448_derive_public, ed448_sign", "src/eddsa.rs: clamp"]}
{"id": "C20", "title": "A SigningKey's verifying key belongs to its secret key", "statement": "Every SigningKey obtained from from_str, from_slice, from_bytes, From<SecretKey>, random or deserialization satisfies verifying_key() = ed448_derive_public(to_bytes()).", "quantifier": "every construction path and every input to it", "why_tests_cant": "all inputs of all constructors", "anchors": ["src/lib.rs: SigningKey::from_str, from_slice, from_bytes, random, From<SecretKey>, Deserialize"]}
{"id": "C21", "title": "Key constructors agree with each other", "statement": "from_slice(b), from_bytes(b), from_str(hex(b)) and SigningKey::from(SecretKey::from_bytes(b)) are equal for every 57-byte b, in lower or upper case hexadecimal.", "quantifier": "every 57-byte string and every choice of letter case", "why_tests_cant": "2^456 strings", "anchors": ["src/lib.rs: SigningKey", "src/goldilocks.rs: hex_to_private_key"]}
{"id": "C22", "title": "Length errors of the key constructors", "statement": "SigningKey::from_bytes(b) returns Err(InvalidPrivKeyLengthErrro(len b)) exactly when len b != 57 and never panics; from_slice, SecretKey::from_bytes and VerifyingKey::from_bytes panic exactly when len b != 57.", "quantifier": "every byte string of every length", "why_tests_cant": "all lengths", "anchors": ["src/lib.rs: SigningKey::from_bytes, from_slice, SecretKey::from_bytes, VerifyingKey::from_bytes"]}
{"id": "C23", "title": "Key byte round trips", "statement": "SigningKey::from_bytes(b).to_bytes() = b, VerifyingKey::from_bytes(b).as_bytes() = b, and SigningKey::from_bytes(k.to_bytes()) = k for every reachable k; the secret key that a SigningKey hands out is the one it was made from and makes the same SigningKey again.", "quantifier": "every 57-byte string, every reachable SigningKey", "why_tests_cant": "2^456 values", "anchors": ["src/lib.rs: to_bytes, as_bytes, from_bytes, secret_key, From<SecretKey> for SigningKey"]}
{"id": "C24", "title": "Serialization round trips", "statement": "Deserializing, through any human-readable format, the string a SigningKey, SecretKey or VerifyingKey serializes to gives back an equal value; every non-human-readable deserializer yields the error 'Expected a string'.", "quantifier": "every key, every string, both kinds of deserializer", "why_tests_cant": "all keys", "anchors": ["src/lib.rs: Serialize, Deserialize for SigningKey, SecretKey, VerifyingKey"]}
{"id": "C25", "title": "Hex parsing accepts exactly the well-formed strings", "statement": "hex_to_private_key, hex_to_signature, hex_to_message_hash and the from_str constructors succeed exactly on strings of 2*57 (2*114, 2*32) hexadecimal digits of either case and return the denoted bytes; they panic on every other string.", "quantifier": "every string of every length over every character", "why_tests_cant": "all strings", "anchors": ["src/goldilocks.rs: hex_to_private_key, hex_to_signature, hex_to_message_hash", "src/lib.rs: from_str"]}
{"id": "C26", "title": "sign_prehash layout", "statement": "sign_prehash never fails and returns 171 bytes: the 114-byte ed448_sign output followed by the 57-byte verifying key.", "quantifier": "every SigningKey, every prehash byte string of every length", "why_tests_cant": "unbounded input", "anchors": ["src/lib.rs: PrehashSigner for SigningKey, Signature::as_slice"]}
{"id": "C27", "title": "A sign_prehash output verifies under the key it carries", "statement": "For sig = sign_prehash(h): ed448_verify(sig[114..171], sig[0..114], h) = Ok(true), and the same with all 171 bytes passed as the signature.", "quantifier": "every reachable SigningKey, every h", "why_tests_cant": "same rare failing keys as the sign/verify round trip", "anchors": ["src/lib.rs: PrehashSigner", "src/goldilocks.rs: ed448_verify"]}
{"id": "C28", "title": "Hash inputs bind key, nonce point and message", "statement": "The string hashed for the challenge determines R, the public key and the message uniquely, starts with the Ed448 domain separator, and is the same in signing and verification; the challenge input of one signature can equal the nonce input of another only if the 57-byte nonce seed equals R and that message starts with the public key.", "quantifier": "every R, A, m and every pair of hash queries", "why_tests_cant": "all messages of all lengths", "anchors": ["src/eddsa.rs: hash_with_dom", "src/goldilocks.rs: sign_by_private, sign_with_secret_and_nonce"]}
{"id": "C29", "title": "Key derivation and signing never panic", "statement": "ed448_derive_public and ed448_sign return normally: no index out of bounds, no arithmetic overflow in checked builds.", "quantifier": "every 57-byte key, every message, every hash", "why_tests_cant": "all inputs; table indices are computed from secret bits", "anchors": ["src/goldilocks.rs: ed448_derive_public, ed448_sign", "src/extended_point.rs: precomputed_scalar_mul"]}
{"id": "C30", "title": "Strings that are not point encodings are rejected", "statement": "If a 57-byte string has a nonzero bit among bits 0-6 of byte 56, or its y (reduced mod p) is not the y-coordinate of a curve point, verification under it returns DecodePubkeyError.", "quantifier": "every 57-byte string", "why_tests_cant": "half of all 2^448 strings; the check ignores one limb, which tests cannot hit", "anchors": ["src/extended_point.rs: eddsa_like_decode, is_on_curve", "src/bignumber.rs: decaf_equal"]}
{"id": "C31", "title": "Non-canonical field encodings are treated as their reduction", "statement": "A 57-byte key whose y is in [p, 2^448) is not rejected as non-canonical: it decodes to the same point as the encoding of y - p.", "quantifier": "every y in [p, 2^448) and both signs", "why_tests_cant": "2^224 strings out of 2^449 never met by random tests", "anchors": ["src/bignumber.rs: dsa_like_deserialize", "src/extended_point.rs: eddsa_like_decode"]}
{"id": "C32", "title": "The sign bit is ignored when x = 0", "statement": "The encodings of (0,1) and (0,-1) with the sign bit set decode to the same points as without it, where RFC 8032 requires rejection.", "quantifier": "every encoding with y = 1 or y = -1", "why_tests_cant": "four strings out of 2^456", "anchors": ["src/extended_point.rs: eddsa_like_decode"]}
{"id": "C33", "title": "Some canonical encodings of curve points are rejected", "statement": "The decoder rejects the canonical encoding of a point exactly when a carry computed from its 28-bit digits is zero or a product of its coordinates has 420 low zero bits; only y below 2^428 can fail the carry check, and there are valid keys whose public key does. Exactly 129 * 2^406 of the elements of the field fail it, between one in 2^34 and one in 2^35; so exactly 129 * 2^407 strings of 57 bytes without padding bits fail it, each of which is rejected as a key with every signature and message.", "quantifier": "every canonical encoding", "why_tests_cant": "a 2^-35 fraction of encodings", "anchors": ["src/bignumber.rs: dsa_like_deserialize"]}
{"id": "C34", "title": "Some strings that are not point encodings are accepted", "statement": "There is a 57-byte string whose y is not the y-coordinate of a curve point and which the decoder nevertheless accepts; verification never answers for it as public key that the key cannot be decoded.", "quantifier": "existential over 57-byte strings", "why_tests_cant": "density about 2^-420; found by solving a polynomial equation", "anchors": ["src/bignumber.rs: decaf_equal", "src/extended_point.rs: is_on_curve"]}
{"id": "C35", "title": "Byte strings of any length are reduced modulo the group order correctly", "statement": "The scalar that signing and verification derive from a hash output or signature half is the little-endian value of the string modulo q.", "quantifier": "every byte string of every length", "why_tests_cant": "unbounded lengths and all values", "anchors": ["src/scalar.rs: decode_long, decode_short, decode, montgomery_multiply, add"]}
{"id": "C36", "title": "Scalar arithmetic is arithmetic modulo q", "statement": "Addition, subtraction, multiplication and halving of scalars return the canonical representative of the corresponding operation modulo q. The two helpers that only tests call do what their names say: a copy equals the original, and a scalar set from a word stands for this word.", "quantifier": "every pair of reduced scalars (and the wider ranges stated in the theorems)", "why_tests_cant": "2^892 pairs with every carry pattern", "anchors": ["src/scalar.rs: add, sub, sub_extra, halve, mul, montgomery_multiply, encode, copy, set"]}
{"id": "C37", "title": "Field arithmetic is arithmetic modulo p", "statement": "Addition, subtraction, negation, multiplication, squaring, inversion, inverse square root, comparison up to the 28 most significant bits, parity, selection and serialization of field elements agree with arithmetic modulo 2^448-2^224-1 for all limb values within the bounds the code maintains, with no overflow of any 32- or 64-bit accumulator.", "quantifier": "every pair of limb vectors within the bounds", "why_tests_cant": "2^896 inputs; the classic place for undetected carry bugs", "anchors": ["src/bignumber.rs: add, sub, neg, mul_w, isr, invert, strong_reduce, dsa_like_serialize", "src/karatsuba_32.rs: karatsuba_mul", "src/karatsuba_square_32.rs: karatsuba_square"]}
{"id": "C38", "title": "Fixed-base scalar multiplication", "statement": "The comb multiplication used for keys and nonces returns [s]B for every scalar.", "quantifier": "every scalar below q", "why_tests_cant": "2^446 scalars; depends on 80 precomputed table entries all being right", "anchors": ["src/extended_point.rs: precomputed_scalar_mul", "src/decaf_combs_32.rs"]}
{"id": "C39", "title": "Variable-base scalar multiplication", "statement": "The windowed multiplication used in decoding and verification returns [s]P for every scalar and every point.", "quantifier": "every scalar below q and every curve point", "why_tests_cant": "2^892 pairs; includes exceptional points of the incomplete twisted formulas", "anchors": ["src/extended_point.rs: point_scalar_mul, prepare_fixed_window"]}
{"id": "C40", "title": "Double-scalar multiplication", "statement": "The wNAF multiplication used in verification returns [s1]B + [s2]P for all scalars and points.", "quantifier": "every pair of scalars below q and every curve point", "why_tests_cant": "2^1338 triples; interleaving of two recodings has many schedules", "anchors": ["src/extended_point.rs: point_double_scalamul_non_secret, recode_wnaf, decaf_prepare_wnaf_table", "src/decaf_wnaf_table.rs"]}
{"id": "C41", "title": "The wNAF recoding is exact and fits its buffers", "statement": "For every scalar below q the recoding yields odd digits bounded by the table size at strictly decreasing positions whose weighted sum is the scalar, with a positive leading digit, terminated by a -1 entry, and never writes outside the 77- or 115-entry buffer.", "quantifier": "every scalar below q, both table sizes", "why_tests_cant": "2^446 scalars", "anchors": ["src/extended_point.rs: recode_wnaf"]}
{"id": "C42", "title": "Small-order public keys accept forgeries on every message", "statement": "With the public key set to the encoding of the neutral element, (encode([s]B), s) verifies for every message (for every s whose R passes the decoder's byte check).", "quantifier": "every message, every scalar s, every hash", "why_tests_cant": "universally quantified over messages", "anchors": ["src/goldilocks.rs: ed448_verify", "src/eddsa.rs: dsa_verify"]}
{"id": "C43", "title": "Public keys with a small-order component are treated as their cleared key", "statement": "Verification under a key string for A + T, with T of order dividing 4, gives for every signature and message the same result as verification under a key string for A, as long as the decoder accepts both strings and neither is the all-zero string: the challenge is computed from the encoding of the cleared point, not from the key bytes given (RFC 8032 hashes the given bytes).", "quantifier": "every point A, every T in the 4-torsion, every pair of accepted strings for them, every signature and message", "why_tests_cant": "all points", "anchors": ["src/eddsa.rs: dsa_verify", "src/extended_point.rs: eddsa_like_decode"]}
{"id": "C44", "title": "Random key generation uses exactly the bytes drawn", "statement": "SigningKey::random and ed448_generate_key draw 57 bytes from the generator and use them unchanged as the secret key; the verifying key is derived from them.", "quantifier": "every generator output", "why_tests_cant": "all 2^456 outputs", "anchors": ["src/lib.rs: SigningKey::random", "src/goldilocks.rs: ed448_generate_key"]}
{"id": "C45", "title": "Signing is deterministic in key and message and ignores construction path", "statement": "Two SigningKeys with equal to_bytes() produce equal sign_prehash outputs on equal inputs, whatever constructors made them.", "quantifier": "every pair of reachable keys, every input", "why_tests_cant": "all keys and inputs", "anchors": ["src/lib.rs: SigningKey, PrehashSigner"]}
{"id": "C46", "title": "Exactly one S modulo q satisfies the verification equation", "statement": "For a fixed key, R and message there is an S for which the exact EdDSA equation holds, and any two such S are congruent modulo q, so apart from the comparison defect the only malleability is adding multiples of q.", "quantifier": "every key, R, message and pair of S strings", "why_tests_cant": "2^912 pairs", "anchors": ["src/eddsa.rs: dsa_verify"]}
{"id": "C47", "title": "Direct-secret public keys are equal only for equal secrets", "statement": "For keys with the top bit set, ed448_derive_public(k) = ed448_derive_public(k') exactly when the clamped values of k and k' are equal, although the secrets are not reduced modulo the group order.", "quantifier": "every pair of 57-byte keys with the top bit set", "why_tests_cant": "collisions would need a search over 2^890 pairs", "anchors": ["src/goldilocks.rs: ed448_derive_public, secret_to_public, point_by_secret"]}
{"id": "C48", "title": "One direct-secret key has the neutral element as public key", "statement": "ed448_derive_public(k) is the encoding of the neutral element exactly when the clamped value of k is 4q; such a key exists, and is not refused.", "quantifier": "every 57-byte key with the top bit set", "why_tests_cant": "a single secret in 2^445; no random test meets it", "anchors": ["src/goldilocks.rs: ed448_derive_public, point_by_secret", "src/eddsa.rs: clamp"]}
{"id": "C49", "title": "The explicitly hashing functions follow RFC 8032 on all keys", "statement": "private_to_public(k) and sign_by_private(k, m) are the RFC 8032 public key and signature for every 57-byte k, whatever its top bit is.", "quantifier": "every 57-byte key, every message, every hash", "why_tests_cant": "2^456 keys, unbounded messages", "anchors": ["src/goldilocks.rs: private_to_public, sign_by_private"]}
{"id": "C50", "title": "Signing with a given secret and nonce seed", "statement": "secret_to_public(s) and sign_with_secret_and_nonce(s, n, m) use the clamped value of s as secret scalar and n as seed of the nonce; with s = private_to_secret(k) and n the second half of the hash of k the result is ed448_sign(k, m).", "quantifier": "every pair of 57-byte strings, every message, every hash", "why_tests_cant": "2^912 argument pairs, unbounded messages", "anchors": ["src/goldilocks.rs: secret_to_public, sign_with_secret_and_nonce, private_to_secret"]}
{"id": "C51", "title": "Checked builds compute the same results", "statement": "With every index, slice bound, slice length and non-wrapping arithmetic operation checked (a debug build), key derivation and signing fail no check for any 57-byte key and return the same bytes as specified in C01-C04; verification fails only the slice bound on a signature shorter than 114 bytes (under a decodable key) and otherwise returns the same result as the unchecked model.", "quantifier": "every 57-byte key, every message, every public key and signature of any length, every hash", "why_tests_cant": "the checks sit inside limb arithmetic and table lookups; which of them could fail depends on carries that random inputs hit with negligible probability", "anchors": ["src/goldilocks.rs", "src/bignumber.rs", "src/scalar.rs", "src/extended_point.rs", "src/karatsuba_32.rs: karatsuba_mul", "src/karatsuba_square_32.rs: karatsuba_square"]}
{"id": "C52", "title": "Serialized keys are lower-case hexadecimal", "statement": "SigningKey, SecretKey and VerifyingKey serialize to the string of 114 lower-case hexadecimal digits that spells the key's 57 bytes (for a SigningKey its secret bytes); this string is the only lower-case spelling, so equal keys have equal serialized forms in every process.", "quantifier": "every key", "why_tests_cant": "2^456 keys", "anchors": ["src/lib.rs: Serialize for SigningKey, SecretKey, VerifyingKey"]}
{"id": "C53", "title": "Error messages identify the error", "statement": "Two LibgoldilockErrors values with the same displayed message are equal; the message SigningKey::from_bytes gives for a key of the wrong length contains that length in decimal.", "quantifier": "every error value, every length", "why_tests_cant": "unbounded lengths", "anchors": ["src/errors.rs: LibgoldilockErrors", "src/lib.rs: SigningKey::from_bytes"]}
{"id": "C54", "title": "Verification sees a key only through y modulo p and the sign bit", "statement": "Two key strings that the decoder accepts, other than the all-zero string, and that have the same y modulo p and the same sign bit, or that describe the same point, give the same result (true, false, error or panic) for every signature and message.", "quantifier": "every pair of accepted key strings, every signature string, every message", "why_tests_cant": "all pairs of strings and all signatures", "anchors": ["src/eddsa.rs: dsa_verify", "src/goldilocks.rs: ed448_verify, ed448_verify_with_error", "src/extended_point.rs: eddsa_like_decode"]}
{"id": "C55", "title": "Honest keys and signatures that are rejected are rare", "statement": "There is one set of at most 129 * 2^407 + 2^32 scalars (fewer than one in 2^31 of the scalars below the group order), the same for every hash function, such that every signature verifies under its maker's public key unless the secret scalar or the nonce is in that set modulo the group order; at most 129 * 2^407 + 2^32 of the 2^445 secret scalars have a rejected public key.", "quantifier": "every private key, every message, every behaviour of the hash function", "why_tests_cant": "a count over all scalars; tests with random keys see failures with probability below 2^-29", "anchors": ["src/goldilocks.rs: ed448_sign, ed448_verify", "src/eddsa.rs: dsa_verify", "src/bignumber.rs: dsa_like_deserialize", "src/extended_point.rs: eddsa_like_decode, is_on_curve"]}
{"id": "C56", "title": "Strings that describe no point and are accepted are rare", "statement": "At most 56 * 2^28 of the 2^456 strings of 57 bytes describe no point of the curve and are nevertheless accepted as public keys; every other string that describes no point is rejected with DecodePubkeyError.", "quantifier": "every string of 57 bytes, every signature, message and hash function", "why_tests_cant": "a count over 2^456 strings", "anchors": ["src/extended_point.rs: eddsa_like_decode, is_on_curve", "src/bignumber.rs: decaf_equal"]}
{"id": "C57", "title": "Every signature is valid for other RFC 8032 implementations", "statement": "For every private key and message, the derived public key and the signature are canonical encodings of curve points with a reduced S, and satisfy the verification of RFC 8032 5.2.7 (also in the form without the cofactor). There are no exceptions: the rare failures of C05 are caused only by this library's own decoder.", "quantifier": "every private key of 57 bytes, every message, every behaviour of the hash function", "why_tests_cant": "a statement about every key and message against an independent definition of validity, not against the library's own verifier", "anchors": ["src/goldilocks.rs: ed448_sign, ed448_derive_public", "src/goldilocks.rs: secret_to_public, sign_with_secret_and_nonce"]}
{"id": "C58", "title": "Verification agrees with RFC 8032 for canonical input", "statement": "A signature valid by RFC 8032 under a key in the prime-order subgroup is accepted, unless the decoder rejects the key or R (then the matching decoding error is returned) or the signature is 114 zero bytes. If the answer is Ok(false), the signature is not valid by RFC 8032.", "quantifier": "every public key, signature, message and behaviour of the hash function", "why_tests_cant": "ranges over all foreign signatures, including ones no signer of this library produces", "anchors": ["src/eddsa.rs: dsa_verify", "src/goldilocks.rs: ed448_verify"]}
{"id": "C59", "title": "Two signatures with the same R reveal the secret", "statement": "Two signatures made with the same secret and with the same first half give the secret scalar modulo q as a quotient of differences, unless the challenges agree modulo q; likewise two solutions of the verification equation for one R and different challenges give the discrete logarithm of the key up to small order.", "quantifier": "every secret, every pair of nonces and messages, every behaviour of the hash function", "why_tests_cant": "an algebraic relation between all pairs of runs", "anchors": ["src/goldilocks.rs: sign_with_secret_and_nonce"]}
{"id": "C60", "title": "Any nonce serves, and only the secret scalar modulo q matters", "statement": "For every number r and every number t congruent to the secret scalar modulo the group order, the encoding of rB followed by (r + c t) mod q is accepted under the key's public key if the decoder accepts both encodings.", "quantifier": "every key, message, nonce r, representative t and behaviour of the hash function", "why_tests_cant": "ranges over all nonces, also those the library's own signer never derives", "anchors": ["src/goldilocks.rs: ed448_verify", "src/eddsa.rs: dsa_verify"]}
{"id": "C61", "title": "Equal public keys mean equal secret scalars", "statement": "Two private keys of any kind have the same public key if and only if their clamped secret scalars are equal.", "quantifier": "every pair of 57-byte private keys, every behaviour of the hash function", "why_tests_cant": "injectivity over 2^445 secret scalars", "anchors": ["src/goldilocks.rs: ed448_derive_public", "src/goldilocks.rs: secret_to_public, point_by_secret"]}
{"id": "C62", "title": "Verification depends only on residues modulo p", "statement": "For every key, signature and message that are not all zero, ed448_verify answers exactly as the same algorithm run on exact integers modulo p = 2^448 - 2^224 - 1: no carry, overflow, missing reduction or representation of a coordinate in limbs ever changes the answer, the error or the panic, also where the strings encode no point of the curve.", "quantifier": "every key, signature and message of any length and every behaviour of the hash function", "why_tests_cant": "ranges over all inputs, also the ones that are no points of the curve, for which no reference implementation exists; a carry bug shows up for a fraction of inputs that tests do not meet", "anchors": ["src/goldilocks.rs: ed448_verify", "src/eddsa.rs: dsa_verify", "src/extended_point.rs: eddsa_like_decode, point_scalar_mul, point_double_scalamul_non_secret, eddsa_like_encode", "src/bignumber.rs: weak_reduce, strong_reduce, decaf_equal", "src/karatsuba_32.rs: karatsuba_mul", "src/karatsuba_square_32.rs: karatsuba_square"]}
{"id": "C63", "title": "The strict field decoder checks the wrong half of its input", "statement": "The crate's internal strict decoder of field elements (deserialize, must_deserialize; called by unit tests only) never overflows or reads out of bounds, returns limbs below 2^28 that represent the input, and accepts a 56-byte string exactly when its low 224 bits are less than 2^224 - 2^112 - 1. So, unlike what its name and test suggest, it is not the test v < p: it accepts some v >= p and refuses some v < p.", "quantifier": "every 56-byte string", "why_tests_cant": "the crate's unit test checks three strings and passes; the error shows on one string in 2^112", "anchors": ["src/bignumber.rs: deserialize, deserialize_return_mask, must_deserialize, constant_time_greater_or_equal_p"]}
{"id": "C64", "title": "What deriving and signing show to an observer of branches and memory accesses", "statement": "When two keys are of the same kind (ordinary or direct secret) and two messages have the same length, deriving the public key takes the same branches and accesses arrays at the same positions for both keys, and so does signing, whatever the hash function returns; the only exception are the positions read in the table of multiples of the base point. These are 90 positions per multiplication of the base point and depend on the secret scalar, and when signing also on the nonce, through an explicit function of them. Some keys can be told apart by them, and at most 2^86 secret scalars modulo the group order are consistent with the positions read in one derivation.", "quantifier": "every pair of private keys of the same kind, every pair of messages of the same length, every pair of hash functions", "why_tests_cant": "a test compares the traces of a few keys; independence of the secret is a statement about all pairs of runs", "anchors": ["src/goldilocks.rs: ed448_derive_public, ed448_sign, point_by_secret, sign_by_private, sign_with_secret_and_nonce", "src/extended_point.rs: precomputed_scalar_mul", "src/decaf_combs_32.rs: DECAF_PRECOMP_TABLE", "src/scalar.rs: halve, add, mul, decode_long, encode", "src/bignumber.rs: strong_reduce, dsa_like_serialize, isr, conditional_negate"]}
{"id": "C65", "title": "A signature is bound to its message up to collisions of the challenge", "statement": "A signature made for one message is a valid RFC 8032 signature of another message under the same key exactly when the two challenges (hash outputs) are congruent modulo the group order; then the library accepts it too, unless its decoder refuses one of the strings. Two messages get the same signature under one key only if their challenges are congruent, and two keys make the same signature only if the products of challenge and secret scalar are. A signature made with one key is valid for some message under the public key of another key exactly when those products are congruent. The single key whose public key is the neutral element is excluded.", "quantifier": "every private key of either kind with non-neutral public key, every pair of messages of any length, every behaviour of the hash function", "why_tests_cant": "binding is a statement about all pairs of messages; a test compares a few", "anchors": ["src/goldilocks.rs: ed448_sign, ed448_derive_public, ed448_verify", "src/eddsa.rs: dsa_verify"]}
{"id": "C66", "title": "A signature shows no more of the secret than the public key does", "statement": "For a fixed challenge c and key A, the pairs (R, S) a signer can make over all nonces are exactly the pairs (SB - cA, S) that anyone can compute from the public key, each arising once on either side; every signature made has this form. Conversely any such pair is accepted for a message whose challenge is congruent to c, so nothing but the challenge stands in the way of a forgery.", "quantifier": "every key, nonce, challenge, S and message, every behaviour of the hash function", "why_tests_cant": "equality of two sets of 2^446 elements", "anchors": ["src/goldilocks.rs: ed448_sign, sign_by_private, sign_with_secret_and_nonce, ed448_verify", "src/eddsa.rs: dsa_verify"]}
{"id": "C67", "title": "Nonces and secrets are spread evenly over the outputs of the hash function", "statement": "For every key and message, each nonce below the group order q results from 2^912 / q (rounded down) or one more of the 2^912 outputs the hash can have where the nonce is derived, so the bias is below 2^-465. For every ordinary private key each of the 2^445 possible public keys results from exactly 2^467 outputs; each is the public key of exactly 2^10 of the 2^455 direct-secret keys.", "quantifier": "every private key, message, nonce value and secret scalar, every behaviour of the hash function elsewhere", "why_tests_cant": "exact counts over 2^912 outputs; a biased reduction of nonces leaks the key over many signatures and is invisible in tests", "anchors": ["src/goldilocks.rs: ed448_sign, ed448_derive_public, sign_by_private, point_by_secret, clamp", "src/scalar.rs: decode_long"]}
{"id": "C68", "title": "Every point is the key of exactly one secret, shared by four points", "statement": "The curve has exactly 4q points, q the order of the base point. For every point A there is exactly one s below q such that A differs from sB by a point of order dividing 4; every accepted string for A gives the same verification results as the encoding of sB, if that is accepted; each s belongs to exactly four points. All but at most 129 * 2^407 + 2^32 of the 4q canonical encodings of points are accepted as keys.", "quantifier": "every point of the curve, every key string, signature and message, every behaviour of the hash function", "why_tests_cant": "a count of 2^448 points; a key outside the subgroup of the base point is met by no test", "anchors": ["src/goldilocks.rs: ed448_verify", "src/extended_point.rs: eddsa_like_decode", "src/eddsa.rs: dsa_verify"]}
{"id": "C69", "title": "Debug output reveals secret keys", "statement": "The numbers in the {:?} output of a SecretKey are the bytes of the key, those in the output of a SigningKey are its secret bytes followed by its public bytes; so the output determines the key. Two errors with the same {:?} output are equal. The form {:#?} has the same numbers.", "quantifier": "every SecretKey, VerifyingKey, SigningKey and error value", "why_tests_cant": "unique readability of decimal output without padding is a statement about all pairs of keys", "anchors": ["src/lib.rs: SecretKey, VerifyingKey, SigningKey", "src/errors.rs: LibgoldilockErrors"]}
{"id": "C70", "title": "A forger needs the discrete logarithm or luck", "statement": "Fix the first half of a signature, the message and the public key, and let a forger choose the second half as any function of the hash output for the challenge. Either two outputs lead to successful answers from which the discrete logarithm of the key (without its small-order component) is computed as a quotient, or the forger satisfies the verification equation for at most 2^912/q + 1 of the 2^912 outputs. The same holds for valid signatures in the sense of RFC 8032.", "quantifier": "every key, first half, message, strategy of the forger and behaviour of the hash function elsewhere", "why_tests_cant": "a statement about all strategies and all 2^912 hash outputs", "anchors": ["src/goldilocks.rs: ed448_verify", "src/eddsa.rs: dsa_verify, hash_with_dom"]}
{"id": "C71", "title": "Half of all keys are not used as RFC 8032 says", "statement": "Exactly half of the 2^456 strings of 57 bytes are taken as direct secrets, without hashing. The public key of a string equals the one of RFC 8032 exactly when its top bit is clear or its own clamped value equals that of its hash; for a direct secret this holds for exactly 2^467 of the 2^912 outputs of the hash function.", "quantifier": "every 57-byte string, every behaviour of the hash function", "why_tests_cant": "a count over 2^456 keys and 2^912 hash outputs", "anchors": ["src/goldilocks.rs: ed448_derive_public, ed448_generate_key"]}
{"id": "C72", "title": "Domain separation from the other variants of RFC 8032", "statement": "No string hashed for a nonce or challenge by this library is hashed for one by Ed448ph or by Ed448 with a non-empty context, nor is it the string hashed to expand a private key. The prehash API makes Ed448 signatures of the given string as message: its first 114 bytes are valid under RFC 8032 as pure Ed448 with empty context, and valid for another variant, context and message exactly when the two challenges are congruent modulo the group order.", "quantifier": "every key obtained from a constructor with non-neutral public key, every prehash, flag, context of up to 255 bytes and message, every behaviour of the hash function", "why_tests_cant": "quantifies over all contexts, messages and hash functions", "anchors": ["src/eddsa.rs: hash_with_dom", "src/lib.rs: sign_prehash"]}
{"id": "C73", "title": "One nonce seed for two secrets", "statement": "Signing the same message with two secrets and the same nonce seed gives signatures with the same first half, and whoever knows one of the secrets gets the other modulo the group order from them, unless its challenge is a multiple of the group order.", "quantifier": "every pair of secrets, every seed and message, every behaviour of the hash function", "why_tests_cant": "an algebraic relation between all pairs of runs", "anchors": ["src/goldilocks.rs: sign_with_secret_and_nonce"]}
{"id": "C74", "title": "The two forms of a key", "statement": "An ordinary private key and the expanded secret made from it have the same public key, and signatures made with either are valid under it; the two signatures of a message are equal exactly when their first halves are, which holds exactly when the two nonces are congruent modulo the group order.", "quantifier": "every ordinary private key, every message, every behaviour of the hash function", "why_tests_cant": "relates the outputs of two different code paths for all keys and messages", "anchors": ["src/goldilocks.rs: private_to_secret, ed448_sign, ed448_derive_public"]}
{"id": "C75", "title": "How many signatures a message has", "statement": "Under every public key that describes a point of the curve, every message has exactly 4q valid signatures in the sense of RFC 8032, one for each point R. This library accepts, for every key and first half that it accepts and that describe points, each of the 1024 or 1025 strings S that satisfy the equation, and so at least 1024 (4q - 129 * 2^407 - 2^32 - 1) signatures of every message.", "quantifier": "every public key, first half of a signature and message, every behaviour of the hash function", "why_tests_cant": "a count over 2^912 strings", "anchors": ["src/goldilocks.rs: ed448_verify", "src/eddsa.rs: dsa_verify"]}
{"id": "C76", "title": "Verification is cofactored", "statement": "The holder of a key can add any point of order dividing 4 to the point R of a signature, with the challenge computed from the result: the signature is accepted by this library and valid by RFC 8032, but satisfies the equation without the factor 4, which some other verifiers check, only if the added point is neutral.", "quantifier": "every private key, message, nonce and point of order dividing 4 for which the decoder accepts the public key and the first half, every behaviour of the hash function", "why_tests_cant": "signatures made by the library never have such an R, so no test that signs and verifies meets the case", "anchors": ["src/goldilocks.rs: ed448_verify", "src/eddsa.rs: dsa_verify", "src/extended_point.rs: decaf_equal"]}
{"id": "C77", "title": "What the table accesses give away is enough to search for the secret", "statement": "The table positions read while a public key is derived or a message is signed reduce the search for the secret scalar to two lists of at most 2^43 numbers each: for every key with the observed record, the public key is the sum of a multiple of the base point from the first list and one from the second list, and the two numbers add up to the secret scalar modulo the group order.", "quantifier": "every key, message and behaviour of the hash function, every observed record", "why_tests_cant": "a statement about all keys with the same record, of which there are up to 2^86", "anchors": ["src/extended_point.rs: precomputed_scalar_mul", "src/goldilocks.rs: ed448_derive_public, ed448_sign"]}
{"id": "C78", "title": "Whatever a program does, its keys and signatures are consistent", "statement": "In every sequence of calls of the key and signature functions of the crate, with any arguments, including calls that fail or panic: every SigningKey the program holds carries the public key of its secret bytes, two SigningKeys with the same bytes are equal, every Signature was made by one of the program's SigningKeys and carries that key's public key, and later calls never change or remove what the program holds.", "quantifier": "every finite sequence of calls with any arguments, every random generator, every behaviour of the hash function", "why_tests_cant": "ranges over all histories of calls", "anchors": ["src/lib.rs: SecretKey, VerifyingKey, SigningKey, Signature"]}
{"id": "C79", "title": "Random keys in a history use disjoint randomness", "statement": "In every sequence of calls, the n-th call of SigningKey::random uses exactly the n-th block of 57 bytes of the generator as secret, whatever other calls come in between, and no other call draws from the generator.", "quantifier": "every finite sequence of calls, every stream of random bytes, every behaviour of the hash function", "why_tests_cant": "ranges over all histories of calls", "anchors": ["src/lib.rs: SigningKey::random"]}
{"id": "C80", "title": "The deviations of verification have six local causes", "statement": "If (1) the comparison of field elements looks at all 16 limbs, (2) decoding compares y with p by a signed borrow, (3) the sign bit is rejected for x = 0, (4) the length of the signature is checked, (5) S must be below q and (6) the key is hashed as given, and nothing else is changed, then ed448_verify accepts exactly the signatures that are valid by RFC 8032 (except under the all-zero key and the all-zero signature), never panics, rejects every key that is not the encoding of a point, and accepts every signature made by ed448_sign and sign_prehash; under keys without small-order component it accepts nothing that the existing code rejects for another reason than a failed decoding.", "quantifier": "every key, signature, message, private key and every behaviour of the hash function", "why_tests_cant": "the inputs on which the existing code deviates are fewer than one in 2^30; that no other cause exists is a statement about all inputs", "anchors": ["src/bignumber.rs: decaf_equal, dsa_like_deserialize", "src/extended_point.rs: eddsa_like_decode", "src/eddsa.rs: dsa_verify"]}
{"id": "C81", "title": "A look-up that reads every entry removes the leak", "statement": "If the look-up in the table of multiples of the base point reads all 16 entries of the comb table and keeps one by masks, and nothing else is changed, then deriving a public key and signing return the same results as now, and all branches and all positions of memory accesses are the same for all private keys of one kind (with or without the top bit), all messages of one length and every behaviour of the hash function. The number of entries read grows from 90 to 1440 for deriving and from 180 to 2880 for signing.", "quantifier": "every pair of private keys of one kind, every pair of messages of equal length, every behaviour of the hash function", "why_tests_cant": "timing measurements compare some keys; that no key can be told from another is a statement about all pairs of runs", "anchors": ["src/extended_point.rs: precomputed_scalar_mul", "src/decaf_combs_32.rs: lookup", "src/goldilocks.rs: ed448_derive_public, ed448_sign"]}
{"id": "C82", "title": "None of the six repairs can be left out", "statement": "For each of the 64 ways to choose among the six local repairs of C80 (comparing all limbs, comparing y with the modulus, rejecting the sign bit of x = 0, checking the length of the signature, checking the range of S, hashing the key as given): verification with the chosen repairs accepts exactly what RFC 8032 calls valid, all-zero inputs aside, and never panics, if and only if all six were chosen. Choosing none gives the existing code.", "quantifier": "every choice of repairs; for each choice every behaviour of the hash function, key, signature and message", "why_tests_cant": "that the six together suffice is a statement about all inputs; that any five do not needs, for each, an input and a behaviour of the hash function on which verification goes wrong although the other five changes are in place", "anchors": ["src/bignumber.rs: decaf_equal, dsa_like_deserialize", "src/extended_point.rs: eddsa_like_decode", "src/eddsa.rs: dsa_verify", "src/goldilocks.rs: ed448_verify"]}
{"id": "C83", "title": "Signing does a fixed amount of work, verification a bounded amount", "statement": "Deriving a public key takes 1214 multiplications in the field for every key; signing takes 2428 for every key and message. Apart from the hashing of a 57-byte seed, signing hashes exactly two strings, 67 and 124 bytes longer than the message. Verification takes at most 22049 multiplications for every key, signature, message and behaviour of the hash function, also when it fails or panics, and hashes at most one string, 124 bytes longer than the message: no input makes it more expensive. A verification that answers takes at least 17762; a key that cannot be decoded is rejected after 478 multiplications and without hashing.", "quantifier": "every key, message, signature and behaviour of the hash function", "why_tests_cant": "an input on which verification takes much longer may be one of 2^900; the number of additions depends on the digits of two scalars, one of them chosen by the hash function", "anchors": ["src/goldilocks.rs: ed448_derive_public, ed448_sign, ed448_verify", "src/eddsa.rs: dsa_verify", "src/extended_point.rs: point_scalar_mul, point_double_scalamul_non_secret, recode_wnaf, precomputed_scalar_mul, eddsa_like_decode, eddsa_like_encode", "src/bignumber.rs: isr, invert, square_n"]}
{"id": "C84", "title": "Threads cannot disturb each other", "statement": "Several threads use the library, share one random generator and hand keys and signatures to each other. For every schedule: each signing key a thread holds carries the public key of its secret, equal secrets mean equal keys also across threads, and each signature held anywhere is, for some message, a valid RFC 8032 signature under the public key it carries. Without handing over, each thread ends with exactly what it would have got alone, had the generator delivered it the blocks of 57 bytes drawn by its own calls of SigningKey::random; each block goes to exactly one call. A thread that draws no random keys does not notice the others at all.", "quantifier": "every number of threads, every schedule of any length, every argument of every call, every behaviour of the hash function and every stream of the generator", "why_tests_cant": "the number of schedules grows exponentially and a test runs one of them", "anchors": ["src/lib.rs: SecretKey, VerifyingKey, SigningKey, Signature, SigningKey::random, SigningKey::sign_prehash"]}
{"id": "C85", "title": "One signature under two keys", "statement": "If one signature is valid in the sense of RFC 8032 under two keys, for any two messages, then the multiples of the keys by their challenges agree up to a component of small order, and conversely such a signature is valid (and accepted by this library, decoding exceptions aside) under the second key too. If the challenges agree and are not zero the keys agree up to a component of small order, so that the library treats them alike. A given signature is valid for a given message under a key that is not of small order for at most 2^912/q + 1 of the 2^912 possible outputs of the hash function. Under a key of small order the same signatures are valid for all messages and all hash functions: those with S B = R up to a component of small order.", "quantifier": "every pair of keys, every pair of messages, every signature, every behaviour of the hash function", "why_tests_cant": "a second key for a given signature is one that an attacker computes, not one that a test draws at random", "anchors": ["src/goldilocks.rs: ed448_verify", "src/eddsa.rs: dsa_verify"]}
{"id": "C86", "title": "Forging signatures of new messages is as hard as finding the secret", "statement": "Whoever gets signatures of messages of their choice from the library (and the public key, and values of the hash function) cannot produce a valid signature of another message, unless the secret can be computed from the public key. Precisely: let the private key be random among those without the sign bit (or among any set of them) and the hash function random among all functions from strings of bounded length to 114 bytes. From any forger who makes n requests and succeeds with probability e, a procedure that knows only the public key, and runs the forger twice, finds the secret scalar modulo q with probability about e^2/(n+1). With fewer than 2^100 requests: if the procedure succeeds with probability at most w^2/(n+1), the forger succeeds with probability at most 2w + 2^(-240).", "quantifier": "every forger (any function from replies to requests, unbounded computing power), every number of requests, every set of private keys without the sign bit, every bound of the length of strings", "why_tests_cant": "a statement about every possible attacker and about probabilities over all hash functions", "anchors": ["src/goldilocks.rs: ed448_sign, ed448_derive_public", "src/goldilocks.rs: sign_by_private, sign_with_secret_and_nonce", "src/eddsa.rs: hash_with_dom"]}
{"id": "C87", "title": "One of the six repairs is enough against forgers", "statement": "Call a verifier exact if it compares field elements in all 16 digits (the first of the six repairs of C80/C82) and is otherwise the existing ed448_verify with any choice of the other five repairs. Which signatures each of these 32 verifiers accepts is stated exactly (which strings are read as points, which lengths, which second halves, and the equation of RFC 8032 with the key that is hashed). Under a public key that the library derived, all of them accept only signatures with the equation of RFC 8032 for the challenge of RFC 8032. So the bound of C86 holds for all of them: bytes behind the signature, y >= p, the sign bit for x = 0 and second halves of q and more do not help a forger to get a signature of a new message accepted.", "quantifier": "every choice of repairs that contains the first, every key, signature and message; every forger, number of requests, set of private keys without the sign bit", "why_tests_cant": "an exact description of acceptance on all inputs, and a statement about every possible attacker", "anchors": ["src/eddsa.rs: dsa_verify", "src/goldilocks.rs: ed448_verify", "src/bignumber.rs: decaf_equal", "src/extended_point.rs: eddsa_like_decode"]}
{"id": "C88", "title": "Forging is as hard as finding the secret for keys as the library generates them", "statement": "The bound of C86 holds when the private key is uniformly random among all strings of 57 bytes, as ed448_generate_key makes it, half of which have the sign bit. A key with the sign bit is itself the secret scalar, and its nonces are hashes of that scalar and the message. A forger against such keys may also ask for the hash function at such a string, but then the secret can be read off the request. With fewer than 2^100 requests: if running the forger twice finds a random secret with probability at most w^2/(n+1), and reading off its requests finds it with probability at most v, where both procedures know only the public key, then the forger gets a valid signature of a new message with probability at most 2w + v + 2^(-240). The same for every verifier of C87.", "quantifier": "every forger (any function from replies to requests, unbounded computing power), fewer than 2^100 requests, every bound of the length of strings, every choice of repairs that contains the first", "why_tests_cant": "a statement about every possible attacker and about probabilities over all private keys and all hash functions", "anchors": ["src/goldilocks.rs: ed448_generate_key, ed448_sign, ed448_derive_public", "src/goldilocks.rs: sign_by_private, sign_with_secret_and_nonce", "src/eddsa.rs: hash_with_dom"]}
{"id": "C89", "title": "Nobody can make a second valid signature of a signed message", "statement": "With the verifier of RFC 8032, or with the existing verifier after three repairs (exact comparison, check of the length of the signature, check that its second half is below the group order), a signature that the library made cannot be turned into another accepted signature of the same message, except with the probability bounded in C88: with fewer than 2^100 requests, if the two procedures of C88 find a random secret with probability at most w^2/(n+1) and v, the forger gets an accepted pair of message and signature other than those that the library made for them with probability at most 2w + v + 2^(-240). The private key is random among all strings of 57 bytes. The two checks are necessary: without the check of the length, as in the existing ed448_verify, appending bytes gives another accepted signature for every key, hash function and message for which the signature of the library is accepted, and without the check of the range adding the group order does.", "quantifier": "every forger, fewer than 2^100 requests, every bound of the length of strings, every choice of repairs that contains these three; every key, message and hash function for the attacks", "why_tests_cant": "a statement about every possible attacker and about probabilities over all private keys and all hash functions", "anchors": ["src/goldilocks.rs: ed448_generate_key, ed448_sign, ed448_derive_public, ed448_verify", "src/eddsa.rs: dsa_verify"]}
{"id": "C90", "title": "A signature is rarely rejected under the key of its maker", "statement": "For a random 57-byte private key and a random hash function, the signatures of n given messages are all accepted by ed448_verify under the derived public key, except with a chance of at most 129 (n + 3)/2^39. The same holds for sign_prehash and the key that its output carries. With N users with random keys, n messages each, all signatures are accepted except with a chance of at most N times that.", "quantifier": "every list of messages; the chance is over all 2^456 private keys and all functions in the place of SHAKE256", "why_tests_cant": "the failing keys and nonces (C05) are too rare for random tests, and a test can at best bound the rate at a few million samples", "anchors": ["src/goldilocks.rs: ed448_derive_public, ed448_sign, ed448_verify", "src/bignumber.rs: dsa_like_deserialize", "src/lib.rs: sign_prehash"]}
{"id": "C91", "title": "Nonces and keys do not coincide", "statement": "For every private key and a random hash function, the signatures of n different messages start with different 57 bytes (so are made with different nonces), except with a chance of at most n^2/2^445. For N random private keys, each used for n messages, no two of the signatures start alike, except with a chance of at most (N n)^2/2^443, and no two of the public keys are equal, except with a chance of at most N^2/2^443.", "quantifier": "every private key, every number of keys, every list of messages; the chance is over all functions in the place of SHAKE256, and over all choices of the private keys", "why_tests_cant": "a collision reveals the secret (C59) but is far too rare to be met in tests; a nonce derivation with a subtle defect would pass them", "anchors": ["src/goldilocks.rs: ed448_sign, ed448_derive_public", "src/goldilocks.rs: sign_by_private, sign_with_secret_and_nonce", "src/eddsa.rs: hash_with_dom"]}
{"id": "C92", "title": "Signatures of many users do not help to forge", "statement": "There are N users with random private keys. An attacker sees all public keys, asks any user for signatures of messages of their choice (n requests, each may depend on all replies), and then offers a signature of any user that they did not get from this user. If this succeeds with a chance above N(2w + v + 2^-240), then for one of the users the secret of a random public key can be computed, with a chance above w^2/(N + 2n + 1) by running the attacker twice, or above v from the strings they hash, by someone who plays the other users.", "quantifier": "every number of users, every adaptive attacker, every number of requests below 2^99; the chance is over all functions in the place of SHAKE256 and over all choices of the private keys", "why_tests_cant": "no test can run all attackers; tests use one key at a time", "anchors": ["src/goldilocks.rs: ed448_sign, ed448_derive_public, ed448_verify", "src/eddsa.rs: hash_with_dom", "src/lib.rs: SigningKey::sign"]}
{"id": "C93", "title": "Every sequence of calls does what a simple description says", "statement": "A program's keys and signatures after any sequence of calls are exactly those of a machine that handles nothing but byte strings: a call adds the 57 bytes it was given, or spelled in hexadecimal, or that the generator delivered, or the bytes of the object at the given position; a signing key carries the RFC 8032 public key of its bytes and a signature is the RFC 8032 signature of the message asked for; a call with an argument that is not as it should be adds nothing. So no private key and no signature comes from nowhere. The same holds for every schedule of several threads that hand keys and signatures to each other.", "quantifier": "every finite sequence of calls with any arguments, every number of threads and every schedule, every generator, every behaviour of the hash function", "why_tests_cant": "ranges over all histories of calls and all schedules", "anchors": ["src/lib.rs: SecretKey, VerifyingKey, SigningKey, Signature", "src/lib.rs: SigningKey::random, SigningKey::sign_prehash, SigningKey::from_bytes"]}
{"id": "C94", "title": "The complete record of branches and memory accesses can be written down in advance", "statement": "Deriving a public key and signing take one fixed sequence of branches, reads, writes, copies and hash calls, which depends on nothing but the kind of the private key and the length of the message, except for the positions read in the precomputed table, which are determined by the secret scalar and the nonce. The sequences are given explicitly, and so are the numbers of their steps: signing takes 6245 branches whatever the key, message or hash function. With a look-up that reads every entry of the table, the whole sequence is known in advance.", "quantifier": "every private key, every message of any length, every behaviour of the hash function", "why_tests_cant": "ranges over all keys and all messages; a test sees the record of one run", "anchors": ["src/goldilocks.rs: ed448_derive_public, ed448_sign", "src/scalar.rs: decode_short, decode_long, montgomery_multiply, halve, add, encode", "src/bignumber.rs: dsa_like_serialize, square_n, conditional_swap", "src/extended_point.rs: precomputed_scalar_mul, eddsa_like_encode"]}
{"id": "C95", "title": "Discrete logarithms are enough to forge, guessing is not", "statement": "Somebody who can compute discrete logarithms signs any message under the public key of every private key, whatever the hash function is, after asking for one value of the hash function and for no signature. Somebody who only guesses, that is who asks for at most 2^100 hash values at challenge strings and offers a signature, all fixed in advance, has a chance of at most 2^(-170) that the offer is a valid signature under a random private key, for a random hash function; with N users it is at most N times this. For private keys without the sign bit the same bound holds for everybody who makes requests and chooses message and first half in any way, but fixes the second half when seeing the public key.", "quantifier": "every private key, every message and every hash function for the first part; every list of guesses and every offer for the second part; every procedure with such an offer for the third part", "why_tests_cant": "ranges over all keys, messages and hash functions; chances this small cannot be measured", "anchors": ["src/goldilocks.rs: ed448_derive_public, ed448_sign", "src/eddsa.rs: dsa_verify"]}
{"id": "C96", "title": "Against the verifier as it is, forgers find the secret or hit a near miss", "statement": "An accepted signature under a derived public key either satisfies the equation of RFC 8032, with the point for which verification takes its first half, or is a near miss: the two points compared at the end have different ratios of coordinates and the difference of the products is a multiple of 2^420, or the first half leads to coordinates that are both 0. A verifier with an exact comparison and no other repair accepts it exactly if the first half describes a point and the equation holds. The bounds for forgers of C86, C88 and C92 hold for the verifier without any repair if the chance of a near miss is added; forgeries whose first half describes no point but is taken for one need no addition. With the same addition, what is accepted for a message that was signed before is a variant of the signature that the library made: the first half is the same, and the second half is the same modulo q.", "quantifier": "every hash function, private key, message and signature for the first part; every forger, every number of requests and of users for the bounds", "why_tests_cant": "ranges over all procedures and all hash functions", "anchors": ["src/eddsa.rs: dsa_verify", "src/bignumber.rs: decaf_equal", "src/goldilocks.rs: ed448_verify"]}
{"id": "C97", "title": "Under every key there are accepted signatures whose first half is no point", "statement": "For every string that verification takes for a point, the comparison at the end is exact if and only if the equation of RFC 8032 holds for that point. There is one string that is not the encoding of a point and that verification takes for a certain point of the curve. For every public key that is accepted and decodes to a point, every hash function and every message there is a signature of 114 bytes that starts with this string, has a second half below the group order and is accepted; it is not valid by RFC 8032. So the claim of C06 fails under every such key, not only under keys made for the purpose. The second half is the discrete logarithm of that point, the same for everybody, plus the challenge times the secret.", "quantifier": "every accepted public key that decodes to a point, every hash function, every message", "why_tests_cant": "the signature exists but finding it needs a discrete logarithm; ranges over all keys, hash functions and messages", "anchors": ["src/eddsa.rs: dsa_verify", "src/extended_point.rs: eddsa_like_decode, is_on_curve, point_scalar_mul, mod_equal", "src/bignumber.rs: decaf_equal"]}
{"id": "C98", "title": "Nobody finds a signature that fits two messages or two keys", "statement": "Somebody with unlimited computing power, who may choose all keys and knows all secrets, asks for n values of a random hash function and then shows one signature for two different pairs of a public key and a message. The chance that the signature is valid for both is at most (n+2)^2 (1/q + 2^-912), so at most 2^-240 for n < 2^100. This needs no assumption about discrete logarithms. It holds for validity as in RFC 8032, for the repaired verifier (C80), for derived keys and any verifier with an exact comparison (C87), and for derived keys and the verifier as it is if the chance of a near miss (C96) is added. The keys must not be of small order: under the key of the neutral element one signature is valid for all messages. So an owner of a key cannot sign one message and claim later to have signed another one.", "quantifier": "every procedure of any complexity, every number of requests, all keys, messages and signatures; the chance is over all hash functions on strings of at most L bytes", "why_tests_cant": "ranges over all procedures and counts hash functions", "anchors": ["src/goldilocks.rs: ed448_verify", "src/eddsa.rs: dsa_verify"]}
{"id": "C99", "title": "Signatures give nothing away that the public key does not", "statement": "Somebody with unlimited computing power who knows the public key asks for values of the hash function and for signatures of messages of their choice, fewer than 2^100 in all, and answers any question about what they saw with yes or no. For a random private key without the sign bit and a random hash function, the chance of yes differs by at most 2^-240 from the chance when all replies are made from the public key alone, by somebody who does not have the private key and chooses the values of the hash function. For private keys with the sign bit this is false: from the public key, with unlimited computing power, the nonces can be found and compared with a signature. For these keys the difference is at most 2^-240 more than the chance that a string which is hashed for the observer gives the secret scalar.", "quantifier": "every observer of any complexity, every number of requests below 2^100, all messages; the chances are over all private keys and all hash functions on strings of at most L bytes", "why_tests_cant": "ranges over all observers and compares two distributions", "anchors": ["src/goldilocks.rs: ed448_sign, sign_by_private, sign_with_secret_and_nonce", "src/lib.rs: sign_prehash"]}
{"id": "C100", "title": "The time of a verification is given exactly by two public numbers", "statement": "A verification that answers true or false takes exactly 17762 multiplications in the field plus those of its main loop. Write minus the challenge modulo q with odd digits between -16 and 16 that are more than 4 places apart, and the second half of the signature modulo q with odd digits between -64 and 64 that are more than 6 places apart; there is exactly one way to do each. With digits in both numbers the main loop takes 7 multiplications for every place up to the highest one, 8 for every digit of the first number and 7 for every digit of the second, less 3, 4 or 5 if the first number reaches higher, equally high or less high than the second; the cases where a number is zero are given too. Nothing else about the key, the signature or the message matters. For a key from the library the challenge is that of RFC 8032. Hence a verification that answers takes at least 17763 and at most 22049 multiplications, and both numbers occur.", "quantifier": "every hash function, key, signature and message for which verification answers", "why_tests_cant": "counts the work for all pairs of scalars below q and all points", "anchors": ["src/eddsa.rs: dsa_verify", "src/extended_point.rs: point_double_scalamul_non_secret, recode_wnaf"]}
{"id": "C101", "title": "A signature does not help with a message that one does not know", "statement": "A message is drawn at random from N different ones and signed with the library. Somebody with unlimited computing power sees the public key and the signature, and even knows the private key, but not the message; they ask for n values of a random hash function. The chance that they then name the message is at most (2n+1)/N: the signature tells nothing about the message except by trying messages. If they show instead any pair of a public key (not of small order) and a signature, other than the pair they have seen, the chance that this signature is valid for the unknown message is at most 2n/N + 1/q + 2^-912. So nobody can put their own name under a document that they have not seen by using somebody else's signature of it, or change the signature. The second part holds for validity as in RFC 8032 and for the repaired verifier (C80); for derived keys and a verifier with an exact comparison (C87), or the verifier as it is with the chance of a near miss added (C96), it holds if the key or the first half of the signature is changed. Trying works and needs the public key only: with N values one finds a message of the N for which the signature is valid. So a signature does not hide a message that can be guessed.", "quantifier": "every private key, every set of messages, every procedure of any complexity and every number of requests; the chance is over the message and all hash functions on strings of at most L bytes", "why_tests_cant": "ranges over all procedures and counts hash functions", "anchors": ["src/goldilocks.rs: ed448_sign, ed448_derive_public, ed448_verify", "src/goldilocks.rs: sign_by_private, sign_with_secret_and_nonce", "src/eddsa.rs: dsa_verify"]}
{"id": "C102", "title": "What == on keys and errors tells", "statement": "== on SecretKey and VerifyingKey is true exactly if the 57 bytes are the same, and on two SigningKeys from any of the constructors exactly if to_bytes is the same, or the serialized strings are; it is an equivalence relation; equal SigningKeys sign every message alike and have equal halves. The converse is false: a SigningKey whose bytes are the secret (bit 7 of the last byte set) is one of exactly 1024 such keys with the same verifying key, which are pairwise unequal and sign every message alike; every other SigningKey has an unequal one with an equal verifying key; unequal VerifyingKeys that differ by a point of order 2 or 4 give the same result for every signature and message. Two errors are equal exactly if their messages are.", "quantifier": "all keys from all constructors, all messages, signatures and hash functions, all errors", "why_tests_cant": "equivalences over all pairs of keys and a count of keys that behave alike on all messages", "anchors": ["src/lib.rs: SecretKey, VerifyingKey, SigningKey (derived PartialEq, Eq)", "src/errors.rs: LibgoldilockErrors (derived PartialEq)"]}
{"id": "C103", "title": "The complete list of public keys under which everybody can sign", "statement": "Exactly ten strings of 57 bytes are accepted by the decoder and describe a point of order 1, 2 or 4: those with 0, 1, p-1, p or p+1 in the first 56 bytes and 0 or 0x80 in the last. Only the one with 57 zeros is refused by verification; under each of the nine others one fixed signature verifies for every message. An application that refuses these strings refuses nothing else of that kind: under every other key that describes a point, R and S fit at most one challenge modulo q. A derived public key is on the list exactly if the secret scalar is 4q. For a random private key the chance of that is at most 1/2^445.", "quantifier": "every string as public key, every message, every private key, every hash", "why_tests_cant": "a list of bad keys can be tested to be bad, not to be complete", "anchors": ["src/goldilocks.rs: ed448_verify", "src/eddsa.rs: dsa_verify", "src/extended_point.rs: eddsa_like_decode"]}
{"id": "C104", "title": "How many strings stand for one public key", "statement": "A point whose encoding the decoder refuses cannot be given as a key in any other way. Every other point has exactly one accepted string, doubled if its y coordinate is at most 2^224 (y + p is accepted too) and doubled if x is zero (the sign bit is ignored); so at most four, and four for the neutral element only. Two accepted strings mean the same point exactly if y agrees modulo p and the sign bits agree unless x is zero. A string is the encoding of its point exactly if y < p and, if x = 0, the sign bit is clear. At most 2^225 + 4 strings are accepted for a point without being its encoding. The public key of a random private key has another accepted string with a chance of at most 1/2^219.", "quantifier": "every point of the curve, every string", "why_tests_cant": "a test can find two strings for one key, not that there are no more", "anchors": ["src/extended_point.rs: eddsa_like_decode", "src/bignumber.rs: dsa_like_deserialize", "src/goldilocks.rs: ed448_verify"]}
{"id": "C105", "title": "Signatures that start with a weak string", "statement": "A signature made by the library starts with one of the ten strings of C103 exactly if its nonce is a multiple of the group order; its second half is then the challenge times the secret scalar. Any signature that starts with one of them, whoever made it, and satisfies the equation of RFC 8032 under the public key of a private key reveals the secret scalar of that key modulo q, unless the challenge is zero. For every private key and n messages the library makes such a signature with a chance of at most n / 2^445, for a random hash function.", "quantifier": "every hash function, private key, message and signature; all lists of messages for the last part", "why_tests_cant": "no test will meet a nonce that is zero modulo the group order", "anchors": ["src/goldilocks.rs: ed448_sign, sign_with_secret_and_nonce, ed448_derive_public"]}
{"id": "C106", "title": "The width of usize does not matter", "statement": "On platforms whose pointers have 16, 32 or 64 bits (any number from 16 on), deriving, signing and verifying give the same bytes, errors and panics, although table indices and bit positions are computed in usize and signed 64-bit digits are converted to it. With a usize of eight bits or fewer, some public keys would be different ones.", "quantifier": "every width of usize from 16 bits on, every hash function, private key, public key, signature and message", "why_tests_cant": "tests run on one platform, and on few inputs; a conversion that loses bits shows only for some digits", "anchors": ["src/extended_point.rs: point_scalar_mul, point_double_scalamul_non_secret, precomputed_scalar_mul", "src/bignumber.rs: dsa_like_deserialize", "src/goldilocks.rs: ed448_derive_public, ed448_sign, ed448_verify, ed448_verify_with_error"]}
{"id": "C107", "title": "Errors in what is stored or sent are noticed", "statement": "The library makes a public key and a signature of a message, and some bits of the key, the message or the signature are changed afterwards, by errors that do not depend on the hash function. For every private key, message and choice of errors, and a random hash function, what arrives is a valid RFC 8032 signature with a chance of at most 2^-443, unless the key that arrives is of small order. If the key arrives without errors and the errors are in the message or in the first half of the signature, the same holds for a verifier with an exact comparison (C87), and for the verifier as it is when the chance of a near miss (C96) is added. Errors in the second half only are always noticed, for every hash function, if they lie among 445 bits in a row, so one changed bit always is: by RFC 8032 and a verifier with an exact comparison, and by the verifier as it is unless one of the two signatures is a near miss. 447 bits in a row are too many for the verifier as it is: it does not notice when the group order is added.", "quantifier": "every private key, message, received message, error pattern of the key and of the signature, and hash function (counted, or all of them)", "why_tests_cant": "tests flip a few bits of a few signatures; the claim is about all 2^1368 patterns of errors for every key and every message", "anchors": ["src/goldilocks.rs: ed448_derive_public, ed448_sign, ed448_verify", "src/eddsa.rs: dsa_verify, hash_with_dom", "src/extended_point.rs: mod_equal"]}
{"id": "C108", "title": "The set of all public keys", "statement": "The library can make exactly 2^445 public keys, the encodings of the multiples 4t of the base point with 2^445 <= t < 2^446; which ones these are does not depend on the hash function. They are more than half of the multiples of the base point. Every public key that any RFC 8032 implementation makes is among them, so each can be had from a direct secret. Changing the sign bit of a public key gives the opposite point, which is a public key for exactly 2^447 - 2q - 1 of them, fewer than 2^225.", "quantifier": "every hash function, private key and point of the curve", "why_tests_cant": "2^445 keys cannot be listed", "anchors": ["src/goldilocks.rs: ed448_derive_public, secret_to_public, private_to_public", "src/eddsa.rs: clamp"]}
{"id": "C109", "title": "The complete list of calls that panic", "statement": "A call of a public function panics if and only if it is one of these: a string other than 114 hexadecimal digits given to from_str of a key type, hex_to_private_key, or (by a human-readable serde format) to deserialize of a key type; a string other than 228 digits given to hex_to_signature or other than 64 given to hex_to_message_hash; a slice of a length other than 57 given to SecretKey::from_bytes, VerifyingKey::from_bytes or SigningKey::from_slice; a signature of fewer than 114 bytes given to ed448_verify or ed448_verify_with_error under a public key that is decoded and not all zero. In particular a key read from JSON of somebody else can make the program panic, though deserialize can return errors.", "quantifier": "every call of every public function with every argument, every hash function, serde format and random number generator", "why_tests_cant": "that nothing else panics is a statement about all arguments of all functions", "anchors": ["src/lib.rs: SecretKey, VerifyingKey, SigningKey, Deserialize", "src/goldilocks.rs: all public functions"]}
{"id": "C110", "title": "Signatures that are made while the memory is disturbed", "statement": "If, after the nonce has been made, anything happens to the buffers with the first half of a signature, the public key or the challenge, then the disturbed signature together with the right one of the same message gives away the secret scalar to everybody who knows the two challenges, if they differ. For a disturbed first half they can be computed from the signatures. If one byte of the challenge is changed they always differ. Signing does not check its result. Checking it helps: as long as nonce and first half are right, a disturbed signature is valid by RFC 8032 only if it is the right one; if only the first half is disturbed, exactly four points pass. With the verifier of the library, what is accepted has the right second half modulo the group order or is a near miss (C96), and a second half that is right modulo the group order gives the same answer as the right signature. A disturbed nonce passes every check, and gives away the secret scalar if it is known by how much it was changed. If the secret scalar is disturbed, the disturbed signature alone tells everybody by how much; if one bit of it is flipped, which bit it was and what its value is. Flipped bits at all positions give the whole scalar. If any fixed bits of the first half are changed, the right and the disturbed signature give away the secret scalar, except with a chance of at most 2^-443 over a random hash function. The same bound holds for the chance that a signature made with one flipped bit of the secret scalar does not show that bit.", "quantifier": "every hash function, key and message, and every function on the contents of the buffers in the place of a fault", "why_tests_cant": "tests run on machines without faults; the claim is about all faults", "anchors": ["src/goldilocks.rs: ed448_sign, sign_by_private, sign_with_secret_and_nonce"]}
{"id": "C111", "title": "Child keys made by adding a number to a secret", "statement": "If a number is added to the secret scalar of a key and the sum is stored as a direct-secret key, then the public key derived from it is the public key of the parent plus the number times the base point if and only if the number is a multiple of four and the sum stays below 2^448; otherwise the library silently uses another secret. In the good case the child key makes signatures that are valid for the public key that everybody can compute from that of the parent. The same holds over any number of generations if all numbers are multiples of four and the last sum stays below 2^448; then neither the order of the numbers nor how they are split matters for the public key. Exactly a quarter of the number is the count of direct-secret public keys that have no such child. Who has the child key and the number has the parent: the same public key and, for direct-secret parents, the same signatures. A number that is stored as a direct-secret key is used as it is if and only if it is a multiple of four and has bit 447; numbers reduced modulo the group order are never used as they are. For a random private key and a random hash function the chance that a multiple of four does not give the expected child is at most the number divided by 2^447.", "quantifier": "every hash function, every key of either form, every number below 2^448, every message", "why_tests_cant": "the condition ranges over all keys and numbers, and for small numbers the failing parents are too rare to be met by a test", "anchors": ["src/goldilocks.rs: ed448_derive_public, ed448_sign, secret_to_public, point_by_secret", "src/eddsa.rs: clamp"]}
