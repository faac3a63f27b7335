{
 "claims": [
  {
   "property": "C01",
   "status": "proved",
   "theorems": [
    "Ed448.C01_derive_rfc"
   ],
   "note": "for every hash function"
  },
  {
   "property": "C02",
   "status": "proved",
   "theorems": [
    "Ed448.C02_sign_rfc"
   ],
   "note": "for every hash function"
  },
  {
   "property": "C03",
   "status": "proved",
   "theorems": [
    "Ed448.C03_derive_direct"
   ],
   "note": ""
  },
  {
   "property": "C04",
   "status": "proved",
   "theorems": [
    "Ed448.C04_sign_direct"
   ],
   "note": ""
  },
  {
   "property": "C05",
   "status": "partial",
   "theorems": [
    "Ed448.C05_roundtrip_partial",
    "Ed448.C05_refuted",
    "Ed448.C05_refuted_hashed",
    "Ed448.C05_exceptions",
    "Ed448.C05_rejected_secrets"
   ],
   "note": "false as stated: C05_refuted gives a key for which it fails. Proved with the exact side condition that the decoder accepts the public key and the first half of the signature.; the exceptions are counted"
  },
  {
   "property": "C06",
   "status": "partial",
   "theorems": [
    "Ed448.C06_sound_partial",
    "Ed448.C06_reject",
    "Ed448.C06_refuted"
   ],
   "note": "false as stated: C06_refuted, with a key off the curve, and C97_exists, under every accepted key that decodes to a point. Proved: acceptance means that the compared cross product is 0 modulo 2^420, and is 0 exactly if the equation holds; rejection is always right."
  },
  {
   "property": "C07",
   "status": "proved",
   "theorems": [
    "Ed448.C07_complete"
   ],
   "note": ""
  },
  {
   "property": "C08",
   "status": "proved",
   "theorems": [
    "Ed448.C08_errors"
   ],
   "note": ""
  },
  {
   "property": "C09",
   "status": "proved",
   "theorems": [
    "Ed448.C09_panic_iff"
   ],
   "note": ""
  },
  {
   "property": "C10",
   "status": "proved",
   "theorems": [
    "Ed448.C10_trailing"
   ],
   "note": ""
  },
  {
   "property": "C100",
   "status": "proved",
   "theorems": [
    "Ed448.C100_exact",
    "Ed448.C100_library",
    "Ed448.C100_digits",
    "Ed448.C100_main",
    "Ed448.C100_test",
    "Ed448.C100_range"
   ],
   "note": "What is counted is described in Model/Cost.lean, as in C83. C100_test is the instance for the test vector of src/eddsa.rs, evaluated by the kernel. C100_range gives the least and the greatest count, both of which occur."
  },
  {
   "property": "C101",
   "status": "proved",
   "theorems": [
    "Ed448.C101_hidden",
    "Ed448.C101_resign",
    "Ed448.C101_valid",
    "Ed448.C101_repaired",
    "Ed448.C101_one_repair",
    "Ed448.C101_as_is",
    "Ed448.C101_guess",
    "Ed448.C101_trying"
   ],
   "note": "The hash function is a random function, as in C98. For the verifier as it is, the chance of a near miss is added and not bounded, as in C96."
  },
  {
   "property": "C102",
   "status": "proved",
   "theorems": [
    "Ed448.C102_bytes",
    "Ed448.C102_equivalence",
    "Ed448.C102_alike",
    "Ed448.C102_direct",
    "Ed448.C102_ordinary",
    "Ed448.C102_verifying",
    "Ed448.C102_errors"
   ],
   "note": "The result of the comparison is modelled, not its time."
  },
  {
   "property": "C103",
   "status": "proved",
   "theorems": [
    "Ed448.C103_list",
    "Ed448.C103_ten",
    "Ed448.C103_everybody",
    "Ed448.C103_refused",
    "Ed448.C103_others",
    "Ed448.C103_derived",
    "Ed448.C103_random"
   ],
   "note": "For keys that describe a point. Strings that the decoder accepts although no point belongs to them are the subject of C30."
  },
  {
   "property": "C104",
   "status": "proved",
   "theorems": [
    "Ed448.C104_same",
    "Ed448.C104_canonical",
    "Ed448.C104_number",
    "Ed448.C104_most",
    "Ed448.C104_few",
    "Ed448.C104_random"
   ],
   "note": "That all strings for one point get the same results from verification (but for 57 zeros) is C54."
  },
  {
   "property": "C105",
   "status": "proved",
   "theorems": [
    "Ed448.C105_made",
    "Ed448.C105_reveals",
    "Ed448.C105_rare"
   ],
   "note": "The verifier can accept signatures that miss the equation (C06); C105_reveals is about the equation."
  },
  {
   "property": "C106",
   "status": "proved",
   "theorems": [
    "Ed448.C106_platforms",
    "Ed448.C106_same",
    "Ed448.C106_narrow"
   ],
   "note": "Numbers of type usize that only count stay natural numbers in this model (at most 115, and lengths of slices)."
  },
  {
   "property": "C107",
   "status": "proved",
   "theorems": [
    "Ed448.C107_line",
    "Ed448.C107_valid",
    "Ed448.C107_one_repair",
    "Ed448.C107_as_is",
    "Ed448.C107_burst",
    "Ed448.C107_burst_as_is",
    "Ed448.C107_one_bit",
    "Ed448.C107_limit"
   ],
   "note": "The chance of a near miss (C96) stays a parameter for the verifier as it is."
  },
  {
   "property": "C108",
   "status": "proved",
   "theorems": [
    "Ed448.C108_count",
    "Ed448.C108_rfc",
    "Ed448.C108_opposite",
    "Ed448.C108_sign",
    "Ed448.isKey_iff"
   ],
   "note": "isKey_iff gives the form of the keys."
  },
  {
   "property": "C109",
   "status": "proved",
   "theorems": [
    "Ed448.C109_panics",
    "Ed448.C109_serde"
   ],
   "note": "PublicCall lists the calls, PublicCall.Bad those that panic."
  },
  {
   "property": "C11",
   "status": "proved",
   "theorems": [
    "Ed448.C11_S_mod_q",
    "Ed448.C11_variants"
   ],
   "note": ""
  },
  {
   "property": "C110",
   "status": "proved",
   "theorems": [
    "Ed448.C110_none",
    "Ed448.C110_leak",
    "Ed448.C110_first",
    "Ed448.C110_byte",
    "Ed448.C110_check",
    "Ed448.C110_repaired",
    "Ed448.C110_check_first",
    "Ed448.C110_unnoticed",
    "Ed448.C110_nonce_valid",
    "Ed448.C110_nonce_leak",
    "Ed448.C110_loose",
    "Ed448.C110_one_repair",
    "Ed448.C110_as_is",
    "Ed448.C110_same_answer",
    "Ed448.C110_scalar",
    "Ed448.C110_bit",
    "Ed448.C110_all_bits",
    "Ed448.C110_chance",
    "Ed448.C110_bit_chance"
   ],
   "note": "The model with places for faults is Model/Fault. A wrong number or point in a given run is covered by a constant fault of the buffer filled from it; faults that make the code panic or run on without end are not modelled. C110_as_is: with the verifier as it is, an accepted disturbed signature has the right second half modulo q or is a near miss (C96)."
  },
  {
   "property": "C111",
   "status": "proved",
   "theorems": [
    "Ed448.C111_child",
    "Ed448.C111_sign",
    "Ed448.C111_parent",
    "Ed448.C111_lost",
    "Ed448.C111_number",
    "Ed448.C111_chance",
    "Ed448.C111_path",
    "Ed448.C111_order"
   ],
   "note": ""
  },
  {
   "property": "C12",
   "status": "proved",
   "theorems": [
    "Ed448.C12_with_error"
   ],
   "note": ""
  },
  {
   "property": "C13",
   "status": "proved",
   "theorems": [
    "Ed448.C13_zero_rejected"
   ],
   "note": ""
  },
  {
   "property": "C14",
   "status": "proved",
   "theorems": [
    "Ed448.C14_wrong_length"
   ],
   "note": ""
  },
  {
   "property": "C15",
   "status": "proved",
   "theorems": [
    "Ed448.C15_decode_encode"
   ],
   "note": ""
  },
  {
   "property": "C16",
   "status": "proved",
   "theorems": [
    "Ed448.C16_public_canonical"
   ],
   "note": ""
  },
  {
   "property": "C17",
   "status": "proved",
   "theorems": [
    "Ed448.C17_signature_canonical"
   ],
   "note": ""
  },
  {
   "property": "C18",
   "status": "proved",
   "theorems": [
    "Ed448.C18_private_to_secret"
   ],
   "note": ""
  },
  {
   "property": "C19",
   "status": "proved",
   "theorems": [
    "Ed448.C19_clamped_bits"
   ],
   "note": ""
  },
  {
   "property": "C20",
   "status": "proved",
   "theorems": [
    "Ed448.C20_verifying_key"
   ],
   "note": ""
  },
  {
   "property": "C21",
   "status": "proved",
   "theorems": [
    "Ed448.C21_constructors_agree"
   ],
   "note": ""
  },
  {
   "property": "C22",
   "status": "proved",
   "theorems": [
    "Ed448.C22_length_errors"
   ],
   "note": ""
  },
  {
   "property": "C23",
   "status": "proved",
   "theorems": [
    "Ed448.C23_byte_roundtrip",
    "Ed448.C23_secret_key"
   ],
   "note": ""
  },
  {
   "property": "C24",
   "status": "proved",
   "theorems": [
    "Ed448.C24_serde",
    "Ed448.C24_deserialize_cases"
   ],
   "note": ""
  },
  {
   "property": "C25",
   "status": "proved",
   "theorems": [
    "Ed448.C25_parsers"
   ],
   "note": ""
  },
  {
   "property": "C26",
   "status": "proved",
   "theorems": [
    "Ed448.C26_prehash_layout"
   ],
   "note": ""
  },
  {
   "property": "C27",
   "status": "partial",
   "theorems": [
    "Ed448.C27_prehash_verifies_partial",
    "Ed448.C27_exceptions"
   ],
   "note": "false as stated, for the same keys as C05. Proved with the exact side condition that the decoder accepts both encodings.; the exceptions are counted"
  },
  {
   "property": "C28",
   "status": "proved",
   "theorems": [
    "Ed448.C28_binding",
    "Ed448.C28_separation",
    "Ed448.C28_sign_queries",
    "Ed448.C28_verify_query"
   ],
   "note": ""
  },
  {
   "property": "C29",
   "status": "proved",
   "theorems": [
    "Ed448.C29_no_panic"
   ],
   "note": ""
  },
  {
   "property": "C30",
   "status": "partial",
   "theorems": [
    "Ed448.C30_nonpoints_partial",
    "Ed448.C34_nonpoint_accepted",
    "Ed448.C30_exceptions"
   ],
   "note": "false as stated: C34_nonpoint_accepted. Proved with the exact side condition.; the exceptions are counted"
  },
  {
   "property": "C31",
   "status": "proved",
   "theorems": [
    "Ed448.C31_noncanonical",
    "Ed448.C31_same_key"
   ],
   "note": ""
  },
  {
   "property": "C32",
   "status": "proved",
   "theorems": [
    "Ed448.C32_sign_of_zero",
    "Ed448.C32_same_key"
   ],
   "note": ""
  },
  {
   "property": "C33",
   "status": "proved",
   "theorems": [
    "Ed448.C33_rejected_canonical",
    "Ed448.C33_count",
    "Ed448.C33_count_numbers",
    "Ed448.C33_count_keys"
   ],
   "note": ""
  },
  {
   "property": "C34",
   "status": "proved",
   "theorems": [
    "Ed448.C34_nonpoint_accepted"
   ],
   "note": ""
  },
  {
   "property": "C35",
   "status": "proved",
   "theorems": [
    "Ed448.C35_decode_long",
    "Ed448.C35_short"
   ],
   "note": ""
  },
  {
   "property": "C36",
   "status": "proved",
   "theorems": [
    "Ed448.C36_scalar_arithmetic",
    "Ed448.C36_copy_set"
   ],
   "note": ""
  },
  {
   "property": "C37",
   "status": "proved",
   "theorems": [
    "Ed448.C37_field_arithmetic",
    "Ed448.C37_wide_mul",
    "Ed448.C37_isr",
    "Ed448.C37_helpers",
    "Ed448.C37_constants"
   ],
   "note": ""
  },
  {
   "property": "C38",
   "status": "proved",
   "theorems": [
    "Ed448.C38_fixed_base"
   ],
   "note": ""
  },
  {
   "property": "C39",
   "status": "proved",
   "theorems": [
    "Ed448.C39_variable_base"
   ],
   "note": ""
  },
  {
   "property": "C40",
   "status": "proved",
   "theorems": [
    "Ed448.C40_double"
   ],
   "note": ""
  },
  {
   "property": "C41",
   "status": "proved",
   "theorems": [
    "Ed448.C41_recoding"
   ],
   "note": ""
  },
  {
   "property": "C42",
   "status": "proved",
   "theorems": [
    "Ed448.C42_small_order"
   ],
   "note": ""
  },
  {
   "property": "C43",
   "status": "proved",
   "theorems": [
    "Ed448.C43_torsion",
    "Ed448.C43_challenge"
   ],
   "note": "for strings that the decoder accepts, other than the all-zero string"
  },
  {
   "property": "C44",
   "status": "proved",
   "theorems": [
    "Ed448.C44_random",
    "Ed448.C44_history"
   ],
   "note": ""
  },
  {
   "property": "C45",
   "status": "proved",
   "theorems": [
    "Ed448.C45_deterministic"
   ],
   "note": ""
  },
  {
   "property": "C46",
   "status": "proved",
   "theorems": [
    "Ed448.C46_unique_S",
    "Ed448.C46_exists_S"
   ],
   "note": ""
  },
  {
   "property": "C47",
   "status": "proved",
   "theorems": [
    "Ed448.C47_direct_injective"
   ],
   "note": ""
  },
  {
   "property": "C48",
   "status": "proved",
   "theorems": [
    "Ed448.C48_neutral_key"
   ],
   "note": ""
  },
  {
   "property": "C49",
   "status": "proved",
   "theorems": [
    "Ed448.C49_by_private"
   ],
   "note": ""
  },
  {
   "property": "C50",
   "status": "proved",
   "theorems": [
    "Ed448.C50_with_secret",
    "Ed448.C50_consistent"
   ],
   "note": ""
  },
  {
   "property": "C51",
   "status": "proved",
   "theorems": [
    "Ed448.C51_sign",
    "Ed448.C51_verify"
   ],
   "note": "Chk (Model/Loops, Model/LoopsApi) transcribes the code index by index with every check; Checked/* proves it equal to the main model"
  },
  {
   "property": "C52",
   "status": "proved",
   "theorems": [
    "Ed448.C52_serialized_form"
   ],
   "note": ""
  },
  {
   "property": "C53",
   "status": "proved",
   "theorems": [
    "Ed448.C53_messages"
   ],
   "note": ""
  },
  {
   "property": "C54",
   "status": "proved",
   "theorems": [
    "Ed448.C54_same_y",
    "Ed448.C54_same_point"
   ],
   "note": ""
  },
  {
   "property": "C55",
   "status": "proved",
   "theorems": [
    "Ed448.C05_exceptions",
    "Ed448.C05_rejected_secrets",
    "Ed448.C27_exceptions",
    "Ed448.few_rejected",
    "Ed448.exceptions_rare"
   ],
   "note": ""
  },
  {
   "property": "C56",
   "status": "proved",
   "theorems": [
    "Ed448.C30_exceptions"
   ],
   "note": ""
  },
  {
   "property": "C57",
   "status": "proved",
   "theorems": [
    "Ed448.C57_valid_elsewhere"
   ],
   "note": ""
  },
  {
   "property": "C58",
   "status": "proved",
   "theorems": [
    "Ed448.C58_valid_accepted",
    "Ed448.C58_false_invalid"
   ],
   "note": ""
  },
  {
   "property": "C59",
   "status": "proved",
   "theorems": [
    "Ed448.C59_nonce_reuse",
    "Ed448.C59_nonce_collision",
    "Ed448.C59_extract"
   ],
   "note": ""
  },
  {
   "property": "C60",
   "status": "proved",
   "theorems": [
    "Ed448.C60_any_nonce"
   ],
   "note": ""
  },
  {
   "property": "C61",
   "status": "proved",
   "theorems": [
    "Ed448.C61_public_key_binding"
   ],
   "note": ""
  },
  {
   "property": "C62",
   "status": "proved",
   "theorems": [
    "Ed448.C62_field_verify",
    "Ed448.C62_evaluate"
   ],
   "note": "The runs on the test vectors of the repository and of RFC 8032 in Properties/Vectors.lean, MoreVectors.lean and RfcVectors.lean, evaluated by the kernel, are tests of the model and not part of this claim."
  },
  {
   "property": "C63",
   "status": "proved",
   "theorems": [
    "Ed448.C63_strict_decoder",
    "Ed448.C63_not_strict"
   ],
   "note": "dead code: no function of the crate other than unit tests calls it"
  },
  {
   "property": "C64",
   "status": "proved",
   "theorems": [
    "Ed448.C64_same_results",
    "Ed448.C64_control_flow",
    "Ed448.C64_positions",
    "Ed448.C64_unique",
    "Ed448.C64_distinguish",
    "Ed448.C64_leaks",
    "Ed448.C64_narrows"
   ],
   "note": "observations are those recorded by Verif/Model/Leak.lean: branches, computed positions, lengths of hashed data; word arithmetic is taken to run in constant time and SHAKE256 is not looked into"
  },
  {
   "property": "C65",
   "status": "proved",
   "theorems": [
    "Ed448.C65_equation",
    "Ed448.C65_other_message",
    "Ed448.C65_same_signature",
    "Ed448.C65_two_keys",
    "Ed448.C65_other_key"
   ],
   "note": ""
  },
  {
   "property": "C66",
   "status": "proved",
   "theorems": [
    "Ed448.C66_signature_from_public",
    "Ed448.C66_simulation",
    "Ed448.C66_forgery"
   ],
   "note": ""
  },
  {
   "property": "C67",
   "status": "proved",
   "theorems": [
    "Ed448.C67_nonces",
    "Ed448.C67_secrets",
    "Ed448.C67_direct"
   ],
   "note": ""
  },
  {
   "property": "C68",
   "status": "proved",
   "theorems": [
    "Ed448.C68_card",
    "Ed448.C68_scalar",
    "Ed448.C68_accepted"
   ],
   "note": ""
  },
  {
   "property": "C69",
   "status": "proved",
   "theorems": [
    "Ed448.C69_debug_reveals",
    "Ed448.C69_debug_injective",
    "Ed448.C69_pretty",
    "Ed448.C69_pretty_injective"
   ],
   "note": "derived Debug implementations, {:?} and {:#?}"
  },
  {
   "property": "C70",
   "status": "proved",
   "theorems": [
    "Ed448.C70_forger",
    "Ed448.C70_forger_valid"
   ],
   "note": "the equation is the one that C06 and C07 relate to the verifier"
  },
  {
   "property": "C71",
   "status": "proved",
   "theorems": [
    "Ed448.C71_half",
    "Ed448.C71_rfc_agrees",
    "Ed448.C71_rarely"
   ],
   "note": ""
  },
  {
   "property": "C72",
   "status": "proved",
   "theorems": [
    "Ed448.C72_domain",
    "Ed448.C72_prehash"
   ],
   "note": ""
  },
  {
   "property": "C73",
   "status": "proved",
   "theorems": [
    "Ed448.C73_seed_reuse"
   ],
   "note": ""
  },
  {
   "property": "C74",
   "status": "proved",
   "theorems": [
    "Ed448.C74_two_forms"
   ],
   "note": ""
  },
  {
   "property": "C75",
   "status": "proved",
   "theorems": [
    "Ed448.C75_one_S",
    "Ed448.C75_valid_count",
    "Ed448.C75_accepted_S",
    "Ed448.C75_accepted_count"
   ],
   "note": ""
  },
  {
   "property": "C76",
   "status": "proved",
   "theorems": [
    "Ed448.C76_cofactored"
   ],
   "note": ""
  },
  {
   "property": "C77",
   "status": "proved",
   "theorems": [
    "Ed448.C77_two_lists"
   ],
   "note": ""
  },
  {
   "property": "C78",
   "status": "proved",
   "theorems": [
    "Ed448.C78_every_history",
    "Ed448.C78_only_added"
   ],
   "note": ""
  },
  {
   "property": "C79",
   "status": "proved",
   "theorems": [
    "Ed448.C79_random_blocks"
   ],
   "note": ""
  },
  {
   "property": "C80",
   "status": "proved",
   "theorems": [
    "Ed448.C80_exact",
    "Ed448.C80_roundtrip",
    "Ed448.C80_prehash",
    "Ed448.C80_decode",
    "Ed448.C80_conservative"
   ],
   "note": "About the verifier with six local repairs (Model/Repaired.lean), not about the existing code: shows that the causes named in C05, C06, C27, C30 are the only ones."
  },
  {
   "property": "C81",
   "status": "proved",
   "theorems": [
    "Ed448.C81_same_results",
    "Ed448.C81_constant",
    "Ed448.C81_cost"
   ],
   "note": "About a repair of the look-up in the comb table (Model/Masked.lean), not about the code as it is; C64 is the statement about the code."
  },
  {
   "property": "C82",
   "status": "proved",
   "theorems": [
    "Ed448.C82_minimal",
    "Ed448.C82_ends"
   ],
   "note": "About choices of the six repairs of C80 (Model/RepairSet.lean); with no repair chosen it is the existing code."
  },
  {
   "property": "C83",
   "status": "proved",
   "theorems": [
    "Ed448.C83_derive",
    "Ed448.C83_sign",
    "Ed448.C83_verify",
    "Ed448.C83_verify_cases"
   ],
   "note": "Counts multiplications and squarings of field elements and lengths of hashed strings; additions, selections, recoding and arithmetic of scalars are loops with constant bounds and are not counted."
  },
  {
   "property": "C84",
   "status": "proved",
   "theorems": [
    "Ed448.C84_every_schedule",
    "Ed448.C84_signatures_valid",
    "Ed448.C84_alone",
    "Ed448.C84_no_random"
   ],
   "note": "A call is one step of the model: the library has no global state. The shared generator delivers the bytes of an arbitrary stream."
  },
  {
   "property": "C85",
   "status": "proved",
   "theorems": [
    "Ed448.C85_two_keys",
    "Ed448.C85_same_challenge",
    "Ed448.C85_luck",
    "Ed448.C85_small_order",
    "Ed448.C85_accepted"
   ],
   "note": ""
  },
  {
   "property": "C86",
   "status": "proved",
   "theorems": [
    "Ed448.C86_library",
    "Ed448.C86_numbers",
    "Ed448.C86_accepted",
    "Ed448.C86_secrets",
    "Ed448.C86_blind",
    "Ed448.C86_extract",
    "Ed448.C86_unforgeable"
   ],
   "note": "The hash function is a random function here (C86_library, C86_numbers), as in the usual proofs for Schnorr signatures. Valid means valid by RFC 8032, which the repaired verifier of C80 checks; the existing verifier accepts more (C06_refuted, C33). C86_numbers is for private keys without the sign bit; C88 has all private keys."
  },
  {
   "property": "C87",
   "status": "proved",
   "theorems": [
    "Ed448.C87_exact",
    "Ed448.C87_loose",
    "Ed448.C87_library",
    "Ed448.C87_numbers"
   ],
   "note": "About the existing verifier with at least the first of the six repairs of Model/Repaired (src/bignumber.rs:519-541 looks at limb 15). Without it acceptance depends on the digits of projective coordinates (C06_refuted), and no such reduction is known. The hash function is a random function in C87_library and C87_numbers, as in C86."
  },
  {
   "property": "C88",
   "status": "proved",
   "theorems": [
    "Ed448.C88_all",
    "Ed448.C88_direct",
    "Ed448.C88_verifiers"
   ],
   "note": "The hash function is a random function, and valid means valid by RFC 8032 or accepted by one of the verifiers of C87, as in C86 and C87."
  },
  {
   "property": "C89",
   "status": "proved",
   "theorems": [
    "Ed448.C89_strong",
    "Ed448.C89_verifiers",
    "Ed448.C89_existing",
    "Ed448.C89_needed"
   ],
   "note": "The hash function is a random function in C89_strong and C89_verifiers, as in C86. C89_existing and C89_needed are for every hash function."
  },
  {
   "property": "C90",
   "status": "proved",
   "theorems": [
    "Ed448.C90_verifies",
    "Ed448.C90_prehash",
    "Ed448.C90_users"
   ],
   "note": "The hash function is a random function and the private key is random. This bounds how often C05 and C27 fail; C05_refuted shows that they do fail."
  },
  {
   "property": "C91",
   "status": "proved",
   "theorems": [
    "Ed448.C91_one_key",
    "Ed448.C91_many_keys",
    "Ed448.C91_keys"
   ],
   "note": "The hash function is a random function. C91_one_key is for every single private key, the others for random private keys."
  },
  {
   "property": "C92",
   "status": "proved",
   "theorems": [
    "Ed448.C92_strong",
    "Ed448.C92_verifiers",
    "Ed448.C92_messages"
   ],
   "note": "The hash function is a random function and the private keys are random. Valid means valid by RFC 8032 or accepted by one of the verifiers of C87, as in C89."
  },
  {
   "property": "C93",
   "status": "proved",
   "theorems": [
    "Ed448.C93_every_history",
    "Ed448.C93_origin",
    "Ed448.C93_every_schedule"
   ],
   "note": "A call is one step of the model, as in C78 and C84."
  },
  {
   "property": "C94",
   "status": "proved",
   "theorems": [
    "Ed448.C94_derive",
    "Ed448.C94_sign",
    "Ed448.C94_masked",
    "Ed448.C94_counts",
    "Ed448.C94_masked_counts"
   ],
   "note": "What is recorded is described in Model/Leak.lean, as in C64. Spec/Trace.lean writes the sequences out. The C94_masked theorems are about the repaired look-up of C81."
  },
  {
   "property": "C95",
   "status": "proved",
   "theorems": [
    "Ed448.C95_unlimited",
    "Ed448.C95_certain",
    "Ed448.C95_needed",
    "Ed448.C95_guess",
    "Ed448.C95_guess_users",
    "Ed448.C95_fixed_half",
    "Ed448.C95_fixed_half_accepted"
   ],
   "note": "Valid means valid by RFC 8032. C95_unlimited is about a function that is not computable in practice; forgers in the model have no time limit. C95_guess is an instance of C89, C95_guess_users one of C92, and the C95_fixed_half theorems are instances of C86 and C87, with all hypotheses proved. The C95_fixed_half theorems are for keys without the sign bit only."
  },
  {
   "property": "C96",
   "status": "proved",
   "theorems": [
    "Ed448.C96_accepted",
    "Ed448.C96_library",
    "Ed448.C96_all",
    "Ed448.C96_users",
    "Ed448.C96_strong"
   ],
   "note": "The hash function is a random function in the bounds, as in C86. The chance of a near miss itself is not bounded: it depends on the digits of projective coordinates. Forgeries as in C97, with a first half that is no point but is taken for one, are no near misses and are within the bounds of C86."
  },
  {
   "property": "C97",
   "status": "proved",
   "theorems": [
    "Ed448.C97_equation",
    "Ed448.C97_exists",
    "Ed448.C97_derived",
    "Ed448.C97_log"
   ],
   "note": "Existence only: the second half needs the discrete logarithm of a point that nobody chose. The kernel decodes the string and multiplies by 4 (nonPoint_check)."
  },
  {
   "property": "C98",
   "status": "proved",
   "theorems": [
    "Ed448.C98_owner",
    "Ed448.C98_valid",
    "Ed448.C98_repaired",
    "Ed448.C98_one_repair",
    "Ed448.C98_as_is",
    "Ed448.C98_small_order"
   ],
   "note": "The hash function is a random function. For the verifier as it is, the chance of a near miss is added and not bounded, as in C96."
  },
  {
   "property": "C99",
   "status": "proved",
   "theorems": [
    "Ed448.C99_imitation",
    "Ed448.C99_direct",
    "Ed448.C99_sign_bit",
    "Ed448.C99_nonces"
   ],
   "note": "The hash function is a random function, as in C86. Whoever imitates chooses its values; this is the usual meaning of the claim for signatures in the random oracle model."
  }
 ]
}