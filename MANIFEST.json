{
 "claims": [
  {
   "property": "C01",
   "status": "proved",
   "theorems": [
    "Verif.Props.C01_secret_parse"
   ],
   "note": ""
  },
  {
   "property": "C02",
   "status": "proved",
   "theorems": [
    "Verif.Props.C02_secret_roundtrip"
   ],
   "note": ""
  },
  {
   "property": "C03",
   "status": "proved",
   "theorems": [
    "Verif.Props.C03_slices",
    "Verif.Props.C03_public_key_slice"
   ],
   "note": ""
  },
  {
   "property": "C04",
   "status": "proved",
   "theorems": [
    "Verif.Props.C04_message_parse"
   ],
   "note": ""
  },
  {
   "property": "C05",
   "status": "proved",
   "theorems": [
    "Verif.Props.C05_parse_standard",
    "Verif.Props.C05_serialize_parse"
   ],
   "note": ""
  },
  {
   "property": "C06",
   "status": "proved",
   "theorems": [
    "Verif.Props.C06_parse_overflowing"
   ],
   "note": ""
  },
  {
   "property": "C07",
   "status": "proved",
   "theorems": [
    "Verif.Props.C07_scalar_add"
   ],
   "note": ""
  },
  {
   "property": "C08",
   "status": "proved",
   "theorems": [
    "Verif.Props.C08_scalar_mul"
   ],
   "note": ""
  },
  {
   "property": "C09",
   "status": "proved",
   "theorems": [
    "Verif.Props.C09_scalar_neg"
   ],
   "note": ""
  },
  {
   "property": "C10",
   "status": "proved",
   "theorems": [
    "Verif.Props.C10_scalar_inv",
    "Verif.Props.C10_secret_inv"
   ],
   "note": ""
  },
  {
   "property": "C11",
   "status": "partial",
   "theorems": [
    "Verif.Props.C11_normalize_s_partial",
    "Verif.Props.C11_normalize_s_fails"
   ],
   "note": "The property is false of the code at s = (n-1)/2, which normalize_s turns into (n+1)/2 (C11_normalize_s_fails). Missing: exactly that value for the bound, that value and (n+1)/2 for idempotence."
  },
  {
   "property": "C12",
   "status": "proved",
   "theorems": [
    "Verif.Props.C12_field_mul",
    "Verif.Props.C12_field_linear"
   ],
   "note": ""
  },
  {
   "property": "C13",
   "status": "proved",
   "theorems": [
    "Verif.Props.C13_field_normalize"
   ],
   "note": ""
  },
  {
   "property": "C14",
   "status": "proved",
   "theorems": [
    "Verif.Props.C14_field_inv_sqrt"
   ],
   "note": ""
  },
  {
   "property": "C15",
   "status": "proved",
   "theorems": [
    "Verif.Props.C15_field_bytes"
   ],
   "note": ""
  },
  {
   "property": "C16",
   "status": "proved",
   "theorems": [
    "Verif.Props.C16_point_ops_var",
    "Verif.Props.C16_add_zinv_var",
    "Verif.Props.C16_z_ratio"
   ],
   "note": ""
  },
  {
   "property": "C17",
   "status": "proved",
   "theorems": [
    "Verif.Props.C17_add_ge_complete"
   ],
   "note": ""
  },
  {
   "property": "C18",
   "status": "proved",
   "theorems": [
    "Verif.Props.C18_from_secret_key"
   ],
   "note": ""
  },
  {
   "property": "C19",
   "status": "proved",
   "theorems": [
    "Verif.Props.C19_parse"
   ],
   "note": ""
  },
  {
   "property": "C20",
   "status": "proved",
   "theorems": [
    "Verif.Props.C20_parse_compressed",
    "Verif.Props.C20_parse_compressed_x"
   ],
   "note": ""
  },
  {
   "property": "C21",
   "status": "proved",
   "theorems": [
    "Verif.Props.C21_roundtrip"
   ],
   "note": ""
  },
  {
   "property": "C22",
   "status": "proved",
   "theorems": [
    "Verif.Props.C22_equality"
   ],
   "note": ""
  },
  {
   "property": "C23",
   "status": "proved",
   "theorems": [
    "Verif.Props.C23_verify"
   ],
   "note": "Exact iff with the verification equation, equal to `pure` (both profiles, no panic)."
  },
  {
   "property": "C24",
   "status": "proved",
   "theorems": [
    "Verif.Props.C24_sign_verify"
   ],
   "note": "Any DRBG, any profile in which signing returns."
  },
  {
   "property": "C25",
   "status": "proved",
   "theorems": [
    "Verif.Props.C25_sign_recover"
   ],
   "note": "Same point and same serialization."
  },
  {
   "property": "C26",
   "status": "proved",
   "theorems": [
    "Verif.Props.C26_recover"
   ],
   "note": "Success iff the selected point exists and the key is finite; error otherwise; the key verifies."
  },
  {
   "property": "C27",
   "status": "proved",
   "theorems": [
    "Verif.Props.C27_malleability"
   ],
   "note": ""
  },
  {
   "property": "C28",
   "status": "partial",
   "theorems": [
    "Verif.Props.C28_sign_range_partial",
    "Verif.Props.C28_sign_zero_r",
    "Verif.Props.C28_sign_high_s"
   ],
   "note": "The property as stated is false of the code: s = (n+1)/2 and (release) r = 0 are reachable; both negations are proved. The partial theorem gives the exact exceptions."
  },
  {
   "property": "C29",
   "status": "proved",
   "theorems": [
    "Verif.Props.C29_first_nonce"
   ],
   "note": "Includes the exact condition for the debug-profile panic (a tried nonce with x >= n)."
  },
  {
   "property": "C30",
   "status": "proved",
   "theorems": [
    "Verif.Props.C30_tweak_add",
    "Verif.Props.C30_public_tweak_add",
    "Verif.Props.C30_secret_tweak_add"
   ],
   "note": ""
  },
  {
   "property": "C31",
   "status": "proved",
   "theorems": [
    "Verif.Props.C31_tweak_mul",
    "Verif.Props.C31_public_tweak_mul",
    "Verif.Props.C31_secret_tweak_mul"
   ],
   "note": ""
  },
  {
   "property": "C32",
   "status": "proved",
   "theorems": [
    "Verif.Props.C32_combine",
    "Verif.Props.C32_combine_empty",
    "Verif.Props.C32_combine_perm"
   ],
   "note": ""
  },
  {
   "property": "C33",
   "status": "proved",
   "theorems": [
    "Verif.Props.C33_ecdh",
    "Verif.Props.C33_ecdh_symmetric"
   ],
   "note": ""
  },
  {
   "property": "C34",
   "status": "proved",
   "theorems": [
    "Verif.Props.C34_ecmult"
   ],
   "note": "Finite A only: ecmult debug-asserts that A is finite."
  },
  {
   "property": "C35",
   "status": "proved",
   "theorems": [
    "Verif.Props.C35_ecmult_const"
   ],
   "note": "Also covers the zero scalar."
  },
  {
   "property": "C36",
   "status": "proved",
   "theorems": [
    "Verif.Props.C36_ecmult_gen"
   ],
   "note": ""
  },
  {
   "property": "C37",
   "status": "proved",
   "theorems": [
    "Verif.Props.C37_contexts"
   ],
   "note": ""
  },
  {
   "property": "C38",
   "status": "proved",
   "theorems": [
    "Verif.Props.C38_wnaf",
    "Verif.Props.C38_wnaf_const",
    "Verif.Props.C38_wnaf_31_panics"
   ],
   "note": "Windows 2..30. The assertion in the source admits 31, where the digit arithmetic overflows i32 (C38_wnaf_31_panics)."
  },
  {
   "property": "C39",
   "status": "partial",
   "theorems": [
    "Verif.Props.C39_der_roundtrip_partial",
    "Verif.Props.C39_der_roundtrip_fails"
   ],
   "note": "Holds for s != 0; the encoding of every signature with s = 0 is refused (proved)."
  },
  {
   "property": "C40",
   "status": "proved",
   "theorems": [
    "Verif.Props.C40_strict_unique"
   ],
   "note": "Every slice, either profile."
  },
  {
   "property": "C41",
   "status": "partial",
   "theorems": [
    "Verif.Props.C41_no_panic_partial",
    "Verif.Props.C41_no_panic_64",
    "Verif.Props.C41_overflow_32",
    "Verif.Props.C41_debug_panics_iff"
   ],
   "note": "Proved in full for 64-bit targets (C41_no_panic_64, every input below 2^55 bytes, both profiles). False of the code for debug builds on 32-bit targets: an input of 2^24 bytes overflows usize (C41_overflow_32). C41_no_panic_partial: on every slice lax parsing and release builds return. C41_debug_panics_iff: a debug build panics exactly on inputs that begin with 30 and the length 2^(usize bits) - 1, with 2^(usize bits - 8) bytes or more after it."
  },
  {
   "property": "C42",
   "status": "proved",
   "theorems": [
    "Verif.Props.C42_serialize_der"
   ],
   "note": "For every signature, canonical or not; also that the encoding is the only DER encoding of the two integers."
  },
  {
   "property": "C43",
   "status": "proved",
   "theorems": [
    "Verif.Props.C43_lax_superset"
   ],
   "note": "Every slice, either profile, also for zero components."
  },
  {
   "property": "C44",
   "status": "partial",
   "theorems": [
    "Verif.Props.C44_strict_partial",
    "Verif.Props.C44_strict_fails",
    "Verif.Props.C59_strict_exact"
   ],
   "note": "False of the code for r = 0: a sequence with a single INTEGER is accepted (proved). Holds for r != 0."
  },
  {
   "property": "C45",
   "status": "proved",
   "theorems": [
    "Verif.Props.C45_recovery_id"
   ],
   "note": ""
  },
  {
   "property": "C46",
   "status": "proved",
   "theorems": [
    "Verif.Props.C46_secret",
    "Verif.Props.C46_public",
    "Verif.Props.C46_decode",
    "Verif.Props.C46_signature"
   ],
   "note": "NoPanic in both profiles for every public operation on valid objects; the decoders on every input (DER: slices shorter than 2^(usize bits - 8))."
  },
  {
   "property": "C47",
   "status": "proved",
   "theorems": [
    "Verif.Props.C47_serde_roundtrip",
    "Verif.Props.C47_serde_accepts",
    "Verif.Props.C47_serde_errors",
    "Verif.Props.C47_expecting"
   ],
   "note": "base64 is an abstract codec with decode (encode b) = b."
  },
  {
   "property": "C48",
   "status": "partial",
   "theorems": [
    "Verif.Props.C48_lower_hex_partial",
    "Verif.Props.C48_lower_hex_fails"
   ],
   "note": "The property is false of the code: the 4-byte groups are printed in reverse order. The partial theorem says exactly what is printed."
  },
  {
   "property": "C49",
   "status": "proved",
   "theorems": [
    "Verif.Props.C49_random"
   ],
   "note": ""
  },
  {
   "property": "C50",
   "status": "proved",
   "theorems": [
    "Verif.Props.C50_clear",
    "Verif.Props.C50_clear_all"
   ],
   "note": ""
  },
  {
   "property": "C51",
   "status": "proved",
   "theorems": [
    "Verif.Props.C51_scalar_bits"
   ],
   "note": ""
  },
  {
   "property": "C52",
   "status": "proved",
   "theorems": [
    "Verif.Props.C52_batch"
   ],
   "note": ""
  },
  {
   "property": "C53",
   "status": "proved",
   "theorems": [
    "Verif.Props.C53_secret_try_from",
    "Verif.Props.C53_public_try_from"
   ],
   "note": ""
  },
  {
   "property": "C54",
   "status": "partial",
   "theorems": [
    "Verif.Props.C54_sign_raw_partial",
    "Verif.Props.C54_sign_raw_fails"
   ],
   "note": "False of the code: nonce with x = n gives r = 0 in release and a panic in debug (proved). The partial theorem covers all nonces with x < n and characterises r = 0."
  },
  {
   "property": "C55",
   "status": "proved",
   "theorems": [
    "Verif.Props.C55_group_order"
   ],
   "note": ""
  },
  {
   "property": "C56",
   "status": "proved",
   "theorems": [
    "Verif.Props.C56_recover_complete"
   ],
   "note": ""
  },
  {
   "property": "C57",
   "status": "proved",
   "theorems": [
    "Verif.Props.C57_platform_independent",
    "Verif.Props.C57_strict_release",
    "Verif.Props.C57_lax_differs"
   ],
   "note": "Beyond 2^24 bytes: strict parsing agrees in release builds; lax parsing differs (proved)."
  },
  {
   "property": "C58",
   "status": "proved",
   "theorems": [
    "Verif.Props.C58_lax_exact"
   ],
   "note": ""
  },
  {
   "property": "C59",
   "status": "proved",
   "theorems": [
    "Verif.Props.C59_strict_exact"
   ],
   "note": "Every slice, including the possible debug panics of C41."
  },
  {
   "property": "C60",
   "status": "proved",
   "theorems": [
    "Verif.Props.C60_lax_trailing"
   ],
   "note": ""
  },
  {
   "property": "C61",
   "status": "proved",
   "theorems": [
    "Verif.Props.C61_verify",
    "Verif.Props.C61_construct",
    "Verif.Props.C61_inspect"
   ],
   "note": ""
  },
  {
   "property": "C62",
   "status": "proved",
   "theorems": [
    "Verif.Props.C62_constants",
    "Verif.Props.C62_defaults",
    "Verif.Props.C62_convert",
    "Verif.Props.C62_from_x",
    "Verif.Props.C62_predicates"
   ],
   "note": ""
  },
  {
   "property": "C63",
   "status": "proved",
   "theorems": [
    "Verif.Props.C63_scalar_basics"
   ],
   "note": ""
  },
  {
   "property": "C64",
   "status": "proved",
   "theorems": [
    "Verif.Props.C64_error_messages"
   ],
   "note": ""
  },
  {
   "property": "C65",
   "status": "proved",
   "theorems": [
    "Verif.Props.C65_static_context",
    "Verif.Props.C65_static_gen_context"
   ],
   "note": "The reader of Rust array expressions is Spec/RustConst.lean; file handling of the build script is not modelled."
  },
  {
   "property": "C66",
   "status": "proved",
   "theorems": [
    "Verif.Props.C66_verify_any",
    "Verif.Props.C66_verify_mod",
    "Verif.Props.C66_verify_r"
   ],
   "note": "No assumption on r, s, m."
  },
  {
   "property": "C67",
   "status": "proved",
   "theorems": [
    "Verif.Props.C67_recover_any",
    "Verif.Props.C67_recover_big",
    "Verif.Props.C67_recover_s_n"
   ],
   "note": ""
  },
  {
   "property": "C68",
   "status": "proved",
   "theorems": [
    "Verif.Props.C68_add_any",
    "Verif.Props.C68_neg_any",
    "Verif.Props.C68_from_secret_key_any"
   ],
   "note": "All limb arrays."
  },
  {
   "property": "C69",
   "status": "proved",
   "theorems": [
    "Verif.Props.C69_rfc6979_nonces",
    "Verif.Props.C69_rfc6979_sign",
    "Verif.Props.C69_sha256_sign"
   ],
   "note": "HMAC is an arbitrary function to 32 bytes. That the hmac-drbg crate implements HMAC_DRBG is assumed; it is not part of the repository."
  },
  {
   "property": "C70",
   "status": "proved",
   "theorems": [
    "Verif.Props.C70_secret",
    "Verif.Props.C70_public",
    "Verif.Props.C70_signature",
    "Verif.Props.C70_core",
    "Verif.Props.C70_scalar",
    "Verif.Props.C70_field",
    "Verif.Props.C70_group",
    "Verif.Props.C70_ecmult",
    "Verif.Props.C70_ecdsa",
    "Verif.Props.C70_decoder",
    "Verif.Props.C70_build"
   ],
   "note": "No hypotheses on any argument. Every function of the core crate that is modelled is listed, with the helpers it is split into."
  },
  {
   "property": "C71",
   "status": "proved",
   "theorems": [
    "Verif.Props.C71_step",
    "Verif.Props.C71_run",
    "Verif.Props.C71_reachable",
    "Verif.Props.C71_careful"
   ],
   "note": "Refinement of every API operation to Spec/Client.lean (ideal), by induction on the program. The ideal uses the thresholds the code has for normalising s (see C11) and the strict DER quirk of C44."
  },
  {
   "property": "C72",
   "status": "proved",
   "theorems": [
    "Verif.Props.C72_derivation_injective"
   ],
   "note": ""
  },
  {
   "property": "C73",
   "status": "proved",
   "theorems": [
    "Verif.Props.C73_add_undo",
    "Verif.Props.C73_mul_undo",
    "Verif.Props.C73_secret_order",
    "Verif.Props.C73_public_order"
   ],
   "note": ""
  },
  {
   "property": "C74",
   "status": "proved",
   "theorems": [
    "Verif.Props.C74_combine_secrets",
    "Verif.Props.C74_combine_groups",
    "Verif.Props.C74_combine_tweak"
   ],
   "note": ""
  },
  {
   "property": "C75",
   "status": "proved",
   "theorems": [
    "Verif.Props.C75_ecdh_tweak",
    "Verif.Props.C75_ecdh_injective"
   ],
   "note": ""
  },
  {
   "property": "C76",
   "status": "proved",
   "theorems": [
    "Verif.Props.C76_signatures",
    "Verif.Props.C76_malleability",
    "Verif.Props.C76_messages",
    "Verif.Props.C76_keys",
    "Verif.Props.C76_four"
   ],
   "note": ""
  },
  {
   "property": "C77",
   "status": "proved",
   "theorems": [
    "Verif.Props.C77_nonce_reuse",
    "Verif.Props.C77_known_nonce",
    "Verif.Props.C77_related_nonces"
   ],
   "note": ""
  },
  {
   "property": "C78",
   "status": "proved",
   "theorems": [
    "Verif.Props.C78_secret",
    "Verif.Props.C78_public",
    "Verif.Props.C78_signature",
    "Verif.Props.C78_der",
    "Verif.Props.C78_core"
   ],
   "note": "The parsers of fixed-size inputs return on every input in both profiles by C46_decode."
  },
  {
   "property": "C79",
   "status": "proved",
   "theorems": [
    "Verif.Props.C79_verify_infinite",
    "Verif.Props.C79_zero_secret",
    "Verif.Props.C79_verify_origin",
    "Verif.Props.C79_verify_raw_default",
    "Verif.Props.C79_tweak_infinite"
   ],
   "note": "A defect of the code, proved as behaviour: the only guard against an infinite key is a debug assertion in odd_multiples_table."
  },
  {
   "property": "C80",
   "status": "proved",
   "theorems": [
    "Verif.Props.C80_verify",
    "Verif.Props.C80_serialize",
    "Verif.Props.C80_shared",
    "Verif.Props.C80_tweak",
    "Verif.Props.C80_combine",
    "Verif.Props.C80_try_from",
    "Verif.Props.C80_context",
    "Verif.Props.C80_eq_reads_magnitude",
    "Verif.Props.C80_debug"
   ],
   "note": "The exception for PartialEq and the debug profile are shown by a concrete pair of keys."
  },
  {
   "property": "C81",
   "status": "proved",
   "theorems": [
    "Verif.Props.C81_shared",
    "Verif.Props.C81_zero_secret",
    "Verif.Props.C81_not_a_point",
    "Verif.Props.C81_ecdh_raw_default"
   ],
   "note": "A defect of the code, proved as behaviour: ecdh_raw does not check its point, and the assertions in ecmult_const are for debug builds only."
  },
  {
   "property": "C82",
   "status": "proved",
   "theorems": [
    "Verif.Props.C82_u32",
    "Verif.Props.C82_u64",
    "Verif.Props.C82_usize",
    "Verif.Props.C82_i32",
    "Verif.Props.C82_shift"
   ],
   "note": "States the primitives of the execution model against integer arithmetic; every other theorem uses them."
  },
  {
   "property": "C83",
   "status": "proved",
   "theorems": [
    "Verif.Props.C83_refused",
    "Verif.Props.C83_panics",
    "Verif.Props.C83_zero_r"
   ],
   "note": "Nonces are counted by lists of different scalars."
  },
  {
   "property": "C84",
   "status": "proved",
   "theorems": [
    "Verif.Props.C84_sign_ends"
   ],
   "note": "The debug profile is included if no nonce tried has a point with x coordinate ≥ n (see C28, C83)."
  },
  {
   "property": "C85",
   "status": "proved",
   "theorems": [
    "Verif.Props.C85_random_uniform",
    "Verif.Props.C85_random_one"
   ],
   "note": "The generator is a sequence of N arbitrary blocks; the bijection exchanges the two keys in every block."
  },
  {
   "property": "C86",
   "status": "proved",
   "theorems": [
    "Verif.Props.C86_encodings"
   ],
   "note": ""
  },
  {
   "property": "C87",
   "status": "proved",
   "theorems": [
    "Verif.Props.C87_der_length",
    "Verif.Props.C87_sign_length"
   ],
   "note": ""
  },
  {
   "property": "C88",
   "status": "proved",
   "theorems": [
    "Verif.Props.C88_new",
    "Verif.Props.C88_read",
    "Verif.Props.C88_remaining_len",
    "Verif.Props.C88_peek",
    "Verif.Props.C88_peek_slice",
    "Verif.Props.C88_skip",
    "Verif.Props.C88_read_constructed_sequence",
    "Verif.Props.C88_read_len",
    "Verif.Props.C88_read_integer",
    "Verif.Props.C88_read_seq_len_lax",
    "Verif.Props.C88_read_len_lax",
    "Verif.Props.C88_read_integer_lax",
    "Verif.Props.C88_in_bounds",
    "Verif.Props.C88_no_panic"
   ],
   "note": "On Err after a partly read length or integer the new position is bounded, not determined."
  },
  {
   "property": "C89",
   "status": "proved",
   "theorems": [
    "Verif.Props.C89_new",
    "Verif.Props.C89_write",
    "Verif.Props.C89_serialize_der"
   ],
   "note": ""
  },
  {
   "property": "C90",
   "status": "proved",
   "theorems": [
    "Verif.Props.C90_values",
    "Verif.Props.C90_ecmult_const",
    "Verif.Props.C90_ecdh"
   ],
   "note": "Relative to the leakage model of Model/Leak.lean: selections between computed values and arithmetic are not observations, hash and generator leak lengths only."
  },
  {
   "property": "C91",
   "status": "proved",
   "theorems": [
    "Verif.Props.C91_fixed_base"
   ],
   "note": "Relative to the leakage model of Model/Leak.lean. The set is bounded, not listed: it depends on the discrete logarithm of the table offset."
  },
  {
   "property": "C92",
   "status": "proved",
   "theorems": [
    "Verif.Props.C92_sign_raw",
    "Verif.Props.C92_sign",
    "Verif.Props.C92_sign_same",
    "Verif.Props.C92_verdict"
   ],
   "note": "Relative to the leakage model of Model/Leak.lean; the generator leaks at most the number of bytes drawn."
  },
  {
   "property": "C93",
   "status": "proved",
   "theorems": [
    "Verif.Props.C93_text",
    "Verif.Props.C93_accepts",
    "Verif.Props.C93_four"
   ],
   "note": "That the crate's BASE64_STANDARD engine implements RFC 4648 with canonical padding is assumed."
  },
  {
   "property": "C94",
   "status": "proved",
   "theorems": [
    "Verif.Props.C94_context",
    "Verif.Props.C94_gen_context",
    "Verif.Props.C94_null"
   ],
   "note": "Layout, alignment and aliasing are not modelled."
  },
  {
   "property": "C95",
   "status": "proved",
   "theorems": [
    "Verif.Props.C95_values",
    "Verif.Props.C95_parse",
    "Verif.Props.C95_tweak_add",
    "Verif.Props.C95_tweak_mul",
    "Verif.Props.C95_inv",
    "Verif.Props.C95_key_values",
    "Verif.Props.C95_parse_slice",
    "Verif.Props.C95_random"
   ],
   "note": "Observations as defined in Model/Leak.lean."
  },
  {
   "property": "C96",
   "status": "proved",
   "theorems": [
    "Verif.Props.C96_values",
    "Verif.Props.C96_ecmult",
    "Verif.Props.C96_tweak_add",
    "Verif.Props.C96_tweak_mul",
    "Verif.Props.C96_recover"
   ],
   "note": "The expected property (tweaks do not leak) is false; this is the negation in its strongest form."
  },
  {
   "property": "C97",
   "status": "proved",
   "theorems": [
    "Verif.Props.C97_values",
    "Verif.Props.C97_ecmult_gen",
    "Verif.Props.C97_sign_raw",
    "Verif.Props.C97_sign"
   ],
   "note": "Source level: copies made by the compiler and the frames of the arithmetic are not modelled. The expected property (signing leaves no secrets) is false of ecmult_gen and sign; this is the exact content."
  },
  {
   "property": "C98",
   "status": "proved",
   "theorems": [
    "Verif.Props.C98_secret_key",
    "Verif.Props.C98_secret_key_injective",
    "Verif.Props.C98_values",
    "Verif.Props.C98_public_key_value",
    "Verif.Props.C98_public_key",
    "Verif.Props.C98_core"
   ],
   "note": "core::fmt (debug_tuple, debug_struct, debug_list, PadAdapter, decimal integers) and the Debug of GenericArray are modelled from their documentation; width, precision and x? flags are not covered."
  },
  {
   "property": "C99",
   "status": "proved",
   "theorems": [
    "Verif.Props.C99_parametrization",
    "Verif.Props.C99_forge",
    "Verif.Props.C99_failures"
   ],
   "note": "That the pairs (a, b) are easy to find for a chosen message is not claimed (and believed false)."
  },
  {
   "property": "C100",
   "status": "proved",
   "theorems": [
    "Verif.Props.C100_normalize_s",
    "Verif.Props.C100_classes"
   ],
   "note": "The exact behaviour behind C11, which is false as an unrestricted statement."
  },
  {
   "property": "C101",
   "status": "proved",
   "theorems": [
    "Verif.Props.C101_lower_hex",
    "Verif.Props.C101_injective"
   ],
   "note": "The exact behaviour behind C48, which is false as an unrestricted statement."
  },
  {
   "property": "C102",
   "status": "proved",
   "theorems": [
    "Verif.Props.C102_der_roundtrip"
   ],
   "note": "The exact behaviour behind C39, which is false as an unrestricted statement."
  },
  {
   "property": "C103",
   "status": "proved",
   "theorems": [
    "Verif.Props.C103_field_eq",
    "Verif.Props.C103_field_eq_panics",
    "Verif.Props.C103_field_ord",
    "Verif.Props.C103_ord_unnormalized",
    "Verif.Props.C103_affine_eq",
    "Verif.Props.C103_infinities"
   ],
   "note": "The negative parts are exact counterexamples."
  },
  {
   "property": "C104",
   "status": "proved",
   "theorems": [
    "Verif.Props.C104_scalars",
    "Verif.Props.C104_field"
   ],
   "note": "inv of zero is zero, as in Mathlib's convention for fields."
  },
  {
   "property": "C105",
   "status": "proved",
   "theorems": [
    "Verif.Props.C105_values",
    "Verif.Props.C105_ecdh",
    "Verif.Props.C105_digits"
   ],
   "note": "At the level of named variables, as for C97."
  },
  {
   "property": "C106",
   "status": "proved",
   "theorems": [
    "Verif.Props.C106_negated_s",
    "Verif.Props.C106_ids_differ",
    "Verif.Props.C106_unique_id",
    "Verif.Props.C106_second_key",
    "Verif.Props.C106_every_key"
   ],
   "note": "The exceptional key of the second-key statement is given exactly."
  },
  {
   "property": "C107",
   "status": "proved",
   "theorems": [
    "Verif.Props.C107_add",
    "Verif.Props.C107_mul",
    "Verif.Props.C107_recover"
   ],
   "note": "Equality of both verdicts, not only of acceptance."
  },
  {
   "property": "C108",
   "status": "proved",
   "theorems": [
    "Verif.Props.C108_from_secret_key",
    "Verif.Props.C108_serialize",
    "Verif.Props.C108_parse",
    "Verif.Props.C108_eq",
    "Verif.Props.C108_combine"
   ],
   "note": "Lists that mix such keys with valid keys: C113."
  },
  {
   "property": "C109",
   "status": "proved",
   "theorems": [
    "Verif.Props.C109_negate",
    "Verif.Props.C109_last_key"
   ],
   "note": "The second theorem is a limit of the operation, not a defect of the code."
  },
  {
   "property": "C110",
   "status": "proved",
   "theorems": [
    "Verif.Props.C110_zero_message",
    "Verif.Props.C110_nonce",
    "Verif.Props.C110_recover",
    "Verif.Props.C110_verify"
   ],
   "note": "Describes what happens after SecretKey::clear; the API gives no error."
  },
  {
   "property": "C111",
   "status": "proved",
   "theorems": [
    "Verif.Props.C111_secret_from_scalar",
    "Verif.Props.C111_public_tweak_add",
    "Verif.Props.C111_public_tweak_mul",
    "Verif.Props.C111_secret_tweak_mul",
    "Verif.Props.C111_secret_tweak_add",
    "Verif.Props.C111_tweak_mul_order",
    "Verif.Props.C111_ecdh",
    "Verif.Props.C111_ecdh_top",
    "Verif.Props.C111_ecdh_debug",
    "Verif.Props.C111_ecdh_disagrees"
   ],
   "note": "Describes secrets the API accepts but that are not reduced modulo n."
  },
  {
   "property": "C112",
   "status": "proved",
   "theorems": [
    "Verif.Props.C112_normalize_s",
    "Verif.Props.C112_normalize_breaks",
    "Verif.Props.C112_encodings"
   ],
   "note": ""
  },
  {
   "property": "C113",
   "status": "proved",
   "theorems": [
    "Verif.Props.C113_combine_debug",
    "Verif.Props.C113_combine_last",
    "Verif.Props.C113_combine_cancel",
    "Verif.Props.C113_combine_first",
    "Verif.Props.C113_off_curve",
    "Verif.Props.C113_refused"
   ],
   "note": ""
  },
  {
   "property": "C114",
   "status": "proved",
   "theorems": [
    "Verif.Props.C114_unique",
    "Verif.Props.C114_canonical_form",
    "Verif.Props.C114_one_form"
   ],
   "note": ""
  },
  {
   "property": "C115",
   "status": "proved",
   "theorems": [
    "Verif.Props.C115_pairs",
    "Verif.Props.C115_low_s",
    "Verif.Props.C115_at_most_four"
   ],
   "note": ""
  },
  {
   "property": "C116",
   "status": "proved",
   "theorems": [
    "Verif.Props.C116_count",
    "Verif.Props.C116_random",
    "Verif.Props.C116_low"
   ],
   "note": ""
  },
  {
   "property": "C117",
   "status": "proved",
   "theorems": [
    "Verif.Props.C117_same",
    "Verif.Props.C117_public",
    "Verif.Props.C117_secret",
    "Verif.Props.C117_tweak",
    "Verif.Props.C117_every_point"
   ],
   "note": "That a digest has no collisions among encodings of points is a hypothesis of three of the theorems."
  },
  {
   "property": "C118",
   "status": "proved",
   "theorems": [
    "Verif.Props.C118_opposite",
    "Verif.Props.C118_complete"
   ],
   "note": ""
  },
  {
   "property": "C119",
   "status": "proved",
   "theorems": [
    "Verif.Props.C119_injective",
    "Verif.Props.C119_every_key"
   ],
   "note": ""
  },
  {
   "property": "C120",
   "status": "proved",
   "theorems": [
    "Verif.Props.C120_message",
    "Verif.Props.C120_second_digest",
    "Verif.Props.C120_overflowing",
    "Verif.Props.C120_standard"
   ],
   "note": ""
  },
  {
   "property": "C121",
   "status": "proved",
   "theorems": [
    "Verif.Props.C121_messages",
    "Verif.Props.C121_values",
    "Verif.Props.C121_keys"
   ],
   "note": ""
  },
  {
   "property": "C122",
   "status": "proved",
   "theorems": [
    "Verif.Props.C122_public_add",
    "Verif.Props.C122_public_mul",
    "Verif.Props.C122_secret"
   ],
   "note": ""
  },
  {
   "property": "C123",
   "status": "proved",
   "theorems": [
    "Verif.Props.C123_values",
    "Verif.Props.C123_parse",
    "Verif.Props.C123_random",
    "Verif.Props.C123_tweak",
    "Verif.Props.C123_from_secret_key"
   ],
   "note": "At the level of named variables, as for C97."
  },
  {
   "property": "C124",
   "status": "proved",
   "theorems": [
    "Verif.Props.C124_injective",
    "Verif.Props.C124_one_failure",
    "Verif.Props.C124_failing_message",
    "Verif.Props.C124_count"
   ],
   "note": "That every key is recovered for exactly one message is C106_every_key."
  },
  {
   "property": "C125",
   "status": "proved",
   "theorems": [
    "Verif.Props.C125_counts",
    "Verif.Props.C125_x"
   ],
   "note": "C125_x speaks of the curve; C20_parse_compressed_x ties x coordinates to parse_compressed."
  },
  {
   "property": "C126",
   "status": "proved",
   "theorems": [
    "Verif.Props.C126_der",
    "Verif.Props.C126_standard",
    "Verif.Props.C126_lax",
    "Verif.Props.C126_low"
   ],
   "note": "Byte strings for parse_der are those that can be a Rust slice (at most isize::MAX bytes). C126_lax is a lower bound."
  }
 ]
}
