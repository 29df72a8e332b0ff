{
 "claims": [
  {
   "property": "C01",
   "status": "proved",
   "theorems": [
    "Verif.Props.C01_point_add"
   ],
   "note": "all accepted argument forms (64, 65, 33 bytes)"
  },
  {
   "property": "C02",
   "status": "proved",
   "theorems": [
    "Verif.Props.C02_point_mul",
    "Verif.Props.C02_point_mul_r1",
    "Verif.Props.C02_scalarMult"
   ],
   "note": "secp256r1 is the standard library's curve, assumed to satisfy the group law (structure CurveOk); SM2 is C111"
  },
  {
   "property": "C03",
   "status": "proved",
   "theorems": [
    "Verif.Props.C03_group_orders",
    "Verif.Props.C03_secp256k1_order",
    "Verif.Props.C03_secp256r1_order",
    "Verif.Props.C03_sm2_order"
   ],
   "note": ""
  },
  {
   "property": "C04",
   "status": "proved",
   "theorems": [
    "Verif.Props.C04_genPubkey_k1",
    "Verif.Props.C04_genPubkey_r1",
    "Verif.Props.C04_genPubkey_sm2"
   ],
   "note": ""
  },
  {
   "property": "C05",
   "status": "proved",
   "theorems": [
    "Verif.Props.C05_genPubkey_encoding",
    "Verif.Props.C05_genPubkey_encoding_r1"
   ],
   "note": "secp256r1 is the standard library's curve, assumed to satisfy the group law (structure CurveOk); SM2 is C111"
  },
  {
   "property": "C06",
   "status": "proved",
   "theorems": [
    "Verif.Props.C06_genPubkey_injective",
    "Verif.Props.C06_genPubkey_injective_r1"
   ],
   "note": "secp256r1: for every backend satisfying CurveOk"
  },
  {
   "property": "C07",
   "status": "proved",
   "theorems": [
    "Verif.Props.C07_sign_verify_k1"
   ],
   "note": ""
  },
  {
   "property": "C08",
   "status": "proved",
   "theorems": [
    "Verif.Props.C08_sign_verify_r1"
   ],
   "note": "for every backend satisfying CurveOk; Ref.impl is one"
  },
  {
   "property": "C09",
   "status": "proved",
   "theorems": [
    "Verif.Props.C09_canonical_k1",
    "Verif.Props.C09_canonical_r1",
    "Verif.Props.DerMinimal_bytes"
   ],
   "note": ""
  },
  {
   "property": "C10",
   "status": "proved",
   "theorems": [
    "Verif.Props.C10_signature_errors_k1",
    "Verif.Props.C10_signature_errors_r1"
   ],
   "note": ""
  },
  {
   "property": "C11",
   "status": "proved",
   "theorems": [
    "Verif.Props.C11_verify_iff_textbook",
    "Verif.Props.C11_verify_iff_textbook_r1"
   ],
   "note": ""
  },
  {
   "property": "C12",
   "status": "proved",
   "theorems": [
    "Verif.Props.C12_verify_rejects_k1",
    "Verif.Props.C12_verify_rejects_r1",
    "Verif.Props.C12_no_nil_inverse"
   ],
   "note": "secp256r1: assumes crypto/elliptic returns on off-curve points"
  },
  {
   "property": "C13",
   "status": "proved",
   "theorems": [
    "Verif.Props.C13_malleability_k1",
    "Verif.Props.C13_malleability_r1",
    "Verif.Props.C13_malleability"
   ],
   "note": "secp256r1: for every backend satisfying CurveOk"
  },
  {
   "property": "C14",
   "status": "partial",
   "theorems": [
    "Verif.Props.C14_recover_signer_k1_partial",
    "Verif.Props.C14_recover_signer_r1_partial",
    "Verif.Props.C14_false_at_zero_hash"
   ],
   "note": "the code violates the property for hashes that are 0 mod N; negation proved with a witness"
  },
  {
   "property": "C15",
   "status": "proved",
   "theorems": [
    "Verif.Props.C15_recover_sound",
    "Verif.Props.C15_recover_sound_r1"
   ],
   "note": "secp256r1: for every backend satisfying CurveOk that returns 256-bit coordinates"
  },
  {
   "property": "C16",
   "status": "partial",
   "theorems": [
    "Verif.Props.C16_recover_returns_partial",
    "Verif.Props.C16_recover_panics_iff",
    "Verif.Props.C16_recover_panics_iff_r1",
    "Verif.Props.C16_false_at_zero_r"
   ],
   "note": "the code violates the property; the crash condition is characterised exactly"
  },
  {
   "property": "C17",
   "status": "proved",
   "theorems": [
    "Verif.Props.C17_decompress_compress_k1",
    "Verif.Props.C17_decompress_compress_r1",
    "Verif.Props.C17_decompress_compress_sm2"
   ],
   "note": ""
  },
  {
   "property": "C18",
   "status": "partial",
   "theorems": [
    "Verif.Props.C18_decompress_k1_partial",
    "Verif.Props.C18_decompress_r1_partial",
    "Verif.Props.C18_decompress_sm2_partial",
    "Verif.Props.C18_false_off_curve"
   ],
   "note": "the code violates the property for x-coordinates without a curve point"
  },
  {
   "property": "C19",
   "status": "proved",
   "theorems": [
    "Verif.Props.C19_child_key",
    "Verif.Props.C19_child_key_r1"
   ],
   "note": "secp256r1 is the standard library's curve, assumed to satisfy the group law (structure CurveOk); SM2 is C111"
  },
  {
   "property": "C20",
   "status": "proved",
   "theorems": [
    "Verif.Props.C20_ecdh",
    "Verif.Props.C20_ecdh_r1"
   ],
   "note": "secp256r1 is the standard library's curve, assumed to satisfy the group law (structure CurveOk); SM2 is C111"
  },
  {
   "property": "C21",
   "status": "partial",
   "theorems": [
    "Verif.Props.C21_add_infinity_k1",
    "Verif.Props.C21_add_r1_partial",
    "Verif.Props.C21_false_r1",
    "Verif.Props.C21_add_sm2_partial"
   ],
   "note": "true on secp256k1; violated on secp256r1 for a sum with x = 0; SM2 adds equal points to infinity (C24)"
  },
  {
   "property": "C22",
   "status": "partial",
   "theorems": [
    "Verif.Props.C22_field_mul_partial",
    "Verif.Props.C22_false",
    "Verif.Props.C22_false_point_mul"
   ],
   "note": "the code violates the property (limb underflow in the reduction); exact precondition under which it holds"
  },
  {
   "property": "C23",
   "status": "partial",
   "theorems": [
    "Verif.Props.C23_on_curve_partial",
    "Verif.Props.C23_false"
   ],
   "note": "the code violates the property"
  },
  {
   "property": "C24",
   "status": "partial",
   "theorems": [
    "Verif.Props.C24_add_self_fails",
    "Verif.Props.C24_false"
   ],
   "note": "the code violates the property for every point, in runs without underflow"
  },
  {
   "property": "C25",
   "status": "proved",
   "theorems": [
    "Verif.Props.C25_field_linear"
   ],
   "note": ""
  },
  {
   "property": "C26",
   "status": "partial",
   "theorems": [
    "Verif.Props.C26_sign_verify_sm2_partial",
    "Verif.Props.C26_false_r_plus_k",
    "Verif.Props.C26_false_equal_points"
   ],
   "note": "the code violates the property in two ways, both proved with a witness; proved for all runs outside them and outside the underflow of C22"
  },
  {
   "property": "C27",
   "status": "partial",
   "theorems": [
    "Verif.Props.C27_no_crash_partial",
    "Verif.Props.C27_last_key_never_signs",
    "Verif.Props.C27_false"
   ],
   "note": "the code violates the property; negation proved with a witness"
  },
  {
   "property": "C28",
   "status": "partial",
   "theorems": [
    "Verif.Props.C28_verify_range",
    "Verif.Props.C28_verify_total",
    "Verif.Props.C28_verify_iff_standard_partial",
    "Verif.Props.C28_verify_equal_points",
    "Verif.Props.C28_false_equal_points"
   ],
   "note": "equivalence with the standard fails when the two summands are equal (C24); witness proved"
  },
  {
   "property": "C29",
   "status": "partial",
   "theorems": [
    "Verif.Props.C29_ciphertext_shape",
    "Verif.Props.C29_encrypt_decrypt_partial"
   ],
   "note": "round trip in runs without the field underflow of C22"
  },
  {
   "property": "C30",
   "status": "partial",
   "theorems": [
    "Verif.Props.C30_always_success",
    "Verif.Props.C30_false"
   ],
   "note": "the code violates the property: Decryption ignores the failed integrity check; proved for every ciphertext"
  },
  {
   "property": "C31",
   "status": "partial",
   "theorems": [
    "Verif.Props.C31_agreement_partial",
    "Verif.Props.C31_step2_iff"
   ],
   "note": "in runs without the field underflow of C22 and outside the degenerate sums"
  },
  {
   "property": "C32",
   "status": "partial",
   "theorems": [
    "Verif.Props.C32_key_always_released",
    "Verif.Props.C32_false"
   ],
   "note": "the code violates the property"
  },
  {
   "property": "C33",
   "status": "partial",
   "theorems": [
    "Verif.Props.C33_length_initiator",
    "Verif.Props.C33_length_responder",
    "Verif.Props.C33_length_partial",
    "Verif.Props.C33_false"
   ],
   "note": "the code violates the property for lengths of 8192 and more; exact length proved for all"
  },
  {
   "property": "C34",
   "status": "partial",
   "theorems": [
    "Verif.Props.C34_recover_solves_ecdsa",
    "Verif.Props.C34_false"
   ],
   "note": "the code violates the property; what it returns instead is characterised"
  },
  {
   "property": "C35",
   "status": "proved",
   "theorems": [
    "Verif.Props.C35_sm3",
    "Verif.Props.C35_sm3_oneshot"
   ],
   "note": "for every message below 2^61 bytes and every chunking"
  },
  {
   "property": "C36",
   "status": "proved",
   "theorems": [
    "Verif.Props.C36_sm3",
    "Verif.Props.C36_sha3",
    "Verif.Props.C36_blake",
    "Verif.Props.C36_blake2s"
   ],
   "note": "observational: every later history of writes, sums and resets gives the same results"
  },
  {
   "property": "C37",
   "status": "partial",
   "theorems": [
    "Verif.Props.C37_sha3",
    "Verif.Props.C37_blake256",
    "Verif.Props.C37_blake512",
    "Verif.Props.C37_blake2s",
    "Verif.Props.C37_sm3_false",
    "Verif.Props.C37_sm3_sum",
    "Verif.Props.C37_sm3_partial"
   ],
   "note": "holds for SHA-3, BLAKE and BLAKE2s; the SM3 code violates it (refuted), the part that holds for SM3 is proved"
  },
  {
   "property": "C38",
   "status": "proved",
   "theorems": [
    "Verif.Props.C38_sm3",
    "Verif.Props.C38_sha3",
    "Verif.Props.C38_blake256",
    "Verif.Props.C38_blake512",
    "Verif.Props.C38_blake2s"
   ],
   "note": "every message"
  },
  {
   "property": "C39",
   "status": "proved",
   "theorems": [
    "Verif.Props.C39_sha3",
    "Verif.Props.C39_shake",
    "Verif.Props.C39_xorIn"
   ],
   "note": "the generic Go permutation; the amd64 assembly is C110"
  },
  {
   "property": "C40",
   "status": "proved",
   "theorems": [
    "Verif.Props.C40_shake128",
    "Verif.Props.C40_shake256",
    "Verif.Props.C40_write_after_read"
   ],
   "note": ""
  },
  {
   "property": "C41",
   "status": "partial",
   "theorems": [
    "Verif.Props.C41_clone_partial",
    "Verif.Props.C41_shake256_false"
   ],
   "note": "the code violates the property for SHAKE256 after a read; what the clone does instead is characterised exactly"
  },
  {
   "property": "C42",
   "status": "proved",
   "theorems": [
    "Verif.Props.C42_blake256",
    "Verif.Props.C42_blake512",
    "Verif.Props.C42_salt256",
    "Verif.Props.C42_salt512"
   ],
   "note": "messages below 2^61 bytes, any chunking, with and without salt"
  },
  {
   "property": "C43",
   "status": "proved",
   "theorems": [
    "Verif.Props.C43_blake2s_mac",
    "Verif.Props.C43_blake2s_mac_other",
    "Verif.Props.C43_blake2s_sum256",
    "Verif.Props.C43_blake2s_config"
   ],
   "note": ""
  },
  {
   "property": "C44",
   "status": "proved",
   "theorems": [
    "Verif.Props.C44_hash",
    "Verif.Props.C44_blake2s",
    "Verif.Props.C44_unknown"
   ],
   "note": "hash functions of the standard library and x/crypto are parameters"
  },
  {
   "property": "C45",
   "status": "partial",
   "theorems": [
    "Verif.Props.C45_unknown_type",
    "Verif.Props.C45_unknown_33"
   ],
   "note": "with the exception the code has: 33-byte points crash"
  },
  {
   "property": "C46",
   "status": "partial",
   "theorems": [
    "Verif.Props.C46_no_panic_partial",
    "Verif.Props.C46_panics_iff",
    "Verif.Props.C46_panics_iff_sm2",
    "Verif.Props.C46_pasta",
    "Verif.Props.C46_ed25519",
    "Verif.Props.C46_other",
    "Verif.Props.C46_panics_iff_all",
    "Verif.Props.C46_false_bad_prefix"
   ],
   "note": "the code violates the property; the crashing arguments are characterised exactly for every curve identifier (C46_panics_iff_all); it holds on ED25519 and Pasta"
  },
  {
   "property": "C47",
   "status": "proved",
   "theorems": [
    "Verif.Props.C47_reduce",
    "Verif.Props.C47_mulAdd"
   ],
   "note": "Every 64-byte input of ScReduce and every three 32-byte inputs of ScMulAdd, reduced or not; the result is the unique representative below the order."
  },
  {
   "property": "C48",
   "status": "proved",
   "theorems": [
    "Verif.Props.C48_linear",
    "Verif.Props.C48_mul",
    "Verif.Props.C48_invert",
    "Verif.Props.C48_toBytes",
    "Verif.Props.C48_fromBytes",
    "Verif.Props.C48_roundTrip"
   ],
   "note": "Values and limb bounds for every limb vector within the bounds the Go comments document (1.1*2^25, 1.65*2^26, 1.1*2^26); machine words wrap in the model, so the theorems show that no overflow changes the result."
  },
  {
   "property": "C49",
   "status": "proved",
   "theorems": [
    "Verif.Props.C49"
   ],
   "note": "every seed and message; SHA-512 is a parameter that returns 64 bytes"
  },
  {
   "property": "C50",
   "status": "partial",
   "theorems": [
    "Verif.Props.C50_exact",
    "Verif.Props.C50_clamped_partial",
    "Verif.Props.C50_fails"
   ],
   "note": "the code violates the property for scalars that clamping changes modulo the order; the exact condition for acceptance is proved for every scalar below 2^255"
  },
  {
   "property": "C51",
   "status": "partial",
   "theorems": [
    "Verif.Props.C51_ed25519",
    "Verif.Props.C51_x25519_partial",
    "Verif.Props.C51_x25519_false",
    "Verif.Props.C75_rejects"
   ],
   "note": "holds on ED25519_NORMAL and ED25519; on X25519 the top bit carries the sign of the key, so it is refuted there and the other two bits are proved; CURVE25519_SHA256 refuses every s not below the order"
  },
  {
   "property": "C52",
   "status": "partial",
   "theorems": [
    "Verif.Props.C52_x25519_partial",
    "Verif.Props.C52_empty_false",
    "Verif.Props.C52_sha256_empty_false",
    "Verif.Props.C52_sha256_partial",
    "Verif.Props.C52_sha256_false"
   ],
   "note": "X25519: proved for non-empty messages and scalars below 2^255 that are not multiples of the order, refuted for the empty message; CURVE25519_SHA256: refuted for the empty message and for the key with public key 9, proved for non-empty messages except when the public key is 9 or a coordinate is among the nineteen largest field elements; an example key meets the hypotheses"
  },
  {
   "property": "C53",
   "status": "partial",
   "theorems": [
    "Verif.Props.C53_clamps",
    "Verif.Props.C53_false_key",
    "Verif.Props.C53_verify_aug_partial",
    "Verif.Props.C53_false_verify_aug"
   ],
   "note": "the code violates the property on CURVE25519_SHA256 (the key is clamped in the caller's memory; exactly what changes is proved) and on BLS AUG Verify (the message is appended into the spare capacity of the caller's public key); the other calls are modelled as functions of the contents of their arguments"
  },
  {
   "property": "C54",
   "status": "proved",
   "theorems": [
    "Verif.Props.C54_ring",
    "Verif.Props.C54_montgomery",
    "Verif.Props.C54_bytes",
    "Verif.Props.C54_sqrt"
   ],
   "note": "both fields, all canonical words; conversions for all 256-bit values"
  },
  {
   "property": "C55",
   "status": "partial",
   "theorems": [
    "Verif.Props.C55_genPubkey",
    "Verif.Props.C55_signature",
    "Verif.Props.C55_roundtrip_partial",
    "Verif.Props.C55_false"
   ],
   "note": "the code violates the property: C55_false is an honest signature that Verify rejects; the round trip is proved for every key, message and nonce except s = -e d mod n with s nonzero, where the Jacobian addition misses the doubling"
  },
  {
   "property": "C56",
   "status": "partial",
   "theorems": [
    "Verif.Props.C56_residues",
    "Verif.Props.C56_false"
   ],
   "note": "the code violates the property: every accepted signature has a second accepted encoding; Verify depends on the residues only"
  },
  {
   "property": "C57",
   "status": "partial",
   "theorems": [
    "Verif.Props.C57_point_add",
    "Verif.Props.C57_point_mul",
    "Verif.Props.C57_mulBaseG",
    "Verif.Props.C57_mulBaseG_add_partial",
    "Verif.Props.C57_false_mulBaseG_add",
    "Verif.Props.C57_decompress",
    "Verif.Props.C57_false_prefix",
    "Verif.Props.C57_false_off_curve"
   ],
   "note": "group law on all encodings proved; the code violates the rejection part and the 65-byte form in Point_mulBaseG_add"
  },
  {
   "property": "C58",
   "status": "proved",
   "theorems": [
    "Verif.Props.C58_chunks"
   ],
   "note": "every state, every list of chunks"
  },
  {
   "property": "C59",
   "status": "partial",
   "theorems": [
    "Verif.Props.C59_genPubkey",
    "Verif.Props.C59_aggregate_partial",
    "Verif.Props.C59_order",
    "Verif.Props.C59_errors",
    "Verif.Props.C59_false_trailing"
   ],
   "note": "key acceptance and order independence proved for every input; the code violates the rejection part for elements with extra bytes after a valid point"
  },
  {
   "property": "C60",
   "status": "partial",
   "theorems": [
    "Verif.Props.C60_expand_partial",
    "Verif.Props.C60_in_range",
    "Verif.Props.C60_false_empty",
    "Verif.Props.C60_false_long_tag",
    "Verif.Props.C60_false_long_output"
   ],
   "note": "equal to RFC 9380 for every hash with 32-byte values, message, tag of at most 255 bytes and 1..8160 bytes; refuted outside: panic on length 0, no error for long tags or outputs"
  },
  {
   "property": "C61",
   "status": "partial",
   "theorems": [
    "Verif.Props.C61_no_crash_partial",
    "Verif.Props.C61_short_ciphertext_crashes"
   ],
   "note": "the code violates the property for 1 to 64 byte ciphertexts; exact crash range proved"
  },
  {
   "property": "C62",
   "status": "proved",
   "theorems": [
    "Verif.Props.C62_hmac_sm3",
    "Verif.Props.C62_hmac_sha2",
    "Verif.Props.C62_hmac_unknown"
   ],
   "note": "crypto/hmac is transcribed from the standard library's documentation; SHA-2 is a parameter"
  },
  {
   "property": "C63",
   "status": "partial",
   "theorems": [
    "Verif.Props.C44_hash",
    "Verif.Props.C44_blake2s",
    "Verif.Props.C44_blake2s_crash"
   ],
   "note": "the code violates the property for BLAKE2s; the crash condition is characterised exactly"
  },
  {
   "property": "C64",
   "status": "proved",
   "theorems": [
    "Verif.Props.C64_ed25519",
    "Verif.Props.C64_x25519"
   ],
   "note": "every public key, message and signature; SHA-512 is a parameter"
  },
  {
   "property": "C65",
   "status": "proved",
   "theorems": [
    "Verif.Props.C65_genPub",
    "Verif.Props.C65_length",
    "Verif.Props.C65_sign",
    "Verif.Props.C65_raw",
    "Verif.Props.C65_x25519"
   ],
   "note": "relative to SHA-512 as a parameter"
  },
  {
   "property": "C66",
   "status": "proved",
   "theorems": [
    "Verif.Props.C66_add",
    "Verif.Props.C66_mulBaseAdd",
    "Verif.Props.C66_derive"
   ],
   "note": "all decodable strings; scalars below 2^253"
  },
  {
   "property": "C67",
   "status": "proved",
   "theorems": [
    "Verif.Props.C67_xToEd",
    "Verif.Props.C67_edToX",
    "Verif.Props.C67_roundTrip",
    "Verif.Props.C67_keys"
   ],
   "note": "every 32-byte string"
  },
  {
   "property": "C68",
   "status": "partial",
   "theorems": [
    "Verif.Props.C68_malleable"
   ],
   "note": "the code violates the property: the second signature is constructed for every accepted one with s < 2^253 - order"
  },
  {
   "property": "C69",
   "status": "proved",
   "theorems": [
    "Verif.Props.C69_poseidon"
   ],
   "note": "every initial state and list of canonical elements, any chunks"
  },
  {
   "property": "C70",
   "status": "partial",
   "theorems": [
    "Verif.Props.C70_verify_partial",
    "Verif.Props.C70_excluded",
    "Verif.Props.C70_false",
    "Verif.Props.C70_reject"
   ],
   "note": "the code violates the property in the case sG = -eQ not infinity (addition misses the doubling): C70_false is a rejected solution of the Schnorr equation and C70_excluded says what Verify can do there; excluded otherwise: keys off the curve, message words that are not canonical"
  },
  {
   "property": "C71",
   "status": "partial",
   "theorems": [
    "Verif.Props.C71_false"
   ],
   "note": "the code violates the property: forgery for every message under the 65-byte form of any key"
  },
  {
   "property": "C72",
   "status": "proved",
   "theorems": [
    "Verif.Props.C72_child_key",
    "Verif.Props.C72_ecdh"
   ],
   "note": "all accepted keys"
  },
  {
   "property": "C73",
   "status": "proved",
   "theorems": [
    "Verif.Props.C73_decompress_compress"
   ],
   "note": "every point, infinity included"
  },
  {
   "property": "C74",
   "status": "partial",
   "theorems": [
    "Verif.Props.C74_rfc7748_partial",
    "Verif.Props.C74_length",
    "Verif.Props.C74_false_pack"
   ],
   "note": "every key whose u-coordinate is not one of the nineteen largest field elements; C74_false_pack shows the packing defect that makes the exclusion necessary"
  },
  {
   "property": "C75",
   "status": "proved",
   "theorems": [
    "Verif.Props.C75_accepts",
    "Verif.Props.C75_rejects"
   ],
   "note": "every input"
  },
  {
   "property": "C76",
   "status": "proved",
   "theorems": [
    "Verif.Props.C76_clamped"
   ],
   "note": "all pairs of keys"
  },
  {
   "property": "C77",
   "status": "partial",
   "theorems": [
    "Verif.Props.C77_field_partial",
    "Verif.Props.C77_bytes",
    "Verif.Props.C77_false_generic_square"
   ],
   "note": "all operations on amd64, for the multiplication of arithmetic_fallback.go, which the assembly agrees with except on the operands of C107 and C108; the squaring of the other builds is refuted"
  },
  {
   "property": "C78",
   "status": "partial",
   "theorems": [
    "Verif.Props.C78_g1_compressed",
    "Verif.Props.C78_g2_compressed",
    "Verif.Props.C78_injective",
    "Verif.Props.C78_false_trailing"
   ],
   "note": "exact acceptance proved; the code ignores bytes after the encoding"
  },
  {
   "property": "C79",
   "status": "partial",
   "theorems": [
    "Verif.Props.C79_g1",
    "Verif.Props.C79_g2"
   ],
   "note": "all subgroup points and scalars, for a field multiplication that is exact, which the assembly is except on the operands of C107 and C108"
  },
  {
   "property": "C80",
   "status": "partial",
   "theorems": [
    "Verif.Props.C80_rfc9380_partial",
    "Verif.Props.C80_total",
    "Verif.Props.C80_exists",
    "Verif.Props.C80_unique",
    "Verif.Props.C80_false_zero",
    "Verif.Props.C80_false_equal"
   ],
   "note": "all messages whose two field elements are not 0 and have different SWU images (opposite images included); both excluded cases are refuted: 0 by the map itself, equal images by a toy hash with constant value"
  },
  {
   "property": "C81",
   "status": "partial",
   "theorems": [
    "Verif.Props.C81_sign_nul_partial",
    "Verif.Props.C81_sign_aug_partial",
    "Verif.Props.C81_key_length",
    "Verif.Props.C81_false_illegal_key",
    "Verif.Props.C81_aggregate_partial"
   ],
   "note": "same exclusions as C80; the refusal of illegal keys is refuted"
  },
  {
   "property": "C82",
   "status": "partial",
   "theorems": [
    "Verif.Props.C82_rejects",
    "Verif.Props.C82_false_infinity",
    "Verif.Props.C82_false_panic",
    "Verif.Props.C82_false_unprefixed"
   ],
   "note": "lengths and malformed signatures proved rejected; refuted for the identity key (universal forgery) and malformed keys (panic)"
  },
  {
   "property": "C83",
   "status": "partial",
   "theorems": [
    "Verif.Props.C83_mulBaseG_add",
    "Verif.Props.C83_sum",
    "Verif.Props.C83_false_infinity"
   ],
   "note": "the sum is proved, given that the library g1pubs computes in the group; invalid points and scalars are proved to panic, which refutes the error part; the infinity flag is refuted"
  },
  {
   "property": "C84",
   "status": "partial",
   "theorems": [
    "Verif.Props.C84_roundtrip_nul_partial",
    "Verif.Props.C84_roundtrip_aug_partial"
   ],
   "note": "all keys and all messages whose hash is regular in the sense of C80; the external library g1pubs is assumed to compute the multiple of the generator"
  },
  {
   "property": "C85",
   "status": "partial",
   "theorems": [
    "Verif.Props.C85_keys",
    "Verif.Props.C85_exact_nul_partial",
    "Verif.Props.C85_exact_aug_partial",
    "Verif.Props.C85_one_key_partial"
   ],
   "note": "all keys and candidate signatures, all messages whose hash is regular in the sense of C80"
  },
  {
   "property": "C86",
   "status": "partial",
   "theorems": [
    "Verif.Props.C86_aggregate_partial"
   ],
   "note": "all lists of keys and signatures, all messages whose hash is regular in the sense of C80"
  },
  {
   "property": "C87",
   "status": "partial",
   "theorems": [
    "Verif.Props.C87_pair",
    "Verif.Props.C87_bilinear"
   ],
   "note": "all points, for a field multiplication that is exact, which the assembly is except on the operands of C107 and C108"
  },
  {
   "property": "C88",
   "status": "partial",
   "theorems": [
    "Verif.Props.C88_check",
    "Verif.Props.C88_validate",
    "Verif.Props.C88_generators"
   ],
   "note": "all points, for a field multiplication that is exact, which the assembly is except on the operands of C107 and C108"
  },
  {
   "property": "C89",
   "status": "partial",
   "theorems": [
    "Verif.Props.C89_arithmetic",
    "Verif.Props.C89_false_square"
   ],
   "note": "proved except that Square and Exp are right only on elements of order dividing r; refuted for other field elements, such as results of Add"
  },
  {
   "property": "C90",
   "status": "partial",
   "theorems": [
    "Verif.Props.C90_unmarshal",
    "Verif.Props.C90_encoding",
    "Verif.Props.C90_group_partial",
    "Verif.Props.C90_false_null",
    "Verif.Props.C90_false_sub"
   ],
   "note": "decoding, encoding and Add proved; Null is the field element 0 and Sub the field subtraction, both refuted"
  },
  {
   "property": "C91",
   "status": "partial",
   "theorems": [
    "Verif.Props.C91_g1_uncompressed",
    "Verif.Props.C91_g2_uncompressed",
    "Verif.Props.C91_plain",
    "Verif.Props.C91_false_subgroup"
   ],
   "note": "proved for the uncompressed form; the plain form is exact for points of the curve, but FromBytes accepts points outside the group (refuted)"
  },
  {
   "property": "C92",
   "status": "partial",
   "theorems": [
    "Verif.Props.C92_g1_partial",
    "Verif.Props.C92_g2_partial",
    "Verif.Props.C92_false_scalars",
    "Verif.Props.C92_false_long"
   ],
   "note": "the sum is proved for scalars of up to 256 bits; refuted: the caller's scalars are overwritten, longer scalars give a wrong sum"
  },
  {
   "property": "C93",
   "status": "partial",
   "theorems": [
    "Verif.Props.C93_g1",
    "Verif.Props.C93_g2",
    "Verif.Props.C93_subgroup",
    "Verif.Props.C93_false_receiver",
    "Verif.Props.C93_false_failed_decode"
   ],
   "note": "observations proved for every program with the receivers as the code has them; refuted: Null and Base leave the receiver alone, a failed decoding leaves an object that panics"
  },
  {
   "property": "C94",
   "status": "partial",
   "theorems": [
    "Verif.Props.C94_hash_partial",
    "Verif.Props.C94_encode_partial",
    "Verif.Props.C94_map_partial",
    "Verif.Props.C94_map_errors",
    "Verif.Props.C94_total",
    "Verif.Props.C94_unique",
    "Verif.Props.C94_exists",
    "Verif.Props.C94_false_kernel"
   ],
   "note": "proved away from equal SWU points and points in the kernel of the isogeny; refuted by a 48-byte input of MapToCurve that yields coordinates off the curve"
  },
  {
   "property": "C95",
   "status": "partial",
   "theorems": [
    "Verif.Props.C95_clear",
    "Verif.Props.C95_constants"
   ],
   "note": "for every point of both curves, for a field multiplication that is exact, which the assembly is except on the operands of C107 and C108"
  },
  {
   "property": "C96",
   "status": "partial",
   "theorems": [
    "Verif.Props.C96_encode_partial",
    "Verif.Props.C96_total"
   ],
   "note": "proved for every field element but 0; at 0 the map is wrong (C80_false_zero)"
  },
  {
   "property": "C97",
   "status": "partial",
   "theorems": [
    "Verif.Props.C97_g1_partial",
    "Verif.Props.C97_g1_total",
    "Verif.Props.C97_false_pick",
    "Verif.Props.C97_false_hash",
    "Verif.Props.C97_string",
    "Verif.Props.C97_false_string"
   ],
   "note": "G1's Hash and Pick and String within a group proved; refuted for G2: Pick never changes the point, Hash ignores messages without one of two prefixes, String names G1"
  },
  {
   "property": "C98",
   "status": "proved",
   "theorems": [
    "Verif.Props.C98_field",
    "Verif.Props.C98_scalar",
    "Verif.Props.C98_legendre",
    "Verif.Props.C98_words",
    "Verif.Props.C98_hex"
   ],
   "note": "on canonical words"
  },
  {
   "property": "C99",
   "status": "partial",
   "theorems": [
    "Verif.Props.C99_group_on_curve",
    "Verif.Props.C99_affine_on_curve",
    "Verif.Props.C99_group",
    "Verif.Props.C99_add_partial",
    "Verif.Props.C99_false_add",
    "Verif.Props.C99_false_negate"
   ],
   "note": "proved except addition of different coordinates of one point and negation; both refuted"
  },
  {
   "property": "C100",
   "status": "partial",
   "theorems": [
    "Verif.Props.C100_decompress",
    "Verif.Props.C100_bytes",
    "Verif.Props.C100_length",
    "Verif.Props.C100_mont_bytes",
    "Verif.Props.C100_false",
    "Verif.Props.C100_false_prefix"
   ],
   "note": "the round trip through bytes and the exact domain of Decompress proved; the direct round trip and the check of the leading byte refuted"
  },
  {
   "property": "C101",
   "status": "partial",
   "theorems": [
    "Verif.Props.C101_local",
    "Verif.Props.C101_false"
   ],
   "note": "the values computed are right; refuted: they are left in a copy of the array"
  },
  {
   "property": "C102",
   "status": "partial",
   "theorems": [
    "Verif.Props.C102_programs",
    "Verif.Props.C102_validate_partial",
    "Verif.Props.C102_pair",
    "Verif.Props.C102_false_mutates",
    "Verif.Props.C102_false_repeat",
    "Verif.Props.C102_false_alias"
   ],
   "note": "Pair proved; ValidatePairing proved for different first and third objects; refuted: it leaves the third argument negated, so a second identical call answers differently, and it is wrong when the first and third argument are one object"
  },
  {
   "property": "C103",
   "status": "partial",
   "theorems": [
    "Verif.Props.C103_histories",
    "Verif.Props.C103_partial",
    "Verif.Props.C103_false_shared"
   ],
   "note": "every history described; the expected product proved when no G1 point is handed over twice; refuted for a shared point"
  },
  {
   "property": "C104",
   "status": "partial",
   "theorems": [
    "Verif.Props.C104_genPubkey_partial",
    "Verif.Props.C104_order",
    "Verif.Props.C104_same_key_partial"
   ],
   "note": "missing: public keys among the nineteen largest field elements, where the packing is wrong"
  },
  {
   "property": "C105",
   "status": "partial",
   "theorems": [
    "Verif.Props.C105_signingKey",
    "Verif.Props.C105_signature_partial",
    "Verif.Props.C105_verify_partial",
    "Verif.Props.C105_keys",
    "Verif.Props.C105_false_nine"
   ],
   "note": "refuted for the private key with public key 9; missing: coordinates among the nineteen largest field elements; SHA-256 is a parameter with 32-byte values"
  },
  {
   "property": "C106",
   "status": "proved",
   "theorems": [
    "Verif.Props.C106_add",
    "Verif.Props.C106_sub",
    "Verif.Props.C106_double_neg",
    "Verif.Props.C106_lazy",
    "Verif.Props.C106_same"
   ],
   "note": "every machine state on entry: all registers, flags, memory contents and pointers"
  },
  {
   "property": "C107",
   "status": "partial",
   "theorems": [
    "Verif.Props.C107_adx_partial",
    "Verif.Props.C107_adx_exact",
    "Verif.Props.C107_false",
    "Verif.Props.C107_false_point"
   ],
   "note": "refuted: a carry is dropped at the end of five reduction steps; proved for operands without such a carry, and the exact condition in terms of the overflow flag"
  },
  {
   "property": "C108",
   "status": "partial",
   "theorems": [
    "Verif.Props.C108_noadx_exact",
    "Verif.Props.C108_noadx_partial",
    "Verif.Props.C108_false",
    "Verif.Props.C108_false_point"
   ],
   "note": "refuted: wrong exactly when a word of the Montgomery quotient is 1, proved in both directions for all operands"
  },
  {
   "property": "C109",
   "status": "partial",
   "theorems": [
    "Verif.Props.C109_partial",
    "Verif.Props.C109_false"
   ],
   "note": "refuted for mulNoADX and mulAssignNoADX, proved for the other thirteen functions"
  },
  {
   "property": "C110",
   "status": "proved",
   "theorems": [
    "Verif.Props.C110_spec",
    "Verif.Props.C110_same",
    "Verif.Props.C110_only",
    "Verif.Props.C110_hashes",
    "Verif.Props.C110_digest",
    "Verif.Props.C110_shake"
   ],
   "note": "every machine state on entry; keccakf_amd64.s instruction by instruction with its macro arguments; the sponge with xor_unaligned.go, for every sequence of calls"
  },
  {
   "property": "C111",
   "status": "partial",
   "theorems": [
    "Verif.Props.C02_point_mul_sm2_partial",
    "Verif.Props.C05_genPubkey_sm2_partial",
    "Verif.Props.C19_child_key_sm2_partial",
    "Verif.Props.C20_ecdh_sm2_partial",
    "Verif.Props.C22_false_point_mul"
   ],
   "note": "proved for every run without the field underflow of C22; refuted in full: C22_false_point_mul is a Point_mul with a wrong result"
  },
  {
   "property": "C112",
   "status": "partial",
   "theorems": [
    "Verif.Props.C112_step",
    "Verif.Props.C112_loop",
    "Verif.Props.C112_precomp",
    "Verif.Props.C112_inverse_partial",
    "Verif.Props.C112_false",
    "Verif.Props.C112_false_documented"
   ],
   "note": "the words computed are a division step and, when the loop reaches 0, the inverse; missing: that 738 steps always reach 0; refuted: the results are left in copies of the arrays, and the documented conditions are too weak (even f, least counter, wrap-around)"
  },
  {
   "property": "C113",
   "status": "proved",
   "theorems": [
    "Verif.Props.C113_g1",
    "Verif.Props.C113_g2",
    "Verif.Props.C113_g2_fe",
    "Verif.Props.C113_values"
   ],
   "note": "calls as programs over a memory of base field elements; every history, every aliasing; amd64 build as in C79"
  },
  {
   "property": "C114",
   "status": "partial",
   "theorems": [
    "Verif.Props.C114_g1",
    "Verif.Props.C114_g2",
    "Verif.Props.C114_g2_fe",
    "Verif.Props.C114_false_shared_g1",
    "Verif.Props.C114_false_shared_g2"
   ],
   "note": "every schedule of base field operations of any family of goroutines with their own group objects, and termination; refuted for a shared group object: a schedule in which Double returns the negative"
  },
  {
   "property": "C115",
   "status": "proved",
   "theorems": [
    "Verif.Props.C115_gt",
    "Verif.Props.C115_values"
   ],
   "note": "the base field operations of fp12.go, fp6.go and fp2.go on memory; every history, every aliasing; values for any words and both builds; Square and Exp of other elements are C89"
  },
  {
   "property": "C116",
   "status": "partial",
   "theorems": [
    "Verif.Props.C116_partial",
    "Verif.Props.C116_false_shared"
   ],
   "note": "every schedule of base field operations of any family of goroutines with their own GT objects, and termination; refuted for a shared GT object: a schedule in which Mul returns the inverse of the product"
  },
  {
   "property": "C117",
   "status": "partial",
   "theorems": [
    "Verif.Props.C117_numbers_partial",
    "Verif.Props.C117_tests_partial",
    "Verif.Props.C117_text",
    "Verif.Props.C117_montgomery",
    "Verif.Props.C117_false_one",
    "Verif.Props.C117_false_range"
   ],
   "note": "every conversion and test described for all arguments; refuted: IsOne is false after SetOne, SetBig loses the sign and all but the 48 leading bytes; SetString panics exactly on strings of fewer than two bytes"
  },
  {
   "property": "C118",
   "status": "partial",
   "theorems": [
    "Verif.Props.C118_partial",
    "Verif.Props.C118_false_one"
   ],
   "note": "Set, IsOne (both) and Equal for all words; refuted for One, which leaves its receiver unchanged"
  },
  {
   "property": "C119",
   "status": "partial",
   "theorems": [
    "Verif.Props.C119_roundtrip",
    "Verif.Props.C119_api_partial"
   ],
   "note": "the byte form is read back for every message, and signing and verifying it concern that message; missing: the case of Verify that C70 excludes, and JSON texts with backslashes or bytes outside ASCII in strings are not modelled (ToBytes writes none)"
  },
  {
   "property": "C120",
   "status": "partial",
   "theorems": [
    "Verif.Props.C120_partial",
    "Verif.Props.C120_false_member",
    "Verif.Props.C120_false_zero",
    "Verif.Props.C120_false_texts"
   ],
   "note": "proved: a signature with r not 0 modulo p that is accepted for two texts makes their challenges equal modulo the order; refuted beyond that: unknown members can be added to the bytes of every message, a zero field can be appended to every message with an even number of fields, and several texts are read as one message; that no other collision can be found is a computational assumption on Poseidon"
  },
  {
   "property": "C121",
   "status": "partial",
   "theorems": [
    "Verif.Props.C121_reader_partial",
    "Verif.Props.C121_message_partial",
    "Verif.Props.C121_api_partial"
   ],
   "note": "proved for encoding/json as modelled: texts with a backslash or a byte outside ASCII inside a string are refused by the model (Go unquotes them), and the limit of 10000 nested values is left out"
  },
  {
   "property": "C122",
   "status": "partial",
   "theorems": [
    "Verif.Props.C122_g1",
    "Verif.Props.C122_g2_partial",
    "Verif.Props.C122_gt",
    "Verif.Props.C122_groups",
    "Verif.Props.C122_false_name"
   ],
   "note": "refuted for the name in the text of G2 elements (g2.go:134 writes bls12-381.G1); everything else proved, for the amd64 build"
  }
 ]
}