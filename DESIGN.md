# Formal model of go-owcrypt in Lean 4

## Layout

| module (lean/Verif/…) | what it models |
|---|---|
| `Bytes` | byte strings (`List UInt8`), `big.Int.SetBytes/Bytes`, zero padding, big/little endian |
| `BigInt` | `big.Int` `Mod`, `ModInverse`, `Exp`, `ModSqrt` (p = 3 mod 4) on `Int`/`Nat` |
| `Go` | the outcome of a Go call: a value or a panic |
| `Primes/*` | Pratt certificates for the curve primes |
| `EC/*` | short Weierstrass curves over `ZMod p`, Mathlib's group law, Jacobian formulas |
| `Secp256k1/*`, `Secp256r1/*` | secp256k1.go, secp256r1.go: model, refinement to the group law |
| `ECDSA/*` | ecdsa.go, utils.go, generic over a curve implementation; textbook spec |
| `SM2/*` | sm2_std.go: limb arithmetic, points, signature, encryption, key agreement |
| `Hash/*` | sm3, sha3, blake256, blake512, blake2s, crypto/hmac: model, specification |
| `Ed25519/*` | eddsa (ed25519.go, curve25519.go, x25519.go, convert.go) and eddsa/edwards25519; twisted Edwards group law |
| `C25519/*` | eddsa/curve25519_sha256.go; `C25519/Spec` is RFC 7748 |
| `Pasta/*` | pasta: both fields, group, Poseidon, Schnorr signatures |
| `Bls/Fe … Inverse` | bls12_381/bls: base field (arithmetic_fallback.go, fp.go), Montgomery form, inversion, square root |
| `Bls/Fp2*`, `Bls/Group*` | fp2.go, g1.go, g2.go; `GroupSpec` is the curves and the zcash encodings |
| `Bls/Xmd*`, `Bls/Hash*` | hash_to_field.go, swu.go, isogeny.go, HashToCurve; `XmdSpec`, `HashSpec` are RFC 9380 |
| `Bls/Tower*`, `Bls/Pairing*` | fp6.go, fp12.go, pairing.go; `PairingSpec` is the ate pairing |
| `Bls/GT*` | bls12_381/bls/gt.go, bls12_381/gt.go |
| `Bls/Miller*`, `Bilinear`, `NonDeg`, `Eigen`, `GroupOrder`, `VerifyLemmas`, `EC/Lines`, `EC/Cocycle` | proofs about the pairing |
| `Bls/Scheme*` | bls12-381.go, bls12_381/g1.go, g2.go, scalar.go |
| `Api/*` | eccset.go / hashset.go dispatch; `Api/Memory`: the two calls that write to caller memory |
| `Props/*` | the property theorems, each with a case that meets its hypotheses |

Each area has a `Model` file (transcription of the Go code with file/line citations), where useful a
`Spec` file (textbook definition that does not mention the model), lemma files, and a `Props` file
holding only property theorems with non-vacuity examples.

## General modelling decisions

* `[]byte` is `List UInt8`; `nil` and the empty slice are identified except where the code
  distinguishes them observably (`ID == nil` in SM2), where `Option` is used. Slices have no spare capacity, except in
  `Api/Memory`, which models offsets, lengths and capacities in one memory (C53).
* `*big.Int` is `Int` (or `Nat` when non-negative); Go's `Mod` is Euclidean, i.e. `Int.emod`.
* `ModInverse` is the extended Euclidean algorithm and returns `none` (Go: `nil`) when not coprime.
  A later use of a nil pointer, a slice out of range and an explicit panic are the outcome `Go.panic`.
* Randomness (crypto/rand, AES-CTR seeded from SHA-512) is an arbitrary stream of byte strings. All
  theorems quantify over the stream, so nothing is assumed about its distribution. Retry loops take
  the stream as fuel; theorems hold for every stream for which the loop ended.
* External code is a parameter: crypto/elliptic for P-256 (with `CurveOk` as a hypothesis and a reference implementation that meets it),
  SHA-1, SHA-2, MD4, MD5, RIPEMD-160, BLAKE2b, AES, encoding/json (except in C119 to C121), kyber's BLS scheme (transcribed in `Bls/Scheme` from its documentation),
  phoreproject/bls (structure `Phore`).
* Machine words wrap (`UInt32`, `UInt64`, `Int64` arithmetic of Lean), so overflow is part of the model.
* Mutation through pointers becomes returning the new value. Aliasing is modelled only where a property is about it.
* SM2 limb arithmetic carries a ghost flag (`Run` monad): it records whether the subtraction in the Montgomery reduction ever went below
  zero (C22). The flag never influences a value. SM2 theorems about group operations are about runs in which it stays clear.
* Loops over fixed tables are recursion over lists; a Go loop that mutates three arrays at once (`triLoop` in the Ed25519 tables) is a fold over
  their zip.
* `x25519_sc_reduce` in eddsa/x25519.go is word for word `ScReduce` and is modelled by the same definition.

## Properties: what is modelled and how it is proved

* C01 C02 – model of secp256k1.go over `Int`; relation `Rep` between Jacobian triples and Mathlib's
  `WeierstrassCurve.Affine.Point` over `ZMod P`; each Go function preserves `Rep`; scalar
  multiplication by induction over the bit string.
* C03 – Pratt certificates checked by the kernel; order of G by evaluating the model's scalar
  multiplication in the kernel plus C02.
* C04 C05 C06 C10 C12 – case analysis over the model of genPublicKey/sign/verify plus C02/C03.
* C07 C08 C09 C11 C13 – generic ECDSA over any implementation satisfying `CurveOk` (group law on
  valid points); `CurveOk` proved for the secp256k1 model, assumed as a hypothesis for the external
  crypto/elliptic P-256 (with a reference implementation showing it can be met).
* C14 C15 C16 – model of recover; C14 is refuted for hash = 0 mod N and proved for all other
  hashes; C16 refuted.
* C17 C18 – Euler criterion for p = 3 mod 4; C18 refuted.
* C19 C20 C21 – corollaries of C01/C02; C21 refuted on P-256 / SM2, proved on secp256k1.
* C22 C23 C25 – limb-level model with 32/64-bit wraparound; C22/C23 refuted with concrete operands;
  conditional theorem for operands without underflow.
* C24 C26 C27 C28 C29 C30 C31 C32 C33 C34 – SM2 protocol model over the field-level point operations
  of sm2_std.go (limb arithmetic modelled word by word; a ghost flag marks the runs with the limb underflow of C22).
* C35 C36 C37 C38 C39 C40 C41 C42 C43 – per hash: streaming state machine, abstraction function
  "bytes absorbed so far", invariants by induction over operations; compression functions against
  loop-form specifications.
* C44 C45 C46 C63 – dispatch models. C46 has one exact crash condition over all 2^32 curve identifiers (`Props/PointPanic`).
* C112 – the straight-line code of `DivStep` on five-word two's complement numbers (`Pasta/DivStep`) against the step of the paper
  (`Pasta/DivStepSpec`); invariants of the loop by induction (coprimality, `a·v = 2^n·f`). That 738 steps suffice is not proved.
* C111 – the SM2 forms of C02, C05, C19 and C20, in runs without the underflow of C22; refuted without that condition.
* C113 C114 – the point operations as programs over a memory in which objects and the temporaries of a group object are locations
  (`Bls/Alias`, `Bls/AliasCalls`), against assignments to numbered variables (`Bls/AliasSpec`).  Schedules interleave single field
  operations; each goroutine is shown to see what it would see alone (footprints, induction over the schedule).  C114 is refuted for a
  shared group object.  For G2 the statements are calls into fp2.go; `Bls/Lower` replaces each by its base field operations on the
  temporaries of the fp2 object, and `C113_g2_fe`, `C114_g2_fe` are about the result.
* C115 C116 – fp2.go, fp6.go and fp12.go as lists of base field operations over a memory with the temporaries of each level (`Bls/TowerMem`,
  `Bls/GTMem`); each level is proved for all ways of naming the same object over the level below, then induction over the history.
  For C116 the footprints of each level (`Bls/GTSched`) and the schedules of C114; refuted for a shared GT object.
* C119 C120 – encoding/json for `MinaMessage` (`Pasta/Json`: `Marshal`, the grammar of JSON with fuel, the assignment to the structure), in place
  of the parameter `parse` of the other Pasta properties; by induction over the arrays.  C120 is refuted on the bytes (unknown members) and on
  the fields (the sponge does not see a zero after an odd number of elements); `C120_partial` bounds the damage to equal challenges.
* C121 – the grammar of RFC 8259 as inductive predicates and the shapes of the members (`Pasta/JsonSpec`, which does not mention the reader);
  soundness by induction over the fuel, completeness by induction over the derivation (`Pasta/JsonGrammar`).
* C122 – names, sizes and `String` methods (`Bls/Text`) over C78 and C90; refuted for the name in G2.
* C117 C118 – the exported methods of coordinates and target group elements (`Bls/FeText`) against the number of the six words and against
  hexadecimal spellings as an inductive relation; refuted for `IsOne` after `SetOne`, for `SetBig` out of range and for `E.One`.
* C62 – crypto/hmac transcribed over the same hash objects as C36/C37.
* C47 C48 C49 C50 C51 C52 C64 C65 C66 C67 C68 – limb-level models of edwards25519 with bounds on every limb; twisted Edwards group law
  (completeness from the non-squareness of d); signatures against RFC 8032.
* C53 – memory model of the two calls that write into slices of the caller.
* C54 C55 C56 C57 C58 C69 C70 C71 C72 C73 – pasta: word-level Montgomery arithmetic for both fields, group law, Tonelli–Shanks, Poseidon.
* C59 C60 C77 C78 C79 C80 C81 C82 C83 – BLS12-381: word-level base field, quadratic extension, group law through a generic structure
  (`Sem`) instantiated for G1 and G2, encodings, RFC 9380 hashing, the signature scheme.
* C84 C85 C86 C87 C88 – the pairing. The specification (`Bls/PairingSpec`) is Miller's function over `Fq2[w]/(w⁶ - (1+u))` and the final power.
  The program is refined to it (tower arithmetic, Frobenius tables, cyclotomic squaring, line functions, Miller loop, final exponentiation).
  Mathlib has no divisors, so bilinearity is proved by hand: the line cocycle identity (`EC/Lines`, `EC/Cocycle`) makes Miller's function
  multiplicative up to factors the final power kills (`Bls/Bilinear`, using that the Frobenius is multiplication by q on the second group,
  `Bls/Eigen`). Non-degeneracy is one kernel computation of the pairing of the generators (`Bls/NonDeg`) lifted to all points by the
  cyclicity of the subgroups, for which the numbers of points of both curves are derived from Gauss's count for `y² = x³ + b`
  (`Bls/GroupOrder`, `Bls/VerifyLemmas`).
* C89 C90 – gt.go on both levels against the field `Fq12`.
* C91 – encodings, through the generic structure `Sem`. C92 – the bucket method, by a weighted-sum invariant over the buckets and a Horner
  invariant over the windows. C93 – refinement between two state machines: stores of projective points and stores of group elements.
* C94–C97 (Bls/HashG1*.lean, EC/Omega.lean, Bls/Cofactor1.lean, Bls/KyberHash.lean, Props/Bls5.lean) – the SWU map by cases on squares, the
  11-isogeny by a polynomial identity checked once in `Fq[x]`, `r(1 - x)P = 0` from four points whose images under `(x, y) ↦ (βx, y)` are
  independent of them (so the torsion is not cyclic), `hash_to_field` as in C80.  The kernel points are found with explicit coordinates.
* C98–C101 (Pasta/Helpers.lean, Props/Pasta2.lean) – the exported helper functions of package pasta on top of the field and group lemmas of
  C54 and C57: `FieldPow` by induction over the bits, the curve tests by cases on `Z`, `hex.DecodeString` against an inductive relation
  (`Spells`), `Decompress` on every destination; arrays passed by value are a function that returns the caller's array.
* C102, C103 (Bls/Suite.lean, SuiteSpec.lean, SuiteLemmas.lean, SuiteIdeal.lean, Props/Bls6.lean) – the engine on tables of point objects, with
  references and in-place normalisation and negation; simulation of a machine over group elements (invariant: every referenced object is in
  affine form and not infinity); then a second, expected machine without references, which the first one equals when no G1 object is handed over twice.
* C61 – SM2 decryption model over Go results with an explicit panic outcome; exact crash range of lengths.
* C74 C75 C76 – curve25519_sha256.go: ten-limb arithmetic, Montgomery ladder against RFC 7748, packing, long division.
* C52 C104 C105 (CURVE25519_SHA256 signatures) – the curve is Mathlib's Weierstrass curve `y² = x³ + 486662x² + x`; the ladder, the recovery of y,
  the sum and difference of points, the three-way ladder of `Verify`, the extended gcd on bytes and the base-256 division are each shown
  to compute the group or integer operation; the order of the base point is proved prime with a Pratt certificate.

* C106–C109 (X86/*.lean, Props/Asm.lean) – a machine with fourteen registers, two flags, three frame words and memory; the fifteen functions as lists
  of instructions; one lemma for each row and each reduction step (generated: symbolic execution, then a linear combination of the
  equations of the instructions), composed into an equation `A*B + M*Q = 2^384*R + lost`; `lost` is a sum of distinct powers of two and never
  a multiple of Q unless it is 0 (all 63 and 31 cases), which gives "right if and only if nothing is lost".  Wrong operands were found with a
  lattice search and are evaluated in the kernel.
* C110 (X86/Keccak*.lean, Props/Keccak.lean) – the 25 words of the array, the 25 of the frame and fourteen registers; one lemma per kind of round by
  symbolic execution, bitwise equality with a round of FIPS 202 up to six complemented words, an invariant on the three column sums and
  two words kept in registers between rounds, and induction over the pairs of rounds; the sponge over the assembly and xor_unaligned.go agrees
  with the portable one on every reachable state (an invariant of rate, offset and buffer length).

## Where the code and the property disagree

Each item is a theorem of the project (a negation with a witness, or a universally quantified description of the wrong behaviour).

* C14 RecoverPubkey on secp256k1 for a hash that is 0 mod N; C16 it crashes on some inputs; C18 PointDecompress returns points off the curve.
* C21/C24 SM2 Point_add and the SM2 verification equation treat equal summands as infinity; P-256 Point_add reports infinity when x = 0.
* C22/C23 the SM2 field reduction underflows; a curve point is rejected.
  Point_mul doubles that point to coordinates that are not on the curve and reports SUCCESS.
* C26/C27/C28/C30/C32/C33/C34/C61 SM2: signatures that do not verify, crashes, unchecked integrity tag, key released although the check failed,
  wrong output length from 8192 bytes, wrong recovered key, crash on short ciphertexts.
* C37 SM3 `Sum` disturbs the state; C41 a SHAKE clone after a read; C63 BLAKE2s digest length crash; C45/C46 33-byte points crash.
* C50/C51/C52/C68 Ed25519 variants: clamped scalars, top bits, empty messages, malleability by adding the order.
* C53 CURVE25519_SHA256 clamps the key in the caller's memory, BLS AUG Verify appends to the caller's public key.
* C55/C70 Pasta verification misses a doubling (an honest signature that is rejected: key (n-1)/2, nonce 2, challenge 2); C56 second encoding of signatures; C57 wrong results for 65-byte points; C71 forgery under the 65-byte form of a key.
* C59/C78 bytes after a compressed BLS point are ignored; C60 expand_message_xmd outside its range.
* C52/C105 CURVE25519_SHA256: the private key 5L - 1 has public key 9; the y-coordinate is recovered wrongly and honest signatures are rejected.
* C107 C108 the two assembly multiplications of the BLS12-381 base field are wrong on some canonical operands: `mulADX` drops the overflow flag at the end
  of five reduction steps, `mulNoADX` takes the flag that MULQ sets (upper word not zero) for the carry of an addition, which fails when a word of
  the quotient is 1.  `G1.FromBytes` rejects points of the curve for this reason.  Together with C77 no build of the package multiplies and squares
  correctly on all operands.  C109 `mulNoADX` and `mulAssignNoADX` overwrite the saved frame pointer.
* C74 packing of the nineteen largest field elements.
* C77 `square` in arithmetic_fallback.go (non-amd64) loses a carry.
* C80 the simplified SWU map at u = 0 uses the wrong sign of 1/Z; two equal SWU images are doubled with the formula of a curve with
  a = 0, and the result is off the curve (shown for a toy hash with constant value; no message with this is known for SHA-256).
* C81 BLS signing accepts keys GenPubkey refuses; C82 identity key verifies everything, malformed key crashes Verify; C83 crash instead of error, and the
  infinity flag is not understood.
* C91 FromBytes accepts points outside the group; C92 MultiExp zeroes the caller's scalars and is wrong for scalars beyond the last window;
  C93 Null and Base do not set their receiver, a failed UnmarshalBinary leaves an object that panics;
  C102/C103 ValidatePairing and AddPairInv negate the caller's point in place, so answers change with the history and with sharing;
  C94 MapToCurve returns a point off the curve for inputs that SWU maps to the kernel of the isogeny (the code divides by 0 where RFC 9380
  asks for infinity), and HashToCurve doubles on E1' with the formula for a = 0; C99 GroupAdd of two different
  coordinates of one point gives infinity, GroupNegate and AffineNegate return their argument; C100 Decompress does not invert Compress, a
  bad leading byte is not an error; C101 results left in copies of arrays; C97 Pick of G2 returns its receiver unchanged for every
  stream, Hash of G2 ignores messages without one of the two tags, String of G2 says G1, Hash of G1 uses the tag of a G2 suite.
* C89 GT.Square and GT.Exp are wrong outside the subgroup; C90 OwcryptGT.Null is 0 and OwcryptGT.Sub subtracts field elements.

## Trusted base

* Lean 4.33.0's kernel, and the axioms listed below.
* The faithfulness of the transcription: every model definition cites the file and lines it models.
* Modelled: all functions of eccset.go, hashset.go, ecdsa.go, secp256k1.go, secp256r1.go, sm2_std.go, utils.go; packages sm3, sha3 (both
  keccakf.go and keccakf_amd64.s), blake256, blake512, blake2s, eddsa, eddsa/edwards25519, pasta and bls12_381 as far as eccset.go reaches them.
* Not modelled:
  * Verif/X86 models bls12_381/bls/arithmetic_x86.s instruction by instruction, with the semantics of eleven amd64 instructions (Machine.lean) as
    a further part of the trusted base, and sha3/keccakf_amd64.s with six (Keccak.lean).  The theorems about curves, pairings and signatures of BLS12-381 (C59, C60, C77–C97, C102, C103) do not build on it but on
    the functions of arithmetic_fallback.go with squaring as a product; C106–C108 say exactly how far this is the assembly: always for
    `add`, `sub`, …, and for a multiplication unless its operands are of the kind on which the assembly is wrong.  These theorems
    therefore hold for the runs of the amd64 build in which no multiplication meets such operands.
  * bls12_381: the rest of the kyber plumbing (the constructors of group.go, `MarshalTo`), random field elements;
  * `Size`/`BlockSize` constants, table initialisation in init.go/curve.go, logging, timing and side channels, concurrency except in C114 and C116
    (the library starts no goroutine and shares no mutable state between calls other than the tables set at start-up);
  * the external packages named above.

### Axioms

`#print axioms` on every theorem of MANIFEST.json (all in namespace `Verif.Props`). No theorem uses any other axiom; none is declared in the project.

* **propext** only: `C53_false_verify_aug`, `C59_errors`, `C74_false_pack`, `C77_false_generic_square`, `C89_false_square`, `C120_false_texts`
* **propext, Quot.sound** only: `C14_false_at_zero_hash`, `C18_false_off_curve`, `C28_verify_total`, `C30_always_success`, `C34_recover_solves_ecdsa`, `C36_sm3`, `C36_blake`, `C37_sm3_false`, `C38_sm3`, `C38_blake256`, `C38_blake512`, `C43_blake2s_mac_other`, `C44_unknown`, `C45_unknown_type`, `C45_unknown_33`, `C46_ed25519`, `C46_other`, `C53_verify_aug_partial`, `C58_chunks`, `C59_genPubkey`, `C60_expand_partial`, `C60_in_range`, `C60_false_empty`, `C60_false_long_tag`, `C60_false_long_output`, `C61_no_crash_partial`, `C61_short_ciphertext_crashes`, `C62_hmac_sha2`, `C62_hmac_unknown`, `C44_blake2s_crash`, `C65_length`, `C74_length`, `C83_mulBaseG_add`, `C97_false_pick`, `C97_false_hash`, `C100_length`, `C101_false`, `C107_false`, `C108_false`, `C109_false`, `C112_false_documented`, `C122_false_name`
* **propext, Classical.choice, Quot.sound** (the three standard axioms): `C01_point_add`, `C02_point_mul`, `C02_point_mul_r1`, `C02_scalarMult`, `C03_group_orders`, `C03_secp256k1_order`, `C03_secp256r1_order`, `C03_sm2_order`, `C04_genPubkey_k1`, `C04_genPubkey_r1`, `C04_genPubkey_sm2`, `C05_genPubkey_encoding`, `C05_genPubkey_encoding_r1`, `C06_genPubkey_injective`, `C06_genPubkey_injective_r1`, `C07_sign_verify_k1`, `C08_sign_verify_r1`, `C09_canonical_k1`, `C09_canonical_r1`, `DerMinimal_bytes`, `C10_signature_errors_k1`, `C10_signature_errors_r1`, `C11_verify_iff_textbook`, `C11_verify_iff_textbook_r1`, `C12_verify_rejects_k1`, `C12_verify_rejects_r1`, `C12_no_nil_inverse`, `C13_malleability_k1`, `C13_malleability_r1`, `C13_malleability`, `C14_recover_signer_k1_partial`, `C14_recover_signer_r1_partial`, `C15_recover_sound`, `C15_recover_sound_r1`, `C16_recover_returns_partial`, `C16_recover_panics_iff`, `C16_recover_panics_iff_r1`, `C16_false_at_zero_r`, `C17_decompress_compress_k1`, `C17_decompress_compress_r1`, `C17_decompress_compress_sm2`, `C18_decompress_k1_partial`, `C18_decompress_r1_partial`, `C18_decompress_sm2_partial`, `C19_child_key`, `C19_child_key_r1`, `C20_ecdh`, `C20_ecdh_r1`, `C21_add_infinity_k1`, `C21_add_r1_partial`, `C21_false_r1`, `C21_add_sm2_partial`, `C22_field_mul_partial`, `C22_false`, `C22_false_point_mul`, `C23_on_curve_partial`, `C23_false`, `C24_add_self_fails`, `C24_false`, `C25_field_linear`, `C26_sign_verify_sm2_partial`, `C26_false_r_plus_k`, `C26_false_equal_points`, `C27_no_crash_partial`, `C27_last_key_never_signs`, `C27_false`, `C28_verify_range`, `C28_verify_iff_standard_partial`, `C28_verify_equal_points`, `C28_false_equal_points`, `C29_ciphertext_shape`, `C29_encrypt_decrypt_partial`, `C30_false`, `C31_agreement_partial`, `C31_step2_iff`, `C32_key_always_released`, `C32_false`, `C33_length_initiator`, `C33_length_responder`, `C33_length_partial`, `C33_false`, `C34_false`, `C35_sm3`, `C35_sm3_oneshot`, `C36_sha3`, `C36_blake2s`, `C37_sha3`, `C37_blake256`, `C37_blake512`, `C37_blake2s`, `C37_sm3_sum`, `C37_sm3_partial`, `C38_sha3`, `C38_blake2s`, `C39_sha3`, `C39_shake`, `C39_xorIn`, `C40_shake128`, `C40_shake256`, `C40_write_after_read`, `C41_clone_partial`, `C41_shake256_false`, `C42_blake256`, `C42_blake512`, `C42_salt256`, `C42_salt512`, `C43_blake2s_mac`, `C43_blake2s_sum256`, `C43_blake2s_config`, `C44_hash`, `C44_blake2s`, `C46_no_panic_partial`, `C46_panics_iff`, `C46_panics_iff_sm2`, `C46_pasta`, `C46_panics_iff_all`, `C46_false_bad_prefix`, `C47_reduce`, `C47_mulAdd`, `C48_linear`, `C48_mul`, `C48_invert`, `C48_toBytes`, `C48_fromBytes`, `C48_roundTrip`, `C49`, `C50_exact`, `C50_clamped_partial`, `C50_fails`, `C51_ed25519`, `C51_x25519_partial`, `C51_x25519_false`, `C75_rejects`, `C52_x25519_partial`, `C52_empty_false`, `C52_sha256_empty_false`, `C52_sha256_partial`, `C52_sha256_false`, `C53_clamps`, `C53_false_key`, `C54_ring`, `C54_montgomery`, `C54_bytes`, `C54_sqrt`, `C55_genPubkey`, `C55_signature`, `C55_roundtrip_partial`, `C55_false`, `C56_residues`, `C56_false`, `C57_point_add`, `C57_point_mul`, `C57_mulBaseG`, `C57_mulBaseG_add_partial`, `C57_false_mulBaseG_add`, `C57_decompress`, `C57_false_prefix`, `C57_false_off_curve`, `C59_aggregate_partial`, `C59_order`, `C59_false_trailing`, `C62_hmac_sm3`, `C64_ed25519`, `C64_x25519`, `C65_genPub`, `C65_sign`, `C65_raw`, `C65_x25519`, `C66_add`, `C66_mulBaseAdd`, `C66_derive`, `C67_xToEd`, `C67_edToX`, `C67_roundTrip`, `C67_keys`, `C68_malleable`, `C69_poseidon`, `C70_verify_partial`, `C70_excluded`, `C70_false`, `C70_reject`, `C71_false`, `C72_child_key`, `C72_ecdh`, `C73_decompress_compress`, `C74_rfc7748_partial`, `C75_accepts`, `C76_clamped`, `C77_field_partial`, `C77_bytes`, `C78_g1_compressed`, `C78_g2_compressed`, `C78_injective`, `C78_false_trailing`, `C79_g1`, `C79_g2`, `C80_rfc9380_partial`, `C80_total`, `C80_exists`, `C80_unique`, `C80_false_zero`, `C80_false_equal`, `C81_sign_nul_partial`, `C81_sign_aug_partial`, `C81_key_length`, `C81_false_illegal_key`, `C81_aggregate_partial`, `C82_rejects`, `C82_false_infinity`, `C82_false_panic`, `C82_false_unprefixed`, `C83_sum`, `C83_false_infinity`, `C84_roundtrip_nul_partial`, `C84_roundtrip_aug_partial`, `C85_keys`, `C85_exact_nul_partial`, `C85_exact_aug_partial`, `C85_one_key_partial`, `C86_aggregate_partial`, `C87_pair`, `C87_bilinear`, `C88_check`, `C88_validate`, `C88_generators`, `C89_arithmetic`, `C90_unmarshal`, `C90_encoding`, `C90_group_partial`, `C90_false_null`, `C90_false_sub`, `C91_g1_uncompressed`, `C91_g2_uncompressed`, `C91_plain`, `C91_false_subgroup`, `C92_g1_partial`, `C92_g2_partial`, `C92_false_scalars`, `C92_false_long`, `C93_g1`, `C93_g2`, `C93_subgroup`, `C93_false_receiver`, `C93_false_failed_decode`, `C94_hash_partial`, `C94_encode_partial`, `C94_map_partial`, `C94_map_errors`, `C94_total`, `C94_unique`, `C94_exists`, `C94_false_kernel`, `C95_clear`, `C95_constants`, `C96_encode_partial`, `C96_total`, `C97_g1_partial`, `C97_g1_total`, `C97_string`, `C97_false_string`, `C98_field`, `C98_scalar`, `C98_legendre`, `C98_words`, `C98_hex`, `C99_group_on_curve`, `C99_affine_on_curve`, `C99_group`, `C99_add_partial`, `C99_false_add`, `C99_false_negate`, `C100_decompress`, `C100_bytes`, `C100_mont_bytes`, `C100_false`, `C100_false_prefix`, `C101_local`, `C102_programs`, `C102_validate_partial`, `C102_pair`, `C102_false_mutates`, `C102_false_repeat`, `C102_false_alias`, `C103_histories`, `C103_partial`, `C103_false_shared`, `C104_genPubkey_partial`, `C104_order`, `C104_same_key_partial`, `C105_signingKey`, `C105_signature_partial`, `C105_verify_partial`, `C105_keys`, `C105_false_nine`, `C106_add`, `C106_sub`, `C106_double_neg`, `C106_lazy`, `C106_same`, `C107_adx_partial`, `C107_adx_exact`, `C107_false_point`, `C108_noadx_exact`, `C108_noadx_partial`, `C108_false_point`, `C109_partial`, `C110_spec`, `C110_same`, `C110_only`, `C110_hashes`, `C110_digest`, `C110_shake`, `C02_point_mul_sm2_partial`, `C05_genPubkey_sm2_partial`, `C19_child_key_sm2_partial`, `C20_ecdh_sm2_partial`, `C112_step`, `C112_loop`, `C112_precomp`, `C112_inverse_partial`, `C112_false`, `C113_g1`, `C113_g2`, `C113_g2_fe`, `C113_values`, `C114_g1`, `C114_g2`, `C114_g2_fe`, `C114_false_shared_g1`, `C114_false_shared_g2`, `C115_gt`, `C115_values`, `C116_partial`, `C116_false_shared`, `C117_numbers_partial`, `C117_tests_partial`, `C117_text`, `C117_montgomery`, `C117_false_one`, `C117_false_range`, `C118_partial`, `C118_false_one`, `C119_roundtrip`, `C119_api_partial`, `C120_partial`, `C120_false_member`, `C120_false_zero`, `C121_reader_partial`, `C121_message_partial`, `C121_api_partial`, `C122_g1`, `C122_g2_partial`, `C122_gt`, `C122_groups`
