{"id": "C01", "title": "secp256k1 point addition is the group law", "statement": "Point_add on secp256k1 applied to the encodings of two points of the curve returns the encoding of their sum in the elliptic-curve group (doubling and mixed cases included); it fails exactly when the sum is the point at infinity.", "quantifier": "every pair of points on the curve, in every length form (64, 65) the API accepts", "why_tests_cant": "The group has about 2^256 points; exceptional cases (equal points, inverse points, infinity, unreduced coordinates) are measure-zero and random tests never reach them.", "anchors": ["secp256k1.go:addJacobian", "secp256k1.go:doubleJacobian", "secp256k1.go:affineFromJacobian", "ecdsa.go:Add", "eccset.go:Point_add"]}
{"id": "C02", "title": "Scalar multiplication computes k times P", "statement": "Point_mul on secp256k1 and secp256r1 returns the encoding of k·P for the big-endian integer k held in the scalar bytes, and FAILURE exactly when k·P is the point at infinity; the scalar is not reduced or truncated.", "quantifier": "every curve point and every scalar byte string (any length at the curve level, 32 bytes at the API)", "why_tests_cant": "Double-and-add passes through data-dependent exceptional cases of the addition formula; correctness needs an induction over the bits.", "anchors": ["secp256k1.go:ScalarMult", "secp256k1.go:ScalarBaseMult", "ecdsa.go:Mul", "eccset.go:Point_mul"]}
{"id": "C03", "title": "The declared group orders are the true orders of the base points", "statement": "For secp256k1 the declared constants define a prime field, a non-singular curve, a base point on the curve, and the declared N (also what GetCurveOrder returns) is prime and is exactly the additive order of the base point. For secp256r1 and SM2 the same holds for field, base point and prime N.", "quantifier": "all multiples of the base point", "why_tests_cant": "A test can multiply G by N once; it cannot show that no smaller multiple vanishes nor that P and N are prime.", "anchors": ["secp256k1.go:initsecp256k1Param", "secp256r1.go:initsecp256r1Param", "sm2_std.go:initSM2Params", "eccset.go:GetCurveOrder"]}
{"id": "C04", "title": "GenPubkey accepts exactly the scalars in [1, N-1]", "statement": "GenPubkey on secp256k1/secp256r1/SM2 succeeds iff the private key is 32 bytes long and its big-endian value d satisfies 1 <= d < N; otherwise it returns ECC_PRIKEY_ILLEGAL and no key. It never panics.", "quantifier": "every byte string as private key", "why_tests_cant": "Boundary at N and all lengths; a sample of keys cannot exclude an accepted bad key.", "anchors": ["ecdsa.go:genPublicKey", "eccset.go:GenPubkey"]}
{"id": "C05", "title": "GenPubkey returns the encoding of d·G", "statement": "When GenPubkey succeeds on secp256k1 or secp256r1 the result is exactly 64 bytes, the 32-byte big-endian x then y (left-padded with zeros) of d·G, and that point is on the curve.", "quantifier": "every valid private key", "why_tests_cant": "Left-padding bugs appear only for keys whose coordinates have leading zero bytes (1 in 256); group correctness is for 2^256 keys.", "anchors": ["ecdsa.go:genPublicKey", "secp256k1.go:ScalarBaseMult"]}
{"id": "C06", "title": "Different private keys give different public keys", "statement": "On secp256k1 and on secp256r1, if GenPubkey succeeds for two private keys and returns the same public key, the private keys are equal.", "quantifier": "every pair of valid private keys", "why_tests_cant": "Injectivity ranges over pairs of 2^256 keys.", "anchors": ["ecdsa.go:genPublicKey"]}
{"id": "C07", "title": "Every secp256k1 signature verifies under the signer's key", "statement": "If Signature(d, hash) succeeds on secp256k1 with any randomness, then Verify with GenPubkey(d) and the same hash returns SUCCESS.", "quantifier": "every valid key, every 32-byte hash, every stream of random bytes and any number of retry iterations", "why_tests_cant": "Sign is randomised and loops; verification correctness depends on the group order, modular inverses and low-s flip for all nonces.", "anchors": ["ecdsa.go:sign", "utils.go:signGeneric", "utils.go:verifyGeneric", "ecdsa.go:verify"]}
{"id": "C08", "title": "Every secp256r1 signature verifies under the signer's key", "statement": "Same as C07 for secp256r1, for any elliptic-curve backend that implements the group law on valid points.", "quantifier": "every valid key, hash, random stream", "why_tests_cant": "as C07", "anchors": ["ecdsa.go:sign", "utils.go:signGeneric", "utils.go:verifyGeneric", "secp256r1.go"]}
{"id": "C09", "title": "Signatures are canonical and low-s", "statement": "A signature returned by Signature on secp256k1/secp256r1 is exactly 64 bytes r||s with 1 <= r < N, 1 <= s <= N/2, and both r and s are in minimal 32-byte DER-integer form: the top bit is clear and not (first byte zero and second byte below 0x80); v is 0 or 1.", "quantifier": "every key, hash and random stream", "why_tests_cant": "Holds only because of retry conditions hit with probability 2^-9 or less; must hold for every stream.", "anchors": ["utils.go:signGeneric"]}
{"id": "C10", "title": "Signature input validation", "statement": "Signature on secp256k1/secp256r1 returns ECC_PRIKEY_ILLEGAL iff the key is not 32 bytes or not in [1,N-1], and otherwise MESSAGE_ILLEGAL iff the hash is not 32 bytes (the key length is checked before the message, the key range after it).", "quantifier": "every byte string for key and message", "why_tests_cant": "boundary and precedence over all inputs", "anchors": ["ecdsa.go:sign", "eccset.go:Signature"]}
{"id": "C11", "title": "Verify decides the textbook ECDSA equation", "statement": "On secp256k1, for a public key on the curve, Verify returns SUCCESS iff the lengths are 64/64/32, 0<r<N, 0<s<N and, with e the hash integer, the point R = (e/s)·G + (r/s)·Q is not infinity and x(R) = r (mod N).", "quantifier": "every public key on the curve, hash and signature byte string", "why_tests_cant": "Rejecting every other (r,s) cannot be sampled.", "anchors": ["ecdsa.go:verify", "utils.go:verifyesdsa", "utils.go:verifyGeneric", "utils.go:hashToInt"]}
{"id": "C12", "title": "Verify rejects out-of-range signatures", "statement": "Verify on secp256k1/secp256r1 never returns SUCCESS if the key is not 64 bytes, the hash not 32 bytes, the signature not 64 bytes, or r or s is zero or >= N; it does not panic on any input.", "quantifier": "every byte string for key, hash and signature", "why_tests_cant": "All inputs, including off-curve keys", "anchors": ["ecdsa.go:verify", "utils.go:verifyesdsa"]}
{"id": "C13", "title": "ECDSA malleability is exactly s -> N - s", "statement": "On secp256k1 and on secp256r1, if (r,s) verifies for key Q and hash h then (r,N-s) verifies too; and if (r,s) and (r,s') both verify under keys for which e/s·G + r/s·Q and e/s'·G + r/s'·Q have the same x mod p, then s' = s or s' = N-s, unless e·G + r·Q is infinity.", "quantifier": "every key, hash and signature", "why_tests_cant": "algebraic identity over the whole group", "anchors": ["utils.go:verifyGeneric"]}
{"id": "C14", "title": "RecoverPubkey returns the signer's key", "statement": "RecoverPubkey(sig||v, hash) with sig, v produced by Signature(d, hash) returns GenPubkey(d), on secp256k1 and secp256r1. (False in the code when hash is 0 mod N; proved otherwise.)", "quantifier": "every key, hash, random stream", "why_tests_cant": "Depends on the parity bit v and on the absence of x-overflow for every nonce.", "anchors": ["secp256k1.go:secp256k1_recover_public", "secp256r1.go:secp256r1_recover_public", "eccset.go:RecoverPubkey"]}
{"id": "C15", "title": "RecoverPubkey is sound", "statement": "If RecoverPubkey returns a key with SUCCESS then Verify(key, hash, sig) returns SUCCESS, on secp256k1 and secp256r1.", "quantifier": "every 65-byte signature and 32-byte hash", "why_tests_cant": "all inputs, including r with no curve point", "anchors": ["secp256k1.go:secp256k1_recover_public"]}
{"id": "C16", "title": "RecoverPubkey never crashes", "statement": "RecoverPubkey returns an error for malformed signatures instead of panicking. (False: r = 0 mod N makes it dereference nil.)", "quantifier": "every byte string", "why_tests_cant": "Needs the exceptional r", "anchors": ["secp256k1.go:secp256k1_recover_public"]}
{"id": "C17", "title": "PointDecompress inverts PointCompress", "statement": "For every point (x,y) of secp256k1/secp256r1/SM2 encoded in 64 bytes (or 65 with the 04 prefix), PointDecompress(PointCompress(point)) is 04||x||y.", "quantifier": "every curve point", "why_tests_cant": "Depends on the square root choosing the right parity for all points.", "anchors": ["eccset.go:PointCompress", "eccset.go:PointDecompress", "secp256k1.go:secp256k1_decompress", "secp256r1.go:secp256r1_decompress", "sm2_std.go:sm2_std_decompress"]}
{"id": "C18", "title": "PointDecompress only returns points of the curve", "statement": "Whenever PointDecompress returns a non-nil result, it is a point on the curve. (False: for an x with no curve point the code returns (x,0) or (x,P).) It is nil iff the length is not 33 or the prefix is not 02/03.", "quantifier": "every 33-byte string", "why_tests_cant": "half of all x have no point", "anchors": ["secp256k1.go:secp256k1_decompress", "secp256r1.go:secp256r1_decompress", "sm2_std.go:sm2_std_decompress"]}
{"id": "C19", "title": "Child key derivation is homomorphic", "statement": "On secp256k1 and secp256r1, for scalars a,b: Point_mulBaseG_add(GenPubkey(a), b) = GenPubkey(a+b mod N), and reports infinity exactly when a+b = 0 mod N.", "quantifier": "every pair of scalars", "why_tests_cant": "pairs of 2^256 values", "anchors": ["ecdsa.go:MulBaseG_Add", "eccset.go:Point_mulBaseG_add", "ecdsa.go:genPublicKey"]}
{"id": "C20", "title": "Diffie-Hellman agreement", "statement": "On secp256k1 and secp256r1, Point_mul(GenPubkey(a), b) = Point_mul(GenPubkey(b), a) = 64-byte encoding of ab·G.", "quantifier": "every pair of private keys", "why_tests_cant": "pairs of 2^256 values", "anchors": ["ecdsa.go:Mul", "eccset.go:Point_mul"]}
{"id": "C21", "title": "Point_add reports infinity only for infinity", "statement": "Point_add returns FAILURE for valid points only if their sum is the point at infinity. (False on curves with a point with x = 0, e.g. secp256r1 and SM2: the code tests x twice and never y. True on secp256k1, which has no such point.)", "quantifier": "every pair of curve points", "why_tests_cant": "one exceptional pair in 2^256", "anchors": ["ecdsa.go:Add"]}
{"id": "C22", "title": "SM2 field multiplication computes the Montgomery product", "statement": "The SM2 curve arithmetic multiplies field elements correctly modulo p for every operand. (False: a borrow in the reduction step underflows a 32-bit limb; proved for all operands that avoid the underflow, refuted by a concrete operand.)", "quantifier": "all limb vectors within the documented bounds", "why_tests_cant": "The failing operands have density around 2^-57", "anchors": ["sm2_std.go:sm2_stdMul", "sm2_std.go:sm2_stdSquare", "sm2_std.go:sm2_stdReduceDegree"]}
{"id": "C23", "title": "SM2 accepts every point of the curve", "statement": "Key agreement accepts a temporary public key iff it is on the SM2 curve. (False: a concrete point of the curve is rejected because of C22.)", "quantifier": "every point", "why_tests_cant": "density 2^-57", "anchors": ["sm2_std.go:IsOnCurve", "sm2_std.go:sm2_stdSquare"]}
{"id": "C24", "title": "SM2 point doubling through Point_add", "statement": "Point_add(P, P) on SM2 returns 2P. (False: it returns FAILURE for every P.)", "quantifier": "every curve point", "why_tests_cant": "universal", "anchors": ["sm2_std.go:sm2_stdPointAdd", "ecdsa.go:Add"]}
{"id": "C25", "title": "SM2 limb add/sub/encode are correct modulo p", "statement": "Limb addition, subtraction, conversion from and to integers, and small-constant factors of the SM2 field compute the corresponding operation modulo p and keep limbs within bounds.", "quantifier": "all limb vectors within the documented bounds; all integers", "why_tests_cant": "carry chains over 9 limbs", "anchors": ["sm2_std.go:sm2_stdAdd", "sm2_std.go:sm2_stdSub", "sm2_std.go:sm2_stdReduceCarry", "sm2_std.go:sm2_stdFromBig", "sm2_std.go:sm2_stdToBig"]}
{"id": "C26", "title": "SM2 signatures verify under the signer's key", "statement": "If Signature succeeds on SM2 then Verify with the signer's public key, same ID and message returns SUCCESS. (False for nonces with r+k = N, and for s·G = t·Q because of C24; proved for all others.)", "quantifier": "every key, ID, 32-byte message, random stream", "why_tests_cant": "exceptional nonces have probability 2^-256", "anchors": ["sm2_std.go:sm2_std_sign", "sm2_std.go:sm2_std_verify"]}
{"id": "C27", "title": "SM2 signing never crashes", "statement": "Signature on SM2 returns a signature or an error for every accepted private key. (False: d = N-1 makes it dereference nil.)", "quantifier": "every key in [1,N-1]", "why_tests_cant": "one key in 2^256", "anchors": ["sm2_std.go:sm2_std_sign"]}
{"id": "C28", "title": "SM2 verification range checks and equation", "statement": "SM2 Verify accepts only 0<r,s<N with r+s != 0 mod N and (e + x(s·G + t·Q)) mod N = r.", "quantifier": "every input", "why_tests_cant": "universal rejection", "anchors": ["sm2_std.go:sm2_std_verify"]}
{"id": "C29", "title": "SM2 encryption round trip", "statement": "Decryption(d, Encryption(GenPubkey(d), m)) = m for every non-empty message and all randomness; the ciphertext is 97+len(m) bytes beginning with 04.", "quantifier": "every key, message of every length, random stream", "why_tests_cant": "all lengths incl. partial KDF blocks, and the retry loop on all-zero KDF output", "anchors": ["sm2_std.go:sm2_std_encrypt", "sm2_std.go:sm2_std_decrypt", "sm2_std.go:kdf"]}
{"id": "C30", "title": "Decryption reports tampering", "statement": "If the authentication tag does not match, Decryption does not return SUCCESS. (False: the tag error is not mapped to an error code, so Decryption returns SUCCESS with unauthenticated plaintext.)", "quantifier": "every ciphertext", "why_tests_cant": "universal", "anchors": ["eccset.go:Decryption", "sm2_std.go:sm2_std_decrypt"]}
{"id": "C31", "title": "SM2 key agreement agrees", "statement": "Running the initiator and responder steps with matching keys gives both sides the same key, the initiator accepts the responder's check value, and the responder accepts the initiator's.", "quantifier": "every pair of identities, key pairs, ephemeral keys and key length", "why_tests_cant": "4 independent secrets; equality of two different computations", "anchors": ["sm2_std.go:sm2_std_ka_initiator_step2", "sm2_std.go:sm2_std_ka_responder_step1", "sm2_std.go:sm2_std_ka_responder_step2", "sm2_std.go:ka_kdf", "sm2_std.go:ka_check"]}
{"id": "C32", "title": "Key agreement releases no key when the check fails", "statement": "KeyAgreement_initiator_step2 returns no session key when the responder's check value is wrong. (False: the key is returned next to FAILURE.)", "quantifier": "every check value", "why_tests_cant": "universal", "anchors": ["sm2_std.go:sm2_std_ka_initiator_step2", "eccset.go:KeyAgreement_initiator_step2"]}
{"id": "C33", "title": "Key agreement output length", "statement": "The agreed key has exactly the requested number of bytes. (True for keylen < 8192; false above because keylen*8 overflows uint16.)", "quantifier": "every requested length", "why_tests_cant": "wrap-around at 8192", "anchors": ["sm2_std.go:ka_kdf"]}
{"id": "C34", "title": "SM2 RecoverPubkey returns the signer's key", "statement": "RecoverPubkey on SM2 applied to an SM2 signature returns the signer's key. (False: the code uses the ECDSA equation.)", "quantifier": "every signature", "why_tests_cant": "universal", "anchors": ["sm2_std.go:sm2_std_recover_public"]}
{"id": "C35", "title": "SM3 is the standard's function", "statement": "The SM3 digest of a byte string equals GB/T 32905: padding to a multiple of 64 bytes with the bit length, 64-round compression, big-endian output.", "quantifier": "every message of every length below 2^61 bytes", "why_tests_cant": "all lengths modulo 64 and all contents", "anchors": ["sm3/sm3.go"]}
{"id": "C36", "title": "Hashing is independent of how the input is split", "statement": "For SM3, the SHA-3 family, BLAKE-256, BLAKE-512 and BLAKE2s, writing a message in any sequence of chunks gives the same digest as writing it at once.", "quantifier": "every message and every way of cutting it into writes", "why_tests_cant": "Unbounded number of partitions", "anchors": ["sm3/sm3.go:Write", "sha3/sha3.go:Write", "blake256/blake256.go:Write", "blake512/blake512.go:Write", "blake2s/blake2s.go:Write"]}
{"id": "C37", "title": "Sum does not disturb the running hash", "statement": "Calling Sum in the middle of a stream does not change later digests and appends the digest to its argument. (Proved for SHA-3, BLAKE-256, BLAKE-512, BLAKE2s; false for SM3, whose Sum absorbs its argument and finalises the state.)", "quantifier": "every interleaving of Write, Sum and Reset", "why_tests_cant": "unbounded histories", "anchors": ["sm3/sm3.go:Sum", "sha3/sha3.go:Sum", "blake256/blake256.go:Sum", "blake512/blake512.go:Sum", "blake2s/blake2s.go:Sum"]}
{"id": "C38", "title": "Digest lengths", "statement": "Every digest has exactly the advertised number of bytes, for every input: 32 for SM3/Keccak256/SHA3-256/BLAKE-256/BLAKE2s-256, 64 for Keccak512/SHA3-512/BLAKE-512, and so on.", "quantifier": "every message", "why_tests_cant": "all lengths", "anchors": ["hashset.go:Hash", "sm3/sm3.go", "sha3/sha3.go", "blake256/blake256.go", "blake512/blake512.go", "blake2s/blake2s.go"]}
{"id": "C39", "title": "SHA-3/Keccak is the sponge of FIPS 202", "statement": "Keccak256/512, SHA3-224/256/384/512 and SHAKE128/256 equal pad10*1 with the right domain suffix, absorb, squeeze over Keccak-f[1600].", "quantifier": "every message of every length, every output length", "why_tests_cant": "all lengths modulo the rate; unrolled permutation", "anchors": ["sha3/sha3.go", "sha3/keccakf.go", "sha3/hashes.go", "sha3/shake.go"]}
{"id": "C40", "title": "SHAKE output is a single stream", "statement": "Reading a SHAKE output in any sequence of chunks gives the same bytes as one read.", "quantifier": "every partition of every output length", "why_tests_cant": "unbounded partitions", "anchors": ["sha3/sha3.go:Read"]}
{"id": "C41", "title": "A clone of a hash behaves like the original", "statement": "Cloning a SHA-3/SHAKE state gives a state with the same future. (True while absorbing; false while squeezing for rates other than 168: the copy's buffer window is misplaced.)", "quantifier": "every history", "why_tests_cant": "needs a clone after a partial read", "anchors": ["sha3/sha3.go:clone"]}
{"id": "C42", "title": "BLAKE-256/BLAKE-512 follow the specification", "statement": "The unrolled compression functions equal the 14/16-round specification and the padding/counter handling equals the specification for every message length (counter excludes padding, zero in a block without message bits).", "quantifier": "every message of every length", "why_tests_cant": "case split at 55/56/63/64 bytes etc.", "anchors": ["blake256/blake256.go", "blake256/blake256block.go", "blake512/blake512.go", "blake512/blake512block.go"]}
{"id": "C43", "title": "BLAKE2s follows RFC 7693", "statement": "Keyed and unkeyed BLAKE2s with any digest size 1..32 equals the RFC: parameter block, 10 rounds, final flag on the last block only, which may be full.", "quantifier": "every message, key and size", "why_tests_cant": "block-boundary behaviour for all lengths", "anchors": ["blake2s/blake2s.go", "blake2s/block.go"]}
{"id": "C44", "title": "Hash dispatch", "statement": "Hash(data, len, type) returns the digest of the selected algorithm or composition (double SHA-256, RIPEMD160∘SHA256, ...) and nil for unknown types.", "quantifier": "every data, every type value", "why_tests_cant": "2^32 type values", "anchors": ["hashset.go:Hash", "hashset.go:Hmac", "profile.go"]}
{"id": "C45", "title": "API totality and error codes", "statement": "Unknown curve identifiers yield ECC_WRONG_TYPE from GenPubkey/Signature/Verify/Encryption/Decryption/RecoverPubkey, FAILURE from Point_add/Point_mul, nil from Point_mulBaseG/PointCompress/PointDecompress/GetCurveOrder.", "quantifier": "every 32-bit type value", "why_tests_cant": "2^32 values", "anchors": ["eccset.go"]}
{"id": "C46", "title": "Point_mul and Point_add never crash", "statement": "For every byte string arguments the calls return. (False: a 33-byte argument with a prefix other than 02/03 panics on a nil slice.)", "quantifier": "every byte string", "why_tests_cant": "exceptional prefix", "anchors": ["eccset.go:Point_add", "eccset.go:Point_mul"]}
{"id": "C47", "title": "Ed25519 scalar reduction is reduction modulo L", "statement": "ScReduce maps every 64-byte string to the unique 32-byte little-endian representative in [0,L), and ScMulAdd(a,b,c) = a·b+c mod L.", "quantifier": "every input", "why_tests_cant": "2^512 inputs, signed carry chains", "anchors": ["eddsa/edwards25519/edwards25519.go:ScReduce", "eddsa/edwards25519/edwards25519.go:ScMulAdd"]}
{"id": "C48", "title": "Ed25519 field arithmetic is arithmetic modulo 2^255-19", "statement": "FeAdd, FeSub, FeNeg, FeMul, FeSquare, FeInvert, FeFromBytes, FeToBytes compute the field operation without overflow for inputs in the documented limb bounds; FeToBytes yields the canonical encoding.", "quantifier": "every limb vector within bounds", "why_tests_cant": "carry chains, overflow of int64", "anchors": ["eddsa/edwards25519/edwards25519.go:FeMul", "eddsa/edwards25519/edwards25519.go:FeToBytes", "eddsa/edwards25519/edwards25519.go:FeFromBytes", "eddsa/edwards25519/edwards25519.go:FeInvert"]}
{"id": "C49", "title": "Ed25519 (normal) sign/verify round trip", "statement": "Verify(GenPubkey(k), m, Signature(k, m)) = SUCCESS on ED25519_NORMAL for every seed and message.", "quantifier": "every 32-byte seed and message", "why_tests_cant": "group law, clamping, scalar arithmetic for all inputs", "anchors": ["eddsa/curve25519.go"]}
{"id": "C50", "title": "Ed25519 (raw scalar) sign/verify round trip", "statement": "Verify(GenPubkey(k), m, Signature(k, m)) = SUCCESS on ED25519. (False for scalars that are not clamped: GenPubkey uses the raw scalar, Signature the clamped one.)", "quantifier": "every scalar and message", "why_tests_cant": "universal", "anchors": ["eddsa/ed25519.go"]}
{"id": "C51", "title": "Ed25519 signatures are not malleable in s beyond the top bits check", "statement": "Verify on the Ed25519 variants rejects any signature whose 64-byte form has any of the top three bits of s set, and any length other than 64.", "quantifier": "every signature", "why_tests_cant": "universal rejection", "anchors": ["eddsa/curve25519.go", "eddsa/ed25519.go", "eddsa/x25519.go"]}
{"id": "C52", "title": "X25519 / CURVE25519_SHA256: every signature verifies", "statement": "Signature followed by Verify succeeds. (False for the empty message: Signature accepts it, Verify rejects it.)", "quantifier": "every key and message, including empty", "why_tests_cant": "boundary at empty message", "anchors": ["eddsa/x25519.go", "eddsa/curve25519_sha256.go"]}
{"id": "C53", "title": "API calls do not modify their arguments", "statement": "GenPubkey and Signature leave the caller's private key and message unchanged. (False on CURVE25519_SHA256, which clamps the caller's key in place, and for BLS AUG Verify, which may overwrite memory after the caller's public key slice.)", "quantifier": "every input", "why_tests_cant": "aliasing: observable only through the caller's memory", "anchors": ["eddsa/curve25519_sha256.go", "eccset.go:Verify"]}
{"id": "C54", "title": "Pasta field arithmetic", "statement": "Montgomery add, sub, neg, mul, square, to/from Montgomery, to/from bytes for both Pasta fields compute the field operation on canonical limbs and return canonical limbs.", "quantifier": "every canonical limb vector", "why_tests_cant": "4x64-bit carry chains", "anchors": ["pasta/pasta_fp.go", "pasta/pasta_fq.go"]}
{"id": "C55", "title": "Pasta Schnorr signatures verify", "statement": "Verify(GenPubkey(d), m, Sign(d, m)) succeeds for every valid key and message.", "quantifier": "every key, message", "why_tests_cant": "group law over 2^255", "anchors": ["pasta/crypto.go", "pasta/mina.go"]}
{"id": "C56", "title": "Pasta signatures are strongly unforgeable in encoding", "statement": "A Pasta signature has exactly one accepted encoding. (False: r+p and s+q are accepted as well when they fit in 32 bytes.)", "quantifier": "every signature", "why_tests_cant": "needs specific encodings", "anchors": ["pasta/crypto.go:Verify"]}
{"id": "C57", "title": "Pasta point functions are the group law on every encoding", "statement": "Point_add, Point_mul, Point_mulBaseG and Point_mulBaseG_add on PASTA compute P+Q, kQ, kG and kG+Q for every pair of points (equal, opposite, infinity) given as 64, 65 or 33 bytes; strings that are no encoding of a point are rejected. (False: Point_mulBaseG_add ignores a 65-byte point; bad prefixes, x-coordinates without a point and points off the curve are accepted.)", "quantifier": "all points in all encodings; all 33-byte strings", "why_tests_cant": "exceptional cases of the group law; all 2^264 compressed strings", "anchors": ["pasta/crypto.go:GroupAdd,GroupDbl,GroupScalarMul,Decompress,FromBigEndianBytes", "pasta/pasta.go", "eccset.go:Point_add,Point_mul,Point_mulBaseG,Point_mulBaseG_add"]}
{"id": "C58", "title": "Poseidon sponge absorbs independent of chunking", "statement": "Updating the Poseidon state with field elements in any chunks gives the same digest.", "quantifier": "every partition", "why_tests_cant": "unbounded", "anchors": ["pasta/poseidon.go"]}
{"id": "C59", "title": "BLS input validation and aggregation", "statement": "BLS GenPubkey accepts exactly 32-byte scalars below the order; AggregateSignatures is order independent and rejects malformed elements.", "quantifier": "all inputs", "why_tests_cant": "universal", "anchors": ["bls12_381/bls12-381.go"]}
{"id": "C60", "title": "expand_message_xmd follows RFC 9380", "statement": "The BLS hash-to-field expansion returns exactly the requested length and equals the RFC formula for every message, DST and output length.", "quantifier": "all lengths", "why_tests_cant": "block boundaries, length limits", "anchors": ["bls12_381/bls/hash_to_field.go"]}
{"id": "C61", "title": "SM2 Decryption never crashes on short ciphertexts", "statement": "Decryption with a 32-byte key returns (an error or a plaintext) for every ciphertext byte string, of whatever length; it never panics.", "quantifier": "every ciphertext length and content", "why_tests_cant": "lengths are unbounded; the crash lies in one range of lengths", "anchors": ["eccset.go:Decryption", "sm2_std.go:sm2_std_decrypt"]}
{"id": "C62", "title": "Hmac is RFC 2104", "statement": "Hmac(key, data, type) equals H((K xor opad) || H((K xor ipad) || data)) with the block length of the selected hash (SM3: 64, SHA-256: 64, SHA-512: 128), although the SM3 Sum destroys the state it is called on; nil for every other type value.", "quantifier": "every key (shorter, equal, longer than a block), every message, every 32-bit type value", "why_tests_cant": "key lengths around the block size and the reuse of a finalised hash value; 2^32 type values", "anchors": ["hashset.go:Hmac", "sm3/sm3.go"]}
{"id": "C63", "title": "Hash never crashes on a digest length it does not support", "statement": "Hash(data, digestLen, type) returns nil for a digest length that the selected algorithm cannot produce. (True for BLAKE2b; false for BLAKE2s: the length is truncated to a byte, 33..255 modulo 256 panic, and 256+n silently means n.)", "quantifier": "every 16-bit digest length and every message", "why_tests_cant": "65536 lengths and every message; only one algorithm misbehaves", "anchors": ["hashset.go:Hash", "blake2s/blake2s.go:NewMAC"]}
{"id": "C64", "title": "Ed25519/X25519 Verify accepts exactly the signature equation", "statement": "Verify on ED25519_NORMAL and ED25519 returns SUCCESS exactly when the signature has 64 bytes, s < 2^253, the 32-byte public key decodes to a curve point A and R is the canonical encoding of sB - hA, h = SHA-512(R || key || message) mod order; on X25519 the same with A recovered from u and the sign bit carried in the signature, and a non-empty message. It returns FAILURE otherwise and never panics.", "quantifier": "every public key, message and signature byte string of any length", "why_tests_cant": "soundness: the set of accepted strings is infinite and adversarial", "anchors": ["eddsa/curve25519.go:CURVE25519_verify", "eddsa/ed25519.go:ED25519_verify", "eddsa/x25519.go:X25519_verify", "eddsa/edwards25519/edwards25519.go:FromBytes,GeDoubleScalarMultVartime"]}
{"id": "C65", "title": "Ed25519 keys and signatures are those of RFC 8032", "statement": "GenPubkey on ED25519_NORMAL is the RFC 8032 public key of the seed and Signature the RFC 8032 deterministic signature, relative to SHA-512; GenPubkey and Point_mulBaseG on ED25519 encode kB for a raw scalar k < 2^255; GenPubkey on X25519 is its Montgomery u. A key that is not 32 bytes long gives FAILURE.", "quantifier": "every key and every message", "why_tests_cant": "interoperability for every key; the precomputed table has 256 points and the digits 2^256 patterns", "anchors": ["eddsa/curve25519.go", "eddsa/ed25519.go", "eddsa/x25519.go", "eddsa/edwards25519/edwards25519.go:GeScalarMultBase"]}
{"id": "C66", "title": "Point_add and Point_mulBaseG_add on ED25519 are the group law", "statement": "For strings that decode to points A and B, Point_add returns the encoding of A + B with SUCCESS, or FAILURE exactly when A + B is the identity; Point_mulBaseG_add returns the encoding of A + kB. Adding bB to the public key of a gives the public key of a + b mod order.", "quantifier": "all pairs of decodable strings, all scalars below the order", "why_tests_cant": "exceptional cases (equal, opposite, identity) of the complete addition law; sliding-window digits", "anchors": ["eddsa/ed25519.go:Point_add,ScalarMultBaseAdd", "eccset.go:Point_add,Point_mulBaseG_add"]}
{"id": "C67", "title": "X25519 and Ed25519 public keys convert consistently", "statement": "CURVE25519_convert_X_to_Ed returns y = (u-1)/(u+1) for canonical u and refuses non-canonical u; CURVE25519_convert_Ed_to_X returns u = (1+y)/(1-y); there and back is the identity except at u = -1; the ED25519 public key of a scalar converts to the X25519 public key of the same scalar.", "quantifier": "every 32-byte string", "why_tests_cant": "field inversion and canonicity at every value", "anchors": ["eddsa/convert.go", "eccset.go:CURVE25519_convert_X_to_Ed,CURVE25519_convert_Ed_to_X"]}
{"id": "C68", "title": "Ed25519 signatures are not malleable", "statement": "For a public key and message, an accepted signature (R, s) determines s: no second s with the same R is accepted. (False: s is checked against 2^253 instead of the order, so s + order is accepted as well.)", "quantifier": "every accepted signature", "why_tests_cant": "needs a second signature that no test vector contains", "anchors": ["eddsa/curve25519.go:CURVE25519_verify", "eddsa/ed25519.go:ED25519_verify"]}
{"id": "C69", "title": "Poseidon digest is the specified sponge", "statement": "For every initial state and every list of field elements, absorbed in any chunks, PoseidonDigest returns the 32-byte big-endian sponge hash defined by the round keys, the MDS matrix, the x^5 S-box and rate 2.", "quantifier": "every initial state and every list of canonical field elements", "why_tests_cant": "unbounded inputs; 55 rounds over a 255-bit field with tables in Montgomery form", "anchors": ["pasta/poseidon.go", "pasta/const.go"]}
{"id": "C70", "title": "Pasta Verify accepts exactly Mina's Schnorr equation", "statement": "Verify on PASTA returns SUCCESS exactly when the signature has 64 bytes (r, s) and sG - eQ has x-coordinate r and even y, e the Poseidon challenge; a message that does not parse, a key or signature of a wrong length is rejected; Verify never panics.", "quantifier": "every key, message and signature string of any length", "why_tests_cant": "soundness over an adversarial infinite set", "anchors": ["pasta/pasta.go:Verify", "pasta/mina.go"]}
{"id": "C71", "title": "Pasta Verify rejects keys that are not public keys", "statement": "A key string that does not encode a point other than infinity is rejected by Verify. (False: 64 zero bytes and every 65-byte string with prefix 4 are read as infinity, and under such a key the signature of 64 zero bytes verifies for every message.)", "quantifier": "every key string", "why_tests_cant": "adversarial keys; the 65-byte form of an honest key is one of them", "anchors": ["pasta/pasta.go:Verify", "pasta/crypto.go:FromBigEndianBytes"]}
{"id": "C72", "title": "Pasta derived keys and ECDH agree", "statement": "Point_mulBaseG_add(GenPubkey(a), b) = GenPubkey((a+b) mod n), the same through Point_mul and Point_add, and Point_mul(GenPubkey(b), a) = Point_mul(GenPubkey(a), b).", "quantifier": "all accepted keys a, b", "why_tests_cant": "exceptional cases (equal points, sum zero) are reachable only for special keys", "anchors": ["pasta/pasta.go", "eccset.go"]}
{"id": "C73", "title": "Pasta compression round-trips", "statement": "PointDecompress(PointCompress(P)) is the 65-byte form of P for every point, infinity included, from the 64- and 65-byte forms.", "quantifier": "every curve point", "why_tests_cant": "square roots by Tonelli-Shanks with 2-adicity 32: the loop length depends on the point", "anchors": ["eccset.go:PointCompress,PointDecompress", "pasta/crypto.go:Decompress", "pasta/pasta_fp.go:FiatPastaFpSqrt"]}
{"id": "C74", "title": "CURVE25519_SHA256 public keys are RFC 7748 X25519(k, 9)", "statement": "GenPubkey on CURVE25519_SHA256 returns the 32 little-endian bytes of X25519(k, 9) as RFC 7748 defines it; a key of another length is refused.", "quantifier": "every 32-byte private key", "why_tests_cant": "ten-limb signed arithmetic with lazy carries, a 256-step ladder and a packing routine with corner cases near the prime", "anchors": ["eddsa/curve25519_sha256.go:Keygen,core,pack", "eccset.go:GenPubkey"]}
{"id": "C75", "title": "CURVE25519_SHA256 verification accepts only canonical inputs", "statement": "Verify on CURVE25519_SHA256 accepts only 64-byte signatures whose first half is below the order of the base point, 32-byte public keys below 2^255-19 and non-empty messages, and then exactly when the second half is the hash of the message digest and the recomputed commitment.", "quantifier": "every public key, message and signature", "why_tests_cant": "rejection must hold for all byte strings; the canonicity test is a byte-wise long division", "anchors": ["eddsa/curve25519_sha256.go:CURVE25519_sha256_verify,IsCanonicalSignature,IsCanonicalPublicKey,divmod"]}
{"id": "C76", "title": "CURVE25519_SHA256 ignores the clamped bits of the private key", "statement": "Two 32-byte private keys that agree in bits 3..253 have the same public key and produce the same signatures on CURVE25519_SHA256.", "quantifier": "all pairs of keys, all messages", "why_tests_cant": "universal over keys and messages", "anchors": ["eddsa/curve25519_sha256.go:clamp,CURVE25519_sha256_genPub,CURVE25519_sha256_sign"]}
{"id": "C77", "title": "BLS12-381 base field arithmetic is exact", "statement": "On reduced elements, addition, doubling, subtraction, negation, multiplication, squaring, inversion, exponentiation and square root compute the field operation and return reduced elements, on every platform; 48-byte strings are accepted as elements exactly when they are below the modulus and are written back unchanged.", "quantifier": "all pairs of reduced field elements, all byte strings", "why_tests_cant": "carry chains fail only for rare limb patterns", "anchors": ["bls12_381/bls/arithmetic_fallback.go", "bls12_381/bls/arithmetic_decl.go", "bls12_381/bls/field_element.go", "bls12_381/bls/fp.go"]}
{"id": "C78", "title": "BLS12-381 points have one compressed encoding, checked for subgroup membership", "statement": "A byte string is accepted as a compressed G1 (G2) point exactly when it is the 48 (96) byte encoding of a point of the subgroup of order r; encoding the accepted point returns the same string; different points have different encodings.", "quantifier": "every byte string, every point", "why_tests_cant": "flag bits, infinity, the lexicographic sign and the subgroup test combine in cases a test set does not cover", "anchors": ["bls12_381/bls/g1.go:FromCompressed,ToCompressed", "bls12_381/bls/g2.go:FromCompressed,ToCompressed"]}
{"id": "C79", "title": "BLS12-381 group operations are the group law", "statement": "Adding, subtracting, negating, doubling and multiplying decoded G1 and G2 points by any non-negative integer gives the encoding of the point the group law gives, equal and opposite points and infinity included; equality and zero tests are exact.", "quantifier": "all pairs of subgroup points, all scalars", "why_tests_cant": "exceptional cases of the projective formulas", "anchors": ["bls12_381/bls/g1.go", "bls12_381/bls/g2.go"]}
{"id": "C80", "title": "Hashing to G2 is RFC 9380 BLS12381G2_XMD:SHA-256_SSWU_RO_", "statement": "HashToCurve returns the point of hash_to_curve of RFC 9380 (hash_to_field, simplified SWU map, 3-isogeny, cofactor) for every message and tag of at most 255 bytes, and never fails.", "quantifier": "every message and tag", "why_tests_cant": "the exceptional inputs of the map occur with negligible probability in tests", "anchors": ["bls12_381/bls/g2.go:HashToCurve", "bls12_381/bls/swu.go", "bls12_381/bls/isogeny.go", "bls12_381/bls/hash_to_field.go"]}
{"id": "C81", "title": "A BLS signature is the key times the hash of the message", "statement": "Signature on the BLS identifiers returns the encoding of key times the RFC 9380 hash of the message (preceded by the public key in the augmented scheme), is independent of ID and randomness, refuses keys GenPubkey refuses, and the aggregate of signatures of one message is its signature under the sum of the keys.", "quantifier": "every key, message, list of keys", "why_tests_cant": "an algebraic identity over all keys and messages", "anchors": ["bls12_381/bls12-381.go:Sign,AggregateSignatures", "eccset.go:Signature,AggregateSignatures"]}
{"id": "C82", "title": "BLS Verify rejects everything malformed and everything not signed", "statement": "Verify on the BLS identifiers rejects public keys and signatures of the wrong length, strings that are not encodings of subgroup points and the identity public key, without crashing.", "quantifier": "every public key, message and signature", "why_tests_cant": "adversarial inputs", "anchors": ["bls12_381/bls12-381.go:Verify", "bls12_381/g1.go:UnmarshalBinary", "bls12_381/bls/pairing.go", "eccset.go:Verify"]}
{"id": "C83", "title": "Point_mulBaseG_add on BLS returns the sum or an error", "statement": "On the BLS identifiers Point_mulBaseG_add returns the encoding of the point plus scalar times the generator for a valid point and a scalar below the order, sets the infinity flag if the sum is the point at infinity, and reports an error for everything else.", "quantifier": "every point string and scalar", "why_tests_cant": "invalid inputs", "anchors": ["bls12_381/bls12-381.go:ScalarMultBaseAdd,scalarMulG", "eccset.go:Point_mulBaseG_add"]}
{"id": "C84", "title": "A BLS signature verifies under its public key", "statement": "For both BLS identifiers, every secret key below the order and every message: the public key GenPubkey returns, the signature Signature returns and the message make Verify return SUCCESS, whatever the IDs and the randomness passed.", "quantifier": "every legal key, message, ID and randomness", "why_tests_cant": "bilinearity of the pairing and the whole pipeline must agree for every key and message", "anchors": ["eccset.go:GenPubkey,Signature,Verify", "bls12_381/bls12-381.go:Sign,Verify", "bls12_381/bls/pairing.go"]}
{"id": "C85", "title": "BLS signatures are unique", "statement": "Every valid public key is k times the generator for exactly one k below the order, and for a given message exactly one string verifies under it: the encoding of k times the hash of the message (preceded by the public key in the augmented scheme). Every other string is rejected, and a signature other than infinity verifies under one key only.", "quantifier": "every public key, message and candidate signature", "why_tests_cant": "non-degeneracy of the pairing; no test can exclude a second signature", "anchors": ["eccset.go:Verify", "bls12_381/bls12-381.go:Verify", "bls12_381/group.go:ValidatePairing"]}
{"id": "C86", "title": "An aggregate of valid signatures of one message verifies under the sum of the keys", "statement": "If each signature of a list verifies for the same message under its own public key, AggregateSignatures succeeds and the aggregate verifies for the message under the sum of the public keys.", "quantifier": "every message and every non-empty list of keys and valid signatures", "why_tests_cant": "lists of any length", "anchors": ["eccset.go:AggregateSignatures,Verify", "bls12_381/bls12-381.go:AggregateSignatures"]}
{"id": "C87", "title": "Pair is a non-degenerate bilinear pairing", "statement": "Pair of decoded G1 and G2 points returns the cube of the reduced ate pairing, an element of order dividing r; it is the identity exactly if one of the points is infinity; it is additive in both arguments, and multiplying the points by a and b raises it to the power ab.", "quantifier": "all pairs of subgroup points and all scalars", "why_tests_cant": "bilinearity is an identity over all points and scalars", "anchors": ["bls12_381/group.go:Pair", "bls12_381/bls/pairing.go:Engine.Result", "bls12_381/bls/fp12.go", "bls12_381/bls/fp6.go"]}
{"id": "C88", "title": "The pairing check is exact", "statement": "ValidatePairing(aG1, bG2, cG1, dG2) holds exactly if ab = cd modulo the order, and a pairing engine to which any sequence of pairs and inverted pairs is added passes Check exactly if the signed sum of the products is divisible by the order.", "quantifier": "all scalars, all sequences of AddPair and AddPairInv calls", "why_tests_cant": "false accepts cannot be excluded by tests", "anchors": ["bls12_381/group.go:ValidatePairing", "bls12_381/bls/pairing.go:AddPair,AddPairInv,Check"]}
{"id": "C89", "title": "Target group arithmetic is field arithmetic", "statement": "GT.Add, Sub, Mul, Inverse and Equal are the operations of the field of q^12 elements on decoded elements; Square is squaring and Exp is exponentiation.", "quantifier": "all field elements, all exponents", "why_tests_cant": "Karatsuba and tower formulas; the fast squaring is only valid in a subgroup", "anchors": ["bls12_381/bls/gt.go:Add,Sub,Mul,Square,Exp,Inverse,Equal", "bls12_381/bls/fp12.go", "bls12_381/bls/fp6.go"]}
{"id": "C90", "title": "The target group decodes exactly its elements and is a group", "statement": "UnmarshalBinary of a target group element accepts exactly the canonical 576-byte encodings of elements of order dividing r and MarshalBinary inverts it; Null is the identity, Add the group operation and Sub its inverse operation.", "quantifier": "every byte string, all group elements", "why_tests_cant": "subgroup membership for every encoding; group laws", "anchors": ["bls12_381/gt.go:UnmarshalBinary,MarshalBinary,Null,Add,Sub", "bls12_381/bls/gt.go:FromBytes,IsValid"]}
{"id": "C91", "title": "Uncompressed and plain point encodings are exact", "statement": "FromUncompressed accepts exactly the canonical uncompressed encodings of points of the subgroup, and ToUncompressed inverts it; FromBytes and ToBytes do the same for the plain encoding of group elements (affine coordinates, zeros for infinity).", "quantifier": "every byte string of every length, all points", "why_tests_cant": "flag bits, range of coordinates, curve and subgroup membership for every encoding", "anchors": ["bls12_381/bls/g1.go:FromUncompressed,ToUncompressed,FromBytes,ToBytes", "bls12_381/bls/g2.go:FromUncompressed,ToUncompressed,FromBytes,ToBytes"]}
{"id": "C92", "title": "MultiExp is the sum of the multiples", "statement": "G1.MultiExp and G2.MultiExp of points P1..Pn and scalars e1..en return e1 P1 + ... + en Pn and leave their arguments as they were; they fail if the lists have different lengths.", "quantifier": "all lists of points and scalars of any length, every window width", "why_tests_cant": "bucket method with windows; lists of any length", "anchors": ["bls12_381/bls/g1.go:MultiExp", "bls12_381/bls/g2.go:MultiExp"]}
{"id": "C93", "title": "Point objects behave as group elements for every history of calls", "statement": "However calls of Null, Base, Add, Sub, Neg, Mul, Set, Clone, MarshalBinary, UnmarshalBinary and Equal on any number of point objects are interleaved, every byte string, error and comparison observed is the one the group elements give, and the receiver holds the value the call returns.", "quantifier": "all programs over any number of G1 or G2 point objects", "why_tests_cant": "aliasing between receivers and arguments and state left by failed decodings, over all histories", "anchors": ["bls12_381/g1.go:Null,Base,Add,Sub,Neg,Mul,Set,Clone,MarshalBinary,UnmarshalBinary,Equal", "bls12_381/g2.go:Null,Base,Add,Sub,Neg,Mul,Set,Clone,MarshalBinary,UnmarshalBinary,Equal"]}
{"id": "C94", "title": "Hashing to G1 follows RFC 9380", "statement": "G1.HashToCurve and G1.EncodeToPoint of a message and a domain separation tag return the point of RFC 9380 (suites BLS12381G1_XMD:SHA-256_SSWU_RO_ and _NU_), MapToCurve maps the 48 bytes of a field element in the same way and rejects every other string; every result is a point of the subgroup of order r.", "quantifier": "all messages, tags of at most 255 bytes, every byte string", "why_tests_cant": "two square root cases, an 11-isogeny with exceptional points and additions with special cases, over all field elements", "anchors": ["bls12_381/bls/g1.go:HashToCurve,EncodeToPoint,MapToCurve", "bls12_381/bls/swu.go:swuMapG1", "bls12_381/bls/isogeny.go:isogenyMapG1"]}
{"id": "C95", "title": "Clearing the cofactor reaches the subgroup", "statement": "G1.ClearCofactor, G1.MulByCofactor and G2.ClearCofactor turn every point of the curve into a multiple of it that has order dividing r, and InCorrectSubgroup accepts it.", "quantifier": "all points of the two curves in any coordinates", "why_tests_cant": "G1's effective cofactor is not a multiple of the cofactor; that it suffices depends on the structure of the whole group", "anchors": ["bls12_381/bls/g1.go:ClearCofactor,MulByCofactor", "bls12_381/bls/g2.go:ClearCofactor", "bls12_381/bls/bls12_381.go:cofactorEFFG1,cofactorG1,cofactorG2"]}
{"id": "C96", "title": "Encoding to G2 follows RFC 9380", "statement": "G2.EncodeToCurve of a message and a domain separation tag returns the point of RFC 9380 (suite BLS12381G2_XMD:SHA-256_SSWU_NU_), which has order dividing r.", "quantifier": "all messages, tags of at most 255 bytes", "why_tests_cant": "square roots in a quadratic extension and a 3-isogeny over all field elements", "anchors": ["bls12_381/bls/g2.go:EncodeToCurve", "bls12_381/bls/swu.go:swuMapG2"]}
{"id": "C97", "title": "Hash, Pick and String of point objects", "statement": "Hash sets a point object to the hash of the message in its group, Pick sets it to a point that depends on the random stream, and String names the group and determines the point.", "quantifier": "all messages, all random streams, all points", "why_tests_cant": "all 2^256 stream prefixes; a receiver that is silently left alone", "anchors": ["bls12_381/g1.go:Hash,Pick,String", "bls12_381/g2.go:Hash,Pick,String"]}
{"id": "C98", "title": "Pasta field and scalar functions are the field operations", "statement": "FieldAdd, FieldSub, FieldMul, FieldSq, FieldNegate, FieldInv, FieldPow, FieldEq, the Scalar functions and the Legendre function compute the operation of the Pallas base field or of the integers modulo the group order; FieldFromHex and ScalarFromHex accept exactly the spellings of 32 bytes whose little-endian number is below 2^254, and ScalarFromWords takes the number modulo 2^254.", "quantifier": "all canonical field elements and scalars, all exponents, all strings", "why_tests_cant": "carries and reductions over 2^508 pairs; all strings", "anchors": ["pasta/crypto.go:FieldAdd,FieldSub,FieldMul,FieldSq,FieldPow,FieldInv,FieldNegate,FieldEq,FieldFromHex,ScalarAdd,ScalarSub,ScalarMul,ScalarSq,ScalarNegate,ScalarEq,ScalarFromHex,ScalarFromWords", "pasta/pasta_fp.go:FiatPastaFpLegendRe"]}
{"id": "C99", "title": "Pasta group functions are the group operations", "statement": "GroupAdd, GroupDbl, GroupScalarMul, GroupNegate and their affine forms compute the group operations on every coordinates of every points; GroupIsOnCurve and AffineIsOnCurve accept exactly coordinates of points; GeneratePubkey multiplies the base point.", "quantifier": "all points in all Jacobian coordinates, all scalars", "why_tests_cant": "2^254 coordinates for each point; the doubling case of the addition", "anchors": ["pasta/crypto.go:GroupAdd,GroupDbl,GroupScalarMul,GroupNegate,GroupIsOnCurve,GroupOne,AffineAdd,AffineScalarMul,AffineNegate,AffineEq,AffineIsZero,AffineIsOnCurve,GeneratePubkey"]}
{"id": "C100", "title": "Pasta compressed points round trip", "statement": "Decompress after Compress gives the point back, with or without writing the compressed point to bytes and reading it in between; Decompress fails exactly for x-coordinates of no point, and reading fails exactly for strings that are not 33 bytes with leading byte 2 or 3.", "quantifier": "all points, all compressed points, all byte strings, all earlier contents of the destination", "why_tests_cant": "square roots over all field elements; two representations of the coordinate", "anchors": ["pasta/crypto.go:Compress,Decompress,ToBigEndianBytes,FromBigEndianBytes,ToBigEndianMontgomeryBytes"]}
{"id": "C101", "title": "Low-level pasta functions deliver their results", "statement": "SelectZnz, ToBytes, FromBytes, SetOne and MSat of both fields leave the documented result in the array given for it.", "quantifier": "all arguments, both fields", "why_tests_cant": "holds or fails for every argument because of how arrays are passed", "anchors": ["pasta/pasta_fp.go:FiatPastaFpSelectZnz,FiatPastaFpToBytes,FiatPastaFpFromBytes,FiatPastaFpSetOne,FiatPastaFpMSat", "pasta/pasta_fq.go:FiatPastaFqSelectZnz,FiatPastaFqToBytes,FiatPastaFqFromBytes,FiatPastaFqSetOne,FiatPastaFqMSat"]}
{"id": "C102", "title": "Pairing calls on point objects", "statement": "ValidatePairing(p1, p2, p3, p4) answers whether the pairing of p1 and p2 equals the pairing of p3 and p4, and Pair returns a new element that holds the pairing, after any history of calls on point objects of G1, G2 and the target group; neither changes the value of a point.", "quantifier": "all programs of calls on point objects, with any sharing of objects between arguments", "why_tests_cant": "which objects are shared and what was called before; infinitely many programs", "anchors": ["bls12_381/group.go:ValidatePairing,Pair", "bls12_381/bls/pairing.go:AddPair,AddPairInv", "bls12_381/gt.go:OwcryptGT"]}
{"id": "C103", "title": "A pairing engine holds the product of the pairs added", "statement": "For every sequence of AddPair, AddPairInv, Reset, Check and Result, Check answers whether the product of the pairings added since the last Reset or Result (inverted for AddPairInv) is one, and Result returns the cube of that product.", "quantifier": "all sequences of calls, all points, shared between pairs or not", "why_tests_cant": "infinitely many histories; sharing of points", "anchors": ["bls12_381/bls/pairing.go:AddPair,AddPairInv,Reset,Check,Result,calculate"]}
{"id": "C104", "title": "CURVE25519_SHA256 public keys are points of a prime-order group", "statement": "GenPubkey on CURVE25519_SHA256 returns the x-coordinate of the clamped private key times the base point of y^2 = x^3 + 486662 x^2 + x; the base point has prime order, no private key gives the point at infinity, and two private keys have the same public key exactly if their clamped scalars are equal or opposite modulo the order.", "quantifier": "all 32-byte private keys, all pairs of private keys", "why_tests_cant": "2^251 keys; the group law and the order of the base point enter", "anchors": ["eddsa/curve25519_sha256.go:CURVE25519_sha256_genPub,Keygen,core", "eccset.go:GenPubkey"]}
{"id": "C105", "title": "CURVE25519_SHA256 signatures satisfy the verification equation, and Verify checks it", "statement": "Every private key K has one signing key s with s*|K| = G. Signature returns v||h with h = SHA256(SHA256(m)||x-coordinate of R), R the nonce times G, and v the number below the order with v*|K| + h*G = R. Verify accepts exactly the signatures v||h of non-empty messages with v below the order and h = SHA256(SHA256(m)||x-coordinate of v*|Q| + h*G), Q a point with the public key as x-coordinate.", "quantifier": "all private keys, all messages, all public keys that are coordinates of points, all 64-byte signatures", "why_tests_cant": "2^252 scalars, a three-way ladder, signed extended gcd, square roots", "anchors": ["eddsa/curve25519_sha256.go:CURVE25519_sha256_sign,CURVE25519_sha256_verify,Keygen,core,Sign,Verify,egcd32,divmod,sqrt,isNegative", "eccset.go:Signature,Verify"]}
{"id": "C106", "title": "The assembly adds, subtracts, doubles and negates in the field", "statement": "On amd64, add, sub, double, neg and their Assign forms of the BLS12-381 base field leave in the result the canonical sum, difference, double or opposite modulo the prime of canonical operands, the lazy forms the result modulo 2^384; they change no other word of memory, and pointers may be equal or overlap.", "quantifier": "all machine states on entry: registers, flags, memory, pointers", "why_tests_cant": "2^768 pairs of operands, all ways of aliasing the pointers, rare carries", "anchors": ["bls12_381/bls/arithmetic_x86.s:add,addAssign,ladd,laddAssign,sub,subAssign,lsubAssign,double,doubleAssign,ldouble,_neg", "bls12_381/bls/arithmetic_decl.go:neg"]}
{"id": "C107", "title": "The ADX assembly multiplies in the field", "statement": "On amd64 processors with ADX and BMI2 the multiplication of the BLS12-381 base field leaves the canonical Montgomery product of its operands in the result and changes no other word of memory; hence G1.FromBytes accepts every point of the curve.", "quantifier": "all machine states on entry, all operands below twice the prime", "why_tests_cant": "2^762 pairs of operands; the carries that decide occur with probability about 2^-64", "anchors": ["bls12_381/bls/arithmetic_x86.s:mulADX,mulAssignADX", "bls12_381/bls/arithmetic_decl.go:mul,mulAssign,square,cfgArch", "bls12_381/bls/g1.go:FromBytes"]}
{"id": "C108", "title": "The assembly without ADX multiplies in the field", "statement": "On other amd64 processors the multiplication of the BLS12-381 base field leaves the canonical Montgomery product of its operands in the result and changes no other word of memory; hence G1.FromBytes accepts every point of the curve.", "quantifier": "all machine states on entry, all operands below twice the prime", "why_tests_cant": "2^762 pairs of operands; the words that decide occur with probability about 2^-64", "anchors": ["bls12_381/bls/arithmetic_x86.s:mulNoADX,mulAssignNoADX", "bls12_381/bls/arithmetic_decl.go:mul,mulAssign,square,cfgArch", "bls12_381/bls/g1.go:FromBytes"]}
{"id": "C109", "title": "Field operations leave the caller's frame alone", "statement": "No assembly function of the BLS12-381 base field writes to the stack beyond the frame it declares, where the caller's frame pointer is saved.", "quantifier": "all functions of the file, all machine states on entry", "why_tests_cant": "no test reads the saved frame pointer; profilers and tracers do", "anchors": ["bls12_381/bls/arithmetic_x86.s:mulNoADX,mulAssignNoADX,mulADX,mulAssignADX"]}
{"id": "C110", "title": "The assembly permutation of SHA-3 is the standard one", "statement": "On amd64 the permutation behind SHA3-224/256/384/512, the legacy Keccak functions and SHAKE replaces the state by Keccak-f[1600] of FIPS 202, whatever the registers and the stack hold, so every sequence of Write, Sum, Read, Reset and Clone returns what the portable build returns.", "quantifier": "all machine states on entry: all 2^1600 states, all register and frame contents; all sequences of calls", "why_tests_cant": "2^1600 states; a test covers one platform's build and a few messages", "anchors": ["sha3/keccakf_amd64.s:keccakF1600,mKeccakRound", "sha3/keccakf_amd64.go:keccakF1600", "sha3/keccakf.go:keccakF1600", "sha3/xor_unaligned.go:xorInUnaligned,copyOutUnaligned", "sha3/sha3.go:Write,Read,Sum,Reset"]}
{"id": "C111", "title": "SM2 point operations compute the group operation", "statement": "On SM2, Point_mul returns the encoding of k·P, GenPubkey that of d·G, Point_mulBaseG_add the key of a+b, and Point_mul on two key pairs agrees on ab·G. (False: the limb underflow of C22 makes Point_mul return a wrong point.)", "quantifier": "every curve point, every key and scalar of 32 bytes", "why_tests_cant": "the wrong results need operands of measure about 2^-32; tests with random keys do not meet them", "anchors": ["sm2_std.go:ScalarMult,ScalarBaseMult", "ecdsa.go:Mul,genPublicKey,MulBaseG_Add", "eccset.go:Point_mul,GenPubkey,Point_mulBaseG_add"]}
{"id": "C112", "title": "Division steps of the pasta fields", "statement": "FiatPastaFpDivStep and FiatPastaFqDivStep perform one division step of Bernstein and Yang on the counter, the two numbers and the two field elements and leave the results in the variables given for them; DivStepPreComp delivers the power of (m-1)/2 that turns the result of the loop into the inverse. (False: the arrays are passed by value.)", "quantifier": "all arguments, both fields; all numbers of loop steps", "why_tests_cant": "640 bits of state per step; a wrong carry shows for few inputs only", "anchors": ["pasta/pasta_fp.go:FiatPastaFpDivStep,FiatPastaFpDivStepPreComp", "pasta/pasta_fq.go:FiatPastaFqDivStep,FiatPastaFqDivStepPreComp"]}
{"id": "C113", "title": "BLS12-381 point calls treat objects as variables", "statement": "A history of calls Copy, Add, Sub, Double, Neg, MulScalar and Affine on point objects of G1 or G2 has the effect of the assignments it reads like, even when a call names one object several times (Add(p,p,p), Sub(p,q,p), MulScalar(p,p,e)) and the calls go through one or several group objects: each object encodes to the group element last assigned to it, and objects that are not destinations keep theirs.", "quantifier": "all histories of calls, all ways of naming objects, all points of the subgroup", "why_tests_cant": "the ways of naming the same object in a history are unbounded, and an operand overwritten too early shows only for some points", "anchors": ["bls12_381/bls/g1.go:Copy,Add,Sub,Double,Neg,MulScalar,Affine,ToCompressed", "bls12_381/bls/g2.go:Copy,Add,Sub,Double,Neg,MulScalar,Affine,ToCompressed", "bls12_381/g1.go:Add,Sub,Neg,Mul"]}
{"id": "C114", "title": "BLS12-381 point calls from several goroutines", "statement": "Goroutines that call the point operations of G1 or G2, none of which is given an object another one writes, do not influence each other: under every schedule each finishes and its objects hold what its own calls assign. (True when each goroutine uses its own group object, as the kyber wrappers do; false when they share one.)", "quantifier": "all numbers of goroutines, all programs of calls, all schedules, all points of the subgroup", "why_tests_cant": "schedules cannot be enumerated, and a test cannot force one", "anchors": ["bls12_381/bls/g1.go:NewG1,tempG1,Add,Double,Affine", "bls12_381/bls/g2.go:NewG2,tempG2,Add,Double,Affine", "bls12_381/g1.go:Add,Sub,Neg,Mul"]}
{"id": "C115", "title": "BLS12-381 target group calls treat objects as variables", "statement": "A history of calls Copy, Add, Sub, Mul, Square, Exp and Inverse on target group elements has the effect of the assignments it reads like, even when a call names one object several times (Mul(a,a,a), Exp(a,a,s), Inverse(a,a)) and the calls go through one or several GT objects: each object encodes to the value last assigned to it, and objects that are not destinations keep theirs. Square and Exp are meant for elements of order dividing r.", "quantifier": "all histories of calls, all ways of naming objects, all elements of the degree-12 field (of order dividing r for Square and Exp)", "why_tests_cant": "the ways of naming the same object in a history are unbounded, and a temporary or operand overwritten too early shows only for some elements", "anchors": ["bls12_381/bls/gt.go:Copy,Add,Sub,Mul,Square,Exp,Inverse", "bls12_381/bls/fp12.go:mul,cyclotomicSquare,fp4Square,inverse,cyclotomicExp", "bls12_381/bls/fp6.go:mul,square,mulByNonResidue,inverse", "bls12_381/bls/fp2.go:mul,square,mulByNonResidue,inverse", "bls12_381/gt.go:Add,Sub,Mul"]}
{"id": "C116", "title": "BLS12-381 target group calls from several goroutines", "statement": "Goroutines that call the target group operations, none of which is given an object another one writes, do not influence each other: under every schedule each finishes and its objects hold what its own calls assign. (True when each goroutine uses its own GT object; false when they share one: a schedule makes Mul return the inverse of the product.)", "quantifier": "all numbers of goroutines, all programs of calls, all schedules, all elements of the degree-12 field (of order dividing r for Square and Exp)", "why_tests_cant": "schedules cannot be enumerated, and a test cannot force one", "anchors": ["bls12_381/bls/gt.go:NewGT,Copy,Add,Sub,Mul,Square,Exp,Inverse", "bls12_381/bls/fp12.go:newFp12,fp12temp,mul,cyclotomicSquare,inverse", "bls12_381/bls/fp6.go:newFp6,mul,inverse", "bls12_381/bls/fp2.go:newFp2,mul,square,inverse"]}
{"id": "C117", "title": "BLS12-381 coordinates as numbers and text", "statement": "The methods of a coordinate p[i] of a point: SetBig followed by Big returns the number, FromBytes and Bytes, SetString and String invert each other, SetString either reads a hexadecimal string or reports an error, Cmp, Equals, IsOdd, IsEven and IsZero are those of the number, and IsOne is true after SetOne. (False for IsOne: SetOne stores 2^384 mod q and IsOne looks for 1; false for SetBig of numbers that are negative or longer than 48 bytes; SetString panics on strings of fewer than two bytes.)", "quantifier": "all elements, numbers, byte strings and strings", "why_tests_cant": "384-bit elements, and numbers and strings without bound", "anchors": ["bls12_381/bls/field_element.go:Bytes,FromBytes,SetBig,Big,SetUint,SetString,String,SetZero,SetOne,IsOdd,IsEven,IsZero,IsOne,Cmp,Equals"]}
{"id": "C118", "title": "BLS12-381 target group elements: Set, One, IsOne, Equal", "statement": "e.Set(f) makes e equal to f; e.IsOne() and g.IsOne(e) agree and tell whether e is the one of the group; Equal tells whether two elements are equal; e.One() sets e to one. (False for One, which returns one and leaves e unchanged.)", "quantifier": "all elements of the degree-12 field, all words", "why_tests_cant": "4608-bit elements", "anchors": ["bls12_381/bls/gt.go:Set,One,IsOne,Equal", "bls12_381/bls/field_element.go:isOne,isZero,equal"]}
{"id": "C119", "title": "Mina messages survive their byte form", "statement": "NewMinaMessage(m.ToBytes()) returns m for every message, ToBytes gives different bytes for different messages, and signing or verifying m.ToBytes() signs or verifies m: Signature succeeds for every accepted key, and Verify decides the Schnorr equation for the challenge of m.", "quantifier": "all messages (any number of fields, any words, nil slices), all keys and signatures", "why_tests_cant": "messages are unbounded lists of 256-bit fields", "anchors": ["pasta/mina.go:ToBytes,NewMinaMessage", "pasta/pasta.go:Sign,Verify"]}
{"id": "C120", "title": "A PASTA signature is bound to its message", "statement": "A signature that Verify accepts for a message is not accepted for another one. (False: members with unknown keys can be added to the bytes, a fifth word of a field and a fourth field of the initial state are dropped; and when the message has an even number of fields, a zero field can be appended to it.)", "quantifier": "all keys, messages and signatures", "why_tests_cant": "the set of other messages is infinite", "anchors": ["pasta/mina.go:NewMinaMessage,MessageHash", "pasta/poseidon.go:PoseidonUpdate,PoseidonDigest", "pasta/pasta.go:Verify"]}
{"id": "C121", "title": "Which texts are Mina messages", "statement": "NewMinaMessage accepts a text exactly if it is a JSON text whose value is null or an object in which the members named transactionPrefix, transactionSuffix and spongeIV (in any case) hold arrays of the right shape with words below 2^64, or null; the message read is the one these members describe (the last one of a name counts, missing words and fields are 0), whatever the white space, the order of the members and the other members; Signature succeeds exactly for an accepted key and such a text, and Verify accepts no other text.", "quantifier": "all byte strings, messages and keys (strings inside the text without backslashes and without bytes outside ASCII)", "why_tests_cant": "texts are unbounded, nested to any depth", "anchors": ["pasta/mina.go:NewMinaMessage", "pasta/pasta.go:Sign,Verify"]}
{"id": "C122", "title": "Texts and sizes of BLS12-381 group elements", "statement": "String of an element is the name of its group, a colon and the lower-case hexadecimal digits of the published encoding, and leaves the element unchanged; two elements have the same text exactly if they are equal, elements of different groups never do; MarshalBinary has the length PointLen announces. (False for the name in G2: the text begins with the name of G1.)", "quantifier": "all elements of the three groups, in all Jacobian representations", "why_tests_cant": "the groups have more than 2^380 elements", "anchors": ["bls12_381/g1.go:String,MarshalSize,MarshalBinary", "bls12_381/g2.go:String,MarshalSize,MarshalBinary", "bls12_381/gt.go:String,MarshalSize,MarshalBinary", "bls12_381/group.go:String,PointLen,NewGroupG1,NewGroupG2,NewGroupGT"]}
