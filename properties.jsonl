{"id": "C01", "title": "SecretKey::parse accepts exactly the integers 1..n-1", "statement": "SecretKey::parse(b) returns Ok iff the big-endian value v of b satisfies 0 < v < n; otherwise it returns Err(InvalidSecretKey). On success the key's scalar is v.", "quantifier": "all 32-byte arrays", "why_tests_cant": "the input space has about 2^256 (or more) elements and the interesting boundaries (n, p, limb carries) are hit with negligible probability by random tests", "anchors": ["src/lib.rs:SecretKey::parse", "core/src/scalar.rs:Scalar::set_b32", "core/src/scalar.rs:Scalar::check_overflow"]}
{"id": "C02", "title": "SecretKey bytes round-trip", "statement": "If SecretKey::parse(b) = Ok(k) then k.serialize() = b; and for every valid key k, SecretKey::parse(k.serialize()) = Ok(k).", "quantifier": "all 32-byte arrays, all secret keys", "why_tests_cant": "the input space has about 2^256 (or more) elements and the interesting boundaries (n, p, limb carries) are hit with negligible probability by random tests", "anchors": ["src/lib.rs:SecretKey::serialize", "core/src/scalar.rs:Scalar::fill_b32"]}
{"id": "C03", "title": "Slice parsers reject exactly the wrong lengths", "statement": "SecretKey/Message/Signature/PublicKey ::parse_slice (and variants) return Err(InvalidInputLength) iff the slice length (or the length/format combination for public keys) is not an admissible one, and otherwise behave exactly as the fixed-size parser on the same bytes.", "quantifier": "all byte slices of every length, all format hints", "why_tests_cant": "slices are unbounded in length", "anchors": ["src/lib.rs:SecretKey::parse_slice", "src/lib.rs:Message::parse_slice", "src/lib.rs:Signature::parse_standard_slice", "src/lib.rs:Signature::parse_overflowing_slice", "src/lib.rs:PublicKey::parse_slice"]}
{"id": "C04", "title": "Message::parse reduces modulo the group order", "statement": "Message::parse(b) never fails and its scalar is the big-endian value of b modulo n; serialize() of the result is the 32-byte big-endian encoding of that residue.", "quantifier": "all 32-byte arrays", "why_tests_cant": "the input space has about 2^256 (or more) elements and the interesting boundaries (n, p, limb carries) are hit with negligible probability by random tests", "anchors": ["src/lib.rs:Message::parse", "src/lib.rs:Message::serialize"]}
{"id": "C05", "title": "Signature::parse_standard accepts exactly r<n and s<n and inverts serialize", "statement": "parse_standard(b) is Ok iff both big-endian halves are < n, else Err(InvalidSignature); on Ok r and s are those values and serialize() returns b; parse_standard(sig.serialize()) = Ok(sig) for every canonical signature.", "quantifier": "all 64-byte arrays, all canonical signatures", "why_tests_cant": "the input space has about 2^256 (or more) elements and the interesting boundaries (n, p, limb carries) are hit with negligible probability by random tests", "anchors": ["src/lib.rs:Signature::parse_standard", "src/lib.rs:Signature::serialize"]}
{"id": "C06", "title": "Signature::parse_overflowing reduces each half modulo n", "statement": "parse_overflowing(b) has r = value(b[0..32]) mod n and s = value(b[32..64]) mod n, and agrees with parse_standard whenever the latter accepts.", "quantifier": "all 64-byte arrays", "why_tests_cant": "the input space has about 2^256 (or more) elements and the interesting boundaries (n, p, limb carries) are hit with negligible probability by random tests", "anchors": ["src/lib.rs:Signature::parse_overflowing"]}
{"id": "C07", "title": "Scalar addition is addition modulo n", "statement": "For scalars below n, a + b is the canonical representative (below n) of the sum modulo n, without any debug assertion or overflow.", "quantifier": "all pairs of canonical scalars", "why_tests_cant": "the input space has about 2^256 (or more) elements and the interesting boundaries (n, p, limb carries) are hit with negligible probability by random tests", "anchors": ["core/src/scalar.rs:AddAssign for Scalar", "core/src/scalar.rs:Scalar::reduce", "core/src/scalar.rs:Scalar::check_overflow"]}
{"id": "C08", "title": "Scalar multiplication and squaring are multiplication modulo n", "statement": "a * b and a.sqr() are the canonical representative of the product modulo n for arbitrary 256-bit operands; no carry is lost and no debug assertion fires.", "quantifier": "all pairs of 8-limb scalars", "why_tests_cant": "the input space has about 2^256 (or more) elements and the interesting boundaries (n, p, limb carries) are hit with negligible probability by random tests", "anchors": ["core/src/scalar.rs:Scalar::mul_512", "core/src/scalar.rs:Scalar::sqr_512", "core/src/scalar.rs:Scalar::reduce_512", "core/src/scalar.rs:define_ops!"]}
{"id": "C09", "title": "Scalar negation is negation modulo n", "statement": "-a is the canonical representative of n - a (and 0 for 0); a + (-a) = 0; cond_neg_assign(false) is the identity.", "quantifier": "all canonical scalars", "why_tests_cant": "the input space has about 2^256 (or more) elements and the interesting boundaries (n, p, limb carries) are hit with negligible probability by random tests", "anchors": ["core/src/scalar.rs:Scalar::cond_neg_assign"]}
{"id": "C10", "title": "Scalar and secret-key inversion", "statement": "a.inv() * a = 1 for every canonical a != 0 and inv(0) = 0; SecretKey::inv is an involution and its result is a valid key.", "quantifier": "all canonical scalars", "why_tests_cant": "the input space has about 2^256 (or more) elements and the interesting boundaries (n, p, limb carries) are hit with negligible probability by random tests", "anchors": ["core/src/scalar.rs:Scalar::inv_in_place", "src/lib.rs:SecretKey::inv"]}
{"id": "C11", "title": "normalize_s yields a low-S signature", "statement": "After normalize_s, s is at most (n-1)/2, it is s or n-s of the input, r is unchanged, and the operation is idempotent.", "quantifier": "all canonical signatures", "why_tests_cant": "the only inputs on which the shipped code fails are two scalars out of 2^256", "anchors": ["src/lib.rs:Signature::normalize_s", "core/src/scalar.rs:Scalar::is_high"]}
{"id": "C12", "title": "Field multiplication and squaring are exact modulo p", "statement": "For operands within the documented magnitude (at most 8) the product and square represent the product modulo p, have magnitude 1, and no intermediate u32/u64 overflows nor any debug assertion fires.", "quantifier": "all pairs of well-formed field elements of magnitude <= 8", "why_tests_cant": "operands range over 10 limbs of up to 30 bits each", "anchors": ["core/src/field.rs:Field::mul_inner", "core/src/field.rs:Field::sqr_inner", "core/src/field.rs:Field::mul_in_place"]}
{"id": "C13", "title": "Field normalization is canonical", "statement": "normalize and normalize_var return the unique representative in [0,p) of the same residue; normalize_weak keeps the residue and brings magnitude to 1; normalizes_to_zero(_var) is true iff the residue is 0; == holds iff residues are equal.", "quantifier": "all well-formed field elements (magnitude <= 31)", "why_tests_cant": "the input space has about 2^256 (or more) elements and the interesting boundaries (n, p, limb carries) are hit with negligible probability by random tests", "anchors": ["core/src/field.rs:Field::normalize", "core/src/field.rs:Field::normalize_var", "core/src/field.rs:Field::normalize_weak", "core/src/field.rs:Field::normalizes_to_zero", "core/src/field.rs:Field::normalizes_to_zero_var", "core/src/field.rs:PartialEq for Field"]}
{"id": "C14", "title": "Field inversion and square root are exact", "statement": "inv() is the inverse modulo p (0 for 0); sqrt() returns true iff the element is a square modulo p, and then the returned value squares to it.", "quantifier": "all well-formed field elements of magnitude <= 8", "why_tests_cant": "the input space has about 2^256 (or more) elements and the interesting boundaries (n, p, limb carries) are hit with negligible probability by random tests", "anchors": ["core/src/field.rs:Field::inv", "core/src/field.rs:Field::sqrt", "core/src/field.rs:Field::is_quad_var"]}
{"id": "C15", "title": "Field byte and storage conversions round-trip", "statement": "Field::set_b32 succeeds iff the big-endian value is < p and then holds that value; b32 of a normalized element is its big-endian encoding; FieldStorage conversion is lossless on normalized elements.", "quantifier": "all 32-byte arrays, all normalized field elements", "why_tests_cant": "the input space has about 2^256 (or more) elements and the interesting boundaries (n, p, limb carries) are hit with negligible probability by random tests", "anchors": ["core/src/field.rs:Field::set_b32", "core/src/field.rs:Field::fill_b32", "core/src/field.rs:From<FieldStorage> for Field", "core/src/field.rs:Into<FieldStorage> for Field"]}
{"id": "C16", "title": "Variable-time point addition and doubling implement the group law", "statement": "double_var, add_var, add_ge_var and add_zinv_var return a representation of the elliptic-curve sum for every pair of curve points, including equal points, opposite points and the point at infinity.", "quantifier": "all curve points in all projective representations within the magnitude limits", "why_tests_cant": "exceptional cases (P=Q, P=-Q, infinity) have negligible probability for random inputs", "anchors": ["core/src/group.rs:Jacobian::double_var_in_place", "core/src/group.rs:Jacobian::add_var_in_place", "core/src/group.rs:Jacobian::add_ge_var_in_place", "core/src/group.rs:Jacobian::add_zinv_var_in_place"]}
{"id": "C17", "title": "Constant-time point addition is complete", "statement": "add_ge returns a representation of a+b for every curve point a (including infinity) and every finite b, including a=b, a=-b and the degenerate case of the unified formula (y1=-y2, x1 != x2).", "quantifier": "all curve points and representations", "why_tests_cant": "the degenerate case needs points related by the cube root of unity endomorphism", "anchors": ["core/src/group.rs:Jacobian::add_ge_in_place"]}
{"id": "C18", "title": "PublicKey::from_secret_key computes sk*G", "statement": "The public key derived from a secret key is the curve point sk*G, finite and on the curve, for every secret key that is not a multiple of n.", "quantifier": "all secret keys whose integer is not a multiple of n, canonical or not", "why_tests_cant": "the input space has about 2^256 (or more) elements and the interesting boundaries (n, p, limb carries) are hit with negligible probability by random tests", "anchors": ["src/lib.rs:PublicKey::from_secret_key_with_context", "core/src/ecmult.rs:ECMultGenContext::ecmult_gen", "core/src/group.rs:Affine::set_gej"]}
{"id": "C19", "title": "PublicKey::parse accepts exactly the valid 65-byte encodings", "statement": "parse(b) is Ok iff b[0] is 4, or 6/7 with matching parity of y, both coordinates are < p and (x,y) satisfies y^2=x^3+7; otherwise Err(InvalidPublicKey). On Ok the key is that point.", "quantifier": "all 65-byte arrays", "why_tests_cant": "the input space has about 2^256 (or more) elements and the interesting boundaries (n, p, limb carries) are hit with negligible probability by random tests", "anchors": ["src/lib.rs:PublicKey::parse", "core/src/group.rs:Affine::is_valid_var"]}
{"id": "C20", "title": "PublicKey::parse_compressed accepts exactly the valid 33-byte encodings", "statement": "parse_compressed(b) is Ok iff b[0] is 2 or 3, x<p and x^3+7 is a square modulo p; the resulting point has that x and the y of the requested parity; otherwise Err(InvalidPublicKey).", "quantifier": "all 33-byte arrays", "why_tests_cant": "the input space has about 2^256 (or more) elements and the interesting boundaries (n, p, limb carries) are hit with negligible probability by random tests", "anchors": ["src/lib.rs:PublicKey::parse_compressed", "core/src/group.rs:Affine::set_xo_var"]}
{"id": "C21", "title": "Public-key serialization round-trips", "statement": "For every valid public key k, parse(k.serialize()) and parse_compressed(k.serialize_compressed()) return a key equal to k, and the serialized bytes are the SEC1 uncompressed/compressed encodings of its point.", "quantifier": "all valid public keys in every internal representation", "why_tests_cant": "the input space has about 2^256 (or more) elements and the interesting boundaries (n, p, limb carries) are hit with negligible probability by random tests", "anchors": ["src/lib.rs:PublicKey::serialize", "src/lib.rs:PublicKey::serialize_compressed"]}
{"id": "C22", "title": "Public-key equality is equality of points", "statement": "For valid public keys, a == b iff they are the same curve point iff serialize() outputs coincide, regardless of how they were computed.", "quantifier": "all pairs of valid public keys", "why_tests_cant": "the same point has many internal limb representations", "anchors": ["src/lib.rs:PublicKey (derive PartialEq)", "core/src/field.rs:PartialEq for Field"]}
{"id": "C23", "title": "verify decides exactly the ECDSA verification equation", "statement": "verify(m,(r,s),Q) returns true iff r,s are nonzero and the point (m/s)G+(r/s)Q is finite with x-coordinate congruent to r modulo n; it never panics in either build profile.", "quantifier": "all messages (reduced or not), all canonical signatures, all valid public keys", "why_tests_cant": "the input space has about 2^256 (or more) elements and the interesting boundaries (n, p, limb carries) are hit with negligible probability by random tests", "anchors": ["src/lib.rs:verify_with_context", "core/src/ecdsa.rs:ECMultContext::verify_raw"]}
{"id": "C24", "title": "Signatures produced by sign verify", "statement": "If signing message m with secret key d returns (sig, id) with sig.r != 0 then verify(m, sig, from_secret_key(d)) is true.", "quantifier": "all secret keys that are not multiples of n, all messages and nonce generators, canonical or not", "why_tests_cant": "the input space has about 2^256 (or more) elements and the interesting boundaries (n, p, limb carries) are hit with negligible probability by random tests", "anchors": ["src/lib.rs:sign_with_context", "core/src/ecdsa.rs:ECMultGenContext::sign_raw"]}
{"id": "C25", "title": "recover inverts sign", "statement": "If signing m with d returns (sig, id) with sig.r != 0 then recover(m, sig, id) = Ok(from_secret_key(d)) (same point, same serialization).", "quantifier": "all secret keys that are not multiples of n, all messages and nonce generators, canonical or not", "why_tests_cant": "the recovery id's overflow bit is set with probability 2^-128", "anchors": ["src/lib.rs:recover_with_context", "core/src/ecdsa.rs:ECMultContext::recover_raw"]}
{"id": "C26", "title": "recover only returns keys under which the signature verifies", "statement": "If recover(m, sig, id) = Ok(Q) then Q is a valid public key and verify(m, sig, Q) = true; it errs exactly when no such point exists for that id.", "quantifier": "all messages (reduced or not), canonical signatures and recovery ids", "why_tests_cant": "the input space has about 2^256 (or more) elements and the interesting boundaries (n, p, limb carries) are hit with negligible probability by random tests", "anchors": ["src/lib.rs:recover_with_context", "core/src/ecdsa.rs:ECMultContext::recover_raw"]}
{"id": "C27", "title": "ECDSA s-malleability is exactly the sign of s", "statement": "verify(m,(r,s),Q) = verify(m,(r,-s),Q); in particular normalize_s never changes the verdict.", "quantifier": "all messages (reduced or not), canonical signatures, valid keys", "why_tests_cant": "the input space has about 2^256 (or more) elements and the interesting boundaries (n, p, limb carries) are hit with negligible probability by random tests", "anchors": ["src/lib.rs:Signature::normalize_s", "src/lib.rs:verify_with_context"]}
{"id": "C28", "title": "sign returns canonical low-S signatures", "statement": "sign returns 0<r<n, 0<s<=(n-1)/2 and a recovery id below 4.", "quantifier": "all secret keys, messages, nonces", "why_tests_cant": "the shipped code violates this only for specific nonces/messages of measure about 2^-256", "anchors": ["core/src/ecdsa.rs:ECMultGenContext::sign_raw", "core/src/scalar.rs:Scalar::is_high"]}
{"id": "C29", "title": "sign uses the first acceptable nonce of the DRBG stream seeded by (key,message)", "statement": "sign seeds the DRBG with serialize(key), serialize(message) and empty personalization, and the returned signature is the one computed from the first 32-byte block whose value is in 1..n-1 and for which s != 0; earlier blocks have no influence.", "quantifier": "all keys and messages, canonical or not, and all DRBG output streams", "why_tests_cant": "the rejection path needs a block >= n (probability 2^-128)", "anchors": ["src/lib.rs:sign_with_context"]}
{"id": "C30", "title": "Secret and public additive tweaks commute", "statement": "from_secret_key(sk tweaked by +t) equals from_secret_key(sk) tweaked by +t, and one returns TweakOutOfRange iff the other does; on error the key is unchanged.", "quantifier": "all valid secret keys and tweaks", "why_tests_cant": "the input space has about 2^256 (or more) elements and the interesting boundaries (n, p, limb carries) are hit with negligible probability by random tests", "anchors": ["src/lib.rs:SecretKey::tweak_add_assign", "src/lib.rs:PublicKey::tweak_add_assign_with_context"]}
{"id": "C31", "title": "Secret and public multiplicative tweaks commute", "statement": "from_secret_key(sk * t) equals from_secret_key(sk) tweaked by *t for every valid t; a zero tweak gives TweakOutOfRange on both sides and leaves the key unchanged; results are again valid keys.", "quantifier": "all valid secret keys and tweaks", "why_tests_cant": "the input space has about 2^256 (or more) elements and the interesting boundaries (n, p, limb carries) are hit with negligible probability by random tests", "anchors": ["src/lib.rs:SecretKey::tweak_mul_assign", "src/lib.rs:PublicKey::tweak_mul_assign_with_context"]}
{"id": "C32", "title": "combine is the group sum", "statement": "combine(keys) returns the sum of the points, or Err(InvalidPublicKey) iff the sum is the point at infinity (in particular for the empty list); the result is invariant under permutation and duplication is counted.", "quantifier": "all finite lists of valid public keys", "why_tests_cant": "lists of every length; cancellations anywhere in the list", "anchors": ["src/lib.rs:PublicKey::combine", "core/src/group.rs:Jacobian::add_ge"]}
{"id": "C33", "title": "ECDH is symmetric and equals H(parity||x)", "statement": "SharedSecret::new(P, k) = H(compressed encoding of k*P) for every valid P and k and digest H; SharedSecret::new(bG, a) = SharedSecret::new(aG, b); a zero key gives Err(InvalidSecretKey).", "quantifier": "all valid public/secret keys, all digests", "why_tests_cant": "the input space has about 2^256 (or more) elements and the interesting boundaries (n, p, limb carries) are hit with negligible probability by random tests", "anchors": ["core/src/ecdh.rs:ECMultContext::ecdh_raw", "src/lib.rs:SharedSecret::new_with_context", "core/src/ecmult.rs:ECMultContext::ecmult_const"]}
{"id": "C34", "title": "ecmult computes na*A + ng*G", "statement": "With the generated context, ecmult(A,na,ng) is the group element na*A+ng*G for every finite curve point A and canonical scalars, including results at infinity.", "quantifier": "all curve points, all pairs of canonical scalars", "why_tests_cant": "the input space has about 2^256 (or more) elements and the interesting boundaries (n, p, limb carries) are hit with negligible probability by random tests", "anchors": ["core/src/ecmult.rs:ECMultContext::ecmult", "core/src/ecmult.rs:ecmult_wnaf", "core/src/ecmult.rs:odd_multiples_table"]}
{"id": "C35", "title": "ecmult_const computes s*A", "statement": "ecmult_const(A,s) is s*A for every finite curve point and canonical nonzero scalar.", "quantifier": "all curve points and canonical scalars", "why_tests_cant": "the input space has about 2^256 (or more) elements and the interesting boundaries (n, p, limb carries) are hit with negligible probability by random tests", "anchors": ["core/src/ecmult.rs:ECMultContext::ecmult_const", "core/src/ecmult.rs:ecmult_wnaf_const"]}
{"id": "C36", "title": "ecmult_gen computes k*G independently of blinding", "statement": "ecmult_gen(k) is k*G for every limb array k, canonical or not; the hard-coded blinding scalar and initial point cancel exactly.", "quantifier": "all 2^256 limb arrays", "why_tests_cant": "the input space has about 2^256 (or more) elements and the interesting boundaries (n, p, limb carries) are hit with negligible probability by random tests", "anchors": ["core/src/ecmult.rs:ECMultGenContext::ecmult_gen", "core/src/ecmult.rs:GEN_BLIND", "core/src/ecmult.rs:GEN_INITIAL"]}
{"id": "C37", "title": "Generated contexts contain the right multiples of G", "statement": "ECMultContext::new_boxed stores (2i+1)G at index i for every i; ECMultGenContext::new_boxed stores i*16^j*G+U_j with sum of U_j = 0; no entry is infinity.", "quantifier": "all table indices", "why_tests_cant": "whole-table statement derived by induction, not by sampling entries", "anchors": ["core/src/ecmult.rs:ECMultContext::new_boxed", "core/src/ecmult.rs:ECMultGenContext::new_boxed", "core/src/ecmult.rs:set_all_gej_var", "core/src/group.rs:set_table_gej_var"]}
{"id": "C38", "title": "wNAF recodings represent the scalar", "statement": "ecmult_wnaf(a,w) returns digits whose weighted sum is a modulo n, all nonzero digits odd with |d|<2^(w-1), zero at and beyond the returned length; ecmult_wnaf_const returns odd digits with |d|<=15 whose base-16 sum is a plus its skew (with the global sign).", "quantifier": "all canonical scalars, all window sizes 2..30 (the source's assertion also admits 31, where the digit arithmetic overflows i32)", "why_tests_cant": "the input space has about 2^256 (or more) elements and the interesting boundaries (n, p, limb carries) are hit with negligible probability by random tests", "anchors": ["core/src/ecmult.rs:ecmult_wnaf", "core/src/ecmult.rs:ecmult_wnaf_const"]}
{"id": "C39", "title": "serialize_der then parse_der is the identity", "statement": "parse_der(sig.serialize_der()) = Ok(sig) for every canonical signature.", "quantifier": "all canonical signatures", "why_tests_cant": "fails only for s = 0", "anchors": ["src/lib.rs:Signature::serialize_der", "src/lib.rs:Signature::parse_der", "core/src/der.rs:Decoder"]}
{"id": "C40", "title": "parse_der is strict: unique encoding", "statement": "If parse_der(b) = Ok(sig) with r and s nonzero then b = sig.serialize_der(); hence no two byte strings decode to the same usable signature.", "quantifier": "all byte strings of every length", "why_tests_cant": "malleability hunting over unbounded inputs", "anchors": ["src/lib.rs:Signature::parse_der", "core/src/der.rs:Decoder::read_len", "core/src/der.rs:Decoder::read_integer"]}
{"id": "C41", "title": "DER parsing never panics or reads out of bounds", "statement": "parse_der and parse_der_lax return Ok or Err on every input: no index, slice, subtraction or shift panics in either profile.", "quantifier": "all byte strings (length < 2^55)", "why_tests_cant": "unbounded adversarial inputs", "anchors": ["src/lib.rs:Signature::parse_der", "src/lib.rs:Signature::parse_der_lax", "core/src/der.rs:Decoder"]}
{"id": "C42", "title": "serialize_der emits minimal DER", "statement": "serialize_der returns 0x30 len 0x02 len(r) r 0x02 len(s) s with minimal two's-complement positive integers, and at most 72 bytes.", "quantifier": "all canonical signatures", "why_tests_cant": "length depends on leading-zero and high-bit patterns", "anchors": ["src/lib.rs:Signature::serialize_der", "core/src/der.rs:SignatureArray"]}
{"id": "C43", "title": "Lax DER accepts everything strict DER accepts", "statement": "If parse_der(b) = Ok(sig) with r and s nonzero then parse_der_lax(b) = Ok(sig).", "quantifier": "all byte strings", "why_tests_cant": "unbounded inputs", "anchors": ["src/lib.rs:Signature::parse_der_lax", "core/src/der.rs:Decoder::read_len_lax", "core/src/der.rs:Decoder::read_integer_lax"]}
{"id": "C44", "title": "parse_der accepts only a sequence of two integers", "statement": "Every input accepted by parse_der is a DER SEQUENCE whose content is exactly two INTEGERs; out-of-range integers give a zero component.", "quantifier": "all byte strings", "why_tests_cant": "needs a crafted nested encoding", "anchors": ["core/src/der.rs:Decoder::read_integer", "src/lib.rs:Signature::parse_der"]}
{"id": "C45", "title": "RecoveryId parsing", "statement": "RecoveryId::parse(b) is Ok iff b<4; parse_rpc(b) is Ok iff 27<=b<31 with value b-27; serialize returns the stored value.", "quantifier": "all u8 values", "why_tests_cant": "(exhaustive)", "anchors": ["src/lib.rs:RecoveryId::parse", "src/lib.rs:RecoveryId::parse_rpc"]}
{"id": "C46", "title": "No panic on valid inputs in either build profile", "statement": "Key derivation, verify, recover, tweaks, combine, ECDH and (de)serialization of valid objects never hit an arithmetic overflow, out-of-range index or debug_assert.", "quantifier": "all valid inputs, debug and release profiles", "why_tests_cant": "overflow bounds depend on worst-case limb values that random inputs never reach", "anchors": ["core/src/field.rs:debug_assert_bits!", "core/src/field.rs:Field::verify", "core/src/ecmult.rs", "core/src/ecdsa.rs"]}
{"id": "C47", "title": "serde round-trip of public keys", "statement": "Deserializing what Serialize emits (base64 string or bytes) yields an equal key; deserialization accepts exactly the encodings parse_slice accepts. The lengths named by the expecting texts of the visitors are exactly those of the (decoded) byte strings some of which are accepted.", "quantifier": "all valid public keys, both serde modes", "why_tests_cant": "the input space has about 2^256 (or more) elements and the interesting boundaries (n, p, limb carries) are hit with negligible probability by random tests", "anchors": ["src/lib.rs:Serialize for PublicKey", "src/lib.rs:Deserialize for PublicKey"]}
{"id": "C48", "title": "Hex formatting of a secret key is its serialization", "statement": "format!(\"{:x}\", sk) is the lowercase hex of sk.serialize().", "quantifier": "all secret keys", "why_tests_cant": "(the shipped code prints the limbs in the opposite order)", "anchors": ["core/src/scalar.rs:LowerHex for Scalar", "src/lib.rs:LowerHex for SecretKey"]}
{"id": "C49", "title": "SecretKey::random returns the first in-range draw", "statement": "SecretKey::random always returns a valid key, namely the first 32-byte draw of the RNG whose value lies in 1..n-1; out-of-range draws are discarded entirely.", "quantifier": "all RNG streams", "why_tests_cant": "rejection has probability 2^-128", "anchors": ["src/lib.rs:SecretKey::random"]}
{"id": "C50", "title": "clear zeroizes", "statement": "After SecretKey::clear the scalar is zero, is_zero() is true and serialize() is 32 zero bytes.", "quantifier": "all secret keys", "why_tests_cant": "trivial but for all values", "anchors": ["src/lib.rs:SecretKey::clear", "core/src/scalar.rs:Scalar::clear"]}
{"id": "C51", "title": "Scalar bit access and shifts", "statement": "bits/bits_var return exactly the requested bits of the 256-bit value; shr_int divides by 2^n and returns the remainder; cadd_bit adds the requested power of two.", "quantifier": "all scalars, all offsets/counts allowed by the contract", "why_tests_cant": "the input space has about 2^256 (or more) elements and the interesting boundaries (n, p, limb carries) are hit with negligible probability by random tests", "anchors": ["core/src/scalar.rs:Scalar::bits", "core/src/scalar.rs:Scalar::bits_var", "core/src/scalar.rs:Scalar::shr_int", "core/src/scalar.rs:Scalar::cadd_bit"]}
{"id": "C52", "title": "Batch inversion", "statement": "inv_all_var returns the element-wise inverses of any list of nonzero field elements; set_all_gej_var converts every point of a list to affine (points at infinity keep their flag).", "quantifier": "all finite lists", "why_tests_cant": "lists of every length", "anchors": ["core/src/ecmult.rs:inv_all_var", "core/src/ecmult.rs:set_all_gej_var"]}
{"id": "C53", "title": "TryFrom conversions only admit valid objects", "statement": "PublicKey::try_from(Affine) is Ok iff the point is finite and on the curve; SecretKey::try_from(Scalar) on canonical scalars is Ok iff nonzero.", "quantifier": "all affine values within magnitude limits, all canonical scalars", "why_tests_cant": "the input space has about 2^256 (or more) elements and the interesting boundaries (n, p, limb carries) are hit with negligible probability by random tests", "anchors": ["src/lib.rs:TryFrom<Affine> for PublicKey", "src/lib.rs:TryFrom<Scalar> for SecretKey"]}
{"id": "C54", "title": "sign never returns an all-zero r", "statement": "sign_raw returns an error rather than a signature with r = 0, and never trips its own debug assertions.", "quantifier": "all secret keys, messages, nonces", "why_tests_cant": "needs a nonce whose point has x = n, i.e. a discrete logarithm", "anchors": ["core/src/ecdsa.rs:ECMultGenContext::sign_raw"]}
{"id": "C55", "title": "The curve group is cyclic of prime order n", "statement": "Every point the library can hold is a multiple of G and n times any point is infinity; so scalar arithmetic modulo n acts faithfully on every public key (no small-subgroup inputs exist).", "quantifier": "all curve points", "why_tests_cant": "2^256 points", "anchors": ["core/src/group.rs:AFFINE_G", "core/src/group.rs:CURVE_B", "core/src/scalar.rs:SECP256K1_N"]}
{"id": "C56", "title": "Every verifying key is recoverable", "statement": "If verify(m, sig, Q) is true then for one of the four recovery ids recover(m, sig, id) returns a key equal to Q.", "quantifier": "all messages (reduced or not), canonical signatures, valid public keys", "why_tests_cant": "the ids with the overflow bit are needed for signatures that occur with probability 2^-128", "anchors": ["src/lib.rs:recover_with_context", "src/lib.rs:verify_with_context", "core/src/ecdsa.rs:ECMultContext::recover_raw"]}
{"id": "C57", "title": "DER parsing does not depend on the target", "statement": "parse_der and parse_der_lax give the same result on 32-bit and 64-bit targets, in both profiles.", "quantifier": "all byte strings shorter than 2^24", "why_tests_cant": "tests run on one target; lengths of up to 8 bytes are accumulated in a usize", "anchors": ["core/src/der.rs:Decoder::read_len", "core/src/der.rs:Decoder::read_seq_len_lax"]}
{"id": "C58", "title": "Exact acceptance set of parse_der_lax", "statement": "parse_der_lax accepts exactly: 0x30, a BER length (ignored), then two INTEGERs with BER lengths below 2^(usize bits - 8), read as unsigned numbers; values >= n give 0; an integer of more than 256 bits gives 0 and its significant bytes are read again. Trailing bytes are ignored. Everything else is InvalidSignature, and every result of both parsers has r, s < n.", "quantifier": "all byte slices (length <= isize::MAX), both profiles", "why_tests_cant": "unbounded adversarial inputs", "anchors": ["src/lib.rs:Signature::parse_der_lax", "core/src/der.rs:Decoder::read_integer_lax", "core/src/der.rs:Decoder::read_len_lax"]}
{"id": "C59", "title": "Exact acceptance set of parse_der", "statement": "parse_der accepts exactly the minimal DER sequences of two integers u < 2^256 and 0 < v < 2^256 (giving 0 for values >= n), and the sequences made of an INTEGER header of length k >= 33 followed by one complete INTEGER of at least k bytes (giving r = 0). Everything else is InvalidSignature.", "quantifier": "all byte slices (length <= isize::MAX); the refusals in debug builds only below 2^(usize bits - 8) bytes", "why_tests_cant": "unbounded adversarial inputs", "anchors": ["src/lib.rs:Signature::parse_der", "core/src/der.rs:Decoder"]}
{"id": "C60", "title": "Lax DER ignores trailing bytes", "statement": "If parse_der_lax(b) = Ok(sig) then parse_der_lax(b ++ t) = Ok(sig).", "quantifier": "all byte slices b ++ t (length <= isize::MAX)", "why_tests_cant": "unbounded inputs", "anchors": ["src/lib.rs:Signature::parse_der_lax"]}
{"id": "C61", "title": "Field elements: invariant, constructors, predicates", "statement": "Field::verify accepts exactly the elements whose limbs respect the magnitude bounds and, if normalized, hold a value below p. Field::new takes its eight words as a 256-bit integer; from_int(a) is a, and panics in debug builds exactly for a >= 2^26. is_zero, is_odd and cmp_var on normalized elements read the least residue, and panic in debug builds on others; eq_var, is_quad_var and cmov are equality modulo p, quadratic residuosity and selection.", "quantifier": "all limb values, magnitudes and flags", "why_tests_cant": "2^320 representations", "anchors": ["core/src/field.rs:verify", "core/src/field.rs:new", "core/src/field.rs:from_int", "core/src/field.rs:cmp_var", "core/src/field.rs:is_quad_var"]}
{"id": "C62", "title": "Conversions and predicates of points", "statement": "set_ge, set_gej, set_gej_var, neg, rescale and the storage conversions keep the point (negate it) for every representative, infinity included; set_xquad/set_xo_var find a point with the given x exactly when one exists, with square y / requested parity; is_valid_var, ==, eq_x_var, has_quad_y_var decide the corresponding statements about the curve point. The Default values are zero in every coordinate and finite, hence not curve points.", "quantifier": "all representations of all curve points", "why_tests_cant": "infinitely many equivalent representations of 2^256 points", "anchors": ["core/src/group.rs:set_gej", "core/src/group.rs:set_xquad", "core/src/group.rs:set_xo_var", "core/src/group.rs:is_valid_var", "core/src/group.rs:eq_x_var", "core/src/group.rs:has_quad_y_var", "core/src/group.rs:rescale"]}
{"id": "C63", "title": "Scalar constructors and predicates", "statement": "from_int(v) is v; is_zero, is_one, is_even and check_overflow decide value = 0, value = 1, evenness, value >= n for all limb arrays, canonical or not; equality of limbs is equality of values; SecretKey::default() is the key 1.", "quantifier": "all 2^256 limb arrays", "why_tests_cant": "2^256 inputs", "anchors": ["core/src/scalar.rs:is_zero", "core/src/scalar.rs:is_one", "core/src/scalar.rs:is_even", "core/src/scalar.rs:check_overflow", "src/lib.rs:SecretKey::default"]}
{"id": "C64", "title": "Error messages are distinguishable", "statement": "Distinct error values display as distinct strings.", "quantifier": "all pairs of errors", "why_tests_cant": "needs every pair", "anchors": ["core/src/error.rs:Display"]}
{"id": "C65", "title": "The compiled-in tables are the computed tables", "statement": "The texts that build.rs writes (gen/ecmult, gen/genmult), read as Rust array expressions of the declared types, are exactly the tables of ECMultContext::new_boxed and ECMultGenContext::new_boxed; with new_from_raw the static contexts of the default build are the computed ones.", "quantifier": "all 16384 + 1024 entries, both profiles of the build script and of the library", "why_tests_cant": "a word printed in the wrong order or a shifted row corrupts single entries; tests touch few of them", "anchors": ["gen/ecmult/src/lib.rs:generate_to", "gen/genmult/src/lib.rs:generate_to", "build.rs:main", "core/src/ecmult.rs:ECMultContext::new_from_raw", "core/src/ecmult.rs:ECMultGenContext::new_from_raw", "src/lib.rs:ECMULT_CONTEXT"]}
{"id": "C66", "title": "verify on values that are not reduced", "statement": "The fields of Signature, Message and Scalar are public, so r, s and m can be any 256-bit values. With P = (m/s)G+(r/s)Q, a release build of verify returns true iff r != 0, P is finite and its x coordinate is r mod p or r+n; a debug build agrees if r < p or P is infinite and panics otherwise. The verdict depends on m and s only modulo n, but not on r modulo n: some signature verifies whose r+n (< p) variant does not.", "quantifier": "all limb arrays for r, s, m; all valid public keys; both profiles", "why_tests_cant": "tests only use parsed, reduced values", "anchors": ["core/src/ecdsa.rs:verify_raw", "core/src/field.rs:set_b32", "core/src/group.rs:eq_x_var", "src/lib.rs:verify"]}
{"id": "C67", "title": "recover on values that are not reduced", "statement": "With r < p, recover returns the key computed from the point selected by (r, id) iff r and s are nonzero as integers and that key is finite, and InvalidSignature otherwise; with r >= p and s != 0 a debug build panics, and a release build recovers from the point with x coordinate r - p if bit 1 of the id is clear and returns InvalidSignature if it is set; s = 0 is always InvalidSignature. With s = n a key is recovered under which the signature does not verify, so the guarantee of C26 needs s < n.", "quantifier": "all limb arrays for r, s, m; all recovery ids; both profiles", "why_tests_cant": "tests only use parsed, reduced values", "anchors": ["core/src/ecdsa.rs:recover_raw", "src/lib.rs:recover"]}
{"id": "C68", "title": "Scalar arithmetic and key derivation on values that are not reduced", "statement": "Addition and negation never panic; a+b is right modulo n iff a+b < 2^256+n, -a is right modulo n iff a <= n; from_secret_key(k) is k*G and is the point at infinity iff n divides k.", "quantifier": "all 2^256 (pairs of) limb arrays", "why_tests_cant": "the failing region needs sums beyond 2^256+n, of density 2^-128", "anchors": ["core/src/scalar.rs:add_assign", "core/src/scalar.rs:cond_neg_assign", "src/lib.rs:PublicKey::from_secret_key"]}
{"id": "C69", "title": "Deterministic nonces follow RFC 6979", "statement": "With HMAC_DRBG of SP 800-90A as generator and any HMAC, the i-th block drawn by sign for key x and digest h is the i-th nonce candidate of RFC 6979 3.2 (int2octets(x), bits2octets(h), empty personalisation). If candidate i is the first that RFC 6979 accepts (0 < k < n, r != 0, s != 0), sign returns in both profiles the signature made from it, unless a candidate up to i has an x coordinate >= n.", "quantifier": "all HMAC functions, digests, secret keys and candidate indices", "why_tests_cant": "tests cover a handful of vectors, in which the first candidate is accepted", "anchors": ["src/lib.rs:sign_with_context"]}
{"id": "C70", "title": "A debug result is the release result", "statement": "Whenever a debug build of any modelled function returns a value, a release build returns the same value: overflow checks and debug assertions only ever turn a result into a panic.", "quantifier": "all inputs of all modelled functions, including invalid keys, unreduced scalars, out-of-bounds field elements and wrong tables", "why_tests_cant": "tests run one profile on sampled inputs", "anchors": ["src/lib.rs", "core/src/field.rs", "core/src/scalar.rs", "core/src/group.rs", "core/src/ecmult.rs", "core/src/ecdsa.rs", "core/src/der.rs"]}
{"id": "C71", "title": "Any client program behaves as on integers and curve points", "statement": "Take any sequence of calls to the public API (parsing, serializing, tweaking, inverting, combining, comparing, serde, DER, hex, normalising, signing, verifying, recovering, ECDH, clearing secret keys and scalars, arithmetic on scalars and their conversion from and to keys, messages and signatures) on the objects produced so far, in which no public key is derived from a cleared secret key. In a release build no call panics, every returned value and error is the one obtained by running the same calls on integers modulo n and points of the curve, and every object held is valid, except that a cleared secret key is zero. A debug build returns the same or panics, and panics only if a strict DER input has 2^(W-8) or more bytes or a nonce candidate has an x coordinate >= n. A program that clears no secret key holds valid secret keys only.", "quantifier": "all programs of any length, all byte strings, all generators, hashes and base64 codecs, both profiles, 32- and 64-bit usize; excludes direct construction of a Scalar from limbs, and the public key of a cleared secret key (see C79 and C81)", "why_tests_cant": "the space of call sequences and inputs is unbounded", "anchors": ["src/lib.rs"]}
{"id": "C72", "title": "Derivation of public keys is injective", "statement": "For valid secret keys a and b, from_secret_key(a) == from_secret_key(b) iff a = b, and the uncompressed and the compressed encodings coincide iff a = b.", "quantifier": "all pairs of valid secret keys", "why_tests_cant": "a collision would need a search of the whole key space", "anchors": ["src/lib.rs:PublicKey::from_secret_key", "src/lib.rs:PublicKey::serialize", "src/lib.rs:PublicKey::serialize_compressed"]}
{"id": "C73", "title": "Tweaks can be undone, reordered and distributed", "statement": "A successful additive tweak by t is undone by one by -t, a multiplicative tweak by t is undone by one by t.inv(); two additive or two multiplicative tweaks give the same key in either order; (k+t)*u = k*u + t*u. Each holds on secret keys (limb by limb) and on public keys (library equality).", "quantifier": "all valid keys and tweaks", "why_tests_cant": "the algebraic laws quantify over triples of 256-bit values", "anchors": ["src/lib.rs:SecretKey::tweak_add_assign", "src/lib.rs:SecretKey::tweak_mul_assign", "src/lib.rs:PublicKey::tweak_add_assign", "src/lib.rs:PublicKey::tweak_mul_assign", "src/lib.rs:SecretKey::inv"]}
{"id": "C74", "title": "combine is addition of secrets", "statement": "combine of derived keys is the key of the sum of the secrets modulo n, and errs iff that sum is 0; combining in two groups is combining at once; a group with infinite sum counts as nothing; one key is itself; combine([a, from_secret_key(t)]) is a tweaked by +t, with errors in the same cases.", "quantifier": "all lists of valid keys of any length", "why_tests_cant": "lists of unbounded length", "anchors": ["src/lib.rs:PublicKey::combine"]}
{"id": "C75", "title": "Shared secrets commute with multiplicative tweaks", "statement": "SharedSecret(k*t, u) = SharedSecret(k*u, t) = SharedSecret(k, t*u); with an injective digest two shared secrets are equal iff the points are.", "quantifier": "all valid public keys, valid secret keys and digests", "why_tests_cant": "the law quantifies over triples of 256-bit values", "anchors": ["src/lib.rs:SharedSecret::new", "core/src/ecdh.rs:ecdh_raw"]}
{"id": "C76", "title": "At most four signatures, messages and keys fit together", "statement": "For one message, key and r at most four values of s verify, and at most two (s and n-s, both) if r >= p-n. One signature verifies for at most four message residues under a key and under at most four keys for a message (two if r >= p-n). Four is attained: the message 1 under the key of the secret 1 with r = 2.", "quantifier": "all messages, valid keys, canonical signatures", "why_tests_cant": "counting solutions needs the whole domain", "anchors": ["core/src/ecdsa.rs:verify_raw", "src/lib.rs:verify"]}
{"id": "C77", "title": "Reuse, disclosure or a known relation of nonces reveals the key", "statement": "If sign_raw returns (r,s1,id1) and (r',s2,id2) for one key and nonce and messages m1, m2 then r = r', and with t = s2 if the ids have the same parity and -s2 otherwise, d*r*(s1-t) = t*m1 - s1*m2 modulo n, where s1 != t if m1 != m2 modulo n. With the nonce k known, d = (s*k-m)/r or d = (-s*k-m)/r. If the nonces and keys of two signatures satisfy k2 = a*k1 + b and d2 = c*d1 + e modulo n for known a, b, c, e, then for some choice of signs t1 = ±s1, t2 = ±s2: d1*(a*t2*r1 - c*t1*r2) = t1*(m2 + r2*e) - a*t2*m1 - b*t1*t2, so d1 is one of four computable values unless the coefficient vanishes.", "quantifier": "all keys, nonces, messages, both profiles", "why_tests_cant": "an identity over 256-bit values for all nonces", "anchors": ["core/src/ecdsa.rs:sign_raw"]}
{"id": "C78", "title": "Release builds never panic", "statement": "In a release build key derivation, tweaks, combine, ECDH, serialization, comparison, verify, recover, sign, normalize_s and the DER functions return whatever their arguments hold: limbs, magnitudes, flags and coordinates are arbitrary. The same holds for the operations of the core crate.", "quantifier": "all objects, also invalid and non-canonical ones, release profile", "why_tests_cant": "arbitrary object contents reach table lookups and slices with data-dependent indices", "anchors": ["src/lib.rs", "core/src/ecmult.rs", "core/src/ecdsa.rs", "core/src/field.rs", "core/src/scalar.rs", "core/src/group.rs"]}
{"id": "C79", "title": "Keys that are not curve points accept every signature", "statement": "Under the point at infinity, the key of a secret that is 0 modulo n (a cleared SecretKey, or the scalar n), verify panics in a debug build and in a release build returns true for every message and every canonical signature with nonzero r and s. The finite pair (0,0), which tweak_add_assign and tweak_mul_assign of the infinite key return as Ok in a release build, and which is Affine::default() in the core crate, accepts every such signature in both builds.", "quantifier": "all messages, canonical signatures, secrets that are multiples of n, both profiles", "why_tests_cant": "acceptance is claimed for every message and signature", "anchors": ["core/src/ecdsa.rs:verify_raw", "core/src/ecmult.rs:odd_multiples_table", "src/lib.rs:verify", "src/lib.rs:PublicKey::from_secret_key"]}
{"id": "C80", "title": "Magnitude and normalized flag matter in debug builds only", "statement": "In a release build the magnitude and normalized fields of field elements have no influence on verify, serialize, serialize_compressed, ECDH, the tweaks, combine and TryFrom<Affine>, nor, in the blinding point of a generator context, on key derivation and signing: objects with the same limbs give the same results, whatever the limbs. PartialEq is the exception: it reads the magnitude of its left operand, and a key with a large magnitude differs from itself.", "quantifier": "all pairs of objects with equal limbs, valid or not, release profile", "why_tests_cant": "arbitrary limbs and flags in every object", "anchors": ["core/src/field.rs:Field", "core/src/field.rs:PartialEq", "core/src/ecdsa.rs", "core/src/ecmult.rs", "src/lib.rs"]}
{"id": "C81", "title": "ECDH with a key that is not a curve point returns a constant", "statement": "In a release build SharedSecret::new with the point at infinity (for instance the key of a cleared secret) or with the pair (0,0) returns Ok of the hash of 0x02 followed by 32 zero bytes, the same for every valid secret key, and an input that no curve point has; a debug build panics. The same holds of ecdh_raw with Affine::default() in the core crate.", "quantifier": "all digests, all valid secret keys, both profiles", "why_tests_cant": "independence of the secret is claimed for every secret and every hash", "anchors": ["core/src/ecdh.rs:ecdh_raw", "core/src/ecmult.rs:ecmult_const", "core/src/group.rs:add_ge_in_place", "src/lib.rs:SharedSecret"]}
{"id": "C82", "title": "Integer arithmetic checks in debug and wraps in release", "statement": "Every arithmetic operation the code performs on u8, u32, u64, i32 and usize computes the exact integer result when it fits the type, in both builds; when it does not fit, a debug build panics and a release build returns the value of the type congruent to it. Shifts by 32 or more panic in debug and use the count modulo 32 in release.", "quantifier": "all operands of each type, any pointer width for usize additions", "why_tests_cant": "all operands; the other theorems rest on these primitives", "anchors": ["core/src/scalar.rs", "core/src/field.rs", "core/src/ecmult.rs", "core/src/der.rs"]}
{"id": "C83", "title": "How many nonces fail", "statement": "For a secret that is not a multiple of n and any message, sign_raw returns an error for at most four of the nonces 1 … n-1. A debug build panics for at most 2(p-n) of them, fewer than one in 2^126, and a release build returns r = 0 for at most two.", "quantifier": "all secrets, messages and sets of different nonces", "why_tests_cant": "no failing nonce is known, and the claim bounds their number", "anchors": ["core/src/ecdsa.rs:sign_raw"]}
{"id": "C84", "title": "sign ends", "statement": "If five different blocks among the first N of the generator encode integers in 1 … n-1, sign returns a signature after at most N blocks.", "quantifier": "all generators, messages, secrets that are not multiples of n, all N", "why_tests_cant": "the loop has no bound in the code; the generator is arbitrary", "anchors": ["src/lib.rs:sign", "core/src/ecdsa.rs:sign_raw"]}
{"id": "C85", "title": "Random keys are uniform", "statement": "Over all sequences of N blocks from the generator, SecretKey::random returns every key in 1 … n-1 for the same number of sequences, and never another key. A single block gives the key that it encodes.", "quantifier": "all N, all pairs of keys", "why_tests_cant": "a count over all sequences of blocks", "anchors": ["src/lib.rs:SecretKey::random"]}
{"id": "C86", "title": "A public key has four encodings", "statement": "Exactly four byte strings are parsed by PublicKey::parse_slice without a format to a given key: the compressed, uncompressed and hybrid SEC 1 encodings of its point, and the uncompressed one without the tag. They are different.", "quantifier": "all valid public keys, all byte strings", "why_tests_cant": "uniqueness over all byte strings", "anchors": ["src/lib.rs:PublicKey::parse_slice", "src/lib.rs:PublicKey::parse", "src/lib.rs:PublicKey::parse_compressed"]}
{"id": "C87", "title": "Length of DER signatures", "statement": "serialize_der returns 6 bytes plus, for each of r and s, one byte per eight bits and one for the sign: between 8 and 72 in all, at most 70 if both are below 2^255, and at most 71 for a signature returned by sign.", "quantifier": "all signatures; all generators, messages and secrets for sign", "why_tests_cant": "the bound is claimed for every signature", "anchors": ["src/lib.rs:Signature::serialize_der", "core/src/der.rs:SignatureArray"]}
{"id": "C88", "title": "The public DER decoder", "statement": "Every public method of Decoder is described exactly by the bytes that are left: what it returns, how far it moves when it succeeds, and when it fails. Any sequence of calls with any arguments keeps the input and stays within it, in both builds, and on inputs below 2^(usize bits - 8) with arguments that do not overflow it does not panic. When position and argument overflow usize: peek, peek_slice and skip panic in debug; in release peek returns an earlier byte, skip moves back and peek_slice panics. read_integer takes a redundant negative integer (ff ff) as zero without consuming it and refuses a minimal one (ff 7f).", "quantifier": "all inputs, positions, arguments, sequences of calls; usize of 32 and 64 bits; both builds", "why_tests_cant": "unbounded inputs and call sequences; the overflow cases need gigabytes of input", "anchors": ["core/src/der.rs:Decoder"]}
{"id": "C89", "title": "The buffer of serialize_der", "statement": "SignatureArray::new(k) has len k and is_empty exactly for k = 0; as_ref gives k zeros for k at most 72 and panics in both builds beyond; what is written through as_mut is read back through as_ref and the length stays. The buffer serialize_der returns is not empty, its len is the length of as_ref, at most 72, and as_ref is the DER encoding of (r, s).", "quantifier": "all sizes, buffers, writes and signatures", "why_tests_cant": "all signatures and sizes", "anchors": ["core/src/der.rs:SignatureArray", "src/lib.rs:Signature::serialize_der"]}
{"id": "C90", "title": "Branches and addresses of ECDH", "statement": "For a given public key, the branches taken and the indices read by SharedSecret::new are the same for all valid secret keys except three, which take the other branch in the last point addition (and are listed). The same holds for ecmult_const and all scalars below n except four (the three and zero). The traced functions compute the values of the model on all inputs.", "quantifier": "all public keys, secret keys, digests, both builds; for the values all inputs", "why_tests_cant": "all pairs of secret keys; the exceptions are three keys out of 2^256", "anchors": ["src/lib.rs:SharedSecret::new", "core/src/ecdh.rs:ecdh_raw", "core/src/ecmult.rs:ecmult_const", "core/src/group.rs:add_ge"]}
{"id": "C91", "title": "Branches and addresses of fixed-base multiplication", "statement": "There is a set of fewer than n/13107 scalars such that for all other secrets the branches taken and indices read by ecmult_gen with the default context, and by PublicKey::from_secret_key, are the same.", "quantifier": "all secrets outside the set; both builds", "why_tests_cant": "all pairs of secrets", "anchors": ["core/src/ecmult.rs:ECMultGenContext::ecmult_gen", "src/lib.rs:PublicKey::from_secret_key", "core/src/group.rs:add_ge"]}
{"id": "C92", "title": "Branches and addresses of signing", "statement": "There is a set of fewer than n/13107 nonces such that for all others the branches taken and indices read by sign_raw depend only on whether s is zero, below (n-1)/2 or not. For sign they depend only on the sequence of verdicts on the candidate nonces (too large, zero, s = 0, low s, high s) up to the first usable one: two runs with the same verdicts look the same, whatever keys, messages and generators.", "quantifier": "all keys, messages, generators, fuel; nonces outside the set; both builds", "why_tests_cant": "all pairs of keys and nonces", "anchors": ["src/lib.rs:sign_with_context", "core/src/ecdsa.rs:ECMultGenContext::sign_raw", "core/src/ecmult.rs:ECMultGenContext::ecmult_gen"]}
{"id": "C93", "title": "The text form of a public key", "statement": "With base64 of RFC 4648, a public key serializes in human-readable formats to the base64 of its 65-byte encoding, 88 characters beginning with B and ending with one =. A text deserializes to the key exactly if it is the base64 of the compressed, uncompressed, hybrid or tagless encoding: four texts per key; non-canonical or unpadded base64 is refused.", "quantifier": "all keys, all texts", "why_tests_cant": "all texts of any length", "anchors": ["src/lib.rs:Serialize for PublicKey", "src/lib.rs:PublicKeyStrVisitor", "src/lib.rs:Deserialize for PublicKey"]}
{"id": "C94", "title": "new_boxed initialises its memory", "statement": "Whatever the memory obtained from the allocator holds, initialised or not, ECMultContext::new_boxed and ECMultGenContext::new_boxed read no uninitialised cell and return the computed context with every cell written; if the allocator returns null the behaviour is undefined.", "quantifier": "all memory contents", "why_tests_cant": "uninitialised memory has no observable value in a test", "anchors": ["core/src/ecmult.rs:ECMultContext::new_boxed", "core/src/ecmult.rs:ECMultGenContext::new_boxed", "core/src/ecmult.rs:odd_multiples_table_storage_var"]}
{"id": "C95", "title": "Operations on secret keys reveal only their outcome", "statement": "The branches and memory addresses of SecretKey::parse depend only on whether the bytes are at least n, zero, or a key; those of tweak_add_assign only on whether the sum is zero; those of tweak_mul_assign only on whether the tweak is zero; those of inv on nothing; those of parse_slice only on the length and, if it is 32, on what parse depends on; those of random only on how many draws were refused and, for each, whether it was zero or at least n.", "quantifier": "all byte strings, all secret keys and tweaks, all random generators", "why_tests_cant": "observations are compared over all pairs of secrets", "anchors": ["src/lib.rs:SecretKey::parse", "src/lib.rs:SecretKey::tweak_add_assign", "src/lib.rs:SecretKey::tweak_mul_assign", "src/lib.rs:SecretKey::inv", "src/lib.rs:SecretKey::parse_slice", "src/lib.rs:SecretKey::random"]}
{"id": "C96", "title": "Tweaking a public key reveals the tweak", "statement": "PublicKey::tweak_add_assign and tweak_mul_assign, and ecmult below them, are not constant time in the strongest sense: for a given key two tweaks with the same branches and memory addresses are equal, so an observer of these can recover the tweak, although it has the type SecretKey.", "quantifier": "all public keys, all tweaks, both build profiles", "why_tests_cant": "injectivity over 2^256 tweaks", "anchors": ["src/lib.rs:PublicKey::tweak_add_assign", "src/lib.rs:PublicKey::tweak_mul_assign", "core/src/ecmult.rs:ECMultContext::ecmult", "core/src/ecmult.rs:ecmult_wnaf"]}
{"id": "C97", "title": "What signing leaves in its local variables", "statement": "When sign_raw returns Ok, its named locals are a function of the returned (r, s, id); on Err the intermediate values are wiped. ecmult_gen wipes the blinded nonce and the added point, but leaves the last table entry, which tells exactly the top four bits of nonce + constant. sign overwrites the nonce, but leaves the bytes of the secret key and the generator block; the block, the message and the signature determine the key.", "quantifier": "all keys, messages, nonces, generators, both build profiles", "why_tests_cant": "dead locals cannot be observed by a caller, and the claim is about all pairs of secrets", "anchors": ["core/src/ecmult.rs:ECMultGenContext::ecmult_gen", "core/src/ecdsa.rs:ECMultGenContext::sign_raw", "src/lib.rs:sign_with_context", "core/src/scalar.rs:Scalar::clear"]}
{"id": "C98", "title": "Debug texts reveal the values, and differ for equal public keys", "statement": "The numbers in the {:?} or {:#?} text of a SecretKey, Message, Signature, RecoveryId or SharedSecret are its words or bytes, so the text determines the value; in particular formatting a secret key discloses it. The text of a PublicKey shows its coordinates, but is no function of the key: the key parsed from the compressed form and the key parsed from the full form compare equal, and have the same text exactly when the y coordinate is a square mod p. The texts of the storage forms and of a Jacobian point show their words and coordinates. The text of an error determines it, differs from every Display text, and has the letters of its own Display text apart from their case.", "quantifier": "all values, both text forms, all curve points", "why_tests_cant": "a claim about every key and every text, and about which of two equal keys print alike", "anchors": ["src/lib.rs:PublicKey", "src/lib.rs:SecretKey", "src/lib.rs:Signature", "src/lib.rs:RecoveryId", "src/lib.rs:Message", "src/lib.rs:SharedSecret", "core/src/scalar.rs:Scalar", "core/src/field.rs:Field", "core/src/group.rs:Affine", "core/src/group.rs:Affine::set_xo_var"]}
{"id": "C99", "title": "Anyone can make a message and signature that verify, because messages are not hashed", "statement": "verify takes the message as a number. For every public key the accepted (message, r, s) with r, s < n are exactly r = x(aG+bQ), s = r/b, m = ar/b for two numbers a and b != 0, each triple from one pair. A client program that calls only tweak_mul_assign, tweak_add_assign, serialize_compressed and scalar arithmetic on the public key turns any two numbers a, b into a message and signature that verify, unless bQ+aG is infinity or has x = n; for given b at most three a fail. So verify without hashing the message proves nothing about a signer.", "quantifier": "all valid public keys, all numbers a, b, all messages and canonical signatures", "why_tests_cant": "a claim about every public key, including keys whose secret is unknown, and an exact description of everything verify accepts", "anchors": ["src/lib.rs:verify", "src/lib.rs:Message", "src/lib.rs:PublicKey::tweak_mul_assign", "src/lib.rs:PublicKey::tweak_add_assign", "src/lib.rs:PublicKey::serialize_compressed", "core/src/ecdsa.rs:ECMultContext::verify_raw"]}
{"id": "C100", "title": "Exact effect of normalize_s", "statement": "normalize_s keeps r and replaces s by n - s exactly when s >= (n-1)/2. The result is low except for s = (n-1)/2, which becomes (n+1)/2; it is the input exactly for s < (n-1)/2; a second call changes nothing except for s = (n-1)/2 and s = (n+1)/2, which are exchanged. Two signatures get the same normal form exactly when they are equal or differ in the sign of s, these two values excepted. verify says the same before and after.", "quantifier": "all signatures with r, s < n", "why_tests_cant": "the exceptions are two values of s out of 2^256", "anchors": ["src/lib.rs:Signature::normalize_s", "core/src/scalar.rs:Scalar::is_high", "core/src/scalar.rs:Scalar::cond_neg_assign"]}
{"id": "C101", "title": "Exact text of a secret key formatted with {:x}", "statement": "The LowerHex text of a secret key has 64 characters among 0-9a-f. Read as a hexadecimal number it is the key with its eight 32-bit words in the opposite order. Different keys have different texts. The text is the hex of serialize() exactly for keys whose words read the same in both directions.", "quantifier": "all secret keys, also cleared ones", "why_tests_cant": "a claim about 2^256 keys; keys that look right exist", "anchors": ["core/src/scalar.rs:LowerHex for Scalar", "src/lib.rs:LowerHex for SecretKey", "src/lib.rs:SecretKey::serialize"]}
{"id": "C102", "title": "Exact result of reading back a DER signature", "statement": "For every signature, parse_der and parse_der_lax applied to serialize_der return InvalidSignature if s = 0, and otherwise the signature with each component that is not below n replaced by zero. The two parsers agree on these bytes, on targets with 32-bit and 64-bit addresses.", "quantifier": "all signatures, also with components at or above n; both pointer widths", "why_tests_cant": "a claim about all pairs of 256-bit numbers; the exceptions have probability about 2^-128", "anchors": ["src/lib.rs:Signature::serialize_der", "src/lib.rs:Signature::parse_der", "src/lib.rs:Signature::parse_der_lax", "src/der.rs:Decoder"]}
{"id": "C103", "title": "Contracts of Eq and Ord for field elements and points", "statement": "== of field elements is equality modulo p while the magnitudes add up to 30 at most (a debug build can panic at 31). On normalized elements cmp is the order of the residues: total, antisymmetric, transitive and Equal exactly when ==. Without normalization the contract fails: there are elements with == true and cmp Greater in release, where debug panics. == of affine points compares both coordinates and the flag, so two representations of infinity can be unequal.", "quantifier": "all well-formed field elements; all affine points with coordinates of magnitude at most 8", "why_tests_cant": "equivalence and order laws over all pairs and triples of representations", "anchors": ["core/src/field.rs:PartialEq for Field", "core/src/field.rs:Ord for Field", "core/src/field.rs:Field::cmp_var", "core/src/group.rs:Affine"]}
{"id": "C104", "title": "The operators satisfy the laws of a field", "statement": "The scalars below n with +, *, unary -, inv, sqr of the code are a field, isomorphic to the integers modulo n by the value; zero and one are Scalar::default() and from_int(1). The normalized field elements with +, *, neg, inv, sqr of the code, each followed by normalize, are a field, isomorphic to the integers modulo p; from_int is the map from the integers.", "quantifier": "all scalars below n, all normalized field elements", "why_tests_cant": "associativity, distributivity and inverses over all triples", "anchors": ["core/src/scalar.rs:Add for Scalar", "core/src/scalar.rs:Mul for Scalar", "core/src/scalar.rs:Neg for Scalar", "core/src/scalar.rs:Scalar::inv", "core/src/field.rs:Add for Field", "core/src/field.rs:Mul for Field", "core/src/field.rs:Field::neg", "core/src/field.rs:Field::inv"]}
{"id": "C105", "title": "What ECDH leaves in its local variables", "statement": "When ecdh_raw returns, its local variables hold the secret key (s), the shared point in two forms (res, pt), and the bytes x and y that were hashed into the shared secret; the local variables of the ecmult_const it called hold the secret key (sc) and again as digits (wnaf_1) and skew, which determine it, and the correction point. Nothing is wiped.", "quantifier": "all valid public keys, all secret keys 1..n-1, all digests", "why_tests_cant": "local variables are not observable in a test; the digits determine the key for all keys", "anchors": ["core/src/ecdh.rs:ECMultContext::ecdh_raw", "core/src/ecmult.rs:ECMultContext::ecmult_const", "src/lib.rs:SharedSecret::new_with_context"]}
{"id": "C106", "title": "What a recovery id determines", "statement": "Negating s and flipping bit 0 of the recovery id changes nothing: recover returns an equal key, or the same error. Two different ids never recover equal keys from one signature. A key under which a signature verifies is recovered by exactly one id. With the flipped id recover returns a second key, different from the first, under which the same signature of the same message verifies, unless the key is (-2m/r)G. If a signature and an id recover any key for some message, they recover every public key, each for exactly one message below n: a recovered key says nothing without the message being fixed first.", "quantifier": "all messages, all signatures with r, s < n, all ids 0..3, all public keys", "why_tests_cant": "uniqueness and existence over all ids, keys and messages", "anchors": ["src/lib.rs:recover", "src/lib.rs:verify", "core/src/ecdsa.rs:ECMultContext::recover_raw", "src/lib.rs:RecoveryId"]}
{"id": "C107", "title": "Signatures under tweaked public keys", "statement": "If tweak_add_assign turns Q into Q' by t, then verify(m, (r,s), Q') = verify(m + rt, (r,s), Q). If tweak_mul_assign turns Q into Q' by t, then verify(m, (r,s), Q') = verify(m/t, (r,s/t), Q). If recover returns Q for m, then for m - rt it returns Q tweaked by adding t, and fails with InvalidSignature if that tweak fails. So a signature made for one child key is a signature of a related message under the parent key.", "quantifier": "all messages, all signatures with r, s < n, all valid public keys, all tweaks below n", "why_tests_cant": "an equality of verdicts (true and false) over all inputs", "anchors": ["src/lib.rs:PublicKey::tweak_add_assign_with_context", "src/lib.rs:PublicKey::tweak_mul_assign_with_context", "src/lib.rs:verify", "src/lib.rs:recover"]}
{"id": "C108", "title": "The public key of a zero secret", "statement": "from_secret_key of a secret that is zero modulo n (such as a cleared one) returns infinity with both coordinates zero. serialize and serialize_compressed of it panic in a debug build; a release build returns 04 followed by 64 zero bytes and 02 followed by 32 zero bytes, which parse and parse_compressed reject with InvalidPublicKey. Such keys are equal to one another and to no valid key; try_from of their point fails with InvalidAffine. combine of such keys panics in a debug build; a release build fails with InvalidPublicKey for an even number of them and returns the pair (0, 0), which is not on the curve, for an odd number.", "quantifier": "all secrets that are multiples of n, all lists of such keys, both builds", "why_tests_cant": "the coordinates behind the infinity flag come out of 64 blinded additions; all list lengths", "anchors": ["src/lib.rs:PublicKey::from_secret_key", "src/lib.rs:PublicKey::serialize", "src/lib.rs:PublicKey::serialize_compressed", "src/lib.rs:PublicKey::combine", "core/src/group.rs:Jacobian::add_ge_in_place", "core/src/group.rs:Affine::set_gej"]}
{"id": "C109", "title": "Opposite keys, and keys chosen after the others", "statement": "tweak_mul_assign by n-1 negates a public key: its compressed encoding changes in the first byte only (2 to 3 or back), the two keys are unequal, and combine of the two fails with InvalidPublicKey. Given the keys of the others and any target key other than their sum, tweak_mul_assign by n-1 and combine produce a valid public key with which combine of all keys is the target: combine alone gives no protection against a participant who chooses a key last.", "quantifier": "all valid public keys and lists of them, all targets", "why_tests_cant": "existence of a rogue key for every list and every target", "anchors": ["src/lib.rs:PublicKey::combine", "src/lib.rs:PublicKey::tweak_mul_assign_with_context", "src/lib.rs:PublicKey::serialize_compressed"]}
{"id": "C110", "title": "Signing with a zero secret", "statement": "sign accepts a secret that is zero modulo n (such as a cleared one). On a message that is zero modulo n it never returns, whatever the nonce generator produces. On any other message a returned signature (r, s) was made with the nonce m/s or -m/s, so it gives the nonce away; if r is not zero, recover with the returned id fails with InvalidSignature, and recover with the other parity gives the public key of the secret -2m/r, which anyone can compute, and under which the signature verifies; if r >= p - n it verifies under no other valid key.", "quantifier": "all secrets that are multiples of n, all messages, all generators, both builds, all valid public keys", "why_tests_cant": "non-termination, all nonces, all keys", "anchors": ["src/lib.rs:sign_with_context", "src/lib.rs:sign", "src/lib.rs:recover", "src/lib.rs:verify", "core/src/ecdsa.rs:sign_raw"]}
{"id": "C111", "title": "Tweaks and key agreement with secrets that are not reduced", "statement": "SecretKey::try_from accepts a scalar in n .. 2^256-1. As a tweak of a public key it acts as its residue modulo n in a release build; a debug build panics exactly if it exceeds n. The tweak n is accepted by tweak_mul_assign of both key types and leaves a zero secret and the point at infinity with Ok. Secret keys are multiplied modulo n; their sum is right modulo n exactly if the integers add to less than 2^256 + n. SharedSecret::new with a secret a >= n panics in a debug build; a release build hashes the point (a - 2^256) P, except that it hashes 29 P for 2^256-2 and 30 P for 2^256-1. So for a > n it never agrees with what the peer computes from from_secret_key(a).", "quantifier": "all valid public keys, all 256-bit tweaks, all secrets in n .. 2^256-1, all peers, all digests, both builds", "why_tests_cant": "all unreduced secrets and all points; the two builds differ", "anchors": ["src/lib.rs:tweak_add_assign", "src/lib.rs:tweak_mul_assign", "src/lib.rs:SharedSecret::new_with_context", "core/src/ecmult.rs:ecmult_wnaf", "core/src/ecmult.rs:ecmult_wnaf_const", "core/src/ecmult.rs:ecmult_const", "core/src/ecdh.rs:ecdh_raw", "core/src/scalar.rs:cadd_bit"]}
{"id": "C112", "title": "Signatures whose components are not reduced", "statement": "The fields of Signature are public. If s = n, normalize_s replaces it by 0. If s > n, normalize_s replaces it by 2^256 + n - s, which is above n too, and a second call gives the signature back. If such a signature verifies and p - n <= r < p, its normalized form does not verify. The 64-byte form of a signature with r >= n or s >= n is refused by parse_standard, and parse_overflowing returns the reduced signature.", "quantifier": "all 256-bit r and s, all messages, all valid keys, both builds", "why_tests_cant": "all 256-bit values of s and all keys", "anchors": ["src/lib.rs:normalize_s", "src/lib.rs:verify", "src/lib.rs:parse_standard", "src/lib.rs:parse_overflowing", "src/lib.rs:serialize", "core/src/scalar.rs:neg"]}
{"id": "C113", "title": "Combining valid keys with the key of a zero secret", "statement": "If combine comes to the key of a zero secret after valid keys, a debug build panics, whatever follows. If it is the last key, a release build returns Ok. If the valid keys sum to the point (x, y), the result is the pair (-7x/y^2, -7(7-x^3)/(2y^3)), and the same pair is returned if the key of a zero secret comes first and one valid key follows. If the valid keys sum to infinity, so that combine alone refuses them, the result is (0, 0). The pair is never a point of the curve: it satisfies Y^2 = X^3 + 49/(4y^2), and 49/(4y^2) is never 7. It is refused by PublicKey::try_from, and its serialization is refused by parse.", "quantifier": "all lists of valid keys, both builds", "why_tests_cant": "all points of the curve", "anchors": ["src/lib.rs:combine", "core/src/group.rs:add_ge", "core/src/group.rs:set_gej", "src/lib.rs:serialize", "src/lib.rs:parse"]}
{"id": "C114", "title": "One strict low-S encoding of a signature", "statement": "Suppose two byte strings are accepted by parse_der, the signatures have the same component r with r >= p - n, both have s at most (n-1)/2, and both verify for the same message and valid key. Then the byte strings are equal. Every byte string that parse_der_lax accepts with s not zero has a normal form: normalize_s and serialize_der give a byte string that parse_der and parse_der_lax read back as the normalized signature, which verifies for the same messages and valid keys and has s at most (n-1)/2 unless s was (n-1)/2. Two byte strings accepted by parse_der_lax that have the same r >= p - n and verify for the same message and valid key have the same normal form, except if s is (n-1)/2 or (n+1)/2.", "quantifier": "all byte strings that fit in memory, messages, valid keys, both builds", "why_tests_cant": "all byte strings", "anchors": ["src/lib.rs:parse_der", "src/lib.rs:parse_der_lax", "src/lib.rs:normalize_s", "src/lib.rs:serialize_der", "src/lib.rs:verify"]}
{"id": "C115", "title": "The recoverable signatures of a message under a key", "statement": "Let the signature (r, s) with recovery id recover a valid key from a message, with r >= p - n. Then (r, s') with id' recovers the same key from the message exactly if s' = s and id' = id, or s' = n - s and id' is id with its lowest bit flipped. If both s and s' are at most (n-1)/2 then s' = s and id' = id. For r < p - n as well, at most four pairs of s and id recover the key.", "quantifier": "all messages, valid keys, reduced r, s, s', ids below 4", "why_tests_cant": "all pairs of s and id", "anchors": ["src/lib.rs:recover", "core/src/ecdsa.rs:recover_raw", "src/lib.rs:RecoveryId"]}
{"id": "C116", "title": "How many signatures verify", "statement": "For every message and every valid public key, at least n-7 and at most n-3 of the n^2 signatures with r, s < n verify; exactly n-3 if the message is a multiple of n. Exactly half of them have s at most (n-1)/2. So a signature drawn at random from the n^2 verifies with probability below 1/n, whatever the message and key.", "quantifier": "all messages, all valid keys", "why_tests_cant": "counts over all n^2 signatures", "anchors": ["src/lib.rs:verify", "core/src/ecdsa.rs:verify_raw"]}
{"id": "C117", "title": "Which key agreements give the same secret", "statement": "SharedSecret::new(P, a) and SharedSecret::new(Q, b) are equal if aP = bQ, and only then if the digest maps compressed encodings of different points to different values. Under that condition one secret key agrees with two public keys on the same secret exactly if the keys are equal, and two secret keys agree with one public key on the same secret exactly if they are equal. The shared secret is the digest of serialize_compressed of the key that tweak_mul_assign gives. For a fixed public key every valid public key is the one whose compressed encoding is hashed for exactly one valid secret key.", "quantifier": "all valid public and secret keys, all digests", "why_tests_cant": "all pairs of keys", "anchors": ["src/lib.rs:SharedSecret", "core/src/ecdh.rs:ecdh_raw", "src/lib.rs:tweak_mul_assign", "src/lib.rs:serialize_compressed"]}
{"id": "C118", "title": "Which nonces make a signature", "statement": "For any secret and message, sign_raw gives the same for the nonces k and n-k: a panic, the same error, or the same r, s and recovery id; except that if s is (n-1)/2 or (n+1)/2, the other nonce gives n-s and the id with its lowest bit flipped. Every signature that verifies for a message and the public key of a valid secret, and has s < (n-1)/2, is returned by sign_raw in a release build for exactly two of the nonces 1..n-1, and these are opposite. If s is (n-1)/2 or (n+1)/2 there is exactly one such nonce, and if s is larger there is none. So a nonce drawn uniformly makes all verifying signatures with s < (n-1)/2 equally likely.", "quantifier": "all secrets, messages, nonces, verifying signatures", "why_tests_cant": "all nonces and signatures", "anchors": ["core/src/ecdsa.rs:sign_raw", "src/lib.rs:verify"]}
{"id": "C119", "title": "With message, r and recovery id fixed, s and the recovered key determine each other", "statement": "If recover succeeds for two values of s with the same message, r and recovery id, the keys are equal exactly if the two values of s are equal. If r and the id recover a key for some message and s, then for every message m every valid public key other than -(m/r)G is recovered with r and the id by exactly one s below n, and the key -(m/r)G by none. So a recovery that yields a key not known beforehand is no evidence of a signer.", "quantifier": "all messages, reduced r and s, ids below 4, valid public keys", "why_tests_cant": "all values of s and all keys", "anchors": ["src/lib.rs:recover", "core/src/ecdsa.rs:recover_raw"]}
{"id": "C120", "title": "Which byte strings are read as the same message or signature", "statement": "Message::parse reads a message of value v from the 32 big-endian bytes of v and of v+n and from no other bytes, so two different digests are the same message exactly if they differ by n; a message has a second digest exactly if v < 2^256-n. parse_overflowing reads (r, s) from the bytes of r or r+n followed by those of s or s+n and from no other bytes. parse_standard reads a signature only from the 64 bytes its serialize writes.", "quantifier": "all 32- and 64-byte arrays, all reduced messages and signatures", "why_tests_cant": "all byte strings; a second encoding exists for about one value in 2^128, which random tests do not meet", "anchors": ["src/lib.rs:Message::parse", "src/lib.rs:Signature::parse_overflowing", "src/lib.rs:Signature::parse_standard"]}
{"id": "C121", "title": "How many messages and keys a signature fits", "statement": "Let c be the number of x coordinates of curve points that are congruent to r modulo n (0, 1 or 2; at most 1 if r >= p-n). A signature with nonzero r and s below n verifies for exactly 2c reduced messages under every valid key, so for 0, 2 or 4; the number depends on neither the key nor s. It verifies for a message m under exactly 2c keys, or 2c-1 if the nonce m/s itself has component r (its key would be the point at infinity). With a zero component it verifies for none.", "quantifier": "all canonical signatures, valid keys, messages", "why_tests_cant": "all n messages and all keys", "anchors": ["src/lib.rs:verify", "core/src/ecdsa.rs:verify_raw"]}
{"id": "C122", "title": "One tweak takes a key to another", "statement": "For two different valid public keys exactly one valid secret key t, used as an additive tweak, takes the first to the second; no t takes a key to itself. For any two valid public keys exactly one t, used as a multiplicative tweak, takes the first to the second. The same holds for secret keys. So a key tweaked by a uniformly chosen t is uniform among the keys it can become, whatever the key was.", "quantifier": "all pairs of valid public keys, all pairs of valid secret keys", "why_tests_cant": "existence and uniqueness over all n-1 tweaks", "anchors": ["src/lib.rs:PublicKey::tweak_add_assign", "src/lib.rs:PublicKey::tweak_mul_assign", "src/lib.rs:SecretKey::tweak_add_assign", "src/lib.rs:SecretKey::tweak_mul_assign"]}
{"id": "C123", "title": "What making and changing secret keys leaves in local variables", "statement": "When SecretKey::parse returns, its local holds the value of the input modulo n, which is the returned key if there is one; parse_slice leaves a copy of the input as well, and random the 32 bytes of the new key. tweak_add_assign leaves the new key in its local, zero if the tweak is refused. from_secret_key leaves the public point in projective form and, in the local of ecmult_gen, a table entry that tells exactly the top four bits of the secret key plus a constant. Nothing of this is wiped, so clearing the SecretKey does not remove these copies.", "quantifier": "all inputs, random generators, valid keys and tweaks, both build profiles", "why_tests_cant": "contents of dead local variables are not observable by tests", "anchors": ["src/lib.rs:SecretKey::parse", "src/lib.rs:SecretKey::parse_slice", "src/lib.rs:SecretKey::random", "src/lib.rs:SecretKey::tweak_add_assign", "src/lib.rs:PublicKey::from_secret_key_with_context"]}
{"id": "C124", "title": "How many signatures and messages recover succeeds for", "statement": "If a signature and id recover a key for one message, then different messages recover different keys, and recover fails for exactly one message below n, with InvalidSignature: the product of s and the discrete logarithm of the recovery point. For every message that is not a multiple of n, recover succeeds for exactly (n-3)(n-2) of the 4n^2 pairs of a signature with r, s below n and an id below 4; for multiples of n, for exactly (n-3)(n-1). So about a quarter of all random inputs recover some key, and the success of recover alone attributes nothing.", "quantifier": "all messages, signatures with r, s below n and ids below 4", "why_tests_cant": "an exact count over about 2^514 inputs; the one failing message cannot be found by sampling", "anchors": ["src/lib.rs:recover", "core/src/ecdsa.rs:recover_raw"]}
{"id": "C125", "title": "How many byte strings are public keys", "statement": "PublicKey::parse_slice without a format accepts exactly n-1 byte strings of length 33, n-1 of length 64, 2(n-1) of length 65 (half of them hybrid), and none of another length. Exactly (n-1)/2 of the numbers below p are the x coordinate of a public key, so a random x is one with probability close to one half.", "quantifier": "all byte strings of all lengths", "why_tests_cant": "an exact count over more than 2^520 strings", "anchors": ["src/lib.rs:PublicKey::parse_slice", "src/lib.rs:PublicKey::parse", "src/lib.rs:PublicKey::parse_compressed"]}
{"id": "C126", "title": "How many encoded signatures verify", "statement": "For a message and a valid key the byte strings that parse_der reads as a verifying signature are as many as the verifying signatures themselves (between n-7 and n-3), and the same holds for the 64-byte strings of parse_standard: neither encoding adds malleability. Exactly half of the verifying signatures have s at most (n-1)/2. With parse_der_lax there are at least 256^k such strings of at most 72+k bytes, so encoded signatures must not serve as identifiers there.", "quantifier": "all messages, all valid keys, all byte strings, all k with 72+k < 2^31, both pointer widths", "why_tests_cant": "an exact count over all byte strings of all lengths", "anchors": ["src/lib.rs:Signature::parse_der", "src/lib.rs:Signature::parse_der_lax", "src/lib.rs:Signature::parse_standard", "src/lib.rs:verify"]}
