# Formal model of paritytech/libsecp256k1 in Lean 4

Contents: 1 layout, 2 execution model, 3 what is modelled, 4 what is not, 5 simplifications, 6 specification,
7 proof methods, 8 trusted base and axioms, 9 where the code departs from the property, 10 the properties one by one,
11 seeded faults.

## 1. Layout

| directory | content |
|---|---|
| `lean/Verif/Model/` | transcription of the Rust code, function by function; every definition cites file and lines |
| `lean/Verif/Spec/` | what the theorems mean: numbers, curve, ECDSA, SEC 1, DER, RFC 6979, client programs |
| `lean/Verif/Props/` | the property theorems `Cnn_…`, each with an example that meets its hypotheses |
| `lean/Verif/Proofs/` | helper lemmas |
| `properties.jsonl`, `MANIFEST.json` | the properties in English; their theorems and status |
| `seeded/LOG.jsonl` | wrong programs tried against the theorems |
| `tools/straightline.py` | compares the straight-line arithmetic in /repo with its transcription |

To review a claim, read its line in `properties.jsonl`, the theorem in `Props/`, and the definitions of `Spec/` it names. The
theorems mention model functions (`SecretKey.parse`, `verify`, `sign`, …) only as the thing claimed about.

## 2. Execution model (`Model/Machine.lean`)

* A Rust computation of type `T` is `Exec T = Profile → Option T` with `Profile = debug | release`; `none` is a panic.
* `+ - * <<` on machine integers and `debug_assert!` panic in `debug`; in `release` arithmetic wraps and the assertion is absent.
  `assert!`, `unwrap`, `copy_from_slice` with unequal lengths and out-of-range indexing panic in both.
* `f x = pure r` therefore reads: in both profiles `f x` terminates, does not panic and returns `r`.
* `u8/u32/u64` are Lean's `UInt8/UInt32/UInt64`. `i32` window digits are `Int` with a range check (debug) or wrap (release) after
  each operation. `usize` is `Nat`; where its width matters (the DER decoder) the width `W ∈ {32, 64}` is a parameter and
  overflow is modelled.
* `[u8; N]` is `Vector UInt8 N`, a slice is a `List UInt8`, limb arrays are structures with a field per limb. `&mut self` becomes a
  returned value. Loops are structural recursion; the two unbounded loops (`SecretKey::random`, `sign`) take a fuel
  argument, all theorems about them hold for every fuel, and `none` is "not finished within the fuel".
* `Result` is `Except Error`, `Option` is `Option`.

## 3. What is modelled

| source | model | remarks |
|---|---|---|
| `core/src/scalar.rs` | `Model/Scalar.lean` | all functions except `inv_var` (calls `inv`) and derived traits |
| `core/src/field.rs` | `Model/Field.lean` | all functions except operator wrappers that only forward |
| `core/src/group.rs` | `Model/Group.lean` | all functions, including the storage forms and the batch conversion |
| `core/src/ecmult.rs` | `Model/Ecmult.lean` | tables, contexts, blinding, wNAF, `ecmult`, `ecmult_gen`, `ecmult_const` |
| `core/src/ecdsa.rs`, `ecdh.rs`, `error.rs` | `Model/Ecdsa.lean` | all functions |
| `core/src/der.rs` | `Model/Der.lean` | all functions; a method of the decoder returns its result and the decoder, also after `Err` |
| `src/lib.rs` | `Model/Lib.lean` | the whole public API, including serde for public keys |
| `ecmult_const`, `ecmult_gen`, `add_ge`, `sign`, `from_secret_key`, ECDH | `Model/Leak.lean` | a second time, with branches and addresses |
| operations of `SecretKey`, `ecmult`, tweaks of public keys | `Model/LeakVar.lean` | a second time, with branches and addresses |
| `SecretKey::parse_slice`, `SecretKey::random` | `Model/LeakKeys.lean` | a second time, with branches and addresses |
| `#[derive(Debug)]` | `Model/Debug.lean` | `{:?}` and `{:#?}` without further flags; `core::fmt` and `GenericArray` from their documentation |
| `ecmult_gen`, `sign_raw`, `sign`, `ecmult_const`, `ecdh_raw` | `Model/Residue.lean` | a second time, with their locals at return |
| `SecretKey::{parse, parse_slice, random, tweak_add_assign}`, `from_secret_key` | `Model/ResidueKeys.lean` | a second time, with their locals at return |
| `new_boxed` | `Model/Boxed.lean` | a second time, with the memory it is given |
| `gen/ecmult`, `gen/genmult`, `build.rs`, `src/lib.rs:50-60` | `Model/StaticContext.lean` | the text of the generated tables and how it is read back |

## 4. What is not modelled

* External crates. `HmacDRBG` (with HMAC and SHA-256), the RNG, the digest of ECDH, the base64 engine and serde formats are
  parameters, universally quantified. The laws assumed of them are fields of the structures: `Digest.update_append` (feeding in pieces
  is feeding the concatenation) and `Base64.decode_encode`. C69 instantiates the generator with HMAC_DRBG of SP 800-90A written
  out from that document; that the crate `hmac-drbg` implements it is assumed. C93 instantiates base64 with RFC 4648; that the engine
  `BASE64_STANDARD` of the crate `base64` is it is assumed. `subtle::Choice` is a `Bool`.
* Timing, memory contents after a drop, and side channels other than the one of the next item. `clear` is modelled as the value it
  leaves (C50); `Model/Residue` says what the named locals of `sign`, `sign_raw`, `ecmult_gen`, `ecdh_raw` and `ecmult_const` hold at return (C97, C105), `Model/ResidueKeys` those of the functions that make and change keys (C123). That the
  compiler keeps the writes and makes no other copies is not expressible.
* Branches and addresses are modelled for the functions that compute with secret keys and nonces, in `Model/Leak.lean`, `Model/LeakVar.lean` and `Model/LeakKeys.lean` (C90–C92, C95, C96). The
  header of that file says which constructs count as observations. It rests on three assumptions: the compiler turns selections
  between two computed values (`cmov`, carries, masks, `if c { x } else { y }`) into straight-line code; machine instructions take
  time independent of their operands; the hash and the generator leak at most lengths. `verify` and
  `recover`, whose inputs are public, are not traced.
* Memory allocation: `Model/Ecmult` models the values of `new_boxed`; `Model/Boxed` models its memory as cells that may be uninitialised
  (C94). Layout, alignment and aliasing are not modelled. `inspect_raw` returns a reference to the modelled table.
* File handling and I/O errors of `build.rs`; only the text written is modelled, and `Spec/RustConst.lean` is a reader of
  that text that stands for rustc (decimal literals, array and struct expressions).
* `Debug` with flags (`{:x?}`, widths), `Clone`/`Copy`, tests and benchmarks.
* Cargo features other than the choice of static context: the model has both ways to get a context, and C65 proves them equal.

## 5. Simplifications, each noted at its definition

* `choiceFrom` panics in both profiles when the source would panic only in debug. This asks more of the code, not less: the theorems show
  that the case does not occur. `subNat` (a `usize` subtraction) wraps in release at 64 bits; a 32-bit wrap has the same outcome at every use.
* The clearing of local secrets at the end of `ecmult_gen` and `sign_raw` is dropped; the values are dead.
* `debug_assert!(word == wnaf_size)` at the end of the wNAF recoding is implied by the structure of the loop and is not written out.
* `ecmult` and the table builders use lists for fixed-size arrays; indexing is checked.
* `Display for u32` writes decimal digits (used for generated tables), and `Debug for u32`, `u8` too; `debug_tuple`, `debug_struct` and
  `debug_list` write the documented forms (C98).

## 6. Specification

* `Spec/Numbers`: `p`, `n`, big-endian `beNat`/`beBytes`. `Spec/Curve`, `Spec/Group`: `y² = x³ + 7` over `ZMod p` with Mathlib's
  `WeierstrassCurve.Affine.Point` and its group law, and the base point `G`. These use nothing of the model; `Spec/Group`
  imports a proof file only for the primality of `p`.
* `Spec/Ecdsa`: ECDSA validity, the signature made from a nonce, recovery, SEC 1 encodings. `Spec/Der`: X.690 lengths, integers and
  sequences, and the lax grammar. `Spec/Rfc6979`: nonce candidates. `Spec/Sha256`: SHA-256 and HMAC
  (FIPS 180-4, 198-1), used only where C69 is instantiated. `Spec/Base64`: RFC 4648. `Spec/Digits`: signed-digit sums.
* `Spec/Values`, `Spec/Points`, `Spec/Api` relate the types of the model (limbs, coordinates, keys) to integers and points: `Scalar.val`,
  `FElem.WF`, `DenotesA`, `IsKey`, `ValidSecret`, `Canonical`. They use the types and not the functions of the model.
* `Spec/Client`: programs over the API (`step` on the model, `ideal` on integers and points). C71 relates the two. `ideal` determines
  every output and every stored object, so a change of any observable result of the API on valid objects falsifies C71.
  A secret key may be cleared; deriving a public key from it is excluded (`Careful`), since the result is no finite point (C79, C81).

## 7. Proof methods

1. `Runs x P` ("x returns, in both profiles, a value with P"), a bind rule, and a rule per machine operation with interval
   bounds; so absence of overflow is part of every arithmetic lemma.
2. Scalars and field: value equations per carry step, combined by linear arithmetic; reductions modulo `n` and `p`.
3. Primality of `n` by a Pratt certificate. Primality of `p` and `#E = n` by the elliptic-curve criterion with the curve
   itself (`Proofs/GenChain`, `Curve`, `Order`).
4. Jacobian formulas against Mathlib's group law, including every exceptional case.
5. Tables, wNAF and multiplication by induction on the digits; blinding for every blinding value.
6. ECDSA over the abstract group, linked to the code by the refinement lemmas; the API on top.
7. DER: a pure parser over lists proved equal to the decoder with positions; then the grammar.
8. C70 by a type class `Agrees`, one instance per model function; C78 by a type class `Total` and invariants on table lengths and wNAF digits. C71 by refinement, one case per operation, and induction on the program.

## 8. Trusted base

* Lean's kernel (4.33.0), and that the statements mean what `properties.jsonl` says.
* The fidelity of the transcription: the code was read, not run. As a test of the transcription (not a proof) the model was executed in the
  interpreter, in both profiles, on the 380 Wycheproof vectors in /repo/res, with the expected result on each, and on 60 further cases of key
  derivation, signing, verification, recovery, DER, ECDH and tweaks against an independent implementation in another language, with equal results.
  The long straight-line functions (`mul_inner`, `sqr_inner`, `sqrt`, `inv` of the field; `mul_512`, `sqr_512`, `reduce_512`, `inv` of the
  scalars; 840 statements) are compared with the model statement by statement by `tools/straightline.py`, which translates the Rust text and
  reports any line that differs (`python3 tools/straightline.py`). The other functions were read against the model a second time, file by
  file, after the proofs were done; no discrepancy was found.
* The axioms `propext`, `Classical.choice`, `Quot.sound`. No others occur: no `sorry`, no `native_decide`, no `bv_decide`, no axioms of our own.
  `#print axioms` on the theorems of `MANIFEST.json` gives the three standard axioms for all except the ones listed below.
  * `C38_wnaf_31_panics`: propext, Quot.sound
  * `C45_recovery_id`: propext
  * `C50_clear_all`: propext, Quot.sound
  * `C62_defaults`: propext, Quot.sound
  * `C64_error_messages`: none
  * `C70_core`, `C70_public`, `C70_secret`, `C70_signature`, `C70_scalar`, `C70_field`, `C70_group`, `C70_ecmult`, `C70_ecdsa`,
    `C70_decoder`: propext, Quot.sound
  * `C80_serialize`, `C80_combine`, `C80_try_from`, `C80_context`, `C80_eq_reads_magnitude`, `C80_debug`: propext, Quot.sound
  * `C88_new`: propext
  * `C89_new`, `C89_write`, `C90_values`, `C94_null`, `C95_values`, `C95_key_values`, `C96_values`, `C97_values`, `C105_values`, `C123_values`:
    propext, Quot.sound

## 9. Where the code departs from the property one would expect

Each item is proved as the negation with a witness, next to the strongest true statement.

| where | what happens | theorems |
|---|---|---|
| `Scalar::is_high` (scalar.rs) | compares with `(n-1)/2` by `>=`: `s = (n-1)/2` counts as high, so `normalize_s` turns it into `(n+1)/2` and `sign` can return `s = (n+1)/2` | C11, C28 |
| `sign_raw` (ecdsa.rs) | a nonce whose x coordinate is `≥ n` panics in debug builds; x = n gives `r = 0` in release builds | C28, C29, C54 |
| `serialize_der`/`parse_der` | `read_integer` refuses the value zero at the end of the input, so a signature with `s = 0` does not round-trip | C39 |
| `Decoder::read_len` (der.rs) | on 32-bit targets a debug build overflows on lengths near `2^32`, given 16 MiB of input; a release build returns the length instead of an error | C41, C88 |
| `Decoder::skip`, `peek` (der.rs) | `position + len` is not checked: in release builds `skip` with a huge argument moves back and `peek` returns an earlier byte; `peek_slice` panics | C88 |
| `Decoder::read_integer` (der.rs) | the test for a redundant `ff` has the wrong sense: `ff ff` is accepted (as zero, not consumed) and `ff 7f` refused; not visible through `parse_der` | C88 |
| `parse_der` | an INTEGER of more than 32 bytes is not skipped, so a SEQUENCE with one INTEGER is accepted with `r = 0` | C44, C59 |
| `LowerHex for SecretKey` | prints the eight 32-bit words least significant first | C48 |
| `ecmult_wnaf` | its assertion admits window 31, for which the digit arithmetic overflows | C38 |
| `parse_der_lax` | accepts inputs of 16 MiB on 64-bit targets that 32-bit targets refuse | C57 |
| public fields | with unreduced limbs, `verify` and `recover` panic in debug for `r ≥ p` and reduce it modulo `p` in release, `recover` accepts `s = n` although the result does not verify, `+`/`-` can be wrong modulo `n` | C66–C68 |
| `odd_multiples_table` (ecmult.rs) | excludes the point at infinity by a debug assertion only: in release builds the key of a cleared secret accepts every canonical signature; the pair (0,0), `Affine::default()`, does so in both builds | C79 |
| `ecdh_raw` | does not check its point: in release builds the point at infinity and the pair (0,0) give the hash of `02 00…00` for every secret | C81 |
| `add_ge` (group.rs:478) | `&&` of two secret conditions: the second is evaluated only if `y1 = -y2`, which happens for three secret keys in ECDH and for less than one in 13107 scalars in `ecmult_gen` | C90–C92 |
| tweaks of `PublicKey` (src/lib.rs:253, 276) | the tweak has the type `SecretKey` but goes through the variable-time `ecmult`: branches and table indices determine it | C96 |
| `ecdh_raw`, `ecmult_const` (core/src/ecdh.rs:9-36, core/src/ecmult.rs:491-556) | nothing is wiped: the locals hold the secret key and the shared point | C105 |
| `SecretKey::parse`, `parse_slice`, `random`, `tweak_add_assign` (lib.rs:412-453) | nothing is wiped: the locals hold the key, also as bytes; a refused input stays reduced modulo n | C123 |
| `Ord for Field` (core/src/field.rs:1759) | on elements that are not normalized `cmp` disagrees with `==`, or panics (debug) | C103 |
| `derive(PartialEq)` of `Affine` (core/src/group.rs:3) | two points at infinity can be unequal | C103 |
| `SharedSecret::new` (src/lib.rs:753-769) | a secret above `n`, which `SecretKey::try_from(Scalar)` accepts, gives a secret no peer can agree on (debug: panic) | C111 |
| `normalize_s` (src/lib.rs:636-640) | from `s = n` on it negates modulo `2^256`: the result is not reduced and does not verify although the input did | C112 |
| `tweak_mul_assign` (src/lib.rs:276-297, 455-462) | the tweak `n` is accepted and leaves a zero secret and the point at infinity | C111 |
| `sign` (src/lib.rs:818-859) | a cleared secret is accepted: the signature gives its nonce away and recovers to no key; on a zero message the loop never ends | C110 |
| `PublicKey::serialize`, `combine` (src/lib.rs:216-251, 299-313) | the key of a cleared secret is written as a point with zero coordinates, which no parser accepts; an odd number of such keys combines to the pair (0, 0) (release) | C108 |
| `combine` (src/lib.rs:299-313) | the key of a zero secret is not neutral: added to valid keys it turns their sum into a pair that is not on the curve, returned as `Ok` (release) | C113 |
| `derive(Debug)` of `SecretKey`, `SharedSecret` (src/lib.rs:66, 85) | the text is the secret | C98 |
| `derive(Debug)` of `PublicKey` (src/lib.rs:62) | the texts of equal keys differ when `y` is not a square and one key was read compressed | C98 |
| `ecmult_gen` (ecmult.rs:562, 580) | `adds` is not cleared: it tells the top four bits of the blinded nonce | C97 |
| `sign_with_context` (src/lib.rs:823, 832) | `seckey_b32`, the generator and the block `generated` are not cleared, although `nonce` is; the block gives the key | C97 |
| `new_boxed` (ecmult.rs:70, 195) | the pointer returned by `alloc` is not compared with null | C94 |
| `PartialEq for Field` | negates with the stored magnitude, so in a release build an element whose magnitude field is, say, 100 differs from itself | C80 |

## 10. The properties

How each is modelled and proved. Statements are in `properties.jsonl`, theorem names and status in `MANIFEST.json`.

* **C01–C06, C45, C53** (parsers of keys, messages, signatures, ids): byte strings of every content and length; exact acceptance
  sets and values, from the limb equations of `set_b32`/`fill_b32`.
* **C07–C10, C51, C63** (scalars): `Scalar.val` of the result modulo `n`, for reduced inputs; inversion by Fermat along the addition
  chain. C68 says what happens for unreduced inputs.
* **C12–C15, C61** (field): all well-formed elements; value modulo `p`, magnitude and the `normalized` flag of the result; canonical form; inverse, square root.
* **C16, C17, C52, C62** (points): Jacobian and affine operations against Mathlib's group law, with all exceptional inputs; conversions and batch inversion.
* **C55**: the group has order `n` and is cyclic.
* **C34–C38, C65** (multiplication): contexts, tables, recodings and the three multiplication routines, by induction; the generated tables equal the computed ones.
* **C18–C22, C32, C47** (public keys): derivation, SEC 1 encodings in both directions, equality, sums, serde.
* **C23–C29, C54, C56, C69** (ECDSA): exact verification equation, signing for every generator, recovery both ways, malleability, first usable nonce, RFC 6979.
* **C30, C31, C33** (tweaks, ECDH): homomorphism, error cases, symmetry.
* **C39–C44, C57–C60** (DER): every slice; grammar given independently; strict and lax acceptance sets, platform dependence.
* **C11, C28, C39, C41, C44, C48, C54**: partial, since the full property is false of the code (section 9).
* **C46, C70, C71** (whole API): no panic on valid objects; debug results equal release results for all inputs; every program refines its ideal run.
* **C78** (whole API): release builds return on objects with arbitrary contents.
* **C83, C84** (how often signing fails): the failing nonces are labelled by few values and the label determines the nonce.
* **C85** (random keys): exchanging two keys in every block of the generator is a bijection between the sequences that return them.
* **C95** (observations of the operations on secret keys): traces written out; for `random` (`Props/LeakKeys`) induction on the draws.
* **C96** (observations of the tweaks): a relational logic on two runs with equal observations (`Proofs/LeakVar`): the sign and the index of every
  table access fix the digits of the recoding, which sum to the scalar.
* **C126** (`Props/DerCount`): writing is injective on verifying signatures and, by C40 and C05, every string read as one was written that way; for the lax reader C60 lets every tail be appended.
* **C125** (`Props/EncodingCount`): C86 gives every point four encodings; a string encodes one point in one way; there are `n - 1` points besides the neutral one.
* **C124** (`Props/RecoverMessages`): the recovered key `s/r R - m/r G` is injective in the residue `m`, and vanishes for `m = s log R`; the pairs of a
  signature and an id correspond to the pairs of a nonce `k` with `r ≠ 0` and a number `s k` other than 0 and `m`.
* **C123** (`Props/ResidueKeys`): case analysis of the functions with their locals.
* **C122** (`Props/TweakTargets`): the tweak is the difference or the quotient of the discrete logarithms.
* **C121** (`Props/MessageCount`): the messages and keys a signature fits are affine images of the nonces with component `r`, two per x coordinate.
* **C120** (`Props/ByteClasses`): a 256-bit value below `2n` is its residue or its residue plus `n`.
* **C119** (`Props/RecoverKeys`): the recovered key is `(s/r) R - (m/r) G`, and every point is one multiple of `R`.
* **C118** (`Props/NonceSigns`): opposite nonces have points with the same x coordinate and values of `s` before normalization that are
  negatives of each other; a verifying signature determines its nonce up to sign.
* **C117** (`Props/KeyAgreement`): compressed encodings of points are different for different points (C20); multiplication by a nonzero
  scalar is a bijection of the group.
* **C116** (`Props/SignatureCount`): the verifying pairs `(r, s)` are in bijection with the nonces that give `r ≠ 0` and `s ≠ 0`; three
  nonces (zero and the two with x coordinate `n`) give `r = 0`.
* **C114, C115** (`Props/Pipelines`): put together from the DER theorems (C39, C40, C58, C102), the count of signatures (C76), the
  normal form (C100) and recovery (C26, C106).
* **C113** (`Proofs/Mixed`, `Props/MixedKeys`): `add_ge` evaluated on coordinates that need not be on the curve; the result would be on
  the curve only if 7 were a square modulo `p`.
* **C112** (`Props/RawSignature`): negation modulo `2^256` (C68); the verification points before and after differ by a factor
  that is neither 1 nor -1, so their abscissas differ.
* **C111** (`Proofs/AnySecret`, `Proofs/WrapSecret`): above `n` the recoding of `ecmult` ends with a carry, which a release build drops together with `2^256`, so the
  result is right; `ecmult_const` adds the skew and negates modulo `2^256`, so its result is off by `2^256`. For the two
  largest secrets the skewed scalar wraps to zero; the lowest digit is then -16, the table has no entry for it, and `table_get_ge_const` negates
  the entry of the digit before.
* **C110** (`Props/ZeroSign`): with `d = 0` the nonce point of the signature is `(m/s) G`; the rest is C26 and C106.
* **C109** (`Props/Rogue`): group algebra on top of C31, C32 and the compressed encoding.
* **C108** (`Props/ZeroSecret`): `add_ge` raises the infinity flag only with a third coordinate that is zero, so the affine coordinates of the
  key of a zero secret are zero; then the field lemmas, and the flag-flipping lemma of C81 for `combine`.
* **C106, C107** (`Props/Recovery`: recovery ids, tweaked keys): consequences of the exact statements of `recover` (C26), `verify` (C23), the
  tweaks (C30, C31) and the completeness of recovery (C56), by group algebra.
* **C105** (ECDH locals): `Model/Residue` for `ecmult_const` and `ecdh_raw`, with the value lemmas of C35 and C38.
* **C103, C104** (laws of the operators): C12–C14 and C61 put together; the field structures are transported along the value map
  (Mathlib's `Equiv.field`).
* **C100–C102** (exact behaviour where C11, C48 and C39 fail): `normalize_s` from C11 by cases on `s`; the hex text is that of the bytes
  of the scalar with the words in the opposite order; a lax read of a DER integer is determined.
* **C99** (messages nobody signed): C23 read as a parametrization; `Spec/Forge` is a client program over C30, C31 and the scalar functions.
* **C98** (`Debug`): an invariant of texts under the builders of `core::fmt`, with a reader of digit runs (`Spec/Text`); normalized
  elements have unique limbs; the root of `set_xquad` is a square and minus one is not.
* **C97** (locals at return): inversion of the run; the rows of the table have different entries; `sign_raw_equation` of C77.
* **C94** (memory of the contexts): both versions of `new_boxed` are equal for every content of the memory, with a case distinction for the null pointer.
* **C93** (text form): `Base64` instantiated with RFC 4648 (`Spec/Base64`); that decoding accepts canonical texts only, then C86.
* **C86, C87** (encodings): from the acceptance sets of the parsers and the DER grammar.
* **C88** (the decoder): each method against the parser on lists, in both directions; positions after errors by an invariant (`Proofs/DerKeep`); overflow by running the loop (`Proofs/DerWrap`).
* **C89** (`SignatureArray`): directly from the definitions and the proof of C40.
* **C90** (observations of ECDH): a program logic for values and traces (`Proofs/Leak`); `add_ge` branches on `y1 = -y2`, which by the endomorphism
  of the curve (`Proofs/Endo`) is a divisibility statement about the digits of the scalar, settled by a finite table (`Proofs/LeakConst`).
* **C91, C92** (observations of key derivation and signing): the same branch of `add_ge`. That the first four additions never take it is a kernel computation over
  all 4369 accumulators (`Proofs/GenWalk`); from the fifth on, each way to take it determines the lower digits of the scalar, which bounds their
  number (`Proofs/LeakGen`). The discrete logarithm of the table offset is unknown, so the exceptional scalars cannot be listed.
* **C82** (integer arithmetic): the primitives of `Model/Machine` against exact integer results.
* **C80** (debugging fields): a relation between two runs, one type-class instance per model function (`Proofs/Flags`).
* **C79, C81** (keys off the curve): table, loop and comparison traced with zero coordinates (`Proofs/Degenerate`, `Proofs/DegenerateConst`).
* **C72–C77** (laws): derivation is injective; tweaks can be undone, reordered and distributed; `combine` adds secrets; ECDH commutes with tweaks; at most four signatures, messages or keys fit together, and four is attained; reuse of a nonce, or a known affine relation between nonces, reveals the key.
* **C48, C50, C64**: formatting, clearing, error messages.
* **C66–C68**: arguments outside the documented ranges, reachable through public fields.

## 11. Seeded faults

`seeded/LOG.jsonl` has one line per wrong program: an edit of one model definition in a scratch copy, rebuilt there. `failed_lemmas`
are the declarations in which the build reported an error, `theorems_failed` the property theorems that depend on one of
them and so are no longer proved. A proof that breaks does not by itself show that its statement became false; for edits that
change a result of the API on valid objects, C71 does become false, since it determines every result.
