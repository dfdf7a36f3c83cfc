# Formal model of rozbb/latke-ipake — design

## What this is

A Lean 4 model of the code in `/repo` (the `latke` crate, the vendored `saber-rust` KEM and the vendored
"clean" C implementation of Dilithium2), written function by function, with theorems for the properties in
`properties.jsonl`.  The code is read, never run.  Layout of `lean/Verif/`:

| directory | content |
|---|---|
| `Basic/` | bytes, outcomes with panics, splitting helpers; negacyclic product (specification) |
| `Latke/` | model of the `latke` crate (`AuthEnc`, `IdealCipher`, `Eue`, `Latke`, `Chip`, `Pake/*`, `Ibke/*`) |
| `Saber/` | model of `saber-rust` |
| `Dilithium/` | model of `pqclean/crypto_sign/dilithium2/clean` |
| `Keccak/` | model of `pqcrypto-internals/cfiles/fips202.c` (SHA-3, SHAKE) |
| `*/…Lemmas`, `Refine`, `NoUb`, `SignCorrect`, … | helper lemmas |
| `*/…Spec`, `Saber/Spec`, `Dilithium/Spec`, `Dilithium/BitSpec`, `Keccak/Spec` | specifications, written without the model's helpers |
| `Props/` | the property theorems only, one file per group, each with non-vacuity examples |

## Modelling conventions

* `&mut self` methods become functions returning the new state.  Outcomes are explicit:
  `ok state output`, `err state e` (a Rust `Err`; the state the session is left in is kept, so that retries can
  be modelled) and `panic` (assert, unwrap, slice out of range, explicit panic).
* Randomness is an explicit argument: every call that draws from an RNG takes the drawn values ("coins").
  `thread_rng` draws inside `run` are coins of that call.
* `Vec<u8>`, slices and arrays are `List UInt8`; fixed sizes are kept as explicit length facts.
* Integers: `usize` lengths are `Nat`, with the subtraction underflows that matter modelled as panics (in a release build a
  `len - 32` underflow wraps and the following `split_at` panics; in a debug build the subtraction panics: same outcome).
  Saber's `u16` arithmetic is modulo 2^16.  Dilithium's `int32_t`/`int64_t` arithmetic is modelled exactly, with overflow facts proved.
* External crates are parameters (fields of a structure of primitives) with the functional laws listed under "Trusted base".

## Per-property plan and method

| property | modelled | method |
|---|---|---|
| C01–C04, C69 | `auth_enc.rs` over an uninterpreted keystream and HMAC | list lemmas; C69 gives the exact accepted set, so that a mistake shared by both directions is visible |
| C05–C06, C70 | `ideal_cipher.rs` over an uninterpreted deck function | involution of xor on split lists; C70 states the four rounds |
| C07–C11, C71 | `eue_transform.rs`, generic in the wrapped key exchange | simulation relation "both sides hold chain position n", induction on the conversation/history |
| C12–C19 | `latke.rs`, generic in PAKE and IBKE; instantiated with all shipped pairs in `Props/EndToEnd` | induction over the PAKE conversation, then over the EUE conversation; negations by witness |
| C66 | same, against an arbitrary network | invariant over all histories, then composition with C33–C36 |
| C20–C27, C72–C73 | `pake/*.rs`; `pake_cpace`, `spake2` crates and the KEM as parameters | symbolic execution, reachability invariants by induction on histories, exact outcome function |
| C28–C41, C74, C80 | `ibke/*.rs`; Ristretto as a module over a commutative ring, signatures and KEM as parameters | same |
| C42–C44, C79 | `chip.rs`, generic in the PAKE | same; C79 is a refinement: CHIP = first phase, then the PAKE |
| C45–C55 | `saber-rust` generic implementation, three parameter sets | bit-level lemmas, ring Z/2^16[X]/(X^256+1), integer error analysis |
| C56–C65, C67–C68 | `dilithium2/clean` | exact integer arithmetic with an explicit semantics record for overflow and out-of-bounds reads; NTT by induction over layers; refinement of `Dilithium/Spec.lean` |
| C75 | `pqcrypto-dilithium/src/dilithium2.rs` over the modelled C functions | byte-level case analysis, then C62/C63/C67 |
| C76 | the modelled Dilithium2 and LightSaber put into SIGMA-R, CAKE and LATKE | instantiation of C12/C35/C20 with the concrete schemes; laws discharged by C54 and C62 |
| C77–C78 | Saber's bytes as a function of the seeds | bit fields of byte strings; integer ring Z[X]/(X^256+1) against the 16-bit code by reduction modulo divisors of 2^16 |
| C81–C84 | `fips202.c`, array accesses through a record `Oob` that says what an out-of-range access does | the unrolled rounds lane by lane against the bit-level step mappings of FIPS 202; sponge: invariant "state = permuted prefix xor the bytes fed so far" over all call sequences; theorems hold for every `Oob`, so no access is out of range |
| C85 | `Dilithium/Linked.lean`: the Dilithium2 functions again, calling the stateful `fips202.c` model at each place the C code does (stream init, block squeezes, incremental absorb) | refinement to the stream model at `fipsShake`: a context that has absorbed x returns, over any sequence of squeezes, consecutive slices of the stream of x; the C-level theorems then transfer with no hash parameter left. `crypto_sign_keypair_det` calls `shake256` with output overlapping input; the model reads all input before writing, as `keccak_absorb` completes before the first squeeze |
| C86 | `eue_transform.rs` over an abstract `Ibke` | key position invariant of C70 (keys advance with every call that succeeded), then case analysis of one call; induction over the history for the refinement to the wrapped session |
| C87 | `latke.rs` over abstract `Ibke` and `Pake` | three-state invariant (PAKE running / PAKE done / exchange running) by induction over the history |
| C88 | every `run` of `latke/src` and the two shipped suites | a table by step number per protocol; induction over histories; composition through `EueState` and `Latke` |
| C89 | the four assembly files of `dilithium2/avx2` as straight-line code over 16 registers and a memory of dwords (`Avx2/Simd.lean`, `Avx2/NttAsm.lean`) | symbolic execution in the kernel: memory cells as terms, one butterfly at a time normalised to a variable; soundness of the symbolic executor by induction over the code; then the butterflies against `ntt.c` with bounds |
| C90 | `poly.c`, `rounding.c` of `dilithium2/avx2` as functions on vectors of eight dwords in terms of the intrinsics (`Avx2/Intrin.lean`, `Avx2/Poly.lean`) | lane by lane: `toInt`/`toNat` arithmetic; 16-bit multiply-high of `decompose` by exact division bounds; movemask bits by `decide` over the 256 masks |
| C91 | `rejsample.c`, the four-way samplers of `poly.c`, with the arrays as memories (`Avx2/Rej.lean`, `Avx2/IdxLut.lean`, `Avx2/Sample.lean`) | compressing stores: the 256-entry table checked entry by entry in the kernel, then induction over the loop with the invariant "array = accepted prefix"; the lock-step loop by partial-correctness induction and termination from the portable call |
| C92 | `polyz_unpack`, `polyw1_pack` on byte memories (`Avx2/Pack.lean`) | shuffle masks by `decide`, byte arithmetic, induction over the 32 / 8 iterations |
| C93 | `sign.c`, `polyvec.c` of `dilithium2/avx2` (`Avx2/Sign.lean`), uninitialised buffers and registers as arguments | relation between vector polynomials and integer polynomials preserved by every step; the attempt loop by induction over the attempts; permuted NTT order cancels between `ntt` and `invntt` |
| C94 | `crypto_sign_verify`, `crypto_sign_open` of `dilithium2/avx2` | row by row: hint decoding interleaved with the computation equals the portable two-pass decoding; honest signatures: a hint of 1 forces a non-zero low part |
| C95 | the same | explicit signatures for the public key with `t1 = 0` |
| C96 | `f1600x4.S` as a list of instructions over vectors of four quadwords (`Avx2/F1600.lean`, `Avx2/F1600Asm.lean`, generated by `tools/gen_f1600x4.py`) | symbolic execution of each of the four unrolled rounds in the kernel gives the round function up to the in-place lane placement; a vector run is four scalar runs (induction over the code); six loop iterations by induction |
| C97 | `fips202x4.c` (`Avx2/Fips202x4.lean`), inputs as memories so that over-reads are visible | each lane follows the byte-wise sponge of the proofs of C82; strong induction over the remaining length |
| C98 | the four-way samplers on the model of `fips202x4.c` (`Avx2/SampleLinked.lean`) | the state after `b` blocks continues the SHAKE streams at byte `b·r`; the lock-step loop against the stream version by partial-correctness induction both ways |
| C99 | the whole AVX2 build on `fips202.c`, `fips202x4.c` and `f1600x4.S` (`Avx2/SignLinked.lean`) | function-by-function equality with C93–C95 at FIPS 202, composed with C85; the disagreeing input by kernel evaluation of its five digests |
| C100 | `pqcrypto-dilithium/src/dilithium2.rs` with its run-time processor dispatch (`Avx2/Machine.lean`), SIGMA-R with the machine of each call part of its coins (`Latke/Ibke/SigmaMachine.lean`) | C99 and C85 for the crate; for the protocol, a simulation of the run on many machines by one whose verification is the conjunction over all machines, then C31 and C12 |
| C101 | The LATKE session of C87 against the PAKE alone (`pakeAlone`, the specification) | Induction over the calls: while the encrypted exchange has not started a call is the PAKE's call |
| C102 | `id_sigma_r.rs` a second time with its enums over the two signature schemes (`Latke/Ibke/SigmaEnum.lean`); the mismatch panic is a parameter | Simulation of the one-scheme session; the parameter has no influence on any call; lengths of identity messages determine the schemes |
| C103 | The Saber model of C45–C53, C77, C78 with the SHAKE128 of `Keccak/Fips202.lean`; CAKE, SIGMA-R and LATKE over it | All coefficients of the exchange evaluated in the kernel (`Saber/Eval.lean`: ring products by Kronecker substitution, proved; `Saber/Failure.lean`); numbers in `Saber/FailureData.lean` are hints and are checked |
| C104 | `eue_transform.rs`, `latke.rs`, `auth_enc.rs` (as for C86, C87) | Position of every key from the history (C86, C71); a call that does not panic has a message whose tag is right under the key of its position; positions of sent and received messages are strictly increasing; LATKE by the decomposition of C87. Tag collisions are stated, not excluded: HMAC is abstract |
| C105 | `dilithium2/aarch64/__asm_NTT.S`, `__asm_iNTT.S`, `__asm_poly.S` instruction by instruction (`Neon/Asm.lean`, generated by `tools/gen_neon_asm.py`; loops unrolled), run on a machine with 32 vector and 32 scalar registers and a word memory (`Neon/Simd.lean`) | Symbolic execution with a verified interpreter of the straight-line code (`Neon/Sym.lean`: what it finds is equal to the run on every memory), the terms checked by the kernel; the terms are butterflies, layered as in the portable transform (`NttSpec`), with integer bounds per layer (`NttInt`). Stores: the address of every store is known from the program text (`Frame`) |
| C106 | `aarch64/poly.c` `poly_uniformx2`, `poly_uniform_gamma1x2`, `polyvec.c` | First 256 accepted candidates of each stream; the explicit stream evaluated by the kernel |
| C107 | `aarch64/sign.c`, `polyvec.c`, `poly.c` (packing, rounding, reduce are textually the portable files) | Both builds compute the same residues (C105); where values may differ by a multiple of q both reduce before the value is looked at (`SignArith`, `SignEq`) |
| C108 | `__asm_poly.S` `asm_poly_freeze` | As C105, on 288 words |
| C109 | `feat.S` and the intrinsics of `fips202x2.c` as lists of instructions over pairs of quadwords (`Neon/F1600Code.lean`, generated by `tools/gen_f1600x2.py`; semantics `Neon/F1600.lean`; both versions `Neon/F1600X2.lean`) | symbolic execution of a round of each version in the kernel gives the round function (up to the A/E renaming); lane by lane; 24 rounds by induction |
| C110 | `fips202x2.c` (`Neon/Fips202x2.lean`), inputs as memories so that over-reads are visible | as C97: each lane follows the byte-wise sponge; strong induction over the remaining length |
| C111 | the whole aarch64 build on `fips202.c`, `fips202x2.c`, `feat.S` (`Neon/SampleLinked.lean`, `Neon/SignLinked.lean`) | function-by-function equality with C106–C107 at FIPS 202, composed with C85; unconditional part: the aarch64 matrix is the portable matrix of another hash function with the same SHAKE256 (`Neon/Own.lean`, `Neon/Indep.lean`), so what holds of the portable code for all hash functions holds of it |
| C112 | `pqcrypto-dilithium/src/dilithium2.rs` on x86_64 and aarch64 (`Neon/Machine.lean`), SIGMA-R with the machine of each call part of its coins | C100 and C111; the simulation of C100 for any type of machines, with the invariant that a session's key is one all machines sign alike with |
| C113–C118 | `dilithium3/clean`, `dilithium5/clean` (`Dilithium35/*`, `Mode` = parameter set) | the proofs of C56–C65, C67–C68 redone with the dimensions as variables; new: `decompose` for γ2 = (q−1)/32 by exact division, 20-bit mask and 4-bit formats by kernel-checked bit fields, nibble sampling with bound 9 |
| C119 | `dilithium3.rs`, `dilithium5.rs` over these C functions | as C75 |
| C120 | `asm_polyvecl_pointwise_acc_montgomery` assembled for `L` = 5 and 7 (`Neon35/Asm.lean`, generated); `polyvecl_uniform_gamma1` | as C105; the symbolic run lists only the rows that are written (`Neon35/Sym.lean`) and is proved equal to the run on all of memory |
| C121 | `dilithium3/aarch64`, `dilithium5/aarch64` (`Neon35/Sign.lean`; all other assembly routines are those of dilithium2) | as C107, with the dimensions as variables |
| C122 | rounding.c of dilithium3/5 avx2 in terms of intrinsics (`Avx235/Poly.lean`) | lane by lane; `mulhi`/`mulhrs` by multiplication over the reachable range; the mask of `make_hint` to the positions as in C90 |
| C123 | `polyz_unpack`, `polyw1_pack`, `rej_eta_avx`, four-way samplers (`Avx235/Poly.lean`, `Sample.lean`) | as C91, C92: shuffle tables bit by bit, the vector loops against the portable loops by induction on the buffer position |
| C124 | `crypto_sign_verify`, `crypto_sign_open`, matrix expansion of `dilithium3/avx2`, `dilithium5/avx2` (`Avx235/Rows.lean`, `Acc.lean`, `Verify.lean`) | as C94, generic in the parameter set: the row programs as tables, each checked against the portable entry; hint decoding interleaved with the rows equals the two-pass decoding |
| C125 | the same | explicit signatures: `t1 = 0` makes the commitment independent of the challenge; `Toy.lean` supplies a hash for which the samplers terminate |
| C126 | `crypto_sign_keypair`, `crypto_sign_signature`, `crypto_sign` of the same (`Avx235/Sign.lean`) | as C93: one pass of the AVX2 loop against one portable pass (same outcome, same bytes), then the loops by fixpoint induction in both directions; `nonce += L` in 64 bits against `L * nonce` in 16 bits; the surplus streams appear as the only extra condition for termination |
| C127 | the functions of `dilithium3/clean`, `dilithium5/clean` that hash, with their calls of `fips202.c` (`Dilithium35/Linked.lean`) | as C85: refinement to the stream model at `fipsShake`, then C115, C117, C118 transfer with no hash parameter left |
| C128 | `dilithium3.rs`, `dilithium5.rs` with their processor dispatch over three machines (`Dilithium35/Machine.lean`); the hash functions are a parameter, the same on all machines | C126, C121, C124 for the calls, C115 and C119 for the portable crate, C118 for machines with different undefined behaviour; the disagreeing signature is that of C125 |

Properties that cannot be expressed in such a model: none of the list; timing behaviour ("constant time") and computational
security (indistinguishability, unforgeability as probability statements) are out of scope — where security matters the theorem
exhibits the forgery, collision or certificate instead.

## Findings (proved, not only observed)

* C09: `eue_transform.rs` documents that a failed decryption switches to dummy traffic; the code panics, so that branch is unreachable.
* C16: with a pre-specified peer the identity reported on completion is not compared with the expected one; only the PAKE input contains it.
* C25, C27: KC-SPAKE2 `finalize` returns a key before confirmation; a failed confirmation is an `Err` and the session can be called again.
* C38: SIGMA-R's `run_sim` sizes are 12 bytes short of the real messages; FG-IBKE-C `run_sim` is a `todo!()`. C39: HMQV-C simulated sessions never report done.
* C40: HMQV-C and FG-IBKE-C `finalize` yields output before the peer is confirmed.
* C43: after a PAKE error at its first step CHIP keeps a stale transcript.
* C46, C53: LightSaber's 3-bit packing loses bit 0 of every coefficient at positions 5 mod 8; this lowers the decryption threshold there and can flip a message bit. C103 gives explicit honest coins for which this happens with the real SHAKE128 (found by a search outside Lean, about 2.5 failures per million encapsulations).
* C56: two documented bounds of `reduce.c` fail at one end point each.
* C71: an `Err` from the wrapped exchange advances the EUE chain by one, so the honest message the session waits for then panics it.
* C90: the AVX2 `use_hint` treats a low part of exactly 0 as positive; the specification and the portable code treat it as negative.
* C94, C95: the AVX2 `crypto_sign_verify` has no check of the norm of `z` (the comment says that shortness follows from unpacking; the encoding reaches γ1, the bound is γ1 - β); with the `use_hint` difference this makes the two builds disagree on adversarial signatures. C124, C125: the same holds for dilithium3 and dilithium5.
* C106: the aarch64 matrix sampler re-reads old SHAKE blocks when six are not enough (one new block is written over the start of the buffer, but `buflen` stays at five blocks, poly.c:440-444), so for such (improbable) seeds its keys differ from those of the other builds.
* C108: `asm_poly_freeze` of the aarch64 build counts `mov x16, #8` after two peeled iterations where the other loops have 7: it overwrites 32 words behind the polynomial. Not called by signing or verification.
* C73, C74: any peer can crash a PAKE or IBKE session with a message of the wrong length or with an undecodable key.

## Trusted base

* Lean 4.33.0 kernel. Axioms: `propext`, `Classical.choice`, `Quot.sound` only; the axioms of every theorem named in `MANIFEST.json` are
  listed in `AXIOMS.txt` (written by `tools/gen_axioms.py` from `#print axioms`). No axioms of ours, no compiled evaluation.
* That the model is a faithful reading of the source: every definition cites file and lines, and says where it simplifies.
  For Dilithium2 the model also reproduces, evaluated by the kernel, the first known-answer test of the code (`Props/Kat.lean`: key pair and signature byte for
  byte; the values come from `tools/dilithium2.py`, whose output has the `nistkat-sha256` of PQClean's `META.yml`, and the kernel checks each). The same run is the
  witness that key generation and signing terminate with SHAKE itself; the same key signs the two certificates and the two messages of a run of SIGMA-R, so that
  the hypotheses of C100 are met by a complete run. Digests are evaluated with `Keccak/Eval.lean` (a state packed into one number), proved equal to FIPS 202
  and so to the model of fips202.c. These are tests and witnesses, not claims.
* External code is a parameter of the theorems. What is assumed is a hypothesis of the theorem, never an axiom:
  * `SymPrims` (ChaCha20 keystream, HMAC-Blake2b, HKDF extract/expand, Blake2b-256, Kravatte): uninterpreted deterministic functions with
    output lengths; no law at all.
  * `Ed25519.Correct`, `SigmaScheme.Correct`: signatures verify, keys survive encoding. `X25519.Correct`: dh a (pub b) = dh b (pub a).
  * `Group.Correct`: encoded points decode to themselves (the module laws are in the type).
  * `Kem.Correct kc ec`: decapsulation inverts encapsulation *for these coins* — not for all coins, since C53 shows that LightSaber fails on some.
  * `Spake2.Correct`, `CpaceLib.Correct`: honest runs with equal inputs agree and messages are not empty.
  * Saber `Hashes` (SHAKE128, SHA3-256/512) and Dilithium `Shake`: uninterpreted functions from input to output stream. `fipsShake` is the instance that the C code computes (C84).
  * Dilithium `CSem`: says what a signed overflow or an out-of-bounds read returns; theorems hold for every `CSem`, so they do not depend on it (C68).
  All of these laws have a concrete toy instance in the model, so no hypothesis is unsatisfiable.
* The meaning of the AVX2 instructions and intrinsics (`Avx2/Simd.lean`, `Avx2/Intrin.lean`) is written down from Intel's manuals, that of the NEON and SHA3 instructions (`Neon/Simd.lean`, `Neon/F1600.lean`) from Arm's.
* Theorems about negative results and authentication need no law.

## Modelled and not modelled

Modelled: all of `latke/src` (`auth_enc`, `ideal_cipher`, `eue_transform`, `latke`, `chip`, `pake/*`, `ibke/*`) except tests and benches;
`saber-rust/src/{poly,generic,params,newtype}.rs` and the three parameter sets (the macro `non_generic.rs` instantiates the types and functions of `generic.rs` for each set: `Impl` in the model); PQClean `dilithium2/clean` `{reduce,rounding,ntt,poly,polyvec,packing,sign,symmetric-shake}.c`, the `fips202.c` it is linked with (C81–C84), and its Rust interface `pqcrypto-dilithium/src/dilithium2.rs` (C75; with the run-time choice between portable and AVX2 code, C100).

From `dilithium2/avx2`: the assembly files `ntt.S`, `invntt.S`, `pointwise.S`, `shuffle.S` instruction by instruction (C89; generated from the source by
`tools/gen_avx2_asm.py`), the polynomial arithmetic, rounding, rejection sampling, four-way samplers, `polyz_unpack` and `polyw1_pack` in terms of intrinsics (C90–C92), `sign.c` and `polyvec.c` (C93–C95), the four-way Keccak `f1600x4.S` and `fips202x4.c` (C96–C98) and all of it linked together (C99).
Simplified there: operands are at fixed disjoint addresses, alignment and flags are not modelled, and the C loops over `__m256i` arrays are functions on vectors of lanes.

From `dilithium2/aarch64`: the three assembly files of the transforms and polynomial arithmetic instruction by instruction (C105, C108), `poly.c`, `polyvec.c`, `sign.c` (C106, C107). The two-way Keccak (`fips202x2.c`, `feat.S`) is in C109–C111; in C106–C107 two streams of the abstract hash stand for it. Simplified: operands at fixed disjoint addresses, 32-bit words as the unit of memory, the callee-saved register pushes and pops left out.

From `dilithium3/clean` and `dilithium5/clean`: all of it, as one model with the parameter set as an argument (`Dilithium35/*`); what does not depend on the parameters is shared with the dilithium2 model. The Rust files `dilithium3.rs`, `dilithium5.rs` with the clean code (C119). From `dilithium3/aarch64` and `dilithium5/aarch64`: what differs from `dilithium2/aarch64` and from the clean code (`Neon35/*`), with the hash as a parameter.
The challenge polynomial of these two depends only on the first 32 bytes of the 48- or 64-byte challenge seed (`poly_challenge` absorbs `SEEDBYTES`): the model and C116 say so.

From `dilithium3/avx2` and `dilithium5/avx2`: rounding, `rejsample.c`, `polyz_unpack`, `polyw1_pack` and the four-way samplers where they differ from `dilithium2/avx2`, `sign.c` and `polyvec.c` (`Avx235/*`). The row functions of dilithium3 also expand two streams (nonces 1536, 1537) whose results they never use, and both key generations one stream with nonce L + K: the AVX2 functions wait for these streams too.

Not modelled: the external crates (parameters, see above); `ffi.rs` declarations; build scripts, tests,
benches; the ChaCha20 counter limit (256 GiB messages); timing; memory exhaustion.

## Checking the theorems against wrong programs

`seeded/LOG.jsonl` has one line per wrong program: the definition edited in a scratch copy, the edit, the claim it breaks, the theorems that failed
to build, and the theorems tightened when nothing failed.
