{"id": "C01", "title": "Authenticated encryption round-trips", "statement": "Decrypting the output of auth_encrypt under the same key returns exactly the original message and never an error or panic.", "quantifier": "every 64-byte key, every message of any length, every nonce the RNG may draw", "why_tests_cant": "a test draws one key, one nonce and one message length", "anchors": ["latke/src/auth_enc.rs: auth_encrypt, auth_decrypt"]}
{"id": "C02", "title": "Authenticated encryption has constant overhead", "statement": "The sealed message is exactly 44 bytes longer than the plaintext (12-byte nonce and 32-byte tag), so the wire length depends only on the plaintext length.", "quantifier": "every key, message and nonce", "why_tests_cant": "length must be the same function of the plaintext length for every input", "anchors": ["latke/src/auth_enc.rs: auth_encrypt, TAGLEN"]}
{"id": "C03", "title": "Authenticated decryption accepts only correctly tagged input", "statement": "If decryption returns a plaintext then the last 32 bytes are the HMAC, under the MAC half of the key, of every other byte (ciphertext and nonce); so changing only the tag of a sealed message is always rejected, and an accepted modification of the rest is a fresh valid (message, tag) pair, i.e. a MAC forgery.", "quantifier": "every key and every byte string presented to decryption", "why_tests_cant": "tests flip one random bit of one ciphertext", "anchors": ["latke/src/auth_enc.rs: auth_decrypt"]}
{"id": "C04", "title": "Panic domain of authenticated decryption", "statement": "auth_decrypt panics exactly on inputs shorter than 44 bytes; on every other input it returns a plaintext or a MAC error.", "quantifier": "every byte string", "why_tests_cant": "the set of panicking inputs is a statement about all lengths", "anchors": ["latke/src/auth_enc.rs: auth_decrypt"]}
{"id": "C05", "title": "Wide-block cipher is a permutation", "statement": "For every key and every block length of at least 32 bytes, decrypting after encrypting and encrypting after decrypting both give back the block, so encryption is a bijection on blocks of that length.", "quantifier": "every key, every block of 32 bytes or more, every deck function", "why_tests_cant": "a test takes one 700-byte block and only checks one direction", "anchors": ["latke/src/ideal_cipher.rs: wide_block_encrypt, wide_block_decrypt"]}
{"id": "C06", "title": "Wide-block cipher is length preserving and total from 32 bytes up", "statement": "Encryption and decryption keep the block length and panic exactly when the block is shorter than 32 bytes.", "quantifier": "every key and every byte string", "why_tests_cant": "claim about all lengths", "anchors": ["latke/src/ideal_cipher.rs: wide_block_encrypt, wide_block_decrypt, eval_deck"]}
{"id": "C07", "title": "EUE is transparent for honest peers", "statement": "Two EUE endpoints started with the same initial key and ssid, passing each other's messages unmodified, make the wrapped key exchange take exactly the same steps as if it were run in the clear: same success, same number of messages, same final identity and key at both sides.", "quantifier": "every IBKE protocol, every initial key, ssid, certificates, every sequence of random coins, any number of messages", "why_tests_cant": "tests run one protocol with one set of coins", "anchors": ["latke/src/eue_transform.rs: Eue::new_session, Eue::run, Eue::finalize"]}
{"id": "C08", "title": "EUE never feeds unauthenticated bytes to the key exchange", "statement": "Whenever an EUE step on a non-empty incoming message gets as far as running the wrapped protocol, the bytes handed to it are the authenticated decryption of that message under the current message key; a message that does not authenticate never reaches the wrapped protocol.", "quantifier": "every session state and every incoming byte string (adversarial)", "why_tests_cant": "needs all adversarial messages at all points of a session", "anchors": ["latke/src/eue_transform.rs: Eue::run"]}
{"id": "C09", "title": "EUE continues with dummy traffic after a decryption failure", "statement": "The documentation says a decryption failure makes the session leave real mode and keep sending zeros of the right size ('unconditionally execute'). In the code an assertion aborts first: a message that fails authentication always panics, and no reachable session ever leaves real mode.", "quantifier": "every reachable session state and every incoming message", "why_tests_cant": "reachability claim over all histories; the tests never exercise a failed decryption", "anchors": ["latke/src/eue_transform.rs: Eue::run, real_mode"]}
{"id": "C10", "title": "Ratchet synchronisation", "statement": "In an EUE session the n-th message on the wire (counting both directions) is protected with the n-th key of a chain that depends only on the initial key and ssid, at the sender and at the receiver, no matter what the messages contain.", "quantifier": "every history of steps of either role, any length", "why_tests_cant": "the invariant has to hold after every number of steps", "anchors": ["latke/src/eue_transform.rs: ratchet_keys, next_step_is_first, Eue::run"]}
{"id": "C11", "title": "Empty messages bypass EUE authentication but cannot advance a shipped protocol", "statement": "An empty incoming message is passed to the wrapped protocol without any authentication; nevertheless every shipped key exchange aborts or reports an error on an empty message at every step except the initiator's first, so the bypass cannot make a session progress.", "quantifier": "every session state of each of the five IBKE instantiations", "why_tests_cant": "statement over every reachable state", "anchors": ["latke/src/eue_transform.rs: Eue::run", "latke/src/ibke/*: run"]}
{"id": "C12", "title": "LATKE end-to-end agreement", "statement": "If the PAKE on the common input and the IBKE on the same certificates and coins each succeed with agreement when run alone, then two honest LATKE users with the same ssid, run alternately until the user to move is done, terminate with neither panicking, both report done, each outputs the other's identity, and both hold the same session key.", "quantifier": "every PAKE and IBKE, both peer models, every password, ids, ssid, all coins, any number of PAKE and IBKE rounds (odd or even)", "why_tests_cant": "tests run five instantiations once or twice with fixed round counts", "anchors": ["latke/src/latke.rs: Latke::new_session, run, is_done, finalize"]}
{"id": "C13", "title": "LATKE keys bind the transcript", "statement": "Both users' final keys are the same KDF of (all wire messages in order, IBKE key); if two completed sessions have the same final key then their concatenated transcripts followed by the IBKE key are the same or a collision of the KDF is exhibited. Only the concatenation is bound, not the message boundaries.", "quantifier": "every pair of session histories", "why_tests_cant": "quantifies over all pairs of histories", "anchors": ["latke/src/latke.rs: run (input_ikm), finalize"]}
{"id": "C14", "title": "Password determines the LATKE main public key", "statement": "gen_pwfile for the same password always yields the same main public key (whatever the id and RNG), and the certificate it yields carries the id it was asked for and verifies under that key.", "quantifier": "every password, id and RNG", "why_tests_cant": "tests check one password", "anchors": ["latke/src/latke.rs: Latke::gen_pwfile"]}
{"id": "C15", "title": "LATKE-Pre PAKE input is unambiguous", "statement": "In the pre-specified model both honest users derive the same PAKE input exactly when they have the same main public key and each names the other's certified id, in the role order initiator-responder; any mismatch in an id gives different PAKE inputs.", "quantifier": "every pair of password files with equally long main keys, every pair of named ids", "why_tests_cant": "injectivity over all inputs", "anchors": ["latke/src/latke.rs: Latke::new_session, PeerModel"]}
{"id": "C16", "title": "Pre-specified peer identity is enforced on output", "statement": "A user of the pre-specified model would expect that a completed session only ever reports the named peer. LATKE never compares: there is an execution with a completed session whose reported id differs from the named one. What does hold: the reported id is exactly the id the encrypted IBKE authenticated.", "quantifier": "every session and history", "why_tests_cant": "the violating history is not exercised by any test", "anchors": ["latke/src/latke.rs: Latke::finalize, new_session"]}
{"id": "C17", "title": "The IBKE starts only after the PAKE completed", "statement": "In every history, a LATKE session holds an IBKE session only if its PAKE reported completion, and LATKE reports done only after both the PAKE and the IBKE are done. (Provided the PAKE signals completion whenever it has nothing to send.)", "quantifier": "every sequence of incoming messages to a session of any PAKE and IBKE", "why_tests_cant": "invariant over all histories", "anchors": ["latke/src/latke.rs: Latke::run, is_done"]}
{"id": "C18", "title": "LATKE driver terminates", "statement": "Honest LATKE executions stop after exactly PAKE rounds + IBKE rounds calls, minus one when the initiator ends the PAKE (its last PAKE call also starts the IBKE); no extra or missing call.", "quantifier": "every PAKE/IBKE round count", "why_tests_cant": "all round counts", "anchors": ["latke/src/latke.rs: Latke::run, tests::latke_correctness_generic"]}
{"id": "C19", "title": "LATKE aborts on any sub-protocol error", "statement": "If the PAKE or the IBKE step reports an error or panics on the incoming message, the LATKE step panics; it never returns a message or updates its transcript after an authentication error.", "quantifier": "every state and incoming message", "why_tests_cant": "all adversarial messages", "anchors": ["latke/src/latke.rs: Latke::run"]}
{"id": "C20", "title": "CAKE agreement", "statement": "Two CAKE users with the same password and ssid finish after three messages steps with the same 32-byte key whenever decapsulating the encapsulation under the fresh key pair gives back the encapsulated key; passwords and ssids of any value are allowed.", "quantifier": "every password, ssid, KEM coins, every KEM", "why_tests_cant": "tests use one password and random coins", "anchors": ["latke/src/pake/cake.rs: Cake"]}
{"id": "C21", "title": "CAKE input validation", "statement": "A CAKE step panics exactly when the message has the wrong length for the step (0, 672 or 736 bytes) or the session is finished; every message of the right length is accepted and completes the step.", "quantifier": "every state reachable from new and every message", "why_tests_cant": "all messages at all states", "anchors": ["latke/src/pake/cake.rs: Cake::run"]}
{"id": "C22", "title": "CPace agreement", "statement": "Two CPace users with the same password and ssid finish with equal keys, for any password bytes.", "quantifier": "every password, ssid and coins", "why_tests_cant": "tests sample one", "anchors": ["latke/src/pake/cpace.rs: Cpace"]}
{"id": "C23", "title": "KC-SPAKE2 agreement", "statement": "Two KC-SPAKE2 users with the same password and ssid complete the four steps with both confirmations accepted and the same key.", "quantifier": "every password, ssid and coins", "why_tests_cant": "tests sample one", "anchors": ["latke/src/pake/kc_spake2.rs: KcSpake2"]}
{"id": "C24", "title": "KC-SPAKE2 completes only after key confirmation", "statement": "In every history a KC-SPAKE2 session reports completion only if the last message it accepted carried exactly the confirmation MAC derived from its own view (password, both messages and SPAKE2 key).", "quantifier": "every sequence of incoming messages", "why_tests_cant": "adversarial histories", "anchors": ["latke/src/pake/kc_spake2.rs: KcSpake2::run"]}
{"id": "C25", "title": "PAKE finalize panics unless the protocol completed", "statement": "The trait says finalize returns the key if the protocol completed and panics otherwise. True of CAKE and CPace in every reachable state; false of KC-SPAKE2, which hands out the unconfirmed key before completion and after a failed confirmation.", "quantifier": "every reachable state of the three PAKEs", "why_tests_cant": "all histories; tests never call finalize early", "anchors": ["latke/src/lib.rs: Pake::finalize", "latke/src/pake/*.rs: finalize"]}
{"id": "C26", "title": "PAKE sessions are one-shot", "statement": "Once a PAKE session is done it stays done, and running it again panics; the number of successful steps of a session is bounded by the role.", "quantifier": "every history of each of the three PAKEs", "why_tests_cant": "all histories", "anchors": ["latke/src/pake/*.rs: run, is_done"]}
{"id": "C27", "title": "A failed KC-SPAKE2 confirmation is final", "statement": "A user expects one guess per session. At the responder's last step a failed MAC leaves the session unchanged, so any number of further guesses is accepted for processing; at the initiator a failed MAC makes every further step panic.", "quantifier": "every number of wrong guesses followed by the right one", "why_tests_cant": "unbounded retry sequences", "anchors": ["latke/src/pake/kc_spake2.rs: KcSpake2::run"]}
{"id": "C28", "title": "Signed-DH IBKE agreement", "statement": "Two Signed-DH users with certificates extracted from the same main key complete with the same session key and each learns the other's id.", "quantifier": "all keys, ids, ssid, coins", "why_tests_cant": "tests sample one", "anchors": ["latke/src/ibke/id_sig_dh.rs: IdSigDh"]}
{"id": "C29", "title": "HMQV-C IBKE agreement", "statement": "Two HMQV-C users with certificates extracted from the same main key complete with both MACs accepted, the same key and each other's id.", "quantifier": "all keys, ids, ssid, coins, any prime-order-like group", "why_tests_cant": "tests sample one", "anchors": ["latke/src/ibke/id_hmqv_c.rs: IdHmqvC"]}
{"id": "C30", "title": "Fiore-Gennaro IBKE agreement", "statement": "Two FG-IBKE-C users with keys extracted from the same main key complete with both MACs accepted, the same final key and each other's id.", "quantifier": "all keys, ids, ssid, coins", "why_tests_cant": "tests sample one", "anchors": ["latke/src/ibke/fg_ibke.rs: FgIbkeC"]}
{"id": "C31", "title": "SIGMA-R IBKE agreement", "statement": "Two SIGMA-R users (either signature scheme) with certificates from the same main key complete with the same key and each other's id, whenever the KEM decapsulates correctly and its public-key encoding re-encodes to the same bytes.", "quantifier": "all keys, ids, ssid, coins", "why_tests_cant": "tests sample one per scheme", "anchors": ["latke/src/ibke/id_sigma_r.rs: IdSigmaR"]}
{"id": "C32", "title": "Certificates survive serialisation", "statement": "Parsing a serialised certificate gives back the same certificate, and the serialised length is the advertised size, for the three certificate formats.", "quantifier": "every certificate", "why_tests_cant": "all field values", "anchors": ["latke/src/ibke/id_sig_dh.rs: SigDhCert", "latke/src/ibke/id_hmqv_c.rs: IdHmqvCCert", "latke/src/ibke/id_sigma_r.rs: SigmaCert"]}
{"id": "C33", "title": "Signed-DH authentication", "statement": "In every history, a completed Signed-DH session reports an id for which it received a certificate verifying under the main key, and the ephemeral key used carried a signature by the certified key over (peer role byte, own ssid, ephemeral key).", "quantifier": "every sequence of incoming messages (adversarial)", "why_tests_cant": "adversarial histories", "anchors": ["latke/src/ibke/id_sig_dh.rs: IdSigDh::run"]}
{"id": "C34", "title": "SIGMA-R authentication", "statement": "In every history, a completed SIGMA-R session reports an id for which it received, under the session's encryption key, a certificate verifying under the main key, a signature by the certified key over the role byte, own nonce, ssid, KEM values and certificate, and the MAC of the id under the session's MAC key.", "quantifier": "every sequence of incoming messages (adversarial)", "why_tests_cant": "adversarial histories", "anchors": ["latke/src/ibke/id_sigma_r.rs: IdSigmaR::run"]}
{"id": "C35", "title": "HMQV-C authentication", "statement": "In every history a completed HMQV-C session received a certificate for the reported id verifying under the main key and the confirmation MAC derived from its own key and ssid.", "quantifier": "every sequence of incoming messages (adversarial)", "why_tests_cant": "adversarial histories", "anchors": ["latke/src/ibke/id_hmqv_c.rs: IdHmqvC::run"]}
{"id": "C36", "title": "FG-IBKE-C key confirmation", "statement": "In every history a completed FG-IBKE-C session received exactly the confirmation MAC derived from its own view (ephemeral keys, reported id, main key).", "quantifier": "every sequence of incoming messages (adversarial)", "why_tests_cant": "adversarial histories", "anchors": ["latke/src/ibke/fg_ibke.rs: FgIbkeC::run"]}
{"id": "C37", "title": "No reflection in Signed-DH and SIGMA-R", "statement": "The byte strings signed by an initiator and by a responder are never equal, whatever the ssids, keys and nonces; so a signature made in one role can only be accepted in the other if it verifies on a message that was not the one signed.", "quantifier": "all field values of the two signed encodings", "why_tests_cant": "injectivity over all inputs", "anchors": ["latke/src/ibke/id_sig_dh.rs: run", "latke/src/ibke/id_sigma_r.rs: run"]}
{"id": "C38", "title": "Simulated message sizes match real ones", "statement": "run_sim is documented to return the size of the message run would send. True for Signed-DH and HMQV-C at every step and for the first two SIGMA-R steps; SIGMA-R's sealed messages are 12 bytes longer than simulated, and FG-IBKE-C does not implement it (panics).", "quantifier": "every session state and successful step", "why_tests_cant": "all states and steps; no test calls run_sim", "anchors": ["latke/src/lib.rs: run_sim", "latke/src/ibke/*: run_sim"]}
{"id": "C39", "title": "Simulated sessions complete", "statement": "is_done is documented to become true after the last run_sim. True for Signed-DH and SIGMA-R, false for HMQV-C, which never becomes done when simulated.", "quantifier": "every session role and number of simulated steps", "why_tests_cant": "no test calls run_sim", "anchors": ["latke/src/lib.rs: is_done", "latke/src/ibke/*: run_sim"]}
{"id": "C40", "title": "IBKE finalize yields output only for completed sessions", "statement": "A user expects no identity/key pair from an unfinished or failed session. True of Signed-DH in every reachable state; false of HMQV-C, FG-IBKE-C and SIGMA-R, which return a pair before completion or after a failed verification.", "quantifier": "every history of each IBKE", "why_tests_cant": "all histories", "anchors": ["latke/src/ibke/*: finalize, run"]}
{"id": "C41", "title": "IBKE sessions are one-shot", "statement": "After a session completed every further run panics, completion is never revoked, and each role performs a bounded number of successful steps.", "quantifier": "every history of each IBKE", "why_tests_cant": "all histories", "anchors": ["latke/src/ibke/*: run, is_done"]}
{"id": "C42", "title": "CHIP agreement", "statement": "Two CHIP users whose password files come from the same password, each naming the other's id, derive the same PAKE input and so complete with the same session key whenever the PAKE does.", "quantifier": "every password, ids, ssid, coins, every PAKE", "why_tests_cant": "tests sample one", "anchors": ["latke/src/chip.rs: Chip"]}
{"id": "C43", "title": "CHIP transcript", "statement": "The transcript fed to the CHIP PAKE is exactly first message || second message on both sides, although received messages are recorded more than once.", "quantifier": "every pair of messages, both roles", "why_tests_cant": "duplicate bookkeeping must be harmless for every input", "anchors": ["latke/src/chip.rs: ibke_step_1, ibke_step_2, run"]}
{"id": "C44", "title": "CHIP binds the named identity", "statement": "If two honest CHIP users complete the exchange but one names the wrong peer id, their PAKE inputs agree only if the wrong id hashes to the same scalar multiple (i.e. (h(id,X) - h(id',X)) times the password key times the user's secret is zero).", "quantifier": "all ids, passwords and coins", "why_tests_cant": "all wrong ids", "anchors": ["latke/src/chip.rs: ibke_step_2, gen_pwfile"]}
{"id": "C45", "title": "Saber polynomial packings round-trip", "statement": "Unpacking a packed polynomial gives the coefficients modulo 2^b for b = 4, 6, 10, 13 and packing an unpacked buffer gives the same bytes.", "quantifier": "every polynomial and every buffer of the right size", "why_tests_cant": "all coefficient values at all positions", "anchors": ["saber-rust/src/poly.rs: read_bytes_*, from_bytes_*"]}
{"id": "C46", "title": "Saber 3-bit packing round-trips", "statement": "The 3-bit packing used for LightSaber ciphertexts should round-trip. It does not: in every group of eight coefficients the lowest bit of the sixth is replaced by its bit 2; all other bits survive.", "quantifier": "every polynomial", "why_tests_cant": "exact characterisation for all inputs; random round-trip tests of the KEM hide it as decapsulation failures", "anchors": ["saber-rust/src/poly.rs: read_bytes_3bit"]}
{"id": "C47", "title": "Saber keys and ciphertexts have one accepted length", "statement": "from_bytes accepts exactly the advertised number of bytes, returns the bytes unchanged through as_bytes, and reports BadLength with the actual and expected lengths otherwise.", "quantifier": "every byte string", "why_tests_cant": "all lengths", "anchors": ["saber-rust/src/newtype.rs"]}
{"id": "C48", "title": "Saber public keys survive serialisation behaviourally", "statement": "Encapsulating with a freshly generated public key and with its serialised-and-reparsed copy gives identical ciphertexts and shared secrets for the same coins; re-serialising gives the same bytes.", "quantifier": "every key pair, every message and coins", "why_tests_cant": "all keys and coins", "anchors": ["saber-rust/src/generic.rs: PublicKey::to_bytes, from_bytes, indcpa_kem_enc"]}
{"id": "C49", "title": "Saber secret keys survive serialisation behaviourally", "statement": "Decapsulating with a generated secret key and with its serialised-and-reparsed copy gives the same result for every ciphertext, although the in-memory values differ.", "quantifier": "every secret key and every ciphertext", "why_tests_cant": "all keys and ciphertexts", "anchors": ["saber-rust/src/generic.rs: SecretKey::to_bytes, from_bytes, indcpa_kem_dec"]}
{"id": "C50", "title": "Saber ring multiplication is negacyclic convolution", "statement": "Polynomial multiplication is the product in Z/2^16[X]/(X^256+1): it is commutative, associative and distributes over addition, and <A s, t> = <s, A^T t> for the matrix/vector operations.", "quantifier": "all polynomials, vectors and matrices", "why_tests_cant": "algebraic law over all inputs", "anchors": ["saber-rust/src/poly.rs: Mul, Add", "saber-rust/src/generic.rs: Matrix, Vector"]}
{"id": "C51", "title": "Saber secrets are small", "statement": "Every coefficient sampled by the centred binomial sampler lies in [-mu/2, mu/2] modulo 2^16.", "quantifier": "every seed/random stream and all three parameter sets", "why_tests_cant": "all byte streams", "anchors": ["saber-rust/src/generic.rs: Vector::new_secret, cbd", "saber-rust/src/poly.rs"]}
{"id": "C52", "title": "Saber decryption correctness criterion", "statement": "Decrypting an encryption returns the original message bit whenever the accumulated rounding error of that coefficient is within the parameter set's threshold; with faithful packing of the reconciliation data.", "quantifier": "every seed, secret, message and coins; all three parameter sets", "why_tests_cant": "failure events are far rarer than any test sample", "anchors": ["saber-rust/src/generic.rs: indcpa_kem_enc, indcpa_kem_dec, recon_data_gen"]}
{"id": "C53", "title": "LightSaber packing bug corrupts decryption", "statement": "Because of the 3-bit packing defect the criterion of C52 is not enough for LightSaber: the defect shifts the reconciliation value of affected coefficients by at most one step, and there are ciphertext values for which decryption through the packed form returns a different bit than decryption of the unpacked value.", "quantifier": "every reconciliation value", "why_tests_cant": "rate a few per million decapsulations", "anchors": ["saber-rust/src/poly.rs: read_bytes_3bit", "saber-rust/src/generic.rs"]}
{"id": "C54", "title": "Saber KEM agreement and implicit rejection", "statement": "Decapsulating with the matching key returns the encapsulated secret whenever CPA decryption is correct; on any ciphertext that does not re-encrypt to itself the result is the hash of the secret z and the second half of the re-derived key material, never an error.", "quantifier": "every key pair, ciphertext and coins", "why_tests_cant": "all ciphertexts", "anchors": ["saber-rust/src/generic.rs: encapsulate, decapsulate"]}
{"id": "C55", "title": "Constant-time comparison masks are exact", "statement": "The byte and slice equality masks are 0xFF exactly on equality and 0 otherwise (never another value).", "quantifier": "every pair of bytes and of slices", "why_tests_cant": "all pairs of slices of any length", "anchors": ["saber-rust/src/generic.rs: bytes_eq_mask, u8_eq_mask"]}
{"id": "C56", "title": "Dilithium modular reductions are exact and bounded", "statement": "montgomery_reduce, reduce32, caddq and freeze return the right residue modulo q within their documented ranges for every input in their documented domains, with no 32-bit overflow.", "quantifier": "every integer in the documented domains (up to 2^54)", "why_tests_cant": "domains far beyond enumeration", "anchors": ["pqcrypto/pqclean/crypto_sign/dilithium2/clean/reduce.c"]}
{"id": "C57", "title": "Dilithium rounding is exact", "statement": "power2round and decompose split every standard representative as documented (a = a1*2^D + a0, a = a1*alpha + a0 mod q) with the documented ranges.", "quantifier": "every 0 <= a < q", "why_tests_cant": "8 million values each; stated for all", "anchors": ["pqcrypto/pqclean/crypto_sign/dilithium2/clean/rounding.c: power2round, decompose"]}
{"id": "C58", "title": "Dilithium hints recover high bits", "statement": "use_hint(w - cs2 + ct0-style value, make_hint(...)) returns the high bits of the unperturbed value under the signing checks; and make_hint is 0 exactly when high bits agree.", "quantifier": "every pair of values satisfying the norm bounds", "why_tests_cant": "all values", "anchors": ["pqcrypto/pqclean/crypto_sign/dilithium2/clean/rounding.c: make_hint, use_hint"]}
{"id": "C59", "title": "Dilithium NTT multiplication is negacyclic convolution", "statement": "Pointwise multiplication in the NTT domain followed by the inverse NTT yields the product in Z_q[X]/(X^256+1), with no signed overflow on the way.", "quantifier": "all polynomials within the input bounds", "why_tests_cant": "algebraic identity over all inputs", "anchors": ["pqcrypto/pqclean/crypto_sign/dilithium2/clean/ntt.c", "pqcrypto/pqclean/crypto_sign/dilithium2/clean/poly.c"]}
{"id": "C60", "title": "Dilithium packings round-trip", "statement": "Packing then unpacking polynomials (eta, t1, t0, z, w1 formats), public keys, secret keys and signatures returns the same values, at the advertised byte sizes.", "quantifier": "every polynomial in the format's range", "why_tests_cant": "all values at all positions", "anchors": ["pqcrypto/pqclean/crypto_sign/dilithium2/clean/packing.c", "pqcrypto/pqclean/crypto_sign/dilithium2/clean/poly.c: poly*_pack, poly*_unpack"]}
{"id": "C61", "title": "Dilithium signature encoding is canonical", "statement": "unpack_sig accepts a hint encoding only in its unique canonical form (strictly increasing indices, zero padding), so no two different byte strings decode to the same (c, z, h).", "quantifier": "every 2420-byte string", "why_tests_cant": "strong unforgeability needs all encodings", "anchors": ["pqcrypto/pqclean/crypto_sign/dilithium2/clean/packing.c: unpack_sig, pack_sig"]}
{"id": "C62", "title": "Dilithium signatures verify", "statement": "Every signature the signer outputs for a message under a generated key pair is accepted by the verifier for that message and public key, and the attached form opens to the same message.", "quantifier": "every seed, message, randomness and number of rejection rounds", "why_tests_cant": "all keys and messages", "anchors": ["pqcrypto/pqclean/crypto_sign/dilithium2/clean/sign.c"]}
{"id": "C63", "title": "Dilithium verification rejects malformed inputs", "statement": "Verification fails on every signature whose length is not 2420, whose z has a coefficient of absolute value at least gamma1-beta, or whose hint encoding is not canonical.", "quantifier": "every message, key and byte string", "why_tests_cant": "all byte strings", "anchors": ["pqcrypto/pqclean/crypto_sign/dilithium2/clean/sign.c: crypto_sign_verify"]}
{"id": "C64", "title": "Dilithium challenge polynomial is well-formed", "statement": "For every seed the challenge has exactly tau = 39 coefficients equal to +1 or -1 and all others zero.", "quantifier": "every hash output stream", "why_tests_cant": "all seeds", "anchors": ["pqcrypto/pqclean/crypto_sign/dilithium2/clean/poly.c: poly_challenge"]}
{"id": "C65", "title": "Dilithium samplers stay in range", "statement": "Rejection samplers only ever output coefficients in [0,q), [-eta,eta] and (-gamma1,gamma1] and never write beyond the requested length.", "quantifier": "every input byte stream", "why_tests_cant": "all streams", "anchors": ["pqcrypto/pqclean/crypto_sign/dilithium2/clean/poly.c: rej_uniform, rej_eta, poly_uniform*"]}
{"id": "C66", "title": "LATKE authenticates the reported identity", "statement": "Against an arbitrary network, a LATKE session that is done and reports an identity contains a completed run of the wrapped key exchange started from the session's own password file and keyed by a PAKE run on its own PAKE input; for Signed-DH, HMQV-C and SIGMA-R this means that a certificate for exactly that identity, contained in a received message, verifies under the password-derived main key, and for FG-IBKE-C that the received confirmation is the one derived from that identity and the password-derived main key.", "quantifier": "every history of incoming messages, every PAKE, every password file", "why_tests_cant": "no test attacks the composed protocol", "anchors": ["latke/src/latke.rs: run, is_done, finalize", "latke/src/eue_transform.rs: run"]}
{"id": "C67", "title": "Dilithium computes the specified algorithms", "statement": "Key generation, signing and verification return exactly what the mathematical specification of Dilithium2 defines from the sampled matrix, secrets and masks: t = A*s1+s2 and its Power2Round; the encoding of (c~, z, h) of the first attempt meeting the four acceptance conditions; acceptance exactly when c~ = H(mu, UseHint(h, A*z - c*t1*2^d)).", "quantifier": "every seed, secret key, message, public key, signature and SHAKE function", "why_tests_cant": "fixed test vectors cover a few keys; rejection paths and carries are input dependent", "anchors": ["pqcrypto/pqclean/crypto_sign/dilithium2/clean/sign.c: crypto_sign_keypair, crypto_sign_signature, crypto_sign_verify", "pqcrypto/pqclean/crypto_sign/dilithium2/clean/polyvec.c", "pqcrypto/pqclean/crypto_sign/dilithium2/clean/ntt.c"]}
{"id": "C68", "title": "Dilithium has no undefined behaviour", "statement": "The results of key generation, signing, verification and opening do not depend on what a signed 32- or 64-bit overflow or an out-of-bounds read would do.", "quantifier": "every seed, message, 2560-byte secret key, 1312-byte public key, signature of any length", "why_tests_cant": "sanitizers see only the executed inputs", "anchors": ["pqcrypto/pqclean/crypto_sign/dilithium2/clean/sign.c", "pqcrypto/pqclean/crypto_sign/dilithium2/clean/ntt.c", "pqcrypto/pqclean/crypto_sign/dilithium2/clean/reduce.c", "pqcrypto/pqclean/crypto_sign/dilithium2/clean/packing.c", "pqcrypto/pqclean/crypto_sign/dilithium2/clean/poly.c"]}
{"id": "C69", "title": "Authenticated encryption has one exact format", "statement": "auth_encrypt outputs ciphertext || nonce || HMAC, where the ciphertext is the message masked with the keystream of (first key half, nonce) and the HMAC is keyed with the second key half over ciphertext || nonce; auth_decrypt accepts exactly such strings, returns exactly the sealed message, and accepts nothing that auth_encrypt could not have produced.", "quantifier": "every key, nonce, message and byte string", "why_tests_cant": "round-trip tests pass if both directions share a mistake (same key half twice, nonce not authenticated)", "anchors": ["latke/src/auth_enc.rs: auth_encrypt, auth_decrypt"]}
{"id": "C70", "title": "The wide-block cipher is the four-round Farfalle-WBC network", "statement": "wide_block_encrypt computes R0 ^= H(L,0), L ^= G(R,1), R ^= G(L,0), L ^= H(R,1) with domain-separated calls of the deck function under the key, and wide_block_decrypt undoes it.", "quantifier": "every key and every block of at least 32 bytes", "why_tests_cant": "any Feistel network round-trips; only the exact rounds give a wide-block permutation", "anchors": ["latke/src/ideal_cipher.rs: wide_block_encrypt, wide_block_decrypt, eval_deck"]}
{"id": "C71", "title": "EUE keys after errors", "statement": "In every history of returning calls, an Ok call moves the key chain by two and an Err call by one; the next call decrypts and encrypts with the keys at that position. So after an Err the honest message the session was waiting for no longer authenticates and the session panics on it.", "quantifier": "every history of Ok and Err calls, every wrapped protocol and role", "why_tests_cant": "retry histories of any length", "anchors": ["latke/src/eue_transform.rs: Eue::run"]}
{"id": "C72", "title": "CAKE and CPace compute exactly the specified messages and keys", "statement": "For arbitrary incoming bytes, a CAKE initiator sends the wide-block encryption of its fresh encapsulation key under HKDF-Expand(H(password), 0x00 || ssid), and its key is the decapsulation of the received bytes decrypted under the 0x01 key; the responder symmetrically; the two direction keys and different session ids give different derivation inputs. A CPace initiator sends the packet of the crate's first step on the base64 password (RFC 4648 standard alphabet, with padding), the two fixed role strings and the session id, and outputs the key of the third step.", "quantifier": "every password, session id, coins and every incoming byte string", "why_tests_cant": "agreement tests pass if both sides use the same wrong key input (dropped ssid, shared direction byte)", "anchors": ["latke/src/pake/cake.rs: run", "latke/src/pake/cpace.rs: run"]}
{"id": "C73", "title": "Outcome of every PAKE call", "statement": "For every history of a KC-SPAKE2 or CPace session and every next message, whether the call returns Ok, returns Err or panics is a stated function of the history and the message: a message of the wrong length, or one whose SPAKE2 element does not decode, panics; a wrong key confirmation is Err.", "quantifier": "every history, role, password and message", "why_tests_cant": "unbounded retry histories and arbitrary attacker bytes", "anchors": ["latke/src/pake/kc_spake2.rs: run", "latke/src/pake/cpace.rs: run"]}
{"id": "C74", "title": "Outcome of every key-exchange call", "statement": "For every history of a Signed-DH, HMQV-C, FG-IBKE-C or SIGMA-R session in either role, and every next message, the call is Ok exactly when the message is a concatenation of decodable fields whose certificate, signature and confirmation checks all pass; Err when it is well-formed and a check fails; and a panic when it is malformed or the session has already finished.", "quantifier": "every history, role, key material and message", "why_tests_cant": "unbounded histories with retries; arbitrary attacker bytes including every wrong length", "anchors": ["latke/src/ibke/id_sig_dh.rs: run", "latke/src/ibke/id_hmqv_c.rs: run", "latke/src/ibke/fg_ibke.rs: run", "latke/src/ibke/id_sigma_r.rs: run"]}
{"id": "C75", "title": "Dilithium's Rust interface is faithful", "statement": "Public and secret keys parse exactly from their advertised length and keep their bytes; key equality is byte equality; a detached signature is any string of at most 2420 bytes, kept exactly, and shorter ones never verify; a signature made under a generated key verifies also after both have been serialised and parsed; a signed message is signature followed by message and opens to it; open returns a message only if its signature verifies, and errors are always InvalidSignature.", "quantifier": "every byte string, key, message, key-generation coins and SHAKE function", "why_tests_cant": "all byte strings and lengths; all keys and messages", "anchors": ["pqcrypto/pqcrypto-dilithium/src/dilithium2.rs: simple_struct, DetachedSignature, sign, open, detached_sign, verify_detached_signature, keypair_det"]}
{"id": "C76", "title": "The shipped post-quantum suite works end to end", "statement": "With the modelled Dilithium2 and LightSaber in place of abstract primitives, SIGMA-R agrees, and LATKE with SIGMA-R over CAKE finishes after seven calls with equal keys and each other's id, provided only that the signer terminates on the four messages signed and that the KEM noise of the two exchanges is within LightSaber's (defect-reduced) thresholds.", "quantifier": "every password, ids, session id, coins, peer model and hash function", "why_tests_cant": "agreement for all coins; composition of three code bases", "anchors": ["latke/src/latke.rs", "latke/src/ibke/id_sigma_r.rs: IdSigmaRDilithium2", "latke/src/pake/cake.rs", "saber-rust/src/generic.rs", "pqcrypto/pqclean/crypto_sign/dilithium2/clean/sign.c", "pqcrypto/pqcrypto-dilithium/src/dilithium2.rs"]}
{"id": "C77", "title": "Saber's byte formats are bit fields", "statement": "Every packing format reads and writes coefficient i as the w-bit little-endian number at bits w*i .. w*i+w-1 of the buffer (w = 13, 10, 6, 4, 3), vectors polynomial after polynomial; except that the 3-bit packer writes bit 2 in place of bit 0 at positions 5 mod 8.", "quantifier": "every buffer, polynomial, vector and index", "why_tests_cant": "round-trip tests pass under any consistent re-ordering; interoperability needs the exact format", "anchors": ["saber-rust/src/poly.rs: read_bytes_*, from_bytes_*", "saber-rust/src/generic.rs: Vector::to_bytes, from_bytes"]}
{"id": "C78", "title": "Saber computes the specified algorithms over the integers", "statement": "The matrix is the stream of 13-bit numbers of SHAKE-128(seed), the secret the centred binomial of SHAKE-128(noise seed); the public key bytes are round(A s / 8) mod 1024 in 10-bit fields followed by the seed; the secret key is s, pk, SHA3-256(pk), z; a ciphertext is round(A^T t / 8) followed by the top bits of 512 m + <b,t> mod 1024; decryption returns the top bit of <b',s> - 2^(10-w) c + const mod 1024: all with textbook products in Z[X]/(X^256+1), for all three parameter sets.", "quantifier": "every seed, coins, message, key and ciphertext; all three parameter sets", "why_tests_cant": "correctness tests pass if both sides share a mistake; Toom-Cook/Karatsuba carries are input dependent", "anchors": ["saber-rust/src/generic.rs: gen_matrix, indcpa_kem_keypair, indcpa_kem_enc, indcpa_kem_dec", "saber-rust/src/poly.rs"]}
{"id": "C79", "title": "A CHIP session is its first message followed by the PAKE it starts", "statement": "The first call always sends X || r*B; the next call panics unless the peer's message is two encoded points and otherwise starts the PAKE on alpha || beta || transcript as specified; from then on the session's calls have the same outcomes as that PAKE session's, including failed calls, and it finalizes alike; before the start, finalize panics.", "quantifier": "every PAKE, role, password file, peer id and history of incoming messages with failed calls anywhere", "why_tests_cant": "unbounded histories, arbitrary peer bytes", "anchors": ["latke/src/chip.rs: run, ibke_step_1, ibke_step_2, finalize"]}
{"id": "C80", "title": "What each key exchange sends", "statement": "Every message a Signed-DH, HMQV-C, FG-IBKE-C or SIGMA-R session sends is the stated concatenation: fresh public value, signatures on (role byte, session data), confirmations under their labels, certificate or id; SIGMA-R payloads are sealed under the direction key of the peer's nonce and ciphertext. Calls other than the listed ones send nothing.", "quantifier": "every history of calls with failed calls anywhere, every coins, key material and incoming message", "why_tests_cant": "agreement tests pass if both sides share a mistake (a dropped session id, the same role byte or label on both sides)", "anchors": ["latke/src/ibke/id_sig_dh.rs: run", "latke/src/ibke/id_hmqv_c.rs: run", "latke/src/ibke/fg_ibke.rs: run", "latke/src/ibke/id_sigma_r.rs: run"]}
{"id": "C81", "title": "The Keccak permutation is KECCAK-f[1600]", "statement": "The unrolled two-rounds-per-iteration permutation computes exactly the 24-round KECCAK-f[1600] of FIPS 202, bit by bit, on every state.", "quantifier": "every 1600-bit state", "why_tests_cant": "2^1600 states; a wrong rotation or lane in the unrolled code may show on few test vectors only after chi", "anchors": ["pqcrypto/pqcrypto-internals/cfiles/fips202.c: KeccakF1600_StatePermute"]}
{"id": "C82", "title": "SHA-3 and SHAKE are FIPS 202", "statement": "shake128 and shake256 write exactly the requested number of bytes of SHAKE128/SHAKE256 of the input, and sha3_256, sha3_384 and sha3_512 the 32, 48 and 64 bytes of the SHA-3 functions, for inputs and outputs of every length; no array is accessed out of bounds.", "quantifier": "every input and output length, including every position relative to the block length", "why_tests_cant": "block-boundary cases for five rates and unbounded lengths", "anchors": ["pqcrypto/pqcrypto-internals/cfiles/fips202.c: keccak_absorb, keccak_squeezeblocks, shake128, shake256, sha3_256, sha3_384, sha3_512"]}
{"id": "C83", "title": "Incremental hashing does not depend on how the data is cut", "statement": "However input is cut into absorb calls and output into squeeze calls (including empty ones), the incremental functions output the same bytes as the one-shot function of FIPS 202 on the concatenated input.", "quantifier": "every list of input pieces and every list of output lengths", "why_tests_cant": "all segmentations relative to block boundaries", "anchors": ["pqcrypto/pqcrypto-internals/cfiles/fips202.c: keccak_inc_absorb, keccak_inc_finalize, keccak_inc_squeeze, shake128_inc_*, shake256_inc_*, sha3_*_inc_*"]}
{"id": "C84", "title": "Dilithium hashes with FIPS 202", "statement": "The output streams from which Dilithium samples its matrix, secrets, masks and challenges, and its message digests, are those of SHAKE128 and SHAKE256 as standardised, whatever calls the bytes are absorbed and squeezed in.", "quantifier": "every input and every sequence of squeeze calls", "why_tests_cant": "unbounded rejection sampling reads across block boundaries", "anchors": ["pqcrypto/pqcrypto-internals/cfiles/fips202.c: shake256, shake256_inc_*, shake128_inc_*", "pqcrypto/pqclean/crypto_sign/dilithium2/clean/symmetric-shake.c"]}
{"id": "C85", "title": "Dilithium2 with its hash code: nothing left abstract", "statement": "Key generation, signing, verification and opening as linked against the stateful Keccak code - every absorb, finalize, squeeze and block-by-block read included - compute exactly the algorithms over the FIPS 202 output streams; no array access is out of bounds and no signed overflow occurs; a signature made under a generated key verifies, and verify accepts exactly the signatures satisfying the specified equation and bounds.", "quantifier": "every coins, message, signature and key bytes; every behaviour of out-of-range accesses", "why_tests_cant": "unbounded rejection sampling reads across block boundaries; state handed between incremental calls", "anchors": ["pqcrypto/pqclean/crypto_sign/dilithium2/clean/sign.c: crypto_sign_keypair_det, crypto_sign_signature, crypto_sign_verify, crypto_sign_open", "pqcrypto/pqclean/crypto_sign/dilithium2/clean/poly.c: poly_uniform, poly_uniform_eta, poly_uniform_gamma1, poly_challenge", "pqcrypto/pqclean/crypto_sign/dilithium2/clean/symmetric-shake.c", "pqcrypto/pqcrypto-internals/cfiles/fips202.c: shake*_inc_*"]}
{"id": "C86", "title": "Outcome of every encrypted-exchange call", "statement": "For any history of an encrypted exchange session, calls failed or not and with arbitrary inputs, the next call panics if its non-empty input does not authenticate under the key of this position; otherwise it ends exactly as the wrapped session's call on the opened input ends (Ok, that Err, or panic) and sends exactly that call's message sealed under the next key, or nothing if there is none. The session is done, and finalizes, when and as the wrapped session does.", "quantifier": "every identity key exchange, key, role, history with failing calls anywhere, coins and incoming bytes", "why_tests_cant": "unbounded histories; arbitrary wrapped protocol and adversarial input", "anchors": ["latke/src/eue_transform.rs: EueState::run, is_done, finalize"]}
{"id": "C87", "title": "A LATKE session is its PAKE followed by the encrypted exchange", "statement": "For any history of a LATKE session with arbitrary inputs: while the PAKE is not done each call is the PAKE session's call; the encrypted exchange is started with the PAKE's key, by the call after the PAKE's last message, or in the same call when the PAKE has nothing to send (an initiator then also makes its first encrypted call); afterwards each call is the encrypted session's call. The session is done exactly when the encrypted session is and finalizes only then, to the reported identity and the KDF of all bytes on the wire.", "quantifier": "every identity key exchange, PAKE, role, peer model, pwfile, coins and sequence of incoming messages", "why_tests_cant": "unbounded adversarial histories; arbitrary components", "anchors": ["latke/src/latke.rs: Latke::run, is_done, finalize", "latke/src/eue_transform.rs: EueState"]}
{"id": "C88", "title": "Message lengths and message counts are constants of the suite", "statement": "In every history the successful calls of a session of each key exchange, each PAKE, the encrypted exchange and LATKE send messages of exactly the lengths of a fixed table of the role, in that order, and the session is done exactly when the table is used up. So lengths and counts on the wire do not depend on password, identity, keys, coins or the peer's messages.", "quantifier": "every key exchange, PAKE and shipped suite, both roles, all inputs, coins and sequences of incoming messages", "why_tests_cant": "unbounded adversarial histories; all secrets and coins", "anchors": ["latke/src/ibke/id_sig_dh.rs: run", "latke/src/ibke/id_hmqv_c.rs: run", "latke/src/ibke/fg_ibke.rs: run", "latke/src/ibke/id_sigma_r.rs: run", "latke/src/pake/cake.rs: run", "latke/src/pake/kc_spake2.rs: run", "latke/src/pake/cpace.rs: run", "latke/src/eue_transform.rs: EueState::run", "latke/src/latke.rs: Latke::run"]}
{"id": "C89", "title": "The AVX2 assembly transforms compute what the portable ones compute", "statement": "On every machine state, the assembly ntt returns integer for integer the output of the portable ntt, in a fixed transposed order; the pointwise product agrees with the portable one on every input, also in place; transforming two polynomials, multiplying and transforming back gives their negacyclic product modulo q, with coefficients of absolute value at most 6176131; the row product is 2^-32 times the sum of four products modulo q; the reordering routine produces the order of ntt; none of them writes outside its output array.", "quantifier": "every register and memory contents, every polynomial within the stated coefficient bounds", "why_tests_cant": "2^8192 inputs; shuffles and lane-dependent constants; overflow at the bounds", "anchors": ["pqcrypto/pqclean/crypto_sign/dilithium2/avx2/ntt.S: ntt_avx", "pqcrypto/pqclean/crypto_sign/dilithium2/avx2/invntt.S: invntt_avx", "pqcrypto/pqclean/crypto_sign/dilithium2/avx2/pointwise.S: pointwise_avx, pointwise_acc_avx", "pqcrypto/pqclean/crypto_sign/dilithium2/avx2/shuffle.S: nttunpack_avx", "pqcrypto/pqclean/crypto_sign/dilithium2/avx2/consts.c: qdata"]}
{"id": "C90", "title": "The AVX2 coefficient-wise functions compute the specification's rounding functions", "statement": "poly_reduce keeps the class modulo q and lands in [-6283009, 6283008], poly_caddq adds q to negative coefficients, poly_add/sub/shiftl compute without wrap-around, poly_power2round and poly_decompose are Power2Round and Decompose; poly_chknorm returns 0 exactly when all coefficients are below the bound; poly_make_hint lists the positions where the portable make_hint gives 1 and writes nothing beyond 256 bytes; poly_use_hint is UseHint except where the hint is 1 and the low part is exactly 0: there it goes up where the specification and the portable code go down.", "quantifier": "every polynomial within the stated coefficient ranges, every lane", "why_tests_cant": "2^32 values per lane, and the one exceptional value of use_hint lies in 44 points of 8380417", "anchors": ["pqcrypto/pqclean/crypto_sign/dilithium2/avx2/poly.c: poly_reduce, poly_caddq, poly_add, poly_sub, poly_shiftl, poly_chknorm, poly_make_hint, poly_use_hint", "pqcrypto/pqclean/crypto_sign/dilithium2/avx2/rounding.c: power2round_avx, decompose_avx, make_hint_avx, use_hint_avx"]}
{"id": "C91", "title": "The AVX2 samplers return the portable samplers' polynomials", "statement": "rej_uniform_avx and rej_eta_avx leave exactly the accepted candidates of the buffer in order, return their number, and never write beyond the 256 coefficients although they store eight lanes at a time; the four-way samplers return exactly the four polynomials of the portable samplers on the same seeds and nonces, whatever uninitialised memory contained, and return exactly when all four portable calls return.", "quantifier": "every buffer, every stream, every seed and nonce, every contents of uninitialised memory", "why_tests_cant": "streams are unbounded and the boundary cases (248 to 256 accepted) are rare", "anchors": ["pqcrypto/pqclean/crypto_sign/dilithium2/avx2/rejsample.c: rej_uniform_avx, rej_eta_avx", "pqcrypto/pqclean/crypto_sign/dilithium2/avx2/poly.c: poly_uniform_4x, poly_uniform_eta_4x, poly_uniform_gamma1_4x"]}
{"id": "C92", "title": "The AVX2 packings agree with the portable ones", "statement": "polyz_unpack returns 2^17 minus the 18-bit fields of the 576 bytes, whatever lies in the bytes it over-reads; polyw1_pack writes the 192 bytes of the portable packing and otherwise changes only the 8 bytes behind them.", "quantifier": "every byte string, every polynomial with 6-bit coefficients, every memory contents", "why_tests_cant": "2^4608 inputs; shuffle tables and saturating packs", "anchors": ["pqcrypto/pqclean/crypto_sign/dilithium2/avx2/poly.c: polyz_unpack, polyw1_pack"]}
{"id": "C93", "title": "AVX2 key generation and signing return the portable results", "statement": "For every 32-byte seed crypto_sign_keypair of the AVX2 build returns the key pair of the portable build, and for every secret key and message its crypto_sign_signature and crypto_sign return the same bytes; this does not depend on uninitialised buffers, and each terminates exactly when the portable one does.", "quantifier": "every seed, message, secret key of 2560 bytes, hash function, contents of uninitialised memory and registers", "why_tests_cant": "The rejection loop, sampling and transforms differ structurally; a mismatch may need a rare rejection or hint count.", "anchors": ["pqcrypto/pqclean/crypto_sign/dilithium2/avx2/sign.c: crypto_sign_keypair, crypto_sign_signature, crypto_sign, polyvec_matrix_expand_row0-3", "pqcrypto/pqclean/crypto_sign/dilithium2/avx2/polyvec.c: polyvec_matrix_expand, polyvecl_pointwise_acc_montgomery"]}
{"id": "C94", "title": "What the AVX2 verification accepts, and when it agrees with the portable one", "statement": "AVX2 crypto_sign_verify returns success exactly when the signature has 2420 bytes, its hint encoding is canonical and its challenge is the hash of mu and UseHint(h, Az - c t1 2^13), with no bound on z beyond its encoding; it agrees with the portable verification unless z has a coefficient of absolute value at least gamma1 - beta or a hint points to a coefficient with low part exactly 0; signatures made honestly by either build are accepted and opened by both.", "quantifier": "every signature string of any length, message, public key of 1312 bytes, seed, hash function, uninitialised memory", "why_tests_cant": "Signature strings are 2420 arbitrary bytes; the two exceptions are hit with negligible probability by random tests.", "anchors": ["pqcrypto/pqclean/crypto_sign/dilithium2/avx2/sign.c: crypto_sign_verify, crypto_sign_open", "pqcrypto/pqclean/crypto_sign/dilithium2/avx2/rounding.c: use_hint_avx"]}
{"id": "C95", "title": "There are signatures on which the AVX2 and the portable verification disagree", "statement": "For every matrix seed and message there is a public key (t1 = 0) such that, for every encodable response with a coefficient of absolute value at least gamma1 - beta, a signature exists that the AVX2 build accepts and the portable build rejects; with z = 0 and one hint the AVX2 build accepts a signature that the portable build accepts only on a hash collision.", "quantifier": "every matrix seed, message, long response, hash function", "why_tests_cant": "An existence claim about adversarial signatures that honest test vectors never contain.", "anchors": ["pqcrypto/pqclean/crypto_sign/dilithium2/avx2/sign.c: crypto_sign_verify (no polyvecl_chknorm)", "pqcrypto/pqclean/crypto_sign/dilithium2/avx2/rounding.c: use_hint_avx", "pqcrypto/pqclean/crypto_sign/dilithium2/clean/sign.c: crypto_sign_verify"]}
{"id": "C96", "title": "The assembly Keccak permutation of the AVX2 build is KECCAK-f[1600] on four states at once", "statement": "f1600x4, executed instruction by instruction with the round constants of fips202x4.c, maps each of the four interleaved states to KECCAK-f[1600] of FIPS 202 of that state, independently of the vector registers at the call, and stores only to the 25 vectors of the state.", "quantifier": "all states, all register contents, all four lanes", "why_tests_cant": "2^1600 states per lane; a wrong rotation count or a swapped register in one of 860 instructions may show only through the whole construction, and tests of hash outputs never isolate one lane from the others", "anchors": ["pqcrypto/pqclean/crypto_sign/dilithium2/avx2/f1600x4.S", "pqcrypto/pqclean/crypto_sign/dilithium2/avx2/fips202x4.c"]}
{"id": "C97", "title": "The four-way SHAKE functions of the AVX2 build are SHAKE128 and SHAKE256 of FIPS 202 on each input", "statement": "For every input length and output length, shake128x4 and shake256x4 output the SHAKE of each of the four inputs, and so do the blocks of any sequence of squeezeblocks calls after absorb_once; the bytes behind the inputs that the last 8-byte gather reads, the uninitialised state and the registers have no influence.", "quantifier": "all inputs of every length, all output lengths and sequences of block requests, all contents of adjacent memory and registers", "why_tests_cant": "the over-read bytes depend on the memory layout of the caller and every length modulo 8 and modulo the rate is a separate case", "anchors": ["pqcrypto/pqclean/crypto_sign/dilithium2/avx2/fips202x4.c"]}
{"id": "C98", "title": "The four-way samplers of the AVX2 build, down to the assembly permutation, return the polynomials of the portable code", "statement": "poly_uniform_4x, poly_uniform_eta_4x and poly_uniform_gamma1_4x, with buffers shared between input and output and lock-step rejection loops on the four-way SHAKE, return for every seed and nonces exactly what four calls of the portable sampler on the portable Keccak return, and end exactly when those do.", "quantifier": "all seeds and nonces, all contents of uninitialised buffers, state and registers", "why_tests_cant": "rejection sampling takes more blocks than the first batch with negligible probability, so tests never run the lock-step loops", "anchors": ["pqcrypto/pqclean/crypto_sign/dilithium2/avx2/poly.c", "pqcrypto/pqclean/crypto_sign/dilithium2/avx2/fips202x4.c", "pqcrypto/pqclean/crypto_sign/dilithium2/avx2/f1600x4.S"]}
{"id": "C99", "title": "The two builds of Dilithium2 make the same keys and signatures but do not accept the same signatures", "statement": "Linked with the hash code of the library, the AVX2 build makes for every seed, key and message the key pair, signature and signed message of the portable build; both builds accept and open every honest signature of either. Yet there is one fixed public key and one fixed 2420-byte signature on the empty message that the AVX2 build accepts and the portable build rejects, whatever uninitialised memory contains; on every string on which they differ the response is too long or a hint points at a low part of exactly 0.", "quantifier": "all coins, keys, messages and strings of the right lengths, all contents of uninitialised buffers, state and registers", "why_tests_cant": "it compares two complete programs on all inputs; the disagreeing inputs do not arise from honest signing", "anchors": ["pqcrypto/pqclean/crypto_sign/dilithium2/avx2/sign.c", "pqcrypto/pqclean/crypto_sign/dilithium2/avx2/rounding.c", "pqcrypto/pqclean/crypto_sign/dilithium2/avx2/poly.c", "pqcrypto/pqclean/crypto_sign/dilithium2/avx2/fips202x4.c", "pqcrypto/pqclean/crypto_sign/dilithium2/avx2/f1600x4.S", "pqcrypto/pqclean/crypto_sign/dilithium2/clean/sign.c"]}
{"id": "C100", "title": "Machines with and without AVX2 interoperate, but do not reject the same forgeries", "statement": "Every public function of the Dilithium2 crate asks the processor whether to run the portable or the AVX2 code. What key generation and signing return does not depend on the machine; keys made on one machine, a signature or signed message made on a second, are accepted and opened on a third. Two LATKE users running SIGMA-R with Dilithium2 and LightSaber over CAKE reach the same key and learn each other's identities even when every certificate and every protocol call is handled by a different machine. One fixed public key and signature are accepted on every machine with AVX2 and rejected on every machine without.", "quantifier": "all machines (processor feature, undefined behaviour, uninitialised memory and registers) for each call separately, all seeds, messages, identities, passwords and session randomness for which signing terminates and the KEM noise is below its threshold", "why_tests_cant": "no test runs one session on many machines, and honest runs never produce the strings on which machines differ", "anchors": ["pqcrypto/pqcrypto-dilithium/src/dilithium2.rs", "latke/src/ibke/id_sigma_r.rs", "pqcrypto/pqclean/crypto_sign/dilithium2/avx2/sign.c", "pqcrypto/pqclean/crypto_sign/dilithium2/clean/sign.c", "latke/src/latke.rs"]}
{"id": "C101", "title": "A LATKE session shows nothing of its user before the PAKE is over", "statement": "As long as the PAKE answers with messages, a LATKE session sends exactly the messages the PAKE alone sends on the same input, coins and incoming messages, is not done and has no output; if the PAKE fails the session panics. Two users of the same password with post-specified peers therefore send the same messages whatever their identities, certificates and secret keys; with a pre-specified peer only the two identities enter, through the PAKE input.", "quantifier": "every key exchange, PAKE, password file, role, session id, coins and list of incoming messages", "why_tests_cant": "independence from all secrets and certificates over unbounded adversarial histories", "anchors": ["latke/src/latke.rs: new_session, run"]}
{"id": "C102", "title": "SIGMA-R sessions with keys of two signature schemes", "statement": "Both SIGMA-R session types take keys and certificates of either signature scheme. A session given values of one scheme only behaves in every history exactly as the session of that scheme, whichever of the two types it was started as. The panic on a signature of the wrong scheme is unreachable, whatever a session was given. A peer never accepts an identity message whose signing key, certified key or certificate signature is of another scheme than the peer's main public key.", "quantifier": "every combination of schemes for main public key, certificate, certificate signature and signing key; every history of both sessions, all coins and incoming messages", "why_tests_cant": "mixed keys typecheck, so the claim is over all combinations, histories and adversarial messages; the crate's tests use one scheme per run", "anchors": ["latke/src/ibke/id_sigma_r.rs: IdSigmaR::run, IdSigmaPubkey::verify, SigmaCert::from_bytes, IdSigmaREd25519, IdSigmaRDilithium2"]}
{"id": "C103", "title": "There are honest LightSaber exchanges that fail, and CAKE then ends with two different keys", "statement": "With SHAKE128 as standardised there are explicit coins of an honest key generation and encapsulation for which the rounding noise is far within what LightSaber tolerates (8*71 of 8*192), and yet decapsulation returns a secret that differs from the encapsulated one, in bit 117 and only there, whether or not the public key was serialised in between. An honest CAKE run with these coins ends on both sides without an error and with different keys, for every password, session id and choice of the other primitives; an honest SIGMA-R run has its third message rejected with a MAC error unless two different secrets give colliding HMAC tags. Two honest LATKE users over CAKE with these coins and the same password never complete: the responder panics on the first encrypted message, unless its tag is right under the keys of two different PAKE keys.", "quantifier": "one explicit choice of KEM coins; every password, session id, identity, certificate, signature scheme, all other coins and all other primitives", "why_tests_cant": "about one exchange in 400000 fails, so tests that draw their own coins pass; that the failure is the packing defect and not noise needs the noise at all 256 positions", "anchors": ["saber-rust/src/poly.rs: read_bytes_3bit", "saber-rust/src/generic.rs: indcpa_kem_enc, indcpa_kem_dec, decapsulate_ind_cpa", "latke/src/pake/cake.rs: Cake::run", "latke/src/ibke/id_sigma_r.rs: IdSigmaR::run"]}
{"id": "C104", "title": "An encrypted message is accepted only at the position it was made for: no replay, reflection or mixing of sessions", "statement": "Take any encrypted (EUE or LATKE) session after any history of calls, successful or failed. A non-empty encrypted message that it received or sent in any earlier call and that is delivered to it again makes the call panic, unless the message's tag is right under the MAC keys of two different positions of its key chain. A message sent by another session - any key, session id, role, users, protocols and history - makes it panic, unless the tag is right under the sender's key for the position it was sent at and under the receiver's key for the position it is delivered at. If the PAKE ends on both sides with different keys, the two LATKE users never complete: the responder panics on the first encrypted message, unless its tag is right under both first keys.", "quantifier": "every wrapped key exchange, PAKE and symmetric primitives, every two sessions with their keys, session ids, roles and histories, every earlier message and position of redelivery, all coins", "why_tests_cant": "the crate has no test that redelivers a message; the claim is over all histories and pairs of positions, and over failed calls that move the key chain by one instead of two", "anchors": ["latke/src/eue_transform.rs: EueState::run, EueState::ratchet_keys, EueState::new_session", "latke/src/latke.rs: Latke::run", "latke/src/auth_enc.rs: auth_decrypt"]}
{"id": "C105", "title": "The NEON transforms and polynomial arithmetic of the aarch64 build are the number-theoretic transform and the arithmetic modulo q", "statement": "Whatever registers and memory contain, the assembly routines compute: the values of the polynomial at the odd powers of 1753 (in the order of the portable transform), the inverse transform, Montgomery products pointwise and summed over a row, reductions, conditional addition of q, Power2Round and the 10-bit unpacking, with the stated bounds on sizes; transform-multiply-invert is the negacyclic product. Outside their output arrays memory is unchanged.", "quantifier": "all coefficient vectors within the stated bounds, all contents of registers and of the rest of memory", "why_tests_cant": "2^8192 inputs; an overflow in one butterfly shows up only for particular combinations of large coefficients", "anchors": ["pqcrypto/pqclean/crypto_sign/dilithium2/aarch64/__asm_NTT.S", "pqcrypto/pqclean/crypto_sign/dilithium2/aarch64/__asm_iNTT.S", "pqcrypto/pqclean/crypto_sign/dilithium2/aarch64/__asm_poly.S", "pqcrypto/pqclean/crypto_sign/dilithium2/aarch64/ntt.c", "pqcrypto/pqclean/crypto_sign/dilithium2/aarch64/poly.c", "pqcrypto/pqclean/crypto_sign/dilithium2/aarch64/macros.inc"]}
{"id": "C106", "title": "The two-way samplers of the aarch64 build agree with the portable samplers, except when more than six SHAKE blocks are needed", "statement": "Sampling two matrix entries at once gives the entries of the portable sampler whenever the first six blocks of each stream contain 256 acceptable candidates; the masking vectors always agree. If six blocks are not enough the sampler reads old blocks again: there are streams on which the portable sampler returns 200 zeros and 56 ones and the aarch64 sampler 256 zeros.", "quantifier": "all seeds, nonces and hash outputs", "why_tests_cant": "the deviating streams have probability far below 2^-100, so no test meets one", "anchors": ["pqcrypto/pqclean/crypto_sign/dilithium2/aarch64/poly.c", "pqcrypto/pqclean/crypto_sign/dilithium2/aarch64/polyvec.c", "pqcrypto/pqclean/crypto_sign/dilithium2/clean/poly.c"]}
{"id": "C107", "title": "The aarch64 build of Dilithium2 makes the keys and signatures of the portable build and gives the same verdicts", "statement": "For all coins, secret keys and messages, and for all byte strings as signature, signed message and (full-length) public key, the aarch64 code returns exactly what the portable code returns, provided six SHAKE blocks suffice for each matrix entry of the key's seed. Keys, signatures and verification of the two builds can be mixed and honest signatures are accepted. The aarch64 code with itself needs no such condition.", "quantifier": "all coins, keys, messages, signature strings, all register and memory contents", "why_tests_cant": "it compares two complete programs, with different reductions at every step, on all inputs including malformed keys and signatures", "anchors": ["pqcrypto/pqclean/crypto_sign/dilithium2/aarch64/sign.c", "pqcrypto/pqclean/crypto_sign/dilithium2/aarch64/polyvec.c", "pqcrypto/pqclean/crypto_sign/dilithium2/aarch64/poly.c", "pqcrypto/pqclean/crypto_sign/dilithium2/aarch64/__asm_NTT.S", "pqcrypto/pqclean/crypto_sign/dilithium2/aarch64/__asm_iNTT.S", "pqcrypto/pqclean/crypto_sign/dilithium2/aarch64/__asm_poly.S", "pqcrypto/pqclean/crypto_sign/dilithium2/clean/sign.c"]}
{"id": "C108", "title": "poly_freeze of the aarch64 build rewrites 32 words behind the polynomial", "statement": "The assembly routine behind poly_freeze runs one iteration too many: it reads and overwrites 288 words, replacing each of the 32 words behind the 256 coefficients by its representative modulo q. (Signing and verification do not call it.)", "quantifier": "all contents of the polynomial and of the memory behind it", "why_tests_cant": "the test suite does not call the function, and a call on a polynomial inside a vector damages data that a test of the result does not look at", "anchors": ["pqcrypto/pqclean/crypto_sign/dilithium2/aarch64/__asm_poly.S", "pqcrypto/pqclean/crypto_sign/dilithium2/aarch64/poly.c", "pqcrypto/pqclean/crypto_sign/dilithium2/aarch64/polyvec.c"]}
{"id": "C109", "title": "The two-way Keccak permutation of the aarch64 build is KECCAK-f[1600] in both lanes, with and without the SHA3 instructions", "statement": "Both versions of the permutation (the assembly for processors with the SHA3 instructions and the intrinsics without) apply the KECCAK-f[1600] of FIPS 202 to each of the two states, whatever the registers hold; they return the same state and write nothing behind it.", "quantifier": "all pairs of states, all register contents, both versions", "why_tests_cant": "pairs of 1600-bit states cannot be enumerated, and a test binary contains only one of the two versions", "anchors": ["pqcrypto/pqclean/crypto_sign/dilithium2/aarch64/feat.S", "pqcrypto/pqclean/crypto_sign/dilithium2/aarch64/fips202x2.c: KeccakF1600_StatePermutex2"]}
{"id": "C110", "title": "The two-way SHAKE functions of the aarch64 build compute SHAKE128 and SHAKE256 of each input", "statement": "shake128x2 and shake256x2 return, for inputs and outputs of every length, SHAKE of each of the two inputs; absorbing and then squeezing blocks in any number of calls returns consecutive parts of the same streams; registers, uninitialised state and the bytes behind the inputs (which are read) have no influence.", "quantifier": "all pairs of inputs of equal length, all output lengths, all sequences of squeeze calls, all memory contents", "why_tests_cant": "input and output lengths and the sequence of calls are unbounded, and the over-read makes results depend on memory contents if the masking is wrong", "anchors": ["pqcrypto/pqclean/crypto_sign/dilithium2/aarch64/fips202x2.c"]}
{"id": "C111", "title": "The aarch64 build of Dilithium2 linked with its hash code: same results as the portable build, and free of undefined behaviour", "statement": "With the hash code that is linked in, no function left as a parameter: keys, signatures, verdicts and opened messages equal those of the portable program if six SHAKE128 blocks suffice for each matrix entry of the key, and honest signatures are accepted in every mixture of the two programs; without that condition the aarch64 program still accepts its own signatures, and nothing it returns depends on registers, uninitialised memory, bytes behind buffers, or on what undefined operations do.", "quantifier": "all coins, messages, signature strings, keys of the right length, all machine states", "why_tests_cant": "two complete programs are compared on all inputs; a dependence on uninitialised memory shows up only for particular memory contents", "anchors": ["pqcrypto/pqclean/crypto_sign/dilithium2/aarch64/sign.c", "pqcrypto/pqclean/crypto_sign/dilithium2/aarch64/poly.c", "pqcrypto/pqclean/crypto_sign/dilithium2/aarch64/polyvec.c", "pqcrypto/pqclean/crypto_sign/dilithium2/aarch64/fips202x2.c", "pqcrypto/pqclean/crypto_sign/dilithium2/aarch64/feat.S", "pqcrypto/pqclean/crypto_sign/dilithium2/clean/sign.c"]}
{"id": "C112", "title": "Dilithium2 and LATKE as shipped work across x86_64 and aarch64 machines", "statement": "Keys made on one machine, by keypair or keypair_det, signatures made on a second and verified on a third, x86_64 with or without AVX2 or aarch64, are accepted, if six SHAKE128 blocks suffice for the matrix of the key; keypair_det returns the same keys on all machines; aarch64 machines verify like x86_64 machines without AVX2; a SIGMA-R or LATKE session succeeds even if every certificate and every call is handled by a different machine. Some signatures are accepted with AVX2 only.", "quantifier": "all machines and machine states, coins, messages, identities, sessions", "why_tests_cant": "a test runs on one machine", "anchors": ["pqcrypto/pqcrypto-dilithium/src/dilithium2.rs: keypair_det, keypair, sign, open, detached_sign, verify_detached_signature", "pqcrypto/pqcrypto-dilithium/build.rs", "latke/src/ibke/id_sigma_r.rs", "pqcrypto/pqclean/crypto_sign/dilithium2/aarch64/sign.c"]}
{"id": "C113", "title": "Dilithium3/5 rounding and hints", "statement": "For dilithium3 and dilithium5, decompose is the specification's Decompose with alpha = 2*gamma2 = 523776: a = a1*alpha + a0 mod q with 0 <= a1 < 16 and a0 centered, with the documented exception of the top interval, and no other pair qualifies; the hint made by the signer leads the verifier back to the signer's high bits, and use_hint is the specification's UseHint.", "quantifier": "all coefficients below q, all perturbations below alpha", "why_tests_cant": "q possible coefficients times all perturbations", "anchors": ["pqcrypto/pqclean/crypto_sign/dilithium3/clean/rounding.c: decompose, make_hint, use_hint", "pqcrypto/pqclean/crypto_sign/dilithium5/clean/rounding.c: decompose, make_hint, use_hint"]}
{"id": "C114", "title": "Dilithium3/5 formats", "statement": "Each coefficient format of dilithium3 and dilithium5 is the sequence of little-endian bit fields of its offset coefficients; packing and unpacking of polynomials, public keys, secret keys and signatures are inverse in both directions; the signature decoder accepts exactly the canonical hint encodings, returns what they denote, and no two strings decode to the same signature.", "quantifier": "all polynomials in range, all byte strings of the right size", "why_tests_cant": "the domains have 2^1600 elements and more", "anchors": ["pqcrypto/pqclean/crypto_sign/dilithium3/clean/packing.c: pack_pk, unpack_pk, pack_sk, unpack_sk, pack_sig, unpack_sig", "pqcrypto/pqclean/crypto_sign/dilithium3/clean/poly.c: polyeta_pack, polyeta_unpack, polyz_pack, polyz_unpack, polyw1_pack", "pqcrypto/pqclean/crypto_sign/dilithium5/clean/packing.c", "pqcrypto/pqclean/crypto_sign/dilithium5/clean/poly.c"]}
{"id": "C115", "title": "Dilithium3/5: signatures verify; malformed ones do not", "statement": "For dilithium3 and dilithium5: a signature made under a generated key is accepted, a signed message opens to the message, keys and signatures have the advertised sizes; verification answers no on a wrong length, a non-canonical hint or a z coefficient of gamma1 - beta or more; opening returns only the part after a verified signature.", "quantifier": "all seeds, messages, signatures, keys, hash functions", "why_tests_cant": "signatures are randomised by the message and all messages cannot be tried", "anchors": ["pqcrypto/pqclean/crypto_sign/dilithium3/clean/sign.c: crypto_sign_keypair_det, crypto_sign_signature, crypto_sign_verify, crypto_sign, crypto_sign_open", "pqcrypto/pqclean/crypto_sign/dilithium5/clean/sign.c"]}
{"id": "C116", "title": "Dilithium3/5 samplers and challenge", "statement": "poly_uniform_eta returns 4 - t for the first 256 nibbles t < 9 of the stream (dilithium3), 2 - t mod 5 for the first 256 nibbles t < 15 (dilithium5); the mask is read from 20-bit fields; the challenge has exactly tau coefficients +-1 and is SampleInBall of the hash of the first 32 bytes of the challenge seed: the remaining 16 (dilithium3) or 32 (dilithium5) bytes do not influence it.", "quantifier": "all streams, seeds and nonces", "why_tests_cant": "rejection sampling: the number of bytes consumed is unbounded", "anchors": ["pqcrypto/pqclean/crypto_sign/dilithium3/clean/poly.c: rej_eta, poly_uniform_eta, poly_uniform_gamma1, poly_challenge", "pqcrypto/pqclean/crypto_sign/dilithium5/clean/poly.c: rej_eta, poly_uniform_eta, poly_uniform_gamma1, poly_challenge"]}
{"id": "C117", "title": "Dilithium3/5 compute the published algorithms", "statement": "Key generation outputs the encodings of (rho, t1) and (rho, K, tr, s1, s2, t0) for (t1, t0) = Power2Round(A s1 + s2); signing outputs the first attempt that meets the specification's conditions; verification of a well-formed signature is equality of the challenge seed with the hash of mu and UseHint(h, A z - c t1 2^13).", "quantifier": "all seeds, messages, keys, signatures, hash functions", "why_tests_cant": "a test vector fixes one seed", "anchors": ["pqcrypto/pqclean/crypto_sign/dilithium3/clean/sign.c: crypto_sign_keypair_det, crypto_sign_signature, crypto_sign_verify", "pqcrypto/pqclean/crypto_sign/dilithium5/clean/sign.c", "pqcrypto/pqclean/crypto_sign/dilithium3/clean/polyvec.c", "pqcrypto/pqclean/crypto_sign/dilithium5/clean/polyvec.c"]}
{"id": "C118", "title": "Dilithium3/5: no undefined behaviour", "statement": "Key generation, signing, verification and opening of dilithium3 and dilithium5 give results that do not depend on what a signed overflow or an out-of-bounds read would do.", "quantifier": "all seeds, messages, byte strings of key size, signature strings of any length", "why_tests_cant": "undefined behaviour may look right in every test", "anchors": ["pqcrypto/pqclean/crypto_sign/dilithium3/clean/sign.c", "pqcrypto/pqclean/crypto_sign/dilithium3/clean/reduce.c", "pqcrypto/pqclean/crypto_sign/dilithium3/clean/ntt.c", "pqcrypto/pqclean/crypto_sign/dilithium3/clean/poly.c", "pqcrypto/pqclean/crypto_sign/dilithium3/clean/rounding.c", "pqcrypto/pqclean/crypto_sign/dilithium3/clean/packing.c", "pqcrypto/pqclean/crypto_sign/dilithium5/clean/sign.c"]}
{"id": "C119", "title": "The Rust interface of Dilithium3/5", "statement": "from_bytes of keys accepts exactly the right length and keeps the bytes; key equality is equality of bytes; a detached signature is any string up to the signature size, shorter ones are rejected by verification; verify_detached_signature is the C verification of exactly the given bytes and never reports an unknown error; detached and attached signatures under a generated key verify, also after serialisation, and the attached form is the detached signature followed by the message.", "quantifier": "all byte strings, coins, messages", "why_tests_cant": "all lengths and contents", "anchors": ["pqcrypto/pqcrypto-dilithium/src/dilithium3.rs: PublicKey, SecretKey, DetachedSignature, keypair_det, sign, open, detached_sign, verify_detached_signature", "pqcrypto/pqcrypto-dilithium/src/dilithium5.rs: PublicKey, SecretKey, DetachedSignature, keypair_det, sign, open, detached_sign, verify_detached_signature"]}
{"id": "C120", "title": "The NEON inner product of dilithium3 and dilithium5", "statement": "Whatever registers and memory contain, the assembly routine for the product of a matrix row with a vector (5 entries for dilithium3, 7 for dilithium5) returns 2^-32 times the sum of the products modulo q, of absolute value at most q, and writes nothing outside its output. The masking vectors (pairs, then a single last one) are those of the portable code.", "quantifier": "all vectors within the stated bounds, all contents of registers and of the rest of memory, all seeds and nonces", "why_tests_cant": "2^81920 inputs; overflow of the 64-bit accumulators shows only at extreme values", "anchors": ["pqcrypto/pqclean/crypto_sign/dilithium3/aarch64/__asm_poly.S: polyvecl_pointwise_acc_montgomery", "pqcrypto/pqclean/crypto_sign/dilithium5/aarch64/__asm_poly.S", "pqcrypto/pqclean/crypto_sign/dilithium3/aarch64/polyvec.c: polyvecl_pointwise_acc_montgomery, polyvecl_uniform_gamma1", "pqcrypto/pqclean/crypto_sign/dilithium5/aarch64/polyvec.c"]}
{"id": "C121", "title": "The aarch64 builds of dilithium3 and dilithium5 make the keys and signatures of the portable builds and give the same verdicts", "statement": "For all coins, secret keys and messages, and for all byte strings as signature, signed message and (full-length) public key, the aarch64 code returns exactly what the portable code returns, provided six SHAKE blocks suffice for each matrix entry of the key's seed. Keys, signatures and verification of the two builds can be mixed and honest signatures are accepted. The aarch64 code with itself needs no such condition, and nothing it returns depends on registers, other memory or undefined operations.", "quantifier": "both parameter sets, all coins, keys, messages, signature strings, all register and memory contents", "why_tests_cant": "it compares two complete programs on all inputs", "anchors": ["pqcrypto/pqclean/crypto_sign/dilithium3/aarch64/sign.c", "pqcrypto/pqclean/crypto_sign/dilithium3/aarch64/poly.c", "pqcrypto/pqclean/crypto_sign/dilithium3/aarch64/polyvec.c", "pqcrypto/pqclean/crypto_sign/dilithium3/aarch64/packing.c", "pqcrypto/pqclean/crypto_sign/dilithium5/aarch64/sign.c", "pqcrypto/pqclean/crypto_sign/dilithium5/aarch64/poly.c", "pqcrypto/pqclean/crypto_sign/dilithium5/aarch64/polyvec.c"]}
{"id": "C122", "title": "AVX2 rounding of dilithium3 and dilithium5", "statement": "The AVX2 decompose is the specification's Decompose on standard representatives; UseHint is the specification's except exactly where the hint is 1 and the low part is 0, where the AVX2 code goes up instead of down; make_hint lists in increasing order the positions of the coefficients for which the portable make_hint gives 1, and never writes beyond its 256 bytes.", "quantifier": "all polynomials of standard representatives, all hint polynomials, all inputs of make_hint without the most negative integer", "why_tests_cant": "8380417 values per coefficient, and the two implementations of UseHint differ only at 16 of them", "anchors": ["pqcrypto/pqclean/crypto_sign/dilithium3/avx2/rounding.c: decompose_avx, use_hint_avx, make_hint_avx", "pqcrypto/pqclean/crypto_sign/dilithium5/avx2/rounding.c: decompose_avx, use_hint_avx, make_hint_avx"]}
{"id": "C123", "title": "AVX2 packings and samplers of dilithium3 and dilithium5", "statement": "polyz_unpack returns 2^19 minus the 20-bit fields of the 640 bytes, whatever lies in the bytes it over-reads; polyw1_pack writes the 128 bytes of the portable packing and nothing else; rej_eta_avx of dilithium3 leaves exactly the accepted nibbles in order and writes no cell beyond the polynomial; the four-way samplers and the single mask sampler return exactly the portable samplers' polynomials whatever uninitialised memory contained, and return exactly when all four portable calls return.", "quantifier": "every buffer, stream, seed and nonce, every contents of uninitialised memory", "why_tests_cant": "streams are unbounded and the boundary cases of the vector loops are rare", "anchors": ["pqcrypto/pqclean/crypto_sign/dilithium3/avx2/rejsample.c: rej_eta_avx", "pqcrypto/pqclean/crypto_sign/dilithium3/avx2/poly.c: poly_uniform_eta_4x, poly_uniform_gamma1_4x, poly_uniform_gamma1, polyz_unpack, polyw1_pack", "pqcrypto/pqclean/crypto_sign/dilithium5/avx2/rejsample.c: rej_eta_avx", "pqcrypto/pqclean/crypto_sign/dilithium5/avx2/poly.c"]}
{"id": "C124", "title": "What the AVX2 verifications of dilithium3 and dilithium5 accept, and when they agree with the portable ones", "statement": "Each AVX2 matrix expansion returns the portable matrix row by row; AVX2 crypto_sign_verify returns success exactly when the signature has the right length, its hint encoding is canonical and its challenge is the hash of mu and UseHint(h, Az - c t1 2^13), with no bound on z beyond its encoding; the result does not depend on uninitialised memory; it agrees with the portable verification unless z has a coefficient of absolute value at least gamma1 - beta or a hint points to a coefficient with low part exactly 0; honest signatures are accepted and opened; crypto_sign_open returns a message exactly when its signature is accepted.", "quantifier": "every signature string of any length, message, public key, seed, hash function, contents of uninitialised memory and registers, both parameter sets", "why_tests_cant": "Signature strings are thousands of arbitrary bytes; the two exceptions are hit with negligible probability by random tests, and each of the 6 or 8 matrix rows has its own hand-written buffer schedule.", "anchors": ["pqcrypto/pqclean/crypto_sign/dilithium3/avx2/sign.c: crypto_sign_verify, crypto_sign_open, polyvec_matrix_expand_row0-5", "pqcrypto/pqclean/crypto_sign/dilithium5/avx2/sign.c: crypto_sign_verify, crypto_sign_open, polyvec_matrix_expand_row0-7", "pqcrypto/pqclean/crypto_sign/dilithium3/avx2/polyvec.c: polyvec_matrix_expand, polyvecl_pointwise_acc_montgomery", "pqcrypto/pqclean/crypto_sign/dilithium5/avx2/polyvec.c"]}
{"id": "C125", "title": "There are dilithium3 and dilithium5 signatures on which the AVX2 and the portable verification disagree", "statement": "For every matrix seed and message there is a public key (t1 = 0) such that, for every encodable response with a coefficient of absolute value at least gamma1 - beta, a signature exists that the AVX2 build accepts and the portable build rejects; with z = 0 and one hint the AVX2 build accepts a signature that the portable build accepts only on a hash collision.", "quantifier": "every matrix seed, message, long response, hash function, both parameter sets", "why_tests_cant": "An existence claim about adversarial signatures that honest test vectors never contain.", "anchors": ["pqcrypto/pqclean/crypto_sign/dilithium3/avx2/sign.c: crypto_sign_verify (no polyvecl_chknorm)", "pqcrypto/pqclean/crypto_sign/dilithium5/avx2/sign.c: crypto_sign_verify (no polyvecl_chknorm)", "pqcrypto/pqclean/crypto_sign/dilithium3/avx2/rounding.c: use_hint_avx", "pqcrypto/pqclean/crypto_sign/dilithium5/avx2/rounding.c: use_hint_avx"]}
{"id": "C126", "title": "AVX2 key generation and signing of dilithium3 and dilithium5 return the portable results", "statement": "For every 32-byte seed crypto_sign_keypair of the AVX2 build returns the key pair of the portable build, and for every secret key and message its crypto_sign_signature and crypto_sign return the same bytes; nothing depends on uninitialised buffers; each terminates exactly when the portable one does and the surplus hash streams it reads (two matrix streams of dilithium3, one stream of the secret vectors) give a polynomial; what the AVX2 build signs with its own keys is accepted and opened by both builds.", "quantifier": "every seed, message, secret key, hash function, contents of uninitialised memory and registers, both parameter sets", "why_tests_cant": "The rejection loop, the hint loop and the row-wise key generation differ structurally from the portable code; a mismatch may need a rare rejection or hint count, and each matrix row has its own buffer schedule.", "anchors": ["pqcrypto/pqclean/crypto_sign/dilithium3/avx2/sign.c: crypto_sign_keypair, crypto_sign_signature, crypto_sign", "pqcrypto/pqclean/crypto_sign/dilithium5/avx2/sign.c: crypto_sign_keypair, crypto_sign_signature, crypto_sign", "pqcrypto/pqclean/crypto_sign/dilithium3/avx2/polyvec.c: polyvec_matrix_expand", "pqcrypto/pqclean/crypto_sign/dilithium5/avx2/polyvec.c: polyvec_matrix_expand"]}
{"id": "C127", "title": "Dilithium3 and dilithium5 with their hash code: nothing left abstract", "statement": "Key generation, signing, verification and opening of dilithium3 and dilithium5 as linked against the stateful Keccak code compute exactly the algorithms over the FIPS 202 output streams; no array access is out of bounds and no signed overflow occurs; a signature made under a generated key verifies and opens; verify accepts exactly the well-formed signatures whose challenge seed is the SHAKE256 digest the specification asks for.", "quantifier": "every coins, message, signature and key bytes, both parameter sets; every behaviour of out-of-range accesses", "why_tests_cant": "Rejection sampling reads an unbounded number of blocks and state is handed between incremental calls; the two parameter sets squeeze different numbers of blocks and hash challenge seeds of different lengths.", "anchors": ["pqcrypto/pqclean/crypto_sign/dilithium3/clean/sign.c: crypto_sign_keypair_det, crypto_sign_signature, crypto_sign_verify, crypto_sign_open", "pqcrypto/pqclean/crypto_sign/dilithium5/clean/sign.c: crypto_sign_keypair_det, crypto_sign_signature, crypto_sign_verify, crypto_sign_open", "pqcrypto/pqclean/crypto_sign/dilithium3/clean/poly.c: poly_uniform_eta, poly_uniform_gamma1, poly_challenge", "pqcrypto/pqclean/crypto_sign/dilithium5/clean/poly.c: poly_uniform_eta, poly_uniform_gamma1, poly_challenge", "pqcrypto/pqcrypto-internals/cfiles/fips202.c: shake*_inc_*"]}
{"id": "C128", "title": "Dilithium3 and dilithium5 as shipped work across x86_64 and aarch64 machines", "statement": "What the Rust functions keypair, keypair_det, sign and detached_sign return on x86_64 with or without AVX2 or on aarch64 is what they return with the portable code (keypair_det always; on aarch64 the others if six SHAKE blocks suffice for the matrix entries); keys made on one machine, a signature made on a second, are accepted and the signed message opens on a third; aarch64 machines among themselves need no condition; on every machine verification is the C verification of exactly the given bytes and short signatures are rejected; some signatures are accepted on machines with AVX2 and on no others.", "quantifier": "every machine (AVX2 or not, contents of registers and uninitialised memory, undefined behaviour), seed, message, key and signature bytes, both parameter sets, every hash function", "why_tests_cant": "Three implementations of every function are linked and chosen at run or compile time; tests run on one machine, and the three differ in structure and in what they accept.", "anchors": ["pqcrypto/pqcrypto-dilithium/src/dilithium3.rs: keypair, keypair_det, sign, open, detached_sign, verify_detached_signature", "pqcrypto/pqcrypto-dilithium/src/dilithium5.rs: keypair, keypair_det, sign, open, detached_sign, verify_detached_signature", "pqcrypto/pqcrypto-dilithium/build.rs"]}
