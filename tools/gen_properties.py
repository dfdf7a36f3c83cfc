import json
L="latke/src/"
S="saber-rust/src/"
D="pqcrypto/pqclean/crypto_sign/dilithium2/clean/"
P=[]
def p(id,title,statement,quant,why,anchors):
    P.append(dict(id=id,title=title,statement=statement,quantifier=quant,why_tests_cant=why,anchors=anchors))

p("C01","Authenticated encryption round-trips","Decrypting the output of auth_encrypt under the same key returns exactly the original message and never an error or panic.","every 64-byte key, every message of any length, every nonce the RNG may draw","a test draws one key, one nonce and one message length",[L+"auth_enc.rs: auth_encrypt, auth_decrypt"])
p("C02","Authenticated encryption has constant overhead","The sealed message is exactly 44 bytes longer than the plaintext (12-byte nonce and 32-byte tag), so the wire length depends only on the plaintext length.","every key, message and nonce","length must be the same function of the plaintext length for every input",[L+"auth_enc.rs: auth_encrypt, TAGLEN"])
p("C03","Authenticated decryption accepts only correctly tagged input","If decryption returns a plaintext then the last 32 bytes are the HMAC, under the MAC half of the key, of every other byte (ciphertext and nonce); so changing only the tag of a sealed message is always rejected, and an accepted modification of the rest is a fresh valid (message, tag) pair, i.e. a MAC forgery.","every key and every byte string presented to decryption","tests flip one random bit of one ciphertext",[L+"auth_enc.rs: auth_decrypt"])
p("C04","Panic domain of authenticated decryption","auth_decrypt panics exactly on inputs shorter than 44 bytes; on every other input it returns a plaintext or a MAC error.","every byte string","the set of panicking inputs is a statement about all lengths",[L+"auth_enc.rs: auth_decrypt"])
p("C05","Wide-block cipher is a permutation","For every key and every block length of at least 32 bytes, decrypting after encrypting and encrypting after decrypting both give back the block, so encryption is a bijection on blocks of that length.","every key, every block of 32 bytes or more, every deck function","a test takes one 700-byte block and only checks one direction",[L+"ideal_cipher.rs: wide_block_encrypt, wide_block_decrypt"])
p("C06","Wide-block cipher is length preserving and total from 32 bytes up","Encryption and decryption keep the block length and panic exactly when the block is shorter than 32 bytes.","every key and every byte string","claim about all lengths",[L+"ideal_cipher.rs: wide_block_encrypt, wide_block_decrypt, eval_deck"])
p("C07","EUE is transparent for honest peers","Two EUE endpoints started with the same initial key and ssid, passing each other's messages unmodified, make the wrapped key exchange take exactly the same steps as if it were run in the clear: same success, same number of messages, same final identity and key at both sides.","every IBKE protocol, every initial key, ssid, certificates, every sequence of random coins, any number of messages","tests run one protocol with one set of coins",[L+"eue_transform.rs: Eue::new_session, Eue::run, Eue::finalize"])
p("C08","EUE never feeds unauthenticated bytes to the key exchange","Whenever an EUE step on a non-empty incoming message gets as far as running the wrapped protocol, the bytes handed to it are the authenticated decryption of that message under the current message key; a message that does not authenticate never reaches the wrapped protocol.","every session state and every incoming byte string (adversarial)","needs all adversarial messages at all points of a session",[L+"eue_transform.rs: Eue::run"])
p("C09","EUE continues with dummy traffic after a decryption failure","The documentation says a decryption failure makes the session leave real mode and keep sending zeros of the right size ('unconditionally execute'). In the code an assertion aborts first: a message that fails authentication always panics, and no reachable session ever leaves real mode.","every reachable session state and every incoming message","reachability claim over all histories; the tests never exercise a failed decryption",[L+"eue_transform.rs: Eue::run, real_mode"])
p("C10","Ratchet synchronisation","In an EUE session the n-th message on the wire (counting both directions) is protected with the n-th key of a chain that depends only on the initial key and ssid, at the sender and at the receiver, no matter what the messages contain.","every history of steps of either role, any length","the invariant has to hold after every number of steps",[L+"eue_transform.rs: ratchet_keys, next_step_is_first, Eue::run"])
p("C11","Empty messages bypass EUE authentication but cannot advance a shipped protocol","An empty incoming message is passed to the wrapped protocol without any authentication; nevertheless every shipped key exchange aborts or reports an error on an empty message at every step except the initiator's first, so the bypass cannot make a session progress.","every session state of each of the five IBKE instantiations","statement over every reachable state",[L+"eue_transform.rs: Eue::run","latke/src/ibke/*: run"])
p("C12","LATKE end-to-end agreement","If the PAKE on the common input and the IBKE on the same certificates and coins each succeed with agreement when run alone, then two honest LATKE users with the same ssid, run alternately until the user to move is done, terminate with neither panicking, both report done, each outputs the other's identity, and both hold the same session key.","every PAKE and IBKE, both peer models, every password, ids, ssid, all coins, any number of PAKE and IBKE rounds (odd or even)","tests run five instantiations once or twice with fixed round counts",[L+"latke.rs: Latke::new_session, run, is_done, finalize"])
p("C13","LATKE keys bind the transcript","Both users' final keys are the same KDF of (all wire messages in order, IBKE key); if two completed sessions have the same final key then their concatenated transcripts followed by the IBKE key are the same or a collision of the KDF is exhibited. Only the concatenation is bound, not the message boundaries.","every pair of session histories","quantifies over all pairs of histories",[L+"latke.rs: run (input_ikm), finalize"])
p("C14","Password determines the LATKE main public key","gen_pwfile for the same password always yields the same main public key (whatever the id and RNG), and the certificate it yields carries the id it was asked for and verifies under that key.","every password, id and RNG","tests check one password",[L+"latke.rs: Latke::gen_pwfile"])
p("C15","LATKE-Pre PAKE input is unambiguous","In the pre-specified model both honest users derive the same PAKE input exactly when they have the same main public key and each names the other's certified id, in the role order initiator-responder; any mismatch in an id gives different PAKE inputs.","every pair of password files with equally long main keys, every pair of named ids","injectivity over all inputs",[L+"latke.rs: Latke::new_session, PeerModel"])
p("C16","Pre-specified peer identity is enforced on output","A user of the pre-specified model would expect that a completed session only ever reports the named peer. LATKE never compares: there is an execution with a completed session whose reported id differs from the named one. What does hold: the reported id is exactly the id the encrypted IBKE authenticated.","every session and history","the violating history is not exercised by any test",[L+"latke.rs: Latke::finalize, new_session"])
p("C17","The IBKE starts only after the PAKE completed","In every history, a LATKE session holds an IBKE session only if its PAKE reported completion, and LATKE reports done only after both the PAKE and the IBKE are done. (Provided the PAKE signals completion whenever it has nothing to send.)","every sequence of incoming messages to a session of any PAKE and IBKE","invariant over all histories",[L+"latke.rs: Latke::run, is_done"])
p("C18","LATKE driver terminates","Honest LATKE executions stop after exactly PAKE rounds + IBKE rounds calls, minus one when the initiator ends the PAKE (its last PAKE call also starts the IBKE); no extra or missing call.","every PAKE/IBKE round count","all round counts",[L+"latke.rs: Latke::run, tests::latke_correctness_generic"])
p("C19","LATKE aborts on any sub-protocol error","If the PAKE or the IBKE step reports an error or panics on the incoming message, the LATKE step panics; it never returns a message or updates its transcript after an authentication error.","every state and incoming message","all adversarial messages",[L+"latke.rs: Latke::run"])
p("C20","CAKE agreement","Two CAKE users with the same password and ssid finish after three messages steps with the same 32-byte key whenever decapsulating the encapsulation under the fresh key pair gives back the encapsulated key; passwords and ssids of any value are allowed.","every password, ssid, KEM coins, every KEM","tests use one password and random coins",[L+"pake/cake.rs: Cake"])
p("C21","CAKE input validation","A CAKE step panics exactly when the message has the wrong length for the step (0, 672 or 736 bytes) or the session is finished; every message of the right length is accepted and completes the step.","every state reachable from new and every message","all messages at all states",[L+"pake/cake.rs: Cake::run"])
p("C22","CPace agreement","Two CPace users with the same password and ssid finish with equal keys, for any password bytes.","every password, ssid and coins","tests sample one",[L+"pake/cpace.rs: Cpace"])
p("C23","KC-SPAKE2 agreement","Two KC-SPAKE2 users with the same password and ssid complete the four steps with both confirmations accepted and the same key.","every password, ssid and coins","tests sample one",[L+"pake/kc_spake2.rs: KcSpake2"])
p("C24","KC-SPAKE2 completes only after key confirmation","In every history a KC-SPAKE2 session reports completion only if the last message it accepted carried exactly the confirmation MAC derived from its own view (password, both messages and SPAKE2 key).","every sequence of incoming messages","adversarial histories",[L+"pake/kc_spake2.rs: KcSpake2::run"])
p("C25","PAKE finalize panics unless the protocol completed","The trait says finalize returns the key if the protocol completed and panics otherwise. True of CAKE and CPace in every reachable state; false of KC-SPAKE2, which hands out the unconfirmed key before completion and after a failed confirmation.","every reachable state of the three PAKEs","all histories; tests never call finalize early",[L+"lib.rs: Pake::finalize",L+"pake/*.rs: finalize"])
p("C26","PAKE sessions are one-shot","Once a PAKE session is done it stays done, and running it again panics; the number of successful steps of a session is bounded by the role.","every history of each of the three PAKEs","all histories",[L+"pake/*.rs: run, is_done"])
p("C27","A failed KC-SPAKE2 confirmation is final","A user expects one guess per session. At the responder's last step a failed MAC leaves the session unchanged, so any number of further guesses is accepted for processing; at the initiator a failed MAC makes every further step panic.","every number of wrong guesses followed by the right one","unbounded retry sequences",[L+"pake/kc_spake2.rs: KcSpake2::run"])
p("C28","Signed-DH IBKE agreement","Two Signed-DH users with certificates extracted from the same main key complete with the same session key and each learns the other's id.","all keys, ids, ssid, coins","tests sample one",[L+"ibke/id_sig_dh.rs: IdSigDh"])
p("C29","HMQV-C IBKE agreement","Two HMQV-C users with certificates extracted from the same main key complete with both MACs accepted, the same key and each other's id.","all keys, ids, ssid, coins, any prime-order-like group","tests sample one",[L+"ibke/id_hmqv_c.rs: IdHmqvC"])
p("C30","Fiore-Gennaro IBKE agreement","Two FG-IBKE-C users with keys extracted from the same main key complete with both MACs accepted, the same final key and each other's id.","all keys, ids, ssid, coins","tests sample one",[L+"ibke/fg_ibke.rs: FgIbkeC"])
p("C31","SIGMA-R IBKE agreement","Two SIGMA-R users (either signature scheme) with certificates from the same main key complete with the same key and each other's id, whenever the KEM decapsulates correctly and its public-key encoding re-encodes to the same bytes.","all keys, ids, ssid, coins","tests sample one per scheme",[L+"ibke/id_sigma_r.rs: IdSigmaR"])
p("C32","Certificates survive serialisation","Parsing a serialised certificate gives back the same certificate, and the serialised length is the advertised size, for the three certificate formats.","every certificate","all field values",[L+"ibke/id_sig_dh.rs: SigDhCert",L+"ibke/id_hmqv_c.rs: IdHmqvCCert",L+"ibke/id_sigma_r.rs: SigmaCert"])
p("C33","Signed-DH authentication","In every history, a completed Signed-DH session reports an id for which it received a certificate verifying under the main key, and the ephemeral key used carried a signature by the certified key over (peer role byte, own ssid, ephemeral key).","every sequence of incoming messages (adversarial)","adversarial histories",[L+"ibke/id_sig_dh.rs: IdSigDh::run"])
p("C34","SIGMA-R authentication","In every history, a completed SIGMA-R session reports an id for which it received, under the session's encryption key, a certificate verifying under the main key, a signature by the certified key over the role byte, own nonce, ssid, KEM values and certificate, and the MAC of the id under the session's MAC key.","every sequence of incoming messages (adversarial)","adversarial histories",[L+"ibke/id_sigma_r.rs: IdSigmaR::run"])
p("C35","HMQV-C authentication","In every history a completed HMQV-C session received a certificate for the reported id verifying under the main key and the confirmation MAC derived from its own key and ssid.","every sequence of incoming messages (adversarial)","adversarial histories",[L+"ibke/id_hmqv_c.rs: IdHmqvC::run"])
p("C36","FG-IBKE-C key confirmation","In every history a completed FG-IBKE-C session received exactly the confirmation MAC derived from its own view (ephemeral keys, reported id, main key).","every sequence of incoming messages (adversarial)","adversarial histories",[L+"ibke/fg_ibke.rs: FgIbkeC::run"])
p("C37","No reflection in Signed-DH and SIGMA-R","The byte strings signed by an initiator and by a responder are never equal, whatever the ssids, keys and nonces; so a signature made in one role can only be accepted in the other if it verifies on a message that was not the one signed.","all field values of the two signed encodings","injectivity over all inputs",[L+"ibke/id_sig_dh.rs: run",L+"ibke/id_sigma_r.rs: run"])
p("C38","Simulated message sizes match real ones","run_sim is documented to return the size of the message run would send. True for Signed-DH and HMQV-C at every step and for the first two SIGMA-R steps; SIGMA-R's sealed messages are 12 bytes longer than simulated, and FG-IBKE-C does not implement it (panics).","every session state and successful step","all states and steps; no test calls run_sim",[L+"lib.rs: run_sim",L+"ibke/*: run_sim"])
p("C39","Simulated sessions complete","is_done is documented to become true after the last run_sim. True for Signed-DH and SIGMA-R, false for HMQV-C, which never becomes done when simulated.","every session role and number of simulated steps","no test calls run_sim",[L+"lib.rs: is_done",L+"ibke/*: run_sim"])
p("C40","IBKE finalize yields output only for completed sessions","A user expects no identity/key pair from an unfinished or failed session. True of Signed-DH in every reachable state; false of HMQV-C, FG-IBKE-C and SIGMA-R, which return a pair before completion or after a failed verification.","every history of each IBKE","all histories",[L+"ibke/*: finalize, run"])
p("C41","IBKE sessions are one-shot","After a session completed every further run panics, completion is never revoked, and each role performs a bounded number of successful steps.","every history of each IBKE","all histories",[L+"ibke/*: run, is_done"])
p("C42","CHIP agreement","Two CHIP users whose password files come from the same password, each naming the other's id, derive the same PAKE input and so complete with the same session key whenever the PAKE does.","every password, ids, ssid, coins, every PAKE","tests sample one",[L+"chip.rs: Chip"])
p("C43","CHIP transcript","The transcript fed to the CHIP PAKE is exactly first message || second message on both sides, although received messages are recorded more than once.","every pair of messages, both roles","duplicate bookkeeping must be harmless for every input",[L+"chip.rs: ibke_step_1, ibke_step_2, run"])
p("C44","CHIP binds the named identity","If two honest CHIP users complete the exchange but one names the wrong peer id, their PAKE inputs agree only if the wrong id hashes to the same scalar multiple (i.e. (h(id,X) - h(id',X)) times the password key times the user's secret is zero).","all ids, passwords and coins","all wrong ids",[L+"chip.rs: ibke_step_2, gen_pwfile"])
p("C45","Saber polynomial packings round-trip","Unpacking a packed polynomial gives the coefficients modulo 2^b for b = 4, 6, 10, 13 and packing an unpacked buffer gives the same bytes.","every polynomial and every buffer of the right size","all coefficient values at all positions",[S+"poly.rs: read_bytes_*, from_bytes_*"])
p("C46","Saber 3-bit packing round-trips","The 3-bit packing used for LightSaber ciphertexts should round-trip. It does not: in every group of eight coefficients the lowest bit of the sixth is replaced by its bit 2; all other bits survive.","every polynomial","exact characterisation for all inputs; random round-trip tests of the KEM hide it as decapsulation failures",[S+"poly.rs: read_bytes_3bit"])
p("C47","Saber keys and ciphertexts have one accepted length","from_bytes accepts exactly the advertised number of bytes, returns the bytes unchanged through as_bytes, and reports BadLength with the actual and expected lengths otherwise.","every byte string","all lengths",[S+"newtype.rs"])
p("C48","Saber public keys survive serialisation behaviourally","Encapsulating with a freshly generated public key and with its serialised-and-reparsed copy gives identical ciphertexts and shared secrets for the same coins; re-serialising gives the same bytes.","every key pair, every message and coins","all keys and coins",[S+"generic.rs: PublicKey::to_bytes, from_bytes, indcpa_kem_enc"])
p("C49","Saber secret keys survive serialisation behaviourally","Decapsulating with a generated secret key and with its serialised-and-reparsed copy gives the same result for every ciphertext, although the in-memory values differ.","every secret key and every ciphertext","all keys and ciphertexts",[S+"generic.rs: SecretKey::to_bytes, from_bytes, indcpa_kem_dec"])
p("C50","Saber ring multiplication is negacyclic convolution","Polynomial multiplication is the product in Z/2^16[X]/(X^256+1): it is commutative, associative and distributes over addition, and <A s, t> = <s, A^T t> for the matrix/vector operations.","all polynomials, vectors and matrices","algebraic law over all inputs",[S+"poly.rs: Mul, Add",S+"generic.rs: Matrix, Vector"])
p("C51","Saber secrets are small","Every coefficient sampled by the centred binomial sampler lies in [-mu/2, mu/2] modulo 2^16.","every seed/random stream and all three parameter sets","all byte streams",[S+"generic.rs: Vector::new_secret, cbd",S+"poly.rs"])
p("C52","Saber decryption correctness criterion","Decrypting an encryption returns the original message bit whenever the accumulated rounding error of that coefficient is within the parameter set's threshold; with faithful packing of the reconciliation data.","every seed, secret, message and coins; all three parameter sets","failure events are far rarer than any test sample",[S+"generic.rs: indcpa_kem_enc, indcpa_kem_dec, recon_data_gen"])
p("C53","LightSaber packing bug corrupts decryption","Because of the 3-bit packing defect the criterion of C52 is not enough for LightSaber: the defect shifts the reconciliation value of affected coefficients by at most one step, and there are ciphertext values for which decryption through the packed form returns a different bit than decryption of the unpacked value.","every reconciliation value","rate a few per million decapsulations",[S+"poly.rs: read_bytes_3bit",S+"generic.rs"])
p("C54","Saber KEM agreement and implicit rejection","Decapsulating with the matching key returns the encapsulated secret whenever CPA decryption is correct; on any ciphertext that does not re-encrypt to itself the result is the hash of the secret z and the second half of the re-derived key material, never an error.","every key pair, ciphertext and coins","all ciphertexts",[S+"generic.rs: encapsulate, decapsulate"])
p("C55","Constant-time comparison masks are exact","The byte and slice equality masks are 0xFF exactly on equality and 0 otherwise (never another value).","every pair of bytes and of slices","all pairs of slices of any length",[S+"generic.rs: bytes_eq_mask, u8_eq_mask"])
p("C56","Dilithium modular reductions are exact and bounded","montgomery_reduce, reduce32, caddq and freeze return the right residue modulo q within their documented ranges for every input in their documented domains, with no 32-bit overflow.","every integer in the documented domains (up to 2^54)","domains far beyond enumeration",[D+"reduce.c"])
p("C57","Dilithium rounding is exact","power2round and decompose split every standard representative as documented (a = a1*2^D + a0, a = a1*alpha + a0 mod q) with the documented ranges.","every 0 <= a < q","8 million values each; stated for all",[D+"rounding.c: power2round, decompose"])
p("C58","Dilithium hints recover high bits","use_hint(w - cs2 + ct0-style value, make_hint(...)) returns the high bits of the unperturbed value under the signing checks; and make_hint is 0 exactly when high bits agree.","every pair of values satisfying the norm bounds","all values",[D+"rounding.c: make_hint, use_hint"])
p("C59","Dilithium NTT multiplication is negacyclic convolution","Pointwise multiplication in the NTT domain followed by the inverse NTT yields the product in Z_q[X]/(X^256+1), with no signed overflow on the way.","all polynomials within the input bounds","algebraic identity over all inputs",[D+"ntt.c",D+"poly.c"])
p("C60","Dilithium packings round-trip","Packing then unpacking polynomials (eta, t1, t0, z, w1 formats), public keys, secret keys and signatures returns the same values, at the advertised byte sizes.","every polynomial in the format's range","all values at all positions",[D+"packing.c",D+"poly.c: poly*_pack, poly*_unpack"])
p("C61","Dilithium signature encoding is canonical","unpack_sig accepts a hint encoding only in its unique canonical form (strictly increasing indices, zero padding), so no two different byte strings decode to the same (c, z, h).","every 2420-byte string","strong unforgeability needs all encodings",[D+"packing.c: unpack_sig, pack_sig"])
p("C62","Dilithium signatures verify","Every signature the signer outputs for a message under a generated key pair is accepted by the verifier for that message and public key, and the attached form opens to the same message.","every seed, message, randomness and number of rejection rounds","all keys and messages",[D+"sign.c"])
p("C63","Dilithium verification rejects malformed inputs","Verification fails on every signature whose length is not 2420, whose z has a coefficient of absolute value at least gamma1-beta, or whose hint encoding is not canonical.","every message, key and byte string","all byte strings",[D+"sign.c: crypto_sign_verify"])
p("C64","Dilithium challenge polynomial is well-formed","For every seed the challenge has exactly tau = 39 coefficients equal to +1 or -1 and all others zero.","every hash output stream","all seeds",[D+"poly.c: poly_challenge"])
p("C65","Dilithium samplers stay in range","Rejection samplers only ever output coefficients in [0,q), [-eta,eta] and (-gamma1,gamma1] and never write beyond the requested length.","every input byte stream","all streams",[D+"poly.c: rej_uniform, rej_eta, poly_uniform*"])
p("C66","LATKE authenticates the reported identity","Against an arbitrary network, a LATKE session that is done and reports an identity contains a completed run of the wrapped key exchange started from the session's own password file and keyed by a PAKE run on its own PAKE input; for Signed-DH, HMQV-C and SIGMA-R this means that a certificate for exactly that identity, contained in a received message, verifies under the password-derived main key, and for FG-IBKE-C that the received confirmation is the one derived from that identity and the password-derived main key.","every history of incoming messages, every PAKE, every password file","no test attacks the composed protocol",[L+"latke.rs: run, is_done, finalize",L+"eue_transform.rs: run"])
p("C67","Dilithium computes the specified algorithms","Key generation, signing and verification return exactly what the mathematical specification of Dilithium2 defines from the sampled matrix, secrets and masks: t = A*s1+s2 and its Power2Round; the encoding of (c~, z, h) of the first attempt meeting the four acceptance conditions; acceptance exactly when c~ = H(mu, UseHint(h, A*z - c*t1*2^d)).","every seed, secret key, message, public key, signature and SHAKE function","fixed test vectors cover a few keys; rejection paths and carries are input dependent",[D+"sign.c: crypto_sign_keypair, crypto_sign_signature, crypto_sign_verify",D+"polyvec.c",D+"ntt.c"])
p("C68","Dilithium has no undefined behaviour","The results of key generation, signing, verification and opening do not depend on what a signed 32- or 64-bit overflow or an out-of-bounds read would do.","every seed, message, 2560-byte secret key, 1312-byte public key, signature of any length","sanitizers see only the executed inputs",[D+"sign.c",D+"ntt.c",D+"reduce.c",D+"packing.c",D+"poly.c"])
p("C69","Authenticated encryption has one exact format","auth_encrypt outputs ciphertext || nonce || HMAC, where the ciphertext is the message masked with the keystream of (first key half, nonce) and the HMAC is keyed with the second key half over ciphertext || nonce; auth_decrypt accepts exactly such strings, returns exactly the sealed message, and accepts nothing that auth_encrypt could not have produced.","every key, nonce, message and byte string","round-trip tests pass if both directions share a mistake (same key half twice, nonce not authenticated)",[L+"auth_enc.rs: auth_encrypt, auth_decrypt"])
p("C70","The wide-block cipher is the four-round Farfalle-WBC network","wide_block_encrypt computes R0 ^= H(L,0), L ^= G(R,1), R ^= G(L,0), L ^= H(R,1) with domain-separated calls of the deck function under the key, and wide_block_decrypt undoes it.","every key and every block of at least 32 bytes","any Feistel network round-trips; only the exact rounds give a wide-block permutation",[L+"ideal_cipher.rs: wide_block_encrypt, wide_block_decrypt, eval_deck"])
p("C71","EUE keys after errors","In every history of returning calls, an Ok call moves the key chain by two and an Err call by one; the next call decrypts and encrypts with the keys at that position. So after an Err the honest message the session was waiting for no longer authenticates and the session panics on it.","every history of Ok and Err calls, every wrapped protocol and role","retry histories of any length",[L+"eue_transform.rs: Eue::run"])
p("C72","CAKE and CPace compute exactly the specified messages and keys","For arbitrary incoming bytes, a CAKE initiator sends the wide-block encryption of its fresh encapsulation key under HKDF-Expand(H(password), 0x00 || ssid), and its key is the decapsulation of the received bytes decrypted under the 0x01 key; the responder symmetrically; the two direction keys and different session ids give different derivation inputs. A CPace initiator sends the packet of the crate's first step on the base64 password (RFC 4648 standard alphabet, with padding), the two fixed role strings and the session id, and outputs the key of the third step.","every password, session id, coins and every incoming byte string","agreement tests pass if both sides use the same wrong key input (dropped ssid, shared direction byte)",[L+"pake/cake.rs: run",L+"pake/cpace.rs: run"])
p("C73","Outcome of every PAKE call","For every history of a KC-SPAKE2 or CPace session and every next message, whether the call returns Ok, returns Err or panics is a stated function of the history and the message: a message of the wrong length, or one whose SPAKE2 element does not decode, panics; a wrong key confirmation is Err.","every history, role, password and message","unbounded retry histories and arbitrary attacker bytes",[L+"pake/kc_spake2.rs: run",L+"pake/cpace.rs: run"])
p("C74","Outcome of every key-exchange call","For every history of a Signed-DH, HMQV-C, FG-IBKE-C or SIGMA-R session in either role, and every next message, the call is Ok exactly when the message is a concatenation of decodable fields whose certificate, signature and confirmation checks all pass; Err when it is well-formed and a check fails; and a panic when it is malformed or the session has already finished.","every history, role, key material and message","unbounded histories with retries; arbitrary attacker bytes including every wrong length",[L+"ibke/id_sig_dh.rs: run",L+"ibke/id_hmqv_c.rs: run",L+"ibke/fg_ibke.rs: run",L+"ibke/id_sigma_r.rs: run"])
W="pqcrypto/pqcrypto-dilithium/src/"
p("C75","Dilithium's Rust interface is faithful","Public and secret keys parse exactly from their advertised length and keep their bytes; key equality is byte equality; a detached signature is any string of at most 2420 bytes, kept exactly, and shorter ones never verify; a signature made under a generated key verifies also after both have been serialised and parsed; a signed message is signature followed by message and opens to it; open returns a message only if its signature verifies, and errors are always InvalidSignature.","every byte string, key, message, key-generation coins and SHAKE function","all byte strings and lengths; all keys and messages",[W+"dilithium2.rs: simple_struct, DetachedSignature, sign, open, detached_sign, verify_detached_signature, keypair_det"])
p("C76","The shipped post-quantum suite works end to end","With the modelled Dilithium2 and LightSaber in place of abstract primitives, SIGMA-R agrees, and LATKE with SIGMA-R over CAKE finishes after seven calls with equal keys and each other's id, provided only that the signer terminates on the four messages signed and that the KEM noise of the two exchanges is within LightSaber's (defect-reduced) thresholds.","every password, ids, session id, coins, peer model and hash function","agreement for all coins; composition of three code bases",[L+"latke.rs",L+"ibke/id_sigma_r.rs: IdSigmaRDilithium2",L+"pake/cake.rs",S+"generic.rs",D+"sign.c",W+"dilithium2.rs"])
p("C77","Saber's byte formats are bit fields","Every packing format reads and writes coefficient i as the w-bit little-endian number at bits w*i .. w*i+w-1 of the buffer (w = 13, 10, 6, 4, 3), vectors polynomial after polynomial; except that the 3-bit packer writes bit 2 in place of bit 0 at positions 5 mod 8.","every buffer, polynomial, vector and index","round-trip tests pass under any consistent re-ordering; interoperability needs the exact format",[S+"poly.rs: read_bytes_*, from_bytes_*",S+"generic.rs: Vector::to_bytes, from_bytes"])
p("C78","Saber computes the specified algorithms over the integers","The matrix is the stream of 13-bit numbers of SHAKE-128(seed), the secret the centred binomial of SHAKE-128(noise seed); the public key bytes are round(A s / 8) mod 1024 in 10-bit fields followed by the seed; the secret key is s, pk, SHA3-256(pk), z; a ciphertext is round(A^T t / 8) followed by the top bits of 512 m + <b,t> mod 1024; decryption returns the top bit of <b',s> - 2^(10-w) c + const mod 1024: all with textbook products in Z[X]/(X^256+1), for all three parameter sets.","every seed, coins, message, key and ciphertext; all three parameter sets","correctness tests pass if both sides share a mistake; Toom-Cook/Karatsuba carries are input dependent",[S+"generic.rs: gen_matrix, indcpa_kem_keypair, indcpa_kem_enc, indcpa_kem_dec",S+"poly.rs"])
p("C79","A CHIP session is its first message followed by the PAKE it starts","The first call always sends X || r*B; the next call panics unless the peer's message is two encoded points and otherwise starts the PAKE on alpha || beta || transcript as specified; from then on the session's calls have the same outcomes as that PAKE session's, including failed calls, and it finalizes alike; before the start, finalize panics.","every PAKE, role, password file, peer id and history of incoming messages with failed calls anywhere","unbounded histories, arbitrary peer bytes",[L+"chip.rs: run, ibke_step_1, ibke_step_2, finalize"])
p("C80","What each key exchange sends","Every message a Signed-DH, HMQV-C, FG-IBKE-C or SIGMA-R session sends is the stated concatenation: fresh public value, signatures on (role byte, session data), confirmations under their labels, certificate or id; SIGMA-R payloads are sealed under the direction key of the peer's nonce and ciphertext. Calls other than the listed ones send nothing.","every history of calls with failed calls anywhere, every coins, key material and incoming message","agreement tests pass if both sides share a mistake (a dropped session id, the same role byte or label on both sides)",[L+"ibke/id_sig_dh.rs: run",L+"ibke/id_hmqv_c.rs: run",L+"ibke/fg_ibke.rs: run",L+"ibke/id_sigma_r.rs: run"])
K="pqcrypto/pqcrypto-internals/cfiles/fips202.c: "
p("C81","The Keccak permutation is KECCAK-f[1600]","The unrolled two-rounds-per-iteration permutation computes exactly the 24-round KECCAK-f[1600] of FIPS 202, bit by bit, on every state.","every 1600-bit state","2^1600 states; a wrong rotation or lane in the unrolled code may show on few test vectors only after chi",[K+"KeccakF1600_StatePermute"])
p("C82","SHA-3 and SHAKE are FIPS 202","shake128 and shake256 write exactly the requested number of bytes of SHAKE128/SHAKE256 of the input, and sha3_256, sha3_384 and sha3_512 the 32, 48 and 64 bytes of the SHA-3 functions, for inputs and outputs of every length; no array is accessed out of bounds.","every input and output length, including every position relative to the block length","block-boundary cases for five rates and unbounded lengths",[K+"keccak_absorb, keccak_squeezeblocks, shake128, shake256, sha3_256, sha3_384, sha3_512"])
p("C83","Incremental hashing does not depend on how the data is cut","However input is cut into absorb calls and output into squeeze calls (including empty ones), the incremental functions output the same bytes as the one-shot function of FIPS 202 on the concatenated input.","every list of input pieces and every list of output lengths","all segmentations relative to block boundaries",[K+"keccak_inc_absorb, keccak_inc_finalize, keccak_inc_squeeze, shake128_inc_*, shake256_inc_*, sha3_*_inc_*"])
p("C84","Dilithium hashes with FIPS 202","The output streams from which Dilithium samples its matrix, secrets, masks and challenges, and its message digests, are those of SHAKE128 and SHAKE256 as standardised, whatever calls the bytes are absorbed and squeezed in.","every input and every sequence of squeeze calls","unbounded rejection sampling reads across block boundaries",[K+"shake256, shake256_inc_*, shake128_inc_*",D+"symmetric-shake.c"])
p("C85","Dilithium2 with its hash code: nothing left abstract","Key generation, signing, verification and opening as linked against the stateful Keccak code - every absorb, finalize, squeeze and block-by-block read included - compute exactly the algorithms over the FIPS 202 output streams; no array access is out of bounds and no signed overflow occurs; a signature made under a generated key verifies, and verify accepts exactly the signatures satisfying the specified equation and bounds.","every coins, message, signature and key bytes; every behaviour of out-of-range accesses","unbounded rejection sampling reads across block boundaries; state handed between incremental calls",[D+"sign.c: crypto_sign_keypair_det, crypto_sign_signature, crypto_sign_verify, crypto_sign_open",D+"poly.c: poly_uniform, poly_uniform_eta, poly_uniform_gamma1, poly_challenge",D+"symmetric-shake.c",K+"shake*_inc_*"])
p("C86","Outcome of every encrypted-exchange call","For any history of an encrypted exchange session, calls failed or not and with arbitrary inputs, the next call panics if its non-empty input does not authenticate under the key of this position; otherwise it ends exactly as the wrapped session's call on the opened input ends (Ok, that Err, or panic) and sends exactly that call's message sealed under the next key, or nothing if there is none. The session is done, and finalizes, when and as the wrapped session does.","every identity key exchange, key, role, history with failing calls anywhere, coins and incoming bytes","unbounded histories; arbitrary wrapped protocol and adversarial input",[L+"eue_transform.rs: EueState::run, is_done, finalize"])
p("C87","A LATKE session is its PAKE followed by the encrypted exchange","For any history of a LATKE session with arbitrary inputs: while the PAKE is not done each call is the PAKE session's call; the encrypted exchange is started with the PAKE's key, by the call after the PAKE's last message, or in the same call when the PAKE has nothing to send (an initiator then also makes its first encrypted call); afterwards each call is the encrypted session's call. The session is done exactly when the encrypted session is and finalizes only then, to the reported identity and the KDF of all bytes on the wire.","every identity key exchange, PAKE, role, peer model, pwfile, coins and sequence of incoming messages","unbounded adversarial histories; arbitrary components",[L+"latke.rs: Latke::run, is_done, finalize",L+"eue_transform.rs: EueState"])
p("C88","Message lengths and message counts are constants of the suite","In every history the successful calls of a session of each key exchange, each PAKE, the encrypted exchange and LATKE send messages of exactly the lengths of a fixed table of the role, in that order, and the session is done exactly when the table is used up. So lengths and counts on the wire do not depend on password, identity, keys, coins or the peer's messages.","every key exchange, PAKE and shipped suite, both roles, all inputs, coins and sequences of incoming messages","unbounded adversarial histories; all secrets and coins",[L+"ibke/id_sig_dh.rs: run",L+"ibke/id_hmqv_c.rs: run",L+"ibke/fg_ibke.rs: run",L+"ibke/id_sigma_r.rs: run",L+"pake/cake.rs: run",L+"pake/kc_spake2.rs: run",L+"pake/cpace.rs: run",L+"eue_transform.rs: EueState::run",L+"latke.rs: Latke::run"])
X="pqcrypto/pqclean/crypto_sign/dilithium2/avx2/"
p("C89","The AVX2 assembly transforms compute what the portable ones compute","On every machine state, the assembly ntt returns integer for integer the output of the portable ntt, in a fixed transposed order; the pointwise product agrees with the portable one on every input, also in place; transforming two polynomials, multiplying and transforming back gives their negacyclic product modulo q, with coefficients of absolute value at most 6176131; the row product is 2^-32 times the sum of four products modulo q; the reordering routine produces the order of ntt; none of them writes outside its output array.","every register and memory contents, every polynomial within the stated coefficient bounds","2^8192 inputs; shuffles and lane-dependent constants; overflow at the bounds",[X+"ntt.S: ntt_avx",X+"invntt.S: invntt_avx",X+"pointwise.S: pointwise_avx, pointwise_acc_avx",X+"shuffle.S: nttunpack_avx",X+"consts.c: qdata"])
p("C90","The AVX2 coefficient-wise functions compute the specification's rounding functions","poly_reduce keeps the class modulo q and lands in [-6283009, 6283008], poly_caddq adds q to negative coefficients, poly_add/sub/shiftl compute without wrap-around, poly_power2round and poly_decompose are Power2Round and Decompose; poly_chknorm returns 0 exactly when all coefficients are below the bound; poly_make_hint lists the positions where the portable make_hint gives 1 and writes nothing beyond 256 bytes; poly_use_hint is UseHint except where the hint is 1 and the low part is exactly 0: there it goes up where the specification and the portable code go down.","every polynomial within the stated coefficient ranges, every lane","2^32 values per lane, and the one exceptional value of use_hint lies in 44 points of 8380417",[X+"poly.c: poly_reduce, poly_caddq, poly_add, poly_sub, poly_shiftl, poly_chknorm, poly_make_hint, poly_use_hint",X+"rounding.c: power2round_avx, decompose_avx, make_hint_avx, use_hint_avx"])
p("C91","The AVX2 samplers return the portable samplers' polynomials","rej_uniform_avx and rej_eta_avx leave exactly the accepted candidates of the buffer in order, return their number, and never write beyond the 256 coefficients although they store eight lanes at a time; the four-way samplers return exactly the four polynomials of the portable samplers on the same seeds and nonces, whatever uninitialised memory contained, and return exactly when all four portable calls return.","every buffer, every stream, every seed and nonce, every contents of uninitialised memory","streams are unbounded and the boundary cases (248 to 256 accepted) are rare",[X+"rejsample.c: rej_uniform_avx, rej_eta_avx",X+"poly.c: poly_uniform_4x, poly_uniform_eta_4x, poly_uniform_gamma1_4x"])
p("C92","The AVX2 packings agree with the portable ones","polyz_unpack returns 2^17 minus the 18-bit fields of the 576 bytes, whatever lies in the bytes it over-reads; polyw1_pack writes the 192 bytes of the portable packing and otherwise changes only the 8 bytes behind them.","every byte string, every polynomial with 6-bit coefficients, every memory contents","2^4608 inputs; shuffle tables and saturating packs",[X+"poly.c: polyz_unpack, polyw1_pack"])
p("C93","AVX2 key generation and signing return the portable results","For every 32-byte seed crypto_sign_keypair of the AVX2 build returns the key pair of the portable build, and for every secret key and message its crypto_sign_signature and crypto_sign return the same bytes; this does not depend on uninitialised buffers, and each terminates exactly when the portable one does.","every seed, message, secret key of 2560 bytes, hash function, contents of uninitialised memory and registers","The rejection loop, sampling and transforms differ structurally; a mismatch may need a rare rejection or hint count.",[X+"sign.c: crypto_sign_keypair, crypto_sign_signature, crypto_sign, polyvec_matrix_expand_row0-3",X+"polyvec.c: polyvec_matrix_expand, polyvecl_pointwise_acc_montgomery"])
p("C94","What the AVX2 verification accepts, and when it agrees with the portable one","AVX2 crypto_sign_verify returns success exactly when the signature has 2420 bytes, its hint encoding is canonical and its challenge is the hash of mu and UseHint(h, Az - c t1 2^13), with no bound on z beyond its encoding; it agrees with the portable verification unless z has a coefficient of absolute value at least gamma1 - beta or a hint points to a coefficient with low part exactly 0; signatures made honestly by either build are accepted and opened by both.","every signature string of any length, message, public key of 1312 bytes, seed, hash function, uninitialised memory","Signature strings are 2420 arbitrary bytes; the two exceptions are hit with negligible probability by random tests.",[X+"sign.c: crypto_sign_verify, crypto_sign_open",X+"rounding.c: use_hint_avx"])
p("C95","There are signatures on which the AVX2 and the portable verification disagree","For every matrix seed and message there is a public key (t1 = 0) such that, for every encodable response with a coefficient of absolute value at least gamma1 - beta, a signature exists that the AVX2 build accepts and the portable build rejects; with z = 0 and one hint the AVX2 build accepts a signature that the portable build accepts only on a hash collision.","every matrix seed, message, long response, hash function","An existence claim about adversarial signatures that honest test vectors never contain.",[X+"sign.c: crypto_sign_verify (no polyvecl_chknorm)",X+"rounding.c: use_hint_avx","pqcrypto/pqclean/crypto_sign/dilithium2/clean/sign.c: crypto_sign_verify"])
p("C96","The assembly Keccak permutation of the AVX2 build is KECCAK-f[1600] on four states at once","f1600x4, executed instruction by instruction with the round constants of fips202x4.c, maps each of the four interleaved states to KECCAK-f[1600] of FIPS 202 of that state, independently of the vector registers at the call, and stores only to the 25 vectors of the state.","all states, all register contents, all four lanes","2^1600 states per lane; a wrong rotation count or a swapped register in one of 860 instructions may show only through the whole construction, and tests of hash outputs never isolate one lane from the others",[X+"f1600x4.S",X+"fips202x4.c"])
p("C97","The four-way SHAKE functions of the AVX2 build are SHAKE128 and SHAKE256 of FIPS 202 on each input","For every input length and output length, shake128x4 and shake256x4 output the SHAKE of each of the four inputs, and so do the blocks of any sequence of squeezeblocks calls after absorb_once; the bytes behind the inputs that the last 8-byte gather reads, the uninitialised state and the registers have no influence.","all inputs of every length, all output lengths and sequences of block requests, all contents of adjacent memory and registers","the over-read bytes depend on the memory layout of the caller and every length modulo 8 and modulo the rate is a separate case",[X+"fips202x4.c"])
p("C98","The four-way samplers of the AVX2 build, down to the assembly permutation, return the polynomials of the portable code","poly_uniform_4x, poly_uniform_eta_4x and poly_uniform_gamma1_4x, with buffers shared between input and output and lock-step rejection loops on the four-way SHAKE, return for every seed and nonces exactly what four calls of the portable sampler on the portable Keccak return, and end exactly when those do.","all seeds and nonces, all contents of uninitialised buffers, state and registers","rejection sampling takes more blocks than the first batch with negligible probability, so tests never run the lock-step loops",[X+"poly.c",X+"fips202x4.c",X+"f1600x4.S"])
p("C99","The two builds of Dilithium2 make the same keys and signatures but do not accept the same signatures","Linked with the hash code of the library, the AVX2 build makes for every seed, key and message the key pair, signature and signed message of the portable build; both builds accept and open every honest signature of either. Yet there is one fixed public key and one fixed 2420-byte signature on the empty message that the AVX2 build accepts and the portable build rejects, whatever uninitialised memory contains; on every string on which they differ the response is too long or a hint points at a low part of exactly 0.","all coins, keys, messages and strings of the right lengths, all contents of uninitialised buffers, state and registers","it compares two complete programs on all inputs; the disagreeing inputs do not arise from honest signing",[X+"sign.c",X+"rounding.c",X+"poly.c",X+"fips202x4.c",X+"f1600x4.S",D+"sign.c"])

p("C100","Machines with and without AVX2 interoperate, but do not reject the same forgeries","Every public function of the Dilithium2 crate asks the processor whether to run the portable or the AVX2 code. What key generation and signing return does not depend on the machine; keys made on one machine, a signature or signed message made on a second, are accepted and opened on a third. Two LATKE users running SIGMA-R with Dilithium2 and LightSaber over CAKE reach the same key and learn each other's identities even when every certificate and every protocol call is handled by a different machine. One fixed public key and signature are accepted on every machine with AVX2 and rejected on every machine without.","all machines (processor feature, undefined behaviour, uninitialised memory and registers) for each call separately, all seeds, messages, identities, passwords and session randomness for which signing terminates and the KEM noise is below its threshold","no test runs one session on many machines, and honest runs never produce the strings on which machines differ",[W+"dilithium2.rs",L+"ibke/id_sigma_r.rs",X+"sign.c",D+"sign.c",L+"latke.rs"])
p("C101","A LATKE session shows nothing of its user before the PAKE is over","As long as the PAKE answers with messages, a LATKE session sends exactly the messages the PAKE alone sends on the same input, coins and incoming messages, is not done and has no output; if the PAKE fails the session panics. Two users of the same password with post-specified peers therefore send the same messages whatever their identities, certificates and secret keys; with a pre-specified peer only the two identities enter, through the PAKE input.","every key exchange, PAKE, password file, role, session id, coins and list of incoming messages","independence from all secrets and certificates over unbounded adversarial histories",[L+"latke.rs: new_session, run"])
p("C102","SIGMA-R sessions with keys of two signature schemes","Both SIGMA-R session types take keys and certificates of either signature scheme. A session given values of one scheme only behaves in every history exactly as the session of that scheme, whichever of the two types it was started as. The panic on a signature of the wrong scheme is unreachable, whatever a session was given. A peer never accepts an identity message whose signing key, certified key or certificate signature is of another scheme than the peer's main public key.","every combination of schemes for main public key, certificate, certificate signature and signing key; every history of both sessions, all coins and incoming messages","mixed keys typecheck, so the claim is over all combinations, histories and adversarial messages; the crate's tests use one scheme per run",[L+"ibke/id_sigma_r.rs: IdSigmaR::run, IdSigmaPubkey::verify, SigmaCert::from_bytes, IdSigmaREd25519, IdSigmaRDilithium2"])
p("C103","There are honest LightSaber exchanges that fail, and CAKE then ends with two different keys","With SHAKE128 as standardised there are explicit coins of an honest key generation and encapsulation for which the rounding noise is far within what LightSaber tolerates (8*71 of 8*192), and yet decapsulation returns a secret that differs from the encapsulated one, in bit 117 and only there, whether or not the public key was serialised in between. An honest CAKE run with these coins ends on both sides without an error and with different keys, for every password, session id and choice of the other primitives; an honest SIGMA-R run has its third message rejected with a MAC error unless two different secrets give colliding HMAC tags. Two honest LATKE users over CAKE with these coins and the same password never complete: the responder panics on the first encrypted message, unless its tag is right under the keys of two different PAKE keys.","one explicit choice of KEM coins; every password, session id, identity, certificate, signature scheme, all other coins and all other primitives","about one exchange in 400000 fails, so tests that draw their own coins pass; that the failure is the packing defect and not noise needs the noise at all 256 positions",[S+"poly.rs: read_bytes_3bit",S+"generic.rs: indcpa_kem_enc, indcpa_kem_dec, decapsulate_ind_cpa",L+"pake/cake.rs: Cake::run",L+"ibke/id_sigma_r.rs: IdSigmaR::run"])
p("C104","An encrypted message is accepted only at the position it was made for: no replay, reflection or mixing of sessions","Take any encrypted (EUE or LATKE) session after any history of calls, successful or failed. A non-empty encrypted message that it received or sent in any earlier call and that is delivered to it again makes the call panic, unless the message's tag is right under the MAC keys of two different positions of its key chain. A message sent by another session - any key, session id, role, users, protocols and history - makes it panic, unless the tag is right under the sender's key for the position it was sent at and under the receiver's key for the position it is delivered at. If the PAKE ends on both sides with different keys, the two LATKE users never complete: the responder panics on the first encrypted message, unless its tag is right under both first keys.","every wrapped key exchange, PAKE and symmetric primitives, every two sessions with their keys, session ids, roles and histories, every earlier message and position of redelivery, all coins","the crate has no test that redelivers a message; the claim is over all histories and pairs of positions, and over failed calls that move the key chain by one instead of two",[L+"eue_transform.rs: EueState::run, EueState::ratchet_keys, EueState::new_session",L+"latke.rs: Latke::run",L+"auth_enc.rs: auth_decrypt"])
N="pqcrypto/pqclean/crypto_sign/dilithium2/aarch64/"
p("C105","The NEON transforms and polynomial arithmetic of the aarch64 build are the number-theoretic transform and the arithmetic modulo q","Whatever registers and memory contain, the assembly routines compute: the values of the polynomial at the odd powers of 1753 (in the order of the portable transform), the inverse transform, Montgomery products pointwise and summed over a row, reductions, conditional addition of q, Power2Round and the 10-bit unpacking, with the stated bounds on sizes; transform-multiply-invert is the negacyclic product. Outside their output arrays memory is unchanged.","all coefficient vectors within the stated bounds, all contents of registers and of the rest of memory","2^8192 inputs; an overflow in one butterfly shows up only for particular combinations of large coefficients",[N+"__asm_NTT.S",N+"__asm_iNTT.S",N+"__asm_poly.S",N+"ntt.c",N+"poly.c",N+"macros.inc"])
p("C106","The two-way samplers of the aarch64 build agree with the portable samplers, except when more than six SHAKE blocks are needed","Sampling two matrix entries at once gives the entries of the portable sampler whenever the first six blocks of each stream contain 256 acceptable candidates; the masking vectors always agree. If six blocks are not enough the sampler reads old blocks again: there are streams on which the portable sampler returns 200 zeros and 56 ones and the aarch64 sampler 256 zeros.","all seeds, nonces and hash outputs","the deviating streams have probability far below 2^-100, so no test meets one",[N+"poly.c",N+"polyvec.c",D+"poly.c"])
p("C107","The aarch64 build of Dilithium2 makes the keys and signatures of the portable build and gives the same verdicts","For all coins, secret keys and messages, and for all byte strings as signature, signed message and (full-length) public key, the aarch64 code returns exactly what the portable code returns, provided six SHAKE blocks suffice for each matrix entry of the key's seed. Keys, signatures and verification of the two builds can be mixed and honest signatures are accepted. The aarch64 code with itself needs no such condition.","all coins, keys, messages, signature strings, all register and memory contents","it compares two complete programs, with different reductions at every step, on all inputs including malformed keys and signatures",[N+"sign.c",N+"polyvec.c",N+"poly.c",N+"__asm_NTT.S",N+"__asm_iNTT.S",N+"__asm_poly.S",D+"sign.c"])
p("C108","poly_freeze of the aarch64 build rewrites 32 words behind the polynomial","The assembly routine behind poly_freeze runs one iteration too many: it reads and overwrites 288 words, replacing each of the 32 words behind the 256 coefficients by its representative modulo q. (Signing and verification do not call it.)","all contents of the polynomial and of the memory behind it","the test suite does not call the function, and a call on a polynomial inside a vector damages data that a test of the result does not look at",[N+"__asm_poly.S",N+"poly.c",N+"polyvec.c"])
p("C109","The two-way Keccak permutation of the aarch64 build is KECCAK-f[1600] in both lanes, with and without the SHA3 instructions","Both versions of the permutation (the assembly for processors with the SHA3 instructions and the intrinsics without) apply the KECCAK-f[1600] of FIPS 202 to each of the two states, whatever the registers hold; they return the same state and write nothing behind it.","all pairs of states, all register contents, both versions","pairs of 1600-bit states cannot be enumerated, and a test binary contains only one of the two versions",[N+"feat.S",N+"fips202x2.c: KeccakF1600_StatePermutex2"])
p("C110","The two-way SHAKE functions of the aarch64 build compute SHAKE128 and SHAKE256 of each input","shake128x2 and shake256x2 return, for inputs and outputs of every length, SHAKE of each of the two inputs; absorbing and then squeezing blocks in any number of calls returns consecutive parts of the same streams; registers, uninitialised state and the bytes behind the inputs (which are read) have no influence.","all pairs of inputs of equal length, all output lengths, all sequences of squeeze calls, all memory contents","input and output lengths and the sequence of calls are unbounded, and the over-read makes results depend on memory contents if the masking is wrong",[N+"fips202x2.c"])
p("C111","The aarch64 build of Dilithium2 linked with its hash code: same results as the portable build, and free of undefined behaviour","With the hash code that is linked in, no function left as a parameter: keys, signatures, verdicts and opened messages equal those of the portable program if six SHAKE128 blocks suffice for each matrix entry of the key, and honest signatures are accepted in every mixture of the two programs; without that condition the aarch64 program still accepts its own signatures, and nothing it returns depends on registers, uninitialised memory, bytes behind buffers, or on what undefined operations do.","all coins, messages, signature strings, keys of the right length, all machine states","two complete programs are compared on all inputs; a dependence on uninitialised memory shows up only for particular memory contents",[N+"sign.c",N+"poly.c",N+"polyvec.c",N+"fips202x2.c",N+"feat.S",D+"sign.c"])
p("C112","Dilithium2 and LATKE as shipped work across x86_64 and aarch64 machines","Keys made on one machine, by keypair or keypair_det, signatures made on a second and verified on a third, x86_64 with or without AVX2 or aarch64, are accepted, if six SHAKE128 blocks suffice for the matrix of the key; keypair_det returns the same keys on all machines; aarch64 machines verify like x86_64 machines without AVX2; a SIGMA-R or LATKE session succeeds even if every certificate and every call is handled by a different machine. Some signatures are accepted with AVX2 only.","all machines and machine states, coins, messages, identities, sessions","a test runs on one machine",[W+"dilithium2.rs: keypair_det, keypair, sign, open, detached_sign, verify_detached_signature","pqcrypto/pqcrypto-dilithium/build.rs",L+"ibke/id_sigma_r.rs",N+"sign.c"])
D3="pqcrypto/pqclean/crypto_sign/dilithium3/clean/"
D5="pqcrypto/pqclean/crypto_sign/dilithium5/clean/"
p("C113","Dilithium3/5 rounding and hints","For dilithium3 and dilithium5, decompose is the specification's Decompose with alpha = 2*gamma2 = 523776: a = a1*alpha + a0 mod q with 0 <= a1 < 16 and a0 centered, with the documented exception of the top interval, and no other pair qualifies; the hint made by the signer leads the verifier back to the signer's high bits, and use_hint is the specification's UseHint.","all coefficients below q, all perturbations below alpha","q possible coefficients times all perturbations",[D3+"rounding.c: decompose, make_hint, use_hint",D5+"rounding.c: decompose, make_hint, use_hint"])
p("C114","Dilithium3/5 formats","Each coefficient format of dilithium3 and dilithium5 is the sequence of little-endian bit fields of its offset coefficients; packing and unpacking of polynomials, public keys, secret keys and signatures are inverse in both directions; the signature decoder accepts exactly the canonical hint encodings, returns what they denote, and no two strings decode to the same signature.","all polynomials in range, all byte strings of the right size","the domains have 2^1600 elements and more",[D3+"packing.c: pack_pk, unpack_pk, pack_sk, unpack_sk, pack_sig, unpack_sig",D3+"poly.c: polyeta_pack, polyeta_unpack, polyz_pack, polyz_unpack, polyw1_pack",D5+"packing.c",D5+"poly.c"])
p("C115","Dilithium3/5: signatures verify; malformed ones do not","For dilithium3 and dilithium5: a signature made under a generated key is accepted, a signed message opens to the message, keys and signatures have the advertised sizes; verification answers no on a wrong length, a non-canonical hint or a z coefficient of gamma1 - beta or more; opening returns only the part after a verified signature.","all seeds, messages, signatures, keys, hash functions","signatures are randomised by the message and all messages cannot be tried",[D3+"sign.c: crypto_sign_keypair_det, crypto_sign_signature, crypto_sign_verify, crypto_sign, crypto_sign_open",D5+"sign.c"])
p("C116","Dilithium3/5 samplers and challenge","poly_uniform_eta returns 4 - t for the first 256 nibbles t < 9 of the stream (dilithium3), 2 - t mod 5 for the first 256 nibbles t < 15 (dilithium5); the mask is read from 20-bit fields; the challenge has exactly tau coefficients +-1 and is SampleInBall of the hash of the first 32 bytes of the challenge seed: the remaining 16 (dilithium3) or 32 (dilithium5) bytes do not influence it.","all streams, seeds and nonces","rejection sampling: the number of bytes consumed is unbounded",[D3+"poly.c: rej_eta, poly_uniform_eta, poly_uniform_gamma1, poly_challenge",D5+"poly.c: rej_eta, poly_uniform_eta, poly_uniform_gamma1, poly_challenge"])
p("C117","Dilithium3/5 compute the published algorithms","Key generation outputs the encodings of (rho, t1) and (rho, K, tr, s1, s2, t0) for (t1, t0) = Power2Round(A s1 + s2); signing outputs the first attempt that meets the specification's conditions; verification of a well-formed signature is equality of the challenge seed with the hash of mu and UseHint(h, A z - c t1 2^13).","all seeds, messages, keys, signatures, hash functions","a test vector fixes one seed",[D3+"sign.c: crypto_sign_keypair_det, crypto_sign_signature, crypto_sign_verify",D5+"sign.c",D3+"polyvec.c",D5+"polyvec.c"])
p("C118","Dilithium3/5: no undefined behaviour","Key generation, signing, verification and opening of dilithium3 and dilithium5 give results that do not depend on what a signed overflow or an out-of-bounds read would do.","all seeds, messages, byte strings of key size, signature strings of any length","undefined behaviour may look right in every test",[D3+"sign.c",D3+"reduce.c",D3+"ntt.c",D3+"poly.c",D3+"rounding.c",D3+"packing.c",D5+"sign.c"])
p("C119","The Rust interface of Dilithium3/5","from_bytes of keys accepts exactly the right length and keeps the bytes; key equality is equality of bytes; a detached signature is any string up to the signature size, shorter ones are rejected by verification; verify_detached_signature is the C verification of exactly the given bytes and never reports an unknown error; detached and attached signatures under a generated key verify, also after serialisation, and the attached form is the detached signature followed by the message.","all byte strings, coins, messages","all lengths and contents",[W+"dilithium3.rs: PublicKey, SecretKey, DetachedSignature, keypair_det, sign, open, detached_sign, verify_detached_signature",W+"dilithium5.rs: PublicKey, SecretKey, DetachedSignature, keypair_det, sign, open, detached_sign, verify_detached_signature"])
N3="pqcrypto/pqclean/crypto_sign/dilithium3/aarch64/"
N5="pqcrypto/pqclean/crypto_sign/dilithium5/aarch64/"
p("C120","The NEON inner product of dilithium3 and dilithium5","Whatever registers and memory contain, the assembly routine for the product of a matrix row with a vector (5 entries for dilithium3, 7 for dilithium5) returns 2^-32 times the sum of the products modulo q, of absolute value at most q, and writes nothing outside its output. The masking vectors (pairs, then a single last one) are those of the portable code.","all vectors within the stated bounds, all contents of registers and of the rest of memory, all seeds and nonces","2^81920 inputs; overflow of the 64-bit accumulators shows only at extreme values",[N3+"__asm_poly.S: polyvecl_pointwise_acc_montgomery",N5+"__asm_poly.S",N3+"polyvec.c: polyvecl_pointwise_acc_montgomery, polyvecl_uniform_gamma1",N5+"polyvec.c"])
p("C121","The aarch64 builds of dilithium3 and dilithium5 make the keys and signatures of the portable builds and give the same verdicts","For all coins, secret keys and messages, and for all byte strings as signature, signed message and (full-length) public key, the aarch64 code returns exactly what the portable code returns, provided six SHAKE blocks suffice for each matrix entry of the key's seed. Keys, signatures and verification of the two builds can be mixed and honest signatures are accepted. The aarch64 code with itself needs no such condition, and nothing it returns depends on registers, other memory or undefined operations.","both parameter sets, all coins, keys, messages, signature strings, all register and memory contents","it compares two complete programs on all inputs",[N3+"sign.c",N3+"poly.c",N3+"polyvec.c",N3+"packing.c",N5+"sign.c",N5+"poly.c",N5+"polyvec.c"])
X3="pqcrypto/pqclean/crypto_sign/dilithium3/avx2/"
X5="pqcrypto/pqclean/crypto_sign/dilithium5/avx2/"
p("C122","AVX2 rounding of dilithium3 and dilithium5","The AVX2 decompose is the specification's Decompose on standard representatives; UseHint is the specification's except exactly where the hint is 1 and the low part is 0, where the AVX2 code goes up instead of down; make_hint lists in increasing order the positions of the coefficients for which the portable make_hint gives 1, and never writes beyond its 256 bytes.","all polynomials of standard representatives, all hint polynomials, all inputs of make_hint without the most negative integer","8380417 values per coefficient, and the two implementations of UseHint differ only at 16 of them",[X3+"rounding.c: decompose_avx, use_hint_avx, make_hint_avx",X5+"rounding.c: decompose_avx, use_hint_avx, make_hint_avx"])
p("C123","AVX2 packings and samplers of dilithium3 and dilithium5","polyz_unpack returns 2^19 minus the 20-bit fields of the 640 bytes, whatever lies in the bytes it over-reads; polyw1_pack writes the 128 bytes of the portable packing and nothing else; rej_eta_avx of dilithium3 leaves exactly the accepted nibbles in order and writes no cell beyond the polynomial; the four-way samplers and the single mask sampler return exactly the portable samplers' polynomials whatever uninitialised memory contained, and return exactly when all four portable calls return.","every buffer, stream, seed and nonce, every contents of uninitialised memory","streams are unbounded and the boundary cases of the vector loops are rare",[X3+"rejsample.c: rej_eta_avx",X3+"poly.c: poly_uniform_eta_4x, poly_uniform_gamma1_4x, poly_uniform_gamma1, polyz_unpack, polyw1_pack",X5+"rejsample.c: rej_eta_avx",X5+"poly.c"])
p("C124","What the AVX2 verifications of dilithium3 and dilithium5 accept, and when they agree with the portable ones","Each AVX2 matrix expansion returns the portable matrix row by row; AVX2 crypto_sign_verify returns success exactly when the signature has the right length, its hint encoding is canonical and its challenge is the hash of mu and UseHint(h, Az - c t1 2^13), with no bound on z beyond its encoding; the result does not depend on uninitialised memory; it agrees with the portable verification unless z has a coefficient of absolute value at least gamma1 - beta or a hint points to a coefficient with low part exactly 0; honest signatures are accepted and opened; crypto_sign_open returns a message exactly when its signature is accepted.","every signature string of any length, message, public key, seed, hash function, contents of uninitialised memory and registers, both parameter sets","Signature strings are thousands of arbitrary bytes; the two exceptions are hit with negligible probability by random tests, and each of the 6 or 8 matrix rows has its own hand-written buffer schedule.",[X3+"sign.c: crypto_sign_verify, crypto_sign_open, polyvec_matrix_expand_row0-5",X5+"sign.c: crypto_sign_verify, crypto_sign_open, polyvec_matrix_expand_row0-7",X3+"polyvec.c: polyvec_matrix_expand, polyvecl_pointwise_acc_montgomery",X5+"polyvec.c"])
p("C125","There are dilithium3 and dilithium5 signatures on which the AVX2 and the portable verification disagree","For every matrix seed and message there is a public key (t1 = 0) such that, for every encodable response with a coefficient of absolute value at least gamma1 - beta, a signature exists that the AVX2 build accepts and the portable build rejects; with z = 0 and one hint the AVX2 build accepts a signature that the portable build accepts only on a hash collision.","every matrix seed, message, long response, hash function, both parameter sets","An existence claim about adversarial signatures that honest test vectors never contain.",[X3+"sign.c: crypto_sign_verify (no polyvecl_chknorm)",X5+"sign.c: crypto_sign_verify (no polyvecl_chknorm)",X3+"rounding.c: use_hint_avx",X5+"rounding.c: use_hint_avx"])
p("C126","AVX2 key generation and signing of dilithium3 and dilithium5 return the portable results","For every 32-byte seed crypto_sign_keypair of the AVX2 build returns the key pair of the portable build, and for every secret key and message its crypto_sign_signature and crypto_sign return the same bytes; nothing depends on uninitialised buffers; each terminates exactly when the portable one does and the surplus hash streams it reads (two matrix streams of dilithium3, one stream of the secret vectors) give a polynomial; what the AVX2 build signs with its own keys is accepted and opened by both builds.","every seed, message, secret key, hash function, contents of uninitialised memory and registers, both parameter sets","The rejection loop, the hint loop and the row-wise key generation differ structurally from the portable code; a mismatch may need a rare rejection or hint count, and each matrix row has its own buffer schedule.",[X3+"sign.c: crypto_sign_keypair, crypto_sign_signature, crypto_sign",X5+"sign.c: crypto_sign_keypair, crypto_sign_signature, crypto_sign",X3+"polyvec.c: polyvec_matrix_expand",X5+"polyvec.c: polyvec_matrix_expand"])
p("C127","Dilithium3 and dilithium5 with their hash code: nothing left abstract","Key generation, signing, verification and opening of dilithium3 and dilithium5 as linked against the stateful Keccak code compute exactly the algorithms over the FIPS 202 output streams; no array access is out of bounds and no signed overflow occurs; a signature made under a generated key verifies and opens; verify accepts exactly the well-formed signatures whose challenge seed is the SHAKE256 digest the specification asks for.","every coins, message, signature and key bytes, both parameter sets; every behaviour of out-of-range accesses","Rejection sampling reads an unbounded number of blocks and state is handed between incremental calls; the two parameter sets squeeze different numbers of blocks and hash challenge seeds of different lengths.",[D3+"sign.c: crypto_sign_keypair_det, crypto_sign_signature, crypto_sign_verify, crypto_sign_open",D5+"sign.c: crypto_sign_keypair_det, crypto_sign_signature, crypto_sign_verify, crypto_sign_open",D3+"poly.c: poly_uniform_eta, poly_uniform_gamma1, poly_challenge",D5+"poly.c: poly_uniform_eta, poly_uniform_gamma1, poly_challenge",K+"shake*_inc_*"])
p("C128","Dilithium3 and dilithium5 as shipped work across x86_64 and aarch64 machines","What the Rust functions keypair, keypair_det, sign and detached_sign return on x86_64 with or without AVX2 or on aarch64 is what they return with the portable code (keypair_det always; on aarch64 the others if six SHAKE blocks suffice for the matrix entries); keys made on one machine, a signature made on a second, are accepted and the signed message opens on a third; aarch64 machines among themselves need no condition; on every machine verification is the C verification of exactly the given bytes and short signatures are rejected; some signatures are accepted on machines with AVX2 and on no others.","every machine (AVX2 or not, contents of registers and uninitialised memory, undefined behaviour), seed, message, key and signature bytes, both parameter sets, every hash function","Three implementations of every function are linked and chosen at run or compile time; tests run on one machine, and the three differ in structure and in what they accept.",["pqcrypto/pqcrypto-dilithium/src/dilithium3.rs: keypair, keypair_det, sign, open, detached_sign, verify_detached_signature","pqcrypto/pqcrypto-dilithium/src/dilithium5.rs: keypair, keypair_det, sign, open, detached_sign, verify_detached_signature","pqcrypto/pqcrypto-dilithium/build.rs"])
with open('/verif/properties.jsonl','w') as f:
    for x in P: f.write(json.dumps(x)+"\n")
print(len(P))
