{
 "C09": {
  "note": "The documented behaviour is false of the code: a failed decryption panics, real mode is never left. The theorems prove what the code does."
 },
 "C16": {
  "note": "The expected property is false of the code; its negation is proved for every PAKE/IBKE (odd-length PAKE), and the part that holds is proved as _partial.",
  "status": "proved"
 },
 "C18": {
  "also": [
   "Verif.Props.C12_agreement_initiator_ends_pake",
   "Verif.Props.C12_agreement_responder_ends_pake"
  ],
  "note": "The number of calls is part of the C12 statements."
 },
 "C46": {
  "note": "The natural property is false of the code: the exact behaviour of the 3-bit packing is proved, with its failure to round-trip and a collision."
 },
 "C53": {
  "note": "The loss of the LightSaber threshold at positions = 5 mod 8 is proved: 64 suffices (C53_light_bit5), and a 65-away value is decoded wrongly (C53_defect_flips_bit)."
 },
 "C52": {
  "note": "The noise is stated over the integers, with textbook negacyclic products; no probability statement about the noise is made."
 },
 "C56": {
  "note": "Two documented bounds fail at one end point each, and this is proved: montgomery_reduce(2^31*q) = q although the comment promises r < q (C56_montgomery_endpoint), and reduce32(2^31-2^22-1) = 6283008 although the comment promises at most 6283007 (C56_reduce32_endpoint). The theorems state the exact bounds that hold."
 },
 "C58": {
  "note": "C58_useHint_makeHint is the lemma for make_hint(a0, a1) as the C signer calls it; C58_spec_lemma is the specification's UseHint(MakeHint(-z, r), r) statement."
 },
 "C59": {
  "note": "ntt is proved to be evaluation at the odd powers of 1753 (bit-reversed), invntt_tomont its inverse up to the Montgomery factor, the product the negacyclic product."
 },
 "C62": {
  "note": "For every SHAKE function and seed; sampling loops are modelled as partial (Option) functions, with completion characterised in C64/C65 and the toy SHAKE showing that runs exist."
 },
 "C67": {
  "note": "Stated against lean/Verif/Dilithium/Spec.lean, which is written from the Dilithium specification and does not mention the C model."
 },
 "C68": {
  "note": "The model is parametric in a CSem record that says what overflow and out-of-bounds reads return; the theorem is independence of that record."
 },
 "C116": {
  "note": "The models of the two parameter sets share one text with the mode as a parameter. The specification's SampleInBall is stated on the 32-byte prefix the code hashes (poly_challenge is called with the seed, but absorbs SEEDBYTES = 32 bytes of it)."
 }
}