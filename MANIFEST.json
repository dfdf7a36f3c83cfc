{
 "claims": [
  {
   "property": "C01",
   "status": "proved",
   "theorems": [
    "Verif.Props.C01_authenc_roundtrip"
   ],
   "note": ""
  },
  {
   "property": "C02",
   "status": "proved",
   "theorems": [
    "Verif.Props.C02_authenc_length"
   ],
   "note": ""
  },
  {
   "property": "C03",
   "status": "proved",
   "theorems": [
    "Verif.Props.C03_accept_implies_valid_tag",
    "Verif.Props.C03_wrong_tag_rejected",
    "Verif.Props.C03_tamper_accept_is_forgery"
   ],
   "note": ""
  },
  {
   "property": "C04",
   "status": "proved",
   "theorems": [
    "Verif.Props.C04_decrypt_panics_iff_short"
   ],
   "note": ""
  },
  {
   "property": "C05",
   "status": "proved",
   "theorems": [
    "Verif.Props.C05_decrypt_encrypt",
    "Verif.Props.C05_encrypt_decrypt",
    "Verif.Props.C05_bijection"
   ],
   "note": ""
  },
  {
   "property": "C06",
   "status": "proved",
   "theorems": [
    "Verif.Props.C06_encrypt_length",
    "Verif.Props.C06_decrypt_length",
    "Verif.Props.C06_encrypt_panics_iff",
    "Verif.Props.C06_decrypt_panics_iff"
   ],
   "note": ""
  },
  {
   "property": "C07",
   "status": "proved",
   "theorems": [
    "Verif.Props.C07_eue_transparent_success",
    "Verif.Props.C07_eue_transparent_failure"
   ],
   "note": ""
  },
  {
   "property": "C08",
   "status": "proved",
   "theorems": [
    "Verif.Props.C08_only_authenticated_input"
   ],
   "note": ""
  },
  {
   "property": "C09",
   "status": "proved",
   "theorems": [
    "Verif.Props.C09_real_mode_invariant",
    "Verif.Props.C09_decryption_failure_panics",
    "Verif.Props.C09_never_leaves_real_mode"
   ],
   "note": "The documented behaviour is false of the code: a failed decryption panics, real mode is never left. The theorems prove what the code does."
  },
  {
   "property": "C10",
   "status": "proved",
   "theorems": [
    "Verif.Props.C10_ratchet_sync",
    "Verif.Props.C10_indices_match"
   ],
   "note": ""
  },
  {
   "property": "C11",
   "status": "proved",
   "theorems": [
    "Verif.Props.C11_fg_empty_no_progress",
    "Verif.Props.C11_hmqv_empty_no_progress",
    "Verif.Props.C11_sigdh_empty_no_progress",
    "Verif.Props.C11_sigma_empty_no_progress"
   ],
   "note": ""
  },
  {
   "property": "C12",
   "status": "proved",
   "theorems": [
    "Verif.Props.C12_composed_odd",
    "Verif.Props.C12_composed_even",
    "Verif.Props.C12_sigdh_kcspake2",
    "Verif.Props.C12_hmqv_kcspake2",
    "Verif.Props.C12_fg_kcspake2",
    "Verif.Props.C12_sigma_cake_signed",
    "Verif.Props.C12_sigma_cake",
    "Verif.Props.C12_sigma_cpace",
    "Verif.Props.C12_agreement_initiator_ends_pake",
    "Verif.Props.C12_agreement_responder_ends_pake",
    "Verif.Props.C12_sigma_cake_lightsaber"
   ],
   "note": ""
  },
  {
   "property": "C13",
   "status": "proved",
   "theorems": [
    "Verif.Props.C13_key_is_kdf_of_wire",
    "Verif.Props.C13_key_binds_transcript",
    "Verif.Props.C13_only_concatenation_bound"
   ],
   "note": ""
  },
  {
   "property": "C14",
   "status": "proved",
   "theorems": [
    "Verif.Props.C14_fg_cert_verifies",
    "Verif.Props.C14_hmqv_cert_verifies",
    "Verif.Props.C14_mpk_from_password",
    "Verif.Props.C14_cert_is_extracted",
    "Verif.Props.C14_sigdh_cert_verifies",
    "Verif.Props.C14_sigma_cert_verifies"
   ],
   "note": ""
  },
  {
   "property": "C15",
   "status": "proved",
   "theorems": [
    "Verif.Props.C15_pake_input_pre",
    "Verif.Props.C15_pake_input_models_disjoint",
    "Verif.Props.C15_pake_input_injective"
   ],
   "note": ""
  },
  {
   "property": "C16",
   "status": "proved",
   "theorems": [
    "Verif.Props.C16_sigma_cake_insider",
    "Verif.Props.C16_reported_id_is_ibke_id",
    "Verif.Props.C16_prespecified_peer_not_enforced"
   ],
   "note": "The expected property is false of the code; its negation is proved for every PAKE/IBKE (odd-length PAKE), and the part that holds is proved as _partial."
  },
  {
   "property": "C17",
   "status": "proved",
   "theorems": [
    "Verif.Props.C17_ibke_only_after_pake",
    "Verif.Props.C17_pakes_done_when_silent"
   ],
   "note": ""
  },
  {
   "property": "C18",
   "status": "proved",
   "theorems": [
    "Verif.Props.C12_agreement_initiator_ends_pake",
    "Verif.Props.C12_agreement_responder_ends_pake"
   ],
   "note": "The number of calls is part of the C12 statements."
  },
  {
   "property": "C19",
   "status": "proved",
   "theorems": [
    "Verif.Props.C19_no_return_after_error"
   ],
   "note": ""
  },
  {
   "property": "C20",
   "status": "proved",
   "theorems": [
    "Verif.Props.C20_cake_agreement",
    "Verif.Props.C20_cake_lightsaber"
   ],
   "note": ""
  },
  {
   "property": "C21",
   "status": "proved",
   "theorems": [
    "Verif.Props.C21_cake_input_validation"
   ],
   "note": ""
  },
  {
   "property": "C22",
   "status": "proved",
   "theorems": [
    "Verif.Props.C22_cpace_agreement",
    "Verif.Props.C22_password_encoding_injective",
    "Verif.Props.C22_responder_key"
   ],
   "note": ""
  },
  {
   "property": "C23",
   "status": "proved",
   "theorems": [
    "Verif.Props.C23_kcspake2_agreement"
   ],
   "note": ""
  },
  {
   "property": "C24",
   "status": "proved",
   "theorems": [
    "Verif.Props.C24_kcspake2_confirmed_initiator",
    "Verif.Props.C24_kcspake2_confirmed_responder"
   ],
   "note": ""
  },
  {
   "property": "C25",
   "status": "proved",
   "theorems": [
    "Verif.Props.C25_cake_finalize_iff_done",
    "Verif.Props.C25_cpace_finalize_iff_done",
    "Verif.Props.C25_kcspake2_key_before_done_responder",
    "Verif.Props.C25_kcspake2_key_after_failure_initiator"
   ],
   "note": ""
  },
  {
   "property": "C26",
   "status": "proved",
   "theorems": [
    "Verif.Props.C26_cake_one_shot",
    "Verif.Props.C26_cpace_one_shot",
    "Verif.Props.C26_kcspake2_one_shot"
   ],
   "note": ""
  },
  {
   "property": "C27",
   "status": "proved",
   "theorems": [
    "Verif.Props.C27_responder_unlimited_guesses",
    "Verif.Props.C27_initiator_single_guess"
   ],
   "note": ""
  },
  {
   "property": "C28",
   "status": "proved",
   "theorems": [
    "Verif.Props.C28_sigdh_agreement"
   ],
   "note": ""
  },
  {
   "property": "C29",
   "status": "proved",
   "theorems": [
    "Verif.Props.C29_hmqv_agreement"
   ],
   "note": ""
  },
  {
   "property": "C30",
   "status": "proved",
   "theorems": [
    "Verif.Props.C30_fg_agreement"
   ],
   "note": ""
  },
  {
   "property": "C31",
   "status": "proved",
   "theorems": [
    "Verif.Props.C31_sigma_lightsaber",
    "Verif.Props.C31_sigma_agreement_signed",
    "Verif.Props.C31_sigma_agreement"
   ],
   "note": ""
  },
  {
   "property": "C32",
   "status": "proved",
   "theorems": [
    "Verif.Props.C32_hmqv_cert_roundtrip",
    "Verif.Props.C32_sigdh_cert_roundtrip",
    "Verif.Props.C32_sigma_cert_roundtrip"
   ],
   "note": ""
  },
  {
   "property": "C33",
   "status": "proved",
   "theorems": [
    "Verif.Props.C33_sigdh_authentication_initiator",
    "Verif.Props.C33_sigdh_authentication_responder"
   ],
   "note": ""
  },
  {
   "property": "C34",
   "status": "proved",
   "theorems": [
    "Verif.Props.C34_sigma_authentication_initiator",
    "Verif.Props.C34_sigma_authentication_responder"
   ],
   "note": ""
  },
  {
   "property": "C35",
   "status": "proved",
   "theorems": [
    "Verif.Props.C35_hmqv_authentication_initiator",
    "Verif.Props.C35_hmqv_authentication_responder"
   ],
   "note": ""
  },
  {
   "property": "C36",
   "status": "proved",
   "theorems": [
    "Verif.Props.C36_fg_confirmation_initiator",
    "Verif.Props.C36_fg_confirmation_responder"
   ],
   "note": ""
  },
  {
   "property": "C37",
   "status": "proved",
   "theorems": [
    "Verif.Props.C37_sigdh_roles_disjoint",
    "Verif.Props.C37_sigdh_no_reflection",
    "Verif.Props.C37_sigma_roles_disjoint",
    "Verif.Props.C37_sigma_no_reflection"
   ],
   "note": ""
  },
  {
   "property": "C38",
   "status": "proved",
   "theorems": [
    "Verif.Props.C38_C39_fg_sim_panics",
    "Verif.Props.C38_hmqv_sim_matches",
    "Verif.Props.C38_C39_sigdh_sim_matches",
    "Verif.Props.C38_sigma_sim_sizes"
   ],
   "note": ""
  },
  {
   "property": "C39",
   "status": "proved",
   "theorems": [
    "Verif.Props.C38_C39_fg_sim_panics",
    "Verif.Props.C39_hmqv_sim_never_done",
    "Verif.Props.C38_C39_sigdh_sim_matches",
    "Verif.Props.C39_sigdh_sim_completes",
    "Verif.Props.C39_sigma_sim_completes"
   ],
   "note": ""
  },
  {
   "property": "C40",
   "status": "proved",
   "theorems": [
    "Verif.Props.C40_fg_output_before_done_responder",
    "Verif.Props.C40_fg_output_after_bad_mac_initiator",
    "Verif.Props.C40_fg_waiting_state",
    "Verif.Props.C40_hmqv_output_before_done_responder",
    "Verif.Props.C40_hmqv_output_after_bad_mac_initiator",
    "Verif.Props.C40_sigdh_finalize_iff_done",
    "Verif.Props.C40_sigma_output_after_bad_certificate",
    "Verif.Props.C40_sigma_output_after_bad_certificate_responder"
   ],
   "note": ""
  },
  {
   "property": "C41",
   "status": "proved",
   "theorems": [
    "Verif.Props.C41_fg_one_shot",
    "Verif.Props.C41_hmqv_one_shot",
    "Verif.Props.C41_sigdh_one_shot",
    "Verif.Props.C41_sigma_one_shot"
   ],
   "note": ""
  },
  {
   "property": "C42",
   "status": "proved",
   "theorems": [
    "Verif.Props.C42_C43_chip_pake_inputs",
    "Verif.Props.C42_chip_agreement",
    "Verif.Props.C42_chip_kcspake2"
   ],
   "note": ""
  },
  {
   "property": "C43",
   "status": "proved",
   "theorems": [
    "Verif.Props.C42_C43_chip_pake_inputs",
    "Verif.Props.C43_chip_transcript_initiator",
    "Verif.Props.C43_chip_transcript_responder"
   ],
   "note": ""
  },
  {
   "property": "C44",
   "status": "proved",
   "theorems": [
    "Verif.Props.C44_chip_binds_peer",
    "Verif.Props.C44_chip_binds_password"
   ],
   "note": ""
  },
  {
   "property": "C45",
   "status": "proved",
   "theorems": [
    "Verif.Props.C45_unpack_pack",
    "Verif.Props.C45_pack_unpack",
    "Verif.Props.C45_vectors",
    "Verif.Props.C45_messages"
   ],
   "note": ""
  },
  {
   "property": "C46",
   "status": "proved",
   "theorems": [
    "Verif.Props.C46_unpack_pack3",
    "Verif.Props.C46_packing3_not_injective",
    "Verif.Props.C46_packing3_collision"
   ],
   "note": "The natural property is false of the code: the exact behaviour of the 3-bit packing is proved, with its failure to round-trip and a collision."
  },
  {
   "property": "C47",
   "status": "proved",
   "theorems": [
    "Verif.Props.C47_newtype",
    "Verif.Props.C47_keys",
    "Verif.Props.C47_sizes"
   ],
   "note": ""
  },
  {
   "property": "C48",
   "status": "proved",
   "theorems": [
    "Verif.Props.C48_public_key_roundtrip",
    "Verif.Props.C48_public_key_bytes",
    "Verif.Props.C48_light_kem_reencode"
   ],
   "note": ""
  },
  {
   "property": "C49",
   "status": "proved",
   "theorems": [
    "Verif.Props.C49_secret_key_roundtrip",
    "Verif.Props.C49_in_memory_differs"
   ],
   "note": ""
  },
  {
   "property": "C50",
   "status": "proved",
   "theorems": [
    "Verif.Props.C50_poly_ring",
    "Verif.Props.C50_poly_mul_coeff",
    "Verif.Props.C50_poly_laws",
    "Verif.Props.C50_matrix"
   ],
   "note": ""
  },
  {
   "property": "C51",
   "status": "proved",
   "theorems": [
    "Verif.Props.C51_cbd",
    "Verif.Props.C51_secrets_small",
    "Verif.Props.C51_stream_positions"
   ],
   "note": ""
  },
  {
   "property": "C52",
   "status": "proved",
   "theorems": [
    "Verif.Props.C52_saber_bit",
    "Verif.Props.C52_fire_bit",
    "Verif.Props.C52_light_bit",
    "Verif.Props.C52_decrypt",
    "Verif.Props.C52_noise_bound",
    "Verif.Props.C52_light_kem_correct"
   ],
   "note": "The noise is stated over the integers, with textbook negacyclic products; no probability statement about the noise is made."
  },
  {
   "property": "C53",
   "status": "proved",
   "theorems": [
    "Verif.Props.C53_light_bit5",
    "Verif.Props.C53_shift_at_most_one",
    "Verif.Props.C53_defect_flips_bit"
   ],
   "note": "The loss of the LightSaber threshold at positions = 5 mod 8 is proved: 64 suffices (C53_light_bit5), and a 65-away value is decoded wrongly (C53_defect_flips_bit)."
  },
  {
   "property": "C54",
   "status": "proved",
   "theorems": [
    "Verif.Props.C54_decapsulate",
    "Verif.Props.C54_encapsulate",
    "Verif.Props.C54_agreement",
    "Verif.Props.C54_agreement_from_noise"
   ],
   "note": ""
  },
  {
   "property": "C55",
   "status": "proved",
   "theorems": [
    "Verif.Props.C55_u8_eq_mask",
    "Verif.Props.C55_bytes_eq_mask"
   ],
   "note": ""
  },
  {
   "property": "C56",
   "status": "proved",
   "theorems": [
    "Verif.Props.C56_montgomery",
    "Verif.Props.C56_montgomery_endpoint",
    "Verif.Props.C56_reduce32",
    "Verif.Props.C56_reduce32_endpoint",
    "Verif.Props.C56_caddq",
    "Verif.Props.C56_freeze"
   ],
   "note": "Two documented bounds fail at one end point each, and this is proved: montgomery_reduce(2^31*q) = q although the comment promises r < q (C56_montgomery_endpoint), and reduce32(2^31-2^22-1) = 6283008 although the comment promises at most 6283007 (C56_reduce32_endpoint). The theorems state the exact bounds that hold."
  },
  {
   "property": "C57",
   "status": "proved",
   "theorems": [
    "Verif.Props.C57_power2round",
    "Verif.Props.C57_decompose",
    "Verif.Props.C57_decompose_unique"
   ],
   "note": ""
  },
  {
   "property": "C58",
   "status": "proved",
   "theorems": [
    "Verif.Props.C58_useHint_makeHint",
    "Verif.Props.C58_useHint",
    "Verif.Props.C58_spec_lemma"
   ],
   "note": "C58_useHint_makeHint is the lemma for make_hint(a0, a1) as the C signer calls it; C58_spec_lemma is the specification's UseHint(MakeHint(-z, r), r) statement."
  },
  {
   "property": "C59",
   "status": "proved",
   "theorems": [
    "Verif.Props.C59_ntt",
    "Verif.Props.C59_product",
    "Verif.Props.C59_invntt"
   ],
   "note": "ntt is proved to be evaluation at the odd powers of 1753 (bit-reversed), invntt_tomont its inverse up to the Montgomery factor, the product the negacyclic product."
  },
  {
   "property": "C60",
   "status": "proved",
   "theorems": [
    "Verif.Props.C60_polynomials",
    "Verif.Props.C60_bytes",
    "Verif.Props.C60_layout",
    "Verif.Props.C60_pk",
    "Verif.Props.C60_sk",
    "Verif.Props.C60_sig"
   ],
   "note": ""
  },
  {
   "property": "C61",
   "status": "proved",
   "theorems": [
    "Verif.Props.C61_accepts",
    "Verif.Props.C61_reencode",
    "Verif.Props.C61_injective"
   ],
   "note": ""
  },
  {
   "property": "C62",
   "status": "proved",
   "theorems": [
    "Verif.Props.C62_verify_sign",
    "Verif.Props.C62_open_sign",
    "Verif.Props.C62_sizes"
   ],
   "note": "For every SHAKE function and seed; sampling loops are modelled as partial (Option) functions, with completion characterised in C64/C65 and the toy SHAKE showing that runs exist."
  },
  {
   "property": "C63",
   "status": "proved",
   "theorems": [
    "Verif.Props.C63_reject",
    "Verif.Props.C63_open"
   ],
   "note": ""
  },
  {
   "property": "C64",
   "status": "proved",
   "theorems": [
    "Verif.Props.C64_challenge",
    "Verif.Props.C64_sampleInBall"
   ],
   "note": ""
  },
  {
   "property": "C65",
   "status": "proved",
   "theorems": [
    "Verif.Props.C65_uniform",
    "Verif.Props.C65_eta",
    "Verif.Props.C65_gamma1",
    "Verif.Props.C65_length"
   ],
   "note": ""
  },
  {
   "property": "C66",
   "status": "proved",
   "theorems": [
    "Verif.Props.C66_latke_composition",
    "Verif.Props.C66_latke_sigdh_authentication",
    "Verif.Props.C66_latke_sigma_authentication_initiator",
    "Verif.Props.C66_latke_sigma_authentication_responder",
    "Verif.Props.C66_latke_hmqv_authentication",
    "Verif.Props.C66_latke_fg_authentication",
    "Verif.Props.C66_hypotheses_met"
   ],
   "note": ""
  },
  {
   "property": "C67",
   "status": "proved",
   "theorems": [
    "Verif.Props.C67_keygen",
    "Verif.Props.C67_sign",
    "Verif.Props.C67_verify",
    "Verif.Props.C67_matrix"
   ],
   "note": "Stated against lean/Verif/Dilithium/Spec.lean, which is written from the Dilithium specification and does not mention the C model."
  },
  {
   "property": "C68",
   "status": "proved",
   "theorems": [
    "Verif.Props.C68_no_undefined_behaviour"
   ],
   "note": "The model is parametric in a CSem record that says what overflow and out-of-bounds reads return; the theorem is independence of that record."
  },
  {
   "property": "C69",
   "status": "proved",
   "theorems": [
    "Verif.Props.C69_seal_format",
    "Verif.Props.C69_open_iff",
    "Verif.Props.C69_accepts_only_encryptions"
   ],
   "note": ""
  },
  {
   "property": "C70",
   "status": "proved",
   "theorems": [
    "Verif.Props.C70_encrypt_is_farfalle_wbc",
    "Verif.Props.C70_decrypt_is_inverse_farfalle_wbc"
   ],
   "note": ""
  },
  {
   "property": "C71",
   "status": "proved",
   "theorems": [
    "Verif.Props.C71_keys_after_errors",
    "Verif.Props.C71_no_retry_after_error"
   ],
   "note": ""
  },
  {
   "property": "C72",
   "status": "proved",
   "theorems": [
    "Verif.Props.C72_cake_initiator",
    "Verif.Props.C72_cake_responder",
    "Verif.Props.C72_cake_key_inputs_distinct",
    "Verif.Props.C72_base64_is_rfc4648",
    "Verif.Props.C72_cpace_initiator"
   ],
   "note": ""
  },
  {
   "property": "C73",
   "status": "proved",
   "theorems": [
    "Verif.Props.C73_kcspake2_outcome",
    "Verif.Props.C73_cpace_outcome"
   ],
   "note": ""
  },
  {
   "property": "C74",
   "status": "proved",
   "theorems": [
    "Verif.Props.C74_sigdh_outcome",
    "Verif.Props.C74_sigdh_wellformed_iff",
    "Verif.Props.C74_hmqv_outcome_initiator",
    "Verif.Props.C74_hmqv_outcome_responder",
    "Verif.Props.C74_fg_outcome_initiator",
    "Verif.Props.C74_fg_outcome_responder",
    "Verif.Props.C74_sigma_outcome_initiator",
    "Verif.Props.C74_sigma_outcome_responder"
   ],
   "note": ""
  },
  {
   "property": "C75",
   "status": "proved",
   "theorems": [
    "Verif.Props.C75_key_bytes",
    "Verif.Props.C75_key_eq",
    "Verif.Props.C75_signature_bytes",
    "Verif.Props.C75_verify_exact",
    "Verif.Props.C75_short_signature_rejected",
    "Verif.Props.C75_sign_verify",
    "Verif.Props.C75_sign_open",
    "Verif.Props.C75_open_exact",
    "Verif.Props.C75_open_iff"
   ],
   "note": ""
  },
  {
   "property": "C76",
   "status": "proved",
   "theorems": [
    "Verif.Props.C76_ed25519_scheme",
    "Verif.Props.C76_dilithium_scheme",
    "Verif.Props.C76_sigma_dilithium_lightsaber",
    "Verif.Props.C76_latke_pq"
   ],
   "note": ""
  },
  {
   "property": "C77",
   "status": "proved",
   "theorems": [
    "Verif.Props.C77_unpack_fields",
    "Verif.Props.C77_pack_fields",
    "Verif.Props.C77_vector_fields"
   ],
   "note": ""
  },
  {
   "property": "C78",
   "status": "proved",
   "theorems": [
    "Verif.Props.C78_parameters",
    "Verif.Props.C78_matrix",
    "Verif.Props.C78_secret",
    "Verif.Props.C78_public_key",
    "Verif.Props.C78_secret_key",
    "Verif.Props.C78_ciphertext_vector",
    "Verif.Props.C78_ciphertext_recon",
    "Verif.Props.C78_decrypt"
   ],
   "note": ""
  },
  {
   "property": "C79",
   "status": "proved",
   "theorems": [
    "Verif.Props.C79_chip_first",
    "Verif.Props.C79_chip_start",
    "Verif.Props.C79_chip_no_early_key",
    "Verif.Props.C79_chip_is_pake"
   ],
   "note": ""
  },
  {
   "property": "C80",
   "status": "proved",
   "theorems": [
    "Verif.Props.C80_sigdh_messages",
    "Verif.Props.C80_hmqv_messages_initiator",
    "Verif.Props.C80_hmqv_messages_responder",
    "Verif.Props.C80_fg_messages_initiator",
    "Verif.Props.C80_fg_messages_responder",
    "Verif.Props.C80_sigma_messages_initiator",
    "Verif.Props.C80_sigma_messages_responder"
   ],
   "note": ""
  },
  {
   "property": "C81",
   "status": "proved",
   "theorems": [
    "Verif.Props.C81_permutation"
   ],
   "note": ""
  },
  {
   "property": "C82",
   "status": "proved",
   "theorems": [
    "Verif.Props.C82_shake128",
    "Verif.Props.C82_shake256",
    "Verif.Props.C82_sha3_256",
    "Verif.Props.C82_sha3_384",
    "Verif.Props.C82_sha3_512"
   ],
   "note": ""
  },
  {
   "property": "C83",
   "status": "proved",
   "theorems": [
    "Verif.Props.C83_shake128_incremental",
    "Verif.Props.C83_shake256_incremental",
    "Verif.Props.C83_sha3_256_incremental",
    "Verif.Props.C83_sha3_384_incremental",
    "Verif.Props.C83_sha3_512_incremental"
   ],
   "note": ""
  },
  {
   "property": "C84",
   "status": "proved",
   "theorems": [
    "Verif.Props.C84_shake256_is_model",
    "Verif.Props.C84_shake256_inc_is_model",
    "Verif.Props.C84_shake128_inc_is_model"
   ],
   "note": ""
  },
  {
   "property": "C85",
   "status": "proved",
   "theorems": [
    "Verif.Props.C85_digest",
    "Verif.Props.C85_linked_is_model",
    "Verif.Props.C85_no_undefined_behaviour",
    "Verif.Props.C85_verify_sign",
    "Verif.Props.C85_verify_spec"
   ],
   "note": ""
  },
  {
   "property": "C86",
   "status": "proved",
   "theorems": [
    "Verif.Props.C86_eue_outcome",
    "Verif.Props.C86_eue_is_wrapped"
   ],
   "note": ""
  },
  {
   "property": "C87",
   "status": "proved",
   "theorems": [
    "Verif.Props.C87_latke_is_pake_then_eue"
   ],
   "note": ""
  },
  {
   "property": "C88",
   "status": "proved",
   "theorems": [
    "Verif.Props.C88_sigdh_lengths",
    "Verif.Props.C88_hmqv_lengths",
    "Verif.Props.C88_fg_lengths",
    "Verif.Props.C88_sigma_lengths",
    "Verif.Props.C88_cake_lengths",
    "Verif.Props.C88_kcspake2_lengths",
    "Verif.Props.C88_cpace_lengths",
    "Verif.Props.C88_eue_lengths",
    "Verif.Props.C88_latke_lengths",
    "Verif.Props.C88_pq_suite",
    "Verif.Props.C88_classical_suite"
   ],
   "note": ""
  },
  {
   "property": "C89",
   "status": "proved",
   "theorems": [
    "Verif.Props.C89_ntt",
    "Verif.Props.C89_pointwise",
    "Verif.Props.C89_nttunpack",
    "Verif.Props.C89_product",
    "Verif.Props.C89_invntt",
    "Verif.Props.C89_pointwise_acc",
    "Verif.Props.C89_frame"
   ],
   "note": ""
  },
  {
   "property": "C90",
   "status": "proved",
   "theorems": [
    "Verif.Props.C90_reduce",
    "Verif.Props.C90_arith",
    "Verif.Props.C90_rounding",
    "Verif.Props.C90_use_hint",
    "Verif.Props.C90_chknorm",
    "Verif.Props.C90_chknorm_large",
    "Verif.Props.C90_make_hint"
   ],
   "note": ""
  },
  {
   "property": "C91",
   "status": "proved",
   "theorems": [
    "Verif.Props.C91_rej_uniform",
    "Verif.Props.C91_rej_eta",
    "Verif.Props.C91_four_way"
   ],
   "note": ""
  },
  {
   "property": "C92",
   "status": "proved",
   "theorems": [
    "Verif.Props.C92_polyz_unpack",
    "Verif.Props.C92_polyw1_pack"
   ],
   "note": ""
  },
  {
   "property": "C93",
   "status": "proved",
   "theorems": [
    "Verif.Props.C93_same_keys_and_signatures"
   ],
   "note": ""
  },
  {
   "property": "C94",
   "status": "proved",
   "theorems": [
    "Verif.Props.C94_acceptance",
    "Verif.Props.C94_deterministic",
    "Verif.Props.C94_agrees",
    "Verif.Props.C94_honest"
   ],
   "note": ""
  },
  {
   "property": "C95",
   "status": "proved",
   "theorems": [
    "Verif.Props.C95_long_response",
    "Verif.Props.C95_hint_at_zero"
   ],
   "note": ""
  },
  {
   "property": "C96",
   "status": "proved",
   "theorems": [
    "Verif.Props.C96_permutation",
    "Verif.Props.C96_inside"
   ],
   "note": ""
  },
  {
   "property": "C97",
   "status": "proved",
   "theorems": [
    "Verif.Props.C97_shake128x4",
    "Verif.Props.C97_shake256x4",
    "Verif.Props.C97_shake128x4_blocks",
    "Verif.Props.C97_shake256x4_blocks"
   ],
   "note": ""
  },
  {
   "property": "C98",
   "status": "proved",
   "theorems": [
    "Verif.Props.C98_uniform",
    "Verif.Props.C98_uniform_eta",
    "Verif.Props.C98_uniform_gamma1"
   ],
   "note": ""
  },
  {
   "property": "C99",
   "status": "proved",
   "theorems": [
    "Verif.Props.C99_same_keys_and_signatures",
    "Verif.Props.C99_honest",
    "Verif.Props.C99_agrees",
    "Verif.Props.C99_acceptance",
    "Verif.Props.C99_builds_disagree"
   ],
   "note": ""
  },
  {
   "property": "C100",
   "status": "proved",
   "theorems": [
    "Verif.Props.C100_signing",
    "Verif.Props.C100_cross_machine",
    "Verif.Props.C100_acceptance_depends_on_machine",
    "Verif.Props.C100_sigma_machines",
    "Verif.Props.C100_latke_machines"
   ],
   "note": ""
  },
  {
   "property": "C101",
   "status": "proved",
   "theorems": [
    "Verif.Props.C101_pake_phase_is_pake",
    "Verif.Props.C101_users_look_alike",
    "Verif.Props.C101_only_identities_matter"
   ],
   "note": ""
  },
  {
   "property": "C102",
   "status": "proved",
   "theorems": [
    "Verif.Props.C102_mismatch_unreachable",
    "Verif.Props.C102_one_scheme",
    "Verif.Props.C102_one_scheme_keys",
    "Verif.Props.C102_other_scheme_never_accepted"
   ],
   "note": ""
  },
  {
   "property": "C103",
   "status": "proved",
   "theorems": [
    "Verif.Props.C103_latke_fails",
    "Verif.Props.C103_latke_sigma_fails",
    "Verif.Props.C103_lightsaber_fails",
    "Verif.Props.C103_kem_incorrect",
    "Verif.Props.C103_cake_disagrees",
    "Verif.Props.C103_sigma_fails"
   ],
   "note": ""
  },
  {
   "property": "C104",
   "status": "proved",
   "theorems": [
    "Verif.Props.C104_other_session",
    "Verif.Props.C104_replay",
    "Verif.Props.C104_reflection",
    "Verif.Props.C104_latke_replay",
    "Verif.Props.C104_latke_other_session",
    "Verif.Props.C104_keys_differ_odd",
    "Verif.Props.C104_keys_differ_even"
   ],
   "note": ""
  },
  {
   "property": "C105",
   "status": "proved",
   "theorems": [
    "Verif.Props.C105_ntt",
    "Verif.Props.C105_invntt",
    "Verif.Props.C105_product",
    "Verif.Props.C105_coefficientwise",
    "Verif.Props.C105_values",
    "Verif.Props.C105_pointwise_acc",
    "Verif.Props.C105_writes"
   ],
   "note": ""
  },
  {
   "property": "C106",
   "status": "proved",
   "theorems": [
    "Verif.Props.C106_same_entries",
    "Verif.Props.C106_masks",
    "Verif.Props.C106_rereads"
   ],
   "note": ""
  },
  {
   "property": "C107",
   "status": "proved",
   "theorems": [
    "Verif.Props.C107_same",
    "Verif.Props.C107_honest",
    "Verif.Props.C107_own"
   ],
   "note": ""
  },
  {
   "property": "C108",
   "status": "proved",
   "theorems": [
    "Verif.Props.C108_freeze_overrun"
   ],
   "note": ""
  },
  {
   "property": "C109",
   "status": "proved",
   "theorems": [
    "Verif.Props.C109_permutation",
    "Verif.Props.C109_versions"
   ],
   "note": ""
  },
  {
   "property": "C110",
   "status": "proved",
   "theorems": [
    "Verif.Props.C110_shake128x2",
    "Verif.Props.C110_shake256x2",
    "Verif.Props.C110_shake128x2_blocks",
    "Verif.Props.C110_shake256x2_blocks"
   ],
   "note": ""
  },
  {
   "property": "C111",
   "status": "proved",
   "theorems": [
    "Verif.Props.C111_same",
    "Verif.Props.C111_honest",
    "Verif.Props.C111_no_undefined_behaviour",
    "Verif.Props.C111_own"
   ],
   "note": ""
  },
  {
   "property": "C112",
   "status": "proved",
   "theorems": [
    "Verif.Props.C112_signing",
    "Verif.Props.C112_verifies",
    "Verif.Props.C112_cross_machine",
    "Verif.Props.C112_aarch64_own",
    "Verif.Props.C112_acceptance_depends_on_machine",
    "Verif.Props.C112_sigma_machines",
    "Verif.Props.C112_latke_machines"
   ],
   "note": ""
  },
  {
   "property": "C113",
   "status": "proved",
   "theorems": [
    "Verif.Props.C113_decompose",
    "Verif.Props.C113_decompose_unique",
    "Verif.Props.C113_useHint_makeHint",
    "Verif.Props.C113_useHint",
    "Verif.Props.C113_spec_lemma"
   ],
   "note": ""
  },
  {
   "property": "C114",
   "status": "proved",
   "theorems": [
    "Verif.Props.C114_layout",
    "Verif.Props.C114_polynomials",
    "Verif.Props.C114_pk",
    "Verif.Props.C114_sk",
    "Verif.Props.C114_sig",
    "Verif.Props.C114_accepts",
    "Verif.Props.C114_reencode",
    "Verif.Props.C114_injective"
   ],
   "note": ""
  },
  {
   "property": "C115",
   "status": "proved",
   "theorems": [
    "Verif.Props.C115_verify_sign",
    "Verif.Props.C115_open_sign",
    "Verif.Props.C115_sizes",
    "Verif.Props.C115_reject",
    "Verif.Props.C115_open"
   ],
   "note": ""
  },
  {
   "property": "C116",
   "status": "proved",
   "theorems": [
    "Verif.Props.C116_eta4",
    "Verif.Props.C116_eta2",
    "Verif.Props.C116_gamma1",
    "Verif.Props.C116_challenge",
    "Verif.Props.C116_sampleInBall",
    "Verif.Props.C116_prefix"
   ],
   "note": "The models of the two parameter sets share one text with the mode as a parameter. The specification's SampleInBall is stated on the 32-byte prefix the code hashes (poly_challenge is called with the seed, but absorbs SEEDBYTES = 32 bytes of it)."
  },
  {
   "property": "C117",
   "status": "proved",
   "theorems": [
    "Verif.Props.C117_keygen",
    "Verif.Props.C117_sign",
    "Verif.Props.C117_verify"
   ],
   "note": ""
  },
  {
   "property": "C118",
   "status": "proved",
   "theorems": [
    "Verif.Props.C118_no_undefined_behaviour"
   ],
   "note": ""
  },
  {
   "property": "C119",
   "status": "proved",
   "theorems": [
    "Verif.Props.C119_key_bytes",
    "Verif.Props.C119_key_eq",
    "Verif.Props.C119_signature_bytes",
    "Verif.Props.C119_verify_exact",
    "Verif.Props.C119_short_signature_rejected",
    "Verif.Props.C119_sign_verify",
    "Verif.Props.C119_sign_open",
    "Verif.Props.C119_open_exact"
   ],
   "note": ""
  },
  {
   "property": "C120",
   "status": "proved",
   "theorems": [
    "Verif.Props.C120_pointwise_acc",
    "Verif.Props.C120_writes",
    "Verif.Props.C120_masks"
   ],
   "note": ""
  },
  {
   "property": "C121",
   "status": "proved",
   "theorems": [
    "Verif.Props.C121_same",
    "Verif.Props.C121_honest",
    "Verif.Props.C121_own",
    "Verif.Props.C121_no_undefined_behaviour"
   ],
   "note": ""
  },
  {
   "property": "C122",
   "status": "proved",
   "theorems": [
    "Verif.Props.C122_decompose",
    "Verif.Props.C122_use_hint",
    "Verif.Props.C122_make_hint"
   ],
   "note": ""
  },
  {
   "property": "C123",
   "status": "proved",
   "theorems": [
    "Verif.Props.C123_polyz_unpack",
    "Verif.Props.C123_polyw1_pack",
    "Verif.Props.C123_rej_eta",
    "Verif.Props.C123_four_way"
   ],
   "note": ""
  },
  {
   "property": "C124",
   "status": "proved",
   "theorems": [
    "Verif.Props.C124_matrix",
    "Verif.Props.C124_acceptance",
    "Verif.Props.C124_deterministic",
    "Verif.Props.C124_agrees",
    "Verif.Props.C124_honest",
    "Verif.Props.C124_open"
   ],
   "note": ""
  },
  {
   "property": "C125",
   "status": "proved",
   "theorems": [
    "Verif.Props.C125_long_response",
    "Verif.Props.C125_hint_at_zero"
   ],
   "note": ""
  },
  {
   "property": "C126",
   "status": "proved",
   "theorems": [
    "Verif.Props.C126_keypair",
    "Verif.Props.C126_signature",
    "Verif.Props.C126_sign",
    "Verif.Props.C126_deterministic",
    "Verif.Props.C126_honest"
   ],
   "note": ""
  },
  {
   "property": "C127",
   "status": "proved",
   "theorems": [
    "Verif.Props.C127_linked_is_model",
    "Verif.Props.C127_no_undefined_behaviour",
    "Verif.Props.C127_verify_sign",
    "Verif.Props.C127_verify_spec"
   ],
   "note": ""
  },
  {
   "property": "C128",
   "status": "proved",
   "theorems": [
    "Verif.Props.C128_signing",
    "Verif.Props.C128_signs",
    "Verif.Props.C128_cross_machine",
    "Verif.Props.C128_aarch64_own",
    "Verif.Props.C128_verify_exact",
    "Verif.Props.C128_acceptance_depends_on_machine"
   ],
   "note": ""
  }
 ]
}