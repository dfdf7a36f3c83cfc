387 theorems: Classical.choice, Quot.sound, propext
59 theorems: Quot.sound, propext
10 theorems: propext
6 theorems: none

Verif.Props.C01_authenc_roundtrip: Quot.sound, propext
Verif.Props.C02_authenc_length: Quot.sound, propext
Verif.Props.C03_accept_implies_valid_tag: Quot.sound, propext
Verif.Props.C03_tamper_accept_is_forgery: Quot.sound, propext
Verif.Props.C03_wrong_tag_rejected: Quot.sound, propext
Verif.Props.C04_decrypt_panics_iff_short: Quot.sound, propext
Verif.Props.C05_bijection: Quot.sound, propext
Verif.Props.C05_decrypt_encrypt: Quot.sound, propext
Verif.Props.C05_encrypt_decrypt: Quot.sound, propext
Verif.Props.C06_decrypt_length: Quot.sound, propext
Verif.Props.C06_decrypt_panics_iff: Quot.sound, propext
Verif.Props.C06_encrypt_length: Quot.sound, propext
Verif.Props.C06_encrypt_panics_iff: Quot.sound, propext
Verif.Props.C07_eue_transparent_failure: Classical.choice, Quot.sound, propext
Verif.Props.C07_eue_transparent_success: Classical.choice, Quot.sound, propext
Verif.Props.C08_only_authenticated_input: Classical.choice, Quot.sound, propext
Verif.Props.C09_decryption_failure_panics: Classical.choice, Quot.sound, propext
Verif.Props.C09_never_leaves_real_mode: Classical.choice, Quot.sound, propext
Verif.Props.C09_real_mode_invariant: Classical.choice, Quot.sound, propext
Verif.Props.C100_acceptance_depends_on_machine: Classical.choice, Quot.sound, propext
Verif.Props.C100_cross_machine: Classical.choice, Quot.sound, propext
Verif.Props.C100_latke_machines: Classical.choice, Quot.sound, propext
Verif.Props.C100_sigma_machines: Classical.choice, Quot.sound, propext
Verif.Props.C100_signing: Classical.choice, Quot.sound, propext
Verif.Props.C101_only_identities_matter: Classical.choice, Quot.sound, propext
Verif.Props.C101_pake_phase_is_pake: Classical.choice, Quot.sound, propext
Verif.Props.C101_users_look_alike: Classical.choice, Quot.sound, propext
Verif.Props.C102_mismatch_unreachable: Classical.choice, Quot.sound, propext
Verif.Props.C102_one_scheme: Classical.choice, Quot.sound, propext
Verif.Props.C102_one_scheme_keys: Classical.choice, Quot.sound, propext
Verif.Props.C102_other_scheme_never_accepted: Classical.choice, Quot.sound, propext
Verif.Props.C103_cake_disagrees: Classical.choice, Quot.sound, propext
Verif.Props.C103_kem_incorrect: Classical.choice, Quot.sound, propext
Verif.Props.C103_latke_fails: Classical.choice, Quot.sound, propext
Verif.Props.C103_latke_sigma_fails: Classical.choice, Quot.sound, propext
Verif.Props.C103_lightsaber_fails: Classical.choice, Quot.sound, propext
Verif.Props.C103_sigma_fails: Classical.choice, Quot.sound, propext
Verif.Props.C104_keys_differ_even: Classical.choice, Quot.sound, propext
Verif.Props.C104_keys_differ_odd: Classical.choice, Quot.sound, propext
Verif.Props.C104_latke_other_session: Classical.choice, Quot.sound, propext
Verif.Props.C104_latke_replay: Classical.choice, Quot.sound, propext
Verif.Props.C104_other_session: Classical.choice, Quot.sound, propext
Verif.Props.C104_reflection: Classical.choice, Quot.sound, propext
Verif.Props.C104_replay: Classical.choice, Quot.sound, propext
Verif.Props.C105_coefficientwise: Classical.choice, Quot.sound, propext
Verif.Props.C105_invntt: Classical.choice, Quot.sound, propext
Verif.Props.C105_ntt: Classical.choice, Quot.sound, propext
Verif.Props.C105_pointwise_acc: Classical.choice, Quot.sound, propext
Verif.Props.C105_product: Classical.choice, Quot.sound, propext
Verif.Props.C105_values: Classical.choice, Quot.sound, propext
Verif.Props.C105_writes: Classical.choice, Quot.sound, propext
Verif.Props.C106_masks: Quot.sound, propext
Verif.Props.C106_rereads: Classical.choice, Quot.sound, propext
Verif.Props.C106_same_entries: Classical.choice, Quot.sound, propext
Verif.Props.C107_honest: Classical.choice, Quot.sound, propext
Verif.Props.C107_own: Classical.choice, Quot.sound, propext
Verif.Props.C107_same: Classical.choice, Quot.sound, propext
Verif.Props.C108_freeze_overrun: Classical.choice, Quot.sound, propext
Verif.Props.C109_permutation: Classical.choice, Quot.sound, propext
Verif.Props.C109_versions: Classical.choice, Quot.sound, propext
Verif.Props.C10_indices_match: Quot.sound, propext
Verif.Props.C10_ratchet_sync: Classical.choice, Quot.sound, propext
Verif.Props.C110_shake128x2: Classical.choice, Quot.sound, propext
Verif.Props.C110_shake128x2_blocks: Classical.choice, Quot.sound, propext
Verif.Props.C110_shake256x2: Classical.choice, Quot.sound, propext
Verif.Props.C110_shake256x2_blocks: Classical.choice, Quot.sound, propext
Verif.Props.C111_honest: Classical.choice, Quot.sound, propext
Verif.Props.C111_no_undefined_behaviour: Classical.choice, Quot.sound, propext
Verif.Props.C111_own: Classical.choice, Quot.sound, propext
Verif.Props.C111_same: Classical.choice, Quot.sound, propext
Verif.Props.C112_aarch64_own: Classical.choice, Quot.sound, propext
Verif.Props.C112_acceptance_depends_on_machine: Classical.choice, Quot.sound, propext
Verif.Props.C112_cross_machine: Classical.choice, Quot.sound, propext
Verif.Props.C112_latke_machines: Classical.choice, Quot.sound, propext
Verif.Props.C112_sigma_machines: Classical.choice, Quot.sound, propext
Verif.Props.C112_signing: Classical.choice, Quot.sound, propext
Verif.Props.C112_verifies: Classical.choice, Quot.sound, propext
Verif.Props.C113_decompose: Classical.choice, Quot.sound, propext
Verif.Props.C113_decompose_unique: Classical.choice, Quot.sound, propext
Verif.Props.C113_spec_lemma: Classical.choice, Quot.sound, propext
Verif.Props.C113_useHint: Classical.choice, Quot.sound, propext
Verif.Props.C113_useHint_makeHint: Classical.choice, Quot.sound, propext
Verif.Props.C114_accepts: Classical.choice, Quot.sound, propext
Verif.Props.C114_injective: Classical.choice, Quot.sound, propext
Verif.Props.C114_layout: Classical.choice, Quot.sound, propext
Verif.Props.C114_pk: Classical.choice, Quot.sound, propext
Verif.Props.C114_polynomials: Classical.choice, Quot.sound, propext
Verif.Props.C114_reencode: Classical.choice, Quot.sound, propext
Verif.Props.C114_sig: Classical.choice, Quot.sound, propext
Verif.Props.C114_sk: Classical.choice, Quot.sound, propext
Verif.Props.C115_open: Classical.choice, Quot.sound, propext
Verif.Props.C115_open_sign: Classical.choice, Quot.sound, propext
Verif.Props.C115_reject: Classical.choice, Quot.sound, propext
Verif.Props.C115_sizes: Classical.choice, Quot.sound, propext
Verif.Props.C115_verify_sign: Classical.choice, Quot.sound, propext
Verif.Props.C116_challenge: Classical.choice, Quot.sound, propext
Verif.Props.C116_eta2: Classical.choice, Quot.sound, propext
Verif.Props.C116_eta4: Classical.choice, Quot.sound, propext
Verif.Props.C116_gamma1: Classical.choice, Quot.sound, propext
Verif.Props.C116_prefix: Classical.choice, Quot.sound, propext
Verif.Props.C116_sampleInBall: Classical.choice, Quot.sound, propext
Verif.Props.C117_keygen: Classical.choice, Quot.sound, propext
Verif.Props.C117_sign: Classical.choice, Quot.sound, propext
Verif.Props.C117_verify: Classical.choice, Quot.sound, propext
Verif.Props.C118_no_undefined_behaviour: Classical.choice, Quot.sound, propext
Verif.Props.C119_key_bytes: propext
Verif.Props.C119_key_eq: Classical.choice, Quot.sound, propext
Verif.Props.C119_open_exact: Classical.choice, Quot.sound, propext
Verif.Props.C119_short_signature_rejected: Classical.choice, Quot.sound, propext
Verif.Props.C119_sign_open: Classical.choice, Quot.sound, propext
Verif.Props.C119_sign_verify: Classical.choice, Quot.sound, propext
Verif.Props.C119_signature_bytes: Quot.sound, propext
Verif.Props.C119_verify_exact: Classical.choice, Quot.sound, propext
Verif.Props.C11_fg_empty_no_progress: Classical.choice, Quot.sound, propext
Verif.Props.C11_hmqv_empty_no_progress: Classical.choice, Quot.sound, propext
Verif.Props.C11_sigdh_empty_no_progress: propext
Verif.Props.C11_sigma_empty_no_progress: Classical.choice, Quot.sound, propext
Verif.Props.C120_masks: Quot.sound, propext
Verif.Props.C120_pointwise_acc: Classical.choice, Quot.sound, propext
Verif.Props.C120_writes: Classical.choice, Quot.sound, propext
Verif.Props.C121_honest: Classical.choice, Quot.sound, propext
Verif.Props.C121_no_undefined_behaviour: Classical.choice, Quot.sound, propext
Verif.Props.C121_own: Classical.choice, Quot.sound, propext
Verif.Props.C121_same: Classical.choice, Quot.sound, propext
Verif.Props.C122_decompose: Classical.choice, Quot.sound, propext
Verif.Props.C122_make_hint: Classical.choice, Quot.sound, propext
Verif.Props.C122_use_hint: Classical.choice, Quot.sound, propext
Verif.Props.C123_four_way: Classical.choice, Quot.sound, propext
Verif.Props.C123_polyw1_pack: Classical.choice, Quot.sound, propext
Verif.Props.C123_polyz_unpack: Classical.choice, Quot.sound, propext
Verif.Props.C123_rej_eta: Classical.choice, Quot.sound, propext
Verif.Props.C124_acceptance: Classical.choice, Quot.sound, propext
Verif.Props.C124_agrees: Classical.choice, Quot.sound, propext
Verif.Props.C124_deterministic: Classical.choice, Quot.sound, propext
Verif.Props.C124_honest: Classical.choice, Quot.sound, propext
Verif.Props.C124_matrix: Classical.choice, Quot.sound, propext
Verif.Props.C124_open: Classical.choice, Quot.sound, propext
Verif.Props.C125_hint_at_zero: Classical.choice, Quot.sound, propext
Verif.Props.C125_long_response: Classical.choice, Quot.sound, propext
Verif.Props.C126_deterministic: Classical.choice, Quot.sound, propext
Verif.Props.C126_honest: Classical.choice, Quot.sound, propext
Verif.Props.C126_keypair: Classical.choice, Quot.sound, propext
Verif.Props.C126_sign: Classical.choice, Quot.sound, propext
Verif.Props.C126_signature: Classical.choice, Quot.sound, propext
Verif.Props.C127_linked_is_model: Classical.choice, Quot.sound, propext
Verif.Props.C127_no_undefined_behaviour: Classical.choice, Quot.sound, propext
Verif.Props.C127_verify_sign: Classical.choice, Quot.sound, propext
Verif.Props.C127_verify_spec: Classical.choice, Quot.sound, propext
Verif.Props.C128_aarch64_own: Classical.choice, Quot.sound, propext
Verif.Props.C128_acceptance_depends_on_machine: Classical.choice, Quot.sound, propext
Verif.Props.C128_cross_machine: Classical.choice, Quot.sound, propext
Verif.Props.C128_signing: Classical.choice, Quot.sound, propext
Verif.Props.C128_signs: Classical.choice, Quot.sound, propext
Verif.Props.C128_verify_exact: Classical.choice, Quot.sound, propext
Verif.Props.C12_agreement_initiator_ends_pake: Classical.choice, Quot.sound, propext
Verif.Props.C12_agreement_responder_ends_pake: Classical.choice, Quot.sound, propext
Verif.Props.C12_composed_even: Classical.choice, Quot.sound, propext
Verif.Props.C12_composed_odd: Classical.choice, Quot.sound, propext
Verif.Props.C12_fg_kcspake2: Classical.choice, Quot.sound, propext
Verif.Props.C12_hmqv_kcspake2: Classical.choice, Quot.sound, propext
Verif.Props.C12_sigdh_kcspake2: Classical.choice, Quot.sound, propext
Verif.Props.C12_sigma_cake: Classical.choice, Quot.sound, propext
Verif.Props.C12_sigma_cake_lightsaber: Classical.choice, Quot.sound, propext
Verif.Props.C12_sigma_cake_signed: Classical.choice, Quot.sound, propext
Verif.Props.C12_sigma_cpace: Classical.choice, Quot.sound, propext
Verif.Props.C13_key_binds_transcript: Classical.choice, Quot.sound, propext
Verif.Props.C13_key_is_kdf_of_wire: Classical.choice, Quot.sound, propext
Verif.Props.C13_only_concatenation_bound: Classical.choice, Quot.sound, propext
Verif.Props.C14_cert_is_extracted: none
Verif.Props.C14_fg_cert_verifies: Classical.choice, Quot.sound, propext
Verif.Props.C14_hmqv_cert_verifies: Classical.choice, Quot.sound, propext
Verif.Props.C14_mpk_from_password: none
Verif.Props.C14_sigdh_cert_verifies: propext
Verif.Props.C14_sigma_cert_verifies: Classical.choice, Quot.sound, propext
Verif.Props.C15_pake_input_injective: Quot.sound, propext
Verif.Props.C15_pake_input_models_disjoint: Quot.sound, propext
Verif.Props.C15_pake_input_pre: propext
Verif.Props.C16_prespecified_peer_not_enforced: Classical.choice, Quot.sound, propext
Verif.Props.C16_reported_id_is_ibke_id: Classical.choice, Quot.sound, propext
Verif.Props.C16_sigma_cake_insider: Classical.choice, Quot.sound, propext
Verif.Props.C17_ibke_only_after_pake: Classical.choice, Quot.sound, propext
Verif.Props.C17_pakes_done_when_silent: Classical.choice, Quot.sound, propext
Verif.Props.C19_no_return_after_error: Classical.choice, Quot.sound, propext
Verif.Props.C20_cake_agreement: Quot.sound, propext
Verif.Props.C20_cake_lightsaber: Classical.choice, Quot.sound, propext
Verif.Props.C21_cake_input_validation: Quot.sound, propext
Verif.Props.C22_cpace_agreement: Classical.choice, Quot.sound, propext
Verif.Props.C22_password_encoding_injective: Classical.choice, Quot.sound, propext
Verif.Props.C22_responder_key: Classical.choice, Quot.sound, propext
Verif.Props.C23_kcspake2_agreement: Classical.choice, Quot.sound, propext
Verif.Props.C24_kcspake2_confirmed_initiator: Classical.choice, Quot.sound, propext
Verif.Props.C24_kcspake2_confirmed_responder: Classical.choice, Quot.sound, propext
Verif.Props.C25_cake_finalize_iff_done: Quot.sound, propext
Verif.Props.C25_cpace_finalize_iff_done: Classical.choice, Quot.sound, propext
Verif.Props.C25_kcspake2_key_after_failure_initiator: Classical.choice, Quot.sound, propext
Verif.Props.C25_kcspake2_key_before_done_responder: Classical.choice, Quot.sound, propext
Verif.Props.C26_cake_one_shot: Quot.sound, propext
Verif.Props.C26_cpace_one_shot: Classical.choice, Quot.sound, propext
Verif.Props.C26_kcspake2_one_shot: Classical.choice, Quot.sound, propext
Verif.Props.C27_initiator_single_guess: Classical.choice, Quot.sound, propext
Verif.Props.C27_responder_unlimited_guesses: Classical.choice, Quot.sound, propext
Verif.Props.C28_sigdh_agreement: Quot.sound, propext
Verif.Props.C29_hmqv_agreement: Classical.choice, Quot.sound, propext
Verif.Props.C30_fg_agreement: Classical.choice, Quot.sound, propext
Verif.Props.C31_sigma_agreement: Classical.choice, Quot.sound, propext
Verif.Props.C31_sigma_agreement_signed: Classical.choice, Quot.sound, propext
Verif.Props.C31_sigma_lightsaber: Classical.choice, Quot.sound, propext
Verif.Props.C32_hmqv_cert_roundtrip: Quot.sound, propext
Verif.Props.C32_sigdh_cert_roundtrip: Quot.sound, propext
Verif.Props.C32_sigma_cert_roundtrip: Quot.sound, propext
Verif.Props.C33_sigdh_authentication_initiator: Quot.sound, propext
Verif.Props.C33_sigdh_authentication_responder: Quot.sound, propext
Verif.Props.C34_sigma_authentication_initiator: Classical.choice, Quot.sound, propext
Verif.Props.C34_sigma_authentication_responder: Classical.choice, Quot.sound, propext
Verif.Props.C35_hmqv_authentication_initiator: Classical.choice, Quot.sound, propext
Verif.Props.C35_hmqv_authentication_responder: Classical.choice, Quot.sound, propext
Verif.Props.C36_fg_confirmation_initiator: Classical.choice, Quot.sound, propext
Verif.Props.C36_fg_confirmation_responder: Classical.choice, Quot.sound, propext
Verif.Props.C37_sigdh_no_reflection: Quot.sound, propext
Verif.Props.C37_sigdh_roles_disjoint: propext
Verif.Props.C37_sigma_no_reflection: Classical.choice, Quot.sound, propext
Verif.Props.C37_sigma_roles_disjoint: propext
Verif.Props.C38_C39_fg_sim_panics: Classical.choice, Quot.sound, propext
Verif.Props.C38_C39_sigdh_sim_matches: Quot.sound, propext
Verif.Props.C38_hmqv_sim_matches: Classical.choice, Quot.sound, propext
Verif.Props.C38_sigma_sim_sizes: Classical.choice, Quot.sound, propext
Verif.Props.C39_hmqv_sim_never_done: propext
Verif.Props.C39_sigdh_sim_completes: none
Verif.Props.C39_sigma_sim_completes: none
Verif.Props.C40_fg_output_after_bad_mac_initiator: Classical.choice, Quot.sound, propext
Verif.Props.C40_fg_output_before_done_responder: Classical.choice, Quot.sound, propext
Verif.Props.C40_fg_waiting_state: Classical.choice, Quot.sound, propext
Verif.Props.C40_hmqv_output_after_bad_mac_initiator: Classical.choice, Quot.sound, propext
Verif.Props.C40_hmqv_output_before_done_responder: Classical.choice, Quot.sound, propext
Verif.Props.C40_sigdh_finalize_iff_done: Quot.sound, propext
Verif.Props.C40_sigma_output_after_bad_certificate: Classical.choice, Quot.sound, propext
Verif.Props.C40_sigma_output_after_bad_certificate_responder: Classical.choice, Quot.sound, propext
Verif.Props.C41_fg_one_shot: Classical.choice, Quot.sound, propext
Verif.Props.C41_hmqv_one_shot: Classical.choice, Quot.sound, propext
Verif.Props.C41_sigdh_one_shot: Classical.choice, Quot.sound, propext
Verif.Props.C41_sigma_one_shot: Classical.choice, Quot.sound, propext
Verif.Props.C42_C43_chip_pake_inputs: Quot.sound, propext
Verif.Props.C42_chip_agreement: Quot.sound, propext
Verif.Props.C42_chip_kcspake2: Classical.choice, Quot.sound, propext
Verif.Props.C43_chip_transcript_initiator: Classical.choice, Quot.sound, propext
Verif.Props.C43_chip_transcript_responder: Classical.choice, Quot.sound, propext
Verif.Props.C44_chip_binds_password: Quot.sound, propext
Verif.Props.C44_chip_binds_peer: Quot.sound, propext
Verif.Props.C45_messages: Classical.choice, Quot.sound, propext
Verif.Props.C45_pack_unpack: Classical.choice, Quot.sound, propext
Verif.Props.C45_unpack_pack: Classical.choice, Quot.sound, propext
Verif.Props.C45_vectors: Classical.choice, Quot.sound, propext
Verif.Props.C46_packing3_collision: Quot.sound, propext
Verif.Props.C46_packing3_not_injective: Classical.choice, Quot.sound, propext
Verif.Props.C46_unpack_pack3: Classical.choice, Quot.sound, propext
Verif.Props.C47_keys: Quot.sound, propext
Verif.Props.C47_newtype: propext
Verif.Props.C47_sizes: Quot.sound, propext
Verif.Props.C48_light_kem_reencode: Classical.choice, Quot.sound, propext
Verif.Props.C48_public_key_bytes: Classical.choice, Quot.sound, propext
Verif.Props.C48_public_key_roundtrip: Classical.choice, Quot.sound, propext
Verif.Props.C49_in_memory_differs: Classical.choice, Quot.sound, propext
Verif.Props.C49_secret_key_roundtrip: Classical.choice, Quot.sound, propext
Verif.Props.C50_matrix: Classical.choice, Quot.sound, propext
Verif.Props.C50_poly_laws: Classical.choice, Quot.sound, propext
Verif.Props.C50_poly_mul_coeff: Classical.choice, Quot.sound, propext
Verif.Props.C50_poly_ring: Classical.choice, Quot.sound, propext
Verif.Props.C51_cbd: Classical.choice, Quot.sound, propext
Verif.Props.C51_secrets_small: Classical.choice, Quot.sound, propext
Verif.Props.C51_stream_positions: Quot.sound, propext
Verif.Props.C52_decrypt: Classical.choice, Quot.sound, propext
Verif.Props.C52_fire_bit: Classical.choice, Quot.sound, propext
Verif.Props.C52_light_bit: Classical.choice, Quot.sound, propext
Verif.Props.C52_light_kem_correct: Classical.choice, Quot.sound, propext
Verif.Props.C52_noise_bound: Classical.choice, Quot.sound, propext
Verif.Props.C52_saber_bit: Classical.choice, Quot.sound, propext
Verif.Props.C53_defect_flips_bit: Classical.choice, Quot.sound, propext
Verif.Props.C53_light_bit5: Classical.choice, Quot.sound, propext
Verif.Props.C53_shift_at_most_one: Classical.choice, Quot.sound, propext
Verif.Props.C54_agreement: Classical.choice, Quot.sound, propext
Verif.Props.C54_agreement_from_noise: Classical.choice, Quot.sound, propext
Verif.Props.C54_decapsulate: Classical.choice, Quot.sound, propext
Verif.Props.C54_encapsulate: Quot.sound, propext
Verif.Props.C55_bytes_eq_mask: Classical.choice, Quot.sound, propext
Verif.Props.C55_u8_eq_mask: Quot.sound, propext
Verif.Props.C56_caddq: Quot.sound, propext
Verif.Props.C56_freeze: Quot.sound, propext
Verif.Props.C56_montgomery: Classical.choice, Quot.sound, propext
Verif.Props.C56_montgomery_endpoint: Quot.sound, propext
Verif.Props.C56_reduce32: Quot.sound, propext
Verif.Props.C56_reduce32_endpoint: Quot.sound, propext
Verif.Props.C57_decompose: Classical.choice, Quot.sound, propext
Verif.Props.C57_decompose_unique: Classical.choice, Quot.sound, propext
Verif.Props.C57_power2round: Classical.choice, Quot.sound, propext
Verif.Props.C58_spec_lemma: Classical.choice, Quot.sound, propext
Verif.Props.C58_useHint: Classical.choice, Quot.sound, propext
Verif.Props.C58_useHint_makeHint: Classical.choice, Quot.sound, propext
Verif.Props.C59_invntt: Classical.choice, Quot.sound, propext
Verif.Props.C59_ntt: Classical.choice, Quot.sound, propext
Verif.Props.C59_product: Classical.choice, Quot.sound, propext
Verif.Props.C60_bytes: Classical.choice, Quot.sound, propext
Verif.Props.C60_layout: Classical.choice, Quot.sound, propext
Verif.Props.C60_pk: Classical.choice, Quot.sound, propext
Verif.Props.C60_polynomials: Classical.choice, Quot.sound, propext
Verif.Props.C60_sig: Classical.choice, Quot.sound, propext
Verif.Props.C60_sk: Classical.choice, Quot.sound, propext
Verif.Props.C61_accepts: Classical.choice, Quot.sound, propext
Verif.Props.C61_injective: Classical.choice, Quot.sound, propext
Verif.Props.C61_reencode: Classical.choice, Quot.sound, propext
Verif.Props.C62_open_sign: Classical.choice, Quot.sound, propext
Verif.Props.C62_sizes: Classical.choice, Quot.sound, propext
Verif.Props.C62_verify_sign: Classical.choice, Quot.sound, propext
Verif.Props.C63_open: Classical.choice, Quot.sound, propext
Verif.Props.C63_reject: Classical.choice, Quot.sound, propext
Verif.Props.C64_challenge: Classical.choice, Quot.sound, propext
Verif.Props.C64_sampleInBall: Classical.choice, Quot.sound, propext
Verif.Props.C65_eta: Classical.choice, Quot.sound, propext
Verif.Props.C65_gamma1: Classical.choice, Quot.sound, propext
Verif.Props.C65_length: Classical.choice, Quot.sound, propext
Verif.Props.C65_uniform: Classical.choice, Quot.sound, propext
Verif.Props.C66_hypotheses_met: Classical.choice, Quot.sound, propext
Verif.Props.C66_latke_composition: Classical.choice, Quot.sound, propext
Verif.Props.C66_latke_fg_authentication: Classical.choice, Quot.sound, propext
Verif.Props.C66_latke_hmqv_authentication: Classical.choice, Quot.sound, propext
Verif.Props.C66_latke_sigdh_authentication: Classical.choice, Quot.sound, propext
Verif.Props.C66_latke_sigma_authentication_initiator: Classical.choice, Quot.sound, propext
Verif.Props.C66_latke_sigma_authentication_responder: Classical.choice, Quot.sound, propext
Verif.Props.C67_keygen: Classical.choice, Quot.sound, propext
Verif.Props.C67_matrix: Classical.choice, Quot.sound, propext
Verif.Props.C67_sign: Classical.choice, Quot.sound, propext
Verif.Props.C67_verify: Classical.choice, Quot.sound, propext
Verif.Props.C68_no_undefined_behaviour: Classical.choice, Quot.sound, propext
Verif.Props.C69_accepts_only_encryptions: Quot.sound, propext
Verif.Props.C69_open_iff: Quot.sound, propext
Verif.Props.C69_seal_format: Quot.sound, propext
Verif.Props.C70_decrypt_is_inverse_farfalle_wbc: Classical.choice, Quot.sound, propext
Verif.Props.C70_encrypt_is_farfalle_wbc: Classical.choice, Quot.sound, propext
Verif.Props.C71_keys_after_errors: Classical.choice, Quot.sound, propext
Verif.Props.C71_no_retry_after_error: Classical.choice, Quot.sound, propext
Verif.Props.C72_base64_is_rfc4648: Classical.choice, Quot.sound, propext
Verif.Props.C72_cake_initiator: Quot.sound, propext
Verif.Props.C72_cake_key_inputs_distinct: propext
Verif.Props.C72_cake_responder: Quot.sound, propext
Verif.Props.C72_cpace_initiator: Classical.choice, Quot.sound, propext
Verif.Props.C73_cpace_outcome: Classical.choice, Quot.sound, propext
Verif.Props.C73_kcspake2_outcome: Classical.choice, Quot.sound, propext
Verif.Props.C74_fg_outcome_initiator: Classical.choice, Quot.sound, propext
Verif.Props.C74_fg_outcome_responder: Classical.choice, Quot.sound, propext
Verif.Props.C74_hmqv_outcome_initiator: Classical.choice, Quot.sound, propext
Verif.Props.C74_hmqv_outcome_responder: Classical.choice, Quot.sound, propext
Verif.Props.C74_sigdh_outcome: Classical.choice, Quot.sound, propext
Verif.Props.C74_sigdh_wellformed_iff: Quot.sound, propext
Verif.Props.C74_sigma_outcome_initiator: Classical.choice, Quot.sound, propext
Verif.Props.C74_sigma_outcome_responder: Classical.choice, Quot.sound, propext
Verif.Props.C75_key_bytes: propext
Verif.Props.C75_key_eq: Classical.choice, Quot.sound, propext
Verif.Props.C75_open_exact: Classical.choice, Quot.sound, propext
Verif.Props.C75_open_iff: Classical.choice, Quot.sound, propext
Verif.Props.C75_short_signature_rejected: Classical.choice, Quot.sound, propext
Verif.Props.C75_sign_open: Classical.choice, Quot.sound, propext
Verif.Props.C75_sign_verify: Classical.choice, Quot.sound, propext
Verif.Props.C75_signature_bytes: Quot.sound, propext
Verif.Props.C75_verify_exact: Classical.choice, Quot.sound, propext
Verif.Props.C76_dilithium_scheme: Classical.choice, Quot.sound, propext
Verif.Props.C76_ed25519_scheme: none
Verif.Props.C76_latke_pq: Classical.choice, Quot.sound, propext
Verif.Props.C76_sigma_dilithium_lightsaber: Classical.choice, Quot.sound, propext
Verif.Props.C77_pack_fields: Classical.choice, Quot.sound, propext
Verif.Props.C77_unpack_fields: Classical.choice, Quot.sound, propext
Verif.Props.C77_vector_fields: Classical.choice, Quot.sound, propext
Verif.Props.C78_ciphertext_recon: Classical.choice, Quot.sound, propext
Verif.Props.C78_ciphertext_vector: Classical.choice, Quot.sound, propext
Verif.Props.C78_decrypt: Classical.choice, Quot.sound, propext
Verif.Props.C78_matrix: Classical.choice, Quot.sound, propext
Verif.Props.C78_parameters: Quot.sound, propext
Verif.Props.C78_public_key: Classical.choice, Quot.sound, propext
Verif.Props.C78_secret: Classical.choice, Quot.sound, propext
Verif.Props.C78_secret_key: Classical.choice, Quot.sound, propext
Verif.Props.C79_chip_first: none
Verif.Props.C79_chip_is_pake: Classical.choice, Quot.sound, propext
Verif.Props.C79_chip_no_early_key: Classical.choice, Quot.sound, propext
Verif.Props.C79_chip_start: Classical.choice, Quot.sound, propext
Verif.Props.C80_fg_messages_initiator: Classical.choice, Quot.sound, propext
Verif.Props.C80_fg_messages_responder: Classical.choice, Quot.sound, propext
Verif.Props.C80_hmqv_messages_initiator: Classical.choice, Quot.sound, propext
Verif.Props.C80_hmqv_messages_responder: Classical.choice, Quot.sound, propext
Verif.Props.C80_sigdh_messages: Quot.sound, propext
Verif.Props.C80_sigma_messages_initiator: Classical.choice, Quot.sound, propext
Verif.Props.C80_sigma_messages_responder: Classical.choice, Quot.sound, propext
Verif.Props.C81_permutation: Classical.choice, Quot.sound, propext
Verif.Props.C82_sha3_256: Classical.choice, Quot.sound, propext
Verif.Props.C82_sha3_384: Classical.choice, Quot.sound, propext
Verif.Props.C82_sha3_512: Classical.choice, Quot.sound, propext
Verif.Props.C82_shake128: Classical.choice, Quot.sound, propext
Verif.Props.C82_shake256: Classical.choice, Quot.sound, propext
Verif.Props.C83_sha3_256_incremental: Classical.choice, Quot.sound, propext
Verif.Props.C83_sha3_384_incremental: Classical.choice, Quot.sound, propext
Verif.Props.C83_sha3_512_incremental: Classical.choice, Quot.sound, propext
Verif.Props.C83_shake128_incremental: Classical.choice, Quot.sound, propext
Verif.Props.C83_shake256_incremental: Classical.choice, Quot.sound, propext
Verif.Props.C84_shake128_inc_is_model: Classical.choice, Quot.sound, propext
Verif.Props.C84_shake256_inc_is_model: Classical.choice, Quot.sound, propext
Verif.Props.C84_shake256_is_model: Classical.choice, Quot.sound, propext
Verif.Props.C85_digest: Classical.choice, Quot.sound, propext
Verif.Props.C85_linked_is_model: Classical.choice, Quot.sound, propext
Verif.Props.C85_no_undefined_behaviour: Classical.choice, Quot.sound, propext
Verif.Props.C85_verify_sign: Classical.choice, Quot.sound, propext
Verif.Props.C85_verify_spec: Classical.choice, Quot.sound, propext
Verif.Props.C86_eue_is_wrapped: Classical.choice, Quot.sound, propext
Verif.Props.C86_eue_outcome: Classical.choice, Quot.sound, propext
Verif.Props.C87_latke_is_pake_then_eue: Classical.choice, Quot.sound, propext
Verif.Props.C88_cake_lengths: Classical.choice, Quot.sound, propext
Verif.Props.C88_classical_suite: Classical.choice, Quot.sound, propext
Verif.Props.C88_cpace_lengths: Classical.choice, Quot.sound, propext
Verif.Props.C88_eue_lengths: Classical.choice, Quot.sound, propext
Verif.Props.C88_fg_lengths: Classical.choice, Quot.sound, propext
Verif.Props.C88_hmqv_lengths: Classical.choice, Quot.sound, propext
Verif.Props.C88_kcspake2_lengths: Classical.choice, Quot.sound, propext
Verif.Props.C88_latke_lengths: Classical.choice, Quot.sound, propext
Verif.Props.C88_pq_suite: Classical.choice, Quot.sound, propext
Verif.Props.C88_sigdh_lengths: Classical.choice, Quot.sound, propext
Verif.Props.C88_sigma_lengths: Classical.choice, Quot.sound, propext
Verif.Props.C89_frame: Quot.sound, propext
Verif.Props.C89_invntt: Classical.choice, Quot.sound, propext
Verif.Props.C89_ntt: Classical.choice, Quot.sound, propext
Verif.Props.C89_nttunpack: Classical.choice, Quot.sound, propext
Verif.Props.C89_pointwise: Classical.choice, Quot.sound, propext
Verif.Props.C89_pointwise_acc: Classical.choice, Quot.sound, propext
Verif.Props.C89_product: Classical.choice, Quot.sound, propext
Verif.Props.C90_arith: Classical.choice, Quot.sound, propext
Verif.Props.C90_chknorm: Classical.choice, Quot.sound, propext
Verif.Props.C90_chknorm_large: Quot.sound, propext
Verif.Props.C90_make_hint: Classical.choice, Quot.sound, propext
Verif.Props.C90_reduce: Classical.choice, Quot.sound, propext
Verif.Props.C90_rounding: Classical.choice, Quot.sound, propext
Verif.Props.C90_use_hint: Classical.choice, Quot.sound, propext
Verif.Props.C91_four_way: Classical.choice, Quot.sound, propext
Verif.Props.C91_rej_eta: Classical.choice, Quot.sound, propext
Verif.Props.C91_rej_uniform: Classical.choice, Quot.sound, propext
Verif.Props.C92_polyw1_pack: Classical.choice, Quot.sound, propext
Verif.Props.C92_polyz_unpack: Classical.choice, Quot.sound, propext
Verif.Props.C93_same_keys_and_signatures: Classical.choice, Quot.sound, propext
Verif.Props.C94_acceptance: Classical.choice, Quot.sound, propext
Verif.Props.C94_agrees: Classical.choice, Quot.sound, propext
Verif.Props.C94_deterministic: Classical.choice, Quot.sound, propext
Verif.Props.C94_honest: Classical.choice, Quot.sound, propext
Verif.Props.C95_hint_at_zero: Classical.choice, Quot.sound, propext
Verif.Props.C95_long_response: Classical.choice, Quot.sound, propext
Verif.Props.C96_inside: Quot.sound, propext
Verif.Props.C96_permutation: Classical.choice, Quot.sound, propext
Verif.Props.C97_shake128x4: Classical.choice, Quot.sound, propext
Verif.Props.C97_shake128x4_blocks: Classical.choice, Quot.sound, propext
Verif.Props.C97_shake256x4: Classical.choice, Quot.sound, propext
Verif.Props.C97_shake256x4_blocks: Classical.choice, Quot.sound, propext
Verif.Props.C98_uniform: Classical.choice, Quot.sound, propext
Verif.Props.C98_uniform_eta: Classical.choice, Quot.sound, propext
Verif.Props.C98_uniform_gamma1: Classical.choice, Quot.sound, propext
Verif.Props.C99_acceptance: Classical.choice, Quot.sound, propext
Verif.Props.C99_agrees: Classical.choice, Quot.sound, propext
Verif.Props.C99_builds_disagree: Classical.choice, Quot.sound, propext
Verif.Props.C99_honest: Classical.choice, Quot.sound, propext
Verif.Props.C99_same_keys_and_signatures: Classical.choice, Quot.sound, propext
