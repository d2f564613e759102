{
 "claims": [
  {
   "property": "C01",
   "status": "proved",
   "theorems": [
    "Verif.CA.C01_step",
    "Verif.CA.C01_transitions",
    "Verif.CA.C01_new_entries",
    "Verif.CA.C01_revoke_iff",
    "Verif.CA.C01_revive_iff",
    "Verif.CA.C01_confirm_iff",
    "Verif.CA.C01_never_reset"
   ],
   "note": "invariant over arbitrary call histories"
  },
  {
   "property": "C02",
   "status": "partial",
   "theorems": [
    "Verif.CA.C02_refuted",
    "Verif.CA.C02_revoked_stays_partial"
   ],
   "note": "false of the code: an UPDATED request turns a REVOKED entry into UPDATED; the partial theorem assumes no update call for the certificate"
  },
  {
   "property": "C03",
   "status": "proved",
   "theorems": [
    "Verif.CA.C03_failed_call_unchanged",
    "Verif.CA.C03_change_local",
    "Verif.CA.C03_change_observed",
    "Verif.CA.C03_frame"
   ],
   "note": ""
  },
  {
   "property": "C19",
   "status": "proved",
   "theorems": [
    "Verif.CA.C19_not_updated_accepted",
    "Verif.CA.C19_confirmed_update_rejects",
    "Verif.CA.C19_pending_update_window",
    "Verif.CA.C19_no_type_error",
    "Verif.CA.C19_boundary_overlap",
    "Verif.CA.C19_is_updated"
   ],
   "note": ""
  },
  {
   "property": "C20",
   "status": "proved",
   "theorems": [
    "Verif.CA.C20_history",
    "Verif.CA.C20_history_maximal"
   ],
   "note": ""
  },
  {
   "property": "C85",
   "status": "proved",
   "theorems": [
    "Verif.CA.C85_views_partition",
    "Verif.CA.C85_revoked_is_issued"
   ],
   "note": ""
  },
  {
   "property": "C04",
   "status": "proved",
   "theorems": [
    "Verif.CA.C04_open_decision",
    "Verif.CA.C04_no_replay",
    "Verif.CA.C04_accounting",
    "Verif.CA.C04_accepted_once",
    "Verif.CA.C04_certs_kept",
    "Verif.CA.C04_release_then_reuse"
   ],
   "note": ""
  },
  {
   "property": "C07",
   "status": "proved",
   "theorems": [
    "Verif.CA.C07_used_secret_refused",
    "Verif.CA.C07_at_most_one_request",
    "Verif.CA.C07_accept_sound"
   ],
   "note": "for histories without remove_shared_secret for the transaction, a method nothing in the repository calls"
  },
  {
   "property": "C08",
   "status": "proved",
   "theorems": [
    "Verif.CA.C08_accept_sound",
    "Verif.CA.C08_unknown_rejected",
    "Verif.CA.C08_message_fresh",
    "Verif.CA.C08_index_once",
    "Verif.CA.C08_enrolment_index_never",
    "Verif.CA.C08_needs_recording",
    "Verif.CA.C08_honest_accepted",
    "Verif.CA.C08_requests_recorded",
    "Verif.CA.C08_confirmation_unrecorded"
   ],
   "note": "for configurations that record checked indices (the default); C08_needs_recording shows the configuration matters"
  },
  {
   "property": "C09",
   "status": "proved",
   "theorems": [
    "Verif.CA.C09_fair",
    "Verif.CA.C09_at_most_issued",
    "Verif.CA.C09_unknown_refused",
    "Verif.CA.C09_success_sound",
    "Verif.CA.C09_cr_consumed_without_certificate",
    "Verif.CA.C09_issued_iff",
    "Verif.CA.C09_accepted_iff"
   ],
   "note": ""
  },
  {
   "property": "C87",
   "status": "partial",
   "theorems": [
    "Verif.CA.C87_rr_index_unchecked_refuted",
    "Verif.CA.C87_rr_ignores_state",
    "Verif.CA.C87_other_types_partial"
   ],
   "note": "false of the code for rr messages: the stateful index is not consulted; proved for all other message types"
  },
  {
   "property": "C88",
   "status": "partial",
   "theorems": [
    "Verif.CA.C88_nested_always_rejected"
   ],
   "note": "false of the code: the outer protection is checked twice, so the second check always finds the index used; the negation is proved for all states"
  },
  {
   "property": "C05",
   "status": "proved",
   "theorems": [
    "Verif.CA.C05_second_refused",
    "Verif.CA.C05_at_most_once",
    "Verif.CA.C05_implicit_refused",
    "Verif.CA.C05_issued_state"
   ],
   "note": ""
  },
  {
   "property": "C06",
   "status": "proved",
   "theorems": [
    "Verif.CA.C06_bound",
    "Verif.CA.C06_nonces_iff"
   ],
   "note": ""
  },
  {
   "property": "C10",
   "status": "proved",
   "theorems": [
    "Verif.CA.C10_revoked",
    "Verif.CA.C10_good_iff",
    "Verif.CA.C10_unauthorized_iff",
    "Verif.CA.C10_db_revoked",
    "Verif.CA.C10_db_good"
   ],
   "note": ""
  },
  {
   "property": "C11",
   "status": "partial",
   "theorems": [
    "Verif.CA.C11_db_contents",
    "Verif.CA.C11_db_number_constant_refuted",
    "Verif.CA.C11_numbers_increase_partial",
    "Verif.CA.C11_served_crl_refuted"
   ],
   "note": "false through CertificateDB: a new CertRevStateDB is built per request, so the CRL number is constant; the CRL the CA serves is built from a state database that no request writes, so it is always empty; proved for one CertRevStateDB"
  },
  {
   "property": "C12",
   "status": "partial",
   "theorems": [
    "Verif.CA.C12_exact",
    "Verif.CA.C12_ccr_refuted",
    "Verif.CA.C12_keyless_refuted",
    "Verif.CA.C12_detects_partial",
    "Verif.CA.C12_sound"
   ],
   "note": "false of the code for ccr bodies and when an earlier stored certificate has no comparable key"
  },
  {
   "property": "C21",
   "status": "proved",
   "theorems": [
    "Verif.CA.C21_add",
    "Verif.CA.C21_remove_first",
    "Verif.CA.C21_remove_absent",
    "Verif.CA.C21_is_revoked",
    "Verif.CA.C21_balance",
    "Verif.CA.C21_is_revoked_history"
   ],
   "note": ""
  },
  {
   "property": "C22",
   "status": "proved",
   "theorems": [
    "Verif.CA.C22_status"
   ],
   "note": ""
  },
  {
   "property": "C23",
   "status": "partial",
   "theorems": [
    "Verif.CA.C23_exact",
    "Verif.CA.C23_other_subject_refuted",
    "Verif.CA.C23_pending_update_refuted",
    "Verif.CA.C23_same_key_partial",
    "Verif.CA.C23_reuse_allowed",
    "Verif.CA.C23_p10cr_partial",
    "Verif.CA.C23_p10cr_no_key"
   ],
   "note": "false of the code: key reuse by another subject and keys of unconfirmed updates are not detected"
  },
  {
   "property": "C86",
   "status": "partial",
   "theorems": [
    "Verif.CA.C86_rejection_confirms_refuted",
    "Verif.CA.C86_always_confirmed",
    "Verif.CA.C86_result"
   ],
   "note": "false of the code; the negation is proved for every accepted certConf"
  },
  {
   "property": "C91",
   "status": "partial",
   "theorems": [
    "Verif.CA.C91_contains_hash_partial",
    "Verif.CA.C91_get_by_hash_partial",
    "Verif.CA.C91_updated_lookup_refuted",
    "Verif.CA.C91_updated_lookup_fails",
    "Verif.CA.C91_updated_lookup_sha1_partial"
   ],
   "note": "false of the code for hash algorithms other than SHA-1"
  },
  {
   "property": "C92",
   "status": "partial",
   "theorems": [
    "Verif.CA.C92_updated_raises",
    "Verif.CA.C92_refuted",
    "Verif.CA.C92_answered_partial"
   ],
   "note": "false of the code for updated certificates: NotImplementedError"
  },
  {
   "property": "C93",
   "status": "partial",
   "theorems": [
    "Verif.CA.C93_any_hash_refuted",
    "Verif.CA.C93_hash_bound_partial"
   ],
   "note": "false of the code when the certConf reports a rejection; proved otherwise"
  },
  {
   "property": "C94",
   "status": "partial",
   "theorems": [
    "Verif.CA.C94_stateful_other_signer_refuted",
    "Verif.CA.C94_same_authority_partial"
   ],
   "note": "false of the code for stateful hash-based signatures"
  },
  {
   "property": "C95",
   "status": "proved",
   "theorems": [
    "Verif.CA.C95_issue_pending",
    "Verif.CA.C95_stays_pending",
    "Verif.CA.C95_honest_accepted",
    "Verif.CA.C95_honest_accepted_kup",
    "Verif.CA.C95_is_not_confirmed"
   ],
   "note": "for ip, cp and ccp responses; a kup response is confirmable as long as the old certificate is still waiting (C95_honest_accepted_kup)"
  },
  {
   "property": "C14",
   "status": "proved",
   "theorems": [
    "Verif.Check.C14_iff"
   ],
   "note": ""
  },
  {
   "property": "C16",
   "status": "proved",
   "theorems": [
    "Verif.Check.C16_iff"
   ],
   "note": ""
  },
  {
   "property": "C17",
   "status": "partial",
   "theorems": [
    "Verif.Check.C17_refuted",
    "Verif.Check.C17_rr_refuted",
    "Verif.Check.C17_last_of_each_body_partial",
    "Verif.Check.C17_distinct_bodies_partial",
    "Verif.Check.C17_accepts"
   ],
   "note": "false of the code: the dictionary of requests is keyed by body type, so only the last request of each type is checked, and rr, ccr, certConf raise KeyError"
  },
  {
   "property": "C18",
   "status": "proved",
   "theorems": [
    "Verif.Check.C18_iff"
   ],
   "note": ""
  },
  {
   "property": "C25",
   "status": "partial",
   "theorems": [
    "Verif.Check.C25_txid_iff",
    "Verif.Check.C25_nonce_exact",
    "Verif.Check.C25_nonce_partial",
    "Verif.Check.C25_rounding_refuted",
    "Verif.Check.C25_header_iff"
   ],
   "note": "false for nonce_sec not divisible by 8 (rounded down); proved for all multiples of 8, including the default, and exactly characterised for all values"
  },
  {
   "property": "C26",
   "status": "proved",
   "theorems": [
    "Verif.Check.C26_unique_iff",
    "Verif.Check.C26_diverse_iff",
    "Verif.Check.C26_distance",
    "Verif.Check.C26_diverse_unique"
   ],
   "note": ""
  },
  {
   "property": "C80",
   "status": "partial",
   "theorems": [
    "Verif.Check.C80_equality_modes",
    "Verif.Check.C80_contains_exact",
    "Verif.Check.C80_contains_seq_exact",
    "Verif.Check.C80_contains_refuted",
    "Verif.Check.C80_contains_swapped_partial"
   ],
   "note": "false of the code for contains and contains_seq: the direction is inverted"
  },
  {
   "property": "C81",
   "status": "partial",
   "theorems": [
    "Verif.Check.C81_first_byte",
    "Verif.Check.C81_payload_changed",
    "Verif.Check.C81_index_swapped",
    "Verif.Check.C81_index_refuted",
    "Verif.Check.C81_default_index_in_range_refuted",
    "Verif.Check.C81_index_partial",
    "Verif.Check.C81_position",
    "Verif.Check.C81_index_accepted",
    "Verif.Check.C81_default_index",
    "Verif.Check.C81_payload_accepted"
   ],
   "note": "the index is written little-endian and read big-endian"
  },
  {
   "property": "C82",
   "status": "proved",
   "theorems": [
    "Verif.Check.C82_reject_iff",
    "Verif.Check.C82_expand"
   ],
   "note": ""
  },
  {
   "property": "C83",
   "status": "proved",
   "theorems": [
    "Verif.Check.C83_iff",
    "Verif.Check.C83_protected_batch_unanswerable_refuted"
   ],
   "note": ""
  },
  {
   "property": "C84",
   "status": "partial",
   "theorems": [
    "Verif.Check.C84_refuted",
    "Verif.Check.C84_complete_partial",
    "Verif.Check.C84_sound_partial",
    "Verif.Check.C84_find_cert"
   ],
   "note": "false of the code after an issuer that occurred earlier: the running index is incremented instead of set; no ordered chain is rejected"
  },
  {
   "property": "C96",
   "status": "partial",
   "theorems": [
    "Verif.Check.C96_request_time",
    "Verif.Check.C96_response_time_refuted",
    "Verif.Check.C96_response_time_partial"
   ],
   "note": "false of the code: responses dated before the request are never rejected"
  },
  {
   "property": "C97",
   "status": "partial",
   "theorems": [
    "Verif.Check.C97_rejection_refuted",
    "Verif.Check.C97_accepted_partial",
    "Verif.Check.C97_status_values"
   ],
   "note": "false of the code: the status name 'rejected' does not exist, so every rejection raises"
  },
  {
   "property": "C98",
   "status": "partial",
   "theorems": [
    "Verif.Check.C98_roundtrip_refuted",
    "Verif.Check.C98_nonexclusive_integer_refuted",
    "Verif.Check.C98_exclusive_integer_partial",
    "Verif.Check.C98_single_bit_partial",
    "Verif.Check.C98_any_bit_partial",
    "Verif.Check.C98_own_names_partial",
    "Verif.Check.C98_names_to_bits_partial"
   ],
   "note": ""
  },
  {
   "property": "C99",
   "status": "proved",
   "theorems": [
    "Verif.Check.C99_request_ids_iff"
   ],
   "note": ""
  },
  {
   "property": "C30",
   "status": "proved",
   "theorems": [
    "Verif.PQ.Kem.C30_bits_bytes"
   ],
   "note": ""
  },
  {
   "property": "C31",
   "status": "proved",
   "theorems": [
    "Verif.PQ.Kem.C31_decode_encode",
    "Verif.PQ.Kem.C31_encode_decode",
    "Verif.PQ.Kem.C31_decode_injective",
    "Verif.PQ.Kem.C31_encode_length",
    "Verif.PQ.Kem.C31_decode12_not_injective"
   ],
   "note": ""
  },
  {
   "property": "C32",
   "status": "proved",
   "theorems": [
    "Verif.PQ.Kem.C32_compress_decompress",
    "Verif.PQ.Kem.C32_error_bound",
    "Verif.PQ.Kem.C32_bound_tight"
   ],
   "note": "d >= 1 (decompress shifts by d-1)"
  },
  {
   "property": "C33",
   "status": "proved",
   "theorems": [
    "Verif.PQ.Kem.C33_inverse_ntt",
    "Verif.PQ.Kem.C33_ntt_inverse",
    "Verif.PQ.Kem.C33_range"
   ],
   "note": ""
  },
  {
   "property": "C34",
   "status": "proved",
   "theorems": [
    "Verif.PQ.Kem.C34_multiply"
   ],
   "note": ""
  },
  {
   "property": "C35",
   "status": "proved",
   "theorems": [
    "Verif.PQ.Kem.C35_decrypt_iff",
    "Verif.PQ.Kem.C35_decrypt_encrypt"
   ],
   "note": "exact noise condition; hash functions, PRF and XOF are arbitrary functions"
  },
  {
   "property": "C36",
   "status": "proved",
   "theorems": [
    "Verif.PQ.Kem.C36_agreement"
   ],
   "note": ""
  },
  {
   "property": "C37",
   "status": "proved",
   "theorems": [
    "Verif.PQ.Kem.C37_implicit_rejection",
    "Verif.PQ.Kem.C37_tampered"
   ],
   "note": ""
  },
  {
   "property": "C38",
   "status": "proved",
   "theorems": [
    "Verif.PQ.Kem.C38_key_sizes",
    "Verif.PQ.Kem.C38_ciphertext_size",
    "Verif.PQ.Kem.C38_public_key"
   ],
   "note": ""
  },
  {
   "property": "C39",
   "status": "proved",
   "theorems": [
    "Verif.PQ.Kem.C39_sample_ntt",
    "Verif.PQ.Kem.C39_sample_ntt_poly",
    "Verif.PQ.Kem.C39_cbd"
   ],
   "note": ""
  },
  {
   "property": "C40",
   "status": "proved",
   "theorems": [
    "Verif.PQ.Dsa.C40_integer_bits",
    "Verif.PQ.Dsa.C40_bits_integer",
    "Verif.PQ.Dsa.C40_integer_of_bits",
    "Verif.PQ.Dsa.C40_integer_bytes",
    "Verif.PQ.Dsa.C40_bits_bytes"
   ],
   "note": ""
  },
  {
   "property": "C41",
   "status": "proved",
   "theorems": [
    "Verif.PQ.Dsa.C41_unpack_pack",
    "Verif.PQ.Dsa.C41_pack_unpack",
    "Verif.PQ.Dsa.C41_range"
   ],
   "note": ""
  },
  {
   "property": "C42",
   "status": "proved",
   "theorems": [
    "Verif.PQ.Dsa.C42_unpack_pack",
    "Verif.PQ.Dsa.C42_pack_unpack",
    "Verif.PQ.Dsa.C42_unique"
   ],
   "note": ""
  },
  {
   "property": "C43",
   "status": "proved",
   "theorems": [
    "Verif.PQ.Dsa.C43_power2round",
    "Verif.PQ.Dsa.C43_decompose",
    "Verif.PQ.Dsa.C43_decompose_unique"
   ],
   "note": ""
  },
  {
   "property": "C44",
   "status": "proved",
   "theorems": [
    "Verif.PQ.Dsa.C44_use_hint",
    "Verif.PQ.Dsa.C44_perturbation"
   ],
   "note": ""
  },
  {
   "property": "C45",
   "status": "proved",
   "theorems": [
    "Verif.PQ.Dsa.C45_inverse",
    "Verif.PQ.Dsa.C45_multiply"
   ],
   "note": ""
  },
  {
   "property": "C46",
   "status": "proved",
   "theorems": [
    "Verif.PQ.Dsa.C46_pure_injective",
    "Verif.PQ.Dsa.C46_hash_injective",
    "Verif.PQ.Dsa.C46_domains",
    "Verif.PQ.Dsa.C46_long_context"
   ],
   "note": ""
  },
  {
   "property": "C47",
   "status": "proved",
   "theorems": [
    "Verif.PQ.Dsa.C47_sign_verify",
    "Verif.PQ.Dsa.C47_external"
   ],
   "note": "for every run of the rejection loop that ends; hash functions are arbitrary functions of the right output length"
  },
  {
   "property": "C48",
   "status": "partial",
   "theorems": [
    "Verif.PQ.Dsa.C48_longer_accepted_refuted",
    "Verif.PQ.Dsa.C48_trailing_ignored",
    "Verif.PQ.Dsa.C48_accepted_partial",
    "Verif.PQ.Dsa.C48_bad_hint_partial"
   ],
   "note": "false of the code: signatures with extra trailing bytes are accepted; everything else about acceptance is proved"
  },
  {
   "property": "C49",
   "status": "proved",
   "theorems": [
    "Verif.PQ.Dsa.C49_sizes",
    "Verif.PQ.Dsa.C49_derive",
    "Verif.PQ.Dsa.C49_import",
    "Verif.PQ.Dsa.C49_import_lengths"
   ],
   "note": ""
  },
  {
   "property": "C100",
   "status": "partial",
   "theorems": [
    "Verif.PQ.Dsa.C100_hash_mismatch_refuted",
    "Verif.PQ.Dsa.C100_sign_verify_partial",
    "Verif.PQ.Dsa.C100_domains"
   ],
   "note": "false of the code for an unsupported hash algorithm: sign falls back to pure mode, verify raises ValueError"
  },
  {
   "property": "C50",
   "status": "proved",
   "theorems": [
    "Verif.PQ.Slh.C50_int_of_byte",
    "Verif.PQ.Slh.C50_byte_of_int",
    "Verif.PQ.Slh.C50_digits",
    "Verif.PQ.Slh.C50_digits_unique"
   ],
   "note": ""
  },
  {
   "property": "C51",
   "status": "proved",
   "theorems": [
    "Verif.PQ.Slh.C51_setters",
    "Verif.PQ.Slh.C51_set_type",
    "Verif.PQ.Slh.C51_injective",
    "Verif.PQ.Slh.C51_compressed",
    "Verif.PQ.Slh.C51_params"
   ],
   "note": ""
  },
  {
   "property": "C52",
   "status": "proved",
   "theorems": [
    "Verif.PQ.Slh.C52_checksum"
   ],
   "note": ""
  },
  {
   "property": "C53",
   "status": "proved",
   "theorems": [
    "Verif.PQ.Slh.C53_wots",
    "Verif.PQ.Slh.C53_xmss",
    "Verif.PQ.Slh.C53_hypertree",
    "Verif.PQ.Slh.C53_fors"
   ],
   "note": ""
  },
  {
   "property": "C54",
   "status": "proved",
   "theorems": [
    "Verif.PQ.Slh.C54_sign_verify",
    "Verif.PQ.Slh.C54_lengths",
    "Verif.PQ.Slh.C54_context",
    "Verif.PQ.Slh.C54_context_injective"
   ],
   "note": "hash functions are arbitrary functions of the right output length"
  },
  {
   "property": "C55",
   "status": "partial",
   "theorems": [
    "Verif.PQ.Slh.C55_prehash_refuted",
    "Verif.PQ.Slh.C55_verify_partial"
   ],
   "note": "false of the code: hash_slh_sign knows lower-case names only, the verification upper-case ones only, and hash_slh_sign swaps key and message"
  },
  {
   "property": "C101",
   "status": "partial",
   "theorems": [
    "Verif.PQ.Slh.C101_import",
    "Verif.PQ.Slh.C101_import_lengths",
    "Verif.PQ.Slh.C101_plain_import_partial",
    "Verif.PQ.Slh.C101_inconsistent_key_refuted"
   ],
   "note": "false of the code for plain private keys: the root is not checked against the seeds"
  },
  {
   "property": "C102",
   "status": "partial",
   "theorems": [
    "Verif.PQ.Slh.C102_sign_verify",
    "Verif.PQ.Slh.C102_domains",
    "Verif.PQ.Slh.C102_unsupported_hash_refuted"
   ],
   "note": "agreement holds for all arguments; an unsupported hash silently selects pure mode"
  },
  {
   "property": "C60",
   "status": "proved",
   "theorems": [
    "Verif.PQ.Frodo.C60_unpack_pack",
    "Verif.PQ.Frodo.C60_pack_unpack"
   ],
   "note": ""
  },
  {
   "property": "C61",
   "status": "proved",
   "theorems": [
    "Verif.PQ.Frodo.C61_decode_iff",
    "Verif.PQ.Frodo.C61_decode_encode"
   ],
   "note": ""
  },
  {
   "property": "C62",
   "status": "proved",
   "theorems": [
    "Verif.PQ.Frodo.C62_completes",
    "Verif.PQ.Frodo.C62_agreement",
    "Verif.PQ.Frodo.C62_implicit_rejection"
   ],
   "note": "hash functions are arbitrary functions of the right output length"
  },
  {
   "property": "C63",
   "status": "proved",
   "theorems": [
    "Verif.PQ.Frodo.C63_ctverify",
    "Verif.PQ.Frodo.C63_ctselect"
   ],
   "note": "functional behaviour only; timing is not modelled"
  },
  {
   "property": "C64",
   "status": "proved",
   "theorems": [
    "Verif.PQ.Frodo.C64_bound",
    "Verif.PQ.Frodo.C64_monotone",
    "Verif.PQ.Frodo.C64_distribution",
    "Verif.PQ.Frodo.C64_tables"
   ],
   "note": ""
  },
  {
   "property": "C74",
   "status": "proved",
   "theorems": [
    "Verif.PQ.Mech.C74_round_trip",
    "Verif.PQ.Mech.C74_modulus_length",
    "Verif.PQ.Mech.C74_completes",
    "Verif.PQ.Mech.C74_rejects",
    "Verif.PQ.Mech.C74_unique",
    "Verif.PQ.Mech.C74_large_rand_refuted"
   ],
   "note": "for random values below the modulus, which is what the code draws; C74_large_rand_refuted shows that an explicit rand argument above the modulus breaks the agreement"
  },
  {
   "property": "C75",
   "status": "proved",
   "theorems": [
    "Verif.PQ.Mech.C75_stream",
    "Verif.PQ.Mech.C75_prefix",
    "Verif.PQ.Mech.C75_overflow"
   ],
   "note": "the digest is an arbitrary function with 32-byte output"
  },
  {
   "property": "C103",
   "status": "partial",
   "theorems": [
    "Verif.PQ.Mech.C103_ecdh_agreement",
    "Verif.PQ.Mech.C103_agreement",
    "Verif.PQ.Mech.C103_class_agreement",
    "Verif.PQ.Mech.C103_rfc9180",
    "Verif.PQ.Mech.C103_suite_refuted",
    "Verif.PQ.Mech.C103_suite_partial"
   ],
   "note": "agreement and RFC 9180 conformance proved under the stated laws of the exchange; false: the brainpool curves share the suite identifiers of the NIST curves"
  },
  {
   "property": "C104",
   "status": "partial",
   "theorems": [
    "Verif.PQ.Keys.C104_import",
    "Verif.PQ.Keys.C104_lengths",
    "Verif.PQ.Keys.C104_public_lengths",
    "Verif.PQ.Keys.C104_agreement",
    "Verif.PQ.Keys.C104_ciphertext_length",
    "Verif.PQ.Keys.C104_any_seed_accepted",
    "Verif.PQ.Keys.C104_seed_refuted",
    "Verif.PQ.Keys.C104_export_changes_key"
   ],
   "note": "false of the code: from_private_bytes compares the private key with itself, so a seed that does not belong to the key is accepted and exported; everything else is proved"
  },
  {
   "property": "C105",
   "status": "partial",
   "theorems": [
    "Verif.PQ.Keys.C105_import",
    "Verif.PQ.Keys.C105_agreement",
    "Verif.PQ.Keys.C105_ciphertext_length",
    "Verif.PQ.Keys.C105_wrong_length_used",
    "Verif.PQ.Keys.C105_lengths_refuted"
   ],
   "note": "false of the code: without liboqs, key lengths are not checked on import and the error surfaces as AssertionError in use; everything else is proved"
  },
  {
   "property": "C106",
   "status": "partial",
   "theorems": [
    "Verif.PQ.Keys.C106_modulus_refuted",
    "Verif.PQ.Keys.C106_hash_refuted",
    "Verif.PQ.Keys.C106_agreement_refuted"
   ],
   "note": "false of the code: neither check of FIPS 203 sections 7.2 and 7.3 is made; there is no partial positive theorem beyond the length checks of C104"
  },
  {
   "property": "C71",
   "status": "partial",
   "theorems": [
    "Verif.PQ.Hyb.C71_agreement",
    "Verif.PQ.Hyb.C71_mlkem",
    "Verif.PQ.Hyb.C71_public_key",
    "Verif.PQ.Hyb.C71_public_key_rsa",
    "Verif.PQ.Hyb.C71_inputs",
    "Verif.PQ.Hyb.C71_binding",
    "Verif.PQ.Hyb.C71_kdf",
    "Verif.PQ.Hyb.C71_cms_kdf",
    "Verif.PQ.Hyb.C71_cms_kdf_refuted",
    "Verif.PQ.Hyb.C71_oids_partial",
    "Verif.PQ.Hyb.C71_oids_refuted",
    "Verif.PQ.Hyb.C71_rsa_unusable"
   ],
   "note": "agreement and binding proved; false of the code: with use_in_cms the KDF of the algorithm is never used, and RSA keys of other sizes give a private key whose public key has no identifier"
  },
  {
   "property": "C72",
   "status": "partial",
   "theorems": [
    "Verif.PQ.Hyb.C72_agreement",
    "Verif.PQ.Hyb.C72_binding_partial",
    "Verif.PQ.Hyb.C72_trailing",
    "Verif.PQ.Hyb.C72_short",
    "Verif.PQ.Hyb.C72_unique_refuted"
   ],
   "note": "agreement proved; false of the code: bytes after the 1120th are ignored by decaps; among ciphertexts of 1120 bytes the X25519 part is unique up to SHA3 collisions"
  },
  {
   "property": "C73",
   "status": "partial",
   "theorems": [
    "Verif.PQ.Hyb.C73_agreement",
    "Verif.PQ.Hyb.C73_table",
    "Verif.PQ.Hyb.C73_context_refuted",
    "Verif.PQ.Hyb.C73_context_partial",
    "Verif.PQ.Hyb.C73_binding",
    "Verif.PQ.Hyb.C73_secp521"
   ],
   "note": "agreement and binding proved; false of the code: the AES and SHAKE variants of FrodoKEM share their context, which is the only exception"
  },
  {
   "property": "C108",
   "status": "proved",
   "theorems": [
    "Verif.PQ.Hyb.C108_import",
    "Verif.PQ.Hyb.C108_checked",
    "Verif.PQ.Hyb.C108_lengths",
    "Verif.PQ.Hyb.C108_public",
    "Verif.PQ.Hyb.C108_public_export"
   ],
   "note": "X25519 and SHAKE256 are parameters with the laws of XLaws"
  },
  {
   "property": "C70",
   "status": "partial",
   "theorems": [
    "Verif.PQ.CSig.C70_verify_iff",
    "Verif.PQ.CSig.C70_sign_verify_partial",
    "Verif.PQ.CSig.C70_mldsa",
    "Verif.PQ.CSig.C70_injective",
    "Verif.PQ.CSig.C70_domains",
    "Verif.PQ.CSig.C70_rsa_size",
    "Verif.PQ.CSig.C70_sign_verify_refuted"
   ],
   "note": "verification is exactly that of the draft; false of the code: an RSA key of another size signs (its size is rounded), but its public key refuses every signature"
  },
  {
   "property": "C109",
   "status": "partial",
   "theorems": [
    "Verif.PQ.CSig.C109_only_padding",
    "Verif.PQ.CSig.C109_identifier_refuted",
    "Verif.PQ.CSig.C109_identifier_partial",
    "Verif.PQ.CSig.C109_sign_verify",
    "Verif.PQ.CSig.C109_load_public_partial",
    "Verif.PQ.CSig.C109_load_public_refuted",
    "Verif.PQ.CSig.C109_load_private"
   ],
   "note": "false of the code: verify_signature_with_alg_id uses the identifier only to choose the RSA padding, and the public loader accepts an RSA key of another size of the table; private keys are loaded faithfully"
  },
  {
   "property": "C110",
   "status": "partial",
   "theorems": [
    "Verif.PQ.Store.C110_partial",
    "Verif.PQ.Store.C110_trailing",
    "Verif.PQ.Store.C110_both_loads",
    "Verif.PQ.Store.C110_both_refuted",
    "Verif.PQ.Store.mlKem_made",
    "Verif.PQ.Store.mlDsa_made"
   ],
   "note": "Seeds and private bytes are loaded. Both together are not: the factory cuts the input to the size of the private key, so that the seed becomes the start of the key and its end is lost. Bytes after the private key are ignored. Modelled for ML-KEM and ML-DSA."
  },
  {
   "property": "C111",
   "status": "partial",
   "theorems": [
    "Verif.PQ.Store.C111_public_partial",
    "Verif.PQ.Store.C111_public_raw",
    "Verif.PQ.Store.C111_public_refuted",
    "Verif.PQ.Store.C111_both_ignored",
    "Verif.PQ.Store.C111_both_refuted",
    "Verif.PQ.Store.mlKem_pub",
    "Verif.PQ.Store.mlDsa_pub"
   ],
   "note": "A non-empty public key is checked. False for an empty one with raw private bytes (it becomes the public key), and for seed with private bytes: the keys are compared by type only, so that the private bytes are ignored."
  },
  {
   "property": "C112",
   "status": "partial",
   "theorems": [
    "Verif.PQ.Store.C112_round_trip",
    "Verif.PQ.Store.C112_version0_refuted",
    "Verif.PQ.Store.C112_old_partial",
    "Verif.PQ.Store.C112_old_fails",
    "Verif.PQ.Store.C112_old_refuted",
    "Verif.PQ.Store.mlKem_made",
    "Verif.PQ.Store.mlDsa_made"
   ],
   "note": "Version 2 structures, and version 1 without public key, are loaded again. Version 1 with the default arguments is written with a public key and then refused. The old format is not loaded again if the seed starts like a DER element of the inner structure."
  },
  {
   "property": "C113",
   "status": "partial",
   "theorems": [
    "Verif.CA.C113_update_recorded",
    "Verif.CA.C113_update_confirmed",
    "Verif.CA.C113_kup_linked_partial",
    "Verif.CA.C113_relink_refuted"
   ],
   "note": "false of the code in one case: an implicitly confirmed second update of a certificate with an abandoned pending update keeps the link to the abandoned certificate; proved otherwise"
  },
  {
   "property": "C76",
   "status": "proved",
   "theorems": [
    "Verif.PQ.Stfl.C76_signing_order",
    "Verif.PQ.Stfl.C76_range",
    "Verif.PQ.Stfl.C76_same_index",
    "Verif.PQ.Stfl.C76_ca_index",
    "Verif.PQ.Stfl.C76_leaf_is_remainder",
    "Verif.PQ.Stfl.C76_leaf_index_refuted"
   ],
   "note": "The combined index numbers the signatures in signing order. The bottom leaf number alone, which return_lms_index selects, is shown not to identify a signature."
  },
  {
   "property": "C77",
   "status": "partial",
   "theorems": [
    "Verif.PQ.Stfl.C77_depth",
    "Verif.PQ.Stfl.C77_enforced_partial",
    "Verif.PQ.Stfl.C77_not_enforced_partial",
    "Verif.PQ.Stfl.C77_enforcement_refuted",
    "Verif.PQ.Stfl.C77_heights_refuted",
    "Verif.PQ.Stfl.C77_key"
   ],
   "note": "False of the code: the enforcement flag is inverted (mixed levels pass when enforcement is asked for) and heights are never compared. Proved: what each flag value accepts, the depth limits, and that a loaded key passes exactly with one to eight levels."
  },
  {
   "property": "C78",
   "status": "partial",
   "theorems": [
    "Verif.PQ.Stfl.C78_xmss_all_names",
    "Verif.PQ.Stfl.C78_xmssmt_all_names",
    "Verif.PQ.Stfl.C78_xmss_table",
    "Verif.PQ.Stfl.C78_xmssmt_table",
    "Verif.PQ.Stfl.C78_list_refuted",
    "Verif.PQ.Stfl.C78_template_xmss",
    "Verif.PQ.Stfl.C78_template_xmssmt",
    "Verif.PQ.Stfl.C78_template_hss"
   ],
   "note": "The filter accepts exactly the SP 800-208 sets. The list XMSSMT_NOT_APPROVED itself misses sixteen sets and has eight names that no set carries."
  },
  {
   "property": "C114",
   "status": "partial",
   "theorems": [
    "Verif.PQ.Stfl.C114_xmss",
    "Verif.PQ.Stfl.C114_xmss_reload",
    "Verif.PQ.Stfl.C114_xmssmt_partial",
    "Verif.PQ.Stfl.C114_xmssmt_refuted",
    "Verif.PQ.Stfl.C114_default_name_refuted",
    "Verif.PQ.Stfl.C114_hss"
   ],
   "note": "Holds for XMSS and HSS. For XMSS^MT unknown identifiers and the 24 sets of SP 800-208 from 0x21 on raise KeyError. The default name of public and private XMSS keys differs."
  },
  {
   "property": "C115",
   "status": "partial",
   "theorems": [
    "Verif.PQ.Stfl.C115_xmss_public",
    "Verif.PQ.Stfl.C115_xmss_index",
    "Verif.PQ.Stfl.C115_xmss_pkcs8",
    "Verif.PQ.Stfl.C115_private_numbers_refuted",
    "Verif.PQ.Stfl.C115_xmssmt_public_partial",
    "Verif.PQ.Stfl.C115_xmssmt_refuted",
    "Verif.PQ.Stfl.C115_xmssmt_index",
    "Verif.PQ.Stfl.C115_hss_load",
    "Verif.PQ.Stfl.C115_hss_default_levels"
   ],
   "note": "Holds for XMSS and the first 32 XMSS^MT sets; private keys of the other 24 cannot be loaded. private_numbers is four bytes short."
  },
  {
   "property": "C116",
   "status": "partial",
   "theorems": [
    "Verif.PQ.Stfl.C116_xmss",
    "Verif.PQ.Stfl.C116_xmssmt",
    "Verif.PQ.Stfl.C116_last_index_refuted",
    "Verif.PQ.Stfl.C116_exhaust_refuted",
    "Verif.PQ.Stfl.C116_used",
    "Verif.PQ.Stfl.C116_used_range_refuted"
   ],
   "note": "The index asked for is set. last_index has no effect without an index; keys of height 40 cannot be exhausted; the first index past the history is an IndexError. The HSS branch is not modelled."
  },
  {
   "property": "C89",
   "status": "partial",
   "theorems": [
    "Verif.CA.C89_signer_partial",
    "Verif.CA.C89_stranger_revokes_refuted",
    "Verif.CA.C89_self_revive_refuted"
   ],
   "note": "False of the code: any certificate that verifies may revoke any other issued certificate, and the holder of a revoked certificate can revive it. Proved: what is required of the signer (attached certificate, not updated, revoked only for removeFromCRL)."
  },
  {
   "property": "C117",
   "status": "partial",
   "theorems": [
    "Verif.Check.C117_all",
    "Verif.Check.C117_include",
    "Verif.Check.C117_exclude",
    "Verif.Check.C117_total",
    "Verif.Check.C117_ext_value_refuted",
    "Verif.Check.C117_issuer_refuted"
   ],
   "note": "The exact acceptance condition is proved, and it falls short of the claim: extension values are not compared, and the include string used by the revocation code does not select the issuer."
  },
  {
   "property": "C118",
   "status": "partial",
   "theorems": [
    "Verif.Check.C118_include_partial",
    "Verif.Check.C118_exclude_partial",
    "Verif.Check.C118_blank_refuted"
   ],
   "note": "Holds for lists without blanks; with a blank after a comma the option is not recognised."
  },
  {
   "property": "C119",
   "status": "partial",
   "theorems": [
    "Verif.Check.C119_found",
    "Verif.Check.C119_unknown",
    "Verif.Check.C119_reason",
    "Verif.Check.C119_accepted",
    "Verif.Check.C119_version_refuted",
    "Verif.Check.C119_answer",
    "Verif.Check.C119_nonlwcmp_refuted"
   ],
   "note": "Holds for LwCMP requests. A template with a version field fails, and the non-LwCMP path always raises because an entry variable is rebound before it is read again."
  },
  {
   "property": "C120",
   "status": "partial",
   "theorems": [
    "Verif.CA.C120_effect",
    "Verif.CA.C120_unverified",
    "Verif.CA.C120_verified_iff",
    "Verif.CA.C120_wrong_signature",
    "Verif.CA.C120_dh_refuted",
    "Verif.CA.C120_accepts",
    "Verif.CA.C120_kem_reuse_refuted"
   ],
   "note": "Effects and rejection are proved. DH-protected requests never verify, and a KEM shared secret can be used for several requests."
  },
  {
   "property": "C24",
   "status": "partial",
   "theorems": [
    "Verif.CA.C24_effect_checked",
    "Verif.CA.C24_failed_no_effect",
    "Verif.CA.C24_exception_answer",
    "Verif.CA.C24_rr_answer",
    "Verif.CA.C24_open_confirmation",
    "Verif.CA.C24_total_partial",
    "Verif.CA.C24_certReq",
    "Verif.CA.C24_certConf",
    "Verif.CA.C24_compromised_check_idle_refuted",
    "Verif.CA.C24_dh_uncaught_refuted",
    "Verif.CA.C24_kem_challenge_refuted",
    "Verif.CA.C24_revoked_key_certified_refuted",
    "Verif.CA.C24_ccr_key_refuted"
   ],
   "note": "Proved: an effect implies that every check of the message passed, and every caught exception is answered with an error or a rejection. False of the code: the compromised-key check reads a database that is never written, ccr messages skip it, and the DH and KEM paths have exceptions that are not caught."
  },
  {
   "property": "C13",
   "status": "partial",
   "theorems": [
    "Verif.CA.C13_sun_partial",
    "Verif.CA.C13_discovery_partial",
    "Verif.CA.C13_unique_partial",
    "Verif.CA.C13_requested_serial_refuted",
    "Verif.CA.C13_other_serials_refuted",
    "Verif.CA.C13_sun_collision_refuted"
   ],
   "note": "False of the code: the requester may name any serial number in the template, only Sun-hybrid certificates are consulted, and after 100 collisions a used number is returned. Proved: the exact outcome of both loops, and uniqueness over all histories if no requester names a number and the random generator does not repeat itself."
  },
  {
   "property": "C15",
   "status": "partial",
   "theorems": [
    "Verif.CA.C15_one_for_one",
    "Verif.CA.C15_unambiguous",
    "Verif.CA.C15_certConf_only_partial",
    "Verif.CA.C15_failure",
    "Verif.CA.C15_effects_remain",
    "Verif.CA.C15_rr_never",
    "Verif.CA.C15_wrapped_mixed_refuted"
   ],
   "note": "Order, one-for-one answers and the exact failure behaviour are proved. False of the code: a certConf wrapped in a nested message is accepted beside other requests."
  },
  {
   "property": "C90",
   "status": "partial",
   "theorems": [
    "Verif.CA.C90_request_checked_partial",
    "Verif.CA.C90_added_checked",
    "Verif.CA.C90_revoked_signer_refuted",
    "Verif.CA.C90_open_confirmation_refuted",
    "Verif.CA.C90_certConf_unverified_refuted",
    "Verif.CA.C90_forged_certConf_refuted",
    "Verif.CA.C90_unprotected_unconfirmable_refuted"
   ],
   "note": "False of the code: inside a batch a revoked signer and a signer with an unconfirmed certificate are served, the protection of a certConf is never verified, and a certificate issued for an unprotected element cannot be confirmed. Proved: what is checked for an inner certificate request."
  },
  {
   "property": "C107",
   "status": "partial",
   "theorems": [
    "Verif.PQ.Hyb.C107_public",
    "Verif.PQ.Hyb.C107_public_oid",
    "Verif.PQ.Hyb.C107_interchangeable_partial",
    "Verif.PQ.Hyb.C107_interchangeable_refuted",
    "Verif.PQ.Hyb.C107_private",
    "Verif.PQ.Hyb.C107_rsa_unreadable",
    "Verif.PQ.Hyb.C107_formats_unreadable",
    "Verif.PQ.Hyb.C107_saved_refuted",
    "Verif.PQ.Hyb.C107_checked",
    "Verif.PQ.Hyb.C107_rejected",
    "Verif.PQ.Hyb.C107_pkcs8_partial",
    "Verif.PQ.Hyb.C107_mlkem",
    "Verif.PQ.Hyb.C107_names",
    "Verif.PQ.Hyb.C107_errors"
   ],
   "note": "Proved for keys made from ECDH or RSA keys of the usual sizes and saved with their seed, with ML-KEM as an instance of the assumptions. False of the code: a Composite KEM key made from a DHKEM key (default RFC 9180) disagrees with its own public key after that was written and read; keys saved as 'raw' or 'seed_and_raw' cannot be read; an RSA key of another size can be saved but not read."
  },
  {
   "property": "C121",
   "status": "partial",
   "theorems": [
    "Verif.Check.C121_links",
    "Verif.Check.C121_not_signer",
    "Verif.Check.C121_maximal",
    "Verif.Check.C121_found_partial",
    "Verif.Check.C121_trusted",
    "Verif.Check.C121_accepts_partial",
    "Verif.Check.C121_any_holder_refuted",
    "Verif.Check.C121_issuer_not_ca_refuted",
    "Verif.Check.C121_usage_refuted",
    "Verif.Check.C121_order_refuted",
    "Verif.Check.C121_anchor_passed_refuted",
    "Verif.Check.C121_rollover_refuted",
    "Verif.Check.C121_unreadable_refuted",
    "Verif.Check.C121_cycle_refuted"
   ],
   "note": "Soundness of the chain is proved; completeness for unambiguous issuers. False of the code: with post-quantum or composite signatures nothing checks that an issuer is a CA, so every holder of a certificate can act under any name; the key usage of an anchor or a post-quantum signer is not checked; the result depends on the order of the extra certificates; a non-root anchor is passed over if the root is sent; rollover certificates end the chain; one unreadable certificate raises; chains may repeat certificates."
  },
  {
   "property": "C122",
   "status": "partial",
   "theorems": [
    "Verif.Check.C122_certs",
    "Verif.Check.C122_first_signer",
    "Verif.Check.C122_accepted",
    "Verif.Check.C122_sid_refuted",
    "Verif.Check.C122_issuer_not_ca_refuted"
   ],
   "note": "Acceptance is proved to imply chain, anchor, signature, digest and extended key usage. False of the code: the value of the signer identifier is not compared; with a post-quantum key in the chain issuers need not be CAs."
  },
  {
   "property": "C123",
   "status": "partial",
   "theorems": [
    "Verif.Check.C123_usage",
    "Verif.Check.C123_bits",
    "Verif.Check.C123_must_not_partial",
    "Verif.Check.C123_must_not_refuted",
    "Verif.Check.C123_eku_partial",
    "Verif.Check.C123_eku_absent",
    "Verif.Check.C123_eku_repeated_refuted",
    "Verif.Check.C123_eku_blank_refuted"
   ],
   "note": "The key usage check is exact. False of the code: the forbidding check is satisfied as soon as one of several forbidden usages is absent; the extended usage check counts matches, so a repeated usage replaces a missing one, and blanks after commas make it fail always."
  },
  {
   "property": "C124",
   "status": "partial",
   "theorems": [
    "Verif.Hybrid.C124_exact",
    "Verif.Hybrid.C124_rebuilt",
    "Verif.Hybrid.C124_validate_iff",
    "Verif.Hybrid.C124_prepared_valid",
    "Verif.Hybrid.C124_prepared_exts",
    "Verif.Hybrid.C124_valid_rebuilds",
    "Verif.Hybrid.C124_parameters_refuted",
    "Verif.Hybrid.C124_validity_refuted",
    "Verif.Hybrid.C124_extensions_refuted"
   ],
   "note": "The exact condition under which the delta certificate is rebuilt is proved. False of the code: parameters of a differing signature algorithm are lost; a differing validity is rebuilt with a context tag; a delta certificate with other extension types than the base certificate, or another order, is rebuilt with the base certificate's, without an error."
  },
  {
   "property": "C125",
   "status": "partial",
   "theorems": [
    "Verif.Hybrid.C125_pair",
    "Verif.Hybrid.C125_rebuild_partial",
    "Verif.Hybrid.C125_ski_partial",
    "Verif.Hybrid.C125_base_only_refuted",
    "Verif.Hybrid.C125_ski_twice_refuted",
    "Verif.Hybrid.C125_delta_only_refuted",
    "Verif.Hybrid.C125_hash_refuted",
    "Verif.Hybrid.C125_injected_refuted"
   ],
   "note": "Keys, subjects and signatures are proved for all options; rebuilding and key identifiers where both or neither of the requests have extensions. False of the code: if only the base request has extensions the delta certificate cannot be rebuilt, and a requested key identifier appears twice; if only the delta request has extensions the paired certificate gets the key identifier of the delta key; with another hash than SHA-256 and an RSA key of the CA the delta certificate cannot be rebuilt; a descriptor requested by both sides precedes the one of the CA, so the requester chooses the delta key freely."
  },
  {
   "property": "C126",
   "status": "partial",
   "theorems": [
    "Verif.Hybrid.C126_iff",
    "Verif.Hybrid.C126_bad_delta",
    "Verif.Hybrid.C126_built",
    "Verif.Hybrid.C126_sender_partial",
    "Verif.Hybrid.C126_two_requests_refuted"
   ],
   "note": "Acceptance is exact. False of the code: with two delta requests the revocation and reuse checks look at the first, issuing at the last."
  },
  {
   "property": "C127",
   "status": "partial",
   "theorems": [
    "Verif.Hybrid.C127_none_iff",
    "Verif.Hybrid.C127_all_present",
    "Verif.Hybrid.C127_covers",
    "Verif.Hybrid.C127_verify_sound",
    "Verif.Hybrid.C127_sign_verify",
    "Verif.Hybrid.C127_carries_signer_key",
    "Verif.Hybrid.C127_bad_alt_sig",
    "Verif.Hybrid.C127_loaded_key_partial",
    "Verif.Hybrid.C127_issuer_alt_key_refuted",
    "Verif.Hybrid.C127_loaded_key_refuted"
   ],
   "note": "Coverage, soundness and the round trip are proved. False of the code: the alternative signature is checked with the alternative key in the certificate itself, not with the issuer's; with a repeated extension the loaded key is not the one the signature was checked with."
  },
  {
   "property": "C128",
   "status": "partial",
   "theorems": [
    "Verif.Hybrid.C128_pop_sound",
    "Verif.Hybrid.C128_issue_sound",
    "Verif.Hybrid.C128_cert_keys",
    "Verif.Hybrid.C128_request_accepted",
    "Verif.Hybrid.C128_place_partial",
    "Verif.Hybrid.C128_bad_pop_partial",
    "Verif.Hybrid.C128_kem_everywhere_refuted",
    "Verif.Hybrid.C128_bad_pop_refuted"
   ],
   "note": "Possession of both keys, the content of the certificate and acceptance of honest requests are proved. False of the code: with a KEM key the request is answered only in an ir and, if it is the alternative key, only at index 0; bad_pop with two signing keys gives the valid request if the signature starts with 0 or 1."
  },
  {
   "property": "C129",
   "status": "partial",
   "theorems": [
    "Verif.Hybrid.C129_answers",
    "Verif.Hybrid.C129_ids_all_zero",
    "Verif.Hybrid.C129_given_key_partial",
    "Verif.Hybrid.C129_ids_refuted",
    "Verif.Hybrid.C129_pop_with_index_refuted",
    "Verif.Hybrid.C129_chosen_alg_refuted",
    "Verif.Hybrid.C129_extensions_refuted",
    "Verif.Hybrid.C129_ccr_refuted",
    "Verif.Hybrid.C129_client_alt_key_refuted",
    "Verif.Hybrid.C129_bodies"
   ],
   "note": "Order, subject, key, proof of possession (without an index) and verification are proved. False of the code: all responses have certReqId 0; with an index no proof of possession is checked; without an index allow_chosen_sig_alg=False and extensions are ignored; ccr always ends with a KeyError; the alternative key in the certificate is the CA's, not the client's."
  },
  {
   "property": "C130",
   "status": "partial",
   "theorems": [
    "Verif.Hybrid.C130_sound",
    "Verif.Hybrid.C130_composite_sound",
    "Verif.Hybrid.C130_round_trip",
    "Verif.Hybrid.C130_bad",
    "Verif.Hybrid.C130_state",
    "Verif.Hybrid.C130_must_partial",
    "Verif.Hybrid.C130_twice_partial",
    "Verif.Hybrid.C130_twice_refuted",
    "Verif.Hybrid.C130_alt_key_refuted",
    "Verif.Hybrid.C130_given_key_refuted",
    "Verif.Hybrid.C130_key_only_refuted",
    "Verif.Hybrid.C130_must_refuted"
   ],
   "note": "Soundness and the round trip are proved. False of the code: the check removes the alternative signature, so the second one fails; an alternative key in the header takes precedence over the certificate's; a given public key is not used unless the protection is composite, and without certificates the message is refused; must_be_catalyst_signed has no effect on composite protections."
  },
  {
   "property": "C131",
   "status": "partial",
   "theorems": [
    "Verif.Hybrid.C131_sound",
    "Verif.Hybrid.C131_round_trip",
    "Verif.Hybrid.C131_state",
    "Verif.Hybrid.C131_ordinary_refuted",
    "Verif.Hybrid.C131_alt_key_refuted",
    "Verif.Hybrid.C131_twice_refuted",
    "Verif.Hybrid.C131_pss_refuted"
   ],
   "note": "Soundness and the round trip without PSS are proved. False of the code: a CRL with extensions but without an alternative signature is always refused; the alternative key is taken from the CRL itself; the check removes the signature, so that it cannot be repeated; with use_rsa_pss the signatures are still made without PSS."
  },
  {
   "property": "C132",
   "status": "partial",
   "theorems": [
    "Verif.Hybrid.C132_sound",
    "Verif.Hybrid.C132_found_partial",
    "Verif.Hybrid.C132_order_refuted",
    "Verif.Hybrid.C132_same_name_refuted",
    "Verif.Hybrid.C132_passed_over"
   ],
   "note": "Every chain that is returned is one; it is found if the candidates have distinct names and come in the order of the chain. False of the code: other orders give shorter chains or an error; a candidate of the same name with a key of another kind can end the search with a TypeError."
  },
  {
   "property": "C133",
   "status": "partial",
   "theorems": [
    "Verif.Hybrid.C133_alt_key",
    "Verif.Hybrid.C133_no_alt_key",
    "Verif.Hybrid.C133_sound",
    "Verif.Hybrid.C133_complete_partial",
    "Verif.Hybrid.C133_other_refuted",
    "Verif.Hybrid.C133_subject_key_refuted",
    "Verif.Hybrid.C133_pq_refuted",
    "Verif.Hybrid.C133_no_descriptor"
   ],
   "note": "The order of precedence and soundness are proved. False of the code: without a second certificate the check always ends with a TypeError; it goes by the algorithm of the subject's key; the returned key need not be a post-quantum one."
  },
  {
   "property": "C134",
   "status": "partial",
   "theorems": [
    "Verif.Hybrid.C134_sound",
    "Verif.Hybrid.C134_unique",
    "Verif.Hybrid.C134_round_trip_partial",
    "Verif.Hybrid.C134_ku_present",
    "Verif.Hybrid.C134_find",
    "Verif.Hybrid.C134_hash_refuted",
    "Verif.Hybrid.C134_eku_refuted",
    "Verif.Hybrid.C134_ku_refuted"
   ],
   "note": "Soundness of the hash comparison, uniqueness and the search in a list are proved; the round trip if both signature algorithms have the same hash and there is no extended key usage. False of the code: the extension is made with the hash of the related certificate and checked with that of the other one; any certificate with an extended key usage is refused; key usages are compared as sets of letters, so that dataEncipherment passes against digitalSignature and keyEncipherment."
  },
  {
   "property": "C135",
   "status": "partial",
   "theorems": [
    "Verif.Hybrid.C135_accepted",
    "Verif.Hybrid.C135_round_trip",
    "Verif.Hybrid.C135_time",
    "Verif.Hybrid.C135_trusted",
    "Verif.Hybrid.C135_issued",
    "Verif.Hybrid.C135_csr_signature",
    "Verif.Hybrid.C135_replay_refuted",
    "Verif.Hybrid.C135_given_refuted",
    "Verif.Hybrid.C135_pop_refuted"
   ],
   "note": "What is accepted is characterised exactly; the round trip and what holds of an issued certificate are proved. False of the code: the attribute is not bound to the request and can be copied into one for another key; a chain given by the caller replaces that of the certificate; the signature of the CSR is never checked, so that any key gets a certificate."
  },
  {
   "property": "C136",
   "status": "partial",
   "theorems": [
    "Verif.Hybrid.C136_kind",
    "Verif.Hybrid.C136_issuing_partial",
    "Verif.Hybrid.C136_revoked_only",
    "Verif.Hybrid.C136_request_partial",
    "Verif.Hybrid.C136_ignored_refuted",
    "Verif.Hybrid.C136_names_refuted",
    "Verif.Hybrid.C136_delta_key_refuted",
    "Verif.Hybrid.C136_request_refuted"
   ],
   "note": "The kind is exact; chameleon certificates are refused if revoked or updated, Sun hybrid ones if revoked. False of the code: composite and catalyst certificates pass even if revoked; related and discovery certificates always end in NotImplementedError as their kinds are spelled differently; the status of the delta key is not used; requests signed with anything but a chameleon certificate pass."
  },
  {
   "property": "C137",
   "status": "partial",
   "theorems": [
    "Verif.Hybrid.C137_round_trip",
    "Verif.Hybrid.C137_index",
    "Verif.Hybrid.C137_algs",
    "Verif.Hybrid.C137_issued",
    "Verif.Hybrid.C137_validate_refuted",
    "Verif.Hybrid.C137_untrusted_refuted"
   ],
   "note": "Reading back, the comparison of algorithms and the content of an issued certificate are proved. False of the code: validate_cert_discovery_cert always fails, as it passes on the list of extensions for one extension; neither trust in the other certificate nor the signature of the CSR is checked before issuing."
  },
  {
   "property": "C138",
   "status": "proved",
   "theorems": [
    "Verif.Hybrid.C138_merge",
    "Verif.Hybrid.C138_nodup"
   ],
   "note": "For the merging step. The checks of the individual extensions are parameters."
  },
  {
   "property": "C139",
   "status": "partial",
   "theorems": [
    "Verif.Hybrid.C139_convert",
    "Verif.Hybrid.C139_compose",
    "Verif.Hybrid.C139_same",
    "Verif.Hybrid.C139_round_trip",
    "Verif.Hybrid.C139_form",
    "Verif.Hybrid.C139_contains",
    "Verif.Hybrid.C139_fetch_refuted",
    "Verif.Hybrid.C139_location_refuted",
    "Verif.Hybrid.C139_params_refuted",
    "Verif.Hybrid.C139_contains_refuted"
   ],
   "note": "Proved for extensions as the suite makes them and honest locations. False of the code: a conversion takes whatever the location serves and computes a new hash for it; a certificate with a key by value and no location cannot be converted to a form with the hash; a hash algorithm with parameters in the extension of the key is not restored; contains_sun_hybrid_cert_form_1_or_3 looks only at the first certificate that carries its signature by value."
  },
  {
   "property": "C140",
   "status": "partial",
   "theorems": [
    "Verif.Hybrid.C140_sound",
    "Verif.Hybrid.C140_issuer",
    "Verif.Hybrid.C140_alt_key_partial",
    "Verif.Hybrid.C140_alt_needed_refuted",
    "Verif.Hybrid.C140_by_value_refuted",
    "Verif.Hybrid.C140_twice_refuted",
    "Verif.Hybrid.C140_alt_key_refuted"
   ],
   "note": "Soundness is proved. False of the code: without a second key of the issuer nothing is accepted even if the second signature is not to be checked; a certificate with key and signature by value is refused if its locations serve nothing; validate_alt_sig_extn removes the extension from the certificate it is given, so that a second call fails; get_sun_hybrid_alt_pub_key returns what the location serves without comparing the hash."
  },
  {
   "property": "C141",
   "status": "partial",
   "theorems": [
    "Verif.Hybrid.C141_content",
    "Verif.Hybrid.C141_round_trip_partial",
    "Verif.Hybrid.C141_csr_round_trip_partial",
    "Verif.Hybrid.C141_bad",
    "Verif.Hybrid.C141_hash_refuted",
    "Verif.Hybrid.C141_csr_refuted",
    "Verif.Hybrid.C141_csr_location_refuted"
   ],
   "note": "Content, the round trips for locations that are given and served, and the effect of bad_alt_sig are proved. False of the code: the certificate always names the algorithm with SHA-256 but is signed with the hash of the composite algorithm (mostly SHA-512), so that with an RSA or ECDSA CA key it is refused; a CSR without the attribute for the hash of the key is always refused, one without the location of the key leads to a certificate that is never accepted."
  },
  {
   "property": "C142",
   "status": "partial",
   "theorems": [
    "Verif.Prot.C142_iff",
    "Verif.Prot.C142_password",
    "Verif.Prot.C142_roundtrip",
    "Verif.Prot.C142_bad",
    "Verif.Prot.C142_lwcmp",
    "Verif.Prot.C142_mac_agree_partial",
    "Verif.Prot.C142_empty_salt_refuted",
    "Verif.Prot.C142_default_prf_refuted",
    "Verif.Prot.C142_prf_refuted",
    "Verif.Prot.C142_mac_agree_refuted"
   ],
   "note": "The equivalence is proved for a salt that is not empty; the round trip for codecs that give back the parameters of the message. False of the code: an empty salt of the password-based MAC is replaced by a random value, so the right MAC is refused; the default PRF of PBKDF2 (hmacWithSHA1) is unknown, so PBMAC1 with it is never accepted; the OID of a signature algorithm is accepted as PRF, also for the lightweight profile; compute_mac_from_alg_id differs for a password-based MAC with two hash functions and cannot read the encoded parameters of AES-GMAC."
  },
  {
   "property": "C143",
   "status": "partial",
   "theorems": [
    "Verif.Prot.C143_key_iff",
    "Verif.Prot.C143_cert_iff",
    "Verif.Prot.C143_roundtrip",
    "Verif.Prot.C143_bad",
    "Verif.Prot.C143_pss_iff",
    "Verif.Prot.C143_pss_signed",
    "Verif.Prot.C143_cert_refuted",
    "Verif.Prot.C143_pss_roundtrip_refuted",
    "Verif.Prot.C143_pss_salt_refuted",
    "Verif.Prot.C143_unsupported_refuted",
    "Verif.Prot.C143_signature_oids",
    "Verif.Prot.C143_patched",
    "Verif.Prot.C143_pss_mode"
   ],
   "note": "The equivalences are proved for traditional algorithms; the round trip for key pairs that fit. False of the code: with the certificate in the message neither the parameters nor the kind of the key are compared to the algorithm; RSASSA-PSS always signs with SHA-256, so another hash function never verifies; a salt length of zero is read as the digest size; messages with a composite signature or DSA can be made but are never accepted."
  },
  {
   "property": "C144",
   "status": "partial",
   "theorems": [
    "Verif.Prot.C144_secret_iff",
    "Verif.Prot.C144_key_iff",
    "Verif.Prot.C144_roundtrip",
    "Verif.Prot.C144_peer_partial",
    "Verif.Prot.C144_stale_refuted",
    "Verif.Prot.C144_rsa_refuted",
    "Verif.Prot.C144_pbkdf2_refuted",
    "Verif.Prot.C144_hkdf_sha3_refuted",
    "Verif.Prot.C144_empty_context_refuted",
    "Verif.Prot.C144_counter",
    "Verif.Prot.C144_kdf_written",
    "Verif.Prot.C144_hkdf_written"
   ],
   "note": "The equivalences are proved for KDF2, KDF3 and HKDF with SHA-2 and a context that is not empty; the round trip for keys other than RSA and a message without an older ciphertext. False of the code: a ciphertext that is already in the message stays in front of the new one and is the one that is decapsulated; for RSA the two sides use different KEMs; the parameters of PBKDF2 cannot be read back; HKDF with SHA-3 never works; an empty context is treated as none. Bytes after the hash parameters of KDF2 and KDF3 are ignored."
  },
  {
   "property": "C145",
   "status": "partial",
   "theorems": [
    "Verif.Prot.C145_iff",
    "Verif.Prot.C145_hmac_partial",
    "Verif.Prot.C145_exchange",
    "Verif.Prot.C145_roundtrip",
    "Verif.Prot.C145_basekey_refuted",
    "Verif.Prot.C145_sha3_refuted"
   ],
   "note": "What is accepted is characterised exactly; for an HMAC it is the MAC of the standard. The round trip is proved for all MACs. False of the code: for AES-GMAC and KMAC the key is derived from the shared secret instead of its hash, so a MAC of another implementation is refused; a one-way function of the SHA-3 family can be named but never used. Hash functions are assumed to give at least as many bytes as the shared secret has, up to 32."
  },
  {
   "property": "C146",
   "status": "partial",
   "theorems": [
    "Verif.Prot.C146_pbm_partial",
    "Verif.Prot.C146_pbmac1_partial",
    "Verif.Prot.C146_strict",
    "Verif.Prot.C146_not_strict",
    "Verif.Prot.C146_suite",
    "Verif.Prot.C146_conf_refuted",
    "Verif.Prot.C146_conf_salt_refuted",
    "Verif.Prot.C146_kdf_refuted",
    "Verif.Prot.C146_null_refuted",
    "Verif.Prot.C146_hmac_refuted",
    "Verif.Prot.C146_decoded_refuted",
    "Verif.Prot.C146_not_strict_refuted"
   ],
   "note": "The equivalences are proved for a request as the suite has it before sending, allow_null and no confirmation. False of the code: a confirmation is not looked at, and with same_salt it makes every comparison fail; the key derivation function of PBMAC1 is not compared; allow_null has the opposite effect; HMAC and KMAC can never be compared; a request with a password-based MAC that was decoded is never accepted; without strict, messages with signatures are accepted."
  },
  {
   "property": "C147",
   "status": "partial",
   "theorems": [
    "Verif.Prot.C147_iff",
    "Verif.Prot.C147_same_alg",
    "Verif.Prot.C147_rsa_refuted",
    "Verif.Prot.C147_mac_refuted",
    "Verif.Prot.C147_first_cert_refuted",
    "Verif.Prot.C147_composite_refuted",
    "Verif.Prot.C147_params"
   ],
   "note": "What is accepted is characterised exactly for traditional signatures. False of the code: RSA messages, whose parameters are NULL, are never accepted; the kind of the algorithm is not tested, so one that names an HMAC passes; the first certificates are not compared; composite signatures end in IndexError. Building a chain is a parameter here (C121, C122 are about it)."
  },
  {
   "property": "C148",
   "status": "proved",
   "theorems": [
    "Verif.Env.C148_iff",
    "Verif.Env.C148_unique",
    "Verif.Env.C148_roundtrip",
    "Verif.Env.C148_key_length"
   ],
   "note": "The block cipher and the encoding of the IV are parameters; the round trip assumes that decryption inverts encryption."
  },
  {
   "property": "C149",
   "status": "partial",
   "theorems": [
    "Verif.Env.C149_iff",
    "Verif.Env.C149_open_iff",
    "Verif.Env.C149_protected",
    "Verif.Env.C149_salt",
    "Verif.Env.C149_roundtrip",
    "Verif.Env.C149_env_roundtrip",
    "Verif.Env.C149_kdf_refuted",
    "Verif.Env.C149_hkdf_refuted",
    "Verif.Env.C149_length_refuted",
    "Verif.Env.C149_unprotected_refuted"
   ],
   "note": "The equivalences and round trips are proved for PBKDF2 with a key of 32 bytes. False of the code: the argument kdf of prepare_enveloped_data_with_pwri is ignored; with kdf_name hkdf the password is not used at all and the result can never be opened; another length than 32 builds what is never opened; without the type pwri the protection of the message is not verified."
  },
  {
   "property": "C150",
   "status": "partial",
   "theorems": [
    "Verif.Env.C150_iff",
    "Verif.Env.C150_recipient",
    "Verif.Env.C150_roundtrip",
    "Verif.Env.C150_rsa_only",
    "Verif.Env.C150_oaep_refuted"
   ],
   "note": "Proved for the parameters of OAEP as the suite writes them. False of the code: parameters as RFC 4055 defines them (an algorithm identifier for the mask generation function, or absent fields) are refused. NULL parameters count as absent."
  },
  {
   "property": "C151",
   "status": "partial",
   "theorems": [
    "Verif.Env.C151_iff",
    "Verif.Env.C151_named",
    "Verif.Env.C151_roundtrip_dh",
    "Verif.Env.C151_roundtrip_mqv",
    "Verif.Env.C151_originator_refuted",
    "Verif.Env.C151_issuer_refuted",
    "Verif.Env.C151_hash_refuted",
    "Verif.Env.C151_wrap",
    "Verif.Env.C151_mqv_keys"
   ],
   "note": "False of the code: originator and recipient must have the same name, that of the protection certificate, so a recipient as RFC 5652 defines it is refused; an issuer and serial number for a certificate with a subject key identifier builds what is never opened; for X25519 and X448 another hash than SHA-256 is used by the sender only."
  },
  {
   "property": "C152",
   "status": "partial",
   "theorems": [
    "Verif.Env.C152_iff",
    "Verif.Env.C152_key",
    "Verif.Env.C152_roundtrip",
    "Verif.Env.C152_ori",
    "Verif.Env.C152_pbkdf2_refuted",
    "Verif.Env.C152_kek_length_refuted",
    "Verif.Env.C152_rsa_refuted",
    "Verif.Env.C152_object_refuted"
   ],
   "note": "The round trip is proved for HKDF, KDF2 and KDF3. False of the code: PBKDF2, the default of prepare_recip_info, is never accepted after encoding; a given key length is written though it differs from the key wrap; RSA encapsulates with OAEP and decapsulates with RSA-KEM; the structure before encoding is an AttributeError in the general way."
  },
  {
   "property": "C153",
   "status": "partial",
   "theorems": [
    "Verif.Env.C153_iff",
    "Verif.Env.C153_single",
    "Verif.Env.C153_kemri_iff",
    "Verif.Env.C153_content_roundtrip",
    "Verif.Env.C153_exchange_rsa",
    "Verif.Env.C153_exchange_kem",
    "Verif.Env.C153_exchange_ec",
    "Verif.Env.C153_index_refuted",
    "Verif.Env.C153_version_refuted"
   ],
   "note": "Proved as stated for one recipient. False of the code for several: the index chooses whose type is compared, the key is always taken from the first; the version is never compared."
  },
  {
   "property": "C154",
   "status": "partial",
   "theorems": [
    "Verif.Env.C154_scheme",
    "Verif.Env.C154_agree",
    "Verif.Env.C154_avf_partial",
    "Verif.Env.C154_avf",
    "Verif.Env.C154_bytes_partial",
    "Verif.Env.C154_cofactor",
    "Verif.Env.C154_roundtrip",
    "Verif.Env.C154_avf_refuted",
    "Verif.Env.C154_standard_refuted",
    "Verif.Env.C154_bytes_refuted",
    "Verif.Env.C154_round"
   ],
   "note": "Agreement is proved for all groups. False of the code: the bit length of the order is taken from a floating point logarithm, so for secp192r1, secp224r1, secp256k1 and secp384r1 the associate value is not that of the standard and the secret differs; a coordinate with leading zero bytes is written without them. The scheme is that of the standard for secp256r1 and secp521r1. The logarithm is a parameter with the exact integer part on the rounded order."
  },
  {
   "property": "C155",
   "status": "partial",
   "theorems": [
    "Verif.Env.C155_attrs",
    "Verif.Env.C155_algs",
    "Verif.Env.C155_signer",
    "Verif.Env.C155_package",
    "Verif.Env.C155_accepted",
    "Verif.Env.C155_roundtrip",
    "Verif.Env.C155_ski_refuted",
    "Verif.Env.C155_attrs_refuted",
    "Verif.Env.C155_signers_refuted",
    "Verif.Env.C155_repeated_refuted"
   ],
   "note": "Hash, signature, encodings and the certificate chain checks of C121-C123 are parameters. False of the code: the signature is over the EncapsulatedContentInfo and not over the signed attributes as RFC 5652, section 5.4, asks, so attributes can be added without being signed; only the first signer is looked at; of a repeated message digest attribute only the last counts; an authority whose certificate has no subject key identifier builds what is never accepted."
  },
  {
   "property": "C156",
   "status": "partial",
   "theorems": [
    "Verif.Env.C156_iff",
    "Verif.Env.C156_accepted",
    "Verif.Env.C156_roundtrip",
    "Verif.Env.C156_roundtrip_rsa",
    "Verif.Env.C156_index_refuted",
    "Verif.Env.C156_size_refuted",
    "Verif.Env.C156_usage_refuted"
   ],
   "note": "Proved as stated; the round trip for RSA from end to end, for the others from any way to open. False of the code: the index of the response is also that of the recipient and of the key in the package, so a second response with one recipient is never accepted; the key usage keyEncipherment is not checked for key transport."
  },
  {
   "property": "C157",
   "status": "partial",
   "theorems": [
    "Verif.Ra.C157_possession_partial",
    "Verif.Ra.C157_signed_iff",
    "Verif.Ra.C157_ip",
    "Verif.Ra.C157_later_ignored_refuted",
    "Verif.Ra.C157_later_refuted",
    "Verif.Ra.C157_mixed_refuted",
    "Verif.Ra.C157_challenge_refuted",
    "Verif.Ra.C157_extensions_refuted",
    "Verif.Ra.C157_alt_refuted",
    "Verif.Ra.C157_alt_iff",
    "Verif.Ra.C157_load_error",
    "Verif.Ra.C157_sig_load_error"
   ],
   "note": "Proved for initialization requests with the lightweight profile (one request, the default), and for every request that is the first or whose proof is not a signature. False of the code: verify_popo_for_cert_request verifies the signature of request 0 whatever the index, so further requests of a certification request need no valid signature. Also: challenge-response is answered with an encrypted certificate for key agreement keys; the extensions of the CA are missing in certificates for keys sent to the CA; the template of a registration authority is ignored except for signatures and raVerified. Keys, encodings, the controls and the building of certificates are parameters."
  },
  {
   "property": "C158",
   "status": "partial",
   "theorems": [
    "Verif.Ra.C158_iff",
    "Verif.Ra.C158_protection_refuted",
    "Verif.Ra.C158_skipped_refuted"
   ],
   "note": "The accepted messages are characterized exactly. False of the code: the protection of the message is not looked at, so the public certificate of a registration authority in extraCerts suffices."
  },
  {
   "property": "C159",
   "status": "proved",
   "theorems": [
    "Verif.Ra.C159_ids",
    "Verif.Ra.C159_all_or_nothing",
    "Verif.Ra.C159_numbers",
    "Verif.Ra.C159_reply_type",
    "Verif.Ra.C159_ccr_refuted"
   ],
   "note": "Proved as stated, for the bodies with a list of requests. Also the body type of the reply (C159_reply_type); for a cross certification request the code knows none (C159_ccr_refuted)."
  },
  {
   "property": "C160",
   "status": "partial",
   "theorems": [
    "Verif.Ra.C160_response_partial",
    "Verif.Ra.C160_client_partial",
    "Verif.Ra.C160_transaction_partial",
    "Verif.Ra.C160_fresh_refuted",
    "Verif.Ra.C160_version",
    "Verif.Ra.C160_option_refuted",
    "Verif.Ra.C160_pvno_refuted",
    "Verif.Ra.C160_empty_refuted"
   ],
   "note": "By induction over the transaction, for values that are not empty. False of the code: the CA uses one nonce for all its messages of a transaction, since the option use_fresh_nonce is inverted; a request with an empty transaction identifier is answered in another transaction."
  },
  {
   "property": "C161",
   "status": "partial",
   "theorems": [
    "Verif.Ra.C161_signed_iff",
    "Verif.Ra.C161_update_partial",
    "Verif.Ra.C161_known",
    "Verif.Ra.C161_single",
    "Verif.Ra.C161_generated_iff",
    "Verif.Ra.C161_none_refuted",
    "Verif.Ra.C161_unchecked_refuted",
    "Verif.Ra.C161_issuer_refuted",
    "Verif.Ra.C161_controls_refuted",
    "Verif.Ra.C161_subject_refuted",
    "Verif.Ra.C161_kem_refuted",
    "Verif.Ra.C161_extensions_refuted"
   ],
   "note": "The accepted signed requests are characterized exactly, and the facts every answered one has are proved. False of the code: the subject may be another one; the issuer of the old certificate is compared with the second certificate of the sender; any control counts as the identifier of the old certificate; keys are not checked as in the other requests; raVerified is accepted from everyone with a certificate in messages protected with encapsulation; the extensions of the CA are missing if the message is signed."
  },
  {
   "property": "C162",
   "status": "partial",
   "theorems": [
    "Verif.Ra.C162_iff",
    "Verif.Ra.C162_ca_partial",
    "Verif.Ra.C162_not_ca_refuted",
    "Verif.Ra.C162_version_refuted",
    "Verif.Ra.C162_unchecked_refuted"
   ],
   "note": "The accepted requests are characterized exactly. False of the code: basic constraints without cA and templates of version 1 are accepted; the key size is not looked at. The building of certificates and the encoding of extensions are parameters."
  },
  {
   "property": "C163",
   "status": "partial",
   "theorems": [
    "Verif.Ra.C163_iff_partial",
    "Verif.Ra.C163_never_refuted",
    "Verif.Ra.C163_other_refuted"
   ],
   "note": "False of the code: the validation compares the hash with the one of the structure that contains it, not with the one of the certificate, so every prepared hash is refused, and an accepted one says nothing about the certificate."
  },
  {
   "property": "C164",
   "status": "partial",
   "theorems": [
    "Verif.Ra.C164_validate_iff",
    "Verif.Ra.C164_roundtrip_iff",
    "Verif.Ra.C164_extensions_refuted",
    "Verif.Ra.C164_serial_refuted",
    "Verif.Ra.C164_authority_refuted",
    "Verif.Ra.C164_takeover_refuted",
    "Verif.Ra.C164_takeover_full_refuted",
    "Verif.Ra.C164_unknown_refuted"
   ],
   "note": "The accepted updates are characterized exactly; what the CA makes is accepted if pkilint accepts it. False of the code: newWithNew and newWithOld are not compared, so everyone with a certificate under the old root can install their own root; the new root has no basic constraints; certificates share issuer and serial number; newWithOld names the wrong authority key."
  },
  {
   "property": "C165",
   "status": "partial",
   "theorems": [
    "Verif.Ra.C165_written_iff",
    "Verif.Ra.C165_years",
    "Verif.Ra.C165_read_refuted",
    "Verif.Ra.C165_iff",
    "Verif.Ra.C165_requested_partial",
    "Verif.Ra.C165_century_refuted",
    "Verif.Ra.C165_order_refuted",
    "Verif.Ra.C165_default_refuted"
   ],
   "note": "Proved for the years 1950 to 2049. False of the code: UTCTime is used for all years; notAfter may be before notBefore; the default end after a start in 2045 is in 1955."
  },
  {
   "property": "C166",
   "status": "partial",
   "theorems": [
    "Verif.Env.C166_kind_iff",
    "Verif.Env.C166_key_iff",
    "Verif.Env.C166_roundtrip",
    "Verif.Env.C166_rsa",
    "Verif.Env.C166_ec",
    "Verif.Env.C166_kem_partial",
    "Verif.Env.C166_password",
    "Verif.Env.C166_needs_password",
    "Verif.Env.C166_oaep",
    "Verif.Env.C166_kem_refuted",
    "Verif.Env.C166_rid_refuted",
    "Verif.Env.C166_dh_refuted"
   ],
   "note": "Proved from end to end for RSA, EC and passwords, and the choice of recipient and key exactly; primitives and codecs are parameters. False of the code: the answer for a KEM certificate names the client while the client compares it with the certificate of the CA, so it is refused; for key transport the certificate of the CA is named as the recipient; requests protected with a MAC from Diffie-Hellman or encapsulation do not reach their branches."
  },
  {
   "property": "C167",
   "status": "partial",
   "theorems": [
    "Verif.Ra.C167_iff",
    "Verif.Ra.C167_unique",
    "Verif.Ra.C167_refused",
    "Verif.Ra.C167_roundtrip",
    "Verif.Ra.C167_quote",
    "Verif.Ra.C167_sent",
    "Verif.Ra.C167_unique_types",
    "Verif.Ra.C167_wire_refuted",
    "Verif.Ra.C167_raw_partial",
    "Verif.Ra.C167_raw_refuted",
    "Verif.Ra.C167_name_refuted",
    "Verif.Ra.C167_type",
    "Verif.Ra.C167_hex",
    "Verif.Ra.C167_hex_only"
   ],
   "note": "The reader is characterised exactly and the round trip holds for quoted pairs. False of the code: what is sent by default is never in the grammar of RFC 4211; without quoting a value with an escaped percent sign injects a second pair; a name that begins with two hexadecimal letters is refused."
  },
  {
   "property": "C168",
   "status": "partial",
   "theorems": [
    "Verif.Ra.C168_archived_key",
    "Verif.Ra.C168_publication_iff",
    "Verif.Ra.C168_accept_iff",
    "Verif.Ra.C168_once",
    "Verif.Ra.C168_required_refuted",
    "Verif.Ra.C168_burnt_refuted",
    "Verif.Ra.C168_duplicate_refuted",
    "Verif.Ra.C168_method_refuted",
    "Verif.Ra.C168_archive_absent",
    "Verif.Ra.C168_archive_read",
    "Verif.Ra.C168_method_numbers"
   ],
   "note": "Acceptance is characterised exactly; encryption and comparison are parameters. False of the code: a request without controls passes although a control is required; a token is used up by a request that is refused; duplicates of a control are accepted; the publication method is always x500."
  },
  {
   "property": "C169",
   "status": "partial",
   "theorems": [
    "Verif.Env.C169_version_iff",
    "Verif.Env.C169_rid_iff",
    "Verif.Env.C169_iff",
    "Verif.Env.C169_rsa",
    "Verif.Env.C169_kem",
    "Verif.Env.C169_ec",
    "Verif.Env.C169_plain_rsa",
    "Verif.Env.C169_plain_dh",
    "Verif.Env.C169_witness",
    "Verif.Env.C169_issued",
    "Verif.Env.C169_kem_refuted",
    "Verif.Env.C169_witness_refuted",
    "Verif.Env.C169_zero_refuted",
    "Verif.Env.C169_several_refuted",
    "Verif.Env.C169_pending_refuted",
    "Verif.Env.C169_pvno_refuted",
    "Verif.Env.C169_index_refuted"
   ],
   "note": "The client is characterised exactly and the round trip is proved for RSA, KEM and EC with version 3 and for RSA and Diffie-Hellman with version 2; primitives and codecs are parameters. False of the code: a KEM challenge of version 2 can never be answered; the client ignores the witness; a number, an identifier or a version 0 that is asked for is ignored; the answer has one number for several challenges; with version 3 no challenge can be built while another one is pending; a version that is asked for changes the challenge and not the header; the index of the recipient chooses the name that is checked and not the key."
  },
  {
   "property": "C170",
   "status": "partial",
   "theorems": [
    "Verif.Ra.C170_accepted_iff",
    "Verif.Ra.C170_members",
    "Verif.Ra.C170_certificate_partial",
    "Verif.Ra.C170_duplicate_refuted",
    "Verif.Ra.C170_override_refuted",
    "Verif.Ra.C170_dropped_refuted",
    "Verif.Ra.C170_serial",
    "Verif.Ra.C170_serial_refuted",
    "Verif.Ra.C170_csr_none",
    "Verif.Ra.C170_csr_refuted"
   ],
   "note": "Templates are characterised exactly; codecs and key identifiers are parameters. False of the code: a template with a subject key identifier gets a certificate with two; the extensions of the template override those of the CA, not the other way round; known extensions that are not checked are left out silently, also critical ones; the client chooses the serial number; a PKCS#10 request with extensions that are to be included always fails with a KeyError."
  },
  {
   "property": "C171",
   "status": "partial",
   "theorems": [
    "Verif.Ra.C171_uses_iff",
    "Verif.Ra.C171_certificate",
    "Verif.Ra.C171_rsa",
    "Verif.Ra.C171_encipher_refuted",
    "Verif.Ra.C171_ecdh_refuted",
    "Verif.Ra.C171_cert_sign_refuted"
   ],
   "note": "False of the code: encipherOnly and decipherOnly are rejected for EC and X25519 and X448 keys also with keyAgreement; id-ecDH and id-ecMQV keys are rejected with every usage; keyCertSign is accepted without basic constraints."
  },
  {
   "property": "C172",
   "status": "partial",
   "theorems": [
    "Verif.Ra.C172_basic_iff",
    "Verif.Ra.C172_cert_sign_partial",
    "Verif.Ra.C172_pathlen_refuted",
    "Verif.Ra.C172_ee_pathlen_refuted",
    "Verif.Ra.C172_for_ca_refuted",
    "Verif.Ra.C172_for_ee_refuted",
    "Verif.Ra.C172_ca_refuted"
   ],
   "note": "False of the code: a CA with path length zero is rejected and an end entity with path length zero is accepted; the test of for_ee is the wrong way round; every client gets a CA certificate if it asks for one, also with constraints that are not critical."
  },
  {
   "property": "C173",
   "status": "partial",
   "theorems": [
    "Verif.Ra.C173_ski_iff",
    "Verif.Ra.C173_aki_iff",
    "Verif.Ra.C173_san_iff",
    "Verif.Ra.C173_no_aki_refuted",
    "Verif.Ra.C173_aki_issuer_refuted"
   ],
   "note": "False of the code: a certificate from a template without an authority key identifier has none; an identifier with the name or the serial number of the CA is rejected in every template."
  },
  {
   "property": "C174",
   "status": "partial",
   "theorems": [
    "Verif.Ra.C174_entry_sound",
    "Verif.Ra.C174_entry_complete",
    "Verif.Ra.C174_answered_iff",
    "Verif.Ra.C174_types",
    "Verif.Ra.C174_key_pair_param_refuted",
    "Verif.Ra.C174_implicit_confirm_refuted",
    "Verif.Ra.C174_profile_refuted",
    "Verif.Ra.C174_language_refuted",
    "Verif.Ra.C174_language_list_refuted",
    "Verif.Ra.C174_root_refuted"
   ],
   "note": "Answers are characterised exactly; decoders, signing and encapsulation are parameters. False of the code: a request for key pair parameters, implicit confirmation or a certificate profile is never answered; the language is always English, and a list with one unknown language is refused; the root certificate is updated exactly for clients which know the present one."
  },
  {
   "property": "C175",
   "status": "partial",
   "theorems": [
    "Verif.Ra.C175_status_iff",
    "Verif.Ra.C175_outdated_refuted",
    "Verif.Ra.C175_foreign_issuer_refuted",
    "Verif.Ra.C175_foreign_dpn",
    "Verif.Ra.C175_url_issuer_refuted",
    "Verif.Ra.C175_answer",
    "Verif.Ra.C175_duplicate_refuted"
   ],
   "note": "False of the code: a CRL up to 25 hours old counts as current; a foreign issuer ends in a TypeError and the URL as issuer in a ValueError; naming the CA twice gives two CRLs. The order of the set of CRLs is taken to be that of the statuses."
  },
  {
   "property": "C176",
   "status": "partial",
   "theorems": [
    "Verif.Ra.C176_refused_partial",
    "Verif.Ra.C176_passphrases",
    "Verif.Ra.C176_refused_refuted",
    "Verif.Ra.C176_extra_partial",
    "Verif.Ra.C176_extra_refuted"
   ],
   "note": "Proved under the lightweight profile, for the certificates also if signing succeeds. False of the code otherwise: the passphrase of a refused message is kept, and the certificates of a response which could not be signed go out with the next one."
  },
  {
   "property": "C177",
   "status": "partial",
   "theorems": [
    "Verif.Ra.C177_kem_iff",
    "Verif.Ra.C177_found_partial",
    "Verif.Ra.C177_repeated_refuted",
    "Verif.Ra.C177_value_refuted",
    "Verif.Ra.C177_second_refuted",
    "Verif.Ra.C177_others",
    "Verif.Ra.C177_put"
   ],
   "note": "Proved for the first ciphertext of a transaction. False of the code: after a second one the first secret is used; a request with a value is answered; as second entry the secret is kept where nobody looks."
  },
  {
   "property": "C178",
   "status": "partial",
   "theorems": [
    "Verif.Ra.C178_body",
    "Verif.Ra.C178_size_refuted",
    "Verif.Ra.C178_extra_entries_refuted",
    "Verif.Ra.C178_ca_certs_iff",
    "Verif.Ra.C178_text_refuted",
    "Verif.Ra.C178_number_refuted",
    "Verif.Ra.C178_absent_refuted",
    "Verif.Ra.C178_trailing_refuted"
   ],
   "note": "Chain building and verification are parameters. False of the code: a wrong number of entries is only logged, and CA certificates are then not validated at all, nor if the number is given as text; an absent value is refused where it is allowed; bytes after the certificates are ignored."
  },
  {
   "property": "C179",
   "status": "partial",
   "theorems": [
    "Verif.Ra.C179_template_iff",
    "Verif.Ra.C179_edwards_refuted",
    "Verif.Ra.C179_optional_refuted",
    "Verif.Ra.C179_unknown_control_refuted"
   ],
   "note": "Acceptance is characterised exactly. False of the code: Ed25519 and Ed448 are refused without and accepted with parameters; absent controls or an absent value are refused though optional; unknown controls are accepted."
  },
  {
   "property": "C180",
   "status": "partial",
   "theorems": [
    "Verif.Ra.C180_update_iff",
    "Verif.Ra.C180_current_refuted"
   ],
   "note": "Verification is a parameter. False of the code: the signature of the current CRL is not verified."
  },
  {
   "property": "C181",
   "status": "partial",
   "theorems": [
    "Verif.Ra.C181_enc_types",
    "Verif.Ra.C181_fixed",
    "Verif.Ra.C181_passphrase_iff",
    "Verif.Ra.C181_kem",
    "Verif.Ra.C181_sign_types_refuted",
    "Verif.Ra.C181_gcm_refuted"
   ],
   "note": "Proved for the answers named, with codecs which round-trip; certificates and CRLs are left to the parameters. False of the code: the list of signature algorithms may be empty or unknown; a CA which prefers AES-GCM is refused."
  },
  {
   "property": "C182",
   "status": "partial",
   "theorems": [
    "Verif.Ra.C182_langs_iff",
    "Verif.Ra.C182_current_crl_iff",
    "Verif.Ra.C182_sign_types_iff",
    "Verif.Ra.C182_sym_alg_iff",
    "Verif.Ra.C182_kem_iff",
    "Verif.Ra.C182_enc_types_iff",
    "Verif.Ra.C182_prot_enc_iff",
    "Verif.Ra.C182_bare_curve_refuted",
    "Verif.Ra.C182_prot_enc_refuted",
    "Verif.Ra.C182_curves"
   ],
   "note": "Characterised exactly. False of the code: the OID of a curve passes as an algorithm of a key; a response without the certificate for protocol encryption is accepted."
  },
  {
   "property": "C183",
   "status": "partial",
   "theorems": [
    "Verif.Ra.C183_accepted_iff",
    "Verif.Ra.C183_confirmed_partial",
    "Verif.Ra.C183_version_refuted",
    "Verif.Ra.C183_flag_refuted"
   ],
   "note": "Acceptance is characterised exactly. False of the code: a response with version 3 is confirmed, by default, with a message of version 2 with a digest algorithm, which the CA always refuses; hash_for_v3 given as the text False has no effect."
  },
  {
   "property": "C184",
   "status": "partial",
   "theorems": [
    "Verif.Ra.C184_first_id",
    "Verif.Ra.C184_own_refuted",
    "Verif.Ra.C184_given_id",
    "Verif.Ra.C184_chain_needed"
   ],
   "note": "Proved for one entry and for identifiers given. False of the code: with several entries all have the identifier of the first one. No confirmation is built from a response whose chain has one certificate."
  },
  {
   "property": "C185",
   "status": "partial",
   "theorems": [
    "Verif.Ra.C185_direct_iff",
    "Verif.Ra.C185_no_digest_refuted",
    "Verif.Ra.C185_rejection",
    "Verif.Ra.C185_bad_id",
    "Verif.Ra.C185_given_hash",
    "Verif.Ra.C185_computed_hash",
    "Verif.Ra.C185_different",
    "Verif.Ra.C185_different_hash",
    "Verif.Ra.C185_bad_id_form",
    "Verif.Ra.C185_given_hash_all",
    "Verif.Ra.C185_hash_alone"
   ],
   "note": "False of the code: for certificates signed with an algorithm without a separate digest (Ed25519, ML-DSA) no confirmation is built; an algorithm given as argument is used, but not told to the CA."
  },
  {
   "property": "C186",
   "status": "partial",
   "theorems": [
    "Verif.Ra.C186_accepted_iff",
    "Verif.Ra.C186_second_refuted",
    "Verif.Ra.C186_absent_refuted"
   ],
   "note": "Characterised exactly. False of the code: only the first entry of a type is checked; an entry without value ends with an error of the ASN.1 library."
  },
  {
   "property": "C187",
   "status": "partial",
   "theorems": [
    "Verif.Ra.C187_accepted_iff",
    "Verif.Ra.C187_right_refuted",
    "Verif.Ra.C187_unknown"
   ],
   "note": "False of the code: a message with exactly one known profile per request is always refused (the test is inverted). Unknown profiles are refused."
  },
  {
   "property": "C188",
   "status": "partial",
   "theorems": [
    "Verif.Ra.C188_profile_alone_refuted",
    "Verif.Ra.C188_patch",
    "Verif.Ra.C188_twice_refuted",
    "Verif.Ra.C188_known_accepted",
    "Verif.Ra.C188_negative",
    "Verif.Ra.C188_added"
   ],
   "note": "False of the code: a profile alone is not set by patch_generalinfo, and a profile is named twice. The latter makes up for the inverted test of the CA in messages with one request."
  },
  {
   "property": "C189",
   "status": "partial",
   "theorems": [
    "Verif.Ra.C189_accepted_iff",
    "Verif.Ra.C189_one_cn",
    "Verif.Ra.C189_no_cn_refuted",
    "Verif.Ra.C189_ambiguous_refuted",
    "Verif.Ra.C189_dh_refuted",
    "Verif.Ra.C189_no_cert_refuted",
    "Verif.Ra.C189_no_ski",
    "Verif.Ra.C189_mail_refuted",
    "Verif.Ra.C189_types_refuted",
    "Verif.Ra.C189_unprotected"
   ],
   "note": "Characterised exactly. False of the code: a sender without a common name is accepted with the senderKID NULL-DN; the identifier made of several common names is ambiguous; DH-based MACs are treated like signatures; without certificates the empty name is accepted with any senderKID; an e-mail address does not determine the subject; other types of names end with errors of Python."
  },
  {
   "property": "C190",
   "status": "proved",
   "theorems": [
    "Verif.Ra.C190_accepted_iff"
   ],
   "note": "For requests which are not nested, and a CA which wants protection. Building the chain, verifying certificates and the key usage are parameters."
  },
  {
   "property": "C191",
   "status": "partial",
   "theorems": [
    "Verif.Ra.C191_excluded_iff",
    "Verif.Ra.C191_fields",
    "Verif.Ra.C191_blank_refuted",
    "Verif.Ra.C191_mac_kid_refuted",
    "Verif.Ra.C191_mac_both",
    "Verif.Ra.C191_mac_sender_refuted"
   ],
   "note": "Proved without MAC-based protection. False of the code: a field after a comma and a blank is not excluded; with for_mac the senderKID cannot be excluded by its name alone, and with the sender excluded no message can be built, in both cases unless the word sender_kid is excluded, too."
  },
  {
   "property": "C192",
   "status": "partial",
   "theorems": [
    "Verif.Ra.C192_common_name",
    "Verif.Ra.C192_blank_refuted",
    "Verif.Ra.C192_equals_refuted"
   ],
   "note": "Proved for lists of attributes whose names and values have neither commas nor signs of equality. False of the code: a common name after a comma and a blank is not found, and with a second sign of equality or a comma in a value no message can be built, unless the senderKID is given or excluded."
  },
  {
   "property": "C193",
   "status": "partial",
   "theorems": [
    "Verif.Ra.C193_mac_accepted",
    "Verif.Ra.C193_null_refuted"
   ],
   "note": "Proved for ir, cr and p10cr, identifiers and time made by the client, and a CA which wants protection and not the lightweight profile. False of the code: a sender without a common name gets the senderKID NULL-DN instead of an error."
  },
  {
   "property": "C194",
   "status": "partial",
   "theorems": [
    "Verif.Ra.C194_added_accepted",
    "Verif.Ra.C194_added_none",
    "Verif.Ra.C194_patch_conf_refuted",
    "Verif.Ra.C194_patch_other",
    "Verif.Ra.C194_patch_unique",
    "Verif.Ra.C194_batch_iff",
    "Verif.Ra.C194_values_distinct",
    "Verif.Ra.C194_values_refuted"
   ],
   "note": "False of the code: patching for an added protection leaves out the recipNonce of confirmations, which are then refused; generate_unique_byte_values returns fewer values than asked for after a collision."
  },
  {
   "property": "C195",
   "status": "partial",
   "theorems": [
    "Verif.Ra.C195_follows",
    "Verif.Ra.C195_fresh_refuted",
    "Verif.Ra.C195_first_refuted",
    "Verif.Ra.C195_patch"
   ],
   "note": "False of the code: the senderNonce is the one of the message before, and a message without recipNonce cannot be followed."
  },
  {
   "property": "C196",
   "status": "partial",
   "theorems": [
    "Verif.Ra.C196_accepted_iff",
    "Verif.Ra.C196_names",
    "Verif.Ra.C196_names_exclusive",
    "Verif.Ra.C196_wrong_refuted",
    "Verif.Ra.C196_absent",
    "Verif.Ra.C196_later_refuted"
   ],
   "note": "Acceptance is characterised for all bodies and arguments, and the answer about lists of names of failures with and without `exclusive`. Refuted: with the default arguments a rejection passes for each name of a failure whatever bits are set, as allow_failinfo_mismatch lets wrong bits pass (though absent bits are refused also then); and only the first status of a response counts, so that rejections after it are not noticed."
  },
  {
   "property": "C197",
   "status": "partial",
   "theorems": [
    "Verif.Ra.C197_status_iff",
    "Verif.Ra.C197_rejected_refuted",
    "Verif.Ra.C197_fail_iff",
    "Verif.Ra.C197_type_iff"
   ],
   "note": "For the names of RFC 9810 the keywords pass exactly for the status and type named, and for the bit named unless FAILINFO_MUST_BE_CORRECT is off, when any bits pass. Refuted: the documented call with `rejected` fails for every rejection, since the status is called `rejection`."
  },
  {
   "property": "C198",
   "status": "partial",
   "theorems": [
    "Verif.Ra.C198_accepted_iff",
    "Verif.Ra.C198_comma_refuted",
    "Verif.Ra.C198_absent_refuted",
    "Verif.Ra.C198_none"
   ],
   "note": "Characterised for non-empty arguments. Refuted: a list ending with a comma has an empty part, which occurs in every text, so that any_text passes always; and a message without texts gives an error of pyasn1 instead of the documented ValueError. Without arguments everything with a status passes."
  },
  {
   "property": "C199",
   "status": "partial",
   "theorems": [
    "Verif.Ra.C199_cert_iff",
    "Verif.Ra.C199_rejection_refuted",
    "Verif.Ra.C199_encrypted_refuted",
    "Verif.Ra.C199_id_iff"
   ],
   "note": "Which certificate and identifier are taken is characterised. Refuted: the status is not looked at, so a certificate is also taken from a rejection; and asking a response with an encrypted certificate for a certificate deletes the encrypted one."
  },
  {
   "property": "C200",
   "status": "partial",
   "theorems": [
    "Verif.Ra.C200_keys",
    "Verif.Ra.C200_found_iff",
    "Verif.Ra.C200_root_refuted",
    "Verif.Ra.C200_error_refuted"
   ],
   "note": "For names and numbers written as documented the keys are read in order, and what is found is below the one after the other. Refuted: no path denotes an element of the object itself if it is a list, and a path which fails at a list or a simple value raises AttributeError instead of ValueError."
  },
  {
   "property": "C201",
   "status": "partial",
   "theorems": [
    "Verif.Ra.C201_pure",
    "Verif.Ra.C201_choice_refuted",
    "Verif.Ra.C201_list_refuted"
   ],
   "note": "Nothing changes if the alternatives on the path are those which are set and the elements are there. Refuted: reading another alternative deletes the one which is set, and reading beyond the end of a list makes it longer."
  },
  {
   "property": "C202",
   "status": "partial",
   "theorems": [
    "Verif.Ra.C202_set_get",
    "Verif.Ra.C202_frame",
    "Verif.Ra.C202_shallow_refuted",
    "Verif.Ra.C202_dot_refuted",
    "Verif.Ra.C202_number_refuted",
    "Verif.Ra.C202_parent_refuted"
   ],
   "note": "The round trip holds for paths with a parent whose numbers follow a slash, and what is read at other positions of sequences and lists is unchanged. Refuted: a component of the object itself cannot be set by its name; with a dot before the name it can be set but not read; a number after a dot sets an element but does not read it, or reads but does not set below it."
  },
  {
   "property": "C203",
   "status": "partial",
   "theorems": [
    "Verif.Ra.C203_fields_iff",
    "Verif.Ra.C203_absent_refuted",
    "Verif.Ra.C203_choice_iff"
   ],
   "note": "For a SEQUENCE it passes exactly if its type has components with the names, for a choice exactly if the names are that of the alternative which is set. Refuted: an optional component which is absent counts as present."
  },
  {
   "property": "C204",
   "status": "partial",
   "theorems": [
    "Verif.Ra.C204_pubs_iff",
    "Verif.Ra.C204_pair_iff",
    "Verif.Ra.C204_accepted_iff",
    "Verif.Ra.C204_p10cr_refuted",
    "Verif.Ra.C204_encrypted_refuted",
    "Verif.Ra.C204_index_refuted"
   ],
   "note": "The acceptance of caPubs, of the structure, and of the body with one response is characterised. Refuted: what the request was makes no difference for caPubs in validate_ca_message_body (the flag is not passed on), encrypted certificates are never accepted, and the status checked is always that of the first response."
  },
  {
   "property": "C205",
   "status": "partial",
   "theorems": [
    "Verif.Ra.C205_lost_refuted",
    "Verif.Ra.C205_refusal",
    "Verif.Ra.C205_encrypted_iff"
   ],
   "note": "Refuted for accepted certificates: reading the other alternative deletes the certificate, so none can be taken from the message afterwards. Refusals are left as they are, and check_if_response_contains_encrypted_cert answers correctly on a copy."
  },
  {
   "property": "C206",
   "status": "partial",
   "theorems": [
    "Verif.Ra.C206_accepted_iff",
    "Verif.Ra.C206_pq_refuted",
    "Verif.Ra.C206_refusal_refuted",
    "Verif.Ra.C206_absent_refuted"
   ],
   "note": "The acceptance is characterised for all messages. Refuted: with post-quantum, composite and stateful signatures nothing is asked of the protection, refusals in ip, cp and kup are not accepted, and with allow_self_signed a missing field is accepted without verifying the signature."
  },
  {
   "property": "C207",
   "status": "partial",
   "theorems": [
    "Verif.Ra.C207_accepted_iff",
    "Verif.Ra.C207_default_sender_refuted"
   ],
   "note": "The acceptance is characterised for protected responses with a request, an interval and allow_failure_sender=False. Refuted: by default the sender need not be the subject of the certificate for signatures either, though the flag is documented for MAC-based protection."
  },
  {
   "property": "C208",
   "status": "partial",
   "theorems": [
    "Verif.Ra.C208_ec_iff",
    "Verif.Ra.C208_rsa_iff",
    "Verif.Ra.C208_pq_iff",
    "Verif.Ra.C208_composite_iff",
    "Verif.Ra.C208_field_iff",
    "Verif.Ra.C208_ed_refuted",
    "Verif.Ra.C208_sha3_refuted",
    "Verif.Ra.C208_field_refuted"
   ],
   "note": "Characterised for certificates with EC and RSA keys, and for post-quantum and composite algorithms with any certificate. Refuted: Ed25519 and Ed448 are taken to be consistent, ECDSA with SHA-3 is refused for EC keys, and check_protection_alg_field demands consistency for traditional signatures only. Stateful signatures are not characterised."
  },
  {
   "property": "C209",
   "status": "partial",
   "theorems": [
    "Verif.Ra.C209_accepted_iff",
    "Verif.Ra.C209_pss_refuted",
    "Verif.Ra.C209_errors_refuted"
   ],
   "note": "The acceptance is characterised for all OIDs and all keys with the names and OIDs the classes can have. Refuted: RSASSA-PSS is refused for RSA keys, and errors other than the documented one occur for composite algorithms with other keys and for the OIDs of hash functions."
  },
  {
   "property": "C210",
   "status": "partial",
   "theorems": [
    "Verif.Ra.C210_accepted_iff",
    "Verif.Ra.C210_pss_refuted",
    "Verif.Ra.C210_pq_refuted"
   ],
   "note": "The acceptance is characterised with check_sender_kid. Refuted: the first certificate is found with a verification which uses PKCS #1 v1.5, so messages protected with RSASSA-PSS are refused, and so is every post-quantum, composite and stateful signature."
  },
  {
   "property": "C211",
   "status": "proved",
   "theorems": [
    "Verif.Hybrid.C211_chameleon",
    "Verif.Hybrid.C211_chameleon_attrs",
    "Verif.Hybrid.C211_request",
    "Verif.Hybrid.C211_kind",
    "Verif.Hybrid.C211_related",
    "Verif.Hybrid.C211_discovery",
    "Verif.Hybrid.C211_ca",
    "Verif.Hybrid.C211_usages",
    "Verif.Hybrid.C211_sun",
    "Verif.Hybrid.C211_sun_attrs"
   ],
   "note": "Stated with the literal numbers."
  },
  {
   "property": "C212",
   "status": "partial",
   "theorems": [
    "Verif.Ra.C212_accepted_iff",
    "Verif.Ra.C212_single_iff",
    "Verif.Ra.C212_addresses",
    "Verif.Ra.C212_failure_allowed",
    "Verif.Ra.C212_unverified_refuted",
    "Verif.Ra.C212_default_refuted"
   ],
   "note": "Exact characterisation of the OCSP check. False of the code: neither the signature nor the certificate the answer is about is checked (C212_unverified_refuted); the default of must_be_present is the reverse of its documentation, so that without an address and without the extension every status passes, and with an address a certificate without the extension is always refused (C212_default_refuted)."
  },
  {
   "property": "C213",
   "status": "partial",
   "theorems": [
    "Verif.Ra.C213_accepted_iff",
    "Verif.Ra.C213_revoked_iff",
    "Verif.Ra.C213_foreign_refuted",
    "Verif.Ra.C213_file_unread_refuted"
   ],
   "note": "Exact characterisation of passing and of 'revoked'. False of the code: issuer, signature and dates of a CRL do not count, a foreign CRL with the same number revokes (C213_foreign_refuted); with an address and a file the file is not read (C213_file_unread_refuted). C213_revoked_iff assumes that fetching and reading do not themselves raise CertRevoked."
  },
  {
   "property": "C214",
   "status": "partial",
   "theorems": [
    "Verif.Ra.C214_valid_iff",
    "Verif.Ra.C214_revoked_iff",
    "Verif.Ra.C214_needs_issuer",
    "Verif.Ra.C214_unknown_refuted",
    "Verif.Ra.C214_address_refuted"
   ],
   "note": "Exact characterisation for both expectations. False of the code: a certificate the responder does not know counts as revoked (C214_unknown_refuted); giving the responder's address makes the check of every certificate without the AIA extension fail, though it is documented to override it (C214_address_refuted)."
  },
  {
   "property": "C215",
   "status": "partial",
   "theorems": [
    "Verif.Ra.C215_found_iff",
    "Verif.Ra.C215_chain_iff",
    "Verif.Ra.C215_mutation_refuted",
    "Verif.Ra.C215_unreadable_refuted"
   ],
   "note": "The signer found is exactly the first fitting one. False of the code: a certificate of the same name with an unreadable key before it ends the search (C215_unreadable_refuted); the caller's list is extended by the trust store (C215_mutation_refuted)."
  },
  {
   "property": "C216",
   "status": "partial",
   "theorems": [
    "Verif.Ra.C216_accepted_iff",
    "Verif.Ra.C216_ca_flag_refuted",
    "Verif.Ra.C216_aki_refuted",
    "Verif.Ra.C216_issuer_refuted"
   ],
   "note": "Exact characterisation. False of the code: the value of cA does not count (C216_ca_flag_refuted), nor the authority key identifier (C216_aki_refuted), nor the issuer's name (C216_issuer_refuted)."
  },
  {
   "property": "C217",
   "status": "partial",
   "theorems": [
    "Verif.Ra.C217_alg_iff",
    "Verif.Ra.C217_usage_iff",
    "Verif.Ra.C217_name_iff",
    "Verif.Ra.C217_nist",
    "Verif.Ra.C217_alg_refuted",
    "Verif.Ra.C217_usage_refuted",
    "Verif.Ra.C217_stateful_refuted"
   ],
   "note": "Exact characterisation of the three checks. False of the code: every post-quantum identifier is refused and every unknown one accepted (C217_alg_refuted); every post-quantum signature key with a KeyUsage extension is refused (C217_usage_refuted); the listed names xmss, xmssmt and hss are not matched by identifier (C217_stateful_refuted)."
  },
  {
   "property": "C218",
   "status": "partial",
   "theorems": [
    "Verif.Ra.C218_echoes",
    "Verif.Ra.C218_no_nonce",
    "Verif.Ra.C218_no_tid",
    "Verif.Ra.C218_random",
    "Verif.Ra.C218_total",
    "Verif.Ra.C218_details",
    "Verif.Ra.C218_fail",
    "Verif.Ra.C218_challenge_iff",
    "Verif.Ra.C218_text_exact_iff",
    "Verif.Ra.C218_neither_refuted",
    "Verif.Ra.C218_text_refuted"
   ],
   "note": "Proved for requests which have one of the two fields. False of the code: a request with neither gets a random transaction identifier, since the second name of the list of omitted fields keeps a blank (C218_neither_refuted); details given as a text are followed by one detail per character (C218_text_refuted)."
  },
  {
   "property": "C219",
   "status": "partial",
   "theorems": [
    "Verif.Ra.C219_form",
    "Verif.Ra.C219_first",
    "Verif.Ra.C219_certs",
    "Verif.Ra.C219_kind",
    "Verif.Ra.C219_dh_iff",
    "Verif.Ra.C219_dh_other",
    "Verif.Ra.C219_mac_partial",
    "Verif.Ra.C219_mac_other",
    "Verif.Ra.C219_kari",
    "Verif.Ra.C219_alt_refuted",
    "Verif.Ra.C219_mac_refuted"
   ],
   "note": "Kind, certificates and sender are characterised. False of the code: MACs other than PBMAC1 and the password-based MAC are answered with the default algorithm (C219_mac_refuted); the alternative key of the handler is never used (C219_alt_refuted)."
  },
  {
   "property": "C220",
   "status": "partial",
   "theorems": [
    "Verif.Ra.C220_unprotected",
    "Verif.Ra.C220_protected",
    "Verif.Ra.C220_second_refuted",
    "Verif.Ra.C220_nested_kem_refuted",
    "Verif.Ra.C220_nested_dh_refuted",
    "Verif.Ra.C220_type_refuted"
   ],
   "note": "False of the code: answers to unprotected requests lack the secondary certificate (C220_second_refuted); a nested request protected by a KEM-based MAC is answered with the password of the CA (C220_nested_kem_refuted), one protected by a DH-based MAC not at all (C220_nested_dh_refuted); certificates are served with the content type of CMP messages (C220_type_refuted)."
  },
  {
   "property": "C221",
   "status": "partial",
   "theorems": [
    "Verif.CA.C221_chameleon_iff",
    "Verif.CA.C221_related_iff",
    "Verif.CA.C221_multi_iff",
    "Verif.CA.C221_multi_invalid",
    "Verif.CA.C221_sun_revoked",
    "Verif.CA.C221_unverified_refuted"
   ],
   "note": "True of /multi-auth (C221_multi_iff). False of the code for /chameleon, /cert-discovery, /related-cert, /catalyst-sig, /catalyst-issuing and /sun-hybrid: each issues a certificate for a request with an invalid signature (C221_unverified_refuted); C221_chameleon_iff and C221_related_iff list the conditions they do check. That the builders called do not verify the protection themselves was read off hybrid_issuing.py; the builders are parameters."
  },
  {
   "property": "C222",
   "status": "partial",
   "theorems": [
    "Verif.CA.C222_open_iff",
    "Verif.CA.C222_store_iff",
    "Verif.CA.C222_sun",
    "Verif.CA.C222_sun_exclusive",
    "Verif.CA.C222_implicit",
    "Verif.CA.C222_chameleon_conf",
    "Verif.CA.C222_chameleon_reuse",
    "Verif.CA.C222_chameleon_refuted",
    "Verif.CA.C222_reuse_refuted"
   ],
   "note": "Registered for confirmation on /related-cert and /sun-hybrid (C222_open_iff, C222_sun). False of the code: a certificate of /chameleon can never be confirmed (C222_chameleon_refuted); with implicit confirmation the transaction identifier stays free (C222_implicit); a request refused for its used identifier has already put its certificate into the database (C222_reuse_refuted)."
  },
  {
   "property": "C223",
   "status": "partial",
   "theorems": [
    "Verif.CA.C223_protected_partial",
    "Verif.CA.C223_sun_protected",
    "Verif.CA.C223_chameleon_ids",
    "Verif.CA.C223_catalyst",
    "Verif.CA.C223_plain_refuted",
    "Verif.CA.C223_escapes_refuted",
    "Verif.CA.C223_sun_unprotected_refuted",
    "Verif.CA.C223_sun_confirm_refuted"
   ],
   "note": "False of the code: the answer to a certConf is not protected on four endpoints (C223_plain_refuted; all other answers are, C223_protected_partial); errors leave /cert-discovery and /sun-hybrid as exceptions (C223_escapes_refuted, C223_sun_unprotected_refuted, C223_sun_confirm_refuted); /chameleon answers CMP errors without the identifiers of the request (C223_chameleon_ids); /catalyst-issuing protects its error messages twice (C223_catalyst)."
  },
  {
   "property": "C224",
   "status": "partial",
   "theorems": [
    "Verif.CA.C224_issuing",
    "Verif.CA.C224_ok_iff",
    "Verif.CA.C224_no_decoder_error",
    "Verif.CA.C224_hybrid_refuted",
    "Verif.CA.C224_trailing_refuted"
   ],
   "note": "True of /issuing. False of the code: the other endpoints answer malformed data with the status 500 and no CMP message (C224_hybrid_refuted); data after a message is dropped without notice (C224_trailing_refuted)."
  },
  {
   "property": "C225",
   "status": "partial",
   "theorems": [
    "Verif.Ra.C225_cr_partial",
    "Verif.Ra.C225_cr_known",
    "Verif.Ra.C225_same",
    "Verif.Ra.C225_kga_refuted",
    "Verif.Ra.C225_agree_refuted"
   ],
   "note": "Equal answers are proved for signatures and the proof by a registration authority, and the known certificate for every protection but a password. False of the code: the handler of a cr passes neither the key of the key generation authority nor those for key agreement, so that such requests are granted as ir only (C225_kga_refuted, C225_agree_refuted); C225_cr_partial states what is left."
  },
  {
   "property": "C226",
   "status": "partial",
   "theorems": [
    "Verif.Ra.C226_issued_iff",
    "Verif.Ra.C226_compromised_refuted",
    "Verif.Ra.C226_unnamed_refuted"
   ],
   "note": "The exact condition of granting is proved. False of the code: the handler drops the result of its look-up of compromised keys (C226_compromised_refuted; CAHandler makes the look-up itself for p10cr messages, so this matters to other callers of the handler), and a request without a subject is accepted for an alternative name which the certificate then lacks (C226_unnamed_refuted)."
  },
  {
   "property": "C227",
   "status": "partial",
   "theorems": [
    "Verif.Ra.C227_iff",
    "Verif.Ra.C227_ir",
    "Verif.Ra.C227_mixed_refuted"
   ],
   "note": "Proved for ir and kur, which have one response. False of the code for a cr with several requests: only the first response is looked at (C227_mixed_refuted)."
  },
  {
   "property": "C228",
   "status": "partial",
   "theorems": [
    "Verif.Ra.C228_cyclic",
    "Verif.Ra.C228_size",
    "Verif.Ra.C228_plain",
    "Verif.Ra.C228_same_refuted",
    "Verif.Ra.C228_hex_refuted",
    "Verif.Ra.C228_text_refuted"
   ],
   "note": "The size and the content of the key are proved for secrets which are bytes. False of the code: a secret which repeats another, or agrees with it in the first bytes, gives the same key (C228_same_refuted); a secret in hexadecimal is expanded before it is decoded, which fails (C228_hex_refuted); a text is expanded by characters, so that the key may be longer than asked for (C228_text_refuted)."
  },
  {
   "property": "C229",
   "status": "partial",
   "theorems": [
    "Verif.Ra.C229_mac_iff",
    "Verif.Ra.C229_dh_iff",
    "Verif.Ra.C229_kem_iff",
    "Verif.Ra.C229_sig_iff",
    "Verif.Ra.C229_anchored",
    "Verif.Ra.C229_none",
    "Verif.Ra.C229_ccr_refuted",
    "Verif.Ra.C229_error_refuted"
   ],
   "note": "The exact conditions are proved for each kind of protection. False of the code: a certificate in the trust store for cross-certification is refused unless its chain ends in the other trust store too (C229_ccr_refuted); making the key of a MAC can raise a ValueError outside the try (C229_error_refuted). The method check_signer_extensions, which would look at the usage period of the key (C230), is not called."
  },
  {
   "property": "C230",
   "status": "partial",
   "theorems": [
    "Verif.Ra.C230_iff_partial",
    "Verif.Ra.C230_present",
    "Verif.Ra.C230_order_refuted"
   ],
   "note": "Proved for times whose texts are ordered as the times are. False of the code otherwise: the texts are compared, so that a fraction of a second or missing seconds invert the order (C230_order_refuted). No clock is read."
  },
  {
   "property": "C231",
   "status": "partial",
   "theorems": [
    "Verif.CA.C231_registered",
    "Verif.CA.C231_p10",
    "Verif.CA.C231_never_again",
    "Verif.CA.C231_proof_needed",
    "Verif.CA.C231_confirm_partial",
    "Verif.CA.C231_confirm_refuted",
    "Verif.CA.C231_confirm_mixed_refuted",
    "Verif.CA.C231_same_key_refuted",
    "Verif.CA.C231_chameleon"
   ],
   "note": "Proved for certificates registered with the response, for p10cr, for chameleon requests and for the confirmation of one certificate. False of the code: on a certConf for several certificates each is registered with the index of the first proof, so that the index of the second can be used again (C231_confirm_refuted) or the confirmation is refused (C231_confirm_mixed_refuted); the register is by certificate, not by key (C231_same_key_refuted)."
  },
  {
   "property": "C232",
   "status": "partial",
   "theorems": [
    "Verif.Ra.C232_first_iff",
    "Verif.Ra.C232_missing_refuted",
    "Verif.Ra.C232_index_refuted",
    "Verif.Ra.C232_extension_refuted",
    "Verif.Ra.C232_bodies_refuted"
   ],
   "note": "Proved for the first entry. False of the code: with another index the template is compared with the certificate and the status of the first response (C232_index_refuted); an entry which is not there passes (C232_missing_refuted); values of extensions are not compared (C232_extension_refuted); ccr and p10cr cannot be checked (C232_bodies_refuted)."
  },
  {
   "property": "C233",
   "status": "partial",
   "theorems": [
    "Verif.Ra.C233_sig_iff",
    "Verif.Ra.C233_mac_refuted",
    "Verif.Ra.C233_mac_request",
    "Verif.Ra.C233_cross_refuted"
   ],
   "note": "The exact condition is proved for signatures. False of the code: with MACs nothing of the pkiConf is looked at, it may be without protection (C233_mac_refuted); the confirmation after a ccp is refused (C233_cross_refuted). The header is not checked."
  },
  {
   "property": "C234",
   "status": "partial",
   "theorems": [
    "Verif.Ra.C234_excluded_absent",
    "Verif.Ra.C234_default_validity",
    "Verif.Ra.C234_given_kept_partial",
    "Verif.Ra.C234_key",
    "Verif.Ra.C234_from_cert",
    "Verif.Ra.C234_nothing_added",
    "Verif.Ra.C234_extensions",
    "Verif.Ra.C234_from_csr",
    "Verif.Ra.C234_serial_zero_refuted",
    "Verif.Ra.C234_kga_spki_refuted",
    "Verif.Ra.C234_caller_list_refuted"
   ],
   "note": "Proved but for three cases in which it is false of the code: the serial number zero is replaced by that of the certificate (C234_serial_zero_refuted); a given SubjectPublicKeyInfo is dropped for key generation without a key (C234_kga_spki_refuted); the list of extensions of the caller is extended by those of the certificate (C234_caller_list_refuted)."
  },
  {
   "property": "C235",
   "status": "partial",
   "theorems": [
    "Verif.Ra.C235_pop_kind",
    "Verif.Ra.C235_pop_accepted",
    "Verif.Ra.C235_message_accepted",
    "Verif.Ra.C235_bad_pop_refused_partial",
    "Verif.Ra.C235_bad_pop_refuted",
    "Verif.Ra.C235_flags_ignored",
    "Verif.Ra.C235_bad_pop_csr_refuted",
    "Verif.Ra.C235_dh_no_proof",
    "Verif.Ra.C235_every_proof_refuted",
    "Verif.Ra.C235_popo_default",
    "Verif.Ra.C235_popo_default_refuted",
    "Verif.Ra.C235_oid_refused",
    "Verif.Ra.C235_alg_id_alone",
    "Verif.Ra.C235_kga",
    "Verif.Ra.C235_kga_template_refuted"
   ],
   "note": "Acceptance is proved for all keys but Diffie-Hellman ones, refusal of a bad proof for keys that sign. False of the code: bad_pop and ra_verified change nothing for KEM and X25519/X448 keys (C235_bad_pop_refuted, C235_flags_ignored) and bad_pop nothing for cr from a PKCS#10 request (C235_bad_pop_csr_refuted); Diffie-Hellman keys get no proof (C235_every_proof_refuted); prepare_popo asks for encipherment for X25519/X448 keys by default (C235_popo_default_refuted); an object identifier as algorithm is an error (C235_oid_refused); a template that is given keeps its key for key generation and is refused by the CA (C235_kga_template_refuted)."
  },
  {
   "property": "C236",
   "status": "partial",
   "theorems": [
    "Verif.Ra.C236_body",
    "Verif.Ra.C236_request",
    "Verif.Ra.C236_given_messages",
    "Verif.Ra.C236_csr_appended",
    "Verif.Ra.C236_caller_list_refuted",
    "Verif.Ra.C236_spki_ignored",
    "Verif.Ra.C236_spki_refuted",
    "Verif.Ra.C236_proof_wishes_ignored",
    "Verif.Ra.C236_kur_partial",
    "Verif.Ra.C236_kur_subject_refuted",
    "Verif.Ra.C236_kur_controls_refuted",
    "Verif.Ra.C236_kur_needs_cert"
   ],
   "note": "Proved for the functions with a key, with a PKCS#10 request, and for key updates with a given name. False of the code: the list of messages of the caller is changed (C236_caller_list_refuted); cr, krr and ccr ignore a SubjectPublicKeyInfo and a CertRequest (C236_spki_refuted); a key update without a name asks for the subject CN=Hans Mustermann (C236_kur_subject_refuted) and with use_controls drops the controls of the caller (C236_kur_controls_refuted)."
  },
  {
   "property": "C237",
   "status": "partial",
   "theorems": [
    "Verif.Ra.C237_old_cert_id",
    "Verif.Ra.C237_controls_kept",
    "Verif.Ra.C237_wrong_ids",
    "Verif.Ra.C237_serial_issuer_partial",
    "Verif.Ra.C237_serial_zero",
    "Verif.Ra.C237_serial_zero_refuted",
    "Verif.Ra.C237_caller_list_refuted",
    "Verif.Ra.C237_archive_in_clear",
    "Verif.Ra.C237_archive_refuted",
    "Verif.Ra.C237_archive_partial",
    "Verif.Ra.C237_encr_key"
   ],
   "note": "Proved for the control of the old certificate but for the serial number zero, which is an error (C237_serial_zero_refuted). False of the code: the list of the caller is changed (C237_caller_list_refuted); a private key with a password is put into the control in the clear, the branch that encrypts it is not reached (C237_archive_refuted)."
  },
  {
   "property": "C238",
   "status": "proved",
   "theorems": [
    "Verif.Ra.C238_bodies",
    "Verif.Ra.C238_others_kept",
    "Verif.Ra.C238_appended",
    "Verif.Ra.C238_update_popo",
    "Verif.Ra.C238_stale_popo",
    "Verif.Ra.C238_given_popo"
   ],
   "note": "For keys that sign. That a signature does not verify for other data, and that the encoding of a request determines its controls and extensions, are hypotheses of C238_stale_popo."
  },
  {
   "property": "C239",
   "status": "partial",
   "theorems": [
    "Verif.Ra.C239_reason",
    "Verif.Ra.C239_reasons_read",
    "Verif.Ra.C239_several",
    "Verif.Ra.C239_invalid",
    "Verif.Ra.C239_blank_refuted",
    "Verif.Ra.C239_template",
    "Verif.Ra.C239_round_trip",
    "Verif.Ra.C239_no_entry",
    "Verif.Ra.C239_serial_only_refuted",
    "Verif.Ra.C239_serial_number",
    "Verif.Ra.C239_given"
   ],
   "note": "Proved for requests made from a certificate whose issuer has a text that is read back and that is unique by issuer and serial number. False of the code: a blank after a comma in a list of reasons is an error (C239_blank_refuted); a request, in particular a revival, with a serial number and no certificate has no issuer and is refused, as there is no argument for it (C239_serial_only_refuted); the serial number zero is replaced by that of the certificate (C239_serial_number)."
  },
  {
   "property": "C240",
   "status": "partial",
   "theorems": [
    "Verif.Ra.C240_content",
    "Verif.Ra.C240_verifies",
    "Verif.Ra.C240_foreign_key",
    "Verif.Ra.C240_unsigned",
    "Verif.Ra.C240_other_key",
    "Verif.Ra.C240_first_extensions",
    "Verif.Ra.C240_second_extensions_refuted",
    "Verif.Ra.C240_ignored_refuted",
    "Verif.Ra.C240_pq_hash_refuted",
    "Verif.Ra.C240_p10_partial",
    "Verif.Ra.C240_compare_iff",
    "Verif.Ra.C240_compare_refuted"
   ],
   "note": "Proved for the request and for the answer to the p10cr; the extensions of the request are not in the certificate. False of the code: no p10cr is built for a post-quantum key that does not support the hash, which is SHA-256 by default (C240_pq_hash_refuted); subjectAltName, exclude_signature and for_kga are ignored by build_p10cr_from_key (C240_ignored_refuted); extensions that are added later are not read (C240_second_extensions_refuted); the certificate for a request with extensions fails the comparison unless they are those of every certificate of the CA (C240_compare_refuted)."
  },
  {
   "property": "C241",
   "status": "partial",
   "theorems": [
    "Verif.Ra.C241_plain",
    "Verif.Ra.C241_kga_named",
    "Verif.Ra.C241_rsa",
    "Verif.Ra.C241_kga_partial",
    "Verif.Ra.C241_flags",
    "Verif.Ra.C241_kga_composite_refuted",
    "Verif.Ra.C241_kga_params_refuted",
    "Verif.Ra.C241_null_refuted"
   ],
   "note": "Proved for keys that are neither RSA nor composite. False of the code: a composite private key keeps its bits for a KGA (C241_kga_composite_refuted); the parameters of a key, such as the curve, are dropped for a KGA (C241_kga_params_refuted); add_null has no effect on a key that is neither composite nor for a KGA (C241_null_refuted)."
  },
  {
   "property": "C242",
   "status": "partial",
   "theorems": [
    "Verif.Ra.C242_status_iff",
    "Verif.Ra.C242_failure_iff",
    "Verif.Ra.C242_failure_bits",
    "Verif.Ra.C242_failure_none",
    "Verif.Ra.C242_response_iff",
    "Verif.Ra.C242_cert_refuted"
   ],
   "note": "Proved for statuses and failures given by names; texts of digits, which are read as numbers or bits, are modelled but characterised only for zeros. False of the code: when a certificate and an encrypted one are given the former is lost (C242_cert_refuted)."
  },
  {
   "property": "C243",
   "status": "partial",
   "theorems": [
    "Verif.Ra.C243_name_iff",
    "Verif.Ra.C243_ccr_refuted",
    "Verif.Ra.C243_answer_iff",
    "Verif.Ra.C243_answer_body_partial",
    "Verif.Ra.C243_cp_iff",
    "Verif.Ra.C243_ip_iff",
    "Verif.Ra.C243_client_iff",
    "Verif.Ra.C243_p10_refuted",
    "Verif.Ra.C243_request_refuted",
    "Verif.Ra.C243_header_partial",
    "Verif.Ra.C243_kga_header_refuted",
    "Verif.Ra.C243_responses_refuted",
    "Verif.Ra.C243_none_refuted",
    "Verif.Ra.C243_p10_id_refuted",
    "Verif.Ra.C243_index_refuted",
    "Verif.Ra.C243_ids",
    "Verif.Ra.C243_refusal_iff",
    "Verif.Ra.C243_refusal_client",
    "Verif.Ra.C243_krp_refuted"
   ],
   "note": "Proved for the builders; issuing a certificate is a parameter (IssueEnv), for which C243_ids takes the model of process_cert_requests. False of the code: _build_ca_cert_response_body does not answer a ccr (C243_ccr_refuted); the answer to a p10cr with a given certificate has the identifier 0, which the client refuses (C243_p10_refuted), and neither body nor identifiers are taken from the request (C243_request_refuted); set_header_fields has no effect for keys the CA generates (C243_kga_header_refuted); responses alone are enough for ip but not for cp (C243_responses_refuted); with an encrypted certificate alone the list of certificates of ip has an entry None (C243_none_refuted); the identifier 0 is replaced by -1 for a p10cr (C243_p10_id_refuted); one entry of an ir, kur or ccr cannot be answered with cp by its index (C243_index_refuted); krp says accepted whatever its status is (C243_krp_refuted)."
  },
  {
   "property": "C244",
   "status": "partial",
   "theorems": [
    "Verif.Ra.C244_rsa_iff",
    "Verif.Ra.C244_pss_iff",
    "Verif.Ra.C244_pss_refuted",
    "Verif.Ra.C244_ec_iff",
    "Verif.Ra.C244_eddsa",
    "Verif.Ra.C244_pq",
    "Verif.Ra.C244_falcon",
    "Verif.Ra.C244_params",
    "Verif.Ra.C244_pss_params_refuted",
    "Verif.Ra.C244_hash_read",
    "Verif.Ra.C244_pq_hash_read",
    "Verif.Ra.C244_consistent",
    "Verif.Ra.C244_consistent_refuted",
    "Verif.Ra.C244_digest",
    "Verif.Ra.C244_default_digest",
    "Verif.Ra.C244_pure_refuted",
    "Verif.Ra.C244_stateful_refuted",
    "Verif.Ra.C244_ignored_refuted",
    "Verif.Ra.C244_composite_refuted",
    "Verif.Ra.C244_stateful_digest"
   ],
   "note": "Proved for RSA, EC, EdDSA, ML-DSA, SLH-DSA and Falcon, with composite keys as names; the signing itself is not modelled here. False of the code: there is no RSA-PSS with SHA-384 or SHA-512 (C244_pss_refuted); with RSA-PSS both options for the parameters are accepted together and add_null has no effect (C244_pss_params_refuted); the OIDs of RSA-PSS are refused for the RSA key they were chosen for (C244_consistent_refuted); SignedData by ML-DSA or SLH-DSA uses a pre-hash OID by default, which RFC 9882 and RFC 9814 do not allow (C244_pure_refuted); no digest for stateful keys although the digest of a certificate is known (C244_stateful_refuted); a hash which the key does not support is ignored without an error (C244_ignored_refuted); a composite key with RSA-PSS only has a digest but no algorithm (C244_composite_refuted)."
  },
  {
   "property": "C245",
   "status": "partial",
   "theorems": [
    "Verif.Ra.CrlDp.C245_reasons_iff",
    "Verif.Ra.CrlDp.C245_reason_bits",
    "Verif.Ra.CrlDp.C245_blank_refuted",
    "Verif.Ra.CrlDp.C245_idp_reasons_refuted",
    "Verif.Ra.CrlDp.C245_uri",
    "Verif.Ra.CrlDp.C245_both",
    "Verif.Ra.CrlDp.C245_reasons_only_refuted",
    "Verif.Ra.CrlDp.C245_empty_refuted",
    "Verif.Ra.CrlDp.C245_idp_given_refuted",
    "Verif.Ra.CrlDp.C245_ca",
    "Verif.Ra.CrlDp.C245_client",
    "Verif.Ra.CrlDp.C245_answered",
    "Verif.Ra.CrlDp.C245_crl_issuer_refuted",
    "Verif.Ra.CrlDp.C245_index_refuted",
    "Verif.Ra.CrlDp.C245_given_refuted",
    "Verif.Ra.CrlDp.C245_source_iff",
    "Verif.Ra.CrlDp.C245_source_answer",
    "Verif.Ra.CrlDp.C245_file",
    "Verif.Ra.CrlDp.C245_file_index_refuted",
    "Verif.Ra.CrlDp.C245_cert_file_refuted",
    "Verif.Ra.CrlDp.C245_bad_refuted",
    "Verif.Ra.CrlDp.C245_exclude"
   ],
   "note": "Proved for the values of the extensions; their encoding is not modelled, and names are parsed by a parameter. False of the code: a blank after a comma in the reasons is an error (C245_blank_refuted); the reasons of an issuing distribution point are always all nine (C245_idp_reasons_refuted); a distribution point with reasons only is made (C245_reasons_only_refuted); an empty address is ignored in one function and an error in another (C245_empty_refuted); names beside a given issuing distribution point are ignored (C245_idp_given_refuted); the CA adds a point with itself as cRLIssuer and no name (C245_crl_issuer_refuted), from which no request can be made (C245_index_refuted); an address or name is ignored beside a certificate (C245_given_refuted), a certificate beside a CRL (C245_cert_file_refuted), the index for a CRL (C245_file_index_refuted); a bad time is not refused by the CA (C245_bad_refuted)."
  },
  {
   "property": "C246",
   "status": "partial",
   "theorems": [
    "Verif.Ra.CrlDp.C246_cert",
    "Verif.Ra.CrlDp.C246_given_iff",
    "Verif.Ra.CrlDp.C246_mod_serial",
    "Verif.Ra.CrlDp.C246_mod_issuer_iff",
    "Verif.Ra.CrlDp.C246_mod_issuer_refuted",
    "Verif.Ra.CrlDp.C246_empty_refuted"
   ],
   "note": "Proved; the change of the issuer text is a parameter. False of the code: modify_issuer has no effect beside a given issuer (C246_mod_issuer_refuted); an empty issuer is replaced by that of the certificate and is a TypeError without one (C246_empty_refuted)."
  },
  {
   "property": "C247",
   "status": "partial",
   "theorems": [
    "Verif.Ra.PopBuild.C247_agree_mac",
    "Verif.Ra.PopBuild.C247_two_functions",
    "Verif.Ra.PopBuild.C247_agree_encrypted_iff",
    "Verif.Ra.PopBuild.C247_subsequent_iff",
    "Verif.Ra.PopBuild.C247_challenge_refuted",
    "Verif.Ra.PopBuild.C247_bad_pop_refuted",
    "Verif.Ra.PopBuild.C247_mac_encipherment",
    "Verif.Ra.PopBuild.C247_open_type",
    "Verif.Ra.PopBuild.C247_kem_popo_refuted",
    "Verif.Ra.PopBuild.C247_version_partial",
    "Verif.Ra.PopBuild.C247_version_refuted",
    "Verif.Ra.PopBuild.C247_opened_iff",
    "Verif.Ra.PopBuild.C247_no_name",
    "Verif.Ra.PopBuild.C247_enc_key_kem",
    "Verif.Ra.PopBuild.C247_enc_key_rsa",
    "Verif.Ra.PopBuild.C247_enc_key_ec",
    "Verif.Ra.PopBuild.C247_rsa_default",
    "Verif.Ra.PopBuild.C247_rsa_default_refuted",
    "Verif.Ra.PopBuild.C247_verify_refuted",
    "Verif.Ra.PopBuild.C247_verify_type_refuted",
    "Verif.Ra.PopBuild.C247_enc_cert",
    "Verif.Ra.PopBuild.C247_enc_rid"
   ],
   "note": "The proofs that the client prepares are related to the opening and the checks of the CA. Refuted: a challenge cannot be asked for (the name `challenge` is not a value of `SubsequentMessage`); `bad_pop` has no effect without a secret; `prepare_kem_env_data_for_popo` sets the content type `id-signedData`, which the CA always refuses; without `cmp_protection_cert` an encrypted key for an RSA certificate names the certificate of the CA, while the CA compares with the first certificate of the message; the version of `EnvelopedData` is 0 and not 3 for KEM and password recipients; `verify_encrypted_key_popo` expects `id-signedData` and reads the missing field `privateKeyInfo`, so that it never accepts; `validate_kemri_rid_for_encrypted_cert` with the certificate refuses whatever has a subject key identifier (C247_enc_rid). For EC keys X25519 and X448 the opening of the CA (another certificate of the message) is not covered."
  },
  {
   "property": "C248",
   "status": "partial",
   "theorems": [
    "Verif.Ra.CertGen.C248_usage_iff",
    "Verif.Ra.CertGen.C248_usage_valid",
    "Verif.Ra.CertGen.C248_eku_iff",
    "Verif.Ra.CertGen.C248_eku_refuted",
    "Verif.Ra.CertGen.C248_san",
    "Verif.Ra.CertGen.C248_san_refuted",
    "Verif.Ra.CertGen.C248_basic_iff",
    "Verif.Ra.CertGen.C248_aki_cert_refuted",
    "Verif.Ra.CertGen.C248_aki",
    "Verif.Ra.CertGen.C248_aki_names_refuted",
    "Verif.Ra.CertGen.C248_aki_issuer_partial",
    "Verif.Ra.CertGen.C248_aki_issuer_refuted",
    "Verif.Ra.CertGen.C248_exts",
    "Verif.Ra.CertGen.C248_exts_none",
    "Verif.Ra.CertGen.C248_exts_critical",
    "Verif.Ra.CertGen.C248_compare_ski",
    "Verif.Ra.CertGen.C248_modify",
    "Verif.Ra.CertGen.C248_sign",
    "Verif.Ra.CertGen.C248_patch",
    "Verif.Ra.CertGen.C248_build",
    "Verif.Ra.CertGen.C248_issuer_partial",
    "Verif.Ra.CertGen.C248_issuer_refuted",
    "Verif.Ra.CertGen.C248_build_exts",
    "Verif.Ra.CertGen.C248_include_ski",
    "Verif.Ra.CertGen.C248_given_refuted",
    "Verif.Ra.CertGen.C248_path_zero_refuted",
    "Verif.Ra.CertGen.C248_doc_ski_refuted",
    "Verif.Ra.CertGen.C248_generate_ski_refuted",
    "Verif.Ra.CertGen.C248_modify_last",
    "Verif.Ra.CertGen.C248_modify_cn_partial",
    "Verif.Ra.CertGen.C248_modify_cn_refuted",
    "Verif.Ra.CertGen.C248_modify_cn_missing"
   ],
   "note": "What is proved holds for all arguments; the cases in which the property is false are the theorems with _refuted. C248_aki_issuer_partial needs a self-issued CA certificate, C248_issuer_partial the key of the CA, C248_modify_cn_partial attributes of different types."
  },
  {
   "property": "C249",
   "status": "partial",
   "theorems": [
    "Verif.PQ.TradStore.C249_saved_iff",
    "Verif.PQ.TradStore.C249_invalid_key_refuted",
    "Verif.PQ.TradStore.C249_dsa_dh_not_saved",
    "Verif.PQ.TradStore.C249_defaults_refuted",
    "Verif.PQ.TradStore.C249_trad_never_pem",
    "Verif.PQ.TradStore.C249_empty_password",
    "Verif.PQ.TradStore.C249_load_iff",
    "Verif.PQ.TradStore.C249_roundtrip",
    "Verif.PQ.TradStore.C249_v0_with_public_refuted",
    "Verif.PQ.TradStore.C249_other_version_refused",
    "Verif.PQ.TradStore.C249_other_public_refused",
    "Verif.PQ.TradStore.C249_private_key_info_refuted",
    "Verif.PQ.TradStore.C249_trailing_data",
    "Verif.PQ.TradStore.C249_rsa_kem_roundtrip",
    "Verif.PQ.TradStore.C249_prepared_version",
    "Verif.PQ.TradStore.C249_v1_has_no_public",
    "Verif.PQ.TradStore.C249_kga_invalid_v1_refuted",
    "Verif.PQ.TradStore.C249_kga_key_pair_v1_refuted",
    "Verif.PQ.TradStore.C249_kga_priv_size_refused",
    "Verif.PQ.TradStore.C249_kga_pub_size_refused",
    "Verif.PQ.TradStore.C249_kga_key_pair_refused",
    "Verif.PQ.TradStore.C249_kga_other",
    "Verif.PQ.TradStore.C249_different_is_different",
    "Verif.PQ.TradStore.C249_different_first",
    "Verif.PQ.TradStore.C249_size_lost_refuted",
    "Verif.PQ.TradStore.C249_different_rsa_refuted",
    "Verif.PQ.TradStore.C249_different_ec_refuted",
    "Verif.PQ.TradStore.C249_rsa_length",
    "Verif.PQ.TradStore.C249_dh_secret"
   ],
   "note": "Proved for all keys of a library that reads what it writes (Lawful); the cases in which the property is false are the theorems with _refuted. The factories of post-quantum and hybrid keys are parameters here (see C110 and following); the PEM text and its encryption are not modelled."
  },
  {
   "property": "C250",
   "status": "partial",
   "theorems": [
    "Verif.Ra.NameBuild.C250_validate_iff",
    "Verif.Ra.NameBuild.C250_validate_error",
    "Verif.Ra.NameBuild.C250_built_iff",
    "Verif.Ra.NameBuild.C250_build_errors",
    "Verif.Ra.NameBuild.C250_bad_size_partial",
    "Verif.Ra.NameBuild.C250_bad_size_refuted",
    "Verif.Ra.NameBuild.C250_type_trailing",
    "Verif.Ra.NameBuild.C250_bad_text",
    "Verif.Ra.NameBuild.C250_country",
    "Verif.Ra.NameBuild.C250_equals_refuted",
    "Verif.Ra.NameBuild.C250_space_lost_refuted",
    "Verif.Ra.NameBuild.C250_parse_iff"
   ],
   "note": "Proved for all texts and flags; the wrong sizes only for attributes with a bounded size, the refutation covers the three others. The check is modelled for values read from DER, by the kind of string, the text and trailing data; the alphabets of the string kinds are not modelled; the bounds that are imported from pkilint are those of X.520."
  },
  {
   "property": "C251",
   "status": "partial",
   "theorems": [
    "Verif.PQ.HybGen.C251_first_match",
    "Verif.PQ.HybGen.C251_found_iff",
    "Verif.PQ.HybGen.C251_curve_alone_refuted",
    "Verif.PQ.HybGen.C251_generated",
    "Verif.PQ.HybGen.C251_xwing_ignores_refuted",
    "Verif.PQ.HybGen.C251_generated_oid_partial",
    "Verif.PQ.HybGen.C251_kem_oid_iff",
    "Verif.PQ.HybGen.C251_generated_oid_refuted",
    "Verif.PQ.HybGen.C251_p521_refuted",
    "Verif.PQ.HybGen.C251_from_keys",
    "Verif.PQ.HybGen.C251_from_pq_oid_partial",
    "Verif.PQ.HybGen.C251_from_pq_dhkem_refuted",
    "Verif.PQ.HybGen.C251_pair_unchecked_refuted",
    "Verif.PQ.HybGen.C251_from_trad_refused_refuted",
    "Verif.PQ.HybGen.C251_from_rsa_iff",
    "Verif.PQ.HybGen.C251_by_name"
   ],
   "note": "Proved for all requests and keys; that a generated key has an identifier holds for composite signatures, Chempat and X-Wing only (the _partial theorems), and is refuted for the composite KEMs. A key is modelled by what the choice depends on and a number; the algorithm is one of the five supported names in lower case; the generation of the components by the libraries is not modelled."
  },
  {
   "property": "C252",
   "status": "partial",
   "theorems": [
    "Verif.Ra.Ssl.C252_chain_without_crls",
    "Verif.Ra.Ssl.C252_chain_with_crl_file",
    "Verif.Ra.Ssl.C252_missing_crl_file",
    "Verif.Ra.Ssl.C252_chain_with_fetched_crls",
    "Verif.Ra.Ssl.C252_tidy_after_success",
    "Verif.Ra.Ssl.C252_empty_chain",
    "Verif.Ra.Ssl.C252_all_crls_obtained_refuted",
    "Verif.Ra.Ssl.C252_crl_check_only_restricts_refuted",
    "Verif.Ra.Ssl.C252_crl_file_kept_refuted",
    "Verif.Ra.Ssl.C252_crl_by_exit_status",
    "Verif.Ra.Ssl.C252_no_crl",
    "Verif.Ra.Ssl.C252_ocsp_by_output",
    "Verif.Ra.Ssl.C252_ocsp_revoked",
    "Verif.Ra.Ssl.C252_ocsp_files_removed_refuted",
    "Verif.Ra.Ssl.C252_unknown_means_answered_refuted"
   ],
   "note": "Proved for every chain, file system and answer of the program; the five claims marked false are refuted with witnesses. The program is an arbitrary function of the files that its command line names; paths are strings, and the CRL file must not lie in the directory of the certificates."
  },
  {
   "property": "C253",
   "status": "partial",
   "theorems": [
    "Verif.PQ.Pem.C253_b64_roundtrip",
    "Verif.PQ.Pem.C253_encrypted_file",
    "Verif.PQ.Pem.C253_plain_file",
    "Verif.PQ.Pem.C253_load_errors",
    "Verif.PQ.Pem.C253_header_names",
    "Verif.PQ.Pem.C253_public_roundtrip",
    "Verif.PQ.Pem.C253_cipher_name_refuted",
    "Verif.PQ.Pem.C253_falcon_refuted",
    "Verif.PQ.Pem.C253_plain_with_password_refuted",
    "Verif.PQ.Pem.C253_wrong_password_refuted",
    "Verif.PQ.Pem.C253_no_password_refuted",
    "Verif.PQ.Pem.C253_public_armour_refuted"
   ],
   "note": "Round trips proved for every key, password, name and surrounding text in which no armour line begins; the claims marked false are refuted. Key derivation and AES on whole blocks are parameters of which only the inversion is assumed."
  },
  {
   "property": "C254",
   "status": "partial",
   "theorems": [
    "Verif.Hybrid.SunReq.C254_p10cr",
    "Verif.Hybrid.SunReq.C254_crmf",
    "Verif.Hybrid.SunReq.C254_issuer",
    "Verif.Hybrid.SunReq.C254_encrypted_only",
    "Verif.Hybrid.SunReq.C254_plain",
    "Verif.Hybrid.SunReq.C254_protection",
    "Verif.Hybrid.SunReq.C254_kem_other_bodies_refuted",
    "Verif.Hybrid.SunReq.C254_ccr_refuted",
    "Verif.Hybrid.SunReq.C254_bad_sig_for_kem_refuted",
    "Verif.Hybrid.SunReq.C254_each_request_answered_refuted",
    "Verif.Hybrid.SunReq.C254_index_for_kem_refuted",
    "Verif.Hybrid.SunReq.C254_other_key_refuted",
    "Verif.Hybrid.SunReq.C254_version",
    "Verif.Hybrid.SunReq.C254_other_body",
    "Verif.Hybrid.SunReq.C254_identifiers"
   ],
   "note": "Complete conditions proved; the claims marked false are refuted. The check of possession, the building of the two forms of the certificate and the encryption are parameters."
  },
  {
   "property": "C255",
   "status": "partial",
   "theorems": [
    "Verif.PQ.KeyExport.C255_ml",
    "Verif.PQ.KeyExport.C255_ml_saved",
    "Verif.PQ.KeyExport.C255_ml_errors",
    "Verif.PQ.KeyExport.C255_xwing",
    "Verif.PQ.KeyExport.C255_slh_partial",
    "Verif.PQ.KeyExport.C255_raw",
    "Verif.PQ.KeyExport.C255_type_names",
    "Verif.PQ.KeyExport.C255_length",
    "Verif.PQ.KeyExport.C255_received_raw_kem_refuted",
    "Verif.PQ.KeyExport.C255_received_raw_dsa_refuted",
    "Verif.PQ.KeyExport.C255_slh_both_refuted",
    "Verif.PQ.KeyExport.C255_frodo_seed_refuted",
    "Verif.PQ.KeyExport.C255_hybrid_trad_refuted",
    "Verif.PQ.KeyExport.C255_composite_refuted",
    "Verif.PQ.KeyExport.C255_chempat_refuted"
   ],
   "note": "Complete for ML, X-Wing, SLH-DSA and the other PQ keys; the claims marked false are refuted. The form seed_and_raw of composite keys is not modelled."
  },
  {
   "property": "C256",
   "status": "partial",
   "theorems": [
    "Verif.CA.Setup.C256_load",
    "Verif.CA.Setup.C256_is_set",
    "Verif.CA.Setup.C256_issuing",
    "Verif.CA.Setup.C256_validate",
    "Verif.CA.Setup.C256_agree",
    "Verif.CA.Setup.C256_ecc_cert",
    "Verif.CA.Setup.C256_config",
    "Verif.CA.Setup.C256_names_iff",
    "Verif.CA.Setup.C256_in_list",
    "Verif.CA.Setup.C256_chain",
    "Verif.CA.Setup.C256_kga_optional_refuted",
    "Verif.CA.Setup.C256_kga_pair_refuted",
    "Verif.CA.Setup.C256_default_password_refuted",
    "Verif.CA.Setup.C256_settings_refuted",
    "Verif.CA.Setup.C256_alt_key_refuted",
    "Verif.CA.Setup.C256_not_unique_refuted",
    "Verif.CA.Setup.C256_chain_marks_refuted"
   ],
   "note": "The positive claims are proved; the claims marked false are refuted."
  },
  {
   "property": "C257",
   "status": "partial",
   "theorems": [
    "Verif.Ra.Announce.C257_cert_id",
    "Verif.Ra.Announce.C257_rann",
    "Verif.Ra.Announce.C257_status",
    "Verif.Ra.Announce.C257_crlann",
    "Verif.Ra.Announce.C257_ckuann",
    "Verif.Ra.Announce.C257_accepted",
    "Verif.Ra.Announce.C257_handler_rann_refuted",
    "Verif.Ra.Announce.C257_status_refuted",
    "Verif.Ra.Announce.C257_order_refuted",
    "Verif.Ra.Announce.C257_handler_cann_refuted",
    "Verif.Ra.Announce.C257_new_key_refuted",
    "Verif.Ra.Announce.C257_new_cert_refuted"
   ],
   "note": "The positive claims are proved; the claims marked false are refuted."
  },
  {
   "property": "C258",
   "status": "partial",
   "theorems": [
    "Verif.Prot.Orig.C258_iff",
    "Verif.Prot.Orig.C258_absent",
    "Verif.Prot.Orig.C258_roundtrip",
    "Verif.Prot.Orig.C258_protected",
    "Verif.Prot.Orig.C258_false",
    "Verif.Prot.Orig.C258_signed",
    "Verif.Prot.Orig.C258_error_refuted",
    "Verif.Prot.Orig.C258_required_refuted"
   ],
   "note": "The positive claims are proved; the claims marked false are refuted."
  },
  {
   "property": "C259",
   "status": "partial",
   "theorems": [
    "Verif.Check.PubKey.C259_table",
    "Verif.Check.PubKey.C259_iff",
    "Verif.Check.PubKey.C259_same",
    "Verif.Check.PubKey.C259_other",
    "Verif.Check.PubKey.C259_invert",
    "Verif.Check.PubKey.C259_name",
    "Verif.Check.PubKey.C259_texts",
    "Verif.Check.PubKey.C259_params",
    "Verif.Check.PubKey.C259_name_refuted",
    "Verif.Check.PubKey.C259_unknown_refuted",
    "Verif.Check.PubKey.C259_null_refuted"
   ],
   "note": "The positive claims are proved; the claims marked false are refuted.  Of the table of names the part from which the texts come is given in full, the tables put in before and after it are parameters of which only is assumed that they do not have the same text or name."
  },
  {
   "property": "C260",
   "status": "partial",
   "theorems": [
    "Verif.Check.C260_iff",
    "Verif.Check.C260_missing",
    "Verif.Check.C260_other",
    "Verif.Check.C260_fresh_refuted",
    "Verif.Check.C260_handler_refuted"
   ],
   "note": "The positive claims are proved; the claims marked false are refuted."
  },
  {
   "property": "C261",
   "status": "partial",
   "theorems": [
    "Verif.Ra.Genm.C261_entries",
    "Verif.Ra.Genm.C261_crl_update",
    "Verif.Ra.Genm.C261_answered_iff",
    "Verif.Ra.Genm.C261_language_refuted",
    "Verif.Ra.Genm.C261_negative",
    "Verif.Ra.Genm.C261_negative_root",
    "Verif.Ra.Genm.C261_blank_refuted",
    "Verif.Ra.Genm.C261_unknown_refused"
   ],
   "note": "The positive claims are proved; the claims marked false are refuted."
  },
  {
   "property": "C262",
   "status": "partial",
   "theorems": [
    "Verif.Prot.KemCli.C262_required",
    "Verif.Prot.KemCli.C262_returned_secret",
    "Verif.Prot.KemCli.C262_ca_verifies_partial",
    "Verif.Prot.KemCli.C262_answer_iff",
    "Verif.Prot.KemCli.C262_header",
    "Verif.Prot.KemCli.C262_composite_refuted",
    "Verif.PQ.Hyb.C262_composite_secrets"
   ],
   "note": "The positive claims are proved; the claim about composite keys is refuted."
  },
  {
   "property": "C263",
   "status": "partial",
   "theorems": [
    "Verif.CA.Ocsp.C263_fields",
    "Verif.CA.Ocsp.C263_reason_refused",
    "Verif.CA.Ocsp.C263_answer",
    "Verif.CA.Ocsp.C263_revoked",
    "Verif.CA.Ocsp.C263_good",
    "Verif.CA.Ocsp.C263_malformed",
    "Verif.CA.Ocsp.C263_unsupported_key_refuted",
    "Verif.CA.Ocsp.C263_foreign_issuer_refuted",
    "Verif.CA.Ocsp.C263_nonce_refuted",
    "Verif.CA.Ocsp.C263_sha1_signature_refuted"
   ],
   "note": "The positive claims are proved; the claims about keys outside of the library, the issuer of the request, the length of nonces and the hash function of the signature are refuted."
  },
  {
   "property": "C264",
   "status": "partial",
   "theorems": [
    "Verif.Ra.KemCt.C264_iff",
    "Verif.Ra.KemCt.C264_roundtrip",
    "Verif.Ra.KemCt.C264_bad",
    "Verif.Ra.KemCt.C264_without_key_refuted",
    "Verif.Ra.KemCt.C264_ciphertext_dropped_refuted"
   ],
   "note": "The positive claims are proved; the claims about calls without a key are refuted."
  }
 ]
}
