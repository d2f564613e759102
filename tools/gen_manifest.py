"""Regenerates /verif/MANIFEST.json; claims are read from the table below."""
import json, os
C = []
def c(prop, status, theorems, note):
    C.append(dict(property=prop, status=status, theorems=["Verif." + t for t in theorems.split()], note=note))

def ca(names):
    return " ".join("CA." + n for n in names.split())

c("C01", "proved", ca("C01_step C01_transitions C01_new_entries C01_revoke_iff C01_revive_iff C01_confirm_iff C01_never_reset"),
  "invariant over arbitrary call histories")
c("C02", "partial", ca("C02_refuted C02_revoked_stays_partial"),
  "false of the code: an UPDATED request turns a REVOKED entry into UPDATED; the partial theorem assumes no update call for the certificate")
c("C03", "proved", ca("C03_failed_call_unchanged C03_change_local C03_change_observed C03_frame"), "")
c("C19", "proved", ca("C19_not_updated_accepted C19_confirmed_update_rejects C19_pending_update_window C19_no_type_error C19_boundary_overlap C19_is_updated"), "")
c("C20", "proved", ca("C20_history C20_history_maximal"), "")
c("C85", "proved", ca("C85_views_partition C85_revoked_is_issued"), "")

c("C04", "proved", ca("C04_open_decision C04_no_replay C04_accounting C04_accepted_once C04_certs_kept C04_release_then_reuse"), "")
c("C07", "proved", ca("C07_used_secret_refused C07_at_most_one_request C07_accept_sound"),
  "for histories without remove_shared_secret for the transaction, a method nothing in the repository calls")
c("C08", "proved", ca("C08_accept_sound C08_unknown_rejected C08_message_fresh C08_index_once C08_enrolment_index_never C08_needs_recording C08_honest_accepted C08_requests_recorded C08_confirmation_unrecorded"),
  "for configurations that record checked indices (the default); C08_needs_recording shows the configuration matters")
c("C09", "proved", ca("C09_fair C09_at_most_issued C09_unknown_refused C09_success_sound C09_cr_consumed_without_certificate C09_issued_iff C09_accepted_iff"), "")
c("C87", "partial", ca("C87_rr_index_unchecked_refuted C87_rr_ignores_state C87_other_types_partial"),
  "false of the code for rr messages: the stateful index is not consulted; proved for all other message types")
c("C88", "partial", ca("C88_nested_always_rejected"),
  "false of the code: the outer protection is checked twice, so the second check always finds the index used; the negation is proved for all states")

c("C05", "proved", ca("C05_second_refused C05_at_most_once C05_implicit_refused C05_issued_state"), "")
c("C06", "proved", ca("C06_bound C06_nonces_iff"), "")
c("C10", "proved", ca("C10_revoked C10_good_iff C10_unauthorized_iff C10_db_revoked C10_db_good"), "")
c("C11", "partial", ca("C11_db_contents C11_db_number_constant_refuted C11_numbers_increase_partial C11_served_crl_refuted"),
  "false through CertificateDB: a new CertRevStateDB is built per request, so the CRL number is constant; the CRL the CA serves is built from a state database that no request writes, so it is always empty; proved for one CertRevStateDB")
c("C12", "partial", ca("C12_exact C12_ccr_refuted C12_keyless_refuted C12_detects_partial C12_sound"),
  "false of the code for ccr bodies and when an earlier stored certificate has no comparable key")
c("C21", "proved", ca("C21_add C21_remove_first C21_remove_absent C21_is_revoked C21_balance C21_is_revoked_history"), "")
c("C22", "proved", ca("C22_status"), "")
c("C23", "partial", ca("C23_exact C23_other_subject_refuted C23_pending_update_refuted C23_same_key_partial C23_reuse_allowed C23_p10cr_partial C23_p10cr_no_key"),
  "false of the code: key reuse by another subject and keys of unconfirmed updates are not detected")
c("C86", "partial", ca("C86_rejection_confirms_refuted C86_always_confirmed C86_result"), "false of the code; the negation is proved for every accepted certConf")
c("C91", "partial", ca("C91_contains_hash_partial C91_get_by_hash_partial C91_updated_lookup_refuted C91_updated_lookup_fails C91_updated_lookup_sha1_partial"),
  "false of the code for hash algorithms other than SHA-1")
c("C92", "partial", ca("C92_updated_raises C92_refuted C92_answered_partial"), "false of the code for updated certificates: NotImplementedError")
c("C93", "partial", ca("C93_any_hash_refuted C93_hash_bound_partial"), "false of the code when the certConf reports a rejection; proved otherwise")
c("C94", "partial", ca("C94_stateful_other_signer_refuted C94_same_authority_partial"), "false of the code for stateful hash-based signatures")
c("C95", "proved", ca("C95_issue_pending C95_stays_pending C95_honest_accepted C95_honest_accepted_kup C95_is_not_confirmed"), "for ip, cp and ccp responses; a kup response is confirmable as long as the old certificate is still waiting (C95_honest_accepted_kup)")

def ck(names):
    return " ".join("Check." + n for n in names.split())

c("C14", "proved", ck("C14_iff"), "")
c("C16", "proved", ck("C16_iff"), "")
c("C17", "partial", ck("C17_refuted C17_rr_refuted C17_last_of_each_body_partial C17_distinct_bodies_partial C17_accepts"),
  "false of the code: the dictionary of requests is keyed by body type, so only the last request of each type is checked, and rr, ccr, certConf raise KeyError")
c("C18", "proved", ck("C18_iff"), "")
c("C25", "partial", ck("C25_txid_iff C25_nonce_exact C25_nonce_partial C25_rounding_refuted C25_header_iff"),
  "false for nonce_sec not divisible by 8 (rounded down); proved for all multiples of 8, including the default, and exactly characterised for all values")
c("C26", "proved", ck("C26_unique_iff C26_diverse_iff C26_distance C26_diverse_unique"), "")
c("C80", "partial", ck("C80_equality_modes C80_contains_exact C80_contains_seq_exact C80_contains_refuted C80_contains_swapped_partial"),
  "false of the code for contains and contains_seq: the direction is inverted")
c("C81", "partial", ck("C81_first_byte C81_payload_changed C81_index_swapped C81_index_refuted C81_default_index_in_range_refuted C81_index_partial C81_position C81_index_accepted C81_default_index C81_payload_accepted"),
  "the index is written little-endian and read big-endian")
c("C82", "proved", ck("C82_reject_iff C82_expand"), "")
c("C83", "proved", ck("C83_iff C83_protected_batch_unanswerable_refuted"), "")
c("C84", "partial", ck("C84_refuted C84_complete_partial C84_sound_partial C84_find_cert"),
  "false of the code after an issuer that occurred earlier: the running index is incremented instead of set; no ordered chain is rejected")
c("C96", "partial", ck("C96_request_time C96_response_time_refuted C96_response_time_partial"), "false of the code: responses dated before the request are never rejected")
c("C97", "partial", ck("C97_rejection_refuted C97_accepted_partial C97_status_values"), "false of the code: the status name 'rejected' does not exist, so every rejection raises")
c("C98", "partial", ck("C98_roundtrip_refuted C98_nonexclusive_integer_refuted C98_exclusive_integer_partial C98_single_bit_partial C98_any_bit_partial C98_own_names_partial C98_names_to_bits_partial"), "")
c("C99", "proved", ck("C99_request_ids_iff"), "")

def kem(names):
    return " ".join("PQ.Kem." + n for n in names.split())

c("C30", "proved", kem("C30_bits_bytes"), "")
c("C31", "proved", kem("C31_decode_encode C31_encode_decode C31_decode_injective C31_encode_length C31_decode12_not_injective"), "")
c("C32", "proved", kem("C32_compress_decompress C32_error_bound C32_bound_tight"), "d >= 1 (decompress shifts by d-1)")
c("C33", "proved", kem("C33_inverse_ntt C33_ntt_inverse C33_range"), "")
c("C34", "proved", kem("C34_multiply"), "")
c("C35", "proved", kem("C35_decrypt_iff C35_decrypt_encrypt"), "exact noise condition; hash functions, PRF and XOF are arbitrary functions")
c("C36", "proved", kem("C36_agreement"), "")
c("C37", "proved", kem("C37_implicit_rejection C37_tampered"), "")
c("C38", "proved", kem("C38_key_sizes C38_ciphertext_size C38_public_key"), "")
c("C39", "proved", kem("C39_sample_ntt C39_sample_ntt_poly C39_cbd"), "")

def dsa(names):
    return " ".join("PQ.Dsa." + n for n in names.split())

c("C40", "proved", dsa("C40_integer_bits C40_bits_integer C40_integer_of_bits C40_integer_bytes C40_bits_bytes"), "")
c("C41", "proved", dsa("C41_unpack_pack C41_pack_unpack C41_range"), "")
c("C42", "proved", dsa("C42_unpack_pack C42_pack_unpack C42_unique"), "")
c("C43", "proved", dsa("C43_power2round C43_decompose C43_decompose_unique"), "")
c("C44", "proved", dsa("C44_use_hint C44_perturbation"), "")
c("C45", "proved", dsa("C45_inverse C45_multiply"), "")
c("C46", "proved", dsa("C46_pure_injective C46_hash_injective C46_domains C46_long_context"), "")
c("C47", "proved", dsa("C47_sign_verify C47_external"), "for every run of the rejection loop that ends; hash functions are arbitrary functions of the right output length")
c("C48", "partial", dsa("C48_longer_accepted_refuted C48_trailing_ignored C48_accepted_partial C48_bad_hint_partial"),
  "false of the code: signatures with extra trailing bytes are accepted; everything else about acceptance is proved")
c("C49", "proved", dsa("C49_sizes C49_derive C49_import C49_import_lengths"), "")
c("C100", "partial", dsa("C100_hash_mismatch_refuted C100_sign_verify_partial C100_domains"),
  "false of the code for an unsupported hash algorithm: sign falls back to pure mode, verify raises ValueError")

def slh(names):
    return " ".join("PQ.Slh." + n for n in names.split())

c("C50", "proved", slh("C50_int_of_byte C50_byte_of_int C50_digits C50_digits_unique"), "")
c("C51", "proved", slh("C51_setters C51_set_type C51_injective C51_compressed C51_params"), "")
c("C52", "proved", slh("C52_checksum"), "")
c("C53", "proved", slh("C53_wots C53_xmss C53_hypertree C53_fors"), "")
c("C54", "proved", slh("C54_sign_verify C54_lengths C54_context C54_context_injective"), "hash functions are arbitrary functions of the right output length")
c("C55", "partial", slh("C55_prehash_refuted C55_verify_partial"),
  "false of the code: hash_slh_sign knows lower-case names only, the verification upper-case ones only, and hash_slh_sign swaps key and message")
c("C101", "partial", slh("C101_import C101_import_lengths C101_plain_import_partial C101_inconsistent_key_refuted"),
  "false of the code for plain private keys: the root is not checked against the seeds")
c("C102", "partial", slh("C102_sign_verify C102_domains C102_unsupported_hash_refuted"),
  "agreement holds for all arguments; an unsupported hash silently selects pure mode")

def frodo(names):
    return " ".join("PQ.Frodo." + n for n in names.split())

c("C60", "proved", frodo("C60_unpack_pack C60_pack_unpack"), "")
c("C61", "proved", frodo("C61_decode_iff C61_decode_encode"), "")
c("C62", "proved", frodo("C62_completes C62_agreement C62_implicit_rejection"), "hash functions are arbitrary functions of the right output length")
c("C63", "proved", frodo("C63_ctverify C63_ctselect"), "functional behaviour only; timing is not modelled")
c("C64", "proved", frodo("C64_bound C64_monotone C64_distribution C64_tables"), "")

def mech(names):
    return " ".join("PQ.Mech." + n for n in names.split())

c("C74", "proved", mech("C74_round_trip C74_modulus_length C74_completes C74_rejects C74_unique C74_large_rand_refuted"),
  "for random values below the modulus, which is what the code draws; C74_large_rand_refuted shows that an explicit rand argument above the modulus breaks the agreement")
c("C75", "proved", mech("C75_stream C75_prefix C75_overflow"), "the digest is an arbitrary function with 32-byte output")
c("C103", "partial", mech("C103_ecdh_agreement C103_agreement C103_class_agreement C103_rfc9180 C103_suite_refuted C103_suite_partial"),
  "agreement and RFC 9180 conformance proved under the stated laws of the exchange; false: the brainpool curves share the suite identifiers of the NIST curves")

def keys(names):
    return " ".join("PQ.Keys." + n for n in names.split())

c("C104", "partial", keys("C104_import C104_lengths C104_public_lengths C104_agreement C104_ciphertext_length C104_any_seed_accepted C104_seed_refuted C104_export_changes_key"),
  "false of the code: from_private_bytes compares the private key with itself, so a seed that does not belong to the key is accepted and exported; everything else is proved")
c("C105", "partial", keys("C105_import C105_agreement C105_ciphertext_length C105_wrong_length_used C105_lengths_refuted"),
  "false of the code: without liboqs, key lengths are not checked on import and the error surfaces as AssertionError in use; everything else is proved")
c("C106", "partial", keys("C106_modulus_refuted C106_hash_refuted C106_agreement_refuted"),
  "false of the code: neither check of FIPS 203 sections 7.2 and 7.3 is made; there is no partial positive theorem beyond the length checks of C104")

def hyb(names):
    return " ".join("PQ.Hyb." + n for n in names.split())

c("C71", "partial", hyb("C71_agreement C71_mlkem C71_public_key C71_public_key_rsa C71_inputs C71_binding C71_kdf C71_cms_kdf C71_cms_kdf_refuted C71_oids_partial C71_oids_refuted C71_rsa_unusable"),
  "agreement and binding proved; false of the code: with use_in_cms the KDF of the algorithm is never used, and RSA keys of other sizes give a private key whose public key has no identifier")
c("C72", "partial", hyb("C72_agreement C72_binding_partial C72_trailing C72_short C72_unique_refuted"),
  "agreement proved; false of the code: bytes after the 1120th are ignored by decaps; among ciphertexts of 1120 bytes the X25519 part is unique up to SHA3 collisions")
c("C73", "partial", hyb("C73_agreement C73_table C73_context_refuted C73_context_partial C73_binding C73_secp521"),
  "agreement and binding proved; false of the code: the AES and SHAKE variants of FrodoKEM share their context, which is the only exception")
c("C108", "proved", hyb("C108_import C108_checked C108_lengths C108_public C108_public_export"), "X25519 and SHAKE256 are parameters with the laws of XLaws")

def csig(names):
    return " ".join("PQ.CSig." + n for n in names.split())

c("C70", "partial", csig("C70_verify_iff C70_sign_verify_partial C70_mldsa C70_injective C70_domains C70_rsa_size C70_sign_verify_refuted"),
  "verification is exactly that of the draft; false of the code: an RSA key of another size signs (its size is rounded), but its public key refuses every signature")
c("C109", "partial", csig("C109_only_padding C109_identifier_refuted C109_identifier_partial C109_sign_verify C109_load_public_partial C109_load_public_refuted C109_load_private"),
  "false of the code: verify_signature_with_alg_id uses the identifier only to choose the RSA padding, and the public loader accepts an RSA key of another size of the table; private keys are loaded faithfully")

def store(names):
    return " ".join("PQ.Store." + n for n in names.split())

c("C110", "partial", store("C110_partial C110_trailing C110_both_loads C110_both_refuted mlKem_made mlDsa_made"),
  "Seeds and private bytes are loaded. Both together are not: the factory cuts the input to the size of the private key, so that the seed becomes the start of the key and its end is lost. Bytes after the private key are ignored. Modelled for ML-KEM and ML-DSA.")
c("C111", "partial", store("C111_public_partial C111_public_raw C111_public_refuted C111_both_ignored C111_both_refuted mlKem_pub mlDsa_pub"),
  "A non-empty public key is checked. False for an empty one with raw private bytes (it becomes the public key), and for seed with private bytes: the keys are compared by type only, so that the private bytes are ignored.")
c("C112", "partial", store("C112_round_trip C112_version0_refuted C112_old_partial C112_old_fails C112_old_refuted mlKem_made mlDsa_made"),
  "Version 2 structures, and version 1 without public key, are loaded again. Version 1 with the default arguments is written with a public key and then refused. The old format is not loaded again if the seed starts like a DER element of the inner structure.")

c("C113", "partial", ca("C113_update_recorded C113_update_confirmed C113_kup_linked_partial C113_relink_refuted"),
  "false of the code in one case: an implicitly confirmed second update of a certificate with an abandoned pending update keeps the link to the abandoned certificate; proved otherwise")

def trst(names):
    return " ".join("PQ.TradStore." + n for n in names.split())


def stfl(names):
    return " ".join("PQ.Stfl." + n for n in names.split())


c("C76", "proved", stfl("C76_signing_order C76_range C76_same_index C76_ca_index C76_leaf_is_remainder C76_leaf_index_refuted"),
  "The combined index numbers the signatures in signing order. The bottom leaf number alone, which return_lms_index selects, is shown not to identify a signature.")
c("C77", "partial", stfl("C77_depth C77_enforced_partial C77_not_enforced_partial C77_enforcement_refuted C77_heights_refuted C77_key"),
  "False of the code: the enforcement flag is inverted (mixed levels pass when enforcement is asked for) and heights are never compared. Proved: what each flag value accepts, the depth limits, and that a loaded key passes exactly with one to eight levels.")
c("C78", "partial", stfl("C78_xmss_all_names C78_xmssmt_all_names C78_xmss_table C78_xmssmt_table C78_list_refuted C78_template_xmss C78_template_xmssmt C78_template_hss"),
  "The filter accepts exactly the SP 800-208 sets. The list XMSSMT_NOT_APPROVED itself misses sixteen sets and has eight names that no set carries.")
c("C114", "partial", stfl("C114_xmss C114_xmss_reload C114_xmssmt_partial C114_xmssmt_refuted C114_default_name_refuted C114_hss"),
  "Holds for XMSS and HSS. For XMSS^MT unknown identifiers and the 24 sets of SP 800-208 from 0x21 on raise KeyError. The default name of public and private XMSS keys differs.")
c("C115", "partial", stfl("C115_xmss_public C115_xmss_index C115_xmss_pkcs8 C115_private_numbers_refuted C115_xmssmt_public_partial C115_xmssmt_refuted C115_xmssmt_index C115_hss_load C115_hss_default_levels"),
  "Holds for XMSS and the first 32 XMSS^MT sets; private keys of the other 24 cannot be loaded. private_numbers is four bytes short.")
c("C116", "partial", stfl("C116_xmss C116_xmssmt C116_last_index_refuted C116_exhaust_refuted C116_used C116_used_range_refuted"),
  "The index asked for is set. last_index has no effect without an index; keys of height 40 cannot be exhausted; the first index past the history is an IndexError. The HSS branch is not modelled.")

c("C89", "partial", ca("C89_signer_partial C89_stranger_revokes_refuted C89_self_revive_refuted"),
  "False of the code: any certificate that verifies may revoke any other issued certificate, and the holder of a revoked certificate can revive it. Proved: what is required of the signer (attached certificate, not updated, revoked only for removeFromCRL).")
c("C117", "partial", ck("C117_all C117_include C117_exclude C117_total C117_ext_value_refuted C117_issuer_refuted"),
  "The exact acceptance condition is proved, and it falls short of the claim: extension values are not compared, and the include string used by the revocation code does not select the issuer.")
c("C118", "partial", ck("C118_include_partial C118_exclude_partial C118_blank_refuted"),
  "Holds for lists without blanks; with a blank after a comma the option is not recognised.")
c("C119", "partial", ck("C119_found C119_unknown C119_reason C119_accepted C119_version_refuted C119_answer C119_nonlwcmp_refuted"),
  "Holds for LwCMP requests. A template with a version field fails, and the non-LwCMP path always raises because an entry variable is rebound before it is read again.")
c("C120", "partial", ca("C120_effect C120_unverified C120_verified_iff C120_wrong_signature C120_dh_refuted C120_accepts C120_kem_reuse_refuted"),
  "Effects and rejection are proved. DH-protected requests never verify, and a KEM shared secret can be used for several requests.")

c("C24", "partial", ca("C24_effect_checked C24_failed_no_effect C24_exception_answer C24_rr_answer C24_open_confirmation C24_total_partial C24_certReq C24_certConf C24_compromised_check_idle_refuted C24_dh_uncaught_refuted C24_kem_challenge_refuted C24_revoked_key_certified_refuted C24_ccr_key_refuted"),
  "Proved: an effect implies that every check of the message passed, and every caught exception is answered with an error or a rejection. False of the code: the compromised-key check reads a database that is never written, ccr messages skip it, and the DH and KEM paths have exceptions that are not caught.")

c("C13", "partial", ca("C13_sun_partial C13_discovery_partial C13_unique_partial C13_requested_serial_refuted C13_other_serials_refuted C13_sun_collision_refuted"),
  "False of the code: the requester may name any serial number in the template, only Sun-hybrid certificates are consulted, and after 100 collisions a used number is returned. Proved: the exact outcome of both loops, and uniqueness over all histories if no requester names a number and the random generator does not repeat itself.")
c("C15", "partial", ca("C15_one_for_one C15_unambiguous C15_certConf_only_partial C15_failure C15_effects_remain C15_rr_never C15_wrapped_mixed_refuted"),
  "Order, one-for-one answers and the exact failure behaviour are proved. False of the code: a certConf wrapped in a nested message is accepted beside other requests.")
c("C90", "partial", ca("C90_request_checked_partial C90_added_checked C90_revoked_signer_refuted C90_open_confirmation_refuted C90_certConf_unverified_refuted C90_forged_certConf_refuted C90_unprotected_unconfirmable_refuted"),
  "False of the code: inside a batch a revoked signer and a signer with an unconfirmed certificate are served, the protection of a certConf is never verified, and a certificate issued for an unprotected element cannot be confirmed. Proved: what is checked for an inner certificate request.")

c("C107", "partial", hyb("C107_public C107_public_oid C107_interchangeable_partial C107_interchangeable_refuted C107_private C107_rsa_unreadable C107_formats_unreadable C107_saved_refuted C107_checked C107_rejected C107_pkcs8_partial C107_mlkem C107_names C107_errors"),
  "Proved for keys made from ECDH or RSA keys of the usual sizes and saved with their seed, with ML-KEM as an instance of the assumptions. False of the code: a Composite KEM key made from a DHKEM key (default RFC 9180) disagrees with its own public key after that was written and read; keys saved as 'raw' or 'seed_and_raw' cannot be read; an RSA key of another size can be saved but not read.")

c("C121", "partial", ck("C121_links C121_not_signer C121_maximal C121_found_partial C121_trusted C121_accepts_partial C121_any_holder_refuted C121_issuer_not_ca_refuted C121_usage_refuted C121_order_refuted C121_anchor_passed_refuted C121_rollover_refuted C121_unreadable_refuted C121_cycle_refuted"),
  "Soundness of the chain is proved; completeness for unambiguous issuers. False of the code: with post-quantum or composite signatures nothing checks that an issuer is a CA, so every holder of a certificate can act under any name; the key usage of an anchor or a post-quantum signer is not checked; the result depends on the order of the extra certificates; a non-root anchor is passed over if the root is sent; rollover certificates end the chain; one unreadable certificate raises; chains may repeat certificates.")
c("C122", "partial", ck("C122_certs C122_first_signer C122_accepted C122_sid_refuted C122_issuer_not_ca_refuted"),
  "Acceptance is proved to imply chain, anchor, signature, digest and extended key usage. False of the code: the value of the signer identifier is not compared; with a post-quantum key in the chain issuers need not be CAs.")
c("C123", "partial", ck("C123_usage C123_bits C123_must_not_partial C123_must_not_refuted C123_eku_partial C123_eku_absent C123_eku_repeated_refuted C123_eku_blank_refuted"),
  "The key usage check is exact. False of the code: the forbidding check is satisfied as soon as one of several forbidden usages is absent; the extended usage check counts matches, so a repeated usage replaces a missing one, and blanks after commas make it fail always.")

def hx(names):
    return " ".join("Hybrid." + n for n in names.split())

c("C124", "partial", hx("C124_exact C124_rebuilt C124_validate_iff C124_prepared_valid C124_prepared_exts C124_valid_rebuilds C124_parameters_refuted C124_validity_refuted C124_extensions_refuted"),
  "The exact condition under which the delta certificate is rebuilt is proved. False of the code: parameters of a differing signature algorithm are lost; a differing validity is rebuilt with a context tag; a delta certificate with other extension types than the base certificate, or another order, is rebuilt with the base certificate's, without an error.")
c("C125", "partial", hx("C125_pair C125_rebuild_partial C125_ski_partial C125_base_only_refuted C125_ski_twice_refuted C125_delta_only_refuted C125_hash_refuted C125_injected_refuted"),
  "Keys, subjects and signatures are proved for all options; rebuilding and key identifiers where both or neither of the requests have extensions. False of the code: if only the base request has extensions the delta certificate cannot be rebuilt, and a requested key identifier appears twice; if only the delta request has extensions the paired certificate gets the key identifier of the delta key; with another hash than SHA-256 and an RSA key of the CA the delta certificate cannot be rebuilt; a descriptor requested by both sides precedes the one of the CA, so the requester chooses the delta key freely.")
c("C126", "partial", hx("C126_iff C126_bad_delta C126_built C126_sender_partial C126_two_requests_refuted"),
  "Acceptance is exact. False of the code: with two delta requests the revocation and reuse checks look at the first, issuing at the last.")

c("C127", "partial", hx("C127_none_iff C127_all_present C127_covers C127_verify_sound C127_sign_verify C127_carries_signer_key C127_bad_alt_sig C127_loaded_key_partial C127_issuer_alt_key_refuted C127_loaded_key_refuted"),
  "Coverage, soundness and the round trip are proved. False of the code: the alternative signature is checked with the alternative key in the certificate itself, not with the issuer's; with a repeated extension the loaded key is not the one the signature was checked with.")
c("C128", "partial", hx("C128_pop_sound C128_issue_sound C128_cert_keys C128_request_accepted C128_place_partial C128_bad_pop_partial C128_kem_everywhere_refuted C128_bad_pop_refuted"),
  "Possession of both keys, the content of the certificate and acceptance of honest requests are proved. False of the code: with a KEM key the request is answered only in an ir and, if it is the alternative key, only at index 0; bad_pop with two signing keys gives the valid request if the signature starts with 0 or 1.")
c("C129", "partial", hx("C129_answers C129_ids_all_zero C129_given_key_partial C129_ids_refuted C129_pop_with_index_refuted C129_chosen_alg_refuted C129_extensions_refuted C129_ccr_refuted C129_client_alt_key_refuted C129_bodies"),
  "Order, subject, key, proof of possession (without an index) and verification are proved. False of the code: all responses have certReqId 0; with an index no proof of possession is checked; without an index allow_chosen_sig_alg=False and extensions are ignored; ccr always ends with a KeyError; the alternative key in the certificate is the CA's, not the client's.")

c("C130", "partial", hx("C130_sound C130_composite_sound C130_round_trip C130_bad C130_state C130_must_partial C130_twice_partial C130_twice_refuted C130_alt_key_refuted C130_given_key_refuted C130_key_only_refuted C130_must_refuted"),
  "Soundness and the round trip are proved. False of the code: the check removes the alternative signature, so the second one fails; an alternative key in the header takes precedence over the certificate's; a given public key is not used unless the protection is composite, and without certificates the message is refused; must_be_catalyst_signed has no effect on composite protections.")
c("C131", "partial", hx("C131_sound C131_round_trip C131_state C131_ordinary_refuted C131_alt_key_refuted C131_twice_refuted C131_pss_refuted"),
  "Soundness and the round trip without PSS are proved. False of the code: a CRL with extensions but without an alternative signature is always refused; the alternative key is taken from the CRL itself; the check removes the signature, so that it cannot be repeated; with use_rsa_pss the signatures are still made without PSS.")
c("C132", "partial", hx("C132_sound C132_found_partial C132_order_refuted C132_same_name_refuted C132_passed_over"),
  "Every chain that is returned is one; it is found if the candidates have distinct names and come in the order of the chain. False of the code: other orders give shorter chains or an error; a candidate of the same name with a key of another kind can end the search with a TypeError.")
c("C133", "partial", hx("C133_alt_key C133_no_alt_key C133_sound C133_complete_partial C133_other_refuted C133_subject_key_refuted C133_pq_refuted C133_no_descriptor"),
  "The order of precedence and soundness are proved. False of the code: without a second certificate the check always ends with a TypeError; it goes by the algorithm of the subject's key; the returned key need not be a post-quantum one.")

c("C134", "partial", hx("C134_sound C134_unique C134_round_trip_partial C134_ku_present C134_find C134_hash_refuted C134_eku_refuted C134_ku_refuted"),
  "Soundness of the hash comparison, uniqueness and the search in a list are proved; the round trip if both signature algorithms have the same hash and there is no extended key usage. False of the code: the extension is made with the hash of the related certificate and checked with that of the other one; any certificate with an extended key usage is refused; key usages are compared as sets of letters, so that dataEncipherment passes against digitalSignature and keyEncipherment.")
c("C135", "partial", hx("C135_accepted C135_round_trip C135_time C135_trusted C135_issued C135_csr_signature C135_replay_refuted C135_given_refuted C135_pop_refuted"),
  "What is accepted is characterised exactly; the round trip and what holds of an issued certificate are proved. False of the code: the attribute is not bound to the request and can be copied into one for another key; a chain given by the caller replaces that of the certificate; the signature of the CSR is never checked, so that any key gets a certificate.")
c("C136", "partial", hx("C136_kind C136_issuing_partial C136_revoked_only C136_request_partial C136_ignored_refuted C136_names_refuted C136_delta_key_refuted C136_request_refuted"),
  "The kind is exact; chameleon certificates are refused if revoked or updated, Sun hybrid ones if revoked. False of the code: composite and catalyst certificates pass even if revoked; related and discovery certificates always end in NotImplementedError as their kinds are spelled differently; the status of the delta key is not used; requests signed with anything but a chameleon certificate pass.")
c("C137", "partial", hx("C137_round_trip C137_index C137_algs C137_issued C137_validate_refuted C137_untrusted_refuted"),
  "Reading back, the comparison of algorithms and the content of an issued certificate are proved. False of the code: validate_cert_discovery_cert always fails, as it passes on the list of extensions for one extension; neither trust in the other certificate nor the signature of the CSR is checked before issuing.")
c("C138", "proved", hx("C138_merge C138_nodup"),
  "For the merging step. The checks of the individual extensions are parameters.")

c("C139", "partial", hx("C139_convert C139_compose C139_same C139_round_trip C139_form C139_contains C139_fetch_refuted C139_location_refuted C139_params_refuted C139_contains_refuted"),
  "Proved for extensions as the suite makes them and honest locations. False of the code: a conversion takes whatever the location serves and computes a new hash for it; a certificate with a key by value and no location cannot be converted to a form with the hash; a hash algorithm with parameters in the extension of the key is not restored; contains_sun_hybrid_cert_form_1_or_3 looks only at the first certificate that carries its signature by value.")
c("C140", "partial", hx("C140_sound C140_issuer C140_alt_key_partial C140_alt_needed_refuted C140_by_value_refuted C140_twice_refuted C140_alt_key_refuted"),
  "Soundness is proved. False of the code: without a second key of the issuer nothing is accepted even if the second signature is not to be checked; a certificate with key and signature by value is refused if its locations serve nothing; validate_alt_sig_extn removes the extension from the certificate it is given, so that a second call fails; get_sun_hybrid_alt_pub_key returns what the location serves without comparing the hash.")
c("C141", "partial", hx("C141_content C141_round_trip_partial C141_csr_round_trip_partial C141_bad C141_hash_refuted C141_csr_refuted C141_csr_location_refuted"),
  "Content, the round trips for locations that are given and served, and the effect of bad_alt_sig are proved. False of the code: the certificate always names the algorithm with SHA-256 but is signed with the hash of the composite algorithm (mostly SHA-512), so that with an RSA or ECDSA CA key it is refused; a CSR without the attribute for the hash of the key is always refused, one without the location of the key leads to a certificate that is never accepted.")

def prot(names):
    return " ".join("Prot." + n for n in names.split())

c("C142", "partial", prot("C142_iff C142_password C142_roundtrip C142_bad C142_lwcmp C142_mac_agree_partial C142_empty_salt_refuted C142_default_prf_refuted C142_prf_refuted C142_mac_agree_refuted"),
  "The equivalence is proved for a salt that is not empty; the round trip for codecs that give back the parameters of the message. False of the code: an empty salt of the password-based MAC is replaced by a random value, so the right MAC is refused; the default PRF of PBKDF2 (hmacWithSHA1) is unknown, so PBMAC1 with it is never accepted; the OID of a signature algorithm is accepted as PRF, also for the lightweight profile; compute_mac_from_alg_id differs for a password-based MAC with two hash functions and cannot read the encoded parameters of AES-GMAC.")
c("C143", "partial", prot("C143_key_iff C143_cert_iff C143_roundtrip C143_bad C143_pss_iff C143_pss_signed C143_cert_refuted C143_pss_roundtrip_refuted C143_pss_salt_refuted C143_unsupported_refuted C143_signature_oids C143_patched C143_pss_mode"),
  "The equivalences are proved for traditional algorithms; the round trip for key pairs that fit. False of the code: with the certificate in the message neither the parameters nor the kind of the key are compared to the algorithm; RSASSA-PSS always signs with SHA-256, so another hash function never verifies; a salt length of zero is read as the digest size; messages with a composite signature or DSA can be made but are never accepted.")

c("C144", "partial", prot("C144_secret_iff C144_key_iff C144_roundtrip C144_peer_partial C144_stale_refuted C144_rsa_refuted C144_pbkdf2_refuted C144_hkdf_sha3_refuted C144_empty_context_refuted C144_counter C144_kdf_written C144_hkdf_written"),
  "The equivalences are proved for KDF2, KDF3 and HKDF with SHA-2 and a context that is not empty; the round trip for keys other than RSA and a message without an older ciphertext. False of the code: a ciphertext that is already in the message stays in front of the new one and is the one that is decapsulated; for RSA the two sides use different KEMs; the parameters of PBKDF2 cannot be read back; HKDF with SHA-3 never works; an empty context is treated as none. Bytes after the hash parameters of KDF2 and KDF3 are ignored.")
c("C145", "partial", prot("C145_iff C145_hmac_partial C145_exchange C145_roundtrip C145_basekey_refuted C145_sha3_refuted"),
  "What is accepted is characterised exactly; for an HMAC it is the MAC of the standard. The round trip is proved for all MACs. False of the code: for AES-GMAC and KMAC the key is derived from the shared secret instead of its hash, so a MAC of another implementation is refused; a one-way function of the SHA-3 family can be named but never used. Hash functions are assumed to give at least as many bytes as the shared secret has, up to 32.")

c("C146", "partial", prot("C146_pbm_partial C146_pbmac1_partial C146_strict C146_not_strict C146_suite C146_conf_refuted C146_conf_salt_refuted C146_kdf_refuted C146_null_refuted C146_hmac_refuted C146_decoded_refuted C146_not_strict_refuted"),
  "The equivalences are proved for a request as the suite has it before sending, allow_null and no confirmation. False of the code: a confirmation is not looked at, and with same_salt it makes every comparison fail; the key derivation function of PBMAC1 is not compared; allow_null has the opposite effect; HMAC and KMAC can never be compared; a request with a password-based MAC that was decoded is never accepted; without strict, messages with signatures are accepted.")
c("C147", "partial", prot("C147_iff C147_same_alg C147_rsa_refuted C147_mac_refuted C147_first_cert_refuted C147_composite_refuted C147_params"),
  "What is accepted is characterised exactly for traditional signatures. False of the code: RSA messages, whose parameters are NULL, are never accepted; the kind of the algorithm is not tested, so one that names an HMAC passes; the first certificates are not compared; composite signatures end in IndexError. Building a chain is a parameter here (C121, C122 are about it).")

def ev(names):
    return " ".join("Env." + n for n in names.split())

c("C148", "proved", ev("C148_iff C148_unique C148_roundtrip C148_key_length"),
  "The block cipher and the encoding of the IV are parameters; the round trip assumes that decryption inverts encryption.")
c("C149", "partial", ev("C149_iff C149_open_iff C149_protected C149_salt C149_roundtrip C149_env_roundtrip C149_kdf_refuted C149_hkdf_refuted C149_length_refuted C149_unprotected_refuted"),
  "The equivalences and round trips are proved for PBKDF2 with a key of 32 bytes. False of the code: the argument kdf of prepare_enveloped_data_with_pwri is ignored; with kdf_name hkdf the password is not used at all and the result can never be opened; another length than 32 builds what is never opened; without the type pwri the protection of the message is not verified.")
c("C150", "partial", ev("C150_iff C150_recipient C150_roundtrip C150_rsa_only C150_oaep_refuted"),
  "Proved for the parameters of OAEP as the suite writes them. False of the code: parameters as RFC 4055 defines them (an algorithm identifier for the mask generation function, or absent fields) are refused. NULL parameters count as absent.")
c("C151", "partial", ev("C151_iff C151_named C151_roundtrip_dh C151_roundtrip_mqv C151_originator_refuted C151_issuer_refuted C151_hash_refuted C151_wrap C151_mqv_keys"),
  "False of the code: originator and recipient must have the same name, that of the protection certificate, so a recipient as RFC 5652 defines it is refused; an issuer and serial number for a certificate with a subject key identifier builds what is never opened; for X25519 and X448 another hash than SHA-256 is used by the sender only.")
c("C152", "partial", ev("C152_iff C152_key C152_roundtrip C152_ori C152_pbkdf2_refuted C152_kek_length_refuted C152_rsa_refuted C152_object_refuted"),
  "The round trip is proved for HKDF, KDF2 and KDF3. False of the code: PBKDF2, the default of prepare_recip_info, is never accepted after encoding; a given key length is written though it differs from the key wrap; RSA encapsulates with OAEP and decapsulates with RSA-KEM; the structure before encoding is an AttributeError in the general way.")
c("C153", "partial", ev("C153_iff C153_single C153_kemri_iff C153_content_roundtrip C153_exchange_rsa C153_exchange_kem C153_exchange_ec C153_index_refuted C153_version_refuted"),
  "Proved as stated for one recipient. False of the code for several: the index chooses whose type is compared, the key is always taken from the first; the version is never compared.")

c("C154", "partial", ev("C154_scheme C154_agree C154_avf_partial C154_avf C154_bytes_partial C154_cofactor C154_roundtrip C154_avf_refuted C154_standard_refuted C154_bytes_refuted C154_round"),
  "Agreement is proved for all groups. False of the code: the bit length of the order is taken from a floating point logarithm, so for secp192r1, secp224r1, secp256k1 and secp384r1 the associate value is not that of the standard and the secret differs; a coordinate with leading zero bytes is written without them. The scheme is that of the standard for secp256r1 and secp521r1. The logarithm is a parameter with the exact integer part on the rounded order.")
c("C155", "partial", ev("C155_attrs C155_algs C155_signer C155_package C155_accepted C155_roundtrip C155_ski_refuted C155_attrs_refuted C155_signers_refuted C155_repeated_refuted"),
  "Hash, signature, encodings and the certificate chain checks of C121-C123 are parameters. False of the code: the signature is over the EncapsulatedContentInfo and not over the signed attributes as RFC 5652, section 5.4, asks, so attributes can be added without being signed; only the first signer is looked at; of a repeated message digest attribute only the last counts; an authority whose certificate has no subject key identifier builds what is never accepted.")
c("C156", "partial", ev("C156_iff C156_accepted C156_roundtrip C156_roundtrip_rsa C156_index_refuted C156_size_refuted C156_usage_refuted"),
  "Proved as stated; the round trip for RSA from end to end, for the others from any way to open. False of the code: the index of the response is also that of the recipient and of the key in the package, so a second response with one recipient is never accepted; the key usage keyEncipherment is not checked for key transport.")

def ra(names):
    return " ".join("Ra." + n for n in names.split())
c("C157", "partial", ra("C157_possession_partial C157_signed_iff C157_ip C157_later_ignored_refuted C157_later_refuted C157_mixed_refuted C157_challenge_refuted C157_extensions_refuted C157_alt_refuted C157_alt_iff C157_load_error C157_sig_load_error"),
  "Proved for initialization requests with the lightweight profile (one request, the default), and for every request that is the first or whose proof is not a signature. False of the code: verify_popo_for_cert_request verifies the signature of request 0 whatever the index, so further requests of a certification request need no valid signature. Also: challenge-response is answered with an encrypted certificate for key agreement keys; the extensions of the CA are missing in certificates for keys sent to the CA; the template of a registration authority is ignored except for signatures and raVerified. Keys, encodings, the controls and the building of certificates are parameters.")
c("C158", "partial", ra("C158_iff C158_protection_refuted C158_skipped_refuted"),
  "The accepted messages are characterized exactly. False of the code: the protection of the message is not looked at, so the public certificate of a registration authority in extraCerts suffices.")
c("C159", "proved", ra("C159_ids C159_all_or_nothing C159_numbers C159_reply_type C159_ccr_refuted"), "Proved as stated, for the bodies with a list of requests. Also the body type of the reply (C159_reply_type); for a cross certification request the code knows none (C159_ccr_refuted).")
c("C160", "partial", ra("C160_response_partial C160_client_partial C160_transaction_partial C160_fresh_refuted C160_version C160_option_refuted C160_pvno_refuted C160_empty_refuted"),
  "By induction over the transaction, for values that are not empty. False of the code: the CA uses one nonce for all its messages of a transaction, since the option use_fresh_nonce is inverted; a request with an empty transaction identifier is answered in another transaction.")

c("C161", "partial", ra("C161_signed_iff C161_update_partial C161_known C161_single C161_generated_iff C161_none_refuted C161_unchecked_refuted C161_issuer_refuted C161_controls_refuted C161_subject_refuted C161_kem_refuted C161_extensions_refuted"),
  "The accepted signed requests are characterized exactly, and the facts every answered one has are proved. False of the code: the subject may be another one; the issuer of the old certificate is compared with the second certificate of the sender; any control counts as the identifier of the old certificate; keys are not checked as in the other requests; raVerified is accepted from everyone with a certificate in messages protected with encapsulation; the extensions of the CA are missing if the message is signed.")
c("C162", "partial", ra("C162_iff C162_ca_partial C162_not_ca_refuted C162_version_refuted C162_unchecked_refuted"),
  "The accepted requests are characterized exactly. False of the code: basic constraints without cA and templates of version 1 are accepted; the key size is not looked at. The building of certificates and the encoding of extensions are parameters.")
c("C163", "partial", ra("C163_iff_partial C163_never_refuted C163_other_refuted"),
  "False of the code: the validation compares the hash with the one of the structure that contains it, not with the one of the certificate, so every prepared hash is refused, and an accepted one says nothing about the certificate.")
c("C164", "partial", ra("C164_validate_iff C164_roundtrip_iff C164_extensions_refuted C164_serial_refuted C164_authority_refuted C164_takeover_refuted C164_takeover_full_refuted C164_unknown_refuted"),
  "The accepted updates are characterized exactly; what the CA makes is accepted if pkilint accepts it. False of the code: newWithNew and newWithOld are not compared, so everyone with a certificate under the old root can install their own root; the new root has no basic constraints; certificates share issuer and serial number; newWithOld names the wrong authority key.")
c("C165", "partial", ra("C165_written_iff C165_years C165_read_refuted C165_iff C165_requested_partial C165_century_refuted C165_order_refuted C165_default_refuted"),
  "Proved for the years 1950 to 2049. False of the code: UTCTime is used for all years; notAfter may be before notBefore; the default end after a start in 2045 is in 1955.")

c("C166", "partial", ev("C166_kind_iff C166_key_iff C166_roundtrip C166_rsa C166_ec C166_kem_partial C166_password C166_needs_password C166_oaep C166_kem_refuted C166_rid_refuted C166_dh_refuted"),
  "Proved from end to end for RSA, EC and passwords, and the choice of recipient and key exactly; primitives and codecs are parameters. False of the code: the answer for a KEM certificate names the client while the client compares it with the certificate of the CA, so it is refused; for key transport the certificate of the CA is named as the recipient; requests protected with a MAC from Diffie-Hellman or encapsulation do not reach their branches.")

c("C167", "partial", ra("C167_iff C167_unique C167_refused C167_roundtrip C167_quote C167_sent C167_unique_types C167_wire_refuted C167_raw_partial C167_raw_refuted C167_name_refuted C167_type C167_hex C167_hex_only"),
  "The reader is characterised exactly and the round trip holds for quoted pairs. False of the code: what is sent by default is never in the grammar of RFC 4211; without quoting a value with an escaped percent sign injects a second pair; a name that begins with two hexadecimal letters is refused.")
c("C168", "partial", ra("C168_archived_key C168_publication_iff C168_accept_iff C168_once C168_required_refuted C168_burnt_refuted C168_duplicate_refuted C168_method_refuted C168_archive_absent C168_archive_read C168_method_numbers"),
  "Acceptance is characterised exactly; encryption and comparison are parameters. False of the code: a request without controls passes although a control is required; a token is used up by a request that is refused; duplicates of a control are accepted; the publication method is always x500.")

c("C169", "partial", ev("C169_version_iff C169_rid_iff C169_iff C169_rsa C169_kem C169_ec C169_plain_rsa C169_plain_dh C169_witness C169_issued C169_kem_refuted C169_witness_refuted C169_zero_refuted C169_several_refuted C169_pending_refuted C169_pvno_refuted C169_index_refuted"),
  "The client is characterised exactly and the round trip is proved for RSA, KEM and EC with version 3 and for RSA and Diffie-Hellman with version 2; primitives and codecs are parameters. False of the code: a KEM challenge of version 2 can never be answered; the client ignores the witness; a number, an identifier or a version 0 that is asked for is ignored; the answer has one number for several challenges; with version 3 no challenge can be built while another one is pending; a version that is asked for changes the challenge and not the header; the index of the recipient chooses the name that is checked and not the key.")

c("C170", "partial", ra("C170_accepted_iff C170_members C170_certificate_partial C170_duplicate_refuted C170_override_refuted C170_dropped_refuted C170_serial C170_serial_refuted C170_csr_none C170_csr_refuted"),
  "Templates are characterised exactly; codecs and key identifiers are parameters. False of the code: a template with a subject key identifier gets a certificate with two; the extensions of the template override those of the CA, not the other way round; known extensions that are not checked are left out silently, also critical ones; the client chooses the serial number; a PKCS#10 request with extensions that are to be included always fails with a KeyError.")
c("C171", "partial", ra("C171_uses_iff C171_certificate C171_rsa C171_encipher_refuted C171_ecdh_refuted C171_cert_sign_refuted"),
  "False of the code: encipherOnly and decipherOnly are rejected for EC and X25519 and X448 keys also with keyAgreement; id-ecDH and id-ecMQV keys are rejected with every usage; keyCertSign is accepted without basic constraints.")
c("C172", "partial", ra("C172_basic_iff C172_cert_sign_partial C172_pathlen_refuted C172_ee_pathlen_refuted C172_for_ca_refuted C172_for_ee_refuted C172_ca_refuted"),
  "False of the code: a CA with path length zero is rejected and an end entity with path length zero is accepted; the test of for_ee is the wrong way round; every client gets a CA certificate if it asks for one, also with constraints that are not critical.")
c("C173", "partial", ra("C173_ski_iff C173_aki_iff C173_san_iff C173_no_aki_refuted C173_aki_issuer_refuted"),
  "False of the code: a certificate from a template without an authority key identifier has none; an identifier with the name or the serial number of the CA is rejected in every template.")

c("C174", "partial", ra("C174_entry_sound C174_entry_complete C174_answered_iff C174_types C174_key_pair_param_refuted C174_implicit_confirm_refuted C174_profile_refuted C174_language_refuted C174_language_list_refuted C174_root_refuted"),
  "Answers are characterised exactly; decoders, signing and encapsulation are parameters. False of the code: a request for key pair parameters, implicit confirmation or a certificate profile is never answered; the language is always English, and a list with one unknown language is refused; the root certificate is updated exactly for clients which know the present one.")
c("C175", "partial", ra("C175_status_iff C175_outdated_refuted C175_foreign_issuer_refuted C175_foreign_dpn C175_url_issuer_refuted C175_answer C175_duplicate_refuted"),
  "False of the code: a CRL up to 25 hours old counts as current; a foreign issuer ends in a TypeError and the URL as issuer in a ValueError; naming the CA twice gives two CRLs. The order of the set of CRLs is taken to be that of the statuses.")
c("C176", "partial", ra("C176_refused_partial C176_passphrases C176_refused_refuted C176_extra_partial C176_extra_refuted"),
  "Proved under the lightweight profile, for the certificates also if signing succeeds. False of the code otherwise: the passphrase of a refused message is kept, and the certificates of a response which could not be signed go out with the next one.")
c("C177", "partial", ra("C177_kem_iff C177_found_partial C177_repeated_refuted C177_value_refuted C177_second_refuted C177_others C177_put"),
  "Proved for the first ciphertext of a transaction. False of the code: after a second one the first secret is used; a request with a value is answered; as second entry the secret is kept where nobody looks.")
c("C178", "partial", ra("C178_body C178_size_refuted C178_extra_entries_refuted C178_ca_certs_iff C178_text_refuted C178_number_refuted C178_absent_refuted C178_trailing_refuted"),
  "Chain building and verification are parameters. False of the code: a wrong number of entries is only logged, and CA certificates are then not validated at all, nor if the number is given as text; an absent value is refused where it is allowed; bytes after the certificates are ignored.")
c("C179", "partial", ra("C179_template_iff C179_edwards_refuted C179_optional_refuted C179_unknown_control_refuted"),
  "Acceptance is characterised exactly. False of the code: Ed25519 and Ed448 are refused without and accepted with parameters; absent controls or an absent value are refused though optional; unknown controls are accepted.")
c("C180", "partial", ra("C180_update_iff C180_current_refuted"),
  "Verification is a parameter. False of the code: the signature of the current CRL is not verified.")
c("C181", "partial", ra("C181_enc_types C181_fixed C181_passphrase_iff C181_kem C181_sign_types_refuted C181_gcm_refuted"),
  "Proved for the answers named, with codecs which round-trip; certificates and CRLs are left to the parameters. False of the code: the list of signature algorithms may be empty or unknown; a CA which prefers AES-GCM is refused.")
c("C182", "partial", ra("C182_langs_iff C182_current_crl_iff C182_sign_types_iff C182_sym_alg_iff C182_kem_iff C182_enc_types_iff C182_prot_enc_iff C182_bare_curve_refuted C182_prot_enc_refuted C182_curves"),
  "Characterised exactly. False of the code: the OID of a curve passes as an algorithm of a key; a response without the certificate for protocol encryption is accepted.")

c("C183", "partial", ra("C183_accepted_iff C183_confirmed_partial C183_version_refuted C183_flag_refuted"),
  "Acceptance is characterised exactly. False of the code: a response with version 3 is confirmed, by default, with a message of version 2 with a digest algorithm, which the CA always refuses; hash_for_v3 given as the text False has no effect.")
c("C184", "partial", ra("C184_first_id C184_own_refuted C184_given_id C184_chain_needed"),
  "Proved for one entry and for identifiers given. False of the code: with several entries all have the identifier of the first one. No confirmation is built from a response whose chain has one certificate.")
c("C185", "partial", ra("C185_direct_iff C185_no_digest_refuted C185_rejection C185_bad_id C185_given_hash C185_computed_hash C185_different C185_different_hash C185_bad_id_form C185_given_hash_all C185_hash_alone"),
  "False of the code: for certificates signed with an algorithm without a separate digest (Ed25519, ML-DSA) no confirmation is built; an algorithm given as argument is used, but not told to the CA.")

c("C186", "partial", ra("C186_accepted_iff C186_second_refuted C186_absent_refuted"),
  "Characterised exactly. False of the code: only the first entry of a type is checked; an entry without value ends with an error of the ASN.1 library.")
c("C187", "partial", ra("C187_accepted_iff C187_right_refuted C187_unknown"),
  "False of the code: a message with exactly one known profile per request is always refused (the test is inverted). Unknown profiles are refused.")
c("C188", "partial", ra("C188_profile_alone_refuted C188_patch C188_twice_refuted C188_known_accepted C188_negative C188_added"),
  "False of the code: a profile alone is not set by patch_generalinfo, and a profile is named twice. The latter makes up for the inverted test of the CA in messages with one request.")

c("C189", "partial", ra("C189_accepted_iff C189_one_cn C189_no_cn_refuted C189_ambiguous_refuted C189_dh_refuted C189_no_cert_refuted C189_no_ski C189_mail_refuted C189_types_refuted C189_unprotected"),
  "Characterised exactly. False of the code: a sender without a common name is accepted with the senderKID NULL-DN; the identifier made of several common names is ambiguous; DH-based MACs are treated like signatures; without certificates the empty name is accepted with any senderKID; an e-mail address does not determine the subject; other types of names end with errors of Python.")
c("C190", "proved", ra("C190_accepted_iff"),
  "For requests which are not nested, and a CA which wants protection. Building the chain, verifying certificates and the key usage are parameters.")
c("C191", "partial", ra("C191_excluded_iff C191_fields C191_blank_refuted C191_mac_kid_refuted C191_mac_both C191_mac_sender_refuted"),
  "Proved without MAC-based protection. False of the code: a field after a comma and a blank is not excluded; with for_mac the senderKID cannot be excluded by its name alone, and with the sender excluded no message can be built, in both cases unless the word sender_kid is excluded, too.")
c("C192", "partial", ra("C192_common_name C192_blank_refuted C192_equals_refuted"),
  "Proved for lists of attributes whose names and values have neither commas nor signs of equality. False of the code: a common name after a comma and a blank is not found, and with a second sign of equality or a comma in a value no message can be built, unless the senderKID is given or excluded.")
c("C193", "partial", ra("C193_mac_accepted C193_null_refuted"),
  "Proved for ir, cr and p10cr, identifiers and time made by the client, and a CA which wants protection and not the lightweight profile. False of the code: a sender without a common name gets the senderKID NULL-DN instead of an error.")
c("C194", "partial", ra("C194_added_accepted C194_added_none C194_patch_conf_refuted C194_patch_other C194_patch_unique C194_batch_iff C194_values_distinct C194_values_refuted"),
  "False of the code: patching for an added protection leaves out the recipNonce of confirmations, which are then refused; generate_unique_byte_values returns fewer values than asked for after a collision.")
c("C195", "partial", ra("C195_follows C195_fresh_refuted C195_first_refuted C195_patch"),
  "False of the code: the senderNonce is the one of the message before, and a message without recipNonce cannot be followed.")

c("C196", "partial", ra("C196_accepted_iff C196_names C196_names_exclusive C196_wrong_refuted C196_absent C196_later_refuted"),
  "Acceptance is characterised for all bodies and arguments, and the answer about lists of names of failures with and without `exclusive`. Refuted: with the default arguments a rejection passes for each name of a failure whatever bits are set, as allow_failinfo_mismatch lets wrong bits pass (though absent bits are refused also then); and only the first status of a response counts, so that rejections after it are not noticed.")
c("C197", "partial", ra("C197_status_iff C197_rejected_refuted C197_fail_iff C197_type_iff"),
  "For the names of RFC 9810 the keywords pass exactly for the status and type named, and for the bit named unless FAILINFO_MUST_BE_CORRECT is off, when any bits pass. Refuted: the documented call with `rejected` fails for every rejection, since the status is called `rejection`.")
c("C198", "partial", ra("C198_accepted_iff C198_comma_refuted C198_absent_refuted C198_none"),
  "Characterised for non-empty arguments. Refuted: a list ending with a comma has an empty part, which occurs in every text, so that any_text passes always; and a message without texts gives an error of pyasn1 instead of the documented ValueError. Without arguments everything with a status passes.")
c("C199", "partial", ra("C199_cert_iff C199_rejection_refuted C199_encrypted_refuted C199_id_iff"),
  "Which certificate and identifier are taken is characterised. Refuted: the status is not looked at, so a certificate is also taken from a rejection; and asking a response with an encrypted certificate for a certificate deletes the encrypted one.")
c("C200", "partial", ra("C200_keys C200_found_iff C200_root_refuted C200_error_refuted"),
  "For names and numbers written as documented the keys are read in order, and what is found is below the one after the other. Refuted: no path denotes an element of the object itself if it is a list, and a path which fails at a list or a simple value raises AttributeError instead of ValueError.")
c("C201", "partial", ra("C201_pure C201_choice_refuted C201_list_refuted"),
  "Nothing changes if the alternatives on the path are those which are set and the elements are there. Refuted: reading another alternative deletes the one which is set, and reading beyond the end of a list makes it longer.")
c("C202", "partial", ra("C202_set_get C202_frame C202_shallow_refuted C202_dot_refuted C202_number_refuted C202_parent_refuted"),
  "The round trip holds for paths with a parent whose numbers follow a slash, and what is read at other positions of sequences and lists is unchanged. Refuted: a component of the object itself cannot be set by its name; with a dot before the name it can be set but not read; a number after a dot sets an element but does not read it, or reads but does not set below it.")
c("C203", "partial", ra("C203_fields_iff C203_absent_refuted C203_choice_iff"),
  "For a SEQUENCE it passes exactly if its type has components with the names, for a choice exactly if the names are that of the alternative which is set. Refuted: an optional component which is absent counts as present.")

c("C204", "partial", ra("C204_pubs_iff C204_pair_iff C204_accepted_iff C204_p10cr_refuted C204_encrypted_refuted C204_index_refuted"),
  "The acceptance of caPubs, of the structure, and of the body with one response is characterised. Refuted: what the request was makes no difference for caPubs in validate_ca_message_body (the flag is not passed on), encrypted certificates are never accepted, and the status checked is always that of the first response.")
c("C205", "partial", ra("C205_lost_refuted C205_refusal C205_encrypted_iff"),
  "Refuted for accepted certificates: reading the other alternative deletes the certificate, so none can be taken from the message afterwards. Refusals are left as they are, and check_if_response_contains_encrypted_cert answers correctly on a copy.")
c("C206", "partial", ra("C206_accepted_iff C206_pq_refuted C206_refusal_refuted C206_absent_refuted"),
  "The acceptance is characterised for all messages. Refuted: with post-quantum, composite and stateful signatures nothing is asked of the protection, refusals in ip, cp and kup are not accepted, and with allow_self_signed a missing field is accepted without verifying the signature.")
c("C207", "partial", ra("C207_accepted_iff C207_default_sender_refuted"),
  "The acceptance is characterised for protected responses with a request, an interval and allow_failure_sender=False. Refuted: by default the sender need not be the subject of the certificate for signatures either, though the flag is documented for MAC-based protection.")
c("C208", "partial", ra("C208_ec_iff C208_rsa_iff C208_pq_iff C208_composite_iff C208_field_iff C208_ed_refuted C208_sha3_refuted C208_field_refuted"),
  "Characterised for certificates with EC and RSA keys, and for post-quantum and composite algorithms with any certificate. Refuted: Ed25519 and Ed448 are taken to be consistent, ECDSA with SHA-3 is refused for EC keys, and check_protection_alg_field demands consistency for traditional signatures only. Stateful signatures are not characterised.")
c("C209", "partial", ra("C209_accepted_iff C209_pss_refuted C209_errors_refuted"),
  "The acceptance is characterised for all OIDs and all keys with the names and OIDs the classes can have. Refuted: RSASSA-PSS is refused for RSA keys, and errors other than the documented one occur for composite algorithms with other keys and for the OIDs of hash functions.")
c("C210", "partial", ra("C210_accepted_iff C210_pss_refuted C210_pq_refuted"),
  "The acceptance is characterised with check_sender_kid. Refuted: the first certificate is found with a verification which uses PKCS #1 v1.5, so messages protected with RSASSA-PSS are refused, and so is every post-quantum, composite and stateful signature.")

c("C211", "proved", hx("C211_chameleon C211_chameleon_attrs C211_request C211_kind C211_related C211_discovery C211_ca C211_usages C211_sun C211_sun_attrs"),
  "Stated with the literal numbers.")

c("C212", "partial", ra("C212_accepted_iff C212_single_iff C212_addresses C212_failure_allowed C212_unverified_refuted C212_default_refuted"), "Exact characterisation of the OCSP check. False of the code: neither the signature nor the certificate the answer is about is checked (C212_unverified_refuted); the default of must_be_present is the reverse of its documentation, so that without an address and without the extension every status passes, and with an address a certificate without the extension is always refused (C212_default_refuted).")
c("C213", "partial", ra("C213_accepted_iff C213_revoked_iff C213_foreign_refuted C213_file_unread_refuted"), "Exact characterisation of passing and of 'revoked'. False of the code: issuer, signature and dates of a CRL do not count, a foreign CRL with the same number revokes (C213_foreign_refuted); with an address and a file the file is not read (C213_file_unread_refuted). C213_revoked_iff assumes that fetching and reading do not themselves raise CertRevoked.")
c("C214", "partial", ra("C214_valid_iff C214_revoked_iff C214_needs_issuer C214_unknown_refuted C214_address_refuted"), "Exact characterisation for both expectations. False of the code: a certificate the responder does not know counts as revoked (C214_unknown_refuted); giving the responder's address makes the check of every certificate without the AIA extension fail, though it is documented to override it (C214_address_refuted).")
c("C215", "partial", ra("C215_found_iff C215_chain_iff C215_mutation_refuted C215_unreadable_refuted"), "The signer found is exactly the first fitting one. False of the code: a certificate of the same name with an unreadable key before it ends the search (C215_unreadable_refuted); the caller's list is extended by the trust store (C215_mutation_refuted).")
c("C216", "partial", ra("C216_accepted_iff C216_ca_flag_refuted C216_aki_refuted C216_issuer_refuted"), "Exact characterisation. False of the code: the value of cA does not count (C216_ca_flag_refuted), nor the authority key identifier (C216_aki_refuted), nor the issuer's name (C216_issuer_refuted).")
c("C217", "partial", ra("C217_alg_iff C217_usage_iff C217_name_iff C217_nist C217_alg_refuted C217_usage_refuted C217_stateful_refuted"), "Exact characterisation of the three checks. False of the code: every post-quantum identifier is refused and every unknown one accepted (C217_alg_refuted); every post-quantum signature key with a KeyUsage extension is refused (C217_usage_refuted); the listed names xmss, xmssmt and hss are not matched by identifier (C217_stateful_refuted).")

c("C218", "partial", ra("C218_echoes C218_no_nonce C218_no_tid C218_random C218_total C218_details C218_fail C218_challenge_iff C218_text_exact_iff C218_neither_refuted C218_text_refuted"), "Proved for requests which have one of the two fields. False of the code: a request with neither gets a random transaction identifier, since the second name of the list of omitted fields keeps a blank (C218_neither_refuted); details given as a text are followed by one detail per character (C218_text_refuted).")
c("C219", "partial", ra("C219_form C219_first C219_certs C219_kind C219_dh_iff C219_dh_other C219_mac_partial C219_mac_other C219_kari C219_alt_refuted C219_mac_refuted"), "Kind, certificates and sender are characterised. False of the code: MACs other than PBMAC1 and the password-based MAC are answered with the default algorithm (C219_mac_refuted); the alternative key of the handler is never used (C219_alt_refuted).")
c("C220", "partial", ra("C220_unprotected C220_protected C220_second_refuted C220_nested_kem_refuted C220_nested_dh_refuted C220_type_refuted"), "False of the code: answers to unprotected requests lack the secondary certificate (C220_second_refuted); a nested request protected by a KEM-based MAC is answered with the password of the CA (C220_nested_kem_refuted), one protected by a DH-based MAC not at all (C220_nested_dh_refuted); certificates are served with the content type of CMP messages (C220_type_refuted).")
c("C221", "partial", ca("C221_chameleon_iff C221_related_iff C221_multi_iff C221_multi_invalid C221_sun_revoked C221_unverified_refuted"), "True of /multi-auth (C221_multi_iff). False of the code for /chameleon, /cert-discovery, /related-cert, /catalyst-sig, /catalyst-issuing and /sun-hybrid: each issues a certificate for a request with an invalid signature (C221_unverified_refuted); C221_chameleon_iff and C221_related_iff list the conditions they do check. That the builders called do not verify the protection themselves was read off hybrid_issuing.py; the builders are parameters.")
c("C222", "partial", ca("C222_open_iff C222_store_iff C222_sun C222_sun_exclusive C222_implicit C222_chameleon_conf C222_chameleon_reuse C222_chameleon_refuted C222_reuse_refuted"), "Registered for confirmation on /related-cert and /sun-hybrid (C222_open_iff, C222_sun). False of the code: a certificate of /chameleon can never be confirmed (C222_chameleon_refuted); with implicit confirmation the transaction identifier stays free (C222_implicit); a request refused for its used identifier has already put its certificate into the database (C222_reuse_refuted).")
c("C223", "partial", ca("C223_protected_partial C223_sun_protected C223_chameleon_ids C223_catalyst C223_plain_refuted C223_escapes_refuted C223_sun_unprotected_refuted C223_sun_confirm_refuted"), "False of the code: the answer to a certConf is not protected on four endpoints (C223_plain_refuted; all other answers are, C223_protected_partial); errors leave /cert-discovery and /sun-hybrid as exceptions (C223_escapes_refuted, C223_sun_unprotected_refuted, C223_sun_confirm_refuted); /chameleon answers CMP errors without the identifiers of the request (C223_chameleon_ids); /catalyst-issuing protects its error messages twice (C223_catalyst).")
c("C224", "partial", ca("C224_issuing C224_ok_iff C224_no_decoder_error C224_hybrid_refuted C224_trailing_refuted"), "True of /issuing. False of the code: the other endpoints answer malformed data with the status 500 and no CMP message (C224_hybrid_refuted); data after a message is dropped without notice (C224_trailing_refuted).")

c("C225", "partial", ra("C225_cr_partial C225_cr_known C225_same C225_kga_refuted C225_agree_refuted"), "Equal answers are proved for signatures and the proof by a registration authority, and the known certificate for every protection but a password. False of the code: the handler of a cr passes neither the key of the key generation authority nor those for key agreement, so that such requests are granted as ir only (C225_kga_refuted, C225_agree_refuted); C225_cr_partial states what is left.")
c("C226", "partial", ra("C226_issued_iff C226_compromised_refuted C226_unnamed_refuted"), "The exact condition of granting is proved. False of the code: the handler drops the result of its look-up of compromised keys (C226_compromised_refuted; CAHandler makes the look-up itself for p10cr messages, so this matters to other callers of the handler), and a request without a subject is accepted for an alternative name which the certificate then lacks (C226_unnamed_refuted).")
c("C227", "partial", ra("C227_iff C227_ir C227_mixed_refuted"), "Proved for ir and kur, which have one response. False of the code for a cr with several requests: only the first response is looked at (C227_mixed_refuted).")

c("C228", "partial", ra("C228_cyclic C228_size C228_plain C228_same_refuted C228_hex_refuted C228_text_refuted"), "The size and the content of the key are proved for secrets which are bytes. False of the code: a secret which repeats another, or agrees with it in the first bytes, gives the same key (C228_same_refuted); a secret in hexadecimal is expanded before it is decoded, which fails (C228_hex_refuted); a text is expanded by characters, so that the key may be longer than asked for (C228_text_refuted).")
c("C229", "partial", ra("C229_mac_iff C229_dh_iff C229_kem_iff C229_sig_iff C229_anchored C229_none C229_ccr_refuted C229_error_refuted"), "The exact conditions are proved for each kind of protection. False of the code: a certificate in the trust store for cross-certification is refused unless its chain ends in the other trust store too (C229_ccr_refuted); making the key of a MAC can raise a ValueError outside the try (C229_error_refuted). The method check_signer_extensions, which would look at the usage period of the key (C230), is not called.")
c("C230", "partial", ra("C230_iff_partial C230_present C230_order_refuted"), "Proved for times whose texts are ordered as the times are. False of the code otherwise: the texts are compared, so that a fraction of a second or missing seconds invert the order (C230_order_refuted). No clock is read.")

c("C231", "partial", ca("C231_registered C231_p10 C231_never_again C231_proof_needed C231_confirm_partial C231_confirm_refuted C231_confirm_mixed_refuted C231_same_key_refuted C231_chameleon"), "Proved for certificates registered with the response, for p10cr, for chameleon requests and for the confirmation of one certificate. False of the code: on a certConf for several certificates each is registered with the index of the first proof, so that the index of the second can be used again (C231_confirm_refuted) or the confirmation is refused (C231_confirm_mixed_refuted); the register is by certificate, not by key (C231_same_key_refuted).")
c("C232", "partial", ra("C232_first_iff C232_missing_refuted C232_index_refuted C232_extension_refuted C232_bodies_refuted"), "Proved for the first entry. False of the code: with another index the template is compared with the certificate and the status of the first response (C232_index_refuted); an entry which is not there passes (C232_missing_refuted); values of extensions are not compared (C232_extension_refuted); ccr and p10cr cannot be checked (C232_bodies_refuted).")
c("C233", "partial", ra("C233_sig_iff C233_mac_refuted C233_mac_request C233_cross_refuted"), "The exact condition is proved for signatures. False of the code: with MACs nothing of the pkiConf is looked at, it may be without protection (C233_mac_refuted); the confirmation after a ccp is refused (C233_cross_refuted). The header is not checked.")

c("C234", "partial", ra("C234_excluded_absent C234_default_validity C234_given_kept_partial C234_key C234_from_cert C234_nothing_added C234_extensions C234_from_csr C234_serial_zero_refuted C234_kga_spki_refuted C234_caller_list_refuted"), "Proved but for three cases in which it is false of the code: the serial number zero is replaced by that of the certificate (C234_serial_zero_refuted); a given SubjectPublicKeyInfo is dropped for key generation without a key (C234_kga_spki_refuted); the list of extensions of the caller is extended by those of the certificate (C234_caller_list_refuted).")
c("C235", "partial", ra("C235_pop_kind C235_pop_accepted C235_message_accepted C235_bad_pop_refused_partial C235_bad_pop_refuted C235_flags_ignored C235_bad_pop_csr_refuted C235_dh_no_proof C235_every_proof_refuted C235_popo_default C235_popo_default_refuted C235_oid_refused C235_alg_id_alone C235_kga C235_kga_template_refuted"), "Acceptance is proved for all keys but Diffie-Hellman ones, refusal of a bad proof for keys that sign. False of the code: bad_pop and ra_verified change nothing for KEM and X25519/X448 keys (C235_bad_pop_refuted, C235_flags_ignored) and bad_pop nothing for cr from a PKCS#10 request (C235_bad_pop_csr_refuted); Diffie-Hellman keys get no proof (C235_every_proof_refuted); prepare_popo asks for encipherment for X25519/X448 keys by default (C235_popo_default_refuted); an object identifier as algorithm is an error (C235_oid_refused); a template that is given keeps its key for key generation and is refused by the CA (C235_kga_template_refuted).")
c("C236", "partial", ra("C236_body C236_request C236_given_messages C236_csr_appended C236_caller_list_refuted C236_spki_ignored C236_spki_refuted C236_proof_wishes_ignored C236_kur_partial C236_kur_subject_refuted C236_kur_controls_refuted C236_kur_needs_cert"), "Proved for the functions with a key, with a PKCS#10 request, and for key updates with a given name. False of the code: the list of messages of the caller is changed (C236_caller_list_refuted); cr, krr and ccr ignore a SubjectPublicKeyInfo and a CertRequest (C236_spki_refuted); a key update without a name asks for the subject CN=Hans Mustermann (C236_kur_subject_refuted) and with use_controls drops the controls of the caller (C236_kur_controls_refuted).")
c("C237", "partial", ra("C237_old_cert_id C237_controls_kept C237_wrong_ids C237_serial_issuer_partial C237_serial_zero C237_serial_zero_refuted C237_caller_list_refuted C237_archive_in_clear C237_archive_refuted C237_archive_partial C237_encr_key"), "Proved for the control of the old certificate but for the serial number zero, which is an error (C237_serial_zero_refuted). False of the code: the list of the caller is changed (C237_caller_list_refuted); a private key with a password is put into the control in the clear, the branch that encrypts it is not reached (C237_archive_refuted).")
c("C238", "proved", ra("C238_bodies C238_others_kept C238_appended C238_update_popo C238_stale_popo C238_given_popo"), "For keys that sign. That a signature does not verify for other data, and that the encoding of a request determines its controls and extensions, are hypotheses of C238_stale_popo.")

c("C239", "partial", ra("C239_reason C239_reasons_read C239_several C239_invalid C239_blank_refuted C239_template C239_round_trip C239_no_entry C239_serial_only_refuted C239_serial_number C239_given"), "Proved for requests made from a certificate whose issuer has a text that is read back and that is unique by issuer and serial number. False of the code: a blank after a comma in a list of reasons is an error (C239_blank_refuted); a request, in particular a revival, with a serial number and no certificate has no issuer and is refused, as there is no argument for it (C239_serial_only_refuted); the serial number zero is replaced by that of the certificate (C239_serial_number).")
c("C240", "partial", ra("C240_content C240_verifies C240_foreign_key C240_unsigned C240_other_key C240_first_extensions C240_second_extensions_refuted C240_ignored_refuted C240_pq_hash_refuted C240_p10_partial C240_compare_iff C240_compare_refuted"), "Proved for the request and for the answer to the p10cr; the extensions of the request are not in the certificate. False of the code: no p10cr is built for a post-quantum key that does not support the hash, which is SHA-256 by default (C240_pq_hash_refuted); subjectAltName, exclude_signature and for_kga are ignored by build_p10cr_from_key (C240_ignored_refuted); extensions that are added later are not read (C240_second_extensions_refuted); the certificate for a request with extensions fails the comparison unless they are those of every certificate of the CA (C240_compare_refuted).")
c("C241", "partial", ra("C241_plain C241_kga_named C241_rsa C241_kga_partial C241_flags C241_kga_composite_refuted C241_kga_params_refuted C241_null_refuted"), "Proved for keys that are neither RSA nor composite. False of the code: a composite private key keeps its bits for a KGA (C241_kga_composite_refuted); the parameters of a key, such as the curve, are dropped for a KGA (C241_kga_params_refuted); add_null has no effect on a key that is neither composite nor for a KGA (C241_null_refuted).")

c("C242", "partial", ra("C242_status_iff C242_failure_iff C242_failure_bits C242_failure_none C242_response_iff C242_cert_refuted"), "Proved for statuses and failures given by names; texts of digits, which are read as numbers or bits, are modelled but characterised only for zeros. False of the code: when a certificate and an encrypted one are given the former is lost (C242_cert_refuted).")
c("C243", "partial", ra("C243_name_iff C243_ccr_refuted C243_answer_iff C243_answer_body_partial C243_cp_iff C243_ip_iff C243_client_iff C243_p10_refuted C243_request_refuted C243_header_partial C243_kga_header_refuted C243_responses_refuted C243_none_refuted C243_p10_id_refuted C243_index_refuted C243_ids C243_refusal_iff C243_refusal_client C243_krp_refuted"), "Proved for the builders; issuing a certificate is a parameter (IssueEnv), for which C243_ids takes the model of process_cert_requests. False of the code: _build_ca_cert_response_body does not answer a ccr (C243_ccr_refuted); the answer to a p10cr with a given certificate has the identifier 0, which the client refuses (C243_p10_refuted), and neither body nor identifiers are taken from the request (C243_request_refuted); set_header_fields has no effect for keys the CA generates (C243_kga_header_refuted); responses alone are enough for ip but not for cp (C243_responses_refuted); with an encrypted certificate alone the list of certificates of ip has an entry None (C243_none_refuted); the identifier 0 is replaced by -1 for a p10cr (C243_p10_id_refuted); one entry of an ir, kur or ccr cannot be answered with cp by its index (C243_index_refuted); krp says accepted whatever its status is (C243_krp_refuted).")

c("C244", "partial", ra("C244_rsa_iff C244_pss_iff C244_pss_refuted C244_ec_iff C244_eddsa C244_pq C244_falcon C244_params C244_pss_params_refuted C244_hash_read C244_pq_hash_read C244_consistent C244_consistent_refuted C244_digest C244_default_digest C244_pure_refuted C244_stateful_refuted C244_ignored_refuted C244_composite_refuted C244_stateful_digest"), "Proved for RSA, EC, EdDSA, ML-DSA, SLH-DSA and Falcon, with composite keys as names; the signing itself is not modelled here. False of the code: there is no RSA-PSS with SHA-384 or SHA-512 (C244_pss_refuted); with RSA-PSS both options for the parameters are accepted together and add_null has no effect (C244_pss_params_refuted); the OIDs of RSA-PSS are refused for the RSA key they were chosen for (C244_consistent_refuted); SignedData by ML-DSA or SLH-DSA uses a pre-hash OID by default, which RFC 9882 and RFC 9814 do not allow (C244_pure_refuted); no digest for stateful keys although the digest of a certificate is known (C244_stateful_refuted); a hash which the key does not support is ignored without an error (C244_ignored_refuted); a composite key with RSA-PSS only has a digest but no algorithm (C244_composite_refuted).")
c("C245", "partial", ra("CrlDp.C245_reasons_iff CrlDp.C245_reason_bits CrlDp.C245_blank_refuted CrlDp.C245_idp_reasons_refuted CrlDp.C245_uri CrlDp.C245_both CrlDp.C245_reasons_only_refuted CrlDp.C245_empty_refuted CrlDp.C245_idp_given_refuted CrlDp.C245_ca CrlDp.C245_client CrlDp.C245_answered CrlDp.C245_crl_issuer_refuted CrlDp.C245_index_refuted CrlDp.C245_given_refuted CrlDp.C245_source_iff CrlDp.C245_source_answer CrlDp.C245_file CrlDp.C245_file_index_refuted CrlDp.C245_cert_file_refuted CrlDp.C245_bad_refuted CrlDp.C245_exclude"), "Proved for the values of the extensions; their encoding is not modelled, and names are parsed by a parameter. False of the code: a blank after a comma in the reasons is an error (C245_blank_refuted); the reasons of an issuing distribution point are always all nine (C245_idp_reasons_refuted); a distribution point with reasons only is made (C245_reasons_only_refuted); an empty address is ignored in one function and an error in another (C245_empty_refuted); names beside a given issuing distribution point are ignored (C245_idp_given_refuted); the CA adds a point with itself as cRLIssuer and no name (C245_crl_issuer_refuted), from which no request can be made (C245_index_refuted); an address or name is ignored beside a certificate (C245_given_refuted), a certificate beside a CRL (C245_cert_file_refuted), the index for a CRL (C245_file_index_refuted); a bad time is not refused by the CA (C245_bad_refuted).")
c("C246", "partial", ra("CrlDp.C246_cert CrlDp.C246_given_iff CrlDp.C246_mod_serial CrlDp.C246_mod_issuer_iff CrlDp.C246_mod_issuer_refuted CrlDp.C246_empty_refuted"), "Proved; the change of the issuer text is a parameter. False of the code: modify_issuer has no effect beside a given issuer (C246_mod_issuer_refuted); an empty issuer is replaced by that of the certificate and is a TypeError without one (C246_empty_refuted).")

c("C247", "partial", ra("PopBuild.C247_agree_mac PopBuild.C247_two_functions PopBuild.C247_agree_encrypted_iff PopBuild.C247_subsequent_iff PopBuild.C247_challenge_refuted PopBuild.C247_bad_pop_refuted PopBuild.C247_mac_encipherment PopBuild.C247_open_type PopBuild.C247_kem_popo_refuted PopBuild.C247_version_partial PopBuild.C247_version_refuted PopBuild.C247_opened_iff PopBuild.C247_no_name PopBuild.C247_enc_key_kem PopBuild.C247_enc_key_rsa PopBuild.C247_enc_key_ec PopBuild.C247_rsa_default PopBuild.C247_rsa_default_refuted PopBuild.C247_verify_refuted PopBuild.C247_verify_type_refuted PopBuild.C247_enc_cert PopBuild.C247_enc_rid"),
  "The proofs that the client prepares are related to the opening and the checks of the CA. Refuted: a challenge cannot be asked for (the name `challenge` is not a value of `SubsequentMessage`); `bad_pop` has no effect without a secret; `prepare_kem_env_data_for_popo` sets the content type `id-signedData`, which the CA always refuses; without `cmp_protection_cert` an encrypted key for an RSA certificate names the certificate of the CA, while the CA compares with the first certificate of the message; the version of `EnvelopedData` is 0 and not 3 for KEM and password recipients; `verify_encrypted_key_popo` expects `id-signedData` and reads the missing field `privateKeyInfo`, so that it never accepts; `validate_kemri_rid_for_encrypted_cert` with the certificate refuses whatever has a subject key identifier (C247_enc_rid). For EC keys X25519 and X448 the opening of the CA (another certificate of the message) is not covered.")

c("C248", "partial", ra("CertGen.C248_usage_iff CertGen.C248_usage_valid CertGen.C248_eku_iff CertGen.C248_eku_refuted CertGen.C248_san CertGen.C248_san_refuted CertGen.C248_basic_iff CertGen.C248_aki_cert_refuted CertGen.C248_aki CertGen.C248_aki_names_refuted CertGen.C248_aki_issuer_partial CertGen.C248_aki_issuer_refuted CertGen.C248_exts CertGen.C248_exts_none CertGen.C248_exts_critical CertGen.C248_compare_ski CertGen.C248_modify CertGen.C248_sign CertGen.C248_patch CertGen.C248_build CertGen.C248_issuer_partial CertGen.C248_issuer_refuted CertGen.C248_build_exts CertGen.C248_include_ski CertGen.C248_given_refuted CertGen.C248_path_zero_refuted CertGen.C248_doc_ski_refuted CertGen.C248_generate_ski_refuted CertGen.C248_modify_last CertGen.C248_modify_cn_partial CertGen.C248_modify_cn_refuted CertGen.C248_modify_cn_missing"),
  "What is proved holds for all arguments; the cases in which the property is false are the theorems with _refuted. C248_aki_issuer_partial needs a self-issued CA certificate, C248_issuer_partial the key of the CA, C248_modify_cn_partial attributes of different types.")

c("C249", "partial", trst("C249_saved_iff C249_invalid_key_refuted C249_dsa_dh_not_saved C249_defaults_refuted C249_trad_never_pem C249_empty_password C249_load_iff C249_roundtrip C249_v0_with_public_refuted C249_other_version_refused C249_other_public_refused C249_private_key_info_refuted C249_trailing_data C249_rsa_kem_roundtrip C249_prepared_version C249_v1_has_no_public C249_kga_invalid_v1_refuted C249_kga_key_pair_v1_refuted C249_kga_priv_size_refused C249_kga_pub_size_refused C249_kga_key_pair_refused C249_kga_other C249_different_is_different C249_different_first C249_size_lost_refuted C249_different_rsa_refuted C249_different_ec_refuted C249_rsa_length C249_dh_secret"),
  "Proved for all keys of a library that reads what it writes (Lawful); the cases in which the property is false are the theorems with _refuted. The factories of post-quantum and hybrid keys are parameters here (see C110 and following); the PEM text and its encryption are not modelled.")

c("C250", "partial", ra("NameBuild.C250_validate_iff NameBuild.C250_validate_error NameBuild.C250_built_iff NameBuild.C250_build_errors NameBuild.C250_bad_size_partial NameBuild.C250_bad_size_refuted NameBuild.C250_type_trailing NameBuild.C250_bad_text NameBuild.C250_country NameBuild.C250_equals_refuted NameBuild.C250_space_lost_refuted NameBuild.C250_parse_iff"),
  "Proved for all texts and flags; the wrong sizes only for attributes with a bounded size, the refutation covers the three others. The check is modelled for values read from DER, by the kind of string, the text and trailing data; the alphabets of the string kinds are not modelled; the bounds that are imported from pkilint are those of X.520.")

def hgen(names):
    return " ".join("PQ.HybGen." + n for n in names.split())

c("C251", "partial", hgen("C251_first_match C251_found_iff C251_curve_alone_refuted C251_generated C251_xwing_ignores_refuted C251_generated_oid_partial C251_kem_oid_iff C251_generated_oid_refuted C251_p521_refuted C251_from_keys C251_from_pq_oid_partial C251_from_pq_dhkem_refuted C251_pair_unchecked_refuted C251_from_trad_refused_refuted C251_from_rsa_iff C251_by_name"),
  "Proved for all requests and keys; that a generated key has an identifier holds for composite signatures, Chempat and X-Wing only (the _partial theorems), and is refuted for the composite KEMs. A key is modelled by what the choice depends on and a number; the algorithm is one of the five supported names in lower case; the generation of the components by the libraries is not modelled.")

def ssl(names):
    return " ".join("Ra.Ssl." + n for n in names.split())

c("C252", "partial", ssl("C252_chain_without_crls C252_chain_with_crl_file C252_missing_crl_file C252_chain_with_fetched_crls C252_tidy_after_success C252_empty_chain C252_all_crls_obtained_refuted C252_crl_check_only_restricts_refuted C252_crl_file_kept_refuted C252_crl_by_exit_status C252_no_crl C252_ocsp_by_output C252_ocsp_revoked C252_ocsp_files_removed_refuted C252_unknown_means_answered_refuted"),
  "Proved for every chain, file system and answer of the program; the five claims marked false are refuted with witnesses. The program is an arbitrary function of the files that its command line names; paths are strings, and the CRL file must not lie in the directory of the certificates.")

def pem(names):
    return " ".join("PQ.Pem." + n for n in names.split())

c("C253", "partial", pem("C253_b64_roundtrip C253_encrypted_file C253_plain_file C253_load_errors C253_header_names C253_public_roundtrip C253_cipher_name_refuted C253_falcon_refuted C253_plain_with_password_refuted C253_wrong_password_refuted C253_no_password_refuted C253_public_armour_refuted"),
  "Round trips proved for every key, password, name and surrounding text in which no armour line begins; the claims marked false are refuted. Key derivation and AES on whole blocks are parameters of which only the inversion is assumed.")

def sunr(names):
    return " ".join("Hybrid.SunReq." + n for n in names.split())

c("C254", "partial", sunr("C254_p10cr C254_crmf C254_issuer C254_encrypted_only C254_plain C254_protection C254_kem_other_bodies_refuted C254_ccr_refuted C254_bad_sig_for_kem_refuted C254_each_request_answered_refuted C254_index_for_kem_refuted C254_other_key_refuted C254_version C254_other_body C254_identifiers"),
  "Complete conditions proved; the claims marked false are refuted. The check of possession, the building of the two forms of the certificate and the encryption are parameters.")

def kex(names):
    return " ".join("PQ.KeyExport." + n for n in names.split())

c("C255", "partial", kex("C255_ml C255_ml_saved C255_ml_errors C255_xwing C255_slh_partial C255_raw C255_type_names C255_length C255_received_raw_kem_refuted C255_received_raw_dsa_refuted C255_slh_both_refuted C255_frodo_seed_refuted C255_hybrid_trad_refuted C255_composite_refuted C255_chempat_refuted"),
  "Complete for ML, X-Wing, SLH-DSA and the other PQ keys; the claims marked false are refuted. The form seed_and_raw of composite keys is not modelled.")

def setu(names):
    return " ".join("CA.Setup." + n for n in names.split())

c("C256", "partial", setu("C256_load C256_is_set C256_issuing C256_validate C256_agree C256_ecc_cert C256_config C256_names_iff C256_in_list C256_chain C256_kga_optional_refuted C256_kga_pair_refuted C256_default_password_refuted C256_settings_refuted C256_alt_key_refuted C256_not_unique_refuted C256_chain_marks_refuted"),
  "The positive claims are proved; the claims marked false are refuted.")

def annc(names):
    return " ".join("Ra.Announce." + n for n in names.split())

c("C257", "partial", annc("C257_cert_id C257_rann C257_status C257_crlann C257_ckuann C257_accepted C257_handler_rann_refuted C257_status_refuted C257_order_refuted C257_handler_cann_refuted C257_new_key_refuted C257_new_cert_refuted"),
  "The positive claims are proved; the claims marked false are refuted.")

def orig(names):
    return " ".join("Prot.Orig." + n for n in names.split())

c("C258", "partial", orig("C258_iff C258_absent C258_roundtrip C258_protected C258_false C258_signed C258_error_refuted C258_required_refuted"),
  "The positive claims are proved; the claims marked false are refuted.")

def pubk(names):
    return " ".join("Check.PubKey." + n for n in names.split())

c("C259", "partial", pubk("C259_table C259_iff C259_same C259_other C259_invert C259_name C259_texts C259_params C259_name_refuted C259_unknown_refuted C259_null_refuted"),
  "The positive claims are proved; the claims marked false are refuted.  Of the table of names the part from which the texts come is given in full, the tables put in before and after it are parameters of which only is assumed that they do not have the same text or name.")

def chk0(names):
    return " ".join("Check." + n for n in names.split())

c("C260", "partial", chk0("C260_iff C260_missing C260_other C260_fresh_refuted C260_handler_refuted"),
  "The positive claims are proved; the claims marked false are refuted.")

def genm(names):
    return " ".join("Ra.Genm." + n for n in names.split())

c("C261", "partial", genm("C261_entries C261_crl_update C261_answered_iff C261_language_refuted C261_negative C261_negative_root C261_blank_refuted C261_unknown_refused"),
  "The positive claims are proved; the claims marked false are refuted.")

c("C262", "partial", prot("KemCli.C262_required KemCli.C262_returned_secret KemCli.C262_ca_verifies_partial KemCli.C262_answer_iff KemCli.C262_header KemCli.C262_composite_refuted") + " " + hyb("C262_composite_secrets"),
  "The positive claims are proved; the claim about composite keys is refuted.")

c("C263", "partial", ca("Ocsp.C263_fields Ocsp.C263_reason_refused Ocsp.C263_answer Ocsp.C263_revoked Ocsp.C263_good Ocsp.C263_malformed Ocsp.C263_unsupported_key_refuted Ocsp.C263_foreign_issuer_refuted Ocsp.C263_nonce_refuted Ocsp.C263_sha1_signature_refuted"),
  "The positive claims are proved; the claims about keys outside of the library, the issuer of the request, the length of nonces and the hash function of the signature are refuted.")

def kemct(names):
    return " ".join("Ra.KemCt." + n for n in names.split())

c("C264", "partial", kemct("C264_iff C264_roundtrip C264_bad C264_without_key_refuted C264_ciphertext_dropped_refuted"),
  "The positive claims are proved; the claims about calls without a key are refuted.")

out = os.path.join(os.path.dirname(__file__), "..", "MANIFEST.json")
json.dump({"claims": C}, open(out, "w"), indent=1)
open(out, "a").write("\n")
