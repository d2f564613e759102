# Formal model of siemens/cmp-test-suite (pinned commit) in Lean 4

Sections 3 to 5 are generated by `tools/gen_design.py` from the sources, `properties.jsonl` and `MANIFEST.json`.

## 1. Scope and method

The code base is a Robot Framework test suite for CMP, with a mock CA and pure-Python post-quantum algorithms.
Three parts have semantics a user relies on beyond single runs:

* the **mock CA** (`mock_ca/`): the dispatcher, certificate database, transaction IDs, confirmation state, KEM shared
  secrets, indices of stateful signatures, challenges, revocation, OCSP and CRLs, nested messages, serial numbers;
* the **algorithms** (`pq_logic/`): ML-KEM, ML-DSA, SLH-DSA, FrodoKEM, the hybrid KEMs and composite signatures, the
  key classes, loading and saving of keys, stateful hash-based signatures;
* the **checkers and helpers** (`resources/`) which decide whether a tested CA passes.

Each Python function of the modelled fragment is mirrored by a total, computable Lean function with the same order
of branches. Exceptions are values (`Except PyErr`), mutation is state passing (`Res σ α`: outcome and state after,
so that effects before an exception stay visible). A rejection loop that need not end has a fuel argument. Every
definition carries a comment with the file and the lines it models and says where it simplifies.

Layout (`lean/Verif/`): `CA/` is the mock CA, `Check/` the checkers and certificate chains, `PQ/` the algorithms,
`Hybrid/` the hybrid certificates (Catalyst, Chameleon, related certificates, Sun) and their issuing, `Prot/` the
protection of messages, `Env/` enveloped and signed data, `Ra/` the functions with which the CA answers requests.
`X.lean` is the model, `XProps.lean` has the property theorems, with the specification they are stated in at the top
of the file or just before the theorem, and examples of non-trivial instances beside them; `XRefuted.lean` has
disagreements. The other files hold lemmas.

Where a property is *false of the code*, the negation is proved with a witness, or for all inputs of a described
kind (`Cxx_..._refuted`), and what is true is kept (`..._partial`). Section 4 lists all of them.

## 2. Trusted base

* The Lean 4 kernel; the axioms `propext`, `Classical.choice` and `Quot.sound` at most (section 5).
* No axioms of our own, no `sorry` or `admit`, no `native_decide` or `bv_decide`. Finite tables are checked with
  `decide` or `decide +kernel`, which the kernel evaluates.
* Mathlib is used in few files only: `PQ/NttTheory.lean` and `PQ/NttList.lean` (rings, finite sums, `ZMod`),
  `PQ/Rsa.lean` (Fermat's little theorem), `Env/Mqv.lean` and `Env/MqvProps.lean` (groups, `ZMod`), and two files for
  lemmas on lists.
* The hand translation from Python to Lean, described per definition.
* *Parameters* (arbitrary functions or values; a law assumed of one is a hypothesis of the theorem): hash functions,
  XOFs, PRFs, MACs and block ciphers; elliptic curve operations, RSA and AES of the package `cryptography`; DER encoding
  and parsing (pyasn1); the verdict of OpenSSL on a chain; the clock; the random generator; the packages `oqs` and
  `pyhsslms`. In `CA/` the verdicts of MAC and signature verification are parameters too (modelled in `Prot/`), in `Ra/`
  the building of a certificate from a template.
* Not modelled: the HTTP layer, pyasn1 itself (except the encodings of the private-key CHOICE), the Robot Framework
  keywords and test cases, logging, the command line tools, pkilint, concurrency (the mock CA handles one message at a
  time), timing and other side channels, paths taken only if the optional package `oqs` is installed. A function that
  section 3 does not cite is not modelled.

## 3. Modelled code

### `Verif/CA/Base.lean`

Shared vocabulary of the mock CA model (4 definitions).

Exceptions are values, a Python method that may mutate `self` and may raise is a function
`σ → Except PyErr α × σ`: the state component is returned also when the call raises, so partial effects
of a failing call are visible in the model.

Functions: `CertStateEnum`.

### `Verif/CA/CertConf.lean`

Certificate confirmation (mock_ca/cert_conf_handler.py 38-411, resources/ca_ra_utils.py 3115-3276) and the state update after an issued response (mock_ca/cert_req_handler.py 276-340) (26 definitions).

Parameters (`ConfEnv`): `hash a c` is the digest of certificate `c` with algorithm `a`, `algOf c` the digest
algorithm derived from the signature algorithm of `c`, `hdr` the verdict of `validate_pkimessage_header`,
`stfl` the outcome of registering a confirmed stateful-signature certificate.

Functions: `add_confirmed_cert`, `add_request`, `add_response`, `remove_request`, `is_confirmed`, `is_not_confirmed`, `validate_tx_id`, `validate_nonces`, `_confirm_cert`, `_verify_protection`, `_validate_cert_status`, `_process_cert_hash_alg`, `build_pki_conf_from_cert_conf`, `process_cert_conf`, `MockCAState.add_certs`, `process_after_request`.

### `Verif/CA/CertDB.lean`

`CertificateDB` (mock_ca/mock_fun.py 740-1262) (27 definitions).

Certificates are values of an arbitrary type `C`; the digest `compute_hash(hash_alg, DER(cert))` is an
arbitrary function `H : C → D` (no injectivity is assumed). The clock is an argument (microseconds).

Functions: `CertDBEntry`, `CertificateDB.add_cert`, `CertificateDB._process_update_cert`, `CertificateDB.change_cert_state`, `_get_cert_by_digest`, `UpdateCertDB.get_cert_by_digest`, `get_cert_state`, `get_cert`, `_get_certs_by_state`, `revoked_certs`, `not_confirmed_certs`, `updated_certs`, `issued_certs`, `get_updated_history`, `build_from_entries`, `UpdateCertDB.is_updated`, `_for_cert_conf`, `_for_kur`, `_for_rr`, `UpdateCertDB.validate_is_updated`.

### `Verif/CA/Challenge.lean`

Proof-of-possession challenges (mock_ca/challenge_handler.py 35-181) (8 definitions).

`T` is the type of certificate templates. The random number is an argument of the challenge operation.

Functions: `_process_challenge`, `_process_popdecr`.

### `Verif/CA/Dispatch.lean`

The request dispatcher (`CAHandler.process_normal_request`, mock_ca/ca_handler.py 703-797) (28 definitions).

The checks the dispatcher makes itself, the certConf handler, the conversion of exceptions to answers, and the
protection of the answers are modelled. The remaining body handlers (certificate requests, revocation, challenges,
nested and general messages) are arbitrary functions on the state, `Handlers`: the theorems hold whatever they
do. Cryptographic verdicts on a message are fields of the message.

The state has two parts: `CaSt`, which the handlers can write, and `cert_state_db` (a `RevState`), of which
nothing in `mock_ca` calls a writer (`add_compromised_key`, `add_rev_entry` and `add_updated_cert` are only called
by unit tests); serving a CRL increments its number.

Simplified: the public keys of a request are loaded before the first one is compared; the indices used up by
stateful signatures are not part of this state (see `Stfl.lean`); the response to a `BodyRelevantError` is
built for the request itself.

Functions: `is_not_allowed_to_request`, `check_is_protection_present`, `verify_protection`, `_check_for_compromised_key`, `_check_is_not_confirmed`, `protect_pkimessage`, `process_cert_conf`, `build_error_from_exception`, `process_normal_request`.

### `Verif/CA/Endpoints.lean`

The endpoints for hybrid certificates (mock_ca/ca_handler.py 955-1376, 1530-1641; mock_ca/hybrid_handler.py 227-337) (34 definitions).

The functions which build the certificates (`pq_logic/hybrid_issuing.py`, modelled in `Verif/Hybrid`) are fields of
`HybEnv`, as are the verdicts of the checks of a request, `HReq`.  The bodies `certConf` use the model of
`CertConf.lean`.  Simplified: the responses of the builders have an accepted status; removing a temporary CRL file and
logging are left out.

Functions: `_after_request`, `process_chameleon`, `process_cert_discovery`, `process_related_cert`, `process_catalyst_sig`, `process_catalyst_issuing`, `SunHybridHandler.process_request`, `process_sun_hybrid`, `process_multi_auth`, `parse_pkimessage`, `handle_issuing`.

### `Verif/CA/Errors.lean`

Exception classes (resources/exceptions.py) (3 definitions).

### `Verif/CA/KemList.lean`

KEM shared secrets (`KEMSharedSecretList`, mock_ca/mock_fun.py 476-627) (10 definitions).

Secrets are values of an arbitrary type `S`. The messages handed to the list always carry a
transactionID (`asOctets` on a missing one raises before the list is touched); the verdict of
`verify_kem_based_mac_protection` is a parameter `mac : S → Bool` belonging to the message.

Functions: `KEMSharedSharedState`, `update_shared_secret_state`, `add_shared_secret`, `remove_shared_secret`, `verify_pkimessage_protection`, `may_update_state`.

### `Verif/CA/Msg.lean`

Messages (5 definitions).

The part of a `PKIMessage` the modelled handlers look at. Certificates are values of an arbitrary type
`C`; names (`sender`) are their DER encoding.

Functions: `ProtectedType`.

### `Verif/CA/Nested.lean`

Nested messages (mock_ca/nested_handler.py) and the frame of certificate requests (24 definitions).

`CertReqHandler.process_cert_request` (mock_ca/cert_req_handler.py 658-711) is modelled up to the issuing
functions (`process_ir` and the like), which are an arbitrary function `issue` on the state. The verdicts of the
checks that only look at the message are fields of the message. The CA builds the `NestedHandler` with
`allow_inner_unprotected=True` (ca_handler.py 430-434) and never sets `check_sender`.

Simplified: protecting a response does not fail; the indices of stateful signatures are not part of the state
(see `Stfl.lean`).

Functions: `check_is_protection_present`, `validate_header`, `check_cert_is_updated`, `process_cert_request`, `check_correct_prot_type`, `validate_protection`, `verify_added_protection`, `verify_inner_batch_pkimessage`, `_process_added_protection_request`, `_check_nonces`, `process_batched_request`, `verify_nested_protection`, `process_nested_request`.

### `Verif/CA/Ocsp.lean`

The OCSP responses of the mock CA (19 definitions).

Model of `resources/certutils.py` 1667-1769 (`build_ocsp_response`), of the part of `mock_ca/mock_fun.py` 319-357
(`get_ocsp_response`) which calls it, and of `mock_ca/ca_handler.py` 1378-1391 (`process_ocsp_request`).

* The checks of `OCSPResponseBuilder` of the library are written down as `addResponse` and `signWith`; encoding and the
  signature itself are not modelled, the response is the list of its fields.
* The conversion of the certificates for the library is assumed to succeed.
* Times are seconds; `now` is one reading of the clock.

Functions: `_get_cert_status`, `_get_reason_flags`, `hash_name_to_instance`, `build_ocsp_response`, `get_ocsp_response`, `process_ocsp_request`.

### `Verif/CA/RevList.lean`

Revocation lists, OCSP, CRLs and key checks (mock_ca/mock_fun.py 43-460, 630-713, 1264-1318, 1351-1367) (37 definitions).

Certificates are values of a type `C` with decidable equality (`compare_pyasn1_objects` compares DER
encodings); `serial` and `keyOf` read the serial number and the public key, `H` is the digest of the list's
hash algorithm. Loading of a public key is total here: an unloadable key raises in the code.

Functions: `RevokedEntry`, `RevokedEntryList.remove`, `RevokedEntryList.add_entry`, `is_revoked`, `get_cert_by_serial_number`, `serial_numbers`, `contains_hash`, `get_by_hash`, `compromised_keys`, `_contains`, `_check_ocps_request_cert_status`, `get_ocsp_response`, `get_crl_response`, `add_compromised_key`, `add_updated_cert`, `check_request_for_compromised_key`, `CertificateDB.get_current_crl`, `CertificateDB.get_ocsp_response`, `_compare_pub_keys`, `_check_contains_pub_key`, `check_cert_status`, `MockCAState.contains_pub_key`, `is_certificate_in_list`, `check_same_key_cert_request`.

### `Verif/CA/Revoke.lean`

Revocation requests (mock_ca/rev_handler.py) (17 definitions).

Certificates are those of `Verif.Check.Template`; the database is `CertificateDB` of `Verif.CA.CertDB`, with
the reason and certificate of a `RevokedEntry` as revocation record. Cryptographic verification and the header
checks are verdicts carried by the message.

Functions: `_get_ecdh_shared_secret`, `verify_protection`, `is_revoked`, `revive_cert`, `mark_as_revoked`, `_process_revive_response`, `_handle_self_revive_request`, `process_revocation_request`, `process_rr`.

### `Verif/CA/Serial.lean`

Serial numbers of issued certificates (11 definitions).

The random generator `x509.random_serial_number()` is a stream `draws`; the state holds the position in it.
A certificate is represented by its serial number and the position in the order of issue.

Functions: `_get_serial_number`, `_add_to_state`, `get_cert_by_serial_number`.

### `Verif/CA/Setup.lean`

Setting up the CA: certificates and keys from the configuration (48 definitions).

`resources/utils.py` 371-402, 561-731 (certificate chains, pairs of certificate and key, keys in a list),
`mock_ca/operation_dbs.py` 32-427 and `mock_ca/ca_handler.py` 284-305. Files, decoding and the keys are parameters. The values
of a configuration file are texts or null.

Functions: `may_load_cert_and_key`, `is_certificate_and_key_set`, `_load_cert_key_pair`, `_load_key`, `_load_kga`, `IssuingCertAndKeys.load`, `IssuingCertAndKeys.validate`, `_load_cert_and_key`, `NonSigningKeyCertsAndKeys.validate`, `NonSigningKeyCertsAndKeys.load`, `get_ecc_cert`, `check_public_key_is_not_unique`, `check_if_private_key_in_list`.

### `Verif/CA/Stfl.lean`

Stateful-signature indices (mock_ca/operation_dbs.py 437-502, mock_ca/stfl_validator.py, mock_ca/prot_handler.py 572-705, mock_ca/ca_handler.py 555-580 and 703-797) (15 definitions).

Certificates are values of an arbitrary type `C`, `H : C → D` is `compute_hash(DER(cert))`.

Functions: `StatefulSigState`, `PQStatefulSigKeyConfig`, `add_state`, `add_pq_stateful_pki_message`, `validate_pq_stateful_pki_message`, `validate_stfl_signature_protection`, `validate_signature_protection`.

### `Verif/CA/StflReg.lean`

Registering stateful keys (mock_ca/stfl_validator.py 111-236, mock_ca/cert_conf_handler.py 379-409, mock_ca/cert_req_handler.py 324-335) (10 definitions).

A certificate is a value of an arbitrary type `C`, `H : C → D` is the hash of its encoding, `stflCert` says whether the OID of
its key is one of a stateful signature. Of a request what matters is the proof of possession of each entry: `index` is what
`get_pq_stateful_sig_index_from_sig` reads from its signature.

Simplified: logging is left out; the encodings are taken to exist.

Functions: `_get_popo_sig`, `process_stfl_after_request`, `_may_add_stfl_confirmed_cert`, `_may_add_delta_cert`, `_process_chameleon_pki_message`.

### `Verif/CA/TxIds.lean`

Transaction identifiers (`MockCAState`, mock_ca/mock_fun.py 1324-1448) (8 definitions).

Functions: `add_tx_id`, `remove_tx_id`, `store_transaction_certificate`, `get_issued_certs`.

### `Verif/Check/Chain.lean`

Certificate chains and trust in a signer (23 definitions).

`build_chain_from_list`, `build_cmp_chain_from_pkimessage`, `check_is_cert_signer`, `certificates_are_trustanchors`
and `certificates_must_be_trusted` (resources/certutils.py), `check_signer_is_trusted` (mock_ca/prot_handler.py),
`get_certificates_from_signed_data` and `_validate_kga_certificate` (resources/ca_kga_logic.py).

Certificates are values of an arbitrary type with decidable equality (equality of the DER encodings, which is what the
code compares); names, keys, the cryptographic operations and `openssl verify` are parameters (`ChainEnv`).

Simplified: logging and the temporary files of the OpenSSL call are left out; a failure of `subprocess` is one of the
results of `openssl`.

Functions: `check_is_cert_signer`, `build_chain_from_list`, `build_cmp_chain_from_pkimessage`, `cert_in_list`, `certificates_are_trustanchors`, `certificates_must_be_trusted`, `check_signer_is_trusted`, `get_certificates_from_signed_data`, `find_right_cert_pos`, `_validate_kga_certificate`, `check_signer_infos`, `_validate_signature_and_algorithm_in_signed_data`, `validate_signed_data_structure`.

### `Verif/Check/ConfIds.lean`

The identifiers of a confirmation (resources/checkutils.py 2295-2389) (5 definitions).

Functions: `_validate_cert_conf_nonces_and_tx_id`, `validate_request_message_nonces_and_tx_id`.

### `Verif/Check/Header.lean`

Message checkers (resources/checkutils.py) (32 definitions).

Python values that pyasn1 calls "no value" are `none`; calling `asOctets` on them raises a pyasn1 error.
Logging is dropped. All comparisons are on octets.

Functions: `validate_transaction_id`, `validate_sender_and_recipient_nonce`, `validate_sender_and_recipient`, `_check_message_time_for_request`, `check_message_time_field`, `_is_unique`, `_ensure_length`, `validate_nested_message_unique_nonces_and_ids`, `validate_add_protection_tx_id_and_nonces`, `req_pair`, `allowed_answer_bodies`, `validate_ids_and_nonces_for_nested_response`, `validate_request_message_nonces_and_tx_id`, `correct_body_types`, `validate_cmp_body_types`, `_validate_body_types_nested`, `validate_wrong_integrity`, `check_single_chain_is_ordered`, `find_right_cert_pos`, `check_rp_cmp_message_body`.

### `Verif/Check/Helpers.lean`

Pure helpers of the test suite (resources/utils.py, resources/compareutils.py, resources/asn1utils.py) (33 definitions).

Functions: `nonces_must_be_diverse`, `nonces_must_be_unique`, `manipulate_first_byte`, `manipulate_pq_stateful_signature_bytes`, `expand_string_to_length`, `compare_pyasn1_names`, `_is_bit_set_in_bitstring`, `_is_either_bit_set_in_bitstring`, `get_set_bitstring_names`, `is_bit_set`, `asn1_names_to_bitstring`, `asn1_compare_named_integer`, `asn1_compare_named_values`.

### `Verif/Check/KeyUsage.lean`

Checks of the key usage extensions (resources/certutils.py 514-707) (9 definitions).

Comma-separated arguments are lists of their pieces, spaces included. An extension is absent (`none`), present, or
cannot be decoded (an exception). Bit strings are lists of bits; names of extended key usages stand for their OIDs
(the mapping `CMP_EKU_OID_2_NAME` is one-to-one, other OIDs are other strings).

Simplified: key usages given by number are not modelled.

Functions: `KeyUsageStrictness`, `_validate_key_usage`, `validate_key_usage`, `must_not_contain_key_usage`, `validate_cmp_extended_key_usage`.

### `Verif/Check/PubKey.lean`

The check of the public key of an issued certificate (resources/compareutils.py 583-684, resources/oid_mapping.py 262-272, resources/oidutils.py 468-839) (21 definitions).

Keys, their comparison and the loading of them are parameters.  Of the table of all names the part between lines 746 and 777
is given in full; the tables put in before and after it are parameters.

Functions: `TRAD_STR_OID_TO_KEY_NAME`, `ALL_KNOWN_OIDS_2_NAME`, `post`, `may_return_oid_by_name`, `_verify_spki_alg_id`, `validate_certificate_public_key`, `check_if_alg_id_parameters_is_absent`.

### `Verif/Check/Template.lean`

Comparing a `CertTemplate` with a certificate (resources/compareutils.py 94-352), option strings (resources/utils.py 242-262) and revocation requests (resources/ca_ra_utils.py 2664-2717, 3337-3680) (28 definitions).

A name attribute is a value of an arbitrary type `A`, an algorithm identifier a value of `G`, a point in time a
value of `T`. Equality of DER encodings is equality of values. `load` is `load_public_key_from_cert` followed by
re-encoding the loaded key as SubjectPublicKeyInfo: it may raise and may change the encoding.

Functions: `filter_options`, `_compare_validity_template_and_cert`, `_compare_public_key_template_and_cert`, `contains_extension`, `_compare_extensions_subject_template_and_cert`, `_compare_uids_template_and_cert`, `_compare_issuer_and_subject_template_and_cert`, `compare_cert_template_and_cert`, `_contains_cert_template`, `validate_rr_crl_entry_details_reason`, `_check_rev_details_mandatory_fields`, `cert_in_list`, `_check_cert_for_revoked`, `_check_cert_for_revive`, `validate_rev_details`, `build_rp_from_rr`.

### `Verif/Env/Build.lean`

Building `EnvelopedData` (47 definitions).

`resources/envdatautils.py`: `prepare_enveloped_data` and the functions for the recipients: `prepare_password_recipient_info`,
`prepare_ktri`, `prepare_kari`, `prepare_kem_recip_info`, `prepare_recip_info`, `build_env_data_for_exchange`. The random
values are arguments.

Not modelled: the options for faulty identifiers (`bad_ski`, `invalid_ski`, `negative_size`, `add_another`), the options of
`prepare_kem_recip_info` for a given ciphertext or encrypted key, and tags.

Functions: `prepare_encrypted_content_info`, `prepare_enveloped_data`, `prepare_recipient_identifier`, `prepare_originator_identifier_or_key`, `prepare_originator_with_rid`, `_prepare_key_agree_rid`, `prepare_password_recipient_info`, `prepare_enveloped_data_with_pwri`, `_get_rsa_kari_alg_id`, `prepare_ktri`, `_get_ecc_dh_oid`, `_get_kari_ephemeral_oid`, `_get_kari_oid`, `perform_sender_ecdh_one_pass_mqv`, `_compute_kari_sender`, `prepare_key_agreement_recipient_info`, `prepare_kari`, `_handle_kem_encapsulation`, `get_aes_keywrap_length`, `prepare_kem_recip_info`, `prepare_recip_info`, `build_env_data_for_exchange`.

### `Verif/Env/Challenge.lean`

The challenge of the indirect proof of possession, and its answer (41 definitions).

The CA: `resources/ca_ra_utils.py` 110-307 (`prepare_challenge`, `prepare_challenge_enc_rand`) and 3684-3791
(`build_popdecc_from_request`). The client: `resources/extra_issuing_logic.py` 236-273, 352-395 and 414-696
(`process_pkimessage_with_popdecc`). The state of the CA between both is in `Verif.CA.Challenge`.

Names are values of a type `N`, and bytes in recipients as elsewhere. Random values are arguments.

Not modelled: `hybrid_kem_key`; headers apart from `pvno` and the information for KEM; `expected_version`; negative indices.
A position that does not exist makes pyasn1 create an empty element, whose fields cannot be read: it is `pyasn1Error` here.

Functions: `_prepare_rand`, `manipulate_first_byte`, `_prepare_witness_val`, `prepare_challenge_enc_rand`, `prepare_challenge`, `build_popdecc_from_request`, `validate_popdecc_version`, `_extract_rid`, `validate_rid_for_encrypted_rand`, `_process_encrypted_rand`, `_may_get_kari_public_key`, `process_simple_challenge`, `process_pkimessage_with_popdecc`.

### `Verif/Env/Data.lean`

Opening `EnvelopedData` (105 definitions).

`resources/ca_kga_logic.py`: `validate_enveloped_data`, `validate_pwri_enveloped_data`, `validate_kemri_enveloped_data`,
`extract_content_encryption_key`, the checks of the four kinds of recipients (password, key transport, key agreement, KEM),
and `validate_encrypted_content_info`; `cryptoutils.py`: `compute_aes_cbc`, `perform_static_dh`,
`perform_one_pass_mqv`.

A message, its protection and its algorithm identifiers are those of `Verif.Prot`. Parameters (`KEnv`): key wrap, the block
cipher of CBC, RSA, the exchange of two EC keys, decapsulation, the fields of certificates, and DER. A field that a
structure in memory may lack is an `Option`. The distinguished names are their encodings, as the code compares these.

Not modelled: arguments given as strings instead of integers; logging.

Functions: `PROT_SYM_ALG`, `ECMQV`, `compute_aes_cbc`, `validate_encrypted_content_info`, `validate_issuer_and_serial_number_field`, `_check_recipient_identifier`, `validate_recip_identifier`, `validate_originator_in_kari`, `get_cmp_protection_salt`, `validate_password_recipient_info`, `_compute_password_based_key_management_technique`, `_extract_pwri_content_enc_key`, `check_if_alg_id_parameters_is_absent`, `get_rsa_oaep_padding`, `validate_key_trans_recipient_info`, `perform_ecdh`, `derive_shared_secret_ec`, `perform_static_dh`, `perform_one_pass_mqv`, `process_mqv`, `process_kari`, `validate_key_agree_recipient_info`, `_extract_kari_content_enc_key`, `_validate_kem_and_kemct`, `_validate_kemri_wrap_and_kek`, `validate_kem_recip_info_structure`, `process_kem_recip_info`, `_decode_kem_recip_info`, `process_other_recip_info`, `_validate_recip_info_size`, `_get_kari_cert`, `_extract_ktri_and_kari_content_enc_key`, `extract_content_encryption_key`, `validate_kemri_enveloped_data`, `validate_pwri_enveloped_data`, `validate_enveloped_data`.

### `Verif/Env/KgaBuild.lean`

Central key generation: the side of the CA (30 definitions).

`resources/ca_ra_utils.py` 502-613, 683-753 and 779-1086: the choice of the recipient, the generation of the key, and the
certificate with the enveloped private key.

Not modelled: `invalid_kga_operation` (617-680) and given private keys; the name of a key in error messages; versions of the
key package other than the default.

Functions: `_get_kga_recipient_type`, `_get_kga_matching_kari_cert_key_pair`, `_prepare_recip_info_for_kga_request`, `_generate_ec_key_from_alg_id`, `_get_kga_key_from_cert_template`, `_get_kga_private_key_and_update_template`, `prepare_private_key_for_kga`, `prepare_cert_and_private_key_for_kga`.

### `Verif/Env/Mqv.lean`

One-pass ECMQV (11 definitions).

`resources/cryptoutils.py` 975-1127: `avf`, `compute_sender_ecdh_mqv_one_pass_exchange`,
`compute_recipient_ecdh_mqv_one_pass_exchange`; and 467-499, `_compute_ss_plus_cofactor`.

The points of the curve, with the point at infinity, are a commutative group `G`; this and the addition are those of the
library `tinyec`, which is not modelled (it has no multiplication of the point at infinity; then the error is another). A private key is its number. The keys are on one curve. An integer is converted
to a floating-point number exactly as Python does it; the logarithm of that number is a parameter.

Functions: `avf`, `compute_sender_ecdh_mqv_one_pass_exchange`, `compute_recipient_ecdh_mqv_one_pass_exchange`, `_compute_ss_plus_cofactor`.

### `Verif/Env/Signed.lean`

The private key of a key generation authority (41 definitions).

`resources/ca_kga_logic.py` 212-373, 1104-1246, 1314-1548: `validate_not_local_key_gen`, `validate_signed_data_structure`,
`check_signer_infos`, `validate_signed_attributes`, `validate_signature_and_digest_alg`,
`validate_asymmetric_key_package`; `resources/envdatautils.py` 367-727: `prepare_signed_data` and what it calls.

The chain of certificates is that of `Verif.Check.Chain`. Parameters (`SdE`): signatures, hash functions, the names of hash
functions for algorithms, DER, and the loading of keys. Indices and sizes are natural numbers; reading past the end of a
list, which `pyasn1` answers with an empty element, is an error here as its use is one. In the functions that build, the
name of a hash function has no comma.

Functions: `validate_signed_attributes`, `validate_signature_and_digest_alg`, `check_signer_infos`, `_validate_signature_and_algorithm_in_signed_data`, `validate_asymmetric_key_package`, `get_certificates_from_signed_data`, `validate_signed_data_structure`, `_check_correct_non_local_key_gen_use`, `validate_not_local_key_gen`, `prepare_signer_identifier`, `prepare_signed_attributes`, `prepare_signer_info`, `prepare_asymmetric_key_package`, `prepare_signed_data`.

### `Verif/Hybrid/Catalyst.lean`

Catalyst certificates (pq_logic/hybrid_sig/catalyst_logic.py) (27 definitions).

A catalyst certificate has a second, alternative signature in three extensions: `subjectAltPublicKeyInfo`,
`altSignatureAlgorithm` and `altSignatureValue`.

Private keys are values of a type `S`, public keys of a type `K`; signing, verification, key loading and the DER
codecs are parameters (`CatEnv`). Simplified as in `Verif.Hybrid.Chameleon`: an empty extension list counts as an
absent one, and version and unique identifiers are one value `other`. The log messages are dropped.

Functions: `prepare_subject_alt_public_key_info_extn`, `prepare_alt_sig_alg_id_extn`, `prepare_alt_signature_value_extn`, `manipulate_first_byte`, `convert_tbs_to_pre_tbs`, `extract_alt_signature_data`, `sign_cert`, `sign_cert_catalyst`, `validate_catalyst_extensions`, `ensure_is_verify_key`, `verify_cert_signature`, `verify_catalyst_signature`, `load_catalyst_public_key`.

### `Verif/Hybrid/CatalystIssue.lean`

Issuing of catalyst certificates (pq_logic/hybrid_issuing.py 270-1050) (32 definitions).

Two ways to get a certificate with an alternative key: a request that carries the second key of the client, with a
proof of possession for both keys (`build_cert_from_catalyst_request`), and a request for a certificate that the CA
signs with a second key (`build_catalyst_signed_cert_from_req`).

Simplified: the fields of a `CertTemplate` that the modelled code does not look at are one value `other`; the serial
number, the validity and the standard extensions of an issued certificate are parameters; an encrypted certificate is
the pair of certificate and recipient key; the response message around the `CertResponse`s is left out.

Functions: `verify_composite_signature_with_keys`, `_verify_alt_sig_for_pop`, `ensure_is_single_verify_key`, `verify_sig_popo_catalyst_cert_req_msg`, `prepare_encr_cert_from_request`, `build_cert_from_catalyst_request`, `_compute_second_pop_catalyst`, `prepare_sig_popo_structure`, `prepare_catalyst_cert_req_msg_approach`, `_generate_catalyst_alt_sig_key`, `_process_single_catalyst_request`, `_process_catalyst_requests`, `verify_sig_pop_for_pki_request`, `build_catalyst_signed_cert_from_req`.

### `Verif/Hybrid/Chameleon.lean`

Chameleon (paired) certificates (pq_logic/hybrid_sig/chameleon_logic.py) (68 definitions).

A paired certificate is a base certificate with a Delta Certificate Descriptor (DCD), an extension that lists the
differences to a second certificate, the delta certificate. The delta certificate is rebuilt from the two.

Names, public keys, times and encoded structures are byte strings. `encDcd`/`decDcd` stand for the DER codec of
`DeltaCertificateDescriptor`, `encTbs` and `encInfo` for the encoding of what is signed; signing, verification, key
loading and hashing are parameters (`Env`), as are the random serial numbers.

Simplified: an empty extension list counts as an absent one (`isValue`); times are in their DER form, so that
`copy_validity` copies them; an alternative signing key (`alt_key`) is not modelled; the fields of a certificate that
the code never touches (version, unique identifiers) are one value `other`.

Functions: `DeltaCertificateDescriptor`, `DeltaCertificateRequestValue`, `get_extension`, `extensions_contains_extn_id`, `_clean_base_and_delta_extensions`, `prepare_dcd_extension_from_delta`, `sign_cert`, `build_chameleon_base_certificate`, `validate_dcd_extension`, `build_delta_cert_from_paired_cert`, `get_chameleon_delta_public_key`, `verify_csr_signature`, `verify_paired_csr_signature`, `load_chameleon_csr_delta_key_and_sender`, `prepare_ski_extension`, `validate_subject_key_identifier_extension`, `_parse_extension`, `_process_remove_extensions`, `process_extensions_for_chameleon`, `extract_extensions_from_csr`, `_validate_keys`, `build_cert_from_csr`, `build_chameleon_cert_from_paired_csr`.

### `Verif/Hybrid/Related.lean`

Related certificates, certificate discovery and revocation of hybrid certificates (68 definitions).

`pq_logic/hybrid_sig/cert_binding_for_multi_auth.py`, `pq_logic/hybrid_sig/certdiscovery.py`, the issuing of both kinds
in `pq_logic/hybrid_issuing.py` and `mock_ca/ca_handler.py`, and the revocation checks of `mock_ca/hybrid_handler.py`.

A certificate with the `RelatedCertificate` extension carries the hash of another certificate of the same owner. It is
requested with a CSR attribute (`RequesterCertificate`) that names this other certificate, says where to fetch it, and
is signed with its key.

Parameters (`RelEnv`): DER codecs, hashing, key loading, signing and verification, name comparison, the checks of the
extensions requested in a CSR. The clock and the values served at locations are arguments. Simplified: certificates are
those of the chameleon model; timestamps are integers; a given `hash_alg` is `some name`.

Functions: `id_relatedCert`, `id_aa_relatedCertRequest`, `id_ad_certDiscovery`, `id_ad_relatedCertificateDescriptor`, `id_altSignatureExt`, `_get_hash_alg`, `prepare_related_cert_extension`, `_get_related_cert_sig`, `get_extension_decoded_value`, `get_set_bitstring_names`, `validate_ku_and_eku_related_cert`, `validate_related_cert_extension`, `get_related_cert_from_list`, `_prepare_related_data_to_sign`, `prepare_requester_certificate`, `add_csr_related_cert_request_attribute`, `extract_related_cert_request_attribute`, `_verify_related_cert_pop`, `validate_issuer_and_serial_number_field`, `validate_related_cert_pop`, `_validate_is_ca_cert`, `extract_extensions_from_csr`, `validate_multi_auth_binding_csr`, `build_cert_from_csr`, `build_related_cert_from_csr`, `validate_p10cr_public_key`, `_validate_related_cert`, `process_related_cert`, `prepare_subject_info_access_syntax_extension`, `extract_related_cert_des_from_sis_extension`, `is_cert_discovery_cert`, `get_cert_discovery_cert`, `validate_related_certificate_descriptor_alg_ids`, `validate_cert_discovery_cert`, `process_cert_discovery`, `is_hybrid_cert`, `ChameleonHandler.is_revoked`, `ChameleonHandler.is_delta_key_revoked`, `HybridIssuingHandler.is_revoked_for_request`, `is_revoked_for_issuing`, `HybridIssuingHandler.is_revoked_for_issuing`.

### `Verif/Hybrid/Sun.lean`

Sun hybrid certificates (57 definitions).

`pq_logic/hybrid_sig/sun_lamps_hybrid_scheme_00.py` and the verification in `pq_logic/pq_verify_logic.py`.

A Sun hybrid certificate carries a second public key and a second signature in two extensions, each *by value* or *by
reference*, i.e. as a hash and a location. The four combinations are the four forms; the certificate is signed in
Form 4, where both are references.

Parameters (`SunEnv`): DER codecs, hashing, key loading, signing and verification. The values served at locations are
an argument (`fetch`), so is the extraction of an alternative key from the certificate of the issuer. Simplified:
certificates are those of the chameleon model, a DER encoded SPKI stands for the `pyasn1` object, CSR attributes have
one value, and the part of the TBS certificate that does not depend on the scheme is an argument of the issuing.

Functions: `id_altSubPubKeyExt`, `AltSubPubKeyExt`, `prepare_sun_hybrid_alt_sub_pub_key_ext`, `prepare_sun_hybrid_alt_signature_ext`, `_patch_extensions`, `process_public_key`, `load_public_key_from_spki`, `get_extension`, `_parse_alt_sub_pub_key_extension`, `_parse_alt_sig_extension`, `convert_sun_hybrid_cert_to_target_form`, `get_sun_hybrid_form`, `_check_form_1_or_3`, `contains_sun_hybrid_cert_form_1_or_3`, `validate_alt_pub_key_extn`, `validate_alt_sig_extn`, `extract_sun_hybrid_alt_sig`, `get_sun_hybrid_alt_pub_key`, `_verify_sun_hybrid_trad_sig`, `verify_sun_hybrid_cert`, `find_sun_hybrid_issuer_cert`, `_prepare_public_key_extensions`, `sun_cert_template_to_cert`, `_extract_sun_hybrid_attrs_from_csr`, `sun_csr_to_cert`.

### `Verif/Hybrid/SunReq.lean`

Requests for Sun hybrid certificates (26 definitions).

* `pq_logic/hybrid_issuing.py`: `build_sun_hybrid_cert_from_request` (93-213), `build_enc_cert_response` (216-279);
* `mock_ca/hybrid_handler.py`: `SunHybridHandler.__init__` (139-161), `sign_response` (167-225), `_add_to_state` (227-240),
  `process_request` (267-337);
* `resources/ca_ra_utils.py`: `validate_cert_req_id_nums` (2512-2546), `build_cp_from_p10cr` (2309-2333) with a certificate;
* `resources/checkutils.py`: `check_if_response_contains_encrypted_cert` (99-130).

The certificates are built by `Verif.Hybrid.Sun`; here the building functions, the checks of possession, the encryption of a
certificate and the protection of the answer are parameters. `C` are certificates, `Csr` PKCS#10 requests, `Q` requests of
CRMF, `K` public keys, `E` encrypted certificates.

Functions: `build_enc_cert_response`, `build_sun_hybrid_cert_from_request`, `validate_cert_req_id_nums`, `sign_response`, `_add_to_state`, `process_request`.

### `Verif/Hybrid/Verify.lean`

Hybrid protection of messages, CRLs and chains (pq_logic/pq_verify_logic.py) (33 definitions).

`verify_hybrid_pkimessage_protection`, `verify_crl_signature`, `build_migration_cert_chain`,
`verify_cert_hybrid_signature`, `may_extract_alt_key_from_cert`; and the makers `protect_hybrid_pkimessage` (protection
`catalyst`) and `sign_crl_catalyst`.

Simplified: a message is its `generalInfo`, protection algorithm, protection, `extraCerts` and the rest of header and
body; absent and empty lists are the same. The bodies of the helpers of other modules (Sun hybrid key, related
certificate, certificate discovery, delta descriptor) are parameters.

Functions: `may_extract_alt_key_from_cert`, `_verify_signature_with_other_cert`, `verify_composite_signature_with_hybrid_cert`, `_get_catalyst_info_vals`, `verify_hybrid_pkimessage_protection`, `protect_hybrid_pkimessage`, `verify_signature_with_cert`, `verify_crl_signature`, `sign_crl_catalyst`, `build_migration_cert_chain`, `verify_cert_hybrid_signature`.

### `Verif/PQ/CompSig.lean`

Composite signatures (36 definitions).

`pq_logic/keys/composite_sig.py`, the tables of `pq_logic/tmp_oids.py`, the composite branches of
`resources/protectionutils.py` (`sign_data_with_alg_id`, `verify_signature_with_alg_id`) and the loaders of
`pq_logic/combined_factory.py`. The ML-DSA component is a `PqSig`, the traditional keys and their encodings are those of `Lib`,
the hash functions of `cryptography` are a parameter, by the name under which `hash_name_to_instance` finds them. Random
values are arguments.

Functions: `COMPOSITE_SIG_NAME_TO_OID`, `COMPOSITE_SIG_OID_TO_NAME`, `COMPOSITE_SIG_LABELS`, `COMPOSITE_SIG_INNER_HASH_OID_2_NAME`, `COMPOSITE_SIG_PREHASH_OID_2_HASH`, `public_key`, `AbstractCompositePublicKey._get_trad_key_name`, `CompositeSigPrivateKey._get_trad_key_name`, `CompositeSigPublicKey.get_oid`, `CompositeSigPrivateKey.get_oid`, `PREFIX`, `_get_label`, `_compute_prehash`, `prepare_sig_input`, `_prepare_input`, `_verify_trad`, `verify`, `_sign_trad`, `sign`, `sign_data_with_alg_id`, `verify_signature_with_alg_id`, `_load_composite_sig_from_public_bytes`, `_try_load_ec_private_from_asn1`, `_load_composite_sig_from_private_bytes`.

### `Verif/PQ/Fips203.lean`

ML-KEM (`pq_logic/fips/fips203.py`) (42 definitions).

Coefficients are Python integers (`Int`), bits are `Nat`, byte strings `List UInt8`. The hash functions, the PRF
and the XOF (an infinite byte stream) are the fields of `Env`. Calls outside the domain of a function (lists that
are too short, which raise `IndexError` in Python) are not modelled: reads outside a list give 0.

Functions: `ML_KEM_PARAM`, `self.q`, `ML_KEM_ZETA_NTT`, `ML_KEM_ZETA_MUL`, `compress`, `decompress`, `bits_to_bytes`, `bytes_to_bits`, `byte_encode`, `byte_decode`, `sample_ntt`, `sample_poly_cbd`, `ntt`, `ntt_inverse`, `best_case_multiply`, `multiply_ntts`, `poly_add`, `poly_sub`, `k_pke_keygen`, `k_pke_encrypt`, `k_pke_decrypt`, `keygen_internal`, `encaps_internal`, `get_public_key`, `decaps_internal`.

### `Verif/PQ/Fips204.lean`

ML-DSA (`pq_logic/fips/fips204.py`) (94 definitions).

Coefficients are Python integers (`Int`), bits are `Nat`, byte strings `List UInt8`. `Env` holds the hash `h` with its
output length and the two extendable-output functions as infinite byte streams; `fuel` bounds every rejection loop and
`none` means "still running". Vectors of polynomials are functions of the index; a matrix has two indices.

Functions: `ML_DSA_PARAM`, `ML_DSA_ZETAS`, `h`, `integer_to_bits`, `bits_to_integer`, `integer_to_bytes`, `coeff_from_three_bytes`, `coeff_from_half_byte`, `simple_bit_pack`, `bit_pack`, `simple_bit_unpack`, `bit_unpack`, `hint_bit_pack`, `hint_bit_unpack`, `pk_encode`, `pk_decode`, `le`, `sk_encode`, `sk_decode`, `bl`, `sig_encode`, `sig_decode`, `w1_encode`, `sample_in_ball`, `rej_ntt_poly`, `rej_bounded_poly`, `expand_a`, `expand_s`, `expand_mask`, `modpm`, `inf_norm`, `power2round`, `decompose`, `high_bits`, `low_bits`, `add`, `neg`, `sub`, `neq`, `weight`, `make_hint`, `use_hint`, `ntt`, `ntt_inverse`, `mul_ntt`, `matrix_vector_ntt`, `keygen_internal`, `MLDSAPrivateKey._derive_public_key`, `sign_internal`, `verify_internal`, `sign`, `verify`, `hash_ml_dsa_sign`, `hash_ml_dsa_verify`.

### `Verif/PQ/Fips205.lean`

SLH-DSA (`pq_logic/fips/fips205.py`) (84 definitions).

Byte strings are `List UInt8`. An `ADRS` object is its 32-byte array; a method that changes its `ADRS` argument returns the
new array beside its result. The six keyed hash functions are parameters (`Hash`), so every theorem holds for arbitrary hash functions; 172-318
(`ofShake`, `ofSha2`) build them from SHAKE256, SHA-256 and SHA-512.

`chain`, `xmss_node` and `fors_node` return `None` for out-of-range arguments. Every caller concatenates the result with a
byte string at once, which raises `TypeError`; here they raise `TypeError` themselves.

Functions: `to_int`, `to_byte`, `base_2b`, `set_tree_height`, `set_tree_index`, `set_type_and_clear`, `adrsc`, `mgf`, `hmac`, `chain`, `wots_pkgen`, `wots_sign`, `wots_pk_from_sig`, `xmss_node`, `xmss_sign`, `xmss_pk_from_sig`, `ht_sign`, `ht_verify`, `fors_sk_gen`, `fors_node`, `fors_sign`, `fors_pk_from_sig`, `slh_keygen_internal`, `split_digest`, `slh_sign_internal`, `slh_verify_internal`, `slh_sign`, `slh_verify`, `hash_slh_sign`, `hash_ml_dsa_verify`.

### `Verif/PQ/Frodo.lean`

FrodoKEM (`pq_logic/fips/frodokem.py`) (39 definitions).

Matrices are lists of rows of Python integers (`Int`), bits are `Nat`, byte strings `List UInt8`. SHAKE and AES-128
are the fields of `Env`. Bit arrays of the package `bitstring` are lists of bits; `.bytes` of a bit array and
`bitstring.Bits(bytes)` put the most significant bit of a byte first. Reads outside a list or a byte string (which
raise in Python) give 0; none happens for byte strings that pass the length assertions.

Functions: `setParamsFrodo640`, `setParamsFrodo976`, `setParamsFrodo1344`, `__cdf_zero_centred_symmetric`, `__matrix_mul`, `__matrix_add`, `__matrix_sub`, `__matrix_transpose`, `__ctverify`, `__ctselect`, `encode`, `decode`, `pack`, `unpack`, `sample`, `sample_matrix`, `genAES128`, `genSHAKE128`, `self.gen`, `kem_keygen`, `kem_encaps`, `kem_decaps`.

### `Verif/PQ/Hybrid.lean`

Hybrid KEMs: Composite KEM, X-Wing and Chempat (73 definitions).

`pq_logic/keys/composite_kem.py`, `pq_logic/keys/xwing.py`, `pq_logic/keys/chempat_key.py` and the tables of
`pq_logic/tmp_oids.py`. A post-quantum KEM is a `PqKem`, the traditional keys are those of `KemMech.lean`, RSA-OAEP, HMAC
and SHA3-256 are fields of `Env`. Random values are arguments.

Functions: `COMPOSITE_KEM_MLKEM_NAME_2_OID`, `COMPOSITE_FRODOKEM_NAME_2_OID`, `COMPOSITE_KEM_DHKEMRFC9180_NAME_2_OID`, `COMPOSITE_KEM_NAME_2_OID`, `CHEMPAT_NAME_2_OID`, `_trad_encaps`, `_get_kdf_algorithm`, `name`, `CompositeKEMPublicKey.get_oid`, `_get_rsa_size`, `CompositeKEMPrivateKey.get_oid`, `public_key`, `kem_combiner`, `encaps`, `decaps`, `_XWING_LABEL`, `XWingPublicKey.from_public_bytes`, `public_bytes_raw`, `_from_seed`, `from_seed`, `expand`, `private_bytes_raw`, `from_private_bytes`, `_export_private_key`, `CURVE_NAME_2_CONTEXT_NAME`, `get_context`, `_check_ct_length`.

### `Verif/PQ/HybridGen.lean`

Generation of hybrid keys (pq_logic/keys/hybrid_key_factory.py, pq_logic/combined_factory.py) (44 definitions).

* `hybrid_key_factory.py` 42-121, 124-376: the tables of combinations and `HybridKeyFactory.generate_hybrid_key`, `from_keys`;
* `resources/oidutils.py` 699-715: the combinations of composite signatures;
* `combined_factory.py` 111-188: `generate_key_from_name`;
* `trad_key_factory.py` 30-63, 98-178: `generate_trad_key` for the kinds that occur;
* `composite_kem.py` 194-204, 317-320, `chempat_key.py` 330-343: what the constructors check.

A key is modelled by what the choice depends on (name, class, size, curve) and a number that tells keys apart. The algorithm is one of
`HybridKeyFactory.supported_algorithms()` (332-340).

Functions: `ALL_CHEMPAT_COMBINATIONS`, `ALL_COMPOSITE_KEM05_COMBINATIONS`, `ALL_COMPOSITE_KEM_FRODOKEM_COMBINATIONS`, `ALL_COMPOSITE_KEM07_COMBINATIONS`, `ALL_COMPOSITE_SIG_COMBINATIONS`, `hybrid_mappings`, `get_valid_hybrid_combination`, `_parse_private_keys`, `_generate_default_hybrid_key`, `_get_trad_key_from_pq_key`, `from_keys`, `default_comb`, `generate_hybrid_key`, `_any_string_in_string`, `_generate_composite_key_by_name`, `_generate_chempat_key_by_name`, `generate_key_from_name`.

### `Verif/PQ/HybridLoad.lean`

Storing and loading Composite KEM keys (24 definitions).

`pq_logic/combined_factory.py` 285-324 (public keys by object identifier), 451-531 (private keys) and 896-992 (the
traditional part), with the exports of `pq_logic/keys/composite_kem.py` 178-244 and
`pq_logic/keys/hybrid_key_factory.py` 537-566. Reading and writing of the components is a parameter: `PqLoad` for the
post-quantum classes, `KeyLib` for `cryptography` and `pyasn1`.

Functions: `CURVE_NAMES_TO_INSTANCES`, `public_bytes_raw`, `_load_composite_kem_public_key`, `_save_keys_with_support_seed`, `_try_load_ec_private_from_asn1`, `_load_trad_composite_private_key`, `_load_composite_kem_from_private_bytes`, `_decode_composite_kem`, `load_private_key_from_one_asym_key`, `save_private_key_one_asym_key`.

### `Verif/PQ/HybridNames.lean`

Names of hybrid algorithms (10 definitions).

`pq_logic/combined_factory.py` 821-848 and `pq_logic/keys/pq_key_factory.py` 371-381: taking a hybrid name apart.

Functions: `get_pq_alg_name`, `get_pq_and_trad_name_form_hybrid_name`.

### `Verif/PQ/KemKeys.lean`

The ML-KEM and FrodoKEM key classes (`pq_logic/keys/kem_keys.py`) (21 definitions).

Modelled for an installation without `oqs`. `Out` is the type of outcomes of `Fips204.lean`; `running` means that the
rejection loop of `sample_ntt` has not finished.

Functions: `ML_KEM_PRIVATE_KEY_SIZE`, `MLKEMPublicKey.key_size`, `ct_length`, `from_seed`, `_from_seed`, `MLKEMPrivateKey.from_private_bytes`, `public_key`, `_export_private_key`, `MLKEMPublicKey.from_public_bytes`, `MLKEMPublicKey.encaps`, `MLKEMPrivateKey.decaps`, `_seed_size`, `from_private_bytes`, `_derivate_public_key`, `from_public_bytes`, `encaps`, `decaps`.

### `Verif/PQ/KemMech.lean`

Traditional KEM mechanisms (`pq_logic/kem_mechanism.py`, `pq_logic/keys/trad_kem_keys.py`) (35 definitions).

The elliptic curve and hash operations of the package `cryptography` are the fields of `Lib`; RSA numbers are natural
numbers. Random choices (ephemeral keys, `random.randint`, `os.urandom`) are arguments.

Functions: `_i2osp`, `_compute_kdf3`, `RSAKem.encaps`, `RSAKem.decaps`, `x448`, `_perform_ecdh`, `ECDHKEM.encaps`, `KEY_TYPE_TO_ID`, `ID_TO_SHA`, `_get_key_id`, `DHKEMRFC9180._extract_and_expand`, `DHKEMRFC9180._perform_exchange`, `DHKEMRFC9180.encaps`, `DHKEMPrivateKey.decaps`, `DHKEMPublicKey.get_trad_name`, `RSAEncapKey.get_trad_name`.

### `Verif/PQ/KeyExport.lean`

The form in which a private key is saved: writing and checking (21 definitions).

`pq_logic/keys/pq_key_factory.py` 717-745, 836-914, `pq_logic/keys/hybrid_key_factory.py` 537-582,
`pq_logic/combined_factory.py` 743-818 and `resources/suiteenums.py` 252-279. The ML keys are those of `KeyStore`; of another
private key only `private_bytes_raw`, `_seed` and whether the class has `private_numbers` matter here.

Functions: `KeySaveType.get`, `_get_choice_type_and_key_data`, `validate_ml_key_export_single`, `_validate_key_export_single`, `validate_key_export_type`, `validate_pq_key_export`, `save_keys_with_support_seed`.

### `Verif/PQ/KeyStore.lean`

Saving and loading post-quantum private keys (`pq_logic/keys/pq_key_factory.py`) (27 definitions).

The OneAsymmetricKey structure is modelled by its fields; the inner CHOICE of the ML keys, which has to be told apart from raw
bytes, is modelled with its DER encoding. `MismatchingKey` is a subclass of `InvalidKeyData` (`exceptions.py` 208) and is
modelled by it.

Functions: `ML..PrivateKeyASN1`, `BaseKey.__eq__`, `from_private_bytes`, `_load_and_validate`, `from_one_asym_key`, `load_private_key_from_one_asym_key`, `_prepare_ml_private_key`, `_may_get_pub_key`, `save_private_key_one_asym_key`, `_to_one_asym_key`.

### `Verif/PQ/PemKey.lean`

Private keys in PEM files (60 definitions).

* `resources/keyutils.py`: `save_key` (88-155) as far as the file format is concerned, `_extract_pem_private_key_block`
  (398-415), `load_private_key_from_file` (418-501);
* `pq_logic/keys/key_pyasn1_utils.py`: `compute_aes_cbc` (31-60), `CUSTOM_KEY_TYPES` (72-90), `load_enc_key` (95-145),
  `derive_and_encrypt_key` (148-176);
* `pq_logic/keys/serialize_utils.py`: `prepare_enc_key_pem` (21-46);
* `pq_logic/combined_factory.py`: the armour of `save_private_key_one_asym_key` (727-739), the same as in
  `pq_logic/keys/abstract_wrapper_keys.py` 238-253; the armour of public keys (abstract_wrapper_keys.py 178-188);
* `resources/utils.py`: `decode_pem_string` (129-157), `load_and_decode_pem_file` (160-191).

Texts are lists of characters that stand for bytes (all below 256). Base64, the hexadecimal numbers, the padding, the lines
and the search for the block are modelled in full; the key derivation and AES-CBC on whole blocks are parameters. That
`textwrap.wrap` cuts a text without blanks and hyphens into pieces of 64 characters is taken from its documentation.

Functions: `compute_aes_cbc`, `derive_and_encrypt_key`, `prepare_enc_key_pem`, `begin_line`, `load_enc_key`, `decode_pem_string`, `load_and_decode_pem_file`, `_extract_pem_private_key_block`, `CUSTOM_KEY_TYPES`, `load_private_key_from_file`.

### `Verif/PQ/SigKeys.lean`

The ML-DSA key classes (`pq_logic/keys/sig_keys.py`) (12 definitions).

Modelled for an installation without `oqs` (the module is optional; with it, pure-mode calls go to liboqs). `Option` as in
`Fips204.lean`: `none` means that a rejection loop has not finished.

Functions: `ML_DSA_PRIVATE_KEY_SIZE`, `MLDSAPublicKey.key_size`, `from_seed`, `MLDSAPrivateKey.from_private_bytes`, `MLDSAPublicKey.from_public_bytes`, `check_hash_alg`, `MLDSAPrivateKey.sign`, `MLDSAPublicKey.verify`.

### `Verif/PQ/SlhKeys.lean`

The SLH-DSA key classes (`pq_logic/keys/sig_keys.py`) (12 definitions).

Modelled for an installation without `oqs` (the module is optional; with it, `sign` of data that is not pre-hashed goes to liboqs, and
`verify` calls liboqs first, ignores the Boolean result and continues as modelled).

Functions: `_derive_public_key`, `from_seed`, `from_private_bytes`, `SLHDSAPublicKey.from_public_bytes`, `SLH_DSA_PRE_HASH_NAME_2_OID`, `check_hash_alg`, `SLHDSAPrivateKey.sign`, `SLHDSAPublicKey.verify`.

### `Verif/PQ/Stateful.lean`

Stateful hash-based signature keys: XMSS, XMSS^MT and HSS/LMS (93 definitions).

`pq_logic/keys/stateful_sig_keys.py`, `pq_logic/keys/hss_validation.py`, `pq_logic/keys/pq_stateful_sig_factory.py`, the
approval filter of `resources/ca_ra_utils.py` and the index helpers of `resources/keyutils.py`. The signature schemes
themselves are those of the packages `oqs` and `pyhsslms`: their answers are the fields of `Oqs` and the arguments called
`deser`. Names are ASCII.

Functions: `XMSS_NOT_APPROVED`, `XMSSMT_ALG_IDS`, `XMSSMT_NOT_APPROVED`, `XMSS_ALG_DETAILS`, `XMSSMT_ALG_DETAILS`, `layers`, `_check_name`, `XMSSPublicKey.from_public_bytes`, `XMSSPublicKey.get_leaf_index`, `XMSSPublicKey.hash_alg`, `XMSSPublicKey.max_sig_size`, `XMSSMTPublicKey._check_name`, `XMSSMTPublicKey.from_public_bytes`, `XMSSMTPublicKey.get_leaf_index`, `XMSSMTPublicKey.hash_alg`, `XMSSMTPublicKey.max_sig_size`, `_xmss_liboqs_sk_to_pk`, `XMSSPrivateKey.from_private_bytes`, `XMSSPrivateKey.public_key`, `XMSSPrivateKey._change_index`, `XMSSPrivateKey.private_numbers`, `_initialize_key`, `XMSSMTPrivateKey.from_private_bytes`, `XMSSMTPrivateKey.public_key`, `XMSSMTPrivateKey._change_index`, `_load_private_key_from_pkcs8`, `_build_hss_algorithms`, `build_hss_name_from_codes`, `_get_and_chck_hss_name`, `HSSPublicKey.from_public_bytes`, `_compute_hss_signature_length`, `compute_hss_signature_index`, `HSSPublicKey.get_leaf_index`, `HSSPrivateKey.from_private_bytes`, `HSSPublicKey.get_level_names`, `_parse_lmots`, `_validate_lms_lmots_pair`, `_validate_hss_configuration`, `validate_hss_key_levels`, `validate_hss_key`, `is_nist_approved_xmssmt`, `is_nist_approved_xmss`, `_validate_pq_hash_stateful_sig_pub_key`.

### `Verif/PQ/TradStore.lean`

Saving, loading and generating traditional private keys (76 definitions).

* `pq_logic/keys/trad_key_factory.py` 181-580: the OneAsymmetricKey of a traditional key;
* `pq_logic/combined_factory.py` 548-600, 641-741: the choice of the factory, for loading and for saving;
* `pq_logic/keys/trad_kem_keys.py` 141-168: loading an RSA-KEM key;
* `resources/keyutils.py` 88-155, 158-188, 191-220, 228-354, 663-681, 831-1039: saving in a file, generating keys, the
  OneAsymmetricKey with the options for negative tests;
* `resources/ca_ra_utils.py` 617-680: the wrong keys of the central key generation.

The library `cryptography` and the DER codec are the fields of `Lib`. A OneAsymmetricKey is modelled by its fields; attributes are
left out. The factories of the post-quantum and the hybrid keys are the fields `saveOther`, `loadOther` (see `KeyStore.lean`,
`HybridLoad.lean`). DH-KEM keys are left out. `MismatchingKey` is told apart from `InvalidKeyData`.

Functions: `prepare_invalid_trad_private_key`, `_prepare_private_key_bytes`, `_get_public_key_bytes`, `prepare_trad_private_key_one_asym_key`, `save_private_key_one_asym_key`, `save_key`, `_load_private_key`, `_load_raw_public_key`, `_check_one_asym_key_version`, `parse_trad_key_from_one_asym_key`, `RSADecapKey.from_pkcs8`, `load_private_key_from_one_asym_key`, `_generate_ec_key`, `_generate_dh_private_key`, `generate_key`, `generate_different_public_key`, `prepare_one_asymmetric_key`, `InvalidOneAsymKeyType`, `prepare_invalid_kga_private_key`.

### `Verif/Prot/KemClient.lean`

The client's messages with a KEM-based MAC (7 definitions).

Model of `resources/cmputils.py` 5612-5689 (`build_kem_based_mac_protected_message`), on top of the model of
`protect_pkimessage_kem_based_mac`.

* `Env.encaps` with the mode `plain` is `encaps()`; the two calls with arguments are parameters of their own
  (`CliEnv`).
* An info value which was not read from bytes cannot be given as `kem_ct_info` (`asOctets` raises, as in `getCt`).

Functions: `build_kem_based_mac_protected_message`.

### `Verif/Prot/Mac.lean`

MAC-based protection of messages (94 definitions).

`resources/protectionutils.py`, with the functions it uses of `resources/cryptoutils.py`, `resources/oid_mapping.py` and
`resources/prepare_alg_ids.py`.

A message is protected by a MAC or a signature over its header and body. Which one is computed, and from which key, is
said by the algorithm identifier `protectionAlg` in the header.

`pyasn1` keeps a structure that was assigned to the field `parameters` as an object, and the bytes of a field that was
decoded (`Any`); the code tells both apart with `isinstance`. `Par` has a constructor for each kind of object, and `raw`
for bytes.

Parameters (`MacEnv`): hash functions and MACs of the packages `cryptography` and `Crypto`, DER codecs, and the hash
names of composite and post-quantum signature algorithms. Random values are arguments.

Simplified: the value and size constraints of the ASN.1 types are not tested; names of hash functions and OIDs are compared as such; the header consists of its parts `alg`, `txId` and
`info`, which the code reads, and of the other fields, encoded.

Functions: `HMAC_OID_2_NAME`, `KMAC_OID_2_NAME`, `AES_GMAC_OID_2_NAME`, `SHA_OID_2_NAME`, `SHA3_OID_2_NAME`, `RSA_OID_2_NAME`, `RSASSA_PSS_OID_2_NAME`, `ECDSA_OID_2_NAME`, `OID_HASH_MAP`, `id_KemBasedMac`, `hash_name_to_instance`, `prepare_protected_part`, `get_hash_from_oid`, `compute_hmac`, `compute_hash`, `compute_kmac_from_alg_id`, `compute_password_based_mac`, `compute_pbkdf2_from_parameter`, `_compute_pbmac1_from_param`, `dh_based_mac_derive_key`, `_get_aes_length`, `compute_dh_based_mac_from_alg_id`, `_compute_symmetric_protection`, `compute_mac_from_alg_id`, `sha_alg_name_to_oid`, `prepare_hmac_alg_id`, `prepare_kmac_alg_id`, `prepare_password_based_mac_parameters`, `prepare_pbkdf2_alg_id`, `prepare_pbmac1_parameters`, `AES_GMAC_NAME_2_OID`, `prepare_aes_gmac_prot_alg_id`, `ProtectionAlgorithm`, `ProtectionAlgorithm.get`, `prepare_dh_based_mac_params`.

### `Verif/Prot/Match.lean`

Comparing the protection of messages of one transaction (28 definitions).

`resources/protectionutils.py`: `_compare_alg_id`, `_compare_pbm_parameters`, `_compare_pbkdf2_parameters`,
`_compare_pbmac1_parameters`, `get_protection_type_from_pkimessage`, `_compare_mac_params`, `_compare_not_strict_mac`,
`mac_protection_algorithms_must_match`, `check_signature_alg_is_consistent`, `_check_is_same_chain` and
`signature_protection_must_match`.

Parameters: the comparison of two salts that are the choice `otherSource` (`oth`), and `build_chain_from_list` (`chain`,
modelled in `Verif/Check/Chain.lean`).

Simplified: logging is left out; DER encodings of algorithm identifiers are compared by their components.

Functions: `_compare_alg_id`, `_compare_pbm_parameters`, `_compare_pbkdf2_parameters`, `_compare_pbmac1_parameters`, `_compare_mac_params`, `get_protection_type_from_pkimessage`, `_compare_not_strict_mac`, `mac_protection_algorithms_must_match`, `check_signature_alg_is_consistent`, `verify_signature_with_cert`, `_check_is_same_chain`, `signature_protection_must_match`.

### `Verif/Prot/OrigMsg.lean`

The original messages in the generalInfo field (resources/protectionutils.py 3001-3060, resources/cmputils.py 4173-4203) (7 definitions).

A registration authority which changes a request puts the request it got into the field `generalInfo`.  The codec of
`PKIMessages` is a parameter; a message is given as in `Verif.Prot.Protect`.

Functions: `validate_orig_pkimessage`, `prepare_orig_pki_message`.

### `Verif/Prot/Protect.lean`

Protecting messages and verifying their protection (84 definitions).

`resources/protectionutils.py`: `protect_pkimessage`, `verify_pkimessage_protection`,
`protect_pkimessage_kem_based_mac`, and what they call.

Parameters (`Env`): the classes of keys, signing and verifying with a key, ECDH, key encapsulation, the keys in
certificates, the OIDs of composite and post-quantum algorithms, and `check_consistency_sig_alg_id_and_key`. Signing and
verifying take the padding and hash (`SigMode`) that the code chooses.

Not modelled: the option `add_params_rand_val`; reading certificates from files (the chain that was read is an
argument).

Functions: `sign_data`, `verify_signature`, `sign_data_with_alg_id`, `_is_parmeters_null`, `_validate_sig_alg_id`, `verify_rsassa_pss_from_alg_id`, `verify_signature_with_alg_id`, `_verify_pki_message_sig`, `_perform_dh_based_mac_exchange`, `_verify_dh_based_protection`, `HKDF_OID_2_NAME`, `compute_ansi_x9_63_kdf`, `compute_kdf_from_alg_id`, `compute_kem_based_mac_from_alg_id`, `id_it_KemCiphertextInfo`, `compute_decapsulation`, `verify_kem_based_mac_protection`, `prepare_kem_based_mac_alg_id`, `manipulate_first_byte`, `protect_pkimessage_kem_based_mac`, `prepare_rsa_pss_alg_id`, `prepare_sig_alg_id`, `_prepare_prot_alg_id`, `_compute_pkimessage_protection`, `add_cert_to_pkimessage_used_by_protection`, `_prepare_certificate_chain`, `protect_pkimessage`, `ProtectedType`, `ProtectedType.get_protection_type`, `_enforce_lwcmp_protection_alg`, `verify_pkimessage_protection`.

### `Verif/Ra/Announce.lean`

Announcements (21 definitions).

`_prepare_cert_id`, `build_cmp_cann_announcement`, `build_cmp_rann_announcement`, `build_crlann_cmp_message`,
`build_cmp_ckuann_message` (resources/announcement.py) and the `AnnouncementHandler` (mock_ca/announcement_handler.py).

Not modelled: the fields of the header besides the version, the sender and the recipient; `bad_sig`; the files of CRLs.

Functions: `prepare_pki_message`, `_prepare_cert_id`, `prepare_generalized_time`, `build_cmp_rann_announcement`, `build_rann_announcement`, `build_cmp_cann_announcement`, `build_cert_request_announcement`, `build_crlann_cmp_message`, `prepare_new_root_ca_certificate`, `build_cmp_ckuann_message`, `build_ckuann`.

### `Verif/Ra/Answer.lean`

Error messages and the protection of answers (mock_ca/ca_handler.py 123-156, 159-189, 583-662, 1444-1473; mock_ca/prot_handler.py 150-154, 211-494; resources/cmputils.py 284-408; resources/exceptions.py 15-49) (40 definitions).

The cryptographic operations are `AnsEnv.sign`; only their success matters here.  The keys of the CA for key agreement
have the expected types (the `BadConfig` branches of `get_dh_cert_and_ss` are left out).  Certificates are values of an
arbitrary type.

Functions: `CMPTestSuiteError.__init__`, `_prepare_pki_free_text`, `_build_error_from_exception`, `_contains_challenge`, `patch_sender_and_sender_kid`, `get_dh_cert_and_ss`, `get_same_mac_protection`, `is_kga_kari_request`, `check_if_request_is_for_kari_encr_cert`, `protect_hybrid_pkimessage`, `_sign_response`, `protect_pkimessage`, `_sign_nested_response`, `sign_response`, `_build_response`.

### `Verif/Ra/Asn1Path.lean`

Paths into ASN.1 structures (resources/asn1utils.py 70-258) (22 definitions).

A structure is a tree: a simple value, a `SEQUENCE` or `SET` with named components, a `CHOICE` with its alternatives and
the one which is set, or a `SEQUENCE OF` or `SET OF`.  Simplified: the elements of strings cannot be reached, digits are
`0` to `9`, and no component has a number as its name.  Reading a component has the effects which it has in pyasn1: an
alternative which is not set is made, and so is a missing element of a list.

Functions: `get_asn1_value`, `asn1_must_have_values_set`, `_split_last_parent`, `set_asn1_value`, `asn1_must_contain_fields`.

### `Verif/Ra/Build.lean`

Building messages of the client (resources/cmputils.py 74-280, 3124-3271, 4206-4228, 4295-4574, 5246-5394, 5404-5575) (33 definitions).

Bytes given as texts are not modelled.  Names are parsed by the environment; random values are arguments.

Functions: `get_common_name_from_str`, `_prepare_sender_kid`, `_prepare_pvno`, `_patch_senderkid_for_mac`, `prepare_pki_message`, `build_nested_pkimessage`, `_gen_unique_byte_seq`, `_patch_nested_pkimessage`, `generate_unique_byte_values`, `build_polling_request`, `build_polling_response`.

### `Verif/Ra/CaBody.lean`

How a client checks the body, extraCerts and header of a CA message (resources/checkutils.py 99-308, 463-571, 1570-1650, 1699-1837, 2244-2292) (23 definitions).

Reading an alternative of a choice which is not set deletes the one which is: the functions give the message afterwards.
The trust store is loaded, and chains are verified by OpenSSL, by the environment.  The fields of a message which are not
read here are dropped, and so are the empty responses which reading beyond the end of a list adds to it.

Functions: `get_cert_response_from_pkimessage`, `get_cert_from_pkimessage`, `check_if_response_contains_encrypted_cert`, `validate_certReqId`, `validate_certified_key_pair_structure`, `validate_ca_msg_ca_pubs_field`, `validate_ca_message_body`, `validate_cross_certification_response`, `_check_cmp_protection_for_extra_certs`, `validate_extra_certs`, `validate_pkimessage_header`.

### `Verif/Ra/CertGen.lean`

Certificates and extensions that the suite builds (resources/certbuildutils.py, resources/cmputils.py) (60 definitions).

* `certbuildutils.py` 366-430, 434-560, 564-675, 708-788, 791-942: the extensions;
* `certbuildutils.py` 945-1008, 1012-1171, 2052-2111, 1754-1793: `sign_cert`, `generate_certificate`, `build_certificate`,
  `prepare_tbs_certificate`;
* `certbuildutils.py` 1174-1218, 3533-3580, `cmputils.py` 5693-5710.

Keys, signatures, key identifiers, encodings, random values, the clock, `int` of a text and the parsing of names are
parameters (those of `CsrEnv`). The value of an extension is kept as the structure that is encoded, with the bytes that
are added after it. Simplified: a key usage is a text of names; `generate_key` gets the name of the algorithm only;
`invalid_data` of a key usage and the unused arguments of `prepare_policy_constraints` are left out.

Functions: `prepare_key_usage_extension`, `_compute_ski`, `prepare_ski_extension`, `prepare_basic_constraints_extension`, `prepare_subject_alt_name_extension`, `prepare_authority_key_identifier_extension`, `_prepare_invalid_extensions`, `modify_cert_extensions`, `prepare_extensions`, `get_subject_key_identifier`, `compare_ski_value`, `sign_cert`, `prepare_tbs_certificate`, `generate_certificate`, `build_certificate`, `modify_random_str`, `modify_common_name_cert`.

### `Verif/Ra/Confirm.lean`

The client's certificate confirmation (resources/cmputils.py 2974-3121, 3326-3679) (20 definitions).

Certificates are values of a type `C`; digests, the algorithms derived from the signature algorithm and the building of
the chain are parameters.  `CertStatus` is that of the CA (`Verif.CA.Msg`): its `hashAlg` is the name which
`get_hash_from_oid` gives for the OID set by the client.

Functions: `calculate_cert_hash`, `manipulate_first_byte`, `prepare_certstatus`, `_process_single_cert_conf_cert`, `_get_cert_req_id`, `build_cert_conf_from_resp`, `build_cert_conf`.

### `Verif/Ra/Controls.lean`

The controls of a certificate request (resources/ca_ra_utils.py, resources/cmputils.py) (22 definitions).

The decoders of the controls, the reading of the public key in the template and the generation of a key from a seed are
parameters. The value of a control is its DER encoding, as it is after a message has been sent. The data about the
registration of the handler is state: it is changed also if the request is refused afterwards.

### `Verif/Ra/CrlPoint.lean`

Addresses of revocation information: extensions of the CA, and what the client reads and asks for (59 definitions).

* `resources/certbuildutils.py` 2154-2276, 2860-3195: `prepare_ocsp_extension`, `_prepare_crl_distribution_points`,
  `prepare_crl_distribution_point_extension`, `prepare_issuer_and_serial_number`, `prepare_distribution_point_name`,
  `prepare_distribution_point`, `_prepare_reason_flags`, `_prepare_dp_name_for_idp`, `prepare_issuing_distribution_point`,
  `prepare_issuing_distribution_point_extension`;
* `resources/prepareutils.py` 228-289: `parse_to_general_name`, `parse_to_general_names`;
* `mock_ca/ca_handler.py` 195-251: `_prepare_extensions`; `mock_ca/mock_fun.py` 1542-1567: `BaseURLData`;
* `resources/general_msg_utils.py` 492-674: `prepare_distribution_point_name_gen_name`, `prepare_dpn_from_cert`,
  `_prepare_time_for_crl_update_retrieval`, `_prepare_dpn_with_crl_file`, `prepare_crl_update_retrieval`.

Simplified: extensions are given by their values, without OID and DER encoding (`add_trailing_data`, which appends random
bytes to the encoding, is not modelled); tags are not modelled; a list of names is one of `NameArg`, not nested; the index of
a distribution point is not negative; an empty sequence, which pyasn1 refuses to encode, is `PyErr.pyasn1Error`.

Functions: `parse_to_general_names`, `prepare_distribution_point_name`, `_prepare_reason_flags`, `prepare_distribution_point`, `prepare_ocsp_extension`, `_prepare_dp_name_for_idp`, `prepare_issuing_distribution_point`, `prepare_issuing_distribution_point_extension`, `BaseURLData`, `get_base_url`, `ocsp_url`, `crl_url`, `prepare_distribution_point_name_gen_name`, `prepare_dpn_from_cert`, `_prepare_dpn_with_crl_file`, `prepare_crl_update_retrieval`, `prepare_issuer_and_serial_number`.

### `Verif/Ra/CsrBuild.lean`

Certification requests of the client (resources/certbuildutils.py, keyutils.py, convertutils.py, cmputils.py) (41 definitions).

Keys, signatures, the encodings and the parsing of names are parameters. Encoding a structure and decoding it again is
the identity. A list of extensions is taken to be not empty when it is encoded.

Functions: `subject_public_key_info_from_pubkey`, `_prepare_spki_for_kga`, `prepare_subject_public_key_info`, `csr_add_extensions`, `csr_extend_subject`, `sign_csr`, `_parse_common_name`, `build_csr`, `build_p10cr_from_key`, `extract_extensions_from_csr`, `verify_csr_signature`, `compare_csr_and_cert`.

### `Verif/Ra/Extns.lean`

The extensions of an issued certificate (resources/certbuildutils.py 2279-2856, 3235-3386, 1686-1751, 1797-1947) (54 definitions).

The decoding and encoding of the values of extensions are functions of the environment. Simplified: the subject, the key
and the validity of a certificate are not part of the result; requests are templates and PKCS#10 requests only.

Functions: `get_set_bitstring_names`, `parse_extension_and_public_key`, `get_extension`, `_try_decode_extension_val`, `_check_sig_key`, `_check_ecc_key_usage`, `_check_x_ecc_key_usage`, `_verify_key_usage`, `validate_subject_key_identifier_extension`, `prepare_authority_key_identifier_extension`, `_verify_authority_key_identifier`, `_verify_extended_key_usage`, `verify_ca_basic_constraints`, `_verify_subject_alt_name`, `_contains_unknown_extensions`, `check_logic_extensions`, `_get_not_included_extensions`, `check_extensions`, `prepare_ski_extension`, `build_cert_from_cert_template`, `_process_csr_extensions`.

### `Verif/Ra/GenInfo.lean`

The generalInfo field of the header (resources/cmputils.py 3933-3983, 4061-4164, 4645-4758, resources/checkutils.py 1106-1355) (15 definitions).

An absent field is the empty list.  Values are as sent over the wire; encoders, decoders, the clock and random values are
parameters.

Functions: `_prepare_generalinfo`, `patch_generalinfo`, `add_general_info_values`, `find_oid_in_general_info`, `check_implicitconfirm_in_generalinfo`, `check_confirmwaittime_in_generalinfo`, `check_certprofile_in_generalinfo`, `check_generalinfo_field`, `_get_cert_profile_msg_size`, `validate_cert_profile_for_ca`, `validate_general_info`.

### `Verif/Ra/General.lean`

The mock CA's answers to general messages (49 definitions).

Model of `mock_ca/general_msg_handler.py` (`GeneralMessageHandler`) and of the part of `mock_ca/ca_handler.py`
(759-766, 813-844) which calls it.

* An `InfoTypeAndValue` is its OID and, if present, the DER bytes of its value.
* Decoding, encoding, the opening of enveloped data, the signing of CRLs, encapsulation and the clock are parameters
  (`GenEnv`).  A decoder returns the decoded value and the bytes left over, or `none` where pyasn1 raises.
* The texts shown to the user are shortened.
* The header of the response (`set_ca_header_fields`, `prepare_pki_message`) is not part of this model; the texts given
  to it are.

Functions: `rfc9480.id_it`, `ABSENT_INFO_TYPES`, `process_absent_info_type`, `_try_decode_mock_ca`, `compare_general_name_and_name`, `find_name_inside_general_names`, `_process_crl_status`, `process_crl_update_retrieval`, `_process_cert_profile`, `_process_implicit_confirm`, `_process_key_pair_param_req`, `process_supp_lang_tags`, `_process_root_ca_cert`, `_process_kem_ciphertext_info`, `add_shared_secert`, `_process_ca_prot_enc_cert`, `process_rev_passphrase`, `_process_general_message_entry`, `process_general_msg`, `patch_genp_message_for_extra_certs`, `build_genp_kem_ct_info_from_genm`, `process_genm`.

### `Verif/Ra/GeneralClient.lean`

The validation of general responses by the test suite (40 definitions).

Model of the `validate_*` keywords of `resources/general_msg_utils.py`.  (The update of the root certificate is the
subject of `Verif.Ra.RootCa`.)  Decoding, the building and verification of chains, the linters and decapsulation are
parameters.

Functions: `validate_general_response`, `get_value_from_seq_of_info_value_field`, `validate_get_ca_certs`, `_validate_id_reg_ctrl_alg_id`, `_get_type_inside_controls`, `check_controls_for_cert_temp`, `_check_cert_template_for_cert_temp_req`, `validate_get_certificate_request_template`, `_validate_crls`, `validate_crl_update_retrieval`, `validate_current_crl`, `validate_encr_and_key_agreement_types`, `validate_signing_key_types`, `validate_preferred_sym_alg`, `validate_supported_language_tags`, `validate_revocation_passphrase_response`, `validate_genp_kem_ct_info`, `validate_ca_protocol_encr_cert`.

### `Verif/Ra/GeneralExamples.lean`

Examples for the general messages (8 definitions).

The name of the root CA is 7, its certificate 1; enveloped data is opened by adding a byte.

### `Verif/Ra/GenmBuild.lean`

The general messages built by the client (8 definitions).

Model of `resources/general_msg_utils.py` 870-967 (`build_cmp_general_message`) and 1736-1779 (`_append_messages`) with
the functions which prepare the single entries.

* The random value of an entry is the parameter `rnd` (by type); the encoding of language tags is a parameter.
* `prepare_crl_update_retrieval` is a parameter with its outcome.
* `str.strip()` is modelled for texts whose only white space is the blank.
* The header (`prepare_pki_message`) is not part of this model.

Functions: `prepare_info_type_and_value`, `_prepare_get_root_ca_cert_update`, `prepare_supported_language_tags`, `_append_messages`, `build_cmp_general_message`.

### `Verif/Ra/Granted.lean`

What a test says about modified certificates and about a `pkiConf` (resources/checkutils.py 1841-1989) (5 definitions).

The comparison of a template with a certificate is that of `Verif/Check/Template.lean`, the comparison of protections that
of `Verif/Prot/Match.lean`. Logging is left out; indices are natural numbers.

Functions: `check_for_granted_with_mods`, `validate_pki_confirmation_message`.

### `Verif/Ra/Handler.lean`

The certificate requests of the Mock CA (mock_ca/cert_req_handler.py, resources/ca_ra_utils.py) (14 definitions).

What `CertReqHandler` gives to the functions of `ca_ra_utils.py`: for an `ir` all its parameters (`issuing_params`,
160-172), for a `cr` only its certificate, its key and the extensions.

Functions: `process_ir`, `process_cr`, `handle_cross_cert_req`, `_validate_subject_field_for_cert_request`, `build_cert_from_csr`, `process_p10cr`, `check_if_used`.

### `Verif/Ra/Header.lean`

Headers of the messages of a transaction (resources/ca_ra_utils.py 2214-2241, resources/cmputils.py 113-280, 3275-3323) (11 definitions).

Random values are arguments. Simplified: no fields are excluded, names are not parsed, and the fields `messageTime`,
`generalInfo` and `freeText` are not modelled. The changes for MAC protection (267-278) are not modelled.

Functions: `r2`, `set_ca_header_fields`, `prepare_pki_message`, `extract_fields_for_exchange`.

### `Verif/Ra/KemCt.lean`

The entries with a KEM ciphertext (6 definitions).

Model of `resources/general_msg_utils.py` 1558-1616 (`_prepare_kem_ct_info`, the keyword `Prepare KemCiphertextInfo`).

* The KEM, the encodings, the random bytes and the manipulation of a ciphertext are parameters.
* Python's pair has no types: each place of the result is a secret or an entry (`Part`).

Functions: `_prepare_kem_ct_info`.

### `Verif/Ra/Migration.lean`

Checks of cross-signed certificates and of certificates with migrated algorithms (24 definitions).

Model of `resources/certutils.py`: `is_ca_cert` (2341-2363), `_validate_key_identifiers` (2366-2390),
`_validate_cross_signed_cert` (2393-2438), `validate_ca_cross_signed_cert` (2442-2483), `validate_migration_alg_id`
(2006-2042), `validate_migration_certificate_key_usage` (2046-2091), `_validate_oid_in_cert_stfl` (2094-2110),
`validate_migration_oid_in_certificate` (2125-2170).

External: the decoding of extensions, loading of keys and verification of signatures. pyasn1: the field `cA` of
BasicConstraints has a default, so that its `isValue` is true whatever its value is; a Sequence is never equal to an
octet text; absent extensions of a template are iterated as no extension.

Functions: `is_ca_cert`, `_validate_key_identifiers`, `_validate_cross_signed_cert`, `validate_ca_cross_signed_cert`, `HYBRID_NAME_2_OID`, `validate_migration_alg_id`, `sig_usages`, `ml_dsa_disallowed`, `validate_migration_certificate_key_usage`, `_validate_oid_in_cert_stfl`, `validate_migration_oid_in_certificate`.

### `Verif/Ra/NameBuild.lean`

Names for negative tests and the check of names (resources/prepareutils.py, certbuildutils.py) (23 definitions).

* `resources/prepareutils.py` 41-99: `prepare_name`, `parse_common_name_from_str`;
* `resources/prepareutils.py` 292-490: the relative distinguished names with wrong sizes, and their check;
* `resources/certbuildutils.py` 1667-1682: `_validate_name`;
* `resources/oidutils.py` 853-928, `resources/asn1_structures.py` 464-560: the tables.

A value is modelled by the kind of its string, its text and whether data follow; the check is modelled for values as they are
read from DER. The upper bounds that are imported from `pkilint` (business category, postal code, street address, organization
identifier) are those of X.520 and are written here as numbers.

Functions: `_get_bad_min_or_max_size`, `_prepare_attr_and_type_value`, `prepare_relative_distinguished_name`, `validate_relative_name_for_correct_data_types`, `_validate_name`, `parse_common_name_from_str`.

### `Verif/Ra/OpensslRun.lean`

The checks that are left to the `openssl` program (resources/certutils.py) (50 definitions).

`verify_cert_chain_openssl` (978-1049) with its helpers (707-975), `verify_openssl_crl` (1264-1307) and
`validate_ocsp_status_openssl` (2210-2337).

The file system is part of the model: the functions write the certificates into files and name these files on the command
line. `C` stands for a certificate, `D` for the bytes of a downloaded or stored CRL. Parameters (`Env`): what the program
answers to a command line, given the file system; the CRL addresses of a certificate; what a download yields; the two CRL
parsers.

Simplifications: paths are compared as strings, the directory `data` exists, writing succeeds, and the temporary files into
which downloads are stored are represented by their contents, in order. Logging is left out.

Functions: `_verify_less_then_three_certificates`, `_verify_more_certs_than_three`, `_verify_certificate_chain`, `_get_crls_from_certs`, `ensure_is_pem_crl`, `_fetch_crls`, `_get_crl_filepath_for_verification`, `verify_cert_chain_openssl`, `_write_temp_cert`.

### `Verif/Ra/PrivPop.lean`

Proofs of possession for keys that cannot sign: the client's side and the opening by the CA (40 definitions).

`resources/extra_issuing_logic.py`: `prepare_pkmac_popo`, `prepare_enc_key_with_id`, `prepare_kem_env_data_for_popo`,
`prepare_key_agreement_popo`, `validate_kemri_rid_for_encrypted_cert`, `get_enc_cert_from_pkimessage`;
`resources/envdatautils.py`: `prepare_enc_key_for_popo`; `resources/ca_kga_logic.py`: `validate_kemri_env_data_for_ca`;
`resources/ca_ra_utils.py`: the opening in `process_encrypted_key` and `verify_encrypted_key_popo`.

Texts for keys, salts and secrets are taken as bytes after `str_to_bytes`. The salt, hash and iterations of a MAC are part
of `newAlg`. Random values are arguments. Reading `extraCerts[0]` of a message without certificates creates an empty
certificate; here there is none, and what would be refused with another error is refused with `ValueError`.

Functions: `_compute_ss`, `_prepare_pkmac_val`, `prepare_pkmac_popo`, `prepare_key_agreement_popo`, `prepare_enc_key_with_id`, `parse_encrypted_key_for_popo`, `prepare_kem_env_data_for_popo`, `_prepare_rid_for_enc_key`, `prepare_enc_key_for_popo`, `validate_kemri_env_data_for_ca`, `verify_encrypted_key_popo`, `get_enc_cert_from_pkimessage`, `validate_kemri_rid_for_encrypted_cert`.

### `Verif/Ra/ProtCheck.lean`

The verification of the protection by the Mock CA (mock_ca/prot_handler.py 193-209, 496-570, 631-756 and 758-805; resources/utils.py 1094-1149; resources/convertutils.py 236-252; resources/checkutils.py 2510-2540; resources/certbuildutils.py 3438-3518) (27 definitions).

Parameters: the verification of the MAC or signature itself (`resources/protectionutils.py`, modelled in `Verif/Prot`), the
shared secret of a certificate, the bookkeeping of stateful signatures (modelled in `Verif/CA/Stfl.lean`), the certificates
of the chain and the trust stores (`Verif/Check/Chain.lean`), the decoding of an extension and of a time.

Simplified: logging and the texts and details of exceptions are left out; the names of the algorithms are given (`name` is
`may_return_oid_to_name` of the OID).

Functions: `str_to_bytes`, `expand_string_to_length`, `get_password_in_size`, `_may_expand_password`, `validate_wrong_integrity`, `validate_mac_protection`, `verify_dh_based_mac_protection`, `validate_signer_for_ccr`, `validate_signature_protection`, `validate_protection`, `validate_private_key_usage_period`.

### `Verif/Ra/ReqBuild.lean`

Requests of the client (resources/cmputils.py) (41 definitions).

Of the header only `pvno` is here; `prepare_pki_message` is modelled in `Verif.Ra.Build`. The field `poposkInput` is not
modelled, so the argument `sender` of the functions for the proof is absent. An index outside of the list of requests
is an `IndexError`, as in `Verif.Ra.Request`.

Functions: `prepare_popo_challenge_for_non_signing_key`, `prepare_sig_popo_structure`, `prepare_signature_popo`, `_prepare_poposigningkey`, `prepare_popo`, `prepare_cert_request`, `prepare_cert_req_msg`, `_parse_pvno`, `_prepare_cert_req_msg_body`, `_prepare_build_cert_req_msgs_pkimessage`, `build_ir_from_key`, `build_cr_from_key`, `build_krr_from_key`, `build_ccr_from_key`, `build_ir_from_csr`, `build_cr_from_csr`, `build_ccr_from_csr`, `build_key_update_request`, `add_reg_info_to_pkimessage`, `add_controls_to_pkimessage`, `add_extensions_to_pkimessage`, `update_popo`.

### `Verif/Ra/ReqTmpl.lean`

Certificate templates and controls of the client (resources/certbuildutils.py, resources/cmputils.py) (37 definitions).

Keys, the encoding of keys, the text of names and its parsing are parameters. Times are abstract: which alternative of
`Time` is used is not modelled. Lists of the caller that are changed by a function are returned beside its result.

Functions: `_prepare_name_obj`, `_prepare_extensions_for_cert_template`, `_prepare_optional_validity`, `_prepare_public_key_for_cert_template`, `prepare_cert_template`, `prepare_cert_template_from_csr`, `prepare_old_cert_id_control`, `prepare_controls_structure`, `prepare_pkiarchiveoptions_controls`, `prepare_protocol_encryption_key_control`.

### `Verif/Ra/Request.lean`

Processing of certificate requests by the CA (resources/ca_ra_utils.py) (63 definitions).

The encodings, the keys and the signing of certificates are parameters. An index outside of the list of requests, for
which pyasn1 makes an empty element, is an `IndexError` here; the index is one of the list in all calls in the suite.

Functions: `load_public_key_from_cert_template`, `get_cert_req_msg_from_pkimessage`, `get_public_key_from_cert_req_msg`, `_get_kga_key_from_cert_template`, `check_if_request_is_for_kga`, `_verify_pop_signature`, `verify_sig_pop_for_pki_request`, `_verify_ra_verified`, `verify_popo_for_cert_request`, `validate_cert_template_public_key`, `_validate_cert_request_reg_info`, `validate_cert_req_inside_reg_info`, `_check_unique_controls`, `validate_reg_info_field`, `validate_enc_key_with_id`, `process_encrypted_key`, `_process_agree_mac_key_agreement`, `respond_to_key_agreement_request`, `prepare_encr_cert_from_request`, `respond_to_key_encipherment_request`, `respond_to_cert_req_msg`, `_process_one_cert_request`, `prepare_cert_or_enc_cert`, `_process_cert_requests`, `validate_cert_req_id_nums`, `enforce_lwcmp_for_ca`, `get_response_body_type`.

### `Verif/Ra/RespBuild.lean`

How the CA builds its responses (resources/ca_ra_utils.py 2186-2210, 2487-2508, 2550-2660, 2721-2829, 2848-2934, 3284-3334, 4713-4777, 4781-4856, resources/cmputils.py 351-408) (45 definitions).

The header is the one of `Verif.Ra.Header`.  How certificates are issued for a request is given by the environment
(`Verif.Ra.Request` for lists of requests).  Certificates which are given are not empty, encrypted ones and private keys
are in an `EnvelopedData`, and `rspInfo` is not modelled.

Functions: `_prepare_pki_free_text`, `prepare_pkistatusinfo`, `prepare_cert_or_enc_cert`, `prepare_certified_key_pair`, `prepare_cert_response`, `prepare_ca_body`, `get_correct_ca_body_name`, `get_response_body_type`, `_build_ca_cert_response_body`, `build_ca_message`, `build_cp_cmp_message`, `build_ip_cmp_message`, `build_unsuccessful_ca_cert_response`.

### `Verif/Ra/RevReq.lean`

Revocation requests of the client (resources/cmputils.py) (19 definitions).

Names are those of `Verif.Check.Helpers`, extensions those of `Verif.Check.Template` (the flag `critical`, which the
CA does not read, is dropped). The header of the message is that of `Verif.Ra.Build`.

Functions: `_prepare_crl_reason_extension`, `prepare_crl_reason_extensions`, `prepare_rev_details`, `prepare_rev_req_content`, `build_cmp_revoke_request`, `build_cmp_revive_request`.

### `Verif/Ra/Revoked.lean`

Revocation checks of the client: OCSP, CRLs, and the signer of a CRL (35 definitions).

Model of `resources/certutils.py`:

* `get_ocsp_url_from_cert` (1416-1442), `create_ocsp_request` (1446-1476), `check_ocsp_response` (1493-1526),
  `_post_ocsp_request` (1529-1563), `_handel_single_ocsp_request` (1566-1594), `check_ocsp_response_for_cert` (1598-1664);
* `_extract_crl_urls_from_cert_pyasn1` (1772-1792), `_parse_crl_and_check_revocation` (1795-1819),
  `process_single_crl_check` (1823-1846), `check_if_cert_is_revoked_crl` (1850-1901);
* `validate_if_certificate_is_revoked` (1905-2002);
* `find_crl_signer_cert` (1311-1357), `build_crl_chain_from_list` (1361-1399).

External (parameters of `RevEnv`): the HTTP exchange, the file system, the parsers of OCSP responses and of CRLs, the
conversion of certificates to the library's class and the building of the request. Simplified: a parsed extension is
given as the list of its entries; timeouts are not modelled; `OSError` and `ExtensionNotFound` are `PyErr.exception`;
the message of a `ValueError` is kept only as far as `validate_if_certificate_is_revoked` reads it (which state it
names), so an address containing the text "`revoked`" in back quotes is not covered.

Functions: `get_ocsp_url_from_cert`, `create_ocsp_request`, `check_ocsp_response`, `_post_ocsp_request`, `_handel_single_ocsp_request`, `check_ocsp_response_for_cert`, `_extract_crl_urls_from_cert_pyasn1`, `_parse_crl_and_check_revocation`, `process_single_crl_check`, `check_if_cert_is_revoked_crl`, `validate_if_certificate_is_revoked`, `find_crl_signer_cert`, `build_crl_chain_from_list`.

### `Verif/Ra/RootCa.lean`

The hash of a root certificate, updates of a root key and validity periods (30 definitions).

`prepare_oob_cert_hash`, `validate_oob_cert_hash`, `prepare_new_ca_certificate`, `prepare_old_with_new_cert`,
`prepare_new_root_ca_certificate` (resources/ca_ra_utils.py), `validate_get_root_ca_cert_update`,
`process_root_ca_update`, `validate_root_ca_key_update_value_structure` (resources/general_msg_utils.py),
`default_validity` and `prepare_validity` (resources/certbuildutils.py).

Hashes, encodings, signatures, the random serial number and pkilint are parameters.

Functions: `prepare_oob_cert_hash`, `validate_oob_cert_hash`, `sign_cert`, `prepare_new_ca_certificate`, `prepare_old_with_new_cert`, `prepare_new_root_ca_certificate`, `check_is_cert_signer`, `validate_root_ca_key_update_value_structure`, `process_root_ca_update`, `prepare_validity`, `default_validity`.

### `Verif/Ra/Sender.lean`

Sender and senderKID of protected messages (resources/checkutils.py 311-460, 577-708, resources/utils.py 407-451, resources/compareutils.py 446-497, mock_ca/cert_req_handler.py 517-526, 551-617) (25 definitions).

Values of attributes are decoded by the environment.  A certificate which is not there is one with an empty subject and
without extensions: pyasn1 instantiates it.  Logging is left out.

Functions: `PYASN1_CM_OID_2_NAME`, `get_openssl_name_notation`, `_verify_sender_field_for_mac`, `compare_general_name_and_name`, `check_sender_cmp_protection`, `_verify_senderkid_for_mac`, `validate_senderkid_for_cmp_protection`, `check_signer`, `check_message_time`, `validate_header`.

### `Verif/Ra/SigAlg.lean`

Algorithm identifiers of signatures and keys (30 definitions).

* `resources/keyutils.py` 684-794: `_check_trad_sig_alg_id`, `check_consistency_sig_alg_id_and_key`;
* `resources/checkutils.py` 711-780, 911-1105: `check_pkimessage_signature_protection`,
  `_validate_composite_sig_conform_to_spki`, `_check_pq_sig_conform_to_spki`, `check_protection_alg_conform_to_spki`,
  `check_protection_alg_field`.

The tables of OIDs are those of the code (`oidutils.py`, `tmp_oids.py`).

Simplified: keys are represented by what the functions read (class, name, OID); two algorithm identifiers are equal if OID
and parameters are (comparing an instantiated absent field raises an error in pyasn1, which the code turns into
"different"); the verification of signatures is a parameter, with a function for PKCS #1 v1.5 and one for the algorithm of
the message.

Functions: `sig_algorithms_oid`, `PQ_SIG_PRE_HASH_OID_2_NAME`, `PQ_SIG_OID_2_NAME`, `PQ_STATEFUL_HASH_SIG_NAME_2_OID`, `id_kem_test_suite`, `PQ_KEM_NAME_2_OID`, `PQ_OID_2_NAME`, `TRAD_SIG_OID_2_NAME`, `COMPOSITE_SIG_OID_TO_NAME`, `get_hash_from_oid`, `_check_trad_sig_alg_id`, `check_consistency_sig_alg_id_and_key`, `ECDSA_SHA_OID_2_NAME`, `_validate_composite_sig_conform_to_spki`, `_check_pq_sig_conform_to_spki`, `check_protection_alg_conform_to_spki`, `check_protection_alg_field`, `check_pkimessage_signature_protection`.

### `Verif/Ra/SignOid.lean`

The algorithm of a signature from key and hash (29 definitions).

* `resources/oid_mapping.py` 50-102, 189-231, 275-308: `get_signing_oid`, `get_alg_oid_from_key_hash`,
  `get_digest_hash_alg_from_alg_id`;
* `resources/prepare_alg_ids.py` 637-765: `prepare_rsa_pss_alg_id`, `prepare_sig_alg_id`;
* `pq_logic/keys/sig_keys.py` 143-163, 469-485, 830-842: `check_hash_alg`;
* `resources/keyutils.py` 1361-1407: `get_digest_alg_for_cmp`;
* `resources/envdatautils.py` 2175-2221: `get_digest_from_key_hash`.

Simplified: a key is given by its class and name (`SigKey`); the random parameters are not given by their bytes; the names
of MACs, which `get_signing_oid` looks the class of the key up in at the end, do not occur as classes, so that this lookup
finds nothing.

Functions: `extra_data`, `get_signing_oid`, `get_alg_oid_from_key_hash`, `prepare_rsa_pss_alg_id`, `prepare_sig_alg_id`, `get_digest_hash_alg_from_alg_id`, `get_digest_alg_for_cmp`, `get_digest_from_key_hash`.

### `Verif/Ra/Status.lean`

What a test says about the status of a response (resources/cmputils.py 3726-3909, 5070-5243, resources/asn1utils.py 455-535, resources/keywords.resource 539-562, 1328-1395) (33 definitions).

Texts are stripped of blanks only, not of other white space; indices are natural numbers, and digits are `0` to `9`.

Functions: `get_cmp_message_type`, `get_pkistatusinfo`, `is_bit_set`, `verify_pkistatusinfo`, `get_status_from_pkimessage`, `verify_statusstring`, `get_cert_response_from_pkimessage`, `get_certreqid_from_pkimessage`, `get_cert_from_pkimessage`.

### `Verif/Ra/Update.lean`

Key update requests and cross-certification requests (resources/ca_ra_utils.py, mock_ca/cert_req_handler.py) (26 definitions).

The encodings of controls and the reading of templates are parameters. The list of certificates of a message may be
empty; pyasn1 makes an empty element for an index outside of it, which is then refused.

Functions: `_validate_old_cert_id`, `validate_kur_controls`, `_validate_popo_kur`, `build_kga_cmp_response`, `build_kup_from_kur`, `check_signer_is_a_issued_cert`, `process_kur`, `_validate_ccr_cert_template`, `_ensure_key_usage`, `_ensure_basic_constraints`, `_process_crr_single`, `build_ccp_from_ccr`.

### `Verif/Ra/Utf8Pairs.lean`

The pairs of names and values in `regInfo` (resources/cmputils.py) (25 definitions).

A text is the list of its characters. `str.isdigit` and the DER encoding of a `UTF8String` are parameters; the rest,
the percent encoding of `urllib.parse` included, is modelled. Surrogates, for which `quote` fails, are no characters
of Lean. The value of an attribute is its DER encoding, as it is after a message has been sent.

## 4. Disagreements between code and claim

Every entry is a theorem; its file is given. The claim that remains true of the code is in the theorems of the
manifest that are not listed here.

**C02. A revoked certificate stays on the revocation list until revived.** Claim: Once change_cert_state(cert, REVOKED) succeeded, revoked_certs keeps listing the certificate until a change_cert_state(cert, REVIVED) succeeds, whatever other calls happen in between.

* `C02_refuted` (`Verif/CA/CertDBProps.lean`): A revoked certificate leaves the revocation list through a key update (`change_cert_state(cert, UPDATED, updated_cert=...)`), without any revival.

  Status `partial`: false of the code: an UPDATED request turns a REVOKED entry into UPDATED; the partial theorem assumes no update call for the certificate

**C11. CRL contents and CRL numbers.** Claim: A CRL returned by the CA lists exactly the serial numbers of the revoked and the updated certificates, and each newly issued CRL carries a strictly larger crlNumber than every earlier one.

* `C11_db_number_constant_refuted` (`Verif/CA/RevListProps.lean`): Whatever happens to the database between two CRLs, both carry the same number.
* `C11_served_crl_refuted` (`Verif/CA/DispatchProps.lean`): The CRL the server hands out is always empty: after any history of requests, whatever was revoked, it lists no serial number.

  Status `partial`: false through CertificateDB: a new CertRevStateDB is built per request, so the CRL number is constant; the CRL the CA serves is built from a state database that no request writes, so it is always empty; proved for one CertRevStateDB

**C12. Revoked (compromised) keys are not certified again.** Claim: check_request_for_compromised_key answers True for every certification request (ir, cr, kur, ccr, p10cr) in which at least one requested public key is the key of a revoked certificate, or a component of a revoked hybrid key.

* `C12_ccr_refuted` (`Verif/CA/RevListProps.lean`): A `ccr` for a revoked key passes.
* `C12_keyless_refuted` (`Verif/CA/RevListProps.lean`): In an `ir` the template after a key-less one is not checked.

  Status `partial`: false of the code for ccr bodies and when an earlier stored certificate has no comparable key

**C13. Newly issued serial numbers are unique.** Claim: The serial number chosen by the CA for a new certificate differs from the serial number of every certificate issued before.

* `C13_requested_serial_refuted` (`Verif/CA/SerialProps.lean`): The requester chooses the number: a `CertTemplate` with the number of any certificate already issued is certified under that number, in every state, whatever the random generator does; a search by number still finds the older certificate.
* `C13_other_serials_refuted` (`Verif/CA/SerialProps.lean`): Only the Sun-hybrid certificates are consulted: if the next draw is the number of another certificate of the CA, it is used again.
* `C13_sun_collision_refuted` (`Verif/CA/SerialProps.lean`): If 100 draws collide, a Sun-hybrid request does not fail: it is certified under a number in use, and the dictionary entry of the older certificate is overwritten, so that its download address delivers the new one.

  Status `partial`: False of the code: the requester may name any serial number in the template, only Sun-hybrid certificates are consulted, and after 100 collisions a used number is returned. Proved: the exact outcome of both loops, and uniqueness over all histories if no requester names a number and the random generator does not repeat itself.

**C15. Batched requests are answered one for one, in order.** Claim: process_batched_request returns a nested response whose i-th element answers the i-th inner request; it either contains only certConf messages or none; if an inner message fails the whole call fails, but the effects of the earlier inner messages remain.

* `C15_wrapped_mixed_refuted` (`Verif/CA/NestedProps.lean`): A batch need not contain only confirmations or none: a wrapped confirmation is accepted beside an initial request, and both are answered.

  Status `partial`: Order, one-for-one answers and the exact failure behaviour are proved. False of the code: a certConf wrapped in a nested message is accepted beside other requests.

**C17. Nested responses answer every inner request.** Claim: validate_ids_and_nonces_for_nested_response raises unless every inner request has an inner response with the matching transactionID and nonce and an allowed body type.

* `C17_refuted` (`Verif/Check/HeaderProps.lean`): A batch of two `ir` whose first one is never answered is accepted.
* `C17_rr_refuted` (`Verif/Check/HeaderProps.lean`): A batch containing an `rr` with a correct `rp` answer raises `KeyError`.

  Status `partial`: false of the code: the dictionary of requests is keyed by body type, so only the last request of each type is checked, and rr, ccr, certConf raise KeyError

**C23. One key, one subject per request.** Claim: check_same_key_cert_request / contains_pub_key detect every public key already bound to another certificate known to the CA.

* `C23_other_subject_refuted` (`Verif/CA/RevListProps.lean`): A key certified for subject 1 is not found when subject 2 asks.
* `C23_pending_update_refuted` (`Verif/CA/RevListProps.lean`): A key of a certificate whose update is pending is not found, on a reachable database.

  Status `partial`: false of the code: key reuse by another subject and keys of unconfirmed updates are not detected

**C24. Request dispatch order of the mock CA.** Claim: process_normal_request never issues, confirms or revokes anything for a message that fails the revocation check, the protection check, the compromised-key check or the open-confirmation check, and every exception becomes an error message instead of a reply of the requested kind.

* `C24_compromised_check_idle_refuted` (`Verif/CA/DispatchProps.lean`): The compromised-key check never refuses anything: after any history of requests, whatever the handlers did and whatever was revoked, `_check_for_compromised_key` does not raise `BadCertTemplate`.
* `C24_dh_uncaught_refuted` (`Verif/CA/DispatchProps.lean`): Not every exception becomes an error message: a DH protected message whose first extra certificate has no ECDH key leaves the dispatcher with an exception (the client gets a plain text HTTP 500), whatever is wrong with it, because protecting the error message raises the same exception again.
* `C24_kem_challenge_refuted` (`Verif/CA/DispatchProps.lean`): A KEM protected ir or cr with a challenge is answered without marking the shared secret as used: the list of secrets afterwards is the one the challenge handler left.
* `C24_revoked_key_certified_refuted` (`Verif/CA/DispatchProps.lean`): After the only certificate has been revoked for `keyCompromise`, the served CRL is empty, and a request for a certificate with the compromised key is not refused.
* `C24_ccr_key_refuted` (`Verif/CA/DispatchProps.lean`): Even if the list of compromised keys were maintained, a ccr would not be checked against it: the check is made for a body name `crr`.

  Status `partial`: Proved: an effect implies that every check of the message passed, and every caught exception is answered with an error or a rejection. False of the code: the compromised-key check reads a database that is never written, ccr messages skip it, and the DH and KEM paths have exceptions that are not caught.

**C25. Response header validation accepts only matching exchanges.** Claim: validate_transaction_id and validate_sender_and_recipient_nonce accept a response iff its transactionID is 16 bytes and equals the request's, its recipNonce equals the request's senderNonce and both nonces have at least max(128, nonce_sec) bits.

* `C25_rounding_refuted` (`Verif/Check/HeaderProps.lean`): With `nonce_sec = 135` nonces of 128 bits are accepted.

  Status `partial`: false for nonce_sec not divisible by 8 (rounded down); proved for all multiples of 8, including the default, and exactly characterised for all values

**C48. ML-DSA verification rejects malformed signatures.** Claim: verify_internal returns False for every signature of a wrong length, every non-canonical hint and every response vector with a coefficient of absolute value at least gamma1 - beta.

* `C48_longer_accepted_refuted` (`Verif/PQ/Fips204Props.lean`): C48 is false of the code: a signature with an extra byte is accepted.

  Status `partial`: false of the code: signatures with extra trailing bytes are accepted; everything else about acceptance is proved

**C55. SLH-DSA pre-hash signatures verify.** Claim: A signature made with hash_slh_sign for a pre-hash name is accepted by the pre-hash verification for the same name, message and context.

* `C55_prehash_refuted` (`Verif/PQ/Fips205Props.lean`): C55 is false of the code: `hash_slh_sign` knows only lower-case names and the verification only upper-case ones. For every name either signing returns `None` or verification raises `ValueError`, whatever the key, message, context and signature.

  Status `partial`: false of the code: hash_slh_sign knows lower-case names only, the verification upper-case ones only, and hash_slh_sign swaps key and message

**C70. Composite signatures need both components.** Claim: CompositeSigPublicKey.verify succeeds only if the ML-DSA part and the traditional part both verify over the same domain-separated input, and the input determines the context and the pre-hash.

* `C70_sign_verify_refuted` (`Verif/PQ/CompSigProps.lean`): C70 is false for RSA keys of other sizes: the private key rounds the size and signs, the public key refuses.

  Status `partial`: verification is exactly that of the draft; false of the code: an RSA key of another size signs (its size is rounded), but its public key refuses every signature

**C71. Composite KEM shared secrets agree and follow the selected KDF.** Claim: decaps(encaps) returns the encapsulated secret whenever both component KEMs do, and the combiner uses the KDF named by the algorithm (HKDF variants included).

* `C71_cms_kdf_refuted` (`Verif/PQ/HybridProps.lean`): C71 is false in CMS use: the branch for HKDF is never taken and SHA3-256 is used for every algorithm.
* `C71_oids_refuted` (`Verif/PQ/HybridProps.lean`): C71. A composite private key whose RSA modulus has an unusual bit length rounds to a table entry for the private key, while its public key has no such identifier.

  Status `partial`: agreement and binding proved; false of the code: with use_in_cms the KDF of the algorithm is never used, and RSA keys of other sizes give a private key whose public key has no identifier

**C72. X-Wing decapsulation.** Claim: decaps returns the encapsulated secret whenever ML-KEM and X25519 agree, and the ciphertext accepted for a shared secret is unique as a byte string.

* `C72_unique_refuted` (`Verif/PQ/HybridProps.lean`): C72 is false of the code: the slice `ct[1088:1120]` drops trailing bytes.

  Status `partial`: agreement proved; false of the code: bytes after the 1120th are ignored by decaps; among ciphertexts of 1120 bytes the X25519 part is unique up to SHA3 collisions

**C73. Chempat context identifies the algorithm combination.** Claim: decaps inverts encaps whenever the component KEMs do, and two different algorithm combinations never share a Chempat context string.

* `C73_context_refuted` (`Verif/PQ/HybridProps.lean`): C73 is false: the AES and SHAKE variants of FrodoKEM, with different object identifiers, share their contexts.

  Status `partial`: agreement and binding proved; false of the code: the AES and SHAKE variants of FrodoKEM share their context, which is the only exception

**C74. RSA-KEM round trip.** Claim: RSAKem.decaps(encaps) returns the same secret for every RSA key with distinct primes and e*d = 1 mod lcm/phi, and out-of-range or wrong-length ciphertexts are rejected.

* `C74_large_rand_refuted` (`Verif/PQ/KemMechProps.lean`): C74 is false if the argument `rand` is not below the modulus: `encaps` does not reduce it before it encodes the secret. With the modulus 33 and `rand = 40` the sender gets 40 and the receiver 7.

  Status `proved`: for random values below the modulus, which is what the code draws; C74_large_rand_refuted shows that an explicit rand argument above the modulus breaks the agreement

**C76. HSS signature index identifies the one-time key.** Claim: compute_hss_signature_index maps the per-level leaf numbers injectively to 0..total-1 in signing order, so two signatures with the same index used the same one-time keys; the bottom-level leaf index alone does not.

* `C76_leaf_index_refuted` (`Verif/PQ/StatefulProps.lean`): For every parameter set and every key of two or more levels two different one-time keys have the same bottom leaf number.

  Status `proved`: The combined index numbers the signatures in signing order. The bottom leaf number alone, which return_lms_index selects, is shown not to identify a signature.

**C77. HSS level validation enforces uniform parameters when asked to.** Claim: validate_hss_key_levels with enforcement enabled rejects every key whose levels use different LMS/LM-OTS parameters; more than eight or zero levels are always rejected.

* `C77_enforcement_refuted` (`Verif/PQ/StatefulProps.lean`): With enforcement enabled, a key whose second level uses another hash function, another digest size and another Winternitz parameter is accepted; without enforcement it is rejected.
* `C77_heights_refuted` (`Verif/PQ/StatefulProps.lean`): Neither setting rejects levels whose trees have different heights.

  Status `partial`: False of the code: the enforcement flag is inverted (mixed levels pass when enforcement is asked for) and heights are never compared. Proved: what each flag value accepts, the depth limits, and that a loaded key passes exactly with one to eight levels.

**C78. NIST approval filter for XMSS/XMSS^MT.** Claim: is_nist_approved_xmss / is_nist_approved_xmssmt reject every algorithm that is listed as not approved, i.e. the original RFC 8391 SHAKE and 512-bit sets.

* `C78_list_refuted` (`Verif/PQ/StatefulLoadProps.lean`): It omits the sixteen original SHAKE sets, which are not approved, and its last eight entries are names that no identifier has.

  Status `partial`: The filter accepts exactly the SP 800-208 sets. The list XMSSMT_NOT_APPROVED itself misses sixteen sets and has eight names that no set carries.

**C80. Distinguished-name comparison modes.** Claim: compare_pyasn1_names: strict and without_tag are equality of the encodings; contains answers True iff all attributes of name2 occur in name1; contains_seq additionally at the same RDN positions.

* `C80_contains_refuted` (`Verif/Check/HelpersProps.lean`): The documented direction ("all attributes in name2 are present in name1") is inverted, both ways.

  Status `partial`: false of the code for contains and contains_seq: the direction is inverted

**C81. Negative-test manipulations really change the data.** Claim: manipulate_first_byte returns a byte string of the same length that differs from every non-empty input in exactly the first byte; the stateful-signature manipulation writes an index that the verifier reads back.

* `C81_index_refuted` (`Verif/Check/HelpersProps.lean`): Writing index 1 into an XMSS signature makes the verifier read 16777216.
* `C81_default_index_in_range_refuted` (`Verif/Check/HelpersProps.lean`): A default ("maximum") index of 2^16 or 2^20 (`XMSSPrivateKey.max_sig_size`, the liboqs value `sigs_total()`, for trees of height 16 and 20) is read back as an index that is inside the tree, so the manipulation does not produce an exhausted index.

  Status `partial`: the index is written little-endian and read big-endian

**C83. Response body types match the request.** Claim: validate_cmp_body_types accepts a response iff its body type is the one belonging to the request's body type, or `error` when errors are allowed or required; for batches this holds element-wise.

* `C83_protected_batch_unanswerable_refuted` (`Verif/Check/HeaderProps.lean`): C83 corollary: an added protection around a batch of two or more messages has no correct nested answer (the checker refuses every `nested` response to a one-element nested request).

**C84. Certificate chain order in extraCerts.** Claim: check_single_chain_is_ordered answers True only if each chain certificate is directly followed by its issuer in extraCerts or the issuer occurs earlier.

* `C84_refuted` (`Verif/Check/HeaderProps.lean`): The chain 10, 20, 30 is reported as ordered although 30 (position 3) neither directly follows 20 (position 0) nor precedes it.

  Status `partial`: false of the code after an issuer that occurred earlier: the running index is incremented instead of set; no ordered chain is rejected

**C86. A certificate the client rejects is not confirmed.** Claim: If the certConf message reports status `rejection` for the issued certificate, processing it does not move the certificate to CONFIRMED.

* `C86_rejection_confirms_refuted` (`Verif/CA/CertConfProps.lean`): A certConf with status `rejection` confirms the certificate.

  Status `partial`: false of the code; the negation is proved for every accepted certConf

**C87. Every stateful-signature protected message has its index checked.** Claim: Whatever the body type of a message protected by a stateful hash-based signature, the mock CA accepts it only if the signature index has not been used before with the signing certificate.

* `C87_rr_index_unchecked_refuted` (`Verif/CA/StflProps.lean`): The CA does not check the leaf index of a stateful signature that protects an `rr`; the same message is accepted again, and an index spent on another message can be reused.

  Status `partial`: false of the code for rr messages: the stateful index is not consulted; proved for all other message types

**C89. Only the holder or a trusted party revokes a certificate.** Claim: A revocation request changes the state of a certificate only if it was protected with that certificate's key, or by a party the CA trusts for revocation.

* `C89_stranger_revokes_refuted` (`Verif/CA/RevokeProps.lean`): A certificate is not only revoked by its holder or a trusted party: a request signed with a key of a certificate the CA never issued, of another subject and with another key, revokes it.
* `C89_self_revive_refuted` (`Verif/CA/RevokeProps.lean`): A certificate revoked for key compromise is revived by a request signed with the compromised key itself.

  Status `partial`: False of the code: any certificate that verifies may revoke any other issued certificate, and the holder of a revoked certificate can revive it. Proved: what is required of the signer (attached certificate, not updated, revoked only for removeFromCRL).

**C90. Messages inside a nested message are checked like messages sent on their own.** Claim: A message that the CA refuses when it is sent directly (revoked signer, protection that does not verify, unconfirmed certificate of the signer) is also refused, without effect, as an element of a batch; and a certificate issued for an element can be confirmed.

* `C90_revoked_signer_refuted` (`Verif/CA/NestedProps.lean`): The holder of a revoked certificate is refused when they send a request directly, whatever the handlers do, but the same request inside a batch is passed to the issuing function and its certificate is returned.
* `C90_open_confirmation_refuted` (`Verif/CA/NestedProps.lean`): A party with an unconfirmed certificate is refused when it sends a further request directly, but not when the request is an element of a batch.
* `C90_certConf_unverified_refuted` (`Verif/CA/NestedProps.lean`): The protection of a `certConf` element of a batch is never verified: the answer and the state afterwards do not depend on the signature or MAC at all.
* `C90_forged_certConf_refuted` (`Verif/CA/NestedProps.lean`): A confirmation whose MAC does not verify confirms the certificate when it comes in a batch; sent directly it is refused without effect.
* `C90_unprotected_unconfirmable_refuted` (`Verif/CA/NestedProps.lean`): An element without protection may be answered with a certificate, but if that certificate needs a confirmation it never gets one: with the default configuration every `certConf` for a stored request without protection fails.

  Status `partial`: False of the code: inside a batch a revoked signer and a signer with an unconfirmed certificate are served, the protection of a certConf is never verified, and a certificate issued for an unprotected element cannot be confirmed. Proved: what is checked for an inner certificate request.

**C91. Updated certificates are found by their hash.** Claim: For a revocation database configured with any hash algorithm, after add_updated_cert(cert) a call of is_updated_by_hash with the digest of cert under that algorithm answers True.

* `C91_updated_lookup_refuted` (`Verif/CA/RevListProps.lean`): With a hash algorithm other than SHA-1, a certificate just added with `add_updated_cert` is not recognised by `is_updated_by_hash`, because the stored digest is always SHA-1.

  Status `partial`: false of the code for hash algorithms other than SHA-1

**C92. The OCSP responder answers for every certificate of the CA.** Claim: get_ocsp_response returns a response (good or revoked) for every certificate stored in the database, whatever its life-cycle state.

* `C92_refuted` (`Verif/CA/RevListProps.lean`): Enrol, confirm, update.

  Status `partial`: false of the code for updated certificates: NotImplementedError

**C93. A successful certConf proves knowledge of the issued certificate.** Claim: process_cert_conf succeeds only if the message contains the digest of the issued certificate under the hash algorithm announced in the message or implied by the certificate.

* `C93_any_hash_refuted` (`Verif/CA/CertConfProps.lean`): With status `rejection` the hash is not looked at, so any hash confirms.

  Status `partial`: false of the code when the certConf reports a rejection; proved otherwise

**C94. A certConf is authorised by the requester.** Claim: An accepted certConf has the protection type of the request and, if the request was signed, the same signer certificate; if a MAC was used and enforced, the same MAC algorithm.

* `C94_stateful_other_signer_refuted` (`Verif/CA/CertConfProps.lean`): For stateful hash-based signatures another signer (9 instead of 8) can confirm.

  Status `partial`: false of the code for stateful hash-based signatures

**C96. Message time lies within the allowed interval.** Claim: check_message_time_field accepts a response for a given request time iff the difference between the two times does not exceed the interval, and without a request time iff messageTime is neither in the future nor older than the interval.

* `C96_response_time_refuted` (`Verif/Check/HeaderProps.lean`): A response dated ten years before the request is accepted with an interval of 60 seconds.

  Status `partial`: false of the code: responses dated before the request are never rejected

**C97. Revocation responses may reject.** Claim: check_rp_cmp_message_body accepts an rp with status accepted iff failInfo is absent, and accepts an rp with status rejection.

* `C97_rejection_refuted` (`Verif/Check/HeaderProps.lean`): Every `rp` whose status is not `accepted`, in particular every rejection (2), is refused.

  Status `partial`: false of the code: the status name 'rejected' does not exist, so every rejection raises

**C98. Named bits and named integers.** Claim: A bit string built from a list of names satisfies is_bit_set for the same list; asn1_compare_named_values with exclusive=False answers whether one of the names matches.

* `C98_roundtrip_refuted` (`Verif/Check/HelpersProps.lean`): The bit string made from "duplicateCertReq, badPOP" does not satisfy `is_bit_set` for the same argument with `exclusive=True`; the first list is the prefix of the PKIFailureInfo names needed to show this.
* `C98_nonexclusive_integer_refuted` (`Verif/Check/HelpersProps.lean`): `asn1_compare_named_values` on an INTEGER with `exclusive=False` never answers True, even for the matching name.

**C100. ML-DSA key classes sign and verify in the same mode.** Claim: For every hash_alg, context, is_prehashed flag and data, a signature returned by MLDSAPrivateKey.sign is accepted by MLDSAPublicKey.verify called with the same arguments; the strings signed in pure and pre-hash mode never coincide.

* `C100_hash_mismatch_refuted` (`Verif/PQ/SigKeysProps.lean`): C100 (false of the code): with an unsupported hash algorithm `sign` returns the pure-mode signature and `verify` with the same arguments raises `ValueError`.

  Status `partial`: false of the code for an unsupported hash algorithm: sign falls back to pure mode, verify raises ValueError

**C101. SLH-DSA private keys that are accepted are consistent.** Claim: A generated key is loaded back from its seed, its private bytes and the concatenation of both; a private key that from_private_bytes accepts produces signatures that its own public key accepts.

* `C101_inconsistent_key_refuted` (`Verif/PQ/SlhKeysProps.lean`): Beside every generated key there is a string of the same length that is accepted as a private key although none of its own signatures verifies.

  Status `partial`: false of the code for plain private keys: the root is not checked against the seeds

**C102. SLH-DSA key classes sign and verify in the requested mode.** Claim: For every hash_alg, context, is_prehashed flag and data, a signature returned by SLHDSAPrivateKey.sign is accepted by SLHDSAPublicKey.verify called with the same arguments; a hash algorithm that cannot be used is an error, not a signature in another mode.

* `C102_unsupported_hash_refuted` (`Verif/PQ/SlhKeysProps.lean`): C102 does not hold for an unsupported hash: with any hash other than the one combined with the parameter set, the key classes sign and verify the data in pure mode, without an error. A signature requested with such a hash is accepted as a signature without one.

  Status `partial`: agreement holds for all arguments; an unsupported hash silently selects pure mode

**C103. DHKEM follows RFC 9180.** Claim: DHKEM encapsulation computes the secret of RFC 9180 Encap for the five KEMs of table 2; decapsulation returns the encapsulated secret whenever the key exchange commutes; the suite identifier mixed into the secret tells the curves apart.

* `C103_suite_refuted` (`Verif/PQ/KemMechProps.lean`): C103 does not extend to the brainpool curves: they share the identifiers of the NIST curves.

  Status `partial`: agreement and RFC 9180 conformance proved under the stated laws of the exchange; false: the brainpool curves share the suite identifiers of the NIST curves

**C104. ML-KEM keys are imported faithfully.** Claim: A generated ML-KEM key is loaded back from its seed, its private bytes and the concatenation of both, with the same public key; other lengths are rejected; a seed followed by private bytes is accepted only if the seed generates them; exporting an imported key gives the same key; ciphertexts of the wrong length never give an honest secret.

* `C104_seed_refuted` (`Verif/PQ/KemKeysProps.lean`): C104 is false of the code: the comparison in `from_private_bytes` compares the private key with itself.

  Status `partial`: false of the code: from_private_bytes compares the private key with itself, so a seed that does not belong to the key is accepted and exported; everything else is proved

**C105. FrodoKEM keys are imported faithfully.** Claim: A generated FrodoKEM key is loaded back from its seed and its private bytes, with the same public key; keys of any other length are rejected on import; decapsulation returns the encapsulated secret for tolerated noise and refuses ciphertexts of the wrong length.

* `C105_lengths_refuted` (`Verif/PQ/KemKeysProps.lean`): C105. Without liboqs a FrodoKEM key of any length is accepted on import, both private and public.

  Status `partial`: false of the code: without liboqs, key lengths are not checked on import and the error surfaces as AssertionError in use; everything else is proved

**C106. ML-KEM input checks of FIPS 203.** Claim: Loading an encapsulation key performs the modulus check and loading a decapsulation key the hash check of FIPS 203, so that an accepted private key decapsulates what is encapsulated for its own public key.

* `C106_modulus_refuted` (`Verif/PQ/KemKeysProps.lean`): C106 is false of the code: an encapsulation key with an unreduced coefficient is loaded.
* `C106_hash_refuted` (`Verif/PQ/KemKeysProps.lean`): C106 is false of the code: a decapsulation key with a wrong hash is loaded.
* `C106_agreement_refuted` (`Verif/PQ/KemKeysProps.lean`): C106 is false of the code, even without noise: with a wrong hash in the private key both sides compute different secrets, and nothing reports it.

  Status `partial`: false of the code: neither check of FIPS 203 sections 7.2 and 7.3 is made; there is no partial positive theorem beyond the length checks of C104

**C107. Composite KEM keys survive being written and read.** Claim: A Composite KEM public key that is written into a SubjectPublicKeyInfo is read back, by its object identifier, as a key for which secrets can be encapsulated that the private key recovers; a private key that is saved, in any of the three formats, is read back as the same key; a private key stored with a foreign public key is refused; and a key read under an identifier is a key of that algorithm.

* `C107_interchangeable_refuted` (`Verif/PQ/HybridLoadProps.lean`): C107 is false for a key made from a `DHKEMPrivateKey`, whose default is RFC 9180: the public key that is read back uses plain ECDH, and the two sides get different secrets.
* `C107_saved_refuted` (`Verif/PQ/HybridLoadProps.lean`): C107 is false for the raw format.

  Status `partial`: Proved for keys made from ECDH or RSA keys of the usual sizes and saved with their seed, with ML-KEM as an instance of the assumptions. False of the code: a Composite KEM key made from a DHKEM key (default RFC 9180) disagrees with its own public key after that was written and read; keys saved as 'raw' or 'seed_and_raw' cannot be read; an RSA key of another size can be saved but not read.

**C109. Composite signature algorithm identifiers are bound to the key.** Claim: A composite signature is accepted under an AlgorithmIdentifier only if that identifier belongs to the key, and a composite key loaded under an algorithm name is a key of that algorithm.

* `C109_identifier_refuted` (`Verif/PQ/CompSigProps.lean`): C109 is false: an ML-DSA-44 with Ed25519 key accepts its signatures under the identifier of ML-DSA-87 with P-521.
* `C109_load_public_refuted` (`Verif/PQ/CompSigProps.lean`): C109 is false: the name with a 3072-bit RSA key loads a 4096-bit key.

  Status `partial`: false of the code: verify_signature_with_alg_id uses the identifier only to choose the RSA padding, and the public loader accepts an RSA key of another size of the table; private keys are loaded faithfully

**C110. PQKeyFactory loads private key bytes.** Claim: PQKeyFactory.from_private_bytes loads the key from its seed, its private bytes or both together, as its docstring says, and refuses what is none of them.

* `C110_both_refuted` (`Verif/PQ/KeyStoreProps.lean`): C110 is false for both together.

  Status `partial`: Seeds and private bytes are loaded. Both together are not: the factory cuts the input to the size of the private key, so that the seed becomes the start of the key and its end is lost. Bytes after the private key are ignored. Modelled for ML-KEM and ML-DSA.

**C111. The parts of a loaded private key structure belong together.** Claim: A private key loaded from a OneAsymmetricKey structure has the public key given in the structure, and a seed and private bytes given together belong to each other.

* `C111_public_refuted` (`Verif/PQ/KeyStoreProps.lean`): C111 is false for an empty public key: it is not compared, but becomes the public key.
* `C111_both_refuted` (`Verif/PQ/KeyStoreProps.lean`): C111 is false for a seed with a private key: the comparison of the two keys compares only their types.

  Status `partial`: A non-empty public key is checked. False for an empty one with raw private bytes (it becomes the public key), and for seed with private bytes: the keys are compared by type only, so that the private bytes are ignored.

**C112. Saved post-quantum private keys can be loaded again.** Claim: A key made from a seed and saved as a seed, as private bytes or as both, in either version of the structure or in the old raw format, is loaded again as the same key.

* `C112_version0_refuted` (`Verif/PQ/KeyStoreProps.lean`): C112 is false for version 1 of the structure: the public key is written, and then refused.
* `C112_old_refuted` (`Verif/PQ/KeyStoreProps.lean`): C112 is false for the old format: the seed 80 3e 00 … 00.

  Status `partial`: Version 2 structures, and version 1 without public key, are loaded again. Version 1 with the default arguments is written with a public key and then refused. The old format is not loaded again if the seed starts like a DER element of the inner structure.

**C113. The update link of a certificate leads to the certificate that replaced it.** Claim: After a key update was answered, the database entry of the old certificate is in an updated state and its update link is the digest of the newly issued certificate, with the time of the update; confirming the update changes only the state. A state change to UPDATED without a new certificate is refused unless an update is pending.

* `C113_relink_refuted` (`Verif/CA/IssueProps.lean`): A second, implicitly confirmed update of a certificate whose first update was never confirmed leaves the link to the first, abandoned certificate. (Certificate 1 is updated to 2 without confirmation, later to 3 with implicit confirmation.)

  Status `partial`: false of the code in one case: an implicitly confirmed second update of a certificate with an abandoned pending update keeps the link to the abandoned certificate; proved otherwise

**C114. Stateful public keys load exactly when well formed.** Claim: XMSSPublicKey, XMSSMTPublicKey and HSSPublicKey.from_public_bytes accept exactly the encodings whose algorithm identifier is registered and whose length fits that parameter set, keep the bytes, name the registered set, and report every other input as invalid key data.

* `C114_xmssmt_refuted` (`Verif/PQ/StatefulLoadProps.lean`): A well-formed key of any of the twenty-four registered sets 0x21 to 0x38, all of them approved, raises a `KeyError`, and so does a key with an unknown identifier; neither is the `InvalidKeyData` that the callers handle.
* `C114_default_name_refuted` (`Verif/PQ/StatefulLoadProps.lean`): The name "xmss" stands for trees of height 20 in a public key and of height 10 in a private key: a public key object built from a generated key's bytes under that name announces the wrong set.

  Status `partial`: Holds for XMSS and HSS. For XMSS^MT unknown identifiers and the 24 sets of SP 800-208 from 0x21 on raise KeyError. The default name of public and private XMSS keys differs.

**C115. Stateful private keys: public part, index and PKCS#8.** Claim: The public key computed from an XMSS or XMSS^MT secret key is its identifier, root and public seed; changing the index changes the index bytes only and leaves the public key; a PKCS#8 structure with a public key is accepted only if that key belongs to the secret key; private_numbers returns the documented fields.

* `C115_private_numbers_refuted` (`Verif/PQ/StatefulSecProps.lean`): The documented content ends with the two seeds, the public seed and the root; the returned bytes are four short of it, since the counter is not counted.
* `C115_xmssmt_refuted` (`Verif/PQ/StatefulSecProps.lean`): A private key of any of the other twenty-four registered sets is a `ValueError`, whatever its bytes.

  Status `partial`: Holds for XMSS and the first 32 XMSS^MT sets; private keys of the other 24 cannot be loaded. private_numbers is four bytes short.

**C116. Changing the state of a stateful private key.** Claim: modify_pq_stateful_sig_private_key sets the requested index, the last index with last_index=True, or exhausts the key; with used_index it returns the chosen earlier state and raises ValueError past the recorded ones.

* `C116_last_index_refuted` (`Verif/PQ/StatefulSecProps.lean`): Without an index the flag has no effect: the key gets the index after the last.
* `C116_exhaust_refuted` (`Verif/PQ/StatefulSecProps.lean`): The number of signatures does not fit the five index bytes, so the keys of the six sets of that height cannot be exhausted: the call raises an `OverflowError`.
* `C116_used_range_refuted` (`Verif/PQ/StatefulSecProps.lean`): Past the recorded states the call promises a `ValueError`; the first such index is an `IndexError`.

  Status `partial`: The index asked for is set. last_index has no effect without an index; keys of height 40 cannot be exhausted; the first index past the history is an IndexError. The HSS branch is not modelled.

**C117. Template comparison is exact.** Claim: compare_cert_template_and_cert returns True exactly if every selected field that is present in the template is present and equal in the certificate, with include selecting the named fields only and exclude all but the named ones.

* `C117_ext_value_refuted` (`Verif/Check/TemplateProps.lean`): A matching template does not mean that the requested extensions were issued: only the OIDs are compared, here a keyUsage of value 2 was requested and one of value 1 issued.
* `C117_issuer_refuted` (`Verif/Check/TemplateProps.lean`): `_contains_cert_template`'s first comparison is meant to compare `serialNumber` and `issuer`; it is `True` for a certificate of another issuer.

  Status `partial`: The exact acceptance condition is proved, and it falls short of the claim: extension values are not compared, and the include string used by the revocation code does not select the issuer.

**C118. Option lists select the named options.** Claim: filter_options returns exactly the named options with include, and exactly the others with exclude.

* `C118_blank_refuted` (`Verif/Check/TemplateProps.lean`): A name listed after a comma and a blank is not recognised: with the include string `"serialNumber, issuer"` that `_contains_cert_template` passes, `issuer` is excluded although it is listed.

  Status `partial`: Holds for lists without blanks; with a blank after a comma the option is not recognised.

**C119. A revocation answer is built for known certificates and valid reasons only.** Claim: The revocation details are accepted only for a certificate among the issued ones that matches the template, with a CRL reason that RFC 5280 names; the response has one status per entry; an unknown certificate is refused.

* `C119_version_refuted` (`Verif/Check/TemplateProps.lean`): A revocation request that states the version of the certificate is never accepted for a version 3 certificate: any value but `v2` is refused, and `v2` does not agree with the certificate.
* `C119_nonlwcmp_refuted` (`Verif/Check/TemplateProps.lean`): Without `enforce_lwcmp`, documented as the way to answer several entries, a request with at least one entry never gets an answer.

  Status `partial`: Holds for LwCMP requests. A template with a version field fails, and the non-LwCMP path always raises because an entry variable is rebound before it is read again.

**C120. Effects of a revocation request.** Claim: A revocation request whose protection does not verify changes nothing; an accepted one marks exactly the named certificate as revoked (or revived) and leaves every other entry alone; a correctly protected request for an issued, unrevoked certificate is accepted.

* `C120_dh_refuted` (`Verif/CA/RevokeProps.lean`): DH-protected revocation requests are implemented but can never be accepted: the public key is compared with the private key classes, whatever keys the CA holds.
* `C120_kem_reuse_refuted` (`Verif/CA/RevokeProps.lean`): The request's KEM secret may have been used before: the answer does not depend on the `used` flags of the stored secrets, although `KEMSharedSecretList.verify_pkimessage_protection` refuses a used one.

  Status `partial`: Effects and rejection are proved. DH-protected requests never verify, and a KEM shared secret can be used for several requests.

**C121. A trusted signer leads to a trust anchor.** Claim: A signer is trusted only if its certificate, the first extra certificate, is connected with a trust anchor by certificates of the message, each signed by the next one and issued by a certification authority, and if its key usage allows the use; conversely, a signer with such a path is trusted, in whatever order the extra certificates are sent. Chain building ends, whatever loops the certificates form.

* `C121_any_holder_refuted` (`Verif/Check/ChainProps.lean`): Whoever holds a key certified by a trust anchor can act under any name: the certificate `f` made with that key, for any subject and any post-quantum or composite key, is trusted, whether or not the holder's certificate `e` belongs to a certification authority.
* `C121_issuer_not_ca_refuted` (`Verif/Check/ChainProps.lean`): A message with a post-quantum signature is trusted on a certificate issued by a device; with a traditional signature OpenSSL refuses the same chain.
* `C121_usage_refuted` (`Verif/Check/ChainProps.lean`): A key usage extension need not allow signing if the signer certificate is an anchor, or if the signature is a post-quantum one.
* `C121_order_refuted` (`Verif/Check/ChainProps.lean`): Whether a signer with a path to an anchor is trusted depends on the order of the extra certificates: only the first issuer that fits is tried. The order is not protected.
* `C121_anchor_passed_refuted` (`Verif/Check/ChainProps.lean`): An anchor that is not self-issued is passed over: the signer is trusted without the root certificate in the message and refused with it.
* `C121_rollover_refuted` (`Verif/Check/ChainProps.lean`): After a key rollover, the certificate of the new key under the old one is self-issued but not self-signed; the chain ends there, and the old root is not reached although it is an anchor and in the message.
* `C121_unreadable_refuted` (`Verif/Check/ChainProps.lean`): One extra certificate with a key that cannot be loaded and the name of an issuer makes the check raise, although a path to an anchor exists.
* `C121_cycle_refuted` (`Verif/Check/ChainProps.lean`): A chain can list certificates repeatedly: two certification authorities that have certified each other.

  Status `partial`: Soundness of the chain is proved; completeness for unambiguous issuers. False of the code: with post-quantum or composite signatures nothing checks that an issuer is a CA, so every holder of a certificate can act under any name; the key usage of an anchor or a post-quantum signer is not checked; the result depends on the order of the extra certificates; a non-root anchor is passed over if the root is sent; rollover certificates end the chain; one unreadable certificate raises; chains may repeat certificates.

**C122. Centrally generated keys are accepted from trusted authorities only.** Claim: A private key in a SignedData structure is accepted only if the certificates of the structure form a chain from the certificate that the signer identifier names, which has the extended key usage cmKGA, to a trust anchor, and the key of that certificate verifies the signature over the content, whose digest the signed attributes name.

* `C122_sid_refuted` (`Verif/Check/ChainProps.lean`): The signer identifier must be the subject key identifier of the certificate of the key generation authority; any value is accepted. (The key stands for its identifier.)
* `C122_issuer_not_ca_refuted` (`Verif/Check/ChainProps.lean`): With a post-quantum key in the chain, the issuer of the authority's certificate need not be a certification authority: a device can vouch for its own.

  Status `partial`: Acceptance is proved to imply chain, anchor, signature, digest and extended key usage. False of the code: the value of the signer identifier is not compared; with a post-quantum key in the chain issuers need not be CAs.

**C123. Key usage checks decide what their strictness says.** Claim: validate_key_usage and validate_cmp_extended_key_usage succeed exactly if the certificate has the named usages: with LAX also without the extension, with STRICT only with it, with ABS_STRICT only without further usages; must_not_contain_key_usage succeeds exactly if none of the named usages is present.

* `C123_must_not_refuted` (`Verif/Check/KeyUsageProps.lean`): The documentation of `must_not_contain_key_usage` says that it raises if the certificate contains *any* of the given attributes; it raises only if the certificate contains all of them. A certificate with `keyCertSign` passes the check that it must contain neither `keyCertSign` nor `cRLSign`.
* `C123_eku_repeated_refuted` (`Verif/Check/KeyUsageProps.lean`): A certificate that repeats one usage passes for one that has both: the number of matches is compared, not the set.
* `C123_eku_blank_refuted` (`Verif/Check/KeyUsageProps.lean`): Blanks after a comma, as in the documented call `ext_key_usage=cmcCA, cmcRA`, make the check fail for every certificate that has the extension.

  Status `partial`: The key usage check is exact. False of the code: the forbidding check is satisfied as soon as one of several forbidden usages is absent; the extended usage check counts matches, so a repeated usage replaces a missing one, and blanks after commas make it fail always.

**C124. The delta certificate is what the descriptor says.** Claim: From a paired certificate, exactly the delta certificate is rebuilt for which its Delta Certificate Descriptor was made: serial number, names, validity, key, extensions, signature algorithm and signature. The descriptor lists the extensions whose criticality or value differ, and passes the validation that every descriptor must pass; a valid descriptor can be applied.

* `C124_parameters_refuted` (`Verif/Hybrid/ChameleonProps.lean`): C124, false of the code: a delta certificate whose signature algorithm differs and has parameters (RSA: NULL) is never rebuilt, since only the OID enters the descriptor.
* `C124_validity_refuted` (`Verif/Hybrid/ChameleonProps.lean`): C124, false of the code: a delta certificate with another validity is never rebuilt; the rebuilt validity has a context tag that a certificate must not have.
* `C124_extensions_refuted` (`Verif/Hybrid/ChameleonProps.lean`): C124, false of the code: with other extension OIDs than the base certificate, or another order, the delta certificate is never rebuilt, and nothing reports that.

  Status `partial`: The exact condition under which the delta certificate is rebuilt is proved. False of the code: parameters of a differing signature algorithm are lost; a differing validity is rebuilt with a context tag; a delta certificate with other extension types than the base certificate, or another order, is rebuilt with the base certificate's, without an error.

**C125. A paired request yields a pair of certificates.** Claim: For a paired request two certificates are issued for two different signature keys whose possession was proved; each has its own key, its own key identifier once, the requested subject, and is signed over its contents; the descriptor in the paired certificate is the one of the CA, and the issued delta certificate can be rebuilt from it.

* `C125_base_only_refuted` (`Verif/Hybrid/ChameleonIssueProps.lean`): C125, false of the code: if only the base certificate requests extensions, the delta certificate has none of them, and what is rebuilt from the paired certificate is never the delta certificate.
* `C125_ski_twice_refuted` (`Verif/Hybrid/ChameleonIssueProps.lean`): C125, false of the code: if only the base certificate requests extensions and a key identifier is among them, the paired certificate has two key identifiers.
* `C125_delta_only_refuted` (`Verif/Hybrid/ChameleonIssueProps.lean`): C125, false of the code: if only the delta certificate requests extensions, the paired certificate has exactly the extensions of the delta certificate, so its key identifier is that of the delta key.
* `C125_hash_refuted` (`Verif/Hybrid/ChameleonIssueProps.lean`): C125, false of the code: with another hash than the default one and a signature algorithm with parameters (an RSA key of the CA), the delta certificate of a pair with one descriptor is never rebuilt.
* `C125_injected_refuted` (`Verif/Hybrid/ChameleonIssueProps.lean`): C125, false of the code: if both requests ask for a descriptor extension, the one of the base request enters the paired certificate before the CA's, and every reader takes it: the delta key is whatever the requester wrote, without any proof of possession.

  Status `partial`: Keys, subjects and signatures are proved for all options; rebuilding and key identifiers where both or neither of the requests have extensions. False of the code: if only the base request has extensions the delta certificate cannot be rebuilt, and a requested key identifier appears twice; if only the delta request has extensions the paired certificate gets the key identifier of the delta key; with another hash than SHA-256 and an RSA key of the CA the delta certificate cannot be rebuilt; a descriptor requested by both sides precedes the one of the CA, so the requester chooses the delta key freely.

**C126. A paired request proves possession of both keys.** Claim: A paired request is accepted exactly if the request signature verifies with the base key over all attributes and the delta signature verifies with the delta key over the attributes without it; what the suite builds is accepted in whatever order the attributes are decoded; a wrong delta signature is reported as such. The key checked for revocation and reuse is the key that signed.

* `C126_two_requests_refuted` (`Verif/Hybrid/ChameleonIssueProps.lean`): C126, false of the code: with two delta requests, the CA checks whether the key of the first is revoked or already certified, and issues for the key of the last.

  Status `partial`: Acceptance is exact. False of the code: with two delta requests the revocation and reuse checks look at the first, issuing at the last.

**C127. Both signatures of a catalyst certificate cover it, and it is accepted only with both.** Claim: A certificate accepted by verify_catalyst_signature has either none or all three of the alternative extensions; if it has them, the alternative signature is a valid signature, under the alternative key it carries, of the certificate without that signature, and the ordinary signature is valid under the issuer's key. A certificate made by sign_cert_catalyst is accepted, and with bad_alt_sig it carries a different signature. The alternative key used is the issuer's alternative key, and load_catalyst_public_key returns the key used.

* `C127_issuer_alt_key_refuted` (`Verif/Hybrid/CatalystProps.lean`): The alternative signature does not show that the issuer's alternative key was used: a certificate with an alternative signature of any other key is accepted, though the issuer certificate carries its alternative key and this key rejects the signature. Whoever can make the traditional signature needs nothing else.
* `C127_loaded_key_refuted` (`Verif/Hybrid/CatalystProps.lean`): With two such extensions they differ: the first is loaded, the last is used for the check.

  Status `partial`: Coverage, soundness and the round trip are proved. False of the code: the alternative signature is checked with the alternative key in the certificate itself, not with the issuer's; with a repeated extension the loaded key is not the one the signature was checked with.

**C128. A certificate for two keys is issued only to someone who has both.** Claim: build_cert_from_catalyst_request issues a certificate only after possession of the first and of the alternative key was shown: by a signature of each, by a composite signature, or by encrypting the certificate for the key that cannot sign. The certificate contains exactly these two keys and the requested subject. A request made by prepare_catalyst_cert_req_msg_approach is accepted; with bad_pop it is not the valid one. Whether a request is answered does not depend on its place or on the body it comes in.

* `C128_kem_everywhere_refuted` (`Verif/Hybrid/CatalystIssueProps.lean`): A request with a KEM key as the alternative key gets its certificate only as the first request of an `ir`: at another place, or in a `cr`, the same request ends with an exception.
* `C128_bad_pop_refuted` (`Verif/Hybrid/CatalystIssueProps.lean`): `bad_pop` with two signing keys: the signature is changed twice, and if its first byte is 0 or 1 the second change undoes the first. The request with the wrong proof is then the request with the right one.

  Status `partial`: Possession of both keys, the content of the certificate and acceptance of honest requests are proved. False of the code: with a KEM key the request is answered only in an ir and, if it is the alternative key, only at index 0; bad_pop with two signing keys gives the valid request if the signature starts with 0 or 1.

**C129. Every request for a catalyst-signed certificate gets its own certificate with the requested properties.** Claim: build_catalyst_signed_cert_from_req answers every request in order with a certificate for its subject and key, after checking its proof of possession, signed with both keys of the CA, and with the certReqId of the request; the arguments allow_chosen_sig_alg and extensions are obeyed; the supported bodies include ccr; an alternative key sent by the client is certified.

* `C129_ids_refuted` (`Verif/Hybrid/CatalystIssueProps.lean`): So the responses do not name the requests they answer.
* `C129_pop_with_index_refuted` (`Verif/Hybrid/CatalystIssueProps.lean`): With an index the proof of possession is not looked at.
* `C129_chosen_alg_refuted` (`Verif/Hybrid/CatalystIssueProps.lean`): `allow_chosen_sig_alg=False` is not obeyed without an index: the client still chooses the algorithm.
* `C129_extensions_refuted` (`Verif/Hybrid/CatalystIssueProps.lean`): The extensions given by the CA (revocation pointers) are not in the certificate: the result is the same for all.
* `C129_ccr_refuted` (`Verif/Hybrid/CatalystIssueProps.lean`): A `ccr` is listed as supported, but with a request it always ends with an exception.
* `C129_client_alt_key_refuted` (`Verif/Hybrid/CatalystIssueProps.lean`): The alternative key that the client sends is not in the certificate; the key of the CA's second signature is.

  Status `partial`: Order, subject, key, proof of possession (without an index) and verification are proved. False of the code: all responses have certReqId 0; with an index no proof of possession is checked; without an index allow_chosen_sig_alg=False and extensions are ignored; ccr always ends with a KeyError; the alternative key in the certificate is the CA's, not the client's.

**C130. A message with a hybrid protection is accepted only with both signatures, by the keys of its sender.** Claim: verify_hybrid_pkimessage_protection accepts a message only if the sender's key signed all of it and, if it carries or must carry an alternative signature, the sender's alternative key signed it without that signature; a composite protection only if the composite key, or both keys of the certificate, verify it. What protect_hybrid_pkimessage produces is accepted, with bad_message_check it is not the valid message. The check can be repeated, a given key is the one used, and must_be_catalyst_signed is obeyed.

* `C130_twice_refuted` (`Verif/Hybrid/VerifyProps.lean`): Verifying a message takes the alternative signature out of it, so that the same check of the same message fails the next time (the endpoint for multiple authentication checks twice).
* `C130_alt_key_refuted` (`Verif/Hybrid/VerifyProps.lean`): The alternative key of the sender's certificate is not used if the header has one: whoever has the first key can add an alternative signature of any key.
* `C130_given_key_refuted` (`Verif/Hybrid/VerifyProps.lean`): A given public key is not used: a message that this key did not sign is accepted, with the key of the certificate that the message brings.
* `C130_key_only_refuted` (`Verif/Hybrid/VerifyProps.lean`): Without certificates a message with a single protection algorithm is refused, even if the key is given.
* `C130_must_refuted` (`Verif/Hybrid/VerifyProps.lean`): `must_be_catalyst_signed` has no effect on messages with a composite signature.

  Status `partial`: Soundness and the round trip are proved. False of the code: the check removes the alternative signature, so the second one fails; an alternative key in the header takes precedence over the certificate's; a given public key is not used unless the protection is composite, and without certificates the message is refused; must_be_catalyst_signed has no effect on composite protections.

**C131. A CRL with an alternative signature is accepted only if both keys of the CA signed it.** Claim: verify_crl_signature accepts a CRL only if the CA's key signed all of it and, if it has an alternative signature, the CA's alternative key signed the rest of it. A CRL made by sign_crl_catalyst is accepted, also with use_rsa_pss; a CRL without alternative signature is accepted unless one is demanded; the check can be repeated.

* `C131_ordinary_refuted` (`Verif/Hybrid/CrlProps.lean`): An ordinary CRL with extensions, but without an alternative signature, is refused even if none is demanded.
* `C131_alt_key_refuted` (`Verif/Hybrid/CrlProps.lean`): The alternative key of the CA's certificate plays no role: without a given key the CRL brings its own, which may be any.
* `C131_twice_refuted` (`Verif/Hybrid/CrlProps.lean`): The check takes the alternative signature out of the CRL: the same check fails the next time.
* `C131_pss_refuted` (`Verif/Hybrid/CrlProps.lean`): With `use_rsa_pss` the algorithm identifiers say PSS, but the signatures are made without: the CRL is not accepted.

  Status `partial`: Soundness and the round trip without PSS are proved. False of the code: a CRL with extensions but without an alternative signature is always refused; the alternative key is taken from the CRL itself; the check removes the signature, so that it cannot be repeated; with use_rsa_pss the signatures are still made without PSS.

**C132. A migration chain links every certificate to its issuer, and it is found if it exists.** Claim: build_migration_cert_chain returns a list that starts with the certificate, whose members are among those given, each named as issuer of the one before and with a key that verifies its signature; it stops at a self-issued certificate. If such a chain can be built from the given certificates it is found, in whatever order they are given and also if a CA has certificates with keys of different kinds.

* `C132_order_refuted` (`Verif/Hybrid/MigrationProps.lean`): The order of the given certificates matters: there is only one pass over them.
* `C132_same_name_refuted` (`Verif/Hybrid/MigrationProps.lean`): The issuer among the given ones is not found if one with the same name and a traditional key comes first: its `TypeError` ends the search (as during a migration, when a CA has certificates of both kinds).

  Status `partial`: Every chain that is returned is one; it is found if the candidates have distinct names and come in the order of the chain. False of the code: other orders give shorter chains or an error; a candidate of the same name with a key of another kind can end the search with a TypeError.

**C133. The second key of a hybrid certificate comes from where its extensions say.** Claim: may_extract_alt_key_from_cert returns the key that the certificate's extensions designate, in a fixed order of precedence, and None only if there is none; the key is a post-quantum signature key. verify_cert_hybrid_signature accepts only a valid composite signature of the issuer's two keys, it works with a second certificate, a given alternative key or a composite issuer key, and it goes by the algorithm of the signature.

* `C133_other_refuted` (`Verif/Hybrid/MigrationProps.lean`): Without a second certificate the check always fails: the branches for the issuer's composite key and for a given alternative key are never reached.
* `C133_subject_key_refuted` (`Verif/Hybrid/MigrationProps.lean`): Which kind of signature it is, is decided by the subject's key: a valid composite signature over a certificate for a traditional key is refused.
* `C133_pq_refuted` (`Verif/Hybrid/MigrationProps.lean`): The key is said to be a post-quantum signature key, but only that of the alternative key extension is checked to be one: the delta certificate may have a traditional key.

  Status `partial`: The order of precedence and soundness are proved. False of the code: without a second certificate the check always ends with a TypeError; it goes by the algorithm of the subject's key; the returned key need not be a post-quantum one.

**C134. A certificate's RelatedCertificate extension designates exactly one certificate.** Claim: validate_related_cert_extension accepts a certificate only if its hash, with the hash of the signature algorithm, is the value of the extension; with a collision-free hash at most one certificate is accepted. A certificate with the extension made by prepare_related_cert_extension is accepted with the certificate it was made for, if that one covers its key usage and extended key usage, and is refused if it does not. get_related_cert_from_list returns the first certificate with that hash.

* `C134_hash_refuted` (`Verif/Hybrid/RelatedProps.lean`): The extension is made with the hash of the *related* certificate and checked with that of the certificate that carries it: if the two digests differ, the certificate made for it is refused.
* `C134_eku_refuted` (`Verif/Hybrid/RelatedProps.lean`): A certificate with an extended key usage is refused, whatever the related certificate contains.
* `C134_ku_refuted` (`Verif/Hybrid/RelatedProps.lean`): `dataEncipherment` is accepted against `digitalSignature` and `keyEncipherment`, as each of its letters occurs in the names of these two.

  Status `partial`: Soundness of the hash comparison, uniqueness and the search in a list are proved; the round trip if both signature algorithms have the same hash and there is no extended key usage. False of the code: the extension is made with the hash of the related certificate and checked with that of the other one; any certificate with an extended key usage is refused; key usages are compared as sets of letters, so that dataEncipherment passes against digitalSignature and keyEncipherment.

**C135. A related certificate is issued only to whoever controls the other certificate and the requested key.** Claim: validate_related_cert_pop accepts a request exactly if its attribute is fresh, names the certificate served at its location and is signed with that certificate's key, and it accepts what prepare_requester_certificate makes. The attribute counts only in the request it was made for, a certificate is accepted only with its own trusted chain, and the mock CA issues a related certificate only with proof of possession of the requested key, for a related certificate of its own that is neither revoked nor updated.

* `C135_replay_refuted` (`Verif/Hybrid/RelatedProps.lean`): The attribute is not bound to the request: the same attribute is accepted in a CSR of anyone else, for any key and subject.
* `C135_given_refuted` (`Verif/Hybrid/RelatedProps.lean`): A chain given by the caller replaces the one of the certificate: with it, a certificate that is part of no trusted chain is accepted.
* `C135_pop_refuted` (`Verif/Hybrid/RelatedProps.lean`): The key 3 gets a certificate, with no valid signature in the CSR.

  Status `partial`: What is accepted is characterised exactly; the round trip and what holds of an issued certificate are proved. False of the code: the attribute is not bound to the request and can be copied into one for another key; a chain given by the caller replaces that of the certificate; the signature of the CSR is never checked, so that any key gets a certificate.

**C136. Revoked hybrid certificates are recognised, whatever their kind.** Claim: is_hybrid_cert names the kind of a certificate by its first mark in a fixed order. Before a request signed with a hybrid certificate is processed, is_revoked_for_issuing and is_revoked_for_request refuse it if that certificate, or a second certificate bound to it, or the key asked for is revoked, and accept it otherwise.

* `C136_ignored_refuted` (`Verif/Hybrid/DiscoveryProps.lean`): Composite and catalyst certificates pass whatever their state is.
* `C136_names_refuted` (`Verif/Hybrid/DiscoveryProps.lean`): Related and discovery certificates never get through: the names of the kinds are spelled differently.
* `C136_delta_key_refuted` (`Verif/Hybrid/DiscoveryProps.lean`): The status of the delta key in the request is asked for and not used: with a good chameleon certificate a revoked delta key passes. The separate check refuses it.
* `C136_request_refuted` (`Verif/Hybrid/DiscoveryProps.lean`): A request signed with any other hybrid certificate passes, revoked or not.

  Status `partial`: The kind is exact; chameleon certificates are refused if revoked or updated, Sun hybrid ones if revoked. False of the code: composite and catalyst certificates pass even if revoked; related and discovery certificates always end in NotImplementedError as their kinds are spelled differently; the status of the delta key is not used; requests signed with anything but a chameleon certificate pass.

**C137. A discovery certificate leads to the certificate it was issued for.** Claim: The descriptor put into a certificate by prepare_subject_info_access_syntax_extension is read back, and get_cert_discovery_cert returns what its location serves; validate_cert_discovery_cert accepts it if the algorithms agree and the issuer signed it. The mock CA issues such a certificate only with a proof of control of a trusted certificate and of the requested key.

* `C137_validate_refuted` (`Verif/Hybrid/DiscoveryProps.lean`): `validate_cert_discovery_cert` refuses every certificate: it hands the list of extensions over as one extension.
* `C137_untrusted_refuted` (`Verif/Hybrid/DiscoveryProps.lean`): Neither trust in the other certificate nor its state is looked at: whoever signs the attribute with the key of any certificate, also of one they made themselves, gets a certificate, with the URL and the algorithms of that certificate.

  Status `partial`: Reading back, the comparison of algorithms and the content of an issued certificate are proved. False of the code: validate_cert_discovery_cert always fails, as it passes on the list of extensions for one extension; neither trust in the other certificate nor the signature of the CSR is checked before issuing.

**C139. The four forms of a Sun hybrid certificate carry the same key and signature.** Claim: convert_sun_hybrid_cert_to_target_form takes a certificate of any form to any form with the same second key and second signature, if the locations serve them: nothing but the two extensions changes, conversions compose, a conversion to the own form changes nothing, and converting there and back gives the same certificate. get_sun_hybrid_form returns the form of a certificate, and contains_sun_hybrid_cert_form_1_or_3 finds a certificate that carries its signature by value.

* `C139_fetch_refuted` (`Verif/Hybrid/SunProps.lean`): Not checked by conversion: a certificate that carries hashes of a key and a signature (`d`) is converted to Form 1 with any other key and any other signature (`d'`) that the locations serve.
* `C139_location_refuted` (`Verif/Hybrid/SunProps.lean`): Needed though nothing is fetched: a certificate that contains its key without a location is not converted to a form that contains the hash of the key.
* `C139_params_refuted` (`Verif/Hybrid/SunProps.lean`): The parameters of the hash algorithm are rewritten by conversion: a certificate in Form 1 whose hash algorithm of the key has parameters is never converted back to the Form 4 it was made (and signed) from.
* `C139_contains_refuted` (`Verif/Hybrid/SunProps.lean`): Only the first certificate that contains its signature is looked at: if it is another one, the certificate is not found although it follows.

  Status `partial`: Proved for extensions as the suite makes them and honest locations. False of the code: a conversion takes whatever the location serves and computes a new hash for it; a certificate with a key by value and no location cannot be converted to a form with the hash; a hash algorithm with parameters in the extension of the key is not restored; contains_sun_hybrid_cert_form_1_or_3 looks only at the first certificate that carries its signature by value.

**C140. A Sun hybrid certificate is accepted only with both signatures, over what each of them covers.** Claim: verify_sun_hybrid_cert accepts a certificate only if its Form 4 is signed by the issuer, the key served at its location has the hash and algorithm it names and, if asked, the second signature served at its location has the hash it names and is made with the second key of the issuer over the certificate without it. find_sun_hybrid_issuer_cert returns only a certificate with the name of the issuer whose key made the signature.

* `C140_alt_needed_refuted` (`Verif/Hybrid/SunVerifyProps.lean`): Needed though it is not used: without an alternative key of the issuer a certificate is refused, also if the alternative signature is not to be checked.
* `C140_by_value_refuted` (`Verif/Hybrid/SunVerifyProps.lean`): Not used by verification: the key and the signature in a certificate. One in Form 1, with both, is refused if the location of the key does not serve it.
* `C140_twice_refuted` (`Verif/Hybrid/SunVerifyProps.lean`): The check of the alternative signature takes the extension out of the certificate it is given: a second check of the same object is refused.
* `C140_alt_key_refuted` (`Verif/Hybrid/SunVerifyProps.lean`): Not checked when the alternative key of an issuer is extracted: the hash in its certificate. Any key served at the location is taken.

  Status `partial`: Soundness is proved. False of the code: without a second key of the issuer nothing is accepted even if the second signature is not to be checked; a certificate with key and signature by value is refused if its locations serve nothing; validate_alt_sig_extn removes the extension from the certificate it is given, so that a second call fails; get_sun_hybrid_alt_pub_key returns what the location serves without comparing the hash.

**C141. A Sun hybrid certificate that is issued can be verified in both forms it is returned in.** Claim: sun_cert_template_to_cert and sun_csr_to_cert return a Form 4 certificate for the traditional part of the requested key that names its post-quantum part, with the second signature over the certificate without it and the signature over the whole, and the Form 1 certificate of the same data. Both are accepted by verify_sun_hybrid_cert if the locations serve key and signature; with bad_alt_sig the second signature is refused.

* `C141_hash_refuted` (`Verif/Hybrid/SunIssueProps.lean`): The signature algorithm in the certificate is always the one for `sha256`: if signatures made with the hash that is used are not accepted under it, every certificate made from the template is refused.
* `C141_csr_refuted` (`Verif/Hybrid/SunIssueProps.lean`): A CSR that does not say with which hash its key is to be named is always refused: the default is the OID of the hash, where its name is needed.
* `C141_csr_location_refuted` (`Verif/Hybrid/SunIssueProps.lean`): The CA adds no location to a certificate made from a CSR: if the CSR names none for the key, the certificate is made but never accepted.

  Status `partial`: Content, the round trips for locations that are given and served, and the effect of bad_alt_sig are proved. False of the code: the certificate always names the algorithm with SHA-256 but is signed with the hash of the composite algorithm (mostly SHA-512), so that with an RSA or ECDSA CA key it is refused; a CSR without the attribute for the hash of the key is always refused, one without the location of the key leads to a certificate that is never accepted.

**C142. A message protected with a password is accepted exactly with the right MAC.** Claim: verify_pkimessage_protection accepts a message with an HMAC, KMAC, AES-GMAC, PBMAC1 or password-based MAC if and only if its protection is the MAC, as the standards define it, of the encoded header and body under the password. A message that protect_pkimessage made verifies after transport with the same password, and with bad_message_check it does not. With enforce_lwcmp only PBMAC1 and password-based MAC with one SHA-2 hash function are accepted. compute_mac_from_alg_id computes the same MAC.

* `C142_empty_salt_refuted` (`Verif/Prot/MacRefuted.lean`): C142 is false for an empty salt, which RFC 9480 allows: the code replaces it with a random value, so the correct MAC is refused whatever that value is.
* `C142_default_prf_refuted` (`Verif/Prot/MacRefuted.lean`): The default PRF of PBKDF2 (RFC 8018: `hmacWithSHA1`, 1.2.840.113549.2.7) is unknown to the code: a message protected with PBMAC1 and this PRF is never accepted.
* `C142_prf_refuted` (`Verif/Prot/MacRefuted.lean`): The PRF of PBKDF2 has to be an HMAC; the code also takes the OID of a signature algorithm, even for the lightweight profile.
* `C142_mac_agree_refuted` (`Verif/Prot/MacRefuted.lean`): The two functions differ for a password-based MAC with different hash functions, and `compute_mac_from_alg_id` cannot use the encoded parameters of AES-GMAC.

  Status `partial`: The equivalence is proved for a salt that is not empty; the round trip for codecs that give back the parameters of the message. False of the code: an empty salt of the password-based MAC is replaced by a random value, so the right MAC is refused; the default PRF of PBKDF2 (hmacWithSHA1) is unknown, so PBMAC1 with it is never accepted; the OID of a signature algorithm is accepted as PRF, also for the lightweight profile; compute_mac_from_alg_id differs for a password-based MAC with two hash functions and cannot read the encoded parameters of AES-GMAC.

**C143. A message protected with a signature is accepted exactly with the right signature.** Claim: verify_pkimessage_protection accepts a message with RSA, ECDSA, EdDSA or RSASSA-PSS if and only if the parameters are those of the algorithm, the key fits to it, and the protection is a signature on the encoded header and body, with the hash function of the algorithm, under the given key or the key of the first of the extraCerts. A message that protect_pkimessage made verifies after transport in both ways; one made with bad_message_check verifies only if there is a second signature for the same data.

* `C143_cert_refuted` (`Verif/Prot/SigRefuted.lean`): Without a public key, the algorithm in the header is not bound to the key of the certificate: a message that declares ECDSA with a wrong parameter is accepted with the signature of an RSA key, which the verification with the same key as an argument refuses.
* `C143_pss_roundtrip_refuted` (`Verif/Prot/SigRefuted.lean`): A protection with RSASSA-PSS and another hash function than SHA-256 does not verify: the parameters name that hash function, the signature is made with SHA-256.
* `C143_pss_salt_refuted` (`Verif/Prot/SigRefuted.lean`): A salt length of zero, which RFC 8017 allows, is read as the digest size: a signature without salt is refused.
* `C143_unsupported_refuted` (`Verif/Prot/SigRefuted.lean`): A message whose algorithm is a composite signature, or DSA, is never accepted: `verify_pkimessage_protection` has no branch for it, although `protect_pkimessage` makes such messages.

  Status `partial`: The equivalences are proved for traditional algorithms; the round trip for key pairs that fit. False of the code: with the certificate in the message neither the parameters nor the kind of the key are compared to the algorithm; RSASSA-PSS always signs with SHA-256, so another hash function never verifies; a salt length of zero is read as the digest size; messages with a composite signature or DSA can be made but are never accepted.

**C144. A message protected with a KEM-based MAC is accepted exactly with the right key.** Claim: verify_pkimessage_protection accepts a message with a KEM-based MAC if and only if its protection is the MAC of the encoded header and body under the key that RFC 9810 derives, with KDF2, KDF3 or HKDF, from the shared secret and the context of the message, where the shared secret is given or decapsulated from the ciphertext in the generalInfo. A message that the suite protected with a shared secret, or for the certificate of the other side, verifies after transport with the shared secret or with the private key, and with bad_message_check it does not.

* `C144_stale_refuted` (`Verif/Prot/KemRefuted.lean`): A header that has such a ciphertext already, as that of a request which is answered in the same transaction, makes the verification use the first, not the one that was added for this message.
* `C144_rsa_refuted` (`Verif/Prot/KemRefuted.lean`): With an RSA key the message does not verify: the ciphertext is made with RSA-OAEP and opened with RSA-KEM.
* `C144_pbkdf2_refuted` (`Verif/Prot/KemRefuted.lean`): A received message with PBKDF2, which is one of the choices of `protect_pkimessage_kem_based_mac`, is never accepted: its parameters are decoded as an algorithm identifier.
* `C144_hkdf_sha3_refuted` (`Verif/Prot/KemRefuted.lean`): HKDF with SHA-3 is in the table of the code, but no message with it is accepted: the name of the hash function is cut at the second hyphen.
* `C144_empty_context_refuted` (`Verif/Prot/KemRefuted.lean`): An empty context in the parameters is left out of the input of the key derivation: the MAC that the specification gives is refused.

  Status `partial`: The equivalences are proved for KDF2, KDF3 and HKDF with SHA-2 and a context that is not empty; the round trip for keys other than RSA and a message without an older ciphertext. False of the code: a ciphertext that is already in the message stays in front of the new one and is the one that is decapsulated; for RSA the two sides use different KEMs; the parameters of PBKDF2 cannot be read back; HKDF with SHA-3 never works; an empty context is treated as none. Bytes after the hash parameters of KDF2 and KDF3 are ignored.

**C145. A message protected with a DH-based MAC is accepted exactly with the right shared secret.** Claim: verify_pkimessage_protection accepts a message with a DH-based MAC if and only if its protection is the MAC of the encoded header and body under the key that RFC 9810 derives from the shared secret. The shared secret is the given one or that of an ECDH exchange of the private key with the given public key, else with the key of the first of the extraCerts. A message that protect_pkimessage made verifies after transport on the other side, and with bad_message_check it does not.

* `C145_basekey_refuted` (`Verif/Prot/DhProps.lean`): For AES-GMAC the key is not that of the specification: the code derives it from the shared secret, not from its hash. The MAC of the specification is refused.
* `C145_sha3_refuted` (`Verif/Prot/DhProps.lean`): A one-way function of the SHA-3 family cannot be used: no message with it can be made or verified.

  Status `partial`: What is accepted is characterised exactly; for an HMAC it is the MAC of the standard. The round trip is proved for all MACs. False of the code: for AES-GMAC and KMAC the key is derived from the shared secret instead of its hash, so a MAC of another implementation is refused; a one-way function of the SHA-3 family can be named but never used. Hash functions are assumed to give at least as many bytes as the shared secret has, up to 32.

**C146. MAC algorithms of request, response and confirmation are compared as documented.** Claim: mac_protection_algorithms_must_match accepts a response if and only if it has the MAC algorithm of the request and parameters that agree with it, where the salts are the same or different as asked for; a confirmation has to agree too. With allow_null, NULL and absent parameters count as equal. Without strict it only requires that all messages are protected with a MAC.

* `C146_conf_refuted` (`Verif/Prot/MatchRefuted.lean`): The confirmation is not looked at unless the salts have to be the same: any message will do, even one protected with a signature.
* `C146_conf_salt_refuted` (`Verif/Prot/MatchRefuted.lean`): With a confirmation and the same salt nothing is ever accepted, not even three equal messages.
* `C146_kdf_refuted` (`Verif/Prot/MatchRefuted.lean`): The key derivation function of PBMAC1 is not compared: scrypt is taken for PBKDF2.
* `C146_null_refuted` (`Verif/Prot/MatchRefuted.lean`): The flag for NULL has the opposite effect. With it, absent and NULL parameters differ. Without it, the parameters of the request are not looked at, and a response of the suite, with NULL, is refused.
* `C146_hmac_refuted` (`Verif/Prot/MatchRefuted.lean`): Without the lightweight profile, MACs without parameters (HMAC and KMAC) can never be compared.
* `C146_decoded_refuted` (`Verif/Prot/MatchRefuted.lean`): A request with a password-based MAC that was encoded and decoded is never accepted, while one with PBMAC1 is.
* `C146_not_strict_refuted` (`Verif/Prot/MatchRefuted.lean`): Without the strict comparison, messages that are protected with signatures are accepted.

  Status `partial`: The equivalences are proved for a request as the suite has it before sending, allow_null and no confirmation. False of the code: a confirmation is not looked at, and with same_salt it makes every comparison fail; the key derivation function of PBMAC1 is not compared; allow_null has the opposite effect; HMAC and KMAC can never be compared; a request with a password-based MAC that was decoded is never accepted; without strict, messages with signatures are accepted.

**C147. Signatures of all messages of a transaction are compared as documented.** Claim: signature_protection_must_match accepts the messages if and only if they name the same signature algorithm, each is signed with the key of the first certificate of the response, and the certificates of the others, if any, have the same first certificate and the same chain.

* `C147_rsa_refuted` (`Verif/Prot/SigMatchProps.lean`): Messages that the suite, or everybody else, signs with RSA have the parameters NULL and are never accepted.
* `C147_mac_refuted` (`Verif/Prot/SigMatchProps.lean`): The kind of the algorithm is not tested: a message that names an HMAC is accepted with a signature, although its protection cannot be verified.
* `C147_first_cert_refuted` (`Verif/Prot/SigMatchProps.lean`): The first certificate of the confirmation is not compared to that of the response.
* `C147_composite_refuted` (`Verif/Prot/SigMatchProps.lean`): A composite signature is never accepted: its hash function has a name without `-`.

  Status `partial`: What is accepted is characterised exactly for traditional signatures. False of the code: RSA messages, whose parameters are NULL, are never accepted; the kind of the algorithm is not tested, so one that names an HMAC passes; the first certificates are not compared; composite signatures end in IndexError. Building a chain is a parameter here (C121, C122 are about it).

**C149. A password recipient gives the key exactly for the password, and only with another salt than the protection.** Claim: A PasswordRecipientInfo gives a content encryption key if and only if it has version 3, PBKDF2 with the length of the AES key wrap, a salt that differs from that of the protection of the message, and the key unwraps under the derived key. With the type pwri the protection of the message is verified with the same password. What is built with a password is opened with it.

* `C149_kdf_refuted` (`Verif/Env/EnvRefuted.lean`): `prepare_enveloped_data_with_pwri` ignores its argument `kdf`: PBKDF2 is used whatever it says.
* `C149_hkdf_refuted` (`Verif/Env/EnvRefuted.lean`): With `kdf_name="hkdf"` the password is not used: the wrapping key is derived from the content encryption key, which the recipient does not have; and the recipient refuses the algorithm.
* `C149_length_refuted` (`Verif/Env/EnvRefuted.lean`): The length of the wrapping key is an argument, the algorithm of the key wrap is always AES-256: with another length than 32 the recipient refuses.
* `C149_unprotected_refuted` (`Verif/Env/EnvRefuted.lean`): Without a type, the same `EnvelopedData` is opened although the protection of the message is wrong.

  Status `partial`: The equivalences and round trips are proved for PBKDF2 with a key of 32 bytes. False of the code: the argument kdf of prepare_enveloped_data_with_pwri is ignored; with kdf_name hkdf the password is not used at all and the result can never be opened; another length than 32 builds what is never opened; without the type pwri the protection of the message is not verified.

**C150. A key transport recipient is opened exactly by the named certificate's RSA key.** Claim: A KeyTransRecipientInfo gives a content encryption key if and only if it has version 2, names the certificate by its subject key identifier or, if it has none, by issuer and serial number, and the RSA key decrypts with the padding that the algorithm says. What prepare_ktri builds is opened by the holder of the key.

* `C150_oaep_refuted` (`Verif/Env/EnvRefuted.lean`): The parameters of RSAES-OAEP as RFC 4055 defines them are refused: those of the mask generation function are an algorithm identifier, and are decoded as an OID; an absent hash, which means SHA-1, is refused too.

  Status `partial`: Proved for the parameters of OAEP as the suite writes them. False of the code: parameters as RFC 4055 defines them (an algorithm identifier for the mask generation function, or absent fields) are refused. NULL parameters count as absent.

**C151. A key agreement recipient is opened exactly with the agreed key; sender and recipient derive the same.** Claim: A KeyAgreeRecipientInfo gives a content encryption key if and only if it has version 3, one recipient, names that are those of the certificate, one of the algorithms of RFC 9481, and the key unwraps under the X9.63 key derivation of the agreed secret with the user keying material. What prepare_kari builds with ECDH, cofactor ECDH, X25519, X448 or one-pass MQV is opened by the recipient when both sides agree on the secret.

* `C151_originator_refuted` (`Verif/Env/EnvRefuted.lean`): A recipient that names the sender as the originator and the recipient as the recipient, as RFC 5652 says, is never accepted when these have different names: both names are compared with the same certificate.
* `C151_issuer_refuted` (`Verif/Env/EnvRefuted.lean`): For a certificate with a subject key identifier, an issuer and serial number as argument makes the originator name these and the recipient the identifier: such a recipient is never accepted.
* `C151_hash_refuted` (`Verif/Env/EnvRefuted.lean`): For an X25519 key, the hash is an argument for the sender; the recipient uses SHA-256.

  Status `partial`: False of the code: originator and recipient must have the same name, that of the protection certificate, so a recipient as RFC 5652 defines it is refused; an issuer and serial number for a certificate with a subject key identifier builds what is never opened; for X25519 and X448 another hash than SHA-256 is used by the sender only.

**C152. A KEM recipient is opened exactly with the decapsulated secret.** Claim: A KEMRecipientInfo gives a content encryption key if and only if it has version 0, names the certificate, has the KEM of the private key, a key length that is that of the key wrap, and the key unwraps under the key derived from the decapsulated secret and the other info. What prepare_kem_recip_info builds is opened by the holder of the key, also after encoding.

* `C152_pbkdf2_refuted` (`Verif/Env/EnvRefuted.lean`): The default key derivation function of `prepare_recip_info`, PBKDF2, is never accepted in a received KEM recipient.
* `C152_kek_length_refuted` (`Verif/Env/EnvRefuted.lean`): A key length that differs from that of the key wrap can be set, and is refused.
* `C152_rsa_refuted` (`Verif/Env/EnvRefuted.lean`): An RSA key encapsulates with OAEP and decapsulates with RSA-KEM.
* `C152_object_refuted` (`Verif/Env/EnvRefuted.lean`): `OtherRecipientInfo` as it is built, before encoding, is opened with the type `kemri` and is an `AttributeError` without a type.

  Status `partial`: The round trip is proved for HKDF, KDF2 and KDF3. False of the code: PBKDF2, the default of prepare_recip_info, is never accepted after encoding; a given key length is written though it differs from the key wrap; RSA encapsulates with OAEP and decapsulates with RSA-KEM; the structure before encoding is an AttributeError in the general way.

**C153. EnvelopedData is opened exactly for the chosen recipient, and round trips for every kind of key.** Claim: validate_enveloped_data returns data if and only if the number of recipients is the expected one, the recipient at the index has the expected type and gives a content encryption key under which the content is encrypted. build_env_data_for_exchange for an RSA, EC or KEM certificate is opened by the holder of the private key.

* `C153_index_refuted` (`Verif/Env/EnvRefuted.lean`): With several recipients, the index chooses the recipient whose type is compared; the key comes from the first. So the second recipient cannot open, and the first can with an index that says the second.
* `C153_version_refuted` (`Verif/Env/EnvRefuted.lean`): The version of `EnvelopedData` is not read.

  Status `partial`: Proved as stated for one recipient. False of the code for several: the index chooses whose type is compared, the key is always taken from the first; the version is never compared.

**C154. One-pass MQV: both sides compute the secret of the scheme.** Claim: The sender (with a static and an ephemeral key) and the recipient (with one key) of one-pass ECMQV compute the same secret, and it is the x coordinate of h*(e + avf(E)*ds)*(1 + avf(R))*dr*G, with the associate value function of SEC 1 / NIST SP 800-56A and the fixed length encoding of the coordinate.

* `C154_avf_refuted` (`Verif/Env/MqvProps.lean`): For these curves the order is rounded to the next power of two before the logarithm is taken, so the associate value has one bit too many, for every point: the result is not the one of the standard.
* `C154_standard_refuted` (`Verif/Env/MqvProps.lean`): With the order of secp384r1, the sender's secret differs from that of the standard.
* `C154_bytes_refuted` (`Verif/Env/MqvProps.lean`): A coordinate with leading zero bytes is written without them: the secret is shorter than in the standard.

  Status `partial`: Agreement is proved for all groups. False of the code: the bit length of the order is taken from a floating point logarithm, so for secp192r1, secp224r1, secp256k1 and secp384r1 the associate value is not that of the standard and the secret differs; a coordinate with leading zero bytes is written without them. The scheme is that of the standard for secp256r1 and secp521r1. The logarithm is a parameter with the exact integer part on the rounded order.

**C155. A generated key is taken from SignedData exactly when a trusted key generation authority signed it.** Claim: validate_signed_data_structure returns a private key only if the data has version 3 and the expected sizes, the signer's certificate chains to a trust anchor and has the extended key usage cmKGA, the signer info names it, the signed attributes carry the digest of the content, the algorithms are consistent, the signature verifies, and the key is the one in the package. What prepare_signed_data builds is accepted.

* `C155_ski_refuted` (`Verif/Env/SignedProps.lean`): What is built with a certificate without a subject key identifier is never accepted.
* `C155_attrs_refuted` (`Verif/Env/SignedProps.lean`): The signature is over the content, so the signed attributes are not protected: any further attribute, of another type, can be added to the first signer of an accepted structure.
* `C155_signers_refuted` (`Verif/Env/SignedProps.lean`): With several signers, only the first one is looked at.
* `C155_repeated_refuted` (`Verif/Env/SignedProps.lean`): CMS allows one message digest; with several, the others are not compared.

  Status `partial`: Hash, signature, encodings and the certificate chain checks of C121-C123 are parameters. False of the code: the signature is over the EncapsulatedContentInfo and not over the signed attributes as RFC 5652, section 5.4, asks, so attributes can be added without being signed; only the first signer is looked at; of a repeated message digest attribute only the last counts; an authority whose certificate has no subject key identifier builds what is never accepted.

**C156. The private key returned for a response belongs to the issued certificate.** Claim: validate_not_local_key_gen returns a key if and only if the message has version 3, the response at the index has an enveloped key that opens with the given secrets, its content is exactly one SignedData from a trusted authority, the protection fits the kind of recipient, and the public key of the returned key is that of the issued certificate. What an authority builds for a recipient is accepted.

* `C156_index_refuted` (`Verif/Env/KgaProps.lean`): The index of the response is also the index of the recipient: a second response whose key is enveloped for one recipient is never accepted, whatever the other arguments are.
* `C156_size_refuted` (`Verif/Env/KgaProps.lean`): The sizes are one: a key in an envelope for two recipients is accepted only if there are two keys and two signers.
* `C156_usage_refuted` (`Verif/Env/KgaProps.lean`): RFC 9483, section 4.1.6.1, asks for the key usage keyEncipherment for key transport; it is not checked, while it is for key agreement.

  Status `partial`: Proved as stated; the round trip for RSA from end to end, for the others from any way to open. False of the code: the index of the response is also that of the recipient and of the key in the package, so a second response with one recipient is never accepted; the key usage keyEncipherment is not checked for key transport.

**C157. A certificate is issued only for a key whose possession was proven.** Claim: If the CA answers a request with a certificate, the requester has the private key of the certificate: the request is signed with it, it was sent to the CA in an encrypted form, it was used to compute the MAC, it is needed to decrypt the certificate, it was generated by the CA, or a trusted registration authority vouches for it. A request with a valid signature, an admissible key and a subject is answered with the certificate of the template.

* `C157_later_ignored_refuted` (`Verif/Ra/PopProps.lean`): The signature of a request other than the first one has no influence: with any other value the result is the same. The signature of the first request is verified in its place.
* `C157_later_refuted` (`Verif/Ra/PopRefuted.lean`): A certification request with a valid first request gets certificates for any keys in further requests: their signatures are not verified.
* `C157_mixed_refuted` (`Verif/Ra/PopRefuted.lean`): Two valid signed requests in one message, and one with a valid signature after one without: the latter is refused, since the signature of the first request is looked for.
* `C157_challenge_refuted` (`Verif/Ra/PopRefuted.lean`): A request for a challenge is answered with an encrypted certificate, if the key is of key agreement.
* `C157_extensions_refuted` (`Verif/Ra/PopRefuted.lean`): The extensions of the CA are not in a certificate for a key that was sent to the CA: the result does not depend on them beyond the first, unused, certificate.
* `C157_alt_refuted` (`Verif/Ra/PopRefuted.lean`): The template of the registration authority in `regInfo` is used for a signed request, but not for one with a key of encapsulation.

  Status `partial`: Proved for initialization requests with the lightweight profile (one request, the default), and for every request that is the first or whose proof is not a signature. False of the code: verify_popo_for_cert_request verifies the signature of request 0 whatever the index, so further requests of a certification request need no valid signature. Also: challenge-response is answered with an encrypted certificate for key agreement keys; the extensions of the CA are missing in certificates for keys sent to the CA; the template of a registration authority is ignored except for signatures and raVerified. Keys, encodings, the controls and the building of certificates are parameters.

**C158. raVerified is accepted only from a trusted registration authority.** Claim: A request with the proof raVerified is accepted exactly if the message comes from a registration authority in the trusted directory, whose certificate has the extended key usage cmcRA, the key usage digitalSignature and a valid chain.

* `C158_protection_refuted` (`Verif/Ra/PopRefuted.lean`): The protection of the message is not looked at: the statement of a registration authority is accepted in a message that anyone else protected, or that has no protection, since its certificate is public.
* `C158_skipped_refuted` (`Verif/Ra/PopRefuted.lean`): With `verify_ra_verified=False` the statement is accepted from everyone.

  Status `partial`: The accepted messages are characterized exactly. False of the code: the protection of the message is not looked at, so the public certificate of a registration authority in extraCerts suffices.

**C159. Responses correspond to the requests.** Claim: The response to a message has exactly one answer for each request, with its identifier and in its order, or none if one request is refused; the identifiers accepted are 0 to n-1, each once.

* `C159_ccr_refuted` (`Verif/Ra/RequestMoreProps.lean`): C159, false of the code: there is no reply type for a cross certification request (`ccr`).

  Status `proved`: Proved as stated, for the bodies with a list of requests. Also the body type of the reply (C159_reply_type); for a cross certification request the code knows none (C159_ccr_refuted).

**C160. The messages of a transaction are linked by identifier and nonces.** Claim: Each message of a transaction, of any length, has the transaction identifier of the first one, the nonce of the message before it as recipNonce, and a fresh nonce of its own.

* `C160_fresh_refuted` (`Verif/Ra/HeaderProps.lean`): The CA uses one nonce for all of its messages: after the first response, which has the random nonce `n`, every message of the CA in the transaction has `n` too. So the nonce is not fresh in the later ones.
* `C160_option_refuted` (`Verif/Ra/HeaderProps.lean`): `use_fresh_nonce=False` makes the nonce of the CA fresh; the default, `True`, does not.
* `C160_pvno_refuted` (`Verif/Ra/HeaderProps.lean`): The next message of the client has version 2, whatever the version of the response: it does not go on with version 3.
* `C160_empty_refuted` (`Verif/Ra/HeaderProps.lean`): A request with an empty transaction identifier and an empty nonce is answered in another transaction, without `recipNonce`.

  Status `partial`: By induction over the transaction, for values that are not empty. False of the code: the CA uses one nonce for all its messages of a transaction, since the option use_fresh_nonce is inverted; a request with an empty transaction identifier is answered in another transaction.

**C161. A key update is issued to the holder of the certificate, for a new key.** Claim: A key update request is answered with a certificate only if it is the only request, signed with the new key, which differs from the one of the old certificate unless reuse is allowed; an identifier of the old certificate names the certificate of the sender and its issuer; the CA has issued that certificate; the new one is for the same subject.

* `C161_none_refuted` (`Verif/Ra/UpdateProps.lean`): The mock CA does not need the identifier of the old certificate in a key update that is signed: a request without any controls is answered, which `must_have_controls` does not allow.
* `C161_unchecked_refuted` (`Verif/Ra/UpdateProps.lean`): The size of RSA keys, DH keys, the parameters of the algorithm, the subject and the further extensions of the CA are not looked at in a key update, other than in the other requests: `validate_cert_template_public_key` is not called, and the result does not depend on them.
* `C161_issuer_refuted` (`Verif/Ra/UpdateProps.lean`): The issuer in the identifier of the old certificate is compared with the subject of the second certificate of the message, which the sender chooses, not with the one of the CA: an identifier with a wrong issuer is accepted. With the certificate of the CA as an argument it would be refused.
* `C161_controls_refuted` (`Verif/Ra/UpdateProps.lean`): `must_have_controls` is satisfied by any control: no identifier of the old certificate is needed.
* `C161_subject_refuted` (`Verif/Ra/UpdateProps.lean`): The new certificate may be for another subject than the one that is updated.
* `C161_kem_refuted` (`Verif/Ra/UpdateProps.lean`): In a message protected with encapsulation, `raVerified` is accepted from every holder of a certificate: they get one for any key, with any subject.
* `C161_extensions_refuted` (`Verif/Ra/UpdateProps.lean`): The extensions of the CA are in the certificate of a key update protected with encapsulation, and not in one protected by a signature.

  Status `partial`: The accepted signed requests are characterized exactly, and the facts every answered one has are proved. False of the code: the subject may be another one; the issuer of the old certificate is compared with the second certificate of the sender; any control counts as the identifier of the old certificate; keys are not checked as in the other requests; raVerified is accepted from everyone with a certificate in messages protected with encapsulation; the extensions of the CA are missing if the message is signed.

**C162. A cross-certificate is issued only for a complete, signed request and is one of a CA.** Claim: A cross-certification request is answered exactly if it is the only one, is signed with the key of its template, and the template has version 3, validity, issuer, subject and algorithm; the certificate has basic constraints with cA and the key usage keyCertSign.

* `C162_not_ca_refuted` (`Verif/Ra/UpdateProps.lean`): Basic constraints without `cA` are accepted: the cross-certificate is not one of a CA.
* `C162_version_refuted` (`Verif/Ra/UpdateProps.lean`): A template of version 1 is accepted, though only version 3 has extensions.
* `C162_unchecked_refuted` (`Verif/Ra/UpdateProps.lean`): The size of an RSA key is not looked at for the certificate of a CA, nor are the certificates and the protection of the message: everyone gets a cross-certificate for their key.

  Status `partial`: The accepted requests are characterized exactly. False of the code: basic constraints without cA and templates of version 1 are accepted; the key size is not looked at. The building of certificates and the encoding of extensions are parameters.

**C163. An out-of-band hash identifies the root certificate.** Claim: The hash that is prepared for a root certificate is accepted for it, and one for another certificate is not.

* `C163_never_refuted` (`Verif/Ra/RootCaProps.lean`): What `prepare_oob_cert_hash` makes for a certificate is refused for it, unless the hash has a collision between a certificate and the structure.
* `C163_other_refuted` (`Verif/Ra/RootCaProps.lean`): A structure that is accepted for one certificate is accepted for every other with the same issuer and serial number that is like the one of a root: the hash says nothing about the certificate.

  Status `partial`: False of the code: the validation compares the hash with the one of the structure that contains it, not with the one of the certificate, so every prepared hash is refused, and an accepted one says nothing about the certificate.

**C164. A root update is accepted only from the old root.** Claim: An update of the root certificate, made with the old and the new key, is accepted by a client with the old root; every accepted update links the new root to the old one: the holder of the old key has signed the new key.

* `C164_extensions_refuted` (`Verif/Ra/RootCaProps.lean`): The new root loses all extensions of the old one, basic constraints and key usage included: it has the two identifiers of its key and nothing else.
* `C164_serial_refuted` (`Verif/Ra/RootCaProps.lean`): Issuer and serial number do not identify the certificates of an update: for a self-issued root, the new certificate and the one signed by the old key have both in common, and so have the old root and the one signed by the new key.
* `C164_authority_refuted` (`Verif/Ra/RootCaProps.lean`): The certificate of the new key under the old key names the new key as the one of its issuer.
* `C164_takeover_refuted` (`Verif/Ra/RootCaProps.lean`): The two new certificates are not compared: everyone with any certificate signed by the old root can make an update to their own self-signed certificate, which is accepted.
* `C164_takeover_full_refuted` (`Verif/Ra/RootCaProps.lean`): The third certificate does not help: they sign it too.
* `C164_unknown_refuted` (`Verif/Ra/RootCaProps.lean`): Without the old root, every update with both certificates is accepted; a message without an update is accepted always.

  Status `partial`: The accepted updates are characterized exactly; what the CA makes is accepted if pkilint accepts it. False of the code: newWithNew and newWithOld are not compared, so everyone with a certificate under the old root can install their own root; the new root has no basic constraints; certificates share issuer and serial number; newWithOld names the wrong authority key.

**C165. The validity period of a certificate is the requested one.** Claim: A certificate has the requested notBefore and notAfter, or the default period, as times that mean what was requested; a period that starts too long ago is refused.

* `C165_read_refuted` (`Verif/Ra/RootCaProps.lean`): A `UTCTime` is read as the time that it means exactly if its year is not 1950 to 1968, which are read as 2050 to 2068.
* `C165_century_refuted` (`Verif/Ra/RootCaProps.lean`): A certificate requested until a year of 2050 to 2099 is made to end a century before: it has never been valid.
* `C165_order_refuted` (`Verif/Ra/RootCaProps.lean`): A period that ends before it starts is accepted; a start in the far future too.
* `C165_default_refuted` (`Verif/Ra/RootCaProps.lean`): The default end, ten years after a requested start in 2045, is in 1955.

  Status `partial`: Proved for the years 1950 to 2049. False of the code: UTCTime is used for all years; notAfter may be before notBefore; the default end after a start in 2045 is in 1955.

**C166. The client of central key generation gets the private key of its certificate.** Claim: For a request without a key the CA generates one of the requested algorithm, chooses the recipient by the protection or the certificate of the request, and the client that opens the answer has the private key of the issued certificate; the envelope names the recipient.

* `C166_kem_refuted` (`Verif/Env/KgaBuildProps.lean`): A client with a KEM certificate cannot open what it gets if the certificate it looks at in the response has another subject key identifier than its own: the CA names the client, where the client expects the certificate of the CA, as it is for the other kinds.
* `C166_rid_refuted` (`Verif/Env/KgaBuildProps.lean`): For key transport the envelope names the certificate of the CA as the one of the recipient (RFC 5652, 6.2.1, and RFC 9483, 4.1.6.1: the certificate of the recipient).
* `C166_dh_refuted` (`Verif/Env/KgaBuildProps.lean`): A request protected with a MAC from a Diffie-Hellman exchange or an encapsulation is treated as if it were signed: the branches for these are never reached, and without a certificate no key is generated.

  Status `partial`: Proved from end to end for RSA, EC and passwords, and the choice of recipient and key exactly; primitives and codecs are parameters. False of the code: the answer for a KEM certificate names the client while the client compares it with the certificate of the CA, so it is refused; for key transport the certificate of the CA is named as the recipient; requests protected with a MAC from Diffie-Hellman or encapsulation do not reach their branches.

**C167. regInfo UTF8 pairs are read exactly by their grammar, and what is written is read back.** Claim: A text is read as a list of name?value% pairs exactly if it follows the grammar (names and values with percent escapes), the reading is unique and every other text is refused; a list of pairs that is quoted and written is read back as the same list; no attribute type occurs twice.

* `C167_wire_refuted` (`Verif/Ra/Utf8PairsProps.lean`): What is sent by default is never of the form of RFC 4211, unless there are no pairs: the separators are encoded, too.
* `C167_raw_refuted` (`Verif/Ra/Utf8PairsProps.lean`): A text of RFC 4211, sent as it is, is read as other pairs: the text is decoded before it is taken apart, so that a value with an escaped `%` and `?` makes a second pair.
* `C167_name_refuted` (`Verif/Ra/Utf8PairsProps.lean`): A text of RFC 4211 with a name which begins with two letters from `a` to `f`, sent as it is, is refused: the end of the value before it and the two letters are taken for an escape sequence.

  Status `partial`: The reader is characterised exactly and the round trip holds for quoted pairs. False of the code: what is sent by default is never in the grammar of RFC 4211; without quoting a value with an escaped percent sign injects a second pair; a name that begins with two hexadecimal letters is refused.

**C168. The controls of a request are accepted exactly if required controls are present and valid, and a token works once.** Claim: The registration controls (token, authenticator, publication, archive options) are accepted exactly if every required one is there and correct; a registration token is accepted at most once; the archived private key is the one decrypted from the control.

* `C168_required_refuted` (`Verif/Ra/ControlsProps.lean`): What is required is not required of a request without controls: it is accepted, though each of the four controls is required.
* `C168_burnt_refuted` (`Verif/Ra/ControlsProps.lean`): A token may be used up by a request which is refused: the token is marked before the authenticator is looked at, and the request with the right authenticator is then refused.
* `C168_duplicate_refuted` (`Verif/Ra/ControlsProps.lean`): A type of control may occur twice, if there is neither a token nor an authenticator; the second control is not read.
* `C168_method_refuted` (`Verif/Ra/ControlsProps.lean`): The method of publication asked for is not used: the control always says X.500.

  Status `partial`: Acceptance is characterised exactly; encryption and comparison are parameters. False of the code: a request without controls passes although a control is required; a token is used up by a request that is refused; duplicates of a control are accepted; the publication method is always x500.

**C169. The holder of the key answers the challenge of the CA with its number, and nobody is answered otherwise.** Claim: For an indirect proof of possession the CA hides a random number; the client answers exactly if number, version, recipient and sender fit, and the answer is the number in the challenge; for RSA, KEM and EC keys the holder answers with the number the CA has stored, and gets the certificate.

* `C169_kem_refuted` (`Verif/Env/ChallengeRefuted.lean`): The CA sends the ciphertext in the header, but the client does not read it: the holder of a KEM key cannot answer any challenge of version 2.
* `C169_witness_refuted` (`Verif/Env/ChallengeRefuted.lean`): The client never looks at the witness and the hash function: the answer is the same for all of them.
* `C169_zero_refuted` (`Verif/Env/ChallengeRefuted.lean`): A number 0, a `certReqId` 0 and a version 0 that are asked for are ignored.
* `C169_several_refuted` (`Verif/Env/ChallengeRefuted.lean`): There is one number in every answer, whatever the number of challenges.
* `C169_pending_refuted` (`Verif/Env/ChallengeRefuted.lean`): The handler passes its dictionary of pending challenges as the bytes of the challenge: with version 3, no challenge can be built while another one is pending.
* `C169_pvno_refuted` (`Verif/Env/ChallengeRefuted.lean`): The option for the version changes the kind of challenge, and not the version in the header: the client refuses the message.
* `C169_index_refuted` (`Verif/Env/ChallengeRefuted.lean`): The index of the recipient chooses whose name is checked, and not whose key is used: the answers for any two indices are the same.

  Status `partial`: The client is characterised exactly and the round trip is proved for RSA, KEM and EC with version 3 and for RSA and Diffie-Hellman with version 2; primitives and codecs are parameters. False of the code: a KEM challenge of version 2 can never be answered; the client ignores the witness; a number, an identifier or a version 0 that is asked for is ignored; the answer has one number for several challenges; with version 3 no challenge can be built while another one is pending; a version that is asked for changes the challenge and not the header; the index of the recipient chooses the name that is checked and not the key.

**C170. A certificate has exactly the extensions that were checked in its request and those the CA adds, each kind once.** Claim: The extensions of a template are accepted exactly if they are known, consistent and fit the key; the certificate has the checked ones, those of the CA of the other kinds, and no two of the same kind.

* `C170_duplicate_refuted` (`Verif/Ra/ExtnsCert.lean`): A template with the identifier of its key, as required by a client that follows RFC 5280, gets a certificate with two identifiers.
* `C170_override_refuted` (`Verif/Ra/ExtnsCert.lean`): "`other_extensions` are used to override the extensions in the certificate template": the constraints, the usages and the names of the template override those of the CA.
* `C170_dropped_refuted` (`Verif/Ra/ExtnsCert.lean`): An extension of the template that is known, but is not one of the six that are checked, is left out without an error, also if it is critical: the certificate has it only if the CA adds it.
* `C170_serial_refuted` (`Verif/Ra/ExtnsCert.lean`): "Serial numbers are assigned by the CA" (RFC 4211, 5: the field must be left out): the serial number of the template is taken.
* `C170_csr_refuted` (`Verif/Ra/ExtnsCert.lean`): A PKCS#10 request with extensions is never accepted, if its extensions are to be included.

  Status `partial`: Templates are characterised exactly; codecs and key identifiers are parameters. False of the code: a template with a subject key identifier gets a certificate with two; the extensions of the template override those of the CA, not the other way round; known extensions that are not checked are left out silently, also critical ones; the client chooses the serial number; a PKCS#10 request with extensions that are to be included always fails with a KeyError.

**C171. The key usage of a certificate fits its key.** Claim: A requested key usage is accepted exactly for the usages the kind of key allows; the certificate gets it as a critical extension with the same bits.

* `C171_encipher_refuted` (`Verif/Ra/ExtnsCert.lean`): RFC 5480, 3 and RFC 8410, 5 allow both of them with `keyAgreement`: no usage with one of them is accepted for an EC or an X25519 or X448 key.
* `C171_ecdh_refuted` (`Verif/Ra/ExtnsCert.lean`): No usage is accepted for a traditional key with one of these algorithms, also not `keyAgreement` alone.
* `C171_cert_sign_refuted` (`Verif/Ra/ExtnsCert.lean`): "If the keyCertSign bit is asserted, then the cA bit in the basic constraints extension MUST also be asserted" (RFC 5280, 4.2.1.3): a certificate with this usage and without constraints is issued.

  Status `partial`: False of the code: encipherOnly and decipherOnly are rejected for EC and X25519 and X448 keys also with keyAgreement; id-ecDH and id-ecMQV keys are rejected with every usage; keyCertSign is accepted without basic constraints.

**C172. Only a CA gets a certificate that can sign certificates.** Claim: Basic constraints are accepted exactly if the path length fits; the usage to sign certificates needs the constraints of a CA.

* `C172_pathlen_refuted` (`Verif/Ra/ExtnsCert.lean`): RFC 5280, 4.2.1.9: a path length of zero is the usual one of a CA that issues to end entities. A request for it is rejected.
* `C172_ee_pathlen_refuted` (`Verif/Ra/ExtnsCert.lean`): "CAs MUST NOT include the pathLenConstraint field unless the cA boolean is asserted": a path length of zero, or a negative one, is accepted for an end entity.
* `C172_for_ca_refuted` (`Verif/Ra/ExtnsCert.lean`): The test of `for_ee` is the wrong way round: for a CA (`for_ee=False`) the usages to sign certificates or CRLs are rejected.
* `C172_for_ee_refuted` (`Verif/Ra/ExtnsCert.lean`): With a key usage in the template, an end entity (`for_ee=True`) is treated as without the option.
* `C172_ca_refuted` (`Verif/Ra/ExtnsCert.lean`): A template can ask for a certificate of a CA; nobody looks at who asks. The constraints need not be critical ("Conforming CAs MUST mark the extension as critical", RFC 5280, 4.2.1.9).

  Status `partial`: False of the code: a CA with path length zero is rejected and an end entity with path length zero is accepted; the test of for_ee is the wrong way round; every client gets a CA certificate if it asks for one, also with constraints that are not critical.

**C173. Key identifiers and names of a certificate are those of the key, of the CA and of the request.** Claim: The subject key identifier is the one of the key, the authority key identifier the one of the key of the CA; alternative names are critical exactly if the subject is empty, and then they are needed.

* `C173_no_aki_refuted` (`Verif/Ra/ExtnsCert.lean`): Every certificate that is not self-signed must have one (RFC 5280, 4.2.1.1): without one in the template, and none of the CA, the certificate has none.
* `C173_aki_issuer_refuted` (`Verif/Ra/ExtnsCert.lean`): An identifier of the CA with its name or its serial number is rejected in every template, also if it is correct.

  Status `partial`: False of the code: a certificate from a template without an authority key identifier has none; an identifier with the name or the serial number of the CA is rejected in every template.

**C174. A general message is answered entry by entry, with the types RFC 9810 assigns to the requests.** Claim: The CA answers a general message exactly if each of its entries has an answer, under the lightweight profile just one; the response has one answer for each entry, in their order, with the type of RFC 9810, whatever was processed before.

* `C174_key_pair_param_refuted` (`Verif/Ra/GeneralProps.lean`): A request for the parameters of a key pair (`id-it-keyPairParamReq`, whose value is an OID) is never answered: with a value it is refused because the value should be absent, without one because it should be present.
* `C174_implicit_confirm_refuted` (`Verif/Ra/GeneralProps.lean`): The CA which supports implicit confirmation never says so: the entry is refused with a value, and without one the absent value is decoded.
* `C174_profile_refuted` (`Verif/Ra/GeneralProps.lean`): A certificate profile known to the CA is refused like an unknown one.
* `C174_language_refuted` (`Verif/Ra/GeneralProps.lean`): RFC 9810, section 5.3.19.13: the answer to the language tags is the tag chosen among those sent. A client which understands only German is answered in English.
* `C174_language_list_refuted` (`Verif/Ra/GeneralProps.lean`): A list which names a language unknown to the CA is refused, also if it names English.
* `C174_root_refuted` (`Verif/Ra/GeneralProps.lean`): RFC 9810, section 5.3.19.15: the update is sent if the root certificate was updated. The CA answers with an update to every client which knows its present root certificate, and with none to a client which knows another one.

  Status `partial`: Answers are characterised exactly; decoders, signing and encapsulation are parameters. False of the code: a request for key pair parameters, implicit confirmation or a certificate profile is never answered; the language is always English, and a list with one unknown language is refused; the root certificate is updated exactly for clients which know the present one.

**C175. A client gets the CRL of the CA exactly if its own is outdated.** Claim: For each status in a CRL update request, the CRL is returned exactly if the source names the CA and the CRL of the client is older than that of the CA.

* `C175_outdated_refuted` (`Verif/Ra/GeneralCrl.lean`): RFC 9810, section 5.3.19.17: the CA sends the CRL if it is more recent than the one which the client has. The CRL of the CA is always one minute old; a client whose CRL is up to twenty-five hours old is told that it has the latest one, whatever was revoked since.
* `C175_foreign_issuer_refuted` (`Verif/Ra/GeneralCrl.lean`): A request for the CRL of another issuer should be answered without a CRL. If the other issuer is named in the alternative `issuer`, the CA fails with a `TypeError` while it builds its message.
* `C175_url_issuer_refuted` (`Verif/Ra/GeneralCrl.lean`): The URL of the CRL is recognised as distribution point only: named as issuer it is an error.
* `C175_duplicate_refuted` (`Verif/Ra/GeneralCrl.lean`): A client which names the CA twice, as issuer and as distribution point, gets two CRLs of the same CA, since each is signed anew and the removal of duplicates compares bytes.

  Status `partial`: False of the code: a CRL up to 25 hours old counts as current; a foreign issuer ends in a TypeError and the URL as issuer in a ValueError; naming the CA twice gives two CRLs. The order of the set of CRLs is taken to be that of the statuses.

**C176. A refused general message leaves no trace, and nothing of one response is sent with another.** Claim: Passphrases are kept exactly for accepted messages; the additional certificates are sent exactly with the response to the request for the certificate for protocol encryption.

* `C176_refused_refuted` (`Verif/Ra/GeneralCrl.lean`): Without the lightweight profile a refused message is not undone: the passphrase of its first entry is kept although the second entry, which the CA never answers, makes it fail.
* `C176_extra_refuted` (`Verif/Ra/GeneralCrl.lean`): If the response with the certificate for protocol encryption cannot be signed, the additional certificates are sent with the response to the next message, whoever sent it and whatever it asked for.

  Status `partial`: Proved under the lightweight profile, for the certificates also if signing succeeds. False of the code otherwise: the passphrase of a refused message is kept, and the certificates of a response which could not be signed go out with the next one.

**C177. The secret of a KEM ciphertext is the one later used to verify the protection of the transaction.** Claim: A request for a KEM ciphertext is answered exactly if it is the only entry of an unprotected message with a usable certificate, and the secret found for the transaction afterwards is the one encapsulated last.

* `C177_repeated_refuted` (`Verif/Ra/GeneralCrl.lean`): A client which asks for a second ciphertext in the same transaction is answered with a new one, but the secret used afterwards is the first.
* `C177_value_refuted` (`Verif/Ra/GeneralCrl.lean`): The value of the request has to be absent; a request with any value is answered.
* `C177_second_refuted` (`Verif/Ra/GeneralCrl.lean`): As second entry, without the lightweight profile, the request is answered as well, but its secret is kept where the verification of the protection does not look for it.

  Status `partial`: Proved for the first ciphertext of a transaction. False of the code: after a second one the first secret is used; a request with a value is answered; as second entry the secret is kept where nobody looks.

**C178. The keywords reject a general response which has not the expected entries.** Claim: A general response is accepted only with the expected number of entries; CA certificates are accepted exactly if their chain verifies.

* `C178_size_refuted` (`Verif/Ra/GeneralClientProps.lean`): The expected number of entries is not enforced: a response with any number of them passes, whatever number is expected.
* `C178_extra_entries_refuted` (`Verif/Ra/GeneralClientProps.lean`): The keywords accept a response with further entries: here two language tags, of which only the first is looked at.
* `C178_text_refuted` (`Verif/Ra/GeneralClientProps.lean`): With the expected number given as text, as by Robot Framework, nothing of the response is validated: the keyword succeeds for every general response, also if a value is demanded.
* `C178_number_refuted` (`Verif/Ra/GeneralClientProps.lean`): With another number of entries than expected, the keyword succeeds as well.
* `C178_absent_refuted` (`Verif/Ra/GeneralClientProps.lean`): RFC 9810, section 5.3.19.14: the value may be absent. A response without one is refused also where it is not demanded.
* `C178_trailing_refuted` (`Verif/Ra/GeneralClientProps.lean`): Bytes after the list of certificates are ignored.

  Status `partial`: Chain building and verification are parameters. False of the code: a wrong number of entries is only logged, and CA certificates are then not validated at all, nor if the number is given as text; an absent value is refused where it is allowed; bytes after the certificates are ignored.

**C179. A template for certificate requests is accepted exactly if it is one RFC 9810 allows.** Claim: The fields that must be absent are, and the key is given by one control with an RSA length or an algorithm with the parameters of its standard.

* `C179_edwards_refuted` (`Verif/Ra/GeneralClientProps.lean`): RFC 8410, section 3: for Ed25519 and Ed448 the parameters must be absent. A template which asks for such a key in this way is refused; one with parameters is accepted.
* `C179_optional_refuted` (`Verif/Ra/GeneralClientProps.lean`): RFC 9810, section 5.3.19.16: the controls are optional, and so is the whole value. A response without them is refused also where neither is demanded.
* `C179_unknown_control_refuted` (`Verif/Ra/GeneralClientProps.lean`): A control of a type which means nothing for a template is accepted.

  Status `partial`: Acceptance is characterised exactly. False of the code: Ed25519 and Ed448 are refused without and accepted with parameters; absent controls or an absent value are refused though optional; unknown controls are accepted.

**C180. CRLs of a response are accepted only if they are verified.** Claim: The response to the CRL update is accepted exactly if it has the expected number of CRLs, all of them verified, or none where allowed; the current CRL is verified too.

* `C180_current_refuted` (`Verif/Ra/GeneralClientProps.lean`): A current CRL is accepted without any look at its signature: whatever the verification says of it, only the linter decides.

  Status `partial`: Verification is a parameter. False of the code: the signature of the current CRL is not verified.

**C181. What the mock CA answers to a general message is what the keywords of the suite accept.** Claim: The answers of the CA with algorithms, language tags, passphrase, template and KEM ciphertext pass the validation of the client, which recovers the secret of the CA.

* `C181_sign_types_refuted` (`Verif/Ra/GeneralClientProps.lean`): The list of signature algorithms is only decoded: an empty one is accepted, and so is any algorithm.
* `C181_gcm_refuted` (`Verif/Ra/GeneralClientProps.lean`): RFC 9810, section 5.3.19.4, allows any symmetric algorithm as the preferred one. The keyword knows AES in CBC mode only, so a CA which prefers AES-256-GCM (2.16.840.1.101.3.4.1.46) is refused.

  Status `partial`: Proved for the answers named, with codecs which round-trip; certificates and CRLs are left to the parameters. False of the code: the list of signature algorithms may be empty or unknown; a CA which prefers AES-GCM is refused.

**C182. Each keyword for a general response accepts exactly the responses of its kind.** Claim: Language tags, current CRL, algorithms, KEM ciphertext and the certificate for protocol encryption are accepted exactly if the first entry of the type is read to its end and fits.

* `C182_bare_curve_refuted` (`Verif/Ra/GeneralClientIff.lean`): A curve given directly as algorithm, which is no algorithm of a key at all, has a name too: the list is accepted.
* `C182_prot_enc_refuted` (`Verif/Ra/GeneralClientIff.lean`): RFC 9810, section 5.3.19.1: the response carries the certificate. The keyword succeeds without one.

  Status `partial`: Characterised exactly. False of the code: the OID of a curve passes as an algorithm of a key; a response without the certificate for protocol encryption is accepted.

**C183. The confirmation a client builds from a response is accepted by the CA.** Claim: For a response with one certificate the built certConf passes the checks of the CA exactly if its identifier is 0, a written digest algorithm comes with version 3 and the digest is that of the rule; with defaults the certificate of a pending exchange is confirmed.

* `C183_version_refuted` (`Verif/Ra/ConfirmProps.lean`): The confirmation built with the defaults from a response with version 3 is always refused: the digest algorithm is written in the entry, because of the version of the response, but the message has version 2.
* `C183_flag_refuted` (`Verif/Ra/ConfirmProps.lean`): The text `False` for `hash_for_v3` does the same as `True`.

  Status `partial`: Acceptance is characterised exactly. False of the code: a response with version 3 is confirmed, by default, with a message of version 2 with a digest algorithm, which the CA always refuses; hash_for_v3 given as the text False has no effect.

**C184. Each entry of a confirmation names the request it answers.** Claim: The identifiers in a certConf are those of the entries of the response, or the one given.

* `C184_own_refuted` (`Verif/Ra/ConfirmProps.lean`): Whenever the entries of a response do not all have the same identifier, the confirmation does not have their identifiers.

  Status `partial`: Proved for one entry and for identifiers given. False of the code: with several entries all have the identifier of the first one. No confirmation is built from a response whose chain has one certificate.

**C185. A confirmation built for a certificate has the digest the CA expects.** Claim: build_cert_conf makes an entry which the CA accepts exactly if the digest is that of the rule; a rejection is always accepted, and a bad certificate identifier differs from the right one.

* `C185_no_digest_refuted` (`Verif/Ra/ConfirmProps.lean`): For a certificate whose signature algorithm has no separate digest no confirmation is built, though there is an algorithm by the rule (with which `build_cert_conf_from_resp` builds it).

  Status `partial`: False of the code: for certificates signed with an algorithm without a separate digest (Ed25519, ML-DSA) no confirmation is built; an algorithm given as argument is used, but not told to the CA.

**C186. The generalInfo field is accepted exactly if its entries are as RFC 9483 wants them.** Claim: A message passes the check of its generalInfo field exactly if implicit confirmation, waiting time and profiles are well-formed, allowed for the body and not combined wrongly.

* `C186_second_refuted` (`Verif/Ra/GenInfoProps.lean`): An implicit confirmation with any value is accepted after a correct one.
* `C186_absent_refuted` (`Verif/Ra/GenInfoProps.lean`): A request with an implicit confirmation without a value is not refused with `BadRequest`, but ends with an error of the ASN.1 library.

  Status `partial`: Characterised exactly. False of the code: only the first entry of a type is checked; an entry without value ends with an error of the ASN.1 library.

**C187. The CA accepts certificate profiles exactly if there is a known one for each request.** Claim: A message with profiles is processed exactly if their number is that of the requests and each is known.

* `C187_right_refuted` (`Verif/Ra/GenInfoProps.lean`): A request with one known profile for each of its requests is always refused.

  Status `partial`: False of the code: a message with exactly one known profile per request is always refused (the test is inverted). Unknown profiles are refused.

**C188. The generalInfo built by the suite has exactly the entries asked for.** Claim: Building, patching and adding set the entries asked for, keep the others where promised, are accepted by the CA in the positive case and refused in the negative one.

* `C188_profile_alone_refuted` (`Verif/Ra/GenInfoProps.lean`): A profile alone is not set by `patch_generalinfo`: the message stays as it was.
* `C188_twice_refuted` (`Verif/Ra/GenInfoProps.lean`): The profile which is built is named twice: for a message with one request the number of profiles is wrong by the RFC.

  Status `partial`: False of the code: a profile alone is not set by patch_generalinfo, and a profile is named twice. The latter makes up for the inverted test of the CA in messages with one request.

**C189. Sender and senderKID of an accepted message are bound to its protection.** Claim: A protected message passes the checks exactly if, with a MAC, the sender is a directory name whose common name is the senderKID, and with a signature the sender is the subject and the senderKID the key identifier of the first certificate.

* `C189_no_cn_refuted` (`Verif/Ra/SenderProps.lean`): A sender without any common name is accepted for MAC-based protection, if the senderKID is the text `NULL-DN`.
* `C189_ambiguous_refuted` (`Verif/Ra/SenderProps.lean`): The senderKID does not determine the common names: one for two common names `a` and `b` is also accepted for a sender with the one common name `a,CN=b`.
* `C189_dh_refuted` (`Verif/Ra/SenderProps.lean`): For DH-based MAC protection the rules for MACs do not hold: the sender has to be the subject of a certificate, and a message without certificates is refused whatever its senderKID, unless the sender is the empty name.
* `C189_no_cert_refuted` (`Verif/Ra/SenderProps.lean`): A signed message without any certificate passes the checks with any senderKID, if the sender is the empty name.
* `C189_mail_refuted` (`Verif/Ra/SenderProps.lean`): An e-mail address as sender does not determine the subject: attributes of other types are ignored.
* `C189_types_refuted` (`Verif/Ra/SenderProps.lean`): A response whose sender is an URI or of another type of name ends with an error of Python, also if differing senders are to be allowed.

  Status `partial`: Characterised exactly. False of the code: a sender without a common name is accepted with the senderKID NULL-DN; the identifier made of several common names is ambiguous; DH-based MACs are treated like signatures; without certificates the empty name is accepted with any senderKID; an e-mail address does not determine the subject; other types of names end with errors of Python.

**C191. A built header has exactly the fields which are not excluded.** Claim: prepare_pki_message sets each field of the header exactly if its name is not in exclude_fields, with the value given or a fresh one.

* `C191_blank_refuted` (`Verif/Ra/BuildProps.lean`): A blank after a comma is part of the name of the field, which is therefore not excluded.
* `C191_mac_kid_refuted` (`Verif/Ra/BuildProps.lean`): With MAC-based protection the senderKID cannot be left out by its name: it is there, unless `sender_kid` is excluded.
* `C191_mac_sender_refuted` (`Verif/Ra/BuildProps.lean`): With MAC-based protection no message without sender can be built, unless `sender_kid` is excluded, too.

  Status `partial`: Proved without MAC-based protection. False of the code: a field after a comma and a blank is not excluded; with for_mac the senderKID cannot be excluded by its name alone, and with the sender excluded no message can be built, in both cases unless the word sender_kid is excluded, too.

**C192. The common name is found in every written name.** Claim: get_common_name_from_str gives the common name of a written distinguished name, which is then the senderKID.

* `C192_blank_refuted` (`Verif/Ra/BuildProps.lean`): A common name after a comma and a blank is not found; the senderKID is the default one then.
* `C192_equals_refuted` (`Verif/Ra/BuildProps.lean`): A text with a second sign of equality in an attribute, or a comma in a value, ends with a `ValueError`, whatever name it stands for; then no message can be built, unless the senderKID is given or excluded.

  Status `partial`: Proved for lists of attributes whose names and values have neither commas nor signs of equality. False of the code: a common name after a comma and a blank is not found, and with a second sign of equality or a comma in a value no message can be built, unless the senderKID is given or excluded.

**C193. What the client builds for MAC-based protection is accepted by the CA.** Claim: Each message built with for_mac and without exclusions passes the header checks of the CA, if it arrives in time.

* `C193_null_refuted` (`Verif/Ra/BuildProps.lean`): A message with MAC-based protection whose sender has no common name is built all the same, with the senderKID `NULL-DN`.

  Status `partial`: Proved for ir, cr and p10cr, identifiers and time made by the client, and a CA which wants protection and not the lightweight profile. False of the code: a sender without a common name gets the senderKID NULL-DN instead of an error.

**C194. Nested messages which are built or patched are accepted.** Claim: The header of a message with an added protection repeats the identifiers of the message, and that of a batch has fresh ones, so that the checks of RA and CA accept them.

* `C194_patch_conf_refuted` (`Verif/Ra/BuildNestedProps.lean`): Patching the header of a message for an added protection does not set the recipNonce: the result for a confirmation is refused, if there was none before.
* `C194_values_refuted` (`Verif/Ra/BuildNestedProps.lean`): But there are fewer than asked for if two of the values drawn are equal.

  Status `partial`: False of the code: patching for an added protection leaves out the recipNonce of confirmations, which are then refused; generate_unique_byte_values returns fewer values than asked for after a collision.

**C195. A following message continues the transaction with a fresh senderNonce.** Claim: A polling message or one patched for an exchange has the transactionID of the other message, answers its senderNonce and has a senderNonce of its own.

* `C195_fresh_refuted` (`Verif/Ra/BuildNestedProps.lean`): The senderNonce of a polling request is not fresh: whatever random value is drawn, it is the one of the request before, if the response answered it.
* `C195_first_refuted` (`Verif/Ra/BuildNestedProps.lean`): A message which follows one without recipNonce, like the first request of a transaction, cannot be built or patched: this ends with an error of the ASN.1 library, also if all nonces are given.

  Status `partial`: False of the code: the senderNonce is the one of the message before, and a message without recipNonce cannot be followed.

**C196. The check of the status accepts exactly the status and failure wanted.** Claim: verify_pkistatusinfo passes exactly if the first status of the message is the one wanted, the body has the type wanted, and a wanted failure has its bit set.

* `C196_wrong_refuted` (`Verif/Ra/StatusProps.lean`): With the default arguments a rejection passes the check for each failure, whatever failure bits it has, as long as it has some and not all of them.
* `C196_later_refuted` (`Verif/Ra/StatusProps.lean`): Only the first status of a response counts: if it is `accepted`, the others are not looked at.

  Status `partial`: Acceptance is characterised for all bodies and arguments, and the answer about lists of names of failures with and without `exclusive`. Refuted: with the default arguments a rejection passes for each name of a failure whatever bits are set, as allow_failinfo_mismatch lets wrong bits pass (though absent bits are refused also then); and only the first status of a response counts, so that rejections after it are not noticed.

**C197. The keywords for status, failure and type pass exactly for the value named.** Claim: PKIStatus Must Be, PKIStatusInfo failinfo Bit Must Be and PKIMessage Body Type Must Be pass exactly if the message has the status, the failure bit or the type named.

* `C197_rejected_refuted` (`Verif/Ra/StatusProps.lean`): The documented call with the text `rejected` fails for each rejection.

  Status `partial`: For the names of RFC 9810 the keywords pass exactly for the status and type named, and for the bit named unless FAILINFO_MUST_BE_CORRECT is off, when any bits pass. Refuted: the documented call with `rejected` fails for every rejection, since the status is called `rejection`.

**C198. The check of the status text accepts exactly the texts with the wanted parts.** Claim: verify_statusstring passes exactly if one of the parts of any_text and all parts of all_text occur in the text at the position.

* `C198_comma_refuted` (`Verif/Ra/StatusProps.lean`): A comma at the end of the phrases makes the check pass for every text.
* `C198_absent_refuted` (`Verif/Ra/StatusProps.lean`): Without a text of the status the check for a phrase does not fail with a `ValueError`, as documented, but with an error of the ASN.1 library, unless the text must be present.

  Status `partial`: Characterised for non-empty arguments. Refuted: a list ending with a comma has an empty part, which occurs in every text, so that any_text passes always; and a message without texts gives an error of pyasn1 instead of the documented ValueError. Without arguments everything with a status passes.

**C199. The certificate taken from a response is the issued one at the position.** Claim: get_cert_from_pkimessage gives the certificate of the response at the position, only if one was issued, and leaves the message as it is.

* `C199_rejection_refuted` (`Verif/Ra/StatusProps.lean`): The status of the response is not looked at: a certificate is also taken from a rejection.
* `C199_encrypted_refuted` (`Verif/Ra/StatusProps.lean`): Asking for the certificate of a response with an encrypted one fails, and the encrypted certificate is lost; other messages stay as they were.

  Status `partial`: Which certificate and identifier are taken is characterised. Refuted: the status is not looked at, so a certificate is also taken from a rejection; and asking a response with an encrypted certificate for a certificate deletes the encrypted one.

**C200. A path reads the component it names.** Claim: get_asn1_value descends by the names and numbers of the path in their order, and raises ValueError if there is none.

* `C200_root_refuted` (`Verif/Ra/Asn1PathProps.lean`): There is no query for an element of the given object itself, if this is a list: each query which is answered descends at least two steps, and the documented way to write it, beginning with a slash, is refused.
* `C200_error_refuted` (`Verif/Ra/Asn1PathProps.lean`): A query which leads nowhere does not always end with the documented `ValueError`: if the last object reached is a list or a simple value, it ends with an `AttributeError`.

  Status `partial`: For names and numbers written as documented the keys are read in order, and what is found is below the one after the other. Refuted: no path denotes an element of the object itself if it is a list, and a path which fails at a list or a simple value raises AttributeError instead of ValueError.

**C201. Reading a component does not change the structure.** Claim: After get_asn1_value the structure is the one before.

* `C201_choice_refuted` (`Verif/Ra/Asn1PathProps.lean`): Reading another alternative of a choice than the one which is set deletes the latter.
* `C201_list_refuted` (`Verif/Ra/Asn1PathProps.lean`): Reading an element beyond the end of a list makes this longer, by elements without values.

  Status `partial`: Nothing changes if the alternatives on the path are those which are set and the elements are there. Refuted: reading another alternative deletes the one which is set, and reading beyond the end of a list makes it longer.

**C202. What is set with a path is read with it, and nothing else is changed.** Claim: After set_asn1_value the path reads the value set, and all other paths read what they did.

* `C202_shallow_refuted` (`Verif/Ra/Asn1PathProps.lean`): A component of the given object itself cannot be set by its name, by which it is read.
* `C202_dot_refuted` (`Verif/Ra/Asn1PathProps.lean`): Instead it can be set with a dot before its name, with which it cannot be read.
* `C202_number_refuted` (`Verif/Ra/Asn1PathProps.lean`): An element can be set with its number after a dot, but is read with a slash only.
* `C202_parent_refuted` (`Verif/Ra/Asn1PathProps.lean`): A component of an element can be read with the number after a dot, but not be set.

  Status `partial`: The round trip holds for paths with a parent whose numbers follow a slash, and what is read at other positions of sequences and lists is unchanged. Refuted: a component of the object itself cannot be set by its name; with a dot before the name it can be set but not read; a number after a dot sets an element but does not read it, or reads but does not set below it.

**C203. The check of required fields passes exactly if they are present.** Claim: asn1_must_contain_fields passes exactly if each field named has a value.

* `C203_absent_refuted` (`Verif/Ra/Asn1PathProps.lean`): So a component counts as present also if it is absent.

  Status `partial`: For a SEQUENCE it passes exactly if its type has components with the names, for a choice exactly if the names are that of the alternative which is set. Refuted: an optional component which is absent counts as present.

**C204. The check of a response of the CA accepts exactly the correct ones.** Claim: validate_ca_message_body passes exactly for ip, cp, kup and ccp with the identifier for the request and either a certificate with status, structure and caPubs as they should be, or a refusal without a certificate.

* `C204_p10cr_refuted` (`Verif/Ra/CaBodyProps.lean`): The rule that `caPubs` is absent in the answer to a request which is no PKCS #10 one is not checked: it makes no difference for the check of the body what the request was, and it accepts the field in a `cp`.
* `C204_encrypted_refuted` (`Verif/Ra/CaBodyProps.lean`): An encrypted certificate, as issued for a key which cannot sign, is never accepted.
* `C204_index_refuted` (`Verif/Ra/CaBodyProps.lean`): The status is always the one of the first response: for a message with a certificate in the first response and a refusal in the second one, the check of the latter fails.

  Status `partial`: The acceptance of caPubs, of the structure, and of the body with one response is characterised. Refuted: what the request was makes no difference for caPubs in validate_ca_message_body (the flag is not passed on), encrypted certificates are never accepted, and the status checked is always that of the first response.

**C205. The check of a response leaves the message as it is.** Claim: After validate_ca_message_body the message is the one before, so the certificate can be taken from it.

* `C205_lost_refuted` (`Verif/Ra/CaBodyProps.lean`): The check deletes the certificate it has accepted: afterwards none can be taken from the message.

  Status `partial`: Refuted for accepted certificates: reading the other alternative deletes the certificate, so none can be taken from the message afterwards. Refusals are left as they are, and check_if_response_contains_encrypted_cert answers correctly on a copy.

**C206. The check of extraCerts accepts exactly complete and verified chains.** Claim: validate_extra_certs passes exactly if the certificates of the protection and of the issued certificate are in extraCerts with their chains.

* `C206_pq_refuted` (`Verif/Ra/CaBodyProps.lean`): With a post-quantum, composite or stateful signature nothing is asked of the protection: in messages other than `ip`, `cp` and `kup` the certificates may be missing and the signature be wrong.
* `C206_refusal_refuted` (`Verif/Ra/CaBodyProps.lean`): A refusal in an `ip`, `cp` or `kup` is not accepted, whatever certificates protect it: it has no certificate to build the chain of.
* `C206_absent_refuted` (`Verif/Ra/CaBodyProps.lean`): With `allow_self_signed` a missing `extraCerts` field is accepted whoever signed the message: the signature is not verified, so it need not be one by a self-signed certificate.

  Status `partial`: The acceptance is characterised for all messages. Refuted: with post-quantum, composite and stateful signatures nothing is asked of the protection, refusals in ip, cp and kup are not accepted, and with allow_self_signed a missing field is accepted without verifying the signature.

**C207. The check of the header accepts exactly the headers which belong to the request.** Claim: validate_pkimessage_header passes exactly if version, sender, senderKID, generalInfo, time, transactionID and nonces are as required and belong to the request.

* `C207_default_sender_refuted` (`Verif/Ra/CaBodyProps.lean`): `allow_failure_sender` is documented for the MAC-based protection and set by default, but the sender of a message with a signature need not be the subject of its certificate either.

  Status `partial`: The acceptance is characterised for protected responses with a request, an interval and allow_failure_sender=False. Refuted: by default the sender need not be the subject of the certificate for signatures either, though the flag is documented for MAC-based protection.

**C208. The algorithm of the protection is consistent with the certificate exactly if the key is for it.** Claim: check_protection_alg_conform_to_spki is true exactly if the key of the certificate is one for the algorithm of the protection, and check_protection_alg_field demands this for signatures.

* `C208_ed_refuted` (`Verif/Ra/SigAlgProps.lean`): A certificate for Ed25519 is taken to be consistent with Ed448, and conversely.
* `C208_sha3_refuted` (`Verif/Ra/SigAlgProps.lean`): ECDSA with SHA-3 is refused for certificates with an elliptic curve key, though such a key is taken to be consistent with it elsewhere (C209).
* `C208_field_refuted` (`Verif/Ra/SigAlgProps.lean`): The consistency is not checked for post-quantum, composite and stateful signatures: any certificate, or none, will do.

  Status `partial`: Characterised for certificates with EC and RSA keys, and for post-quantum and composite algorithms with any certificate. Refuted: Ed25519 and Ed448 are taken to be consistent, ECDSA with SHA-3 is refused for EC keys, and check_protection_alg_field demands consistency for traditional signatures only. Stateful signatures are not characterised.

**C209. A signature algorithm is consistent with a key exactly if the key can make such signatures.** Claim: check_consistency_sig_alg_id_and_key passes exactly if the algorithm is one for the key, and raises BadSigAlgID otherwise.

* `C209_pss_refuted` (`Verif/Ra/SigAlgProps.lean`): An RSA key is never consistent with RSASSA-PSS: a request with a valid PSS signature as proof of possession is refused by the callers in `ca_ra_utils.py` (1521, 2374).
* `C209_errors_refuted` (`Verif/Ra/SigAlgProps.lean`): Besides the documented `BadAlg` there are errors which no caller handles: a composite algorithm with a key which is not composite, and the OID of a plain hash function, which has no part after a hyphen.

  Status `partial`: The acceptance is characterised for all OIDs and all keys with the names and OIDs the classes can have. Refuted: RSASSA-PSS is refused for RSA keys, and errors other than the documented one occur for composite algorithms with other keys and for the OIDs of hash functions.

**C210. The check of the protection by signature accepts exactly the valid ones.** Claim: check_pkimessage_signature_protection passes exactly if the algorithm is a signature algorithm, it belongs to the first certificate, and the signature verifies with it.

* `C210_pss_refuted` (`Verif/Ra/SigAlgProps.lean`): A message which is signed with RSASSA-PSS is refused, however valid its protection: the signature is no PKCS #1 v1.5 signature.
* `C210_pq_refuted` (`Verif/Ra/SigAlgProps.lean`): The keyword is for signature-based protection, but refuses every post-quantum, composite and stateful signature, and ECDSA with SHA-3.

  Status `partial`: The acceptance is characterised with check_sender_kid. Refuted: the first certificate is found with a verification which uses PKCS #1 v1.5, so messages protected with RSASSA-PSS are refused, and so is every post-quantum, composite and stateful signature.

**C212. The OCSP check accepts exactly verified answers with the expected status.** Claim: The check of a certificate by OCSP passes exactly if every responder asked gives a genuine, successful answer about this certificate with the expected status (or an allowed one), and some responder is asked.

* `C212_unverified_refuted` (`Verif/Ra/RevokedProps.lean`): C212, false of the code: an answer counts although it is about another certificate and its signature is not the responder's (RFC 6960, section 3.2): the outcome depends only on `successful` and `state`.
* `C212_default_refuted` (`Verif/Ra/RevokedProps.lean`): C212, false of the code: the documentation has the extension required by default when no address is given. The default is the reverse: without an address a certificate without the extension passes for every status (no responder was asked), and with an address the check of such a certificate fails whatever the responder says.

  Status `partial`: Exact characterisation of the OCSP check. False of the code: neither the signature nor the certificate the answer is about is checked (C212_unverified_refuted); the default of must_be_present is the reverse of its documentation, so that without an address and without the extension every status passes, and with an address a certificate without the extension is always refused (C212_default_refuted).

**C213. The CRL check finds exactly the certificates revoked by a genuine CRL of their issuer.** Claim: The check by CRL reports a certificate revoked exactly if a CRL of its issuer, named by the caller or by the certificate, lists its serial number.

* `C213_foreign_refuted` (`Verif/Ra/RevokedProps.lean`): C213, false of the code: a CRL decides whoever issued it and whether or not it is genuine — here one of another CA with a bad signature makes the certificate "revoked" because it lists the same number. The outcome depends only on the numbers listed.
* `C213_file_unread_refuted` (`Verif/Ra/RevokedProps.lean`): C213, false of the code: with an address and a file, the file is not read; a certificate listed only in the file passes.

  Status `partial`: Exact characterisation of passing and of 'revoked'. False of the code: issuer, signature and dates of a CRL do not count, a foreign CRL with the same number revokes (C213_foreign_refuted); with an address and a file the file is not read (C213_file_unread_refuted). C213_revoked_iff assumes that fetching and reading do not themselves raise CertRevoked.

**C214. A certificate passes as revoked exactly if OCSP or a CRL says that it is revoked.** Claim: The combined check passes for a certificate expected to be revoked exactly if a responder or a CRL says that it is revoked, and for one expected to be valid exactly if both checks pass.

* `C214_unknown_refuted` (`Verif/Ra/RevokedProps.lean`): C214, false of the code: a certificate expected to be revoked passes if its responder does not know it — it was never revoked, and no CRL is read — and one expected to be valid is then reported revoked.
* `C214_address_refuted` (`Verif/Ra/RevokedProps.lean`): C214, false of the code: with the address of a responder given, the check of a certificate that has no AIA extension fails, whatever that responder and the CRLs say.

  Status `partial`: Exact characterisation for both expectations. False of the code: a certificate the responder does not know counts as revoked (C214_unknown_refuted); giving the responder's address makes the check of every certificate without the AIA extension fail, though it is documented to override it (C214_address_refuted).

**C215. The signer found for a CRL is a certificate named as its issuer whose key verifies it.** Claim: The search for the signer of a CRL finds a certificate that is named as its issuer and whose key verifies its signature whenever the list has one, and the building of its chain leaves the caller's certificates unchanged.

* `C215_mutation_refuted` (`Verif/Ra/RevokedProps.lean`): C215, false of the code: building the chain of a CRL changes the caller's list: the whole trust store is appended to it, so that the anchors are afterwards among the certificates the caller holds; every further call appends them again.
* `C215_unreadable_refuted` (`Verif/Ra/RevokedProps.lean`): C215, false of the code: a certificate with the issuer's name whose key cannot be loaded makes the search fail although the signer follows it in the list.

  Status `partial`: The signer found is exactly the first fitting one. False of the code: a certificate of the same name with an unreadable key before it ends the search (C215_unreadable_refuted); the caller's list is extended by the trust store (C215_mutation_refuted).

**C216. A cross-signed certificate is accepted only if it is a CA certificate issued by the given CA as asked.** Claim: The check of a cross-signed certificate passes only for a CA certificate issued by the given CA certificate (issuer name, key identifier, signature) that agrees with the template.

* `C216_ca_flag_refuted` (`Verif/Ra/MigrationProps.lean`): C216, false of the code: a certificate that says that it is not a CA (`cA` is FALSE), and one issued by such a certificate, are accepted as well as the others: the value of `cA` does not count.
* `C216_aki_refuted` (`Verif/Ra/MigrationProps.lean`): C216, false of the code: the authority key identifier of the certificate need not be the key identifier of the CA: any will do, and none too.
* `C216_issuer_refuted` (`Verif/Ra/MigrationProps.lean`): C216, false of the code: the certificate may name another issuer than the CA whose key verifies it.

  Status `partial`: Exact characterisation. False of the code: the value of cA does not count (C216_ca_flag_refuted), nor the authority key identifier (C216_aki_refuted), nor the issuer's name (C216_issuer_refuted).

**C217. The migration checks accept exactly post-quantum and hybrid algorithms used as allowed.** Claim: Algorithm identifiers are accepted exactly if they are post-quantum or hybrid without parameters; key usages exactly if they fit the key's algorithm; and a certificate's key for a name exactly if its identifier is the one of that name.

* `C217_alg_refuted` (`Verif/Ra/MigrationProps.lean`): C217, false of the code: the check refuses every post-quantum algorithm identifier, with parameters and without, and accepts every identifier that is in no table, for instance that of RSA keys.
* `C217_usage_refuted` (`Verif/Ra/MigrationProps.lean`): C217, false of the code: a post-quantum signature key with any KeyUsage extension is refused — with `digitalSignature`, which the documentation allows, as with any other bits.
* `C217_stateful_refuted` (`Verif/Ra/MigrationProps.lean`): C217: the plain names `xmss`, `xmssmt` and `hss`, which the table of post-quantum names lists, are accepted only for a key that has exactly that name, never by the identifier.

  Status `partial`: Exact characterisation of the three checks. False of the code: every post-quantum identifier is refused and every unknown one accepted (C217_alg_refuted); every post-quantum signature key with a KeyUsage extension is refused (C217_usage_refuted); the listed names xmss, xmssmt and hss are not matched by identifier (C217_stateful_refuted).

**C218. Error messages of the CA belong to the request and report what went wrong.** Claim: An error message carries the transaction identifier of the request and its nonce, omits what the request lacks, reports the details of the exception as they were given, and a challenge is answered exactly to requests asking for one.

* `C218_neither_refuted` (`Verif/Ra/AnswerProps.lean`): A request with neither: the names are joined with a comma and a blank, and the second one is not recognised, so that the error message carries a random transaction identifier.
* `C218_text_refuted` (`Verif/Ra/AnswerProps.lean`): A text given as details is followed by one detail for each of its characters.

  Status `partial`: Proved for requests which have one of the two fields. False of the code: a request with neither gets a random transaction identifier, since the second name of the list of omitted fields keeps a blank (C218_neither_refuted); details given as a text are followed by one detail per character (C218_text_refuted).

**C219. The answer is protected in the way the request was.** Claim: An answer has the kind of protection of its request, with the same MAC algorithm, the certificate of the protecting key first, and the secondary certificate and the chain of the CA included; the configured alternative key is used.

* `C219_alt_refuted` (`Verif/Ra/AnswerProps.lean`): The alternative key of the configuration is never used.
* `C219_mac_refuted` (`Verif/Ra/AnswerProps.lean`): So requests protected with HMAC-SHA256 and with KMAC-SHAKE128 get the same algorithm, which cannot be that of both.

  Status `partial`: Kind, certificates and sender are characterised. False of the code: MACs other than PBMAC1 and the password-based MAC are answered with the default algorithm (C219_mac_refuted); the alternative key of the handler is never used (C219_alt_refuted).

**C220. Unprotected and nested requests are answered with protection and the same certificates.** Claim: Unprotected and nested requests are answered, with the protection of the outer message and with the secondary certificate, and certificates are served with their own content type.

* `C220_second_refuted` (`Verif/Ra/AnswerProps.lean`): The secondary certificate is not in every answer.
* `C220_nested_kem_refuted` (`Verif/Ra/AnswerProps.lean`): An answer to a nested request protected by a KEM-based MAC uses the password of the CA, not the secret agreed.
* `C220_nested_dh_refuted` (`Verif/Ra/AnswerProps.lean`): A nested request protected by a DH-based MAC is never answered.
* `C220_type_refuted` (`Verif/Ra/AnswerProps.lean`): With the default, everything is sent as a CMP message; a certificate is sent with its own type only if asked for.

  Status `partial`: False of the code: answers to unprotected requests lack the secondary certificate (C220_second_refuted); a nested request protected by a KEM-based MAC is answered with the password of the CA (C220_nested_kem_refuted), one protected by a DH-based MAC not at all (C220_nested_dh_refuted); certificates are served with the content type of CMP messages (C220_type_refuted).

**C221. Every endpoint verifies the protection of a request before it issues a certificate.** Claim: No endpoint of the CA issues a certificate for a request whose protection does not verify or whose certificate is revoked.

* `C221_unverified_refuted` (`Verif/CA/EndpointsProps.lean`): No endpoint but `/multi-auth` looks at the protection: each issues a certificate for a request with an invalid signature.

  Status `partial`: True of /multi-auth (C221_multi_iff). False of the code for /chameleon, /cert-discovery, /related-cert, /catalyst-sig, /catalyst-issuing and /sun-hybrid: each issues a certificate for a request with an invalid signature (C221_unverified_refuted); C221_chameleon_iff and C221_related_iff list the conditions they do check. That the builders called do not verify the protection themselves was read off hybrid_issuing.py; the builders are parameters.

**C222. Certificates issued by the endpoints for hybrid certificates can be confirmed, once per transaction.** Claim: A certificate issued without implicit confirmation can be confirmed by a certConf of its transaction, a transaction identifier is accepted once, and a refused request changes nothing.

* `C222_chameleon_refuted` (`Verif/CA/EndpointsProps.lean`): So a certificate issued there without implicit confirmation cannot be confirmed: the `certConf` of its transaction is refused.
* `C222_reuse_refuted` (`Verif/CA/EndpointsProps.lean`): A transaction identifier in use is refused, but the certificate is already in the database.

  Status `partial`: Registered for confirmation on /related-cert and /sun-hybrid (C222_open_iff, C222_sun). False of the code: a certificate of /chameleon can never be confirmed (C222_chameleon_refuted); with implicit confirmation the transaction identifier stays free (C222_implicit); a request refused for its used identifier has already put its certificate into the database (C222_reuse_refuted).

**C223. Each request to an endpoint for hybrid certificates gets a protected answer which belongs to it.** Claim: Every answer of these endpoints is protected once and every error of the test suite is answered with an error message carrying the identifiers of the request.

* `C223_plain_refuted` (`Verif/CA/EndpointsProps.lean`): The confirmation of a certificate is answered without protection by four of the endpoints.
* `C223_escapes_refuted` (`Verif/CA/EndpointsProps.lean`): An error of the builder leaves `/cert-discovery` as an exception, also one which has a CMP error message.
* `C223_sun_unprotected_refuted` (`Verif/CA/EndpointsProps.lean`): An unprotected request to `/sun-hybrid` leaves the function as an exception, without an answer.
* `C223_sun_confirm_refuted` (`Verif/CA/EndpointsProps.lean`): A refused confirmation on `/sun-hybrid` leaves the function as an exception, without an answer.

  Status `partial`: False of the code: the answer to a certConf is not protected on four endpoints (C223_plain_refuted; all other answers are, C223_protected_partial); errors leave /cert-discovery and /sun-hybrid as exceptions (C223_escapes_refuted, C223_sun_unprotected_refuted, C223_sun_confirm_refuted); /chameleon answers CMP errors without the identifiers of the request (C223_chameleon_ids); /catalyst-issuing protects its error messages twice (C223_catalyst).

**C224. Data which is not a message is answered with a CMP error message.** Claim: Data sent to the CA is processed exactly if it is the encoding of a message, and answered with a CMP error message otherwise.

* `C224_hybrid_refuted` (`Verif/CA/EndpointsProps.lean`): The other endpoints answer it with the status 500, and not with a CMP message.
* `C224_trailing_refuted` (`Verif/CA/EndpointsProps.lean`): What follows a message is not looked at: a message with any data appended is parsed like the message.

  Status `partial`: True of /issuing. False of the code: the other endpoints answer malformed data with the status 500 and no CMP message (C224_hybrid_refuted); data after a message is dropped without notice (C224_trailing_refuted).

**C225. An ir and a cr are granted under the same conditions.** Claim: A certificate request with a valid proof of possession from a known certificate is answered in the same way whether it is sent as an ir or as a cr; a cr is granted only to a certificate of the CA.

* `C225_kga_refuted` (`Verif/Ra/HandlerProps.lean`): A request for a generated key is granted as an `ir`, but ends with a `TypeError` as a `cr`.
* `C225_agree_refuted` (`Verif/Ra/HandlerProps.lean`): Likewise a request with the MAC of key agreement.

  Status `partial`: Equal answers are proved for signatures and the proof by a registration authority, and the known certificate for every protection but a password. False of the code: the handler of a cr passes neither the key of the key generation authority nor those for key agreement, so that such requests are granted as ir only (C225_kga_refuted, C225_agree_refuted); C225_cr_partial states what is left.

**C226. A p10cr is granted exactly if it is signed, named and its key is not compromised.** Claim: The CA issues a certificate for a PKCS#10 request exactly if its signature verifies, the certificate is named and the key is not known to be compromised; the certificate holds the requested key.

* `C226_compromised_refuted` (`Verif/Ra/HandlerProps.lean`): The handler looks up whether the key is compromised, but grants the request all the same.
* `C226_unnamed_refuted` (`Verif/Ra/HandlerProps.lean`): A request with an empty subject is accepted for its alternative name, which the certificate does not have: it has no name at all.

  Status `partial`: The exact condition of granting is proved. False of the code: the handler drops the result of its look-up of compromised keys (C226_compromised_refuted; CAHandler makes the look-up itself for p10cr messages, so this matters to other callers of the handler), and a request without a subject is accepted for an alternative name which the certificate then lacks (C226_unnamed_refuted).

**C227. A certificate sent encrypted is never confirmed implicitly.** Claim: A certificate counts as confirmed without a certConf exactly if the request asked for this and no certificate of the response was sent encrypted.

* `C227_mixed_refuted` (`Verif/Ra/HandlerProps.lean`): A `cr` for two keys whose second certificate is sent encrypted, so that its decryption shows the possession of the key, counts as confirmed before the client has decrypted it.

  Status `partial`: Proved for ir and kur, which have one response. False of the code for a cr with several requests: only the first response is looked at (C227_mixed_refuted).

**C228. The key of a MAC is determined by the pre-shared secret and has the size of the algorithm.** Claim: The key with which the CA verifies a MAC has the size the algorithm needs, is made from the configured secret, and different secrets give different keys.

* `C228_same_refuted` (`Verif/Ra/ProtCheckProps.lean`): Different secrets give the same key: one which repeats another, and one which agrees with another in the first bytes.
* `C228_hex_refuted` (`Verif/Ra/ProtCheckProps.lean`): A secret given in hexadecimal cannot be used for a MAC which needs a size, though it can for the others.
* `C228_text_refuted` (`Verif/Ra/ProtCheckProps.lean`): A text is expanded by characters: the key may have more bytes than the algorithm asks for.

  Status `partial`: The size and the content of the key are proved for secrets which are bytes. False of the code: a secret which repeats another, or agrees with it in the first bytes, gives the same key (C228_same_refuted); a secret in hexadecimal is expanded before it is decoded, which fails (C228_hex_refuted); a text is expanded by characters, so that the key may be longer than asked for (C228_text_refuted).

**C229. The CA accepts a protection exactly if it verifies and its maker is authorised.** Claim: A request passes the check of its protection exactly if the MAC or signature verifies, the kind of protection is allowed for the body, the chain of the signer ends in the trust store and the signer of a ccr may send one; every refusal is an error of the test suite.

* `C229_ccr_refuted` (`Verif/Ra/ProtCheckProps.lean`): A certificate in the trust store for cross-certification may not send a `ccr`: its chain has to end in the other trust store as well.
* `C229_error_refuted` (`Verif/Ra/ProtCheckProps.lean`): A request can end with an error which is not one of the test suite.

  Status `partial`: The exact conditions are proved for each kind of protection. False of the code: a certificate in the trust store for cross-certification is refused unless its chain ends in the other trust store too (C229_ccr_refuted); making the key of a MAC can raise a ValueError outside the try (C229_error_refuted). The method check_signer_extensions, which would look at the usage period of the key (C230), is not called.

**C230. The usage period of a private key lies within the validity and ends after it begins.** Claim: A usage period is accepted exactly if one of its times is present, both lie within the validity of the certificate, and the end comes after the beginning.

* `C230_order_refuted` (`Verif/Ra/ProtCheckProps.lean`): Of times written differently the order of the texts is not that of the times: a period which ends before it begins is accepted, and one which begins at twelve and ends later is refused.

  Status `partial`: Proved for times whose texts are ordered as the times are. False of the code otherwise: the texts are compared, so that a fraction of a second or missing seconds invert the order (C230_order_refuted). No clock is read.

**C231. The index of the proof of possession of a stateful key cannot be used again.** Claim: When the CA issues certificates for stateful keys, each is registered with the index its own proof of possession used, so that no later message with this index is accepted.

* `C231_confirm_refuted` (`Verif/CA/StflRegProps.lean`): With two certificates each is registered with the index of the first proof: the index of the second proof is accepted again, as that of a signed message.
* `C231_confirm_mixed_refuted` (`Verif/CA/StflRegProps.lean`): With a certificate for another key first, the confirmation of a stateful one is refused.
* `C231_same_key_refuted` (`Verif/CA/StflRegProps.lean`): The indices are kept for each certificate: of two certificates for one key each accepts the same index.

  Status `partial`: Proved for certificates registered with the response, for p10cr, for chameleon requests and for the confirmation of one certificate. False of the code: on a certConf for several certificates each is registered with the index of the first proof, so that the index of the second can be used again (C231_confirm_refuted) or the confirmation is refused (C231_confirm_mixed_refuted); the register is by certificate, not by key (C231_same_key_refuted).

**C232. A certificate which differs from its template needs the status grantedWithMods.** Claim: The check for grantedWithMods passes exactly if the certificate of the entry has everything the template of the entry asks for, or the status of the entry says that it was modified.

* `C232_missing_refuted` (`Verif/Ra/GrantedProps.lean`): The check of an entry the request does not have passes, if the first response has a certificate.
* `C232_index_refuted` (`Verif/Ra/GrantedProps.lean`): An index is used for the request only: the second response is not looked at. Its modification without the status for it is accepted, and if it is as asked for, it is refused.
* `C232_extension_refuted` (`Verif/Ra/GrantedProps.lean`): A requested extension with another value is not a modification for the check.
* `C232_bodies_refuted` (`Verif/Ra/GrantedProps.lean`): A cross-certification and a PKCS#10 request cannot be checked.

  Status `partial`: Proved for the first entry. False of the code: with another index the template is compared with the certificate and the status of the first response (C232_index_refuted); an entry which is not there passes (C232_missing_refuted); values of extensions are not compared (C232_extension_refuted); ccr and p10cr cannot be checked (C232_bodies_refuted).

**C233. A pkiConf is protected as the response it confirms.** Claim: The check of a pkiConf passes only if it is protected with the same algorithm and by the same sender as the response of the CA.

* `C233_mac_refuted` (`Verif/Ra/GrantedProps.lean`): In a transaction with MACs nothing of the protection of the `pkiConf` is looked at.
* `C233_cross_refuted` (`Verif/Ra/GrantedProps.lean`): The confirmation after a cross-certification is refused.

  Status `partial`: The exact condition is proved for signatures. False of the code: with MACs nothing of the pkiConf is looked at, it may be without protection (C233_mac_refuted); the confirmation after a ccp is refused (C233_cross_refuted). The header is not checked.

**C234. A certificate template has what was asked for and nothing else.** Claim: A prepared template has every given value unless its field is excluded, has no excluded field, takes missing values from the certificate if there is one, and leaves the arguments of the caller as they are.

* `C234_serial_zero_refuted` (`Verif/Ra/ReqTmplProps.lean`): A serial number of zero is not used beside a certificate: the template has that of the certificate.
* `C234_kga_spki_refuted` (`Verif/Ra/ReqTmplProps.lean`): A given `SubjectPublicKeyInfo` is dropped if the template is for a key generation authority and no key is given: the request does not name the algorithm.
* `C234_caller_list_refuted` (`Verif/Ra/ReqTmplProps.lean`): The list of extensions of the caller is changed, so a second template has the extensions of both certificates.

  Status `partial`: Proved but for three cases in which it is false of the code: the serial number zero is replaced by that of the certificate (C234_serial_zero_refuted); a given SubjectPublicKeyInfo is dropped for key generation without a key (C234_kga_spki_refuted); the list of extensions of the caller is extended by those of the certificate (C234_caller_list_refuted).

**C235. The proof of possession of a prepared request is accepted by the CA, and a bad one is refused.** Claim: A request that the client prepares with a private key has a proof of the kind of the key which the CA accepts; with bad_pop it has one which the CA refuses; for key generation it has no proof and only the algorithm of the key.

* `C235_bad_pop_refuted` (`Verif/Ra/ReqBuildProps.lean`): `bad_pop` does not make an invalid proof for a KEM key: the request is as without it, and accepted.
* `C235_bad_pop_csr_refuted` (`Verif/Ra/ReqBuildProps.lean`): A certificate request from a PKCS#10 request has a valid proof even if an invalid one is asked for; `ir` and `ccr` do as they are asked.
* `C235_every_proof_refuted` (`?`): 
* `C235_popo_default_refuted` (`?`): 
* `C235_kga_template_refuted` (`Verif/Ra/ReqBuildProps.lean`): A given template is not changed for a key generation authority: with a key in it the CA refuses the request.

  Status `partial`: Acceptance is proved for all keys but Diffie-Hellman ones, refusal of a bad proof for keys that sign. False of the code: bad_pop and ra_verified change nothing for KEM and X25519/X448 keys (C235_bad_pop_refuted, C235_flags_ignored) and bad_pop nothing for cr from a PKCS#10 request (C235_bad_pop_csr_refuted); Diffie-Hellman keys get no proof (C235_every_proof_refuted); prepare_popo asks for encipherment for X25519/X448 keys by default (C235_popo_default_refuted); an object identifier as algorithm is an error (C235_oid_refused); a template that is given keeps its key for key generation and is refused by the CA (C235_kga_template_refuted).

**C236. A request message has exactly the requests, the version and the body it was built for.** Claim: A message built from a key, a PKCS#10 request or for a key update has the given identifier, subject, key, extensions and controls, the requests of the caller unchanged and in order, the body that was asked for and the right version.

* `C236_caller_list_refuted` (`Verif/Ra/ReqBuildProps.lean`): The list of the caller has the message afterwards too.
* `C236_spki_refuted` (`?`): 
* `C236_kur_subject_refuted` (`Verif/Ra/ReqBuildProps.lean`): A key update for a certificate does not keep its subject if no name is given.
* `C236_kur_controls_refuted` (`Verif/Ra/ReqBuildProps.lean`): The controls of the caller are dropped if those of the certificate are used.

  Status `partial`: Proved for the functions with a key, with a PKCS#10 request, and for key updates with a given name. False of the code: the list of messages of the caller is changed (C236_caller_list_refuted); cr, krr and ccr ignore a SubjectPublicKeyInfo and a CertRequest (C236_spki_refuted); a key update without a name asks for the subject CN=Hans Mustermann (C236_kur_subject_refuted) and with use_controls drops the controls of the caller (C236_kur_controls_refuted).

**C237. Controls name the certificate and protect the key they are made for.** Claim: The control for the old certificate names exactly the given certificate, the controls of the caller are kept, and the archive control encrypts a private key if a password is given.

* `C237_serial_zero_refuted` (`?`): 
* `C237_caller_list_refuted` (`Verif/Ra/ReqTmplProps.lean`): The list of controls of the caller gets the new control.
* `C237_archive_refuted` (`?`): 

  Status `partial`: Proved for the control of the old certificate but for the serial number zero, which is an error (C237_serial_zero_refuted). False of the code: the list of the caller is changed (C237_caller_list_refuted); a private key with a password is put into the control in the clear, the branch that encrypts it is not reached (C237_archive_refuted).

**C239. A revocation request revokes exactly the certificate it was made from, for the requested reason.** Claim: The request that the client builds from a certificate and a named reason is answered by the CA with the revocation of exactly this certificate for this reason (or with its revival, for removeFromCRL); details that are meant to be invalid are refused.

* `C239_blank_refuted` (`Verif/Ra/RevReqProps.lean`): In particular a blank after a comma is not skipped.
* `C239_serial_only_refuted` (`Verif/Ra/RevReqProps.lean`): The request with a serial number but without a certificate and a template has no issuer; the CA does not answer it with a revocation, whatever was issued. This is the only way in which `build_cmp_revive_request` names its arguments.

  Status `partial`: Proved for requests made from a certificate whose issuer has a text that is read back and that is unique by issuer and serial number. False of the code: a blank after a comma in a list of reasons is an error (C239_blank_refuted); a request, in particular a revival, with a serial number and no certificate has no issuer and is refused, as there is no argument for it (C239_serial_only_refuted); the serial number zero is replaced by that of the certificate (C239_serial_number).

**C240. A certification request has what was asked for, and its p10cr gets a certificate for its key.** Claim: build_csr makes a request with exactly the given name, key and extensions and a signature that verifies (one that does not, for bad_pop); the CA answers the p10cr with a certificate for this key, and compare_csr_and_cert accepts this certificate.

* `C240_second_extensions_refuted` (`Verif/Ra/CsrBuildProps.lean`): Extensions that are added to a request that has some are not read, by the CA or by anyone.
* `C240_ignored_refuted` (`Verif/Ra/CsrBuildProps.lean`): `subjectAltName`, `exclude_signature` and `for_kga` are taken by `build_p10cr_from_key` but have no effect.
* `C240_pq_hash_refuted` (`Verif/Ra/CsrBuildProps.lean`): For a key of a post-quantum signature algorithm that does not support the hash, which is SHA-256 if none is given, no `p10cr` is built.
* `C240_compare_refuted` (`Verif/Ra/CsrBuildProps.lean`): The certificate that the CA issues for a request with extensions passes the comparison only if what was requested is what the CA puts into every certificate, with the key identifier last.

  Status `partial`: Proved for the request and for the answer to the p10cr; the extensions of the request are not in the certificate. False of the code: no p10cr is built for a post-quantum key that does not support the hash, which is SHA-256 by default (C240_pq_hash_refuted); subjectAltName, exclude_signature and for_kga are ignored by build_p10cr_from_key (C240_ignored_refuted); extensions that are added later are not read (C240_second_extensions_refuted); the certificate for a request with extensions fails the comparison unless they are those of every certificate of the CA (C240_compare_refuted).

**C241. A prepared SubjectPublicKeyInfo has the key and the parameters that were asked for.** Claim: prepare_subject_public_key_info gives the structure of the key, without its bits for a KGA, and with the parameters that were asked for.

* `C241_kga_composite_refuted` (`Verif/Ra/CsrBuildProps.lean`): A composite private key is put in with its bits even for a KGA.
* `C241_kga_params_refuted` (`Verif/Ra/CsrBuildProps.lean`): For a KGA the parameters of the key are dropped: of a key on an elliptic curve the curve.
* `C241_null_refuted` (`Verif/Ra/CsrBuildProps.lean`): `add_null` has no effect on a key that is neither composite nor for a KGA.

  Status `partial`: Proved for keys that are neither RSA nor composite. False of the code: a composite private key keeps its bits for a KGA (C241_kga_composite_refuted); the parameters of a key, such as the curve, are dropped for a KGA (C241_kga_params_refuted); add_null has no effect on a key that is neither composite nor for a KGA (C241_null_refuted).

**C242. A CertResponse has the status, the failures and the certificate that it was given.** Claim: prepare_pkistatusinfo accepts exactly the names of statuses and failures of RFC 9810 and sets exactly their bits; prepare_cert_response gives the identifier, the status, and the pair for the certificate, encrypted certificate and private key that are given.

* `C242_cert_refuted` (`Verif/Ra/RespBuildProps.lean`): Of a certificate and an encrypted one the former is lost: the client does not get it.

  Status `partial`: Proved for statuses and failures given by names; texts of digits, which are read as numbers or bits, are modelled but characterised only for zeros. False of the code: when a certificate and an encrypted one are given the former is lost (C242_cert_refuted).

**C243. The answers that a CA message is built with fit the request and are accepted by the client.** Claim: Each request for certificates gets the body RFC 9810 has for it, in a message with the transaction identifier and nonces of the request and one response for each entry; the client accepts a grant and a refusal made in this way.

* `C243_ccr_refuted` (`Verif/Ra/RespMsgProps.lean`): `_build_ca_cert_response_body` does not answer a `ccr`, unless the name of the body is given, since the name of the request is misspelt.
* `C243_p10_refuted` (`Verif/Ra/RespMsgProps.lean`): The answer to a PKCS #10 request, for which a certificate but no identifier is given, is refused by the client, since its identifier is 0 and not -1.
* `C243_request_refuted` (`Verif/Ra/RespMsgProps.lean`): Neither the body of the request nor the identifiers in it have an effect on the body and the responses for a certificate which is given.
* `C243_kga_header_refuted` (`Verif/Ra/RespMsgProps.lean`): The option not to take the fields of the header from the request has no effect for keys which are generated by the CA: the answer has the transaction identifier and the nonce of the request all the same.
* `C243_responses_refuted` (`Verif/Ra/RespMsgProps.lean`): Responses alone are enough for `ip`, but not for `cp`.
* `C243_none_refuted` (`Verif/Ra/RespMsgProps.lean`): With an encrypted certificate alone the list of certificates which `build_ip_cmp_message` gives has an entry which is no certificate; the one of `build_cp_cmp_message` is empty.
* `C243_p10_id_refuted` (`Verif/Ra/RespMsgProps.lean`): For a PKCS #10 request the identifier 0, if it is given, is replaced by -1.
* `C243_index_refuted` (`Verif/Ra/RespMsgProps.lean`): One entry of a request can be answered by `build_cp_cmp_message` without an identifier if the request is a `cr`; for another body, for which a certificate is issued all the same, there is no answer.
* `C243_krp_refuted` (`Verif/Ra/RespMsgProps.lean`): A response to a request for the recovery of keys says that the certificate was accepted, whatever its status is.

  Status `partial`: Proved for the builders; issuing a certificate is a parameter (IssueEnv), for which C243_ids takes the model of process_cert_requests. False of the code: _build_ca_cert_response_body does not answer a ccr (C243_ccr_refuted); the answer to a p10cr with a given certificate has the identifier 0, which the client refuses (C243_p10_refuted), and neither body nor identifiers are taken from the request (C243_request_refuted); set_header_fields has no effect for keys the CA generates (C243_kga_header_refuted); responses alone are enough for ip but not for cp (C243_responses_refuted); with an encrypted certificate alone the list of certificates of ip has an entry None (C243_none_refuted); the identifier 0 is replaced by -1 for a p10cr (C243_p10_id_refuted); one entry of an ir, kur or ccr cannot be answered with cp by its index (C243_index_refuted); krp says accepted whatever its status is (C243_krp_refuted).

**C244. The algorithm of a signature fits the key, the hash and the digest of the signed data.** Claim: The OID chosen for a signature is the one the standards have for the key, hash and RSA-PSS option; reading it back gives the same hash and it is accepted for the same key; the parameters are those of the RFCs; SignedData names a digest the algorithm allows.

* `C244_pss_refuted` (`Verif/Ra/SignOidProps.lean`): There is no PSS algorithm for SHA-384 or SHA-512, which RFC 4055 has parameters for.
* `C244_pss_params_refuted` (`Verif/Ra/SignOidProps.lean`): With PSS both options are accepted together, and `add_null` has no effect.
* `C244_consistent_refuted` (`Verif/Ra/SignOidProps.lean`): The check refuses each algorithm of PSS for the RSA key which made the signature.
* `C244_pure_refuted` (`Verif/Ra/SignOidProps.lean`): By default the signature of signed data by a key of ML-DSA or SLH-DSA is one with a pre-hash, for which CMS has no algorithm (RFC 9882 and RFC 9814 have the pure ones only).
* `C244_stateful_refuted` (`Verif/Ra/SignOidProps.lean`): Signed data by a stateful key is refused: the check of its algorithms has no digest for it, although `get_digest_alg_for_cmp` has one.
* `C244_ignored_refuted` (`Verif/Ra/SignOidProps.lean`): A hash which a key of ML-DSA or SLH-DSA does not support is accepted and ignored; signed data with it as digest is refused afterwards.
* `C244_composite_refuted` (`Verif/Ra/SignOidProps.lean`): A composite key whose only algorithm is one with PSS has a digest, but no algorithm for signed data, which is made without PSS.

  Status `partial`: Proved for RSA, EC, EdDSA, ML-DSA, SLH-DSA and Falcon, with composite keys as names; the signing itself is not modelled here. False of the code: there is no RSA-PSS with SHA-384 or SHA-512 (C244_pss_refuted); with RSA-PSS both options for the parameters are accepted together and add_null has no effect (C244_pss_params_refuted); the OIDs of RSA-PSS are refused for the RSA key they were chosen for (C244_consistent_refuted); SignedData by ML-DSA or SLH-DSA uses a pre-hash OID by default, which RFC 9882 and RFC 9814 do not allow (C244_pure_refuted); no digest for stateful keys although the digest of a certificate is known (C244_stateful_refuted); a hash which the key does not support is ignored without an error (C244_ignored_refuted); a composite key with RSA-PSS only has a digest but no algorithm (C244_composite_refuted).

**C245. The addresses of revocation information in issued certificates are found by the client, and a request made from them is answered.** Claim: The extensions which the CA adds have exactly its OCSP address and CRL address; the checks of revocation find exactly these; a crlStatusList made from such a certificate, or from the CRL, is answered with the CRL when it is old enough; reasons are the bits named in the text.

* `C245_blank_refuted` (`Verif/Ra/CrlPointProps.lean`): A blank after a comma is an error, although the texts of the statuses and failures may have one.
* `C245_idp_reasons_refuted` (`Verif/Ra/CrlPointProps.lean`): The reasons of an issuing distribution point are all nine of them, whichever were asked for.
* `C245_reasons_only_refuted` (`Verif/Ra/CrlPointProps.lean`): A distribution point of reasons only is made, which RFC 5280 (4.2.1.13) forbids; and so is one with nothing in it.
* `C245_empty_refuted` (`Verif/Ra/CrlPointProps.lean`): An empty address is no name for a distribution point, and an error for an issuing distribution point.
* `C245_idp_given_refuted` (`Verif/Ra/CrlPointProps.lean`): The name for the extension is ignored if an issuing distribution point is given, even if there are two of them, which is refused otherwise.
* `C245_crl_issuer_refuted` (`Verif/Ra/CrlPointProps.lean`): The second distribution point of the CA has the CA itself as `cRLIssuer`, and no name: RFC 5280 (4.2.1.13) asks the CA to leave it out and to include the name.
* `C245_index_refuted` (`Verif/Ra/CrlPointProps.lean`): There is no request for the second distribution point, or for one which is not there; for both the error is that no name was given.
* `C245_given_refuted` (`Verif/Ra/CrlPointProps.lean`): An address or a name which is given is ignored if the certificate has a distribution point.
* `C245_file_index_refuted` (`Verif/Ra/CrlPointProps.lean`): The index has no effect for a CRL: its first distribution point is taken.
* `C245_cert_file_refuted` (`Verif/Ra/CrlPointProps.lean`): With a certificate and a CRL the source is the one of the CRL, and that of the certificate is lost.
* `C245_bad_refuted` (`Verif/Ra/CrlPointProps.lean`): A time which is meant to be bad is not refused by the CA: it is one day later, and the answer is the CRL or nothing.

  Status `partial`: Proved for the values of the extensions; their encoding is not modelled, and names are parsed by a parameter. False of the code: a blank after a comma in the reasons is an error (C245_blank_refuted); the reasons of an issuing distribution point are always all nine (C245_idp_reasons_refuted); a distribution point with reasons only is made (C245_reasons_only_refuted); an empty address is ignored in one function and an error in another (C245_empty_refuted); names beside a given issuing distribution point are ignored (C245_idp_given_refuted); the CA adds a point with itself as cRLIssuer and no name (C245_crl_issuer_refuted), from which no request can be made (C245_index_refuted); an address or name is ignored beside a certificate (C245_given_refuted), a certificate beside a CRL (C245_cert_file_refuted), the index for a CRL (C245_file_index_refuted); a bad time is not refused by the CA (C245_bad_refuted).

**C246. An IssuerAndSerialNumber names the certificate it was made from.** Claim: From a certificate alone it has the issuer and serial number of the certificate; given values replace them; a modified serial number differs; without a certificate both values are needed.

* `C246_mod_issuer_refuted` (`Verif/Ra/CrlPointProps.lean`): An issuer which is meant to be modified is not, if it is given.
* `C246_empty_refuted` (`Verif/Ra/CrlPointProps.lean`): An empty issuer, which is meant to be a name without entries, is replaced by that of the certificate; without a certificate it is a `TypeError`.

  Status `partial`: Proved; the change of the issuer text is a parameter. False of the code: modify_issuer has no effect beside a given issuer (C246_mod_issuer_refuted); an empty issuer is replaced by that of the certificate and is a TypeError without one (C246_empty_refuted).

**C247. Proofs of possession by key agreement and by an encrypted key, from the client to the CA.** Claim: The MAC that the client computes with its key and the certificate of the CA is accepted by the CA, and the spoiled one is refused with BadPOP. An encrypted key for the KEM, RSA or EC certificate of the CA is opened by the CA, with the KEM or the hybrid key by the algorithm and, for RSA and EC, if it names the certificate that protects the message; what is opened is accepted exactly if it is the key of the template and the identifier names the subject. The certificate that the CA encrypts is read by the client exactly if the identifier of the recipient is not compared or is that of the server certificate. Not true of the code: use_encr_cert=False asks for a challenge (PyAsn1Error); bad_pop spoils every proof; prepare_kem_env_data_for_popo builds what the CA opens (the content is id-signedData); the default for an RSA certificate names a certificate that the CA accepts; the version is that of RFC 5652 for KEM and password recipients; verify_encrypted_key_popo accepts anything at all.

* `C247_challenge_refuted` (`Verif/Ra/PrivPopProps.lean`): A challenge cannot be asked for. With `use_encr_cert=False` and nothing else the function raises a `PyAsn1Error`.
* `C247_bad_pop_refuted` (`Verif/Ra/PrivPopProps.lean`): `bad_pop` spoils the proof. Without a secret it changes nothing.
* `C247_kem_popo_refuted` (`Verif/Ra/PrivPopProps.lean`): What `prepare_kem_env_data_for_popo` builds can be opened by the CA. It has the content type `id-signedData`, which the CA refuses, whatever its keys are.
* `C247_version_refuted` (`Verif/Ra/PrivPopProps.lean`): With a password or KEM recipient it is 0 and not 3.
* `C247_rsa_default_refuted` (`Verif/Ra/PrivPopProps.lean`): Without the protection certificate the encrypted key for the RSA certificate of the CA is built and refused by the CA.
* `C247_verify_refuted` (`Verif/Ra/PrivPopProps.lean`): `verify_encrypted_key_popo` accepts an encrypted key. It accepts nothing at all.
* `C247_verify_type_refuted` (`Verif/Ra/PrivPopProps.lean`): And what the client builds for the CA is refused before the key is looked at, as its content has the type `id-data`.

  Status `partial`: The proofs that the client prepares are related to the opening and the checks of the CA. Refuted: a challenge cannot be asked for (the name `challenge` is not a value of `SubsequentMessage`); `bad_pop` has no effect without a secret; `prepare_kem_env_data_for_popo` sets the content type `id-signedData`, which the CA always refuses; without `cmp_protection_cert` an encrypted key for an RSA certificate names the certificate of the CA, while the CA compares with the first certificate of the message; the version of `EnvelopedData` is 0 and not 3 for KEM and password recipients; `verify_encrypted_key_popo` expects `id-signedData` and reads the missing field `privateKeyInfo`, so that it never accepts; `validate_kemri_rid_for_encrypted_cert` with the certificate refuses whatever has a subject key identifier (C247_enc_rid). For EC keys X25519 and X448 the opening of the CA (another certificate of the message) is not covered.

**C248. Certificates and extensions that the suite builds.** Claim: prepare_extensions gives, in a fixed order, exactly one extension for each argument, with the criticality that is asked for and no identifier twice, and the key usage it builds passes the suite's own check of the same text at every strictness; a certificate built with the certificate and the key of a CA names the CA as issuer and verifies with its key, exactly when no bad signature is asked for, and has the names, serial number, validity, key and extensions that are asked for; an authority key identifier with issuer and serial number identifies the certificate of the CA. False of the code in these cases, with witnesses or for all inputs: the documented text `cmcCA, cmcRA, cmKGA` is refused; a second DNS name keeps the space after the comma; a certificate as ca_key is always a KeyError; the authority key identifier names the subject of the certificate of the CA, so that an intermediate CA is never identified; given names are ignored without include_issuer; a path length of the number 0 is ignored; include_ski is ignored when extensions are given; the documented argument ski has no effect; ski of generate_certificate does nothing without extensions and removes all of them otherwise; a CA certificate without its key gives a certificate that does not verify; a name with two attributes of one type loses one when its common name is changed.

* `C248_eku_refuted` (`Verif/Ra/CertGenProps.lean`): The example of the documentation is refused: `prepare_extensions` documents `eku=cmcCA, cmcRA, cmKGA`, but the spaces after the commas are not removed.
* `C248_san_refuted` (`Verif/Ra/CertGenProps.lean`): Two DNS names separated by a comma and a space: the second is built with the space.
* `C248_aki_cert_refuted` (`Verif/Ra/CertGenProps.lean`): A certificate as `ca_key`, which the documentation allows, never gives an extension: the key is looked up in the fields of a certification request.
* `C248_aki_names_refuted` (`Verif/Ra/CertGenProps.lean`): The names that are given have no effect unless the issuer is asked for or a name is given.
* `C248_aki_issuer_refuted` (`Verif/Ra/CertGenProps.lean`): The certificate of an intermediate CA is never identified: the name is its subject.
* `C248_issuer_refuted` (`Verif/Ra/CertGenProps.lean`): With the certificate of the CA and without its key the certificate names the CA as its issuer, but is signed with its own key.
* `C248_given_refuted` (`Verif/Ra/CertGenProps.lean`): `include_ski` is ignored when a list of extensions is given, as are key usage, extended key usage and basic constraints.
* `C248_path_zero_refuted` (`Verif/Ra/CertGenProps.lean`): A path length of zero, as a number, is ignored if nothing else asks for extensions; as a text it is not.
* `C248_doc_ski_refuted` (`Verif/Ra/CertGenProps.lean`): The argument `ski` that `build_certificate` documents has no effect.
* `C248_generate_ski_refuted` (`Verif/Ra/CertGenProps.lean`): `ski` of `generate_certificate` has no effect without a list of extensions; with a list, the list is replaced by the critical key identifier alone.
* `C248_modify_cn_refuted` (`Verif/Ra/CertGenProps.lean`): Of two attributes of the same type the first is lost: with `OU=a,OU=b,CN=x` only `OU=b` is left.

  Status `partial`: What is proved holds for all arguments; the cases in which the property is false are the theorems with _refuted. C248_aki_issuer_partial needs a self-issued CA certificate, C248_issuer_partial the key of the CA, C248_modify_cn_partial attributes of different types.

**C249. Traditional private keys: saving, loading, generating, and the wrong keys of key generation.** Claim: A traditional private key that is saved as OneAsymmetricKey with version 0 or 1 is loaded as the same key, and a RSA-KEM key as a RSA-KEM key; a structure is loaded exactly when its version is 0 or 1, a public key comes only with version 1, the private octets leave no rest and are taken by the library, and a public key, if present, is that of the private key; the structures for negative tests with a wrong version, a wrong size of the private or public key, or another key pair, are not loaded; a different public key differs from the given one. False of the code in these cases, for all keys: the option for an invalid private key is always refused for RSA and ECC; the default arguments of save_private_key_one_asym_key are refused; a structure of version 0 with public key is written and refused; a PrivateKeyInfo is never loaded; the operation invalid_version_v1, documented as version 1 with a public key, gives a valid key without public key, as does invalid_key_pair with version 1; a different public key loses the length and the curve, and an RSA or ECC key cannot be asked for as counterpart of a key of another kind.

* `C249_invalid_key_refuted` (`Verif/PQ/TradStoreProps.lean`): The option for an invalid private key never gives one: for a traditional key it is refused, whatever the key.
* `C249_defaults_refuted` (`Verif/PQ/TradStoreProps.lean`): With the default arguments nothing is ever saved: the default password needs PEM, the default encoding is DER.
* `C249_v0_with_public_refuted` (`Verif/PQ/TradStoreProps.lean`): A structure of version 0 with a public key is written - but always refused.
* `C249_private_key_info_refuted` (`Verif/PQ/TradStoreProps.lean`): A `PrivateKeyInfo` is never loaded, whatever it contains: its fields are lost before they are read.
* `C249_kga_invalid_v1_refuted` (`Verif/PQ/TradStoreProps.lean`): "invalid_version_v1" is documented as version 1 with a public key. The structure has no public key, and is loaded: the negative test sends a valid key.
* `C249_kga_key_pair_v1_refuted` (`Verif/PQ/TradStoreProps.lean`): "invalid_key_pair" together with version 1: the other public key is generated and then left out.
* `C249_size_lost_refuted` (`Verif/PQ/TradStoreProps.lean`): The length and the curve of the key are passed on only together with an algorithm: without one, a key of the same name but of the default length or curve is generated.
* `C249_different_rsa_refuted` (`Verif/PQ/TradStoreProps.lean`): An RSA (or DSA, DH) key cannot be asked for as counterpart of another kind of key: the missing length is passed on as `None`.
* `C249_different_ec_refuted` (`Verif/PQ/TradStoreProps.lean`): Likewise an ECC key: the missing curve is passed on as `None`.

  Status `partial`: Proved for all keys of a library that reads what it writes (Lawful); the cases in which the property is false are the theorems with _refuted. The factories of post-quantum and hybrid keys are parameters here (see C110 and following); the PEM text and its encryption are not modelled.

**C250. Names for negative tests and the check of names in templates.** Claim: A name passes the check exactly if each attribute has a known identifier, a string kind that RFC 5280 allows, a size within the bounds of RFC 5280, and no trailing data; every other name is refused with BadAsn1Data, and an absent name passes. A relative distinguished name prepared without flags has one attribute for each comma-separated piece, in order, with the identifier of the short name and exactly the given text. One prepared with an invalid type or with trailing data always fails the check, both wrong sizes at once are always refused, and a wrong size makes the check fail if an attribute with bounded size is present. False of the code: for a DN qualifier, a domain component and an organization identifier the flags for wrong sizes silently do nothing and the name passes; a value with the sign '=' is always refused; a space after an escaped comma is lost, so that two different names are read as one.

* `C250_bad_size_refuted` (`Verif/Ra/NameBuildProps.lean`): For a DN qualifier, a domain component and an organization identifier the wrong size is silently not made: the attribute is the same as without the flag, and passes the check.
* `C250_equals_refuted` (`Verif/Ra/NameBuildProps.lean`): A value with a sign "=" is refused, whatever the name.
* `C250_space_lost_refuted` (`Verif/Ra/NameBuildProps.lean`): A space after a comma is lost, also in a value where the comma is escaped: two different names are read as one.

  Status `partial`: Proved for all texts and flags; the wrong sizes only for attributes with a bounded size, the refutation covers the three others. The check is modelled for values read from DER, by the kind of string, the text and trailing data; the alphabets of the string kinds are not modelled; the bounds that are imported from pkilint are those of X.520.

**C251. Generation of hybrid keys: the combination, the given components and the names.** Claim: The combination chosen for a request is the first one of the table that has everything that is asked for (curves without regard to case); a generated key has the requested post-quantum algorithm, class, length and curve, and new components; a key built from given component keys contains exactly these; every registered name of a composite signature, composite KEM or Chempat algorithm generates a key with the identifier of that name; generated composite signature and Chempat keys have an identifier; a composite KEM key built for an RSA key has one exactly for the sizes 2048, 3072 and 4096. False of the code: a curve without the name of the traditional algorithm crashes for composite signatures; no request gives a P-521 key although it is registered (the tables say secp512r1); generated FrodoKEM-976 keys with P-256 and DHKEM keys with P-256 or RSA have no identifier, and a DHKEM key for a given ML-KEM-768 or ML-KEM-1024 key never has one; whether two given keys belong together is not checked, and X-Wing takes any two keys and ignores requests; DHKEM keys for a given traditional key are always refused.

* `C251_curve_alone_refuted` (`Verif/PQ/HybridGenProps.lean`): C251. False for composite signatures: a curve without the name of the traditional algorithm always ends in an AttributeError, for every curve, although ML-DSA-44 and ML-DSA-87 are combined with curves.
* `C251_xwing_ignores_refuted` (`Verif/PQ/HybridGenProps.lean`): C251. False for X-Wing: a request for other components is silently not followed.
* `C251_generated_oid_refuted` (`Verif/PQ/HybridGenProps.lean`): C251. False for the composite KEMs: such a key is generated, and for the DHKEM variant also ML-KEM-768 with P-256, and RSA keys.
* `C251_p521_refuted` (`Verif/PQ/HybridGenProps.lean`): C251. No request gives a key on P-521, although ML-KEM-1024 and ML-DSA-87 with P-521 have identifiers: the tables say "secp512r1", and a request for that name is refused, too.
* `C251_from_pq_dhkem_refuted` (`Verif/PQ/HybridGenProps.lean`): C251. False for the DHKEM variant: with an ML-KEM-768 or an ML-KEM-1024 key it is given a partner without identifier, for the latter an RSA key, which the class cannot use.
* `C251_pair_unchecked_refuted` (`Verif/PQ/HybridGenProps.lean`): C251. False: whether two given keys belong together is not looked at. An ML-DSA-44 key is combined with every traditional key, and an X-Wing key is made of any two keys. With Ed448 the composite key has no identifier.
* `C251_from_trad_refused_refuted` (`Verif/PQ/HybridGenProps.lean`): C251. False: with a traditional key only, a key of the DHKEM variant is always refused, and a key in a wrapper class by every algorithm but X-Wing.

  Status `partial`: Proved for all requests and keys; that a generated key has an identifier holds for composite signatures, Chempat and X-Wing only (the _partial theorems), and is refuted for the composite KEMs. A key is modelled by what the choice depends on and a number; the algorithm is one of the five supported names in lower case; the generation of the components by the libraries is not modelled.

**C252. Chains, CRLs and OCSP answers checked by the openssl program: which question is put.** Claim: A chain of any length is accepted exactly if the program accepts the first certificate with the last certificate of the chain as the only given anchor and those in between as helpers; every other end of the program is SignerNotTrusted. With a CRL file the CRLs of that file are used; without one, those fetched from the addresses named by the first certificate, or by all certificates of which only the last may name none. After acceptance no certificate file is left and no file outside of the two directories is changed. A CRL is accepted exactly if the program ends with status 0 for it and the other certificates in reverse order. An OCSP check passes exactly if the program ends with status 0 and its output announces the expected status, or none while unknown ones are let through; revoked is never taken for another status. False of the code: addresses that yield nothing are passed over if one CRL was fetched; a CRL check switches the trust store of the system on, so that it can turn a rejection into an acceptance; a CRL file kept in data/tmp_crl is deleted; the temporary files of the OCSP check stay when it fails; an output without any status counts as unknown.

* `C252_all_crls_obtained_refuted` (`Verif/Ra/OpensslRunProps.lean`): "the CRLs of all addresses that a certificate names have been obtained". One of two is enough.
* `C252_crl_check_only_restricts_refuted` (`Verif/Ra/OpensslRunProps.lean`): "a chain that is rejected is also rejected when revocation is checked in addition". The check of CRLs switches the system's trust anchors on.
* `C252_crl_file_kept_refuted` (`Verif/Ra/OpensslRunProps.lean`): "the files that the caller names are still there afterwards".
* `C252_ocsp_files_removed_refuted` (`Verif/Ra/OpensslRunProps.lean`): "the temporary files are removed". They stay when the program fails and when no address is known.
* `C252_unknown_means_answered_refuted` (`Verif/Ra/OpensslRunProps.lean`): "with `unknown_is_success` only the answer *unknown* is let through besides the expected one". An output that announces no status at all passes as well, also where `revoked` is expected.

  Status `partial`: Proved for every chain, file system and answer of the program; the five claims marked false are refuted with witnesses. The program is an arbitrary function of the files that its command line names; paths are strings, and the CRL file must not lie in the directory of the certificates.

**C253. Private keys in PEM files: saving and loading.** Claim: Base64 is inverted by the decoder whatever foreign characters stand between. A key of the suite's own types that is saved under a password is loaded from the file with that password, and one saved without a password is loaded with None, for every key, password and known header name, even if other text precedes and follows the block. Every header name of the private key classes is known to the loader. The cipher that the header names is the one used; a wrong or a missing password is refused; a key saved without a password can be loaded with the default arguments. Reading an encrypted block fails only with ValueError, or IndexError for a text that ends before the encryption header. A public key in PEM is decoded to the same bytes and its armour names the type of key. False of the code: Falcon's header is not known, so that the file goes to the library for traditional keys; a file that names AES-128 or AES-192 is decrypted with the key of AES-256; a wrong password can yield other bytes, which are then parsed; an encrypted file read without a password can yield the Base64 of its header lines; a key saved without a password always fails with ValueError under any password, the default one included; the armour of public keys contains Python's notation of bytes.

* `C253_cipher_name_refuted` (`Verif/PQ/PemKeyProps.lean`): The cipher named in the header is not the one that is used. A file that claims AES-128 or AES-192 is decrypted with the 32-byte key of AES-256.
* `C253_falcon_refuted` (`Verif/PQ/PemKeyProps.lean`): A Falcon key that was saved without a password is not given to the reader of the suite's own keys: the file goes to the library for traditional keys.
* `C253_plain_with_password_refuted` (`Verif/PQ/PemKeyProps.lean`): A key that was saved without a password cannot be loaded with the default arguments (the password is then `11111`) or any other password: the header of the encryption is missed.
* `C253_wrong_password_refuted` (`Verif/PQ/PemKeyProps.lean`): A wrong password is not always noticed. Nothing but the padding is checked: a key can be decrypted with another password to other bytes, which are then read as a key.
* `C253_no_password_refuted` (`Verif/PQ/PemKeyProps.lean`): An encrypted file loaded without a password is not always refused: the header lines are read as Base64, and what comes out is given to the parser of keys.
* `C253_public_armour_refuted` (`Verif/PQ/PemKeyProps.lean`): The armour of a public key does not carry the name of the key type, as RFC 7468 wants it, but the Python notation of the bytes of the name.

  Status `partial`: Round trips proved for every key, password, name and surrounding text in which no armour line begins; the claims marked false are refuted. Key derivation and AES on whole blocks are parameters of which only the inversion is assumed.

**C254. Requests for Sun hybrid certificates.** Claim: The Sun hybrid handler grants a PKCS#10 request exactly if its signature, its subject and the building of the certificate succeed, and a CRMF request exactly in two ways: for a composite signature key after the possession of the key was shown for the chosen request, whose identifier the answer carries, or for a hybrid KEM key with the certificate encrypted. An encrypted certificate appears nowhere in the clear, the other certificates of the message are those of the CA, and it is never taken for confirmed. A certificate in the clear is accompanied by its other form at a fixed place, and it counts as confirmed exactly if implicit confirmation was asked for, which the answer says. The answer is protected by the MAC that belongs to the request's, or signed. False of the code: a hybrid KEM key in cr or kur messages always fails with an error of the ASN.1 library; ccr is refused because the list names crr; the index of the request is not heeded for KEM keys; a bad alternative signature is not made for KEM keys; not each request of a message is answered; another type of key is refused with ValueError, which is no CMP error.

* `C254_kem_other_bodies_refuted` (`Verif/Hybrid/SunReqProps.lean`): Requests for hybrid KEM keys are answered only in `ir` messages. In a `cr` or `kur` message, each of them fails with an error of the ASN.1 library, as the alternative `ir` is read.
* `C254_ccr_refuted` (`Verif/Hybrid/SunReqProps.lean`): Cross-certification requests are refused: the list of bodies has `crr`, which is no body, for `ccr`.
* `C254_bad_sig_for_kem_refuted` (`Verif/Hybrid/SunReqProps.lean`): The bad alternative signature that a test asks for is not made for KEM keys: the request to spoil it changes nothing.
* `C254_each_request_answered_refuted` (`Verif/Hybrid/SunReqProps.lean`): Not each request of a message is answered. A message with two proper requests gets one response.
* `C254_index_for_kem_refuted` (`Verif/Hybrid/SunReqProps.lean`): The index of the request is not heeded for KEM keys: the certificate for the second request is the answer to the first one.
* `C254_other_key_refuted` (`Verif/Hybrid/SunReqProps.lean`): A key of another type is refused with a `ValueError`, which the endpoint does not turn into a CMP error message.

  Status `partial`: Complete conditions proved; the claims marked false are refuted. The check of possession, the building of the two forms of the certificate and the encryption are parameters.

**C255. The form in which a private key is saved is checked.** Claim: The check of the form of a received private key accepts the bytes of an ML-KEM or ML-DSA key exactly if they are the structure of the wanted form (seed, raw or both) with the key's own seed and raw bytes; what is written for a key made from a seed passes for its own form and is refused for each other. X-Wing keys with a seed pass exactly for their form, SLH-DSA keys for seed and raw, other PQ keys for their raw bytes only. Errors on ML keys are BadAsn1Data, InvalidKeyData or, for a key without a seed, ValueError. False of the code: a received ML key in the raw form has no seed and is always refused with ValueError; an SLH-DSA key written as seed_and_raw is refused; a FrodoKEM key written with its seed cannot be checked; of a hybrid key only the PQ part is compared, so that the structure of the ML key alone passes whatever the traditional key is, while what is written for a Chempat key with ML-KEM never passes, and what is written for a composite key does not pass unless its first byte is by chance that of the structure.

* `C255_received_raw_kem_refuted` (`Verif/PQ/KeyExportProps.lean`): A received key in the raw form does not pass. A key that is read from the structure with the raw form has no seed, and `ValueError` is raised, whether or not the bytes are right (for ML-KEM).
* `C255_received_raw_dsa_refuted` (`Verif/PQ/KeyExportProps.lean`): The same for ML-DSA.
* `C255_slh_both_refuted` (`Verif/PQ/KeyExportProps.lean`): For SLH-DSA, what is written for the form `seed_and_raw` (the raw key alone) does not pass.
* `C255_frodo_seed_refuted` (`Verif/PQ/KeyExportProps.lean`): A FrodoKEM key that is saved in a form with the seed cannot be checked: `NotImplementedError`, whatever the bytes are.
* `C255_hybrid_trad_refuted` (`Verif/PQ/KeyExportProps.lean`): For composite and Chempat keys the traditional key is not checked: with another one, the same bytes pass. In particular the structure of the ML key alone passes.
* `C255_composite_refuted` (`Verif/PQ/KeyExportProps.lean`): What is written for a composite key does not pass, unless its first byte happens to be one with which the structure of an ML key starts.
* `C255_chempat_refuted` (`Verif/PQ/KeyExportProps.lean`): What is written for a Chempat key with ML-KEM never passes, in no form: it begins with a length.

  Status `partial`: Complete for ML, X-Wing, SLH-DSA and the other PQ keys; the claims marked false are refuted. The form seed_and_raw of composite keys is not modelled.

**C256. The CA is set up only with keys that belong to their certificates.** Claim: A certificate and a key are loaded exactly if both are given and readable and the key belongs to the certificate, nothing exactly if none is given, and else there is an error. In a configuration that is loaded, the CA's key, the key for the protection and the hybrid KEM key belong to their certificates and are of the right types, and without a pair for the protection the CA's is taken; so are the keys for key agreement, and the certificate for a challenge is that for the type of the key. In the state of the handler the CA's certificate and key are those given and each other value is that of the configuration or else of the environment. A key is found in a list exactly if one with the same public key is there, and a file of well-formed blocks has their certificates in order. False of the code: the key generation authority is not optional; its key need not belong to its certificate, as the validation is not called; the default password is not used for the key of the protection; the chain of the CA, the further extensions and the paths of a hybrid key lead to a TypeError in every configuration though the handler reads them; the alternative key given is not in the state if there is a configuration; check_public_key_is_not_unique tells the opposite for single keys; a certificate block without its end is left out silently, and a second end mark yields its certificate twice.

* `C256_kga_optional_refuted` (`Verif/CA/SetupProps.lean`): The key generation authority is not optional: without a certificate for it nothing is loaded, and the error is `BadConfig` if the rest is right.
* `C256_kga_pair_refuted` (`Verif/CA/SetupProps.lean`): The key of the key generation authority need not belong to its certificate: the configuration is loaded, and only the validation, which loading does not call, tells.
* `C256_default_password_refuted` (`Verif/CA/SetupProps.lean`): The default password is not used for the key of the protection: the same file is loaded as the CA's key, and refused as the key for the protection.
* `C256_settings_refuted` (`Verif/CA/SetupProps.lean`): A setting that the handler reads from its configuration beside the fields of the state cannot be given: the chain of the CA, the further extensions and the path of a hybrid KEM key lead to a `TypeError`, in every configuration.
* `C256_alt_key_refuted` (`Verif/CA/SetupProps.lean`): The alternative key given to the handler is not in its state if there is a configuration without it.
* `C256_not_unique_refuted` (`Verif/CA/SetupProps.lean`): `check_public_key_is_not_unique` does not tell whether the keys are the same: for single keys it tells that they differ, for two hybrid keys that they share a part.
* `C256_chain_marks_refuted` (`Verif/CA/SetupProps.lean`): A block without its end is left out without an error, and a second end yields the certificate before it once more.

  Status `partial`: The positive claims are proved; the claims marked false are refuted.

**C257. Announcements say what was given.** Claim: The identifier in a revocation announcement is the given one, or else has the given issuer and serial number with what is missing taken from the certificate, and the only error is a part that is neither given nor in a certificate; the times not given are the present time. A status that is not a number is one of the seven. The CRLs announced are those given. A key update announcement has the certificates of the update, each in its place, in the old and in the new form; the one made by the mock CA with a fresh certificate is accepted by a client with the old root exactly if the root is self-issued and pkilint accepts the new certificate. False of the code: the mock CA cannot announce revocations, as its CRL is not used and there is always a ValueError; a number is accepted as a status whichever it is; a revocation may be announced for a time before the certificate is bad; a certificate is announced to its issuer instead of its owner; without a new key there is always a ValueError though the code means to take the old one; a new certificate that is not that of the new key is announced, and no client accepts the announcement.

* `C257_handler_rann_refuted` (`Verif/Ra/AnnounceProps.lean`): The mock CA cannot announce revocations: for every CRL there is a `ValueError`, as the CRL is not used.
* `C257_status_refuted` (`Verif/Ra/AnnounceProps.lean`): The status of an announcement need not be one of the seven: a number is accepted, whichever it is.
* `C257_order_refuted` (`Verif/Ra/AnnounceProps.lean`): The revocation may be announced for a time before that since which the certificate is bad.
* `C257_handler_cann_refuted` (`Verif/Ra/AnnounceProps.lean`): The certificate announced by the mock CA does not go to its owner: the recipient is the issuer, that is, the CA.
* `C257_new_key_refuted` (`Verif/Ra/AnnounceProps.lean`): A new key is not optional: without it there is a `ValueError`, though the code means to take the old one then.
* `C257_new_cert_refuted` (`Verif/Ra/AnnounceProps.lean`): The new certificate given to the handler need not be that of the new key: the announcement is made, and no client with the old root accepts it, as the old key is certified by a key that is not in the announcement.

  Status `partial`: The positive claims are proved; the claims marked false are refuted.

**C258. Original messages are accepted exactly if each of them has a valid protection.** Claim: The generalInfo field of a request is accepted exactly if it has no original message and none is asked for, or if the value of the first entry of that type is the whole encoding of messages each of which verifies, under the password or under the certificate it carries. A missing one that is asked for gives BadRequest. Messages protected with the password of the check and put into the field, after other entries, are accepted. A message with a false MAC or signature gives BadMessageCheck. A signed one is accepted exactly if the key of its own first certificate verifies it. False of the code: that every wrong protection gives BadMessageCheck (a message without protection gives an error of the codec, one with a MAC when the check has no password or with a composite signature a ValueError); that a required original message is there (an empty sequence is accepted, and a second entry is never looked at).

* `C258_error_refuted` (`Verif/Prot/OrigMsgProps.lean`): That an original message with a wrong protection is always answered by `BadMessageCheck`. One without protection gives an error of the codec; one with a password-based MAC, if the check has no password, a `ValueError` (`CAHandler.process_ir`, `ca_handler.py` 927, gives none); so does one with a composite signature or another algorithm without branch.
* `C258_required_refuted` (`Verif/Prot/OrigMsgProps.lean`): That a field with a required original message has one. A sequence without messages is accepted; and a second entry of the type, with whatever value, is never looked at.

  Status `partial`: The positive claims are proved; the claims marked false are refuted.

**C259. The public key of an issued certificate is accepted exactly if it is the expected one.** Claim: A certificate is accepted exactly if its key can be loaded, is equal to the expected one and of the same class, the given name of the algorithm stands for the object identifier of the certificate, and a given SubjectPublicKeyInfo has the same object identifier; another key gives a ValueError; a certificate with the requested structure is accepted. The table of names gives for a name the last key that was put in with it. Parameters count as absent exactly if they are absent, are the octets 05 00, or NULL is allowed and they are NULL. False of the code: with the names rsa (the example of the documentation), rsa-kem, x25519 and x448 every certificate is refused, since they stand for a text which is never equal to an object identifier; an unknown name gives a KeyError; NULL as received counts as absent although it is not allowed.

* `C259_name_refuted` (`Verif/Check/PubKeyProps.lean`): That the name of the algorithm may be given, e.g. `rsa`. With the names of RSA, RSA-KEM, X25519 and X448 every certificate is refused, also that with the expected key.
* `C259_unknown_refuted` (`Verif/Check/PubKeyProps.lean`): That an unknown name gives a `ValueError`. It gives a `KeyError`, as does `id_ecPublicKey`, which is put into the table as a key.
* `C259_null_refuted` (`Verif/Check/PubKeyProps.lean`): That NULL is refused unless it is allowed. NULL as received, the octets `05 00`, counts as absent in any case.

  Status `partial`: The positive claims are proved; the claims marked false are refuted.  Of the table of names the part from which the texts come is given in full, the tables put in before and after it are parameters of which only is assumed that they do not have the same text or name.

**C260. The identifiers of a confirmation are compared to those of the response.** Claim: A certConf message is accepted exactly if its transaction identifier and both nonces have 16 bytes, the transaction is that of the other message, and each nonce is the other nonce of that message; a missing identifier is named by the error, in the order sender nonce, transaction, recipient nonce; without the other message there is a ValueError, and for other bodies the other message is not used. False of the code: the confirmation of a correct transaction is never accepted, since compared to the certificate response its own nonce is new, and compared to pkiconf the nonce of pkiconf is new; the check as the mock CA calls it can be used neither for confirmations nor for nested messages.

* `C260_fresh_refuted` (`Verif/Check/ConfIdsProps.lean`): That the confirmation of a correct transaction is accepted. The confirmation answers `ip` and has a nonce of its own (RFC 9483, 3.1); compared to `ip` it gives `BadSenderNonce`, and compared to `pkiconf`, which again has a nonce of its own, `BadRecipientNonce`: both nonces would have to be used a second time.
* `C260_handler_refuted` (`Verif/Check/ConfIdsProps.lean`): That the check of the mock CA, which gives no other message, can be used for confirmations: there is always a `ValueError`; and a `nested` request gives `NotImplementedError` though the message says it is not nested.

  Status `partial`: The positive claims are proved; the claims marked false are refuted.

**C261. The client's general messages ask for exactly what is named, and the CA answers them.** Claim: The body of a general message holds the given entries and then one entry for each known name, in a fixed order whatever the order of the names and without repetitions; the CRL update comes first and is the only entry whose preparation can fail. Outside the lightweight profile a CA which has the data answers the message exactly if a known name is given and the language tags are not; a message without known names is refused, and a negative message is refused if it asks for one of the seven types which are filled; negative has no effect on the root certificate update. False of the code: the language tags of the client (DE) are refused by every CA, with all other entries of the message; a name after a comma and a blank is silently ignored.

* `C261_language_refuted` (`Verif/Ra/GenmBuildProps.lean`): The language tags which the client asks for (`DE`, RFC 5646 tags are compared without regard to case) are refused by every CA, with every other entry of the same message.
* `C261_blank_refuted` (`Verif/Ra/GenmBuildProps.lean`): A name which follows a comma and a blank is ignored without a message, be it known or not: the body is the one of the names before it.

  Status `partial`: The positive claims are proved; the claims marked false are refuted.

**C262. The client's KEM-based MAC is verified by the CA.** Claim: A message with a KEM-based MAC built by the client verifies after transport with the secret which is returned, whatever the source of the secret; for a CA whose key is neither composite nor hybrid nor RSA it verifies with the private key of the CA; the secret of an answer is taken exactly if the value is a ciphertext for the algorithm of the client's key without bytes left over; the header changes only by the ciphertext for the CA; a ciphertext without a key, and a call without any source, are refused with ValueError. False of the code: for a composite key the client encapsulates outside of CMS and the verification decapsulates for CMS, so that from the same inputs one side has HMAC and the other SHA3-256; the message is refused with BadMessageCheck.

* `C262_composite_refuted` (`Verif/Prot/KemClientProps.lean`): A message for a CA with a composite key verifies with the secret which is returned, but not with the private key of the CA, though the KEM is correct and the header had no ciphertext before.

  Status `partial`: The positive claims are proved; the claim about composite keys is refuted.

**C263. OCSP responses say what the database says.** Claim: An OCSP response has the status of its name, the nonce, certificate and issuer of the call, a time of revocation exactly if the status is revoked and a reason only then; an unknown status or reason, and a reason or time without revocation, are refused with ValueError. With a key which the library can use the CA answers with a response exactly if the database has a status for the serial number; every revoked entry is reported as revoked, and good is said only if no entry with the number is revoked or updated. Bytes which are not a request are answered with malformedRequest. False of the code: a CA with a key unknown to the library never gives a response about a certificate; the issuer in the request is ignored, so that a certificate of another CA with the same serial number is reported with the status of the own one; a nonce of any length is echoed; the signature uses the hash function which the client chose for the identifier, also SHA-1.

* `C263_unsupported_key_refuted` (`Verif/CA/OcspProps.lean`): C263 (a CA with a post-quantum key): no client ever gets a response about a certificate; every answer is `unauthorized` or the handler fails.
* `C263_foreign_issuer_refuted` (`Verif/CA/OcspProps.lean`): C263 (another issuer, false of the code): the issuer which the request names does not matter; a request for a certificate of another CA with the same serial number is answered as for the own one.
* `C263_nonce_refuted` (`Verif/CA/OcspProps.lean`): C263 (the range of nonces, false of the code): the comment of the builder says that a nonce has 1 to 32 bytes, but a nonce of any length is echoed.
* `C263_sha1_signature_refuted` (`Verif/CA/OcspProps.lean`): C263 (the hash function of the signature, false of the code): the default is SHA-256, but a client which identifies the certificate with SHA-1, the usual function for it, gets a response whose signature uses SHA-1.

  Status `partial`: The positive claims are proved; the claims about keys outside of the library, the issuer of the request, the length of nonces and the hash function of the signature are refuted.

**C264. The entry with a KEM ciphertext opens to the secret which is returned.** Claim: With a key the keyword Prepare KemCiphertextInfo returns exactly the secret of the encapsulation, none for a given ciphertext, and an entry with the KEM of the key and the ciphertext, manipulated if asked for; only a hybrid key uses the key of the CA. A client with a correct KEM who reads the entry, among entries of other types, gets the secret which was returned; from a manipulated ciphertext they get what this one opens to. False of the code: without a key the entry is the first value and None the second, against the documentation and the declared type; a ciphertext given without a key is dropped without an error.

* `C264_without_key_refuted` (`Verif/Ra/KemCtProps.lean`): C264 (without a key, false of the code): the documentation assigns the second value to the entry, `${_} ${info_val}=`, and the declared type says so; but without a key the entry is the first value and the second is `None`.
* `C264_ciphertext_dropped_refuted` (`Verif/Ra/KemCtProps.lean`): C264 (a given ciphertext without a key, false of the code): it is dropped without an error.

  Status `partial`: The positive claims are proved; the claims about calls without a key are refuted.

## 5. Axiom audit

`#print axioms` for the 1652 theorems of the manifest:

* no axioms (70): C13_other_serials_refuted, C224_hybrid_refuted, C224_issuing, C224_no_decoder_error, C224_ok_iff, C224_trailing_refuted, C23_other_subject_refuted, C23_pending_update_refuted, C91_updated_lookup_refuted, C260_handler_refuted, C260_other, C259_null_refuted, C127_bad_alt_sig, C127_covers, C130_bad, C133_complete_partial, C133_no_descriptor, C133_other_refuted, C133_sound, C133_subject_key_refuted, C139_contains, C140_alt_needed_refuted, C141_csr_refuted, C211_chameleon, C211_chameleon_attrs, C211_related, C211_sun, C211_sun_attrs, C51_params, C110_trailing, C143_pss_mode, C257_crlann, C257_handler_cann_refuted, C164_unknown_refuted, C165_default_refuted, C165_order_refuted, C167_type, C168_method_refuted, C172_pathlen_refuted, C185_different_hash, C188_profile_alone_refuted, C218_challenge_iff, C218_fail, C219_dh_iff, C219_dh_other, C219_mac_other, C219_mac_partial, C219_mac_refuted, C220_nested_dh_refuted, C220_nested_kem_refuted, C220_protected, C220_type_refuted, C220_unprotected, C226_compromised_refuted, C226_unnamed_refuted, C235_alg_id_alone, C235_oid_refused, C235_popo_default, C237_archive_in_clear, C237_archive_partial, C237_encr_key, C240_other_key, C248_modify, C248_sign, C246_cert, C246_empty_refuted, C246_mod_issuer_refuted, C264_ciphertext_dropped_refuted, C264_without_key_refuted, C250_validate_error.
* `Quot.sound` (1): C139_contains_refuted.
* `propext` (320): C01_never_reset, C04_open_decision, C09_unknown_refused, C113_relink_refuted, C11_db_number_constant_refuted, C11_served_crl_refuted, C12_ccr_refuted, C12_keyless_refuted, C15_effects_remain, C15_failure, C15_wrapped_mixed_refuted, C19_boundary_overlap, C21_add, C21_remove_absent, C21_remove_first, C221_chameleon_iff, C221_multi_iff, C221_multi_invalid, C221_related_iff, C221_sun_revoked, C221_unverified_refuted, C222_chameleon_conf, C222_chameleon_refuted, C222_chameleon_reuse, C222_implicit, C222_open_iff, C222_reuse_refuted, C222_store_iff, C222_sun, C222_sun_exclusive, C223_catalyst, C223_chameleon_ids, C223_escapes_refuted, C223_plain_refuted, C223_protected_partial, C223_sun_confirm_refuted, C223_sun_protected, C223_sun_unprotected_refuted, C231_confirm_mixed_refuted, C24_certReq, C24_compromised_check_idle_refuted, C24_dh_uncaught_refuted, C24_kem_challenge_refuted, C24_open_confirmation, C24_rr_answer, C86_rejection_confirms_refuted, C90_added_checked, C90_certConf_unverified_refuted, C90_forged_certConf_refuted, C90_open_confirmation_refuted, C90_request_checked_partial, C90_revoked_signer_refuted, C90_unprotected_unconfirmable_refuted, C91_get_by_hash_partial, C93_any_hash_refuted, C94_same_authority_partial, C94_stateful_other_signer_refuted, C256_agree, C256_default_password_refuted, C256_ecc_cert, C256_is_set, C256_issuing, C256_kga_optional_refuted, C256_kga_pair_refuted, C256_load, C256_not_unique_refuted, C256_validate, C118_exclude_partial, C121_cycle_refuted, C121_not_signer, C122_issuer_not_ca_refuted, C122_sid_refuted, C123_eku_absent, C123_eku_blank_refuted, C123_eku_repeated_refuted, C17_refuted, C17_rr_refuted, C25_rounding_refuted, C260_fresh_refuted, C260_missing, C80_equality_modes, C81_default_index, C81_default_index_in_range_refuted, C81_first_byte, C81_index_refuted, C82_reject_iff, C83_protected_batch_unanswerable_refuted, C98_nonexclusive_integer_refuted, C259_other, C259_params, C154_avf, C154_avf_partial, C154_cofactor, C155_attrs_refuted, C155_signers_refuted, C166_key_iff, C169_rid_iff, C126_bad_delta, C126_iff, C126_sender_partial, C126_two_requests_refuted, C127_carries_signer_key, C127_issuer_alt_key_refuted, C127_loaded_key_refuted, C128_bad_pop_partial, C128_bad_pop_refuted, C128_cert_keys, C128_kem_everywhere_refuted, C129_ccr_refuted, C129_client_alt_key_refuted, C129_ids_all_zero, C129_ids_refuted, C129_pop_with_index_refuted, C130_alt_key_refuted, C130_composite_sound, C130_given_key_refuted, C130_key_only_refuted, C130_must_partial, C130_must_refuted, C130_sound, C130_state, C130_twice_refuted, C131_ordinary_refuted, C131_pss_refuted, C131_sound, C131_state, C131_twice_refuted, C132_found_partial, C132_order_refuted, C132_passed_over, C132_same_name_refuted, C132_sound, C133_pq_refuted, C135_replay_refuted, C136_ignored_refuted, C136_names_refuted, C137_validate_refuted, C140_issuer, C140_sound, C140_twice_refuted, C141_content, C211_ca, C211_discovery, C254_bad_sig_for_kem_refuted, C254_ccr_refuted, C254_crmf, C254_each_request_answered_refuted, C254_encrypted_only, C254_index_for_kem_refuted, C254_issuer, C254_kem_other_bodies_refuted, C254_other_body, C254_other_key_refuted, C254_p10cr, C254_plain, C254_protection, C254_version, C100_domains, C46_domains, C49_import_lengths, C64_tables, C108_lengths, C108_public, C108_public_export, C71_oids_partial, C71_public_key, C71_public_key_rsa, C73_table, C255_composite_refuted, C255_frodo_seed_refuted, C255_ml, C255_ml_errors, C255_raw, C255_slh_partial, C104_lengths, C104_public_lengths, C105_lengths_refuted, C103_ecdh_agreement, C74_rejects, C102_domains, C102_unsupported_hash_refuted, C54_lengths, C76_ca_index, C78_list_refuted, C110_partial, mlDsa_pub, mlKem_pub, C249_defaults_refuted, C249_empty_password, C249_invalid_key_refuted, C249_other_version_refused, C249_private_key_info_refuted, C249_rsa_kem_roundtrip, C249_trad_never_pem, C249_trailing_data, C143_patched, C146_conf_salt_refuted, C146_decoded_refuted, C146_hmac_refuted, C146_not_strict, C146_pbm_partial, C146_pbmac1_partial, C146_strict, C146_suite, C147_params, C257_ckuann, C257_handler_rann_refuted, C257_new_cert_refuted, C257_new_key_refuted, C257_order_refuted, C257_rann, C257_status, C257_status_refuted, C157_load_error, C157_sig_load_error, C159_ccr_refuted, C160_client_partial, C160_empty_refuted, C160_option_refuted, C160_pvno_refuted, C160_response_partial, C160_transaction_partial, C160_version, C161_controls_refuted, C161_issuer_refuted, C161_subject_refuted, C164_authority_refuted, C164_extensions_refuted, C164_serial_refuted, C167_hex, C168_archived_key, C175_url_issuer_refuted, C178_absent_refuted, C178_body, C178_extra_entries_refuted, C178_number_refuted, C178_size_refuted, C178_text_refuted, C178_trailing_refuted, C179_optional_refuted, C180_current_refuted, C181_enc_types, C181_gcm_refuted, C181_passphrase_iff, C181_sign_types_refuted, C182_prot_enc_refuted, C183_flag_refuted, C184_chain_needed, C184_given_id, C185_bad_id, C185_bad_id_form, C185_computed_hash, C185_different, C185_direct_iff, C185_given_hash, C185_given_hash_all, C185_hash_alone, C185_no_digest_refuted, C185_rejection, C186_absent_refuted, C186_second_refuted, C188_added, C198_absent_refuted, C198_none, C199_cert_iff, C199_id_iff, C201_choice_refuted, C202_shallow_refuted, C212_unverified_refuted, C213_file_unread_refuted, C213_foreign_refuted, C214_needs_issuer, C215_unreadable_refuted, C219_alt_refuted, C219_certs, C219_first, C219_form, C219_kind, C230_present, C235_popo_default_refuted, C236_body, C237_archive_refuted, C237_caller_list_refuted, C237_controls_kept, C237_old_cert_id, C237_wrong_ids, C238_bodies, C238_given_popo, C240_content, C240_foreign_key, C240_ignored_refuted, C240_pq_hash_refuted, C240_unsigned, C240_verifies, C241_flags, C241_kga_composite_refuted, C241_kga_named, C241_kga_params_refuted, C241_kga_partial, C241_null_refuted, C241_plain, C241_rsa, C248_aki_cert_refuted, C248_aki_names_refuted, C245_cert_file_refuted, C245_exclude, C245_file_index_refuted, C245_given_refuted, C245_source_iff, C246_given_iff, C246_mod_issuer_iff, C247_agree_encrypted_iff, C247_agree_mac, C247_bad_pop_refuted, C247_challenge_refuted, C247_mac_encipherment, C247_subsequent_iff, C247_two_functions, C247_version_partial, C247_version_refuted.
* `Quot.sound`, `propext` (353): C01_confirm_iff, C01_new_entries, C01_revive_iff, C01_revoke_iff, C01_step, C01_transitions, C02_refuted, C02_revoked_stays_partial, C03_change_local, C03_change_observed, C03_failed_call_unchanged, C03_frame, C04_accepted_once, C04_accounting, C04_certs_kept, C04_no_replay, C04_release_then_reuse, C05_at_most_once, C05_implicit_refused, C05_issued_state, C05_second_refused, C07_accept_sound, C07_at_most_one_request, C07_used_secret_refused, C08_accept_sound, C08_confirmation_unrecorded, C08_enrolment_index_never, C08_honest_accepted, C08_index_once, C08_message_fresh, C08_needs_recording, C08_requests_recorded, C08_unknown_rejected, C09_accepted_iff, C09_at_most_issued, C09_fair, C09_issued_iff, C09_success_sound, C10_db_revoked, C10_revoked, C10_unauthorized_iff, C113_update_confirmed, C113_update_recorded, C11_db_contents, C11_numbers_increase_partial, C120_dh_refuted, C120_verified_iff, C13_discovery_partial, C13_requested_serial_refuted, C13_sun_collision_refuted, C13_sun_partial, C13_unique_partial, C15_certConf_only_partial, C19_not_updated_accepted, C20_history, C20_history_maximal, C21_balance, C21_is_revoked, C22_status, C231_chameleon, C231_confirm_refuted, C231_same_key_refuted, C23_exact, C85_revoked_is_issued, C85_views_partition, C86_always_confirmed, C86_result, C87_other_types_partial, C87_rr_ignores_state, C87_rr_index_unchecked_refuted, C91_contains_hash_partial, C91_updated_lookup_sha1_partial, C92_answered_partial, C92_refuted, C92_updated_raises, C93_hash_bound_partial, C95_is_not_confirmed, C95_stays_pending, C263_answer, C263_foreign_issuer_refuted, C263_malformed, C263_nonce_refuted, C263_revoked, C263_sha1_signature_refuted, C263_unsupported_key_refuted, C256_alt_key_refuted, C256_config, C256_in_list, C256_settings_refuted, C118_include_partial, C121_found_partial, C121_links, C122_first_signer, C16_iff, C17_accepts, C25_nonce_exact, C25_nonce_partial, C260_iff, C26_distance, C26_unique_iff, C80_contains_exact, C80_contains_refuted, C80_contains_seq_exact, C80_contains_swapped_partial, C81_payload_changed, C81_position, C82_expand, C84_complete_partial, C84_find_cert, C84_refuted, C96_response_time_partial, C96_response_time_refuted, C98_own_names_partial, C99_request_ids_iff, C259_iff, C259_invert, C259_same, C154_agree, C154_avf_refuted, C154_bytes_partial, C154_scheme, C169_version_iff, C124_exact, C124_extensions_refuted, C124_parameters_refuted, C124_prepared_exts, C124_prepared_valid, C124_valid_rebuilds, C124_validate_iff, C124_validity_refuted, C125_ski_twice_refuted, C127_all_present, C127_loaded_key_partial, C127_none_iff, C127_sign_verify, C127_verify_sound, C128_issue_sound, C128_place_partial, C128_pop_sound, C128_request_accepted, C129_answers, C129_bodies, C129_chosen_alg_refuted, C129_extensions_refuted, C129_given_key_partial, C130_round_trip, C130_twice_partial, C131_alt_key_refuted, C131_round_trip, C133_alt_key, C133_no_alt_key, C134_find, C135_accepted, C135_csr_signature, C135_given_refuted, C135_issued, C135_pop_refuted, C135_round_trip, C135_time, C135_trusted, C136_delta_key_refuted, C136_issuing_partial, C136_kind, C136_request_partial, C136_request_refuted, C136_revoked_only, C137_algs, C137_index, C137_issued, C137_round_trip, C137_untrusted_refuted, C138_nodup, C139_compose, C139_convert, C139_fetch_refuted, C139_form, C139_location_refuted, C139_params_refuted, C139_round_trip, C139_same, C140_alt_key_partial, C140_alt_key_refuted, C140_by_value_refuted, C141_bad, C141_csr_location_refuted, C141_csr_round_trip_partial, C141_hash_refuted, C141_round_trip_partial, C211_kind, C211_request, C211_usages, C40_bits_integer, C40_integer_bits, C40_integer_bytes, C40_integer_of_bits, C46_hash_injective, C46_long_context, C46_pure_injective, C48_trailing_ignored, C62_completes, C63_ctverify, C71_binding, C71_cms_kdf, C71_cms_kdf_refuted, C71_inputs, C72_agreement, C72_binding_partial, C72_short, C72_trailing, C31_encode_length, C32_bound_tight, C32_compress_decompress, C38_ciphertext_size, C39_cbd, C255_chempat_refuted, C255_hybrid_trad_refuted, C255_length, C255_ml_saved, C255_slh_both_refuted, C255_xwing, C104_any_seed_accepted, C104_export_changes_key, C105_ciphertext_length, C105_import, C105_wrong_length_used, C75_overflow, C50_digits_unique, C54_context_injective, C116_used, C116_used_range_refuted, C76_leaf_is_remainder, C110_both_loads, C111_both_ignored, C111_public_refuted, C112_old_fails, C112_old_partial, C112_round_trip, C249_dsa_dh_not_saved, C143_signature_oids, C144_counter, C262_answer_iff, C257_accepted, C157_alt_iff, C160_fresh_refuted, C161_generated_iff, C161_unchecked_refuted, C161_update_partial, C163_iff_partial, C163_never_refuted, C163_other_refuted, C164_roundtrip_iff, C164_takeover_full_refuted, C164_takeover_refuted, C164_validate_iff, C165_century_refuted, C165_iff, C167_hex_only, C167_iff, C167_refused, C167_roundtrip, C167_unique, C168_accept_iff, C168_archive_absent, C168_archive_read, C168_burnt_refuted, C168_duplicate_refuted, C168_once, C168_publication_iff, C168_required_refuted, C170_csr_none, C170_csr_refuted, C170_serial, C170_serial_refuted, C171_cert_sign_refuted, C172_basic_iff, C172_ca_refuted, C172_ee_pathlen_refuted, C173_aki_iff, C173_san_iff, C173_ski_iff, C174_implicit_confirm_refuted, C174_key_pair_param_refuted, C174_profile_refuted, C174_root_refuted, C175_duplicate_refuted, C175_outdated_refuted, C176_passphrases, C176_refused_partial, C176_refused_refuted, C177_others, C178_ca_certs_iff, C179_edwards_refuted, C180_update_iff, C182_curves, C183_accepted_iff, C183_version_refuted, C186_accepted_iff, C187_accepted_iff, C187_right_refuted, C187_unknown, C188_negative, C188_patch, C188_twice_refuted, C192_common_name, C194_values_distinct, C194_values_refuted, C198_accepted_iff, C198_comma_refuted, C200_error_refuted, C200_found_iff, C200_keys, C200_root_refuted, C201_list_refuted, C203_absent_refuted, C203_choice_iff, C203_fields_iff, C212_accepted_iff, C212_addresses, C212_default_refuted, C212_failure_allowed, C212_single_iff, C213_accepted_iff, C213_revoked_iff, C214_address_refuted, C215_chain_iff, C215_found_iff, C215_mutation_refuted, C217_alg_iff, C217_alg_refuted, C220_second_refuted, C226_issued_iff, C227_iff, C230_iff_partial, C237_serial_issuer_partial, C237_serial_zero, C237_serial_zero_refuted, C240_compare_iff, C240_compare_refuted, C240_first_extensions, C240_p10_partial, C240_second_extensions_refuted, C248_aki, C248_aki_issuer_partial, C248_aki_issuer_refuted, C248_basic_iff, C248_compare_ski, C248_modify_last, C248_patch, C245_file, C246_mod_serial, C264_bad, C264_iff, C264_roundtrip.
* `Classical.choice`, `Quot.sound`, `propext` (908): C06_bound, C06_nonces_iff, C09_cr_consumed_without_certificate, C10_db_good, C10_good_iff, C113_kup_linked_partial, C120_accepts, C120_effect, C120_kem_reuse_refuted, C120_unverified, C120_wrong_signature, C12_detects_partial, C12_exact, C12_sound, C15_one_for_one, C15_rr_never, C15_unambiguous, C19_confirmed_update_rejects, C19_is_updated, C19_no_type_error, C19_pending_update_window, C21_is_revoked_history, C231_confirm_partial, C231_never_again, C231_p10, C231_proof_needed, C231_registered, C23_p10cr_no_key, C23_p10cr_partial, C23_reuse_allowed, C23_same_key_partial, C24_ccr_key_refuted, C24_certConf, C24_effect_checked, C24_exception_answer, C24_failed_no_effect, C24_revoked_key_certified_refuted, C24_total_partial, C88_nested_always_rejected, C89_self_revive_refuted, C89_signer_partial, C89_stranger_revokes_refuted, C91_updated_lookup_fails, C95_honest_accepted, C95_honest_accepted_kup, C95_issue_pending, C263_fields, C263_good, C263_reason_refused, C256_chain, C256_chain_marks_refuted, C256_names_iff, C117_all, C117_exclude, C117_ext_value_refuted, C117_include, C117_issuer_refuted, C117_total, C118_blank_refuted, C119_accepted, C119_answer, C119_found, C119_nonlwcmp_refuted, C119_reason, C119_unknown, C119_version_refuted, C121_accepts_partial, C121_anchor_passed_refuted, C121_any_holder_refuted, C121_issuer_not_ca_refuted, C121_maximal, C121_order_refuted, C121_rollover_refuted, C121_trusted, C121_unreadable_refuted, C121_usage_refuted, C122_accepted, C122_certs, C123_bits, C123_eku_partial, C123_must_not_partial, C123_must_not_refuted, C123_usage, C14_iff, C17_distinct_bodies_partial, C17_last_of_each_body_partial, C18_iff, C25_header_iff, C25_txid_iff, C26_diverse_iff, C26_diverse_unique, C81_index_accepted, C81_index_partial, C81_index_swapped, C81_payload_accepted, C83_iff, C84_sound_partial, C96_request_time, C97_accepted_partial, C97_rejection_refuted, C97_status_values, C98_any_bit_partial, C98_exclusive_integer_partial, C98_names_to_bits_partial, C98_roundtrip_refuted, C98_single_bit_partial, C259_name, C259_name_refuted, C259_table, C259_texts, C259_unknown_refuted, C148_iff, C148_key_length, C148_roundtrip, C148_unique, C149_env_roundtrip, C149_hkdf_refuted, C149_iff, C149_kdf_refuted, C149_length_refuted, C149_open_iff, C149_protected, C149_roundtrip, C149_salt, C149_unprotected_refuted, C150_iff, C150_oaep_refuted, C150_recipient, C150_roundtrip, C150_rsa_only, C151_hash_refuted, C151_iff, C151_issuer_refuted, C151_mqv_keys, C151_named, C151_originator_refuted, C151_roundtrip_dh, C151_roundtrip_mqv, C151_wrap, C152_iff, C152_kek_length_refuted, C152_key, C152_object_refuted, C152_ori, C152_pbkdf2_refuted, C152_roundtrip, C152_rsa_refuted, C153_content_roundtrip, C153_exchange_ec, C153_exchange_kem, C153_exchange_rsa, C153_iff, C153_index_refuted, C153_kemri_iff, C153_single, C153_version_refuted, C154_bytes_refuted, C154_round, C154_roundtrip, C154_standard_refuted, C155_accepted, C155_algs, C155_attrs, C155_package, C155_repeated_refuted, C155_roundtrip, C155_signer, C155_ski_refuted, C156_accepted, C156_iff, C156_index_refuted, C156_roundtrip, C156_roundtrip_rsa, C156_size_refuted, C156_usage_refuted, C166_dh_refuted, C166_ec, C166_kem_partial, C166_kem_refuted, C166_kind_iff, C166_needs_password, C166_oaep, C166_password, C166_rid_refuted, C166_roundtrip, C166_rsa, C169_ec, C169_iff, C169_index_refuted, C169_issued, C169_kem, C169_kem_refuted, C169_pending_refuted, C169_plain_dh, C169_plain_rsa, C169_pvno_refuted, C169_rsa, C169_several_refuted, C169_witness, C169_witness_refuted, C169_zero_refuted, C124_rebuilt, C125_base_only_refuted, C125_delta_only_refuted, C125_hash_refuted, C125_injected_refuted, C125_pair, C125_rebuild_partial, C125_ski_partial, C126_built, C134_eku_refuted, C134_hash_refuted, C134_ku_present, C134_ku_refuted, C134_round_trip_partial, C134_sound, C134_unique, C138_merge, C254_identifiers, C109_identifier_partial, C109_identifier_refuted, C109_load_private, C109_load_public_partial, C109_load_public_refuted, C109_only_padding, C109_sign_verify, C70_domains, C70_injective, C70_mldsa, C70_rsa_size, C70_sign_verify_partial, C70_sign_verify_refuted, C70_verify_iff, C100_hash_mismatch_refuted, C100_sign_verify_partial, C40_bits_bytes, C41_pack_unpack, C41_range, C41_unpack_pack, C42_pack_unpack, C42_unique, C42_unpack_pack, C43_decompose, C43_decompose_unique, C43_power2round, C44_perturbation, C44_use_hint, C45_inverse, C45_multiply, C47_external, C47_sign_verify, C48_accepted_partial, C48_bad_hint_partial, C48_longer_accepted_refuted, C49_derive, C49_import, C49_sizes, C60_pack_unpack, C60_unpack_pack, C61_decode_encode, C61_decode_iff, C62_agreement, C62_implicit_rejection, C63_ctselect, C64_bound, C64_distribution, C64_monotone, C107_checked, C107_errors, C107_formats_unreadable, C107_interchangeable_partial, C107_interchangeable_refuted, C107_mlkem, C107_names, C107_pkcs8_partial, C107_private, C107_public, C107_public_oid, C107_rejected, C107_rsa_unreadable, C107_saved_refuted, C108_checked, C108_import, C262_composite_secrets, C71_agreement, C71_kdf, C71_mlkem, C71_oids_refuted, C71_rsa_unusable, C72_unique_refuted, C73_agreement, C73_binding, C73_context_partial, C73_context_refuted, C73_secp521, C251_by_name, C251_curve_alone_refuted, C251_first_match, C251_found_iff, C251_from_keys, C251_from_pq_dhkem_refuted, C251_from_pq_oid_partial, C251_from_rsa_iff, C251_from_trad_refused_refuted, C251_generated, C251_generated_oid_partial, C251_generated_oid_refuted, C251_kem_oid_iff, C251_p521_refuted, C251_pair_unchecked_refuted, C251_xwing_ignores_refuted, C30_bits_bytes, C31_decode12_not_injective, C31_decode_encode, C31_decode_injective, C31_encode_decode, C32_error_bound, C33_inverse_ntt, C33_ntt_inverse, C33_range, C34_multiply, C35_decrypt_encrypt, C35_decrypt_iff, C36_agreement, C37_implicit_rejection, C37_tampered, C38_key_sizes, C38_public_key, C39_sample_ntt, C39_sample_ntt_poly, C255_received_raw_dsa_refuted, C255_received_raw_kem_refuted, C255_type_names, C104_agreement, C104_ciphertext_length, C104_import, C104_seed_refuted, C105_agreement, C106_agreement_refuted, C106_hash_refuted, C106_modulus_refuted, C103_agreement, C103_class_agreement, C103_rfc9180, C103_suite_partial, C103_suite_refuted, C74_completes, C74_large_rand_refuted, C74_modulus_length, C74_round_trip, C74_unique, C75_prefix, C75_stream, C253_b64_roundtrip, C253_cipher_name_refuted, C253_encrypted_file, C253_falcon_refuted, C253_header_names, C253_load_errors, C253_no_password_refuted, C253_plain_file, C253_plain_with_password_refuted, C253_public_armour_refuted, C253_public_roundtrip, C253_wrong_password_refuted, C101_import, C101_import_lengths, C101_inconsistent_key_refuted, C101_plain_import_partial, C102_sign_verify, C50_byte_of_int, C50_digits, C50_int_of_byte, C51_compressed, C51_injective, C51_set_type, C51_setters, C52_checksum, C53_fors, C53_hypertree, C53_wots, C53_xmss, C54_context, C54_sign_verify, C55_prehash_refuted, C55_verify_partial, C114_default_name_refuted, C114_hss, C114_xmss, C114_xmss_reload, C114_xmssmt_partial, C114_xmssmt_refuted, C115_hss_default_levels, C115_hss_load, C115_private_numbers_refuted, C115_xmss_index, C115_xmss_pkcs8, C115_xmss_public, C115_xmssmt_index, C115_xmssmt_public_partial, C115_xmssmt_refuted, C116_exhaust_refuted, C116_last_index_refuted, C116_xmss, C116_xmssmt, C76_leaf_index_refuted, C76_range, C76_same_index, C76_signing_order, C77_depth, C77_enforced_partial, C77_enforcement_refuted, C77_heights_refuted, C77_key, C77_not_enforced_partial, C78_template_hss, C78_template_xmss, C78_template_xmssmt, C78_xmss_all_names, C78_xmss_table, C78_xmssmt_all_names, C78_xmssmt_table, C110_both_refuted, C111_both_refuted, C111_public_partial, C111_public_raw, C112_old_refuted, C112_version0_refuted, mlDsa_made, mlKem_made, C249_dh_secret, C249_different_ec_refuted, C249_different_first, C249_different_is_different, C249_different_rsa_refuted, C249_kga_invalid_v1_refuted, C249_kga_key_pair_refused, C249_kga_key_pair_v1_refuted, C249_kga_other, C249_kga_priv_size_refused, C249_kga_pub_size_refused, C249_load_iff, C249_other_public_refused, C249_prepared_version, C249_roundtrip, C249_rsa_length, C249_saved_iff, C249_size_lost_refuted, C249_v0_with_public_refuted, C249_v1_has_no_public, C142_bad, C142_default_prf_refuted, C142_empty_salt_refuted, C142_iff, C142_lwcmp, C142_mac_agree_partial, C142_mac_agree_refuted, C142_password, C142_prf_refuted, C142_roundtrip, C143_bad, C143_cert_iff, C143_cert_refuted, C143_key_iff, C143_pss_iff, C143_pss_roundtrip_refuted, C143_pss_salt_refuted, C143_pss_signed, C143_roundtrip, C143_unsupported_refuted, C144_empty_context_refuted, C144_hkdf_sha3_refuted, C144_hkdf_written, C144_kdf_written, C144_key_iff, C144_pbkdf2_refuted, C144_peer_partial, C144_roundtrip, C144_rsa_refuted, C144_secret_iff, C144_stale_refuted, C145_basekey_refuted, C145_exchange, C145_hmac_partial, C145_iff, C145_roundtrip, C145_sha3_refuted, C146_conf_refuted, C146_kdf_refuted, C146_not_strict_refuted, C146_null_refuted, C147_composite_refuted, C147_first_cert_refuted, C147_iff, C147_mac_refuted, C147_rsa_refuted, C147_same_alg, C262_ca_verifies_partial, C262_composite_refuted, C262_header, C262_required, C262_returned_secret, C258_absent, C258_error_refuted, C258_false, C258_iff, C258_protected, C258_required_refuted, C258_roundtrip, C258_signed, C257_cert_id, C157_alt_refuted, C157_challenge_refuted, C157_extensions_refuted, C157_ip, C157_later_ignored_refuted, C157_later_refuted, C157_mixed_refuted, C157_possession_partial, C157_signed_iff, C158_iff, C158_protection_refuted, C158_skipped_refuted, C159_all_or_nothing, C159_ids, C159_numbers, C159_reply_type, C161_extensions_refuted, C161_kem_refuted, C161_known, C161_none_refuted, C161_signed_iff, C161_single, C162_ca_partial, C162_iff, C162_not_ca_refuted, C162_unchecked_refuted, C162_version_refuted, C165_read_refuted, C165_requested_partial, C165_written_iff, C165_years, C167_name_refuted, C167_quote, C167_raw_partial, C167_raw_refuted, C167_sent, C167_unique_types, C167_wire_refuted, C168_method_numbers, C170_accepted_iff, C170_certificate_partial, C170_dropped_refuted, C170_duplicate_refuted, C170_members, C170_override_refuted, C171_certificate, C171_ecdh_refuted, C171_encipher_refuted, C171_rsa, C171_uses_iff, C172_cert_sign_partial, C172_for_ca_refuted, C172_for_ee_refuted, C173_aki_issuer_refuted, C173_no_aki_refuted, C174_answered_iff, C174_entry_complete, C174_entry_sound, C174_language_list_refuted, C174_language_refuted, C174_types, C175_answer, C175_foreign_dpn, C175_foreign_issuer_refuted, C175_status_iff, C176_extra_partial, C176_extra_refuted, C177_found_partial, C177_kem_iff, C177_put, C177_repeated_refuted, C177_second_refuted, C177_value_refuted, C179_template_iff, C179_unknown_control_refuted, C181_fixed, C181_kem, C182_bare_curve_refuted, C182_current_crl_iff, C182_enc_types_iff, C182_kem_iff, C182_langs_iff, C182_prot_enc_iff, C182_sign_types_iff, C182_sym_alg_iff, C183_confirmed_partial, C184_first_id, C184_own_refuted, C188_known_accepted, C189_accepted_iff, C189_ambiguous_refuted, C189_dh_refuted, C189_mail_refuted, C189_no_cert_refuted, C189_no_cn_refuted, C189_no_ski, C189_one_cn, C189_types_refuted, C189_unprotected, C190_accepted_iff, C191_blank_refuted, C191_excluded_iff, C191_fields, C191_mac_both, C191_mac_kid_refuted, C191_mac_sender_refuted, C192_blank_refuted, C192_equals_refuted, C193_mac_accepted, C193_null_refuted, C194_added_accepted, C194_added_none, C194_batch_iff, C194_patch_conf_refuted, C194_patch_other, C194_patch_unique, C195_first_refuted, C195_follows, C195_fresh_refuted, C195_patch, C196_absent, C196_accepted_iff, C196_later_refuted, C196_names, C196_names_exclusive, C196_wrong_refuted, C197_fail_iff, C197_rejected_refuted, C197_status_iff, C197_type_iff, C199_encrypted_refuted, C199_rejection_refuted, C201_pure, C202_dot_refuted, C202_frame, C202_number_refuted, C202_parent_refuted, C202_set_get, C204_accepted_iff, C204_encrypted_refuted, C204_index_refuted, C204_p10cr_refuted, C204_pair_iff, C204_pubs_iff, C205_encrypted_iff, C205_lost_refuted, C205_refusal, C206_absent_refuted, C206_accepted_iff, C206_pq_refuted, C206_refusal_refuted, C207_accepted_iff, C207_default_sender_refuted, C208_composite_iff, C208_ec_iff, C208_ed_refuted, C208_field_iff, C208_field_refuted, C208_pq_iff, C208_rsa_iff, C208_sha3_refuted, C209_accepted_iff, C209_errors_refuted, C209_pss_refuted, C210_accepted_iff, C210_pq_refuted, C210_pss_refuted, C214_revoked_iff, C214_unknown_refuted, C214_valid_iff, C216_accepted_iff, C216_aki_refuted, C216_ca_flag_refuted, C216_issuer_refuted, C217_name_iff, C217_nist, C217_stateful_refuted, C217_usage_iff, C217_usage_refuted, C218_details, C218_echoes, C218_neither_refuted, C218_no_nonce, C218_no_tid, C218_random, C218_text_exact_iff, C218_text_refuted, C218_total, C219_kari, C225_agree_refuted, C225_cr_known, C225_cr_partial, C225_kga_refuted, C225_same, C227_ir, C227_mixed_refuted, C228_cyclic, C228_hex_refuted, C228_plain, C228_same_refuted, C228_size, C228_text_refuted, C229_anchored, C229_ccr_refuted, C229_dh_iff, C229_error_refuted, C229_kem_iff, C229_mac_iff, C229_none, C229_sig_iff, C230_order_refuted, C232_bodies_refuted, C232_extension_refuted, C232_first_iff, C232_index_refuted, C232_missing_refuted, C233_cross_refuted, C233_mac_refuted, C233_mac_request, C233_sig_iff, C234_caller_list_refuted, C234_default_validity, C234_excluded_absent, C234_extensions, C234_from_cert, C234_from_csr, C234_given_kept_partial, C234_key, C234_kga_spki_refuted, C234_nothing_added, C234_serial_zero_refuted, C235_bad_pop_csr_refuted, C235_bad_pop_refused_partial, C235_bad_pop_refuted, C235_dh_no_proof, C235_every_proof_refuted, C235_flags_ignored, C235_kga, C235_kga_template_refuted, C235_message_accepted, C235_pop_accepted, C235_pop_kind, C236_caller_list_refuted, C236_csr_appended, C236_given_messages, C236_kur_controls_refuted, C236_kur_needs_cert, C236_kur_partial, C236_kur_subject_refuted, C236_proof_wishes_ignored, C236_request, C236_spki_ignored, C236_spki_refuted, C238_appended, C238_others_kept, C238_stale_popo, C238_update_popo, C239_blank_refuted, C239_given, C239_invalid, C239_no_entry, C239_reason, C239_reasons_read, C239_round_trip, C239_serial_number, C239_serial_only_refuted, C239_several, C239_template, C242_cert_refuted, C242_failure_bits, C242_failure_iff, C242_failure_none, C242_response_iff, C242_status_iff, C243_answer_body_partial, C243_answer_iff, C243_ccr_refuted, C243_client_iff, C243_cp_iff, C243_header_partial, C243_ids, C243_index_refuted, C243_ip_iff, C243_kga_header_refuted, C243_krp_refuted, C243_name_iff, C243_none_refuted, C243_p10_id_refuted, C243_p10_refuted, C243_refusal_client, C243_refusal_iff, C243_request_refuted, C243_responses_refuted, C244_composite_refuted, C244_consistent, C244_consistent_refuted, C244_default_digest, C244_digest, C244_ec_iff, C244_eddsa, C244_falcon, C244_hash_read, C244_ignored_refuted, C244_params, C244_pq, C244_pq_hash_read, C244_pss_iff, C244_pss_params_refuted, C244_pss_refuted, C244_pure_refuted, C244_rsa_iff, C244_stateful_digest, C244_stateful_refuted, C248_build, C248_build_exts, C248_doc_ski_refuted, C248_eku_iff, C248_eku_refuted, C248_exts, C248_exts_critical, C248_exts_none, C248_generate_ski_refuted, C248_given_refuted, C248_include_ski, C248_issuer_partial, C248_issuer_refuted, C248_modify_cn_missing, C248_modify_cn_partial, C248_modify_cn_refuted, C248_path_zero_refuted, C248_san, C248_san_refuted, C248_usage_iff, C248_usage_valid, C245_answered, C245_bad_refuted, C245_blank_refuted, C245_both, C245_ca, C245_client, C245_crl_issuer_refuted, C245_empty_refuted, C245_idp_given_refuted, C245_idp_reasons_refuted, C245_index_refuted, C245_reason_bits, C245_reasons_iff, C245_reasons_only_refuted, C245_source_answer, C245_uri, C261_answered_iff, C261_blank_refuted, C261_crl_update, C261_entries, C261_language_refuted, C261_negative, C261_negative_root, C261_unknown_refused, C250_bad_size_partial, C250_bad_size_refuted, C250_bad_text, C250_build_errors, C250_built_iff, C250_country, C250_equals_refuted, C250_parse_iff, C250_space_lost_refuted, C250_type_trailing, C250_validate_iff, C247_enc_cert, C247_enc_key_ec, C247_enc_key_kem, C247_enc_key_rsa, C247_enc_rid, C247_kem_popo_refuted, C247_no_name, C247_open_type, C247_opened_iff, C247_rsa_default, C247_rsa_default_refuted, C247_verify_refuted, C247_verify_type_refuted, C252_all_crls_obtained_refuted, C252_chain_with_crl_file, C252_chain_with_fetched_crls, C252_chain_without_crls, C252_crl_by_exit_status, C252_crl_check_only_restricts_refuted, C252_crl_file_kept_refuted, C252_empty_chain, C252_missing_crl_file, C252_no_crl, C252_ocsp_by_output, C252_ocsp_files_removed_refuted, C252_ocsp_revoked, C252_tidy_after_success, C252_unknown_means_answered_refuted.
