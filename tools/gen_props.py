"""Regenerates /verif/properties.jsonl from the table below (plain data, one tuple per property)."""
import json, os
P = []
def p(id, title, statement, quantifier, why, anchors):
    P.append(dict(id=id, title=title, statement=statement, quantifier=quantifier, why_tests_cant=why, anchors=anchors))

MF = "mock_ca/mock_fun.py"
p("C01", "Certificate life-cycle transitions",
  "Whatever sequence of add_cert / change_cert_state calls the mock CA issues against a CertificateDB, an entry's recorded state only ever changes along the documented edges: CONFIRMED is entered only from NOT_CONFIRMED, REVOKED only from CONFIRMED or REVIVED, REVIVED only from REVOKED; every other requested change of those three kinds is answered with an exception and no state change.",
  "all databases, all certificates, all finite sequences of API calls",
  "the set of call sequences is infinite; a test only covers the few orders it scripts",
  [MF + ": CertificateDB.add_cert, CertificateDB.change_cert_state"])
p("C02", "A revoked certificate stays on the revocation list until revived",
  "Once change_cert_state(cert, REVOKED) succeeded, revoked_certs keeps listing the certificate until a change_cert_state(cert, REVIVED) succeeds, whatever other calls happen in between.",
  "all databases and all finite call histories containing no successful revival",
  "requires every history, including unusual orders such as a late key-update confirmation after a revocation",
  [MF + ": CertificateDB.change_cert_state, CertificateDB._process_update_cert, CertificateDB.revoked_certs"])
p("C03", "State changes are local and all-or-nothing",
  "A change_cert_state call that raises leaves the database as it was; one that succeeds modifies exactly one entry (the first whose certificate digest matches) and never alters, reorders or drops stored certificates; get_cert_state afterwards reports the requested state.",
  "all databases, certificates and requested states",
  "frame conditions quantify over every entry of every database",
  [MF + ": CertificateDB.change_cert_state, CertificateDB.get_cert_state"])
p("C04", "Transaction identifiers are accepted once",
  "After store_transaction_certificate or add_tx_id accepted a transactionID, every later attempt with the same identifier raises TransactionIdInUse until remove_tx_id is called with it; a rejected attempt changes nothing, and certificates stored for earlier transactions stay retrievable unchanged.",
  "all histories of MockCAState transaction calls, all identifiers and senders",
  "replay resistance is a statement about every later point of every history",
  [MF + ": MockCAState.add_tx_id, MockCAState.remove_tx_id, MockCAState.store_transaction_certificate, MockCAState.get_issued_certs"])
p("C05", "A transaction is confirmed at most once",
  "Across any history of requests, responses and certConf messages handled by the mock CA, process_cert_conf succeeds at most once per transactionID: after one success every later certConf for that identifier raises CertConfirmed and changes nothing.",
  "all histories of certConf-handler calls, all transaction identifiers",
  "an at-most-once guarantee ranges over unbounded histories",
  ["mock_ca/cert_conf_handler.py: CertConfState, CertConfHandler.process_cert_conf"])
p("C06", "certConf messages are bound to the exchange they confirm",
  "process_cert_conf / validate_nonces accept a certConf only if its transactionID belongs to a stored, unconfirmed exchange, its recipNonce equals the senderNonce of the CA response, the CA response's recipNonce equals the request's senderNonce, its senderNonce is 16 bytes long, and that senderNonce is fresh (or identical, according to must_be_new_nonce).",
  "all stored exchanges and all certConf headers",
  "soundness of acceptance must exclude every non-matching header",
  ["mock_ca/cert_conf_handler.py: CertConfState.validate_nonces, CertConfState.validate_tx_id, CertConfHandler.process_cert_conf"])
p("C07", "A KEM shared secret protects one request",
  "Once a KEM shared secret has been marked used for a transactionID, verify_pkimessage_protection rejects every further KEM-MAC protected message other than certConf with that transactionID, whatever secrets are added or updated afterwards.",
  "all histories of KEMSharedSecretList operations, all messages and MAC verdicts",
  "single-use must hold for every later state, including lists with duplicate transaction identifiers",
  [MF + ": KEMSharedSecretList"])
p("C08", "A stateful-signature index is never accepted twice for one certificate",
  "In every history of messages, validate_pq_stateful_pki_message lets at most one message through per (certificate, leaf index); index 0 or whichever indices were registered at enrolment can never be accepted, and unknown certificates are always rejected.",
  "all histories of stateful-signature state operations, all certificates and indices",
  "index reuse anywhere in an unbounded history breaks the scheme",
  ["mock_ca/stfl_validator.py: STFLPKIMessageValidator", "mock_ca/operation_dbs.py: StatefulSigState, StatefulSigKeyState"])
p("C09", "A proof-of-possession challenge can be answered once, only in its own transaction",
  "handle_challenge accepts a popdecr response entry only if that number was issued as a challenge for the same transactionID and has not been accepted since; after acceptance the same (number, transactionID) pair is rejected until it is issued again.",
  "all histories of challenge / response messages",
  "replay and cross-transaction use must be excluded for every interleaving",
  ["mock_ca/challenge_handler.py: ChallengeHandler"])
p("C10", "OCSP answers reflect the revocation database",
  "get_ocsp_response reports `revoked` for every certificate whose serial number is on the revoked list, `good` only for certificates that were issued and whose serial number is neither on the revoked nor on the updated list, and an unauthorized response for certificates the CA does not know.",
  "all database contents and all queried certificates",
  "ranges over all combinations of list contents including overlapping serial numbers",
  [MF + ": CertRevStateDB._check_ocps_request_cert_status, CertRevStateDB.get_ocsp_response, CertificateDB.get_ocsp_response"])
p("C11", "CRL contents and CRL numbers",
  "A CRL returned by the CA lists exactly the serial numbers of the revoked and the updated certificates, and each newly issued CRL carries a strictly larger crlNumber than every earlier one.",
  "all database contents, all finite sequences of CRL requests interleaved with state changes",
  "monotonicity is a property of whole histories",
  [MF + ": CertRevStateDB.get_crl_response, CertRevStateDB.crl_number, CertificateDB.get_current_crl", "mock_ca/ca_handler.py: CAHandler.get_current_crl"])
p("C12", "Revoked (compromised) keys are not certified again",
  "check_request_for_compromised_key answers True for every certification request (ir, cr, kur, ccr, p10cr) in which at least one requested public key is the key of a revoked certificate, or a component of a revoked hybrid key.",
  "all revocation lists and all request bodies with any number of entries",
  "the compromised entry may sit at any position of a request of any kind",
  [MF + ": CertRevStateDB.check_request_for_compromised_key, RevokedEntryList.compromised_keys"])
p("C13", "Newly issued serial numbers are unique",
  "The serial number chosen by the CA for a new certificate differs from the serial number of every certificate issued before.",
  "all sets of serial numbers in use and all outcomes of the random generator",
  "depends on every outcome of up to 100 random draws",
  ["mock_ca/ca_handler.py: CAHandler._get_serial_number, CAHandler.process_cert_discovery"])
p("C14", "Nested batches have pairwise distinct identifiers",
  "validate_nested_message_unique_nonces_and_ids accepts a nested message only if the transactionIDs (senderNonces, recipNonces, as selected) of the outer message and all inner messages are present, pairwise distinct and, when requested, 16 bytes long; conversely every such message is accepted.",
  "all nested messages of any length and any flag combination",
  "pairwise distinctness over unbounded batches",
  ["resources/checkutils.py: validate_nested_message_unique_nonces_and_ids, _is_unique"])
p("C15", "Batched requests are answered one for one, in order",
  "process_batched_request returns a nested response whose i-th element answers the i-th inner request; it either contains only certConf messages or none; if an inner message fails the whole call fails, but the effects of the earlier inner messages remain.",
  "all batches, all outcomes of the inner handlers",
  "ordering and partial-effect behaviour at every possible failure point",
  ["mock_ca/nested_handler.py: NestedHandler.process_batched_request, NestedHandler._check_nonces"])
p("C16", "Added protection keeps the inner identifiers",
  "validate_add_protection_tx_id_and_nonces accepts a one-element nested message iff inner and outer transactionID and senderNonce are equal and 16 bytes long and recipNonce is present and equal on both levels for certConf and absent on both levels otherwise.",
  "all outer and inner headers",
  "iff over an unbounded header space",
  ["resources/checkutils.py: validate_add_protection_tx_id_and_nonces"])
p("C17", "Nested responses answer every inner request",
  "validate_ids_and_nonces_for_nested_response raises unless every inner request has an inner response with the matching transactionID and nonce and an allowed body type.",
  "all nested request/response pairs",
  "the unanswered request may be any of arbitrarily many, possibly several of the same body type",
  ["resources/checkutils.py: validate_ids_and_nonces_for_nested_response"])
p("C18", "MAC protection is refused for ccr, kur, rr and nested",
  "validate_wrong_integrity raises for every ccr, kur, rr or nested message that is unprotected or MAC protected and for every KEM/DH protected ccr, and accepts every other message.",
  "all body types and protection types",
  "closed-form decision over all combinations, including future protection types",
  ["resources/checkutils.py: validate_wrong_integrity"])
p("C19", "Time window for requests under an updated certificate",
  "validate_is_updated decides from the update record alone: a confirmed update always rejects kur/rr; an unconfirmed update rejects kur before and allows it after the timeout, and allows rr only inside the window when the window is enabled.",
  "all update databases, all certificates, all clock readings and timeouts",
  "ranges over all times including the boundary instants",
  [MF + ": UpdateCertDB.validate_is_updated, UpdateCertDB.is_updated, UpdateCertDB._for_kur, UpdateCertDB._for_rr"])
p("C20", "The certificate update history is a bounded walk along update links",
  "get_updated_history terminates, returns at most eleven certificates (or exactly the chain of stored update links), each one stored in the database and linked to its predecessor by the recorded update digest - also when the links form a cycle.",
  "all databases including cyclic update links",
  "termination and linking for every, possibly cyclic, database",
  [MF + ": CertificateDB.get_updated_history"])
p("C21", "Revocation list add/remove bookkeeping",
  "RevokedEntryList.add_entry with any reason other than removeFromCRL adds exactly one entry; with removeFromCRL it removes exactly the first entry of that certificate and changes nothing if there is none; is_revoked answers True exactly for listed certificates.",
  "all lists and entries",
  "multiset bookkeeping over unbounded histories with duplicates",
  [MF + ": RevokedEntryList.add_entry, RevokedEntryList.remove, RevokedEntryList.is_revoked"])
p("C22", "Key reuse classification",
  "check_cert_status reports the most severe status of any certificate of the same subject carrying the key: revoked over updated over in-use, `good` only if no such certificate exists.",
  "all certificate lists, keys and senders",
  "priority rule must hold for all overlapping list contents",
  [MF + ": KeySecurityChecker.check_cert_status"])
p("C23", "One key, one subject per request",
  "check_same_key_cert_request / contains_pub_key detect every public key already bound to another certificate known to the CA.",
  "all CA states and requests", "any certificate in any life-cycle state may hold the key",
  [MF + ": MockCAState.contains_pub_key", "mock_ca/cert_req_handler.py: CertReqHandler.check_same_key_cert_request"])
p("C24", "Request dispatch order of the mock CA",
  "process_normal_request never issues, confirms or revokes anything for a message that fails the revocation check, the protection check, the compromised-key check or the open-confirmation check, and every exception becomes an error message instead of a reply of the requested kind.",
  "all messages and all verdicts of the individual checks",
  "every combination of verdicts and every exception type has to be covered",
  ["mock_ca/ca_handler.py: CAHandler.process_normal_request"])
p("C25", "Response header validation accepts only matching exchanges",
  "validate_transaction_id and validate_sender_and_recipient_nonce accept a response iff its transactionID is 16 bytes and equals the request's, its recipNonce equals the request's senderNonce and both nonces have at least max(128, nonce_sec) bits.",
  "all request/response header pairs and all nonce_sec values", "iff over an unbounded space of headers",
  ["resources/checkutils.py: validate_transaction_id, validate_sender_and_recipient_nonce"])
p("C26", "Nonce uniqueness and diversity checks",
  "nonces_must_be_unique raises iff some nonce occurs twice; nonces_must_be_diverse raises iff two nonces, zero-padded to equal length, have Hamming distance below the minimum; diversity with a positive minimum implies uniqueness.",
  "all lists of byte strings and all minimum distances", "pairs inside unbounded lists",
  ["resources/utils.py: nonces_must_be_diverse, nonces_must_be_unique"])

F3 = "pq_logic/fips/fips203.py"
p("C30", "ML-KEM byte/bit conversion round trips",
  "bits_to_bytes and bytes_to_bits are mutually inverse on byte strings and on bit lists whose length is a multiple of eight.",
  "all byte strings and bit lists", "infinitely many lengths", [F3 + ": ML_KEM.bits_to_bytes, ML_KEM.bytes_to_bits"])
p("C31", "ML-KEM ByteEncode/ByteDecode",
  "byte_decode(d, byte_encode(d, f)) = f for every f with coefficients below 2^d (d<12) or below q (d=12); byte_encode(d, byte_decode(d, b)) = b for every byte string when d<12, so encodings are unique; for d=12 several byte strings decode to the same polynomial (no canonicity check).",
  "all d in 1..12, all 256-coefficient vectors, all byte strings of the right length",
  "2^3072 inputs", [F3 + ": ML_KEM.byte_encode, ML_KEM.byte_decode"])
p("C32", "ML-KEM compression error bound",
  "compress(d, decompress(d, y)) = y for all y < 2^d, and decompress(d, compress(d, x)) differs from x by at most round(q / 2^(d+1)) modulo q, for every d < 12 and x < q.",
  "all d<12, all x<q, all y<2^d", "the bound is needed uniformly for the decryption argument", [F3 + ": ML_KEM.compress, ML_KEM.decompress"])
p("C33", "ML-KEM NTT is inverted by ntt_inverse",
  "ntt_inverse(ntt(f)) = f and ntt(ntt_inverse(g)) = g for all polynomials with coefficients in Z_q.",
  "all 3329^256 polynomials", "astronomic input space", [F3 + ": ML_KEM.ntt, ML_KEM.ntt_inverse, ML_KEM_ZETA_NTT"])
p("C34", "ML-KEM NTT multiplication is negacyclic polynomial multiplication",
  "ntt_inverse(multiply_ntts(ntt(f), ntt(g))) equals the product of f and g in Z_q[X]/(X^256+1).",
  "all pairs of polynomials", "astronomic input space", [F3 + ": ML_KEM.multiply_ntts, ML_KEM.base_case_multiply, ML_KEM_ZETA_MUL"])
p("C35", "K-PKE decrypts what it encrypted",
  "k_pke_decrypt(dk, k_pke_encrypt(ek, m, r)) = m for every key pair produced by k_pke_keygen, every message and every randomness exactly when each coefficient n of the accumulated noise e*y + e2 + c_v - s*(e1 + c_u) satisfies -832 <= n <= 832 - b, b the message bit (in particular whenever |n| < 832; q/4 itself is not enough for a bit 1).",
  "all seeds, messages, randomness and all XOF/PRF functions", "key, message and coin space cannot be enumerated",
  [F3 + ": ML_KEM.k_pke_keygen, ML_KEM.k_pke_encrypt, ML_KEM.k_pke_decrypt"])
p("C36", "ML-KEM shared secrets agree",
  "For every key pair from keygen_internal and every encapsulation whose noise stays in the range of C35, decaps_internal(dk, c) returns exactly the key encaps_internal returned.",
  "all seeds d, z, all messages m", "see C35", [F3 + ": ML_KEM.keygen_internal, ML_KEM.encaps_internal, ML_KEM.decaps_internal"])
p("C37", "ML-KEM implicit rejection",
  "decaps_internal never fails on a ciphertext of the right length: if re-encryption of the decrypted message gives c, the result is G's first half, otherwise it is J(z || c); no other outcome is possible.",
  "all decapsulation keys and ciphertexts", "must hold for adversarial ciphertexts", [F3 + ": ML_KEM.decaps_internal"])
p("C38", "ML-KEM output sizes and key recovery",
  "Keys and ciphertexts have the sizes 384k+32, 768k+96 and 32(du*k+dv); get_public_key applied to a generated decapsulation key returns the encapsulation key.",
  "all parameter sets and seeds", "size equations for every seed", [F3 + ": ML_KEM.keygen_internal, ML_KEM.encaps_internal, ML_KEM.get_public_key"])

F4 = "pq_logic/fips/fips204.py"
p("C40", "ML-DSA bit, byte and integer conversions",
  "integer_to_bits/bits_to_integer, integer_to_bytes, bits_to_bytes/bytes_to_bits are mutually inverse on their domains.",
  "all integers, bit lists and byte strings", "unbounded inputs", [F4 + ": ML_DSA.integer_to_bits, ML_DSA.bits_to_integer, ML_DSA.bits_to_bytes, ML_DSA.bytes_to_bits"])
p("C41", "ML-DSA polynomial packing",
  "simple_bit_unpack inverts simple_bit_pack and bit_unpack inverts bit_pack on all polynomials with coefficients in the declared range, and when the range is a full power of two every byte string is the packing of its unpacking.",
  "all ranges, all 256-coefficient polynomials", "astronomic input space", [F4 + ": ML_DSA.simple_bit_pack, ML_DSA.bit_pack, ML_DSA.simple_bit_unpack, ML_DSA.bit_unpack"])
p("C42", "ML-DSA hint encoding is unique",
  "hint_bit_unpack(hint_bit_pack(h)) = h for every hint with at most omega ones, and whenever hint_bit_unpack(y) returns a hint, hint_bit_pack of it is y again, so no two signatures differ only in the hint bytes.",
  "all hints, all byte strings of length omega+k", "strong unforgeability needs canonicity for every byte string", [F4 + ": ML_DSA.hint_bit_pack, ML_DSA.hint_bit_unpack"])
p("C43", "ML-DSA rounding decompositions",
  "power2round and decompose return parts that recombine to the input modulo q with the low part in the documented centered range and the high part below the documented bound.",
  "all coefficients 0 <= r < q and all three parameter sets", "8380417 x 3 values; later proofs need the general law", [F4 + ": ML_DSA.power2round, ML_DSA.decompose, ML_DSA.modpm"])
p("C44", "ML-DSA hints recover the high bits",
  "use_hint(make_hint(z, r), r) = high_bits(r + z) whenever |z| <= gamma2, and adding a perturbation below beta does not change high_bits when low_bits stays below gamma2 - beta.",
  "all r, z in range", "q * gamma2 pairs", [F4 + ": ML_DSA.make_hint, ML_DSA.use_hint, ML_DSA.high_bits, ML_DSA.low_bits"])
p("C45", "ML-DSA NTT is an isomorphism",
  "ntt_inverse inverts ntt and ntt_inverse(ntt(f) * ntt(g)) is the product in Z_q[X]/(X^256+1).",
  "all polynomials", "astronomic input space", [F4 + ": ML_DSA.ntt, ML_DSA.ntt_inverse, ML_DSA.mul_ntt, ML_DSA_ZETAS"])
p("C46", "ML-DSA message encoding separates domains",
  "The byte string signed for (ctx, m) determines ctx and m, and no pure-mode string equals a pre-hash-mode string, for every context of at most 255 bytes; longer contexts never yield a signature.",
  "all contexts, messages and modes", "injectivity over all byte strings", [F4 + ": ML_DSA.sign, ML_DSA.verify, ML_DSA.hash_ml_dsa_sign, ML_DSA.hash_ml_dsa_verify"])
p("C47", "ML-DSA signatures verify",
  "Every signature returned by sign_internal for a key pair from keygen_internal is accepted by verify_internal for the same message.",
  "all seeds, messages, randomness, all hash functions, any number of rejection rounds", "random keys cover a vanishing part of the space; rare rejection paths are not hit", [F4 + ": ML_DSA.keygen_internal, ML_DSA.sign_internal, ML_DSA.verify_internal"])
p("C48", "ML-DSA verification rejects malformed signatures",
  "verify_internal returns False for every signature of a wrong length, every non-canonical hint and every response vector with a coefficient of absolute value at least gamma1 - beta.",
  "all byte strings", "adversarial inputs", [F4 + ": ML_DSA.verify_internal, ML_DSA.sig_decode"])

F5 = "pq_logic/fips/fips205.py"
p("C50", "SLH-DSA integer and digit conversions",
  "to_int and to_byte are mutually inverse on their ranges; base_2b yields the big-endian base-2^b digits of its input, each below 2^b.",
  "all byte strings, digit sizes and output lengths", "unbounded inputs", [F5 + ": SLH_DSA.to_int, SLH_DSA.to_byte, SLH_DSA.base_2b"])
p("C51", "SLH-DSA addresses do not collide",
  "Distinct field assignments of an ADRS yield distinct 32-byte addresses, setters change only their own field and set_type_and_clear zeroes the trailing fields.",
  "all addresses and field values in range", "2^256 addresses", [F5 + ": ADRS"])
p("C52", "WOTS+ checksum excludes digit-wise domination",
  "For two distinct message digests at least one of the len digits of the first is strictly smaller than that of the second, so no signature can be extended to another digest by hashing forward.",
  "all digest pairs and all parameter sets", "all pairs of digests", [F5 + ": SLH_DSA.wots_sign, SLH_DSA.wots_pk_from_sig"])
p("C53", "WOTS+, XMSS, hypertree and FORS signatures reproduce the public key",
  "wots_pk_from_sig(wots_sign(m)) = wots_pkgen, xmss_pk_from_sig(xmss_sign(m)) = the tree root, ht_verify(ht_sign(m)) is True and fors_pk_from_sig(fors_sign(md)) is the FORS root, for arbitrary hash functions.",
  "all messages, seeds, indices, tree heights and hash functions", "structure proof over all heights and indices", [F5 + ": SLH_DSA.wots_sign, SLH_DSA.xmss_sign, SLH_DSA.ht_sign, SLH_DSA.fors_sign"])
p("C54", "SLH-DSA signatures verify",
  "slh_verify_internal accepts slh_sign_internal's output for every key pair from slh_keygen_internal, with deterministic or hedged randomness; wrong signature or key lengths are always rejected.",
  "all seeds, messages, randomness, all parameter sets", "signing is far too slow and the space too large to enumerate", [F5 + ": SLH_DSA.slh_keygen_internal, SLH_DSA.slh_sign_internal, SLH_DSA.slh_verify_internal"])
p("C55", "SLH-DSA pre-hash signatures verify",
  "A signature made with hash_slh_sign for a pre-hash name is accepted by the pre-hash verification for the same name, message and context.",
  "all keys, messages, contexts and pre-hash names", "the two sides disagree for every name, which a test of one side never reveals", [F5 + ": SLH_DSA.hash_slh_sign, SLH_DSA.hash_ml_dsa_verify"])

FF = "pq_logic/fips/frodokem.py"
p("C60", "FrodoKEM matrix packing",
  "unpack(pack(M)) = M for every matrix with entries below q, and pack(unpack(b)) = b for every byte string of the right length.",
  "all matrices and byte strings", "astronomic input space", [FF + ": FrodoKEM.pack, FrodoKEM.unpack"])
p("C61", "FrodoKEM encode/decode tolerate bounded noise",
  "decode(encode(k) + E mod q) = k whenever every entry of E lies in [-q/2^(B+1), q/2^(B+1)).",
  "all messages and all noise matrices in range", "exact tolerance interval", [FF + ": FrodoKEM.encode, FrodoKEM.decode"])
p("C62", "FrodoKEM shared secrets agree",
  "kem_decaps(sk, ct) returns the secret of kem_encaps whenever the accumulated noise S'E + E'' - E'S stays inside the decoding interval; otherwise-shaped ciphertexts yield the implicit-rejection secret.",
  "all seeds, messages and hash functions", "key and noise space cannot be enumerated", [FF + ": FrodoKEM.kem_keygen, FrodoKEM.kem_encaps, FrodoKEM.kem_decaps"])
p("C63", "FrodoKEM constant-time helpers",
  "ctverify returns True exactly when the two matrices are equal; ctselect returns the first argument for the selector True and the second one for False.",
  "all matrices of equal shape, all byte strings of equal length", "all inputs", [FF + ": FrodoKEM.ctverify, FrodoKEM.ctselect"])
p("C64", "FrodoKEM noise samples are bounded by the table",
  "sample returns, for every 16-bit input, a value of absolute value less than the length of the distribution table, the absolute value grows with the upper 15 bits, and it equals z exactly on the z-th interval of the cumulative distribution.",
  "all 16-bit inputs, all distribution tables", "uniform over tables", [FF + ": FrodoKEM.sample"])

p("C70", "Composite signatures need both components",
  "CompositeSigPublicKey.verify succeeds only if the ML-DSA part and the traditional part both verify over the same domain-separated input, and the input determines the context and the pre-hash.",
  "all component verifiers, signatures, contexts", "adversarial component signatures", ["pq_logic/keys/composite_sig.py: CompositeSigPublicKey.verify, CompositeSigPrivateKey.sign, CompositeSigPublicKey.prepare_sig_input"])
p("C71", "Composite KEM shared secrets agree and follow the selected KDF",
  "decaps(encaps) returns the encapsulated secret whenever both component KEMs do, and the combiner uses the KDF named by the algorithm (HKDF variants included).",
  "all component KEMs, all algorithm names, CMS and non-CMS use", "all component behaviours", ["pq_logic/keys/composite_kem.py: CompositeKEMPublicKey.encaps, CompositeKEMPrivateKey.decaps, kem_combiner, _get_kdf_algorithm"])
p("C72", "X-Wing decapsulation",
  "decaps returns the encapsulated secret whenever ML-KEM and X25519 agree, and the ciphertext accepted for a shared secret is unique as a byte string.",
  "all keys and ciphertexts", "adversarial trailing data", ["pq_logic/keys/xwing.py: XWingPrivateKey.decaps, XWingPublicKey.encaps"])
p("C73", "Chempat context identifies the algorithm combination",
  "decaps inverts encaps whenever the component KEMs do, and two different algorithm combinations never share a Chempat context string.",
  "all supported combinations", "pairs of all combinations", ["pq_logic/keys/chempat_key.py: ChempatPublicKey.get_context, kem_combiner, encaps, decaps"])
p("C74", "RSA-KEM round trip",
  "RSAKem.decaps(encaps) returns the same secret for every RSA key with distinct primes and e*d = 1 mod lcm/phi, and out-of-range or wrong-length ciphertexts are rejected.",
  "all RSA keys and random values", "all moduli", ["pq_logic/kem_mechanism.py: RSAKem.encaps, RSAKem.decaps"])
p("C75", "KDF3 output is a prefix-consistent stream",
  "_compute_kdf3 returns exactly the requested number of bytes and shorter outputs are prefixes of longer ones for the same input.",
  "all inputs and lengths", "all lengths", ["pq_logic/kem_mechanism.py: _compute_kdf3"])
p("C76", "HSS signature index identifies the one-time key",
  "compute_hss_signature_index maps the per-level leaf numbers injectively to 0..total-1 in signing order, so two signatures with the same index used the same one-time keys; the bottom-level leaf index alone does not.",
  "all level counts, tree heights and leaf numbers", "all multi-level indices", ["pq_logic/keys/stateful_sig_keys.py: compute_hss_signature_index, HSSPublicKey.get_leaf_index", "resources/keyutils.py: get_pq_stateful_sig_index_from_sig"])
p("C77", "HSS level validation enforces uniform parameters when asked to",
  "validate_hss_key_levels with enforcement enabled rejects every key whose levels use different LMS/LM-OTS parameters; more than eight or zero levels are always rejected.",
  "all lists of level parameters", "the differing level may be anywhere", ["pq_logic/keys/hss_validation.py: validate_hss_key_levels"])
p("C78", "NIST approval filter for XMSS/XMSS^MT",
  "is_nist_approved_xmss / is_nist_approved_xmssmt reject every algorithm that is listed as not approved, i.e. the original RFC 8391 SHAKE and 512-bit sets.",
  "all algorithm names", "filter over the complete name table", ["resources/ca_ra_utils.py: is_nist_approved_xmss, is_nist_approved_xmssmt", "pq_logic/keys/stateful_sig_keys.py: XMSSMT_NOT_APPROVED"])

p("C80", "Distinguished-name comparison modes",
  "compare_pyasn1_names: strict and without_tag are equality of the encodings; contains answers True iff all attributes of name2 occur in name1; contains_seq additionally at the same RDN positions.",
  "all names", "the direction of inclusion only shows for non-symmetric pairs", ["resources/compareutils.py: compare_pyasn1_names"])
p("C81", "Negative-test manipulations really change the data",
  "manipulate_first_byte returns a byte string of the same length that differs from every non-empty input in exactly the first byte; the stateful-signature manipulation writes an index that the verifier reads back.",
  "all byte strings and indices", "a manipulation that is the identity on one input silently disables a negative test", ["resources/utils.py: manipulate_first_byte, manipulate_pq_stateful_signature_bytes", "pq_logic/keys/stateful_sig_keys.py: XMSSPublicKey.get_leaf_index"])
p("C82", "Password expansion",
  "expand_string_to_length returns exactly the requested length and its i-th character is the (i mod n)-th of the input; empty input and negative length are rejected.",
  "all strings and lengths", "all lengths", ["resources/utils.py: expand_string_to_length"])
p("C83", "Response body types match the request",
  "validate_cmp_body_types accepts a response iff its body type is the one belonging to the request's body type, or `error` when errors are allowed or required; for batches this holds element-wise.",
  "all request/response pairs, arbitrarily nested batches", "recursive structure", ["resources/checkutils.py: validate_cmp_body_types, _validate_body_types_nested"])
p("C84", "Certificate chain order in extraCerts",
  "check_single_chain_is_ordered answers True only if each chain certificate is directly followed by its issuer in extraCerts or the issuer occurs earlier.",
  "all extraCerts lists and chains", "positions in unbounded lists", ["resources/checkutils.py: check_single_chain_is_ordered"])

p("C85", "The database views partition the stored certificates",
  "issued_certs, not_confirmed_certs and the unconfirmed part of updated_certs together list every stored certificate exactly once, in storage order; revoked certificates and certificates replaced by a confirmed update are still listed as issued.",
  "all databases", "views must agree for every database content", [MF + ": CertificateDB.issued_certs, CertificateDB.not_confirmed_certs, CertificateDB.updated_certs"])
p("C86", "A certificate the client rejects is not confirmed",
  "If the certConf message reports status `rejection` for the issued certificate, processing it does not move the certificate to CONFIRMED.",
  "all stored exchanges and all certConf messages", "ranges over all exchanges and confirmation contents",
  ["mock_ca/cert_conf_handler.py: CertConfHandler.process_cert_conf", "resources/ca_ra_utils.py: build_pki_conf_from_cert_conf"])

p("C87", "Every stateful-signature protected message has its index checked",
  "Whatever the body type of a message protected by a stateful hash-based signature, the mock CA accepts it only if the signature index has not been used before with the signing certificate.",
  "all message types, all states of the index register", "the body type that escapes the check is only visible when every type is considered",
  ["mock_ca/prot_handler.py: ProtectionHandler.validate_protection, ProtectionHandler.validate_stfl_signature_protection", "mock_ca/stfl_validator.py: STFLPKIMessageValidator.validate_pq_stateful_pki_message"])
p("C88", "A correctly signed nested message with a fresh stateful index is acceptable",
  "A nested message protected with a stateful hash-based signature with a fresh index from a registered certificate passes the protection checks of the mock CA.",
  "all index registers and nested messages", "liveness over all register states",
  ["mock_ca/ca_handler.py: CAHandler.process_normal_request", "mock_ca/nested_handler.py: NestedHandler.process_nested_request", "mock_ca/stfl_validator.py: STFLPKIMessageValidator.validate_pq_stateful_pki_message"])

p("C91", "Updated certificates are found by their hash",
  "For a revocation database configured with any hash algorithm, after add_updated_cert(cert) a call of is_updated_by_hash with the digest of cert under that algorithm answers True.",
  "all revocation databases, certificates and hash algorithms", "the hash algorithm used for storing and looking up only matters for non-default algorithms",
  ["mock_ca/mock_fun.py: CertRevStateDB.add_updated_cert, CertRevStateDB.is_updated_by_hash, RevokedEntryList.contains_hash"])
p("C92", "The OCSP responder answers for every certificate of the CA",
  "get_ocsp_response returns a response (good or revoked) for every certificate stored in the database, whatever its life-cycle state.",
  "all databases and all requested certificates", "the failing state is reached only after an update",
  ["mock_ca/mock_fun.py: CertRevStateDB.get_ocsp_response, CertificateDB.get_ocsp_response"])
p("C93", "A successful certConf proves knowledge of the issued certificate",
  "process_cert_conf succeeds only if the message contains the digest of the issued certificate under the hash algorithm announced in the message or implied by the certificate.",
  "all stored exchanges and all certConf messages", "the claim excludes every wrong hash in every status",
  ["mock_ca/cert_conf_handler.py: CertConfHandler.process_cert_conf", "resources/ca_ra_utils.py: build_pki_conf_from_cert_conf"])
p("C94", "A certConf is authorised by the requester",
  "An accepted certConf has the protection type of the request and, if the request was signed, the same signer certificate; if a MAC was used and enforced, the same MAC algorithm.",
  "all requests, certConf messages and configurations", "the protection type that escapes the comparison is only visible when all are considered",
  ["mock_ca/cert_conf_handler.py: CertConfHandler._verify_protection, CertConfHandler._confirm_cert"])
p("C95", "An issued certificate stays confirmable",
  "After the CA issued a certificate that needs confirmation, no sequence of requests, certConf messages of other exchanges, failed certConf messages and database operations on other certificates prevents the requester's correct certConf from being accepted and from making the certificate CONFIRMED.",
  "all histories of unrelated traffic", "liveness over unbounded interleavings of other clients' messages",
  ["mock_ca/cert_conf_handler.py: CertConfHandler, CertConfState", "mock_ca/cert_req_handler.py: CertReqHandler.process_after_request", "mock_ca/mock_fun.py: MockCAState"])

p("C96", "Message time lies within the allowed interval",
  "check_message_time_field accepts a response for a given request time iff the difference between the two times does not exceed the interval, and without a request time iff messageTime is neither in the future nor older than the interval.",
  "all times and intervals", "quantifies over all time differences, including negative ones",
  ["resources/checkutils.py: check_message_time_field, _check_message_time_for_request"])
p("C97", "Revocation responses may reject",
  "check_rp_cmp_message_body accepts an rp with status accepted iff failInfo is absent, and accepts an rp with status rejection.",
  "all statuses and failInfo values", "the documented second branch is unreachable for every message",
  ["resources/checkutils.py: check_rp_cmp_message_body", "resources/asn1utils.py: asn1_compare_named_values"])
p("C98", "Named bits and named integers",
  "A bit string built from a list of names satisfies is_bit_set for the same list; asn1_compare_named_values with exclusive=False answers whether one of the names matches.",
  "all named types, values and name lists", "order, blanks and flags interact",
  ["resources/asn1utils.py: is_bit_set, asn1_names_to_bitstring, asn1_compare_named_values"])
p("C99", "Request identifiers",
  "validate_request_message_nonces_and_tx_id accepts a non-nested, non-certConf request iff transactionID and senderNonce are present with 16 bytes and recipNonce is absent.",
  "all request headers", "an iff over all headers",
  ["resources/checkutils.py: validate_request_message_nonces_and_tx_id"])

p("C39", "ML-KEM sampling",
  "sample_ntt returns exactly the first 256 of the 12-bit numbers of the XOF stream that are below q, in order; every coefficient of sample_poly_cbd is the residue of a number between -eta and eta.",
  "all streams, all eta, all inputs", "a biased or truncated sampler still passes round-trip tests",
  [F3 + ": ML_KEM.sample_ntt, ML_KEM.sample_poly_cbd"])

p("C49", "ML-DSA sizes and key import",
  "Generated keys and signatures have the sizes tabulated in the key classes; the public key derived from the private bytes is the generated one; a key is loaded back from its seed, its private bytes or both; a seed with other private bytes is rejected; no other length is accepted.",
  "all seeds and private keys, every parameter set", "derivation must agree with generation for every seed",
  [F4 + ": ML_DSA.keygen_internal, ML_DSA.sign_internal", "pq_logic/keys/sig_keys.py: MLDSAPrivateKey.from_private_bytes, MLDSAPrivateKey._derive_public_key, MLDSAPublicKey.from_public_bytes"])
p("C100", "ML-DSA key classes sign and verify in the same mode",
  "For every hash_alg, context, is_prehashed flag and data, a signature returned by MLDSAPrivateKey.sign is accepted by MLDSAPublicKey.verify called with the same arguments; the strings signed in pure and pre-hash mode never coincide.",
  "all keys, data, contexts and arguments", "sign and verify treat unsupported hash algorithms differently",
  ["pq_logic/keys/sig_keys.py: MLDSAPrivateKey.sign, MLDSAPublicKey.verify, MLDSAPublicKey.check_hash_alg"])

p("C101", "SLH-DSA private keys that are accepted are consistent",
  "A generated key is loaded back from its seed, its private bytes and the concatenation of both; a private key that from_private_bytes accepts produces signatures that its own public key accepts.",
  "all seeds and byte strings, every parameter set", "the 4n-byte form carries the root without a check",
  ["pq_logic/keys/sig_keys.py: SLHDSAPrivateKey.from_private_bytes, SLHDSAPrivateKey._derive_public_key, SLHDSAPublicKey.from_public_bytes"])
p("C102", "SLH-DSA key classes sign and verify in the requested mode",
  "For every hash_alg, context, is_prehashed flag and data, a signature returned by SLHDSAPrivateKey.sign is accepted by SLHDSAPublicKey.verify called with the same arguments; a hash algorithm that cannot be used is an error, not a signature in another mode.",
  "all keys, data, contexts and arguments", "check_hash_alg answers None both for no hash and for an unsupported one",
  ["pq_logic/keys/sig_keys.py: SLHDSAPrivateKey.sign, SLHDSAPublicKey.verify, SLHDSAPublicKey.check_hash_alg"])

p("C103", "DHKEM follows RFC 9180",
  "DHKEM encapsulation computes the secret of RFC 9180 Encap for the five KEMs of table 2; decapsulation returns the encapsulated secret whenever the key exchange commutes; the suite identifier mixed into the secret tells the curves apart.",
  "all keys, ephemeral keys and exchange functions", "agreement and domain separation range over all keys and curves",
  ["pq_logic/kem_mechanism.py: DHKEMRFC9180.encaps, DHKEMRFC9180.decaps, DHKEMRFC9180._extract_and_expand, ECDHKEM.encaps, ECDHKEM.decaps", "pq_logic/keys/trad_kem_keys.py: DHKEMPublicKey.encaps, DHKEMPrivateKey.decaps"])

p("C104", "ML-KEM keys are imported faithfully",
  "A generated ML-KEM key is loaded back from its seed, its private bytes and the concatenation of both, with the same public key; other lengths are rejected; a seed followed by private bytes is accepted only if the seed generates them; exporting an imported key gives the same key; ciphertexts of the wrong length never give an honest secret.",
  "all seeds, private keys and ciphertexts, every parameter set", "the consistency of seed and key ranges over all keys",
  ["pq_logic/keys/kem_keys.py: MLKEMPrivateKey.from_private_bytes, MLKEMPrivateKey.public_key, MLKEMPrivateKey.decaps, MLKEMPublicKey.encaps", "pq_logic/keys/abstract_wrapper_keys.py: PQPrivateKey._export_private_key"])
p("C105", "FrodoKEM keys are imported faithfully",
  "A generated FrodoKEM key is loaded back from its seed and its private bytes, with the same public key; keys of any other length are rejected on import; decapsulation returns the encapsulated secret for tolerated noise and refuses ciphertexts of the wrong length.",
  "all seeds and byte strings, every parameter set", "all lengths and seeds",
  ["pq_logic/keys/kem_keys.py: FrodoKEMPrivateKey.from_private_bytes, FrodoKEMPrivateKey.decaps, FrodoKEMPublicKey.from_public_bytes, FrodoKEMPublicKey.encaps"])
p("C106", "ML-KEM input checks of FIPS 203",
  "Loading an encapsulation key performs the modulus check and loading a decapsulation key the hash check of FIPS 203, so that an accepted private key decapsulates what is encapsulated for its own public key.",
  "all byte strings of the right length", "malformed keys of the right length are accepted or refused by value, not by shape",
  ["pq_logic/keys/kem_keys.py: MLKEMPublicKey.from_public_bytes, MLKEMPrivateKey.from_private_bytes"])

p("C108", "X-Wing keys are imported faithfully",
  "The seed, the expanded seed, the pair of private keys and the seed with the private keys of an X-Wing key all load to the keys that expandDecapsulationKey of the draft defines, with the same public key; a seed with private keys is accepted only if they belong together; other lengths are refused; a public key is accepted exactly for 1216 bytes and exported unchanged.",
  "all seeds and byte strings", "the consistency of seed and keys ranges over all keys",
  ["pq_logic/keys/xwing.py: XWingPrivateKey.from_private_bytes, XWingPrivateKey.from_seed, XWingPrivateKey.public_key, XWingPublicKey.from_public_bytes"])

p("C109", "Composite signature algorithm identifiers are bound to the key",
  "A composite signature is accepted under an AlgorithmIdentifier only if that identifier belongs to the key, and a composite key loaded under an algorithm name is a key of that algorithm.",
  "all keys, identifiers, signatures and encodings", "the pairs of identifier and key that disagree are not enumerated by tests",
  ["resources/protectionutils.py: verify_signature_with_alg_id", "pq_logic/combined_factory.py: CombinedKeyFactory._load_composite_sig_from_public_bytes, CombinedKeyFactory._load_composite_sig_from_private_bytes, CombinedKeyFactory.get_pq_and_trad_name_form_hybrid_name", "pq_logic/keys/composite_sig.py: CompositeSigPublicKey.get_oid"])

p("C110", "PQKeyFactory loads private key bytes",
  "PQKeyFactory.from_private_bytes loads the key from its seed, its private bytes or both together, as its docstring says, and refuses what is none of them.",
  "all ML-KEM and ML-DSA keys", "the factory cuts its input; the result depends on the key",
  ["pq_logic/keys/pq_key_factory.py: PQKeyFactory.from_private_bytes"])
p("C111", "The parts of a loaded private key structure belong together",
  "A private key loaded from a OneAsymmetricKey structure has the public key given in the structure, and a seed and private bytes given together belong to each other.",
  "all structures, ML-KEM and ML-DSA", "inconsistent structures are accepted or refused by value",
  ["pq_logic/keys/pq_key_factory.py: PQKeyFactory.load_ml_private_key_from_one_asym_key, PQKeyFactory._load_and_validate, PQKeyFactory.from_one_asym_key", "pq_logic/keys/abstract_wrapper_keys.py: BaseKey.__eq__", "pq_logic/combined_factory.py: CombinedKeyFactory.load_private_key_from_one_asym_key"])
p("C112", "Saved post-quantum private keys can be loaded again",
  "A key made from a seed and saved as a seed, as private bytes or as both, in either version of the structure or in the old raw format, is loaded again as the same key.",
  "all keys made from a seed, every way of saving", "in the raw format the result depends on the first bytes of the random seed",
  ["pq_logic/keys/pq_key_factory.py: PQKeyFactory.save_private_key_one_asym_key, PQKeyFactory._prepare_ml_private_key, PQKeyFactory._may_get_pub_key, PQKeyFactory.from_one_asym_key", "pq_logic/keys/abstract_wrapper_keys.py: PQPrivateKey._to_one_asym_key, PQPrivateKey._export_private_key", "pq_logic/combined_factory.py: CombinedKeyFactory.load_private_key_from_one_asym_key"])

p("C113", "The update link of a certificate leads to the certificate that replaced it",
  "After a key update was answered, the database entry of the old certificate is in an updated state and its update link is the digest of the newly issued certificate, with the time of the update; confirming the update changes only the state. A state change to UPDATED without a new certificate is refused unless an update is pending.",
  "all databases reachable by any history of calls, all certificates, times and confirmation modes",
  "the link depends on the earlier, possibly abandoned updates of the same certificate",
  [MF + ": CertificateDB._process_update_cert, change_cert_state, add_may_update_cert", "mock_ca/cert_req_handler.py: process_after_request"])

p("C114", "Stateful public keys load exactly when well formed",
  "XMSSPublicKey, XMSSMTPublicKey and HSSPublicKey.from_public_bytes accept exactly the encodings whose algorithm identifier is registered and whose length fits that parameter set, keep the bytes, name the registered set, and report every other input as invalid key data.",
  "all byte strings", "Tests load a handful of generated keys; they do not range over identifiers, lengths and truncated input, and the backend has few of the sets compiled in.",
  ["pq_logic/keys/stateful_sig_keys.py", "pq_logic/keys/pq_stateful_sig_factory.py"])
p("C115", "Stateful private keys: public part, index and PKCS#8",
  "The public key computed from an XMSS or XMSS^MT secret key is its identifier, root and public seed; changing the index changes the index bytes only and leaves the public key; a PKCS#8 structure with a public key is accepted only if that key belongs to the secret key; private_numbers returns the documented fields.",
  "all secret keys of the reference layout, all indices", "Tests use one generated key of a small set and a few indices.",
  ["pq_logic/keys/stateful_sig_keys.py", "pq_logic/keys/pq_stateful_sig_factory.py"])
p("C116", "Changing the state of a stateful private key",
  "modify_pq_stateful_sig_private_key sets the requested index, the last index with last_index=True, or exhausts the key; with used_index it returns the chosen earlier state and raises ValueError past the recorded ones.",
  "all keys, indices and histories", "Tests modify one small key; they do not cover the sets whose signature count fills the index bytes or the edge of the history.",
  ["resources/keyutils.py"])

p("C89", "Only the holder or a trusted party revokes a certificate",
  "A revocation request changes the state of a certificate only if it was protected with that certificate's key, or by a party the CA trusts for revocation.",
  "all certificate databases, all revocation requests", "Tests send requests of the holder; the claim is about every other signer and every database.",
  ["mock_ca/rev_handler.py", "resources/ca_ra_utils.py"])
p("C117", "Template comparison is exact",
  "compare_cert_template_and_cert returns True exactly if every selected field that is present in the template is present and equal in the certificate, with include selecting the named fields only and exclude all but the named ones.",
  "all templates, certificates, include/exclude lists", "Tests compare a few templates; they do not range over subsets of fields, unequal extension values and issuer names.",
  ["resources/certutils.py", "resources/utils.py"])
p("C118", "Option lists select the named options",
  "filter_options returns exactly the named options with include, and exactly the others with exclude.",
  "all option lists, all include/exclude strings", "Tests use two or three literal strings; they never put blanks after the commas.",
  ["resources/utils.py"])
p("C119", "A revocation answer is built for known certificates and valid reasons only",
  "The revocation details are accepted only for a certificate among the issued ones that matches the template, with a CRL reason that RFC 5280 names; the response has one status per entry; an unknown certificate is refused.",
  "all lists of issued certificates, all revocation details", "Tests use one certificate and one reason; the search and the reason table range over all lists and integers.",
  ["resources/ca_ra_utils.py"])
p("C120", "Effects of a revocation request",
  "A revocation request whose protection does not verify changes nothing; an accepted one marks exactly the named certificate as revoked (or revived) and leaves every other entry alone; a correctly protected request for an issued, unrevoked certificate is accepted.",
  "all certificate databases, all revocation requests", "Tests look at the one certificate they revoke, not at the rest of the database, and not at every kind of protection.",
  ["mock_ca/rev_handler.py", "resources/ca_ra_utils.py", "resources/protectionutils.py"])

p("C90", "Messages inside a nested message are checked like messages sent on their own",
  "A message that the CA refuses when it is sent directly (revoked signer, protection that does not verify, unconfirmed certificate of the signer) is also refused, without effect, as an element of a batch; and a certificate issued for an element can be confirmed.",
  "all states of the CA, all batches and handlers", "Tests send well-formed batches; the claim compares two entry points over all states and messages.",
  ["mock_ca/nested_handler.py: NestedHandler.process_batched_request, NestedHandler._process_added_protection_request", "mock_ca/cert_req_handler.py: CertReqHandler.process_cert_request", "mock_ca/prot_handler.py: ProtectionHandler.verify_inner_batch_pkimessage, ProtectionHandler.verify_added_protection, ProtectionHandler.check_correct_prot_type"])

p("C107", "Composite KEM keys survive being written and read",
  "A Composite KEM public key that is written into a SubjectPublicKeyInfo is read back, by its object identifier, as a key for which secrets can be encapsulated that the private key recovers; a private key that is saved, in any of the three formats, is read back as the same key; a private key stored with a foreign public key is refused; and a key read under an identifier is a key of that algorithm.",
  "all keys of all 48 algorithms, all bytes, both versions of OneAsymmetricKey", "Tests store one generated key per algorithm in the default format; the claim is over all keys, constructions and formats.",
  ["pq_logic/combined_factory.py: CombinedKeyFactory._load_composite_kem_public_key, _load_composite_kem_from_private_bytes, _decode_composite_kem, _load_trad_composite_private_key", "pq_logic/keys/hybrid_key_factory.py: HybridKeyFactory._save_keys_with_support_seed, save_private_key_one_asym_key", "pq_logic/keys/composite_kem.py: CompositeKEMPublicKey._export_public_key, CompositeKEMPrivateKey._export_private_key"])

p("C121", "A trusted signer leads to a trust anchor",
  "A signer is trusted only if its certificate, the first extra certificate, is connected with a trust anchor by certificates of the message, each signed by the next one and issued by a certification authority, and if its key usage allows the use; conversely, a signer with such a path is trusted, in whatever order the extra certificates are sent. Chain building ends, whatever loops the certificates form.",
  "all certificates, all orders and loops, all trust anchors, all signature algorithms", "Tests use one well-ordered chain of the test PKI; the claim is over all sets of certificates and their orders.",
  ["resources/certutils.py: build_chain_from_list, check_is_cert_signer, build_cmp_chain_from_pkimessage, certificates_must_be_trusted", "mock_ca/prot_handler.py: check_signer_is_trusted"])
p("C122", "Centrally generated keys are accepted from trusted authorities only",
  "A private key in a SignedData structure is accepted only if the certificates of the structure form a chain from the certificate that the signer identifier names, which has the extended key usage cmKGA, to a trust anchor, and the key of that certificate verifies the signature over the content, whose digest the signed attributes name.",
  "all SignedData structures, all certificates and their orders", "Tests use structures the suite built itself, with one order of certificates and a correct signer identifier.",
  ["resources/ca_kga_logic.py: get_certificates_from_signed_data, validate_signed_data_structure, check_signer_infos, _validate_signature_and_algorithm_in_signed_data, _validate_kga_certificate"])
p("C123", "Key usage checks decide what their strictness says",
  "validate_key_usage and validate_cmp_extended_key_usage succeed exactly if the certificate has the named usages: with LAX also without the extension, with STRICT only with it, with ABS_STRICT only without further usages; must_not_contain_key_usage succeeds exactly if none of the named usages is present.",
  "all certificates and usage strings", "Tests use five fixed certificates; the claim is over all bit strings and all lists of names.",
  ["resources/certutils.py: validate_key_usage, validate_cmp_extended_key_usage, _validate_key_usage, must_not_contain_key_usage"])

p("C124", "The delta certificate is what the descriptor says",
  "From a paired certificate, exactly the delta certificate is rebuilt for which its Delta Certificate Descriptor was made: serial number, names, validity, key, extensions, signature algorithm and signature. The descriptor lists the extensions whose criticality or value differ, and passes the validation that every descriptor must pass; a valid descriptor can be applied.",
  "all delta and base certificates, all extension lists, all descriptors", "Tests rebuild a few certificates of one draft with equal validity and algorithms without parameters; the claim is over all pairs.",
  ["pq_logic/hybrid_sig/chameleon_logic.py: prepare_dcd_extension_from_delta, _clean_base_and_delta_extensions, build_chameleon_base_certificate, validate_dcd_extension, build_delta_cert_from_paired_cert", "resources/certbuildutils.py: sign_cert"])
p("C125", "A paired request yields a pair of certificates",
  "For a paired request two certificates are issued for two different signature keys whose possession was proved; each has its own key, its own key identifier once, the requested subject, and is signed over its contents; the descriptor in the paired certificate is the one of the CA, and the issued delta certificate can be rebuilt from it.",
  "all paired requests and extension lists, all options, all hash algorithms of the CA", "Tests issue for two requests with default options; the claim is over all combinations of requested extensions.",
  ["pq_logic/hybrid_sig/chameleon_logic.py: build_chameleon_cert_from_paired_csr, process_extensions_for_chameleon, _parse_extension, _process_remove_extensions, _validate_keys, build_delta_cert", "resources/certbuildutils.py: build_cert_from_csr, validate_subject_key_identifier_extension"])
p("C126", "A paired request proves possession of both keys",
  "A paired request is accepted exactly if the request signature verifies with the base key over all attributes and the delta signature verifies with the delta key over the attributes without it; what the suite builds is accepted in whatever order the attributes are decoded; a wrong delta signature is reported as such. The key checked for revocation and reuse is the key that signed.",
  "all requests with any attributes, repeated or in any order", "Tests use requests with one delta request and one signature in the order in which they were built.",
  ["pq_logic/hybrid_sig/chameleon_logic.py: verify_paired_csr_signature, extract_chameleon_attributes, load_chameleon_csr_delta_key_and_sender, build_paired_csr", "mock_ca/cert_req_handler.py 237-242", "mock_ca/hybrid_handler.py 125-133, 412-417"])

p("C127", "Both signatures of a catalyst certificate cover it, and it is accepted only with both",
  "A certificate accepted by verify_catalyst_signature has either none or all three of the alternative extensions; if it has them, the alternative signature is a valid signature, under the alternative key it carries, of the certificate without that signature, and the ordinary signature is valid under the issuer's key. A certificate made by sign_cert_catalyst is accepted, and with bad_alt_sig it carries a different signature. The alternative key used is the issuer's alternative key, and load_catalyst_public_key returns the key used.",
  "for all certificates, issuers, keys, options and signature schemes",
  "Tests sign one certificate and flip one bit; they do not vary who chose the alternative key or repeat an extension.",
  ["pq_logic/hybrid_sig/catalyst_logic.py:157-400", "pq_logic/hybrid_sig/catalyst_logic.py:460-500"])
p("C128", "A certificate for two keys is issued only to someone who has both",
  "build_cert_from_catalyst_request issues a certificate only after possession of the first and of the alternative key was shown: by a signature of each, by a composite signature, or by encrypting the certificate for the key that cannot sign. The certificate contains exactly these two keys and the requested subject. A request made by prepare_catalyst_cert_req_msg_approach is accepted; with bad_pop it is not the valid one. Whether a request is answered does not depend on its place or on the body it comes in.",
  "for all requests, key pairs, signature schemes, request bodies and positions",
  "Tests use one request at index 0 in an ir; the signature bytes that make bad_pop valid appear with probability 1/128.",
  ["pq_logic/hybrid_issuing.py:217-400", "pq_logic/hybrid_issuing.py:404-760"])
p("C129", "Every request for a catalyst-signed certificate gets its own certificate with the requested properties",
  "build_catalyst_signed_cert_from_req answers every request in order with a certificate for its subject and key, after checking its proof of possession, signed with both keys of the CA, and with the certReqId of the request; the arguments allow_chosen_sig_alg and extensions are obeyed; the supported bodies include ccr; an alternative key sent by the client is certified.",
  "for all lists of requests, CA keys, options and bodies",
  "Tests send one request with certReqId 0 in an ir and look at the first certificate.",
  ["pq_logic/hybrid_issuing.py:760-1080"])

p("C130", "A message with a hybrid protection is accepted only with both signatures, by the keys of its sender",
  "verify_hybrid_pkimessage_protection accepts a message only if the sender's key signed all of it and, if it carries or must carry an alternative signature, the sender's alternative key signed it without that signature; a composite protection only if the composite key, or both keys of the certificate, verify it. What protect_hybrid_pkimessage produces is accepted, with bad_message_check it is not the valid message. The check can be repeated, a given key is the one used, and must_be_catalyst_signed is obeyed.",
  "for all messages, certificates, keys, options and signature schemes",
  "Tests protect one message, verify it once and with the key that belongs to it.",
  ["pq_logic/pq_verify_logic.py:109-221", "pq_logic/pq_verify_logic.py:446-608", "resources/protectionutils.py:2680-2917", "mock_ca/ca_handler.py:1112-1135"])
p("C131", "A CRL with an alternative signature is accepted only if both keys of the CA signed it",
  "verify_crl_signature accepts a CRL only if the CA's key signed all of it and, if it has an alternative signature, the CA's alternative key signed the rest of it. A CRL made by sign_crl_catalyst is accepted, also with use_rsa_pss; a CRL without alternative signature is accepted unless one is demanded; the check can be repeated.",
  "for all CRLs with any extensions, certificates, keys and options",
  "Tests sign one CRL with the default options and verify it once.",
  ["pq_logic/pq_verify_logic.py:611-708", "pq_logic/hybrid_sig/catalyst_logic.py:503-582"])
p("C132", "A migration chain links every certificate to its issuer, and it is found if it exists",
  "build_migration_cert_chain returns a list that starts with the certificate, whose members are among those given, each named as issuer of the one before and with a key that verifies its signature; it stops at a self-issued certificate. If such a chain can be built from the given certificates it is found, in whatever order they are given and also if a CA has certificates with keys of different kinds.",
  "for all certificates and lists of candidates in any order",
  "Tests give the candidates in the order of the chain, one for each name.",
  ["pq_logic/pq_verify_logic.py:266-335"])
p("C133", "The second key of a hybrid certificate comes from where its extensions say",
  "may_extract_alt_key_from_cert returns the key that the certificate's extensions designate, in a fixed order of precedence, and None only if there is none; the key is a post-quantum signature key. verify_cert_hybrid_signature accepts only a valid composite signature of the issuer's two keys, it works with a second certificate, a given alternative key or a composite issuer key, and it goes by the algorithm of the signature.",
  "for all certificates with any combination of extensions, and all keys",
  "Tests have one extension at a time and a subject with a composite key.",
  ["pq_logic/pq_verify_logic.py:55-106", "pq_logic/pq_verify_logic.py:710-814"])

p("C134", "A certificate's RelatedCertificate extension designates exactly one certificate",
  "validate_related_cert_extension accepts a certificate only if its hash, with the hash of the signature algorithm, is the value of the extension; with a collision-free hash at most one certificate is accepted. A certificate with the extension made by prepare_related_cert_extension is accepted with the certificate it was made for, if that one covers its key usage and extended key usage, and is refused if it does not. get_related_cert_from_list returns the first certificate with that hash.",
  "for all certificates, lists of certificates, extensions, hash functions and key usages",
  "Tests use one pair of certificates with the same signature algorithm and without extended key usage.",
  ["pq_logic/hybrid_sig/cert_binding_for_multi_auth.py:175-340", "pq_logic/hybrid_sig/cert_binding_for_multi_auth.py:386-406", "pq_logic/hybrid_sig/cert_binding_for_multi_auth.py:659-707"])
p("C135", "A related certificate is issued only to whoever controls the other certificate and the requested key",
  "validate_related_cert_pop accepts a request exactly if its attribute is fresh, names the certificate served at its location and is signed with that certificate's key, and it accepts what prepare_requester_certificate makes. The attribute counts only in the request it was made for, a certificate is accepted only with its own trusted chain, and the mock CA issues a related certificate only with proof of possession of the requested key, for a related certificate of its own that is neither revoked nor updated.",
  "for all requests, certificates, served values, times, limits and signature schemes",
  "Tests send one honest request with a current time; none has a CSR with a wrong signature or a copied attribute.",
  ["pq_logic/hybrid_sig/cert_binding_for_multi_auth.py:64-172", "pq_logic/hybrid_sig/cert_binding_for_multi_auth.py:344-587", "pq_logic/hybrid_issuing.py:1201-1267", "mock_ca/ca_handler.py:1184-1315", "resources/certbuildutils.py:1951-2048"])
p("C136", "Revoked hybrid certificates are recognised, whatever their kind",
  "is_hybrid_cert names the kind of a certificate by its first mark in a fixed order. Before a request signed with a hybrid certificate is processed, is_revoked_for_issuing and is_revoked_for_request refuse it if that certificate, or a second certificate bound to it, or the key asked for is revoked, and accept it otherwise.",
  "for all certificates with any extensions, requests and states of the revocation database",
  "Tests revoke no composite, catalyst, related or discovery certificate.",
  ["pq_logic/hybrid_issuing.py:1271-1312", "mock_ca/hybrid_handler.py:70-133", "mock_ca/hybrid_handler.py:377-444"])
p("C137", "A discovery certificate leads to the certificate it was issued for",
  "The descriptor put into a certificate by prepare_subject_info_access_syntax_extension is read back, and get_cert_discovery_cert returns what its location serves; validate_cert_discovery_cert accepts it if the algorithms agree and the issuer signed it. The mock CA issues such a certificate only with a proof of control of a trusted certificate and of the requested key.",
  "for all certificates, descriptors, indices, served values and requests",
  "Tests read one extension back; validate_cert_discovery_cert is not called with a certificate.",
  ["pq_logic/hybrid_sig/certdiscovery.py:30-301", "pq_logic/hybrid_issuing.py:1129-1197", "mock_ca/ca_handler.py:1142-1182"])
p("C138", "The extensions of a certificate are those checked in the request, completed by those of the CA, none twice",
  "check_extensions puts every extension of the request that it checked into the certificate, adds those of the CA's own extensions whose kind the request does not ask for, and nothing else; no extension occurs twice if none does in the CA's list.",
  "for all lists of extensions of the CA and all results of the checks of the request",
  "Tests combine one or two extensions.",
  ["resources/certbuildutils.py:2737-2751", "resources/certbuildutils.py:2813-2857", "resources/certbuildutils.py:1898-1947"])

p("C139", "The four forms of a Sun hybrid certificate carry the same key and signature",
  "convert_sun_hybrid_cert_to_target_form takes a certificate of any form to any form with the same second key and second signature, if the locations serve them: nothing but the two extensions changes, conversions compose, a conversion to the own form changes nothing, and converting there and back gives the same certificate. get_sun_hybrid_form returns the form of a certificate, and contains_sun_hybrid_cert_form_1_or_3 finds a certificate that carries its signature by value.",
  "for all certificates, pairs of forms, keys, signatures, hash functions and served values",
  "Tests convert one certificate from Form 4 to each other form with an intact server; no test serves another value.",
  ["pq_logic/hybrid_sig/sun_lamps_hybrid_scheme_00.py:189-325", "pq_logic/hybrid_sig/sun_lamps_hybrid_scheme_00.py:835-1169"])
p("C140", "A Sun hybrid certificate is accepted only with both signatures, over what each of them covers",
  "verify_sun_hybrid_cert accepts a certificate only if its Form 4 is signed by the issuer, the key served at its location has the hash and algorithm it names and, if asked, the second signature served at its location has the hash it names and is made with the second key of the issuer over the certificate without it. find_sun_hybrid_issuer_cert returns only a certificate with the name of the issuer whose key made the signature.",
  "for all certificates of any form, issuers, second keys and served values",
  "Tests verify certificates the suite just made, with a server that serves both values.",
  ["pq_logic/hybrid_sig/sun_lamps_hybrid_scheme_00.py:672-832", "pq_logic/hybrid_sig/sun_lamps_hybrid_scheme_00.py:1172-1217", "pq_logic/pq_verify_logic.py:231-266", "pq_logic/pq_verify_logic.py:384-442"])
p("C141", "A Sun hybrid certificate that is issued can be verified in both forms it is returned in",
  "sun_cert_template_to_cert and sun_csr_to_cert return a Form 4 certificate for the traditional part of the requested key that names its post-quantum part, with the second signature over the certificate without it and the signature over the whole, and the Form 1 certificate of the same data. Both are accepted by verify_sun_hybrid_cert if the locations serve key and signature; with bad_alt_sig the second signature is refused.",
  "for all requested keys, CA keys, templates, CSRs, extensions, hashes and locations",
  "Tests issue for one or two key types, mostly with a CA key whose algorithm has no separate hash.",
  ["pq_logic/hybrid_sig/sun_lamps_hybrid_scheme_00.py:328-668", "pq_logic/tmp_oids.py:193-213"])

p("C142", "A message protected with a password is accepted exactly with the right MAC",
  "verify_pkimessage_protection accepts a message with an HMAC, KMAC, AES-GMAC, PBMAC1 or password-based MAC if and only if its protection is the MAC, as the standards define it, of the encoded header and body under the password. A message that protect_pkimessage made verifies after transport with the same password, and with bad_message_check it does not. With enforce_lwcmp only PBMAC1 and password-based MAC with one SHA-2 hash function are accepted. compute_mac_from_alg_id computes the same MAC.",
  "for all messages, passwords, parameters, random values and protections",
  "Tests protect and verify in one process, with the defaults, and never with parameters of another implementation.",
  ["resources/protectionutils.py:520-712", "resources/protectionutils.py:843-1138", "resources/protectionutils.py:1212-1305", "resources/prepare_alg_ids.py"])
p("C143", "A message protected with a signature is accepted exactly with the right signature",
  "verify_pkimessage_protection accepts a message with RSA, ECDSA, EdDSA or RSASSA-PSS if and only if the parameters are those of the algorithm, the key fits to it, and the protection is a signature on the encoded header and body, with the hash function of the algorithm, under the given key or the key of the first of the extraCerts. A message that protect_pkimessage made verifies after transport in both ways; one made with bad_message_check verifies only if there is a second signature for the same data.",
  "for all messages, keys, certificates, algorithm identifiers and signatures",
  "Tests sign with a few key types and the default hash, and verify what the suite has just made.",
  ["resources/protectionutils.py:712-793", "resources/protectionutils.py:988-1138", "resources/protectionutils.py:1308-1339", "resources/protectionutils.py:1821-1877", "resources/protectionutils.py:2424-2677"])

p("C144", "A message protected with a KEM-based MAC is accepted exactly with the right key",
  "verify_pkimessage_protection accepts a message with a KEM-based MAC if and only if its protection is the MAC of the encoded header and body under the key that RFC 9810 derives, with KDF2, KDF3 or HKDF, from the shared secret and the context of the message, where the shared secret is given or decapsulated from the ciphertext in the generalInfo. A message that the suite protected with a shared secret, or for the certificate of the other side, verifies after transport with the shared secret or with the private key, and with bad_message_check it does not.",
  "for all messages, shared secrets, keys, ciphertexts, parameters and protections",
  "Tests use one KEM and one derivation function with the suite on both sides, and never a message that already has a ciphertext.",
  ["resources/protectionutils.py:1141-1208", "resources/protectionutils.py:2100-2423", "resources/cryptoutils.py", "resources/prepare_alg_ids.py"])
p("C145", "A message protected with a DH-based MAC is accepted exactly with the right shared secret",
  "verify_pkimessage_protection accepts a message with a DH-based MAC if and only if its protection is the MAC of the encoded header and body under the key that RFC 9810 derives from the shared secret. The shared secret is the given one or that of an ECDH exchange of the private key with the given public key, else with the key of the first of the extraCerts. A message that protect_pkimessage made verifies after transport on the other side, and with bad_message_check it does not.",
  "for all messages, shared secrets, keys, parameters and protections",
  "Tests protect and verify with the same code, so a wrong key derivation cannot be seen.",
  ["resources/protectionutils.py:417-511", "resources/protectionutils.py:1141-1208", "resources/cryptoutils.py:400-460", "resources/prepare_alg_ids.py:446-497"])

p("C146", "MAC algorithms of request, response and confirmation are compared as documented",
  "mac_protection_algorithms_must_match accepts a response if and only if it has the MAC algorithm of the request and parameters that agree with it, where the salts are the same or different as asked for; a confirmation has to agree too. With allow_null, NULL and absent parameters count as equal. Without strict it only requires that all messages are protected with a MAC.",
  "for all requests, responses, confirmations, parameters and flags",
  "Tests compare a few pairs with the default flags and leave out the confirmation.",
  ["resources/protectionutils.py:133-286", "resources/protectionutils.py:1412-1645"])
p("C147", "Signatures of all messages of a transaction are compared as documented",
  "signature_protection_must_match accepts the messages if and only if they name the same signature algorithm, each is signed with the key of the first certificate of the response, and the certificates of the others, if any, have the same first certificate and the same chain.",
  "for all messages, certificates, algorithms and functions that build chains",
  "Tests use one key type and messages that come from one responder.",
  ["resources/protectionutils.py:1648-1817", "resources/certutils.py:1221-1239"])

p("C148", "Encrypted content is opened exactly when it is AES-CBC under the key with correct padding",
  "validate_encrypted_content_info returns data if and only if the content type is the expected one, the algorithm is AES-CBC with the length of the key, the IV is 16 bytes without trailing data, and the decrypted content is the data with PKCS #7 padding. What prepare_encrypted_content_info builds is opened to the same data, for every data and length.",
  "for all data, keys, IVs, content types and block ciphers",
  "Tests decrypt a few contents with 256-bit keys.",
  ["resources/ca_kga_logic.py:1048-1101", "resources/envdatautils.py:109-147", "resources/cryptoutils.py:435-464"])
p("C149", "A password recipient gives the key exactly for the password, and only with another salt than the protection",
  "A PasswordRecipientInfo gives a content encryption key if and only if it has version 3, PBKDF2 with the length of the AES key wrap, a salt that differs from that of the protection of the message, and the key unwraps under the derived key. With the type pwri the protection of the message is verified with the same password. What is built with a password is opened with it.",
  "for all passwords, salts, recipients, messages, hash functions and block ciphers",
  "Tests build and open with default values; the salts of the protection and of the recipient are random there.",
  ["resources/ca_kga_logic.py:376-417", "resources/ca_kga_logic.py:873-947", "resources/ca_kga_logic.py:1552-1653", "resources/protectionutils.py:1999-2051", "resources/envdatautils.py:151-215", "resources/envdatautils.py:2015-2113"])
p("C150", "A key transport recipient is opened exactly by the named certificate's RSA key",
  "A KeyTransRecipientInfo gives a content encryption key if and only if it has version 2, names the certificate by its subject key identifier or, if it has none, by issuer and serial number, and the RSA key decrypts with the padding that the algorithm says. What prepare_ktri builds is opened by the holder of the key.",
  "for all recipients, certificates, keys and paddings",
  "Tests use one RSA key and the parameters that the suite itself writes.",
  ["resources/ca_kga_logic.py:458-511", "resources/ca_kga_logic.py:1860-2023", "resources/protectionutils.py:2398-2420", "resources/envdatautils.py:302-364", "resources/envdatautils.py:730-857"])
p("C151", "A key agreement recipient is opened exactly with the agreed key; sender and recipient derive the same",
  "A KeyAgreeRecipientInfo gives a content encryption key if and only if it has version 3, one recipient, names that are those of the certificate, one of the algorithms of RFC 9481, and the key unwraps under the X9.63 key derivation of the agreed secret with the user keying material. What prepare_kari builds with ECDH, cofactor ECDH, X25519, X448 or one-pass MQV is opened by the recipient when both sides agree on the secret.",
  "for all keys, certificates, hash functions, key wrap algorithms and user keying material",
  "Tests run a few curves with one hash function; agreement for all algorithms is a statement about two functions in different files.",
  ["resources/ca_kga_logic.py:84-209", "resources/ca_kga_logic.py:420-455", "resources/ca_kga_logic.py:1672-1856", "resources/cryptoutils.py:503-556", "resources/cryptoutils.py:900-971", "resources/envdatautils.py:860-1091", "resources/envdatautils.py:1693-1973", "resources/envdatautils.py:2224-2271"])
p("C152", "A KEM recipient is opened exactly with the decapsulated secret",
  "A KEMRecipientInfo gives a content encryption key if and only if it has version 0, names the certificate, has the KEM of the private key, a key length that is that of the key wrap, and the key unwraps under the key derived from the decapsulated secret and the other info. What prepare_kem_recip_info builds is opened by the holder of the key, also after encoding.",
  "for all KEM keys, key derivation functions, key wrap algorithms, user keying material and certificates",
  "Tests open what was just built in memory, with one key derivation function.",
  ["resources/ca_kga_logic.py:515-544", "resources/ca_kga_logic.py:672-695", "resources/ca_kga_logic.py:800-869", "resources/ca_kga_logic.py:2026-2269", "resources/envdatautils.py:1452-1621"])
p("C153", "EnvelopedData is opened exactly for the chosen recipient, and round trips for every kind of key",
  "validate_enveloped_data returns data if and only if the number of recipients is the expected one, the recipient at the index has the expected type and gives a content encryption key under which the content is encrypted. build_env_data_for_exchange for an RSA, EC or KEM certificate is opened by the holder of the private key.",
  "for all EnvelopedData, numbers of recipients, indices, types and keys",
  "Tests have one recipient, so the index and the expected size are never told apart.",
  ["resources/ca_kga_logic.py:547-669", "resources/ca_kga_logic.py:774-796", "resources/ca_kga_logic.py:951-1044", "resources/envdatautils.py:219-264", "resources/envdatautils.py:1136-1230", "resources/envdatautils.py:1374-1449"])

p("C154", "One-pass MQV: both sides compute the secret of the scheme",
  "The sender (with a static and an ephemeral key) and the recipient (with one key) of one-pass ECMQV compute the same secret, and it is the x coordinate of h*(e + avf(E)*ds)*(1 + avf(R))*dr*G, with the associate value function of SEC 1 / NIST SP 800-56A and the fixed length encoding of the coordinate.",
  "for all groups, generators of the stated order, cofactors and private keys",
  "Tests run the two functions against each other for one curve, so an error that both sides share (a wrong associate value) is not seen.",
  ["resources/cryptoutils.py:467-499", "resources/cryptoutils.py:975-1127"])
p("C155", "A generated key is taken from SignedData exactly when a trusted key generation authority signed it",
  "validate_signed_data_structure returns a private key only if the data has version 3 and the expected sizes, the signer's certificate chains to a trust anchor and has the extended key usage cmKGA, the signer info names it, the signed attributes carry the digest of the content, the algorithms are consistent, the signature verifies, and the key is the one in the package. What prepare_signed_data builds is accepted.",
  "for all SignedData, certificates, trust anchors, hash and signature algorithms",
  "Tests build one SignedData with one signer and open it; an accepted forgery needs a structure no test builds.",
  ["resources/ca_kga_logic.py:1047-1669", "resources/envdatautils.py:367-727"])
p("C156", "The private key returned for a response belongs to the issued certificate",
  "validate_not_local_key_gen returns a key if and only if the message has version 3, the response at the index has an enveloped key that opens with the given secrets, its content is exactly one SignedData from a trusted authority, the protection fits the kind of recipient, and the public key of the returned key is that of the issued certificate. What an authority builds for a recipient is accepted.",
  "for all messages, responses, recipients, keys and trust anchors",
  "Tests have one response with one recipient and compare with the key the same test generated.",
  ["resources/ca_kga_logic.py:212-416", "resources/envdatautils.py:1374-1449"])

p("C157", "A certificate is issued only for a key whose possession was proven",
  "If the CA answers a request with a certificate, the requester has the private key of the certificate: the request is signed with it, it was sent to the CA in an encrypted form, it was used to compute the MAC, it is needed to decrypt the certificate, it was generated by the CA, or a trusted registration authority vouches for it. A request with a valid signature, an admissible key and a subject is answered with the certificate of the template.",
  "for all messages, requests, templates, keys, algorithms and proofs",
  "Tests have messages with one request and one kind of proof each; that another request of the same message goes through unverified is not seen.",
  ["resources/ca_ra_utils.py:1121-1327", "resources/ca_ra_utils.py:1469-1794", "resources/ca_ra_utils.py:1798-2182", "resources/ca_ra_utils.py:2337-2464"])
p("C158", "raVerified is accepted only from a trusted registration authority",
  "A request with the proof raVerified is accepted exactly if the message comes from a registration authority in the trusted directory, whose certificate has the extended key usage cmcRA, the key usage digitalSignature and a valid chain.",
  "for all messages, certificates, directories and chains",
  "Tests use one trusted and one unknown authority; that the message was protected by someone else is not tested.",
  ["resources/ca_ra_utils.py:1176-1249"])
p("C159", "Responses correspond to the requests",
  "The response to a message has exactly one answer for each request, with its identifier and in its order, or none if one request is refused; the identifiers accepted are 0 to n-1, each once.",
  "for all messages with any number of requests",
  "Tests have one or two requests.",
  ["resources/ca_ra_utils.py:2427-2464", "resources/ca_ra_utils.py:2512-2546", "resources/ca_ra_utils.py:2848-2934"])
p("C160", "The messages of a transaction are linked by identifier and nonces",
  "Each message of a transaction, of any length, has the transaction identifier of the first one, the nonce of the message before it as recipNonce, and a fresh nonce of its own.",
  "for all first messages and all random values, for transactions of every length",
  "Tests look at one response at a time, so a nonce that is used again later is not seen.",
  ["resources/ca_ra_utils.py:2214-2241", "resources/cmputils.py:113-280", "resources/cmputils.py:3275-3323"])

p("C161", "A key update is issued to the holder of the certificate, for a new key",
  "A key update request is answered with a certificate only if it is the only request, signed with the new key, which differs from the one of the old certificate unless reuse is allowed; an identifier of the old certificate names the certificate of the sender and its issuer; the CA has issued that certificate; the new one is for the same subject.",
  "for all messages, requests, controls, certificates and keys",
  "Tests update one certificate with all fields right; which of the fields may be wrong without an error is not seen.",
  ["resources/ca_ra_utils.py:4347-4646", "resources/ca_ra_utils.py:4304-4344", "mock_ca/cert_req_handler.py:456-515"])
p("C162", "A cross-certificate is issued only for a complete, signed request and is one of a CA",
  "A cross-certification request is answered exactly if it is the only one, is signed with the key of its template, and the template has version 3, validity, issuer, subject and algorithm; the certificate has basic constraints with cA and the key usage keyCertSign.",
  "for all messages, templates and extensions",
  "Tests have one complete template and a few with a missing field.",
  ["resources/ca_ra_utils.py:3794-4032"])
p("C163", "An out-of-band hash identifies the root certificate",
  "The hash that is prepared for a root certificate is accepted for it, and one for another certificate is not.",
  "for all certificates, hash algorithms and hashes",
  "Tests check the two functions separately.",
  ["resources/ca_ra_utils.py:310-415"])
p("C164", "A root update is accepted only from the old root",
  "An update of the root certificate, made with the old and the new key, is accepted by a client with the old root; every accepted update links the new root to the old one: the holder of the old key has signed the new key.",
  "for all old roots, updates, keys and certificates",
  "Tests make updates with the right keys; updates of somebody else who has a certificate under the root are not tried.",
  ["resources/general_msg_utils.py:222-298", "resources/ca_ra_utils.py:4050-4298"])
p("C165", "The validity period of a certificate is the requested one",
  "A certificate has the requested notBefore and notAfter, or the default period, as times that mean what was requested; a period that starts too long ago is refused.",
  "for all clocks, times, years and numbers of days",
  "Tests use times of this decade.",
  ["resources/certbuildutils.py:66-115", "resources/certbuildutils.py:1625-1664"])

p("C166", "The client of central key generation gets the private key of its certificate",
  "For a request without a key the CA generates one of the requested algorithm, chooses the recipient by the protection or the certificate of the request, and the client that opens the answer has the private key of the issued certificate; the envelope names the recipient.",
  "for all requests, templates, keys, certificates and random values, from end to end",
  "Tests run the CA and the client with one RSA and one EC key; the side of the CA and of the client are otherwise tested with their own helpers.",
  ["resources/ca_ra_utils.py:502-613", "resources/ca_ra_utils.py:683-753", "resources/ca_ra_utils.py:779-1086", "resources/ca_kga_logic.py:212-320"])

p("C167", "regInfo UTF8 pairs are read exactly by their grammar, and what is written is read back",
  "A text is read as a list of name?value% pairs exactly if it follows the grammar (names and values with percent escapes), the reading is unique and every other text is refused; a list of pairs that is quoted and written is read back as the same list; no attribute type occurs twice.",
  "for all texts, all names and values and all lists of attributes",
  "Tests parse a handful of ASCII pairs; which texts are accepted, that they have one reading only, and that arbitrary characters survive cannot be sampled.",
  ["resources/cmputils.py:1499-1511", "resources/cmputils.py:1569-1749"])
p("C168", "The controls of a request are accepted exactly if required controls are present and valid, and a token works once",
  "The registration controls (token, authenticator, publication, archive options) are accepted exactly if every required one is there and correct; a registration token is accepted at most once; the archived private key is the one decrypted from the control.",
  "for all lists of controls, flags, tokens, states and requests",
  "Tests send one control with a good and a bad value; the combinations of flags, absent fields, duplicates and used tokens are unbounded.",
  ["resources/ca_ra_utils.py:1331-1395", "resources/cmputils.py:924-1018", "resources/cmputils.py:1059-1113", "resources/cmputils.py:1150-1204", "resources/cmputils.py:1207-1379"])

p("C169", "The holder of the key answers the challenge of the CA with its number, and nobody is answered otherwise",
  "For an indirect proof of possession the CA hides a random number; the client answers exactly if number, version, recipient and sender fit, and the answer is the number in the challenge; for RSA, KEM and EC keys the holder answers with the number the CA has stored, and gets the certificate.",
  "for all keys, numbers, versions, names, certificates, random values and messages",
  "Tests play one challenge per algorithm with fixed numbers; which messages are answered, and that every number survives both versions and all kinds of recipients, cannot be sampled.",
  ["resources/ca_ra_utils.py:110-307", "resources/ca_ra_utils.py:3684-3791", "resources/extra_issuing_logic.py:236-273", "resources/extra_issuing_logic.py:352-395", "resources/extra_issuing_logic.py:414-696", "mock_ca/challenge_handler.py:84-123"])

p("C170", "A certificate has exactly the extensions that were checked in its request and those the CA adds, each kind once",
  "The extensions of a template are accepted exactly if they are known, consistent and fit the key; the certificate has the checked ones, those of the CA of the other kinds, and no two of the same kind.",
  "for all lists of extensions of the template and of the CA, keys, options and decoders",
  "Tests build single templates with one or two extensions; which combinations are accepted, and that no combination gives a duplicate or loses an extension, needs all lists.",
  ["resources/certbuildutils.py:2658-2856", "resources/certbuildutils.py:3235-3277", "resources/certbuildutils.py:1686-1751", "resources/certbuildutils.py:1797-1947", "resources/oidutils.py:784-805"])
p("C171", "The key usage of a certificate fits its key",
  "A requested key usage is accepted exactly for the usages the kind of key allows; the certificate gets it as a critical extension with the same bits.",
  "for all bit strings, kinds of keys and templates",
  "Nine bits and eight kinds of keys, with bit strings of any length; tests use a handful.",
  ["resources/certbuildutils.py:2295-2422", "resources/asn1utils.py:561-575"])
p("C172", "Only a CA gets a certificate that can sign certificates",
  "Basic constraints are accepted exactly if the path length fits; the usage to sign certificates needs the constraints of a CA.",
  "for all constraints, usages, templates and options",
  "The rules between usage, constraints and the kind of the requester interact; tests look at single rules.",
  ["resources/certbuildutils.py:2513-2605", "resources/certbuildutils.py:2675-2717"])
p("C173", "Key identifiers and names of a certificate are those of the key, of the CA and of the request",
  "The subject key identifier is the one of the key, the authority key identifier the one of the key of the CA; alternative names are critical exactly if the subject is empty, and then they are needed.",
  "for all keys, identifiers, names and templates",
  "Equality of the identifiers has to hold for every key, and the criticality for every subject.",
  ["resources/certbuildutils.py:392-517", "resources/certbuildutils.py:2425-2510", "resources/certbuildutils.py:2608-2655", "resources/certbuildutils.py:3323-3386"])

p("C174", "A general message is answered entry by entry, with the types RFC 9810 assigns to the requests",
  "The CA answers a general message exactly if each of its entries has an answer, under the lightweight profile just one; the response has one answer for each entry, in their order, with the type of RFC 9810, whatever was processed before.",
  "for all messages, states of the handler, configurations and decoders",
  "The entries are processed one after the other with a state; tests send single entries to a fresh handler.",
  ["mock_ca/general_msg_handler.py:59-70", "mock_ca/general_msg_handler.py:148-310", "mock_ca/general_msg_handler.py:321-344", "mock_ca/general_msg_handler.py:385-505", "mock_ca/general_msg_handler.py:622-735"])
p("C175", "A client gets the CRL of the CA exactly if its own is outdated",
  "For each status in a CRL update request, the CRL is returned exactly if the source names the CA and the CRL of the client is older than that of the CA.",
  "for all lists of statuses, names, times and CRLs",
  "Names of several kinds, times and several entries combine; tests use one source and one time.",
  ["mock_ca/general_msg_handler.py:507-619", "resources/compareutils.py:447-524"])
p("C176", "A refused general message leaves no trace, and nothing of one response is sent with another",
  "Passphrases are kept exactly for accepted messages; the additional certificates are sent exactly with the response to the request for the certificate for protocol encryption.",
  "for all states, messages and sequences of two messages",
  "The trace of one message shows only in the answer to another; tests look at single exchanges.",
  ["mock_ca/general_msg_handler.py:82-93", "mock_ca/general_msg_handler.py:163-208", "mock_ca/general_msg_handler.py:346-382", "mock_ca/general_msg_handler.py:655-675", "mock_ca/ca_handler.py:759-766", "mock_ca/ca_handler.py:813-844"])
p("C177", "The secret of a KEM ciphertext is the one later used to verify the protection of the transaction",
  "A request for a KEM ciphertext is answered exactly if it is the only entry of an unprotected message with a usable certificate, and the secret found for the transaction afterwards is the one encapsulated last.",
  "for all messages, stored secrets and transactions",
  "Which secret is found depends on everything stored before.",
  ["mock_ca/ca_handler.py:825-842", "mock_ca/mock_fun.py:549-578", "resources/general_msg_utils.py:1648-1677", "mock_ca/general_msg_handler.py:712-740"])
p("C178", "The keywords reject a general response which has not the expected entries",
  "A general response is accepted only with the expected number of entries; CA certificates are accepted exactly if their chain verifies.",
  "for all responses, expected numbers, certificates and chains",
  "Whether a wrong response slips through needs all responses; tests use well-formed ones.",
  ["resources/general_msg_utils.py:88-156", "resources/general_msg_utils.py:836-863", "resources/cmputils.py:3971-3983"])
p("C179", "A template for certificate requests is accepted exactly if it is one RFC 9810 allows",
  "The fields that must be absent are, and the key is given by one control with an RSA length or an algorithm with the parameters of its standard.",
  "for all templates, controls and decoders",
  "Fields, controls and parameters combine; tests use the template of the mock CA.",
  ["resources/general_msg_utils.py:186-489"])
p("C180", "CRLs of a response are accepted only if they are verified",
  "The response to the CRL update is accepted exactly if it has the expected number of CRLs, all of them verified, or none where allowed; the current CRL is verified too.",
  "for all responses, CRLs and verification results",
  "A CRL with a wrong signature must be rejected at every position.",
  ["resources/general_msg_utils.py:677-833"])
p("C181", "What the mock CA answers to a general message is what the keywords of the suite accept",
  "The answers of the CA with algorithms, language tags, passphrase, template and KEM ciphertext pass the validation of the client, which recovers the secret of the CA.",
  "for all requests, states and codecs which round-trip",
  "CA and client are tested separately; that each answer is accepted is a property of both together.",
  ["mock_ca/general_msg_handler.py:210-269", "mock_ca/general_msg_handler.py:622-653", "resources/general_msg_utils.py:1095-1341", "resources/general_msg_utils.py:1408-1441", "resources/general_msg_utils.py:1681-1733", "resources/oidutils.py:285-286"])
p("C182", "Each keyword for a general response accepts exactly the responses of its kind",
  "Language tags, current CRL, algorithms, KEM ciphertext and the certificate for protocol encryption are accepted exactly if the first entry of the type is read to its end and fits.",
  "for all responses and decoders",
  "Acceptance has to be known for all responses, also those with further entries or bytes left over.",
  ["resources/general_msg_utils.py:795-833", "resources/general_msg_utils.py:1007-1074", "resources/general_msg_utils.py:1095-1341", "resources/general_msg_utils.py:1486-1522", "resources/oidutils.py:328-360", "resources/oidutils.py:842-848"])

p("C183", "The confirmation a client builds from a response is accepted by the CA",
  "For a response with one certificate the built certConf passes the checks of the CA exactly if its identifier is 0, a written digest algorithm comes with version 3 and the digest is that of the rule; with defaults the certificate of a pending exchange is confirmed.",
  "for all certificates, digests, versions, identifiers, arguments and states of the CA",
  "Client and CA derive digest, version and nonces separately; tests confirm with a few algorithms and one version.",
  ["resources/cmputils.py:2974-3107", "resources/cmputils.py:3326-3579", "resources/ca_ra_utils.py:3138-3276", "mock_ca/cert_conf_handler.py:330-411"])
p("C184", "Each entry of a confirmation names the request it answers",
  "The identifiers in a certConf are those of the entries of the response, or the one given.",
  "for all responses with any number of entries and all arguments",
  "Only responses with several different identifiers show a mix-up; tests use one entry.",
  ["resources/cmputils.py:3386-3400", "resources/cmputils.py:3519-3560"])
p("C185", "A confirmation built for a certificate has the digest the CA expects",
  "build_cert_conf makes an entry which the CA accepts exactly if the digest is that of the rule; a rejection is always accepted, and a bad certificate identifier differs from the right one.",
  "for all certificates, digests, algorithms and arguments",
  "Whether the digests coincide depends on the algorithm of the certificate; tests use few.",
  ["resources/cmputils.py:2974-3107", "resources/cmputils.py:3583-3679"])

p("C186", "The generalInfo field is accepted exactly if its entries are as RFC 9483 wants them",
  "A message passes the check of its generalInfo field exactly if implicit confirmation, waiting time and profiles are well-formed, allowed for the body and not combined wrongly.",
  "for all lists of entries, bodies, times and decoders",
  "The field is an open list; only quantification over lists shows which entries are looked at.",
  ["resources/checkutils.py:1106-1256", "resources/cmputils.py:3933-3983"])
p("C187", "The CA accepts certificate profiles exactly if there is a known one for each request",
  "A message with profiles is processed exactly if their number is that of the requests and each is known.",
  "for all lists of entries, numbers of requests and sets of known profiles",
  "Tests use one profile for one request, built by the code which has the complementary error.",
  ["resources/checkutils.py:1259-1355", "mock_ca/cert_req_handler.py:556-560"])
p("C188", "The generalInfo built by the suite has exactly the entries asked for",
  "Building, patching and adding set the entries asked for, keep the others where promised, are accepted by the CA in the positive case and refused in the negative one.",
  "for all old entries, arguments, times and encoders which the decoders invert",
  "Builder and checker err in complementary ways, which a round trip cannot show.",
  ["resources/cmputils.py:4061-4164", "resources/cmputils.py:4645-4758"])

p("C189", "Sender and senderKID of an accepted message are bound to its protection",
  "A protected message passes the checks exactly if, with a MAC, the sender is a directory name whose common name is the senderKID, and with a signature the sender is the subject and the senderKID the key identifier of the first certificate.",
  "for all names, key identifiers, certificates, protection types and decoders",
  "Names are nested lists of attributes; collisions and missing attributes occur only for names no test uses.",
  ["resources/checkutils.py:311-460", "resources/checkutils.py:577-708", "resources/utils.py:407-451", "resources/compareutils.py:446-497"])
p("C190", "The CA accepts exactly the headers which are good in all respects",
  "validate_header accepts a request exactly if version, identifiers, generalInfo, time, protection, sender and signer are each as wanted.",
  "for all headers, settings of the CA, times and certificates",
  "The check is a sequence of a dozen independent ones; tests violate a few of them, one at a time.",
  ["mock_ca/cert_req_handler.py:517-526", "mock_ca/cert_req_handler.py:551-617"])
p("C191", "A built header has exactly the fields which are not excluded",
  "prepare_pki_message sets each field of the header exactly if its name is not in exclude_fields, with the value given or a fresh one.",
  "for all arguments, texts of exclusions, names and random values",
  "There are more than a thousand sets of excluded fields, and texts with blanks; tests use a few of them.",
  ["resources/cmputils.py:74-280"])
p("C192", "The common name is found in every written name",
  "get_common_name_from_str gives the common name of a written distinguished name, which is then the senderKID.",
  "for all lists of attributes and values",
  "Written names are texts with separators; tests use names without blanks, commas and signs of equality.",
  ["resources/cmputils.py:113-132", "resources/cmputils.py:4206-4228"])
p("C193", "What the client builds for MAC-based protection is accepted by the CA",
  "Each message built with for_mac and without exclusions passes the header checks of the CA, if it arrives in time.",
  "for all names of the sender, versions, random values, times and encodings",
  "Sender and senderKID are made and checked by different functions; only quantification over names shows that they agree.",
  ["resources/cmputils.py:267-278", "resources/cmputils.py:4389-4417", "mock_ca/cert_req_handler.py:582-617"])
p("C194", "Nested messages which are built or patched are accepted",
  "The header of a message with an added protection repeats the identifiers of the message, and that of a batch has fresh ones, so that the checks of RA and CA accept them.",
  "for all messages, batches of any length, exclusions and random values",
  "Batches have any length, and collisions of random values never occur in tests.",
  ["resources/cmputils.py:3124-3271", "resources/cmputils.py:5246-5394", "resources/checkutils.py:2060-2240"])
p("C195", "A following message continues the transaction with a fresh senderNonce",
  "A polling message or one patched for an exchange has the transactionID of the other message, answers its senderNonce and has a senderNonce of its own.",
  "for all messages followed and all arguments",
  "Whether a nonce is fresh is a statement about all values drawn.",
  ["resources/cmputils.py:3238-3323", "resources/cmputils.py:5404-5575"])

p("C196", "The check of the status accepts exactly the status and failure wanted",
  "verify_pkistatusinfo passes exactly if the first status of the message is the one wanted, the body has the type wanted, and a wanted failure has its bit set.",
  "for all message bodies, statuses, failure bits, lists of names and flags",
  "There are 2^27 sets of failure bits, and names are given as texts; tests use single bits.",
  ["resources/cmputils.py:5070-5188", "resources/asn1utils.py:455-535"])
p("C197", "The keywords for status, failure and type pass exactly for the value named",
  "PKIStatus Must Be, PKIStatusInfo failinfo Bit Must Be and PKIMessage Body Type Must Be pass exactly if the message has the status, the failure bit or the type named.",
  "for all messages, positions and names",
  "A keyword which never or always passes is not noticed by the tests which use it.",
  ["resources/keywords.resource:539-562", "resources/keywords.resource:1328-1395", "resources/cmputils.py:3726-3753"])
p("C198", "The check of the status text accepts exactly the texts with the wanted parts",
  "verify_statusstring passes exactly if one of the parts of any_text and all parts of all_text occur in the text at the position.",
  "for all messages, texts, lists of parts and positions",
  "Texts are of any length and can be empty or absent.",
  ["resources/cmputils.py:5191-5243"])
p("C199", "The certificate taken from a response is the issued one at the position",
  "get_cert_from_pkimessage gives the certificate of the response at the position, only if one was issued, and leaves the message as it is.",
  "for all bodies, lists of responses and positions",
  "Reading a message has effects on it which are seen only by what is done with it afterwards.",
  ["resources/cmputils.py:3756-3909"])
p("C200", "A path reads the component it names",
  "get_asn1_value descends by the names and numbers of the path in their order, and raises ValueError if there is none.",
  "for all structures, of any depth, and all paths",
  "Structures and paths are nested arbitrarily deep; this takes induction.",
  ["resources/asn1utils.py:198-258"])
p("C201", "Reading a component does not change the structure",
  "After get_asn1_value the structure is the one before.",
  "for all structures and paths",
  "Absence of effects concerns all parts of the structure, not the one read.",
  ["resources/asn1utils.py:198-258"])
p("C202", "What is set with a path is read with it, and nothing else is changed",
  "After set_asn1_value the path reads the value set, and all other paths read what they did.",
  "for all structures, paths and values",
  "A round trip over all pairs of paths and structures of any depth takes induction.",
  ["resources/asn1utils.py:132-195"])
p("C203", "The check of required fields passes exactly if they are present",
  "asn1_must_contain_fields passes exactly if each field named has a value.",
  "for all structures and lists of names",
  "Tests use decoded structures in which all fields of the type are set.",
  ["resources/asn1utils.py:100-129"])

p("C204", "The check of a response of the CA accepts exactly the correct ones",
  "validate_ca_message_body passes exactly for ip, cp, kup and ccp with the identifier for the request and either a certificate with status, structure and caPubs as they should be, or a refusal without a certificate.",
  "for all messages, lists of responses, kinds of requests and flags",
  "The fields of a response are combined freely by a wrong CA; tests check a few of the combinations.",
  ["resources/checkutils.py:133-308", "resources/checkutils.py:1699-1837"])
p("C205", "The check of a response leaves the message as it is",
  "After validate_ca_message_body the message is the one before, so the certificate can be taken from it.",
  "for all messages and flags",
  "An effect on the message is seen only by what is done with it afterwards.",
  ["resources/checkutils.py:99-191", "resources/checkutils.py:1738-1837"])
p("C206", "The check of extraCerts accepts exactly complete and verified chains",
  "validate_extra_certs passes exactly if the certificates of the protection and of the issued certificate are in extraCerts with their chains.",
  "for all messages, certificates, chains, types of protection and flags",
  "The order and the set of the certificates are arbitrary, and so are the types of protection.",
  ["resources/checkutils.py:463-571"])
p("C207", "The check of the header accepts exactly the headers which belong to the request",
  "validate_pkimessage_header passes exactly if version, sender, senderKID, generalInfo, time, transactionID and nonces are as required and belong to the request.",
  "for all headers of responses and requests, clocks and intervals",
  "Eight fields with unbounded values interact; a check which is lost is not noticed with correct messages.",
  ["resources/checkutils.py:1569-1650"])
p("C208", "The algorithm of the protection is consistent with the certificate exactly if the key is for it",
  "check_protection_alg_conform_to_spki is true exactly if the key of the certificate is one for the algorithm of the protection, and check_protection_alg_field demands this for signatures.",
  "for all algorithm identifiers of the protection and of the certificate, known or not",
  "There are several thousand pairs of algorithms; tests have a few of them.",
  ["resources/checkutils.py:911-1105"])
p("C209", "A signature algorithm is consistent with a key exactly if the key can make such signatures",
  "check_consistency_sig_alg_id_and_key passes exactly if the algorithm is one for the key, and raises BadSigAlgID otherwise.",
  "for all OIDs and all keys",
  "The names of the algorithms are taken apart and put together as texts; one of about a hundred OIDs going wrong is not noticed.",
  ["resources/keyutils.py:684-794"])
p("C210", "The check of the protection by signature accepts exactly the valid ones",
  "check_pkimessage_signature_protection passes exactly if the algorithm is a signature algorithm, it belongs to the first certificate, and the signature verifies with it.",
  "for all messages, algorithms and lists of certificates",
  "The decisive step compares a position in a list of any length, found with a different verification.",
  ["resources/checkutils.py:711-780"])

p("C211", "Hybrid extensions and attributes are written and recognised by their OIDs",
  "The extensions and attributes of the Chameleon, related certificate, discovery and Sun hybrid schemes are written with the OIDs of the schemes, and certificates and requests are told apart by them.",
  "for all certificates, requests, attributes and extensions",
  "A wrong OID is written and read alike, so round trips within the suite do not notice it.",
  ["pq_logic/tmp_oids.py:1-200", "pq_logic/hybrid_sig/chameleon_logic.py:225-228", "pq_logic/hybrid_sig/certdiscovery.py:30-189", "pq_logic/hybrid_sig/sun_lamps_hybrid_scheme_00.py:248-355"])

p("C212", "The OCSP check accepts exactly verified answers with the expected status",
  "The check of a certificate by OCSP passes exactly if every responder asked gives a genuine, successful answer about this certificate with the expected status (or an allowed one), and some responder is asked.",
  "for all certificates, responders' answers and options",
  "Tests ask one responder that behaves; forged answers, answers about other certificates and certificates without the extension are not tried.",
  ["resources/certutils.py:1416-1664"])
p("C213", "The CRL check finds exactly the certificates revoked by a genuine CRL of their issuer",
  "The check by CRL reports a certificate revoked exactly if a CRL of its issuer, named by the caller or by the certificate, lists its serial number.",
  "for all certificates, CRLs and sources of CRLs",
  "Tests use the CRL of the right CA; numbers are unique only per CA, so foreign CRLs, several sources and their order are needed to see the difference.",
  ["resources/certutils.py:1772-1901"])
p("C214", "A certificate passes as revoked exactly if OCSP or a CRL says that it is revoked",
  "The combined check passes for a certificate expected to be revoked exactly if a responder or a CRL says that it is revoked, and for one expected to be valid exactly if both checks pass.",
  "for all certificates, answers, CRLs and options",
  "The combination of two checks with seven options; a test covers one row of the table.",
  ["resources/certutils.py:1905-2002"])
p("C215", "The signer found for a CRL is a certificate named as its issuer whose key verifies it",
  "The search for the signer of a CRL finds a certificate that is named as its issuer and whose key verifies its signature whenever the list has one, and the building of its chain leaves the caller's certificates unchanged.",
  "for all CRLs and all lists of certificates",
  "Depends on the order of the list and on certificates in it that cannot be used; a side effect on the caller's list shows only in later calls.",
  ["resources/certutils.py:1311-1399"])
p("C216", "A cross-signed certificate is accepted only if it is a CA certificate issued by the given CA as asked",
  "The check of a cross-signed certificate passes only for a CA certificate issued by the given CA certificate (issuer name, key identifier, signature) that agrees with the template.",
  "for all certificates, templates and CA certificates",
  "Tests check one good certificate; conditions that can never fire are not noticed by a test that passes.",
  ["resources/certutils.py:2341-2483"])
p("C217", "The migration checks accept exactly post-quantum and hybrid algorithms used as allowed",
  "Algorithm identifiers are accepted exactly if they are post-quantum or hybrid without parameters; key usages exactly if they fit the key's algorithm; and a certificate's key for a name exactly if its identifier is the one of that name.",
  "for all identifiers, parameters, names, keys and key usages",
  "The space of identifiers and bit strings is unbounded, and an inverted condition accepts what a positive test with the wrong class of input does not try.",
  ["resources/certutils.py:2006-2170", "resources/oidutils.py:640-772"])

p("C218", "Error messages of the CA belong to the request and report what went wrong",
  "An error message carries the transaction identifier of the request and its nonce, omits what the request lacks, reports the details of the exception as they were given, and a challenge is answered exactly to requests asking for one.",
  "for all requests, exceptions and details",
  "Requests lacking both fields and details given as a text rather than a list are combinations tests do not try.",
  ["mock_ca/ca_handler.py:123-189", "resources/cmputils.py:284-408", "resources/exceptions.py:15-49"])
p("C219", "The answer is protected in the way the request was",
  "An answer has the kind of protection of its request, with the same MAC algorithm, the certificate of the protecting key first, and the secondary certificate and the chain of the CA included; the configured alternative key is used.",
  "for all requests, keys, certificates and configurations of the handler",
  "Depends on the protection of the request, on the keys of both sides and on the configuration; an unused configuration item is not noticed by a test.",
  ["mock_ca/prot_handler.py:211-494", "resources/protectionutils.py:2744-2763", "resources/protectionutils.py:2835-2880"])
p("C220", "Unprotected and nested requests are answered with protection and the same certificates",
  "Unprotected and nested requests are answered, with the protection of the outer message and with the secondary certificate, and certificates are served with their own content type.",
  "for all requests, nested requests and payloads",
  "Tests of nested messages use signatures; the other kinds of protection and the content type of a file are not looked at.",
  ["mock_ca/ca_handler.py:583-662", "mock_ca/ca_handler.py:1444-1495"])
p("C221", "Every endpoint verifies the protection of a request before it issues a certificate",
  "No endpoint of the CA issues a certificate for a request whose protection does not verify or whose certificate is revoked.",
  "for all requests, states of the CA and builders of the endpoints",
  "A missing check is invisible to tests with valid messages, and each endpoint has its own path.",
  ["mock_ca/ca_handler.py:955-1376", "mock_ca/hybrid_handler.py:230-337"])
p("C222", "Certificates issued by the endpoints for hybrid certificates can be confirmed, once per transaction",
  "A certificate issued without implicit confirmation can be confirmed by a certConf of its transaction, a transaction identifier is accepted once, and a refused request changes nothing.",
  "for all requests, states of the CA and clock values",
  "Needs sequences of requests: the confirmation after the issuing, a repeated identifier, and the database after a refusal.",
  ["mock_ca/ca_handler.py:955-1041", "mock_ca/ca_handler.py:1043-1110", "mock_ca/cert_req_handler.py:276-281"])
p("C223", "Each request to an endpoint for hybrid certificates gets a protected answer which belongs to it",
  "Every answer of these endpoints is protected once and every error of the test suite is answered with an error message carrying the identifiers of the request.",
  "for all requests, states of the CA and errors of the builders",
  "The endpoints differ in which exceptions they catch and how they answer; the paths on errors are not tested one by one.",
  ["mock_ca/ca_handler.py:955-1376"])
p("C224", "Data which is not a message is answered with a CMP error message",
  "Data sent to the CA is processed exactly if it is the encoding of a message, and answered with a CMP error message otherwise.",
  "for all data, decoders and outcomes of the processing",
  "The space of malformed data is unbounded, and trailing data decodes without an error.",
  ["mock_ca/ca_handler.py:1530-1641", "resources/cmputils.py:3683-3723"])

p("C225", "An ir and a cr are granted under the same conditions",
  "A certificate request with a valid proof of possession from a known certificate is answered in the same way whether it is sent as an ir or as a cr; a cr is granted only to a certificate of the CA.",
  "for all requests, protections, issued certificates and proofs of possession",
  "The two handlers call different builders with different arguments; which argument is forgotten shows only for the one kind of proof which needs it.",
  ["mock_ca/cert_req_handler.py:346-373", "mock_ca/cert_req_handler.py:396-454", "resources/ca_ra_utils.py:2550-2660", "resources/ca_ra_utils.py:2720-2829"])
p("C226", "A p10cr is granted exactly if it is signed, named and its key is not compromised",
  "The CA issues a certificate for a PKCS#10 request exactly if its signature verifies, the certificate is named and the key is not known to be compromised; the certificate holds the requested key.",
  "for all requests, keys, extensions and sets of compromised keys",
  "A check whose result is dropped behaves as the right check on every good request.",
  ["mock_ca/cert_req_handler.py:424-454", "resources/ca_ra_utils.py:2262-2334", "resources/certbuildutils.py:1898-2048"])
p("C227", "A certificate sent encrypted is never confirmed implicitly",
  "A certificate counts as confirmed without a certConf exactly if the request asked for this and no certificate of the response was sent encrypted.",
  "for all requests, general information and responses",
  "Depends on all responses of a message and the kind of the request; tests use one response.",
  ["mock_ca/cert_req_handler.py:528-549", "resources/checkutils.py:99-130"])

p("C228", "The key of a MAC is determined by the pre-shared secret and has the size of the algorithm",
  "The key with which the CA verifies a MAC has the size the algorithm needs, is made from the configured secret, and different secrets give different keys.",
  "for all secrets, as bytes, texts or hexadecimal, and all algorithms",
  "A test uses one secret; the cases are secrets which are longer than the key, which repeat themselves or which are not plain text.",
  ["mock_ca/prot_handler.py:496-510", "resources/utils.py:1094-1149", "resources/convertutils.py:236-252"])
p("C229", "The CA accepts a protection exactly if it verifies and its maker is authorised",
  "A request passes the check of its protection exactly if the MAC or signature verifies, the kind of protection is allowed for the body, the chain of the signer ends in the trust store and the signer of a ccr may send one; every refusal is an error of the test suite.",
  "for all messages, chains, trust stores and configurations",
  "Combines the body, the protection, the chain and two trust stores; a test covers one combination.",
  ["mock_ca/prot_handler.py:193-209", "mock_ca/prot_handler.py:512-570", "mock_ca/prot_handler.py:631-756", "resources/checkutils.py:2510-2540"])
p("C230", "The usage period of a private key lies within the validity and ends after it begins",
  "A usage period is accepted exactly if one of its times is present, both lie within the validity of the certificate, and the end comes after the beginning.",
  "for all extensions, times and validities",
  "Two texts for times can be ordered differently from the times; a test compares texts of one format.",
  ["resources/certbuildutils.py:3438-3518"])

p("C231", "The index of the proof of possession of a stateful key cannot be used again",
  "When the CA issues certificates for stateful keys, each is registered with the index its own proof of possession used, so that no later message with this index is accepted.",
  "for all requests, numbers of entries, proofs, states of the register and later histories",
  "The registration pairs positions of certificates with positions of requests, directly and through a later confirmation; a test has one certificate.",
  ["mock_ca/stfl_validator.py:111-236", "mock_ca/cert_conf_handler.py:379-409", "mock_ca/cert_req_handler.py:324-335", "resources/ca_ra_utils.py:4036-4046", "mock_ca/operation_dbs.py:455-476"])
p("C232", "A certificate which differs from its template needs the status grantedWithMods",
  "The check for grantedWithMods passes exactly if the certificate of the entry has everything the template of the entry asks for, or the status of the entry says that it was modified.",
  "for all requests, responses, entries and templates",
  "Quantifies over pairs of templates and certificates and over the position in messages with several entries; a test looks at the first entry.",
  ["resources/checkutils.py:1920-1989", "resources/compareutils.py:275-352", "resources/cmputils.py:3867-3909"])
p("C233", "A pkiConf is protected as the response it confirms",
  "The check of a pkiConf passes only if it is protected with the same algorithm and by the same sender as the response of the CA.",
  "for all transactions with signatures or MACs, and all algorithms and chains",
  "A test has messages of one honest CA; the property is about messages which are not protected, or by somebody else.",
  ["resources/checkutils.py:1841-1916", "resources/protectionutils.py:1569-1645", "resources/protectionutils.py:1735-1817"])

p("C234", "A certificate template has what was asked for and nothing else",
  "A prepared template has every given value unless its field is excluded, has no excluded field, takes missing values from the certificate if there is one, and leaves the arguments of the caller as they are.",
  "for all keys, names, certificates, lists of extensions, and lists of included and excluded fields",
  "The values interact: given values, the certificate, exclusion and key generation. A test sets a few arguments at a time.",
  ["resources/certbuildutils.py:1221-1526", "resources/certbuildutils.py:1607-1621", "resources/utils.py:242-262"])
p("C235", "The proof of possession of a prepared request is accepted by the CA, and a bad one is refused",
  "A request that the client prepares with a private key has a proof of the kind of the key which the CA accepts; with bad_pop it has one which the CA refuses; for key generation it has no proof and only the algorithm of the key.",
  "for all private keys, algorithms, templates, identifiers and flags",
  "Relates the functions of the client to those of the CA for all kinds of keys; tests use a few keys and look at the structure.",
  ["resources/cmputils.py:1797-2226", "resources/cmputils.py:5579-5608", "resources/ca_ra_utils.py:1090-1327"])
p("C236", "A request message has exactly the requests, the version and the body it was built for",
  "A message built from a key, a PKCS#10 request or for a key update has the given identifier, subject, key, extensions and controls, the requests of the caller unchanged and in order, the body that was asked for and the right version.",
  "for all bodies, keys, requests, lists of messages and arguments",
  "Ten functions take the same arguments and pass on different ones; a test of one function says nothing about the others.",
  ["resources/cmputils.py:2229-2971", "resources/utils.py:760-776"])
p("C237", "Controls name the certificate and protect the key they are made for",
  "The control for the old certificate names exactly the given certificate, the controls of the caller are kept, and the archive control encrypts a private key if a password is given.",
  "for all certificates, serial numbers, issuers, lists of controls, keys and passwords",
  "A test has one certificate with an ordinary serial number; the property is about all of them, also zero, and about all combinations of arguments.",
  ["resources/cmputils.py:543-599", "resources/cmputils.py:800-921", "resources/cmputils.py:1383-1426"])
p("C238", "Changes of a request keep the rest, and the proof is valid again after update_popo",
  "Adding registration information, controls or extensions changes only the requests it is for and appends to them; controls and extensions make the proof invalid, and after any sequence of changes update_popo makes it valid again.",
  "for all messages, indexes and sequences of changes",
  "Quantifies over all sequences of changes and over the position in the message; a test makes one change of the first request.",
  ["resources/cmputils.py:603-796"])

p("C239", "A revocation request revokes exactly the certificate it was made from, for the requested reason",
  "The request that the client builds from a certificate and a named reason is answered by the CA with the revocation of exactly this certificate for this reason (or with its revival, for removeFromCRL); details that are meant to be invalid are refused.",
  "for all certificates, reasons, lists of issued and revoked certificates, and orders in which a set of reasons is gone through",
  "Relates the functions of the client to the checks of the CA for all certificates and reasons; the order of a set is not under control of a test.",
  ["resources/cmputils.py:4767-5066", "resources/ca_ra_utils.py:3337-3552"])
p("C240", "A certification request has what was asked for, and its p10cr gets a certificate for its key",
  "build_csr makes a request with exactly the given name, key and extensions and a signature that verifies (one that does not, for bad_pop); the CA answers the p10cr with a certificate for this key, and compare_csr_and_cert accepts this certificate.",
  "for all keys, names, extensions, hash algorithms and flags",
  "Relates building, verification, issuing and comparison for all kinds of keys; tests take RSA keys and look at one of the functions.",
  ["resources/certbuildutils.py:119-307", "resources/certbuildutils.py:1530-1603", "resources/cmputils.py:412-539", "resources/compareutils.py:356-410", "resources/certutils.py:2174-2207"])
p("C241", "A prepared SubjectPublicKeyInfo has the key and the parameters that were asked for",
  "prepare_subject_public_key_info gives the structure of the key, without its bits for a KGA, and with the parameters that were asked for.",
  "for all keys, names of keys, hash algorithms and flags",
  "Eight arguments interact with four kinds of keys; a test sets one flag for one key.",
  ["resources/keyutils.py:1042-1235", "resources/convertutils.py:108-150"])

p("C242", "A CertResponse has the status, the failures and the certificate that it was given",
  "prepare_pkistatusinfo accepts exactly the names of statuses and failures of RFC 9810 and sets exactly their bits; prepare_cert_response gives the identifier, the status, and the pair for the certificate, encrypted certificate and private key that are given.",
  "for all texts of statuses and failures, identifiers, certificates and private keys",
  "Texts with any number of names, blanks and commas; a test takes one name.",
  ["resources/cmputils.py:351-408", "resources/ca_ra_utils.py:2848-2934"])
p("C243", "The answers that a CA message is built with fit the request and are accepted by the client",
  "Each request for certificates gets the body RFC 9810 has for it, in a message with the transaction identifier and nonces of the request and one response for each entry; the client accepts a grant and a refusal made in this way.",
  "for all requests, bodies, identifiers, certificates, responses and options",
  "Relates six builders with fifteen arguments to the checks of the client; a test sets a few of them and does not ask the client.",
  ["resources/ca_ra_utils.py:2186-2210", "resources/ca_ra_utils.py:2487-2508", "resources/ca_ra_utils.py:2550-2660", "resources/ca_ra_utils.py:2721-2829", "resources/ca_ra_utils.py:3284-3334", "resources/ca_ra_utils.py:4624-4646", "resources/ca_ra_utils.py:4713-4856"])

p("C244", "The algorithm of a signature fits the key, the hash and the digest of the signed data",
  "The OID chosen for a signature is the one the standards have for the key, hash and RSA-PSS option; reading it back gives the same hash and it is accepted for the same key; the parameters are those of the RFCs; SignedData names a digest the algorithm allows.",
  "for all keys of the modelled types, hash algorithms, options and composite names",
  "Three tables of OIDs with string prefixes and several hundred entries must agree pairwise; tests sign with a few combinations.",
  ["resources/oid_mapping.py:50-102", "resources/oid_mapping.py:189-231", "resources/oid_mapping.py:275-308", "resources/prepare_alg_ids.py:637-765", "pq_logic/keys/sig_keys.py:143-163", "pq_logic/keys/sig_keys.py:469-485", "pq_logic/keys/sig_keys.py:830-842", "resources/keyutils.py:1361-1407", "resources/envdatautils.py:2175-2221"])
p("C245", "The addresses of revocation information in issued certificates are found by the client, and a request made from them is answered",
  "The extensions which the CA adds have exactly its OCSP address and CRL address; the checks of revocation find exactly these; a crlStatusList made from such a certificate, or from the CRL, is answered with the CRL when it is old enough; reasons are the bits named in the text.",
  "for all addresses, ports, names of the CA, texts of reasons, CRLs, times and combinations of arguments",
  "Connects three modules (issuing, revocation checks, general messages) over all argument combinations; tests look at one extension each.",
  ["resources/certbuildutils.py:2154-2276", "resources/certbuildutils.py:2922-3195", "resources/prepareutils.py:228-289", "mock_ca/ca_handler.py:195-251", "mock_ca/mock_fun.py:1542-1567", "resources/general_msg_utils.py:492-674"])
p("C246", "An IssuerAndSerialNumber names the certificate it was made from",
  "From a certificate alone it has the issuer and serial number of the certificate; given values replace them; a modified serial number differs; without a certificate both values are needed.",
  "for all certificates, issuers, serial numbers and options",
  "Four independent arguments which may each be absent or empty; tests set one at a time.",
  ["resources/certbuildutils.py:2860-2918"])

p("C247", "Proofs of possession by key agreement and by an encrypted key, from the client to the CA",
  "The MAC that the client computes with its key and the certificate of the CA is accepted by the CA, and the spoiled one is refused with BadPOP. An encrypted key for the KEM, RSA or EC certificate of the CA is opened by the CA, with the KEM or the hybrid key by the algorithm and, for RSA and EC, if it names the certificate that protects the message; what is opened is accepted exactly if it is the key of the template and the identifier names the subject. The certificate that the CA encrypts is read by the client exactly if the identifier of the recipient is not compared or is that of the server certificate. Not true of the code: use_encr_cert=False asks for a challenge (PyAsn1Error); bad_pop spoils every proof; prepare_kem_env_data_for_popo builds what the CA opens (the content is id-signedData); the default for an RSA certificate names a certificate that the CA accepts; the version is that of RFC 5652 for KEM and password recipients; verify_encrypted_key_popo accepts anything at all.",
  "for all keys, certificates, names, random values, requests and messages, and any functions for encryption that fit together",
  "A test uses one key type and one certificate; the statements relate what the client builds to what the CA opens for every combination, and say which combinations can never work.",
  ["resources/extra_issuing_logic.py:45-231", "resources/extra_issuing_logic.py:699-831", "resources/extra_issuing_logic.py:835-917", "resources/envdatautils.py:1233-1370", "resources/ca_kga_logic.py:699-771", "resources/ca_ra_utils.py:1675-1794", "resources/ca_ra_utils.py:2941-2995"])

p("C248", "Certificates and extensions that the suite builds",
  "prepare_extensions gives, in a fixed order, exactly one extension for each argument, with the criticality that is asked for and no identifier twice, and the key usage it builds passes the suite's own check of the same text at every strictness; a certificate built with the certificate and the key of a CA names the CA as issuer and verifies with its key, exactly when no bad signature is asked for, and has the names, serial number, validity, key and extensions that are asked for; an authority key identifier with issuer and serial number identifies the certificate of the CA. False of the code in these cases, with witnesses or for all inputs: the documented text `cmcCA, cmcRA, cmKGA` is refused; a second DNS name keeps the space after the comma; a certificate as ca_key is always a KeyError; the authority key identifier names the subject of the certificate of the CA, so that an intermediate CA is never identified; given names are ignored without include_issuer; a path length of the number 0 is ignored; include_ski is ignored when extensions are given; the documented argument ski has no effect; ski of generate_certificate does nothing without extensions and removes all of them otherwise; a CA certificate without its key gives a certificate that does not verify; a name with two attributes of one type loses one when its common name is changed.",
  "for all keys, names, arguments, extensions, signature schemes whose signatures verify and whose damaged signatures do not",
  "The unit tests build single certificates; which argument hides another, and which text is refused, depends on all combinations of arguments.",
  ["resources/certbuildutils.py:366-560", "resources/certbuildutils.py:564-788", "resources/certbuildutils.py:791-1008", "resources/certbuildutils.py:1012-1218", "resources/certbuildutils.py:2052-2111", "resources/certbuildutils.py:3533-3580", "resources/cmputils.py:5693-5710"])

p("C249", "Traditional private keys: saving, loading, generating, and the wrong keys of key generation",
  "A traditional private key that is saved as OneAsymmetricKey with version 0 or 1 is loaded as the same key, and a RSA-KEM key as a RSA-KEM key; a structure is loaded exactly when its version is 0 or 1, a public key comes only with version 1, the private octets leave no rest and are taken by the library, and a public key, if present, is that of the private key; the structures for negative tests with a wrong version, a wrong size of the private or public key, or another key pair, are not loaded; a different public key differs from the given one. False of the code in these cases, for all keys: the option for an invalid private key is always refused for RSA and ECC; the default arguments of save_private_key_one_asym_key are refused; a structure of version 0 with public key is written and refused; a PrivateKeyInfo is never loaded; the operation invalid_version_v1, documented as version 1 with a public key, gives a valid key without public key, as does invalid_key_pair with version 1; a different public key loses the length and the curve, and an RSA or ECC key cannot be asked for as counterpart of a key of another kind.",
  "for all keys, libraries that read what they write, versions, options, public keys, trailing data and sequences of generated keys",
  "unit tests save and load a few fixed keys, with options that work; a library with arbitrary keys and all combinations of options are out of their reach",
  ["pq_logic/keys/trad_key_factory.py:181-580", "pq_logic/combined_factory.py:548-600", "pq_logic/combined_factory.py:641-741", "pq_logic/keys/trad_kem_keys.py:141-168", "resources/keyutils.py:88-354", "resources/keyutils.py:831-1039", "resources/ca_ra_utils.py:617-680"])

p("C250", "Names for negative tests and the check of names in templates",
  "A name passes the check exactly if each attribute has a known identifier, a string kind that RFC 5280 allows, a size within the bounds of RFC 5280, and no trailing data; every other name is refused with BadAsn1Data, and an absent name passes. A relative distinguished name prepared without flags has one attribute for each comma-separated piece, in order, with the identifier of the short name and exactly the given text. One prepared with an invalid type or with trailing data always fails the check, both wrong sizes at once are always refused, and a wrong size makes the check fail if an attribute with bounded size is present. False of the code: for a DN qualifier, a domain component and an organization identifier the flags for wrong sizes silently do nothing and the name passes; a value with the sign '=' is always refused; a space after an escaped comma is lost, so that two different names are read as one.",
  "for all names, texts, flags, lists of attributes and values of any length",
  "unit tests prepare a few names; that exactly the names within the bounds pass, for every attribute type and every length, and that no name with a flag can pass, is beyond them",
  ["resources/prepareutils.py:41-99", "resources/prepareutils.py:292-490", "resources/certbuildutils.py:1667-1682", "resources/oidutils.py:853-928", "resources/asn1_structures.py:464-560"])

p("C251", "Generation of hybrid keys: the combination, the given components and the names",
  "The combination chosen for a request is the first one of the table that has everything that is asked for (curves without regard to case); a generated key has the requested post-quantum algorithm, class, length and curve, and new components; a key built from given component keys contains exactly these; every registered name of a composite signature, composite KEM or Chempat algorithm generates a key with the identifier of that name; generated composite signature and Chempat keys have an identifier; a composite KEM key built for an RSA key has one exactly for the sizes 2048, 3072 and 4096. False of the code: a curve without the name of the traditional algorithm crashes for composite signatures; no request gives a P-521 key although it is registered (the tables say secp512r1); generated FrodoKEM-976 keys with P-256 and DHKEM keys with P-256 or RSA have no identifier, and a DHKEM key for a given ML-KEM-768 or ML-KEM-1024 key never has one; whether two given keys belong together is not checked, and X-Wing takes any two keys and ignores requests; DHKEM keys for a given traditional key are always refused.",
  "for all requests, tables of combinations, given keys, key sizes and names of the tables",
  "unit tests generate a few combinations; that every request is followed or refused, for any table and any given key, and which generated keys have no identifier, is not covered",
  ["pq_logic/keys/hybrid_key_factory.py:42-376", "pq_logic/combined_factory.py:80-188", "resources/oidutils.py:699-715", "pq_logic/keys/trad_key_factory.py:30-63", "pq_logic/keys/trad_key_factory.py:98-178", "pq_logic/keys/composite_kem.py:194-204", "pq_logic/keys/chempat_key.py:330-343"])

p("C252", "Chains, CRLs and OCSP answers checked by the openssl program: which question is put",
  "A chain of any length is accepted exactly if the program accepts the first certificate with the last certificate of the chain as the only given anchor and those in between as helpers; every other end of the program is SignerNotTrusted. With a CRL file the CRLs of that file are used; without one, those fetched from the addresses named by the first certificate, or by all certificates of which only the last may name none. After acceptance no certificate file is left and no file outside of the two directories is changed. A CRL is accepted exactly if the program ends with status 0 for it and the other certificates in reverse order. An OCSP check passes exactly if the program ends with status 0 and its output announces the expected status, or none while unknown ones are let through; revoked is never taken for another status. False of the code: addresses that yield nothing are passed over if one CRL was fetched; a CRL check switches the trust store of the system on, so that it can turn a rejection into an acceptance; a CRL file kept in data/tmp_crl is deleted; the temporary files of the OCSP check stay when it fails; an output without any status counts as unknown.",
  "for all chains of any length, options, file systems, answers of the program, of the network and of the CRL parsers",
  "unit tests call the installed program on a few chains; that the right certificate is in each role for every length, and what is asked with CRLs, needs a proof over all chains and file systems",
  ["resources/certutils.py:707-835", "resources/certutils.py:838-975", "resources/certutils.py:978-1049", "resources/certutils.py:1264-1307", "resources/certutils.py:2210-2337"])

p("C253", "Private keys in PEM files: saving and loading",
  "Base64 is inverted by the decoder whatever foreign characters stand between. A key of the suite's own types that is saved under a password is loaded from the file with that password, and one saved without a password is loaded with None, for every key, password and known header name, even if other text precedes and follows the block. Every header name of the private key classes is known to the loader. The cipher that the header names is the one used; a wrong or a missing password is refused; a key saved without a password can be loaded with the default arguments. Reading an encrypted block fails only with ValueError, or IndexError for a text that ends before the encryption header. A public key in PEM is decoded to the same bytes and its armour names the type of key. False of the code: Falcon's header is not known, so that the file goes to the library for traditional keys; a file that names AES-128 or AES-192 is decrypted with the key of AES-256; a wrong password can yield other bytes, which are then parsed; an encrypted file read without a password can yield the Base64 of its header lines; a key saved without a password always fails with ValueError under any password, the default one included; the armour of public keys contains Python's notation of bytes.",
  "for all keys, passwords, initialisation vectors, header names, surrounding texts and input bytes",
  "unit tests save and load a few keys; that no key, password or text around the block breaks the format needs an argument over all byte strings and all lines",
  ["pq_logic/keys/key_pyasn1_utils.py:31-176", "pq_logic/keys/serialize_utils.py:21-46", "pq_logic/combined_factory.py:719-741", "pq_logic/keys/abstract_wrapper_keys.py:178-188", "resources/keyutils.py:88-155", "resources/keyutils.py:398-501", "resources/utils.py:129-191"])

p("C254", "Requests for Sun hybrid certificates",
  "The Sun hybrid handler grants a PKCS#10 request exactly if its signature, its subject and the building of the certificate succeed, and a CRMF request exactly in two ways: for a composite signature key after the possession of the key was shown for the chosen request, whose identifier the answer carries, or for a hybrid KEM key with the certificate encrypted. An encrypted certificate appears nowhere in the clear, the other certificates of the message are those of the CA, and it is never taken for confirmed. A certificate in the clear is accompanied by its other form at a fixed place, and it counts as confirmed exactly if implicit confirmation was asked for, which the answer says. The answer is protected by the MAC that belongs to the request's, or signed. False of the code: a hybrid KEM key in cr or kur messages always fails with an error of the ASN.1 library; ccr is refused because the list names crr; the index of the request is not heeded for KEM keys; a bad alternative signature is not made for KEM keys; not each request of a message is answered; another type of key is refused with ValueError, which is no CMP error.",
  "for all requests, keys, serial numbers, chains, certificate builders and outcomes of the checks",
  "unit tests send one request of each kind; that nothing is granted otherwise and nothing leaks in the clear is a claim about every request and every outcome of the checks",
  ["pq_logic/hybrid_issuing.py:93-213", "pq_logic/hybrid_issuing.py:216-279", "mock_ca/hybrid_handler.py:139-337", "resources/ca_ra_utils.py:2309-2334", "resources/ca_ra_utils.py:2512-2546", "resources/ca_ra_utils.py:3284-3304", "resources/checkutils.py:99-130"])

p("C255", "The form in which a private key is saved is checked",
  "The check of the form of a received private key accepts the bytes of an ML-KEM or ML-DSA key exactly if they are the structure of the wanted form (seed, raw or both) with the key's own seed and raw bytes; what is written for a key made from a seed passes for its own form and is refused for each other. X-Wing keys with a seed pass exactly for their form, SLH-DSA keys for seed and raw, other PQ keys for their raw bytes only. Errors on ML keys are BadAsn1Data, InvalidKeyData or, for a key without a seed, ValueError. False of the code: a received ML key in the raw form has no seed and is always refused with ValueError; an SLH-DSA key written as seed_and_raw is refused; a FrodoKEM key written with its seed cannot be checked; of a hybrid key only the PQ part is compared, so that the structure of the ML key alone passes whatever the traditional key is, while what is written for a Chempat key with ML-KEM never passes, and what is written for a composite key does not pass unless its first byte is by chance that of the structure.",
  "for all keys, seeds, forms, received bytes and parameter sets",
  "unit tests check freshly generated keys of four algorithms, which all have a seed; the behaviour for received keys and for all bytes needs an argument over all of them",
  ["pq_logic/keys/pq_key_factory.py:180-210", "pq_logic/keys/pq_key_factory.py:717-745", "pq_logic/keys/pq_key_factory.py:836-914", "pq_logic/combined_factory.py:743-818", "pq_logic/keys/hybrid_key_factory.py:537-582", "resources/suiteenums.py:252-279", "resources/ca_kga_logic.py:1537-1546"])

p("C256", "The CA is set up only with keys that belong to their certificates",
  "A certificate and a key are loaded exactly if both are given and readable and the key belongs to the certificate, nothing exactly if none is given, and else there is an error. In a configuration that is loaded, the CA's key, the key for the protection and the hybrid KEM key belong to their certificates and are of the right types, and without a pair for the protection the CA's is taken; so are the keys for key agreement, and the certificate for a challenge is that for the type of the key. In the state of the handler the CA's certificate and key are those given and each other value is that of the configuration or else of the environment. A key is found in a list exactly if one with the same public key is there, and a file of well-formed blocks has their certificates in order. False of the code: the key generation authority is not optional; its key need not belong to its certificate, as the validation is not called; the default password is not used for the key of the protection; the chain of the CA, the further extensions and the paths of a hybrid key lead to a TypeError in every configuration though the handler reads them; the alternative key given is not in the state if there is a configuration; check_public_key_is_not_unique tells the opposite for single keys; a certificate block without its end is left out silently, and a second end mark yields its certificate twice.",
  "for all configurations, certificates, keys, files and passwords",
  "unit tests start the CA with one or two fixed configurations; what holds of all that are accepted needs an argument over all of them",
  ["resources/utils.py:371-402", "resources/utils.py:561-731", "mock_ca/operation_dbs.py:32-427", "mock_ca/ca_handler.py:284-305"])

p("C257", "Announcements say what was given",
  "The identifier in a revocation announcement is the given one, or else has the given issuer and serial number with what is missing taken from the certificate, and the only error is a part that is neither given nor in a certificate; the times not given are the present time. A status that is not a number is one of the seven. The CRLs announced are those given. A key update announcement has the certificates of the update, each in its place, in the old and in the new form; the one made by the mock CA with a fresh certificate is accepted by a client with the old root exactly if the root is self-issued and pkilint accepts the new certificate. False of the code: the mock CA cannot announce revocations, as its CRL is not used and there is always a ValueError; a number is accepted as a status whichever it is; a revocation may be announced for a time before the certificate is bad; a certificate is announced to its issuer instead of its owner; without a new key there is always a ValueError though the code means to take the old one; a new certificate that is not that of the new key is announced, and no client accepts the announcement.",
  "for all certificates, keys, names, serial numbers, times and updates",
  "there is a unit test for one of the announcements with fixed arguments; that the announced update is accepted by every client needs an argument over all keys and certificates",
  ["resources/announcement.py:20-266", "mock_ca/announcement_handler.py:24-105", "resources/ca_ra_utils.py:4167-4240"])

p("C258", "Original messages are accepted exactly if each of them has a valid protection",
  "The generalInfo field of a request is accepted exactly if it has no original message and none is asked for, or if the value of the first entry of that type is the whole encoding of messages each of which verifies, under the password or under the certificate it carries. A missing one that is asked for gives BadRequest. Messages protected with the password of the check and put into the field, after other entries, are accepted. A message with a false MAC or signature gives BadMessageCheck. A signed one is accepted exactly if the key of its own first certificate verifies it. False of the code: that every wrong protection gives BadMessageCheck (a message without protection gives an error of the codec, one with a MAC when the check has no password or with a composite signature a ValueError); that a required original message is there (an empty sequence is accepted, and a second entry is never looked at).",
  "for all requests, entries, sequences of messages of any length, passwords and random values",
  "the two unit tests have one message with a valid and one with a false MAC; sequences of any length and all algorithms need an argument by induction",
  ["resources/protectionutils.py:3001-3060", "resources/cmputils.py:4173-4203", "mock_ca/prot_handler.py:887-891", "mock_ca/cert_req_handler.py:342-344"])

p("C259", "The public key of an issued certificate is accepted exactly if it is the expected one",
  "A certificate is accepted exactly if its key can be loaded, is equal to the expected one and of the same class, the given name of the algorithm stands for the object identifier of the certificate, and a given SubjectPublicKeyInfo has the same object identifier; another key gives a ValueError; a certificate with the requested structure is accepted. The table of names gives for a name the last key that was put in with it. Parameters count as absent exactly if they are absent, are the octets 05 00, or NULL is allowed and they are NULL. False of the code: with the names rsa (the example of the documentation), rsa-kem, x25519 and x448 every certificate is refused, since they stand for a text which is never equal to an object identifier; an unknown name gives a KeyError; NULL as received counts as absent although it is not allowed.",
  "for all certificates, keys, names and tables of names",
  "the keyword has no unit test, and the Robot tests give no name; which key a name has depends on the order of a dozen updates of a table and needs an argument over all of them",
  ["resources/compareutils.py:583-684", "resources/oid_mapping.py:262-272", "resources/oidutils.py:468-839"])

p("C260", "The identifiers of a confirmation are compared to those of the response",
  "A certConf message is accepted exactly if its transaction identifier and both nonces have 16 bytes, the transaction is that of the other message, and each nonce is the other nonce of that message; a missing identifier is named by the error, in the order sender nonce, transaction, recipient nonce; without the other message there is a ValueError, and for other bodies the other message is not used. False of the code: the confirmation of a correct transaction is never accepted, since compared to the certificate response its own nonce is new, and compared to pkiconf the nonce of pkiconf is new; the check as the mock CA calls it can be used neither for confirmations nor for nested messages.",
  "for all headers and all pairs of messages",
  "no unit test calls the check with a confirmation; that no conforming exchange passes needs an argument over all nonces",
  ["resources/checkutils.py:2295-2389"])

p("C261", "The client's general messages ask for exactly what is named, and the CA answers them",
  "The body of a general message holds the given entries and then one entry for each known name, in a fixed order whatever the order of the names and without repetitions; the CRL update comes first and is the only entry whose preparation can fail. Outside the lightweight profile a CA which has the data answers the message exactly if a known name is given and the language tags are not; a message without known names is refused, and a negative message is refused if it asks for one of the seven types which are filled; negative has no effect on the root certificate update. False of the code: the language tags of the client (DE) are refused by every CA, with all other entries of the message; a name after a comma and a blank is silently ignored.",
  "for all texts, entries, environments of the client and of the CA, and states",
  "the tests build messages from a few names; which texts are answered is a statement about all texts and about both sides",
  ["resources/general_msg_utils.py:870-967", "resources/general_msg_utils.py:1736-1779", "resources/general_msg_utils.py:1447-1483", "resources/cmputils.py:4062-4101", "mock_ca/general_msg_handler.py:385-415"])

p("C262", "The client's KEM-based MAC is verified by the CA",
  "A message with a KEM-based MAC built by the client verifies after transport with the secret which is returned, whatever the source of the secret; for a CA whose key is neither composite nor hybrid nor RSA it verifies with the private key of the CA; the secret of an answer is taken exactly if the value is a ciphertext for the algorithm of the client's key without bytes left over; the header changes only by the ciphertext for the CA; a ciphertext without a key, and a call without any source, are refused with ValueError. False of the code: for a composite key the client encapsulates outside of CMS and the verification decapsulates for CMS, so that from the same inputs one side has HMAC and the other SHA3-256; the message is refused with BadMessageCheck.",
  "for all messages, keys, KEMs and sources of the secret",
  "the tests verify with the secret which the builder returned; that the CA derives another one is a statement about both sides and all inputs of the key derivation",
  ["resources/cmputils.py:5612-5689", "resources/protectionutils.py:2244-2323", "resources/protectionutils.py:2327-2394", "pq_logic/keys/composite_kem.py:95-176", "resources/cryptoutils.py:850-896"])

p("C263", "OCSP responses say what the database says",
  "An OCSP response has the status of its name, the nonce, certificate and issuer of the call, a time of revocation exactly if the status is revoked and a reason only then; an unknown status or reason, and a reason or time without revocation, are refused with ValueError. With a key which the library can use the CA answers with a response exactly if the database has a status for the serial number; every revoked entry is reported as revoked, and good is said only if no entry with the number is revoked or updated. Bytes which are not a request are answered with malformedRequest. False of the code: a CA with a key unknown to the library never gives a response about a certificate; the issuer in the request is ignored, so that a certificate of another CA with the same serial number is reported with the status of the own one; a nonce of any length is echoed; the signature uses the hash function which the client chose for the identifier, also SHA-1.",
  "for all databases, requests, keys, nonces and times",
  "the tests ask for single certificates of the CA itself; the relation to the states of the database and the independence from the issuer are statements about all requests and databases",
  ["resources/certutils.py:1667-1769", "mock_ca/mock_fun.py:272-357", "mock_ca/mock_fun.py:1289-1318", "mock_ca/ca_handler.py:1378-1391", "resources/oid_mapping.py:171-185"])

p("C264", "The entry with a KEM ciphertext opens to the secret which is returned",
  "With a key the keyword Prepare KemCiphertextInfo returns exactly the secret of the encapsulation, none for a given ciphertext, and an entry with the KEM of the key and the ciphertext, manipulated if asked for; only a hybrid key uses the key of the CA. A client with a correct KEM who reads the entry, among entries of other types, gets the secret which was returned; from a manipulated ciphertext they get what this one opens to. False of the code: without a key the entry is the first value and None the second, against the documentation and the declared type; a ciphertext given without a key is dropped without an error.",
  "for all keys, KEMs, encodings, ciphertexts and other entries",
  "the tests call it with a key and a few KEMs; that the entry opens to the returned secret for every KEM, and what is returned without a key, they do not settle",
  ["resources/general_msg_utils.py:1558-1616", "resources/general_msg_utils.py:1681-1733", "mock_ca/general_msg_handler.py:712-735"])

if __name__ == "__main__":
    out = os.path.join(os.path.dirname(__file__), "..", "properties.jsonl")
    with open(out, "w") as f:
        for x in P: f.write(json.dumps(x) + "\n")
    print(len(P))
