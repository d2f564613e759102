import Verif.Hybrid.Catalyst
import Verif.Check.KeyUsage

/-!
# Related certificates, certificate discovery and revocation of hybrid certificates

`pq_logic/hybrid_sig/cert_binding_for_multi_auth.py`, `pq_logic/hybrid_sig/certdiscovery.py`, the issuing of both kinds
in `pq_logic/hybrid_issuing.py` and `mock_ca/ca_handler.py`, and the revocation checks of `mock_ca/hybrid_handler.py`.

A certificate with the `RelatedCertificate` extension carries the hash of another certificate of the same owner. It is
requested with a CSR attribute (`RequesterCertificate`) that names this other certificate, says where to fetch it, and
is signed with its key.

Parameters (`RelEnv`): DER codecs, hashing, key loading, signing and verification, name comparison, the checks of the
extensions requested in a CSR. The clock and the values served at locations are arguments. Simplified: certificates are
those of the chameleon model; timestamps are integers; a given `hash_alg` is `some name`.
-/

namespace Verif.Hybrid

open Verif.CA Verif.Check

/-- `tmp_oids.py` 19-42: `id_hybrid_sig_test_suite`. -/
def hybSigArc : Oid := [1, 3, 6, 1, 5, 5, 7, 4, 9996, 9999, 4]
/-- `tmp_oids.py` 440, `id_relatedCert`. -/
def relatedExtOid : Oid := hybSigArc ++ [2, 1]
/-- `tmp_oids.py` 441, `id_aa_relatedCertRequest`. -/
def relatedReqOid : Oid := hybSigArc ++ [2, 2]
/-- `tmp_oids.py` 445, `id_ad_certDiscovery`. -/
def discoveryOid : Oid := hybSigArc ++ [3, 1]
/-- `tmp_oids.py` 446, `id_ad_relatedCertificateDescriptor`. -/
def relDescOid : Oid := hybSigArc ++ [3, 2]
/-- `tmp_oids.py` 460, `id_altSignatureExt`. -/
def sunSigOid : Oid := hybSigArc ++ [4, 7]
/-- `rfc5280.id_pe_subjectInfoAccess`. -/
def siaExtOid : Oid := [1, 3, 6, 1, 5, 5, 7, 1, 11]
/-- `rfc5280.id_ce_keyUsage`. -/
def kuOid : Oid := [2, 5, 29, 15]
/-- `rfc5280.id_ce_extKeyUsage`. -/
def ekuOid : Oid := [2, 5, 29, 37]
/-- `rfc5280.id_ce_basicConstraints`. -/
def bcOid : Oid := [2, 5, 29, 19]

/-- `RequesterCertificate`: `certID` (issuer and serial number), `requestTime`, `locationInfo`, `signature`. -/
structure Requester where
  issuer : Bytes
  serial : Int
  time : Int
  loc : String
  sig : Bytes
  deriving DecidableEq, Repr

/-- `rfc6402.CertificationRequest` with all values of its attributes. -/
structure RelCsr where
  subject : Bytes
  spki : Bytes
  attrs : List (Oid × List Bytes)
  alg : Alg
  sig : Bytes
  deriving DecidableEq, Repr

/-- `RelatedCertificateDescriptor`. -/
structure RelDesc where
  uri : String
  sigAlg : Option Alg
  keyAlg : Option Alg
  deriving DecidableEq, Repr

/-- `rfc5280.AccessDescription`: the method, and type and value of the location if it is an `otherName`. -/
structure AccDesc where
  method : Oid
  other : Option (Oid × Bytes)
  deriving DecidableEq, Repr

/-- What the modelled code calls. `S` are private keys, `K` public keys. -/
structure RelEnv (S K : Type) where
  encTbs : Tbs → Bytes
  encRel : Bytes → Bytes
  decRel : Bytes → Option (Bytes × Bytes)
  encReq : Requester → Bytes
  decReq : Bytes → Except PyErr Requester
  encData : Int → Bytes → Int → Bytes
  decExts : Bytes → Except PyErr (List Ext)
  decKu : Bytes → Except PyErr (List Bool)
  decEku : Bytes → Except PyErr (List Oid)
  decBc : Bytes → Except PyErr Bool
  encSia : List AccDesc → Bytes
  decSia : Bytes → Except PyErr (List AccDesc)
  encDesc : RelDesc → Bytes
  decDesc : Bytes → Except PyErr RelDesc
  hashOf : Oid → Except PyErr (Option String)
  digestOf : Alg → Except PyErr String
  certHash : String → Cert → Except PyErr Bytes
  loadKey : Bytes → Except PyErr K
  spkiAlg : Bytes → Alg
  isVerifyKey : K → Bool
  pub : S → K
  prepAlg : S → Option String → Bool → Except PyErr Alg
  sign : S → Option String → Bool → Bytes → Except PyErr Bytes
  verify : K → Option String → Bytes → Bytes → Except PyErr Unit
  sameName : Bytes → Bytes → Bool
  checkName : Bytes → Except PyErr Unit
  checkCsrExts : Bytes → Bytes → List (Oid × List Bytes) → Except PyErr (List (Oid × Option Ext))

variable {S K : Type}

/-! ## The extension -/

/-- `cert_binding_for_multi_auth.py` 386-406, `_get_hash_alg`. -/
def relHash (env : RelEnv S K) (hash : Option String) (c : Cert) : Except PyErr String :=
  match hash with
  | some h => .ok h
  | none =>
    match env.hashOf c.tbs.alg.oid with
    | .error e => .error e
    | .ok (some h) => .ok h
    | .ok none => env.digestOf c.tbs.alg

/-- `cert_binding_for_multi_auth.py` 659-707, `prepare_related_cert_extension`. -/
def prepRelated (env : RelEnv S K) (rel : Cert) (hash : Option String) (critical : Bool) : Except PyErr Ext :=
  match relHash env hash rel with
  | .error e => .error e
  | .ok h =>
    match env.certHash h rel with
    | .error e => .error e
    | .ok d => .ok ⟨relatedExtOid, critical, env.encRel d⟩

/-- `cert_binding_for_multi_auth.py` 175-193, `_get_related_cert_sig`. -/
def relatedValue (env : RelEnv S K) (c : Cert) : Except PyErr (Option Bytes) :=
  match getExt c.tbs.exts relatedExtOid with
  | none => .ok none
  | some e =>
    match env.decRel e.value with
    | none => .error .pyasn1Error
    | some (d, []) => .ok (some d)
    | some (_, _ :: _) => .error .badAsn1Data

/-- `certextractutils.py` 176-210, `get_extension_decoded_value` for an extension with the given codec. -/
def extValue {α : Type} (dec : Bytes → Except PyErr α) (l : List Ext) (o : Oid) : Except PyErr (Option α) :=
  match getExt l o with
  | none => .ok none
  | some e =>
    match dec e.value with
    | .error e => .error e
    | .ok x => .ok (some x)

/-- `asn1utils.py` 561-575, `get_set_bitstring_names`: the joined names, as characters. -/
def joinedNames (x : List Bool) : List Char := List.intercalate ", ".toList (setNames keyUsageNames x)

/-- `cert_binding_for_multi_auth.py` 332-340: the sets are those of the *characters* of the joined names. -/
def checkKu (a b : Option (List Bool)) : Except PyErr Unit :=
  match a with
  | none => .ok ()
  | some x =>
    match b with
    | none => .error .attributeError
    | some y => if ∃ c ∈ joinedNames x, c ∉ joinedNames y then .error .valueError else .ok ()

/-- `cert_binding_for_multi_auth.py` 318-330: both values are read from `cert_a`, and `in` looks for the OID among the
field names of the certificate. -/
def checkEku (a : Option (List Oid)) : Except PyErr Unit :=
  match a with
  | none => .ok ()
  | some [] => .ok ()
  | some (_ :: _) => .error .valueError

/-- `cert_binding_for_multi_auth.py` 294-340, `validate_ku_and_eku_related_cert`. -/
def checkUsages (env : RelEnv S K) (a rel : Cert) : Except PyErr Unit :=
  match extValue env.decEku a.tbs.exts ekuOid with
  | .error e => .error e
  | .ok u =>
    match checkEku u with
    | .error e => .error e
    | .ok _ =>
      match extValue env.decKu a.tbs.exts kuOid with
      | .error e => .error e
      | .ok x =>
        match extValue env.decKu rel.tbs.exts kuOid with
        | .error e => .error e
        | .ok y => checkKu x y

/-- `cert_binding_for_multi_auth.py` 196-241, `validate_related_cert_extension`. -/
def validateRelated (env : RelEnv S K) (a rel : Cert) (hash : Option String) : Except PyErr Unit :=
  match relatedValue env a with
  | .error e => .error e
  | .ok none => .error .valueError
  | .ok (some d) =>
    if d = [] then .error .valueError
    else match relHash env hash a with
    | .error e => .error e
    | .ok h =>
      match env.certHash h rel with
      | .error e => .error e
      | .ok d' => if d' ≠ d then .error .valueError else checkUsages env a rel

/-- `cert_binding_for_multi_auth.py` 272-276: the loop of `get_related_cert_from_list`. -/
def findRelated (env : RelEnv S K) (h : String) (d : Bytes) : List Cert → Except PyErr Cert
  | [] => .error .valueError
  | c :: l =>
    match env.certHash h c with
    | .error e => .error e
    | .ok d' => if d' = d then .ok c else findRelated env h d l

/-- `cert_binding_for_multi_auth.py` 244-276, `get_related_cert_from_list`. -/
def relatedFromList (env : RelEnv S K) (certs : List Cert) (a : Cert) : Except PyErr Cert :=
  match relHash env none a with
  | .error e => .error e
  | .ok h =>
    match relatedValue env a with
    | .error e => .error e
    | .ok none => .error .valueError
    | .ok (some d) => findRelated env h d certs

/-! ## The request -/

/-- `cert_binding_for_multi_auth.py` 45-60, `_prepare_related_data_to_sign`. -/
def reqData (env : RelEnv S K) (r : Requester) : Bytes := env.encData r.time r.issuer r.serial

/-- `cert_binding_for_multi_auth.py` 64-142, `prepare_requester_certificate` without the options for wrong values. -/
def prepRequester (env : RelEnv S K) (a : Cert) (key : S) (uri : String) (hash : Option String) (time : Int) :
    Except PyErr Requester :=
  match relHash env hash a with
  | .error e => .error e
  | .ok h =>
    match env.sign key (some h) false (env.encData time a.tbs.issuer a.tbs.serial) with
    | .error e => .error e
    | .ok s => .ok ⟨a.tbs.issuer, a.tbs.serial, time, uri, s⟩

/-- `cert_binding_for_multi_auth.py` 146-172, `add_csr_related_cert_request_attribute`. -/
def addRequester (env : RelEnv S K) (csr : RelCsr) (r : Requester) : RelCsr :=
  { csr with attrs := csr.attrs ++ [(relatedReqOid, [env.encReq r])] }

/-- The first attribute of the given type. -/
def getAttr (l : List (Oid × List Bytes)) (o : Oid) : Option (List Bytes) :=
  (l.find? (fun a => decide (a.1 = o))).map Prod.snd

/-- `cert_binding_for_multi_auth.py` 344-365, `extract_related_cert_request_attribute`. -/
def requesterOf (env : RelEnv S K) (csr : RelCsr) : Except PyErr Requester :=
  match getAttr csr.attrs relatedReqOid with
  | none => .error .valueError
  | some [v] => env.decReq v
  | some _ => .error .valueError

/-- `cert_binding_for_multi_auth.py` 409-445, `_verify_related_cert_pop`. -/
def verifyRelPop (env : RelEnv S K) (a : Cert) (r : Requester) (hash : Option String) : Except PyErr Unit :=
  match env.loadKey a.tbs.spki with
  | .error e => .error e
  | .ok k =>
    match relHash env hash a with
    | .error e => .error e
    | .ok h =>
      if env.isVerifyKey k = false then .error .badCertTemplate
      else match env.verify k (some h) (reqData env r) r.sig with
      | .ok _ => .ok ()
      | .error .invalidSignature => .error .badPOP
      | .error e => .error e

/-- `ca_kga_logic.py` 1860-1882, `validate_issuer_and_serial_number_field`. -/
def checkCertId (env : RelEnv S K) (r : Requester) (a : Cert) : Except PyErr Unit :=
  if env.sameName r.issuer a.tbs.issuer = false then .error .valueError
  else if r.serial ≠ a.tbs.serial then .error .valueError
  else .ok ()

/-- `cert_binding_for_multi_auth.py` 449-500, `validate_related_cert_pop`; `fetch` is `load_certificate_from_uri`
(utils.py 963-1004). -/
def validateRelPop (env : RelEnv S K) (fetch : String → Bool → Except PyErr (List Cert)) (now maxAge : Int)
    (loadChain : Bool) (hash : Option String) (csr : RelCsr) : Except PyErr (List Cert) :=
  match requesterOf env csr with
  | .error e => .error e
  | .ok r =>
    if r.time > now then .error .badTime
    else if now - r.time > maxAge then .error .badTime
    else match fetch r.loc loadChain with
    | .error e => .error e
    | .ok [] => .error .indexError
    | .ok (a :: l) =>
      match checkCertId env r a with
      | .error e => .error e
      | .ok _ =>
        match verifyRelPop env a r hash with
        | .error e => .error e
        | .ok _ => .ok (a :: l)

/-- `cert_binding_for_multi_auth.py` 503-516, `_validate_is_ca_cert`. -/
def isCaExts (env : RelEnv S K) (l : List Ext) : Except PyErr Bool :=
  match getExt l bcOid with
  | none => .ok false
  | some e => env.decBc e.value

/-- `certextractutils.py` 282-299, `extract_extensions_from_csr`. -/
def relCsrExts (env : RelEnv S K) (csr : RelCsr) : Except PyErr (Option (List Ext)) :=
  match getAttr csr.attrs extReqOid with
  | none => .ok none
  | some [] => .error .indexError
  | some (v :: _) =>
    match env.decExts v with
    | .error e => .error e
    | .ok l => .ok (some l)

/-- The trust decisions of `certutils.py` that `validate_multi_auth_binding_csr` calls: `build_cert_chain_from_dir`,
`certificates_are_trustanchors` and `verify_cert_chain_openssl`. -/
structure TrustEnv where
  buildChain : Cert → Except PyErr (List Cert)
  anchor : Cert → Except PyErr Unit
  openssl : List Cert → Except PyErr Unit

/-- `cert_binding_for_multi_auth.py` 574-587: which chain is checked. -/
def chainFor (tr : TrustEnv) (loadChain : Bool) (a : Cert) (loaded : List Cert) (given : Option (List Cert)) :
    Except PyErr (List Cert) :=
  match (if loadChain = false ∧ loaded.length = 1 then tr.buildChain a else .ok loaded) with
  | .error e => .error e
  | .ok l => .ok (given.getD l)

/-- `cert_binding_for_multi_auth.py` 582-587. -/
def checkTrust (tr : TrustEnv) (openssl : Bool) (chain : List Cert) : Except PyErr Unit :=
  match chain.getLast? with
  | none => .error .indexError
  | some c =>
    match tr.anchor c with
    | .error e => .error e
    | .ok _ => if openssl then tr.openssl chain else .ok ()

/-- `cert_binding_for_multi_auth.py` 560-564: the requested certificate must not be a CA certificate. -/
def checkCsrEe (env : RelEnv S K) (csr : RelCsr) : Except PyErr Unit :=
  match relCsrExts env csr with
  | .error e => .error e
  | .ok none => .ok ()
  | .ok (some l) =>
    match isCaExts env l with
    | .error e => .error e
    | .ok true => .error .badCertTemplate
    | .ok false => .ok ()

/-- `cert_binding_for_multi_auth.py` 519-587, `validate_multi_auth_binding_csr`. -/
def validateBinding (env : RelEnv S K) (tr : TrustEnv) (fetch : String → Bool → Except PyErr (List Cert))
    (now maxAge : Int) (loadChain openssl : Bool) (given : Option (List Cert)) (csr : RelCsr) : Except PyErr Cert :=
  match checkCsrEe env csr with
  | .error e => .error e
  | .ok _ =>
    match validateRelPop env fetch now maxAge loadChain none csr with
    | .error e => .error e
    | .ok [] => .error .indexError
    | .ok (a :: l) =>
      match isCaExts env a.tbs.exts with
      | .error e => .error e
      | .ok true => .error .badCertTemplate
      | .ok false =>
        match chainFor tr loadChain a (a :: l) given with
        | .error e => .error e
        | .ok chain =>
          match checkTrust tr openssl chain with
          | .error e => .error e
          | .ok _ => .ok a

/-! ## Issuing -/

/-- `certbuildutils.py` 2839-2850: for each kind the requested extension, or else the first one of the CA. -/
def pickExts (other : List Ext) : List (Oid × Option Ext) → List Ext
  | [] => []
  | (_, some e) :: l => e :: pickExts other l
  | (o, none) :: l =>
    match getExt other o with
    | some e => e :: pickExts other l
    | none => pickExts other l

/-- `certbuildutils.py` 2830-2857 with 2737-2751: the extensions of the certificate from the accepted ones of the
request and those of the CA. -/
def mergeExts (other : List Ext) (ver : List (Oid × Option Ext)) : List Ext :=
  let l := pickExts other ver
  l ++ other.filter (fun e => decide (e.oid ∉ l.map Ext.oid))

/-- The CA: its certificate and key, validity and serial number of the new certificate. -/
structure RelCa (S : Type) where
  cert : Cert
  key : S
  validity : Validity
  serial : Int
  other : Bytes

/-- `certbuildutils.py` 1951-2048, `build_cert_from_csr` with the extensions of the CSR and `_sign_cert` 1858-1895
without alternative key. The signature of the CSR is not looked at. -/
def buildFromCsr (env : RelEnv S K) (ca : RelCa S) (csr : RelCsr) (other : List Ext) : Except PyErr Cert :=
  match env.checkName csr.subject with
  | .error e => .error e
  | .ok _ =>
    match env.prepAlg ca.key (some "sha256") true with
    | .error e => .error e
    | .ok alg =>
      match env.loadKey csr.spki with
      | .error e => .error e
      | .ok _ =>
        match env.checkCsrExts csr.subject csr.spki csr.attrs with
        | .error e => .error e
        | .ok ver =>
          let t : Tbs := ⟨ca.other, ca.serial, alg, ca.cert.tbs.subject, ca.validity, csr.subject, csr.spki,
            mergeExts other ver⟩
          match env.sign ca.key (some "sha256") true (env.encTbs t) with
          | .error e => .error e
          | .ok s => .ok ⟨t, alg, s⟩

/-- `hybrid_issuing.py` 1201-1267, `build_related_cert_from_csr` with a related certificate. -/
def buildRelated (env : RelEnv S K) (ca : RelCa S) (csr : RelCsr) (rel : Cert) (critical : Bool) (extra : List Ext) :
    Except PyErr Cert :=
  match prepRelated env rel none critical with
  | .error e => .error e
  | .ok e => buildFromCsr env ca csr (e :: extra)

/-- The state of the revocation handler of the mock CA, as far as it is asked. -/
structure RevView (K : Type) where
  revoked : Cert → Bool
  updated : Cert → Bool
  keyStatus : K → Bytes → Option PyErr

/-- `ca_handler.py` 1184-1226, `validate_p10cr_public_key` and `_public_key_is_revoked`; `keyStatus` is `none` for a
good key. -/
def checkReqKey (env : RelEnv S K) (rv : RevView K) (csr : RelCsr) : Except PyErr Unit :=
  match env.loadKey csr.spki with
  | .error e => .error e
  | .ok k =>
    if env.isVerifyKey k = false then .error .badCertTemplate
    else match rv.keyStatus k csr.subject with
    | some e => .error e
    | none => .ok ()

/-- `ca_handler.py` 1228-1245, `_validate_related_cert`. -/
def checkRelStatus (env : RelEnv S K) (rv : RevView K) (ca : RelCa S) (rel : Cert) : Except PyErr Unit :=
  if env.sameName rel.tbs.issuer ca.cert.tbs.subject then
    if rv.revoked rel then .error .certRevoked
    else if rv.updated rel then .error .certRevoked
    else .ok ()
  else .error .notImplemented

/-- `ca_handler.py` 1262-1285, `process_related_cert` for a `p10cr`, up to the certificate. The protection of the
message is not part of it, here as in the code. -/
def processRelated (env : RelEnv S K) (tr : TrustEnv) (rv : RevView K) (ca : RelCa S)
    (fetch : String → Bool → Except PyErr (List Cert)) (now : Int) (extra : List Ext) (csr : RelCsr) :
    Except PyErr Cert :=
  match checkReqKey env rv csr with
  | .error e => .error e
  | .ok _ =>
    match validateBinding env tr fetch now 500 false false none csr with
    | .error e => .error e
    | .ok rel =>
      match checkRelStatus env rv ca rel with
      | .error e => .error e
      | .ok _ => buildRelated env ca csr rel false extra

/-! ## Certificate discovery -/

/-- `certdiscovery.py` 30-117, `prepare_subject_info_access_syntax_extension` with `_prepare_related_certificate_descriptor`
for a URL and optionally the other certificate. -/
def prepDiscovery (env : RelEnv S K) (url : String) (critical : Bool) (other : Option Cert) : Ext :=
  let d : RelDesc := ⟨url, other.map (fun c => c.tbs.alg), other.map (fun c => env.spkiAlg c.tbs.spki)⟩
  ⟨siaExtOid, critical, env.encSia [⟨discoveryOid, some (relDescOid, env.encDesc d)⟩]⟩

/-- `certdiscovery.py` 161-168: the descriptor of an access description. -/
def descOf (env : RelEnv S K) (a : AccDesc) : Except PyErr RelDesc :=
  match a.other with
  | none => .error .pyasn1Error
  | some (o, v) => if o ≠ relDescOid then .error .valueError else env.decDesc v

/-- `certdiscovery.py` 121-168, `extract_related_cert_des_from_sis_extension`. -/
def extractDesc (env : RelEnv S K) (value : Bytes) (index : Option Nat) : Except PyErr RelDesc :=
  match env.decSia value with
  | .error e => .error e
  | .ok l =>
    match index with
    | some i =>
      match l[i]? with
      | none => .error .indexError
      | some a => if a.method ≠ discoveryOid then .error .valueError else descOf env a
    | none =>
      match l.find? (fun a => decide (a.method = discoveryOid)) with
      | none => .error .valueError
      | some a => descOf env a

/-- `certdiscovery.py` 172-189, `is_cert_discovery_cert`. -/
def isDiscovery (env : RelEnv S K) (c : Cert) : Except PyErr Bool :=
  match getExt c.tbs.exts siaExtOid with
  | none => .ok false
  | some e =>
    match env.decSia e.value with
    | .error e => .error e
    | .ok l => .ok (l.any (fun a => decide (a.method = discoveryOid)))

/-- `certdiscovery.py` 193-209, `get_cert_discovery_cert`. -/
def discoveryCert (env : RelEnv S K) (fetch : String → Bool → Except PyErr (List Cert)) (c : Cert) :
    Except PyErr (Option Cert) :=
  match getExt c.tbs.exts siaExtOid with
  | none => .ok none
  | some e =>
    match extractDesc env e.value none with
    | .error e => .error e
    | .ok d =>
      match fetch d.uri false with
      | .error e => .error e
      | .ok [] => .error .indexError
      | .ok (o :: _) => .ok (some o)

/-- `certdiscovery.py` 213-238, `validate_related_certificate_descriptor_alg_ids`. -/
def checkDescAlgs (env : RelEnv S K) (o : Cert) (d : RelDesc) : Except PyErr Unit :=
  if ∃ a ∈ d.sigAlg, a ≠ o.tbs.alg then .error .valueError
  else if ∃ a ∈ d.keyAlg, a ≠ env.spkiAlg o.tbs.spki then .error .valueError
  else .ok ()

/-- `certdiscovery.py` 241-284: what `validate_cert_discovery_cert` passes to
`extract_related_cert_des_from_sis_extension`, an extension or the list of all extensions. -/
inductive SisArg where
  | ext (e : Ext)
  | list (l : List Ext)
  deriving DecidableEq, Repr

/-- `certdiscovery.py` 150: `extension["extnValue"]`; on a list the subscript is a string, which is a `TypeError`. -/
def sisValue : SisArg → Except PyErr Bytes
  | .ext e => .ok e.value
  | .list _ => .error .typeError

/-- `certdiscovery.py` 241-301, `validate_cert_discovery_cert` up to the chain of the secondary certificate; `signed`
is `check_is_cert_signer`. -/
def validateDiscovery (env : RelEnv S K) (fetch : String → Bool → Except PyErr (List Cert))
    (signed : Cert → Cert → Bool) (primary issuer : Cert) : Except PyErr Cert :=
  match sisValue (.list primary.tbs.exts) with
  | .error e => .error e
  | .ok v =>
    match extractDesc env v none with
    | .error e => .error e
    | .ok d =>
      match fetch d.uri false with
      | .error e => .error e
      | .ok [] => .error .indexError
      | .ok (o :: _) =>
        match checkDescAlgs env o d with
        | .error e => .error e
        | .ok _ => if signed o issuer then .ok o else .error .valueError

/-- `ca_handler.py` 1142-1182 with `hybrid_issuing.py` 1129-1197, `process_cert_discovery` for a `p10cr`, up to the
certificate. -/
def processDiscovery (env : RelEnv S K) (ca : RelCa S) (fetch : String → Bool → Except PyErr (List Cert))
    (now : Int) (url : String) (extra : List Ext) (csr : RelCsr) : Except PyErr Cert :=
  match validateRelPop env fetch now 500 false none csr with
  | .error e => .error e
  | .ok [] => .error .indexError
  | .ok (a :: _) => buildFromCsr env ca csr (prepDiscovery env url false (some a) :: extra)

/-! ## Kinds of hybrid certificates and their revocation -/

/-- `hybrid_issuing.py` 1271-1312, `is_hybrid_cert`; `comp` are the composite signature algorithms. -/
def hybridKind (env : RelEnv S K) (comp : Oid → Bool) (c : Cert) : Except PyErr (Option String) :=
  if comp (env.spkiAlg c.tbs.spki).oid then .ok (some "composite-sig")
  else if (getExt c.tbs.exts dcdOid).isSome then .ok (some "chameleon")
  else if (getExt c.tbs.exts sunSigOid).isSome then .ok (some "sun-hybrid")
  else if (getExt c.tbs.exts altSigOid).isSome ∨ (getExt c.tbs.exts altSpkiOid).isSome then .ok (some "catalyst")
  else match isDiscovery env c with
  | .error e => .error e
  | .ok true => .ok (some "cert-discovery")
  | .ok false => if (getExt c.tbs.exts relatedExtOid).isSome then .ok (some "related-cert") else .ok none

/-- What `hybrid_handler.py` calls for the request: the delta certificate of the first extra certificate, the status of
the delta key of the CSR (`none` if good), conversion to Form 4. -/
structure HybReq where
  extra : List Cert
  delta : Cert → Except PyErr Cert
  deltaKey : Except PyErr Bool
  form4 : Cert → Except PyErr Cert

/-- `hybrid_handler.py` 96-123, `ChameleonHandler.is_revoked`. -/
def chamRevoked (rv : RevView K) (q : HybReq) (c : Cert) (both : Bool) : Except PyErr Unit :=
  match q.delta c with
  | .error e => .error e
  | .ok d =>
    if rv.revoked c then .error .certRevoked
    else if rv.updated c then .error .certRevoked
    else if both = false then .ok ()
    else if rv.revoked d then .error .certRevoked
    else if rv.updated d then .error .certRevoked
    else .ok ()

/-- `hybrid_handler.py` 125-133, `ChameleonHandler.is_delta_key_revoked`. -/
def deltaKeyRevoked (q : HybReq) : Except PyErr Unit :=
  match q.deltaKey with
  | .error e => .error e
  | .ok true => .error .badCertTemplate
  | .ok false => .ok ()

/-- `hybrid_handler.py` 377-395, `HybridIssuingHandler.is_revoked_for_request`. -/
def revokedForRequest (rv : RevView K) (q : HybReq) (both : Bool) : Except PyErr Unit :=
  match q.extra with
  | [] => .error .indexError
  | c :: _ => if (getExt c.tbs.exts dcdOid).isSome then chamRevoked rv q c both else .ok ()

/-- `hybrid_handler.py` 427-444: the last branches of `is_revoked_for_issuing`, by the name of the kind. The results of
`is_revoked` are not used. -/
def revokedByName (env : RelEnv S K) (fetch : String → Bool → Except PyErr (List Cert)) (q : HybReq) (c : Cert)
    (both : Bool) (kind : String) : Except PyErr Unit :=
  if kind = "related_cert" then
    if both = false then .ok ()
    else match relatedFromList env q.extra.tail c with
    | .error e => .error e
    | .ok _ => .ok ()
  else if kind = "composite-sig" then .ok ()
  else if kind = "cert_discovery" then
    if both = false then .ok ()
    else match discoveryCert env fetch c with
    | .error e => .error e
    | .ok none => .error .badMessageCheck
    | .ok (some _) => .ok ()
  else .error .notImplemented

/-- `hybrid_handler.py` 412-444, `is_revoked_for_issuing` for a certificate of the given kind. -/
def revokedByKind (env : RelEnv S K) (rv : RevView K) (fetch : String → Bool → Except PyErr (List Cert)) (q : HybReq)
    (c : Cert) (both : Bool) (kind : String) : Except PyErr Unit :=
  if kind = "chameleon" then
    match chamRevoked rv q c true with
    | .error e => .error e
    | .ok _ =>
      match q.deltaKey with
      | .error e => .error e
      | .ok _ => .ok ()
  else if kind = "catalyst" then .ok ()
  else if kind = "sun-hybrid" then
    match q.form4 c with
    | .error e => .error e
    | .ok c4 => if rv.revoked c4 then .error .certRevoked else .ok ()
  else revokedByName env fetch q c both kind

/-- `hybrid_handler.py` 397-444, `HybridIssuingHandler.is_revoked_for_issuing`. -/
def revokedForIssuing (env : RelEnv S K) (comp : Oid → Bool) (rv : RevView K)
    (fetch : String → Bool → Except PyErr (List Cert)) (q : HybReq) (both : Bool) : Except PyErr Unit :=
  match q.extra with
  | [] => .error .indexError
  | c :: _ =>
    match hybridKind env comp c with
    | .error e => .error e
    | .ok none => .ok ()
    | .ok (some kind) => revokedByKind env rv fetch q c both kind

end Verif.Hybrid
