import Verif.Ra.General

/-!
# The validation of general responses by the test suite

Model of the `validate_*` keywords of `resources/general_msg_utils.py`.  (The update of the root certificate is the
subject of `Verif.Ra.RootCa`.)  Decoding, the building and verification of chains, the linters and decapsulation are
parameters.
-/

namespace Verif.Ra

open Verif.CA (PyErr)

/-- The body of the response: its name and, for a general response, its entries. -/
structure Reply where
  name : String
  content : List Itv
deriving DecidableEq, Repr

/-- `Strint`: a number, or its text as given by Robot Framework. -/
inductive Strint where
  | int (n : Int)
  | text (n : Int)
deriving DecidableEq, Repr

/-- `general_msg_utils.py` 836-863, `validate_general_response`.  A wrong number of entries is logged. -/
def validateReply (r : Reply) (_size : Strint) : Except PyErr Unit :=
  if r.name ≠ "genp" then .error .valueError else .ok ()

/-- `cmputils.py` 3971-3983, `get_value_from_seq_of_info_value_field`: the value, present or not, of the first entry of
the type. -/
def valueOf (oid : List Nat) : List Itv → Option (Option (List UInt8))
  | [] => none
  | e :: es => if e.oid = oid then some e.val else valueOf oid es

/-- The beginning common to the keywords: the value of the entry, if there is an entry. -/
def fetch (r : Reply) (size : Strint) (oid : List Nat) : Except PyErr (Option (List UInt8)) :=
  match validateReply r size with
  | .error e => .error e
  | .ok () =>
    match valueOf oid r.content with
    | none => .error .valueError
    | some v => .ok v

/-- `decoder.decode` of the value; an absent one cannot be decoded.  With bytes left over the error is `err`. -/
def decodeAll {T : Type} (dec : List UInt8 → Option (T × List UInt8)) (err : PyErr) (v : Option (List UInt8)) :
    Except PyErr T :=
  match v with
  | none => .error .pyasn1Error
  | some b =>
    match dec b with
    | none => .error .pyasn1Error
    | some (x, []) => .ok x
    | some (_, _ :: _) => .error err

/-! ## CA certificates -/

/-- What `validate_get_ca_certs` calls. -/
structure CaCertsEnv (C : Type) where
  /-- `decoder.decode` with `CaCertsValue` -/
  dec : List UInt8 → Option (List C × List UInt8)
  /-- `build_chain_from_list` -/
  chain : C → List C → Except PyErr (List C)
  /-- `verify_cert_chain_openssl` -/
  verify : List C → Except PyErr Unit

variable {C : Type}

/-- `general_msg_utils.py` 147-153: the chain of the end entity, or the longer of those which start at the ends. -/
def caChain (env : CaCertsEnv C) (ee : Option C) (certs : List C) : Except PyErr (List C) :=
  match ee with
  | some c => env.chain c certs
  | none =>
    match certs with
    | [] => .error .pyasn1Error
    | c :: cs =>
      match env.chain c cs with
      | .error e => .error e
      | .ok ch1 =>
        match env.chain ((c :: cs).getLast (by simp)) (c :: cs).dropLast with
        | .error e => .error e
        | .ok ch2 => .ok (if ch2.length > ch1.length then ch2 else ch1)

/-- `general_msg_utils.py` 139-156: the certificates and their chain. -/
def caChecked (env : CaCertsEnv C) (ee : Option C) (v : Option (List UInt8)) : Except PyErr (List C) :=
  match v with
  | none => .error .valueError
  | some b =>
    match env.dec b with
    | none => .error .valueError
    | some (certs, _) =>
      match caChain env ee certs with
      | .error e => .error e
      | .ok ch =>
        match env.verify ch with
        | .error e => .error e
        | .ok () => .ok ch

/-- `general_msg_utils.py` 125: the number of entries compared with the expected one, without `int`. -/
def sizeIs (r : Reply) : Strint → Bool
  | .int n => decide ((r.content.length : Int) = n)
  | .text _ => false

/-- `general_msg_utils.py` 88-156, `validate_get_ca_certs`. -/
def validateCaCerts (env : CaCertsEnv C) (r : Reply) (must : Bool) (ee : Option C) (size : Strint) :
    Except PyErr (Option (List C)) :=
  match validateReply r size with
  | .error e => .error e
  | .ok () =>
    if sizeIs r size = false then .ok none
    else
      match valueOf (idIt 17) r.content with
      | none => .error .valueError
      | some v =>
        if v = none ∧ must = true then .error .valueError
        else (caChecked env ee v).map some

/-! ## The template for certificate requests -/

/-- `AlgIdCtrl`: the algorithm and, if present, its parameters. -/
structure AlgCtrl where
  alg : List Nat
  params : Option (List UInt8)
deriving DecidableEq, Repr

/-- `CertReqTemplateValue`: which of the fields which must be absent are present, and the controls of `keySpec`. -/
structure ReqTemplate where
  publicKey : Bool
  serialNumber : Bool
  signingAlg : Bool
  issuerUID : Bool
  subjectUID : Bool
  keySpec : Option (List (List Nat × List UInt8))
deriving DecidableEq, Repr

/-- The decoders of the template. -/
structure TemplateEnv where
  dec : List UInt8 → Option (ReqTemplate × List UInt8)
  decLen : List UInt8 → Option (Int × List UInt8)
  decAlg : List UInt8 → Option (AlgCtrl × List UInt8)
  /-- the named curve of `ECParameters` -/
  decCurve : List UInt8 → Option (List Nat × List UInt8)
  /-- `CURVE_OID_2_NAME` -/
  curves : List (List Nat × String)

/-- `general_msg_utils.py` 363-404, `_validate_id_reg_ctrl_alg_id`: Ed25519 is 1.3.101.112, Ed448 1.3.101.113,
rsaEncryption 1.2.840.113549.1.1.1, id-ecPublicKey 1.2.840.10045.2.1. -/
def checkAlgCtrl (env : TemplateEnv) (b : List UInt8) : Except PyErr Unit :=
  match decodeAll env.decAlg .valueError (some b) with
  | .error e => .error e
  | .ok a =>
    if a.alg = [1, 3, 101, 113] ∨ a.alg = [1, 3, 101, 112] then
      if a.params = none then .error .valueError else .ok ()
    else if a.alg = [1, 2, 840, 113549, 1, 1, 1] then .error .valueError
    else if a.alg = [1, 2, 840, 10045, 2, 1] then
      match a.params with
      | none => .error .valueError
      | some p =>
        match decodeAll env.decCurve .valueError (some p) with
        | .error e => .error e
        | .ok c => if (env.curves.lookup c).isSome then .ok () else .error .valueError
    else .error .valueError

/-- `general_msg_utils.py` 314-318, `_get_type_inside_controls`. -/
def controlOf (oid : List Nat) (l : List (List Nat × List UInt8)) : Option (List UInt8) := l.lookup oid

/-- `general_msg_utils.py` 347-356: the control for the length of an RSA key, id-regCtrl 12. -/
def checkLenCtrl (env : TemplateEnv) (min : Int) (l : List (List Nat × List UInt8)) : Except PyErr Unit :=
  match controlOf [1, 3, 6, 1, 5, 5, 7, 5, 1, 12] l with
  | none => .ok ()
  | some b =>
    match decodeAll env.decLen .valueError (some b) with
    | .error e => .error e
    | .ok n => if n < min then .error .valueError else .ok ()

/-- `general_msg_utils.py` 358-360: the control for the algorithm, id-regCtrl 11. -/
def checkAlgCtrls (env : TemplateEnv) (l : List (List Nat × List UInt8)) : Except PyErr Unit :=
  match controlOf [1, 3, 6, 1, 5, 5, 7, 5, 1, 11] l with
  | none => .ok ()
  | some b => checkAlgCtrl env b

/-- `general_msg_utils.py` 322-360, `check_controls_for_cert_temp`.  Without controls the missing return leads on to the
check of their number, which is zero. -/
def checkControls (env : TemplateEnv) (must : Bool) (min : Int) (c : Option (List (List Nat × List UInt8))) :
    Except PyErr Unit :=
  if c = none ∧ must = true then .error .valueError
  else if (c.getD []).length ≠ 1 then .error .valueError
  else
    match checkLenCtrl env min (c.getD []) with
    | .error e => .error e
    | .ok () => checkAlgCtrls env (c.getD [])

/-- `general_msg_utils.py` 407-430, `_check_cert_template_for_cert_temp_req`. -/
def checkTemplateFields (t : ReqTemplate) : Except PyErr Unit :=
  if t.publicKey then .error .valueError
  else if t.serialNumber then .error .valueError
  else if t.signingAlg then .error .valueError
  else if t.issuerUID then .error .valueError
  else if t.subjectUID then .error .valueError
  else .ok ()

/-- `general_msg_utils.py` 433-488, `validate_get_certificate_request_template`. -/
def validateTemplate (env : TemplateEnv) (r : Reply) (must controlsMust : Bool) (size : Strint) : Except PyErr Unit :=
  match fetch r size (idIt 19) with
  | .error e => .error e
  | .ok v =>
    if v = none ∧ must = true then .error .valueError
    else
      match decodeAll env.dec .valueError v with
      | .error e => .error e
      | .ok t =>
        match checkControls env controlsMust 2048 t.keySpec with
        | .error e => .error e
        | .ok () => checkTemplateFields t

/-! ## CRLs -/

/-- What the validation of CRLs calls. -/
structure CrlsEnv (L : Type) where
  decList : List UInt8 → Option (List L × List UInt8)
  decOne : List UInt8 → Option (L × List UInt8)
  /-- `build_crl_chain_from_list` and `verify_openssl_crl` with the certificates of the directories -/
  verify : L → Except PyErr Unit
  /-- `validate_crl_pkilint` -/
  lint : L → Except PyErr Unit

variable {L : Type}

/-- `general_msg_utils.py` 677-701, `_validate_crls`. -/
def verifyCrls (env : CrlsEnv L) : List L → Except PyErr Unit
  | [] => .ok ()
  | c :: cs =>
    match env.verify c with
    | .error e => .error e
    | .ok () => verifyCrls env cs

/-- `general_msg_utils.py` 705-777, `validate_crl_update_retrieval`. -/
def validateCrls (env : CrlsEnv L) (r : Reply) (must : Bool) (size : Strint) (n : Nat) : Except PyErr Unit :=
  match fetch r size (idIt 23) with
  | .error e => .error e
  | .ok none => if must then .error .valueError else .ok ()
  | .ok (some b) =>
    match decodeAll env.decList .valueError (some b) with
    | .error e => .error e
    | .ok l => if l.length ≠ n then .error .valueError else verifyCrls env l

/-- `general_msg_utils.py` 795-833, `validate_current_crl`. -/
def validateCurrentCrl (env : CrlsEnv L) (r : Reply) (size : Strint) : Except PyErr Unit :=
  match fetch r size (idIt 6) with
  | .error e => .error e
  | .ok v =>
    match decodeAll env.decOne .valueError v with
    | .error e => .error e
    | .ok c => env.lint c

/-! ## Algorithms, language tags, the passphrase and the KEM ciphertext -/

/-- `CURVE_OID_2_NAME`, `oidutils.py` 328-360. -/
def curveNames : List (List Nat × String) :=
  [([1, 2, 840, 10045, 3, 1, 1], "secp192r1"), ([1, 3, 132, 0, 33], "secp224r1"), ([1, 2, 840, 10045, 3, 1, 7], "secp256r1"),
   ([1, 3, 132, 0, 34], "secp384r1"), ([1, 3, 132, 0, 35], "secp521r1"), ([1, 3, 132, 0, 15], "sect163r2"),
   ([1, 3, 132, 0, 27], "sect233r1"), ([1, 3, 132, 0, 17], "sect283r1"), ([1, 3, 132, 0, 37], "sect409r1"),
   ([1, 3, 132, 0, 39], "sect571r1"), ([1, 3, 132, 0, 1], "sect163k1"), ([1, 3, 132, 0, 26], "sect233k1"),
   ([1, 3, 132, 0, 16], "sect283k1"), ([1, 3, 132, 0, 36], "sect409k1"), ([1, 3, 132, 0, 38], "sect571k1"),
   ([1, 3, 36, 3, 3, 2, 8, 1, 1, 1], "brainpoolP160r1"), ([1, 3, 36, 3, 3, 2, 8, 1, 1, 3], "brainpoolP192r1"),
   ([1, 3, 36, 3, 3, 2, 8, 1, 1, 5], "brainpoolP224r1"), ([1, 3, 36, 3, 3, 2, 8, 1, 1, 7], "brainpoolP256r1"),
   ([1, 3, 36, 3, 3, 2, 8, 1, 1, 9], "brainpoolP320r1"), ([1, 3, 36, 3, 3, 2, 8, 1, 1, 11], "brainpoolP384r1"),
   ([1, 3, 36, 3, 3, 2, 8, 1, 1, 13], "brainpoolP512r1"), ([1, 3, 132, 0, 10], "secp256k1")]

/-- `ENC_KEY_AGREEMENT_TYPES_OID_2_NAME`, `oidutils.py` 842-848. -/
def encNames : List (List Nat × String) :=
  [([1, 2, 840, 113549, 1, 1, 1], "rsa"), ([1, 3, 101, 110], "x25519"), ([1, 3, 101, 111], "x448")] ++ curveNames

/-- `SYMMETRIC_ENCR_ALG_OID_2_NAME`, `oidutils.py` 285-286 (`AES_CBC_OID_2_NAME`). -/
def symNames : List (List Nat × String) :=
  [([2, 16, 840, 1, 101, 3, 4, 1, 2], "aes128_cbc"), ([2, 16, 840, 1, 101, 3, 4, 1, 22], "aes192_cbc"),
   ([2, 16, 840, 1, 101, 3, 4, 1, 42], "aes256_cbc")]

/-- The decoders used below. -/
structure AlgsEnv where
  decAlgs : List UInt8 → Option (List AlgCtrl × List UInt8)
  decAlg : List UInt8 → Option (AlgCtrl × List UInt8)
  decCurve : List UInt8 → Option (List Nat × List UInt8)
  decLangs : List UInt8 → Option (List String × List UInt8)
  /-- the ciphertext of `KemCiphertextInfoAsn1` -/
  decKem : List UInt8 → Option (List UInt8 × List UInt8)
  /-- `client_private_key.decaps` -/
  decaps : List UInt8 → Except PyErr (List UInt8)

/-- `general_msg_utils.py` 1185-1203, 1253-1266: the name of one algorithm. -/
def encName (env : AlgsEnv) (a : AlgCtrl) : Except PyErr String :=
  if a.alg = [1, 2, 840, 10045, 2, 1] then
    match a.params with
    | none => .error .valueError
    | some p =>
      match decodeAll env.decCurve .badAsn1Data (some p) with
      | .error e => .error e
      | .ok c =>
        match curveNames.lookup c with
        | none => .error .valueError
        | some n => .ok n
  else
    match encNames.lookup a.alg with
    | none => .error .valueError
    | some n => .ok n

/-- `general_msg_utils.py` 1253-1268: the loop over the algorithms. -/
def encNamesOf (env : AlgsEnv) : List AlgCtrl → Except PyErr (List String)
  | [] => .ok []
  | a :: as =>
    match encName env a with
    | .error e => .error e
    | .ok n =>
      match encNamesOf env as with
      | .error e => .error e
      | .ok ns => .ok (n :: ns)

/-- `general_msg_utils.py` 1207-1268, `validate_encr_and_key_agreement_types`. -/
def validateEncTypes (env : AlgsEnv) (r : Reply) (size : Strint) : Except PyErr (List String) :=
  match fetch r size (idIt 3) with
  | .error e => .error e
  | .ok none => .error .valueError
  | .ok (some b) =>
    match decodeAll env.decAlgs .badAsn1Data (some b) with
    | .error e => .error e
    | .ok [] => .error .valueError
    | .ok (a :: as) => encNamesOf env (a :: as)

/-- `general_msg_utils.py` 1095-1135, `validate_signing_key_types`: the algorithms are only logged. -/
def validateSignTypes (env : AlgsEnv) (r : Reply) (size : Strint) : Except PyErr Unit :=
  match fetch r size (idIt 2) with
  | .error e => .error e
  | .ok v =>
    match decodeAll env.decAlgs .badAsn1Data v with
    | .error e => .error e
    | .ok _ => .ok ()

/-- `general_msg_utils.py` 1291-1341, `validate_preferred_sym_alg`; here `try_decode_pyasn1` decodes. -/
def validateSymAlg (env : AlgsEnv) (r : Reply) (size : Strint) : Except PyErr String :=
  match fetch r size (idIt 4) with
  | .error e => .error e
  | .ok none => .error .valueError
  | .ok (some b) =>
    match readWhole env.decAlg (some b) with
    | .error e => .error e
    | .ok a =>
      match symNames.lookup a.alg with
      | none => .error .valueError
      | some n => .ok n

/-- `general_msg_utils.py` 1486-1522, `validate_supported_language_tags`. -/
def validateLangs (env : AlgsEnv) (r : Reply) (size : Strint) : Except PyErr Unit :=
  match fetch r size (idIt 16) with
  | .error e => .error e
  | .ok v =>
    match decodeAll env.decLangs .badAsn1Data v with
    | .error e => .error e
    | .ok l => if l.length ≠ 1 then .error .valueError else .ok ()

/-- `general_msg_utils.py` 1408-1441, `validate_revocation_passphrase_response`; an index beyond the entries gives an
empty entry, whose type is not the expected one. -/
def validatePassphrase (r : Reply) (size : Strint) (i : Nat) : Except PyErr Unit :=
  match validateReply r size with
  | .error e => .error e
  | .ok () =>
    match r.content[i]? with
    | none => .error .pyasn1Error
    | some e =>
      if e.oid ≠ idIt 12 then .error .valueError
      else if e.val.isSome then .error .valueError
      else .ok ()

/-- `general_msg_utils.py` 1681-1733, `validate_genp_kem_ct_info`. -/
def validateKem (env : AlgsEnv) (r : Reply) (size : Strint) : Except PyErr (List UInt8) :=
  match fetch r size (idIt 9999) with
  | .error e => .error e
  | .ok none => .error .valueError
  | .ok (some b) =>
    match readWhole env.decKem (some b) with
    | .error e => .error e
    | .ok ct => env.decaps ct

/-- What `validate_ca_protocol_encr_cert` calls. -/
structure ProtEncEnv (C : Type) where
  dec : List UInt8 → Option (C × List UInt8)
  /-- `build_cert_chain_from_dir` -/
  chain : C → Except PyErr (List C)
  /-- `certificates_are_trustanchors` of the last certificate -/
  anchor : C → Except PyErr Unit
  /-- `verify_cert_chain_openssl` -/
  verify : List C → Except PyErr Unit
  /-- the key is an `EnvDataPublicKey` -/
  forEnv : C → Bool

/-- `general_msg_utils.py` 1058-1074: the certificate is verified. -/
def checkProtEnc (env : ProtEncEnv C) (c : C) : Except PyErr Unit :=
  match env.chain c with
  | .error e => .error e
  | .ok ch =>
    match ch.getLast? with
    | none => .error .indexError
    | some top =>
      match env.anchor top with
      | .error e => .error e
      | .ok () =>
        match env.verify ch with
        | .error e => .error e
        | .ok () => if env.forEnv c then .ok () else .error .valueError

/-- `general_msg_utils.py` 1007-1074, `validate_ca_protocol_encr_cert`. -/
def validateProtEnc (env : ProtEncEnv C) (r : Reply) (size : Strint) : Except PyErr (Option C) :=
  match fetch r size (idIt 1) with
  | .error e => .error e
  | .ok none => .ok none
  | .ok (some b) =>
    match readWhole env.dec (some b) with
    | .error e => .error e
    | .ok c =>
      match checkProtEnc env c with
      | .error e => .error e
      | .ok () => .ok (some c)

end Verif.Ra
