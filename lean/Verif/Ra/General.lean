import Verif.CA.Base

/-!
# The mock CA's answers to general messages

Model of `mock_ca/general_msg_handler.py` (`GeneralMessageHandler`) and of the part of `mock_ca/ca_handler.py`
(759-766, 813-844) which calls it.

* An `InfoTypeAndValue` is its OID and, if present, the DER bytes of its value.
* Decoding, encoding, the opening of enveloped data, the signing of CRLs, encapsulation and the clock are parameters
  (`GenEnv`).  A decoder returns the decoded value and the bytes left over, or `none` where pyasn1 raises.
* The texts shown to the user are shortened.
* The header of the response (`set_ca_header_fields`, `prepare_pki_message`) is not part of this model; the texts given
  to it are.
-/

namespace Verif.Ra

open Verif.CA (PyErr)

/-- `rfc9480.id_it` (1.3.6.1.5.5.7.4) followed by the number of the type. -/
def idIt (n : Nat) : List Nat := [1, 3, 6, 1, 5, 5, 7, 4, n]

/-- `rfc9480.InfoTypeAndValue`. -/
structure Itv where
  oid : List Nat
  val : Option (List UInt8)
deriving DecidableEq, Repr

/-- `rfc5280.GeneralName`, the alternatives distinguished by `compareutils.py` 480-497. -/
inductive GenName (N : Type) where
  | directory (n : N)
  | mail (s : String)
  | uri (s : String)
  | other
deriving DecidableEq, Repr

/-- `CRLSourceAsn1` with the alternatives of `DistributionPointName` (`general_msg_handler.py` 574-603). -/
inductive CrlSource (N R : Type) where
  | issuer (l : List (GenName N))
  | fullName (l : List (GenName N))
  | relative (r : R)
deriving DecidableEq, Repr

/-- `CRLStatusAsn1`: the source and the time of the last CRL known to the client. -/
structure CrlStatus (N R : Type) where
  source : CrlSource N R
  thisUpdate : Option Int
deriving DecidableEq, Repr

/-- `rfc9480.EncryptedKey`. -/
inductive EncKeyChoice (E : Type) where
  | encryptedValue
  | enveloped (e : E)
deriving DecidableEq, Repr

/-- The configuration of the handler (`general_msg_handler.py` 99-146) and the functions called by it. -/
structure GenEnv (N R E C : Type) where
  /-- `enforce_lwcmp` -/
  lwcmp : Bool
  /-- decoding with `OIDs()` -/
  decOids : List UInt8 → Option (List (List Nat) × List UInt8)
  /-- decoding with `rfc9480.SuppLangTagsValue()` -/
  decLangs : List UInt8 → Option (List String × List UInt8)
  /-- decoding with `CertProfileValueAsn1()` -/
  decProfiles : List UInt8 → Option (List String × List UInt8)
  /-- decoding with `CRLStatusListValueAsn1()` -/
  decCrlStatus : List UInt8 → Option (List (CrlStatus N R) × List UInt8)
  /-- decoding with `rfc9480.EncryptedKey()` -/
  decEncKey : List UInt8 → Option (EncKeyChoice E × List UInt8)
  /-- decoding with `univ.ObjectIdentifier()` -/
  decOid : List UInt8 → Option (List Nat × List UInt8)
  /-- decoding with `rfc9480.RootCaCertValue()` -/
  decCert : List UInt8 → Option (C × List UInt8)
  /-- decoding with `rfc5280.CertificateList()` and encoding again, as part of a list of CRLs -/
  decCrl : List UInt8 → Option (List UInt8 × List UInt8)
  /-- `validate_enveloped_data` with the password and the key of the CA -/
  openEnv : E → Except PyErr (List UInt8)
  /-- `root_ca_cert` -/
  rootCert : C
  /-- the subject of `root_ca_cert` -/
  rootName : N
  /-- `get_openssl_name_notation` of that subject -/
  rootText : String
  /-- the relative distinguished names of that subject -/
  rootRdns : List R
  /-- `crl_url` -/
  crlUrl : String
  /-- `rev_handler.get_current_crl`: a CRL signed anew at each call; the argument counts the calls -/
  crl : Nat → Except PyErr (List UInt8)
  /-- `datetime.now(timezone.utc)` in seconds -/
  now : Int
  /-- loading the ML-DSA key and `prepare_new_root_ca_certificate` (442-448) -/
  rootUpdate : Except PyErr (List UInt8)
  /-- `ca_certs`, encoded as `CaCertsValue` -/
  caCerts : List UInt8
  /-- `prot_enc_cert` -/
  protEncCert : Option (List UInt8)
  /-- `all_rel_env_data_certs` -/
  envCerts : List C
  /-- `supports_implicit_confirm` -/
  implicitConfirm : Bool
  /-- `known_cert_profiles` -/
  profiles : List String
  /-- `oid in ALL_KNOWN_OIDS_2_NAME` -/
  knownOid : List Nat → Bool
  /-- encoding of a non-empty list of OIDs -/
  encOids : List (List Nat) → List UInt8
  /-- encoding of language tags -/
  encLangs : List String → List UInt8
  /-- encoding of a list of CRLs -/
  encCrls : List (List UInt8) → List UInt8
  /-- the encoded list of 687-704 -/
  signTypes : List UInt8
  /-- the encoded list of 647-650 -/
  encTypes : List UInt8
  /-- the encoded `AlgorithmIdentifier` of 629-635 -/
  symAlg : List UInt8
  /-- the encoded `CertReqTemplateValue` of 463-489 -/
  template : List UInt8
  /-- loading the key of the certificate, encapsulation and encoding of the `KemCiphertextInfo`: the shared secret and
  the value (`_prepare_kem_ct_info`) -/
  kem : C → Except PyErr (List UInt8 × List UInt8)

/-- The fields of the general message which are read. -/
structure GenMsg (C : Type) where
  pvno : Int
  tx : List UInt8
  /-- `protectionAlg` is present -/
  isProtected : Bool
  body : List Itv
  extra : List C

/-- `general_msg_handler.py` 82-93 and 142: what the handler remembers. -/
structure GenState where
  passphrases : List (List UInt8)
  secrets : List (List UInt8 × List UInt8)
  addEnv : Bool
deriving DecidableEq, Repr

/-- `general_msg_handler.py` 59-70, `ABSENT_INFO_TYPES`. -/
def absentTypes : List (List Nat) :=
  [idIt 1, idIt 3, idIt 2, idIt 10, idIt 4, idIt 17, idIt 6, idIt 13, idIt 19, idIt 9999]

/-- `general_msg_handler.py` 157-161, `process_absent_info_type`. -/
def absentOk (e : Itv) : Except PyErr Unit :=
  if e.oid ∈ absentTypes ∧ e.val.isSome then .error .badValueBehavior else .ok ()

/-- `general_msg_handler.py` 73-78, `_try_decode_mock_ca` of `entry["infoValue"].asOctets()`: an absent value raises
already in `asOctets`. -/
def readWhole {T : Type} (dec : List UInt8 → Option (T × List UInt8)) (v : Option (List UInt8)) : Except PyErr T :=
  match v with
  | none => .error .pyasn1Error
  | some b =>
    match dec b with
    | none => .error .badAsn1Data
    | some (x, []) => .ok x
    | some (_, _ :: _) => .error .badAsn1Data

variable {N R E C : Type}

/-- `compareutils.py` 447-497, `compare_general_name_and_name`. -/
def sameGenName [DecidableEq N] (env : GenEnv N R E C) (url : Option String) : GenName N → Except PyErr Bool
  | .directory n => .ok (decide (n = env.rootName))
  | .mail s => .ok (env.rootText == s)
  | .uri s =>
    match url with
    | none => .error .valueError
    | some u => .ok (u == s)
  | .other => .error .notImplemented

/-- `compareutils.py` 501-524, `find_name_inside_general_names`. -/
def findName [DecidableEq N] (env : GenEnv N R E C) (url : Option String) : List (GenName N) → Except PyErr Bool
  | [] => .ok false
  | g :: gs =>
    match sameGenName env url g with
    | .error e => .error e
    | .ok true => .ok true
    | .ok false => findName env url gs

/-- `general_msg_handler.py` 574-607: whether the source is the root CA.  For an `issuer` which is not, the message is
built with `get_openssl_name_notation` of `GeneralNames`, which has no `rdnSequence`: pyasn1 compares the index with
zero and raises `TypeError`.  For `fullName` reading `source["issuer"]` gives an empty list. -/
def sourceOk [DecidableEq N] [DecidableEq R] (env : GenEnv N R E C) : CrlSource N R → Except PyErr Bool
  | .issuer l =>
    match findName env none l with
    | .error e => .error e
    | .ok true => .ok true
    | .ok false => .error .typeError
  | .fullName l => findName env (some env.crlUrl) l
  | .relative r => .ok (decide (r ∈ env.rootRdns))

/-- `general_msg_handler.py` 560-619, `_process_crl_status`: the CRL, if one is returned. -/
def crlOfStatus [DecidableEq N] [DecidableEq R] (env : GenEnv N R E C) (i : Nat) (s : CrlStatus N R) :
    Except PyErr (Option (List UInt8)) :=
  match sourceOk env s.source with
  | .error e => .error e
  | .ok false => .ok none
  | .ok true =>
    match s.thisUpdate with
    | none => (env.crl i).map some
    | some t => if env.now - t > 90000 then (env.crl i).map some else .ok none

/-- `general_msg_handler.py` 527-530: the CRLs of all entries. -/
def crlsOf [DecidableEq N] [DecidableEq R] (env : GenEnv N R E C) (i : Nat) :
    List (CrlStatus N R) → Except PyErr (List (List UInt8))
  | [] => .ok []
  | s :: ss =>
    match crlOfStatus env i s with
    | .error e => .error e
    | .ok o =>
      match crlsOf env (i + 1) ss with
      | .error e => .error e
      | .ok l => .ok (o.toList ++ l)

/-- `general_msg_handler.py` 535-538: decoding of the CRLs for the answer. -/
def reread (env : GenEnv N R E C) : List (List UInt8) → Except PyErr (List (List UInt8))
  | [] => .ok []
  | c :: cs =>
    match readWhole env.decCrl (some c) with
    | .error e => .error e
    | .ok x =>
      match reread env cs with
      | .error e => .error e
      | .ok l => .ok (x :: l)

/-- `general_msg_handler.py` 507-544, `process_crl_update_retrieval`.  The order of the Python set is taken to be the
order of first occurrence. -/
def crlUpdate [DecidableEq N] [DecidableEq R] (env : GenEnv N R E C) (e : Itv) : Except PyErr (Itv × Option String) :=
  match e.val with
  | none => .error .badValueBehavior
  | some _ =>
    match readWhole env.decCrlStatus e.val with
    | .error er => .error er
    | .ok [] => .error .badValueBehavior
    | .ok (s :: ss) =>
      match crlsOf env 0 (s :: ss) with
      | .error er => .error er
      | .ok [] => .ok (⟨idIt 23, none⟩, some "The CRL status list is up to date.")
      | .ok (c :: cs) =>
        match reread env (c :: cs).eraseDups with
        | .error er => .error er
        | .ok l => .ok (⟨idIt 23, some (env.encCrls l)⟩, some "")

/-- `general_msg_handler.py` 271-290, `_process_cert_profile`. -/
def certProfile (env : GenEnv N R E C) (e : Itv) : Except PyErr (Itv × Option String) :=
  match readWhole env.decProfiles e.val with
  | .error er => .error er
  | .ok [] => .error .badRequest
  | .ok [p] => if p ∈ env.profiles then .error .badRequest else .error .badRequest
  | .ok (_ :: _ :: _) => .error .badRequest

/-- `general_msg_handler.py` 292-310, `_process_implicit_confirm`. -/
def implicitConfirm (env : GenEnv N R E C) (decNull : List UInt8 → Option (Unit × List UInt8)) (e : Itv) :
    Except PyErr (Itv × Option String) :=
  if e.val.isSome then .error .badValueBehavior
  else if e.oid ≠ idIt 13 then .error .badRequest
  else
    match readWhole decNull e.val with
    | .error er => .error er
    | .ok () =>
      if env.implicitConfirm then .ok (⟨idIt 13, some [5, 0]⟩, some "The implicit confirmation is implemented.")
      else .error .badRequest

/-- `general_msg_handler.py` 321-329 with `general_msg_utils.py` 174-182: the OIDs which are not known; without any the
value stays a schema object and is absent in the answer. -/
def unsupportedOids (env : GenEnv N R E C) (e : Itv) : Except PyErr (Itv × Option String) :=
  match readWhole env.decOids e.val with
  | .error er => .error er
  | .ok l =>
    .ok (⟨idIt 7, match l.filter (fun o => !env.knownOid o) with
                  | [] => none
                  | o :: os => some (env.encOids (o :: os))⟩, some "Returns all unsupported OIDs")

/-- `general_msg_handler.py` 332-344, `_process_key_pair_param_req`. -/
def keyPairParam (env : GenEnv N R E C) (e : Itv) : Except PyErr (Itv × Option String) :=
  match e.val with
  | none => .error .badValueBehavior
  | some _ =>
    match readWhole env.decOid e.val with
    | .error er => .error er
    | .ok _ => .ok (⟨idIt 10, none⟩, some "This is just a dummy response")

/-- `general_msg_handler.py` 346-376, the first part of `process_rev_passphrase`: the passphrase. -/
def readPassphrase (env : GenEnv N R E C) (pvno : Int) (e : Itv) : Except PyErr (List UInt8) :=
  match e.val with
  | none => .error .badRequest
  | some _ =>
    match readWhole env.decEncKey e.val with
    | .error er => .error er
    | .ok .encryptedValue => if pvno = 3 then .error .badRequest else .error .notImplemented
    | .ok (.enveloped d) => if pvno ≠ 3 then .error .badRequest else env.openEnv d

/-- `general_msg_handler.py` 385-415, `process_supp_lang_tags`. -/
def suppLangs (env : GenEnv N R E C) (e : Itv) : Except PyErr (Itv × Option String) :=
  match e.val with
  | none => .error .badRequest
  | some _ =>
    match readWhole env.decLangs e.val with
    | .error er => .error er
    | .ok [] => .error .badRequest
    | .ok (l :: ls) =>
      if (l :: ls).all (fun x => x ∈ ["en", "de", "fr"])
      then .ok (⟨idIt 16, some (env.encLangs ["en"])⟩, some "Currently is always 'en' returned.")
      else .error .badRequest

/-- `general_msg_handler.py` 429-449, `_process_root_ca_cert`. -/
def rootCaCert [DecidableEq C] (env : GenEnv N R E C) (e : Itv) : Except PyErr (Itv × Option String) :=
  let update : Except PyErr (Itv × Option String) :=
    match env.rootUpdate with
    | .error er => .error er
    | .ok v => .ok (⟨idIt 18, some v⟩, some "The root certificate in not actually updated")
  match e.val with
  | none => update
  | some _ =>
    match readWhole env.decCert e.val with
    | .error er => .error er
    | .ok c =>
      if c = env.rootCert then update
      else .ok (⟨idIt 18, none⟩, some "The root CA certificate is not the same as the one in the Mock CA.")

/-- `general_msg_handler.py` 493-505, 622-636, 639-653 and 677-710, 417-427, 451-491: an answer which reads nothing but
the presence of the value. -/
def fixedAnswer (e : Itv) (n : Nat) (v : List UInt8) : Except PyErr (Itv × Option String) :=
  if e.val.isSome then .error .badValueBehavior else .ok (⟨idIt n, some v⟩, some "fixed")

/-- `general_msg_handler.py` 712-735, `_process_kem_ciphertext_info`: the shared secret and the value. -/
def kemInfo (env : GenEnv N R E C) (m : GenMsg C) (e : Itv) : Except PyErr (List UInt8 × List UInt8) :=
  if e.val.isSome then .error .badRequest
  else
    match m.extra with
    | [] => .error .badRequest
    | c :: _ => env.kem c

/-- An answer and the state kept. -/
abbrev GenOut := Except PyErr (Itv × Option String) × GenState

/-- `general_msg_handler.py` 737-740, `add_shared_secert`: a Python dict. -/
def putSecret (s : GenState) (tx ss : List UInt8) : GenState :=
  { s with secrets := (tx, ss) :: s.secrets.filter (fun p => !(p.1 == tx)) }

/-- `general_msg_handler.py` 655-675, `_process_ca_prot_enc_cert`. -/
def protEnc (env : GenEnv N R E C) (s : GenState) (e : Itv) : GenOut :=
  if e.val.isSome then (.error .badValueBehavior, s)
  else
    match env.protEncCert with
    | none => (.error .valueError, s)
    | some v => (.ok (⟨idIt 1, some v⟩, some "All other certificates are inside the extraCerts"), { s with addEnv := true })

/-- `general_msg_handler.py` 346-382, `process_rev_passphrase`. -/
def revPassphrase (env : GenEnv N R E C) (m : GenMsg C) (s : GenState) (e : Itv) : GenOut :=
  match readPassphrase env m.pvno e with
  | .error er => (.error er, s)
  | .ok p => (.ok (⟨idIt 12, none⟩, some "Successfully processed the revocation passphrase."),
      { s with passphrases := s.passphrases ++ [p] })

/-- `general_msg_handler.py` 216-217 with 712-735. -/
def kemEntry (env : GenEnv N R E C) (m : GenMsg C) (s : GenState) (e : Itv) : GenOut :=
  match kemInfo env m e with
  | .error er => (.error er, s)
  | .ok (ss, v) => (.ok (⟨idIt 9999, some v⟩, none), putSecret s m.tx ss)

/-- `general_msg_handler.py` 501-505: the answer to `currentCRL`. -/
def currentCrl (env : GenEnv N R E C) (e : Itv) : Except PyErr (Itv × Option String) :=
  if e.val.isSome then .error .badValueBehavior
  else
    match env.crl 0 with
    | .error er => .error er
    | .ok v => .ok (⟨idIt 6, some v⟩, some "This returns the current CRL of the Mock CA.")

/-- `general_msg_handler.py` 210-269, `_process_general_message_entry`. -/
def genEntry [DecidableEq N] [DecidableEq R] [DecidableEq C] (env : GenEnv N R E C) (m : GenMsg C) (s : GenState)
    (e : Itv) : GenOut :=
  if e.oid = idIt 9999 then kemEntry env m s e
  else if e.oid = idIt 1 then protEnc env s e
  else if e.oid = idIt 2 then (.ok (⟨idIt 2, some env.signTypes⟩, some "signature"), s)
  else if e.oid = idIt 3 then (fixedAnswer e 3 env.encTypes, s)
  else if e.oid = idIt 4 then (fixedAnswer e 4 env.symAlg, s)
  else if e.oid = idIt 6 then (currentCrl env e, s)
  else if e.oid = idIt 7 then (unsupportedOids env e, s)
  else if e.oid = idIt 10 then (keyPairParam env e, s)
  else if e.oid = idIt 12 then revPassphrase env m s e
  else if e.oid = idIt 16 then (suppLangs env e, s)
  else if e.oid = idIt 18 then (.error .badRequest, s)
  else if e.oid = idIt 20 then (rootCaCert env e, s)
  else if e.oid = idIt 19 then (.ok (⟨idIt 19, some env.template⟩, some "template"), s)
  else if e.oid = idIt 22 then (crlUpdate env e, s)
  else if e.oid = idIt 17 then (.ok (⟨idIt 17, some env.caCerts⟩, some "certificates"), s)
  else if e.oid = idIt 13 then (implicitConfirm env (fun b => if b = [5, 0] then some ((), []) else none) e, s)
  else if e.oid = idIt 21 then (certProfile env e, s)
  else (.error .notImplemented, s)

/-- `general_msg_handler.py` 206-207: a text which is empty or missing is not kept. -/
def keepText : Option String → List String
  | none => []
  | some t => if t = "" then [] else [t]

/-- `general_msg_handler.py` 202-207: the loop over the entries. -/
def genLoop [DecidableEq N] [DecidableEq R] [DecidableEq C] (env : GenEnv N R E C) (m : GenMsg C) :
    GenState → List Itv → Except PyErr (List Itv × List String) × GenState
  | s, [] => (.ok ([], []), s)
  | s, e :: es =>
    match absentOk e with
    | .error er => (.error er, s)
    | .ok () =>
      match genEntry env m s e with
      | (.error er, s') => (.error er, s')
      | (.ok (o, t), s') =>
        match genLoop env m s' es with
        | (.error er, s'') => (.error er, s'')
        | (.ok (os, ts), s'') => (.ok (o :: os, keepText t ++ ts), s'')

/-- `general_msg_handler.py` 148-154, 195-208, `process_general_msg`: the entries and texts of the answer. -/
def processGeneral [DecidableEq N] [DecidableEq R] [DecidableEq C] (env : GenEnv N R E C) (s : GenState) (m : GenMsg C) :
    Except PyErr (List Itv × List String) × GenState :=
  if env.lwcmp = true ∧ m.body.length > 1 then (.error .badRequest, s)
  else if m.body.length = 0 then (.error .badRequest, s)
  else genLoop env m s m.body

/-- `general_msg_handler.py` 163-176, `patch_genp_message_for_extra_certs`: the certificates added. -/
def patchExtra (env : GenEnv N R E C) (s : GenState) : List C × GenState :=
  if s.addEnv then (env.envCerts, { s with addEnv := false }) else ([], s)

/-! ## The caller -/

/-- The checks of `ca_handler.py` on a general message and the state of the KEM secrets used for the protection. -/
structure CallEnv (N R E C : Type) where
  gen : GenEnv N R E C
  /-- `validate_protection` -/
  protection : Except PyErr Unit
  /-- `_check_is_not_confirmed` and `_is_allowed_to_make_a_request` (836-837) -/
  allowed : Except PyErr Unit
  /-- `sign_response` -/
  sign : Except PyErr Unit

/-- The response: entries, texts, whether it is protected and the certificates added to `extraCerts`. -/
structure Genp (C : Type) where
  content : List Itv
  texts : List String
  signed : Bool
  added : List C
deriving DecidableEq, Repr

/-- The state of the handler and the shared secrets of the KEM protection (`state.kem_mac_based`), a list to which
`mock_fun.py` 549-556 appends and in which 573-578 takes the first entry of the transaction. -/
structure CallState where
  gen : GenState
  macSecrets : List (List UInt8 × List UInt8)
deriving DecidableEq, Repr

/-- `general_msg_utils.py` 1648-1677, `build_genp_kem_ct_info_from_genm` with one expected entry: the shared secret and
the value.  The value of the entry is not looked at. -/
def genpKem (env : GenEnv N R E C) (m : GenMsg C) : Except PyErr (List UInt8 × List UInt8) :=
  if m.body.length ≠ 1 then .error .valueError
  else
    match m.extra with
    | [] => .error .valueError
    | c :: _ => env.kem c

/-- `ca_handler.py` 825-842: the KEM branch of `process_genm`. -/
def genmKem (env : CallEnv N R E C) (s : CallState) (m : GenMsg C) :
    Except PyErr (List Itv × List String × Bool) × CallState :=
  if m.isProtected then (.error .badRequest, s)
  else if m.extra.isEmpty then (.error .badRequest, s)
  else
    match genpKem env.gen m with
    | .error er => (.error er, s)
    | .ok (ss, v) =>
      match env.allowed with
      | .error er => (.error er, s)
      | .ok () => (.ok ([⟨idIt 9999, some v⟩], [], false),
          { s with macSecrets := s.macSecrets ++ [(m.tx, ss)] })

/-- `ca_handler.py` 822-823: the protection is verified where there is one. -/
def genmProtection (env : CallEnv N R E C) (m : GenMsg C) : Except PyErr Unit :=
  if m.isProtected then env.protection else .ok ()

/-- `ca_handler.py` 844: the other messages. -/
def genmOther [DecidableEq N] [DecidableEq R] [DecidableEq C] (env : CallEnv N R E C) (s : CallState) (m : GenMsg C) :
    Except PyErr (List Itv × List String × Bool) × CallState :=
  match processGeneral env.gen s.gen m with
  | (.error er, g) => (.error er, { s with gen := g })
  | (.ok (os, ts), g) => (.ok (os, ts, true), { s with gen := g })

/-- `ca_handler.py` 813-844, `process_genm`. -/
def processGenm [DecidableEq N] [DecidableEq R] [DecidableEq C] (env : CallEnv N R E C) (s : CallState) (m : GenMsg C) :
    Except PyErr (List Itv × List String × Bool) × CallState :=
  match m.body with
  | [] => (.error .badRequest, s)
  | e :: _ =>
    match genmProtection env m with
    | .error er => (.error er, s)
    | .ok () => if e.oid = idIt 9999 then genmKem env s m else genmOther env s m

/-- `ca_handler.py` 762-765: the response is signed, except that with the KEM ciphertext. -/
def genmSign (env : CallEnv N R E C) (p : Bool) : Except PyErr Unit := if p then env.sign else .ok ()

/-- `ca_handler.py` 759-766: the answer to a general message whose header was accepted. -/
def answerGenm [DecidableEq N] [DecidableEq R] [DecidableEq C] (env : CallEnv N R E C) (s : CallState) (m : GenMsg C) :
    Except PyErr (Genp C) × CallState :=
  match processGenm env s m with
  | (.error er, s') => (.error er, s')
  | (.ok (os, ts, p), s') =>
    match genmSign env p with
    | .error er => (.error er, s')
    | .ok () =>
      (.ok ⟨os, ts, p, (patchExtra env.gen s'.gen).1⟩, { s' with gen := (patchExtra env.gen s'.gen).2 })

end Verif.Ra
