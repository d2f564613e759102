import Verif.Check.Chain
import Verif.Check.KeyUsage

/-!
# Processing of certificate requests by the CA (resources/ca_ra_utils.py)

The encodings, the keys and the signing of certificates are parameters. An index outside of the list of requests, for
which pyasn1 makes an empty element, is an `IndexError` here; the index is one of the list in all calls in the suite.
-/

namespace Verif.Ra

open Verif.CA hiding Bytes Msg
open Verif.Check

abbrev Bytes := List UInt8

/-- `SubjectPublicKeyInfo` in a template: the algorithm may be absent, the key may be empty. -/
structure Spki (A : Type) where
  alg : Option A
  bits : Bytes
  deriving DecidableEq

/-- `CertTemplate`: the public key and the rest. -/
structure Tmpl (A R : Type) where
  key : Option (Spki A)
  rest : R
  deriving DecidableEq

/-- `POPOPrivKey`; of `subsequentMessage`, whether it is `encrCert`. -/
inductive PrivPop (A E : Type) where
  | thisMessage
  | subsequent (encr : Bool)
  | dhMac
  | agreeMac (alg : A) (value : Bytes)
  | encryptedKey (e : E)
  deriving DecidableEq

/-- `ProofOfPossession`. -/
inductive Popo (A E : Type) where
  | raVerified
  | signature (alg : A) (sig : Bytes)
  | keyEnc (p : PrivPop A E)
  | keyAgree (p : PrivPop A E)
  deriving DecidableEq

/-- `CertReqMsg`: the identifier, the template, the proof, the encoding of `certReq` and the field `regInfo`. -/
structure Req (A R E : Type) where
  id : Int
  tmpl : Tmpl A R
  popo : Option (Popo A E)
  der : Bytes
  regInfo : Option (List (List Nat × Bytes)) := none
  deriving DecidableEq

/-- `PKIMessage`: the body with the requests, `extraCerts` and the protection. -/
structure RMsg (A R E C : Type) where
  body : String
  reqs : List (Req A R E)
  certs : Option (List C)
  prot : Option (A × Bytes) := none

/-- The identifier in `EncKeyWithID`. -/
inductive KeyIdent (G : Type) where
  | str (s : String)
  | gen (g : G)

/-- `EncKeyWithID`. -/
structure KeyWithId (G : Type) where
  priv : Option Bytes
  ident : Option (KeyIdent G)

/-- What the functions use. -/
structure RaEnv (A K S R E C N X G : Type) where
  ch : ChainEnv C N K
  loadSpki : Spki A → Except PyErr K
  isVerify : K → Bool
  isDsa : K → Bool
  isDh : K → Bool
  isKem : K → Bool
  isEcdh : K → Bool
  isPq : K → Bool
  isStfl : K → Bool
  rsaBits : K → Option Nat
  hasParams : A → Bool
  /-- `_validate_pq_hash_stateful_sig_pub_key` -/
  stfl : K → A → Except PyErr Unit
  /-- `check_consistency_sig_alg_id_and_key` -/
  consistent : A → K → Except PyErr Unit
  /-- `verify_signature_with_alg_id` -/
  verifyAlg : K → A → Bytes → Bytes → Except PyErr Unit
  /-- the subject is not empty, or there is a subject alternative name -/
  named : R → Bool
  /-- the public key of a generated key -/
  genKey : Option A → Except PyErr K
  encSpki : Spki A → Bytes
  decReq : Bytes → Option ((Int × Tmpl A R) × Bytes)
  /-- `validate_reg_info_utf8_pairs` -/
  utf8 : List (List Nat × Bytes) → Except PyErr Unit
  /-- `validate_cert_request_controls`, of the encoding of `certReq` -/
  controls : Bytes → Except PyErr Unit
  /-- `build_cert_from_cert_template` with the further extensions -/
  build : Tmpl A R → Option X → Except PyErr C
  /-- the key of the CA for key agreement with the public key -/
  serverKey : K → Option S
  ecdh : S → K → Except PyErr Bytes
  mac : Bytes → A → Bytes → Except PyErr Bytes
  /-- the certificate, encrypted for the key by key agreement -/
  encKari : K → S → C → Except PyErr E
  /-- the certificate, encrypted for the key by encapsulation -/
  encKem : K → C → Except PyErr E
  certKey : C → Except PyErr K
  /-- the content of an encrypted key, by the type of the recipient -/
  openKey : E → Except PyErr Bytes
  decKeyId : Bytes → Except PyErr (KeyWithId G × Bytes)
  /-- the public key of an encoded private key -/
  loadPriv : Bytes → Except PyErr K
  subjName : R → Option String
  genIs : G → R → Except PyErr Bool
  /-- `prepare_cert_and_private_key_for_kga` -/
  kga : Tmpl A R → Except PyErr (C × E)
  /-- the certificates of the trusted registration authorities -/
  raCerts : Except PyErr (List C)

variable {A K S R E C N X G : Type}

/-- `keyutils.py` 657-660: errors of loading. -/
def tmplErr (e : PyErr) : PyErr := if e = .badAlg ∨ e = .valueError then .badCertTemplate else e

/-- `keyutils.py` 616-660, `load_public_key_from_cert_template`. -/
def tmplKey (env : RaEnv A K S R E C N X G) (must : Bool) (t : Tmpl A R) : Except PyErr (Option K) :=
  match t.key with
  | none => if must then .error .badCertTemplate else .ok none
  | some s =>
    if s.bits = [] then if must then .error .badCertTemplate else .ok none
    else match env.loadSpki s with
      | .error e => .error (tmplErr e)
      | .ok k => .ok (some k)

/-- `ca_ra_utils.py` 419-448, `get_cert_req_msg_from_pkimessage`. -/
def getReq (m : RMsg A R E C) (i : Nat) : Except PyErr (Req A R E) :=
  if m.body ∈ ["ir", "cr", "kur", "ccr"] then
    match m.reqs[i]? with
    | none => .error .indexError
    | some r => .ok r
  else .error .valueError

/-- `ca_ra_utils.py` 487-499, `get_public_key_from_cert_req_msg`, with `must_be_present=True`. -/
def reqKey (env : RaEnv A K S R E C N X G) (r : Req A R E) : Except PyErr K :=
  match tmplKey env true r.tmpl with
  | .error e => .error e
  | .ok none => .error .badPOP
  | .ok (some k) => .ok k

/-- `ca_ra_utils.py` 582-613, `_get_kga_key_from_cert_template`: the public key of the generated key; `genKey` has the
choice by the algorithm. -/
def kgaKey (env : RaEnv A K S R E C N X G) (t : Tmpl A R) : Except PyErr K :=
  match t.key with
  | none => env.genKey none
  | some s =>
    match s.alg with
    | none => .error .badCertTemplate
    | some a => if s.bits ≠ [] then .error .badPOP else env.genKey (some a)

/-- `ca_ra_utils.py` 1090-1118, `check_if_request_is_for_kga`. -/
def isKga (env : RaEnv A K S R E C N X G) (m : RMsg A R E C) (i : Nat) : Except PyErr Bool :=
  match getReq m i with
  | .error e => .error e
  | .ok r =>
    match r.popo with
    | some _ => .ok false
    | none =>
      match kgaKey env r.tmpl with
      | .error e => .error e
      | .ok _ => .ok true

/-- `ca_ra_utils.py` 1164-1173: errors of the verification. -/
def popErr : PyErr → PyErr
  | .badSigAlgId => .badPOP
  | .pyasn1Error => .badAsn1Data
  | .invalidSignature => .badPOP
  | e => e

/-- `ca_ra_utils.py` 1142-1159: the signature in a request. -/
def popSigned (env : RaEnv A K S R E C N X G) (r : Req A R E) (a : A) (sig : Bytes) : Except PyErr Unit :=
  match reqKey env r with
  | .error e => .error (popErr e)
  | .ok k =>
    if env.isVerify k = false then .error .badPOP
    else if env.isDsa k then .error .badPOP
    else match env.verifyAlg k a r.der sig with
      | .error e => .error (popErr e)
      | .ok () => .ok ()

/-- `ca_ra_utils.py` 1121-1173, `_verify_pop_signature`. -/
def verifyPopSig (env : RaEnv A K S R E C N X G) (m : RMsg A R E C) (i : Nat) : Except PyErr Unit :=
  match getReq m i with
  | .error e => .error (popErr e)
  | .ok r =>
    match r.popo with
    | some (.signature a sig) => popSigned env r a sig
    | _ => .error .badPOP

/-- `ca_ra_utils.py` 2133-2166, `verify_sig_pop_for_pki_request`, for the bodies with a list of requests. -/
def verifySigPop (env : RaEnv A K S R E C N X G) (m : RMsg A R E C) (i : Nat) : Except PyErr Unit :=
  match getReq m i with
  | .error e => .error e
  | .ok r =>
    match r.popo with
    | some (.signature _ _) =>
      match verifyPopSig env m i with
      | .error e => .error (if e = .badSigAlgId then .badPOP else e)
      | .ok () => .ok ()
    | _ => .error .badPOP

/-- An error that is a `ValueError` becomes `NotAuthorized` (1217-1225). -/
def unauth (x : Except PyErr Unit) : Except PyErr Unit :=
  match x with
  | .error .valueError => .error .notAuthorized
  | x => x

/-- `ca_ra_utils.py` 1227-1249: the chain of a registration authority. -/
def raChain [DecidableEq N] (env : RaEnv A K S R E C N X G) (l : List C) : Except PyErr Unit :=
  match buildCmpChain env.ch (some l) with
  | .error e => .error e
  | .ok chain =>
    match (match chain with | [x] => isCertSigner env.ch x x | _ => .ok true) with
    | .error e => .error e
    | .ok false => .error .notAuthorized
    | .ok true =>
      match env.ch.openssl chain with
      | .error .signerNotTrusted => .error .notAuthorized
      | x => x

/-- `ca_ra_utils.py` 1207-1249: the certificate of a registration authority. -/
def raTrusted [DecidableEq C] [DecidableEq N] (env : RaEnv A K S R E C N X G) (strictEku : Bool) (ras : List C) (c : C)
    (l : List C) : Except PyErr Unit :=
  if chainCertInList c ras = false then .error .notAuthorized
  else match unauth (validateEku (env.ch.eku c) ["cmcRA"] (if strictEku then .strict else .lax)) with
    | .error e => .error e
    | .ok () =>
      match unauth (validateKeyUsage keyUsageNames (env.ch.usage c) ["digitalSignature".toList] .strict) with
      | .error e => .error e
      | .ok () => raChain env l

/-- `ca_ra_utils.py` 1176-1249, `_verify_ra_verified`, with `strict_ku` and `verify_cert_chain` true, the defaults. -/
def verifyRa [DecidableEq C] [DecidableEq N] (env : RaEnv A K S R E C N X G) (strictEku verify : Bool)
    (m : RMsg A R E C) : Except PyErr Unit :=
  if verify = false then .ok ()
  else match env.raCerts with
    | .error e => .error e
    | .ok ras =>
      match m.certs with
      | none => .error .notAuthorized
      | some [] => .error .notAuthorized
      | some (c :: l) => raTrusted env strictEku ras c (c :: l)

/-- `ca_ra_utils.py` 1313-1322: the key must be of the kind. -/
def keyKind (env : RaEnv A K S R E C N X G) (kind : K → Bool) (r : Req A R E) : Except PyErr Unit :=
  match reqKey env r with
  | .error e => .error e
  | .ok k => if kind k then .ok () else .error .valueError

/-- `ca_ra_utils.py` 1252-1327, `verify_popo_for_cert_request`: the signature is verified without the index. -/
def verifyPopo [DecidableEq C] [DecidableEq N] (env : RaEnv A K S R E C N X G) (strictEku verify : Bool)
    (m : RMsg A R E C) (i : Nat) : Except PyErr Unit :=
  if m.body ∉ ["ir", "cr", "kur", "crr"] then .error .valueError
  else match getReq m i with
    | .error e => .error e
    | .ok r =>
      match isKga env m i with
      | .error e => .error e
      | .ok true => .ok ()
      | .ok false =>
        match r.popo with
        | none => .error .badPOP
        | some .raVerified => verifyRa env strictEku verify m
        | some (.signature _ _) => verifySigPop env m 0
        | some (.keyEnc _) => keyKind env env.isKem r
        | some (.keyAgree _) => keyKind env env.isEcdh r

/-- `ca_ra_utils.py` 1507-1512: the size of an RSA key. -/
def rsaSize (n : Option Nat) (max : Nat) : Except PyErr Unit :=
  match n with
  | none => .ok ()
  | some n => if n < 2048 then .error .badCertTemplate else if max < n then .error .badCertTemplate else .ok ()

/-- `ca_ra_utils.py` 1514-1531: the algorithm of the proof fits the key. -/
def algFits (env : RaEnv A K S R E C N X G) (k : Option K) : Option A → Except PyErr Unit
  | none => .ok ()
  | some a =>
    match k with
    | none => .error .badCertTemplate
    | some k =>
      if env.isVerify k = false then .error .badCertTemplate
      else match env.consistent a k with
        | .error e => .error (if e = .valueError ∨ e = .badSigAlgId then .badCertTemplate else e)
        | .ok () => .ok ()

/-- `ca_ra_utils.py` 1533-1548: the algorithm in the template. -/
def keyParams (env : RaEnv A K S R E C N X G) (k : K) (s : Spki A) : Except PyErr Unit :=
  match s.alg with
  | none => .ok ()
  | some a =>
    if env.isStfl k then env.stfl k a
    else if env.isPq k ∧ env.hasParams a = true then .error .badCertTemplate
    else .ok ()

/-- `ca_ra_utils.py` 1495-1548: the key of a template. -/
def keyAllowed (env : RaEnv A K S R E C N X G) (alg : Option A) (max : Nat) (t : Tmpl A R) (k : Option K) :
    Except PyErr Unit :=
  match k, t.key with
  | some k, some s =>
    if env.isDh k then .error .badCertTemplate
    else if env.isDsa k then .error .badAlg
    else match rsaSize (env.rsaBits k) max with
      | .error e => .error e
      | .ok () =>
        match algFits env (some k) alg with
        | .error e => .error e
        | .ok () => if s.bits = [] then .ok () else keyParams env k s
  | k, _ => algFits env k alg

/-- `ca_ra_utils.py` 1469-1548, `validate_cert_template_public_key`. -/
def checkTmplKey (env : RaEnv A K S R E C N X G) (alg : Option A) (max : Nat) (t : Tmpl A R) : Except PyErr Unit :=
  if env.named t.rest = false then .error .badCertTemplate
  else match tmplKey env false t with
    | .error e =>
      .error (if e = .badCertTemplate ∨ e = .invalidKeyData ∨ e = .valueError then .badCertTemplate else e)
    | .ok k => keyAllowed env alg max t k

/-- `id_regInfo_certReq` (RFC 4211). -/
def regInfoCertReq : List Nat := [1, 3, 6, 1, 5, 5, 7, 5, 2, 2]

/-- `cmputils.py` 1467-1496, `_validate_cert_request_reg_info`. -/
def altAllowed (env : RaEnv A K S R E C N X G) (r : Req A R E) (x : Int × Tmpl A R) : Except PyErr Unit :=
  if r.id ≠ x.1 then .error .badRequest
  else match r.tmpl.key with
    | none => .ok ()
    | some s =>
      match x.2.key with
      | none => .error .pyasn1Error
      | some s' => if env.encSpki s ≠ env.encSpki s' then .error .badCertTemplate else .ok ()

/-- `cmputils.py` 1515-1565, `validate_cert_req_inside_reg_info`; 1499-1511, `_check_unique_controls`. -/
def altReq (env : RaEnv A K S R E C N X G) (r : Req A R E) (l : List (List Nat × Bytes)) :
    Except PyErr (Option (Tmpl A R)) :=
  match l.find? (fun x => x.1 = regInfoCertReq) with
  | none => .ok none
  | some d =>
    if ¬ (l.map (·.1)).Nodup then .error .badRequest
    else match env.decReq d.2 with
      | none => .error .pyasn1Error
      | some (x, rest) =>
        if rest ≠ [] then .error .badAsn1Data
        else match altAllowed env r x with
          | .error e => .error e
          | .ok () => .ok (some x.2)

/-- `cmputils.py` 1753-1777, `validate_reg_info_field`: the template of a registration authority. -/
def altTmpl (env : RaEnv A K S R E C N X G) (r : Req A R E) : Except PyErr (Option (Tmpl A R)) :=
  match r.regInfo with
  | none => .ok none
  | some l =>
    match altReq env r l with
    | .error e => .error e
    | .ok t =>
      match env.utf8 l with
      | .error e => .error e
      | .ok () => .ok t

/-- `ca_ra_utils.py` 1637-1671: the identifier of an encrypted key. -/
def identOk (env : RaEnv A K S R E C N X G) (t : Tmpl A R) : Option (KeyIdent G) → Except PyErr Unit
  | none => .error .badAsn1Data
  | some (.str s) => if env.subjName t.rest ≠ some s then .error .badCertTemplate else .ok ()
  | some (.gen g) =>
    match env.genIs g t.rest with
    | .error e => .error e
    | .ok b => if b then .ok () else .error .badCertTemplate

/-- `ca_ra_utils.py` 1603-1671, `validate_enc_key_with_id`. -/
def keyWithId [DecidableEq K] (env : RaEnv A K S R E C N X G) (d : Bytes) (t : Tmpl A R) : Except PyErr Unit :=
  match env.decKeyId d with
  | .error e => .error e
  | .ok (x, rest) =>
    if rest ≠ [] then .error .badAsn1Data
    else match x.priv with
      | none => .error .badAsn1Data
      | some p =>
        match env.loadPriv p with
        | .error e => .error e
        | .ok k =>
          match tmplKey env true t with
          | .error e => .error e
          | .ok k' => if some k ≠ k' then .error .badPOP else identOk env t x.ident

/-- `ca_ra_utils.py` 1675-1794, `process_encrypted_key`: the certificate is built without further extensions. -/
def encryptedKey [DecidableEq K] (env : RaEnv A K S R E C N X G) (t : Tmpl A R) (e : E) : Except PyErr C :=
  match tmplKey env false t with
  | .error x => .error x
  | .ok none => .error .badCertTemplate
  | .ok (some _) =>
    match env.openKey e with
    | .error x => .error x
    | .ok d =>
      match keyWithId env d t with
      | .error x => .error x
      | .ok () => env.build t none

/-- `ca_ra_utils.py` 1551-1599, `_process_agree_mac_key_agreement`. -/
def agreeMac (env : RaEnv A K S R E C N X G) (x : Option X) (r : Req A R E) (k : K) (s : S) (a : A) (v : Bytes) :
    Except PyErr C :=
  match env.ecdh s k with
  | .error e => .error e
  | .ok ss =>
    match env.mac ss a r.der with
    | .error e => .error e
    | .ok w => if w ≠ v then .error .badPOP else env.build r.tmpl x

/-- What is sent for a request. -/
structure Issued (C E : Type) where
  cert : C
  enc : Option E := none
  priv : Option E := none
  deriving DecidableEq

/-- `ca_ra_utils.py` 1897-1920: the certificate is encrypted by key agreement. -/
def kariCert (env : RaEnv A K S R E C N X G) (x : Option X) (t : Tmpl A R) (k : K) (s : S) : Except PyErr (Issued C E) :=
  match env.build t x with
  | .error e => .error e
  | .ok c =>
    match env.encKari k s c with
    | .error e => .error e
    | .ok d => .ok { cert := c, enc := some d }

/-- `ca_ra_utils.py` 1875-1920: with the key of the CA. -/
def agreeWith (env : RaEnv A K S R E C N X G) (x : Option X) (r : Req A R E) (k : K) (p : PrivPop A E) :
    Except PyErr (Issued C E) :=
  match env.serverKey k with
  | none => .error .valueError
  | some s =>
    match p with
    | .agreeMac a v =>
      match agreeMac env x r k s a v with
      | .error e => .error e
      | .ok c => .ok { cert := c }
    | _ => kariCert env x r.tmpl k s

/-- `ca_ra_utils.py` 1798-1920, `respond_to_key_agreement_request`, with `use_ephemeral=False`. -/
def agreeReply [DecidableEq K] (env : RaEnv A K S R E C N X G) (x : Option X) (r : Req A R E) (p : PrivPop A E) :
    Except PyErr (Issued C E) :=
  match reqKey env r with
  | .error e => .error e
  | .ok k =>
    if env.isEcdh k = false then .error .valueError
    else match p with
      | .thisMessage => .error .valueError
      | .dhMac => .error .valueError
      | .encryptedKey e =>
        match encryptedKey env r.tmpl e with
        | .error y => .error y
        | .ok c => .ok { cert := c }
      | p => agreeWith env x r k p

/-- `ca_ra_utils.py` 3031-3112, `prepare_encr_cert_from_request`, for the certificate. -/
def encrCert (env : RaEnv A K S R E C N X G) (c : C) (encr : Bool) : Except PyErr (Issued C E) :=
  if encr = false then .error .valueError
  else match env.certKey c with
    | .error e => .error e
    | .ok k =>
      if env.isKem k = false then .error .valueError
      else match env.encKem k c with
        | .error e => .error e
        | .ok d => .ok { cert := c, enc := some d }

/-- `ca_ra_utils.py` 1924-2012, `respond_to_key_encipherment_request`. -/
def encReply [DecidableEq K] (env : RaEnv A K S R E C N X G) (x : Option X) (r : Req A R E) (p : PrivPop A E) :
    Except PyErr (Issued C E) :=
  match env.build r.tmpl x with
  | .error e => .error e
  | .ok c =>
    match p with
    | .encryptedKey e =>
      match encryptedKey env r.tmpl e with
      | .error y => .error y
      | .ok c => .ok { cert := c }
    | .subsequent b => encrCert env c b
    | _ => .error .valueError

/-- `ca_ra_utils.py` 2066-2069: the algorithm of the proof. -/
def popoAlg : Option (Popo A E) → Option A
  | some (.signature a _) => some a
  | _ => none

/-- `ca_ra_utils.py` 2077-2090: a key is generated. -/
def kgaReply (env : RaEnv A K S R E C N X G) (r : Req A R E) (t : Tmpl A R) : Except PyErr (Issued C E) :=
  match tmplKey env false t with
  | .error e => .error e
  | .ok (some _) => .error .badPOP
  | .ok none =>
    match env.kga r.tmpl with
    | .error e => .error e
    | .ok (c, p) => .ok { cert := c, priv := some p }

/-- `ca_ra_utils.py` 2094-2101: the certificate is sent as it is. -/
def plainReply (env : RaEnv A K S R E C N X G) (x : Option X) (t : Tmpl A R) : Except PyErr (Issued C E) :=
  match env.build t x with
  | .error e => .error e
  | .ok c => .ok { cert := c }

/-- `ca_ra_utils.py` 2016-2129, `respond_to_cert_req_msg`; `alt` is the template of a registration authority. -/
def respond [DecidableEq K] (env : RaEnv A K S R E C N X G) (x : Option X) (r : Req A R E) (alt : Option (Tmpl A R)) :
    Except PyErr (Issued C E) :=
  match checkTmplKey env (popoAlg r.popo) 8192 (alt.getD r.tmpl) with
  | .error e => .error e
  | .ok () =>
    match r.popo with
    | none => kgaReply env r (alt.getD r.tmpl)
    | some .raVerified => plainReply env x (alt.getD r.tmpl)
    | some (.signature _ _) => plainReply env x (alt.getD r.tmpl)
    | some (.keyEnc p) => encReply env x r p
    | some (.keyAgree p) => agreeReply env x r p

/-- `ca_ra_utils.py` 2360-2382: the algorithm and the key of a signature. -/
def sigKeyOk (env : RaEnv A K S R E C N X G) (r : Req A R E) (a : A) : Except PyErr Unit :=
  match reqKey env r with
  | .error e => .error (if e = .badAsn1Data ∨ e = .invalidKeyData then .badCertTemplate else e)
  | .ok k =>
    if env.isVerify k = false then .error .badPOP
    else match env.consistent a k with
      | .error e => .error (if e = .badSigAlgId then .badPOP else e)
      | .ok () => .ok ()

/-- `ca_ra_utils.py` 2360-2389: before the template; without a proof, the first request must be for key generation. -/
def popoKind (env : RaEnv A K S R E C N X G) (m : RMsg A R E C) (r : Req A R E) : Except PyErr Unit :=
  match r.popo with
  | some (.signature a _) => sigKeyOk env r a
  | some _ => .ok ()
  | none =>
    match isKga env m 0 with
    | .error e => .error e
    | .ok b => if b then .ok () else .error .badCertTemplate

/-- The arguments of the CA: the further extensions, whether the extended key usage is strict, and whether `raVerified`
is verified. -/
structure CaArgs (X : Type) where
  ext : Option X := none
  strictEku : Bool := true
  verifyRa : Bool := true

/-- `ca_ra_utils.py` 2337-2424, `_process_one_cert_request`. -/
def processOne [DecidableEq K] [DecidableEq C] [DecidableEq N] (env : RaEnv A K S R E C N X G) (a : CaArgs X)
    (m : RMsg A R E C) (i : Nat) : Except PyErr (Issued C E) :=
  match getReq m i with
  | .error e => .error e
  | .ok r =>
    match popoKind env m r with
    | .error e => .error e
    | .ok () =>
      match altTmpl env r with
      | .error e => .error e
      | .ok alt =>
        match checkTmplKey env none 8192 r.tmpl with
        | .error e => .error e
        | .ok () =>
          match env.controls r.der with
          | .error e => .error e
          | .ok () =>
            match verifyPopo env a.strictEku a.verifyRa m i with
            | .error e => .error e
            | .ok () => respond env a.ext r alt

/-- `CertOrEncCert`. -/
inductive CertOrEnc (C E : Type) where
  | cert (c : C)
  | enc (e : E)
  deriving DecidableEq

/-- `CertResponse`: the identifier, the certificate and the private key. -/
structure Resp (C E : Type) where
  id : Int
  pair : CertOrEnc C E
  priv : Option E
  deriving DecidableEq

/-- `ca_ra_utils.py` 2848-2934, `prepare_cert_or_enc_cert`, `prepare_certified_key_pair`, `prepare_cert_response`: the
encrypted certificate is set last, so it replaces the other. -/
def mkResp (id : Int) (i : Issued C E) : Resp C E :=
  ⟨id, match i.enc with
    | some e => .enc e
    | none => .cert i.cert, i.priv⟩

/-- `ca_ra_utils.py` 2447-2464: the loop; `todo` are the requests from index `i`. -/
def processLoop [DecidableEq K] [DecidableEq C] [DecidableEq N] (env : RaEnv A K S R E C N X G) (a : CaArgs X)
    (m : RMsg A R E C) : Nat → List (Req A R E) → Except PyErr (List (Resp C E) × List C)
  | _, [] => .ok ([], [])
  | i, r :: todo =>
    match processOne env a m i with
    | .error e => .error e
    | .ok x =>
      match processLoop env a m (i + 1) todo with
      | .error e => .error e
      | .ok (rs, cs) => .ok (mkResp r.id x :: rs, x.cert :: cs)

/-- `ca_ra_utils.py` 2427-2464, `_process_cert_requests`. -/
def processAll [DecidableEq K] [DecidableEq C] [DecidableEq N] (env : RaEnv A K S R E C N X G) (a : CaArgs X)
    (m : RMsg A R E C) : Except PyErr (List (Resp C E) × List C) :=
  processLoop env a m 0 m.reqs

/-- `ca_ra_utils.py` 2512-2546, `validate_cert_req_id_nums`, for the bodies with a list of requests. -/
def checkIds (ids : List Int) : Except PyErr Unit :=
  match ids with
  | [] => .error .badRequest
  | [x] => if x ≠ 0 then .error .badRequest else .ok ()
  | l =>
    if ¬ l.Nodup then .error .badRequest
    else if (List.range l.length).all (fun n => decide ((n : Int) ∈ l)) then .ok ()
    else .error .badRequest

/-- `ca_ra_utils.py` 2664-2717, `enforce_lwcmp_for_ca`, for the bodies with a list of requests. -/
def lwCmp (m : RMsg A R E C) : Except PyErr Unit :=
  if m.body ∉ ["ir", "cr", "kur", "crr"] then .error .badRequest
  else match m.reqs with
    | [r] => if r.id ≠ 0 then .error .badRequest else .ok ()
    | _ => .error .badRequest

/-- `ca_ra_utils.py` 2787-2796: the responses of `build_ip_cmp_message` for a request; `lw` is `enforce_lwcmp`, true by
default. -/
def ipReply [DecidableEq K] [DecidableEq C] [DecidableEq N] (env : RaEnv A K S R E C N X G) (a : CaArgs X) (lw : Bool)
    (m : RMsg A R E C) : Except PyErr (List (Resp C E) × List C) :=
  match (if lw then lwCmp m else .ok ()) with
  | .error e => .error e
  | .ok () => processAll env a m

/-- `ca_ra_utils.py` 2641-2648: the responses of `build_cp_cmp_message` for a request. -/
def cpReply [DecidableEq K] [DecidableEq C] [DecidableEq N] (env : RaEnv A K S R E C N X G) (a : CaArgs X)
    (m : RMsg A R E C) : Except PyErr (List (Resp C E) × List C) :=
  processAll env a m

/-- `ca_ra_utils.py` 2468-2484, `get_response_body_type`. -/
def replyType (body : String) : Except PyErr String :=
  if body = "ir" then .ok "ip"
  else if body ∈ ["cr", "p10cr"] then .ok "cp"
  else if body = "kur" then .ok "kup"
  else if body = "crr" then .ok "ccp"
  else .error .valueError

end Verif.Ra
