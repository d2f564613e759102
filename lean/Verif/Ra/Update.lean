import Verif.Ra.Request

/-!
# Key update requests and cross-certification requests (resources/ca_ra_utils.py, mock_ca/cert_req_handler.py)

The encodings of controls and the reading of templates are parameters. The list of certificates of a message may be
empty; pyasn1 makes an empty element for an index outside of it, which is then refused.
-/

namespace Verif.Ra

open Verif.CA hiding Bytes Msg
open Verif.Check

/-- `AttributeTypeAndValue`: a control of a request. -/
structure Ctl where
  oid : List Nat
  value : Option Bytes
  deriving DecidableEq

/-- `OldCertId` (a `CertId`): the fields may be absent after decoding. -/
structure OldId (I : Type) where
  serial : Option Int
  issuer : Option I

/-- What a cross-certification request has in its template; of the basic constraints, the field `cA`. -/
structure CcrInfo where
  version : Option Int
  notBefore : Bool
  notAfter : Bool
  issuer : Bool
  issuerAlt : Bool
  subject : Bool
  subjectAlt : Bool
  signingAlg : Bool
  usage : Option (Except PyErr (List Bool))
  basic : Option Bool

/-- What the functions use. -/
structure UpEnv (A K S R E C N X G I : Type) where
  ra : RaEnv A K S R E C N X G
  /-- the field `controls` of an encoded `certReq` -/
  ctls : Bytes → Option (List Ctl)
  decOld : Bytes → Except PyErr (OldId I × Bytes)
  /-- `compare_general_name_and_name` -/
  sameName : I → N → Except PyErr Bool
  serial : C → Int
  info : R → CcrInfo
  /-- the key usage extension with `keyCertSign` and `digitalSignature` is appended -/
  addUsage : R → R
  /-- the basic constraints extension with `cA` is appended -/
  addBasic : R → R

variable {A K S R E C N X G I : Type}

/-- `id_regCtrl_oldCertID` (RFC 4211). -/
def idOldCert : List Nat := [1, 3, 6, 1, 5, 5, 7, 5, 1, 5]

/-- `ca_ra_utils.py` 3818-3845: the identifier of the old certificate, against the certificate and the one of the CA. -/
def oldMatches (u : UpEnv A K S R E C N X G I) (cert ca : C) (o : OldId I) : Except PyErr Unit :=
  match o.serial, o.issuer with
  | none, _ => .error .badRequest
  | some _, none => .error .badRequest
  | some n, some i =>
    match u.sameName i (u.ra.ch.subject ca) with
    | .error e => .error e
    | .ok false => .error .badCertId
    | .ok true => if n ≠ u.serial cert then .error .badCertId else .ok ()

/-- `ca_ra_utils.py` 3794-3845, `_validate_old_cert_id`. -/
def checkOldId (u : UpEnv A K S R E C N X G I) (cert ca : C) (v : Option Bytes) : Except PyErr Unit :=
  match v with
  | none => .error .badRequest
  | some d =>
    match u.decOld d with
    | .error e => .error e
    | .ok (o, rest) => if rest ≠ [] then .error .badAsn1Data else oldMatches u cert ca o

/-- `ca_ra_utils.py` 3905-3909: the loop over the controls. -/
def ctlLoop (u : UpEnv A K S R E C N X G I) (cert ca : C) : List Ctl → Except PyErr Unit
  | [] => .ok ()
  | c :: l =>
    match (if c.oid = idOldCert then checkOldId u cert ca c.value else .ok ()) with
    | .error e => .error e
    | .ok () => ctlLoop u cert ca l

/-- `ca_ra_utils.py` 3885-3901: the certificate to be updated, and the one of the CA. -/
def kurCerts (certs : Option (List C)) (ca : Option C) : Except PyErr (C × C) :=
  match certs with
  | none => .error .badMessageCheck
  | some l =>
    match ca with
    | none =>
      match l with
      | c :: c' :: _ => .ok (c, c')
      | _ => .error .badMessageCheck
    | some x =>
      match l with
      | c :: _ => .ok (c, x)
      | [] => .error .badMessageCheck

/-- `ca_ra_utils.py` 3848-3909, `validate_kur_controls`. -/
def kurControls (u : UpEnv A K S R E C N X G I) (ca : Option C) (must : Bool) (m : RMsg A R E C) (i : Nat) :
    Except PyErr Unit :=
  match getReq m i with
  | .error e => .error e
  | .ok r =>
    match u.ctls r.der with
    | none => if must then .error .badRequest else .ok ()
    | some l =>
      match kurCerts m.certs ca with
      | .error e => .error e
      | .ok (c, x) => ctlLoop u c x l

/-- `ca_ra_utils.py` 3912-3937, `_validate_popo_kur`: reading the alternative `signature` of another proof makes pyasn1
replace it, so all others end in the last case. -/
def kurPopo (env : RaEnv A K S R E C N X G) (m : RMsg A R E C) (i : Nat) : Except PyErr Unit :=
  match getReq m i with
  | .error e => .error e
  | .ok r =>
    match r.popo with
    | none =>
      match isKga env m i with
      | .error e => .error e
      | .ok b => if b then .ok () else .error .badRequest
    | some (.signature _ _) => verifyPopSig env m i
    | some _ => .error .badPOP

/-- `ca_ra_utils.py` 3993-4000: the key must be another one, if demanded; a certificate that is not there has no key. -/
def kurFresh [DecidableEq K] (env : RaEnv A K S R E C N X G) (allowSame : Bool) (m : RMsg A R E C) (r : Req A R E) :
    Except PyErr Unit :=
  if allowSame then .ok ()
  else match tmplKey env false r.tmpl with
    | .error e => .error e
    | .ok none => .ok ()
    | .ok (some k) =>
      match m.certs with
      | some (c :: _) =>
        match env.certKey c with
        | .error e => .error e
        | .ok k' => if k = k' then .error .badCertTemplate else .ok ()
      | _ => .error .pyasn1Error

/-- `ca_ra_utils.py` 4524-4646, `build_kga_cmp_response`, for the bodies with a list of requests. -/
def kgaCmp (env : RaEnv A K S R E C N X G) (pvno : Int) (m : RMsg A R E C) : Except PyErr (Int × Issued C E) :=
  if pvno ≠ 3 then .error .unsupportedVersion
  else if m.reqs.length ≠ 1 then .error .badRequest
  else match isKga env m 0 with
    | .error e => .error e
    | .ok false => .error .badRequest
    | .ok true =>
      if m.body ∉ ["ir", "cr", "p10cr", "kur"] then .error .badRequest
      else match getReq m 0 with
        | .error e => .error e
        | .ok r =>
          match env.kga r.tmpl with
          | .error e => .error e
          | .ok (c, p) => .ok (r.id, { cert := c, priv := some p })

/-- `ca_ra_utils.py` 4009-4026: the certificate is built without further extensions, or the key is generated. -/
def kurIssue (env : RaEnv A K S R E C N X G) (pvno : Int) (m : RMsg A R E C) (r : Req A R E) :
    Except PyErr (Resp C E × C) :=
  match isKga env m 0 with
  | .error e => .error e
  | .ok true =>
    match kgaCmp env pvno m with
    | .error e => .error e
    | .ok (id, i) => .ok (mkResp id i, i.cert)
  | .ok false =>
    match env.build r.tmpl none with
    | .error e => .error e
    | .ok c => .ok (mkResp 0 { cert := c }, c)

/-- `ca_ra_utils.py` 3943-4032, `build_kup_from_kur`: `validate_kur_controls` is called without the certificate of the
CA. -/
def kupReply [DecidableEq K] (u : UpEnv A K S R E C N X G I) (must allowSame : Bool) (pvno : Int) (m : RMsg A R E C) :
    Except PyErr (Resp C E × C) :=
  if m.body ≠ "kur" then .error .valueError
  else match lwCmp m with
    | .error e => .error e
    | .ok () =>
      match kurPopo u.ra m 0 with
      | .error e => .error e
      | .ok () =>
        match getReq m 0 with
        | .error e => .error e
        | .ok r =>
          match kurFresh u.ra allowSame m r with
          | .error e => .error e
          | .ok () =>
            match kurControls u none must m 0 with
            | .error e => .error e
            | .ok () => if r.id ≠ 0 then .error .badRequest else kurIssue u.ra pvno m r

/-- `suiteenums.py` 213-250: the protection of a message, as far as it matters here. -/
inductive ProtType where
  | mac
  | dh
  | kem
  | sig
  deriving DecidableEq

/-- `cert_req_handler.py` 375-394, `check_signer_is_a_issued_cert`. -/
def signerIssued [DecidableEq C] (issued : List C) (p : ProtType) (certs : Option (List C)) : Except PyErr Unit :=
  if p = .mac then .ok ()
  else match certs with
    | none => .ok ()
    | some [] => .error .notAuthorized
    | some (c :: _) => if c ∈ issued then .ok () else .error .notAuthorized

/-- `cert_req_handler.py` 456-515, `process_kur`, to the response; `verified` is the verification of the protection. The
CA has `must_have_controls=False`, and gives `verify_ra_verified=False` for a protection with encapsulation. -/
def processKur [DecidableEq K] [DecidableEq C] [DecidableEq N] (u : UpEnv A K S R E C N X G I) (ext : Option X)
    (allowSame : Bool) (issued : List C) (p : Option ProtType) (verified : Except PyErr Unit) (pvno : Int)
    (m : RMsg A R E C) : Except PyErr (List (Resp C E) × List C) :=
  match p with
  | none => .error .badMessageCheck
  | some p =>
    if p = .mac then .error .wrongIntegrity
    else match signerIssued issued p m.certs with
      | .error e => .error e
      | .ok () =>
        match verified with
        | .error e => .error e
        | .ok () =>
          if p = .kem then
            if m.certs.isNone then .error .badRequest
            else ipReply u.ra { ext := ext, verifyRa := false } true m
          else match kupReply u false allowSame pvno m with
            | .error e => .error e
            | .ok (r, c) => .ok ([r], [c])

/-! ## Cross-certification -/

/-- `ca_ra_utils.py` 4304-4344, `_validate_ccr_cert_template`: version 1 is 0, version 2 is 1. -/
def ccrTmpl (i : CcrInfo) : Except PyErr Unit :=
  match i.version with
  | none => .error .badCertTemplate
  | some v =>
    if v = 1 then .error .badCertTemplate
    else if i.notBefore = false then .error .badCertTemplate
    else if i.notAfter = false then .error .badCertTemplate
    else if i.issuer = false ∧ i.issuerAlt = false then .error .badCertTemplate
    else if i.subject = false ∧ i.subjectAlt = false then .error .badCertTemplate
    else if i.signingAlg = false then .error .badCertTemplate
    else .ok ()

/-- `ca_ra_utils.py` 4488-4512, `_ensure_key_usage`. -/
def ensureUsage (u : UpEnv A K S R E C N X G I) (t : Tmpl A R) : Except PyErr (Tmpl A R) :=
  match (u.info t.rest).usage with
  | none => .ok { t with rest := u.addUsage t.rest }
  | some (.error _) => .error .badDataFormat
  | some (.ok x) => if "keyCertSign".toList ∈ setNames keyUsageNames x then .ok t else .error .badCertTemplate

/-- `ca_ra_utils.py` 4515-4521, `_ensure_basic_constraints`. -/
def ensureBasic (u : UpEnv A K S R E C N X G I) (t : Tmpl A R) : Tmpl A R :=
  match (u.info t.rest).basic with
  | none => { t with rest := u.addBasic t.rest }
  | some _ => t

/-- `ca_ra_utils.py` 4367-4383: the key of a cross-certification request. -/
def ccrKey (env : RaEnv A K S R E C N X G) (t : Tmpl A R) : Except PyErr Unit :=
  match tmplKey env true t with
  | .error e => .error (if e = .valueError then .badCertTemplate else e)
  | .ok none => .error .badCertTemplate
  | .ok (some k) => if env.isVerify k then .ok () else .error .badCertTemplate

/-- `ca_ra_utils.py` 4407-4414: the template and the certificate. -/
def ccrIssue (u : UpEnv A K S R E C N X G I) (ext : Option X) (t : Tmpl A R) : Except PyErr C :=
  match ccrTmpl (u.info t.rest) with
  | .error e => .error e
  | .ok () =>
    match ensureUsage u t with
    | .error e => .error e
    | .ok t' => u.ra.build (ensureBasic u t') ext

/-- `ca_ra_utils.py` 4385-4405: the proof and the number. -/
def ccrPopo (env : RaEnv A K S R E C N X G) (m : RMsg A R E C) (r : Req A R E) : Except PyErr Unit :=
  match r.popo with
  | some (.signature _ _) =>
    match verifyPopSig env m 0 with
    | .error e => .error e
    | .ok () =>
      if r.id ≠ 0 then .error .badRequest
      else match isKga env m 0 with
        | .error e => .error e
        | .ok b => if b then .error .badRequest else .ok ()
  | _ => .error .badPOP

/-- `ca_ra_utils.py` 4347-4414, `_process_crr_single`. -/
def ccrOne (u : UpEnv A K S R E C N X G I) (ext : Option X) (m : RMsg A R E C) : Except PyErr C :=
  match getReq m 0 with
  | .error e => .error e
  | .ok r =>
    match ccrKey u.ra r.tmpl with
    | .error e => .error e
    | .ok () =>
      match ccrPopo u.ra m r with
      | .error e => .error e
      | .ok () => ccrIssue u ext r.tmpl

/-- `ca_ra_utils.py` 4418-4485, `build_ccp_from_ccr`, for the key of the CA. -/
def ccpReply (u : UpEnv A K S R E C N X G I) (ext : Option X) (m : RMsg A R E C) : Except PyErr (Resp C E × C) :=
  if m.body ≠ "ccr" then .error .valueError
  else if m.reqs.length ≠ 1 then .error .badRequest
  else match ccrOne u ext m with
    | .error e => .error e
    | .ok c => .ok (mkResp 0 { cert := c }, c)

end Verif.Ra
