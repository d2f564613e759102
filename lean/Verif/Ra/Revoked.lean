import Verif.Check.Chain

/-!
# Revocation checks of the client: OCSP, CRLs, and the signer of a CRL

Model of `resources/certutils.py`:

* `get_ocsp_url_from_cert` (1416-1442), `create_ocsp_request` (1446-1476), `check_ocsp_response` (1493-1526),
  `_post_ocsp_request` (1529-1563), `_handel_single_ocsp_request` (1566-1594), `check_ocsp_response_for_cert` (1598-1664);
* `_extract_crl_urls_from_cert_pyasn1` (1772-1792), `_parse_crl_and_check_revocation` (1795-1819),
  `process_single_crl_check` (1823-1846), `check_if_cert_is_revoked_crl` (1850-1901);
* `validate_if_certificate_is_revoked` (1905-2002);
* `find_crl_signer_cert` (1311-1357), `build_crl_chain_from_list` (1361-1399).

External (parameters of `RevEnv`): the HTTP exchange, the file system, the parsers of OCSP responses and of CRLs, the
conversion of certificates to the library's class and the building of the request. Simplified: a parsed extension is
given as the list of its entries; timeouts are not modelled; `OSError` and `ExtensionNotFound` are `PyErr.exception`;
the message of a `ValueError` is kept only as far as `validate_if_certificate_is_revoked` reads it (which state it
names), so an address containing the text "`revoked`" in back quotes is not covered.
-/

namespace Verif.Ra.Revoked

open Verif.CA

/-- The three states of an OCSP answer, as `check_ocsp_response` names them (1512-1517). -/
inductive OcspState
  | good | revoked | unknown
deriving DecidableEq, Repr

/-- The text the code uses for a state (1513, 1515, 1517). -/
def OcspState.text : OcspState → String
  | .good => "good"
  | .revoked => "revoked"
  | .unknown => "unknown"

/-- A parsed OCSP response. The code reads only `successful` and `state`; the other fields are what RFC 6960 section 3.2
asks the client to check: the serial number the answer is about and whether the signature is the responder's. -/
structure OcspResp where
  successful : Bool
  state : OcspState
  serial : Int
  signatureValid : Bool
deriving DecidableEq, Repr

/-- A parsed CRL. The code reads only `serials`; the others are the CRL's issuer and whether its signature and its dates
are in order. -/
structure CrlData where
  serials : List Int
  issuer : String
  genuine : Bool
deriving DecidableEq, Repr

/-- What is read of a certificate. `aia`: the AuthorityInfoAccess entries (method, and the URI unless the location is
another kind of name), `none` if the extension is absent; `crlDps`: the CRL distribution points, for each the names in
`fullName` (empty if it has no such value), each `some` for a URI. -/
structure RevCert where
  serial : Int
  issuer : String
  aia : Option (List (String × Option String)) := none
  crlDps : Option (List (List (Option String))) := none
deriving DecidableEq, Repr

/-- External operations. `post` fails with `none` (`RequestException`), otherwise gives status code and body. -/
structure RevEnv where
  convert : RevCert → Except PyErr Unit := fun _ => .ok ()
  buildReq : Except PyErr Bytes := .ok []
  post : String → Option (Nat × Bytes)
  loadOcsp : Bytes → Except PyErr OcspResp
  get : String → Except PyErr Bytes
  read : String → Except PyErr Bytes
  loadDer : Bytes → Option CrlData
  loadPem : Bytes → Option CrlData

/-- An exception of the OCSP check: a `ValueError` whose message names the answer's state (1526), or another one. -/
inductive OcspErr
  | state (s : OcspState)
  | py (e : PyErr)
deriving DecidableEq, Repr

/-- `AuthorityInformationAccessOID.OCSP`. -/
def ocspMethod : String := "1.3.6.1.5.5.7.48.1"

/-- The loop of `get_ocsp_url_from_cert` (1431-1440). -/
def ocspUrlsOf : List (String × Option String) → Except PyErr (List String)
  | [] => .ok []
  | (m, loc) :: es =>
    if m = ocspMethod then
      match loc with
      | none => .error .notImplemented
      | some u =>
        match ocspUrlsOf es with
        | .error e => .error e
        | .ok us => .ok (u :: us)
    else ocspUrlsOf es

/-- `certutils.py` 1416-1442, `get_ocsp_url_from_cert`. -/
def getOcspUrls (c : RevCert) : Except PyErr (List String) :=
  match c.aia with
  | none => .ok []
  | some es => ocspUrlsOf es

/-- `certutils.py` 1446-1476, `create_ocsp_request`: the request and the addresses found. -/
def createOcspReq (env : RevEnv) (cert issuer : RevCert) (must : Bool) : Except PyErr (Bytes × List String) :=
  match env.convert issuer with
  | .error e => .error e
  | .ok () =>
    match env.convert cert with
    | .error e => .error e
    | .ok () =>
      match getOcspUrls cert with
      | .error e => .error e
      | .ok urls =>
        if urls.isEmpty && must then .error .exception
        else match env.buildReq with
          | .error e => .error e
          | .ok b => .ok (b, urls)

/-- `certutils.py` 1493-1526, `check_ocsp_response`. -/
def checkOcspResp (r : OcspResp) (expected : String) (allowUnknown : Bool) : Except OcspErr Unit :=
  if !r.successful then .error (.py .valueError)
  else if r.state = .unknown && allowUnknown then .ok ()
  else if r.state.text ≠ expected then .error (.state r.state)
  else .ok ()

/-- `certutils.py` 1529-1563, `_post_ocsp_request`; `none` is the value `None`. -/
def postOcsp (env : RevEnv) (url : String) (allowFail : Bool) : Except PyErr (Option Bytes) :=
  match env.post url with
  | none => if allowFail then .ok none else .error .valueError
  | some (code, body) =>
    if code ≠ 200 && !allowFail then .error .valueError
    else if code ≠ 200 && allowFail then .ok none
    else .ok (some body)

/-- `certutils.py` 1566-1594, `_handel_single_ocsp_request`. -/
def singleOcsp (env : RevEnv) (url : String) (expected : String) (allowFail allowUnknown : Bool) :
    Except OcspErr Unit :=
  match postOcsp env url allowFail with
  | .error e => .error (.py e)
  | .ok none => .ok ()
  | .ok (some body) =>
    match env.loadOcsp body with
    | .error e => .error (.py e)
    | .ok r => checkOcspResp r expected allowUnknown

/-- The loop of `check_ocsp_response_for_cert` (1655-1664). -/
def allOcsp (env : RevEnv) (expected : String) (allowFail allowUnknown : Bool) : List String → Except OcspErr Unit
  | [] => .ok ()
  | u :: us =>
    match singleOcsp env u expected allowFail allowUnknown with
    | .error e => .error e
    | .ok () => allOcsp env expected allowFail allowUnknown us

/-- The addresses that are asked (1649-1652). -/
def ocspTargets (url : Option String) (found : List String) : List String :=
  match url with
  | some u => [u]
  | none => found

/-- `certutils.py` 1598-1664, `check_ocsp_response_for_cert`. -/
def checkOcsp (env : RevEnv) (cert issuer : RevCert) (url : Option String := none) (expected : String := "revoked")
    (allowFail : Bool := false) (must : Option Bool := none) (allowUnknown : Bool := false) : Except OcspErr Unit :=
  if expected ∉ ["good", "revoked", "unknown"] then .error (.py .valueError)
  else match createOcspReq env cert issuer (must.getD url.isSome) with
    | .error e => .error (.py e)
    | .ok (_, found) => allOcsp env expected allowFail allowUnknown (ocspTargets url found)

/-- `certutils.py` 1772-1792, `_extract_crl_urls_from_cert_pyasn1`. -/
def crlUrls (c : RevCert) : List String :=
  match c.crlDps with
  | none => []
  | some dps => dps.flatMap (fun names => names.filterMap id)

/-- `certutils.py` 1795-1819, `_parse_crl_and_check_revocation`. -/
def parseCrl (env : RevEnv) (data : Bytes) (serial : Int) : Except PyErr Bool :=
  match env.loadDer data with
  | some crl => .ok (crl.serials.any (fun s => s = serial))
  | none =>
    match env.loadPem data with
    | some crl => .ok (crl.serials.any (fun s => s = serial))
    | none => .error .exception

/-- Truth value of an optional text: neither `None` nor empty. -/
def given (s : Option String) : Option String := s.filter (fun t => t ≠ "")

/-- `certutils.py` 1823-1846, `process_single_crl_check`. -/
def singleCrl (env : RevEnv) (serial : Int) (url file : Option String) : Except PyErr Bool :=
  match given url with
  | some u =>
    match env.get u with
    | .error e => .error e
    | .ok d => parseCrl env d serial
  | none =>
    match given file with
    | some f =>
      match env.read f with
      | .error e => .error e
      | .ok d => parseCrl env d serial
    | none => .error .valueError

/-- The loop of `check_if_cert_is_revoked_crl` (1892-1895); `acc` is `result`. -/
def crlLoop (env : RevEnv) (serial : Int) (acc : Option Bool) : List String → Except PyErr (Option Bool)
  | [] => .ok acc
  | u :: us =>
    match singleCrl env serial (some u) none with
    | .error e => .error e
    | .ok true => .ok (some true)
    | .ok false => crlLoop env serial (some false) us

/-- The `result` of `check_if_cert_is_revoked_crl` (1884-1895). -/
def crlResult (env : RevEnv) (cert : RevCert) (url file : Option String) : Except PyErr (Option Bool) :=
  if (given url).isSome || (given file).isSome then
    match singleCrl env cert.serial url file with
    | .error e => .error e
    | .ok b => .ok (some b)
  else crlLoop env cert.serial none (crlUrls cert)

/-- `certutils.py` 1850-1901, `check_if_cert_is_revoked_crl`. -/
def checkCrl (env : RevEnv) (cert : RevCert) (url : Option String := none) (file : Option String := none)
    (allowNoUrls : Bool := false) : Except PyErr Unit :=
  match crlResult env cert url file with
  | .error e => .error e
  | .ok r =>
    if r = some true then .error .certRevoked
    else if r = none && !allowNoUrls then .error .valueError
    else .ok ()

/-- Options of `validate_if_certificate_is_revoked` (1905-1917). -/
structure RevOpts where
  ocspUrl : Option String := none
  crlUrl : Option String := none
  crlFile : Option String := none
  allowFail : Bool := false
  allowUnknown : Bool := false
  allowNoUrls : Bool := false
  expectRevoked : Bool := false
deriving DecidableEq, Repr

/-- The translation of the OCSP check's exceptions (1975-1978). The expected status is `good`, so the message contains
the text `revoked` or `unknown` in back quotes exactly if the answer's state is that. -/
def ocspToPy : OcspErr → PyErr
  | .state .good => .valueError
  | .state .revoked => .certRevoked
  | .state .unknown => .certRevoked
  | .py e => e

/-- The OCSP part of the `try` block (1964-1981). -/
def ocspPart (env : RevEnv) (cert : RevCert) (ca : Option RevCert) (o : RevOpts) : Except PyErr Unit :=
  match ca with
  | none => .ok ()
  | some i =>
    match checkOcsp env cert i o.ocspUrl "good" o.allowFail none o.allowUnknown with
    | .ok () => .ok ()
    | .error e => .error (ocspToPy e)

/-- The `try` block (1963-1994). -/
def revocationBody (env : RevEnv) (cert : RevCert) (ca : Option RevCert) (o : RevOpts) : Except PyErr Unit :=
  match ocspPart env cert ca o with
  | .error e => .error e
  | .ok () => checkCrl env cert o.crlUrl o.crlFile o.allowNoUrls

/-- The treatment of the outcome of the `try` block (1995-2002). -/
def revocationEnd (expect : Bool) : Except PyErr Unit → Except PyErr Unit
  | .error e => if e = .certRevoked ∧ expect = true then .ok () else .error e
  | .ok () => if expect then .error .valueError else .ok ()

/-- `certutils.py` 1905-2002, `validate_if_certificate_is_revoked`. -/
def validateRevoked (env : RevEnv) (cert : RevCert) (ca : Option RevCert) (o : RevOpts) : Except PyErr Unit :=
  if ca = none ∧ o.ocspUrl ≠ none then .error .valueError
  else revocationEnd o.expectRevoked (revocationBody env cert ca o)

section Signer

variable {C N K : Type}

/-- A CRL for which a signer is sought, with the operations on it. `sameName`: `compare_pyasn1_names` in the mode
`without_tag`; `hash`: `get_hash_from_oid` with `only_hash`; `verify`: `verify_signature_with_cert`. -/
structure CrlEnv (C : Type) where
  sameName : C → Bool
  hash : Except PyErr (Option String) := .ok none
  verify : Option String → C → Except PyErr Unit

/-- `except (ValueError, InvalidSignature)` (1354). -/
def skipSigner : PyErr → Bool
  | .valueError | .invalidSignature => true
  | _ => false

/-- The loop of `find_crl_signer_cert` (1347-1357). -/
def signerLoop (env : CrlEnv C) (h : Option String) : List C → Except PyErr C
  | [] => .error .valueError
  | c :: cs =>
    if env.sameName c then
      match env.verify h c with
      | .ok () => .ok c
      | .error e => if skipSigner e then signerLoop env h cs else .error e
    else signerLoop env h cs

/-- `certutils.py` 1311-1357, `find_crl_signer_cert`; `dir` is the result of `load_certificates_from_dir`. -/
def findCrlSigner (env : CrlEnv C) (certs : List C) (dir : Except PyErr (List C)) : Except PyErr C :=
  match (if certs.isEmpty then dir else .ok certs) with
  | .error e => .error e
  | .ok cs =>
    match env.hash with
    | .error e => .error e
    | .ok h => signerLoop env h cs

/-- `certutils.py` 1361-1399, `build_crl_chain_from_list` without the CRL at the front of its result, together with the
value of the caller's list afterwards: `certs.extend` (1394) changes it in place unless it was absent or empty, in which
case a new list is used. `store` is the result of `load_truststore`, `dir` of the default directory of
`find_crl_signer_cert`. -/
def buildCrlChain [DecidableEq N] (env : CrlEnv C) (chain : Check.ChainEnv C N K) (certs : List C)
    (dirGiven : Bool) (store dir : Except PyErr (List C)) : Except PyErr (List C) × List C :=
  if certs.isEmpty && !dirGiven then (.error .valueError, certs)
  else match store with
    | .error e => (.error e, certs)
    | .ok s =>
      let all := certs ++ s
      let left := if certs.isEmpty then certs else all
      match findCrlSigner env all dir with
      | .error e => (.error e, left)
      | .ok c => (Check.buildChain chain c all, left)

end Signer

end Verif.Ra.Revoked
