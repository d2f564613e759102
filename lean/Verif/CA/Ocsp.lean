import Verif.CA.RevList

/-!
# The OCSP responses of the mock CA

Model of `resources/certutils.py` 1667-1769 (`build_ocsp_response`), of the part of `mock_ca/mock_fun.py` 319-357
(`get_ocsp_response`) which calls it, and of `mock_ca/ca_handler.py` 1378-1391 (`process_ocsp_request`).

* The checks of `OCSPResponseBuilder` of the library are written down as `addResponse` and `signWith`; encoding and the
  signature itself are not modelled, the response is the list of its fields.
* The conversion of the certificates for the library is assumed to succeed.
* Times are seconds; `now` is one reading of the clock.
-/

namespace Verif.CA.Ocsp

open Verif.CA

variable {C D R : Type}

/-- `ocsp.OCSPCertStatus`. -/
inductive CertStatus where
  | good | revoked | unknown
  deriving DecidableEq, Repr

/-- The key which signs, as the library distinguishes it. -/
inductive KeyKind where
  /-- Ed25519 and Ed448 -/
  | edwards
  /-- RSA, DSA and elliptic curves -/
  | hashed
  /-- a key which the library does not know -/
  | other
  deriving DecidableEq, Repr

/-- The fields of the response. -/
structure Resp (C : Type) where
  cert : C
  /-- the hash function of the `CertID` -/
  idHash : String
  /-- the certificate whose name and key are hashed in the `CertID` -/
  issuer : C
  status : CertStatus
  reason : Option String
  revokedAt : Option Int
  thisUpdate : Int
  responder : C
  byKey : Bool
  nonce : Option (List UInt8)
  /-- the hash function of the signature -/
  sigHash : Option String
  deriving DecidableEq

/-- `certutils.py` 1667-1677, `_get_cert_status`. -/
def certStatus : Option String → Except PyErr CertStatus
  | none => .ok .unknown
  | some s =>
    if s = "good" then .ok .good
    else if s = "revoked" then .ok .revoked
    else if s = "unknown" then .ok .unknown
    else .error .valueError

/-- The values of `x509.ReasonFlags`. -/
def reasons : List String :=
  ["unspecified", "keyCompromise", "cACompromise", "affiliationChanged", "superseded", "cessationOfOperation",
   "certificateHold", "privilegeWithdrawn", "aACompromise", "removeFromCRL"]

/-- `certutils.py` 1680-1684, `_get_reason_flags`. -/
def reasonOf : Option String → Except PyErr (Option String)
  | none => .ok none
  | some r => if r ∈ reasons then .ok (some r) else .error .valueError

/-- `oid_mapping.py` 183-185, `hash_name_to_instance` for the functions which the library allows in a `CertID`. -/
def hashOf (n : String) : Except PyErr String :=
  if n ∈ ["sha1", "sha224", "sha256", "sha384", "sha512"] then .ok n else .error .valueError

/-- The checks of `OCSPResponseBuilder.add_response`: a time and a reason only for a revoked certificate, and then a time. -/
def addResponse (st : CertStatus) (reason : Option String) (t : Option Int) : Except PyErr Unit :=
  if st = .revoked then (if t.isNone then .error .typeError else .ok ())
  else if t.isSome ∨ reason.isSome then .error .valueError
  else .ok ()

/-- `certutils.py` 1760-1769 and `OCSPResponseBuilder.sign`: the hash function of the signature. -/
def signWith (k : KeyKind) (h : Option String) : Except PyErr (Option String) :=
  match k with
  | .edwards => .ok none
  | .other => .error .typeError
  | .hashed =>
    match h with
    | none => .error .typeError
    | some n => .ok (some n)

/-- `certutils.py` 1760-1763. -/
def optHash : Option String → Except PyErr (Option String)
  | none => .ok none
  | some n => (hashOf n).map some

/-- The arguments of `build_ocsp_response` (1691-1704). -/
structure Args (C : Type) where
  cert : C
  ca : C
  key : KeyKind
  status : Option String
  hash : Option String
  reason : Option String
  responder : Option C
  idHash : String
  revokedAt : Option Int
  thisUpdate : Option Int
  byKey : Bool
  nonce : Option (List UInt8)

/-- `certutils.py` 1731-1733: the time of the revocation. -/
def revTime (st : CertStatus) (t : Option Int) (now : Int) : Option Int :=
  if st = .revoked ∧ t.isNone then some (now - 30) else t

/-- `certutils.py` 1691-1769, `build_ocsp_response`. -/
def build (a : Args C) (now : Int) : Except PyErr (Resp C) :=
  match hashOf a.idHash with
  | .error e => .error e
  | .ok idh =>
    match certStatus a.status with
    | .error e => .error e
    | .ok st =>
      match reasonOf a.reason with
      | .error e => .error e
      | .ok rs =>
        match addResponse st rs (revTime st a.revokedAt now) with
        | .error e => .error e
        | .ok () =>
          match optHash a.hash with
          | .error e => .error e
          | .ok h =>
            match signWith a.key h with
            | .error e => .error e
            | .ok sh =>
              .ok ⟨a.cert, idh, a.ca, st, rs, revTime st a.revokedAt now, a.thisUpdate.getD now, a.responder.getD a.ca,
                a.byKey, a.nonce, sh⟩

/-- `ocsp.OCSPRequest`: the fields of the `CertID` and the nonce. -/
structure Req where
  serial : Int
  hash : String
  issuerNameHash : List UInt8
  issuerKeyHash : List UInt8
  nonce : Option (List UInt8)

/-- The answers. -/
inductive Answer (C : Type) where
  | malformed
  | unauthorized
  | response (r : Resp C)
  deriving DecidableEq

/-- The text of the status (`mock_fun.py` 305-314). -/
def statusText : OcspStatus → String
  | .unauthorized => "unauthorized"
  | .revoked => "revoked"
  | .good => "good"

/-- `mock_fun.py` 340-357: the response about a certificate which was found. -/
def respond (ca : C) (key : KeyKind) (q : Req) (c : C) (st : OcspStatus) (now : Int) : Except PyErr (Answer C) :=
  (build ⟨c, ca, key, some (statusText st), some q.hash, none, none, q.hash,
    if st = .revoked then some (now - 60) else none, none, true, q.nonce⟩ now).map .response

/-- `mock_fun.py` 1289-1318 with 319-357, `get_ocsp_response`. -/
def answer (H : C → D) (serial : C → Int) (db : DB C D R) (crlNumber : Int) (add : List C) (ca : C) (key : KeyKind)
    (q : Req) (now : Int) : Except PyErr (Answer C) :=
  match db.ocspResponse H serial crlNumber add q.serial with
  | .error e => .error e
  | .ok .unauthorized => .ok .unauthorized
  | .ok (.status c st) => respond ca key q c st now

/-- `ca_handler.py` 1378-1391, `process_ocsp_request`; `load` is the reading of the request by the library. -/
def process (load : List UInt8 → Option Req) (H : C → D) (serial : C → Int) (db : DB C D R) (crlNumber : Int)
    (own : List C) (ca : C) (key : KeyKind) (data : List UInt8) (now : Int) : Except PyErr (Answer C) :=
  match load data with
  | none => .ok .malformed
  | some q => answer H serial db crlNumber own ca key q now

end Verif.CA.Ocsp
