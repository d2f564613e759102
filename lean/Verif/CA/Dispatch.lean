import Verif.CA.CertConf
import Verif.CA.KemList
import Verif.CA.RevList
import Verif.CA.Errors

/-!
# The request dispatcher (`CAHandler.process_normal_request`, mock_ca/ca_handler.py 703-797)

The checks the dispatcher makes itself, the certConf handler, the conversion of exceptions to answers, and the
protection of the answers are modelled. The remaining body handlers (certificate requests, revocation, challenges,
nested and general messages) are arbitrary functions on the state, `Handlers`: the theorems hold whatever they
do. Cryptographic verdicts on a message are fields of the message.

The state has two parts: `CaSt`, which the handlers can write, and `cert_state_db` (a `RevState`), of which
nothing in `mock_ca` calls a writer (`add_compromised_key`, `add_rev_entry` and `add_updated_cert` are only called
by unit tests); serving a CRL increments its number.

Simplified: the public keys of a request are loaded before the first one is compared; the indices used up by
stateful signatures are not part of this state (see `Stfl.lean`); the response to a `BodyRelevantError` is
built for the request itself.
-/

namespace Verif.CA

variable {C D R S P : Type}

/-- The state the handlers of the dispatcher can change. -/
structure CaSt (C D R S : Type) where
  sys : Sys C D R := {}
  kems : List (KemEntry S) := []
  cross : List C := []

/-- A request with the verdicts of the cryptographic checks.
`unknownAlg`: `protectionAlg` is set to an OID that `ProtectedType.get_protection_type` does not know (then
`m.prot` is ignored); `inProfile`: its OID is in `alg_profile`; `protection`: the protection field is set;
`stflCheck`: verdict of `validate_pq_stateful_pki_message`; `verdict`, `again`: first and second call of
`validate_protection`; `kemMac`: the KEM-based MAC is valid under a secret; `keys`: the loaded public keys of the
request; `dhKey`: class of the key in the first extra certificate, for the protection of an answer to a DH
protected request. -/
structure DReq (C S P : Type) where
  m : Msg C
  unknownAlg : Bool := false
  inProfile : Bool := true
  protection : Bool := true
  stflCheck : Except PyErr Unit := .ok ()
  verdict : Except PyErr Unit := .ok ()
  again : Except PyErr Unit := .ok ()
  kemMac : S → Bool
  csrKey : Except PyErr (PKey P) := .error .invalidKeyData
  keys : Except PyErr (List (Option (PKey P))) := .ok []
  challenge : Bool := false
  dhKey : Except PyErr Bool := .ok true

/-- `header["protectionAlg"]` as seen by `get_protection_type` (suiteenums.py 220-249). -/
def DReq.alg (q : DReq C S P) : Option (Except PyErr ProtType) :=
  if q.unknownAlg then some (.error .unknownOID) else q.m.prot.map .ok

/-- The body handlers, with the body name of the response they return. `sign` is the outcome of protecting a
response with the CA's signature or MAC key. -/
structure Handlers (C D R S P : Type) where
  challenge : CaSt C D R S → DReq C S P → Int → Res (CaSt C D R S) String
  popdecr : CaSt C D R S → DReq C S P → Int → Res (CaSt C D R S) String
  nested : CaSt C D R S → DReq C S P → Int → Res (CaSt C D R S) String
  certReq : CaSt C D R S → DReq C S P → Int → Res (CaSt C D R S) String
  rr : CaSt C D R S → DReq C S P → Int → Res (CaSt C D R S) String
  genm : CaSt C D R S → DReq C S P → Int → Res (CaSt C D R S) (String × Bool)
  sign : String → Except PyErr Unit := fun _ => .ok ()

/-- `rev_handler.py` 163-190, `is_not_allowed_to_request` (`trusted_rev_certs` is `None`), called if the message
has extra certificates. -/
def checkAllowed [DecidableEq D] (H : C → D) (db : DB C D R) (body : String) (extraCerts : List C) (now : Int) :
    Except PyErr Unit :=
  match extraCerts.head? with
  | none => .ok ()
  | some c =>
    if body ≠ "rr" then
      if db.getCertState H c = .revoked then .error .certRevoked
      else validateIsUpdated H db.updateEntries db.timeout body c false now
    else if db.getCertState H c = .updatedNotConfirmed then .error .badRequest
    else .ok ()

/-- `checkutils.py` 345-358, `check_is_protection_present` with `must_be_protected`. -/
def protPresent (alg protection : Bool) : Except PyErr Unit :=
  if alg = true ∧ protection = true then .ok () else .error .badMessageCheck

/-- `ca_handler.py` 553-580, `verify_protection`. -/
def verifyProtection (st : CaSt C D R S) (q : DReq C S P) : Except PyErr Unit :=
  if q.alg.isSome = true ∧ q.inProfile = false then .error .badAlg
  else match protPresent q.alg.isSome q.protection with
  | .error e => .error e
  | .ok () =>
  match q.stflCheck with
  | .error e => .error e
  | .ok () =>
  match q.alg with
  | none => .error .badMessageCheck
  | some (.error e) => .error e
  | some (.ok .kem) =>
    match q.m.txId with
    | none => .error .pyasn1Error
    | some tx => kemVerify st.kems tx q.m.body q.kemMac
  | some (.ok _) => q.verdict

/-- `except (InvalidKeyData, BadAsn1Data, BadAlg)` of 893, with the subclasses. -/
def PyErr.isKeyLoad : PyErr → Bool
  | .invalidKeyData | .mismatchingKey | .badAsn1Data | .badAlg | .invalidKeyCombination => true
  | _ => false

/-- `ca_handler.py` 882-900, `_check_for_compromised_key`, with `check_request_for_compromised_key`
(mock_fun.py 411-434, see also `RevState.checkCompromised`). -/
def checkKey [DecidableEq P] (keyOf : C → PKey P) (rev : RevState C D) (q : DReq C S P) : Except PyErr Unit :=
  let conv (e : PyErr) : Except PyErr Unit := .error (if e.isKeyLoad then .bodyRelevantError else e)
  if q.m.body = "p10cr" then
    match q.csrKey with
    | .error e => conv e
    | .ok k => if revContainsKey keyOf rev.rev k then .error .badCertTemplate else .ok ()
  else if q.m.body = "ir" ∨ q.m.body = "cr" ∨ q.m.body = "crr" ∨ q.m.body = "kur" then
    match q.keys with
    | .error e => conv e
    | .ok ks => if compromisedLoop keyOf rev.rev ks then .error .badCertTemplate else .ok ()
  else .ok ()

/-- `ca_handler.py` 655-680, `_check_is_not_confirmed`. -/
def checkOpen [DecidableEq C] (s : ConfState C) (q : DReq C S P) : Except PyErr Unit :=
  if q.m.extraCerts = [] then .ok ()
  else match q.alg with
  | none => .ok ()
  | some (.error e) => .error e
  | some (.ok p) =>
    if p = .mac then .ok ()
    else if q.m.body = "certConf" ∨ q.m.body = "error" then .ok ()
    else if q.m.extraCerts.any s.isNotConfirmed then .error .notAuthorized
    else .ok ()

/-- The four checks in the order of 711-726. -/
def preChecks [DecidableEq C] [DecidableEq D] [DecidableEq P] (H : C → D) (keyOf : C → PKey P) (rev : RevState C D)
    (st : CaSt C D R S) (q : DReq C S P) (now : Int) : Except PyErr Unit :=
  match checkAllowed H st.sys.db q.m.body q.m.extraCerts now with
  | .error e => .error e
  | .ok () =>
  match (if q.m.body = "rr" ∨ q.m.body = "genm" then .ok () else verifyProtection st q : Except PyErr Unit) with
  | .error e => .error e
  | .ok () =>
  match (if q.m.body = "ir" ∨ q.m.body = "cr" ∨ q.m.body = "p10cr" ∨ q.m.body = "crr" ∨ q.m.body = "kur"
      ∨ q.m.body = "rr" then checkKey keyOf rev q else .ok () : Except PyErr Unit) with
  | .error e => .error e
  | .ok () =>
    if q.m.body = "certConf" ∨ q.m.body = "error" then .ok () else checkOpen st.sys.conf q

/-- What leaves the `try` block: a finished response, or one to be protected after it. -/
inductive Step where
  | done (body : String)
  | cont (body : String)
  deriving DecidableEq, Repr

/-- `prot_handler.py` 351-494, `protect_pkimessage`: what can fail is the choice of the protection; the
signature and MAC operations are `sign`. -/
def protectAnswer (sign : Except PyErr Unit) (alg : Option (Except PyErr ProtType)) (dhKey : Except PyErr Bool) :
    Except PyErr Unit :=
  match alg with
  | none => sign
  | some (.error e) => .error e
  | some (.ok .dh) =>
    match dhKey with
    | .error e => .error e
    | .ok false => .error .badMessageCheck
    | .ok true => sign
  | some (.ok _) => sign

/-- `ca_handler.py` 869-880, `process_cert_conf`. -/
def caCertConf [DecidableEq C] [DecidableEq D] (H : C → D) (cfg : ConfCfg) (env : ConfEnv C) (st : CaSt C D R S)
    (m : Msg C) (now : Int) : Res (CaSt C D R S) String :=
  match st.sys.processCertConf H cfg env m now with
  | (.error e, s) => (.error e, { st with sys := s })
  | (.ok none, s) => (.ok "pkiconf", { st with sys := s })
  | (.ok (some c), s) => (.ok "pkiconf", { st with sys := s, cross := st.cross ++ [c] })

/-- `ca_handler.py` 750-755: the exceptions of the revocation handler answered with an `rp`. -/
def PyErr.isRrError : PyErr → Bool
  | .badMessageCheck | .badMacProtection | .badSignatureProtection | .badKeyUsage | .bodyRelevantError => true
  | _ => false

/-- Result of a handler, to be protected after the `try` block. -/
def cont (r : Res (CaSt C D R S) String) : Res (CaSt C D R S) Step := (r.1.map .cont, r.2)

/-- `ca_handler.py` 728-771, the choice of the body handler. -/
def dispatch [DecidableEq C] [DecidableEq D] (H : C → D) (cfg : ConfCfg) (env : ConfEnv C)
    (hs : Handlers C D R S P) (st : CaSt C D R S) (q : DReq C S P) (now : Int) : Res (CaSt C D R S) Step :=
  if (q.m.body = "ir" ∨ q.m.body = "cr") ∧ q.challenge = true then
    match hs.challenge st q now with
    | (.error e, st) => (.error e, st)
    | (.ok b, st) => ((protectAnswer (hs.sign b) q.alg q.dhKey).map (fun _ => .done b), st)
  else if q.m.body = "popdecr" then cont (hs.popdecr st q now)
  else if q.m.body = "nested" then
    let r := hs.nested st q now
    (r.1.map .done, r.2)
  else if q.m.body = "ir" ∨ q.m.body = "cr" ∨ q.m.body = "p10cr" ∨ q.m.body = "kur" ∨ q.m.body = "ccr" then
    match q.again with
    | .error e => (.error e, st)
    | .ok () => cont (hs.certReq st q now)
  else if q.m.body = "rr" then
    match hs.rr st q now with
    | (.error e, st) => if e.isRrError then (.ok (.cont "rp"), st) else (.error e, st)
    | (.ok b, st) => (.ok (.cont b), st)
  else if q.m.body = "certConf" then cont (caCertConf H cfg env st q.m now)
  else if q.m.body = "genm" then
    match hs.genm st q now with
    | (.error e, st) => (.error e, st)
    | (.ok (b, false), st) => (.ok (.done b), st)
    | (.ok (b, true), st) => ((protectAnswer (hs.sign b) q.alg q.dhKey).map (fun _ => .done b), st)
  else (.error .notImplemented, st)

/-- What the client gets: a response of the handler, a response of the requested kind with an error status, or
an error message. `systemFailure` stands for the error message of an unexpected exception. -/
inductive Answer where
  | response (body : String)
  | errorStatus (e : PyErr)
  | errorMsg (e : PyErr)
  | systemFailure
  deriving DecidableEq, Repr

/-- Bodies whose `BodyRelevantError` is answered by a response of the requested kind (513-518). -/
def hasBodyError (body : String) : Bool :=
  body = "rr" || body = "ir" || body = "cr" || body = "kur" || body = "ccr" || body = "p10cr"

/-- The algorithm for the protection of an error message (539-549): an absent or unknown one is replaced by
the CA's default. -/
def errorAlg : Option (Except PyErr ProtType) → ProtType
  | some (.ok p) => p
  | _ => .tradSig

/-- `ca_handler.py` 524-551, `build_error_from_exception`. -/
def buildError (sign : String → Except PyErr Unit) (q : DReq C S P) (a : Answer) : Except PyErr Answer :=
  (protectAnswer (sign "error") (some (.ok (errorAlg q.alg))) q.dhKey).map (fun _ => a)

/-- `ca_handler.py` 773-795, the `except` clauses (`_build_body_relevant_error`: 503-522). -/
def onError (sign : String → Except PyErr Unit) (q : DReq C S P) (e : PyErr) : Except PyErr Answer :=
  if e = .bodyRelevantError then
    if hasBodyError q.m.body then (protectAnswer (sign "error") q.alg q.dhKey).map (fun _ => .errorStatus e)
    else buildError sign q (.errorMsg e)
  else if e.isCmp then buildError sign q (.errorMsg e)
  else if e.isInvalidSig then buildError sign q (.errorMsg .badMessageCheck)
  else buildError sign q .systemFailure

/-- `ca_handler.py` 703-797, `process_normal_request`. An `.error` result leaves the function as an exception. -/
def process [DecidableEq C] [DecidableEq D] [DecidableEq P] (H : C → D) (keyOf : C → PKey P) (cfg : ConfCfg)
    (env : ConfEnv C) (hs : Handlers C D R S P) (rev : RevState C D) (st : CaSt C D R S) (q : DReq C S P)
    (now : Int) : Res (CaSt C D R S) Answer :=
  match preChecks H keyOf rev st q now with
  | .error e => (onError hs.sign q e, st)
  | .ok () =>
    match dispatch H cfg env hs st q now with
    | (.error e, st) => (onError hs.sign q e, st)
    | (.ok (.done b), st) => (.ok (.response b), st)
    | (.ok (.cont b), st) =>
      if q.alg = some (.ok .kem) then
        match q.m.txId with
        | none => (.error .pyasn1Error, st)
        | some tx =>
          ((protectAnswer (hs.sign b) q.alg q.dhKey).map (fun _ => .response b),
            { st with kems := kemMayUpdate st.kems tx true })
      else ((protectAnswer (hs.sign b) q.alg q.dhKey).map (fun _ => .response b), st)

/-! ## The server: requests and CRL downloads -/

/-- Both parts of the state. -/
structure Server (C D R S : Type) where
  ca : CaSt C D R S := {}
  rev : RevState C D := {}

/-- Requests to the HTTP server: `/issuing` and `/crl` (ca_handler.py 1391-1399, 1483-1487, 1530-1550). -/
inductive SrvOp (C S P : Type) where
  | request (q : DReq C S P) (now : Int)
  | crl (buildOk : Bool)

/-- What the server returns. -/
inductive SrvOut where
  | answer (a : Except PyErr Answer)
  | crl (c : Except PyErr (Int × List Int))

/-- Execute one request. -/
def Server.step [DecidableEq C] [DecidableEq D] [DecidableEq P] (H : C → D) (keyOf : C → PKey P) (serial : C → Int)
    (cfg : ConfCfg) (env : ConfEnv C) (hs : Handlers C D R S P) (s : Server C D R S) :
    SrvOp C S P → SrvOut × Server C D R S
  | .request q now =>
    let r := process H keyOf cfg env hs s.rev s.ca q now
    (.answer r.1, { s with ca := r.2 })
  | .crl ok =>
    let r := s.rev.crlResponse serial ok
    (.crl r.1, { s with rev := r.2 })

/-- Execute a history. -/
def Server.run [DecidableEq C] [DecidableEq D] [DecidableEq P] (H : C → D) (keyOf : C → PKey P) (serial : C → Int)
    (cfg : ConfCfg) (env : ConfEnv C) (hs : Handlers C D R S P) (s : Server C D R S) :
    List (SrvOp C S P) → List SrvOut × Server C D R S
  | [] => ([], s)
  | op :: ops =>
    let r := s.step H keyOf serial cfg env hs op
    let rest := Server.run H keyOf serial cfg env hs r.2 ops
    (r.1 :: rest.1, rest.2)

end Verif.CA
