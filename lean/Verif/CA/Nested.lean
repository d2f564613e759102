import Verif.CA.Dispatch
import Verif.Check.Header

/-!
# Nested messages (mock_ca/nested_handler.py) and the frame of certificate requests

`CertReqHandler.process_cert_request` (mock_ca/cert_req_handler.py 658-711) is modelled up to the issuing
functions (`process_ir` and the like), which are an arbitrary function `issue` on the state. The verdicts of the
checks that only look at the message are fields of the message. The CA builds the `NestedHandler` with
`allow_inner_unprotected=True` (ca_handler.py 430-434) and never sets `check_sender`.

Simplified: protecting a response does not fail; the indices of stateful signatures are not part of the state
(see `Stfl.lean`).
-/

namespace Verif.CA

open Verif.Check (Hdr Inner validateNestedUnique validateAddProtection validateWrongIntegrity)

variable {C D R S P : Type}

/-- A request with the remaining verdicts: `hdrOk`: `validate_header` apart from the presence of the protection
and the integrity check; `sameKey`: `check_same_key_cert_request`; `orig`: `validate_orig_pkimessage`; `ids`:
`validate_cert_req_id_nums`; `nestedSig`: trust anchor and signature check of `verify_nested_protection`. The
verdict of `validate_protection` is `verdict`. -/
structure NReq (C S P : Type) extends DReq C S P where
  hdrOk : Except PyErr Unit := .ok ()
  sameKey : Except PyErr Unit := .ok ()
  orig : Except PyErr Unit := .ok ()
  ids : Except PyErr Unit := .ok ()
  nestedSig : Except PyErr Unit := .ok ()

/-- The protection algorithm as `validateWrongIntegrity` takes it. -/
def DReq.prot? (q : DReq C S P) : Option (Option ProtType) :=
  if q.unknownAlg then some none else q.m.prot.map some

/-- The issuing functions: state after, and body of the response. -/
abbrev Issue (C D R S P : Type) := CaSt C D R S → NReq C S P → Int → Res (CaSt C D R S) String

/-- A response: the transaction it belongs to and its body. -/
structure Resp where
  tx : Option Bytes
  body : String
  deriving DecidableEq, Repr

/-- `checkutils.py` 345-358, `check_is_protection_present`. -/
def presenceCheck (alg protection must : Bool) : Except PyErr Unit :=
  if alg = false ∧ protection = false then (if must then .error .badMessageCheck else .ok ())
  else if alg = true ∧ protection = true then .ok ()
  else .error .badMessageCheck

/-- `cert_req_handler.py` 582-617, `validate_header`. -/
def validateHeader (q : NReq C S P) (must : Bool) : Except PyErr Unit :=
  match q.hdrOk with
  | .error e => .error e
  | .ok () =>
  match presenceCheck q.alg.isSome q.protection must with
  | .error e => .error e
  | .ok () => validateWrongIntegrity q.m.body q.prot?

/-- `cert_req_handler.py` 645-656, `check_cert_is_updated`. -/
def checkUpdated [DecidableEq D] (H : C → D) (db : DB C D R) (q : NReq C S P) (now : Int) : Except PyErr Unit :=
  match q.m.extraCerts.head? with
  | none => .ok ()
  | some c => validateIsUpdated H db.updateEntries db.timeout q.m.body c (decide (q.m.body ≠ "kur")) now

/-- The `try` block of `process_cert_request` (681-702). -/
def requestBody [DecidableEq D] (H : C → D) (issue : Issue C D R S P) (st : CaSt C D R S) (q : NReq C S P)
    (now : Int) : Res (CaSt C D R S) String :=
  match validateWrongIntegrity q.m.body q.prot? with
  | .error e => (.error e, st)
  | .ok () =>
  match q.sameKey with
  | .error e => (.error e, st)
  | .ok () =>
  match checkUpdated H st.sys.db q now with
  | .error e => (.error e, st)
  | .ok () =>
  match q.orig with
  | .error e => (.error e, st)
  | .ok () =>
  match q.ids with
  | .error e => (.error e, st)
  | .ok () => issue st q now

/-- Body of the response to a request that is answered with a rejection (`build_unsuccessful_ca_cert_response`). -/
def respBody (body : String) : String :=
  if body = "ir" then "ip" else if body = "kur" then "kup" else if body = "ccr" then "ccp" else "cp"

/-- `cert_req_handler.py` 658-711, `process_cert_request`: the flag says whether the response grants. -/
def processCertRequest [DecidableEq D] (H : C → D) (issue : Issue C D R S P) (st : CaSt C D R S) (q : NReq C S P)
    (must : Bool) (now : Int) : Res (CaSt C D R S) (String × Bool) :=
  match validateHeader q must with
  | .error e => (.error e, st)
  | .ok () =>
    if q.m.body ∉ ["ir", "cr", "p10cr", "kur", "ccr"] then (.error .notImplemented, st)
    else match requestBody H issue st q now with
    | (.ok b, st) => (.ok (b, true), st)
    | (.error e, st) =>
      if e = .transactionIdInUse then (.ok ("error", false), st)
      else if e.isCmp then (.ok (respBody q.m.body, false), st)
      else (.error e, st)

/-! ## `ProtectionHandler` on inner messages -/

/-- `prot_handler.py` 894-923, `check_correct_prot_type` with `must_be_protected=False`; `get_protection_type`
on an unset algorithm raises `ValueError` (suiteenums.py 244-247). -/
def checkProtType (q : NReq C S P) : Except PyErr Unit :=
  if q.m.body ∉ ["rr", "kur", "ccr"] ∧ q.alg.isSome = false then .ok ()
  else match q.alg with
  | none => .error .valueError
  | some (.error e) => .error e
  | some (.ok p) => if p = .mac ∧ q.m.body ∈ ["rr", "kur", "ccr"] then .error .wrongIntegrity else .ok ()

/-- `prot_handler.py` 707-756, `validate_protection`. -/
def validateProt (q : NReq C S P) : Except PyErr Unit :=
  match q.alg with
  | none => .error .badMessageCheck
  | some (.error e) => .error e
  | some (.ok _) =>
    match validateWrongIntegrity q.m.body q.prot? with
    | .error e => .error e
    | .ok () => q.verdict

/-- `prot_handler.py` 863-892, `verify_added_protection`. -/
def verifyAdded (outer inner : NReq C S P) : Except PyErr Unit :=
  match checkProtType inner with
  | .error e => .error e
  | .ok () =>
  match (if inner.m.body ∈ ["rr", "kur", "ccr"] ∨ inner.alg.isSome = true then validateProt inner else .ok () :
      Except PyErr Unit) with
  | .error e => .error e
  | .ok () => outer.orig

/-- `prot_handler.py` 925-981, `verify_inner_batch_pkimessage` (an error of another class than `BadMessageCheck`
is rethrown as `CMPTestSuiteError` with the same failinfo; the model keeps it). -/
def verifyInner (q : NReq C S P) : Except PyErr Unit :=
  match checkProtType q with
  | .error e => .error e
  | .ok () =>
    if q.alg.isSome = true then
      match validateProt q with
      | .error e => if e.isBadMessageCheck then .error .badMessageCheck else .error e
      | .ok () => .ok ()
    else .ok ()

/-! ## `NestedHandler` -/

/-- The header fields of a message. -/
def hdrOf (m : Msg C) : Hdr := { txId := m.txId, senderNonce := m.senderNonce, recipNonce := m.recipNonce, sender := m.sender }

/-- A message as an inner message. -/
def innerOf (q : NReq C S P) : Inner := { hdr := hdrOf q.m, body := q.m.body }

/-- `nested_handler.py` 72-119, `_process_added_protection_request`; `inner` are the messages in the body. -/
def processAdded [DecidableEq C] [DecidableEq D] (H : C → D) (cfg : ConfCfg) (env : ConfEnv C) (issue : Issue C D R S P)
    (st : CaSt C D R S) (outer : NReq C S P) (inner : List (NReq C S P)) (now : Int) : Res (CaSt C D R S) Resp :=
  match validateAddProtection (hdrOf outer.m) (some (inner.map innerOf)) true with
  | .error e => (.error e, st)
  | .ok () =>
  match inner with
  | [] => (.error .badRequest, st)
  | q :: _ =>
  match presenceCheck q.alg.isSome q.protection false with
  | .error e => (.error e, st)
  | .ok () =>
  match verifyAdded outer q with
  | .error e => (.error e, st)
  | .ok () =>
    if q.m.body ∈ ["ir", "cr", "p10cr", "kur", "ccr"] then
      match processCertRequest H issue st q false now with
      | (.error e, st) => (.error e, st)
      | (.ok (b, _), st) => (.ok ⟨q.m.txId, b⟩, st)
    else if q.m.body = "certConf" then
      match caCertConf H cfg env st q.m now with
      | (.error e, st) => (.error e, st)
      | (.ok b, st) => (.ok ⟨q.m.txId, b⟩, st)
    else (.error .badRequest, st)

/-- An element of a nested body: the message, and the messages in its own nested body. -/
structure BEntry (C S P : Type) where
  msg : NReq C S P
  inner : List (NReq C S P) := []

/-- One turn of the loop of `process_batched_request` (245-314). -/
def batchEntry [DecidableEq C] [DecidableEq D] (H : C → D) (cfg : ConfCfg) (env : ConfEnv C) (issue : Issue C D R S P)
    (st : CaSt C D R S) (e : BEntry C S P) (now : Int) : Res (CaSt C D R S) Resp :=
  let q := e.msg
  if q.m.body = "nested" then
    if e.inner.length ≠ 1 then (.error .badRequest, st)
    else processAdded H cfg env issue st q e.inner now
  else if q.m.body = "certConf" then
    match caCertConf H cfg env st q.m now with
    | (.error x, st) => (.error x, st)
    | (.ok b, st) => (.ok ⟨q.m.txId, b⟩, st)
  else
    match presenceCheck q.alg.isSome q.protection false with
    | .error x => (.error x, st)
    | .ok () =>
    match verifyInner q with
    | .error x => (.error x, st)
    | .ok () =>
      if q.m.body ∈ ["cr", "ir", "p10cr", "kur", "ccr"] then
        match processCertRequest H issue st q false now with
        | (.error x, st) => (.error x, st)
        | (.ok (b, _), st) => (.ok ⟨q.m.txId, b⟩, st)
      else (.error .notImplemented, st)

/-- The loop of `process_batched_request`. -/
def batchLoop [DecidableEq C] [DecidableEq D] (H : C → D) (cfg : ConfCfg) (env : ConfEnv C) (issue : Issue C D R S P)
    (now : Int) : List (BEntry C S P) → CaSt C D R S → Res (CaSt C D R S) (List Resp)
  | [], st => (.ok [], st)
  | e :: es, st =>
    match batchEntry H cfg env issue st e now with
    | (.error x, st) => (.error x, st)
    | (.ok r, st) =>
      match batchLoop H cfg env issue now es st with
      | (.error x, st) => (.error x, st)
      | (.ok rs, st) => (.ok (r :: rs), st)

/-- `nested_handler.py` 214-233, `_check_nonces`. -/
def checkNonces (outer : NReq C S P) (es : List (BEntry C S P)) : Except PyErr Unit :=
  match validateNestedUnique (hdrOf outer.m) outer.m.body (es.map (fun e => innerOf e.msg)) true true false true with
  | .error e => .error e
  | .ok () =>
    if es.any (fun e => decide (e.msg.m.body = "certConf")) = true then
      if es.all (fun e => decide (e.msg.m.body = "certConf")) = true then .ok () else .error .badRequest
    else if outer.m.recipNonce.isSome = true then .error .badRecipientNonce
    else .ok ()

/-- `nested_handler.py` 235-323, `process_batched_request`. -/
def processBatched [DecidableEq C] [DecidableEq D] (H : C → D) (cfg : ConfCfg) (env : ConfEnv C)
    (issue : Issue C D R S P) (st : CaSt C D R S) (outer : NReq C S P) (es : List (BEntry C S P)) (now : Int) :
    Res (CaSt C D R S) (List Resp) :=
  match checkNonces outer es with
  | .error e => (.error e, st)
  | .ok () => batchLoop H cfg env issue now es st

/-- `prot_handler.py` 983-1024, `verify_nested_protection`. -/
def verifyNested (outer : NReq C S P) (n : Nat) : Except PyErr Unit :=
  match outer.alg with
  | none => .error .valueError
  | some (.error e) => .error e
  | some (.ok p) =>
    if p = .mac then .error .wrongIntegrity
    else if outer.m.extraCerts = [] then .error .badMessageCheck
    else match outer.nestedSig with
    | .error e => .error e
    | .ok () => if n = 0 then .error .badRequest else .ok ()

/-- `nested_handler.py` 121-153, `process_nested_request`. -/
def processNested [DecidableEq C] [DecidableEq D] (H : C → D) (cfg : ConfCfg) (env : ConfEnv C)
    (issue : Issue C D R S P) (st : CaSt C D R S) (outer : NReq C S P) (es : List (BEntry C S P)) (now : Int) :
    Res (CaSt C D R S) (List Resp) :=
  match verifyNested outer es.length with
  | .error e => (.error e, st)
  | .ok () =>
  match validateHeader outer true with
  | .error e => (.error e, st)
  | .ok () =>
    if es.length = 1 then
      match processAdded H cfg env issue st outer (es.map (·.msg)) now with
      | (.error e, st) => (.error e, st)
      | (.ok r, st) => (.ok [r], st)
    else processBatched H cfg env issue st outer es now

end Verif.CA
