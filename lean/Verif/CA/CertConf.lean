import Verif.CA.CertDB
import Verif.CA.TxIds

/-!
# Certificate confirmation (mock_ca/cert_conf_handler.py 38-411, resources/ca_ra_utils.py 3115-3276) and the
state update after an issued response (mock_ca/cert_req_handler.py 276-340)

Parameters (`ConfEnv`): `hash a c` is the digest of certificate `c` with algorithm `a`, `algOf c` the digest
algorithm derived from the signature algorithm of `c`, `hdr` the verdict of `validate_pkimessage_header`,
`stfl` the outcome of registering a confirmed stateful-signature certificate.
-/

namespace Verif.CA

variable {C D R : Type}

/-- `cert_conf_handler.py` 38-45. -/
structure ConfState (C : Type) where
  toBeConf : Dict Bytes (List C) := []
  responses : Dict Bytes (Msg C) := []
  requests : Dict Bytes (Msg C) := []
  confirmed : List Bytes := []

/-- `CertConfConfigVars`; `allow_auto_ed` is passed on but not used by `build_pki_conf_from_cert_conf`. -/
structure ConfCfg where
  enforceSameAlg : Bool := true
  mustBeProtected : Bool := true
  mustBeFresh : Bool := true

/-- Parameters of the model, see the header comment. -/
structure ConfEnv (C : Type) where
  hash : String → C → Bytes
  algOf : C → Option String
  hdr : Msg C → Msg C → Except PyErr Unit
  stfl : C → Msg C → Except PyErr Unit

/-- `cert_conf_handler.py` 47-53, `add_confirmed_cert`. -/
def ConfState.addConfirmed (s : ConfState C) (m : Msg C) : Res (ConfState C) Unit :=
  match m.txId with
  | none => (.error .badRequest, s)
  | some tx => (.ok (), { s with confirmed := s.confirmed ++ [tx] })

/-- `cert_conf_handler.py` 132-138, `add_request`. -/
def ConfState.addRequest (s : ConfState C) (m : Msg C) : Res (ConfState C) Unit :=
  match m.txId with
  | none => (.error .badRequest, s)
  | some tx => (.ok (), { s with requests := s.requests.set tx m })

/-- `cert_conf_handler.py` 72-79, `add_response`. -/
def ConfState.addResponse (s : ConfState C) (m : Msg C) (cs : List C) : Res (ConfState C) Unit :=
  match m.txId with
  | none => (.error .badRequest, s)
  | some tx => (.ok (), { s with responses := s.responses.set tx m, toBeConf := s.toBeConf.set tx cs })

/-- `cert_conf_handler.py` 59-70, `remove_request`; the final `pop` raises `KeyError` on a missing key. -/
def ConfState.removeRequest (s : ConfState C) (m : Msg C) : Res (ConfState C) Unit :=
  match m.txId with
  | none => (.error .badRequest, s)
  | some tx =>
    let s := { s with confirmed := s.confirmed ++ [tx] }
    let s := { s with requests := s.requests.erase tx }
    let s := { s with responses := s.responses.erase tx }
    match s.toBeConf.get tx with
    | none => (.error .keyError, s)
    | some _ => (.ok (), { s with toBeConf := s.toBeConf.erase tx })

/-- `cert_conf_handler.py` 81-89, `is_confirmed`. -/
def ConfState.isConfirmed (s : ConfState C) (m : Msg C) : Except PyErr Unit :=
  match m.txId with
  | none => .error .badRequest
  | some tx => if tx ∈ s.confirmed then .error .certConfirmed else .ok ()

/-- `cert_conf_handler.py` 91-99, `is_not_confirmed` (DER equality is equality of `C`). -/
def ConfState.isNotConfirmed [DecidableEq C] (s : ConfState C) (c : C) : Bool :=
  s.toBeConf.any (fun p => p.2.any (fun x => decide (c = x)))

/-- `cert_conf_handler.py` 149-156, `validate_tx_id`. -/
def ConfState.validateTxId (s : ConfState C) (m : Msg C) : Except PyErr Unit :=
  match m.txId with
  | none => .error .badDataFormat
  | some tx => if s.requests.mem tx then .ok () else .error .badRequest

/-- `cert_conf_handler.py` 158-191, `validate_nonces` (with `get_ca_response` 122-130 and `get_request`
140-147 inlined; `.asOctets()` of an absent field raises a pyasn1 error). -/
def ConfState.validateNonces (s : ConfState C) (m : Msg C) (mustBeNew : Bool) : Except PyErr Unit :=
  match m.senderNonce with
  | none => .error .badSenderNonce
  | some sn =>
    match m.recipNonce with
    | none => .error .badRecipientNonce
    | some rn =>
      match m.txId with
      | none => .error .badRequest
      | some tx =>
        match s.responses.get tx with
        | none => .error .badRequest
        | some resp =>
          match s.requests.get tx with
          | none => .error .keyError
          | some req =>
            match req.senderNonce with
            | none => .error .pyasn1Error
            | some reqSn =>
              match resp.senderNonce with
              | none => .error .pyasn1Error
              | some respSn =>
                if respSn ≠ rn then .error .badRecipientNonce
                else match resp.recipNonce with
                  | none => .error .pyasn1Error
                  | some respRn =>
                    if reqSn ≠ respRn then .error .exception
                    else if sn.length ≠ 16 then .error .badSenderNonce
                    else if sn = reqSn ∧ mustBeNew then .error .badSenderNonce
                    else if sn ≠ reqSn ∧ mustBeNew = false then .error .badSenderNonce
                    else .ok ()

/-- `cert_conf_handler.py` 275-285, `_confirm_cert`; `none` is `extraCerts[0]` of an absent/empty field, for
which pyasn1 instantiates an object with `isValue = False`. -/
def confirmSigner [DecidableEq C] (a b : Option C) : Except PyErr Unit :=
  match a, b with
  | some _, none => .error .wrongIntegrity
  | none, some _ => .error .wrongIntegrity
  | some x, some y => if x ≠ y then .error .wrongAuthority else .ok ()
  | none, none => .ok ()

/-- `cert_conf_handler.py` 287-328, `_verify_protection`. `ProtectedType.get_protection_type` of an unprotected
request raises `ValueError`. -/
def verifyProt [DecidableEq C] (cfg : ConfCfg) (req m : Msg C) : Except PyErr Unit :=
  if cfg.mustBeProtected = false ∧ req.prot = none ∧ m.prot = none then .ok ()
  else match req.prot with
    | none => .error .valueError
    | some p =>
      match m.prot with
      | none => .error .badMessageCheck
      | some p' =>
        if p ≠ p' then .error .wrongIntegrity
        else
          match (if p = .tradSig ∨ p = .pqSig ∨ p = .compositeSig ∨ p = .dh then
              confirmSigner req.extraCerts.head? m.extraCerts.head? else .ok ()) with
          | .error e => .error e
          | .ok () =>
            if p = .mac ∧ cfg.enforceSameAlg ∧ m.protAlg ≠ req.protAlg then .error .badMessageCheck else .ok ()

/-- `ca_ra_utils.py` 3115-3135, `_validate_cert_status`. For another status the f-string of the error message
calls `getName()` on an INTEGER, which raises `AttributeError` instead of the intended `BadRequest`. -/
def validateCertStatus : Option (StatusVal × Bool) → Except PyErr Unit
  | none => .ok ()
  | some (.other, _) => .error .attributeError
  | some (.accepted, true) => .error .badRequest
  | some (.accepted, false) => .ok ()
  | some (.rejection, _) => .ok ()

/-- `ca_ra_utils.py` 3138-3178, `_process_cert_hash_alg` with `hash_alg=None`, `ca_cert=None`. -/
def certHashAlg (env : ConfEnv C) (e : CertStatus) (pvno : Int) (c : C) : Except PyErr String :=
  match e.hashAlg with
  | some a => if pvno ≠ 3 then .error .badCertId else .ok a
  | none =>
    match env.algOf c with
    | some a => .ok a
    | none => .error .badCertId

/-- The loop of `build_pki_conf_from_cert_conf` (3238-3270). -/
def pkiConfLoop (env : ConfEnv C) (pvno : Int) : List CertStatus → List C → Except PyErr Unit
  | e :: es, c :: cs =>
    if e.certReqId ≠ 0 then .error .badRequest
    else match e.certHash with
      | none => .error .badPOP
      | some h =>
        match validateCertStatus e.status with
        | .error x => .error x
        | .ok () =>
          if (match e.status with | some (.rejection, _) => true | _ => false) then pkiConfLoop env pvno es cs
          else match certHashAlg env e pvno c with
            | .error x => .error x
            | .ok a => if h ≠ env.hash a c then .error .badCertId else pkiConfLoop env pvno es cs
  | _, _ => .ok ()

/-- `ca_ra_utils.py` 3181-3276, `build_pki_conf_from_cert_conf` (`enforce_lwcmp=True`): the checks. -/
def buildPkiConf (env : ConfEnv C) (m : Msg C) (issued : List C) : Except PyErr Unit :=
  if m.body ≠ "certConf" then .error .valueError
  else if m.certConf.length ≠ 1 then .error .badRequest
  else if m.certConf.length ≠ issued.length then .error .valueError
  else pkiConfLoop env m.pvno m.certConf issued

/-- The loop 379-384 of `process_cert_conf`: confirm every certificate, stop at the first exception. -/
def confirmAll [DecidableEq D] (H : C → D) (env : ConfEnv C) (req : Msg C) (now : Int) :
    List C → DB C D R → Res (DB C D R) Unit
  | [], db => (.ok (), db)
  | c :: cs, db =>
    match db.changeCertState H c .confirmed none none now with
    | (.error e, db') => (.error e, db')
    | (.ok _, db') =>
      match env.stfl c req with
      | .error e => (.error e, db')
      | .ok () => confirmAll H env req now cs db'

/-- The CA state the confirmation uses. -/
structure Sys (C D R : Type) where
  tx : TxState C := {}
  db : DB C D R := {}
  conf : ConfState C := {}

/-- The checks of `process_cert_conf` before anything is modified (338-366); returns the request, the response
and the certificates to confirm. -/
def confChecks [DecidableEq C] (cfg : ConfCfg) (env : ConfEnv C) (s : ConfState C) (m : Msg C) :
    Except PyErr (Msg C × Msg C × List C) :=
  match s.isConfirmed m with
  | .error e => .error e
  | .ok () =>
  match s.validateTxId m with
  | .error e => .error e
  | .ok () =>
  match s.validateNonces m cfg.mustBeFresh with
  | .error e => .error e
  | .ok () =>
  match m.txId with
  | none => .error .badDataFormat
  | some tx =>
  match s.requests.get tx with
  | none => .error .keyError
  | some req =>
  match verifyProt cfg req m with
  | .error e => .error e
  | .ok () =>
  match s.responses.get tx with
  | none => .error .badRequest
  | some resp =>
  match env.hdr m resp with
  | .error e => .error e
  | .ok () =>
  match s.toBeConf.get tx with
  | none => .error .badRequest
  | some [] => .error .certConfirmed
  | some (c :: cs) =>
  match buildPkiConf env m (c :: cs) with
  | .error e => .error e
  | .ok () => .ok (req, resp, c :: cs)

/-- `cert_conf_handler.py` 330-388, `process_cert_conf`. Returns the cross certificate of a `ccp`. For `kup` the
signer certificate of the request is moved to UPDATED (an absent one cannot be encoded). -/
def Sys.processCertConf [DecidableEq C] [DecidableEq D] (H : C → D) (cfg : ConfCfg) (env : ConfEnv C)
    (s : Sys C D R) (m : Msg C) (now : Int) : Res (Sys C D R) (Option C) :=
  match confChecks cfg env s.conf m with
  | .error e => (.error e, s)
  | .ok (req, resp, issued) =>
    let upd : Res (DB C D R) Unit :=
      if resp.body = "kup" then
        match req.extraCerts.head? with
        | none => (.error .pyasn1Error, s.db)
        | some old => s.db.changeCertState H old .updated none none now
      else (.ok (), s.db)
    match upd with
    | (.error e, db) => (.error e, { s with db := db })
    | (.ok _, db) =>
      match confirmAll H env req now issued db with
      | (.error e, db) => (.error e, { s with db := db })
      | (.ok _, db) =>
        match s.conf.removeRequest m with
        | (.error e, cf) => (.error e, { s with db := db, conf := cf })
        | (.ok _, cf) =>
          (.ok (if resp.body = "ccp" then issued.head? else none), { s with db := db, conf := cf })

/-! ## After an issued response -/

/-- `mock_fun.py` 1451-1464, `MockCAState.add_certs`. -/
def addCerts (H : C → D) (confirmed : Bool) (now : Int) : List C → DB C D R → DB C D R
  | [], db => db
  | c :: cs, db => addCerts H confirmed now cs (db.addCert H c (if confirmed then .confirmed else .notConfirmed) now).2

/-- `cert_req_handler.py` 283-340, `process_after_request`, and `add_may_update_cert` (mock_fun.py 1470-1496).
`confirm` is the value of `check_if_used` (implicit confirmation requested and possible), `rejected` whether the
response has status rejection, `stfl` the outcome of the stateful-signature bookkeeping. -/
def Sys.afterRequest [DecidableEq D] (H : C → D) (s : Sys C D R) (request response : Msg C) (certs : List C)
    (rejected confirm : Bool) (stfl : Except PyErr Unit) (now : Int) : Res (Sys C D R) Unit :=
  if ¬ (response.body = "ip" ∨ response.body = "cp" ∨ response.body = "ccp" ∨ response.body = "kup") then (.ok (), s)
  else if rejected then (.ok (), s)
  else match request.txId with
    | none => (.error .pyasn1Error, s)
    | some tx =>
      match s.tx.store tx request.sender certs with
      | (.error e, txs) => (.error e, { s with tx := txs })
      | (.ok _, txs) =>
        let s := { s with tx := txs }
        let upd : Res (DB C D R) Unit :=
          if response.body = "kup" then
            match request.extraCerts.head? with
            | none => (.error .pyasn1Error, s.db)
            | some old =>
              match certs.head? with
              | none => (.error .indexError, s.db)
              | some new => s.db.changeCertState H old (if confirm then .updated else .updatedNotConfirmed) none (some new) now
          else (.ok (), s.db)
        match upd with
        | (.error e, db) => (.error e, { s with db := db })
        | (.ok _, db) =>
          let s := { s with db := addCerts H confirm now certs db }
          if confirm then
            match s.conf.addConfirmed request with
            | (.error e, cf) => (.error e, { s with conf := cf })
            | (.ok _, cf) => (stfl, { s with conf := cf })
          else
            match s.conf.addRequest request with
            | (.error e, cf) => (.error e, { s with conf := cf })
            | (.ok _, cf) =>
              let r := cf.addResponse response certs
              (r.1, { s with conf := r.2 })

/-! ## Histories -/

/-- Events on the CA. `issue` is any issued response, `conf` a received certConf, `db` any other call on the
certificate database (revocation and the like), `raw*` the remaining writers of the confirmation state (called
by the non-standard handlers without `process_after_request`). -/
inductive SysOp (C R : Type) where
  | issue (request response : Msg C) (certs : List C) (rejected confirm : Bool) (stfl : Except PyErr Unit) (now : Int)
  | conf (m : Msg C) (now : Int)
  | db (op : DBOp C R)
  | rawRequest (m : Msg C)
  | rawResponse (m : Msg C) (cs : List C)
  | rawConfirmed (m : Msg C)

/-- Execute one event. -/
def Sys.step [DecidableEq C] [DecidableEq D] (H : C → D) (cfg : ConfCfg) (env : ConfEnv C) (s : Sys C D R) :
    SysOp C R → Res (Sys C D R) Unit
  | .issue rq rs cs rej cf st now => s.afterRequest H rq rs cs rej cf st now
  | .conf m now =>
    let r := s.processCertConf H cfg env m now
    (r.1.map (fun _ => ()), r.2)
  | .db op => let r := s.db.step H op; (r.1, { s with db := r.2 })
  | .rawRequest m => let r := s.conf.addRequest m; (r.1, { s with conf := r.2 })
  | .rawResponse m cs => let r := s.conf.addResponse m cs; (r.1, { s with conf := r.2 })
  | .rawConfirmed m => let r := s.conf.addConfirmed m; (r.1, { s with conf := r.2 })

/-- Execute a history, recording the outcome of every event. -/
def Sys.run [DecidableEq C] [DecidableEq D] (H : C → D) (cfg : ConfCfg) (env : ConfEnv C) (s : Sys C D R) :
    List (SysOp C R) → List (Except PyErr Unit) × Sys C D R
  | [] => ([], s)
  | op :: ops =>
    let r := s.step H cfg env op
    let rest := r.2.run H cfg env ops
    (r.1 :: rest.1, rest.2)

end Verif.CA
