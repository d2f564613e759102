import Verif.CA.Dispatch

/-!
# The endpoints for hybrid certificates (mock_ca/ca_handler.py 955-1376, 1530-1641; mock_ca/hybrid_handler.py 227-337)

The functions which build the certificates (`pq_logic/hybrid_issuing.py`, modelled in `Verif/Hybrid`) are fields of
`HybEnv`, as are the verdicts of the checks of a request, `HReq`.  The bodies `certConf` use the model of
`CertConf.lean`.  Simplified: the responses of the builders have an accepted status; removing a temporary CRL file and
logging are left out.
-/

namespace Verif.CA

variable {C D R S P : Type}

/-- A request to an endpoint for hybrid certificates. -/
structure HReq (C S P : Type) extends DReq C S P where
  /-- `validate_cert_req_id_nums` -/
  reqIds : Except PyErr Unit := .ok ()
  /-- `is_hybrid_cert` of the first certificate -/
  hybridCert : Except PyErr Unit := .ok ()
  /-- `is_revoked_for_issuing` -/
  forIssuing : Except PyErr Unit := .ok ()
  /-- `is_revoked_for_request` -/
  forRequest : Except PyErr Unit := .ok ()
  /-- `is_delta_key_revoked` -/
  deltaKey : Except PyErr Unit := .ok ()
  /-- `verify_hybrid_pkimessage_protection` -/
  hybridProt : Except PyErr Unit := .ok ()
  /-- `find_oid_in_general_info` for implicit confirmation -/
  implicitConf : Bool := false
  /-- `check_if_used` -/
  confirmUsed : Bool := false
  /-- `process_stfl_after_request` -/
  stflAfter : Except PyErr Unit := .ok ()

/-- An exception while a related certificate is built: `IOError`, or another one. -/
inductive RelErr where
  | io
  | py (e : PyErr)

/-- The functions called. -/
structure HybEnv (C D R S P : Type) where
  chameleon : HReq C S P → Except PyErr (Msg C × C × C)
  discovery : HReq C S P → Int → Except PyErr (Msg C × C)
  related : HReq C S P → Except RelErr C
  relatedResp : HReq C S P → C → Msg C
  catalystSig : HReq C S P → Except PyErr (Msg C × List C)
  catalystIss : HReq C S P → Except PyErr (Msg C × C)
  /-- response, certificate in Form 4, in Form 1, and whether the response has an encrypted certificate -/
  sun : HReq C S P → Int → Except PyErr (Msg C × C × C × Bool)
  rr : CaSt C D R S → HReq C S P → Int → Res (CaSt C D R S) String
  sign : String → Except PyErr Unit := fun _ => .ok ()

/-- The state, with the certificates kept for `/pubkey` and `/sig`. -/
structure HSt (C D R S : Type) where
  ca : CaSt C D R S := {}
  sun : Dict Int C := []

/-- The answer of an endpoint: a response without protection, a protected one with a further certificate, an error
message (`ids`: with the identifiers of the request; `.exception` stands for `systemFailure`), an error message which is
protected a second time. -/
inductive HAns (C : Type) where
  | plain (body : String)
  | signed (body : String) (second : Option C)
  | failed (e : PyErr) (ids : Bool)
  | failedTwice (e : PyErr)
deriving DecidableEq

/-- `sign_response`. -/
def signHyb (env : HybEnv C D R S P) (q : HReq C S P) (body : String) (second : Option C) : Except PyErr (HAns C) :=
  match protectAnswer (env.sign body) q.alg q.dhKey with
  | .error e => .error e
  | .ok () => .ok (.signed body second)

/-- `build_error_from_exception` with the request. -/
def errReq (env : HybEnv C D R S P) (q : HReq C S P) (e : PyErr) : Except PyErr (HAns C) :=
  match protectAnswer (env.sign "error") (some (.ok (errorAlg q.alg))) q.dhKey with
  | .error x => .error x
  | .ok () => .ok (.failed e true)

/-- `build_error_from_exception` without a request. -/
def errNoReq (env : HybEnv C D R S P) (e : PyErr) : Except PyErr (HAns C) :=
  match env.sign "error" with
  | .error x => .error x
  | .ok () => .ok (.failed e false)

/-- `store_transaction_certificate` for a request. -/
def storeCerts (s : Sys C D R) (m : Msg C) (certs : List C) : Res (Sys C D R) Unit :=
  match m.txId with
  | none => (.error .pyasn1Error, s)
  | some tx => ((s.tx.store tx m.sender certs).1, { s with tx := (s.tx.store tx m.sender certs).2 })

/-- `add_request_for_cert_conf` (`cert_req_handler.py` 276-281). -/
def addForConf (s : Sys C D R) (request response : Msg C) (certs : List C) : Res (Sys C D R) Unit :=
  match s.conf.addRequest request with
  | (.error e, cf) => (.error e, { s with conf := cf })
  | (.ok _, cf) => ((cf.addResponse response certs).1, { s with conf := (cf.addResponse response certs).2 })

/-- `ca_handler.py` 1020-1041, `_after_request`. -/
def afterHyb (H : C → D) (s : Sys C D R) (request response : Msg C) (certs : List C) (confirmed : Bool) (now : Int) :
    Res (Sys C D R) Unit :=
  if confirmed then (.ok (), { s with db := addCerts H true now certs s.db })
  else
    match storeCerts { s with db := addCerts H false now certs s.db } request certs with
    | (.error e, s) => (.error e, s)
    | (.ok _, s) => addForConf s request response certs

/-- `ca_handler.py` 963-975: the checks and the certificates of `/chameleon`. -/
def chamBuild (env : HybEnv C D R S P) (q : HReq C S P) : Except PyErr (Msg C × C × C) :=
  match q.stflCheck with
  | .error e => .error e
  | .ok () =>
  match (if q.m.extraCerts = [] then .ok () else q.forIssuing : Except PyErr Unit) with
  | .error e => .error e
  | .ok () =>
  match q.deltaKey with
  | .error e => .error e
  | .ok () =>
  match q.reqIds with
  | .error e => .error e
  | .ok () => env.chameleon q

/-- `ca_handler.py` 962-991: the `try` block of `process_chameleon`. -/
def chamTry (H : C → D) (env : HybEnv C D R S P) (st : CaSt C D R S) (q : HReq C S P) (now : Int) :
    Res (CaSt C D R S) (HAns C) :=
  match chamBuild env q with
  | .error e => (.error e, st)
  | .ok (resp, paired, delta) =>
    match storeCerts st.sys q.m [paired, delta] with
    | (.error e, s) => (.error e, { st with sys := s })
    | (.ok _, s) =>
      match q.stflAfter with
      | .error e => (.error e, { st with sys := { s with db := addCerts H q.implicitConf now [paired, delta] s.db } })
      | .ok () =>
        (signHyb env q resp.body (some delta),
          { st with sys := { s with db := addCerts H q.implicitConf now [paired, delta] s.db } })

/-- `ca_handler.py` 955-1007, `process_chameleon`. -/
def processChameleon (H : C → D) (env : HybEnv C D R S P) (st : CaSt C D R S) (q : HReq C S P) (now : Int) :
    Res (CaSt C D R S) (HAns C) :=
  if q.m.body ≠ "p10cr" then (.error .notImplemented, st)
  else
    match chamTry H env st q now with
    | (.ok a, st) => (.ok a, st)
    | (.error e, st) => if e.isCmp then (errNoReq env e, st) else (errReq env q .exception, st)

/-- The body `certConf` of the endpoints which return the answer as it is. -/
def confPlain [DecidableEq C] [DecidableEq D] (H : C → D) (cfg : ConfCfg) (cenv : ConfEnv C) (st : CaSt C D R S)
    (q : HReq C S P) (now : Int) : Res (CaSt C D R S) (HAns C) :=
  match caCertConf H cfg cenv st q.m now with
  | (.error e, st) => (.error e, st)
  | (.ok b, st) => (.ok (.plain b), st)

/-- `process_after_request` with `check_if_used`. -/
def afterStd [DecidableEq D] (H : C → D) (st : CaSt C D R S) (q : HReq C S P) (resp : Msg C) (certs : List C) (now : Int) :
    Res (CaSt C D R S) Unit :=
  ((st.sys.afterRequest H q.m resp certs false q.confirmUsed q.stflAfter now).1,
    { st with sys := (st.sys.afterRequest H q.m resp certs false q.confirmUsed q.stflAfter now).2 })

/-- `ca_handler.py` 1142-1182, `process_cert_discovery`; `serial` is the number found (`none`: none in 100 trials). -/
def processDiscoveryReq [DecidableEq C] [DecidableEq D] (H : C → D) (cfg : ConfCfg) (cenv : ConfEnv C)
    (env : HybEnv C D R S P) (serial : Option Int) (st : CaSt C D R S) (q : HReq C S P) (now : Int) :
    Res (CaSt C D R S) (HAns C) :=
  if q.m.body = "p10cr" then
    match serial with
    | none => (.error .exception, st)
    | some n =>
      match env.discovery q n with
      | .error e => (.error e, st)
      | .ok (resp, c) =>
        match afterStd H st q resp [c] now with
        | (.error e, st) => (.error e, st)
        | (.ok _, st) => (signHyb env q resp.body none, st)
  else if q.m.body = "certConf" then confPlain H cfg cenv st q now
  else (.error .notImplemented, st)

/-- `ca_handler.py` 1264-1285: the certificate of `/related-cert`. -/
def relatedBuild (env : HybEnv C D R S P) (q : HReq C S P) : Except RelErr C :=
  match q.reqIds with
  | .error e => .error (.py e)
  | .ok () => env.related q

/-- `ca_handler.py` 1247-1315, `process_related_cert`; `IOError` gives `systemFailure,badPOP`. -/
def processRelatedReq [DecidableEq C] [DecidableEq D] (H : C → D) (cfg : ConfCfg) (cenv : ConfEnv C)
    (env : HybEnv C D R S P) (st : CaSt C D R S) (q : HReq C S P) (now : Int) : Res (CaSt C D R S) (HAns C) :=
  if q.m.body = "p10cr" then
    match relatedBuild env q with
    | .error .io => (errReq env q .exception, st)
    | .error (.py e) => if e.isCmp then (errReq env q e, st) else (.error e, st)
    | .ok c =>
      match afterHyb H st.sys q.m (env.relatedResp q c) [c] q.implicitConf now with
      | (.error e, s) => (.error e, { st with sys := s })
      | (.ok _, s) => (signHyb env q (env.relatedResp q c).body none, { st with sys := s })
  else if q.m.body = "certConf" then confPlain H cfg cenv st q now
  else (.error .notImplemented, st)

/-- The request ids and a builder, then the update of the state (1328-1341, 1359-1370). -/
def catalystTry [DecidableEq D] (H : C → D) (build : HReq C S P → Except PyErr (Msg C × List C)) (st : CaSt C D R S)
    (q : HReq C S P) (now : Int) : Res (CaSt C D R S) String :=
  match q.reqIds with
  | .error e => (.error e, st)
  | .ok () =>
    match build q with
    | .error e => (.error e, st)
    | .ok (resp, certs) =>
      match afterStd H st q resp certs now with
      | (.error e, st) => (.error e, st)
      | (.ok _, st) => (.ok resp.body, st)

/-- The `try` block of `process_catalyst_sig` (1323-1343). -/
def catSigTry [DecidableEq C] [DecidableEq D] (H : C → D) (cfg : ConfCfg) (cenv : ConfEnv C) (env : HybEnv C D R S P)
    (st : CaSt C D R S) (q : HReq C S P) (now : Int) : Res (CaSt C D R S) (HAns C) :=
  if q.m.body = "certConf" then confPlain H cfg cenv st q now
  else
    match catalystTry H env.catalystSig st q now with
    | (.error e, st) => (.error e, st)
    | (.ok b, st) => (signHyb env q b none, st)

/-- `ca_handler.py` 1317-1346, `process_catalyst_sig`. -/
def processCatalystSig [DecidableEq C] [DecidableEq D] (H : C → D) (cfg : ConfCfg) (cenv : ConfEnv C)
    (env : HybEnv C D R S P) (st : CaSt C D R S) (q : HReq C S P) (now : Int) : Res (CaSt C D R S) (HAns C) :=
  match catSigTry H cfg cenv env st q now with
  | (.ok a, st) => (.ok a, st)
  | (.error e, st) => if e.isCmp then (errReq env q e, st) else (.error e, st)

/-- `catalystIss` with its certificate as a list. -/
def issList (env : HybEnv C D R S P) (q : HReq C S P) : Except PyErr (Msg C × List C) :=
  match env.catalystIss q with
  | .error e => .error e
  | .ok (m, c) => .ok (m, [c])

/-- The error of `process_catalyst_issuing` (1372-1376): built, then given to `sign_response`. -/
def errTwice (env : HybEnv C D R S P) (q : HReq C S P) (e : PyErr) : Except PyErr (HAns C) :=
  match errReq env q e with
  | .error x => .error x
  | .ok _ =>
    match protectAnswer (env.sign "error") (some (.ok (errorAlg q.alg))) q.dhKey with
    | .error x => .error x
    | .ok () => .ok (.failedTwice e)

/-- `ca_handler.py` 1348-1376, `process_catalyst_issuing`. -/
def processCatalystIss [DecidableEq C] [DecidableEq D] (H : C → D) (cfg : ConfCfg) (cenv : ConfEnv C)
    (env : HybEnv C D R S P) (st : CaSt C D R S) (q : HReq C S P) (now : Int) : Res (CaSt C D R S) (HAns C) :=
  if q.m.body = "certConf" then
    match confPlain H cfg cenv st q now with
    | (.ok a, st) => (.ok a, st)
    | (.error e, st) => if e.isCmp then (errTwice env q e, st) else (.error e, st)
  else
    match catalystTry H (issList env) st q now with
    | (.ok b, st) => (signHyb env q b none, st)
    | (.error e, st) => if e.isCmp then (errTwice env q e, st) else (.error e, st)

/-- `hybrid_handler.py` 267-337, `SunHybridHandler.process_request`: the response, whether the certificate is confirmed, and
the certificate.  `_add_to_state` (227-240) comes before the protection. -/
def sunRequest (env : HybEnv C D R S P) (sun : Dict Int C) (q : HReq C S P) (serial : Int) :
    Res (Dict Int C) (HAns C × Msg C × Option C × Option C) :=
  match q.reqIds with
  | .error e => (.error e, sun)
  | .ok () =>
    match env.sun q serial with
    | .error e => (.error e, sun)
    | .ok (resp, c4, c1, enc) =>
      match signHyb env q resp.body (if enc then none else some c1) with
      | .error e => (.error e, sun.set serial c1)
      | .ok a =>
        (.ok (a, resp, (if enc = false ∧ q.implicitConf = true then some c4 else none),
          (if enc = false ∧ q.implicitConf = true then none else some c4)), sun.set serial c1)

/-- `ca_handler.py` 1079-1110: the certificate requests of `process_sun_hybrid`. -/
def sunIssue (H : C → D) (env : HybEnv C D R S P) (serial : Int) (st : HSt C D R S) (q : HReq C S P) (now : Int) :
    Res (HSt C D R S) (HAns C) :=
  match sunRequest env st.sun q serial with
  | (.error e, sun) =>
    if e.isCmp then (errReq env q e, { st with sun := sun }) else (.error e, { st with sun := sun })
  | (.ok (a, resp, issued, open?), sun) =>
    if (issued.isNone && open?.isNone) || (issued.isSome && open?.isSome) then (.error .exception, { st with sun := sun })
    else
      match afterHyb H st.ca.sys q.m resp (issued.orElse fun _ => open?).toList issued.isSome now with
      | (.error e, s) => (.error e, { ca := { st.ca with sys := s }, sun := sun })
      | (.ok _, s) => (.ok a, { ca := { st.ca with sys := s }, sun := sun })

/-- `ca_handler.py` 1064-1110, after the checks of `process_sun_hybrid`. -/
def sunBody [DecidableEq C] [DecidableEq D] (H : C → D) (cfg : ConfCfg) (cenv : ConfEnv C) (env : HybEnv C D R S P)
    (serial : Int) (st : HSt C D R S) (q : HReq C S P) (now : Int) : Res (HSt C D R S) (HAns C) :=
  if q.m.body = "certConf" then
    match caCertConf H cfg cenv st.ca q.m now with
    | (.error e, ca) => (.error e, { st with ca := ca })
    | (.ok b, ca) => (signHyb env q b none, { st with ca := ca })
  else if q.m.body = "rr" then
    match q.hybridProt with
    | .error e => (.error e, st)
    | .ok () =>
      match env.rr st.ca q now with
      | (.error e, ca) => (.error e, { st with ca := ca })
      | (.ok b, ca) => (signHyb env q b none, { st with ca := ca })
  else sunIssue H env serial st q now

/-- `ca_handler.py` 1043-1110, `process_sun_hybrid`. -/
def processSun [DecidableEq C] [DecidableEq D] (H : C → D) (cfg : ConfCfg) (cenv : ConfEnv C) (env : HybEnv C D R S P)
    (serial : Int) (st : HSt C D R S) (q : HReq C S P) (now : Int) : Res (HSt C D R S) (HAns C) :=
  match q.hybridCert with
  | .error e => (.error e, st)
  | .ok () =>
    match q.alg with
    | none => (.error .valueError, st)
    | some (.error e) => (.error e, st)
    | some (.ok t) =>
      match (if t = .mac then .ok () else q.forIssuing : Except PyErr Unit) with
      | .error e => if e = .certRevoked then (errReq env q e, st) else (.error e, st)
      | .ok () => sunBody H cfg cenv env serial st q now

/-- `ca_handler.py` 1112-1140, `process_multi_auth`; `normal` is `process_normal_request`. -/
def processMultiAuth (env : HybEnv C D R S P) (normal : CaSt C D R S → HReq C S P → Int → Res (CaSt C D R S) Answer)
    (st : CaSt C D R S) (q : HReq C S P) (now : Int) : Res (CaSt C D R S) (Answer ⊕ HAns C) :=
  match q.forRequest with
  | .error e => if e.isCmp then ((errReq env q e).map .inr, st) else (.error e, st)
  | .ok () =>
    match q.hybridProt with
    | .error e =>
      if e.isInvalidSig then ((errReq env q .badMessageCheck).map .inr, st)
      else if e.isCmp then ((errReq env q e).map .inr, st)
      else (.error e, st)
    | .ok () =>
      match normal st q now with
      | (.ok a, st) => (.ok (.inl a), st)
      | (.error e, st) =>
        if e.isInvalidSig then ((errReq env q .badMessageCheck).map .inr, st)
        else if e.isCmp then ((errReq env q e).map .inr, st)
        else (.error e, st)

/-! ## HTTP -/

/-- `cmputils.py` 3683-3723, `parse_pkimessage`: the message of the decoder (`renest` decodes the messages in a nested one
again); what follows it is dropped. -/
def parsePki {M : Type} (dec : Bytes → Except PyErr (M × Bytes)) (renest : M → Except PyErr M) (data : Bytes) :
    Except PyErr M :=
  match dec data with
  | .error e => .error (if e = .pyasn1Error then .valueError else e)
  | .ok (m, _) =>
    match renest m with
    | .error e => .error (if e = .pyasn1Error then .valueError else e)
    | .ok m => .ok m

/-- What a client sees: the status, and whether the body is a CMP message. -/
structure Http where
  status : Nat
  cmp : Bool
deriving DecidableEq

/-- `ca_handler.py` 1530-1550, `handle_issuing`: `parsed` is the outcome of `parse_pkimessage`, `err` whether the error
message for it can be built, `out` the outcome of `process_normal_request`. Exceptions other than `ValueError` (and its
subclasses) leave the first block; Flask answers them with 500. -/
def httpIssuing (parsed : Except PyErr Unit) (err : Except PyErr Unit) (out : Except PyErr Unit) : Http :=
  match parsed with
  | .error e =>
    if e = .valueError then
      match err with
      | .ok () => ⟨400, true⟩
      | .error _ => ⟨500, false⟩
    else ⟨500, false⟩
  | .ok () =>
    match out with
    | .ok () => ⟨200, true⟩
    | .error _ => ⟨500, false⟩

/-- `ca_handler.py` 1553-1641: the other endpoints. -/
def httpHybrid (parsed : Except PyErr Unit) (out : Except PyErr Unit) : Http :=
  match parsed with
  | .error _ => ⟨500, false⟩
  | .ok () =>
    match out with
    | .ok () => ⟨200, true⟩
    | .error _ => ⟨500, false⟩

end Verif.CA
