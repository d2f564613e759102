import Verif.CA.CertConf
import Verif.Ra.Header

/-!
# The client's certificate confirmation (resources/cmputils.py 2974-3121, 3326-3679)

Certificates are values of a type `C`; digests, the algorithms derived from the signature algorithm and the building of
the chain are parameters.  `CertStatus` is that of the CA (`Verif.CA.Msg`): its `hashAlg` is the name which
`get_hash_from_oid` gives for the OID set by the client.
-/

namespace Verif.Ra

open Verif.CA

/-- The functions called by the building of a confirmation. -/
structure ClientEnv (C : Type) where
  /-- `oid_mapping.get_hash_from_oid` of the signature algorithm with `only_hash=True` -/
  sigHash : C → Except PyErr (Option String)
  /-- `keyutils.get_digest_alg_for_cmp` with the certificate of the CA -/
  digestAlg : C → Option C → Except PyErr String
  /-- `oid_mapping.compute_hash` of the encoded certificate -/
  hash : String → C → Except PyErr Bytes
  /-- `oid_mapping.sha_alg_name_to_oid`, then `get_hash_from_oid` of the CA -/
  hashOid : String → Except PyErr String

variable {C : Type}

/-- `cmputils.py` 2974-3022, `calculate_cert_hash`. -/
def certHashOf (env : ClientEnv C) (c : C) (alg : Option String) (different : Bool) : Except PyErr Bytes :=
  match (if different then
      match env.sigHash c with
      | .error e => .error e
      | .ok a => .ok (some (if a = some "sha256" then "sha512" else "sha256"))
    else .ok alg : Except PyErr (Option String)) with
  | .error e => .error e
  | .ok (some a) => env.hash a c
  | .ok none =>
    match env.sigHash c with
    | .error e => .error e
    | .ok none => .error .valueError
    | .ok (some a) => env.hash a c

/-- The arguments of `prepare_certstatus`; `status` is the status and whether a `failinfo` is given. -/
structure StatusArgs (C : Type) where
  certHash : Option Bytes := none
  hashAlg : Option String := none
  certReqId : Int := 0
  status : StatusVal := .accepted
  failInfo : Bool := false
  statusInfo : Option (StatusVal × Bool) := none
  cert : Option C := none
  badCertId : Bool := false
  different : Bool := false

/-- `utils.py` 105-115, `manipulate_first_byte`. -/
def spoil : Bytes → Except PyErr Bytes
  | [] => .error .indexError
  | b :: bs => .ok ((if b = 0 then 1 else 0) :: bs)

/-- `cmputils.py` 3076-3080: the status information. -/
def statusOf (a : StatusArgs C) : Option (StatusVal × Bool) :=
  match a.statusInfo with
  | some s => some s
  | none => if a.status ≠ .accepted ∨ a.failInfo = true then some (a.status, a.failInfo) else none

/-- `cmputils.py` 3082-3093: the algorithm used for the hash and the one in the `hashAlg` field. -/
def statusAlg (env : ClientEnv C) (a : StatusArgs C) : Except PyErr (Option String × Option String) :=
  match a.hashAlg with
  | some n =>
    match env.hashOid n with
    | .error e => .error e
    | .ok f => .ok (some n, some f)
  | none =>
    match a.cert with
    | none => .ok (none, none)
    | some c =>
      match env.sigHash c with
      | .error e => .error e
      | .ok h =>
        if a.different then
          let n := if h = some "sha256" then "sha512" else "sha256"
          match env.hashOid n with
          | .error e => .error e
          | .ok f => .ok (some n, some f)
        else .ok (h, none)

/-- `cmputils.py` 3095-3096: the hash which is given, unless it is empty, or the one of the certificate. -/
def statusHash (env : ClientEnv C) (a : StatusArgs C) (alg : Option String) : Except PyErr (Option Bytes) :=
  match a.cert, alg with
  | some c, some n =>
    if a.certHash = none ∨ a.certHash = some [] then (env.hash n c).map some else .ok a.certHash
  | _, _ => .ok a.certHash

/-- `cmputils.py` 3026-3107, `prepare_certstatus`. -/
def prepareStatus (env : ClientEnv C) (a : StatusArgs C) : Except PyErr CertStatus :=
  match statusAlg env a with
  | .error e => .error e
  | .ok (alg, field) =>
    match statusHash env a alg with
    | .error e => .error e
    | .ok none => .error .valueError
    | .ok (some h) =>
      match (if a.badCertId then spoil h else .ok h : Except PyErr Bytes) with
      | .error e => .error e
      | .ok h => .ok ⟨a.certReqId, some h, statusOf a, field⟩

/-- An entry of a response: its `certReqId` and what `get_cert_from_pkimessage` (3867-3909) gives for it. -/
structure RespEntry (C : Type) where
  certReqId : Int
  cert : Except PyErr C

/-- The response of the CA. -/
structure CaResponse (C : Type) where
  body : String
  pvno : Int
  entries : List (RespEntry C)
  /-- `build_cmp_chain_from_pkimessage` with `for_issued_cert=True` (`certutils.py` 402-467) -/
  chain : Except PyErr (List C)
  /-- the same for a certificate given -/
  chainOf : C → Except PyErr (List C)

/-- `hash_for_v3`: a truth value, or a text as given by Robot Framework. -/
inductive Flag where
  | bool (b : Bool)
  | text (b : Bool)
deriving DecidableEq, Repr

/-- The truth value in Python of `hash_for_v3` where it is used (3371): every text which is not empty is true. -/
def Flag.truthy : Flag → Bool
  | .bool b => b
  | .text _ => true

/-- The arguments of `build_cert_conf_from_resp` which concern the body. -/
structure ConfArgs (C : Type) where
  certStatus : Option (List CertStatus) := none
  hashAlg : Option String := none
  certReqId : Option Int := none
  hashForV3 : Flag := .bool true
  cert : Option C := none
  caCert : Option C := none
  statusInfo : Option (StatusVal × Bool) := none
  certHash : Option Bytes := none
  pvno : Option Int := none

/-- `cmputils.py` 3343-3383, `_process_single_cert_conf_cert`, with 3326-3340. -/
def singleStatus (env : ClientEnv C) (a : ConfArgs C) (id : Option Int) (ca : Option C) (pvno : Int) (c : C) :
    Except PyErr CertStatus :=
  match (match a.hashAlg with
      | none => env.digestAlg c ca
      | some n => .ok n : Except PyErr String) with
  | .error e => .error e
  | .ok alg =>
    match (if a.certHash = none ∨ a.certHash = some [] then certHashOf env c (some alg) false
      else .ok (a.certHash.getD [])) with
    | .error e => .error e
    | .ok h =>
      prepareStatus env {
        hashAlg := if a.hashForV3.truthy = true ∧ pvno = 3 then some alg else none
        cert := some c
        certReqId := id.getD 0
        statusInfo := a.statusInfo
        certHash := some h }

/-- `cmputils.py` 3386-3400, `_get_cert_req_id`. -/
def reqIdOf (id : Int) (n : Nat) (given : Option Int) : Int :=
  match given with
  | some i => i
  | none => if n = 1 then max id 0 else id

/-- `cmputils.py` 3535-3555: the loop over the entries; the identifier chosen for an entry is the one given for the
next. -/
def confLoop (env : ClientEnv C) (a : ConfArgs C) (n : Nat) (chain : List C) (pvno : Int) :
    Option Int → List (RespEntry C) → Except PyErr (List CertStatus)
  | _, [] => .ok []
  | given, e :: es =>
    let id := reqIdOf e.certReqId n given
    match e.cert with
    | .error er => .error er
    | .ok c =>
      match chain[1]? with
      | none => .error .indexError
      | some ca =>
        match singleStatus env a (some id) (some ca) pvno c with
        | .error er => .error er
        | .ok s =>
          match confLoop env a n chain pvno (some id) es with
          | .error er => .error er
          | .ok ss => .ok (s :: ss)

/-- `cmputils.py` 3507-3517: the certificate of the CA for a certificate which is given. -/
def caOfGiven (a : ConfArgs C) (r : CaResponse C) (c : C) : Except PyErr (Option C) :=
  match r.chainOf c with
  | .error .valueError => .ok a.caCert
  | .error e => .error e
  | .ok ch =>
    match ch[1]? with
    | some ca => .ok (some ca)
    | none => .ok a.caCert

/-- `cmputils.py` 3483-3560: the entries of the confirmation. -/
def confEntries (env : ClientEnv C) (a : ConfArgs C) (r : CaResponse C) : Except PyErr (List CertStatus) :=
  let pvno := a.pvno.getD r.pvno
  if r.body ∉ ["cp", "kup", "ip", "ccp"] then .error .valueError
  else
    match a.cert with
    | some c =>
      match caOfGiven a r c with
      | .error e => .error e
      | .ok ca => (singleStatus env a a.certReqId ca pvno c).map fun s => [s]
    | none =>
      match a.certStatus with
      | some l => .ok l
      | none =>
        match r.chain with
        | .error e => .error e
        | .ok ch => confLoop env a r.entries.length ch pvno a.certReqId r.entries

/-- `cmputils.py` 3416-3579, `build_cert_conf_from_resp`: the header (`Verif.Ra.Header`) and the entries.  The version of
the header is the one given, or 2. -/
def confFromResp {N : Type} (env : ClientEnv C) (kid : Option (List UInt8) → N → List UInt8) (dflt : N × List UInt8)
    (rnd : Fin 5 → List UInt8) (q : Header N) (ha : HArgs N) (a : ConfArgs C) (r : CaResponse C) :
    Except PyErr (Header N × List CertStatus) :=
  match clientHeader kid dflt rnd q { ha with pvno := a.pvno } with
  | .error e => .error e
  | .ok h =>
    match confEntries env a r with
    | .error e => .error e
    | .ok l => .ok (h, l)

/-- `cmputils.py` 3583-3679, `build_cert_conf`: the entries and the version; a status or hash given, where not empty, is
enough. -/
def confDirect (env : ClientEnv C) (cert : Option C) (alg : Option String) (certHash : Option Bytes)
    (certStatus : Option CertStatus) (status : StatusVal) (statusInfo : Option (StatusVal × Bool)) (id : Int) :
    Except PyErr CertStatus :=
  if cert.isNone ∧ (certHash = none ∨ certHash = some []) ∧ certStatus.isNone then .error .valueError
  else
    match certStatus with
    | some s => .ok s
    | none =>
      match (match certHash, cert with
          | none, some c => (certHashOf env c alg false).map some
          | h, _ => .ok h : Except PyErr (Option Bytes)) with
      | .error e => .error e
      | .ok h => prepareStatus env { certHash := h, certReqId := id, status := status, statusInfo := statusInfo }

end Verif.Ra
