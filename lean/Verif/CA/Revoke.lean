import Verif.CA.CertDB
import Verif.CA.KemList
import Verif.Check.Template

/-!
# Revocation requests (mock_ca/rev_handler.py)

Certificates are those of `Verif.Check.Template`; the database is `CertificateDB` of `Verif.CA.CertDB`, with
the reason and certificate of a `RevokedEntry` as revocation record. Cryptographic verification and the header
checks are verdicts carried by the message.
-/

namespace Verif.CA

open Verif.Check (Spki Cert Templ RevDetails crlReason buildRp certInList)

variable {A G T D S : Type}

/-- The key classes `_get_ecdh_shared_secret` tests for. -/
inductive KeyCls where
  | x25519Pub | x448Pub | ecPub | x25519Priv | x448Priv | ecPriv | other
  deriving DecidableEq, Repr

/-- `isinstance(key, ECDHPublicKey)`. -/
def KeyCls.isEcdhPub : KeyCls → Bool
  | .x25519Pub | .x448Pub | .ecPub => true
  | _ => false

/-- A revocation request: the fields read by the handler and the verdicts of the checks it calls. -/
structure RrMsg (A G T S : Type) where
  txId : Bytes := []
  /-- `pki_message["protection"].isValue` -/
  protection : Bool := true
  /-- `header["protectionAlg"]` with the result of `ProtectedType.get_protection_type` -/
  protType : Option (Except PyErr ProtType)
  extraCerts : List (Cert A G T)
  rr : List (RevDetails A G T)
  /-- verdict of `verify_kem_based_mac_protection` for a shared secret -/
  kemMac : S → Except PyErr Unit
  /-- class of the key of `extraCerts[0]`, loading may raise -/
  keyCls : Except PyErr KeyCls
  /-- verdict of `verify_pkimessage_protection` with the DH secret -/
  dhMac : Except PyErr Unit
  /-- verdict of `verify_hybrid_pkimessage_protection`, which uses the key of `extraCerts[0]` -/
  sig : Except PyErr Unit
  /-- verdict of `validate_request_message_nonces_and_tx_id` -/
  ids : Except PyErr Unit
  /-- verdict of `validate_senderkid_for_cmp_protection` -/
  kid : Except PyErr Unit
  /-- verdict of `check_sender_cmp_protection` -/
  sender : Except PyErr Unit

/-- The parameters: key loading, DER decoding of the reason, digest, and which DH keys the CA has. -/
structure RevEnv (A G T D : Type) where
  load : Spki G → Except PyErr (Spki G)
  decode : Bytes → Option (Int × Bytes)
  H : Cert A G T → D
  x25519 : Bool := true
  x448 : Bool := true
  ec : Bool := true

/-- `rev_handler.py` 394-411, `_get_ecdh_shared_secret`: the public key is tested against the private key
classes. The secret itself is not modelled. -/
def ecdhSecret (env : RevEnv A G T D) (k : KeyCls) : Except PyErr Unit :=
  if k.isEcdhPub = false then .error .valueError
  else
    let key := if k = .x25519Priv then env.x25519 else if k = .x448Priv then env.x448
      else if k = .ecPriv then env.ec else false
    if key = false then .error .valueError else .ok ()

/-- 440-444: signature verification, `InvalidSignature` (and its subclass) and `ValueError` become
`BadMessageCheck`. -/
def verifySig (v : Except PyErr Unit) : Except PyErr Unit :=
  match v with
  | .ok () => .ok ()
  | .error e => if e.isInvalidSig ∨ e = .valueError then .error .badMessageCheck else .error e

/-- `rev_handler.py` 413-444, `verify_protection`. The DH branch does not return. -/
def rrVerify (env : RevEnv A G T D) (m : RrMsg A G T S) (ss : Option S) : Except PyErr Unit :=
  if m.protection = false then .error .badMessageCheck
  else match m.protType with
    | none => .error .badMessageCheck
    | some (.error e) => .error e
    | some (.ok .kem) =>
      match ss with
      | none => .error .badRequest
      | some s =>
        match m.kemMac s with
        | .error e => .error e
        | .ok () => if m.extraCerts = [] then .error .badRequest else .ok ()
    | some (.ok .dh) =>
      match m.keyCls with
      | .error e => .error e
      | .ok k =>
        match ecdhSecret env k with
        | .error e => .error e
        | .ok () =>
          match m.dhMac with
          | .error e => .error e
          | .ok () => verifySig m.sig
    | some (.ok .mac) => .error .wrongIntegrity
    | some (.ok _) => verifySig m.sig

section
variable [DecidableEq A] [DecidableEq G] [DecidableEq T] [DecidableEq D]

/-- The database of the handler; a revocation record is the reason and the certificate. -/
abbrev RevDB (A G T D : Type) := DB (Cert A G T) D (String × Cert A G T)

/-- `rev_handler.py` 112-118, `is_revoked`. -/
def isRevoked (env : RevEnv A G T D) (db : RevDB A G T D) (c : Cert A G T) : Bool :=
  decide (db.getCertState env.H c = .revoked)

/-- `rev_handler.py` 192-200, `revive_cert`. -/
def reviveCert (env : RevEnv A G T D) (db : RevDB A G T D) (c : Cert A G T) (now : Int) : Res (RevDB A G T D) Unit :=
  db.changeCertState env.H c .revived none none now

/-- `rev_handler.py` 202-214, `mark_as_revoked`. -/
def markRevoked (env : RevEnv A G T D) (db : RevDB A G T D) (c : Cert A G T) (reason : String) (now : Int) :
    Res (RevDB A G T D) Unit :=
  db.changeCertState env.H c .revoked (some (reason, c)) none now

/-- `rev_handler.py` 216-242, `_process_revive_response`: `cert_to_revive[i]` for every accepted status. -/
def reviveLoop (env : RevEnv A G T D) (now : Int) :
    List (Option PyErr) → List (Cert A G T) → RevDB A G T D → Res (RevDB A G T D) Unit
  | [], _, db => (.ok (), db)
  | some _ :: sts, cs, db => reviveLoop env now sts cs.tail db
  | none :: sts, cs, db =>
    match cs with
    | [] => (.error .indexError, db)
    | c :: cs =>
      match reviveCert env db c now with
      | (.error e, db) => (.error e, db)
      | (.ok (), db) => reviveLoop env now sts cs db

/-- `rev_handler.py` 244-272, `_handle_self_revive_request`. -/
def selfRevive (env : RevEnv A G T D) (db : RevDB A G T D) (signer : Cert A G T) (rr : List (RevDetails A G T))
    (now : Int) : Res (RevDB A G T D) (List (Option PyErr)) :=
  match db.getCert env.H signer with
  | none => (.error .badCertId, db)
  | some e =>
    match buildRp env.load env.decode [e.cert] (some db.revokedCerts) true rr with
    | .error x => (.error x, db)
    | .ok (sts, _) =>
      match reviveLoop env now sts [e.cert] db with
      | (.error x, db) => (.error x, db)
      | (.ok (), db) => (.ok sts, db)

/-- Lines 354-382: the state change for an accepted request. -/
def applyRr (env : RevEnv A G T D) (db : RevDB A G T D) (reason : String) (sts : List (Option PyErr))
    (data : List (String × Cert A G T)) (now : Int) : Res (RevDB A G T D) (List (Option PyErr)) :=
  match sts.head? with
  | none => (.error .indexError, db)
  | some (some _) => (.ok sts, db)
  | some none =>
    match data.head? with
    | none => (.error .indexError, db)
    | some (_, c) =>
      let r := if reason ≠ "removeFromCRL" then markRevoked env db c reason now else reviveCert env db c now
      match r with
      | (.error e, db) => (.error e, db)
      | (.ok (), db) => (.ok sts, db)

/-- The `try` block of `process_revocation_request` (328-382). `_handle_revive_request` (274-312) is called only
for a revoked signer, i.e. it always takes the self-revive branch; its own handlers are those of the caller.
`rr[0]` of an empty list is a new object without `crlEntryDetails`. -/
def rrBody (env : RevEnv A G T D) (db : RevDB A G T D) (m : RrMsg A G T S) (ss : Option S) (now : Int) :
    Res (RevDB A G T D) (List (Option PyErr)) :=
  match rrVerify env m ss with
  | .error e => (.error e, db)
  | .ok () =>
  match m.ids with
  | .error e => (.error e, db)
  | .ok () =>
  match m.kid with
  | .error e => (.error e, db)
  | .ok () =>
  match m.sender with
  | .error e => (.error e, db)
  | .ok () =>
  match m.extraCerts.head? with
  | none => (.error .badMessageCheck, db)
  | some signer =>
  match crlReason env.decode (m.rr.head?.bind (·.crlEntryDetails)) none with
  | .error e => (.error e, db)
  | .ok reason =>
  if isRevoked env db signer ∧ reason ≠ "removeFromCRL" then (.error .certRevoked, db)
  else match validateIsUpdated env.H db.updateEntries db.timeout "rr" signer false now with
  | .error e => (.error e, db)
  | .ok () =>
  if reason = "removeFromCRL" ∧ isRevoked env db signer then selfRevive env db signer m.rr now
  else match buildRp env.load env.decode db.issuedCerts (some db.revokedCerts) true m.rr with
    | .error e => (.error e, db)
    | .ok (sts, data) => applyRr env db reason sts data now

/-- `rev_handler.py` 321-387, `process_revocation_request`: the statuses of the `rp` message. An error response
(`_build_rp_error_response`) has one status with the `failinfo` of the exception. -/
def processRr (env : RevEnv A G T D) (db : RevDB A G T D) (m : RrMsg A G T S) (ss : Option S) (now : Int) :
    Res (RevDB A G T D) (List (Option PyErr)) :=
  match rrBody env db m ss now with
  | (.ok sts, db) => (.ok sts, db)
  | (.error e, db) =>
    if e.isCmp then (.ok [some e], db)
    else if e.isInvalidSig ∨ e = .valueError then (.ok [some .badMessageCheck], db)
    else (.error e, db)

/-- `ca_handler.py` 858-869, `process_rr`: the secret is the one stored for the transaction, used or not. -/
def caProcessRr (env : RevEnv A G T D) (db : RevDB A G T D) (kems : List (KemEntry S)) (m : RrMsg A G T S) (now : Int) :
    Res (RevDB A G T D) (List (Option PyErr)) :=
  processRr env db m ((kemFind kems m.txId).map (·.ss)) now

end

end Verif.CA
