import Verif.CA.Base

/-!
# `CertificateDB` (mock_ca/mock_fun.py 740-1262)

Certificates are values of an arbitrary type `C`; the digest `compute_hash(hash_alg, DER(cert))` is an
arbitrary function `H : C → D` (no injectivity is assumed). The clock is an argument (microseconds).
-/

namespace Verif.CA

variable {C D R : Type}

/-- `mock_fun.py` 740-760, `CertDBEntry`. `issue_date`, `updated_date` are in microseconds / seconds;
`revoked_entry` is an uninterpreted record of type `R`. -/
structure Entry (C D R : Type) where
  state : CertState
  cert : C
  digest : D
  issueDate : Option Int := none
  updDigest : Option D := none
  updDate : Option Int := none
  revEntry : Option R := none

/-- The part of `CertificateDB` (960-986) that influences the modelled calls. -/
structure DB (C D R : Type) where
  certs : List (Entry C D R) := []
  saveDateTime : Bool := false
  timeout : Int := 10

/-- `datetime.now(timezone.utc).replace(microsecond=0)`: whole seconds of a microsecond clock. -/
def truncSec (nowMicros : Int) : Int := nowMicros / 1000000

/-- `mock_fun.py` 1048-1072, `CertificateDB.add_cert`. -/
def DB.addCert (H : C → D) (db : DB C D R) (cert : C) (st : CertState) (now : Int) : Res (DB C D R) Unit :=
  if st = .notConfirmed ∨ st = .confirmed then
    let e : Entry C D R :=
      { state := st, cert := cert, digest := H cert,
        issueDate := if db.saveDateTime then some now else none }
    (.ok (), { db with certs := db.certs ++ [e] })
  else
    (.error .valueError, db)

/-- `mock_fun.py` 1096-1127, `CertificateDB._process_update_cert`. The `isinstance` test on
`updated_cert` is the `none` case (Python `None`); other wrong types are outside the static type. -/
def processUpdate (H : C → D) (e : Entry C D R) (ns : CertState) (upd : Option C) (now : Int) :
    Res (Entry C D R) Unit :=
  if ns = .updated ∧ e.state = .updatedNotConfirmed then
    match e.updDigest with
    | none =>
      match upd with
      | none => (.error .valueError, e)
      | some u =>
        let e := { e with updDigest := some (H u) }
        (.ok (), { e with state := ns })
    | some _ => (.ok (), { e with state := ns })
  else if ns = .updated ∨ ns = .updatedNotConfirmed then
    match upd with
    | none => (.error .typeError, e)
    | some u =>
      let e := { e with updDigest := some (H u) }
      let e := { e with updDate := some (truncSec now) }
      (.ok (), { e with state := ns })
  else
    (.error .valueError, e)

/-- `mock_fun.py` 1160-1200: the body of the loop of `change_cert_state` for the matching entry.
`_process_rev_cert` (1074-1094) stores the given entry, and stores `None` when none is given (the
`RevokedEntry` built at 1086 is discarded by the code). -/
def changeEntry (H : C → D) (e : Entry C D R) (ns : CertState) (rev : Option R) (upd : Option C)
    (now : Int) : Res (Entry C D R) Unit :=
  if ns = .revoked then
    if ¬ (e.state = .revived ∨ e.state = .confirmed) then (.error .valueError, e)
    else
      let e := { e with revEntry := rev }
      (.ok (), { e with state := ns })
  else if ns = .revived then
    if e.state ≠ .revoked then (.error .valueError, e)
    else
      let e := { e with state := ns }
      (.ok (), { e with revEntry := none })
  else if ns = .updated ∨ ns = .updatedNotConfirmed then
    processUpdate H e ns upd now
  else if ns = .confirmed then
    if e.state = .notConfirmed then (.ok (), { e with state := ns })
    else (.error .valueError, e)
  else
    (.error .valueError, e)

/-- `mock_fun.py` 1159-1203: the loop over `_certs`, stopping at the first digest match. -/
def changeLoop [DecidableEq D] (H : C → D) (d : D) (ns : CertState) (rev : Option R) (upd : Option C)
    (now : Int) : List (Entry C D R) → Res (List (Entry C D R)) Unit
  | [] => (.error .valueError, [])
  | e :: es =>
    if d = e.digest then
      let r := changeEntry H e ns rev upd now
      (r.1, r.2 :: es)
    else
      let r := changeLoop H d ns rev upd now es
      (r.1, e :: r.2)

/-- `mock_fun.py` 1129-1203, `CertificateDB.change_cert_state`. -/
def DB.changeCertState [DecidableEq D] (H : C → D) (db : DB C D R) (cert : C) (ns : CertState)
    (rev : Option R) (upd : Option C) (now : Int) : Res (DB C D R) Unit :=
  if ¬ (ns = .confirmed ∨ ns = .updated ∨ ns = .revoked ∨ ns = .revived ∨ ns = .updatedNotConfirmed) then
    (.error .valueError, db)
  else
    let r := changeLoop H (H cert) ns rev upd now db.certs
    (r.1, { db with certs := r.2 })

/-- `mock_fun.py` 1226-1235, `_get_cert_by_digest` (and 781-787 `UpdateCertDB.get_cert_by_digest`):
first entry with that digest. -/
def findDigest [DecidableEq D] (d : D) : List (Entry C D R) → Option (Entry C D R)
  | [] => none
  | e :: es => if d = e.digest then some e else findDigest d es

/-- `mock_fun.py` 1205-1215, `get_cert_state`. -/
def DB.getCertState [DecidableEq D] (H : C → D) (db : DB C D R) (cert : C) : CertState :=
  match findDigest (H cert) db.certs with
  | some e => e.state
  | none => .unknown

/-- `mock_fun.py` 1217-1224, `get_cert`. -/
def DB.getCert [DecidableEq D] (H : C → D) (db : DB C D R) (cert : C) : Option (Entry C D R) :=
  findDigest (H cert) db.certs

/-- `mock_fun.py` 1029-1034, `_get_certs_by_state`. -/
def DB.byState (db : DB C D R) (s : CertState) : List C :=
  (db.certs.filter (fun e => e.state = s)).map (·.cert)

/-- `mock_fun.py` 1036-1039, `revoked_certs`. -/
def DB.revokedCerts (db : DB C D R) : List C := db.byState .revoked

/-- `mock_fun.py` 1012-1015, `not_confirmed_certs`. -/
def DB.notConfirmedCerts (db : DB C D R) : List C := db.byState .notConfirmed

/-- `mock_fun.py` 1041-1046, `updated_certs`. -/
def DB.updatedCerts (db : DB C D R) : List C := db.byState .updated ++ db.byState .updatedNotConfirmed

/-- `mock_fun.py` 999-1010, `issued_certs`. -/
def DB.issuedCerts (db : DB C D R) : List C :=
  (db.certs.filter (fun e => ¬ (e.state = .notConfirmed ∨ e.state = .updatedNotConfirmed))).map (·.cert)

/-- The loop of `get_updated_history` (1254-1261); `fuel` is the `range(10)` counter. -/
def historyLoop [DecidableEq D] (certs : List (Entry C D R)) : Nat → Entry C D R → List C
  | 0, _ => []
  | n + 1, e =>
    match e.updDigest with
    | none => []
    | some d =>
      match findDigest d certs with
      | none => []
      | some nx => nx.cert :: historyLoop certs n nx

/-- `mock_fun.py` 1237-1262, `get_updated_history`. -/
def DB.updatedHistory [DecidableEq D] (H : C → D) (db : DB C D R) (cert : C) : Option (List C) :=
  match db.getCert H cert with
  | none => none
  | some e =>
    match e.updDigest with
    | none => none
    | some _ => some (e.cert :: historyLoop db.certs 10 e)

/-! ## `UpdateCertDB` (763-956) -/

/-- `mock_fun.py` 936-956, `build_from_entries`. -/
def DB.updateEntries (db : DB C D R) : List (Entry C D R) :=
  db.certs.filter (fun e => e.state = .updated ∨ e.state = .updatedNotConfirmed)

/-- `mock_fun.py` 789-807, `UpdateCertDB.is_updated`, on the entries of `build_from_entries`. -/
def isUpdated [DecidableEq D] (H : C → D) (entries : List (Entry C D R)) (timeout : Int) (cert : C)
    (allowTimeout : Bool) (now : Int) : Bool :=
  match findDigest (H cert) entries with
  | none => false
  | some e =>
    match e.updDate with
    | none => true
    | some ud =>
      if e.state = .updated then true
      else if truncSec now - ud > timeout ∧ allowTimeout = false then false
      else true

/-- `mock_fun.py` 809-830, `_for_cert_conf` (called with the default `strict=True`). -/
def forCertConf (e : Entry C D R) (timeout now : Int) : Except PyErr Unit :=
  if e.state = .updated then .error .certConfirmed
  else match e.updDate with
    | none => .ok ()
    | some ud => if truncSec now - ud > timeout then .error .badRequest else .ok ()

/-- `mock_fun.py` 832-861, `_for_kur`. -/
def forKur (e : Entry C D R) (timeout now : Int) : Except PyErr Unit :=
  if e.state = .updated then .error .certRevoked
  else match e.updDate with
    | none => .error .typeError
    | some ud =>
      if e.state = .updatedNotConfirmed then
        if truncSec now - ud < timeout then .error .badRequest else .ok ()
      else .error .typeError

/-- `mock_fun.py` 863-889, `_for_rr`. -/
def forRr (e : Entry C D R) (allowTimeout : Bool) (timeout now : Int) : Except PyErr Unit :=
  if e.state = .updated then .error .certRevoked
  else match e.updDate with
    | none => .error .typeError
    | some ud =>
      if e.state = .updated then .error .certRevoked
      else if truncSec now - ud < timeout ∧ allowTimeout = true then .ok ()
      else .error .badRequest

/-- `mock_fun.py` 891-934, `UpdateCertDB.validate_is_updated`. -/
def validateIsUpdated [DecidableEq D] (H : C → D) (entries : List (Entry C D R)) (timeout : Int)
    (body : String) (cert : C) (allowTimeout : Bool) (now : Int) : Except PyErr Unit :=
  match findDigest (H cert) entries with
  | none => .ok ()
  | some e =>
    if e.state = .updated ∧ body ≠ "kur" then .error .certRevoked
    else if body = "certConf" then forCertConf e timeout now
    else if body = "kur" then forKur e timeout now
    else if body = "rr" then forRr e allowTimeout timeout now
    else if (body = "ir" ∨ body = "cr" ∨ body = "p10cr") ∧ e.state = .updatedNotConfirmed then
      .error .badRequest
    else if isUpdated H entries timeout cert allowTimeout now then .error .certRevoked
    else .ok ()

/-! ## Histories of API calls -/

/-- One mutating call on the database. -/
inductive DBOp (C R : Type) where
  | add (cert : C) (st : CertState) (now : Int)
  | change (cert : C) (ns : CertState) (rev : Option R) (upd : Option C) (now : Int)

/-- Execute one call. -/
def DB.step [DecidableEq D] (H : C → D) (db : DB C D R) : DBOp C R → Res (DB C D R) Unit
  | .add c st now => db.addCert H c st now
  | .change c ns rev upd now => db.changeCertState H c ns rev upd now

/-- Execute a history; the caller may catch exceptions, so the history continues after a failing call. -/
def DB.run [DecidableEq D] (H : C → D) (db : DB C D R) : List (DBOp C R) → DB C D R
  | [] => db
  | op :: ops => (db.step H op).2.run H ops

end Verif.CA
