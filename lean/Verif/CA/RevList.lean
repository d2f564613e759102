import Verif.CA.CertDB

/-!
# Revocation lists, OCSP, CRLs and key checks (mock_ca/mock_fun.py 43-460, 630-713, 1264-1318, 1351-1367)

Certificates are values of a type `C` with decidable equality (`compare_pyasn1_objects` compares DER
encodings); `serial` and `keyOf` read the serial number and the public key, `H` is the digest of the list's
hash algorithm. Loading of a public key is total here: an unloadable key raises in the code.
-/

namespace Verif.CA

variable {C D P N R : Type}

/-- A public key: `HybridPublicKey` with `pq_key` and `trad_key`, or any other key. `__eq__` is equality. -/
inductive PKey (P : Type) where
  | plain (p : P)
  | hybrid (pq trad : P)
  deriving DecidableEq, Repr

/-- `mock_fun.py` 43-51, `RevokedEntry` (the date is not used by the modelled calls). -/
structure RevEntry (C D : Type) where
  reason : String
  cert : C
  hashed : Option D := none
  deriving DecidableEq

/-- `mock_fun.py` 148-160, `RevokedEntryList.remove`: drops the first entry whose certificate is the given
one. (`entries.remove(found)` removes the first entry *equal* to `found`; an earlier equal entry would have
had the same certificate, so this is `found` itself.) -/
def revRemove [DecidableEq C] (c : C) : List (RevEntry C D) → List (RevEntry C D)
  | [] => []
  | e :: es => if c = e.cert then es else e :: revRemove c es

/-- One round of the loop of `add_entry` (174-178). -/
def revAdd1 [DecidableEq C] (l : List (RevEntry C D)) (e : RevEntry C D) : List (RevEntry C D) :=
  if e.reason = "removeFromCRL" then revRemove e.cert l else l ++ [e]

/-- `mock_fun.py` 162-178, `RevokedEntryList.add_entry` (a single entry or a list of entries). -/
def revAdd [DecidableEq C] (l : List (RevEntry C D)) : List (RevEntry C D) → List (RevEntry C D)
  | [] => l
  | e :: es => revAdd (revAdd1 l e) es

/-- `mock_fun.py` 230-239, `is_revoked`. -/
def revIsRevoked [DecidableEq C] (c : C) : List (RevEntry C D) → Bool
  | [] => false
  | e :: es => if c = e.cert then true else revIsRevoked c es

/-- `mock_fun.py` 131-136, `get_cert_by_serial_number`. -/
def revBySerial (serial : C → Int) (n : Int) : List (RevEntry C D) → Option C
  | [] => none
  | e :: es => if serial e.cert = n then some e.cert else revBySerial serial n es

/-- `mock_fun.py` 138-141, `serial_numbers`. -/
def revSerials (serial : C → Int) (l : List (RevEntry C D)) : List Int := l.map (fun e => serial e.cert)

/-- `mock_fun.py` 84-94, `contains_hash`. -/
def revContainsHash [DecidableEq D] (H : C → D) (d : D) : List (RevEntry C D) → Bool
  | [] => false
  | e :: es => if e.hashed.getD (H e.cert) = d then true else revContainsHash H d es

/-- `mock_fun.py` 96-103, `get_by_hash`: also stores the digests it computes on the way. -/
def revGetByHash [DecidableEq D] (H : C → D) (d : D) : List (RevEntry C D) → Option C × List (RevEntry C D)
  | [] => (none, [])
  | e :: es =>
    let e' := { e with hashed := some (e.hashed.getD (H e.cert)) }
    if e.hashed.getD (H e.cert) = d then (some e.cert, e' :: es)
    else
      let r := revGetByHash H d es
      (r.1, e' :: r.2)

/-- `mock_fun.py` 180-193, `compromised_keys`. -/
def compromisedKeys (keyOf : C → PKey P) : List (RevEntry C D) → List (PKey P)
  | [] => []
  | e :: es =>
    match keyOf e.cert with
    | .hybrid pq trad => .plain pq :: .plain trad :: .hybrid pq trad :: compromisedKeys keyOf es
    | .plain p => .plain p :: compromisedKeys keyOf es

/-- `mock_fun.py` 195-203, `_contains`. -/
def revContainsKey [DecidableEq P] (keyOf : C → PKey P) (l : List (RevEntry C D)) (k : PKey P) : Bool :=
  match k with
  | .hybrid pq trad =>
    decide (PKey.plain pq ∈ compromisedKeys keyOf l) || decide (PKey.plain trad ∈ compromisedKeys keyOf l)
      || decide (PKey.hybrid pq trad ∈ compromisedKeys keyOf l)
  | .plain p => decide (PKey.plain p ∈ compromisedKeys keyOf l)

/-! ## `CertRevStateDB` (243-460) -/

/-- `mock_fun.py` 243-250. -/
structure RevState (C D : Type) where
  rev : List (RevEntry C D) := []
  upd : List (RevEntry C D) := []
  updEqRev : Bool := true
  crlNumber : Int := 1

/-- `mock_fun.py` 61-78 (`RevokedEntryList.build`, certificates) and 253-270 (`CertRevStateDB.build`). -/
def RevState.build (H : C → D) (revoked updated : List C) (crlNumber : Int) : RevState C D :=
  { rev := revoked.map (fun c => { reason := "unspecified", cert := c, hashed := some (H c) }),
    upd := updated.map (fun c => { reason := "unspecified", cert := c, hashed := some (H c) }),
    crlNumber := crlNumber }

/-- The serial numbers treated as revoked (300-303, 371-373). -/
def RevState.nums (serial : C → Int) (s : RevState C D) : List Int :=
  revSerials serial s.rev ++ (if s.updEqRev then revSerials serial s.upd else [])

/-- First issued certificate with the serial number (310-315). -/
def findSerial (serial : C → Int) (n : Int) : List C → Option C
  | [] => none
  | c :: cs => if n = serial c then some c else findSerial serial n cs

/-- Status strings of `_check_ocps_request_cert_status`. -/
inductive OcspStatus where
  | unauthorized | revoked | good
  deriving DecidableEq, Repr

/-- `mock_fun.py` 284-317, `_check_ocps_request_cert_status`. -/
def RevState.ocspStatus (serial : C → Int) (s : RevState C D) (n : Int) (issued : List C) :
    Option C × OcspStatus :=
  if n ∈ s.nums serial then (revBySerial serial n s.rev, .revoked)
  else match findSerial serial n issued with
    | some c => (some c, .good)
    | none => (none, .unauthorized)

/-- What the OCSP client sees: an unsuccessful response, or a status for a certificate. -/
inductive OcspAnswer (C : Type) where
  | unauthorized
  | status (c : C) (s : OcspStatus)
  deriving DecidableEq, Repr

/-- `mock_fun.py` 319-357, `get_ocsp_response`; building and signing the response is assumed to succeed. -/
def RevState.ocspResponse (serial : C → Int) (s : RevState C D) (n : Int) (issued : List C) :
    Except PyErr (OcspAnswer C) :=
  match s.ocspStatus serial n issued with
  | (none, .unauthorized) => .ok .unauthorized
  | (none, _) => .error .notImplemented
  | (some c, st) => .ok (.status c st)

/-- `mock_fun.py` 359-401, `get_crl_response`: the CRL is its number and its list of serial numbers.
`buildOk`: the builder accepts the serial numbers and the key can sign; otherwise `ValueError` is raised after
the number has been incremented. -/
def RevState.crlResponse (serial : C → Int) (s : RevState C D) (buildOk : Bool) :
    Res (RevState C D) (Int × List Int) :=
  let nums := s.nums serial
  let number := s.crlNumber
  let s := { s with crlNumber := s.crlNumber + 1 }
  if buildOk then (.ok (number, nums), s) else (.error .valueError, s)

/-- `mock_fun.py` 403-409, `add_compromised_key`, `add_rev_entry`. -/
def RevState.addRev [DecidableEq C] (s : RevState C D) (es : List (RevEntry C D)) : RevState C D :=
  { s with rev := revAdd s.rev es }

/-- `mock_fun.py` 456-459, `add_updated_cert`; `Hsha1` is the SHA-1 digest, whatever the list's algorithm. -/
def RevState.addUpdated [DecidableEq C] (Hsha1 : C → D) (s : RevState C D) (c : C) : RevState C D :=
  { s with upd := revAdd s.upd [{ reason := "updated", cert := c, hashed := some (Hsha1 c) }] }

/-- The loop over the entries of a CertReqMessages body (426-432). `none`: template without public key. -/
def compromisedLoop [DecidableEq P] (keyOf : C → PKey P) (l : List (RevEntry C D)) : List (Option (PKey P)) → Bool
  | [] => false
  | none :: _ => false
  | some k :: ks => if revContainsKey keyOf l k then true else compromisedLoop keyOf l ks

/-- `mock_fun.py` 411-434, `check_request_for_compromised_key`. `csrKey` is the key of the PKCS#10 request,
`entries` are the keys of the CertReqMessages. The literal list contains `"crr"`, not `"ccr"`. -/
def RevState.checkCompromised [DecidableEq P] (keyOf : C → PKey P) (s : RevState C D) (body : String)
    (csrKey : PKey P) (entries : List (Option (PKey P))) : Bool :=
  if body = "p10cr" then revContainsKey keyOf s.rev csrKey
  else if body = "ir" ∨ body = "cr" ∨ body = "crr" ∨ body = "kur" then compromisedLoop keyOf s.rev entries
  else false

/-! ## `CertificateDB` revocation views (1264-1318) -/

/-- `mock_fun.py` 1277-1282, 1306-1311: the `CertRevStateDB` built for one call. `_crl_number` of the
`CertificateDB` is an attribute nothing writes after construction (default 1): it is a parameter. -/
def DB.revState (H : C → D) (db : DB C D R) (crlNumber : Int) : RevState C D :=
  RevState.build H db.revokedCerts db.updatedCerts crlNumber

/-- `mock_fun.py` 1264-1287, `CertificateDB.get_current_crl`: works on a temporary object, so `db` is unchanged. -/
def DB.currentCrl (H : C → D) (serial : C → Int) (db : DB C D R) (crlNumber : Int) (buildOk : Bool) :
    Except PyErr (Int × List Int) :=
  ((db.revState H crlNumber).crlResponse serial buildOk).1

/-- `mock_fun.py` 1289-1318, `CertificateDB.get_ocsp_response`. -/
def DB.ocspResponse (H : C → D) (serial : C → Int) (db : DB C D R) (crlNumber : Int) (add : List C) (n : Int) :
    Except PyErr (OcspAnswer C) :=
  (db.revState H crlNumber).ocspResponse serial n (db.issuedCerts ++ add)

/-! ## `KeySecurityChecker` (630-713) -/

/-- `mock_fun.py` 638-668, `_compare_pub_keys`. -/
def compareKeys [DecidableEq P] (k loaded : PKey P) : Bool :=
  match k, loaded with
  | .hybrid pq trad, .plain p => decide (p = trad ∨ p = pq)
  | .hybrid pq trad, .hybrid lpq ltrad =>
    decide (PKey.hybrid pq trad = PKey.hybrid lpq ltrad ∨ trad = ltrad ∨ pq = lpq ∨ pq = ltrad)
  | .plain p, .hybrid lpq ltrad => decide (p = ltrad ∨ p = lpq)
  | .plain p, .plain q => decide (p = q)

/-- `mock_fun.py` 680-692, `_check_contains_pub_key`. -/
def containsPubKey [DecidableEq P] [DecidableEq N] (subj : C → N) (keyOf : C → PKey P) (k : PKey P) (sender : N) :
    List C → Bool
  | [] => false
  | c :: cs =>
    if sender ≠ subj c then containsPubKey subj keyOf k sender cs
    else if compareKeys k (keyOf c) then true
    else containsPubKey subj keyOf k sender cs

/-- Result strings of `check_cert_status`. -/
inductive KeyStatus where
  | revoked | updated | inUse | good
  deriving DecidableEq, Repr

/-- `mock_fun.py` 694-713, `check_cert_status`. -/
def checkCertStatus [DecidableEq P] [DecidableEq N] (subj : C → N) (keyOf : C → PKey P)
    (issued revoked updated : List C) (k : PKey P) (sender : N) : KeyStatus :=
  if containsPubKey subj keyOf k sender revoked then .revoked
  else if containsPubKey subj keyOf k sender updated then .updated
  else if containsPubKey subj keyOf k sender issued then .inUse
  else .good

/-- `mock_fun.py` 1351-1367, `MockCAState.contains_pub_key`: all of `issued + [] + not_confirmed`. -/
def DB.containsPubKey [DecidableEq P] [DecidableEq N] (subj : C → N) (keyOf : C → PKey P) (db : DB C D R)
    (k : PKey P) (sender : N) : Bool :=
  Verif.CA.containsPubKey subj keyOf k sender (db.issuedCerts ++ [] ++ db.notConfirmedCerts)

/-- One template of a CertReqMessages body as seen by `check_same_key_cert_request`: subject and key. -/
structure TemplKey (P N : Type) where
  subject : N
  key : Option (PKey P)

/-- `cert_req_handler.py` 189-209, `is_certificate_in_list`. -/
def inCertList [DecidableEq P] [DecidableEq N] (subj : C → N) (keyOf : C → PKey P) (t : TemplKey P N) (l : List C) : Bool :=
  match t.key with
  | none => false
  | some k => l.any (fun c => decide (subj c = t.subject) && decide (keyOf c = k))

/-- `cert_req_handler.py` 246-260: the loop over the templates of ir/cr/kur/ccr. -/
def sameKeyLoop [DecidableEq P] [DecidableEq N] (subj : C → N) (keyOf : C → PKey P) (db : DB C D R) :
    List (TemplKey P N) → Except PyErr Unit
  | [] => .ok ()
  | t :: ts =>
    if inCertList subj keyOf t db.issuedCerts then .error .badCertTemplate
    else match t.key with
      | some k => if db.containsPubKey subj keyOf k t.subject then .error .badCertTemplate
        else sameKeyLoop subj keyOf db ts
      | none => sameKeyLoop subj keyOf db ts

/-- `cert_req_handler.py` 211-260, `check_same_key_cert_request`. For `p10cr`: `ts` holds the CSR key (absent
when the BIT STRING is empty, then the function returns) followed by the chameleon delta key if there is one,
both with the CSR's subject. Keys that cannot be loaded raise in the code and are outside the model. -/
def checkSameKey [DecidableEq P] [DecidableEq N] (subj : C → N) (keyOf : C → PKey P) (db : DB C D R)
    (allowCertReq allowKur : Bool) (body : String) (ts : List (TemplKey P N)) : Except PyErr Unit :=
  if allowCertReq ∧ (body = "ir" ∨ body = "cr" ∨ body = "p10cr" ∨ body = "ccr") then .ok ()
  else if allowKur ∧ body = "kur" then .ok ()
  else if body = "p10cr" then
    match ts with
    | [] => .ok ()
    | t :: ts =>
      match t.key with
      | none => .ok ()
      | some k =>
        if db.containsPubKey subj keyOf k t.subject then .error .badCertTemplate
        else match ts with
          | [] => .ok ()
          | d :: _ =>
            match d.key with
            | none => .ok ()
            | some dk => if db.containsPubKey subj keyOf dk t.subject then .error .badCertTemplate else .ok ()
  else sameKeyLoop subj keyOf db ts

end Verif.CA
