import Verif.Check.Helpers
import Verif.CA.Errors

/-!
# Comparing a `CertTemplate` with a certificate (resources/compareutils.py 94-352), option strings
(resources/utils.py 242-262) and revocation requests (resources/ca_ra_utils.py 2664-2717, 3337-3680)

A name attribute is a value of an arbitrary type `A`, an algorithm identifier a value of `G`, a point in time a
value of `T`. Equality of DER encodings is equality of values. `load` is `load_public_key_from_cert` followed by
re-encoding the loaded key as SubjectPublicKeyInfo: it may raise and may change the encoding.
-/

namespace Verif.Check

open Verif.CA (Bytes PyErr)

/-! ## Option strings -/

/-- `str.split(",")`. -/
def splitComma : List Char → List (List Char)
  | [] => [[]]
  | c :: cs =>
    if c = ',' then [] :: splitComma cs
    else match splitComma cs with
      | [] => [[c]]
      | t :: ts => (c :: t) :: ts

/-- `utils.py` 242-262, `filter_options`: the list of options to exclude. The tokens are not stripped one by one. -/
def filterOptions (options : List (List Char)) (incl excl : Option (List Char)) : List (List Char) :=
  match incl with
  | none =>
    match excl with
    | none => []
    | some e => splitComma (stripL e)
  | some i => options.filter (fun o => decide (o ∉ splitComma (stripL i)))

/-- `list(rfc4211.CertTemplate().keys())`. -/
def templateKeys : List (List Char) :=
  ["version", "serialNumber", "signingAlg", "issuer", "validity", "subject", "publicKey", "issuerUID",
   "subjectUID", "extensions"].map String.toList

/-! ## Templates and certificates -/

/-- SubjectPublicKeyInfo: algorithm identifier and key bits. -/
structure Spki (G : Type) where
  alg : G
  bits : Bytes
  deriving DecidableEq

/-- An extension: OID (arcs) and value. -/
structure Ext where
  oid : List Nat
  value : Bytes
  deriving DecidableEq

/-- `CertTemplate` (RFC 4211): every field is optional; `validity` has two optional times. `signingAlg` is not
read by the modelled code. -/
structure Templ (A G T : Type) where
  version : Option Int := none
  serial : Option Int := none
  issuer : Option (DName A) := none
  validity : Option (Option T × Option T) := none
  subject : Option (DName A) := none
  key : Option (Spki G) := none
  issuerUID : Option Bytes := none
  subjectUID : Option Bytes := none
  exts : Option (List Ext) := none

/-- The fields of `CMPCertificate["tbsCertificate"]` the comparison reads, and the rest (`other`) that makes two
certificates different. -/
structure Cert (A G T : Type) where
  version : Int := 2
  serial : Int
  issuer : DName A
  notBefore : T
  notAfter : T
  subject : DName A
  spki : Spki G
  issuerUID : Option Bytes := none
  subjectUID : Option Bytes := none
  exts : List Ext := []
  other : Bytes := []
  deriving DecidableEq

variable {A G T : Type}

/-- `compareutils.py` 94-123, `_compare_validity_template_and_cert`. -/
def cmpValidity [DecidableEq T] (t : Templ A G T) (c : Cert A G T) (exclude : Bool) : Bool :=
  if exclude then true
  else match t.validity with
    | none => true
    | some (nb, na) =>
      if nb.any (fun d => decide (d ≠ c.notBefore)) then false
      else if na.any (fun d => decide (d ≠ c.notAfter)) then false
      else true

/-- `compareutils.py` 126-162, `_compare_public_key_template_and_cert`. -/
def cmpKey [DecidableEq G] (load : Spki G → Except PyErr (Spki G)) (t : Templ A G T) (c : Cert A G T)
    (exclude : Bool) : Except PyErr Bool :=
  if exclude then .ok true
  else match t.key with
    | none => .ok true
    | some k =>
      if k.bits ≠ [] then
        match load c.spki with
        | .error e => .error e
        | .ok k' => if k' ≠ k then .ok false else .ok true
      else if k.alg = c.spki.alg then .ok true
      else .ok false

/-- `cmputils.py` 4232-4250, `contains_extension` for a certificate. -/
def containsExt (l : List Ext) (oid : List Nat) : Bool := l.any (fun e => decide (e.oid = oid))

/-- `compareutils.py` 165-184, `_compare_extensions_subject_template_and_cert`: OIDs only. -/
def cmpExts (t : Templ A G T) (c : Cert A G T) (exclude : Bool) : Bool :=
  if exclude then true
  else match t.exts with
    | none => true
    | some l => l.all (fun e => containsExt c.exts e.oid)

/-- One of the two tests of `_compare_uids_template_and_cert` (203-208, 210-215). -/
def cmpUid (t c : Option Bytes) : Bool :=
  match t with
  | none => true
  | some u =>
    match c with
    | none => false
    | some v => decide (u = v)

/-- `compareutils.py` 187-217, `_compare_uids_template_and_cert`. -/
def cmpUids (t : Templ A G T) (c : Cert A G T) (exclude : List (List Char)) : Bool :=
  if "issuerUID".toList ∉ exclude ∧ cmpUid t.issuerUID c.issuerUID = false then false
  else if "subjectUID".toList ∉ exclude ∧ cmpUid t.subjectUID c.subjectUID = false then false
  else true

/-- `compareutils.py` 220-271, `_compare_issuer_and_subject_template_and_cert` (the logging is dropped). -/
def cmpNames [DecidableEq A] (t : Templ A G T) (c : Cert A G T) (exclude : List (List Char)) (strict : Bool) : Bool :=
  if "issuer".toList ∉ exclude ∧ t.issuer.any (fun n => !compareNames n c.issuer .withoutTag) then false
  else if "subject".toList ∉ exclude ∧
      t.subject.any (fun n => !compareNames n c.subject (if strict then .withoutTag else .contains)) then false
  else true

/-- `compareutils.py` 275-352, `compare_cert_template_and_cert`. -/
def compareTemplate [DecidableEq A] [DecidableEq G] [DecidableEq T] (load : Spki G → Except PyErr (Spki G))
    (t : Templ A G T) (c : Cert A G T) (incl excl : Option (List Char)) (strict : Bool) : Except PyErr Bool :=
  let ex := filterOptions templateKeys incl excl
  if "serialNumber".toList ∉ ex ∧ t.serial.any (fun n => decide (n ≠ c.serial)) then .ok false
  else if cmpExts t c (decide ("extensions".toList ∈ ex)) = false then .ok false
  else if cmpNames t c ex strict = false then .ok false
  else match cmpKey load t c (decide ("publicKey".toList ∈ ex)) with
    | .error e => .error e
    | .ok false => .ok false
    | .ok true =>
      if cmpValidity t c (decide ("validity".toList ∈ ex)) = false then .ok false
      else if cmpUids t c ex = false then .ok false
      else if "version".toList ∉ ex ∧ t.version.any (fun v => decide (v ≠ c.version)) then .ok false
      else .ok true

/-! ## Revocation requests -/

/-- `ca_ra_utils.py` 3337-3356, `_contains_cert_template`. The first component of a `BadCertId` tells which of
the two messages is used (`found`); the flag is overwritten in every round. -/
def containsLoop [DecidableEq A] [DecidableEq G] [DecidableEq T] (load : Spki G → Except PyErr (Spki G))
    (t : Templ A G T) : Bool → List (Cert A G T) → Except (PyErr × Bool) (Cert A G T)
  | found, [] => .error (.badCertId, found)
  | _, c :: cs =>
    match compareTemplate load t c (some "serialNumber, issuer".toList) none false with
    | .error e => .error (e, false)
    | .ok found =>
      match compareTemplate load t c none none true with
      | .error e => .error (e, false)
      | .ok true => .ok c
      | .ok false => containsLoop load t found cs

/-- `_contains_cert_template` with the message dropped. -/
def containsTemplate [DecidableEq A] [DecidableEq G] [DecidableEq T] (load : Spki G → Except PyErr (Spki G))
    (t : Templ A G T) (cs : List (Cert A G T)) : Except PyErr (Cert A G T) :=
  (containsLoop load t false cs).mapError (·.1)

/-- `rfc5280.id_ce_cRLReasons`, 2.5.29.21. -/
def crlReasonsOid : List Nat := [2, 5, 29, 21]

/-- `rfc5280.CRLReason.namedValues`. -/
def crlReasons : List (Int × String) :=
  [(0, "unspecified"), (1, "keyCompromise"), (2, "cACompromise"), (3, "affiliationChanged"), (4, "superseded"),
   (5, "cessationOfOperation"), (6, "certificateHold"), (8, "removeFromCRL"), (9, "privilegeWithdrawn"),
   (10, "aACompromise")]

/-- `ca_ra_utils.py` 3359-3408, `validate_rr_crl_entry_details_reason`. `decode` is the DER decoder for an
ENUMERATED: value and remaining bytes, or `none` for a pyasn1 error. -/
def crlReason (decode : Bytes → Option (Int × Bytes)) (details : Option (List Ext)) (mustBe : Option String) :
    Except PyErr String :=
  match details with
  | none => .error .badRequest
  | some [e] =>
    if e.oid ≠ crlReasonsOid then .error .badRequest
    else match decode e.value with
      | none => .error .badAsn1Data
      | some (n, rest) =>
        if rest ≠ [] then .error .badAsn1Data
        else match crlReasons.lookup n with
          | none => .error .badAsn1Data
          | some r => if mustBe.any (fun m => decide (r ≠ m)) then .error .valueError else .ok r
  | some _ => .error .badRequest

/-- `RevDetails`. -/
structure RevDetails (A G T : Type) where
  certDetails : Templ A G T
  crlEntryDetails : Option (List Ext)

/-- `ca_ra_utils.py` 3449-3463, `_check_rev_details_mandatory_fields`; `v2` is 1. -/
def revMandatory (t : Templ A G T) : Except PyErr Unit :=
  if t.issuer.isNone then .error .addInfoNotAvailable
  else if t.serial.isNone then .error .addInfoNotAvailable
  else if t.version.any (fun v => decide (v ≠ 1)) then .error .badRequest
  else .ok ()

/-- `certutils.py` 1053-1066, `cert_in_list`. -/
def certInList [DecidableEq A] [DecidableEq G] [DecidableEq T] (c : Cert A G T) (l : List (Cert A G T)) : Bool := l.any (fun x => decide (c = x))

/-- `ca_ra_utils.py` 3466-3477, `_check_cert_for_revoked`. -/
def checkRevoked [DecidableEq A] [DecidableEq G] [DecidableEq T] (c : Cert A G T) (revoked : Option (List (Cert A G T))) : Except PyErr Unit :=
  match revoked with
  | none => .ok ()
  | some l => if certInList c l then .error .certRevoked else .ok ()

/-- `ca_ra_utils.py` 3480-3495, `_check_cert_for_revive`. -/
def checkRevive [DecidableEq A] [DecidableEq G] [DecidableEq T] (c : Cert A G T) (revoked : Option (List (Cert A G T))) : Except PyErr Unit :=
  match revoked with
  | none => .ok ()
  | some l => if certInList c l then .ok () else .error .badCertId

section
variable [DecidableEq A] [DecidableEq G] [DecidableEq T]

/-- `ca_ra_utils.py` 3498-3552, `validate_rev_details`. -/
def validateRevDetails (load : Spki G → Except PyErr (Spki G)) (decode : Bytes → Option (Int × Bytes))
    (d : RevDetails A G T) (issued : List (Cert A G T)) (revoked : Option (List (Cert A G T))) :
    Except PyErr (String × Cert A G T) :=
  match revMandatory d.certDetails with
  | .error e => .error e
  | .ok () =>
    match containsTemplate load d.certDetails issued with
    | .error e => .error e
    | .ok c =>
      match crlReason decode d.crlEntryDetails none with
      | .error e => .error e
      | .ok r =>
        match (if r = "removeFromCRL" then checkRevive c revoked else checkRevoked c revoked) with
        | .error e => .error e
        | .ok () => .ok (r, c)

/-- The loop 3634-3675 of `build_rp_from_rr` (`add_another_details=False`, no CRLs). A status is `none`
(accepted) or the exception whose `failinfo` the rejection carries. Without `enforce_lwcmp` line 3660 reads
`entry["certDetails"]`, but `entry` has been rebound to the result dictionary, which has no such key. -/
def rpLoop (load : Spki G → Except PyErr (Spki G)) (decode : Bytes → Option (Int × Bytes))
    (issued : List (Cert A G T)) (revoked : Option (List (Cert A G T))) (lwcmp : Bool) :
    List (RevDetails A G T) → Except PyErr (List (Option PyErr) × List (String × Cert A G T))
  | [] => .ok ([], [])
  | d :: ds =>
    match validateRevDetails load decode d issued revoked with
    | .error e =>
      if e.isCmp then
        if lwcmp then
          match rpLoop load decode issued revoked lwcmp ds with
          | .error e' => .error e'
          | .ok (sts, data) => .ok (some e :: sts, data)
        else .error .keyError
      else .error e
    | .ok x =>
      if lwcmp then
        match rpLoop load decode issued revoked lwcmp ds with
        | .error e' => .error e'
        | .ok (sts, data) => .ok (none :: sts, x :: data)
      else .error .keyError

/-- `ca_ra_utils.py` 3557-3680, `build_rp_from_rr` with `verify=False`, as the mock CA calls it; the header is
dropped. `enforce_lwcmp_for_ca` (2664-2717) requires exactly one entry. -/
def buildRp (load : Spki G → Except PyErr (Spki G)) (decode : Bytes → Option (Int × Bytes))
    (issued : List (Cert A G T)) (revoked : Option (List (Cert A G T))) (lwcmp : Bool) (rr : List (RevDetails A G T)) :
    Except PyErr (List (Option PyErr) × List (String × Cert A G T)) :=
  if lwcmp ∧ rr.length ≠ 1 then .error .badRequest
  else rpLoop load decode issued revoked lwcmp rr

end

end Verif.Check
