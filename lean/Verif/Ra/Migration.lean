import Verif.Check.Template
import Verif.PQ.Hybrid
import Verif.Ra.SigAlg

/-!
# Checks of cross-signed certificates and of certificates with migrated algorithms

Model of `resources/certutils.py`: `is_ca_cert` (2341-2363), `_validate_key_identifiers` (2366-2390),
`_validate_cross_signed_cert` (2393-2438), `validate_ca_cross_signed_cert` (2442-2483), `validate_migration_alg_id`
(2006-2042), `validate_migration_certificate_key_usage` (2046-2091), `_validate_oid_in_cert_stfl` (2094-2110),
`validate_migration_oid_in_certificate` (2125-2170).

External: the decoding of extensions, loading of keys and verification of signatures. pyasn1: the field `cA` of
BasicConstraints has a default, so that its `isValue` is true whatever its value is; a Sequence is never equal to an
octet text; absent extensions of a template are iterated as no extension.
-/

namespace Verif.Ra.Migration

open Verif.CA Verif.Check

/-! ## Cross-signed certificates -/

section Cross

variable {A G T K : Type}

/-- External operations. `basic`: `none` without BasicConstraints, otherwise the value of `cA`; `ski`: the subject key
identifier; `aki`: the `keyIdentifier` of the authority key identifier (the inner `none` if that has no value);
`loadKey`: `load_public_key_from_cert` and `ensure_is_verify_key`; `verify`: `verify_cert_signature`; `loadSpki`: the
loading of a public key in the comparison with the template; `missing`: the exception for a missing extension (the
message is built with `may_return_oid_to_name`). -/
structure CrossEnv (A G T K : Type) where
  basic : Cert A G T → Except PyErr (Option Bool)
  ski : Cert A G T → Except PyErr (Option Bytes)
  aki : Cert A G T → Except PyErr (Option (Option Bytes)) := fun _ => .ok none
  loadKey : Cert A G T → Except PyErr K
  verify : Cert A G T → K → Except PyErr Unit
  loadSpki : Spki G → Except PyErr (Spki G) := .ok
  missing : Ext → PyErr := fun _ => .valueError

/-- `certutils.py` 2341-2363, `is_ca_cert`: `basic_constraints["cA"].isValue`, which is true since the field has a
default value. -/
def isCaCert (env : CrossEnv A G T K) (c : Cert A G T) : Except PyErr (Option Bool) :=
  match env.basic c with
  | .error e => .error e
  | .ok none => .ok none
  | .ok (some _) => .ok (some true)

/-- The use of `is_ca_cert` in 2405-2417. -/
def mustBeCa (env : CrossEnv A G T K) (c : Cert A G T) : Except PyErr Unit :=
  match isCaCert env c with
  | .error e => .error e
  | .ok none => .error .valueError
  | .ok (some b) => if !b then .error .valueError else .ok ()

/-- `ski_issuer_cert == aki_cert` (2389): `bytes` against an `AuthorityKeyIdentifier` structure (or `None`). -/
def bytesEqAki (_ : Bytes) (_ : Option (Option Bytes)) : Bool := false

/-- `certutils.py` 2366-2390, `_validate_key_identifiers`. -/
def checkKeyIds (env : CrossEnv A G T K) (cross issuer : Cert A G T) : Except PyErr Unit :=
  match env.ski cross with
  | .error e => .error e
  | .ok sc =>
    match env.ski issuer with
    | .error e => .error e
    | .ok si =>
      match env.aki cross with
      | .error e => .error e
      | .ok ak =>
        match sc, si with
        | some a, some b =>
          if a = b then .error .valueError
          else if bytesEqAki b ak then .error .valueError
          else .ok ()
        | _, _ => .error .valueError

/-- `certutils.py` 2393-2438, `_validate_cross_signed_cert`. -/
def checkCrossSigned [DecidableEq A] (env : CrossEnv A G T K) (cross issuer : Cert A G T) : Except PyErr Unit :=
  match mustBeCa env cross with
  | .error e => .error e
  | .ok () =>
    match mustBeCa env issuer with
    | .error e => .error e
    | .ok () =>
      if compareNames cross.subject cross.issuer .withoutTag then .error .valueError
      else if compareNames cross.subject issuer.subject .withoutTag then .error .valueError
      else match checkKeyIds env cross issuer with
        | .error e => .error e
        | .ok () =>
          match env.loadKey issuer with
          | .error e => .error e
          | .ok k => env.verify cross k

/-- The loop over the template's extensions (2480-2483). -/
def crossExts (env : CrossEnv A G T K) (have_ : List Ext) : List Ext → Except PyErr Unit
  | [] => .ok ()
  | e :: es => if e ∉ have_ then .error (env.missing e) else crossExts env have_ es

/-- `certutils.py` 2442-2483, `validate_ca_cross_signed_cert`. -/
def validateCross [DecidableEq A] [DecidableEq G] [DecidableEq T] (env : CrossEnv A G T K) (cross : Cert A G T)
    (t : Templ A G T) (ca : Cert A G T) : Except PyErr Unit :=
  match checkCrossSigned env cross ca with
  | .error e => .error e
  | .ok () =>
    match compareTemplate env.loadSpki t cross none (some "extensions,signingAlg,issuer".toList) false with
    | .error e => .error e
    | .ok false => .error .valueError
    | .ok true => crossExts env cross.exts (t.exts.getD [])

end Cross

/-! ## Migrated algorithms -/

/-- `oidutils.py` 757-772, `HYBRID_NAME_2_OID` (the names of the four tables are different). -/
def hybridNameToOid : List (String × List Nat) :=
  PQ.CSig.nameToOid ++ PQ.Hyb.chempatNameToOid ++ [("xwing", [1, 3, 6, 1, 4, 1, 62253, 25722])] ++
    PQ.Hyb.kemNameToOid

/-- Membership in `PQ_OID_2_NAME`. -/
def isPqOid (o : List Nat) : Bool := pqNames.any (fun e => e.1 = o)

/-- Membership in `HYBRID_OID_2_NAME`. -/
def isHybridOid (o : List Nat) : Bool := hybridNameToOid.any (fun e => e.2 = o)

/-- `certutils.py` 2006-2042, `validate_migration_alg_id`; `params`: the field `parameters` has a value. -/
def checkMigrationAlg (oid : List Nat) (params : Bool) : Except PyErr Unit :=
  if !isPqOid oid then
    if params then .error .valueError else .ok ()
  else if isHybridOid oid then
    if params then .error .valueError else .ok ()
  else .error .unknownOID

/-- The classes of public keys the code distinguishes: post-quantum or composite signature keys, keys of KEMs (pure and
hybrid), other keys. -/
inductive PubClass
  | pqSig | kem | other
deriving DecidableEq, Repr

/-- `sig_usages` (2075). -/
def sigUsages : List (List Char) := ["digitalSignature", "nonRepudiation", "keyCertSign", "cRLSign"].map String.toList

/-- `ml_dsa_disallowed` (2078). -/
def sigDisallowed : List (List Char) :=
  ["keyEncipherment", "dataEncipherment", "keyAgreement", "encipherOnly", "decipherOnly"].map String.toList

/-- The branch for signature keys (2077-2083). -/
def sigUsageCheck (names : List (List Char)) : Except PyErr Unit :=
  if !names.all (fun n => decide (n ∈ sigUsages)) then .error .valueError
  else if names.any (fun n => decide (n ∈ sigDisallowed)) then .error .valueError
  else .ok ()

/-- `set(key_usage) != {"keyEncipherment"}` (2087). -/
def onlyKeyEncipherment (names : List (List Char)) : Bool :=
  decide ("keyEncipherment".toList ∈ names) && names.all (fun n => decide (n = "keyEncipherment".toList))

/-- The checks on the names of the bits that are set (2073-2091). -/
def usageCheck (k : PubClass) (names : List (List Char)) : Except PyErr Unit :=
  match (if k = .pqSig then sigUsageCheck names else .ok ()) with
  | .error e => .error e
  | .ok () =>
    if k = .kem then
      if !onlyKeyEncipherment names then .error .valueError else .ok ()
    else .error .valueError

/-- `certutils.py` 2046-2091, `validate_migration_certificate_key_usage`. `key`: the class of the loaded key; `usage`:
the bits of the extension, `none` if it is absent; `bitNames`: the names of the bits. -/
def checkMigrationUsage (bitNames : List (List Char)) (key : Except PyErr PubClass)
    (usage : Except PyErr (Option (List Bool))) : Except PyErr Unit :=
  match key with
  | .error e => .error e
  | .ok k =>
    match usage with
    | .error e => .error e
    | .ok none => .ok ()
    | .ok (some bits) => usageCheck k (splitNames (setNames bitNames bits))

/-- `certutils.py` 2094-2110, `_validate_oid_in_cert_stfl`; `key`: loading the key gives its name if it is a stateful
hash-based signature key. -/
def checkStateful (name : String) (key : Except PyErr (Option String)) : Except PyErr Unit :=
  match key with
  | .error e => .error e
  | .ok none => .error .valueError
  | .ok (some n) => if name ≠ n then .error .valueError else .ok ()

/-- `alg_name.startswith("xmss") or … or alg_name.startswith("hss")` (2150). -/
def statefulPrefix (name : String) : Bool :=
  "xmss".toList.isPrefixOf name.toList || "xmssmt".toList.isPrefixOf name.toList || "hss".toList.isPrefixOf name.toList

/-- `PQ_NAME_2_OID.get(alg_name)`. -/
def pqOidOf (name : String) : Option (List Nat) := (pqNames.find? (fun e => e.2 = name)).map (·.1)

/-- `HYBRID_NAME_2_OID.get(alg_name)`. -/
def hybridOidOf (name : String) : Option (List Nat) := (hybridNameToOid.find? (fun e => e.1 = name)).map (·.2)

/-- `certutils.py` 2125-2170, `validate_migration_oid_in_certificate`; `oid`: the algorithm of the certificate's key. -/
def checkMigrationOid (oid : List Nat) (key : Except PyErr (Option String)) (name : String) : Except PyErr Unit :=
  if statefulPrefix name then checkStateful name key
  else match pqOidOf name with
    | some o => if oid ≠ o then .error .valueError else .ok ()
    | none =>
      match hybridOidOf name with
      | some o => if oid ≠ o then .error .valueError else .ok ()
      | none => .error .valueError

end Verif.Ra.Migration
