import Verif.CA.Base

/-!
# The check of the public key of an issued certificate (resources/compareutils.py 583-684, resources/oid_mapping.py
262-272, resources/oidutils.py 468-839)

Keys, their comparison and the loading of them are parameters.  Of the table of all names the part between lines 746 and 777
is given in full; the tables put in before and after it are parameters.
-/

namespace Verif.Check.PubKey

open Verif.CA (PyErr)

abbrev Oid := List Nat

/-- What is a key or a value of the tables of names: an object identifier, or a text.  The two are never equal in Python. -/
inductive Ent where
  | oid (o : Oid)
  | text (s : String)
deriving DecidableEq, Repr

/-- A Python dictionary, in the order of iteration. -/
abbrev Dict := List (Ent × Ent)

/-- `d[k] = v`: a new key is the last one, a known one keeps its place. -/
def insert (k v : Ent) : Dict → Dict
  | [] => [(k, v)]
  | (k', v') :: d => if k' = k then (k, v) :: d else (k', v') :: insert k v d

/-- `d.update(l)`. -/
def update (d l : Dict) : Dict := l.foldl (fun d x => insert x.1 x.2 d) d

/-- `{y: x for x, y in d.items()}`. -/
def invert (d : Dict) : Dict := d.foldl (fun r x => insert x.2 x.1 r) []

/-- `d.get(k)`. -/
def look (k : Ent) : Dict → Option Ent
  | [] => none
  | (k', v) :: d => if k' = k then some v else look k d

/-- `oidutils.py` 746-753, `TRAD_STR_OID_TO_KEY_NAME`. -/
def tradStr : Dict :=
  [(.text "1.3.101.110", .text "x25519"), (.text "1.3.101.111", .text "x448"), (.text "1.3.101.112", .text "ed25519"),
   (.text "1.3.101.113", .text "ed448"), (.text "1.2.840.113549.1.1.1", .text "rsa"),
   (.text "1.2.840.113549.1.9.16.3.14", .text "rsa-kem")]

/-- `oidutils.py` 468-838, `ALL_KNOWN_OIDS_2_NAME`: `pre` is what it is at line 776, `post` what is put in after line 777. -/
def allKnown (pre post : Dict) : Dict := update (update (insert (.oid [1, 2, 840, 113549, 1, 1, 1]) (.text "rsa") pre) tradStr) post

/-- `oid_mapping.py` 262-272, `may_return_oid_by_name`, with `oidutils.py` 839; `parse` is the conversion of a text with a dot. -/
def oidByName (pre post : Dict) (parse : String → Except PyErr Oid) (name : String) : Except PyErr Ent :=
  if '.' ∈ name.toList then (parse name).map .oid
  else
    match look (.text name) (invert (allKnown pre post)) with
    | none => .error .keyError
    | some e => .ok e

/-- `rfc5280.SubjectPublicKeyInfo`. -/
structure Spki where
  oid : Oid
  params : Option (List UInt8)
  bits : List UInt8
deriving DecidableEq, Repr

/-- Keys. -/
structure KeyEnv (S K : Type) where
  /-- `load_public_key_from_spki` -/
  load : Spki → Except PyErr K
  /-- `public_key()` -/
  pubOf : S → K
  /-- `==` -/
  eq : K → K → Bool
  /-- `type(a) is type(b)` -/
  sameType : K → K → Bool

/-- The key given to the check. -/
inductive KeyArg (S K : Type) where
  | priv (s : S)
  | spki (i : Spki)
  | pub (k : K)

variable {S K : Type}

/-- `compareutils.py` 674-680. -/
def wanted (env : KeyEnv S K) : KeyArg S K → Except PyErr K
  | .priv s => .ok (env.pubOf s)
  | .spki i => env.load i
  | .pub k => .ok k

/-- `compareutils.py` 682. -/
def wantedSpki : KeyArg S K → Option Spki
  | .spki i => some i
  | _ => none

/-- `compareutils.py` 629-636: the name; `byName` is `may_return_oid_by_name`. -/
def checkName (byName : String → Except PyErr Ent) (certOid : Oid) : Option String → Except PyErr Unit
  | none => .ok ()
  | some n =>
    match byName n with
    | .error e => .error e
    | .ok e => if e ≠ .oid certOid then .error .valueError else .ok ()

/-- `compareutils.py` 638-646: the given structure. -/
def checkSpki (certOid : Oid) : Option Spki → Except PyErr Unit
  | none => .ok ()
  | some i => if certOid ≠ i.oid then .error .valueError else .ok ()

/-- `compareutils.py` 601-646, `_verify_spki_alg_id`. -/
def verifyAlg (env : KeyEnv S K) (byName : String → Except PyErr Ent) (cert : Spki) (k : K) (i : Option Spki)
    (name : Option String) : Except PyErr Unit :=
  match env.load cert with
  | .error e => .error e
  | .ok l =>
    if env.eq k l = false then .error .valueError
    else if env.sameType k l = false then .error .valueError
    else
      match checkName byName cert.oid name with
      | .error e => .error e
      | .ok () => checkSpki cert.oid i

/-- `compareutils.py` 649-684, `validate_certificate_public_key`; of the certificate only the `subjectPublicKeyInfo` is used. -/
def validate (env : KeyEnv S K) (byName : String → Except PyErr Ent) (cert : Spki) (key : KeyArg S K) (name : Option String) :
    Except PyErr Unit :=
  match wanted env key with
  | .error e => .error e
  | .ok k => verifyAlg env byName cert k (wantedSpki key) name

/-- The `parameters` of an `AlgorithmIdentifier`. -/
inductive Params where
  | absent
  | null
  | any (b : List UInt8)
  | other
deriving DecidableEq, Repr

/-- `compareutils.py` 583-598, `check_if_alg_id_parameters_is_absent`; `Null("")` has no octets, and so has an `Any` without. -/
def paramsAbsent (allowNull : Bool) : Params → Bool
  | .absent => true
  | .null => allowNull
  | .any b => (allowNull && decide (b = [])) || decide (b = [5, 0])
  | .other => false

end Verif.Check.PubKey
