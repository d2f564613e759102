import Verif.Ra.SigAlg

/-!
# The algorithm of a signature from key and hash

* `resources/oid_mapping.py` 50-102, 189-231, 275-308: `get_signing_oid`, `get_alg_oid_from_key_hash`,
  `get_digest_hash_alg_from_alg_id`;
* `resources/prepare_alg_ids.py` 637-765: `prepare_rsa_pss_alg_id`, `prepare_sig_alg_id`;
* `pq_logic/keys/sig_keys.py` 143-163, 469-485, 830-842: `check_hash_alg`;
* `resources/keyutils.py` 1361-1407: `get_digest_alg_for_cmp`;
* `resources/envdatautils.py` 2175-2221: `get_digest_from_key_hash`.

Simplified: a key is given by its class and name (`SigKey`); the random parameters are not given by their bytes; the names
of MACs, which `get_signing_oid` looks the class of the key up in at the end, do not occur as classes, so that this lookup
finds nothing.
-/

namespace Verif.Ra

open Verif.CA (PyErr)
open Verif.Prot (Oid look lookOid rsaNames pssNames ecdsaNames hashMap ed25519Oid ed448Oid pssOid pss128Oid pss256Oid dsaOid
  oidOfName hashInst digestSize)

/-! ## The identifier -/

/-- `oid_mapping.py` 69-73, `extra_data`. -/
def extraData : List (Oid × String) :=
  [(pssOid, "rsa-sha256-pss"), (pss128Oid, "rsa-shake128-pss"), (pss256Oid, "rsa-shake256-pss")]

/-- `oid_mapping.py` 50-67 and 85-86: `KEY_CLASS_MAPPING`. -/
def keyType : SigKey → String
  | .rsa => "rsa"
  | .ec => "ecdsa"
  | .ed25519 => "ed25519"
  | .ed448 => "ed448"
  | .dsa => "dsa"
  | .pq _ => ""
  | .stateful _ => ""
  | .composite _ => ""

/-- `oid_mapping.py` 88-90. -/
def signName (t : String) (h : String) (pss : Bool) : String :=
  if pss = true ∧ t = "rsa" then t ++ "-" ++ h ++ "-pss" else t ++ "-" ++ h

/-- `oid_mapping.py` 99-102. -/
def typeOid (t name : String) : Option Oid :=
  match lookOid tradNames t with
  | some o => some o
  | none => lookOid hashMap name

/-- `oid_mapping.py` 76-102, `get_signing_oid`; `t` is the class. -/
def signingOid (t : String) (h : Option String) (pss : Bool) : Option Oid :=
  match h with
  | none => typeOid t t
  | some x =>
    match lookOid extraData (signName t x pss) with
    | some o => some o
    | none => typeOid t (signName t x pss)

/-- `oidutils.py` 553-557: the names of ML-DSA. -/
def mlNames : List String := ["ml-dsa-44", "ml-dsa-65", "ml-dsa-87"]

/-- `oidutils.py` 598-611: `SLH_DSA_PRE_HASH_NAME_2_OID`. -/
def slhPreHash : List (Oid × String) := preHashNames.drop 3

/-- `oidutils.py` 619-632: `SLH_DSA_HASH_MAPPING`. -/
def slhHash : List (String × String) :=
  [("slh-dsa-sha2-128s", "sha256"), ("slh-dsa-sha2-128f", "sha256"), ("slh-dsa-sha2-192s", "sha512"),
   ("slh-dsa-sha2-192f", "sha512"), ("slh-dsa-sha2-256s", "sha512"), ("slh-dsa-sha2-256f", "sha512"),
   ("slh-dsa-shake-128s", "shake128"), ("slh-dsa-shake-128f", "shake128"), ("slh-dsa-shake-192s", "shake256"),
   ("slh-dsa-shake-192f", "shake256"), ("slh-dsa-shake-256s", "shake256"), ("slh-dsa-shake-256f", "shake256")]

/-- `sig_keys.py` 143-163 (ML-DSA), 469-485 (SLH-DSA), 830-842 (Falcon): `check_hash_alg` of a key with this name. -/
def checkHash (name : String) (h : Option String) : Option String :=
  match h with
  | none => none
  | some x =>
    if name ∈ mlNames then (if x = "sha512" then some x else none)
    else if (slhHash.lookup name).isSome then (if (lookOid slhPreHash (name ++ "-" ++ x)).isSome then some x else none)
    else none

/-- `oid_mapping.py` 214-216. -/
def hashedName (name : String) : Option String → String
  | none => name
  | some x => name ++ "-" ++ x

/-- `oid_mapping.py` 228-231. -/
def oidOr : Option Oid → Except PyErr Oid
  | none => .error .valueError
  | some o => .ok o

/-- `oid_mapping.py` 211-218. -/
def pqOid (o : Option Oid) (name : String) (h : Option String) : Except PyErr Oid :=
  match o with
  | some o => .ok o
  | none =>
    match lookOid pqNames (hashedName name (checkHash name h)) with
    | none => .error .keyError
    | some o => .ok o

/-- `oid_mapping.py` 189-231, `get_alg_oid_from_key_hash`. -/
def algOid (k : SigKey) (h : Option String) (pss : Bool) : Except PyErr Oid :=
  match k with
  | .dsa => if h = some "sha256" then .ok dsaOid else .error .valueError
  | .pq name => pqOid (signingOid (keyType k) h pss) name h
  | .composite get => get pss
  | .stateful o => .ok o
  | _ => oidOr (signingOid (keyType k) h pss)

/-! ## The parameters -/

/-- The parameters of an algorithm of signatures; `random`: 16 bytes of `os.urandom`. Those of PSS: the hash, which is also
the one of MGF1, whether its own parameters are NULL (and not random), and the length of the salt. -/
inductive SigPar where
  | absent
  | null
  | random
  | pss (hash : Oid) (nullPar : Bool) (salt : Int)
  deriving DecidableEq, Repr

/-- An `AlgorithmIdentifier`. -/
structure SigAlgId where
  oid : Oid
  par : SigPar
  deriving DecidableEq, Repr

/-- `prepare_alg_ids.py` 684: `salt_length or hash_inst.digest_size`. -/
def saltLen (salt : Option Int) (n : String) : Int :=
  match salt with
  | none => digestSize n
  | some 0 => digestSize n
  | some k => k

/-- `prepare_alg_ids.py` 637-690, `prepare_rsa_pss_alg_id`. -/
def pssAlgId (h : String) (salt : Option Int) (rnd : Bool) : Except PyErr SigAlgId :=
  if h = "shake128" then .ok ⟨pss128Oid, if rnd then .random else .absent⟩
  else if h = "shake256" then .ok ⟨pss256Oid, if rnd then .random else .absent⟩
  else
    match oidOfName h with
    | .error e => .error e
    | .ok o =>
      match hashInst h with
      | .error e => .error e
      | .ok n => .ok ⟨pssOid, .pss o (!rnd) (saltLen salt n)⟩

/-- `prepare_alg_ids.py` 752-765: the parameters, of which `p` are there. -/
def lastPar (o : Oid) (p : SigPar) (rnd : Bool) (null : Option Bool) : Except PyErr SigAlgId :=
  if rnd = true ∧ null = some true then .error .valueError
  else if rnd then .ok ⟨o, .random⟩
  else if null = some true then .ok ⟨o, .null⟩
  else .ok ⟨o, p⟩

/-- `prepare_alg_ids.py` 752-754. -/
def rsaPar (k : SigKey) (null : Option Bool) : SigPar :=
  match k with
  | .rsa => if null = some false then .absent else .null
  | _ => .absent

/-- `prepare_alg_ids.py` 747-765. -/
def sigParams (k : SigKey) (o : Oid) (h : Option String) (rnd : Bool) (null : Option Bool) : Except PyErr SigAlgId :=
  if (look pssNames o).isSome then
    match h with
    | none => .error .valueError
    | some x => pssAlgId x none rnd
  else lastPar o (rsaPar k null) rnd null

/-- `prepare_alg_ids.py` 694-765, `prepare_sig_alg_id`. -/
def sigAlgId (k : SigKey) (h : Option String) (pss rnd : Bool) (null : Option Bool) : Except PyErr SigAlgId :=
  match k with
  | .composite get =>
    match get pss with
    | .error e => .error e
    | .ok o => lastPar o .absent rnd null
  | k =>
    match algOid k h pss with
    | .error e => .error e
    | .ok o => sigParams k o h rnd null

/-! ## The hash -/

/-- `oid_mapping.py` 293-300: a dictionary which fails. -/
def slhHashOf (name : String) : Except PyErr String :=
  match slhHash.lookup name with
  | none => .error .keyError
  | some h => .ok h

/-- `oid_mapping.py` 305-308. -/
def knownHash (o : Oid) : Except PyErr String :=
  match hashOnly o with
  | .error e => .error e
  | .ok none => .error .valueError
  | .ok (some h) => .ok h

/-- `oid_mapping.py` 276-308, `get_digest_hash_alg_from_alg_id`. -/
def digestOfAlg (o : Oid) : Except PyErr String :=
  if o = ed25519Oid then .ok "sha512"
  else if o = ed448Oid then .ok "shake256"
  else if (look compNames o).isSome then
    match look Verif.PQ.CSig.preHash o with
    | none => .error .keyError
    | some h => .ok h
  else
    match look preHashNames o with
    | some n => .ok (dashLast n)
    | none =>
      match look pureNames o with
      | none => knownHash o
      | some n =>
        if n ∈ mlNames then .ok "sha512"
        else if (slhHash.lookup n).isSome then slhHashOf n
        else .ok "sha512"

/-- `keyutils.py` 1361-1407, `get_digest_alg_for_cmp`; `k` is the key (of the certificate) with its `hash_alg`, if it is one
of a stateful algorithm. -/
def cmpDigest (o : Oid) (k : Option (Option String)) : Except PyErr String :=
  if (look statefulNames o).isSome then
    match k with
    | none => .error .valueError
    | some none => .error .badSigAlgId
    | some (some h) => .ok h
  else digestOfAlg o

/-- `envdatautils.py` 2189-2195: the first name with a pre-hash which starts with the name of the key. -/
def firstPreHash (name : String) : Option (Oid × String) :=
  preHashNames.find? (fun e => name.toList.isPrefixOf e.2.toList)

/-- `envdatautils.py` 2188-2195 and 2221. -/
def pqDigest (name : String) : Except PyErr String :=
  match firstPreHash name with
  | none => .ok "sha512"
  | some e =>
    match hashOnly e.1 with
    | .error x => .error x
    | .ok none => .error .valueError
    | .ok (some h) => if h = "" then .error .valueError else .ok h

/-- `envdatautils.py` 2215-2218. -/
def anyOid (get : Bool → Except PyErr Oid) : Except PyErr Oid :=
  match get false with
  | .error .invalidKeyCombination => get true
  | r => r

/-- `envdatautils.py` 2175-2221, `get_digest_from_key_hash`; `sh` is the `hash_alg` of a stateful key. -/
def digestOfKey (sh : String) (k : SigKey) : Except PyErr String :=
  match k with
  | .stateful _ => .ok sh
  | .pq name => pqDigest name
  | .rsa => .ok "sha256"
  | .ec => .ok "sha256"
  | .ed25519 => .ok "sha512"
  | .ed448 => .ok "shake256"
  | .dsa => .ok "sha512"
  | .composite get =>
    match anyOid get with
    | .error e => .error e
    | .ok o =>
      match look Verif.PQ.CSig.preHash o with
      | none => .error .keyError
      | some h => .ok h

end Verif.Ra
