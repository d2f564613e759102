import Verif.Prot.Protect
import Verif.PQ.CompSig
import Verif.Ra.CaBody

/-!
# Algorithm identifiers of signatures and keys

* `resources/keyutils.py` 684-794: `_check_trad_sig_alg_id`, `check_consistency_sig_alg_id_and_key`;
* `resources/checkutils.py` 711-780, 911-1105: `check_pkimessage_signature_protection`,
  `_validate_composite_sig_conform_to_spki`, `_check_pq_sig_conform_to_spki`, `check_protection_alg_conform_to_spki`,
  `check_protection_alg_field`.

The tables of OIDs are those of the code (`oidutils.py`, `tmp_oids.py`).

Simplified: keys are represented by what the functions read (class, name, OID); two algorithm identifiers are equal if OID
and parameters are (comparing an instantiated absent field raises an error in pyasn1, which the code turns into
"different"); the verification of signatures is a parameter, with a function for PKCS #1 v1.5 and one for the algorithm of
the message.
-/

namespace Verif.Ra

open Verif.CA (Bytes PyErr ProtType presenceCheck)
open Verif.Prot (Oid look lookOid rsaNames pssNames ecdsaNames hashMap ed25519Oid ed448Oid dash1 pssOid isMsgSig isTradSig)
open Verif.Check (findCertPos)

/-! ## Tables -/

/-- `oidutils.py` 512, `sig_algorithms_oid`, followed by one more number. -/
def nistSig (n : Nat) : Oid := [2, 16, 840, 1, 101, 3, 4, 3, n]

/-- `oidutils.py` 559-563, 598-611, 726-728, `PQ_SIG_PRE_HASH_OID_2_NAME`. -/
def preHashNames : List (Oid × String) :=
  [(nistSig 32, "ml-dsa-44-sha512"), (nistSig 33, "ml-dsa-65-sha512"), (nistSig 34, "ml-dsa-87-sha512"),
   (nistSig 35, "slh-dsa-sha2-128s-sha256"), (nistSig 36, "slh-dsa-sha2-128f-sha256"),
   (nistSig 37, "slh-dsa-sha2-192s-sha512"), (nistSig 38, "slh-dsa-sha2-192f-sha512"),
   (nistSig 39, "slh-dsa-sha2-256s-sha512"), (nistSig 40, "slh-dsa-sha2-256f-sha512"),
   (nistSig 41, "slh-dsa-shake-128s-shake128"), (nistSig 42, "slh-dsa-shake-128f-shake128"),
   (nistSig 43, "slh-dsa-shake-192s-shake256"), (nistSig 44, "slh-dsa-shake-192f-shake256"),
   (nistSig 45, "slh-dsa-shake-256s-shake256"), (nistSig 46, "slh-dsa-shake-256f-shake256")]

/-- `oidutils.py` 553-557, 583-596 and `tmp_oids.py` 61-66: the algorithms without pre-hash. -/
def pureNames : List (Oid × String) :=
  [(nistSig 17, "ml-dsa-44"), (nistSig 18, "ml-dsa-65"), (nistSig 19, "ml-dsa-87"),
   (nistSig 20, "slh-dsa-sha2-128s"), (nistSig 21, "slh-dsa-sha2-128f"), (nistSig 22, "slh-dsa-sha2-192s"),
   (nistSig 23, "slh-dsa-sha2-192f"), (nistSig 24, "slh-dsa-sha2-256s"), (nistSig 25, "slh-dsa-sha2-256f"),
   (nistSig 26, "slh-dsa-shake-128s"), (nistSig 27, "slh-dsa-shake-128f"), (nistSig 28, "slh-dsa-shake-192s"),
   (nistSig 29, "slh-dsa-shake-192f"), (nistSig 30, "slh-dsa-shake-256s"), (nistSig 31, "slh-dsa-shake-256f"),
   ([1, 3, 9999, 3, 6], "falcon-512"), ([1, 3, 9999, 3, 16], "falcon-padded-512"),
   ([1, 3, 9999, 3, 9], "falcon-1024"), ([1, 3, 9999, 3, 19], "falcon-padded-1024")]

/-- `oidutils.py` 650-655, `PQ_SIG_OID_2_NAME`. -/
def pqSigNames : List (Oid × String) := pureNames ++ preHashNames

/-- `oidutils.py` 641-645, `PQ_STATEFUL_HASH_SIG_NAME_2_OID`. -/
def statefulNames : List (Oid × String) :=
  [([1, 3, 6, 1, 5, 5, 7, 6, 34], "xmss"), ([1, 3, 6, 1, 5, 5, 7, 6, 35], "xmssmt"),
   ([1, 2, 840, 113549, 1, 9, 16, 3, 17], "hss")]

/-- `tmp_oids.py` 22, `id_kem_test_suite`, followed by two more numbers. -/
def kemTest (a b : Nat) : Oid := [1, 3, 6, 1, 5, 5, 7, 4, 9996, 9999, 2, a, b]

/-- `oidutils.py` 530-538, 720-722, `PQ_KEM_NAME_2_OID`. -/
def kemNames : List (Oid × String) :=
  [([2, 16, 840, 1, 101, 3, 4, 4, 1], "ml-kem-512"), ([2, 16, 840, 1, 101, 3, 4, 4, 2], "ml-kem-768"),
   ([2, 16, 840, 1, 101, 3, 4, 4, 3], "ml-kem-1024"), (kemTest 1 1, "sntrup761"),
   (kemTest 2 1, "mceliece-348864"), (kemTest 2 2, "mceliece-460896"), (kemTest 2 3, "mceliece-6688128"),
   (kemTest 2 4, "mceliece-6960119"), (kemTest 2 5, "mceliece-8192128"),
   (kemTest 3 1, "frodokem-640-aes"), (kemTest 3 2, "frodokem-640-shake"), (kemTest 3 3, "frodokem-976-aes"),
   (kemTest 3 4, "frodokem-976-shake"), (kemTest 3 5, "frodokem-1344-aes"), (kemTest 3 6, "frodokem-1344-shake")]

/-- `oidutils.py` 657-660, 732-735, `PQ_OID_2_NAME`. -/
def pqNames : List (Oid × String) := pqSigNames ++ kemNames ++ statefulNames

/-- `oidutils.py` 238-243, `TRAD_SIG_OID_2_NAME`. -/
def tradNames : List (Oid × String) :=
  (ed25519Oid, "ed25519") :: (ed448Oid, "ed448") :: (rsaNames ++ pssNames ++ ecdsaNames)

/-- `tmp_oids.py` 149, `COMPOSITE_SIG_OID_TO_NAME`. -/
def compNames : List (Oid × String) := Verif.PQ.CSig.oidToName

/-- The part after the last `-`, or the whole text. -/
def dashLastL (l : List Char) : List Char := (l.reverse.takeWhile (fun x => decide (x ≠ '-'))).reverse

/-- `s.split("-")[-1]`. -/
def dashLast (s : String) : String := String.ofList (dashLastL s.toList)

/-- `sub in s`. -/
def hasSub (sub s : List Char) : Bool :=
  match s with
  | [] => sub.isEmpty
  | c :: l => sub.isPrefixOf (c :: l) || hasSub sub l

/-! ## Key and algorithm -/

/-- A key: its class and what is read of it. `composite`: `get_oid` with and without PSS. -/
inductive SigKey where
  | rsa
  | ec
  | ed25519
  | ed448
  | dsa
  | pq (name : String)
  | stateful (oid : Oid)
  | composite (get : Bool → Except PyErr Oid)

/-- `oid_mapping.py` 138-167, `get_hash_from_oid` with `only_hash=True`, for algorithms which are not composite. -/
def hashOnly (o : Oid) : Except PyErr (Option String) :=
  if o = ed25519Oid ∨ o = ed448Oid then .ok none
  else
    match look preHashNames o with
    | some n => .ok (some (dashLast n))
    | none =>
      if (look pqNames o).isSome then .ok none
      else
        match look hashMap o with
        | none => .error .valueError
        | some n => (dash1 n).map some

/-- A string with `None` formatted as Python does. -/
def orNone (h : Option String) : String := h.getD "None"

/-- `keyutils.py` 684-707, `_check_trad_sig_alg_id`. -/
def checkTradAlg (k : SigKey) (o : Oid) (h : Option String) : Except PyErr Unit :=
  let test (x : Option Oid) : Except PyErr Unit :=
    match x with
    | none => .error .keyError
    | some p => if p = o then .ok () else .error .badSigAlgId
  match k with
  | .ed448 => test (lookOid tradNames "ed448")
  | .ed25519 => test (lookOid tradNames "ed25519")
  | .ec => test (lookOid tradNames ("ecdsa-" ++ orNone h))
  | .rsa => test (lookOid tradNames ("rsa-" ++ orNone h))
  | _ => .error .badAlg

/-- `key.get_oid(use_pss=…)` of the classes of keys: an attribute the traditional keys do not have, and an argument the
other ones do not. -/
def pssOidOf (k : SigKey) (pss : Bool) : Except PyErr Oid :=
  match k with
  | .composite get => get pss
  | .pq _ | .stateful _ => .error .typeError
  | _ => .error .attributeError

/-- `keyutils.py` 711-794, `check_consistency_sig_alg_id_and_key`. -/
def checkKeyAlg (k : SigKey) (o : Oid) : Except PyErr Unit :=
  match look compNames o with
  | some name =>
    match pssOidOf k (("-pss".toList).isSuffixOf name.toList) with
    | .error .invalidKeyCombination => .error .badSigAlgId
    | .error e => .error e
    | .ok p => if p ≠ o then .error .badSigAlgId else .ok ()
  | none =>
    match hashOnly o with
    | .error .valueError => .error .badSigAlgId
    | .error e => .error e
    | .ok h =>
      match k with
      | .pq name =>
        match lookOid pqNames (name ++ (match h with
          | none => ""
          | some x => "-" ++ x)) with
        | none => .error .badSigAlgId
        | some p => if p ≠ o then .error .badSigAlgId else .ok ()
      | .stateful p => if p ≠ o then .error .badSigAlgId else .ok ()
      | .composite _ => .error .valueError
      | _ =>
        match checkTradAlg k o h with
        | .error .keyError => .error .badSigAlgId
        | r => r

/-! ## Protection and certificate -/

/-- An `AlgorithmIdentifier`. -/
structure AlgId where
  oid : Oid
  par : Option Bytes := none
  deriving DecidableEq, Repr

/-- `rfc6664.id_ecPublicKey` -/
def ecKeyOid : Oid := [1, 2, 840, 10045, 2, 1]
/-- `rsaEncryption` -/
def rsaKeyOid : Oid := [1, 2, 840, 113549, 1, 1, 1]

/-- `oidutils.py` 98-105, `ECDSA_SHA_OID_2_NAME`. -/
def ecdsaShaNames : List (Oid × String) := ecdsaNames.take 6

/-- `checkutils.py` 911-943, `_validate_composite_sig_conform_to_spki`; `name` is the one of the protection. -/
def compConform (prot cert : Oid) (name : List Char) : Bool :=
  match look compNames cert with
  | none => false
  | some ns =>
    let spki := ns.toList
    if hasSub "rsa".toList name then
      if hasSub "pss".toList spki && hasSub "pss".toList name then decide (spki = name)
      else if !hasSub "pss".toList spki && !hasSub "pss".toList name then decide (spki = name)
      else if hasSub "pss".toList spki then decide (name ++ "-pss".toList = spki)
      else decide (name = spki ++ "-pss".toList)
    else decide (prot = cert)

/-- `checkutils.py` 946-976, `_check_pq_sig_conform_to_spki`. -/
def pqConform (prot cert : Oid) : Bool :=
  match look pqSigNames cert with
  | none => false
  | some cn =>
    match look preHashNames prot, look preHashNames cert with
    | none, none => decide (prot = cert)
    | some _, some _ => decide (prot = cert)
    | some n, none => decide (cn ++ "-" ++ dashLast n = n)
    | none, some n =>
      match look pqSigNames prot with
      | none => false
      | some pn => decide (pn ++ "-" ++ dashLast n = n)

/-- `checkutils.py` 980-1031, `check_protection_alg_conform_to_spki`. -/
def conform (prot cert : AlgId) : Bool :=
  if cert.oid = ecKeyOid then (look ecdsaShaNames prot.oid).isSome
  else if cert.oid = ed25519Oid ∨ cert.oid = ed448Oid then decide (prot.oid = ed25519Oid ∨ prot.oid = ed448Oid)
  else if cert.oid = rsaKeyOid then (look rsaNames prot.oid).isSome || (look pssNames prot.oid).isSome
  else if (look rsaNames prot.oid).isSome then (look rsaNames cert.oid).isSome
  else if prot.oid = pssOid then decide (cert = prot)
  else if (look pssNames prot.oid).isSome then decide (cert.oid = prot.oid)
  else
    match look compNames prot.oid with
    | some n => compConform prot.oid cert.oid n.toList
    | none => if (look pqSigNames prot.oid).isSome then pqConform prot.oid cert.oid else decide (prot = cert)

/-- The fields which are read of a message: algorithm, whether the value is present, the certificates. -/
structure AlgMsg (C : Type) where
  alg : Option AlgId
  value : Bool
  extra : Option (List C)

/-- `checkutils.py` 1034-1105, `check_protection_alg_field`; `typ` is `get_protection_type_from_pkimessage` of the OID,
`spki` the algorithm of the key of a certificate. An `extraCerts` field without certificates gives an empty certificate,
whose key has no algorithm. -/
def checkAlgField {C : Type} (typ : Oid → Except PyErr ProtType) (spki : C → AlgId) (m : AlgMsg C)
    (expected : Option ProtType) (must : Bool) : Except PyErr Unit :=
  if must = false ∧ m.alg = none then .ok ()
  else match presenceCheck m.alg.isSome m.value must with
    | .error e => .error e
    | .ok () =>
      match m.alg with
      | none => .error .valueError
      | some a =>
        match typ a.oid with
        | .error e => .error e
        | .ok t =>
          if expected.isSome ∧ expected ≠ some t then .error .valueError
          else if t = .tradSig then
            match m.extra with
            | none => .error .valueError
            | some [] => .error .pyasn1Error
            | some (c :: _) => if conform a (spki c) then .ok () else .error .valueError
          else .ok ()

/-- What `check_pkimessage_signature_protection` calls: the two checks of the sender, the verification with the key of a
certificate and the given hash (with PKCS #1 v1.5 for RSA keys), and `verify_pkimessage_protection`. -/
structure SigProtEnv (C : Type) where
  typ : Oid → Except PyErr ProtType
  spki : C → AlgId
  sender : Except PyErr Unit
  kid : Except PyErr Unit
  plain : C → Option String → Bool
  protection : Except PyErr Unit

/-- `checkutils.py` 711-780, `check_pkimessage_signature_protection`. -/
def checkSigProt {C : Type} (env : SigProtEnv C) (m : AlgMsg C) (kid := true) : Except PyErr Unit :=
  if m.value = false then .error .pyasn1Error
  else match m.alg with
    | none => .error .pyasn1Error
    | some a =>
      if isMsgSig a.oid = false then .error .badAlg
      else match m.extra with
        | none => .error .badMessageCheck
        | some certs =>
          match checkAlgField env.typ env.spki m none true with
          | .error e => .error e
          | .ok () =>
            match env.sender with
            | .error e => .error e
            | .ok () =>
              match (if kid then env.kid else .ok () : Except PyErr Unit) with
              | .error e => .error e
              | .ok () =>
                match hashOnly a.oid with
                | .error e => .error e
                | .ok h =>
                  let i := findCertPos (fun c => env.plain c h) 0 certs
                  if i = 0 then env.protection
                  else .error .badMessageCheck

end Verif.Ra
