import Verif.PQ.HybridNames

/-!
# Storing and loading Composite KEM keys

`pq_logic/combined_factory.py` 285-324 (public keys by object identifier), 451-531 (private keys) and 896-992 (the
traditional part), with the exports of `pq_logic/keys/composite_kem.py` 178-244 and
`pq_logic/keys/hybrid_key_factory.py` 537-566. Reading and writing of the components is a parameter: `PqLoad` for the
post-quantum classes, `KeyLib` for `cryptography` and `pyasn1`.
-/

namespace Verif.PQ.Hyb

open Verif.CA (Bytes PyErr)
open Verif.PQ.Dsa (Out)
open Verif.PQ.Mech

/-! ## The names of traditional algorithms -/

/-- Python's `int(s)`, for strings of decimal digits (the only ones that occur). -/
def pyInt (s : String) : Except PyErr Nat :=
  if s.toList ≠ [] ∧ s.toList.all Char.isDigit then .ok (s.toList.foldl (fun n c => 10 * n + (c.toNat - 48)) 0) else .error .valueError

/-- `oidutils.py` 310-326, `CURVE_NAMES_TO_INSTANCES`: the name and the `name` of the curve object. -/
def curveInstances : List (String × String) :=
  [("secp192r1", "secp192r1"), ("prime192v1", "secp192r1"), ("secp224r1", "secp224r1"), ("prime224v1", "secp224r1"),
   ("secp256r1", "secp256r1"), ("prime256v1", "secp256r1"), ("secp384r1", "secp384r1"), ("secp521r1", "secp521r1"),
   ("secp256k1", "secp256k1"), ("brainpoolP256r1", "brainpoolP256r1"), ("brainpoolP384r1", "brainpoolP384r1"),
   ("brainpoolP512r1", "brainpoolP512r1"), ("brainpoolp256r1", "brainpoolP256r1"), ("brainpoolp384r1", "brainpoolP384r1"),
   ("brainpoolp512r1", "brainpoolP512r1")]

/-- What a traditional name stands for: a curve or RSA with a key size. -/
inductive TradSpec where
  | curve (c : Curve)
  | rsa (size : Nat)
  deriving DecidableEq

/-- The branches of `combined_factory.py` 299-320. -/
def pubSpec (trad : String) : Except PyErr TradSpec :=
  if trad = "x25519" then .ok (.curve .x25519)
  else if trad = "x448" then .ok (.curve .x448)
  else if pyStarts trad "ecdh-" then
    match curveInstances.lookup (pyReplace trad "ecdh-" "") with
    | none => .error .valueError
    | some c => .ok (.curve (.ec c))
  else if pyStarts trad "rsa" then (pyInt (pyReplace trad "rsa" "")).map .rsa
  else .error .valueError

/-! ## Reading and writing of the components -/

/-- The post-quantum classes: `key_size` and `from_public_bytes` of the public class for a name, the length of what
`private_numbers()` gives for a generated key, `from_private_bytes`, `private_numbers()` and `private_bytes_raw()`. -/
structure PqLoad (K : PqKem) where
  keySize : String → Nat
  fromPublic : String → Bytes → Except PyErr K.Pub
  seedSize : String → Nat
  fromPrivate : String → Bytes → Out K.Priv
  numbers : K.Priv → Except PyErr Bytes
  rawPriv : K.Priv → Bytes

/-- What `load_der_private_key` returns. -/
inductive DerPriv (L : Lib) where
  | ec (k : L.Priv)
  | rsa (k : RsaPriv)
  | other

/-- The functions of `cryptography` and `pyasn1` that read and write keys. -/
structure KeyLib (E : Env) where
  /-- `load_der_public_key`; `none` is a key that is not an RSA key. -/
  derPub : Bytes → Except PyErr (Option RsaPub)
  /-- `private_bytes_raw` of X25519 and X448 keys, and `from_private_bytes`. -/
  rawPriv : E.L.Priv → Bytes
  loadRaw : Curve → Bytes → Except PyErr E.L.Priv
  /-- The `ECPrivateKey` encoding and the `RSAPrivateKey` encoding. -/
  sec1 : E.L.Priv → Bytes
  pkcs1 : RsaPriv → Bytes
  /-- The remainder that `try_decode_pyasn1` gives for the two structures. -/
  restSec1 : Bytes → Except PyErr Bytes
  restPkcs1 : Bytes → Except PyErr Bytes
  derPriv : Bytes → Except PyErr (DerPriv E.L)

/-! ## Public keys -/

/-- `composite_kem.py` 178-184, `public_bytes_raw`. -/
def compExport {K : PqKem} (E : Env) (k : CompPub K E.L) : Bytes := K.raw k.pq ++ tradEncode E k.trad

/-- `combined_factory.py` 299-320, the traditional key as an argument of the constructor. -/
def loadTradPub (E : Env) (KL : KeyLib E) (trad : String) (rest : Bytes) : Except PyErr (ArgPub E.L) :=
  match pubSpec trad with
  | .error e => .error e
  | .ok (.curve c) => (E.L.decode c rest).map .ecdh
  | .ok (.rsa num) =>
    match KL.derPub rest with
    | .error e => .error e
    | .ok none => .error .invalidKeyCombination
    | .ok (some k) => if bitLength k.n ≠ num then .error .invalidKeyCombination else .ok (.kem (.rsa k))

/-- `COMPOSITE_KEM_OID_2_NAME` (`tmp_oids.py` 468). -/
def kemOidToName (oid : List Nat) : Option String := (kemNameToOid.find? (fun e => e.2 == oid)).map (·.1)

/-- `combined_factory.py` 285-324, `_load_composite_kem_public_key`, with `pq_key_factory.py` 399-417. The constructor of the
DHKEM class is only reached with curve keys: no name of that kind has RSA. -/
def loadPub {K : PqKem} (E : Env) (KL : KeyLib E) (PL : PqLoad K) (oid : List Nat) (data : Bytes) : Except PyErr (CompPub K E.L) :=
  match kemOidToName oid with
  | none => .error .keyError
  | some name =>
    match splitHybridName name with
    | .error e => .error e
    | .ok (pqName, trad) =>
      match PL.fromPublic pqName (data.take (PL.keySize pqName)) with
      | .error e => .error e
      | .ok pq =>
        match loadTradPub E KL trad (data.drop (PL.keySize pqName)) with
        | .error e => .error e
        | .ok a =>
          match newPub (if pyIn "dhkem" name then .dhkem else .kem) pq a with
          | none => .error .valueError
          | some k => .ok k

/-! ## Private keys -/

/-- `composite_kem.py` 222-233 with `abstract_wrapper_keys.py` 853-877 and `trad_kem_keys.py` 241-249 and 498-503,
`_export_trad_private_key`. -/
def exportTrad (E : Env) (KL : KeyLib E) : TradPriv E.L → Bytes
  | .dh _ k =>
    match E.L.privCurve k with
    | .ec _ => KL.sec1 k
    | _ => KL.rawPriv k
  | .rsa k => KL.pkcs1 k

/-- `KeySaveType` -/
inductive Save where
  | seed | raw | both
  deriving DecidableEq

/-- `hybrid_key_factory.py` 549-566, `_save_keys_with_support_seed` for Composite KEM keys (the ML-KEM and FrodoKEM classes have
`private_numbers`). With `seed_and_raw` the whole private key is written after the seed, not its post-quantum part. -/
def savePriv {K : PqKem} (E : Env) (KL : KeyLib E) (PL : PqLoad K) (t : Save) (k : CompPriv K E.L) : Except PyErr Bytes :=
  match t with
  | .seed => (PL.numbers k.pq).map (· ++ exportTrad E KL k.trad)
  | .both => (PL.numbers k.pq).map (fun s => s ++ (s ++ exportTrad E KL k.trad) ++ exportTrad E KL k.trad)
  | .raw => .ok (PL.rawPriv k.pq ++ exportTrad E KL k.trad)

/-- `combined_factory.py` 896-919, `_try_load_ec_private_from_asn1`. -/
def loadEc (E : Env) (KL : KeyLib E) (data : Bytes) (curveName : String) : Except PyErr (ArgPriv E.L) :=
  match curveInstances.lookup curveName with
  | none => .error .valueError
  | some _ =>
    match KL.restSec1 data with
    | .error e => .error e
    | .ok (_ :: _) => .error .invalidKeyData
    | .ok [] =>
      match KL.derPriv data with
      | .error e => .error e
      | .ok (.ec k) =>
        match E.L.privCurve k with
        | .ec n => if pyLower n ≠ curveName then .error .invalidKeyData else .ok (.ecdh k)
        | _ => .error .invalidKeyData
      | .ok _ => .error .invalidKeyData

/-- `combined_factory.py` 962-986, the RSA branch. -/
def loadRsa (E : Env) (KL : KeyLib E) (data : Bytes) (trad : String) : Except PyErr (ArgPriv E.L) :=
  match KL.restPkcs1 data with
  | .error e => .error e
  | .ok (_ :: _) => .error .invalidKeyData
  | .ok [] =>
    match KL.derPriv data with
    | .error e => .error e
    | .ok (.rsa k) =>
      match pyInt (pyReplace trad "rsa" "") with
      | .error e => .error e
      | .ok num => if num ≠ bitLength k.n then .error .invalidKeyData else .ok (.rsa k)
    | .ok _ => .error .invalidKeyData

/-- `combined_factory.py` 954-986. The Edwards curves, which are no KEM keys, are left out, as is "-pss". -/
def loadTradPrivCore (E : Env) (KL : KeyLib E) (trad : String) (data : Bytes) : Except PyErr (ArgPriv E.L) :=
  if pyStarts trad "ecdsa" ∨ pyStarts trad "ecdh" then loadEc E KL data (pyReplace (pyReplace trad "ecdsa-" "") "ecdh-" "")
  else if trad = "x25519" then (KL.loadRaw .x25519 data).map .ecdh
  else if trad = "x448" then (KL.loadRaw .x448 data).map .ecdh
  else if pyStarts trad "rsa" then loadRsa E KL data trad
  else .error .valueError

/-- `combined_factory.py` 943-992, `_load_trad_composite_private_key`: `BadAsn1Data` and `ValueError` become `InvalidKeyData`. -/
def loadTradPriv (E : Env) (KL : KeyLib E) (trad : String) (data : Bytes) : Except PyErr (ArgPriv E.L) :=
  match loadTradPrivCore E KL trad data with
  | .error e => .error (if e = .badAsn1Data ∨ e = .valueError then .invalidKeyData else e)
  | .ok a => .ok a

/-- `combined_factory.py` 480-496: the wrapping and the constructors. -/
def wrapPriv {K : PqKem} {L : Lib} (name : String) (pq : K.Priv) (a : ArgPriv L) : Except PyErr (CompPriv K L) :=
  let a' := match a with
    | .ecdh k => .kem (.dh false k)
    | a => a
  if pyStarts name "composite-dhkem" then
    match newPriv .dhkem pq a' with
    | none => .error .invalidKeyCombination
    | some k => .ok k
  else match newPriv .kem pq a' with
    | none => .error .valueError
    | some k => .ok k

/-- `combined_factory.py` 451-500, `_load_composite_kem_from_private_bytes`. -/
def loadPriv {K : PqKem} (E : Env) (KL : KeyLib E) (PL : PqLoad K) (name : String) (data : Bytes) : Out (CompPriv K E.L) :=
  bind (lift (splitHybridName name)) fun (pqName, trad) =>
  bind (PL.fromPrivate pqName (data.take (PL.seedSize pqName))) fun pq =>
  bind (lift (loadTradPriv E KL trad (data.drop (PL.seedSize pqName)))) fun a =>
  bind (lift (wrapPriv name pq a)) fun k =>
  bind (lift (privOid k)) fun _ => .value k

/-- `HybridPublicKey.__eq__` (`abstract_wrapper_keys.py` 553-561) with the comparisons of the components (312-320, 470-479,
`trad_kem_keys.py` 256-263): names, the bytes of the post-quantum keys, and the traditional keys. -/
def pubEq {K : PqKem} (E : Env) (a b : CompPub K E.L) : Bool :=
  compName a.kind (K.name a.pq) (tradName a.trad) == compName b.kind (K.name b.pq) (tradName b.trad) && K.raw a.pq == K.raw b.pq &&
    match a.trad, b.trad with
    | .dh _ p, .dh _ q => E.L.encode p == E.L.encode q
    | .rsa p, .rsa q => p.n == q.n && p.e == q.e
    | _, _ => false

/-- `combined_factory.py` 503-531, `_decode_composite_kem`: a private key with, optionally, its public key. -/
def decodePriv {K : PqKem} (E : Env) (KL : KeyLib E) (PL : PqLoad K) (name : String) (data : Bytes) (pub : Option Bytes) :
    Out (CompPriv K E.L) :=
  bind (loadPriv E KL PL name data) fun sk =>
  match pub with
  | none => .value sk
  | some b =>
    match kemNameToOid.lookup name with
    | none => .raised .keyError
    | some oid =>
      match loadPub E KL PL oid b with
      | .error e => .raised (if e = .valueError ∨ e = .invalidKeyData ∨ e = .mismatchingKey then .invalidKeyData else e)
      | .ok pk => if pubEq E pk (compPublic sk) then .value sk else .raised .mismatchingKey

/-- `combined_factory.py` 562-584, `load_private_key_from_one_asym_key` for the identifiers of Composite KEM; for other
identifiers another class is used, which is not modelled here. -/
def loadOneAsym {K : PqKem} (E : Env) (KL : KeyLib E) (PL : PqLoad K) (version : Int) (oid : List Nat) (data : Bytes)
    (pub : Option Bytes) : Out (CompPriv K E.L) :=
  if version ≠ 0 ∧ version ≠ 1 then .raised .invalidKeyData
  else if version = 0 ∧ pub ≠ none then .raised .invalidKeyData
  else match kemOidToName oid with
  | none => .raised .keyError
  | some name => decodePriv E KL PL name data pub

/-- `hybrid_key_factory.py` 606-630, `save_private_key_one_asym_key` with `_may_get_pub_key` (481-510): the identifier, the private key
and the public key. Writing the public key looks up its own identifier. -/
def saveOneAsym {K : PqKem} (E : Env) (KL : KeyLib E) (PL : PqLoad K) (version : Int) (t : Save) (includePub : Bool) (k : CompPriv K E.L) :
    Except PyErr (List Nat × Bytes × Option Bytes) :=
  match privOid k with
  | .error e => .error e
  | .ok oid =>
    match savePriv E KL PL t k with
    | .error e => .error e
    | .ok b =>
      if includePub ∨ 1 ≤ version then
        match pubOid (compPublic k) with
        | .error e => .error e
        | .ok _ => .ok (oid, b, some (compExport E (compPublic k)))
      else .ok (oid, b, none)

end Verif.PQ.Hyb
