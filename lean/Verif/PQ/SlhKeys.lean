import Verif.PQ.Fips205

/-!
# The SLH-DSA key classes (`pq_logic/keys/sig_keys.py`)

Modelled for an installation without `oqs` (the module is optional; with it, `sign` of data that is not pre-hashed goes to liboqs, and
`verify` calls liboqs first, ignores the Boolean result and continues as modelled).
-/

namespace Verif.PQ.Slh

open Verif.CA (Bytes PyErr)

/-- The fields of an `SLHDSAPrivateKey`. -/
structure PrivKey where
  pk : Bytes
  sk : Bytes
  seed : Option Bytes
  deriving DecidableEq

/-- `sig_keys.py` 576-592, `_derive_public_key`. -/
def derivePublicKey (P : Params) (sk : Bytes) : Except PyErr Bytes :=
  if sk.length < 4 * P.n then .error .valueError
  else .ok (slice sk (2 * P.n) (3 * P.n) ++ slice sk (3 * P.n) (4 * P.n))

/-- `sig_keys.py` 602-618 and 734-737, `from_seed` with a given seed. -/
def fromSeed (P : Params) (H : Hash) (seed : Bytes) : Except PyErr PrivKey :=
  if seed.length ≠ 3 * P.n then .error .valueError
  else do
    let (pk, sk) ← keygenInternal P H (slice seed 0 P.n) (slice seed P.n (2 * P.n)) (seed.drop (2 * P.n))
    .ok ⟨pk, sk, some seed⟩

/-- `sig_keys.py` 740-772, `from_private_bytes` (the throw-away key of 749 is not modelled). -/
def fromPrivateBytes (P : Params) (H : Hash) (data : Bytes) : Except PyErr PrivKey :=
  if data.length = 3 * P.n then fromSeed P H data
  else if data.length = 7 * P.n then do
    let key ← fromSeed P H (slice data 0 (3 * P.n))
    if key.sk ≠ slice data (3 * P.n) (7 * P.n) then .error .invalidKeyData else .ok key
  else if 4 * P.n ≠ data.length then .error .invalidKeyData
  else do
    let pk ← derivePublicKey P data
    .ok ⟨pk, data, none⟩

/-- `sig_keys.py` 553-563, `SLHDSAPublicKey.from_public_bytes`. -/
def fromPublicBytes (P : Params) (data : Bytes) : Except PyErr Bytes :=
  if P.n * 2 ≠ data.length then .error .valueError else .ok data

/-- A `hash_alg` name (`other` is any name that no parameter set is combined with). -/
inductive HashName where
  | sha256 | sha512 | shake128 | shake256 | other
  deriving DecidableEq

/-- `oidutils.py` 598-611, `SLH_DSA_PRE_HASH_NAME_2_OID`: the one hash combined with a parameter set; `shake` tells the family. -/
def combined (shake : Bool) (P : Params) : HashName :=
  if shake then (if P.n = 16 then .shake128 else .shake256) else (if P.n = 16 then .sha256 else .sha512)

/-- `sig_keys.py` 469-487, `check_hash_alg`. -/
def checkHashAlg (shake : Bool) (P : Params) (hash : Option HashName) : Option HashName :=
  if hash = some (combined shake P) then hash else none

/-- The encoded object identifier and the digest (541-544 and 720-723; `oid_mapping.py` 106-120, 235-246). -/
def hashPart (G : PreHash) (prehashed : Bool) (data : Bytes) : HashName → Bytes
  | .sha256 => hashOid 0x01 ++ (if prehashed then data else G.sha256 data)
  | .sha512 => hashOid 0x03 ++ (if prehashed then data else G.sha512 data)
  | .shake128 => hashOid 0x0B ++ (if prehashed then data else G.shake128 data 32)
  | .shake256 => hashOid 0x0C ++ (if prehashed then data else G.shake256 data 64)
  | .other => data

/-- The string signed in pre-hash mode (546 and 725). -/
def keyMp (G : PreHash) (prehashed : Bool) (ctx data : Bytes) (h : HashName) : Bytes :=
  [1] ++ oneByte ctx.length ++ ctx ++ hashPart G prehashed data h

/-- `sig_keys.py` 690-731, `SLHDSAPrivateKey.sign`. -/
def keySign (shake : Bool) (P : Params) (H : Hash) (G : PreHash) (sk data : Bytes) (hash : Option HashName) (ctx : Bytes) (prehashed : Bool) :
    Except PyErr Bytes := do
  if ctx.length > 255 then .error .valueError
  else
    let sig ← match checkHashAlg shake P hash with
      | none => slhSign P H data ctx sk none
      | some h => (signInternal P H (keyMp G prehashed ctx data h) sk none).map some
    match sig with
    | none => .error .valueError
    | some [] => .error .valueError
    | some (b :: s) => .ok (b :: s)

/-- `sig_keys.py` 507-550, `SLHDSAPublicKey.verify`. -/
def keyVerify (shake : Bool) (P : Params) (H : Hash) (G : PreHash) (pk sig data : Bytes) (hash : Option HashName) (ctx : Bytes) (prehashed : Bool) :
    Except PyErr Unit := do
  if ctx.length > 255 then .error .valueError
  else
    let ok ← match checkHashAlg shake P hash with
      | none => slhVerify P H data sig ctx pk
      | some h => verifyInternal P H (keyMp G prehashed ctx data h) sig pk
    if ok then .ok () else .error .invalidSignature

end Verif.PQ.Slh
