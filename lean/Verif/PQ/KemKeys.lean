import Verif.PQ.Fips203
import Verif.PQ.Fips204
import Verif.PQ.Frodo

/-!
# The ML-KEM and FrodoKEM key classes (`pq_logic/keys/kem_keys.py`)

Modelled for an installation without `oqs`. `Out` is the type of outcomes of `Fips204.lean`; `running` means that the
rejection loop of `sample_ntt` has not finished.
-/

namespace Verif.PQ.Keys

open Verif.CA (Bytes PyErr)
open Verif.PQ.Dsa (Out)

/-! ## ML-KEM -/

/-- `kem_keys.py` 49, `ML_KEM_PRIVATE_KEY_SIZE`, by parameter set (`k` tells them apart). -/
def mlSkSize (P : Kem.Params) : Nat := if P.k = 3 then 2400 else if P.k = 2 then 1632 else 3168

/-- `kem_keys.py` 112-115, `MLKEMPublicKey.key_size`. -/
def mlPkSize (P : Kem.Params) : Nat := if P.k = 3 then 1184 else if P.k = 2 then 800 else 1568

/-- `kem_keys.py` 107-110 and 245-248, `ct_length`. -/
def mlCtLength (P : Kem.Params) : Nat := if P.k = 3 then 1088 else if P.k = 2 then 768 else 1568

/-- The fields of an `MLKEMPrivateKey`. -/
structure MlPriv where
  dk : Bytes
  pk : Option Bytes
  seed : Option Bytes
  deriving DecidableEq

/-- `abstract_wrapper_keys.py` 416-425, `from_seed`, with `kem_keys.py` 269-283, `_from_seed`. -/
def mlFromSeed (P : Kem.Params) (E : Kem.Env) (seed : Bytes) : Out MlPriv :=
  if seed.length ≠ 64 then .raised .valueError
  else Out.ofOption ((Kem.keygen P E (seed.take 32) (seed.drop 32)).map (fun r => ⟨r.2, some r.1, some seed⟩))

/-- `kem_keys.py` 128-148 with `private_bytes` given: the constructor stores its arguments. -/
def mlNew (dk : Bytes) (seed : Option Bytes) : MlPriv := ⟨dk, none, seed⟩

/-- `kem_keys.py` 199-229, `MLKEMPrivateKey.from_private_bytes`. -/
def mlFromPrivateBytes (P : Kem.Params) (E : Kem.Env) (data : Bytes) : Out MlPriv :=
  if data.length = 64 then mlFromSeed P E data
  else if data.length = mlSkSize P + 64 then
    let seed := data.take 64
    let privateKey := data.drop 64
    let key := mlNew privateKey (some seed)
    if key.dk ≠ privateKey then .raised .invalidKeyData else .value key
  else if data.length = mlSkSize P then .value (mlNew data none)
  else .raised .invalidKeyData

/-- `kem_keys.py` 174-184, `public_key`. -/
def mlPublicKey (P : Kem.Params) (key : MlPriv) : Bytes := key.pk.getD (Kem.getPublicKey P key.dk)

/-- `abstract_wrapper_keys.py` 456-458, `_export_private_key`: `self._seed or self._private_key_bytes`. -/
def mlExport (key : MlPriv) : Bytes :=
  match key.seed with
  | some (b :: bs) => b :: bs
  | _ => key.dk

/-- `abstract_pq.py` 189-195 with `kem_keys.py` 122-125, `MLKEMPublicKey.from_public_bytes`. -/
def mlFromPublicBytes (P : Kem.Params) (data : Bytes) : Except PyErr Bytes :=
  if data.length ≠ mlPkSize P then .error .invalidKeyData else .ok data

/-- `kem_keys.py` 100-105, `MLKEMPublicKey.encaps`; `m` is `os.urandom(32)`. The secret and the ciphertext. -/
def mlEncaps (P : Kem.Params) (E : Kem.Env) (pk m : Bytes) : Out (Bytes × Bytes) := Out.ofOption (Kem.encaps P E pk m)

/-- `kem_keys.py` 231-243, `MLKEMPrivateKey.decaps`, for keys of the right size. `byte_decode` (`fips203.py` 400-412) indexes
the bits of `c2` and raises IndexError exactly when the ciphertext is too short; it is turned into ValueError. -/
def mlDecaps (P : Kem.Params) (E : Kem.Env) (key : MlPriv) (ct : Bytes) : Out Bytes :=
  if ct.length < 32 * (P.du * P.k + P.dv) then .raised .valueError
  else Out.ofOption (Kem.decaps P E key.dk ct)

/-! ## FrodoKEM -/

/-- The fields of a `FrodoKEMPrivateKey`. -/
structure FrPriv where
  sk : Bytes
  pk : Option Bytes
  seed : Option Bytes
  deriving DecidableEq

/-- `kem_keys.py` 50-57 and 650-653, `_seed_size`: (lenA + lensec + lenSE) / 8, by parameter set. -/
def frSeedSize (P : Frodo.Params) : Nat :=
  if P.n = 640 then (128 + 128 + 256) / 8 else if P.n = 976 then (128 + 192 + 384) / 8 else (128 + 256 + 512) / 8

/-- `kem_keys.py` 567-580, `from_seed`. -/
def frFromSeed (P : Frodo.Params) (E : Frodo.Env) (seed : Bytes) : Except PyErr FrPriv :=
  if seed.length ≠ frSeedSize P then .error .invalidKeyData
  else match Frodo.keygen P E seed with
  | .error e => .error e
  | .ok (pk, sk) => .ok ⟨sk, some pk, some seed⟩

/-- `kem_keys.py` 630-649, `from_private_bytes`: without `oqs` the length is not checked. -/
def frFromPrivateBytes (P : Frodo.Params) (E : Frodo.Env) (data : Bytes) : Except PyErr FrPriv :=
  if frSeedSize P = data.length then frFromSeed P E data else .ok ⟨data, none, none⟩

/-- `kem_keys.py` 513-518, `_derivate_public_key`, and 561-565, `public_key`. -/
def frPublicKey (P : Frodo.Params) (key : FrPriv) : Bytes :=
  key.pk.getD (Kem.slice key.sk P.lenS (P.lenS + P.lenPk))

/-- `abstract_wrapper_keys.py` 456-458, `_export_private_key`. -/
def frExport (key : FrPriv) : Bytes :=
  match key.seed with
  | some (b :: bs) => b :: bs
  | _ => key.sk

/-- `kem_keys.py` 473-478, `from_public_bytes`. -/
def frFromPublicBytes (data : Bytes) : Except PyErr Bytes := .ok data

/-- `kem_keys.py` 488-493, `encaps`: the secret and the ciphertext. -/
def frEncaps (P : Frodo.Params) (E : Frodo.Env) (pk rnd : Bytes) : Except PyErr (Bytes × Bytes) :=
  match Frodo.encaps P E pk rnd with
  | .error e => .error e
  | .ok (ct, ss) => .ok (ss, ct)

/-- `kem_keys.py` 598-615, `decaps`. -/
def frDecaps (P : Frodo.Params) (E : Frodo.Env) (key : FrPriv) (ct : Bytes) : Except PyErr Bytes :=
  if ct.length ≠ P.lenCt then .error .valueError
  else match Frodo.decaps P E key.sk ct with
  | .error .indexError => .error .valueError
  | r => r

end Verif.PQ.Keys
