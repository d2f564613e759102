import Verif.PQ.Fips204

/-!
# The ML-DSA key classes (`pq_logic/keys/sig_keys.py`)

Modelled for an installation without `oqs` (the module is optional; with it, pure-mode calls go to liboqs). `Option` as in
`Fips204.lean`: `none` means that a rejection loop has not finished.
-/

namespace Verif.PQ.Dsa

open Verif.CA (Bytes PyErr)

/-- `sig_keys.py` 191, `ML_DSA_PRIVATE_KEY_SIZE`, by parameter set (`k` tells them apart). -/
def skSize (P : Params) : Nat := if P.k = 4 then 2560 else if P.k = 6 then 4032 else 4896

/-- `sig_keys.py` 95-99, `MLDSAPublicKey.key_size`. -/
def pkSize (P : Params) : Nat := if P.k = 4 then 1312 else if P.k = 6 then 1952 else 2592

/-- The fields of an `MLDSAPrivateKey`. -/
structure PrivKey where
  pk : Bytes
  sk : Bytes
  seed : Option Bytes
  deriving DecidableEq

/-- `sig_keys.py` 272-283, `from_seed` with `_initialize_key` (241-247). An empty seed is replaced by a random one
(246, `self._seed or os.urandom(32)`); that case is not modelled. -/
def fromSeed (P : Params) (E : Env) (seed : Bytes) : Option PrivKey :=
  (keygen P E seed).map (fun r => ⟨r.1, r.2, some seed⟩)

/-- `sig_keys.py` 285-314, `MLDSAPrivateKey.from_private_bytes`. -/
def fromPrivateBytes (P : Params) (E : Env) (data : Bytes) : Out PrivKey :=
  if data.length = 32 then Out.ofOption (fromSeed P E data)
  else if data.length = skSize P then
    Out.ofOption ((derivePublicKey P E data).map (fun pk => ⟨pk, data, none⟩))
  else if data.length = skSize P + 32 then
    match fromSeed P E (data.take 32) with
    | none => .running
    | some key => if key.sk ≠ data.drop 32 then .raised .invalidKeyData else .value key
  else .raised .invalidKeyData

/-- `sig_keys.py` 176-188, `MLDSAPublicKey.from_public_bytes`. -/
def fromPublicBytes (P : Params) (data : Bytes) : Out Bytes :=
  if data.length ≠ pkSize P then .raised .invalidKeyData else .value data

/-- A `hash_alg` argument: absent, SHA-512 (name or object), or anything else. -/
inductive HashArg where
  | absent | sha512 | other
  deriving DecidableEq

/-- `sig_keys.py` 143-164, `check_hash_alg`: is SHA-512 to be used? -/
def checkHashAlg (allowFailure : Bool) : HashArg → Except PyErr Bool
  | .absent => .ok false
  | .sha512 => .ok true
  | .other => if allowFailure then .ok false else .error .valueError

/-- The string signed in pre-hash mode (`sig_keys.py` 135, 390). -/
def keyMp (E : Env) (data ctx : Bytes) (prehashed : Bool) : Bytes :=
  [1] ++ integerToBytes ctx.length 1 ++ ctx ++ phOid .sha512 ++ (if prehashed then data else E.sha512 data)

/-- `sig_keys.py` 351-396, `MLDSAPrivateKey.sign`; `rnd` is `os.urandom(32)`. `check_hash_alg` is called with
`allow_failure = True` (369 and `abstract_pq.py` 111-116). -/
def keySign (P : Params) (E : Env) (sk data : Bytes) (hash : HashArg) (ctx : Bytes) (prehashed : Bool) (rnd : Bytes) : Out Bytes :=
  if ctx.length > 255 then .raised .valueError
  else match checkHashAlg true hash with
  | .error e => .raised e
  | .ok false => sign P E sk data ctx none
  | .ok true => Out.ofOption (signInternal P E sk (keyMp E data ctx prehashed) rnd)

/-- The end of `MLDSAPublicKey.verify` (138-141). -/
def raiseInvalid : Out Bool → Out Unit
  | .value true => .value ()
  | .value false => .raised .invalidSignature
  | .pyNone => .raised .invalidSignature
  | .raised e => .raised e
  | .running => .running

/-- `sig_keys.py` 101-141, `MLDSAPublicKey.verify`. -/
def keyVerify (P : Params) (E : Env) (pk sig data : Bytes) (hash : HashArg) (ctx : Bytes) (prehashed : Bool) : Out Unit :=
  if ctx.length > 255 then .raised .valueError
  else match checkHashAlg false hash with
  | .error e => .raised e
  | .ok false => raiseInvalid (verify P E pk data sig ctx)
  | .ok true => raiseInvalid (Out.ofExcept (verifyInternal P E pk (keyMp E data ctx prehashed) sig))

end Verif.PQ.Dsa
