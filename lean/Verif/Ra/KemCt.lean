import Verif.Ra.GeneralClient

/-!
# The entries with a KEM ciphertext

Model of `resources/general_msg_utils.py` 1558-1616 (`_prepare_kem_ct_info`, the keyword `Prepare KemCiphertextInfo`).

* The KEM, the encodings, the random bytes and the manipulation of a ciphertext are parameters.
* Python's pair has no types: each place of the result is a secret or an entry (`Part`).
-/

namespace Verif.Ra.KemCt

open Verif.CA (PyErr)
open Verif.Ra (Itv idIt)

variable {K E : Type}

/-- The functions which are called. -/
structure KemEnv (K E : Type) where
  /-- `isinstance(public_key, HybridKEMPublicKey)` -/
  hybrid : K → Bool
  /-- `public_key.encaps`, with the key of the CA for a hybrid key: the secret and the ciphertext -/
  encaps : K → Option E → Except PyErr (List UInt8 × List UInt8)
  /-- `get_kem_oid_from_key` -/
  kemOid : K → Except PyErr (List Nat)
  /-- encoding of `KemCiphertextInfoAsn1` -/
  encInfo : List Nat → List UInt8 → List UInt8
  /-- `manipulate_bytes_based_on_key` -/
  spoil : K → List UInt8 → Except PyErr (List UInt8)
  /-- the encoding of the octet string with `os.urandom(16)` -/
  rnd : List UInt8

/-- One place of the pair which is returned. -/
inductive Part where
  | secret (s : Option (List UInt8))
  | entry (e : Itv)
  deriving DecidableEq

/-- 1591-1594: without a key. -/
def withoutKey (env : KemEnv K E) (fill : Bool) : Part × Part :=
  (.entry ⟨idIt 9999, if fill then some env.rnd else none⟩, .secret none)

/-- 1596-1606: the secret and the ciphertext. -/
def secretAndCt (env : KemEnv K E) (k : K) (ca : Option E) (ct : Option (List UInt8)) :
    Except PyErr (Option (List UInt8) × List UInt8) :=
  match ct with
  | some c => .ok (none, c)
  | none =>
    match env.encaps k (if env.hybrid k then ca else none) with
    | .error e => .error e
    | .ok (ss, c) => .ok (some ss, c)

/-- 1611-1612. -/
def spoiled (env : KemEnv K E) (k : K) (bad : Bool) (c : List UInt8) : Except PyErr (List UInt8) :=
  if bad then env.spoil k c else .ok c

/-- `general_msg_utils.py` 1558-1616, `_prepare_kem_ct_info`. -/
def prepare (env : KemEnv K E) (pub : Option K) (ca : Option E) (ct : Option (List UInt8)) (fill bad : Bool) :
    Except PyErr (Part × Part) :=
  match pub with
  | none => .ok (withoutKey env fill)
  | some k =>
    match secretAndCt env k ca ct with
    | .error e => .error e
    | .ok (ss, c) =>
      match env.kemOid k with
      | .error e => .error e
      | .ok o =>
        match spoiled env k bad c with
        | .error e => .error e
        | .ok c' => .ok (.secret ss, .entry ⟨idIt 9999, some (env.encInfo o c')⟩)

end Verif.Ra.KemCt
