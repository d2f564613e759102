import Verif.PQ.KeyStore

/-!
# The form in which a private key is saved: writing and checking

`pq_logic/keys/pq_key_factory.py` 717-745, 836-914, `pq_logic/keys/hybrid_key_factory.py` 537-582,
`pq_logic/combined_factory.py` 743-818 and `resources/suiteenums.py` 252-279. The ML keys are those of `KeyStore`; of another
private key only `private_bytes_raw`, `_seed` and whether the class has `private_numbers` matter here.
-/

namespace Verif.PQ.KeyExport

open Verif.CA (Bytes PyErr)
open Verif.PQ.Store (Cls Choice SaveType decodeChoice prepareMl)
open Verif.PQ.Dsa (Out)

/-- `suiteenums.py` 260-279, `KeySaveType.get`, for a text: the lookup by value raises `ValueError` itself. -/
def getType (t : List Char) : Except PyErr SaveType :=
  let t := t.map fun c => (if c = '-' then '_' else c).toLower
  if t = "seed".toList then .ok .seed
  else if t = "raw".toList then .ok .raw
  else if t = "seed_and_raw".toList then .ok .both
  else .error .valueError

/-- A private key that is no ML key; `numbers`: the class has the method `private_numbers`. -/
structure Plain where
  raw : Bytes
  seed : Option Bytes
  numbers : Bool

/-- `private_numbers` (`kem_keys.py` 581-589, `sig_keys.py` 595-599, `xwing.py` 152-161). -/
def Plain.privateNumbers (k : Plain) : Except PyErr Bytes :=
  match k.seed with
  | none => .error .valueError
  | some s => .ok s

/-- The PQ key of a hybrid key. -/
inductive Part (C : Cls) where
  | ml (k : C.Key)
  | frodo (k : Plain)
  | plain (k : Plain)

/-- The classes that are told apart. `plain` are Falcon, McEliece, sntrup761 and the stateful keys. -/
inductive Key (C : Cls) where
  | ml (k : C.Key)
  | slh (k : Plain)
  | frodo (k : Plain)
  | plain (k : Plain)
  | xwing (k : Plain)
  | composite (pq : Part C) (trad : Bytes)
  | chempat (pq : Part C) (trad : Bytes)
  | other

/-! ## Checking -/

/-- `pq_key_factory.py` 180-210, `_get_choice_type_and_key_data`. -/
def parts : Choice → SaveType × Option Bytes × Option Bytes
  | .seed s => (.seed, some s, none)
  | .expanded r => (.raw, none, some r)
  | .both s r => (.both, some s, some r)

/-- `pq_key_factory.py` 837-870, `validate_ml_key_export_single`: the seed of the key is read first, whether or not there is
one to compare it with. -/
def checkMl (C : Cls) (k : C.Key) (bytes : Bytes) (st : SaveType) : Except PyErr Unit :=
  match decodeChoice C.seedLen C.rawLen bytes with
  | .error _ => .error .badAsn1Data
  | .ok (c, rest) =>
    if rest ≠ [] then .error .invalidKeyData
    else if (parts c).1 ≠ st then .error .invalidKeyData
    else match C.seed k with
      | none => .error .valueError
      | some s =>
        if (parts c).2.1 ≠ some s ∧ (parts c).2.1 ≠ none then .error .invalidKeyData
        else if (parts c).2.2 ≠ some (C.raw k) ∧ (parts c).2.2 ≠ none then .error .invalidKeyData
        else .ok ()

/-- `pq_key_factory.py` 892-905 and `combined_factory.py` 775-788: the three comparisons. -/
def compareAs (k : Plain) (bytes : Bytes) : SaveType → Except PyErr Unit
  | .seed =>
    match k.privateNumbers with
    | .error e => .error e
    | .ok s => if bytes ≠ s then .error .invalidKeyData else .ok ()
  | .both =>
    match k.privateNumbers with
    | .error e => .error e
    | .ok s => if bytes ≠ s ++ k.raw then .error .invalidKeyData else .ok ()
  | .raw => if bytes ≠ k.raw then .error .invalidKeyData else .ok ()

/-- `pq_key_factory.py` 907-914: of other PQ keys only the raw form is compared. -/
def compareRaw (k : Plain) (bytes : Bytes) (st : SaveType) : Except PyErr Unit :=
  if st ≠ .raw then .error .notImplemented
  else if bytes ≠ k.raw then .error .invalidKeyData
  else .ok ()

/-- `combined_factory.py` 744-791, `_validate_key_export_single`, for an X-Wing key or a PQ key that is no ML key. -/
def checkPlain (k : Plain) (bytes : Bytes) (st : SaveType) : Except PyErr Unit :=
  if k.numbers then compareAs k bytes st else .error .notImplemented

/-- `combined_factory.py` 744-791, `_validate_key_export_single`, for the PQ key of a hybrid key. -/
def checkPart (C : Cls) (bytes : Bytes) (st : SaveType) : Part C → Except PyErr Unit
  | .ml k => checkMl C k bytes st
  | .frodo k => checkPlain k bytes st
  | .plain k => checkPlain k bytes st

/-- `combined_factory.py` 794-818, `validate_key_export_type`, with `pq_key_factory.py` 873-914, `validate_pq_key_export`. -/
def checkExport (C : Cls) (bytes : Bytes) (st : SaveType) : Key C → Except PyErr Unit
  | .ml k => checkMl C k bytes st
  | .slh k => compareAs k bytes st
  | .frodo k => compareRaw k bytes st
  | .plain k => compareRaw k bytes st
  | .xwing k => checkPlain k bytes st
  | .composite pq _ => checkPart C bytes st pq
  | .chempat pq _ => checkPart C bytes st pq
  | .other => .error .typeError

/-! ## Writing -/

/-- An outcome of `KeyStore` as a value or an exception (key generation is not involved here). -/
def ofOut : Out Bytes → Except PyErr Bytes
  | .value b => .ok b
  | .raised e => .error e
  | .pyNone => .error .typeError
  | .running => .error .exception

/-- `pq_key_factory.py` 741-745: SLH-DSA. -/
def saveSlh (k : Plain) : SaveType → Except PyErr Bytes
  | .seed => k.privateNumbers
  | _ => .ok k.raw

/-- `pq_key_factory.py` 735-739, 745: FrodoKEM. -/
def saveFrodo (k : Plain) : SaveType → Except PyErr Bytes
  | .seed => k.privateNumbers
  | .both =>
    match k.privateNumbers with
    | .error e => .error e
    | .ok s => .ok (s ++ k.raw)
  | .raw => .ok k.raw

/-- `pq_key_factory.py` 717-745, `save_keys_with_support_seed` without `invalid_key`, for the PQ key of a hybrid key. -/
def savePart (C : Cls) (st : SaveType) : Part C → Except PyErr Bytes
  | .ml k => ofOut (prepareMl C k st)
  | .frodo k => saveFrodo k st
  | .plain k => .ok k.raw

/-- `hybrid_key_factory.py` 568-573: X-Wing. -/
def saveXwing (k : Plain) : SaveType → Except PyErr Bytes
  | .seed => k.privateNumbers
  | .raw => .ok k.raw
  | .both =>
    match k.privateNumbers with
    | .error e => .error e
    | .ok s => .ok (s ++ k.raw)

/-- Four bytes, the lowest first. -/
def le4 (n : Nat) : Bytes :=
  [UInt8.ofNat n, UInt8.ofNat (n / 256), UInt8.ofNat (n / 65536), UInt8.ofNat (n / 16777216)]

/-- `hybrid_key_factory.py` 575-577: Chempat, with the form of the PQ key before the traditional one. -/
def saveChempat (C : Cls) (pq : Part C) (trad : Bytes) (st : SaveType) : Except PyErr Bytes :=
  match savePart C st pq with
  | .error e => .error e
  | .ok b => .ok (le4 b.length ++ b ++ trad)

/-- `hybrid_key_factory.py` 558-566, the bytes of an ML key in a composite key, in the forms `seed` and `raw`. -/
def compositePart (C : Cls) (k : C.Key) : SaveType → Except PyErr Bytes
  | .seed =>
    match C.seed k with
    | none => .error .valueError
    | some s => .ok s
  | _ => .ok (C.raw k)

/-- `hybrid_key_factory.py` 551-566: a composite key with an ML key, not in the form `both`; the inner structure is made
first, so that its errors come first. -/
def saveComposite (C : Cls) (k : C.Key) (trad : Bytes) (st : SaveType) : Except PyErr Bytes :=
  match ofOut (prepareMl C k st) with
  | .error e => .error e
  | .ok _ =>
    match compositePart C k st with
    | .error e => .error e
    | .ok b => .ok (b ++ trad)

end Verif.PQ.KeyExport
