import Verif.PQ.KemKeys
import Verif.PQ.SigKeys
import Verif.PQ.Hybrid

/-!
# Saving and loading post-quantum private keys (`pq_logic/keys/pq_key_factory.py`)

The OneAsymmetricKey structure is modelled by its fields; the inner CHOICE of the ML keys, which has to be told apart from raw
bytes, is modelled with its DER encoding. `MismatchingKey` is a subclass of `InvalidKeyData` (`exceptions.py` 208) and is
modelled by it.
-/

namespace Verif.PQ.Store

open Verif.CA (Bytes PyErr)
open Verif.PQ.Dsa (Out)
open Verif.PQ.Hyb (bind)

/-! ## The inner structure -/

/-- `hybrid_structures.py` 252-345, `ML..PrivateKeyASN1`. -/
inductive Choice where
  | seed (s : Bytes)
  | expanded (r : Bytes)
  | both (s r : Bytes)
  deriving DecidableEq

/-- Errors of the pyasn1 decoder: `ValueConstraintError`, or another `PyAsn1Error`. -/
inductive DecErr where
  | constraint | other
  deriving DecidableEq

/-- Big-endian number. -/
def beNat (b : Bytes) : Nat := b.foldl (fun a x => a * 256 + x.toNat) 0

/-- A definite length; the DER decoder of pyasn1 refuses the indefinite form and does not insist on the shortest form. -/
def readLen : Bytes → Option (Nat × Bytes)
  | [] => none
  | b :: r =>
    if b.toNat < 128 then some (b.toNat, r)
    else if b.toNat = 128 then none
    else if r.length < b.toNat - 128 then none
    else some (beNat (r.take (b.toNat - 128)), r.drop (b.toNat - 128))

/-- The content of an element after its tag, and what follows. -/
def readValue (d : Bytes) : Option (Bytes × Bytes) :=
  match readLen d with
  | none => none
  | some (n, r) => if r.length < n then none else some (r.take n, r.drop n)

/-- An OCTET STRING of a fixed size (`hybrid_structures.py` 223-225). -/
def readOctets (size : Nat) : Bytes → Except DecErr (Bytes × Bytes)
  | 0x04 :: d =>
    match readValue d with
    | none => .error .other
    | some (c, rest) => if c.length ≠ size then .error .constraint else .ok (c, rest)
  | _ => .error .other

/-- `decoder.decode(private_bytes, asn1Spec=structure())`: tag 0x80 for the seed, 0x04 for the key, 0x30 for both. -/
def decodeChoice (seedLen rawLen : Nat) : Bytes → Except DecErr (Choice × Bytes)
  | 0x80 :: d =>
    match readValue d with
    | none => .error .other
    | some (c, rest) => if c.length ≠ seedLen then .error .constraint else .ok (.seed c, rest)
  | 0x04 :: d =>
    match readOctets rawLen (0x04 :: d) with
    | .error e => .error e
    | .ok (c, rest) => .ok (.expanded c, rest)
  | 0x30 :: d =>
    match readValue d with
    | none => .error .other
    | some (content, rest) =>
      match readOctets seedLen content with
      | .error e => .error e
      | .ok (s, content) =>
        match readOctets rawLen content with
        | .error e => .error e
        | .ok (r, content) => if content ≠ [] then .error .other else .ok (.both s r, rest)
  | _ => .error .other

/-- A length below 65536. -/
def encodeLen (n : Nat) : Bytes :=
  if n < 128 then [UInt8.ofNat n]
  else if n < 256 then [0x81, UInt8.ofNat n]
  else [0x82, UInt8.ofNat (n / 256), UInt8.ofNat n]

def tlv (t : UInt8) (c : Bytes) : Bytes := t :: (encodeLen c.length ++ c)

/-- `encoder.encode(structure)`. -/
def encodeChoice : Choice → Bytes
  | .seed s => tlv 0x80 s
  | .expanded r => tlv 0x04 r
  | .both s r => tlv 0x30 (tlv 0x04 s ++ tlv 0x04 r)

/-! ## Key classes -/

/-- What the factory uses of `MLKEMPrivateKey` and `MLDSAPrivateKey` (for one name): `from_private_bytes`, the constructor,
`private_bytes_raw`, `_seed`, `public_key().public_bytes_raw()`, `public_key().from_public_bytes` and `key_size`. -/
structure Cls where
  Key : Type
  seedLen : Nat
  rawLen : Nat
  load : Bytes → Out Key
  new : Bytes → Option Bytes → Option Bytes → Out Key
  raw : Key → Bytes
  seed : Key → Option Bytes
  pub : Key → Bytes
  loadPub : Bytes → Out Bytes

/-- `kem_keys.py` 128-229. The constructor with private bytes stores its arguments. -/
def mlKem (P : Kem.Params) (E : Kem.Env) : Cls where
  Key := Keys.MlPriv
  seedLen := 64
  rawLen := Keys.mlSkSize P
  load := Keys.mlFromPrivateBytes P E
  new := fun raw pk seed => .value ⟨raw, pk, seed⟩
  raw := Keys.MlPriv.dk
  seed := Keys.MlPriv.seed
  pub := Keys.mlPublicKey P
  loadPub := fun d => Hyb.lift (Keys.mlFromPublicBytes P d)

/-- `sig_keys.py` 194-314. The constructor derives a missing public key (249-250). -/
def mlDsa (P : Dsa.Params) (E : Dsa.Env) : Cls where
  Key := Dsa.PrivKey
  seedLen := 32
  rawLen := Dsa.skSize P
  load := Dsa.fromPrivateBytes P E
  new := fun raw pk seed => match pk with
    | some pk => .value ⟨pk, raw, seed⟩
    | none => Out.ofOption ((Dsa.derivePublicKey P E raw).map (fun pk => ⟨pk, raw, seed⟩))
  raw := Dsa.PrivKey.sk
  seed := Dsa.PrivKey.seed
  pub := Dsa.PrivKey.pk
  loadPub := Dsa.fromPublicBytes P

/-- `abstract_wrapper_keys.py` 96-100, `BaseKey.__eq__`, which the private keys inherit: only the types are compared, and both
keys have the same class. -/
def eqPriv {C : Cls} (_k _k' : C.Key) : Bool := true

/-! ## Loading -/

/-- `pq_key_factory.py` 383-395, `from_private_bytes`: the data are cut to the size of the private key. -/
def fromPrivateBytes (C : Cls) (data : Bytes) : Out C.Key := C.load (data.take C.rawLen)

/-- `pq_key_factory.py` 261-265: is the given public key that of the private key? -/
def checkPub (C : Cls) (key : C.Key) : Option Bytes → Out C.Key
  | none => .value key
  | some p => bind (C.loadPub p) fun pub => if C.pub key ≠ pub then .raised .invalidKeyData else .value key

/-- `pq_key_factory.py` 242-267, the second half of `load_ml_private_key_from_one_asym_key`. -/
def loadChoice (C : Cls) (pub : Option Bytes) : Choice → Out C.Key
  | .both s r =>
    bind (C.load s) fun key =>
    bind (C.load r) fun key2 =>
    if !(eqPriv key key2) then .raised .invalidKeyData else checkPub C key pub
  | .seed s => bind (C.load s) fun key => checkPub C key pub
  | .expanded r => bind (C.load r) fun key => checkPub C key pub

/-- `pq_key_factory.py` 67-97, `_load_and_validate`: an empty public key is not compared, but used. -/
def loadAndValidate (C : Cls) (priv : Bytes) (pub : Option Bytes) : Out C.Key :=
  bind (C.load priv) fun key =>
  bind (match pub with
    | some (b :: bs) => bind (C.loadPub (b :: bs)) fun p => if C.pub key ≠ p then .raised .invalidKeyData else .value ()
    | _ => .value ()) fun _ =>
  C.new (C.raw key) pub (C.seed key)

/-- The fields of a OneAsymmetricKey; the algorithm identifies the class. -/
structure Asym where
  version : Nat
  priv : Bytes
  pub : Option Bytes
  deriving DecidableEq

/-- `pq_key_factory.py` 539-599, `from_one_asym_key`, for an ML-KEM or ML-DSA name of `_pq_name_2_ser_structures` and without
`must_be_version_2`, with 213-240, the first half of `load_ml_private_key_from_one_asym_key`. -/
def fromOneAsym (C : Cls) (a : Asym) : Out C.Key :=
  if a.version ≠ 0 ∧ a.version ≠ 1 then .raised .invalidKeyData
  else match decodeChoice C.seedLen C.rawLen a.priv with
  | .error .constraint => .raised .invalidKeyData
  | .error .other => loadAndValidate C a.priv a.pub
  | .ok (c, rest) => if rest ≠ [] then .raised .invalidKeyData else loadChoice C a.pub c

/-- `combined_factory.py` 548-600, `load_private_key_from_one_asym_key`, for these algorithms. -/
def combinedLoad (C : Cls) (a : Asym) : Out C.Key :=
  if a.version ≠ 0 ∧ a.version ≠ 1 then .raised .invalidKeyData
  else if a.version = 0 ∧ a.pub.isSome then .raised .invalidKeyData
  else fromOneAsym C a

/-! ## Saving -/

/-- `suiteenums.py`, `KeySaveType`. -/
inductive SaveType where
  | seed | raw | both
  deriving DecidableEq

/-- `private_numbers` (`kem_keys.py` 150-158, `sig_keys.py` 231-239). -/
def privateNumbers (C : Cls) (key : C.Key) : Out Bytes :=
  match C.seed key with
  | none => .raised .valueError
  | some s => .value s

/-- `pq_key_factory.py` 684-714, `_prepare_ml_private_key` without `invalid_key`; an octet string of the wrong size is refused
on assignment. -/
def prepareMl (C : Cls) (key : C.Key) : SaveType → Out Bytes
  | .seed => bind (privateNumbers C key) fun s =>
    if s.length ≠ C.seedLen then .raised .pyasn1Error else .value (encodeChoice (.seed s))
  | .both => bind (privateNumbers C key) fun s =>
    if s.length ≠ C.seedLen ∨ (C.raw key).length ≠ C.rawLen then .raised .pyasn1Error else .value (encodeChoice (.both s (C.raw key)))
  | .raw => if (C.raw key).length ≠ C.rawLen then .raised .pyasn1Error else .value (encodeChoice (.expanded (C.raw key)))

/-- `pq_key_factory.py` 746-780, `_may_get_pub_key`, for ML keys. -/
def mayGetPub (C : Cls) (key : C.Key) (publicKey : Option Bytes) (version : Nat) (include_ : Bool) : Option Bytes :=
  if include_ then some (C.pub key)
  else if version = 1 then some (publicKey.getD (C.pub key))
  else none

/-- `pq_key_factory.py` 782-842, `save_private_key_one_asym_key`, for ML keys. -/
def save (C : Cls) (key : C.Key) (publicKey : Option Bytes) (version : Nat) (st : SaveType) (include_ : Bool) : Out Asym :=
  bind (prepareMl C key st) fun priv => .value ⟨version, priv, mayGetPub C key publicKey version include_⟩

/-- `abstract_wrapper_keys.py` 439-450 and 456-458, `_to_one_asym_key` with `_export_private_key`, as written by
`keyutils.save_key(save_old=True)` and `private_bytes`. -/
def saveOld (C : Cls) (key : C.Key) : Asym :=
  ⟨1, match C.seed key with
    | some (b :: bs) => b :: bs
    | _ => C.raw key, some (C.pub key)⟩

end Verif.PQ.Store
