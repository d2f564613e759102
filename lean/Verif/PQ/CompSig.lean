import Verif.PQ.SigKeys
import Verif.PQ.HybridNames

/-!
# Composite signatures

`pq_logic/keys/composite_sig.py`, the tables of `pq_logic/tmp_oids.py`, the composite branches of
`resources/protectionutils.py` (`sign_data_with_alg_id`, `verify_signature_with_alg_id`) and the loaders of
`pq_logic/combined_factory.py`. The ML-DSA component is a `PqSig`, the traditional keys and their encodings are those of `Lib`,
the hash functions of `cryptography` are a parameter, by the name under which `hash_name_to_instance` finds them. Random
values are arguments.
-/

namespace Verif.PQ.CSig

open Verif.CA (Bytes PyErr)
open Verif.PQ.Dsa (Out)
open Verif.PQ.Mech (look ascii)
open Verif.PQ.Hyb

/-- `id_compSig_base + (n,)` (`tmp_oids.py` 106). -/
def cs (n : Nat) : List Nat := [1, 3, 6, 1, 5, 5, 7, 6, n]

/-- `tmp_oids.py` 106-148, `COMPOSITE_SIG_NAME_TO_OID`. -/
def nameToOid : List (String × List Nat) :=
  [("composite-sig-ml-dsa-44-rsa2048-pss", cs 37), ("composite-sig-ml-dsa-44-rsa2048", cs 38),
   ("composite-sig-ml-dsa-44-ed25519", cs 39), ("composite-sig-ml-dsa-44-ecdsa-secp256r1", cs 40),
   ("composite-sig-ml-dsa-65-rsa3072-pss", cs 41), ("composite-sig-ml-dsa-65-rsa3072", cs 42),
   ("composite-sig-ml-dsa-65-rsa4096-pss", cs 43), ("composite-sig-ml-dsa-65-rsa4096", cs 44),
   ("composite-sig-ml-dsa-65-ecdsa-secp256r1", cs 45), ("composite-sig-ml-dsa-65-ecdsa-secp384r1", cs 46),
   ("composite-sig-ml-dsa-65-ecdsa-brainpoolP256r1", cs 47), ("composite-sig-ml-dsa-65-ed25519", cs 48),
   ("composite-sig-ml-dsa-87-ecdsa-secp384r1", cs 49), ("composite-sig-ml-dsa-87-ecdsa-brainpoolP384r1", cs 50),
   ("composite-sig-ml-dsa-87-ed448", cs 51), ("composite-sig-ml-dsa-87-rsa3072-pss", cs 52),
   ("composite-sig-ml-dsa-87-rsa4096-pss", cs 53), ("composite-sig-ml-dsa-87-ecdsa-secp521r1", cs 54)]

/-- `tmp_oids.py` 149, `COMPOSITE_SIG_OID_TO_NAME` (the identifiers are different). -/
def oidToName : List (List Nat × String) := nameToOid.map (fun e => (e.2, e.1))

/-- `tmp_oids.py` 151-170, `COMPOSITE_SIG_LABELS`. -/
def labels : List (List Nat × String) :=
  [(cs 37, "COMPSIG-MLDSA44-RSA2048-PSS-SHA256"), (cs 38, "COMPSIG-MLDSA44-RSA2048-PKCS15-SHA256"),
   (cs 39, "COMPSIG-MLDSA44-Ed25519-SHA512"), (cs 40, "COMPSIG-MLDSA44-ECDSA-P256-SHA256"),
   (cs 41, "COMPSIG-MLDSA65-RSA3072-PSS-SHA512"), (cs 42, "COMPSIG-MLDSA65-RSA3072-PKCS15-SHA512"),
   (cs 43, "COMPSIG-MLDSA65-RSA4096-PSS-SHA512"), (cs 44, "COMPSIG-MLDSA65-RSA4096-PKCS15-SHA512"),
   (cs 45, "COMPSIG-MLDSA65-ECDSA-P256-SHA512"), (cs 46, "COMPSIG-MLDSA65-ECDSA-P384-SHA512"),
   (cs 47, "COMPSIG-MLDSA65-ECDSA-BP256-SHA512"), (cs 48, "COMPSIG-MLDSA65-Ed25519-SHA512"),
   (cs 49, "COMPSIG-MLDSA87-ECDSA-P384-SHA512"), (cs 50, "COMPSIG-MLDSA87-ECDSA-BP384-SHA512"),
   (cs 51, "COMPSIG-MLDSA87-Ed448-SHAKE256"), (cs 52, "COMPSIG-MLDSA87-RSA3072-PSS-SHA512"),
   (cs 53, "COMPSIG-MLDSA87-RSA4096-PSS-SHA512"), (cs 54, "COMPSIG-MLDSA87-ECDSA-P521-SHA512")]

/-- `tmp_oids.py` 172-191, `COMPOSITE_SIG_INNER_HASH_OID_2_NAME`. -/
def innerHash : List (List Nat × Option String) :=
  [(cs 37, some "sha256"), (cs 38, some "sha256"), (cs 39, none), (cs 40, some "sha256"),
   (cs 41, some "sha256"), (cs 42, some "sha256"), (cs 43, some "sha384"), (cs 44, some "sha384"),
   (cs 45, some "sha256"), (cs 46, some "sha384"), (cs 47, some "sha256"), (cs 48, none),
   (cs 49, some "sha384"), (cs 50, some "sha384"), (cs 51, none), (cs 52, some "sha256"),
   (cs 53, some "sha384"), (cs 54, some "sha512")]

/-- `tmp_oids.py` 193-212, `COMPOSITE_SIG_PREHASH_OID_2_HASH`. -/
def preHash : List (List Nat × String) :=
  [(cs 37, "sha256"), (cs 38, "sha256"), (cs 39, "sha512"), (cs 40, "sha256"),
   (cs 41, "sha512"), (cs 42, "sha512"), (cs 43, "sha512"), (cs 44, "sha512"),
   (cs 45, "sha512"), (cs 46, "sha512"), (cs 47, "sha512"), (cs 48, "sha512"),
   (cs 49, "sha512"), (cs 50, "sha512"), (cs 51, "shake256"), (cs 52, "sha512"),
   (cs 53, "sha512"), (cs 54, "sha512")]

/-! ## Components -/

/-- The class of a traditional key with what its name depends on: `key_size` and `curve.name`. -/
inductive Kind where
  | rsa (bits : Nat)
  | ec (curve : String)
  | ed25519
  | ed448
  deriving DecidableEq

/-- How a traditional key is used: the padding or scheme with the hash algorithm (`None` if there is none). -/
inductive Scheme where
  | pss (hash : Option String)
  | pkcs1 (hash : Option String)
  | ecdsa (hash : Option String)
  | eddsa
  deriving DecidableEq

/-- The traditional keys of `cryptography`, their signatures and encodings. `decodePub`/`decodePriv` stand for
`from_public_bytes`, `from_encoded_point` of the curve, or the DER functions, by the class asked for. -/
structure Lib where
  Priv : Type
  Pub : Type
  pub : Priv → Pub
  kind : Pub → Kind
  sign : Priv → Scheme → Bytes → Bytes → Out Bytes
  verify : Pub → Scheme → Bytes → Bytes → Out Unit
  encode : Pub → Bytes
  encodePriv : Priv → Bytes
  decodeRaw : Kind → Bytes → Except PyErr Pub
  decodeRsa : Bytes → Except PyErr Pub
  decodePrivRaw : Kind → Bytes → Except PyErr Priv
  decodePrivDer : Bytes → Except PyErr Priv

/-- An ML-DSA implementation (`sig_keys.py`): `name`, `sig_size`, `sign` and `verify` with a context. -/
structure PqSig where
  Priv : Type
  Pub : Type
  pub : Priv → Pub
  name : Pub → String
  sigSize : Pub → Nat
  sign : Priv → Bytes → Bytes → Bytes → Out Bytes
  verify : Pub → Bytes → Bytes → Bytes → Out Unit

structure Pub (K : PqSig) (L : Lib) where
  pq : K.Pub
  trad : L.Pub

structure Priv (K : PqSig) (L : Lib) where
  pq : K.Priv
  trad : L.Priv

/-- `composite_sig.py` 247-252, `public_key`. -/
def publicKey {K : PqSig} {L : Lib} (k : Priv K L) : Pub K L := ⟨K.pub k.pq, L.pub k.trad⟩

/-! ## Names -/

/-- `abstract_wrapper_keys.py` 757-777, `AbstractCompositePublicKey._get_trad_key_name`. -/
def tradName (usePss : Bool) : Kind → String
  | .ec curve => "ecdsa-" ++ curve
  | .rsa bits => "rsa" ++ toString bits ++ (if usePss then "-pss" else "")
  | .ed25519 => "ed25519"
  | .ed448 => "ed448"

/-- `composite_sig.py` 254-266, `CompositeSigPrivateKey._get_trad_key_name`: the size of an RSA key is rounded. -/
def privTradName (usePss : Bool) : Kind → String
  | .rsa bits => tradName usePss (.rsa (rsaSize bits))
  | k => tradName usePss k

/-- The table access of `get_oid` (105-112, 278-283). -/
def nameOid (name : String) : Except PyErr (List Nat) :=
  match nameToOid.lookup name with
  | none => .error .invalidKeyCombination
  | some o => .ok o

/-- `composite_sig.py` 99-112, `CompositeSigPublicKey.get_oid`. -/
def pubOid {K : PqSig} {L : Lib} (k : Pub K L) (usePss : Bool) : Except PyErr (List Nat) :=
  nameOid ("composite-sig-" ++ K.name k.pq ++ "-" ++ tradName usePss (L.kind k.trad))

/-- `composite_sig.py` 268-283, `CompositeSigPrivateKey.get_oid`. -/
def privOid {K : PqSig} {L : Lib} (k : Priv K L) (usePss : Bool) : Except PyErr (List Nat) :=
  nameOid ("composite-sig-" ++ K.name (K.pub k.pq) ++ "-" ++ privTradName usePss (L.kind (L.pub k.trad)))

/-! ## The signed input -/

/-- `composite_sig.py` 37, `PREFIX`. -/
def sigPrefix : Bytes := ascii "CompositeAlgorithmSignatures2025"

/-- `composite_sig.py` 58-63, `_get_label`. -/
def getLabel (oid : List Nat) : Except PyErr Bytes :=
  match labels.lookup oid with
  | none => .error .invalidKeyCombination
  | some l => .ok (ascii l)

/-- `composite_sig.py` 52-55, `_compute_prehash`. -/
def computePrehash (H : String → Bytes → Bytes) (oid : List Nat) (data : Bytes) : Except PyErr Bytes :=
  match look oid preHash with
  | .error e => .error e
  | .ok h => .ok (H h data)

/-- `composite_sig.py` 131-140, `prepare_sig_input`. -/
def prepareSigInput (H : String → Bytes → Bytes) (oid : List Nat) (data ctx : Bytes) : Except PyErr (Bytes × Bytes) :=
  if ctx.length > 255 then .error .invalidSignature
  else match getLabel oid with
  | .error e => .error e
  | .ok label =>
    match computePrehash H oid data with
    | .error e => .error e
    | .ok ph => .ok (sigPrefix ++ label ++ [UInt8.ofNat ctx.length] ++ ctx ++ ph, label)

/-- `_prepare_input` (142-148, 285-291) for the identifier `oid` of the key. -/
def prepareInput (H : String → Bytes → Bytes) (oid : Except PyErr (List Nat)) (data ctx : Bytes) : Except PyErr (Bytes × Bytes) :=
  if ctx.length > 255 then .error .invalidSignature
  else match oid with
  | .error e => .error e
  | .ok o => prepareSigInput H o data ctx

/-- The choice of scheme in `_verify_trad` (158-179) and `_sign_trad` (293-316). -/
def scheme (kind : Kind) (usePss : Bool) (hash : Option String) : Scheme :=
  match kind with
  | .rsa _ => if usePss then .pss hash else .pkcs1 hash
  | .ec _ => .ecdsa hash
  | .ed25519 => .eddsa
  | .ed448 => .eddsa

/-- `COMPOSITE_SIG_INNER_HASH_OID_2_NAME.get(oid)`. -/
def getInner (oid : List Nat) : Option String := (innerHash.lookup oid).getD none

/-- `composite_sig.py` 158-179, `_verify_trad`. -/
def verifyTrad {K : PqSig} {L : Lib} (k : Pub K L) (data sig : Bytes) (usePss : Bool) : Out Unit :=
  bind (lift (pubOid k usePss)) fun oid => L.verify k.trad (scheme (L.kind k.trad) usePss (getInner oid)) data sig

/-- `composite_sig.py` 181-193, `verify`. -/
def verify {K : PqSig} {L : Lib} (H : String → Bytes → Bytes) (k : Pub K L) (data sig ctx : Bytes) (usePss : Bool) : Out Unit :=
  let pqSig := sig.take (K.sigSize k.pq)
  let tradSig := sig.drop (K.sigSize k.pq)
  bind (lift (prepareInput H (pubOid k usePss) data ctx)) fun (m, label) =>
  bind (K.verify k.pq m pqSig label) fun _ =>
  verifyTrad k m tradSig usePss

/-- `composite_sig.py` 293-316, `_sign_trad`. -/
def signTrad {K : PqSig} {L : Lib} (k : Priv K L) (data : Bytes) (usePss : Bool) (rnd : Bytes) : Out Bytes :=
  bind (lift (privOid k usePss)) fun oid => L.sign k.trad (scheme (L.kind (L.pub k.trad)) usePss (getInner oid)) data rnd

/-- `composite_sig.py` 318-338, `sign`. -/
def sign {K : PqSig} {L : Lib} (H : String → Bytes → Bytes) (k : Priv K L) (data ctx : Bytes) (usePss : Bool) (r1 r2 : Bytes) : Out Bytes :=
  if ctx.length > 255 then .raised .valueError
  else
    bind (lift (prepareInput H (privOid k usePss) data ctx)) fun (m, label) =>
    bind (K.sign k.pq m label r1) fun pqSig =>
    bind (signTrad k m usePss r2) fun tradSig =>
    .value (pqSig ++ tradSig)

/-! ## Algorithm identifiers -/

/-- `protectionutils.py` 2449-2453, `sign_data_with_alg_id` for a composite key. -/
def signWithAlgId {K : PqSig} {L : Lib} (H : String → Bytes → Bytes) (k : Priv K L) (oid : List Nat) (data r1 r2 : Bytes) : Out Bytes :=
  bind (lift (look oid oidToName)) fun name => sign H k data [] (pyEnds name "-pss") r1 r2

/-- `protectionutils.py` 2646-2661 with 2602-2608, `verify_signature_with_alg_id` for a composite key and an identifier of
the composite table; `params` tells whether parameters are present. For another identifier the answer is `none`: those
branches are not modelled. -/
def verifyWithAlgId {K : PqSig} {L : Lib} (H : String → Bytes → Bytes) (k : Pub K L) (oid : List Nat) (params : Bool)
    (data sig : Bytes) : Option (Out Unit) :=
  match oidToName.lookup oid with
  | none => none
  | some name =>
    if params then some (.raised .badAlg)
    else some (verify H k data sig [] (pyEnds name "-pss"))

/-! ## Loading -/

/-- The lower-case names of `CURVE_NAMES_TO_INSTANCES` (`oidutils.py` 310-326) with `curve.name`. -/
def curveInstances : List (String × String) :=
  [("secp192r1", "secp192r1"), ("prime192v1", "secp192r1"), ("secp224r1", "secp224r1"), ("prime224v1", "secp224r1"),
   ("secp256r1", "secp256r1"), ("prime256v1", "secp256r1"), ("secp384r1", "secp384r1"), ("secp521r1", "secp521r1"),
   ("secp256k1", "secp256k1"), ("brainpoolp256r1", "brainpoolP256r1"), ("brainpoolp384r1", "brainpoolP384r1"),
   ("brainpoolp512r1", "brainpoolP512r1")]

/-- The traditional part of `_load_composite_sig_from_public_bytes` (`combined_factory.py` 1002-1020). -/
def loadTradPub (L : Lib) (tradName : String) (rest : Bytes) : Except PyErr L.Pub :=
  if tradName = "ed448" then L.decodeRaw .ed448 rest
  else if tradName = "ed25519" then L.decodeRaw .ed25519 rest
  else if pyStarts tradName "ecdsa-" then
    match look (pyReplace tradName "ecdsa-" "") curveInstances with
    | .error e => .error e
    | .ok c => L.decodeRaw (.ec c) rest
  else L.decodeRsa rest

/-- `combined_factory.py` 995-1034, `_load_composite_sig_from_public_bytes`; `pqLoad` is `PQKeyFactory.from_public_bytes` with
`allow_rest=True` for an ML-DSA name. -/
def loadPublic {K : PqSig} {L : Lib} (pqLoad : String → Bytes → Except PyErr (K.Pub × Bytes)) (algorithm : String) (data : Bytes) :
    Except PyErr (Pub K L) :=
  match splitHybridName algorithm with
  | .error e => .error e
  | .ok (pqName, trad) =>
    match pqLoad pqName data with
    | .error e => .error e
    | .ok (pq, rest) =>
      match loadTradPub L trad rest with
      | .error e => .error e
      | .ok t =>
        let k : Pub K L := ⟨pq, t⟩
        match pubOid k (pyStarts trad "rsa") with
        | .error e => .error e
        | .ok _ => .ok k

/-- The traditional part of the private loader (`combined_factory.py` 895-991, `_try_load_ec_private_from_asn1`,
`_load_trad_raw_key`, `_load_trad_composite_private_key`); the decimal number after `rsa` is compared as text. The `x25519` and
`x448` branches are left out: no composite signature algorithm has them, and `get_oid` raises afterwards. -/
def loadTradPriv (L : Lib) (name : String) (data : Bytes) : Except PyErr L.Priv :=
  if pyStarts name "ecdsa" || pyStarts name "ecdh" then
    let curve := pyReplace (pyReplace name "ecdsa-" "") "ecdh-" ""
    match look curve curveInstances with
    | .error _ => .error .invalidKeyData
    | .ok _ =>
      match L.decodePrivDer data with
      | .error _ => .error .invalidKeyData
      | .ok k =>
        match L.kind (L.pub k) with
        | .ec c => if pyLower c ≠ curve then .error .invalidKeyData else .ok k
        | _ => .error .invalidKeyData
  else if name = "ed448" then
    match L.decodePrivRaw .ed448 data with
    | .error _ => .error .invalidKeyData
    | .ok k => .ok k
  else if name = "ed25519" then
    match L.decodePrivRaw .ed25519 data with
    | .error _ => .error .invalidKeyData
    | .ok k => .ok k
  else if pyStarts name "rsa" then
    match L.decodePrivDer data with
    | .error _ => .error .invalidKeyData
    | .ok k =>
      match L.kind (L.pub k) with
      | .rsa bits => if "rsa" ++ toString bits ≠ pyReplace name "-pss" "" then .error .invalidKeyData else .ok k
      | _ => .error .invalidKeyData
  else .error .invalidKeyData

/-- `combined_factory.py` 867-892, `_load_composite_sig_from_private_bytes`; `pqLoad` is `MLDSAPrivateKey.from_private_bytes`. -/
def loadPrivate {K : PqSig} {L : Lib} (pqLoad : String → Bytes → Out K.Priv) (algorithm : String) (data : Bytes) : Out (Priv K L) :=
  bind (lift (splitHybridName algorithm)) fun (pqName, trad) =>
  bind (pqLoad pqName (data.take 32)) fun pq =>
  bind (lift (loadTradPriv L trad (data.drop 32))) fun t =>
  let k : Priv K L := ⟨pq, t⟩
  bind (lift (privOid k (pyEnds trad "-pss"))) fun _ =>
  .value k

end Verif.PQ.CSig
