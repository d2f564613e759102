import Verif.CA.Msg

/-!
# Saving, loading and generating traditional private keys

* `pq_logic/keys/trad_key_factory.py` 181-580: the OneAsymmetricKey of a traditional key;
* `pq_logic/combined_factory.py` 548-600, 641-741: the choice of the factory, for loading and for saving;
* `pq_logic/keys/trad_kem_keys.py` 141-168: loading an RSA-KEM key;
* `resources/keyutils.py` 88-155, 158-188, 191-220, 228-354, 663-681, 831-1039: saving in a file, generating keys, the
  OneAsymmetricKey with the options for negative tests;
* `resources/ca_ra_utils.py` 617-680: the wrong keys of the central key generation.

The library `cryptography` and the DER codec are the fields of `Lib`. A OneAsymmetricKey is modelled by its fields; attributes are
left out. The factories of the post-quantum and the hybrid keys are the fields `saveOther`, `loadOther` (see `KeyStore.lean`,
`HybridLoad.lean`). DH-KEM keys are left out. `MismatchingKey` is told apart from `InvalidKeyData`.
-/

namespace Verif.PQ.TradStore

open Verif.CA (Bytes PyErr)

/-- The class of a traditional key (`typingutils.py` 79-80). -/
inductive Kind where
  | rsa | ec | x25519 | x448 | ed25519 | ed448 | dsa | dh
  deriving DecidableEq

/-- `AlgorithmIdentifier`; the parameters as DER. -/
structure Alg where
  oid : String
  params : Option Bytes := none
  deriving DecidableEq

/-- `rfc5958.OneAsymmetricKey`. -/
structure OneAsym where
  version : Int
  alg : Alg
  priv : Bytes
  pub : Option Bytes := none
  deriving DecidableEq

/-- A private key: of the library, an RSA-KEM wrapper of one, or a post-quantum or hybrid one. -/
inductive Priv (K O : Type) where
  | trad (k : K)
  | rsaKem (k : K)
  | pq (o : O)
  | hybrid (o : O)
  deriving DecidableEq

/-- A public key, likewise. -/
inductive Pub (P Q : Type) where
  | trad (p : P)
  | rsaKem (p : P)
  | pq (q : Q)
  | hybrid (q : Q)
  deriving DecidableEq

/-- The library and the codec. -/
structure Lib (K P O Q : Type) where
  kind : K → Kind
  pub : K → P
  pubKind : P → Kind
  pubOther : O → Q
  /-- `private_bytes(DER, PKCS8, NoEncryption())`, decoded. -/
  pkcs8 : K → Alg × Bytes
  /-- The private octets of PKCS#1 of an RSA key (`trad_kem_keys.py` 170-176). -/
  pkcs1Priv : K → Bytes
  /-- `serialization.load_der_private_key` of a PrivateKeyInfo of version 0; `none` stands for any exception. -/
  load : Alg → Bytes → Option K
  /-- `serialization.load_der_private_key` of the octets themselves. -/
  loadDer : Bytes → Option K
  /-- The encodings of a public key: PKCS#1, uncompressed point, raw. -/
  pkcs1 : P → Bytes
  point : P → Bytes
  raw : P → Bytes
  /-- `serialization.load_der_public_key`; `none` stands for `ValueError`. -/
  loadDerPub : Bytes → Option P
  /-- `EllipticCurvePublicKey.from_encoded_point` on the curve of the private key; `none` stands for `ValueError`. -/
  fromPoint : K → Bytes → Option P
  /-- `from_public_bytes` of a raw key. -/
  fromRaw : Kind → Bytes → Option P
  /-- `decoder.decode` of the private octets with the structure of the kind (OCTET STRING, ECPrivateKey, RSAPrivateKey): the
  data that remain, `none` stands for `PyAsn1Error`. -/
  restOf : Kind → Bytes → Option Bytes
  /-- `try_decode_pyasn1` with `RSAPublicKey`. -/
  restRsaPub : Bytes → Option Bytes
  /-- The factories for other keys: with public key, version, `include_public_key`, `invalid_private_key`. -/
  saveOther : Priv K O → Option (Pub P Q) → Int → Option Bool → Bool → Except PyErr OneAsym
  loadOther : OneAsym → Except PyErr (Priv K O)

variable {K P O Q : Type}

/-- `public_key()`. -/
def Lib.pubOf (L : Lib K P O Q) : Priv K O → Pub P Q
  | .trad k => .trad (L.pub k)
  | .rsaKem k => .rsaKem (L.pub k)
  | .pq o => .pq (L.pubOther o)
  | .hybrid o => .hybrid (L.pubOther o)

/-! ## Saving -/

/-- `trad_key_factory.py` 539-580, `prepare_invalid_trad_private_key`, of its two flags: is it refused? The
changed octets are left out. -/
def invalidPriv (kind : Kind) (invalidKey invalidSize : Bool) : Except PyErr Unit :=
  if !invalidKey && !invalidSize then .error .valueError
  else match kind with
    | .rsa | .ec => .ok ()
    | .x25519 | .x448 | .ed25519 | .ed448 => if invalidKey then .error .valueError else .ok ()
    | _ => .error .valueError

/-- `oid_mapping`/`oidutils`: `id_rsa_kem_spki`. -/
def rsaKemOid : String := "1.2.840.113549.1.9.16.3.14"

/-- `trad_key_factory.py` 218-225 with `abstract_wrapper_keys.py` 204-213: algorithm and octets of the key. -/
def algAndPriv (L : Lib K P O Q) : Priv K O → Alg × Bytes
  | .trad k => L.pkcs8 k
  | .rsaKem k => ({ oid := rsaKemOid }, L.pkcs1Priv k)
  | _ => ({ oid := "" }, [])

/-- Is it an RSA or ECC key of the library (`trad_key_factory.py` 227)? -/
def isRsaOrEc (L : Lib K P O Q) : Priv K O → Bool
  | .trad k => L.kind k == .rsa || L.kind k == .ec
  | _ => false

/-- The kind of a key of the library; an RSA-KEM key is none. -/
def kindOf (L : Lib K P O Q) : Priv K O → Kind
  | .trad k => L.kind k
  | _ => .dh

/-- `trad_key_factory.py` 210-231, `_prepare_private_key_bytes`: `prepare_invalid_trad_private_key` is called without a flag. -/
def privateBytes (L : Lib K P O Q) (key : Priv K O) (invalid : Bool) : Except PyErr (Bytes × Alg) :=
  if invalid && !isRsaOrEc L key then .error .valueError
  else if invalid then
    match invalidPriv (kindOf L key) false false with
    | .error e => .error e
    | .ok () => .ok ([], (algAndPriv L key).1)
  else .ok ((algAndPriv L key).2, (algAndPriv L key).1)

/-- `trad_key_factory.py` 234-264, `_get_public_key_bytes`. -/
def publicBytes (L : Lib K P O Q) : Pub P Q → Except PyErr Bytes
  | .trad p =>
    match L.pubKind p with
    | .rsa => .ok (L.pkcs1 p)
    | .ec => .ok (L.point p)
    | .ed25519 | .ed448 | .x25519 | .x448 => .ok (L.raw p)
    | _ => .error .typeError
  | .rsaKem p => .ok (L.pkcs1 p)
  | _ => .error .typeError

/-- `trad_key_factory.py` 200-205: empty octets are no public key. -/
def nonEmpty : Bytes → Option Bytes
  | [] => none
  | b :: bs => some (b :: bs)

/-- `trad_key_factory.py` 286. -/
def withoutPub (version : Int) (incl : Option Bool) : Bool :=
  (version == 0 && !(incl == some true)) || incl == some false

/-- `trad_key_factory.py` 267-304, `prepare_trad_private_key_one_asym_key`. -/
def prepareTrad (L : Lib K P O Q) (key : Priv K O) (pub : Option (Pub P Q)) (version : Int) (incl : Option Bool)
    (invalid : Bool) : Except PyErr OneAsym :=
  match privateBytes L key invalid with
  | .error e => .error e
  | .ok (priv, alg) =>
    if withoutPub version incl then .ok { version, alg, priv }
    else match publicBytes L (pub.getD (L.pubOf key)) with
      | .error e => .error e
      | .ok b => .ok { version, alg, priv, pub := nonEmpty b }

/-- The encodings of `serialization.Encoding`. -/
inductive Enc where
  | der | pem | other
  deriving DecidableEq

/-- What is returned: DER, or PEM with a header and a password. -/
inductive Saved (K O : Type) where
  | der (a : OneAsym)
  | pem (key : Priv K O) (password : Option String) (a : OneAsym)
  deriving DecidableEq

/-- `PQPublicKey`, `HybridPublicKey`. -/
def pubFits : Priv K O → Option (Pub P Q) → Bool
  | .pq _, some (.pq _) => true
  | .hybrid _, some (.hybrid _) => true
  | .pq _, some _ => false
  | .hybrid _, some _ => false
  | _, _ => true

/-- `combined_factory.py` 675-717: the structure. -/
def saveAsym (L : Lib K P O Q) (key : Priv K O) (pub : Option (Pub P Q)) (version : Option Int) (incl : Option Bool)
    (invalid : Bool) : Except PyErr OneAsym :=
  match key with
  | .trad k => prepareTrad L (.trad k) pub (version.getD 0) incl invalid
  | .rsaKem k => prepareTrad L (.rsaKem k) pub (version.getD 0) incl invalid
  | .pq o => if !pubFits (.pq o : Priv K O) pub then .error .invalidKeyCombination
    else L.saveOther (.pq o) pub (version.getD 1) incl invalid
  | .hybrid o => if !pubFits (.hybrid o : Priv K O) pub then .error .invalidKeyCombination
    else L.saveOther (.hybrid o) pub (version.getD 1) incl false

/-- Is it a `WrapperPrivateKey`? -/
def isWrapper : Priv K O → Bool
  | .trad _ => false
  | _ => true

/-- The arguments of `save_private_key_one_asym_key` with their defaults; `save_type` and `unsafe` are for other keys. -/
structure SaveArgs (P Q : Type) where
  password : Option String := some "11111"
  pub : Option (Pub P Q) := none
  version : Option Int := none
  incl : Option Bool := none
  enc : Enc := .der
  invalid : Bool := false

/-- `combined_factory.py` 719-741: the encoding. -/
def encodeSaved (key : Priv K O) (a : SaveArgs P Q) (s : OneAsym) : Except PyErr (Saved K O) :=
  if isWrapper key && a.enc == .pem then .ok (.pem key a.password s)
  else if a.enc == .der then .ok (.der s)
  else .error .typeError

/-- `combined_factory.py` 641-741, `save_private_key_one_asym_key`. -/
def saveOne (L : Lib K P O Q) (key : Priv K O) (a : SaveArgs P Q) : Except PyErr (Saved K O) :=
  if a.enc = .other then .error .notImplemented
  else if a.password.isSome && a.enc == .der then .error .notImplemented
  else match saveAsym L key a.pub a.version a.incl a.invalid with
    | .error e => .error e
    | .ok s => encodeSaved key a s

/-- What `save_key` writes: PEM of the library, or of the suite. -/
inductive File (K O : Type) where
  | lib (k : Priv K O) (password : Option String)
  | own (s : Saved K O)
  deriving DecidableEq

/-- `keyutils.py` 117: an empty password is none. -/
def realPassword (p : Option String) : Option String := p.filter (fun s => !s.isEmpty)

/-- `keyutils.py` 88-155, `save_key`; `ml`: is it an ML-KEM or ML-DSA key? -/
def saveKey (L : Lib K P O Q) (ml : O → Bool) (key : Priv K O) (password : Option String := some "11111")
    (saveOld : Bool := false) : Except PyErr (File K O) :=
  match key with
  | .trad k => .ok (.lib (.trad k) (realPassword password))
  | .pq o => if ml o && saveOld then .ok (.lib (.pq o) (realPassword password))
    else (saveOne L (.pq o) { password, version := some 1, enc := .pem }).map .own
  | k => (saveOne L k { password, version := some 1, enc := .pem }).map .own

/-! ## Loading -/

/-- `oidutils.py` 746-753 and `rfc6664.id_ecPublicKey`: the identifiers of traditional keys. -/
def tradKinds : List (String × Kind) :=
  [("1.3.101.110", .x25519), ("1.3.101.111", .x448), ("1.3.101.112", .ed25519), ("1.3.101.113", .ed448),
   ("1.2.840.113549.1.1.1", .rsa), ("1.2.840.10045.2.1", .ec)]

/-- The kind of an identifier. -/
def kindOfOid (oid : String) : Option Kind := (tradKinds.find? (fun e => e.1 == oid)).map (·.2)

/-- `trad_key_factory.py` 425-439: the octets of the private key must be used up. -/
def checkPriv (L : Lib K P O Q) (a : OneAsym) : Except PyErr Unit :=
  match kindOfOid a.alg.oid with
  | none => .ok ()
  | some k => match L.restOf k a.priv with
    | none => .error .pyasn1Error
    | some [] => .ok ()
    | some (_ :: _) => .error .invalidKeyData

/-- `trad_key_factory.py` 407-446, `_load_private_key`. -/
def loadPriv (L : Lib K P O Q) (a : OneAsym) : Except PyErr K :=
  match checkPriv L a with
  | .error e => .error e
  | .ok () => match L.load a.alg a.priv with
    | none => .error .invalidKeyData
    | some k => .ok k

/-- `trad_key_factory.py` 315-338: the sizes. -/
def rawSize : Kind → Nat
  | .x25519 => 32
  | .x448 => 56
  | .ed25519 => 32
  | .ed448 => 57
  | _ => 0

/-- `trad_key_factory.py` 307-340, `_load_raw_public_key`, and 400-404: a `ValueError` becomes `InvalidKeyData`. -/
def loadRaw (L : Lib K P O Q) (k : Kind) (b : Bytes) : Except PyErr P :=
  if b.length ≠ rawSize k then .error .invalidKeyData
  else match L.fromRaw k b with
    | none => .error .invalidKeyData
    | some p => .ok p

/-- `trad_key_factory.py` 359-366: an RSA public key. -/
def loadRsaPub (L : Lib K P O Q) (b : Bytes) : Except PyErr P :=
  match L.restRsaPub b with
  | none => .error .badAsn1Data
  | some (_ :: _) => .error .invalidKeyData
  | some [] => match L.loadDerPub b with
    | none => .error .invalidKeyData
    | some p => .ok p

/-- `trad_key_factory.py` 508-517: the public key of an ECC key, as SubjectPublicKeyInfo or as point. -/
def loadEcPub (L : Lib K P O Q) (key : K) (b : Bytes) : Except PyErr P :=
  if L.kind key ≠ .ec then .error .valueError
  else match L.loadDerPub b with
    | some p => if L.pubKind p ≠ .ec then .error .invalidKeyData else .ok p
    | none => match L.fromPoint key b with
      | none => .error .valueError
      | some p => .ok p

/-- `trad_key_factory.py` 508-531: the public key. -/
def loadPub (L : Lib K P O Q) (oid : String) (key : K) (b : Bytes) : Except PyErr P :=
  match kindOfOid oid with
  | some .ec => loadEcPub L key b
  | some .rsa => loadRsaPub L b
  | some .dsa => .error .badAlg
  | some .dh => .error .badAlg
  | some k => loadRaw L k b
  | none => .error .badAlg

/-- `trad_key_factory.py` 449-462, `_check_one_asym_key_version`. -/
def checkVersion (a : OneAsym) (mustV2 : Bool) : Except PyErr Unit :=
  if a.version ≠ 0 ∧ a.version ≠ 1 then .error .invalidKeyData
  else if a.version ≠ 1 ∧ mustV2 = true then .error .valueError
  else if a.version = 0 ∧ a.pub.isSome = true then .error .invalidKeyData
  else .ok ()

/-- `trad_key_factory.py` 499-536: the public key must be that of the private key. -/
def comparePub [DecidableEq P] (L : Lib K P O Q) (a : OneAsym) (key : K) : Except PyErr K :=
  match a.pub with
  | none => .ok key
  | some b => match loadPub L a.alg.oid key b with
    | .error e => .error e
    | .ok p => if L.pub key ≠ p then .error .mismatchingKey else .ok key

/-- `trad_key_factory.py` 490-536. -/
def parseAsym [DecidableEq P] (L : Lib K P O Q) (a : OneAsym) (mustV2 : Bool) : Except PyErr K :=
  match checkVersion a mustV2 with
  | .error e => .error e
  | .ok () => match loadPriv L a with
    | .error e => .error e
    | .ok k => comparePub L a k

/-- The argument of `parse_trad_key_from_one_asym_key`; `rest`: what follows the DER of the structure. -/
inductive ParseArg where
  | asym (a : OneAsym)
  | bytes (a : OneAsym) (rest : Bytes)
  | privateKeyInfo (alg : Alg) (priv : Bytes)

/-- `trad_key_factory.py` 465-536, `parse_trad_key_from_one_asym_key`. For a `PrivateKeyInfo` the argument is replaced by an
empty structure of version 0 before its fields are read (484-488): the private key is absent (492). -/
def parseTrad [DecidableEq P] (L : Lib K P O Q) (arg : ParseArg) (mustV2 : Bool := true) : Except PyErr K :=
  match arg with
  | .asym a => parseAsym L a mustV2
  | .bytes a rest => if rest ≠ [] then .error .invalidKeyData else parseAsym L a mustV2
  | .privateKeyInfo _ _ => if mustV2 then .error .valueError else .error .pyasn1Error

/-- `trad_kem_keys.py` 161-168: the public key of an RSA-KEM key. -/
def compareRsaKem [DecidableEq P] (L : Lib K P O Q) (k : K) : Option Bytes → Except PyErr (Priv K O)
  | none => .ok (.rsaKem k)
  | some b => match L.loadDerPub b with
    | none => .error .valueError
    | some p => if L.pubKind p ≠ .rsa then .error .invalidKeyData
      else if p ≠ L.pub k then .error .invalidKeyData else .ok (.rsaKem k)

/-- `trad_kem_keys.py` 141-168, `RSADecapKey.from_pkcs8`. -/
def loadRsaKem [DecidableEq P] (L : Lib K P O Q) (a : OneAsym) : Except PyErr (Priv K O) :=
  match L.loadDer a.priv with
  | none => .error .valueError
  | some k => if L.kind k ≠ .rsa then .error .invalidKeyData else compareRsaKem L k a.pub

/-- `combined_factory.py` 586-600; the composite identifiers before are among the other ones. -/
def loadByOid [DecidableEq P] (L : Lib K P O Q) (a : OneAsym) (mustV2 : Bool) : Except PyErr (Priv K O) :=
  if a.alg.oid = rsaKemOid then loadRsaKem L a
  else if (kindOfOid a.alg.oid).isSome then (parseAsym L a mustV2).map .trad
  else L.loadOther a

/-- `combined_factory.py` 548-600, `load_private_key_from_one_asym_key`; data after the structure are ignored (563). -/
def loadOne [DecidableEq P] (L : Lib K P O Q) (a : OneAsym) (_rest : Bytes := []) (mustV2 : Bool := false) :
    Except PyErr (Priv K O) :=
  if a.version ≠ 0 ∧ a.version ≠ 1 then .error .invalidKeyData
  else if a.version = 0 ∧ a.pub.isSome = true then .error .invalidKeyData
  else loadByOid L a mustV2

/-! ## Generating -/

/-- A keyword argument: left out, `None`, or a value. -/
inductive Kw (α : Type) where
  | absent
  | none
  | val (a : α)
  deriving DecidableEq

/-- `params.get(name, default)`. -/
def Kw.getOr {α : Type} (k : Kw α) (d : α) : Option α :=
  match k with
  | .absent => some d
  | .none => Option.none
  | .val a => some a

/-- `params.get(name)`. -/
def Kw.toOpt {α : Type} : Kw α → Option α
  | .absent => Option.none
  | .none => Option.none
  | .val a => some a

/-- The keyword arguments of `generate_key` that are modelled. -/
structure GenArgs where
  seed : Kw Bytes := .absent
  length : Kw Nat := .absent
  curve : Kw String := .absent
  p : Kw Nat := .absent
  g : Kw Nat := .absent
  secret : Kw Nat := .absent
  byName : Bool := false
  deriving DecidableEq

/-- What is to be generated. -/
inductive Gen where
  | badRsa
  | rsa (length : Nat)
  | dsa (length : Nat)
  | ec (curve : String)
  | plain (name : String)
  | dhParams (g length : Nat)
  | dhGroup (p g : Nat)
  | dhKey (p g x y : Nat)
  | seed (name : String) (seed : Bytes) (curve : Option String)
  | factory (name : String) (args : GenArgs)
  deriving DecidableEq

/-- `algorithm.lower()`. -/
def lower (s : String) : String := s.toLower

/-- `keyutils.py` 158-188, `_generate_ec_key`; `known`: the names of `CURVE_NAMES_TO_INSTANCES`. -/
def genEc (known : List String) (name : String) (curve : Option String) : Except PyErr Gen :=
  if name ∈ ["ecdh", "ecdsa", "ecc", "ec"] then
    match curve with
    | none => .error .valueError
    | some c => if c ∈ known then .ok (.ec c) else .error .valueError
  else .ok (.plain name)

/-- `keyutils.py` 191-220, `_generate_dh_private_key`; a generator `None` fails in the library. -/
def genDh (p : Option Nat) (g : Option Nat) (secret : Option Nat) (length : Nat) : Except PyErr Gen :=
  match g with
  | none => .error .typeError
  | some g => match p, secret with
    | none, none => .ok (.dhParams g length)
    | none, some _ => .error .valueError
    | some p, none => .ok (.dhGroup p g)
    | some p, some x => .ok (.dhKey p g x (g ^ x % p))

/-- `keyutils.py` 324-352, of a name in small letters. -/
def genNamed (known : List String) (name : String) (a : GenArgs) : Except PyErr Gen :=
  if name = "bad_rsa_key" then .ok .badRsa
  else if name = "rsa" then
    match a.length.getOr 2048 with
    | none => .error .typeError
    | some n => .ok (.rsa n)
  else if name = "dsa" then
    match a.length.getOr 2048 with
    | none => .error .typeError
    | some n => .ok (.dsa n)
  else if name ∈ ["ed25519", "ed448", "x25519", "x448", "ecdh", "ecdsa", "ecc", "ec"] then
    genEc known name (a.curve.getOr "secp256r1")
  else if name = "dh" then
    match a.length.getOr 2048 with
    | none => .error .typeError
    | some n => genDh a.p.toOpt (a.g.getOr 2) a.secret.toOpt n
  else .ok (.factory name a)

/-- `keyutils.py` 228-354, `generate_key`. -/
def generateKey (known : List String) (alg : String) (a : GenArgs) : Except PyErr Gen :=
  match a.seed.toOpt with
  | some s => .ok (.seed (lower alg) s a.curve.toOpt)
  | none => genNamed known (lower alg) a

/-- What is known of the public key whose counterpart is sought (`keyutils.py` 871-882): its length or curve, its name. -/
structure Src where
  length : Option Nat := none
  curve : Option String := none
  name : String

/-- `None` or a value, as keyword argument. -/
def kwOf {α : Type} : Option α → Kw α
  | none => .none
  | some a => .val a

/-- `keyutils.py` 884-887: what is generated. -/
def otherReq (known : List String) (src : Src) (alg : Option String) : Except PyErr Gen :=
  match alg with
  | some n => generateKey known n { length := kwOf src.length, curve := kwOf src.curve }
  | none => generateKey known src.name { byName := true }

/-- `keyutils.py` 883-895: up to `n` attempts, of which the i-th draws `draw i`. -/
def tryDraw {R : Type} [DecidableEq R] (old : R) (draw : Nat → Except PyErr R) : Nat → Nat → Except PyErr R
  | 0, _ => .error .valueError
  | n + 1, i => match draw i with
    | .error e => .error e
    | .ok p => if p ≠ old then .ok p else tryDraw old draw n (i + 1)

/-- One attempt: what is asked for is generated; `make` is the library with its randomness. -/
def drawOf {R : Type} (known : List String) (src : Src) (alg : Option String) (make : Nat → Gen → Except PyErr R) (i : Nat) :
    Except PyErr R :=
  match otherReq known src alg with
  | .error e => .error e
  | .ok g => make i g

/-- `keyutils.py` 831-895, `generate_different_public_key`, of a public key. -/
def differentPub {R : Type} [DecidableEq R] (known : List String) (src : Src) (alg : Option String)
    (make : Nat → Gen → Except PyErr R) (old : R) : Except PyErr R :=
  tryDraw old (drawOf known src alg make) 100 0

/-! ## The structure with the options for negative tests -/

/-- A version: a number or a text. -/
inductive Version where
  | num (n : Int)
  | text (s : String)
  deriving DecidableEq

/-- `str.isdigit` and `int`. -/
def numberOf (s : String) : Option Nat :=
  if s.toList ≠ [] ∧ s.toList.all (fun c => '0' ≤ c ∧ c ≤ '9') = true then
    some (s.toList.foldl (fun n c => n * 10 + (c.toNat - 48)) 0)
  else none

/-- `keyutils.py` 905-914: the version that is asked for. Of `str.isdigit` only the ASCII digits are modelled. -/
def versionOf : Version → Except PyErr Int
  | .num n => .ok n
  | .text s =>
    match numberOf s with
    | some n => .ok n
    | none => if s = "v2" then .ok 1 else if s = "v1" then .ok 0 else .error .valueError

/-- `keyutils.py` 906, 911, 914: the version for the encoder. -/
def tmpVersion (v : Int) : Int := if v ≥ 1 then 1 else 0

/-- The arguments of `prepare_one_asymmetric_key`. `different` and `supportsInvalid` describe the key. -/
structure PrepArgs (P Q : Type) where
  pub : Option (Pub P Q) := none
  version : Version := .text "v2"
  invalidPrivSize : Bool := false
  invalidPubSize : Bool := false
  mismatch : Bool := false
  invalidPriv : Bool := false
  incl : Option Bool := none

/-- Surroundings: `generate_different_public_key` of the key, the two draws of `os.urandom(16)`, whether it is an ML key. -/
structure PrepEnv (K P O Q : Type) where
  different : Priv K O → Except PyErr (Pub P Q)
  rnd1 : Bytes
  rnd2 : Bytes
  ml : O → Bool

/-- `keyutils.py` 996: the keys for which an invalid key may be asked for. -/
def mayBeInvalid (L : Lib K P O Q) (E : PrepEnv K P O Q) : Priv K O → Bool
  | .trad k => L.kind k == .rsa || L.kind k == .ec
  | .pq o => E.ml o
  | _ => false

/-- `keyutils.py` 1003-1004. -/
def prepPub (E : PrepEnv K P O Q) (key : Priv K O) (a : PrepArgs P Q) : Except PyErr (Option (Pub P Q)) :=
  if a.mismatch then (E.different key).map some else .ok a.pub

/-- `keyutils.py` 1008-1010. -/
def prepIncl (v : Int) (incl : Option Bool) : Option Bool :=
  match incl with
  | none => if v = 0 then some false else none
  | some b => some b

/-- `keyutils.py` 1024-1039: the wrong sizes and the version that was asked for. -/
def spoil (E : PrepEnv K P O Q) (a : PrepArgs P Q) (v : Int) (s : OneAsym) : OneAsym :=
  { version := v
    alg := s.alg
    priv := if a.invalidPrivSize then s.priv ++ E.rnd1 else s.priv
    pub := if a.invalidPubSize then some (s.pub.getD [] ++ E.rnd2) else s.pub }

/-- `keyutils.py` 948-1039, `prepare_one_asymmetric_key`. -/
def prepareOne (L : Lib K P O Q) (E : PrepEnv K P O Q) (key : Priv K O) (a : PrepArgs P Q) : Except PyErr OneAsym :=
  if !mayBeInvalid L E key && a.invalidPriv then .error .valueError
  else match prepPub E key a with
    | .error e => .error e
    | .ok pub => match versionOf a.version with
      | .error e => .error e
      | .ok v => match saveAsym L key pub (some (tmpVersion v)) (prepIncl v a.incl) a.invalidPriv with
        | .error e => .error e
        | .ok s => .ok (spoil E a v s)

/-- `suiteenums.py` 283-292, `InvalidOneAsymKeyType`. -/
inductive Wrong where
  | privSize | pubSize | keyPair | keyPairCert | versionV1 | version
  deriving DecidableEq

/-- `ca_ra_utils.py` 636-669: the options of the operation. -/
def wrongArgs (L : Lib K P O Q) (key : Priv K O) (version : Version) : Option Wrong → PrepArgs P Q
  | none => { version }
  | some .versionV1 => { version := .text "v1", pub := some (L.pubOf key) }
  | some .pubSize => { version, invalidPubSize := true }
  | some .keyPair => { version, mismatch := true }
  | some .keyPairCert => { version }
  | some .privSize => { version, invalidPrivSize := true }
  | some .version => { version := .num 4 }

/-- `ca_ra_utils.py` 617-680, `prepare_invalid_kga_private_key`. -/
def kgaKey (L : Lib K P O Q) (E : PrepEnv K P O Q) (op : Option Wrong) (key : Priv K O) (version : Version := .text "v2") :
    Except PyErr OneAsym :=
  prepareOne L E key (wrongArgs L key version op)

end Verif.PQ.TradStore
