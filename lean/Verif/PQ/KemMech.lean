import Verif.PQ.Fips205

/-!
# Traditional KEM mechanisms (`pq_logic/kem_mechanism.py`, `pq_logic/keys/trad_kem_keys.py`)

The elliptic curve and hash operations of the package `cryptography` are the fields of `Lib`; RSA numbers are natural
numbers. Random choices (ephemeral keys, `random.randint`, `os.urandom`) are arguments.
-/

namespace Verif.PQ.Mech

open Verif.CA (Bytes PyErr)
open Verif.PQ.Slh (toByte fromBytes)

/-! ## Integers and bytes -/

/-- Python's `n.to_bytes(size, "big")`. -/
def toBytesBE (n size : Nat) : Except PyErr Bytes := if n < 256 ^ size then .ok (toByte n size) else .error .overflowError

/-- `kem_mechanism.py` 188-199, `_i2osp`. -/
def i2osp (num size : Nat) : Except PyErr Bytes :=
  match toBytesBE num size with
  | .error e => .error e
  | .ok data => if data.length > size then .error .valueError else .ok data

/-- Python's `n.bit_length()`. -/
def bitLength (n : Nat) : Nat := if n = 0 then 0 else n.log2 + 1

/-- `(n.bit_length() + 7) // 8` (`kem_mechanism.py` 351, 371). -/
def byteLen (n : Nat) : Nat := (bitLength n + 7) / 8

/-! ## KDF3 -/

/-- The loop of `_compute_kdf3` (`kem_mechanism.py` 60-65). A digest of 32 bytes needs at most `keyLength` rounds; more
than `fuel` rounds are not modelled (`none`). -/
def kdf3Loop (sha256 : Bytes → Bytes) (z : Bytes) (keyLength : Int) : Nat → Nat → Bytes → Option (Except PyErr Bytes)
  | 0, _, _ => none
  | fuel + 1, counter, km =>
    if (km.length : Int) < keyLength then
      match toBytesBE counter 4 with
      | .error e => some (.error e)
      | .ok c => kdf3Loop sha256 z keyLength fuel (counter + 1) (km ++ sha256 (c ++ z))
    else some (.ok (km.take keyLength.toNat))

/-- `kem_mechanism.py` 49-67, `_compute_kdf3`. The slice `[:key_length]` of a negative length only ever meets the empty
string. -/
def kdf3 (sha256 : Bytes → Bytes) (z : Bytes) (keyLength : Int) : Option (Except PyErr Bytes) :=
  kdf3Loop sha256 z keyLength (keyLength.toNat + 1) 1 []

/-! ## RSA-KEM -/

structure RsaPub where
  n : Nat
  e : Nat
  deriving DecidableEq

structure RsaPriv where
  n : Nat
  e : Nat
  d : Nat
  deriving DecidableEq

/-- `rsa.RSAPrivateKey.public_key()`. -/
def RsaPriv.pub (k : RsaPriv) : RsaPub := ⟨k.n, k.e⟩

/-- The end of `RSAKem.encaps`/`decaps` (356-359, 386-389). -/
def rsaSecret (sha256 : Bytes → Bytes) (length : Option Int) (z : Bytes) : Option (Except PyErr Bytes) :=
  match length with
  | none => some (.ok z)
  | some l => kdf3 sha256 z l

/-- `kem_mechanism.py` 342-359, `RSAKem.encaps`; `random` is `random.randint(2, n - 1)`. Returns (secret, ciphertext). -/
def rsaEncaps (sha256 : Bytes → Bytes) (length : Option Int) (pk : RsaPub) (rand : Option Nat) (random : Nat) :
    Option (Except PyErr (Bytes × Bytes)) :=
  let nLen := byteLen pk.n
  let ss := match rand with
    | some (r + 1) => r + 1
    | _ => random
  match i2osp (ss ^ pk.e % pk.n) nLen with
  | .error e => some (.error e)
  | .ok ct =>
    match i2osp ss nLen with
    | .error e => some (.error e)
    | .ok z => (rsaSecret sha256 length z).map (fun r => r.map (fun s => (s, ct)))

/-- `kem_mechanism.py` 361-389, `RSAKem.decaps`. -/
def rsaDecaps (sha256 : Bytes → Bytes) (length : Option Int) (sk : RsaPriv) (ct : Bytes) : Option (Except PyErr Bytes) :=
  let nLen := byteLen sk.n
  if ct.length ≠ nLen then some (.error .valueError)
  else
    let c := fromBytes ct
    if c ≥ sk.n then some (.error .valueError)
    else match i2osp (c ^ sk.d % sk.n) nLen with
    | .error e => some (.error e)
    | .ok z => rsaSecret sha256 length z

/-! ## Diffie-Hellman keys -/

/-- The kind of an `ECDHPrivateKey`/`ECDHPublicKey`; `ec` carries `key.curve.name`. -/
inductive Curve where
  | ec (name : String)
  | x25519
  | x448
  deriving DecidableEq

/-- The hash algorithms used by `DHKEMRFC9180`. -/
inductive Sha where
  | sha256 | sha384 | sha512
  deriving DecidableEq

/-- `HashAlgorithm.digest_size`. -/
def Sha.size : Sha → Nat
  | .sha256 => 32
  | .sha384 => 48
  | .sha512 => 64

/-- The operations of `cryptography`: public key of a private key, its curve, the key exchange, the encodings and the two
steps of HKDF (`HKDF(h, length, salt, info).derive(ikm)` is `expand h (extract h salt ikm) info length`). -/
structure Lib where
  Priv : Type
  Pub : Type
  pub : Priv → Pub
  privCurve : Priv → Curve
  pubCurve : Pub → Curve
  exchange : Priv → Pub → Except PyErr Bytes
  encode : Pub → Bytes
  decode : Curve → Bytes → Except PyErr Pub
  extract : Sha → Bytes → Bytes → Bytes
  expand : Sha → Bytes → Bytes → Nat → Bytes

/-- Are the keys of the same class (`ec`, `x25519`, `x448`)? -/
def sameKind : Curve → Curve → Bool
  | .ec _, .ec _ => true
  | .x25519, .x25519 => true
  | .x448, .x448 => true
  | _, _ => false

/-- `kem_mechanism.py` 23-46, `_perform_ecdh`. -/
def performEcdh (L : Lib) (sk : L.Priv) (pk : L.Pub) : Except PyErr Bytes :=
  if sameKind (L.privCurve sk) (L.pubCurve pk) then L.exchange sk pk else .error .valueError

/-- `ECDHKEM.encaps` (110-121); `gen` is the key made by `generate_matching_private_key`. -/
def ecdhEncaps (L : Lib) (priv : Option L.Priv) (gen : L.Priv) (pk : L.Pub) : Except PyErr (Bytes × Bytes) :=
  let sk := priv.getD gen
  match performEcdh L sk pk with
  | .error e => .error e
  | .ok ss => .ok (ss, L.encode (L.pub sk))

/-- `ECDHKEM.decaps` with `_exchange_from_bytes` (123-151) for a key that is set. -/
def ecdhDecaps (L : Lib) (sk : L.Priv) (ct : Bytes) : Except PyErr Bytes :=
  match L.decode (L.privCurve sk) ct with
  | .error e => .error e
  | .ok pk => performEcdh L sk pk

/-- `KEY_TYPE_TO_ID` (154-163). -/
def keyTypeToId : List (String × Nat) :=
  [("secp256r1", 0x0010), ("brainpoolp256r1", 0x0010), ("secp384r1", 0x0011), ("brainpoolp384r1", 0x0011),
   ("secp521r1", 0x0012), ("brainpoolp512r1", 0x0012), ("x25519", 0x0020), ("x448", 0x0021)]

/-- `ID_TO_SHA` (165-171). -/
def idToSha : List (Nat × Sha) :=
  [(0x0010, .sha256), (0x0020, .sha256), (0x0011, .sha384), (0x0012, .sha512), (0x0021, .sha512)]

/-- Dictionary access `d[k]`. -/
def look {α β : Type} [BEq α] (k : α) (d : List (α × β)) : Except PyErr β :=
  match d.lookup k with
  | some v => .ok v
  | none => .error .keyError

/-- `_get_key_id` (174-185). -/
def getKeyId : Curve → Except PyErr Nat
  | .ec name => look name.toLower keyTypeToId
  | .x448 => look "x448" keyTypeToId
  | .x25519 => look "x25519" keyTypeToId

/-- The ASCII bytes of a string literal `b"…"`. -/
def ascii (s : String) : Bytes := s.toList.map (fun c => UInt8.ofNat c.toNat)

/-- `DHKEMRFC9180._extract_and_expand` (234-253) for `self.hash_algorithm = h`. -/
def extractAndExpand (L : Lib) (h : Sha) (dh kemContext : Bytes) (cipherId : Nat) : Except PyErr Bytes :=
  match i2osp cipherId 2 with
  | .error e => .error e
  | .ok idb =>
    let suiteId := ascii "KEM" ++ idb
    let labeledIkm := ascii "HPKE-v1" ++ suiteId ++ ascii "eae_prk" ++ dh
    match i2osp h.size 2 with
    | .error e => .error e
    | .ok lb =>
      let labeledInfo := lb ++ ascii "HPKE-v1" ++ suiteId ++ ascii "shared_secret" ++ kemContext
      .ok (L.expand h (L.extract h [] labeledIkm) labeledInfo h.size)

/-- `DHKEMRFC9180._perform_exchange` (274-287); for x25519/x448 a key of another class makes `exchange` raise `TypeError`. -/
def performExchange (L : Lib) (sk : L.Priv) (pk : L.Pub) : Except PyErr Bytes :=
  if sameKind (L.privCurve sk) (L.pubCurve pk) then L.exchange sk pk else .error .typeError

/-- `DHKEMRFC9180.encaps` (255-272). -/
def dhkemEncaps (L : Lib) (priv : Option L.Priv) (gen : L.Priv) (pk : L.Pub) : Except PyErr (Bytes × Bytes) :=
  let sk := priv.getD gen
  match performExchange L sk pk with
  | .error e => .error e
  | .ok dh =>
    let enc := L.encode (L.pub sk)
    match getKeyId (L.privCurve sk) with
    | .error e => .error e
    | .ok id =>
      match look id idToSha with
      | .error e => .error e
      | .ok h =>
        match extractAndExpand L h dh (enc ++ L.encode pk) id with
        | .error e => .error e
        | .ok ss => .ok (ss, enc)

/-- `DHKEMRFC9180.decaps` with `_exchange_from_bytes` (289-320) for a key that is set. -/
def dhkemDecaps (L : Lib) (sk : L.Priv) (enc : Bytes) : Except PyErr Bytes :=
  match L.decode (L.privCurve sk) enc with
  | .error e => .error e
  | .ok pk =>
    match performExchange L sk pk with
    | .error e => .error e
    | .ok dh =>
      match getKeyId (L.privCurve sk) with
      | .error e => .error e
      | .ok id =>
        match look id idToSha with
        | .error e => .error e
        | .ok h => extractAndExpand L h dh (enc ++ L.encode (L.pub sk)) id

/-! ## The key classes of `trad_kem_keys.py` -/

/-- `DHKEMPublicKey.encaps` (`trad_kem_keys.py` 295-305). -/
def dhEncaps (L : Lib) (useRfc9180 : Bool) (priv : Option L.Priv) (gen : L.Priv) (pk : L.Pub) : Except PyErr (Bytes × Bytes) :=
  if useRfc9180 then dhkemEncaps L priv gen pk else ecdhEncaps L priv gen pk

/-- `DHKEMPrivateKey.decaps` (485-496). -/
def dhDecaps (L : Lib) (useRfc9180 : Bool) (sk : L.Priv) (ct : Bytes) : Except PyErr Bytes :=
  if useRfc9180 then dhkemDecaps L sk ct else ecdhDecaps L sk ct

/-- `curve.key_size` of the named curves (bits; `cryptography`), 0 for a name without an entry. -/
def curveBits : String → Nat
  | "secp224r1" => 224
  | "secp256r1" => 256
  | "secp384r1" => 384
  | "secp521r1" => 521
  | "brainpoolP256r1" => 256
  | "brainpoolP384r1" => 384
  | "brainpoolP512r1" => 512
  | _ => 0

/-- `DHKEMPublicKey.key_size` and `ct_length` (312-328). -/
def dhCtLength : Curve → Nat
  | .x25519 => 32
  | .x448 => 56
  | .ec name => curveBits name / 8 + 1

/-- `DHKEMPublicKey.get_trad_name` (330-339). -/
def dhTradName : Curve → String
  | .ec name => "ecdh-" ++ name
  | .x25519 => "x25519"
  | .x448 => "x448"

/-- `RSAEncapKey.get_trad_name` (106-109) and `RSADecapKey.get_trad_name` (222-225); `key_size` is the bit length. -/
def rsaTradName (n : Nat) : String := "rsa" ++ toString (bitLength n)

end Verif.PQ.Mech
