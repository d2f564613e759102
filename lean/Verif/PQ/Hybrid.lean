import Verif.PQ.KemKeys
import Verif.PQ.KemMech

/-!
# Hybrid KEMs: Composite KEM, X-Wing and Chempat

`pq_logic/keys/composite_kem.py`, `pq_logic/keys/xwing.py`, `pq_logic/keys/chempat_key.py` and the tables of
`pq_logic/tmp_oids.py`. A post-quantum KEM is a `PqKem`, the traditional keys are those of `KemMech.lean`, RSA-OAEP, HMAC
and SHA3-256 are fields of `Env`. Random values are arguments.
-/

namespace Verif.PQ.Hyb

open Verif.CA (Bytes PyErr)
open Verif.PQ.Dsa (Out)
open Verif.PQ.Mech

/-- Sequencing of outcomes: an exception, or a call that does not return, is the outcome of the whole. -/
def bind {α β : Type} : Out α → (α → Out β) → Out β
  | .value a, f => f a
  | .pyNone, _ => .pyNone
  | .raised e, _ => .raised e
  | .running, _ => .running

/-- An `Except` as an outcome. -/
def lift {α : Type} : Except PyErr α → Out α
  | .ok a => .value a
  | .error e => .raised e

/-! ## Object identifiers -/

/-- The base-128 digits of an arc, least significant first; all but the first have the high bit set. -/
def base128 : Nat → Nat → Bytes
  | 0, _ => []
  | fuel + 1, n => if n < 128 then [UInt8.ofNat n] else
      base128 fuel (n / 128) |>.map (fun b => b ||| 0x80) |> (· ++ [UInt8.ofNat (n % 128)])

/-- `pyasn1`'s `encoder.encode` of an `ObjectIdentifier` whose contents are shorter than 128 bytes. -/
def derOid : List Nat → Bytes
  | a :: b :: rest =>
    let body := base128 5 (40 * a + b) ++ rest.flatMap (base128 5)
    0x06 :: UInt8.ofNat body.length :: body
  | _ => []

/-- `tmp_oids.py` 233-248, `COMPOSITE_KEM_MLKEM_NAME_2_OID`. -/
def mlkemNameToOid : List (String × List Nat) :=
  [("composite-kem-ml-kem-768-rsa2048", [2, 16, 840, 1, 114027, 80, 5, 2, 50]),
   ("composite-kem-ml-kem-768-rsa3072", [2, 16, 840, 1, 114027, 80, 5, 2, 51]),
   ("composite-kem-ml-kem-768-rsa4096", [2, 16, 840, 1, 114027, 80, 5, 2, 52]),
   ("composite-kem-ml-kem-768-x25519", [2, 16, 840, 1, 114027, 80, 5, 2, 53]),
   ("composite-kem-ml-kem-768-ecdh-secp256r1", [2, 16, 840, 1, 114027, 80, 5, 2, 54]),
   ("composite-kem-ml-kem-768-ecdh-secp384r1", [2, 16, 840, 1, 114027, 80, 5, 2, 55]),
   ("composite-kem-ml-kem-768-ecdh-brainpoolP256r1", [2, 16, 840, 1, 114027, 80, 5, 2, 56]),
   ("composite-kem-ml-kem-1024-rsa3072", [2, 16, 840, 1, 114027, 80, 5, 2, 61]),
   ("composite-kem-ml-kem-1024-ecdh-secp384r1", [2, 16, 840, 1, 114027, 80, 5, 2, 57]),
   ("composite-kem-ml-kem-1024-ecdh-brainpoolP384r1", [2, 16, 840, 1, 114027, 80, 5, 2, 58]),
   ("composite-kem-ml-kem-1024-x448", [2, 16, 840, 1, 114027, 80, 5, 2, 59]),
   ("composite-kem-ml-kem-1024-ecdh-secp521r1", [2, 16, 840, 1, 114027, 80, 5, 2, 60])]

/-- `tmp_oids.py` 282-306, `COMPOSITE_FRODOKEM_NAME_2_OID`. -/
def frodoNameToOid : List (String × List Nat) :=
  [("composite-kem-frodokem-976-aes-rsa2048", [1, 3, 6, 1, 5, 5, 7, 4, 9996, 9999, 3, 1, 1, 1]),
   ("composite-kem-frodokem-976-aes-rsa3072", [1, 3, 6, 1, 5, 5, 7, 4, 9996, 9999, 3, 1, 1, 2]),
   ("composite-kem-frodokem-976-aes-rsa4096", [1, 3, 6, 1, 5, 5, 7, 4, 9996, 9999, 3, 1, 1, 3]),
   ("composite-kem-frodokem-976-aes-x25519", [1, 3, 6, 1, 5, 5, 7, 4, 9996, 9999, 3, 1, 1, 4]),
   ("composite-kem-frodokem-976-aes-ecdh-secp384r1", [1, 3, 6, 1, 5, 5, 7, 4, 9996, 9999, 3, 1, 1, 5]),
   ("composite-kem-frodokem-976-aes-ecdh-brainpoolP256r1", [1, 3, 6, 1, 5, 5, 7, 4, 9996, 9999, 3, 1, 1, 6]),
   ("composite-kem-frodokem-976-shake-rsa2048", [1, 3, 6, 1, 5, 5, 7, 4, 9996, 9999, 3, 1, 1, 7]),
   ("composite-kem-frodokem-976-shake-rsa3072", [1, 3, 6, 1, 5, 5, 7, 4, 9996, 9999, 3, 1, 1, 8]),
   ("composite-kem-frodokem-976-shake-rsa4096", [1, 3, 6, 1, 5, 5, 7, 4, 9996, 9999, 3, 1, 1, 9]),
   ("composite-kem-frodokem-976-shake-x25519", [1, 3, 6, 1, 5, 5, 7, 4, 9996, 9999, 3, 1, 1, 10]),
   ("composite-kem-frodokem-976-shake-ecdh-secp384r1", [1, 3, 6, 1, 5, 5, 7, 4, 9996, 9999, 3, 1, 1, 11]),
   ("composite-kem-frodokem-976-shake-ecdh-brainpoolP256r1", [1, 3, 6, 1, 5, 5, 7, 4, 9996, 9999, 3, 1, 1, 12]),
   ("composite-kem-frodokem-1344-aes-ecdh-secp384r1", [1, 3, 6, 1, 5, 5, 7, 4, 9996, 9999, 3, 1, 1, 13]),
   ("composite-kem-frodokem-1344-aes-ecdh-brainpoolP384r1", [1, 3, 6, 1, 5, 5, 7, 4, 9996, 9999, 3, 1, 1, 14]),
   ("composite-kem-frodokem-1344-aes-x448", [1, 3, 6, 1, 5, 5, 7, 4, 9996, 9999, 3, 1, 1, 15]),
   ("composite-kem-frodokem-1344-shake-ecdh-secp384r1", [1, 3, 6, 1, 5, 5, 7, 4, 9996, 9999, 3, 1, 1, 16]),
   ("composite-kem-frodokem-1344-shake-ecdh-brainpoolP384r1", [1, 3, 6, 1, 5, 5, 7, 4, 9996, 9999, 3, 1, 1, 17]),
   ("composite-kem-frodokem-1344-shake-x448", [1, 3, 6, 1, 5, 5, 7, 4, 9996, 9999, 3, 1, 1, 18])]

/-- `tmp_oids.py` 341-363, `COMPOSITE_KEM_DHKEMRFC9180_NAME_2_OID`. -/
def dhkemNameToOid : List (String × List Nat) :=
  [("composite-dhkem-ml-kem-768-x25519", [1, 3, 6, 1, 5, 5, 7, 4, 9996, 9999, 3, 1, 2, 1]),
   ("composite-dhkem-ml-kem-768-ecdh-secp384r1", [1, 3, 6, 1, 5, 5, 7, 4, 9996, 9999, 3, 1, 2, 2]),
   ("composite-dhkem-ml-kem-768-ecdh-brainpoolP256r1", [1, 3, 6, 1, 5, 5, 7, 4, 9996, 9999, 3, 1, 2, 3]),
   ("composite-dhkem-ml-kem-1024-ecdh-secp384r1", [1, 3, 6, 1, 5, 5, 7, 4, 9996, 9999, 3, 1, 2, 4]),
   ("composite-dhkem-ml-kem-1024-ecdh-brainpoolP384r1", [1, 3, 6, 1, 5, 5, 7, 4, 9996, 9999, 3, 1, 2, 5]),
   ("composite-dhkem-ml-kem-1024-x448", [1, 3, 6, 1, 5, 5, 7, 4, 9996, 9999, 3, 1, 2, 6]),
   ("composite-dhkem-frodokem-976-aes-x25519", [1, 3, 6, 1, 5, 5, 7, 4, 9996, 9999, 3, 1, 3, 1]),
   ("composite-dhkem-frodokem-976-aes-ecdh-secp384r1", [1, 3, 6, 1, 5, 5, 7, 4, 9996, 9999, 3, 1, 3, 2]),
   ("composite-dhkem-frodokem-976-aes-ecdh-brainpoolP256r1", [1, 3, 6, 1, 5, 5, 7, 4, 9996, 9999, 3, 1, 3, 3]),
   ("composite-dhkem-frodokem-976-shake-x25519", [1, 3, 6, 1, 5, 5, 7, 4, 9996, 9999, 3, 1, 3, 4]),
   ("composite-dhkem-frodokem-976-shake-ecdh-secp384r1", [1, 3, 6, 1, 5, 5, 7, 4, 9996, 9999, 3, 1, 3, 5]),
   ("composite-dhkem-frodokem-976-shake-ecdh-brainpoolP256r1", [1, 3, 6, 1, 5, 5, 7, 4, 9996, 9999, 3, 1, 3, 6]),
   ("composite-dhkem-frodokem-1344-aes-ecdh-secp384r1", [1, 3, 6, 1, 5, 5, 7, 4, 9996, 9999, 3, 1, 3, 7]),
   ("composite-dhkem-frodokem-1344-aes-ecdh-brainpoolP384r1", [1, 3, 6, 1, 5, 5, 7, 4, 9996, 9999, 3, 1, 3, 8]),
   ("composite-dhkem-frodokem-1344-aes-x448", [1, 3, 6, 1, 5, 5, 7, 4, 9996, 9999, 3, 1, 3, 9]),
   ("composite-dhkem-frodokem-1344-shake-ecdh-secp384r1", [1, 3, 6, 1, 5, 5, 7, 4, 9996, 9999, 3, 1, 3, 10]),
   ("composite-dhkem-frodokem-1344-shake-ecdh-brainpoolP384r1", [1, 3, 6, 1, 5, 5, 7, 4, 9996, 9999, 3, 1, 3, 11]),
   ("composite-dhkem-frodokem-1344-shake-x448", [1, 3, 6, 1, 5, 5, 7, 4, 9996, 9999, 3, 1, 3, 12])]

/-- `tmp_oids.py` 463-466, `COMPOSITE_KEM_NAME_2_OID` (the keys of the three tables are different). -/
def kemNameToOid : List (String × List Nat) := mlkemNameToOid ++ frodoNameToOid ++ dhkemNameToOid

/-- `tmp_oids.py` 402-433, `CHEMPAT_NAME_2_OID`. -/
def chempatNameToOid : List (String × List Nat) :=
  [("chempat-sntrup761-x25519", [1, 3, 6, 1, 5, 5, 7, 4, 9996, 9999, 3, 2, 1]),
   ("chempat-mceliece-348864-x25519", [1, 3, 6, 1, 5, 5, 7, 4, 9996, 9999, 3, 2, 2]),
   ("chempat-mceliece-460896-x25519", [1, 3, 6, 1, 5, 5, 7, 4, 9996, 9999, 3, 2, 3]),
   ("chempat-mceliece-6688128-x25519", [1, 3, 6, 1, 5, 5, 7, 4, 9996, 9999, 3, 2, 4]),
   ("chempat-mceliece-6960119-x25519", [1, 3, 6, 1, 5, 5, 7, 4, 9996, 9999, 3, 2, 5]),
   ("chempat-mceliece-8192128-x25519", [1, 3, 6, 1, 5, 5, 7, 4, 9996, 9999, 3, 2, 6]),
   ("chempat-mceliece-348864-x448", [1, 3, 6, 1, 5, 5, 7, 4, 9996, 9999, 3, 2, 7]),
   ("chempat-mceliece-460896-x448", [1, 3, 6, 1, 5, 5, 7, 4, 9996, 9999, 3, 2, 8]),
   ("chempat-mceliece-6688128-x448", [1, 3, 6, 1, 5, 5, 7, 4, 9996, 9999, 3, 2, 9]),
   ("chempat-mceliece-6960119-x448", [1, 3, 6, 1, 5, 5, 7, 4, 9996, 9999, 3, 2, 10]),
   ("chempat-mceliece-8192128-x448", [1, 3, 6, 1, 5, 5, 7, 4, 9996, 9999, 3, 2, 11]),
   ("chempat-ml-kem-768-x25519", [1, 3, 6, 1, 5, 5, 7, 4, 9996, 9999, 3, 2, 12]),
   ("chempat-ml-kem-1024-x448", [1, 3, 6, 1, 5, 5, 7, 4, 9996, 9999, 3, 2, 13]),
   ("chempat-ml-kem-768-ecdh-secp256r1", [1, 3, 6, 1, 5, 5, 7, 4, 9996, 9999, 3, 2, 14]),
   ("chempat-ml-kem-1024-ecdh-secp384r1", [1, 3, 6, 1, 5, 5, 7, 4, 9996, 9999, 3, 2, 15]),
   ("chempat-ml-kem-768-ecdh-brainpoolP256r1", [1, 3, 6, 1, 5, 5, 7, 4, 9996, 9999, 3, 2, 16]),
   ("chempat-ml-kem-1024-ecdh-brainpoolP384r1", [1, 3, 6, 1, 5, 5, 7, 4, 9996, 9999, 3, 2, 17]),
   ("chempat-frodokem-976-aes-x25519", [1, 3, 6, 1, 5, 5, 7, 4, 9996, 9999, 3, 2, 18]),
   ("chempat-frodokem-976-shake-x25519", [1, 3, 6, 1, 5, 5, 7, 4, 9996, 9999, 3, 2, 19]),
   ("chempat-frodokem-640-aes-ecdh-brainpoolP256r1", [1, 3, 6, 1, 5, 5, 7, 4, 9996, 9999, 3, 2, 20]),
   ("chempat-frodokem-640-shake-ecdh-brainpoolP256r1", [1, 3, 6, 1, 5, 5, 7, 4, 9996, 9999, 3, 2, 21]),
   ("chempat-frodokem-976-aes-ecdh-brainpoolP384r1", [1, 3, 6, 1, 5, 5, 7, 4, 9996, 9999, 3, 2, 22]),
   ("chempat-frodokem-976-shake-ecdh-brainpoolP384r1", [1, 3, 6, 1, 5, 5, 7, 4, 9996, 9999, 3, 2, 23]),
   ("chempat-frodokem-1344-aes-ecdh-brainpoolP512r1", [1, 3, 6, 1, 5, 5, 7, 4, 9996, 9999, 3, 2, 24]),
   ("chempat-frodokem-1344-shake-ecdh-brainpoolP512r1", [1, 3, 6, 1, 5, 5, 7, 4, 9996, 9999, 3, 2, 25]),
   ("chempat-frodokem-1344-aes-x448", [1, 3, 6, 1, 5, 5, 7, 4, 9996, 9999, 3, 2, 26]),
   ("chempat-frodokem-1344-shake-x448", [1, 3, 6, 1, 5, 5, 7, 4, 9996, 9999, 3, 2, 27])]

/-! ## The components -/

/-- The classes of post-quantum KEM keys that `get_context` tells apart. -/
inductive Family where
  | sntrup | mceliece | mlkem | frodo | other
  deriving DecidableEq

/-- A post-quantum KEM: its keys, `name`, `ct_length`, `public_bytes_raw`, `encaps` (given its random bytes) and `decaps`. -/
structure PqKem where
  Priv : Type
  Pub : Type
  pub : Priv → Pub
  name : Pub → String
  family : Pub → Family
  ctLength : Priv → Nat
  raw : Pub → Bytes
  encaps : Pub → Bytes → Out (Bytes × Bytes)
  decaps : Priv → Bytes → Out Bytes

/-- The operations of `cryptography` used by the hybrid classes. -/
structure Env where
  L : Lib
  /-- The `RSAPublicKey` encoding of PKCS#1. -/
  pkcs1 : RsaPub → Bytes
  /-- RSA-OAEP with SHA-256: random bytes and message. -/
  oaepEncrypt : RsaPub → Bytes → Bytes → Except PyErr Bytes
  oaepDecrypt : RsaPriv → Bytes → Except PyErr Bytes
  sha3 : Bytes → Bytes
  hmac : Sha → Bytes → Bytes → Bytes

/-- The `TradKEMPublicKey` classes: `DHKEMPublicKey` (with `use_rfc9180`) and `RSAEncapKey`. -/
inductive TradPub (L : Lib) where
  | dh (rfc : Bool) (k : L.Pub)
  | rsa (k : RsaPub)

/-- `DHKEMPrivateKey` and `RSADecapKey`. -/
inductive TradPriv (L : Lib) where
  | dh (rfc : Bool) (k : L.Priv)
  | rsa (k : RsaPriv)

/-- What the constructors accept: a `TradKEMPublicKey`, an `ECDHPublicKey` or an `RSAPublicKey`. -/
inductive ArgPub (L : Lib) where
  | kem (k : TradPub L)
  | ecdh (k : L.Pub)
  | rsa (k : RsaPub)

inductive ArgPriv (L : Lib) where
  | kem (k : TradPriv L)
  | ecdh (k : L.Priv)
  | rsa (k : RsaPriv)

/-- `get_trad_name` (`trad_kem_keys.py` 106-109, 330-339). -/
def tradName {L : Lib} : TradPub L → String
  | .dh _ k => dhTradName (L.pubCurve k)
  | .rsa k => rsaTradName k.n

/-- `encode` (`trad_kem_keys.py` 116-118, 371-376). -/
def tradEncode (E : Env) : TradPub E.L → Bytes
  | .dh _ k => E.L.encode k
  | .rsa k => E.pkcs1 k

/-- `public_key` (`trad_kem_keys.py` 197-202, 478-483). -/
def tradPub {L : Lib} : TradPriv L → TradPub L
  | .dh rfc k => .dh rfc (L.pub k)
  | .rsa k => .rsa k.pub

/-- The random choices of one encapsulation: for the post-quantum KEM, the generated ephemeral key, and for RSA-OAEP the
secret (`os.urandom(32)`) and the padding. -/
structure Rand (L : Lib) where
  pq : Bytes
  gen : L.Priv
  secret : Bytes
  pad : Bytes

/-- `composite_kem.py` 151-164, `_trad_encaps`, with `trad_kem_keys.py` 74-91 and 295-305 and `RSAOaepKem.encaps`
(`kem_mechanism.py` 403-413). -/
def tradEncaps (E : Env) (k : TradPub E.L) (priv : Option E.L.Priv) (r : Rand E.L) : Except PyErr (Bytes × Bytes) :=
  match k with
  | .dh rfc pk => dhEncaps E.L rfc priv r.gen pk
  | .rsa pk =>
    match E.oaepEncrypt pk r.pad r.secret with
    | .error e => .error e
    | .ok ct => .ok (r.secret, ct)

/-- `decaps` (`trad_kem_keys.py` 204-220, 485-496; `kem_mechanism.py` 415-425). -/
def tradDecaps (E : Env) (k : TradPriv E.L) (ct : Bytes) : Except PyErr Bytes :=
  match k with
  | .dh rfc sk => dhDecaps E.L rfc sk ct
  | .rsa sk => E.oaepDecrypt sk ct

/-! ## Composite KEM -/

/-- The two pairs of classes: `_name` is "composite-kem" or "composite-dhkem". -/
inductive Kind where
  | kem | dhkem
  deriving DecidableEq

def Kind.text : Kind → String
  | .kem => "composite-kem"
  | .dhkem => "composite-dhkem"

/-- The names returned by `_get_kdf_algorithm`: "sha3_256", "hmac-sha256", "hmac-sha512". -/
inductive Kdf where
  | sha3_256 | hmacSha256 | hmacSha512
  deriving DecidableEq

/-- `composite_kem.py` 37-46, `_get_kdf_algorithm`. -/
def getKdf (pqName trad : String) : Kdf :=
  if (pqName = "ml-kem-768" ∨ pqName = "frodokem-976-aes" ∨ pqName = "frodokem-976-shake") ∧ trad = "x25519" then .sha3_256
  else if pqName = "ml-kem-768" ∨ pqName = "frodokem-976-aes" ∨ pqName = "frodokem-976-shake" then .hmacSha256
  else if trad = "x448" then .sha3_256
  else .hmacSha512

/-- A `CompositeKEMPublicKey` or `CompositeDHKEMRFC9180PublicKey`. -/
structure CompPub (K : PqKem) (L : Lib) where
  kind : Kind
  pq : K.Pub
  trad : TradPub L

structure CompPriv (K : PqKem) (L : Lib) where
  kind : Kind
  pq : K.Priv
  trad : TradPriv L

/-- `composite_kem.py` 56-67 and 300-303, the constructors of the public classes. An RSA key in the DHKEM class
makes a `DHKEMPublicKey` around an RSA key whose every use raises ValueError; it is not modelled as a key. -/
def newPub {K : PqKem} {L : Lib} (kind : Kind) (pq : K.Pub) (a : ArgPub L) : Option (CompPub K L) :=
  match kind, a with
  | .kem, .kem k => some ⟨.kem, pq, k⟩
  | .kem, .ecdh k => some ⟨.kem, pq, .dh false k⟩
  | .kem, .rsa k => some ⟨.kem, pq, .rsa k⟩
  | .dhkem, .kem (.dh _ k) => some ⟨.dhkem, pq, .dh true k⟩
  | .dhkem, .ecdh k => some ⟨.dhkem, pq, .dh true k⟩
  | .dhkem, _ => none

/-- `composite_kem.py` 194-205 and 317-320, the constructors of the private classes. -/
def newPriv {K : PqKem} {L : Lib} (kind : Kind) (pq : K.Priv) (a : ArgPriv L) : Option (CompPriv K L) :=
  match kind, a with
  | .kem, .kem k => some ⟨.kem, pq, k⟩
  | .kem, .ecdh k => some ⟨.kem, pq, .dh false k⟩
  | .kem, .rsa k => some ⟨.kem, pq, .rsa k⟩
  | .dhkem, .kem (.dh _ k) => some ⟨.dhkem, pq, .dh true k⟩
  | .dhkem, .ecdh k => some ⟨.dhkem, pq, .dh true k⟩
  | .dhkem, _ => none

/-- `composite_kem.py` 84-87 and 217-220, `name`. -/
def compName (kind : Kind) (pqName trad : String) : String := kind.text ++ "-" ++ pqName ++ "-" ++ trad

/-- The lookup of `get_oid` (89-93, 253-255). -/
def nameOid (name : String) : Except PyErr (List Nat) :=
  match kemNameToOid.lookup name with
  | none => .error .invalidKeyCombination
  | some oid => .ok oid

/-- `composite_kem.py` 89-93, `CompositeKEMPublicKey.get_oid`. -/
def pubOid {K : PqKem} {L : Lib} (k : CompPub K L) : Except PyErr (List Nat) :=
  nameOid (compName k.kind (K.name k.pq) (tradName k.trad))

/-- `abstract_wrapper_keys.py` 893-897, `_get_rsa_size`: the first closest of 2048, 3072, 4096. -/
def rsaSize (value : Nat) : Nat :=
  let d := fun x : Nat => if x ≤ value then value - x else x - value
  if d 2048 ≤ d 3072 ∧ d 2048 ≤ d 4096 then 2048 else if d 3072 ≤ d 4096 then 3072 else 4096

/-- `composite_kem.py` 246-255, `CompositeKEMPrivateKey.get_oid`. -/
def privOid {K : PqKem} {L : Lib} (k : CompPriv K L) : Except PyErr (List Nat) :=
  match k.trad with
  | .rsa sk => nameOid (compName k.kind (K.name (K.pub k.pq)) ("rsa" ++ toString (rsaSize (bitLength sk.n))))
  | t => nameOid (compName k.kind (K.name (K.pub k.pq)) (tradName (tradPub t)))

/-- `composite_kem.py` 257-259 and 326-328, `public_key` (the constructor is applied to a `TradKEMPublicKey`; for
`kem` it is kept, for `dhkem` wrapped again with `use_rfc9180=True`). -/
def compPublic {K : PqKem} {L : Lib} (k : CompPriv K L) : CompPub K L :=
  match k.kind, tradPub k.trad with
  | .dhkem, .dh _ p => ⟨.dhkem, K.pub k.pq, .dh true p⟩
  | kind, p => ⟨kind, K.pub k.pq, p⟩

/-- The hash of `kem_combiner` (`composite_kem.py` 116-149). None of the names of `_get_kdf_algorithm` starts with
"hkdf-": with `use_in_cms` the first branch does nothing and control reaches SHA3-256. -/
def applyKdf (E : Env) (kdf : Kdf) (cms : Bool) (inputs : Bytes) : Bytes :=
  if cms then E.sha3 inputs
  else match kdf with
  | .hmacSha256 => (E.hmac .sha256 (List.replicate 32 0) inputs).take 32
  | .hmacSha512 => (E.hmac .sha512 (List.replicate 64 0) inputs).take 32
  | .sha3_256 => E.sha3 inputs

/-- `composite_kem.py` 95-149, `kem_combiner`. -/
def combiner {K : PqKem} (E : Env) (k : CompPub K E.L) (mlkemSs tradSs tradCt tradPk : Bytes) (cms : Bool) : Except PyErr Bytes :=
  match pubOid k with
  | .error e => .error e
  | .ok oid => .ok (applyKdf E (getKdf (K.name k.pq) (tradName k.trad)) cms (mlkemSs ++ tradSs ++ tradCt ++ tradPk ++ derOid oid))

/-- `composite_kem.py` 166-176, `encaps`: the secret and the ciphertext. -/
def compEncaps {K : PqKem} (E : Env) (k : CompPub K E.L) (priv : Option E.L.Priv) (cms : Bool) (r : Rand E.L) : Out (Bytes × Bytes) :=
  bind (K.encaps k.pq r.pq) fun (mlkemSs, mlkemCt) =>
  bind (lift (tradEncaps E k.trad priv r)) fun (tradSs, tradCt) =>
  bind (lift (combiner E k mlkemSs tradSs tradCt (tradEncode E k.trad) cms)) fun ss =>
  .value (ss, mlkemCt ++ tradCt)

/-- `composite_kem.py` 279-291, `decaps`. -/
def compDecaps {K : PqKem} (E : Env) (k : CompPriv K E.L) (ct : Bytes) (cms : Bool) : Out Bytes :=
  let mlkemCt := ct.take (K.ctLength k.pq)
  let tradCt := ct.drop (K.ctLength k.pq)
  bind (K.decaps k.pq mlkemCt) fun mlkemSs =>
  bind (lift (tradDecaps E k.trad tradCt)) fun tradSs =>
  lift (combiner E (compPublic k) mlkemSs tradSs tradCt (tradEncode E (tradPub k.trad)) cms)

/-! ## X-Wing -/

/-- X25519 and the hashes used by X-Wing: keys are their raw 32 bytes. -/
structure XEnv where
  kem : Kem.Env
  /-- `private_key.public_key().public_bytes_raw()`. -/
  pub : Bytes → Bytes
  /-- `private_key.exchange(public_key)`. -/
  exchange : Bytes → Bytes → Except PyErr Bytes
  sha3 : Bytes → Bytes
  /-- SHAKE256 with an output of 96 bytes. -/
  shake96 : Bytes → Bytes

/-- The fields of an `XWingPrivateKey`. -/
structure XPriv where
  ml : Keys.MlPriv
  x : Bytes
  seed : Option Bytes
  deriving DecidableEq

/-- An `XWingPublicKey`. -/
structure XPub where
  ml : Bytes
  x : Bytes
  deriving DecidableEq

/-- `xwing.py` 26-29, `_XWING_LABEL`. -/
def xLabel : Bytes := [0x5c, 0x2e, 0x2f, 0x2f, 0x5e, 0x5c]

/-- `X25519PrivateKey.from_private_bytes` and `X25519PublicKey.from_public_bytes`. -/
def xLoad (data : Bytes) : Except PyErr Bytes := if data.length = 32 then .ok data else .error .valueError

/-- `xwing.py` 57-71, `XWingPublicKey.from_public_bytes`. -/
def xFromPublicBytes (data : Bytes) : Except PyErr XPub :=
  if data.length ≠ 1216 then .error .invalidKeyData
  else match xLoad (data.drop 1184) with
  | .error e => .error e
  | .ok x =>
    match Keys.mlFromPublicBytes Kem.p768 (data.take 1184) with
    | .error e => .error e
    | .ok m => .ok ⟨m, x⟩

/-- `xwing.py` 73-75, `public_bytes_raw`. -/
def xPublicRaw (k : XPub) : Bytes := k.ml ++ k.x

/-- `xwing.py` 210-224, `kem_combiner`. -/
def xCombiner (X : XEnv) (mlkemSs tradSs tradCt tradPk : Bytes) : Bytes := X.sha3 (mlkemSs ++ tradSs ++ tradCt ++ tradPk ++ xLabel)

/-- `xwing.py` 77-92 and 226-238, `encaps`; `eph` is the given or generated private key. -/
def xEncaps (X : XEnv) (k : XPub) (eph m : Bytes) : Out (Bytes × Bytes) :=
  bind (lift (X.exchange eph k.x)) fun ssX =>
  bind (Keys.mlEncaps Kem.p768 X.kem k.ml m) fun (ssM, ctM) =>
  let ctX := X.pub eph
  .value (xCombiner X ssM ssX ctX k.x, ctM ++ ctX)

/-- `xwing.py` 267-282, `_from_seed`, and the constructor with both keys. -/
def xFromSeedCore (X : XEnv) (seed : Bytes) : Out XPriv :=
  let full := if seed.length = 32 then X.shake96 seed else seed
  if full.length ≠ 96 then .raised .valueError
  else bind (Keys.mlFromPrivateBytes Kem.p768 X.kem (full.take 64)) fun ml =>
    bind (lift (xLoad ((full.drop 64).take 32))) fun x =>
    .value ⟨ml, x, some seed⟩

/-- `xwing.py` 284-293, `from_seed`. -/
def xFromSeed (X : XEnv) (seed : Bytes) : Out XPriv :=
  if seed.length = 32 ∨ seed.length = 96 then xFromSeedCore X seed else .raised .valueError

/-- `xwing.py` 295-303, `expand`; `random` is `os.urandom(32)`. -/
def xExpand (X : XEnv) (sk : Option Bytes) (random : Bytes) : Out XPriv :=
  match sk with
  | some (b :: bs) => xFromSeedCore X (b :: bs)
  | _ => xFromSeedCore X random

/-- `abstract_wrapper_keys.py` 978-980, `private_bytes_raw`. -/
def xPrivateRaw (k : XPriv) : Bytes := k.ml.dk ++ k.x

/-- `xwing.py` 171-208, `from_private_bytes`. The seed passed to `expand` is not empty, no random value is used. -/
def xFromPrivateBytes (X : XEnv) (data : Bytes) : Out XPriv :=
  if data.length = 96 then
    bind (Keys.mlFromPrivateBytes Kem.p768 X.kem (data.take 64)) fun ml =>
    bind (lift (xLoad (data.drop 64))) fun x =>
    .value ⟨ml, x, none⟩
  else if data.length = 32 then xExpand X (some data) []
  else if data.length ≠ 2432 ∧ data.length ≠ 2432 + 32 then .raised .invalidKeyData
  else if data.length = 2432 + 32 then
    bind (xExpand X (some (data.take 32)) []) fun seedKey =>
    bind (lift (xLoad (data.drop 2432))) fun x =>
    bind (Keys.mlFromPrivateBytes Kem.p768 X.kem ((data.drop 32).take 2400)) fun ml =>
    if xPrivateRaw seedKey ≠ xPrivateRaw ⟨ml, x, none⟩ then .raised .invalidKeyData else .value seedKey
  else
    bind (lift (xLoad (data.drop 2400))) fun x =>
    bind (Keys.mlFromPrivateBytes Kem.p768 X.kem (data.take 2400)) fun ml =>
    .value ⟨ml, x, none⟩

/-- `xwing.py` 259-261, `public_key`. -/
def xPublicKey (X : XEnv) (k : XPriv) : XPub := ⟨Keys.mlPublicKey Kem.p768 k.ml, X.pub k.x⟩

/-- `xwing.py` 263-265, `_export_private_key`. -/
def xExport (k : XPriv) : Bytes :=
  match k.seed with
  | some (b :: bs) => b :: bs
  | _ => xPrivateRaw k

/-- `xwing.py` 240-252, `decaps`. -/
def xDecaps (X : XEnv) (k : XPriv) (ct : Bytes) : Out Bytes :=
  let ctM := ct.take 1088
  let ctX := (ct.drop 1088).take 32
  bind (Keys.mlDecaps Kem.p768 X.kem k.ml ctM) fun ssM =>
  bind (lift (xLoad ctX)) fun pk =>
  bind (lift (X.exchange k.x pk)) fun ssX =>
  .value (xCombiner X ssM ssX ctX (X.pub k.x))

/-! ## Chempat -/

/-- `chempat_key.py` 43-51, `CURVE_NAME_2_CONTEXT_NAME`. -/
def curveContext : List (String × String) :=
  [("secp256r1", "P256"), ("brainpoolP256r1", "brainpoolP256"), ("secp384r1", "P384"), ("brainpoolP384r1", "brainpoolP384"),
   ("brainpoolP512r1", "brainpoolP512"), ("x448", "X448"), ("x25519", "X25519")]

/-- Python's `s.replace(old, new)` for a non-empty `old`, on characters; every step consumes at least one character. -/
def replaceChars (old new : List Char) : Nat → List Char → List Char
  | 0, s => s
  | fuel + 1, s =>
    if old.isPrefixOf s then new ++ replaceChars old new fuel (s.drop old.length)
    else match s with
    | [] => []
    | c :: cs => c :: replaceChars old new fuel cs

def pyReplace (s old new : String) : String := String.ofList (replaceChars old.toList new.toList (s.length + 1) s.toList)

/-- `s.upper()` and `s.lower()` of ASCII names. -/
def pyUpper (s : String) : String := String.ofList (s.toList.map Char.toUpper)
def pyLower (s : String) : String := String.ofList (s.toList.map Char.toLower)

/-- `chempat_key.py` 140-155, the name of the post-quantum algorithm in the context. -/
def contextPq (family : Family) (name : String) : Except PyErr String :=
  if name = "sntrup761" then .ok "sntrup761"
  else match family with
  | .mceliece => .ok (pyLower (pyReplace name "-" ""))
  | .mlkem => .ok (pyUpper name)
  | .frodo => .ok (pyReplace (pyReplace (pyReplace name "frodokem" "FrodoKEM") "-aes" "") "-shake" "")
  | _ => .error .invalidKeyCombination

/-- `chempat_key.py` 156-160 with `curve_name` (`trad_kem_keys.py` 341-355). -/
def contextCurve : Curve → Except PyErr String
  | .x25519 => .ok "X25519"
  | .x448 => .ok "X448"
  | .ec name => look name curveContext

/-- `chempat_key.py` 127-162, `get_context`. -/
def getContext (family : Family) (name : String) (c : Curve) : Except PyErr Bytes :=
  match contextPq family name with
  | .error e => .error e
  | .ok pq =>
    match contextCurve c with
    | .error e => .error e
    | .ok cn => .ok (ascii "Chempat-" ++ ascii cn ++ ascii "-" ++ ascii pq)

/-- `chempat_key.py` 164-195, `kem_combiner`. -/
def chCombiner (E : Env) (tradCt tradSs pqCt pqSs pqPk tradPk context : Bytes) : Bytes :=
  E.sha3 (tradSs ++ pqSs ++ E.sha3 (tradCt ++ pqCt) ++ E.sha3 (pqPk ++ tradPk) ++ context)

/-- A `ChempatPublicKey`/`ChempatPrivateKey`; the traditional key always has `use_rfc9180=True` (75-79, 215-219). -/
structure ChPub (K : PqKem) (L : Lib) where
  pq : K.Pub
  trad : L.Pub

structure ChPriv (K : PqKem) (L : Lib) where
  pq : K.Priv
  trad : L.Priv

/-- `chempat_key.py` 312-314, `public_key`. -/
def chPublic {K : PqKem} {L : Lib} (k : ChPriv K L) : ChPub K L := ⟨K.pub k.pq, L.pub k.trad⟩

/-- `chempat_key.py` 197-205, `encaps`. -/
def chEncaps {K : PqKem} (E : Env) (k : ChPub K E.L) (priv : Option E.L.Priv) (r : Rand E.L) : Out (Bytes × Bytes) :=
  bind (K.encaps k.pq r.pq) fun (pqSs, pqCt) =>
  bind (lift (dhEncaps E.L true priv r.gen k.trad)) fun (tradSs, tradCt) =>
  bind (lift (getContext (K.family k.pq) (K.name k.pq) (E.L.pubCurve k.trad))) fun context =>
  .value (chCombiner E tradCt tradSs pqCt pqSs (K.raw k.pq) (E.L.encode k.trad) context, tradCt ++ pqCt)

/-- `chempat_key.py` 267-278, `_check_ct_length`; `isEc` is `get_trad_name.startswith("ecdh")`. -/
def checkCtLength (ctLen tradLen : Nat) (isEc : Bool) (ct : Bytes) : Except PyErr Bool :=
  if (ct.length : Int) ≠ ctLen then
    if isEc ∧ (ct.length : Int) = (ctLen : Int) + tradLen - 1 then .ok false else .error .valueError
  else .ok true

def isEc : Curve → Bool
  | .ec _ => true
  | _ => false

/-- `chempat_key.py` 280-310, `decaps`. -/
def chDecaps {K : PqKem} (E : Env) (k : ChPriv K E.L) (ct : Bytes) : Out Bytes :=
  let curve := E.L.pubCurve (E.L.pub k.trad)
  let nenc := dhCtLength curve
  bind (lift (checkCtLength (K.ctLength k.pq + nenc) nenc (isEc curve) ct)) fun compressed =>
  let n := if compressed then nenc else nenc + nenc - 1
  let tradCt := ct.take n
  let pqCt := ct.drop n
  bind (lift (dhDecaps E.L true k.trad tradCt)) fun tradSs =>
  bind (K.decaps k.pq pqCt) fun pqSs =>
  bind (lift (getContext (K.family (K.pub k.pq)) (K.name (K.pub k.pq)) curve)) fun context =>
  .value (chCombiner E tradCt tradSs pqCt pqSs (K.raw (K.pub k.pq)) (E.L.encode (E.L.pub k.trad)) context)

end Verif.PQ.Hyb
