import Verif.CA.Base

/-!
# MAC-based protection of messages

`resources/protectionutils.py`, with the functions it uses of `resources/cryptoutils.py`, `resources/oid_mapping.py` and
`resources/prepare_alg_ids.py`.

A message is protected by a MAC or a signature over its header and body. Which one is computed, and from which key, is
said by the algorithm identifier `protectionAlg` in the header.

`pyasn1` keeps a structure that was assigned to the field `parameters` as an object, and the bytes of a field that was
decoded (`Any`); the code tells both apart with `isinstance`. `Par` has a constructor for each kind of object, and `raw`
for bytes.

Parameters (`MacEnv`): hash functions and MACs of the packages `cryptography` and `Crypto`, DER codecs, and the hash
names of composite and post-quantum signature algorithms. Random values are arguments.

Simplified: the value and size constraints of the ASN.1 types are not tested; names of hash functions and OIDs are compared as such; the header consists of its parts `alg`, `txId` and
`info`, which the code reads, and of the other fields, encoded.
-/

namespace Verif.Prot

open Verif.CA

abbrev Bytes := List UInt8
abbrev Oid := List Nat

/-! ## Names -/

/-- `oidutils.py` 118-137, `HMAC_OID_2_NAME`. -/
def hmacNames : List (Oid × String) :=
  [([1, 3, 6, 1, 5, 5, 8, 1, 2], "hmac-sha1"), ([1, 2, 840, 113549, 2, 8], "hmac-sha224"),
   ([1, 2, 840, 113549, 2, 9], "hmac-sha256"), ([1, 2, 840, 113549, 2, 10], "hmac-sha384"),
   ([1, 2, 840, 113549, 2, 11], "hmac-sha512"), ([2, 16, 840, 1, 101, 3, 4, 2, 13], "hmac-sha3_224"),
   ([2, 16, 840, 1, 101, 3, 4, 2, 14], "hmac-sha3_256"), ([2, 16, 840, 1, 101, 3, 4, 2, 15], "hmac-sha3_384"),
   ([2, 16, 840, 1, 101, 3, 4, 2, 16], "hmac-sha3_512")]

/-- `oidutils.py` 142, `KMAC_OID_2_NAME`. -/
def kmac128Oid : Oid := [2, 16, 840, 1, 101, 3, 4, 2, 19]
/-- `oidutils.py` 142. -/
def kmac256Oid : Oid := [2, 16, 840, 1, 101, 3, 4, 2, 20]

/-- `oidutils.py` 87-91, `AES_GMAC_OID_2_NAME`. -/
def gmacNames : List (Oid × String) :=
  [([2, 16, 840, 1, 101, 3, 4, 1, 9], "aes128_gmac"), ([2, 16, 840, 1, 101, 3, 4, 1, 29], "aes192_gmac"),
   ([2, 16, 840, 1, 101, 3, 4, 1, 49], "aes256_gmac")]

/-- `oidutils.py` 155-158, `SHA_OID_2_NAME`. -/
def shaNames : List (Oid × String) :=
  [([1, 3, 14, 3, 2, 26], "sha1"), ([2, 16, 840, 1, 101, 3, 4, 2, 4], "sha224"),
   ([2, 16, 840, 1, 101, 3, 4, 2, 1], "sha256"), ([2, 16, 840, 1, 101, 3, 4, 2, 2], "sha384"),
   ([2, 16, 840, 1, 101, 3, 4, 2, 3], "sha512")]

/-- `oidutils.py` 164-171, `SHA3_OID_2_NAME`. -/
def sha3Names : List (Oid × String) :=
  [([2, 16, 840, 1, 101, 3, 4, 2, 7], "sha3_224"), ([2, 16, 840, 1, 101, 3, 4, 2, 8], "sha3_256"),
   ([2, 16, 840, 1, 101, 3, 4, 2, 9], "sha3_384"), ([2, 16, 840, 1, 101, 3, 4, 2, 10], "sha3_512"),
   ([2, 16, 840, 1, 101, 3, 4, 2, 11], "shake128"), ([2, 16, 840, 1, 101, 3, 4, 2, 12], "shake256")]

/-- `oidutils.py` 92-97 and 181-192, `RSA_OID_2_NAME`. -/
def rsaNames : List (Oid × String) :=
  [([1, 2, 840, 113549, 1, 1, 5], "rsa-sha1"), ([1, 2, 840, 113549, 1, 1, 14], "rsa-sha224"),
   ([1, 2, 840, 113549, 1, 1, 11], "rsa-sha256"), ([1, 2, 840, 113549, 1, 1, 12], "rsa-sha384"),
   ([1, 2, 840, 113549, 1, 1, 13], "rsa-sha512"), ([2, 16, 840, 1, 101, 3, 4, 3, 13], "rsa-sha3_224"),
   ([2, 16, 840, 1, 101, 3, 4, 3, 14], "rsa-sha3_256"), ([2, 16, 840, 1, 101, 3, 4, 3, 15], "rsa-sha3_384"),
   ([2, 16, 840, 1, 101, 3, 4, 3, 16], "rsa-sha3_512")]

/-- `rfc9481.id_RSASSA_PSS`. -/
def pssOid : Oid := [1, 2, 840, 113549, 1, 1, 10]
/-- `rfc9481.id_RSASSA_PSS_SHAKE128`. -/
def pss128Oid : Oid := [1, 3, 6, 1, 5, 5, 7, 6, 30]
/-- `rfc9481.id_RSASSA_PSS_SHAKE256`. -/
def pss256Oid : Oid := [1, 3, 6, 1, 5, 5, 7, 6, 31]

/-- `oidutils.py` 108-112, `RSASSA_PSS_OID_2_NAME`. -/
def pssNames : List (Oid × String) :=
  [(pssOid, "rsassa_pss-sha256"), (pss128Oid, "rsassa_pss-shake128"), (pss256Oid, "rsassa_pss-shake256")]

/-- `oidutils.py` 98-105 and 175-180, 194-196, `ECDSA_OID_2_NAME`. -/
def ecdsaNames : List (Oid × String) :=
  [([1, 2, 840, 10045, 4, 3, 1], "ecdsa-sha224"), ([1, 2, 840, 10045, 4, 3, 2], "ecdsa-sha256"),
   ([1, 2, 840, 10045, 4, 3, 3], "ecdsa-sha384"), ([1, 2, 840, 10045, 4, 3, 4], "ecdsa-sha512"),
   ([1, 3, 6, 1, 5, 5, 7, 6, 32], "ecdsa-shake128"), ([1, 3, 6, 1, 5, 5, 7, 6, 33], "ecdsa-shake256"),
   ([2, 16, 840, 1, 101, 3, 4, 3, 9], "ecdsa-sha3_224"), ([2, 16, 840, 1, 101, 3, 4, 3, 10], "ecdsa-sha3_256"),
   ([2, 16, 840, 1, 101, 3, 4, 3, 11], "ecdsa-sha3_384"), ([2, 16, 840, 1, 101, 3, 4, 3, 12], "ecdsa-sha3_512")]

/-- `rfc9481.id_Ed25519`. -/
def ed25519Oid : Oid := [1, 3, 101, 112]
/-- `rfc9481.id_Ed448`. -/
def ed448Oid : Oid := [1, 3, 101, 113]

/-- `oidutils.py` 219-226, `OID_HASH_MAP`. -/
def hashMap : List (Oid × String) := rsaNames ++ pssNames ++ ecdsaNames ++ hmacNames ++ shaNames ++ sha3Names

/-- `rfc8018.id_PBMAC1`. -/
def pbmac1Oid : Oid := [1, 2, 840, 113549, 1, 5, 14]
/-- `rfc8018.id_PBKDF2`. -/
def pbkdf2Oid : Oid := [1, 2, 840, 113549, 1, 5, 12]
/-- `rfc4210.id_PasswordBasedMac`. -/
def pbmOid : Oid := [1, 2, 840, 113533, 7, 66, 13]
/-- `rfc9480.id_DHBasedMac`. -/
def dhOid : Oid := [1, 2, 840, 113533, 7, 66, 30]
/-- `oidutils.py` 249, `id_KemBasedMac`. -/
def kemMacOid : Oid := [1, 2, 840, 113533, 7, 66, 16]

/-- The lookup of a key in a dictionary. -/
def look : List (Oid × String) → Oid → Option String
  | [], _ => none
  | (k, v) :: l, o => if k = o then some v else look l o

/-- `oidutils.py` 251-262, membership in `SYMMETRIC_PROT_ALGO`. -/
def isSymmetric (o : Oid) : Bool :=
  decide (o = dhOid) || decide (o = kemMacOid) || decide (o = pbmOid) || decide (o = pbmac1Oid) ||
    (look hmacNames o).isSome || (look gmacNames o).isSome || decide (o = kmac128Oid) || decide (o = kmac256Oid)

/-- The characters after the first `-`, up to the next. -/
def afterDash : List Char → Option (List Char)
  | [] => none
  | c :: l => if c = '-' then some (l.takeWhile (fun x => decide (x ≠ '-'))) else afterDash l

/-- `s.split("-")[1]`. -/
def dash1 (s : String) : Except PyErr String :=
  match afterDash s.toList with
  | none => .error .indexError
  | some l => .ok (String.ofList l)

/-- `oidutils.py` 296-308, the keys of `ALLOWED_HASH_TYPES`. -/
def allowedHash : List String :=
  ["sha1", "sha224", "sha256", "sha384", "sha512", "shake128", "shake256", "sha3_224", "sha3_256", "sha3_384",
   "sha3_512"]

/-- `oid_mapping.py` 171-185, `hash_name_to_instance`; the instance is given by its name. -/
def hashInst (s : String) : Except PyErr String :=
  let n := match afterDash s.toList with
    | none => s
    | some l => String.ofList l
  if n ∈ allowedHash then .ok n else .error .valueError

/-- `oidutils.py` 146-153, the keys of `SHA2_NAME_2_OID`. -/
def sha2Names : List String := ["sha224", "sha256", "sha384", "sha512"]

/-! ## Structures -/

/-- `rfc9480.PBMParameter`. The parameters of the algorithm identifiers are kept encoded. -/
structure Pbm where
  salt : Bytes
  owf : Oid
  owfPar : Option Bytes
  iter : Int
  mac : Oid
  macPar : Option Bytes
  deriving DecidableEq, Repr

/-- `rfc8018.PBKDF2_params`. `salt = none` stands for the choice `otherSource`. -/
structure Pbkdf2 where
  salt : Option Bytes
  iter : Int
  keyLen : Option Int
  prf : Oid
  prfPar : Option Bytes
  deriving DecidableEq, Repr

/-- The parameters of a key derivation function. -/
inductive KdfPar where
  | absent
  | pbkdf2 (p : Pbkdf2)
  | hash (oid : Oid)
  | raw (b : Bytes)
  deriving DecidableEq, Repr

/-- `rfc8018.PBMAC1_params`. -/
structure Pbmac1 where
  kdf : Oid
  kdfPar : KdfPar
  mac : Oid
  macPar : Option Bytes
  deriving DecidableEq, Repr

/-- The parameters of the MAC in `rfc9480.DHBMParameter`. -/
inductive MacPar where
  | absent
  | gcm (nonce : Bytes)
  | raw (b : Bytes)
  deriving DecidableEq, Repr

/-- `rfc9480.DHBMParameter`. -/
structure Dhbm where
  owf : Oid
  owfPar : Option Bytes
  mac : Oid
  macPar : MacPar
  deriving DecidableEq, Repr

/-- `KemBMParameterAsn1` (`asn1_structures.py`). -/
structure KemBm where
  kdf : Oid
  kdfPar : KdfPar
  ctx : Option Bytes
  len : Int
  mac : Oid
  macPar : Option Bytes
  deriving DecidableEq, Repr

/-- The parameters of a mask generation function. -/
inductive MgfPar where
  | absent
  | alg (oid : Oid)
  | raw (b : Bytes)
  deriving DecidableEq, Repr

/-- `rfc8017.RSASSA_PSS_params`. -/
structure Pss where
  hash : Oid
  mgf : Oid
  mgfPar : MgfPar
  salt : Int
  deriving DecidableEq, Repr

/-- The field `parameters` of an algorithm identifier: absent, an object, or bytes. -/
inductive Par where
  | absent
  | null
  | pbm (p : Pbm)
  | pbmac1 (p : Pbmac1)
  | gcm (nonce : Bytes)
  | dhbm (p : Dhbm)
  | kem (p : KemBm)
  | pss (p : Pss)
  | raw (b : Bytes)
  deriving DecidableEq, Repr

/-- `rfc9480.AlgorithmIdentifier`. -/
structure AlgId where
  oid : Oid
  par : Par
  deriving DecidableEq, Repr

/-- The value in an `InfoTypeAndValue`: the structure with a KEM ciphertext, or bytes. -/
inductive InfoVal where
  | kemCt (oid : Oid) (ct : Option Bytes)
  | raw (b : Bytes)
  deriving DecidableEq, Repr

/-- `PKIHeader`. -/
structure Hdr where
  fields : Bytes
  sender : Bool
  alg : Option AlgId
  txId : Option Bytes
  info : List (Oid × InfoVal)
  deriving DecidableEq, Repr

/-- `PKIMessageTMP` with certificates of type `C`. -/
structure Msg (C : Type) where
  hdr : Hdr
  body : Option Bytes
  prot : Option Bytes
  certs : List C
  deriving DecidableEq, Repr

/-- The external functions for MACs. -/
structure MacEnv where
  /-- Hash functions by their names in `ALLOWED_HASH_TYPES`. -/
  H : String → Bytes → Bytes
  /-- HMAC: hash, key, data. -/
  hmac : String → Bytes → Bytes → Bytes
  /-- KMAC: with SHAKE256?, key, data; a short key is an error. -/
  kmac : Bool → Bytes → Bytes → Except PyErr Bytes
  /-- AES-GMAC: key, nonce, data. -/
  gmac : Bytes → Bytes → Bytes → Except PyErr Bytes
  /-- PBKDF2: hash, salt, iterations, length, password. -/
  pbkdf2 : String → Bytes → Int → Int → Bytes → Except PyErr Bytes
  /-- `get_hash_from_oid` for composite and post-quantum algorithms. -/
  special : Oid → Option (Option String)
  encPbm : Pbm → Bytes
  decPbm : Bytes → Option (Pbm × Bytes)
  encPbmac1 : Pbmac1 → Bytes
  decPbmac1 : Bytes → Option (Pbmac1 × Bytes)
  encPbkdf2 : Pbkdf2 → Bytes
  decPbkdf2 : Bytes → Option (Pbkdf2 × Bytes)
  encGcm : Bytes → Bytes
  decGcm : Bytes → Option (Bytes × Bytes)
  encDhbm : Dhbm → Bytes
  decDhbm : Bytes → Option (Dhbm × Bytes)
  encKem : KemBm → Bytes
  decKem : Bytes → Option (KemBm × Bytes)
  encPss : Pss → Bytes
  decPss : Bytes → Option (Pss × Bytes)
  encCt : Oid → Option Bytes → Bytes
  nullDer : Bytes
  /-- The encoded `ProtectedPart`: header fields, `protectionAlg`, `transactionID`, `generalInfo`, body. -/
  encPart : Bytes → Option (Oid × Option Bytes) → Option Bytes → List (Oid × Bytes) → Bytes → Bytes

/-- The encoded parameters of an algorithm identifier. -/
def parDer (env : MacEnv) : Par → Option Bytes
  | .absent => none
  | .null => some env.nullDer
  | .pbm p => some (env.encPbm p)
  | .pbmac1 p => some (env.encPbmac1 p)
  | .gcm n => some (env.encGcm n)
  | .dhbm p => some (env.encDhbm p)
  | .kem p => some (env.encKem p)
  | .pss p => some (env.encPss p)
  | .raw b => some b

/-- The encoded value of an `InfoTypeAndValue`. -/
def infoDer (env : MacEnv) : InfoVal → Bytes
  | .kemCt o c => env.encCt o c
  | .raw b => b

/-- `protectionutils.py` 2921-2956, `prepare_protected_part`. The test for missing header fields always passes: `in` on
a `pyasn1` structure asks for the name of a component. -/
def protectedPart {C : Type} (env : MacEnv) (m : Msg C) : Except PyErr Bytes :=
  match m.body with
  | none => .error .valueError
  | some b =>
    .ok (env.encPart m.hdr.fields (m.hdr.alg.map (fun a => (a.oid, parDer env a.par))) m.hdr.txId
      (m.hdr.info.map (fun x => (x.1, infoDer env x.2))) b)

/-- What the receiver has of a message that was encoded and decoded: the fields of type `Any` are bytes. -/
def transport {C : Type} (env : MacEnv) (m : Msg C) : Msg C :=
  { m with
    hdr := { m.hdr with
      alg := m.hdr.alg.map (fun a =>
        ⟨a.oid, match parDer env a.par with
          | none => .absent
          | some b => .raw b⟩)
      info := m.hdr.info.map (fun x => (x.1, .raw (infoDer env x.2))) } }

/-! ## Computing a MAC -/

/-- `oid_mapping.py` 138-167, `get_hash_from_oid`. -/
def hashOfOid (env : MacEnv) (o : Oid) (onlyHash : Bool) : Except PyErr (Option String) :=
  if o = ed25519Oid ∨ o = ed448Oid then .ok none
  else
    match env.special o with
    | some h => .ok h
    | none =>
      match look hashMap o with
      | none => .error .valueError
      | some n => if onlyHash then (dash1 n).map some else .ok (some n)

/-- `cryptoutils.py` 227-244, `compute_hmac`. -/
def hmacOf (env : MacEnv) (h : String) (key data : Bytes) : Except PyErr Bytes :=
  match hashInst h with
  | .error e => .error e
  | .ok n => .ok (env.hmac n key data)

/-- `oid_mapping.py` 235-246, `compute_hash`. -/
def hashOf (env : MacEnv) (h : String) (data : Bytes) : Except PyErr Bytes :=
  match hashInst h with
  | .error e => .error e
  | .ok n => .ok (env.H n data)

/-- `cryptoutils.py` 268-293, `compute_kmac_from_alg_id`; `par` tells if parameters are set. -/
def kmacOf (env : MacEnv) (o : Oid) (par : Bool) (key data : Bytes) : Except PyErr Bytes :=
  if par then .error .valueError
  else if o = kmac128Oid then env.kmac false key data
  else if o = kmac256Oid then env.kmac true key data
  else .error .valueError

/-- `cryptoutils.py` 426-427: the loop. -/
def hashLoop (env : MacEnv) (h : String) : Nat → Bytes → Except PyErr Bytes
  | 0, x => .ok x
  | n + 1, x =>
    match hashOf env h x with
    | .error e => .error e
    | .ok y => hashLoop env h n y

/-- `cryptoutils.py` 400-431, `compute_password_based_mac`. `rnd` is the random value used instead of an empty salt. -/
def pbmOf (env : MacEnv) (rnd : Bytes) (data key : Bytes) (iter : Int) (salt : Bytes) (h mh : String) :
    Except PyErr Bytes :=
  match hashLoop env h iter.toNat (key ++ (if salt = [] then rnd else salt)) with
  | .error e => .error e
  | .ok k => hmacOf env mh k data

/-- `cryptoutils.py` 324-351, `compute_pbkdf2_from_parameter`. -/
def pbkdf2Of (env : MacEnv) (p : Pbkdf2) (key : Bytes) : Except PyErr Bytes :=
  match p.salt with
  | none => .error .pyasn1Error
  | some salt =>
    match p.keyLen with
    | none => .error .pyasn1Error
    | some len =>
      match hashOfOid env p.prf true with
      | .error e => .error e
      | .ok none => .error .badAlg
      | .ok (some h) =>
        match hashInst h with
        | .error e => .error e
        | .ok n => env.pbkdf2 n salt p.iter len key

/-- `protectionutils.py` 373-376: the parameters as a structure. -/
def getPbmac1 (env : MacEnv) (unsafeDec : Bool) : Par → Except PyErr Pbmac1
  | .pbmac1 p => .ok p
  | .raw b =>
    match env.decPbmac1 b with
    | none => .error .pyasn1Error
    | some (p, rest) => if rest ≠ [] ∧ unsafeDec = false then .error .badAsn1Data else .ok p
  | _ => .error .pyasn1Error

/-- `protectionutils.py` 386-392: the parameters of the key derivation function as a structure. -/
def getPbkdf2 (env : MacEnv) (unsafeDec : Bool) : KdfPar → Except PyErr Pbkdf2
  | .pbkdf2 p => .ok p
  | .raw b =>
    match env.decPbkdf2 b with
    | none => .error .pyasn1Error
    | some (p, rest) => if rest ≠ [] ∧ unsafeDec = false then .error .badAsn1Data else .ok p
  | _ => .error .pyasn1Error

/-- `protectionutils.py` 394-398: the hash of the MAC in `PBMAC1_params`. -/
def hmacHash (o : Oid) : Except PyErr String :=
  match look hmacNames o with
  | none => .error .badAlg
  | some n => dash1 n

/-- `protectionutils.py` 401: the hash of the key derivation. -/
def prfHash (env : MacEnv) (o : Oid) : Except PyErr String :=
  match hashOfOid env o false with
  | .error e => .error e
  | .ok none => .error .attributeError
  | .ok (some n) => dash1 n

/-- `protectionutils.py` 402-408 and 645-650: what is required of the two hash functions for the lightweight profile. -/
def checkLw (lw : Bool) (h mh : String) : Except PyErr Unit :=
  if h ≠ mh ∧ lw = true then .error .lwCmpViolation
  else if lw = true ∧ mh ∉ sha2Names then .error .badAlg
  else .ok ()

/-- `protectionutils.py` 410-413. -/
def pbmac1Mac (env : MacEnv) (q : Pbkdf2) (h : String) (pw data : Bytes) : Except PyErr Bytes :=
  match pbkdf2Of env q pw with
  | .error e => .error e
  | .ok k => hmacOf env h k data

/-- `protectionutils.py` 394-413. -/
def pbmac1Tail (env : MacEnv) (p : Pbmac1) (q : Pbkdf2) (pw data : Bytes) (lw : Bool) : Except PyErr Bytes :=
  match hmacHash p.mac with
  | .error e => .error e
  | .ok h =>
    match prfHash env q.prf with
    | .error e => .error e
    | .ok ph =>
      match checkLw lw ph h with
      | .error e => .error e
      | .ok () => pbmac1Mac env q h pw data

/-- `protectionutils.py` 357-413, `_compute_pbmac1_from_param`. -/
def pbmac1Of (env : MacEnv) (par : Par) (pw data : Bytes) (unsafeDec lw : Bool) : Except PyErr Bytes :=
  match getPbmac1 env unsafeDec par with
  | .error e => .error e
  | .ok p =>
    if unsafeDec = false ∧ p.kdf ≠ pbkdf2Oid then .error .badAlg
    else
      match getPbkdf2 env unsafeDec p.kdfPar with
      | .error e => .error e
      | .ok q => pbmac1Tail env p q pw data lw

/-- `protectionutils.py` 622-625: the parameters of the password-based MAC as a structure. -/
def getPbm (env : MacEnv) (unsafeDec : Bool) : Par → Except PyErr Pbm
  | .pbm p => .ok p
  | .raw b =>
    match env.decPbm b with
    | none => .error .pyasn1Error
    | some (p, rest) => if rest ≠ [] ∧ unsafeDec = false then .error .badAsn1Data else .ok p
  | _ => .error .pyasn1Error

/-- `protectionutils.py` 627-659. -/
def pbmTail (env : MacEnv) (rnd : Bytes) (p : Pbm) (pw data : Bytes) (lw : Bool) : Except PyErr Bytes :=
  match hashOfOid env p.owf false with
  | .error e => .error e
  | .ok none => .error .badAlg
  | .ok (some h) =>
    match hmacHash p.mac with
    | .error e => .error e
    | .ok mh =>
      match checkLw lw h mh with
      | .error e => .error e
      | .ok () => pbmOf env rnd data pw p.iter p.salt h mh

/-- `protectionutils.py` 662-668. -/
def gmacTail (env : MacEnv) (unsafeDec : Bool) (par : Par) (pw data : Bytes) : Except PyErr Bytes :=
  match par with
  | .gcm n => env.gmac pw n data
  | .raw b =>
    match env.decGcm b with
    | none => .error .pyasn1Error
    | some (n, rest) => if rest ≠ [] ∧ unsafeDec = false then .error .badAsn1Data else env.gmac pw n data
  | _ => .error .pyasn1Error

/-- The decimal digits of a number, in ASCII. -/
def asciiNat (n : Nat) : Bytes := (Nat.toDigits 10 n).map (fun c => UInt8.ofNat c.toNat)

/-- `protectionutils.py` 438-441: the loop over `i`, `i + 1`, ... -/
def dhLoop (env : MacEnv) (h : String) (base : Bytes) : Nat → Nat → Bytes → Except PyErr Bytes
  | 0, _, acc => .ok acc
  | n + 1, i, acc =>
    match hashOf env h (asciiNat i ++ base) with
    | .error e => .error e
    | .ok y => dhLoop env h base n (i + 1) (acc ++ y)

/-- `protectionutils.py` 417-443, `dh_based_mac_derive_key`; the division by zero for an empty key is an exception. -/
def dhKey (env : MacEnv) (base : Bytes) (len : Nat) (h : String) : Except PyErr Bytes :=
  if len ≤ base.length then .ok (base.take len)
  else if base = [] then .error .exception
  else
    match dhLoop env h base ((len + base.length - 1) / base.length - 1) 1 base with
    | .error e => .error e
    | .ok k => .ok (k.take len)

/-- `protectionutils.py` 446-458, `_get_aes_length`, by the OID. -/
def aesLen (o : Oid) : Nat :=
  if look gmacNames o = some "aes128_gmac" then 16 else if look gmacNames o = some "aes192_gmac" then 24 else 32

/-- `protectionutils.py` 473-478. -/
def getDhbm (env : MacEnv) : Par → Except PyErr Dhbm
  | .dhbm p => .ok p
  | .raw b =>
    match env.decDhbm b with
    | none => .error .pyasn1Error
    | some (p, rest) => if rest ≠ [] then .error .badAsn1Data else .ok p
  | _ => .error .pyasn1Error

/-- `protectionutils.py` 495-500: the nonce, whatever follows its structure. -/
def getNonce (env : MacEnv) : MacPar → Except PyErr Bytes
  | .gcm n => .ok n
  | .raw b =>
    match env.decGcm b with
    | none => .error .pyasn1Error
    | some (n, _) => .ok n
  | .absent => .error .pyasn1Error

/-- `protectionutils.py` 492-501. -/
def dhGmac (env : MacEnv) (ss : Bytes) (p : Dhbm) (h : String) (data : Bytes) : Except PyErr Bytes :=
  match dhKey env ss (aesLen p.mac) h with
  | .error e => .error e
  | .ok k =>
    match getNonce env p.macPar with
    | .error e => .error e
    | .ok n => env.gmac k n data

/-- `protectionutils.py` 503-505. -/
def dhKmac (env : MacEnv) (ss : Bytes) (p : Dhbm) (h : String) (data : Bytes) : Except PyErr Bytes :=
  match dhKey env ss 32 h with
  | .error e => .error e
  | .ok k => kmacOf env p.mac (decide (p.macPar ≠ .absent)) k data

/-- `protectionutils.py` 480-511. -/
def dhTail (env : MacEnv) (ss : Bytes) (p : Dhbm) (data : Bytes) : Except PyErr Bytes :=
  match look shaNames p.owf with
  | none => .error .keyError
  | some h =>
    match hashOf env h ss with
    | .error e => .error e
    | .ok k =>
      match look hmacNames p.mac with
      | some n =>
        match dash1 n with
        | .error e => .error e
        | .ok mh => hmacOf env mh k data
      | none =>
        if (look gmacNames p.mac).isSome then dhGmac env ss p h data
        else if p.mac = kmac128Oid ∨ p.mac = kmac256Oid then dhKmac env ss p h data
        else .error .badAlg

/-- `protectionutils.py` 462-511, `compute_dh_based_mac_from_alg_id`, called without `ignore_parameters`. -/
def dhMacOf (env : MacEnv) (ss : Bytes) (par : Par) (data : Bytes) : Except PyErr Bytes :=
  match getDhbm env par with
  | .error e => .error e
  | .ok p => dhTail env ss p data

/-- `protectionutils.py` 603-673, with the names of the branches tested in this order. -/
def macByAlg (env : MacEnv) (rnd : Bytes) (a : AlgId) (pw data : Bytes) (unsafeDec lw : Bool) : Except PyErr Bytes :=
  match look hmacNames a.oid with
  | some n =>
    match dash1 n with
    | .error e => .error e
    | .ok h => hmacOf env h pw data
  | none =>
    if a.oid = kmac128Oid ∨ a.oid = kmac256Oid then kmacOf env a.oid (decide (a.par ≠ .absent)) pw data
    else if a.oid = pbmac1Oid then pbmac1Of env a.par pw data unsafeDec lw
    else if a.oid = pbmOid then
      match getPbm env unsafeDec a.par with
      | .error e => .error e
      | .ok p => pbmTail env rnd p pw data lw
    else if (look gmacNames a.oid).isSome then gmacTail env unsafeDec a.par pw data
    else if a.oid = dhOid then dhMacOf env pw a.par data
    else .error .badAlg

/-- `protectionutils.py` 582-673, `_compute_symmetric_protection`, called without `unsafe_decoding`. -/
def symProt {C : Type} (env : MacEnv) (rnd : Bytes) (m : Msg C) (pw : Bytes) (lw : Bool) : Except PyErr Bytes :=
  match protectedPart env m with
  | .error e => .error e
  | .ok data =>
    match m.hdr.alg with
    | none => .error .pyasn1Error
    | some a => macByAlg env rnd a pw data false lw

/-- `protectionutils.py` 532-579, `compute_mac_from_alg_id`, which is used outside of messages. -/
def macFromAlg (env : MacEnv) (rnd : Bytes) (a : AlgId) (key data : Bytes) : Except PyErr Bytes :=
  match look hmacNames a.oid with
  | some n =>
    match dash1 n with
    | .error e => .error e
    | .ok h => hmacOf env h key data
  | none =>
    if a.oid = kmac128Oid ∨ a.oid = kmac256Oid then kmacOf env a.oid (decide (a.par ≠ .absent)) key data
    else if a.oid = pbmac1Oid then pbmac1Of env a.par key data true false
    else if a.oid = pbmOid then
      match getPbm env false a.par with
      | .error e => .error e
      | .ok p =>
        match look hmacNames p.mac with
        | none => .error .keyError
        | some n =>
          match dash1 n with
          | .error e => .error e
          | .ok h => pbmOf env rnd data key p.iter p.salt h h
    else if (look gmacNames a.oid).isSome then
      match a.par with
      | .gcm n => env.gmac key n data
      | _ => .error .pyasn1Error
    else if a.oid = dhOid then dhMacOf env key a.par data
    else .error .badAlg

/-! ## Algorithm identifiers -/

/-- The options of a protection: `params` of `protect_pkimessage`. -/
structure ProtParams where
  hash : Option String
  salt : Option Bytes
  iter : Option Int
  len : Option Int
  mac : Option String
  deriving DecidableEq, Repr

/-- The first key of a dictionary with a value. -/
def lookOid : List (Oid × String) → String → Option Oid
  | [], _ => none
  | (k, v) :: l, n => if v = n then some k else lookOid l n

/-- `oid_mapping.py` 106-120, `sha_alg_name_to_oid`, for names in lower case. -/
def oidOfName (n : String) : Except PyErr Oid :=
  match lookOid hashMap n with
  | none => .error .valueError
  | some o => .ok o

/-- `prepare_alg_ids.py` 341-354, `prepare_hmac_alg_id`. -/
def hmacOid (h : String) : Except PyErr Oid := oidOfName ("hmac-" ++ h)

/-- `prepare_alg_ids.py` 382-396, `prepare_kmac_alg_id`. -/
def kmacOid (h : String) : Except PyErr Oid :=
  if h = "shake128" then .ok kmac128Oid else if h = "shake256" then .ok kmac256Oid else .error .valueError

/-- `prepare_alg_ids.py` 358-378, `prepare_password_based_mac_parameters`. -/
def prepPbm (env : MacEnv) (rnd salt : Bytes) (iter : Int) (h : String) : Except PyErr Pbm :=
  match oidOfName h with
  | .error e => .error e
  | .ok o =>
    match hmacOid h with
    | .error e => .error e
    | .ok mo => .ok ⟨if salt = [] then rnd else salt, o, some env.nullDer, iter, mo, none⟩

/-- `prepare_alg_ids.py` 131-154, `prepare_pbkdf2_alg_id`: the parameters. -/
def prepPbkdf2 (salt : Bytes) (iter len : Int) (h : String) : Except PyErr Pbkdf2 :=
  match hmacOid h with
  | .error e => .error e
  | .ok o => .ok ⟨some salt, iter, some len, o, none⟩

/-- `prepare_alg_ids.py` 420-442, `prepare_pbmac1_parameters`. -/
def prepPbmac1 (rnd salt : Bytes) (iter len : Int) (h : String) : Except PyErr Pbmac1 :=
  match prepPbkdf2 (if salt = [] then rnd else salt) iter len h with
  | .error e => .error e
  | .ok p =>
    match hmacOid h with
    | .error e => .error e
    | .ok o => .ok ⟨pbkdf2Oid, .pbkdf2 p, o, none⟩

/-- `oidutils.py` 80-86, `AES_GMAC_NAME_2_OID`. -/
def gmacOids : List (String × Oid) :=
  [("aes128_gmac", [2, 16, 840, 1, 101, 3, 4, 1, 9]), ("aes192_gmac", [2, 16, 840, 1, 101, 3, 4, 1, 29]),
   ("aes256_gmac", [2, 16, 840, 1, 101, 3, 4, 1, 49]), ("aes-gmac", [2, 16, 840, 1, 101, 3, 4, 1, 49]),
   ("aes_gmac", [2, 16, 840, 1, 101, 3, 4, 1, 49])]

/-- `prepare_alg_ids.py` 400-416, `prepare_aes_gmac_prot_alg_id`: the OID. -/
def gmacOid (name : String) : Except PyErr Oid :=
  match gmacOids.find? (fun x => decide (x.1 = name)) with
  | none => .error .keyError
  | some x => .ok x.2

/-- `suiteenums.py` 31-41, `ProtectionAlgorithm`. -/
inductive ProtKind where
  | hmac | pbmac1 | pbm | gmac | signature | dh | pss | kmac
  deriving DecidableEq, Repr

/-- `suiteenums.py` 49-76, `ProtectionAlgorithm.get`. -/
def protKind (name : String) : Except PyErr ProtKind :=
  if gmacOids.any (fun x => decide (x.1 = name)) then .ok .gmac
  else
    let u := name.toList.map (fun c => if c = '-' then '_' else c.toUpper)
    if u = "HMAC".toList then .ok .hmac
    else if u = "PBMAC1".toList then .ok .pbmac1
    else if u = "PASSWORD_BASED_MAC".toList then .ok .pbm
    else if u = "AES_GMAC".toList then .ok .gmac
    else if u = "SIGNATURE".toList then .ok .signature
    else if u = "DH".toList then .ok .dh
    else if u = "RSASSA_PSS".toList then .ok .pss
    else if u = "KMAC".toList then .ok .kmac
    else .error .valueError

/-- `prepare_alg_ids.py` 446-480, `prepare_dh_based_mac_params`: the MAC, with the names that start with `hmac`, `aes`
and `kmac`. -/
def prepDhMac (rnd : Bytes) (h mac : String) (nonce : Option Bytes) : Except PyErr (Oid × MacPar) :=
  if mac = "hmac" then (hmacOid h).map (fun o => (o, .absent))
  else if "hmac".toList.isPrefixOf mac.toList then
    match dash1 mac with
    | .error e => .error e
    | .ok n => (hmacOid n).map (fun o => (o, .absent))
  else if "aes".toList.isPrefixOf mac.toList then
    (gmacOid mac).map (fun o => (o, .gcm (match nonce with
      | none => rnd
      | some n => if n = [] then rnd else n)))
  else if mac = "kmac" then (kmacOid "shake256").map (fun o => (o, .absent))
  else if "kmac".toList.isPrefixOf mac.toList then
    match dash1 mac with
    | .error e => .error e
    | .ok n => (kmacOid n).map (fun o => (o, .absent))
  else .error .valueError

/-- `prepare_alg_ids.py` 446-480, `prepare_dh_based_mac_params`. -/
def prepDhbm (env : MacEnv) (rnd : Bytes) (h mac : String) (nonce : Option Bytes) : Except PyErr Dhbm :=
  match oidOfName h with
  | .error e => .error e
  | .ok o =>
    match prepDhMac rnd h mac nonce with
    | .error e => .error e
    | .ok (mo, mp) => .ok ⟨o, some env.nullDer, mo, mp⟩

/-- `protectionutils.py` 843-902, the branches of `_prepare_prot_alg_id` for a MAC. `rnd` is the random salt or nonce. -/
def prepMacAlg (env : MacEnv) (rnd : Bytes) (name : String) (k : ProtKind) (p : ProtParams) : Except PyErr AlgId :=
  match k with
  | .hmac => (hmacOid (p.hash.getD "sha256")).map (fun o => ⟨o, .absent⟩)
  | .kmac => (kmacOid (p.hash.getD "shake128")).map (fun o => ⟨o, .absent⟩)
  | .pbmac1 =>
    (prepPbmac1 rnd (p.salt.getD rnd) (p.iter.getD 262144) (p.len.getD 32) (p.hash.getD "sha512")).map
      (fun q => ⟨pbmac1Oid, .pbmac1 q⟩)
  | .pbm =>
    (prepPbm env rnd (p.salt.getD rnd) (p.iter.getD 1000) (p.hash.getD "sha256")).map (fun q => ⟨pbmOid, .pbm q⟩)
  | .gmac =>
    (gmacOid name).map (fun o => ⟨o, .gcm (if p.salt.getD rnd = [] then rnd else p.salt.getD rnd)⟩)
  | .dh =>
    (prepDhbm env rnd (p.hash.getD "sha1") (p.mac.getD "hmac") p.salt).map (fun q => ⟨dhOid, .dhbm q⟩)
  | _ => .error .valueError

end Verif.Prot
