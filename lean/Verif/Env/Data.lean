import Verif.Prot.Protect

/-!
# Opening `EnvelopedData`

`resources/ca_kga_logic.py`: `validate_enveloped_data`, `validate_pwri_enveloped_data`, `validate_kemri_enveloped_data`,
`extract_content_encryption_key`, the checks of the four kinds of recipients (password, key transport, key agreement, KEM),
and `validate_encrypted_content_info`; `cryptoutils.py`: `compute_aes_cbc`, `perform_static_dh`,
`perform_one_pass_mqv`.

A message, its protection and its algorithm identifiers are those of `Verif.Prot`. Parameters (`KEnv`): key wrap, the block
cipher of CBC, RSA, the exchange of two EC keys, decapsulation, the fields of certificates, and DER. A field that a
structure in memory may lack is an `Option`. The distinguished names are their encodings, as the code compares these.

Not modelled: arguments given as strings instead of integers; logging.
-/

namespace Verif.Env

open Verif.CA Verif.Prot

/-- `rfc5652.RecipientIdentifier`. -/
inductive Rid where
  | iss (issuer : Bytes) (serial : Int)
  | ski (b : Bytes)
  deriving DecidableEq, Repr

/-- `rfc5652.OriginatorIdentifierOrKey`. -/
inductive Orig where
  | iss (issuer : Bytes) (serial : Int)
  | ski (b : Bytes)
  | key (b : Bytes)
  deriving DecidableEq, Repr

/-- `rfc5652.KeyAgreeRecipientIdentifier`. -/
inductive KaRid where
  | iss (issuer : Bytes) (serial : Int)
  | rKey (b : Bytes)
  deriving DecidableEq, Repr

/-- An algorithm identifier whose parameters are absent or bytes. -/
structure RawAlg where
  oid : Oid
  par : Option Bytes
  deriving DecidableEq, Repr

/-- `rfc5652.PasswordRecipientInfo`. -/
structure Pwri where
  version : Option Int
  kdf : Option (Oid × KdfPar)
  wrap : Option RawAlg
  encKey : Option Bytes
  deriving DecidableEq, Repr

/-- `rfc5652.KeyTransRecipientInfo`. -/
structure Ktri where
  version : Option Int
  rid : Option Rid
  alg : Option RawAlg
  encKey : Option Bytes
  deriving DecidableEq, Repr

/-- `rfc5652.KeyAgreeRecipientInfo`; the recipients are pairs of an identifier and an encrypted key. -/
structure Kari where
  version : Option Int
  orig : Option Orig
  ukm : Option Bytes
  alg : Option RawAlg
  keys : Option (List (KaRid × Bytes))
  deriving DecidableEq, Repr

/-- `rfc9629.KEMRecipientInfo`. -/
structure Kemri where
  version : Option Int
  rid : Option Rid
  kem : Option Oid
  kemct : Option Bytes
  kdf : Option (Oid × KdfPar)
  kekLen : Option Int
  ukm : Option Bytes
  wrap : Option RawAlg
  encKey : Option Bytes
  deriving DecidableEq, Repr

/-- `oriValue`: the structure or bytes. -/
inductive OriVal where
  | obj (k : Kemri)
  | raw (b : Bytes)
  deriving DecidableEq, Repr

/-- `rfc5652.RecipientInfo`. -/
inductive Ri where
  | ktri (k : Ktri)
  | kari (k : Kari)
  | kekri
  | pwri (p : Pwri)
  | ori (type : Oid) (val : OriVal)
  deriving DecidableEq, Repr

/-- `getName` of a recipient. -/
def Ri.name : Ri → String
  | .ktri _ => "ktri"
  | .kari _ => "kari"
  | .kekri => "kekri"
  | .pwri _ => "pwri"
  | .ori _ _ => "ori"

/-- `rfc5652.EncryptedContentInfo`. -/
structure EncInfo where
  ctype : Oid
  alg : RawAlg
  content : Option Bytes
  deriving DecidableEq, Repr

/-- `rfc9480.EnvelopedData`. -/
structure EnvData where
  version : Int
  infos : List Ri
  enc : EncInfo
  deriving DecidableEq, Repr

/-- `rfc4055.RSAES_OAEP_params`: hash, mask generation function with encoded parameters, label. -/
structure Oaep where
  hash : Option Oid
  mgf : Option (Oid × Option Bytes)
  label : Option Bytes
  deriving DecidableEq, Repr

/-- The padding of RSA encryption: PKCS #1 v1.5, or OAEP with a hash and the hash of the mask generation. -/
inductive RsaPad where
  | pkcs1
  | oaep (hash mgf : String)
  deriving DecidableEq, Repr

/-- The external functions. -/
structure KEnv (S K C : Type) extends Prot.Env S K C where
  pubOf : S → K
  /-- The extension `subjectKeyIdentifier`. -/
  skiOf : C → Option Bytes
  issuerOf : C → Bytes
  serialOf : C → Int
  /-- `EllipticCurvePrivateKey`. -/
  isEc : S → Bool
  isEcPub : K → Bool
  isXPub : K → Bool
  /-- The exchange of two keys; with the cofactor? -/
  dh : S → K → Bool → Except PyErr Bytes
  /-- `compute_sender_ecdh_mqv_one_pass_exchange`: static key, ephemeral key, public key of the recipient. -/
  mqvSend : S → S → K → Except PyErr Bytes
  /-- `compute_recipient_ecdh_mqv_one_pass_exchange`: key, static and ephemeral key of the sender. -/
  mqvRecv : S → K → K → Except PyErr Bytes
  /-- AES key wrap: wrapping key, key. -/
  wrap : Bytes → Bytes → Except PyErr Bytes
  unwrap : Bytes → Bytes → Except PyErr Bytes
  /-- AES in CBC mode without padding: key, IV, data. -/
  cbcEnc : Bytes → Bytes → Bytes → Except PyErr Bytes
  cbcDec : Bytes → Bytes → Bytes → Except PyErr Bytes
  /-- Key, padding, random value, data. -/
  rsaEnc : K → RsaPad → Bytes → Bytes → Except PyErr Bytes
  rsaDec : S → RsaPad → Bytes → Except PyErr Bytes
  /-- `RSADecapKey.decaps` with RSA-KEM: key, ciphertext, length. -/
  decapsRsa : S → Bytes → Int → Except PyErr Bytes
  /-- `RSAPrivateKey` or `RSADecapKey`. -/
  isRsaDecap : S → Bool
  /-- `get_kem_oid_from_key`. -/
  kemOidE : S → Except PyErr Oid
  kemOidPubE : K → Except PyErr Oid
  /-- `KEM_OID_2_NAME`. -/
  isKemOid : Oid → Bool
  encIv : Bytes → Bytes
  decIv : Bytes → Option (Bytes × Bytes)
  encWrapAlg : Oid → Bytes
  decWrapAlg : Bytes → Option (Oid × Bytes)
  encOaep : Oaep → Bytes
  decOaep : Bytes → Option (Oaep × Bytes)
  encOid : Oid → Bytes
  decOid : Bytes → Option (Oid × Bytes)
  /-- An algorithm identifier without parameters. -/
  encHashAlg : Oid → Bytes
  /-- `ECC_CMS_SharedInfo`: key wrap algorithm, user keying material, length. -/
  encShared : Oid → Option Bytes → Nat → Bytes
  /-- `CMSORIforKEMOtherInfo`: key wrap algorithm, length, user keying material. -/
  encOther : RawAlg → Int → Option Bytes → Bytes
  encKemri : Kemri → Bytes
  decKemri : Bytes → Option (Kemri × Bytes)
  /-- `MQVuserKeyingMaterial`: ephemeral key, added user keying material. -/
  encMqv : K → Option Bytes → Bytes
  /-- The algorithm of the ephemeral key, the key or the error of loading it, and the added user keying material. -/
  decMqv : Bytes → Option ((Oid × Except PyErr K × Option Bytes) × Bytes)

variable {S K C : Type}

/-! ## OIDs -/

/-- `rfc9481.id_aes128_wrap`, `id_aes192_wrap`, `id_aes256_wrap` (`oidutils.py` 451-455 and 662-672) with the length of
the key. -/
def wrapLens : List (Oid × Nat) :=
  [([2, 16, 840, 1, 101, 3, 4, 1, 5], 16), ([2, 16, 840, 1, 101, 3, 4, 1, 25], 24),
   ([2, 16, 840, 1, 101, 3, 4, 1, 45], 32)]

/-- `oidutils.py` 274-278, `PROT_SYM_ALG`, with the length of the key. -/
def cbcLens : List (Oid × Nat) :=
  [([2, 16, 840, 1, 101, 3, 4, 1, 2], 16), ([2, 16, 840, 1, 101, 3, 4, 1, 22], 24),
   ([2, 16, 840, 1, 101, 3, 4, 1, 42], 32)]

/-- Reading a table of lengths. -/
def lenOf : List (Oid × Nat) → Oid → Option Nat
  | [], _ => none
  | (a, n) :: l, o => if a = o then some n else lenOf l o

/-- `rfc5652.id_data`. -/
def dataOid : Oid := [1, 2, 840, 113549, 1, 7, 1]
/-- `rfc5652.id_signedData`. -/
def signedDataOid : Oid := [1, 2, 840, 113549, 1, 7, 2]
/-- `rfc9481.rsaEncryption`. -/
def rsaEncOid : Oid := [1, 2, 840, 113549, 1, 1, 1]
/-- `rfc9481.id_RSAES_OAEP`. -/
def oaepOid : Oid := [1, 2, 840, 113549, 1, 1, 7]
/-- `rfc9629.id_ori_kem`. -/
def oriKemOid : Oid := [1, 2, 840, 113549, 1, 9, 16, 13, 3]
/-- `rfc5753.id_ecPublicKey`. -/
def ecOid : Oid := [1, 2, 840, 10045, 2, 1]
/-- `rfc9481.id_alg_ESDH`. -/
def esdhOid : Oid := [1, 2, 840, 113549, 1, 9, 16, 3, 5]
/-- `rfc9481.id_X25519`. -/
def x25519Oid : Oid := [1, 3, 101, 110]
/-- `rfc9481.id_X448`. -/
def x448Oid : Oid := [1, 3, 101, 111]

/-- `oidutils.py` 366-373, the ECDH part of `KM_KA_ALG`: with the cofactor?, hash. -/
def ecdhAlgs : List (Oid × Bool × String) :=
  [([1, 3, 132, 1, 11, 0], false, "sha224"), ([1, 3, 132, 1, 11, 1], false, "sha256"),
   ([1, 3, 132, 1, 11, 2], false, "sha384"), ([1, 3, 132, 1, 11, 3], false, "sha512"),
   ([1, 3, 132, 1, 14, 0], true, "sha224"), ([1, 3, 132, 1, 14, 1], true, "sha256"),
   ([1, 3, 132, 1, 14, 2], true, "sha384"), ([1, 3, 132, 1, 14, 3], true, "sha512")]

/-- `oidutils.py` 380-385, `ECMQV`. -/
def mqvAlgs : List (Oid × String) :=
  [([1, 3, 132, 1, 15, 0], "sha224"), ([1, 3, 132, 1, 15, 1], "sha256"), ([1, 3, 132, 1, 15, 2], "sha384"),
   ([1, 3, 132, 1, 15, 3], "sha512")]

/-- Reading the table of ECDH. -/
def ecdhOf : List (Oid × Bool × String) → Oid → Option (Bool × String)
  | [], _ => none
  | (a, x) :: l, o => if a = o then some x else ecdhOf l o

/-- `oidutils.py` 363-378 and 447: membership in `KM_KA_ALG`. -/
def isKaAlg (o : Oid) : Bool :=
  decide (o = esdhOid) || decide (o = x25519Oid) || decide (o = x448Oid) || (ecdhOf ecdhAlgs o).isSome ||
    (look mqvAlgs o).isSome

/-! ## AES-CBC -/

/-- PKCS #7 padding to blocks of 16 bytes. -/
def pad (b : Bytes) : Bytes := b ++ List.replicate (16 - b.length % 16) (UInt8.ofNat (16 - b.length % 16))

/-- Removing the padding. -/
def unpad (b : Bytes) : Except PyErr Bytes :=
  match b.getLast? with
  | none => .error .valueError
  | some n =>
    if b.length % 16 = 0 ∧ 0 < n.toNat ∧ n.toNat ≤ 16 ∧
        b.drop (b.length - n.toNat) = List.replicate n.toNat n then .ok (b.take (b.length - n.toNat))
    else .error .valueError

/-- `cryptoutils.py` 435-464, `compute_aes_cbc` with `decrypt=False`. -/
def aesEnc (env : KEnv S K C) (key iv data : Bytes) : Except PyErr Bytes :=
  if iv.length ≠ 16 then .error .valueError else env.cbcEnc key iv (pad data)

/-- `cryptoutils.py` 435-464, `compute_aes_cbc` with `decrypt=True`. -/
def aesDec (env : KEnv S K C) (key iv data : Bytes) : Except PyErr Bytes :=
  if iv.length ≠ 16 then .error .valueError
  else
    match env.cbcDec key iv data with
    | .error e => .error e
    | .ok p => unpad p

/-- `ca_kga_logic.py` 1076-1099: the IV, the length of the key and the decryption. -/
def openContent (env : KEnv S K C) (len : Nat) (par : Bytes) (content : Option Bytes) (cek : Bytes) :
    Except PyErr Bytes :=
  match env.decIv par with
  | none => .error .badAsn1Data
  | some (iv, rest) =>
    if rest ≠ [] then .error .badAsn1Data
    else
      match content with
      | none => .error .pyasn1Error
      | some c => if cek.length ≠ len then .error .valueError else aesDec env cek iv c

/-- `ca_kga_logic.py` 1048-1101, `validate_encrypted_content_info`. -/
def openInfo (env : KEnv S K C) (x : EncInfo) (cek : Bytes) (raw : Bool) : Except PyErr Bytes :=
  if x.ctype ≠ (if raw then dataOid else signedDataOid) then .error .valueError
  else
    match lenOf cbcLens x.alg.oid with
    | none => .error .badAlg
    | some len =>
      match x.alg.par with
      | none => .error .badAsn1Data
      | some par => openContent env len par x.content cek

/-! ## Identifiers -/

/-- `ca_kga_logic.py` 1860-1882, `validate_issuer_and_serial_number_field`. -/
def issSer (env : KEnv S K C) (issuer : Bytes) (serial : Int) (c : C) : Except PyErr Unit :=
  if issuer ≠ env.issuerOf c then .error .valueError
  else if serial ≠ env.serialOf c then .error .valueError
  else .ok ()

/-- The same for an identifier of the other choice: reading the field `issuerAndSerialNumber` creates an empty one, whose
name is encoded as an empty sequence and whose number has no value. -/
def issOther (env : KEnv S K C) (c : C) : Except PyErr Unit :=
  if env.issuerOf c = [48, 0] then .error .pyasn1Error else .error .valueError

/-- `ca_kga_logic.py` 1968-1999, `_check_recipient_identifier`, and 2003-2023, `validate_recip_identifier`. -/
def checkRid (env : KEnv S K C) (r : Rid) (c : C) : Except PyErr Unit :=
  match env.skiOf c, r with
  | some k, .ski b => if k ≠ b then .error .valueError else .ok ()
  | some _, .iss _ _ => .error .valueError
  | none, .iss i s => issSer env i s c
  | none, .ski _ => issOther env c

/-- `ca_kga_logic.py` 1820-1856, `validate_originator_in_kari`. -/
def checkOrig (env : KEnv S K C) (o : Orig) (c : C) : Except PyErr Unit :=
  match env.skiOf c, o with
  | some k, .ski b => if k ≠ b then .error .valueError else .ok ()
  | some _, _ => .error .valueError
  | none, .iss i s => issSer env i s c
  | none, _ => .error .valueError

/-- `ca_kga_logic.py` 1782-1813: the identifier in `check_recip_enc_key`. -/
def checkKaRid (env : KEnv S K C) (r : KaRid) (c : C) : Except PyErr Unit :=
  match env.skiOf c, r with
  | some k, .rKey b => if b ≠ k then .error .valueError else .ok ()
  | some _, .iss _ _ => .error .valueError
  | none, .iss i s => issSer env i s c
  | none, .rKey _ => .error .valueError

/-! ## Password recipients -/

/-- `protectionutils.py` 2037-2038: the salt in parameters that are a structure. -/
def saltObj : KdfPar → Except PyErr Bytes
  | .pbkdf2 p =>
    match p.salt with
    | none => .error .pyasn1Error
    | some s => .ok s
  | .raw _ => .error .typeError
  | .hash _ => .error .keyError
  | .absent => .error .pyasn1Error

/-- `protectionutils.py` 2030-2036: the salt in encoded parameters. -/
def saltDer (env : MacEnv) (p : Pbmac1) : Except PyErr Bytes :=
  match getPbkdf2 env true p.kdfPar with
  | .error e => .error e
  | .ok q =>
    match q.salt with
    | none => .error .valueError
    | some s => .ok s

/-- `protectionutils.py` 1999-2051, `get_cmp_protection_salt`. -/
def protSalt (env : MacEnv) (a : AlgId) : Except PyErr Bytes :=
  if a.oid = pbmac1Oid then
    match a.par with
    | .pbmac1 p => saltObj p.kdfPar
    | par =>
      match getPbmac1 env true par with
      | .error e => .error e
      | .ok p => saltDer env p
  else if a.oid = pbmOid then
    match getPbm env true a.par with
    | .error e => .error e
    | .ok p => .ok p.salt
  else .error .notImplemented

/-- `encoder.encode` of the parameters of a key derivation function. -/
def kdfParDer (env : KEnv S K C) : KdfPar → Option Bytes
  | .absent => none
  | .pbkdf2 p => some (env.encPbkdf2 p)
  | .hash o => some (env.encHashAlg o)
  | .raw b => some b

/-- `ca_kga_logic.py` 1605-1622: the parameters of the key derivation. -/
def pwriParams (wrap : RawAlg) (len : Nat) (salt : Bytes) (q : Pbkdf2) : Except PyErr Unit :=
  if wrap.par.isSome then .error .valueError
  else
    match q.salt with
    | none => .error .notImplemented
    | some s =>
      if s = salt then .error .valueError
      else
        match q.keyLen with
        | none => .error .pyasn1Error
        | some n => if n ≠ (len : Int) then .error .valueError else .ok ()

/-- `ca_kga_logic.py` 1596-1622. -/
def pwriTail (env : KEnv S K C) (p : Pwri) (kdfPar : KdfPar) (wrap : RawAlg) (len : Nat) (salt : Bytes) :
    Except PyErr (Pbkdf2 × Bytes) :=
  match p.encKey with
  | none => .error .valueError
  | some ek =>
    match kdfParDer env kdfPar with
    | none => .error .pyasn1Error
    | some der =>
      match env.decPbkdf2 der with
      | none => .error .pyasn1Error
      | some (q, rest) =>
        if rest ≠ [] then .error .valueError
        else
          match pwriParams wrap len salt q with
          | .error e => .error e
          | .ok () => .ok (q, ek)

/-- `ca_kga_logic.py` 1552-1622, `validate_password_recipient_info`, with 1625-1637. -/
def checkPwri (env : KEnv S K C) (p : Pwri) (salt : Bytes) : Except PyErr (Pbkdf2 × Bytes) :=
  match p.version with
  | none => .error .valueError
  | some v =>
    if v ≠ 3 then .error .valueError
    else
      match p.kdf with
      | none => .error .valueError
      | some (o, par) =>
        if o ≠ pbkdf2Oid then .error .valueError
        else
          match p.wrap with
          | none => .error .valueError
          | some w =>
            match lenOf wrapLens w.oid with
            | none => .error .valueError
            | some len => pwriTail env p par w len salt

/-- `ca_kga_logic.py` 1640-1653, `_compute_password_based_key_management_technique`. -/
def pwriKey (env : KEnv S K C) (pw : Bytes) (q : Pbkdf2) (ek : Bytes) : Except PyErr Bytes :=
  match pbkdf2Of env.toMacEnv q pw with
  | .error e => .error e
  | .ok k => env.unwrap k ek

/-- `ca_kga_logic.py` 400-411: the salt of the protection, which the other salt must not equal. -/
def cmpSalt (env : KEnv S K C) (m : Option (Msg C)) (salt : Option Bytes) : Except PyErr Bytes :=
  match salt, m with
  | some s, _ => .ok s
  | none, none => .error .valueError
  | none, some m =>
    match m.hdr.alg with
    | none => .error .valueError
    | some a => protSalt env.toMacEnv a

/-- `ca_kga_logic.py` 376-417, `_extract_pwri_content_enc_key`, for a password recipient. -/
def pwriCek (env : KEnv S K C) (m : Option (Msg C)) (pw : Bytes) (p : Pwri) (salt : Option Bytes) :
    Except PyErr Bytes :=
  match cmpSalt env m salt with
  | .error e => .error e
  | .ok s =>
    match checkPwri env p s with
    | .error e => .error e
    | .ok (q, ek) => pwriKey env pw q ek

/-! ## Key transport -/

/-- `compareutils.py` 584-598, `check_if_alg_id_parameters_is_absent`, on decoded parameters: `NULL` always counts as
absent. -/
def parAbsent (par : Option Bytes) : Bool :=
  match par with
  | none => true
  | some b => decide (b = [5, 0])

/-- `protectionutils.py` 2407-2408 and 2415: a hash by its OID. -/
def oaepHash (env : KEnv S K C) (o : Oid) : Except PyErr String :=
  match hashOfOid env.toMacEnv o false with
  | .error e => .error e
  | .ok none => .error .valueError
  | .ok (some h) => hashInst h

/-- `protectionutils.py` 2398-2420, `get_rsa_oaep_padding`. The parameters of the mask generation function are decoded as
an OID. -/
def oaepPad (env : KEnv S K C) (p : Oaep) : Except PyErr RsaPad :=
  match p.hash with
  | none => .error .pyasn1Error
  | some ho =>
    match oaepHash env ho with
    | .error e => .error e
    | .ok h =>
      match p.mgf with
      | some (_, some b) =>
        match env.decOid b with
        | none => .error .pyasn1Error
        | some (o, rest) =>
          if rest ≠ [] then .error .badAsn1Data
          else
            match oaepHash env o with
            | .error e => .error e
            | .ok g => if p.label.isSome then .error .notImplemented else .ok (.oaep h g)
      | _ => .error .pyasn1Error

/-- `ca_kga_logic.py` 1945-1963: the padding. -/
def rsaPadOf (env : KEnv S K C) (a : RawAlg) : Except PyErr RsaPad :=
  if a.oid = rsaEncOid then if parAbsent a.par then .ok .pkcs1 else .error .valueError
  else if a.oid = oaepOid then
    match a.par with
    | none => .error .pyasn1Error
    | some b =>
      match env.decOaep b with
      | none => .error .pyasn1Error
      | some (p, rest) => if rest ≠ [] then .error .valueError else oaepPad env p
  else .error .valueError

/-- `ca_kga_logic.py` 1905-1910. -/
def ktriRid (env : KEnv S K C) (r : Option Rid) (c : Option C) (pop : Bool) : Except PyErr Unit :=
  if pop then .ok ()
  else
    match c with
    | none => .error .valueError
    | some c =>
      match r with
      | none => .error .valueError
      | some r => checkRid env r c

/-- `ca_kga_logic.py` 1886-1925, `validate_key_trans_recipient_info`. -/
def checkKtri (env : KEnv S K C) (k : Ktri) (c : Option C) (pop : Bool) : Except PyErr (Bytes × RawAlg) :=
  match k.version with
  | none => .error .pyasn1Error
  | some v =>
    if v ≠ 2 then .error .valueError
    else
      match ktriRid env k.rid c pop with
      | .error e => .error e
      | .ok () =>
        match k.alg with
        | none => .error .valueError
        | some a =>
          if a.oid ≠ rsaEncOid ∧ a.oid ≠ oaepOid then .error .valueError
          else
            match k.encKey with
            | none => .error .valueError
            | some ek => .ok (ek, a)

/-- `ca_kga_logic.py` 479-490 and 1929-1965: the key of a key transport recipient. -/
def ktriCek (env : KEnv S K C) (k : Ktri) (c : Option C) (s : S) (pop : Bool) : Except PyErr Bytes :=
  match checkKtri env k c pop with
  | .error e => .error e
  | .ok (ek, a) =>
    if env.isRsa s then
      match rsaPadOf env a with
      | .error e => .error e
      | .ok p => env.rsaDec s p ek
    else .error .valueError

/-! ## Key agreement -/

/-- `cryptoutils.py` 503-556, `perform_ecdh`, with a key. -/
def ecdhOn (env : KEnv S K C) (s : S) (k : K) (co : Bool) : Except PyErr Bytes :=
  if co = true ∧ env.isX s = true then .error .notImplemented else env.dh s k co

/-- `cryptoutils.py` 900-927, `derive_shared_secret_ec`: the key derivation of RFC 5753. -/
def kariKdf (env : KEnv S K C) (wrapOid : Oid) (h : String) (ukm : Option Bytes) (z : Bytes) : Except PyErr Bytes :=
  match lenOf wrapLens wrapOid with
  | none => .error .keyError
  | some len => x963 env.toMacEnv h true z (env.encShared wrapOid ukm (8 * len)) len

/-- `cryptoutils.py` 931-971, `perform_static_dh`, with a key. -/
def staticDh (env : KEnv S K C) (s : S) (k : K) (h : String) (wrapOid : Oid) (ukm : Option Bytes) (co : Bool) :
    Except PyErr Bytes :=
  if (lenOf wrapLens wrapOid).isNone then .error .keyError
  else
    match ecdhOn env s k co with
    | .error e => .error e
    | .ok z => kariKdf env wrapOid h ukm z

/-- `cryptoutils.py` 519-525: the key in a certificate. -/
def ecdhCertKey (env : KEnv S K C) (c : C) : Except PyErr K :=
  match env.keyOf c with
  | .error e => .error e
  | .ok k => if env.isEcdhPub k then .ok k else .error .valueError

/-- `cryptoutils.py` 931-971, `perform_static_dh`, with a certificate. -/
def staticDhCert (env : KEnv S K C) (s : S) (c : C) (h : String) (wrapOid : Oid) (ukm : Option Bytes) (co : Bool) :
    Except PyErr Bytes :=
  if (lenOf wrapLens wrapOid).isNone then .error .keyError
  else
    match ecdhCertKey env c with
    | .error e => .error e
    | .ok k => staticDh env s k h wrapOid ukm co

/-- `cryptoutils.py` 1047-1085, `perform_one_pass_mqv`. -/
def mqvOne (env : KEnv S K C) (s : S) (c : C) (eph : K) (wrapOid : Oid) (h : String) (ukm : Option Bytes) :
    Except PyErr Bytes :=
  match env.keyOf c with
  | .error e => .error e
  | .ok k =>
    if env.isEcPub k then
      match env.mqvRecv s k eph with
      | .error e => .error e
      | .ok z => kariKdf env wrapOid h ukm z
    else .error .typeError

/-- `ca_kga_logic.py` 84-130, `process_mqv`. -/
def processMqv (env : KEnv S K C) (der : Option Bytes) (s : S) (h : String) (wrapOid : Oid) (c : C) :
    Except PyErr Bytes :=
  match der with
  | none => .error .badAsn1Data
  | some b =>
    match env.decMqv b with
    | none => .error .pyasn1Error
    | some ((o, k, ukm), rest) =>
      if rest ≠ [] then .error .valueError
      else if o ≠ ecOid then .error .valueError
      else
        match k with
        | .error e => .error e
        | .ok k => if env.isEcPub k then mqvOne env s c k wrapOid h ukm else .error .valueError

/-- `ca_kga_logic.py` 161-209: by the algorithm. -/
def kariBy (env : KEnv S K C) (o : Oid) (wrapOid : Oid) (s : S) (c : C) (ukm : Option Bytes) : Except PyErr Bytes :=
  match look mqvAlgs o with
  | some h => if env.isEc s then processMqv env ukm s h wrapOid c else .error .valueError
  | none =>
    if o = x25519Oid ∨ o = x448Oid ∨ o = esdhOid then staticDhCert env s c "sha256" wrapOid ukm false
    else
      match ecdhOf ecdhAlgs o with
      | some (co, h) => staticDhCert env s c h wrapOid ukm co
      | none => .error .valueError

/-- `ca_kga_logic.py` 134-209, `process_kari`. -/
def processKari (env : KEnv S K C) (a : RawAlg) (s : S) (c : C) (ukm : Option Bytes) : Except PyErr Bytes :=
  match a.par with
  | none => .error .pyasn1Error
  | some b =>
    match env.decWrapAlg b with
    | none => .error .badAsn1Data
    | some (w, rest) => if rest ≠ [] then .error .badAsn1Data else kariBy env a.oid w s c ukm

/-- `ca_kga_logic.py` 1782-1816: the identifier of the recipient and the encrypted key. -/
def recipKey (env : KEnv S K C) (x : KaRid × Bytes) (c : Option C) (pop : Bool) : Except PyErr Bytes :=
  if pop then .ok x.2
  else
    match c with
    | none => .error .valueError
    | some c =>
      match checkKaRid env x.1 c with
      | .error e => .error e
      | .ok () => .ok x.2

/-- `ca_kga_logic.py` 1704-1706. -/
def kariOrig (env : KEnv S K C) (o : Orig) (c : Option C) (pop : Bool) : Except PyErr Unit :=
  if pop then .ok ()
  else
    match c with
    | none => .error .valueError
    | some c => checkOrig env o c

/-- `ca_kga_logic.py` 1718-1736. -/
def kariKeys (env : KEnv S K C) (k : Kari) (a : RawAlg) (c : Option C) (pop : Bool) :
    Except PyErr (Bytes × RawAlg × Option Bytes) :=
  if k.ukm.isNone = true ∧ (look mqvAlgs a.oid).isSome = true then .error .valueError
  else
    match k.keys with
    | none => .error .valueError
    | some [x] =>
      match recipKey env x c pop with
      | .error e => .error e
      | .ok ek => .ok (ek, a, k.ukm)
    | some _ => .error .valueError

/-- `ca_kga_logic.py` 1672-1736, `validate_key_agree_recipient_info`. -/
def checkKari (env : KEnv S K C) (k : Kari) (c : Option C) (pop : Bool) :
    Except PyErr (Bytes × RawAlg × Option Bytes) :=
  if pop = false ∧ c.isNone = true then .error .valueError
  else
    match k.version with
    | none => .error .valueError
    | some v =>
      if v ≠ 3 then .error .valueError
      else
        match k.orig with
        | none => .error .valueError
        | some o =>
          match kariOrig env o c pop with
          | .error e => .error e
          | .ok () =>
            match k.alg with
            | none => .error .valueError
            | some a => if isKaAlg a.oid then kariKeys env k a c pop else .error .valueError

/-- `kari_cert or cmp_protection_cert`. -/
def kariCertOr (kariCert c : Option C) : Option C :=
  match kariCert with
  | some x => some x
  | none => c

/-- `ca_kga_logic.py` 420-455, `_extract_kari_content_enc_key`, and 1740-1764. -/
def kariCek (env : KEnv S K C) (k : Kari) (c : Option C) (s : S) (pop : Bool) (kariCert : Option C) :
    Except PyErr Bytes :=
  if env.isEcdh s = false then .error .valueError
  else
    match checkKari env k c pop with
    | .error e => .error e
    | .ok (ek, a, ukm) =>
      match kariCertOr kariCert c with
      | none => .error .valueError
      | some kc =>
        match processKari env a s kc ukm with
        | .error e => .error e
        | .ok kek => env.unwrap kek ek

/-! ## KEM recipients -/

/-- `ca_kga_logic.py` 2053-2059: the OID of the private key. -/
def kemOidOk (env : KEnv S K C) (o : Oid) (s : Option S) (sun : Bool) : Except PyErr Unit :=
  match s with
  | none => .ok ()
  | some s =>
    if sun then .ok ()
    else
      match env.kemOidE s with
      | .error e => .error e
      | .ok ko => if ko ≠ o then .error .valueError else .ok ()

/-- `ca_kga_logic.py` 2026-2061, `_validate_kem_and_kemct`. -/
def checkKem (env : KEnv S K C) (k : Kemri) (s : Option S) (sun : Bool) : Except PyErr Bytes :=
  match k.kem with
  | none => .error .valueError
  | some o =>
    if env.isKemOid o = false then .error .badAlg
    else
      match k.kemct with
      | none => .error .valueError
      | some ct =>
        match kemOidOk env o s sun with
        | .error e => .error e
        | .ok () => .ok ct

/-- `ca_kga_logic.py` 2064-2096, `_validate_kemri_wrap_and_kek`. -/
def checkWrap (k : Kemri) : Except PyErr (RawAlg × Int) :=
  match k.wrap with
  | none => .error .valueError
  | some w =>
    match k.kekLen with
    | none => .error .valueError
    | some n =>
      match lenOf wrapLens w.oid with
      | none => .error .valueError
      | some len => if n ≠ (len : Int) then .error .valueError else .ok (w, n)

/-- `oidutils.py` 493-496, membership in `KDF_OID_2_NAME`. -/
def isKdfOid (o : Oid) : Bool :=
  decide (o = pbkdf2Oid) || (look hkdfNames o).isSome || decide (o = kdf2Oid) || decide (o = kdf3Oid)

/-- What `validate_kem_recip_info_structure` returns. -/
structure KemParts where
  ct : Bytes
  kdf : Oid
  kdfPar : KdfPar
  wrap : RawAlg
  len : Int
  encKey : Bytes
  ukm : Option Bytes
  deriving DecidableEq, Repr

/-- `ca_kga_logic.py` 2143-2153: the identifier of the recipient. -/
def kemRid (env : KEnv S K C) (r : Option Rid) (c : Option C) (pop : Bool) : Except PyErr Unit :=
  match r with
  | none => .error .valueError
  | some r =>
    if pop then .ok ()
    else
      match c with
      | none => .error .valueError
      | some c => checkRid env r c

/-- `ca_kga_logic.py` 2157-2182. -/
def kemTail (k : Kemri) (ct : Bytes) : Except PyErr KemParts :=
  match k.kdf with
  | none => .error .valueError
  | some (o, par) =>
    if isKdfOid o = false then .error .valueError
    else
      match checkWrap k with
      | .error e => .error e
      | .ok (w, n) =>
        match k.encKey with
        | none => .error .valueError
        | some ek => .ok ⟨ct, o, par, w, n, ek, k.ukm⟩

/-- `ca_kga_logic.py` 2100-2182, `validate_kem_recip_info_structure`. -/
def checkKemri (env : KEnv S K C) (k : Kemri) (c : Option C) (s : Option S) (pop sun : Bool) :
    Except PyErr KemParts :=
  if k.version ≠ some 0 then .error .valueError
  else
    match kemRid env k.rid c pop with
    | .error e => .error e
    | .ok () =>
      match checkKem env k s sun with
      | .error e => .error e
      | .ok ct => kemTail k ct

/-- `ca_kga_logic.py` 2245-2254: the shared secret. -/
def kemShared (env : KEnv S K C) (s : Option S) (p : KemParts) : Except PyErr Bytes :=
  match s with
  | none => .error .attributeError
  | some s => if env.isRsaDecap s then env.decapsRsa s p.ct p.len else env.decaps s .plain p.ct

/-- `ca_kga_logic.py` 2210-2269, `process_kem_recip_info`. -/
def kemCek (env : KEnv S K C) (k : Kemri) (c : Option C) (s : Option S) (pop sun : Bool) : Except PyErr Bytes :=
  if pop = false ∧ c.isNone = true then .error .valueError
  else
    match checkKemri env k c s pop sun with
    | .error e => .error e
    | .ok p =>
      match kemShared env s p with
      | .error e => .error e
      | .ok ss =>
        match kdfOf env.toEnv p.kdf p.kdfPar ss (env.encOther p.wrap p.len p.ukm) p.len with
        | .error e => .error e
        | .ok kek => env.unwrap kek p.encKey

/-- `ca_kga_logic.py` 692-695 and 537-539: decoding the structure. -/
def decodeKemri (env : KEnv S K C) (b : Bytes) : Except PyErr Kemri :=
  match env.decKemri b with
  | none => .error .pyasn1Error
  | some (k, rest) => if rest ≠ [] then .error .badAsn1Data else .ok k

/-- `ca_kga_logic.py` 672-695, `_decode_kem_recip_info`, on an `OtherRecipientInfo`. -/
def decodeOri (env : KEnv S K C) (t : Oid) (v : OriVal) : Except PyErr Kemri :=
  if t ≠ oriKemOid then .error .valueError
  else
    match v with
    | .obj k => .ok k
    | .raw b => decodeKemri env b

/-- `ca_kga_logic.py` 515-544, `process_other_recip_info`. -/
def oriCek (env : KEnv S K C) (t : Oid) (v : OriVal) (c : Option C) (s : Option S) (pop : Bool) : Except PyErr Bytes :=
  if t ≠ oriKemOid then .error .valueError
  else
    match v with
    | .obj _ => .error .attributeError
    | .raw b =>
      match decodeKemri env b with
      | .error e => .error e
      | .ok k => kemCek env k c s pop false

/-! ## The recipient -/

/-- Indexing a `SetOf`; a negative index counts from the end. -/
def pick {α : Type} (l : List α) (i : Int) : Except PyErr α :=
  match l[(if i < 0 then i + l.length else i).toNat]? with
  | some x => if i < 0 ∧ i + l.length < 0 then .error .indexError else .ok x
  | none => .error .indexError

/-- `ca_kga_logic.py` 774-796, `_validate_recip_info_size`, without the type. -/
def sized (e : EnvData) (size idx : Int) : Except PyErr Ri :=
  if (e.infos.length : Int) ≠ size then .error .valueError
  else if e.infos = [] ∨ (e.infos.length : Int) ≤ idx then .error .valueError
  else pick e.infos idx

/-- `ca_kga_logic.py` 774-796, `_validate_recip_info_size`. -/
def recipOf (e : EnvData) (size idx : Int) (type : Option String) : Except PyErr Ri :=
  match sized e size idx with
  | .error x => .error x
  | .ok r =>
    match type with
    | none => .ok r
    | some t => if r.name ≠ t then .error .valueError else .ok r

/-- The arguments of `validate_enveloped_data` besides the data. `rnd` is the random value for an empty salt when the
protection is verified. -/
structure OpenArgs (S C : Type) where
  msg : Option (Msg C) := none
  pw : Option Bytes := none
  cert : Option C := none
  kariCert : Option C := none
  type : Option String := none
  idx : Int := 0
  size : Int := 1
  key : Option S := none
  raw : Bool := false
  pop : Bool := false
  salt : Option Bytes := none
  rnd : Bytes := []

/-- `ca_kga_logic.py` 556-572: the second certificate. -/
def secondKari (env : KEnv S K C) : List C → Except PyErr C
  | [] => .error .valueError
  | c :: _ =>
    match env.keyOf c with
    | .error e => .error e
    | .ok k => if env.isXPub k then .ok c else .error .valueError

/-- `ca_kga_logic.py` 547-572, `_get_kari_cert`. A missing second certificate is created by reading it and has no
value. -/
def findKariCert (env : KEnv S K C) (m : Msg C) : Except PyErr C :=
  match m.certs with
  | [] => .error .valueError
  | c :: cs =>
    match env.keyOf c with
    | .error e => .error e
    | .ok k => if env.isXPub k then .ok c else secondKari env cs

/-- `ca_kga_logic.py` 647-654: the certificate for the key agreement. -/
def kariCertFor (env : KEnv S K C) (a : OpenArgs S C) (s : S) : Except PyErr (Option C) :=
  if a.kariCert.isNone = true ∧ env.isX s = true then
    match a.msg with
    | none => .error .valueError
    | some m => (findKariCert env m).map some
  else .ok a.kariCert

/-- `ca_kga_logic.py` 458-511, `_extract_ktri_and_kari_content_enc_key`. -/
def asymCek (env : KEnv S K C) (r : Ri) (c : Option C) (s : S) (pop : Bool) (kariCert : Option C) :
    Except PyErr Bytes :=
  match r with
  | .ktri k => ktriCek env k c s pop
  | .kari k => kariCek env k c s pop kariCert
  | _ => .error .valueError

/-- `ca_kga_logic.py` 640-663. -/
def asymExtract (env : KEnv S K C) (a : OpenArgs S C) (r : Ri) : Except PyErr Bytes :=
  if a.cert.isNone = true ∧ a.pop = false then .error .valueError
  else
    match a.key with
    | none => .error .valueError
    | some s =>
      match kariCertFor env a s with
      | .error e => .error e
      | .ok kc => asymCek env r a.cert s a.pop kc

/-- `ca_kga_logic.py` 620-669: by the kind of the recipient. -/
def extractFrom (env : KEnv S K C) (a : OpenArgs S C) (r : Ri) : Except PyErr Bytes :=
  match r with
  | .pwri p =>
    match a.pw with
    | none => .error .valueError
    | some w => pwriCek env a.msg w p a.salt
  | .ori t v => oriCek env t v a.cert a.key a.pop
  | .ktri k => asymExtract env a (.ktri k)
  | .kari k => asymExtract env a (.kari k)
  | .kekri => .error .valueError

/-- `ca_kga_logic.py` 575-669, `extract_content_encryption_key`. -/
def extractCek (env : KEnv S K C) (a : OpenArgs S C) (e : EnvData) (idx : Int) : Except PyErr Bytes :=
  match sized e a.size idx with
  | .error x => .error x
  | .ok r => extractFrom env a r

/-- `ca_kga_logic.py` 800-869, `validate_kemri_enveloped_data`. -/
def openKemri (env : KEnv S K C) (e : EnvData) (s : Option S) (c : Option C) (size idx : Int) (pop raw sun : Bool) :
    Except PyErr Bytes :=
  match recipOf e size idx (some "ori") with
  | .error x => .error x
  | .ok (.ori t v) =>
    match decodeOri env t v with
    | .error x => .error x
    | .ok k =>
      match kemCek env k c s pop sun with
      | .error x => .error x
      | .ok cek => openInfo env e.enc cek raw
  | .ok _ => .error .valueError

/-- `ca_kga_logic.py` 936-947: the protection of the message with the same password. -/
def pwriVerify (env : KEnv S K C) (rnd : Bytes) (m : Option (Msg C)) (pw : Bytes) (skip : Bool) (d : Bytes) :
    Except PyErr Bytes :=
  if skip then .ok d
  else
    match m with
    | none => .error .valueError
    | some m =>
      match verifyProt env.toEnv rnd m none (some pw) none none false with
      | .error e => .error e
      | .ok () => .ok d

/-- `ca_kga_logic.py` 873-947, `validate_pwri_enveloped_data`. -/
def openPwri (env : KEnv S K C) (rnd : Bytes) (e : EnvData) (pw : Bytes) (m : Option (Msg C)) (salt : Option Bytes)
    (size idx : Int) (raw skip : Bool) : Except PyErr Bytes :=
  if salt = none ∧ m.isNone = true then .error .valueError
  else
    match recipOf e size idx (some "pwri") with
    | .error x => .error x
    | .ok (.pwri p) =>
      match pwriCek env m pw p salt with
      | .error x => .error x
      | .ok cek =>
        match openInfo env e.enc cek raw with
        | .error x => .error x
        | .ok d => pwriVerify env rnd m pw skip d
    | .ok _ => .error .valueError

/-- `ca_kga_logic.py` 1017-1044: the general way. The index chooses the recipient whose type is compared; the key is
taken from the first recipient. -/
def openAny (env : KEnv S K C) (a : OpenArgs S C) (e : EnvData) : Except PyErr Bytes :=
  match recipOf e a.size a.idx a.type with
  | .error x => .error x
  | .ok _ =>
    match extractCek env a e 0 with
    | .error x => .error x
    | .ok cek => openInfo env e.enc cek a.raw

/-- `ca_kga_logic.py` 951-1044, `validate_enveloped_data`. -/
def openEnv (env : KEnv S K C) (a : OpenArgs S C) (e : EnvData) : Except PyErr Bytes :=
  if a.type = some "pwri" then
    match a.pw with
    | none => .error .valueError
    | some w => openPwri env a.rnd e w a.msg a.salt a.size a.idx a.raw false
  else if a.type = some "kemri" then
    match a.key with
    | none => .error .valueError
    | some s =>
      if env.isKemKey s then openKemri env e (some s) a.cert a.size a.idx a.pop a.raw false else .error .valueError
  else openAny env a e

end Verif.Env
