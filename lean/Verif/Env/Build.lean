import Verif.Env.Data

/-!
# Building `EnvelopedData`

`resources/envdatautils.py`: `prepare_enveloped_data` and the functions for the recipients: `prepare_password_recipient_info`,
`prepare_ktri`, `prepare_kari`, `prepare_kem_recip_info`, `prepare_recip_info`, `build_env_data_for_exchange`. The random
values are arguments.

Not modelled: the options for faulty identifiers (`bad_ski`, `invalid_ski`, `negative_size`, `add_another`), the options of
`prepare_kem_recip_info` for a given ciphertext or encrypted key, and tags.
-/

namespace Verif.Env

open Verif.CA Verif.Prot

variable {S K C : Type}

/-- `prepare_alg_ids.py` 284-290: the OID for the length of a key. -/
def cbcOid (len : Nat) : Oid :=
  if len = 32 then [2, 16, 840, 1, 101, 3, 4, 1, 42]
  else if len = 24 then [2, 16, 840, 1, 101, 3, 4, 1, 22]
  else [2, 16, 840, 1, 101, 3, 4, 1, 2]

/-- `envdatautils.py` 109-147, `prepare_encrypted_content_info`. `iv` is random. -/
def buildInfo (env : KEnv S K C) (cek data iv : Bytes) (oid : Option Oid) : Except PyErr EncInfo :=
  match aesEnc env cek iv data with
  | .error e => .error e
  | .ok c => .ok ⟨oid.getD signedDataOid, ⟨cbcOid cek.length, some (env.encIv iv)⟩, some c⟩

/-- `envdatautils.py` 219-264, `prepare_enveloped_data`, for encoded data. -/
def buildEnv (env : KEnv S K C) (infos : List Ri) (cek data iv : Bytes) (version : Int) (oid : Option Oid) :
    Except PyErr EnvData :=
  match buildInfo env cek data iv oid with
  | .error e => .error e
  | .ok x => .ok ⟨version, infos, x⟩

/-! ## Identifiers -/

/-- `certbuildutils.prepare_issuer_and_serial_number`. -/
def issOf (env : KEnv S K C) (c : C) : Bytes × Int := (env.issuerOf c, env.serialOf c)

/-- `envdatautils.py` 302-364, `prepare_recipient_identifier`, with a certificate or an issuer and serial number. -/
def buildRid (env : KEnv S K C) (c : Option C) (is : Option (Bytes × Int)) : Except PyErr Rid :=
  match is, c with
  | some x, _ => .ok (.iss x.1 x.2)
  | none, none => .error .valueError
  | none, some c =>
    match env.skiOf c with
    | some b => .ok (.ski b)
    | none => .ok (.iss (issOf env c).1 (issOf env c).2)

/-- `envdatautils.py` 1693-1746, `prepare_originator_identifier_or_key`. -/
def buildOrig (env : KEnv S K C) (c : Option C) (is : Option (Bytes × Int)) : Except PyErr Orig :=
  match is, c with
  | some x, _ => .ok (.iss x.1 x.2)
  | none, none => .error .valueError
  | none, some c =>
    match env.skiOf c with
    | some b => .ok (.ski b)
    | none => .ok (.iss (issOf env c).1 (issOf env c).2)

/-- `envdatautils.py` 268-298, `prepare_originator_with_rid`. -/
def origOfRid : Rid → Orig
  | .iss i s => .iss i s
  | .ski b => .ski b

/-- `envdatautils.py` 1797-1806. -/
def kaRidRest (env : KEnv S K C) (c : Option C) (is : Option (Bytes × Int)) : Except PyErr KaRid :=
  match is, c with
  | some x, _ => .ok (.iss x.1 x.2)
  | none, some c => .ok (.iss (issOf env c).1 (issOf env c).2)
  | none, none => .error .valueError

/-- `envdatautils.py` 1749-1806, `_prepare_key_agree_rid`. -/
def buildKaRid (env : KEnv S K C) (c : Option C) (is : Option (Bytes × Int)) (rid : Option Rid) : Except PyErr KaRid :=
  match rid with
  | some (.iss i s) => .ok (.iss i s)
  | some (.ski b) => .ok (.rKey b)
  | none =>
    match c.bind env.skiOf with
    | some b => .ok (.rKey b)
    | none => kaRidRest env c is

/-! ## Password recipients -/

/-- The options of `prepare_password_recipient_info` that are passed by keyword. `kdf_name` is the argument of that name;
other keywords, such as `kdf`, are ignored. -/
structure PwOpts where
  version : Int := 3
  kdfName : String := "pbkdf2"
  salt : Bytes := []
  iter : Int := 100000
  len : Int := 32
  hash : String := "sha256"
  badKey : Bool := false
  noKdf : Bool := false

/-- `envdatautils.py` 2066-2076: PBKDF2. -/
def pwWrap (env : KEnv S K C) (pw cek rnd : Bytes) (o : PwOpts) : Except PyErr ((Oid × KdfPar) × Bytes) :=
  match prepPbkdf2 (if o.salt = [] then rnd else o.salt) o.iter o.len o.hash with
  | .error e => .error e
  | .ok q =>
    match pbkdf2Of env.toMacEnv q pw with
    | .error e => .error e
    | .ok k =>
      match env.wrap k cek with
      | .error e => .error e
      | .ok w => .ok ((pbkdf2Oid, .pbkdf2 q), w)

/-- `envdatautils.py` 2079-2089: HKDF. The key is derived from the content encryption key. -/
def hkdfWrap (env : KEnv S K C) (cek : Bytes) (o : PwOpts) : Except PyErr ((Oid × KdfPar) × Bytes) :=
  match lookOid hkdfNames ("hkdf-" ++ o.hash) with
  | none => .error .keyError
  | some ko =>
    match hashInst o.hash with
    | .error e => .error e
    | .ok n =>
      match env.hkdf n cek [] o.len with
      | .error e => .error e
      | .ok k =>
        match env.wrap k cek with
        | .error e => .error e
        | .ok w => .ok ((ko, .absent), w)

/-- `envdatautils.py` 2065-2092: by the name of the key derivation function. -/
def pwKeys (env : KEnv S K C) (pw cek rnd : Bytes) (o : PwOpts) : Except PyErr ((Oid × KdfPar) × Bytes) :=
  if o.kdfName = "pbkdf2" then pwWrap env pw cek rnd o
  else if o.kdfName = "hkdf" then hkdfWrap env cek o
  else .error .notImplemented

/-- `rfc9481.id_aes256_wrap`. -/
def aes256Wrap : Oid := [2, 16, 840, 1, 101, 3, 4, 1, 45]

/-- `envdatautils.py` 2015-2113, `prepare_password_recipient_info`. The algorithm of the key wrap is always set to
AES-256. -/
def buildPwri (env : KEnv S K C) (pw cek rnd : Bytes) (o : PwOpts) : Except PyErr Pwri :=
  match pwKeys env pw cek rnd o with
  | .error e => .error e
  | .ok (kdf, w) =>
    match manipIf o.badKey w with
    | .error e => .error e
    | .ok w => .ok ⟨some o.version, if o.noKdf then none else some kdf, some ⟨aes256Wrap, none⟩, some w⟩

/-- `envdatautils.py` 151-215, `prepare_enveloped_data_with_pwri`. The argument `kdf` is passed on under a name that
`prepare_password_recipient_info` ignores. -/
def buildPwriEnv (env : KEnv S K C) (pw data cek salt rnd iv : Bytes) (_kdf : String) (raw : Bool) (oid : Oid) :
    Except PyErr EnvData :=
  match buildPwri env pw cek rnd { salt := salt } with
  | .error e => .error e
  | .ok p => buildEnv env [.pwri p] cek data iv 0 (some (if raw then dataOid else oid))

/-! ## Key transport -/

/-- `rfc4055.id_sha256`. -/
def sha256Oid : Oid := [2, 16, 840, 1, 101, 3, 4, 2, 1]
/-- `rfc4055.id_sha384`. -/
def sha384Oid : Oid := [2, 16, 840, 1, 101, 3, 4, 2, 2]

/-- `envdatautils.py` 741-744: the parameters of OAEP. -/
def oaepOut (env : KEnv S K C) : Oaep := ⟨some sha384Oid, some (mgf1Oid, some (env.encOid sha256Oid)), none⟩

/-- `envdatautils.py` 730-748, `_get_rsa_kari_alg_id`, and 751-764: the algorithm and the padding. -/
def ktriAlg (env : KEnv S K C) (oaep : Bool) : Except PyErr (RawAlg × RsaPad) :=
  if oaep then
    match oaepPad env (oaepOut env) with
    | .error e => .error e
    | .ok p => .ok (⟨oaepOid, some (env.encOaep (oaepOut env))⟩, p)
  else .ok (⟨rsaEncOid, none⟩, .pkcs1)

/-- `rid or prepare_recipient_identifier(…)`. -/
def ridOr (env : KEnv S K C) (rid : Option Rid) (c : Option C) (is : Option (Bytes × Int)) : Except PyErr Rid :=
  match rid with
  | some r => .ok r
  | none => buildRid env c is

/-- `envdatautils.py` 768-802, `prepare_ktri`, and 806-857. -/
def buildKtri (env : KEnv S K C) (k : K) (c : Option C) (cek rnd : Bytes) (oaep : Bool) (is : Option (Bytes × Int))
    (rid : Option Rid) : Except PyErr Ktri :=
  if env.isRsaPub k then
    match ktriAlg env oaep with
    | .error e => .error e
    | .ok (a, p) =>
      match env.rsaEnc k p rnd cek with
      | .error e => .error e
      | .ok ek =>
        match ridOr env rid c is with
        | .error e => .error e
        | .ok r => .ok ⟨some 2, some r, some a, some ek⟩
  else .error .valueError

/-! ## Key agreement -/

/-- `oidutils.py` 363-378: the OID of an ECDH scheme. -/
def ecdhOid : List (Oid × Bool × String) → Bool → String → Option Oid
  | [], _, _ => none
  | (o, c, h) :: l, co, hash => if c = co ∧ h = hash then some o else ecdhOid l co hash

/-- `envdatautils.py` 875-894, `_get_ecc_dh_oid`. -/
def ecdhOidE (co : Bool) (h : String) : Except PyErr Oid :=
  match ecdhOid ecdhAlgs co h with
  | none => .error .valueError
  | some o => .ok o

/-- `envdatautils.py` 860-872, `_get_kari_ephemeral_oid`. -/
def mqvOidE (h : String) : Except PyErr Oid :=
  match lookOid mqvAlgs h with
  | none => .error .keyError
  | some o => .ok o

/-- The options of `prepare_kari`; `x` tells the curve of an X25519 (`false`) or X448 (`true`) key. -/
structure KaOpts (S : Type) where
  hash : String := "sha256"
  mqv : Bool := false
  cofactor : Bool := false
  oid : Option Oid := none
  wrapOid : Oid := aes256Wrap
  eph : Option S := none

/-- `envdatautils.py` 897-924, `_get_kari_oid`. `x448` tells an X448 from an X25519 key. -/
def kariOid (env : KEnv S K C) (x448 : K → Bool) (k : K) (o : KaOpts S) : Except PyErr Oid :=
  match o.oid with
  | some oid => .ok oid
  | none =>
    if env.isXPub k then .ok (if x448 k then x448Oid else x25519Oid)
    else if o.mqv then mqvOidE o.hash
    else ecdhOidE o.cofactor o.hash

/-- `envdatautils.py` 2224-2271, `perform_sender_ecdh_one_pass_mqv`. `gen` is a fresh ephemeral key. -/
def mqvSender (env : KEnv S K C) (s gen : S) (k : K) (o : KaOpts S) (ukm : Bytes) : Except PyErr (Bytes × Bytes) :=
  match env.mqvSend s (o.eph.getD gen) k with
  | .error e => .error e
  | .ok z =>
    match kariKdf env o.wrapOid o.hash (some ukm) z with
    | .error e => .error e
    | .ok kek => .ok (kek, env.encMqv (env.pubOf (o.eph.getD gen)) (some ukm))

/-- `envdatautils.py` 927-976, `_compute_kari_sender`: the wrapping key and the user keying material. -/
def kariSender (env : KEnv S K C) (s gen : S) (k : K) (o : KaOpts S) (ukm : Bytes) : Except PyErr (Bytes × Bytes) :=
  if o.mqv then
    if env.isEcPub k = false ∨ env.isEc s = false then .error .typeError else mqvSender env s gen k o ukm
  else
    match staticDh env s k o.hash o.wrapOid (some ukm) o.cofactor with
    | .error e => .error e
    | .ok kek => .ok (kek, ukm)

/-- `originator or prepare_originator_identifier_or_key(…)`. -/
def origOr (env : KEnv S K C) (orig : Option Orig) (c : Option C) (is : Option (Bytes × Int)) : Except PyErr Orig :=
  match orig with
  | some o => .ok o
  | none => buildOrig env c is

/-- `envdatautils.py` 1901-1973, `prepare_key_agreement_recipient_info`. -/
def kariInfo (env : KEnv S K C) (c : Option C) (is : Option (Bytes × Int)) (orig : Option Orig) (rid : Option Rid)
    (oid wrapOid : Oid) (ek ukm : Bytes) : Except PyErr Kari :=
  if is.isNone = true ∧ c.isNone = true then .error .valueError
  else
    match origOr env orig c is with
    | .error e => .error e
    | .ok o =>
      match buildKaRid env c is rid with
      | .error e => .error e
      | .ok r => .ok ⟨some 3, some o, some ukm, some ⟨oid, some (env.encWrapAlg wrapOid)⟩, some [(r, ek)]⟩

/-- `envdatautils.py` 997-1091, `prepare_kari`. -/
def buildKari (env : KEnv S K C) (x448 : K → Bool) (k : K) (s gen : S) (cek ukm : Bytes) (c : Option C)
    (is : Option (Bytes × Int)) (orig : Option Orig) (rid : Option Rid) (o : KaOpts S) : Except PyErr Kari :=
  match kariOid env x448 k o with
  | .error e => .error e
  | .ok oid =>
    match kariSender env s gen k o ukm with
    | .error e => .error e
    | .ok (kek, u) =>
      match env.wrap kek cek with
      | .error e => .error e
      | .ok ek => kariInfo env c is orig rid oid o.wrapOid ek u

/-! ## KEM recipients -/

/-- `envdatautils.py` 1452-1487, `_handle_kem_encapsulation`, for the public key of the recipient: an RSA key
encapsulates with OAEP. -/
def kemEncaps (env : KEnv S K C) (k : K) (rnd : Bytes) (kemOid : Option Oid) : Except PyErr (Bytes × Bytes × Oid) :=
  if env.isKemPub k = false then .error .valueError
  else
    match env.encaps k (if env.isRsaKemPub k then .oaep else .plain) rnd with
    | .error e => .error e
    | .ok (ss, ct) =>
      match kemOid with
      | some o => .ok (ss, ct, o)
      | none =>
        match env.kemOidPubE k with
        | .error e => .error e
        | .ok o => .ok (ss, ct, o)

/-- The wrapping algorithms by name: `oidutils.py` 662-672 and `envdatautils.py` 88-105, `get_aes_keywrap_length`. -/
def wrapByName (n : String) : Except PyErr (Oid × Int) :=
  if n = "aes128_wrap" then .ok ([2, 16, 840, 1, 101, 3, 4, 1, 5], 16)
  else if n = "aes192_wrap" then .ok ([2, 16, 840, 1, 101, 3, 4, 1, 25], 24)
  else if n = "aes256_wrap" then .ok ([2, 16, 840, 1, 101, 3, 4, 1, 45], 32)
  else .error .keyError

/-- The options of `prepare_kem_recip_info`. -/
structure KemOpts where
  version : Int := 0
  kdf : String := "hkdf"
  hash : String := "sha256"
  wrap : String := "aes256_wrap"
  kekLen : Option Int := none
  ukm : Option Bytes := none
  kemOid : Option Oid := none

/-- `kek_length or get_aes_keywrap_length(wrap_name)`. -/
def kekLenOr (o : KemOpts) (len : Int) : Int :=
  match o.kekLen with
  | none => len
  | some n => if n = 0 then len else n

/-- `envdatautils.py` 1595-1611: the wrapping key and the encrypted key. -/
def kemWrap (env : KEnv S K C) (kdf : Oid × KdfPar) (ss : Bytes) (w : RawAlg) (len : Int) (ukm : Option Bytes)
    (cek : Bytes) : Except PyErr Bytes :=
  match kdfOf env.toEnv kdf.1 kdf.2 ss (env.encOther w len ukm) len with
  | .error e => .error e
  | .ok kek => env.wrap kek cek

/-- `envdatautils.py` 1491-1621, `prepare_kem_recip_info`, for the public key of the recipient. `rnd` is used by the
encapsulation, `salt` by PBKDF2. -/
def buildKemri (env : KEnv S K C) (k : K) (c : Option C) (cek rnd salt : Bytes) (is : Option (Bytes × Int))
    (rid : Option Rid) (o : KemOpts) : Except PyErr Kemri :=
  match ridOr env rid c is with
  | .error e => .error e
  | .ok r =>
    match wrapByName o.wrap with
    | .error e => .error e
    | .ok (w, len) =>
      match kemEncaps env k rnd o.kemOid with
      | .error e => .error e
      | .ok (ss, ct, ko) =>
        match prepKdf salt o.kdf o.hash with
        | .error e => .error e
        | .ok kdf =>
          match kemWrap env kdf ss ⟨w, none⟩ (kekLenOr o len) o.ukm cek with
          | .error e => .error e
          | .ok ek =>
            .ok ⟨some o.version, some r, some ko, some ct, some kdf, some (kekLenOr o len), o.ukm, some ⟨w, none⟩,
              some ek⟩

/-! ## By the key of the recipient -/

/-- The random values. -/
structure Rand where
  iv : Bytes
  rnd : Bytes
  salt : Bytes
  ukm : Bytes

/-- `envdatautils.py` 1136-1230, `prepare_recip_info`. -/
def buildRi (env : KEnv S K C) (x448 : K → Bool) (k : Option K) (s : Option S) (gen : S) (c : Option C)
    (pw : Option Bytes) (cek : Bytes) (is : Option (Bytes × Int)) (rid : Option Rid) (oaep : Bool) (salt : Bytes)
    (kdf : String) (orig : Option Orig) (r : Rand) : Except PyErr Ri :=
  match k with
  | none =>
    match pw with
    | none => .error .valueError
    | some w => (buildPwri env w cek r.salt { salt := salt, kdfName := kdf }).map .pwri
  | some k =>
    if env.isRsaPub k then (buildKtri env k c cek r.rnd oaep is rid).map .ktri
    else if env.isEcdhPub k then
      match s with
      | none => .error .valueError
      | some s => (buildKari env x448 k s gen cek r.ukm c is orig rid {}).map .kari
    else if env.isKemPub k then
      (buildKemri env k c cek r.rnd r.salt is rid { kdf := kdf }).map (fun x => .ori oriKemOid (.obj x))
    else
      match pw with
      | some w => (buildPwri env w cek r.salt { salt := salt, kdfName := kdf }).map .pwri
      | none => .error .valueError

/-- `envdatautils.py` 1408-1449: the recipient. -/
def exchangeRi (env : KEnv S K C) (x448 : K → Bool) (k : K) (s : Option S) (gen : S) (c : Option C) (cek : Bytes)
    (is : Option (Bytes × Int)) (oaep : Bool) (r : Rand) : Except PyErr Ri :=
  if env.isRsaPub k then (buildKtri env k c cek r.rnd oaep is none).map .ktri
  else if env.isEcdhPub k then
    match s with
    | none => .error .valueError
    | some s =>
      if env.isEcdh s then (buildKari env x448 k s gen cek r.ukm c is none none {}).map .kari else .error .valueError
  else if env.isKemPub k then
    (buildKemri env k c cek r.rnd r.salt is none {}).map (fun x => .ori oriKemOid (.obj x))
  else .error .valueError

/-- `envdatautils.py` 1374-1449, `build_env_data_for_exchange`. -/
def buildExchange (env : KEnv S K C) (x448 : K → Bool) (k : K) (data : Bytes) (s : Option S) (gen : S) (c : Option C)
    (cek : Bytes) (is : Option (Bytes × Int)) (oaep : Bool) (oid : Option Oid) (r : Rand) : Except PyErr EnvData :=
  match exchangeRi env x448 k s gen c cek is oaep r with
  | .error e => .error e
  | .ok ri => buildEnv env [ri] cek data r.iv 2 oid

/-! ## Transport -/

/-- The parameters of a key derivation function after encoding and decoding. -/
def wireKdfPar (env : KEnv S K C) (p : KdfPar) : KdfPar :=
  match kdfParDer env p with
  | none => .absent
  | some b => .raw b

/-- A KEM recipient after encoding and decoding. -/
def wireKemri (env : KEnv S K C) (k : Kemri) : Kemri :=
  { k with kdf := k.kdf.map (fun x => (x.1, wireKdfPar env x.2)) }

/-- A password recipient after encoding and decoding. -/
def wirePwri (env : KEnv S K C) (p : Pwri) : Pwri :=
  { p with kdf := p.kdf.map (fun x => (x.1, wireKdfPar env x.2)) }

/-- A recipient after encoding and decoding: fields of type `Any` are bytes. -/
def wireRi (env : KEnv S K C) : Ri → Ri
  | .pwri p => .pwri (wirePwri env p)
  | .ori t (.obj k) => .ori t (.raw (env.encKemri k))
  | r => r

/-- `EnvelopedData` after encoding and decoding. DER may put several recipients into another order, as they are a set; this
is not modelled. -/
def wire (env : KEnv S K C) (e : EnvData) : EnvData := { e with infos := e.infos.map (wireRi env) }

end Verif.Env
