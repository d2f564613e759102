import Verif.Env.EnvProps
import Verif.Env.Challenge
import Verif.Ra.Request

/-!
# Proofs of possession for keys that cannot sign: the client's side and the opening by the CA

`resources/extra_issuing_logic.py`: `prepare_pkmac_popo`, `prepare_enc_key_with_id`, `prepare_kem_env_data_for_popo`,
`prepare_key_agreement_popo`, `validate_kemri_rid_for_encrypted_cert`, `get_enc_cert_from_pkimessage`;
`resources/envdatautils.py`: `prepare_enc_key_for_popo`; `resources/ca_kga_logic.py`: `validate_kemri_env_data_for_ca`;
`resources/ca_ra_utils.py`: the opening in `process_encrypted_key` and `verify_encrypted_key_popo`.

Texts for keys, salts and secrets are taken as bytes after `str_to_bytes`. The salt, hash and iterations of a MAC are part
of `newAlg`. Random values are arguments. Reading `extraCerts[0]` of a message without certificates creates an empty
certificate; here there is none, and what would be refused with another error is refused with `ValueError`.
-/

namespace Verif.Ra.PopBuild

open Verif.CA Verif.Prot Verif.Env

variable {A S K C G : Type}

/-- What the client uses besides the functions of `KEnv`. -/
structure PopCl (A S G : Type) where
  /-- `_prepare_mac_alg_id` -/
  newAlg : String → Except PyErr A
  /-- `compute_mac_from_alg_id`: key, algorithm, data -/
  mac : CA.Bytes → A → CA.Bytes → Except PyErr CA.Bytes
  /-- the encoded `PrivateKeyInfo` of a key, with the version 0 -/
  privInfo : S → Except PyErr CA.Bytes
  /-- `prepare_general_name("directoryName", …)` -/
  dirName : String → Except PyErr G
  /-- the encoding of `EncKeyWithID` -/
  encKeyId : KeyWithId G → CA.Bytes
  /-- the encoded name of a text -/
  encName : String → Except PyErr CA.Bytes

/-! ## `agreeMAC` -/

/-- `extra_issuing_logic.py` 699-713, `_compute_ss`. -/
def computeSs (env : KEnv S K C) (s : S) (c : C) : Except PyErr CA.Bytes :=
  match env.keyOf c with
  | .error e => .error e
  | .ok k => if env.isEcdh s then ecdhOn env s k false else .error .valueError

/-- `extra_issuing_logic.py` 734-735. -/
def spoilMac (bad : Bool) (v : CA.Bytes) : Except PyErr CA.Bytes := if bad then flipFirst v else .ok v

/-- `extra_issuing_logic.py` 716-754, `_prepare_pkmac_val`. -/
def pkmacVal (p : PopCl A S G) (ss data : CA.Bytes) (alg : String) (agree bad : Bool) :
    Except PyErr (Popo A EnvData) :=
  match p.newAlg alg with
  | .error e => .error e
  | .ok a =>
    match p.mac ss a data with
    | .error e => .error e
    | .ok v =>
      match spoilMac bad v with
      | .error e => .error e
      | .ok w => .ok (if agree then .keyAgree (.agreeMac a w) else .keyEnc (.agreeMac a w))

/-- `extra_issuing_logic.py` 45-101, `prepare_pkmac_popo`: a given secret is used before the keys. -/
def pkmacPopo (env : KEnv S K C) (p : PopCl A S G) (der : CA.Bytes) (ca : Option C) (s : Option S)
    (ss : Option CA.Bytes) (alg : String) (bad : Bool) : Except PyErr (Popo A EnvData) :=
  match ss with
  | some z => pkmacVal p z der alg true bad
  | none =>
    match s, ca with
    | some s, some c =>
      match computeSs env s c with
      | .error e => .error e
      | .ok z => pkmacVal p z der alg true bad
    | _, _ => .error .valueError

/-- The arguments of `prepare_key_agreement_popo`. -/
structure AgreeArgs (S C : Type) where
  encr : Bool := true
  env : Option EnvData := none
  key : Option S := none
  secret : Option CA.Bytes := none
  der : Option CA.Bytes := none
  ca : Option C := none
  alg : String := "password_based_mac"
  bad : Bool := false

/-- `extra_issuing_logic.py` 802-803: the keys replace a given secret. -/
def agreeSecret (env : KEnv S K C) (a : AgreeArgs S C) : Except PyErr (Option CA.Bytes) :=
  match a.key, a.ca with
  | some s, some c => (computeSs env s c).map some
  | _, _ => .ok a.secret

/-- `extra_issuing_logic.py` 807-810: the name `challenge` is not a value of `SubsequentMessage`. -/
def subsequentMsg (encr : Bool) : Except PyErr (Popo A EnvData) :=
  if encr then .ok (.keyAgree (.subsequent true)) else .error .pyasn1Error

/-- `extra_issuing_logic.py` 758-831, `prepare_key_agreement_popo`. -/
def agreePopo (env : KEnv S K C) (p : PopCl A S G) (a : AgreeArgs S C) : Except PyErr (Popo A EnvData) :=
  match agreeSecret env a with
  | .error e => .error e
  | .ok (some z) =>
    match a.der with
    | none => .error .valueError
    | some d => pkmacVal p z d a.alg true a.bad
  | .ok none =>
    match a.env with
    | none => subsequentMsg a.encr
    | some e => .ok (.keyAgree (.encryptedKey e))

/-! ## `encryptedKey` -/

/-- `extra_issuing_logic.py` 144-149: the identifier. -/
def keyIdent (p : PopCl A S G) (sender : Option String) (str : Bool) : Except PyErr (Option (KeyIdent G)) :=
  match sender with
  | none => .ok none
  | some n => if str then .ok (some (.str n)) else (p.dirName n).map (fun g => some (.gen g))

/-- `extra_issuing_logic.py` 105-152, `prepare_enc_key_with_id`. -/
def encKeyWithId (p : PopCl A S G) (s : S) (sender : Option String) (str : Bool) : Except PyErr (KeyWithId G) :=
  match p.privInfo s with
  | .error e => .error e
  | .ok k =>
    match keyIdent p sender str with
    | .error e => .error e
    | .ok i => .ok ⟨some k, i⟩

/-- `envdatautils.py` 1344-1370, `parse_encrypted_key_for_popo`. -/
def encPopo (agree : Bool) (e : EnvData) : Popo A EnvData :=
  if agree then .keyAgree (.encryptedKey e) else .keyEnc (.encryptedKey e)

/-- `extra_issuing_logic.py` 194-208: the data to encrypt. -/
def kemData (p : PopCl A S G) (data : Option CA.Bytes) (s : Option S) (sender : String) : Except PyErr CA.Bytes :=
  match data, s with
  | some d, _ => .ok d
  | none, none => .error .valueError
  | none, some s => (encKeyWithId p s (some sender) false).map p.encKeyId

/-- `extra_issuing_logic.py` 156-231, `prepare_kem_env_data_for_popo`, without `hybrid_key_recip`. The type of the content
is not given to `build_env_data_for_exchange`. -/
def kemPopo (env : KEnv S K C) (p : PopCl A S G) (x448 : K → Bool) (gen : S) (ca : C) (data : Option CA.Bytes)
    (s : Option S) (ridName : String) (id : Int) (sender : String) (cek : CA.Bytes) (keyEnc : Bool) (r : Rand) :
    Except PyErr (Popo A EnvData) :=
  match kemData p data s sender with
  | .error e => .error e
  | .ok d =>
    match p.encName ridName with
    | .error e => .error e
    | .ok n =>
      match env.keyOf ca with
      | .error e => .error e
      | .ok k =>
        if env.isKemPub k = false then .error .invalidKeyCombination
        else (buildExchange env x448 k d none gen (some ca) cek (some (n, id)) true none r).map (encPopo (!keyEnc))

/-- The arguments of `prepare_enc_key_for_popo`. -/
structure EncKeyArgs (S C : Type) where
  rid : Option Rid := none
  ca : Option C := none
  recip : Option Ri := none
  agree : Bool := false
  version : Option Int := none
  priv : Option S := none
  orig : Option Orig := none
  prot : Option C := none

/-- `envdatautils.py` 1305-1307 and 1233-1245, `_prepare_rid_for_enc_key`. -/
def encKeyRid (env : KEnv S K C) (k : K) (ca : C) (a : EncKeyArgs S C) : Except PyErr (Option Rid) :=
  match a.rid, a.prot with
  | some r, _ => .ok (some r)
  | none, none => .ok none
  | none, some pc => (buildRid env (some (if env.isKemPub k then ca else pc)) none).map some

/-- `envdatautils.py` 1309-1310: the originator. -/
def encKeyOrig (env : KEnv S K C) (k : K) (rid : Option Rid) (orig : Option Orig) : Option Orig :=
  match rid, orig with
  | some r, none => if env.isEcdhPub k then some (origOfRid r) else none
  | _, o => o

/-- `envdatautils.py` 1298-1323: the recipient. -/
def encKeyRi (env : KEnv S K C) (x448 : K → Bool) (gen : S) (cek : CA.Bytes) (r : Rand) (a : EncKeyArgs S C) :
    Except PyErr Ri :=
  match a.recip with
  | some x => .ok x
  | none =>
    match a.ca with
    | none => .error .valueError
    | some ca =>
      match env.keyOf ca with
      | .error e => .error e
      | .ok k =>
        match encKeyRid env k ca a with
        | .error e => .error e
        | .ok rid =>
          buildRi env x448 (some k) a.priv gen (some ca) none cek none rid true [] "hkdf" (encKeyOrig env k rid a.orig) r

/-- `envdatautils.py` 1325-1326. -/
def encKeyVersion (v : Option Int) (x : Ri) : Int :=
  match v with
  | some v => v
  | none => if x.name = "ori" ∨ x.name = "pwri" then 0 else 2

/-- `envdatautils.py` 1249-1340, `prepare_enc_key_for_popo`; `cek` is given or random. -/
def encKeyPopo (env : KEnv S K C) (p : PopCl A S G) (x448 : K → Bool) (gen : S) (w : KeyWithId G) (cek : CA.Bytes)
    (r : Rand) (a : EncKeyArgs S C) : Except PyErr (Popo A EnvData) :=
  match encKeyRi env x448 gen cek r a with
  | .error e => .error e
  | .ok x =>
    (buildEnv env [x] cek (p.encKeyId w) r.iv (encKeyVersion a.version x) (some [1, 2, 840, 113549, 1, 7, 1])).map
      (encPopo a.agree)

/-! ## The CA -/

/-- What the CA has for the opening. -/
structure CaKeys (S K C : Type) where
  pw : Option CA.Bytes := none
  kem : Option S := none
  kemCert : Option C := none
  hyb : Option S := none
  hybCert : Option C := none
  rsa : Option S := none
  /-- `KARICertsAndKeys.get_cert_and_key`, the key -/
  kari : K → Except PyErr S := fun _ => .error .valueError
  /-- `HybridKEMPrivateKey` -/
  isHyb : S → Bool := fun _ => false
  rnd : CA.Bytes := []

/-- `get_kem_oid_from_key` of a key, if there is one. -/
def oidOpt (env : KEnv S K C) : Option S → Except PyErr (Option Oid)
  | none => .ok none
  | some s => (env.kemOidE s).map some

/-- `ca_kga_logic.py` 737-755: the key and certificate for the algorithm. -/
def chooseKem (ca : CaKeys S K C) (o1 o2 : Option Oid) (o : Option Oid) : Except PyErr (Option S × Option C) :=
  if o.isSome ∧ o1 = o then .ok (ca.kem, ca.kemCert)
  else if o.isSome ∧ o2 = o then .ok (ca.hyb, ca.hybCert)
  else .error .valueError

/-- `ca_kga_logic.py` 757-771. -/
def openChosen (env : KEnv S K C) (e : EnvData) (k : Kemri) (x : Option S × Option C) : Except PyErr CA.Bytes :=
  match kemCek env k x.2 x.1 false false with
  | .error y => .error y
  | .ok cek => openInfo env e.enc cek true

/-- `ca_kga_logic.py` 727-771, for the decoded structure. -/
def openFor (env : KEnv S K C) (ca : CaKeys S K C) (e : EnvData) (k : Kemri) : Except PyErr CA.Bytes :=
  match oidOpt env ca.kem, oidOpt env ca.hyb with
  | .error y, _ => .error y
  | .ok _, .error y => .error y
  | .ok o1, .ok o2 =>
    match chooseKem ca o1 o2 k.kem with
    | .error y => .error y
    | .ok x => openChosen env e k x

/-- `ca_kga_logic.py` 699-771, `validate_kemri_env_data_for_ca`, with the content `id-data` and `for_pop=False`. -/
def caKemOpen (env : KEnv S K C) (ca : CaKeys S K C) (e : EnvData) : Except PyErr CA.Bytes :=
  if ca.kem.isNone ∧ ca.hyb.isNone then .error .valueError
  else
    match recipOf e 1 0 (some "ori") with
    | .error x => .error x
    | .ok (.ori t v) =>
      match decodeOri env t v with
      | .error x => .error x
      | .ok k => openFor env ca e k
    | .ok _ => .error .valueError

/-- `ca_ra_utils.py` 1716-1738. -/
def caKem (env : KEnv S K C) (ca : CaKeys S K C) (e : EnvData) : Except PyErr CA.Bytes :=
  if ca.kem.isNone ∧ ca.hyb.isNone then .error .valueError
  else if ca.kem.all env.isKemKey = false then .error .valueError
  else if ca.hyb.all ca.isHyb = false then .error .valueError
  else caKemOpen env ca e

/-- `ca_ra_utils.py` 1739-1752. -/
def caRsa (env : KEnv S K C) (ca : CaKeys S K C) (m : Prot.Msg C) (e : EnvData) : Except PyErr CA.Bytes :=
  match ca.rsa with
  | none => .error .valueError
  | some s =>
    if env.isRsa s = false then .error .valueError
    else openEnv env { msg := some m, raw := true, key := some s, cert := m.certs.head? } e

/-- `ca_ra_utils.py` 1754-1777. -/
def caKari (env : KEnv S K C) (ca : CaKeys S K C) (m : Prot.Msg C) (e : EnvData) : Except PyErr CA.Bytes :=
  match m.certs.head? with
  | none => .error .valueError
  | some c =>
    match env.keyOf c with
    | .error x => .error x
    | .ok k =>
      if env.isEcdhPub k = false then .error .valueError
      else match ca.kari k with
        | .error x => .error x
        | .ok s => openEnv env { msg := some m, raw := true, key := some s, cert := some c } e

/-- `ca_ra_utils.py` 1704-1780 and 756-776: the encrypted data by the type of the first recipient. -/
def caOpen (env : KEnv S K C) (ca : CaKeys S K C) (m : Prot.Msg C) (e : EnvData) : Except PyErr CA.Bytes :=
  match e.infos with
  | [] => .error .valueError
  | .pwri _ :: _ =>
    match ca.pw with
    | none => .error .valueError
    | some w => openEnv env { msg := some m, pw := some w, raw := true, rnd := ca.rnd } e
  | .ori _ _ :: _ => caKem env ca e
  | .ktri _ :: _ => caRsa env ca m e
  | .kari _ :: _ => caKari env ca m e
  | .kekri :: _ => .error .valueError

/-- `ca_ra_utils.py` 2977-2988: the name; `genIs` compares with a text. -/
def nameOk (genIs : G → String → Except PyErr Bool) (i : KeyIdent G) (expected : Option String) : Except PyErr Unit :=
  match expected, i with
  | none, _ => .ok ()
  | some n, .str s => if s ≠ n then .error .valueError else .ok ()
  | some n, .gen g =>
    match genIs g n with
    | .error e => .error e
    | .ok b => if b then .ok () else .error .valueError

/-- `ca_ra_utils.py` 2974-2995: `EncKeyWithID` has no field `privateKeyInfo`, so that reading it is a `KeyError`. -/
def verifyKeyId (genIs : G → String → Except PyErr Bool) (x : KeyWithId G) (expected : Option String) :
    Except PyErr Unit :=
  match x.ident with
  | none => .error .valueError
  | some i =>
    match nameOk genIs i expected with
    | .error e => .error e
    | .ok () => .error .keyError

/-- `ca_ra_utils.py` 2941-2995, `verify_encrypted_key_popo`; the content is not expected to be `id-data`. -/
def verifyEncKey (env : KEnv S K C) (dec : CA.Bytes → Except PyErr (KeyWithId G × CA.Bytes))
    (genIs : G → String → Except PyErr Bool) (e : EnvData) (s : Option S) (pw salt : Option CA.Bytes) (cert : Option C)
    (expected : Option String) : Except PyErr Unit :=
  match openEnv env { pw := pw, key := s, cert := cert, salt := salt } e with
  | .error x => .error x
  | .ok d =>
    match dec d with
    | .error x => .error x
    | .ok (x, rest) => if rest ≠ [] then .error .badAsn1Data else verifyKeyId genIs x expected

/-! ## The encrypted certificate -/

/-- `certOrEncCert` of a response. -/
inductive EncField where
  | absent
  | certificate
  | value
  | env (e : EnvData)

/-- `ca_ra_utils.py` 3092-3112: the certificate, encrypted for its key. -/
def encrCertEnv (env : KEnv S K C) (encCert : C → CA.Bytes) (k : K) (c : C) (cek : CA.Bytes) (r : Rand) :
    Except PyErr EnvData :=
  match buildKemri env k (some c) cek r.rnd r.salt none none {} with
  | .error e => .error e
  | .ok x => buildEnv env [.ori oriKemOid (.obj x)] cek (encCert c) r.iv 2 (some [1, 2, 840, 113549, 1, 7, 1])

/-- `extra_issuing_logic.py` 906-917. -/
def decodeCert (dec : CA.Bytes → Option (C × CA.Bytes)) (d : CA.Bytes) : Except PyErr C :=
  match dec d with
  | none => .error .valueError
  | some (c, rest) => if rest ≠ [] then .error .valueError else .ok c

/-- `extra_issuing_logic.py` 835-917, `get_enc_cert_from_pkimessage`, of the field of the response. -/
def getEncCert (env : KEnv S K C) (dec : CA.Bytes → Option (C × CA.Bytes)) (m : Prot.Msg C) (f : EncField) (s : Option S)
    (server : Option C) (pw : Option CA.Bytes) (type : Option String) (noRid : Bool) : Except PyErr C :=
  match f with
  | .env e =>
    match openEnv env { msg := some m, pw := pw, key := s, cert := server.or m.certs.head?, raw := true, type := type,
                        pop := noRid } e with
    | .error x => .error x
    | .ok d => decodeCert dec d
  | _ => .error .valueError

/-- `extra_issuing_logic.py` 334-342: the expected identifier; `skiOfKey` is the SHA-1 of the key. An issuer or number that
is given replaces that of the certificate (`certbuildutils.py` 2900-2920). -/
def expectedRid (env : KEnv S K C) (skiOfKey : K → CA.Bytes) (key : Option K) (issuer : Option CA.Bytes)
    (serial : Option Int) (cert : Option C) : Except PyErr Rid :=
  match key with
  | some k => .ok (.ski (skiOfKey k))
  | none =>
    match cert with
    | some c => .ok (.iss (issuer.getD (env.issuerOf c)) (serial.getD (env.serialOf c)))
    | none =>
      match issuer, serial with
      | some i, some n => .ok (.iss i n)
      | _, _ => .error .valueError

/-- `extra_issuing_logic.py` 330-348. -/
def ridIs (rid : Option Rid) (x : Except PyErr Rid) : Except PyErr Unit :=
  match rid with
  | none => .error .pyasn1Error
  | some r =>
    match x with
    | .error e => .error e
    | .ok y => if r ≠ y then .error .valueError else .ok ()

/-- `extra_issuing_logic.py` 277-348, `validate_kemri_rid_for_encrypted_cert`, of the `EnvelopedData`. -/
def checkEncRid (env : KEnv S K C) (skiOfKey : K → CA.Bytes) (e : EnvData) (key : Option K) (issuer : Option CA.Bytes)
    (serial : Option Int) (cert : Option C) : Except PyErr Unit :=
  match e.infos with
  | [] => .error .pyasn1Error
  | .ori t v :: _ =>
    match decodeOri env t v with
    | .error x => .error x
    | .ok k => ridIs k.rid (expectedRid env skiOfKey key issuer serial cert)
  | _ => .error .valueError

end Verif.Ra.PopBuild
