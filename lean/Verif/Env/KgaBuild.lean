import Verif.Env.Build
import Verif.Env.Signed
import Verif.Prot.Match

/-!
# Central key generation: the side of the CA

`resources/ca_ra_utils.py` 502-613, 683-753 and 779-1086: the choice of the recipient, the generation of the key, and the
certificate with the enveloped private key.

Not modelled: `invalid_kga_operation` (617-680) and given private keys; the name of a key in error messages; versions of the
key package other than the default.
-/

namespace Verif.Env

open Verif.CA hiding Bytes Msg
open Verif.Prot Verif.Check

variable {C D A Q P N K S K' T : Type}

/-! ## The recipient -/

/-- The kinds of recipients, as the code names them. -/
inductive RType where
  | kari | kemri | ktri | pwri
  deriving DecidableEq, Repr

/-- `ca_ra_utils.py` 785-791: by the algorithm of a MAC. -/
def macRecip (o : Oid) : RType :=
  if o = dhOid then .kari else if o = kemMacOid then .kemri else .pwri

/-- `ca_ra_utils.py` 797-821: `except ValueError`. -/
def notAuth (t : RType) : Except PyErr Unit → Except PyErr RType
  | .ok () => .ok t
  | .error .valueError => .error .notAuthorized
  | .error e => .error e

/-- `ca_ra_utils.py` 793-821: by the key of a certificate. -/
def certRecip (env : KEnv S K C) (usage : C → Except PyErr (Option (List Bool))) (c : C) : Except PyErr RType :=
  match env.keyOf c with
  | .error e => .error e
  | .ok k =>
    if env.isRsaPub k then
      notAuth .ktri (validateKeyUsage keyUsageNames (usage c) ["keyEncipherment".toList] .strict)
    else if env.isEcdhPub k then
      notAuth .kari (validateKeyUsage keyUsageNames (usage c) ["keyAgreement".toList] .strict)
    else if env.isKemPub k then
      notAuth .kemri (validateKeyUsage keyUsageNames (usage c) ["keyEncipherment".toList] .strict)
    else .error .notAuthorized

/-- `pki_message["extraCerts"][0]`: a missing certificate is created by reading it, and its key cannot be loaded. -/
def firstCert (m : Msg C) : Except PyErr C :=
  match m.certs with
  | [] => .error .pyasn1Error
  | c :: _ => .ok c

/-- `ca_ra_utils.py` 793-821, for the message. -/
def recipByCert (env : KEnv S K C) (usage : C → Except PyErr (Option (List Bool))) (m : Msg C) : Except PyErr RType :=
  match firstCert m with
  | .error e => .error e
  | .ok c => certRecip env usage c

/-- `ca_ra_utils.py` 779-821, `_get_kga_recipient_type`. -/
def recipType (env : KEnv S K C) (usage : C → Except PyErr (Option (List Bool))) (m : Msg C) : Except PyErr RType :=
  match msgType env.toEnv m false with
  | .error e => .error e
  | .ok .mac =>
    match m.hdr.alg with
    | none => .error .valueError
    | some a => .ok (macRecip a.oid)
  | .ok _ => recipByCert env usage m

/-- What the CA has for key generation; `ecc`, `x25519` and `x448` are its pairs for key agreement. -/
structure KgaCa (S C P : Type) where
  protCert : Option C := none
  protKey : Option S := none
  ecc : Option C × Option S := (none, none)
  x25519 : Option C × Option S := (none, none)
  x448 : Option C × Option S := (none, none)
  chain : Option (List C) := none
  key : Option P := none
  pw : Option Bytes := none
  keyType : Option String := some "rsa"
  hash : String := "sha256"

/-- Both parts of a pair. -/
def bothOf (x : Option C × Option S) : Option (C × S) :=
  match x.1, x.2 with
  | some c, some s => some (c, s)
  | _, _ => none

/-- `ca_ra_utils.py` 888-894: the pair for an EC key; the one of the protection, if there is no other. -/
def eccPair (env : KEnv S K C) (ca : KgaCa S C P) : Option (C × S) :=
  match bothOf ca.ecc with
  | some x => some x
  | none =>
    match bothOf (ca.protCert, ca.protKey) with
    | some (c, s) => if env.isEc s then some (c, s) else none
    | none => none

/-- `ca_ra_utils.py` 888-920: by the key of the client. -/
def pairFor (env : KEnv S K C) (x448 : K → Bool) (ca : KgaCa S C P) (k : K) : Option (C × S) :=
  if env.isEcPub k then eccPair env ca
  else if env.isXPub k then
    if x448 k then bothOf ca.x448 else bothOf ca.x25519
  else none

/-- `ca_ra_utils.py` 871-924, `_get_kga_matching_kari_cert_key_pair`. -/
def kariPair (env : KEnv S K C) (x448 : K → Bool) (ca : KgaCa S C P) (k : K) : Except PyErr (C × S) :=
  match pairFor env x448 ca k with
  | none => .error .valueError
  | some (c, s) =>
    match env.dh s k false with
    | .error e => .error e
    | .ok _ => .ok (c, s)

/-- `ca_ra_utils.py` 940-945 with 552-553: the password. -/
def kgaPwri (env : KEnv S K C) (pw : Option Bytes) (cek : Bytes) (r : Rand) : Except PyErr Ri :=
  match pw with
  | none => .error .valueError
  | some w => (buildPwri env w cek r.salt {}).map .pwri

/-- `ca_ra_utils.py` 973-987: key agreement. -/
def kgaKari (env : KEnv S K C) (x448 : K → Bool) (ca : KgaCa S C P) (gen : S) (k : K) (cek : Bytes) (r : Rand) :
    Except PyErr Ri :=
  if env.isEcdhPub k = false then .error .valueError
  else
    match kariPair env x448 ca k with
    | .error e => .error e
    | .ok (c, s) => (buildKari env x448 k s gen cek r.ukm (some c) none none none {}).map .kari

/-- `ca_ra_utils.py` 953-987: for the key of the client. Key transport names the certificate of the protection of the CA,
key agreement its own certificate, encapsulation the one of the client. -/
def kgaRiFor (env : KEnv S K C) (x448 : K → Bool) (ca : KgaCa S C P) (gen : S) (client : C) (k : K) (cek : Bytes) (r : Rand) :
    RType → Except PyErr Ri
  | .pwri => .error .valueError
  | .kemri =>
    if env.isKemPub k = false then .error .valueError
    else
      (buildKemri env k (some client) cek r.rnd r.salt none none { hash := ca.hash }).map
        (fun x => .ori oriKemOid (.obj x))
  | .ktri =>
    if env.isRsaPub k = false then .error .valueError
    else (buildKtri env k ca.protCert cek r.rnd true none none).map .ktri
  | .kari => kgaKari env x448 ca gen k cek r

/-- `ca_ra_utils.py` 947-951: the certificate of the client. -/
def kgaRiCert (env : KEnv S K C) (x448 : K → Bool) (ca : KgaCa S C P) (gen : S) (m : Msg C) (cek : Bytes) (r : Rand)
    (t : RType) : Except PyErr Ri :=
  match firstCert m with
  | .error e => .error e
  | .ok c =>
    match env.keyOf c with
    | .error e => .error e
    | .ok k => kgaRiFor env x448 ca gen c k cek r t

/-- `ca_ra_utils.py` 927-989, `_prepare_recip_info_for_kga_request`, with 502-555. -/
def kgaRi (env : KEnv S K C) (x448 : K → Bool) (ca : KgaCa S C P) (gen : S) (m : Msg C) (cek : Bytes) (r : Rand)
    (t : RType) : Except PyErr Ri :=
  if t = .pwri then kgaPwri env ca.pw cek r else kgaRiCert env x448 ca gen m cek r t

/-! ## The key -/

/-- The public key of a template: the algorithm with its parameters and the bits, both optional here. -/
abbrev TKey := Option (Option (Oid × Option Bytes) × Option Bytes)

/-- What is external to the generation of the key: templates, names, curves, and the generators. -/
structure TmplEnv (T C P : Type) where
  key : T → TKey
  setKey : T → Oid × Option Bytes → Bytes → T
  nameOf : Oid → Option String
  /-- `ECParameters`: the name of the curve, or `none`; the rest. -/
  decCurve : Bytes → Except PyErr (Option String × Bytes)
  gen : String → Except PyErr P
  genEc : String → Except PyErr P
  algOf : P → Oid × Option Bytes
  bitsOf : P → Bytes
  build : T → Except PyErr C

/-- `rfc6664.id_ecPublicKey`. -/
def ecKeyOid : Oid := [1, 2, 840, 10045, 2, 1]

/-- `ca_ra_utils.py` 558-579, `_generate_ec_key_from_alg_id`. -/
def genEcFrom (te : TmplEnv T C P) : Option Bytes → Except PyErr P
  | none => .error .badDataFormat
  | some b =>
    match te.decCurve b with
    | .error e => .error e
    | .ok (n, rest) =>
      if rest ≠ [] then .error .badDataFormat
      else
        match n with
        | none => .error .badAlg
        | some n => te.genEc n

/-- `ca_ra_utils.py` 605-613: by the algorithm. -/
def genByAlg (te : TmplEnv T C P) (a : Oid × Option Bytes) : Except PyErr P :=
  if a.1 = ecKeyOid then genEcFrom te a.2
  else
    match te.nameOf a.1 with
    | none => .error .badCertTemplate
    | some n => te.gen n

/-- `ca_ra_utils.py` 582-613, `_get_kga_key_from_cert_template`. -/
def genFor (te : TmplEnv T C P) (dflt : Option String) : TKey → Except PyErr P
  | none => te.gen (match dflt with | none => "rsa" | some d => if d = "" then "rsa" else d)
  | some (none, _) => .error .badCertTemplate
  | some (some _, none) => .error .badCertTemplate
  | some (some a, some b) => if b ≠ [] then .error .badPOP else genByAlg te a

/-- `ca_ra_utils.py` 1013-1014: the algorithm of the template, if it has one. -/
def algFor (te : TmplEnv T C P) (t : T) (p : P) : Oid × Option Bytes :=
  match te.key t with
  | some (some a, _) => a
  | _ => te.algOf p

/-- `ca_ra_utils.py` 992-1016, `_get_kga_private_key_and_update_template`. -/
def genAndSet (te : TmplEnv T C P) (dflt : Option String) (t : T) : Except PyErr (P × T) :=
  match genFor te dflt (te.key t) with
  | .error e => .error e
  | .ok p => .ok (p, te.setKey t (algFor te t p) (te.bitsOf p))

/-! ## The answer -/

/-- `ca_ra_utils.py` 740-747: the signed data. -/
def kgaSigned (sd : SdE C D A Q P) (chain : List C) (key p : P) : Except PyErr (SData C D A) :=
  match chain with
  | [] => .error .indexError
  | c :: l => mkSigned sd key c none none none (some [p]) (some (c :: l)) false

/-- `ca_ra_utils.py` 683-753, `prepare_private_key_for_kga`; `cek` are 32 random bytes. -/
def kgaEnvelope (env : KEnv S K C) (usage : C → Except PyErr (Option (List Bool))) (x448 : K → Bool) (sd : SdE C D A Q P)
    (encSd : SData C D A → Bytes) (ca : KgaCa S C P) (gen : S) (m : Msg C) (chain : List C) (key p : P) (cek : Bytes)
    (r : Rand) : Except PyErr EnvData :=
  match recipType env usage m with
  | .error e => .error e
  | .ok t =>
    match kgaRi env x448 ca gen m cek r t with
    | .error e => .error e
    | .ok ri =>
      match kgaSigned sd chain key p with
      | .error e => .error e
      | .ok d => buildEnv env [ri] cek (encSd d) r.iv 2 none

/-- `ca_ra_utils.py` 1060-1086: the key, the certificate and the envelope. -/
def kgaParts (env : KEnv S K C) (usage : C → Except PyErr (Option (List Bool))) (x448 : K → Bool) (sd : SdE C D A Q P)
    (encSd : SData C D A → Bytes) (te : TmplEnv T C P) (ca : KgaCa S C P) (gen : S) (t : T) (m : Msg C) (chain : List C)
    (key : P) (cek : Bytes) (r : Rand) : Except PyErr (C × EnvData) :=
  match genAndSet te ca.keyType t with
  | .error e => .error e
  | .ok (p, t') =>
    match te.build t' with
    | .error e => .error e
    | .ok c =>
      match kgaEnvelope env usage x448 sd encSd ca gen m chain key p cek r with
      | .error e => .error e
      | .ok e => .ok (c, e)

/-- `ca_ra_utils.py` 1048-1052: a password is needed for a MAC. -/
def needsPw (env : KEnv S K C) (m : Msg C) (pw : Option Bytes) : Except PyErr Unit :=
  match msgType env.toEnv m false with
  | .error e => .error e
  | .ok .mac =>
    match m.hdr.alg with
    | none => .ok ()
    | some a => if pw.isNone = true ∧ a.oid ≠ dhOid ∧ a.oid ≠ kemMacOid then .error .valueError else .ok ()
  | .ok _ => .ok ()

/-- `ca_ra_utils.py` 1020-1086, `prepare_cert_and_private_key_for_kga`. -/
def kgaAnswer (env : KEnv S K C) (usage : C → Except PyErr (Option (List Bool))) (x448 : K → Bool) (sd : SdE C D A Q P)
    (encSd : SData C D A → Bytes) (te : TmplEnv T C P) (ca : KgaCa S C P) (gen : S) (t : T) (m : Msg C) (cek : Bytes)
    (r : Rand) : Except PyErr (C × EnvData) :=
  match needsPw env m ca.pw with
  | .error e => .error e
  | .ok () =>
    match ca.chain with
    | none => .error .valueError
    | some chain =>
      match ca.key with
      | none => .error .valueError
      | some key => kgaParts env usage x448 sd encSd te ca gen t m chain key cek r

end Verif.Env
