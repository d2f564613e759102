import Verif.Ra.CsrBuild
import Verif.Ra.Extns
import Verif.Ra.Build
import Verif.Check.KeyUsage

/-!
# Certificates and extensions that the suite builds (resources/certbuildutils.py, resources/cmputils.py)

* `certbuildutils.py` 366-430, 434-560, 564-675, 708-788, 791-942: the extensions;
* `certbuildutils.py` 945-1008, 1012-1171, 2052-2111, 1754-1793: `sign_cert`, `generate_certificate`, `build_certificate`,
  `prepare_tbs_certificate`;
* `certbuildutils.py` 1174-1218, 3533-3580, `cmputils.py` 5693-5710.

Keys, signatures, key identifiers, encodings, random values, the clock, `int` of a text and the parsing of names are
parameters (those of `CsrEnv`). The value of an extension is kept as the structure that is encoded, with the bytes that
are added after it. Simplified: a key usage is a text of names; `generate_key` gets the name of the algorithm only;
`invalid_data` of a key usage and the unused arguments of `prepare_policy_constraints` are left out.
-/

namespace Verif.Ra.CertGen

open Verif.CA hiding Bytes Msg
open Verif.Check (DName stripL splitComma usageOf keyUsageNames)

/-- A number, or a text that is read as one. -/
abbrev Strint := Int ⊕ String

/-- `GeneralName`: a DNS name, a directory name or another one. -/
inductive GName (B : Type) where
  | dns (s : List Char)
  | dir (n : DName B)
  | other (b : Bytes)
  deriving DecidableEq

/-- `AuthorityKeyIdentifier`; the empty list is the absent field. -/
structure GAki (B : Type) where
  keyId : Bytes
  issuer : List (GName B)
  serial : Option Int
  deriving DecidableEq

/-- The value of an extension. -/
inductive ExtVal (B : Type) where
  | usage (x : List Bool)
  | eku (l : List (List Nat))
  | ski (b : Bytes)
  | basic (c : Basic)
  | names (l : List (GName B))
  | aki (a : GAki B)
  | raw (b : Bytes)
  deriving DecidableEq

/-- `Extension`: the bytes `trail` follow the encoding of the value. -/
structure GExt (B : Type) where
  oid : List Nat
  critical : Bool
  val : ExtVal B
  trail : Bytes := []
  deriving DecidableEq

/-- `TBSCertificate`; `V` are validity periods. -/
structure GTbs (B V : Type) where
  serial : Int
  issuer : DName B
  subject : DName B
  validity : V
  spki : KSpki
  exts : Option (List (GExt B)) := none
  alg : Option KAlgId := none
  deriving DecidableEq

/-- `CMPCertificate`. -/
structure GCert (B V : Type) where
  tbs : GTbs B V
  alg : Option KAlgId := none
  sig : Option Bytes := none
  deriving DecidableEq

/-- What is called, besides `CsrEnv`: `_compute_ski` (3521-3529), the key for the name of an algorithm, whether a key can
sign, `manipulate_first_byte`, the encoding of the TBS certificate, random values, the default validity, and `int`. -/
structure GenEnv (B K P V : Type) where
  c : CsrEnv B K P
  ski : K → Except PyErr Bytes
  newKey : String → Except PyErr P
  canSign : P → Bool
  flip : Bytes → Bytes
  encTbs : GTbs B V → Bytes
  rand16 : Bytes
  randSerial : Int
  validity : Int → V
  toInt : String → Except PyErr Int

variable {B K P V : Type}

/-- `int(x)`. -/
def GenEnv.int (env : GenEnv B K P V) : Strint → Except PyErr Int
  | .inl i => .ok i
  | .inr s => env.toInt s

/-! ## Extensions -/

/-- `certbuildutils.py` 784-785. -/
def trailing (env : GenEnv B K P V) (add : Bool) : Bytes := if add then env.rand16 else []

/-- `rfc5280.KeyUsage` of a text of names; the empty text is the empty bit string. -/
def usageBits (t : String) : Except PyErr (List Bool) :=
  if t.toList = [] then .ok [] else usageOf keyUsageNames (splitComma t.toList)

/-- `certbuildutils.py` 709-755, `prepare_key_usage_extension`. -/
def prepUsage (env : GenEnv B K P V) (t : String) (critical : Bool) (trail : Bool := false) : Except PyErr (GExt B) :=
  match usageBits t with
  | .error .pyasn1Error => .error .valueError
  | .error e => .error e
  | .ok x => .ok ⟨usageOid, critical, .usage x, trailing env trail⟩

/-- `CMP_EKU_OID_2_NAME` (`oidutils.py` 79): the identifiers of `cmKGA`, `cmcRA` and `cmcCA`. -/
def ekuTable : List (List Nat × List Char) :=
  [([1, 3, 6, 1, 5, 5, 7, 3, 32], "cmKGA".toList), ([1, 3, 6, 1, 5, 5, 7, 3, 28], "cmcRA".toList),
    ([1, 3, 6, 1, 5, 5, 7, 3, 27], "cmcCA".toList)]

/-- `certbuildutils.py` 847: the pieces of the text. -/
def ekuPieces (t : String) : List (List Char) := splitComma (stripL t.toList)

/-- `certbuildutils.py` 846-856 with 366-388. -/
def prepEku (t : String) (critical : Bool) : Except PyErr (GExt B) :=
  let found := ekuTable.filter (fun e => decide (e.2 ∈ ekuPieces t))
  if found = [] ∨ ∃ p ∈ ekuPieces t, p ∉ ekuTable.map (·.2) then .error .valueError
  else .ok ⟨ekuOid, critical, .eku (found.map (·.1)), []⟩

/-- `certbuildutils.py` 3521-3529, `_compute_ski`, of a private or a public key. -/
def skiOf (env : GenEnv B K P V) : P ⊕ K → Except PyErr Bytes
  | .inl p => env.ski (env.c.pub p)
  | .inr k => env.ski k

/-- `certbuildutils.py` 392-430, `prepare_ski_extension`. -/
def prepSki (env : GenEnv B K P V) (k : P ⊕ K) (critical : Bool) (invalid : Bool := false) (trail : Bool := false) :
    Except PyErr (GExt B) :=
  match skiOf env k with
  | .error e => .error e
  | .ok s => .ok ⟨Ra.skiOid, critical, .ski (if invalid then env.flip s else s), trailing env trail⟩

/-- `certbuildutils.py` 552-553. -/
def pathInt (env : GenEnv B K P V) : Option Strint → Except PyErr (Option Int)
  | none => .ok none
  | some x =>
    match env.int x with
    | .error e => .error e
    | .ok i => .ok (some i)

/-- `certbuildutils.py` 521-560, `prepare_basic_constraints_extension`. -/
def prepBasic (env : GenEnv B K P V) (ca : Bool) (path : Option Strint) (critical : Bool) (trail : Bool := false) :
    Except PyErr (GExt B) :=
  match pathInt env path with
  | .error e => .error e
  | .ok i => .ok ⟨basicOid, critical, .basic ⟨ca, i⟩, trailing env trail⟩

/-- `certbuildutils.py` 602-604: the DNS names of a text. -/
def dnsNames (t : Option String) : List (GName B) :=
  match t with
  | none => []
  | some s => (splitComma (stripL s.toList)).map GName.dns

/-- `certbuildutils.py` 564-618, `prepare_subject_alt_name_extension`. -/
def prepSan (env : GenEnv B K P V) (dns : Option String) (gen : Option (List (GName B))) (critical : Bool := false)
    (trail : Bool := false) : Except PyErr (GExt B) :=
  if dns.isNone && gen.isNone then .error .valueError
  else .ok ⟨sanOid, critical, .names (dnsNames dns ++ gen.getD []), trailing env trail⟩

/-- The arguments of `prepare_authority_key_identifier_extension`. -/
structure AkiArgs (B K V : Type) where
  caKey : K ⊕ GCert B V
  critical : Bool := true
  invalid : Bool := false
  caCert : Option (GCert B V) := none
  incIssuer : Bool := false
  incSerial : Bool := false
  incrSerial : Bool := false
  caName : Option String := none
  genNames : Option (List (GName B)) := none
  trail : Bool := false

/-- `certbuildutils.py` 496-501: the name of the issuer. -/
def akiDir (env : GenEnv B K P V) (a : AkiArgs B K V) : Except PyErr (List (GName B)) :=
  match a.caName with
  | some n =>
    match env.c.parse n with
    | .error e => .error e
    | .ok d => .ok [.dir d]
  | none =>
    match a.caCert, a.genNames with
    | some c, none => .ok [.dir c.tbs.subject]
    | _, _ => .ok []

/-- `certbuildutils.py` 495-504: the field `authorityCertIssuer`. -/
def akiIssuer (env : GenEnv B K P V) (a : AkiArgs B K V) : Except PyErr (List (GName B)) :=
  if a.incIssuer || a.caName.isSome then
    match akiDir env a with
    | .error e => .error e
    | .ok l => .ok (l ++ a.genNames.getD [])
  else .ok []

/-- `certbuildutils.py` 506-510: the field `authorityCertSerialNumber`. -/
def akiSerial (a : AkiArgs B K V) : Option Int :=
  if a.incSerial then a.caCert.map (fun c => if a.incrSerial then c.tbs.serial + 1 else c.tbs.serial) else none

/-- `certbuildutils.py` 489-517, after the identifier of the key. -/
def akiFields (env : GenEnv B K P V) (a : AkiArgs B K V) (id : Bytes) : Except PyErr (GExt B) :=
  if a.incIssuer && a.caCert.isNone && a.genNames.isNone && a.caName.isNone then .error .valueError
  else if a.incSerial && a.caCert.isNone then .error .valueError
  else
    match akiIssuer env a with
    | .error e => .error e
    | .ok l =>
      .ok ⟨akiOid, a.critical, .aki ⟨if a.invalid then env.flip id else id, l, akiSerial a⟩, trailing env a.trail⟩

/-- `certbuildutils.py` 434-517, `prepare_authority_key_identifier_extension`: a certificate has no field
`certificationRequestInfo` (479). -/
def prepAki (env : GenEnv B K P V) (a : AkiArgs B K V) : Except PyErr (GExt B) :=
  match a.caKey with
  | .inr _ => .error .keyError
  | .inl k =>
    match env.ski k with
    | .error e => .error e
    | .ok id => akiFields env a id

/-- `rfc9481.rsaEncryption`. -/
def rsaEncOid : List Nat := [1, 2, 840, 113549, 1, 1, 1]

/-- `certbuildutils.py` 924-942, `_prepare_invalid_extensions`; `hex` is the given value. -/
def invalidExt (env : GenEnv B K P V) (oid : List Nat := rsaEncOid) (hex : Option Bytes := none) : GExt B :=
  ⟨oid, true, .raw (hex.getD env.rand16), []⟩

/-- `certbuildutils.py` 880-921, `modify_cert_extensions`. -/
def modifyExts (env : GenEnv B K P V) (c : GCert B V) (oid : Option (List Nat)) (hex : Option Bytes) (others : Bool) :
    List (GExt B) :=
  invalidExt env (oid.getD rsaEncOid) hex :: if others then c.tbs.exts.getD [] else []

/-- The arguments of `prepare_extensions`. -/
structure ExtArgs (B K P V : Type) where
  usage : Option String := none
  eku : Option String := none
  key : Option (P ⊕ K) := none
  isCa : Option Bool := none
  path : Option Strint := none
  invalid : Bool := false
  critical : Bool := true
  caKey : Option (K ⊕ GCert B V) := none
  san : Option String := none

/-- One optional extension. -/
def one {X : Type} (x : Option X) (f : X → Except PyErr (GExt B)) : Except PyErr (List (GExt B)) :=
  match x with
  | none => .ok []
  | some x =>
    match f x with
    | .error e => .error e
    | .ok g => .ok [g]

/-- The lists one after the other; the first error is that of the whole. -/
def chainE : List (Except PyErr (List (GExt B))) → Except PyErr (List (GExt B))
  | [] => .ok []
  | x :: xs =>
    match x with
    | .error e => .error e
    | .ok l =>
      match chainE xs with
      | .error e => .error e
      | .ok r => .ok (l ++ r)

/-- `certbuildutils.py` 861-862: whether there are basic constraints, and whether they are those of a CA. -/
def caFlag (a : ExtArgs B K P V) : Option Bool :=
  if a.isCa.isSome || a.path.isSome then some (a.isCa.getD false) else none

/-- `certbuildutils.py` 842-872: the extensions. -/
def extParts (env : GenEnv B K P V) (a : ExtArgs B K P V) : List (Except PyErr (List (GExt B))) :=
  [one a.usage (fun t => prepUsage env t a.critical),
    one a.eku (fun t => prepEku t a.critical),
    one a.key (fun k => prepSki env k a.critical),
    one (caFlag a) (fun ca => prepBasic env ca a.path a.critical),
    one a.san (fun s => prepSan env (some s) none a.critical),
    one (if a.invalid then some () else none) (fun _ => .ok (invalidExt env)),
    one a.caKey (fun k => prepAki env { caKey := k, critical := a.critical })]

/-- `certbuildutils.py` 791-877, `prepare_extensions`. -/
def prepExts (env : GenEnv B K P V) (a : ExtArgs B K P V) : Except PyErr (List (GExt B)) :=
  match chainE (extParts env a) with
  | .error e => .error e
  | .ok l => if l = [] then .error .valueError else .ok l

/-- `certextractutils.py` 146-160, `get_subject_key_identifier`, of an extension that holds one. -/
def skiVal (l : List (GExt B)) : Option Bytes :=
  match l.find? (fun e => decide (e.oid = Ra.skiOid)) with
  | some ⟨_, _, .ski b, _⟩ => some b
  | _ => none

/-- `certbuildutils.py` 3533-3580, `compare_ski_value`, of a list of extensions and a key. -/
def compareSki (env : GenEnv B K P V) (l : List (GExt B)) (k : P ⊕ K) : Except PyErr Bool :=
  match skiVal l with
  | none => .error .valueError
  | some b =>
    match skiOf env k with
    | .error e => .error e
    | .ok s => .ok (decide (s = b))

/-! ## Certificates -/

/-- `certbuildutils.py` 983-989: the algorithm in both fields. -/
def patchAlg (env : GenEnv B K P V) (c : GCert B V) (p : P) (hash : Option String) (pss patch : Bool) :
    Except PyErr (GCert B V) :=
  if patch then
    match env.c.sigAlg p hash pss with
    | .error e => .error e
    | .ok g => .ok { c with alg := some g, tbs := { c.tbs with alg := some g } }
  else if c.tbs.alg.isNone then .error .valueError
  else .ok c

/-- `certbuildutils.py` 945-1008, `sign_cert`. -/
def signCert (env : GenEnv B K P V) (c : GCert B V) (p : P) (hash : Option String) (pss : Bool := false)
    (bad : Bool := false) (patch : Bool := true) : Except PyErr (GCert B V) :=
  match patchAlg env c p hash pss patch with
  | .error e => .error e
  | .ok c =>
    match env.c.sign p hash pss (env.encTbs c.tbs) with
    | .error e => .error e
    | .ok s => .ok { c with sig := some (if bad then env.c.damage p s else s) }

/-- The arguments of `generate_certificate`, with the key already made. -/
structure GenArgs (B P V : Type) where
  key : P
  name : String ⊕ DName B := .inl "CN=Hans Mustermann"
  hash : Option String := some "sha256"
  ski : Bool := false
  serial : Option Strint := none
  signKey : Option P := none
  issuer : Option (GCert B V) := none
  exts : Option (List (GExt B)) := none
  days : Int := 365
  pss : Bool := false
  bad : Bool := false
  validity : Option V := none
  spki : Option KSpki := none

/-- `certbuildutils.py` 2088-2091: the given structure of the key, or that of the key. -/
def tbsSpki (env : GenEnv B K P V) (a : GenArgs B P V) : Except PyErr KSpki :=
  match a.spki with
  | some s => .ok s
  | none => spkiFromPub env.c (env.c.pub a.key) false none

/-- `certbuildutils.py` 2052-2111, `prepare_tbs_certificate`, with `_prepare_shared_tbs_cert` (1754-1793). -/
def prepTbs (env : GenEnv B K P V) (a : GenArgs B P V) (signer : P) (serial : Int) (exts : Option (List (GExt B))) :
    Except PyErr (GTbs B V) :=
  match parseCommonName env.c a.name with
  | .error e => .error e
  | .ok n =>
    match tbsSpki env a with
    | .error e => .error e
    | .ok s =>
      match env.c.sigAlg signer a.hash a.pss with
      | .error e => .error e
      | .ok g =>
        .ok ⟨serial, (a.issuer.map (·.tbs.subject)).getD n, n, a.validity.getD (env.validity a.days), s, exts, some g⟩

/-- `certbuildutils.py` 1049-1050, 1061: the serial number. -/
def serialOf (env : GenEnv B K P V) : Option Strint → Except PyErr Int
  | none => .ok env.randSerial
  | some x => env.int x

/-- A list that has been prepared. -/
def exceptSome (x : Except PyErr (List (GExt B))) : Except PyErr (Option (List (GExt B))) :=
  match x with
  | .error e => .error e
  | .ok l => .ok (some l)

/-- `certbuildutils.py` 1054-1055: the extensions, of which those given are replaced. -/
def genExts (env : GenEnv B K P V) (a : GenArgs B P V) : Except PyErr (Option (List (GExt B))) :=
  if a.exts.isSome && a.ski then
    exceptSome (prepExts env { key := some (.inl a.key) })
  else .ok a.exts

/-- `certbuildutils.py` 1052-1077, `generate_certificate`, after the key. -/
def generateCert (env : GenEnv B K P V) (a : GenArgs B P V) : Except PyErr (GCert B V) :=
  let signer := a.signKey.getD a.key
  if env.canSign signer = false then .error .valueError
  else
    match genExts env a with
    | .error e => .error e
    | .ok exts =>
      match serialOf env a.serial with
      | .error e => .error e
      | .ok n =>
        match prepTbs env a signer n exts with
        | .error e => .error e
        | .ok t => signCert env { tbs := t } signer a.hash a.pss a.bad

/-- The arguments of `build_certificate`; `ski` is an argument of the documentation. -/
structure BuildArgs (B P V : Type) where
  key : Option (String ⊕ P) := none
  name : String ⊕ DName B := .inl "CN=Hans"
  hash : String := "sha256"
  includeSki : Bool := false
  caKey : Option P := none
  caCert : Option (GCert B V) := none
  usage : Option String := none
  eku : Option String := none
  isCa : Option Bool := none
  path : Option Strint := none
  critical : Bool := false
  exts : Option (List (GExt B)) := none
  serial : Option Strint := none
  pss : Bool := false
  days : Int := 365
  bad : Bool := false
  validity : Option V := none
  spki : Option KSpki := none
  ski : Bool := false

/-- Whether a text is there and not empty. -/
def textSet (t : Option String) : Bool := (t.filter (fun s => s ≠ "")).isSome

/-- Whether a number is there and not zero, or a text is there and not empty. -/
def strintSet (x : Option Strint) : Bool :=
  match x with
  | none => false
  | some (.inl i) => decide (i ≠ 0)
  | some (.inr s) => decide (s ≠ "")

/-- `certbuildutils.py` 1142-1144: whether extensions are asked for. -/
def wantsExts (a : BuildArgs B P V) : Bool :=
  textSet a.usage || a.includeSki || textSet a.eku || a.isCa.getD false || strintSet a.path

/-- `certbuildutils.py` 1131-1138: the key. -/
def buildKey (env : GenEnv B K P V) : Option (String ⊕ P) → Except PyErr P
  | some (.inl s) => env.newKey s
  | none => env.newKey "ecc"
  | some (.inr p) => .ok p

/-- `certbuildutils.py` 1140-1154: the extensions. -/
def buildExts (env : GenEnv B K P V) (a : BuildArgs B P V) (k : P) : Except PyErr (Option (List (GExt B))) :=
  if wantsExts a && a.exts.isNone then
    exceptSome (prepExts env
      { usage := a.usage, key := if a.includeSki then some (.inr (env.c.pub k)) else none, eku := a.eku,
        isCa := a.isCa, path := a.path, critical := a.critical })
  else .ok a.exts

/-- `certbuildutils.py` 1080-1171, `build_certificate`. -/
def buildCert (env : GenEnv B K P V) (a : BuildArgs B P V) : Except PyErr (GCert B V × P) :=
  match buildKey env a.key with
  | .error e => .error e
  | .ok k =>
    match buildExts env a k with
    | .error e => .error e
    | .ok exts =>
      if env.canSign (a.caKey.getD k) = false then .error .valueError
      else
        match generateCert env { key := k, name := a.name, hash := some a.hash, serial := a.serial,
                                 signKey := some (a.caKey.getD k), issuer := a.caCert, exts := exts, days := a.days,
                                 pss := a.pss, bad := a.bad, validity := a.validity, spki := a.spki } with
        | .error e => .error e
        | .ok c => .ok (c, k)

/-! ## Changed names -/

/-- `cmputils.py` 5702: letters and digits. -/
def letters : List Char := "abcdefghijklmnopqrstuvwxyzABCDEFGHIJKLMNOPQRSTUVWXYZ0123456789".toList

/-- `cmputils.py` 5693-5710, `modify_random_str`, for the last character; `draws` is what `random.choice` gives in the
100 attempts. -/
def modifyLast (draws : List Char) (s : List Char) : Except PyErr (List Char) :=
  match s.getLast? with
  | none => .error .indexError
  | some c =>
    match (draws.take 100).find? (fun d => decide (d ≠ c)) with
    | none => .error .valueError
    | some d => .ok (s.dropLast ++ [d])

/-- The assignment `d[k] = v` to a dictionary. -/
def dictSet (d : List (List Char × List Char)) (k v : List Char) : List (List Char × List Char) :=
  if d.any (fun e => decide (e.1 = k)) then d.map (fun e => if e.1 = k then (k, v) else e) else d ++ [(k, v)]

/-- `utils.py` 428-433: the dictionary of the attributes of a name. -/
def nameDict (attrs : List (List Char × List Char)) : List (List Char × List Char) :=
  attrs.foldl (fun d e => dictSet d e.1 e.2) []

/-- `certbuildutils.py` 1214-1218: the text of a dictionary. -/
def nameText : List (List Char × List Char) → List Char
  | [] => []
  | [e] => e.1 ++ '=' :: e.2
  | e :: l => e.1 ++ '=' :: e.2 ++ ',' :: nameText l

/-- `certbuildutils.py` 1174-1218, `modify_common_name_cert`, of the attributes of the name whose type has a short name. -/
def modifyCn (draws : List Char) (attrs : List (List Char × List Char)) : Except PyErr (List Char) :=
  let d := nameDict attrs
  if d = [] then .error .valueError
  else
    match d.find? (fun e => decide (e.1 = "CN".toList)) with
    | none => .error .keyError
    | some e =>
      match modifyLast draws e.2 with
      | .error e => .error e
      | .ok v => .ok (nameText (dictSet d "CN".toList v))

end Verif.Ra.CertGen
