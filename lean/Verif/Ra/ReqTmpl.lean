import Verif.Ra.Request
import Verif.Check.Template

/-!
# Certificate templates and controls of the client (resources/certbuildutils.py, resources/cmputils.py)

Keys, the encoding of keys, the text of names and its parsing are parameters. Times are abstract: which alternative of
`Time` is used is not modelled. Lists of the caller that are changed by a function are returned beside its result.
-/

namespace Verif.Ra

open Verif.CA hiding Bytes Msg
open Verif.Check hiding Spki

/-- What a template is made from in a certificate. -/
structure ClCert (A N T X : Type) where
  serial : Int
  issuer : N
  subject : N
  validity : T × T
  exts : List X
  spki : Spki A
  deriving DecidableEq

/-- The fields of a `CertTemplate` beside the public key. -/
structure ClRest (A N T X : Type) where
  version : Option Int := none
  serial : Option Int := none
  signAlg : Option A := none
  issuer : Option N := none
  validity : Option (T × T) := none
  subject : Option N := none
  exts : List X := []
  deriving DecidableEq

/-- A template of the client. -/
abbrev ClTmpl (A N T X : Type) := Tmpl A (ClRest A N T X)

/-- A name: its text or the structure. -/
inductive ClName (N : Type) where
  | text (s : String)
  | name (n : N)

/-- The attributes in `controls`. -/
inductive ClCtl (A N : Type) where
  | oldCert (issuer : N) (serial : Int)
  | envelopedKey (d : Bytes)
  | encryptedValue (d : Bytes)
  | keyGen (d : Bytes)
  | remGen (b : Bool)
  | encrKey (spki : Option (Spki A))
  | other (oid : List Nat) (d : Bytes)
  deriving DecidableEq

/-- What the functions of the client use. -/
structure ClEnv (A K P N T X : Type) where
  pub : P → K
  isKem : P → Bool
  /-- an X25519 or X448 key -/
  isXdh : P → Bool
  isDh : P → Bool
  /-- `subject_public_key_info_from_pubkey` -/
  spkiOf : K → Except PyErr (Spki A)
  /-- `load_public_key_from_cert`, of its key -/
  loadKey : Spki A → Except PyErr K
  /-- `get_openssl_name_notation` -/
  notation' : N → Except PyErr (Option String)
  /-- `prepare_name` -/
  parse : String → Except PyErr N
  /-- `modify_common_name_cert` -/
  badName : N → Except PyErr String
  /-- `prepare_sig_alg_id`, of the key, the hash and of RSA-PSS -/
  sigAlg : P → Option String → Bool → Except PyErr A
  /-- `get_alg_oid_from_key_hash` -/
  hashAlg : P → Option String → Except PyErr A
  /-- `sign_data` -/
  sign : P → Option String → Bool → Bytes → Except PyErr Bytes
  /-- `manipulate_bytes_based_on_key` -/
  damage : P → Bytes → Bytes
  /-- the encoding of `CertRequest` -/
  encReq : Int → ClTmpl A N T X → Option (List (ClCtl A N)) → Bytes
  /-- `private_key_to_private_numbers` -/
  privNums : P → Except PyErr Bytes
  /-- `PKCS8`, not encrypted -/
  pkcs8 : P → Bytes
  /-- `prepare_enveloped_data_with_pwri` -/
  pwri : Bytes → Bytes → Except PyErr Bytes

variable {A K P N T X : Type}

/-- A text or structure that Python takes as true. -/
def ClName.given : ClName N → Bool
  | .text s => decide (s ≠ "")
  | .name _ => true

/-- `certbuildutils.py` 1256-1257: the given name, or that of the certificate. -/
def orCertName (env : ClEnv A K P N T X) (a : Option (ClName N)) (n : N) : Except PyErr (Option (ClName N)) :=
  match a with
  | some x =>
    if x.given then .ok (some x)
    else match env.notation' n with
      | .error e => .error e
      | .ok s => .ok (s.map ClName.text)
  | none =>
    match env.notation' n with
    | .error e => .error e
    | .ok s => .ok (s.map ClName.text)

/-- `certbuildutils.py` 1221-1236, `_prepare_name_obj`. -/
def nameObj (env : ClEnv A K P N T X) : ClName N → Except PyErr N
  | .text s => env.parse s
  | .name n => .ok n

/-- `certbuildutils.py` 1259-1267: a name in the template, if there is one and it is not excluded. -/
def nameField (env : ClEnv A K P N T X) (ex : List (List Char)) (field : String) (a : Option (ClName N)) :
    Except PyErr (Option N) :=
  match a with
  | none => .ok none
  | some x =>
    if x.given = true ∧ field.toList ∉ ex then
      match nameObj env x with
      | .error e => .error e
      | .ok n => .ok (some n)
    else .ok none

/-- The arguments of `prepare_cert_template`. -/
structure TmplArgs (A K P N T X : Type) where
  key : Option (P ⊕ K) := none
  subject : Option (ClName N) := none
  issuer : Option (ClName N) := none
  incl : Option (List Char) := none
  excl : Option (List Char) := some "validity".toList
  serial : Option Int := none
  version : Option Int := none
  validity : Option (T × T) := none
  exts : Option (List X) := none
  forKga : Bool := false
  signAlg : Option A := none
  cert : Option (ClCert A N T X) := none
  certExts : Bool := true
  spki : Option (Spki A) := none

/-- `certbuildutils.py` 1255-1257: the names before the exclusion, issuer and subject. -/
def tmplNames (env : ClEnv A K P N T X) (a : TmplArgs A K P N T X) :
    Except PyErr (Option (ClName N) × Option (ClName N)) :=
  match a.cert with
  | none => .ok (a.issuer, a.subject)
  | some c =>
    match orCertName env a.issuer c.issuer with
    | .error e => .error e
    | .ok i =>
      match orCertName env a.subject c.subject with
      | .error e => .error e
      | .ok s => .ok (i, s)

/-- `certbuildutils.py` 1371-1378: the fields to leave out. -/
def exclusion (a : TmplArgs A K P N T X) : List (List Char) :=
  filterOptions templateKeys a.incl a.excl ++
    (if a.forKga = true ∧ a.key.isNone = true then ["publicKey".toList] else [])

/-- `certbuildutils.py` 1381-1382: `serial_number or int(...)`. -/
def tmplSerial (a : TmplArgs A K P N T X) : Option Int :=
  match a.cert with
  | none => a.serial
  | some c => match a.serial with | none => some c.serial | some n => if n = 0 then some c.serial else some n

/-- `certbuildutils.py` 1292-1296: the given extensions and those of the certificate. -/
def allExts (a : TmplArgs A K P N T X) : List X :=
  match a.cert with
  | none => a.exts.getD []
  | some c => if a.certExts then a.exts.getD [] ++ c.exts else a.exts.getD []

/-- `certbuildutils.py` 1272-1305, `_prepare_extensions_for_cert_template`: the extensions of the template, and the
list of the caller. -/
def tmplExts (a : TmplArgs A K P N T X) (exclude : Bool) : List X × Option (List X) :=
  if exclude then ([], a.exts)
  else (allExts a, a.exts.map (fun _ => allExts a))

/-- `certbuildutils.py` 1423-1465, `_prepare_optional_validity`. -/
def tmplValidity (a : TmplArgs A K P N T X) : Option (T × T) :=
  match a.validity with
  | some v => some v
  | none => a.cert.map (·.validity)

/-- `certbuildutils.py` 1509-1526: the key as `SubjectPublicKeyInfo`; without the bits for a KGA. -/
def encKey (env : ClEnv A K P N T X) (forKga : Bool) (k : K) : Except PyErr (Option (Spki A)) :=
  match env.spkiOf k with
  | .error e => .error e
  | .ok s => .ok (some (if forKga then { s with bits := [] } else s))

/-- `certbuildutils.py` 1468-1526, `_prepare_public_key_for_cert_template`, with `use_rsa_pss` false. -/
def tmplPub (env : ClEnv A K P N T X) (a : TmplArgs A K P N T X) : Except PyErr (Option (Spki A)) :=
  match a.spki with
  | some s => .ok (some (if a.forKga then { s with bits := [] } else s))
  | none =>
    match a.key with
    | some (.inl p) => encKey env a.forKga (env.pub p)
    | some (.inr k) => encKey env a.forKga k
    | none =>
      match a.cert with
      | none => .ok none
      | some c =>
        match env.loadKey c.spki with
        | .error e => .error e
        | .ok k => encKey env a.forKga k

/-- `certbuildutils.py` 1410-1413: the key, if it is not excluded. -/
def tmplPubField (env : ClEnv A K P N T X) (a : TmplArgs A K P N T X) (ex : List (List Char)) :
    Except PyErr (Option (Spki A)) :=
  if "publicKey".toList ∈ ex then .ok none else tmplPub env a

/-- `certbuildutils.py` 1388-1417: the template of its parts. -/
def assemble (a : TmplArgs A K P N T X) (ex : List (List Char)) (i s : Option N) (k : Option (Spki A)) :
    ClTmpl A N T X :=
  { key := k,
    rest :=
      { version := if "version".toList ∈ ex then none else a.version,
        serial := if "serialNumber".toList ∈ ex then none else tmplSerial a,
        signAlg := if "signingAlg".toList ∈ ex then none else a.signAlg,
        issuer := i,
        validity := if "validity".toList ∈ ex then none else tmplValidity a,
        subject := s,
        exts := (tmplExts a (decide ("extensions".toList ∈ ex))).1 } }

/-- `certbuildutils.py` 1309-1420, `prepare_cert_template`; with the list of extensions of the caller afterwards. -/
def prepTmpl (env : ClEnv A K P N T X) (a : TmplArgs A K P N T X) :
    Except PyErr (ClTmpl A N T X × Option (List X)) :=
  let ex := exclusion a
  match tmplNames env a with
  | .error e => .error e
  | .ok (i, s) =>
    match nameField env ex "subject" s with
    | .error e => .error e
    | .ok sn =>
      match nameField env ex "issuer" i with
      | .error e => .error e
      | .ok is =>
        match tmplPubField env a ex with
        | .error e => .error e
        | .ok k => .ok (assemble a ex is sn k, (tmplExts a (decide ("extensions".toList ∈ ex))).2)

/-- A `CertificationRequest`: the key, the subject and the requested extensions. -/
structure ClCsr (A N X : Type) where
  spki : Spki A
  subject : N
  exts : Option (List X)

/-- `certbuildutils.py` 1607-1621, `prepare_cert_template_from_csr`. -/
def tmplFromCsr (env : ClEnv A K P N T X) (c : ClCsr A N X) : Except PyErr (ClTmpl A N T X) :=
  match env.loadKey c.spki with
  | .error e => .error e
  | .ok k =>
    match env.notation' c.subject with
    | .error e => .error e
    | .ok s =>
      match prepTmpl env { key := some (.inr k), subject := s.map ClName.text, exts := c.exts } with
      | .error e => .error e
      | .ok (t, _) => .ok t

/-! ## Controls -/

/-- `cmputils.py` 562-564: the serial number in `OldCertId`. -/
def oldSerial (cert : Option (ClCert A N T X)) (serial : Option Int) (inc : Bool) : Option Int :=
  let n : Option Int := match serial with
    | some n => if n = 0 then cert.map ClCert.serial else some n
    | none => cert.map ClCert.serial
  n.map (fun n => if inc then n + 1 else n)

/-- `cmputils.py` 566-570: the issuer of the certificate as text. -/
def certIssuer (env : ClEnv A K P N T X) : Option (ClCert A N T X) → Except PyErr (Option String)
  | none => .ok none
  | some c => env.notation' c.issuer

/-- `cmputils.py` 572-579: the issuer that was asked for. -/
def askedIssuer (env : ClEnv A K P N T X) (cert : Option (ClCert A N T X)) (issuer : Option String) (bad : Bool) :
    Except PyErr (Option String) :=
  if bad then
    match cert with
    | none => .error .valueError
    | some c =>
      match env.badName c.issuer with
      | .error e => .error e
      | .ok s => .ok (some s)
  else .ok issuer

/-- `cmputils.py` 584: `issuer or cert_issuer`. -/
def orIssuer (issuer certIss : Option String) : Option String :=
  match issuer with
  | some s => if s = "" then certIss else some s
  | none => certIss

/-- `cmputils.py` 581-597: the control of the text of the issuer and the serial number. -/
def oldCertCtl (env : ClEnv A K P N T X) (issuer certIss : Option String) (n : Int) : Except PyErr (ClCtl A N) :=
  if issuer = none ∧ certIss = none then .error .valueError
  else match orIssuer issuer certIss with
    | none => .error .typeError
    | some s =>
      match env.parse s with
      | .error e => .error e
      | .ok i => .ok (.oldCert i n)

/-- Whether both values are there and Python takes them as true (559). -/
def bothGiven (serial : Option Int) (issuer : Option String) : Bool :=
  match serial, issuer with
  | some n, some s => decide (n ≠ 0 ∧ s ≠ "")
  | _, _ => false

/-- `cmputils.py` 543-599, `prepare_old_cert_id_control`. -/
def prepOldCert (env : ClEnv A K P N T X) (cert : Option (ClCert A N T X)) (serial : Option Int)
    (issuer : Option String) (inc bad : Bool) : Except PyErr (ClCtl A N) :=
  if cert.isNone = true ∧ bothGiven serial issuer = false then .error .valueError
  else match oldSerial cert serial inc with
    | none => .error .typeError
    | some n =>
      match certIssuer env cert with
      | .error e => .error e
      | .ok ci =>
        match askedIssuer env cert issuer bad with
        | .error e => .error e
        | .ok i => oldCertCtl env i ci n

/-- Whether there is a serial number and an issuer (835, 844): a serial number of zero is one. -/
def serialAndIssuer (serial : Option Int) (issuer : Option String) : Bool :=
  serial.isSome && issuer.any (fun s => decide (s ≠ ""))

/-- `cmputils.py` 800-850, `prepare_controls_structure`; with the list of the caller afterwards. -/
def prepControls (env : ClEnv A K P N T X) (cert : Option (ClCert A N T X)) (serial : Option Int)
    (issuer : Option String) (controls : Option (List (ClCtl A N))) :
    Except PyErr (List (ClCtl A N) × Option (List (ClCtl A N))) :=
  if cert.isNone = true ∧ serialAndIssuer serial issuer = false ∧ controls.isNone = true then .error .valueError
  else if cert.isSome = true ∨ serialAndIssuer serial issuer = true then
    match prepOldCert env cert serial issuer false false with
    | .error e => .error e
    | .ok c => .ok (controls.getD [] ++ [c], controls.map (fun l => l ++ [c]))
  else .ok (controls.getD [], controls)

/-- The encrypted key that is given: `EnvelopedData` or `EncryptedValue`. -/
inductive EncKey where
  | enveloped (d : Bytes)
  | value (d : Bytes)

/-- `cmputils.py` 857-921, `prepare_pkiarchiveoptions_controls`; the flag is never `None` in a call of the suite. -/
def prepArchive (env : ClEnv A K P N T X) (encKey : Option EncKey) (params : Option Bytes) (priv : Option P)
    (password : Option Bytes) (flag : Bool) : Except PyErr (ClCtl A N) :=
  match encKey with
  | some (.enveloped d) => .ok (.envelopedKey d)
  | some (.value d) => .ok (.encryptedValue d)
  | none =>
    match params with
    | some d => .ok (.keyGen d)
    | none =>
      match priv with
      | some p =>
        match env.privNums p with
        | .error e => .error e
        | .ok d => .ok (.keyGen d)
      | none => if password.isSome then .error .valueError else .ok (.remGen flag)

/-- The argument of `prepare_protocol_encryption_key_control`. -/
inductive EncrKeyArg (A K N T X : Type) where
  | cert (c : ClCert A N T X)
  | spki (s : Spki A)
  | key (k : K)

/-- `cmputils.py` 1383-1426, `prepare_protocol_encryption_key_control`. -/
def prepEncrKey (env : ClEnv A K P N T X) : Option (EncrKeyArg A K N T X) → Except PyErr (ClCtl A N)
  | none => .ok (.encrKey none)
  | some (.cert c) => .ok (.encrKey (some c.spki))
  | some (.spki s) => .ok (.encrKey (some s))
  | some (.key k) =>
    match env.spkiOf k with
    | .error e => .error e
    | .ok s => .ok (.encrKey (some s))

end Verif.Ra
