import Verif.Ra.Handler
import Verif.Check.Template

/-!
# Certification requests of the client (resources/certbuildutils.py, keyutils.py, convertutils.py, cmputils.py)

Keys, signatures, the encodings and the parsing of names are parameters. Encoding a structure and decoding it again is
the identity. A list of extensions is taken to be not empty when it is encoded.
-/

namespace Verif.Ra

open Verif.CA hiding Bytes Msg
open Verif.Check (DName compareNames CmpMode)

/-- An `AlgorithmIdentifier`: the identifier and the encoding of the parameters. -/
structure KAlgId where
  oid : List Nat
  params : Option Bytes := none
  deriving DecidableEq

/-- A `SubjectPublicKeyInfo` of the client. -/
abbrev KSpki := Check.Spki KAlgId

/-- An attribute with one value. -/
structure CsrAttr where
  typ : List Nat
  value : Bytes
  deriving DecidableEq

/-- `CertificationRequestInfo`. -/
structure CsrInfo (B : Type) where
  version : Int
  subject : DName B
  spki : KSpki
  attrs : List CsrAttr
  deriving DecidableEq

/-- `CertificationRequest`. -/
structure CsrMsg (B : Type) where
  info : CsrInfo B
  alg : Option KAlgId
  sig : Option Bytes
  deriving DecidableEq

/-- What the functions use. -/
structure CsrEnv (B K P : Type) where
  pub : P → K
  /-- `CompositeSigPublicKey.to_spki`, for such a key -/
  composite : K → Option (Bool → Except PyErr KSpki)
  /-- `PQSignaturePublicKey.check_hash_alg`, for such a key -/
  checkHash : K → Option (String → Option String)
  /-- `PQ_NAME_2_OID` of the name of the key and the hash -/
  hashOid : K → String → Except PyErr (List Nat)
  /-- the `SubjectPublicKeyInfo` of the library -/
  derSpki : K → Except PyErr KSpki
  isRsa : K → Bool
  /-- PKCS #1 -/
  pkcs1 : K → Bytes
  /-- `prepare_sig_alg_id` for an RSA key with RSA-PSS -/
  pssAlg : String → Except PyErr KAlgId
  /-- `get_oid` of an `AbstractCompositePrivateKey`, with and without RSA-PSS -/
  compPriv : P → Option (Bool → Except PyErr (List Nat))
  rawPub : P → Bytes
  /-- `RSAEncapKey` -/
  encap : K → K
  /-- `CombinedKeyFactory.generate_key` and `public_key` -/
  generate : String → Except PyErr K
  /-- `load_public_key_from_spki` -/
  loadKey : KSpki → Except PyErr K
  isVerify : K → Bool
  /-- `prepare_name` -/
  parse : String → Except PyErr (DName B)
  sigAlg : P → Option String → Bool → Except PyErr KAlgId
  sign : P → Option String → Bool → Bytes → Except PyErr Bytes
  /-- `manipulate_bytes_based_on_key` -/
  damage : P → Bytes → Bytes
  encInfo : CsrInfo B → Bytes
  encExts : List XExt → Bytes
  decExts : Bytes → Except PyErr (List XExt)
  /-- `prepare_subject_alt_name_extension` -/
  san : String → Except PyErr XExt
  /-- `verify_signature_with_alg_id`: key, algorithm, data and signature -/
  verify : K → KAlgId → Bytes → Bytes → Except PyErr Unit

variable {B K P : Type}

/-! ## Public keys -/

/-- `convertutils.py` 108-150, `subject_public_key_info_from_pubkey`, without a target. -/
def spkiFromPub (env : CsrEnv B K P) (k : K) (pss : Bool) (hash : Option String) : Except PyErr KSpki :=
  match env.composite k with
  | some f => f pss
  | none =>
    match env.checkHash k with
    | none => env.derSpki k
    | some chk =>
      match hash with
      | none => env.derSpki k
      | some h =>
        match chk h with
        | none => .error .valueError
        | some h' =>
          match env.hashOid k h' with
          | .error e => .error e
          | .ok o =>
            match env.derSpki k with
            | .error e => .error e
            | .ok s => .ok { s with alg := { s.alg with oid := o } }

/-- The arguments of `prepare_subject_public_key_info`; `rand` is what `os.urandom` gives, in a `BIT STRING`. -/
structure SpkiArgs (K P : Type) where
  key : Option (P ⊕ K) := none
  forKga : Bool := false
  name : Option String := none
  pss : Bool := false
  hash : Option String := none
  badSize : Bool := false
  addRand : Bool := false
  addNull : Bool := false
  rand : Bytes := []

/-- DER of `NULL`. -/
def derNull : Bytes := [5, 0]

/-- `keyutils.py` 1133-1137, 1229-1233: the parameters. -/
def extraParams (a : SpkiArgs K P) (g : KAlgId) : KAlgId :=
  let g := if a.addNull then { g with params := some derNull } else g
  if a.addRand then { g with params := some a.rand } else g

/-- `secp256r1`, 1.2.840.10045.3.1.7, as `ECParameters`. -/
def p256Params : Bytes := [6, 8, 42, 134, 72, 206, 61, 3, 1, 7]

/-- `keyutils.py` 1205-1215: the algorithm of one of the four names. -/
def namedAlg : Option String → KAlgId
  | some "rsa" => ⟨[1, 2, 840, 113549, 1, 1, 1], none⟩
  | some "dsa" => ⟨[1, 2, 840, 10040, 4, 1], none⟩
  | some "ecc" => ⟨[1, 2, 840, 10045, 3, 1, 7], some p256Params⟩
  | some "rsa-kem" => ⟨[1, 2, 840, 113549, 1, 9, 16, 3], none⟩
  | _ => ⟨[], none⟩

/-- `keyutils.py` 1217-1227: only the identifier of the algorithm of the key is used. -/
def kgaAlg (env : CsrEnv B K P) (k : Option K) (name : Option String) (pss : Bool) : Except PyErr KAlgId :=
  match name with
  | some n =>
    match env.generate n with
    | .error e => .error e
    | .ok g =>
      match spkiFromPub env g pss none with
      | .error e => .error e
      | .ok s => .ok { namedAlg name with oid := s.alg.oid }
  | none =>
    match k with
    | none => .ok ⟨[], none⟩
    | some k =>
      match spkiFromPub env k pss none with
      | .error e => .error e
      | .ok s => .ok { namedAlg name with oid := s.alg.oid }

/-- `keyutils.py` 1179-1235, `_prepare_spki_for_kga`, after the test of the flags. -/
def spkiForKga (env : CsrEnv B K P) (a : SpkiArgs K P) (k : Option K) : Except PyErr KSpki :=
  match kgaAlg env k a.name a.pss with
  | .error e => .error e
  | .ok g => .ok ⟨extraParams a g, []⟩

/-- `keyutils.py` 1141-1142: the public key. -/
def pubOf (env : CsrEnv B K P) : P ⊕ K → K
  | .inl p => env.pub p
  | .inr k => k

/-- `keyutils.py` 1156-1167: the structure of an RSA key with RSA-PSS (1042-1064), or of another key. -/
def plainSpki (env : CsrEnv B K P) (k : K) (pss : Bool) (hash : Option String) : Except PyErr KSpki :=
  if env.isRsa k = true ∧ pss = true then
    match env.pssAlg (hash.getD "sha256") with
    | .error e => .error e
    | .ok g => .ok ⟨g, env.pkcs1 k⟩
  else spkiFromPub env k pss hash

/-- `keyutils.py` 1169-1176. `add_null` is not used here. -/
def finishSpki (a : SpkiArgs K P) (s : KSpki) : KSpki :=
  ⟨if a.addRand then { s.alg with params := some a.rand } else s.alg, if a.badSize then s.bits ++ [0, 0] else s.bits⟩

/-- `keyutils.py` 1144-1176, for a key that is not a composite private key. -/
def otherSpki (env : CsrEnv B K P) (a : SpkiArgs K P) (k : Option (P ⊕ K)) : Except PyErr KSpki :=
  if a.forKga then spkiForKga env a (k.map (pubOf env))
  else match k with
    | none => .error .valueError
    | some x =>
      let k := if a.name = some "rsa-kem" ∨ a.name = some "rsa_kem" then env.encap (pubOf env x) else pubOf env x
      match plainSpki env k a.pss a.hash with
      | .error e => .error e
      | .ok s => .ok (finishSpki a s)

/-- `keyutils.py` 1122-1139: a composite private key. -/
def compSpki (env : CsrEnv B K P) (a : SpkiArgs K P) (p : P) (oid : Bool → Except PyErr (List Nat)) :
    Except PyErr KSpki :=
  match oid a.pss with
  | .error e => .error e
  | .ok o => .ok ⟨extraParams a ⟨o, none⟩, if a.badSize then env.rawPub p ++ [0] else env.rawPub p⟩

/-- `keyutils.py` 1068-1176, `prepare_subject_public_key_info`. -/
def prepSpki (env : CsrEnv B K P) (a : SpkiArgs K P) : Except PyErr KSpki :=
  if a.key.isNone = true ∧ a.forKga = false then .error .valueError
  else if a.addNull = true ∧ a.addRand = true then .error .valueError
  else match a.key with
    | some (.inl p) =>
      match env.compPriv p with
      | some f => compSpki env a p f
      | none => otherSpki env a (some (.inl p))
    | k => otherSpki env a k

/-! ## Certification requests -/

/-- `pkcs-9-at-extensionRequest`. -/
def extReq : List Nat := [1, 2, 840, 113549, 1, 9, 14]

/-- `certbuildutils.py` 1530-1560, `csr_add_extensions`. -/
def csrAddExts (env : CsrEnv B K P) (c : CsrMsg B) (l : List XExt) : CsrMsg B :=
  { c with info := { c.info with attrs := c.info.attrs ++ [⟨extReq, env.encExts l⟩] } }

/-- `certbuildutils.py` 1581-1603, `csr_extend_subject`. -/
def csrExtendSubject (c : CsrMsg B) (rdn : List B) : CsrMsg B :=
  { c with info := { c.info with subject := { c.info.subject with rdns := c.info.subject.rdns ++ [rdn] } } }

/-- `certbuildutils.py` 167-171: the algorithm given, or that of the key. -/
def signAlgId (env : CsrEnv B K P) (p : P) (hash : Option String) (pss : Bool) (given : Option KAlgId) :
    Except PyErr KAlgId :=
  match given with
  | some g => .ok g
  | none => env.sigAlg p hash pss

/-- `certbuildutils.py` 119-191, `sign_csr`. -/
def signCsr (env : CsrEnv B K P) (c : CsrMsg B) (p : P) (hash : Option String) (pss : Bool := false)
    (other : Option P := none) (bad : Bool := false) (given : Option KAlgId := none) : Except PyErr (CsrMsg B) :=
  match signAlgId env p hash pss given with
  | .error e => .error e
  | .ok g =>
    match env.sign (other.getD p) hash pss (env.encInfo c.info) with
    | .error e => .error e
    | .ok s => .ok { c with sig := some (if bad then env.damage p s else s), alg := some g }

/-- The arguments of `build_csr`. -/
structure CsrArgs (B P : Type) where
  key : P
  name : String ⊕ DName B := .inl "CN=Hans Mustermann"
  exts : Option (List XExt) := none
  hash : Option String := some "sha256"
  pss : Bool := false
  san : Option String := none
  noSig : Bool := false
  forKga : Bool := false
  bad : Bool := false
  spki : Option KSpki := none
  version : Int := 0

/-- `certbuildutils.py` 194-208, `_parse_common_name`, of a text and of a name. -/
def parseCommonName (env : CsrEnv B K P) : String ⊕ DName B → Except PyErr (DName B)
  | .inl s => env.parse s
  | .inr n => .ok n

/-- `certbuildutils.py` 266-269: the given structure of the key, or that of the key that signs. -/
def csrSpki (env : CsrEnv B K P) (a : CsrArgs B P) : Except PyErr KSpki :=
  match a.spki with
  | some s => .ok s
  | none => spkiFromPub env (env.pub a.key) a.pss none

/-- `certbuildutils.py` 278-282: the extensions; a list of the caller is extended in place. -/
def csrReqExts (env : CsrEnv B K P) (a : CsrArgs B P) : Except PyErr (Option (List XExt)) :=
  match a.san with
  | none => .ok a.exts
  | some s =>
    match env.san s with
    | .error e => .error e
    | .ok x => .ok (some (a.exts.getD [] ++ [x]))

/-- `certbuildutils.py` 261-285: the request before it is signed. -/
def csrBody (env : CsrEnv B K P) (a : CsrArgs B P) (n : DName B) (s : KSpki) (l : Option (List XExt)) : CsrMsg B :=
  let c : CsrMsg B := ⟨⟨a.version, n, if a.forKga then { s with bits := [] } else s, []⟩, none, none⟩
  match l with
  | none => c
  | some l => csrAddExts env c l

/-- `certbuildutils.py` 287-307: the signature. -/
def csrFinish (env : CsrEnv B K P) (a : CsrArgs B P) (s : KSpki) (c : CsrMsg B) : Except PyErr (CsrMsg B) :=
  if a.noSig = false ∧ a.forKga = false then signCsr env c a.key a.hash a.pss none a.bad
  else if a.forKga then .ok { c with sig := some [], alg := some s.alg }
  else .ok c

/-- `certbuildutils.py` 212-307, `build_csr`; with the list of extensions of the caller afterwards. -/
def buildCsr (env : CsrEnv B K P) (a : CsrArgs B P) : Except PyErr (CsrMsg B × Option (List XExt)) :=
  match parseCommonName env a.name with
  | .error e => .error e
  | .ok n =>
    match csrSpki env a with
    | .error e => .error e
    | .ok s =>
      match csrReqExts env a with
      | .error e => .error e
      | .ok l =>
        match csrFinish env a s (csrBody env a n s l) with
        | .error e => .error e
        | .ok c => .ok (c, a.exts.bind (fun _ => l))

/-- `cmputils.py` 455-461: the structure of the key. -/
def p10Spki (env : CsrEnv B K P) (a : CsrArgs B P) : Except PyErr KSpki :=
  match a.spki with
  | some s => .ok s
  | none => prepSpki env { key := some (.inl a.key), hash := a.hash, pss := a.pss }

/-- `cmputils.py` 412-479, `build_p10cr_from_key` (with `build_p10cr_from_csr`, 483-539), the request in the body: of
the arguments of `build_csr`, `subjectAltName`, `exclude_signature` and `for_kga` are not passed on. -/
def buildP10 (env : CsrEnv B K P) (a : CsrArgs B P) : Except PyErr (CsrMsg B) :=
  match p10Spki env a with
  | .error e => .error e
  | .ok s =>
    match buildCsr env { a with spki := some s, san := none, noSig := false, forKga := false } with
    | .error e => .error e
    | .ok (c, _) => .ok c

/-! ## What is made of a request -/

/-- `certextractutils.py` 282-299, `extract_extensions_from_csr`. -/
def csrExtsOf (env : CsrEnv B K P) (c : CsrMsg B) : Except PyErr (Option (List XExt)) :=
  match c.info.attrs.find? (fun a => decide (a.typ = extReq)) with
  | none => .ok none
  | some a =>
    match env.decExts a.value with
    | .error e => .error e
    | .ok l => .ok (some l)

/-- `certutils.py` 2203-2207: `InvalidSignature` becomes `BadPOP`. -/
def csrPopErr : Except PyErr Unit → Except PyErr Unit
  | .error .invalidSignature => .error .badPOP
  | r => r

/-- `certutils.py` 2174-2207, `verify_csr_signature`. -/
def csrVerify (env : CsrEnv B K P) (c : CsrMsg B) : Except PyErr Unit :=
  match env.loadKey c.info.spki with
  | .error e => .error e
  | .ok k =>
    if env.isVerify k = false then .error .valueError
    else match c.sig with
      | none => .error .pyasn1Error
      | some s =>
        match c.alg with
        | none => .error .pyasn1Error
        | some g => csrPopErr (env.verify k g (env.encInfo c.info) s)

/-- The extensions of a request, for `_validate_subject_field_for_cert_request`. -/
def p10Exts (env : CsrEnv B K P) (c : CsrMsg B) : Except PyErr (List XExt) :=
  match csrExtsOf env c with
  | .error e => .error e
  | .ok l => .ok (l.getD [])

/-- The request as the handler of `p10cr` of the CA (`Verif.Ra.Handler`) reads it. -/
def toP10 (env : CsrEnv B K P) (c : CsrMsg B) : P10 K :=
  { verified := csrVerify env c, nullDn := decide (c.info.subject.rdns = []), exts := p10Exts env c,
    key := env.loadKey c.info.spki }

/-- `compareutils.py` 392-408: the extensions. -/
def cmpCsrExts (env : CsrEnv B K P) (c : CsrMsg B) (exts : List XExt) : Except PyErr Bool :=
  if c.info.attrs = [] then .ok true
  else if 1 < c.info.attrs.length then .error .notImplemented
  else match csrExtsOf env c with
    | .error e => .error e
    | .ok none => .error .notImplemented
    | .ok (some l) => .ok (decide (l = exts))

/-- `compareutils.py` 356-410, `compare_csr_and_cert`: with the subject, the key and the extensions of a certificate. -/
def compareCsr [DecidableEq B] (env : CsrEnv B K P) (c : CsrMsg B) (subject : DName B) (spki : KSpki) (exts : List XExt)
    (strict : Bool) : Except PyErr Bool :=
  if compareNames c.info.subject subject (if strict then .withoutTag else .contains) = false then .ok false
  else if c.info.spki ≠ spki then .ok false
  else cmpCsrExts env c exts

end Verif.Ra
