import Verif.Hybrid.Chameleon

/-!
# Catalyst certificates (pq_logic/hybrid_sig/catalyst_logic.py)

A catalyst certificate has a second, alternative signature in three extensions: `subjectAltPublicKeyInfo`,
`altSignatureAlgorithm` and `altSignatureValue`.

Private keys are values of a type `S`, public keys of a type `K`; signing, verification, key loading and the DER
codecs are parameters (`CatEnv`). Simplified as in `Verif.Hybrid.Chameleon`: an empty extension list counts as an
absent one, and version and unique identifiers are one value `other`. The log messages are dropped.
-/

namespace Verif.Hybrid

open Verif.CA

/-- `id_ce_subjectAltPublicKeyInfo`. -/
def altSpkiOid : Oid := [2, 5, 29, 72]
/-- `id_ce_altSignatureAlgorithm`. -/
def altAlgOid : Oid := [2, 5, 29, 73]
/-- `id_ce_altSignatureValue`. -/
def altSigOid : Oid := [2, 5, 29, 74]

/-- `hybrid_structures.py`, `CatalystPreTBSCertificate`: a `TBSCertificate` without the signature algorithm. -/
structure PreTbs where
  other : Bytes
  serial : Int
  issuer : Bytes
  validity : Validity
  subject : Bytes
  spki : Bytes
  exts : List Ext
  deriving DecidableEq, Repr

/-- What the modelled code calls. `sign key hash pss data` is `sign_data`, `verify key hash data sig` is
`verify_signature`, `verifyAlg key alg data sig` is `verify_signature_with_alg_id`; decoders return the rest of the
input. -/
structure CatEnv (S K : Type) where
  encTbs : Tbs → Bytes
  encPre : PreTbs → Bytes
  encAlg : Alg → Bytes
  decAlg : Bytes → Option (Alg × Bytes)
  encBits : Bytes → Bytes
  decBits : Bytes → Option (Bytes × Bytes)
  decSpki : Bytes → Option (Bytes × Bytes)
  spkiOf : K → Bytes
  loadKey : Bytes → Except PyErr K
  isVerifyKey : K → Bool
  pub : S → K
  prepAlg : S → Option String → Bool → Except PyErr Alg
  sign : S → Option String → Bool → Bytes → Except PyErr Bytes
  verify : K → Option String → Bytes → Bytes → Except PyErr Unit
  verifyAlg : K → Alg → Bytes → Bytes → Except PyErr Unit
  hashOf : Oid → Except PyErr (Option String)
  pqOid : String → Option Oid

variable {S K : Type}

/-! ## Extensions -/

/-- `catalyst_logic.py` 35-74, `prepare_subject_alt_public_key_info_extn` with a public key. -/
def altSpkiExt (env : CatEnv S K) (k : K) (critical : Bool) : Ext := ⟨altSpkiOid, critical, env.spkiOf k⟩

/-- `catalyst_logic.py` 78-124, `prepare_alt_sig_alg_id_extn` with an algorithm identifier. -/
def altAlgExt (env : CatEnv S K) (a : Alg) (critical : Bool) : Ext := ⟨altAlgOid, critical, env.encAlg a⟩

/-- `catalyst_logic.py` 128-153, `prepare_alt_signature_value_extn`. -/
def altSigExt (env : CatEnv S K) (sig : Bytes) (critical : Bool) : Ext := ⟨altSigOid, critical, env.encBits sig⟩

/-- `resources/utils.py` 105-115, `manipulate_first_byte`. -/
def manipFirst : Bytes → Except PyErr Bytes
  | [] => .error .indexError
  | b :: l => if b = 0 then .ok (1 :: l) else .ok (0 :: l)

/-! ## Signing -/

/-- `catalyst_logic.py` 157-183, `convert_tbs_to_pre_tbs`. -/
def preTbs (t : Tbs) : PreTbs :=
  ⟨t.other, t.serial, t.issuer, t.validity, t.subject, t.spki, t.exts.filter (fun x => decide (x.oid ≠ altSigOid))⟩

/-- `catalyst_logic.py` 187-197, `extract_alt_signature_data`. -/
def altData (env : CatEnv S K) (t : Tbs) : Bytes := env.encPre (preTbs t)

/-- `certbuildutils.py` 945-1008, `sign_cert` with `patch_sig_fields` and without `bad_sig`. -/
def catSignCert (env : CatEnv S K) (key : S) (t : Tbs) (hash : Option String) (pss : Bool) : Except PyErr Cert :=
  match env.prepAlg key hash pss with
  | .error e => .error e
  | .ok a =>
    match env.sign key hash pss (env.encTbs { t with alg := a }) with
    | .error e => .error e
    | .ok s => .ok ⟨{ t with alg := a }, a, s⟩

/-- The options of `sign_cert_catalyst` (204-209). -/
structure CatOpts where
  pqHash : Option String
  hash : Option String
  pss : Bool
  critical : Bool
  badAlt : Bool
  deriving DecidableEq, Repr

/-- `catalyst_logic.py` 240-248: the certificate with the algorithm and the two extensions that are signed. -/
def catPrepared (env : CatEnv S K) (t : Tbs) (pq : S) (tradAlg altAlg : Alg) (critical : Bool) : Tbs :=
  { t with alg := tradAlg, exts := t.exts ++ [altAlgExt env altAlg critical, altSpkiExt env (env.pub pq) critical] }

/-- `catalyst_logic.py` 252-254: a wrong alternative signature on demand. A stateful hash key is not modelled. -/
def catManip (bad : Bool) (sig : Bytes) : Except PyErr Bytes := if bad then manipFirst sig else .ok sig

/-- `catalyst_logic.py` 200-259, `sign_cert_catalyst`. -/
def signCat (env : CatEnv S K) (t : Tbs) (pq trad : S) (o : CatOpts) : Except PyErr Cert :=
  match env.prepAlg pq o.pqHash o.pss with
  | .error e => .error e
  | .ok aa =>
    match env.prepAlg trad o.hash o.pss with
    | .error e => .error e
    | .ok ta =>
      match env.sign pq o.pqHash false (altData env (catPrepared env t pq ta aa o.critical)) with
      | .error e => .error e
      | .ok s =>
        match catManip o.badAlt s with
        | .error e => .error e
        | .ok s' =>
          catSignCert env trad
            { catPrepared env t pq ta aa o.critical with
              exts := (catPrepared env t pq ta aa o.critical).exts ++ [altSigExt env s' o.critical] } o.hash o.pss

/-! ## Checking -/

/-- The argument `sig_alg_must_be`: absent, an OID in dotted form, or a name. -/
inductive SigMust where
  | any
  | oid (o : Oid)
  | name (s : String)
  deriving DecidableEq, Repr

/-- The dictionary that `validate_catalyst_extensions` returns. -/
structure CatVals where
  sig : Bytes
  spki : Bytes
  alg : Alg
  deriving DecidableEq, Repr

/-- `catalyst_logic.py` 324-331. -/
def checkMust (env : CatEnv S K) (a : Alg) : SigMust → Except PyErr Unit
  | .any => .ok ()
  | .oid o => if a.oid ≠ o then .error .badAlg else .ok ()
  | .name s =>
    match env.pqOid s with
    | none => .error .keyError
    | some o => if o ≠ a.oid then .error .badAlg else .ok ()

/-- `catalyst_logic.py` 309-340: decoding of the three values. The rest of the first two is not looked at. -/
def decodeCat (env : CatEnv S K) (spki alg sig : Bytes) (must : SigMust) : Except PyErr CatVals :=
  match env.decSpki spki with
  | none => .error .badAsn1Data
  | some (k, _) =>
    match env.decAlg alg with
    | none => .error .badAsn1Data
    | some (a, _) =>
      match env.decBits sig with
      | none => .error .badAsn1Data
      | some (s, rest) =>
        if rest ≠ [] then .error .badAsn1Data
        else
          match checkMust env a must with
          | .error e => .error e
          | .ok () => .ok ⟨s, k, a⟩

/-- `catalyst_logic.py` 260-340, `validate_catalyst_extensions`; the dictionary keeps the last extension of an OID. -/
def validateCat (env : CatEnv S K) (l : List Ext) (must : SigMust) : Except PyErr (Option CatVals) :=
  match extMap l altSpkiOid, extMap l altAlgOid, extMap l altSigOid with
  | none, none, none => .ok none
  | some k, some a, some s =>
    match decodeCat env k.value a.value s.value must with
    | .error e => .error e
    | .ok v => .ok (some v)
  | _, _, _ => .error .valueError

/-- `convertutils.py` 60-64, `ensure_is_verify_key`. -/
def ensureVerify (env : CatEnv S K) (k : K) : Except PyErr K :=
  if env.isVerifyKey k then .ok k else .error .valueError

/-- `catalyst_logic.py` 378-384: the key for the traditional signature. -/
def issuerKey (env : CatEnv S K) (c : Cert) (issuer : Option Cert) (key : Option K) : Except PyErr K :=
  match issuer with
  | some i => env.loadKey i.tbs.spki
  | none =>
    match key with
    | some k => .ok k
    | none => env.loadKey c.tbs.spki

/-- `catalyst_logic.py` 391-402: the alternative signature, with the key that is in the certificate itself. -/
def catVerifyAlt (env : CatEnv S K) (c : Cert) (v : CatVals) : Except PyErr Unit :=
  match env.loadKey v.spki with
  | .error e => .error e
  | .ok k =>
    match env.hashOf v.alg.oid with
    | .error e => .error e
    | .ok h =>
      match ensureVerify env k with
      | .error e => .error e
      | .ok k' => env.verify k' h (altData env c.tbs) v.sig

/-- `certutils.py` 177-196, `verify_cert_signature` with a key. -/
def verifyCertSig (env : CatEnv S K) (c : Cert) (k : K) : Except PyErr Unit :=
  match ensureVerify env k with
  | .error e => .error e
  | .ok k' => env.verifyAlg k' c.tbs.alg (env.encTbs c.tbs) c.sig

/-- `catalyst_logic.py` 343-402, `verify_catalyst_signature`. -/
def verifyCat (env : CatEnv S K) (c : Cert) (issuer : Option Cert) (key : Option K) (must : SigMust) :
    Except PyErr Unit :=
  match validateCat env c.tbs.exts must with
  | .error e => .error e
  | .ok none => .error .valueError
  | .ok (some v) =>
    match issuerKey env c issuer key with
    | .error e => .error e
    | .ok k =>
      match verifyCertSig env c k with
      | .error e => .error e
      | .ok () => catVerifyAlt env c v

/-- `catalyst_logic.py` 460-497, `load_catalyst_public_key`: the first extension of the OID. -/
def loadCat (env : CatEnv S K) (l : List Ext) : Except PyErr K :=
  match getExt l altSpkiOid with
  | none => .error .valueError
  | some e =>
    match env.decSpki e.value with
    | none => .error .pyasn1Error
    | some (k, rest) => if rest ≠ [] then .error .badAsn1Data else env.loadKey k

end Verif.Hybrid
