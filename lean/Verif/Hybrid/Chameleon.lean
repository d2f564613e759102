import Verif.CA.Base

/-!
# Chameleon (paired) certificates (pq_logic/hybrid_sig/chameleon_logic.py)

A paired certificate is a base certificate with a Delta Certificate Descriptor (DCD), an extension that lists the
differences to a second certificate, the delta certificate. The delta certificate is rebuilt from the two.

Names, public keys, times and encoded structures are byte strings. `encDcd`/`decDcd` stand for the DER codec of
`DeltaCertificateDescriptor`, `encTbs` and `encInfo` for the encoding of what is signed; signing, verification, key
loading and hashing are parameters (`Env`), as are the random serial numbers.

Simplified: an empty extension list counts as an absent one (`isValue`); times are in their DER form, so that
`copy_validity` copies them; an alternative signing key (`alt_key`) is not modelled; the fields of a certificate that
the code never touches (version, unique identifiers) are one value `other`.
-/

namespace Verif.Hybrid

open Verif.CA

abbrev Bytes := List UInt8
abbrev Oid := List Nat

/-- `rfc5280.Extension`. -/
structure Ext where
  oid : Oid
  critical : Bool
  value : Bytes
  deriving DecidableEq, Repr

/-- `rfc5280.AlgorithmIdentifier`; `params = none` if the optional field is absent. -/
structure Alg where
  oid : Oid
  params : Option Bytes
  deriving DecidableEq, Repr

/-- `rfc5280.Validity`. `tag` is the explicit context tag of the object: `pyasn1` keeps the tags of an assigned
component, so an object with a tag is encoded with it also where the structure has none. -/
structure Validity where
  notBefore : Bytes
  notAfter : Bytes
  tag : Option Nat
  deriving DecidableEq, Repr

/-- `rfc5280.TBSCertificate`. -/
structure Tbs where
  other : Bytes
  serial : Int
  alg : Alg
  issuer : Bytes
  validity : Validity
  subject : Bytes
  spki : Bytes
  exts : List Ext
  deriving DecidableEq, Repr

/-- `rfc9480.CMPCertificate`. -/
structure Cert where
  tbs : Tbs
  alg : Alg
  sig : Bytes
  deriving DecidableEq, Repr

/-- `hybrid_structures.py` 129-169, `DeltaCertificateDescriptor`. The explicit tag of `validity` is part of the
structure and not of its value. -/
structure Dcd where
  serial : Int
  alg : Option Alg
  issuer : Option Bytes
  validity : Option (Bytes × Bytes)
  subject : Option Bytes
  spki : Bytes
  exts : List Ext
  sig : Bytes
  deriving DecidableEq, Repr

/-- `hybrid_structures.py` 172-198, `DeltaCertificateRequestValue`. -/
structure DeltaReq where
  subject : Option Bytes
  spki : Bytes
  exts : List Ext
  alg : Option Alg
  deriving DecidableEq, Repr

/-- `rfc5652.Attribute`: type and first value. -/
structure Attr where
  typ : Oid
  value : Bytes
  deriving DecidableEq, Repr

/-- `rfc6402.CertificationRequest`. -/
structure Csr where
  subject : Bytes
  spki : Bytes
  attrs : List Attr
  alg : Alg
  sig : Bytes
  deriving DecidableEq, Repr

/-- `id_ce_deltaCertificateDescriptor`. -/
def dcdOid : Oid := [2, 16, 840, 1, 114027, 80, 6, 1]
/-- `rfc5280.id_ce_subjectKeyIdentifier`. -/
def skiOid : Oid := [2, 5, 29, 14]
/-- `id_at_deltaCertificateRequest`. -/
def deltaReqOid : Oid := [2, 16, 840, 1, 114027, 80, 6, 2]
/-- `id_at_deltaCertificateRequestSignature`. -/
def deltaSigOid : Oid := [2, 16, 840, 1, 114027, 80, 6, 3]
/-- `certextractutils.py` 290, the `extensionRequest` attribute. -/
def extReqOid : Oid := [1, 2, 840, 113549, 1, 9, 14]

/-- What the modelled code calls: codecs, `get_hash_from_oid`, and for the key of the CA `prepare_sig_alg_id` and
`sign_data`; key loading and signature verification; the key digest of `_compute_ski`. -/
structure Env (K : Type) where
  encTbs : Tbs → Bytes
  encDcd : Dcd → Bytes
  decDcd : Bytes → Option (Dcd × Bytes)
  hashOf : Oid → Except PyErr (Option String)
  prepAlg : Option String → Bool → Except PyErr Alg
  sign : Option String → Bool → Bytes → Except PyErr Bytes
  decReq : Bytes → Except PyErr DeltaReq
  decSig : Bytes → Except PyErr Bytes
  decExts : Bytes → Except PyErr (List Ext)
  encInfo : Bytes → Bytes → List Attr → Bytes
  loadKey : Bytes → Except PyErr K
  isVerifyKey : K → Bool
  rsaBits : K → Option Nat
  verify : K → Alg → Bytes → Bytes → Except PyErr Unit
  checkName : Bytes → Except PyErr Unit
  digest : Bytes → Bytes
  encSki : Bytes → Bytes
  decSki : Bytes → Except PyErr Bytes

variable {K : Type}

/-! ## Extension lists -/

/-- `certextractutils.py` 118-143, `get_extension` without criticality: the first match. -/
def getExt (l : List Ext) (o : Oid) : Option Ext := l.find? (fun e => decide (e.oid = o))

/-- `certbuildutils.py` 2721-2735, `extensions_contains_extn_id`. -/
def hasExt (o : Oid) (l : List Ext) : Bool := l.any (fun e => decide (e.oid = o))

/-- One turn of the loop of `_clean_base_and_delta_extensions` (805-813). -/
def differing (delta : List Ext) (b : Ext) : List Ext :=
  match getExt delta b.oid with
  | none => []
  | some e => if e.critical ≠ b.critical then [e] else if e.value ≠ b.value then [e] else []

/-- `chameleon_logic.py` 793-815, `_clean_base_and_delta_extensions`. -/
def cleanExts (base delta : List Ext) : List Ext := base.flatMap (differing delta)

/-! ## The descriptor -/

/-- `copy_validity` (`copyasn1utils.py` 67-88) and the assignment to `dcd["validity"]`: the two times. -/
def times (v : Validity) : Bytes × Bytes := (v.notBefore, v.notAfter)

/-- `chameleon_logic.py` 90-140, `prepare_dcd_extension_from_delta` (with `_prepare_issuer_and_subject` 52-76 and
`_compare_times` 79-86). Of a differing signature algorithm only the OID is copied. -/
def prepareDcd (delta : Cert) (base : Tbs) : Dcd where
  serial := delta.tbs.serial
  alg := if delta.tbs.alg = base.alg then none else some ⟨delta.tbs.alg.oid, none⟩
  issuer := if delta.tbs.issuer = base.issuer then none else some delta.tbs.issuer
  validity := if delta.tbs.validity = base.validity then none else some (times delta.tbs.validity)
  subject := if delta.tbs.subject = base.subject then none else some delta.tbs.subject
  spki := delta.tbs.spki
  exts := cleanExts base.exts delta.tbs.exts
  sig := delta.sig

/-- `chameleon_logic.py` 225-228: the DCD extension. -/
def dcdExt (env : Env K) (critical : Bool) (d : Dcd) : Ext := ⟨dcdOid, critical, env.encDcd d⟩

/-- `certbuildutils.py` 945-1008, `sign_cert` with `patch_sig_fields` and without `bad_sig`. -/
def signCert (env : Env K) (t : Tbs) (hash : Option String) (pss : Bool) : Except PyErr Cert :=
  match env.prepAlg hash pss with
  | .error e => .error e
  | .ok a =>
    match env.sign hash pss (env.encTbs { t with alg := a }) with
    | .error e => .error e
    | .ok s => .ok ⟨{ t with alg := a }, a, s⟩

/-- `chameleon_logic.py` 219: `hash_alg or get_hash_from_oid(...)`. -/
def pickHash (env : Env K) (delta : Cert) : Option String → Except PyErr (Option String)
  | some h => .ok (some h)
  | none => env.hashOf delta.tbs.alg.oid

/-- `chameleon_logic.py` 187-236, `build_chameleon_base_certificate`. The descriptor is computed before `sign_cert`
replaces the signature algorithm. -/
def buildBase (env : Env K) (delta : Cert) (base : Tbs) (pss critical : Bool) (hash : Option String) :
    Except PyErr Cert :=
  match pickHash env delta hash with
  | .error e => .error e
  | .ok h => signCert env { base with exts := base.exts ++ [dcdExt env critical (prepareDcd delta base)] } h pss

/-! ## Checking and rebuilding -/

/-- `{ext["extnID"]: ext for ext in base_cert_extensions}` (272): the last entry of an OID wins. -/
def extMap (l : List Ext) (o : Oid) : Option Ext := getExt l.reverse o

/-- One turn of the loop of `validate_dcd_extension` (274-298). -/
def checkDcdExt (base : List Ext) (e : Ext) : Except PyErr Unit :=
  match extMap base e.oid with
  | some b =>
    if e.critical = b.critical ∧ e.value = b.value then .error .valueError
    else if e.oid = dcdOid then .error .valueError else .ok ()
  | none => .error .valueError

/-- `chameleon_logic.py` 248-298, `validate_dcd_extension` on the extensions of a descriptor. -/
def validateDcd (base : List Ext) : List Ext → Except PyErr Unit
  | [] => .ok ()
  | e :: l =>
    match checkDcdExt base e with
    | .error x => .error x
    | .ok () => validateDcd base l

/-- `chameleon_logic.py` 1131-1136, the inner loop: criticality and value of the first match are replaced. -/
def replaceExt (x : Ext) : List Ext → Option (List Ext)
  | [] => none
  | e :: l => if e.oid = x.oid then some ({ e with critical := x.critical, value := x.value } :: l)
    else (replaceExt x l).map (e :: ·)

/-- `chameleon_logic.py` 1128-1138. -/
def applyExts (l : List Ext) : List Ext → Except PyErr (List Ext)
  | [] => .ok l
  | x :: xs =>
    match replaceExt x l with
    | none => .error .valueError
    | some l' => applyExts l' xs

/-- `chameleon_logic.py` 1094-1098. -/
def withoutDcd (l : List Ext) : List Ext := l.filter (fun e => decide (e.oid ≠ dcdOid))

/-- `chameleon_logic.py` 1117-1119: the target of the copied times has the tag of the descriptor. -/
def rebuiltValidity (d : Dcd) (v : Validity) : Validity :=
  match d.validity with
  | some (b, a) => ⟨b, a, some 2⟩
  | none => v

/-- `chameleon_logic.py` 1090-1142, from the decoded descriptor on. -/
def rebuildWith (paired : Cert) (d : Dcd) : Except PyErr Cert :=
  match applyExts (withoutDcd paired.tbs.exts) d.exts with
  | .error e => .error e
  | .ok exts => .ok
      { tbs :=
          { other := paired.tbs.other
            serial := d.serial
            alg := d.alg.getD paired.tbs.alg
            issuer := d.issuer.getD paired.tbs.issuer
            validity := rebuiltValidity d paired.tbs.validity
            subject := d.subject.getD paired.tbs.subject
            spki := d.spki
            exts := exts }
        alg := d.alg.getD paired.alg
        sig := d.sig }

/-- `chameleon_logic.py` 1078-1088 and 1181-1191: the first DCD extension, decoded without remainder. -/
def getDcd (env : Env K) (paired : Cert) : Except PyErr Dcd :=
  match getExt paired.tbs.exts dcdOid with
  | none => .error .valueError
  | some x =>
    match env.decDcd x.value with
    | none => .error .pyasn1Error
    | some (d, rest) => if rest = [] then .ok d else .error .badAsn1Data

/-- `chameleon_logic.py` 1058-1142, `build_delta_cert_from_paired_cert`. -/
def rebuildDelta (env : Env K) (paired : Cert) : Except PyErr Cert :=
  match getDcd env paired with
  | .error e => .error e
  | .ok d => rebuildWith paired d

/-- `chameleon_logic.py` 1158-1191, `get_chameleon_delta_public_key`. -/
def deltaSpki (env : Env K) (paired : Cert) : Except PyErr Bytes :=
  match getDcd env paired with
  | .error e => .error e
  | .ok d => .ok d.spki

/-! ## Paired requests -/

/-- The three results of `extract_chameleon_attributes`. -/
structure ChamAttrs where
  rest : List Attr
  req : Option DeltaReq
  sig : Option Bytes

/-- `chameleon_logic.py` 502-518: the loop over the attributes; later requests and signatures replace earlier ones. -/
def extractLoop (env : Env K) (acc : ChamAttrs) : List Attr → Except PyErr ChamAttrs
  | [] => .ok acc
  | a :: l =>
    if a.typ = deltaReqOid then
      match env.decReq a.value with
      | .error e => .error e
      | .ok r => extractLoop env { acc with rest := acc.rest ++ [a], req := some r } l
    else if a.typ = deltaSigOid then
      match env.decSig a.value with
      | .error e => .error e
      | .ok s => extractLoop env { acc with sig := some s } l
    else extractLoop env { acc with rest := acc.rest ++ [a] } l

/-- `certutils.py` 2174-2207, `verify_csr_signature`; `ensure_is_verify_key` raises `ValueError`. -/
def verifyCsr (env : Env K) (csr : Csr) : Except PyErr Unit :=
  match env.loadKey csr.spki with
  | .error e => .error e
  | .ok k =>
    if env.isVerifyKey k = false then .error .valueError
    else match env.verify k csr.alg (env.encInfo csr.subject csr.spki csr.attrs) csr.sig with
      | .error .invalidSignature => .error .badPOP
      | r => r

/-- `chameleon_logic.py` 593-603: the `try` statement. -/
def altErr : Except PyErr Unit → Except PyErr Unit
  | .error .valueError => .error .badCertTemplate
  | .error .invalidSignature => .error .badAltPOP
  | r => r

/-- `chameleon_logic.py` 594-597. -/
def verifyAlt (env : Env K) (k : K) (a : Alg) (data s : Bytes) : Except PyErr Unit :=
  if env.isVerifyKey k = false then .error .valueError else env.verify k a data s

/-- `chameleon_logic.py` 541-606, `verify_paired_csr_signature`. -/
def verifyPaired (env : Env K) (csr : Csr) : Except PyErr DeltaReq :=
  match verifyCsr env csr with
  | .error e => .error e
  | .ok () =>
    match extractLoop env ⟨[], none, none⟩ csr.attrs with
    | .error e => .error e
    | .ok ⟨_, none, _⟩ => .error .valueError
    | .ok ⟨_, some _, none⟩ => .error .valueError
    | .ok ⟨rest, some r, some s⟩ =>
      match env.loadKey r.spki with
      | .error e => .error e
      | .ok k =>
        match altErr (verifyAlt env k (r.alg.getD csr.alg) (env.encInfo csr.subject csr.spki rest) s) with
        | .error e => .error e
        | .ok () => .ok r

/-- `chameleon_logic.py` 470-486, `load_chameleon_csr_delta_key_and_sender`: the *first* delta request. -/
def loadDeltaSender (env : Env K) (csr : Csr) : Except PyErr (K × Bytes) :=
  match csr.attrs.find? (fun a => decide (a.typ = deltaReqOid)) with
  | none => .error .valueError
  | some a =>
    match env.decReq a.value with
    | .error e => .error e
    | .ok r =>
      match env.loadKey r.spki with
      | .error e => .error e
      | .ok k => .ok (k, r.subject.getD csr.subject)

/-- What a requester puts together (`build_paired_csr` 359-455): the attributes of the base request, the delta
request, the delta signature over these, the base signature over all. -/
def pairedCsr (subject spki : Bytes) (attrs : List Attr) (req sig : Attr) (alg : Alg) (baseSig : Bytes) : Csr :=
  ⟨subject, spki, attrs ++ [req] ++ [sig], alg, baseSig⟩

/-! ## Extensions of a pair -/

/-- `certbuildutils.py` 392-430, `prepare_ski_extension` of a key. -/
def skiExt (env : Env K) (spki : Bytes) (critical : Bool) : Ext := ⟨skiOid, critical, env.encSki (env.digest spki)⟩

/-- `certbuildutils.py` 3323-3385, `validate_subject_key_identifier_extension` as it is called here. -/
def validateSki (env : Env K) (exts : List Ext) (spki : Bytes) (critical : Option Bool) (prepare : Bool) :
    Except PyErr (Option Ext) :=
  match getExt exts skiOid with
  | none => .ok (if prepare then some (skiExt env spki (critical.getD false)) else none)
  | some e =>
    match env.decSki e.value with
    | .error x => .error x
    | .ok v =>
      if v ≠ env.digest spki then .error .badCertTemplate
      else match critical with
        | some c => if e.critical ≠ c then .ok (some (skiExt env spki c)) else .ok (some e)
        | none => .ok (some e)

/-- The loop of `_parse_extension` (726-736). -/
def parseLoop (target : List Ext) : List Ext → Except PyErr (List Ext)
  | [] => .ok target
  | x :: l =>
    if x.oid = dcdOid then .error .badCertTemplate
    else if x.oid = skiOid then parseLoop target l
    else if hasExt x.oid target then parseLoop target l
    else parseLoop (target ++ [x]) l

/-- `chameleon_logic.py` 718-724. -/
def addSki (env : Env K) (spki : Bytes) (target : List Ext) (includeSki : Option Bool) (skiCritical : Bool) :
    Option Ext → List Ext
  | none => target
  | some s => if includeSki = some false then target ++ [skiExt env spki skiCritical] else target ++ [s]

/-- `chameleon_logic.py` 697-738, `_parse_extension`; the extensions and the key are those of the request. -/
def parseExtension (env : Env K) (exts : List Ext) (spki : Bytes) (target : List Ext) (includeSki : Option Bool)
    (skiCritical : Bool) : Except PyErr (List Ext) :=
  match validateSki env exts spki none (decide (includeSki = some true)) with
  | .error e => .error e
  | .ok s => parseLoop (addSki env spki target includeSki skiCritical s) exts

/-- The loops of `_process_remove_extensions` (773-788): the requested extensions of the named OIDs. -/
def addShared (exts target : List Ext) : List Oid → Except PyErr (List Ext)
  | [] => .ok target
  | o :: os =>
    if hasExt o target = false ∧ o ≠ skiOid then
      match getExt exts o with
      | none => .error .pyasn1Error
      | some e => addShared exts (target ++ [e]) os
    else addShared exts target os

/-- `chameleon_logic.py` 741-790, `_process_remove_extensions`. -/
def processRemove (env : Env K) (csrExts : List Ext) (csrSpki : Bytes) (req : DeltaReq) (oids : List Oid)
    (includeSki : Option Bool) (skiCritical : Bool) (additional : List Ext) : Except PyErr (List Ext × List Ext) :=
  match validateSki env csrExts csrSpki none (decide (includeSki ≠ some false)) with
  | .error e => .error e
  | .ok bs =>
    match validateSki env req.exts req.spki (some skiCritical) (decide (includeSki ≠ some false)) with
    | .error e => .error e
    | .ok ds =>
      match addShared csrExts ((if includeSki = some false then [] else bs.toList) ++ additional) oids with
      | .error e => .error e
      | .ok b =>
        match addShared req.exts ((if includeSki = some false then [] else ds.toList) ++ additional) oids with
        | .error e => .error e
        | .ok d => .ok (b, d)

/-- The options of `build_chameleon_cert_from_paired_csr` that concern extensions (`kwargs`). -/
structure ExtOpts where
  includeSki : Option Bool := none
  additional : List Ext := []
  skiCritical : Bool := false
  strict : Bool := false
  same : Bool := true

/-- `chameleon_logic.py` 837-844: requested by the base but not by the delta certificate. -/
def notIncluded (csrExts deltaExts : List Ext) : List Oid :=
  (csrExts.map (·.oid)).filter (fun o => decide (o ∉ deltaExts.map (·.oid)))

/-- `chameleon_logic.py` 837-844: requested by both, in the order of the base. -/
def sharedOids (csrExts deltaExts : List Ext) : List Oid :=
  (csrExts.map (·.oid)).filter (fun o => decide (o ∈ deltaExts.map (·.oid)))

/-- `chameleon_logic.py` 871-874 and similar: the key identifier of `spki`, if asked for. -/
def optSki (env : Env K) (spki : Bytes) (o : ExtOpts) : List Ext :=
  if o.includeSki = some true then [skiExt env spki o.skiCritical] else []

/-- `chameleon_logic.py` 913-956, both request extensions. -/
def processBoth (env : Env K) (csrExts : List Ext) (csrSpki : Bytes) (req : DeltaReq) (o : ExtOpts) :
    Except PyErr (List Ext × List Ext) :=
  if notIncluded csrExts req.exts = [] then
    processRemove env csrExts csrSpki req (sharedOids csrExts req.exts) o.includeSki o.skiCritical o.additional
  else if o.strict then .error .badCertTemplate
  else if o.same then
    processRemove env csrExts csrSpki req (sharedOids csrExts req.exts) o.includeSki o.skiCritical o.additional
  else
    match parseExtension env csrExts csrSpki o.additional o.includeSki o.skiCritical with
    | .error e => .error e
    | .ok b =>
      match parseExtension env req.exts req.spki o.additional o.includeSki o.skiCritical with
      | .error e => .error e
      | .ok d => .ok (b, d)

/-- `chameleon_logic.py` 852-956, `process_extensions_for_chameleon`. If only the base requests extensions, the
target of `_parse_extension` is the list of requested extensions itself; if only the delta certificate does, both
results are one object. -/
def processExts (env : Env K) (csrExts : Option (List Ext)) (csrSpki : Bytes) (req : DeltaReq) (o : ExtOpts) :
    Except PyErr (List Ext × List Ext) :=
  match csrExts with
  | none =>
    if req.exts = [] then
      .ok (o.additional ++ optSki env csrSpki o, o.additional ++ optSki env req.spki o)
    else
      match parseExtension env req.exts req.spki o.additional o.includeSki o.skiCritical with
      | .error e => .error e
      | .ok d => .ok (d, d)
  | some xs =>
    if req.exts = [] then
      match parseExtension env xs csrSpki xs o.includeSki o.skiCritical with
      | .error e => .error e
      | .ok b => .ok (b, o.additional ++ optSki env req.spki o)
    else processBoth env xs csrSpki req o

/-! ## Issuing -/

/-- `certextractutils.py` 282-299, `extract_extensions_from_csr`: the first attribute. -/
def csrExts (env : Env K) (csr : Csr) : Except PyErr (Option (List Ext)) :=
  match csr.attrs.find? (fun a => decide (a.typ = extReqOid)) with
  | none => .ok none
  | some a =>
    match env.decExts a.value with
    | .error e => .error e
    | .ok l => .ok (some l)

/-- `chameleon_logic.py` 679-694: the size of an RSA key is within the limits. -/
def rsaSizeOk (env : Env K) (k : K) : Bool :=
  match env.rsaBits k with
  | none => true
  | some n => decide (2048 ≤ n) && decide (n ≤ 8192)

/-- `chameleon_logic.py` 659-694, `_validate_keys`. -/
def validateKeys [DecidableEq K] (env : Env K) (first delta : K) : Except PyErr Unit :=
  if env.isVerifyKey first = false then .error .badCertTemplate
  else if env.isVerifyKey delta = false then .error .badCertTemplate
  else if delta = first then .error .badCertTemplate
  else if rsaSizeOk env delta = false then .error .badCertTemplate
  else if rsaSizeOk env first = false then .error .badCertTemplate
  else .ok ()

/-- What the CA adds: its name, the validity, the serial numbers drawn for the two certificates and the version. -/
structure Issue where
  issuer : Bytes
  validity : Validity
  serialBase : Int
  serialDelta : Int
  version : Bytes

/-- `certbuildutils.py` 1951-2047, `build_cert_from_csr` with `include_csr_extensions` and `include_ski` off, up to
the signature (with `_prepare_shared_tbs_cert` 1754-1793). -/
def tbsOf (env : Env K) (i : Issue) (serial : Int) (subject spki : Bytes) (exts : List Ext) (hash : String)
    (pss : Bool) : Except PyErr Tbs :=
  match env.checkName subject with
  | .error e => .error e
  | .ok () =>
    match env.prepAlg (some hash) pss with
    | .error e => .error e
    | .ok a => .ok ⟨i.version, serial, a, i.issuer, i.validity, subject, spki, exts⟩

/-- `certbuildutils.py` 1951-2047, `build_cert_from_csr`, with the signature of `_sign_cert` (1858-1895). -/
def certFromCsr (env : Env K) (i : Issue) (serial : Int) (subject spki : Bytes) (exts : List Ext) (hash : String)
    (pss : Bool) : Except PyErr Cert :=
  match tbsOf env i serial subject spki exts hash pss with
  | .error e => .error e
  | .ok t => signCert env t (some hash) pss

/-- `chameleon_logic.py` 1017-1055: the three certificates. The base certificate is first built with the default
hash, the delta certificate with the chosen one (`build_delta_cert` 610-656). -/
def issuePair (env : Env K) (i : Issue) (csr : Csr) (req : DeltaReq) (b d : List Ext) (hash : String) (pss : Bool) :
    Except PyErr (Cert × Cert) :=
  match certFromCsr env i i.serialBase csr.subject csr.spki b "sha256" pss with
  | .error e => .error e
  | .ok base =>
    match certFromCsr env i i.serialDelta (req.subject.getD csr.subject) req.spki d hash pss with
    | .error e => .error e
    | .ok delta =>
      match buildBase env delta base.tbs pss false none with
      | .error e => .error e
      | .ok paired => .ok (paired, delta)

/-- `chameleon_logic.py` 960-1055, `build_chameleon_cert_from_paired_csr` (without `alt_key`). -/
def buildPaired [DecidableEq K] (env : Env K) (i : Issue) (csr : Csr) (o : ExtOpts) (hash : String) (pss : Bool) :
    Except PyErr (Cert × Cert) :=
  match verifyPaired env csr with
  | .error e => .error e
  | .ok req =>
    match env.loadKey csr.spki with
    | .error e => .error e
    | .ok k1 =>
      match env.loadKey req.spki with
      | .error e => .error e
      | .ok k2 =>
        match validateKeys env k1 k2 with
        | .error e => .error e
        | .ok () =>
          match csrExts env csr with
          | .error e => .error e
          | .ok xs =>
            match processExts env xs csr.spki req o with
            | .error e => .error e
            | .ok (b, d) => issuePair env i csr req b d hash pss

end Verif.Hybrid
