import Verif.Hybrid.CatalystIssue

/-!
# Hybrid protection of messages, CRLs and chains (pq_logic/pq_verify_logic.py)

`verify_hybrid_pkimessage_protection`, `verify_crl_signature`, `build_migration_cert_chain`,
`verify_cert_hybrid_signature`, `may_extract_alt_key_from_cert`; and the makers `protect_hybrid_pkimessage` (protection
`catalyst`) and `sign_crl_catalyst`.

Simplified: a message is its `generalInfo`, protection algorithm, protection, `extraCerts` and the rest of header and
body; absent and empty lists are the same. The bodies of the helpers of other modules (Sun hybrid key, related
certificate, certificate discovery, delta descriptor) are parameters.
-/

namespace Verif.Hybrid

open Verif.CA

/-- `rfc9480.InfoTypeAndValue`. -/
structure Info where
  oid : Oid
  value : Bytes
  deriving DecidableEq, Repr

/-- `PKIMessageTMP`; `rest` is the body and the header without `generalInfo` and `protectionAlg`. -/
structure HMsg where
  rest : Bytes
  protAlg : Option Alg
  info : List Info
  prot : Option Bytes
  certs : List Cert
  deriving DecidableEq, Repr

/-- `rfc5280.CertificateList`; `rest` is the `tbsCertList` without its extensions. -/
structure Crl where
  rest : Bytes
  exts : List Ext
  alg : Alg
  sig : Bytes
  deriving DecidableEq, Repr

/-- The kinds of key identifiers that `verify_composite_signature_with_hybrid_cert` tells apart. -/
inductive KeyClass where
  | trad
  | pq
  | composite
  | other
  deriving DecidableEq, Repr

/-- The calls of the verification code. `related`: `get_related_cert_from_list`; `siaDesc`:
`extract_related_cert_des_from_sis_extension`; `fetch`: the first certificate at the location, with
`validate_related_certificate_descriptor_alg_ids`; `sunKey`: `get_sun_hybrid_alt_pub_key`; `deltaSpki`:
`get_chameleon_delta_public_key`; `pqPart`: `public_key.pq_key`. -/
structure HybEnv (S K : Type) extends PopEnv S K where
  encProt : Bytes → Option Alg → List Info → Bytes
  encCrl : Bytes → List Ext → Bytes
  isComposite : K → Bool
  certClass : Bytes → KeyClass
  compositeKey : K → K → Except PyErr K
  related : List Cert → Cert → Except PyErr Cert
  siaDesc : Ext → Except PyErr Bytes
  fetch : Bytes → Except PyErr Cert
  sunKey : List Ext → Except PyErr (Option K)
  deltaSpki : Cert → Except PyErr Bytes
  pqPart : K → Except PyErr K

variable {S K : Type}

/-- `id_relatedCert` (tmp_oids.py 19-48, 440). -/
def relatedOid : Oid := [1, 3, 6, 1, 5, 5, 7, 4, 9996, 9999, 4, 2, 1]
/-- `id_altSubPubKeyExt` (tmp_oids.py 459). -/
def sunPubOid : Oid := [1, 3, 6, 1, 5, 5, 7, 4, 9996, 9999, 4, 4, 6]
/-- `rfc5280.id_pe_subjectInfoAccess`. -/
def siaOid : Oid := [1, 3, 6, 1, 5, 5, 7, 1, 11]

/-- `pq_verify_logic.py` 748-760: a `ValueError` of the reader means that there is no descriptor. -/
def siaOf (env : HybEnv S K) (l : List Ext) : Except PyErr (Option Bytes) :=
  match getExt l siaOid with
  | none => .ok none
  | some x =>
    match env.siaDesc x with
    | .ok d => .ok (some d)
    | .error e => if e = .valueError then .ok none else .error e

/-- The branches after the related certificate (pq_verify_logic.py 783-812). -/
def altKeyRest (env : HybEnv S K) (cert : Cert) (desc : Option Bytes) : Except PyErr (Option K) :=
  match getExt cert.tbs.exts altSpkiOid with
  | some x =>
    match loadCat env.toCatEnv [x] with
    | .error e => .error e
    | .ok k => if env.isPqSig k then .ok (some k) else .error .valueError
  | none =>
    match desc with
    | some d =>
      match env.fetch d with
      | .error e => .error e
      | .ok c => (env.loadKey c.tbs.spki).map some
    | none =>
      match getExt cert.tbs.exts dcdOid with
      | some _ =>
        match env.deltaSpki cert with
        | .error e => .error e
        | .ok b => (env.loadKey b).map some
      | none =>
        if env.certClass cert.tbs.spki = .composite then
          match env.loadKey cert.tbs.spki with
          | .error e => .error e
          | .ok k => (env.pqPart k).map some
        else .ok none

/-- `pq_verify_logic.py` 710-814, `may_extract_alt_key_from_cert`. -/
def mayAltKey (env : HybEnv S K) (cert : Cert) (others : Option (List Cert)) : Except PyErr (Option K) :=
  match siaOf env cert.tbs.exts with
  | .error e => .error e
  | .ok desc =>
    match getExt cert.tbs.exts sunPubOid with
    | some _ =>
      match env.sunKey cert.tbs.exts with
      | .error e => .error e
      | .ok none => .error .valueError
      | .ok (some k) => .ok (some k)
    | none =>
      match getExt cert.tbs.exts relatedOid, others with
      | some _, some l =>
        match env.related l cert with
        | .error e => .error e
        | .ok c => (env.loadKey c.tbs.spki).map some
      | _, _ => altKeyRest env cert desc

/-! ## Messages -/

/-- `pq_verify_logic.py` 109-153, `_verify_signature_with_other_cert`. -/
def verifyWithOther (env : HybEnv S K) (cert : Cert) (alg : Alg) (data sig : Bytes) (others : Option (List Cert)) :
    Except PyErr Unit :=
  if env.isCompositeOid alg.oid = false then .error .valueError
  else match mayAltKey env cert others with
  | .error e => .error e
  | .ok none => .error .valueError
  | .ok (some pq) =>
    match env.loadKey cert.tbs.spki with
    | .error e => .error e
    | .ok t => verifyComposite env.toPopEnv alg data sig pq t

/-- `pq_verify_logic.py` 156-221, `verify_composite_signature_with_hybrid_cert`. -/
def verifyHybridCert (env : HybEnv S K) (data sig : Bytes) (alg : Alg) (cert : Cert) (others : Option (List Cert)) :
    Except PyErr Unit :=
  if env.isCompositeOid alg.oid = false then .error .valueError
  else match env.certClass cert.tbs.spki with
  | .trad => verifyWithOther env cert alg data sig others
  | .pq => .error .valueError
  | .composite =>
    match env.loadKey cert.tbs.spki with
    | .error e => .error e
    | .ok k =>
      match ensureVerify env.toCatEnv k with
      | .error e => .error e
      | .ok k => env.verifyAlg k alg data sig
  | .other => .error .unknownOID

/-- What the loop of `_get_catalyst_info_vals` collects. -/
structure InfoVals where
  alg : Option Alg
  spki : Option Bytes
  sig : Option Bytes
  other : List Info
  deriving DecidableEq, Repr

/-- The loop of `_get_catalyst_info_vals` (468-482); what follows a decoded value is not looked at. -/
def infoLoop (env : CatEnv S K) : List Info → InfoVals → Except PyErr InfoVals
  | [], v => .ok v
  | i :: l, v =>
    if i.oid = altAlgOid then
      match env.decAlg i.value with
      | none => .error .pyasn1Error
      | some (a, _) => infoLoop env l { v with alg := some a, other := v.other ++ [i] }
    else if i.oid = altSpkiOid then
      match env.decSpki i.value with
      | none => .error .pyasn1Error
      | some (b, _) => infoLoop env l { v with spki := some b, other := v.other ++ [i] }
    else if i.oid = altSigOid then
      match env.decBits i.value with
      | none => .error .pyasn1Error
      | some (s, _) => infoLoop env l { v with sig := some s }
    else infoLoop env l { v with other := v.other ++ [i] }

/-- `pq_verify_logic.py` 446-503, `_get_catalyst_info_vals`; `none` if there is nothing to verify. -/
def infoVals (env : CatEnv S K) (l : List Info) (must : Bool) :
    Except PyErr (Option (Alg × Option Bytes × Bytes × List Info)) :=
  match infoLoop env l ⟨none, none, none, []⟩ with
  | .error e => .error e
  | .ok v =>
    match v.alg, v.sig with
    | none, none => if must then .error .valueError else .ok none
    | _, none => .error .valueError
    | none, some _ => .error .valueError
    | some a, some s => .ok (some (a, v.spki, s, v.other))

/-- The key of the alternative signature (588-592), which may be missing. -/
def infoKey (env : HybEnv S K) (spki : Option Bytes) (cert : Cert) (others : List Cert) : Except PyErr (Option K) :=
  match spki with
  | some b => (env.loadKey b).map some
  | none => mayAltKey env cert (some others)

/-- The last part of `verify_hybrid_pkimessage_protection` (577-608): the alternative signature in `generalInfo`, which
is removed from the message. -/
def verifyInfo (env : HybEnv S K) (m : HMsg) (cert : Cert) (others : List Cert) (must : Bool) : Res HMsg Unit :=
  match infoVals env.toCatEnv m.info must with
  | .error e => (.error e, m)
  | .ok none => (.ok (), m)
  | .ok (some (a, spki, s, other)) =>
    match infoKey env spki cert others with
    | .error e => (.error e, m)
    | .ok none => (.error .valueError, { m with info := other })
    | .ok (some k) =>
      match ensureVerify env.toCatEnv k with
      | .error e => (.error e, { m with info := other })
      | .ok k => (asAlt (env.verifyAlg k a (env.encProt m.rest m.protAlg other) s), { m with info := other })

/-- The branch for a single signature (560-576): the key is that of the first certificate, whatever key is given. -/
def verifySingle (env : HybEnv S K) (m : HMsg) (a : Alg) (sig : Bytes) (must : Bool) : Res HMsg Unit :=
  match m.certs with
  | [] => (.error .pyasn1Error, m)
  | c :: cs =>
    match env.loadKey c.tbs.spki with
    | .error e => (.error e, m)
    | .ok k =>
      match ensureVerify env.toCatEnv k with
      | .error e => (.error e, m)
      | .ok k =>
        match env.verifyAlg k a (env.encProt m.rest m.protAlg m.info) sig with
        | .error e => (.error e, m)
        | .ok () => verifyInfo env m c cs must

/-- `pq_verify_logic.py` 506-608, `verify_hybrid_pkimessage_protection`. `len(pki_message) > 1` holds for every
message, so the other certificates are always passed on as a list. -/
def verifyHybrid (env : HybEnv S K) (m : HMsg) (key : Option K) (must : Bool) : Res HMsg Unit :=
  match m.protAlg with
  | none => (.error .badMessageCheck, m)
  | some a =>
    match m.prot with
    | none => (.error .badMessageCheck, m)
    | some sig =>
      if m.certs = [] ∧ key = none then (.error .badMessageCheck, m)
      else if env.isCompositeOid a.oid then
        match key.filter env.isComposite with
        | some k => (env.verifyAlg k a (env.encProt m.rest m.protAlg m.info) sig, m)
        | none =>
          match m.certs with
          | [] => (.error .pyasn1Error, m)
          | c :: cs =>
            (verifyHybridCert env (env.encProt m.rest m.protAlg m.info) sig a c (some cs), m)
      else verifySingle env m a sig must

/-- `protectionutils.py` 2768-2917, `protect_hybrid_pkimessage` with the protection `catalyst`, after the sender and
the certificates are set. -/
def protectCat (env : HybEnv S K) (m : HMsg) (key alt : S) (incl : Bool) (hash : Option String) (pss bad : Bool) :
    Except PyErr HMsg :=
  match env.prepAlg alt hash pss with
  | .error e => .error e
  | .ok aa =>
    match env.prepAlg key hash pss with
    | .error e => .error e
    | .ok a =>
      let info := m.info ++ [⟨altAlgOid, env.encAlg aa⟩] ++
        (if incl then [⟨altSpkiOid, env.spkiOf (env.pub alt)⟩] else [])
      match env.signAlg alt aa (env.encProt m.rest (some a) info) with
      | .error e => .error e
      | .ok s =>
        match catManip bad s with
        | .error e => .error e
        | .ok s =>
          match env.signAlg key a (env.encProt m.rest (some a) (info ++ [⟨altSigOid, env.encBits s⟩])) with
          | .error e => .error e
          | .ok sig => .ok { m with protAlg := some a, info := info ++ [⟨altSigOid, env.encBits s⟩], prot := some sig }

/-! ## CRLs -/

/-- What the loop of `verify_crl_signature` collects. -/
structure CrlVals (K : Type) where
  alg : Option Alg
  key : Option K
  sig : Option Bytes
  other : List Ext

/-- The loop over the extensions of the CRL (pq_verify_logic.py 653-682). -/
def crlLoop (env : CatEnv S K) : List Ext → CrlVals K → Except PyErr (CrlVals K)
  | [], v => .ok v
  | x :: l, v =>
    if x.oid = altSigOid then
      match env.decBits x.value with
      | none => .error .pyasn1Error
      | some (s, r) => if r ≠ [] then .error .badAsn1Data else crlLoop env l { v with sig := some s }
    else if x.oid = altAlgOid then
      match env.decAlg x.value with
      | none => .error .pyasn1Error
      | some (a, r) =>
        if r ≠ [] then .error .badAsn1Data else crlLoop env l { v with alg := some a, other := v.other ++ [x] }
    else if x.oid = altSpkiOid then
      match env.decSpki x.value with
      | none => .error .pyasn1Error
      | some (b, r) =>
        if r ≠ [] then .error .badAsn1Data
        else match v.key with
        | some _ => crlLoop env l { v with other := v.other ++ [x] }
        | none =>
          match env.loadKey b with
          | .error e => .error e
          | .ok k => crlLoop env l { v with key := some k, other := v.other ++ [x] }
    else crlLoop env l { v with other := v.other ++ [x] }

/-- The check of the alternative signature (684-705); the extensions were replaced already. -/
def crlAlt (env : HybEnv S K) (c : Crl) (v : CrlVals K) : Except PyErr Unit :=
  match v.alg, v.key, v.sig with
  | none, _, _ => .error .valueError
  | _, none, _ => .error .valueError
  | _, _, none => .error .valueError
  | some a, some k, some s =>
    match ensureVerify env.toCatEnv k with
    | .error e => .error e
    | .ok k => asAlt (env.verifyAlg k a (env.encCrl c.rest v.other ++ env.encAlg c.alg) s)

/-- The ordinary signature (646-650, `verify_signature_with_cert`). -/
def crlMain (env : HybEnv S K) (c : Crl) (ca : Cert) : Except PyErr Unit :=
  match env.hashOf c.alg.oid with
  | .error e => .error e
  | .ok h =>
    match env.loadKey ca.tbs.spki with
    | .error e => .error e
    | .ok k =>
      match ensureVerify env.toCatEnv k with
      | .error e => .error e
      | .ok k => env.verify k h (env.encCrl c.rest c.exts) c.sig

/-- `pq_verify_logic.py` 611-708, `verify_crl_signature`. -/
def verifyCrl (env : HybEnv S K) (c : Crl) (ca : Cert) (key : Option K) (must : Bool) : Res Crl Unit :=
  match crlMain env c ca with
  | .error e => (.error e, c)
  | .ok () =>
    match c.exts with
    | [] => (if must then .error .valueError else .ok (), c)
    | x :: l =>
      match crlLoop env.toCatEnv (x :: l) ⟨none, key, none, []⟩ with
      | .error e => (.error e, c)
      | .ok v => (crlAlt env c v, { c with exts := v.other })

/-- Options of `sign_crl_catalyst`. -/
structure CrlOpts where
  incl : Bool
  hash : Option String
  altHash : Option String
  pss : Bool
  crit : Bool
  badSig : Bool
  badAlt : Bool

/-- The alternative signature (544-570). It is made without PSS, whatever `use_rsa_pss` says. -/
def crlWithAlt (env : HybEnv S K) (c : Crl) (alt : S) (o : CrlOpts) : Except PyErr Crl :=
  match env.prepAlg alt (o.altHash.or o.hash) o.pss with
  | .error e => .error e
  | .ok aa =>
    let exts := c.exts ++ [altAlgExt env.toCatEnv aa o.crit] ++
      (if o.incl then [altSpkiExt env.toCatEnv (env.pub alt) o.crit] else [])
    match env.sign alt (o.altHash.or o.hash) false (env.encCrl c.rest exts ++ env.encAlg c.alg) with
    | .error e => .error e
    | .ok s =>
      match catManip o.badAlt s with
      | .error e => .error e
      | .ok s => .ok { c with exts := exts ++ [altSigExt env.toCatEnv s o.crit] }

/-- `catalyst_logic.py` 503-582, `sign_crl_catalyst`. The manipulation of a signature (`manipulate_bytes_based_on_key`)
is the one of the first byte. -/
def signCrl (env : HybEnv S K) (c : Crl) (ca : S) (alt : Option S) (o : CrlOpts) : Except PyErr Crl :=
  match env.prepAlg ca o.hash o.pss with
  | .error e => .error e
  | .ok a =>
    let r : Except PyErr Crl := match alt with
      | none => .ok { c with alg := a }
      | some k => crlWithAlt env { c with alg := a } k o
    match r with
    | .error e => .error e
    | .ok c' =>
      match env.sign ca o.hash false (env.encCrl c'.rest c'.exts) with
      | .error e => .error e
      | .ok s => (catManip o.badSig s).map (fun s => { c' with sig := s })

/-! ## Chains -/

/-- The `try` block of `build_migration_cert_chain` (313-319). -/
def migSigned (env : CatEnv S K) (c issuer : Cert) : Except PyErr Unit :=
  match env.loadKey issuer.tbs.spki with
  | .error e => .error e
  | .ok k => env.verifyAlg k c.tbs.alg (env.encTbs c.tbs) c.sig

/-- The loop of `build_migration_cert_chain` (309-328): the certificates after `c`. -/
def migLoop (env : CatEnv S K) (c : Cert) : List Cert → Except PyErr (List Cert)
  | [] => .ok []
  | p :: l =>
    if c.tbs.issuer ≠ p.tbs.subject then migLoop env c l
    else match migSigned env c p with
    | .error e =>
      if e = .invalidSignature ∨ e = .valueError ∨ e = .badSigAlgId then migLoop env c l else .error e
    | .ok () =>
      if c.tbs.subject = c.tbs.issuer then .ok []
      else (migLoop env p l).map (fun r => p :: r)

/-- `pq_verify_logic.py` 266-335, `build_migration_cert_chain`. -/
def migChain (env : CatEnv S K) (c : Cert) (certs : List Cert) (allowSelf : Bool) : Except PyErr (List Cert) :=
  if certs = [] then .error .valueError
  else match migLoop env c certs with
  | .error e => .error e
  | .ok l => if l = [] ∧ allowSelf = false then .error .valueError else .ok (c :: l)

/-! ## Certificates with a composite signature -/

/-- `pq_verify_logic.py` 55-106, `verify_cert_hybrid_signature`. The other certificate is used before it is compared
with `None`. -/
def verifyCertHybrid (env : HybEnv S K) (ee issuer : Cert) (other : Option Cert) : Except PyErr Unit :=
  match other with
  | none => .error .typeError
  | some o =>
    if env.certClass ee.tbs.spki ≠ .composite then .error .unknownOID
    else match env.loadKey issuer.tbs.spki with
    | .error e => .error e
    | .ok t =>
      match env.loadKey o.tbs.spki with
      | .error e => .error e
      | .ok p =>
        match env.compositeKey p t with
        | .error e => .error e
        | .ok k => env.verifyAlg k ee.tbs.alg (env.encTbs ee.tbs) ee.sig

end Verif.Hybrid
