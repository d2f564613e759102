import Verif.Hybrid.Catalyst

/-!
# Issuing of catalyst certificates (pq_logic/hybrid_issuing.py 270-1050)

Two ways to get a certificate with an alternative key: a request that carries the second key of the client, with a
proof of possession for both keys (`build_cert_from_catalyst_request`), and a request for a certificate that the CA
signs with a second key (`build_catalyst_signed_cert_from_req`).

Simplified: the fields of a `CertTemplate` that the modelled code does not look at are one value `other`; the serial
number, the validity and the standard extensions of an issued certificate are parameters; an encrypted certificate is
the pair of certificate and recipient key; the response message around the `CertResponse`s is left out.
-/

namespace Verif.Hybrid

open Verif.CA

/-- `rfc4211.CertRequest`. -/
structure CatReq where
  reqId : Int
  other : Bytes
  subject : Bytes
  spki : Bytes
  exts : List Ext
  deriving DecidableEq, Repr

/-- `rfc4211.ProofOfPossession`; `keyEnc` is `keyEncipherment` with `subsequentMessage = encrCert`. -/
inductive Popo where
  | sig (alg : Alg) (s : Bytes)
  | keyEnc
  | other
  deriving DecidableEq, Repr

/-- `rfc4211.CertReqMsg`. -/
structure CatMsg where
  req : CatReq
  popo : Popo
  deriving DecidableEq, Repr

/-- The further calls of the issuing code: classes of keys, composite signatures, and what a new certificate gets. -/
structure PopEnv (S K : Type) extends CatEnv S K where
  encReq : CatReq → Bytes
  signAlg : S → Alg → Bytes → Except PyErr Bytes
  compVerify : K → K → Alg → Bytes → Bytes → Except PyErr Unit
  compSign : S → S → Alg → Bytes → Except PyErr Bytes
  compAlg : S → S → Option String → Bool → Except PyErr Alg
  isCompositeOid : Oid → Bool
  isCompositeSpki : Bytes → Bool
  isKem : K → Bool
  isPqSig : K → Bool
  isMlDsa : K → Bool
  isTradVerify : K → Bool
  isEcRsa : K → Bool
  isKemPriv : S → Bool
  isTradSign : S → Bool
  isPqSign : S → Bool
  genKey : Alg → Except PyErr S
  defaultKey : S
  preHashOf : Alg → Option String
  stdExts : K → List Ext
  tbsOther : Bytes
  serial : Int
  validity : CatReq → Validity

variable {S K : Type}

/-! ## Proof of possession -/

/-- `protectionutils.py` 2960-2998, `verify_composite_signature_with_keys`. -/
def verifyComposite (env : PopEnv S K) (alg : Alg) (data sig : Bytes) (k1 k2 : K) : Except PyErr Unit :=
  let p := if env.isPqSig k1 then k1 else k2
  let t := if env.isPqSig k1 then k2 else k1
  if env.isMlDsa p = false then .error .invalidKeyCombination
  else if env.isEcRsa t = false then .error .invalidKeyCombination
  else if env.isCompositeOid alg.oid = false then .error .badAlg
  else env.compVerify p t alg data sig

/-- `hybrid_issuing.py` 478-483: the request without the alternative signature. -/
def stripAltSig (m : CatMsg) : CatMsg :=
  { m with req := { m.req with exts := m.req.exts.filter (fun x => decide (x.oid ≠ altSigOid)) } }

/-- An invalid alternative signature gets its own exception (490-497). -/
def asAlt : Except PyErr Unit → Except PyErr Unit
  | .error .invalidSignature => .error .invalidAltSignature
  | r => r

/-- `hybrid_issuing.py` 455-497, `_verify_alt_sig_for_pop`. It removes the alternative signature from the message. -/
def verifyAltPop (env : PopEnv S K) (k : K) (m : CatMsg) (alg sig : Ext) : Res CatMsg Unit :=
  match env.decAlg alg.value with
  | none => (.error .pyasn1Error, stripAltSig m)
  | some (a, _) =>
    match env.decBits sig.value with
    | none => (.error .pyasn1Error, stripAltSig m)
    | some (s, _) => (asAlt (env.verifyAlg k a (env.encReq (stripAltSig m).req) s), stripAltSig m)

/-- `convertutils.py` 84-88, `ensure_is_single_verify_key`. -/
def ensureSingle (env : PopEnv S K) (k : K) : Except PyErr K :=
  if env.isPqSig k ∨ env.isTradVerify k then .ok k else .error .valueError

/-- `hybrid_issuing.py` 526-546: the first key is a KEM key, only the alternative key signs. -/
def popKeyEnc (env : PopEnv S K) (alt : K) (m : CatMsg) : Res CatMsg Unit :=
  match getExt m.req.exts altSigOid with
  | none => (.error .valueError, m)
  | some s =>
    match ensureSingle env alt with
    | .error e => (.error e, m)
    | .ok k =>
      match getExt m.req.exts altAlgOid with
      | none => (.error .valueError, m)
      | some a => verifyAltPop env k m a s

/-- `hybrid_issuing.py` 576-607: a signature of the first key, and one of the alternative key if this is no KEM key. -/
def popBoth (env : PopEnv S K) (first alt : K) (m : CatMsg) (alg : Alg) (sig : Bytes) : Res CatMsg Unit :=
  match ensureVerify env.toCatEnv first with
  | .error e => (.error e, m)
  | .ok k =>
    match env.verifyAlg k alg (env.encReq m.req) sig with
    | .error e => (.error e, m)
    | .ok () =>
      match getExt m.req.exts altSigOid, getExt m.req.exts altAlgOid with
      | some s, some a => verifyAltPop env alt m a s
      | _, _ => (.error .valueError, m)

/-- `hybrid_issuing.py` 565-575: a signature of the first key only. -/
def popFirst (env : PopEnv S K) (first : K) (m : CatMsg) (alg : Alg) (sig : Bytes) : Res CatMsg Unit :=
  match ensureVerify env.toCatEnv first with
  | .error e => (.error e, m)
  | .ok k => (env.verifyAlg k alg (env.encReq m.req) sig, m)

/-- `hybrid_issuing.py` 501-607, `verify_sig_popo_catalyst_cert_req_msg`. -/
def verifyPop (env : PopEnv S K) (m : CatMsg) : Res CatMsg Unit :=
  match loadCat env.toCatEnv m.req.exts with
  | .error e => (.error e, m)
  | .ok alt =>
    match env.loadKey m.req.spki with
    | .error e => (.error e, m)
    | .ok first =>
      match m.popo with
      | .keyEnc => popKeyEnc env alt m
      | .other => (.error .pyasn1Error, m)
      | .sig alg s =>
        if env.isCompositeOid alg.oid then (verifyComposite env alg (env.encReq m.req) s first alt, m)
        else if env.isKem alt then popFirst env first m alg s
        else popBoth env first alt m alg s

/-! ## Issuing for a request with two keys -/

/-- The body of the request message (`getName`). -/
inductive ReqBody where
  | ir
  | cr
  | kur
  | ccr
  | p10cr
  deriving DecidableEq, Repr

/-- The result: the certificate in the clear, or encrypted for a key (`prepare_encr_cert_from_request`). -/
inductive CatOut (K : Type) where
  | plain (c : Cert)
  | enc (c : Cert) (recipient : K)
  deriving DecidableEq, Repr

/-- `prepare_tbs_certificate_from_template` (`certbuildutils.py` 1795-1855) without the extensions of the template. -/
def catTbs (env : PopEnv S K) (caName : Bytes) (r : CatReq) (a : Alg) : Except PyErr Tbs :=
  match env.loadKey r.spki with
  | .error e => .error e
  | .ok k => .ok ⟨env.tbsOther, env.serial, a, caName, env.validity r, r.subject, r.spki, env.stdExts k⟩

/-- `hybrid_issuing.py` 340-350: exceptions of the proof of possession. -/
def popErr : Except PyErr Unit → Except PyErr Unit
  | .error .invalidAltSignature => .error .badAltPOP
  | .error .invalidSignature => .error .badPOP
  | r => r

/-- `ca_ra_utils.py` 3031-3112, `prepare_encr_cert_from_request`: for the given key, or for that of the certificate. -/
def encrCert (env : PopEnv S K) (popo : Popo) (c : Cert) (key : Option K) : Except PyErr (CatOut K) :=
  match popo with
  | .keyEnc =>
    match (match key with
      | some k => Except.ok k
      | none => env.loadKey c.tbs.spki) with
    | .error e => .error e
    | .ok k => if env.isKem k then .ok (.enc c k) else .error .valueError
  | _ => .error .pyasn1Error

/-- `hybrid_issuing.py` 374-403: how the certificate is sent. An encrypted one is prepared from
`request["body"]["ir"]` (253), also if the body is another one; and if the alternative key is a KEM key, the
`keyEncipherment` is written to the first request (378). `m` is the request at `idx` after the check. -/
def catRespond (env : PopEnv S K) (body : ReqBody) (idx : Nat) (m : CatMsg) (alt : K) (c : Cert) :
    Except PyErr (CatOut K) :=
  if m.popo = .keyEnc ∨ env.isKem alt then
    if body ≠ .ir then .error .pyasn1Error
    else
      encrCert env (if env.isKem alt ∧ idx = 0 then .keyEnc else m.popo) c (if env.isKem alt then some alt else none)
  else .ok (.plain c)

/-- `hybrid_issuing.py` 352-372: the certificate. -/
def catCert (env : PopEnv S K) (ca : S) (caName : Bytes) (extra : List Ext) (hash : Option String) (pss : Bool)
    (r : CatReq) (alt : K) : Except PyErr Cert :=
  match env.prepAlg ca hash pss with
  | .error e => .error e
  | .ok a =>
    match catTbs env caName r a with
    | .error e => .error e
    | .ok t =>
      catSignCert env.toCatEnv ca { t with exts := t.exts ++ extra ++ [altSpkiExt env.toCatEnv alt false] } hash pss

/-- `hybrid_issuing.py` 283-406, `build_cert_from_catalyst_request`. -/
def catIssue (env : PopEnv S K) (ca : S) (caName : Bytes) (extra : List Ext) (hash : Option String) (pss : Bool)
    (body : ReqBody) (msgs : List CatMsg) (idx : Nat) : Except PyErr (CatOut K) :=
  if body = .p10cr then .error .valueError
  else
    match msgs[idx]? with
    | none => .error .indexError
    | some m =>
      if env.isCompositeSpki m.req.spki then .error .valueError
      else
        match loadCat env.toCatEnv m.req.exts with
        | .error e => .error e
        | .ok alt =>
          match popErr (verifyPop env m).1 with
          | .error e => .error e
          | .ok () =>
            match catCert env ca caName extra hash pss (verifyPop env m).2.req alt with
            | .error e => .error e
            | .ok c => catRespond env body idx (verifyPop env m).2 alt c

/-! ## The request -/

/-- `hybrid_issuing.py` 426-452, `_compute_second_pop_catalyst`. -/
def secondPop (env : PopEnv S K) (alt : S) (r : CatReq) (hash : Option String) (pss bad : Bool) :
    Except PyErr CatReq :=
  match env.prepAlg alt hash pss with
  | .error e => .error e
  | .ok a =>
    let r' := { r with exts := r.exts ++ [altAlgExt env.toCatEnv a false, altSpkiExt env.toCatEnv (env.pub alt) false] }
    match env.signAlg alt a (env.encReq r') with
    | .error e => .error e
    | .ok s =>
      match catManip bad s with
      | .error e => .error e
      | .ok s' => .ok { r' with exts := r'.exts ++ [altSigExt env.toCatEnv s' false] }

/-- `cmputils.py` 2004-2037, `prepare_sig_popo_structure`. -/
def sigPopo (a : Alg) (s : Bytes) (bad : Bool) : Except PyErr Popo :=
  match catManip bad s with
  | .error e => .error e
  | .ok s' => .ok (.sig a s')

/-- `hybrid_issuing.py` 696-721: both keys sign. A wrong signature is made wrong twice. -/
def reqBothSign (env : PopEnv S K) (first alt : S) (r : CatReq) (hash : Option String) (pss bad badAlt : Bool) :
    Except PyErr CatMsg :=
  match secondPop env alt r hash pss badAlt with
  | .error e => .error e
  | .ok r' =>
    match env.prepAlg first hash pss with
    | .error e => .error e
    | .ok a =>
      match env.signAlg first a (env.encReq r') with
      | .error e => .error e
      | .ok s =>
        match catManip bad s with
        | .error e => .error e
        | .ok s' =>
          match sigPopo a s' bad with
          | .error e => .error e
          | .ok p => .ok ⟨r', p⟩

/-- `hybrid_issuing.py` 723-744: the alternative key is a KEM key. -/
def reqAltKem (env : PopEnv S K) (first alt : S) (r : CatReq) (hash : Option String) (pss bad : Bool) :
    Except PyErr CatMsg :=
  let r' := { r with exts := r.exts ++ [altSpkiExt env.toCatEnv (env.pub alt) false] }
  match env.prepAlg first hash pss with
  | .error e => .error e
  | .ok a =>
    match env.signAlg first a (env.encReq r') with
    | .error e => .error e
    | .ok s =>
      match sigPopo a s bad with
      | .error e => .error e
      | .ok p => .ok ⟨r', p⟩

/-- `hybrid_issuing.py` 667-685: a composite signature of both keys. `compSign` takes the ML-DSA key first
(`_cast_to_composite_sig_private_key`, 610-629, whose check of the key types is in the parameter `compAlg`). -/
def reqComposite (env : PopEnv S K) (first alt : S) (r : CatReq) (hash : Option String) (pss bad : Bool) :
    Except PyErr CatMsg :=
  let p := if env.isPqSign first then first else alt
  let t := if env.isPqSign first then alt else first
  let r' := { r with exts := r.exts ++ [altSpkiExt env.toCatEnv (env.pub alt) false] }
  match env.compAlg p t hash pss with
  | .error e => .error e
  | .ok a =>
    match env.compSign p t a (env.encReq r') with
    | .error e => .error e
    | .ok s =>
      match sigPopo a s bad with
      | .error e => .error e
      | .ok q => .ok ⟨r', q⟩

/-- `hybrid_issuing.py` 633-756, `prepare_catalyst_cert_req_msg_approach`; `r` is the request with the template for
the first key. -/
def catRequest (env : PopEnv S K) (first alt : S) (r : CatReq) (hash : Option String)
    (pss composite bad badAlt : Bool) : Except PyErr CatMsg :=
  if composite then reqComposite env first alt r hash pss bad
  else if env.isKemPriv first ∧ env.isTradSign alt then
    match secondPop env alt r hash pss badAlt with
    | .error e => .error e
    | .ok r' => .ok ⟨r', .keyEnc⟩
  else if (env.isPqSign alt ∨ env.isTradSign alt) ∧ (env.isPqSign first ∨ env.isTradSign first) then
    reqBothSign env first alt r hash pss bad badAlt
  else if env.isKemPriv alt ∧ env.isTradSign first then reqAltKem env first alt r hash pss bad
  else .error .invalidKeyCombination

/-! ## A certificate with a second signature -/

/-- `hybrid_issuing.py` 759-803, `_generate_catalyst_alt_sig_key`: the key that signs, and its hash. -/
def genAltKey (env : PopEnv S K) (algExt : Option Ext) (alt : Option S) (allow : Bool) :
    Except PyErr (S × Option String) :=
  match (match algExt, allow with
    | some e, true =>
      match env.decAlg e.value with
      | none => Except.error PyErr.pyasn1Error
      | some (a, rest) =>
        if rest ≠ [] then .error .badAsn1Data
        else
          match env.genKey a with
          | .error x => .error x
          | .ok k => .ok (k, env.preHashOf a)
    | _, _ => .ok (alt.getD env.defaultKey, none)) with
  | .error x => .error x
  | .ok (k, h) => if env.isPqSign k then .ok (k, h) else .error .badAlg

/-- `hybrid_issuing.py` 868-936, `_process_single_catalyst_request`: response id and certificate. `checkExts` is
`check_extensions`. Encryption of the certificate for `keyEncipherment` is left out: it does not change either. -/
def signedSingle (env : PopEnv S K) (ca : S) (caName : Bytes) (checkExts : CatReq → List Ext → Except PyErr (List Ext))
    (alt : Option S) (allow : Bool) (hash : Option String) (pss : Bool) (id : Option Int) (extra : List Ext)
    (m : CatMsg) : Except PyErr (Int × Cert) :=
  match genAltKey env (getExt m.req.exts altAlgOid) alt allow with
  | .error e => .error e
  | .ok (k, h) =>
    match env.prepAlg ca hash pss with
    | .error e => .error e
    | .ok a =>
      match catTbs env caName m.req a with
      | .error e => .error e
      | .ok t =>
        match checkExts m.req extra with
        | .error e => .error e
        | .ok xs =>
          match signCat env.toCatEnv { t with exts := t.exts ++ xs } k ca ⟨h, hash, pss, false, false⟩ with
          | .error e => .error e
          | .ok c => .ok (id.getD 0, c)

/-- `hybrid_issuing.py` 939-989, `_process_catalyst_requests`: no response id is passed on. `pop` is
`verify_sig_pop_for_pki_request`. -/
def signedAll (env : PopEnv S K) (ca : S) (caName : Bytes) (checkExts : CatReq → List Ext → Except PyErr (List Ext))
    (pop : CatMsg → Except PyErr Unit) (alt : Option S) (allow : Bool) (hash : Option String) (pss : Bool)
    (extra : List Ext) : List CatMsg → Except PyErr (List (Int × Cert))
  | [] => .ok []
  | m :: l =>
    match pop m with
    | .error e => .error e
    | .ok () =>
      match signedSingle env ca caName checkExts alt allow hash pss none extra m with
      | .error e => .error e
      | .ok r =>
        match signedAll env ca caName checkExts pop alt allow hash pss extra l with
        | .error e => .error e
        | .ok rs => .ok (r :: rs)

/-- `ca_ra_utils.py` 2133-2182, `verify_sig_pop_for_pki_request`: the set of bodies has `crr` for `ccr`; any other
body is looked up as `pki_message["p10cr"]`, which is no field of a message. `sigPop` is `_verify_pop_signature`. -/
def popForBody (body : ReqBody) (sigPop : CatMsg → Except PyErr Unit) (m : CatMsg) : Except PyErr Unit :=
  if body = .ir ∨ body = .cr ∨ body = .kur then
    match m.popo with
    | .sig _ _ => sigPop m
    | _ => .error .badPOP
  else .error .keyError

/-- `hybrid_issuing.py` 992-1068, `build_catalyst_signed_cert_from_req`, for the bodies with `CertReqMsg`s. The
arguments `allow_chosen_sig_alg` (without an index) and `extensions` are not passed on. -/
def catSigned (env : PopEnv S K) (ca : S) (caName : Bytes) (checkExts : CatReq → List Ext → Except PyErr (List Ext))
    (sigPop : CatMsg → Except PyErr Unit) (alt : Option S) (allow : Bool) (hash : Option String) (pss : Bool)
    (_extra : List Ext) (body : ReqBody) (idx : Option Nat) (msgs : List CatMsg) :
    Except PyErr (List (Int × Cert)) :=
  if body = .p10cr then .error .valueError
  else
    match idx with
    | some i =>
      match msgs[i]? with
      | none => .error .indexError
      | some m =>
        match signedSingle env ca caName checkExts alt allow hash pss (some i) [] m with
        | .error e => .error e
        | .ok r => .ok [r]
    | none => signedAll env ca caName checkExts (popForBody body sigPop) alt true hash pss [] msgs

end Verif.Hybrid
