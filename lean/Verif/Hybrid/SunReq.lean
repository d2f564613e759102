import Verif.CA.Msg

/-!
# Requests for Sun hybrid certificates

* `pq_logic/hybrid_issuing.py`: `build_sun_hybrid_cert_from_request` (93-213), `build_enc_cert_response` (216-279);
* `mock_ca/hybrid_handler.py`: `SunHybridHandler.__init__` (139-161), `sign_response` (167-225), `_add_to_state` (227-240),
  `process_request` (267-337);
* `resources/ca_ra_utils.py`: `validate_cert_req_id_nums` (2512-2546), `build_cp_from_p10cr` (2309-2333) with a certificate;
* `resources/checkutils.py`: `check_if_response_contains_encrypted_cert` (99-130).

The certificates are built by `Verif.Hybrid.Sun`; here the building functions, the checks of possession, the encryption of a
certificate and the protection of the answer are parameters. `C` are certificates, `Csr` PKCS#10 requests, `Q` requests of
CRMF, `K` public keys, `E` encrypted certificates.
-/

namespace Verif.Hybrid.SunReq

open Verif.CA (Bytes PyErr)

/-- The kind of a public key (164, 189, 207). -/
inductive Kind where
  | compositeSig
  | hybridKem
  | other
  deriving DecidableEq, Repr

/-- The body of a request; `reqs` are the bodies that hold a list of CRMF requests. -/
inductive Body (Csr Q : Type) where
  | p10cr (csr : Csr)
  | reqs (name : String) (l : List Q)
  | other (name : String)

/-- The protection of a request: the name that `get_same_mac_protection` finds for a MAC. -/
inductive Prot where
  | none
  | mac (alg : Except PyErr String)
  | signature

structure Request (Csr Q : Type) where
  body : Body Csr Q
  implicitConfirm : Bool
  prot : Prot

structure Env (C Csr Q K E : Type) where
  /-- `verify_csr_signature` -/
  verifyCsr : Csr → Except PyErr Unit
  /-- `certificationRequestInfo.version` -/
  version : Csr → Int
  /-- `_validate_subject_field_for_cert_request` -/
  subjectOk : Csr → Except PyErr Unit
  /-- `sun_csr_to_cert`: issuer, request, serial number, bad alternative signature; the forms 4 and 1 -/
  csrCert : C → Csr → Int → Bool → Except PyErr (C × C)
  reqId : Q → Int
  /-- `get_public_key_from_cert_req_msg`; `none` is the empty request that pyasn1 makes up for an index out of range -/
  pubKey : Option Q → Except PyErr K
  kind : K → Kind
  /-- `verify_sig_pop_for_pki_request` for a body name, its requests and the index -/
  sigPop : String → List Q → Nat → Except PyErr Unit
  /-- `sun_cert_template_to_cert`: issuer, request, serial number, locations of key and signature, bad signature -/
  tmplCert : C → Option Q → Int → String → String → Bool → Except PyErr (C × C)
  /-- `prepare_encr_cert_from_request` for the request, the certificate and the key -/
  encr : Q → C → K → Except PyErr E

structure Args (C : Type) where
  caCert : Option C
  chain : Option (List C) := none
  serial : Int
  pubLoc : String
  sigLoc : String
  badAltSig : Bool := false
  certIndex : Option Nat := none

/-- What the answer brings. -/
inductive Content (C E : Type) where
  | plain (c : C)
  | enc (e : E)
  deriving DecidableEq, Repr

/-- One response of the answer. -/
structure Answer (C E : Type) where
  body : String
  certReqId : Int
  content : Content C E
  deriving DecidableEq, Repr

/-- The certificate of the CA (140-144). -/
def issuer {C : Type} (a : Args C) : Except PyErr C :=
  match a.caCert with
  | some c => .ok c
  | none =>
    match a.chain with
    | none => .error .valueError
    | some [] => .error .indexError
    | some (c :: _) => .ok c

/-- `get_correct_ca_body_name` (ca_ra_utils.py 3284-3304) for the bodies let through here. -/
def caBody (name : String) : String :=
  if name = "ir" then "ip" else if name = "kur" then "kup" else "cp"

/-- `build_enc_cert_response` (216-279) as it is called here, without index and identifier. The alternative `ir` is read
whatever the body is: another body is lost by this and an empty request without identifier is read. -/
def encResponse {C Csr Q K E : Type} (env : Env C Csr Q K E) (name : String) (l : List Q) (cert : C) (key : K) :
    Except PyErr (Answer C E) :=
  if name = "ir" then
    match l with
    | [] => .error .pyasn1Error
    | q :: _ => (env.encr q cert key).map fun e => ⟨"ip", env.reqId q, .enc e⟩
  else .error .pyasn1Error

/-- The part for signature keys (165-187). -/
def sigBranch {C Csr Q K E : Type} (env : Env C Csr Q K E) (a : Args C) (ca : C) (name : String) (l : List Q) (i : Nat) :
    Except PyErr (Answer C E × C × C) :=
  match env.sigPop name l i with
  | .error e => .error e
  | .ok () =>
    match env.tmplCert ca l[i]? a.serial a.pubLoc a.sigLoc a.badAltSig with
    | .error e => .error e
    | .ok (c4, c1) =>
      match l[i]? with
      | none => .error .pyasn1Error
      | some q => .ok (⟨caBody name, env.reqId q, .plain c4⟩, c4, c1)

/-- The part for KEM keys (190-206): the index and the bad signature are not passed on. -/
def kemBranch {C Csr Q K E : Type} (env : Env C Csr Q K E) (a : Args C) (ca : C) (name : String) (l : List Q) (i : Nat)
    (key : K) : Except PyErr (Answer C E × C × C) :=
  match env.tmplCert ca l[i]? a.serial a.pubLoc a.sigLoc false with
  | .error e => .error e
  | .ok (c4, c1) => (encResponse env name l c4 key).map fun r => (r, c4, c1)

/-- The part for CRMF requests (159-208). -/
def crmfBranch {C Csr Q K E : Type} (env : Env C Csr Q K E) (a : Args C) (ca : C) (name : String) (l : List Q) :
    Except PyErr (Answer C E × C × C) :=
  match env.pubKey l[a.certIndex.getD 0]? with
  | .error e => .error e
  | .ok key =>
    match env.kind key with
    | .compositeSig => sigBranch env a ca name l (a.certIndex.getD 0)
    | .hybridKem => kemBranch env a ca name l (a.certIndex.getD 0) key
    | .other => .error .valueError

/-- The part for PKCS#10 requests (147-157) with `build_cp_from_p10cr` (ca_ra_utils.py 2309-2333), which verifies the
signature once more. -/
def csrBranch {C Csr Q K E : Type} (env : Env C Csr Q K E) (a : Args C) (ca : C) (csr : Csr) :
    Except PyErr (Answer C E × C × C) :=
  match env.verifyCsr csr with
  | .error e => .error e
  | .ok () =>
    match env.csrCert ca csr a.serial a.badAltSig with
    | .error e => .error e
    | .ok (c4, c1) =>
      match env.subjectOk csr with
      | .error e => .error e
      | .ok () => .ok (⟨"cp", -1, .plain c4⟩, c4, c1)

/-- `build_sun_hybrid_cert_from_request` (93-213): the answer and the forms 4 and 1 of the certificate. -/
def buildSun {C Csr Q K E : Type} (env : Env C Csr Q K E) (a : Args C) (body : Body Csr Q) :
    Except PyErr (Answer C E × C × C) :=
  match issuer a with
  | .error e => .error e
  | .ok ca =>
    match body with
    | .p10cr csr => csrBranch env a ca csr
    | .reqs name l =>
      if name = "ir" ∨ name = "cr" ∨ name = "kur" ∨ name = "crr" then crmfBranch env a ca name l else .error .valueError
    | .other _ => .error .valueError

/-! ## The handler -/

/-- `validate_cert_req_id_nums` (2512-2546) for the identifiers. -/
def checkIds (ids : List Int) : Except PyErr Unit :=
  match ids with
  | [] => .error .badRequest
  | [x] => if x ≠ 0 then .error .badRequest else .ok ()
  | _ =>
    if ¬ ids.Nodup then .error .badRequest
    else if (List.range ids.length).all (fun n => ids.contains (Int.ofNat n)) then .ok () else .error .badRequest

/-- `validate_cert_req_id_nums` (2512-2546); other bodies cannot be indexed like a list of requests. -/
def checkBody {C Csr Q K E : Type} (env : Env C Csr Q K E) : Body Csr Q → Except PyErr Unit
  | .p10cr csr => if env.version csr ≠ 0 then .error .badCertTemplate else .ok ()
  | .reqs _ l => checkIds (l.map env.reqId)
  | .other _ => .error .exception

/-- The Sun hybrid handler (139-161): certificate and chain of the CA, and what it calls. -/
structure Handler (C E A : Type) where
  caCert : C
  chain : List C
  /-- `get_sun_hybrid_alt_pub_key` of the certificate in form 1 -/
  altKey : C → Except PyErr (Option A)
  /-- `extract_sun_hybrid_alt_sig` -/
  altSig : C → Except PyErr Bytes
  /-- `protect_pkimessage` with the name of a MAC, or with the traditional key of the CA (`none`) -/
  protect : Option String → Answer C E → List C → Except PyErr Unit

/-- The protected answer: `mac` is the name of the MAC, `none` for the signature. -/
structure Signed (C E : Type) where
  answer : Answer C E
  implicitConfirm : Bool
  extraCerts : List C
  mac : Option String
  deriving DecidableEq, Repr

/-- `sign_response` (167-225) without the composite signature, which no caller asks for. -/
def signResponse {C Csr Q E A : Type} (h : Handler C E A) (req : Request Csr Q) (r : Answer C E) (conf : Bool)
    (second : Option C) : Except PyErr (Signed C E) :=
  match req.prot with
  | .mac alg =>
    match alg with
    | .error e => .error e
    | .ok m =>
      (h.protect (some m) r (second.toList ++ h.chain)).map fun _ => ⟨r, conf, second.toList ++ h.chain, some m⟩
  | _ =>
    (h.protect none r (h.caCert :: second.toList ++ h.chain.tail)).map fun _ =>
      ⟨r, conf, h.caCert :: second.toList ++ h.chain.tail, none⟩

/-- The entry that `_add_to_state` (227-240) makes for the serial number. -/
structure Entry (C A : Type) where
  serial : Int
  cert1 : C
  key : A
  sig : Bytes
  deriving DecidableEq, Repr

/-- `_add_to_state` (227-240). -/
def entry {C E A : Type} (h : Handler C E A) (serial : Int) (c1 : C) : Except PyErr (Entry C A) :=
  match h.altKey c1 with
  | .error e => .error e
  | .ok k =>
    match h.altSig c1 with
    | .error e => .error e
    | .ok s =>
      match k with
      | none => .error .exception
      | some k => .ok ⟨serial, c1, k, s⟩

/-- The result: the answer, the entry, the confirmed certificate and the one to be confirmed. -/
structure Outcome (C E A : Type) where
  signed : Signed C E
  entry : Entry C A
  issued : Option C
  toConfirm : Option C
  deriving DecidableEq, Repr

/-- The three endings (302-337). -/
def finish {C Csr Q E A : Type} (h : Handler C E A) (req : Request Csr Q) (r : Answer C E) (c4 c1 : C) (en : Entry C A) :
    Except PyErr (Outcome C E A) :=
  match r.content with
  | .enc _ => (signResponse h req r false none).map fun s => ⟨s, en, none, some c4⟩
  | .plain _ =>
    if req.implicitConfirm then (signResponse h req r true (some c1)).map fun s => ⟨s, en, some c4, none⟩
    else (signResponse h req r false (some c1)).map fun s => ⟨s, en, none, some c4⟩

/-- `process_request` (267-337). -/
def processRequest {C Csr Q K E A : Type} (env : Env C Csr Q K E) (h : Handler C E A) (req : Request Csr Q) (serial : Int)
    (baseUrl : String) (bad : Bool) : Except PyErr (Outcome C E A) :=
  match checkBody env req.body with
  | .error e => .error e
  | .ok () =>
    match buildSun env { caCert := some h.caCert, serial := serial, pubLoc := baseUrl ++ "/pubkey/" ++ toString serial,
                         sigLoc := baseUrl ++ "/sig/" ++ toString serial, badAltSig := bad } req.body with
    | .error e => .error e
    | .ok (r, c4, c1) =>
      match entry h serial c1 with
      | .error e => .error e
      | .ok en => finish h req r c4 c1 en

end Verif.Hybrid.SunReq
