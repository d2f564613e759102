import Verif.Ra.ReqTmpl

/-!
# Requests of the client (resources/cmputils.py)

Of the header only `pvno` is here; `prepare_pki_message` is modelled in `Verif.Ra.Build`. The field `poposkInput` is not
modelled, so the argument `sender` of the functions for the proof is absent. An index outside of the list of requests
is an `IndexError`, as in `Verif.Ra.Request`.
-/

namespace Verif.Ra

open Verif.CA hiding Bytes Msg
open Verif.Check hiding Spki

/-- `CertRequest` of the client. -/
structure ClCertReq (A N T X : Type) where
  id : Int
  tmpl : ClTmpl A N T X
  controls : Option (List (ClCtl A N)) := none
  deriving DecidableEq

/-- `CertReqMsg` of the client. -/
structure ClReq (A N T X E : Type) where
  req : ClCertReq A N T X
  popo : Option (Popo A E) := none
  regInfo : Option (List (List Nat × Bytes)) := none
  deriving DecidableEq

/-- `PKIMessage` of the client, with the requests of the body. -/
structure ClMsg (A N T X E : Type) where
  body : String
  pvno : Int
  reqs : List (ClReq A N T X E)
  deriving DecidableEq

variable {A K P N T X E : Type}

/-- `encoder.encode(cert_request)`. -/
def ClCertReq.der (env : ClEnv A K P N T X) (r : ClCertReq A N T X) : Bytes := env.encReq r.id r.tmpl r.controls

/-- The request as the CA has it. -/
def ClReq.toReq (env : ClEnv A K P N T X) (r : ClReq A N T X E) : Req A (ClRest A N T X) E :=
  ⟨r.req.id, r.req.tmpl, r.popo, r.req.der env, r.regInfo⟩

/-- The message as the CA has it. -/
def ClMsg.toMsg {C : Type} (env : ClEnv A K P N T X) (m : ClMsg A N T X E) : RMsg A (ClRest A N T X) E C :=
  { body := m.body, reqs := m.reqs.map (ClReq.toReq env), certs := none }

/-- `cmputils.py` 5579-5608, `prepare_popo_challenge_for_non_signing_key`. -/
def popChallenge (encr keyEnc : Bool) : Popo A E :=
  if keyEnc then .keyEnc (.subsequent encr) else .keyAgree (.subsequent encr)

/-- `cmputils.py` 2004-2037, `prepare_sig_popo_structure`, with an algorithm identifier. -/
def sigPopStruct (env : ClEnv A K P N T X) (a : A) (p : P) (sig : Bytes) (bad : Bool) : Popo A E :=
  .signature a (if bad then env.damage p sig else sig)

/-- `cmputils.py` 2004-2037, `prepare_sig_popo_structure`: an object identifier is replaced by an empty structure, that
is then assigned to itself (2024-2025). -/
def sigPop (env : ClEnv A K P N T X) (a : A ⊕ List Nat) (p : P) (sig : Bytes) (bad : Bool) : Except PyErr (Popo A E) :=
  match a with
  | .inl a => .ok (sigPopStruct env a p sig bad)
  | .inr _ => .error .pyasn1Error

/-- `cmputils.py` 2075-2085: the signature of the proof. -/
def popSignature (env : ClEnv A K P N T X) (p : P) (hash : Option String) (pss : Bool) (sig : Option Bytes)
    (r : Option (ClCertReq A N T X)) : Except PyErr Bytes :=
  match sig with
  | some s => .ok s
  | none =>
    match r with
    | none => .error .valueError
    | some r => env.sign p hash pss (r.der env)

/-- `cmputils.py` 2041-2106, `prepare_signature_popo`. -/
def prepSigPop (env : ClEnv A K P N T X) (p : P) (r : Option (ClCertReq A N T X)) (hash : Option String)
    (bad pss : Bool) (sig : Option Bytes) : Except PyErr (Popo A E) :=
  match popSignature env p hash pss sig r with
  | .error e => .error e
  | .ok s =>
    match env.sigAlg p hash pss with
    | .error e => .error e
    | .ok a => sigPop env (.inl a) p s bad

/-- The key that `prepare_popo` looks at first (1900-1906). -/
inductive PopKind where
  | kem
  | xdh
  | other
  deriving DecidableEq

/-- `cmputils.py` 1900, 1904: the kind of a private key. -/
def popKind (env : ClEnv A K P N T X) : Option P → PopKind
  | none => .other
  | some p => if env.isKem p then .kem else if env.isXdh p then .xdh else .other

/-- `cmputils.py` 1797-1847, `_prepare_poposigningkey`, without `sender`: the algorithm of the proof. -/
def popAlg (env : ClEnv A K P N T X) (p : Option P) (oid algId : Option A) (hash : Option String) : Except PyErr A :=
  match p, oid, algId with
  | none, none, _ => .error .valueError
  | _, _, some a => .ok a
  | _, some a, none => .ok a
  | some p, none, none => env.hashAlg p hash

/-- `cmputils.py` 1851-1919, `prepare_popo`, without `sender`. A proof without a signature has no encoding; its bytes
are empty here. -/
def prepPopo (env : ClEnv A K P N T X) (sig : Option Bytes) (oid : Option A) (p : Option P) (hash : Option String)
    (ra encr : Bool) (keyEnc : Option Bool) : Except PyErr (Popo A E) :=
  match popKind env p with
  | .kem => .ok (popChallenge encr (keyEnc.getD true))
  | .xdh => .ok (popChallenge encr (keyEnc.getD false))
  | .other =>
    if ra then .ok .raVerified
    else match popAlg env p oid none hash with
      | .error e => .error e
      | .ok a => .ok (.signature a (sig.getD []))

/-- The arguments of the functions that prepare a `CertReqMsg`, and those of the messages that they pass on. -/
structure ReqArgs (A N T X E : Type) where
  name : Option (ClName N) := none
  id : Int := 0
  hash : Option String := some "sha256"
  exts : Option (List X) := none
  tmpl : Option (ClTmpl A N T X) := none
  req : Option (ClCertReq A N T X) := none
  popo : Option (Popo A E) := none
  ra : Bool := false
  forKga : Bool := false
  controls : Option (List (ClCtl A N)) := none
  noPopo : Bool := false
  badPop : Bool := false
  encr : Bool := true
  spki : Option (Spki A) := none
  pvno : Option Int := none

/-- A list of ASN.1 elements is extended; without new elements a field that is absent stays absent. -/
def extendOpt {W : Type} (o : Option (List W)) (l : List W) : Option (List W) :=
  if l = [] then o else some (o.getD [] ++ l)

/-- `cmputils.py` 1977-1990: the template of a request. -/
def reqTmpl (env : ClEnv A K P N T X) (p : P) (a : ReqArgs A N T X E) : Except PyErr (ClTmpl A N T X) :=
  match a.tmpl with
  | some t => .ok t
  | none =>
    match a.name with
    | none => .error .valueError
    | some n =>
      match prepTmpl env { key := some (.inr (env.pub p)), subject := some n, exts := a.exts, forKga := a.forKga,
                           spki := a.spki } with
      | .error e => .error e
      | .ok (t, _) => .ok t

/-- `cmputils.py` 1923-2000, `prepare_cert_request`. -/
def prepCertReq (env : ClEnv A K P N T X) (p : P) (a : ReqArgs A N T X E) : Except PyErr (ClCertReq A N T X) :=
  match reqTmpl env p a with
  | .error e => .error e
  | .ok t => .ok ⟨a.id, t, extendOpt none (a.controls.getD [])⟩

/-- `cmputils.py` 2178-2188: the given request, or a new one. -/
def theReq (env : ClEnv A K P N T X) (p : P) (a : ReqArgs A N T X E) : Except PyErr (ClCertReq A N T X) :=
  match a.req with
  | some r => .ok r
  | none => prepCertReq env p a

/-- `cmputils.py` 2206-2221: the proof with a signature; with `ra_verified` it is made and then replaced. -/
def signedPop (env : ClEnv A K P N T X) (p : P) (a : ReqArgs A N T X E) (r : ClCertReq A N T X) :
    Except PyErr (Popo A E) :=
  match prepSigPop env p (some r) a.hash a.badPop false none with
  | .error e => .error e
  | .ok q => if a.ra then prepPopo env none none (some p) a.hash true true (some true) else .ok q

/-- `cmputils.py` 2192-2226: the proof of a request. -/
def thePop (env : ClEnv A K P N T X) (p : P) (a : ReqArgs A N T X E) (r : ClCertReq A N T X) :
    Except PyErr (Option (Popo A E)) :=
  if a.forKga then .ok none
  else match a.popo with
    | some q => .ok (some q)
    | none =>
      if a.noPopo then .ok none
      else if env.isKem p then .ok (some (popChallenge a.encr true))
      else if env.isXdh p then .ok (some (popChallenge a.encr false))
      else if env.isDh p then .ok none
      else match signedPop env p a r with
        | .error e => .error e
        | .ok q => .ok (some q)

/-- `cmputils.py` 2110-2226, `prepare_cert_req_msg`. -/
def prepReqMsg (env : ClEnv A K P N T X) (p : P) (a : ReqArgs A N T X E) : Except PyErr (ClReq A N T X E) :=
  match theReq env p a with
  | .error e => .error e
  | .ok r =>
    match thePop env p a r with
    | .error e => .error e
    | .ok q => .ok { req := r, popo := q }

/-- `cmputils.py` 2358-2371, `_parse_pvno`. -/
def parsePvno (pvno : Option Int) (forKga : Bool) : Int :=
  match pvno with
  | none => if forKga then 3 else 2
  | some n => n

/-- `cmputils.py` 2229-2248, `_prepare_cert_req_msg_body`, and 2374-2408, `_prepare_build_cert_req_msgs_pkimessage`. -/
def buildReqs (body : String) (a : ReqArgs A N T X E) (l : List (ClReq A N T X E)) :
    Except PyErr (ClMsg A N T X E) :=
  if body ∈ ["ir", "cr", "kur", "ccr", "krr"] then .ok ⟨body, parsePvno a.pvno a.forKga, l⟩ else .error .valueError

/-- What the functions for keys pass on: `exclude_popo` and `use_encr_cert` never; a `cert_request` and a
`SubjectPublicKeyInfo` only for `ir`. -/
def keyArgs (body : String) (a : ReqArgs A N T X E) : ReqArgs A N T X E :=
  { a with noPopo := false, encr := true, req := if body = "ir" then a.req else none,
           spki := if body = "ir" then a.spki else none }

/-- `cmputils.py` 2412-2496, `build_ir_from_key`; 2500-2576, `build_cr_from_key`; 2580-2651, `build_krr_from_key`;
2655-2731, `build_ccr_from_key`: given messages are used instead of the key. -/
def fromKey (env : ClEnv A K P N T X) (body : String) (p : P) (a : ReqArgs A N T X E)
    (msgs : Option (List (ClReq A N T X E))) : Except PyErr (ClMsg A N T X E) :=
  match msgs with
  | some l => buildReqs body a l
  | none =>
    match prepReqMsg env p (keyArgs body a) with
    | .error e => .error e
    | .ok r => buildReqs body a [r]

/-- What the functions for PKCS#10 requests pass on: `bad_pop` not for `cr` (2869-2880). -/
def csrArgs (body : String) (t : ClTmpl A N T X) (a : ReqArgs A N T X E) : ReqArgs A N T X E :=
  { a with name := none, tmpl := some t, req := none, noPopo := false, encr := true, spki := none,
           badPop := if body = "cr" then false else a.badPop }

/-- `cmputils.py` 2735-2811, `build_ir_from_csr`; 2815-2892, `build_cr_from_csr`; 2896-2971, `build_ccr_from_csr`; with
the list of the caller afterwards, to which the message is appended. -/
def fromCsr (env : ClEnv A K P N T X) (body : String) (c : ClCsr A N X) (p : P) (a : ReqArgs A N T X E)
    (msgs : Option (List (ClReq A N T X E))) :
    Except PyErr (ClMsg A N T X E × Option (List (ClReq A N T X E))) :=
  match tmplFromCsr env c with
  | .error e => .error e
  | .ok t =>
    match prepReqMsg env p (csrArgs body t a) with
    | .error e => .error e
    | .ok r =>
      match buildReqs body a (msgs.getD [] ++ [r]) with
      | .error e => .error e
      | .ok m => .ok (m, msgs.map (fun l => l ++ [r]))

/-- `cmputils.py` 2311-2323: the template of a key update. -/
def kurTmpl (env : ClEnv A K P N T X) (p : P) (cert : Option (ClCert A N T X)) (certExts : Bool) (name : ClName N)
    (a : ReqArgs A N T X E) : Except PyErr (ClTmpl A N T X) :=
  match a.tmpl with
  | some t => .ok t
  | none =>
    match prepTmpl env { key := some (.inl p), cert := cert, subject := some name,
                         excl := some "serialNumber,validity".toList, forKga := a.forKga, exts := a.exts,
                         spki := a.spki, certExts := certExts } with
    | .error e => .error e
    | .ok (t, _) => .ok t

/-- `cmputils.py` 2325-2333: the controls of a key update. -/
def clKurControls (env : ClEnv A K P N T X) (cert : Option (ClCert A N T X)) (use : Bool)
    (controls : Option (List (ClCtl A N))) : Except PyErr (Option (List (ClCtl A N))) :=
  if use then
    match cert with
    | none => .error .valueError
    | some c =>
      match prepControls env (some c) none none none with
      | .error e => .error e
      | .ok (l, _) => .ok (some l)
  else .ok controls

/-- `cmputils.py` 2334-2346: what a key update passes on. -/
def kurArgs (t : ClTmpl A N T X) (name : ClName N) (l : Option (List (ClCtl A N))) (a : ReqArgs A N T X E) :
    ReqArgs A N T X E :=
  { a with name := some name, tmpl := some t, controls := l, req := none, noPopo := false, encr := true, spki := none }

/-- `cmputils.py` 2334: `cert_req_msg or prepare_cert_req_msg(...)`; an empty list is none. -/
def kurReqs (env : ClEnv A K P N T X) (p : P) (msgs : Option (List (ClReq A N T X E))) (b : ReqArgs A N T X E) :
    Except PyErr (List (ClReq A N T X E)) :=
  match msgs with
  | some (r :: l) => .ok (r :: l)
  | _ =>
    match prepReqMsg env p b with
    | .error e => .error e
    | .ok r => .ok [r]

/-- `cmputils.py` 2252-2355, `build_key_update_request`; the common name is `"CN=Hans Mustermann"` if it is not given. -/
def buildKur (env : ClEnv A K P N T X) (p : P) (cert : Option (ClCert A N T X)) (use certExts : Bool)
    (a : ReqArgs A N T X E) (msgs : Option (List (ClReq A N T X E))) : Except PyErr (ClMsg A N T X E) :=
  let name := a.name.getD (.text "CN=Hans Mustermann")
  match kurTmpl env p cert certExts name a with
  | .error e => .error e
  | .ok t =>
    match clKurControls env cert use a.controls with
    | .error e => .error e
    | .ok l =>
      match kurReqs env p msgs (kurArgs t name l a) with
      | .error e => .error e
      | .ok rs => buildReqs "kur" a rs

/-! ## Changes of a message -/

/-- A change of one request or of all (`cert_req_index` is `None`). -/
def editAt (f : ClReq A N T X E → ClReq A N T X E) (i : Option Nat) (m : ClMsg A N T X E) :
    Except PyErr (ClMsg A N T X E) :=
  if m.body ∈ ["ir", "cr", "kur", "ccr"] then
    match i with
    | none => .ok { m with reqs := m.reqs.map f }
    | some i => if i < m.reqs.length then .ok { m with reqs := m.reqs.modify i f } else .error .indexError
  else .error .valueError

/-- `cmputils.py` 603-649, `add_reg_info_to_pkimessage`. -/
def addRegInfo (l : List (List Nat × Bytes)) (i : Option Nat) (m : ClMsg A N T X E) : Except PyErr (ClMsg A N T X E) :=
  editAt (fun r => { r with regInfo := extendOpt r.regInfo l }) i m

/-- `cmputils.py` 653-699, `add_controls_to_pkimessage`. -/
def addControls (l : List (ClCtl A N)) (i : Option Nat) (m : ClMsg A N T X E) : Except PyErr (ClMsg A N T X E) :=
  editAt (fun r => { r with req := { r.req with controls := extendOpt r.req.controls l } }) i m

/-- A template with further extensions. -/
def withExts (t : ClTmpl A N T X) (l : List X) : ClTmpl A N T X :=
  { t with rest := { t.rest with exts := t.rest.exts ++ l } }

/-- `cmputils.py` 703-750, `add_extensions_to_pkimessage`. -/
def addExts (l : List X) (i : Option Nat) (m : ClMsg A N T X E) : Except PyErr (ClMsg A N T X E) :=
  editAt (fun r => { r with req := { r.req with tmpl := withExts r.req.tmpl l } }) i m

/-- `cmputils.py` 787-796: the proof of the message. -/
def popFor (env : ClEnv A K P N T X) (p : Option P) (popo : Option (Popo A E)) (hash : Option String) (bad : Bool)
    (r : ClReq A N T X E) : Except PyErr (Popo A E) :=
  match popo with
  | some q => .ok q
  | none =>
    match p with
    | none => .error .valueError
    | some p => prepSigPop env p (some r.req) hash bad false none

/-- `cmputils.py` 754-796, `update_popo`; of the further arguments the hash and `bad_pop`. -/
def updatePopo (env : ClEnv A K P N T X) (i : Nat) (p : Option P) (popo : Option (Popo A E)) (hash : Option String)
    (bad : Bool) (m : ClMsg A N T X E) : Except PyErr (ClMsg A N T X E) :=
  if popo.isNone = true ∧ p.isNone = true then .error .valueError
  else if m.body ∈ ["ir", "cr", "kur", "ccr"] then
    match m.reqs[i]? with
    | none => .error .indexError
    | some r =>
      match popFor env p popo hash bad r with
      | .error e => .error e
      | .ok q => .ok { m with reqs := m.reqs.set i { r with popo := some q } }
  else .error .valueError

end Verif.Ra
