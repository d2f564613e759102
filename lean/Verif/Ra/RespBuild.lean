import Verif.Ra.CaBody
import Verif.Ra.Header
import Verif.Ra.Request

/-!
# How the CA builds its responses (resources/ca_ra_utils.py 2186-2210, 2487-2508, 2550-2660, 2721-2829, 2848-2934,
3284-3334, 4713-4777, 4781-4856, resources/cmputils.py 351-408)

The header is the one of `Verif.Ra.Header`.  How certificates are issued for a request is given by the environment
(`Verif.Ra.Request` for lists of requests).  Certificates which are given are not empty, encrypted ones and private keys
are in an `EnvelopedData`, and `rspInfo` is not modelled.
-/

namespace Verif.Ra

open Verif.CA (Bytes PyErr)
open Verif.Check (stripL pkiStatusNames)

variable {C N : Type}

/-! ## The status -/

/-- `PKIStatus(text)`: a number, or the name of a value. -/
def statusArg (s : List Char) : Except PyErr Int :=
  if isDigits s then .ok (digitsNat s)
  else match pkiStatusNames.findIdx? (· = s) with
    | some n => .ok n
    | none => .error .pyasn1Error

/-- The positions of named bits. -/
def bitPositions : List (List Char) → Except PyErr (List Nat)
  | [] => .ok []
  | s :: ss =>
    match failNames.findIdx? (· = stripL s) with
    | none => .error .pyasn1Error
    | some n =>
      match bitPositions ss with
      | .error e => .error e
      | .ok ns => .ok (n :: ns)

/-- The bits from the first one to the last which is set. -/
def bitsAt (ns : List Nat) : List Bool := (List.range (ns.foldl max 0 + 1)).map (fun i => decide (i ∈ ns))

/-- `PKIFailureInfo(text)`: nothing, bits, or the names of bits. -/
def failArg (s : List Char) : Except PyErr (List Bool) :=
  if s = [] then .ok []
  else if isDigits s then
    if s.all (fun c => c = '0' || c = '1') then .ok (s.map (· = '1')) else .error .valueError
  else match bitPositions (splitAt ',' s) with
    | .error e => .error e
    | .ok ns => .ok (bitsAt ns)

/-- `cmputils.py` 390-408, `_prepare_pki_free_text`: no text is a list without entries, which is not encoded. -/
def freeTexts : Option (List (List Char)) → Option (List (List Char))
  | none => none
  | some [] => none
  | some l => some l

/-- `cmputils.py` 351-387, `prepare_pkistatusinfo`. -/
def prepInfo (status : List Char) (fail : Option (List Char)) (texts : Option (List (List Char))) : Except PyErr StInfo :=
  match statusArg status with
  | .error e => .error e
  | .ok n =>
    match fail with
    | none => .ok ⟨some n, none, freeTexts texts⟩
    | some f =>
      match failArg f with
      | .error e => .error e
      | .ok b => .ok ⟨some n, some b, freeTexts texts⟩

/-! ## The response -/

/-- The arguments of `prepare_cert_response`; `key`: a private key is given. -/
structure RespArgs (C : Type) where
  id : Int := 0
  status : List Char := "accepted".toList
  texts : Option (List (List Char)) := none
  fail : Option (List Char) := none
  cert : Option C := none
  enc : Option Bytes := none
  key : Bool := false
  info : Option StInfo := none

/-- `ca_ra_utils.py` 2848-2866, `prepare_cert_or_enc_cert`: the encrypted certificate is set last. -/
def certOrEnc (cert : Option C) (enc : Option Bytes) : KCert C :=
  match enc with
  | some b => .enc true b
  | none => match cert with
    | some c => .cert c
    | none => .empty

/-- `ca_ra_utils.py` 2870-2892, `prepare_certified_key_pair`. -/
def keyPair (cert : Option C) (enc : Option Bytes) (key : Bool) : Except PyErr (KPair C) :=
  if cert.isNone && enc.isNone then .error .valueError
  else .ok ⟨certOrEnc cert enc, if key then some true else none⟩

/-- The status of the response (2922-2924). -/
def respInfo (a : RespArgs C) : Except PyErr StInfo :=
  match a.info with
  | some i => .ok i
  | none => prepInfo a.status a.fail a.texts

/-- `ca_ra_utils.py` 2896-2934, `prepare_cert_response`. -/
def prepResp (a : RespArgs C) : Except PyErr (KResp C) :=
  match respInfo a with
  | .error e => .error e
  | .ok i =>
    if a.cert.isSome || a.enc.isSome || a.key then
      match keyPair a.cert a.enc a.key with
      | .error e => .error e
      | .ok p => .ok ⟨some a.id, i, some p⟩
    else .ok ⟨some a.id, i, none⟩

/-! ## The body and the header -/

/-- A list without entries is not encoded. -/
def pubsField : Option (List C) → Option (List C)
  | some [] => none
  | x => x

/-- `ca_ra_utils.py` 2186-2210, `prepare_ca_body`: the responses and `caPubs`. -/
def caBody (body : List Char) (rs : Option (List (KResp C))) (pubs : Option (List C)) :
    Except PyErr (List (KResp C) × Option (List C)) :=
  if body ∉ caBodies then .error .valueError
  else match rs with
    | none => .error .valueError
    | some l => .ok (l, pubsField pubs)

/-- What the header is made of: the key identifier for a sender, the default recipient and key identifier, and random
values. -/
structure HdrEnv (N : Type) where
  kid : Option Bytes → N → Bytes
  dflt : N × Bytes
  rnd : Fin 5 → Bytes

/-- The header of a response (2495-2496, 2504-2506, 2650-2658, 2780-2781, 2826-2827): the fields are taken from the request,
if there is one and `set_header_fields` is set. -/
def respHdr (he : HdrEnv N) (q : Option (Header N)) (set : Bool) (a : HArgs N) : Except PyErr (Header N) :=
  match (if set then q else none) with
  | some q => caHeader he.kid he.dflt he.rnd q a
  | none => .ok (prepHeader he.kid he.dflt (he.rnd 2) (he.rnd 3) { a with senderNonce := some (orBytes a.senderNonce (he.rnd 4)) })

/-- A message of the CA: its header, and what `Verif.Ra.CaBody` reads. -/
structure CaMsg (N C : Type) where
  hdr : Header N
  msg : KMsg C
  deriving DecidableEq

/-- The message with a header and a body. -/
def mkCaMsg (h : Header N) (body : List Char) (b : List (KResp C) × Option (List C)) : CaMsg N C :=
  ⟨h, { pvno := h.pvno, body := body, resps := b.1, caPubs := b.2 }⟩

/-- A request: its header, the name of its body and the identifiers in it. -/
structure CaReq (N : Type) where
  hdr : Header N
  body : List Char
  ids : List Int
  deriving DecidableEq

/-- `ca_ra_utils.py` 3284-3304, `get_correct_ca_body_name`. -/
def caBodyName (b : List Char) : Except PyErr (List Char) :=
  if b = "ir".toList then .ok "ip".toList
  else if b ∈ ["cr".toList, "p10cr".toList] then .ok "cp".toList
  else if b = "kur".toList then .ok "kup".toList
  else if b = "ccr".toList then .ok "ccp".toList
  else .error .valueError

/-- `ca_ra_utils.py` 2468-2484, `get_response_body_type`. -/
def respBodyName (b : List Char) : Except PyErr (List Char) :=
  match replyType (String.ofList b) with
  | .error e => .error e
  | .ok s => .ok s.toList

/-- `name or f(request)`: the empty name is false. -/
def orName (n : Option (List Char)) (f : Except PyErr (List Char)) : Except PyErr (List Char) :=
  match n with
  | some (c :: l) => .ok (c :: l)
  | _ => f

/-- The name for `_build_ca_cert_response_body` (2498-2502); without a request an empty one is kept. -/
def plainName (q : Option (CaReq N)) (n : Option (List Char)) : Except PyErr (List Char) :=
  match q with
  | some q => orName n (respBodyName q.body)
  | none => match n with
    | none => .error .valueError
    | some b => .ok b

/-- `ca_ra_utils.py` 2487-2508, `_build_ca_cert_response_body`. -/
def buildCertBody (he : HdrEnv N) (q : Option (CaReq N)) (set : Bool) (a : HArgs N) (name : Option (List Char))
    (rs : Option (List (KResp C))) (pubs : Option (List C)) : Except PyErr (CaMsg N C) :=
  match respHdr he (q.map (·.hdr)) set a with
  | .error e => .error e
  | .ok h =>
    match plainName q name with
    | .error e => .error e
    | .ok b =>
      match caBody b rs pubs with
      | .error e => .error e
      | .ok x => .ok (mkCaMsg h b x)

/-- The name for `build_ca_message` (3324-3327). -/
def messageName (q : Option (CaReq N)) (n : Option (List Char)) : Except PyErr (List Char) :=
  match q with
  | some q => orName n (caBodyName q.body)
  | none => match n with
    | none => .error .valueError
    | some b => orName (some b) (.error .typeError)

/-- `ca_ra_utils.py` 3308-3334, `build_ca_message`: `caPubs` is not set. -/
def buildCaMessage (he : HdrEnv N) (q : Option (CaReq N)) (set : Bool) (a : HArgs N) (name : Option (List Char))
    (rs : Option (List (KResp C))) : Except PyErr (CaMsg N C) :=
  match messageName q name with
  | .error e => .error e
  | .ok b =>
    match respHdr he (q.map (·.hdr)) set a with
    | .error e => .error e
    | .ok h =>
      match caBody b rs none with
      | .error e => .error e
      | .ok x => .ok (mkCaMsg h b x)

/-! ## The responses of type `cp` and `ip` -/

/-- How certificates are issued for a request: for all its entries, for one of them, and for a PKCS #10 request. -/
structure IssueEnv (C : Type) where
  all : Except PyErr (List (KResp C) × List C)
  one : Nat → Except PyErr (C × Option Bytes × Bool)
  p10 : Except PyErr C
  lw : Except PyErr Unit

/-- The arguments of `build_cp_cmp_message` and `build_ip_cmp_message`; `ca`: the key and the certificate of the CA are
given. -/
structure BuildArgs (N C : Type) where
  req : Option (CaReq N) := none
  cert : Option C := none
  enc : Option Bytes := none
  key : Bool := false
  ca : Bool := true
  id : Option Int := none
  resps : Option (List (KResp C)) := none
  index : Option Nat := none
  pubs : Option (List C) := none
  set : Bool := true
  lw : Bool := true

/-- `int(request["body"]["cr"][cert_index]["certReq"]["certReqId"])` (2635): of another body the alternative `cr` is made,
and it is empty. -/
def crId (q : CaReq N) (i : Nat) : Except PyErr Int :=
  if q.body = "cr".toList then
    match q.ids[i]? with
    | some n => .ok n
    | none => .error .pyasn1Error
  else .error .pyasn1Error

/-- The identifier which is given, or the one of the request (2634-2635). -/
def givenId (id : Option Int) (q : CaReq N) (i : Nat) : Except PyErr Int :=
  match id with
  | some n => .ok n
  | none => crId q i

/-- `ca_ra_utils.py` 2623-2639: the response for one entry of the request. -/
def cpOne (ie : IssueEnv C) (id : Option Int) (q : CaReq N) (i : Nat) : Except PyErr (List (KResp C) × List C) :=
  match ie.one i with
  | .error e => .error e
  | .ok (c, enc, key) =>
    match givenId id q i with
    | .error e => .error e
    | .ok n =>
      match prepResp { id := n, cert := some c, enc := enc, key := key } with
      | .error e => .error e
      | .ok r => .ok ([r], [c])

/-- The response for a certificate which is given. -/
def givenResp (a : RespArgs C) (certs : List (Option C)) : Except PyErr (List (KResp C) × List (Option C)) :=
  match prepResp a with
  | .error e => .error e
  | .ok r => .ok ([r], certs)

/-- The certificates of an answer are all there. -/
def allThere (x : Except PyErr (List (KResp C) × List C)) : Except PyErr (List (KResp C) × List (Option C)) :=
  match x with
  | .error e => .error e
  | .ok (rs, cs) => .ok (rs, cs.map some)

/-- `ca_ra_utils.py` 2602-2648: the responses and the certificates of `build_cp_cmp_message`. -/
def cpResps (ie : IssueEnv C) (a : BuildArgs N C) : Except PyErr (List (KResp C) × List (Option C)) :=
  if a.enc.isNone && a.cert.isNone && a.req.isNone then .error .valueError
  else match a.resps with
    | some rs => .ok (rs, [])
    | none =>
      if a.enc.isSome || a.cert.isSome then
        givenResp { id := a.id.getD 0, cert := a.cert, enc := a.enc } (a.cert.toList.map some)
      else match a.req with
        | none => .error .valueError
        | some q =>
          if !a.ca then .error .valueError
          else match a.index with
            | some i => allThere (cpOne ie a.id q i)
            | none => allThere ie.all

/-- `ca_ra_utils.py` 2550-2660, `build_cp_cmp_message`; `h` are the arguments for the header. -/
def buildCp (he : HdrEnv N) (ie : IssueEnv C) (h : HArgs N) (a : BuildArgs N C) :
    Except PyErr (CaMsg N C × List (Option C)) :=
  match cpResps ie a with
  | .error e => .error e
  | .ok (rs, cs) =>
    match respHdr he (a.req.map (·.hdr)) a.set h with
    | .error e => .error e
    | .ok hd =>
      match caBody "cp".toList (some rs) a.pubs with
      | .error e => .error e
      | .ok x => .ok (mkCaMsg hd "cp".toList x, cs)

/-- `kwargs.get("cert_req_id") or -1` (2813). -/
def p10Id (id : Option Int) : Int :=
  match id with
  | none => -1
  | some n => if n = 0 then -1 else n

/-- `ca_ra_utils.py` 2787-2815: the responses of `build_ip_cmp_message` for a request. -/
def ipIssue (ie : IssueEnv C) (a : BuildArgs N C) (q : CaReq N) : Except PyErr (List (KResp C) × List (Option C)) :=
  match (if a.lw then ie.lw else .ok ()) with
  | .error e => .error e
  | .ok () =>
    if q.body = "p10cr".toList then
      match ie.p10 with
      | .error e => .error e
      | .ok c => givenResp { id := p10Id a.id, cert := some c } [some c]
    else allThere ie.all

/-- `ca_ra_utils.py` 2783-2823: the responses and the certificates of `build_ip_cmp_message`; without a certificate the
list of them has the entry `None`. -/
def ipResps (ie : IssueEnv C) (a : BuildArgs N C) : Except PyErr (List (KResp C) × List (Option C)) :=
  match a.resps with
  | some rs => .ok (rs, a.cert.toList.map some)
  | none =>
    match (if a.cert.isNone && a.enc.isNone then a.req else none) with
    | some q => ipIssue ie a q
    | none => givenResp { id := a.id.getD 0, cert := a.cert, enc := a.enc, key := a.key } [a.cert]

/-- `ca_ra_utils.py` 2721-2829, `build_ip_cmp_message`. -/
def buildIp (he : HdrEnv N) (ie : IssueEnv C) (h : HArgs N) (a : BuildArgs N C) :
    Except PyErr (CaMsg N C × List (Option C)) :=
  if a.enc.isNone && a.cert.isNone && a.resps.isNone && a.req.isNone then .error .valueError
  else match respHdr he (a.req.map (·.hdr)) a.set h with
    | .error e => .error e
    | .ok hd =>
      match ipResps ie a with
      | .error e => .error e
      | .ok (rs, cs) =>
        match caBody "ip".toList (some rs) a.pubs with
        | .error e => .error e
        | .ok x => .ok (mkCaMsg hd "ip".toList x, cs)

/-- `ca_ra_utils.py` 4624-4646: the message of `build_kga_cmp_response` with the response `r`; the fields of the header are set
before, as the name in the condition (4624) is the one of the function. -/
def kgaMessage (he : HdrEnv N) (ie : IssueEnv C) (h : HArgs N) (q : CaReq N) (set : Bool) (r : KResp C) :
    Except PyErr (CaMsg N C) :=
  match setCaHeader (he.rnd 0) (he.rnd 1) q.hdr h with
  | .error e => .error e
  | .ok h =>
    if q.body = "ir".toList then
      match buildIp he ie h { req := some q, resps := some [r], set := set } with
      | .error e => .error e
      | .ok (m, _) => .ok m
    else if q.body = "kur".toList then buildCertBody he (some q) set h none (some [r]) none
    else match buildCp he ie h { req := some q, resps := some [r], set := set } with
      | .error e => .error e
      | .ok (m, _) => .ok m

/-! ## Refusals and key recovery -/

/-- The names of the responses (4847). -/
def refusalName (b : List Char) : Except PyErr (List Char) := caBodyName b

/-- The identifier of a refusal (4830-4836). -/
def refusalId (b : List Char) (id : Option Int) : Int :=
  match id with
  | some n => n
  | none => if b = "p10cr".toList then -1 else 0

/-- The name of the request (4821-4828). -/
def refusalBody (q : Option (CaReq N)) (n : Option (List Char)) : Except PyErr (List Char) :=
  match n with
  | some b => .ok b
  | none => match q with
    | some q => .ok q.body
    | none => .error .valueError

/-- `ca_ra_utils.py` 4781-4856, `build_unsuccessful_ca_cert_response`. -/
def buildRefusal (he : HdrEnv N) (h : HArgs N) (q : Option (CaReq N)) (name : Option (List Char)) (id : Option Int)
    (status : List Char := "rejection".toList) (fail : Option (List Char) := none)
    (texts : Option (List (List Char)) := none) (info : Option StInfo := none) : Except PyErr (CaMsg N C) :=
  match refusalBody q name with
  | .error e => .error e
  | .ok b =>
    match respHdr he (q.map (·.hdr)) true h with
    | .error e => .error e
    | .ok hd =>
      match prepResp { id := refusalId b id, status := status, fail := fail, texts := texts, info := info } with
      | .error e => .error e
      | .ok r =>
        match refusalName b with
        | .error e => .error e
        | .ok out =>
          match caBody out (some [r]) none with
          | .error e => .error e
          | .ok x => .ok (mkCaMsg hd out x)

/-- `KeyRecRepContent`. -/
structure Krp (C : Type) where
  newSig : Option C := none
  info : StInfo := {}
  caCerts : Option (List C) := none
  hist : Option (List C) := none
  deriving DecidableEq

/-- `ca_ra_utils.py` 4713-4777: the body of `build_cmp_krp_message`; the entries of `keyPairHist` are certificates, and not
pairs as in the standard. -/
def krpBody (cert : Option C) (status : List Char) (caCerts hist : Option (List C)) (info : Option StInfo) :
    Except PyErr (Krp C) :=
  match (match info with
    | some i => .ok i
    | none => prepInfo status none (some ["The certificate updated was accepted.".toList]) : Except PyErr StInfo) with
  | .error e => .error e
  | .ok i => .ok ⟨cert, i, pubsField caCerts, pubsField hist⟩

end Verif.Ra
