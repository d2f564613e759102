import Verif.Ra.Build
import Verif.CA.Errors

/-!
# Error messages and the protection of answers (mock_ca/ca_handler.py 123-156, 159-189, 583-662, 1444-1473;
mock_ca/prot_handler.py 150-154, 211-494; resources/cmputils.py 284-408; resources/exceptions.py 15-49)

The cryptographic operations are `AnsEnv.sign`; only their success matters here.  The keys of the CA for key agreement
have the expected types (the `BadConfig` branches of `get_dh_cert_and_ss` are left out).  Certificates are values of an
arbitrary type.
-/

namespace Verif.Ra

open Verif.CA (PyErr Bytes ProtType)

variable {V C : Type}

/-! ## Error messages -/

/-- The details given to an exception: one text, or a list of texts. -/
inductive Details where
  | one (s : String)
  | many (l : List String)

/-- `exceptions.py` 30-49, `CMPTestSuiteError.__init__` and `get_error_details`: for a text, the list with this text is
extended by the text itself, which are its characters. -/
def errDetails : Option Details → List String
  | none => []
  | some (.one s) => [s] ++ s.toList.map String.singleton
  | some (.many l) => [] ++ l

/-- An exception: the fail information of the class, the one given, the text and the details. -/
structure CmpErr where
  clsFail : String := "systemFailure"
  failinfo : Option String := none
  message : String
  details : Option Details := none

/-- `failinfo or self.failinfo` (31), `get_failinfo`. -/
def CmpErr.fail (e : CmpErr) : String :=
  match e.failinfo with
  | some s => if s = "" then e.clsFail else s
  | none => e.clsFail

/-- The body of an error message; an absent list of texts is empty. -/
structure ErrBody where
  status : String
  fail : Option String
  texts : List String
  code : Int
  details : List String
deriving DecidableEq

/-- `cmputils.py` 390-408, `_prepare_pki_free_text` for one text: an empty one is left out. -/
def freeText (s : String) : List String := if s = "" then [] else [s]

/-- `ca_handler.py` 130-141: the excluded fields, from the presence of senderNonce and transactionID in the request. -/
def errExclude (nonce tid : Bool) : List String :=
  (if nonce then [] else ["recipNonce"]) ++ (if tid then [] else ["transactionID"])

/-- `", ".join(…) if … else None` (154). -/
def joinExclude : List String → Option (List Char)
  | [] => none
  | x :: xs => some ((x :: xs).map String.toList |> List.intercalate ", ".toList)

/-- The fields of the header of a request which an error message reads. -/
structure ReqIds where
  senderNonce : Option Bytes
  tid : Option Bytes

/-- The arguments for the header (147-155, `cmputils.py` 332-343). -/
def errArgs (rq : Option ReqIds) : MArgs V where
  sender := .text "tests@example.com".toList
  recipient := .text "testr@example.com".toList
  exclude :=
    match rq with
    | none => none
    | some q => joinExclude (errExclude q.senderNonce.isSome q.tid.isSome)
  tid := rq.bind (·.tid)
  recipNonce := rq.bind (·.senderNonce)

/-- `ca_handler.py` 123-156, `_build_error_from_exception`, with `build_cmp_error_message` (`cmputils.py` 284-347). -/
def buildErr (env : BuildEnv V) (ie : InfoEnv) (dflt : Bytes × Bytes) (r1 r2 : Bytes) (now : Int) (e : CmpErr)
    (rq : Option ReqIds) : Except PyErr (FHdr V × ErrBody) :=
  match buildHeader env ie dflt r1 r2 now (errArgs rq) with
  | .error x => .error x
  | .ok h => .ok (h, {
      status := "rejection"
      fail := some e.fail
      texts := freeText e.message
      code := 1
      details := errDetails e.details })

/-! ## Challenges -/

/-- The proof of possession of the first request, as `_contains_challenge` reads it: absent; a key which encrypts or
agrees, with the name of the alternative and the name of its value (`none` if absent); another alternative. -/
inductive PopView where
  | absent
  | enc (alt : String) (value : Option String)
  | other

/-- `ca_handler.py` 159-189, `_contains_challenge`. -/
def containsChallenge (body : String) (p : PopView) : Bool :=
  if body = "ir" ∨ body = "cr" then
    match p with
    | .absent => false
    | .other => false
    | .enc alt v =>
      if alt ≠ "subsequentMessage" then false
      else
        match v with
        | none => false
        | some n => decide (n = "challengeResp")
  else false

/-! ## Protection -/

/-- The kinds of keys for key agreement. -/
inductive DhKind where
  | x25519
  | x448
  | ec
  | other
deriving DecidableEq

/-- How an answer is protected. -/
inductive How (C : Type) where
  /-- signed with the key of this certificate, and an alternative key -/
  | sig (cert : C) (alt : Option Bytes)
  /-- signed with the key-agreement key of this certificate -/
  | kariSig (cert : C)
  | dh (cert : C)
  | kemMac (secret : Bytes)
  | mac (alg : String) (password : Bytes)
deriving DecidableEq

/-- The configuration of the CA and the functions called. -/
structure AnsEnv (C : Type) where
  protCert : C
  /-- `prot_alt_key` -/
  altKey : Option Bytes := none
  /-- `cmp_cert_chain` -/
  chain : List C
  x25519Cert : C
  x448Cert : C
  eccCert : C
  /-- the class of `load_public_key_from_cert`; `none` is the first entry of an empty list -/
  keyOf : Option C → Except PyErr DhKind
  /-- `build_cert_chain_from_dir` -/
  dirChain : C → Except PyErr (List C)
  /-- `_patch_extra_certs` for a message without certificates -/
  fullChain : C → List C
  password : Bytes
  /-- the name of the CA as bytes -/
  caKid : Bytes
  ski : C → Option Bytes
  /-- the subject in the notation of OpenSSL, as bytes -/
  subjKid : C → Bytes
  defMac : String := "password_based_mac"
  /-- the operation of the protection -/
  sign : How C → Except PyErr Unit

/-- What the protection of an answer reads of the request. -/
structure AnsReq (C : Type) where
  body : String
  /-- `get_protection_type`; `none` if the algorithm is absent -/
  alg : Option (Except PyErr ProtType) := none
  algOid : List Nat := []
  extra : List C := []
  /-- `get_shared_secret_object` -/
  kem : Except PyErr (Option Bytes) := .ok none
  /-- the class of the public key of the first request -/
  reqKey : Except PyErr DhKind := .ok .other
  /-- is the protection algorithm of the first inner message set? -/
  innerAlg : Bool := false

/-- What it reads of the answer: the name of the body, for each response whether it contains a private key, whether the
first contains an encrypted certificate, and the certificates it has already. -/
structure AnsResp (C : Type) where
  body : String
  privKeys : List (Except PyErr Bool) := []
  enc : Except PyErr Bool := .ok false
  extra : List C := []
  kid : Option Bytes := none

/-- The sender of an answer: the subject of a certificate, the name of the CA, or as it was. -/
inductive SenderOf (C : Type) where
  | subject (c : C)
  | caName
  | kept
deriving DecidableEq

/-- A protected answer. -/
structure Ans (C : Type) where
  how : How C
  extra : List C
  sender : SenderOf C
  kid : Option Bytes
deriving DecidableEq

/-- `protectionutils.py` 972-980, `patch_sender_and_sender_kid`: the senderKID. -/
def certKid (env : AnsEnv C) (kid : Option Bytes) (c : C) : Option Bytes :=
  match env.ski c with
  | some k => some k
  | none => some (kid.getD (env.subjKid c))

/-- `prot_handler.py` 211-240, `get_dh_cert_and_ss`: the certificate. -/
def dhCert (env : AnsEnv C) (c : Option C) : Except PyErr C :=
  match env.keyOf c with
  | .error e => .error e
  | .ok .x25519 => .ok env.x25519Cert
  | .ok .x448 => .ok env.x448Cert
  | .ok .ec => .ok env.eccCert
  | .ok .other => .error .badMessageCheck

/-- `prot_handler.py` 242-253, `get_same_mac_protection`. -/
def sameMac (dflt : String) (oid : List Nat) (useSame : Bool) : String :=
  if oid = [1, 2, 840, 113549, 1, 5, 14] then (if useSame then "pbmac1" else "password_based_mac")
  else if oid = [1, 2, 840, 113533, 7, 66, 13] then (if useSame then "password_based_mac" else "pbmac1")
  else dflt

/-- The loop of `is_kga_kari_request` (296-300). -/
def anyPriv : List (Except PyErr Bool) → Except PyErr Bool
  | [] => .ok false
  | .error e :: _ => .error e
  | .ok true :: _ => .ok true
  | .ok false :: l => anyPriv l

/-- `prot_handler.py` 279-309, `is_kga_kari_request`. -/
def isKgaKari (env : AnsEnv C) (rq : AnsReq C) (rs : AnsResp C) : Except PyErr Bool :=
  if ¬ (rs.body = "cp" ∨ rs.body = "ip" ∨ rs.body = "kup") then .ok false
  else
    match anyPriv rs.privKeys with
    | .error e => .error e
    | .ok false => .ok false
    | .ok true =>
      match env.keyOf rq.extra.head? with
      | .error e => .error e
      | .ok k => .ok (decide (k = .ec))

/-- `prot_handler.py` 255-277, `check_if_request_is_for_kari_encr_cert`. -/
def kariEnc (env : AnsEnv C) (rq : AnsReq C) (rs : AnsResp C) : Except PyErr (Option C) :=
  if ¬ (rs.body = "ip" ∨ rs.body = "cp" ∨ rs.body = "kup") then .ok none
  else
    match rs.enc with
    | .error e => .error e
    | .ok false => .ok none
    | .ok true =>
      match rq.reqKey with
      | .error e => .error e
      | .ok .x25519 => .ok (some env.x25519Cert)
      | .ok .x448 => .ok (some env.x448Cert)
      | .ok .ec => .ok (some env.eccCert)
      | .ok .other => .ok none

/-- The operation, and the answer with its certificates. -/
def finish (env : AnsEnv C) (a : Ans C) : Except PyErr (Ans C) :=
  match env.sign a.how with
  | .error e => .error e
  | .ok () => .ok a

/-- `protectionutils.py` 2835-2880, `protect_hybrid_pkimessage`: the operation for a kind of protection; `"signature"`
does not read the alternative key. -/
def hybridHow (protection : String) (c : C) (alt : Option Bytes) : How C :=
  if protection = "signature" then .sig c none else .sig c alt

/-- `prot_handler.py` 311-349, `_sign_response`.  `patch_for_mac` (150-154) sets the name of the CA first; the call
leaves `protection` at its default. -/
def signPlain (env : AnsEnv C) (rs : AnsResp C) (second : Option C) (add : List C) : Except PyErr (Ans C) :=
  finish env {
    how := hybridHow "signature" env.protCert env.altKey
    extra := rs.extra ++ [env.protCert] ++ second.toList ++ env.chain.tail ++ add
    sender := .subject env.protCert
    kid := certKid env (some env.caKid) env.protCert }

/-- An answer with the certificate of the CA for key agreement and its chain. -/
def dirAns (env : AnsEnv C) (rs : AnsResp C) (second : Option C) (add : List C) (how : How C) (c : C) :
    Except PyErr (Ans C) :=
  match env.sign how with
  | .error e => .error e
  | .ok () =>
    match env.dirChain c with
    | .error e => .error e
    | .ok ch => .ok {
        how := how
        extra := rs.extra ++ [c] ++ second.toList ++ ch.tail ++ add
        sender := .subject c
        kid := certKid env rs.kid c }

/-- 385-403: DH-based MAC. -/
def protectDh (env : AnsEnv C) (rq : AnsReq C) (rs : AnsResp C) (second : Option C) (add : List C) :
    Except PyErr (Ans C) :=
  match dhCert env rq.extra.head? with
  | .error e => .error e
  | .ok c => dirAns env rs second add (.dh c) c

/-- 463-486: signed, with the certificate for the encrypted certificate. -/
def protectEnc (env : AnsEnv C) (rs : AnsResp C) (second : Option C) (add : List C) (c : C) : Except PyErr (Ans C) :=
  finish env {
    how := hybridHow "signature" env.protCert env.altKey
    extra := rs.extra ++ [env.protCert, c] ++ second.toList ++ env.chain.tail ++ add
    sender := .subject env.protCert
    kid := certKid env rs.kid env.protCert }

/-- 440-494: the protection by a signature. -/
def protectSig (env : AnsEnv C) (rq : AnsReq C) (rs : AnsResp C) (second : Option C) (add : List C) :
    Except PyErr (Ans C) :=
  match isKgaKari env rq rs with
  | .error e => .error e
  | .ok true => dirAns env rs second add (.kariSig env.eccCert) env.eccCert
  | .ok false =>
    match kariEnc env rq rs with
    | .error e => .error e
    | .ok (some c) => protectEnc env rs second add c
    | .ok none => signPlain env rs second add

/-- The answer protected by a MAC (409-418, 424-438). -/
def macAns (env : AnsEnv C) (rs : AnsResp C) (second : Option C) (add : List C) (how : How C) : Except PyErr (Ans C) :=
  finish env { how := how, extra := rs.extra ++ second.toList ++ add, sender := .caName, kid := some env.caKid }

/-- `prot_handler.py` 351-494, `protect_pkimessage` without the options for bad protection. -/
def protectReply (env : AnsEnv C) (rq : AnsReq C) (rs : AnsResp C) (second : Option C) (add : List C) :
    Except PyErr (Ans C) :=
  match rq.alg with
  | none => signPlain env rs second add
  | some (.error e) => .error e
  | some (.ok .dh) => protectDh env rq rs second add
  | some (.ok .kem) =>
    match rq.kem with
    | .error e => .error e
    | .ok (some ss) => macAns env rs second add (.kemMac ss)
    | .ok none => protectSig env rq rs second add
  | some (.ok .mac) => macAns env rs second add (.mac (sameMac env.defMac rq.algOid true) env.password)
  | some (.ok .tradSig) => protectSig env rq rs second add
  | some (.ok .pqSig) => protectSig env rq rs second add
  | some (.ok .compositeSig) => protectSig env rq rs second add
  | some (.ok .pqStateful) => protectSig env rq rs second add

/-- `protect_hybrid_pkimessage` with the certificate of the CA (`ca_handler.py` 625-630, 649-654); `_patch_extra_certs`
(`protectionutils.py` 2744-2763) is `AnsEnv.fullChain`, empty if the directory is. -/
def signHybrid (env : AnsEnv C) (rs : AnsResp C) : Except PyErr (Ans C) :=
  finish env {
    how := hybridHow "signature" env.protCert none
    extra := rs.extra ++ env.fullChain env.protCert
    sender := .subject env.protCert
    kid := certKid env rs.kid env.protCert }

/-- `ca_handler.py` 583-630, `_sign_nested_response`.  The chain of line 612 contains the list of certificates as its
third entry, which cannot be appended to the certificates of a message (`PyAsn1Error`). -/
def signNested (env : AnsEnv C) (rq : AnsReq C) (rs : AnsResp C) : Except PyErr (Ans C) :=
  if rs.body = "nested" then signHybrid env rs
  else if rq.innerAlg = false then signHybrid env rs
  else
    match rq.alg with
    | none => .error .valueError
    | some (.error e) => .error e
    | some (.ok .mac) =>
      finish env {
        how := .mac (sameMac env.defMac rq.algOid true) env.password
        extra := rs.extra
        sender := .kept
        kid := rs.kid }
    | some (.ok .kem) =>
      match rq.kem with
      | .error e => .error e
      | .ok (some _) =>
        finish env { how := .kemMac env.password, extra := rs.extra, sender := .caName, kid := some env.caKid }
      | .ok none => signHybrid env rs
    | some (.ok .dh) =>
      match dhCert env rq.extra.head? with
      | .error e => .error e
      | .ok c =>
        match env.sign (.dh c) with
        | .error e => .error e
        | .ok () => .error .pyasn1Error
    | some (.ok .tradSig) => signHybrid env rs
    | some (.ok .pqSig) => signHybrid env rs
    | some (.ok .compositeSig) => signHybrid env rs
    | some (.ok .pqStateful) => signHybrid env rs

/-- `ca_handler.py` 632-662, `sign_response`; `add` is `self.cert_chain`. -/
def signResponse (env : AnsEnv C) (rq : AnsReq C) (rs : AnsResp C) (second : Option C) (add : List C) :
    Except PyErr (Ans C) :=
  if rq.body = "nested" then signNested env rq rs
  else
    match rq.alg with
    | none => signHybrid env rs
    | some _ => protectReply env rq rs second add

/-! ## Replies over HTTP -/

/-- What is sent. -/
inductive Payload where
  | raw
  | message
  | certificate
  | other
deriving DecidableEq

/-- `ca_handler.py` 1444-1473, `_build_response`: the content type. -/
def contentType (p : Payload) (forMsg : Bool) : Except PyErr String :=
  match p with
  | .other => .error .typeError
  | .raw => .ok (if forMsg then "application/pkixcmp" else "application/octet-stream")
  | .message => .ok "application/pkixcmp"
  | .certificate => .ok (if forMsg then "application/pkixcmp" else "application/pkix-cert")

end Verif.Ra
