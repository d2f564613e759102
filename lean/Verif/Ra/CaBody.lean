import Verif.Check.Chain
import Verif.Check.KeyUsage
import Verif.Check.Header
import Verif.CA.Nested
import Verif.Ra.Status
import Verif.Ra.GenInfo
import Verif.Ra.Sender

/-!
# How a client checks the body, extraCerts and header of a CA message (resources/checkutils.py 99-308, 463-571,
1570-1650, 1699-1837, 2244-2292)

Reading an alternative of a choice which is not set deletes the one which is: the functions give the message afterwards.
The trust store is loaded, and chains are verified by OpenSSL, by the environment.  The fields of a message which are not
read here are dropped, and so are the empty responses which reading beyond the end of a list adds to it.
-/

namespace Verif.Ra

open Verif.CA (Bytes PyErr ProtType presenceCheck)
open Verif.Check (ChainEnv Strictness buildChain areAnchors validateEku chainOrdered Hdr checkMessageTime validateSenderRecipient)

/-- `certOrEncCert`; `env`: the encrypted certificate is in an `EnvelopedData`. -/
inductive KCert (C : Type) where
  | cert (c : C)
  | enc (env : Bool) (b : Bytes)
  | empty
  deriving DecidableEq

/-- `certifiedKeyPair`; `key`: the private key, `true` if it is in an `EnvelopedData`. -/
structure KPair (C : Type) where
  cert : KCert C
  key : Option Bool := none
  deriving DecidableEq

/-- A response of the body. -/
structure KResp (C : Type) where
  id : Option Int := none
  info : StInfo := {}
  pair : Option (KPair C) := none
  deriving DecidableEq

/-- A message of a CA; `body` is the name of the body, `resps` and `caPubs` its fields. -/
structure KMsg (C : Type) where
  pvno : Int
  body : List Char
  resps : List (KResp C) := []
  caPubs : Option (List C) := none
  extra : Option (List C) := none
  deriving DecidableEq

variable {C N K : Type}

/-- The bodies with responses for certificates. -/
def caBodies : List (List Char) := ["ip".toList, "cp".toList, "kup".toList, "ccp".toList]

/-- `cmputils.py` 3809-3843, `get_cert_response_from_pkimessage`; beyond the end an empty response is made. -/
def kResp (m : KMsg C) (i : Nat) : Except PyErr (KResp C) :=
  if m.body ∈ caBodies then .ok ((m.resps[i]?).getD {}) else .error .valueError

/-- The pair is a value. -/
def KResp.pairSet (r : KResp C) : Bool :=
  match r.pair with
  | none => false
  | some p => match p.cert with
    | .empty => false
    | _ => true

/-- `cmputils.py` 3866-3909, `get_cert_from_pkimessage`. -/
def kCert (m : KMsg C) (i : Nat) : Except PyErr C :=
  match kResp m i with
  | .error e => .error e
  | .ok r =>
    match r.pair with
    | some ⟨.cert c, _⟩ => .ok c
    | _ => .error .valueError

/-- `checkutils.py` 99-130, `check_if_response_contains_encrypted_cert`, on a copy of the message. -/
def hasEncrypted (m : KMsg C) (i : Nat) : Except PyErr Bool :=
  match kResp m i with
  | .error e => .error e
  | .ok r =>
    match r.pair with
    | some ⟨.enc _ _, _⟩ => .ok true
    | _ => .ok false

/-- `checkutils.py` 1699-1734, `validate_certReqId`. -/
def checkReqId (m : KMsg C) (i : Nat) (usedP10 : Bool) : Except PyErr Unit :=
  match kResp m i with
  | .error e => .error e
  | .ok r =>
    match r.id with
    | none => .error .pyasn1Error
    | some n => if n ≠ (if usedP10 then -1 else 0) then .error .valueError else .ok ()

/-- The field `encryptedCert` is read (184). -/
def readEnc (r : KResp C) : KResp C :=
  match r.pair with
  | some ⟨.cert _, k⟩ => { r with pair := some ⟨.empty, k⟩ }
  | _ => r

/-- `checkutils.py` 133-191, `validate_certified_key_pair_structure`: the message after the check. -/
def checkPair (m : KMsg C) (localKey : Bool) (i : Nat) : Except PyErr (KMsg C) :=
  match kResp m i with
  | .error e => .error e
  | .ok r =>
    let key := r.pair.bind (·.key)
    if localKey = key.isSome then .error .valueError
    else if key = some true ∧ m.pvno ≠ 3 then .error .valueError
    else match (r.pair.map (·.cert) : Option (KCert C)) with
      | some (.enc true _) => if m.pvno ≠ 3 then .error .valueError else .ok m
      | _ => .ok { m with resps := m.resps.modify i readEnc }

/-- What the checks of trust need: the chain environment, the loaded trust store, and the identifiers of certificates
(subject and serial number). -/
structure BodyEnv (C N K I : Type) where
  ch : ChainEnv C N K
  anchors : Except PyErr (List C)
  ident : C → I

variable {I : Type}

/-- `checkutils.py` 194-308, `validate_ca_msg_ca_pubs_field`. -/
def checkCaPubs [DecidableEq C] [DecidableEq N] (env : BodyEnv C N K I) (m : KMsg C) (i : Nat := 0) (usedP10 := true)
    (irAsCr := false) : Except PyErr Unit :=
  if m.body ∈ caBodies then
    if ((m.resps[i]?).getD ({} : KResp C)).pairSet then
      match kCert m 0 with
      | .error e => .error e
      | .ok c =>
        match m.caPubs with
        | none => .ok ()
        | some pubs =>
          if (m.body = "cp".toList ∨ irAsCr = true) ∧ usedP10 = false then .error .valueError
          else if m.body = "kup".toList then .error .valueError
          else match areAnchors env.anchors pubs with
            | .error e => .error e
            | .ok () =>
              match buildChain env.ch c (pubs ++ m.extra.getD []) with
              | .error e => .error e
              | .ok chain => if chain.length = 1 then .error .valueError else env.ch.openssl chain
    else if m.caPubs.isSome then .error .valueError else .ok ()
  else .error .keyError

/-- `checkutils.py` 1738-1837, `validate_ca_message_body`: the message after the check. -/
def checkBody [DecidableEq C] [DecidableEq N] (env : BodyEnv C N K I) (m : KMsg C) (localKey := true) (usedP10 := false)
    (size : Nat := 1) (i : Nat := 0) (irAsCr := false) : Except PyErr (KMsg C) :=
  if m.body ∉ caBodies then .error .valueError
  else if m.resps.length ≠ size then .error .valueError
  else match checkReqId m i usedP10 with
    | .error e => .error e
    | .ok () =>
      let r : KResp C := (m.resps[i]?).getD {}
      let info : StInfo := ((m.resps[0]?).getD ({} : KResp C)).info
      match statusText info.status with
      | .error e => .error e
      | .ok st =>
        if st = "accepted".toList ∨ st = "grantedWithMods".toList then
          if info.fail.isSome then .error .valueError
          else match (r.pair.map (·.cert) : Option (KCert C)) with
            | some (.cert _) =>
              match checkCaPubs env m 0 true irAsCr with
              | .error e => .error e
              | .ok () => checkPair m localKey i
            | _ => .error .valueError
        else if st = "rejection".toList then
          if r.pairSet then .error .valueError
          else if m.caPubs.isSome then .error .valueError
          else .ok m
        else if st = "waiting".toList then .error .notImplemented
        else .error .valueError

/-- `checkutils.py` 2244-2292, `validate_cross_certification_response`; `t` is the type of the protection. -/
def checkCross [DecidableEq C] [DecidableEq N] (env : BodyEnv C N K I) (t : Except PyErr ProtType) (m : KMsg C) :
    Except PyErr (KMsg C) :=
  if m.body ≠ "ccp".toList then .error .valueError
  else if m.resps.length ≠ 1 then .error .valueError
  else match t with
    | .error e => .error e
    | .ok t =>
      if t = .mac ∨ t = .kem then .error .valueError
      else if m.extra.isNone then .error .badMessageCheck
      else checkBody env m

/-! ## extraCerts -/

/-- The protection of a message: its type (`get_protection_type_from_pkimessage`), whether algorithm and value are
present, and its verification. -/
structure ProtInfo where
  type : Except PyErr ProtType
  alg : Bool
  value : Bool
  verify : Except PyErr Unit

/-- The chain is in the certificates; its order is only logged (493-497, 560-564). -/
def orderLogged [DecidableEq I] (env : BodyEnv C N K I) (extra chain : List C) (issued : Bool) : Except PyErr Unit :=
  match chainOrdered (extra.map env.ident) (chain.map env.ident) issued with
  | .error e => .error e
  | .ok _ => .ok ()

/-- `checkutils.py` 463-497, `_check_cmp_protection_for_extra_certs`. -/
def checkProtCerts [DecidableEq N] [DecidableEq I] (env : BodyEnv C N K I) (p : ProtInfo) (extra : Option (List C))
    (allowSelf : Bool) : Except PyErr Unit :=
  match presenceCheck p.alg p.value true with
  | .error e => .error e
  | .ok () =>
    match extra with
    | none => if allowSelf then .ok () else .error .valueError
    | some [_] => p.verify
    | some [] => p.verify
    | some (c :: d :: l) =>
      match p.verify with
      | .error e => .error e
      | .ok () =>
        match buildChain env.ch c (c :: d :: l) with
        | .error e => .error e
        | .ok chain => orderLogged env (c :: d :: l) chain false

/-- Lines 541-564. -/
def checkIssuedChain [DecidableEq N] [DecidableEq I] (env : BodyEnv C N K I) (m : KMsg C) (i : Nat) (s : Strictness)
    (eku : List String) : Except PyErr Unit :=
  match m.extra with
  | none => .error .valueError
  | some extra =>
    match kCert m i with
    | .error e => .error e
    | .ok c =>
      match buildChain env.ch c extra with
      | .error e => .error e
      | .ok (_ :: iss :: rest) =>
        match validateEku (env.ch.eku iss) eku s with
        | .error e => .error e
        | .ok () => orderLogged env extra (c :: iss :: rest) true
      | .ok _ => .error .valueError

/-- `checkutils.py` 500-571, `validate_extra_certs`. -/
def checkExtra [DecidableEq N] [DecidableEq I] (env : BodyEnv C N K I) (p : ProtInfo) (m : KMsg C) (i : Nat := 0)
    (allowSelf := false) (s : Strictness := .lax) (eku : List String := ["cmcCA"]) : Except PyErr Unit :=
  match (if m.body ∈ ["ip".toList, "cp".toList, "kup".toList] then checkIssuedChain env m i s eku else .ok () :
      Except PyErr Unit) with
  | .error e => .error e
  | .ok () =>
    if m.body ∈ ["pkiconf".toList, "pollReq".toList, "pollRep".toList] ∧ m.extra = none then .ok ()
    else match p.type with
      | .error e => .error e
      | .ok t => if t = .tradSig then checkProtCerts env p m.extra allowSelf else .ok ()

/-! ## Header -/

/-- The fields which the check of the header reads. -/
structure RespMsg (V C : Type) where
  pvno : Option Int
  hdr : Hdr
  snd : SMsg V C
  body : String
  info : List Itv

/-- `checkutils.py` 1569-1650, `validate_pkimessage_header`; `req` is the header of the request. -/
def checkHeader {V : Type} [DecidableEq V] (env : SenderEnv V C) (ie : InfoEnv) (now : Int) (m : RespMsg V C) (req : Option Hdr)
    (must := true) (interval : Option Int := some 200) (allow := true) : Except PyErr Unit :=
  match m.pvno with
  | none => .error .pyasn1Error
  | some v =>
    if v ≠ 2 ∧ v ≠ 3 then .error .valueError
    else match presenceCheck m.snd.alg.isSome m.snd.protection must with
      | .error e => .error e
      | .ok () =>
        match checkSender env must allow m.snd with
        | .error e => .error e
        | .ok () =>
          match validateKid env none must allow m.snd with
          | .error e => .error e
          | .ok () =>
            match checkGenInfo ie now m.body m.info with
            | .error e => .error e
            | .ok () =>
              match checkMessageTime m.hdr interval (req.bind (·.time)) now with
              | .error e => .error e
              | .ok () =>
                match req with
                | none => .ok ()
                | some r => validateSenderRecipient m.hdr r false

end Verif.Ra
