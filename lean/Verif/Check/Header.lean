import Verif.Check.Helpers

/-!
# Message checkers (resources/checkutils.py)

Python values that pyasn1 calls "no value" are `none`; calling `asOctets` on them raises a pyasn1 error.
Logging is dropped. All comparisons are on octets.
-/

namespace Verif.Check

open Verif.CA (Bytes PyErr ProtType)

/-- The header fields the checkers below read. `sender`/`recipient` are the encoded names, `time` the
`messageTime` in seconds. -/
structure Hdr where
  txId : Option Bytes := none
  senderNonce : Option Bytes := none
  recipNonce : Option Bytes := none
  sender : Bytes := []
  recipient : Bytes := []
  time : Option Int := none
  confirmWaitTime : Bool := false
  deriving DecidableEq

/-- An inner message of a `nested` body: header and name of the body. -/
structure Inner where
  hdr : Hdr
  body : String
  deriving DecidableEq

/-! ## Header of a response -/

/-- `checkutils.py` 1483-1522, `validate_transaction_id`. -/
def validateTxId (resp : Hdr) (req : Option Hdr) : Except PyErr Unit :=
  match resp.txId with
  | none => .error .badDataFormat
  | some t =>
    if t.length ≠ 16 then .error .badRequest
    else match req with
      | none => .ok ()
      | some r =>
        match r.txId with
        | none => .error .pyasn1Error
        | some u => if u ≠ t then .error .badRequest else .ok ()

/-- `checkutils.py` 1430-1480, `validate_sender_and_recipient_nonce`. -/
def validateNonces (resp req : Hdr) (nonceSec : Int) : Except PyErr Unit :=
  match resp.recipNonce with
  | none => .error .badRecipientNonce
  | some rn =>
    match resp.senderNonce with
    | none => .error .badSenderNonce
    | some sn =>
      let sec := max 128 nonceSec
      if (rn.length : Int) < sec / 8 then .error .badRecipientNonce
      else match req.senderNonce with
        | none => .error .pyasn1Error
        | some rsn =>
          if rsn ≠ rn then .error .badRecipientNonce
          else if (sn.length : Int) < sec / 8 then .error .badSenderNonce
          else .ok ()

/-- `checkutils.py` 1524-1566, `validate_sender_and_recipient`. -/
def validateSenderRecipient (resp req : Hdr) (mustBeEq : Bool) : Except PyErr Unit :=
  match validateTxId resp (some req) with
  | .error e => .error e
  | .ok () =>
    match validateNonces resp req 128 with
    | .error e => .error e
    | .ok () => if resp.recipient ≠ req.sender ∧ mustBeEq = true then .error .valueError else .ok ()

/-! ## messageTime -/

/-- `checkutils.py` 1358-1380, `_check_message_time_for_request`. -/
def checkTimeForRequest (now t interval : Int) : Except PyErr Unit :=
  if now - t < 0 then .error .badTime
  else if now - t > interval then .error .badTime
  else .ok ()

/-- `checkutils.py` 1383-1427, `check_message_time_field` (`now` is the clock; reading an absent
`messageTime` raises a pyasn1 error). -/
def checkMessageTime (h : Hdr) (allowed : Option Int) (reqTime : Option Int) (now : Int) : Except PyErr Unit :=
  if h.confirmWaitTime ∧ h.time = none then .error .badTime
  else match allowed with
    | none => .ok ()
    | some iv =>
      match h.time with
      | none => .error .pyasn1Error
      | some t =>
        match reqTime with
        | none => checkTimeForRequest now t iv
        | some r => if t - r > iv then .error .badTime else .ok ()

/-! ## Nested messages -/

/-- The loop of `validate_nested_message_unique_nonces_and_ids` (2112-2126): presence checks, collecting. -/
def collectInner (checkRecip : Bool) : List Inner → Except PyErr (List Bytes × List Bytes × List Bytes)
  | [] => .ok ([], [], [])
  | m :: ms =>
    match m.hdr.txId with
    | none => .error .badDataFormat
    | some t =>
      match m.hdr.senderNonce with
      | none => .error .badSenderNonce
      | some s =>
        match checkRecip, m.hdr.recipNonce with
        | true, none => .error .badRecipientNonce
        | true, some r =>
          match collectInner checkRecip ms with
          | .error e => .error e
          | .ok (ts, ss, rs) => .ok (t :: ts, s :: ss, r :: rs)
        | false, _ =>
          match collectInner checkRecip ms with
          | .error e => .error e
          | .ok (ts, ss, rs) => .ok (t :: ts, s :: ss, rs)

/-- `checkutils.py` 2055, `_is_unique`: `len(lst) == len(set(lst))`. -/
def isUnique (l : List Bytes) : Bool := l.length == l.eraseDups.length

/-- `_ensure_length` (2136): every value is 16 bytes long. -/
def all16 (l : List Bytes) : Bool := l.all (fun v => v.length == 16)

/-- `checkutils.py` 2060-2142, `validate_nested_message_unique_nonces_and_ids`. -/
def validateNestedUnique (h : Hdr) (body : String) (inner : List Inner)
    (checkTx checkSender checkRecip checkLen : Bool) : Except PyErr Unit :=
  if body ≠ "nested" then .error .valueError
  else match h.txId with
    | none => .error .badDataFormat
    | some t =>
      match h.senderNonce with
      | none => .error .badSenderNonce
      | some s =>
        match checkRecip, h.recipNonce with
        | true, none => .error .badRecipientNonce
        | _, rn =>
          match collectInner checkRecip inner with
          | .error e => .error e
          | .ok (ts, ss, rs) =>
            let ids := t :: ts
            let sns := s :: ss
            let rns := rn.toList ++ rs
            if checkTx && !isUnique ids then .error .badRequest
            else if checkSender && !isUnique sns then .error .badSenderNonce
            else if checkRecip && !isUnique rns then .error .badRecipientNonce
            else if checkLen && !all16 ids then .error .badRequest
            else if checkLen && !all16 sns then .error .badSenderNonce
            else if checkLen && !all16 rns then .error .badRecipientNonce
            else .ok ()

/-- `checkutils.py` 2145-2240, `validate_add_protection_tx_id_and_nonces`; `inner = none` means the body is not
`nested`. -/
def validateAddProtection (h : Hdr) (inner : Option (List Inner)) (checkLen : Bool) : Except PyErr Unit :=
  match inner with
  | none => .error .valueError
  | some [m] =>
    match h.senderNonce with
    | none => .error .badSenderNonce
    | some s =>
      match h.txId with
      | none => .error .badDataFormat
      | some t =>
        match m.hdr.txId with
        | none => .error .badDataFormat
        | some t' =>
          if t' ≠ t then .error .badRequest
          else match m.hdr.senderNonce with
            | none => .error .badSenderNonce
            | some s' =>
              if s' ≠ s then .error .badSenderNonce
              else
                let recip : Except PyErr (Option Bytes) :=
                  if m.body = "certConf" then
                    match h.recipNonce with
                    | none => .error .badRecipientNonce
                    | some r =>
                      match m.hdr.recipNonce with
                      | none => .error .badRecipientNonce
                      | some r' => if r' ≠ r then .error .badRecipientNonce else .ok (some r)
                  else if m.hdr.recipNonce.isSome then .error .badRecipientNonce
                  else if h.recipNonce.isSome then .error .badRecipientNonce
                  else .ok none
                match recip with
                | .error e => .error e
                | .ok r =>
                  if checkLen then
                    if t'.length ≠ 16 then .error .badRequest
                    else if s.length ≠ 16 then .error .badSenderNonce
                    else match r with
                      | none => .ok ()
                      | some v => if v.length ≠ 16 then .error .badRecipientNonce else .ok ()
                  else .ok ()
  | some _ => .error .valueError

/-- Python dict assignment on an association list with unique keys: overwrite in place, else append. -/
def dictSet {K V : Type} [DecidableEq K] (k : K) (v : V) : List (K × V) → List (K × V)
  | [] => [(k, v)]
  | (k', v') :: r => if k' = k then (k, v) :: r else (k', v') :: dictSet k v r

/-- Python dict lookup. -/
def dictGet {K V : Type} [DecidableEq K] (k : K) : List (K × V) → Option V
  | [] => none
  | (k', v) :: r => if k' = k then some v else dictGet k r

/-- `resp_pair` of `validate_ids_and_nonces_for_nested_response` (2030-2032). -/
def respPairs : List Inner → List ((Bytes × Bytes) × String) → Except PyErr (List ((Bytes × Bytes) × String))
  | [], d => .ok d
  | m :: ms, d =>
    match m.hdr.recipNonce, m.hdr.txId with
    | some r, some t => respPairs ms (dictSet (r, t) m.body d)
    | _, _ => .error .pyasn1Error

/-- `req_pair` (2034-2036), keyed by the name of the body. -/
def reqPairs : List Inner → List (String × (Bytes × Bytes)) → Except PyErr (List (String × (Bytes × Bytes)))
  | [], d => .ok d
  | m :: ms, d =>
    match m.hdr.senderNonce, m.hdr.txId with
    | some s, some t => reqPairs ms (dictSet m.body (s, t) d)
    | _, _ => .error .pyasn1Error

/-- `allowed_answer_bodies` (2038). -/
def allowedAnswers : List (String × String) :=
  [("p10cr", "cp"), ("cr", "cp"), ("genm", "genp"), ("kur", "kup"), ("ir", "ip")]

/-- The final loop (2040-2051). -/
def checkPairs (rp : List ((Bytes × Bytes) × String)) : List (String × (Bytes × Bytes)) → Except PyErr Unit
  | [] => .ok ()
  | (b, k) :: r =>
    match dictGet k rp with
    | none => .error .valueError
    | some a =>
      if a = "error" ∨ a = "pollReq" then checkPairs rp r
      else match dictGet b allowedAnswers with
        | none => .error .keyError
        | some x => if x ≠ a then .error .valueError else checkPairs rp r

/-- `checkutils.py` 1992-2052, `validate_ids_and_nonces_for_nested_response` (the request is a `nested` message
with the inner messages `ireq`; `iresp = none` means the response body is not `nested`). -/
def validateNestedResponse (req resp : Hdr) (ireq : List Inner) (iresp : Option (List Inner)) : Except PyErr Unit :=
  match validateSenderRecipient resp req false with
  | .error e => .error e
  | .ok () =>
    match iresp with
    | none => .error .valueError
    | some ir =>
      if ir.length ≠ ireq.length then .error .valueError
      else match respPairs ir [] with
        | .error e => .error e
        | .ok rp =>
          match reqPairs ireq [] with
          | .error e => .error e
          | .ok qp => checkPairs rp qp

/-! ## Request headers -/

/-- `checkutils.py` 2343-2389, `validate_request_message_nonces_and_tx_id` for bodies other than `certConf`. -/
def validateRequestIds (h : Hdr) (body : String) : Except PyErr Unit :=
  if body = "nested" then .error .notImplemented
  else match h.senderNonce with
    | none => .error .badSenderNonce
    | some s =>
      match h.txId with
      | none => .error .badDataFormat
      | some t =>
        if h.recipNonce.isSome then .error .badRecipientNonce
        else if t.length ≠ 16 then .error .badRequest
        else if s.length ≠ 16 then .error .badSenderNonce
        else .ok ()

/-! ## Body types -/

/-- A body: a plain body with its name, or a `nested` body with its inner messages. -/
inductive Body where
  | leaf (name : String)
  | nested (inner : List Body)

/-- `get_cmp_message_type`. -/
def Body.name : Body → String
  | .leaf n => n
  | .nested _ => "nested"

/-- `correct_body_types` (2473-2482) without the `nested` entry. -/
def correctBodies : List (String × String) :=
  [("ir", "ip"), ("cr", "cp"), ("kur", "kup"), ("p10cr", "cp"), ("genm", "genp"), ("ccr", "ccp"), ("rr", "rp")]

mutual
/-- `checkutils.py` 2443-2507, `validate_cmp_body_types`, and 2392-2440, `_validate_body_types_nested`. -/
def validateBodyTypes (resp : Body) (error : Option Bool) : Body → Except PyErr Unit
  | .leaf n =>
    match dictGet n correctBodies with
    | none => .error .valueError
    | some x =>
      match error with
      | none => if resp.name ≠ x ∧ resp.name ≠ "error" then .error .valueError else .ok ()
      | some false => if resp.name ≠ x then .error .valueError else .ok ()
      | some true => if resp.name ≠ "error" then .error .valueError else .ok ()
  | .nested [r] => if resp.name = "nested" then .error .valueError else validateBodyTypes resp error r
  | .nested rs =>
    if resp.name = "error" ∧ error = some false then .error .valueError
    else if resp.name = "error" then .ok ()
    else match resp with
      | .leaf _ => .error .valueError
      | .nested ps => if ps.length ≠ rs.length then .error .badValueBehavior else validateBodyList ps error rs
/-- The element-wise loop (2436-2440). -/
def validateBodyList (ps : List Body) (error : Option Bool) : List Body → Except PyErr Unit
  | [] => .ok ()
  | r :: rs =>
    match ps with
    | [] => .error .indexError
    | p :: ps' =>
      match validateBodyTypes p error r with
      | .error e => .error e
      | .ok () => validateBodyList ps' error rs
end

/-- `checkutils.py` 2510-2540, `validate_wrong_integrity`. `prot = none`: `protectionAlg` absent; `some none`: an
algorithm `get_protection_type` does not know. -/
def validateWrongIntegrity (body : String) (prot : Option (Option ProtType)) : Except PyErr Unit :=
  if body ≠ "ccr" ∧ body ≠ "kur" ∧ body ≠ "rr" ∧ body ≠ "nested" then .ok ()
  else match prot with
    | none => .error .badMessageCheck
    | some none => .error .unknownOID
    | some (some p) =>
      if p = .mac then .error .bodyRelevantError
      else if (p = .dh ∨ p = .kem) ∧ body = "ccr" then .error .bodyRelevantError
      else .ok ()

/-! ## Order of a chain in extraCerts -/

/-- `_prepare_indicies` / `_get_cert_index` (783-820): the first position of a certificate with the same
identifier (subject, serial number); `none` is `KeyError`. -/
def certIndex {I : Type} [DecidableEq I] (extra : List I) (c : I) : Option Nat := extra.findIdx? (· = c)

/-- The loop of `check_single_chain_is_ordered` (874-884). -/
def orderLoop {I : Type} [DecidableEq I] (extra : List I) (last : Nat) : List I → Bool
  | [] => true
  | c :: cs =>
    match certIndex extra c with
    | none => false   -- excluded by the first loop
    | some j => if ¬ (j = last + 1 ∨ last > j) then false else orderLoop extra (last + 1) cs

/-- `checkutils.py` 844-886, `check_single_chain_is_ordered`; certificates are represented by their
identifiers. -/
def chainOrdered {I : Type} [DecidableEq I] (extra chain : List I) (checkForIssued : Bool) : Except PyErr Bool :=
  let ch := if checkForIssued then chain.tail else chain
  if ch.any (fun c => (certIndex extra c).isNone) then .error .valueError
  else match ch with
    | [] => .error .indexError
    | c :: cs =>
      match certIndex extra c with
      | none => .error .valueError
      | some i => .ok (orderLoop extra i cs)

/-- `checkutils.py` 889-907, `find_right_cert_pos`; `ok` is `verify_signature_with_cert` not raising. -/
def findCertPos {C : Type} (ok : C → Bool) : Nat → List C → Int
  | _, [] => -1
  | i, c :: cs => if ok c then i else findCertPos ok (i + 1) cs

/-! ## Revocation response -/

/-- The names of `PKIStatus` (pyasn1_alt_modules rfc9480 / rfc4210). -/
def pkiStatusNames : List (List Char) :=
  ["accepted".toList, "grantedWithMods".toList, "rejection".toList, "waiting".toList,
    "revocationWarning".toList, "revocationNotification".toList, "keyUpdateWarning".toList]

/-- `checkutils.py` 1654-1696, `check_rp_cmp_message_body`: `isRp` is the body test, `status` the first
PKIStatus, `failInfo` whether failInfo is present. -/
def checkRp (isRp : Bool) (status : Int) (failInfo : Bool) : Except PyErr Unit :=
  if !isRp then .error .valueError
  else match compareNamedValues pkiStatusNames status ["accepted".toList] true with
    | .error e => .error e
    | .ok true => if failInfo then .error .valueError else .ok ()
    | .ok false =>
      match compareNamedValues pkiStatusNames status ["rejected".toList] true with
      | .error e => .error e
      | .ok true => .ok ()
      | .ok false => .error .valueError

end Verif.Check
