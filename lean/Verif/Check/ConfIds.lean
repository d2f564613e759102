import Verif.Check.Header

/-!
# The identifiers of a confirmation (resources/checkutils.py 2295-2389)
-/

namespace Verif.Check

open Verif.CA (Bytes PyErr)

/-- `checkutils.py` 2325-2331: the lengths; `check_length` is not given by the caller and true. -/
def confLengths (tx s r : Bytes) : Except PyErr Unit :=
  if tx.length ≠ 16 then .error .badRequest
  else if s.length ≠ 16 then .error .badSenderNonce
  else if r.length ≠ 16 then .error .badRecipientNonce
  else .ok ()

/-- A comparison with a field of the other message, which has to have a value. -/
def sameField (a : Bytes) (b : Option Bytes) (e : PyErr) : Except PyErr Unit :=
  match b with
  | none => .error .pyasn1Error
  | some b => if a ≠ b then .error e else .ok ()

/-- `checkutils.py` 2333-2340. -/
def confMatches (tx s r : Bytes) (resp : Hdr) : Except PyErr Unit :=
  match sameField r resp.senderNonce .badRecipientNonce with
  | .error e => .error e
  | .ok () =>
    match sameField tx resp.txId .badRequest with
    | .error e => .error e
    | .ok () => sameField s resp.recipNonce .badSenderNonce

/-- `checkutils.py` 2295-2340, `_validate_cert_conf_nonces_and_tx_id`. -/
def validateConfIds (h : Hdr) (body : String) (resp : Hdr) : Except PyErr Unit :=
  if body ≠ "certConf" then .error .valueError
  else
    match h.senderNonce, h.txId, h.recipNonce with
    | none, _, _ => .error .badSenderNonce
    | some _, none, _ => .error .badDataFormat
    | some _, some _, none => .error .badRecipientNonce
    | some s, some tx, some r =>
      match confLengths tx s r with
      | .error e => .error e
      | .ok () => confMatches tx s r resp

/-- `checkutils.py` 2343-2389, `validate_request_message_nonces_and_tx_id`, for all bodies. -/
def validateIds (h : Hdr) (body : String) (resp : Option Hdr) : Except PyErr Unit :=
  if body = "certConf" then
    match resp with
    | none => .error .valueError
    | some r => validateConfIds h body r
  else validateRequestIds h body

end Verif.Check
