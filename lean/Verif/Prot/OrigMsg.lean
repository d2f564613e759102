import Verif.Prot.Protect
import Verif.Ra.GenInfo

/-!
# The original messages in the generalInfo field (resources/protectionutils.py 3001-3060, resources/cmputils.py 4173-4203)

A registration authority which changes a request puts the request it got into the field `generalInfo`.  The codec of
`PKIMessages` is a parameter; a message is given as in `Verif.Prot.Protect`.
-/

namespace Verif.Prot.Orig

open Verif.CA (PyErr)
open Verif.Ra (Itv findOid valueOf)

variable {S K C : Type}

/-- `rfc9480.id_it_origPKIMessage`. -/
def origOid : List Nat := Verif.Ra.idIt 15

/-- `protectionutils.py` 3059: the classes which are caught, with their subclasses (`exceptions.py` 61-72, 103-105, 133-155). -/
def caught : PyErr → Bool
  | .badMessageCheck => true
  | .badMacProtection => true
  | .badSignatureProtection => true
  | .invalidSignature => true
  | .invalidAltSignature => true
  | .badSigAlgId => true
  | _ => false

/-- `protectionutils.py` 3057-3060: one message. `rnd` is the random value that replaces an empty salt. -/
def verifyOne (env : Env S K C) (rnd : Bytes) (pw : Option Bytes) (m : Msg C) : Except PyErr Unit :=
  match verifyProt env rnd m none pw none none false with
  | .ok () => .ok ()
  | .error e => .error (if caught e then .badMessageCheck else e)

/-- `protectionutils.py` 3056-3060: all messages, in their order. -/
def verifyAll (env : Env S K C) (rnd : Msg C → Bytes) (pw : Option Bytes) : List (Msg C) → Except PyErr Unit
  | [] => .ok ()
  | m :: ms =>
    match verifyOne env (rnd m) pw m with
    | .error e => .error e
    | .ok () => verifyAll env rnd pw ms

/-- `protectionutils.py` 3051-3060 for the value found, with `asn1utils.py` 749-769: an absent value has no octets. -/
def verifyValue (env : Env S K C) (dec : Bytes → Option (List (Msg C) × Bytes)) (rnd : Msg C → Bytes) (pw : Option Bytes) :
    Option Bytes → Except PyErr Unit
  | none => .error .pyasn1Error
  | some b =>
    match dec b with
    | none => .error .badAsn1Data
    | some (ms, []) => verifyAll env rnd pw ms
    | some (_, _ :: _) => .error .badMessageCheck

/-- `protectionutils.py` 3002-3060, `validate_orig_pkimessage`; an absent field is `none`. -/
def validateOrig (env : Env S K C) (dec : Bytes → Option (List (Msg C) × Bytes)) (rnd : Msg C → Bytes)
    (must : Bool) (pw : Option Bytes) (gi : Option (List Itv)) : Except PyErr Unit :=
  match gi with
  | none => if must then .error .badRequest else .ok ()
  | some g =>
    if must = false ∧ findOid origOid g = false then .ok ()
    else if findOid origOid g = false then .error .badRequest
    else
      match valueOf origOid g with
      | none => .error .badRequest
      | some v => verifyValue env dec rnd pw v

/-- `cmputils.py` 4173-4203, `prepare_orig_pki_message`; a single message is a list of one. -/
def prepareOrig (enc : List (Msg C) → Bytes) (ms : List (Msg C)) : Itv := ⟨origOid, some (enc ms)⟩

end Verif.Prot.Orig
