import Verif.CA.Base

/-!
# Headers of the messages of a transaction (resources/ca_ra_utils.py 2214-2241, resources/cmputils.py 113-280, 3275-3323)

Random values are arguments. Simplified: no fields are excluded, names are not parsed, and the fields `messageTime`,
`generalInfo` and `freeText` are not modelled. The changes for MAC protection (267-278) are not modelled.
-/

namespace Verif.Ra

open Verif.CA

/-- `PKIHeader`. -/
structure Header (N : Type) where
  pvno : Int
  sender : N
  recipient : N
  tid : Option (List UInt8)
  senderNonce : Option (List UInt8)
  recipNonce : Option (List UInt8)
  senderKid : Option (List UInt8)
  recipKid : Option (List UInt8)
  deriving DecidableEq

/-- The keyword arguments for the header. -/
structure HArgs (N : Type) where
  sender : N
  recipient : Option N := none
  pvno : Option Int := none
  tid : Option (List UInt8) := none
  senderNonce : Option (List UInt8) := none
  recipNonce : Option (List UInt8) := none
  senderKid : Option (List UInt8) := none
  recipKid : Option (List UInt8) := none
  fresh : Bool := true

/-- `value or other`: the empty string is false. -/
def orBytes (a : Option (List UInt8)) (b : List UInt8) : List UInt8 :=
  match a with
  | none => b
  | some x => if x = [] then b else x

/-- `value or field.asOctets()`: an absent field raises an error, if it is read. -/
def orField (a f : Option (List UInt8)) : Except PyErr (List UInt8) :=
  match a with
  | some (x :: l) => .ok (x :: l)
  | _ =>
    match f with
    | none => .error .pyasn1Error
    | some b => .ok b

variable {N : Type}

/-- `ca_ra_utils.py` 2230-2235: the nonce of the CA; `r1`, `r2` are random. -/
def altNonce (r1 r2 : List UInt8) (q : Header N) (fresh : Bool) : List UInt8 :=
  if fresh then
    match q.recipNonce with
    | none => r1
    | some n => n
  else r2

/-- `ca_ra_utils.py` 2214-2241, `set_ca_header_fields`. -/
def setCaHeader (r1 r2 : List UInt8) (q : Header N) (a : HArgs N) : Except PyErr (HArgs N) :=
  match orField a.recipNonce q.senderNonce with
  | .error e => .error e
  | .ok rn =>
    match orField a.tid q.tid with
    | .error e => .error e
    | .ok t =>
      .ok { a with
        recipKid := match q.senderKid with
          | none => a.recipKid
          | some k => some (orBytes a.recipKid k)
        recipNonce := some rn
        senderNonce := some (orBytes a.senderNonce (altNonce r1 r2 q a.fresh))
        tid := some t
        recipient := some (a.recipient.getD q.sender)
        pvno := some (match a.pvno with
          | none => q.pvno
          | some p => if p = 0 then q.pvno else p) }

/-- `cmputils.py` 176-280, `prepare_pki_message`; `kid` is the key identifier for a sender (113-132), `dflt` are the
default recipient and key identifier. -/
def prepHeader (kid : Option (List UInt8) → N → List UInt8) (dflt : N × List UInt8) (r1 r2 : List UInt8) (a : HArgs N) :
    Header N :=
  { pvno := a.pvno.getD 2
    sender := a.sender
    recipient := a.recipient.getD dflt.1
    tid := some (orBytes a.tid r1)
    senderNonce := some (orBytes a.senderNonce r2)
    recipNonce := match a.recipNonce with
      | some (x :: l) => some (x :: l)
      | _ => none
    senderKid := some (kid a.senderKid a.sender)
    recipKid := some (orBytes a.recipKid dflt.2) }

/-- `ca_ra_utils.py` 2650-2658: the header of a response; the nonce is set again if it is empty (2656). -/
def caHeader (kid : Option (List UInt8) → N → List UInt8) (dflt : N × List UInt8) (r : Fin 5 → List UInt8)
    (q : Header N) (a : HArgs N) : Except PyErr (Header N) :=
  match setCaHeader (r 0) (r 1) q a with
  | .error e => .error e
  | .ok b => .ok (prepHeader kid dflt (r 2) (r 3) { b with senderNonce := some (orBytes b.senderNonce (r 4)) })

/-- `cmputils.py` 3275-3323, `extract_fields_for_exchange`, for the arguments that are not given (3478-3481). -/
def clientArgs (r : List UInt8) (q : Header N) (a : HArgs N) : Except PyErr (HArgs N) :=
  match q.tid with
  | none => .error .pyasn1Error
  | some t =>
    match q.senderNonce with
    | none => .error .pyasn1Error
    | some n =>
      match (if a.fresh then .ok r else match q.recipNonce with
        | none => .error .pyasn1Error
        | some m => .ok m : Except PyErr (List UInt8)) with
      | .error e => .error e
      | .ok s =>
        .ok { a with
          tid := some (a.tid.getD t)
          recipNonce := some (a.recipNonce.getD n)
          senderNonce := some (a.senderNonce.getD s)
          recipKid := match a.recipKid with
            | some k => some k
            | none => q.senderKid
          senderKid := match a.senderKid with
            | some k => some k
            | none => q.recipKid }

/-- `cmputils.py` 3478-3481 with 176-280: the header of the next message of the client. -/
def clientHeader (kid : Option (List UInt8) → N → List UInt8) (dflt : N × List UInt8) (r : Fin 5 → List UInt8)
    (q : Header N) (a : HArgs N) : Except PyErr (Header N) :=
  match clientArgs (r 0) q a with
  | .error e => .error e
  | .ok b => .ok (prepHeader kid dflt (r 2) (r 3) b)

/-- A transaction: the messages after `q`, alternately of the CA and of the client, for a list of random values; each
side passes its name and no other arguments. -/
def exchange (kid : Option (List UInt8) → N → List UInt8) (dflt : N × List UInt8) (ca client : N) :
    Bool → Header N → List (Fin 5 → List UInt8) → Except PyErr (List (Header N))
  | _, _, [] => .ok []
  | turn, q, r :: rs =>
    match (if turn then caHeader kid dflt r q { sender := ca }
      else clientHeader kid dflt r q { sender := client }) with
    | .error e => .error e
    | .ok p =>
      match exchange kid dflt ca client (!turn) p rs with
      | .error e => .error e
      | .ok ps => .ok (p :: ps)

end Verif.Ra
