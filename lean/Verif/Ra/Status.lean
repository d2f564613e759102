import Verif.Check.Header
import Verif.Ra.Build

/-!
# What a test says about the status of a response (resources/cmputils.py 3726-3909, 5070-5243, resources/asn1utils.py
455-535, resources/keywords.resource 539-562, 1328-1395)

Texts are stripped of blanks only, not of other white space; indices are natural numbers, and digits are `0` to `9`.
-/

namespace Verif.Ra

open Verif.CA (Bytes PyErr)
open Verif.Check (stripL isBitSetNames compareNamedValues pkiStatusNames bitSet eitherBitSet)

variable {C : Type}

/-- `PKIStatusInfo`; a field which is absent is `none`. -/
structure StInfo where
  status : Option Int := none
  fail : Option (List Bool) := none
  texts : Option (List (List Char)) := none
  deriving DecidableEq

/-- `CertOrEncCert`: the alternative which is set, if any. -/
inductive CertOr (C : Type) where
  | cert (c : C)
  | enc (b : Bytes)
  | empty
  deriving DecidableEq

/-- `CertResponse`. -/
structure CResp (C : Type) where
  id : Option Int := none
  info : StInfo := {}
  pair : Option (CertOr C) := none
  deriving DecidableEq

/-- The body of a message; `certs` is one of `ip`, `cp`, `kup` and `ccp`. -/
inductive SBody (C : Type) where
  | error (i : StInfo)
  | rp (l : List StInfo)
  | ip (l : List (CResp C))
  | cp (l : List (CResp C))
  | kup (l : List (CResp C))
  | ccp (l : List (CResp C))
  | certConf (l : List StInfo)
  | krp (newSig : Option C)
  | other (name : List Char)
  deriving DecidableEq

/-- `cmputils.py` 3789-3806, `get_cmp_message_type`. -/
def SBody.name : SBody C → List Char
  | .error _ => "error".toList
  | .rp _ => "rp".toList
  | .ip _ => "ip".toList
  | .cp _ => "cp".toList
  | .kup _ => "kup".toList
  | .ccp _ => "ccp".toList
  | .certConf _ => "certConf".toList
  | .krp _ => "krp".toList
  | .other n => n

/-- The entry of a `SEQUENCE OF`; one which is not there is made, without any fields. -/
def entryInfo (l : List StInfo) (i : Nat) : StInfo := l[i]?.getD {}

/-- The entry of the responses. -/
def entryResp (l : List (CResp C)) (i : Nat) : CResp C := l[i]?.getD {}

/-- `cmputils.py` 5070-5109, `get_pkistatusinfo`. -/
def getInfo (b : SBody C) (i : Nat) : Except PyErr StInfo :=
  match b with
  | .error s => .ok s
  | .rp l => .ok (entryInfo l i)
  | .ip l => .ok (entryResp l i).info
  | .cp l => .ok (entryResp l i).info
  | .kup l => .ok (entryResp l i).info
  | .ccp l => .ok (entryResp l i).info
  | .certConf l => .ok (entryInfo l i)
  | .krp _ => .error .valueError
  | .other _ => .error .valueError

/-- The names of `PKIFailureInfo` (RFC 4210). -/
def failNames : List (List Char) :=
  ["badAlg".toList, "badMessageCheck".toList, "badRequest".toList, "badTime".toList, "badCertId".toList,
    "badDataFormat".toList, "wrongAuthority".toList, "incorrectData".toList, "missingTimeStamp".toList,
    "badPOP".toList, "certRevoked".toList, "certConfirmed".toList, "wrongIntegrity".toList,
    "badRecipientNonce".toList, "timeNotAvailable".toList, "unacceptedPolicy".toList,
    "unacceptedExtension".toList, "addInfoNotAvailable".toList, "badSenderNonce".toList,
    "badCertTemplate".toList, "signerNotTrusted".toList, "transactionIdInUse".toList,
    "unsupportedVersion".toList, "notAuthorized".toList, "systemUnavail".toList, "systemFailure".toList,
    "duplicateCertReq".toList]

/-- `str.isdigit`. -/
def isDigits (s : List Char) : Bool := !s.isEmpty && s.all fun c => '0' ≤ c && c ≤ '9'

/-- The number which digits stand for. -/
def digitsNat (s : List Char) : Nat := s.foldl (fun a c => a * 10 + (c.toNat - 48)) 0

/-- `int(s)` for a text of digits and blanks. -/
def pyInt (s : List Char) : Except PyErr Nat :=
  if isDigits (stripL s) then .ok (digitsNat (stripL s)) else .error .valueError

/-- `[int(x) for x in …]`. -/
def pyInts : List (List Char) → Except PyErr (List Nat)
  | [] => .ok []
  | s :: ss =>
    match pyInt s with
    | .error e => .error e
    | .ok n =>
      match pyInts ss with
      | .error e => .error e
      | .ok ns => .ok (n :: ns)

/-- `asn1utils.py` 455-535, `is_bit_set` for a text: numbers or names. -/
def isBitSetText (x : Option (List Bool)) (s : List Char) (exclusive : Bool) : Except PyErr Bool :=
  match x with
  | none => .error .valueError
  | some x =>
    if isDigits (stripL (s.filter (· ≠ ','))) then
      if ',' ∈ s then
        match pyInts (splitAt ',' (stripL s)) with
        | .error e => .error e
        | .ok is => .ok (eitherBitSet x is exclusive)
      else
        match pyInt s with
        | .error e => .error e
        | .ok i => .ok (bitSet x i exclusive)
    else isBitSetNames failNames x (splitAt ',' (stripL s)) exclusive

/-- `asn1_compare_named_values(status, text)` (5161): the comparison with a status which is absent ends with an error of
the ASN.1 library, if the first name is known. -/
def compareStatus (x : Option Int) (s : List Char) : Except PyErr Bool :=
  match x with
  | some x => compareNamedValues pkiStatusNames x (splitAt ',' (stripL s)) true
  | none =>
    match splitAt ',' (stripL s) with
    | v :: _ => if stripL v ∈ pkiStatusNames then .error .pyasn1Error else .error .valueError
    | [] => .ok false

/-- Lines 5153-5154: the status which is wanted. -/
def wantedStatus (status failinfos : Option (List Char)) : Option (List Char) :=
  match status, failinfos with
  | none, some _ => some "rejection".toList
  | s, _ => s

/-- Lines 5170-5183. -/
def checkFail (fail : Option (List Bool)) (failinfos : Option (List Char)) (exclusive allow : Bool) : Except PyErr Unit :=
  match failinfos with
  | none => .ok ()
  | some f =>
    match isBitSetText fail (stripL f) exclusive with
    | .error e => .error e
    | .ok r => if r || allow then .ok () else .error .valueError

/-- Lines 5185-5187. -/
def checkType (b : SBody C) : Option (List Char) → Except PyErr Unit
  | none => .ok ()
  | some t => if stripL t = b.name then .ok () else .error .valueError

/-- `cmputils.py` 5115-5187, `verify_pkistatusinfo`. -/
def verifyStatus (b : SBody C) (bodyType status failinfos : Option (List Char)) (exclusive := true) (must := false)
    (allow := true) : Except PyErr Unit :=
  match wantedStatus status failinfos with
  | none => .error .valueError
  | some w =>
    match getInfo b 0 with
    | .error e => .error e
    | .ok info =>
      match compareStatus info.status w with
      | .error e => .error e
      | .ok false => .error .valueError
      | .ok true =>
        if info.fail = none ∧ must = true then .error .valueError
        else
          match checkFail info.fail failinfos exclusive allow with
          | .error e => .error e
          | .ok () => checkType b bodyType

/-- `str(status)`: the name, or the number if it has none; of an absent one an error of the ASN.1 library. -/
def statusText : Option Int → Except PyErr (List Char)
  | none => .error .pyasn1Error
  | some x => .ok (if 0 ≤ x then (pkiStatusNames[x.toNat]?).getD (toString x).toList else (toString x).toList)

/-- `cmputils.py` 3726-3752, `get_status_from_pkimessage`. -/
def getStatus (b : SBody C) (i : Nat) : Except PyErr (List Char) :=
  match getInfo b i with
  | .error e => .error e
  | .ok info => statusText info.status

/-- `keywords.resource` 1370-1395, `PKIStatus Must Be`. -/
def statusMustBe (b : SBody C) (s : List Char) (i : Nat := 0) : Except PyErr Unit :=
  match getStatus b i with
  | .error e => .error e
  | .ok t => if t = s then .ok () else .error .assertionError

/-- `keywords.resource` 1328-1368, `PKIStatusInfo failinfo Bit Must Be`; `strict` is `FAILINFO_MUST_BE_CORRECT`. -/
def failMustBe (strict : Bool) (b : SBody C) (s : List Char) (exclusive := false) (i : Nat := 0) : Except PyErr Unit :=
  match getInfo b i with
  | .error e => .error e
  | .ok info =>
    match isBitSetText info.fail s exclusive with
    | .error e => .error e
    | .ok r => if !r && strict then .error .assertionError else .ok ()

/-- `keywords.resource` 539-562, `PKIMessage Body Type Must Be`. -/
def typeMustBe (b : SBody C) (s : List Char) : Except PyErr Unit :=
  if b.name ≠ s then
    match getInfo b 0 with
    | .error e => .error e
    | .ok _ => .error .assertionError
  else .ok ()

/-- `t in s` for texts. -/
def inText (t : List Char) : List Char → Bool
  | [] => t.isEmpty
  | c :: cs => t.isPrefixOf (c :: cs) || inText t cs

/-- `if text:` with the items of it; an empty text is like none. -/
def itemsOf : Option (List Char) → Option (List (List Char))
  | none => none
  | some [] => none
  | some s => some (splitAt ',' s)

/-- Lines 5231-5243 for the text of the status (`none`: it is absent, and the test ends with an error of the ASN.1
library). -/
def checkItems (t : Option (List Char)) (items : Option (List (List Char))) (all : Bool) : Except PyErr Unit :=
  match items with
  | none => .ok ()
  | some l =>
    match t with
    | none => .error .pyasn1Error
    | some t => if (if all then l.all (inText · t) else l.any (inText · t)) then .ok () else .error .valueError

/-- `cmputils.py` 5190-5243, `verify_statusstring`. -/
def verifyText (b : SBody C) (anyText allText : Option (List Char)) (i : Nat := 0) (must := false) : Except PyErr Unit :=
  match getInfo b 0 with
  | .error e => .error e
  | .ok info =>
    if info.texts = none ∧ must = true then .error .valueError
    else
      let t := (info.texts.getD [])[i]?
      match checkItems t (itemsOf anyText) false with
      | .error e => .error e
      | .ok () => checkItems t (itemsOf allText) true

/-- `cmputils.py` 3809-3843, `get_cert_response_from_pkimessage`. -/
def getResp (b : SBody C) (i : Nat) : Except PyErr (CResp C) :=
  match b with
  | .ip l => .ok (entryResp l i)
  | .cp l => .ok (entryResp l i)
  | .kup l => .ok (entryResp l i)
  | .ccp l => .ok (entryResp l i)
  | _ => .error .valueError

/-- `cmputils.py` 3755-3785, `get_certreqid_from_pkimessage`. -/
def getReqId (b : SBody C) (i : Nat) : Except PyErr Int :=
  match getResp b i with
  | .error e => .error e
  | .ok r => match r.id with
    | none => .error .pyasn1Error
    | some n => .ok n

/-- `cmputils.py` 3866-3909, `get_cert_from_pkimessage`. -/
def getCert (b : SBody C) (i : Nat) : Except PyErr C :=
  match b with
  | .krp (some c) => .ok c
  | .krp none => .error .valueError
  | b =>
    match getResp b i with
    | .error e => .error e
    | .ok r =>
      match r.pair with
      | some (.cert c) => .ok c
      | _ => .error .valueError

/-- The other entries stay, and of the one looked at the alternative `certificate` is read (3904): another one is lost
then. -/
def touchResp (l : List (CResp C)) (i : Nat) : List (CResp C) :=
  l.modify i fun r => match r.pair with
    | some (.enc _) => { r with pair := some .empty }
    | _ => r

/-- The message after `get_cert_from_pkimessage`, for an entry which is there. -/
def afterGetCert (b : SBody C) (i : Nat) : SBody C :=
  match b with
  | .ip l => .ip (touchResp l i)
  | .cp l => .cp (touchResp l i)
  | .kup l => .kup (touchResp l i)
  | .ccp l => .ccp (touchResp l i)
  | b => b

end Verif.Ra
