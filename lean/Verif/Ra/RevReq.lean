import Verif.Ra.ReqTmpl

/-!
# Revocation requests of the client (resources/cmputils.py)

Names are those of `Verif.Check.Helpers`, extensions those of `Verif.Check.Template` (the flag `critical`, which the
CA does not read, is dropped). The header of the message is that of `Verif.Ra.Build`.
-/

namespace Verif.Ra

open Verif.CA hiding Bytes Msg
open Verif.Check hiding Spki

/-- What the requests use: the encoding of an ENUMERATED, `int()` of a text and the order in which a set of texts is
gone through. -/
structure RevEnc where
  enc : Int → Bytes
  pyInt : List Char → Option Int
  order : List (List Char) → List (List Char)

/-- `cmputils.py` 4922: the value of a reason in `rfc5280.CRLReason`, a number or a name. -/
def reasonValue (re : RevEnc) (r : List Char) : Except PyErr Int :=
  match re.pyInt r with
  | some n => .ok n
  | none =>
    match crlReasons.find? (fun p => decide (p.2.toList = r)) with
    | some p => .ok p.1
    | none => .error .pyasn1Error

/-- `cmputils.py` 4858-4872, `_prepare_crl_reason_extension`. -/
def crlReasonExt (d : Bytes) : Ext := ⟨crlReasonsOid, d⟩

/-- `cmputils.py` 4917: the set of the reasons. -/
def reasonSet (s : List Char) : List (List Char) := (splitComma (stripL s)).eraseDups

/-- `cmputils.py` 4921-4926: the extensions of the reasons. -/
def reasonExts (re : RevEnc) (addBytes : Bool) : List (List Char) → Except PyErr (List Ext)
  | [] => .ok []
  | r :: rs =>
    match reasonValue re r with
    | .error e => .error e
    | .ok n =>
      match reasonExts re addBytes rs with
      | .error e => .error e
      | .ok l => .ok (crlReasonExt (if addBytes then re.enc n ++ [0, 0, 0, 0] else re.enc n) :: l)

/-- `cmputils.py` 4936. -/
def notDer : Bytes := "This is not a valid DER encoding.".toList.map (fun c => UInt8.ofNat c.toNat)

/-- `cmputils.py` 4920: the reasons in the order of the set. -/
def givenExts (re : RevEnc) (reasons : Option (List Char)) (addBytes : Bool) : Except PyErr (List Ext) :=
  match reasons with
  | none => .ok []
  | some s => reasonExts re addBytes (re.order (reasonSet s))

/-- `cmputils.py` 4876-4940, `prepare_crl_reason_extensions`. -/
def prepReasons (re : RevEnc) (reasons : Option (List Char)) (invReason invDer addBytes : Bool := false) :
    Except PyErr (List Ext) :=
  if reasons.isNone = true ∧ invReason = false ∧ invDer = false then .error .valueError
  else match givenExts re reasons addBytes with
    | .error e => .error e
    | .ok l =>
      .ok (l ++ (if invReason then [crlReasonExt (re.enc 20)] else []) ++ (if invDer then [crlReasonExt notDer] else []))

variable {A G K P T : Type}

/-- The key of a template as the CA reads it. -/
def keyOfTmpl (s : Spki G) : Option (Check.Spki G) := s.alg.map (fun g => ⟨g, s.bits⟩)

/-- The template as the CA reads it. -/
def toTempl (t : ClTmpl G (DName A) T Ext) : Templ A G T :=
  { version := t.rest.version, serial := t.rest.serial, issuer := t.rest.issuer,
    validity := t.rest.validity.map (fun v => (some v.1, some v.2)), subject := t.rest.subject,
    key := t.key.bind keyOfTmpl, exts := if t.rest.exts.isEmpty then none else some t.rest.exts }

/-- The certificate as the client reads it. -/
def ofCert (c : Cert A G T) : ClCert G (DName A) T Ext :=
  ⟨c.serial, c.issuer, c.subject, (c.notBefore, c.notAfter), c.exts, ⟨some c.spki.alg, c.spki.bits⟩⟩

/-- `cmputils.py` 4776, 4951: the fields of the template that are left out unless the caller says otherwise. -/
def revExcl : List Char := "extensions,validity,publicKey,subject".toList

/-- The arguments of `prepare_rev_details`. -/
structure RevArgs (A G T : Type) where
  cert : Option (Cert A G T) := none
  reason : List Char := "unspecified".toList
  serial : Option Int := none
  issuer : Option String := none
  tmpl : Option (Templ A G T) := none
  entry : Option (List Ext) := none
  excl : List Char := revExcl
  noEntry : Bool := false

/-- `cmputils.py` 4989-4995: the template of the details. -/
def revTmpl (env : ClEnv G K P (DName A) T Ext) (a : RevArgs A G T) : Except PyErr (Templ A G T) :=
  match a.tmpl with
  | some t => .ok t
  | none =>
    match prepTmpl env { serial := a.serial, issuer := a.issuer.map ClName.text, cert := a.cert.map ofCert,
                         excl := some a.excl } with
    | .error e => .error e
    | .ok (t, _) => .ok (toTempl t)

/-- `cmputils.py` 4997-5001: the details for the entry in the CRL. -/
def revEntry (re : RevEnc) (a : RevArgs A G T) : Except PyErr (Option (List Ext)) :=
  if a.noEntry then .ok none
  else match a.entry with
    | some l => .ok (some l)
    | none =>
      match prepReasons re (some a.reason) with
      | .error e => .error e
      | .ok l => .ok (some l)

/-- `cmputils.py` 4944-5005, `prepare_rev_details`. -/
def prepRevDetails (env : ClEnv G K P (DName A) T Ext) (re : RevEnc) (a : RevArgs A G T) :
    Except PyErr (RevDetails A G T) :=
  match revTmpl env a with
  | .error e => .error e
  | .ok t =>
    match revEntry re a with
    | .error e => .error e
    | .ok l => .ok ⟨t, l⟩

/-- `cmputils.py` 5009-5066, `prepare_rev_req_content`. -/
def prepRevContent (env : ClEnv G K P (DName A) T Ext) (re : RevEnc) (a : RevArgs A G T) :
    Except PyErr (List (RevDetails A G T)) :=
  match prepRevDetails env re a with
  | .error e => .error e
  | .ok d => .ok [d]

/-- `cmputils.py` 4767-4842, `build_cmp_revoke_request`: the body. There is no argument for the issuer. -/
def buildRr (env : ClEnv G K P (DName A) T Ext) (re : RevEnc) (a : RevArgs A G T) :
    Except PyErr (List (RevDetails A G T)) :=
  prepRevContent env re { a with issuer := none }

/-- `cmputils.py` 4846-4855, `build_cmp_revive_request`: the body. The other arguments of
`build_cmp_revoke_request` can be given by keyword, except the reason. -/
def buildRevive (env : ClEnv G K P (DName A) T Ext) (re : RevEnc) (a : RevArgs A G T) :
    Except PyErr (List (RevDetails A G T)) :=
  buildRr env re { a with reason := "removeFromCRL".toList }

end Verif.Ra
