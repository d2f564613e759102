import Verif.Ra.General
import Verif.Ra.Revoked
import Verif.Ra.RespBuild

/-!
# Addresses of revocation information: extensions of the CA, and what the client reads and asks for

* `resources/certbuildutils.py` 2154-2276, 2860-3195: `prepare_ocsp_extension`, `_prepare_crl_distribution_points`,
  `prepare_crl_distribution_point_extension`, `prepare_issuer_and_serial_number`, `prepare_distribution_point_name`,
  `prepare_distribution_point`, `_prepare_reason_flags`, `_prepare_dp_name_for_idp`, `prepare_issuing_distribution_point`,
  `prepare_issuing_distribution_point_extension`;
* `resources/prepareutils.py` 228-289: `parse_to_general_name`, `parse_to_general_names`;
* `mock_ca/ca_handler.py` 195-251: `_prepare_extensions`; `mock_ca/mock_fun.py` 1542-1567: `BaseURLData`;
* `resources/general_msg_utils.py` 492-674: `prepare_distribution_point_name_gen_name`, `prepare_dpn_from_cert`,
  `_prepare_time_for_crl_update_retrieval`, `_prepare_dpn_with_crl_file`, `prepare_crl_update_retrieval`.

Simplified: extensions are given by their values, without OID and DER encoding (`add_trailing_data`, which appends random
bytes to the encoding, is not modelled); tags are not modelled; a list of names is one of `NameArg`, not nested; the index of
a distribution point is not negative; an empty sequence, which pyasn1 refuses to encode, is `PyErr.pyasn1Error`.
-/

namespace Verif.Ra.CrlDp

open Verif.CA (PyErr)
open Verif.Ra.Revoked (RevCert ocspMethod)

variable {N R : Type}

/-! ## Names -/

/-- What a general name is made of: a text, a name, a `GeneralName` (or `GeneralNames`, one by one). -/
inductive NameArg (N : Type) where
  | text (s : String)
  | name (n : N)
  | gen (g : GenName N)

/-- `prepareutils.py` 106-147 and 228-252 for `uri` and `directoryName`: `parse_to_general_name`; `prep` is `prepare_name`. -/
def toGen (prep : String → Except PyErr N) (dir : Bool) : NameArg N → Except PyErr (GenName N)
  | .gen g => .ok g
  | .name n => .ok (.directory n)
  | .text s =>
    if dir then
      match prep s with
      | .error e => .error e
      | .ok n => .ok (.directory n)
    else .ok (.uri s)

/-- `prepareutils.py` 256-289, `parse_to_general_names`. -/
def toGens (prep : String → Except PyErr N) (dir : Bool) : List (NameArg N) → Except PyErr (List (GenName N))
  | [] => .ok []
  | a :: l =>
    match toGen prep dir a with
    | .error e => .error e
    | .ok g =>
      match toGens prep dir l with
      | .error e => .error e
      | .ok gs => .ok (g :: gs)

/-- An argument for names: one text, or a list. -/
inductive NamesArg (N : Type) where
  | one (s : String)
  | list (l : List (NameArg N))

/-- The entries. -/
def NamesArg.entries : NamesArg N → List (NameArg N)
  | .one s => [.text s]
  | .list l => l

/-- `bool(full_name)`. -/
def NamesArg.truthy : NamesArg N → Bool
  | .one s => !decide (s = "")
  | .list l => !l.isEmpty

/-- The truth value of an optional argument. -/
def givenNames : Option (NamesArg N) → Bool
  | none => false
  | some a => a.truthy

/-- `DistributionPointName`. -/
inductive Dpn (N R : Type) where
  | full (l : List (GenName N))
  | rel (r : List R)
deriving DecidableEq, Repr

/-- The truth value of a relative name: it is empty or not. -/
def givenRel (r : Option (List R)) : Bool :=
  match r with
  | none => false
  | some l => !l.isEmpty

/-- `certbuildutils.py` 2938-2947: `none` is the choice without a value. -/
def dpnOf (prep : String → Except PyErr N) (full : Option (NamesArg N)) (rel : Option (List R)) : Except PyErr (Option (Dpn N R)) :=
  match full with
  | some a =>
    if a.truthy then
      match toGens prep false a.entries with
      | .error e => .error e
      | .ok gs => .ok (some (.full gs))
    else .ok none
  | none =>
    match rel with
    | none => .ok none
    | some r => if r.isEmpty then .ok none else .ok (some (.rel r))

/-- `certbuildutils.py` 2922-2947, `prepare_distribution_point_name`. -/
def prepDpn (prep : String → Except PyErr N) (full : Option (NamesArg N)) (rel : Option (List R)) : Except PyErr (Option (Dpn N R)) :=
  if full.isSome = true ∧ rel.isSome = true then .error .valueError else dpnOf prep full rel

/-- `.getName()` of a choice, and the value: without one pyasn1 raises an error. -/
def chosen (d : Option (Dpn N R)) : Except PyErr (Dpn N R) :=
  match d with
  | none => .error .pyasn1Error
  | some x => .ok x

/-! ## Reasons -/

/-- `rfc5280.ReasonFlags`: the names of the bits 0 to 8. -/
def reasonFlags : List (List Char) :=
  ["unused".toList, "keyCompromise".toList, "cACompromise".toList, "affiliationChanged".toList, "superseded".toList,
   "cessationOfOperation".toList, "certificateHold".toList, "privilegeWithdrawn".toList, "aACompromise".toList]

/-- The bits of a `ReasonFlags` with these names. -/
def flagBits (l : List (List Char)) : List Bool := reasonFlags.map (fun n => decide (n ∈ l))

/-- `certbuildutils.py` 3022-3043, `_prepare_reason_flags`, for a text. -/
def reasonBits (s : List Char) : Except PyErr (List Bool) :=
  if s = "all".toList then .ok (flagBits reasonFlags)
  else if ∀ t ∈ splitAt ',' s, t ∈ reasonFlags then .ok (flagBits (splitAt ',' s))
  else .error .valueError

/-! ## Distribution points -/

/-- `DistributionPoint`. -/
structure DistPoint (N R : Type) where
  name : Option (Dpn N R) := none
  reasons : Option (List Bool) := none
  issuer : Option (List (GenName N)) := none
deriving DecidableEq, Repr

/-- `certbuildutils.py` 3005-3008. -/
def pointReasons : Option (List Char) → Except PyErr (Option (List Bool))
  | none => .ok none
  | some [] => .ok none
  | some (c :: l) => (reasonBits (c :: l)).map some

/-- `certbuildutils.py` 3010-3012; a field to which nothing is added stays without a value. -/
def pointIssuer (prep : String → Except PyErr N) : Option (NamesArg N) → Except PyErr (Option (List (GenName N)))
  | none => .ok none
  | some a =>
    match toGens prep true a.entries with
    | .error e => .error e
    | .ok [] => .ok none
    | .ok (g :: gs) => .ok (some (g :: gs))

/-- `certbuildutils.py` 3014-3017. -/
def pointName (prep : String → Except PyErr N) (full : Option (NamesArg N)) (rel : Option (List R)) : Except PyErr (Option (Dpn N R)) :=
  if givenNames full || givenRel rel then
    match prepDpn prep full rel with
    | .error e => .error e
    | .ok d => (chosen d).map some
  else .ok none

/-- `certbuildutils.py` 2968-3019, `prepare_distribution_point`. -/
def prepPoint (prep : String → Except PyErr N) (reasons : Option (List Char)) (issuers full : Option (NamesArg N))
    (rel : Option (List R)) : Except PyErr (DistPoint N R) :=
  match pointReasons reasons with
  | .error e => .error e
  | .ok rs =>
    match pointIssuer prep issuers with
    | .error e => .error e
    | .ok is =>
      match pointName prep full rel with
      | .error e => .error e
      | .ok d => .ok ⟨d, rs, is⟩

/-- The value of an extension which is a sequence. -/
def nonEmpty {T : Type} (l : List T) : Except PyErr (List T) :=
  if l.isEmpty then .error .pyasn1Error else .ok l

/-- `certbuildutils.py` 2192-2276: the distribution points of the extension. -/
def crlPoints (prep : String → Except PyErr N) (points : Option (List (DistPoint N R))) (issuers full : Option (NamesArg N))
    (rel : Option (List R)) : Except PyErr (List (DistPoint N R)) :=
  if points.isNone ∧ issuers.isNone ∧ full.isNone ∧ rel.isNone then .error .valueError
  else if issuers.isSome ∨ full.isSome ∨ rel.isSome then
    match prepPoint prep none issuers full rel with
    | .error e => .error e
    | .ok p => .ok (points.getD [] ++ [p])
  else nonEmpty (points.getD [])

/-- `certbuildutils.py` 2154-2189, `prepare_ocsp_extension`: method and address. -/
def ocspExt (url : Option String) : Except PyErr (List (String × Option String)) :=
  match url with
  | none => .error .pyasn1Error
  | some u => .ok [("1.3.6.1.5.5.7.48.1", some u)]

/-! ## The issuing distribution point -/

/-- `IssuingDistributionPoint`. -/
structure Idp (N R : Type) where
  name : Option (Dpn N R) := none
  user : Bool := false
  ca : Bool := false
  reasons : Option (List Bool) := none
  indirect : Bool := false
  attr : Bool := false
deriving DecidableEq, Repr

/-- `certbuildutils.py` 3046-3068, `_prepare_dp_name_for_idp`. -/
def idpDpn (prep : String → Except PyErr N) (dpn : Option (Option (Dpn N R))) (full : Option (NamesArg N)) (rel : Option (List R)) :
    Except PyErr (Option (Dpn N R)) :=
  if dpn.isSome = true ∧ (full.isSome = true ∨ rel.isSome = true) then .error .valueError
  else
    match dpn with
    | none => prepDpn prep full rel
    | some d => .ok d

/-- `certbuildutils.py` 3119-3126. -/
def idpName (prep : String → Except PyErr N) (dpn : Option (Option (Dpn N R))) (full : Option (NamesArg N)) (rel : Option (List R)) :
    Except PyErr (Option (Dpn N R)) :=
  if dpn.isSome ∨ full.isSome ∨ rel.isSome then
    match idpDpn prep dpn full rel with
    | .error e => .error e
    | .ok d => (chosen d).map some
  else .ok none

/-- `certbuildutils.py` 3131-3136: `ReasonFlags(names)`, with the list of all names, has one bit for each. -/
def someReasons : Option (List Char) → Except PyErr (Option (List Bool))
  | none => .ok none
  | some s =>
    match reasonBits s with
    | .error e => .error e
    | .ok _ => .ok (some (reasonFlags.map (fun n => !n.isEmpty)))

/-- The options of `prepare_issuing_distribution_point`. -/
structure IdpArgs where
  user : Bool := false
  ca : Bool := false
  reasons : Option (List Char) := none
  indirect : Bool := false
  attr : Bool := false

/-- `certbuildutils.py` 3072-3141, `prepare_issuing_distribution_point`. -/
def prepIdp (prep : String → Except PyErr N) (dpn : Option (Option (Dpn N R))) (full : Option (NamesArg N)) (rel : Option (List R))
    (a : IdpArgs) : Except PyErr (Idp N R) :=
  match idpName prep dpn full rel with
  | .error e => .error e
  | .ok d =>
    match someReasons a.reasons with
    | .error e => .error e
    | .ok rs => .ok ⟨d, a.user, a.ca, rs, a.indirect, a.attr⟩

/-- `certbuildutils.py` 3145-3195, `prepare_issuing_distribution_point_extension`. -/
def idpExt (prep : String → Except PyErr N) (idp : Option (Idp N R)) (dpn : Option (Option (Dpn N R))) (full : Option (NamesArg N)) :
    Except PyErr (Idp N R) :=
  match idp with
  | some i => .ok i
  | none =>
    if dpn.isNone ∧ full.isNone then .error .valueError
    else if dpn.isSome ∧ full.isSome then .error .valueError
    else prepIdp prep dpn full none {}

/-! ## The extensions of the CA -/

/-- `mock_fun.py` 1542-1567, `BaseURLData`. -/
structure UrlData where
  base : String
  port : Nat

/-- `mock_fun.py` 1555-1557, `get_base_url`. -/
def UrlData.root (u : UrlData) : String := u.base ++ ":" ++ toString u.port

/-- `mock_fun.py` 1559-1562, `ocsp_url`. -/
def UrlData.ocsp (u : UrlData) : String := u.root ++ "/ocsp"

/-- `mock_fun.py` 1564-1567, `crl_url`. -/
def UrlData.crl (u : UrlData) : String := u.root ++ "/crl"

/-- The extensions of a certificate which are about revocation; `none` if they are absent. -/
structure RevExts (N R : Type) where
  aia : Option (List (String × Option String)) := none
  points : Option (List (DistPoint N R)) := none
  idp : Option (Idp N R) := none
deriving DecidableEq, Repr

/-- `ca_handler.py` 217-251: the extensions about revocation of `_prepare_extensions`; `subject` is that of the CA. -/
def caExts (prep : String → Except PyErr N) (u : UrlData) (subject : N) : Except PyErr (RevExts N R) :=
  match ocspExt (some u.ocsp) with
  | .error e => .error e
  | .ok aia =>
    match prepPoint prep (some "all".toList) none (some (.one u.crl)) none with
    | .error e => .error e
    | .ok p =>
      match crlPoints prep (some [p]) (some (.list [.name subject])) none none with
      | .error e => .error e
      | .ok ps =>
        match prepIdp prep none (some (.one u.crl)) none {} with
        | .error e => .error e
        | .ok i =>
          match idpExt prep (some i) none none with
          | .error e => .error e
          | .ok i => .ok ⟨some aia, some ps, some i⟩

/-! ## The client -/

/-- A general name as the checks of revocation read it: the address, if it is one. -/
def genUri : GenName N → Option String
  | .uri s => some s
  | _ => none

/-- A name of a distribution point as they read it: the entries of `fullName`. -/
def dpnUris : Option (Dpn N R) → List (Option String)
  | some (.full l) => l.map genUri
  | some (.rel _) => []
  | none => []

/-- The certificate as the checks of revocation read it (`Verif.Ra.Revoked`). -/
def toRev (serial : Int) (issuer : String) (x : RevExts N R) : RevCert :=
  ⟨serial, issuer, x.aia, x.points.map (fun ps => ps.map (fun p => dpnUris p.name))⟩

/-- `general_msg_utils.py` 492-519, `prepare_distribution_point_name_gen_name`. -/
def genNameDpn (url name : Option String) : Except PyErr (Dpn N R) :=
  match name with
  | some s => .ok (.full [.mail s])
  | none =>
    match url with
    | some u => .ok (.full [.uri u])
    | none => .error .valueError

/-- The name of the distribution point with this index; an index which is too large gives an empty one. -/
def pointAt (ps : List (DistPoint N R)) (i : Nat) : Option (Dpn N R) :=
  match ps[i]? with
  | none => none
  | some p => p.name

/-- `general_msg_utils.py` 523-546, `prepare_dpn_from_cert`: the name, if there is an extension and it has one. -/
def certDpn (x : RevExts N R) (i : Nat) : Option (Dpn N R) :=
  match x.points with
  | some ps => pointAt ps i
  | none =>
    match x.idp with
    | none => none
    | some d => d.name

/-- What is read of a CRL: `exts` is `none` without extensions. -/
structure CrlFile (N R : Type) where
  exts : Option (RevExts N R)
  issuer : N
  thisUpdate : Int

/-- Whether `prepare_dpn_from_cert` gives a name (which may be one without a value). -/
def hasDpn (x : RevExts N R) : Bool := x.points.isSome || x.idp.isSome

/-- `general_msg_utils.py` 573-593, `_prepare_dpn_with_crl_file`, with the index 0, as it is called. -/
def fileDpn (f : CrlFile N R) : Option (Dpn N R) :=
  match f.exts with
  | none => some (.full [.directory f.issuer])
  | some x => if hasDpn x then certDpn x 0 else some (.full [.directory f.issuer])

/-- The arguments of `prepare_crl_update_retrieval`. -/
structure RetArgs (N R : Type) where
  cert : Option (RevExts N R) := none
  name : Option String := none
  url : Option String := none
  file : Option (CrlFile N R) := none
  index : Nat := 0
  bad : Bool := false
  exclude : Bool := false

/-- `general_msg_utils.py` 647-653: the name from the certificate. -/
def retCert (a : RetArgs N R) : Option (Dpn N R) :=
  match a.cert with
  | none => none
  | some x => certDpn x a.index

/-- `general_msg_utils.py` 655-658: the name of the CRL comes instead. -/
def retFile (a : RetArgs N R) : Option (Dpn N R) :=
  match a.url, a.name, a.file with
  | none, none, some f => fileDpn f
  | _, _, _ => retCert a

/-- `general_msg_utils.py` 645-662: the source. -/
def retSource (a : RetArgs N R) : Except PyErr (Dpn N R) :=
  match retFile a with
  | some d => .ok d
  | none => genNameDpn a.url a.name

/-- `general_msg_utils.py` 549-570 and 667-670: the time, if there is one. -/
def retTime (now : Int) (a : RetArgs N R) : Option Int :=
  if (a.bad = true ∨ a.file.isSome = true) ∧ a.exclude = false then
    some ((match a.file with
      | none => now
      | some f => f.thisUpdate) + (if a.bad then 86400 else 0))
  else none

/-- The source as the CA reads it (`Verif.Ra.General`): a relative name is one RDN. -/
def Dpn.source : Dpn N R → CrlSource N (List R)
  | .full l => .fullName l
  | .rel r => .relative r

/-- `general_msg_utils.py` 597-674, `prepare_crl_update_retrieval`: the one entry of the list. -/
def crlRetrieval (now : Int) (a : RetArgs N R) : Except PyErr (CrlStatus N (List R)) :=
  match retSource a with
  | .error e => .error e
  | .ok d => .ok ⟨d.source, retTime now a⟩

/-! ## Issuer and serial number -/

/-- A serial number: a number or a text. -/
inductive SerArg where
  | num (i : Int)
  | text (s : String)

/-- What is read and called: issuer and serial number of a certificate, `prepare_name`, `int` of a text, and
`modify_common_name_cert`. -/
structure IsEnv (C N : Type) where
  issuer : C → N
  serial : C → Int
  prep : String → Except PyErr N
  int : String → Option Int
  modified : C → Except PyErr String

/-- The number. -/
def serNum {C : Type} (env : IsEnv C N) : SerArg → Except PyErr Int
  | .num i => .ok i
  | .text s =>
    match env.int s with
    | none => .error .valueError
    | some i => .ok i

/-- The options of `prepare_issuer_and_serial_number`. -/
structure IsArgs (C : Type) where
  cert : Option C := none
  modSerial : Bool := false
  modIssuer : Bool := false
  issuer : Option String := none
  serial : Option SerArg := none

/-- `certbuildutils.py` 2900-2910: the issuer. -/
def isIssuer {C : Type} (env : IsEnv C N) (a : IsArgs C) : Except PyErr N :=
  match a.issuer.filter (fun s => !decide (s = "")) with
  | some s => env.prep s
  | none =>
    match a.cert with
    | none => .error .typeError
    | some c =>
      if a.modIssuer then
        match env.modified c with
        | .error e => .error e
        | .ok s => env.prep s
      else .ok (env.issuer c)

/-- `certbuildutils.py` 2912-2913: the serial number before it is changed. -/
def isSerial {C : Type} (env : IsEnv C N) (a : IsArgs C) : Except PyErr Int :=
  match a.serial with
  | some s => serNum env s
  | none =>
    match a.cert with
    | none => .error .typeError
    | some c => .ok (env.serial c)

/-- `certbuildutils.py` 2860-2918, `prepare_issuer_and_serial_number`. -/
def issuerSerial {C : Type} (env : IsEnv C N) (a : IsArgs C) : Except PyErr (N × Int) :=
  if a.cert.isNone = true ∧ (a.issuer.isNone = true ∨ a.serial.isNone = true) then .error .valueError
  else
    match isIssuer env a with
    | .error e => .error e
    | .ok n =>
      match isSerial env a with
      | .error e => .error e
      | .ok k => .ok (n, if a.modSerial then k + 1 else k)

end Verif.Ra.CrlDp
