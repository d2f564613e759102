import Verif.Ra.Utf8Pairs

/-!
# The controls of a certificate request (resources/ca_ra_utils.py, resources/cmputils.py)

The decoders of the controls, the reading of the public key in the template and the generation of a key from a seed are
parameters. The value of a control is its DER encoding, as it is after a message has been sent. The data about the
registration of the handler is state: it is changed also if the request is refused afterwards.
-/

namespace Verif.Ra

open Verif.CA (PyErr)

/-- `id_regCtrl_regToken` (RFC 4211). -/
def ctrlRegToken : List Nat := [1, 3, 6, 1, 5, 5, 7, 5, 1, 1]

/-- `id_regCtrl_authenticator` (RFC 4211). -/
def ctrlAuthenticator : List Nat := [1, 3, 6, 1, 5, 5, 7, 5, 1, 2]

/-- `id_regCtrl_pkiPublicationInfo` (RFC 4211). -/
def ctrlPublication : List Nat := [1, 3, 6, 1, 5, 5, 7, 5, 1, 3]

/-- `id_regCtrl_pkiArchiveOptions` (RFC 4211). -/
def ctrlArchive : List Nat := [1, 3, 6, 1, 5, 5, 7, 5, 1, 4]

/-- `PKIArchiveOptions`. -/
inductive ArchOpt (E : Type) where
  | encryptedPrivKey (e : E)
  | keyGenParameters (seed : List UInt8)
  | archiveRemGenPrivKey (b : Bool)

/-- `SinglePubInfo`: the method, and whether there is a location. -/
structure PubInfo where
  method : Int
  location : Bool
  deriving DecidableEq

/-- `PKIPublicationInfo`. -/
structure Publication where
  action : Int
  infos : Option (List PubInfo)
  deriving DecidableEq

/-- The decoders, with the rest of the bytes, and the keys. -/
structure CtrlEnv (K S E : Type) where
  /-- `RegToken` and `Authenticator`, both a `UTF8String` -/
  decText : List UInt8 → Option (String × List UInt8)
  decArchive : List UInt8 → Option (ArchOpt E × List UInt8)
  decPublication : List UInt8 → Option (Publication × List UInt8)
  /-- `keyutils.generate_key` with the name and the curve of the public key -/
  genKey : K → List UInt8 → Except PyErr S
  pub : S → K

variable {K S E : Type}

/-- What `validate_archive_options` returns. -/
inductive Archived (S E : Type) where
  | none
  | encrypted (e : E)
  | key (s : S)

/-- `_validate_key_gen_params` resources/cmputils.py 924-956; the template is absent, or its key is read. -/
def keyGenParams [DecidableEq K] (env : CtrlEnv K S E) (tmpl : Option (Except PyErr K)) (seed : List UInt8) :
    Except PyErr S :=
  match tmpl with
  | none => .error .valueError
  | some (.error e) => .error e
  | some (.ok k) =>
    match env.genKey k seed with
    | .error .valueError => .error .badAsn1Data
    | .error e => .error e
    | .ok s => if env.pub s ≠ k then .error .badCertTemplate else .ok s

/-- `validate_archive_options` resources/cmputils.py 959-1018. -/
def archiveOptions [DecidableEq K] (env : CtrlEnv K S E) (tmpl : Option (Except PyErr K)) (ctrls : List Attr)
    (must : Bool) : Except PyErr (Archived S E) :=
  match firstOf ctrlArchive ctrls with
  | none => if must then .error .valueError else .ok .none
  | some der =>
    match env.decArchive der with
    | none => .error .pyasn1Error
    | some (o, rest) =>
      if rest ≠ [] then .error .badAsn1Data
      else
        match o with
        | .encryptedPrivKey e => .ok (.encrypted e)
        | .keyGenParameters seed =>
          match keyGenParams env tmpl seed with
          | .error e => .error e
          | .ok s => .ok (.key s)
        | .archiveRemGenPrivKey _ => .ok .none

/-- The loop over `pubInfos`: `validate_pki_publication_information` resources/cmputils.py 1367-1375. -/
def pubInfosOk : List PubInfo → Except PyErr Unit
  | [] => .ok ()
  | i :: is =>
    if i.method ∉ [0, 1, 2, 3] then .error .badDataFormat
    else if i.method = 0 then .error .badDataFormat
    else if ¬ i.location then .error .badDataFormat
    else pubInfosOk is

/-- `validate_pki_publication_information` resources/cmputils.py 1311-1379; an absent list has no entries. -/
def publicationInfo (env : CtrlEnv K S E) (ctrls : List Attr) (must : Bool) : Except PyErr Unit :=
  match firstOf ctrlPublication ctrls with
  | none => if must then .error .valueError else .ok ()
  | some der =>
    match env.decPublication der with
    | none => .error .pyasn1Error
    | some (p, rest) =>
      if rest ≠ [] then .error .badAsn1Data
      else if p.action ∉ [0, 1] then .error .badDataFormat
      else if p.action = 0 ∧ p.infos.isSome then .error .badDataFormat
      else pubInfosOk (p.infos.getD [])

/-- `validate_reg_token_control` resources/cmputils.py 1059-1113 for the type of `regToken`, and
`validate_authenticator_control` resources/cmputils.py 1150-1204 for that of the authenticator. -/
def textControl (env : CtrlEnv K S E) (oid : List Nat) (ctrls : List Attr) (must : Bool) (expected : Option String) :
    Except PyErr (Option String) :=
  match firstOf oid ctrls with
  | none => if must then .error .valueError else .ok none
  | some der =>
    match checkUnique [] ctrls with
    | .error e => .error e
    | .ok _ =>
      match env.decText der with
      | none => .error .badAsn1Data
      | some (s, rest) =>
        if rest ≠ [] then .error .badAsn1Data
        else
          match expected with
          | none => .ok (some s)
          | some x => if s ≠ x then .error .badRequest else .ok (some s)

/-- `ExtraIssuingData` (resources/data_objects.py 39-51). -/
structure Issuing where
  regToken : Option String := none
  found : Bool := false
  authenticator : Option String := none
  deriving DecidableEq

/-- The flags of `validate_cert_request_controls`. -/
structure CtrlFlags where
  archive : Bool := false
  publication : Bool := false
  token : Bool := false
  authenticator : Bool := false

/-- The token: `validate_cert_request_controls` resources/ca_ra_utils.py 1365-1385, with the data of the handler. -/
def tokenStep (env : CtrlEnv K S E) (f : CtrlFlags) (st : Issuing) (ctrls : List Attr) : Issuing × Except PyErr Unit :=
  match st.regToken with
  | none => (st, .ok ())
  | some t =>
    match textControl env ctrlRegToken ctrls f.token (some t) with
    | .error e => (st, .error e)
    | .ok none => (st, .ok ())
    | .ok (some _) => if st.found then (st, .error .badRequest) else ({ st with found := true }, .ok ())

/-- The authenticator, after the token: `validate_cert_request_controls` resources/ca_ra_utils.py 1387-1395. -/
def authStep (env : CtrlEnv K S E) (f : CtrlFlags) (ctrls : List Attr) :
    Issuing × Except PyErr Unit → Issuing × Except PyErr Unit
  | (st, .error e) => (st, .error e)
  | (st, .ok _) =>
    match textControl env ctrlAuthenticator ctrls f.authenticator st.authenticator with
    | .error e => (st, .error e)
    | .ok _ => (st, .ok ())

/-- `validate_cert_request_controls` resources/ca_ra_utils.py 1331-1395, as it is called for a certificate request at
2403-2406, without `request`. The controls may be absent. -/
def requestControls [DecidableEq K] (env : CtrlEnv K S E) (f : CtrlFlags) (tmpl : Except PyErr K) (st : Issuing)
    (ctrls : Option (List Attr)) : Issuing × Except PyErr Unit :=
  match ctrls with
  | none => (st, .ok ())
  | some cs =>
    match archiveOptions env (some tmpl) cs f.archive with
    | .error e => (st, .error e)
    | .ok _ =>
      match publicationInfo env cs f.publication with
      | .error e => (st, .error e)
      | .ok _ => authStep env f cs (tokenStep env f st cs)

/-- The requests which a handler gets one after another, each with the key of its template and its controls; the
results. -/
def runControls [DecidableEq K] (env : CtrlEnv K S E) (f : CtrlFlags) :
    Issuing → List (Except PyErr K × Option (List Attr)) → List (Except PyErr Unit)
  | _, [] => []
  | st, (k, cs) :: rs =>
    (requestControls env f k st cs).2 :: runControls env f (requestControls env f k st cs).1 rs

/-- `prepare_single_publication_info` resources/cmputils.py 1207-1243. -/
def singlePubInfo (method : String) (location : Option String) : Except PyErr PubInfo :=
  match [("dontCare", (0 : Int)), ("x500", 1), ("web", 2), ("ldap", 3), ("badMethod", 4)].lookup method with
  | none => .error .valueError
  | some m => .ok ⟨m, location.isSome⟩

/-- `prepare_pki_publication_information_control` resources/cmputils.py 1250-1307, without given entries. -/
def publicationControl (action : String) (method : Option String) (location : Option String) :
    Except PyErr Publication :=
  match [("dontPublish", (0 : Int)), ("pleasePublish", 1), ("badAction", 2)].lookup action with
  | none => .error .valueError
  | some a =>
    match method with
    | none => .ok ⟨a, none⟩
    | some _ =>
      match singlePubInfo "x500" location with
      | .error e => .error e
      | .ok i => .ok ⟨a, some [i]⟩

end Verif.Ra
