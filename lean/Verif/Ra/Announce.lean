import Verif.Ra.RootCa

/-!
# Announcements

`_prepare_cert_id`, `build_cmp_cann_announcement`, `build_cmp_rann_announcement`, `build_crlann_cmp_message`,
`build_cmp_ckuann_message` (resources/announcement.py) and the `AnnouncementHandler` (mock_ca/announcement_handler.py).

Not modelled: the fields of the header besides the version, the sender and the recipient; `bad_sig`; the files of CRLs.
-/

namespace Verif.Ra.Announce

open Verif.CA (PyErr)

/-! ## Messages -/

/-- The fields of the header that the functions set; `G` are names (texts or `GeneralName`). -/
structure Header (G : Type) where
  pvno : Int
  sender : G
  recipient : G
  deriving DecidableEq

/-- The given fields of the header. -/
structure Given (G : Type) where
  pvno : Option Int := none
  sender : Option G := none
  recipient : Option G := none

/-- `cmputils.py` 176-190, `prepare_pki_message`: the version is 2, and the names are those of the tests if not given; `name` makes
a name of a text. -/
def Given.header {G : Type} (name : String → G) (g : Given G) : Header G :=
  ⟨g.pvno.getD 2, g.sender.getD (name "tests@example.com"), g.recipient.getD (name "testr@example.com")⟩

/-! ## Revocation announcements -/

variable {C G D T X : Type}

/-- What the functions use: `issuer` and `subject` as `GeneralName`; `time` is `prepare_generalized_time` of a given date, `now` the
present time; `int` is `int` of a text. -/
structure Env (C G D T : Type) where
  name : String → G
  issuer : C → G
  subject : C → G
  serial : C → Int
  time : D → Except PyErr T
  now : T
  int : String → Option Int

/-- `announcement.py` 20-53, `_prepare_cert_id`. The first check (34-35) is implied by the second unless the identifier is given. -/
def certId (env : Env C G D T) (cert : Option C) (id : Option (G × Int)) (issuer : Option G) (serial : Option Int) :
    Except PyErr (G × Int) :=
  match id with
  | some x => .ok x
  | none =>
    match cert with
    | none =>
      match issuer, serial with
      | some i, some s => .ok (i, s)
      | _, _ => .error .valueError
    | some c => .ok (issuer.getD (env.issuer c), serial.getD (env.serial c))

/-- The names of `PKIStatus`. -/
def statusNames : List (String × Int) :=
  [("accepted", 0), ("grantedWithMods", 1), ("rejection", 2), ("waiting", 3), ("revocationWarning", 4),
   ("revocationNotification", 5), ("keyUpdateWarning", 6)]

/-- `rfc9480.PKIStatus(status)`: pyasn1 tries `int` first and then the names. -/
def status (env : Env C G D T) (s : String) : Except PyErr Int :=
  match env.int s with
  | some n => .ok n
  | none =>
    match statusNames.find? (fun x => x.1 = s) with
    | some x => .ok x.2
    | none => .error .pyasn1Error

/-- `RevAnnContent`. -/
structure RevAnn (G T X : Type) where
  status : Int
  certId : G × Int
  willBeRevokedAt : T
  badSinceDate : T
  crlDetails : Option X
  deriving DecidableEq

/-- `prepareutils.py` 178-187, `prepare_generalized_time`. -/
def timeOf (env : Env C G D T) (d : Option D) : Except PyErr T :=
  match d with
  | none => .ok env.now
  | some d => env.time d

/-- The arguments of `build_cmp_rann_announcement`. -/
structure RannArgs (C G D X : Type) where
  cert : Option C := none
  status : String := "accepted"
  revokedAt : Option D := none
  badSince : Option D := none
  certId : Option (G × Int) := none
  issuer : Option G := none
  serial : Option Int := none
  details : Option X := none

/-- `announcement.py` 93-153, `build_cmp_rann_announcement`. -/
def rann (env : Env C G D T) (a : RannArgs C G D X) (g : Given G) : Except PyErr (Header G × RevAnn G T X) :=
  match certId env a.cert a.certId a.issuer a.serial with
  | .error e => .error e
  | .ok id =>
    match status env a.status with
    | .error e => .error e
    | .ok s =>
      match timeOf env a.revokedAt with
      | .error e => .error e
      | .ok r =>
        match timeOf env a.badSince with
        | .error e => .error e
        | .ok b => .ok (g.header env.name, ⟨s, id, r, b, a.details⟩)

/-- `announcement_handler.py` 73-85, `build_rann_announcement`: the CRL goes to the arguments for the header, which ignore it. -/
def handlerRann {L : Type} (env : Env C G D T) (_crl : L) : Except PyErr (Header G × RevAnn G T X) :=
  rann env {} { sender := some (env.name "CN=Mock CA") }

/-! ## Certificate and CRL announcements -/

/-- `announcement.py` 57-89, `build_cmp_cann_announcement`. -/
def cann (env : Env C G D T) (c : C) (g : Given G) : Header G × C := (g.header env.name, c)

/-- `announcement_handler.py` 57-71, `build_cert_request_announcement`. -/
def handlerCann (env : Env C G D T) (c : C) : Header G × C :=
  cann env c { sender := some (env.name "CN=Mock CA"), recipient := some (env.issuer c) }

/-- `announcement.py` 157-187, `build_crlann_cmp_message`, for one CRL (`.inl`) or a list. -/
def crlann {L : Type} (env : Env C G D T) (crls : L ⊕ List L) (g : Given G) : Header G × List L :=
  (g.header env.name, match crls with | .inl c => [c] | .inr l => l)

/-! ## Key update announcements -/

variable {N K V A Y S : Type}

/-- `ca_ra_utils.py` 4167-4240, `prepare_new_root_ca_certificate`, with a new certificate that may be given. -/
def update (env : RootEnv N K V A Y S) (new : Option (RCert N K V A Y)) (old : RCert N K V A Y) (oldKey newKey : S) (serial : Int) :
    Except PyErr (RootUpdate N K V A Y) :=
  match new with
  | none => prepUpdate env old oldKey newKey serial true
  | some n =>
    match crossCert env n old oldKey with
    | .error e => .error e
    | .ok nwo =>
      match crossCert env old n newKey with
      | .error e => .error e
      | .ok own => .ok ⟨some n, some nwo, some own⟩

/-- The body: `cAKeyUpdAnnV2` or `cAKeyUpdAnnV3`. -/
inductive KeyAnn (R : Type) where
  | v2 (newWithNew : Option R) (oldWithNew newWithOld : R)
  | v3 (newWithNew oldWithNew newWithOld : Option R)

/-- `announcement.py` 255-262. `copy_asn1_certificate` of an absent certificate fails in the encoder of pyasn1; the assignment of an
absent one leaves the field absent. -/
def keyAnn (useNew : Bool) (u : RootUpdate N K V A Y) : Except PyErr (KeyAnn (RCert N K V A Y)) :=
  if useNew then .ok (.v3 u.newWithNew u.oldWithNew u.newWithOld)
  else
    match u.oldWithNew, u.newWithOld with
    | some o, some n => .ok (.v2 u.newWithNew o n)
    | _, _ => .error .pyasn1Error

/-- `announcement.py` 233-253: the update given or made. Lines 237-244 are not reached otherwise than with all three given. -/
def ckuUpdate (env : RootEnv N K V A Y S) (given : Option (RootUpdate N K V A Y)) (new old : Option (RCert N K V A Y))
    (newKey oldKey : Option S) (serial : Int) : Except PyErr (RootUpdate N K V A Y) :=
  match given with
  | some u => .ok u
  | none =>
    match old, newKey, oldKey with
    | some o, some nk, some ok => update env new o ok nk serial
    | _, _, _ => .error .valueError

/-- `announcement.py` 191-266, `build_cmp_ckuann_message`; `serial` is the random serial number. -/
def ckuann (env : RootEnv N K V A Y S) (name : String → G) (given : Option (RootUpdate N K V A Y))
    (new old : Option (RCert N K V A Y)) (newKey oldKey : Option S) (serial : Int) (useNew : Bool) (g : Given G) :
    Except PyErr (Header G × KeyAnn (RCert N K V A Y)) :=
  match ckuUpdate env given new old newKey oldKey serial with
  | .error e => .error e
  | .ok u =>
    match keyAnn useNew u with
    | .error e => .error e
    | .ok b => .ok (({ g with pvno := some (g.pvno.getD 3) } : Given G).header name, b)

/-- `announcement_handler.py` 48-55, `build_ckuann`. -/
def handlerCkuann (env : RootEnv N K V A Y S) (name : String → G) (ca : RCert N K V A Y) (caKey newKey : S)
    (new : Option (RCert N K V A Y)) (serial : Int) : Except PyErr (Header G × KeyAnn (RCert N K V A Y)) :=
  ckuann env name none new (some ca) (some newKey) (some caKey) serial false {}

end Verif.Ra.Announce
