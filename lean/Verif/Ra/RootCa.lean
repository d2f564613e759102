import Verif.Check.Chain

/-!
# The hash of a root certificate, updates of a root key and validity periods

`prepare_oob_cert_hash`, `validate_oob_cert_hash`, `prepare_new_ca_certificate`, `prepare_old_with_new_cert`,
`prepare_new_root_ca_certificate` (resources/ca_ra_utils.py), `validate_get_root_ca_cert_update`,
`process_root_ca_update`, `validate_root_ca_key_update_value_structure` (resources/general_msg_utils.py),
`default_validity` and `prepare_validity` (resources/certbuildutils.py).

Hashes, encodings, signatures, the random serial number and pkilint are parameters.
-/

namespace Verif.Ra

open Verif.CA hiding Bytes Msg
open Verif.Check

/-! ## The hash of a root certificate -/

/-- `OOBCertHash`: the object identifier of the hash, `certId` and `hashVal`. -/
structure OobHash (N : Type) where
  alg : List Nat
  issuer : N
  serial : Int
  val : List UInt8
  deriving DecidableEq

/-- An alternative name extension: whether it is critical, and the value. -/
abbrev AltName := Bool × List UInt8

/-- What the functions use. `hashOid`: `sha_alg_name_to_oid`; `hashName`: `get_hash_from_oid`. -/
structure OobEnv (C N K : Type) where
  ch : ChainEnv C N K
  serial : C → Int
  encCert : C → List UInt8
  encHash : OobHash N → List UInt8
  hash : String → List UInt8 → Except PyErr (List UInt8)
  hashOid : String → Except PyErr (List Nat)
  hashName : List Nat → Option String
  nullDn : N → Bool
  san : C → Option AltName
  ian : C → Option AltName
  lint : C → Except PyErr Unit

variable {C N K : Type}

/-- `ca_ra_utils.py` 310-340, `prepare_oob_cert_hash`. -/
def prepareOob (env : OobEnv C N K) (h : String) (c : C) : Except PyErr (OobHash N) :=
  match env.hash h (env.encCert c) with
  | .error e => .error e
  | .ok v =>
    match env.hashOid h with
    | .error e => .error e
    | .ok o => .ok ⟨o, env.ch.issuer c, env.serial c, v⟩

/-- `ca_ra_utils.py` 393-410: a certificate with an empty subject has equal alternative names. -/
def altNames (env : OobEnv C N K) (c : C) : Except PyErr Unit :=
  if env.nullDn (env.ch.subject c) = false then .ok ()
  else match env.ian c, env.san c with
    | none, _ => .error .valueError
    | some _, none => .error .valueError
    | some i, some s =>
      if s.1 ≠ i.1 then .error .valueError else if s.2 ≠ i.2 then .error .valueError else .ok ()

/-- `ca_ra_utils.py` 377-415: the certificate and the identifier. -/
def oobCert [DecidableEq N] (env : OobEnv C N K) (c : C) (o : OobHash N) : Except PyErr Unit :=
  if env.ch.issuer c ≠ o.issuer then .error .valueError
  else if env.serial c ≠ o.serial then .error .valueError
  else match isCertSigner env.ch c c with
    | .error e => .error e
    | .ok false => .error .valueError
    | .ok true =>
      match altNames env c with
      | .error e => .error e
      | .ok () => env.lint c

/-- `ca_ra_utils.py` 347-415, `validate_oob_cert_hash`: the encoding of the structure itself is hashed. -/
def validateOob [DecidableEq N] (env : OobEnv C N K) (c : C) (o : OobHash N) : Except PyErr Unit :=
  match env.hashName o.alg with
  | none => .error .badAlg
  | some n =>
    match env.hash n (env.encHash o) with
    | .error e => .error e
    | .ok v => if v ≠ o.val then .error .valueError else oobCert env c o

/-! ## Updates of a root key -/

/-- `TBSCertificate`, with the extensions as a list; `K` are public keys, `V` validity periods, `X` extensions. -/
structure Tbs (N K V A X : Type) where
  issuer : N
  subject : N
  serial : Int
  validity : V
  key : K
  exts : List X
  alg : A

/-- A certificate. -/
structure RCert (N K V A X : Type) where
  tbs : Tbs N K V A X
  alg : A
  sig : List UInt8

/-- What the functions use; `S` are private keys. `validity` is the default one; `ski` and `aki` are the extensions with
the identifiers of the subject's key and the issuer's key. `verify` is the verification of the signature of a
certificate, as in `check_is_cert_signer`. -/
structure RootEnv (N K V A X S : Type) where
  pub : S → K
  sigAlg : S → Except PyErr A
  sign : S → A → Tbs N K V A X → Except PyErr (List UInt8)
  verify : K → RCert N K V A X → Except PyErr Bool
  validity : V
  ski : K → X
  aki : K → X
  lint : RCert N K V A X → Except PyErr Unit

variable {V A X S : Type}

/-- `certbuildutils.py` 945-1008, `sign_cert`, without `bad_sig`. -/
def signTbs (env : RootEnv N K V A X S) (t : Tbs N K V A X) (s : S) : Except PyErr (RCert N K V A X) :=
  match env.sigAlg s with
  | .error e => .error e
  | .ok a =>
    match env.sign s a { t with alg := a } with
    | .error e => .error e
    | .ok v => .ok ⟨{ t with alg := a }, a, v⟩

/-- `ca_ra_utils.py` 4050-4122, `prepare_new_ca_certificate`; with `prepare_extensions` (`certbuildutils.py` 791-877): only
the two key identifiers. -/
def newCaCert (env : RootEnv N K V A X S) (old : RCert N K V A X) (s : S) (serial : Int) :
    Except PyErr (RCert N K V A X) :=
  signTbs env { old.tbs with
    validity := env.validity, serial := serial, exts := [env.ski (env.pub s), env.aki (env.pub s)], key := env.pub s } s

/-- `ca_ra_utils.py` 4125-4164, `prepare_old_with_new_cert`. -/
def crossCert (env : RootEnv N K V A X S) (old new : RCert N K V A X) (s : S) : Except PyErr (RCert N K V A X) :=
  signTbs env { old.tbs with issuer := new.tbs.subject } s

/-- `RootCaKeyUpdateValue`. -/
structure RootUpdate (N K V A X : Type) where
  newWithNew : Option (RCert N K V A X)
  newWithOld : Option (RCert N K V A X)
  oldWithNew : Option (RCert N K V A X)

/-- `ca_ra_utils.py` 4167-4298, `prepare_new_root_ca_certificate` and `prepare_root_ca_key_update`, without a given
certificate; `both` is `include_old_with_new`. -/
def prepUpdate (env : RootEnv N K V A X S) (old : RCert N K V A X) (oldKey newKey : S) (serial : Int) (both : Bool) :
    Except PyErr (RootUpdate N K V A X) :=
  match newCaCert env old newKey serial with
  | .error e => .error e
  | .ok new =>
    match crossCert env new old oldKey with
    | .error e => .error e
    | .ok nwo =>
      if both then
        match crossCert env old new newKey with
        | .error e => .error e
        | .ok own => .ok ⟨some new, some nwo, some own⟩
      else .ok ⟨some new, some nwo, none⟩

/-- `certutils.py` 359-399, `check_is_cert_signer`; the errors of the verification are in `verify`. -/
def rootSigner [DecidableEq N] (env : RootEnv N K V A X S) (c poss : RCert N K V A X) : Except PyErr Bool :=
  if c.tbs.issuer ≠ poss.tbs.subject then .ok false else env.verify poss.tbs.key c

/-- A certificate must be signed by another. -/
def mustSign [DecidableEq N] (env : RootEnv N K V A X S) (c poss : RCert N K V A X) : Except PyErr Unit :=
  match rootSigner env c poss with
  | .error e => .error e
  | .ok b => if b then .ok () else .error .valueError

/-- `general_msg_utils.py` 289-296: the old key with a certificate under the new. -/
def checkOldWithNew [DecidableEq N] [DecidableEq K] (env : RootEnv N K V A X S) (old nwn : RCert N K V A X)
    (own : Option (RCert N K V A X)) : Except PyErr Unit :=
  match own with
  | none => .ok ()
  | some c =>
    match mustSign env c nwn with
    | .error e => .error e
    | .ok () => if old.tbs.key ≠ c.tbs.key then .error .valueError else .ok ()

/-- `general_msg_utils.py` 269-298, `validate_root_ca_key_update_value_structure`. -/
def validateUpdate [DecidableEq N] [DecidableEq K] (env : RootEnv N K V A X S) (old nwn nwo : RCert N K V A X)
    (own : Option (RCert N K V A X)) : Except PyErr Unit :=
  match mustSign env nwn nwn with
  | .error e => .error e
  | .ok () =>
    match mustSign env nwo old with
    | .error e => .error e
    | .ok () =>
      match checkOldWithNew env old nwn own with
      | .error e => .error e
      | .ok () => env.lint nwn

/-- `general_msg_utils.py` 236-264, `process_root_ca_update`. -/
def processUpdate [DecidableEq N] [DecidableEq K] (env : RootEnv N K V A X S) (old : Option (RCert N K V A X))
    (x : RootUpdate N K V A X) : Except PyErr Unit :=
  match x.newWithOld, x.newWithNew with
  | none, _ => .error .valueError
  | some _, none => .error .valueError
  | some nwo, some nwn =>
    match old with
    | none => .ok ()
    | some o => validateUpdate env o nwn nwo x.oldWithNew

/-- `general_msg_utils.py` 222-232: the end of `validate_get_root_ca_cert_update`, for the value found in the message
(`none` if it has none) and its decoding with what is left over. -/
def getUpdate [DecidableEq N] [DecidableEq K] (env : RootEnv N K V A X S) (old : Option (RCert N K V A X))
    (value : Option (Except PyErr (RootUpdate N K V A X × List UInt8))) : Except PyErr Unit :=
  match value with
  | none => .ok ()
  | some (.error e) => .error e
  | some (.ok (x, rest)) => if rest ≠ [] then .error .valueError else processUpdate env old x

/-! ## Validity periods -/

/-- A point in time: the year and the rest, within the year. -/
structure Time where
  year : Nat
  rest : Nat
  deriving DecidableEq

/-- `<` of `datetime`. -/
def Time.before (a b : Time) : Bool := decide (a.year < b.year ∨ a.year = b.year ∧ a.rest < b.rest)

/-- `rfc5280.Time`. -/
inductive AsnTime where
  | utc (yy rest : Nat)
  | gen (year rest : Nat)
  deriving DecidableEq

/-- `asDateTime` of pyasn1: `strptime` with `%y`, whose centuries change at 69 (POSIX). -/
def AsnTime.read : AsnTime → Time
  | .utc yy r => ⟨if yy < 69 then 2000 + yy else 1900 + yy, r⟩
  | .gen y r => ⟨y, r⟩

/-- `fromDateTime` of `useful.UTCTime`: `strftime` with `%y`. `certbuildutils.py` 66-115, `prepare_validity`, calls it for
both times, since its callers leave `before_use_utc` and `after_use_utc` true. -/
def toUtc (t : Time) : AsnTime := .utc (t.year % 100) t.rest

/-- The clock and the addition of days to a time. -/
structure Clock where
  now : Time
  addDays : Time → Int → Time

/-- `certbuildutils.py` 1644-1652: `notBefore` of the template. -/
def startTime (k : Clock) (max : Option Int) (t : AsnTime) : Except PyErr Time :=
  match max with
  | none => .ok t.read
  | some d => if t.read.before (k.addDays k.now (-d)) then .error .badCertTemplate else .ok t.read

/-- `certbuildutils.py` 1638-1652: the start. -/
def firstTime (k : Clock) (max : Option Int) (t : Option AsnTime) : Except PyErr Time :=
  match t with
  | none => .ok k.now
  | some t => startTime k max t

/-- `certbuildutils.py` 1625-1664, `default_validity`; the optional validity has two optional times. -/
def defaultValidity (k : Clock) (days : Int) (max : Option Int) (v : Option (Option AsnTime × Option AsnTime)) :
    Except PyErr (AsnTime × AsnTime) :=
  match v with
  | none => .ok (toUtc (k.addDays k.now (-1)), toUtc (k.addDays (k.addDays k.now (-1)) days))
  | some (nb, na) =>
    match firstTime k max nb with
    | .error e => .error e
    | .ok s =>
      match na with
      | some t => .ok (toUtc s, toUtc t.read)
      | none => .ok (toUtc s, toUtc (k.addDays s days))

end Verif.Ra
