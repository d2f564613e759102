import Verif.Check.Chain
import Verif.Ra.Update
import Verif.CA.Errors

/-!
# The verification of the protection by the Mock CA (mock_ca/prot_handler.py 193-209, 496-570, 631-756 and 758-805;
resources/utils.py 1094-1149; resources/convertutils.py 236-252; resources/checkutils.py 2510-2540;
resources/certbuildutils.py 3438-3518)

Parameters: the verification of the MAC or signature itself (`resources/protectionutils.py`, modelled in `Verif/Prot`), the
shared secret of a certificate, the bookkeeping of stateful signatures (modelled in `Verif/CA/Stfl.lean`), the certificates
of the chain and the trust stores (`Verif/Check/Chain.lean`), the decoding of an extension and of a time.

Simplified: logging and the texts and details of exceptions are left out; the names of the algorithms are given (`name` is
`may_return_oid_to_name` of the OID).
-/

namespace Verif.Ra

open Verif.CA hiding Bytes Msg ProtType
open Verif.Check

/-! ## The key of a MAC -/

/-- The pre-shared secret of the configuration (`db_config_vars.py` 108): bytes or a text. -/
inductive Secret where
  | bytes (b : Bytes)
  | text (s : List Char)
deriving DecidableEq

/-- The value of a hexadecimal digit. -/
def hexNib (c : Char) : Option Nat :=
  if '0' ≤ c ∧ c ≤ '9' then some (c.toNat - 48)
  else if 'a' ≤ c ∧ c ≤ 'f' then some (c.toNat - 87)
  else if 'A' ≤ c ∧ c ≤ 'F' then some (c.toNat - 55)
  else none

/-- `bytes.fromhex` (without white space). -/
def fromHex : List Char → Option Bytes
  | [] => some []
  | [_] => none
  | a :: b :: r =>
    match hexNib a, hexNib b, fromHex r with
    | some x, some y, some l => some (UInt8.ofNat (16 * x + y) :: l)
    | _, _, _ => none

/-- `convertutils.py` 236-252, `str_to_bytes`. -/
def strToBytes : Secret → Except PyErr Bytes
  | .bytes b => .ok b
  | .text ('0' :: 'x' :: r) => match fromHex r with | some b => .ok b | none => .error .valueError
  | .text s => .ok (s.flatMap String.utf8EncodeChar)

/-- `utils.py` 1094-1107, `expand_string_to_length`. -/
def expandTo {α : Type} (s : List α) (n : Nat) : Except PyErr (List α) :=
  if s = [] then .error .valueError
  else .ok (((List.replicate (n / s.length + 1) s).flatten).take n)

/-- `expand_string_to_length` of a secret. -/
def expandSecret (n : Nat) : Secret → Except PyErr Secret
  | .bytes b => match expandTo b n with | .error e => .error e | .ok r => .ok (.bytes r)
  | .text s => match expandTo s n with | .error e => .error e | .ok r => .ok (.text r)

/-- `x in s`. -/
def subText (x s : String) : Bool := isInfix x.toList s.toList
where
  /-- Does the text begin with the pattern at some place? -/
  isInfix (p : List Char) : List Char → Bool
    | [] => p.isEmpty
    | c :: r => p.isPrefixOf (c :: r) || isInfix p r

/-- `utils.py` 1132-1147: the size of the key, `none` if the password is used as it is. -/
def keySize (protection : String) (hash : Option String) : Except PyErr (Option Nat) :=
  if protection = "kmac" then .ok (some (if hash = some "shake128" then 16 else 32))
  else if subText "gmac" protection then
    if subText "128" protection then .ok (some 16)
    else if subText "192" protection then .ok (some 24)
    else if subText "256" protection then .ok (some 32)
    else .error .valueError
  else .ok none

/-- `utils.py` 1149: the expanded password. -/
def sizedKey (n : Nat) (pwd : Secret) : Except PyErr Bytes :=
  match expandSecret n pwd with
  | .error e => .error e
  | .ok s => strToBytes s

/-- `utils.py` 1110-1149, `get_password_in_size`. -/
def passwordInSize (protection : String) (pwd : Secret) (hash : Option String) : Except PyErr Bytes :=
  match keySize protection hash with
  | .error e => .error e
  | .ok none => strToBytes pwd
  | .ok (some n) => sizedKey n pwd

/-- `prot_handler.py` 496-510, `_may_expand_password`; `name.replace("kmac-", "")` for the names of KMAC. -/
def macKey (name : String) (pwd : Secret) : Except PyErr Bytes :=
  if subText "kmac" name then passwordInSize "kmac" pwd (some (if name = "kmac-shake128" then "shake128" else "shake256"))
  else passwordInSize name pwd none

/-! ## The protection of a request -/

/-- What is verified: the type (`ProtectedType`, `none` without a protection algorithm), the name of the algorithm, the body
and the certificates (`none`: the field is absent). -/
structure ProtMsg (C : Type) where
  body : String
  typ : Option ProtType
  name : String := ""
  sig : SigClass := .other
  stateful : Bool := false
  extra : Option (List C) := none

/-- The parameters. -/
structure ProtEnv (C N K : Type) where
  chain : ChainEnv C N K
  /-- the trust store of the CA, and the one for cross-certification -/
  anchors : Except PyErr (List C)
  caAnchors : Except PyErr (List C)
  /-- the configuration -/
  useOpenssl : Bool := true
  secret : Secret
  /-- the MAC under a password, `verify_pkimessage_protection` -/
  mac : Bytes → Except PyErr Unit
  /-- `get_dh_cert_and_ss` of the first certificate, and the MAC under a shared secret -/
  dhSecret : Option C → Except PyErr Bytes
  dhMac : Bytes → Except PyErr Unit
  /-- `KEMSharedSecretList.verify_pkimessage_protection` -/
  kem : Except PyErr Unit
  /-- the signature, and the one of post-quantum and composite algorithms -/
  trad : Except PyErr Unit
  hybrid : Except PyErr Unit
  /-- the checks of a stateful signature before and after the verification -/
  before : Except PyErr Unit := .ok ()
  after : Except PyErr Unit := .ok ()

section

variable {C N K : Type} [DecidableEq C] [DecidableEq N]

/-- `checkutils.py` 2510-2540, `validate_wrong_integrity`. -/
def wrongIntegrity (m : ProtMsg C) : Except PyErr Unit :=
  if ¬ (m.body = "ccr" ∨ m.body = "kur" ∨ m.body = "rr" ∨ m.body = "nested") then .ok ()
  else
    match m.typ with
    | none => .error .badMessageCheck
    | some t =>
      if t = .mac then .error .bodyRelevantError
      else if (t = .dh ∨ t = .kem) ∧ m.body = "ccr" then .error .bodyRelevantError
      else .ok ()

/-- The handlers of `validate_mac_protection` (533-539). -/
def macErr (e : PyErr) : PyErr := if e = .lwCmpViolation ∨ e = .valueError then .badMessageCheck else e

/-- `prot_handler.py` 512-539, `validate_mac_protection`; the key is made before the `try`. -/
def validateMac (env : ProtEnv C N K) (m : ProtMsg C) : Except PyErr Unit :=
  if m.body = "rr" then .error .wrongIntegrity
  else
    match macKey m.name env.secret with
    | .error e => .error e
    | .ok k =>
      match env.mac k with
      | .ok () => .ok ()
      | .error e => .error (macErr e)

/-- `prot_handler.py` 193-209, `verify_dh_based_mac_protection`. -/
def validateDh (env : ProtEnv C N K) (m : ProtMsg C) : Except PyErr Unit :=
  match env.dhSecret (m.extra.bind List.head?) with
  | .error e => .error e
  | .ok ss =>
    match env.dhMac ss with
    | .error e => .error (if e = .valueError then .badMessageCheck else e)
    | .ok () => checkTrusted env.chain env.anchors env.useOpenssl m.sig true m.extra

/-- `prot_handler.py` 541-570, `validate_signer_for_ccr`; `issued` are the cross-certificates of the CA. -/
def ccrSigner (env : ProtEnv C N K) (issued : List C) (m : ProtMsg C) : Except PyErr Unit :=
  match m.extra with
  | none => .error .badMessageCheck
  | some [] => .error .indexError
  | some (c :: _) =>
    if chainCertInList c issued then .ok ()
    else
      match areAnchors env.caAnchors [c] with
      | .ok () => .ok ()
      | .error e => .error (if e = .signerNotTrusted then .notAuthorized else e)

/-- The handlers of `validate_signature_protection` (696-703). -/
def sigErr (e : PyErr) : PyErr :=
  if e = .badSigAlgId then .badMessageCheck
  else if e.isInvalidSig = true ∨ e = .valueError then .badMessageCheck
  else e

/-- `prot_handler.py` 654-694, within the `try`. -/
def sigSteps (env : ProtEnv C N K) (m : ProtMsg C) : Except PyErr Unit :=
  match (if m.stateful then env.before else .ok ()) with
  | .error e => .error e
  | .ok () =>
    match (if m.sig = .other then env.trad else env.hybrid) with
    | .error e => .error e
    | .ok () => if m.stateful then env.after else .ok ()

/-- `prot_handler.py` 631-705, `validate_signature_protection`. -/
def validateSig (env : ProtEnv C N K) (issued : List C) (m : ProtMsg C) : Except PyErr Unit :=
  if m.extra.isSome = false then .error .badMessageCheck
  else
    match (if m.body = "ccr" then ccrSigner env issued m else .ok ()) with
    | .error e => .error e
    | .ok () =>
      match sigSteps env m with
      | .error e => .error (sigErr e)
      | .ok () => checkTrusted env.chain env.anchors env.useOpenssl m.sig false m.extra

/-- `prot_handler.py` 707-756, `validate_protection`. -/
def validateProtection (env : ProtEnv C N K) (issued : List C) (m : ProtMsg C) : Except PyErr Unit :=
  match m.typ with
  | none => .error .badMessageCheck
  | some t =>
    match wrongIntegrity m with
    | .error e => .error e
    | .ok () =>
      match t with
      | .dh => validateDh env m
      | .kem => env.kem
      | .mac => validateMac env m
      | .sig => validateSig env issued m

end

/-! ## The usage period of a private key -/

/-- `PrivateKeyUsagePeriod`: the texts of its times. -/
structure Period where
  notBefore : Option (List Char) := none
  notAfter : Option (List Char) := none
deriving DecidableEq

/-- `certbuildutils.py` 3481-3491: the texts are compared. -/
def periodOrder (p : Period) : Except PyErr Unit :=
  match p.notBefore, p.notAfter with
  | some b, some a => if a < b then .error .badAsn1Data else if b = a then .error .badAsn1Data else .ok ()
  | _, _ => .ok ()

/-- `certbuildutils.py` 3497-3500 and 3502-3505: one of the times against the validity. -/
def inside (time : List Char → Except PyErr Int) (t : Option (List Char)) (ok : Int → Bool) : Except PyErr Unit :=
  match t with
  | none => .ok ()
  | some s =>
    match time s with
    | .error e => .error e
    | .ok v => if ok v then .ok () else .error .badCertTemplate

/-- `certbuildutils.py` 3493-3505: the validity of the certificate. -/
def periodInside (time : List Char → Except PyErr Int) (p : Period) : Option (Int × Int) → Except PyErr Unit
  | none => .ok ()
  | some (lo, hi) =>
    match inside time p.notBefore fun v => decide (¬ v < lo) with
    | .error e => .error e
    | .ok () => inside time p.notAfter fun v => decide (¬ v > hi)

/-- `certbuildutils.py` 3439-3518, `validate_private_key_usage_period`. The extension is its criticality and the result of
decoding it (with the rest); the result is the extension and whether it was changed. -/
def usagePeriod (time : List Char → Except PyErr Int) (enc : Period → Except PyErr Unit)
    (x : Option (Bool × Except PyErr (Period × Bytes))) (must : Bool) (crit : Option Bool) (validity : Option (Int × Int)) :
    Except PyErr (Option (Bool × Period) × Bool) :=
  match x with
  | none => if must then .error .valueError else .ok (none, false)
  | some (_, .error e) => .error e
  | some (c, .ok (p, rest)) =>
    if rest ≠ [] then .error .badAsn1Data
    else if p.notBefore = none ∧ p.notAfter = none then .error .badAsn1Data
    else
      match periodOrder p with
      | .error e => .error e
      | .ok () =>
        match periodInside time p validity with
        | .error e => .error e
        | .ok () =>
          match enc p with
          | .error e => .error e
          | .ok () => .ok (some (crit.getD c, p), match crit with | some b => decide (c ≠ b) | none => false)

end Verif.Ra
