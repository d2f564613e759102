import Verif.Ra.GenInfo
import Verif.Check.Header
import Verif.CA.Nested

/-!
# Sender and senderKID of protected messages (resources/checkutils.py 311-460, 577-708, resources/utils.py 407-451,
resources/compareutils.py 446-497, mock_ca/cert_req_handler.py 517-526, 551-617)

Values of attributes are decoded by the environment.  A certificate which is not there is one with an empty subject and
without extensions: pyasn1 instantiates it.  Logging is left out.
-/

namespace Verif.Ra

open Verif.CA (PyErr Bytes ProtType presenceCheck)
open Verif.Check (Hdr validateRequestIds checkMessageTime validateWrongIntegrity)

/-- An attribute of a distinguished name. -/
structure SAttr (V : Type) where
  oid : List Nat
  val : V
deriving DecidableEq

/-- A distinguished name. -/
abbrev Dn (V : Type) := List (List (SAttr V))

/-- A `GeneralName`. -/
inductive GName (V : Type) where
  | dir (d : Dn V)
  | mail (s : List Char)
  | uri (s : List Char)
  | other (kind : String)
deriving DecidableEq

/-- What the code reads from values and certificates. -/
structure SenderEnv (V C : Type) where
  /-- `decoder.decode(value)[0].prettyPrint()` -/
  text : V → Except PyErr (List Char)
  /-- `bytes.decode("utf-8")` -/
  utf8? : Bytes → Option (List Char)
  subject : C → Dn V
  /-- `certextractutils.get_subject_key_identifier` -/
  ski : C → Except PyErr (Option Bytes)
  /-- `certutils.build_cmp_chain_from_pkimessage` -/
  chain : C → List C → Except PyErr (List C)
  /-- `certutils.check_is_cert_signer` -/
  signer : C → C → Except PyErr Bool
  /-- `certutils.validate_key_usage` with `digitalSignature` and `LAX` -/
  sigUsage : C → Except PyErr Unit

/-- `oidutils.py` 853-877, `PYASN1_CM_OID_2_NAME`. -/
def cmNames : List (List Nat × List Char) :=
  [([2, 5, 4, 3], ['C', 'N']), ([2, 5, 4, 7], ['L']), ([2, 5, 4, 8], ['S', 'T']), ([2, 5, 4, 10], ['O']),
   ([2, 5, 4, 11], ['O', 'U']), ([2, 5, 4, 6], ['C']), ([2, 5, 4, 9], "STREET".toList),
   ([0, 9, 2342, 19200300, 100, 1, 25], ['D', 'C']), ([2, 5, 4, 5], ['S', 'N']), ([2, 5, 4, 12], ['T']),
   ([2, 5, 4, 42], ['G', 'N']), ([2, 5, 4, 4], ['S']), ([2, 5, 4, 43], ['I']), ([2, 5, 4, 44], ['G', 'Q']),
   ([2, 5, 4, 46], ['D', 'N', 'Q']), ([2, 5, 4, 65], "PSEUDONYM".toList), ([2, 5, 4, 41], "NAME".toList),
   ([1, 2, 840, 113549, 1, 9, 1], "EMAIL".toList), ([2, 5, 4, 15], "businessCategory".toList),
   ([2, 5, 4, 17], "postalCode".toList), ([2, 5, 4, 97], "organizationIdentifier".toList)]

/-- `id-at-commonName`. -/
def idCn : List Nat := [2, 5, 4, 3]

variable {V C : Type}

/-- The loop of `get_openssl_name_notation` (425-443): the texts of the attributes with a type in `oids`. -/
def attrTexts (text : V → Except PyErr (List Char)) (oids : List (List Nat)) : List (SAttr V) → Except PyErr (List (List Char))
  | [] => .ok []
  | a :: as =>
    if a.oid ∈ oids then
      match text a.val with
      | .error e => .error e
      | .ok t =>
        match attrTexts text oids as with
        | .error e => .error e
        | .ok ts => .ok (((cmNames.lookup a.oid).getD ['N', 'o', 'n', 'e'] ++ '=' :: t) :: ts)
    else attrTexts text oids as

/-- Joined with commas; the name of no attribute is `NULL-DN` (448-449). -/
def joinNames : List (List Char) → List Char
  | [] => "NULL-DN".toList
  | t :: ts => t ++ (ts.map (',' :: ·)).flatten

/-- `utils.py` 407-451, `get_openssl_name_notation`. -/
def opensslName (text : V → Except PyErr (List Char)) (oids : List (List Nat)) (d : Dn V) : Except PyErr (List Char) :=
  match attrTexts text oids d.flatten with
  | .error e => .error e
  | .ok ts => .ok (joinNames ts)

/-- `str.removeprefix("CN=")`. -/
def dropCn : List Char → List Char
  | 'C' :: 'N' :: '=' :: r => r
  | s => s

/-- A message, as far as it is read here; `alg`: as for `validate_wrong_integrity`. -/
structure SMsg (V C : Type) where
  sender : GName V
  kid : Option Bytes := none
  alg : Option (Option ProtType) := none
  protection : Bool := false
  extra : List C := []

/-- `checkutils.py` 363-389, `_verify_sender_field_for_mac`; the name is never `None`. -/
def senderForMac (env : SenderEnv V C) (n : GName V) (allow : Bool) : Except PyErr Unit :=
  match n with
  | .dir d =>
    match opensslName env.text [idCn] d with
    | .error e => .error e
    | .ok _ => .ok ()
  | _ => if allow then .ok () else .error .badMessageCheck

/-- `compareutils.py` 446-497, `compare_general_name_and_name` without an URL. -/
def compareGn [DecidableEq V] (env : SenderEnv V C) (n : GName V) (subj : Dn V) : Except PyErr Bool :=
  match n with
  | .dir d => .ok (decide (d = subj))
  | .mail s =>
    match opensslName env.text (cmNames.map (·.1)) subj with
    | .error e => .error e
    | .ok t => .ok (decide (t = s))
  | .uri _ => .error .valueError
  | .other _ => .error .notImplemented

/-- The subject of the first certificate. -/
def firstSubject (env : SenderEnv V C) (l : List C) : Dn V :=
  match l with
  | [] => []
  | c :: _ => env.subject c

/-- `checkutils.py` 392-460, `check_sender_cmp_protection`. -/
def checkSender [DecidableEq V] (env : SenderEnv V C) (must allow : Bool) (m : SMsg V C) : Except PyErr Unit :=
  match presenceCheck m.alg.isSome m.protection must with
  | .error e => .error e
  | .ok () =>
    match m.alg with
    | none => .ok ()
    | some none => .error .unknownOID
    | some (some p) =>
      if p = .mac ∨ p = .kem then senderForMac env m.sender allow
      else
        match compareGn env m.sender (firstSubject env m.extra) with
        | .error e => .error e
        | .ok true => .ok ()
        | .ok false => if allow then .ok () else .error .badMessageCheck

/-- `checkutils.py` 577-637, `_verify_senderkid_for_mac`; the name is never empty. -/
def kidForMac (env : SenderEnv V C) (n : GName V) (kid : Bytes) (allow : Bool) : Except PyErr Unit :=
  match n with
  | .dir d =>
    match env.utf8? kid with
    | none => .error .badMessageCheck
    | some k =>
      match opensslName env.text [idCn] d with
      | .error e => .error e
      | .ok t => if dropCn k ≠ dropCn t ∧ allow = false then .error .badMessageCheck else .ok ()
  | _ => if allow then .ok () else .error .badMessageCheck

/-- The certificate of the protection (689-690): the one given, or the first one of the message. -/
def kidCert (given : Option C) (extra : List C) : Option C :=
  match given with
  | some c => some c
  | none => extra.head?

/-- `checkutils.py` 643-708, `validate_senderkid_for_cmp_protection`. -/
def validateKid (env : SenderEnv V C) (given : Option C) (must allow : Bool) (m : SMsg V C) : Except PyErr Unit :=
  match presenceCheck m.alg.isSome m.protection false with
  | .error e => .error e
  | .ok () =>
    match m.alg with
    | none => if must then .error .badMessageCheck else .ok ()
    | some p? =>
      match m.kid with
      | none => .error .badMessageCheck
      | some kid =>
        match p? with
        | none => .error .unknownOID
        | some p =>
          if p = .mac ∨ p = .kem then kidForMac env m.sender kid allow
          else
            match kidCert given m.extra with
            | none => .ok ()
            | some c =>
              match env.ski c with
              | .error e => .error e
              | .ok none => .ok ()
              | .ok (some s) => if s = kid then .ok () else .error .badMessageCheck

/-- The two checks in the order of the CA (`cert_req_handler.py` 601-602). -/
def senderChecks [DecidableEq V] (env : SenderEnv V C) (must : Bool) (m : SMsg V C) : Except PyErr Unit :=
  match checkSender env must false m with
  | .error e => .error e
  | .ok () => validateKid env none must false m

/-- `cert_req_handler.py` 562-580, `check_signer`. -/
def checkSigner (env : SenderEnv V C) (extra : List C) : Except PyErr Unit :=
  match extra with
  | [] => .error .badMessageCheck
  | c :: cs =>
    match env.chain c (c :: cs) with
    | .error e => .error e
    | .ok [] => .error .indexError
    | .ok [_] => .error .signerNotTrusted
    | .ok (a :: b :: r) =>
      match env.signer ((b :: r).getLast (by simp)) ((b :: r).getLast (by simp)) with
      | .error e => .error e
      | .ok false => .error .signerNotTrusted
      | .ok true => env.sigUsage a

/-- A message for the CA. -/
structure HMsg (V C : Type) extends SMsg V C where
  pvno : Int
  hdr : Hdr
  body : String
  /-- the number of entries of the body -/
  n : Nat
  info : List Itv
  /-- the protection algorithm is `PasswordBasedMac` or `PBMAC1` -/
  lwAlg : Bool := true

/-- The settings of the CA. -/
structure HCfg where
  must : Bool
  checkTime : Bool := true
  interval : Int
  lwcmp : Bool := false

/-- `cert_req_handler.py` 517-526, `check_message_time`. -/
def caTime (cfg : HCfg) (now : Int) (h : Hdr) : Except PyErr Unit :=
  if cfg.checkTime then
    match h.time with
    | none => .error .badTime
    | some _ => checkMessageTime h (some cfg.interval) none now
  else .ok ()

/-- The last part of `validate_header` (603-617). -/
def caSigner (env : SenderEnv V C) (cfg : HCfg) (m : HMsg V C) : Except PyErr Unit :=
  match m.alg with
  | none => .ok ()
  | some none => .error .unknownOID
  | some (some p) =>
    if p ≠ .mac ∧ p ≠ .kem ∧ p ≠ .dh then checkSigner env m.extra
    else if p = .dh ∨ p = .kem then .ok ()
    else if cfg.lwcmp = true ∧ m.lwAlg = false then .error .badAlg
    else .ok ()

/-- `cert_req_handler.py` 582-617, `validate_header`. -/
def caValidateHeader [DecidableEq V] (env : SenderEnv V C) (ie : InfoEnv) (cfg : HCfg) (now : Int) (nested : Bool) (m : HMsg V C) :
    Except PyErr Unit :=
  if m.pvno ≠ 2 ∧ m.pvno ≠ 3 then .error .unsupportedVersion
  else
    match (if nested then .ok () else validateRequestIds m.hdr m.body : Except PyErr Unit) with
    | .error e => .error e
    | .ok () =>
      match caGenInfo ie now m.body m.n m.info with
      | .error e => .error e
      | .ok () =>
        match caTime cfg now m.hdr with
        | .error e => .error e
        | .ok () =>
          match presenceCheck m.alg.isSome m.protection cfg.must with
          | .error e => .error e
          | .ok () =>
            match validateWrongIntegrity m.body m.alg with
            | .error e => .error e
            | .ok () =>
              match senderChecks env cfg.must m.toSMsg with
              | .error e => .error e
              | .ok () => caSigner env cfg m

end Verif.Ra
