import Verif.Ra.Update
import Verif.Ra.GenInfo

/-!
# The certificate requests of the Mock CA (mock_ca/cert_req_handler.py, resources/ca_ra_utils.py)

What `CertReqHandler` gives to the functions of `ca_ra_utils.py`: for an `ir` all its parameters (`issuing_params`,
160-172), for a `cr` only its certificate, its key and the extensions.
-/

namespace Verif.Ra

open Verif.CA hiding Bytes Msg ProtType
open Verif.Check

/-- The handler: the functions with all parameters, the extensions, the certificates issued, and the two functions whose
outcome without the parameters is not fixed: the decryption of a key sent to the CA, and the check of the controls. -/
structure HandlerEnv (A K S R E C N X G I : Type) where
  up : UpEnv A K S R E C N X G I
  ext : Option X
  issued : List C
  bareOpen : E → Except PyErr Bytes
  bareControls : Bytes → Except PyErr Unit

variable {A K S R E C N X G I : Type}

/-- The functions without the parameters of the handler (407-416): no keys for key agreement (`ca_ra_utils.py` 1875-1885),
and `prepare_cert_and_private_key_for_kga` (1020-1032) lacks two arguments without default. -/
def bareEnv (h : HandlerEnv A K S R E C N X G I) : RaEnv A K S R E C N X G :=
  { h.up.ra with
    serverKey := fun _ => none
    kga := fun _ => .error .typeError
    openKey := h.bareOpen
    controls := h.bareControls }

/-- `cert_req_handler.py` 346-373, `process_ir`, to the response. -/
def processIr [DecidableEq K] [DecidableEq C] [DecidableEq N] (h : HandlerEnv A K S R E C N X G I) (verifyRa : Bool)
    (m : RMsg A R E C) : Except PyErr (List (Resp C E) × List C) :=
  ipReply h.up.ra { ext := h.ext, verifyRa := verifyRa } true m

/-- `cert_req_handler.py` 396-422, `process_cr`, to the response; `p` is the protection, if any. -/
def processCr [DecidableEq K] [DecidableEq C] [DecidableEq N] (h : HandlerEnv A K S R E C N X G I) (verifyRa : Bool)
    (p : Option ProtType) (m : RMsg A R E C) : Except PyErr (List (Resp C E) × List C) :=
  match (match p with
    | none => .ok ()
    | some p => signerIssued h.issued p m.certs : Except PyErr Unit) with
  | .error e => .error e
  | .ok () => cpReply (bareEnv h) { ext := h.ext, verifyRa := verifyRa } m

/-- `cert_req_handler.py` 713-728, `handle_cross_cert_req`, to the response. -/
def processCcr (h : HandlerEnv A K S R E C N X G I) (m : RMsg A R E C) : Except PyErr (Resp C E × C) :=
  ccpReply h.up h.ext m

/-! ## PKCS #10 -/

/-- An extension: its identifier and its value. -/
abbrev XExt := List Nat × Bytes

/-- A certification request: the verification of its signature, whether its subject is empty, its extensions and its key. -/
structure P10 (K : Type) where
  verified : Except PyErr Unit := .ok ()
  nullDn : Bool := false
  exts : Except PyErr (List XExt) := .ok []
  key : Except PyErr K

/-- A certificate, as far as it matters here. -/
structure P10Cert (K : Type) where
  nullDn : Bool
  key : K
  exts : List XExt
  deriving DecidableEq

/-- What the functions use: `contains_key` of the list of revoked keys, `_validate_name`, the extension of the key
identifier, the outcome of signing and the extensions of the CA. -/
structure P10Env (K : Type) where
  compromised : K → Bool
  nameOk : Except PyErr Unit := .ok ()
  ski : K → XExt
  sign : Except PyErr Unit := .ok ()
  exts : List XExt

/-- `id-ce-subjectAltName`. -/
def idSan : List Nat := [2, 5, 29, 17]

/-- `ca_ra_utils.py` 2244-2258, `_validate_subject_field_for_cert_request`. -/
def subjectOk (q : P10 K) : Except PyErr Unit :=
  match q.exts with
  | .error e => .error e
  | .ok xs => if q.nullDn ∧ ¬ (xs.any fun x => decide (x.1 = idSan)) then .error .badCertTemplate else .ok ()

/-- `certbuildutils.py` 1951-2048, `build_cert_from_csr`, without the extensions of the request and with the key identifier
(1940-1947). -/
def p10Build (env : P10Env K) (q : P10 K) : Except PyErr (P10Cert K) :=
  match env.nameOk with
  | .error e => .error e
  | .ok () =>
    match q.key with
    | .error e => .error e
    | .ok k =>
      match env.sign with
      | .error e => .error e
      | .ok () => .ok ⟨q.nullDn, k, env.exts ++ [env.ski k]⟩

/-- `cert_req_handler.py` 424-454, `process_p10cr`, to the certificate, with `build_cp_from_p10cr` (`ca_ra_utils.py`
2261-2334): whether the key is compromised (`mock_fun.py` 411-421) is not used. -/
def processP10 (env : P10Env K) (q : P10 K) : Except PyErr (P10Cert K) :=
  match q.key with
  | .error e => .error e
  | .ok k =>
    let _ := env.compromised k
    match q.verified with
    | .error e => .error e
    | .ok () =>
      match subjectOk q with
      | .error e => .error e
      | .ok () => p10Build env q

/-! ## Implicit confirmation -/

/-- `cert_req_handler.py` 528-549, `check_if_used`, with `check_if_response_contains_encrypted_cert` (`checkutils.py`
99-130) for the first response. -/
def usedImplicit (body : String) (info : List Itv) (rs : List (Resp C E)) : Bool :=
  if body ∈ ["p10cr", "ccr", "krp"] then findOid [1, 3, 6, 1, 5, 5, 7, 4, 13] info
  else if body ∉ ["ir", "cr", "kur"] then false
  else if findOid [1, 3, 6, 1, 5, 5, 7, 4, 13] info = false then false
  else match rs with
    | ⟨_, .enc _, _⟩ :: _ => false
    | _ => true

end Verif.Ra
