import Verif.CA.Stfl

/-!
# Registering stateful keys (mock_ca/stfl_validator.py 111-236, mock_ca/cert_conf_handler.py 379-409,
mock_ca/cert_req_handler.py 324-335)

A certificate is a value of an arbitrary type `C`, `H : C → D` is the hash of its encoding, `stflCert` says whether the OID of
its key is one of a stateful signature. Of a request what matters is the proof of possession of each entry: `index` is what
`get_pq_stateful_sig_index_from_sig` reads from its signature.

Simplified: logging is left out; the encodings are taken to exist.
-/

namespace Verif.CA

variable {C D : Type}

/-- The proof of possession of an entry (for `p10cr` the signature of the request): `key` says whether the key of the template
loads as one for stateful signatures. -/
inductive StflPopo where
  | none
  | raVerified
  | other
  | signature (key : Except PyErr Bool) (index : Except PyErr Nat)
  deriving DecidableEq

/-- A request for certificates. -/
structure StflReq where
  body : String
  popos : List StflPopo

/-- `stfl_validator.py` 139-143: the index of a signature. -/
def stflSigIndex (key : Except PyErr Bool) (index : Except PyErr Nat) : Except PyErr (Option (List Nat)) :=
  match key with
  | .error e => .error e
  | .ok false => .error .valueError
  | .ok true =>
    match index with
    | .error e => .error e
    | .ok i => .ok (some [i])

/-- `stfl_validator.py` 111-144, `_get_popo_sig`; an entry which is not there has no proof. `krr` is refused by
`get_popo_from_pkimessage` (`ca_ra_utils.py` 4036-4046). -/
def stflPopoState (q : StflReq) (i : Nat) : Except PyErr (Option (List Nat)) :=
  if q.body = "p10cr" then
    match q.popos.head? with
    | some (.signature k x) => stflSigIndex k x
    | _ => .error .pyasn1Error
  else if q.body = "ir" ∨ q.body = "cr" ∨ q.body = "kur" ∨ q.body = "ccr" then
    match q.popos[i]? with
    | none => .ok none
    | some .none => .ok none
    | some .raVerified => .error .badRequest
    | some .other => .error .badRequest
    | some (.signature k x) => stflSigIndex k x
  else .error .valueError

/-- `stfl_validator.py` 226-236: one certificate. -/
def stflRegOne [DecidableEq D] (H : C → D) (stflCert : C → Bool) (q : StflReq) (s : StflState D) (i : Nat) (c : C) :
    Res (StflState D) Unit :=
  if stflCert c = false then (.ok (), s)
  else
    match stflPopoState q i with
    | .error e => (.error e, s)
    | .ok none => (.ok (), s)
    | .ok (some l) => stflAddState H s c (some l)

/-- `stfl_validator.py` 226-236: the loop, from index `i`. -/
def stflRegLoop [DecidableEq D] (H : C → D) (stflCert : C → Bool) (q : StflReq) :
    StflState D → Nat → List C → Res (StflState D) Unit
  | s, _, [] => (.ok (), s)
  | s, i, c :: cs =>
    match stflRegOne H stflCert q s i c with
    | (.error e, s) => (.error e, s)
    | (.ok (), s) => stflRegLoop H stflCert q s (i + 1) cs

/-- `stfl_validator.py` 202-236, `process_stfl_after_request` (not for chameleon requests). -/
def stflAfter [DecidableEq D] (H : C → D) (stflCert : C → Bool) (q : StflReq) (s : StflState D) (certs : List C)
    (confirmed : Bool) : Res (StflState D) Unit :=
  if ¬ (q.body = "ir" ∨ q.body = "cr" ∨ q.body = "kur" ∨ q.body = "p10cr" ∨ q.body = "ccr" ∨ q.body = "krr") then (.ok (), s)
  else if confirmed then stflRegLoop H stflCert q s 0 certs
  else (.ok (), s)

/-- `cert_conf_handler.py` 379-384 with 390-409, `_may_add_stfl_confirmed_cert`: each certificate is given alone. -/
def stflConfirm [DecidableEq D] (H : C → D) (stflCert : C → Bool) (q : StflReq) :
    StflState D → List C → Res (StflState D) Unit
  | s, [] => (.ok (), s)
  | s, c :: cs =>
    match (if stflCert c then stflAfter H stflCert q s [c] true else (.ok (), s) : Res (StflState D) Unit) with
    | (.error e, s) => (.error e, s)
    | (.ok (), s) => stflConfirm H stflCert q s cs

/-- `stfl_validator.py` 146-183, `_may_add_delta_cert` and `_may_add_paired_cert`; `key` and `index` are those of the delta
certificate and of the signature in the attribute, or of the paired certificate and of the request. -/
def stflAddHalf [DecidableEq D] (H : C → D) (stflCert : C → Bool) (s : StflState D) (c : C) (key : Except PyErr Bool)
    (index : Except PyErr Nat) : Res (StflState D) Unit :=
  if stflCert c = false then (.ok (), s)
  else
    match key with
    | .error e => (.error e, s)
    | .ok false => (.error .invalidKeyData, s)
    | .ok true =>
      match index with
      | .error e => (.error e, s)
      | .ok i => stflAddState H s c (some [i])

/-- `stfl_validator.py` 185-200, `_process_chameleon_pki_message`: the delta certificate is the second one. -/
def stflChameleon [DecidableEq D] (H : C → D) (stflCert : C → Bool) (s : StflState D) (certs : List C)
    (delta base : Except PyErr Bool × Except PyErr Nat) : Res (StflState D) Unit :=
  match certs with
  | [paired, d] =>
    match stflAddHalf H stflCert s d delta.1 delta.2 with
    | (.error e, s) => (.error e, s)
    | (.ok (), s) => stflAddHalf H stflCert s paired base.1 base.2
  | _ => (.error .typeError, s)

end Verif.CA
