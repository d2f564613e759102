import Verif.CA.Msg

/-!
# Stateful-signature indices (mock_ca/operation_dbs.py 437-502, mock_ca/stfl_validator.py,
mock_ca/prot_handler.py 572-705, mock_ca/ca_handler.py 555-580 and 703-797)

Certificates are values of an arbitrary type `C`, `H : C → D` is `compute_hash(DER(cert))`.
-/

namespace Verif.CA

variable {C D : Type}

/-- `operation_dbs.py` 454-459, `StatefulSigState`: certificate hash ↦ list of used leaf indices. -/
abbrev StflState (D : Type) := Dict D (List Nat)

/-- The parts of a protected message the index logic looks at. `index` is the leaf index decoded from the
protection value, `sigOk` the verdict of the signature verification (`verify_hybrid_pkimessage_protection`),
`trusted` the verdict of the remaining signer checks (`check_signer_is_trusted`, `validate_signer_for_ccr`),
`handled` whether the body handler finished without an exception. -/
structure StflMsg (C : Type) where
  body : String
  prot : Option ProtType := some .pqStateful
  extra : List C
  index : Nat
  sigOk : Bool := true
  trusted : Bool := true
  handled : Bool := true

/-- `mock_fun.py` 1524-1540 `PQStatefulSigKeyConfig` of the validator (`savedV`) and of the protection
handler (`savedP`, `prot_handler.py` 139-143), and the common `allow_stfl_ccr`. -/
structure StflCfg where
  savedV : Bool := true
  savedP : Bool := true
  allowCcr : Bool := false

/-- `operation_dbs.py` 462-468, `add_state` (default: index 0 counts as used). -/
def stflAddState [DecidableEq D] (H : C → D) (s : StflState D) (cert : C) (st : Option (List Nat)) :
    Res (StflState D) Unit :=
  match s.get (H cert) with
  | some _ => (.error .badRequest, s)
  | none => (.ok (), s.set (H cert) (st.getD [0]))

/-- `state.add_used_index(index)` on the object returned by `get_state` (shared, so the dictionary changes). -/
def stflMark [DecidableEq D] (H : C → D) (s : StflState D) (cert : C) (i : Nat) : StflState D :=
  match s.get (H cert) with
  | some l => s.set (H cert) (l ++ [i])
  | none => s

/-- `stfl_validator.py` 38-59, `add_pq_stateful_pki_message`. -/
def stflAddMsg [DecidableEq D] (H : C → D) (s : StflState D) (m : StflMsg C) : Res (StflState D) Unit :=
  if m.prot ≠ some .pqStateful then (.ok (), s)
  else match m.extra with
    | [] => (.error .exception, s)          -- hashing an empty certificate raises in pyasn1
    | c :: _ =>
      match s.get (H c) with
      | none => (.error .badMessageCheck, s)
      | some _ => (.ok (), stflMark H s c m.index)

/-- `stfl_validator.py` 61-109, `validate_pq_stateful_pki_message`; `isStfl c` says whether the key of the
certificate loads as a stateful-signature key. -/
def stflValidate [DecidableEq D] (H : C → D) (isStfl : C → Bool) (cfg : StflCfg) (s : StflState D)
    (m : StflMsg C) : Res (StflState D) Unit :=
  if m.prot ≠ some .pqStateful then (.ok (), s)
  else match m.extra with
    | [] => (.error .badMessageCheck, s)
    | c :: _ =>
      if m.body = "ccr" ∧ cfg.allowCcr = false then (.error .badRequest, s)
      else if isStfl c = false then (.error .badMessageCheck, s)
      else match s.get (H c) with
        | none => (.error .badMessageCheck, s)
        | some l =>
          if m.index ∈ l then (.error .badMessageCheck, s)
          else if cfg.savedV then (.ok (), stflMark H s c m.index)
          else (.ok (), s)

/-- `prot_handler.py` 572-629, `validate_stfl_signature_protection`. -/
def stflProtCheck [DecidableEq D] (H : C → D) (isStfl : C → Bool) (cfg : StflCfg) (s : StflState D)
    (m : StflMsg C) (exclude : Bool) : Res (StflState D) Unit :=
  match m.extra with
  | [] => (.error .badMessageCheck, s)
  | c :: _ =>
    if m.body = "ccr" ∧ cfg.allowCcr = false then (.error .badRequest, s)
    else if isStfl c = false then (.error .badMessageCheck, s)
    else if exclude then (.ok (), s)
    else match s.get (H c) with
      | none => (.error .badMessageCheck, s)
      | some l =>
        if m.index ∈ l then (.error .badMessageCheck, s)
        else if cfg.savedP then (.ok (), stflMark H s c m.index)
        else (.ok (), s)

/-- `prot_handler.py` 631-705, `validate_signature_protection`. The signer checks (644-651 and 705) are
the single verdict `trusted`, evaluated at the end. -/
def stflSigProt [DecidableEq D] (H : C → D) (isStfl : C → Bool) (cfg : StflCfg) (s : StflState D)
    (m : StflMsg C) (exclude : Bool) : Res (StflState D) Unit :=
  match m.extra with
  | [] => (.error .badMessageCheck, s)
  | c :: _ =>
    let r := if m.prot = some .pqStateful then stflProtCheck H isStfl cfg s m exclude else (.ok (), s)
    match r.1 with
    | .error e => (.error e, r.2)
    | .ok _ =>
      if m.sigOk = false then (.error .badMessageCheck, r.2)
      else
        if cfg.savedP = false ∧ m.prot = some .pqStateful then
          match r.2.get (H c) with
          | none => (.error .badRequest, r.2)
          | some _ =>
            let s' := stflMark H r.2 c m.index
            if m.trusted then (.ok (), s') else (.error .badMessageCheck, s')
        else if m.trusted then (.ok (), r.2) else (.error .badMessageCheck, r.2)

/-- Sequencing of two calls: the second runs only when the first returned. -/
def Res.andThen {σ : Type} (r : Res σ Unit) (k : σ → Res σ Unit) : Res σ Unit :=
  match r.1 with
  | .error e => (.error e, r.2)
  | .ok _ => k r.2

/-- The body handler: an uninterpreted verdict. -/
def stflHandled (m : StflMsg C) (s : StflState D) : Res (StflState D) Unit :=
  if m.handled then (.ok (), s) else (.error .exception, s)

/-- `ca_handler.py` 703-797 for messages protected by a (stateful) signature, restricted to the index
bookkeeping: `verify_protection` (555-580) is skipped for `rr` and `genm`; `rr` is verified by
`rev_handler.py` 414-447, which looks at the signature only; `genm` by `validate_protection` (829);
`nested` a second time by `verify_nested_protection` (`prot_handler.py` 983-1018); certificate requests
a second time (745) and then recorded (748). -/
def stflHandle [DecidableEq D] (H : C → D) (isStfl : C → Bool) (cfg : StflCfg) (s : StflState D)
    (m : StflMsg C) : Res (StflState D) Unit :=
  if m.body = "rr" then
    if m.sigOk then stflHandled m s else (.error .badMessageCheck, s)
  else if m.body = "genm" then
    (stflSigProt H isStfl cfg s m false).andThen (stflHandled m)
  else
    ((stflValidate H isStfl cfg s m).andThen (fun s => stflSigProt H isStfl cfg s m true)).andThen fun s =>
      if m.body = "nested" then (stflSigProt H isStfl cfg s m false).andThen (stflHandled m)
      else if m.body ∈ ["ir", "cr", "p10cr", "kur", "ccr"] then
        ((stflSigProt H isStfl cfg s m true).andThen (fun s => stflAddMsg H s m)).andThen (stflHandled m)
      else stflHandled m s

/-- Calls: registering a new certificate, a bare validation, a bare recording, a whole message. -/
inductive StflOp (C : Type) where
  | addState (cert : C) (st : Option (List Nat))
  | validate (m : StflMsg C)
  | addMsg (m : StflMsg C)
  | message (m : StflMsg C)

/-- Execute one call; the flag says whether it returned normally. -/
def stflStep [DecidableEq D] (H : C → D) (isStfl : C → Bool) (cfg : StflCfg) (s : StflState D) :
    StflOp C → Res (StflState D) Unit
  | .addState c st => stflAddState H s c st
  | .validate m => stflValidate H isStfl cfg s m
  | .addMsg m => stflAddMsg H s m
  | .message m => stflHandle H isStfl cfg s m

/-- Execute a history. -/
def stflRun [DecidableEq D] (H : C → D) (isStfl : C → Bool) (cfg : StflCfg) (s : StflState D) :
    List (StflOp C) → List Bool × StflState D
  | [] => ([], s)
  | op :: ops =>
    let r := stflStep H isStfl cfg s op
    let rest := stflRun H isStfl cfg r.2 ops
    (Res.isOk r :: rest.1, rest.2)

end Verif.CA
