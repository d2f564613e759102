import Verif.CA.Msg

/-!
# Proof-of-possession challenges (mock_ca/challenge_handler.py 35-181)

`T` is the type of certificate templates. The random number is an argument of the challenge operation.
-/

namespace Verif.CA

variable {T : Type}

/-- `challenge_handler.py` 42, the dictionary `(number, transactionID) ↦ (template, body name)`. -/
abbrev ChalState (T : Type) := Dict (Int × Bytes) (T × String)

/-- `challenge_handler.py` 105-130, `_process_challenge`. `buildOk` is the outcome of the two calls that may
raise before the dictionary is written (`_get_ca_key`, `build_popdecc_from_request`); the number returned by
`build_popdecc_from_request` is the random one (`num`). Numbers are integers: the answer may carry any ASN.1 INTEGER. -/
def chalIssue (s : ChalState T) (pvno : Int) (mac : Bool) (num : Int) (tx : Bytes) (t : T) (body : String)
    (buildOk : Bool) : Res (ChalState T) Unit :=
  if pvno = 3 ∧ mac then (.error .badRequest, s)
  else if buildOk = false then (.error .badCertTemplate, s)
  else (.ok (), s.set (num, tx) (t, body))

/-- The loop of `_process_popdecr` (137-152): returns the templates certified so far, the body name of the
first entry, the outcome and the dictionary. `certOk t`: building a certificate from `t` does not raise. -/
def chalLoop (certOk : T → Bool) (tx : Bytes) : ChalState T → List Int → List Int × Except PyErr (List (T × String)) × ChalState T
  | s, [] => ([], .ok [], s)
  | s, n :: ns =>
    match s.get (n, tx) with
    | none => ([], .error .badRequest, s)
    | some out =>
      if certOk out.1 = false then ([], .error .exception, s)
      else
        let r := chalLoop certOk tx (s.erase (n, tx)) ns
        match r.2.1 with
        | .error e => (n :: r.1, .error e, r.2.2)
        | .ok l => (n :: r.1, .ok (out :: l), r.2.2)

/-- `challenge_handler.py` 132-168, `_process_popdecr`. The first component lists the numbers that were
found and consumed; the result is the list of templates a certificate is issued for. -/
def chalAnswer (certOk : T → Bool) (s : ChalState T) (tx : Bytes) (nums : List Int) :
    List Int × Except PyErr (List T) × ChalState T :=
  let r := chalLoop certOk tx s nums
  match r.2.1 with
  | .error e => (r.1, .error e, r.2.2)
  | .ok [] => (r.1, .error .notImplemented, r.2.2)
  | .ok (x :: xs) =>
    if x.2 = "ir" then (r.1, .ok ((x :: xs).map (·.1)), r.2.2)
    else (r.1, .error .notImplemented, r.2.2)

/-- Messages reaching `handle_challenge` (170-181). -/
inductive ChalOp (T : Type) where
  | request (pvno : Int) (mac : Bool) (num : Int) (tx : Bytes) (t : T) (body : String) (buildOk : Bool)
  | answer (tx : Bytes) (nums : List Int)

/-- Trace events: a challenge was issued / an answer entry was accepted (found and consumed). -/
inductive ChalEvent where
  | issued (num : Int) (tx : Bytes)
  | accepted (num : Int) (tx : Bytes)
  deriving DecidableEq

/-- `handle_challenge`: a request body other than `ir`/`cr` raises `BadRequest`. -/
def chalStep (certOk : T → Bool) (s : ChalState T) : ChalOp T → List ChalEvent × ChalState T
  | .request pvno mac num tx t body ok =>
    if body = "ir" ∨ body = "cr" then
      let r := chalIssue s pvno mac num tx t body ok
      (if Res.isOk r then [.issued num tx] else [], r.2)
    else ([], s)
  | .answer tx nums =>
    let r := chalAnswer certOk s tx nums
    (r.1.map (ChalEvent.accepted · tx), r.2.2)

/-- Trace of a history. -/
def chalRun (certOk : T → Bool) (s : ChalState T) : List (ChalOp T) → List ChalEvent × ChalState T
  | [] => ([], s)
  | op :: ops =>
    let r := chalStep certOk s op
    let rest := chalRun certOk r.2 ops
    (r.1 ++ rest.1, rest.2)

end Verif.CA
