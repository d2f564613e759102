import Verif.CA.Msg

/-!
# KEM shared secrets (`KEMSharedSecretList`, mock_ca/mock_fun.py 476-627)

Secrets are values of an arbitrary type `S`. The messages handed to the list always carry a
transactionID (`asOctets` on a missing one raises before the list is touched); the verdict of
`verify_kem_based_mac_protection` is a parameter `mac : S → Bool` belonging to the message.
-/

namespace Verif.CA

variable {S : Type}

/-- `mock_fun.py` 476-507, `KEMSharedSharedState` (sender, key and certificate are never read). -/
structure KemEntry (S : Type) where
  ss : S
  tx : Bytes
  used : Bool := false

/-- `mock_fun.py` 536-548, `update_shared_secret_state`: both inner branches set the flag. -/
def kemUpdate (l : List (KemEntry S)) (tx : Bytes) : List (KemEntry S) :=
  l.map (fun e => if tx = e.tx then { e with used := true } else e)

/-- `mock_fun.py` 550-556, `add_shared_secret`. -/
def kemAdd (l : List (KemEntry S)) (tx : Bytes) (ss : S) : List (KemEntry S) :=
  l ++ [{ ss := ss, tx := tx }]

/-- `mock_fun.py` 558-564, `remove_shared_secret`: drops the first entry of the transaction. -/
def kemRemove : List (KemEntry S) → Bytes → List (KemEntry S)
  | [], _ => []
  | e :: l, tx => if tx = e.tx then l else e :: kemRemove l tx

/-- `mock_fun.py` 573-585, `get_shared_secret(_object)`: the first entry of the transaction. -/
def kemFind : List (KemEntry S) → Bytes → Option (KemEntry S)
  | [], _ => none
  | e :: l, tx => if tx = e.tx then some e else kemFind l tx

/-- `mock_fun.py` 587-609, `verify_pkimessage_protection`. -/
def kemVerify (l : List (KemEntry S)) (tx : Bytes) (body : String) (mac : S → Bool) : Except PyErr Unit :=
  match kemFind l tx with
  | none => .error .badMessageCheck
  | some e =>
    if body = "certConf" then
      if mac e.ss then .ok () else .error .badMessageCheck
    else if e.used then .error .badMessageCheck
    else if mac e.ss then .ok () else .error .badMessageCheck

/-- `mock_fun.py` 611-627, `may_update_state` (`kemAlg`: the protection algorithm is `KemBasedMac`). -/
def kemMayUpdate (l : List (KemEntry S)) (tx : Bytes) (kemAlg : Bool) : List (KemEntry S) :=
  if kemAlg then kemUpdate l tx else l

/-- Calls made by the CA. `request` is the sequence of `ca_handler.py` 703-797 for a KEM protected message:
verification (`verify_protection`, 555-580), the body handler, whose outcome is `handled`, and
`may_update_state` only when the handler did not raise. -/
inductive KemOp (S : Type) where
  | add (tx : Bytes) (ss : S)
  | remove (tx : Bytes)
  | request (tx : Bytes) (body : String) (mac : S → Bool) (handled : Bool)

/-- Execute one call; the flag says whether a request was verified and handled. -/
def kemStep (l : List (KemEntry S)) : KemOp S → Bool × List (KemEntry S)
  | .add tx ss => (false, kemAdd l tx ss)
  | .remove tx => (false, kemRemove l tx)
  | .request tx body mac handled =>
    match kemVerify l tx body mac with
    | .error _ => (false, l)
    | .ok _ => if handled then (true, kemMayUpdate l tx true) else (false, l)

/-- Execute a history. -/
def kemRun (l : List (KemEntry S)) : List (KemOp S) → List Bool × List (KemEntry S)
  | [] => ([], l)
  | op :: ops =>
    let r := kemStep l op
    let rest := kemRun r.2 ops
    (r.1 :: rest.1, rest.2)

end Verif.CA
