import Verif.CA.Msg

/-!
# Transaction identifiers (`MockCAState`, mock_ca/mock_fun.py 1324-1448)
-/

namespace Verif.CA

variable {C : Type}

/-- `currently_used_ids` (a set; kept as a list without order) and `to_be_confirmed_certs`. -/
structure TxState (C : Type) where
  used : List Bytes := []
  certs : Dict (Bytes × Bytes) (List C) := []

/-- `mock_fun.py` 1369-1376, `add_tx_id`. -/
def TxState.addTxId (s : TxState C) (tx : Bytes) : Res (TxState C) Unit :=
  if tx ∈ s.used then (.error .transactionIdInUse, s)
  else (.ok (), { s with used := tx :: s.used })

/-- `mock_fun.py` 1378-1383, `remove_tx_id` (`set.remove`: `KeyError` if absent). -/
def TxState.removeTxId (s : TxState C) (tx : Bytes) : Res (TxState C) Unit :=
  if tx ∈ s.used then (.ok (), { s with used := s.used.filter (· ≠ tx) })
  else (.error .keyError, s)

/-- `mock_fun.py` 1395-1412, `store_transaction_certificate`. -/
def TxState.store (s : TxState C) (tx sender : Bytes) (cs : List C) : Res (TxState C) Unit :=
  if tx ∈ s.used then (.error .transactionIdInUse, s)
  else (.ok (), { used := tx :: s.used, certs := s.certs.set (tx, sender) cs })

/-- `mock_fun.py` 1430-1438, `get_issued_certs` (`KeyError` if absent). -/
def TxState.getIssued (s : TxState C) (tx sender : Bytes) : Except PyErr (List C) :=
  match s.certs.get (tx, sender) with
  | some cs => .ok cs
  | none => .error .keyError

/-- One call. -/
inductive TxOp (C : Type) where
  | add (tx : Bytes)
  | remove (tx : Bytes)
  | store (tx sender : Bytes) (cs : List C)

/-- Execute one call. -/
def TxState.step (s : TxState C) : TxOp C → Res (TxState C) Unit
  | .add tx => s.addTxId tx
  | .remove tx => s.removeTxId tx
  | .store tx snd cs => s.store tx snd cs

/-- Execute a history, recording which calls returned normally. -/
def TxState.run (s : TxState C) : List (TxOp C) → List Bool × TxState C
  | [] => ([], s)
  | op :: ops =>
    let r := s.step op
    let rest := r.2.run ops
    (Res.isOk r :: rest.1, rest.2)

end Verif.CA
