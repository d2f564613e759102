import Verif.CA.TxIds

/-! # C04: transaction identifiers are accepted once -/

namespace Verif.CA

variable {C : Type}

/-- The call tries to open a transaction with identifier `tx`. -/
def Opens (tx : Bytes) : TxOp C → Bool
  | .add t => t = tx
  | .store t _ _ => t = tx
  | .remove _ => false

/-- The call releases identifier `tx`. -/
def Releases (tx : Bytes) : TxOp C → Bool
  | .remove t => t = tx
  | _ => false

/-- Number of calls of a kind that returned normally in a recorded history. -/
def countOk (p : TxOp C → Bool) : List (TxOp C) → List Bool → Nat
  | op :: ops, ok :: oks => (if p op && ok then 1 else 0) + countOk p ops oks
  | _, _ => 0

/-- An opening call succeeds exactly when the identifier is not in use; when it is refused the
exception is `TransactionIdInUse` and nothing changes. -/
theorem C04_open_decision (s : TxState C) (op : TxOp C) (tx : Bytes) (h : Opens tx op = true) :
    (tx ∈ s.used → s.step op = (.error .transactionIdInUse, s)) ∧
    (tx ∉ s.used → Res.isOk (s.step op) = true ∧ tx ∈ (s.step op).2.used) := by
  cases op <;> simp_all [Opens, TxState.step, TxState.addTxId, TxState.store, Res.isOk]

/-- Without a release of `tx` an identifier in use stays in use. -/
theorem used_run (s : TxState C) (ops : List (TxOp C)) (tx : Bytes) (hu : tx ∈ s.used)
    (hr : ∀ op ∈ ops, Releases tx op = false) : tx ∈ (s.run ops).2.used := by
  induction ops generalizing s with
  | nil => exact hu
  | cons op ops ih =>
    simp only [TxState.run]
    apply ih
    · have h0 := hr op (by simp)
      cases op <;> simp_all [TxState.step, TxState.addTxId, TxState.store, TxState.removeTxId, Releases] <;>
        split <;> simp_all
      exact fun h => hr.1 h.symm
    · exact fun o ho => hr o (by simp [ho])

/-- C04: after an accepted opening call, in every continuation without a release of the identifier each
further opening call with the same identifier raises `TransactionIdInUse` and changes nothing. -/
theorem C04_no_replay (s : TxState C) (op op' : TxOp C) (ops : List (TxOp C)) (tx : Bytes)
    (hop : Opens tx op = true) (hok : Res.isOk (s.step op) = true)
    (hr : ∀ o ∈ ops, Releases tx o = false) (hop' : Opens tx op' = true) :
    let s' := ((s.step op).2.run ops).2
    s'.step op' = (.error .transactionIdInUse, s') := by
  intro s'
  apply (C04_open_decision s' op' tx hop').1
  apply used_run _ _ _ _ hr
  by_cases h : tx ∈ s.used
  · rw [(C04_open_decision s op tx hop).1 h] at hok; simp [Res.isOk] at hok
  · exact ((C04_open_decision s op tx hop).2 h).2

/-- 1 if the identifier is in use, else 0. -/
def TxState.inUse (s : TxState C) (tx : Bytes) : Nat := if tx ∈ s.used then 1 else 0

/-- The accounting equation for one call. -/
theorem accounting_step (s : TxState C) (op : TxOp C) (tx : Bytes) :
    (if Opens tx op && Res.isOk (s.step op) then 1 else 0) + s.inUse tx =
    (if Releases tx op && Res.isOk (s.step op) then 1 else 0) +
      (s.step op).2.inUse tx := by
  cases op with
  | add t =>
    by_cases h1 : t ∈ s.used <;> by_cases h2 : t = tx <;>
      simp_all [TxState.step, TxState.addTxId, Opens, Releases, Res.isOk, TxState.inUse]
    have h3 : ¬ tx = t := fun h => h2 h.symm
    split <;> split <;> simp_all
  | store t snd cs =>
    by_cases h1 : t ∈ s.used <;> by_cases h2 : t = tx <;>
      simp_all [TxState.step, TxState.store, Opens, Releases, Res.isOk, TxState.inUse]
    have h3 : ¬ tx = t := fun h => h2 h.symm
    split <;> split <;> simp_all
  | remove t =>
    by_cases h1 : t ∈ s.used <;> by_cases h2 : t = tx <;>
      simp_all [TxState.step, TxState.removeTxId, Opens, Releases, Res.isOk, TxState.inUse]
    have h3 : ¬ tx = t := fun h => h2 h.symm
    split <;> split <;> simp_all

/-- C04 (accounting form, for every history): the number of accepted openings of `tx` plus its initial
use equals the number of successful releases plus its final use; in particular between two accepted
openings there is a successful release. -/
theorem C04_accounting (s : TxState C) (ops : List (TxOp C)) (tx : Bytes) :
    countOk (Opens tx) ops (s.run ops).1 + s.inUse tx =
    countOk (Releases tx) ops (s.run ops).1 + (s.run ops).2.inUse tx := by
  induction ops generalizing s with
  | nil => simp [TxState.run, countOk]
  | cons op ops ih =>
    simp only [TxState.run, countOk]
    have h1 := ih (s.step op).2
    have h2 := accounting_step s op tx
    omega

/-- C04: from a state where `tx` is free, at most one opening more than releases is ever accepted. -/
theorem C04_accepted_once (s : TxState C) (ops : List (TxOp C)) (tx : Bytes) (h0 : tx ∉ s.used)
    (hr : ∀ o ∈ ops, Releases tx o = false) : countOk (Opens tx) ops (s.run ops).1 ≤ 1 := by
  have h := C04_accounting s ops tx
  have h2 : countOk (Releases tx) ops (s.run ops).1 = 0 := by
    generalize (s.run ops).1 = oks
    clear h
    induction ops generalizing oks with
    | nil => cases oks <;> simp [countOk]
    | cons o ops ih =>
      cases oks with
      | nil => simp [countOk]
      | cons b oks =>
        simp only [countOk, hr o (by simp), Bool.false_and]
        simpa using ih (fun o ho => hr o (by simp [ho])) oks
  rw [h2] at h
  simp only [TxState.inUse, h0, if_false] at h
  split at h <;> omega

/-- C04: certificates stored for a transaction stay retrievable, unchanged, in every continuation that
does not release the identifier (whatever other transactions do). -/
theorem C04_certs_kept (s : TxState C) (tx snd : Bytes) (cs : List C) (ops : List (TxOp C))
    (hok : Res.isOk (s.store tx snd cs) = true) (hr : ∀ o ∈ ops, Releases tx o = false) :
    ((s.store tx snd cs).2.run ops).2.getIssued tx snd = .ok cs := by
  have key : ∀ (s : TxState C), tx ∈ s.used → s.certs.get (tx, snd) = some cs →
      (s.run ops).2.certs.get (tx, snd) = some cs := by
    clear hok
    induction ops with
    | nil => intro s _ h; exact h
    | cons o ops ih =>
      intro s hu hg
      simp only [TxState.run]
      have hu' : tx ∈ (s.step o).2.used := by
        have := used_run s [o] tx hu (by simpa using hr o (by simp))
        simpa [TxState.run] using this
      apply ih (fun o ho => hr o (by simp [ho])) _ hu'
      cases o with
      | add t => simp only [TxState.step, TxState.addTxId]; split <;> exact hg
      | remove t => simp only [TxState.step, TxState.removeTxId]; split <;> exact hg
      | store t sd c =>
        simp only [TxState.step, TxState.store]
        split
        · exact hg
        · rename_i hn
          simp only
          rw [Dict.get_set_ne]
          · exact hg
          · intro he; simp only [Prod.mk.injEq] at he; exact hn (he.1 ▸ hu)
  have hn : tx ∉ s.used := by
    intro h; simp [TxState.store, h, Res.isOk] at hok
  have : (s.store tx snd cs).2 = { used := tx :: s.used, certs := s.certs.set (tx, snd) cs } := by
    simp [TxState.store, hn]
  rw [TxState.getIssued, key _ (by simp [this]) (by simp [this, Dict.get_set_self])]

/-- C04 (sharpness): after a release the identifier can be taken again, and the new transaction of the
same sender then replaces the old certificates. -/
theorem C04_release_then_reuse (s : TxState C) (tx snd : Bytes) (cs : List C) (h : tx ∈ s.used) :
    let s' := (s.removeTxId tx).2
    Res.isOk (s'.store tx snd cs) = true ∧ (s'.store tx snd cs).2.getIssued tx snd = .ok cs := by
  simp [TxState.removeTxId, h, TxState.store, Res.isOk, TxState.getIssued, Dict.get_set_self]

/-- A concrete history: the second store with the same identifier is refused, the third (other sender) too. -/
example : ((({} : TxState Nat).run [.store [1] [9] [5], .add [2], .store [1] [8] [6], .remove [1],
    .store [1] [8] [6]]).1) = [true, true, false, true, true] := by decide

/-- The hypotheses of `C04_no_replay` are satisfiable. -/
example : Opens [1] (TxOp.store [1] [9] [5] : TxOp Nat) = true ∧
    Res.isOk (({} : TxState Nat).step (.store [1] [9] [5])) = true ∧
    (∀ o ∈ [(TxOp.add [2] : TxOp Nat), .remove [2]], Releases [1] o = false) := by decide

end Verif.CA
