import Verif.CA.KemList

/-! # C07: a KEM shared secret protects one request -/

namespace Verif.CA

variable {S : Type}

/-- Specification predicate: the secret that would be used for `tx` has been spent. -/
def Spent (l : List (KemEntry S)) (tx : Bytes) : Prop :=
  ∃ pre e post, l = pre ++ e :: post ∧ (∀ x ∈ pre, x.tx ≠ tx) ∧ e.tx = tx ∧ e.used = true

/-- The call drops secrets of `tx`. -/
def Drops (tx : Bytes) : KemOp S → Bool
  | .remove t => t = tx
  | _ => false

/-- The call is a request (not a confirmation) in transaction `tx`. -/
def IsRequest (tx : Bytes) : KemOp S → Bool
  | .request t body _ _ => t = tx && body ≠ "certConf"
  | _ => false

theorem kemFind_append (pre : List (KemEntry S)) (l : List (KemEntry S)) (tx : Bytes)
    (h : ∀ x ∈ pre, x.tx ≠ tx) : kemFind (pre ++ l) tx = kemFind l tx := by
  induction pre with
  | nil => rfl
  | cons a pre ih =>
    have h1 := h a (by simp)
    simp only [List.cons_append, kemFind]
    rw [if_neg (fun hh => h1 hh.symm)]
    exact ih (fun x hx => h x (by simp [hx]))

theorem kemFind_of_spent {l : List (KemEntry S)} {tx : Bytes} (h : Spent l tx) :
    ∃ e, kemFind l tx = some e ∧ e.used = true := by
  obtain ⟨pre, e, post, rfl, h1, h2, h3⟩ := h
  exact ⟨e, by rw [kemFind_append _ _ _ h1]; simp [kemFind, h2], h3⟩

theorem spent_of_find {l : List (KemEntry S)} {tx : Bytes} {e : KemEntry S} (h : kemFind l tx = some e)
    (hu : e.used = true) : Spent l tx := by
  induction l with
  | nil => simp [kemFind] at h
  | cons a l ih =>
    simp only [kemFind] at h
    split at h
    · rename_i ha
      refine ⟨[], a, l, rfl, by simp, ha.symm, ?_⟩
      injection h with h; subst h; exact hu
    · rename_i ha
      obtain ⟨pre, x, post, rfl, h1, h2, h3⟩ := ih h
      exact ⟨a :: pre, x, post, rfl, by simpa using ⟨fun hh => ha hh.symm, h1⟩, h2, h3⟩

/-- What a spent secret means for verification: everything except `certConf` is refused. -/
theorem spent_rejects {l : List (KemEntry S)} {tx : Bytes} (h : Spent l tx) (body : String)
    (mac : S → Bool) (hb : body ≠ "certConf") : kemVerify l tx body mac = .error .badMessageCheck := by
  obtain ⟨e, he, hu⟩ := kemFind_of_spent h
  simp [kemVerify, he, hb, hu]

theorem find_update (l : List (KemEntry S)) (tx tx' : Bytes) :
    kemFind (kemUpdate l tx') tx =
      (kemFind l tx).map (fun e => if tx' = e.tx then { e with used := true } else e) := by
  induction l with
  | nil => rfl
  | cons a l ih =>
    have ht : (if tx' = a.tx then { a with used := true } else a).tx = a.tx := by split <;> rfl
    simp only [kemUpdate, List.map_cons, kemFind, ht]
    split
    · rfl
    · exact ih

theorem find_tx {l : List (KemEntry S)} {tx : Bytes} {e : KemEntry S} (h : kemFind l tx = some e) :
    e.tx = tx := by
  induction l with
  | nil => simp [kemFind] at h
  | cons a l ih =>
    simp only [kemFind] at h
    split at h
    · rename_i ha; injection h with h; subst h; exact ha.symm
    · exact ih h

/-- Marking a known transaction spends its secret. -/
theorem spent_update {l : List (KemEntry S)} {tx : Bytes} {e : KemEntry S} (h : kemFind l tx = some e) :
    Spent (kemUpdate l tx) tx := by
  have hf := find_update l tx tx
  rw [h] at hf
  simp only [Option.map_some, find_tx h, if_true] at hf
  exact spent_of_find hf rfl

theorem spent_update_keep {l : List (KemEntry S)} {tx : Bytes} (tx' : Bytes) (h : Spent l tx) :
    Spent (kemUpdate l tx') tx := by
  obtain ⟨e, he, hu⟩ := kemFind_of_spent h
  have hf := find_update l tx tx'
  rw [he] at hf
  simp only [Option.map_some] at hf
  apply spent_of_find hf
  split <;> simp [hu]

theorem spent_add {l : List (KemEntry S)} {tx : Bytes} (tx' : Bytes) (ss : S) (h : Spent l tx) :
    Spent (kemAdd l tx' ss) tx := by
  obtain ⟨pre, e, post, rfl, h1, h2, h3⟩ := h
  exact ⟨pre, e, post ++ [{ ss := ss, tx := tx' }], by simp [kemAdd], h1, h2, h3⟩

theorem find_remove_ne (l : List (KemEntry S)) {tx tx' : Bytes} (h : tx' ≠ tx) :
    kemFind (kemRemove l tx') tx = kemFind l tx := by
  induction l with
  | nil => rfl
  | cons a l ih =>
    simp only [kemRemove]
    split
    · rename_i ha; simp only [kemFind]; rw [if_neg]; intro hh; exact h (ha.trans hh.symm)
    · simp only [kemFind, ih]

theorem spent_step {l : List (KemEntry S)} {tx : Bytes} (op : KemOp S) (h : Spent l tx)
    (hd : Drops tx op = false) : Spent (kemStep l op).2 tx := by
  cases op with
  | add t ss => exact spent_add _ _ h
  | remove t =>
    simp only [Drops, decide_eq_false_iff_not] at hd
    obtain ⟨e, he, hu⟩ := kemFind_of_spent h
    exact spent_of_find (by rw [kemStep, find_remove_ne _ hd]; exact he) hu
  | request t b m hdl =>
    simp only [kemStep]
    split
    · exact h
    · split
      · exact spent_update_keep _ h
      · exact h

/-- C07: once the secret of a transaction is marked used, every further KEM protected message of that
transaction other than `certConf` is refused, whatever is added, updated or requested in between and
whatever the MAC verdict is (no secret of this transaction being dropped). -/
theorem C07_used_secret_refused (l : List (KemEntry S)) (tx : Bytes) (ops : List (KemOp S))
    (hk : (kemFind l tx).isSome = true) (hd : ∀ op ∈ ops, Drops tx op = false)
    (body : String) (mac : S → Bool) (hb : body ≠ "certConf") :
    kemVerify (kemRun (kemUpdate l tx) ops).2 tx body mac = .error .badMessageCheck := by
  obtain ⟨e, he⟩ := Option.isSome_iff_exists.mp hk
  have hs := spent_update he
  apply spent_rejects _ _ _ hb
  generalize kemUpdate l tx = l' at hs
  induction ops generalizing l' with
  | nil => exact hs
  | cons op ops ih =>
    exact ih (fun o ho => hd o (by simp [ho])) _ (spent_step op hs (hd op (by simp)))

/-- Number of positions where the operation satisfies `p` and the flag is set. -/
def countFlag (p : KemOp S → Bool) : List (KemOp S) → List Bool → Nat
  | op :: ops, b :: bs => (if p op && b then 1 else 0) + countFlag p ops bs
  | _, _ => 0

theorem spent_no_accept {tx : Bytes} (ops : List (KemOp S)) (l : List (KemEntry S)) (hs : Spent l tx)
    (hd : ∀ op ∈ ops, Drops tx op = false) : countFlag (IsRequest tx) ops (kemRun l ops).1 = 0 := by
  induction ops generalizing l with
  | nil => rfl
  | cons op ops ih =>
    simp only [kemRun, countFlag]
    rw [ih _ (spent_step op hs (hd op (by simp))) (fun o ho => hd o (by simp [ho]))]
    cases op with
    | add => simp [IsRequest]
    | remove => simp [IsRequest]
    | request t b m hdl =>
      by_cases ht : t = tx
      · by_cases hb : b = "certConf"
        · simp [IsRequest, hb]
        · simp [kemStep, ht, spent_rejects hs b m hb]
      · simp [IsRequest, ht]

/-- C07 (history form): in every history of the CA that drops no secret of `tx`, at most one KEM protected
request of transaction `tx` (certConf messages not counted) is verified and handled - from any initial
list, with any number of secrets registered for the same transaction. -/
theorem C07_at_most_one_request (l : List (KemEntry S)) (tx : Bytes) (ops : List (KemOp S))
    (hd : ∀ op ∈ ops, Drops tx op = false) : countFlag (IsRequest tx) ops (kemRun l ops).1 ≤ 1 := by
  induction ops generalizing l with
  | nil => simp [kemRun, countFlag]
  | cons op ops ih =>
    simp only [kemRun, countFlag]
    have hd' : ∀ o ∈ ops, Drops tx o = false := fun o ho => hd o (by simp [ho])
    by_cases hacc : (IsRequest tx op && (kemStep l op).1) = true
    · cases op with
      | add => simp [IsRequest] at hacc
      | remove => simp [IsRequest] at hacc
      | request t b m hdl =>
        simp only [IsRequest, Bool.and_eq_true, decide_eq_true_eq] at hacc
        obtain ⟨⟨rfl, hb⟩, h2⟩ := hacc
        have hs : Spent (kemStep l (.request t b m hdl)).2 t := by
          simp only [kemStep] at h2 ⊢
          cases hv : kemVerify l t b m with
          | error e => simp [hv] at h2
          | ok u =>
            simp only [hv] at h2 ⊢
            cases hdl
            · simp at h2
            · simp only [kemMayUpdate, if_true]
              cases hf : kemFind l t with
              | none => simp [kemVerify, hf] at hv
              | some e => exact spent_update hf
        rw [spent_no_accept ops _ hs hd']
        split <;> simp
    · have := ih (kemStep l op).2 hd'
      rw [if_neg hacc]; omega

/-- C07 (acceptance is sound): a message is only accepted when the MAC verifies under the first secret
registered for its transaction, and, unless it is a `certConf`, that secret was not used before. -/
theorem C07_accept_sound (l : List (KemEntry S)) (tx : Bytes) (body : String) (mac : S → Bool)
    (h : kemVerify l tx body mac = .ok ()) :
    ∃ pre e post, l = pre ++ e :: post ∧ (∀ x ∈ pre, x.tx ≠ tx) ∧ e.tx = tx ∧ mac e.ss = true ∧
      (body ≠ "certConf" → e.used = false) := by
  cases hf : kemFind l tx with
  | none => simp [kemVerify, hf] at h
  | some e =>
    have split : ∃ pre post, l = pre ++ e :: post ∧ ∀ x ∈ pre, x.tx ≠ tx := by
      clear h
      induction l with
      | nil => simp [kemFind] at hf
      | cons a l ih =>
        simp only [kemFind] at hf
        split at hf
        · injection hf with hf; subst hf; exact ⟨[], l, rfl, by simp⟩
        · rename_i ha
          obtain ⟨pre, post, rfl, h1⟩ := ih hf
          exact ⟨a :: pre, post, rfl, by simpa using ⟨fun hh => ha hh.symm, h1⟩⟩
    obtain ⟨pre, post, hl, hp⟩ := split
    refine ⟨pre, e, post, hl, hp, find_tx hf, ?_, ?_⟩
    · simp only [kemVerify, hf] at h
      split at h
      · split at h <;> simp_all
      · split at h
        · simp at h
        · split at h <;> simp_all
    · intro hb
      simp only [kemVerify, hf, if_neg hb] at h
      split at h <;> simp_all

/-- A history with two requests in one transaction, a second secret for it and a confirmation: only the
first request and the confirmation are accepted. -/
example : (kemRun ([] : List (KemEntry Nat)) [.add [1] 7, .request [1] "ir" (· == 7) true, .add [1] 8,
    .request [1] "cr" (fun _ => true) true, .request [1] "certConf" (· == 7) true,
    .request [1] "kur" (fun _ => true) true]).1 = [false, true, false, false, true, false] := by decide

/-- Without the side condition the guarantee is lost: dropping the spent secret makes a second one usable. -/
example : (kemRun ([] : List (KemEntry Nat)) [.add [1] 7, .request [1] "ir" (· == 7) true, .add [1] 8,
    .remove [1], .request [1] "cr" (· == 8) true]).1 = [false, true, false, false, true] := by decide

end Verif.CA
