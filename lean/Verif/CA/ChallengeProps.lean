import Verif.CA.Challenge

/-! # C09: a challenge can be answered once, only in its own transaction -/

namespace Verif.CA

variable {T : Type}

/-- Independent specification: a trace is fair for key `(num, tx)` when every acceptance is preceded by an
issue that has not been accepted yet. `open_` says whether a challenge is outstanding at the start. -/
def FairFor (num : Int) (tx : Bytes) : Bool → List ChalEvent → Prop
  | _, [] => True
  | o, .issued n t :: es => FairFor num tx (o || (n = num && t = tx)) es
  | o, .accepted n t :: es =>
    if n = num ∧ t = tx then o = true ∧ FairFor num tx false es else FairFor num tx o es

/-- Is a challenge outstanding in the state? -/
def Outstanding (s : ChalState T) (num : Int) (tx : Bytes) : Bool := (s.get (num, tx)).isSome

/-- What the answer loop does to one key: it consumes exactly outstanding numbers. -/
theorem loop_fair (certOk : T → Bool) (tx : Bytes) (num : Int) (tx' : Bytes) (ns : List Int) (s : ChalState T)
    (es : List ChalEvent)
    (h : FairFor num tx' (Outstanding (chalLoop certOk tx s ns).2.2 num tx') es) :
    FairFor num tx' (Outstanding s num tx') ((chalLoop certOk tx s ns).1.map (ChalEvent.accepted · tx) ++ es) := by
  induction ns generalizing s with
  | nil => exact h
  | cons n ns ih =>
    simp only [chalLoop] at h ⊢
    cases hg : s.get (n, tx) with
    | none => simpa [hg] using h
    | some out =>
      simp only [hg] at h ⊢
      by_cases hc : certOk out.1 = false
      · simpa [hc] using h
      · simp only [if_neg hc] at h ⊢
        have key : FairFor num tx' (Outstanding s num tx')
            (ChalEvent.accepted n tx ::
              ((chalLoop certOk tx (s.erase (n, tx)) ns).1.map (ChalEvent.accepted · tx) ++ es)) := by
          have h2 : FairFor num tx' (Outstanding (chalLoop certOk tx (s.erase (n, tx)) ns).2.2 num tx') es := by
            cases hr : (chalLoop certOk tx (s.erase (n, tx)) ns).2.1 <;> simpa [hr] using h
          have h3 := ih _ h2
          simp only [FairFor]
          split
          · rename_i hk
            refine ⟨by simp [Outstanding, ← hk.1, ← hk.2, hg], ?_⟩
            have : Outstanding (s.erase (n, tx)) num tx' = false := by
              simp [Outstanding, Dict.get_erase, hk.1, hk.2]
            rwa [this] at h3
          · rename_i hk
            have : Outstanding (s.erase (n, tx)) num tx' = Outstanding s num tx' := by
              simp only [Outstanding, Dict.get_erase]
              rw [if_neg]
              rintro he
              simp only [Prod.mk.injEq] at he
              exact hk ⟨he.1.symm, he.2.symm⟩
            rwa [this] at h3
        cases hr : (chalLoop certOk tx (s.erase (n, tx)) ns).2.1 <;> simpa using key

theorem answer_state (certOk : T → Bool) (s : ChalState T) (tx : Bytes) (nums : List Int) :
    (chalAnswer certOk s tx nums).1 = (chalLoop certOk tx s nums).1 ∧
    (chalAnswer certOk s tx nums).2.2 = (chalLoop certOk tx s nums).2.2 := by
  unfold chalAnswer
  simp only
  split
  · exact ⟨rfl, rfl⟩
  · exact ⟨rfl, rfl⟩
  · split <;> exact ⟨rfl, rfl⟩

theorem issue_outstanding (s : ChalState T) (num : Int) (tx : Bytes) (v : T × String) (num' : Int) (tx' : Bytes) :
    Outstanding (s.set (num, tx) v) num' tx' = (Outstanding s num' tx' || (num = num' && tx = tx')) := by
  simp only [Outstanding, Dict.get_set]
  split
  · rename_i h; simp only [Prod.mk.injEq] at h; simp [h.1, h.2]
  · rename_i h
    have : (decide (num = num') && decide (tx = tx')) = false := by
      rw [← Bool.not_eq_true]; intro hh
      simp only [Bool.and_eq_true, decide_eq_true_eq] at hh
      exact h (by rw [hh.1, hh.2])
    simp [this]

theorem step_fair (certOk : T → Bool) (s : ChalState T) (op : ChalOp T) (num : Int) (tx : Bytes)
    (es : List ChalEvent) (h : FairFor num tx (Outstanding (chalStep certOk s op).2 num tx) es) :
    FairFor num tx (Outstanding s num tx) ((chalStep certOk s op).1 ++ es) := by
  cases op with
  | request pv mac n t tmpl body ok =>
    simp only [chalStep] at h ⊢
    split at h
    · rename_i hb
      rw [if_pos hb]
      unfold chalIssue at h ⊢
      by_cases h1 : pv = 3 ∧ mac = true
      · simpa [h1, Res.isOk] using h
      · by_cases h2 : ok = false
        · simp only [if_neg h1, if_pos h2] at h ⊢
          simpa [Res.isOk] using h
        · simp only [if_neg h1, if_neg h2] at h ⊢
          simp only [Res.isOk, if_true, List.singleton_append, FairFor]
          rwa [issue_outstanding] at h
    · rename_i hb; rw [if_neg hb]; exact h
  | answer t ns =>
    simp only [chalStep] at h ⊢
    obtain ⟨h1, h2⟩ := answer_state certOk s t ns
    rw [h1]; rw [h2] at h
    exact loop_fair certOk t num tx ns s es h

/-- C09: in every history of challenge requests and answers, every accepted answer `(number, transactionID)`
answers a challenge issued for exactly this number and transaction (or outstanding initially) that has not
been answered since - whatever else happens in between, in whatever order, in other transactions or in
failing messages. -/
theorem C09_fair (certOk : T → Bool) (ops : List (ChalOp T)) (s : ChalState T) (num : Int) (tx : Bytes) :
    FairFor num tx (Outstanding s num tx) (chalRun certOk s ops).1 := by
  induction ops generalizing s with
  | nil => exact trivial
  | cons op ops ih =>
    simp only [chalRun]
    exact step_fair certOk s op num tx _ (ih _)

/-- Occurrences of an event. -/
def occ (e : ChalEvent) : List ChalEvent → Nat
  | [] => 0
  | x :: xs => (if x = e then 1 else 0) + occ e xs

/-- Fairness implies counting: acceptances never outnumber issues (plus an initially outstanding one). -/
theorem fair_count (num : Int) (tx : Bytes) (es : List ChalEvent) (o : Bool) (h : FairFor num tx o es) :
    occ (.accepted num tx) es ≤ occ (.issued num tx) es + (if o then 1 else 0) := by
  induction es generalizing o with
  | nil => simp [occ]
  | cons e es ih =>
    cases e with
    | issued n t =>
      have h1 := ih _ h
      simp only [occ]
      by_cases hk : n = num ∧ t = tx
      · simp only [hk.1, hk.2, if_true, decide_true, Bool.and_self, Bool.or_true] at h1 ⊢
        simp; cases o <;> simp <;> omega
      · have : (decide (n = num) && decide (t = tx)) = false := by
          rw [← Bool.not_eq_true]; simpa using hk
        simp only [this, Bool.or_false] at h1
        rw [if_neg (by simp), if_neg (by simpa using hk)]
        omega
    | accepted n t =>
      simp only [FairFor] at h
      simp only [occ]
      split at h
      · rename_i hk
        obtain ⟨h0, h1⟩ := h
        have h2 := ih _ h1
        simp only [hk.1, hk.2, h0, if_true] at h2 ⊢
        simp at h2 ⊢; omega
      · rename_i hk
        have h2 := ih _ h
        rw [if_neg (by simpa using hk), if_neg (by simp)]
        omega

/-- C09 (replay): starting without an outstanding challenge, an answer is accepted at most as often as the
challenge was issued; issued once, it is accepted at most once. -/
theorem C09_at_most_issued (certOk : T → Bool) (ops : List (ChalOp T)) (s : ChalState T) (num : Int)
    (tx : Bytes) (h : s.get (num, tx) = none) :
    occ (.accepted num tx) (chalRun certOk s ops).1 ≤ occ (.issued num tx) (chalRun certOk s ops).1 := by
  have := fair_count num tx _ _ (C09_fair certOk ops s num tx)
  simpa [Outstanding, h] using this

/-- C09 (an answer that is not outstanding is refused and changes nothing when it comes first). -/
theorem C09_unknown_refused (certOk : T → Bool) (s : ChalState T) (tx : Bytes) (n : Int) (ns : List Int)
    (h : s.get (n, tx) = none) :
    chalAnswer certOk s tx (n :: ns) = ([], .error .badRequest, s) := by
  simp [chalAnswer, chalLoop, h]

/-- C09 (certificates only for answered challenges): when an answer message succeeds, every entry was
outstanding, all entries are distinct, the first was requested by an `ir`, and the certificates are built
from exactly the templates stored for them, in order. -/
theorem C09_success_sound (certOk : T → Bool) (s : ChalState T) (tx : Bytes) (nums : List Int) (ts : List T)
    (h : (chalAnswer certOk s tx nums).2.1 = .ok ts) :
    nums.Nodup ∧ nums ≠ [] ∧ (nums.map (fun n => (s.get (n, tx)).map (·.1))) = ts.map some ∧
    (∀ n ∈ nums, (chalAnswer certOk s tx nums).2.2.get (n, tx) = none) := by
  have key : ∀ (nums : List Int) (s : ChalState T) (l : List (T × String)),
      (chalLoop certOk tx s nums).2.1 = .ok l →
      nums.Nodup ∧ nums.map (fun n => s.get (n, tx)) = l.map some ∧
      (∀ k, (chalLoop certOk tx s nums).2.2.get k = if (∃ n ∈ nums, k = (n, tx)) then none else s.get k) := by
    intro nums
    induction nums with
    | nil => intro s l hl; simp [chalLoop] at hl; subst hl; simp [chalLoop]
    | cons n ns ih =>
      intro s l hl
      simp only [chalLoop] at hl ⊢
      cases hg : s.get (n, tx) with
      | none => simp [hg] at hl
      | some out =>
        simp only [hg] at hl ⊢
        by_cases hc : certOk out.1 = false
        · simp [hc] at hl
        · simp only [if_neg hc] at hl ⊢
          cases hr : (chalLoop certOk tx (s.erase (n, tx)) ns).2.1 with
          | error e => simp [hr] at hl
          | ok l' =>
            simp only [hr] at hl ⊢
            injection hl with hl; subst hl
            obtain ⟨h1, h2, h3⟩ := ih _ _ hr
            have hn : n ∉ ns := by
              intro hm
              have : (s.erase (n, tx)).get (n, tx) ∈ l'.map some := by
                rw [← h2]; exact List.mem_map.mpr ⟨n, hm, rfl⟩
              rw [Dict.get_erase] at this
              simp at this
            refine ⟨List.nodup_cons.mpr ⟨hn, h1⟩, ?_, ?_⟩
            · simp only [List.map_cons, hg, ← h2]
              congr 1
              apply List.map_congr_left
              intro m hm
              rw [Dict.get_erase, if_neg]
              intro he; simp only [Prod.mk.injEq, and_true] at he; exact hn (he ▸ hm)
            · intro k
              rw [h3 k, Dict.get_erase]
              by_cases hk : k = (n, tx)
              · subst hk; simp
              · simp [hk]
  unfold chalAnswer at h
  simp only at h
  cases hl : (chalLoop certOk tx s nums).2.1 with
  | error e => simp [hl] at h
  | ok l =>
    obtain ⟨h1, h2, h3⟩ := key nums s l hl
    cases l with
    | nil => simp [hl] at h
    | cons x xs =>
      simp only [hl] at h
      split at h
      · injection h with h; subst h
        refine ⟨h1, ?_, ?_, ?_⟩
        · intro hn; subst hn; simp at h2
        · have := congrArg (List.map (Option.map (fun p : T × String => p.1))) h2
          simpa [List.map_map, Function.comp_def] using this
        · intro n hn
          rw [(answer_state certOk s tx nums).2, h3, if_pos ⟨n, hn, rfl⟩]
      · simp at h

/-- A challenge requested by `cr` is answered with `NotImplementedError` although it is consumed. -/
theorem C09_cr_consumed_without_certificate (s : ChalState T) (tx : Bytes) (n : Int) (t : T) (certOk : T → Bool)
    (h : s.get (n, tx) = some (t, "cr")) (hc : certOk t = true) :
    (chalAnswer certOk s tx [n]).2.1 = .error .notImplemented ∧
    (chalAnswer certOk s tx [n]).2.2.get (n, tx) = none := by
  simp [chalAnswer, chalLoop, h, hc, Dict.get_erase]

/-- A history: issue in transaction 1, replay attempts there and in transaction 2. -/
example : (chalRun (fun (_ : Int) => true) [] [.request 2 false 77 [1] 5 "ir" true, .answer [2] [77],
    .answer [1] [77], .answer [1] [77]]).1 = [.issued 77 [1], .accepted 77 [1]] := by decide


/-- C09 (what is issued): a challenge is sent and remembered, with the template and the kind of the request, exactly for `ir` and `cr`
messages other than MAC-protected ones of version 3 for which a challenge can be built; any other request changes nothing. -/
theorem C09_issued_iff (certOk : T → Bool) (s : ChalState T) (pvno : Int) (mac : Bool) (num : Int) (tx : Bytes) (t : T) (body : String)
    (ok : Bool) :
    let r := chalStep certOk s (.request pvno mac num tx t body ok)
    ((body = "ir" ∨ body = "cr") ∧ ¬ (pvno = 3 ∧ mac = true) ∧ ok = true →
      r.1 = [.issued num tx] ∧ r.2.get (num, tx) = some (t, body) ∧ ∀ k, k ≠ (num, tx) → r.2.get k = s.get k) ∧
    (¬ ((body = "ir" ∨ body = "cr") ∧ ¬ (pvno = 3 ∧ mac = true) ∧ ok = true) → r = ([], s)) := by
  intro r
  constructor
  · rintro ⟨h1, h2, h3⟩
    have hi : chalIssue s pvno mac num tx t body ok = (.ok (), s.set (num, tx) (t, body)) := by
      unfold chalIssue
      rw [if_neg h2, if_neg (by simp [h3])]
    have hr : r = ([.issued num tx], s.set (num, tx) (t, body)) := by
      simp only [r, chalStep, hi, if_pos h1]
      rfl
    rw [hr]
    refine ⟨rfl, by simp [Dict.get_set], ?_⟩
    intro k hk
    simp only [Dict.get_set]
    rw [if_neg hk]
  · intro h
    by_cases h1 : body = "ir" ∨ body = "cr"
    · have hi : ∃ e, chalIssue s pvno mac num tx t body ok = (.error e, s) := by
        unfold chalIssue
        by_cases h2 : pvno = 3 ∧ mac = true
        · rw [if_pos h2]; exact ⟨_, rfl⟩
        · rw [if_neg h2, if_pos (by cases ok <;> simp_all)]; exact ⟨_, rfl⟩
      obtain ⟨e, hi⟩ := hi
      simp only [r, chalStep, hi, if_pos h1]
      rfl
    · simp only [r, chalStep, if_neg h1]

/-- The entries of an answer are outstanding, in this order, and certificates can be built for them. -/
theorem chalLoop_total (certOk : T → Bool) (tx : Bytes) (nums : List Int) (s : ChalState T) (hn : nums.Nodup)
    (h : ∀ n ∈ nums, ∃ o, s.get (n, tx) = some o ∧ certOk o.1 = true) : ∃ l, (chalLoop certOk tx s nums).2.1 = .ok l ∧
      nums.map (fun n => s.get (n, tx)) = l.map some := by
  induction nums generalizing s with
  | nil => exact ⟨[], rfl, rfl⟩
  | cons n ns ih =>
    obtain ⟨o, h1, h2⟩ := h n (List.mem_cons_self ..)
    have hnn := List.nodup_cons.1 hn
    have he : ∀ m ∈ ns, (s.erase (n, tx)).get (m, tx) = s.get (m, tx) := by
      intro m hm
      rw [Dict.get_erase, if_neg]
      intro h
      cases h
      exact hnn.1 hm
    obtain ⟨l, e1, e2⟩ := ih (s.erase (n, tx)) hnn.2 (by
      intro m hm
      rw [he m hm]
      exact h m (List.mem_cons_of_mem _ hm))
    refine ⟨o :: l, ?_, ?_⟩
    · simp only [chalLoop, h1, h2]
      simp [e1]
    · rw [List.map_cons, List.map_cons, h1, ← e2]
      congr 1
      apply List.map_congr_left
      intro m hm
      rw [he m hm]

/-- C09 (complete): an answer message is accepted iff it names at least one challenge, none twice, all of them outstanding in this
transaction, the first one of an `ir`, and the certificates can be built. -/
theorem C09_accepted_iff (certOk : T → Bool) (s : ChalState T) (tx : Bytes) (nums : List Int) :
    (∃ ts, (chalAnswer certOk s tx nums).2.1 = .ok ts) ↔
      nums.Nodup ∧ (∀ n ∈ nums, ∃ o, s.get (n, tx) = some o ∧ certOk o.1 = true) ∧
      ∃ n t, nums.head? = some n ∧ s.get (n, tx) = some (t, "ir") := by
  have key : ∀ (nums : List Int) (s : ChalState T) (l : List (T × String)), (chalLoop certOk tx s nums).2.1 = .ok l →
      ∀ n ∈ nums, ∃ o, s.get (n, tx) = some o ∧ certOk o.1 = true := by
    intro nums
    induction nums with
    | nil => intro s l _ n hn; cases hn
    | cons n ns ih =>
      intro s l h m hm
      unfold chalLoop at h
      split at h
      · cases h
      · rename_i out ho
        split at h
        · cases h
        · rename_i hc
          have hc : certOk out.1 = true := by simpa using hc
          rcases List.mem_cons.1 hm with rfl | hm
          · exact ⟨out, ho, hc⟩
          · dsimp only at h
            cases hr : (chalLoop certOk tx (s.erase (n, tx)) ns).2.1 with
            | error e => rw [hr] at h; cases h
            | ok l' =>
              obtain ⟨o, h1, h2⟩ := ih _ _ hr m hm
              rw [Dict.get_erase] at h1
              split at h1
              · cases h1
              · exact ⟨o, h1, h2⟩
  constructor
  · rintro ⟨ts, h⟩
    obtain ⟨h1, h2, h3, _⟩ := C09_success_sound certOk s tx nums ts h
    unfold chalAnswer at h
    dsimp only at h
    cases hr : (chalLoop certOk tx s nums).2.1 with
    | error e => rw [hr] at h; cases h
    | ok l =>
      have ha := key nums s l hr
      refine ⟨h1, ha, ?_⟩
      obtain ⟨l', e1, e2⟩ := chalLoop_total certOk tx nums s h1 ha
      rw [hr] at e1
      cases e1
      rw [hr] at h
      cases l with
      | nil => cases h
      | cons x xs =>
        dsimp only at h
        split at h
        · rename_i hx
          cases nums with
          | nil => cases e2
          | cons n ns =>
            simp only [List.map_cons, List.cons.injEq] at e2
            exact ⟨n, x.1, rfl, by rw [e2.1, ← hx]⟩
        · cases h
  · rintro ⟨h1, h2, n, t, h3, h4⟩
    obtain ⟨l, e1, e2⟩ := chalLoop_total certOk tx nums s h1 h2
    unfold chalAnswer
    dsimp only
    rw [e1]
    cases nums with
    | nil => cases h3
    | cons m ms =>
      cases h3
      cases l with
      | nil => cases e2
      | cons x xs =>
        simp only [List.map_cons, List.cons.injEq, h4, Option.some.injEq] at e2
        dsimp only
        rw [if_pos (by rw [← e2.1])]
        exact ⟨_, rfl⟩

example : (chalAnswer (fun (_ : Int) => true) [((77, [1]), (5, "ir")), ((78, [1]), (6, "cr"))] [1] [77, 78]).2.1 = .ok [5, 6] ∧
    (chalAnswer (fun (_ : Int) => true) [((77, [1]), (5, "ir")), ((78, [1]), (6, "cr"))] [1] [78, 77]).2.1 = .error .notImplemented := by
  decide

end Verif.CA
