import Verif.CA.CertDBLemmas

/-!
# Properties C01, C02, C03, C19, C20 and C85: the certificate database
-/

namespace Verif.CA

variable {C D R : Type}

/-! ## Specification vocabulary -/

/-- The documented life-cycle edges. `update`/`mayUpdate` are the edges of a key update. -/
inductive Edge : CertState → CertState → Prop
  | confirm : Edge .notConfirmed .confirmed
  | revokeConfirmed : Edge .confirmed .revoked
  | revokeRevived : Edge .revived .revoked
  | revive : Edge .revoked .revived
  | update (s : CertState) : Edge s .updated
  | mayUpdate (s : CertState) : Edge s .updatedNotConfirmed

/-- Finite paths along life-cycle edges. -/
inductive Path : CertState → CertState → Prop
  | refl (s : CertState) : Path s s
  | tail {a b c : CertState} : Path a b → Edge b c → Path a c

theorem Path.trans {a b c : CertState} (h1 : Path a b) (h2 : Path b c) : Path a c := by
  induction h2 with
  | refl => exact h1
  | tail _ e ih => exact .tail ih e

/-- Two entries are the same record up to its life-cycle data. -/
def SameRecord (e e' : Entry C D R) : Prop :=
  e'.cert = e.cert ∧ e'.digest = e.digest ∧ e'.issueDate = e.issueDate

/-! ## C01 -/

theorem changeEntry_edge (H : C → D) (e : Entry C D R) (ns rev upd now) :
    (changeEntry H e ns rev upd now).2.state = e.state ∨
      Edge e.state (changeEntry H e ns rev upd now).2.state := by
  cases hr : (changeEntry H e ns rev upd now).1 with
  | error x => left; rw [changeEntry_error hr]
  | ok u =>
    right
    rw [changeEntry_ok_state hr]
    revert hr
    unfold changeEntry
    repeat' split
    · simp
    · rename_i h1 h2
      intro _
      subst h1
      rcases Decidable.not_not.1 h2 with h | h <;> rw [h] <;> constructor
    · simp
    · rename_i h1 h2 h3
      intro _
      subst h2
      rw [Decidable.not_not.1 h3]; constructor
    · rename_i h3
      intro _
      rcases h3 with h | h <;> subst h <;> constructor
    · rename_i h4 h5
      intro _
      subst h4
      rw [h5]; constructor
    · simp
    · simp

/-- One call moves the state of every stored entry along at most one documented edge and keeps the
record itself. -/
theorem C01_step [DecidableEq D] (H : C → D) (db : DB C D R) (op : DBOp C R) (i : Nat) (e : Entry C D R)
    (hi : db.certs[i]? = some e) :
    ∃ e', (db.step H op).2.certs[i]? = some e' ∧ SameRecord e e' ∧
      (e'.state = e.state ∨ Edge e.state e'.state) := by
  cases op with
  | add c st now =>
    refine ⟨e, ?_, ⟨rfl, rfl, rfl⟩, .inl rfl⟩
    unfold DB.step DB.addCert
    simp only
    split
    · have hlt : i < db.certs.length := (List.getElem?_eq_some_iff.1 hi).1
      simp only [List.getElem?_append_left hlt]
      exact hi
    · exact hi
  | change c ns rev upd now =>
    rcases changeCertState_cases H db c ns rev upd now with
      ⟨_, h⟩ | ⟨_, ⟨_, h⟩ | ⟨pre, x, post, h1, _, _, _, h⟩⟩
    · exact ⟨e, by simp only [DB.step]; rw [h]; exact hi, ⟨rfl, rfl, rfl⟩, .inl rfl⟩
    · exact ⟨e, by simp only [DB.step]; rw [h]; exact hi, ⟨rfl, rfl, rfl⟩, .inl rfl⟩
    · simp only [DB.step]
      rw [h]
      rw [h1] at hi
      simp only
      by_cases hlt : i < pre.length
      · rw [List.getElem?_append_left hlt] at hi ⊢
        exact ⟨e, hi, ⟨rfl, rfl, rfl⟩, .inl rfl⟩
      · rw [List.getElem?_append_right (by omega)] at hi ⊢
        cases hk : i - pre.length with
        | zero =>
          rw [hk] at hi
          simp at hi
          subst hi
          refine ⟨_, by simp, changeEntry_frame x ns rev upd now, changeEntry_edge H x ns rev upd now⟩
        | succ k =>
          rw [hk] at hi
          simp at hi ⊢
          exact ⟨e, hi, ⟨rfl, rfl, rfl⟩, .inl rfl⟩

/-- **C01.** In every history of API calls each stored entry keeps its certificate and its state moves
only along documented edges. -/
theorem C01_transitions [DecidableEq D] (H : C → D) (ops : List (DBOp C R)) :
    ∀ (db : DB C D R) (i : Nat) (e : Entry C D R), db.certs[i]? = some e →
      ∃ e', (db.run H ops).certs[i]? = some e' ∧ SameRecord e e' ∧ Path e.state e'.state := by
  induction ops with
  | nil => intro db i e h; exact ⟨e, h, ⟨rfl, rfl, rfl⟩, .refl _⟩
  | cons op ops ih =>
    intro db i e h
    obtain ⟨e1, h1, hs1, hp1⟩ := C01_step H db op i e h
    obtain ⟨e2, h2, hs2, hp2⟩ := ih _ i e1 h1
    refine ⟨e2, h2, ?_, ?_⟩
    · exact ⟨hs2.1.trans hs1.1, hs2.2.1.trans hs1.2.1, hs2.2.2.trans hs1.2.2⟩
    · rcases hp1 with hp1 | hp1
      · rw [← hp1]; exact hp2
      · exact Path.trans (.tail (.refl _) hp1) hp2

/-- New entries appear only at the end, in state NOT_CONFIRMED or CONFIRMED, under their own digest. -/
theorem C01_new_entries [DecidableEq D] (H : C → D) (db : DB C D R) (op : DBOp C R) (i : Nat)
    (e : Entry C D R) (hi : (db.step H op).2.certs[i]? = some e) (hn : db.certs[i]? = none) :
    (e.state = .notConfirmed ∨ e.state = .confirmed) ∧ e.digest = H e.cert := by
  cases op with
  | add c st now =>
    unfold DB.step DB.addCert at hi
    simp only at hi
    split at hi
    · rename_i hst
      have hge : db.certs.length ≤ i := by simpa using hn
      simp only at hi
      rw [List.getElem?_append_right hge] at hi
      cases hk : i - db.certs.length with
      | zero => rw [hk] at hi; simp at hi; subst hi; exact ⟨hst, rfl⟩
      | succ k => rw [hk] at hi; simp at hi
    · rw [hn] at hi; cases hi
  | change c ns rev upd now =>
    exfalso
    rcases changeCertState_cases H db c ns rev upd now with
      ⟨_, h⟩ | ⟨_, ⟨_, h⟩ | ⟨pre, x, post, h1, _, _, _, h⟩⟩
    · simp only [DB.step] at hi; rw [h] at hi; rw [hn] at hi; cases hi
    · simp only [DB.step] at hi; rw [h] at hi; rw [hn] at hi; cases hi
    · simp only [DB.step] at hi
      rw [h] at hi
      have hlt := (List.getElem?_eq_some_iff.1 hi).1
      have hge : db.certs.length ≤ i := by simpa using hn
      rw [h1] at hge
      simp at hlt hge
      omega

/-- `change_cert_state(cert, REVOKED)` succeeds exactly for certificates in state CONFIRMED or REVIVED. -/
theorem C01_revoke_iff [DecidableEq D] (H : C → D) (db : DB C D R) (c : C) (rev upd now) :
    (db.changeCertState H c .revoked rev upd now).1 = .ok () ↔
      (db.getCertState H c = .confirmed ∨ db.getCertState H c = .revived) := by
  rcases changeCertState_cases H db c .revoked rev upd now with
    ⟨h, _⟩ | ⟨_, ⟨hf, h⟩ | ⟨pre, x, post, _, _, _, hf, h⟩⟩
  · exact absurd (by simp) h
  · rw [h]; simp [DB.getCertState, hf]
  · rw [h]; simp only [DB.getCertState, hf, changeEntry]
    cases hx : x.state <;> simp

/-- `change_cert_state(cert, REVIVED)` succeeds exactly for certificates in state REVOKED. -/
theorem C01_revive_iff [DecidableEq D] (H : C → D) (db : DB C D R) (c : C) (rev upd now) :
    (db.changeCertState H c .revived rev upd now).1 = .ok () ↔ db.getCertState H c = .revoked := by
  rcases changeCertState_cases H db c .revived rev upd now with
    ⟨h, _⟩ | ⟨_, ⟨hf, h⟩ | ⟨pre, x, post, _, _, _, hf, h⟩⟩
  · exact absurd (by simp) h
  · rw [h]; simp [DB.getCertState, hf]
  · rw [h]; simp only [DB.getCertState, hf, changeEntry]
    cases hx : x.state <;> simp

/-- `change_cert_state(cert, CONFIRMED)` succeeds exactly for certificates in state NOT_CONFIRMED. -/
theorem C01_confirm_iff [DecidableEq D] (H : C → D) (db : DB C D R) (c : C) (rev upd now) :
    (db.changeCertState H c .confirmed rev upd now).1 = .ok () ↔ db.getCertState H c = .notConfirmed := by
  rcases changeCertState_cases H db c .confirmed rev upd now with
    ⟨h, _⟩ | ⟨_, ⟨hf, h⟩ | ⟨pre, x, post, _, _, _, hf, h⟩⟩
  · exact absurd (by simp) h
  · rw [h]; simp [DB.getCertState, hf]
  · rw [h]; simp only [DB.getCertState, hf, changeEntry]
    cases hx : x.state <;> simp

/-- A certificate can never be put back to NOT_CONFIRMED or UNKNOWN by a state change. -/
theorem C01_never_reset [DecidableEq D] (H : C → D) (db : DB C D R) (c : C) (ns rev upd now)
    (h : ns = .notConfirmed ∨ ns = .unknown) :
    db.changeCertState H c ns rev upd now = (.error .valueError, db) := by
  rcases h with rfl | rfl <;> simp [DB.changeCertState]

/-- Non-trivial instance: confirm, revoke, revive and revoke again, then try to confirm. -/
example :
    let H : Nat → Nat := id
    let db : DB Nat Nat Nat := {}
    let ops : List (DBOp Nat Nat) :=
      [.add 7 .notConfirmed 0, .change 7 .confirmed none none 0, .change 7 .revoked none none 0,
       .change 7 .revived none none 0, .change 7 .revoked none none 0, .change 7 .confirmed none none 0]
    (db.run H ops).getCertState H 7 = .revoked := by decide

/-! ## C03 -/

/-- **C03.** A call that raises leaves the database unchanged. -/
theorem C03_failed_call_unchanged [DecidableEq D] (H : C → D) (db : DB C D R) (op : DBOp C R) (x : PyErr)
    (h : (db.step H op).1 = .error x) : (db.step H op).2 = db := by
  cases op with
  | add c st now =>
    revert h
    unfold DB.step DB.addCert
    simp only
    split <;> simp
  | change c ns rev upd now =>
    simp only [DB.step] at h ⊢
    rcases changeCertState_cases H db c ns rev upd now with
      ⟨_, h'⟩ | ⟨_, ⟨_, h'⟩ | ⟨pre, e, post, h1, _, _, _, h'⟩⟩
    · rw [h']
    · rw [h']
    · rw [h'] at h ⊢
      simp only at h ⊢
      rw [changeEntry_error h, ← h1]

/-- **C03.** A successful change touches exactly the first entry with the digest and puts it into the
requested state; all other entries are the identical records at the identical positions. -/
theorem C03_change_local [DecidableEq D] (H : C → D) (db : DB C D R) (c : C) (ns rev upd now)
    (h : (db.changeCertState H c ns rev upd now).1 = .ok ()) :
    ∃ pre e e' post, db.certs = pre ++ e :: post ∧ (∀ x ∈ pre, x.digest ≠ H c) ∧ e.digest = H c ∧
      (db.changeCertState H c ns rev upd now).2 = { db with certs := pre ++ e' :: post } ∧
      SameRecord e e' ∧ e'.state = ns := by
  rcases changeCertState_cases H db c ns rev upd now with
    ⟨_, h'⟩ | ⟨_, ⟨_, h'⟩ | ⟨pre, e, post, h1, h2, h3, _, h'⟩⟩
  · rw [h'] at h; cases h
  · rw [h'] at h; cases h
  · rw [h'] at h
    refine ⟨pre, e, _, post, h1, fun x hx => (h2 x hx).symm, h3.symm, by rw [h'], ?_, ?_⟩
    · exact changeEntry_frame e ns rev upd now
    · exact changeEntry_ok_state h

/-- **C03.** After a successful change `get_cert_state` reports the requested state. -/
theorem C03_change_observed [DecidableEq D] (H : C → D) (db : DB C D R) (c : C) (ns rev upd now)
    (h : (db.changeCertState H c ns rev upd now).1 = .ok ()) :
    (db.changeCertState H c ns rev upd now).2.getCertState H c = ns := by
  obtain ⟨pre, e, e', post, h1, h2, h3, h4, h5, h6⟩ := C03_change_local H db c ns rev upd now h
  rw [h4]
  unfold DB.getCertState
  simp only
  rw [findDigest_append (fun x hx => (h2 x hx).symm) (by rw [h5.2.1, h3])]
  exact h6

theorem findDigest_replace [DecidableEq D] {d : D} {pre post : List (Entry C D R)} {e e'}
    (he : d ≠ e.digest) (he' : d ≠ e'.digest) :
    findDigest d (pre ++ e :: post) = findDigest d (pre ++ e' :: post) := by
  induction pre with
  | nil => simp [findDigest, he, he']
  | cons x pre ih =>
    by_cases hx : d = x.digest
    · simp [findDigest, hx]
    · simp [findDigest, hx, ih]

/-- **C03.** A state change of one certificate is invisible for every certificate with another digest. -/
theorem C03_frame [DecidableEq D] (H : C → D) (db : DB C D R) (c c' : C) (ns rev upd now)
    (hne : H c' ≠ H c) :
    (db.changeCertState H c ns rev upd now).2.getCert H c' = db.getCert H c' := by
  rcases changeCertState_cases H db c ns rev upd now with
    ⟨_, h'⟩ | ⟨_, ⟨_, h'⟩ | ⟨pre, e, post, h1, _, h3, _, h'⟩⟩
  · rw [h']
  · rw [h']
  · rw [h']
    unfold DB.getCert
    simp only
    rw [h1]
    refine (findDigest_replace (by rw [← h3]; exact hne) ?_).symm
    rw [(changeEntry_frame e ns rev upd now).2.1, ← h3]
    exact hne

/-- Non-trivial instance with a duplicate entry: only the first one is changed. -/
example :
    let H : Nat → Nat := id
    let db : DB Nat Nat Nat := {}
    let ops : List (DBOp Nat Nat) :=
      [.add 1 .confirmed 0, .add 7 .confirmed 0, .add 7 .confirmed 0, .change 7 .revoked (some 3) none 0]
    (db.run H ops).certs.map (·.state) = [.confirmed, .revoked, .confirmed] := by decide

/-! ## C02 -/

/-- **C02 is false of the code**: a revoked certificate leaves the revocation list through a key update
(`change_cert_state(cert, UPDATED, updated_cert=...)`), without any revival. -/
theorem C02_refuted :
    ∃ (H : Nat → Nat) (db : DB Nat Nat Nat) (ops : List (DBOp Nat Nat)),
      db.getCertState H 7 = .revoked ∧ 7 ∈ db.revokedCerts ∧
      (∀ op ∈ ops, ∀ c rev upd now, op ≠ .change c .revived rev upd now) ∧
      7 ∉ (db.run H ops).revokedCerts := by
  refine ⟨id, ({} : DB Nat Nat Nat).run id [.add 7 .confirmed 0, .change 7 .revoked none none 0],
    [.change 7 .updated none (some 8) 0], by decide, by decide, ?_, by decide⟩
  intro op hop c rev upd now
  simp at hop
  subst hop
  simp

/-- **C02, true part.** Without revivals and without key updates of that digest, a revoked certificate
stays revoked and listed. (Missing for the full claim: updates of a revoked certificate are not refused.) -/
theorem C02_revoked_stays_partial [DecidableEq D] (H : C → D) (c : C) (ops : List (DBOp C R))
    (hops : ∀ op ∈ ops, ∀ c' ns rev upd now, op = .change c' ns rev upd now → H c' = H c →
      ns ≠ .revived ∧ ns ≠ .updated ∧ ns ≠ .updatedNotConfirmed) :
    ∀ db : DB C D R, db.getCertState H c = .revoked →
      (db.run H ops).getCertState H c = .revoked ∧
      ∃ e ∈ (db.run H ops).certs, e.digest = H c ∧ e.state = .revoked ∧ e.cert ∈ (db.run H ops).revokedCerts := by
  induction ops with
  | nil =>
    intro db h
    refine ⟨h, ?_⟩
    unfold DB.getCertState at h
    cases hf : findDigest (H c) db.certs with
    | none => rw [hf] at h; cases h
    | some e =>
      rw [hf] at h
      obtain ⟨hm, hd⟩ := findDigest_some hf
      refine ⟨e, hm, hd, h, ?_⟩
      simp only [DB.revokedCerts, DB.byState, DB.run]
      exact List.mem_map.2 ⟨e, List.mem_filter.2 ⟨hm, by simp only at h; simp [h]⟩, rfl⟩
  | cons op ops ih =>
    intro db h
    have hstep : (db.step H op).2.getCertState H c = .revoked := by
      cases op with
      | add c' st now =>
        unfold DB.step DB.addCert
        simp only
        split
        · unfold DB.getCertState at h ⊢
          cases hf : findDigest (H c) db.certs with
          | none => rw [hf] at h; cases h
          | some e =>
            rw [hf] at h
            obtain ⟨pre, post, h1, h2, h3⟩ := findDigest_split hf
            simp only
            rw [h1, List.append_assoc, List.cons_append, findDigest_append h2 h3]
            exact h
        · exact h
      | change c' ns rev upd now =>
        simp only [DB.step]
        by_cases hd : H c' = H c
        · obtain ⟨hn1, hn2, hn3⟩ := hops _ (by simp) c' ns rev upd now rfl hd
          have herr : ∃ x, (db.changeCertState H c' ns rev upd now).1 = .error x := by
            cases hr : (db.changeCertState H c' ns rev upd now).1 with
            | error x => exact ⟨x, rfl⟩
            | ok u =>
              exfalso
              have hst : db.getCertState H c' = .revoked := by
                unfold DB.getCertState at h ⊢; rw [hd]; exact h
              cases ns with
              | notConfirmed => rw [C01_never_reset _ _ _ _ _ _ _ (.inl rfl)] at hr; cases hr
              | unknown => rw [C01_never_reset _ _ _ _ _ _ _ (.inr rfl)] at hr; cases hr
              | confirmed =>
                have := (C01_confirm_iff H db c' rev upd now).1 hr
                rw [hst] at this; cases this
              | revoked =>
                have := (C01_revoke_iff H db c' rev upd now).1 hr
                rw [hst] at this; rcases this with h | h <;> cases h
              | updated => exact hn2 rfl
              | updatedNotConfirmed => exact hn3 rfl
              | revived => exact hn1 rfl
          obtain ⟨x, hx⟩ := herr
          have := C03_failed_call_unchanged H db (.change c' ns rev upd now) x hx
          simp only [DB.step] at this
          rw [this]; exact h
        · have := C03_frame H db c' c ns rev upd now (fun he => hd he.symm)
          unfold DB.getCertState DB.getCert at *
          rw [this]; exact h
    simp only [DB.run]
    exact ih (fun op' ho' => hops op' (by simp [ho'])) _ hstep

/-- Non-trivial instance: other certificates are updated and revived, and revocation is retried. -/
example :
    let H : Nat → Nat := id
    let db := ({} : DB Nat Nat Nat).run H
      [.add 7 .confirmed 0, .change 7 .revoked none none 0, .add 8 .confirmed 0]
    let ops : List (DBOp Nat Nat) := [.change 8 .updated none (some 9) 5, .change 7 .revoked none none 0,
      .change 7 .confirmed none none 0]
    db.getCertState H 7 = .revoked ∧ (db.run H ops).getCertState H 7 = .revoked := by decide

/-! ## Reachable databases -/

/-- What holds of every entry of a database built through the API. -/
def WellFormed (H : C → D) (e : Entry C D R) : Prop :=
  e.digest = H e.cert ∧ e.state ≠ .unknown ∧
  ((e.state = .updated ∨ e.state = .updatedNotConfirmed) → e.updDigest.isSome ∧ e.updDate.isSome)

theorem changeEntry_wf {H : C → D} {e : Entry C D R} (hw : WellFormed H e) (ns rev upd now) :
    WellFormed H (changeEntry H e ns rev upd now).2 := by
  obtain ⟨h1, h2, h3⟩ := hw
  unfold changeEntry processUpdate
  repeat' split
  all_goals simp_all [WellFormed]
  rename_i h _
  rcases h with h | h <;> simp [h]

theorem run_wf [DecidableEq D] (H : C → D) (ops : List (DBOp C R)) :
    ∀ db : DB C D R, (∀ e ∈ db.certs, WellFormed H e) → ∀ e ∈ (db.run H ops).certs, WellFormed H e := by
  induction ops with
  | nil => intro db h; exact h
  | cons op ops ih =>
    intro db h
    apply ih
    cases op with
    | add c st now =>
      unfold DB.step DB.addCert
      simp only
      split
      · rename_i hst
        intro e he
        rcases List.mem_append.1 he with he | he
        · exact h e he
        · simp at he
          subst he
          rcases hst with rfl | rfl <;> simp [WellFormed]
      · exact h
    | change c ns rev upd now =>
      simp only [DB.step]
      rcases changeCertState_cases H db c ns rev upd now with
        ⟨_, h'⟩ | ⟨_, ⟨_, h'⟩ | ⟨pre, e, post, h1, _, h3, _, h'⟩⟩
      · rw [h']; exact h
      · rw [h']; exact h
      · rw [h']
        rw [h1] at h
        intro x hx
        simp only at hx
        rcases List.mem_append.1 hx with hx | hx
        · exact h x (by simp [hx])
        · rcases List.mem_cons.1 hx with rfl | hx
          · exact changeEntry_wf (h e (by simp)) ns rev upd now
          · exact h x (by simp [hx])

/-! ## C85: the views -/

theorem filter_partition3 {α : Type} (p q r : α → Bool)
    (h : ∀ a, (p a = true ∧ q a = false ∧ r a = false) ∨ (p a = false ∧ q a = true ∧ r a = false) ∨
      (p a = false ∧ q a = false ∧ r a = true)) (l : List α) :
    l.length = (l.filter p).length + (l.filter q).length + (l.filter r).length := by
  induction l with
  | nil => rfl
  | cons a l ih =>
    simp only [List.filter_cons]
    rcases h a with ⟨h1, h2, h3⟩ | ⟨h1, h2, h3⟩ | ⟨h1, h2, h3⟩ <;> simp [h1, h2, h3] <;> omega

/-- **C85.** Every stored certificate is counted in exactly one of: issued, waiting for confirmation,
updated but not confirmed. -/
theorem C85_views_partition (db : DB C D R) :
    db.certs.length = db.issuedCerts.length + db.notConfirmedCerts.length
      + (db.byState .updatedNotConfirmed).length := by
  simp only [DB.issuedCerts, DB.notConfirmedCerts, DB.byState, List.length_map]
  apply filter_partition3
  intro e
  cases e.state <;> simp

/-- **C85.** Revoked certificates and certificates with a confirmed update still count as issued. -/
theorem C85_revoked_is_issued (db : DB C D R) (c : C) (h : c ∈ db.revokedCerts ∨ c ∈ db.byState .updated) :
    c ∈ db.issuedCerts := by
  simp only [DB.revokedCerts, DB.byState, DB.issuedCerts, List.mem_map, List.mem_filter] at h ⊢
  rcases h with ⟨e, ⟨h1, h2⟩, h3⟩ | ⟨e, ⟨h1, h2⟩, h3⟩
  · exact ⟨e, ⟨h1, by simp at h2; simp [h2]⟩, h3⟩
  · exact ⟨e, ⟨h1, by simp at h2; simp [h2]⟩, h3⟩

example : let db : DB Nat Nat Nat := { certs := [⟨.revoked, 1, 1, none, none, none, none⟩,
      ⟨.updatedNotConfirmed, 2, 2, none, some 3, some 0, none⟩, ⟨.notConfirmed, 3, 3, none, none, none, none⟩] }
    db.issuedCerts = [1] ∧ db.notConfirmedCerts = [3] ∧ db.revokedCerts = [1] := by decide

/-! ## C19 -/

/-- **C19.** A certificate without update record is never rejected. -/
theorem C19_not_updated_accepted [DecidableEq D] (H : C → D) (db : DB C D R) (body : String) (c : C)
    (allow : Bool) (now : Int) (h : ∀ e ∈ db.certs, e.digest = H c →
      e.state ≠ .updated ∧ e.state ≠ .updatedNotConfirmed) :
    validateIsUpdated H db.updateEntries db.timeout body c allow now = .ok () := by
  have : findDigest (H c) db.updateEntries = none := by
    rw [findDigest_none]
    intro e he hd
    simp only [DB.updateEntries, List.mem_filter] at he
    have := h e he.1 hd.symm
    simp [this.1, this.2] at he
  simp [validateIsUpdated, this]

/-- **C19.** A confirmed update rejects every kind of request, at every time, with `CertRevoked`. -/
theorem C19_confirmed_update_rejects [DecidableEq D] (H : C → D) (db : DB C D R) (body : String) (c : C)
    (allow : Bool) (now : Int) (e : Entry C D R) (hf : findDigest (H c) db.updateEntries = some e)
    (hs : e.state = .updated) :
    validateIsUpdated H db.updateEntries db.timeout body c allow now = .error .certRevoked := by
  unfold validateIsUpdated
  rw [hf]
  simp only [hs, true_and]
  split
  · rfl
  · rename_i h
    have hb : body = "kur" := Decidable.not_not.1 h
    subst hb
    simp [forKur, hs]

/-- **C19.** Decision table for a pending (unconfirmed) update of age `now - updated_date`, in every
database reachable through the API: the exact window for each kind of request. -/
theorem C19_pending_update_window [DecidableEq D] (H : C → D) (ops : List (DBOp C R)) (timeout : Int)
    (saveDT : Bool) (c : C) (now : Int) (e : Entry C D R) :
    let db : DB C D R := DB.run H { certs := [], saveDateTime := saveDT, timeout := timeout } ops
    findDigest (H c) db.updateEntries = some e → e.state = .updatedNotConfirmed →
    ∃ ud, e.updDate = some ud ∧ ∀ allow,
      (validateIsUpdated H db.updateEntries timeout "kur" c allow now = .ok () ↔ timeout ≤ truncSec now - ud) ∧
      (validateIsUpdated H db.updateEntries timeout "rr" c allow now = .ok () ↔
        truncSec now - ud < timeout ∧ allow = true) ∧
      (validateIsUpdated H db.updateEntries timeout "certConf" c allow now = .ok () ↔
        truncSec now - ud ≤ timeout) ∧
      (∀ b, b = "ir" ∨ b = "cr" ∨ b = "p10cr" →
        validateIsUpdated H db.updateEntries timeout b c allow now = .error .badRequest) ∧
      (validateIsUpdated H db.updateEntries timeout "ccr" c allow now = .ok () ↔
        timeout < truncSec now - ud ∧ allow = false) := by
  intro db hf hs
  have hw : WellFormed H e := by
    have := (findDigest_some hf).1
    simp only [DB.updateEntries, List.mem_filter] at this
    exact run_wf H ops _ (by simp) e this.1
  obtain ⟨ud, hud⟩ := Option.isSome_iff_exists.1 (hw.2.2 (.inr hs)).2
  refine ⟨ud, hud, fun allow => ⟨?_, ?_, ?_, ?_, ?_⟩⟩
  · simp only [validateIsUpdated, hf, hs, forKur, hud]
    simp
  · simp only [validateIsUpdated, hf, hs, forRr, hud]
    simp
  · simp only [validateIsUpdated, hf, hs, forCertConf, hud]
    simp
  · intro b hb
    have h1 : b ≠ "certConf" := by rcases hb with rfl | rfl | rfl <;> decide
    have h2 : b ≠ "kur" := by rcases hb with rfl | rfl | rfl <;> decide
    have h3 : b ≠ "rr" := by rcases hb with rfl | rfl | rfl <;> decide
    simp [validateIsUpdated, hf, hs, h1, h2, h3, hb]
  · simp only [validateIsUpdated, hf, hs, isUpdated, hud]
    simp

/-- **C19.** `validate_is_updated` never ends in one of its `TypeError` branches on a reachable database. -/
theorem C19_no_type_error [DecidableEq D] (H : C → D) (ops : List (DBOp C R)) (timeout : Int)
    (body : String) (c : C) (allow : Bool) (now : Int) :
    let db : DB C D R := DB.run H { certs := [], timeout := timeout } ops
    validateIsUpdated H db.updateEntries timeout body c allow now ≠ .error .typeError := by
  intro db
  cases hf : findDigest (H c) db.updateEntries with
  | none => simp [validateIsUpdated, hf]
  | some e =>
    have hmem := (findDigest_some hf).1
    simp only [DB.updateEntries, List.mem_filter] at hmem
    have hw : WellFormed H e := run_wf H ops _ (by simp) e hmem.1
    have hst : e.state = .updated ∨ e.state = .updatedNotConfirmed := by simpa using hmem.2
    obtain ⟨ud, hud⟩ := Option.isSome_iff_exists.1 (hw.2.2 hst).2
    unfold validateIsUpdated
    rw [hf]
    simp only [forCertConf, forKur, forRr, hud]
    repeat' split
    all_goals simp_all

/-- Boundary instant: exactly at the timeout both a new `kur` and the late `certConf` of the pending
update are accepted, so the two windows overlap in one second. -/
theorem C19_boundary_overlap :
    ∃ (db : DB Nat Nat Nat) (now : Int),
      validateIsUpdated id db.updateEntries db.timeout "kur" 7 false now = .ok () ∧
      validateIsUpdated id db.updateEntries db.timeout "certConf" 7 false now = .ok () :=
  ⟨({} : DB Nat Nat Nat).run id [.add 7 .confirmed 0, .change 7 .updatedNotConfirmed none (some 8) 0],
    10000000, by decide, by decide⟩

example :
    let db := ({} : DB Nat Nat Nat).run id
      [.add 7 .confirmed 0, .change 7 .updatedNotConfirmed none (some 8) 3000000]
    validateIsUpdated id db.updateEntries db.timeout "kur" 7 false 12000000 = .error .badRequest ∧
    validateIsUpdated id db.updateEntries db.timeout "kur" 7 false 13000000 = .ok () ∧
    validateIsUpdated id db.updateEntries db.timeout "rr" 7 true 12000000 = .ok () := by decide

/-! ## C20 -/

/-- `b` is the stored certificate the update link of a stored entry for `a` points to. -/
def Linked [DecidableEq D] (certs : List (Entry C D R)) (a b : C) : Prop :=
  ∃ ea ∈ certs, ea.cert = a ∧ ∃ d, ea.updDigest = some d ∧ ∃ eb, findDigest d certs = some eb ∧ eb.cert = b

/-- Consecutive elements are related. -/
inductive Chain (r : α → α → Prop) : List α → Prop
  | nil : Chain r []
  | single (a : α) : Chain r [a]
  | cons (a b : α) (l : List α) : r a b → Chain r (b :: l) → Chain r (a :: b :: l)

theorem historyLoop_spec [DecidableEq D] (certs : List (Entry C D R)) :
    ∀ (n : Nat) (e : Entry C D R), e ∈ certs →
      (historyLoop certs n e).length ≤ n ∧ Chain (Linked certs) (e.cert :: historyLoop certs n e) ∧
      (∀ c ∈ historyLoop certs n e, ∃ x ∈ certs, x.cert = c) := by
  intro n
  induction n with
  | zero => intro e _; simp [historyLoop]; exact .single _
  | succ n ih =>
    intro e he
    unfold historyLoop
    split
    · simp; exact .single _
    · rename_i d hd
      split
      · simp; exact .single _
      · rename_i nx hnx
        obtain ⟨h1, h2, h3⟩ := ih nx (findDigest_some hnx).1
        refine ⟨by simp; omega, .cons _ _ _ ⟨e, he, rfl, d, hd, nx, hnx, rfl⟩ h2, ?_⟩
        intro c hc
        rcases List.mem_cons.1 hc with rfl | hc
        · exact ⟨nx, (findDigest_some hnx).1, rfl⟩
        · exact h3 c hc

/-- **C20.** The history has between one and eleven elements, consists of stored certificates and follows
the recorded update links - for every database, cyclic ones included. -/
theorem C20_history [DecidableEq D] (H : C → D) (db : DB C D R) (c : C) (l : List C)
    (h : db.updatedHistory H c = some l) :
    1 ≤ l.length ∧ l.length ≤ 11 ∧ Chain (Linked db.certs) l ∧ (∀ x ∈ l, ∃ e ∈ db.certs, e.cert = x) ∧
    ∃ e, db.getCert H c = some e ∧ l.head? = some e.cert := by
  unfold DB.updatedHistory at h
  split at h
  · cases h
  · rename_i e he
    split at h
    · cases h
    · simp at h
      subst h
      have hm := (findDigest_some he).1
      obtain ⟨h1, h2, h3⟩ := historyLoop_spec db.certs 10 e hm
      refine ⟨by simp, by simp; omega, h2, ?_, e, he, rfl⟩
      intro x hx
      rcases List.mem_cons.1 hx with rfl | hx
      · exact ⟨e, hm, rfl⟩
      · exact h3 x hx

/-- The walk does not stop early: a history of fewer than eleven certificates ends at an entry whose link
is absent or dangling. -/
theorem historyLoop_maximal [DecidableEq D] (certs : List (Entry C D R)) :
    ∀ (n : Nat) (e : Entry C D R), e ∈ certs → (historyLoop certs n e).length < n →
      ∃ last ∈ certs, (e.cert :: historyLoop certs n e).getLast? = some last.cert ∧
        (last.updDigest = none ∨ ∃ d, last.updDigest = some d ∧ findDigest d certs = none) := by
  intro n
  induction n with
  | zero => intro e _ h; simp at h
  | succ n ih =>
    intro e he h
    unfold historyLoop at h ⊢
    cases hd : e.updDigest with
    | none => simp; exact ⟨e, he, rfl, .inl hd⟩
    | some d =>
      simp only [hd] at h ⊢
      cases hf : findDigest d certs with
      | none => simp; exact ⟨e, he, rfl, .inr ⟨d, hd, hf⟩⟩
      | some nx =>
        simp only [hf] at h ⊢
        obtain ⟨last, hl, h1, h2⟩ := ih nx (findDigest_some hf).1 (by simp at h; omega)
        refine ⟨last, hl, ?_, h2⟩
        rw [List.getLast?_cons_cons]
        exact h1

/-- **C20.** Completeness of short histories. -/
theorem C20_history_maximal [DecidableEq D] (H : C → D) (db : DB C D R) (c : C) (l : List C)
    (h : db.updatedHistory H c = some l) (hlen : l.length < 11) :
    ∃ last ∈ db.certs, l.getLast? = some last.cert ∧
      (last.updDigest = none ∨ ∃ d, last.updDigest = some d ∧ findDigest d db.certs = none) := by
  unfold DB.updatedHistory at h
  split at h
  · cases h
  · rename_i e he
    split at h
    · cases h
    · simp at h
      subst h
      exact historyLoop_maximal db.certs 10 e (findDigest_some he).1 (by simp at hlen; omega)

/-- Cyclic links: 1 was updated by 2 and 2 by 1; the walk still ends, after eleven certificates. -/
example :
    let db := ({} : DB Nat Nat Nat).run id
      [.add 1 .confirmed 0, .add 2 .confirmed 0, .change 1 .updated none (some 2) 0,
       .change 2 .updated none (some 1) 0]
    db.updatedHistory id 1 = some [1, 2, 1, 2, 1, 2, 1, 2, 1, 2, 1] := by decide

/-! ## Updates -/

/-- **C113.** Confirming a pending update needs no certificate and keeps the link to the new certificate and the date of the update. -/
theorem C113_update_confirmed [DecidableEq D] (H : C → D) (ops : List (DBOp C R)) (timeout : Int) (saveDT : Bool) (c : C)
    (e : Entry C D R) (rev : Option R) (upd : Option C) (now : Int) :
    let db : DB C D R := DB.run H { certs := [], saveDateTime := saveDT, timeout := timeout } ops
    db.getCert H c = some e → e.state = .updatedNotConfirmed →
    (db.changeCertState H c .updated rev upd now).1 = .ok () ∧
      (db.changeCertState H c .updated rev upd now).2.getCert H c = some { e with state := .updated } := by
  intro db hf hs
  obtain ⟨hm, hd⟩ := findDigest_some hf
  obtain ⟨d, hd'⟩ := Option.isSome_iff_exists.1 ((run_wf H ops _ (by simp) e hm).2.2 (.inr hs)).1
  rcases changeCertState_cases H db c .updated rev upd now with
    ⟨h, _⟩ | ⟨_, ⟨h, _⟩ | ⟨pre, x, post, h1, h2, h3, h4, h⟩⟩
  · exact absurd (by simp) h
  · have hf : findDigest (H c) db.certs = some e := hf
    rw [h] at hf
    cases hf
  · have hf : findDigest (H c) db.certs = some e := hf
    rw [h4] at hf
    cases hf
    have hx : changeEntry H e .updated rev upd now = (.ok (), { e with state := .updated }) := by
      simp [changeEntry, processUpdate, hs, hd']
    rw [h, hx]
    exact ⟨rfl, findDigest_append h2 h3⟩

/-- **C113.** Any other step to an updated state needs the new certificate, and records its digest and the time in whole seconds. -/
theorem C113_update_recorded [DecidableEq D] (H : C → D) (db : DB C D R) (c : C) (e : Entry C D R) (ns : CertState)
    (rev : Option R) (upd : Option C) (now : Int) (hf : db.getCert H c = some e) (hns : ns = .updated ∨ ns = .updatedNotConfirmed)
    (hp : ¬ (ns = .updated ∧ e.state = .updatedNotConfirmed)) :
    match upd with
    | none => db.changeCertState H c ns rev upd now = (.error .typeError, db)
    | some u => (db.changeCertState H c ns rev upd now).1 = .ok () ∧ (db.changeCertState H c ns rev upd now).2.getCert H c =
        some { e with state := ns, updDigest := some (H u), updDate := some (now / 1000000) } := by
  rcases changeCertState_cases H db c ns rev upd now with
    ⟨h, _⟩ | ⟨_, ⟨h, _⟩ | ⟨pre, x, post, h1, h2, h3, h4, h⟩⟩
  · exact absurd (by rcases hns with rfl | rfl <;> simp) h
  · have hf : findDigest (H c) db.certs = some e := hf
    rw [h] at hf
    cases hf
  · have hf : findDigest (H c) db.certs = some e := hf
    rw [h4] at hf
    cases hf
    have hx : changeEntry H e ns rev upd now = processUpdate H e ns upd now := by
      rcases hns with rfl | rfl <;> simp [changeEntry]
    rw [hx] at h
    unfold processUpdate at h
    rw [if_neg hp, if_pos hns] at h
    cases upd with
    | none => rw [h]; exact congrArg (Prod.mk _) (by rw [← h1])
    | some u => rw [h]; exact ⟨rfl, findDigest_append h2 h3⟩

example :
    let db := ({} : DB Nat Nat Nat).run id
      [.add 7 .confirmed 0, .change 7 .updatedNotConfirmed none (some 8) 3500000, .change 7 .updated none none 9000000]
    (db.getCert id 7).map (fun e => (e.state, e.updDigest, e.updDate)) = some (.updated, some 8, some 3) := by decide

/-- **C19.** `is_updated` on a reachable database: a certificate counts as updated when its update is confirmed, and while its
update is pending unless the window is over and this is not tolerated. -/
theorem C19_is_updated [DecidableEq D] (H : C → D) (ops : List (DBOp C R)) (timeout : Int) (saveDT : Bool) (c : C)
    (allow : Bool) (now : Int) :
    let db : DB C D R := DB.run H { certs := [], saveDateTime := saveDT, timeout := timeout } ops
    isUpdated H db.updateEntries timeout c allow now = true ↔
      ∃ e, findDigest (H c) db.updateEntries = some e ∧
        (e.state = .updated ∨ ∃ ud, e.updDate = some ud ∧ (allow = true ∨ now / 1000000 ≤ ud + timeout)) := by
  intro db
  unfold isUpdated
  cases hf : findDigest (H c) db.updateEntries with
  | none => simp
  | some e =>
    have hmem := (findDigest_some hf).1
    simp only [DB.updateEntries, List.mem_filter] at hmem
    have hst : e.state = .updated ∨ e.state = .updatedNotConfirmed := by simpa using hmem.2
    obtain ⟨ud, hud⟩ := Option.isSome_iff_exists.1 ((run_wf H ops _ (by simp) e hmem.1).2.2 hst).2
    simp only [hud, Option.some.injEq, exists_eq_left']
    have key : truncSec now - ud > timeout ↔ ¬ now / 1000000 ≤ ud + timeout := by
      change now / 1000000 - ud > timeout ↔ _
      omega
    by_cases h1 : e.state = .updated
    · simp [h1]
    · by_cases h2 : now / 1000000 ≤ ud + timeout
      · rw [if_neg h1, if_neg (by rw [key]; exact fun h => h.1 h2)]
        simp [h2]
      · cases allow
        · rw [if_neg h1, if_pos ⟨key.2 h2, rfl⟩]
          simp [h1, h2]
        · rw [if_neg h1, if_neg (by rintro ⟨_, h⟩; cases h)]
          simp

example :
    let db := ({} : DB Nat Nat Nat).run id [.add 7 .confirmed 0, .change 7 .updatedNotConfirmed none (some 8) 3000000]
    isUpdated id db.updateEntries 10 7 false 13000000 = true ∧ isUpdated id db.updateEntries 10 7 false 14000000 = false ∧
      isUpdated id db.updateEntries 10 7 true 14000000 = true ∧ isUpdated id db.updateEntries 10 8 true 0 = false := by decide

end Verif.CA
