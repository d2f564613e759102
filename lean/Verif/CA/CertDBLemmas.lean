import Verif.CA.CertDB

/-! Helper lemmas about the `CertificateDB` model. -/

namespace Verif.CA

variable {C D R : Type}

theorem processUpdate_error {H : C → D} {e : Entry C D R} {ns upd now x}
    (h : (processUpdate H e ns upd now).1 = .error x) : (processUpdate H e ns upd now).2 = e := by
  revert h
  unfold processUpdate
  repeat' split
  all_goals simp

theorem changeEntry_error {H : C → D} {e : Entry C D R} {ns rev upd now x}
    (h : (changeEntry H e ns rev upd now).1 = .error x) : (changeEntry H e ns rev upd now).2 = e := by
  revert h
  unfold changeEntry
  repeat' split
  all_goals first | exact processUpdate_error | simp

theorem processUpdate_frame {H : C → D} (e : Entry C D R) (ns upd now) :
    (processUpdate H e ns upd now).2.cert = e.cert ∧ (processUpdate H e ns upd now).2.digest = e.digest ∧
    (processUpdate H e ns upd now).2.issueDate = e.issueDate ∧
    (processUpdate H e ns upd now).2.revEntry = e.revEntry := by
  unfold processUpdate
  repeat' split
  all_goals simp

theorem changeEntry_frame {H : C → D} (e : Entry C D R) (ns rev upd now) :
    (changeEntry H e ns rev upd now).2.cert = e.cert ∧ (changeEntry H e ns rev upd now).2.digest = e.digest ∧
    (changeEntry H e ns rev upd now).2.issueDate = e.issueDate := by
  unfold changeEntry
  repeat' split
  all_goals first
    | exact ⟨(processUpdate_frame _ _ _ _).1, (processUpdate_frame _ _ _ _).2.1, (processUpdate_frame _ _ _ _).2.2.1⟩
    | simp

theorem processUpdate_ok_state {H : C → D} {e : Entry C D R} {ns upd now}
    (h : (processUpdate H e ns upd now).1 = .ok ()) : (processUpdate H e ns upd now).2.state = ns := by
  revert h
  unfold processUpdate
  repeat' split
  all_goals simp

theorem changeEntry_ok_state {H : C → D} {e : Entry C D R} {ns rev upd now}
    (h : (changeEntry H e ns rev upd now).1 = .ok ()) : (changeEntry H e ns rev upd now).2.state = ns := by
  revert h
  unfold changeEntry
  repeat' split
  all_goals first | exact processUpdate_ok_state | simp

theorem changeLoop_error [DecidableEq D] {H : C → D} {d : D} {ns rev upd now x} :
    ∀ {es : List (Entry C D R)}, (changeLoop H d ns rev upd now es).1 = .error x →
      (changeLoop H d ns rev upd now es).2 = es := by
  intro es
  induction es with
  | nil => simp [changeLoop]
  | cons e es ih =>
    unfold changeLoop
    split
    · intro h; simp only at h ⊢; rw [changeEntry_error h]
    · intro h; simp only at h ⊢; rw [ih h]

/-- A loop run hits the first matching entry or none. -/
theorem changeLoop_split [DecidableEq D] (H : C → D) (d : D) (ns rev upd now) :
    ∀ (es : List (Entry C D R)),
      ((∀ e ∈ es, d ≠ e.digest) ∧ changeLoop H d ns rev upd now es = (.error .valueError, es)) ∨
      ∃ pre e post, es = pre ++ e :: post ∧ (∀ x ∈ pre, d ≠ x.digest) ∧ d = e.digest ∧
        changeLoop H d ns rev upd now es =
          ((changeEntry H e ns rev upd now).1, pre ++ (changeEntry H e ns rev upd now).2 :: post) := by
  intro es
  induction es with
  | nil => left; simp [changeLoop]
  | cons e es ih =>
    by_cases h : d = e.digest
    · right
      exact ⟨[], e, es, rfl, by simp, h, by simp [changeLoop, h]⟩
    · rcases ih with ⟨h1, h2⟩ | ⟨pre, e', post, h1, h2, h3, h4⟩
      · left
        refine ⟨?_, by simp [changeLoop, h, h2]⟩
        intro x hx
        rcases List.mem_cons.1 hx with rfl | hx
        · exact h
        · exact h1 x hx
      · right
        refine ⟨e :: pre, e', post, by simp [h1], ?_, h3, by simp [changeLoop, h, h4]⟩
        intro x hx
        rcases List.mem_cons.1 hx with rfl | hx
        · exact h
        · exact h2 x hx

theorem findDigest_none [DecidableEq D] {d : D} : ∀ {es : List (Entry C D R)},
    findDigest d es = none ↔ ∀ e ∈ es, d ≠ e.digest := by
  intro es
  induction es with
  | nil => simp [findDigest]
  | cons e es ih =>
    by_cases h : d = e.digest
    · simp [findDigest, h]
    · simp [findDigest, h, ih]

theorem findDigest_append [DecidableEq D] {d : D} {pre : List (Entry C D R)} {e post}
    (h1 : ∀ x ∈ pre, d ≠ x.digest) (h2 : d = e.digest) : findDigest d (pre ++ e :: post) = some e := by
  induction pre with
  | nil => simp [findDigest, h2]
  | cons x pre ih =>
    have hx : d ≠ x.digest := h1 x (by simp)
    simp only [List.cons_append, findDigest, hx, if_false]
    exact ih (fun y hy => h1 y (by simp [hy]))

theorem findDigest_some [DecidableEq D] {d : D} : ∀ {es : List (Entry C D R)} {e},
    findDigest d es = some e → e ∈ es ∧ e.digest = d := by
  intro es
  induction es with
  | nil => simp [findDigest]
  | cons x es ih =>
    intro e h
    by_cases hx : d = x.digest
    · simp [findDigest, hx] at h
      subst h
      exact ⟨by simp, hx.symm⟩
    · simp [findDigest, hx] at h
      exact ⟨by simp [(ih h).1], (ih h).2⟩

theorem findDigest_split [DecidableEq D] {d : D} : ∀ {es : List (Entry C D R)} {e},
    findDigest d es = some e → ∃ pre post, es = pre ++ e :: post ∧ (∀ x ∈ pre, d ≠ x.digest) ∧ d = e.digest := by
  intro es
  induction es with
  | nil => simp [findDigest]
  | cons x es ih =>
    intro e h
    by_cases hx : d = x.digest
    · simp [findDigest, hx] at h
      subst h
      exact ⟨[], es, rfl, by simp, hx⟩
    · simp [findDigest, hx] at h
      obtain ⟨pre, post, h1, h2, h3⟩ := ih h
      refine ⟨x :: pre, post, by simp [h1], ?_, h3⟩
      intro y hy
      rcases List.mem_cons.1 hy with rfl | hy
      · exact hx
      · exact h2 y hy

/-- Outcome of a state change in terms of the first entry with the digest. -/
theorem changeCertState_cases [DecidableEq D] (H : C → D) (db : DB C D R) (c : C) (ns rev upd now) :
    (¬ (ns = .confirmed ∨ ns = .updated ∨ ns = .revoked ∨ ns = .revived ∨ ns = .updatedNotConfirmed) ∧
      db.changeCertState H c ns rev upd now = (.error .valueError, db)) ∨
    ((ns = .confirmed ∨ ns = .updated ∨ ns = .revoked ∨ ns = .revived ∨ ns = .updatedNotConfirmed) ∧
      ((findDigest (H c) db.certs = none ∧ db.changeCertState H c ns rev upd now = (.error .valueError, db)) ∨
      ∃ pre e post, db.certs = pre ++ e :: post ∧ (∀ x ∈ pre, H c ≠ x.digest) ∧ H c = e.digest ∧
        findDigest (H c) db.certs = some e ∧
        db.changeCertState H c ns rev upd now =
          ((changeEntry H e ns rev upd now).1,
            { db with certs := pre ++ (changeEntry H e ns rev upd now).2 :: post }))) := by
  by_cases hns : ns = .confirmed ∨ ns = .updated ∨ ns = .revoked ∨ ns = .revived ∨ ns = .updatedNotConfirmed
  · right
    refine ⟨hns, ?_⟩
    unfold DB.changeCertState
    rw [if_neg (fun h => h hns)]
    rcases changeLoop_split H (H c) ns rev upd now db.certs with ⟨h1, h2⟩ | ⟨pre, e, post, h1, h2, h3, h4⟩
    · left
      refine ⟨findDigest_none.2 h1, ?_⟩
      simp [h2]
    · right
      refine ⟨pre, e, post, h1, h2, h3, ?_, ?_⟩
      · rw [h1]; exact findDigest_append h2 h3
      · simp [h4]
  · left
    refine ⟨hns, ?_⟩
    unfold DB.changeCertState
    rw [if_pos hns]

end Verif.CA
