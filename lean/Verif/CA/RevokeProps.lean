import Verif.CA.CertDBProps
import Verif.CA.Revoke
import Verif.Check.TemplateProps

/-!
# Properties of revocation requests (C89, C120)
-/

namespace Verif.CA

open Verif.Check (Spki Cert Templ RevDetails crlReason buildRp Agrees C119_accepted C119_answer validateRevDetails)

variable {A G T D S : Type}

theorem changeEntry_rev {C R : Type} {H : C → D} {e : Entry C D R} {rev : Option R} {now}
    (h : (changeEntry H e .revoked rev none now).1 = .ok ()) :
    (e.state = .confirmed ∨ e.state = .revived) ∧ (changeEntry H e .revoked rev none now).2.revEntry = rev := by
  unfold changeEntry at h ⊢
  rw [if_pos rfl] at h ⊢
  by_cases hs : e.state = .revived ∨ e.state = .confirmed
  · rw [if_neg (fun x => x hs)]
    exact ⟨hs.symm, rfl⟩
  · rw [if_pos hs] at h; cases h

theorem changeEntry_revive {C R : Type} {H : C → D} {e : Entry C D R} {now}
    (h : (changeEntry H e .revived none none now).1 = .ok ()) :
    e.state = .revoked ∧ (changeEntry H e .revived none none now).2.revEntry = none := by
  unfold changeEntry at h ⊢
  rw [if_neg (by decide), if_pos rfl] at h ⊢
  by_cases hs : e.state = .revoked
  · rw [if_neg (fun x => x hs)]
    exact ⟨hs, rfl⟩
  · rw [if_pos hs] at h; cases h

/-- Specification: the database changed in the record of `c` only, from one of the states `olds` to `new`, with the
revocation record `rev`. -/
def Changed [DecidableEq D] {C R : Type} (H : C → D) (db db' : DB C D R) (c : C) (olds : List CertState)
    (new : CertState) (rev : Option R) : Prop :=
  db.getCertState H c ∈ olds ∧ db'.getCertState H c = new ∧ (∃ e, db'.getCert H c = some e ∧ e.revEntry = rev) ∧
  db'.certs.length = db.certs.length ∧ ∀ c', H c' ≠ H c → db'.getCert H c' = db.getCert H c'

theorem changed_of [DecidableEq D] {C R : Type} (H : C → D) (db : DB C D R) (c : C) (rev : Option R) (now : Int)
    (h : (db.changeCertState H c .revoked rev none now).1 = .ok ()) :
    Changed H db (db.changeCertState H c .revoked rev none now).2 c [.confirmed, .revived] .revoked rev := by
  refine ⟨?_, C03_change_observed H db c _ _ _ _ h, ?_, ?_, fun c' hc => C03_frame H db c c' _ _ _ _ hc⟩
  · simpa using (C01_revoke_iff H db c rev none now).mp h
  all_goals
    rcases changeCertState_cases H db c .revoked rev none now with
      ⟨_, h'⟩ | ⟨_, ⟨_, h'⟩ | ⟨pre, e, post, h1, h2, h3, _, h'⟩⟩
    · rw [h'] at h; cases h
    · rw [h'] at h; cases h
    · rw [h'] at h ⊢
      first
      | exact ⟨_, findDigest_append h2 (by rw [(changeEntry_frame e _ _ _ _).2.1, h3]), (changeEntry_rev h).2⟩
      | simp [h1]

theorem changed_of_revive [DecidableEq D] {C R : Type} (H : C → D) (db : DB C D R) (c : C) (now : Int)
    (h : (db.changeCertState H c .revived none none now).1 = .ok ()) :
    Changed H db (db.changeCertState H c .revived none none now).2 c [.revoked] .revived none := by
  refine ⟨?_, C03_change_observed H db c _ _ _ _ h, ?_, ?_, fun c' hc => C03_frame H db c c' _ _ _ _ hc⟩
  · simpa using (C01_revive_iff H db c none none now).mp h
  all_goals
    rcases changeCertState_cases H db c .revived none none now with
      ⟨_, h'⟩ | ⟨_, ⟨_, h'⟩ | ⟨pre, e, post, h1, h2, h3, _, h'⟩⟩
    · rw [h'] at h; cases h
    · rw [h'] at h; cases h
    · rw [h'] at h ⊢
      first
      | exact ⟨_, findDigest_append h2 (by rw [(changeEntry_frame e _ _ _ _).2.1, h3]), (changeEntry_revive h).2⟩
      | simp [h1]

theorem change_error [DecidableEq D] {C R : Type} (H : C → D) (db db' : DB C D R) (c : C) (ns rev upd now) (e : PyErr)
    (h : db.changeCertState H c ns rev upd now = (.error e, db')) : db' = db := by
  have := C03_failed_call_unchanged H db (.change c ns rev upd now) e (by rw [DB.step, h])
  rw [DB.step, h] at this
  exact this

section
variable [DecidableEq A] [DecidableEq G] [DecidableEq T] [DecidableEq D]

/-- Specification: what an accepted revocation request did. -/
structure Accepted (env : RevEnv A G T D) (db db' : RevDB A G T D) (m : RrMsg A G T S) (ss : Option S) : Prop where
  verified : rrVerify env m ss = .ok ()
  ids : m.ids = .ok ()
  kid : m.kid = .ok ()
  sender : m.sender = .ok ()
  signed : m.extraCerts ≠ []
  effect : ∃ d reason c, m.rr = [d] ∧ crlReason env.decode d.crlEntryDetails none = .ok reason ∧
    c ∈ db.issuedCerts ∧ Agrees env.load (fun _ => True) true d.certDetails c ∧
    d.certDetails.serial = some c.serial ∧
    (∃ n, d.certDetails.issuer = some n ∧ c.issuer.rdns = n.rdns) ∧
    ((reason ≠ "removeFromCRL" ∧ c ∉ db.revokedCerts ∧
        Changed env.H db db' c [.confirmed, .revived] .revoked (some (reason, c))) ∨
     (reason = "removeFromCRL" ∧ c ∈ db.revokedCerts ∧ Changed env.H db db' c [.revoked] .revived none))

theorem applyRr_spec (env : RevEnv A G T D) (db db' : RevDB A G T D) (reason : String) (r : String) (c : Cert A G T)
    (now : Int) (res : Except PyErr (List (Option PyErr)))
    (h : applyRr env db reason [none] [(r, c)] now = (res, db')) :
    (∃ e, res = .error e ∧ db' = db) ∨
    (res = .ok [none] ∧ ((reason ≠ "removeFromCRL" ∧
        Changed env.H db db' c [.confirmed, .revived] .revoked (some (reason, c))) ∨
      (reason = "removeFromCRL" ∧ Changed env.H db db' c [.revoked] .revived none))) := by
  unfold applyRr at h
  simp only [List.head?_cons] at h
  by_cases hr : reason = "removeFromCRL"
  · rw [if_neg (fun x => x hr)] at h
    cases hc : reviveCert env db c now with
    | mk a b =>
      rw [hc] at h
      unfold reviveCert at hc
      cases a with
      | error e =>
        obtain ⟨rfl, rfl⟩ := Prod.mk.inj h
        exact Or.inl ⟨e, rfl, change_error _ _ _ _ _ _ _ _ _ hc⟩
      | ok u =>
        obtain ⟨rfl, rfl⟩ := Prod.mk.inj h
        have := changed_of_revive env.H db c now (by rw [hc])
        rw [hc] at this
        exact Or.inr ⟨rfl, Or.inr ⟨hr, this⟩⟩
  · rw [if_pos hr] at h
    cases hc : markRevoked env db c reason now with
    | mk a b =>
      rw [hc] at h
      unfold markRevoked at hc
      cases a with
      | error e =>
        obtain ⟨rfl, rfl⟩ := Prod.mk.inj h
        exact Or.inl ⟨e, rfl, change_error _ _ _ _ _ _ _ _ _ hc⟩
      | ok u =>
        obtain ⟨rfl, rfl⟩ := Prod.mk.inj h
        have := changed_of env.H db c (some (reason, c)) now (by rw [hc])
        rw [hc] at this
        exact Or.inr ⟨rfl, Or.inl ⟨hr, this⟩⟩

theorem selfRevive_spec (env : RevEnv A G T D) (db db' : RevDB A G T D) (signer : Cert A G T)
    (rr : List (RevDetails A G T)) (now : Int) (res : Except PyErr (List (Option PyErr)))
    (hrev : db.getCertState env.H signer = .revoked)
    (h : selfRevive env db signer rr now = (res, db')) :
    (∃ e, res = .error e ∧ db' = db) ∨ (∃ e, res = .ok [some e] ∧ db' = db) ∨
    (res = .ok [none] ∧ ∃ d r c, rr = [d] ∧ c ∈ db.issuedCerts ∧ c ∈ db.revokedCerts ∧
      validateRevDetails env.load env.decode d [c] (some db.revokedCerts) = .ok (r, c) ∧
      Changed env.H db db' c [.revoked] .revived none) := by
  unfold selfRevive at h
  unfold DB.getCertState at hrev
  cases hf : findDigest (env.H signer) db.certs with
  | none => rw [hf] at hrev; cases hrev
  | some e =>
    rw [hf] at hrev
    dsimp only at hrev
    rw [DB.getCert, hf] at h
    dsimp only at h
    obtain ⟨hmem, _⟩ := findDigest_some hf
    have hi : e.cert ∈ db.issuedCerts :=
      List.mem_map.mpr ⟨e, List.mem_filter.mpr ⟨hmem, by simp [hrev]⟩, rfl⟩
    have hr : e.cert ∈ db.revokedCerts :=
      List.mem_map.mpr ⟨e, List.mem_filter.mpr ⟨hmem, by simp [hrev]⟩, rfl⟩
    cases hb : buildRp env.load env.decode [e.cert] (some db.revokedCerts) true rr with
    | error x =>
      rw [hb] at h
      obtain ⟨rfl, rfl⟩ := Prod.mk.inj h
      exact Or.inl ⟨x, rfl, rfl⟩
    | ok p =>
      obtain ⟨sts, data⟩ := p
      rw [hb] at h
      dsimp only at h
      obtain ⟨d, hd, hx | hx⟩ := C119_answer _ _ _ _ _ _ _ hb
      · obtain ⟨x, hv, rfl, rfl⟩ := hx
        obtain ⟨r, c⟩ := x
        obtain ⟨hc, _⟩ := C119_accepted _ _ _ _ _ _ _ hv
        obtain rfl : c = e.cert := by simpa using hc
        rw [reviveLoop] at h
        cases hc : reviveCert env db e.cert now with
        | mk a b =>
          rw [hc] at h
          unfold reviveCert at hc
          cases a with
          | error x =>
            obtain ⟨rfl, rfl⟩ := Prod.mk.inj h
            exact Or.inl ⟨x, rfl, change_error _ _ _ _ _ _ _ _ _ hc⟩
          | ok u =>
            obtain ⟨rfl, rfl⟩ := Prod.mk.inj h
            have := changed_of_revive env.H db e.cert now (by rw [hc])
            rw [hc] at this
            exact Or.inr (Or.inr ⟨rfl, d, r, e.cert, hd, hi, hr, hv, this⟩)
      · obtain ⟨x, _, _, rfl, rfl⟩ := hx
        rw [reviveLoop, reviveLoop] at h
        obtain ⟨rfl, rfl⟩ := Prod.mk.inj h
        exact Or.inr (Or.inl ⟨x, rfl, rfl⟩)

theorem rrBody_spec (env : RevEnv A G T D) (db db' : RevDB A G T D) (m : RrMsg A G T S) (ss : Option S) (now : Int)
    (res : Except PyErr (List (Option PyErr))) (h : rrBody env db m ss now = (res, db')) :
    (∃ e, res = .error e ∧ db' = db) ∨ (∃ e, res = .ok [some e] ∧ db' = db) ∨
    (res = .ok [none] ∧ Accepted env db db' m ss) := by
  unfold rrBody at h
  cases h1 : rrVerify env m ss with
  | error e => rw [h1] at h; obtain ⟨rfl, rfl⟩ := Prod.mk.inj h; exact Or.inl ⟨e, rfl, rfl⟩
  | ok u =>
  rw [h1] at h; dsimp only at h
  cases h2 : m.ids with
  | error e => rw [h2] at h; obtain ⟨rfl, rfl⟩ := Prod.mk.inj h; exact Or.inl ⟨e, rfl, rfl⟩
  | ok u =>
  rw [h2] at h; dsimp only at h
  cases h3 : m.kid with
  | error e => rw [h3] at h; obtain ⟨rfl, rfl⟩ := Prod.mk.inj h; exact Or.inl ⟨e, rfl, rfl⟩
  | ok u =>
  rw [h3] at h; dsimp only at h
  cases h4 : m.sender with
  | error e => rw [h4] at h; obtain ⟨rfl, rfl⟩ := Prod.mk.inj h; exact Or.inl ⟨e, rfl, rfl⟩
  | ok u =>
  rw [h4] at h; dsimp only at h
  cases h5 : m.extraCerts with
  | nil => rw [h5] at h; obtain ⟨rfl, rfl⟩ := Prod.mk.inj h; exact Or.inl ⟨_, rfl, rfl⟩
  | cons signer rest =>
  rw [h5] at h; simp only [List.head?_cons] at h
  cases h6 : crlReason env.decode (m.rr.head?.bind (·.crlEntryDetails)) none with
  | error e => rw [h6] at h; obtain ⟨rfl, rfl⟩ := Prod.mk.inj h; exact Or.inl ⟨e, rfl, rfl⟩
  | ok reason =>
  rw [h6] at h; dsimp only at h
  by_cases h7 : isRevoked env db signer = true ∧ reason ≠ "removeFromCRL"
  · rw [if_pos h7] at h; obtain ⟨rfl, rfl⟩ := Prod.mk.inj h; exact Or.inl ⟨_, rfl, rfl⟩
  rw [if_neg h7] at h
  cases h8 : validateIsUpdated env.H db.updateEntries db.timeout "rr" signer false now with
  | error e => rw [h8] at h; obtain ⟨rfl, rfl⟩ := Prod.mk.inj h; exact Or.inl ⟨e, rfl, rfl⟩
  | ok u =>
  rw [h8] at h; dsimp only at h
  by_cases h9 : reason = "removeFromCRL" ∧ isRevoked env db signer = true
  · rw [if_pos h9] at h
    rcases selfRevive_spec env db db' signer m.rr now res (by simpa [isRevoked] using h9.2) h with
      he | he | ⟨hres, d, r, c, hd, hi, hr, hv, hch⟩
    · exact Or.inl he
    · exact Or.inr (Or.inl he)
    · refine Or.inr (Or.inr ⟨hres, h1, h2, h3, h4, by rw [h5]; simp, d, reason, c, hd, ?_, hi, ?_⟩)
      · rw [hd] at h6; exact h6
      · obtain ⟨_, ha, hn, hs, _, _⟩ := C119_accepted _ _ _ _ _ _ _ hv
        exact ⟨ha, hs, hn, Or.inr ⟨h9.1, hr, hch⟩⟩
  rw [if_neg h9] at h
  cases h10 : buildRp env.load env.decode db.issuedCerts (some db.revokedCerts) true m.rr with
  | error e => rw [h10] at h; obtain ⟨rfl, rfl⟩ := Prod.mk.inj h; exact Or.inl ⟨e, rfl, rfl⟩
  | ok p =>
  obtain ⟨sts, data⟩ := p
  rw [h10] at h; dsimp only at h
  obtain ⟨d, hd, hx | hx⟩ := C119_answer _ _ _ _ _ _ _ h10
  · obtain ⟨⟨r, c⟩, hv, rfl, rfl⟩ := hx
    obtain ⟨hi, ha, hn, hs, hr, hrev⟩ := C119_accepted _ _ _ _ _ _ _ hv
    rw [hd] at h6
    have hrr : r = reason := by
      have : crlReason env.decode d.crlEntryDetails none = .ok reason := h6
      rw [hr] at this
      simpa using this
    subst hrr
    rcases applyRr_spec env db db' r r c now res h with he | ⟨hres, hch⟩
    · exact Or.inl he
    · refine Or.inr (Or.inr ⟨hres, h1, h2, h3, h4, by rw [h5]; simp, d, r, c, hd, hr, hi, ha, hs, hn, ?_⟩)
      rcases hch with ⟨a, b⟩ | ⟨a, b⟩
      · exact Or.inl ⟨a, fun x => a ((hrev _ rfl).mp x), b⟩
      · exact Or.inr ⟨a, (hrev _ rfl).mpr a, b⟩
  · obtain ⟨x, _, _, rfl, rfl⟩ := hx
    unfold applyRr at h
    simp only [List.head?_cons] at h
    obtain ⟨rfl, rfl⟩ := Prod.mk.inj h
    exact Or.inr (Or.inl ⟨x, rfl, rfl⟩)

/-- **C120.** A revocation request either leaves the database as it was, answering with one rejection or an
uncaught exception, or is answered `accepted` and then changed the state of exactly one certificate: an issued
one that agrees with the single entry's `certDetails`, from CONFIRMED or REVIVED to REVOKED with the requested
reason on record, or from REVOKED to REVIVED for the reason `removeFromCRL`; and the request had passed the
verification of its protection and the header checks. -/
theorem C120_effect (env : RevEnv A G T D) (db db' : RevDB A G T D) (m : RrMsg A G T S) (ss : Option S) (now : Int)
    (res : Except PyErr (List (Option PyErr))) (h : processRr env db m ss now = (res, db')) :
    (db' = db ∧ (∀ sts, res = .ok sts → ∃ e, sts = [some e])) ∨ (res = .ok [none] ∧ Accepted env db db' m ss) := by
  unfold processRr at h
  cases hb : rrBody env db m ss now with
  | mk a b =>
    rw [hb] at h
    rcases rrBody_spec env db b m ss now a hb with ⟨e, rfl, rfl⟩ | ⟨e, rfl, rfl⟩ | ⟨rfl, ha⟩
    · dsimp only at h
      by_cases hc : e.isCmp = true
      · rw [if_pos hc] at h; obtain ⟨rfl, rfl⟩ := Prod.mk.inj h
        exact Or.inl ⟨rfl, fun sts hs => ⟨e, by simpa [eq_comm] using hs⟩⟩
      rw [if_neg hc] at h
      by_cases hv : e.isInvalidSig = true ∨ e = .valueError
      · rw [if_pos hv] at h; obtain ⟨rfl, rfl⟩ := Prod.mk.inj h
        exact Or.inl ⟨rfl, fun sts hs => ⟨.badMessageCheck, by simpa [eq_comm] using hs⟩⟩
      · rw [if_neg hv] at h; obtain ⟨rfl, rfl⟩ := Prod.mk.inj h
        exact Or.inl ⟨rfl, fun sts hs => by cases hs⟩
    · dsimp only at h; obtain ⟨rfl, rfl⟩ := Prod.mk.inj h
      exact Or.inl ⟨rfl, fun sts hs => ⟨e, by simpa [eq_comm] using hs⟩⟩
    · dsimp only at h; obtain ⟨rfl, rfl⟩ := Prod.mk.inj h
      exact Or.inr ⟨rfl, ha⟩

/-- **C120.** A request whose protection does not verify changes nothing. -/
theorem C120_unverified (env : RevEnv A G T D) (db : RevDB A G T D) (m : RrMsg A G T S) (ss : Option S) (now : Int)
    (e : PyErr) (h : rrVerify env m ss = .error e) : (processRr env db m ss now).2 = db := by
  rcases C120_effect env db _ m ss now _ rfl with ⟨h', _⟩ | ⟨_, ha⟩
  · exact h'
  · rw [ha.verified] at h; cases h

omit [DecidableEq A] [DecidableEq G] [DecidableEq T] [DecidableEq D] in
/-- **C120.** What a verified protection means: present, and a valid KEM-based MAC under the stored secret or a
valid signature; MAC protection never verifies. -/
theorem C120_verified_iff [DecidableEq A] [DecidableEq G] [DecidableEq T] (env : RevEnv A G T D) (m : RrMsg A G T S)
    (ss : Option S) : rrVerify env m ss = .ok () ↔
    m.protection = true ∧
      ((m.protType = some (.ok .kem) ∧ m.extraCerts ≠ [] ∧ ∃ s, ss = some s ∧ m.kemMac s = .ok ()) ∨
       (∃ p, m.protType = some (.ok p) ∧ p ≠ .kem ∧ p ≠ .dh ∧ p ≠ .mac ∧ m.sig = .ok ())) := by
  have hsig : ∀ v, verifySig v = .ok () ↔ v = .ok () := by
    intro v
    cases v with
    | ok u => simp [verifySig]
    | error e => simp only [verifySig]; split <;> simp
  have hdh : ∀ k, ∃ e, ecdhSecret env k = .error e := by
    intro k
    cases k <;> exact ⟨_, rfl⟩
  unfold rrVerify
  cases hp : m.protection with
  | false => simp
  | true =>
    rw [if_neg (by simp)]
    rcases ht : m.protType with _ | e | p
    · simp
    · simp
    · cases p with
      | kem =>
        cases hs : ss with
        | none => simp
        | some s =>
          cases hk : m.kemMac s with
          | error e => simp [hk]
          | ok u =>
            by_cases hx : m.extraCerts = []
            · simp [hx, hk]
            · simp [hx, hk]
      | dh =>
        cases hk : m.keyCls with
        | error e => simp
        | ok k =>
          obtain ⟨e, he⟩ := hdh k
          simp [he]
      | mac => simp
      | tradSig => simp [hsig]
      | pqSig => simp [hsig]
      | compositeSig => simp [hsig]
      | pqStateful => simp [hsig]

omit [DecidableEq A] [DecidableEq G] [DecidableEq T] [DecidableEq D] in
/-- **C120.** A request with a signature that does not verify is answered with `badMessageCheck` and changes nothing;
any other exception than the ones of a wrong signature leaves the handler, unless it is one of the suite itself. -/
theorem C120_wrong_signature [DecidableEq A] [DecidableEq G] [DecidableEq T] [DecidableEq D] (env : RevEnv A G T D)
    (db : RevDB A G T D) (m : RrMsg A G T S) (ss : Option S) (now : Int) (e : PyErr) (p : ProtType)
    (hp : m.protection = true) (ht : m.protType = some (.ok p)) (hs : p ≠ .kem ∧ p ≠ .dh ∧ p ≠ .mac)
    (he : m.sig = .error e) :
    (e.isInvalidSig = true ∨ e = .valueError → processRr env db m ss now = (.ok [some .badMessageCheck], db)) ∧
    (e.isInvalidSig = false → e ≠ .valueError → e.isCmp = false → processRr env db m ss now = (.error e, db)) := by
  have hv : rrVerify env m ss = verifySig (.error e) := by
    unfold rrVerify
    rw [hp, if_neg (by simp), ht, he]
    cases p with
    | kem => exact absurd rfl hs.1
    | dh => exact absurd rfl hs.2.1
    | mac => exact absurd rfl hs.2.2
    | tradSig => rfl
    | pqSig => rfl
    | compositeSig => rfl
    | pqStateful => rfl
  constructor
  · intro h
    unfold processRr rrBody
    rw [hv, show verifySig (.error e) = .error .badMessageCheck from if_pos h]
    rfl
  · intro h1 h2 h3
    have hn : ¬ (e.isInvalidSig = true ∨ e = .valueError) := by rw [h1]; simp [h2]
    unfold processRr rrBody
    rw [hv, show verifySig (.error e) = .error e from if_neg hn]
    dsimp only
    rw [h3, if_neg (by simp), if_neg hn]

omit [DecidableEq A] [DecidableEq G] [DecidableEq T] [DecidableEq D] in
/-- **C120 (refuted).** DH-protected revocation requests are implemented but can never be accepted: the public
key is compared with the private key classes, whatever keys the CA holds. -/
theorem C120_dh_refuted [DecidableEq A] [DecidableEq G] [DecidableEq T] (env : RevEnv A G T D) (m : RrMsg A G T S)
    (ss : Option S) (h : m.protType = some (.ok .dh)) : rrVerify env m ss ≠ .ok () := by
  intro hv
  rcases ((C120_verified_iff env m ss).mp hv).2 with ⟨hk, _⟩ | ⟨p, hp, _, hd, _⟩
  · rw [h] at hk; cases hk
  · rw [h] at hp
    exact hd (by cases hp; rfl)

/-- **C120.** A request with a valid protection and header, whose signer is neither revoked nor updated, and whose
entry names a CONFIRMED or REVIVED certificate with a reason other than `removeFromCRL`, is accepted. -/
theorem C120_accepts (env : RevEnv A G T D) (db : RevDB A G T D) (m : RrMsg A G T S) (ss : Option S) (now : Int)
    (signer : Cert A G T) (rest : List (Cert A G T)) (d : RevDetails A G T) (reason : String) (c : Cert A G T)
    (hv : rrVerify env m ss = .ok ()) (h1 : m.ids = .ok ()) (h2 : m.kid = .ok ()) (h3 : m.sender = .ok ())
    (hx : m.extraCerts = signer :: rest) (hs : db.getCertState env.H signer ≠ .revoked)
    (hu : findDigest (env.H signer) db.updateEntries = none) (hr : m.rr = [d]) (hne : reason ≠ "removeFromCRL")
    (hd : validateRevDetails env.load env.decode d db.issuedCerts (some db.revokedCerts) = .ok (reason, c))
    (hc : db.getCertState env.H c = .confirmed ∨ db.getCertState env.H c = .revived) :
    (processRr env db m ss now).1 = .ok [none] ∧ (processRr env db m ss now).2.getCertState env.H c = .revoked := by
  obtain ⟨_, _, _, _, hreason, _⟩ := C119_accepted _ _ _ _ _ _ _ hd
  have hok := (C01_revoke_iff env.H db c (some (reason, c)) none now).mpr hc
  have hst := C03_change_observed env.H db c _ _ _ _ hok
  have hbody : rrBody env db m ss now
      = (.ok [none], (db.changeCertState env.H c .revoked (some (reason, c)) none now).2) := by
    unfold rrBody
    rw [hv]; dsimp only
    rw [h1]; dsimp only
    rw [h2]; dsimp only
    rw [h3]; dsimp only
    rw [hx]; simp only [List.head?_cons]
    rw [hr]; simp only [List.head?_cons, Option.bind_some]
    rw [hreason]; dsimp only
    rw [if_neg (fun x => hs (by simpa [isRevoked] using x.1))]
    unfold validateIsUpdated
    rw [hu]; dsimp only
    rw [if_neg (fun x => hne x.1)]
    have hb : buildRp env.load env.decode db.issuedCerts (some db.revokedCerts) true [d] = .ok ([none], [(reason, c)]) := by
      unfold buildRp
      rw [if_neg (by simp), Check.rpLoop, hd]
      simp [Check.rpLoop]
    rw [hb]; dsimp only
    unfold applyRr
    simp only [List.head?_cons]
    rw [if_pos hne]
    unfold markRevoked
    cases he : db.changeCertState env.H c .revoked (some (reason, c)) none now with
    | mk a b =>
      rw [he] at hok
      dsimp only at hok
      rw [hok]
  unfold processRr
  rw [hbody]
  exact ⟨rfl, hst⟩

/-- **C120 (refuted).** The request's KEM secret may have been used before: the answer does not depend on the
`used` flags of the stored secrets, although `KEMSharedSecretList.verify_pkimessage_protection` refuses a used
one. -/
theorem C120_kem_reuse_refuted (env : RevEnv A G T D) (db : RevDB A G T D) (kems : List (KemEntry S))
    (m : RrMsg A G T S) (now : Int) (f : KemEntry S → Bool) :
    caProcessRr env db (kems.map (fun e => { e with used := f e })) m now = caProcessRr env db kems m now := by
  unfold caProcessRr
  have : ∀ l : List (KemEntry S), (kemFind (l.map (fun e => { e with used := f e })) m.txId).map (·.ss)
      = (kemFind l m.txId).map (·.ss) := by
    intro l
    induction l with
    | nil => rfl
    | cons e l ih =>
      rw [List.map_cons, kemFind, kemFind]
      by_cases h : m.txId = e.tx
      · rw [if_pos h, if_pos h]; rfl
      · rw [if_neg h, if_neg h]; exact ih
  rw [this]

end

/-! ## C89: who may revoke -/

/-- The environment of the examples: keys load as they are, the digest is the certificate. -/
def exEnv : RevEnv Nat Nat Nat (Cert Nat Nat Nat) :=
  { load := Check.loadId, decode := Check.exDecode, H := id }

/-- A self-signed certificate nobody issued. -/
def exStranger : Cert Nat Nat Nat :=
  { serial := 1, issuer := ⟨0, [[66]]⟩, notBefore := 0, notAfter := 99, subject := ⟨0, [[66]]⟩, spki := ⟨1, [6, 6]⟩ }

/-- A request signed by `signer` for the certificate with issuer and serial number of `Check.exCert`. -/
def exRr (signer : Cert Nat Nat Nat) (reason : UInt8) : RrMsg Nat Nat Nat Unit :=
  { protType := some (.ok .tradSig), extraCerts := [signer],
    rr := [⟨{ serial := some 7, issuer := some ⟨0, [[1], [2]]⟩ }, some [⟨[2, 5, 29, 21], [reason]⟩]⟩],
    kemMac := fun _ => .error .badMessageCheck, keyCls := .ok .other, dhMac := .error .valueError,
    sig := .ok (), ids := .ok (), kid := .ok (), sender := .ok () }

/-- A database with one confirmed certificate. -/
def exDB (st : CertState) : RevDB Nat Nat Nat (Cert Nat Nat Nat) :=
  { certs := [{ state := st, cert := Check.exCert, digest := Check.exCert }] }

/-- A database with one certificate revoked for key compromise. -/
def exRevokedDB : RevDB Nat Nat Nat (Cert Nat Nat Nat) :=
  { certs := [{ state := .revoked, cert := Check.exCert, digest := Check.exCert,
                revEntry := some ("keyCompromise", Check.exCert) }] }

/-- **C89 (refuted).** A certificate is not only revoked by its holder or a trusted party: a request signed with a
key of a certificate the CA never issued, of another subject and with another key, revokes it. -/
theorem C89_stranger_revokes_refuted :
    ∃ (env : RevEnv Nat Nat Nat (Cert Nat Nat Nat)) (db : RevDB Nat Nat Nat (Cert Nat Nat Nat))
      (m : RrMsg Nat Nat Nat Unit) (signer c : Cert Nat Nat Nat),
      m.extraCerts = [signer] ∧ db.getCertState env.H signer = .unknown ∧ signer ∉ db.issuedCerts ∧
      signer.subject ≠ c.subject ∧ signer.spki ≠ c.spki ∧ signer.issuer ≠ c.issuer ∧
      db.getCertState env.H c = .confirmed ∧ (processRr env db m none 0).1 = .ok [none] ∧
      (processRr env db m none 0).2.getCertState env.H c = .revoked :=
  ⟨exEnv, exDB .confirmed, exRr exStranger 1, exStranger, Check.exCert, rfl, by decide +kernel, by decide +kernel,
    by decide +kernel, by decide +kernel, by decide +kernel, by decide +kernel, by decide +kernel, by decide +kernel⟩

/-- **C89 (refuted).** A certificate revoked for key compromise is revived by a request signed with the
compromised key itself. -/
theorem C89_self_revive_refuted :
    ∃ (env : RevEnv Nat Nat Nat (Cert Nat Nat Nat)) (db : RevDB Nat Nat Nat (Cert Nat Nat Nat))
      (m : RrMsg Nat Nat Nat Unit) (c : Cert Nat Nat Nat),
      m.extraCerts = [c] ∧ db.getCertState env.H c = .revoked ∧
      (db.getCert env.H c).bind (·.revEntry) = some ("keyCompromise", c) ∧
      (processRr env db m none 0).1 = .ok [none] ∧ (processRr env db m none 0).2.getCertState env.H c = .revived :=
  ⟨exEnv, exRevokedDB, exRr Check.exCert 8, Check.exCert, rfl,
    by decide +kernel, by decide +kernel, by decide +kernel, by decide +kernel⟩

section
variable [DecidableEq A] [DecidableEq G] [DecidableEq T] [DecidableEq D]

/-- **C89 (partial).** What the CA does require of a signer: its certificate is attached, it is not UPDATED or
waiting for the confirmation of an update, and if it is revoked the request is a `removeFromCRL` naming a
certificate in the database whose digest is the signer's. Missing: any relation between signer and certificate,
see `C89_stranger_revokes_refuted`. -/
theorem C89_signer_partial (env : RevEnv A G T D) (db : RevDB A G T D) (m : RrMsg A G T S) (ss : Option S) (now : Int)
    (sts : List (Option PyErr)) (h : rrBody env db m ss now = (.ok sts, (rrBody env db m ss now).2))
    (hrun : ∃ ops timeout saveDT, db = DB.run env.H { certs := [], timeout := timeout, saveDateTime := saveDT } ops) :
    ∃ signer rest, m.extraCerts = signer :: rest ∧ db.getCertState env.H signer ≠ .updated ∧
      db.getCertState env.H signer ≠ .updatedNotConfirmed ∧
      (db.getCertState env.H signer = .revoked →
        crlReason env.decode (m.rr.head?.bind (·.crlEntryDetails)) none = .ok "removeFromCRL") := by
  unfold rrBody at h
  cases h1 : rrVerify env m ss with
  | error e => rw [h1] at h; cases (Prod.mk.inj h).1
  | ok u =>
  rw [h1] at h; dsimp only at h
  cases h2 : m.ids with
  | error e => rw [h2] at h; cases (Prod.mk.inj h).1
  | ok u =>
  rw [h2] at h; dsimp only at h
  cases h3 : m.kid with
  | error e => rw [h3] at h; cases (Prod.mk.inj h).1
  | ok u =>
  rw [h3] at h; dsimp only at h
  cases h4 : m.sender with
  | error e => rw [h4] at h; cases (Prod.mk.inj h).1
  | ok u =>
  rw [h4] at h; dsimp only at h
  cases h5 : m.extraCerts with
  | nil => rw [h5] at h; cases (Prod.mk.inj h).1
  | cons signer rest =>
  rw [h5] at h; simp only [List.head?_cons] at h
  cases h6 : crlReason env.decode (m.rr.head?.bind (·.crlEntryDetails)) none with
  | error e => rw [h6] at h; cases (Prod.mk.inj h).1
  | ok reason =>
  rw [h6] at h; dsimp only at h
  by_cases h7 : isRevoked env db signer = true ∧ reason ≠ "removeFromCRL"
  · rw [if_pos h7] at h; cases (Prod.mk.inj h).1
  rw [if_neg h7] at h
  cases h8 : validateIsUpdated env.H db.updateEntries db.timeout "rr" signer false now with
  | error e => rw [h8] at h; cases (Prod.mk.inj h).1
  | ok u =>
  have key : db.getCertState env.H signer ≠ .updated ∧ db.getCertState env.H signer ≠ .updatedNotConfirmed := by
    clear h h7
    have hnone : findDigest (env.H signer) db.updateEntries = none := by
      cases hf : findDigest (env.H signer) db.updateEntries with
      | none => rfl
      | some e =>
        obtain ⟨ops, timeout, saveDT, hdb⟩ := hrun
        have hm := (findDigest_some hf).1
        unfold DB.updateEntries at hm
        obtain ⟨hm, hs⟩ := List.mem_filter.mp hm
        have hw := run_wf env.H ops { certs := [], timeout := timeout, saveDateTime := saveDT } (by simp) e
          (by rw [← hdb]; exact hm)
        have hs' : e.state = .updated ∨ e.state = .updatedNotConfirmed := by simpa using hs
        obtain ⟨ud, hud⟩ := Option.isSome_iff_exists.mp (hw.2.2 hs').2
        unfold validateIsUpdated at h8
        rw [hf] at h8
        dsimp only at h8
        rcases hs' with hs' | hs'
        · rw [if_pos ⟨hs', by decide⟩] at h8; cases h8
        · rw [if_neg (by rw [hs']; simp), if_neg (by decide), if_neg (by decide), if_pos rfl] at h8
          unfold forRr at h8
          rw [if_neg (by rw [hs']; simp), hud] at h8
          dsimp only at h8
          rw [if_neg (by rw [hs']; simp), if_neg (by simp)] at h8
          cases h8
    have hall := findDigest_none.mp hnone
    have : ∀ st, (st = .updated ∨ st = .updatedNotConfirmed) → db.getCertState env.H signer ≠ st := by
      intro st hst heq
      unfold DB.getCertState at heq
      cases hf : findDigest (env.H signer) db.certs with
      | none => rw [hf] at heq; subst heq; rcases hst with hst | hst <;> cases hst
      | some e =>
        rw [hf] at heq
        dsimp only at heq
        obtain ⟨hm, hd⟩ := findDigest_some hf
        refine hall e (List.mem_filter.mpr ⟨hm, ?_⟩) ?_
        · rw [heq]; simpa using hst
        · exact hd.symm
    exact ⟨this _ (Or.inl rfl), this _ (Or.inr rfl)⟩
  refine ⟨signer, rest, rfl, key.1, key.2, fun hr => ?_⟩
  have : reason = "removeFromCRL" := Classical.byContradiction fun hne => h7 ⟨by simpa [isRevoked] using hr, hne⟩
  rw [this]

end

example : (processRr exEnv (exDB .confirmed) (exRr Check.exCert 1) none 0).1 = .ok [none] := by decide +kernel
example : (processRr exEnv (exDB .revoked) (exRr Check.exCert 1) none 0).1 = .ok [some .certRevoked] := by decide +kernel
example : (processRr exEnv (exDB .updated) (exRr exStranger 1) none 0).1 = .ok [some .badMessageCheck] := by
  decide +kernel
example : (processRr exEnv (exDB .confirmed) { exRr Check.exCert 1 with sig := .error .invalidSignature } none 0).1
    = .ok [some .badMessageCheck] := by decide +kernel
example : (processRr exEnv (exDB .confirmed) { exRr Check.exCert 1 with protType := some (.ok .dh), keyCls := .ok .x25519Pub } none 0).1
    = .ok [some .badMessageCheck] := by decide +kernel

end Verif.CA
