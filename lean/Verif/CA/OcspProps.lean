import Verif.CA.Ocsp
import Verif.CA.RevListProps

/-!
# Properties of the OCSP responses (C263)
-/

namespace Verif.CA.Ocsp

open Verif.CA

variable {C D R : Type}

/-- The hash functions of a `CertID`, written out. -/
def IdHash (n : String) : Prop := n = "sha1" ∨ n = "sha224" ∨ n = "sha256" ∨ n = "sha384" ∨ n = "sha512"

theorem hashOf_iff (n m : String) : hashOf n = .ok m ↔ m = n ∧ IdHash n := by
  unfold hashOf IdHash
  by_cases h : n ∈ ["sha1", "sha224", "sha256", "sha384", "sha512"]
  · rw [if_pos h]
    simp only [List.mem_cons, List.not_mem_nil, or_false] at h
    constructor
    · intro e; injection e with e; exact ⟨e.symm, h⟩
    · intro e; rw [e.1]
  · rw [if_neg h]
    simp only [List.mem_cons, List.not_mem_nil, or_false] at h
    constructor
    · intro e; cases e
    · intro e; exact absurd e.2 h

/-- The status of the name. -/
def Named (s : Option String) (st : CertStatus) : Prop :=
  (s = some "good" ∧ st = .good) ∨ (s = some "revoked" ∧ st = .revoked) ∨ ((s = some "unknown" ∨ s = none) ∧ st = .unknown)

theorem certStatus_iff (s : Option String) (st : CertStatus) : certStatus s = .ok st ↔ Named s st := by
  unfold Named
  cases s with
  | none => simp [certStatus, eq_comm]
  | some x =>
    unfold certStatus
    dsimp only
    by_cases h1 : x = "good"
    · subst h1; simp [eq_comm]
    · rw [if_neg h1]
      by_cases h2 : x = "revoked"
      · subst h2; simp [eq_comm]
      · rw [if_neg h2]
        by_cases h3 : x = "unknown"
        · subst h3; simp [eq_comm]
        · rw [if_neg h3]; simp [h1, h2, h3]

/-- C263 (what a response says): a response which is built has the status of its name, the nonce of the call, the
certificate and issuer of the call; it has a time of revocation exactly if the status is revoked, the given one or else
30 seconds ago, and a reason only if the status is revoked. -/
theorem C263_fields (a : Args C) (now : Int) (r : Resp C) (h : build a now = .ok r) :
    Named a.status r.status ∧ r.nonce = a.nonce ∧ r.cert = a.cert ∧ r.issuer = a.ca ∧ r.reason = a.reason ∧
    r.idHash = a.idHash ∧ IdHash r.idHash ∧ r.byKey = a.byKey ∧
    (r.status = .revoked → r.revokedAt = some (a.revokedAt.getD (now - 30))) ∧
    (r.status ≠ .revoked → r.revokedAt = none ∧ r.reason = none) ∧
    (∀ t, a.thisUpdate = some t → r.thisUpdate = t) ∧ (a.thisUpdate = none → r.thisUpdate = now) ∧
    (∀ c, a.responder = some c → r.responder = c) ∧ (a.responder = none → r.responder = a.ca) := by
  unfold build at h
  cases h1 : hashOf a.idHash with
  | error e => rw [h1] at h; cases h
  | ok idh =>
    rw [h1] at h; dsimp only at h
    cases h2 : certStatus a.status with
    | error e => rw [h2] at h; cases h
    | ok st =>
      rw [h2] at h; dsimp only at h
      cases h3 : reasonOf a.reason with
      | error e => rw [h3] at h; cases h
      | ok rs =>
        rw [h3] at h; dsimp only at h
        cases h4 : addResponse st rs (revTime st a.revokedAt now) with
        | error e => rw [h4] at h; cases h
        | ok u =>
          rw [h4] at h; dsimp only at h
          cases h5 : optHash a.hash with
          | error e => rw [h5] at h; cases h
          | ok hh =>
            rw [h5] at h; dsimp only at h
            cases h6 : signWith a.key hh with
            | error e => rw [h6] at h; cases h
            | ok sh =>
              rw [h6] at h; dsimp only at h
              injection h with h
              subst h
              dsimp only
              have hid := (hashOf_iff _ _).mp h1
              have hrs : rs = a.reason := by
                unfold reasonOf at h3
                cases ha : a.reason with
                | none => rw [ha] at h3; injection h3 with h3; exact h3.symm
                | some x =>
                  rw [ha] at h3; dsimp only at h3
                  split at h3
                  · injection h3 with h3; exact h3.symm
                  · cases h3
              refine ⟨(certStatus_iff _ _).mp h2, rfl, rfl, rfl, hrs, hid.1, hid.1 ▸ hid.2, rfl, ?_, ?_, ?_, ?_, ?_, ?_⟩
              · intro hst
                subst hst
                unfold revTime
                cases a.revokedAt <;> simp
              · intro hst
                unfold addResponse at h4
                rw [if_neg hst] at h4
                split at h4
                · cases h4
                · rename_i hn
                  simp only [Option.isSome_iff_ne_none, ne_eq, not_or, Decidable.not_not] at hn
                  exact hn
              · intro t ht; rw [ht]; rfl
              · intro ht; rw [ht]; rfl
              · intro t ht; rw [ht]; rfl
              · intro ht; rw [ht]; rfl

example : ∃ r, build (C := Nat) ⟨5, 1, .hashed, some "revoked", some "sha256", some "keyCompromise", none, "sha1", none,
    none, true, some [7]⟩ 100 = .ok r ∧ r.revokedAt = some 70 ∧ r.reason = some "keyCompromise" := ⟨_, rfl, rfl, rfl⟩

/-- C263 (a reason needs a revocation): for a status other than revoked a known reason, or a time of revocation, is refused with
ValueError; so is an unknown status, and an unknown reason. -/
theorem C263_reason_refused (a : Args C) (now : Int) (hid : IdHash a.idHash)
    (h : (∃ st, Named a.status st ∧ st ≠ .revoked ∧ (a.reason ≠ none ∨ a.revokedAt ≠ none)) ∨ (∀ st, ¬ Named a.status st) ∨
      ∃ x, a.reason = some x ∧ x ∉ ["unspecified", "keyCompromise", "cACompromise", "affiliationChanged", "superseded",
        "cessationOfOperation", "certificateHold", "privilegeWithdrawn", "aACompromise", "removeFromCRL"]) :
    build a now = .error .valueError := by
  unfold build
  rw [(hashOf_iff a.idHash a.idHash).mpr ⟨rfl, hid⟩]
  dsimp only
  have hce : ∀ e, certStatus a.status = .error e → e = .valueError := by
    intro e he
    unfold certStatus at he
    split at he
    · cases he
    · repeat (split at he; cases he)
      injection he with he; exact he.symm
  have hre : ∀ e, reasonOf a.reason = .error e → e = .valueError := by
    intro e he
    unfold reasonOf at he
    split at he
    · cases he
    · split at he
      · cases he
      · injection he with he; exact he.symm
  cases h2 : certStatus a.status with
  | error e => dsimp only; rw [hce e h2]
  | ok st =>
    dsimp only
    have hn := (certStatus_iff _ _).mp h2
    cases h3 : reasonOf a.reason with
    | error e => dsimp only; rw [hre e h3]
    | ok rs =>
      dsimp only
      rcases h with ⟨st', hn', hne, hor⟩ | hno | ⟨x, hx, hxn⟩
      · have : st' = st := by
          have := (certStatus_iff _ _).mpr hn'
          rw [h2] at this; injection this with this; exact this.symm
        subst this
        have hbad : addResponse st' rs (revTime st' a.revokedAt now) = .error .valueError := by
          unfold addResponse
          rw [if_neg hne, if_pos]
          unfold revTime
          rw [if_neg (fun hc => hne hc.1)]
          rcases hor with hr | ht
          · right
            unfold reasonOf at h3
            cases hx : a.reason with
            | none => exact absurd hx hr
            | some x =>
              rw [hx] at h3; dsimp only at h3
              split at h3
              · injection h3 with h3; rw [← h3]; rfl
              · cases h3
          · left
            exact Option.isSome_iff_ne_none.mpr ht
        rw [hbad]
      · exact absurd hn (hno st)
      · rw [hx] at h3
        unfold reasonOf reasons at h3
        dsimp only at h3
        rw [if_neg hxn] at h3
        cases h3

example : build (C := Nat) ⟨5, 1, .hashed, some "good", some "sha256", some "keyCompromise", none, "sha1", none,
    none, true, none⟩ 100 = .error .valueError :=
  C263_reason_refused _ _ (.inl rfl) (.inl ⟨.good, .inl ⟨rfl, rfl⟩, by decide, .inl (by decide)⟩)

/-- The response of the CA for a certificate. -/
theorem respond_eq (ca : C) (key : KeyKind) (q : Req) (c : C) (st : OcspStatus) (now : Int) (hid : IdHash q.hash)
    (hst : st = .good ∨ st = .revoked) (hk : key ≠ .other) :
    respond ca key q c st now = .ok (.response ⟨c, q.hash, ca, if st = .revoked then .revoked else .good, none,
      if st = .revoked then some (now - 60) else none, now, ca, true, q.nonce,
      if key = .edwards then none else some q.hash⟩) := by
  unfold respond build
  have hh := (hashOf_iff q.hash q.hash).mpr ⟨rfl, hid⟩
  have ho : optHash (some q.hash) = .ok (some q.hash) := by unfold optHash; dsimp only; rw [hh]; rfl
  dsimp only
  rw [hh]
  dsimp only
  rw [ho]
  rcases hst with rfl | rfl <;> cases key <;> first | exact absurd rfl hk | rfl

/-- C263 (the answer to a client): with a key which the library can use, an answer about a serial number is a response exactly
if the database has a status for it: revoked with the time one minute ago, or good without a time; it carries the nonce of
the request, names the CA as responder and uses the hash function of the request for the `CertID` and for the signature. -/
theorem C263_answer (H : C → D) (serial : C → Int) (db : DB C D R) (k : Int) (add : List C) (ca : C) (key : KeyKind) (q : Req)
    (now : Int) (hid : IdHash q.hash) (hk : key ≠ .other) (r : Resp C) :
    answer H serial db k add ca key q now = .ok (.response r) ↔
    ∃ c, (db.ocspResponse H serial k add q.serial = .ok (.status c .revoked) ∧
        r = ⟨c, q.hash, ca, .revoked, none, some (now - 60), now, ca, true, q.nonce, if key = .edwards then none else some q.hash⟩) ∨
      (db.ocspResponse H serial k add q.serial = .ok (.status c .good) ∧
        r = ⟨c, q.hash, ca, .good, none, none, now, ca, true, q.nonce, if key = .edwards then none else some q.hash⟩) := by
  unfold answer
  cases ho : db.ocspResponse H serial k add q.serial with
  | error e => dsimp only; constructor
               · intro h; cases h
               · rintro ⟨c, ⟨h, _⟩ | ⟨h, _⟩⟩ <;> cases h
  | ok o =>
    cases o with
    | unauthorized => dsimp only; constructor
                      · intro h; cases h
                      · rintro ⟨c, ⟨h, _⟩ | ⟨h, _⟩⟩ <;> cases h
    | status c st =>
      dsimp only
      have hst : st = .good ∨ st = .revoked := by
        cases st with
        | good => exact .inl rfl
        | revoked => exact .inr rfl
        | unauthorized =>
          exfalso
          unfold DB.ocspResponse RevState.ocspResponse RevState.ocspStatus at ho
          split at ho
          · cases ho
          · cases ho
          · rename_i heq
            injection ho with ho; injection ho with ho1 ho2
            subst ho2
            split at heq
            · injection heq with _ heq; cases heq
            · split at heq <;> (injection heq with h1 h2; first | (cases h2; done) | cases h1)
      rw [respond_eq ca key q c st now hid hst hk]
      rcases hst with rfl | rfl
      · constructor
        · intro h; injection h with h; injection h with h; exact ⟨c, .inr ⟨rfl, h.symm⟩⟩
        · rintro ⟨c', ⟨h, _⟩ | ⟨h, hr⟩⟩
          · cases h
          · injection h with h; injection h with h _; subst h; rw [hr]; rfl
      · constructor
        · intro h; injection h with h; injection h with h; exact ⟨c, .inl ⟨rfl, h.symm⟩⟩
        · rintro ⟨c', ⟨h, hr⟩ | ⟨h, _⟩⟩
          · injection h with h; injection h with h _; subst h; rw [hr]; rfl
          · cases h

/-- C263 (a revoked certificate is reported): for every revoked entry of the database the client gets a response with the status
revoked, for a certificate with this serial number. -/
theorem C263_revoked (H : C → D) (serial : C → Int) (db : DB C D R) (k : Int) (add : List C) (ca : C) (key : KeyKind) (q : Req)
    (now : Int) (hid : IdHash q.hash) (hk : key ≠ .other) (e : Entry C D R) (he : e ∈ db.certs) (hs : e.state = .revoked)
    (hq : q.serial = serial e.cert) :
    ∃ r, answer H serial db k add ca key q now = .ok (.response r) ∧ r.status = .revoked ∧ serial r.cert = q.serial ∧
      r.revokedAt = some (now - 60) ∧ r.nonce = q.nonce := by
  obtain ⟨c, hc, hn⟩ := C10_db_revoked H serial db k add e he hs
  rw [← hq] at hc hn
  exact ⟨_, (C263_answer H serial db k add ca key q now hid hk _).mpr ⟨c, .inl ⟨hc, rfl⟩⟩, rfl, hn, rfl, rfl⟩

/-- C263 (a response says good only for certificates in force). -/
theorem C263_good (H : C → D) (serial : C → Int) (db : DB C D R) (k : Int) (add : List C) (ca : C) (key : KeyKind) (q : Req)
    (now : Int) (hid : IdHash q.hash) (hk : key ≠ .other) (r : Resp C)
    (h : answer H serial db k add ca key q now = .ok (.response r)) (hg : r.status = .good) :
    (∀ e ∈ db.certs, serial e.cert = q.serial → e.state ≠ .revoked ∧ e.state ≠ .updated ∧ e.state ≠ .updatedNotConfirmed) ∧
    r.revokedAt = none := by
  obtain ⟨c, ⟨_, hr⟩ | ⟨hc, hr⟩⟩ := (C263_answer H serial db k add ca key q now hid hk r).mp h
  · rw [hr] at hg; cases hg
  · exact ⟨(C10_db_good H serial db k add q.serial c hc).1, by rw [hr]⟩

/-- C263 (bytes which are not a request) are answered with malformedRequest, all others as the request they encode. -/
theorem C263_malformed (load : List UInt8 → Option Req) (H : C → D) (serial : C → Int) (db : DB C D R) (k : Int)
    (own : List C) (ca : C) (key : KeyKind) (data : List UInt8) (now : Int) :
    (load data = none → process load H serial db k own ca key data now = .ok .malformed) ∧
    (∀ q, load data = some q → process load H serial db k own ca key data now = answer H serial db k own ca key q now ∧
      process load H serial db k own ca key data now ≠ .ok .malformed) := by
  unfold process
  constructor
  · intro h; rw [h]
  · intro q h
    rw [h]
    refine ⟨rfl, ?_⟩
    dsimp only
    unfold answer
    split
    · intro h; cases h
    · intro h; cases h
    · unfold respond
      intro h
      generalize build _ now = b at h
      cases b <;> cases h

/-- C263 (a CA with a post-quantum key): no client ever gets a response about a certificate; every answer is `unauthorized`
or the handler fails. -/
theorem C263_unsupported_key_refuted (H : C → D) (serial : C → Int) (db : DB C D R) (k : Int) (add : List C) (ca : C) (q : Req)
    (now : Int) (r : Resp C) : answer H serial db k add ca .other q now ≠ .ok (.response r) := by
  unfold answer
  split
  · intro h; cases h
  · intro h; cases h
  · unfold respond
    intro h
    generalize hb : build _ now = b at h
    cases b with
    | error e => cases h
    | ok r' =>
      unfold build signWith at hb
      repeat' (split at hb)
      all_goals first | (cases hb; done) | simp_all

/-- C263 (another issuer, false of the code): the issuer which the request names does not matter; a request for a certificate of
another CA with the same serial number is answered as for the own one. -/
theorem C263_foreign_issuer_refuted (H : C → D) (serial : C → Int) (db : DB C D R) (k : Int) (add : List C) (ca : C)
    (key : KeyKind) (q : Req) (now : Int) (n h : List UInt8) :
    answer H serial db k add ca key { q with issuerNameHash := n, issuerKeyHash := h } now =
      answer H serial db k add ca key q now := rfl

/-- A database with one confirmed certificate. -/
def oneCert : DB Nat Nat Nat := { certs := [{ state := .confirmed, cert := 5, digest := 5 }] }

/-- C263 (the range of nonces, false of the code): the comment of the builder says that a nonce has 1 to 32 bytes, but a nonce of any
length is echoed. -/
theorem C263_nonce_refuted (n : List UInt8) : ∃ r : Resp Nat,
    answer id Int.ofNat oneCert 1 [] 9 .hashed ⟨5, "sha256", [], [], some n⟩ 100 = .ok (.response r) ∧
      r.status = .good ∧ r.nonce = some n := ⟨_, rfl, rfl, rfl⟩

/-- C263 (the hash function of the signature, false of the code): the default is SHA-256, but a client which identifies the
certificate with SHA-1, the usual function for it, gets a response whose signature uses SHA-1. -/
theorem C263_sha1_signature_refuted : ∃ r : Resp Nat,
    answer id Int.ofNat oneCert 1 [] 9 .hashed ⟨5, "sha1", [], [], none⟩ 100 = .ok (.response r) ∧
      r.sigHash = some "sha1" := ⟨_, rfl, rfl⟩

end Verif.CA.Ocsp
