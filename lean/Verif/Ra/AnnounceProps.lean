import Verif.Ra.Announce
import Verif.Ra.RootCaProps

/-!
# Announcements: properties (C257)
-/

namespace Verif.Ra.Announce

variable {C G D T X : Type}

/-- **C257** The identifier in a revocation announcement is the given one; else it has the given issuer and serial number, and
what is not given is that of the certificate. The only error is that a part is neither given nor in a certificate. -/
theorem C257_cert_id (env : Env C G D T) (cert : Option C) (id : Option (G × Int)) (issuer : Option G) (serial : Option Int) :
    (∀ i s, certId env cert id issuer serial = .ok (i, s) ↔ id = some (i, s) ∨ (id = none ∧
      (issuer = some i ∨ (issuer = none ∧ ∃ c, cert = some c ∧ i = env.issuer c)) ∧
      (serial = some s ∨ (serial = none ∧ ∃ c, cert = some c ∧ s = env.serial c)))) ∧
    (∀ e, certId env cert id issuer serial = .error e ↔
      e = .valueError ∧ id = none ∧ cert = none ∧ (issuer = none ∨ serial = none)) := by
  cases id with
  | some x =>
    obtain ⟨a, b⟩ := x
    constructor
    · intro i s
      simp [certId]
    · intro e
      simp [certId]
  | none =>
    cases cert <;> cases issuer <;> cases serial <;> constructor <;> intros <;> simp [certId] <;> grind

/-- **C257** What a revocation announcement has: the identifier, the status, the two times, where a time that is not given is the
present one, and the given details. -/
theorem C257_rann (env : Env C G D T) (a : RannArgs C G D X) (g : Given G) (h : Header G) (r : RevAnn G T X)
    (hr : rann env a g = .ok (h, r)) :
    certId env a.cert a.certId a.issuer a.serial = .ok r.certId ∧ status env a.status = .ok r.status ∧
    (a.revokedAt = none → r.willBeRevokedAt = env.now) ∧ (∀ d, a.revokedAt = some d → env.time d = .ok r.willBeRevokedAt) ∧
    (a.badSince = none → r.badSinceDate = env.now) ∧ (∀ d, a.badSince = some d → env.time d = .ok r.badSinceDate) ∧
    r.crlDetails = a.details ∧ (g.pvno = none → h.pvno = 2) ∧ (∀ s, g.sender = some s → h.sender = s) ∧
    (∀ s, g.recipient = some s → h.recipient = s) := by
  unfold rann at hr
  cases h1 : certId env a.cert a.certId a.issuer a.serial with
  | error e => rw [h1] at hr; cases hr
  | ok i =>
    rw [h1] at hr; dsimp only at hr
    cases h2 : status env a.status with
    | error e => rw [h2] at hr; cases hr
    | ok s =>
      rw [h2] at hr; dsimp only at hr
      cases h3 : timeOf env a.revokedAt with
      | error e => rw [h3] at hr; cases hr
      | ok t =>
        rw [h3] at hr; dsimp only at hr
        cases h4 : timeOf env a.badSince with
        | error e => rw [h4] at hr; cases hr
        | ok b =>
          rw [h4] at hr
          cases hr
          refine ⟨rfl, rfl, ?_, ?_, ?_, ?_, rfl, ?_, ?_, ?_⟩
          · intro h; rw [h] at h3; cases h3; rfl
          · intro d h; rw [h] at h3; exact h3
          · intro h; rw [h] at h4; cases h4; rfl
          · intro d h; rw [h] at h4; exact h4
          · intro h; unfold Given.header; rw [h]; rfl
          · intro s h; unfold Given.header; rw [h]; rfl
          · intro s h; unfold Given.header; rw [h]; rfl

/-- **C257, refuted**: the mock CA cannot announce revocations: for every CRL there is a `ValueError`, as the CRL is not used. -/
theorem C257_handler_rann_refuted {L : Type} (env : Env C G D T) (crl : L) :
    (handlerRann env crl : Except Verif.CA.PyErr (Header G × RevAnn G T X)) = .error .valueError := rfl

/-- **C257, refuted**: the status of an announcement need not be one of the seven: a number is accepted, whichever it is. -/
theorem C257_status_refuted (env : Env C G D T) (s : String) (n : Int) (hs : env.int s = some n) (c : C) (g : Given G) :
    ∃ x, rann env ({ cert := some c, status := s } : RannArgs C G D X) g = .ok x ∧ x.2.status = n := by
  refine ⟨(g.header env.name, ⟨n, (env.issuer c, env.serial c), env.now, env.now, none⟩), ?_, rfl⟩
  unfold rann certId status timeOf
  dsimp only
  rw [hs]
  rfl

/-- **C257** A status that is not a number is one of the seven. -/
theorem C257_status (env : Env C G D T) (s : String) (hs : env.int s = none) (n : Int) (h : status env s = .ok n) :
    (s, n) ∈ [("accepted", 0), ("grantedWithMods", 1), ("rejection", 2), ("waiting", 3), ("revocationWarning", 4),
      ("revocationNotification", 5), ("keyUpdateWarning", (6 : Int))] := by
  unfold status at h
  rw [hs] at h
  dsimp only at h
  cases hf : statusNames.find? (fun x => x.1 = s) with
  | none => rw [hf] at h; cases h
  | some x =>
    rw [hf] at h
    have h : x.2 = n := Except.ok.inj h
    have hm := List.mem_of_find?_eq_some hf
    have he := List.find?_some hf
    rw [decide_eq_true_eq] at he
    rw [← h, ← he]
    exact hm

/-- **C257, refuted**: the revocation may be announced for a time before that since which the certificate is bad. -/
theorem C257_order_refuted (env : Env C G D T) (c : C) (d d' : D) (t t' : T) (h : env.time d = .ok t) (h' : env.time d' = .ok t')
    (hi : env.int "accepted" = none) (g : Given G) :
    ∃ x, rann env ({ cert := some c, revokedAt := some d, badSince := some d' } : RannArgs C G D X) g = .ok x ∧
      x.2.willBeRevokedAt = t ∧ x.2.badSinceDate = t' ∧ x.2.status = 0 := by
  refine ⟨(g.header env.name, ⟨0, (env.issuer c, env.serial c), t, t', none⟩), ?_, rfl, rfl, rfl⟩
  unfold rann certId status timeOf
  dsimp only
  rw [hi, h]
  dsimp only
  rw [h']
  rfl

/-- **C257, refuted**: the certificate announced by the mock CA does not go to its owner: the recipient is the issuer, that is,
the CA. -/
theorem C257_handler_cann_refuted (env : Env C G D T) (c : C) :
    (handlerCann env c).2 = c ∧ (handlerCann env c).1.recipient = env.issuer c ∧
    (env.issuer c ≠ env.subject c → (handlerCann env c).1.recipient ≠ env.subject c) := ⟨rfl, rfl, fun h => h⟩

/-- **C257** The CRLs in an announcement are those given, in their order. -/
theorem C257_crlann {L : Type} (env : Env C G D T) (l : List L) (c : L) (g : Given G) :
    (crlann env (.inr l) g).2 = l ∧ (crlann env (.inl c) g).2 = [c] := ⟨rfl, rfl⟩

/-! ## Key update announcements -/

variable {N K V A Y S : Type}

/-- The certificates in an announcement, as an update. -/
def KeyAnn.asUpdate : KeyAnn (RCert N K V A Y) → RootUpdate N K V A Y
  | .v2 n o w => ⟨n, some w, some o⟩
  | .v3 n o w => ⟨n, w, o⟩

/-- **C257** An announcement has the certificates of the update, each in its place, in the old and in the new form; the old form is
refused exactly if one of the two certificates between the old and the new key is missing. The version is 3. -/
theorem C257_ckuann (env : RootEnv N K V A Y S) (name : String → G) (given : Option (RootUpdate N K V A Y))
    (new old : Option (RCert N K V A Y)) (nk ok : Option S) (serial : Int) (b : Bool) (g : Given G) (u : RootUpdate N K V A Y)
    (hu : ckuUpdate env given new old nk ok serial = .ok u) :
    (∀ h x, ckuann env name given new old nk ok serial b g = .ok (h, x) → x.asUpdate = u ∧ (g.pvno = none → h.pvno = 3)) ∧
    (b = true → ∃ h n o w, ckuann env name given new old nk ok serial b g = .ok (h, .v3 n o w)) ∧
    (b = false → ((∃ h n o w, ckuann env name given new old nk ok serial b g = .ok (h, .v2 n o w)) ↔
      u.oldWithNew ≠ none ∧ u.newWithOld ≠ none)) := by
  obtain ⟨n, w, o⟩ := u
  unfold ckuann
  rw [hu]
  dsimp only
  cases b with
  | true =>
    refine ⟨?_, fun _ => ⟨_, n, o, w, rfl⟩, fun h => (nomatch h)⟩
    rintro h x hx
    cases hx
    refine ⟨rfl, fun hp => ?_⟩
    unfold Given.header
    rw [hp]
    rfl
  | false =>
    cases o with
    | none =>
      exact ⟨fun h x hx => (nomatch hx), fun h => (nomatch h), fun _ => ⟨fun ⟨_, _, _, _, h⟩ => (nomatch h), fun h => absurd rfl h.1⟩⟩
    | some o =>
      cases w with
      | none =>
        exact ⟨fun h x hx => (nomatch hx), fun h => (nomatch h), fun _ => ⟨fun ⟨_, _, _, _, h⟩ => (nomatch h), fun h => absurd rfl h.2⟩⟩
      | some w =>
        refine ⟨?_, fun h => (nomatch h), fun _ => ⟨fun _ => ⟨fun h => (nomatch h), fun h => (nomatch h)⟩, fun _ => ⟨_, n, o, w, rfl⟩⟩⟩
        rintro h x hx
        cases hx
        refine ⟨rfl, fun hp => ?_⟩
        unfold Given.header
        rw [hp]
        rfl

/-- **C257** The key update announced by the mock CA with a fresh certificate is accepted by a client with the old root, exactly
if the root is self-issued and pkilint accepts the new certificate. -/
theorem C257_accepted [DecidableEq N] [DecidableEq K] (env : RootEnv N K V A Y S) (hl : RootLaws env) (name : String → G)
    (ca : RCert N K V A Y) (caKey newKey : S) (serial : Int) (h : Header G) (x : KeyAnn (RCert N K V A Y))
    (hk : ca.tbs.key = env.pub caKey) (hx : handlerCkuann env name ca caKey newKey none serial = .ok (h, x)) :
    processUpdate env (some ca) x.asUpdate = .ok () ↔
      ca.tbs.issuer = ca.tbs.subject ∧ ∃ c, x.asUpdate.newWithNew = some c ∧ env.lint c = .ok () := by
  cases hu : prepUpdate env ca caKey newKey serial true with
  | error e =>
    unfold handlerCkuann ckuann ckuUpdate update at hx
    dsimp only at hx
    rw [hu] at hx
    cases hx
  | ok u =>
    have he := ((C257_ckuann env name none none (some ca) (some newKey) (some caKey) serial false {} u hu).1 h x hx).1
    rw [he]
    exact C164_roundtrip_iff env hl ca caKey newKey serial true u hk hu

/-- **C257, refuted**: a new key is not optional: without it there is a `ValueError`, though the code means to take the old one
then. -/
theorem C257_new_key_refuted (env : RootEnv N K V A Y S) (name : String → G) (new old : Option (RCert N K V A Y)) (ok : Option S)
    (serial : Int) (b : Bool) (g : Given G) : ckuann env name none new old none ok serial b g = .error .valueError := by
  unfold ckuann ckuUpdate
  cases old <;> rfl

/-- **C257, refuted**: the new certificate given to the handler need not be that of the new key: the announcement is made, and no
client with the old root accepts it, as the old key is certified by a key that is not in the announcement. -/
theorem C257_new_cert_refuted : ∃ (c : RCert Nat Nat Nat Nat (String × Nat)) (h : Header String) (x : KeyAnn (RCert Nat Nat Nat Nat (String × Nat))),
    handlerCkuann exRoot id exOldRoot 3 4 (some c) 99 = .ok (h, x) ∧ x.asUpdate.newWithNew = some c ∧
    IssuedBy exRoot c c ∧ processUpdate exRoot (some exOldRoot) x.asUpdate = .error .valueError :=
  ⟨⟨⟨7, 7, 2, 5, 6, [], 1⟩, 1, [6]⟩, _, _, rfl, rfl, ⟨rfl, rfl⟩, by decide +kernel⟩

/-! ### Examples -/

/-- Certificates are issuer, subject and serial number; names are texts; dates are numbers, which must not be 0. -/
def exEnv : Env (String × String × Int) String Nat Nat where
  name := id
  issuer c := c.1
  subject c := c.2.1
  serial c := c.2.2
  time d := if d = 0 then .error .valueError else .ok d
  now := 100
  int s := if s = "99" then some 99 else none

example : rann exEnv ({ cert := some ("CA", "EE", 5), serial := some 7, revokedAt := some 150, status := "revocationWarning",
                        details := some 1 } : RannArgs (String × String × Int) String Nat Nat) { sender := some "X" } =
    .ok (⟨2, "X", "testr@example.com"⟩, ⟨4, ("CA", 7), 150, 100, some 1⟩) := by decide +kernel
example : rann exEnv ({ cert := some ("CA", "EE", 5), status := "revoked" } : RannArgs (String × String × Int) String Nat Nat) {} = .error .pyasn1Error := by decide +kernel
example : (handlerCann exEnv ("CA", "EE", 5)).1 = ⟨2, "CN=Mock CA", "CA"⟩ := rfl

example : ∃ h a b c, handlerCkuann exRoot id exOldRoot 3 4 none 99 = .ok (h, .v2 (some a) b c) ∧ a.sig = [4] ∧ b.sig = [4] ∧
    c.sig = [3] ∧ h.pvno = 3 ∧ processUpdate exRoot (some exOldRoot) ⟨some a, some c, some b⟩ = .ok () :=
  ⟨_, _, _, _, rfl, rfl, rfl, rfl, rfl, by decide +kernel⟩

end Verif.Ra.Announce
