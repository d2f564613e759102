import Verif.Ra.CaBody
import Verif.Ra.StatusProps
import Verif.Ra.SenderProps
import Verif.Ra.GenInfoProps
import Verif.Check.ChainProps

/-!
# Properties of the client's checks of CA messages (C204-C208)
-/

namespace Verif.Ra

open Verif.CA (Bytes PyErr ProtType presenceCheck)
open Verif.Check (ChainEnv Strictness buildChain areAnchors validateEku chainOrdered certIndex Hdr checkMessageTime
  validateSenderRecipient RfcStatus)

variable {C N K I : Type}

/-! ## C204: the body -/

/-- The bodies of responses for certificates (RFC 9483, 4.1, and RFC 9810, 5.3.11). -/
inductive IsCaBody : List Char → Prop
  | ip : IsCaBody "ip".toList
  | cp : IsCaBody "cp".toList
  | kup : IsCaBody "kup".toList
  | ccp : IsCaBody "ccp".toList

theorem caBodies_iff (b : List Char) : b ∈ caBodies ↔ IsCaBody b := by
  unfold caBodies
  constructor
  · intro h
    rcases List.mem_cons.1 h with rfl | h
    · exact .ip
    rcases List.mem_cons.1 h with rfl | h
    · exact .cp
    rcases List.mem_cons.1 h with rfl | h
    · exact .kup
    rcases List.mem_cons.1 h with rfl | h
    · exact .ccp
    cases h
  · intro h
    cases h <;> decide +kernel

/-- The certificates in `caPubs`, if there are any, are in the trust store, and the chain of `c` which is built from them
and `extraCerts` has a further certificate and is verified. -/
def PubsOk [DecidableEq N] (env : BodyEnv C N K I) (m : KMsg C) (c : C) : Prop :=
  ∀ pubs, m.caPubs = some pubs → m.body ≠ "kup".toList ∧
    (∃ as, env.anchors = .ok as ∧ as ≠ [] ∧ ∀ p ∈ pubs, p ∈ as) ∧
    ∃ chain, buildChain env.ch c (pubs ++ m.extra.getD []) = .ok chain ∧ chain.length ≠ 1 ∧ env.ch.openssl chain = .ok ()

theorem anchors_iff [DecidableEq C] (anchors : Except PyErr (List C)) (certs : List C) :
    areAnchors anchors certs = .ok () ↔ ∃ as, anchors = .ok as ∧ as ≠ [] ∧ ∀ c ∈ certs, c ∈ as := by
  constructor
  · intro h
    obtain ⟨as, e, ha⟩ := Verif.Check.areAnchors_ok h
    refine ⟨as, e, ?_, ha⟩
    rintro rfl
    rw [e] at h
    cases h
  · rintro ⟨as, rfl, h1, h2⟩
    exact Verif.Check.areAnchors_of h1 h2

/-- The pair holds neither a certificate nor an encrypted one. -/
def NoPair (r : KResp C) : Prop := ∀ p, r.pair = some p → p.cert = .empty

theorem pairSet_false (r : KResp C) : r.pairSet = false ↔ NoPair r := by
  unfold KResp.pairSet NoPair
  cases hp : r.pair with
  | none => simp
  | some p =>
    cases hc : p.cert with
    | cert c => simp [hc]
    | enc e b => simp [hc]
    | empty => simp [hc]

theorem kCert_iff (m : KMsg C) (i : Nat) (c : C) :
    kCert m i = .ok c ↔ IsCaBody m.body ∧ ∃ r k, m.resps[i]? = some r ∧ r.pair = some ⟨.cert c, k⟩ := by
  unfold kCert kResp
  by_cases hb : m.body ∈ caBodies
  · rw [if_pos hb]
    dsimp only
    have hb' := (caBodies_iff _).1 hb
    cases hr : m.resps[i]? with
    | none => simp
    | some r =>
      cases hp : r.pair with
      | none => simp [hp]
      | some p =>
        obtain ⟨q, k⟩ := p
        cases q with
        | cert d => simp [hp, hb']
        | enc e b => simp [hp]
        | empty => simp [hp]
  · rw [if_neg hb]
    dsimp only
    refine ⟨fun h => (by cases h), fun h => absurd ((caBodies_iff _).2 h.1) hb⟩

/-- **C204.** The check of `caPubs` passes for a response with a certificate if and only if the field is absent, or it
may be present for the kind of request and message and is trusted. -/
theorem C204_pubs_iff [DecidableEq C] [DecidableEq N] (env : BodyEnv C N K I) (m : KMsg C) (p10 ir : Bool) (r : KResp C) (c : C)
    (k : Option Bool) (hb : IsCaBody m.body) (hr : m.resps[0]? = some r) (hp : r.pair = some ⟨.cert c, k⟩) :
    checkCaPubs env m 0 p10 ir = .ok () ↔
      PubsOk env m c ∧ (m.caPubs ≠ none → (m.body = "cp".toList ∨ ir = true) → p10 = true) := by
  have hk : kCert m 0 = .ok c := (kCert_iff ..).2 ⟨hb, r, k, hr, hp⟩
  unfold checkCaPubs PubsOk
  rw [if_pos ((caBodies_iff _).2 hb), hr, hk]
  rw [Option.getD_some]
  have hset : r.pairSet = true := by
    unfold KResp.pairSet
    rw [hp]
  rw [hset, if_pos rfl]
  cases hc : m.caPubs with
  | none => simp
  | some pubs =>
    dsimp only
    by_cases h1 : (m.body = "cp".toList ∨ ir = true) ∧ p10 = false
    · rw [if_pos h1]
      refine ⟨fun h => (by cases h), fun h => ?_⟩
      have := h.2 (fun h => (by cases h)) h1.1
      rw [h1.2] at this
      cases this
    · rw [if_neg h1]
      have h1' : (some pubs ≠ none → (m.body = "cp".toList ∨ ir = true) → p10 = true) := by
        intro _ h
        cases p10 with
        | true => rfl
        | false => exact absurd ⟨h, rfl⟩ h1
      by_cases h2 : m.body = "kup".toList
      · rw [if_pos h2]
        refine ⟨fun h => (by cases h), fun h => absurd h2 (h.1 pubs rfl).1⟩
      · rw [if_neg h2]
        cases ha : areAnchors env.anchors pubs with
        | error e =>
          refine ⟨fun h => (by cases h), fun h => ?_⟩
          have := (anchors_iff ..).2 (h.1 pubs rfl).2.1
          rw [ha] at this
          cases this
        | ok u =>
          have ha' := (anchors_iff ..).1 ha
          dsimp only
          cases hch : buildChain env.ch c (pubs ++ m.extra.getD []) with
          | error e =>
            refine ⟨fun h => (by cases h), fun h => ?_⟩
            obtain ⟨_, _, ch, e1, _⟩ := h.1 pubs rfl
            rw [hch] at e1
            cases e1
          | ok chain =>
            dsimp only
            by_cases hl : chain.length = 1
            · rw [if_pos hl]
              refine ⟨fun h => (by cases h), fun h => ?_⟩
              obtain ⟨_, _, ch, e1, e2, _⟩ := h.1 pubs rfl
              rw [hch] at e1
              cases e1
              exact absurd hl e2
            · rw [if_neg hl]
              constructor
              · intro h
                refine ⟨fun q hq => ?_, h1'⟩
                cases hq
                exact ⟨h2, ha', chain, hch, hl, h⟩
              · intro h
                obtain ⟨_, _, ch, e1, _, e3⟩ := h.1 pubs rfl
                rw [hch] at e1
                cases e1
                exact e3

/-- **C204.** The check of the structure passes if and only if there is a private key exactly if it was asked for, and
envelopes are used with version 3 only. -/
theorem C204_pair_iff (m : KMsg C) (loc : Bool) (i : Nat) (r : KResp C) (hr : m.resps[i]? = some r) :
    (∃ m', checkPair m loc i = .ok m') ↔ IsCaBody m.body ∧ (loc = true ↔ ∀ p, r.pair = some p → p.key = none) ∧
      ∀ p, r.pair = some p → (p.key = some true ∨ ∃ b, p.cert = .enc true b) → m.pvno = 3 := by
  unfold checkPair kResp
  by_cases hb : m.body ∈ caBodies
  · have hb' := (caBodies_iff _).1 hb
    rw [if_pos hb, hr]
    dsimp only [Option.getD]
    cases hp : r.pair with
    | none => cases loc <;> simp [hb']
    | some p =>
      obtain ⟨q, k⟩ := p
      cases loc <;> cases k with
      | none => cases q with
        | cert c => simp [hb']
        | enc e b => cases e <;> by_cases hv : m.pvno = 3 <;> simp [hb', hv]
        | empty => simp [hb']
      | some e' => cases q with
        | cert c => cases e' <;> by_cases hv : m.pvno = 3 <;> simp [hb', hv]
        | enc e b => cases e <;> cases e' <;> by_cases hv : m.pvno = 3 <;> simp [hb', hv]
        | empty => cases e' <;> by_cases hv : m.pvno = 3 <;> simp [hb', hv]
  · rw [if_neg hb]
    dsimp only
    refine ⟨fun ⟨_, h⟩ => (by cases h), fun h => absurd ((caBodies_iff _).2 h.1) hb⟩

/-- What is accepted: a certificate, or a refusal without one. -/
def GoodResponse [DecidableEq N] (env : BodyEnv C N K I) (m : KMsg C) (loc : Bool) (r : KResp C) : Prop :=
  ((r.info.status = some 0 ∨ r.info.status = some 1) ∧ r.info.fail = none ∧
    ∃ c key, r.pair = some ⟨.cert c, key⟩ ∧ PubsOk env m c ∧ (loc = true ↔ key = none) ∧ (key = some true → m.pvno = 3)) ∨
  (r.info.status = some 2 ∧ NoPair r ∧ m.caPubs = none)

theorem status_cases (x : Option Int) : statusText x = .error .pyasn1Error ∨ ∃ s, statusText x = .ok s := by
  cases x with
  | none => exact .inl rfl
  | some v => exact .inr ⟨_, rfl⟩

/-- **C204.** A message with one response is accepted if and only if its body is of one of the four kinds, the identifier
is the one for the kind of request, and the response is a certificate with all that belongs to it, or a refusal. -/
theorem C204_accepted_iff [DecidableEq C] [DecidableEq N] (env : BodyEnv C N K I) (m : KMsg C) (loc p10 ir : Bool) :
    (∃ m', checkBody env m loc p10 1 0 ir = .ok m') ↔
      IsCaBody m.body ∧ ∃ r, m.resps = [r] ∧ r.id = some (if p10 then -1 else 0) ∧ GoodResponse env m loc r := by
  unfold checkBody
  by_cases hb : m.body ∈ caBodies
  · have hb' := (caBodies_iff _).1 hb
    rw [if_neg (fun h => h hb)]
    by_cases hl : m.resps.length = 1
    · rw [if_neg (fun h => h hl)]
      obtain ⟨r, hr⟩ := List.length_eq_one_iff.1 hl
      have h0 : m.resps[0]? = some r := by rw [hr]; rfl
      have hone : (IsCaBody m.body ∧ ∃ r, m.resps = [r] ∧ r.id = some (if p10 then -1 else 0) ∧ GoodResponse env m loc r) ↔
          r.id = some (if p10 then -1 else 0) ∧ GoodResponse env m loc r := by
        constructor
        · rintro ⟨_, r', e, h⟩
          rw [hr] at e
          cases e
          exact h
        · intro h
          exact ⟨hb', r, hr, h⟩
      rw [hone]
      unfold checkReqId kResp
      rw [if_pos hb, h0]
      dsimp only [Option.getD]
      cases hid : r.id with
      | none => simp
      | some n =>
        dsimp only
        by_cases hn : n = (if p10 then -1 else 0)
        · rw [if_neg (fun h => h hn)]
          dsimp only
          have hid' : (some n = some (if p10 then -1 else 0) ∧ GoodResponse env m loc r) ↔ GoodResponse env m loc r := by
            rw [hn]; simp
          rw [hid']
          have hs0 := statusText_iff r.info.status 0 _ .accepted
          have hs1 := statusText_iff r.info.status 1 _ .grantedWithMods
          have hs2 := statusText_iff r.info.status 2 _ .rejection
          rcases status_cases r.info.status with he | ⟨st, he⟩
          · have hno : ∀ x : Nat, ∀ s, RfcStatus x s → r.info.status ≠ some (x : Int) := by
              intro x s hs h
              have := (statusText_iff _ x s hs).2 h
              rw [he] at this
              cases this
            rw [he]
            refine ⟨fun ⟨_, h⟩ => (by cases h), fun h => ?_⟩
            rcases h with ⟨h | h, _⟩ | ⟨h, _⟩
            · exact absurd h (hno 0 _ .accepted)
            · exact absurd h (hno 1 _ .grantedWithMods)
            · exact absurd h (hno 2 _ .rejection)
          · rw [he]
            dsimp only
            rw [he] at hs0 hs1 hs2
            by_cases hg : st = "accepted".toList ∨ st = "grantedWithMods".toList
            · rw [if_pos hg]
              have hg' : r.info.status = some 0 ∨ r.info.status = some 1 := by
                rcases hg with h | h
                · exact .inl (hs0.1 (by rw [h]))
                · exact .inr (hs1.1 (by rw [h]))
              have hn2 : r.info.status ≠ some 2 := by
                rcases hg' with h | h <;> rw [h] <;> decide
              cases hf : r.info.fail with
              | some x =>
                rw [if_pos (show (some x).isSome = true from rfl)]
                refine ⟨fun ⟨_, h⟩ => (by cases h), fun h => ?_⟩
                rcases h with ⟨_, h, _⟩ | ⟨h, _⟩
                · rw [hf] at h; cases h
                · exact absurd h hn2
              | none =>
                rw [if_neg (by simp)]
                cases hp : r.pair with
                | none =>
                  refine ⟨fun ⟨_, h⟩ => (by cases h), fun h => ?_⟩
                  rcases h with ⟨_, _, c, k, h, _⟩ | ⟨h, _⟩
                  · rw [hp] at h; cases h
                  · exact absurd h hn2
                | some p =>
                  obtain ⟨q, k⟩ := p
                  cases q with
                  | enc e b =>
                    refine ⟨fun ⟨_, h⟩ => (by cases h), fun h => ?_⟩
                    rcases h with ⟨_, _, c, k, h, _⟩ | ⟨h, _⟩
                    · rw [hp] at h; cases h
                    · exact absurd h hn2
                  | empty =>
                    refine ⟨fun ⟨_, h⟩ => (by cases h), fun h => ?_⟩
                    rcases h with ⟨_, _, c, k, h, _⟩ | ⟨h, _⟩
                    · rw [hp] at h; cases h
                    · exact absurd h hn2
                  | cert c =>
                    dsimp only [Option.map]
                    have hpubs := C204_pubs_iff env m true ir r c k hb' h0 hp
                    have hpair := C204_pair_iff m loc 0 r h0
                    rw [hp] at hpair
                    cases hcp : checkCaPubs env m 0 true ir with
                    | error e =>
                      refine ⟨fun ⟨_, h⟩ => (by cases h), fun h => ?_⟩
                      rcases h with ⟨_, _, c', k', h, h2, _⟩ | ⟨h, _⟩
                      · rw [hp] at h
                        cases h
                        have := hpubs.2 ⟨h2, fun _ _ => rfl⟩
                        rw [hcp] at this
                        cases this
                      · exact absurd h hn2
                    | ok u =>
                      dsimp only
                      have hpu := (hpubs.1 hcp).1
                      rw [hpair]
                      constructor
                      · rintro ⟨_, h1, h2⟩
                        refine .inl ⟨hg', hf, c, k, hp, hpu, ?_, fun hk => h2 _ rfl (.inl hk)⟩
                        rw [h1]
                        exact ⟨fun h => h _ rfl, fun h p hp => by cases hp; exact h⟩
                      · rintro (⟨_, _, c', k', h, _, h3, h4⟩ | ⟨h, _⟩)
                        · rw [hp] at h
                          cases h
                          refine ⟨hb', ?_, ?_⟩
                          · rw [h3]
                            exact ⟨fun h p hp => by cases hp; exact h, fun h => h _ rfl⟩
                          · rintro p hp (h | ⟨b, h⟩)
                            · cases hp; exact h4 h
                            · cases hp; cases h
                        · exact absurd h hn2
            · rw [if_neg hg]
              have hn0 : r.info.status ≠ some 0 := fun h => hg (.inl (by have := hs0.2 h; injection this))
              have hn1 : r.info.status ≠ some 1 := fun h => hg (.inr (by have := hs1.2 h; injection this))
              by_cases hrj : st = "rejection".toList
              · rw [if_pos hrj]
                have h2 : r.info.status = some 2 := hs2.1 (by rw [hrj])
                cases hps : r.pairSet with
                | true =>
                  rw [if_pos rfl]
                  refine ⟨fun ⟨_, h⟩ => (by cases h), fun h => ?_⟩
                  rcases h with ⟨h | h, _⟩ | ⟨_, h, _⟩
                  · exact absurd h hn0
                  · exact absurd h hn1
                  · rw [(pairSet_false r).2 h] at hps
                    cases hps
                | false =>
                  rw [if_neg (by simp)]
                  have hnp := (pairSet_false r).1 hps
                  cases hcp : m.caPubs with
                  | none =>
                    rw [if_neg (by simp)]
                    exact ⟨fun _ => .inr ⟨h2, hnp, hcp⟩, fun _ => ⟨m, rfl⟩⟩
                  | some pubs =>
                    rw [if_pos (show (some pubs).isSome = true from rfl)]
                    refine ⟨fun ⟨_, h⟩ => (by cases h), fun h => ?_⟩
                    rcases h with ⟨h | h, _⟩ | ⟨_, _, h⟩
                    · exact absurd h hn0
                    · exact absurd h hn1
                    · rw [hcp] at h; cases h
              · rw [if_neg hrj]
                have hn2 : r.info.status ≠ some 2 := fun h => hrj (by have := hs2.2 h; injection this)
                have hno : ¬ GoodResponse env m loc r := by
                  rintro (⟨h | h, _⟩ | ⟨h, _⟩)
                  · exact hn0 h
                  · exact hn1 h
                  · exact hn2 h
                refine ⟨fun ⟨_, h⟩ => ?_, fun h => absurd h hno⟩
                split at h <;> cases h
        · rw [if_pos hn]
          refine ⟨fun ⟨_, h⟩ => (by cases h), fun h => ?_⟩
          injection h.1 with h
          exact absurd h hn
    · rw [if_pos hl]
      refine ⟨fun ⟨_, h⟩ => (by cases h), ?_⟩
      rintro ⟨_, r, h, _⟩
      rw [h] at hl
      exact absurd rfl hl
  · rw [if_pos hb]
    refine ⟨fun ⟨_, h⟩ => (by cases h), fun h => absurd ((caBodies_iff _).2 h.1) hb⟩

/-- **C204 refuted.** The rule that `caPubs` is absent in the answer to a request which is no PKCS #10 one is not
checked: it makes no difference for the check of the body what the request was, and it accepts the field in a `cp`. -/
theorem C204_p10cr_refuted [DecidableEq C] [DecidableEq N] (env : BodyEnv C N K I) (m : KMsg C) (loc ir : Bool) (r : KResp C)
    (c : C) (k : Option Bool) (hb : m.body = "cp".toList) (hr : m.resps = [r]) (hi : r.id = some 0)
    (hs : r.info.status = some 0) (hf : r.info.fail = none) (hp : r.pair = some ⟨.cert c, k⟩) (hloc : loc = true ↔ k = none)
    (hv : k = some true → m.pvno = 3) (hpubs : PubsOk env m c) : ∃ m', checkBody env m loc false 1 0 ir = .ok m' := by
  refine (C204_accepted_iff ..).2 ⟨by rw [hb]; exact .cp, r, hr, hi, .inl ⟨.inl hs, hf, c, k, hp, hpubs, hloc, hv⟩⟩

/-- **C204 refuted.** An encrypted certificate, as issued for a key which cannot sign, is never accepted. -/
theorem C204_encrypted_refuted [DecidableEq C] [DecidableEq N] (env : BodyEnv C N K I) (m : KMsg C) (loc p10 ir : Bool)
    (r : KResp C) (hr : m.resps = [r]) (e : Bool) (b : Bytes) (k : Option Bool) (hp : r.pair = some ⟨.enc e b, k⟩) :
    ¬ ∃ m', checkBody env m loc p10 1 0 ir = .ok m' := by
  intro h
  obtain ⟨_, r', e1, _, h⟩ := (C204_accepted_iff ..).1 h
  rw [hr] at e1
  cases e1
  rcases h with ⟨_, _, c, k', h, _⟩ | ⟨_, h, _⟩
  · rw [hp] at h; cases h
  · have := h _ hp
    cases this

/-- **C204 refuted.** The status is always the one of the first response: for a message with a certificate in the first
response and a refusal in the second one, the check of the latter fails. -/
theorem C204_index_refuted [DecidableEq C] [DecidableEq N] (env : BodyEnv C N K I) (m : KMsg C) (loc p10 ir : Bool)
    (r s : KResp C) (hr : m.resps = [r, s]) (hs : r.info.status = some 0) (hp : NoPair s) :
    ∀ m', checkBody env m loc p10 2 1 ir ≠ .ok m' := by
  intro m' h
  unfold checkBody at h
  split at h
  · cases h
  · split at h
    · cases h
    · cases hq : checkReqId m 1 p10 with
      | error e => rw [hq] at h; cases h
      | ok u =>
        rw [hq, hr] at h
        dsimp only [List.getElem?_cons_zero, List.getElem?_cons_succ, Option.getD] at h
        have hst := (statusText_iff r.info.status 0 _ .accepted).2 hs
        rw [hst] at h
        dsimp only at h
        rw [if_pos (.inl rfl)] at h
        split at h
        · cases h
        · cases hsp : s.pair with
          | none => rw [hsp] at h; cases h
          | some p =>
            have := hp p hsp
            obtain ⟨q, k⟩ := p
            cases this
            rw [hsp] at h
            cases h

/-! ## C205: the message after the check -/

/-- **C205 refuted.** The check deletes the certificate it has accepted: afterwards none can be taken from the message. -/
theorem C205_lost_refuted [DecidableEq C] [DecidableEq N] (env : BodyEnv C N K I) (m m' : KMsg C) (loc p10 ir : Bool) (c : C)
    (hc : kCert m 0 = .ok c) (h : checkBody env m loc p10 1 0 ir = .ok m') : kCert m' 0 = .error .valueError := by
  obtain ⟨hb, r, k, hr, hp⟩ := (kCert_iff ..).1 hc
  obtain ⟨_, r', hrs, hid, hgood⟩ := (C204_accepted_iff env m loc p10 ir).1 ⟨m', h⟩
  have : r' = r := by rw [hrs] at hr; injection hr
  subst this
  rcases hgood with ⟨hs, hf, _⟩ | ⟨_, hn, _⟩
  · unfold checkBody at h
    split at h
    · cases h
    · split at h
      · cases h
      · cases hq : checkReqId m 0 p10 with
        | error e => rw [hq] at h; cases h
        | ok u =>
          rw [hq, hr] at h
          dsimp only [Option.getD] at h
          have hst : ∃ st, statusText r'.info.status = .ok st ∧ (st = "accepted".toList ∨ st = "grantedWithMods".toList) := by
            rcases hs with hs | hs
            · exact ⟨_, (statusText_iff _ 0 _ .accepted).2 hs, .inl rfl⟩
            · exact ⟨_, (statusText_iff _ 1 _ .grantedWithMods).2 hs, .inr rfl⟩
          obtain ⟨st, e1, e2⟩ := hst
          rw [e1] at h
          dsimp only at h
          rw [if_pos e2, hf, if_neg (by simp), hp] at h
          dsimp only [Option.map] at h
          cases hcp : checkCaPubs env m 0 true ir with
          | error e => rw [hcp] at h; cases h
          | ok u =>
            rw [hcp] at h
            dsimp only at h
            unfold checkPair kResp at h
            rw [if_pos ((caBodies_iff _).2 hb), hr] at h
            dsimp only [Option.getD] at h
            rw [hp] at h
            dsimp only [Option.bind, Option.map] at h
            split at h
            · cases h
            · split at h
              · cases h
              · cases h
                unfold kCert kResp
                rw [if_pos ((caBodies_iff _).2 hb)]
                dsimp only
                rw [List.getElem?_modify, hr]
                unfold readEnc
                simp only [Option.map_eq_map, Option.map_some, Option.getD_some, if_true, hp]
  · have := hn _ hp
    cases this

/-- **C205.** A refusal is left as it is. -/
theorem C205_refusal [DecidableEq C] [DecidableEq N] (env : BodyEnv C N K I) (m m' : KMsg C) (loc p10 ir : Bool)
    (size i : Nat) (hs : ∀ r, m.resps[0]? = some r → r.info.status = some 2) (h : checkBody env m loc p10 size i ir = .ok m') :
    m' = m := by
  unfold checkBody at h
  split at h
  · cases h
  · split at h
    · cases h
    · cases hq : checkReqId m i p10 with
      | error e => rw [hq] at h; cases h
      | ok u =>
        rw [hq] at h
        dsimp only at h
        cases hr : m.resps[0]? with
        | none =>
          rw [hr] at h
          cases h
        | some r =>
          rw [hr, Option.getD_some] at h
          rw [(statusText_iff r.info.status 2 _ .rejection).2 (hs r hr)] at h
          dsimp only at h
          rw [if_neg (by decide +kernel), if_pos rfl] at h
          split at h
          · cases h
          · split at h
            · cases h
            · cases h; rfl

/-- **C205.** The question for an encrypted certificate is answered as it should be (and asked on a copy). -/
theorem C205_encrypted_iff (m : KMsg C) (i : Nat) : hasEncrypted m i = .ok true ↔
    IsCaBody m.body ∧ ∃ r e b k, m.resps[i]? = some r ∧ r.pair = some ⟨.enc e b, k⟩ := by
  unfold hasEncrypted kResp
  by_cases hb : m.body ∈ caBodies
  · rw [if_pos hb]
    have hb' := (caBodies_iff _).1 hb
    dsimp only
    cases hr : m.resps[i]? with
    | none => simp
    | some r =>
      cases hp : r.pair with
      | none => simp [hp]
      | some p =>
        obtain ⟨q, k⟩ := p
        cases q with
        | cert d => simp [hp]
        | enc e b => simp [hp, hb']
        | empty => simp [hp]
  · rw [if_neg hb]
    dsimp only
    refine ⟨fun h => (by cases h), fun h => absurd ((caBodies_iff _).2 h.1) hb⟩

/-! ## C206: extraCerts -/

theorem orderLogged_ok [DecidableEq I] (env : BodyEnv C N K I) (extra chain : List C) (issued : Bool)
    (h : ∀ c ∈ (if issued then chain.tail else chain), c ∈ extra) (hne : (if issued then chain.tail else chain) ≠ []) :
    orderLogged env extra chain issued = .ok () := by
  have hidx : ∀ c ∈ extra, ∃ i, certIndex (extra.map env.ident) (env.ident c) = some i := by
    intro c hc
    unfold certIndex
    cases hf : List.findIdx? (fun x => decide (x = env.ident c)) (extra.map env.ident) with
    | some i => exact ⟨i, rfl⟩
    | none =>
      have := List.findIdx?_eq_none_iff.1 hf (env.ident c) (List.mem_map_of_mem hc)
      simp at this
  unfold orderLogged chainOrdered
  have hl : (if issued then (chain.map env.ident).tail else chain.map env.ident) =
      (if issued then chain.tail else chain).map env.ident := by
    cases issued with
    | true => simp [List.map_tail]
    | false => rfl
  rw [hl]
  generalize (if issued then chain.tail else chain) = ch at h hne
  have hany : ¬ (ch.map env.ident).any (fun c => (certIndex (extra.map env.ident) c).isNone) = true := by
    intro ha
    obtain ⟨x, hx, hn⟩ := List.any_eq_true.1 ha
    obtain ⟨c, hc, rfl⟩ := List.mem_map.1 hx
    obtain ⟨i, e⟩ := hidx c (h c hc)
    rw [e] at hn
    cases hn
  rw [if_neg hany]
  cases ch with
  | nil => exact absurd rfl hne
  | cons c cs =>
    obtain ⟨i, e⟩ := hidx c (h c (List.mem_cons_self ..))
    simp only [List.map_cons, e]

/-- The certificate issued has a chain in `extraCerts`, and its issuer there the extended key usage which is asked for. -/
def IssuedOk [DecidableEq N] (env : BodyEnv C N K I) (m : KMsg C) (i : Nat) (s : Strictness) (eku : List String) : Prop :=
  ∃ extra r c k iss rest, m.extra = some extra ∧ m.resps[i]? = some r ∧ r.pair = some ⟨.cert c, k⟩ ∧
    buildChain env.ch c extra = .ok (c :: iss :: rest) ∧ validateEku (env.ch.eku iss) eku s = .ok ()

/-- The protection is complete and verified, with a chain from the first certificate if there are more; without
`extraCerts` it is not verified. -/
def ProtOk [DecidableEq N] (env : BodyEnv C N K I) (p : ProtInfo) (m : KMsg C) (allowSelf : Bool) : Prop :=
  p.alg = true ∧ p.value = true ∧ (m.extra = none → allowSelf = true) ∧ (m.extra ≠ none → p.verify = .ok ()) ∧
    ∀ c d l, m.extra = some (c :: d :: l) → ∃ chain, buildChain env.ch c (c :: d :: l) = .ok chain

theorem presence_iff (a v : Bool) : presenceCheck a v true = .ok () ↔ a = true ∧ v = true := by
  cases a <;> cases v <;> simp [presenceCheck]

theorem protCerts_iff [DecidableEq N] [DecidableEq I] (env : BodyEnv C N K I) (p : ProtInfo) (m : KMsg C) (allowSelf : Bool) :
    checkProtCerts env p m.extra allowSelf = .ok () ↔ ProtOk env p m allowSelf := by
  unfold checkProtCerts ProtOk
  cases hpc : presenceCheck p.alg p.value true with
  | error e =>
    refine ⟨fun h => (by cases h), fun h => ?_⟩
    rw [(presence_iff ..).2 ⟨h.1, h.2.1⟩] at hpc
    cases hpc
  | ok u =>
    obtain ⟨h1, h2⟩ := (presence_iff ..).1 hpc
    dsimp only
    cases he : m.extra with
    | none => cases allowSelf <;> simp [h1, h2]
    | some l =>
      cases l with
      | nil => simp [h1, h2]
      | cons c l =>
        cases l with
        | nil => simp [h1, h2]
        | cons d l =>
          dsimp only
          cases hv : p.verify with
          | error e => simp
          | ok u =>
            dsimp only
            cases hb : buildChain env.ch c (c :: d :: l) with
            | error e =>
              refine ⟨fun h => (by cases h), fun h => ?_⟩
              obtain ⟨ch, e⟩ := h.2.2.2.2 c d l rfl
              rw [hb] at e
              cases e
            | ok chain =>
              refine ⟨fun _ => ⟨h1, h2, fun h => (by cases h), fun _ => rfl, fun c' d' l' e => ?_⟩, fun _ => ?_⟩
              · cases e
                exact ⟨chain, hb⟩
              · obtain ⟨l', rfl, _, hm, _⟩ := Verif.Check.C121_links env.ch c _ _ chain hb
                refine orderLogged_ok env _ _ false ?_ (by simp)
                intro x hx
                rcases List.mem_cons.1 hx with rfl | hx
                · exact List.mem_cons_self ..
                · exact hm x hx

theorem issuedChain_iff [DecidableEq N] [DecidableEq I] (env : BodyEnv C N K I) (m : KMsg C) (i : Nat) (s : Strictness)
    (eku : List String) (hb : IsCaBody m.body) : checkIssuedChain env m i s eku = .ok () ↔ IssuedOk env m i s eku := by
  unfold checkIssuedChain IssuedOk
  cases he : m.extra with
  | none => simp
  | some extra =>
    dsimp only
    cases hk : kCert m i with
    | error e =>
      refine ⟨fun h => (by cases h), ?_⟩
      rintro ⟨_, r, c, k, _, _, _, h1, h2, _⟩
      rw [(kCert_iff ..).2 ⟨hb, r, k, h1, h2⟩] at hk
      cases hk
    | ok c =>
      obtain ⟨_, r, k, h1, h2⟩ := (kCert_iff ..).1 hk
      dsimp only
      cases hc : buildChain env.ch c extra with
      | error e =>
        refine ⟨fun h => (by cases h), ?_⟩
        rintro ⟨_, r', c', k', _, _, e0, e1, e2, e3, _⟩
        rw [h1] at e1
        cases e1
        rw [h2] at e2
        cases e2
        cases e0
        rw [hc] at e3
        cases e3
      | ok chain =>
        obtain ⟨l, rfl, _, hm, _⟩ := Verif.Check.C121_links env.ch c _ _ chain hc
        cases l with
        | nil =>
          refine ⟨fun h => (by cases h), ?_⟩
          rintro ⟨_, r', c', k', _, _, e0, e1, e2, e3, _⟩
          rw [h1] at e1
          cases e1
          rw [h2] at e2
          cases e2
          cases e0
          rw [hc] at e3
          cases e3
        | cons iss rest =>
          dsimp only
          cases hv : validateEku (env.ch.eku iss) eku s with
          | error e =>
            refine ⟨fun h => (by cases h), ?_⟩
            rintro ⟨_, r', c', k', _, _, e0, e1, e2, e3, e4⟩
            rw [h1] at e1
            cases e1
            rw [h2] at e2
            cases e2
            cases e0
            rw [hc] at e3
            cases e3
            rw [hv] at e4
            cases e4
          | ok u =>
            refine ⟨fun _ => ⟨extra, r, c, k, iss, rest, rfl, h1, h2, hc, hv⟩, fun _ => ?_⟩
            exact orderLogged_ok env _ _ true (fun x hx => hm x hx) (by simp)

/-- **C206.** The certificates are accepted if and only if: in `ip`, `cp` and `kup` the certificate issued has a chain and
an issuer with the extended key usage; and, unless the message is a confirmation or of polling and has none, a protection
with a traditional signature is complete and verified. -/
theorem C206_accepted_iff [DecidableEq N] [DecidableEq I] (env : BodyEnv C N K I) (p : ProtInfo) (m : KMsg C) (i : Nat)
    (allowSelf : Bool) (s : Strictness) (eku : List String) :
    checkExtra env p m i allowSelf s eku = .ok () ↔
      (m.body = "ip".toList ∨ m.body = "cp".toList ∨ m.body = "kup".toList → IssuedOk env m i s eku) ∧
      ((m.body = "pkiconf".toList ∨ m.body = "pollReq".toList ∨ m.body = "pollRep".toList) ∧ m.extra = none ∨
        ∃ t, p.type = .ok t ∧ (t = .tradSig → ProtOk env p m allowSelf)) := by
  unfold checkExtra
  have hm1 : m.body ∈ ["ip".toList, "cp".toList, "kup".toList] ↔
      (m.body = "ip".toList ∨ m.body = "cp".toList ∨ m.body = "kup".toList) := by
    simp only [List.mem_cons, List.not_mem_nil, or_false]
  have hm2 : m.body ∈ ["pkiconf".toList, "pollReq".toList, "pollRep".toList] ↔
      (m.body = "pkiconf".toList ∨ m.body = "pollReq".toList ∨ m.body = "pollRep".toList) := by
    simp only [List.mem_cons, List.not_mem_nil, or_false]
  have hfirst : (if m.body ∈ ["ip".toList, "cp".toList, "kup".toList] then checkIssuedChain env m i s eku else .ok () :
      Except PyErr Unit) = .ok () ↔
      (m.body = "ip".toList ∨ m.body = "cp".toList ∨ m.body = "kup".toList → IssuedOk env m i s eku) := by
    by_cases h : m.body ∈ ["ip".toList, "cp".toList, "kup".toList]
    · rw [if_pos h]
      have h' := hm1.1 h
      have hb : IsCaBody m.body := by
        rcases h' with h | h | h <;> rw [h]
        · exact .ip
        · exact .cp
        · exact .kup
      rw [issuedChain_iff env m i s eku hb]
      exact ⟨fun x _ => x, fun x => x h'⟩
    · rw [if_neg h]
      exact ⟨fun _ h' => absurd (hm1.2 h') h, fun _ => rfl⟩
  rw [← hfirst]
  generalize (if m.body ∈ ["ip".toList, "cp".toList, "kup".toList] then checkIssuedChain env m i s eku else .ok () :
      Except PyErr Unit) = first
  cases first with
  | error e => exact ⟨fun h => (by cases h), fun h => (by cases h.1)⟩
  | ok u =>
    dsimp only
    by_cases h2 : m.body ∈ ["pkiconf".toList, "pollReq".toList, "pollRep".toList] ∧ m.extra = none
    · rw [if_pos h2]
      exact ⟨fun _ => ⟨rfl, .inl ⟨hm2.1 h2.1, h2.2⟩⟩, fun _ => rfl⟩
    · rw [if_neg h2]
      have hno : ¬ ((m.body = "pkiconf".toList ∨ m.body = "pollReq".toList ∨ m.body = "pollRep".toList) ∧ m.extra = none) :=
        fun h => h2 ⟨hm2.2 h.1, h.2⟩
      cases ht : p.type with
      | error e =>
        refine ⟨fun h => (by cases h), ?_⟩
        rintro ⟨_, h | ⟨t, h, _⟩⟩
        · exact absurd h hno
        · cases h
      | ok t =>
        dsimp only
        by_cases h3 : t = .tradSig
        · rw [if_pos h3, protCerts_iff]
          refine ⟨fun h => ⟨rfl, .inr ⟨t, rfl, fun _ => h⟩⟩, ?_⟩
          rintro ⟨_, h | ⟨t', h, h'⟩⟩
          · exact absurd h hno
          · cases h
            exact h' h3
        · rw [if_neg h3]
          exact ⟨fun _ => ⟨rfl, .inr ⟨t, rfl, fun h => absurd h h3⟩⟩, fun _ => rfl⟩

/-- **C206 refuted.** With a post-quantum, composite or stateful signature nothing is asked of the protection: in messages
other than `ip`, `cp` and `kup` the certificates may be missing and the signature be wrong. -/
theorem C206_pq_refuted [DecidableEq N] [DecidableEq I] (env : BodyEnv C N K I) (p : ProtInfo) (m : KMsg C) (i : Nat)
    (allowSelf : Bool) (s : Strictness) (eku : List String) (t : ProtType) (ht : p.type = .ok t)
    (h : t = .pqSig ∨ t = .compositeSig ∨ t = .pqStateful) (hb : m.body = "rp".toList) :
    checkExtra env p m i allowSelf s eku = .ok () := by
  refine (C206_accepted_iff ..).2 ⟨?_, .inr ⟨t, ht, fun e => ?_⟩⟩
  · rw [hb]
    intro h
    rcases h with h | h | h <;> exact absurd h (by decide +kernel)
  · rw [e] at h
    rcases h with h | h | h <;> cases h

/-- **C206 refuted.** A refusal in an `ip`, `cp` or `kup` is not accepted, whatever certificates protect it: it has no
certificate to build the chain of. -/
theorem C206_refusal_refuted [DecidableEq N] [DecidableEq I] (env : BodyEnv C N K I) (p : ProtInfo) (m : KMsg C) (i : Nat)
    (allowSelf : Bool) (s : Strictness) (eku : List String) (r : KResp C)
    (hb : m.body = "ip".toList ∨ m.body = "cp".toList ∨ m.body = "kup".toList) (hr : m.resps[i]? = some r) (hp : NoPair r) :
    checkExtra env p m i allowSelf s eku ≠ .ok () := by
  intro h
  obtain ⟨_, r', c, k, _, _, _, h1, h2, _⟩ := ((C206_accepted_iff ..).1 h).1 hb
  rw [hr] at h1
  cases h1
  have := hp _ h2
  cases this

/-- **C206 refuted.** With `allow_self_signed` a missing `extraCerts` field is accepted whoever signed the message: the
signature is not verified, so it need not be one by a self-signed certificate. -/
theorem C206_absent_refuted [DecidableEq N] [DecidableEq I] (env : BodyEnv C N K I) (p : ProtInfo) (m : KMsg C) (i : Nat)
    (s : Strictness) (eku : List String) (ht : p.type = .ok .tradSig) (ha : p.alg = true) (hv : p.value = true)
    (hb : m.body = "rp".toList) (he : m.extra = none) :
    ∀ bad, checkExtra env { p with verify := .error bad } m i true s eku = .ok () := by
  intro bad
  refine (C206_accepted_iff ..).2 ⟨?_, .inr ⟨.tradSig, ht, fun _ => ?_⟩⟩
  · rw [hb]
    intro h
    rcases h with h | h | h <;> exact absurd h (by decide +kernel)
  · refine ⟨ha, hv, fun _ => rfl, fun h => absurd he h, fun c d l h => ?_⟩
    rw [he] at h
    cases h

/-! ## C207: the header -/

/-- The two checks of the sender, together. -/
theorem senderBoth_iff {V : Type} [DecidableEq V] (env : SenderEnv V C) (m : SMsg V C) :
    (checkSender env true false m = .ok () ∧ validateKid env none true false m = .ok ()) ↔
      m.protection = true ∧ ∃ p kid, m.alg = some (some p) ∧ m.kid = some kid ∧ GoodSender env p m.sender kid m.extra := by
  rw [← C189_accepted_iff]
  unfold senderChecks
  cases checkSender env true false m with
  | error e => simp
  | ok u => simp

/-- The time of a response: with the time of the request it is not too long after it; without one it is not in the future
and not too old. -/
def TimeOk (t req : Option Int) (now iv : Int) : Prop :=
  ∃ x, t = some x ∧ (∀ q, req = some q → x ≤ q + iv) ∧ (req = none → x ≤ now ∧ now ≤ x + iv)

theorem time_iff (h : Hdr) (iv now : Int) (req : Option Int) :
    checkMessageTime h (some iv) req now = .ok () ↔ TimeOk h.time req now iv := by
  unfold TimeOk
  cases req with
  | none =>
    rw [Verif.Check.C96_request_time]
    simp
  | some q =>
    cases ht : h.time with
    | none =>
      unfold checkMessageTime
      rw [ht]
      by_cases hc : h.confirmWaitTime <;> simp [hc]
    | some t =>
      rw [Verif.Check.C96_response_time_partial h iv q now t ht]
      constructor
      · intro hh
        refine ⟨t, rfl, fun q' e => ?_, fun e => (by cases e)⟩
        cases e
        omega
      · rintro ⟨x, e, hh, _⟩
        cases e
        have := hh q rfl
        omega

/-- **C207.** With `allow_failure_sender=False` the header of a protected response is accepted if and only if the version
is 2 or 3, the sender and the senderKID belong to the protection (C189), generalInfo is correct (C186), the time is in
the interval, and identifier and nonces are long enough and those of the request. -/
theorem C207_accepted_iff {V : Type} [DecidableEq V] (env : SenderEnv V C) (ie : InfoEnv) (now iv : Int) (m : RespMsg V C) (r : Hdr) :
    checkHeader env ie now m (some r) true (some iv) false = .ok () ↔
      (m.pvno = some 2 ∨ m.pvno = some 3) ∧ m.snd.protection = true ∧
      (∃ p kid, m.snd.alg = some (some p) ∧ m.snd.kid = some kid ∧ GoodSender env p m.snd.sender kid m.snd.extra) ∧
      GoodInfo ie now m.body m.info ∧ TimeOk m.hdr.time r.time now iv ∧
      ∃ t n s, m.hdr.txId = some t ∧ r.txId = some t ∧ t.length = 16 ∧ m.hdr.recipNonce = some n ∧
        r.senderNonce = some n ∧ m.hdr.senderNonce = some s ∧ 16 ≤ n.length ∧ 16 ≤ s.length := by
  have h25 := Verif.Check.C25_header_iff m.hdr r false
  have h25' : validateSenderRecipient m.hdr r false = .ok () ↔
      ∃ t n s, m.hdr.txId = some t ∧ r.txId = some t ∧ t.length = 16 ∧ m.hdr.recipNonce = some n ∧
        r.senderNonce = some n ∧ m.hdr.senderNonce = some s ∧ 16 ≤ n.length ∧ 16 ≤ s.length := by
    rw [h25]
    constructor
    · rintro ⟨⟨t, n, s, a, b, c, d, e, f, g, h⟩, _⟩
      exact ⟨t, n, s, a, b, c, d, e, f, by omega, by omega⟩
    · rintro ⟨t, n, s, a, b, c, d, e, f, g, h⟩
      exact ⟨⟨t, n, s, a, b, c, d, e, f, by omega, by omega⟩, fun h => (by cases h)⟩
  have hs := senderBoth_iff env m.snd
  rw [← h25', ← C186_accepted_iff, ← time_iff]
  unfold checkHeader
  cases hv : m.pvno with
  | none => simp
  | some v =>
    dsimp only
    have hv' : (some v = some 2 ∨ some v = some 3) ↔ ¬ (v ≠ 2 ∧ v ≠ 3) := by
      constructor
      · rintro (h | h) <;> injection h with h <;> omega
      · intro h
        have : v = 2 ∨ v = 3 := by omega
        rcases this with rfl | rfl
        · exact .inl rfl
        · exact .inr rfl
    by_cases h1 : v ≠ 2 ∧ v ≠ 3
    · rw [if_pos h1]
      exact ⟨fun h => (by cases h), fun h => absurd h1 (hv'.1 h.1)⟩
    · rw [if_neg h1]
      have hv1 := hv'.2 h1
      cases hp : presenceCheck m.snd.alg.isSome m.snd.protection true with
      | error e =>
        refine ⟨fun h => (by cases h), ?_⟩
        rintro ⟨_, h2, ⟨p, kid, h3, _⟩, _⟩
        rw [h2, h3] at hp
        cases hp
      | ok u =>
        dsimp only
        cases hc : checkSender env true false m.snd with
        | error e =>
          refine ⟨fun h => (by cases h), ?_⟩
          rintro ⟨_, h2, h3, _⟩
          have := (hs.2 ⟨h2, h3⟩).1
          rw [hc] at this
          cases this
        | ok u =>
          dsimp only
          cases hk : validateKid env none true false m.snd with
          | error e =>
            refine ⟨fun h => (by cases h), ?_⟩
            rintro ⟨_, h2, h3, _⟩
            have := (hs.2 ⟨h2, h3⟩).2
            rw [hk] at this
            cases this
          | ok u =>
            obtain ⟨h2, h3⟩ := hs.1 ⟨hc, hk⟩
            dsimp only
            cases hg : checkGenInfo ie now m.body m.info with
            | error e => exact ⟨fun h => (by cases h), fun h => (by cases h.2.2.2.1)⟩
            | ok u =>
              dsimp only [Option.bind]
              cases ht : checkMessageTime m.hdr (some iv) r.time now with
              | error e => exact ⟨fun h => (by cases h), fun h => (by cases h.2.2.2.2.1)⟩
              | ok u =>
                exact ⟨fun h => ⟨hv1, h2, h3, rfl, rfl, h⟩, fun h => h.2.2.2.2.2⟩

/-- **C207 refuted.** `allow_failure_sender` is documented for the MAC-based protection and set by default, but the sender
of a message with a signature need not be the subject of its certificate either. -/
theorem C207_default_sender_refuted {V : Type} [DecidableEq V] (env : SenderEnv V C) (m : SMsg V C) (p : ProtType)
    (hp : p ≠ .mac ∧ p ≠ .kem) (ha : m.alg = some (some p)) (hpr : m.protection = true)
    (h : compareGn env m.sender (firstSubject env m.extra) = .ok false) :
    checkSender env true true m = .ok () ∧ checkSender env true false m = .error .badMessageCheck := by
  unfold checkSender
  rw [ha, hpr]
  refine ⟨?_, ?_⟩ <;>
    · dsimp only [presenceCheck, Option.isSome]
      rw [if_neg (by simp), if_pos (by simp)]
      dsimp only
      rw [if_neg (by rintro (h | h); exact hp.1 h; exact hp.2 h), h]
      rfl

/-! ## Concrete cases -/

open Verif.Check (TCert tEnv tRoot tDev tForged tSub tEnd)

/-- The trust store holds the root. -/
def exBody : BodyEnv TCert Nat Nat Nat where
  ch := tEnv
  anchors := .ok [tRoot]
  ident := (·.subj)

/-- An `ip` with the device certificate. -/
def exIp : KMsg TCert where
  pvno := 2
  body := "ip".toList
  resps := [{ id := some 0, info := { status := some 0 }, pair := some ⟨.cert tDev, none⟩ }]
  caPubs := some [tRoot]
  extra := some [tSub, tRoot]

def isOk {A : Type} (x : Except PyErr A) : Bool :=
  match x with
  | .ok _ => true
  | .error _ => false

example : isOk (checkBody exBody exIp true false 1 0) = true ∧ isOk (checkBody exBody exIp false false 1 0) = false ∧
    isOk (checkBody exBody exIp true true 1 0) = false ∧
    isOk (checkBody exBody { exIp with caPubs := some [tSub] } true false 1 0) = false ∧
    isOk (checkBody exBody { exIp with body := "kup".toList } true false 1 0) = false ∧
    isOk (checkBody exBody { exIp with body := "kup".toList, caPubs := none } true false 1 0) = true := by decide +kernel

-- A `cp` with `caPubs` is accepted by the check of the body, though not by the check of the field.
example : isOk (checkBody exBody { exIp with body := "cp".toList } true false 1 0) = true ∧
    isOk (checkCaPubs exBody { exIp with body := "cp".toList } 0 false) = false := by decide +kernel

-- A refusal.
def exRefusal : KMsg TCert :=
  { exIp with caPubs := none, resps := [{ id := some 0, info := { status := some 2 }, pair := none }] }
example : isOk (checkBody exBody exRefusal true false 1 0) = true ∧
    isOk (checkBody exBody { exRefusal with caPubs := some [] } true false 1 0) = false := by decide +kernel

-- The certificate is gone after the check.
example : isOk (kCert exIp 0) = true ∧ (match checkBody exBody exIp true false 1 0 with
    | .ok m => isOk (kCert m 0)
    | .error _ => true) = false := by decide +kernel

-- `extraCerts`.
def exProt : ProtInfo := ⟨.ok .tradSig, true, true, .ok ()⟩
example : isOk (checkExtra exBody exProt exIp) = true ∧
    isOk (checkExtra exBody exProt { exIp with extra := some [tSub] }) = false ∧
    isOk (checkExtra exBody { exProt with verify := .error .invalidSignature } exIp) = false ∧
    isOk (checkExtra exBody { exProt with verify := .error .invalidSignature, type := .ok .pqSig } exIp) = true ∧
    isOk (checkExtra exBody exProt { exRefusal with body := "ip".toList }) = false ∧
    isOk (checkExtra exBody exProt exIp 0 false .strict) = false ∧
    isOk (checkExtra exBody { exProt with value := false } { exIp with body := "pkiconf".toList, extra := none }) = true := by
  decide +kernel

-- The header.
def exReqHdr : Hdr := { txId := some (List.replicate 16 9), senderNonce := some (List.replicate 16 1), time := some 100 }
def exRm : RespMsg (List Char) (Dn (List Char) × Option Bytes) where
  pvno := some 2
  hdr := { txId := some (List.replicate 16 9), senderNonce := some (List.replicate 16 2),
           recipNonce := some (List.replicate 16 1), time := some 120 }
  snd := ⟨.dir (exCn "a"), some [7], some (some .tradSig), true, [(exCn "a", some [7])]⟩
  body := "ip"
  info := []
example : okInfo (checkHeader exSend exInfo 130 exRm (some exReqHdr) true (some 60) false) = true ∧
    okInfo (checkHeader exSend exInfo 130 exRm (some exReqHdr) true (some 10) false) = false ∧
    okInfo (checkHeader exSend exInfo 130 { exRm with pvno := some 1 } (some exReqHdr) true (some 60) false) = false ∧
    okInfo (checkHeader exSend exInfo 130 exRm (some { exReqHdr with txId := some [1] }) true (some 60) false) = false := by
  decide +kernel

-- The sender is not the subject of the certificate: refused if failures are not allowed, accepted by default.
def exSwapped : RespMsg (List Char) (Dn (List Char) × Option Bytes) :=
  { exRm with snd := ⟨.dir (exCn "b"), some [7], some (some .tradSig), true, [(exCn "a", some [7])]⟩ }
example : okInfo (checkHeader exSend exInfo 130 exSwapped (some exReqHdr) true (some 60) false) = false ∧
    okInfo (checkHeader exSend exInfo 130 exSwapped (some exReqHdr)) = true := by decide +kernel

end Verif.Ra
