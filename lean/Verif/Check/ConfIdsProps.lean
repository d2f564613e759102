import Verif.Check.ConfIds

/-!
# C260: the identifiers of a confirmation and of the message it is compared to
-/

namespace Verif.Check

open Verif.CA (Bytes PyErr)

theorem sameField_ok (a : Bytes) (b : Option Bytes) (e : PyErr) : sameField a b e = .ok () ↔ b = some a := by
  unfold sameField
  cases b with
  | none => simp
  | some b =>
    by_cases h : a = b
    · simp [h]
    · simp [h, Ne.symm h]

theorem confLengths_ok (tx s r : Bytes) : confLengths tx s r = .ok () ↔ tx.length = 16 ∧ s.length = 16 ∧ r.length = 16 := by
  unfold confLengths
  by_cases h1 : tx.length = 16 <;> by_cases h2 : s.length = 16 <;> by_cases h3 : r.length = 16 <;> simp [h1, h2, h3]

/-- C260: a confirmation is accepted exactly if it has three identifiers of 16 bytes, the transaction is that of the other
message, and each of the nonces is the other nonce of that message. -/
theorem C260_iff (h : Hdr) (resp : Option Hdr) : validateIds h "certConf" resp = .ok () ↔
    ∃ tx s r o, h.txId = some tx ∧ h.senderNonce = some s ∧ h.recipNonce = some r ∧ tx.length = 16 ∧ s.length = 16 ∧
      r.length = 16 ∧ resp = some o ∧ o.txId = some tx ∧ o.senderNonce = some r ∧ o.recipNonce = some s := by
  unfold validateIds
  rw [if_pos rfl]
  cases resp with
  | none => simp
  | some o =>
    dsimp only
    unfold validateConfIds
    rw [if_neg (by decide)]
    cases hs : h.senderNonce with
    | none => simp
    | some s =>
      cases ht : h.txId with
      | none => simp
      | some tx =>
        cases hr : h.recipNonce with
        | none => simp
        | some r =>
          dsimp only
          cases hl : confLengths tx s r with
          | error e =>
            have hno : ¬ (tx.length = 16 ∧ s.length = 16 ∧ r.length = 16) := by rw [← confLengths_ok, hl]; simp
            constructor
            · exact fun h' => (nomatch h')
            · rintro ⟨tx', s', r', o', e1, e2, e3, l1, l2, l3, _⟩
              cases e1; cases e2; cases e3
              exact absurd ⟨l1, l2, l3⟩ hno
          | ok u =>
            cases u
            obtain ⟨l1, l2, l3⟩ := (confLengths_ok _ _ _).1 hl
            dsimp only
            have hm : confMatches tx s r o = .ok () ↔
                o.txId = some tx ∧ o.senderNonce = some r ∧ o.recipNonce = some s := by
              unfold confMatches
              cases h1 : sameField r o.senderNonce .badRecipientNonce with
              | error e =>
                have : ¬ o.senderNonce = some r := by rw [← sameField_ok r _ .badRecipientNonce, h1]; simp
                simp [this]
              | ok u1 =>
                cases u1
                have a1 := (sameField_ok ..).1 h1
                dsimp only
                cases h2 : sameField tx o.txId .badRequest with
                | error e =>
                  have : ¬ o.txId = some tx := by rw [← sameField_ok tx _ .badRequest, h2]; simp
                  simp [this]
                | ok u2 =>
                  cases u2
                  have a2 := (sameField_ok ..).1 h2
                  dsimp only
                  rw [sameField_ok]
                  simp [a1, a2]
            rw [hm]
            constructor
            · rintro ⟨a, b, c⟩
              exact ⟨tx, s, r, o, rfl, rfl, rfl, l1, l2, l3, rfl, a, b, c⟩
            · rintro ⟨tx', s', r', o', e1, e2, e3, _, _, _, e4, a, b, c⟩
              cases e1; cases e2; cases e3; cases e4
              exact ⟨a, b, c⟩

/-- C260: a missing identifier is named by the error, the nonce of the sender before the transaction before the other
nonce. -/
theorem C260_missing (h : Hdr) (o : Hdr) :
    (h.senderNonce = none → validateIds h "certConf" (some o) = .error .badSenderNonce) ∧
    (h.senderNonce ≠ none → h.txId = none → validateIds h "certConf" (some o) = .error .badDataFormat) ∧
    (h.senderNonce ≠ none → h.txId ≠ none → h.recipNonce = none →
      validateIds h "certConf" (some o) = .error .badRecipientNonce) := by
  unfold validateIds
  rw [if_pos rfl]
  dsimp only
  unfold validateConfIds
  rw [if_neg (by decide)]
  cases h.senderNonce <;> cases h.txId <;> cases h.recipNonce <;> simp

/-- C260: a confirmation is never accepted without the other message, and another body is never compared to it. -/
theorem C260_other (h : Hdr) (body : String) (resp : Option Hdr) :
    validateIds h "certConf" none = .error .valueError ∧
    (body ≠ "certConf" → validateIds h body resp = validateIds h body none) := by
  refine ⟨rfl, fun hb => ?_⟩
  unfold validateIds
  rw [if_neg hb, if_neg hb]

/-- C260, refuted: that the confirmation of a correct transaction is accepted.  The confirmation answers `ip` and has a nonce
of its own (RFC 9483, 3.1); compared to `ip` it gives `BadSenderNonce`, and compared to `pkiconf`, which again has a nonce of
its own, `BadRecipientNonce`: both nonces would have to be used a second time. -/
theorem C260_fresh_refuted (ip conf pk : Hdr) (tx s1 s2 r1 : Bytes) (htx : tx.length = 16)
    (hs2 : s2.length = 16) (hr1 : r1.length = 16)
    (hip : ip.txId = some tx ∧ ip.senderNonce = some r1 ∧ ip.recipNonce = some s1)
    (hconf : conf.txId = some tx ∧ conf.senderNonce = some s2 ∧ conf.recipNonce = some r1)
    (r2 : Bytes) (hpk : pk.txId = some tx ∧ pk.senderNonce = some r2 ∧ pk.recipNonce = some s2)
    (hfresh : s2 ≠ s1 ∧ r2 ≠ r1) :
    validateIds conf "certConf" (some ip) = .error .badSenderNonce ∧
    validateIds conf "certConf" (some pk) = .error .badRecipientNonce := by
  have hl := (confLengths_ok tx s2 r1).2 ⟨htx, hs2, hr1⟩
  have red : ∀ o, validateIds conf "certConf" (some o) = confMatches tx s2 r1 o := by
    intro o
    unfold validateIds
    rw [if_pos rfl]
    dsimp only
    unfold validateConfIds
    rw [if_neg (by decide), hconf.1, hconf.2.1, hconf.2.2]
    dsimp only
    rw [hl]
  rw [red, red]
  unfold confMatches sameField
  rw [hip.1, hip.2.1, hip.2.2, hpk.1, hpk.2.1, hpk.2.2]
  constructor
  · simp [hfresh.1]
  · simp [Ne.symm hfresh.2]

/-- C260, refuted: that the check of the mock CA, which gives no other message, can be used for confirmations: there is always a
`ValueError`; and a `nested` request gives `NotImplementedError` though the message says it is not nested. -/
theorem C260_handler_refuted (h : Hdr) : validateIds h "certConf" none = .error .valueError ∧
    validateIds h "nested" none = .error .notImplemented := ⟨rfl, rfl⟩

/-! ## Examples -/

/-- A value of 16 bytes. -/
def exId (b : UInt8) : Bytes := [b, b, b, b, b, b, b, b, b, b, b, b, b, b, b, b]

/-- The certificate response, and the confirmation with a nonce of its own. -/
def exIp : Hdr := { txId := some (exId 1), senderNonce := some (exId 2), recipNonce := some (exId 3) }
def exConf : Hdr := { txId := some (exId 1), senderNonce := some (exId 4), recipNonce := some (exId 2) }
def exPkiConf : Hdr := { txId := some (exId 1), senderNonce := some (exId 5), recipNonce := some (exId 4) }

example : validateIds exConf "certConf" (some exIp) = .error .badSenderNonce ∧
    validateIds exConf "certConf" (some exPkiConf) = .error .badRecipientNonce :=
  C260_fresh_refuted exIp exConf exPkiConf (exId 1) (exId 3) (exId 4) (exId 2) rfl rfl rfl ⟨rfl, rfl, rfl⟩ ⟨rfl, rfl, rfl⟩
    (exId 5) ⟨rfl, rfl, rfl⟩ (by decide)
example : validateIds { exConf with senderNonce := some (exId 3) } "certConf" (some exIp) = .ok () := by decide +kernel
example : validateIds { exConf with senderNonce := some [3] } "certConf" (some exIp) = .error .badSenderNonce := by
  decide +kernel
example : validateIds { exConf with senderNonce := some (exId 3), txId := some (exId 9) } "certConf" (some exIp) =
    .error .badRequest := by decide +kernel
example : validateIds { exConf with senderNonce := some (exId 3) } "certConf" (some { exIp with txId := none }) =
    .error .pyasn1Error := by decide +kernel
example : validateIds { exIp with recipNonce := none } "ir" none = .ok () := by decide +kernel

end Verif.Check
