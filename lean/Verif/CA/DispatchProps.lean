import Verif.CA.Dispatch
import Verif.CA.CertDBProps
import Verif.CA.RevListProps
import Verif.CA.RevokeProps

/-!
# Properties of the request dispatcher: C24, and C11 as served
-/

namespace Verif.CA

variable {C D R S P : Type}

/-! ## Specification of the checks -/

/-- The protection of a request is present, of a supported algorithm and valid. -/
structure Protected (st : CaSt C D R S) (q : DReq C S P) : Prop where
  present : q.protection = true
  supported : q.inProfile = true
  valid : ∃ p, q.alg = some (.ok p) ∧
    (p ≠ .kem → q.verdict = .ok ()) ∧
    (p = .kem → ∃ tx e, q.m.txId = some tx ∧ kemFind st.kems tx = some e ∧ q.kemMac e.ss = true ∧
      (q.m.body ≠ "certConf" → e.used = false))

/-- What a request must satisfy before anything is done for it. -/
structure Passed [DecidableEq D] (H : C → D) (keyOf : C → PKey P) (rev : RevState C D) (st : CaSt C D R S)
    (q : DReq C S P) : Prop where
  /-- The first extra certificate is neither revoked nor updated; for the initial and further requests it does
  not wait for the confirmation of its update either. -/
  signer : ∀ c, q.m.extraCerts.head? = some c → q.m.body ≠ "rr" →
    st.sys.db.getCertState H c ≠ .revoked ∧
    ∀ e, findDigest (H c) st.sys.db.updateEntries = some e → e.state ≠ .updated ∧
      (q.m.body = "ir" ∨ q.m.body = "cr" ∨ q.m.body = "p10cr" → False)
  rrSigner : ∀ c, q.m.extraCerts.head? = some c → q.m.body = "rr" →
    st.sys.db.getCertState H c ≠ .updatedNotConfirmed
  prot : q.m.body ≠ "rr" → q.m.body ≠ "genm" → Protected st q
  csr : q.m.body = "p10cr" → ∃ k, q.csrKey = .ok k ∧ ∀ e ∈ rev.rev, ¬ SharesKey k (keyOf e.cert)
  keys : q.m.body = "ir" ∨ q.m.body = "cr" ∨ q.m.body = "kur" →
    ∃ ks, q.keys = .ok ks ∧
      ∀ pre k post, ks = pre ++ some k :: post → (∀ x ∈ pre, x ≠ none) → ∀ e ∈ rev.rev, ¬ SharesKey k (keyOf e.cert)
  confirmed : q.m.body ≠ "certConf" → q.m.body ≠ "error" → ∀ p, q.alg = some (.ok p) → p ≠ .mac →
    ∀ c ∈ q.m.extraCerts, ∀ x ∈ st.sys.conf.toBeConf, c ∉ x.2

theorem checkAllowed_ok [DecidableEq D] {H : C → D} {db : DB C D R} {body : String} {xs : List C} {now : Int}
    (h : checkAllowed H db body xs now = .ok ()) :
    (∀ c, xs.head? = some c → body ≠ "rr" → db.getCertState H c ≠ .revoked ∧
      ∀ e, findDigest (H c) db.updateEntries = some e → e.state ≠ .updated ∧
        (body = "ir" ∨ body = "cr" ∨ body = "p10cr" → False)) ∧
    (∀ c, xs.head? = some c → body = "rr" → db.getCertState H c ≠ .updatedNotConfirmed) := by
  constructor
  · intro c hc hb
    unfold checkAllowed at h
    rw [hc] at h; dsimp only at h
    rw [if_pos hb] at h
    by_cases hr : db.getCertState H c = .revoked
    · rw [if_pos hr] at h; cases h
    rw [if_neg hr] at h
    refine ⟨hr, fun e he => ?_⟩
    have hs : e.state ≠ .updated := by
      intro hu
      rw [C19_confirmed_update_rejects H db body c false now e he hu] at h
      cases h
    refine ⟨hs, fun hk => ?_⟩
    have hn : e.state = .updatedNotConfirmed := by
      have := (findDigest_some he).1
      unfold DB.updateEntries at this
      have := (List.mem_filter.mp this).2
      simp only [Bool.decide_or, Bool.or_eq_true, decide_eq_true_eq] at this
      exact this.resolve_left hs
    unfold validateIsUpdated at h
    rw [he] at h; dsimp only at h
    rw [if_neg (fun x => hs x.1)] at h
    have h1 : body ≠ "certConf" := by rintro rfl; simp at hk
    have h2 : body ≠ "kur" := by rintro rfl; simp at hk
    rw [if_neg h1, if_neg h2, if_neg hb, if_pos ⟨hk, hn⟩] at h
    cases h
  · intro c hc hb hu
    unfold checkAllowed at h
    rw [hc] at h; dsimp only at h
    rw [if_neg (by simp [hb]), if_pos hu] at h
    cases h

theorem verifyProtection_ok {st : CaSt C D R S} {q : DReq C S P} (h : verifyProtection st q = .ok ()) :
    Protected st q := by
  unfold verifyProtection at h
  by_cases h0 : q.alg.isSome = true ∧ q.inProfile = false
  · rw [if_pos h0] at h; cases h
  rw [if_neg h0] at h
  unfold protPresent at h
  by_cases h1 : q.alg.isSome = true ∧ q.protection = true
  · rw [if_pos h1] at h
    dsimp only at h
    refine ⟨h1.2, ?_, ?_⟩
    · cases hp : q.inProfile with
      | true => rfl
      | false => exact absurd ⟨h1.1, hp⟩ h0
    · cases hs : q.stflCheck with
      | error e => rw [hs] at h; cases h
      | ok u =>
      rw [hs] at h; dsimp only at h
      rcases ha : q.alg with _ | e | p
      · rw [ha] at h; cases h
      · rw [ha] at h; cases h
      rw [ha] at h
      by_cases hk : p = .kem
      · subst hk
        refine ⟨.kem, rfl, fun x => absurd rfl x, fun _ => ?_⟩
        dsimp only at h
        cases ht : q.m.txId with
        | none => rw [ht] at h; cases h
        | some tx =>
          rw [ht] at h; dsimp only at h
          unfold kemVerify at h
          cases hf : kemFind st.kems tx with
          | none => rw [hf] at h; cases h
          | some e =>
            rw [hf] at h; dsimp only at h
            refine ⟨tx, e, rfl, hf, ?_⟩
            by_cases hb : q.m.body = "certConf"
            · rw [if_pos hb] at h
              cases hm : q.kemMac e.ss with
              | true => exact ⟨rfl, fun x => absurd hb x⟩
              | false => simp [hm] at h
            · rw [if_neg hb] at h
              cases hu : e.used with
              | true => simp [hu] at h
              | false =>
                cases hm : q.kemMac e.ss with
                | true => exact ⟨rfl, fun _ => rfl⟩
                | false => simp [hu, hm] at h
      · refine ⟨p, rfl, fun _ => ?_, fun x => absurd x hk⟩
        cases p <;> first | exact h | exact absurd rfl hk
  · rw [if_neg h1] at h; cases h

theorem checkKey_ok [DecidableEq P] {keyOf : C → PKey P} {rev : RevState C D} {q : DReq C S P}
    (h : checkKey keyOf rev q = .ok ()) :
    (q.m.body = "p10cr" → ∃ k, q.csrKey = .ok k ∧ ∀ e ∈ rev.rev, ¬ SharesKey k (keyOf e.cert)) ∧
    (q.m.body = "ir" ∨ q.m.body = "cr" ∨ q.m.body = "kur" → ∃ ks, q.keys = .ok ks ∧
      ∀ pre k post, ks = pre ++ some k :: post → (∀ x ∈ pre, x ≠ none) →
        ∀ e ∈ rev.rev, ¬ SharesKey k (keyOf e.cert)) := by
  unfold checkKey at h
  constructor
  · intro hb
    dsimp only at h
    rw [if_pos hb] at h
    cases hk : q.csrKey with
    | error e => rw [hk] at h; cases h
    | ok k =>
      rw [hk] at h; dsimp only at h
      refine ⟨k, rfl, fun e he hs => ?_⟩
      have := (C12_exact keyOf rev "p10cr" k []).mpr (.inl ⟨rfl, e, he, hs⟩)
      unfold RevState.checkCompromised at this
      rw [if_pos rfl] at this
      rw [if_pos this] at h; cases h
  · intro hb
    dsimp only at h
    have h1 : q.m.body ≠ "p10cr" := by rcases hb with e | e | e <;> rw [e] <;> decide
    have h2 : q.m.body = "ir" ∨ q.m.body = "cr" ∨ q.m.body = "crr" ∨ q.m.body = "kur" := by
      rcases hb with e | e | e
      · exact .inl e
      · exact .inr (.inl e)
      · exact .inr (.inr (.inr e))
    rw [if_neg h1, if_pos h2] at h
    cases hk : q.keys with
    | error e => rw [hk] at h; cases h
    | ok ks =>
      rw [hk] at h; dsimp only at h
      refine ⟨ks, rfl, fun pre k post hsp hpre e he hs => ?_⟩
      have := (C12_exact keyOf rev q.m.body k ks).mpr (.inr ⟨h2, pre, k, post, hsp, hpre, e, he, hs⟩)
      unfold RevState.checkCompromised at this
      rw [if_neg h1, if_pos h2] at this
      rw [if_pos this] at h; cases h

theorem checkOpen_ok [DecidableEq C] {s : ConfState C} {q : DReq C S P} (h : checkOpen s q = .ok ())
    (h1 : q.m.body ≠ "certConf") (h2 : q.m.body ≠ "error") (p : ProtType) (ha : q.alg = some (.ok p))
    (hp : p ≠ .mac) (c : C) (hc : c ∈ q.m.extraCerts) : ∀ x ∈ s.toBeConf, c ∉ x.2 := by
  intro x hx hm
  unfold checkOpen at h
  rw [if_neg (by intro he; rw [he] at hc; cases hc), ha] at h
  dsimp only at h
  rw [if_neg hp, if_neg (by simp [h1, h2]), if_pos] at h
  · cases h
  · rw [List.any_eq_true]
    exact ⟨c, hc, by unfold ConfState.isNotConfirmed; simp only [List.any_eq_true, decide_eq_true_eq]; exact ⟨x, hx, c, hm, rfl⟩⟩

theorem preChecks_ok [DecidableEq C] [DecidableEq D] [DecidableEq P] {H : C → D} {keyOf : C → PKey P}
    {rev : RevState C D} {st : CaSt C D R S} {q : DReq C S P} {now : Int}
    (h : preChecks H keyOf rev st q now = .ok ()) : Passed H keyOf rev st q := by
  unfold preChecks at h
  cases h1 : checkAllowed H st.sys.db q.m.body q.m.extraCerts now with
  | error e => rw [h1] at h; cases h
  | ok u =>
  rw [h1] at h; dsimp only at h
  cases h2 : (if q.m.body = "rr" ∨ q.m.body = "genm" then .ok () else verifyProtection st q : Except PyErr Unit) with
  | error e => rw [h2] at h; cases h
  | ok u =>
  rw [h2] at h; dsimp only at h
  cases h3 : (if q.m.body = "ir" ∨ q.m.body = "cr" ∨ q.m.body = "p10cr" ∨ q.m.body = "crr" ∨ q.m.body = "kur"
      ∨ q.m.body = "rr" then checkKey keyOf rev q else .ok () : Except PyErr Unit) with
  | error e => rw [h3] at h; cases h
  | ok u =>
  rw [h3] at h; dsimp only at h
  obtain ⟨a, b⟩ := checkAllowed_ok h1
  refine ⟨a, b, ?_, ?_, ?_, ?_⟩
  · intro hr hg
    rw [if_neg (by simp [hr, hg])] at h2
    exact verifyProtection_ok h2
  · intro hb
    rw [if_pos (.inr (.inr (.inl hb)))] at h3
    exact (checkKey_ok h3).1 hb
  · intro hb
    have : q.m.body = "ir" ∨ q.m.body = "cr" ∨ q.m.body = "p10cr" ∨ q.m.body = "crr" ∨ q.m.body = "kur"
        ∨ q.m.body = "rr" := by
      rcases hb with e | e | e
      · exact .inl e
      · exact .inr (.inl e)
      · exact .inr (.inr (.inr (.inr (.inl e))))
    rw [if_pos this] at h3
    exact (checkKey_ok h3).2 hb
  · intro hb he p ha hp c hc
    rw [if_neg (by simp [hb, he])] at h
    exact checkOpen_ok h hb he p ha hp c hc

/-! ## C24 -/

section
variable [DecidableEq C] [DecidableEq D] [DecidableEq P]

/-- Specification: an answer that grants nothing. -/
def Refusal (r : Except PyErr Answer) : Prop := ∀ b, r ≠ .ok (.response b)

omit [DecidableEq C] [DecidableEq D] [DecidableEq P] in
theorem map_ne {r : Except PyErr Unit} {a : Answer} (ha : ∀ b, a ≠ .response b) :
    Refusal (r.map (fun _ => a)) := by
  intro b h
  cases r with
  | error e => cases h
  | ok u => exact ha b (by simpa [Except.map] using h)

omit [DecidableEq C] [DecidableEq D] [DecidableEq P] in
theorem onError_refusal (sign : String → Except PyErr Unit) (q : DReq C S P) (e : PyErr) :
    Refusal (onError sign q e) := by
  unfold onError buildError
  by_cases h1 : e = .bodyRelevantError
  · rw [if_pos h1]
    cases hasBodyError q.m.body
    · exact map_ne (fun b => by simp)
    · exact map_ne (fun b => by simp)
  rw [if_neg h1]
  cases e.isCmp
  · cases e.isInvalidSig
    · exact map_ne (fun b => by simp)
    · exact map_ne (fun b => by simp)
  · exact map_ne (fun b => by simp)

/-- **C24.** Whatever the handlers do: if the state changed or a response other than a refusal was returned, the
request had passed the checks: its signer is not revoked or updated, its protection is present and valid (for all
bodies but rr and genm), none of its keys (up to a template without key) is compromised, and no certificate it
carries awaits confirmation. -/
theorem C24_effect_checked (H : C → D) (keyOf : C → PKey P) (cfg : ConfCfg) (env : ConfEnv C)
    (hs : Handlers C D R S P) (rev : RevState C D) (st : CaSt C D R S) (q : DReq C S P) (now : Int)
    (h : (process H keyOf cfg env hs rev st q now).2 ≠ st ∨
      ¬ Refusal (process H keyOf cfg env hs rev st q now).1) : Passed H keyOf rev st q := by
  cases hc : preChecks H keyOf rev st q now with
  | ok u => exact preChecks_ok hc
  | error e =>
    exfalso
    unfold process at h
    rw [hc] at h
    rcases h with h | h
    · exact h rfl
    · exact h (onError_refusal _ _ _)

/-- **C24.** A message that fails one of the checks changes nothing and is refused. -/
theorem C24_failed_no_effect (H : C → D) (keyOf : C → PKey P) (cfg : ConfCfg) (env : ConfEnv C)
    (hs : Handlers C D R S P) (rev : RevState C D) (st : CaSt C D R S) (q : DReq C S P) (now : Int)
    (h : ¬ Passed H keyOf rev st q) : (process H keyOf cfg env hs rev st q now).2 = st ∧
      Refusal (process H keyOf cfg env hs rev st q now).1 := by
  constructor
  · exact Classical.byContradiction (fun x => h (C24_effect_checked H keyOf cfg env hs rev st q now (.inl x)))
  · exact Classical.byContradiction (fun x => h (C24_effect_checked H keyOf cfg env hs rev st q now (.inr x)))

omit [DecidableEq C] [DecidableEq D] [DecidableEq P] in
/-- **C24.** Exceptions are answered: if the answer can be protected at all, a `BodyRelevantError` of a request
body gives a response with an error status, any other error of the test suite an error message carrying that
error, a failed signature one with `badMessageCheck`, and everything else `systemFailure`. -/
theorem C24_exception_answer (sign : String → Except PyErr Unit) (q : DReq C S P) (e : PyErr)
    (hsign : sign "error" = .ok ()) (hdh : q.alg = some (.ok .dh) → q.dhKey = .ok true)
    (hu : q.unknownAlg = false) :
    onError sign q e = .ok
      (if e = .bodyRelevantError ∧ q.m.body ∈ ["ir", "cr", "p10cr", "kur", "ccr", "rr"] then .errorStatus e
       else if e.isCmp = true then .errorMsg e
       else if e.isInvalidSig = true then .errorMsg .badMessageCheck
       else .systemFailure) := by
  have hbody : (q.m.body ∈ ["ir", "cr", "p10cr", "kur", "ccr", "rr"]) ↔ hasBodyError q.m.body = true := by
    simp only [hasBodyError, List.mem_cons, List.not_mem_nil, or_false, Bool.or_eq_true, decide_eq_true_eq]
    grind
  simp only [hbody]
  have hp : protectAnswer (sign "error") q.alg q.dhKey = .ok () := by
    unfold protectAnswer
    rcases ha : q.alg with _ | x | p
    · exact hsign
    · unfold DReq.alg at ha
      rw [if_neg (by simp [hu])] at ha
      cases hm : q.m.prot <;> simp [hm] at ha
    · cases p <;> first | exact hsign | (rw [hdh ha]; exact hsign)
  have hb : ∀ a, buildError sign q a = .ok a := by
    intro a
    have : protectAnswer (sign "error") (some (.ok (errorAlg q.alg))) q.dhKey = .ok () := by
      rcases ha : q.alg with _ | x | p
      · exact hsign
      · exact hsign
      · have := hp; rw [ha] at this; exact this
    unfold buildError
    rw [this]; rfl
  unfold onError
  by_cases h1 : e = .bodyRelevantError
  · subst h1
    rw [if_pos rfl]
    cases hh : hasBodyError q.m.body with
    | true => simp [hp, Except.map]
    | false => simp [hb, PyErr.isCmp]
  · have h2 : ¬ (e = .bodyRelevantError ∧ hasBodyError q.m.body = true) := fun x => h1 x.1
    rw [if_neg h1]
    rw [if_neg h2]
    cases hc : e.isCmp with
    | true => simp [hb]
    | false =>
      cases hi : e.isInvalidSig with
      | true => simp [hb]
      | false => simp [hb]

/-- **C24.** A revocation request whose handler fails with one of the expected exceptions is answered by a
revocation response, not by an error message. -/
theorem C24_rr_answer (H : C → D) (keyOf : C → PKey P) (cfg : ConfCfg) (env : ConfEnv C)
    (hs : Handlers C D R S P) (rev : RevState C D) (st st' : CaSt C D R S) (q : DReq C S P) (now : Int)
    (e : PyErr) (hb : q.m.body = "rr") (hc : preChecks H keyOf rev st q now = .ok ())
    (he : e ∈ [PyErr.badMessageCheck, .badMacProtection, .badSignatureProtection, .badKeyUsage, .bodyRelevantError])
    (hr : hs.rr st q now = (.error e, st')) (hsign : hs.sign "rp" = .ok ())
    (hdh : q.alg = some (.ok .dh) → q.dhKey = .ok true) (hu : q.unknownAlg = false)
    (hk : q.alg ≠ some (.ok .kem)) :
    process H keyOf cfg env hs rev st q now = (.ok (.response "rp"), st') := by
  have he' : e.isRrError = true := by
    simp only [List.mem_cons, List.not_mem_nil, or_false] at he
    rcases he with rfl | rfl | rfl | rfl | rfl <;> rfl
  have hp : protectAnswer (hs.sign "rp") q.alg q.dhKey = .ok () := by
    unfold protectAnswer
    rcases ha : q.alg with _ | x | p
    · exact hsign
    · unfold DReq.alg at ha
      rw [if_neg (by simp [hu])] at ha
      cases hm : q.m.prot <;> simp [hm] at ha
    · cases p <;> first | exact hsign | (rw [hdh ha]; exact hsign)
  have hd : dispatch H cfg env hs st q now = (.ok (.cont "rp"), st') := by
    unfold dispatch
    rw [hb, if_neg (fun x => absurd x.1 (by decide)), if_neg (by decide), if_neg (by decide), if_neg (by decide),
      if_pos rfl, hr]
    exact if_pos he'
  unfold process
  rw [hc]
  simp only [hd]
  rw [if_neg hk, hp]
  rfl

omit [DecidableEq D] [DecidableEq P] in
/-- **C24.** Certificates that await confirmation may be carried by a confirmation or an error message. -/
theorem C24_open_confirmation (s : ConfState C) (q : DReq C S P) (hu : q.unknownAlg = false)
    (hb : q.m.body = "certConf" ∨ q.m.body = "error") : checkOpen s q = .ok () := by
  unfold checkOpen
  by_cases h0 : q.m.extraCerts = []
  · rw [if_pos h0]
  rw [if_neg h0]
  rcases ha : q.alg with _ | x | p
  · rfl
  · unfold DReq.alg at ha
    rw [if_neg (by simp [hu])] at ha
    cases hm : q.m.prot <;> simp [hm] at ha
  · change (if p = .mac then _ else _) = _
    by_cases h1 : p = .mac
    · rw [if_pos h1]
    · rw [if_neg h1, if_pos hb]

/-- **C24.** A request never raises out of the dispatcher if responses can be signed, it is not DH protected and
names an algorithm the dispatcher knows; KEM protected messages must have a transactionID. -/
theorem C24_total_partial (H : C → D) (keyOf : C → PKey P) (cfg : ConfCfg) (env : ConfEnv C)
    (hs : Handlers C D R S P) (rev : RevState C D) (st : CaSt C D R S) (q : DReq C S P) (now : Int)
    (hsign : ∀ b, hs.sign b = .ok ()) (hdh : q.alg ≠ some (.ok .dh)) (hu : q.unknownAlg = false)
    (htx : q.m.txId ≠ none) : ∃ a, (process H keyOf cfg env hs rev st q now).1 = .ok a := by
  have he : ∀ e, ∃ a, onError hs.sign q e = .ok a := fun e =>
    ⟨_, C24_exception_answer hs.sign q e (hsign _) (fun x => absurd x hdh) hu⟩
  have hp : ∀ b, protectAnswer (hs.sign b) q.alg q.dhKey = .ok () := by
    intro b
    unfold protectAnswer
    rcases ha : q.alg with _ | x | p
    · exact hsign b
    · unfold DReq.alg at ha
      rw [if_neg (by simp [hu])] at ha
      cases hm : q.m.prot <;> simp [hm] at ha
    · cases p <;> first | exact hsign b | exact absurd ha hdh
  unfold process
  cases preChecks H keyOf rev st q now with
  | error e => exact he e
  | ok u =>
    dsimp only
    rcases dispatch H cfg env hs st q now with ⟨e | s, st'⟩
    · exact he e
    · cases s with
      | done b => exact ⟨_, rfl⟩
      | cont b =>
        dsimp only
        by_cases hk : q.alg = some (.ok .kem)
        · rw [if_pos hk]
          cases ht : q.m.txId with
          | none => exact absurd ht htx
          | some tx => exact ⟨_, by simp only [hp]; rfl⟩
        · rw [if_neg hk]
          exact ⟨_, by simp only [hp]; rfl⟩

/-- **C24.** A certificate request that passed the checks, and the repeated protection check, is handed to the
request handler and to nothing else: the new state is the handler's, except that a KEM secret is marked used if
the handler succeeded. -/
theorem C24_certReq (H : C → D) (keyOf : C → PKey P) (cfg : ConfCfg) (env : ConfEnv C)
    (hs : Handlers C D R S P) (rev : RevState C D) (st : CaSt C D R S) (q : DReq C S P) (now : Int)
    (hb : q.m.body ∈ ["ir", "cr", "p10cr", "kur", "ccr"]) (hch : q.challenge = false) (hk : q.alg ≠ some (.ok .kem))
    (hok : preChecks H keyOf rev st q now = .ok ()) :
    (q.again = .ok () → (process H keyOf cfg env hs rev st q now).2 = (hs.certReq st q now).2) ∧
    (∀ e, q.again = .error e → (process H keyOf cfg env hs rev st q now).2 = st) := by
  have h1 : ¬ ((q.m.body = "ir" ∨ q.m.body = "cr") ∧ q.challenge = true) := by simp [hch]
  have h2 : q.m.body ≠ "popdecr" := by intro e; rw [e] at hb; revert hb; decide
  have h3 : q.m.body ≠ "nested" := by intro e; rw [e] at hb; revert hb; decide
  have h4 : q.m.body = "ir" ∨ q.m.body = "cr" ∨ q.m.body = "p10cr" ∨ q.m.body = "kur" ∨ q.m.body = "ccr" := by
    simpa using hb
  constructor
  · intro ha
    unfold process dispatch
    rw [hok]; dsimp only
    rw [if_neg h1, if_neg h2, if_neg h3, if_pos h4, ha]
    dsimp only [cont]
    rcases hs.certReq st q now with ⟨e | b, st'⟩
    · rfl
    · dsimp only [Except.map]
      rw [if_neg hk]
  · intro e ha
    unfold process dispatch
    rw [hok]; dsimp only
    rw [if_neg h1, if_neg h2, if_neg h3, if_pos h4, ha]

/-- **C24.** A certConf that passed the checks changes the state exactly as `process_cert_conf` does (and appends
the cross certificate of a confirmed ccr), unless it is KEM protected. -/
theorem C24_certConf (H : C → D) (keyOf : C → PKey P) (cfg : ConfCfg) (env : ConfEnv C)
    (hs : Handlers C D R S P) (rev : RevState C D) (st : CaSt C D R S) (q : DReq C S P) (now : Int)
    (hb : q.m.body = "certConf") (hk : q.alg ≠ some (.ok .kem)) (hok : preChecks H keyOf rev st q now = .ok ()) :
    (process H keyOf cfg env hs rev st q now).2.sys = (st.sys.processCertConf H cfg env q.m now).2 ∧
    (process H keyOf cfg env hs rev st q now).2.kems = st.kems ∧
    ∀ c, (process H keyOf cfg env hs rev st q now).2.cross = st.cross ++ [c] →
      (st.sys.processCertConf H cfg env q.m now).1 = .ok (some c) := by
  have hd : dispatch H cfg env hs st q now = cont (caCertConf H cfg env st q.m now) := by
    unfold dispatch
    rw [hb, if_neg (fun x => absurd x.1 (by decide)), if_neg (by decide), if_neg (by decide), if_neg (by decide), if_neg (by decide),
      if_pos rfl]
  have hne : ∀ c, st.cross ≠ st.cross ++ [c] := fun c h => by
    have := congrArg List.length h
    simp at this
  unfold process
  rw [hok]; dsimp only
  rw [hd]
  unfold caCertConf
  rcases st.sys.processCertConf H cfg env q.m now with ⟨e | o, s⟩
  · exact ⟨rfl, rfl, fun c h => absurd h (hne c)⟩
  · cases o with
    | none =>
      dsimp only [cont, Except.map]
      rw [if_neg hk]
      exact ⟨rfl, rfl, fun c h => absurd h (hne c)⟩
    | some c' =>
      dsimp only [cont, Except.map]
      rw [if_neg hk]
      refine ⟨rfl, rfl, fun c h => ?_⟩
      have : [c'] = [c] := List.append_cancel_left h
      rw [List.cons.inj this |>.1]

/-! ## The revocation state behind the checks -/

omit [DecidableEq P] in
theorem crlResponse_rev (serial : C → Int) (s : RevState C D) (ok : Bool) :
    (s.crlResponse serial ok).2.rev = s.rev ∧ (s.crlResponse serial ok).2.upd = s.upd ∧
      (s.crlResponse serial ok).2.updEqRev = s.updEqRev := by
  cases ok <;> exact ⟨rfl, rfl, rfl⟩

theorem run_rev (H : C → D) (keyOf : C → PKey P) (serial : C → Int) (cfg : ConfCfg) (env : ConfEnv C)
    (hs : Handlers C D R S P) (ops : List (SrvOp C S P)) (s : Server C D R S) :
    (Server.run H keyOf serial cfg env hs s ops).2.rev.rev = s.rev.rev ∧
      (Server.run H keyOf serial cfg env hs s ops).2.rev.upd = s.rev.upd := by
  induction ops generalizing s with
  | nil => exact ⟨rfl, rfl⟩
  | cons op ops ih =>
    unfold Server.run
    dsimp only
    obtain ⟨a, b⟩ := ih (s.step H keyOf serial cfg env hs op).2
    cases op with
    | request q now => exact ⟨a, b⟩
    | crl ok =>
      obtain ⟨c, d, _⟩ := crlResponse_rev serial s.rev ok
      exact ⟨a.trans c, b.trans d⟩

/-- **C24 (refuted).** The compromised-key check never refuses anything: after any history of requests, whatever
the handlers did and whatever was revoked, `_check_for_compromised_key` does not raise `BadCertTemplate`. -/
theorem C24_compromised_check_idle_refuted (H : C → D) (keyOf : C → PKey P) (serial : C → Int) (cfg : ConfCfg)
    (env : ConfEnv C) (hs : Handlers C D R S P) (ca : CaSt C D R S) (ops : List (SrvOp C S P)) (q : DReq C S P)
    (k : PKey P) (ks : List (Option (PKey P))) (h1 : q.csrKey = .ok k) (h2 : q.keys = .ok ks) :
    checkKey keyOf (Server.run H keyOf serial cfg env hs { ca := ca } ops).2.rev q = .ok () := by
  have hr := (run_rev H keyOf serial cfg env hs ops { ca := ca }).1
  generalize (Server.run H keyOf serial cfg env hs { ca := ca } ops).2.rev = rev at hr
  have hnil : rev.rev = [] := hr
  have hc : ∀ k', revContainsKey keyOf rev.rev k' = false := by
    intro k'
    rw [hnil]
    cases k' <;> simp [revContainsKey, compromisedKeys]
  have hl : ∀ ks', compromisedLoop keyOf rev.rev ks' = false := by
    intro ks'
    induction ks' with
    | nil => rfl
    | cons x xs ih =>
      cases x with
      | none => rfl
      | some k' => rw [compromisedLoop, hc k', if_neg (by simp)]; exact ih
  unfold checkKey
  dsimp only
  rw [h1, h2]; dsimp only
  rw [hc, hl]
  simp

/-- **C11 (refuted).** The CRL the server hands out is always empty: after any history of requests, whatever was
revoked, it lists no serial number. -/
theorem C11_served_crl_refuted (H : C → D) (keyOf : C → PKey P) (serial : C → Int) (cfg : ConfCfg)
    (env : ConfEnv C) (hs : Handlers C D R S P) (ca : CaSt C D R S) (ops : List (SrvOp C S P)) :
    ∃ n, ((Server.run H keyOf serial cfg env hs { ca := ca } ops).2.rev.crlResponse serial true).1 = .ok (n, []) := by
  obtain ⟨a, b⟩ := run_rev H keyOf serial cfg env hs ops { ca := ca }
  generalize (Server.run H keyOf serial cfg env hs { ca := ca } ops).2.rev = rev at a b
  refine ⟨rev.crlNumber, ?_⟩
  have h1 : rev.rev = [] := a
  have h2 : rev.upd = [] := b
  unfold RevState.crlResponse RevState.nums
  simp [h1, h2, revSerials]

/-- **C24 (refuted).** Not every exception becomes an error message: a DH protected message whose first extra
certificate has no ECDH key leaves the dispatcher with an exception (the client gets a plain text HTTP 500),
whatever is wrong with it, because protecting the error message raises the same exception again. -/
theorem C24_dh_uncaught_refuted (H : C → D) (keyOf : C → PKey P) (cfg : ConfCfg) (env : ConfEnv C)
    (hs : Handlers C D R S P) (rev : RevState C D) (st : CaSt C D R S) (q : DReq C S P) (now : Int)
    (ha : q.alg = some (.ok .dh)) (hk : q.dhKey = .ok false) (hb : q.m.body ∉ ["nested", "genm"]) :
    (process H keyOf cfg env hs rev st q now).1 = .error .badMessageCheck := by
  have hp : ∀ b, protectAnswer (hs.sign b) q.alg q.dhKey = .error .badMessageCheck := by
    intro b; rw [ha, hk]; rfl
  have hbe : ∀ a, buildError hs.sign q a = .error .badMessageCheck := by
    intro a
    unfold buildError
    rw [ha, hk]; rfl
  have he : ∀ e, onError hs.sign q e = .error .badMessageCheck := by
    intro e
    unfold onError
    rw [hp]
    simp only [hbe, Except.map, ite_self]
  have h1 : q.m.body ≠ "nested" := fun e => hb (by rw [e]; decide)
  have h2 : q.m.body ≠ "genm" := fun e => hb (by rw [e]; decide)
  unfold process
  cases preChecks H keyOf rev st q now with
  | error e => exact he e
  | ok u =>
    dsimp only
    cases hd : dispatch H cfg env hs st q now with
    | mk r st' =>
    cases r with
    | error e => exact he e
    | ok s =>
      cases s with
      | cont b =>
        dsimp only
        rw [if_neg (by rw [ha]; simp), hp]; rfl
      | done b =>
        exfalso
        unfold dispatch at hd
        by_cases c1 : (q.m.body = "ir" ∨ q.m.body = "cr") ∧ q.challenge = true
        · rw [if_pos c1] at hd
          rcases hc : hs.challenge st q now with ⟨e | b', s'⟩ <;> rw [hc] at hd
          · cases (Prod.mk.inj hd).1
          · dsimp only at hd
            rw [hp] at hd; cases (Prod.mk.inj hd).1
        rw [if_neg c1] at hd
        by_cases c2 : q.m.body = "popdecr"
        · rw [if_pos c2] at hd
          unfold cont at hd
          cases hx : (hs.popdecr st q now).1 <;> rw [hx] at hd <;> cases (Prod.mk.inj hd).1
        rw [if_neg c2, if_neg h1] at hd
        by_cases c3 : q.m.body = "ir" ∨ q.m.body = "cr" ∨ q.m.body = "p10cr" ∨ q.m.body = "kur" ∨ q.m.body = "ccr"
        · rw [if_pos c3] at hd
          cases hx : q.again with
          | error e => rw [hx] at hd; cases (Prod.mk.inj hd).1
          | ok u =>
            rw [hx] at hd
            unfold cont at hd
            cases hy : (hs.certReq st q now).1 <;> simp only [hy] at hd <;> cases (Prod.mk.inj hd).1
        rw [if_neg c3] at hd
        by_cases c4 : q.m.body = "rr"
        · rw [if_pos c4] at hd
          rcases hc : hs.rr st q now with ⟨e | b', s'⟩ <;> rw [hc] at hd <;> dsimp only at hd
          · cases hr : e.isRrError <;> simp [hr] at hd
          · cases (Prod.mk.inj hd).1
        rw [if_neg c4] at hd
        by_cases c5 : q.m.body = "certConf"
        · rw [if_pos c5] at hd
          unfold cont at hd
          cases hx : (caCertConf H cfg env st q.m now).1 <;> rw [hx] at hd <;> cases (Prod.mk.inj hd).1
        rw [if_neg c5, if_neg h2] at hd
        cases (Prod.mk.inj hd).1

/-- **C24 (refuted).** A KEM protected ir or cr with a challenge is answered without marking the shared secret as
used: the list of secrets afterwards is the one the challenge handler left. -/
theorem C24_kem_challenge_refuted (H : C → D) (keyOf : C → PKey P) (cfg : ConfCfg) (env : ConfEnv C)
    (hs : Handlers C D R S P) (rev : RevState C D) (st : CaSt C D R S) (q : DReq C S P) (now : Int)
    (hb : q.m.body = "ir" ∨ q.m.body = "cr") (hch : q.challenge = true)
    (hkeep : ∀ s, (hs.challenge s q now).2.kems = s.kems) :
    (process H keyOf cfg env hs rev st q now).2.kems = st.kems := by
  unfold process
  cases preChecks H keyOf rev st q now with
  | error e => rfl
  | ok u =>
    dsimp only
    unfold dispatch
    rw [if_pos ⟨hb, hch⟩]
    have hk := hkeep st
    rcases hc : hs.challenge st q now with ⟨e | b, s'⟩ <;> rw [hc] at hk
    · exact hk
    · dsimp only
      cases protectAnswer (hs.sign b) q.alg q.dhKey with
      | error e => exact hk
      | ok u => exact hk

end

/-! ## Witnesses -/

open Verif.Check (Cert Spki)

/-- Handlers for the examples: a revocation request is the stranger's request of `RevokeProps`, a certificate
request leaves the state alone. -/
def exHandlers : Handlers (Cert Nat Nat Nat) (Cert Nat Nat Nat) (String × Cert Nat Nat Nat) Unit (Spki Nat) :=
  { challenge := fun s _ _ => (.ok "popdecc", s)
    popdecr := fun s _ _ => (.ok "ip", s)
    nested := fun s _ _ => (.ok "nested", s)
    certReq := fun s q _ => (.ok (if q.m.body = "ccr" then "ccp" else "ip"), s)
    rr := fun s _ now =>
      match processRr exEnv s.sys.db (exRr exStranger 1) none now with
      | (.ok _, db) => (.ok "rp", { s with sys := { s.sys with db := db } })
      | (.error e, db) => (.error e, { s with sys := { s.sys with db := db } })
    genm := fun s _ _ => (.ok ("genp", true), s) }

/-- The key of a certificate in the examples. -/
def exKeyOf (c : Cert Nat Nat Nat) : PKey (Spki Nat) := .plain c.spki

/-- A signed message of the stranger requesting a certificate for the key `k`. -/
def exReq (body : String) (k : Spki Nat) : DReq (Cert Nat Nat Nat) Unit (Spki Nat) :=
  { m := { body := body, txId := some [1], senderNonce := some [2], prot := some .tradSig, extraCerts := [exStranger] }
    kemMac := fun _ => false
    keys := .ok [some (.plain k)] }

/-- A CA with one confirmed certificate. -/
def exCa : CaSt (Cert Nat Nat Nat) (Cert Nat Nat Nat) (String × Cert Nat Nat Nat) Unit :=
  { sys := { db := exDB .confirmed } }

/-- The confirmation environment is not used by the examples. -/
def exConfEnv : ConfEnv (Cert Nat Nat Nat) :=
  { hash := fun _ _ => [], algOf := fun _ => none, hdr := fun _ _ => .ok (), stfl := fun _ _ => .ok () }

/-- The server of the examples. -/
def exRun (ops : List (SrvOp (Cert Nat Nat Nat) Unit (Spki Nat))) :=
  Server.run id exKeyOf (fun c => c.serial) {} exConfEnv exHandlers { ca := exCa } ops

/-- **C24, C11 (refuted).** After the only certificate has been revoked for `keyCompromise`, the served CRL is
empty, and a request for a certificate with the compromised key is not refused. -/
theorem C24_revoked_key_certified_refuted :
    ∃ (ops : List (SrvOp (Cert Nat Nat Nat) Unit (Spki Nat))),
      (exRun ops).2.ca.sys.db.getCertState id Check.exCert = .revoked ∧
      ((exRun ops).2.ca.sys.db.getCert id Check.exCert).bind (·.revEntry) = some ("keyCompromise", Check.exCert) ∧
      ((exRun ops).2.rev.crlResponse (fun c => c.serial) true).1 = .ok (1, []) ∧
      (process id exKeyOf {} exConfEnv exHandlers (exRun ops).2.rev (exRun ops).2.ca
        (exReq "ir" Check.exCert.spki) 5).1 = .ok (.response "ip") :=
  ⟨[.request (exReq "rr" Check.exCert.spki) 0], by decide +kernel, by decide +kernel, by decide +kernel,
    by decide +kernel⟩

/-- **C24 (refuted).** Even if the list of compromised keys were maintained, a ccr would not be checked against
it: the check is made for a body name `crr`. -/
theorem C24_ccr_key_refuted :
    ∃ (rev : RevState (Cert Nat Nat Nat) (Cert Nat Nat Nat)) (c : Cert Nat Nat Nat) (k : Spki Nat),
      (∃ e ∈ rev.rev, e.cert = c ∧ exKeyOf c = .plain k) ∧
      (process id exKeyOf {} exConfEnv exHandlers rev exCa (exReq "ccr" k) 5).1 = .ok (.response "ccp") ∧
      (process id exKeyOf {} exConfEnv exHandlers rev exCa (exReq "cr" k) 5).1 = .ok (.errorMsg .badCertTemplate) :=
  ⟨{ rev := [⟨"keyCompromise", Check.exCert, none⟩] }, Check.exCert, Check.exCert.spki,
    ⟨_, List.mem_cons_self, rfl, rfl⟩, by decide +kernel, by decide +kernel⟩

/-- A request of a revoked signer is refused with `certRevoked`. -/
example : (process id exKeyOf {} exConfEnv exHandlers {} { exCa with sys := { db := exRevokedDB } }
    { exReq "cr" ⟨1, [5]⟩ with m := { (exReq "cr" ⟨1, [5]⟩).m with extraCerts := [Check.exCert] } } 5).1
    = .ok (.errorMsg .certRevoked) := by decide +kernel

/-- A request with an invalid signature is refused with `badMessageCheck`. -/
example : (process id exKeyOf {} exConfEnv exHandlers {} exCa
    { exReq "cr" ⟨1, [5]⟩ with verdict := .error .invalidSignature } 5).1 = .ok (.errorMsg .badMessageCheck) := by
  decide +kernel

/-- An unexpected exception gives `systemFailure`. -/
example : (process id exKeyOf {} exConfEnv exHandlers {} exCa (exReq "error" ⟨1, [5]⟩) 5).1
    = .ok .systemFailure := by decide +kernel

/-- A key that cannot be loaded is answered in the body of the response. -/
example : (process id exKeyOf {} exConfEnv exHandlers {} exCa
    { exReq "kur" ⟨1, [5]⟩ with keys := .error .invalidKeyData } 5).1 = .ok (.errorStatus .bodyRelevantError) := by
  decide +kernel

/-- A certificate awaiting confirmation cannot be used for a request. -/
example : (process id exKeyOf {} exConfEnv exHandlers {}
    { exCa with sys := { exCa.sys with conf := { toBeConf := [([9], [exStranger])] } } } (exReq "cr" ⟨1, [5]⟩) 5).1
    = .ok (.errorMsg .notAuthorized) := by decide +kernel

/-- A KEM protected request marks its secret. -/
example : (process id exKeyOf {} exConfEnv exHandlers {} { exCa with kems := [{ ss := (), tx := [1] }] }
    { exReq "cr" ⟨1, [5]⟩ with m := { (exReq "cr" ⟨1, [5]⟩).m with prot := some .kem }, kemMac := fun _ => true } 5).2.kems.map
      (·.used) = [true] := by decide +kernel

end Verif.CA
