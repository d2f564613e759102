import Verif.CA.Endpoints
import Verif.CA.DispatchProps

/-!
# Theorems on the endpoints for hybrid certificates
-/

namespace Verif.CA

variable {C D R S P : Type}

/-! ## Auxiliary facts -/

private theorem signHyb_iff (env : HybEnv C D R S P) (q : HReq C S P) (b : String) (s : Option C) (a : HAns C) :
    signHyb env q b s = .ok a ↔ protectAnswer (env.sign b) q.alg q.dhKey = .ok () ∧ a = .signed b s := by
  unfold signHyb
  cases protectAnswer (env.sign b) q.alg q.dhKey with
  | error e => exact ⟨fun h => (by cases h), fun h => (by cases h.1)⟩
  | ok u => exact ⟨fun h => ⟨rfl, (Except.ok.inj h).symm⟩, fun h => by rw [h.2]⟩

private theorem errReq_ok {env : HybEnv C D R S P} {q : HReq C S P} {e : PyErr} {a : HAns C} (h : errReq env q e = .ok a) :
    a = .failed e true := by
  unfold errReq at h
  split at h
  · cases h
  · exact (Except.ok.inj h).symm

private theorem errNoReq_ok {env : HybEnv C D R S P} {e : PyErr} {a : HAns C} (h : errNoReq env e = .ok a) :
    a = .failed e false := by
  unfold errNoReq at h
  split at h
  · cases h
  · exact (Except.ok.inj h).symm

private theorem errTwice_ok {env : HybEnv C D R S P} {q : HReq C S P} {e : PyErr} {a : HAns C}
    (h : errTwice env q e = .ok a) : a = .failedTwice e := by
  unfold errTwice at h
  split at h
  · cases h
  · split at h
    · cases h
    · exact (Except.ok.inj h).symm

/-- Storing the certificates of a transaction succeeds exactly for a new transaction identifier. -/
theorem C222_store_iff (s s' : Sys C D R) (m : Msg C) (cs : List C) :
    storeCerts s m cs = (.ok (), s') ↔ ∃ tx, m.txId = some tx ∧ tx ∉ s.tx.used ∧
      s' = { s with tx := { used := tx :: s.tx.used, certs := s.tx.certs.set (tx, m.sender) cs } } := by
  unfold storeCerts
  cases m.txId with
  | none => exact ⟨fun h => (by cases h), fun ⟨_, h, _⟩ => (by cases h)⟩
  | some tx =>
    dsimp only
    unfold TxState.store
    by_cases hu : tx ∈ s.tx.used
    · rw [if_pos hu]
      refine ⟨fun h => (by cases h), ?_⟩
      rintro ⟨_, h, hn, _⟩
      cases h
      exact absurd hu hn
    · rw [if_neg hu]
      constructor
      · intro h; exact ⟨tx, rfl, hu, (Prod.mk.inj h).2.symm⟩
      · rintro ⟨_, h, _, rfl⟩; cases h; rfl

private theorem storeCerts_used {s : Sys C D R} {m : Msg C} {tx : Bytes} (ht : m.txId = some tx) (hu : tx ∈ s.tx.used)
    (cs : List C) : storeCerts s m cs = (.error .transactionIdInUse, s) := by
  unfold storeCerts
  rw [ht]
  dsimp only
  unfold TxState.store
  rw [if_pos hu]

/-! ## `/chameleon` -/

/-- The requests for which `/chameleon` issues a certificate, with the state it leaves: the checks concern the state of
stateful signatures, revocation, the delta key, the request identifiers and the certification request; the transaction
identifier is new.  The protection of the message is not among them. -/
theorem C221_chameleon_iff (H : C → D) (env : HybEnv C D R S P) (st st' : CaSt C D R S) (q : HReq C S P) (now : Int)
    (b : String) (x : Option C) :
    processChameleon H env st q now = (.ok (.signed b x), st') ↔
      q.m.body = "p10cr" ∧ q.stflCheck = .ok () ∧ (q.m.extraCerts = [] ∨ q.forIssuing = .ok ()) ∧ q.deltaKey = .ok () ∧
      q.reqIds = .ok () ∧ ∃ resp paired delta tx, env.chameleon q = .ok (resp, paired, delta) ∧ q.m.txId = some tx ∧
        tx ∉ st.sys.tx.used ∧ q.stflAfter = .ok () ∧ protectAnswer (env.sign resp.body) q.alg q.dhKey = .ok () ∧
        b = resp.body ∧ x = some delta ∧
        st' = { st with sys := { st.sys with
          tx := { used := tx :: st.sys.tx.used, certs := st.sys.tx.certs.set (tx, q.m.sender) [paired, delta] }
          db := addCerts H q.implicitConf now [paired, delta] st.sys.db } } := by
  constructor
  · intro h
    unfold processChameleon at h
    split at h
    · cases h
    rename_i hb
    have hb := Decidable.not_not.1 hb
    cases ht : chamTry H env st q now with
    | mk r s =>
      rw [ht] at h
      cases r with
      | error e =>
        dsimp only at h
        split at h
        · have := errNoReq_ok (congrArg Prod.fst h); cases this
        · have := errReq_ok (congrArg Prod.fst h); cases this
      | ok a =>
        injection h with h1 h2
        injection h1 with h1
        subst h1 h2
        unfold chamTry at ht
        cases hc : chamBuild env q with
        | error e => rw [hc] at ht; cases ht
        | ok v =>
          obtain ⟨resp, paired, delta⟩ := v
          rw [hc] at ht
          dsimp only at ht
          cases hs : storeCerts st.sys q.m [paired, delta] with
          | mk r s' =>
            rw [hs] at ht
            cases r with
            | error e => cases ht
            | ok u =>
              dsimp only at ht
              cases hf : q.stflAfter with
              | error e => rw [hf] at ht; cases ht
              | ok u =>
                rw [hf] at ht
                dsimp only at ht
                obtain ⟨h1, h2⟩ := Prod.mk.inj ht
                obtain ⟨h3, h4⟩ := (signHyb_iff ..).1 h1
                injection h4 with h4 h5
                obtain ⟨tx, h6, h7, h8⟩ := (C222_store_iff ..).1 hs
                subst h8
                unfold chamBuild at hc
                cases g1 : q.stflCheck with
                | error e => rw [g1] at hc; cases hc
                | ok u =>
                  rw [g1] at hc
                  dsimp only at hc
                  cases g2 : (if q.m.extraCerts = [] then .ok () else q.forIssuing : Except PyErr Unit) with
                  | error e => rw [g2] at hc; cases hc
                  | ok u =>
                    rw [g2] at hc
                    dsimp only at hc
                    cases g3 : q.deltaKey with
                    | error e => rw [g3] at hc; cases hc
                    | ok u =>
                      rw [g3] at hc
                      dsimp only at hc
                      cases g4 : q.reqIds with
                      | error e => rw [g4] at hc; cases hc
                      | ok u =>
                        rw [g4] at hc
                        refine ⟨hb, rfl, ?_, rfl, rfl, resp, paired, delta, tx, hc, h6, h7, rfl, h3, h4, h5, h2.symm⟩
                        split at g2
                        · rename_i h0; exact .inl h0
                        · exact .inr g2
  · rintro ⟨hb, g1, g2, g3, g4, resp, paired, delta, tx, hc, h6, h7, hf, h3, rfl, rfl, rfl⟩
    have hcb : chamBuild env q = .ok (resp, paired, delta) := by
      unfold chamBuild
      rw [g1, g3, g4]
      dsimp only
      rcases g2 with g2 | g2
      · rw [if_pos g2]; exact hc
      · rw [g2, ite_self]; exact hc
    have hs := (C222_store_iff st.sys _ q.m [paired, delta]).2 ⟨tx, h6, h7, rfl⟩
    unfold processChameleon
    rw [if_neg (fun h => h hb)]
    unfold chamTry
    rw [hcb]
    dsimp only
    rw [hs]
    dsimp only
    rw [hf]
    dsimp only
    rw [(signHyb_iff ..).2 ⟨h3, rfl⟩]

/-- `/chameleon` never changes the state of the confirmations, whatever it answers. -/
theorem C222_chameleon_conf (H : C → D) (env : HybEnv C D R S P) (st : CaSt C D R S) (q : HReq C S P) (now : Int) :
    (processChameleon H env st q now).2.sys.conf = st.sys.conf := by
  have hst : ∀ m cs, (storeCerts st.sys m cs).2.conf = st.sys.conf := by
    intro m cs
    unfold storeCerts
    split <;> rfl
  have ht : (chamTry H env st q now).2.sys.conf = st.sys.conf := by
    unfold chamTry
    split
    · rfl
    · rename_i resp paired delta _
      split
      · rename_i s hs
        have := hst q.m [paired, delta]
        rw [hs] at this
        exact this
      · rename_i s hs
        have := hst q.m [paired, delta]
        rw [hs] at this
        split <;> exact this
  unfold processChameleon
  split
  · rfl
  · split
    · rename_i hs; rw [hs] at ht; exact ht
    · rename_i hs
      rw [hs] at ht
      split <;> exact ht

/-- So a certificate issued there without implicit confirmation cannot be confirmed: the `certConf` of its transaction is
refused. -/
theorem C222_chameleon_refuted [DecidableEq C] [DecidableEq D] (H : C → D) (cfg : ConfCfg) (cenv : ConfEnv C)
    (env : HybEnv C D R S P) (st : CaSt C D R S) (q : HReq C S P) (now : Int) {tx : Bytes}
    (hn : st.sys.conf.requests.mem tx = false) (m : Msg C) (hm : m.txId = some tx) (later : Int) :
    ∃ e, (e = .badRequest ∨ e = .certConfirmed) ∧
      caCertConf H cfg cenv (processChameleon H env st q now).2 m later
        = (.error e, (processChameleon H env st q now).2) := by
  have hc := C222_chameleon_conf H env st q now
  generalize (processChameleon H env st q now).2 = st' at hc ⊢
  have hcc : ∃ e, (e = PyErr.badRequest ∨ e = .certConfirmed) ∧ confChecks cfg cenv st'.sys.conf m = .error e := by
    rw [hc]
    unfold confChecks ConfState.isConfirmed
    rw [hm]
    dsimp only
    by_cases hx : tx ∈ st.sys.conf.confirmed
    · rw [if_pos hx]; exact ⟨_, .inr rfl, rfl⟩
    · rw [if_neg hx]
      dsimp only
      unfold ConfState.validateTxId
      rw [hm]
      dsimp only
      rw [hn]
      exact ⟨_, .inl rfl, rfl⟩
  obtain ⟨e, he, hcc⟩ := hcc
  refine ⟨e, he, ?_⟩
  unfold caCertConf Sys.processCertConf
  rw [hcc]

/-- The errors of the test suite are answered without the identifiers of the request; the others with them. -/
theorem C223_chameleon_ids (H : C → D) (env : HybEnv C D R S P) (st : CaSt C D R S) (q : HReq C S P) (now : Int)
    {e : PyErr} {ids : Bool} (h : (processChameleon H env st q now).1 = .ok (.failed e ids)) :
    ids = (!e.isCmp) ∧ (ids = true → e = .exception) := by
  unfold processChameleon at h
  split at h
  · cases h
  · split at h
    · rename_i a s hs
      injection h with h
      subst h
      unfold chamTry at hs
      split at hs
      · cases hs
      · split at hs
        · cases hs
        · split at hs
          · cases hs
          · have := ((signHyb_iff ..).1 (congrArg Prod.fst hs)).2
            cases this
    · split at h
      · rename_i he
        have := errNoReq_ok h
        injection this with h1 h2
        subst h1 h2
        exact ⟨by rw [he]; rfl, fun h => (by cases h)⟩
      · have := errReq_ok h
        injection this with h1 h2
        subst h1 h2
        exact ⟨rfl, fun _ => rfl⟩

/-- A transaction identifier in use: nothing is changed. -/
theorem C222_chameleon_reuse (H : C → D) (env : HybEnv C D R S P) (st : CaSt C D R S) (q : HReq C S P) (now : Int)
    (hb : q.m.body = "p10cr") {tx : Bytes} (ht : q.m.txId = some tx) (hu : tx ∈ st.sys.tx.used)
    {v : Msg C × C × C} (hc : chamBuild env q = .ok v) :
    processChameleon H env st q now = (errNoReq env .transactionIdInUse, st) := by
  obtain ⟨resp, paired, delta⟩ := v
  unfold processChameleon
  rw [if_neg (fun h => h hb)]
  unfold chamTry
  rw [hc]
  dsimp only
  rw [storeCerts_used ht hu]
  rfl

/-! ## After a request -/

/-- A certificate which is still to be confirmed is registered: its transaction was new and is now in use, and request,
response and certificates are those which a `certConf` is checked against. -/
theorem C222_open_iff (H : C → D) (s s' : Sys C D R) (request response : Msg C) (certs : List C) (now : Int) {tx tx' : Bytes}
    (ht : request.txId = some tx) (hr : response.txId = some tx') :
    afterHyb H s request response certs false now = (.ok (), s') ↔ tx ∉ s.tx.used ∧
      s' = { tx := { used := tx :: s.tx.used, certs := s.tx.certs.set (tx, request.sender) certs }
             db := addCerts H false now certs s.db
             conf := { s.conf with
               requests := s.conf.requests.set tx request
               responses := s.conf.responses.set tx' response
               toBeConf := s.conf.toBeConf.set tx' certs } } := by
  unfold afterHyb
  rw [if_neg Bool.false_ne_true]
  by_cases hu : tx ∈ s.tx.used
  · rw [storeCerts_used (s := { s with db := addCerts H false now certs s.db }) ht hu]
    exact ⟨fun h => (by cases h), fun h => absurd hu h.1⟩
  · have hs := (C222_store_iff { s with db := addCerts H false now certs s.db } _ request certs).2 ⟨tx, ht, hu, rfl⟩
    rw [hs]
    dsimp only
    unfold addForConf ConfState.addRequest
    rw [ht]
    dsimp only
    unfold ConfState.addResponse
    rw [hr]
    exact ⟨fun h => ⟨hu, (Prod.mk.inj h).2.symm⟩, fun h => by rw [h.2]⟩

/-- With implicit confirmation only the database changes: the transaction is neither recorded as used nor as confirmed, so
that its identifier can be used again. -/
theorem C222_implicit (H : C → D) (s : Sys C D R) (request response : Msg C) (certs : List C) (now : Int) :
    afterHyb H s request response certs true now = (.ok (), { s with db := addCerts H true now certs s.db }) := by
  unfold afterHyb; rw [if_pos rfl]

/-- A transaction identifier in use is refused, but the certificate is already in the database. -/
theorem C222_reuse_refuted (H : C → D) (s : Sys C D R) (request response : Msg C) (certs : List C) (now : Int)
    {tx : Bytes} (ht : request.txId = some tx) (hu : tx ∈ s.tx.used) :
    afterHyb H s request response certs false now
      = (.error .transactionIdInUse, { s with db := addCerts H false now certs s.db }) := by
  unfold afterHyb
  rw [if_neg Bool.false_ne_true, storeCerts_used (s := { s with db := addCerts H false now certs s.db }) ht hu]

/-! ## `/related-cert`, `/cert-discovery`, `/catalyst-sig`, `/catalyst-issuing` -/

/-- The requests for which `/related-cert` issues a certificate: the protection of the message is not checked. -/
theorem C221_related_iff [DecidableEq C] [DecidableEq D] (H : C → D) (cfg : ConfCfg) (cenv : ConfEnv C)
    (env : HybEnv C D R S P) (st st' : CaSt C D R S) (q : HReq C S P) (now : Int) (b : String) (x : Option C) :
    processRelatedReq H cfg cenv env st q now = (.ok (.signed b x), st') ↔
      q.m.body = "p10cr" ∧ q.reqIds = .ok () ∧ x = none ∧ ∃ c s, env.related q = .ok c ∧
        afterHyb H st.sys q.m (env.relatedResp q c) [c] q.implicitConf now = (.ok (), s) ∧
        b = (env.relatedResp q c).body ∧ protectAnswer (env.sign b) q.alg q.dhKey = .ok () ∧
        st' = { st with sys := s } := by
  constructor
  · intro h
    unfold processRelatedReq at h
    split at h
    · rename_i hb
      cases hr : relatedBuild env q with
      | error e =>
        rw [hr] at h
        cases e with
        | io => have := errReq_ok (congrArg Prod.fst h); cases this
        | py e =>
          dsimp only at h
          split at h
          · have := errReq_ok (congrArg Prod.fst h); cases this
          · cases h
      | ok c =>
        rw [hr] at h
        dsimp only at h
        cases ha : afterHyb H st.sys q.m (env.relatedResp q c) [c] q.implicitConf now with
        | mk r s =>
          rw [ha] at h
          cases r with
          | error e => cases h
          | ok u =>
            dsimp only at h
            obtain ⟨h1, h2⟩ := Prod.mk.inj h
            obtain ⟨h3, h4⟩ := (signHyb_iff ..).1 h1
            injection h4 with h4 h5
            subst h4 h5
            unfold relatedBuild at hr
            cases hi : q.reqIds with
            | error e => rw [hi] at hr; cases hr
            | ok u => rw [hi] at hr; exact ⟨hb, rfl, rfl, c, s, hr, ha, rfl, h3, h2.symm⟩
    · split at h
      · unfold confPlain at h
        split at h <;> cases h
      · cases h
  · rintro ⟨hb, hi, rfl, c, s, hr, ha, rfl, h3, rfl⟩
    unfold processRelatedReq
    rw [if_pos hb]
    have : relatedBuild env q = .ok c := by unfold relatedBuild; rw [hi]; exact hr
    rw [this]
    dsimp only
    rw [ha]
    dsimp only
    rw [(signHyb_iff ..).2 ⟨h3, rfl⟩]

/-- The confirmation of a certificate is answered without protection by four of the endpoints. -/
theorem C223_plain_refuted [DecidableEq C] [DecidableEq D] (H : C → D) (cfg : ConfCfg) (cenv : ConfEnv C)
    (env : HybEnv C D R S P) (serial : Option Int) (st st' : CaSt C D R S) (q : HReq C S P) (now : Int)
    (hb : q.m.body = "certConf") {b : String} (hc : caCertConf H cfg cenv st q.m now = (.ok b, st')) :
    processRelatedReq H cfg cenv env st q now = (.ok (.plain b), st') ∧
    processDiscoveryReq H cfg cenv env serial st q now = (.ok (.plain b), st') ∧
    processCatalystSig H cfg cenv env st q now = (.ok (.plain b), st') ∧
    processCatalystIss H cfg cenv env st q now = (.ok (.plain b), st') := by
  have hp : confPlain H cfg cenv st q now = (.ok (.plain b), st') := by unfold confPlain; rw [hc]
  have h1 : q.m.body ≠ "p10cr" := by rw [hb]; decide
  refine ⟨?_, ?_, ?_, ?_⟩
  · unfold processRelatedReq; rw [if_neg h1, if_pos hb, hp]
  · unfold processDiscoveryReq; rw [if_neg h1, if_pos hb, hp]
  · unfold processCatalystSig catSigTry; rw [if_pos hb, hp]
  · unfold processCatalystIss; rw [if_pos hb, hp]

private theorem signHyb_plain {env : HybEnv C D R S P} {q : HReq C S P} {b b' : String} {s : Option C}
    (h : signHyb env q b s = .ok (.plain b')) : False := by
  have := ((signHyb_iff ..).1 h).2
  cases this

/-- No other answer of theirs is without protection. -/
theorem C223_protected_partial [DecidableEq C] [DecidableEq D] (H : C → D) (cfg : ConfCfg) (cenv : ConfEnv C)
    (env : HybEnv C D R S P) (serial : Option Int) (st : CaSt C D R S) (q : HReq C S P) (now : Int) (b : String)
    (h : (processRelatedReq H cfg cenv env st q now).1 = .ok (.plain b) ∨
      (processDiscoveryReq H cfg cenv env serial st q now).1 = .ok (.plain b) ∨
      (processCatalystSig H cfg cenv env st q now).1 = .ok (.plain b) ∨
      (processCatalystIss H cfg cenv env st q now).1 = .ok (.plain b)) : q.m.body = "certConf" := by
  refine Decidable.byContradiction fun hb => ?_
  rcases h with h | h | h | h
  · unfold processRelatedReq at h
    rw [if_neg hb] at h
    split at h
    · split at h
      · have := errReq_ok h; cases this
      · split at h
        · have := errReq_ok h; cases this
        · cases h
      · split at h
        · cases h
        · exact signHyb_plain h
    · cases h
  · unfold processDiscoveryReq at h
    rw [if_neg hb] at h
    split at h
    · split at h
      · cases h
      · split at h
        · cases h
        · split at h
          · cases h
          · exact signHyb_plain h
    · cases h
  · unfold processCatalystSig catSigTry at h
    rw [if_neg hb] at h
    split at h
    · rename_i hs
      split at hs
      · cases hs
      · have hs := congrArg Prod.fst hs
        dsimp only at hs
        injection h with h
        subst h
        exact signHyb_plain hs
    · split at h
      · have := errReq_ok h; cases this
      · cases h
  · unfold processCatalystIss at h
    rw [if_neg hb] at h
    split at h
    · exact signHyb_plain h
    · split at h
      · have := errTwice_ok h; cases this
      · cases h

/-- `/catalyst-issuing` answers each error of the test suite with a message protected twice; `/catalyst-sig` with one
protected once. -/
theorem C223_catalyst [DecidableEq C] [DecidableEq D] (H : C → D) (cfg : ConfCfg) (cenv : ConfEnv C)
    (env : HybEnv C D R S P) (st : CaSt C D R S) (q : HReq C S P) (now : Int) (e : PyErr) (he : e.isCmp = true)
    (hb : q.m.body ≠ "certConf") (hq : q.reqIds = .error e) :
    processCatalystIss H cfg cenv env st q now = (errTwice env q e, st) ∧
    processCatalystSig H cfg cenv env st q now = (errReq env q e, st) := by
  constructor
  · unfold processCatalystIss catalystTry
    rw [if_neg hb, hq]
    dsimp only
    rw [if_pos he]
  · unfold processCatalystSig catSigTry catalystTry
    rw [if_neg hb, hq]
    dsimp only
    rw [if_pos he]

/-- An error of the builder leaves `/cert-discovery` as an exception, also one which has a CMP error message. -/
theorem C223_escapes_refuted [DecidableEq C] [DecidableEq D] (H : C → D) (cfg : ConfCfg) (cenv : ConfEnv C)
    (env : HybEnv C D R S P) (n : Int) (st : CaSt C D R S) (q : HReq C S P) (now : Int) (hb : q.m.body = "p10cr")
    {e : PyErr} (he : env.discovery q n = .error e) :
    processDiscoveryReq H cfg cenv env (some n) st q now = (.error e, st) := by
  unfold processDiscoveryReq
  rw [if_pos hb]
  dsimp only
  rw [he]

/-! ## `/sun-hybrid` -/

/-- A certificate is either confirmed or to be confirmed, so that the last exception of `process_sun_hybrid` is not
reachable; one sent encrypted has always to be confirmed, and is not sent in the clear. -/
theorem C222_sun_exclusive (env : HybEnv C D R S P) (sun sun' : Dict Int C) (q : HReq C S P) (serial : Int)
    {a : HAns C} {resp : Msg C} {i o : Option C} (h : sunRequest env sun q serial = (.ok (a, resp, i, o), sun')) :
    ∃ c4 c1 enc, env.sun q serial = .ok (resp, c4, c1, enc) ∧ sun' = sun.set serial c1 ∧
      (q.implicitConf = true → enc = false → i = some c4 ∧ o = none) ∧
      (q.implicitConf = false ∨ enc = true → i = none ∧ o = some c4) ∧
      a = .signed resp.body (if enc then none else some c1) := by
  unfold sunRequest at h
  split at h
  · cases h
  · split at h
    · cases h
    · rename_i r c4 c1 enc hs
      split at h
      · cases h
      · rename_i x hx
        injection h with h1 h2
        injection h1 with h1
        obtain ⟨h3, h4, h5, h6⟩ : x = a ∧ r = resp ∧ _ = i ∧ _ = o := by
          injection h1 with h3 h1
          injection h1 with h4 h1
          injection h1 with h5 h6
          exact ⟨h3, h4, h5, h6⟩
        subst h3 h4
        refine ⟨c4, c1, enc, hs, h2.symm, ?_, ?_, ((signHyb_iff ..).1 hx).2⟩
        · intro hi he
          rw [if_pos ⟨he, hi⟩] at h5 h6
          exact ⟨h5.symm, h6.symm⟩
        · intro hh
          have : ¬ (enc = false ∧ q.implicitConf = true) := by
            rintro ⟨h7, h8⟩
            rcases hh with hh | hh
            · rw [h8] at hh; cases hh
            · rw [h7] at hh; cases hh
          rw [if_neg this] at h5 h6
          exact ⟨h5.symm, h6.symm⟩

/-- The outcome of a certificate request: the answer is the one of the builder, and the certificate is registered for
confirmation unless it was confirmed implicitly. -/
theorem C222_sun (H : C → D) (env : HybEnv C D R S P) (serial : Int) (st st' : HSt C D R S) (q : HReq C S P) (now : Int)
    {b : String} {x : Option C} (h : sunIssue H env serial st q now = (.ok (.signed b x), st')) :
    ∃ resp c4 c1 enc, env.sun q serial = .ok (resp, c4, c1, enc) ∧ st'.sun = st.sun.set serial c1 ∧
      b = resp.body ∧ x = (if enc then none else some c1) ∧
      afterHyb H st.ca.sys q.m resp [c4] (!enc && q.implicitConf) now = (.ok (), st'.ca.sys) := by
  unfold sunIssue at h
  cases hs : sunRequest env st.sun q serial with
  | mk r sun =>
    rw [hs] at h
    cases r with
    | error e =>
      dsimp only at h
      split at h
      · have := errReq_ok (congrArg Prod.fst h); cases this
      · cases h
    | ok v =>
      obtain ⟨a, resp, i, o⟩ := v
      dsimp only at h
      obtain ⟨c4, c1, enc, h1, h2, h3, h4, h5⟩ := C222_sun_exclusive env st.sun sun q serial hs
      split at h
      · cases h
      · cases ha : afterHyb H st.ca.sys q.m resp (i.orElse fun _ => o).toList i.isSome now with
        | mk r s =>
          rw [ha] at h
          cases r with
          | error e => cases h
          | ok u =>
            injection h with h6 h7
            injection h6 with h6
            subst h7
            rw [h5] at h6
            injection h6 with h8 h9
            refine ⟨resp, c4, c1, enc, h1, h2, h8.symm, h9.symm, ?_⟩
            cases enc with
            | true =>
              obtain ⟨hi, ho⟩ := h4 (.inr rfl)
              subst hi ho
              exact ha
            | false =>
              cases hq : q.implicitConf with
              | true =>
                obtain ⟨hi, ho⟩ := h3 hq rfl
                subst hi ho
                exact ha
              | false =>
                obtain ⟨hi, ho⟩ := h4 (.inl hq)
                subst hi ho
                exact ha

/-- The answers of `/sun-hybrid` are always protected. -/
theorem C223_sun_protected [DecidableEq C] [DecidableEq D] (H : C → D) (cfg : ConfCfg) (cenv : ConfEnv C)
    (env : HybEnv C D R S P) (serial : Int) (st : HSt C D R S) (q : HReq C S P) (now : Int) (b : String) :
    (processSun H cfg cenv env serial st q now).1 ≠ .ok (.plain b) := by
  intro h
  unfold processSun at h
  split at h
  · cases h
  · split at h
    · cases h
    · cases h
    · split at h
      · split at h
        · have := errReq_ok h; cases this
        · cases h
      · unfold sunBody at h
        split at h
        · split at h
          · cases h
          · exact signHyb_plain h
        · split at h
          · split at h
            · cases h
            · split at h
              · cases h
              · exact signHyb_plain h
          · unfold sunIssue at h
            split at h
            · split at h
              · have := errReq_ok h; cases this
              · cases h
            · rename_i a resp i o sun hs
              split at h
              · cases h
              · split at h
                · cases h
                · injection h with h
                  subst h
                  obtain ⟨_, _, _, _, _, _, _, h5⟩ := C222_sun_exclusive env st.sun sun q serial hs
                  cases h5

/-- A revoked certificate is refused, unless the request is protected by a MAC; every other exception of the revocation
check leaves the function. -/
theorem C221_sun_revoked [DecidableEq C] [DecidableEq D] (H : C → D) (cfg : ConfCfg) (cenv : ConfEnv C)
    (env : HybEnv C D R S P) (serial : Int) (st : HSt C D R S) (q : HReq C S P) (now : Int) {t : ProtType}
    (hc : q.hybridCert = .ok ()) (ha : q.alg = some (.ok t)) (hm : t ≠ .mac) {e : PyErr} (he : q.forIssuing = .error e) :
    processSun H cfg cenv env serial st q now = (if e = .certRevoked then errReq env q e else .error e, st) := by
  unfold processSun
  rw [hc]
  dsimp only
  rw [ha]
  dsimp only
  rw [if_neg hm, he]
  dsimp only
  split <;> rfl

/-- An unprotected request to `/sun-hybrid` leaves the function as an exception, without an answer. -/
theorem C223_sun_unprotected_refuted [DecidableEq C] [DecidableEq D] (H : C → D) (cfg : ConfCfg) (cenv : ConfEnv C)
    (env : HybEnv C D R S P) (serial : Int) (st : HSt C D R S) (q : HReq C S P) (now : Int) (ha : q.alg = none) :
    ∃ e, processSun H cfg cenv env serial st q now = (.error e, st) := by
  unfold processSun
  cases q.hybridCert with
  | error e => exact ⟨e, rfl⟩
  | ok u => dsimp only; rw [ha]; exact ⟨_, rfl⟩

/-- A refused confirmation on `/sun-hybrid` leaves the function as an exception, without an answer. -/
theorem C223_sun_confirm_refuted [DecidableEq C] [DecidableEq D] (H : C → D) (cfg : ConfCfg) (cenv : ConfEnv C)
    (env : HybEnv C D R S P) (serial : Int) (st : HSt C D R S) (q : HReq C S P) (now : Int) (hb : q.m.body = "certConf")
    {t : ProtType} (hc : q.hybridCert = .ok ()) (ha : q.alg = some (.ok t)) (hr : q.forIssuing = .ok ())
    {e : PyErr} {ca : CaSt C D R S} (he : caCertConf H cfg cenv st.ca q.m now = (.error e, ca)) :
    processSun H cfg cenv env serial st q now = (.error e, { st with ca := ca }) := by
  unfold processSun sunBody
  rw [hc]
  dsimp only
  rw [ha]
  dsimp only
  rw [hr, ite_self]
  dsimp only
  rw [if_pos hb, he]

/-! ## `/multi-auth` -/

/-- Here each response has passed the verification of the (composite or alternative) protection and the check for revoked
certificates, before the usual processing. -/
theorem C221_multi_iff (env : HybEnv C D R S P)
    (normal : CaSt C D R S → HReq C S P → Int → Res (CaSt C D R S) Answer) (st st' : CaSt C D R S) (q : HReq C S P)
    (now : Int) (a : Answer) :
    processMultiAuth env normal st q now = (.ok (.inl a), st') ↔
      q.forRequest = .ok () ∧ q.hybridProt = .ok () ∧ normal st q now = (.ok a, st') := by
  have hmap : ∀ (e : PyErr) (s : CaSt C D R S), ((errReq env q e).map Sum.inr, s) ≠ ((.ok (.inl a), st') :
      Res (CaSt C D R S) (Answer ⊕ HAns C)) := by
    intro e s h
    have h := congrArg Prod.fst h
    dsimp only at h
    cases hx : errReq env q e with
    | error x => rw [hx] at h; cases h
    | ok x => rw [hx] at h; cases h
  constructor
  · intro h
    unfold processMultiAuth at h
    split at h
    · split at h
      · exact absurd h (hmap _ _)
      · cases h
    · rename_i hf
      split at h
      · split at h
        · exact absurd h (hmap _ _)
        · split at h
          · exact absurd h (hmap _ _)
          · cases h
      · rename_i hp
        split at h
        · rename_i hn
          injection h with h1 h2
          injection h1 with h1
          injection h1 with h1
          subst h1 h2
          exact ⟨hf, hp, hn⟩
        · split at h
          · exact absurd h (hmap _ _)
          · split at h
            · exact absurd h (hmap _ _)
            · cases h
  · rintro ⟨h1, h2, h3⟩
    unfold processMultiAuth
    rw [h1]
    dsimp only
    rw [h2]
    dsimp only
    rw [h3]

/-- A wrong signature of either kind is answered with `badMessageCheck`, and nothing is changed. -/
theorem C221_multi_invalid (env : HybEnv C D R S P)
    (normal : CaSt C D R S → HReq C S P → Int → Res (CaSt C D R S) Answer) (st : CaSt C D R S) (q : HReq C S P)
    (now : Int) (hf : q.forRequest = .ok ())
    (hp : q.hybridProt = .error .invalidSignature ∨ q.hybridProt = .error .invalidAltSignature) :
    processMultiAuth env normal st q now = ((errReq env q .badMessageCheck).map .inr, st) := by
  unfold processMultiAuth
  rw [hf]
  dsimp only
  rcases hp with hp | hp <;> (rw [hp]; rfl)

/-! ## HTTP -/

/-- `/issuing` answers data which is not a message with the status 400 and a CMP error message, and everything else with
200 or 500. -/
theorem C224_issuing (out : Except PyErr Unit) : httpIssuing (.error .valueError) (.ok ()) out = ⟨400, true⟩ := rfl

/-- The other endpoints answer it with the status 500, and not with a CMP message. -/
theorem C224_hybrid_refuted (e : PyErr) (out : Except PyErr Unit) :
    httpHybrid (.error e) out = ⟨500, false⟩ := rfl

/-- A CMP message with status 200 is sent exactly if the request was decoded and processed. -/
theorem C224_ok_iff (parsed err out : Except PyErr Unit) :
    (httpIssuing parsed err out = ⟨200, true⟩ ↔ parsed = .ok () ∧ out = .ok ()) ∧
    (httpHybrid parsed out = ⟨200, true⟩ ↔ parsed = .ok () ∧ out = .ok ()) := by
  have h4 : (⟨400, true⟩ : Http) ≠ ⟨200, true⟩ := by decide
  have h5 : (⟨500, false⟩ : Http) ≠ ⟨200, true⟩ := by decide
  constructor
  · unfold httpIssuing
    cases parsed with
    | error e =>
      refine ⟨fun h => ?_, fun h => (by cases h.1)⟩
      dsimp only at h
      split at h
      · cases err with
        | error _ => exact absurd h h5
        | ok _ => exact absurd h h4
      · exact absurd h h5
    | ok u =>
      cases out with
      | error e => exact ⟨fun h => absurd h h5, fun h => (by cases h.2)⟩
      | ok u => exact ⟨fun _ => ⟨rfl, rfl⟩, fun _ => rfl⟩
  · unfold httpHybrid
    cases parsed with
    | error e => exact ⟨fun h => absurd h h5, fun h => (by cases h.1)⟩
    | ok u =>
      cases out with
      | error e => exact ⟨fun h => absurd h h5, fun h => (by cases h.2)⟩
      | ok u => exact ⟨fun _ => ⟨rfl, rfl⟩, fun _ => rfl⟩

/-- What follows a message is not looked at: a message with any data appended is parsed like the message. -/
theorem C224_trailing_refuted {M : Type} (dec : Bytes → Except PyErr (M × Bytes)) (renest : M → Except PyErr M)
    (d d' rest : Bytes) (m : M) (h : dec d = .ok (m, [])) (h' : dec d' = .ok (m, rest)) :
    parsePki dec renest d' = parsePki dec renest d := by
  unfold parsePki; rw [h, h']

/-- An error of the decoder is reported as a `ValueError`, so that no exception of pyasn1 leaves the parser. -/
theorem C224_no_decoder_error {M : Type} (dec : Bytes → Except PyErr (M × Bytes)) (renest : M → Except PyErr M) (d : Bytes) :
    parsePki dec renest d ≠ .error .pyasn1Error := by
  intro h
  unfold parsePki at h
  split at h
  · injection h with h
    split at h
    · cases h
    · rename_i hn; exact hn h
  · split at h
    · injection h with h
      split at h
      · cases h
      · rename_i hn; exact hn h
    · cases h

/-! ## Examples -/

/-- Certificates are numbers, and their own digests. -/
def exHyb : HybEnv Nat Nat Unit Unit Unit where
  chameleon q := .ok ({ body := "cp", txId := q.m.txId, senderNonce := some [1] }, 10, 11)
  discovery q n := .ok ({ body := "cp", txId := q.m.txId, senderNonce := some [1] }, n.toNat)
  related _ := .ok 20
  relatedResp q _ := { body := "cp", txId := q.m.txId, senderNonce := some [1] }
  catalystSig q := .ok ({ body := "ip", txId := q.m.txId, senderNonce := some [1] }, [30])
  catalystIss q := .ok ({ body := "ip", txId := q.m.txId, senderNonce := some [1] }, 31)
  sun q _ := .ok ({ body := "ip", txId := q.m.txId, senderNonce := some [1] }, 40, 41, false)
  rr st _ _ := (.ok "rp", st)

/-- A request with an invalid signature. -/
def exHybReq (body : String) : HReq Nat Unit Unit where
  m := { body := body, txId := some [7], senderNonce := some [2], prot := some .tradSig, extraCerts := [5] }
  verdict := .error .invalidSignature
  hybridProt := .error .invalidSignature
  kemMac _ := false

/-- No endpoint but `/multi-auth` looks at the protection: each issues a certificate for a request with an invalid
signature. -/
theorem C221_unverified_refuted (cfg : ConfCfg) (cenv : ConfEnv Nat) :
    (processChameleon id exHyb {} (exHybReq "p10cr") 5).1 = .ok (.signed "cp" (some 11)) ∧
    (processDiscoveryReq id cfg cenv exHyb (some 3) {} (exHybReq "p10cr") 5).1 = .ok (.signed "cp" none) ∧
    (processRelatedReq id cfg cenv exHyb {} (exHybReq "p10cr") 5).1 = .ok (.signed "cp" none) ∧
    (processCatalystSig id cfg cenv exHyb {} (exHybReq "ir") 5).1 = .ok (.signed "ip" none) ∧
    (processCatalystIss id cfg cenv exHyb {} (exHybReq "ir") 5).1 = .ok (.signed "ip" none) ∧
    (processSun id cfg cenv exHyb 3 {} (exHybReq "ir") 5).1 = .ok (.signed "ip" (some 41)) ∧
    (processMultiAuth exHyb (fun st _ _ => (.ok (.response "ip"), st)) {} (exHybReq "ir") 5).1
      = .ok (.inr (.failed .badMessageCheck true)) :=
  ⟨rfl, rfl, rfl, rfl, rfl, rfl, rfl⟩

example : (processChameleon id exHyb {} (exHybReq "p10cr") 5).2.sys.db.notConfirmedCerts = [10, 11] := by decide +kernel
example : (processRelatedReq id {} ⟨fun _ _ => [], fun _ => none, fun _ _ => .ok (), fun _ _ => .ok ()⟩ exHyb {}
    (exHybReq "p10cr") 5).2.sys.conf.toBeConf = [([7], [20])] := by decide +kernel
example : (processChameleon id exHyb { sys := { tx := { used := [[7]] } } } (exHybReq "p10cr") 5).1
    = .ok (.failed .transactionIdInUse false) := by decide +kernel
example : (processRelatedReq id {} ⟨fun _ _ => [], fun _ => none, fun _ _ => .ok (), fun _ _ => .ok ()⟩ exHyb
    { sys := { tx := { used := [[7]] } } } (exHybReq "p10cr") 5).2.sys.db.notConfirmedCerts = [20] := by decide +kernel
example : (processSun id {} ⟨fun _ _ => [], fun _ => none, fun _ _ => .ok (), fun _ _ => .ok ()⟩ exHyb 3 {}
    { exHybReq "ir" with implicitConf := true } 5).2.ca.sys.tx.used = [] := by decide +kernel
example : httpHybrid (.error .valueError) (.ok ()) = ⟨500, false⟩ := rfl

end Verif.CA
