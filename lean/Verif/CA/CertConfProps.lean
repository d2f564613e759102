import Verif.CA.CertConf
import Verif.CA.CertDBLemmas

/-!
# C05, C06, C86, C93, C94, C95: certificate confirmation
-/

namespace Verif.CA

variable {C D R : Type}

/-! ## What an accepted certConf implies -/

/-- Everything `confChecks` guarantees when it lets a message through. -/
theorem confChecks_ok [DecidableEq C] {cfg : ConfCfg} {env : ConfEnv C} {s : ConfState C} {m req resp : Msg C}
    {issued : List C} (h : confChecks cfg env s m = .ok (req, resp, issued)) :
    ∃ tx, m.txId = some tx ∧ tx ∉ s.confirmed ∧ s.requests.get tx = some req ∧ s.responses.get tx = some resp ∧
      s.toBeConf.get tx = some issued ∧ issued ≠ [] ∧ s.validateNonces m cfg.mustBeFresh = .ok () ∧
      verifyProt cfg req m = .ok () ∧ env.hdr m resp = .ok () ∧ buildPkiConf env m issued = .ok () := by
  unfold confChecks at h
  cases htx : m.txId with
  | none => simp [ConfState.isConfirmed, htx] at h
  | some tx =>
    by_cases hc : tx ∈ s.confirmed
    · simp [ConfState.isConfirmed, htx, hc] at h
    · have h1 : s.isConfirmed m = .ok () := by simp [ConfState.isConfirmed, htx, hc]
      simp only [h1] at h
      cases h2 : s.validateTxId m with
      | error e => simp [h2] at h
      | ok u =>
        simp only [h2] at h
        cases h3 : s.validateNonces m cfg.mustBeFresh with
        | error e => simp [h3] at h
        | ok u =>
          simp only [h3, htx] at h
          cases h4 : s.requests.get tx with
          | none => simp [h4] at h
          | some rq =>
            simp only [h4] at h
            cases h5 : verifyProt cfg rq m with
            | error e => simp [h5] at h
            | ok u =>
              simp only [h5] at h
              cases h6 : s.responses.get tx with
              | none => simp [h6] at h
              | some rs =>
                simp only [h6] at h
                cases h7 : env.hdr m rs with
                | error e => simp [h7] at h
                | ok u =>
                  simp only [h7] at h
                  cases h8 : s.toBeConf.get tx with
                  | none => simp [h8] at h
                  | some l =>
                    cases l with
                    | nil => simp [h8] at h
                    | cons c cs =>
                      simp only [h8] at h
                      cases h9 : buildPkiConf env m (c :: cs) with
                      | error e => simp [h9] at h
                      | ok u =>
                        simp only [h9, Except.ok.injEq, Prod.mk.injEq] at h
                        obtain ⟨rfl, rfl, rfl⟩ := h
                        exact ⟨tx, rfl, hc, h4, h6, h8, by simp, rfl, h5, h7, h9⟩

/-- Facts behind a successful `process_cert_conf`. -/
theorem processCertConf_ok [DecidableEq C] [DecidableEq D] {H : C → D} {cfg : ConfCfg} {env : ConfEnv C}
    {s : Sys C D R} {m : Msg C} {now : Int} {r : Option C} (h : (s.processCertConf H cfg env m now).1 = .ok r) :
    ∃ tx req resp issued db db' cf, m.txId = some tx ∧ confChecks cfg env s.conf m = .ok (req, resp, issued) ∧
      (resp.body ≠ "kup" → db = s.db) ∧ confirmAll H env req now issued db = (.ok (), db') ∧
      s.conf.removeRequest m = (.ok (), cf) ∧
      (s.processCertConf H cfg env m now).2 = { s with db := db', conf := cf } := by
  unfold Sys.processCertConf at h ⊢
  cases hc : confChecks cfg env s.conf m with
  | error e => simp [hc] at h
  | ok v =>
    obtain ⟨req, resp, issued⟩ := v
    obtain ⟨tx, htx, _⟩ := confChecks_ok hc
    simp only [hc] at h ⊢
    generalize hu : (if resp.body = "kup" then
        match req.extraCerts.head? with
        | none => ((.error .pyasn1Error, s.db) : Res (DB C D R) Unit)
        | some old => s.db.changeCertState H old .updated none none now
      else (.ok (), s.db)) = upd at h ⊢
    obtain ⟨ur, udb⟩ := upd
    cases ur with
    | error e => simp at h
    | ok u =>
      simp only at h ⊢
      cases hca : confirmAll H env req now issued udb with
      | mk cr cdb =>
        simp only [hca] at h ⊢
        cases cr with
        | error e => simp at h
        | ok u =>
          simp only at h ⊢
          cases hr : s.conf.removeRequest m with
          | mk rr cf =>
            simp only [hr] at h ⊢
            cases rr with
            | error e => simp at h
            | ok u =>
              refine ⟨tx, req, resp, issued, udb, cdb, cf, htx, rfl, ?_, hca, rfl, rfl⟩
              intro hk; rw [if_neg hk] at hu; exact (Prod.mk.inj hu).2.symm

/-! ## C05 -/

/-- The set of confirmed transactions only grows. -/
def ConfGrows (s s' : Sys C D R) : Prop := ∀ tx, tx ∈ s.conf.confirmed → tx ∈ s'.conf.confirmed

theorem removeRequest_grows (s : ConfState C) (m : Msg C) : ∀ tx, tx ∈ s.confirmed → tx ∈ (s.removeRequest m).2.confirmed := by
  intro tx h
  unfold ConfState.removeRequest
  cases m.txId with
  | none => exact h
  | some t => simp only; split <;> simp [h]

theorem processCertConf_grows [DecidableEq C] [DecidableEq D] (H : C → D) (cfg : ConfCfg) (env : ConfEnv C)
    (s : Sys C D R) (m : Msg C) (now : Int) : ConfGrows s (s.processCertConf H cfg env m now).2 := by
  intro tx h
  unfold Sys.processCertConf
  split
  · exact h
  · simp only
    split
    · exact h
    · split
      · exact h
      · have := removeRequest_grows s.conf m tx h
        split
        · rename_i h1; rw [h1] at this; exact this
        · rename_i h1; rw [h1] at this; exact this

theorem addConfirmed_grows (s : ConfState C) (m : Msg C) : ∀ tx, tx ∈ s.confirmed → tx ∈ (s.addConfirmed m).2.confirmed := by
  intro tx h; unfold ConfState.addConfirmed; cases m.txId <;> simp [h]

theorem addRequest_confirmed (s : ConfState C) (m : Msg C) : (s.addRequest m).2.confirmed = s.confirmed := by
  unfold ConfState.addRequest; cases m.txId <;> rfl

theorem addResponse_confirmed (s : ConfState C) (m : Msg C) (cs : List C) : (s.addResponse m cs).2.confirmed = s.confirmed := by
  unfold ConfState.addResponse; cases m.txId <;> rfl

theorem afterRequest_grows [DecidableEq D] (H : C → D) (s : Sys C D R) (rq rs : Msg C) (cs : List C) (rej cf : Bool)
    (st : Except PyErr Unit) (now : Int) : ConfGrows s (s.afterRequest H rq rs cs rej cf st now).2 := by
  intro tx h
  unfold Sys.afterRequest
  split
  · exact h
  · split
    · exact h
    · split
      · exact h
      · split
        · exact h
        · simp only
          split
          · exact h
          · split
            · have := addConfirmed_grows s.conf rq tx h
              split
              · rename_i h1; rw [h1] at this; exact this
              · rename_i h1; rw [h1] at this; exact this
            · split
              · rename_i h1
                have := addRequest_confirmed s.conf rq
                rw [h1] at this; rw [← this] at h; exact h
              · rename_i h1
                have := addRequest_confirmed s.conf rq
                rw [h1] at this; rw [← this] at h
                simp only [addResponse_confirmed]; exact h

theorem sysStep_grows [DecidableEq C] [DecidableEq D] (H : C → D) (cfg : ConfCfg) (env : ConfEnv C) (s : Sys C D R)
    (op : SysOp C R) : ConfGrows s (s.step H cfg env op).2 := by
  cases op with
  | issue rq rs cs rej cf st now => exact afterRequest_grows H s rq rs cs rej cf st now
  | conf m now => exact processCertConf_grows H cfg env s m now
  | db op => intro tx h; exact h
  | rawRequest m => intro tx h; simpa [Sys.step, addRequest_confirmed] using h
  | rawResponse m cs => intro tx h; simpa [Sys.step, addResponse_confirmed] using h
  | rawConfirmed m => exact addConfirmed_grows s.conf m

theorem sysRun_grows [DecidableEq C] [DecidableEq D] (H : C → D) (cfg : ConfCfg) (env : ConfEnv C) (ops : List (SysOp C R))
    (s : Sys C D R) : ConfGrows s (s.run H cfg env ops).2 := by
  induction ops generalizing s with
  | nil => exact fun tx h => h
  | cons op ops ih => exact fun tx h => ih _ tx (sysStep_grows H cfg env s op tx h)

/-- A successful certConf records its transaction as confirmed. -/
theorem conf_ok_recorded [DecidableEq C] [DecidableEq D] {H : C → D} {cfg : ConfCfg} {env : ConfEnv C} {s : Sys C D R}
    {m : Msg C} {now : Int} {r : Option C} {tx : Bytes} (htx : m.txId = some tx)
    (h : (s.processCertConf H cfg env m now).1 = .ok r) :
    tx ∈ (s.processCertConf H cfg env m now).2.conf.confirmed := by
  obtain ⟨tx', req, resp, issued, db, db', cf, h1, _, _, _, h5, h6⟩ := processCertConf_ok h
  rw [h6]; simp only
  have : cf = (s.conf.removeRequest m).2 := by rw [h5]
  rw [this]
  unfold ConfState.removeRequest
  rw [htx]; simp only; split <;> simp

/-- C05 (replay): after a certConf for a transaction succeeded, every certConf with the same transactionID is
refused with `CertConfirmed` and changes nothing, whatever happened in between. -/
theorem C05_second_refused [DecidableEq C] [DecidableEq D] (H : C → D) (cfg : ConfCfg) (env : ConfEnv C)
    (s : Sys C D R) (m m' : Msg C) (tx : Bytes) (now now' : Int) (ops : List (SysOp C R)) (r : Option C)
    (h1 : m.txId = some tx) (h2 : m'.txId = some tx) (h : (s.processCertConf H cfg env m now).1 = .ok r) :
    let s' := ((s.processCertConf H cfg env m now).2.run H cfg env ops).2
    s'.processCertConf H cfg env m' now' = (.error .certConfirmed, s') := by
  intro s'
  have hin : tx ∈ s'.conf.confirmed := sysRun_grows H cfg env ops _ tx (conf_ok_recorded h1 h)
  have : confChecks cfg env s'.conf m' = .error .certConfirmed := by
    simp [confChecks, ConfState.isConfirmed, h2, hin]
  simp [Sys.processCertConf, this]

/-- Outcome flags: which events of a history are successful certConfs for `tx`. -/
def okConfs (tx : Bytes) : List (SysOp C R) → List (Except PyErr Unit) → Nat
  | .conf m _ :: ops, .ok _ :: outs => (if m.txId = some tx then 1 else 0) + okConfs tx ops outs
  | _ :: ops, _ :: outs => okConfs tx ops outs
  | _, _ => 0

theorem okConfs_confirmed [DecidableEq C] [DecidableEq D] (H : C → D) (cfg : ConfCfg) (env : ConfEnv C) (tx : Bytes)
    (ops : List (SysOp C R)) (s : Sys C D R) (h : tx ∈ s.conf.confirmed) :
    okConfs tx ops (s.run H cfg env ops).1 = 0 := by
  induction ops generalizing s with
  | nil => rfl
  | cons op ops ih =>
    have ih := ih _ (sysStep_grows H cfg env s op tx h)
    simp only [Sys.run]
    cases op with
    | conf m now =>
      simp only [Sys.step] at ih ⊢
      cases hr : (s.processCertConf H cfg env m now).1 with
      | error e => simpa [Except.map, okConfs] using ih
      | ok r =>
        simp only [Except.map, okConfs]
        by_cases hm : m.txId = some tx
        · have : confChecks cfg env s.conf m = .error .certConfirmed := by
            simp [confChecks, ConfState.isConfirmed, hm, h]
          simp [Sys.processCertConf, this] at hr
        · rw [if_neg hm]; simpa using ih
    | issue rq rs cs rej cf st now => simpa [okConfs] using ih
    | db op => simpa [okConfs] using ih
    | rawRequest m => simpa [okConfs] using ih
    | rawResponse m cs => simpa [okConfs] using ih
    | rawConfirmed m => simpa [okConfs] using ih

/-- C05: in every history, from every state, at most one certConf per transactionID succeeds. -/
theorem C05_at_most_once [DecidableEq C] [DecidableEq D] (H : C → D) (cfg : ConfCfg) (env : ConfEnv C) (tx : Bytes)
    (ops : List (SysOp C R)) (s : Sys C D R) : okConfs tx ops (s.run H cfg env ops).1 ≤ 1 := by
  induction ops generalizing s with
  | nil => simp [okConfs]
  | cons op ops ih =>
    have ih' := ih (s.step H cfg env op).2
    simp only [Sys.run]
    cases op with
    | conf m now =>
      simp only [Sys.step] at ih' ⊢
      cases hr : (s.processCertConf H cfg env m now).1 with
      | error e => simpa [Except.map, okConfs] using ih'
      | ok r =>
        simp only [Except.map, okConfs]
        by_cases hm : m.txId = some tx
        · rw [if_pos hm, okConfs_confirmed H cfg env tx ops _ (conf_ok_recorded hm hr)]; omega
        · rw [if_neg hm]; simpa using ih'
    | issue rq rs cs rej cf st now => simpa [okConfs] using ih'
    | db op => simpa [okConfs] using ih'
    | rawRequest m => simpa [okConfs] using ih'
    | rawResponse m cs => simpa [okConfs] using ih'
    | rawConfirmed m => simpa [okConfs] using ih'

/-- C05 (implicit confirmation): after an implicitly confirmed enrolment no certConf for the transaction succeeds. -/
theorem C05_implicit_refused [DecidableEq C] [DecidableEq D] (H : C → D) (cfg : ConfCfg) (env : ConfEnv C)
    (s : Sys C D R) (rq rs m : Msg C) (cs : List C) (now now' : Int) (tx : Bytes) (ops : List (SysOp C R))
    (hb : rs.body = "ip" ∨ rs.body = "cp" ∨ rs.body = "ccp" ∨ rs.body = "kup")
    (h : (s.afterRequest H rq rs cs false true (.ok ()) now).1 = .ok ()) (h1 : rq.txId = some tx) (h2 : m.txId = some tx) :
    let s' := ((s.afterRequest H rq rs cs false true (.ok ()) now).2.run H cfg env ops).2
    s'.processCertConf H cfg env m now' = (.error .certConfirmed, s') := by
  intro s'
  have h0 : tx ∈ (s.afterRequest H rq rs cs false true (.ok ()) now).2.conf.confirmed := by
    unfold Sys.afterRequest at h ⊢
    simp only [if_neg (not_not_intro hb), Bool.false_eq_true, if_false, h1] at h ⊢
    generalize hst : s.tx.store tx rq.sender cs = st at h ⊢
    obtain ⟨a, b⟩ := st
    cases a with
    | error e => simp at h
    | ok u =>
      simp only [if_true] at h ⊢
      generalize hu : (if rs.body = "kup" then
            match rq.extraCerts.head? with
            | none => ((.error .pyasn1Error, s.db) : Res (DB C D R) Unit)
            | some old =>
              match cs.head? with
              | none => (.error .indexError, s.db)
              | some new => s.db.changeCertState H old .updated none (some new) now
          else (.ok (), s.db)) = upd at h ⊢
      obtain ⟨ur, udb⟩ := upd
      cases ur with
      | error e => simp at h
      | ok u => simp [ConfState.addConfirmed, h1]
  have hin : tx ∈ s'.conf.confirmed := sysRun_grows H cfg env ops _ tx h0
  have : confChecks cfg env s'.conf m = .error .certConfirmed := by
    simp [confChecks, ConfState.isConfirmed, h2, hin]
  simp [Sys.processCertConf, this]

/-! ## C06 -/

/-- Independent specification of a certConf that belongs to the exchange `(req, resp)`. -/
structure Bound (cfg : ConfCfg) (req resp m : Msg C) : Prop where
  answersCA : m.recipNonce = resp.senderNonce ∧ m.recipNonce ≠ none
  caAnswered : resp.recipNonce = req.senderNonce ∧ req.senderNonce ≠ none
  nonceLen : ∃ n, m.senderNonce = some n ∧ n.length = 16
  fresh : cfg.mustBeFresh = true → m.senderNonce ≠ req.senderNonce
  same : cfg.mustBeFresh = false → m.senderNonce = req.senderNonce

theorem validateNonces_iff (s : ConfState C) (m : Msg C) (cfg : ConfCfg) (tx : Bytes) (req resp : Msg C)
    (htx : m.txId = some tx) (hreq : s.requests.get tx = some req) (hresp : s.responses.get tx = some resp) :
    s.validateNonces m cfg.mustBeFresh = .ok () ↔ Bound cfg req resp m := by
  unfold ConfState.validateNonces
  constructor
  · intro h
    cases h1 : m.senderNonce with
    | none => simp [h1] at h
    | some sn =>
      cases h2 : m.recipNonce with
      | none => simp [h1, h2] at h
      | some rn =>
        simp only [h1, h2, htx, hresp, hreq] at h
        cases h3 : req.senderNonce with
        | none => simp [h3] at h
        | some reqSn =>
          simp only [h3] at h
          cases h4 : resp.senderNonce with
          | none => simp [h4] at h
          | some respSn =>
            simp only [h4] at h
            split at h
            · simp at h
            · rename_i ha
              cases h5 : resp.recipNonce with
              | none => simp [h5] at h
              | some respRn =>
                simp only [h5] at h
                split at h
                · simp at h
                · rename_i hb
                  split at h
                  · simp at h
                  · rename_i hc
                    split at h
                    · simp at h
                    · rename_i hd
                      split at h
                      · simp at h
                      · rename_i he
                        simp only [ne_eq, Decidable.not_not] at ha hb hc
                        refine ⟨⟨by rw [h2, h4, ha], by simp [h2]⟩, ⟨by rw [h5, h3, hb], by simp [h3]⟩,
                          ⟨sn, h1, hc⟩, ?_, ?_⟩
                        · intro hf hh
                          rw [h1, h3] at hh; injection hh with hh
                          exact hd ⟨hh, hf⟩
                        · intro hf
                          rw [h1, h3]
                          congr 1
                          exact Classical.byContradiction (fun hh => he ⟨hh, hf⟩)
  · rintro ⟨⟨a1, a2⟩, ⟨b1, b2⟩, ⟨n, c1, c2⟩, hf, hs⟩
    cases h2 : m.recipNonce with
    | none => exact absurd h2 a2
    | some rn =>
      cases h3 : req.senderNonce with
      | none => exact absurd h3 b2
      | some reqSn =>
        rw [h2] at a1; rw [h3] at b1 hf hs; rw [c1] at hf hs
        simp only [c1, htx, hresp, hreq, ← a1, b1]
        simp only [ne_eq, not_true_eq_false, if_false, c2]
        cases hm : cfg.mustBeFresh with
        | false =>
          have := hs hm; injection this with this
          simp [this, h3]
        | true =>
          have := hf hm
          simp only [ne_eq, Option.some.injEq] at this
          simp [this, h3]

/-- C06: a certConf is accepted only if its transaction has a stored exchange that is not yet confirmed and the
nonces bind the message to that exchange. -/
theorem C06_bound [DecidableEq C] [DecidableEq D] (H : C → D) (cfg : ConfCfg) (env : ConfEnv C) (s : Sys C D R)
    (m : Msg C) (now : Int) (r : Option C) (h : (s.processCertConf H cfg env m now).1 = .ok r) :
    ∃ tx req resp, m.txId = some tx ∧ tx ∉ s.conf.confirmed ∧ s.conf.requests.get tx = some req ∧
      s.conf.responses.get tx = some resp ∧ Bound cfg req resp m ∧ env.hdr m resp = .ok () := by
  obtain ⟨tx, req, resp, issued, _, _, _, h1, h2, _⟩ := processCertConf_ok h
  obtain ⟨tx', k1, k2, k3, k4, _, _, k7, _, k9, _⟩ := confChecks_ok h2
  rw [h1] at k1; injection k1 with k1; subst k1
  exact ⟨tx, req, resp, h1, k2, k3, k4, (validateNonces_iff s.conf m cfg tx req resp h1 k3 k4).mp k7, k9⟩

/-- C06 (nonce check alone): `validate_nonces` accepts exactly the bound messages. -/
theorem C06_nonces_iff (s : ConfState C) (m : Msg C) (cfg : ConfCfg) (tx : Bytes) (req resp : Msg C)
    (htx : m.txId = some tx) (hreq : s.requests.get tx = some req) (hresp : s.responses.get tx = some resp) :
    s.validateNonces m cfg.mustBeFresh = .ok () ↔ Bound cfg req resp m :=
  validateNonces_iff s m cfg tx req resp htx hreq hresp

/-! ## C93, C86: what the client must prove -/

/-- Spec: the certConf entry was accepted with a correct certificate hash. -/
def ProvesPossession (env : ConfEnv C) (m : Msg C) (c : C) (e : CertStatus) : Prop :=
  ∃ a, (e.hashAlg = some a ∨ (e.hashAlg = none ∧ env.algOf c = some a)) ∧ e.certHash = some (env.hash a c) ∧
    (e.hashAlg ≠ none → m.pvno = 3)

/-- The message reports a rejection. -/
def Rejects (e : CertStatus) : Prop := ∃ f, e.status = some (.rejection, f)

theorem buildPkiConf_single (env : ConfEnv C) (m : Msg C) (issued : List C) (h : buildPkiConf env m issued = .ok ()) :
    m.body = "certConf" ∧ ∃ e c, m.certConf = [e] ∧ issued = [c] ∧ e.certReqId = 0 ∧ (∃ x, e.certHash = some x) ∧
      (Rejects e ∨ (ProvesPossession env m c e ∧ (e.status = none ∨ e.status = some (.accepted, false)))) := by
  unfold buildPkiConf at h
  split at h
  · simp at h
  · rename_i hb
    split at h
    · simp at h
    · rename_i h1
      split at h
      · simp at h
      · rename_i h2
        refine ⟨by simpa using hb, ?_⟩
        simp only [ne_eq, Decidable.not_not] at h1 h2
        obtain ⟨e, he⟩ := List.length_eq_one_iff.mp h1
        obtain ⟨c, hc⟩ := List.length_eq_one_iff.mp (h2 ▸ h1)
        rw [he, hc] at h
        refine ⟨e, c, he, hc, ?_⟩
        simp only [pkiConfLoop] at h
        split at h
        · simp at h
        · rename_i hid
          cases hh : e.certHash with
          | none => simp [hh] at h
          | some x =>
            simp only [hh] at h
            cases hv : validateCertStatus e.status with
            | error y => simp [hv] at h
            | ok u =>
              simp only [hv] at h
              refine ⟨by simpa using hid, ⟨x, rfl⟩, ?_⟩
              split at h
              · rename_i hr; exact .inl ⟨_, hr⟩
              · rename_i hr
                simp only [Bool.false_eq_true, if_false] at h
                right
                have hst : e.status = none ∨ e.status = some (.accepted, false) := by
                  cases hs : e.status with
                  | none => exact .inl rfl
                  | some p =>
                    obtain ⟨v, f⟩ := p
                    rw [hs] at hv hr
                    cases v <;> cases f <;> simp_all [validateCertStatus]
                refine ⟨?_, hst⟩
                cases ha : certHashAlg env e m.pvno c with
                | error y => simp [ha] at h
                | ok a =>
                  simp only [ha] at h
                  split at h
                  · simp at h
                  · rename_i hx
                    simp only [ne_eq, Decidable.not_not] at hx
                    refine ⟨a, ?_, by rw [hh, hx], ?_⟩
                    · unfold certHashAlg at ha
                      cases hha : e.hashAlg with
                      | some b => simp only [hha] at ha; split at ha <;> simp_all
                      | none =>
                        simp only [hha] at ha
                        cases hal : env.algOf c <;> simp_all
                    · intro hne
                      unfold certHashAlg at ha
                      cases hha : e.hashAlg with
                      | some b => simp only [hha] at ha; split at ha <;> simp_all
                      | none => exact absurd hha hne

/-- The confirmation loop leaves every listed certificate CONFIRMED (when the entries found by digest are the
ones confirmed, i.e. the digests are pairwise distinct; a list of one certificate satisfies this). -/
theorem confirmAll_single [DecidableEq D] (H : C → D) (env : ConfEnv C) (req : Msg C) (now : Int) (c : C)
    (db db' : DB C D R) (h : confirmAll H env req now [c] db = (.ok (), db')) :
    db' = (db.changeCertState H c .confirmed none none now).2 ∧
    (db.changeCertState H c .confirmed none none now).1 = .ok () := by
  simp only [confirmAll] at h
  cases hch : db.changeCertState H c .confirmed none none now with
  | mk r d =>
    simp only [hch] at h
    cases r with
    | error e => simp at h
    | ok u =>
      simp only at h
      cases hs : env.stfl c req with
      | error e => simp [hs] at h
      | ok u => simp [hs] at h; exact ⟨h.symm, rfl⟩

/-- C93 (true part): when the certConf does not report a rejection, success means that exactly one certificate was
pending and the message carries its hash. -/
theorem C93_hash_bound_partial [DecidableEq C] [DecidableEq D] (H : C → D) (cfg : ConfCfg) (env : ConfEnv C)
    (s : Sys C D R) (m : Msg C) (now : Int) (r : Option C) (h : (s.processCertConf H cfg env m now).1 = .ok r)
    (hr : ∀ e ∈ m.certConf, ¬ Rejects e) :
    ∃ tx c e, m.txId = some tx ∧ s.conf.toBeConf.get tx = some [c] ∧ m.certConf = [e] ∧ ProvesPossession env m c e := by
  obtain ⟨tx, req, resp, issued, _, _, _, h1, h2, _⟩ := processCertConf_ok h
  obtain ⟨tx', k1, _, _, _, k5, _, _, _, _, k10⟩ := confChecks_ok h2
  rw [h1] at k1; injection k1 with k1; subst k1
  obtain ⟨_, e, c, he, hc, _, _, hp⟩ := buildPkiConf_single env m issued k10
  refine ⟨tx, c, e, h1, by rw [k5, hc], he, ?_⟩
  rcases hp with hp | hp
  · exact absurd hp (hr e (by simp [he]))
  · exact hp.1

/-- A concrete exchange used in the refutations: certificate 5, digest function `id`, hash function constant. -/
def demoReq : Msg Nat := { body := "ir", txId := some [1], senderNonce := some (List.replicate 16 1), prot := some .mac }
def demoResp : Msg Nat :=
  { body := "ip", txId := some [1], senderNonce := some (List.replicate 16 2), recipNonce := some (List.replicate 16 1),
    prot := some .mac }
def demoEnv : ConfEnv Nat :=
  { hash := fun _ c => [UInt8.ofNat c], algOf := fun _ => some "sha256", hdr := fun _ _ => .ok (), stfl := fun _ _ => .ok () }
def demoConf (e : CertStatus) : Msg Nat :=
  { body := "certConf", txId := some [1], senderNonce := some (List.replicate 16 3),
    recipNonce := some (List.replicate 16 2), prot := some .mac, certConf := [e] }
def demoSys : Sys Nat Nat Nat := (({} : Sys Nat Nat Nat).afterRequest id demoReq demoResp [5] false false (.ok ()) 0).2

/-- C86 refuted: a certConf with status `rejection` confirms the certificate. -/
theorem C86_rejection_confirms_refuted :
    demoSys.db.getCertState id 5 = .notConfirmed ∧
    ((demoSys.processCertConf id {} demoEnv (demoConf { certHash := some [5], status := some (.rejection, true) }) 0).2.db).getCertState id 5
      = .confirmed := by decide

/-- C93 refuted: with status `rejection` the hash is not looked at, so any hash confirms. -/
theorem C93_any_hash_refuted (h : Bytes) (f : Bool) :
    ((demoSys.processCertConf id {} demoEnv (demoConf { certHash := some h, status := some (.rejection, f) }) 0).1 = .ok none) := rfl

/-- A NOT_CONFIRMED certificate can be confirmed. -/
theorem confirm_ok_of_notConfirmed [DecidableEq D] (H : C → D) (db : DB C D R) (c : C) (now : Int)
    (h : db.getCertState H c = .notConfirmed) :
    ∃ db', db.changeCertState H c .confirmed none none now = (.ok (), db') := by
  rcases changeCertState_cases H db c .confirmed none none now with
    ⟨hn, _⟩ | ⟨_, ⟨hf, _⟩ | ⟨pre, e, post, _, _, _, hf, hres⟩⟩
  · simp at hn
  · simp [DB.getCertState, hf] at h
  · simp only [DB.getCertState, hf] at h
    have hok : (changeEntry H e .confirmed none none now).1 = .ok () := by simp [changeEntry, h]
    rw [hok] at hres
    exact ⟨_, hres⟩

/-- C86 (general form of the failure): whenever a certConf succeeds, rejection or not, the pending certificate
is CONFIRMED afterwards. -/
theorem C86_always_confirmed [DecidableEq C] [DecidableEq D] (H : C → D) (cfg : ConfCfg) (env : ConfEnv C)
    (s : Sys C D R) (m : Msg C) (now : Int) (r : Option C) (h : (s.processCertConf H cfg env m now).1 = .ok r) :
    ∃ tx c, m.txId = some tx ∧ s.conf.toBeConf.get tx = some [c] ∧
      (s.processCertConf H cfg env m now).2.db.getCertState H c = .confirmed := by
  obtain ⟨tx, req, resp, issued, db, db', cf, h1, h2, _, h4, _, h6⟩ := processCertConf_ok h
  obtain ⟨tx', k1, _, _, _, k5, _, _, _, _, k10⟩ := confChecks_ok h2
  rw [h1] at k1; injection k1 with k1; subst k1
  obtain ⟨_, e, c, he, hc, _⟩ := buildPkiConf_single env m issued k10
  subst hc
  refine ⟨tx, c, h1, k5, ?_⟩
  obtain ⟨hd, hok⟩ := confirmAll_single H env req now c db db' h4
  rw [h6]
  simp only [hd]
  rcases changeCertState_cases H db c .confirmed none none now with
    ⟨hn, _⟩ | ⟨_, ⟨_, hx⟩ | ⟨pre, e, post, _, hp, hd', _, hres⟩⟩
  · simp at hn
  · rw [hx] at hok; simp at hok
  · rw [hres] at hok ⊢
    simp only [DB.getCertState]
    rw [findDigest_append hp (by rw [(changeEntry_frame e _ _ _ _).2.1]; exact hd')]
    exact changeEntry_ok_state hok

/-! ## C94: same authority -/

/-- Protection types whose signer certificate is compared. -/
def SignerCompared (p : ProtType) : Prop := p = .tradSig ∨ p = .pqSig ∨ p = .compositeSig ∨ p = .dh

/-- C94 (true part): an accepted certConf has the protection type of the request; for traditional, post-quantum and
composite signatures and DH the first extra certificate is the one of the request; a MAC uses the same algorithm
when that is enforced. -/
theorem C94_same_authority_partial [DecidableEq C] [DecidableEq D] (H : C → D) (cfg : ConfCfg) (env : ConfEnv C)
    (s : Sys C D R) (m : Msg C) (now : Int) (r : Option C) (h : (s.processCertConf H cfg env m now).1 = .ok r) :
    ∃ tx req, m.txId = some tx ∧ s.conf.requests.get tx = some req ∧ req.prot = m.prot ∧
      (req.prot = none → cfg.mustBeProtected = false) ∧
      (∀ p, m.prot = some p → SignerCompared p → req.extraCerts.head? = m.extraCerts.head?) ∧
      (m.prot = some .mac → cfg.enforceSameAlg = true → m.protAlg = req.protAlg) := by
  obtain ⟨tx, req, resp, issued, _, _, _, h1, h2, _⟩ := processCertConf_ok h
  obtain ⟨tx', k1, _, k3, _, _, _, _, k8, _⟩ := confChecks_ok h2
  rw [h1] at k1; injection k1 with k1; subst k1
  refine ⟨tx, req, h1, k3, ?_⟩
  unfold verifyProt at k8
  split at k8
  · rename_i hu
    refine ⟨by rw [hu.2.1, hu.2.2], fun _ => hu.1, ?_, ?_⟩
    · intro p hp; rw [hu.2.2] at hp; simp at hp
    · intro hp; rw [hu.2.2] at hp; simp at hp
  · cases hp : req.prot with
    | none => simp [hp] at k8
    | some p =>
      cases hp' : m.prot with
      | none => simp [hp, hp'] at k8
      | some p' =>
        simp only [hp, hp'] at k8
        split at k8
        · simp at k8
        · rename_i hpp
          simp only [ne_eq, Decidable.not_not] at hpp
          subst hpp
          split at k8
          · simp at k8
          · rename_i hsig
            refine ⟨rfl, by simp, ?_, ?_⟩
            · intro q hq hc
              injection hq with hq; subst hq
              rw [if_pos (show _ ∨ _ from hc)] at hsig
              unfold confirmSigner at hsig
              cases ha : req.extraCerts.head? <;> cases hb : m.extraCerts.head? <;> simp only [ha, hb] at hsig
              · rfl
              · simp at hsig
              · simp at hsig
              · split at hsig
                · simp at hsig
                · rename_i hne; simp only [ne_eq, Decidable.not_not] at hne; rw [hne]
            · intro hm he
              injection hm with hm
              by_cases halg : m.protAlg = req.protAlg
              · exact halg
              · simp [hm, he, halg] at k8

/-- Requests and certConfs protected with a stateful hash-based signature of certificate `c`. -/
def stflMsg (m : Msg Nat) (c : Nat) : Msg Nat := { m with prot := some .pqStateful, extraCerts := [c] }

/-- C94 refuted: for stateful hash-based signatures another signer (9 instead of 8) can confirm. -/
theorem C94_stateful_other_signer_refuted :
    let s := (({} : Sys Nat Nat Nat).afterRequest id (stflMsg demoReq 8) demoResp [5] false false (.ok ()) 0).2
    (s.processCertConf id {} demoEnv (stflMsg (demoConf { certHash := some [5] }) 9) 0).1 = .ok none := by decide

/-- With a traditional signature the other signer is refused. -/
example :
    let s := (({} : Sys Nat Nat Nat).afterRequest id { demoReq with prot := some .tradSig, extraCerts := [8] } demoResp [5]
      false false (.ok ()) 0).2
    (s.processCertConf id {} demoEnv { demoConf { certHash := some [5] } with prot := some .tradSig, extraCerts := [9] } 0).1
      = .error .wrongAuthority := by decide

/-! ## C95: an issued certificate stays confirmable -/

/-- The pending exchange `(req, resp, c)` of transaction `tx` is intact: stored, its certificate NOT_CONFIRMED, its
transactionID taken, and no other pending exchange refers to the certificate's digest. -/
structure Pending [DecidableEq D] (H : C → D) (tx : Bytes) (req resp : Msg C) (c : C) (s : Sys C D R) : Prop where
  request : s.conf.requests.get tx = some req
  response : s.conf.responses.get tx = some resp
  toBe : s.conf.toBeConf.get tx = some [c]
  open_ : tx ∉ s.conf.confirmed
  used : tx ∈ s.tx.used
  state : s.db.getCertState H c = .notConfirmed
  others : ∀ tx' cs, tx' ≠ tx → s.conf.toBeConf.get tx' = some cs → ∀ x ∈ cs, H x ≠ H c
  signers : ∀ tx' rq x, s.conf.requests.get tx' = some rq → rq.extraCerts.head? = some x → H x ≠ H c

/-- Traffic that does not concern the certificate `c`: requests with any transactionID (also `tx`) that are not
signed by `c` and whose certificates have other digests, certConfs of any transaction, database calls for other
certificates. (Responses carry the transactionID of their request, as the CA builds them.) -/
def Unrelated (H : C → D) (c : C) : SysOp C R → Prop
  | .issue rq rs cs _ _ _ _ => rs.txId = rq.txId ∧ (∀ x ∈ cs, H x ≠ H c) ∧ (∀ x, rq.extraCerts.head? = some x → H x ≠ H c)
  | .conf _ _ => True
  | .db (.add x _ _) => H x ≠ H c
  | .db (.change x _ _ _ _) => H x ≠ H c
  | _ => False

theorem getCertState_change_ne [DecidableEq D] (H : C → D) (db : DB C D R) (x c : C) (ns rev upd now) (h : H x ≠ H c) :
    (db.changeCertState H x ns rev upd now).2.getCertState H c = db.getCertState H c := by
  rcases changeCertState_cases H db x ns rev upd now with
    ⟨_, hy⟩ | ⟨_, ⟨_, hy⟩ | ⟨pre, e, post, hs, hp, hd', _, hres⟩⟩
  · rw [hy]
  · rw [hy]
  · rw [hres]
    have hfr := (changeEntry_frame (H := H) e ns rev upd now).2.1
    generalize (changeEntry H e ns rev upd now).2 = e' at hfr
    have : ∀ pre : List (Entry C D R), findDigest (H c) (pre ++ e' :: post) = findDigest (H c) (pre ++ e :: post) := by
      intro pre
      induction pre with
      | nil =>
        simp only [List.nil_append, findDigest, hfr, ← hd']
        rw [if_neg (fun hh => h hh.symm), if_neg (fun hh => h hh.symm)]
      | cons a as ih => simp only [List.cons_append, findDigest, ih]
    simp only [DB.getCertState, hs, this]

theorem getCertState_add_ne [DecidableEq D] (H : C → D) (db : DB C D R) (x c : C) (st now) (h : H x ≠ H c) :
    (db.addCert H x st now).2.getCertState H c = db.getCertState H c := by
  unfold DB.addCert
  split
  · simp only [DB.getCertState]
    have : ∀ (l : List (Entry C D R)) (e : Entry C D R), e.digest = H x → findDigest (H c) (l ++ [e]) = findDigest (H c) l := by
      intro l e he
      induction l with
      | nil => simp [findDigest, he, Ne.symm h]
      | cons a as ih => simp only [List.cons_append, findDigest, ih]
    rw [this _ _ rfl]
  · rfl

theorem getCertState_addCerts_ne [DecidableEq D] (H : C → D) (cs : List C) (c : C) (cf now) (db : DB C D R)
    (h : ∀ x ∈ cs, H x ≠ H c) : (addCerts H cf now cs db).getCertState H c = db.getCertState H c := by
  induction cs generalizing db with
  | nil => rfl
  | cons x xs ih =>
    simp only [addCerts]
    rw [ih _ (fun y hy => h y (by simp [hy])), getCertState_add_ne _ _ _ _ _ _ (h x (by simp))]

theorem confirmAll_ne [DecidableEq D] (H : C → D) (env : ConfEnv C) (req : Msg C) (now : Int) (cs : List C) (c : C)
    (db : DB C D R) (h : ∀ x ∈ cs, H x ≠ H c) :
    (confirmAll H env req now cs db).2.getCertState H c = db.getCertState H c := by
  induction cs generalizing db with
  | nil => rfl
  | cons x xs ih =>
    have hx := getCertState_change_ne H db x c .confirmed none none now (h x (by simp))
    simp only [confirmAll]
    cases hch : db.changeCertState H x .confirmed none none now with
    | mk r d =>
      rw [hch] at hx
      cases r with
      | error e => exact hx
      | ok u =>
        simp only
        cases env.stfl x req with
        | error e => exact hx
        | ok u => simp only; rw [ih d (fun y hy => h y (by simp [hy]))]; exact hx

theorem removeRequest_get (s : ConfState C) (m : Msg C) (tx' : Bytes) (h : m.txId = some tx') (tx : Bytes) (hne : tx ≠ tx') :
    (s.removeRequest m).2.requests.get tx = s.requests.get tx ∧ (s.removeRequest m).2.responses.get tx = s.responses.get tx ∧
    (s.removeRequest m).2.toBeConf.get tx = s.toBeConf.get tx ∧
    (tx ∈ (s.removeRequest m).2.confirmed ↔ tx ∈ s.confirmed) := by
  unfold ConfState.removeRequest
  rw [h]; simp only
  split <;> simp [Dict.get_erase, hne]

theorem removeRequest_sub (s : ConfState C) (m : Msg C) (tx : Bytes) :
    (∀ v, (s.removeRequest m).2.requests.get tx = some v → s.requests.get tx = some v) ∧
    (∀ v, (s.removeRequest m).2.toBeConf.get tx = some v → s.toBeConf.get tx = some v) := by
  unfold ConfState.removeRequest
  cases m.txId with
  | none => exact ⟨fun v h => h, fun v h => h⟩
  | some tx' =>
    simp only
    split
    · simp only [Dict.get_erase]
      refine ⟨fun v h => ?_, fun v h => h⟩
      split at h <;> simp_all
    · simp only [Dict.get_erase]
      refine ⟨fun v h => ?_, fun v h => ?_⟩ <;> (split at h <;> simp_all)

/-- A certConf of another transaction leaves the pending exchange intact. -/
theorem conf_other_pending [DecidableEq C] [DecidableEq D] (H : C → D) (cfg : ConfCfg) (env : ConfEnv C) (s : Sys C D R)
    (tx : Bytes) (req resp : Msg C) (c : C) (hp : Pending H tx req resp c s) (m : Msg C) (now : Int)
    (hm : m.txId ≠ some tx) : Pending H tx req resp c (s.processCertConf H cfg env m now).2 := by
  unfold Sys.processCertConf
  cases hc : confChecks cfg env s.conf m with
  | error e => exact hp
  | ok v =>
    obtain ⟨rq, rs, issued⟩ := v
    obtain ⟨tx', k1, _, k3, _, k5, _⟩ := confChecks_ok hc
    have hne : tx ≠ tx' := fun h => hm (by rw [k1, h])
    have hiss : ∀ x ∈ issued, H x ≠ H c := hp.others tx' issued (fun h => hne h.symm) k5
    have hrm := removeRequest_get s.conf m tx' k1 tx hne
    have hsub := removeRequest_sub s.conf m
    simp only
    generalize hu : (if rs.body = "kup" then
        match rq.extraCerts.head? with
        | none => ((.error .pyasn1Error, s.db) : Res (DB C D R) Unit)
        | some old => s.db.changeCertState H old .updated none none now
      else (.ok (), s.db)) = upd
    have hdb : upd.2.getCertState H c = s.db.getCertState H c := by
      rw [← hu]
      split
      · cases hx : rq.extraCerts.head? with
        | none => rfl
        | some old => exact getCertState_change_ne H _ _ _ _ _ _ _ (hp.signers tx' rq old k3 hx)
      · rfl
    obtain ⟨ur, udb⟩ := upd
    cases ur with
    | error e => exact { hp with state := by rw [← hp.state]; exact hdb }
    | ok u =>
      simp only
      have hca := confirmAll_ne H env rq now issued c udb hiss
      cases hcc : confirmAll H env rq now issued udb with
      | mk cr cdb =>
        rw [hcc] at hca
        have hst : cdb.getCertState H c = .notConfirmed := by rw [← hp.state, ← hdb]; exact hca
        cases cr with
        | error e => exact { hp with state := hst }
        | ok u =>
          simp only
          cases hr : s.conf.removeRequest m with
          | mk rr cf =>
            rw [hr] at hrm hsub
            have base : Pending H tx req resp c { s with db := cdb, conf := cf } :=
              { request := by simp only [hrm.1]; exact hp.request
                response := by simp only [hrm.2.1]; exact hp.response
                toBe := by simp only [hrm.2.2.1]; exact hp.toBe
                open_ := by simp only [hrm.2.2.2]; exact hp.open_
                used := hp.used
                state := hst
                others := fun t cs h1 h2 => hp.others t cs h1 ((hsub t).2 _ h2)
                signers := fun t q x h1 h2 => hp.signers t q x ((hsub t).1 _ h1) h2 }
            cases rr <;> exact base

/-- Any issued response for unrelated certificates leaves the pending exchange intact - a request reusing the
transactionID is refused before it can touch it. -/
theorem issue_pending [DecidableEq D] (H : C → D) (s : Sys C D R) (tx : Bytes) (req resp : Msg C) (c : C)
    (hp : Pending H tx req resp c s) (rq rs : Msg C) (cs : List C) (rej cf : Bool) (st : Except PyErr Unit) (now : Int)
    (hrs : rs.txId = rq.txId) (hcs : ∀ x ∈ cs, H x ≠ H c) (hsig : ∀ x, rq.extraCerts.head? = some x → H x ≠ H c) :
    Pending H tx req resp c (s.afterRequest H rq rs cs rej cf st now).2 := by
  unfold Sys.afterRequest
  split
  · exact hp
  · split
    · exact hp
    · cases htx : rq.txId with
      | none => exact hp
      | some tx' =>
        simp only
        by_cases hin : tx' ∈ s.tx.used
        · simp only [TxState.store, if_pos hin]; exact hp
        · have hne : tx' ≠ tx := fun h => hin (h ▸ hp.used)
          simp only [TxState.store, if_neg hin]
          generalize hu : (if rs.body = "kup" then
            match rq.extraCerts.head? with
            | none => ((.error .pyasn1Error, s.db) : Res (DB C D R) Unit)
            | some old =>
              match cs.head? with
              | none => (.error .indexError, s.db)
              | some new => s.db.changeCertState H old (if cf = true then .updated else .updatedNotConfirmed) none (some new) now
            else (.ok (), s.db)) = upd
          have hdb : upd.2.getCertState H c = s.db.getCertState H c := by
            rw [← hu]
            split
            · cases hx : rq.extraCerts.head? with
              | none => rfl
              | some old =>
                simp only
                cases cs.head? with
                | none => rfl
                | some new => exact getCertState_change_ne H _ _ _ _ _ _ _ (hsig old hx)
            · rfl
          obtain ⟨ur, udb⟩ := upd
          cases ur with
          | error e => exact { hp with state := by rw [← hp.state]; exact hdb, used := by simp [hp.used] }
          | ok u =>
            have hst : (addCerts H cf now cs udb).getCertState H c = .notConfirmed := by
              rw [getCertState_addCerts_ne H cs c cf now udb hcs, ← hp.state]; exact hdb
            simp only
            cases cf with
            | true =>
              simp only [if_true, ConfState.addConfirmed, htx]
              exact { hp with
                state := hst, used := by simp [hp.used]
                open_ := by simp only [List.mem_append, List.mem_singleton, not_or]; exact ⟨hp.open_, fun h => hne h.symm⟩ }
            | false =>
              rw [if_neg (by simp)]
              simp only [ConfState.addRequest, htx, ConfState.addResponse, hrs]
              refine { request := ?_, response := ?_, toBe := ?_, open_ := hp.open_, used := by simp [hp.used], state := hst, others := ?_, signers := ?_ }
              · simp only [Dict.get_set, if_neg (fun h : tx = tx' => hne h.symm)]; exact hp.request
              · simp only [Dict.get_set, if_neg (fun h : tx = tx' => hne h.symm)]; exact hp.response
              · simp only [Dict.get_set, if_neg (fun h : tx = tx' => hne h.symm)]; exact hp.toBe
              · intro t l h1 h2
                simp only [Dict.get_set] at h2
                split at h2
                · injection h2 with h2; subst h2; exact hcs
                · exact hp.others t l h1 h2
              · intro t q x h1 h2
                simp only [Dict.get_set] at h1
                split at h1
                · injection h1 with h1; subst h1; exact hsig x h2
                · exact hp.signers t q x h1 h2

/-- The pending exchange, or its confirmation. -/
def PendingOrDone [DecidableEq D] (H : C → D) (tx : Bytes) (req resp : Msg C) (c : C) (s : Sys C D R) : Prop :=
  Pending H tx req resp c s ∨ tx ∈ s.conf.confirmed

theorem conf_same_pending [DecidableEq C] [DecidableEq D] (H : C → D) (cfg : ConfCfg) (env : ConfEnv C) (s : Sys C D R)
    (tx : Bytes) (req resp : Msg C) (c : C) (hp : Pending H tx req resp c s) (m : Msg C) (now : Int)
    (hm : m.txId = some tx) (hk : resp.body ≠ "kup") (hst : env.stfl c req = .ok ()) :
    PendingOrDone H tx req resp c (s.processCertConf H cfg env m now).2 := by
  cases hr : (s.processCertConf H cfg env m now).1 with
  | ok r => exact .inr (conf_ok_recorded hm hr)
  | error e =>
    left
    unfold Sys.processCertConf at hr ⊢
    cases hc : confChecks cfg env s.conf m with
    | error e => exact hp
    | ok v =>
      obtain ⟨rq, rs, issued⟩ := v
      obtain ⟨tx', k1, _, k3, k4, k5, _⟩ := confChecks_ok hc
      rw [hm] at k1; injection k1 with k1; subst k1
      rw [hp.request] at k3; injection k3 with k3; subst k3
      rw [hp.response] at k4; injection k4 with k4; subst k4
      rw [hp.toBe] at k5; injection k5 with k5; subst k5
      exfalso
      simp only [hc, if_neg hk] at hr
      have hcc := confirm_ok_of_notConfirmed H s.db c now hp.state
      obtain ⟨db', hcc⟩ := hcc
      simp only [confirmAll, hcc, hst] at hr
      simp only [ConfState.removeRequest, hm, hp.toBe] at hr
      simp at hr

/-- C95: after a certificate was issued, no amount of unrelated traffic - including requests reusing the
transactionID and certConfs of any kind, well-formed or not - can prevent its confirmation: the exchange stays
pending until a certConf for it is accepted. -/
theorem C95_stays_pending [DecidableEq C] [DecidableEq D] (H : C → D) (cfg : ConfCfg) (env : ConfEnv C) (tx : Bytes)
    (req resp : Msg C) (c : C) (hk : resp.body ≠ "kup") (hst : env.stfl c req = .ok ()) (ops : List (SysOp C R))
    (s : Sys C D R) (hp : PendingOrDone H tx req resp c s) (hops : ∀ op ∈ ops, Unrelated H c op) :
    PendingOrDone H tx req resp c (s.run H cfg env ops).2 := by
  induction ops generalizing s with
  | nil => exact hp
  | cons op ops ih =>
    refine ih _ ?_ (fun o ho => hops o (by simp [ho]))
    rcases hp with hp | hp
    · have hu := hops op (by simp)
      cases op with
      | issue rq rs cs rej cf st now =>
        exact .inl (issue_pending H s tx req resp c hp rq rs cs rej cf st now hu.1 hu.2.1 hu.2.2)
      | conf m now =>
        by_cases hm : m.txId = some tx
        · exact conf_same_pending H cfg env s tx req resp c hp m now hm hk hst
        · exact .inl (conf_other_pending H cfg env s tx req resp c hp m now hm)
      | db o =>
        left
        cases o with
        | add x st now => exact { hp with state := by rw [← hp.state]; exact getCertState_add_ne H _ _ _ _ _ hu }
        | change x ns rev upd now =>
          exact { hp with state := by rw [← hp.state]; exact getCertState_change_ne H _ _ _ _ _ _ _ hu }
      | rawRequest m => exact absurd hu (by simp [Unrelated])
      | rawResponse m cs => exact absurd hu (by simp [Unrelated])
      | rawConfirmed m => exact absurd hu (by simp [Unrelated])
    · exact .inr (sysStep_grows H cfg env s op tx hp)

/-- An honest confirmation of the exchange. -/
structure Honest [DecidableEq C] (cfg : ConfCfg) (env : ConfEnv C) (tx : Bytes) (req resp : Msg C) (c : C) (m : Msg C) : Prop where
  txid : m.txId = some tx
  bound : Bound cfg req resp m
  prot : verifyProt cfg req m = .ok ()
  hdr : env.hdr m resp = .ok ()
  body : m.body = "certConf"
  entry : ∃ e, m.certConf = [e] ∧ e.certReqId = 0 ∧ e.status = none ∧ ∃ a, env.algOf c = some a ∧ e.hashAlg = none ∧
    e.certHash = some (env.hash a c)

/-- C95: on a pending exchange the honest certConf is accepted and the certificate becomes CONFIRMED. -/
theorem C95_honest_accepted [DecidableEq C] [DecidableEq D] (H : C → D) (cfg : ConfCfg) (env : ConfEnv C) (tx : Bytes)
    (req resp : Msg C) (c : C) (s : Sys C D R) (hp : Pending H tx req resp c s) (hk : resp.body ≠ "kup")
    (hst : env.stfl c req = .ok ()) (m : Msg C) (hm : Honest cfg env tx req resp c m) (now : Int) :
    (∃ r, (s.processCertConf H cfg env m now).1 = .ok r) ∧
    (s.processCertConf H cfg env m now).2.db.getCertState H c = .confirmed := by
  have hchecks : confChecks cfg env s.conf m = .ok (req, resp, [c]) := by
    obtain ⟨e, he, h0, hs, a, ha, hal, hh⟩ := hm.entry
    have hb : buildPkiConf env m [c] = .ok () := by
      simp [buildPkiConf, hm.body, he, pkiConfLoop, h0, hh, hs, validateCertStatus, certHashAlg, hal, ha]
    have hn := (validateNonces_iff s.conf m cfg tx req resp hm.txid hp.request hp.response).mpr hm.bound
    simp [confChecks, ConfState.isConfirmed, ConfState.validateTxId, hm.txid, hp.open_, Dict.mem, hp.request, hn, hm.prot,
      hp.response, hm.hdr, hp.toBe, hb]
  have hok : ∃ r, (s.processCertConf H cfg env m now).1 = .ok r := by
    rcases conf_same_pending H cfg env s tx req resp c hp m now hm.txid hk hst with h | h
    · cases hr : (s.processCertConf H cfg env m now).1 with
      | ok r => exact ⟨r, rfl⟩
      | error e =>
        exfalso
        -- a failing call after the checks is impossible: it would contradict `conf_same_pending`'s computation
        unfold Sys.processCertConf at hr
        simp only [hchecks, if_neg hk] at hr
        have hs := hp.state
        have hcc := confirm_ok_of_notConfirmed H s.db c now hp.state
        obtain ⟨db', hcc⟩ := hcc
        simp only [confirmAll, hcc, hst, ConfState.removeRequest, hm.txid, hp.toBe] at hr
        simp at hr
    · cases hr : (s.processCertConf H cfg env m now).1 with
      | ok r => exact ⟨r, rfl⟩
      | error e =>
        exfalso
        unfold Sys.processCertConf at h hr
        simp only [hchecks, if_neg hk] at h hr
        have hs := hp.state
        have hcc := confirm_ok_of_notConfirmed H s.db c now hp.state
        obtain ⟨db', hcc⟩ := hcc
        simp only [confirmAll, hcc, hst, ConfState.removeRequest, hm.txid, hp.toBe] at hr
        simp at hr
  refine ⟨hok, ?_⟩
  obtain ⟨r, hr⟩ := hok
  obtain ⟨tx', c', h1, h2, h3⟩ := C86_always_confirmed H cfg env s m now r hr
  rw [hm.txid] at h1; injection h1 with h1; subst h1
  rw [hp.toBe] at h2; injection h2 with h2; injection h2 with h2; subst h2
  exact h3

/-- A freshly issued, not implicitly confirmed certificate with a new digest is pending. -/
theorem C95_issue_pending [DecidableEq D] (H : C → D) (s : Sys C D R) (tx : Bytes) (req resp : Msg C) (c : C) (now : Int)
    (st : Except PyErr Unit) (hb : resp.body = "ip" ∨ resp.body = "cp" ∨ resp.body = "ccp") (h1 : req.txId = some tx)
    (h2 : resp.txId = some tx) (hu : tx ∉ s.tx.used) (ho : tx ∉ s.conf.confirmed)
    (hfresh : ∀ e ∈ s.db.certs, e.digest ≠ H c)
    (hoth : ∀ tx' cs, s.conf.toBeConf.get tx' = some cs → ∀ x ∈ cs, H x ≠ H c)
    (hsig : ∀ tx' rq x, s.conf.requests.get tx' = some rq → rq.extraCerts.head? = some x → H x ≠ H c)
    (hown : ∀ x, req.extraCerts.head? = some x → H x ≠ H c) :
    Pending H tx req resp c (s.afterRequest H req resp [c] false false st now).2 := by
  have hbody : (resp.body = "ip" ∨ resp.body = "cp" ∨ resp.body = "ccp" ∨ resp.body = "kup") := by
    rcases hb with h | h | h <;> simp [h]
  have hnk : resp.body ≠ "kup" := by rcases hb with h | h | h <;> simp [h]
  unfold Sys.afterRequest
  simp only [if_neg (not_not_intro hbody), Bool.false_eq_true, if_false, h1, TxState.store, if_neg hu, if_neg hnk,
    ConfState.addRequest, ConfState.addResponse, h2]
  refine { request := ?_, response := ?_, toBe := ?_, open_ := ho, used := by simp, state := ?_, others := ?_, signers := ?_ }
  · simp [Dict.get_set]
  · simp [Dict.get_set]
  · simp [Dict.get_set]
  · simp only [addCerts, DB.addCert]
    rw [if_pos (.inl (by simp))]
    have hpre : ∀ y ∈ s.db.certs, y.digest ≠ H c := hfresh
    simp only [DB.getCertState]
    generalize he : ({ state := _, cert := c, digest := H c, issueDate := _ } : Entry C D R) = e
    rw [findDigest_append (pre := s.db.certs) (post := []) (by intro y hy h; exact hfresh y hy h.symm) (by rw [← he])]
    simp [← he]
  · intro tx' cs hne hg
    simp only [Dict.get_set, if_neg hne] at hg
    exact hoth tx' cs hg
  · intro tx' rq x hg hx
    simp only [Dict.get_set] at hg
    split at hg
    · injection hg with hg; subst hg; exact hown x hx
    · exact hsig tx' rq x hg hx

/-- The concrete exchange, with an attempt to reuse the transactionID and a forged certConf in between. -/
example :
    let s := (demoSys.run id {} demoEnv [.issue { demoReq with sender := [9] } demoResp [6] false false (.ok ()) 0,
      .conf (demoConf { certHash := some [77] }) 0]).2
    (s.processCertConf id {} demoEnv (demoConf { certHash := some [5] }) 0).1 = .ok none := by decide

end Verif.CA
