import Verif.CA.CertConfProps
import Verif.CA.CertDBProps

/-!
# C05, C113, C86, C95: what an issued response and its confirmation leave in the certificate database
-/

namespace Verif.CA

variable {C D R : Type}

/-! ## The database after an issued response -/

theorem findDigest_append_some [DecidableEq D] {d : D} {l l' : List (Entry C D R)} {e : Entry C D R} (h : findDigest d l = some e) :
    findDigest d (l ++ l') = some e := by
  induction l with
  | nil => cases h
  | cons x xs ih =>
    simp only [List.cons_append, findDigest] at h ⊢
    split
    · rename_i hx; rw [if_pos hx] at h; exact h
    · rename_i hx; rw [if_neg hx] at h; exact ih h

theorem findDigest_append_none [DecidableEq D] {d : D} {l l' : List (Entry C D R)} (h : findDigest d l = none) :
    findDigest d (l ++ l') = findDigest d l' := by
  induction l with
  | nil => rfl
  | cons x xs ih =>
    simp only [List.cons_append, findDigest] at h ⊢
    split
    · rename_i hx; rw [if_pos hx] at h; cases h
    · rename_i hx; rw [if_neg hx] at h; exact ih h

theorem addCerts_getCert [DecidableEq D] (H : C → D) (cf : Bool) (now : Int) (cs : List C) (c : C) (db : DB C D R) (e : Entry C D R)
    (h : db.getCert H c = some e) : (addCerts H cf now cs db).getCert H c = some e := by
  induction cs generalizing db with
  | nil => exact h
  | cons x xs ih =>
    apply ih
    unfold DB.addCert
    rw [if_pos (by cases cf <;> simp)]
    exact findDigest_append_some h

theorem addCerts_state [DecidableEq D] (H : C → D) (cf : Bool) (now : Int) (cs : List C) (c : C) (hc : c ∈ cs) (db : DB C D R)
    (h : db.getCert H c = none) : (addCerts H cf now cs db).getCertState H c = if cf then .confirmed else .notConfirmed := by
  induction cs generalizing db with
  | nil => cases hc
  | cons x xs ih =>
    simp only [addCerts]
    by_cases hx : H c = H x
    · have hg : (db.addCert H x (if cf then .confirmed else .notConfirmed) now).2.getCert H c = some
          { state := if cf then .confirmed else .notConfirmed, cert := x, digest := H x, issueDate := if db.saveDateTime then some now else none } := by
        unfold DB.addCert
        rw [if_pos (by cases cf <;> simp)]
        refine (findDigest_append_none (l := db.certs) h).trans ?_
        simp [findDigest, hx]
      have := addCerts_getCert H cf now xs c _ _ hg
      unfold DB.getCertState
      unfold DB.getCert at this
      rw [this]
    · refine ih ?_ _ ?_
      · rcases List.mem_cons.1 hc with rfl | hc
        · exact absurd rfl hx
        · exact hc
      · unfold DB.addCert
        rw [if_pos (by cases cf <;> simp)]
        refine (findDigest_append_none (l := db.certs) h).trans ?_
        simp [findDigest, hx]

/-- A successful `process_after_request` for a response that is not a rejection. -/
theorem afterRequest_ok [DecidableEq D] (H : C → D) (s : Sys C D R) (rq rs : Msg C) (cs : List C) (cf : Bool) (st : Except PyErr Unit)
    (now : Int) (hb : rs.body = "ip" ∨ rs.body = "cp" ∨ rs.body = "ccp" ∨ rs.body = "kup")
    (h : (s.afterRequest H rq rs cs false cf st now).1 = .ok ()) :
    ∃ db, (s.afterRequest H rq rs cs false cf st now).2.db = addCerts H cf now cs db ∧
      (rs.body ≠ "kup" → db = s.db) ∧
      (rs.body = "kup" → ∃ old new, rq.extraCerts.head? = some old ∧ cs.head? = some new ∧
        s.db.changeCertState H old (if cf then .updated else .updatedNotConfirmed) none (some new) now = (.ok (), db)) := by
  unfold Sys.afterRequest at h ⊢
  simp only [if_neg (not_not_intro hb), Bool.false_eq_true, if_false] at h ⊢
  cases htx : rq.txId with
  | none => simp [htx] at h
  | some tx =>
    simp only [htx] at h ⊢
    generalize s.tx.store tx rq.sender cs = stx at h ⊢
    obtain ⟨a, b⟩ := stx
    cases a with
    | error e => simp at h
    | ok u =>
      simp only at h ⊢
      generalize hu : (if rs.body = "kup" then
            match rq.extraCerts.head? with
            | none => ((.error .pyasn1Error, s.db) : Res (DB C D R) Unit)
            | some old =>
              match cs.head? with
              | none => (.error .indexError, s.db)
              | some new => s.db.changeCertState H old (if cf then .updated else .updatedNotConfirmed) none (some new) now
          else (.ok (), s.db)) = upd at h ⊢
      obtain ⟨ur, udb⟩ := upd
      cases ur with
      | error e => simp at h
      | ok u =>
        refine ⟨udb, ?_, ?_, ?_⟩
        · simp only
          cases cf
          · simp only [Bool.false_eq_true, if_false]
            split <;> rfl
          · simp only [if_true]
            split <;> rfl
        · intro hk; rw [if_neg hk] at hu; exact (Prod.mk.inj hu).2.symm
        · intro hk
          rw [if_pos hk] at hu
          split at hu
          · cases hu
          · rename_i old ho
            split at hu
            · cases hu
            · rename_i new hn
              exact ⟨old, new, ho, hn, hu⟩

theorem change_getCert_none [DecidableEq D] (H : C → D) (db : DB C D R) (x c : C) (ns rev upd now) (h : db.getCert H c = none) :
    (db.changeCertState H x ns rev upd now).2.getCert H c = none := by
  rcases changeCertState_cases H db x ns rev upd now with
    ⟨_, hy⟩ | ⟨_, ⟨_, hy⟩ | ⟨pre, e, post, hs, hp, hd', _, hres⟩⟩
  · rw [hy]; exact h
  · rw [hy]; exact h
  · rw [hres]
    unfold DB.getCert at h ⊢
    rw [findDigest_none] at h ⊢
    rw [hs] at h
    simp only
    intro y hy
    rcases List.mem_append.1 hy with hy | hy
    · exact h y (by simp [hy])
    · rcases List.mem_cons.1 hy with rfl | hy
      · rw [(changeEntry_frame (H := H) e ns rev upd now).2.1]
        exact h e (by simp)
      · exact h y (by simp [hy])

/-- C05: the certificates of an issued response (of any kind) that are new to the CA are CONFIRMED afterwards if confirmation was
implicit and NOT_CONFIRMED if it was not. -/
theorem C05_issued_state [DecidableEq D] (H : C → D) (s : Sys C D R) (rq rs : Msg C) (cs : List C) (cf : Bool) (st : Except PyErr Unit)
    (now : Int) (hb : rs.body = "ip" ∨ rs.body = "cp" ∨ rs.body = "ccp" ∨ rs.body = "kup")
    (h : (s.afterRequest H rq rs cs false cf st now).1 = .ok ()) (c : C) (hc : c ∈ cs) (hf : ∀ e ∈ s.db.certs, e.digest ≠ H c) :
    (s.afterRequest H rq rs cs false cf st now).2.db.getCertState H c = if cf then .confirmed else .notConfirmed := by
  obtain ⟨db, h1, h2, h3⟩ := afterRequest_ok H s rq rs cs cf st now hb h
  rw [h1]
  have h0 : s.db.getCert H c = none := findDigest_none.2 fun e he h => hf e he h.symm
  refine addCerts_state H cf now cs c hc db ?_
  by_cases hk : rs.body = "kup"
  · obtain ⟨old, new, _, _, e⟩ := h3 hk
    have := change_getCert_none H s.db old c (if cf then .updated else .updatedNotConfirmed) none (some new) now h0
    rw [e] at this
    exact this
  · rw [h2 hk]; exact h0

/-- C113: after a successful key update the entry of the signer's certificate is UPDATED (implicit confirmation) or
UPDATED_BUT_NOT_CONFIRMED, and is linked to the first certificate of the response. (The exception in `hp` is an implicitly confirmed
update of a certificate with a pending update, see `C113_relink_refuted`.) -/
theorem C113_kup_linked_partial [DecidableEq D] (H : C → D) (s : Sys C D R) (rq rs : Msg C) (cs : List C) (cf : Bool) (st : Except PyErr Unit)
    (now : Int) (hb : rs.body = "kup") (h : (s.afterRequest H rq rs cs false cf st now).1 = .ok ()) :
    ∃ old new e, rq.extraCerts.head? = some old ∧ cs.head? = some new ∧ s.db.getCert H old = some e ∧
      (¬ (cf = true ∧ e.state = .updatedNotConfirmed) →
        (s.afterRequest H rq rs cs false cf st now).2.db.getCert H old = some
          { e with state := if cf then .updated else .updatedNotConfirmed, updDigest := some (H new), updDate := some (now / 1000000) }) := by
  obtain ⟨db, h1, h2, h3⟩ := afterRequest_ok H s rq rs cs cf st now (by simp [hb]) h
  obtain ⟨old, new, e1, e2, e3⟩ := h3 hb
  cases hg : s.db.getCert H old with
  | none =>
    exfalso
    rcases changeCertState_cases H s.db old (if cf then .updated else .updatedNotConfirmed) none (some new) now with
      ⟨_, hy⟩ | ⟨_, ⟨_, hy⟩ | ⟨pre, e, post, hs, hp, hd', hf, hres⟩⟩
    · rw [hy] at e3; cases e3
    · rw [hy] at e3; cases e3
    · unfold DB.getCert at hg; rw [hg] at hf; cases hf
  | some e =>
    refine ⟨old, new, e, e1, e2, hg, ?_⟩
    intro hn
    have := C113_update_recorded H s.db old e (if cf then .updated else .updatedNotConfirmed) none (some new) now hg (by cases cf <;> simp)
      (by cases cf <;> simp_all)
    rw [h1]
    rw [e3] at this
    exact addCerts_getCert H cf now cs old db _ this.2

/-- C113 refuted: a second, implicitly confirmed update of a certificate whose first update was never confirmed leaves the link to the
first, abandoned certificate. (Certificate 1 is updated to 2 without confirmation, later to 3 with implicit confirmation.) -/
theorem C113_relink_refuted :
    let s : Sys Nat Nat Nat := { db := ({} : DB Nat Nat Nat).run id [.add 1 .confirmed 0] }
    let kur (tx : Bytes) : Msg Nat := { txId := some tx, sender := [1], senderNonce := none, body := "kur", extraCerts := [1] }
    let kup (tx : Bytes) : Msg Nat := { txId := some tx, sender := [9], senderNonce := none, body := "kup" }
    let r1 := s.afterRequest id (kur [1]) (kup [1]) [2] false false (.ok ()) 0
    let r2 := r1.2.afterRequest id (kur [2]) (kup [2]) [3] false true (.ok ()) 100000000
    Res.isOk r1 = true ∧ Res.isOk r2 = true ∧ (r2.2.db.getCert id 1).map (fun e => (e.state, e.updDigest)) = some (.updated, some 2) := by
  decide

/-! ## The confirmation -/

/-- C86: the result of a successful confirmation is the cross certificate for `ccp`, and nothing otherwise. -/
theorem C86_result [DecidableEq C] [DecidableEq D] (H : C → D) (cfg : ConfCfg) (env : ConfEnv C) (s : Sys C D R) (m : Msg C) (now : Int)
    (r : Option C) (h : (s.processCertConf H cfg env m now).1 = .ok r) :
    ∃ tx resp c, m.txId = some tx ∧ s.conf.responses.get tx = some resp ∧ s.conf.toBeConf.get tx = some [c] ∧
      (resp.body = "ccp" → r = some c) ∧ (resp.body ≠ "ccp" → r = none) := by
  obtain ⟨tx, req, resp, issued, db, db', cf, h1, h2, _⟩ := processCertConf_ok h
  obtain ⟨tx', k1, _, k3, k4, k5, _, _, _, _, k10⟩ := confChecks_ok h2
  rw [h1] at k1; cases k1
  obtain ⟨_, e, c, he, hc, _⟩ := buildPkiConf_single env m issued k10
  subst hc
  refine ⟨tx, resp, c, h1, k4, k5, ?_⟩
  unfold Sys.processCertConf at h
  rw [h2] at h
  simp only at h
  split at h
  · cases h
  · split at h
    · cases h
    · split at h
      · cases h
      · cases h
        constructor
        · intro hr; rw [if_pos hr]; rfl
        · intro hr; rw [if_neg hr]

/-- C95 (key update): as long as the updated certificate is still waiting, the honest certConf of a `kup` is accepted; then the new
certificate is CONFIRMED and the old one UPDATED. -/
theorem C95_honest_accepted_kup [DecidableEq C] [DecidableEq D] (H : C → D) (cfg : ConfCfg) (env : ConfEnv C) (tx : Bytes)
    (req resp : Msg C) (c old : C) (s : Sys C D R) (hp : Pending H tx req resp c s) (hk : resp.body = "kup")
    (hold : req.extraCerts.head? = some old) (e : Entry C D R) (he : s.db.getCert H old = some e) (hes : e.state = .updatedNotConfirmed)
    (hed : e.updDigest ≠ none) (hst : env.stfl c req = .ok ()) (m : Msg C) (hm : Honest cfg env tx req resp c m) (now : Int) :
    (s.processCertConf H cfg env m now).1 = .ok none ∧
    (s.processCertConf H cfg env m now).2.db.getCertState H c = .confirmed ∧
    (s.processCertConf H cfg env m now).2.db.getCert H old = some { e with state := .updated } := by
  have hchecks : confChecks cfg env s.conf m = .ok (req, resp, [c]) := by
    obtain ⟨e, he, h0, hs, a, ha, hal, hh⟩ := hm.entry
    have hb : buildPkiConf env m [c] = .ok () := by
      simp [buildPkiConf, hm.body, he, pkiConfLoop, h0, hh, hs, validateCertStatus, certHashAlg, hal, ha]
    have hn := (validateNonces_iff s.conf m cfg tx req resp hm.txid hp.request hp.response).mpr hm.bound
    simp [confChecks, ConfState.isConfirmed, ConfState.validateTxId, hm.txid, hp.open_, Dict.mem, hp.request, hn, hm.prot,
      hp.response, hm.hdr, hp.toBe, hb]
  have hne : H old ≠ H c := hp.signers tx req old hp.request hold
  obtain ⟨d, hd⟩ := Option.ne_none_iff_exists'.1 hed
  -- the old certificate
  have hupd : ∃ db, s.db.changeCertState H old .updated none none now = (.ok (), db) ∧ db.getCert H old = some { e with state := .updated } := by
    rcases changeCertState_cases H s.db old .updated none none now with
      ⟨h, _⟩ | ⟨_, ⟨h, _⟩ | ⟨pre, x, post, h1, h2, h3, h4, h⟩⟩
    · exact absurd (by simp) h
    · unfold DB.getCert at he; rw [h] at he; cases he
    · unfold DB.getCert at he
      rw [h4] at he
      cases he
      have hx : changeEntry H e .updated none none now = (.ok (), { e with state := .updated }) := by
        simp [changeEntry, processUpdate, hes, hd]
      rw [h, hx]
      exact ⟨_, rfl, findDigest_append h2 h3⟩
  obtain ⟨db, hu1, hu2⟩ := hupd
  have hcst : db.getCertState H c = .notConfirmed := by
    have := getCertState_change_ne H s.db old c .updated none none now hne
    rw [hu1] at this
    exact this.trans hp.state
  obtain ⟨db', hcc⟩ := confirm_ok_of_notConfirmed H db c now hcst
  have hobs := C03_change_observed H db c .confirmed none none now (by rw [hcc])
  have hfr := C03_frame H db c old .confirmed none none now hne
  rw [hcc] at hobs hfr
  have hfull : s.processCertConf H cfg env m now = (.ok none, { s with db := db', conf := (s.conf.removeRequest m).2 }) := by
    unfold Sys.processCertConf
    rw [hchecks]
    simp only [hk, if_true, hold, hu1, confirmAll, hcc, hst, ConfState.removeRequest, hm.txid, hp.toBe]
    simp
  rw [hfull]
  exact ⟨rfl, hobs, hfr.trans hu2⟩

/-! ## Waiting certificates -/

/-- Every key occurs once. -/
def UniqueKeys {K V : Type} (d : Dict K V) : Prop := (d.map (·.1)).Nodup

theorem unique_get {K V : Type} [DecidableEq K] {d : Dict K V} (h : UniqueKeys d) (k : K) (v : V) : (k, v) ∈ d ↔ d.get k = some v := by
  induction d with
  | nil => simp [Dict.get]
  | cons p d ih =>
    obtain ⟨a, b⟩ := p
    unfold UniqueKeys at h
    rw [List.map_cons, List.nodup_cons] at h
    have ih := ih h.2
    simp only [Dict.get, List.mem_cons, Prod.mk.injEq]
    by_cases hk : k = a
    · subst hk
      rw [if_pos rfl]
      constructor
      · rintro (⟨_, rfl⟩ | hm)
        · rfl
        · exact absurd (List.mem_map_of_mem (f := (·.1)) hm) h.1
      · intro h; cases h; exact .inl ⟨rfl, rfl⟩
    · rw [if_neg hk, ← ih]
      constructor
      · rintro (⟨h, _⟩ | h)
        · exact absurd h hk
        · exact h
      · exact .inr

theorem unique_set {K V : Type} [DecidableEq K] {d : Dict K V} (h : UniqueKeys d) (k : K) (v : V) : UniqueKeys (d.set k v) := by
  have hm : ∀ (d : Dict K V) x, x ∈ (d.set k v).map (·.1) → x = k ∨ x ∈ d.map (·.1) := by
    intro d
    induction d with
    | nil => intro x hx; simp [Dict.set] at hx; exact .inl hx
    | cons p d ih =>
      obtain ⟨a, b⟩ := p
      intro x hx
      simp only [Dict.set] at hx
      split at hx
      · rename_i hk; subst hk
        rw [List.map_cons] at hx ⊢
        exact .inr hx
      · rw [List.map_cons, List.mem_cons] at hx
        rcases hx with rfl | hx
        · exact .inr (by simp)
        · rcases ih x hx with h | h
          · exact .inl h
          · exact .inr (by rw [List.map_cons]; exact List.mem_cons_of_mem _ h)
  induction d with
  | nil => simp [UniqueKeys, Dict.set]
  | cons p d ih =>
    obtain ⟨a, b⟩ := p
    unfold UniqueKeys at h ⊢
    rw [List.map_cons, List.nodup_cons] at h
    simp only [Dict.set]
    split
    · rename_i hk; subst hk
      rw [List.map_cons, List.nodup_cons]
      exact h
    · rename_i hk
      rw [List.map_cons, List.nodup_cons]
      refine ⟨?_, ih h.2⟩
      intro hx
      rcases hm d a hx with h' | h'
      · exact hk h'.symm
      · exact h.1 h'

theorem unique_erase {K V : Type} [DecidableEq K] {d : Dict K V} (h : UniqueKeys d) (k : K) : UniqueKeys (d.erase k) :=
  List.Sublist.nodup (List.Sublist.map _ List.filter_sublist) h

theorem step_unique [DecidableEq C] [DecidableEq D] (H : C → D) (cfg : ConfCfg) (env : ConfEnv C) (s : Sys C D R) (op : SysOp C R)
    (h : UniqueKeys s.conf.toBeConf) : UniqueKeys (s.step H cfg env op).2.conf.toBeConf := by
  have hresp : ∀ (cf : ConfState C) (m : Msg C) (cs : List C), UniqueKeys cf.toBeConf → UniqueKeys (cf.addResponse m cs).2.toBeConf := by
    intro cf m cs hc
    unfold ConfState.addResponse
    split
    · exact hc
    · exact unique_set hc _ _
  have hreq : ∀ (cf : ConfState C) (m : Msg C), (cf.addRequest m).2.toBeConf = cf.toBeConf := by
    intro cf m; unfold ConfState.addRequest; split <;> rfl
  have hadd : ∀ (cf : ConfState C) (m : Msg C), (cf.addConfirmed m).2.toBeConf = cf.toBeConf := by
    intro cf m; unfold ConfState.addConfirmed; split <;> rfl
  have hrem : ∀ (cf : ConfState C) (m : Msg C), UniqueKeys cf.toBeConf → UniqueKeys (cf.removeRequest m).2.toBeConf := by
    intro cf m hc
    unfold ConfState.removeRequest
    split
    · exact hc
    · simp only
      split
      · exact hc
      · exact unique_erase hc _
  cases op with
  | issue rq rs cs rej cf st now =>
    simp only [Sys.step, Sys.afterRequest]
    split
    · exact h
    · split
      · exact h
      · split
        · exact h
        · split
          · exact h
          · split
            · exact h
            · split
              · have := hadd s.conf rq
                split
                · rename_i e; rw [e] at this; rw [this]; exact h
                · rename_i e; rw [e] at this; rw [this]; exact h
              · have := hreq s.conf rq
                split
                · rename_i e; rw [e] at this; rw [this]; exact h
                · rename_i e
                  rw [e] at this
                  exact hresp _ _ _ (by rw [this]; exact h)
  | conf m now =>
    simp only [Sys.step, Sys.processCertConf]
    split
    · exact h
    · split
      · exact h
      · split
        · exact h
        · have := hrem s.conf m h
          split
          · rename_i e; rw [e] at this; exact this
          · rename_i e; rw [e] at this; exact this
  | db o => exact h
  | rawRequest m => simp only [Sys.step]; rw [hreq]; exact h
  | rawResponse m cs => exact hresp _ _ _ h
  | rawConfirmed m => simp only [Sys.step]; rw [hadd]; exact h

theorem run_unique [DecidableEq C] [DecidableEq D] (H : C → D) (cfg : ConfCfg) (env : ConfEnv C) (ops : List (SysOp C R)) (s : Sys C D R)
    (h : UniqueKeys s.conf.toBeConf) : UniqueKeys (s.run H cfg env ops).2.conf.toBeConf := by
  induction ops generalizing s with
  | nil => exact h
  | cons op ops ih => exact ih _ (step_unique H cfg env s op h)

/-- C95: in every reachable state a certificate is reported as not confirmed iff some open transaction waits for its confirmation. -/
theorem C95_is_not_confirmed [DecidableEq C] [DecidableEq D] (H : C → D) (cfg : ConfCfg) (env : ConfEnv C) (ops : List (SysOp C R)) (c : C) :
    let s := (({} : Sys C D R).run H cfg env ops).2
    s.conf.isNotConfirmed c = true ↔ ∃ tx cs, s.conf.toBeConf.get tx = some cs ∧ c ∈ cs := by
  intro s
  have hu : UniqueKeys s.conf.toBeConf := run_unique H cfg env ops _ (by simp [UniqueKeys])
  unfold ConfState.isNotConfirmed
  simp only [List.any_eq_true, decide_eq_true_eq]
  constructor
  · rintro ⟨⟨tx, cs⟩, h1, x, h2, rfl⟩
    exact ⟨tx, cs, (unique_get hu tx cs).1 h1, h2⟩
  · rintro ⟨tx, cs, h1, h2⟩
    exact ⟨(tx, cs), (unique_get hu tx cs).2 h1, c, h2, rfl⟩

/-- A waiting certificate is reported, a confirmed one is not. -/
example :
    demoSys.conf.isNotConfirmed 5 = true ∧
    (demoSys.processCertConf id {} demoEnv (demoConf { certHash := some [5] }) 0).2.conf.isNotConfirmed 5 = false := by decide

end Verif.CA
