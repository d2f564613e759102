import Verif.Ra.GeneralProps

/-!
# The CRL update retrieval of the mock CA, what its handler remembers and the KEM ciphertext
-/

namespace Verif.Ra

open Verif.CA (PyErr)

variable {N R E C : Type} [DecidableEq N] [DecidableEq R]

/-! ## CRLs -/

/-- The general name stands for the CA: its directory name, its name as text, or, where a URL is given, that URL. -/
inductive Stands (env : GenEnv N R E C) (url : Option String) : GenName N → Prop
  | dir : Stands env url (.directory env.rootName)
  | mail : Stands env url (.mail env.rootText)
  | uri (u : String) : url = some u → Stands env url (.uri u)

/-- The general name can be compared with the CA. -/
def Comparable (url : Option String) : GenName N → Prop
  | .directory _ => True
  | .mail _ => True
  | .uri _ => url ≠ none
  | .other => False

omit [DecidableEq R] in
theorem sameGenName_true (env : GenEnv N R E C) (url : Option String) (g : GenName N) :
    sameGenName env url g = .ok true ↔ Stands env url g := by
  constructor
  · intro h
    cases g with
    | directory n =>
      simp only [sameGenName, Except.ok.injEq, decide_eq_true_eq] at h
      subst h; exact .dir
    | mail s =>
      simp only [sameGenName, Except.ok.injEq, beq_iff_eq] at h
      subst h; exact .mail
    | uri s =>
      cases hu : url with
      | none => rw [hu] at h; cases h
      | some u =>
        rw [hu] at h
        simp only [sameGenName, Except.ok.injEq, beq_iff_eq] at h
        subst h; exact .uri _ rfl
    | other => cases h
  · intro h
    cases h with
    | dir => simp [sameGenName]
    | mail => simp [sameGenName]
    | uri u hu => simp [sameGenName, hu]

omit [DecidableEq R] in
theorem sameGenName_false (env : GenEnv N R E C) (url : Option String) (g : GenName N) :
    sameGenName env url g = .ok false ↔ Comparable url g ∧ ¬ Stands env url g := by
  rw [← sameGenName_true]
  cases g with
  | directory n => by_cases h : n = env.rootName <;> simp [sameGenName, Comparable, h]
  | mail s => by_cases h : env.rootText = s <;> simp [sameGenName, Comparable, h]
  | uri s =>
    cases hu : url with
    | none => simp [sameGenName, Comparable]
    | some u => by_cases h : u = s <;> simp [sameGenName, Comparable, h]
  | other => simp [sameGenName, Comparable]

omit [DecidableEq R] in
theorem findName_true (env : GenEnv N R E C) (url : Option String) (l : List (GenName N)) :
    findName env url l = .ok true ↔
      ∃ pre g post, l = pre ++ g :: post ∧ Stands env url g ∧ ∀ x ∈ pre, Comparable url x ∧ ¬ Stands env url x := by
  induction l with
  | nil => simp [findName]
  | cons a as ih =>
    unfold findName
    cases h : sameGenName env url a with
    | error er =>
      constructor
      · intro hh; cases hh
      · rintro ⟨pre, g, post, heq, hg, hp⟩
        cases pre with
        | nil =>
          rw [List.nil_append, List.cons.injEq] at heq
          rw [← heq.1, ← sameGenName_true, h] at hg; cases hg
        | cons p ps =>
          rw [List.cons_append, List.cons.injEq] at heq
          have := hp p (List.mem_cons_self ..)
          rw [← heq.1, ← sameGenName_false, h] at this; cases this
    | ok b =>
      cases b with
      | true =>
        refine ⟨fun _ => ⟨[], a, as, rfl, (sameGenName_true ..).1 h, by simp⟩, fun _ => rfl⟩
      | false =>
        dsimp only
        rw [ih]
        have hf := (sameGenName_false ..).1 h
        constructor
        · rintro ⟨pre, g, post, rfl, hg, hp⟩
          refine ⟨a :: pre, g, post, rfl, hg, fun x hx => ?_⟩
          rcases List.mem_cons.1 hx with rfl | hx
          · exact hf
          · exact hp x hx
        · rintro ⟨pre, g, post, heq, hg, hp⟩
          cases pre with
          | nil =>
            rw [List.nil_append, List.cons.injEq] at heq
            rw [heq.1] at hf; exact absurd hg hf.2
          | cons p ps =>
            rw [List.cons_append, List.cons.injEq] at heq
            exact ⟨ps, g, post, heq.2, hg, fun x hx => hp x (List.mem_cons_of_mem _ hx)⟩

omit [DecidableEq R] in
theorem findName_false (env : GenEnv N R E C) (url : Option String) (l : List (GenName N)) :
    findName env url l = .ok false ↔ ∀ x ∈ l, Comparable url x ∧ ¬ Stands env url x := by
  induction l with
  | nil => simp [findName]
  | cons a as ih =>
    unfold findName
    rw [List.forall_mem_cons, ← ih, ← sameGenName_false]
    cases h : sameGenName env url a with
    | error er => simp
    | ok b => cases b <;> simp

/-- The source of the CRL names the CA: in the list of names one which stands for it, preceded only by names which can
be compared with it, or a relative name which is one of the parts of its name. -/
def NamesCa (env : GenEnv N R E C) : CrlSource N R → Prop
  | .issuer l => ∃ pre g post, l = pre ++ g :: post ∧ Stands env none g ∧
      ∀ x ∈ pre, Comparable none x ∧ ¬ Stands env none x
  | .fullName l => ∃ pre g post, l = pre ++ g :: post ∧ Stands env (some env.crlUrl) g ∧
      ∀ x ∈ pre, Comparable (some env.crlUrl) x ∧ ¬ Stands env (some env.crlUrl) x
  | .relative r => r ∈ env.rootRdns

theorem sourceOk_true (env : GenEnv N R E C) (c : CrlSource N R) : sourceOk env c = .ok true ↔ NamesCa env c := by
  cases c with
  | issuer l =>
    unfold sourceOk NamesCa
    dsimp only
    rw [← findName_true]
    cases h : findName env none l with
    | error er => simp
    | ok b => cases b <;> simp
  | fullName l => exact findName_true env _ l
  | relative r => simp [sourceOk, NamesCa]

/-- **C175.** A CRL is returned for a status exactly if its source names the CA and the client knows no CRL, or one
which is more than 90000 seconds old; it is then the CRL signed for it. -/
theorem C175_status_iff (env : GenEnv N R E C) (i : Nat) (s : CrlStatus N R) (v : List UInt8) :
    crlOfStatus env i s = .ok (some v) ↔
      NamesCa env s.source ∧ (∀ t, s.thisUpdate = some t → t + 90000 < env.now) ∧ env.crl i = .ok v := by
  rw [← sourceOk_true]
  unfold crlOfStatus
  cases h : sourceOk env s.source with
  | error er => simp
  | ok b =>
    cases b with
    | false => simp
    | true =>
      dsimp only
      cases ht : s.thisUpdate with
      | none =>
        dsimp only
        cases hc : env.crl i with
        | error er => simp [Except.map]
        | ok w => simp [Except.map]
      | some t =>
        dsimp only
        by_cases hl : env.now - t > 90000
        · rw [if_pos hl]
          have : t + 90000 < env.now := by omega
          cases hc : env.crl i with
          | error er => simp [Except.map]
          | ok w => simp [Except.map, this]
        · rw [if_neg hl]
          have : ¬ t + 90000 < env.now := by omega
          simp [this]

/-- **C175, refuted.** RFC 9810, section 5.3.19.17: the CA sends the CRL if it is more recent than the one which the
client has.  The CRL of the CA is always one minute old; a client whose CRL is up to twenty-five hours old is told that
it has the latest one, whatever was revoked since. -/
theorem C175_outdated_refuted (env : GenEnv N R E C) (t : Int) (b : List UInt8) (h : env.now - 90000 ≤ t)
    (hb : env.decCrlStatus b = some ([⟨.fullName [.directory env.rootName], some t⟩], [])) :
    crlUpdate env ⟨[1, 3, 6, 1, 5, 5, 7, 4, 22], some b⟩ =
      .ok (⟨[1, 3, 6, 1, 5, 5, 7, 4, 23], none⟩, some "The CRL status list is up to date.") := by
  have hn : ¬ env.now - t > 90000 := by omega
  simp [crlUpdate, readWhole, hb, crlsOf, crlOfStatus, sourceOk, findName, sameGenName, hn, idIt]

/-- **C175, refuted.** A request for the CRL of another issuer should be answered without a CRL.  If the other issuer is
named in the alternative `issuer`, the CA fails with a `TypeError` while it builds its message. -/
theorem C175_foreign_issuer_refuted (env : GenEnv N R E C) (i : Nat) (t : Option Int) (l : List (GenName N))
    (h : ∀ x ∈ l, Comparable none x ∧ ¬ Stands env none x) :
    crlOfStatus env i ⟨.issuer l, t⟩ = .error .typeError := by
  have hf := (findName_false env none l).2 h
  simp [crlOfStatus, sourceOk, hf]

/-- **C175.** Named as distribution point, another issuer is answered without a CRL. -/
theorem C175_foreign_dpn (env : GenEnv N R E C) (i : Nat) (t : Option Int) (l : List (GenName N))
    (h : ∀ x ∈ l, Comparable (some env.crlUrl) x ∧ ¬ Stands env (some env.crlUrl) x) :
    crlOfStatus env i ⟨.fullName l, t⟩ = .ok none := by
  have hf := (findName_false env (some env.crlUrl) l).2 h
  simp [crlOfStatus, sourceOk, hf]

/-- **C175, refuted.** The URL of the CRL is recognised as distribution point only: named as issuer it is an error. -/
theorem C175_url_issuer_refuted (env : GenEnv N R E C) (i : Nat) (t : Option Int) (l : List (GenName N)) :
    crlOfStatus env i ⟨.issuer (.uri env.crlUrl :: l), t⟩ = .error .valueError := by
  simp [crlOfStatus, sourceOk, findName, sameGenName]

theorem crlsOf_length (env : GenEnv N R E C) (i : Nat) (l : List (CrlStatus N R)) (cs : List (List UInt8))
    (h : crlsOf env i l = .ok cs) : cs.length ≤ l.length := by
  induction l generalizing i cs with
  | nil => simp only [crlsOf] at h; cases h; simp
  | cons s ss ih =>
    unfold crlsOf at h
    cases h1 : crlOfStatus env i s with
    | error er => rw [h1] at h; cases h
    | ok o =>
      rw [h1] at h
      dsimp only at h
      cases h2 : crlsOf env (i + 1) ss with
      | error er => rw [h2] at h; cases h
      | ok r =>
        rw [h2] at h
        dsimp only at h
        cases h
        have := ih _ _ h2
        cases o <;> simp <;> omega

theorem crlsOf_mem (env : GenEnv N R E C) (i : Nat) (l : List (CrlStatus N R)) (cs : List (List UInt8))
    (h : crlsOf env i l = .ok cs) (v : List UInt8) :
    v ∈ cs ↔ ∃ k s, l[k]? = some s ∧ crlOfStatus env (i + k) s = .ok (some v) := by
  induction l generalizing i cs with
  | nil => simp only [crlsOf] at h; cases h; simp
  | cons s ss ih =>
    unfold crlsOf at h
    cases h1 : crlOfStatus env i s with
    | error er => rw [h1] at h; cases h
    | ok o =>
      rw [h1] at h
      dsimp only at h
      cases h2 : crlsOf env (i + 1) ss with
      | error er => rw [h2] at h; cases h
      | ok r =>
        rw [h2] at h
        dsimp only at h
        cases h
        rw [List.mem_append, ih _ _ h2]
        constructor
        · rintro (hv | ⟨k, s', hk, hs⟩)
          · refine ⟨0, s, rfl, ?_⟩
            rw [Nat.add_zero, h1]
            cases o with
            | none => cases hv
            | some w => simp at hv; rw [hv]
          · exact ⟨k + 1, s', hk, by rw [← hs]; congr 1; omega⟩
        · rintro ⟨k, s', hk, hs⟩
          cases k with
          | zero =>
            simp only [List.getElem?_cons_zero, Option.some.injEq] at hk
            subst hk
            rw [Nat.add_zero, h1] at hs
            left
            cases hs
            simp
          | succ k =>
            right
            exact ⟨k, s', by simpa using hk, by rw [← hs]; congr 1; omega⟩

/-- **C175.** The answer to the list of statuses has no value exactly if none of them calls for a CRL. -/
theorem C175_answer (env : GenEnv N R E C) (b : List UInt8) (l : List (CrlStatus N R)) (o : Itv) (t : Option String)
    (hb : env.decCrlStatus b = some (l, []))
    (h : crlUpdate env ⟨[1, 3, 6, 1, 5, 5, 7, 4, 22], some b⟩ = .ok (o, t)) :
    o.val = none ↔ ∀ s ∈ l, ¬ (NamesCa env s.source ∧ ∀ u, s.thisUpdate = some u → u + 90000 < env.now) := by
  simp only [crlUpdate, readWhole, hb] at h
  cases l with
  | nil => cases h
  | cons s ss =>
    dsimp only at h
    cases hc : crlsOf env 0 (s :: ss) with
    | error er => rw [hc] at h; cases h
    | ok cs =>
      rw [hc] at h
      have hm := crlsOf_mem env 0 (s :: ss) cs hc
      have hok : ∀ k s', (s :: ss)[k]? = some s' → ∃ r, crlOfStatus env k s' = .ok r := by
        have : ∀ (l : List (CrlStatus N R)) i cs, crlsOf env i l = .ok cs → ∀ k s', l[k]? = some s' →
            ∃ r, crlOfStatus env (i + k) s' = .ok r := by
          intro l
          induction l with
          | nil => intro i cs _ k s' hk; simp at hk
          | cons a as ih =>
            intro i cs hh k s' hk
            unfold crlsOf at hh
            cases h1 : crlOfStatus env i a with
            | error er => rw [h1] at hh; cases hh
            | ok r =>
              rw [h1] at hh
              dsimp only at hh
              cases h2 : crlsOf env (i + 1) as with
              | error er => rw [h2] at hh; cases hh
              | ok r2 =>
                cases k with
                | zero =>
                  simp only [List.getElem?_cons_zero, Option.some.injEq] at hk
                  exact ⟨r, by rw [← hk, Nat.add_zero, h1]⟩
                | succ k =>
                  obtain ⟨r', hr⟩ := ih (i + 1) r2 h2 k s' (by simpa using hk)
                  exact ⟨r', by rw [← hr]; congr 1; omega⟩
        intro k s' hk
        obtain ⟨r, hr⟩ := this _ 0 cs hc k s' hk
        exact ⟨r, by rw [← hr]; congr 1; omega⟩
      cases cs with
      | nil =>
        dsimp only at h
        cases h
        refine ⟨fun _ s' hs' hh => ?_, fun _ => rfl⟩
        obtain ⟨k, hk⟩ := List.getElem?_of_mem hs'
        obtain ⟨r, hr⟩ := hok k s' hk
        have hcrl : ∃ v, env.crl k = .ok v := by
          have h1 := (sourceOk_true env s'.source).2 hh.1
          unfold crlOfStatus at hr
          rw [h1] at hr
          dsimp only at hr
          cases ht : s'.thisUpdate with
          | none =>
            rw [ht] at hr
            cases hv : env.crl k with
            | error er => rw [hv] at hr; cases hr
            | ok v => exact ⟨v, rfl⟩
          | some u =>
            rw [ht] at hr
            have := hh.2 u ht
            dsimp only at hr
            rw [if_pos (by omega)] at hr
            cases hv : env.crl k with
            | error er => rw [hv] at hr; cases hr
            | ok v => exact ⟨v, rfl⟩
        obtain ⟨v, hv⟩ := hcrl
        have := (hm v).2 ⟨k, s', hk, by rw [Nat.zero_add]; exact (C175_status_iff env k s' v).2 ⟨hh.1, hh.2, hv⟩⟩
        cases this
      | cons c cs =>
        dsimp only at h
        split at h
        · cases h
        · cases h
          refine ⟨fun hh => (by cases hh), fun hh => ?_⟩
          obtain ⟨k, s', hk, hs⟩ := (hm c).1 (List.mem_cons_self ..)
          rw [Nat.zero_add] at hs
          have := (C175_status_iff env k s' c).1 hs
          exact absurd ⟨this.1, this.2.1⟩ (hh s' (List.mem_of_getElem? hk))

/-- **C175, refuted.** A client which names the CA twice, as issuer and as distribution point, gets two CRLs of the same
CA, since each is signed anew and the removal of duplicates compares bytes. -/
theorem C175_duplicate_refuted (env : GenEnv N R E C) (b v w : List UInt8) (hv : env.crl 0 = .ok v)
    (hw : env.crl 1 = .ok w) (hne : v ≠ w) (dv : env.decCrl v = some (v, [])) (dw : env.decCrl w = some (w, []))
    (hb : env.decCrlStatus b =
      some ([⟨.issuer [.directory env.rootName], none⟩, ⟨.fullName [.directory env.rootName], none⟩], [])) :
    crlUpdate env ⟨[1, 3, 6, 1, 5, 5, 7, 4, 22], some b⟩ =
      .ok (⟨[1, 3, 6, 1, 5, 5, 7, 4, 23], some (env.encCrls [v, w])⟩, some "") := by
  have hd : ([v, w] : List (List UInt8)).eraseDups = [v, w] := by
    rw [List.eraseDups_cons]
    have : ([w] : List (List UInt8)).filter (fun b => !b == v) = [w] := by simp [Ne.symm hne]
    rw [this]
    rfl
  simp [crlUpdate, readWhole, hb, crlsOf, crlOfStatus, sourceOk, findName, sameGenName, hv, hw, Except.map, hd, reread,
    dv, dw, idIt]

/-! ## What the handler remembers -/

variable [DecidableEq C]

theorem genEntry_state (env : GenEnv N R E C) (m : GenMsg C) (s : GenState) (e : Itv) (h0 : e.oid ≠ idIt 9999)
    (h1 : e.oid ≠ idIt 1) (h12 : e.oid ≠ idIt 12) : (genEntry env m s e).2 = s := by
  unfold genEntry
  rw [if_neg h0, if_neg h1]
  simp only [h12, if_false, apply_ite Prod.snd, ite_self]

theorem genEntry_12 (env : GenEnv N R E C) (m : GenMsg C) (s : GenState) (e : Itv) (h : e.oid = idIt 12) :
    genEntry env m s e = revPassphrase env m s e := by
  unfold genEntry
  simp only [h, idIt_inj]
  simp

theorem genEntry_error (env : GenEnv N R E C) (m : GenMsg C) (s s' : GenState) (e : Itv) (er : PyErr)
    (h : genEntry env m s e = (.error er, s')) : s' = s := by
  by_cases h0 : e.oid = idIt 9999
  · unfold genEntry at h
    rw [if_pos h0] at h
    simp only [kemEntry] at h
    split at h <;> cases h
    rfl
  by_cases h1 : e.oid = idIt 1
  · unfold genEntry at h
    rw [if_neg h0, if_pos h1] at h
    simp only [protEnc] at h
    repeat' split at h
    all_goals (cases h; try rfl)
  by_cases h12 : e.oid = idIt 12
  · rw [genEntry_12 env m s e h12] at h
    simp only [revPassphrase] at h
    split at h <;> cases h
    rfl
  · have := genEntry_state env m s e h0 h1 h12
    rw [h] at this
    exact this

theorem genEntry_ok (env : GenEnv N R E C) (m : GenMsg C) (s s' : GenState) (e : Itv) (r : Itv × Option String)
    (h : genEntry env m s e = (.ok r, s')) :
    s'.passphrases = s.passphrases ++
      (if e.oid = idIt 12 then (readPassphrase env m.pvno e).toOption.toList else []) ∧
    (s'.addEnv = (s.addEnv || decide (e.oid = idIt 1))) := by
  unfold genEntry at h
  by_cases h0 : e.oid = idIt 9999
  · rw [if_pos h0] at h
    simp only [kemEntry] at h
    split at h
    · cases h
    · cases h
      simp [h0, idIt, putSecret]
  rw [if_neg h0] at h
  by_cases h1 : e.oid = idIt 1
  · rw [if_pos h1] at h
    simp only [protEnc] at h
    split at h
    · cases h
    · split at h
      · cases h
      · cases h
        simp [h1, idIt]
  by_cases h12 : e.oid = idIt 12
  · rw [if_neg h1] at h
    have hg := genEntry_12 env m s e h12
    unfold genEntry at hg
    rw [if_neg h0, if_neg h1] at hg
    rw [hg] at h
    simp only [revPassphrase] at h
    cases hr : readPassphrase env m.pvno e with
    | error er => rw [hr] at h; cases h
    | ok p =>
      rw [hr] at h
      cases h
      simp [h12, idIt, Except.toOption]
  · have := genEntry_state env m s e h0 h1 h12
    unfold genEntry at this
    rw [if_neg h0, h] at this
    dsimp only at this
    rw [this]
    simp [h1, h12]

/-- **C176.** Under the lightweight profile, a message which is refused leaves no trace in the handler. -/
theorem C176_refused_partial (env : GenEnv N R E C) (s s' : GenState) (m : GenMsg C) (er : PyErr)
    (hl : env.lwcmp = true) (h : processGeneral env s m = (.error er, s')) : s' = s := by
  unfold processGeneral at h
  by_cases h1 : env.lwcmp = true ∧ m.body.length > 1
  · rw [if_pos h1] at h; cases h; rfl
  rw [if_neg h1] at h
  by_cases h2 : m.body.length = 0
  · rw [if_pos h2] at h; cases h; rfl
  rw [if_neg h2] at h
  have h3 : ¬ m.body.length > 1 := fun hh => h1 ⟨hl, hh⟩
  obtain ⟨e, hb⟩ : ∃ e, m.body = [e] := List.length_eq_one_iff.1 (by omega)
  · rw [hb] at h
    unfold genLoop at h
    cases ha : absentOk e with
    | error er => rw [ha] at h; cases h; rfl
    | ok u =>
      rw [ha] at h
      dsimp only at h
      rcases hg : genEntry env m s e with ⟨r, s1⟩
      rw [hg] at h
      cases r with
      | error er' =>
        dsimp only at h
        cases h
        exact genEntry_error env m s s' e er hg
      | ok p =>
        dsimp only [genLoop] at h
        cases h

/-- **C176.** An accepted message adds to the revocation passphrases exactly those which its entries carry, in their
order. -/
theorem C176_passphrases (env : GenEnv N R E C) (s s' : GenState) (m : GenMsg C) (os : List Itv) (ts : List String)
    (h : processGeneral env s m = (.ok (os, ts), s')) :
    s'.passphrases = s.passphrases ++ m.body.flatMap (fun e =>
      if e.oid = [1, 3, 6, 1, 5, 5, 7, 4, 12] then (readPassphrase env m.pvno e).toOption.toList else []) := by
  have hl : ∀ (l : List Itv) (s s' : GenState) (os : List Itv) (ts : List String),
      genLoop env m s l = (.ok (os, ts), s') → s'.passphrases = s.passphrases ++ l.flatMap (fun e =>
        if e.oid = [1, 3, 6, 1, 5, 5, 7, 4, 12] then (readPassphrase env m.pvno e).toOption.toList else []) := by
    intro l
    induction l with
    | nil => intro s s' os ts h; simp [genLoop] at h; simp [h.2]
    | cons e es ih =>
      intro s s' os ts h
      unfold genLoop at h
      cases ha : absentOk e with
      | error er => rw [ha] at h; cases h
      | ok u =>
        rw [ha] at h
        dsimp only at h
        rcases hg : genEntry env m s e with ⟨r, s1⟩
        rw [hg] at h
        cases r with
        | error er => cases h
        | ok p =>
          obtain ⟨o, t⟩ := p
          dsimp only at h
          rcases hl : genLoop env m s1 es with ⟨r2, s2⟩
          rw [hl] at h
          cases r2 with
          | error er => cases h
          | ok q =>
            obtain ⟨os', ts'⟩ := q
            dsimp only at h
            cases h
            rw [ih _ _ _ _ hl, (genEntry_ok env m s s1 e _ hg).1, List.flatMap_cons, List.append_assoc]
            rfl
  unfold processGeneral at h
  split at h
  · cases h
  · split at h
    · cases h
    · exact hl _ _ _ _ _ h

theorem genLoop_addEnv (env : GenEnv N R E C) (m : GenMsg C) (l : List Itv) (s s' : GenState) (os : List Itv)
    (ts : List String) (h : genLoop env m s l = (.ok (os, ts), s')) :
    s'.addEnv = (s.addEnv || l.any (fun e => decide (e.oid = [1, 3, 6, 1, 5, 5, 7, 4, 1]))) := by
  induction l generalizing s os ts with
  | nil => simp [genLoop] at h; simp [h.2]
  | cons e es ih =>
    unfold genLoop at h
    cases ha : absentOk e with
    | error er => rw [ha] at h; cases h
    | ok u =>
      rw [ha] at h
      dsimp only at h
      rcases hg : genEntry env m s e with ⟨r, s1⟩
      rw [hg] at h
      cases r with
      | error er => cases h
      | ok p =>
        obtain ⟨o, t⟩ := p
        dsimp only at h
        rcases hl : genLoop env m s1 es with ⟨r2, s2⟩
        rw [hl] at h
        cases r2 with
        | error er => cases h
        | ok q =>
          obtain ⟨os', ts'⟩ := q
          dsimp only at h
          cases h
          rw [ih _ _ _ hl, (genEntry_ok env m s s1 e _ hg).2, List.any_cons, Bool.or_assoc]
          rfl

/-- **C176, refuted.** Without the lightweight profile a refused message is not undone: the passphrase of its first
entry is kept although the second entry, which the CA never answers, makes it fail. -/
theorem C176_refused_refuted (env : GenEnv N R E C) (s : GenState) (m : GenMsg C) (b p : List UInt8) (d : E)
    (hl : env.lwcmp = false) (hp : m.pvno = 3) (hb : env.decEncKey b = some (.enveloped d, []))
    (ho : env.openEnv d = .ok p)
    (hm : m.body = [⟨[1, 3, 6, 1, 5, 5, 7, 4, 12], some b⟩, ⟨[1, 3, 6, 1, 5, 5, 7, 4, 18], none⟩]) :
    processGeneral env s m = (.error .badRequest, { s with passphrases := s.passphrases ++ [p] }) := by
  simp [processGeneral, hl, hm, genLoop, absentOk, absentTypes, genEntry, idIt, revPassphrase, readPassphrase, readWhole,
    hb, hp, ho]

/-! ## The response -/

theorem processGenm_error (env : CallEnv N R E C) (s s' : CallState) (m : GenMsg C) (er : PyErr)
    (hl : env.gen.lwcmp = true) (h : processGenm env s m = (.error er, s')) : s' = s := by
  unfold processGenm at h
  split at h
  · cases h; rfl
  · split at h
    · cases h; rfl
    · split at h
      · unfold genmKem at h
        repeat' split at h
        all_goals (cases h; try rfl)
      · unfold genmOther at h
        rcases hp : processGeneral env.gen s.gen m with ⟨r, g⟩
        rw [hp] at h
        cases r with
        | error er' =>
          cases h
          rw [C176_refused_partial env.gen s.gen g m er hl hp]
        | ok q => cases h

/-- **C176.** Under the lightweight profile, as long as the signing of responses succeeds, a response carries the
additional certificates exactly if the message asked for the certificate for protocol encryption; in particular none is
left over for the next message. -/
theorem C176_extra_partial (env : CallEnv N R E C) (s s' : CallState) (m : GenMsg C) (r : Except PyErr (Genp C))
    (hl : env.gen.lwcmp = true) (hs : env.sign = .ok ()) (h0 : s.gen.addEnv = false)
    (h : answerGenm env s m = (r, s')) :
    s'.gen.addEnv = false ∧
    ∀ g, r = .ok g → g.added =
      if m.body.map Itv.oid = [[1, 3, 6, 1, 5, 5, 7, 4, 1]] then env.gen.envCerts else [] := by
  unfold answerGenm at h
  rcases hp : processGenm env s m with ⟨q, s1⟩
  rw [hp] at h
  cases q with
  | error er =>
    cases h
    rw [processGenm_error env s s' m er hl hp]
    exact ⟨h0, fun g hg => (by cases hg)⟩
  | ok t =>
    obtain ⟨os, ts, p⟩ := t
    dsimp only at h
    have hsg : genmSign env p = .ok () := by unfold genmSign; split <;> simp [hs]
    rw [hsg] at h
    dsimp only at h
    cases h
    refine ⟨?_, fun g hg => ?_⟩
    · dsimp only
      unfold patchExtra
      split
      · rfl
      · rename_i hh; simpa using hh
    · cases hg
      dsimp only
      have hadd : s1.gen.addEnv = decide (m.body.map Itv.oid = [[1, 3, 6, 1, 5, 5, 7, 4, 1]]) := by
        unfold processGenm at hp
        cases hb : m.body with
        | nil => rw [hb] at hp; cases hp
        | cons e es =>
          rw [hb] at hp
          dsimp only at hp
          split at hp
          · cases hp
          · split at hp
            · rename_i hk
              unfold genmKem at hp
              repeat' split at hp
              all_goals first
                | (cases hp; done)
                | (cases hp
                   dsimp only
                   rw [h0]
                   symm
                   rw [decide_eq_false_iff_not, List.map_cons, hk]
                   intro hh
                   cases hh)
            · rename_i hk
              unfold genmOther at hp
              rcases hq : processGeneral env.gen s.gen m with ⟨r, g⟩
              rw [hq] at hp
              cases r with
              | error er => cases hp
              | ok x =>
                obtain ⟨os', ts'⟩ := x
                cases hp
                dsimp only
                have h1 := ((C174_answered_iff env.gen s.gen m os).1 ⟨ts, g, hq⟩).2.1 hl
                rw [hb] at h1
                cases es with
                | cons a as => simp at h1
                | nil =>
                  unfold processGeneral at hq
                  rw [if_neg (by rw [hb]; simp), if_neg (by rw [hb]; simp), hb] at hq
                  rw [genLoop_addEnv env.gen m [e] s.gen g os ts hq, h0]
                  simp
      unfold patchExtra
      rw [hadd]
      by_cases hh : m.body.map Itv.oid = [[1, 3, 6, 1, 5, 5, 7, 4, 1]]
      · simp [hh]
      · simp [hh]

/-- **C176, refuted.** If the response with the certificate for protocol encryption cannot be signed, the additional
certificates are sent with the response to the next message, whoever sent it and whatever it asked for. -/
theorem C176_extra_refuted (env : CallEnv N R E C) (s : CallState) (m m' : GenMsg C) (v : List UInt8)
    (hv : env.gen.protEncCert = some v) (hm : m.isProtected = false) (hm' : m'.isProtected = false)
    (hb : m.body = [⟨[1, 3, 6, 1, 5, 5, 7, 4, 1], none⟩]) (hb' : m'.body = [⟨[1, 3, 6, 1, 5, 5, 7, 4, 17], none⟩]) :
    (answerGenm { env with sign := .error .valueError } s m).1 = .error .valueError ∧
    (answerGenm { env with sign := .ok () } (answerGenm { env with sign := .error .valueError } s m).2 m').1 =
      .ok ⟨[⟨[1, 3, 6, 1, 5, 5, 7, 4, 17], some env.gen.caCerts⟩], ["certificates"], true, env.gen.envCerts⟩ := by
  simp [answerGenm, processGenm, hb, hb', hm, hm', genmProtection, genmOther, processGeneral, genLoop, absentOk, genEntry,
    idIt, protEnc, hv, genmSign, patchExtra, keepText]

/-! ## The KEM ciphertext -/

/-- **C177.** A request for a KEM ciphertext is answered exactly if it is its only entry, the message is not protected,
it carries a certificate for whose key a secret can be encapsulated, and the sender may make a request.  The response is
not signed, and the secret is kept for the protection of the transaction. -/
theorem C177_kem_iff (env : CallEnv N R E C) (s s' : CallState) (m : GenMsg C) (e : Itv) (es : List Itv) (g : Genp C)
    (hb : m.body = e :: es) (he : e.oid = [1, 3, 6, 1, 5, 5, 7, 4, 9999]) (h0 : s.gen.addEnv = false) :
    answerGenm env s m = (.ok g, s') ↔
      ∃ c cs ss v, m.isProtected = false ∧ es = [] ∧ m.extra = c :: cs ∧ env.gen.kem c = .ok (ss, v) ∧
        env.allowed = .ok () ∧ g = ⟨[⟨[1, 3, 6, 1, 5, 5, 7, 4, 9999], some v⟩], [], false, []⟩ ∧
        s' = { s with macSecrets := s.macSecrets ++ [(m.tx, ss)] } := by
  have he' : e.oid = idIt 9999 := he
  unfold answerGenm processGenm
  rw [hb]
  dsimp only
  cases hp : m.isProtected with
  | true =>
    simp only [genmProtection, hp, if_true, genmKem]
    cases env.protection with
    | error er => simp
    | ok u => simp [he']
  | false =>
    simp only [genmProtection, hp, genmKem, genpKem, hb]
    rw [if_pos he']
    cases hx : m.extra with
    | nil => simp
    | cons c cs =>
      cases es with
      | cons a as => simp
      | nil =>
        cases hk : env.gen.kem c with
        | error er => simp [hk]
        | ok q =>
          obtain ⟨ss, v⟩ := q
          cases ha : env.allowed with
          | error er => simp [hk]
          | ok u =>
            simp [genmSign, patchExtra, h0, hk, idIt]
            constructor
            · rintro ⟨rfl, rfl⟩
              exact ⟨rfl, rfl⟩
            · rintro ⟨rfl, rfl⟩
              exact ⟨rfl, rfl⟩

/-- **C177.** For a new transaction, the secret found for it afterwards is the one which was encapsulated. -/
theorem C177_found_partial (l : List (List UInt8 × List UInt8)) (tx ss : List UInt8) (h : ∀ p ∈ l, p.1 ≠ tx) :
    (l ++ [(tx, ss)]).lookup tx = some ss := by
  induction l with
  | nil => simp
  | cons p ps ih =>
    obtain ⟨a, b⟩ := p
    have : (tx == a) = false := by
      simp only [beq_eq_false_iff_ne]
      exact fun hh => h (a, b) (List.mem_cons_self ..) hh.symm
    rw [List.cons_append, List.lookup_cons, this]
    exact ih fun p hp => h p (List.mem_cons_of_mem _ hp)

/-- **C177, refuted.** A client which asks for a second ciphertext in the same transaction is answered with a new one,
but the secret used afterwards is the first. -/
theorem C177_repeated_refuted (l : List (List UInt8 × List UInt8)) (tx a b : List UInt8) (h : ∀ p ∈ l, p.1 ≠ tx) :
    ((l ++ [(tx, a)]) ++ [(tx, b)]).lookup tx = some a := by
  induction l with
  | nil => simp
  | cons p ps ih =>
    obtain ⟨x, y⟩ := p
    have : (tx == x) = false := by
      simp only [beq_eq_false_iff_ne]
      exact fun hh => h (x, y) (List.mem_cons_self ..) hh.symm
    rw [List.cons_append, List.cons_append, List.lookup_cons, this]
    exact ih fun p hp => h p (List.mem_cons_of_mem _ hp)

/-- **C177, refuted.** The value of the request has to be absent; a request with any value is answered. -/
theorem C177_value_refuted (env : CallEnv N R E C) (s : CallState) (m : GenMsg C) (b ss v : List UInt8) (c : C)
    (hp : m.isProtected = false) (hb : m.body = [⟨[1, 3, 6, 1, 5, 5, 7, 4, 9999], some b⟩]) (hx : m.extra = [c])
    (hk : env.gen.kem c = .ok (ss, v)) (ha : env.allowed = .ok ()) (h0 : s.gen.addEnv = false) :
    (answerGenm env s m).1 = .ok ⟨[⟨[1, 3, 6, 1, 5, 5, 7, 4, 9999], some v⟩], [], false, []⟩ := by
  have := (C177_kem_iff env s { s with macSecrets := s.macSecrets ++ [(m.tx, ss)] } m _ [] _ hb rfl h0).2
    ⟨c, [], ss, v, hp, rfl, hx, hk, ha, rfl, rfl⟩
  rw [this]

/-- **C177, refuted.** As second entry, without the lightweight profile, the request is answered as well, but its secret
is kept where the verification of the protection does not look for it. -/
theorem C177_second_refuted (env : CallEnv N R E C) (s : CallState) (m : GenMsg C) (ss v : List UInt8) (c : C)
    (hl : env.gen.lwcmp = false) (hp : m.isProtected = false) (hs : env.sign = .ok ()) (h0 : s.gen.addEnv = false)
    (hb : m.body = [⟨[1, 3, 6, 1, 5, 5, 7, 4, 17], none⟩, ⟨[1, 3, 6, 1, 5, 5, 7, 4, 9999], none⟩])
    (hx : m.extra = [c]) (hk : env.gen.kem c = .ok (ss, v)) :
    (answerGenm env s m).1 = .ok ⟨[⟨[1, 3, 6, 1, 5, 5, 7, 4, 17], some env.gen.caCerts⟩,
        ⟨[1, 3, 6, 1, 5, 5, 7, 4, 9999], some v⟩], ["certificates"], true, []⟩ ∧
    (answerGenm env s m).2.macSecrets = s.macSecrets ∧
    (answerGenm env s m).2.gen.secrets.lookup m.tx = some ss := by
  simp [answerGenm, processGenm, hb, hp, genmProtection, genmOther, processGeneral, hl, genLoop, absentOk, genEntry,
    idIt, genmSign, hs, patchExtra, keepText, kemEntry, kemInfo, hx, hk, putSecret, h0]

/-- **C177.** No other message touches the secrets of the protection. -/
theorem C177_others (env : CallEnv N R E C) (s : CallState) (m : GenMsg C)
    (h : ∀ e es, m.body = e :: es → e.oid ≠ [1, 3, 6, 1, 5, 5, 7, 4, 9999]) :
    (answerGenm env s m).2.macSecrets = s.macSecrets := by
  have hp : (processGenm env s m).2.macSecrets = s.macSecrets := by
    unfold processGenm
    split
    · rfl
    · rename_i e es hb
      split
      · rfl
      · rw [if_neg (show e.oid ≠ idIt 9999 from h e es hb)]
        unfold genmOther
        split <;> rfl
  unfold answerGenm
  split
  · rename_i er s' heq
    rw [heq] at hp; exact hp
  · rename_i os ts p s' heq
    rw [heq] at hp
    split
    · exact hp
    · exact hp

end Verif.Ra
