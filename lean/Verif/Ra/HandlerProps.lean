import Verif.Ra.Handler
import Verif.Ra.UpdateProps
import Verif.Ra.PopRefuted

/-!
# Theorems on the certificate requests of the Mock CA
-/

namespace Verif.Ra

open Verif.CA hiding Bytes Msg ProtType
open Verif.Check

variable {A K S R E C N X G I : Type} [DecidableEq K] [DecidableEq C] [DecidableEq N]

/-! ## ir and cr -/

private theorem processCr_reply {h : HandlerEnv A K S R E C N X G I} {v : Bool} {p : Option ProtType} {m : RMsg A R E C}
    {out : List (Resp C E) × List C} (hr : processCr h v p m = .ok out) :
    cpReply (bareEnv h) { ext := h.ext, verifyRa := v } m = .ok out ∧
      (∀ t, p = some t → signerIssued h.issued t m.certs = .ok ()) := by
  unfold processCr at hr
  cases p with
  | none => exact ⟨hr, fun t ht => (by cases ht)⟩
  | some t =>
    dsimp only at hr
    cases hs : signerIssued h.issued t m.certs with
    | error e => rw [hs] at hr; cases hr
    | ok u => rw [hs] at hr; exact ⟨hr, fun t' ht => (by cases ht; exact hs)⟩

/-- What can be asked for with a `cr`: no key is generated, and with key agreement only a key sent to the CA is certified;
no response holds a private key. -/
theorem C225_cr_partial (h : HandlerEnv A K S R E C N X G I) (v : Bool) (p : Option ProtType) (m : RMsg A R E C)
    {rs : List (Resp C E)} {cs : List C} (hr : processCr h v p m = .ok (rs, cs)) :
    (∀ r ∈ m.reqs, ∃ y, r.popo = some y ∧ ∀ x, y = .keyAgree x → ∃ e, x = .encryptedKey e) ∧
      (∀ q ∈ rs, q.priv = none) := by
  obtain ⟨hc, _⟩ := processCr_reply hr
  obtain ⟨_, hlen, hall⟩ := C159_ids _ _ _ _ _ hc
  have hone : ∀ j r, m.reqs[j]? = some r → ∀ out, processOne (bareEnv h) { ext := h.ext, verifyRa := v } m j = .ok out →
      (∃ y, r.popo = some y ∧ ∀ x, y = .keyAgree x → ∃ e, x = .encryptedKey e) ∧ out.priv = none := by
    intro j r hj out ho
    obtain ⟨r', alt, hg, _, _, _, _, _, hres⟩ := processOne_ok.1 ho
    have hrr : r' = r := by
      unfold getReq at hg
      split at hg
      · rw [hj] at hg; exact (Except.ok.inj hg).symm
      · cases hg
    subst hrr
    unfold respond at hres
    split at hres
    · cases hres
    · split at hres
      · unfold kgaReply at hres
        split at hres
        · cases hres
        · cases hres
        · cases hres
      · rename_i hp
        refine ⟨⟨_, hp, fun x hx => (by cases hx)⟩, ?_⟩
        unfold plainReply at hres
        split at hres
        · cases hres
        · cases hres; rfl
      · rename_i hp
        refine ⟨⟨_, hp, fun x hx => (by cases hx)⟩, ?_⟩
        unfold plainReply at hres
        split at hres
        · cases hres
        · cases hres; rfl
      · rename_i hp
        refine ⟨⟨_, hp, fun x hx => (by cases hx)⟩, ?_⟩
        unfold encReply at hres
        split at hres
        · cases hres
        · split at hres
          · split at hres
            · cases hres
            · cases hres; rfl
          · unfold encrCert at hres
            split at hres
            · cases hres
            · split at hres
              · cases hres
              · split at hres
                · cases hres
                · split at hres
                  · cases hres
                  · cases hres; rfl
          · cases hres
      · rename_i x hp
        unfold agreeReply at hres
        split at hres
        · cases hres
        · split at hres
          · cases hres
          · split at hres
            · cases hres
            · cases hres
            · rename_i e
              refine ⟨⟨_, hp, fun x hx => (by cases hx; exact ⟨e, rfl⟩)⟩, ?_⟩
              split at hres
              · cases hres
              · cases hres; rfl
            · unfold agreeWith at hres
              cases hres
  constructor
  · intro r hr'
    obtain ⟨j, hj, hjr⟩ := List.getElem_of_mem hr'
    obtain ⟨out, ho, _⟩ := hall j hj
    exact (hone j r (by rw [List.getElem?_eq_getElem hj, hjr]) out ho).1
  · intro q hq
    obtain ⟨j, hj, hjq⟩ := List.getElem_of_mem hq
    have hj' : j < m.reqs.length := by
      have := processLoop_ok _ _ _ _ hc
      omega
    obtain ⟨out, ho, _, q', hq', hpr, _⟩ := hall j hj'
    rw [List.getElem?_eq_getElem hj, hjq] at hq'
    cases hq'
    rw [hpr]
    exact (hone j m.reqs[j] (List.getElem?_eq_getElem hj') out ho).2

/-- A `cr` protected by anything but a password is granted only to a certificate of the CA, if it comes with certificates. -/
theorem C225_cr_known (h : HandlerEnv A K S R E C N X G I) (v : Bool) (t : ProtType) (ht : t ≠ .mac) (m : RMsg A R E C)
    {out : List (Resp C E) × List C} (hr : processCr h v (some t) m = .ok out) {l : List C} (hl : m.certs = some l) :
    ∃ c rest, l = c :: rest ∧ c ∈ h.issued := by
  have hs := (processCr_reply hr).2 t rfl
  unfold signerIssued at hs
  rw [if_neg ht, hl] at hs
  cases l with
  | nil => cases hs
  | cons c rest =>
    dsimp only at hs
    split at hs
    · rename_i hc; exact ⟨c, rest, rfl, hc⟩
    · cases hs

/-- For one request with a signature or of a registration authority, an `ir` and a `cr` of a known certificate give the same
answer, if the controls are judged alike. -/
theorem C225_same (h : HandlerEnv A K S R E C N X G I) (v : Bool) (p : Option ProtType) (m : RMsg A R E C) (r : Req A R E)
    (hb : m.body ∈ ["ir", "cr", "kur", "crr"]) (hm : m.reqs = [r]) (hid : r.id = 0)
    (hp : r.popo = some .raVerified ∨ ∃ a s, r.popo = some (.signature a s))
    (hk : ∀ t, p = some t → signerIssued h.issued t m.certs = .ok ())
    (hc : h.bareControls r.der = h.up.ra.controls r.der) : processCr h v p m = processIr h v m := by
  have h1 : processCr h v p m = cpReply (bareEnv h) { ext := h.ext, verifyRa := v } m := by
    unfold processCr
    cases p with
    | none => rfl
    | some t => dsimp only; rw [hk t rfl]
  have h2 : processIr h v m = processAll h.up.ra { ext := h.ext, verifyRa := v } m := by
    unfold processIr ipReply lwCmp
    rw [if_pos rfl, if_neg (not_not_intro hb), hm]
    dsimp only
    rw [if_neg (not_not_intro hid)]
  have hg : ∀ r', getReq m 0 = .ok r' → r' = r := by
    intro r' hg
    unfold getReq at hg
    split at hg
    · rw [hm] at hg; exact (Except.ok.inj hg).symm
    · cases hg
  have h3 : processOne (bareEnv h) { ext := h.ext, verifyRa := v } m 0
      = processOne h.up.ra { ext := h.ext, verifyRa := v } m 0 := by
    unfold processOne
    cases hq : getReq m 0 with
    | error e => rfl
    | ok r' =>
      have := hg r' hq
      subst this
      dsimp only
      have e1 : popoKind (bareEnv h) m r' = popoKind h.up.ra m r' := rfl
      have e2 : altTmpl (bareEnv h) r' = altTmpl h.up.ra r' := rfl
      have e3 : checkTmplKey (bareEnv h) none 8192 r'.tmpl = checkTmplKey h.up.ra none 8192 r'.tmpl := rfl
      have e4 : (bareEnv h).controls r'.der = h.up.ra.controls r'.der := hc
      have e5 : verifyPopo (bareEnv h) true v m 0 = verifyPopo h.up.ra true v m 0 := rfl
      have e6 : ∀ alt, respond (bareEnv h) h.ext r' alt = respond h.up.ra h.ext r' alt := by
        intro alt
        unfold respond
        rcases hp with hp | ⟨a, s, hp⟩
        · rw [hp]; rfl
        · rw [hp]; rfl
      rw [e1, e2, e3, e4, e5]
      simp only [e6]
  rw [h1, h2]
  unfold cpReply processAll
  rw [hm]
  unfold processLoop
  rw [h3]
  rfl

/-- The CA of the examples: the certificate `exRa` was issued by it. -/
def exHandler : HandlerEnv Nat Nat Nat String (Nat × Bytes) ExCert Nat Nat Unit Nat where
  up := exUp
  ext := some 3
  issued := [exRa]
  bareOpen := fun _ => .error .valueError
  bareControls := fun _ => .ok ()

/-- A request for a generated key is granted as an `ir`, but ends with a `TypeError` as a `cr`. -/
theorem C225_kga_refuted : ∃ (r : Req Nat String (Nat × Bytes)) (rs : List (Resp ExCert (Nat × Bytes))) (c : ExCert),
    processIr exHandler true { exMsg "ir" [r] with certs := some [exRa] } = .ok (rs, [c]) ∧
    processCr exHandler true (some .sig) { exMsg "cr" [r] with certs := some [exRa] } = .error .typeError :=
  ⟨⟨0, ⟨none, "A"⟩, none, [], none⟩, _, _, rfl, by decide +kernel⟩

/-- Likewise a request with the MAC of key agreement. -/
theorem C225_agree_refuted : ∃ (r : Req Nat String (Nat × Bytes)) (rs : List (Resp ExCert (Nat × Bytes))) (c : ExCert),
    processIr exHandler true { exMsg "ir" [r] with certs := some [exRa] } = .ok (rs, [c]) ∧
    processCr exHandler true (some .sig) { exMsg "cr" [r] with certs := some [exRa] } = .error .valueError :=
  ⟨exReq 0 205 (some (.keyAgree (.agreeMac 0 [UInt8.ofNat 411, 205, 7]))), _, _, rfl, by decide +kernel⟩

example : processCr exHandler true (some .sig) (exMsg "cr" [exReq 0 5 (some (.signature 0 [5, 7, 5]))])
    = .ok ([⟨0, .cert ⟨"A", 5, some 3, false⟩, none⟩], [⟨"A", 5, some 3, false⟩]) := by decide +kernel
example : processCr exHandler true (some .sig) { exMsg "cr" [exReq 0 5 (some (.signature 0 [5, 7, 5]))] with
    certs := some [⟨"B", 2, none, false⟩] } = .error .notAuthorized := by decide +kernel

/-! ## p10cr -/

omit [DecidableEq K] in
/-- The certificates issued for a `p10cr`: its signature verifies and it is named; the certificate has its key, and the
extensions of the CA and the key identifier, and nothing else. -/
theorem C226_issued_iff (env : P10Env K) (q : P10 K) (c : P10Cert K) :
    processP10 env q = .ok c ↔ q.verified = .ok () ∧ env.nameOk = .ok () ∧ env.sign = .ok () ∧
      (∃ xs, q.exts = .ok xs ∧ (q.nullDn = true → ∃ x ∈ xs, x.1 = [2, 5, 29, 17])) ∧
      ∃ k, q.key = .ok k ∧ c = ⟨q.nullDn, k, env.exts ++ [env.ski k]⟩ := by
  have hs : subjectOk q = .ok () ↔ ∃ xs, q.exts = .ok xs ∧ (q.nullDn = true → ∃ x ∈ xs, x.1 = [2, 5, 29, 17]) := by
    unfold subjectOk
    cases q.exts with
    | error e => exact ⟨fun h => (by cases h), fun ⟨_, h, _⟩ => (by cases h)⟩
    | ok xs =>
      dsimp only
      by_cases hx : (xs.any fun x => decide (x.1 = idSan)) = true
      · rw [if_neg (fun h => h.2 hx)]
        obtain ⟨x, hx1, hx2⟩ := List.any_eq_true.1 hx
        exact ⟨fun _ => ⟨xs, rfl, fun _ => ⟨x, hx1, of_decide_eq_true hx2⟩⟩, fun _ => rfl⟩
      · by_cases hn : q.nullDn = true
        · rw [if_pos ⟨hn, hx⟩]
          refine ⟨fun h => (by cases h), ?_⟩
          rintro ⟨_, h, h2⟩
          cases h
          obtain ⟨x, hx1, hx2⟩ := h2 hn
          exact absurd (List.any_eq_true.2 ⟨x, hx1, decide_eq_true (p := x.1 = idSan) hx2⟩) hx
        · rw [if_neg (fun h => hn h.1)]
          exact ⟨fun _ => ⟨xs, rfl, fun h => absurd h hn⟩, fun _ => rfl⟩
  unfold processP10
  cases hk : q.key with
  | error e => exact ⟨fun h => (by cases h), fun ⟨_, _, _, _, _, h, _⟩ => (by cases h)⟩
  | ok k =>
    dsimp only
    cases q.verified with
    | error e => exact ⟨fun h => (by cases h), fun ⟨h, _⟩ => (by cases h)⟩
    | ok u =>
      dsimp only
      cases hsub : subjectOk q with
      | error e =>
        refine ⟨fun h => (by cases h), fun ⟨_, _, _, h, _⟩ => ?_⟩
        rw [hs.2 h] at hsub
        cases hsub
      | ok u =>
        dsimp only
        unfold p10Build
        cases env.nameOk with
        | error e => exact ⟨fun h => (by cases h), fun ⟨_, h, _⟩ => (by cases h)⟩
        | ok u =>
          dsimp only
          rw [hk]
          dsimp only
          cases env.sign with
          | error e => exact ⟨fun h => (by cases h), fun ⟨_, _, h, _⟩ => (by cases h)⟩
          | ok u =>
            constructor
            · intro h
              exact ⟨rfl, rfl, rfl, hs.1 hsub, k, rfl, (Except.ok.inj h).symm⟩
            · rintro ⟨_, _, _, _, _, h, rfl⟩
              cases h
              rfl

/-- The CA of the examples: the key 7 is compromised; it adds one extension. -/
def exP10 : P10Env Nat where
  compromised k := decide (k = 7)
  ski k := ([2, 5, 29, 14], [UInt8.ofNat k])
  exts := [([2, 5, 29, 31], [1])]

omit [DecidableEq K] [DecidableEq C] [DecidableEq N] in
/-- The handler looks up whether the key is compromised, but grants the request all the same. -/
theorem C226_compromised_refuted : ∃ (env : P10Env Nat) (q : P10 Nat) (c : P10Cert Nat) (k : Nat),
    q.key = .ok k ∧ env.compromised k = true ∧ processP10 env q = .ok c ∧ c.key = k :=
  ⟨exP10, { key := .ok 7 }, _, 7, rfl, rfl, rfl, rfl⟩

omit [DecidableEq K] [DecidableEq C] [DecidableEq N] in
/-- A request with an empty subject is accepted for its alternative name, which the certificate does not have: it has no
name at all. -/
theorem C226_unnamed_refuted : ∃ (q : P10 Nat) (c : P10Cert Nat), processP10 exP10 q = .ok c ∧ c.nullDn = true ∧
    ∀ x ∈ c.exts, x.1 ≠ [2, 5, 29, 17] :=
  ⟨{ nullDn := true, exts := .ok [([2, 5, 29, 17], [9])], key := .ok 3 }, _, rfl, rfl, by decide⟩

example : processP10 exP10 { nullDn := true, key := .ok 3 } = .error .badCertTemplate := by decide +kernel

/-! ## Implicit confirmation -/

omit [DecidableEq K] [DecidableEq C] [DecidableEq N] in
/-- A certificate is confirmed implicitly exactly if this was asked for, and, for `ir`, `cr` and `kur`, the first response
does not hold an encrypted certificate. -/
theorem C227_iff (body : String) (info : List Itv) (rs : List (Resp C E)) :
    usedImplicit body info rs = true ↔ (∃ e ∈ info, e.oid = [1, 3, 6, 1, 5, 5, 7, 4, 13]) ∧
      (body ∈ ["p10cr", "ccr", "krp"] ∨
        body ∈ ["ir", "cr", "kur"] ∧ ∀ q, rs.head? = some q → ∀ e, q.pair ≠ .enc e) := by
  have hf : findOid [1, 3, 6, 1, 5, 5, 7, 4, 13] info = true ↔ ∃ e ∈ info, e.oid = [1, 3, 6, 1, 5, 5, 7, 4, 13] := by
    unfold findOid
    rw [List.any_eq_true]
    exact ⟨fun ⟨e, h1, h2⟩ => ⟨e, h1, of_decide_eq_true h2⟩, fun ⟨e, h1, h2⟩ => ⟨e, h1, decide_eq_true h2⟩⟩
  unfold usedImplicit
  by_cases h1 : body ∈ ["p10cr", "ccr", "krp"]
  · rw [if_pos h1, hf]
    exact ⟨fun h => ⟨h, .inl h1⟩, fun h => h.1⟩
  · rw [if_neg h1]
    by_cases h2 : body ∈ ["ir", "cr", "kur"]
    · rw [if_neg (not_not_intro h2)]
      by_cases h3 : findOid [1, 3, 6, 1, 5, 5, 7, 4, 13] info = true
      · rw [if_neg (fun h => by rw [h3] at h; cases h)]
        constructor
        · intro h
          refine ⟨hf.1 h3, .inr ⟨h2, ?_⟩⟩
          intro q hq e he
          cases rs with
          | nil => cases hq
          | cons q' rest =>
            cases hq
            obtain ⟨i, pr, pv⟩ := q
            dsimp only at he
            subst he
            cases h
        · rintro ⟨_, h | ⟨_, h⟩⟩
          · exact absurd h h1
          · split
            · rename_i e _ _
              exact absurd rfl (h _ rfl _)
            · rfl
      · have h4 : findOid [1, 3, 6, 1, 5, 5, 7, 4, 13] info = false := by
          cases hh : findOid [1, 3, 6, 1, 5, 5, 7, 4, 13] info with
          | true => exact absurd hh h3
          | false => rfl
        rw [if_pos h4]
        exact ⟨fun h => (by cases h), fun h => absurd (hf.2 h.1) h3⟩
    · rw [if_pos h2]
      refine ⟨fun h => (by cases h), ?_⟩
      rintro ⟨_, h | ⟨h, _⟩⟩
      · exact absurd h h1
      · exact absurd h h2

/-- A `cr` for two keys whose second certificate is sent encrypted, so that its decryption shows the possession of the key,
counts as confirmed before the client has decrypted it. -/
theorem C227_mixed_refuted : ∃ (m : RMsg Nat String (Nat × Bytes) ExCert) (rs : List (Resp ExCert (Nat × Bytes)))
    (cs : List ExCert) (e : Nat × Bytes),
    processCr exHandler true (some .sig) m = .ok (rs, cs) ∧ (rs[1]?).map (·.pair) = some (.enc e) ∧
      usedImplicit m.body [⟨[1, 3, 6, 1, 5, 5, 7, 4, 13], some [5, 0]⟩] rs = true :=
  ⟨exMsg "cr" [exReq 0 5 (some (.signature 0 [5, 7, 5])), exReq 1 105 (some (.keyEnc (.subsequent true)))], _, _,
    (105, [1]), rfl, rfl, rfl⟩

/-- In an answer to an `ir` or a `kur` an encrypted certificate is never confirmed implicitly: there is one response only. -/
theorem C227_ir (h : HandlerEnv A K S R E C N X G I) (v : Bool) (m : RMsg A R E C) {rs : List (Resp C E)} {cs : List C}
    (hr : processIr h v m = .ok (rs, cs)) (hb : m.body = "ir" ∨ m.body = "kur") (info : List Itv)
    (hu : usedImplicit m.body info rs = true) : ∀ q ∈ rs, ∀ e, q.pair ≠ .enc e := by
  obtain ⟨_, hx⟩ := (C227_iff ..).1 hu
  have hn : m.body ∉ ["p10cr", "ccr", "krp"] := by rcases hb with hb | hb <;> (rw [hb]; decide)
  rcases hx with hx | ⟨_, hx⟩
  · exact absurd hx hn
  · have hlen : rs.length = 1 := by
      unfold processIr ipReply at hr
      rw [if_pos rfl] at hr
      cases hl : lwCmp m with
      | error e => rw [hl] at hr; cases hr
      | ok u =>
        rw [hl] at hr
        dsimp only at hr
        obtain ⟨_, h2, h3, _⟩ := processLoop_ok _ _ _ _ hr
        have : m.reqs.length = 1 := by
          unfold lwCmp at hl
          split at hl
          · cases hl
          · split at hl
            · rename_i hm; rw [hm]; rfl
            · cases hl
        omega
    intro q hq
    match rs, hlen with
    | [q'], _ =>
      rw [List.mem_singleton] at hq
      subst hq
      exact hx q rfl

example : usedImplicit (C := Nat) (E := Nat) "ir" [⟨[1, 3, 6, 1, 5, 5, 7, 4, 13], none⟩] [⟨0, .enc 1, none⟩] = false := rfl
example : usedImplicit (C := Nat) (E := Nat) "ir" [⟨[1, 3, 6, 1, 5, 5, 7, 4, 13], none⟩] [⟨0, .cert 1, none⟩] = true := rfl

end Verif.Ra
