import Verif.Ra.Update
import Verif.Ra.PopRefuted

/-!
# C161: key updates. C162: cross-certification
-/

namespace Verif.Ra

open Verif.CA hiding Bytes Msg
open Verif.Check

variable {A K S R E C N X G I : Type}

/-! ## Specification -/

/-- The request is signed with the key in its template. -/
def SignedWith (env : RaEnv A K S R E C N X G) (r : Req A R E) (k : K) : Prop :=
  KeyOf env r.tmpl k ∧ env.isVerify k = true ∧ env.isDsa k = false ∧
    ∃ alg sig, r.popo = some (.signature alg sig) ∧ env.verifyAlg k alg r.der sig = .ok ()

/-- The value is the identifier of a certificate with the serial number of `old`, issued by the subject of `ca`. -/
def NamesOld (u : UpEnv A K S R E C N X G I) (old ca : C) (d : Bytes) : Prop :=
  ∃ o i, u.decOld d = .ok (o, []) ∧ o.serial = some (u.serial old) ∧ o.issuer = some i ∧
    u.sameName i (u.ra.ch.subject ca) = .ok true

/-- Every control with the old certificate names the first certificate of the message, and the subject of the second as
its issuer. -/
def OldNamed (u : UpEnv A K S R E C N X G I) (m : RMsg A R E C) (r : Req A R E) : Prop :=
  ∀ l, u.ctls r.der = some l → ∃ old ca rest, m.certs = some (old :: ca :: rest) ∧
    ∀ x ∈ l, x.oid = [1, 3, 6, 1, 5, 5, 7, 5, 1, 5] → ∃ d, x.value = some d ∧ NamesOld u old ca d

/-- The key of the template is not the one of the first certificate of the message. -/
def OtherKey (env : RaEnv A K S R E C N X G) (m : RMsg A R E C) (k : K) : Prop :=
  ∃ old rest k', m.certs = some (old :: rest) ∧ env.certKey old = .ok k' ∧ k ≠ k'

/-! ## The parts -/

theorem oldMatches_ok (u : UpEnv A K S R E C N X G I) (cert ca : C) (o : OldId I) :
    oldMatches u cert ca o = .ok () ↔ ∃ i, o.serial = some (u.serial cert) ∧ o.issuer = some i ∧
      u.sameName i (u.ra.ch.subject ca) = .ok true := by
  obtain ⟨s, i⟩ := o
  unfold oldMatches
  cases s with
  | none => simp
  | some n =>
    cases i with
    | none => simp
    | some i =>
      dsimp only
      cases h : u.sameName i (u.ra.ch.subject ca) with
      | error e => simp [h]
      | ok b =>
        cases b with
        | false => simp [h]
        | true =>
          dsimp only
          by_cases hn : n = u.serial cert
          · simp [hn, h]
          · simp [hn]

theorem checkOldId_ok (u : UpEnv A K S R E C N X G I) (cert ca : C) (v : Option Bytes) :
    checkOldId u cert ca v = .ok () ↔ ∃ d, v = some d ∧ NamesOld u cert ca d := by
  unfold checkOldId NamesOld
  cases v with
  | none => simp
  | some d =>
    dsimp only
    cases h : u.decOld d with
    | error e => simp [h]
    | ok x =>
      obtain ⟨o, rest⟩ := x
      dsimp only
      by_cases hr : rest = []
      · rw [if_neg (not_not_intro hr), oldMatches_ok]
        constructor
        · rintro ⟨i, h1, h2, h3⟩
          exact ⟨d, rfl, o, i, by rw [h, hr], h1, h2, h3⟩
        · rintro ⟨d', hd, o', i, h0, h1, h2, h3⟩
          cases hd
          rw [h] at h0
          cases h0
          exact ⟨i, h1, h2, h3⟩
      · rw [if_pos hr]
        simp only [reduceCtorEq, false_iff]
        rintro ⟨d', hd, o', i, h0, _⟩
        cases hd
        rw [h] at h0
        cases h0
        exact hr rfl

theorem ctlLoop_ok (u : UpEnv A K S R E C N X G I) (cert ca : C) (l : List Ctl) :
    ctlLoop u cert ca l = .ok () ↔ ∀ x ∈ l, x.oid = [1, 3, 6, 1, 5, 5, 7, 5, 1, 5] → ∃ d, x.value = some d ∧ NamesOld u cert ca d := by
  induction l with
  | nil => simp [ctlLoop]
  | cons x l ih =>
    rw [List.forall_mem_cons, ← ih, ctlLoop]
    have hid : idOldCert = [1, 3, 6, 1, 5, 5, 7, 5, 1, 5] := rfl
    rw [hid]
    by_cases hx : x.oid = [1, 3, 6, 1, 5, 5, 7, 5, 1, 5]
    · rw [if_pos hx]
      simp only [hx, true_implies]
      rw [← checkOldId_ok]
      cases checkOldId u cert ca x.value <;> simp
    · rw [if_neg hx]
      simp [hx]

theorem kurControls_ok {u : UpEnv A K S R E C N X G I} {must : Bool} {m : RMsg A R E C} {i : Nat} {r : Req A R E}
    (hr : getReq m i = .ok r) :
    kurControls u none must m i = .ok () ↔ (must = true → u.ctls r.der ≠ none) ∧ OldNamed u m r := by
  unfold kurControls OldNamed
  rw [hr]
  dsimp only
  cases hc : u.ctls r.der with
  | none => cases must <;> simp
  | some l =>
    simp only [ne_eq, reduceCtorEq, not_false_eq_true, implies_true, true_and, Option.some.injEq, forall_eq']
    unfold kurCerts
    cases hm : m.certs with
    | none => simp
    | some cs =>
      match cs with
      | [] => simp
      | [c] => simp
      | c :: c' :: rest =>
        simp only [Option.some.injEq, List.cons.injEq]
        rw [ctlLoop_ok]
        constructor
        · exact fun h => ⟨c, c', rest, ⟨rfl, rfl, rfl⟩, h⟩
        · rintro ⟨_, _, _, ⟨rfl, rfl, rfl⟩, h⟩
          exact h

theorem verifyPopSig_ok {env : RaEnv A K S R E C N X G} {m : RMsg A R E C} {i : Nat} {r : Req A R E}
    (hr : getReq m i = .ok r) : verifyPopSig env m i = .ok () ↔ ∃ k, SignedWith env r k := by
  unfold verifyPopSig SignedWith
  rw [hr]
  dsimp only
  split
  · rename_i a sig hp
    rw [popSigned_ok]
    constructor
    · rintro ⟨k, h1, h2, h3, h4⟩
      exact ⟨k, h1, h2, h3, a, sig, hp, h4⟩
    · rintro ⟨k, h1, h2, h3, a', sig', hp', h4⟩
      rw [hp] at hp'
      cases hp'
      exact ⟨k, h1, h2, h3, h4⟩
  · rename_i h
    simp only [reduceCtorEq, false_iff]
    rintro ⟨k, _, _, _, a, sig, hp, _⟩
    exact h a sig hp

theorem isKga_true {env : RaEnv A K S R E C N X G} {m : RMsg A R E C} {i : Nat} {r : Req A R E}
    (hr : getReq m i = .ok r) : isKga env m i = .ok true ↔ r.popo = none ∧ ∃ k, kgaKey env r.tmpl = .ok k := by
  unfold isKga
  rw [hr]
  dsimp only
  cases r.popo with
  | some p => simp
  | none => cases kgaKey env r.tmpl <;> simp

theorem kgaKey_none {env : RaEnv A K S R E C N X G} {t : Tmpl A R} {k : K} (h : kgaKey env t = .ok k) (k' : K) :
    ¬ KeyOf env t k' := by
  rintro ⟨s, hs, hb, _⟩
  unfold kgaKey at h
  rw [hs] at h
  dsimp only at h
  cases ha : s.alg with
  | none => rw [ha] at h; cases h
  | some a =>
    rw [ha] at h
    dsimp only at h
    rw [if_pos hb] at h
    cases h

theorem kurPopo_ok {env : RaEnv A K S R E C N X G} {m : RMsg A R E C} {i : Nat} {r : Req A R E}
    (hr : getReq m i = .ok r) : kurPopo env m i = .ok () ↔ (∃ k, SignedWith env r k) ∨ isKga env m i = .ok true := by
  unfold kurPopo
  rw [hr]
  dsimp only
  have hk := isKga_true (env := env) hr
  have hv := verifyPopSig_ok (env := env) hr
  split
  · rename_i hp
    have : ¬ ∃ k, SignedWith env r k := by
      rintro ⟨k, _, _, _, a, sig, hp', _⟩
      rw [hp] at hp'
      cases hp'
    rw [or_iff_right this]
    cases isKga env m i with
    | error e => simp
    | ok b => cases b <;> simp
  · rename_i a sig hp
    rw [hv, hk]
    simp [hp]
  · rename_i p hp hs
    rw [hk]
    simp only [hs, reduceCtorEq, false_and, or_false, false_iff]
    rintro ⟨k, _, _, _, a, sig, hp', _⟩
    rw [hs] at hp'
    cases hp'
    exact hp a sig rfl

theorem lwCmp_kur {m : RMsg A R E C} (hb : m.body = "kur") :
    lwCmp m = .ok () ↔ ∃ r, m.reqs = [r] ∧ r.id = 0 := by
  unfold lwCmp
  rw [hb, if_neg (by decide)]
  split
  · rename_i r h
    by_cases h0 : r.id = 0
    · simp [h, h0]
    · simp [h, h0]
  · rename_i h
    simp only [reduceCtorEq, false_iff]
    rintro ⟨r, hr, _⟩
    exact h r hr

theorem kurFresh_signed [DecidableEq K] {env : RaEnv A K S R E C N X G} {allow : Bool} {m : RMsg A R E C}
    {r : Req A R E} {k : K} (hk : KeyOf env r.tmpl k) :
    kurFresh env allow m r = .ok () ↔ (allow = false → OtherKey env m k) := by
  unfold kurFresh OtherKey
  cases allow with
  | true => simp
  | false =>
    rw [(tmplKey_some env false r.tmpl k).2 hk]
    dsimp only
    rw [if_neg (by decide)]
    cases hm : m.certs with
    | none => simp
    | some l =>
      cases l with
      | nil => simp
      | cons c l =>
        dsimp only
        cases hc : env.certKey c with
        | error e => simp [hc]
        | ok k' =>
          dsimp only
          by_cases h : k = k'
          · simp [h, hc]
          · simp [h, hc]

theorem tmplKey_of_kga {env : RaEnv A K S R E C N X G} {t : Tmpl A R} {k : K} (h : kgaKey env t = .ok k) :
    tmplKey env false t = .ok none := by
  unfold kgaKey at h
  unfold tmplKey
  cases hs : t.key with
  | none => rfl
  | some s =>
    rw [hs] at h
    dsimp only at h ⊢
    cases ha : s.alg with
    | none => rw [ha] at h; cases h
    | some a =>
      rw [ha] at h
      dsimp only at h
      by_cases hb : s.bits = []
      · rw [if_pos hb]; rfl
      · rw [if_pos hb] at h; cases h

/-! ## C161 -/

/-- **C161 (exactly what is accepted, signed requests).** A key update with a signature is answered with a certificate
exactly if it is the only request, with the number 0, signed with the key in the template, which is another one than
the one of the certificate if this is demanded, and all identifiers of the old certificate name the first certificate of
the message. -/
theorem C161_signed_iff [DecidableEq K] (u : UpEnv A K S R E C N X G I) (must allow : Bool) (pvno : Int)
    (m : RMsg A R E C) (r : Req A R E) (alg : A) (sig : Bytes) (c : C) (hreqs : m.reqs = [r])
    (hp : r.popo = some (.signature alg sig)) :
    kupReply u must allow pvno m = .ok (⟨0, .cert c, none⟩, c) ↔
      m.body = "kur" ∧ r.id = 0 ∧ (∃ k, SignedWith u.ra r k ∧ (allow = false → OtherKey u.ra m k)) ∧
        (must = true → u.ctls r.der ≠ none) ∧ OldNamed u m r ∧ u.ra.build r.tmpl none = .ok c := by
  unfold kupReply
  by_cases hb : m.body = "kur"
  · rw [if_neg (not_not_intro hb)]
    have hr : getReq m 0 = .ok r := getReq_ok.2 ⟨by rw [hb]; decide, by rw [hreqs]; rfl⟩
    have hlw : lwCmp m = .ok () ↔ r.id = 0 := by
      rw [lwCmp_kur hb, hreqs]
      simp
    by_cases h0 : r.id = 0
    · rw [hlw.2 h0]
      dsimp only
      have hnk : isKga u.ra m 0 = .ok false := by
        unfold isKga
        rw [hr]
        dsimp only
        rw [hp]
      have hpop := kurPopo_ok (env := u.ra) hr
      rw [hnk] at hpop
      simp only [Except.ok.injEq, Bool.false_eq_true, or_false] at hpop
      by_cases hs : ∃ k, SignedWith u.ra r k
      · rw [hpop.2 hs, hr]
        dsimp only
        obtain ⟨k, hk⟩ := hs
        have huniq : ∀ P : K → Prop, (∃ k, SignedWith u.ra r k ∧ P k) ↔ P k := fun P =>
          ⟨fun ⟨k', h1, h2⟩ => keyOf_unique hk.1 h1.1 ▸ h2, fun h => ⟨k, hk, h⟩⟩
        rw [huniq]
        have hf := kurFresh_signed (allow := allow) (m := m) hk.1
        by_cases hfr : allow = false → OtherKey u.ra m k
        · rw [hf.2 hfr]
          dsimp only
          have hc := kurControls_ok (u := u) (must := must) hr
          by_cases hct : (must = true → u.ctls r.der ≠ none) ∧ OldNamed u m r
          · rw [hc.2 hct]
            dsimp only
            rw [if_neg (not_not_intro h0)]
            unfold kurIssue
            rw [hnk]
            dsimp only
            cases hbd : u.ra.build r.tmpl none with
            | error e => simp
            | ok c' =>
              simp only [mkResp, Except.ok.injEq, Prod.mk.injEq, Resp.mk.injEq, CertOrEnc.cert.injEq, true_and, and_true,
                and_self]
              exact ⟨fun h => ⟨hb, h0, hfr, hct.1, hct.2, h⟩, fun h => h.2.2.2.2.2⟩
          · have : ∃ e, kurControls u none must m 0 = .error e := by
              cases hx : kurControls u none must m 0 with
              | error e => exact ⟨e, rfl⟩
              | ok x => exact absurd (hc.1 (by rw [hx])) hct
            obtain ⟨e, he⟩ := this
            rw [he]
            simp only [reduceCtorEq, false_iff]
            exact fun h => hct ⟨h.2.2.2.1, h.2.2.2.2.1⟩
        · have : ∃ e, kurFresh u.ra allow m r = .error e := by
            cases hx : kurFresh u.ra allow m r with
            | error e => exact ⟨e, rfl⟩
            | ok x => exact absurd (hf.1 (by rw [hx])) hfr
          obtain ⟨e, he⟩ := this
          rw [he]
          simp only [reduceCtorEq, false_iff]
          exact fun h => hfr h.2.2.1
      · have : ∃ e, kurPopo u.ra m 0 = .error e := by
          cases hx : kurPopo u.ra m 0 with
          | error e => exact ⟨e, rfl⟩
          | ok x => exact absurd (hpop.1 (by rw [hx])) hs
        obtain ⟨e, he⟩ := this
        rw [he]
        simp only [reduceCtorEq, false_iff]
        rintro ⟨_, _, ⟨k, hk, _⟩, _⟩
        exact hs ⟨k, hk⟩
    · have : ∃ e, lwCmp m = .error e := by
        cases hx : lwCmp m with
        | error e => exact ⟨e, rfl⟩
        | ok x => exact absurd (hlw.1 (by rw [hx])) h0
      obtain ⟨e, he⟩ := this
      rw [he]
      simp only [reduceCtorEq, false_iff]
      exact fun h => h0 h.2.1
  · rw [if_pos hb]
    simp only [reduceCtorEq, false_iff]
    exact fun h => hb h.1

/-- **C161 (what an answered key update has).** Every certificate from a key update is for a key that signed the request,
or for a generated key whose private part is sent with it; the request is the only one, has the number 0, which the
response has too; an identifier of the old certificate names the first certificate of the message. -/
theorem C161_update_partial [DecidableEq K] (u : UpEnv A K S R E C N X G I) (hl : Laws u.ra) (must allow : Bool)
    (pvno : Int) (m : RMsg A R E C) (resp : Resp C E) (c : C) (h : kupReply u must allow pvno m = .ok (resp, c)) :
    ∃ r, m.reqs = [r] ∧ r.id = 0 ∧ resp.id = 0 ∧ resp.pair = .cert c ∧ OldNamed u m r ∧
      (must = true → u.ctls r.der ≠ none) ∧
      ((∃ k, SignedWith u.ra r k ∧ u.ra.certKey c = .ok k ∧ resp.priv = none ∧ (allow = false → OtherKey u.ra m k)) ∨
        (r.popo = none ∧ (∀ k, ¬ KeyOf u.ra r.tmpl k) ∧ pvno = 3 ∧
          ∃ p, u.ra.kga r.tmpl = .ok (c, p) ∧ resp.priv = some p)) := by
  unfold kupReply at h
  by_cases hb : m.body = "kur"
  swap
  · rw [if_pos hb] at h; cases h
  rw [if_neg (not_not_intro hb)] at h
  cases hlw : lwCmp m with
  | error e => rw [hlw] at h; cases h
  | ok x =>
    rw [hlw] at h
    dsimp only at h
    obtain ⟨r, hreqs, h0⟩ := (lwCmp_kur hb).1 hlw
    have hr : getReq m 0 = .ok r := getReq_ok.2 ⟨by rw [hb]; decide, by rw [hreqs]; rfl⟩
    cases hpop : kurPopo u.ra m 0 with
    | error e => rw [hpop] at h; cases h
    | ok x =>
      rw [hpop, hr] at h
      dsimp only at h
      cases hf : kurFresh u.ra allow m r with
      | error e => rw [hf] at h; cases h
      | ok x =>
        rw [hf] at h
        dsimp only at h
        cases hc : kurControls u none must m 0 with
        | error e => rw [hc] at h; cases h
        | ok x =>
          rw [hc] at h
          dsimp only at h
          rw [if_neg (not_not_intro h0)] at h
          obtain ⟨hmust, hold⟩ := (kurControls_ok hr).1 hc
          unfold kurIssue at h
          cases hk : isKga u.ra m 0 with
          | error e => rw [hk] at h; cases h
          | ok b =>
            rw [hk] at h
            cases b with
            | true =>
              dsimp only at h
              obtain ⟨hp, kg, hkg⟩ := (isKga_true hr).1 hk
              unfold kgaCmp at h
              by_cases hv : pvno = 3
              swap
              · rw [if_pos hv] at h; cases h
              rw [if_neg (not_not_intro hv), hreqs, if_neg (by simp), hk, if_neg (by rw [hb]; decide), hr] at h
              dsimp only at h
              cases hg : u.ra.kga r.tmpl with
              | error e => rw [hg] at h; cases h
              | ok cp =>
                obtain ⟨c', p⟩ := cp
                rw [hg] at h
                cases h
                exact ⟨r, hreqs, h0, h0, rfl, hold, hmust, .inr ⟨hp, kgaKey_none hkg, hv, p, hg, rfl⟩⟩
            | false =>
              dsimp only at h
              cases hbd : u.ra.build r.tmpl none with
              | error e => rw [hbd] at h; cases h
              | ok c' =>
                rw [hbd] at h
                cases h
                rcases (kurPopo_ok (env := u.ra) hr).1 hpop with ⟨k, hs⟩ | hkg
                · obtain ⟨k', hk', hck⟩ := hl.built _ _ _ hbd
                  cases keyOf_unique hs.1 hk'
                  exact ⟨r, hreqs, h0, rfl, rfl, hold, hmust, .inl ⟨k, hs, hck, rfl, (kurFresh_signed hs.1).1 hf⟩⟩
                · rw [hkg] at hk; cases hk

/-- **C161 (the signer is known).** The mock CA answers a key update only if it has issued the first certificate of the
message, where there is one; a MAC with a password is never accepted. -/
theorem C161_known [DecidableEq K] [DecidableEq C] [DecidableEq N] (u : UpEnv A K S R E C N X G I) (ext : Option X)
    (allow : Bool) (issued : List C) (p : Option ProtType) (verified : Except PyErr Unit) (pvno : Int)
    (m : RMsg A R E C) (out : List (Resp C E) × List C)
    (h : processKur u ext allow issued p verified pvno m = .ok out) :
    (∃ q, p = some q ∧ q ≠ .mac) ∧ verified = .ok () ∧ (∀ l, m.certs = some l → ∃ c rest, l = c :: rest ∧ c ∈ issued) ∧
      (p = some .kem → m.certs ≠ none) := by
  unfold processKur at h
  cases p with
  | none => cases h
  | some p =>
    dsimp only at h
    by_cases hp : p = .mac
    · rw [if_pos hp] at h; cases h
    rw [if_neg hp] at h
    cases hs : signerIssued issued p m.certs with
    | error e => rw [hs] at h; cases h
    | ok x =>
      rw [hs] at h
      dsimp only at h
      cases verified with
      | error e => cases h
      | ok x =>
        dsimp only at h
        refine ⟨⟨p, rfl, hp⟩, rfl, ?_, ?_⟩
        · intro l hl
          unfold signerIssued at hs
          rw [if_neg hp, hl] at hs
          cases l with
          | nil => cases hs
          | cons c rest =>
            dsimp only at hs
            by_cases hc : c ∈ issued
            · exact ⟨c, rest, rfl, hc⟩
            · rw [if_neg hc] at hs; cases hs
        · intro hk
          cases hk
          rw [if_pos rfl] at h
          intro hn
          rw [hn] at h
          cases h

/-- **C161 (one request).** Every answered key update has exactly one request, with the number 0. -/
theorem C161_single [DecidableEq K] [DecidableEq C] [DecidableEq N] (u : UpEnv A K S R E C N X G I) (ext : Option X)
    (allow : Bool) (issued : List C) (p : Option ProtType) (verified : Except PyErr Unit) (pvno : Int)
    (m : RMsg A R E C) (out : List (Resp C E) × List C) (hb : m.body = "kur")
    (h : processKur u ext allow issued p verified pvno m = .ok out) : ∃ r, m.reqs = [r] ∧ r.id = 0 := by
  unfold processKur at h
  cases p with
  | none => cases h
  | some p =>
    dsimp only at h
    by_cases hp : p = .mac
    · rw [if_pos hp] at h; cases h
    rw [if_neg hp] at h
    cases hs : signerIssued issued p m.certs with
    | error e => rw [hs] at h; cases h
    | ok x =>
      rw [hs] at h
      dsimp only at h
      cases verified with
      | error e => cases h
      | ok x =>
        dsimp only at h
        refine (lwCmp_kur hb).1 ?_
        by_cases hk : p = .kem
        · rw [if_pos hk] at h
          split at h
          · cases h
          unfold ipReply at h
          rw [if_pos rfl] at h
          cases hl : lwCmp m with
          | error e => rw [hl] at h; cases h
          | ok x => rfl
        · rw [if_neg hk] at h
          cases hl : lwCmp m with
          | error e =>
            unfold kupReply at h
            rw [if_neg (not_not_intro hb), hl] at h
            cases h
          | ok x => rfl

/-- **C161 (the generated key).** The answer with a generated key is exactly the one to a message of version 3 with one request
of the kinds `ir`, `cr` and `kur`, without a proof of possession and with a key to generate. -/
theorem C161_generated_iff (env : RaEnv A K S R E C N X G) (pvno : Int) (m : RMsg A R E C) (id : Int) (i : Issued C E) :
    kgaCmp env pvno m = .ok (id, i) ↔ pvno = 3 ∧ (m.body = "ir" ∨ m.body = "cr" ∨ m.body = "kur") ∧
      ∃ r, m.reqs = [r] ∧ r.id = id ∧ r.popo = none ∧ (∃ k, kgaKey env r.tmpl = .ok k) ∧
        ∃ c p, env.kga r.tmpl = .ok (c, p) ∧ i = { cert := c, priv := some p } := by
  unfold kgaCmp
  by_cases hv : pvno = 3
  swap
  · rw [if_pos hv]; simp [hv]
  rw [if_neg (not_not_intro hv)]
  by_cases hl : m.reqs.length = 1
  swap
  · rw [if_pos hl]
    simp only [reduceCtorEq, false_iff]
    rintro ⟨-, -, r, hr, -⟩
    exact hl (by rw [hr]; rfl)
  rw [if_neg (not_not_intro hl)]
  obtain ⟨r, hr⟩ := List.length_eq_one_iff.1 hl
  cases hg : getReq m 0 with
  | error e =>
    have : isKga env m 0 = .error e := by unfold isKga; rw [hg]
    rw [this]
    simp only [reduceCtorEq, false_iff]
    rintro ⟨-, hb, r', hr', -⟩
    have : getReq m 0 = .ok r' := getReq_ok.2 ⟨by rcases hb with h | h | h <;> rw [h] <;> decide, by rw [hr']; rfl⟩
    rw [this] at hg
    cases hg
  | ok r' =>
    obtain ⟨hb, hr'⟩ := getReq_ok.1 hg
    rw [hr] at hr'
    cases hr'
    have hk := isKga_true (env := env) hg
    cases hq : isKga env m 0 with
    | error e =>
      rw [hq] at hk
      simp only [reduceCtorEq, false_iff] at hk ⊢
      rintro ⟨-, -, r', hr', -, hp, hkk, -⟩
      rw [hr] at hr'
      cases hr'
      exact hk ⟨hp, hkk⟩
    | ok b =>
      rw [hq] at hk
      cases b with
      | false =>
        simp only [Except.ok.injEq, reduceCtorEq, Bool.false_eq_true, false_iff] at hk ⊢
        rintro ⟨-, -, r', hr', -, hp, hkk, -⟩
        rw [hr] at hr'
        cases hr'
        exact hk ⟨hp, hkk⟩
      | true =>
        dsimp only
        obtain ⟨hp, hkk⟩ := hk.1 rfl
        by_cases hbb : m.body = "ir" ∨ m.body = "cr" ∨ m.body = "kur"
        · rw [if_neg (by rcases hbb with h | h | h <;> rw [h] <;> decide)]
          simp only [hv, hbb, hr, hp, true_and, List.cons.injEq, and_true, exists_eq_left']
          constructor
          · intro h
            cases hc : env.kga r.tmpl with
            | error e => rw [hc] at h; cases h
            | ok x =>
              obtain ⟨c, p⟩ := x
              rw [hc] at h
              cases h
              exact ⟨rfl, hkk, c, p, rfl, rfl⟩
          · rintro ⟨rfl, -, c, p, hc, rfl⟩
            rw [hc]
        · rw [if_pos]
          · simp [hbb]
          · simp only [List.mem_cons, List.not_mem_nil, or_false] at hb ⊢
            rcases hb with h | h | h | h
            · exact absurd (.inl h) hbb
            · exact absurd (.inr (.inl h)) hbb
            · exact absurd (.inr (.inr h)) hbb
            · rw [h]; decide

/-! ## C161: disagreements -/

/-- **C161 (refuted).** The size of RSA keys, DH keys, the parameters of the algorithm, the subject and the further
extensions of the CA are not looked at in a key update, other than in the other requests: `validate_cert_template_public_key`
is not called, and the result does not depend on them. -/
theorem C161_unchecked_refuted [DecidableEq K] (u : UpEnv A K S R E C N X G I) (must allow : Bool) (pvno : Int)
    (m : RMsg A R E C) (rsa : K → Option Nat) (dh pq stf : K → Bool) (par : A → Bool) (named : R → Bool)
    (cons : A → K → Except PyErr Unit) (st : K → A → Except PyErr Unit) (ctl : Bytes → Except PyErr Unit) :
    kupReply
        { u with
          ra :=
            { u.ra with
              rsaBits := rsa, isDh := dh, isPq := pq, isStfl := stf, hasParams := par, named := named, consistent := cons,
              stfl := st, controls := ctl } }
        must allow pvno m
      = kupReply u must allow pvno m := by
  generalize hu' : ({ u with
          ra :=
            { u.ra with
              rsaBits := rsa, isDh := dh, isPq := pq, isStfl := stf, hasParams := par, named := named, consistent := cons,
              stfl := st, controls := ctl } } : UpEnv A K S R E C N X G I) = u'
  have hc : ∀ cert ca l, ctlLoop u' cert ca l = ctlLoop u cert ca l := by
    intro cert ca l
    induction l with
    | nil => rfl
    | cons x l ih =>
      rw [ctlLoop, ctlLoop, ih]
      subst hu'
      rfl
  have hk : kurControls u' none must m 0 = kurControls u none must m 0 := by
    unfold kurControls
    simp only [hc]
    subst hu'
    rfl
  unfold kupReply
  rw [hk]
  subst hu'
  rfl

/-- The environment for the examples: a control is the number of bytes before the last; its value has the serial number and
the issuer. -/
def exUp : UpEnv Nat Nat Nat String (Nat × Bytes) ExCert Nat Nat Unit Nat where
  ra := exRaEnv
  ctls := fun d =>
    match d with
    | [_, _, n, i] => some [⟨idOldCert, some [n, i]⟩]
    | [_, _, _] => some [⟨[1], none⟩]
    | _ => none
  decOld := fun d =>
    match d with
    | n :: i :: rest => .ok (⟨some n.toNat, some i.toNat⟩, rest)
    | _ => .error .badAsn1Data
  sameName := fun i n => .ok (decide (i = n))
  serial := fun c => c.key
  info := fun r => ⟨some (if r = "one" then 0 else 2), true, true, true, false, true, false, true,
    if r = "usage" then some (.ok [true]) else if r = "ee" then some (.ok [false, false, false, false, false, true]) else none,
    if r = "ee" then some false else none⟩
  addUsage := fun r => r ++ "+usage"
  addBasic := fun r => r ++ "+ca"

/-- A signed key update with the identifier of the old certificate. -/
def exKur (old ca : ExCert) (n i : UInt8) : RMsg Nat String (Nat × Bytes) ExCert :=
  { body := "kur", reqs := [⟨0, exTmpl 5, some (.signature 0 [5, 7, n, i, 5]), [5, 7, n, i], none⟩],
    certs := some [old, ca] }

example : kupReply exUp true false 3 (exKur ⟨"A", 4, none, false⟩ ⟨"CA", 9, none, false⟩ 4 9)
    = .ok (⟨0, .cert ⟨"A", 5, none, false⟩, none⟩, ⟨"A", 5, none, false⟩) := by decide +kernel

example : kupReply exUp true false 3 (exKur ⟨"A", 4, none, false⟩ ⟨"CA", 9, none, false⟩ 4 8) = .error .badCertId := by
  decide +kernel

example : kupReply exUp true false 3 (exKur ⟨"A", 4, none, false⟩ ⟨"CA", 9, none, false⟩ 3 9) = .error .badCertId := by
  decide +kernel

/-- The same key is refused, if this is demanded. -/
example : kupReply exUp true false 3 (exKur ⟨"A", 5, none, false⟩ ⟨"CA", 9, none, false⟩ 5 9) = .error .badCertTemplate := by
  decide +kernel

/-- A key is generated. -/
example : kupReply exUp false true 3 { body := "kur", reqs := [⟨0, ⟨none, "A"⟩, none, [], none⟩], certs := none }
    = .ok (⟨0, .cert ⟨"A", 50, none, false⟩, some (50, [])⟩, ⟨"A", 50, none, false⟩) := by decide +kernel

/-- **C161 (refuted).** The issuer in the identifier of the old certificate is compared with the subject of the second
certificate of the message, which the sender chooses, not with the one of the CA: an identifier with a wrong issuer is
accepted. With the certificate of the CA as an argument it would be refused. -/
theorem C161_issuer_refuted : ∃ (m : RMsg Nat String (Nat × Bytes) ExCert) (ca other old : ExCert)
    (out : Resp ExCert (Nat × Bytes) × ExCert),
    m.certs = some [old, other] ∧ exUp.ra.ch.subject other ≠ exUp.ra.ch.subject ca ∧
      kupReply exUp true false 3 m = .ok out ∧ kurControls exUp (some ca) true m 0 = .error .badCertId :=
  ⟨exKur ⟨"A", 4, none, false⟩ ⟨"other", 8, none, false⟩ 4 8, ⟨"CA", 9, none, false⟩, ⟨"other", 8, none, false⟩,
    ⟨"A", 4, none, false⟩, _, rfl, by decide, rfl, by decide +kernel⟩

/-- **C161 (refuted).** `must_have_controls` is satisfied by any control: no identifier of the old certificate is needed. -/
theorem C161_controls_refuted : ∃ (m : RMsg Nat String (Nat × Bytes) ExCert) (r : Req Nat String (Nat × Bytes))
    (l : List Ctl) (out : Resp ExCert (Nat × Bytes) × ExCert),
    m.reqs = [r] ∧ exUp.ctls r.der = some l ∧ (∀ x ∈ l, x.oid ≠ [1, 3, 6, 1, 5, 5, 7, 5, 1, 5]) ∧ kupReply exUp true false 3 m = .ok out :=
  ⟨{ body := "kur", reqs := [⟨0, exTmpl 5, some (.signature 0 [5, 7, 1, 5]), [5, 7, 1], none⟩],
     certs := some [⟨"A", 4, none, false⟩, ⟨"CA", 9, none, false⟩] }, _, [⟨[1], none⟩], _, rfl, rfl, by decide, rfl⟩

/-- **C161 (refuted).** The new certificate may be for another subject than the one that is updated. -/
theorem C161_subject_refuted : ∃ (m : RMsg Nat String (Nat × Bytes) ExCert) (old ca : ExCert)
    (out : Resp ExCert (Nat × Bytes) × ExCert),
    m.certs = some [old, ca] ∧ kupReply exUp true false 3 m = .ok out ∧ out.2.name ≠ old.name :=
  ⟨exKur ⟨"B", 4, none, false⟩ ⟨"CA", 9, none, false⟩ 4 9, ⟨"B", 4, none, false⟩, ⟨"CA", 9, none, false⟩, _, rfl, rfl, by decide⟩

/-- **C161 (refuted).** The mock CA does not need the identifier of the old certificate in a key update that is signed: a request
without any controls is answered, which `must_have_controls` does not allow. -/
theorem C161_none_refuted : ∃ (m : RMsg Nat String (Nat × Bytes) ExCert) (own c : ExCert)
    (rs : List (Resp ExCert (Nat × Bytes))) (r : Req Nat String (Nat × Bytes)),
    m.reqs = [r] ∧ exUp.ctls r.der = none ∧ m.certs = some [own] ∧
      processKur exUp none false [own] (some .sig) (.ok ()) 3 m = .ok (rs, [c]) ∧
      kupReply exUp true false 3 m = .error .badRequest :=
  ⟨{ body := "kur", reqs := [exReq 0 5 (some (.signature 0 [5, 7, 5]))], certs := some [⟨"own", 4, none, false⟩] },
    ⟨"own", 4, none, false⟩, ⟨"A", 5, none, false⟩, _, _, rfl, by decide +kernel, rfl, rfl, by decide +kernel⟩

/-- **C161 (refuted).** In a message protected with encapsulation, `raVerified` is accepted from every holder of a
certificate: they get one for any key, with any subject. -/
theorem C161_kem_refuted : ∃ (m : RMsg Nat String (Nat × Bytes) ExCert) (own c : ExCert)
    (rs : List (Resp ExCert (Nat × Bytes))) (r : Req Nat String (Nat × Bytes)),
    m.reqs = [r] ∧ r.popo = some .raVerified ∧ m.certs = some [own] ∧ own.ra = false ∧
      processKur exUp none false [own] (some .kem) (.ok ()) 3 m = .ok (rs, [c]) ∧
      processKur exUp none false [own] (some .sig) (.ok ()) 3 m = .error .badPOP ∧
      ipReply exUp.ra {} true m = .error .notAuthorized :=
  ⟨{ body := "kur", reqs := [exReq 0 6 (some .raVerified)], certs := some [⟨"own", 4, none, false⟩] },
    ⟨"own", 4, none, false⟩, ⟨"A", 6, none, false⟩, _, _, rfl, rfl, rfl, rfl, rfl, by decide +kernel, by decide +kernel⟩

/-- **C161 (refuted).** The extensions of the CA are in the certificate of a key update protected with encapsulation, and not
in one protected by a signature. -/
theorem C161_extensions_refuted [DecidableEq K] [DecidableEq C] [DecidableEq N] (u : UpEnv A K S R E C N X G I)
    (ext ext' : Option X) (allow : Bool) (issued : List C) (verified : Except PyErr Unit) (pvno : Int) (m : RMsg A R E C) :
    processKur u ext allow issued (some .sig) verified pvno m = processKur u ext' allow issued (some .sig) verified pvno m :=
  rfl

example : processKur exUp (some 3) false [⟨"own", 4, none, false⟩] (some .kem) (.ok ()) 3
    { body := "kur", reqs := [exReq 0 5 (some (.signature 0 [5, 7, 5]))], certs := some [⟨"own", 4, none, false⟩] }
    = .ok ([⟨0, .cert ⟨"A", 5, some 3, false⟩, none⟩], [⟨"A", 5, some 3, false⟩]) := by decide +kernel

/-! ## C162 -/

/-- The template of a cross-certification request has what it must have. -/
structure CcrComplete (i : CcrInfo) : Prop where
  version : ∃ v, i.version = some v ∧ v ≠ 1
  times : i.notBefore = true ∧ i.notAfter = true
  issuer : i.issuer = true ∨ i.issuerAlt = true
  subject : i.subject = true ∨ i.subjectAlt = true
  alg : i.signingAlg = true

theorem ccrTmpl_ok (i : CcrInfo) : ccrTmpl i = .ok () ↔ CcrComplete i := by
  obtain ⟨v, nb, na, is, ia, su, sa, al, us, bc⟩ := i
  constructor
  · intro h
    unfold ccrTmpl at h
    cases v with
    | none => cases h
    | some v =>
      dsimp only at h
      by_cases hv : v = 1
      · rw [if_pos hv] at h; cases h
      rw [if_neg hv] at h
      cases nb <;> cases na <;> cases is <;> cases ia <;> cases su <;> cases sa <;> cases al <;> simp at h
      all_goals exact ⟨⟨v, rfl, hv⟩, ⟨rfl, rfl⟩, by simp, by simp, rfl⟩
  · rintro ⟨⟨v', rfl, hv⟩, ⟨h1, h2⟩, h3, h4, h5⟩
    dsimp only at h1 h2 h3 h4 h5
    subst h1 h2 h5
    unfold ccrTmpl
    dsimp only
    rw [if_neg hv, if_neg (by decide), if_neg (by decide), if_neg, if_neg, if_neg (by decide)]
    · rcases h4 with h | h <;> simp [h]
    · rcases h3 with h | h <;> simp [h]

theorem ccrKey_ok {env : RaEnv A K S R E C N X G} {t : Tmpl A R} :
    ccrKey env t = .ok () ↔ ∃ k, KeyOf env t k ∧ env.isVerify k = true := by
  unfold ccrKey
  cases hk : tmplKey env true t with
  | error e =>
    simp only [reduceCtorEq, false_iff]
    rintro ⟨k, h, _⟩
    rw [(tmplKey_some env true t k).2 h] at hk
    cases hk
  | ok o =>
    cases o with
    | none =>
      simp only [reduceCtorEq, false_iff]
      rintro ⟨k, h, _⟩
      rw [(tmplKey_some env true t k).2 h] at hk
      cases hk
    | some k =>
      have hk' := (tmplKey_some env true t k).1 hk
      have : (∃ k, KeyOf env t k ∧ env.isVerify k = true) ↔ env.isVerify k = true :=
        ⟨fun ⟨k', h, hp⟩ => keyOf_unique hk' h ▸ hp, fun hp => ⟨k, hk', hp⟩⟩
      rw [this]
      cases h : env.isVerify k <;> simp [h]

/-- The template that a cross-certificate is built from: the key usage and the basic constraints are added, if absent. -/
def Completed (u : UpEnv A K S R E C N X G I) (t t' : Tmpl A R) : Prop :=
  ∃ r1, (match (u.info t.rest).usage with
      | none => r1 = u.addUsage t.rest
      | some x => r1 = t.rest ∧ ∃ b, x = .ok b ∧ Has keyUsageNames b "keyCertSign".toList) ∧
    t' = { t with rest := if (u.info r1).basic = none then u.addBasic r1 else r1 }

theorem ensure_ok (u : UpEnv A K S R E C N X G I) (t t' : Tmpl A R) :
    (∃ t1, ensureUsage u t = .ok t1 ∧ t' = ensureBasic u t1) ↔ Completed u t t' := by
  have hb : ∀ r1, ensureBasic u { t with rest := r1 }
      = { t with rest := if (u.info r1).basic = none then u.addBasic r1 else r1 } := by
    intro r1
    unfold ensureBasic
    dsimp only
    cases h : (u.info r1).basic <;> simp
  unfold Completed ensureUsage
  cases hu : (u.info t.rest).usage with
  | none =>
    dsimp only
    constructor
    · rintro ⟨t1, h1, h2⟩
      cases h1
      exact ⟨_, rfl, by rw [h2, hb]⟩
    · rintro ⟨r1, h1, h2⟩
      exact ⟨_, rfl, by rw [h2, hb, h1]⟩
  | some x =>
    cases x with
    | error e =>
      simp
    | ok b =>
      dsimp only
      have hm := mem_setNames keyUsageNames b "keyCertSign".toList
      by_cases h : "keyCertSign".toList ∈ setNames keyUsageNames b
      · rw [if_pos h]
        constructor
        · rintro ⟨t1, h1, h2⟩
          cases h1
          refine ⟨t.rest, ⟨rfl, b, rfl, ?_⟩, by rw [h2, ← hb]⟩
          exact hm.1 h
        · rintro ⟨r1, ⟨h1, _⟩, h2⟩
          exact ⟨t, rfl, by rw [h2, ← hb, h1]⟩
      · rw [if_neg h]
        simp only [reduceCtorEq, false_and, exists_false, false_iff]
        rintro ⟨r1, ⟨_, b', hb', hh⟩, _⟩
        cases hb'
        exact h (hm.2 hh)

/-- **C162 (exactly what is accepted).** A cross-certification request is answered with a certificate exactly if it is
the only one in a `ccr` body, has the number 0, is signed with the key in its template, whose template has a version
other than 2, both times, an issuer, a subject and an algorithm, and a key usage, if there is one, with the signing of
certificates; the certificate is built from the template with the usage and the basic constraints added where absent. -/
theorem C162_iff (u : UpEnv A K S R E C N X G I) (ext : Option X) (m : RMsg A R E C) (c : C) :
    ccpReply u ext m = .ok (⟨0, .cert c, none⟩, c) ↔
      m.body = "ccr" ∧ ∃ r, m.reqs = [r] ∧ r.id = 0 ∧ (∃ k, SignedWith u.ra r k) ∧ CcrComplete (u.info r.tmpl.rest) ∧
        ∃ t, Completed u r.tmpl t ∧ u.ra.build t ext = .ok c := by
  unfold ccpReply
  by_cases hb : m.body = "ccr"
  swap
  · rw [if_pos hb]
    simp only [reduceCtorEq, false_iff]
    exact fun h => hb h.1
  rw [if_neg (not_not_intro hb)]
  match hreqs : m.reqs with
  | [] => simp
  | r :: r' :: l => simp
  | [r] =>
    rw [if_neg (by simp)]
    simp only [hb, List.cons.injEq, and_true, true_and, exists_eq_left']
    have hr : getReq m 0 = .ok r := getReq_ok.2 ⟨by rw [hb]; decide, by rw [hreqs]; rfl⟩
    have hone : ∀ c, ccrOne u ext m = .ok c ↔ r.id = 0 ∧ (∃ k, SignedWith u.ra r k) ∧ CcrComplete (u.info r.tmpl.rest) ∧
        ∃ t, Completed u r.tmpl t ∧ u.ra.build t ext = .ok c := by
      intro c
      have hissue : ccrIssue u ext r.tmpl = .ok c ↔ CcrComplete (u.info r.tmpl.rest) ∧
          ∃ t, Completed u r.tmpl t ∧ u.ra.build t ext = .ok c := by
        unfold ccrIssue
        rw [← ccrTmpl_ok]
        cases ht : ccrTmpl (u.info r.tmpl.rest) with
        | error e => simp
        | ok x =>
          dsimp only
          simp only [← ensure_ok, true_and]
          cases he : ensureUsage u r.tmpl with
          | error e => simp
          | ok t1 => simp
      have hpopo : ccrPopo u.ra m r = .ok () ↔ r.id = 0 ∧ ∃ k, SignedWith u.ra r k := by
        unfold ccrPopo
        split
        · rename_i a sig hp
          rw [← verifyPopSig_ok hr]
          have hnk : isKga u.ra m 0 = .ok false := by
            unfold isKga
            rw [hr]
            dsimp only
            rw [hp]
          rw [hnk]
          cases verifyPopSig u.ra m 0 with
          | error e => simp
          | ok x =>
            by_cases h0 : r.id = 0 <;> simp [h0]
        · rename_i h
          simp only [reduceCtorEq, false_iff]
          rintro ⟨_, k, _, _, _, a, sig, hp, _⟩
          exact h a sig hp
      unfold ccrOne
      rw [hr]
      dsimp only
      have hkey := ccrKey_ok (env := u.ra) (t := r.tmpl)
      cases hk : ccrKey u.ra r.tmpl with
      | error e =>
        simp only [reduceCtorEq, false_iff]
        rintro ⟨_, ⟨k, hs⟩, _⟩
        rw [hkey.2 ⟨k, hs.1, hs.2.1⟩] at hk
        cases hk
      | ok x =>
        dsimp only
        rw [← and_assoc, ← hpopo, ← hissue]
        cases ccrPopo u.ra m r <;> simp
    rw [← hone]
    cases ccrOne u ext m with
    | error e => simp
    | ok c' => simp [mkResp]

/-- **C162 (the certificate of a CA).** If adding the extensions does that, the template of every cross-certificate allows
the signing of certificates and has basic constraints, and the certificate is for the key that signed the request. -/
theorem C162_ca_partial (u : UpEnv A K S R E C N X G I) (hl : Laws u.ra)
    (hu : ∀ r, ∃ b, (u.info (u.addUsage r)).usage = some (.ok b) ∧ Has keyUsageNames b "keyCertSign".toList)
    (hub : ∀ r, (u.info (u.addBasic r)).usage = (u.info r).usage ∧ (u.info (u.addBasic r)).basic = some true)
    (ext : Option X) (m : RMsg A R E C) (c : C) (resp : Resp C E) (h : ccpReply u ext m = .ok (resp, c)) :
    resp = ⟨0, .cert c, none⟩ ∧ ∃ r k t, m.reqs = [r] ∧ SignedWith u.ra r k ∧ u.ra.certKey c = .ok k ∧
      u.ra.build t ext = .ok c ∧ t.key = r.tmpl.key ∧ (u.info t.rest).basic ≠ none ∧
      ∃ b, (u.info t.rest).usage = some (.ok b) ∧ Has keyUsageNames b "keyCertSign".toList := by
  have hresp : resp = ⟨0, .cert c, none⟩ := by
    unfold ccpReply at h
    by_cases hb : m.body ≠ "ccr"
    · rw [if_pos hb] at h; cases h
    rw [if_neg hb] at h
    by_cases hn : m.reqs.length ≠ 1
    · rw [if_pos hn] at h; cases h
    rw [if_neg hn] at h
    cases ho : ccrOne u ext m with
    | error e => rw [ho] at h; cases h
    | ok c' => rw [ho] at h; cases h; rfl
  refine ⟨hresp, ?_⟩
  rw [hresp] at h
  obtain ⟨_, r, hr, _, ⟨k, hs⟩, _, t, ht, hb⟩ := (C162_iff u ext m c).1 h
  obtain ⟨r1, h1, h2⟩ := ht
  have htk : t.key = r.tmpl.key := by rw [h2]
  obtain ⟨k', ⟨s, hs1, hs2, hs3⟩, hck⟩ := hl.built _ _ _ hb
  have : k' = k := keyOf_unique ⟨s, htk ▸ hs1, hs2, hs3⟩ hs.1
  subst this
  have husage : ∃ b, (u.info r1).usage = some (.ok b) ∧ Has keyUsageNames b "keyCertSign".toList := by
    cases hus : (u.info r.tmpl.rest).usage with
    | none =>
      rw [hus] at h1
      dsimp only at h1
      rw [h1]
      exact hu _
    | some x =>
      rw [hus] at h1
      dsimp only at h1
      obtain ⟨h1, b, hx, hh⟩ := h1
      rw [h1, hus, hx]
      exact ⟨b, rfl, hh⟩
  refine ⟨r, k', t, hr, hs, hck, hb, htk, ?_, ?_⟩
  · rw [h2]
    dsimp only
    split
    · rw [(hub r1).2]; nofun
    · assumption
  · rw [h2]
    dsimp only
    split
    · rw [(hub r1).1]; exact husage
    · exact husage

def exCcr (name : String) (k : UInt8) : RMsg Nat String (Nat × Bytes) ExCert :=
  { body := "ccr", reqs := [⟨0, ⟨some ⟨some 0, [k]⟩, name⟩, some (.signature 0 [k, 7, k]), [k, 7], none⟩],
    certs := none }

example : ccpReply exUp (some 1) (exCcr "CA2" 5)
    = .ok (⟨0, .cert ⟨"CA2+usage+ca", 5, some 1, false⟩, none⟩, ⟨"CA2+usage+ca", 5, some 1, false⟩) := by decide +kernel

/-- A key usage without the signing of certificates is refused. -/
example : ccpReply exUp (some 1) (exCcr "usage" 5) = .error .badCertTemplate := by decide +kernel

/-- **C162 (refuted).** Basic constraints without `cA` are accepted: the cross-certificate is not one of a CA. -/
theorem C162_not_ca_refuted : ∃ (m : RMsg Nat String (Nat × Bytes) ExCert) (r : Req Nat String (Nat × Bytes))
    (out : Resp ExCert (Nat × Bytes) × ExCert),
    m.reqs = [r] ∧ (exUp.info r.tmpl.rest).basic = some false ∧ ccpReply exUp none m = .ok out ∧ out.2.name = "ee" :=
  ⟨exCcr "ee" 5, _, _, rfl, rfl, rfl, rfl⟩

/-- **C162 (refuted).** A template of version 1 is accepted, though only version 3 has extensions. -/
theorem C162_version_refuted : ∃ (m : RMsg Nat String (Nat × Bytes) ExCert) (r : Req Nat String (Nat × Bytes))
    (out : Resp ExCert (Nat × Bytes) × ExCert),
    m.reqs = [r] ∧ (exUp.info r.tmpl.rest).version = some 0 ∧ ccpReply exUp none m = .ok out :=
  ⟨exCcr "one" 5, _, _, rfl, rfl, rfl⟩

/-- **C162 (refuted).** The size of an RSA key is not looked at for the certificate of a CA, nor are the certificates and
the protection of the message: everyone gets a cross-certificate for their key. -/
theorem C162_unchecked_refuted (u : UpEnv A K S R E C N X G I) (ext : Option X) (m : RMsg A R E C)
    (rsa : K → Option Nat) (certs : Option (List C)) (prot : Option (A × Bytes)) :
    ccpReply { u with ra := { u.ra with rsaBits := rsa } } ext { m with certs := certs, prot := prot } = ccpReply u ext m :=
  rfl

end Verif.Ra
