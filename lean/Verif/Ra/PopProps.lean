import Verif.Ra.Request
import Verif.Check.ChainProps
import Verif.Check.KeyUsageProps

/-!
# C157, C158: a certificate is issued for a key only with a proof of its possession
-/

namespace Verif.Ra

open Verif.CA hiding Bytes Msg
open Verif.Check

variable {A K S R E C N X G : Type}

/-! ## Specification -/

/-- The template has the key. -/
def KeyOf (env : RaEnv A K S R E C N X G) (t : Tmpl A R) (k : K) : Prop :=
  ∃ s, t.key = some s ∧ s.bits ≠ [] ∧ env.loadSpki s = .ok k

/-- The key of an issued certificate is the key of the template; the encoding of a public key determines it. -/
structure Laws (env : RaEnv A K S R E C N X G) : Prop where
  built : ∀ t x c, env.build t x = .ok c → ∃ k, KeyOf env t k ∧ env.certKey c = .ok k
  spki : ∀ s s', env.encSpki s = env.encSpki s' → s = s'
  generated : ∀ t c p, env.kga t = .ok (c, p) → ∃ k, env.certKey c = .ok k

/-- The certificate may vouch for keys: it is one of the trusted registration authorities, with the usages for it. -/
def IsRa (env : RaEnv A K S R E C N X G) (strict : Bool) (c : C) : Prop :=
  (∃ ras, env.raCerts = .ok ras ∧ c ∈ ras) ∧
    validateEku (env.ch.eku c) ["cmcRA"] (if strict then .strict else .lax) = .ok () ∧
    ∃ u, env.ch.usage c = .ok (some u) ∧ Has keyUsageNames u "digitalSignature".toList

/-- The first certificate of the message is of a registration authority, with a chain that OpenSSL accepts. -/
def RaVouches [DecidableEq N] (env : RaEnv A K S R E C N X G) (strict : Bool) (m : RMsg A R E C) : Prop :=
  ∃ c l chain, m.certs = some (c :: l) ∧ IsRa env strict c ∧ buildChain env.ch c (c :: l) = .ok chain ∧
    (∀ x, chain = [x] → SignedBy env.ch x x) ∧ env.ch.openssl chain = .ok ()

/-- The holder of the private key of `k` has made the request, or only they can use what is sent. -/
def Possession [DecidableEq N] (env : RaEnv A K S R E C N X G) (a : CaArgs X) (m : RMsg A R E C) (r : Req A R E) (k : K)
    (out : Issued C E) : Prop :=
  match r.popo with
  | none => (∀ k', ¬ KeyOf env r.tmpl k') ∧ out.priv ≠ none
  | some .raVerified => a.verifyRa = true → RaVouches env a.strictEku m
  | some (.signature alg sig) =>
    env.isVerify k = true ∧ env.isDsa k = false ∧ env.verifyAlg k alg r.der sig = .ok ()
  | some (.keyEnc (.encryptedKey e)) | some (.keyAgree (.encryptedKey e)) =>
    ∃ d x p, env.openKey e = .ok d ∧ env.decKeyId d = .ok (x, []) ∧ x.priv = some p ∧ env.loadPriv p = .ok k
  | some (.keyEnc (.subsequent true)) =>
    env.isKem k = true ∧ ∃ e, env.encKem k out.cert = .ok e ∧ out.enc = some e
  | some (.keyAgree (.subsequent _)) =>
    env.isEcdh k = true ∧ ∃ s e, env.serverKey k = some s ∧ env.encKari k s out.cert = .ok e ∧ out.enc = some e
  | some (.keyAgree (.agreeMac alg v)) =>
    env.isEcdh k = true ∧ ∃ s ss, env.serverKey k = some s ∧ env.ecdh s k = .ok ss ∧ env.mac ss alg r.der = .ok v
  | _ => False

/-- The key may be certified: neither of DH nor of DSA, RSA of 2048 to 8192 bits, and the algorithm without parameters
where they are not allowed. -/
def KeyAllowed (env : RaEnv A K S R E C N X G) (t : Tmpl A R) (k : K) : Prop :=
  env.isDh k = false ∧ env.isDsa k = false ∧ (∀ n, env.rsaBits k = some n → 2048 ≤ n ∧ n ≤ 8192) ∧
    ∀ s alg, t.key = some s → s.alg = some alg →
      (env.isStfl k = true → env.stfl k alg = .ok ()) ∧
      (env.isStfl k = false → env.isPq k = true → env.hasParams alg = false)

/-! ## The parts -/

theorem tmplKey_some (env : RaEnv A K S R E C N X G) (must : Bool) (t : Tmpl A R) (k : K) :
    tmplKey env must t = .ok (some k) ↔ KeyOf env t k := by
  unfold tmplKey KeyOf
  cases hk : t.key with
  | none => cases must <;> simp
  | some s =>
    dsimp only
    by_cases hb : s.bits = []
    · rw [if_pos hb]
      cases must <;> simp [hb]
    · rw [if_neg hb]
      cases hl : env.loadSpki s with
      | error e => simp [hl]
      | ok k' => simp [hl, hb]

theorem keyOf_unique {env : RaEnv A K S R E C N X G} {t : Tmpl A R} {k k' : K} (h : KeyOf env t k)
    (h' : KeyOf env t k') : k = k' := by
  obtain ⟨s, hs, _, hl⟩ := h
  obtain ⟨s', hs', _, hl'⟩ := h'
  cases hs.symm.trans hs'
  exact Except.ok.inj (hl.symm.trans hl')

theorem tmplKey_none {env : RaEnv A K S R E C N X G} {t : Tmpl A R} (h : tmplKey env false t = .ok none) (k : K) :
    ¬ KeyOf env t k := by
  intro hk
  rw [(tmplKey_some env false t k).2 hk] at h
  cases h

theorem reqKey_ok (env : RaEnv A K S R E C N X G) (r : Req A R E) (k : K) :
    reqKey env r = .ok k ↔ KeyOf env r.tmpl k := by
  rw [← tmplKey_some env true]
  unfold reqKey
  cases tmplKey env true r.tmpl with
  | error e => simp
  | ok o => cases o <;> simp

theorem getReq_ok {m : RMsg A R E C} {i : Nat} {r : Req A R E} :
    getReq m i = .ok r ↔ m.body ∈ ["ir", "cr", "kur", "ccr"] ∧ m.reqs[i]? = some r := by
  unfold getReq
  split
  · rename_i h
    cases m.reqs[i]? <;> simp [h]
  · rename_i h
    simp [h]

theorem popSigned_ok (env : RaEnv A K S R E C N X G) (r : Req A R E) (a : A) (sig : Bytes) :
    popSigned env r a sig = .ok () ↔ ∃ k, KeyOf env r.tmpl k ∧ env.isVerify k = true ∧ env.isDsa k = false ∧
      env.verifyAlg k a r.der sig = .ok () := by
  unfold popSigned
  cases hk : reqKey env r with
  | error e =>
    simp only [reduceCtorEq, false_iff, not_exists]
    rintro k ⟨h, _⟩
    rw [(reqKey_ok env r k).2 h] at hk
    cases hk
  | ok k =>
    have hk' := (reqKey_ok env r k).1 hk
    dsimp only
    have : ∀ P : K → Prop, (∃ k, KeyOf env r.tmpl k ∧ P k) ↔ P k := fun P =>
      ⟨fun ⟨k', h, hp⟩ => keyOf_unique hk' h ▸ hp, fun hp => ⟨k, hk', hp⟩⟩
    rw [this]
    cases env.isVerify k <;> cases env.isDsa k <;> simp
    cases env.verifyAlg k a r.der sig <;> simp

theorem verifySigPop_ok {env : RaEnv A K S R E C N X G} {m : RMsg A R E C} {i : Nat} {r : Req A R E}
    (hr : getReq m i = .ok r) :
    verifySigPop env m i = .ok () ↔ ∃ a sig k, r.popo = some (.signature a sig) ∧ KeyOf env r.tmpl k ∧
      env.isVerify k = true ∧ env.isDsa k = false ∧ env.verifyAlg k a r.der sig = .ok () := by
  unfold verifySigPop verifyPopSig
  rw [hr]
  dsimp only
  cases hp : r.popo with
  | none => simp
  | some p =>
    cases p with
    | raVerified => simp
    | keyEnc _ => simp
    | keyAgree _ => simp
    | signature a sig =>
      dsimp only
      have := popSigned_ok env r a sig
      cases hq : popSigned env r a sig with
      | error e =>
        rw [hq] at this
        simp only [reduceCtorEq, false_iff] at this
        simp only [reduceCtorEq, false_iff]
        rintro ⟨a', sig', k, h, h'⟩
        cases h
        exact this ⟨k, h'⟩
      | ok _ =>
        obtain ⟨k, h'⟩ := this.1 hq
        simp only [true_iff]
        exact ⟨a, sig, k, rfl, h'⟩

theorem rsaSize_ok (n : Option Nat) (max : Nat) :
    rsaSize n max = .ok () ↔ ∀ b, n = some b → 2048 ≤ b ∧ b ≤ max := by
  unfold rsaSize
  cases n with
  | none => simp
  | some n =>
    dsimp only
    by_cases h1 : n < 2048
    · rw [if_pos h1]; simp; omega
    · rw [if_neg h1]
      by_cases h2 : max < n
      · rw [if_pos h2]; simp; omega
      · rw [if_neg h2]; simp; omega

/-- The algorithm of a signature fits the key. -/
def Fits (env : RaEnv A K S R E C N X G) (k : K) (alg : Option A) : Prop :=
  ∀ a, alg = some a → env.isVerify k = true ∧ env.consistent a k = .ok ()

theorem algFits_ok (env : RaEnv A K S R E C N X G) (k : K) (alg : Option A) :
    algFits env (some k) alg = .ok () ↔ Fits env k alg := by
  unfold algFits Fits
  cases alg with
  | none => simp
  | some a =>
    dsimp only
    cases env.isVerify k with
    | false => simp
    | true =>
      cases hc : env.consistent a k <;> simp [hc]

theorem keyParams_ok (env : RaEnv A K S R E C N X G) (k : K) (s : Spki A) :
    keyParams env k s = .ok () ↔ ∀ alg, s.alg = some alg →
      (env.isStfl k = true → env.stfl k alg = .ok ()) ∧
      (env.isStfl k = false → env.isPq k = true → env.hasParams alg = false) := by
  unfold keyParams
  cases s.alg with
  | none => simp
  | some a =>
    dsimp only
    cases env.isStfl k <;> cases env.isPq k <;> cases hh : env.hasParams a <;> simp [hh]

/-- The check of a template with a key. -/
theorem checkTmplKey_ok (env : RaEnv A K S R E C N X G) (alg : Option A) (t : Tmpl A R) (k : K)
    (hk : KeyOf env t k) :
    checkTmplKey env alg 8192 t = .ok () ↔ env.named t.rest = true ∧ KeyAllowed env t k ∧ Fits env k alg := by
  obtain ⟨s, hs, hb, hl⟩ := hk
  unfold checkTmplKey KeyAllowed
  rw [(tmplKey_some env false t k).2 ⟨s, hs, hb, hl⟩]
  cases env.named t.rest with
  | false => simp
  | true =>
    rw [if_neg (by simp)]
    dsimp only
    unfold keyAllowed
    rw [hs]
    dsimp only
    cases env.isDh k with
    | true => simp
    | false =>
      cases env.isDsa k with
      | true => simp
      | false =>
        have h1 := rsaSize_ok (env.rsaBits k) 8192
        cases hrs : rsaSize (env.rsaBits k) 8192 with
        | error e =>
          rw [hrs] at h1
          simp only [reduceCtorEq, false_iff] at h1
          simp only [Bool.false_eq_true, if_false, reduceCtorEq, false_iff]
          rintro ⟨_, ⟨_, _, h, _⟩, _⟩
          exact h1 h
        | ok _ =>
          have h1' := h1.1 hrs
          have h2 := algFits_ok env k alg
          cases haf : algFits env (some k) alg with
          | error e =>
            rw [haf] at h2
            simp only [reduceCtorEq, false_iff] at h2
            simp only [Bool.false_eq_true, if_false, reduceCtorEq, false_iff]
            rintro ⟨_, _, h⟩
            exact h2 h
          | ok _ =>
            have h2' := h2.1 haf
            simp only [Bool.false_eq_true, if_false, if_neg hb]
            rw [keyParams_ok]
            constructor
            · intro h
              refine ⟨trivial, ⟨trivial, trivial, h1', fun s' a hs' ha => ?_⟩, h2'⟩
              cases hs'
              exact h a ha
            · rintro ⟨_, ⟨_, _, _, h⟩, _⟩ a ha
              exact h s a rfl ha

theorem altTmpl_key {env : RaEnv A K S R E C N X G} (hl : Laws env) {r : Req A R E} {t : Tmpl A R} {k : K}
    (h : altTmpl env r = .ok (some t)) (hk : KeyOf env r.tmpl k) : t.key = r.tmpl.key := by
  obtain ⟨s, hs, -, -⟩ := hk
  unfold altTmpl at h
  cases hr : r.regInfo with
  | none => rw [hr] at h; cases h
  | some l =>
    rw [hr] at h
    dsimp only at h
    cases ha : altReq env r l with
    | error e => rw [ha] at h; cases h
    | ok o =>
      rw [ha] at h
      dsimp only at h
      cases hu : env.utf8 l with
      | error e => rw [hu] at h; cases h
      | ok _ =>
        rw [hu] at h
        cases h
        unfold altReq at ha
        cases hf : l.find? (fun x => x.1 = regInfoCertReq) with
        | none => rw [hf] at ha; cases ha
        | some d =>
          rw [hf] at ha
          dsimp only at ha
          split at ha
          · cases ha
          · cases hd : env.decReq d.2 with
            | none => rw [hd] at ha; cases ha
            | some y =>
              obtain ⟨x, rest⟩ := y
              rw [hd] at ha
              dsimp only at ha
              split at ha
              · cases ha
              · cases hq : altAllowed env r x with
                | error e => rw [hq] at ha; cases ha
                | ok _ =>
                  rw [hq] at ha
                  cases ha
                  unfold altAllowed at hq
                  split at hq
                  · cases hq
                  · rw [hs] at hq
                    dsimp only at hq
                    cases hx : x.2.key with
                    | none => rw [hx] at hq; cases hq
                    | some s' =>
                      rw [hx] at hq
                      dsimp only at hq
                      split at hq
                      · cases hq
                      · rename_i hne
                        rw [hs, hl.spki _ _ (Classical.not_not.1 hne)]

/-! ## Registration authorities -/

theorem unauth_ok (x : Except PyErr Unit) : unauth x = .ok () ↔ x = .ok () := by
  unfold unauth
  split <;> simp_all

section
variable [DecidableEq N]

theorem raChain_ok (env : RaEnv A K S R E C N X G) (c : C) (l : List C) :
    raChain env (c :: l) = .ok () ↔ ∃ chain, buildChain env.ch c (c :: l) = .ok chain ∧
      (∀ x, chain = [x] → SignedBy env.ch x x) ∧ env.ch.openssl chain = .ok () := by
  unfold raChain
  show (match buildChain env.ch c (c :: l) with
    | .error e => .error e
    | .ok chain => _ : Except PyErr Unit) = .ok () ↔ _
  cases buildChain env.ch c (c :: l) with
  | error e => simp
  | ok chain =>
    simp only [Except.ok.injEq, exists_eq_left']
    have ho : (match env.ch.openssl chain with
        | .error .signerNotTrusted => .error .notAuthorized
        | x => x : Except PyErr Unit) = .ok () ↔ env.ch.openssl chain = .ok () := by
      split <;> simp_all
    match chain, ho with
    | [], ho => exact ho.trans ⟨fun h => ⟨nofun, h⟩, fun h => h.2⟩
    | [x], ho =>
      have hs := isCertSigner_true env.ch x x
      simp only [List.cons.injEq, and_true, forall_eq']
      rw [← hs]
      cases isCertSigner env.ch x x with
      | error e => simp
      | ok b =>
        cases b with
        | false => simp
        | true => exact ho.trans ⟨fun h => ⟨rfl, h⟩, fun h => h.2⟩
    | x :: y :: l, ho => exact ho.trans ⟨fun h => ⟨nofun, h⟩, fun h => h.2⟩

variable [DecidableEq C]

/-- **C158.** `raVerified` is accepted exactly for messages whose first certificate is one of the trusted registration
authorities, with the extended key usage `cmcRA`, the key usage `digitalSignature` and a chain that OpenSSL accepts. -/
theorem C158_iff (env : RaEnv A K S R E C N X G) (strict : Bool) (m : RMsg A R E C) :
    verifyRa env strict true m = .ok () ↔ RaVouches env strict m := by
  unfold verifyRa RaVouches IsRa
  rw [if_neg (by simp)]
  cases hra : env.raCerts with
  | error e => simp
  | ok ras =>
    dsimp only
    cases hc : m.certs with
    | none => simp
    | some cs =>
      cases cs with
      | nil => simp
      | cons c l =>
        dsimp only
        have hin := chainCertInList_iff c ras
        have hu : validateKeyUsage keyUsageNames (env.ch.usage c) ["digitalSignature".toList] .strict = .ok () ↔
            ∃ u, env.ch.usage c = .ok (some u) ∧ Has keyUsageNames u "digitalSignature".toList := by
          rw [C123_usage keyUsageNames keyUsageNames_plain]
          simp only [reduceCtorEq, false_and, false_or, or_false, true_and, List.mem_singleton, forall_eq]
          rw [show stripL "digitalSignature".toList = "digitalSignature".toList by decide +kernel]
        unfold raTrusted
        have hch := raChain_ok env c l
        have key : (∃ c' l' chain, some (c :: l) = some (c' :: l') ∧
            ((∃ ras', (.ok ras : Except PyErr (List C)) = .ok ras' ∧ c' ∈ ras') ∧
              validateEku (env.ch.eku c') ["cmcRA"] (if strict then .strict else .lax) = .ok () ∧
              ∃ u, env.ch.usage c' = .ok (some u) ∧ Has keyUsageNames u "digitalSignature".toList) ∧
            buildChain env.ch c' (c' :: l') = .ok chain ∧ (∀ x, chain = [x] → SignedBy env.ch x x) ∧
            env.ch.openssl chain = .ok ()) ↔
            c ∈ ras ∧ validateEku (env.ch.eku c) ["cmcRA"] (if strict then .strict else .lax) = .ok () ∧
              validateKeyUsage keyUsageNames (env.ch.usage c) ["digitalSignature".toList] .strict = .ok () ∧
              raChain env (c :: l) = .ok () := by
          rw [hu, hch]
          constructor
          · rintro ⟨c', l', chain, h, ⟨⟨ras', hr', h1⟩, h2, h3⟩, h4⟩
            cases h
            cases hr'
            exact ⟨h1, h2, h3, chain, h4⟩
          · rintro ⟨h1, h2, h3, chain, h4⟩
            exact ⟨c, l, chain, rfl, ⟨⟨ras, rfl, h1⟩, h2, h3⟩, h4⟩
        rw [key]
        have he := unauth_ok (validateEku (env.ch.eku c) ["cmcRA"] (if strict then .strict else .lax))
        have hk := unauth_ok (validateKeyUsage keyUsageNames (env.ch.usage c) ["digitalSignature".toList] .strict)
        by_cases hm : c ∈ ras
        · rw [if_neg (by rw [hin.2 hm]; simp)]
          cases hev : unauth (validateEku (env.ch.eku c) ["cmcRA"] (if strict then .strict else .lax)) with
          | error e =>
            rw [hev] at he
            simp only [reduceCtorEq, false_iff] at he ⊢
            exact fun h => he h.2.1
          | ok _ =>
            have he' := he.1 hev
            dsimp only
            cases hkv : unauth (validateKeyUsage keyUsageNames (env.ch.usage c) ["digitalSignature".toList] .strict) with
            | error e =>
              rw [hkv] at hk
              simp only [reduceCtorEq, false_iff] at hk ⊢
              exact fun h => hk h.2.2.1
            | ok _ =>
              have hk' := hk.1 hkv
              dsimp only
              exact ⟨fun h => ⟨hm, he', hk', h⟩, fun h => h.2.2.2⟩
        · rw [if_pos (by
            cases hcc : chainCertInList c ras
            · rfl
            · exact absurd (hin.1 hcc) hm)]
          simp only [reduceCtorEq, false_iff]
          exact fun h => hm h.1

/-! ## The proof of possession -/

theorem isKga_popo {env : RaEnv A K S R E C N X G} {m : RMsg A R E C} {i : Nat} {r : Req A R E}
    (hr : getReq m i = .ok r) {p : Popo A E} (hp : r.popo = some p) : isKga env m i = .ok false := by
  unfold isKga
  rw [hr]
  dsimp only
  rw [hp]

variable [DecidableEq K]

omit [DecidableEq N] [DecidableEq C] in
theorem encryptedKey_ok {env : RaEnv A K S R E C N X G} {t : Tmpl A R} {e : E} {c : C}
    (h : encryptedKey env t e = .ok c) :
    env.build t none = .ok c ∧ ∃ d x p k, env.openKey e = .ok d ∧ env.decKeyId d = .ok (x, []) ∧ x.priv = some p ∧
      env.loadPriv p = .ok k ∧ KeyOf env t k := by
  unfold encryptedKey at h
  cases ht : tmplKey env false t with
  | error y => rw [ht] at h; cases h
  | ok o =>
    rw [ht] at h
    cases o with
    | none => cases h
    | some k0 =>
      dsimp only at h
      cases ho : env.openKey e with
      | error y => rw [ho] at h; cases h
      | ok d =>
        rw [ho] at h
        dsimp only at h
        cases hw : keyWithId env d t with
        | error y => rw [hw] at h; cases h
        | ok u =>
          rw [hw] at h
          dsimp only at h
          refine ⟨h, ?_⟩
          unfold keyWithId at hw
          cases hd : env.decKeyId d with
          | error y => rw [hd] at hw; cases hw
          | ok z =>
            obtain ⟨x, rest⟩ := z
            rw [hd] at hw
            dsimp only at hw
            by_cases hr : rest ≠ []
            · rw [if_pos hr] at hw; cases hw
            · rw [if_neg hr] at hw
              rw [Classical.not_not] at hr
              subst hr
              cases hp : x.priv with
              | none => rw [hp] at hw; cases hw
              | some p =>
                rw [hp] at hw
                dsimp only at hw
                cases hlp : env.loadPriv p with
                | error y => rw [hlp] at hw; cases hw
                | ok k =>
                  rw [hlp] at hw
                  dsimp only at hw
                  cases htk : tmplKey env true t with
                  | error y => rw [htk] at hw; cases hw
                  | ok k' =>
                    rw [htk] at hw
                    dsimp only at hw
                    by_cases hkk : some k ≠ k'
                    · rw [if_pos hkk] at hw; cases hw
                    · rw [Classical.not_not] at hkk
                      subst hkk
                      exact ⟨d, x, p, k, rfl, hd, hp, hlp, (tmplKey_some env true t k).1 htk⟩

omit [DecidableEq N] [DecidableEq C] in
/-- What the answer to a request with a key of encryption or of key agreement tells. -/
theorem respond_private {env : RaEnv A K S R E C N X G} (hl : Laws env) {x : Option X} {r : Req A R E}
    {out : Issued C E} [DecidableEq N] (a : CaArgs X) (m : RMsg A R E C) {p : PrivPop A E}
    (h : (r.popo = some (.keyEnc p) ∧ encReply env x r p = .ok out) ∨
      (r.popo = some (.keyAgree p) ∧ agreeReply env x r p = .ok out)) :
    ∃ k, env.certKey out.cert = .ok k ∧ Possession env a m r k out := by
  rcases h with ⟨hp, h⟩ | ⟨hp, h⟩
  · unfold encReply at h
    cases hb : env.build r.tmpl x with
    | error e => rw [hb] at h; cases h
    | ok c =>
      rw [hb] at h
      dsimp only at h
      cases p with
      | thisMessage => cases h
      | dhMac => cases h
      | agreeMac _ _ => cases h
      | encryptedKey e =>
        dsimp only at h
        cases he : encryptedKey env r.tmpl e with
        | error y => rw [he] at h; cases h
        | ok c' =>
          rw [he] at h
          cases h
          obtain ⟨hb', d, y, q, k, h1, h2, h3, h4, h5⟩ := encryptedKey_ok he
          obtain ⟨k', hk', hc'⟩ := hl.built _ _ _ hb'
          cases keyOf_unique h5 hk'
          refine ⟨k, hc', ?_⟩
          unfold Possession
          rw [hp]
          exact ⟨d, y, q, h1, h2, h3, h4⟩
      | subsequent b =>
        dsimp only at h
        unfold encrCert at h
        cases b with
        | false => cases h
        | true =>
          rw [if_neg (by simp)] at h
          cases hc : env.certKey c with
          | error e => rw [hc] at h; cases h
          | ok k =>
            rw [hc] at h
            dsimp only at h
            cases hkem : env.isKem k with
            | false => rw [if_pos hkem] at h; cases h
            | true =>
              rw [if_neg (by simp [hkem])] at h
              cases hek : env.encKem k c with
              | error e => rw [hek] at h; cases h
              | ok d =>
                rw [hek] at h
                cases h
                refine ⟨k, hc, ?_⟩
                unfold Possession
                rw [hp]
                exact ⟨hkem, d, hek, rfl⟩
  · unfold agreeReply at h
    cases hk : reqKey env r with
    | error e => rw [hk] at h; cases h
    | ok k =>
      rw [hk] at h
      dsimp only at h
      have hko := (reqKey_ok env r k).1 hk
      cases hec : env.isEcdh k with
      | false => rw [if_pos hec] at h; cases h
      | true =>
        rw [if_neg (by simp [hec])] at h
        have hkari : ∀ {s : S}, env.serverKey k = some s → kariCert env x r.tmpl k s = .ok out →
            env.certKey out.cert = .ok k ∧ ∃ e, env.encKari k s out.cert = .ok e ∧ out.enc = some e := by
          intro s hs h
          unfold kariCert at h
          cases hb : env.build r.tmpl x with
          | error e => rw [hb] at h; cases h
          | ok c =>
            rw [hb] at h
            dsimp only at h
            cases he : env.encKari k s c with
            | error e => rw [he] at h; cases h
            | ok d =>
              rw [he] at h
              cases h
              obtain ⟨k', hk', hc'⟩ := hl.built _ _ _ hb
              cases keyOf_unique hko hk'
              exact ⟨hc', d, he, rfl⟩
        cases p with
        | thisMessage => cases h
        | dhMac => cases h
        | encryptedKey e =>
          dsimp only at h
          cases he : encryptedKey env r.tmpl e with
          | error y => rw [he] at h; cases h
          | ok c' =>
            rw [he] at h
            cases h
            obtain ⟨hb', d, y, q, k2, h1, h2, h3, h4, h5⟩ := encryptedKey_ok he
            obtain ⟨k', hk', hc'⟩ := hl.built _ _ _ hb'
            cases keyOf_unique h5 hk'
            refine ⟨k2, hc', ?_⟩
            unfold Possession
            rw [hp]
            exact ⟨d, y, q, h1, h2, h3, h4⟩
        | agreeMac alg v =>
          dsimp only at h
          unfold agreeWith at h
          cases hs : env.serverKey k with
          | none => rw [hs] at h; cases h
          | some s =>
            rw [hs] at h
            dsimp only at h
            cases hm : agreeMac env x r k s alg v with
            | error e => rw [hm] at h; cases h
            | ok c =>
              rw [hm] at h
              cases h
              unfold agreeMac at hm
              cases hss : env.ecdh s k with
              | error e => rw [hss] at hm; cases hm
              | ok ss =>
                rw [hss] at hm
                dsimp only at hm
                cases hw : env.mac ss alg r.der with
                | error e => rw [hw] at hm; cases hm
                | ok w =>
                  rw [hw] at hm
                  dsimp only at hm
                  by_cases hv : w ≠ v
                  · rw [if_pos hv] at hm; cases hm
                  · rw [if_neg hv] at hm
                    rw [Classical.not_not] at hv
                    subst hv
                    obtain ⟨k', hk', hc'⟩ := hl.built _ _ _ hm
                    cases keyOf_unique hko hk'
                    refine ⟨k, hc', ?_⟩
                    unfold Possession
                    rw [hp]
                    exact ⟨hec, s, ss, hs, hss, hw⟩
        | subsequent b =>
          dsimp only at h
          unfold agreeWith at h
          cases hs : env.serverKey k with
          | none => rw [hs] at h; cases h
          | some s =>
            rw [hs] at h
            dsimp only at h
            obtain ⟨h1, e, h2, h3⟩ := hkari hs h
            refine ⟨k, h1, ?_⟩
            unfold Possession
            rw [hp]
            exact ⟨hec, s, e, hs, h2, h3⟩

/-- The steps of the processing of one request. -/
theorem processOne_ok {env : RaEnv A K S R E C N X G} {a : CaArgs X} {m : RMsg A R E C} {i : Nat} {out : Issued C E} :
    processOne env a m i = .ok out ↔ ∃ r alt, getReq m i = .ok r ∧ popoKind env m r = .ok () ∧
      altTmpl env r = .ok alt ∧ checkTmplKey env none 8192 r.tmpl = .ok () ∧ env.controls r.der = .ok () ∧
      verifyPopo env a.strictEku a.verifyRa m i = .ok () ∧ respond env a.ext r alt = .ok out := by
  unfold processOne
  cases getReq m i with
  | error e => simp
  | ok r =>
    dsimp only
    simp only [Except.ok.injEq, exists_and_left, exists_eq_left']
    cases popoKind env m r with
    | error e => simp
    | ok _ =>
      cases altTmpl env r with
      | error e => simp
      | ok alt =>
        cases checkTmplKey env none 8192 r.tmpl with
        | error e => simp
        | ok _ =>
          cases env.controls r.der with
          | error e => simp
          | ok _ =>
            cases verifyPopo env a.strictEku a.verifyRa m i with
            | error e => simp
            | ok _ => simp

/-- **C157 (partial).** A certificate is issued for a request that is the first of the message, or whose proof is not a
signature, only if the requester has the private key of the certificate: the request is signed with it, it was sent to
the CA, it was used to compute the MAC, it is needed to decrypt the certificate, it was generated by the CA, or a
registration authority vouches for it. -/
theorem C157_possession_partial (env : RaEnv A K S R E C N X G) (hl : Laws env) (a : CaArgs X) (m : RMsg A R E C)
    (i : Nat) (r : Req A R E) (out : Issued C E) (hr : m.reqs[i]? = some r) (h : processOne env a m i = .ok out)
    (hi : i = 0 ∨ ∀ alg sig, r.popo ≠ some (.signature alg sig)) :
    ∃ k, env.certKey out.cert = .ok k ∧ Possession env a m r k out := by
  obtain ⟨r', alt, hg, hk, ha, ht, -, hv, ho⟩ := processOne_ok.1 h
  cases (getReq_ok.1 hg).2.symm.trans hr
  unfold respond at ho
  cases hc : checkTmplKey env (popoAlg r.popo) 8192 (alt.getD r.tmpl) with
  | error e => rw [hc] at ho; cases ho
  | ok u =>
    rw [hc] at ho
    dsimp only at ho
    unfold verifyPopo at hv
    by_cases hbody : m.body ∉ ["ir", "cr", "kur", "crr"]
    · rw [if_pos hbody] at hv; cases hv
    · rw [if_neg hbody, hg] at hv
      dsimp only at hv
      have plain : ∀ {k : K}, KeyOf env r.tmpl k → plainReply env a.ext (alt.getD r.tmpl) = .ok out →
          env.certKey out.cert = .ok k := by
        intro k hk' hq
        unfold plainReply at hq
        cases hb : env.build (alt.getD r.tmpl) a.ext with
        | error e => rw [hb] at hq; cases hq
        | ok c =>
          rw [hb] at hq
          cases hq
          obtain ⟨k', hk'', hc'⟩ := hl.built _ _ _ hb
          have hkey : (alt.getD r.tmpl).key = r.tmpl.key := by
            cases alt with
            | none => rfl
            | some t => exact altTmpl_key hl ha hk'
          have : KeyOf env r.tmpl k' := by
            obtain ⟨s, hs, h2⟩ := hk''
            exact ⟨s, hkey ▸ hs, h2⟩
          cases keyOf_unique hk' this
          exact hc'
      cases hp : r.popo with
      | none =>
        rw [hp] at ho
        dsimp only at ho
        unfold kgaReply at ho
        cases hn : tmplKey env false (alt.getD r.tmpl) with
        | error e => rw [hn] at ho; cases ho
        | ok o =>
          rw [hn] at ho
          cases o with
          | some _ => cases ho
          | none =>
            dsimp only at ho
            cases hq : env.kga r.tmpl with
            | error e => rw [hq] at ho; cases ho
            | ok y =>
              obtain ⟨c, p⟩ := y
              rw [hq] at ho
              cases ho
              obtain ⟨k, hk'⟩ := hl.generated _ _ _ hq
              refine ⟨k, hk', ?_⟩
              unfold Possession
              rw [hp]
              refine ⟨fun k' hko => ?_, by simp⟩
              have hkey : (alt.getD r.tmpl).key = r.tmpl.key := by
                cases alt with
                | none => rfl
                | some t => exact altTmpl_key hl ha hko
              obtain ⟨s, hs, h2⟩ := hko
              exact tmplKey_none hn k' ⟨s, hkey ▸ hs, h2⟩
      | some p =>
        rw [isKga_popo hg hp, hp] at hv
        dsimp only at hv
        rw [hp] at ho
        cases p with
        | raVerified =>
          dsimp only at hv ho
          have hb : ∃ k, env.certKey out.cert = .ok k := by
            unfold plainReply at ho
            cases hb : env.build (alt.getD r.tmpl) a.ext with
            | error e => rw [hb] at ho; cases ho
            | ok c =>
              rw [hb] at ho
              cases ho
              obtain ⟨k', _, hc'⟩ := hl.built _ _ _ hb
              exact ⟨k', hc'⟩
          obtain ⟨k, hk'⟩ := hb
          refine ⟨k, hk', ?_⟩
          unfold Possession
          rw [hp]
          intro hve
          rw [hve] at hv
          exact (C158_iff env _ m).1 hv
        | signature alg sig =>
          rcases hi with rfl | hi
          · dsimp only at hv ho
            obtain ⟨alg', sig', k, hp', hko, h1, h2, h3⟩ := (verifySigPop_ok hg).1 hv
            rw [hp] at hp'
            cases hp'
            refine ⟨k, plain hko ho, ?_⟩
            unfold Possession
            rw [hp]
            exact ⟨h1, h2, h3⟩
          · exact absurd hp (hi alg sig)
        | keyEnc q => exact respond_private hl a m (.inl ⟨hp, ho⟩)
        | keyAgree q => exact respond_private hl a m (.inr ⟨hp, ho⟩)

/-- **C157.** A request with a signature, alone in its message and without `regInfo`, is answered with a certificate
exactly if the template has a subject and a key that may be certified, the signature verifies under that key and its
algorithm fits it, the controls are accepted and the certificate can be built; the certificate is then the one of the
template, with the extensions of the CA. -/
theorem C157_signed_iff (env : RaEnv A K S R E C N X G) (a : CaArgs X) (m : RMsg A R E C) (r : Req A R E)
    (out : Issued C E) (alg : A) (sig : Bytes) (hm : m.reqs = [r]) (hb : m.body ∈ ["ir", "cr", "kur"])
    (hp : r.popo = some (.signature alg sig)) (hi : r.regInfo = none) :
    processOne env a m 0 = .ok out ↔ ∃ k c, KeyOf env r.tmpl k ∧ env.named r.tmpl.rest = true ∧
      KeyAllowed env r.tmpl k ∧ env.isVerify k = true ∧ env.consistent alg k = .ok () ∧
      env.verifyAlg k alg r.der sig = .ok () ∧ env.controls r.der = .ok () ∧ env.build r.tmpl a.ext = .ok c ∧
      out = { cert := c } := by
  have hg : getReq m 0 = .ok r := getReq_ok.2 ⟨by
    simp only [List.mem_cons, List.not_mem_nil, or_false] at hb ⊢
    rcases hb with h | h | h <;> simp [h], by simp [hm]⟩
  have hb' : ¬ m.body ∉ ["ir", "cr", "kur", "crr"] := by
    simp only [List.mem_cons, List.not_mem_nil, or_false] at hb ⊢
    rcases hb with h | h | h <;> simp [h]
  have halt : altTmpl env r = .ok none := by unfold altTmpl; rw [hi]
  have hvp : verifyPopo env a.strictEku a.verifyRa m 0 = verifySigPop env m 0 := by
    unfold verifyPopo
    rw [if_neg hb', hg]
    dsimp only
    rw [isKga_popo hg hp]
    dsimp only
    rw [hp]
  have hres : ∀ k, KeyOf env r.tmpl k → checkTmplKey env (some alg) 8192 r.tmpl = .ok () →
      respond env a.ext r none = plainReply env a.ext r.tmpl := by
    intro k hk hc
    unfold respond
    rw [hp]
    show (match checkTmplKey env (some alg) 8192 r.tmpl with
      | .error e => .error e
      | .ok () => plainReply env a.ext r.tmpl : Except PyErr (Issued C E)) = _
    rw [hc]
  have hplain : ∀ {o : Issued C E}, plainReply env a.ext r.tmpl = .ok o ↔
      ∃ c, env.build r.tmpl a.ext = .ok c ∧ o = { cert := c } := by
    intro o
    unfold plainReply
    cases env.build r.tmpl a.ext with
    | error e => simp
    | ok c =>
      simp only [Except.ok.injEq, exists_eq_left']
      exact eq_comm
  constructor
  · intro h
    obtain ⟨r', alt, hg', hk, ha, ht, hct, hv, ho⟩ := processOne_ok.1 h
    cases hg.symm.trans hg'
    cases halt.symm.trans ha
    rw [hvp] at hv
    obtain ⟨alg', sig', k, hp', hko, h1, h2, h3⟩ := (verifySigPop_ok hg).1 hv
    rw [hp] at hp'
    cases hp'
    have hc : checkTmplKey env (some alg) 8192 r.tmpl = .ok () := by
      unfold respond at ho
      rw [hp] at ho
      change (match checkTmplKey env (some alg) 8192 r.tmpl with
        | .error e => .error e
        | .ok () => plainReply env a.ext r.tmpl : Except PyErr (Issued C E)) = _ at ho
      cases hc : checkTmplKey env (some alg) 8192 r.tmpl with
      | error e => rw [hc] at ho; cases ho
      | ok u => rfl
    obtain ⟨hn, hal, hf⟩ := (checkTmplKey_ok env _ _ k hko).1 hc
    rw [hres k hko hc] at ho
    obtain ⟨c, hbc, hoc⟩ := hplain.1 ho
    exact ⟨k, c, hko, hn, hal, h1, (hf alg rfl).2, h3, hct, hbc, hoc⟩
  · rintro ⟨k, c, hko, hn, hal, h1, hcs, h3, hct, hbc, rfl⟩
    have hc : checkTmplKey env (some alg) 8192 r.tmpl = .ok () :=
      (checkTmplKey_ok env _ _ k hko).2 ⟨hn, hal, fun a ha => by cases ha; exact ⟨h1, hcs⟩⟩
    have hc0 : checkTmplKey env none 8192 r.tmpl = .ok () :=
      (checkTmplKey_ok env _ _ k hko).2 ⟨hn, hal, nofun⟩
    refine processOne_ok.2 ⟨r, none, hg, ?_, halt, hc0, hct, ?_, ?_⟩
    · unfold popoKind sigKeyOk
      rw [hp]
      dsimp only
      rw [(reqKey_ok env r k).2 hko]
      dsimp only
      rw [if_neg (by simp [h1]), hcs]
    · rw [hvp]
      exact (verifySigPop_ok hg).2 ⟨alg, sig, k, hp, hko, h1, hal.2.1, h3⟩
    · rw [hres k hko hc]
      exact hplain.2 ⟨c, hbc, rfl⟩

/-! ## Messages with several requests -/

omit [DecidableEq N] [DecidableEq C] [DecidableEq K] in
theorem alt_congr (env : RaEnv A K S R E C N X G) (r : Req A R E) (p : Option (Popo A E)) :
    altTmpl env { r with popo := p } = altTmpl env r := rfl

/-- **C157 (refuted).** The signature of a request other than the first one has no influence: with any other value the
result is the same. The signature of the first request is verified in its place. -/
theorem C157_later_ignored_refuted (env : RaEnv A K S R E C N X G) (a : CaArgs X) (m : RMsg A R E C) (i : Nat)
    (r : Req A R E) (alg : A) (sig sig' : Bytes) (hi : 0 < i) (hr : m.reqs[i]? = some r)
    (hp : r.popo = some (.signature alg sig)) :
    processOne env a { m with reqs := m.reqs.set i { r with popo := some (.signature alg sig') } } i
      = processOne env a m i := by
  have hlt : i < m.reqs.length := by
    rw [List.getElem?_eq_some_iff] at hr
    exact hr.1
  have h0 : (m.reqs.set i { r with popo := some (.signature alg sig') })[0]? = m.reqs[0]? := by
    rw [List.getElem?_set_ne (by omega)]
  have h1 : (m.reqs.set i { r with popo := some (.signature alg sig') })[i]?
      = some { r with popo := some (.signature alg sig') } := by
    rw [List.getElem?_set_self hlt]
  have g0 : getReq { m with reqs := m.reqs.set i { r with popo := some (.signature alg sig') } } 0 = getReq m 0 := by
    unfold getReq
    dsimp only
    rw [h0]
  have hs : verifySigPop env { m with reqs := m.reqs.set i { r with popo := some (.signature alg sig') } } 0
      = verifySigPop env m 0 := by
    unfold verifySigPop verifyPopSig
    rw [g0]
  by_cases hb : m.body ∈ ["ir", "cr", "kur", "ccr"]
  · have g1 : getReq m i = .ok r := getReq_ok.2 ⟨hb, hr⟩
    have g2 : getReq { m with reqs := m.reqs.set i { r with popo := some (.signature alg sig') } } i
        = .ok { r with popo := some (.signature alg sig') } := getReq_ok.2 ⟨hb, h1⟩
    have hv : verifyPopo env a.strictEku a.verifyRa
        { m with reqs := m.reqs.set i { r with popo := some (.signature alg sig') } } i
        = verifyPopo env a.strictEku a.verifyRa m i := by
      unfold verifyPopo
      dsimp only
      by_cases hbb : m.body ∉ ["ir", "cr", "kur", "crr"]
      · rw [if_pos hbb, if_pos hbb]
      · rw [if_neg hbb, if_neg hbb, g1, g2]
        dsimp only
        rw [isKga_popo g1 hp, isKga_popo g2 rfl]
        dsimp only
        rw [hp]
        exact hs
    have hk : popoKind env { m with reqs := m.reqs.set i { r with popo := some (.signature alg sig') } }
        { r with popo := some (.signature alg sig') } = popoKind env m r := by
      unfold popoKind
      rw [hp]
      rfl
    have ho : ∀ alt, respond env a.ext { r with popo := some (.signature alg sig') } alt = respond env a.ext r alt := by
      intro alt
      unfold respond
      rw [hp]
      rfl
    unfold processOne
    rw [g1, g2]
    dsimp only
    rw [hk, hv, alt_congr]
    cases altTmpl env r with
    | error e => rfl
    | ok alt => dsimp only; rw [ho alt]
  · unfold processOne getReq
    dsimp only
    rw [if_neg hb, if_neg hb]

/-! ## All requests of a message -/

theorem processLoop_ok {env : RaEnv A K S R E C N X G} {a : CaArgs X} {m : RMsg A R E C} (todo : List (Req A R E))
    (i : Nat) (rs : List (Resp C E)) (cs : List C) (h : processLoop env a m i todo = .ok (rs, cs)) :
    rs.map (·.id) = todo.map (·.id) ∧ rs.length = cs.length ∧ cs.length = todo.length ∧
      ∀ j, j < todo.length → ∃ out, processOne env a m (i + j) = .ok out ∧ cs[j]? = some out.cert ∧
        ∃ q, rs[j]? = some q ∧ q.priv = out.priv ∧
          q.pair = (match out.enc with | some e => .enc e | none => .cert out.cert) := by
  induction todo generalizing i rs cs with
  | nil =>
    cases h
    exact ⟨rfl, rfl, rfl, fun j hj => absurd hj (by simp)⟩
  | cons r todo ih =>
    unfold processLoop at h
    cases ho : processOne env a m i with
    | error e => rw [ho] at h; cases h
    | ok x =>
      rw [ho] at h
      dsimp only at h
      cases hrec : processLoop env a m (i + 1) todo with
      | error e => rw [hrec] at h; cases h
      | ok y =>
        obtain ⟨rs', cs'⟩ := y
        rw [hrec] at h
        cases h
        obtain ⟨h1, h2, h3, h4⟩ := ih _ _ _ hrec
        refine ⟨by simp only [List.map_cons, h1]; rfl, by simp [h2], by simp [h3], ?_⟩
        intro j hj
        cases j with
        | zero => exact ⟨x, ho, rfl, _, rfl, rfl, rfl⟩
        | succ j =>
          obtain ⟨out, ha, hb, hc⟩ := h4 j (by simpa using hj)
          exact ⟨out, by rw [show i + (j + 1) = i + 1 + j by omega]; exact ha, hb, hc⟩

/-- **C157.** All certificates in a response to an initialization request of the lightweight profile, which is
enforced by default, are for keys whose possession was proven; an encrypted certificate is not sent in the clear. -/
theorem C157_ip (env : RaEnv A K S R E C N X G) (hl : Laws env) (a : CaArgs X) (m : RMsg A R E C)
    (rs : List (Resp C E)) (cs : List C) (h : ipReply env a true m = .ok (rs, cs)) :
    ∃ r out k q, m.reqs = [r] ∧ r.id = 0 ∧ cs = [out.cert] ∧ rs = [q] ∧ q.id = 0 ∧
      env.certKey out.cert = .ok k ∧ Possession env a m r k out ∧
      (∀ e, out.enc = some e → q.pair = .enc e) ∧ (out.enc = none → q.pair = .cert out.cert) := by
  unfold ipReply at h
  rw [if_pos rfl] at h
  unfold lwCmp at h
  by_cases hb : m.body ∉ ["ir", "cr", "kur", "crr"]
  · rw [if_pos hb] at h; cases h
  · rw [if_neg hb] at h
    cases hm : m.reqs with
    | nil => rw [hm] at h; cases h
    | cons r l =>
      cases l with
      | cons _ _ => rw [hm] at h; cases h
      | nil =>
        rw [hm] at h
        dsimp only at h
        by_cases hid : r.id ≠ 0
        · rw [if_pos hid] at h; cases h
        · rw [if_neg hid] at h
          rw [Classical.not_not] at hid
          dsimp only at h
          obtain ⟨h1, h2, h3, h4⟩ := processLoop_ok _ _ _ _ h
          rw [hm] at h1 h3 h4
          obtain ⟨out, ho, hc, q, hq, _, hpair⟩ := h4 0 (by simp)
          obtain ⟨k, hk, hp⟩ := C157_possession_partial env hl a m 0 r out (by rw [hm]; rfl) ho (.inl rfl)
          match cs, rs, h2, h3, hc, hq with
          | [c], [q'], _, _, hc, hq =>
            cases hc
            cases hq
            have : q.id = 0 := by simpa [hid] using h1
            refine ⟨r, out, k, q, rfl, hid, rfl, rfl, this, hk, hp, ?_, ?_⟩
            · intro e he
              rw [hpair, he]
            · intro he
              rw [hpair, he]

/-- **C159.** The responses to a request have the identifiers of the requests, in the same order; the certificates are
those of the requests, in the same order, each alone if it is encrypted. -/
theorem C159_ids (env : RaEnv A K S R E C N X G) (a : CaArgs X) (m : RMsg A R E C)
    (rs : List (Resp C E)) (cs : List C) (h : cpReply env a m = .ok (rs, cs)) :
    rs.map (·.id) = m.reqs.map (·.id) ∧ cs.length = m.reqs.length ∧
      ∀ j, j < m.reqs.length → ∃ out, processOne env a m j = .ok out ∧ cs[j]? = some out.cert ∧
        ∃ q, rs[j]? = some q ∧ q.priv = out.priv ∧
          q.pair = (match out.enc with | some e => .enc e | none => .cert out.cert) := by
  obtain ⟨h1, _, h3, h4⟩ := processLoop_ok _ _ _ _ h
  refine ⟨h1, h3, fun j hj => ?_⟩
  obtain ⟨out, ho, hrest⟩ := h4 j hj
  rw [Nat.zero_add] at ho
  exact ⟨out, ho, hrest⟩

/-- **C159.** If one request of a message is refused, there is no response at all. -/
theorem C159_all_or_nothing (env : RaEnv A K S R E C N X G) (a : CaArgs X) (m : RMsg A R E C) (j : Nat) (e : PyErr)
    (hj : j < m.reqs.length) (he : processOne env a m j = .error e) : ∃ e', cpReply env a m = .error e' := by
  cases h : cpReply env a m with
  | error e' => exact ⟨e', rfl⟩
  | ok x =>
    obtain ⟨out, ho, _⟩ := (C159_ids env a m x.1 x.2 h).2.2 j hj
    rw [he] at ho
    cases ho

end

/-- **C159.** The identifiers of requests are accepted exactly if they are 0 to the number of requests minus one, each
once, in any order. -/
theorem C159_numbers (ids : List Int) :
    checkIds ids = .ok () ↔ ids ≠ [] ∧ ids.Perm ((List.range ids.length).map (fun (n : Nat) => (n : Int))) := by
  have hinj : ((List.range ids.length).map (fun (n : Nat) => (n : Int))).Nodup := by
    exact List.Pairwise.map _ (fun a b h e => h (Int.ofNat.inj e)) List.nodup_range
  unfold checkIds
  match ids with
  | [] => simp
  | [x] =>
    by_cases hx : x = 0
    · subst hx; simp
    · simp [hx]
  | x :: y :: l =>
    dsimp only
    by_cases hn : (x :: y :: l).Nodup
    · rw [if_neg (not_not_intro hn)]
      have hall : ((List.range (x :: y :: l).length).all (fun n => decide ((n : Int) ∈ x :: y :: l))) = true ↔
          ∀ n : Nat, n < (x :: y :: l).length → (n : Int) ∈ x :: y :: l := by
        simp only [List.all_eq_true, List.mem_range, decide_eq_true_eq]
      by_cases ha : ((List.range (x :: y :: l).length).all (fun n => decide ((n : Int) ∈ x :: y :: l))) = true
      · rw [if_pos ha]
        simp only [ne_eq, reduceCtorEq, not_false_eq_true, true_and, true_iff]
        have hsub : (List.range (x :: y :: l).length).map (fun (n : Nat) => (n : Int)) ⊆ x :: y :: l := by
          intro z hz
          obtain ⟨n, hn', rfl⟩ := List.mem_map.1 hz
          exact hall.1 ha n (List.mem_range.1 hn')
        exact ((List.subperm_of_subset hinj hsub).perm_of_length_le (by simp)).symm
      · rw [if_neg ha]
        simp only [ne_eq, reduceCtorEq, not_false_eq_true, true_and, false_iff]
        intro hp
        refine ha (hall.2 fun n hn' => ?_)
        exact hp.mem_iff.2 (List.mem_map.2 ⟨n, List.mem_range.2 hn', rfl⟩)
    · rw [if_pos hn]
      simp only [reduceCtorEq, false_iff]
      rintro ⟨_, hp⟩
      exact hn (hp.nodup_iff.2 hinj)

example : checkIds [1, 2, 0] = .ok () := by decide
example : checkIds [1, 2, 3] = .error .badRequest := by decide

end Verif.Ra
