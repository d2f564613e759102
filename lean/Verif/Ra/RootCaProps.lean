import Verif.Ra.RootCa
import Verif.Check.ChainProps

/-!
# C163: the out-of-band hash. C164: updates of a root key. C165: validity periods
-/

namespace Verif.Ra

open Verif.CA hiding Bytes Msg
open Verif.Check

variable {C N K V A X S : Type}

/-! ## C163 -/

/-- A certificate as of RFC 4210, 5.2.5: self-signed; with an empty subject, equal alternative names. -/
def RootLike (env : OobEnv C N K) (c : C) : Prop :=
  SignedBy env.ch c c ∧
    (env.nullDn (env.ch.subject c) = true → ∃ n, env.san c = some n ∧ env.ian c = some n) ∧ env.lint c = .ok ()

theorem altNames_ok (env : OobEnv C N K) (c : C) :
    altNames env c = .ok () ↔ (env.nullDn (env.ch.subject c) = true → ∃ n, env.san c = some n ∧ env.ian c = some n) := by
  unfold altNames
  cases hn : env.nullDn (env.ch.subject c) with
  | false => simp
  | true =>
    simp only [Bool.true_eq_false, if_false, true_implies]
    cases hi : env.ian c with
    | none => simp
    | some i =>
      cases hs : env.san c with
      | none => simp
      | some s =>
        obtain ⟨i1, i2⟩ := i
        obtain ⟨s1, s2⟩ := s
        dsimp only
        rw [show (∃ n, some (s1, s2) = some n ∧ some (i1, i2) = some n) ↔ s1 = i1 ∧ s2 = i2 from
          ⟨by rintro ⟨n, h1, h2⟩; cases h1; cases h2; exact ⟨rfl, rfl⟩, by rintro ⟨rfl, rfl⟩; exact ⟨_, rfl, rfl⟩⟩]
        by_cases h1 : s1 = i1
        · rw [if_neg (not_not_intro h1)]
          by_cases h2 : s2 = i2
          · rw [if_neg (not_not_intro h2)]; simp [h1, h2]
          · rw [if_pos h2]; simp [h2]
        · rw [if_pos h1]; simp [h1]

/-- **C163 (exactly what is accepted).** The hash is the one of the encoding of the structure that contains it; issuer and
serial number are the ones of the certificate, which is like the one of a root. -/
theorem C163_iff_partial [DecidableEq N] (env : OobEnv C N K) (c : C) (o : OobHash N) :
    validateOob env c o = .ok () ↔ ∃ n, env.hashName o.alg = some n ∧ env.hash n (env.encHash o) = .ok o.val ∧
      env.ch.issuer c = o.issuer ∧ env.serial c = o.serial ∧ RootLike env c := by
  have hcert : oobCert env c o = .ok () ↔ env.ch.issuer c = o.issuer ∧ env.serial c = o.serial ∧ RootLike env c := by
    unfold oobCert RootLike
    by_cases h1 : env.ch.issuer c = o.issuer
    swap
    · simp [h1]
    rw [if_neg (not_not_intro h1)]
    by_cases h2 : env.serial c = o.serial
    swap
    · simp [h2]
    rw [if_neg (not_not_intro h2), ← altNames_ok, ← isCertSigner_true]
    simp only [h1, h2, true_and]
    cases hs : isCertSigner env.ch c c with
    | error e => simp
    | ok b =>
      cases b with
      | false => simp
      | true =>
        dsimp only
        cases altNames env c <;> simp
  unfold validateOob
  cases hn : env.hashName o.alg with
  | none => simp
  | some n =>
    simp only [Option.some.injEq, exists_eq_left']
    cases hv : env.hash n (env.encHash o) with
    | error e => simp
    | ok v =>
      dsimp only
      by_cases h : v = o.val
      · rw [if_neg (not_not_intro h), hcert]
        simp [h]
      · rw [if_pos h]
        simp [h]

/-- **C163 (refuted).** What `prepare_oob_cert_hash` makes for a certificate is refused for it, unless the hash has a
collision between a certificate and the structure. -/
theorem C163_never_refuted [DecidableEq N] (env : OobEnv C N K) (h : String) (c : C) (o : OobHash N)
    (hp : prepareOob env h c = .ok o) (hname : env.hashName o.alg = some h)
    (hinj : ∀ a b v, env.hash h a = .ok v → env.hash h b = .ok v → a = b) (hne : env.encHash o ≠ env.encCert c) :
    validateOob env c o ≠ .ok () := by
  intro hv
  obtain ⟨n, hn, h1, _⟩ := (C163_iff_partial env c o).1 hv
  rw [hname] at hn
  cases hn
  unfold prepareOob at hp
  cases hh : env.hash h (env.encCert c) with
  | error e => rw [hh] at hp; cases hp
  | ok v =>
    rw [hh] at hp
    dsimp only at hp
    cases ho : env.hashOid h with
    | error e => rw [ho] at hp; cases hp
    | ok oid =>
      rw [ho] at hp
      cases hp
      exact hne (hinj _ _ _ h1 hh)

/-- **C163 (refuted).** A structure that is accepted for one certificate is accepted for every other with the same issuer
and serial number that is like the one of a root: the hash says nothing about the certificate. -/
theorem C163_other_refuted [DecidableEq N] (env : OobEnv C N K) (c c' : C) (o : OobHash N)
    (h : validateOob env c o = .ok ()) (hi : env.ch.issuer c' = env.ch.issuer c) (hs : env.serial c' = env.serial c)
    (hr : RootLike env c') : validateOob env c' o = .ok () := by
  obtain ⟨n, h1, h2, h3, h4, _⟩ := (C163_iff_partial env c o).1 h
  exact (C163_iff_partial env c' o).2 ⟨n, h1, h2, hi.trans h3, hs.trans h4, hr⟩

/-- The environment for the examples: a certificate is an issuer, a serial number and a key; the hash of data is its
length. -/
def exOob : OobEnv (Nat × Nat × Nat) Nat Nat where
  ch := { subject := fun c => c.1, issuer := fun c => c.1, loadKey := fun c => .ok c.2.2, verify := fun _ _ _ => .ok () }
  serial := fun c => c.2.1
  encCert := fun c => [0, UInt8.ofNat c.1, UInt8.ofNat c.2.1, UInt8.ofNat c.2.2]
  encHash := fun o => 1 :: o.val
  hash := fun _ d => .ok [UInt8.ofNat d.length]
  hashOid := fun _ => .ok [1]
  hashName := fun _ => some "sha256"
  nullDn := fun n => n = 0
  san := fun c => if c.2.2 = 9 then some (true, [1]) else none
  ian := fun c => if c.2.2 = 9 then some (true, [1]) else none
  lint := fun _ => .ok ()

/-- The hash of the certificate is refused, the hash of the structure is accepted, for any key. -/
example : (prepareOob exOob "sha256" (5, 1, 2)) = .ok ⟨[1], 5, 1, [4]⟩ ∧
    validateOob exOob (5, 1, 2) ⟨[1], 5, 1, [4]⟩ = .error .valueError ∧
    validateOob exOob (5, 1, 2) ⟨[1], 5, 1, [2]⟩ = .ok () ∧ validateOob exOob (5, 1, 3) ⟨[1], 5, 1, [2]⟩ = .ok () := by
  decide +kernel

/-- With an empty subject, the alternative names are demanded. -/
example : validateOob exOob (0, 1, 2) ⟨[1], 0, 1, [2]⟩ = .error .valueError ∧
    validateOob exOob (0, 1, 9) ⟨[1], 0, 1, [2]⟩ = .ok () := by decide +kernel

/-! ## C164 -/

/-- The certificate has the name of the other as its issuer, and its signature verifies under the key of the other. -/
def IssuedBy (env : RootEnv N K V A X S) (c by' : RCert N K V A X) : Prop :=
  c.tbs.issuer = by'.tbs.subject ∧ env.verify by'.tbs.key c = .ok true

/-- A signature by a private key verifies under its public key. -/
structure RootLaws (env : RootEnv N K V A X S) : Prop where
  verified : ∀ s a t v, env.sign s a t = .ok v → env.verify (env.pub s) ⟨t, a, v⟩ = .ok true

theorem mustSign_ok [DecidableEq N] (env : RootEnv N K V A X S) (c p : RCert N K V A X) :
    mustSign env c p = .ok () ↔ IssuedBy env c p := by
  unfold mustSign rootSigner IssuedBy
  by_cases h : c.tbs.issuer = p.tbs.subject
  · rw [if_neg (not_not_intro h)]
    cases hv : env.verify p.tbs.key c with
    | error e => simp
    | ok b => cases b <;> simp [h]
  · rw [if_pos h]
    simp [h]

/-- **C164 (exactly what is accepted).** An update is accepted for a known root exactly if it has the new certificate,
self-signed and accepted by pkilint, a certificate signed by the old root, and, if it has the third one, this is signed by
the new key and has the old key. -/
theorem C164_validate_iff [DecidableEq N] [DecidableEq K] (env : RootEnv N K V A X S) (old : RCert N K V A X)
    (x : RootUpdate N K V A X) :
    processUpdate env (some old) x = .ok () ↔ ∃ nwn nwo, x.newWithNew = some nwn ∧ x.newWithOld = some nwo ∧
      IssuedBy env nwn nwn ∧ IssuedBy env nwo old ∧
      (∀ own, x.oldWithNew = some own → IssuedBy env own nwn ∧ own.tbs.key = old.tbs.key) ∧ env.lint nwn = .ok () := by
  have hown : ∀ nwn own, checkOldWithNew env old nwn own = .ok () ↔
      (∀ c, own = some c → IssuedBy env c nwn ∧ c.tbs.key = old.tbs.key) := by
    intro nwn own
    unfold checkOldWithNew
    cases own with
    | none => simp
    | some c =>
      simp only [Option.some.injEq, forall_eq']
      rw [← mustSign_ok]
      cases mustSign env c nwn with
      | error e => simp
      | ok y =>
        dsimp only
        by_cases h : old.tbs.key = c.tbs.key
        · simp [h]
        · rw [if_pos h]
          simp only [reduceCtorEq, true_and, false_iff]
          exact fun h' => h h'.symm
  unfold processUpdate
  cases hnwo : x.newWithOld with
  | none => simp
  | some nwo =>
    cases hnwn : x.newWithNew with
    | none => simp
    | some nwn =>
      simp only [Option.some.injEq]
      have : (∃ nwn' nwo', nwn = nwn' ∧ nwo = nwo' ∧ IssuedBy env nwn' nwn' ∧ IssuedBy env nwo' old ∧
          (∀ own, x.oldWithNew = some own → IssuedBy env own nwn' ∧ own.tbs.key = old.tbs.key) ∧ env.lint nwn' = .ok ()) ↔
          (IssuedBy env nwn nwn ∧ IssuedBy env nwo old ∧
          (∀ own, x.oldWithNew = some own → IssuedBy env own nwn ∧ own.tbs.key = old.tbs.key) ∧ env.lint nwn = .ok ()) :=
        ⟨by rintro ⟨_, _, rfl, rfl, h⟩; exact h, fun h => ⟨_, _, rfl, rfl, h⟩⟩
      rw [this, ← hown, ← mustSign_ok, ← mustSign_ok]
      unfold validateUpdate
      cases mustSign env nwn nwn with
      | error e => simp
      | ok y =>
        dsimp only
        cases mustSign env nwo old with
        | error e => simp
        | ok y =>
          dsimp only
          cases checkOldWithNew env old nwn x.oldWithNew <;> simp

theorem signTbs_ok {env : RootEnv N K V A X S} {t : Tbs N K V A X} {s : S} {c : RCert N K V A X}
    (h : signTbs env t s = .ok c) : ∃ a v, env.sigAlg s = .ok a ∧ env.sign s a { t with alg := a } = .ok v ∧
      c = ⟨{ t with alg := a }, a, v⟩ := by
  unfold signTbs at h
  cases ha : env.sigAlg s with
  | error e => rw [ha] at h; cases h
  | ok a =>
    rw [ha] at h
    dsimp only at h
    cases hv : env.sign s a { t with alg := a } with
    | error e => rw [hv] at h; cases h
    | ok v => rw [hv] at h; cases h; exact ⟨a, v, rfl, hv, rfl⟩

/-- What the three certificates of a made update are. -/
theorem prepUpdate_ok {env : RootEnv N K V A X S} (hl : RootLaws env) {old : RCert N K V A X} {ok nk : S} {serial : Int}
    {both : Bool} {x : RootUpdate N K V A X} (h : prepUpdate env old ok nk serial both = .ok x) :
    ∃ nwn nwo, x.newWithNew = some nwn ∧ x.newWithOld = some nwo ∧
      nwn.tbs.issuer = old.tbs.issuer ∧ nwn.tbs.subject = old.tbs.subject ∧ nwn.tbs.key = env.pub nk ∧
      nwn.tbs.serial = serial ∧ nwn.tbs.validity = env.validity ∧
      nwn.tbs.exts = [env.ski (env.pub nk), env.aki (env.pub nk)] ∧ env.verify (env.pub nk) nwn = .ok true ∧
      nwo.tbs = { nwn.tbs with issuer := old.tbs.subject, alg := nwo.tbs.alg } ∧ env.verify (env.pub ok) nwo = .ok true ∧
      (both = false → x.oldWithNew = none) ∧
      (both = true → ∃ own, x.oldWithNew = some own ∧
        own.tbs = { old.tbs with issuer := old.tbs.subject, alg := own.tbs.alg } ∧ env.verify (env.pub nk) own = .ok true) := by
  unfold prepUpdate at h
  cases h1 : newCaCert env old nk serial with
  | error e => rw [h1] at h; cases h
  | ok nwn =>
    rw [h1] at h
    dsimp only at h
    obtain ⟨a, v, ha, hv, rfl⟩ := signTbs_ok h1
    cases h2 : crossCert env ⟨{ old.tbs with validity := env.validity, serial := serial, exts := [env.ski (env.pub nk), env.aki (env.pub nk)], key := env.pub nk, alg := a }, a, v⟩ old ok with
    | error e => rw [h2] at h; cases h
    | ok nwo =>
      rw [h2] at h
      dsimp only at h
      obtain ⟨a2, v2, ha2, hv2, rfl⟩ := signTbs_ok h2
      cases both with
      | false =>
        simp only [Bool.false_eq_true, if_false] at h
        cases h
        exact ⟨_, _, rfl, rfl, rfl, rfl, rfl, rfl, rfl, rfl, hl.verified _ _ _ _ hv, rfl, hl.verified _ _ _ _ hv2,
          fun _ => rfl, nofun⟩
      | true =>
        simp only [if_true] at h
        cases h3 : crossCert env old ⟨{ old.tbs with validity := env.validity, serial := serial, exts := [env.ski (env.pub nk), env.aki (env.pub nk)], key := env.pub nk, alg := a }, a, v⟩ nk with
        | error e => rw [h3] at h; cases h
        | ok own =>
          rw [h3] at h
          cases h
          obtain ⟨a3, v3, ha3, hv3, rfl⟩ := signTbs_ok h3
          exact ⟨_, _, rfl, rfl, rfl, rfl, rfl, rfl, rfl, rfl, hl.verified _ _ _ _ hv, rfl, hl.verified _ _ _ _ hv2,
            nofun, fun _ => ⟨_, rfl, rfl, hl.verified _ _ _ _ hv3⟩⟩

/-- **C164 (what is made is accepted).** An update that the CA makes for its root is accepted by a client with that root
exactly if the root is self-issued and pkilint accepts the new certificate. -/
theorem C164_roundtrip_iff [DecidableEq N] [DecidableEq K] (env : RootEnv N K V A X S) (hl : RootLaws env)
    (old : RCert N K V A X) (ok nk : S) (serial : Int) (both : Bool) (x : RootUpdate N K V A X)
    (hk : old.tbs.key = env.pub ok) (h : prepUpdate env old ok nk serial both = .ok x) :
    processUpdate env (some old) x = .ok () ↔
      old.tbs.issuer = old.tbs.subject ∧ ∃ nwn, x.newWithNew = some nwn ∧ env.lint nwn = .ok () := by
  obtain ⟨nwn, nwo, h1, h2, hi, hs, hkey, _, _, _, hv, ht, hv2, hno, hyes⟩ := prepUpdate_ok hl h
  rw [C164_validate_iff]
  constructor
  · rintro ⟨nwn', nwo', e1, e2, i1, _, _, hlint⟩
    rw [h1] at e1
    cases e1
    exact ⟨by rw [← hi, i1.1, hs], nwn, h1, hlint⟩
  · rintro ⟨hself, nwn', e1, hlint⟩
    rw [h1] at e1
    cases e1
    refine ⟨nwn, nwo, h1, h2, ⟨by rw [hi, hs, hself], by rw [hkey]; exact hv⟩, ⟨by rw [ht], by rw [hk]; exact hv2⟩, ?_, hlint⟩
    intro own ho
    cases both with
    | false => rw [hno rfl] at ho; cases ho
    | true =>
      obtain ⟨own', e, et, ev⟩ := hyes rfl
      rw [ho] at e
      cases e
      exact ⟨⟨by rw [et]; exact hs.symm, by rw [hkey]; exact ev⟩, by rw [et]⟩

/-- **C164 (refuted).** The new root loses all extensions of the old one, basic constraints and key usage included: it has
the two identifiers of its key and nothing else. -/
theorem C164_extensions_refuted (env : RootEnv N K V A X S) (hl : RootLaws env) (old : RCert N K V A X) (ok nk : S)
    (serial : Int) (both : Bool) (x : RootUpdate N K V A X) (h : prepUpdate env old ok nk serial both = .ok x)
    (e : X) (_he : e ∈ old.tbs.exts) (hne : e ≠ env.ski (env.pub nk) ∧ e ≠ env.aki (env.pub nk)) :
    ∃ nwn, x.newWithNew = some nwn ∧ e ∉ nwn.tbs.exts := by
  obtain ⟨nwn, nwo, h1, _, _, _, _, _, _, hx, _⟩ := prepUpdate_ok hl h
  refine ⟨nwn, h1, ?_⟩
  rw [hx]
  simp [hne.1, hne.2]

/-- **C164 (refuted).** Issuer and serial number do not identify the certificates of an update: for a self-issued root,
the new certificate and the one signed by the old key have both in common, and so have the old root and the one signed by
the new key. -/
theorem C164_serial_refuted (env : RootEnv N K V A X S) (hl : RootLaws env) (old : RCert N K V A X) (ok nk : S)
    (serial : Int) (x : RootUpdate N K V A X) (hself : old.tbs.issuer = old.tbs.subject)
    (h : prepUpdate env old ok nk serial true = .ok x) :
    ∃ nwn nwo own, x.newWithNew = some nwn ∧ x.newWithOld = some nwo ∧ x.oldWithNew = some own ∧
      nwn.tbs.issuer = nwo.tbs.issuer ∧ nwn.tbs.serial = nwo.tbs.serial ∧
      own.tbs.issuer = old.tbs.issuer ∧ own.tbs.serial = old.tbs.serial := by
  obtain ⟨nwn, nwo, h1, h2, hi, _, _, _, _, _, _, ht, _, _, hyes⟩ := prepUpdate_ok hl h
  obtain ⟨own, ho, et, _⟩ := hyes rfl
  exact ⟨nwn, nwo, own, h1, h2, ho, by rw [hi, ht]; exact hself, by rw [ht], by rw [et]; exact hself.symm, by rw [et]⟩

/-- **C164 (refuted).** The certificate of the new key under the old key names the new key as the one of its issuer. -/
theorem C164_authority_refuted (env : RootEnv N K V A X S) (hl : RootLaws env) (old : RCert N K V A X) (ok nk : S)
    (serial : Int) (both : Bool) (x : RootUpdate N K V A X) (h : prepUpdate env old ok nk serial both = .ok x)
    (hne : env.aki (env.pub ok) ≠ env.aki (env.pub nk)) (hne' : env.aki (env.pub ok) ≠ env.ski (env.pub nk)) :
    ∃ nwo, x.newWithOld = some nwo ∧ env.verify (env.pub ok) nwo = .ok true ∧ env.aki (env.pub nk) ∈ nwo.tbs.exts ∧
      env.aki (env.pub ok) ∉ nwo.tbs.exts := by
  obtain ⟨nwn, nwo, _, h2, _, _, _, _, _, hx, _, ht, hv2, _⟩ := prepUpdate_ok hl h
  have hex : nwo.tbs.exts = [env.ski (env.pub nk), env.aki (env.pub nk)] := by rw [ht]; exact hx
  refine ⟨nwo, h2, hv2, ?_, ?_⟩
  · rw [hex]; simp
  · rw [hex]; simp [hne, hne']

/-- **C164 (refuted).** The two new certificates are not compared: everyone with any certificate signed by the old root can
make an update to their own self-signed certificate, which is accepted. -/
theorem C164_takeover_refuted [DecidableEq N] [DecidableEq K] (env : RootEnv N K V A X S) (old own ee : RCert N K V A X)
    (hee : IssuedBy env ee old) (hown : IssuedBy env own own) (hlint : env.lint own = .ok ()) :
    processUpdate env (some old) ⟨some own, some ee, none⟩ = .ok () :=
  (C164_validate_iff env old _).2 ⟨own, ee, rfl, rfl, hown, hee, nofun, hlint⟩

/-- **C164 (refuted).** The third certificate does not help: they sign it too. -/
theorem C164_takeover_full_refuted [DecidableEq N] [DecidableEq K] (env : RootEnv N K V A X S) (hl : RootLaws env)
    (old own ee : RCert N K V A X) (s : S) (c : RCert N K V A X)
    (hee : IssuedBy env ee old) (hown : IssuedBy env own own) (hlint : env.lint own = .ok ())
    (hk : own.tbs.key = env.pub s) (hc : crossCert env old own s = .ok c) :
    processUpdate env (some old) ⟨some own, some ee, some c⟩ = .ok () := by
  obtain ⟨a, v, _, hv, rfl⟩ := signTbs_ok hc
  refine (C164_validate_iff env old _).2 ⟨own, ee, rfl, rfl, hown, hee, ?_, hlint⟩
  intro c' h
  cases h
  exact ⟨⟨rfl, by rw [hk]; exact hl.verified _ _ _ _ hv⟩, rfl⟩

/-- **C164 (refuted).** Without the old root, every update with both certificates is accepted; a message without an update is
accepted always. -/
theorem C164_unknown_refuted [DecidableEq N] [DecidableEq K] (env : RootEnv N K V A X S) (a b : RCert N K V A X)
    (o : Option (RCert N K V A X)) (old : Option (RCert N K V A X)) :
    getUpdate env none (some (.ok (⟨some a, some b, o⟩, []))) = .ok () ∧ getUpdate env old none = .ok () := ⟨rfl, rfl⟩

/-- The environment for the examples: names and keys are numbers; a signature is the key. -/
def exRoot : RootEnv Nat Nat Nat Nat (String × Nat) Nat where
  pub := fun s => s
  sigAlg := fun _ => .ok 1
  sign := fun s _ _ => .ok [UInt8.ofNat s]
  verify := fun k c => .ok (decide (c.sig = [UInt8.ofNat k]))
  validity := 10
  ski := fun k => ("ski", k)
  aki := fun k => ("aki", k)
  lint := fun _ => .ok ()

theorem exRoot_laws : RootLaws exRoot where
  verified := fun s a t v h => by cases h; exact congrArg Except.ok (decide_eq_true rfl)

def exOldRoot : RCert Nat Nat Nat Nat (String × Nat) := ⟨⟨7, 7, 1, 5, 3, [("ca", 1)], 1⟩, 1, [3]⟩

/-- An update is made and accepted; its certificates have neither basic constraints nor different numbers. -/
example : ∃ x a b c, prepUpdate exRoot exOldRoot 3 4 99 true = .ok x ∧ x = ⟨some a, some b, some c⟩ ∧
    a.tbs.serial = 99 ∧ b.tbs.serial = 99 ∧ c.tbs.serial = 1 ∧ a.tbs.exts = [("ski", 4), ("aki", 4)] ∧
    processUpdate exRoot (some exOldRoot) x = .ok () :=
  ⟨_, _, _, _, rfl, rfl, rfl, rfl, rfl, rfl, by decide +kernel⟩

/-- A certificate not signed by the old root is refused. -/
example : processUpdate exRoot (some exOldRoot)
    ⟨some ⟨⟨7, 7, 2, 5, 6, [], 1⟩, 1, [6]⟩, some ⟨⟨7, 7, 2, 5, 6, [], 1⟩, 1, [6]⟩, none⟩ = .error .valueError := by
  decide +kernel

/-- The holder of a certificate (subject 20) becomes the root (subject 21). -/
example : processUpdate exRoot (some exOldRoot)
    ⟨some ⟨⟨21, 21, 2, 5, 6, [], 1⟩, 1, [6]⟩, some ⟨⟨7, 20, 2, 5, 8, [], 1⟩, 1, [3]⟩, none⟩ = .ok () := by decide +kernel

/-! ## C165 -/

/-- The time that a `Time` means (RFC 5280, 4.1.2.5.1): two digits from 50 on are of the last century. -/
def AsnTime.means : AsnTime → Time
  | .utc yy r => ⟨if 50 ≤ yy then 1900 + yy else 2000 + yy, r⟩
  | .gen y r => ⟨y, r⟩

/-- **C165 (the read year).** The two digits 00 to 68 are read as 2000 to 2068, 69 to 99 as 1969 to 1999. -/
theorem C165_years (yy r : Nat) (hy : yy < 100) :
    (AsnTime.utc yy r).read.year % 100 = yy ∧ 1969 ≤ (AsnTime.utc yy r).read.year ∧ (AsnTime.utc yy r).read.year ≤ 2068 ∧
      (AsnTime.utc yy r).read.rest = r := by
  unfold AsnTime.read
  dsimp only
  split <;> omega

/-- **C165 (refuted).** A `UTCTime` is read as the time that it means exactly if its year is not 1950 to 1968, which are read as
2050 to 2068. -/
theorem C165_read_refuted (yy r : Nat) (hy : yy < 100) :
    ((AsnTime.utc yy r).read = (AsnTime.utc yy r).means ↔ ¬ (50 ≤ yy ∧ yy ≤ 68)) ∧
      (50 ≤ yy → yy ≤ 68 → (AsnTime.utc yy r).read = ⟨(AsnTime.utc yy r).means.year + 100, r⟩) := by
  unfold AsnTime.read AsnTime.means
  simp only [Time.mk.injEq, and_true]
  refine ⟨?_, fun h1 h2 => ?_⟩
  · split <;> split <;> omega
  · rw [if_pos (by omega), if_pos h1]; omega

example : (AsnTime.utc 55 3).read = ⟨2055, 3⟩ ∧ (AsnTime.utc 55 3).means = ⟨1955, 3⟩ ∧ (AsnTime.utc 69 3).read = ⟨1969, 3⟩ := by
  decide

/-- **C165 (the written time).** A time in a certificate means the time that was to be written exactly if the year is
from 1950 to 2049: `UTCTime` is used for all. -/
theorem C165_written_iff (t : Time) : (toUtc t).means = t ↔ 1950 ≤ t.year ∧ t.year < 2050 := by
  obtain ⟨y, r⟩ := t
  unfold toUtc AsnTime.means
  simp only [Time.mk.injEq, and_true]
  split <;> omega

/-- **C165 (exactly what is answered).** A validity period is made exactly if `notBefore`, if requested, is not before the
limit; it starts at the requested time, or now, and ends at the requested time, or after the days; without any
request, it starts a day ago. -/
theorem C165_iff (k : Clock) (days max : Int) (v : Option (Option AsnTime × Option AsnTime)) (b a : AsnTime) :
    defaultValidity k days (some max) v = .ok (b, a) ↔
      (v = none ∧ b = toUtc (k.addDays k.now (-1)) ∧ a = toUtc (k.addDays (k.addDays k.now (-1)) days)) ∨
      ∃ nb na start, v = some (nb, na) ∧
        (nb = none ∧ start = k.now ∨
          ∃ t, nb = some t ∧ start = t.read ∧ t.read.before (k.addDays k.now (-max)) = false) ∧
        b = toUtc start ∧
        (na = none ∧ a = toUtc (k.addDays start days) ∨ ∃ t, na = some t ∧ a = toUtc t.read) := by
  unfold defaultValidity
  cases v with
  | none =>
    simp only [Except.ok.injEq, Prod.mk.injEq, true_and, reduceCtorEq, false_and, exists_false, or_false]
    constructor <;> rintro ⟨rfl, rfl⟩ <;> exact ⟨rfl, rfl⟩
  | some p =>
    obtain ⟨nb, na⟩ := p
    simp only [reduceCtorEq, false_and, false_or, Option.some.injEq, Prod.mk.injEq]
    have hst : ∀ s, firstTime k (some max) nb = .ok s ↔ (nb = none ∧ s = k.now ∨
          ∃ t, nb = some t ∧ s = t.read ∧ t.read.before (k.addDays k.now (-max)) = false) := by
      intro s
      unfold firstTime startTime
      cases nb with
      | none =>
        simp only [Except.ok.injEq, true_and, reduceCtorEq, false_and, exists_false, or_false]
        exact ⟨Eq.symm, Eq.symm⟩
      | some t =>
        simp only [reduceCtorEq, false_and, false_or, Option.some.injEq, exists_eq_left']
        cases h : t.read.before (k.addDays k.now (-max))
        · simp only [Bool.false_eq_true, if_false, Except.ok.injEq, and_true]
          exact ⟨Eq.symm, Eq.symm⟩
        · simp
    have : (∃ nb' na' start, (nb = nb' ∧ na = na') ∧
        (nb' = none ∧ start = k.now ∨
          ∃ t, nb' = some t ∧ start = t.read ∧ t.read.before (k.addDays k.now (-max)) = false) ∧
        b = toUtc start ∧
        (na' = none ∧ a = toUtc (k.addDays start days) ∨ ∃ t, na' = some t ∧ a = toUtc t.read)) ↔
        ∃ start, (nb = none ∧ start = k.now ∨
          ∃ t, nb = some t ∧ start = t.read ∧ t.read.before (k.addDays k.now (-max)) = false) ∧
        b = toUtc start ∧
        (na = none ∧ a = toUtc (k.addDays start days) ∨ ∃ t, na = some t ∧ a = toUtc t.read) :=
      ⟨by rintro ⟨_, _, s, ⟨rfl, rfl⟩, h⟩; exact ⟨s, h⟩, fun ⟨s, h⟩ => ⟨_, _, s, ⟨rfl, rfl⟩, h⟩⟩
    rw [this]
    simp only [← hst]
    cases hx : firstTime k (some max) nb with
    | error e => simp
    | ok s =>
      simp only [Except.ok.injEq, exists_eq_left']
      cases na with
      | none =>
        simp only [Except.ok.injEq, Prod.mk.injEq, true_and, reduceCtorEq, false_and, exists_false, or_false]
        exact ⟨fun h => ⟨h.1.symm, h.2.symm⟩, fun h => ⟨h.1.symm, h.2.symm⟩⟩
      | some t =>
        simp only [Except.ok.injEq, Prod.mk.injEq, reduceCtorEq, false_and, false_or, Option.some.injEq, exists_eq_left']
        exact ⟨fun h => ⟨h.1.symm, h.2.symm⟩, fun h => ⟨h.1.symm, h.2.symm⟩⟩

/-- **C165 (the requested period).** If both times are requested, of the years 1950 to 2049, the certificate has exactly
the requested period. -/
theorem C165_requested_partial (k : Clock) (days max : Int) (x y b a : AsnTime)
    (hx : 1950 ≤ x.read.year ∧ x.read.year < 2050) (hy : 1950 ≤ y.read.year ∧ y.read.year < 2050)
    (h : defaultValidity k days (some max) (some (some x, some y)) = .ok (b, a)) :
    b.means = x.read ∧ a.means = y.read ∧ x.read.before (k.addDays k.now (-max)) = false := by
  rcases (C165_iff k days max _ b a).1 h with ⟨h0, _⟩ | ⟨nb, na, start, hv, hb, rfl, ha⟩
  · cases h0
  cases hv
  rcases hb with ⟨h0, _⟩ | ⟨t, ht, rfl, hlim⟩
  · cases h0
  cases ht
  rcases ha with ⟨h0, _⟩ | ⟨t, ht, rfl⟩
  · cases h0
  cases ht
  exact ⟨(C165_written_iff _).2 hx, (C165_written_iff _).2 hy, hlim⟩

/-- **C165 (refuted).** A certificate requested until a year of 2050 to 2099 is made to end a century before: it has never been
valid. -/
theorem C165_century_refuted (k : Clock) (days max : Int) (nb : AsnTime) (y r : Nat) (b a : AsnTime)
    (hy : 2050 ≤ y ∧ y < 2100) (h : defaultValidity k days (some max) (some (some nb, some (.gen y r))) = .ok (b, a)) :
    a.means = ⟨y - 100, r⟩ := by
  rcases (C165_iff k days max _ b a).1 h with ⟨h0, _⟩ | ⟨nb, na, start, hv, hb, rfl, ha⟩
  · cases h0
  cases hv
  rcases ha with ⟨h0, _⟩ | ⟨t, ht, rfl⟩
  · cases h0
  cases ht
  simp only [AsnTime.read, toUtc, AsnTime.means, Time.mk.injEq, and_true]
  split <;> omega

/-- The clock for the examples: 300 days a year, one unit of the rest is a day. -/
def exClock : Clock where
  now := ⟨2026, 100⟩
  addDays := fun t d => ⟨(((t.year * 300 + t.rest : Nat) + d) / 300).toNat, (((t.year * 300 + t.rest : Nat) + d) % 300).toNat⟩

example : defaultValidity exClock 3000 (some 10) (some (none, none)) = .ok (.utc 26 100, .utc 36 100) ∧
    defaultValidity exClock 3000 (some 10) none = .ok (.utc 26 99, .utc 36 99) ∧
    defaultValidity exClock 3000 (some 10) (some (some (.utc 26 89), none)) = .error .badCertTemplate ∧
    defaultValidity exClock 3000 (some 10) (some (some (.utc 26 90), some (.gen 2030 5))) = .ok (.utc 26 90, .utc 30 5) := by
  decide +kernel

/-- **C165 (refuted).** A period that ends before it starts is accepted; a start in the far future too. -/
theorem C165_order_refuted : ∃ (x y b a : AsnTime), defaultValidity exClock 3650 (some 10) (some (some x, some y)) = .ok (b, a) ∧
    a.means.before b.means = true ∧ exClock.now.before b.means = true :=
  ⟨.utc 40 0, .utc 30 0, _, _, rfl, by decide +kernel, by decide +kernel⟩

/-- **C165 (refuted).** The default end, ten years after a requested start in 2045, is in 1955. -/
theorem C165_default_refuted : ∃ (x b a : AsnTime), defaultValidity exClock 3000 (some 10) (some (some x, none)) = .ok (b, a) ∧
    b.means.year = 2045 ∧ a.means.year = 1955 :=
  ⟨.utc 45 0, .utc 45 0, .utc 55 0, by decide +kernel, by decide +kernel, by decide +kernel⟩

end Verif.Ra
