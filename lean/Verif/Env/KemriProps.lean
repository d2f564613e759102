import Verif.Env.KariProps

/-!
# C152: KEM recipients of `EnvelopedData`
-/

namespace Verif.Env

open Verif.CA Verif.Prot

variable {S K C : Type}

/-! ## Specification -/

/-- The shared secret of the ciphertext; an RSA key decapsulates with RSA-KEM. -/
inductive KemSecret (env : KEnv S K C) (s : S) (ct : Bytes) (n : Nat) : Bytes → Prop
  | rsa {ss : Bytes} : env.isRsaDecap s = true → env.decapsRsa s ct n = .ok ss → KemSecret env s ct n ss
  | kem {ss : Bytes} : env.isRsaDecap s = false → env.decaps s .plain ct = .ok ss → KemSecret env s ct n ss

/-- `KemriKey env k c s pop sun cek` (RFC 9629): version 0; the recipient names the certificate (unless `pop`); the
algorithm is the KEM of the key (unless `sun`); the length of the derived key is that of the key wrap; the encrypted key
is unwrapped with the key derived from the shared secret and the other information. -/
inductive KemriKey (env : KEnv S K C) (k : Kemri) (c : Option C) (s : S) (pop sun : Bool) : Bytes → Prop
  | mk {r : Rid} {o ko w : Oid} {ct ek ss kek cek : Bytes} {par : KdfPar} {wp : Option Bytes} {n : Nat} :
      k.version = some 0 → k.rid = some r → (pop = false → ∃ c', c = some c' ∧ RidOf env c' r) → k.kem = some o →
      env.isKemOid o = true → (sun = false → env.kemOidE s = .ok o) → k.kemct = some ct → k.kdf = some (ko, par) →
      k.wrap = some ⟨w, wp⟩ → WrapAlg w n → k.kekLen = some (n : Int) → k.encKey = some ek →
      KemSecret env s ct n ss → KdfKey env.toEnv ko par ss (env.encOther ⟨w, wp⟩ n k.ukm) n kek →
      env.unwrap kek ek = .ok cek → KemriKey env k c s pop sun cek

/-- The parameters of the key derivation are not a structure for PBKDF2, as in any received message, and the hash
function is not that of a composite or post-quantum algorithm. -/
def KemriUsual (env : KEnv S K C) (k : Kemri) : Prop :=
  ∀ o par, k.kdf = some (o, par) → (∀ p, par ≠ .pbkdf2 p) ∧ ∀ ho, HasHash env.toEnv par ho → env.special ho = none

/-! ## Lemmas -/

theorem kemRid_iff (env : KEnv S K C) (r : Option Rid) (c : Option C) (pop : Bool) :
    kemRid env r c pop = .ok () ↔ ∃ r', r = some r' ∧ (pop = false → ∃ c', c = some c' ∧ RidOf env c' r') := by
  unfold kemRid
  cases r with
  | none => simp
  | some r =>
    cases pop with
    | true => simp
    | false =>
      dsimp only
      rw [if_neg (by simp)]
      cases c with
      | none => simp
      | some c =>
        dsimp only
        rw [checkRid_iff]
        constructor
        · intro h
          exact ⟨r, rfl, fun _ => ⟨c, rfl, h⟩⟩
        · rintro ⟨r', h1, h2⟩
          obtain ⟨c', h3, h4⟩ := h2 rfl
          cases h1
          cases h3
          exact h4

theorem checkKem_iff (env : KEnv S K C) (k : Kemri) (s : S) (sun : Bool) (ct : Bytes) :
    checkKem env k (some s) sun = .ok ct ↔ ∃ o, k.kem = some o ∧ env.isKemOid o = true ∧ k.kemct = some ct ∧
      (sun = false → env.kemOidE s = .ok o) := by
  unfold checkKem
  constructor
  · intro h
    cases h1 : k.kem with
    | none => rw [h1] at h; cases h
    | some o =>
      rw [h1] at h
      dsimp only at h
      split at h
      · cases h
      · rename_i h2
        cases h3 : k.kemct with
        | none => rw [h3] at h; cases h
        | some c =>
          rw [h3] at h
          dsimp only at h
          cases h4 : kemOidOk env o (some s) sun with
          | error e => rw [h4] at h; cases h
          | ok u =>
            rw [h4] at h
            cases h
            refine ⟨o, rfl, by simpa using h2, rfl, fun hs => ?_⟩
            subst hs
            unfold kemOidOk at h4
            dsimp only at h4
            rw [if_neg (by simp)] at h4
            cases h5 : env.kemOidE s with
            | error e => rw [h5] at h4; cases h4
            | ok ko =>
              rw [h5] at h4
              dsimp only at h4
              split at h4
              · cases h4
              · rename_i he
                rw [Classical.not_not.mp he]
  · rintro ⟨o, h1, h2, h3, h4⟩
    rw [h1]
    dsimp only
    rw [if_neg (by simp [h2]), h3]
    dsimp only
    have : kemOidOk env o (some s) sun = .ok () := by
      unfold kemOidOk
      dsimp only
      cases sun with
      | true => rfl
      | false =>
        rw [if_neg (by simp), h4 rfl]
        simp
    rw [this]

theorem checkWrap_iff (k : Kemri) (w : RawAlg) (n : Int) :
    checkWrap k = .ok (w, n) ↔ k.wrap = some w ∧ k.kekLen = some n ∧ ∃ m : Nat, WrapAlg w.oid m ∧ n = m := by
  unfold checkWrap
  constructor
  · intro h
    cases h1 : k.wrap with
    | none => rw [h1] at h; cases h
    | some w' =>
      rw [h1] at h
      dsimp only at h
      cases h2 : k.kekLen with
      | none => rw [h2] at h; cases h
      | some n' =>
        rw [h2] at h
        dsimp only at h
        cases h3 : lenOf wrapLens w'.oid with
        | none => rw [h3] at h; cases h
        | some m =>
          rw [h3] at h
          dsimp only at h
          split at h
          · cases h
          · rename_i he
            cases h
            exact ⟨rfl, rfl, m, (lenOf_wrap _ _).mp h3, Classical.not_not.mp he⟩
  · rintro ⟨h1, h2, m, h3, h4⟩
    rw [h1]
    dsimp only
    rw [h2]
    dsimp only
    rw [(lenOf_wrap _ _).mpr h3]
    dsimp only
    rw [if_neg (not_not_intro h4)]

theorem kdfKey_oid {env : Prot.Env S K C} {o : Oid} {par : KdfPar} {ss info key : Bytes} {n : Int}
    (h : KdfKey env o par ss info n key) : isKdfOid o = true := by
  cases h with
  | hkdf hm _ =>
    have : ∀ x ∈ hkdfSpec, isKdfOid x.1 = true := by decide +kernel
    exact this _ hm
  | kdf2 => rfl
  | kdf3 => rfl

theorem checkKemri_iff (env : KEnv S K C) (k : Kemri) (c : Option C) (s : S) (pop sun : Bool) (p : KemParts) :
    checkKemri env k c (some s) pop sun = .ok p ↔ ∃ r o m, k.version = some 0 ∧ k.rid = some r ∧
      (pop = false → ∃ c', c = some c' ∧ RidOf env c' r) ∧ k.kem = some o ∧ env.isKemOid o = true ∧
      (sun = false → env.kemOidE s = .ok o) ∧ k.kemct = some p.ct ∧ k.kdf = some (p.kdf, p.kdfPar) ∧
      isKdfOid p.kdf = true ∧ k.wrap = some p.wrap ∧ WrapAlg p.wrap.oid m ∧ p.len = m ∧ k.kekLen = some p.len ∧
      k.encKey = some p.encKey ∧ p.ukm = k.ukm := by
  unfold checkKemri
  constructor
  · intro h
    split at h
    · cases h
    · rename_i hv
      cases h1 : kemRid env k.rid c pop with
      | error e => rw [h1] at h; cases h
      | ok u =>
        rw [h1] at h
        dsimp only at h
        obtain ⟨r, hr, hr'⟩ := (kemRid_iff _ _ _ _).mp h1
        cases h2 : checkKem env k (some s) sun with
        | error e => rw [h2] at h; cases h
        | ok ct =>
          rw [h2] at h
          dsimp only at h
          obtain ⟨o, g1, g2, g3, g4⟩ := (checkKem_iff _ _ _ _ _).mp h2
          unfold kemTail at h
          cases h3 : k.kdf with
          | none => rw [h3] at h; cases h
          | some y =>
            obtain ⟨ko, par⟩ := y
            rw [h3] at h
            dsimp only at h
            split at h
            · cases h
            · rename_i hk
              cases h4 : checkWrap k with
              | error e => rw [h4] at h; cases h
              | ok y =>
                obtain ⟨w, n⟩ := y
                rw [h4] at h
                dsimp only at h
                obtain ⟨w1, w2, m, w3, w4⟩ := (checkWrap_iff _ _ _).mp h4
                cases h5 : k.encKey with
                | none => rw [h5] at h; cases h
                | some ek =>
                  rw [h5] at h
                  cases h
                  exact ⟨r, o, m, Classical.not_not.mp hv, hr, hr', g1, g2, g4, g3, rfl, by simpa using hk, w1, w3, w4,
                    w2, rfl, rfl⟩
  · rintro ⟨r, o, m, h1, h2, h3, h4, h5, h6, h7, h8, h9, h10, h11, h12, h13, h14, h15⟩
    rw [if_neg (not_not_intro h1), (kemRid_iff _ _ _ _).mpr ⟨r, h2, h3⟩]
    dsimp only
    rw [(checkKem_iff env k s sun p.ct).mpr ⟨o, h4, h5, h7, h6⟩]
    dsimp only
    unfold kemTail
    rw [h8]
    dsimp only
    rw [if_neg (by simp [h9]), (checkWrap_iff k p.wrap p.len).mpr ⟨h10, h13, m, h11, h12⟩]
    dsimp only
    rw [h14]
    dsimp only
    rw [← h15]

theorem kemShared_iff (env : KEnv S K C) (s : S) (p : KemParts) (n : Nat) (hn : p.len = n) (ss : Bytes) :
    kemShared env (some s) p = .ok ss ↔ KemSecret env s p.ct n ss := by
  unfold kemShared
  dsimp only
  rw [hn]
  cases hr : env.isRsaDecap s with
  | true =>
    rw [if_pos rfl]
    constructor
    · intro h; exact .rsa hr h
    · intro h
      cases h with
      | rsa _ h => exact h
      | kem h _ => rw [hr] at h; cases h
  | false =>
    rw [if_neg (by simp)]
    constructor
    · intro h; exact .kem hr h
    · intro h
      cases h with
      | kem _ h => exact h
      | rsa h _ => rw [hr] at h; cases h

/-- The key derivation; PBKDF2 with encoded parameters always fails. -/
theorem kdfOf_raw_iff (env : Prot.Env S K C) (o : Oid) (par : KdfPar) (ss info : Bytes) (len : Int) (key : Bytes)
    (hp : ∀ p, par ≠ .pbkdf2 p) (hs : ∀ ho, HasHash env par ho → env.special ho = none) (hne : ∀ n x, env.H n x ≠ []) :
    kdfOf env o par ss info len = .ok key ↔ KdfKey env o par ss info len key := by
  by_cases ho : o = pbkdf2Oid
  · subst ho
    obtain ⟨t1, t2, t3, t4, t5, t6⟩ := kdf_oids
    constructor
    · intro h
      unfold kdfOf at h
      rw [t3] at h
      dsimp only at h
      rw [if_neg (fun c => c.elim t5 t6), if_pos rfl] at h
      unfold getKdfPbkdf2 at h
      cases par with
      | pbkdf2 p => exact absurd rfl (hp p)
      | absent => cases h
      | hash o => cases h
      | raw b =>
        dsimp only at h
        cases hd : env.decAlg b with
        | none => rw [hd] at h; cases h
        | some y => rw [hd] at h; cases h
    · intro h
      have hx : ∀ x, x = pbkdf2Oid → ¬ KdfKey env x par ss info len key := by
        intro x hx hk
        cases hk with
        | hkdf hm _ =>
          have : ∀ y ∈ hkdfSpec, y.1 ≠ pbkdf2Oid := by decide +kernel
          exact this _ hm hx
        | kdf2 => exact t5 hx.symm
        | kdf3 => exact t6 hx.symm
      exact absurd h (hx _ rfl)
  · exact kdfOf_iff env o par ss info len key ho hs hne

/-! ## C152 -/

/-- C152: the content encryption key of a KEM recipient: all conditions hold, and it is the unwrapped one. -/
theorem C152_iff (env : KEnv S K C) (k : Kemri) (c : Option C) (s : S) (pop sun : Bool) (cek : Bytes)
    (hu : KemriUsual env k) (hne : ∀ n x, env.H n x ≠ []) :
    kemCek env k c (some s) pop sun = .ok cek ↔ KemriKey env k c s pop sun cek := by
  unfold kemCek
  constructor
  · intro h
    split at h
    · cases h
    · cases hc : checkKemri env k c (some s) pop sun with
      | error e => rw [hc] at h; cases h
      | ok p =>
        rw [hc] at h
        dsimp only at h
        obtain ⟨r, o, m, h1, h2, h3, h4, h5, h6, h7, h8, h9, h10, h11, h12, h13, h14, h15⟩ :=
          (checkKemri_iff env k c s pop sun p).mp hc
        cases hs : kemShared env (some s) p with
        | error e => rw [hs] at h; cases h
        | ok ss =>
          rw [hs] at h
          dsimp only at h
          cases hk : kdfOf env.toEnv p.kdf p.kdfPar ss (env.encOther p.wrap p.len p.ukm) p.len with
          | error e => rw [hk] at h; cases h
          | ok kek =>
            rw [hk] at h
            obtain ⟨u1, u2⟩ := hu _ _ h8
            have hkk := (kdfOf_raw_iff env.toEnv p.kdf p.kdfPar ss _ p.len kek u1 u2 hne).mp hk
            rw [h12, h15] at hkk
            exact .mk h1 h2 h3 h4 h5 h6 h7 h8 h10 h11 (by rw [h13, h12]) h14
              ((kemShared_iff env s p m h12 ss).mp hs) hkk h
  · intro h
    cases h with
    | @mk r o ko w ct ek ss kek _ par wp n h1 h2 h3 h4 h5 h6 h7 h8 h9 h10 h11 h12 h13 h14 h15 =>
      rw [if_neg (by
        rintro ⟨g1, g2⟩
        obtain ⟨c', rfl, _⟩ := h3 g1
        cases g2)]
      rw [(checkKemri_iff env k c s pop sun ⟨ct, ko, par, ⟨w, wp⟩, n, ek, k.ukm⟩).mpr
        ⟨r, o, n, h1, h2, h3, h4, h5, h6, h7, h8, kdfKey_oid h14, h9, h10, rfl, h11, h12, rfl⟩]
      dsimp only
      rw [(kemShared_iff env s _ n rfl ss).mpr h13]
      dsimp only
      obtain ⟨u1, u2⟩ := hu _ _ h8
      rw [(kdfOf_raw_iff env.toEnv ko par ss _ n kek u1 u2 hne).mpr h14]
      exact h15

/-- C152: without a private key nothing is returned. -/
theorem C152_key (env : KEnv S K C) (k : Kemri) (c : Option C) (pop sun : Bool) (cek : Bytes) :
    kemCek env k c none pop sun ≠ .ok cek := by
  intro h
  unfold kemCek kemShared at h
  split at h
  · cases h
  · split at h <;> cases h

/-! ## Round trip -/

theorem prepKdf_shape {rnd : Bytes} {kdf h : String} {ko : Oid} {kp : KdfPar} (hk : kdf ≠ "pbkdf2")
    (hp : prepKdf rnd kdf h = .ok (ko, kp)) : ko ≠ pbkdf2Oid ∧ isKdfOid ko = true ∧
      ((∃ ho, kp = .hash ho) ∨ kp = .absent ∧ (look hkdfNames ko).isSome = true) := by
  unfold prepKdf at hp
  rw [if_neg hk] at hp
  by_cases hh : kdf = "hkdf"
  · rw [if_pos hh] at hp
    cases hl : lookOid hkdfNames ("hkdf-" ++ h) with
    | none => rw [hl] at hp; cases hp
    | some o' =>
      rw [hl] at hp
      cases hp
      have hm := lookOid_mem _ _ _ hl
      have : ∀ x ∈ hkdfNames, x.1 ≠ pbkdf2Oid ∧ isKdfOid x.1 = true ∧ (look hkdfNames x.1).isSome = true := by
        decide +kernel
      obtain ⟨t1, t2, t3⟩ := this _ hm
      exact ⟨t1, t2, Or.inr ⟨rfl, t3⟩⟩
  · rw [if_neg hh] at hp
    split at hp
    · obtain ⟨o', _, e⟩ := map_ok hp
      cases e
      refine ⟨?_, ?_, Or.inl ⟨_, rfl⟩⟩ <;> split <;> decide
    · cases hp

theorem wrapByName_alg {n : String} {w : Oid} {len : Int} (h : wrapByName n = .ok (w, len)) :
    ∃ m : Nat, WrapAlg w m ∧ len = m := by
  unfold wrapByName at h
  split at h
  · cases h; exact ⟨16, Or.inl ⟨rfl, rfl⟩, rfl⟩
  · split at h
    · cases h; exact ⟨24, Or.inr (Or.inl ⟨rfl, rfl⟩), rfl⟩
    · split at h
      · cases h; exact ⟨32, Or.inr (Or.inr ⟨rfl, rfl⟩), rfl⟩
      · cases h

/-- The encapsulation for a key that is not an RSA key. -/
theorem kemEncaps_plain (env : KEnv S K C) {key : K} {rnd ss ct : Bytes} {ko : Oid} (hr : env.isRsaKemPub key = false)
    (h : kemEncaps env key rnd none = .ok (ss, ct, ko)) :
    env.encaps key .plain rnd = .ok (ss, ct) ∧ env.kemOidPubE key = .ok ko := by
  unfold kemEncaps at h
  rw [hr] at h
  split at h
  · cases h
  · rw [if_neg (by simp)] at h
    cases hen : env.encaps key .plain rnd with
    | error e => rw [hen] at h; cases h
    | ok y =>
      obtain ⟨ss', ct'⟩ := y
      rw [hen] at h
      dsimp only at h
      cases hpo : env.kemOidPubE key with
      | error e => rw [hpo] at h; cases h
      | ok ko' =>
        rw [hpo] at h
        cases h
        exact ⟨rfl, rfl⟩

/-- C152: the recipient that the code builds for a certificate, with HKDF, KDF2 or KDF3 and without a length of its own,
gives back the key after transport, if the key is not an RSA key and the decapsulation inverts the encapsulation. -/
theorem C152_roundtrip (env : KEnv S K C) {key : K} {c : C} {cek rnd salt : Bytes} {o : KemOpts} {k : Kemri} {s : S}
    {pop sun : Bool} (h : buildKemri env key (some c) cek rnd salt none none o = .ok k) (hv : o.version = 0)
    (hkdf : o.kdf ≠ "pbkdf2") (hlen : o.kekLen = none) (hko : o.kemOid = none) (hr : env.isRsaKemPub key = false)
    (hr' : env.isRsaDecap s = false) (hoid : env.kemOidE s = env.kemOidPubE key)
    (hok : ∀ x, env.kemOidPubE key = .ok x → env.isKemOid x = true)
    (hd : ∀ ss ct, env.encaps key .plain rnd = .ok (ss, ct) → env.decaps s .plain ct = .ok ss)
    (hal : ∀ x, env.decAlg (env.encHashAlg x) = some (x, []))
    (hw : ∀ kek ek, env.wrap kek cek = .ok ek → env.unwrap kek ek = .ok cek) :
    kemCek env (wireKemri env k) (some c) (some s) pop sun = .ok cek := by
  unfold buildKemri at h
  obtain ⟨r, h1, h2⟩ := buildRid_of env c
  unfold ridOr at h
  dsimp only at h
  rw [h1] at h
  dsimp only at h
  cases hwn : wrapByName o.wrap with
  | error e => rw [hwn] at h; cases h
  | ok y =>
    obtain ⟨w, len⟩ := y
    rw [hwn] at h
    dsimp only at h
    obtain ⟨m, hm, rfl⟩ := wrapByName_alg hwn
    have hl : kekLenOr o m = m := by unfold kekLenOr; rw [hlen]
    rw [hl] at h
    rw [hko] at h
    cases hke : kemEncaps env key rnd none with
    | error e => rw [hke] at h; cases h
    | ok y =>
      obtain ⟨ss, ct, ko⟩ := y
      rw [hke] at h
      dsimp only at h
      obtain ⟨hen, hpo⟩ := kemEncaps_plain env hr hke
      cases hpk : prepKdf salt o.kdf o.hash with
      | error e => rw [hpk] at h; cases h
      | ok y =>
        obtain ⟨kd, kp⟩ := y
        rw [hpk] at h
        dsimp only at h
        unfold kemWrap at h
        dsimp only at h
        cases hkd : kdfOf env.toEnv kd kp ss (env.encOther ⟨w, none⟩ m o.ukm) m with
        | error e => rw [hkd] at h; cases h
        | ok kek =>
          rw [hkd] at h
          dsimp only at h
          cases hek : env.wrap kek cek with
          | error e => rw [hek] at h; cases h
          | ok ek =>
            rw [hek] at h
            cases h
            obtain ⟨p1, p2, p3⟩ := prepKdf_shape hkdf hpk
            unfold kemCek
            rw [if_neg (by simp)]
            rw [(checkKemri_iff env _ (some c) s pop sun
              ⟨ct, kd, wireKdfPar env kp, ⟨w, none⟩, m, ek, o.ukm⟩).mpr
              ⟨r, ko, m, congrArg some hv, rfl, fun _ => ⟨c, rfl, h2⟩, rfl, hok ko hpo,
                fun _ => by rw [hoid, hpo], rfl, rfl, p2, rfl, hm, rfl, rfl, rfl, rfl⟩]
            dsimp only
            rw [(kemShared_iff env s _ m rfl ss).mpr (.kem hr' (hd ss ct hen))]
            dsimp only
            have : kdfOf env.toEnv kd (wireKdfPar env kp) ss (env.encOther ⟨w, none⟩ m o.ukm) m = .ok kek := by
              rcases p3 with ⟨ho, rfl⟩ | ⟨rfl, hs⟩
              · exact kdfOf_sent env.toEnv kd (.hash ho) _ ss _ m kek p1 ⟨_, rfl, hal ho⟩ (Or.inl ⟨ho, rfl⟩) hkd
              · exact kdfOf_sent env.toEnv kd .absent _ ss _ m kek p1 trivial (Or.inr hs) hkd
            rw [this]
            exact hw _ _ hek

/-- C152: the whole recipient after transport. -/
theorem C152_ori (env : KEnv S K C) {k : Kemri} {c : Option C} {s : Option S} {pop : Bool} {cek : Bytes}
    (hc : env.decKemri (env.encKemri k) = some (wireKemri env k, []))
    (h : kemCek env (wireKemri env k) c s pop false = .ok cek) :
    wireRi env (.ori oriKemOid (.obj k)) = .ori oriKemOid (.raw (env.encKemri k)) ∧
    oriCek env oriKemOid (.raw (env.encKemri k)) c s pop = .ok cek ∧
    decodeOri env oriKemOid (.raw (env.encKemri k)) = .ok (wireKemri env k) := by
  have hd : decodeKemri env (env.encKemri k) = .ok (wireKemri env k) := by
    unfold decodeKemri
    rw [hc]
    simp
  refine ⟨rfl, ?_, ?_⟩
  · unfold oriCek
    rw [if_neg (by simp)]
    dsimp only
    rw [hd]
    exact h
  · unfold decodeOri
    rw [if_neg (by simp)]
    exact hd

end Verif.Env
