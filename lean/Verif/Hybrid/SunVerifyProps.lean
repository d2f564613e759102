import Verif.Hybrid.SunProps

/-!
# Properties of the verification of Sun hybrid certificates (C140)

The specification: the traditional signature covers the Form 4 certificate, the key named by the certificate is served
at its location and has the hash and the algorithm written there, and the alternative signature, served at its location
with the hash written there, covers the Form 4 certificate without the extension that names it.
-/

namespace Verif.Hybrid

open Verif.CA Verif.Check

variable {S K : Type}

/-- The traditional signature: the key in the certificate of the issuer has signed the certificate. -/
def TradSigned (env : SunEnv S K) (c4 issuer : Cert) : Prop :=
  ∃ k, env.loadKey issuer.tbs.spki = .ok k ∧ env.isVerifyKey k = true ∧
    env.verifyAlg k c4.tbs.alg (env.encTbs c4.tbs) c4.sig = .ok ()

/-- The hash of the structure is that of `b`. -/
def HashIs (env : SunEnv S K) (v : SunVal) (b : Bytes) : Prop :=
  ∃ a h, v.hashAlg = some a ∧ env.hashOf a.oid = .ok (some h) ∧ env.digest h b = .ok v.value

/-- The certificate names the key `k` by reference: the first extension is not critical, and its location serves an SPKI
with the named algorithm from which `k` is loaded and whose hash it contains. -/
def KeyNamed (env : SunEnv S K) (fetch : String → Except PyErr Bytes) (c4 : Cert) (k : K) : Prop :=
  ∃ x v r u b o, IsFirst c4.tbs.exts sunKeyOid x ∧ x.critical = false ∧ env.decPub x.value = some (v, r) ∧
    v.byVal = false ∧ v.loc = some u ∧ fetch u = .ok b ∧ env.decSpki b = some (o, []) ∧ env.loadKey o = .ok k ∧
    HashIs env v (env.spkiOf k) ∧ env.spkiAlg o = v.alg

/-- The last extension with the OID `o`. -/
def IsLast (l : List Ext) (o : Oid) (e : Ext) : Prop :=
  ∃ pre post, l = pre ++ e :: post ∧ e.oid = o ∧ ∀ x ∈ post, x.oid ≠ o

/-- The alternative signature `s` of the certificate was made with the key `k`: it covers the certificate without the
extension, its hash is in the extension, and no such extension is critical. -/
def AltSigned (env : SunEnv S K) (c4 : Cert) (k : K) (s : Bytes) : Prop :=
  (∀ x ∈ c4.tbs.exts, x.oid = sunSigOid → x.critical = false) ∧
  ∃ x v r, IsLast c4.tbs.exts sunSigOid x ∧ env.decSig x.value = some (v, r) ∧ HashIs env v s ∧
    env.verifyAlg k v.alg
      (env.encTbs { c4.tbs with exts := c4.tbs.exts.filter (fun x => decide (x.oid ≠ sunSigOid)) }) s = .ok ()

/-- The location of the alternative signature in the certificate serves `s`. -/
def SigServed (env : SunEnv S K) (fetch : String → Except PyErr Bytes) (c4 : Cert) (s : Bytes) : Prop :=
  ∃ x v r u, IsLast c4.tbs.exts sunSigOid x ∧ env.decSig x.value = some (v, r) ∧ v.loc = some u ∧ fetch u = .ok s

theorem pubForCheck_ok (env : SunEnv S K) (l : List Ext) (v : SunVal) (h : pubForCheck env l = .ok v) :
    ∃ x r, IsFirst l sunKeyOid x ∧ x.critical = false ∧ env.decPub x.value = some (v, r) := by
  induction l with
  | nil => cases h
  | cons x l ih =>
    unfold pubForCheck at h
    by_cases hx : x.oid = sunKeyOid
    · rw [if_pos hx] at h
      cases hd : env.decPub x.value with
      | none => rw [hd] at h; cases h
      | some p =>
        obtain ⟨w, r⟩ := p
        rw [hd] at h
        dsimp only at h
        by_cases hc : x.critical = true
        · rw [if_pos hc] at h; cases h
        · rw [if_neg hc] at h
          cases h
          exact ⟨x, r, ⟨[], l, rfl, hx, fun y hy => (by cases hy)⟩, by simpa using hc, hd⟩
    · rw [if_neg hx] at h
      obtain ⟨y, r, ⟨a, b, e, ho, ha⟩, hc, hd⟩ := ih h
      refine ⟨y, r, ⟨x :: a, b, by rw [e]; rfl, ho, ?_⟩, hc, hd⟩
      intro z hz
      rcases List.mem_cons.1 hz with rfl | hz
      · exact hx
      · exact ha z hz

theorem pubForCheck_of (env : SunEnv S K) (l : List Ext) (x : Ext) (v : SunVal) (r : Bytes)
    (h : IsFirst l sunKeyOid x) (hc : x.critical = false) (hd : env.decPub x.value = some (v, r)) :
    pubForCheck env l = .ok v := by
  obtain ⟨a, b, rfl, ho, ha⟩ := h
  induction a with
  | nil =>
    rw [List.nil_append]
    unfold pubForCheck
    rw [if_pos ho, hd]
    dsimp only
    rw [if_neg (by rw [hc]; decide)]
  | cons y a ih =>
    rw [List.cons_append]
    unfold pubForCheck
    rw [if_neg (ha y List.mem_cons_self)]
    exact ih (fun z hz => ha z (List.mem_cons_of_mem _ hz))

theorem sunHash_some (env : SunEnv S K) (v : SunVal) (h : String) (he : sunHash env v = .ok (some h)) :
    ∃ a, v.hashAlg = some a ∧ env.hashOf a.oid = .ok (some h) := by
  unfold sunHash at he
  cases ha : v.hashAlg with
  | none => rw [ha] at he; cases he
  | some a =>
    rw [ha] at he
    exact ⟨a, rfl, he⟩

theorem validatePub_ok (env : SunEnv S K) (fetch : String → Except PyErr Bytes) (c : Cert) (k : K)
    (h : validatePub env fetch c = .ok k) : KeyNamed env fetch c k := by
  unfold validatePub at h
  cases hp : pubForCheck env c.tbs.exts with
  | error e => rw [hp] at h; cases h
  | ok v =>
    rw [hp] at h
    dsimp only at h
    by_cases hv : v.byVal = true
    · rw [if_pos hv] at h; cases h
    · rw [if_neg hv] at h
      cases hl : v.loc with
      | none => rw [hl] at h; cases h
      | some u =>
        rw [hl] at h
        dsimp only at h
        cases hf : fetch u with
        | error e => rw [hf] at h; cases h
        | ok b =>
          rw [hf] at h
          dsimp only at h
          cases hk : procKey env b with
          | error e => rw [hk] at h; cases h
          | ok k' =>
            rw [hk] at h
            dsimp only at h
            unfold checkFetchedKey at h
            cases hh : sunHash env v with
            | error e => rw [hh] at h; cases h
            | ok o =>
              cases o with
              | none => rw [hh] at h; cases h
              | some hn =>
                rw [hh] at h
                dsimp only at h
                cases hd : env.digest hn (env.spkiOf k') with
                | error e => rw [hd] at h; cases h
                | ok dg =>
                  rw [hd] at h
                  dsimp only at h
                  by_cases he : dg ≠ v.value
                  · rw [if_pos he] at h; cases h
                  · rw [if_neg he] at h
                    have he' : dg = v.value := Decidable.of_not_not he
                    unfold procKey at hk
                    cases hs : env.decSpki b with
                    | none => rw [hs] at h; cases h
                    | some p =>
                      obtain ⟨o, rest⟩ := p
                      rw [hs] at h hk
                      dsimp only at h hk
                      by_cases hr : rest ≠ []
                      · rw [if_pos hr] at hk; cases hk
                      · rw [if_neg hr] at hk
                        have hr' : rest = [] := Decidable.of_not_not hr
                        by_cases ha : env.spkiAlg o ≠ v.alg
                        · rw [if_pos ha] at h; cases h
                        · rw [if_neg ha, hk] at h
                          cases h
                          obtain ⟨x, r, h1, h2, h3⟩ := pubForCheck_ok env _ _ hp
                          obtain ⟨a, h4, h5⟩ := sunHash_some env v hn hh
                          exact ⟨x, v, r, u, b, o, h1, h2, h3, by simpa using hv, hl, hf, by rw [hs, hr'], hk,
                            ⟨a, hn, h4, h5, by rw [hd, he']⟩, Decidable.of_not_not ha⟩

theorem validatePub_of (env : SunEnv S K) (fetch : String → Except PyErr Bytes) (c : Cert) (k : K)
    (h : KeyNamed env fetch c k) : validatePub env fetch c = .ok k := by
  obtain ⟨x, v, r, u, b, o, h1, h2, h3, h4, h5, h6, h7, h8, ⟨a, hn, h9, h10, h11⟩, h12⟩ := h
  unfold validatePub
  rw [pubForCheck_of env _ x v r h1 h2 h3]
  dsimp only
  rw [if_neg (by rw [h4]; decide), h5]
  dsimp only
  rw [h6]
  dsimp only
  unfold procKey
  rw [h7]
  dsimp only
  rw [if_neg (by simp), h8]
  dsimp only
  unfold checkFetchedKey sunHash
  rw [h9]
  dsimp only
  rw [h10]
  dsimp only
  rw [h11]
  dsimp only
  rw [if_neg (by simp), h7]
  dsimp only
  rw [if_neg (by rw [h12]; simp), h8]

theorem sigForCheck_ok (env : SunEnv S K) (l : List Ext) (s : Option SunVal) (v : SunVal)
    (h : sigForCheck env l s = .ok (some v)) :
    (∀ x ∈ l, x.oid = sunSigOid → x.critical = false) ∧
      ((∃ x r, IsLast l sunSigOid x ∧ env.decSig x.value = some (v, r)) ∨
        (s = some v ∧ ∀ x ∈ l, x.oid ≠ sunSigOid)) := by
  induction l generalizing s with
  | nil =>
    cases h
    exact ⟨fun x hx => (by cases hx), .inr ⟨rfl, fun x hx => (by cases hx)⟩⟩
  | cons x l ih =>
    unfold sigForCheck at h
    by_cases hx : x.oid = sunSigOid
    · rw [if_pos hx] at h
      cases hd : env.decSig x.value with
      | none => rw [hd] at h; cases h
      | some p =>
        obtain ⟨w, r⟩ := p
        rw [hd] at h
        dsimp only at h
        by_cases hc : x.critical = true
        · rw [if_pos hc] at h; cases h
        · rw [if_neg hc] at h
          obtain ⟨h1, h2⟩ := ih _ h
          refine ⟨?_, .inl ?_⟩
          · intro y hy
            rcases List.mem_cons.1 hy with rfl | hy
            · exact fun _ => by simpa using hc
            · exact h1 y hy
          · rcases h2 with ⟨y, q, ⟨a, b, e, ho, hb⟩, hq⟩ | ⟨e, hn⟩
            · exact ⟨y, q, ⟨x :: a, b, by rw [e]; rfl, ho, hb⟩, hq⟩
            · cases e
              exact ⟨x, r, ⟨[], l, rfl, hx, hn⟩, hd⟩
    · rw [if_neg hx] at h
      obtain ⟨h1, h2⟩ := ih _ h
      refine ⟨?_, ?_⟩
      · intro y hy
        rcases List.mem_cons.1 hy with rfl | hy
        · exact fun c => absurd c hx
        · exact h1 y hy
      · rcases h2 with ⟨y, q, ⟨a, b, e, ho, hb⟩, hq⟩ | ⟨e, hn⟩
        · exact .inl ⟨y, q, ⟨x :: a, b, by rw [e]; rfl, ho, hb⟩, hq⟩
        · refine .inr ⟨e, ?_⟩
          intro y hy
          rcases List.mem_cons.1 hy with rfl | hy
          · exact hx
          · exact hn y hy

theorem checkAltSig_ok (env : SunEnv S K) (fetch : String → Except PyErr Bytes) (t : Tbs) (v : SunVal) (k : K)
    (sig : Option Bytes) (h : checkAltSig env fetch t v k sig = .ok ()) :
    ∃ s, usedSig fetch v sig = .ok (some s) ∧ HashIs env v s ∧ env.verifyAlg k v.alg (env.encTbs t) s = .ok () := by
  unfold checkAltSig at h
  cases hu : usedSig fetch v sig with
  | error e => rw [hu] at h; cases h
  | ok o =>
    rw [hu] at h
    dsimp only at h
    cases hh : sunHash env v with
    | error e => rw [hh] at h; cases h
    | ok on =>
      cases on with
      | none => rw [hh] at h; cases h
      | some n =>
        rw [hh] at h
        dsimp only at h
        cases o with
        | none => cases h
        | some s =>
          dsimp only at h
          cases hd : env.digest n s with
          | error e => rw [hd] at h; cases h
          | ok dg =>
            rw [hd] at h
            dsimp only at h
            by_cases he : v.value ≠ dg
            · rw [if_pos he] at h; cases h
            · rw [if_neg he] at h
              have he' : v.value = dg := Decidable.of_not_not he
              obtain ⟨a, h4, h5⟩ := sunHash_some env v n hh
              exact ⟨s, rfl, ⟨a, n, h4, h5, by rw [hd, he']⟩, h⟩

theorem validateSig_ok (env : SunEnv S K) (fetch : String → Except PyErr Bytes) (c : Cert) (k : K)
    (sig : Option Bytes) (h : (validateSig env fetch c k sig).1 = .ok ()) :
    ∃ s, AltSigned env c k s ∧ (sig = some s ∨ (sig = none ∧ SigServed env fetch c s)) := by
  unfold validateSig at h
  cases hs : sigForCheck env c.tbs.exts none with
  | error e => rw [hs] at h; cases h
  | ok o =>
    cases o with
    | none => rw [hs] at h; cases h
    | some v =>
      rw [hs] at h
      dsimp only at h
      obtain ⟨h1, h2⟩ := sigForCheck_ok env _ _ _ hs
      rcases h2 with ⟨x, r, hx, hd⟩ | ⟨e, -⟩
      · obtain ⟨s, hu, hh, hv⟩ := checkAltSig_ok env fetch _ v k sig h
        refine ⟨s, ⟨h1, x, v, r, hx, hd, hh, hv⟩, ?_⟩
        unfold usedSig at hu
        cases sig with
        | some s' => cases hu; exact .inl rfl
        | none =>
          dsimp only at hu
          cases hl : v.loc with
          | none => rw [hl] at hu; cases hu
          | some u =>
            rw [hl] at hu
            dsimp only at hu
            cases hf : fetch u with
            | error e => rw [hf] at hu; cases hu
            | ok b =>
              rw [hf] at hu
              cases hu
              exact .inr ⟨rfl, x, v, r, u, hx, hd, hl, hf⟩
      · cases e

theorem verifyTrad_ok (env : SunEnv S K) (fetch : String → Except PyErr Bytes) (c issuer : Cert)
    (h : verifyTrad env fetch c issuer = .ok ()) :
    ∃ c4, convert env fetch c .form4 = .ok c4 ∧ TradSigned env c4 issuer := by
  unfold verifyTrad at h
  cases hc : convert env fetch c .form4 with
  | error e => rw [hc] at h; cases h
  | ok c4 =>
    rw [hc] at h
    dsimp only at h
    cases hk : env.loadKey issuer.tbs.spki with
    | error e => rw [hk] at h; cases h
    | ok k =>
      rw [hk] at h
      dsimp only at h
      by_cases hv : env.isVerifyKey k = true
      · rw [if_pos hv] at h
        exact ⟨c4, rfl, k, hk, hv, h⟩
      · rw [if_neg hv] at h
        cases h

/-- An accepted certificate is signed by the issuer in its Form 4, names a key that is served with the hash and
algorithm in it, and – if this is to be checked – its alternative signature is served with the hash in it, covers all of
the certificate but the extension that names it, and was made with the given alternative key or the one extracted from
the certificate of the issuer. -/
theorem C140_sound (env : SunEnv S K) (fetch : String → Except PyErr Bytes) (altOf : Cert → Except PyErr (Option K))
    (c issuer : Cert) (alt : Option K) (checkAlt : Bool)
    (h : verifySun env fetch altOf c issuer alt checkAlt = .ok ()) :
    ∃ c4 ka k, convert env fetch c .form4 = .ok c4 ∧ TradSigned env c4 issuer ∧
      (alt = some ka ∨ (alt = none ∧ altOf issuer = .ok (some ka))) ∧ KeyNamed env fetch c4 k ∧
      (checkAlt = true → ∃ s, AltSigned env c4 ka s ∧ SigServed env fetch c4 s) := by
  unfold verifySun at h
  cases hc : convert env fetch c .form4 with
  | error e => rw [hc] at h; cases h
  | ok c4 =>
    rw [hc] at h
    dsimp only at h
    cases ht : verifyTrad env fetch c issuer with
    | error e => rw [ht] at h; cases h
    | ok u =>
      rw [ht] at h
      dsimp only at h
      obtain ⟨c4', hc', htr⟩ := verifyTrad_ok env fetch c issuer ht
      rw [hc] at hc'
      cases hc'
      cases ha : altFor altOf issuer alt with
      | error e => rw [ha] at h; cases h
      | ok o =>
        cases o with
        | none => rw [ha] at h; cases h
        | some ka =>
          rw [ha] at h
          dsimp only at h
          cases hp : validatePub env fetch c4 with
          | error e => rw [hp] at h; cases h
          | ok k =>
            rw [hp] at h
            dsimp only at h
            refine ⟨c4, ka, k, rfl, htr, ?_, validatePub_ok env fetch c4 k hp, ?_⟩
            · unfold altFor at ha
              cases alt with
              | some k' => cases ha; exact .inl rfl
              | none => exact .inr ⟨rfl, ha⟩
            · intro hk
              rw [if_pos hk] at h
              obtain ⟨s, h1, h2⟩ := validateSig_ok env fetch c4 ka none h
              rcases h2 with h2 | ⟨-, h2⟩
              · cases h2
              · exact ⟨s, h1, h2⟩

/-- An issuer that is found has the name of the issuer of the certificate, and has signed its Form 4 (in the Form 4 of
that). -/
theorem C140_issuer (env : SunEnv S K) (fetch : String → Except PyErr Bytes) (c x : Cert) (certs : List Cert)
    (h : findSunIssuer env fetch c certs = .ok x) :
    ∃ c4 c4', convert env fetch c .form4 = .ok c4 ∧ x ∈ certs ∧ c4.tbs.issuer = x.tbs.subject ∧
      convert env fetch c4 .form4 = .ok c4' ∧ TradSigned env c4' x := by
  unfold findSunIssuer at h
  cases hc : convert env fetch c .form4 with
  | error e => rw [hc] at h; cases h
  | ok c4 =>
    rw [hc] at h
    dsimp only at h
    have key : x ∈ certs ∧ c4.tbs.issuer = x.tbs.subject ∧ verifyTrad env fetch c4 x = .ok () := by
      induction certs with
      | nil => cases h
      | cons y l ih =>
        unfold findSunLoop at h
        by_cases hn : c4.tbs.issuer ≠ y.tbs.subject
        · rw [if_pos hn] at h
          obtain ⟨h1, h2, h3⟩ := ih h
          exact ⟨List.mem_cons_of_mem _ h1, h2, h3⟩
        · rw [if_neg hn] at h
          cases hv : verifyTrad env fetch c4 y with
          | ok u =>
            rw [hv] at h
            dsimp only at h
            cases h
            exact ⟨List.mem_cons_self, Decidable.of_not_not hn, hv⟩
          | error e =>
            rw [hv] at h
            by_cases he : e = .invalidSignature
            · subst he
              dsimp only at h
              obtain ⟨h1, h2, h3⟩ := ih h
              exact ⟨List.mem_cons_of_mem _ h1, h2, h3⟩
            · cases e <;> first | exact absurd rfl he | cases h
    obtain ⟨c4', h1, h2⟩ := verifyTrad_ok env fetch c4 x key.2.2
    exact ⟨c4, c4', rfl, key.1, key.2.1, h1, h2⟩

/-! ## What is refused -/

/-- Needed though it is not used: without an alternative key of the issuer a certificate is refused, also if the
alternative signature is not to be checked. -/
theorem C140_alt_needed_refuted (env : SunEnv S K) (fetch : String → Except PyErr Bytes)
    (altOf : Cert → Except PyErr (Option K)) (c issuer : Cert) (checkAlt : Bool) (hn : altOf issuer = .ok none) :
    ∃ e, verifySun env fetch altOf c issuer none checkAlt = .error e := by
  unfold verifySun altFor
  cases hc : convert env fetch c .form4 with
  | error e => exact ⟨e, rfl⟩
  | ok c4 =>
    dsimp only
    cases ht : verifyTrad env fetch c issuer with
    | error e => exact ⟨e, rfl⟩
    | ok u =>
      dsimp only
      rw [hn]
      exact ⟨_, rfl⟩

/-- Not used by verification: the key and the signature in a certificate. One in Form 1, with both, is refused if the
location of the key does not serve it. -/
theorem C140_by_value_refuted (env : SunEnv S K) (fetch : String → Except PyErr Bytes)
    (altOf : Cert → Except PyErr (Option K)) (d : SunData K) (h : d.Valid env) (c issuer : Cert) (alt : Option K)
    (checkAlt : Bool) (hc : Carries env d c .form1) (hf : ∃ e, fetch d.keyLoc = .error e) :
    ∃ e, verifySun env fetch altOf c issuer alt checkAlt = .error e := by
  cases hv : verifySun env fetch altOf c issuer alt checkAlt with
  | error e => exact ⟨e, rfl⟩
  | ok u =>
    exfalso
    obtain ⟨c4, ka, k, h1, -, -, h2, -⟩ := C140_sound env fetch altOf c issuer alt checkAlt hv
    obtain ⟨x, v, r, u', b, o, g1, g2, g3, g4, g5, g6, -⟩ := h2
    -- the extension of the key in Form 4 has the location of `d`
    have key : IsFirst c4.tbs.exts sunKeyOid (d.pubExt env false) := by
      unfold convert at h1
      have e1 : ∃ l, convPub env fetch c false = .ok (withExts c l) ∧
          Replaced sunKeyOid (d.pubExt env true) (d.pubExt env false) c.tbs.exts l := by
        unfold convPub
        rw [(nonCrit_iff _ _ _).2 ⟨hc.1, rfl⟩]
        dsimp only
        rw [show (d.pubExt env SunForm.form1.pub).value = env.encPub (d.pubVal env true) from rfl, h.pub true]
        dsimp only
        rw [if_neg (show ¬ false = (d.pubVal env true).byVal from fun c => by cases c),
          show sunHash env (d.pubVal env true) = .ok (some d.keyHash) from h.keyOid]
        dsimp only
        have hk : otherKey env fetch (d.pubVal env true) false = .ok d.key := by
          unfold otherKey
          rw [if_neg (by decide), show (d.pubVal env true).loc = some d.keyLoc from rfl]
          dsimp only
          rw [if_neg h.keyLocNe]
          exact procKey_of env d h
        rw [hk]
        dsimp only
        rw [show (d.pubVal env true).loc = some d.keyLoc from rfl,
          show (d.pubExt env SunForm.form1.pub).critical = false from rfl, sunPubExt_of env d h false]
        dsimp only
        obtain ⟨l, p1, p2, -⟩ := hc.1.patch (y := d.pubExt env false) rfl
        rw [p1]
        exact ⟨l, rfl, p2⟩
      obtain ⟨l, e2, e3⟩ := e1
      rw [show SunForm.form4.pub = false from rfl, e2] at h1
      dsimp only at h1
      -- the second step
      have e4 : ∃ m, convSig env fetch (withExts c l) false = .ok (withExts c m) ∧
          Replaced sunSigOid (d.sigExt env true) (d.sigExt env false) l m := by
        have hs := e3.first sunOids_ne hc.2
        unfold convSig
        rw [withExts_exts, (nonCrit_iff _ _ _).2 ⟨hs, rfl⟩]
        dsimp only
        rw [show (d.sigExt env SunForm.form1.sig).value = env.encSig (d.sigVal env true) from rfl, h.sg true]
        dsimp only
        rw [if_neg (show ¬ false = (d.sigVal env true).byVal from fun c => by cases c),
          show sunHash env (d.sigVal env true) = .ok (some d.sigHash) from h.sigOid]
        dsimp only
        rw [show otherSig fetch (d.sigVal env true) false = .ok d.sig from rfl]
        dsimp only
        rw [show (d.sigVal env true).loc = some d.sigLoc from rfl,
          show (d.sigExt env SunForm.form1.sig).critical = false from rfl,
          show (d.sigVal env true).alg = d.sigAlg from rfl, sunSigExt_of env d h false]
        dsimp only
        obtain ⟨m, p1, p2, -⟩ := hs.patch (y := d.sigExt env false) rfl
        rw [p1]
        exact ⟨m, rfl, p2⟩
      obtain ⟨m, e5, e6⟩ := e4
      rw [show SunForm.form4.sig = false from rfl, e5] at h1
      cases h1
      exact e6.first sunOids_ne.symm e3.isFirst.2
    have := key.unique g1
    subst this
    rw [show (d.pubExt env false).value = env.encPub (d.pubVal env false) from rfl, h.pub false] at g3
    cases g3
    cases g5
    obtain ⟨e, hf⟩ := hf
    rw [hf] at g6
    cases g6

/-- The check of the alternative signature takes the extension out of the certificate it is given: a second check of the
same object is refused. -/
theorem C140_twice_refuted (env : SunEnv S K) (fetch : String → Except PyErr Bytes) (c : Cert) (k : K)
    (s : Option Bytes) (h : (validateSig env fetch c k s).1 = .ok ()) :
    validateSig env fetch (validateSig env fetch c k s).2 k s =
      (.error .valueError, (validateSig env fetch c k s).2) := by
  have e1 : (validateSig env fetch c k s).2 = dropSig c := by
    unfold validateSig at h ⊢
    cases hs : sigForCheck env c.tbs.exts none with
    | error e => rw [hs] at h; cases h
    | ok o =>
      cases o with
      | none => rw [hs] at h; cases h
      | some v => rfl
  rw [e1]
  have e2 : ∀ l : List Ext, (∀ x ∈ l, x.oid ≠ sunSigOid) → sigForCheck env l none = .ok none := by
    intro l
    induction l with
    | nil => intro _; rfl
    | cons x l ih =>
      intro hl
      unfold sigForCheck
      rw [if_neg (hl x List.mem_cons_self)]
      exact ih (fun y hy => hl y (List.mem_cons_of_mem _ hy))
  unfold validateSig
  rw [e2 (dropSig c).tbs.exts (by
    intro x hx
    have := (List.mem_filter.1 (show x ∈ c.tbs.exts.filter (fun x => decide (x.oid ≠ sunSigOid)) from hx)).2
    simpa using this)]

/-- Not checked when the alternative key of an issuer is extracted: the hash in its certificate. Any key served at the
location is taken. -/
theorem C140_alt_key_refuted (env : SunEnv S K) (fetch : String → Except PyErr Bytes) (d d' : SunData K)
    (h : d.Valid env) (h' : d'.Valid env) (hf : fetch d.keyLoc = .ok (env.spkiOf d'.key)) (c : Cert) (f : SunForm)
    (hp : f.pub = false) (hc : Carries env d c f) : sunAltKey env fetch c.tbs.exts = .ok (some d'.key) := by
  unfold sunAltKey
  rw [(getExt_iff _ _ _).2 hc.1, hp]
  dsimp only
  rw [show (d.pubExt env false).value = env.encPub (d.pubVal env false) from rfl, h.pub false]
  dsimp only
  rw [if_neg (show ¬ (d.pubVal env false).byVal = true from fun c => by cases c),
    show (d.pubVal env false).loc = some d.keyLoc from rfl]
  dsimp only
  rw [hf]
  dsimp only
  rw [procKey_of env d' h']

/-- If the location serves the right key, it is the key the certificate carries, in any form. -/
theorem C140_alt_key_partial (env : SunEnv S K) (fetch : String → Except PyErr Bytes) (d : SunData K)
    (h : d.Valid env) (hs : d.Served env fetch) (c : Cert) (f : SunForm) (hc : Carries env d c f) :
    sunAltKey env fetch c.tbs.exts = .ok (some d.key) := by
  cases hp : f.pub with
  | false => exact C140_alt_key_refuted env fetch d d h h hs.key c f hp hc
  | true =>
    unfold sunAltKey
    rw [(getExt_iff _ _ _).2 hc.1, hp]
    dsimp only
    rw [show (d.pubExt env true).value = env.encPub (d.pubVal env true) from rfl, h.pub true]
    dsimp only
    rw [if_pos (show (d.pubVal env true).byVal = true from rfl)]
    unfold loadSpkiBytes
    rw [show (d.pubVal env true).value = env.spkiOf d.key from rfl, h.spki]
    dsimp only
    rw [if_neg (by simp), h.load]

end Verif.Hybrid
