import Verif.Hybrid.SunVerifyProps

/-!
# Properties of the issuing of Sun hybrid certificates (C141)

The specification: the issued Form 4 certificate carries the second key of the subject and the alternative signature of
the CA over the certificate without the signature, is signed by the CA, and is accepted by the verification of C140; the
Form 1 certificate is the same certificate with key and signature by value.
-/

namespace Verif.Hybrid

open Verif.CA Verif.Check

variable {S K : Type}

theorem both_ok {α : Type} (x y : Except PyErr α) (p : α × α) (h : both x y = .ok p) : x = .ok p.1 ∧ y = .ok p.2 := by
  unfold both at h
  cases x with
  | error e => cases h
  | ok a =>
    cases y with
    | error e => cases h
    | ok b =>
      cases h
      exact ⟨rfl, rfl⟩

theorem sunPubExt_ok (env : SunEnv S K) (k : K) (b : Bool) (h : String) (loc : Option String) (c : Bool) (e : Ext)
    (he : sunPubExt env k b (some h) loc c = .ok e) :
    ∃ o v, env.hashOid h = .ok o ∧ (b = true → v = env.spkiOf k) ∧ (b = false → env.digest h (env.spkiOf k) = .ok v) ∧
      e = ⟨sunKeyOid, c, env.encPub ⟨b, v, env.spkiAlg (env.spkiOf k), some ⟨o, none⟩, loc⟩⟩ := by
  unfold sunPubExt sunPubVal at he
  dsimp only at he
  cases hv : (if b = true then Except.ok (env.spkiOf k) else env.digest h (env.spkiOf k)) with
  | error e => rw [hv] at he; cases he
  | ok v =>
    rw [hv] at he
    dsimp only at he
    cases ho : env.hashOid h with
    | error e => rw [ho] at he; cases he
    | ok o =>
      rw [ho] at he
      cases he
      refine ⟨o, v, rfl, ?_, ?_, rfl⟩
      · intro hb
        rw [if_pos hb] at hv
        cases hv
        rfl
      · intro hb
        rw [if_neg (by rw [hb]; decide)] at hv
        exact hv

theorem sunSigExt_ok (env : SunEnv S K) (s : Bytes) (b : Bool) (a : Alg) (h : String) (loc : Option String) (c : Bool)
    (e : Ext) (he : sunSigExt env s b a (some h) loc c = .ok e) :
    s ≠ [] ∧ ∃ o v, env.hashOid h = .ok o ∧ (b = true → v = s) ∧ (b = false → env.digest h s = .ok v) ∧
      e = ⟨sunSigOid, c, env.encSig ⟨b, v, a, some ⟨o, some env.nullParams⟩, loc⟩⟩ := by
  unfold sunSigExt sunSigVal at he
  by_cases hs : s = []
  · rw [if_pos hs] at he
    cases he
  · rw [if_neg hs] at he
    refine ⟨hs, ?_⟩
    dsimp only at he
    cases hv : (if b = true then Except.ok s else env.digest h s) with
    | error e => rw [hv] at he; cases he
    | ok v =>
      rw [hv] at he
      dsimp only at he
      cases ho : env.hashOid h with
      | error e => rw [ho] at he; cases he
      | ok o =>
        rw [ho] at he
        cases he
        refine ⟨o, v, rfl, ?_, ?_, rfl⟩
        · intro hb
          rw [if_pos hb] at hv
          cases hv
          rfl
        · intro hb
          rw [if_neg (by rw [hb]; decide)] at hv
          exact hv

/-- What signing makes: both signatures are made over the expected bytes, the option changes the alternative one, and
Form 1 is Form 4 with the two extensions replaced. -/
theorem sunSign_ok (env : SunEnv S K) (a : SunArgs S) (t : Tbs) (p4 p1 : Ext) (c4 c1 : Cert)
    (h4 : IsFirst t.exts sunKeyOid p4) (h1 : p1.oid = sunKeyOid) (hn : ∀ x ∈ t.exts, x.oid ≠ sunSigOid)
    (h : sunSign env a t p1 = .ok (c4, c1)) :
    ∃ s₀ alg s s4 s1 m, env.sign a.altCa (some a.sigHash) (env.encTbs t) = .ok s₀ ∧
      env.prepAlg a.altCa (some a.sigHash) = .ok alg ∧ (a.badAlt = false → s = s₀) ∧
      (a.badAlt = true → manipFirst s₀ = .ok s) ∧ sigExts env s alg a.sigHash a.sigLoc = .ok (s4, s1) ∧
      c4.tbs = { t with exts := t.exts ++ [s4] } ∧ env.sign a.ca (some a.hash) (env.encTbs c4.tbs) = .ok c4.sig ∧
      env.prepAlg a.ca (some a.hash) = .ok c4.alg ∧ Replaced sunKeyOid p4 p1 t.exts m ∧
      c1 = withExts c4 (m ++ [s1]) := by
  unfold sunSign at h
  cases hs : env.sign a.altCa (some a.sigHash) (env.encTbs t) with
  | error e => rw [hs] at h; cases h
  | ok s₀ =>
    rw [hs] at h
    dsimp only at h
    cases ha : env.prepAlg a.altCa (some a.sigHash) with
    | error e => rw [ha] at h; cases h
    | ok alg =>
      rw [ha] at h
      dsimp only at h
      cases hb : (if a.badAlt = true then manipFirst s₀ else Except.ok s₀) with
      | error e => rw [hb] at h; cases h
      | ok s =>
        rw [hb] at h
        dsimp only at h
        cases he : sigExts env s alg a.sigHash a.sigLoc with
        | error e => rw [he] at h; cases h
        | ok q =>
          obtain ⟨s4, s1⟩ := q
          rw [he] at h
          dsimp only at h
          cases hc : env.sign a.ca (some a.hash) (env.encTbs { t with exts := t.exts ++ [s4] }) with
          | error e => rw [hc] at h; cases h
          | ok sig =>
            rw [hc] at h
            dsimp only at h
            cases hp : env.prepAlg a.ca (some a.hash) with
            | error e => rw [hp] at h; cases h
            | ok ca =>
              rw [hp] at h
              dsimp only at h
              have o4 : s4.oid = sunSigOid := by
                obtain ⟨-, o, v, -, -, -, e⟩ := sunSigExt_ok env s false alg a.sigHash a.sigLoc false s4
                  (both_ok _ _ _ he).1
                rw [e]
              have o1 : s1.oid = sunSigOid := by
                obtain ⟨-, o, v, -, -, -, e⟩ := sunSigExt_ok env s true alg a.sigHash a.sigLoc false s1
                  (both_ok _ _ _ he).2
                rw [e]
              obtain ⟨pre, post, e1, hx, hpre⟩ := h4
              have hr : Replaced sunKeyOid p4 p1 t.exts (pre ++ p1 :: post) := ⟨pre, post, e1, rfl, hx, h1, hpre⟩
              have r1 : patchExt (t.exts ++ [s4]) p1 = .ok ((pre ++ p1 :: post) ++ [s4]) := by
                rw [e1, List.append_assoc, List.cons_append, patchExt_split pre _ p4 p1 (hx.trans h1.symm)
                  (by rw [h1]; exact hpre), List.append_assoc, List.cons_append]
              rw [r1] at h
              dsimp only at h
              have r2 : patchExt ((pre ++ p1 :: post) ++ [s4]) s1 = .ok ((pre ++ p1 :: post) ++ [s1]) := by
                refine patchExt_split (pre ++ p1 :: post) [] s4 s1 (o4.trans o1.symm) ?_
                rw [o1]
                intro z hz
                rcases List.mem_append.1 hz with hz | hz
                · exact hn z (by rw [e1]; exact List.mem_append.2 (.inl hz))
                · rcases List.mem_cons.1 hz with rfl | hz
                  · rw [h1]
                    exact sunOids_ne
                  · exact hn z (by rw [e1]; exact List.mem_append.2 (.inr (List.mem_cons_of_mem _ hz)))
              rw [r2] at h
              dsimp only at h
              cases h
              refine ⟨s₀, alg, s, s4, s1, pre ++ p1 :: post, rfl, rfl, ?_, ?_, he, rfl, hc, rfl, hr, rfl⟩
              · intro hf
                rw [if_neg (by rw [hf]; decide)] at hb
                cases hb
                rfl
              · intro hf
                rw [if_pos hf] at hb
                exact hb

/-- The extensions of a key are those of `SunData`. -/
theorem pubExts_ok (env : SunEnv S K) (k : K) (h u : String) (p4 p1 : Ext)
    (he : pubExts env k (some h) (some u) = .ok (p4, p1)) :
    ∃ o dg, env.hashOid h = .ok o ∧ env.digest h (env.spkiOf k) = .ok dg ∧
      ∀ d : SunData K, d.key = k → d.keyHashOid = o → d.keyDigest = dg → d.keyLoc = u →
        p4 = d.pubExt env false ∧ p1 = d.pubExt env true := by
  obtain ⟨e1, e2⟩ := both_ok _ _ _ he
  obtain ⟨o, v, a1, -, a3, a4⟩ := sunPubExt_ok env k false h (some u) false p4 e1
  obtain ⟨o', v', b1, b2, -, b4⟩ := sunPubExt_ok env k true h (some u) false p1 e2
  rw [a1] at b1
  cases b1
  refine ⟨o, v, a1, a3 rfl, ?_⟩
  rintro d rfl rfl rfl rfl
  rw [a4, b4, b2 rfl]
  exact ⟨rfl, rfl⟩

/-- The extensions of a signature are those of `SunData`. -/
theorem sigExts_ok (env : SunEnv S K) (s : Bytes) (a : Alg) (h u : String) (s4 s1 : Ext)
    (he : sigExts env s a h (some u) = .ok (s4, s1)) :
    s ≠ [] ∧ ∃ o dg, env.hashOid h = .ok o ∧ env.digest h s = .ok dg ∧
      ∀ d : SunData K, d.sig = s → d.sigAlg = a → d.sigHashOid = o → d.sigDigest = dg → d.sigLoc = u →
        s4 = d.sigExt env false ∧ s1 = d.sigExt env true := by
  obtain ⟨e1, e2⟩ := both_ok _ _ _ he
  obtain ⟨hs, o, v, a1, -, a3, a4⟩ := sunSigExt_ok env s false a h (some u) false s4 e1
  obtain ⟨-, o', v', b1, b2, -, b4⟩ := sunSigExt_ok env s true a h (some u) false s1 e2
  rw [a1] at b1
  cases b1
  refine ⟨hs, o, v, a1, a3 rfl, ?_⟩
  rintro d rfl rfl rfl rfl rfl
  rw [a4, b4, b2 rfl]
  exact ⟨rfl, rfl⟩

/-- The two certificates made for the second key in `d` with the alternative signature in `d`: `pre` and `post` are the
other extensions around the one of the key. -/
structure SunIssue (env : SunEnv S K) (ca altCa : S) (hash : String) (bad : Bool) (d : SunData K) (pre post : List Ext)
    (c4 c1 : Cert) : Prop where
  exts4 : c4.tbs.exts = pre ++ d.pubExt env false :: post ++ [d.sigExt env false]
  form1 : c1 = withExts c4 (pre ++ d.pubExt env true :: post ++ [d.sigExt env true])
  keyName : env.hashOid d.keyHash = .ok d.keyHashOid
  keyDig : env.digest d.keyHash (env.spkiOf d.key) = .ok d.keyDigest
  sigName : env.hashOid d.sigHash = .ok d.sigHashOid
  sigDig : env.digest d.sigHash d.sig = .ok d.sigDigest
  sigNe : d.sig ≠ []
  sigAlg : env.prepAlg altCa (some d.sigHash) = .ok d.sigAlg
  altSig : ∃ s₀, env.sign altCa (some d.sigHash)
      (env.encTbs { c4.tbs with exts := pre ++ d.pubExt env false :: post }) = .ok s₀ ∧
    (bad = false → d.sig = s₀) ∧ (bad = true → manipFirst s₀ = .ok d.sig)
  sig : env.sign ca (some hash) (env.encTbs c4.tbs) = .ok c4.sig
  alg : env.prepAlg ca (some hash) = .ok c4.alg

theorem issue_of (env : SunEnv S K) (a : SunArgs S) (t : Tbs) (k : K) (h u u' : String) (pre post : List Ext)
    (p4 p1 : Ext) (c4 c1 : Cert) (hp : pubExts env k (some h) (some u) = .ok (p4, p1)) (hu : a.sigLoc = some u')
    (ht : t.exts = pre ++ p4 :: post) (h1 : ∀ x ∈ pre, x.oid ≠ sunKeyOid) (h2 : ∀ x ∈ pre ++ post, x.oid ≠ sunSigOid)
    (hs : sunSign env a t p1 = .ok (c4, c1)) :
    ∃ d : SunData K, d.key = k ∧ d.keyHash = h ∧ d.keyLoc = u ∧ d.sigHash = a.sigHash ∧ d.sigLoc = u' ∧
      SunIssue env a.ca a.altCa a.hash a.badAlt d pre post c4 c1 ∧ c4.tbs = { t with exts := c4.tbs.exts } := by
  obtain ⟨o, dg, g1, g2, g3⟩ := pubExts_ok env k h u p4 p1 hp
  have o4 : p4.oid = sunKeyOid := by
    obtain ⟨_, _, _, _, _, e⟩ := sunPubExt_ok env k false h (some u) false p4 (both_ok _ _ _ hp).1
    rw [e]
  have o1 : p1.oid = sunKeyOid := by
    obtain ⟨_, _, _, _, _, e⟩ := sunPubExt_ok env k true h (some u) false p1 (both_ok _ _ _ hp).2
    rw [e]
  obtain ⟨s₀, alg, s, s4, s1, m, q1, q2, q3, q4, q5, q6, q7, q8, q9, q10⟩ := sunSign_ok env a t p4 p1 c4 c1
    ⟨pre, post, ht, o4, h1⟩ o1 (by
      rw [ht]
      intro x hx
      rcases List.mem_append.1 hx with hx | hx
      · exact h2 x (List.mem_append.2 (.inl hx))
      · rcases List.mem_cons.1 hx with rfl | hx
        · rw [o4]
          exact sunOids_ne
        · exact h2 x (List.mem_append.2 (.inr hx))) hs
  rw [hu] at q5
  obtain ⟨r0, o', dg', r1, r2, r3⟩ := sigExts_ok (K := K) env s alg a.sigHash u' s4 s1 q5
  have hm : m = pre ++ p1 :: post := by
    have := q9.patch
    rw [ht, patchExt_split pre post p4 p1 (o4.trans o1.symm) (by rw [o1]; exact h1)] at this
    exact (Except.ok.inj this).symm
  let d : SunData K := ⟨k, h, o, dg, u, s, alg, a.sigHash, o', dg', u'⟩
  obtain ⟨x4, x1⟩ := g3 d rfl rfl rfl rfl
  obtain ⟨y4, y1⟩ := r3 d rfl rfl rfl rfl rfl
  refine ⟨d, rfl, rfl, rfl, rfl, rfl, ?_, ?_⟩
  · refine ⟨?_, ?_, g1, g2, r1, r2, r0, q2, ⟨s₀, ?_, q3, q4⟩, q7, q8⟩
    · rw [q6, ← x4, ← y4, ← ht]
    · rw [q10, hm, ← x1, ← y1]
    · have : ({ c4.tbs with exts := pre ++ d.pubExt env false :: post } : Tbs) = t := by
        rw [q6, ← x4, ← ht]
      rw [this]
      exact q1
  · rw [q6]

theorem SunIssue.carries {env : SunEnv S K} {ca altCa : S} {hash : String} {bad : Bool} {d : SunData K}
    {pre post : List Ext} {c4 c1 : Cert} (h : SunIssue env ca altCa hash bad d pre post c4 c1)
    (h1 : ∀ x ∈ pre, x.oid ≠ sunKeyOid) (h2 : ∀ x ∈ pre ++ post, x.oid ≠ sunSigOid) :
    Carries env d c4 .form4 ∧ Carries env d c1 .form1 := by
  have key : ∀ b, ∀ x ∈ pre ++ d.pubExt env b :: post, x.oid ≠ sunSigOid := by
    intro b x hx
    rcases List.mem_append.1 hx with hx | hx
    · exact h2 x (List.mem_append.2 (.inl hx))
    · rcases List.mem_cons.1 hx with rfl | hx
      · exact sunOids_ne
      · exact h2 x (List.mem_append.2 (.inr hx))
  refine ⟨⟨?_, ?_⟩, ⟨?_, ?_⟩⟩
  · rw [h.exts4]
    exact ⟨pre, post ++ [d.sigExt env false], by rw [List.append_assoc]; rfl, rfl, h1⟩
  · rw [h.exts4]
    exact ⟨pre ++ d.pubExt env false :: post, [], rfl, rfl, key false⟩
  · rw [h.form1, withExts_exts]
    exact ⟨pre, post ++ [d.sigExt env true], by rw [List.append_assoc]; rfl, rfl, h1⟩
  · rw [h.form1, withExts_exts]
    exact ⟨pre ++ d.pubExt env true :: post, [], rfl, rfl, key true⟩

theorem SunIssue.back {env : SunEnv S K} {ca altCa : S} {hash : String} {bad : Bool} {d : SunData K}
    {pre post : List Ext} {c4 c1 : Cert} (h : SunIssue env ca altCa hash bad d pre post c4 c1) (hv : d.Valid env)
    (fetch : String → Except PyErr Bytes) (hs : d.Served env fetch)
    (h1 : ∀ x ∈ pre, x.oid ≠ sunKeyOid) (h2 : ∀ x ∈ pre ++ post, x.oid ≠ sunSigOid) :
    convert env fetch c1 .form4 = .ok c4 ∧ convert env fetch c4 .form4 = .ok c4 ∧
      convert env fetch c4 .form1 = .ok c1 := by
  obtain ⟨k4, k1⟩ := h.carries h1 h2
  have e1 : convert env fetch c4 .form4 = .ok c4 :=
    C139_same env fetch c4 .form4 _ _ _ _ k4.1 k4.2 rfl rfl (hv.pub false) (hv.sg false) rfl rfl
  obtain ⟨m, l, g1, g2, g3, -⟩ := C139_convert env fetch d hv hs c4 .form4 .form1 k4
  have e2 : m = pre ++ d.pubExt env true :: (post ++ [d.sigExt env false]) := by
    have := g2.patch
    rw [h.exts4, List.append_assoc, List.cons_append,
      patchExt_split pre _ (d.pubExt env false) (d.pubExt env SunForm.form1.pub) rfl h1] at this
    exact (Except.ok.inj this).symm
  have e3 : l = pre ++ d.pubExt env true :: post ++ [d.sigExt env true] := by
    have := g3.patch
    rw [e2, show pre ++ d.pubExt env true :: (post ++ [d.sigExt env false]) =
      (pre ++ d.pubExt env true :: post) ++ d.sigExt env false :: [] by simp,
      patchExt_split (pre ++ d.pubExt env true :: post) [] (d.sigExt env false) (d.sigExt env SunForm.form1.sig) rfl
        (by
          intro x hx
          rcases List.mem_append.1 hx with hx | hx
          · exact h2 x (List.mem_append.2 (.inl hx))
          · rcases List.mem_cons.1 hx with rfl | hx
            · exact sunOids_ne
            · exact h2 x (List.mem_append.2 (.inr hx)))] at this
    exact (Except.ok.inj this).symm
  have e4 : convert env fetch c4 .form1 = .ok c1 := by
    rw [g1, h.form1, e3]
  exact ⟨C139_round_trip env fetch d hv hs c4 c1 .form4 .form1 k4 e4, e1, e4⟩

/-- A signature made with a key is accepted with the algorithm identifier prepared for it. -/
def SigCorrect (env : SunEnv S K) : Prop :=
  ∀ s h a b sig, env.prepAlg s h = .ok a → env.sign s h b = .ok sig → env.verifyAlg (env.pub s) a b sig = .ok ()

theorem sigForCheck_last (env : SunEnv S K) (l : List Ext) (x : Ext) (v : SunVal) (r : Bytes)
    (hl : ∀ y ∈ l, y.oid ≠ sunSigOid) (hx : x.oid = sunSigOid) (hc : x.critical = false)
    (hd : env.decSig x.value = some (v, r)) : sigForCheck env (l ++ [x]) none = .ok (some v) := by
  induction l with
  | nil =>
    rw [List.nil_append]
    unfold sigForCheck
    rw [if_pos hx, hd]
    dsimp only
    rw [if_neg (by rw [hc]; decide)]
    rfl
  | cons y l ih =>
    rw [List.cons_append]
    unfold sigForCheck
    rw [if_neg (hl y List.mem_cons_self)]
    exact ih (fun z hz => hl z (List.mem_cons_of_mem _ hz))

theorem keyNamed_of (env : SunEnv S K) (fetch : String → Except PyErr Bytes) (d : SunData K) (hv : d.Valid env)
    (hs : d.Served env fetch) (c : Cert) (hc : IsFirst c.tbs.exts sunKeyOid (d.pubExt env false)) :
    KeyNamed env fetch c d.key :=
  ⟨d.pubExt env false, d.pubVal env false, [], d.keyLoc, env.spkiOf d.key, env.spkiOf d.key, hc, rfl, hv.pub false, rfl,
    rfl, hs.key, hv.spki, hv.load, ⟨⟨d.keyHashOid, none⟩, d.keyHash, rfl, hv.keyOid, hv.keyDig⟩, rfl⟩

theorem SunIssue.verified {env : SunEnv S K} {ca altCa : S} {hash : String} {d : SunData K}
    {pre post : List Ext} {c4 c1 : Cert} (h : SunIssue env ca altCa hash false d pre post c4 c1) (hv : d.Valid env)
    (fetch : String → Except PyErr Bytes) (hs : d.Served env fetch) (hsig : SigCorrect env)
    (h1 : ∀ x ∈ pre, x.oid ≠ sunKeyOid) (h2 : ∀ x ∈ pre ++ post, x.oid ≠ sunSigOid)
    (altOf : Cert → Except PyErr (Option K)) (issuer : Cert) (hk : env.loadKey issuer.tbs.spki = .ok (env.pub ca))
    (hvk : env.isVerifyKey (env.pub ca) = true) (halg : env.prepAlg ca (some hash) = .ok c4.tbs.alg)
    (checkAlt : Bool) (c : Cert) (hc : c = c4 ∨ c = c1) :
    verifySun env fetch altOf c issuer (some (env.pub altCa)) checkAlt = .ok () := by
  obtain ⟨b1, b2, -⟩ := h.back hv fetch hs h1 h2
  have hb : convert env fetch c .form4 = .ok c4 := by
    rcases hc with rfl | rfl
    · exact b2
    · exact b1
  unfold verifySun verifyTrad
  rw [hb]
  dsimp only
  rw [hk]
  dsimp only
  rw [if_pos hvk, hsig _ _ _ _ _ halg h.sig]
  dsimp only [altFor]
  rw [validatePub_of env fetch c4 d.key (keyNamed_of env fetch d hv hs c4 (h.carries h1 h2).1.1)]
  dsimp only
  cases checkAlt with
  | false => rfl
  | true =>
    rw [if_pos rfl]
    unfold validateSig
    have key : ∀ x ∈ pre ++ d.pubExt env false :: post, x.oid ≠ sunSigOid := by
      intro x hx
      rcases List.mem_append.1 hx with hx | hx
      · exact h2 x (List.mem_append.2 (.inl hx))
      · rcases List.mem_cons.1 hx with rfl | hx
        · exact sunOids_ne
        · exact h2 x (List.mem_append.2 (.inr hx))
    rw [h.exts4, sigForCheck_last env _ (d.sigExt env false) (d.sigVal env false) [] key rfl rfl (hv.sg false)]
    dsimp only
    unfold checkAltSig usedSig
    dsimp only
    rw [show (d.sigVal env false).loc = some d.sigLoc from rfl]
    dsimp only
    rw [hs.sig]
    dsimp only
    rw [show sunHash env (d.sigVal env false) = .ok (some d.sigHash) from hv.sigOid]
    dsimp only
    rw [hv.sigDig]
    dsimp only
    rw [if_neg (show ¬ (d.sigVal env false).value ≠ d.sigDigest from fun c => c rfl)]
    obtain ⟨s₀, q1, q2, -⟩ := h.altSig
    have ed : (dropSig c4).tbs = { c4.tbs with exts := pre ++ d.pubExt env false :: post } := by
      unfold dropSig withExts
      dsimp only
      rw [h.exts4, List.filter_append, List.filter_eq_self.2 (fun x hx => by simpa using key x hx)]
      rw [show List.filter (fun x : Ext => decide (x.oid ≠ sunSigOid)) [d.sigExt env false] = [] from rfl,
        List.append_nil]
    rw [ed, show (d.sigVal env false).alg = d.sigAlg from rfl, q2 rfl]
    exact hsig _ _ _ _ _ h.sigAlg q1

/-! ## Certificates made from a template -/

/-- A certificate made from a template carries the post-quantum key of the requested hybrid key and the alternative
signature over the certificate without it; its own key is the traditional one, and both forms are as described. -/
theorem C141_content (env : SunEnv S K) (ca altCa : S) (spki : Bytes) (t : Tbs) (extra : List Ext)
    (hash : Option String) (u u' : String) (bad : Bool) (c4 c1 : Cert)
    (hf : ∀ x ∈ t.exts ++ extra, x.oid ≠ sunKeyOid ∧ x.oid ≠ sunSigOid)
    (h : sunTemplate env ca altCa spki t extra hash (some u) (some u') bad = .ok (c4, c1)) :
    ∃ oid trad a, ∃ d : SunData K, env.hybKey spki = .ok (some (oid, trad, d.key)) ∧
      d.keyHash = templateHash env oid hash ∧ d.sigHash = templateHash env oid hash ∧ d.keyLoc = u ∧ d.sigLoc = u' ∧
      SunIssue env ca altCa (templateHash env oid hash) bad d (t.exts ++ extra) [] c4 c1 ∧
      env.prepAlg ca (some "sha256") = .ok a ∧
      c4.tbs = { t with alg := a, spki := env.spkiOf trad, exts := c4.tbs.exts } := by
  unfold sunTemplate at h
  cases hk : env.hybKey spki with
  | error e => rw [hk] at h; cases h
  | ok o =>
    cases o with
    | none => rw [hk] at h; cases h
    | some q =>
      obtain ⟨oid, trad, pq⟩ := q
      rw [hk] at h
      dsimp only at h
      cases ha : env.prepAlg ca (some "sha256") with
      | error e => rw [ha] at h; cases h
      | ok a =>
        rw [ha] at h
        dsimp only at h
        cases hp : pubExts env pq (some (templateHash env oid hash)) (some u) with
        | error e => rw [hp] at h; cases h
        | ok q =>
          obtain ⟨p4, p1⟩ := q
          rw [hp] at h
          dsimp only at h
          obtain ⟨d, rfl, e2, e3, e4, e5, e6, e7⟩ := issue_of env _ _ pq _ u u' (t.exts ++ extra) [] p4 p1 c4 c1 hp rfl
            rfl (fun x hx => (hf x hx).1) (fun x hx => (hf x (by rwa [List.append_nil] at hx)).2) h
          exact ⟨oid, trad, a, d, rfl, e2, e4, e3, e5, e6, rfl, e7⟩

/-- A certificate made from a template is accepted in both forms, if its locations serve the key and the signature, and
if the hash used for it makes no difference for the algorithm of the CA key, or is `sha256`. -/
theorem C141_round_trip_partial (env : SunEnv S K) (ca altCa : S) (spki : Bytes) (t : Tbs) (extra : List Ext)
    (hash : Option String) (u u' : String) (c4 c1 : Cert) (hsig : SigCorrect env)
    (hf : ∀ x ∈ t.exts ++ extra, x.oid ≠ sunKeyOid ∧ x.oid ≠ sunSigOid)
    (hh : ∀ q, env.hybKey spki = .ok (some q) →
      env.prepAlg ca (some (templateHash env q.1 hash)) = env.prepAlg ca (some "sha256"))
    (h : sunTemplate env ca altCa spki t extra hash (some u) (some u') false = .ok (c4, c1)) :
    ∃ d : SunData K, d.keyLoc = u ∧ d.sigLoc = u' ∧ (∃ q, env.hybKey spki = .ok (some q) ∧ q.2.2 = d.key) ∧
      (d.Valid env → ∀ fetch, d.Served env fetch →
        convert env fetch c1 .form4 = .ok c4 ∧ convert env fetch c4 .form1 = .ok c1 ∧
        ∀ altOf issuer checkAlt, env.loadKey issuer.tbs.spki = .ok (env.pub ca) →
          env.isVerifyKey (env.pub ca) = true →
          verifySun env fetch altOf c4 issuer (some (env.pub altCa)) checkAlt = .ok () ∧
          verifySun env fetch altOf c1 issuer (some (env.pub altCa)) checkAlt = .ok ()) := by
  obtain ⟨oid, trad, a, d, e1, e2, e3, e4, e5, e6, e7, e8⟩ := C141_content env ca altCa spki t extra hash u u' false
    c4 c1 hf h
  refine ⟨d, e4, e5, ⟨_, e1, rfl⟩, ?_⟩
  intro hv fetch hs
  have h1 : ∀ x ∈ t.exts ++ extra, x.oid ≠ sunKeyOid := fun x hx => (hf x hx).1
  have h2 : ∀ x ∈ t.exts ++ extra ++ [], x.oid ≠ sunSigOid := by
    rw [List.append_nil]
    exact fun x hx => (hf x hx).2
  obtain ⟨b1, -, b3⟩ := e6.back hv fetch hs h1 h2
  refine ⟨b1, b3, ?_⟩
  intro altOf issuer checkAlt hk hvk
  have halg : env.prepAlg ca (some (templateHash env oid hash)) = .ok c4.tbs.alg := by
    rw [hh _ e1, e7, e8]
  exact ⟨e6.verified hv fetch hs hsig h1 h2 altOf issuer hk hvk halg checkAlt c4 (.inl rfl),
    e6.verified hv fetch hs hsig h1 h2 altOf issuer hk hvk halg checkAlt c1 (.inr rfl)⟩

/-- The signature algorithm in the certificate is always the one for `sha256`: if signatures made with the hash that is
used are not accepted under it, every certificate made from the template is refused. -/
theorem C141_hash_refuted (env : SunEnv S K) (ca altCa : S) (spki : Bytes) (t : Tbs) (extra : List Ext)
    (hash : Option String) (u u' : String) (bad : Bool) (c4 c1 : Cert)
    (hf : ∀ x ∈ t.exts ++ extra, x.oid ≠ sunKeyOid ∧ x.oid ≠ sunSigOid)
    (hh : ∀ q a b s, env.hybKey spki = .ok (some q) → env.prepAlg ca (some "sha256") = .ok a →
      env.sign ca (some (templateHash env q.1 hash)) b = .ok s → env.verifyAlg (env.pub ca) a b s ≠ .ok ())
    (h : sunTemplate env ca altCa spki t extra hash (some u) (some u') bad = .ok (c4, c1)) :
    ∃ d : SunData K, d.keyLoc = u ∧ d.sigLoc = u' ∧ (∃ q, env.hybKey spki = .ok (some q) ∧ q.2.2 = d.key) ∧
      (d.Valid env → ∀ fetch altOf issuer alt checkAlt, env.loadKey issuer.tbs.spki = .ok (env.pub ca) →
        ∃ e, verifySun env fetch altOf c4 issuer alt checkAlt = .error e) := by
  obtain ⟨oid, trad, a, d, e1, e2, e3, e4, e5, e6, e7, e8⟩ := C141_content env ca altCa spki t extra hash u u' bad
    c4 c1 hf h
  refine ⟨d, e4, e5, ⟨_, e1, rfl⟩, ?_⟩
  intro hv fetch altOf issuer alt checkAlt hk
  cases hr : verifySun env fetch altOf c4 issuer alt checkAlt with
  | error e => exact ⟨e, rfl⟩
  | ok w =>
    exfalso
    obtain ⟨c4', ka, k, g1, g2, -⟩ := C140_sound env fetch altOf c4 issuer alt checkAlt hr
    have k4 := (e6.carries (fun x hx => (hf x hx).1) (fun x hx => (hf x (by rwa [List.append_nil] at hx)).2)).1
    rw [C139_same env fetch c4 .form4 _ _ _ _ k4.1 k4.2 rfl rfl (hv.pub false) (hv.sg false) rfl rfl] at g1
    cases g1
    obtain ⟨k', g3, -, g5⟩ := g2
    rw [hk] at g3
    cases g3
    refine hh _ a _ _ e1 e7 e6.sig ?_
    have : c4.tbs.alg = a := by rw [e8]
    rw [this] at g5
    exact g5

theorem manipFirst_ne (s s' : Bytes) (h : manipFirst s = .ok s') : s' ≠ s := by
  cases s with
  | nil => cases h
  | cons b l =>
    unfold manipFirst at h
    dsimp only at h
    by_cases hb : b = 0
    · rw [if_pos hb] at h
      cases h
      intro c
      rw [hb] at c
      exact absurd (List.cons.inj c).1 (by decide)
    · rw [if_neg hb] at h
      cases h
      intro c
      exact hb (List.cons.inj c).1.symm

/-- With `bad_alt_sig` the certificate carries another value than the alternative signature; if no other value is
accepted for it, the certificate is refused when the alternative signature is checked. -/
theorem C141_bad (env : SunEnv S K) (ca altCa : S) (spki : Bytes) (t : Tbs) (extra : List Ext)
    (hash : Option String) (u u' : String) (c4 c1 : Cert)
    (hf : ∀ x ∈ t.exts ++ extra, x.oid ≠ sunKeyOid ∧ x.oid ≠ sunSigOid)
    (hinj : ∀ h b s s' a, env.sign altCa h b = .ok s → env.verifyAlg (env.pub altCa) a b s' = .ok () → s' = s)
    (hcoll : ∀ h s s' g, env.digest h s = .ok g → env.digest h s' = .ok g → s = s')
    (h : sunTemplate env ca altCa spki t extra hash (some u) (some u') true = .ok (c4, c1)) :
    ∃ d : SunData K, d.keyLoc = u ∧ d.sigLoc = u' ∧
      (d.Valid env → ∀ fetch altOf issuer,
        ∃ e, verifySun env fetch altOf c4 issuer (some (env.pub altCa)) true = .error e) := by
  obtain ⟨oid, trad, a, d, e1, e2, e3, e4, e5, e6, e7, e8⟩ := C141_content env ca altCa spki t extra hash u u' true
    c4 c1 hf h
  refine ⟨d, e4, e5, ?_⟩
  intro hv fetch altOf issuer
  cases hr : verifySun env fetch altOf c4 issuer (some (env.pub altCa)) true with
  | error e => exact ⟨e, rfl⟩
  | ok w =>
    exfalso
    obtain ⟨c4', ka, k, g1, -, g3, -, g5⟩ := C140_sound env fetch altOf c4 issuer _ true hr
    have h2 : ∀ x ∈ t.exts ++ extra ++ [], x.oid ≠ sunSigOid := by
      rw [List.append_nil]
      exact fun x hx => (hf x hx).2
    have k4 := (e6.carries (fun x hx => (hf x hx).1) h2).1
    rw [C139_same env fetch c4 .form4 _ _ _ _ k4.1 k4.2 rfl rfl (hv.pub false) (hv.sg false) rfl rfl] at g1
    cases g1
    rcases g3 with g3 | ⟨g3, -⟩
    swap
    · cases g3
    cases g3
    obtain ⟨s, ⟨-, x, v, r, ⟨p, q, m1, m2, m3⟩, m4, ⟨al, hn, m5, m6, m7⟩, m8⟩, -⟩ := g5 rfl
    have hx : x = d.sigExt env false := by
      have n1 := m1
      rw [e6.exts4] at n1
      rcases List.eq_nil_or_concat q with rfl | ⟨q', z, rfl⟩
      · have := List.append_inj_right' n1 rfl
        exact (List.cons.inj this).1.symm
      · rw [List.concat_eq_append, show p ++ x :: (q' ++ [z]) = (p ++ x :: q') ++ [z] by simp] at n1
        have hz := (List.cons.inj (List.append_inj_right' n1 rfl)).1
        exact absurd (show z.oid = sunSigOid by rw [← hz]; rfl) (m3 z (by simp))
    subst hx
    rw [show (d.sigExt env false).value = env.encSig (d.sigVal env false) from rfl, hv.sg false] at m4
    cases m4
    cases m5
    rw [hv.sigOid] at m6
    cases m6
    have hs := hcoll _ _ _ _ m7 hv.sigDig
    obtain ⟨s₀, q1, -, q3⟩ := e6.altSig
    have ed : ({ c4.tbs with exts := c4.tbs.exts.filter (fun x => decide (x.oid ≠ sunSigOid)) } : Tbs) =
        { c4.tbs with exts := t.exts ++ extra ++ d.pubExt env false :: [] } := by
      rw [e6.exts4, List.filter_append, List.filter_eq_self.2 (fun x hx => ?_)]
      · rw [show List.filter (fun x : Ext => decide (x.oid ≠ sunSigOid)) [d.sigExt env false] = [] from rfl,
          List.append_nil]
      · rcases List.mem_append.1 hx with hx | hx
        · simpa using (hf x hx).2
        · cases List.mem_singleton.1 hx
          exact decide_eq_true sunOids_ne
    rw [ed] at m8
    have := hinj _ _ _ _ _ q1 m8
    exact manipFirst_ne _ _ (q3 rfl) (hs ▸ this)

/-! ## Certificates made from a CSR -/

theorem sunAttrs_pubHash (env : SunEnv S K) (l : List Attr) (d d' : SunAttrs)
    (hl : ∀ x ∈ l, x.typ ≠ sunPubHashOid) (h : sunAttrs env l d = .ok d') : d'.pubHash = d.pubHash := by
  induction l generalizing d with
  | nil => cases h; rfl
  | cons x l ih =>
    have hx := hl x List.mem_cons_self
    have hr : ∀ y ∈ l, y.typ ≠ sunPubHashOid := fun y hy => hl y (List.mem_cons_of_mem _ hy)
    unfold sunAttrs at h
    by_cases h1 : x.typ = sunPubHashOid ∨ x.typ = sunSigHashOid
    · rw [if_pos h1] at h
      cases hd : env.decAlg x.value with
      | none => rw [hd] at h; cases h
      | some a =>
        rw [hd] at h
        dsimp only at h
        rw [if_neg hx] at h
        exact (ih _ hr h :)
    · rw [if_neg h1] at h
      by_cases h2 : x.typ = sunPubLocOid ∨ x.typ = sunSigLocOid
      · rw [if_pos h2] at h
        cases hd : env.decStr x.value with
        | none => rw [hd] at h; cases h
        | some u =>
          rw [hd] at h
          dsimp only at h
          by_cases h3 : x.typ = sunPubLocOid
          · rw [if_pos h3] at h
            exact (ih _ hr h :)
          · rw [if_neg h3] at h
            exact (ih _ hr h :)
      · rw [if_neg h2] at h
        exact (ih _ hr h :)

theorem sunAttrs_pubLoc (env : SunEnv S K) (l : List Attr) (d d' : SunAttrs)
    (hl : ∀ x ∈ l, x.typ ≠ sunPubLocOid) (h : sunAttrs env l d = .ok d') : d'.pubLoc = d.pubLoc := by
  induction l generalizing d with
  | nil => cases h; rfl
  | cons x l ih =>
    have hx := hl x List.mem_cons_self
    have hr : ∀ y ∈ l, y.typ ≠ sunPubLocOid := fun y hy => hl y (List.mem_cons_of_mem _ hy)
    unfold sunAttrs at h
    by_cases h1 : x.typ = sunPubHashOid ∨ x.typ = sunSigHashOid
    · rw [if_pos h1] at h
      cases hd : env.decAlg x.value with
      | none => rw [hd] at h; cases h
      | some a =>
        rw [hd] at h
        dsimp only at h
        by_cases h3 : x.typ = sunPubHashOid
        · rw [if_pos h3] at h
          exact (ih _ hr h :)
        · rw [if_neg h3] at h
          exact (ih _ hr h :)
    · rw [if_neg h1] at h
      by_cases h2 : x.typ = sunPubLocOid ∨ x.typ = sunSigLocOid
      · rw [if_pos h2] at h
        cases hd : env.decStr x.value with
        | none => rw [hd] at h; cases h
        | some u =>
          rw [hd] at h
          dsimp only at h
          rw [if_neg hx] at h
          exact (ih _ hr h :)
      · rw [if_neg h2] at h
        exact (ih _ hr h :)

/-- The parts of the issuing from a CSR. -/
theorem sunCsr_parts (env : SunEnv S K) (ca altCa : S) (csr : Csr) (t : Tbs) (extra : List Ext) (hash : String)
    (c4 c1 : Cert) (h : sunCsr env ca altCa csr t extra hash = .ok (c4, c1)) :
    ∃ oid trad pq d ph sh p4 p1 alg, env.hybKey csr.spki = .ok (some (oid, trad, pq)) ∧
      sunAttrs env csr.attrs ⟨none, none, none, none⟩ = .ok d ∧ csrPubHash env d hash = .ok (some ph) ∧
      csrSigHash env d csr.alg.oid hash = .ok (some sh) ∧ pubExts env pq (some ph) d.pubLoc = .ok (p4, p1) ∧
      env.prepAlg ca (some hash) = .ok alg ∧
      sunSign env ⟨ca, altCa, sh, hash, d.sigLoc, false⟩
        { t with subject := csr.subject, alg := alg, spki := env.spkiOf trad, exts := p4 :: extra } p1 =
        .ok (c4, c1) := by
  unfold sunCsr at h
  cases hk : env.hybKey csr.spki with
  | error e => rw [hk] at h; cases h
  | ok o =>
    cases o with
    | none => rw [hk] at h; cases h
    | some q =>
      obtain ⟨oid, trad, pq⟩ := q
      rw [hk] at h
      dsimp only at h
      cases hd : sunAttrs env csr.attrs ⟨none, none, none, none⟩ with
      | error e => rw [hd] at h; cases h
      | ok d =>
        rw [hd] at h
        dsimp only at h
        cases hp : csrPubHash env d hash with
        | error e => rw [hp] at h; cases h
        | ok ph =>
          rw [hp] at h
          dsimp only at h
          cases hs : csrSigHash env d csr.alg.oid hash with
          | error e => rw [hs] at h; cases h
          | ok sh =>
            rw [hs] at h
            dsimp only at h
            cases hx : pubExts env pq ph d.pubLoc with
            | error e => rw [hx] at h; cases h
            | ok q =>
              obtain ⟨p4, p1⟩ := q
              rw [hx] at h
              dsimp only at h
              cases ha : env.prepAlg ca (some hash) with
              | error e => rw [ha] at h; cases h
              | ok alg =>
                rw [ha] at h
                dsimp only at h
                cases sh with
                | none => cases h
                | some sh =>
                  dsimp only at h
                  cases ph with
                  | none =>
                    exfalso
                    have := (both_ok _ _ _ hx).1
                    unfold sunPubExt sunPubVal at this
                    dsimp only at this
                    rw [if_neg (by decide)] at this
                    cases this
                  | some ph =>
                    exact ⟨oid, trad, pq, d, ph, sh, p4, p1, alg, rfl, rfl, hp, hs, hx, rfl, h⟩

/-- A CSR that does not say with which hash its key is to be named is always refused: the default is the OID of the
hash, where its name is needed. -/
theorem C141_csr_refuted (env : SunEnv S K) (ca altCa : S) (csr : Csr) (t : Tbs) (extra : List Ext) (hash : String)
    (hn : ∀ x ∈ csr.attrs, x.typ ≠ sunPubHashOid) : ∃ e, sunCsr env ca altCa csr t extra hash = .error e := by
  cases h : sunCsr env ca altCa csr t extra hash with
  | error e => exact ⟨e, rfl⟩
  | ok q =>
    exfalso
    obtain ⟨c4, c1⟩ := q
    obtain ⟨oid, trad, pq, d, ph, sh, p4, p1, alg, -, h2, h3, -⟩ := sunCsr_parts env ca altCa csr t extra hash c4 c1 h
    have := sunAttrs_pubHash env _ _ _ hn h2
    unfold csrPubHash at h3
    rw [this] at h3
    dsimp only at h3
    by_cases hs : env.sha2Name hash = true
    · rw [if_pos hs] at h3; cases h3
    · rw [if_neg hs] at h3; cases h3

/-- The CA adds no location to a certificate made from a CSR: if the CSR names none for the key, the certificate is made
but never accepted. -/
theorem C141_csr_location_refuted (env : SunEnv S K) (ca altCa : S) (csr : Csr) (t : Tbs) (extra : List Ext)
    (hash : String) (c4 c1 : Cert) (hn : ∀ x ∈ csr.attrs, x.typ ≠ sunPubLocOid)
    (he : ∀ x ∈ extra, x.oid ≠ sunSigOid)
    (hcodec : ∀ k b h o, env.hashOid h = .ok o → ∀ v, sunPubVal env k b (some h) none = .ok v →
      env.decPub (env.encPub v) = some (v, []))
    (h : sunCsr env ca altCa csr t extra hash = .ok (c4, c1)) (fetch : String → Except PyErr Bytes)
    (altOf : Cert → Except PyErr (Option K)) (issuer : Cert) (alt : Option K) (checkAlt : Bool) :
    ∃ e, verifySun env fetch altOf c4 issuer alt checkAlt = .error e := by
  cases hr : verifySun env fetch altOf c4 issuer alt checkAlt with
  | error e => exact ⟨e, rfl⟩
  | ok w =>
    exfalso
    obtain ⟨oid, trad, pq, d, ph, sh, p4, p1, alg, -, h2, h3, h4, h5, h6, h7⟩ :=
      sunCsr_parts env ca altCa csr t extra hash c4 c1 h
    have hl := sunAttrs_pubLoc env _ _ _ hn h2
    rw [hl] at h5
    obtain ⟨o, v, g1, -, g3, g4⟩ := sunPubExt_ok env pq false ph none false p4 (both_ok _ _ _ h5).1
    obtain ⟨_, _, _, _, _, e1⟩ := sunPubExt_ok env pq true ph none false p1 (both_ok _ _ _ h5).2
    obtain ⟨s₀, al, s, s4, s1, m, -, -, -, -, q5, q6, -⟩ := sunSign_ok env _ _ p4 p1 c4 c1
      ⟨[], extra, rfl, by rw [g4], fun x hx => (by cases hx)⟩ (by rw [e1]) (by
        intro x hx
        rcases List.mem_cons.1 hx with rfl | hx
        · rw [g4]
          exact sunOids_ne
        · exact he x hx) h7
    -- the certificate is in Form 4 with respect to its key
    have hd : env.decPub p4.value = some (⟨false, v, env.spkiAlg (env.spkiOf pq), some ⟨o, none⟩, none⟩, []) := by
      rw [g4]
      refine hcodec pq false ph o g1 _ ?_
      unfold sunPubVal
      dsimp only
      rw [if_neg (by decide), g3 rfl]
      dsimp only
      rw [g1]
    have hfirst : IsFirst c4.tbs.exts sunKeyOid p4 := by
      rw [q6]
      exact ⟨[], extra ++ [s4], rfl, by rw [g4], fun x hx => (by cases hx)⟩
    obtain ⟨c4', ka, k, k1, -, -, k2, -⟩ := C140_sound env fetch altOf c4 issuer alt checkAlt hr
    obtain ⟨x, v', r, u, b, o', w1, w2, w3, w4, w5, -⟩ := k2
    have hfirst' : IsFirst c4'.tbs.exts sunKeyOid p4 := by
      unfold convert convPub at k1
      rw [(nonCrit_iff _ _ _).2 ⟨hfirst, by rw [g4]⟩] at k1
      dsimp only at k1
      rw [hd] at k1
      dsimp only at k1
      rw [if_pos (show SunForm.form4.pub = false from rfl)] at k1
      dsimp only at k1
      unfold convSig at k1
      cases hn2 : nonCrit c4.tbs.exts sunSigOid with
      | error e => rw [hn2] at k1; cases k1
      | ok y2 =>
        rw [hn2] at k1
        dsimp only at k1
        cases hd2 : env.decSig y2.value with
        | none => rw [hd2] at k1; cases k1
        | some pr =>
          obtain ⟨v2, r2⟩ := pr
          rw [hd2] at k1
          dsimp only at k1
          by_cases hb : SunForm.form4.sig = v2.byVal
          · rw [if_pos hb] at k1
            cases k1
            exact hfirst
          · rw [if_neg hb] at k1
            cases hh2 : sunHash env v2 with
            | error e => rw [hh2] at k1; cases k1
            | ok hx2 =>
              rw [hh2] at k1
              dsimp only at k1
              cases hs2 : otherSig fetch v2 SunForm.form4.sig with
              | error e => rw [hs2] at k1; cases k1
              | ok s2 =>
                rw [hs2] at k1
                dsimp only at k1
                cases hp2 : sunSigExt env s2 SunForm.form4.sig v2.alg hx2 v2.loc y2.critical with
                | error e => rw [hp2] at k1; cases k1
                | ok z2 =>
                  rw [hp2] at k1
                  dsimp only at k1
                  cases hq2 : patchExt c4.tbs.exts z2 with
                  | error e => rw [hq2] at k1; cases k1
                  | ok l2 =>
                    rw [hq2] at k1
                    cases k1
                    obtain ⟨x2, hr2⟩ := patchExt_some _ _ _ hq2
                    have ho2 : z2.oid = sunSigOid := by
                      unfold sunSigExt at hp2
                      cases hw2 : sunSigVal env s2 SunForm.form4.sig v2.alg hx2 v2.loc with
                      | error e => rw [hw2] at hp2; cases hp2
                      | ok w2 =>
                        rw [hw2] at hp2
                        cases hp2
                        rfl
                    rw [ho2] at hr2
                    exact hr2.first sunOids_ne.symm hfirst
    have := hfirst'.unique w1
    subst this
    rw [hd] at w3
    cases w3
    cases w5

/-- A certificate made from a CSR that names hash and location of the key and the location of the signature is accepted
in both forms if they are served. -/
theorem C141_csr_round_trip_partial (env : SunEnv S K) (ca altCa : S) (csr : Csr) (t : Tbs) (extra : List Ext)
    (hash : String) (at' : SunAttrs) (u u' : String) (c4 c1 : Cert) (hsig : SigCorrect env)
    (hat : sunAttrs env csr.attrs ⟨none, none, none, none⟩ = .ok at') (hu : at'.pubLoc = some u)
    (hu' : at'.sigLoc = some u') (hf : ∀ x ∈ extra, x.oid ≠ sunSigOid)
    (h : sunCsr env ca altCa csr t extra hash = .ok (c4, c1)) :
    ∃ d : SunData K, d.keyLoc = u ∧ d.sigLoc = u' ∧ (∃ q, env.hybKey csr.spki = .ok (some q) ∧ q.2.2 = d.key) ∧
      c4.tbs.subject = csr.subject ∧
      (d.Valid env → ∀ fetch, d.Served env fetch →
        convert env fetch c1 .form4 = .ok c4 ∧ convert env fetch c4 .form1 = .ok c1 ∧
        ∀ altOf issuer checkAlt, env.loadKey issuer.tbs.spki = .ok (env.pub ca) →
          env.isVerifyKey (env.pub ca) = true →
          verifySun env fetch altOf c4 issuer (some (env.pub altCa)) checkAlt = .ok () ∧
          verifySun env fetch altOf c1 issuer (some (env.pub altCa)) checkAlt = .ok ()) := by
  obtain ⟨oid, trad, pq, d, ph, sh, p4, p1, alg, g1, g2, g3, g4, g5, g6, g7⟩ :=
    sunCsr_parts env ca altCa csr t extra hash c4 c1 h
  rw [hat] at g2
  cases g2
  rw [hu] at g5
  have h1 : ∀ x ∈ ([] : List Ext), x.oid ≠ sunKeyOid := fun x hx => by cases hx
  obtain ⟨d, rfl, e2, e3, e4, e5, e6, e7⟩ := issue_of env _ _ pq ph u u' [] extra p4 p1 c4 c1 g5 hu' rfl h1
    (by rw [List.nil_append]; exact hf) g7
  refine ⟨d, e3, e5, ⟨_, g1, rfl⟩, by rw [e7], ?_⟩
  intro hv fetch hs
  have h2 : ∀ x ∈ [] ++ extra, x.oid ≠ sunSigOid := by
    rw [List.nil_append]
    exact hf
  obtain ⟨b1, -, b3⟩ := e6.back hv fetch hs h1 h2
  refine ⟨b1, b3, ?_⟩
  intro altOf issuer checkAlt hk hvk
  have halg : env.prepAlg ca (some hash) = .ok c4.tbs.alg := by
    rw [g6, e7]
  exact ⟨e6.verified hv fetch hs hsig h1 h2 altOf issuer hk hvk halg checkAlt c4 (.inl rfl),
    e6.verified hv fetch hs hsig h1 h2 altOf issuer hk hvk halg checkAlt c1 (.inr rfl)⟩

/-! ## Examples -/

/-- A TBS certificate, the issuer, and what is served for the key type `x`. -/
def toySunTbs : Tbs := ⟨[], 1, ⟨[], none⟩, [8], ⟨[], [], none⟩, [7], [], [⟨skiOid, false, [3]⟩]⟩
/-- The certificate of the CA with the key 50. -/
def toySunCa : Cert := ⟨⟨[], 2, ⟨[11], none⟩, [8], ⟨[], [], none⟩, [8], [50], []⟩, ⟨[11], none⟩, [1]⟩
/-- What is served: the key `k` and the signature carried by the Form 1 certificate. -/
def toySunServe (k : UInt8) (r : Except PyErr (Cert × Cert)) (u : String) : Except PyErr Bytes :=
  if u = "k" then .ok [k]
  else if u = "s" then
    match r with
    | .ok (_, c1) => extractAltSig toySun c1.tbs.exts none
    | .error e => .error e
  else .error .valueError

/-- A key type with `sha256`. -/
def toySunIssued : Except PyErr (Cert × Cert) :=
  sunTemplate toySun 50 60 [5] toySunTbs [] none (some "k") (some "s") false

example : toySunIssued.isOk = true ∧ ∀ c4 c1, toySunIssued = .ok (c4, c1) →
    verifySun toySun (toySunServe 35 toySunIssued) (fun _ => .ok none) c4 toySunCa (some 60) true = .ok () ∧
    verifySun toySun (toySunServe 35 toySunIssued) (fun _ => .ok none) c1 toySunCa (some 60) true = .ok () := by
  refine ⟨by decide +kernel, ?_⟩
  intro c4 c1 h
  have e : toySunIssued = .ok ((toySunIssued.toOption.getD (toySunCa, toySunCa)).1,
    (toySunIssued.toOption.getD (toySunCa, toySunCa)).2) := by decide +kernel
  rw [e] at h
  obtain ⟨rfl, rfl⟩ := Prod.mk.inj (Except.ok.inj h)
  decide +kernel

/-- The witness: for the key type 7 the hash is `sha512`, and the certificate that is made is refused. -/
example : ∃ c4 c1, sunTemplate toySun 50 60 [7] toySunTbs [] none (some "k") (some "s") false = .ok (c4, c1) ∧
    c4.tbs.alg ≠ c4.alg ∧
    verifySun toySun (toySunServe 37 (.ok (c4, c1))) (fun _ => .ok none) c4 toySunCa (some 60) true =
      .error .invalidSignature := by
  refine ⟨((sunTemplate toySun 50 60 [7] toySunTbs [] none (some "k") (some "s") false).toOption.getD
    (toySunCa, toySunCa)).1, ((sunTemplate toySun 50 60 [7] toySunTbs [] none (some "k") (some "s") false).toOption.getD
    (toySunCa, toySunCa)).2, ?_, ?_, ?_⟩ <;> decide +kernel

example : ∃ c4 c1, sunTemplate toySun 50 60 [5] toySunTbs [] none (some "k") (some "s") true = .ok (c4, c1) ∧
    verifySun toySun (toySunServe 35 (.ok (c4, c1))) (fun _ => .ok none) c4 toySunCa (some 60) true =
      .error .invalidSignature ∧
    verifySun toySun (toySunServe 35 (.ok (c4, c1))) (fun _ => .ok none) c4 toySunCa (some 60) false = .ok () ∧
    verifySun toySun (toySunServe 35 (.ok (c4, c1))) (fun _ => .ok none) c4 toySunCa none false =
      .error .valueError := by
  refine ⟨((sunTemplate toySun 50 60 [5] toySunTbs [] none (some "k") (some "s") true).toOption.getD
    (toySunCa, toySunCa)).1, ((sunTemplate toySun 50 60 [5] toySunTbs [] none (some "k") (some "s") true).toOption.getD
    (toySunCa, toySunCa)).2, ?_, ?_, ?_, ?_⟩ <;> decide +kernel

/-- A CSR with all attributes, and without the hash of the key. -/
def toySunCsr (attrs : List Attr) : Csr := ⟨[7], [5], attrs, ⟨[9], none⟩, []⟩

example : (∃ e, sunCsr toySun 50 60 (toySunCsr [⟨sunPubLocOid, [1]⟩, ⟨sunSigLocOid, [2]⟩]) toySunTbs [] "sha256" =
    .error e) := C141_csr_refuted toySun 50 60 _ toySunTbs [] "sha256" (by decide)

example : ∃ c4 c1, sunCsr toySun 50 60 (toySunCsr [⟨sunPubHashOid, [1]⟩, ⟨sunPubLocOid, [1]⟩, ⟨sunSigLocOid, [2]⟩])
      toySunTbs [] "sha256" = .ok (c4, c1) ∧
    verifySun toySun (toySunServe 35 (.ok (c4, c1))) (fun _ => .ok none) c1 toySunCa (some 60) true = .ok () := by
  refine ⟨((sunCsr toySun 50 60 (toySunCsr [⟨sunPubHashOid, [1]⟩, ⟨sunPubLocOid, [1]⟩, ⟨sunSigLocOid, [2]⟩])
      toySunTbs [] "sha256").toOption.getD (toySunCa, toySunCa)).1,
    ((sunCsr toySun 50 60 (toySunCsr [⟨sunPubHashOid, [1]⟩, ⟨sunPubLocOid, [1]⟩, ⟨sunSigLocOid, [2]⟩])
      toySunTbs [] "sha256").toOption.getD (toySunCa, toySunCa)).2, ?_, ?_⟩ <;> decide +kernel

example : ∃ c4 c1, sunCsr toySun 50 60 (toySunCsr [⟨sunPubHashOid, [1]⟩]) toySunTbs [] "sha256" = .ok (c4, c1) ∧
    verifySun toySun (toySunServe 35 (.ok (c4, c1))) (fun _ => .ok none) c4 toySunCa (some 60) true =
      .error .valueError := by
  refine ⟨((sunCsr toySun 50 60 (toySunCsr [⟨sunPubHashOid, [1]⟩]) toySunTbs [] "sha256").toOption.getD
    (toySunCa, toySunCa)).1, ((sunCsr toySun 50 60 (toySunCsr [⟨sunPubHashOid, [1]⟩]) toySunTbs []
    "sha256").toOption.getD (toySunCa, toySunCa)).2, ?_, ?_⟩ <;> decide +kernel

/-- Verification of a certificate whose key is not served (C140), and the extracted key of an issuer. -/
example : ∃ e, verifySun toySun (fun _ => .error .valueError) (fun _ => .ok none) (toySunCert toySunData .form1)
    toySunCa (some 60) false = .error e :=
  C140_by_value_refuted _ _ _ toySunData toySunData_valid _ _ _ _ (toySunCert_carries _ _) ⟨_, rfl⟩

example : sunAltKey toySun (toySunFetch toySunData') (toySunCert toySunData .form4).tbs.exts = .ok (some 38) :=
  C140_alt_key_refuted _ _ toySunData toySunData' toySunData_valid toySunData'_valid rfl _ .form4 rfl
    (toySunCert_carries _ _)

end Verif.Hybrid
