import Verif.Prot.MacRefuted

/-!
# C143: signature-based protection
-/

namespace Verif.Prot

open Verif.CA

variable {S K C : Type}

/-! ## Specification -/

/-- RSASSA-PKCS1-v1_5. -/
def rsaSpec : List (Oid × String) :=
  [([1, 2, 840, 113549, 1, 1, 5], "sha1"), ([1, 2, 840, 113549, 1, 1, 14], "sha224"),
   ([1, 2, 840, 113549, 1, 1, 11], "sha256"), ([1, 2, 840, 113549, 1, 1, 12], "sha384"),
   ([1, 2, 840, 113549, 1, 1, 13], "sha512"), ([2, 16, 840, 1, 101, 3, 4, 3, 13], "sha3_224"),
   ([2, 16, 840, 1, 101, 3, 4, 3, 14], "sha3_256"), ([2, 16, 840, 1, 101, 3, 4, 3, 15], "sha3_384"),
   ([2, 16, 840, 1, 101, 3, 4, 3, 16], "sha3_512")]

/-- ECDSA. -/
def ecdsaSpec : List (Oid × String) :=
  [([1, 2, 840, 10045, 4, 3, 1], "sha224"), ([1, 2, 840, 10045, 4, 3, 2], "sha256"),
   ([1, 2, 840, 10045, 4, 3, 3], "sha384"), ([1, 2, 840, 10045, 4, 3, 4], "sha512"),
   ([1, 3, 6, 1, 5, 5, 7, 6, 32], "shake128"), ([1, 3, 6, 1, 5, 5, 7, 6, 33], "shake256"),
   ([2, 16, 840, 1, 101, 3, 4, 3, 9], "sha3_224"), ([2, 16, 840, 1, 101, 3, 4, 3, 10], "sha3_256"),
   ([2, 16, 840, 1, 101, 3, 4, 3, 11], "sha3_384"), ([2, 16, 840, 1, 101, 3, 4, 3, 12], "sha3_512")]

/-- EdDSA. -/
def edSpec : List Oid := [[1, 3, 101, 112], [1, 3, 101, 113]]

/-- The traditional signature algorithms without PSS. -/
def tradOids : List Oid := rsaSpec.map (·.1) ++ ecdsaSpec.map (·.1) ++ edSpec

/-- The hash function of such an algorithm. -/
inductive SigHash : Oid → Option String → Prop
  | rsa {o : Oid} {h : String} : (o, h) ∈ rsaSpec → SigHash o (some h)
  | ecdsa {o : Oid} {h : String} : (o, h) ∈ ecdsaSpec → SigHash o (some h)
  | ed {o : Oid} : o ∈ edSpec → SigHash o none

/-- Its parameters: NULL for RSA, absent for the others (RFC 9481). -/
def SigParOk (a : AlgId) : Prop :=
  (a.oid ∈ rsaSpec.map (·.1) ∧ (a.par = .null ∨ a.par = .raw [5, 0])) ∨ (a.oid ∉ rsaSpec.map (·.1) ∧ a.par = .absent)

/-! ## Tables -/

theorem sig_rows : ∀ o ∈ tradOids, isSymmetric o = false ∧ o ≠ dhOid ∧ o ≠ kemMacOid ∧ isTradSig o = true ∧
    look pssNames o = none ∧ o ≠ dsaOid := by
  decide +kernel

/-- The hash function in the spec, as a function. -/
def sigHashFn (o : Oid) : Option (Option String) :=
  match look (rsaSpec ++ ecdsaSpec) o with
  | some h => some (some h)
  | none => if o ∈ edSpec then some none else none

theorem sigHash_rows : ∀ o ∈ tradOids,
    (o = ed25519Oid ∨ o = ed448Oid → sigHashFn o = some none) ∧
    (¬ (o = ed25519Oid ∨ o = ed448Oid) → ∃ x ∈ hashMap, look hashMap o = some x.2 ∧
      (dash1 x.2).toOption = some (lastDash x.2) ∧ sigHashFn o = some (some (lastDash x.2))) := by
  decide +kernel

theorem sigHashFn_rows : (∀ x ∈ rsaSpec, sigHashFn x.1 = some (some x.2)) ∧
    (∀ x ∈ ecdsaSpec, sigHashFn x.1 = some (some x.2)) ∧ (∀ o ∈ edSpec, sigHashFn o = some none) := by
  decide +kernel

theorem sigHashFn_iff (o : Oid) (h : Option String) : sigHashFn o = some h ↔ SigHash o h := by
  obtain ⟨r1, r2, r3⟩ := sigHashFn_rows
  constructor
  · intro hf
    unfold sigHashFn at hf
    cases hl : look (rsaSpec ++ ecdsaSpec) o with
    | some x =>
      rw [hl] at hf
      cases hf
      rcases List.mem_append.1 (mem_of_look _ _ _ hl) with h1 | h1
      · exact .rsa h1
      · exact .ecdsa h1
    | none =>
      rw [hl] at hf
      dsimp only at hf
      by_cases he : o ∈ edSpec
      · rw [if_pos he] at hf
        cases hf
        exact .ed he
      · rw [if_neg he] at hf; cases hf
  · intro hs
    cases hs with
    | rsa hm => exact r1 _ hm
    | ecdsa hm => exact r2 _ hm
    | ed hm => exact r3 _ hm

/-- The hash that the code finds for a traditional algorithm, in its two ways. -/
theorem hashOfOid_trad (env : MacEnv) (o : Oid) (ho : o ∈ tradOids) (hs : env.special o = none) :
    ∃ h n, SigHash o h ∧ hashOfOid env o true = .ok h ∧ hashOfOid env o false = .ok n ∧ n.map lastDash = h := by
  obtain ⟨r1, r2⟩ := sigHash_rows o ho
  unfold hashOfOid
  by_cases he : o = ed25519Oid ∨ o = ed448Oid
  · rw [if_pos he, if_pos he]
    exact ⟨none, none, (sigHashFn_iff _ _).1 (r1 he), rfl, rfl, rfl⟩
  · rw [if_neg he, if_neg he, hs]
    obtain ⟨x, _, h1, h2, h3⟩ := r2 he
    dsimp only
    rw [h1]
    dsimp only
    cases hd : dash1 x.2 with
    | error e => rw [hd] at h2; cases h2
    | ok d =>
      rw [hd] at h2
      have hdd : d = lastDash x.2 := Option.some.inj h2
      subst hdd
      exact ⟨some (lastDash x.2), some x.2, (sigHashFn_iff _ _).1 h3, rfl, rfl, rfl⟩

theorem sigHash_unique (o : Oid) (h h' : Option String) (h1 : SigHash o h) (h2 : SigHash o h') : h = h' := by
  have e1 := (sigHashFn_iff _ _).2 h1
  rw [(sigHashFn_iff _ _).2 h2] at e1
  exact (Option.some.inj e1).symm

theorem rsaTab_rows : ∀ o ∈ tradOids, ((look rsaNames o).isSome = true ↔ o ∈ rsaSpec.map (·.1)) ∧
    (o ∉ rsaSpec.map (·.1) → (look ecdsaNames o).isSome ∨ o = ed448Oid ∨ o = ed25519Oid) ∧
    (o ∈ rsaSpec.map (·.1) → ¬ ((look ecdsaNames o).isSome ∨ o = ed448Oid ∨ o = ed25519Oid)) := by
  decide +kernel

theorem validSig_iff (env : Env S K C) (a : AlgId) (ho : a.oid ∈ tradOids) (hc : env.compName a.oid = none) :
    validSigAlg env a = .ok () ↔ SigParOk a := by
  obtain ⟨r1, r2, r3⟩ := rsaTab_rows _ ho
  unfold validSigAlg
  rw [hc]
  simp only [Option.isSome_none, Bool.false_eq_true, if_false]
  unfold SigParOk
  by_cases hr : a.oid ∈ rsaSpec.map (·.1)
  · rw [if_neg (r3 hr), if_pos (r1.2 hr)]
    obtain ⟨o, par⟩ := a
    dsimp only at hr ⊢
    cases par <;> simp [isNullPar, hr]
  · rw [if_pos (r2 hr)]
    by_cases hp : a.par = .absent
    · simp [hp, hr]
    · simp [hp, hr]

/-! ## Verification -/

/-- What `verify_pkimessage_protection` does for a traditional signature algorithm. -/
theorem verify_sig (env : Env S K C) (rnd : Bytes) (m : Msg C) (priv : Option S) (pw : Option Bytes) (pub : Option K)
    (ss : Option Bytes) (a : AlgId) (p : Bytes) (ha : m.hdr.alg = some a) (hp : m.prot = some p)
    (ho : a.oid ∈ tradOids) : verifyProt env rnd m priv pw pub ss false = verifySigMsg env m pub a p := by
  obtain ⟨h1, h2, h3, h4, _⟩ := sig_rows _ ho
  unfold verifyProt
  rw [hp, ha]
  dsimp only
  rw [if_neg (by simp)]
  unfold verifyBy
  rw [if_neg h3, if_neg h2, if_neg (by simp [h1]), if_pos (Or.inl h4)]

/-- C143: with the public key given, a message with a traditional signature is accepted if and only if its parameters are
right, the key fits to the algorithm, and its protection is a signature, with the hash function of the algorithm, on its
encoded header and body. -/
theorem C143_key_iff (env : Env S K C) (rnd : Bytes) (m : Msg C) (priv : Option S) (pw : Option Bytes) (k : K)
    (ss : Option Bytes) (a : AlgId) (p : Bytes) (ha : m.hdr.alg = some a) (hp : m.prot = some p)
    (ho : a.oid ∈ tradOids) (hs : env.special a.oid = none) (hc : env.compName a.oid = none)
    (hk : env.isCompositePub k = false) :
    verifyProt env rnd m priv pw (some k) ss false = .ok () ↔
      ∃ data h, protectedPart env.toMacEnv m = .ok data ∧ SigParOk a ∧ SigHash a.oid h ∧
        env.consistent k a.oid = .ok () ∧ env.verify k (.plain h) data p = .ok () := by
  obtain ⟨h1, h2, h3, h4, h5, _⟩ := sig_rows _ ho
  obtain ⟨hh, n, hx1, hx2, hx3, hx4⟩ := hashOfOid_trad env.toMacEnv _ ho hs
  rw [verify_sig env rnd m priv pw (some k) ss a p ha hp ho]
  unfold verifySigMsg
  cases hd : protectedPart env.toMacEnv m with
  | error e => simp
  | ok data =>
    dsimp only
    unfold verifySigWith
    rw [h5, hx3]
    simp only [Option.isSome_none, Bool.false_eq_true, if_false]
    unfold verifyAlg
    cases hv : validSigAlg env a with
    | error e =>
      have hno : ¬ SigParOk a := fun c => by
        rw [(validSig_iff env a ho hc).2 c] at hv
        cases hv
      constructor
      · intro c; cases c
      · rintro ⟨_, _, _, c, _⟩; exact absurd c hno
    | ok u =>
      have hyes : SigParOk a := (validSig_iff env a ho hc).1 hv
      dsimp only
      rw [hc, h5]
      simp only [Option.isSome_none, Bool.false_eq_true, false_and, if_false, h4, or_true, if_true]
      unfold sigHashChecked
      rw [hx2]
      dsimp only
      cases hcon : env.consistent k a.oid with
      | error e =>
        constructor
        · intro c; cases e <;> cases c
        · rintro ⟨_, _, _, _, _, c, _⟩; cases c
      | ok u =>
        dsimp only
        unfold verifyData
        rw [hk]
        simp only [Bool.false_eq_true, if_false]
        constructor
        · intro c; exact ⟨data, hh, rfl, hyes, hx1, by simp, c⟩
        · rintro ⟨d, h', e1, _, e3, _, e5⟩
          cases e1
          rw [sigHash_unique _ _ _ hx1 e3]
          exact e5

/-- C143: without a public key the first of the `extraCerts` has to have the key that verifies the signature; neither the
parameters nor the kind of the key are compared to the algorithm. -/
theorem C143_cert_iff (env : Env S K C) (rnd : Bytes) (m : Msg C) (priv : Option S) (pw : Option Bytes)
    (ss : Option Bytes) (a : AlgId) (p : Bytes) (ha : m.hdr.alg = some a) (hp : m.prot = some p)
    (ho : a.oid ∈ tradOids) (hs : env.special a.oid = none) (hk : ∀ k, env.isCompositePub k = false) :
    verifyProt env rnd m priv pw none ss false = .ok () ↔
      ∃ data h c rest k, protectedPart env.toMacEnv m = .ok data ∧ SigHash a.oid h ∧ m.certs = c :: rest ∧
        env.keyOf c = .ok k ∧ env.isVerifyKey k = true ∧ env.verify k (.plain h) data p = .ok () := by
  obtain ⟨h1, h2, h3, h4, h5, _⟩ := sig_rows _ ho
  obtain ⟨hh, n, hx1, hx2, hx3, hx4⟩ := hashOfOid_trad env.toMacEnv _ ho hs
  rw [verify_sig env rnd m priv pw none ss a p ha hp ho]
  unfold verifySigMsg
  cases hd : protectedPart env.toMacEnv m with
  | error e => simp
  | ok data =>
    dsimp only
    unfold verifySigWith
    rw [h5, hx3]
    simp only [Option.isSome_none, Bool.false_eq_true, if_false]
    cases hcs : m.certs with
    | nil =>
      constructor
      · intro c; cases c
      · rintro ⟨_, _, _, _, _, _, _, c, _⟩; cases c
    | cons c rest =>
      rw [show firstKey env (c :: rest) = env.keyOf c from rfl]
      cases hko : env.keyOf c with
      | error e =>
        constructor
        · intro c; cases c
        · rintro ⟨_, _, _, _, _, _, _, c1, c2, _⟩
          cases c1
          rw [hko] at c2
          cases c2
      | ok k =>
        dsimp only
        by_cases hv : env.isVerifyKey k = true
        · rw [if_pos hv]
          unfold verifyData
          rw [hk k, hx4]
          simp only [Bool.false_eq_true, if_false]
          constructor
          · intro e; exact ⟨data, hh, c, rest, k, rfl, hx1, rfl, hko, hv, e⟩
          · rintro ⟨d, h', c', rest', k', e1, e2, e3, e4, e5, e6⟩
            cases e1
            cases e3
            rw [hko] at e4
            cases e4
            rw [sigHash_unique _ _ _ hx1 e2]
            exact e6
        · rw [if_neg hv]
          constructor
          · intro e; cases e
          · rintro ⟨d, h', c', rest', k', e1, e2, e3, e4, e5, e6⟩
            cases e3
            rw [hko] at e4
            cases e4
            exact absurd e5 hv

/-! ## Round trip -/

/-- The signature that a message gets, for a traditional algorithm. -/
theorem signed_trad (env : Env S K C) (a : PArgs S K C) (alg : AlgId) (m : Msg C) (v : Bytes) (s : S)
    (hpriv : a.priv = some s) (ho : alg.oid ∈ tradOids) (hs : env.special alg.oid = none)
    (hcs : env.isComposite s = false) (h : protValue env a alg m = .ok v) :
    ∃ data hh, protectedPart env.toMacEnv m = .ok data ∧ SigHash alg.oid hh ∧ env.sign s (.plain hh) data = .ok v := by
  obtain ⟨h1, h2, h3, h4, h5, h6⟩ := sig_rows _ ho
  obtain ⟨hh, n, hx1, hx2, hx3, hx4⟩ := hashOfOid_trad env.toMacEnv _ ho hs
  unfold protValue at h
  by_cases hsd : m.hdr.sender = false
  · rw [if_pos hsd] at h; cases h
  · rw [if_neg hsd, if_neg h2, if_neg (by simp [h1])] at h
    unfold signMsg at h
    cases hd : protectedPart env.toMacEnv m with
    | error e => rw [hd] at h; cases h
    | ok data =>
      rw [hd, hpriv] at h
      dsimp only at h
      by_cases hk : env.isSignKey s = true
      · rw [if_pos hk, if_neg (fun c => h6 c.1)] at h
        unfold signAlg at h
        rw [hcs, h5, hx2] at h
        simp only [Option.isSome_none, Bool.false_eq_true, false_and, if_false, h4, or_true, if_true] at h
        unfold signData at h
        rw [hcs] at h
        simp only [Bool.false_eq_true, if_false, and_false] at h
        exact ⟨data, hh, rfl, hx1, h⟩
      · rw [if_neg hk] at h; cases h

theorem pss_rows : isSymmetric pssOid = false ∧ pssOid ≠ dhOid ∧ pssOid ≠ kemMacOid ∧ isTradSig pssOid = true ∧
    (look pssNames pssOid).isSome = true := by
  decide +kernel

theorem prepSig_shape (env : Env S K C) (a : PArgs S K C) (alg : AlgId) (s : S) (hn : protKind a.name = .ok .signature)
    (hpriv : a.priv = some s) (hcs : env.isComposite s = false) (ho : alg.oid ∈ tradOids)
    (h : prepAlg env a = .ok alg) : alg.par = if env.isRsa s then .null else .absent := by
  unfold prepAlg at h
  rw [hn] at h
  dsimp only at h
  unfold prepSigAlg at h
  rw [hpriv] at h
  dsimp only at h
  cases hh : sigHash env a with
  | error e => rw [hh] at h; cases h
  | ok n =>
    rw [hh] at h
    dsimp only at h
    split at h
    · unfold prepSig at h
      rw [hcs] at h
      simp only [Bool.false_eq_true, if_false] at h
      cases hso : env.sigOid s n with
      | error e => rw [hso] at h; cases h
      | ok o =>
        rw [hso] at h
        dsimp only at h
        by_cases hps : (look pssNames o).isSome = true
        · rw [if_pos hps] at h
          exfalso
          have : (look pssNames alg.oid).isSome = true := by
            unfold prepPss at h
            split at h
            · cases h; decide +kernel
            · split at h
              · cases h; decide +kernel
              · split at h
                · cases h
                · split at h
                  · cases h
                  · cases h; exact pss_rows.2.2.2.2
          rw [(sig_rows _ ho).2.2.2.2.1] at this
          cases this
        · rw [if_neg hps] at h
          cases h
          rfl
    · cases h

/-- C143: a message protected with a traditional signature verifies after transport, with the public key and also with the
certificate in the message, if the key pair fits to the algorithm. -/
theorem C143_roundtrip [DecidableEq C] (env : Env S K C) (a : PArgs S K C) (m m' : Msg C) (s : S) (k : K) (alg : AlgId)
    (hn : protKind a.name = .ok .signature) (hpriv : a.priv = some s) (hbad : a.bad = false)
    (h : protect env a m = .ok m') (halg : m'.hdr.alg = some alg) (ho : alg.oid ∈ tradOids)
    (hs : env.special alg.oid = none) (hc : env.compName alg.oid = none)
    (hcs : env.isComposite s = false) (hck : ∀ k, env.isCompositePub k = false)
    (hpair : ∀ mode data sig, env.sign s mode data = .ok sig → env.verify k mode data sig = .ok ())
    (hrsa : env.isRsa s = true ↔ alg.oid ∈ rsaSpec.map (·.1)) (hnull : env.nullDer = [5, 0]) (rnd : Bytes)
    (priv : Option S) (pw ss : Option Bytes) :
    (env.consistent k alg.oid = .ok () →
      verifyProt env rnd (transport env.toMacEnv m') priv pw (some k) ss false = .ok ()) ∧
    (∀ c rest, m'.certs = c :: rest → env.keyOf c = .ok k → env.isVerifyKey k = true →
      verifyProt env rnd (transport env.toMacEnv m') priv pw none ss false = .ok ()) := by
  obtain ⟨c, alg', v, v', _, hp, hhdr, hbody, hv, hbadv, hprot, _⟩ := protect_shape env a m m' h
  have e : alg' = alg := by
    rw [hhdr] at halg
    exact Option.some.inj halg
  subst e
  have hv' : v' = v := by
    rw [hbad] at hbadv
    cases hbadv
    rfl
  subst hv'
  obtain ⟨data, hh, hd1, hd2, hd3⟩ := signed_trad env a alg' m' v' s hpriv ho hs hcs hv
  have hpar := prepSig_shape env a alg' s hn hpriv hcs ho hp
  have hsent : SigParOk (sentAlg env.toMacEnv alg') := by
    unfold SigParOk sentAlg sentPar
    rw [hpar]
    dsimp only
    by_cases hr : env.isRsa s = true
    · rw [if_pos hr]
      exact Or.inl ⟨hrsa.1 hr, Or.inr (by simp [parDer, hnull])⟩
    · rw [if_neg hr]
      exact Or.inr ⟨fun c => hr (hrsa.2 c), rfl⟩
  constructor
  · intro hcon
    exact (C143_key_iff env rnd _ priv pw k ss (sentAlg env.toMacEnv alg') v' (transport_alg _ m' _ halg) hprot ho hs hc
      (hck k)).2 ⟨data, hh, by rw [transport_part]; exact hd1, hsent, hd2, hcon, hpair _ _ _ hd3⟩
  · intro c0 rest hcert hko hvk
    exact (C143_cert_iff env rnd _ priv pw ss (sentAlg env.toMacEnv alg') v' (transport_alg _ m' _ halg) hprot ho hs
      hck).2 ⟨data, hh, c0, rest, k, by rw [transport_part]; exact hd1, hd2, hcert, hko, hvk, hpair _ _ _ hd3⟩

/-- C143: with `bad_message_check`, a message that still verifies gives a second signature on the same data. -/
theorem C143_bad [DecidableEq C] (env : Env S K C) (a : PArgs S K C) (m m' : Msg C) (s : S) (k : K) (alg : AlgId)
    (hpriv : a.priv = some s) (hbad : a.bad = true)
    (h : protect env a m = .ok m') (halg : m'.hdr.alg = some alg) (ho : alg.oid ∈ tradOids)
    (hs : env.special alg.oid = none) (hc : env.compName alg.oid = none)
    (hcs : env.isComposite s = false) (hck : env.isCompositePub k = false) (rnd : Bytes)
    (priv : Option S) (pw ss : Option Bytes)
    (hv : verifyProt env rnd (transport env.toMacEnv m') priv pw (some k) ss false = .ok ()) :
    ∃ mode data sig sig', env.sign s mode data = .ok sig ∧ sig' ≠ sig ∧ env.verify k mode data sig' = .ok () := by
  obtain ⟨c, alg', v, v', _, hp, hhdr, hbody, hval, hbadv, hprot, _⟩ := protect_shape env a m m' h
  have e : alg' = alg := by
    rw [hhdr] at halg
    exact Option.some.inj halg
  subst e
  obtain ⟨data, hh, hd1, hd2, hd3⟩ := signed_trad env a alg' m' v s hpriv ho hs hcs hval
  rw [hbad] at hbadv
  obtain ⟨d, h', e1, _, e3, _, e5⟩ := (C143_key_iff env rnd _ priv pw k ss (sentAlg env.toMacEnv alg') v'
    (transport_alg _ m' _ halg) hprot ho hs hc hck).1 hv
  rw [transport_part, hd1] at e1
  cases e1
  rw [sigHash_unique _ _ _ e3 hd2] at e5
  exact ⟨_, _, _, _, hd3, manip_ne _ _ hbadv, e5⟩

/-! ## RSASSA-PSS -/

/-- The parameters of RSASSA-PSS, and the hash of the mask generation function inside them. -/
inductive HasPss (env : Env S K C) : Par → Pss → Prop
  | obj (p : Pss) : HasPss env (.pss p) p
  | der {b : Bytes} {p : Pss} : env.decPss b = some (p, []) → HasPss env (.raw b) p

/-- See `HasPss`. -/
inductive HasMgf (env : Env S K C) : MgfPar → Oid → Prop
  | obj (o : Oid) : HasMgf env (.alg o) o
  | der {b : Bytes} {o : Oid} : env.decAlg b = some (o, []) → HasMgf env (.raw b) o

theorem getPss_iff (env : Env S K C) (par : Par) (p : Pss) : getPss env par = .ok p ↔ HasPss env par p := by
  constructor
  · intro h
    unfold getPss at h
    split at h
    · cases h; exact .obj _
    · rename_i b
      cases hd : env.decPss b with
      | none => rw [hd] at h; cases h
      | some x =>
        obtain ⟨q, r⟩ := x
        rw [hd] at h
        dsimp only at h
        by_cases hr : r = []
        · subst hr
          simp only [ne_eq, not_true_eq_false, if_false] at h
          cases h
          exact .der hd
        · rw [if_pos hr] at h; cases h
    · cases h
  · intro h
    cases h with
    | obj => rfl
    | der hd =>
      unfold getPss
      dsimp only
      rw [hd]
      simp

theorem getMgf_iff (env : Env S K C) (par : MgfPar) (o : Oid) : getMgf env par = .ok o ↔ HasMgf env par o := by
  constructor
  · intro h
    unfold getMgf at h
    split at h
    · cases h; exact .obj _
    · rename_i b
      cases hd : env.decAlg b with
      | none => rw [hd] at h; cases h
      | some x =>
        obtain ⟨q, r⟩ := x
        rw [hd] at h
        dsimp only at h
        by_cases hr : r = []
        · subst hr
          simp only [ne_eq, not_true_eq_false, if_false] at h
          cases h
          exact .der hd
        · rw [if_pos hr] at h; cases h
    · cases h
  · intro h
    cases h with
    | obj => rfl
    | der hd =>
      unfold getMgf
      dsimp only
      rw [hd]
      simp

/-- Digest sizes in bytes. -/
def sizeSpec : List (String × Int) :=
  [("sha1", 20), ("sha224", 28), ("sha256", 32), ("sha384", 48), ("sha512", 64), ("sha3_224", 28), ("sha3_256", 32),
   ("sha3_384", 48), ("sha3_512", 64), ("shake128", 32), ("shake256", 64)]

theorem size_rows : ∀ x ∈ hashSpec ++ hmacSpec ++ sigHashSpec, (x.2, digestSize x.2) ∈ sizeSpec := by decide +kernel

theorem size_spec_rows : ∀ x ∈ sizeSpec, x.2 = digestSize x.1 := by decide +kernel

theorem pssPar_ok (env : Env S K C) (k : K) (p : Pss) (data sig : Bytes) (hs : env.special p.hash = none) :
    verifyPssPar env k p data sig = .ok () ↔
      ∃ f, (p.hash, f) ∈ hashSpec ++ hmacSpec ++ sigHashSpec ∧ p.mgf = mgf1Oid ∧ HasMgf env p.mgfPar p.hash ∧
        env.verify k (.pss f (if p.salt = 0 then digestSize f else p.salt)) data sig = .ok () := by
  unfold verifyPssPar
  constructor
  · intro h
    cases ho : hashOfOid env.toMacEnv p.hash false with
    | error e => rw [ho] at h; cases h
    | ok n =>
      rw [ho] at h
      cases n with
      | none => cases h
      | some n =>
        dsimp only at h
        cases hi : hashInst n with
        | error e => rw [hi] at h; cases h
        | ok f =>
          rw [hi] at h
          dsimp only at h
          by_cases hm : p.mgf = mgf1Oid
          · rw [if_neg (by simp [hm])] at h
            cases hg : getMgf env p.mgfPar with
            | error e => rw [hg] at h; cases h
            | ok o =>
              rw [hg] at h
              dsimp only at h
              by_cases hoo : o = p.hash
              · rw [if_neg (by simp [hoo])] at h
                subst hoo
                exact ⟨f, (owf_iff env.toMacEnv _ f hs).1 ⟨n, ho, hi⟩, hm, (getMgf_iff _ _ _).1 hg, h⟩
              · rw [if_pos hoo] at h; cases h
          · rw [if_pos hm] at h; cases h
  · rintro ⟨f, h1, h2, h3, h4⟩
    obtain ⟨n, n1, n2⟩ := (owf_iff env.toMacEnv _ f hs).2 h1
    rw [n1]
    dsimp only
    rw [n2]
    dsimp only
    rw [if_neg (by simp [h2]), (getMgf_iff _ _ _).2 h3]
    dsimp only
    rw [if_neg (by simp)]
    exact h4

/-- C143: a message with RSASSA-PSS is accepted, with the given key or the one of the first certificate, if and only if
the key is an RSA key and the protection is a signature for the hash function and salt length of the parameters; the mask
generation function has to be MGF1 with the same hash function. A salt length of zero stands for the digest size. -/
theorem C143_pss_iff (env : Env S K C) (rnd : Bytes) (m : Msg C) (priv : Option S) (pw : Option Bytes) (pub : Option K)
    (ss : Option Bytes) (a : AlgId) (p : Bytes) (ha : m.hdr.alg = some a) (hp : m.prot = some p)
    (ho : a.oid = [1, 2, 840, 113549, 1, 1, 10]) (hs : ∀ q, HasPss env a.par q → env.special q.hash = none) :
    verifyProt env rnd m priv pw pub ss false = .ok () ↔
      ∃ data k q f, protectedPart env.toMacEnv m = .ok data ∧
        (pub = some k ∨ (pub = none ∧ ∃ c rest, m.certs = c :: rest ∧ env.keyOf c = .ok k)) ∧
        env.isRsaPub k = true ∧ HasPss env a.par q ∧ (q.hash, f) ∈ hashSpec ++ hmacSpec ++ sigHashSpec ∧
        q.mgf = [1, 2, 840, 113549, 1, 1, 8] ∧ HasMgf env q.mgfPar q.hash ∧
        ∃ len, (f, len) ∈ sizeSpec ∧ env.verify k (.pss f (if q.salt = 0 then len else q.salt)) data p = .ok () := by
  obtain ⟨r1, r2, r3, r4, r5⟩ := pss_rows
  have ho' : a.oid = pssOid := ho
  have hv : verifyProt env rnd m priv pw pub ss false = verifySigMsg env m pub a p := by
    unfold verifyProt
    rw [hp, ha]
    dsimp only
    rw [if_neg (by simp)]
    unfold verifyBy
    rw [ho', if_neg r3, if_neg r2, if_neg (by simp [r1]), if_pos (Or.inl r4)]
  rw [hv]
  have hkey : ∀ k, pickKey env pub m.certs = .ok k ↔
      (pub = some k ∨ (pub = none ∧ ∃ c rest, m.certs = c :: rest ∧ env.keyOf c = .ok k)) := by
    intro k
    unfold pickKey firstKey
    cases pub with
    | some k' => simp
    | none =>
      cases hm : m.certs with
      | nil => simp
      | cons c rest =>
        dsimp only
        constructor
        · intro h; exact Or.inr ⟨rfl, c, rest, rfl, h⟩
        · rintro (h | ⟨_, c', rest', e, h⟩)
          · cases h
          · cases e; exact h
  unfold verifySigMsg
  cases hd : protectedPart env.toMacEnv m with
  | error e => simp
  | ok data =>
    dsimp only
    unfold verifySigWith
    rw [ho', if_pos r5]
    constructor
    · intro h
      cases hk : pickKey env pub m.certs with
      | error e => rw [hk] at h; cases h
      | ok k =>
        rw [hk] at h
        dsimp only at h
        by_cases hr : env.isRsaPub k = true
        · rw [if_pos hr] at h
          unfold verifyPss at h
          rw [if_pos ho'] at h
          by_cases hpa : a.par = .absent
          · rw [if_pos hpa] at h; cases h
          · rw [if_neg hpa] at h
            cases hg : getPss env a.par with
            | error e => rw [hg] at h; cases h
            | ok q =>
              rw [hg] at h
              have hq := (getPss_iff _ _ _).1 hg
              obtain ⟨f, f1, f2, f3, f4⟩ := (pssPar_ok env k q data p (hs q hq)).1 h
              exact ⟨data, k, q, f, rfl, (hkey k).1 hk, hr, hq, f1, f2, f3, digestSize f, size_rows _ f1, f4⟩
        · rw [if_neg hr] at h; cases h
    · rintro ⟨d, k, q, f, e1, e2, e3, e4, e5, e6, e7, len, e9, e8⟩
      rw [show len = digestSize f from size_spec_rows _ e9] at e8
      cases e1
      rw [(hkey k).2 e2]
      dsimp only
      rw [if_pos e3]
      unfold verifyPss
      have hpa : a.par ≠ .absent := by
        intro c
        rw [c] at e4
        cases e4
      rw [if_pos ho', if_neg hpa, (getPss_iff _ _ _).2 e4]
      exact (pssPar_ok env k q data p (hs q e4)).2 ⟨f, e5, e6, e7, e8⟩

/-- C143: whatever hash function is asked for, a signature with RSASSA-PSS is made with SHA-256 and a salt of 32 bytes. -/
theorem C143_pss_signed (env : Env S K C) (a : PArgs S K C) (alg : AlgId) (m : Msg C) (v : Bytes) (s : S)
    (hpriv : a.priv = some s) (ho : alg.oid = [1, 2, 840, 113549, 1, 1, 10]) (hs : env.special alg.oid = none)
    (hcs : env.isComposite s = false) (hr : env.isRsa s = true) (h : protValue env a alg m = .ok v) :
    ∃ data, protectedPart env.toMacEnv m = .ok data ∧ env.sign s (.pss "sha256" 32) data = .ok v := by
  obtain ⟨r1, r2, r3, r4, r5⟩ := pss_rows
  have ho' : alg.oid = pssOid := ho
  unfold protValue at h
  by_cases hsd : m.hdr.sender = false
  · rw [if_pos hsd] at h; cases h
  · rw [ho'] at h
    rw [if_neg hsd, if_neg r2, if_neg (by simp [r1])] at h
    unfold signMsg at h
    cases hd : protectedPart env.toMacEnv m with
    | error e => rw [hd] at h; cases h
    | ok data =>
      rw [hd, hpriv] at h
      dsimp only at h
      by_cases hk : env.isSignKey s = true
      · rw [ho'] at h
        rw [if_pos hk, if_neg (fun c => absurd c.1 (by decide +kernel))] at h
        unfold signAlg at h
        rw [hcs, ho'] at h
        simp only [Bool.false_eq_true, if_false] at h
        rw [if_pos ⟨r5, hr⟩] at h
        rw [ho'] at hs
        have hx : hashOfOid env.toMacEnv pssOid true = .ok (some "sha256") := by
          unfold hashOfOid
          rw [if_neg (by decide +kernel), hs]
          decide +kernel
        rw [hx] at h
        unfold signData at h
        rw [hcs, hr] at h
        simp only [Bool.false_eq_true, if_false, and_self, if_true] at h
        rw [if_neg (by decide)] at h
        exact ⟨data, rfl, h⟩
      · rw [if_neg hk] at h; cases h

end Verif.Prot
