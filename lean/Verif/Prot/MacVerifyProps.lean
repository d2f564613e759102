import Verif.Prot.MacProps

/-!
# C142: MAC-based protection of a message

Verification under a password accepts exactly the MAC that the specification `MacOf` gives for the header and body;
what is protected verifies after transport, and a message made bad on purpose does not.
-/

namespace Verif.Prot

open Verif.CA

variable {S K C : Type}

/-- The OIDs of the MAC algorithms for a password: HMAC, KMAC, AES-GMAC, PBMAC1 and the password-based MAC. -/
def pwMacOids : List Oid :=
  hmacSpec.map (·.1) ++ [[2, 16, 840, 1, 101, 3, 4, 2, 19], [2, 16, 840, 1, 101, 3, 4, 2, 20],
    [2, 16, 840, 1, 101, 3, 4, 1, 9], [2, 16, 840, 1, 101, 3, 4, 1, 29], [2, 16, 840, 1, 101, 3, 4, 1, 49],
    [1, 2, 840, 113549, 1, 5, 14], [1, 2, 840, 113533, 7, 66, 13]]

theorem pwMac_rows : ∀ o ∈ pwMacOids, isSymmetric o = true ∧ o ≠ dhOid ∧ o ≠ kemMacOid := by decide +kernel

/-- What `verify_pkimessage_protection` does for such an OID. -/
theorem verify_pwMac (env : Env S K C) (rnd : Bytes) (m : Msg C) (priv : Option S) (pw : Option Bytes) (pub : Option K)
    (ss : Option Bytes) (a : AlgId) (p : Bytes) (ha : m.hdr.alg = some a) (hp : m.prot = some p)
    (ho : a.oid ∈ pwMacOids) :
    verifyProt env rnd m priv pw pub ss false = verifyMac env.toMacEnv rnd m pw p false := by
  obtain ⟨h1, h2, h3⟩ := pwMac_rows _ ho
  unfold verifyProt
  rw [hp, ha]
  dsimp only
  rw [if_neg (by simp)]
  unfold verifyBy
  rw [if_neg h3, if_neg h2, if_pos h1]

theorem verifyMac_ok (env : MacEnv) (rnd : Bytes) (m : Msg C) (w p : Bytes) (lw : Bool) :
    verifyMac env rnd m (some w) p lw = .ok () ↔ symProt env rnd m w lw = .ok p := by
  unfold verifyMac
  dsimp only
  cases h : symProt env rnd m w lw with
  | error e => simp
  | ok v =>
    dsimp only
    by_cases hv : p = v
    · simp [hv]
    · rw [if_neg hv]
      simp [Ne.symm hv]

theorem symProt_ok (env : MacEnv) (rnd : Bytes) (m : Msg C) (w p : Bytes) (lw : Bool) (a : AlgId)
    (ha : m.hdr.alg = some a) : symProt env rnd m w lw = .ok p ↔
      ∃ data, protectedPart env m = .ok data ∧ macByAlg env rnd a w data false lw = .ok p := by
  unfold symProt
  cases h : protectedPart env m with
  | error e => simp
  | ok d =>
    rw [ha]
    simp

/-- C142: a message with a password-based protection is accepted if and only if its protection is the MAC, by the
specification, of its encoded header and body under the password. -/
theorem C142_iff (env : Env S K C) (rnd : Bytes) (m : Msg C) (priv : Option S) (pw : Bytes) (pub : Option K)
    (ss : Option Bytes) (a : AlgId) (p : Bytes) (ha : m.hdr.alg = some a) (hp : m.prot = some p)
    (ho : a.oid ∈ pwMacOids) (hn : NoSpecial env.toMacEnv a) (hs : Salted env.toMacEnv a) :
    verifyProt env rnd m priv (some pw) pub ss false = .ok () ↔
      ∃ data, protectedPart env.toMacEnv m = .ok data ∧ MacOf env.toMacEnv a pw data p := by
  rw [verify_pwMac env rnd m priv (some pw) pub ss a p ha hp ho, verifyMac_ok,
    symProt_ok env.toMacEnv rnd m pw p false a ha]
  constructor
  · rintro ⟨d, h1, h2⟩
    exact ⟨d, h1, (macByAlg_iff env.toMacEnv rnd a pw d p hn hs (pwMac_rows _ ho).2.1).1 h2⟩
  · rintro ⟨d, h1, h2⟩
    exact ⟨d, h1, (macByAlg_iff env.toMacEnv rnd a pw d p hn hs (pwMac_rows _ ho).2.1).2 h2⟩

/-- C142: without a password nothing is accepted. -/
theorem C142_password (env : Env S K C) (rnd : Bytes) (m : Msg C) (priv : Option S) (pub : Option K)
    (ss : Option Bytes) (a : AlgId) (ha : m.hdr.alg = some a) (ho : a.oid ∈ pwMacOids) :
    verifyProt env rnd m priv none pub ss false ≠ .ok () := by
  cases hp : m.prot with
  | none =>
    unfold verifyProt
    rw [hp]
    simp
  | some p =>
    rw [verify_pwMac env rnd m priv none pub ss a p ha hp ho]
    simp [verifyMac]

/-! ## Round trip -/

/-- The codec gives back the parameters that were encoded; the parameters inside become bytes. -/
def ParOk (env : MacEnv) : Par → Prop
  | .pbm p => env.decPbm (env.encPbm p) = some (p, [])
  | .pbmac1 p =>
    match p.kdfPar with
    | .pbkdf2 q => env.decPbmac1 (env.encPbmac1 p) = some ({ p with kdfPar := .raw (env.encPbkdf2 q) }, []) ∧
        env.decPbkdf2 (env.encPbkdf2 q) = some (q, [])
    | _ => True
  | .gcm n => env.decGcm (env.encGcm n) = some (n, [])
  | _ => True

/-- The parameters after transport. -/
def sentPar (env : MacEnv) (par : Par) : Par :=
  match parDer env par with
  | none => .absent
  | some b => .raw b

/-- The algorithm identifier after transport. -/
def sentAlg (env : MacEnv) (a : AlgId) : AlgId := ⟨a.oid, sentPar env a.par⟩

theorem transport_alg (env : MacEnv) (m : Msg C) (a : AlgId) (ha : m.hdr.alg = some a) :
    (transport env m).hdr.alg = some (sentAlg env a) := by
  unfold transport
  simp only [ha, Option.map_some]
  rfl

theorem sent_der (env : MacEnv) (a : AlgId) : parDer env (sentAlg env a).par = parDer env a.par := by
  unfold sentAlg sentPar
  cases h : parDer env a.par <;> rfl

/-- The protected part is not changed by transport. -/
theorem transport_part (env : MacEnv) (m : Msg C) : protectedPart env (transport env m) = protectedPart env m := by
  unfold protectedPart
  show (match m.body with
    | none => _
    | some b => _) = _
  cases m.body with
  | none => rfl
  | some b =>
    dsimp only
    congr 2
    · cases ha : m.hdr.alg with
      | none => simp [transport, ha]
      | some a =>
        rw [transport_alg env m a ha]
        simp only [Option.map_some, sent_der]
        rfl
    · simp [transport, infoDer, Function.comp_def]

/-- What the code computes does not depend on transport, or on the random value. -/
theorem macByAlg_sent (env : MacEnv) (rnd rnd' : Bytes) (a : AlgId) (pw data v : Bytes) (hc : ParOk env a.par)
    (hw : ∀ o, a.oid = o → o ∈ pwMacOids)
    (hpar : (a.oid ∈ hmacSpec.map (·.1) ∨ a.oid = kmac128Oid ∨ a.oid = kmac256Oid) ∨ (∃ n, a.par = .gcm n) ∨
      (∃ p, a.par = .pbm p ∧ p.salt ≠ []) ∨ (∃ p q, a.par = .pbmac1 p ∧ p.kdfPar = .pbkdf2 q))
    (h : macByAlg env rnd a pw data false false = .ok v) :
    macByAlg env rnd' (sentAlg env a) pw data false false = .ok v := by
  obtain ⟨o, par⟩ := a
  have hd : o ≠ dhOid := (pwMac_rows _ (hw o rfl)).2.1
  show macByAlg env rnd' ⟨o, sentPar env par⟩ pw data false false = .ok v
  unfold macByAlg at h ⊢
  dsimp only at h ⊢
  cases hl : look hmacNames o with
  | some n =>
    rw [hl] at h
    exact h
  | none =>
    rw [hl] at h
    dsimp only at h ⊢
    by_cases hk : o = kmac128Oid ∨ o = kmac256Oid
    · rw [if_pos hk] at h ⊢
      unfold kmacOf at h ⊢
      by_cases hp : par = .absent
      · subst hp
        exact h
      · rw [if_pos (by simp [hp])] at h
        cases h
    · rw [if_neg hk] at h ⊢
      have hcase : (∃ n, par = .gcm n) ∨ (∃ p, par = .pbm p ∧ p.salt ≠ []) ∨
          (∃ p q, par = .pbmac1 p ∧ p.kdfPar = .pbkdf2 q) := by
        rcases hpar with (h1 | h1) | h1
        · obtain ⟨⟨y1, y2⟩, hy, hy1⟩ := List.mem_map.1 h1
          dsimp only at hy1
          subst hy1
          obtain ⟨_, n, h2, _⟩ := hmac_look hy
          rw [h2] at hl
          cases hl
        · exact absurd h1 hk
        · exact h1
      by_cases hb : o = pbmac1Oid
      · rw [if_pos hb] at h ⊢
        rcases hcase with ⟨n, rfl⟩ | ⟨p, rfl, _⟩ | ⟨p, q, rfl, hq⟩
        · simp [pbmac1Of, getPbmac1] at h
        · simp [pbmac1Of, getPbmac1] at h
        · simp only [ParOk, hq] at hc
          obtain ⟨c1, c2⟩ := hc
          unfold pbmac1Of getPbmac1 at h ⊢
          simp only [sentPar, parDer, c1] at h ⊢
          rw [if_neg (by simp)]
          dsimp only
          by_cases hkd : p.kdf = pbkdf2Oid
          · rw [if_neg (by simp [hkd])] at h ⊢
            rw [hq] at h
            simp only [getPbkdf2, c2] at h ⊢
            rw [if_neg (by simp)]
            exact h
          · rw [if_pos (by simp [hkd])] at h
            cases h
      · rw [if_neg hb] at h ⊢
        by_cases hmo : o = pbmOid
        · rw [if_pos hmo] at h ⊢
          rcases hcase with ⟨n, rfl⟩ | ⟨p, rfl, hsalt⟩ | ⟨p, q, rfl, hq⟩
          · simp [getPbm] at h
          · simp only [ParOk] at hc
            simp only [getPbm, sentPar, parDer, hc] at h ⊢
            rw [if_neg (by simp)]
            dsimp only
            unfold pbmTail pbmOf at h ⊢
            rw [if_neg hsalt] at h ⊢
            exact h
          · simp [getPbm] at h
        · rw [if_neg hmo] at h ⊢
          by_cases hg : (look gmacNames o).isSome = true
          · rw [if_pos hg] at h ⊢
            rcases hcase with ⟨n, rfl⟩ | ⟨p, rfl, _⟩ | ⟨p, q, rfl, hq⟩
            · simp only [ParOk] at hc
              simp only [gmacTail, sentPar, parDer, hc] at h ⊢
              rw [if_neg (by simp)]
              exact h
            · simp [gmacTail] at h
            · simp [gmacTail] at h
          · rw [if_neg hg, if_neg hd] at h
            cases h

/-- The kinds of protection with a password. -/
def pwKind : ProtKind → Bool
  | .hmac => true
  | .kmac => true
  | .gmac => true
  | .pbm => true
  | .pbmac1 => true
  | _ => false

theorem hmacOid_rows : ∀ x ∈ hashMap, "hmac-".toList.isPrefixOf x.2.toList = true → x.1 ∈ hmacSpec.map (·.1) := by
  decide +kernel

theorem lookOid_mem : ∀ (l : List (Oid × String)) (n : String) (o : Oid), lookOid l n = some o → (o, n) ∈ l
  | [], _, _, h => by cases h
  | (k, v) :: l, n, o, h => by
    unfold lookOid at h
    by_cases hk : v = n
    · rw [if_pos hk] at h
      cases h
      subst hk
      exact List.mem_cons_self
    · rw [if_neg hk] at h
      exact List.mem_cons_of_mem _ (lookOid_mem l n o h)

/-- The OID that is prepared for an HMAC is one. -/
theorem hmacOid_mem (h : String) (o : Oid) (ho : hmacOid h = .ok o) : o ∈ hmacSpec.map (·.1) := by
  unfold hmacOid oidOfName at ho
  cases hl : lookOid hashMap ("hmac-" ++ h) with
  | none => rw [hl] at ho; cases ho
  | some x =>
    rw [hl] at ho
    cases ho
    refine hmacOid_rows _ (lookOid_mem _ _ _ hl) ?_
    dsimp only
    rw [String.toList_append]
    exact List.isPrefixOf_iff_prefix.2 (List.prefix_append _ _)

theorem gmacOids_rows : ∀ x ∈ gmacOids, x.2 ∈ [[2, 16, 840, 1, 101, 3, 4, 1, 9], [2, 16, 840, 1, 101, 3, 4, 1, 29],
    [2, 16, 840, 1, 101, 3, 4, 1, 49]] := by
  decide +kernel

theorem gmacOid_mem (n : String) (o : Oid) (h : gmacOid n = .ok o) :
    o ∈ [[2, 16, 840, 1, 101, 3, 4, 1, 9], [2, 16, 840, 1, 101, 3, 4, 1, 29], [2, 16, 840, 1, 101, 3, 4, 1, 49]] := by
  unfold gmacOid at h
  cases hf : gmacOids.find? (fun x => decide (x.1 = n)) with
  | none => rw [hf] at h; cases h
  | some x =>
    rw [hf] at h
    cases h
    exact gmacOids_rows _ (List.mem_of_find?_eq_some hf)

theorem map_ok {α β : Type} {f : α → β} {x : Except PyErr α} {y : β} (h : x.map f = .ok y) : ∃ a, x = .ok a ∧ f a = y := by
  cases x with
  | error e => cases h
  | ok a =>
    refine ⟨a, rfl, ?_⟩
    cases h
    rfl

theorem mem_pwMac_hmac {o : Oid} (h : o ∈ hmacSpec.map (·.1)) : o ∈ pwMacOids := List.mem_append_left _ h

theorem mem_pwMac_gmac : ∀ o ∈ [[2, 16, 840, 1, 101, 3, 4, 1, 9], [2, 16, 840, 1, 101, 3, 4, 1, 29],
    [2, 16, 840, 1, 101, 3, 4, 1, 49]], o ∈ pwMacOids := by
  decide +kernel

/-- The algorithm identifiers that are prepared for a MAC. -/
theorem prepMac_shape (env : MacEnv) (rnd : Bytes) (name : String) (k : ProtKind) (p : ProtParams) (a : AlgId)
    (hk : pwKind k = true) (hr : rnd ≠ []) (h : prepMacAlg env rnd name k p = .ok a) :
    a.oid ∈ pwMacOids ∧
      ((a.oid ∈ hmacSpec.map (·.1) ∨ a.oid = kmac128Oid ∨ a.oid = kmac256Oid) ∨ (∃ n, a.par = .gcm n) ∨
        (∃ p, a.par = .pbm p ∧ p.salt ≠ []) ∨ (∃ p q, a.par = .pbmac1 p ∧ p.kdfPar = .pbkdf2 q)) := by
  have hsalt : ∀ s : Bytes, (if s = [] then rnd else s) ≠ [] := by
    intro s
    by_cases hs : s = []
    · rw [if_pos hs]; exact hr
    · rw [if_neg hs]; exact hs
  cases k with
  | hmac =>
    obtain ⟨o, h1, rfl⟩ := map_ok h
    have := hmacOid_mem _ _ h1
    exact ⟨mem_pwMac_hmac this, Or.inl (Or.inl this)⟩
  | kmac =>
    obtain ⟨o, h1, rfl⟩ := map_ok h
    unfold kmacOid at h1
    split at h1
    · cases h1; exact ⟨by decide +kernel, Or.inl (Or.inr (Or.inl rfl))⟩
    · split at h1
      · cases h1; exact ⟨by decide +kernel, Or.inl (Or.inr (Or.inr rfl))⟩
      · cases h1
  | gmac =>
    obtain ⟨o, h1, rfl⟩ := map_ok h
    exact ⟨mem_pwMac_gmac _ (gmacOid_mem _ _ h1), Or.inr (Or.inl ⟨_, rfl⟩)⟩
  | pbm =>
    obtain ⟨q, h1, rfl⟩ := map_ok h
    refine ⟨(by decide +kernel : pbmOid ∈ pwMacOids), Or.inr (Or.inr (Or.inl ⟨q, rfl, ?_⟩))⟩
    unfold prepPbm at h1
    split at h1
    · cases h1
    · split at h1
      · cases h1
      · cases h1
        exact hsalt _
  | pbmac1 =>
    obtain ⟨q, h1, rfl⟩ := map_ok h
    refine ⟨(by decide +kernel : pbmac1Oid ∈ pwMacOids), Or.inr (Or.inr (Or.inr ?_))⟩
    unfold prepPbmac1 at h1
    split at h1
    · cases h1
    · split at h1
      · cases h1
      · cases h1
        exact ⟨_, _, rfl, rfl⟩
  | signature => cases hk
  | dh => cases hk
  | pss => cases hk

theorem protectedPart_prot (env : MacEnv) (m : Msg C) (p : Option Bytes) (cs : List C) :
    protectedPart env { m with prot := p, certs := cs } = protectedPart env m := rfl

/-- What a protected message looks like: its algorithm, and the value before it is made bad. -/
theorem protect_shape [DecidableEq C] (env : Env S K C) (a : PArgs S K C) (m m' : Msg C)
    (h : protect env a m = .ok m') :
    ∃ c alg v v', protCert a = .ok c ∧ prepAlg env a = .ok alg ∧ m'.hdr = { patched env a c m.hdr with alg := some alg } ∧
      m'.body = m.body ∧ protValue env a alg m' = .ok v ∧ manipIf a.bad v = .ok v' ∧ m'.prot = some v' ∧
      protCerts env a c m.certs = .ok m'.certs := by
  unfold protect at h
  by_cases hb : m.body = none
  · rw [if_pos hb] at h; cases h
  · rw [if_neg hb] at h
    by_cases hs : noSecret a = true
    · rw [if_pos hs] at h; cases h
    · rw [if_neg hs] at h
      cases hc : protCert a with
      | error e => rw [hc] at h; cases h
      | ok c =>
        rw [hc] at h
        dsimp only at h
        unfold protectWith at h
        cases hp : prepAlg env a with
        | error e => rw [hp] at h; cases h
        | ok alg =>
          rw [hp] at h
          dsimp only at h
          cases hv : protValue env a alg { m with hdr := { patched env a c m.hdr with alg := some alg } } with
          | error e => rw [hv] at h; cases h
          | ok v =>
            rw [hv] at h
            dsimp only at h
            cases hcs : protCerts env a c m.certs with
            | error e => rw [hcs] at h; cases h
            | ok cs =>
              rw [hcs] at h
              dsimp only at h
              obtain ⟨v', h1, rfl⟩ := map_ok h
              exact ⟨c, alg, v, v', rfl, rfl, rfl, rfl, hv, h1, rfl, hcs⟩

/-- C142: a message protected with a password verifies after transport with the same password, whatever random values
either side draws; the codec has to give back the parameters of this message. -/
theorem C142_roundtrip [DecidableEq C] (env : Env S K C) (a : PArgs S K C) (m m' : Msg C) (k : ProtKind)
    (hk : protKind a.name = .ok k) (hkk : pwKind k = true) (hr : a.rnd ≠ []) (hbad : a.bad = false)
    (h : protect env a m = .ok m') (rnd' : Bytes) (priv : Option S) (pub : Option K) (ss : Option Bytes) :
    ∃ alg pw, m'.hdr.alg = some alg ∧ a.password = some pw ∧ (ParOk env.toMacEnv alg.par →
      verifyProt env rnd' (transport env.toMacEnv m') priv (some pw) pub ss false = .ok ()) := by
  obtain ⟨c, alg, v, v', _, hp, hhdr, hbody, hv, hbadv, hprot, _⟩ := protect_shape env a m m' h
  have halg : m'.hdr.alg = some alg := by rw [hhdr]
  have hprep : prepMacAlg env.toMacEnv a.rnd a.name k a.par = .ok alg := by
    unfold prepAlg at hp
    rw [hk] at hp
    cases k <;> first | exact hp | cases hkk
  obtain ⟨ho, hshape⟩ := prepMac_shape env.toMacEnv a.rnd a.name k a.par alg hkk hr hprep
  obtain ⟨r1, r2, r3⟩ := pwMac_rows _ ho
  unfold protValue at hv
  by_cases hsd : m'.hdr.sender = false
  · rw [if_pos hsd] at hv; cases hv
  · rw [if_neg hsd, if_neg r2, if_pos r1] at hv
    cases hpw : a.password with
    | none => rw [hpw] at hv; cases hv
    | some pw =>
      rw [hpw] at hv
      dsimp only at hv
      refine ⟨alg, pw, halg, rfl, fun hc => ?_⟩
      obtain ⟨data, hd1, hd2⟩ := (symProt_ok env.toMacEnv a.rnd m' pw v false alg halg).1 hv
      have hv' : v' = v := by
        rw [hbad] at hbadv
        cases hbadv
        rfl
      rw [verify_pwMac env rnd' _ priv (some pw) pub ss (sentAlg env.toMacEnv alg) v'
        (transport_alg env.toMacEnv m' alg halg) hprot ho, verifyMac_ok,
        symProt_ok env.toMacEnv rnd' _ pw v' false _ (transport_alg env.toMacEnv m' alg halg)]
      refine ⟨data, by rw [transport_part]; exact hd1, ?_⟩
      rw [hv']
      exact macByAlg_sent env.toMacEnv a.rnd rnd' alg pw data v hc (fun o ho' => ho' ▸ ho) hshape hd2

theorem manip_ne (b v : Bytes) (h : manip b = .ok v) : v ≠ b := by
  unfold manip at h
  split at h
  · cases h
  · rename_i x l
    by_cases hx : x = 0
    · rw [if_pos hx] at h
      cases h
      subst hx
      simp
    · rw [if_neg hx] at h
      cases h
      intro he
      exact hx (List.cons.inj he).1.symm

/-- C142: with `bad_message_check` the verification with the same password fails, after transport, with
`BadMacProtection`. -/
theorem C142_bad [DecidableEq C] (env : Env S K C) (a : PArgs S K C) (m m' : Msg C) (k : ProtKind)
    (hk : protKind a.name = .ok k) (hkk : pwKind k = true) (hr : a.rnd ≠ []) (hbad : a.bad = true)
    (h : protect env a m = .ok m') (rnd' : Bytes) (priv : Option S) (pub : Option K) (ss : Option Bytes) :
    ∃ alg pw, m'.hdr.alg = some alg ∧ a.password = some pw ∧ (ParOk env.toMacEnv alg.par →
      verifyProt env rnd' (transport env.toMacEnv m') priv (some pw) pub ss false = .error .badMacProtection) := by
  obtain ⟨c, alg, v, v', _, hp, hhdr, hbody, hv, hbadv, hprot, _⟩ := protect_shape env a m m' h
  have halg : m'.hdr.alg = some alg := by rw [hhdr]
  have hprep : prepMacAlg env.toMacEnv a.rnd a.name k a.par = .ok alg := by
    unfold prepAlg at hp
    rw [hk] at hp
    cases k <;> first | exact hp | cases hkk
  obtain ⟨ho, hshape⟩ := prepMac_shape env.toMacEnv a.rnd a.name k a.par alg hkk hr hprep
  obtain ⟨r1, r2, r3⟩ := pwMac_rows _ ho
  unfold protValue at hv
  by_cases hsd : m'.hdr.sender = false
  · rw [if_pos hsd] at hv; cases hv
  · rw [if_neg hsd, if_neg r2, if_pos r1] at hv
    cases hpw : a.password with
    | none => rw [hpw] at hv; cases hv
    | some pw =>
      rw [hpw] at hv
      dsimp only at hv
      refine ⟨alg, pw, halg, rfl, fun hc => ?_⟩
      obtain ⟨data, hd1, hd2⟩ := (symProt_ok env.toMacEnv a.rnd m' pw v false alg halg).1 hv
      have hne : v' ≠ v := by
        rw [hbad] at hbadv
        exact manip_ne _ _ hbadv
      rw [verify_pwMac env rnd' _ priv (some pw) pub ss (sentAlg env.toMacEnv alg) v'
        (transport_alg env.toMacEnv m' alg halg) hprot ho]
      unfold verifyMac
      dsimp only
      rw [(symProt_ok env.toMacEnv rnd' _ pw v false _ (transport_alg env.toMacEnv m' alg halg)).2
        ⟨data, by rw [transport_part]; exact hd1,
          macByAlg_sent env.toMacEnv a.rnd rnd' alg pw data v hc (fun o ho' => ho' ▸ ho) hshape hd2⟩]
      dsimp only
      rw [if_neg hne]

/-! ## The lightweight profile -/

theorem sha2_rows : ∀ x ∈ hashMap, x.2 ∈ sha2Names → x ∈ hashSpec := by decide +kernel

theorem owf_sha2 (env : MacEnv) (o : Oid) (n : String) (hs : env.special o = none)
    (h : hashOfOid env o false = .ok (some n)) (hn : n ∈ sha2Names) : (o, n) ∈ hashSpec := by
  unfold hashOfOid at h
  by_cases he : o = ed25519Oid ∨ o = ed448Oid
  · rw [if_pos he] at h
    cases h
  · rw [if_neg he, hs] at h
    dsimp only at h
    cases hl : look hashMap o with
    | none => rw [hl] at h; cases h
    | some n' =>
      rw [hl] at h
      cases h
      exact sha2_rows _ (mem_of_look _ _ _ hl) hn

/-- C142: with `enforce_lwcmp` only the two password-based algorithms of the profile are accepted, and only with the
same SHA-2 hash function for the key and for the MAC. -/
theorem C142_lwcmp (env : Env S K C) (rnd : Bytes) (m : Msg C) (priv : Option S) (pw : Option Bytes) (pub : Option K)
    (ss : Option Bytes) (a : AlgId) (ha : m.hdr.alg = some a) (ho : a.oid ∈ pwMacOids)
    (hn : NoSpecial env.toMacEnv a) (h : verifyProt env rnd m priv pw pub ss true = .ok ()) :
    (a.oid = [1, 2, 840, 113533, 7, 66, 13] ∧ ∃ p hh, HasPbm env.toMacEnv a.par p ∧
        hh ∈ ["sha224", "sha256", "sha384", "sha512"] ∧ (p.mac, hh) ∈ hmacSpec ∧
        (p.owf, hh) ∈ hashSpec) ∨
      (a.oid = [1, 2, 840, 113549, 1, 5, 14] ∧ ∃ p q hh, HasPbmac1 env.toMacEnv a.par p ∧
        HasPbkdf2 env.toMacEnv p.kdfPar q ∧ p.kdf = [1, 2, 840, 113549, 1, 5, 12] ∧
        hh ∈ ["sha224", "sha256", "sha384", "sha512"] ∧ (p.mac, hh) ∈ hmacSpec ∧
        (q.prf, hh) ∈ hmacSpec ++ sigHashSpec) := by
  obtain ⟨r1, r2, r3⟩ := pwMac_rows _ ho
  obtain ⟨d1, d2, d3, d4, d5, d6, d7, d8, d9, d10⟩ := mac_oids_distinct
  have hlw : ∀ x y : String, checkLw true x y = .ok () → x = y ∧ y ∈ sha2Names := by
    intro x y hc
    unfold checkLw at hc
    by_cases hx : x = y
    · rw [if_neg (by simp [hx])] at hc
      by_cases hy : y ∈ sha2Names
      · exact ⟨hx, hy⟩
      · rw [if_pos ⟨rfl, hy⟩] at hc; cases hc
    · rw [if_pos ⟨hx, rfl⟩] at hc; cases hc
  unfold verifyProt at h
  cases hp : m.prot with
  | none => rw [hp] at h; cases h
  | some p =>
    rw [hp, ha] at h
    dsimp only at h
    rw [if_pos rfl] at h
    cases ht : lwType env a.oid with
    | error e => rw [ht] at h; cases h
    | ok t =>
      rw [ht] at h
      dsimp only at h
      unfold verifyBy at h
      rw [if_neg r3, if_neg r2, if_pos r1] at h
      unfold lwType protType at ht
      rw [if_neg r3, if_neg r2, if_pos r1] at ht
      dsimp only at ht
      by_cases hlo : a.oid = pbmOid ∨ a.oid = pbmac1Oid
      · cases pw with
        | none => cases h
        | some w =>
          rw [verifyMac_ok, symProt_ok env.toMacEnv rnd m w p true a ha] at h
          obtain ⟨data, _, hm⟩ := h
          unfold macByAlg at hm
          rcases hlo with hlo | hlo
          · left
            refine ⟨hlo, ?_⟩
            rw [hlo, d4] at hm
            dsimp only at hm
            rw [if_neg (fun c => c.elim d8 d9), if_neg d10, if_pos rfl] at hm
            cases hg : getPbm env.toMacEnv false a.par with
            | error e => rw [hg] at hm; cases hm
            | ok q =>
              rw [hg] at hm
              dsimp only at hm
              unfold pbmTail at hm
              cases ho' : hashOfOid env.toMacEnv q.owf false with
              | error e => rw [ho'] at hm; cases hm
              | ok x =>
                cases x with
                | none => rw [ho'] at hm; cases hm
                | some n =>
                  rw [ho'] at hm
                  dsimp only at hm
                  cases hmh : hmacHash q.mac with
                  | error e => rw [hmh] at hm; cases hm
                  | ok mh =>
                    rw [hmh] at hm
                    dsimp only at hm
                    cases hc : checkLw true n mh with
                    | error e => rw [hc] at hm; cases hm
                    | ok u =>
                      obtain ⟨e1, e2⟩ := hlw _ _ hc
                      subst e1
                      have hq := (getPbm_iff _ _ _).1 hg
                      exact ⟨q, n, hq, e2, (hmacHash_iff _ _).1 hmh, owf_sha2 env.toMacEnv _ _ (hn.1 q hq) ho' e2⟩
          · right
            refine ⟨hlo, ?_⟩
            rw [hlo, d3] at hm
            dsimp only at hm
            rw [if_neg (fun c => c.elim d6 d7), if_pos rfl] at hm
            unfold pbmac1Of at hm
            cases hg : getPbmac1 env.toMacEnv false a.par with
            | error e => rw [hg] at hm; cases hm
            | ok q =>
              rw [hg] at hm
              dsimp only at hm
              by_cases hkd : q.kdf = pbkdf2Oid
              · rw [if_neg (by simp [hkd])] at hm
                cases hq : getPbkdf2 env.toMacEnv false q.kdfPar with
                | error e => rw [hq] at hm; cases hm
                | ok x =>
                  rw [hq] at hm
                  dsimp only at hm
                  unfold pbmac1Tail at hm
                  cases hmh : hmacHash q.mac with
                  | error e => rw [hmh] at hm; cases hm
                  | ok mh =>
                    rw [hmh] at hm
                    dsimp only at hm
                    cases hpf : prfHash env.toMacEnv x.prf with
                    | error e => rw [hpf] at hm; cases hm
                    | ok f =>
                      rw [hpf] at hm
                      dsimp only at hm
                      cases hc : checkLw true f mh with
                      | error e => rw [hc] at hm; cases hm
                      | ok u =>
                        obtain ⟨e1, e2⟩ := hlw _ _ hc
                        subst e1
                        have h1 := (getPbmac1_iff _ _ _).1 hg
                        have h2 := (getPbkdf2_iff _ _ _).1 hq
                        exact ⟨q, x, f, h1, h2, hkd, e2, (hmacHash_iff _ _).1 hmh,
                          (prf_iff env.toMacEnv _ _ (hn.2 q x h1 h2)).1 hpf⟩
              · rw [if_pos ⟨rfl, hkd⟩] at hm; cases hm
      · rw [if_neg hlo] at ht
        cases ht

end Verif.Prot
