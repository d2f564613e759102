import Verif.Prot.MacVerifyProps

/-!
# C142: where MAC-based protection differs from the standards, and examples
-/

namespace Verif.Prot

open Verif.CA

variable {S K C : Type}

/-! ## An environment for examples -/

/-- Parameters of a password-based MAC with an empty salt. -/
def exPbm0 : Pbm := ⟨[], [2, 16, 840, 1, 101, 3, 4, 2, 1], none, 1, [1, 2, 840, 113549, 2, 9], none⟩

/-- Parameters of a password-based MAC with SHA-256 for the key and HMAC with SHA-512. -/
def exPbm1 : Pbm := ⟨[7, 7], [2, 16, 840, 1, 101, 3, 4, 2, 1], none, 1, [1, 2, 840, 113549, 2, 11], none⟩

/-- Parameters of PBKDF2 whose PRF is the OID of an RSA signature with SHA-256. -/
def exKdf : Pbkdf2 := ⟨some [1, 2], 1, some 4, [1, 2, 840, 113549, 1, 1, 11], none⟩

/-- Parameters of PBMAC1 with these. -/
def exPbmac1 : Pbmac1 := ⟨[1, 2, 840, 113549, 1, 5, 12], .pbkdf2 exKdf, [1, 2, 840, 113549, 2, 9], none⟩

/-- Parameters of PBKDF2 as the code prepares them. -/
def exKdf2 : Pbkdf2 := ⟨some [3, 4], 262144, some 32, [1, 2, 840, 113549, 2, 11], none⟩

/-- The hash functions prepend the length of their name; MACs are concatenations. -/
def exMac : MacEnv where
  H := fun n b => UInt8.ofNat n.length :: b
  hmac := fun n k d => UInt8.ofNat n.toList.length :: (k ++ d)
  kmac := fun _ k d => if k.length < 16 then .error .valueError else .ok (k ++ d)
  gmac := fun k n d => if k.length = 16 then .ok (k ++ n ++ d) else .error .valueError
  pbkdf2 := fun _ s i l p => .ok (p ++ s ++ [UInt8.ofNat i.toNat, UInt8.ofNat l.toNat])
  special := fun _ => none
  encPbm := fun p => 1 :: p.salt
  decPbm := fun b => if b = [1, 7, 7] then some (exPbm1, []) else none
  encPbmac1 := fun _ => [2]
  decPbmac1 := fun b =>
    if b = [2] then some (⟨[1, 2, 840, 113549, 1, 5, 12], .raw [3], [1, 2, 840, 113549, 2, 11], none⟩, []) else none
  encPbkdf2 := fun _ => [3]
  decPbkdf2 := fun b => if b = [3] then some (exKdf2, []) else none
  encGcm := fun n => n
  decGcm := fun b => some (b, [])
  encDhbm := fun _ => []
  decDhbm := fun _ => none
  encKem := fun _ => []
  decKem := fun _ => none
  encPss := fun _ => []
  decPss := fun _ => none
  encCt := fun _ c => c.getD []
  nullDer := [5, 0]
  encPart := fun f a t i b =>
    f ++ (match a with
      | none => []
      | some x => x.2.getD []) ++ t.getD [] ++ (i.map (·.2)).flatten ++ b

/-- No keys and certificates. -/
def exEnv : Env Unit Unit Unit where
  toMacEnv := exMac
  isSignKey := fun _ => false
  isComposite := fun _ => false
  isRsa := fun _ => false
  isDsa := fun _ => false
  isEcdh := fun _ => false
  isX := fun _ => false
  isKemKey := fun _ => false
  isRsaKem := fun _ => false
  isVerifyKey := fun _ => false
  isCompositePub := fun _ => false
  isRsaPub := fun _ => false
  isEcdhPub := fun _ => false
  isKemPub := fun _ => false
  isRsaKemPub := fun _ => false
  sign := fun _ _ _ => .error .valueError
  verify := fun _ _ _ _ => .error .invalidSignature
  ecdh := fun _ _ => .error .valueError
  encaps := fun _ _ _ => .error .valueError
  decaps := fun _ _ _ => .error .valueError
  kemOid := fun _ => []
  kemOidPub := fun _ => []
  keyOf := fun _ => .ok ()
  certHash := fun _ => .ok none
  selfCert := fun _ => .ok ()
  patchSender := fun _ b => b
  sigOid := fun _ _ => .error .valueError
  compOid := fun _ => []
  compName := fun _ => none
  isPqOid := fun _ => false
  isPqSig := fun _ => false
  isPqPre := fun _ => false
  isStateful := fun _ => false
  consistent := fun _ _ => .ok ()
  decAlg := fun _ => none
  decCt := fun _ => none
  hkdf := fun _ _ _ _ => .error .valueError
  encInfo := fun t _ => t

/-- A message with an algorithm and a protection. -/
def exMsg (a : AlgId) (p : Bytes) : Msg Unit := ⟨⟨[10], true, some a, some [11], []⟩, some [12], some p, []⟩

/-! ## Examples -/

/-- C142_iff: an HMAC of the protected part is accepted, by the theorem. -/
example : verifyProt exEnv [] (exMsg ⟨[1, 2, 840, 113549, 2, 9], .absent⟩ [6, 1, 2, 10, 11, 12]) none (some [1, 2]) none
    none false = .ok () :=
  (C142_iff exEnv [] _ none [1, 2] none none ⟨[1, 2, 840, 113549, 2, 9], .absent⟩ [6, 1, 2, 10, 11, 12] rfl rfl
    (by decide +kernel) ⟨(by intro p h; cases h), (by intro p q h; cases h)⟩ (by intro _ p h; cases h)).2
    ⟨[10, 11, 12], rfl, .hmac (h := "sha256") _ _ _ (by decide +kernel)⟩

/-- Another value is not. -/
example : verifyProt exEnv [] (exMsg ⟨[1, 2, 840, 113549, 2, 9], .absent⟩ [6, 1, 2, 10, 11, 13]) none (some [1, 2]) none
    none false = .error .badMacProtection := by
  decide +kernel

/-- C142_password: the value is right, and no password is given. -/
example : verifyProt exEnv [] (exMsg ⟨[1, 2, 840, 113549, 2, 9], .absent⟩ [6, 1, 2, 10, 11, 12]) none none none none
    false ≠ .ok () :=
  C142_password exEnv [] _ none none none _ rfl (by decide +kernel)

/-- Arguments of `protect_pkimessage` for a MAC. -/
def exArgs (name : String) (salt : Option Bytes) (hash : Option String) (bad : Bool) : PArgs Unit Unit Unit :=
  ⟨name, some [1, 2], none, none, none, false, bad, true, ⟨hash, salt, none, none, none⟩, none, none, none, none,
    [9, 9, 9]⟩

/-- A message before its protection. -/
def exPlain : Msg Unit := ⟨⟨[10], true, none, some [11], []⟩, some [12], none, []⟩

/-- C142_roundtrip for PBMAC1 with the default values. -/
example : ∃ alg pw, ((protect exEnv (exArgs "pbmac1" (some [3, 4]) none false) exPlain).toOption.getD exPlain).hdr.alg =
      some alg ∧ (exArgs "pbmac1" (some [3, 4]) none false).password = some pw ∧ (ParOk exMac alg.par →
    verifyProt exEnv [5] (transport exMac
      ((protect exEnv (exArgs "pbmac1" (some [3, 4]) none false) exPlain).toOption.getD exPlain)) none (some pw) none none
      false = .ok ()) :=
  C142_roundtrip exEnv _ exPlain _ .pbmac1 (by decide +kernel) rfl (by decide) rfl (by decide +kernel) [5] none none none

example : verifyProt exEnv [5] (transport exMac
    ((protect exEnv (exArgs "pbmac1" (some [3, 4]) none false) exPlain).toOption.getD exPlain)) none (some [1, 2]) none none
    false = .ok () := by
  decide +kernel

/-- C142_bad: the same, made bad. -/
example : verifyProt exEnv [5] (transport exMac
    ((protect exEnv (exArgs "pbmac1" (some [3, 4]) none true) exPlain).toOption.getD exPlain)) none (some [1, 2]) none none
    false = .error .badMacProtection := by
  decide +kernel

/-- C142_lwcmp: a message that the profile accepts. -/
example : verifyProt exEnv [] (exMsg ⟨[1, 2, 840, 113533, 7, 66, 13],
    .pbm ⟨[7], [2, 16, 840, 1, 101, 3, 4, 2, 1], none, 1, [1, 2, 840, 113549, 2, 9], none⟩⟩
    [6, 6, 1, 2, 7, 10, 1, 7, 11, 12]) none (some [1, 2]) none none true = .ok () := by
  decide +kernel

/-- With different hash functions it is refused. -/
example : verifyProt exEnv [] (exMsg ⟨[1, 2, 840, 113533, 7, 66, 13], .pbm exPbm1⟩ [0]) none (some [1, 2]) none none true =
    .error .lwCmpViolation := by
  decide +kernel

/-! ## Differences -/

/-- C142 is false for an empty salt, which RFC 9480 allows: the code replaces it with a random value, so the correct MAC
is refused whatever that value is. -/
theorem C142_empty_salt_refuted : ∃ (env : Env Unit Unit Unit) (m : Msg Unit) (a : AlgId) (pw data p : Bytes),
    m.hdr.alg = some a ∧ m.prot = some p ∧ a.oid ∈ pwMacOids ∧ NoSpecial env.toMacEnv a ∧
    protectedPart env.toMacEnv m = .ok data ∧ MacOf env.toMacEnv a pw data p ∧
    ∀ rnd, rnd ≠ [] → ∀ priv pub ss, verifyProt env rnd m priv (some pw) pub ss false = .error .badMacProtection := by
  refine ⟨exEnv, exMsg ⟨[1, 2, 840, 113533, 7, 66, 13], .pbm exPbm0⟩ [6, 6, 1, 2, 10, 1, 11, 12], _, [1, 2],
    [10, 1, 11, 12], _, rfl, rfl, by decide +kernel, ⟨fun _ _ => rfl, fun _ _ _ _ => rfl⟩, rfl,
    .pbm (p := exPbm0) (h := "sha256") (mh := "sha256") _ _ (.obj _) (by decide +kernel) (by decide +kernel), ?_⟩
  intro rnd hr priv pub ss
  rw [verify_pwMac exEnv rnd _ priv (some [1, 2]) pub ss _ _ rfl rfl (by decide +kernel)]
  have hl : rnd.length ≠ 0 := fun h => hr (List.length_eq_zero_iff.1 h)
  have : symProt exMac rnd (exMsg ⟨[1, 2, 840, 113533, 7, 66, 13], .pbm exPbm0⟩ [6, 6, 1, 2, 10, 1, 11, 12]) [1, 2]
      false = .ok (6 :: ((6 :: ([1, 2] ++ rnd)) ++ [10, 1, 11, 12])) := by
    rfl
  unfold verifyMac
  dsimp only
  rw [show exEnv.toMacEnv = exMac from rfl, this]
  dsimp only
  rw [if_neg]
  intro h
  have h' := congrArg List.length h
  simp only [List.length_cons, List.length_append, List.length_nil] at h'
  omega

/-- The default PRF of PBKDF2 (RFC 8018: `hmacWithSHA1`, 1.2.840.113549.2.7) is unknown to the code: a message protected
with PBMAC1 and this PRF is never accepted. -/
theorem C142_default_prf_refuted (env : Env S K C) (rnd : Bytes) (m : Msg C) (priv : Option S) (pw : Option Bytes)
    (pub : Option K) (ss : Option Bytes) (a : AlgId) (p : Pbmac1) (q : Pbkdf2) (ha : m.hdr.alg = some a)
    (ho : a.oid = [1, 2, 840, 113549, 1, 5, 14]) (hp : HasPbmac1 env.toMacEnv a.par p)
    (hq : HasPbkdf2 env.toMacEnv p.kdfPar q) (hprf : q.prf = [1, 2, 840, 113549, 2, 7])
    (hs : env.special q.prf = none) : verifyProt env rnd m priv pw pub ss false ≠ .ok () := by
  intro h
  have hom : a.oid ∈ pwMacOids := by rw [ho]; decide +kernel
  cases hpr : m.prot with
  | none =>
    unfold verifyProt at h
    rw [hpr] at h
    cases h
  | some v =>
    rw [verify_pwMac env rnd m priv pw pub ss a v ha hpr hom] at h
    cases pw with
    | none => cases h
    | some w =>
      rw [verifyMac_ok, symProt_ok env.toMacEnv rnd m w v false a ha] at h
      obtain ⟨data, _, h⟩ := h
      obtain ⟨d1, d2, d3, d4, d5, d6, d7, d8, d9, d10⟩ := mac_oids_distinct
      have ho' : a.oid = pbmac1Oid := ho
      unfold macByAlg at h
      rw [ho', d3] at h
      dsimp only at h
      rw [if_neg (fun c => c.elim d6 d7), if_pos rfl] at h
      obtain ⟨p', q', h1, h2, h3, h4⟩ := (pbmac1Of_iff env.toMacEnv a.par w data v).1 h
      have e1 : p' = p := by
        have := (getPbmac1_iff _ _ _).2 h1
        rw [(getPbmac1_iff _ _ _).2 hp] at this
        exact (Except.ok.inj this).symm
      subst e1
      have e2 : q' = q := by
        have := (getPbkdf2_iff _ _ _).2 h3
        rw [(getPbkdf2_iff _ _ _).2 hq] at this
        exact (Except.ok.inj this).symm
      subst e2
      obtain ⟨f, _, _, _, _, _, _, hf, _⟩ := (pbmac1Tail_iff env.toMacEnv p' q' w data v hs).1 h4
      rw [hprf] at hf
      have hno : ∀ y ∈ hmacSpec ++ sigHashSpec, y.1 ≠ [1, 2, 840, 113549, 2, 7] := by decide +kernel
      exact hno _ hf rfl

example : verifyProt exEnv [] (exMsg ⟨[1, 2, 840, 113549, 1, 5, 14],
    .pbmac1 { exPbmac1 with kdfPar := .pbkdf2 { exKdf with prf := [1, 2, 840, 113549, 2, 7] } }⟩ [0]) none (some [1]) none
    none false = .error .valueError := by
  decide +kernel

/-- The PRF of PBKDF2 has to be an HMAC; the code also takes the OID of a signature algorithm, even for the lightweight
profile. -/
theorem C142_prf_refuted : ∃ (env : Env Unit Unit Unit) (m : Msg Unit) (a : AlgId) (p : Pbmac1) (q : Pbkdf2) (pw : Bytes),
    m.hdr.alg = some a ∧ HasPbmac1 env.toMacEnv a.par p ∧ HasPbkdf2 env.toMacEnv p.kdfPar q ∧
    q.prf ∉ hmacSpec.map (·.1) ∧ verifyProt env [] m none (some pw) none none true = .ok () :=
  ⟨exEnv, exMsg ⟨[1, 2, 840, 113549, 1, 5, 14], .pbmac1 exPbmac1⟩ [6, 1, 1, 2, 1, 4, 10, 2, 11, 12], _, exPbmac1, exKdf,
    [1], rfl, .obj _, .obj _, by decide +kernel, by decide +kernel⟩

/-! ## The other function that computes a MAC -/

/-- `compute_mac_from_alg_id` (used outside of messages) and the protection of messages agree, except for: AES-GMAC, a
password-based MAC with two different hash functions, and PBMAC1 with bytes after its parameters or another key
derivation function. -/
theorem C142_mac_agree_partial (env : MacEnv) (rnd : Bytes) (a : AlgId) (key data v : Bytes)
    (hg : a.oid ∉ [[2, 16, 840, 1, 101, 3, 4, 1, 9], [2, 16, 840, 1, 101, 3, 4, 1, 29],
      [2, 16, 840, 1, 101, 3, 4, 1, 49]])
    (hp : ∀ p, HasPbm env a.par p → ∃ f, (p.owf, f) ∈ hashSpec ∧ (p.mac, f) ∈ hmacSpec ∧ env.special p.owf = none)
    (hb : ∀ p, a.par ≠ .pbmac1 p) (hb' : ∀ b, a.oid = [1, 2, 840, 113549, 1, 5, 14] → a.par ≠ .raw b) :
    macByAlg env rnd a key data false false = .ok v ↔ macFromAlg env rnd a key data = .ok v := by
  obtain ⟨o, par⟩ := a
  unfold macByAlg macFromAlg
  dsimp only
  cases hl : look hmacNames o with
  | some n => rfl
  | none =>
    dsimp only
    by_cases hk : o = kmac128Oid ∨ o = kmac256Oid
    · rw [if_pos hk, if_pos hk]
    · rw [if_neg hk, if_neg hk]
      by_cases h1 : o = pbmac1Oid
      · rw [if_pos h1, if_pos h1]
        have hb1 : ∀ u l, pbmac1Of env par key data u l = .error .pyasn1Error := by
          intro u l
          unfold pbmac1Of
          cases par with
          | raw b => exact absurd rfl (hb' b h1)
          | pbmac1 p => exact absurd rfl (hb p)
          | _ => rfl
        rw [hb1, hb1]
      · rw [if_neg h1, if_neg h1]
        by_cases h2 : o = pbmOid
        · rw [if_pos h2, if_pos h2]
          cases hgp : getPbm env false par with
          | error e => rfl
          | ok p =>
            dsimp only
            obtain ⟨f, f1, f2, f3⟩ := hp p ((getPbm_iff _ _ _).1 hgp)
            obtain ⟨n, n1, n2⟩ := (owf_iff env _ f f3).2 (List.mem_append_left _ (List.mem_append_left _ f1))
            obtain ⟨m1, k, m2, m3⟩ := hmac_look f2
            unfold pbmTail
            rw [n1]
            dsimp only
            rw [(hmacHash_iff _ _).2 f2, m2]
            simp only [checkLw, Bool.false_eq_true, and_false, false_and, if_false]
            rw [m3]
            dsimp only
            unfold pbmOf
            rw [hashLoop_eq env n f n2, hashLoop_eq env f f m1]
        · rw [if_neg h2, if_neg h2]
          have h3 : ¬ (look gmacNames o).isSome = true := fun c => hg ((gmac_mem o).1 c)
          rw [if_neg h3, if_neg h3]

example : macFromAlg exMac [] ⟨[1, 2, 840, 113549, 2, 9], .null⟩ [1] [2] = .ok [6, 1, 2] :=
  (C142_mac_agree_partial exMac [] _ _ _ _ (by decide +kernel) (by intro p h; cases h) (by intro p h; cases h)
    (by intro b h; cases h)).1 (by decide +kernel)

/-- The two functions differ for a password-based MAC with different hash functions, and `compute_mac_from_alg_id` cannot
use the encoded parameters of AES-GMAC. -/
theorem C142_mac_agree_refuted :
    (∃ (env : MacEnv) (a : AlgId) (key data : Bytes), a.oid = pbmOid ∧
      macByAlg env [] a key data false false = .ok [6, 6, 1, 7, 7, 2] ∧
      macFromAlg env [] a key data = .ok [6, 7, 1, 7, 7, 2]) ∧
    (∀ (env : MacEnv) (rnd : Bytes) (o : Oid) (b key data : Bytes), (look gmacNames o).isSome = true →
      macFromAlg env rnd ⟨o, .raw b⟩ key data = .error .pyasn1Error) := by
  refine ⟨⟨{ exMac with H := fun n b => (if n = "sha256" then 6 else 7) :: b }, ⟨pbmOid, .pbm exPbm1⟩, [1], [2], rfl,
    by decide +kernel, by decide +kernel⟩, ?_⟩
  intro env rnd o b key data h
  obtain ⟨g1, g2, g3, g4, g5, _⟩ := gmac_rows _ ((gmac_mem o).1 h)
  unfold macFromAlg
  dsimp only
  rw [g1]
  dsimp only
  rw [if_neg (by simp [g2, g3]), if_neg g4, if_neg g5, if_pos h]

end Verif.Prot
