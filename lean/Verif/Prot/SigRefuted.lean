import Verif.Prot.SigProps

/-!
# C143: where signature-based protection goes wrong, and examples
-/

namespace Verif.Prot

open Verif.CA

variable {S K C : Type}

/-- A mode as bytes. -/
def exMode : SigMode → Bytes
  | .plain none => [0]
  | .plain (some h) => 1 :: h.toList.map (fun c => UInt8.ofNat c.toNat)
  | .pss h n => 2 :: UInt8.ofNat n.toNat :: h.toList.map (fun c => UInt8.ofNat c.toNat)
  | .pssShake h => 3 :: h.toList.map (fun c => UInt8.ofNat c.toNat)
  | .composite b => [4, if b then 1 else 0]

/-- The only RSASSA-PSS parameters that the example decodes: SHA-512 with a salt of 64 bytes. -/
def exPss512 : Pss := ⟨[2, 16, 840, 1, 101, 3, 4, 2, 3], mgf1Oid, .raw [6], 64⟩

/-- Key 0 is an EC key, key 1 an RSA key, key 2 a composite key, key 3 a DSA key. A signature is the key, the mode and the
data; it verifies with the same key and mode. A certificate is its key. -/
def exSig : Env Nat Nat Nat where
  toMacEnv := { exMac with
    encPss := fun p => [UInt8.ofNat p.salt.toNat]
    decPss := fun b => if b = [64] then some (exPss512, []) else none }
  isSignKey := fun _ => true
  isComposite := fun s => decide (s = 2)
  isRsa := fun s => decide (s = 1)
  isDsa := fun s => decide (s = 3)
  isEcdh := fun _ => false
  isX := fun _ => false
  isKemKey := fun _ => false
  isRsaKem := fun _ => false
  isVerifyKey := fun _ => true
  isCompositePub := fun _ => false
  isRsaPub := fun s => decide (s = 1)
  isEcdhPub := fun _ => false
  isKemPub := fun _ => false
  isRsaKemPub := fun _ => false
  sign := fun s m d => .ok (UInt8.ofNat s :: (exMode m ++ d))
  verify := fun k m d sig => if sig = UInt8.ofNat k :: (exMode m ++ d) then .ok () else .error .invalidSignature
  ecdh := fun _ _ => .error .valueError
  encaps := fun _ _ _ => .error .valueError
  decaps := fun _ _ _ => .error .valueError
  kemOid := fun _ => []
  kemOidPub := fun _ => []
  keyOf := fun c => .ok c
  certHash := fun _ => .ok none
  selfCert := fun s => .ok s
  patchSender := fun _ b => b
  sigOid := fun s _ =>
    if s = 0 then .ok [1, 2, 840, 10045, 4, 3, 2]
    else if s = 1 then .ok [1, 2, 840, 113549, 1, 1, 11]
    else .ok dsaOid
  compOid := fun _ => [9, 9]
  compName := fun o => if o = [9, 9] then some false else none
  isPqOid := fun _ => false
  isPqSig := fun _ => false
  isPqPre := fun _ => false
  isStateful := fun _ => false
  consistent := fun k o =>
    if (k = 1) = (o ∈ rsaSpec.map (·.1)) then .ok () else .error .badSigAlgId
  decAlg := fun b => if b = [6] then some ([2, 16, 840, 1, 101, 3, 4, 2, 3], []) else none
  decCt := fun _ => none
  hkdf := fun _ _ _ _ => .error .valueError
  encInfo := fun t _ => t

/-- Arguments of `protect_pkimessage` for a signature. -/
def exSigArgs (name : String) (s : Nat) (hash : Option String) (bad : Bool) : PArgs Nat Nat Nat :=
  ⟨name, none, some s, none, none, false, bad, true, ⟨hash, none, none, none, none⟩, none, none, none, none, [9]⟩

/-- A message before its protection. -/
def exSigPlain : Msg Nat := ⟨⟨[10], true, none, some [11], []⟩, some [12], none, []⟩

/-- The protected message. -/
def exSigned (name : String) (s : Nat) (hash : Option String) (bad : Bool) : Msg Nat :=
  (protect exSig (exSigArgs name s hash bad) exSigPlain).toOption.getD exSigPlain

/-! ## Examples -/

/-- C143_roundtrip for an RSA key. -/
example : verifyProt exSig [] (transport exSig.toMacEnv (exSigned "signature" 1 none false)) none none (some 1) none
    false = .ok () :=
  (C143_roundtrip exSig (exSigArgs "signature" 1 none false) exSigPlain (exSigned "signature" 1 none false) 1 1
    ⟨[1, 2, 840, 113549, 1, 1, 11], .null⟩ (by decide +kernel) rfl rfl (by decide +kernel) (by decide +kernel)
    (by decide +kernel) rfl (by decide +kernel) rfl (fun _ => rfl)
    (by intro mode data sig h; cases h; exact if_pos rfl) (by decide +kernel) rfl [] none none none).1 (by decide +kernel)

/-- And with the certificate. -/
example : verifyProt exSig [] (transport exSig.toMacEnv (exSigned "signature" 0 none false)) none none none none
    false = .ok () := by
  decide +kernel

/-- C143_key_iff: another key, or a changed protection, is refused. -/
example : verifyProt exSig [] (transport exSig.toMacEnv (exSigned "signature" 1 none false)) none none (some 0) none
      false = .error .badSigAlgId ∧
    verifyProt exSig [] (transport exSig.toMacEnv (exSigned "signature" 1 none true)) none none (some 1) none
      false = .error .invalidSignature := by
  decide +kernel

/-- C143_pss_iff: a message that is accepted. -/
example : verifyProt exSig [] (⟨⟨[10], true, some ⟨pssOid, .pss ⟨[2, 16, 840, 1, 101, 3, 4, 2, 3], mgf1Oid, .alg
      [2, 16, 840, 1, 101, 3, 4, 2, 3], 64⟩⟩, some [11], []⟩, some [12], some (1 :: (exMode (.pss "sha512" 64) ++
      [10, 64, 11, 12])), []⟩ : Msg Nat) none none (some 1) none false = .ok () :=
  (C143_pss_iff exSig [] _ none none (some 1) none _ _ rfl rfl rfl (fun _ _ => rfl)).2
    ⟨[10, 64, 11, 12], 1, _, "sha512", rfl, Or.inl rfl, rfl, .obj _, by decide +kernel, rfl, .obj _, 64,
      by decide +kernel, by decide +kernel⟩

/-! ## Differences -/

/-- Without a public key, the algorithm in the header is not bound to the key of the certificate: a message that declares
ECDSA with a wrong parameter is accepted with the signature of an RSA key, which the verification with the same key as an
argument refuses. -/
theorem C143_cert_refuted : ∃ (env : Env Nat Nat Nat) (m : Msg Nat) (a : AlgId) (k : Nat) (rest : List Nat),
    m.hdr.alg = some a ∧ a.oid ∈ ecdsaSpec.map (·.1) ∧ ¬ SigParOk a ∧ m.certs = k :: rest ∧ env.keyOf k = .ok k ∧
    env.isRsaPub k = true ∧ env.consistent k a.oid ≠ .ok () ∧
    verifyProt env [] m none none none none false = .ok () ∧
    verifyProt env [] m none none (some k) none false ≠ .ok () := by
  refine ⟨exSig, ⟨⟨[10], true, some ⟨[1, 2, 840, 10045, 4, 3, 2], .raw [1]⟩, some [11], []⟩, some [12],
    some (1 :: (exMode (.plain (some "sha256")) ++ [10, 1, 11, 12])), [1]⟩, _, 1, [], rfl, by decide +kernel, ?_, rfl, rfl,
    by decide +kernel, by decide +kernel, by decide +kernel, by decide +kernel⟩
  rintro (⟨h, _⟩ | ⟨_, h⟩)
  · revert h; decide +kernel
  · cases h

/-- A protection with RSASSA-PSS and another hash function than SHA-256 does not verify: the parameters name that hash
function, the signature is made with SHA-256. -/
theorem C143_pss_roundtrip_refuted : ∃ (env : Env Nat Nat Nat) (a : PArgs Nat Nat Nat) (m m' : Msg Nat) (s k : Nat),
    (∀ mode data sig, env.sign s mode data = .ok sig → env.verify k mode data sig = .ok ()) ∧ a.priv = some s ∧
    a.bad = false ∧ protKind a.name = .ok .pss ∧ a.par.hash = some "sha512" ∧ protect env a m = .ok m' ∧
    verifyProt env [] (transport env.toMacEnv m') none none (some k) none false = .error .invalidSignature := by
  refine ⟨exSig, exSigArgs "rsassa-pss" 1 (some "sha512") false, exSigPlain,
    exSigned "rsassa-pss" 1 (some "sha512") false, 1, 1, ?_, rfl, rfl, by decide +kernel, rfl, by decide +kernel,
    by decide +kernel⟩
  intro mode data sig h
  cases h
  exact if_pos rfl

/-- A salt length of zero, which RFC 8017 allows, is read as the digest size: a signature without salt is refused. -/
theorem C143_pss_salt_refuted : ∃ (env : Env Nat Nat Nat) (m : Msg Nat) (a : AlgId) (q : Pss) (k : Nat)
    (data p : Bytes), m.hdr.alg = some a ∧ a.oid = pssOid ∧ HasPss env a.par q ∧ q.salt = 0 ∧ m.prot = some p ∧
    protectedPart env.toMacEnv m = .ok data ∧ env.verify k (.pss "sha256" 0) data p = .ok () ∧
    (q.hash, "sha256") ∈ hashSpec ∧ verifyProt env [] m none none (some k) none false = .error .invalidSignature :=
  ⟨exSig, ⟨⟨[10], true, some ⟨pssOid, .pss ⟨[2, 16, 840, 1, 101, 3, 4, 2, 1], mgf1Oid,
    .alg [2, 16, 840, 1, 101, 3, 4, 2, 1], 0⟩⟩, some [11], []⟩, some [12],
    some (1 :: (exMode (.pss "sha256" 0) ++ [10, 0, 11, 12])), []⟩, _, _, 1, [10, 0, 11, 12], _, rfl, rfl, .obj _, rfl, rfl,
    by decide +kernel, by decide +kernel, by decide +kernel, by decide +kernel⟩

/-- A message whose algorithm is a composite signature, or DSA, is never accepted: `verify_pkimessage_protection` has no
branch for it, although `protect_pkimessage` makes such messages. -/
theorem C143_unsupported_refuted :
    (∀ (env : Env S K C) (rnd : Bytes) (m : Msg C) (priv : Option S) (pw : Option Bytes) (pub : Option K)
      (ss : Option Bytes) (lw : Bool) (a : AlgId), m.hdr.alg = some a → isTradSig a.oid = false →
      isSymmetric a.oid = false → a.oid ≠ kemMacOid → a.oid ≠ dhOid → env.isPqSig a.oid = false →
      env.isStateful a.oid = false → verifyProt env rnd m priv pw pub ss lw ≠ .ok ()) ∧
    (∃ m2 m3 : Msg Nat, protect exSig (exSigArgs "signature" 2 none false) exSigPlain = .ok m2 ∧
      m2.hdr.alg = some ⟨[9, 9], .absent⟩ ∧ exSig.compName [9, 9] = some false ∧
      verifyProt exSig [] m2 none none (some 2) none false = .error .valueError ∧
      protect exSig (exSigArgs "signature" 3 none false) exSigPlain = .ok m3 ∧
      m3.hdr.alg = some ⟨[2, 16, 840, 1, 101, 3, 4, 3, 2], .absent⟩ ∧
      verifyProt exSig [] m3 none none (some 3) none false = .error .valueError) := by
  refine ⟨?_, ⟨exSigned "signature" 2 none false, exSigned "signature" 3 none false, by decide +kernel, by decide +kernel,
    by decide +kernel, by decide +kernel, by decide +kernel, by decide +kernel, by decide +kernel⟩⟩
  intro env rnd m priv pw pub ss lw a ha h1 h2 h3 h4 h5 h6 h
  unfold verifyProt at h
  cases hp : m.prot with
  | none => rw [hp] at h; cases h
  | some p =>
    rw [hp, ha] at h
    dsimp only at h
    have hb : ∀ l, verifyBy env rnd m priv pw pub ss l a p = .error .valueError := by
      intro l
      unfold verifyBy
      rw [if_neg h3, if_neg h4, if_neg (by simp [h2]), if_neg (by simp [h1, h5, h6])]
    rw [hb] at h
    cases lw with
    | false => cases h
    | true =>
      rw [if_pos rfl] at h
      cases ht : lwType env a.oid with
      | error e => rw [ht] at h; cases h
      | ok t => rw [ht] at h; cases h

end Verif.Prot
