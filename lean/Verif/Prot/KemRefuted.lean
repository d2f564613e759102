import Verif.Prot.KemProps

/-!
# C144: where KEM-based MACs go wrong, and examples
-/

namespace Verif.Prot

open Verif.CA

variable {S K C : Type}

/-- A mode as a byte. -/
def exKemMode : KemMode → UInt8
  | .oaep => 1
  | .rsaKem => 2
  | .plain => 3

/-- The parameters that the example decodes: KDF3 with SHA-256. -/
def exKem3 : KemBm := ⟨kdf3Oid, .raw [6], none, 32, [1, 2, 840, 113549, 2, 9], none⟩

/-- Key 0 is an ML-KEM key, key 1 an RSA key. The ciphertext is the mode and the random value, the shared secret the key
and the random value; a ciphertext of another mode is refused. -/
def exKem : Env Nat Nat Nat :=
  { exSig with
    toMacEnv := { exMac with
      encKem := fun p => [UInt8.ofNat p.len.toNat]
      decKem := fun b => if b = [32] then some (exKem3, []) else none
      encCt := fun o c => UInt8.ofNat (o.headD 0) :: c.getD [] }
    decAlg := fun b => if b = [6] then some ([2, 16, 840, 1, 101, 3, 4, 2, 1], []) else none
    decCt := fun b =>
      match b with
      | [] => none
      | x :: c => some (([x.toNat], some c), [])
    isKemKey := fun _ => true
    isKemPub := fun _ => true
    isRsaKem := fun s => decide (s = 1)
    isRsaKemPub := fun s => decide (s = 1)
    kemOid := fun s => [s]
    kemOidPub := fun s => [s]
    encaps := fun k md r => .ok (UInt8.ofNat k :: r, exKemMode md :: r)
    decaps := fun s md c =>
      match c with
      | [] => .error .valueError
      | x :: r => if x = exKemMode md then .ok (UInt8.ofNat s :: r) else .error .valueError
    encInfo := fun t c => t ++ (match c with
      | none => [0]
      | some c => 1 :: c) }

/-- A message before its protection, with ciphertexts in its header. -/
def exKemPlain (i : List (Oid × InfoVal)) : Msg Nat := ⟨⟨[10], true, none, some [11], i⟩, some [12], none, []⟩

/-- The protected message. -/
def exKemMsg (i : List (Oid × InfoVal)) (src : KemSrc Nat Nat Nat) (kdf h : String) (bad : Bool) : Msg Nat :=
  (protectKem exKem (exKemPlain i) src [8] kdf h none bad).toOption.getD (exKemPlain [])

/-! ## Examples -/

/-- C144_peer_partial and C144_roundtrip: with the private key, the shared secret, and made bad. -/
example : ∃ p, (exKemMsg [] (.peer 0 [5]) "kdf3" "sha256" false).hdr.alg = some ⟨kemMacOid, .kem p⟩ ∧
    (KemOk exKem p → verifyProt exKem [] (transport exKem.toMacEnv (exKemMsg [] (.peer 0 [5]) "kdf3" "sha256" false))
      (some 0) none none none false = .ok ()) :=
  C144_peer_partial exKem (exKemPlain []) _ 0 [5] [8] "kdf3" "sha256" none 0 0 (by decide) (by decide +kernel) rfl
    (by decide +kernel) (by decide +kernel) rfl rfl
    (by
      intro ss ct h
      cases h
      exact ⟨by decide +kernel, by decide +kernel⟩)
    (by intro x hx; cases hx) [] none none false

example : verifyProt exKem [] (transport exKem.toMacEnv (exKemMsg [] (.peer 0 [5]) "kdf3" "sha256" false)) (some 0) none
      none none false = .ok () ∧
    verifyProt exKem [] (transport exKem.toMacEnv (exKemMsg [] (.peer 0 [5]) "kdf3" "sha256" false)) none none none
      (some [0, 5]) true = .ok () ∧
    verifyProt exKem [] (transport exKem.toMacEnv (exKemMsg [] (.peer 0 [5]) "kdf3" "sha256" true)) none none none
      (some [0, 5]) true = .error .badMessageCheck ∧
    verifyProt exKem [] (transport exKem.toMacEnv (exKemMsg [] (.peer 0 [5]) "kdf3" "sha256" false)) none none none
      (some [0, 6]) true = .error .badMessageCheck := by
  decide +kernel

/-- C144_secret_iff: a MAC that the specification gives is accepted. -/
example : verifyProt exKem [] (⟨⟨[10], true, some ⟨kemMacOid, .raw [32]⟩, some [11], []⟩, some [12],
    some (6 :: (kdfSpec exKem.toMacEnv "sha256" false [4, 4] [11, 0] 32 ++ [10, 32, 11, 12])), []⟩ : Msg Nat) none none
    none (some [4, 4]) false = .ok () :=
  (C144_secret_iff exKem [] _ none none [4, 4] false ⟨kemMacOid, .raw [32]⟩ _ rfl rfl rfl
    (by
      intro p hp
      cases hp with
      | der h =>
        cases h
        exact ⟨by decide +kernel, by decide, fun _ _ => rfl⟩)
    (by intro n x h; cases h)).2
    ⟨[10, 32, 11, 12], [11], by decide +kernel, rfl,
      .mk (p := exKem3) (.der (by decide +kernel)) (.kdf3 [4, 4] [11, 0] 32 (ho := [2, 16, 840, 1, 101, 3, 4, 2, 1])
        (h := "sha256") (.der (r := []) (by decide +kernel)) (by decide +kernel)) (.hmac (h := "sha256") _ _ (by decide +kernel))⟩

/-- C144_key_iff: no ciphertext in the header. -/
example : verifyProt exKem [] (⟨⟨[10], true, some ⟨kemMacOid, .raw [32]⟩, some [11], []⟩, some [12], some [0], []⟩ : Msg Nat)
    (some 0) none none none false = .error .valueError := by
  decide +kernel

/-! ## Differences -/

/-- A header that has such a ciphertext already, as that of a request which is answered in the same transaction, makes
the verification use the first, not the one that was added for this message. -/
theorem C144_stale_refuted : ∃ (env : Env Nat Nat Nat) (m m' : Msg Nat) (c k s : Nat),
    protectKem env m (.peer c [5]) [8] "kdf3" "sha256" none false = .ok m' ∧ env.keyOf c = .ok k ∧
    env.isRsaKemPub k = false ∧ env.kemOid s = env.kemOidPub k ∧
    (∀ ss ct r, env.encaps k .plain r = .ok (ss, ct) → env.decaps s .plain ct = .ok ss) ∧
    verifyProt env [] (transport env.toMacEnv m') none none none (some [0, 5]) false = .ok () ∧
    verifyProt env [] (transport env.toMacEnv m') (some s) none none none false = .error .badMessageCheck := by
  refine ⟨exKem, exKemPlain [(kemInfoOid, .raw [0, 3, 9])], exKemMsg [(kemInfoOid, .raw [0, 3, 9])] (.peer 0 [5]) "kdf3"
    "sha256" false, 0, 0, 0, by decide +kernel, rfl, by decide +kernel, rfl, ?_, by decide +kernel, by decide +kernel⟩
  intro ss ct r h
  cases h
  simp [exKem]

/-- With an RSA key the message does not verify: the ciphertext is made with RSA-OAEP and opened with RSA-KEM. -/
theorem C144_rsa_refuted : ∃ (env : Env Nat Nat Nat) (m m' : Msg Nat) (c k s : Nat),
    protectKem env m (.peer c [5]) [8] "kdf3" "sha256" none false = .ok m' ∧ env.keyOf c = .ok k ∧
    env.isRsaKemPub k = true ∧ env.kemOid s = env.kemOidPub k ∧
    (∀ md ss ct r, env.encaps k md r = .ok (ss, ct) → env.decaps s md ct = .ok ss) ∧
    (∀ x ∈ m.hdr.info, x.1 ≠ kemInfoOid) ∧
    verifyProt env [] (transport env.toMacEnv m') (some s) none none none false = .error .valueError := by
  refine ⟨exKem, exKemPlain [], exKemMsg [] (.peer 1 [5]) "kdf3" "sha256" false, 1, 1, 1, by decide +kernel, rfl,
    by decide +kernel, rfl, ?_, (by intro x hx; cases hx), by decide +kernel⟩
  intro md ss ct r h
  cases h
  simp [exKem]

/-- A received message with PBKDF2, which is one of the choices of `protect_pkimessage_kem_based_mac`, is never accepted:
its parameters are decoded as an algorithm identifier. -/
theorem C144_pbkdf2_refuted :
    (∀ (env : Env S K C) (rnd : Bytes) (m : Msg C) (priv : Option S) (pw : Option Bytes) (pub : Option K)
      (ss : Option Bytes) (lw : Bool) (b kb : Bytes) (p : KemBm), m.hdr.alg = some ⟨kemMacOid, .raw b⟩ →
      env.decKem b = some (p, []) → p.kdf = [1, 2, 840, 113549, 1, 5, 12] → p.kdfPar = .raw kb →
      verifyProt env rnd m priv pw pub ss lw ≠ .ok ()) ∧
    (∃ m' : Msg Nat, protectKem exKem (exKemPlain []) (.peer 0 [5]) [8] "pbkdf2" "sha256" none false = .ok m') := by
  refine ⟨?_, exKemMsg [] (.peer 0 [5]) "pbkdf2" "sha256" false, by decide +kernel⟩
  intro env rnd m priv pw pub ss lw b kb p ha hd hk hkp h
  cases hp : m.prot with
  | none =>
    unfold verifyProt at h
    rw [hp] at h
    cases h
  | some v =>
    rw [verify_kem env rnd m priv pw pub ss lw _ v ha hp rfl, verifyKem_ok env m priv ss v hp] at h
    obtain ⟨x, _, hx⟩ := h
    obtain ⟨data, tx, _, _, h3⟩ := (kemValue_ok env m x v _ ha).1 hx
    unfold kemMac at h3
    rw [(getKem_iff env (.raw b) p).2 (.der hd)] at h3
    dsimp only at h3
    have hk' : p.kdf = pbkdf2Oid := hk
    obtain ⟨t1, t2, t3, t4, t5, t6⟩ := kdf_oids
    have : ∀ info, ∃ e, kdfOf env p.kdf p.kdfPar x info p.len = .error e := by
      intro info
      unfold kdfOf
      rw [hk', hkp, t3]
      dsimp only
      rw [if_neg (fun c => c.elim t5 t6), if_pos rfl]
      unfold getKdfPbkdf2
      dsimp only
      cases env.decAlg kb with
      | none => exact ⟨_, rfl⟩
      | some y => exact ⟨_, rfl⟩
    obtain ⟨e, he⟩ := this (env.encInfo tx (haveSecret p.ctx))
    rw [he] at h3
    cases h3

/-- HKDF with SHA-3 is in the table of the code, but no message with it is accepted: the name of the hash function is cut
at the second hyphen. -/
theorem C144_hkdf_sha3_refuted (env : Env S K C) (rnd : Bytes) (m : Msg C) (priv : Option S) (pw : Option Bytes)
    (pub : Option K) (ss : Option Bytes) (lw : Bool) (a : AlgId) (p : KemBm) (ha : m.hdr.alg = some a)
    (ho : a.oid = [1, 2, 840, 113533, 7, 66, 16]) (hp : HasKem env a.par p)
    (hk : p.kdf ∈ [[1, 2, 840, 113549, 1, 9, 16, 3, 32], [1, 2, 840, 113549, 1, 9, 16, 3, 33],
      [1, 2, 840, 113549, 1, 9, 16, 3, 34], [1, 2, 840, 113549, 1, 9, 16, 3, 35]]) :
    verifyProt env rnd m priv pw pub ss lw ≠ .ok () := by
  intro h
  cases hpr : m.prot with
  | none =>
    unfold verifyProt at h
    rw [hpr] at h
    cases h
  | some v =>
    rw [verify_kem env rnd m priv pw pub ss lw a v ha hpr ho, verifyKem_ok env m priv ss v hpr] at h
    obtain ⟨x, _, hx⟩ := h
    obtain ⟨data, tx, _, _, h3⟩ := (kemValue_ok env m x v _ ha).1 hx
    unfold kemMac at h3
    rw [(getKem_iff env a.par p).2 hp] at h3
    dsimp only at h3
    have rows : ∀ o ∈ [[1, 2, 840, 113549, 1, 9, 16, 3, 32], [1, 2, 840, 113549, 1, 9, 16, 3, 33],
        [1, 2, 840, 113549, 1, 9, 16, 3, 34], [1, 2, 840, 113549, 1, 9, 16, 3, 35]],
        (look hkdfNames o).map (fun n => (dash1 n).toOption) = some (some "sha3") := by
      decide +kernel
    have : ∀ info, ∃ e, kdfOf env p.kdf p.kdfPar x info p.len = .error e := by
      intro info
      unfold kdfOf
      cases hl : look hkdfNames p.kdf with
      | none => have := rows _ hk; rw [hl] at this; cases this
      | some n =>
        have hr := rows _ hk
        rw [hl] at hr
        rw [Option.map_some] at hr
        dsimp only
        rw [ok_of_toOption (Option.some.inj hr)]
        dsimp only
        cases hi : hashInst "sha3" with
        | error e => exact ⟨e, rfl⟩
        | ok f =>
          exfalso
          have : (hashInst "sha3").toOption = none := by decide +kernel
          rw [hi] at this
          cases this
    obtain ⟨e, he⟩ := this (env.encInfo tx (haveSecret p.ctx))
    rw [he] at h3
    cases h3

example : verifyProt exKem [] (⟨⟨[10], true, some ⟨kemMacOid, .kem { exKem3 with
      kdf := [1, 2, 840, 113549, 1, 9, 16, 3, 33] }⟩, some [11], []⟩, some [12], some [0], []⟩ : Msg Nat) none none none
    (some [1]) false ≠ .ok () :=
  C144_hkdf_sha3_refuted exKem [] _ none none none (some [1]) false _ _ rfl rfl (.obj _) (by decide +kernel)

/-- An empty context in the parameters is left out of the input of the key derivation: the MAC that the specification gives
is refused. -/
theorem C144_empty_context_refuted : ∃ (env : Env Nat Nat Nat) (m : Msg Nat) (p : KemBm) (ss data tx v : Bytes),
    m.hdr.alg = some ⟨kemMacOid, .kem p⟩ ∧ p.ctx = some [] ∧ m.prot = some v ∧ m.hdr.txId = some tx ∧
    protectedPart env.toMacEnv m = .ok data ∧ KemMacOf env (.kem p) ss tx data v ∧
    verifyProt env [] m none none none (some ss) false = .error .badMessageCheck :=
  ⟨exKem, ⟨⟨[10], true, some ⟨kemMacOid, .kem { exKem3 with ctx := some [] }⟩, some [11], []⟩, some [12],
    some (6 :: (kdfSpec exKem.toMacEnv "sha256" false [4, 4] [11, 1] 32 ++ [10, 32, 11, 12])), []⟩,
    { exKem3 with ctx := some [] }, [4, 4], [10, 32, 11, 12], [11], _, rfl, rfl, rfl, rfl, by decide +kernel,
    .mk (p := { exKem3 with ctx := some [] }) (.obj _) (.kdf3 [4, 4] [11, 1] 32 (ho := [2, 16, 840, 1, 101, 3, 4, 2, 1])
      (h := "sha256") (.der (r := []) (by decide +kernel)) (by decide +kernel)) (.hmac (h := "sha256") _ _ (by decide +kernel)),
    by decide +kernel⟩

end Verif.Prot
