import Verif.Prot.KemProps
import Verif.Prot.MatchProps

/-!
# C142, C143, C144, C147: the values written by the protection

The literal values on which sender and receiver must agree with others, which the theorems on the exchange between the two
functions of the suite do not fix.
-/

namespace Verif.Prot

open Verif.CA

variable {S K C : Type}

/-- **C143** The algorithms of signatures for messages: EdDSA, RSA with SHA-2, RSASSA-PSS, and ECDSA with SHA-2 and SHAKE. -/
theorem C143_signature_oids (o : Oid) : isMsgSig o = true ↔ o ∈ ([[1, 3, 101, 112], [1, 3, 101, 113],
    [1, 2, 840, 113549, 1, 1, 14], [1, 2, 840, 113549, 1, 1, 11], [1, 2, 840, 113549, 1, 1, 12], [1, 2, 840, 113549, 1, 1, 13],
    [1, 2, 840, 113549, 1, 1, 10], [1, 3, 6, 1, 5, 5, 7, 6, 30], [1, 3, 6, 1, 5, 5, 7, 6, 31],
    [1, 2, 840, 10045, 4, 3, 1], [1, 2, 840, 10045, 4, 3, 2], [1, 2, 840, 10045, 4, 3, 3], [1, 2, 840, 10045, 4, 3, 4],
    [1, 3, 6, 1, 5, 5, 7, 6, 32], [1, 3, 6, 1, 5, 5, 7, 6, 33]] : List Oid) := by
  constructor
  · intro h
    have key : ∀ x ∈ rsaNames ++ pssNames ++ ecdsaNames, isMsgSig x.1 = true → x.1 ∈ ([[1, 3, 101, 112], [1, 3, 101, 113],
        [1, 2, 840, 113549, 1, 1, 14], [1, 2, 840, 113549, 1, 1, 11], [1, 2, 840, 113549, 1, 1, 12], [1, 2, 840, 113549, 1, 1, 13],
        [1, 2, 840, 113549, 1, 1, 10], [1, 3, 6, 1, 5, 5, 7, 6, 30], [1, 3, 6, 1, 5, 5, 7, 6, 31],
        [1, 2, 840, 10045, 4, 3, 1], [1, 2, 840, 10045, 4, 3, 2], [1, 2, 840, 10045, 4, 3, 3], [1, 2, 840, 10045, 4, 3, 4],
        [1, 3, 6, 1, 5, 5, 7, 6, 32], [1, 3, 6, 1, 5, 5, 7, 6, 33]] : List Oid) := by decide +kernel
    have mem : ∀ l n, look l o = some n → l ⊆ rsaNames ++ pssNames ++ ecdsaNames → ∃ x ∈ rsaNames ++ pssNames ++ ecdsaNames, x.1 = o :=
      fun l n hl hs => ⟨(o, n), hs (mem_of_look l o n hl), rfl⟩
    have h' := h
    unfold isMsgSig at h'
    rw [Bool.or_eq_true, Bool.or_eq_true, Bool.or_eq_true, Bool.or_eq_true] at h'
    rcases h' with (((h1 | h1) | h1) | h1) | h1
    · rw [decide_eq_true_eq.mp h1]; decide
    · rw [decide_eq_true_eq.mp h1]; decide
    · cases hl : look rsaNames o with
      | none => rw [hl] at h1; cases h1
      | some n =>
        obtain ⟨x, hx, rfl⟩ := mem _ n hl (fun y hy => List.mem_append_left _ (List.mem_append_left _ hy))
        exact key x hx h
    · cases hl : look pssNames o with
      | none => rw [hl] at h1; cases h1
      | some n =>
        obtain ⟨x, hx, rfl⟩ := mem _ n hl (fun y hy => List.mem_append_left _ (List.mem_append_right _ hy))
        exact key x hx h
    · cases hl : look ecdsaNames o with
      | none => rw [hl] at h1; cases h1
      | some n =>
        obtain ⟨x, hx, rfl⟩ := mem _ n hl (fun y hy => List.mem_append_right _ hy)
        exact key x hx h
  · have key : ∀ x ∈ ([[1, 3, 101, 112], [1, 3, 101, 113],
        [1, 2, 840, 113549, 1, 1, 14], [1, 2, 840, 113549, 1, 1, 11], [1, 2, 840, 113549, 1, 1, 12], [1, 2, 840, 113549, 1, 1, 13],
        [1, 2, 840, 113549, 1, 1, 10], [1, 3, 6, 1, 5, 5, 7, 6, 30], [1, 3, 6, 1, 5, 5, 7, 6, 31],
        [1, 2, 840, 10045, 4, 3, 1], [1, 2, 840, 10045, 4, 3, 2], [1, 2, 840, 10045, 4, 3, 3], [1, 2, 840, 10045, 4, 3, 4],
        [1, 3, 6, 1, 5, 5, 7, 6, 32], [1, 3, 6, 1, 5, 5, 7, 6, 33]] : List Oid), isMsgSig x = true := by decide +kernel
    exact key o

/-- **C143** The sender and the key identifier are taken from the certificate exactly for protections with a signature or with
Diffie-Hellman, if this is wanted and there is a certificate; the rest of the header is not changed. -/
theorem C143_patched (env : Env S K C) (a : PArgs S K C) (h : Hdr) :
    patched env a none h = h ∧
    (∀ c, a.doPatch = true → a.name = "signature" ∨ a.name = "rsassa-pss" ∨ a.name = "rsassa_pss" ∨ a.name = "dh" →
      patched env a (some c) h = { h with fields := env.patchSender c h.fields, sender := true }) ∧
    (∀ c, a.doPatch = false ∨ ¬ (a.name = "signature" ∨ a.name = "rsassa-pss" ∨ a.name = "rsassa_pss" ∨ a.name = "dh") →
      patched env a (some c) h = h) := by
  have hm : a.name ∈ ["signature", "rsassa-pss", "rsassa_pss", "dh"] ↔
      (a.name = "signature" ∨ a.name = "rsassa-pss" ∨ a.name = "rsassa_pss" ∨ a.name = "dh") := by simp
  refine ⟨rfl, ?_, ?_⟩
  · intro c h1 h2
    unfold patched
    dsimp only
    rw [if_pos ⟨hm.mpr h2, h1⟩]
  · intro c h1
    unfold patched
    dsimp only
    rw [if_neg]
    rintro ⟨h2, h3⟩
    rcases h1 with h1 | h1
    · rw [h1] at h3; cases h3
    · exact h1 (hm.mp h2)

/-- **C143** Signatures with RSASSA-PSS use the extendable output functions themselves for SHAKE; else the salt has the size of the
hash. -/
theorem C143_pss_mode (env : Env S K C) (s : S) (n : String) (data : Bytes) (hc : env.isComposite s = false)
    (hr : env.isRsa s = true) :
    (n = "shake128" ∨ n = "shake256" → signData env s (some n) true data = env.sign s (.pssShake n) data) ∧
    (n ≠ "shake128" → n ≠ "shake256" → signData env s (some n) true data = env.sign s (.pss n (digestSize n)) data) := by
  have h0 : ¬ env.isComposite s = true := by rw [hc]; decide
  constructor
  · intro h
    unfold signData
    rw [if_neg h0, if_pos ⟨hr, rfl⟩]
    dsimp only
    rw [if_pos h]
  · intro h1 h2
    unfold signData
    rw [if_neg h0, if_pos ⟨hr, rfl⟩]
    dsimp only
    rw [if_neg (fun h => h.elim h1 h2)]

/-- **C144** The counter of the key derivation is the number in four bytes, the highest first. -/
theorem C144_counter (i : Nat) (hi : i < 2 ^ 32) : ∃ a b c d : UInt8, ctrBytes i = [a, b, c, d] ∧
    a.toNat * 2 ^ 24 + b.toNat * 2 ^ 16 + c.toNat * 2 ^ 8 + d.toNat = i := by
  refine ⟨_, _, _, _, rfl, ?_⟩
  simp only [UInt8.toNat_ofNat']
  omega

/-- **C144** The key derivation written: PBKDF2 with 100000 iterations, a key of 32 bytes and the given salt; HKDF by the name of
the hash; KDF2 and KDF3 with the hash. -/
theorem C144_kdf_written (rnd : Bytes) (h : String) :
    prepKdf rnd "pbkdf2" h = (prepPbkdf2 rnd 100000 32 h).map (fun p => (([1, 2, 840, 113549, 1, 5, 12] : Oid), KdfPar.pbkdf2 p)) ∧
    prepKdf rnd "kdf2" h = (oidOfName h).map (fun o => (([1, 3, 133, 16, 840, 9, 44, 1, 1] : Oid), KdfPar.hash o)) ∧
    prepKdf rnd "kdf3" h = (oidOfName h).map (fun o => (([1, 3, 133, 16, 840, 9, 44, 1, 2] : Oid), KdfPar.hash o)) :=
  ⟨rfl, rfl, rfl⟩

/-- **C144** The identifiers of HKDF (RFC 8619 and RFC 9688). -/
theorem C144_hkdf_written (rnd : Bytes) : ∀ x ∈ [("sha256", 28), ("sha384", 29), ("sha512", 30), ("sha3-224", 32), ("sha3-256", 33),
    ("sha3-384", 34), ("sha3-512", 35)], prepKdf rnd "hkdf" x.1 = .ok ([1, 2, 840, 113549, 1, 9, 16, 3, x.2], .absent) := by
  intro x hx
  simp only [List.mem_cons, List.not_mem_nil, or_false] at hx
  rcases hx with rfl | rfl | rfl | rfl | rfl | rfl | rfl <;> rfl

/-- **C147** For the MACs without parameters of their own kind, the comparison asks for equal parameters. -/
theorem C147_params (env : MacEnv) (oth : Pbkdf2 → Pbkdf2 → Bool) (a : AlgId) (d b : Bytes) (n s : Bool)
    (h1 : a.oid ≠ pbmac1Oid) (h2 : a.oid ≠ pbmOid) : macParamsBy env oth a d b n s = .ok () ↔ d = b := by
  unfold macParamsBy
  rw [if_neg h1, if_neg h2]
  by_cases h : d = b
  · rw [if_neg (fun h' => h' h)]
    exact ⟨fun _ => h, fun _ => rfl⟩
  · rw [if_pos h]
    exact ⟨fun h => (nomatch h), fun h' => absurd h' h⟩

example : ctrBytes 66051 = [0, 1, 2, 3] := by decide
example : isMsgSig [1, 2, 840, 113549, 1, 1, 5] = false ∧ isMsgSig [1, 3, 6, 1, 5, 5, 7, 6, 33] = true := by decide +kernel

end Verif.Prot
