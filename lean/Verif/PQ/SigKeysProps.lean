import Verif.PQ.SigKeys
import Verif.PQ.Fips204Props

/-!
# Properties of the ML-DSA key classes (C49, C100)
-/

namespace Verif.PQ.Dsa

open Verif.CA (Bytes PyErr)

theorem skSize_eq {P : Params} (hP : IsParam P) :
    skSize P = 128 + 32 * bitLen (2 * P.eta) * (P.ell + P.k) + 416 * P.k ∧ pkSize P = 32 + 320 * P.k ∧ skSize P ≠ 32 := by
  rcases hP with rfl | rfl | rfl <;> decide +kernel

/-- C49: a generated key is loaded back from its seed, from its private bytes and from both together; a seed followed by
any other bytes is rejected. -/
theorem C49_import (P : Params) (hP : IsParam P) (E : Env) (hE : E.Sized) (xi pk sk : Bytes) (hx : xi.length = 32)
    (hk : keygen P E xi = some (pk, sk)) :
    fromPrivateBytes P E xi = .value ⟨pk, sk, some xi⟩ ∧
    fromPrivateBytes P E sk = .value ⟨pk, sk, none⟩ ∧
    fromPrivateBytes P E (xi ++ sk) = .value ⟨pk, sk, some xi⟩ ∧
    (∀ other, other.length = sk.length → other ≠ sk → fromPrivateBytes P E (xi ++ other) = .raised .invalidKeyData) ∧
    fromPublicBytes P pk = .value pk := by
  obtain ⟨e1, e2, e3⟩ := skSize_eq hP
  obtain ⟨l1, l2, -⟩ := C49_sizes P hP E hE xi pk sk hk
  have hsk : sk.length = skSize P := by rw [l2, e1]
  have hseed : fromSeed P E xi = some ⟨pk, sk, some xi⟩ := by unfold fromSeed; rw [hk]; rfl
  refine ⟨?_, ?_, ?_, ?_, ?_⟩
  · unfold fromPrivateBytes
    rw [if_pos hx, hseed]
    rfl
  · unfold fromPrivateBytes
    rw [if_neg (by omega), if_pos hsk, C49_derive P hP E hE xi pk sk hk]
    rfl
  · unfold fromPrivateBytes
    have hl : (xi ++ sk).length = skSize P + 32 := by rw [List.length_append]; omega
    rw [if_neg (by omega), if_neg (by omega), if_pos hl, List.take_left' hx, List.drop_left' hx, hseed]
    simp
  · intro other ho hne
    unfold fromPrivateBytes
    have hl : (xi ++ other).length = skSize P + 32 := by rw [List.length_append]; omega
    rw [if_neg (by omega), if_neg (by omega), if_pos hl, List.take_left' hx, List.drop_left' hx, hseed]
    simp [Ne.symm hne]
  · unfold fromPublicBytes
    rw [if_neg (by omega)]

/-- C49: whatever `from_private_bytes` accepts has one of the three lengths. -/
theorem C49_import_lengths (P : Params) (E : Env) (data : Bytes) (k : PrivKey) (h : fromPrivateBytes P E data = .value k) :
    data.length = 32 ∨ data.length = skSize P ∨ data.length = skSize P + 32 := by
  unfold fromPrivateBytes at h
  split at h
  · exact .inl ‹_›
  · split at h
    · exact .inr (.inl ‹_›)
    · split at h
      · exact .inr (.inr ‹_›)
      · cases h

example : ∃ k, fromPrivateBytes p44 okEnv (List.replicate 32 7) = .value k := by
  obtain ⟨pk, sk, hk⟩ := okEnv_keygen (List.replicate 32 7)
  exact ⟨_, (C49_import p44 (.inl rfl) okEnv okEnv_sized _ pk sk (by simp) hk).1⟩

/-! ## C100: the key classes agree on the mode -/

/-- C100 (partial): without a hash algorithm or with SHA-512, a signature is accepted with the arguments it was made with.
Missing: other hash algorithms, for which the claim is false (`C100_hash_mismatch_refuted`). -/
theorem C100_sign_verify_partial (P : Params) (hP : IsParam P) (E : Env) (hE : E.Sized) (xi pk sk data ctx rnd sig : Bytes) (hash : HashArg)
    (prehashed : Bool) (hh : hash ≠ .other) (hk : keygen P E xi = some (pk, sk))
    (hs : keySign P E sk data hash ctx prehashed rnd = .value sig) : keyVerify P E pk sig data hash ctx prehashed = .value () := by
  unfold keySign at hs
  unfold keyVerify
  split at hs
  · cases hs
  · rename_i hc
    rw [if_neg hc]
    cases hash with
    | absent =>
      simp only [checkHashAlg] at hs ⊢
      rw [(C47_external P hP E hE xi pk sk data ctx sig none none hk).1 hs]
      rfl
    | sha512 =>
      simp only [checkHashAlg] at hs ⊢
      rw [C47_sign_verify P hP E hE xi pk sk _ rnd sig hk (ofOption_value hs)]
      rfl
    | other => exact absurd rfl hh

/-- C100 (false of the code): with an unsupported hash algorithm `sign` returns the pure-mode signature and `verify` with the same
arguments raises `ValueError`. -/
theorem C100_hash_mismatch_refuted :
    (∀ P E sk data ctx prehashed rnd, ctx.length ≤ 255 →
      keySign P E sk data .other ctx prehashed rnd = sign P E sk data ctx none) ∧
    (∃ E pk sk data sig, keygen p44 E [] = some (pk, sk) ∧ keySign p44 E sk data .other [] false [] = .value sig ∧
      keyVerify p44 E pk sig data .other [] false = .raised .valueError) := by
  refine ⟨fun P E sk data ctx prehashed rnd h => ?_, ?_⟩
  · unfold keySign
    rw [if_neg (by omega)]
    rfl
  · obtain ⟨pk, sk, sig, h1, h2, -⟩ := okEnv_signs [] (pureMp [] [1]) (List.replicate 32 0)
    refine ⟨okEnv, pk, sk, [1], sig, h1, ?_, rfl⟩
    have : keySign p44 okEnv sk [1] .other [] false [] = Out.ofOption (signInternal p44 okEnv sk (pureMp [] [1]) (List.replicate 32 0)) := rfl
    rw [this, h2]
    rfl

/-- The pre-hash string of the key classes is that of `hash_ml_dsa_sign` with SHA-512. -/
theorem keyMp_eq (E : Env) (data ctx : Bytes) : keyMp E data ctx false = hashMp E ctx data .sha512 := rfl

/-- C100: a pure-mode signed string is never the string of a SHA-512 call, so the two modes cannot be confused. -/
theorem C100_domains (E : Env) (data data' ctx ctx' : Bytes) (prehashed : Bool) : keyMp E data ctx prehashed ≠ pureMp ctx' data' := by
  intro h
  have := congrArg List.head? h
  simp [pureMp, keyMp, integerToBytes] at this

end Verif.PQ.Dsa
