import Mathlib.FieldTheory.Finite.Basic
import Mathlib.Data.Nat.ModEq

/-! # Number theory for RSA -/

namespace Verif.PQ.Mech

/-- The spec side of an RSA modulus: `p` and `q` are different primes and `e d = 1` modulo `lcm (p - 1) (q - 1)`. -/
structure RsaOk (p q n e d : Nat) : Prop where
  hp : Nat.Prime p
  hq : Nat.Prime q
  ne : p ≠ q
  hn : n = p * q
  ed : e * d % Nat.lcm (p - 1) (q - 1) = 1

theorem pow_mod_prime (p : Nat) (hp : Nat.Prime p) (z k : Nat) (hk : k ≡ 1 [MOD p - 1]) (h1 : 0 < k) : z ^ k ≡ z [MOD p] := by
  haveI := Fact.mk hp
  rw [← ZMod.natCast_eq_natCast_iff]
  push_cast
  by_cases hz : (z : ZMod p) = 0
  · rw [hz, zero_pow (by omega)]
  · obtain ⟨t, ht⟩ : ∃ t, k = (p - 1) * t + 1 := by
      have := (Nat.modEq_iff_dvd' h1).1 hk.symm
      obtain ⟨t, ht⟩ := this
      exact ⟨t, by omega⟩
    rw [ht, pow_succ, pow_mul, ZMod.pow_card_sub_one_eq_one hz, one_pow, one_mul]

theorem rsa_pow (p q n e d : Nat) (h : RsaOk p q n e d) (z : Nat) (hz : z < n) : (z ^ e % n) ^ d % n = z := by
  have hpos : 0 < e * d := by
    rcases Nat.eq_zero_or_pos (e * d) with h0 | h0
    · have := h.ed; rw [h0] at this; simp at this
    · exact h0
  have hm : e * d ≡ 1 [MOD Nat.lcm (p - 1) (q - 1)] := by
    have h2 := Nat.mod_mod (e * d) (Nat.lcm (p - 1) (q - 1))
    rw [h.ed] at h2
    unfold Nat.ModEq
    rw [h.ed, h2]
  have ep := pow_mod_prime p h.hp z (e * d) (hm.of_dvd (Nat.dvd_lcm_left _ _)) hpos
  have eq := pow_mod_prime q h.hq z (e * d) (hm.of_dvd (Nat.dvd_lcm_right _ _)) hpos
  have hc : Nat.Coprime p q := (Nat.coprime_primes h.hp h.hq).2 h.ne
  have := (Nat.modEq_and_modEq_iff_modEq_mul hc).1 ⟨ep, eq⟩
  rw [← h.hn] at this
  have h3 : z ^ (e * d) % n = z := by rw [this, Nat.mod_eq_of_lt hz]
  rw [← Nat.pow_mod, ← pow_mul, h3]

/-- Encryption inverts decryption as well. -/
theorem rsaOk_symm {p q n e d : Nat} (h : RsaOk p q n e d) : RsaOk p q n d e :=
  ⟨h.hp, h.hq, h.ne, h.hn, by rw [Nat.mul_comm]; exact h.ed⟩

end Verif.PQ.Mech
