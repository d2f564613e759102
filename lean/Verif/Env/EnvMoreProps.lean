import Verif.Env.MqvProps

/-!
# C151, C154: the values written by the key agreement
-/

namespace Verif.Env

open Verif.CA Verif.Prot

variable {S K C : Type}

/-- **C151** The algorithms that wrap the key are those of AES key wrap (RFC 3565), with the size of the key. -/
theorem C151_wrap (n : String) (o : Oid) (l : Int) : wrapByName n = .ok (o, l) ↔
    (n = "aes128_wrap" ∧ o = [2, 16, 840, 1, 101, 3, 4, 1, 5] ∧ l = 16) ∨
    (n = "aes192_wrap" ∧ o = [2, 16, 840, 1, 101, 3, 4, 1, 25] ∧ l = 24) ∨
    (n = "aes256_wrap" ∧ o = [2, 16, 840, 1, 101, 3, 4, 1, 45] ∧ l = 32) := by
  unfold wrapByName
  by_cases h1 : n = "aes128_wrap"
  · subst h1; rw [if_pos rfl]; simp [eq_comm]
  · rw [if_neg h1]
    by_cases h2 : n = "aes192_wrap"
    · subst h2; rw [if_pos rfl]; simp [eq_comm]
    · rw [if_neg h2]
      by_cases h3 : n = "aes256_wrap"
      · subst h3; rw [if_pos rfl]; simp [eq_comm]
      · rw [if_neg h3]; simp [h1, h2, h3]

/-- **C151** MQV is not used unless both keys are elliptic curve keys. -/
theorem C151_mqv_keys (env : KEnv S K C) (s gen : S) (k : K) (o : KaOpts S) (ukm : Bytes) (ho : o.mqv = true)
    (hk : env.isEcPub k = false ∨ env.isEc s = false) : kariSender env s gen k o ukm = .error .typeError := by
  unfold kariSender
  rw [if_pos ho, if_pos hk]

/-- **C154** The rounding to a double: numbers below 2^53 are kept; else the result is a multiple of the unit in the last place, no
other multiple is nearer, and of two that are as near it is the even one. -/
theorem C154_round (n : Nat) : (n < 2 ^ 53 → round53 n = n) ∧ (2 ^ 53 ≤ n → ∃ q : Nat, round53 n = q * 2 ^ (n.log2 - 52) ∧
    (∀ m : Nat, ((round53 n : Int) - n).natAbs ≤ ((m * 2 ^ (n.log2 - 52) : Nat) - n : Int).natAbs) ∧
    (2 * ((round53 n : Int) - n).natAbs = 2 ^ (n.log2 - 52) → q % 2 = 0)) := by
  constructor
  · intro h
    unfold round53
    rw [if_pos h]
  · intro h
    have hlog : 53 ≤ n.log2 := (Nat.le_log2 (by omega)).mpr h
    obtain ⟨s, hs⟩ : ∃ s, n.log2 - 52 = s + 1 := ⟨n.log2 - 53, by omega⟩
    unfold round53
    rw [if_neg (by omega)]
    dsimp only
    rw [hs, Nat.add_sub_cancel]
    have hpow : 2 ^ (s + 1) = 2 * 2 ^ s := by rw [Nat.pow_succ, Nat.mul_comm]
    have hpos : 0 < 2 ^ s := Nat.two_pow_pos s
    have hdiv := Nat.div_add_mod n (2 ^ (s + 1))
    have hlt := Nat.mod_lt n (Nat.two_pow_pos (s + 1))
    generalize n / 2 ^ (s + 1) = q at *
    generalize n % 2 ^ (s + 1) = r at *
    rw [hpow] at *
    generalize 2 ^ s = p at *
    have near : ∀ m : Nat, m ≤ q ∨ q + 1 ≤ m := fun m => by omega
    have lo : ∀ m : Nat, m ≤ q → m * (2 * p) ≤ q * (2 * p) := fun m hm => Nat.mul_le_mul_right _ hm
    have hi : ∀ m : Nat, q + 1 ≤ m → (q + 1) * (2 * p) ≤ m * (2 * p) := fun m hm => Nat.mul_le_mul_right _ hm
    have hq1 : (q + 1) * (2 * p) = q * (2 * p) + 2 * p := by rw [Nat.add_mul, Nat.one_mul]
    rw [Nat.mul_comm] at hdiv
    by_cases hc : p < r ∨ r = p ∧ q % 2 = 1
    · rw [if_pos hc]
      refine ⟨q + 1, rfl, ?_, ?_⟩
      · intro m
        rw [hq1]
        rcases near m with hm | hm
        · have := lo m hm; omega
        · have := hi m hm; omega
      · rw [hq1]; omega
    · rw [if_neg hc]
      refine ⟨q, rfl, ?_, ?_⟩
      · intro m
        rcases near m with hm | hm
        · have := lo m hm; omega
        · have := hi m hm; omega
      · omega

example : round53 (2 ^ 53 + 1) = 2 ^ 53 ∧ round53 (2 ^ 53 + 3) = 2 ^ 53 + 4 ∧ round53 (2 ^ 60 - 1) = 2 ^ 60 := by decide +kernel

end Verif.Env
