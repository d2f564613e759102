import Verif.PQ.Fips204Ntt

/-! The samplers of `fips204.py`: ranges, and the weight of the challenge. -/

namespace Verif.PQ.Dsa

open Verif.CA (Bytes)
open Verif.PQ.Kem (bytesToBits bytesToBits_isBits IsBits zeroPoly)

theorem coeffFromThreeBytes_range {b0 b1 b2 : UInt8} {x : Int} (h : coeffFromThreeBytes b0 b1 b2 = some x) : 0 ≤ x ∧ x < q := by
  unfold coeffFromThreeBytes at h
  simp only at h
  split at h <;> split at h
  · have e := Option.some.inj h; omega
  · simp at h
  · have e := Option.some.inj h; omega
  · simp at h

theorem rejNttLoop_spec (s : Nat → UInt8) : ∀ (fuel p : Nat) (a : List Int) (r : List Int), a.length ≤ 256 →
    (∀ x ∈ a, 0 ≤ x ∧ x < q) → rejNttLoop s fuel p a = some r → r.length = 256 ∧ ∀ x ∈ r, 0 ≤ x ∧ x < q := by
  intro fuel
  induction fuel with
  | zero =>
    intro p a r hl hx h
    rw [rejNttLoop] at h
    split at h
    · simp at h
    · obtain rfl := Option.some.inj h
      exact ⟨by omega, hx⟩
  | succ fuel ih =>
    intro p a r hl hx h
    rw [rejNttLoop] at h
    split at h
    · split at h
      · rename_i x hc
        refine ih _ _ _ (by simp; omega) ?_ h
        intro z hz
        rcases List.mem_append.1 hz with hz | hz
        · exact hx z hz
        · rw [List.mem_singleton.1 hz]; exact coeffFromThreeBytes_range hc
      · exact ih _ _ _ hl hx h
    · obtain rfl := Option.some.inj h
      exact ⟨by omega, hx⟩

theorem rejNttPoly_spec {E : Env} {rho : Bytes} {r : List Int} (h : rejNttPoly E rho = some r) :
    r.length = 256 ∧ ∀ x ∈ r, 0 ≤ x ∧ x < q :=
  rejNttLoop_spec _ _ _ _ _ (by simp) (by simp) h

theorem coeffFromHalfByte_range {eta b : Nat} {x : Int} (h : coeffFromHalfByte eta b = some x) : -(eta : Int) ≤ x ∧ x ≤ eta := by
  unfold coeffFromHalfByte at h
  split at h
  · rename_i hc
    obtain rfl := Option.some.inj h
    omega
  · split at h
    · rename_i hc
      obtain rfl := Option.some.inj h
      omega
    · simp at h

theorem rejBoundedLoop_spec (eta : Nat) (s : Nat → UInt8) : ∀ (fuel p : Nat) (a : List Int) (r : List Int), a.length ≤ 256 →
    (∀ x ∈ a, -(eta : Int) ≤ x ∧ x ≤ eta) → rejBoundedLoop eta s fuel p a = some r →
      r.length = 256 ∧ ∀ x ∈ r, -(eta : Int) ≤ x ∧ x ≤ eta := by
  intro fuel
  induction fuel with
  | zero =>
    intro p a r hl hx h
    rw [rejBoundedLoop] at h
    split at h
    · simp at h
    · obtain rfl := Option.some.inj h
      exact ⟨by omega, hx⟩
  | succ fuel ih =>
    intro p a r hl hx h
    rw [rejBoundedLoop] at h
    split at h
    · simp only at h
      have app : ∀ (l : List Int) (x : Int), (∀ y ∈ l, -(eta : Int) ≤ y ∧ y ≤ eta) → (-(eta : Int) ≤ x ∧ x ≤ eta) →
          ∀ y ∈ l ++ [x], -(eta : Int) ≤ y ∧ y ≤ eta := by
        intro l x h1 h2 y hy
        rcases List.mem_append.1 hy with hy | hy
        · exact h1 y hy
        · rw [List.mem_singleton.1 hy]; exact h2
      cases h0 : coeffFromHalfByte eta ((s p).toNat % 16) with
      | none =>
        cases h1 : coeffFromHalfByte eta ((s p).toNat / 16) with
        | none => simp only [h0, h1] at h; exact ih _ _ _ hl hx h
        | some x1 =>
          rename_i hlt
          simp only [h0, h1, hlt, if_true] at h
          exact ih _ _ _ (by simp; omega) (app _ _ hx (coeffFromHalfByte_range h1)) h
      | some x0 =>
        have hx0 := app _ _ hx (coeffFromHalfByte_range h0)
        cases h1 : coeffFromHalfByte eta ((s p).toNat / 16) with
        | none => simp only [h0, h1] at h; exact ih _ _ _ (by simp; omega) hx0 h
        | some x1 =>
          simp only [h0, h1] at h
          split at h
          · rename_i hlt
            exact ih _ _ _ (by simp at hlt ⊢; omega) (app _ _ hx0 (coeffFromHalfByte_range h1)) h
          · exact ih _ _ _ (by simp; omega) hx0 h
    · obtain rfl := Option.some.inj h
      exact ⟨by omega, hx⟩

theorem rejBoundedPoly_spec {P : Params} {E : Env} {rho : Bytes} {r : List Int} (h : rejBoundedPoly P E rho = some r) :
    r.length = 256 ∧ ∀ x ∈ r, -(P.eta : Int) ≤ x ∧ x ≤ P.eta :=
  rejBoundedLoop_spec _ _ _ _ _ _ (by simp) (by simp) h

/-! ### The challenge polynomial -/

/-- Sum of the absolute values. -/
def l1 (c : List Int) : Nat := (c.map Int.natAbs).sum

theorem l1_set (c : List Int) (i : Nat) (v : Int) (h : i < c.length) :
    l1 (c.set i v) + (at0 c i).natAbs = l1 c + v.natAbs := by
  induction c generalizing i with
  | nil => simp at h
  | cons a c ih =>
    cases i with
    | zero => simp [l1, at0]; omega
    | succ i =>
      have := ih i (by simpa using h)
      simp only [l1, at0, List.set_cons_succ, List.map_cons, List.sum_cons, List.getD_cons_succ] at this ⊢
      omega

theorem at0_set (c : List Int) (i j : Nat) (v : Int) (h : i < c.length) : at0 (c.set i v) j = if i = j then v else at0 c j := by
  simp only [at0, List.getD_eq_getElem?_getD]
  by_cases hij : i = j
  · subst hij; rw [List.getElem?_set_self h, if_pos rfl]; rfl
  · rw [List.getElem?_set_ne hij, if_neg hij]

/-- A challenge: 256 coefficients in {-1, 0, 1}, `n` of them non-zero. -/
structure Ball (c : List Int) (n : Nat) : Prop where
  len : c.length = 256
  tern : ∀ k, at0 c k = 0 ∨ at0 c k = 1 ∨ at0 c k = -1
  norm : l1 c = n

theorem ballNext_le {s : Nat → UInt8} {i fuel p j p' : Nat} (h : ballNext s i fuel p = some (j, p')) : j ≤ i := by
  induction fuel generalizing p with
  | zero => simp [ballNext] at h
  | succ fuel ih =>
    rw [ballNext] at h
    split at h
    · exact ih h
    · simp only [Option.some.injEq, Prod.mk.injEq] at h; omega

theorem negOne_pow (n : Nat) : (-1 : Int) ^ n = 1 ∨ (-1 : Int) ^ n = -1 := by
  induction n with
  | zero => left; rfl
  | succ n ih => rw [Int.pow_succ]; rcases ih with h | h <;> rw [h] <;> simp

theorem ballLoop_spec (s : Nat → UInt8) (hb : List Nat) (tau fuel : Nat) : ∀ (n i p : Nat) (c r : List Int) (N : Nat),
    i + n ≤ 256 → Ball c N → (∀ k, i ≤ k → at0 c k = 0) → ballLoop s hb tau fuel n i p c = some r → Ball r (N + n) := by
  intro n
  induction n with
  | zero =>
    intro i p c r N _ hc _ h
    rw [ballLoop] at h
    obtain rfl := Option.some.inj h
    exact hc
  | succ n ih =>
    intro i p c r N hi hc hz h
    rw [ballLoop] at h
    split at h
    · simp at h
    · rename_i j p' hj
      have hji := ballNext_le hj
      simp only at h
      have hl1 : i < c.length := by rw [hc.len]; omega
      have hl2 : j < (c.set i (at0 c j)).length := by rw [List.length_set, hc.len]; omega
      have hv := negOne_pow (hb.getD (i + tau - 256) 0)
      have hva : ((-1 : Int) ^ (hb.getD (i + tau - 256) 0)).natAbs = 1 := by rcases hv with h | h <;> rw [h] <;> rfl
      generalize (-1 : Int) ^ (hb.getD (i + tau - 256) 0) = v at *
      have := ih (i + 1) p' _ r (N + 1) (by omega) ?_ ?_ h
      · rwa [show N + 1 + n = N + (n + 1) by omega] at this
      · refine ⟨by simp [hc.len], fun k => ?_, ?_⟩
        · rw [at0_set _ _ _ _ hl2]
          split
          · rcases hv with h | h <;> simp [h]
          · rw [at0_set _ _ _ _ hl1]
            split
            · exact hc.tern j
            · exact hc.tern k
        · have e1 := l1_set c i (at0 c j) hl1
          have e2 := l1_set (c.set i (at0 c j)) j v hl2
          rw [at0_set _ _ _ _ hl1] at e2
          rw [hz i (Nat.le_refl _)] at e1
          have e3 : (if i = j then at0 c j else at0 c j) = at0 c j := by split <;> rfl
          rw [e3, hva] at e2
          have := hc.norm
          simp only [Int.natAbs_zero] at e1
          omega
      · intro k hk
        rw [at0_set _ _ _ _ hl2, if_neg (by omega), at0_set _ _ _ _ hl1, if_neg (by omega)]
        exact hz k (by omega)

theorem l1_replicate (n : Nat) : l1 (List.replicate n 0) = 0 := by
  induction n with
  | zero => rfl
  | succ n ih => simp only [l1, List.replicate_succ, List.map_cons, List.sum_cons] at *; omega

theorem sampleInBall_spec {P : Params} (hP : P.tau ≤ 256) {E : Env} {rho : Bytes} {c : List Int} (h : sampleInBall P E rho = some c) :
    Ball c P.tau := by
  have hz : Ball zeroPoly 0 := ⟨zeroPoly_length, fun k => .inl (zeroPoly_at k), l1_replicate 256⟩
  have := ballLoop_spec _ _ _ _ _ _ _ _ c 0 (by omega) hz (fun k _ => zeroPoly_at k) h
  rwa [Nat.zero_add] at this

/-! ### Products with a challenge are small -/

theorem l1_eq_range (c : List Int) (n : Nat) (h : c.length = n) : l1 c = ((List.range n).map (fun i => (at0 c i).natAbs)).sum := by
  conv => lhs; rw [← Kem.map_at0 c n h]
  unfold l1
  rw [List.map_map]
  rfl

theorem prodCoeff_bound (c s : List Int) (B : Nat) (hc : c.length = 256) (hs : ∀ k, (at0 s k).natAbs ≤ B) (k : Nat) :
    (prodCoeff c s k).natAbs ≤ l1 c * B := by
  rw [l1_eq_range c 256 hc]
  unfold prodCoeff
  generalize 256 = m
  have key : ∀ n : Nat, (((List.range n).map (fun i => if i ≤ k then at0 c i * at0 s (k - i) else - (at0 c i * at0 s (m + k - i)))).sum).natAbs ≤
      ((List.range n).map (fun i => (at0 c i).natAbs)).sum * B := by
    intro n
    induction n with
    | zero => simp
    | succ n ih =>
      rw [List.range_succ, List.map_append, List.map_append, List.sum_append, List.sum_append, Nat.add_mul]
      refine Nat.le_trans (Int.natAbs_add_le _ _) (Nat.add_le_add ih ?_)
      simp only [List.map_cons, List.map_nil, List.sum_cons, List.sum_nil, Int.add_zero, Nat.add_zero]
      split
      · rw [Int.natAbs_mul]; exact Nat.mul_le_mul_left _ (hs _)
      · rw [Int.natAbs_neg, Int.natAbs_mul]; exact Nat.mul_le_mul_left _ (hs _)
  exact key m

/-- The product computed through the transform. -/
theorem mul_at (c s : List Int) (hc : c.length = 256) (hs : s.length = 256) (k : Nat) (hk : k < 256) :
    at0 (nttInv (mulNtt (ntt c) (ntt s))) k = prodCoeff c s k % q := by
  have hl := mulNtt_length (ntt c) (ntt s)
  apply int_eq_of_cast (Q := 8380417) (nttInv_range _ hl k hk) (emod_q_range _)
  refine (nttInv_mul_res c s hc hs k hk).trans ?_
  rw [← prodCoeff_cast (Q := 8380417)]
  exact (cq _).symm

end Verif.PQ.Dsa
