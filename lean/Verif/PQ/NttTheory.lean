import Mathlib.Algebra.QuadraticAlgebra.Basic
import Mathlib.Algebra.BigOperators.Group.Finset.Basic
import Mathlib.Algebra.BigOperators.Ring.Finset
import Mathlib.Algebra.BigOperators.Intervals
import Mathlib.Tactic.Ring
import Mathlib.Tactic.LinearCombination

/-!
# The number theoretic transform over a commutative ring

Independent mathematics used to state and prove the NTT properties of `fips203.py` and `fips204.py`: one
butterfly layer and its inverse on coefficient functions, evaluation of polynomials, the negacyclic product.
-/

namespace Verif.PQ

open Finset

variable {K : Type} [CommRing K]

/-- One forward layer on coefficient functions. -/
def fwd (z : Nat → K) (le : Nat) (F : Nat → K) (k : Nat) : K :=
  if (k / le) % 2 = 0 then F k + z (k / (2 * le)) * F (k + le) else F (k - le) - z (k / (2 * le)) * F k

/-- One inverse layer on coefficient functions. -/
def bwd (z : Nat → K) (le : Nat) (F : Nat → K) (k : Nat) : K :=
  if (k / le) % 2 = 0 then F k + F (k + le) else z (k / (2 * le)) * (F k - F (k - le))

theorem lo_div (le b r : Nat) (h : r < le) : (2 * le * b + r) / le = 2 * b ∧ (2 * le * b + r) / (2 * le) = b := by
  constructor
  · apply Nat.div_eq_of_lt_le
    · rw [Nat.mul_right_comm]; omega
    · rw [Nat.add_mul, Nat.mul_right_comm]; omega
  · apply Nat.div_eq_of_lt_le
    · rw [Nat.mul_comm b]; omega
    · rw [Nat.add_mul, Nat.mul_comm b]; omega

theorem hi_div (le b r : Nat) (h : r < le) :
    (2 * le * b + le + r) / le = 2 * b + 1 ∧ (2 * le * b + le + r) / (2 * le) = b := by
  constructor
  · apply Nat.div_eq_of_lt_le
    · rw [Nat.add_mul, Nat.mul_right_comm]; omega
    · rw [Nat.add_mul, Nat.add_mul, Nat.mul_right_comm]; omega
  · apply Nat.div_eq_of_lt_le
    · rw [Nat.mul_comm b]; omega
    · rw [Nat.add_mul, Nat.mul_comm b]; omega

theorem split_idx (le k : Nat) (hle : 0 < le) :
    ∃ b r, r < le ∧ (k = 2 * le * b + r ∨ k = 2 * le * b + le + r) := by
  have h1 := Nat.div_add_mod k (2 * le)
  have h2 := Nat.mod_lt k (by omega : 0 < 2 * le)
  by_cases h : k % (2 * le) < le
  · exact ⟨k / (2 * le), k % (2 * le), h, .inl (by omega)⟩
  · exact ⟨k / (2 * le), k % (2 * le) - le, by omega, .inr (by omega)⟩

theorem fwd_lo (z : Nat → K) (le b r : Nat) (F : Nat → K) (h : r < le) :
    fwd z le F (2 * le * b + r) = F (2 * le * b + r) + z b * F (2 * le * b + le + r) := by
  obtain ⟨h1, h2⟩ := lo_div le b r h
  unfold fwd
  rw [h1, h2, if_pos (by omega), show 2 * le * b + r + le = 2 * le * b + le + r by omega]

theorem fwd_hi (z : Nat → K) (le b r : Nat) (F : Nat → K) (h : r < le) :
    fwd z le F (2 * le * b + le + r) = F (2 * le * b + r) - z b * F (2 * le * b + le + r) := by
  obtain ⟨h1, h2⟩ := hi_div le b r h
  unfold fwd
  rw [h1, h2, if_neg (by omega), show 2 * le * b + le + r - le = 2 * le * b + r by omega]

theorem bwd_lo (z : Nat → K) (le b r : Nat) (F : Nat → K) (h : r < le) :
    bwd z le F (2 * le * b + r) = F (2 * le * b + r) + F (2 * le * b + le + r) := by
  obtain ⟨h1, h2⟩ := lo_div le b r h
  unfold bwd
  rw [h1, if_pos (by omega), show 2 * le * b + r + le = 2 * le * b + le + r by omega]

theorem bwd_hi (z : Nat → K) (le b r : Nat) (F : Nat → K) (h : r < le) :
    bwd z le F (2 * le * b + le + r) = z b * (F (2 * le * b + le + r) - F (2 * le * b + r)) := by
  obtain ⟨h1, h2⟩ := hi_div le b r h
  unfold bwd
  rw [h1, h2, if_neg (by omega), show 2 * le * b + le + r - le = 2 * le * b + r by omega]

/-- The table of a transform: nodes of a binary tree, `ζ i` at node `i`; the children of node `i` are `2 i` with
constant `ζ i` and `2 i + 1` with constant `-ζ i`. -/
def cst (ζ : Nat → K) (i : Nat) : K := if i % 2 = 0 then ζ (i / 2) else - ζ (i / 2)

/-- The first `t` forward layers. -/
def fwdT (ζ : Nat → K) : Nat → (Nat → K) → (Nat → K)
  | 0, F => F
  | t + 1, F => fwd (fun b => ζ (2 ^ t + b)) (2 ^ (7 - t)) (fwdT ζ t F)

/-- The inverses of the first `t` forward layers, in reverse order. -/
def bwdT (ζ : Nat → K) : Nat → (Nat → K) → (Nat → K)
  | 0, F => F
  | t + 1, F => bwdT ζ t (bwd (fun b => ζ (2 ^ (t + 1) - 1 - b)) (2 ^ (7 - t)) F)

theorem pow_split (t : Nat) (h : t ≤ 7) : 2 * 2 ^ (7 - t) * 2 ^ t = 256 := by
  have e1 : (2 : Nat) * 2 ^ (7 - t) = 2 ^ (7 - t + 1) := by rw [Nat.pow_succ, Nat.mul_comm]
  rw [e1, ← Nat.pow_add, show 7 - t + 1 + t = 8 by omega]

theorem block_lt (t b r : Nat) (h : t ≤ 7) (hr : r < 2 ^ (7 - t)) :
    (2 * 2 ^ (7 - t) * b + r < 256 ↔ b < 2 ^ t) ∧ (2 * 2 ^ (7 - t) * b + 2 ^ (7 - t) + r < 256 ↔ b < 2 ^ t) := by
  have hp := pow_split t h
  generalize hL : 2 ^ (7 - t) = L at *
  generalize 2 ^ t = B at *
  have key : b < B → 2 * L * (b + 1) ≤ 256 := fun hb => hp ▸ Nat.mul_le_mul_left _ hb
  have key2 : ¬ b < B → 256 ≤ 2 * L * b := fun hb => hp ▸ Nat.mul_le_mul_left _ (Nat.not_lt.mp hb)
  rw [Nat.mul_add] at key
  constructor
  · constructor
    · intro hh; by_contra hb; have := key2 hb; omega
    · intro hb; have := key hb; omega
  · constructor
    · intro hh; by_contra hb; have := key2 hb; omega
    · intro hb; have := key hb; omega

/-- Layers respect pointwise equality on the 256 coefficients. -/
theorem fwd_congr (z : Nat → K) (t : Nat) (ht : t ≤ 7) (F G : Nat → K) (h : ∀ k < 256, F k = G k) :
    ∀ k < 256, fwd z (2 ^ (7 - t)) F k = fwd z (2 ^ (7 - t)) G k := by
  intro k hk
  obtain ⟨b, r, hr, hh⟩ := split_idx (2 ^ (7 - t)) k (Nat.two_pow_pos _)
  obtain ⟨h1, h2⟩ := block_lt t b r ht hr
  rcases hh with rfl | rfl
  · rw [fwd_lo _ _ _ _ _ hr, fwd_lo _ _ _ _ _ hr, h _ hk, h _ (h2.mpr (h1.mp hk))]
  · rw [fwd_hi _ _ _ _ _ hr, fwd_hi _ _ _ _ _ hr, h _ hk, h _ (h1.mpr (h2.mp hk))]

theorem bwd_congr (z : Nat → K) (t : Nat) (ht : t ≤ 7) (F G : Nat → K) (h : ∀ k < 256, F k = G k) :
    ∀ k < 256, bwd z (2 ^ (7 - t)) F k = bwd z (2 ^ (7 - t)) G k := by
  intro k hk
  obtain ⟨b, r, hr, hh⟩ := split_idx (2 ^ (7 - t)) k (Nat.two_pow_pos _)
  obtain ⟨h1, h2⟩ := block_lt t b r ht hr
  rcases hh with rfl | rfl
  · rw [bwd_lo _ _ _ _ _ hr, bwd_lo _ _ _ _ _ hr, h _ hk, h _ (h2.mpr (h1.mp hk))]
  · rw [bwd_hi _ _ _ _ _ hr, bwd_hi _ _ _ _ _ hr, h _ hk, h _ (h1.mpr (h2.mp hk))]

theorem fwdT_congr (ζ : Nat → K) (t : Nat) (ht : t ≤ 8) (F G : Nat → K) (h : ∀ k < 256, F k = G k) :
    ∀ k < 256, fwdT ζ t F k = fwdT ζ t G k := by
  induction t with
  | zero => exact h
  | succ t ih => exact fwd_congr _ t (by omega) _ _ (ih (by omega))

theorem bwdT_congr (ζ : Nat → K) (t : Nat) (ht : t ≤ 8) (F G : Nat → K) (h : ∀ k < 256, F k = G k) :
    ∀ k < 256, bwdT ζ t F k = bwdT ζ t G k := by
  induction t generalizing F G with
  | zero => exact h
  | succ t ih => exact ih (by omega) _ _ (bwd_congr _ t (by omega) _ _ h)

theorem bwd_smul (z : Nat → K) (le : Nat) (c : K) (F : Nat → K) : bwd z le (fun k => c * F k) = fun k => c * bwd z le F k := by
  funext k; unfold bwd; split <;> ring

theorem bwdT_smul (ζ : Nat → K) (t : Nat) (c : K) (F : Nat → K) : bwdT ζ t (fun k => c * F k) = fun k => c * bwdT ζ t F k := by
  induction t generalizing F with
  | zero => rfl
  | succ t ih => simp only [bwdT, bwd_smul, ih]

theorem fwd_smul (z : Nat → K) (le : Nat) (c : K) (F : Nat → K) : fwd z le (fun k => c * F k) = fun k => c * fwd z le F k := by
  funext k; unfold fwd; split <;> ring

theorem fwdT_smul (ζ : Nat → K) (t : Nat) (c : K) (F : Nat → K) : fwdT ζ t (fun k => c * F k) = fun k => c * fwdT ζ t F k := by
  induction t with
  | zero => rfl
  | succ t ih => simp only [fwdT, ih, fwd_smul]

/-- The table property that makes `bwd` invert `fwd`. -/
def InvTable (ζ : Nat → K) (T : Nat) : Prop := ∀ t < T, ∀ b < 2 ^ t, ζ (2 ^ t + b) * ζ (2 ^ (t + 1) - 1 - b) = -1

theorem bwd_fwd (ζ : Nat → K) (T t : Nat) (ht : t ≤ 7) (hT : t < T) (hz : InvTable ζ T) (F : Nat → K) (k : Nat) (hk : k < 256) :
    bwd (fun b => ζ (2 ^ (t + 1) - 1 - b)) (2 ^ (7 - t)) (fwd (fun b => ζ (2 ^ t + b)) (2 ^ (7 - t)) F) k = 2 * F k := by
  obtain ⟨b, r, hr, hh⟩ := split_idx (2 ^ (7 - t)) k (Nat.two_pow_pos _)
  obtain ⟨h1, h2⟩ := block_lt t b r ht hr
  rcases hh with rfl | rfl
  · rw [bwd_lo _ _ _ _ _ hr, fwd_lo _ _ _ _ _ hr, fwd_hi _ _ _ _ _ hr]; ring
  · have := hz t hT b (h2.mp hk)
    rw [bwd_hi _ _ _ _ _ hr, fwd_lo _ _ _ _ _ hr, fwd_hi _ _ _ _ _ hr]
    linear_combination (-2 * F (2 * 2 ^ (7 - t) * b + 2 ^ (7 - t) + r)) * this

theorem fwd_bwd (ζ : Nat → K) (T t : Nat) (ht : t ≤ 7) (hT : t < T) (hz : InvTable ζ T) (F : Nat → K) (k : Nat) (hk : k < 256) :
    fwd (fun b => ζ (2 ^ t + b)) (2 ^ (7 - t)) (bwd (fun b => ζ (2 ^ (t + 1) - 1 - b)) (2 ^ (7 - t)) F) k = 2 * F k := by
  obtain ⟨b, r, hr, hh⟩ := split_idx (2 ^ (7 - t)) k (Nat.two_pow_pos _)
  obtain ⟨h1, h2⟩ := block_lt t b r ht hr
  rcases hh with rfl | rfl
  · have := hz t hT b (h1.mp hk)
    rw [fwd_lo _ _ _ _ _ hr, bwd_lo _ _ _ _ _ hr, bwd_hi _ _ _ _ _ hr]
    linear_combination (F (2 * 2 ^ (7 - t) * b + 2 ^ (7 - t) + r) - F (2 * 2 ^ (7 - t) * b + r)) * this
  · have := hz t hT b (h2.mp hk)
    rw [fwd_hi _ _ _ _ _ hr, bwd_lo _ _ _ _ _ hr, bwd_hi _ _ _ _ _ hr]
    linear_combination (- F (2 * 2 ^ (7 - t) * b + 2 ^ (7 - t) + r) + F (2 * 2 ^ (7 - t) * b + r)) * this

theorem bwdT_fwdT (ζ : Nat → K) (T : Nat) (hT8 : T ≤ 8) (hz : InvTable ζ T) (t : Nat) (ht : t ≤ T) (F : Nat → K) :
    ∀ k < 256, bwdT ζ t (fwdT ζ t F) k = 2 ^ t * F k := by
  induction t with
  | zero => intro k _; simp [bwdT, fwdT]
  | succ t ih =>
    intro k hk
    simp only [bwdT, fwdT]
    rw [bwdT_congr ζ t (by omega) _ (fun k => 2 * fwdT ζ t F k) (bwd_fwd ζ T t (by omega) (by omega) hz _) k hk, bwdT_smul]
    simp only
    rw [ih (by omega) k hk, pow_succ]; ring

theorem fwdT_bwdT (ζ : Nat → K) (T : Nat) (hT8 : T ≤ 8) (hz : InvTable ζ T) (t : Nat) (ht : t ≤ T) (F : Nat → K) :
    ∀ k < 256, fwdT ζ t (bwdT ζ t F) k = 2 ^ t * F k := by
  induction t generalizing F with
  | zero => intro k _; simp [bwdT, fwdT]
  | succ t ih =>
    intro k hk
    simp only [bwdT, fwdT]
    rw [fwd_congr _ t (by omega) _ (fun k => 2 ^ t * bwd (fun b => ζ (2 ^ (t + 1) - 1 - b)) (2 ^ (7 - t)) F k)
      (ih (by omega) _) k hk, fwd_smul]
    simp only
    rw [fwd_bwd ζ T t (by omega) (by omega) hz _ k hk, pow_succ]; ring

/-! ## Evaluation -/

variable {R : Type} [CommRing R]

/-- Evaluation of the first `n` coefficients. -/
def evalN (φ : K →+* R) (n : Nat) (F : Nat → K) (x : R) : R := ∑ j ∈ range n, φ (F j) * x ^ j

/-- The table property that makes the transform an evaluation: squares. -/
def SqTable (ζ : Nat → K) (T : Nat) : Prop := ∀ i, 1 ≤ i → i < 2 ^ T → ζ i * ζ i = cst ζ i

theorem fwdT_eval (ζ : Nat → K) (T : Nat) (hT8 : T ≤ 8) (hs : SqTable ζ T) (φ : K →+* R) (F : Nat → K) (t : Nat) (ht : t ≤ T) :
    ∀ c < 2 ^ t, ∀ x : R, x ^ (2 ^ (8 - t)) = φ (cst ζ (2 ^ t + c)) →
      evalN φ (2 ^ (8 - t)) (fun j => fwdT ζ t F (2 ^ (8 - t) * c + j)) x = evalN φ 256 F x ∧ x ^ 256 = φ (cst ζ 1) := by
  induction t with
  | zero =>
    intro c hc x hx
    have : c = 0 := by simpa using hc
    subst this
    refine ⟨?_, by simpa using hx⟩
    simp [fwdT, evalN]
  | succ t ih =>
    intro c hc x hx
    have e8 : 8 - (t + 1) = 7 - t := by omega
    have e9 : 8 - t = 7 - t + 1 := by omega
    rw [e8] at hx ⊢
    have hb : c / 2 < 2 ^ t := by rw [pow_succ] at hc; omega
    -- the constant of the child
    have hc2 : cst ζ (2 ^ (t + 1) + c) = if c % 2 = 0 then ζ (2 ^ t + c / 2) else - ζ (2 ^ t + c / 2) := by
      unfold cst
      rw [pow_succ, show (2 ^ t * 2 + c) % 2 = c % 2 by omega, show (2 ^ t * 2 + c) / 2 = 2 ^ t + c / 2 by omega]
    have hsq := hs (2 ^ t + c / 2) (by have := Nat.two_pow_pos t; omega)
      (by have : 2 ^ (t + 1) ≤ 2 ^ T := Nat.pow_le_pow_right (by omega) ht
          rw [pow_succ] at this; omega)
    have hx2 : x ^ (2 ^ (8 - t)) = φ (cst ζ (2 ^ t + c / 2)) := by
      rw [e9, pow_succ, pow_mul, hx, hc2, ← hsq, ← map_pow]
      congr 1
      split <;> ring
    obtain ⟨ih1, ih2⟩ := ih (by omega) (c / 2) hb x hx2
    refine ⟨?_, ih2⟩
    rw [← ih1]
    unfold evalN
    rw [e9, show (2 : Nat) ^ (7 - t + 1) = 2 ^ (7 - t) + 2 ^ (7 - t) by rw [pow_succ]; omega, sum_range_add, ← sum_add_distrib]
    apply sum_congr rfl
    intro j hj
    have hj := mem_range.mp hj
    simp only [fwdT]
    have hL : 2 ^ (7 - t) + 2 ^ (7 - t) = 2 * 2 ^ (7 - t) := by omega
    rw [hL]
    rcases Nat.mod_two_eq_zero_or_one c with hp | hp
    · have hidx : 2 ^ (7 - t) * c + j = 2 * 2 ^ (7 - t) * (c / 2) + j := by
        have : c = 2 * (c / 2) := by omega
        conv => lhs; rw [this]
        rw [← Nat.mul_assoc, Nat.mul_comm (2 ^ (7 - t)) 2]
      rw [hidx, fwd_lo _ _ _ _ _ hj, map_add, map_mul, pow_add, hx, hc2, if_pos hp]
      rw [show 2 * 2 ^ (7 - t) * (c / 2) + 2 ^ (7 - t) + j = 2 * 2 ^ (7 - t) * (c / 2) + (2 ^ (7 - t) + j) by omega]
      ring
    · have hidx : 2 ^ (7 - t) * c + j = 2 * 2 ^ (7 - t) * (c / 2) + 2 ^ (7 - t) + j := by
        have : c = 2 * (c / 2) + 1 := by omega
        conv => lhs; rw [this]
        rw [Nat.mul_add, ← Nat.mul_assoc, Nat.mul_comm (2 ^ (7 - t)) 2, Nat.mul_one]
      rw [hidx, fwd_hi _ _ _ _ _ hj, map_sub, map_mul, pow_add, hx, hc2, if_neg (by omega), map_neg]
      rw [show 2 * 2 ^ (7 - t) * (c / 2) + 2 ^ (7 - t) + j = 2 * 2 ^ (7 - t) * (c / 2) + (2 ^ (7 - t) + j) by omega]
      ring

/-! ## The negacyclic product -/

/-- Coefficient `k` of the product in `K[X]/(X^N + 1)`. -/
def negMul (N : Nat) (F G : Nat → K) (k : Nat) : K :=
  ∑ i ∈ range N, if i ≤ k then F i * G (k - i) else - (F i * G (N + k - i))

theorem negMul_eval (φ : K →+* R) (N : Nat) (F G : Nat → K) (x : R) (hx : x ^ N = -1) :
    evalN φ N (negMul N F G) x = evalN φ N F x * evalN φ N G x := by
  have h1 : evalN φ N (negMul N F G) x =
      ∑ i ∈ range N, φ (F i) * ∑ k ∈ range N, (if i ≤ k then φ (G (k - i)) * x ^ k else - (φ (G (N + k - i)) * x ^ k)) := by
    unfold evalN negMul
    simp only [map_sum, sum_mul, mul_sum]
    rw [sum_comm]
    apply sum_congr rfl; intro i _
    apply sum_congr rfl; intro k _
    split
    · rw [map_mul]; ring
    · rw [map_neg, map_mul]; ring
  rw [h1]
  conv_rhs => unfold evalN
  rw [sum_mul]
  apply sum_congr rfl
  intro i hi
  have hi := mem_range.mp hi
  rw [mul_assoc]
  congr 1
  obtain ⟨m, rfl⟩ : ∃ m, N = i + m := ⟨N - i, by omega⟩
  rw [sum_range_add]
  have e1 : ∀ k ∈ range i, (if i ≤ k then φ (G (k - i)) * x ^ k else - (φ (G (i + m + k - i)) * x ^ k)) =
      φ (G (m + k)) * x ^ (i + (m + k)) := by
    intro k hk
    have hk := mem_range.mp hk
    rw [if_neg (by omega), show i + m + k - i = m + k by omega, show i + (m + k) = (i + m) + k by omega, pow_add x (i + m) k, hx]
    ring
  have e2 : ∀ k ∈ range m, (if i ≤ i + k then φ (G (i + k - i)) * x ^ (i + k) else - (φ (G (i + m + (i + k) - i)) * x ^ (i + k))) =
      φ (G k) * x ^ (i + k) := by
    intro k _
    rw [if_pos (by omega), show i + k - i = k by omega]
  rw [sum_congr rfl e1, sum_congr rfl e2, Nat.add_comm i m, sum_range_add, mul_add, mul_sum, mul_sum, add_comm]
  congr 1
  · apply sum_congr rfl; intro k _; rw [pow_add]; ring
  · apply sum_congr rfl; intro k _; rw [pow_add]; ring

/-! ## The transform is multiplicative -/

/-- ML-KEM shape: seven layers, products of linear polynomials modulo `X² - γ`. -/
theorem fwdT7_mul (ζ : Nat → K) (h0 : ζ 0 = 1) (hs : SqTable ζ 7) (F G : Nat → K) (c : Nat) (hc : c < 128) :
    fwdT ζ 7 (negMul 256 F G) (2 * c) =
        fwdT ζ 7 F (2 * c) * fwdT ζ 7 G (2 * c) + fwdT ζ 7 F (2 * c + 1) * fwdT ζ 7 G (2 * c + 1) * cst ζ (128 + c) ∧
      fwdT ζ 7 (negMul 256 F G) (2 * c + 1) =
        fwdT ζ 7 F (2 * c) * fwdT ζ 7 G (2 * c + 1) + fwdT ζ 7 F (2 * c + 1) * fwdT ζ 7 G (2 * c) := by
  let γ := cst ζ (128 + c)
  let φ := algebraMap K (QuadraticAlgebra K γ 0)
  let w : QuadraticAlgebra K γ 0 := ⟨0, 1⟩
  have hw : w ^ (2 ^ (8 - 7)) = φ (cst ζ (2 ^ 7 + c)) := by
    show w ^ 2 = φ γ
    rw [pow_two]
    ext <;> simp [w, φ]
  have key : ∀ F : Nat → K, (⟨fwdT ζ 7 F (2 * c), fwdT ζ 7 F (2 * c + 1)⟩ : QuadraticAlgebra K γ 0) = evalN φ 256 F w := by
    intro F
    rw [← (fwdT_eval ζ 7 (by omega) hs φ F 7 (by omega) c hc w hw).1]
    unfold evalN
    rw [show (2 : Nat) ^ (8 - 7) = 2 from rfl, sum_range_succ, sum_range_one]
    ext <;> simp [w, φ]
  have hx : w ^ 256 = -1 := by
    rw [(fwdT_eval ζ 7 (by omega) hs φ F 7 (by omega) c hc w hw).2]
    simp [cst, h0]
  have hm := key (negMul 256 F G)
  rw [negMul_eval φ 256 F G w hx, ← key F, ← key G] at hm
  have hre := congrArg QuadraticAlgebra.re hm
  have him := congrArg QuadraticAlgebra.im hm
  simp only [QuadraticAlgebra.re_mul, QuadraticAlgebra.im_mul] at hre him
  refine ⟨?_, ?_⟩
  · rw [hre]; show _ + γ * _ * _ = _; ring
  · rw [him]; ring

/-- ML-DSA shape: eight layers, pointwise products. -/
theorem fwdT8_mul (ζ : Nat → K) (h0 : ζ 0 = 1) (hs : SqTable ζ 8) (F G : Nat → K) (c : Nat) (hc : c < 256) :
    fwdT ζ 8 (negMul 256 F G) c = fwdT ζ 8 F c * fwdT ζ 8 G c := by
  have hw : (cst ζ (2 ^ 8 + c)) ^ (2 ^ (8 - 8)) = RingHom.id K (cst ζ (2 ^ 8 + c)) := by simp
  have key : ∀ F : Nat → K, fwdT ζ 8 F c = evalN (RingHom.id K) 256 F (cst ζ (2 ^ 8 + c)) := by
    intro F
    rw [← (fwdT_eval ζ 8 (by omega) hs (RingHom.id K) F 8 (by omega) c hc _ hw).1]
    unfold evalN
    rw [show (2 : Nat) ^ (8 - 8) = 1 from rfl, sum_range_one]
    simp
  have hx : (cst ζ (2 ^ 8 + c)) ^ 256 = -1 := by
    rw [(fwdT_eval ζ 8 (by omega) hs (RingHom.id K) F 8 (by omega) c hc _ hw).2]
    simp [cst, h0]
  rw [key, negMul_eval _ 256 F G _ hx, ← key F, ← key G]

end Verif.PQ
