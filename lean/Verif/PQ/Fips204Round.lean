import Verif.PQ.Fips204

/-! Rounding and hints of `fips204.py`. -/

namespace Verif.PQ.Dsa

/-- The three parameter sets. -/
def IsParam (P : Params) : Prop := P = p44 ∨ P = p65 ∨ P = p87

theorem modpm_q (x : Int) : ∃ k : Int, modpm x q = x + k * q ∧ -4190208 ≤ modpm x q ∧ modpm x q ≤ 4190208 := by
  unfold modpm q
  have h1 := Int.mul_ediv_add_emod (8380417 / 2 - x) 8380417
  refine ⟨(8380417 / 2 - x) / 8380417, ?_, ?_, ?_⟩ <;> omega

/-- The centred representative is determined by its range. -/
theorem modpm_q_unique {x y k : Int} (h : y = x + k * q) (h1 : -4190208 ≤ y) (h2 : y ≤ 4190208) : modpm x q = y := by
  obtain ⟨k', e, l, u⟩ := modpm_q x
  unfold q at *
  omega

theorem power2round_spec (r : Int) :
    (power2round 13 r).1 * 8192 + (power2round 13 r).2 = r % q ∧ -4096 < (power2round 13 r).2 ∧ (power2round 13 r).2 ≤ 4096 ∧
      0 ≤ (power2round 13 r).1 ∧ (power2round 13 r).1 ≤ 1023 := by
  unfold power2round modpm q
  simp only [Int.reducePow]
  refine ⟨?_, ?_, ?_, ?_, ?_⟩ <;> omega

/-- The two values of `gamma2`. -/
def gOk (g : Int) : Prop := g = 95232 ∨ g = 261888

theorem isParam_g {P : Params} (h : IsParam P) : gOk P.gam2 := by
  rcases h with rfl | rfl | rfl
  · exact .inl rfl
  · exact .inr rfl
  · exact .inr rfl

/-- `decompose` with an integer `gamma2`. -/
def dec (g r : Int) : Int × Int :=
  let r0 := modpm (r % q) (2 * g)
  if r % q - r0 = q - 1 then (0, r0 - 1) else ((r % q - r0) / (2 * g), r0)

theorem decompose_dec (P : Params) (r : Int) : decompose P r = dec P.gam2 r := rfl

theorem dec_spec {g : Int} (hg : gOk g) (r : Int) :
    ∃ k : Int, (dec g r).1 * (2 * g) + (dec g r).2 = r + k * q ∧ 0 ≤ (dec g r).1 ∧ (dec g r).1 < 8380416 / (2 * g) ∧
      ((-g < (dec g r).2 ∧ (dec g r).2 ≤ g) ∨ ((dec g r).1 = 0 ∧ (dec g r).2 = -g)) := by
  unfold dec modpm q
  have h1 := Int.mul_ediv_add_emod r 8380417
  rcases hg with rfl | rfl
  · simp only [Int.reduceMul]
    split
    · exact ⟨-(r / 8380417) - 1, by omega, by omega, by omega, by omega⟩
    · exact ⟨-(r / 8380417), by omega, by omega, by omega, by omega⟩
  · simp only [Int.reduceMul]
    split
    · exact ⟨-(r / 8380417) - 1, by omega, by omega, by omega, by omega⟩
    · exact ⟨-(r / 8380417), by omega, by omega, by omega, by omega⟩

theorem hint_aux44 {a1 a2 b1 b2 z K : Int} (h : a1 ≠ a2)
    (e : -z = K * 8380417 + (a1 - a2) * 190464 + (b1 - b2)) (hz : -95232 ≤ z ∧ z ≤ 95232)
    (h1 : 0 ≤ a1 ∧ a1 < 44) (h2 : 0 ≤ a2 ∧ a2 < 44)
    (w1 : (-95232 < b1 ∧ b1 ≤ 95232) ∨ (a1 = 0 ∧ b1 = -95232)) (w2 : (-95232 < b2 ∧ b2 ≤ 95232) ∨ (a2 = 0 ∧ b2 = -95232)) :
    (b1 > 0 → (a1 + 1) % 44 = a2) ∧ (b1 ≤ 0 → (a1 - 1) % 44 = a2) := by
  have hK : K = -1 ∨ K = 0 ∨ K = 1 := by omega
  rcases hK with rfl | rfl | rfl
  · have : a1 = 43 ∧ a2 = 0 := by omega
    omega
  · have : a1 = a2 + 1 ∨ a2 = a1 + 1 := by omega
    rcases this with rfl | rfl <;> omega
  · have : a1 = 0 ∧ a2 = 43 := by omega
    omega

theorem uniq_aux44 {a1 a2 b1 b2 K : Int}
    (e : 0 = K * 8380417 + (a1 - a2) * 190464 + (b1 - b2))
    (h1 : 0 ≤ a1 ∧ a1 < 44) (h2 : 0 ≤ a2 ∧ a2 < 44)
    (w1 : (-95232 < b1 ∧ b1 ≤ 95232) ∨ (a1 = 0 ∧ b1 = -95232)) (w2 : (-95232 < b2 ∧ b2 ≤ 95232) ∨ (a2 = 0 ∧ b2 = -95232)) :
    a1 = a2 ∧ b1 = b2 := by
  have hK : K = -1 ∨ K = 0 ∨ K = 1 := by omega
  rcases hK with rfl | rfl | rfl <;> omega

theorem hint_aux32 {a1 a2 b1 b2 z K : Int} (h : a1 ≠ a2)
    (e : -z = K * 8380417 + (a1 - a2) * 523776 + (b1 - b2)) (hz : -261888 ≤ z ∧ z ≤ 261888)
    (h1 : 0 ≤ a1 ∧ a1 < 16) (h2 : 0 ≤ a2 ∧ a2 < 16)
    (w1 : (-261888 < b1 ∧ b1 ≤ 261888) ∨ (a1 = 0 ∧ b1 = -261888)) (w2 : (-261888 < b2 ∧ b2 ≤ 261888) ∨ (a2 = 0 ∧ b2 = -261888)) :
    (b1 > 0 → (a1 + 1) % 16 = a2) ∧ (b1 ≤ 0 → (a1 - 1) % 16 = a2) := by
  have hK : K = -1 ∨ K = 0 ∨ K = 1 := by omega
  rcases hK with rfl | rfl | rfl
  · have : a1 = 15 ∧ a2 = 0 := by omega
    omega
  · have : a1 = a2 + 1 ∨ a2 = a1 + 1 := by omega
    rcases this with rfl | rfl <;> omega
  · have : a1 = 0 ∧ a2 = 15 := by omega
    omega

theorem uniq_aux32 {a1 a2 b1 b2 K : Int}
    (e : 0 = K * 8380417 + (a1 - a2) * 523776 + (b1 - b2))
    (h1 : 0 ≤ a1 ∧ a1 < 16) (h2 : 0 ≤ a2 ∧ a2 < 16)
    (w1 : (-261888 < b1 ∧ b1 ≤ 261888) ∨ (a1 = 0 ∧ b1 = -261888)) (w2 : (-261888 < b2 ∧ b2 ≤ 261888) ∨ (a2 = 0 ∧ b2 = -261888)) :
    a1 = a2 ∧ b1 = b2 := by
  have hK : K = -1 ∨ K = 0 ∨ K = 1 := by omega
  rcases hK with rfl | rfl | rfl <;> omega

/-- `decompose` is determined by its specification. -/
theorem dec_unique {g : Int} (hg : gOk g) {r a b k : Int} (h : a * (2 * g) + b = r + k * q) (h0 : 0 ≤ a)
    (h1 : a < 8380416 / (2 * g)) (h2 : (-g < b ∧ b ≤ g) ∨ (a = 0 ∧ b = -g)) : dec g r = (a, b) := by
  obtain ⟨k', e, l, u, w⟩ := dec_spec hg r
  have : (dec g r).1 = a ∧ (dec g r).2 = b := by
    unfold q at *
    generalize (dec g r).1 = a' at *
    generalize (dec g r).2 = b' at *
    rcases hg with rfl | rfl
    · exact uniq_aux44 (K := k - k') (by omega) ⟨l, by omega⟩ ⟨h0, by omega⟩ w h2
    · exact uniq_aux32 (K := k - k') (by omega) ⟨l, by omega⟩ ⟨h0, by omega⟩ w h2
  exact Prod.ext this.1 this.2

/-- `use_hint` with an integer `gamma2`. -/
def uh (g h r : Int) : Int :=
  let m : Int := 8380416 / (2 * g)
  let r1 := (dec g r).1
  let r0 := (dec g r).2
  let r1 := if h = 1 ∧ r0 > 0 then (r1 + 1) % m else r1
  if h = 1 ∧ r0 ≤ 0 then (r1 - 1) % m else r1

theorem useHint1_uh (P : Params) (h r : Int) : useHint1 P h r = uh P.gam2 h r := rfl

/-- Hints recover the high bits. -/
theorem uh_spec {g : Int} (hg : gOk g) (r z s k : Int) (hs : s = r + z + k * q) (hz : -g ≤ z ∧ z ≤ g) :
    uh g (if (dec g r).1 = (dec g s).1 then 0 else 1) r = (dec g s).1 := by
  obtain ⟨k1, e1, l1, u1, w1⟩ := dec_spec hg r
  obtain ⟨k2, e2, l2, u2, w2⟩ := dec_spec hg s
  unfold uh
  simp only
  generalize (dec g r).1 = a1 at *
  generalize (dec g r).2 = b1 at *
  generalize (dec g s).1 = a2 at *
  generalize (dec g s).2 = b2 at *
  by_cases h : a1 = a2
  · simp [h]
  · unfold q at *
    simp only [if_neg h, true_and]
    rcases hg with rfl | rfl
    · have := hint_aux44 (K := k + k2 - k1) (z := z) h (by omega) hz ⟨l1, by omega⟩ ⟨l2, by omega⟩ w1 w2
      simp only [Int.reduceMul, Int.reduceDiv]
      by_cases hb : b1 > 0
      · rw [if_pos hb, if_neg (by omega)]; exact this.1 hb
      · rw [if_neg hb, if_pos (by omega)]; exact this.2 (by omega)
    · have := hint_aux32 (K := k + k2 - k1) (z := z) h (by omega) hz ⟨l1, by omega⟩ ⟨l2, by omega⟩ w1 w2
      simp only [Int.reduceMul, Int.reduceDiv]
      by_cases hb : b1 > 0
      · rw [if_pos hb, if_neg (by omega)]; exact this.1 hb
      · rw [if_neg hb, if_pos (by omega)]; exact this.2 (by omega)

/-- A small perturbation does not change the high bits if the low bits stay away from the boundary. -/
theorem dec_stable {g : Int} (hg : gOk g) (r p s k b : Int) (hs : s = r + p + k * q) (hp : -b ≤ p ∧ p ≤ b)
    (hr : -(g - b) < (dec g r).2 ∧ (dec g r).2 < g - b) : (dec g s).1 = (dec g r).1 := by
  obtain ⟨k1, e1, l1, u1, w1⟩ := dec_spec hg r
  have h := dec_unique hg (r := s) (a := (dec g r).1) (b := (dec g r).2 + p) (k := k1 - k)
  rw [h]
  · rw [hs]; unfold q at *; omega
  · exact l1
  · exact u1
  · left; omega

end Verif.PQ.Dsa
