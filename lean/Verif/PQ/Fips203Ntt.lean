import Verif.PQ.Fips203Codec
import Verif.PQ.NttList

/-! The NTT of `fips203.py` over `ZMod 3329`. -/

namespace Verif.PQ.Kem

/-- The coefficient field. -/
abbrev Zq := ZMod 3329

/-- Residue classes of the coefficients. -/
abbrev res (f : List Int) (k : Nat) : Zq := castK 3329 f k

/-- The table as residue classes. -/
abbrev zt : Nat → Zq := castK 3329 zetaNtt

theorem cq (a : Int) : ((a % q : Int) : Zq) = (a : Zq) := cast_emod (Q := 3329) a

theorem emod_q_range (a : Int) : 0 ≤ a % q ∧ a % q < q :=
  ⟨Int.emod_nonneg _ (by decide), Int.emod_lt_of_pos _ (by decide)⟩

theorem bfly_cast (z a b : Int) : (((bfly z a b).1 : Int) : Zq) = a + z * b ∧ (((bfly z a b).2 : Int) : Zq) = a - z * b := by
  unfold bfly
  simp only [cq, Int.cast_add, Int.cast_sub, Int.cast_mul, and_self]

theorem ibfly_cast (z a b : Int) : (((ibfly z a b).1 : Int) : Zq) = a + b ∧ (((ibfly z a b).2 : Int) : Zq) = z * (b - a) := by
  unfold ibfly
  simp only [cq, Int.cast_add, Int.cast_sub, Int.cast_mul, and_self]

theorem ntt_eq (f : List Int) : ntt f = (fwdFold bfly zetaNtt 7 f).2 := rfl

theorem nttInv_eq (f : List Int) : nttInv f = (bwdFold ibfly zetaNtt 7 f).2.map (fun x => (x * 3303) % q) := rfl

theorem ntt_length (f : List Int) (hf : f.length = 256) : (ntt f).length = 256 := by
  rw [ntt_eq, fwdFold_length, hf]

theorem nttInv_length (f : List Int) (hf : f.length = 256) : (nttInv f).length = 256 := by
  rw [nttInv_eq, List.length_map, bwdFold_length, hf]

theorem ntt_res (f : List Int) (hf : f.length = 256) : ∀ k < 256, res (ntt f) k = fwdT zt 7 (res f) k := by
  rw [ntt_eq]; exact fwdFold_cast bfly_cast zetaNtt f hf 7 (by omega)

theorem map_at (l : List Int) (F : Int → Int) (k : Nat) (h : k < l.length) : at0 (l.map F) k = F (at0 l k) := by
  simp [at0, h]

theorem nttInv_res (f : List Int) (hf : f.length = 256) : ∀ k < 256, res (nttInv f) k = 3303 * bwdT zt 7 (res f) k := by
  intro k hk
  have h := bwdFold_cast ibfly_cast zetaNtt 7 (by omega) f hf k hk
  have hl := bwdFold_length ibfly zetaNtt 7 f
  rw [← h, nttInv_eq]
  generalize (bwdFold ibfly zetaNtt 7 f).2 = l at *
  simp only [res, castK]
  rw [map_at l _ k (by omega), cq]
  push_cast
  exact mul_comm _ _

theorem ntt_range (f : List Int) (hf : f.length = 256) : ∀ k < 256, 0 ≤ at0 (ntt f) k ∧ at0 (ntt f) k < q := by
  rw [ntt_eq]
  exact fwdFold_range (P := fun x => 0 ≤ x ∧ x < q) (fun z a b => ⟨emod_q_range _, emod_q_range _⟩) zetaNtt f hf 6 (by omega)

theorem nttInv_range (f : List Int) (hf : f.length = 256) : ∀ k < 256, 0 ≤ at0 (nttInv f) k ∧ at0 (nttInv f) k < q := by
  intro k hk
  have hl := bwdFold_length ibfly zetaNtt 7 f
  rw [nttInv_eq]
  generalize (bwdFold ibfly zetaNtt 7 f).2 = l at *
  rw [map_at l _ k (by omega)]
  exact emod_q_range _

theorem inv_table : InvTable zt 7 := by
  have h : ∀ t < 7, ∀ b < 2 ^ t, (at0 zetaNtt (2 ^ t + b) * at0 zetaNtt (2 ^ (t + 1) - 1 - b) + 1) % 3329 = 0 := by
    decide +kernel
  intro t ht b hb
  have := h t ht b hb
  have h2 : (((at0 zetaNtt (2 ^ t + b) * at0 zetaNtt (2 ^ (t + 1) - 1 - b) + 1 : Int)) : Zq) = 0 := by
    rw [← cq]; unfold q; rw [this]; rfl
  simp only [res, zt, castK]
  push_cast at h2
  exact eq_neg_of_add_eq_zero_left h2

/-- `cst` on the integer table. -/
def cstI (i : Nat) : Int := if i % 2 = 0 then at0 zetaNtt (i / 2) else - at0 zetaNtt (i / 2)

theorem cst_cstI (i : Nat) : cst zt i = ((cstI i : Int) : Zq) := by
  simp only [cst, cstI, zt, castK]
  split <;> simp

theorem sq_table : SqTable zt 7 := by
  have h : ∀ i < 128, 1 ≤ i → (at0 zetaNtt i * at0 zetaNtt i - cstI i) % 3329 = 0 := by decide +kernel
  intro i h1 h2
  have := h i h2 h1
  have h3 : (((at0 zetaNtt i * at0 zetaNtt i - cstI i : Int)) : Zq) = 0 := by
    rw [← cq]; unfold q; rw [this]; rfl
  rw [cst_cstI]
  simp only [res, zt, castK]
  push_cast at h3 ⊢
  exact sub_eq_zero.mp h3

theorem zt_zero : zt 0 = 1 := by
  simp only [zt, castK]
  rw [show at0 zetaNtt 0 = 1 by decide +kernel]; simp

theorem mul_table (c : Nat) (hc : c < 128) : res zetaMul c = cst zt (128 + c) := by
  have h : ∀ i < 128, (at0 zetaMul i - cstI (128 + i)) % 3329 = 0 := by decide +kernel
  have := h c hc
  have h3 : (((at0 zetaMul c - cstI (128 + c) : Int)) : Zq) = 0 := by
    rw [← cq]; unfold q; rw [this]; rfl
  rw [cst_cstI]
  simp only [res, zt, castK]
  push_cast at h3
  exact sub_eq_zero.mp h3

theorem inv128 : (3303 : Zq) * 2 ^ 7 = 1 := by decide +kernel

theorem nttInv_ntt_res (f : List Int) (hf : f.length = 256) : ∀ k < 256, res (nttInv (ntt f)) k = res f k := by
  intro k hk
  rw [nttInv_res _ (ntt_length f hf) k hk,
    bwdT_congr zt 7 (by omega) _ _ (ntt_res f hf) k hk,
    bwdT_fwdT zt 7 (by omega) inv_table 7 (by omega) (res f) k hk, ← mul_assoc, inv128, one_mul]

theorem ntt_nttInv_res (f : List Int) (hf : f.length = 256) : ∀ k < 256, res (ntt (nttInv f)) k = res f k := by
  intro k hk
  rw [ntt_res _ (nttInv_length f hf) k hk, fwdT_congr zt 7 (by omega) _ _ (nttInv_res f hf) k hk]
  have e : fwdT zt 7 (fun k => 3303 * bwdT zt 7 (res f) k) k = 3303 * fwdT zt 7 (bwdT zt 7 (res f)) k := by
    rw [fwdT_smul]
  rw [e, fwdT_bwdT zt 7 (by omega) inv_table 7 (by omega) (res f) k hk, ← mul_assoc, inv128, one_mul]

theorem multiplyNtts_length (f g : List Int) : (multiplyNtts f g).length = 256 := by
  unfold multiplyNtts; rw [flatMap_length _ 2 (fun i => rfl)]

theorem multiplyNtts_at (f g : List Int) (c : Nat) (hc : c < 128) :
    at0 (multiplyNtts f g) (2 * c) = (at0 f (2 * c) * at0 g (2 * c) + at0 f (2 * c + 1) * at0 g (2 * c + 1) * at0 zetaMul c) % q ∧
    at0 (multiplyNtts f g) (2 * c + 1) = (at0 f (2 * c) * at0 g (2 * c + 1) + at0 f (2 * c + 1) * at0 g (2 * c)) % q := by
  have h := flatMap_chunk (fun i => baseMul (at0 f (2 * i)) (at0 f (2 * i + 1)) (at0 g (2 * i)) (at0 g (2 * i + 1)) (at0 zetaMul i))
    2 (fun i => rfl) 128 c hc
  have hl := multiplyNtts_length f g
  change ((multiplyNtts f g).drop (c * 2)).take 2 = _ at h
  generalize multiplyNtts f g = m at *
  have h0 := congrArg (fun l => l[0]?) h
  have h1 := congrArg (fun l => l[1]?) h
  simp [baseMul] at h0 h1
  rw [Nat.mul_comm c 2] at h0 h1
  simp only [at0, List.getD_eq_getElem?_getD]
  rw [h0, h1]
  exact ⟨rfl, rfl⟩

theorem multiplyNtts_res (f g : List Int) (c : Nat) (hc : c < 128) :
    res (multiplyNtts f g) (2 * c) = res f (2 * c) * res g (2 * c) + res f (2 * c + 1) * res g (2 * c + 1) * cst zt (128 + c) ∧
    res (multiplyNtts f g) (2 * c + 1) = res f (2 * c) * res g (2 * c + 1) + res f (2 * c + 1) * res g (2 * c) := by
  obtain ⟨h1, h2⟩ := multiplyNtts_at f g c hc
  rw [← mul_table c hc]
  simp only [res, zt, castK]
  rw [h1, h2, cq, cq]
  push_cast
  exact ⟨rfl, rfl⟩

theorem multiplyNtts_range (f g : List Int) : ∀ k < 256, 0 ≤ at0 (multiplyNtts f g) k ∧ at0 (multiplyNtts f g) k < q := by
  intro k hk
  obtain ⟨h1, h2⟩ := multiplyNtts_at f g (k / 2) (by omega)
  rcases Nat.mod_two_eq_zero_or_one k with h | h
  · rw [show 2 * (k / 2) = k by omega] at h1; rw [h1]; exact emod_q_range _
  · rw [show 2 * (k / 2) + 1 = k by omega] at h2; rw [h2]; exact emod_q_range _

theorem map_range_at (F : Nat → Int) (n k : Nat) (hk : k < n) : at0 ((List.range n).map F) k = F k := by
  simp [at0, hk]

theorem polyAdd_res (f g : List Int) : ∀ k < 256, res (polyAdd f g) k = res f k + res g k := by
  intro k hk
  simp only [res, castK, polyAdd]
  rw [map_range_at _ _ _ hk, cq]; push_cast; rfl

theorem polySub_res (f g : List Int) : ∀ k < 256, res (polySub f g) k = res f k - res g k := by
  intro k hk
  simp only [res, castK, polySub]
  rw [map_range_at _ _ _ hk, cq]; push_cast; rfl

theorem polyAdd_length (f g : List Int) : (polyAdd f g).length = 256 := by simp [polyAdd]
theorem polySub_length (f g : List Int) : (polySub f g).length = 256 := by simp [polySub]

theorem polyAdd_range (f g : List Int) : ∀ k < 256, 0 ≤ at0 (polyAdd f g) k ∧ at0 (polyAdd f g) k < q := by
  intro k hk; unfold polyAdd; rw [map_range_at _ _ _ hk]; exact emod_q_range _

theorem polySub_range (f g : List Int) : ∀ k < 256, 0 ≤ at0 (polySub f g) k ∧ at0 (polySub f g) k < q := by
  intro k hk; unfold polySub; rw [map_range_at _ _ _ hk]; exact emod_q_range _

/-- The transform turns the negacyclic product into `multiply_ntts`. -/
theorem ntt_mul_res (f g : List Int) (hf : f.length = 256) (hg : g.length = 256) :
    ∀ k < 256, res (multiplyNtts (ntt f) (ntt g)) k = fwdT zt 7 (negMul 256 (res f) (res g)) k := by
  intro k hk
  have hc : k / 2 < 128 := by omega
  obtain ⟨h1, h2⟩ := multiplyNtts_res (ntt f) (ntt g) (k / 2) hc
  obtain ⟨m1, m2⟩ := fwdT7_mul zt zt_zero sq_table (res f) (res g) (k / 2) hc
  rcases Nat.mod_two_eq_zero_or_one k with h | h
  · rw [show 2 * (k / 2) = k by omega] at h1 m1
    rw [h1, m1]
    simp only [ntt_res f hf _ hk, ntt_res g hg _ hk, ntt_res f hf _ (show k + 1 < 256 by omega), ntt_res g hg _ (show k + 1 < 256 by omega)]
  · rw [show 2 * (k / 2) + 1 = k by omega] at h2 m2
    rw [h2, m2]
    simp only [ntt_res f hf _ hk, ntt_res g hg _ hk, ntt_res f hf _ (show 2 * (k / 2) < 256 by omega), ntt_res g hg _ (show 2 * (k / 2) < 256 by omega)]

theorem nttInv_mul_res (f g : List Int) (hf : f.length = 256) (hg : g.length = 256) :
    ∀ k < 256, res (nttInv (multiplyNtts (ntt f) (ntt g))) k = negMul 256 (res f) (res g) k := by
  intro k hk
  rw [nttInv_res _ (multiplyNtts_length _ _) k hk, bwdT_congr zt 7 (by omega) _ _ (ntt_mul_res f g hf hg) k hk,
    bwdT_fwdT zt 7 (by omega) inv_table 7 (by omega) _ k hk, ← mul_assoc, inv128, one_mul]

end Verif.PQ.Kem
