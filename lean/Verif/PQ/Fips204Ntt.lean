import Verif.PQ.Fips204
import Verif.PQ.Fips203Codec
import Verif.PQ.NttList

/-! The NTT of `fips204.py` over `ZMod 8380417`. -/

namespace Verif.PQ.Dsa

open Verif.PQ.Kem (zeroPoly)
open Finset

/-- The coefficient ring. -/
abbrev Zq := ZMod 8380417

/-- Residue classes of the coefficients. -/
abbrev res (f : List Int) (k : Nat) : Zq := castK 8380417 f k

/-- The table as residue classes. -/
abbrev zt : Nat → Zq := castK 8380417 zetas

theorem cq (a : Int) : ((a % q : Int) : Zq) = (a : Zq) := cast_emod (Q := 8380417) a

theorem emod_q_range (a : Int) : 0 ≤ a % q ∧ a % q < q :=
  ⟨Int.emod_nonneg _ (by decide), Int.emod_lt_of_pos _ (by decide)⟩

theorem bfly_cast (z a b : Int) : (((bfly z a b).1 : Int) : Zq) = a + z * b ∧ (((bfly z a b).2 : Int) : Zq) = a - z * b := by
  unfold bfly
  simp only [cq, Int.cast_add, Int.cast_sub, Int.cast_mul, and_self]

theorem ibfly_cast (z a b : Int) : (((ibfly z a b).1 : Int) : Zq) = a + b ∧ (((ibfly z a b).2 : Int) : Zq) = z * (b - a) := by
  unfold ibfly
  simp only [cq, Int.cast_add, Int.cast_sub, Int.cast_mul, Int.cast_neg, true_and]
  ring

theorem ntt_eq (f : List Int) : ntt f = (fwdFold bfly zetas 8 f).2 := rfl

theorem nttInv_eq (f : List Int) : nttInv f = (bwdFold ibfly zetas 8 f).2.map (fun x => (8347681 * x) % q) := rfl

theorem ntt_length (f : List Int) (hf : f.length = 256) : (ntt f).length = 256 := by
  rw [ntt_eq, fwdFold_length, hf]

theorem nttInv_length (f : List Int) (hf : f.length = 256) : (nttInv f).length = 256 := by
  rw [nttInv_eq, List.length_map, bwdFold_length, hf]

theorem ntt_res (f : List Int) (hf : f.length = 256) : ∀ k < 256, res (ntt f) k = fwdT zt 8 (res f) k := by
  rw [ntt_eq]; exact fwdFold_cast bfly_cast zetas f hf 8 (by omega)

theorem map_at (l : List Int) (F : Int → Int) (k : Nat) (h : k < l.length) : at0 (l.map F) k = F (at0 l k) := by
  simp [at0, h]

theorem map_range_at (F : Nat → Int) (n k : Nat) (hk : k < n) : at0 ((List.range n).map F) k = F k := by
  simp [at0, hk]

theorem nttInv_res (f : List Int) (hf : f.length = 256) : ∀ k < 256, res (nttInv f) k = 8347681 * bwdT zt 8 (res f) k := by
  intro k hk
  have h := bwdFold_cast ibfly_cast zetas 8 (by omega) f hf k hk
  have hl := bwdFold_length ibfly zetas 8 f
  rw [← h, nttInv_eq]
  generalize (bwdFold ibfly zetas 8 f).2 = l at *
  simp only [res, castK]
  rw [map_at l _ k (by omega), cq]
  push_cast
  rfl

theorem ntt_range (f : List Int) (hf : f.length = 256) : ∀ k < 256, 0 ≤ at0 (ntt f) k ∧ at0 (ntt f) k < q := by
  rw [ntt_eq]
  exact fwdFold_range (P := fun x => 0 ≤ x ∧ x < q) (fun z a b => ⟨emod_q_range _, emod_q_range _⟩) zetas f hf 7 (by omega)

theorem nttInv_range (f : List Int) (hf : f.length = 256) : ∀ k < 256, 0 ≤ at0 (nttInv f) k ∧ at0 (nttInv f) k < q := by
  intro k hk
  have hl := bwdFold_length ibfly zetas 8 f
  rw [nttInv_eq]
  generalize (bwdFold ibfly zetas 8 f).2 = l at *
  rw [map_at l _ k (by omega)]
  exact emod_q_range _

theorem inv_table : InvTable zt 8 := by
  have h : ∀ t < 8, ∀ b < 2 ^ t, (at0 zetas (2 ^ t + b) * at0 zetas (2 ^ (t + 1) - 1 - b) + 1) % 8380417 = 0 := by
    decide +kernel
  intro t ht b hb
  have := h t ht b hb
  have h2 : (((at0 zetas (2 ^ t + b) * at0 zetas (2 ^ (t + 1) - 1 - b) + 1 : Int)) : Zq) = 0 := by
    rw [← cq]; unfold q; rw [this]; rfl
  simp only [res, zt, castK]
  push_cast at h2
  exact eq_neg_of_add_eq_zero_left h2

/-- The table with its unused entry 0 replaced by the value 1 that makes it a table of square roots. -/
def zt1 (k : Nat) : Zq := if k = 0 then 1 else zt k

theorem fwdT_zt1 (t : Nat) (F : Nat → Zq) : fwdT zt t F = fwdT zt1 t F := by
  induction t with
  | zero => rfl
  | succ t ih =>
    simp only [fwdT, ih]
    have : (fun b => zt (2 ^ t + b)) = fun b => zt1 (2 ^ t + b) := by
      funext b
      unfold zt1
      have := Nat.two_pow_pos t
      rw [if_neg (by omega)]
    rw [this]

/-- `zt1` and `cst zt1` on integers. -/
def zI (i : Nat) : Int := if i = 0 then 1 else at0 zetas i
def cstI (i : Nat) : Int := if i % 2 = 0 then zI (i / 2) else - zI (i / 2)

theorem zt1_zI (i : Nat) : zt1 i = ((zI i : Int) : Zq) := by
  unfold zt1 zI; split <;> simp [zt, castK]

theorem cst_cstI (i : Nat) : cst zt1 i = ((cstI i : Int) : Zq) := by
  simp only [cst, cstI, zt1_zI]
  split <;> simp

theorem sq_table : SqTable zt1 8 := by
  have h : ∀ i < 256, 1 ≤ i → (zI i * zI i - cstI i) % 8380417 = 0 := by decide +kernel
  intro i h1 h2
  have := h i h2 h1
  have h3 : (((zI i * zI i - cstI i : Int)) : Zq) = 0 := by
    rw [← cq]; unfold q; rw [this]; rfl
  rw [cst_cstI, zt1_zI]
  push_cast at h3 ⊢
  exact sub_eq_zero.mp h3

theorem inv256 : (8347681 : Zq) * 2 ^ 8 = 1 := by decide +kernel

theorem nttInv_ntt_res (f : List Int) (hf : f.length = 256) : ∀ k < 256, res (nttInv (ntt f)) k = res f k := by
  intro k hk
  rw [nttInv_res _ (ntt_length f hf) k hk,
    bwdT_congr zt 8 (by omega) _ _ (ntt_res f hf) k hk,
    bwdT_fwdT zt 8 (by omega) inv_table 8 (by omega) (res f) k hk, ← mul_assoc, inv256, one_mul]

theorem ntt_nttInv_res (f : List Int) (hf : f.length = 256) : ∀ k < 256, res (ntt (nttInv f)) k = res f k := by
  intro k hk
  rw [ntt_res _ (nttInv_length f hf) k hk, fwdT_congr zt 8 (by omega) _ _ (nttInv_res f hf) k hk]
  have e : fwdT zt 8 (fun k => 8347681 * bwdT zt 8 (res f) k) k = 8347681 * fwdT zt 8 (bwdT zt 8 (res f)) k := by
    rw [fwdT_smul]
  rw [e, fwdT_bwdT zt 8 (by omega) inv_table 8 (by omega) (res f) k hk, ← mul_assoc, inv256, one_mul]

theorem mulNtt_length (f g : List Int) : (mulNtt f g).length = 256 := by simp [mulNtt]

theorem mulNtt_at (f g : List Int) (k : Nat) (hk : k < 256) : at0 (mulNtt f g) k = (at0 f k * at0 g k) % q := by
  unfold mulNtt; rw [map_range_at _ _ _ hk]

theorem mulNtt_res (f g : List Int) : ∀ k < 256, res (mulNtt f g) k = res f k * res g k := by
  intro k hk
  simp only [res, castK]
  rw [mulNtt_at f g k hk, cq]; push_cast; rfl

theorem add_length (f g : List Int) : (add f g).length = f.length := by simp [add]
theorem sub_length (f g : List Int) : (sub f g).length = f.length := by simp [sub]
theorem neg_length (f : List Int) : (neg f).length = f.length := by simp [neg]

theorem add_at (f g : List Int) (k : Nat) (hk : k < f.length) : at0 (add f g) k = (at0 f k + at0 g k) % q := by
  unfold add; rw [map_range_at _ _ _ hk]
theorem sub_at (f g : List Int) (k : Nat) (hk : k < f.length) : at0 (sub f g) k = (at0 f k - at0 g k) % q := by
  unfold sub; rw [map_range_at _ _ _ hk]
theorem neg_at (f : List Int) (k : Nat) (hk : k < f.length) : at0 (neg f) k = (- at0 f k) % q := by
  unfold neg; rw [map_at _ _ _ hk]

theorem add_res (f g : List Int) (k : Nat) (hk : k < f.length) : res (add f g) k = res f k + res g k := by
  simp only [res, castK]; rw [add_at f g k hk, cq]; push_cast; rfl
theorem sub_res (f g : List Int) (k : Nat) (hk : k < f.length) : res (sub f g) k = res f k - res g k := by
  simp only [res, castK]; rw [sub_at f g k hk, cq]; push_cast; rfl

theorem ntt_mul_res (f g : List Int) (hf : f.length = 256) (hg : g.length = 256) :
    ∀ k < 256, res (mulNtt (ntt f) (ntt g)) k = fwdT zt 8 (negMul 256 (res f) (res g)) k := by
  intro k hk
  rw [mulNtt_res _ _ k hk, ntt_res f hf k hk, ntt_res g hg k hk]
  simp only [fwdT_zt1]
  exact (fwdT8_mul zt1 (by simp [zt1]) sq_table (res f) (res g) k hk).symm

/-- The transform turns pointwise products into products modulo `X^256 + 1`. -/
theorem nttInv_mul_res (f g : List Int) (hf : f.length = 256) (hg : g.length = 256) :
    ∀ k < 256, res (nttInv (mulNtt (ntt f) (ntt g))) k = negMul 256 (res f) (res g) k := by
  intro k hk
  rw [nttInv_res _ (mulNtt_length _ _) k hk, bwdT_congr zt 8 (by omega) _ _ (ntt_mul_res f g hf hg) k hk,
    bwdT_fwdT zt 8 (by omega) inv_table 8 (by omega) _ k hk, ← mul_assoc, inv256, one_mul]

/-! ### Linearity -/

theorem fwd_add (z : Nat → Zq) (le : Nat) (F G : Nat → Zq) : fwd z le (fun k => F k + G k) = fun k => fwd z le F k + fwd z le G k := by
  funext k; unfold fwd; split <;> ring

theorem fwdT_add (ζ : Nat → Zq) (t : Nat) (F G : Nat → Zq) :
    fwdT ζ t (fun k => F k + G k) = fun k => fwdT ζ t F k + fwdT ζ t G k := by
  induction t with
  | zero => rfl
  | succ t ih => simp only [fwdT, ih, fwd_add]

theorem fwdT_sub (ζ : Nat → Zq) (t : Nat) (F G : Nat → Zq) :
    fwdT ζ t (fun k => F k - G k) = fun k => fwdT ζ t F k - fwdT ζ t G k := by
  have h : (fun k => F k - G k) = fun k => F k + (-1) * G k := by funext k; ring
  rw [h, fwdT_add, fwdT_smul]
  funext k; ring

/-- Two lists with the same transform have the same residues. -/
theorem res_of_fwdT {F G : Nat → Zq} (h : ∀ k < 256, fwdT zt 8 F k = fwdT zt 8 G k) : ∀ k < 256, F k = G k := by
  intro k hk
  have h2 := bwdT_congr zt 8 (by omega) _ _ h k hk
  rw [bwdT_fwdT zt 8 (by omega) inv_table 8 (by omega) F k hk, bwdT_fwdT zt 8 (by omega) inv_table 8 (by omega) G k hk] at h2
  have h3 := congrArg (fun x => 8347681 * x) h2
  simpa only [← mul_assoc, inv256, one_mul] using h3

theorem fwdT_nttInv (f : List Int) (hf : f.length = 256) : ∀ k < 256, fwdT zt 8 (res (nttInv f)) k = res f k := by
  intro k hk
  rw [← ntt_res _ (nttInv_length f hf) k hk, ntt_nttInv_res f hf k hk]

theorem zeroPoly_length : zeroPoly.length = 256 := List.length_replicate

theorem zeroPoly_at (k : Nat) : at0 zeroPoly k = 0 := by
  unfold zeroPoly
  generalize 256 = n
  simp only [at0, List.getD_eq_getElem?_getD, List.getElem?_replicate]
  split <;> rfl

theorem matVec_length (P : Params) (m : Nat → Nat → List Int) (v : Nat → List Int) (i : Nat) : (matVec P m v i).length = 256 := by
  unfold matVec
  generalize P.ell = n
  induction n with
  | zero => exact zeroPoly_length
  | succ n ih => rw [List.range_succ, List.foldl_append]; simp only [List.foldl_cons, List.foldl_nil]; rw [add_length, ih]

theorem matVec_res (P : Params) (m : Nat → Nat → List Int) (v : Nat → List Int) (i : Nat) :
    ∀ k < 256, res (matVec P m v i) k = ∑ j ∈ range P.ell, res (m i j) k * res (v j) k := by
  intro k hk
  have hl : ∀ n, ((List.range n).foldl (fun w j => add w (mulNtt (m i j) (v j))) zeroPoly).length = 256 := by
    intro n
    induction n with
    | zero => exact zeroPoly_length
    | succ n ih => rw [List.range_succ, List.foldl_append]; simp only [List.foldl_cons, List.foldl_nil]; rw [add_length, ih]
  unfold matVec
  generalize P.ell = n
  induction n with
  | zero =>
    simp only [List.range_zero, List.foldl_nil, sum_range_zero, res, castK]
    rw [zeroPoly_at]; rfl
  | succ n ih =>
    rw [sum_range_succ, ← ih, List.range_succ, List.foldl_append]
    simp only [List.foldl_cons, List.foldl_nil]
    rw [add_res _ _ k (by rw [hl]; exact hk), mulNtt_res _ _ k hk]

end Verif.PQ.Dsa
