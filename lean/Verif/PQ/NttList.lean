import Verif.PQ.Loops
import Verif.PQ.NttTheory
import Mathlib.Data.ZMod.Basic

/-!
# From the list loops to the transform over `ZMod Q`

Both `fips203.py` and `fips204.py` run the same loops with different tables, moduli and depths.
-/

namespace Verif.PQ

variable (Q : Nat)

/-- The residue classes of a list of integers. -/
def castK (f : List Int) (k : Nat) : ZMod Q := ((at0 f k : Int) : ZMod Q)

/-- The forward loop: layers `t = 0 .. T-1`, the state is the table index and the list. -/
def fwdFold (g : Int → Int → Int → Int × Int) (tab : List Int) (T : Nat) (f : List Int) : Nat × List Int :=
  (List.range T).foldl (fun (s : Nat × List Int) t =>
    (s.1 + 2 ^ t, layerLoop g (fun b => at0 tab (s.1 + b)) (2 ^ (7 - t)) (2 ^ t) s.2)) (1, f)

/-- The inverse loop: layers `t = T-1 .. 0`. -/
def bwdFold (g : Int → Int → Int → Int × Int) (tab : List Int) (T : Nat) (f : List Int) : Nat × List Int :=
  (List.range T).reverse.foldl (fun (s : Nat × List Int) t =>
    (s.1 - 2 ^ t, layerLoop g (fun b => at0 tab (s.1 - b)) (2 ^ (7 - t)) (2 ^ t) s.2)) (2 ^ T - 1, f)

variable {Q}

theorem castK_layer_fwd {g : Int → Int → Int → Int × Int}
    (hg : ∀ z a b, (((g z a b).1 : Int) : ZMod Q) = a + z * b ∧ (((g z a b).2 : Int) : ZMod Q) = a - z * b)
    (z : Nat → Int) (t : Nat) (ht : t ≤ 7) (f : List Int) (hf : f.length = 256) (k : Nat) (hk : k < 256) :
    castK Q (layerLoop g z (2 ^ (7 - t)) (2 ^ t) f) k = fwd (fun b => ((z b : Int) : ZMod Q)) (2 ^ (7 - t)) (castK Q f) k := by
  have hp : 2 ^ t * (2 * 2 ^ (7 - t)) = 256 := by rw [Nat.mul_comm]; exact pow_split t ht
  unfold castK
  rw [layerLoop_at _ _ _ _ _ (Nat.two_pow_pos _) (by omega), if_pos (by omega)]
  unfold layerVal fwd
  split
  · rw [(hg _ _ _).1]
  · rw [(hg _ _ _).2]

theorem castK_layer_bwd {g : Int → Int → Int → Int × Int}
    (hg : ∀ z a b, (((g z a b).1 : Int) : ZMod Q) = a + b ∧ (((g z a b).2 : Int) : ZMod Q) = z * (b - a))
    (z : Nat → Int) (t : Nat) (ht : t ≤ 7) (f : List Int) (hf : f.length = 256) (k : Nat) (hk : k < 256) :
    castK Q (layerLoop g z (2 ^ (7 - t)) (2 ^ t) f) k = bwd (fun b => ((z b : Int) : ZMod Q)) (2 ^ (7 - t)) (castK Q f) k := by
  have hp : 2 ^ t * (2 * 2 ^ (7 - t)) = 256 := by rw [Nat.mul_comm]; exact pow_split t ht
  unfold castK
  rw [layerLoop_at _ _ _ _ _ (Nat.two_pow_pos _) (by omega), if_pos (by omega)]
  unfold layerVal bwd
  split
  · rw [(hg _ _ _).1]
  · rw [(hg _ _ _).2]

theorem fwdFold_succ (g tab T f) : fwdFold g tab (T + 1) f =
    ((fwdFold g tab T f).1 + 2 ^ T,
      layerLoop g (fun b => at0 tab ((fwdFold g tab T f).1 + b)) (2 ^ (7 - T)) (2 ^ T) (fwdFold g tab T f).2) := by
  unfold fwdFold; rw [List.range_succ, List.foldl_append]; rfl

theorem fwdFold_idx (g tab T f) : (fwdFold g tab T f).1 = 2 ^ T := by
  induction T with
  | zero => rfl
  | succ T ih => rw [fwdFold_succ]; simp only; rw [ih, pow_succ]; omega

theorem fwdFold_length (g tab T f) : (fwdFold g tab T f).2.length = f.length := by
  induction T with
  | zero => rfl
  | succ T ih => rw [fwdFold_succ]; simp only; rw [layerLoop_length, ih]

theorem fwdFold_cast {g : Int → Int → Int → Int × Int}
    (hg : ∀ z a b, (((g z a b).1 : Int) : ZMod Q) = a + z * b ∧ (((g z a b).2 : Int) : ZMod Q) = a - z * b)
    (tab : List Int) (f : List Int) (hf : f.length = 256) (T : Nat) (hT : T ≤ 8) :
    ∀ k < 256, castK Q (fwdFold g tab T f).2 k = fwdT (castK Q tab) T (castK Q f) k := by
  induction T with
  | zero => intro k _; rfl
  | succ T ih =>
    intro k hk
    rw [fwdFold_succ]
    simp only
    rw [castK_layer_fwd hg _ T (by omega) _ (by rw [fwdFold_length, hf]) k hk, fwdFold_idx]
    exact fwd_congr _ T (by omega) _ _ (ih (by omega)) k hk

theorem bwdFold_succ (g tab T f) : bwdFold g tab (T + 1) f =
    bwdFold g tab T (layerLoop g (fun b => at0 tab (2 ^ (T + 1) - 1 - b)) (2 ^ (7 - T)) (2 ^ T) f) := by
  unfold bwdFold
  rw [List.range_succ, List.reverse_append]
  simp only [List.reverse_cons, List.reverse_nil, List.nil_append, List.cons_append, List.foldl_cons]
  rw [show 2 ^ (T + 1) - 1 - 2 ^ T = 2 ^ T - 1 by rw [pow_succ]; omega]

theorem bwdFold_length (g tab T f) : (bwdFold g tab T f).2.length = f.length := by
  induction T generalizing f with
  | zero => rfl
  | succ T ih => rw [bwdFold_succ, ih, layerLoop_length]

theorem bwdFold_cast {g : Int → Int → Int → Int × Int}
    (hg : ∀ z a b, (((g z a b).1 : Int) : ZMod Q) = a + b ∧ (((g z a b).2 : Int) : ZMod Q) = z * (b - a))
    (tab : List Int) (T : Nat) (hT : T ≤ 8) (f : List Int) (hf : f.length = 256) :
    ∀ k < 256, castK Q (bwdFold g tab T f).2 k = bwdT (castK Q tab) T (castK Q f) k := by
  induction T generalizing f with
  | zero => intro k _; rfl
  | succ T ih =>
    intro k hk
    rw [bwdFold_succ, ih (by omega) _ (by rw [layerLoop_length, hf]) k hk]
    exact bwdT_congr _ T (by omega) _ _ (fun k hk => castK_layer_bwd hg _ T (by omega) f hf k hk) k hk

/-- After at least one layer all 256 entries are results of the butterfly. -/
theorem fwdFold_range {g : Int → Int → Int → Int × Int} {P : Int → Prop}
    (hg : ∀ z a b, P (g z a b).1 ∧ P (g z a b).2) (tab : List Int) (f : List Int) (hf : f.length = 256) (T : Nat) (hT : T < 8) :
    ∀ k < 256, P (at0 (fwdFold g tab (T + 1) f).2 k) := by
  intro k hk
  have hp : 2 ^ T * (2 * 2 ^ (7 - T)) = 256 := by rw [Nat.mul_comm]; exact pow_split T (by omega)
  rw [fwdFold_succ]
  simp only
  rw [layerLoop_at _ _ _ _ _ (Nat.two_pow_pos _) (by rw [fwdFold_length]; omega), if_pos (by omega)]
  unfold layerVal
  split
  · exact (hg _ _ _).1
  · exact (hg _ _ _).2

/-- Reduced integers with the same residue are equal. -/
theorem int_eq_of_cast {a b : Int} (ha : 0 ≤ a ∧ a < Q) (hb : 0 ≤ b ∧ b < Q) (h : (a : ZMod Q) = (b : ZMod Q)) : a = b := by
  rw [ZMod.intCast_eq_intCast_iff] at h
  have := h.eq
  rwa [Int.emod_eq_of_lt ha.1 ha.2, Int.emod_eq_of_lt hb.1 hb.2] at this

/-- Reduced lists of 256 integers with the same residues are equal. -/
theorem list_eq_of_cast {f g : List Int} (hf : f.length = 256) (hg : g.length = 256)
    (rf : ∀ k < 256, 0 ≤ at0 f k ∧ at0 f k < Q) (rg : ∀ k < 256, 0 ≤ at0 g k ∧ at0 g k < Q)
    (h : ∀ k < 256, castK Q f k = castK Q g k) : f = g := by
  apply List.ext_getElem (by omega)
  intro i h1 h2
  have := int_eq_of_cast (rf i (by omega)) (rg i (by omega)) (h i (by omega))
  simpa [at0, h1, h2] using this

theorem cast_emod (a : Int) : ((a % (Q : Int) : Int) : ZMod Q) = (a : ZMod Q) := by
  rw [ZMod.intCast_eq_intCast_iff]; exact Int.mod_modEq a Q

/-- Coefficient `k` of the product of two integer polynomials modulo `X^256 + 1`. -/
def prodCoeff (f g : List Int) (k : Nat) : Int :=
  ((List.range 256).map (fun i => if i ≤ k then at0 f i * at0 g (k - i) else - (at0 f i * at0 g (256 + k - i)))).sum

theorem prodCoeff_cast (f g : List Int) (k : Nat) : ((prodCoeff f g k : Int) : ZMod Q) = negMul 256 (castK Q f) (castK Q g) k := by
  unfold prodCoeff negMul
  generalize 256 = n
  have h : ∀ m : Nat, (((((List.range m).map (fun i => if i ≤ k then at0 f i * at0 g (k - i) else - (at0 f i * at0 g (n + k - i)))).sum : Int)) : ZMod Q) =
      ∑ i ∈ Finset.range m, if i ≤ k then castK Q f i * castK Q g (k - i) else - (castK Q f i * castK Q g (n + k - i)) := by
    intro m
    induction m with
    | zero => simp
    | succ m ih =>
      rw [List.range_succ, List.map_append, List.sum_append, Finset.sum_range_succ, ← ih]
      simp only [List.map_cons, List.map_nil, List.sum_cons, List.sum_nil, add_zero]
      rw [Int.cast_add]
      congr 1
      simp only [castK]
      split
      · rw [Int.cast_mul]
      · rw [Int.cast_neg, Int.cast_mul]
  exact h n

end Verif.PQ
