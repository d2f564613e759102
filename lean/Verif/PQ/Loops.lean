/-!
# In-place butterfly loops

The loops of `fips203.py`/`fips204.py` (`ntt`, `ntt_inverse`) read `f[j]` and `f[j + le]` and write both. This
file contains these loops on lists (Python lists with in-place assignment) and their pointwise meaning.
-/

namespace Verif.PQ

/-- `f[k]` of a Python list (only used inside the bounds; 0 outside). -/
abbrev at0 (f : List Int) (k : Nat) : Int := f.getD k 0

/-- The body of `for j in range(st, st + le)`: read `f[j]`, `f[j+le]`, write both. -/
def pairUpd (g : Int → Int → Int × Int) (le : Nat) (f : List Int) (j : Nat) : List Int :=
  (f.set (j + le) (g (at0 f j) (at0 f (j + le))).2).set j (g (at0 f j) (at0 f (j + le))).1

/-- `for j in range(st, st + n)`. -/
def blockLoop (g : Int → Int → Int × Int) (le st n : Nat) (f : List Int) : List Int :=
  (List.range' st n).foldl (pairUpd g le) f

/-- `for st in range(0, nb * 2 * le, 2 * le)` with the table value `z b` of the `b`-th block. -/
def layerLoop (g : Int → Int → Int → Int × Int) (z : Nat → Int) (le nb : Nat) (f : List Int) : List Int :=
  (List.range nb).foldl (fun f b => blockLoop (g (z b)) le (b * (2 * le)) le f) f

theorem at0_set (f : List Int) (i k : Nat) (v : Int) (h : i < f.length) :
    at0 (f.set i v) k = if k = i then v else at0 f k := by
  unfold at0
  by_cases hk : k = i
  · subst hk; simp [List.getD, h]
  · simp [List.getD, List.getElem?_set_ne (Ne.symm hk), hk]

theorem pairUpd_length (g le f j) : (pairUpd g le f j).length = f.length := by simp [pairUpd]

theorem pairUpd_at (g : Int → Int → Int × Int) (le : Nat) (f : List Int) (j k : Nat) (hle : 0 < le) (h : j + le < f.length) :
    at0 (pairUpd g le f j) k =
      if k = j then (g (at0 f j) (at0 f (j + le))).1
      else if k = j + le then (g (at0 f j) (at0 f (j + le))).2 else at0 f k := by
  unfold pairUpd
  rw [at0_set _ _ _ _ (by simp; omega), at0_set _ _ _ _ h]

theorem blockLoop_length (g le st n f) : (blockLoop g le st n f).length = f.length := by
  unfold blockLoop
  generalize List.range' st n = l
  induction l generalizing f with
  | nil => rfl
  | cons a l ih => rw [List.foldl_cons, ih, pairUpd_length]

theorem blockLoop_at (g : Int → Int → Int × Int) (le st n : Nat) (f : List Int) (hn : n ≤ le) (h : st + le + n ≤ f.length) (k : Nat) :
    at0 (blockLoop g le st n f) k =
      if st ≤ k ∧ k < st + n then (g (at0 f k) (at0 f (k + le))).1
      else if st + le ≤ k ∧ k < st + le + n then (g (at0 f (k - le)) (at0 f k)).2 else at0 f k := by
  induction n generalizing k with
  | zero => unfold blockLoop; simp; omega
  | succ n ih =>
    have hb : blockLoop g le st (n + 1) f = pairUpd g le (blockLoop g le st n f) (st + n) := by
      unfold blockLoop; rw [List.range'_concat, List.foldl_append]; simp
    have ih := ih (by omega) (by omega)
    rw [hb, pairUpd_at _ _ _ _ _ (by omega) (by rw [blockLoop_length]; omega)]
    rw [ih (st + n), ih (st + n + le), ih k]
    rw [if_neg (by omega : ¬ (st ≤ st + n ∧ st + n < st + n)), if_neg (by omega : ¬ (st + le ≤ st + n ∧ _)),
      if_neg (by omega : ¬ (st ≤ st + n + le ∧ st + n + le < st + n)), if_neg (by omega : ¬ (st + le ≤ st + n + le ∧ st + n + le < st + le + n))]
    by_cases h1 : k = st + n
    · subst h1; rw [if_pos rfl, if_pos (by omega)]
    · rw [if_neg h1]
      by_cases h2 : k = st + n + le
      · subst h2
        rw [if_pos rfl, if_neg (by omega), if_pos (by omega), Nat.add_sub_cancel]
      · rw [if_neg h2]
        by_cases h3 : st ≤ k ∧ k < st + n
        · rw [if_pos h3, if_pos (by omega)]
        · rw [if_neg h3, if_neg (by omega : ¬ (st ≤ k ∧ k < st + (n + 1)))]
          by_cases h4 : st + le ≤ k ∧ k < st + le + n
          · rw [if_pos h4, if_pos (by omega)]
          · rw [if_neg h4, if_neg (by omega)]

theorem layerLoop_succ (g z le nb f) : layerLoop g z le (nb + 1) f =
    blockLoop (g (z nb)) le (nb * (2 * le)) le (layerLoop g z le nb f) := by
  unfold layerLoop; rw [List.range_succ, List.foldl_append]; rfl

theorem layerLoop_length (g z le nb f) : (layerLoop g z le nb f).length = f.length := by
  induction nb with
  | zero => rfl
  | succ n ih => rw [layerLoop_succ, blockLoop_length, ih]

/-- What one layer computes. -/
def layerVal (g : Int → Int → Int → Int × Int) (z : Nat → Int) (le : Nat) (f : List Int) (k : Nat) : Int :=
  if (k / le) % 2 = 0 then (g (z (k / (2 * le))) (at0 f k) (at0 f (k + le))).1
  else (g (z (k / (2 * le))) (at0 f (k - le)) (at0 f k)).2

theorem layerLoop_at (g : Int → Int → Int → Int × Int) (z : Nat → Int) (le nb : Nat) (f : List Int) (hle : 0 < le)
    (h : nb * (2 * le) ≤ f.length) (k : Nat) :
    at0 (layerLoop g z le nb f) k = if k < nb * (2 * le) then layerVal g z le f k else at0 f k := by
  induction nb generalizing k with
  | zero => simp [layerLoop]
  | succ n ih =>
    have hs : (n + 1) * (2 * le) = n * (2 * le) + 2 * le := by rw [Nat.add_mul]; omega
    rw [hs] at h ⊢
    have ih := ih (by omega)
    rw [layerLoop_succ, blockLoop_at _ _ _ _ _ (Nat.le_refl _) (by rw [layerLoop_length]; omega)]
    generalize hst : n * (2 * le) = st at *
    have hst2 : st = (2 * n) * le := by rw [← hst, ← Nat.mul_assoc, Nat.mul_comm n 2]
    by_cases h1 : st ≤ k ∧ k < st + le
    · rw [if_pos h1, ih k, ih (k + le), if_neg (by omega), if_neg (by omega), if_pos (by omega)]
      have e1 : k / le = 2 * n := by
        apply Nat.div_eq_of_lt_le
        · omega
        · rw [Nat.add_mul]; omega
      have e2 : k / (2 * le) = n := by
        apply Nat.div_eq_of_lt_le
        · omega
        · rw [Nat.add_mul]; omega
      unfold layerVal
      rw [e1, e2, if_pos (by omega)]
    · rw [if_neg h1]
      by_cases h2 : st + le ≤ k ∧ k < st + le + le
      · rw [if_pos h2, ih k, ih (k - le), if_neg (by omega), if_neg (by omega), if_pos (by omega)]
        have e1 : k / le = 2 * n + 1 := by
          apply Nat.div_eq_of_lt_le
          · rw [Nat.add_mul]; omega
          · rw [Nat.add_mul, Nat.add_mul]; omega
        have e2 : k / (2 * le) = n := by
          apply Nat.div_eq_of_lt_le
          · omega
          · rw [Nat.add_mul]; omega
        unfold layerVal
        rw [e1, e2, if_neg (by omega)]
      · rw [if_neg h2, ih k]
        by_cases h3 : k < st
        · rw [if_pos h3, if_pos (by omega)]
        · rw [if_neg h3, if_neg (by omega)]

end Verif.PQ
