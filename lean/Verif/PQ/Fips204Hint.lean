import Verif.PQ.Fips204Codec

/-! The hint encoding of `fips204.py`. -/

namespace Verif.PQ.Dsa

open Verif.CA (Bytes PyErr)
open Verif.PQ.Kem (zeroPoly flatMap_congr')

/-- The positions of the ones of a row. -/
def ones (row : List Int) : List Nat := (List.range 256).filter (fun j => decide (at0 row j ≠ 0))

/-- The positions as bytes. -/
def onesB (row : List Int) : Bytes := (ones row).map UInt8.ofNat

/-- All positions of the first `i` rows. -/
def flat (h : Nat → List Int) (i : Nat) : Bytes := (List.range i).flatMap (fun j => onesB (h j))

/-- Their number. -/
def tot (h : Nat → List Int) (i : Nat) : Nat := (flat h i).length

theorem flat_succ (h : Nat → List Int) (i : Nat) : flat h (i + 1) = flat h i ++ onesB (h i) := by
  simp [flat, List.range_succ]

theorem tot_succ (h : Nat → List Int) (i : Nat) : tot h (i + 1) = tot h i + (ones (h i)).length := by
  simp [tot, flat_succ, onesB]

theorem tot_mono (h : Nat → List Int) {i j : Nat} (hij : i ≤ j) : tot h i ≤ tot h j := by
  induction hij with
  | refl => exact Nat.le_refl _
  | step _ ih => rw [tot_succ]; omega

theorem flat_congr {h g : Nat → List Int} {i : Nat} (e : ∀ j < i, h j = g j) : flat h i = flat g i :=
  flatMap_congr' (fun j hj => by rw [e j (List.mem_range.1 hj)])

theorem weight_ones (row : List Int) (n : Nat) (hr : row.length = n) :
    weight row = ((List.range n).filter (fun j => decide (at0 row j ≠ 0))).length := by
  conv => lhs; rw [← Kem.map_at0 row n hr]
  unfold weight
  clear hr
  induction n with
  | zero => rfl
  | succ n ih =>
    rw [List.range_succ, List.map_append, List.map_append, List.sum_append, ih, List.filter_append, List.length_append]
    congr 1
    simp only [List.map_cons, List.map_nil, List.sum_cons, List.sum_nil, List.filter_cons, List.filter_nil]
    generalize at0 row n = x
    by_cases h : x = 0 <;> simp [h]

theorem tot_weight (h : Nat → List Int) (n : Nat) (hl : ∀ i < n, (h i).length = 256) : weightVec n h = tot h n := by
  unfold weightVec
  induction n with
  | zero => rfl
  | succ n ih =>
    rw [List.range_succ, List.map_append, List.sum_append, ih (fun i hi => hl i (by omega)), tot_succ]
    simp only [List.map_cons, List.map_nil, List.sum_cons, List.sum_nil, Nat.add_zero]
    rw [weight_ones _ 256 (hl n (by omega))]
    rfl

/-- The byte string for the first `i` rows. -/
def enc (P : Params) (h : Nat → List Int) (i : Nat) : Bytes :=
  flat h i ++ List.replicate (P.omega - tot h i) 0 ++ (List.range i).map (fun j => UInt8.ofNat (tot h (j + 1)))
    ++ List.replicate (P.k - i) 0

theorem packRow_gen (p : Nat → Bool) (l : List Nat) (idx : Nat) (y : Bytes) (hy : idx + (l.filter p).length ≤ y.length) :
    l.foldl (fun (s : Nat × Bytes) j => if p j = true then (s.1 + 1, s.2.set s.1 (UInt8.ofNat j)) else s) (idx, y) =
      (idx + (l.filter p).length, y.take idx ++ (l.filter p).map UInt8.ofNat ++ y.drop (idx + (l.filter p).length)) := by
  induction l generalizing idx y with
  | nil => simp
  | cons j l ih =>
    rw [List.foldl_cons]
    by_cases hp : p j = true
    · simp only [hp, if_true, List.filter_cons_of_pos] at *
      simp only [List.length_cons] at hy
      rw [ih (idx + 1) _ (by simp; omega)]
      simp only [List.length_cons, List.map_cons, Prod.mk.injEq]
      refine ⟨by omega, ?_⟩
      have h1 : (y.set idx (UInt8.ofNat j)).take (idx + 1) = y.take idx ++ [UInt8.ofNat j] := by
        rw [List.take_set, List.take_add_one, List.getElem?_eq_getElem (by omega)]
        simp only [Option.toList]
        rw [List.set_append_right _ _ (by simp; omega)]
        simp [show min idx y.length = idx by omega]
      rw [h1, List.drop_set_of_lt (by omega)]
      simp only [List.append_assoc, List.cons_append, List.nil_append]
      rw [show idx + 1 + (l.filter p).length = idx + ((l.filter p).length + 1) by omega]
    · simp only [hp, Bool.false_eq_true, if_false, List.filter_cons] at *
      exact ih idx y hy

theorem hintPackRow_eq (row : List Int) (idx : Nat) (y : Bytes) (hy : idx + (ones row).length ≤ y.length) :
    hintPackRow row (idx, y) = (idx + (ones row).length, y.take idx ++ onesB row ++ y.drop (idx + (ones row).length)) := by
  have := packRow_gen (fun j => decide (at0 row j ≠ 0)) (List.range 256) idx y hy
  simp only [decide_eq_true_eq] at this
  exact this

theorem enc_length (P : Params) (h : Nat → List Int) (i : Nat) (hi : i ≤ P.k) (hw : tot h i ≤ P.omega) :
    (enc P h i).length = P.omega + P.k := by
  have : (flat h i).length = tot h i := rfl
  simp [enc, this]; omega

/-- The loops of `hint_bit_pack` produce `enc`. -/
theorem hintBitPack_eq (P : Params) (h : Nat → List Int) (hw : tot h P.k ≤ P.omega) : hintBitPack P h = enc P h P.k := by
  unfold hintBitPack
  have key : ∀ i ≤ P.k, (List.range i).foldl (fun (s : Nat × Bytes) i =>
      let s' := hintPackRow (h i) s
      (s'.1, s'.2.set (P.omega + i) (UInt8.ofNat s'.1))) (0, List.replicate (P.omega + P.k) 0) = (tot h i, enc P h i) := by
    intro i
    induction i with
    | zero =>
      intro _
      simp only [List.range_zero, List.foldl_nil, Prod.mk.injEq]
      refine ⟨rfl, ?_⟩
      simp [enc, flat, tot, List.replicate_append_replicate]
    | succ i ih =>
      intro hi
      have hm := tot_mono h hi
      have hs := tot_succ h i
      rw [List.range_succ, List.foldl_append, ih (by omega)]
      simp only [List.foldl_cons, List.foldl_nil]
      rw [hintPackRow_eq _ _ _ (by rw [enc_length P h i (by omega) (by omega)]; omega)]
      simp only [Prod.mk.injEq]
      refine ⟨hs.symm, ?_⟩
      have hfl : (flat h i).length = tot h i := rfl
      have e1 : (enc P h i).take (tot h i) = flat h i := by
        unfold enc
        simp only [List.append_assoc]
        rw [List.take_append_of_le_length (by omega), List.take_of_length_le (by omega)]
      have e2 : (enc P h i).drop (tot h i + (ones (h i)).length) = List.replicate (P.omega - tot h (i + 1)) 0 ++
          ((List.range i).map (fun j => UInt8.ofNat (tot h (j + 1))) ++ List.replicate (P.k - i) 0) := by
        unfold enc
        simp only [List.append_assoc]
        rw [List.drop_append, List.drop_eq_nil_of_le (by omega), List.nil_append, hfl,
          List.drop_append_of_le_length (by simp; omega), List.drop_replicate]
        congr 2
        omega
      rw [e1, e2, ← flat_succ, ← hs]
      unfold enc
      have e3 : List.replicate (P.k - i) (0 : UInt8) = 0 :: List.replicate (P.k - (i + 1)) 0 := by
        rw [show P.k - i = (P.k - (i + 1)) + 1 by omega, List.replicate_succ]
      have hfl' : (flat h (i + 1)).length = tot h (i + 1) := rfl
      rw [e3, List.set_append_right _ _ (by omega), List.set_append_right _ _ (by simp; omega),
        List.set_append_right _ _ (by simp; omega)]
      have e4 : P.omega + i - (flat h (i + 1)).length - (List.replicate (P.omega - tot h (i + 1)) (0 : UInt8)).length -
          ((List.range i).map (fun j => UInt8.ofNat (tot h (j + 1)))).length = 0 := by
        simp [hfl']; omega
      rw [e4, List.set_cons_zero, List.range_succ, List.map_append]
      simp
  rw [key P.k (Nat.le_refl _)]

/-! ### Unpacking -/

/-- Strictly increasing. -/
abbrev Inc (l : List Nat) : Prop := l.Pairwise (· < ·)

/-- The row with ones at the given positions. -/
def mark (l : List Nat) (row : List Int) : List Int := l.foldl (fun r b => r.set b 1) row

/-- The row loop on the list of the bytes it reads; `prev` is the preceding byte of the same row. -/
def rowList : Option Nat → List Nat → List Int → Option (List Int)
  | _, [], row => some row
  | none, b :: bs, row => rowList (some b) bs (row.set b 1)
  | some p, b :: bs, row => if b ≤ p then none else rowList (some b) bs (row.set b 1)

theorem hintRowLoop_eq (y : Bytes) (first : Nat) : ∀ (n idx : Nat) (row : List Int), first ≤ idx → idx + n ≤ y.length →
    hintRowLoop y first n idx row =
      rowList (if first < idx then some (y.getD (idx - 1) 0).toNat else none) (((y.drop idx).take n).map UInt8.toNat) row := by
  intro n
  induction n with
  | zero => intro idx row _ _; simp [hintRowLoop, rowList]
  | succ n ih =>
    intro idx row h1 h2
    have e : (y.drop idx).take (n + 1) = y[idx] :: (y.drop (idx + 1)).take n := by
      rw [List.drop_eq_getElem_cons (by omega), List.take_succ_cons]
    have e2 : y.getD idx 0 = y[idx] := by simp [List.getD_eq_getElem?_getD, List.getElem?_eq_getElem (show idx < y.length by omega)]
    have e3 := ih (idx + 1) (row.set y[idx].toNat 1) (by omega) (by omega)
    rw [if_pos (by omega), show idx + 1 - 1 = idx by omega, e2] at e3
    rw [e, List.map_cons, hintRowLoop, e2, e3]
    by_cases hf : first < idx
    · simp only [hf, true_and, if_true, rowList]
    · simp only [hf, false_and, if_false, rowList]

theorem rowList_eq (l : List Nat) : ∀ (prev : Option Nat) (row : List Int),
    rowList prev l row = if Inc (prev.toList ++ l) then some (mark l row) else none := by
  induction l with
  | nil => intro prev row; cases prev <;> simp [rowList, mark]
  | cons b bs ih =>
    intro prev row
    cases prev with
    | none => rw [rowList, ih]; rfl
    | some p =>
      rw [rowList, ih]
      by_cases hb : b ≤ p
      · rw [if_pos hb, if_neg]
        simp only [Option.toList, Inc, List.cons_append, List.nil_append, List.pairwise_cons]
        intro h
        have := h.1 b (by simp)
        omega
      · rw [if_neg hb]
        have : Inc ((some p).toList ++ b :: bs) ↔ Inc ((some b).toList ++ bs) := by
          simp only [Option.toList, Inc, List.cons_append, List.nil_append]
          rw [List.pairwise_cons]
          refine ⟨fun h => h.2, fun h => ⟨fun x hx => ?_, h⟩⟩
          rcases List.mem_cons.1 hx with rfl | hx
          · omega
          · have := (List.pairwise_cons.1 h).1 x hx
            omega
        simp only [this]
        rfl

/-- The bytes `y[a:b]` as numbers. -/
def seg (y : Bytes) (a b : Nat) : List Nat := ((y.drop a).take (b - a)).map UInt8.toNat

theorem rowLoop_spec (y : Bytes) (a b : Nat) (h : a ≤ b) (hb : b ≤ y.length) :
    hintRowLoop y a (b - a) a zeroPoly = if Inc (seg y a b) then some (mark (seg y a b) zeroPoly) else none := by
  rw [hintRowLoop_eq y a _ _ _ (Nat.le_refl _) (by omega), if_neg (by omega), rowList_eq]
  rfl

theorem mark_length (l : List Nat) (row : List Int) : (mark l row).length = row.length := by
  unfold mark
  induction l generalizing row with
  | nil => rfl
  | cons b bs ih => rw [List.foldl_cons, ih, List.length_set]

theorem mark_at (l : List Nat) (row : List Int) (j : Nat) (hj : j < row.length) :
    at0 (mark l row) j = if j ∈ l then 1 else at0 row j := by
  unfold mark
  induction l generalizing row with
  | nil => simp
  | cons b bs ih =>
    rw [List.foldl_cons, ih _ (by rw [List.length_set]; exact hj)]
    by_cases h1 : j ∈ bs
    · simp [h1]
    · by_cases h2 : j = b
      · subst h2
        simp only [h1, if_false, List.mem_cons, true_or, if_true, at0, List.getD_eq_getElem?_getD]
        rw [List.getElem?_set_self hj]; rfl
      · simp only [h1, if_false, List.mem_cons, h2, or_self, at0, List.getD_eq_getElem?_getD]
        rw [List.getElem?_set_ne (fun h => h2 h.symm)]

/-- A row of a hint. -/
def IsRow (row : List Int) : Prop := row.length = 256 ∧ ∀ x ∈ row, x = 0 ∨ x = 1

theorem zero_at (j : Nat) : at0 zeroPoly j = 0 := by
  unfold zeroPoly
  generalize 256 = n
  simp only [at0, List.getD_eq_getElem?_getD, List.getElem?_replicate]
  split <;> rfl

theorem zero_length : zeroPoly.length = 256 := List.length_replicate

theorem mark_isRow (l : List Nat) : IsRow (mark l zeroPoly) := by
  refine ⟨by rw [mark_length, zero_length], fun x hx => ?_⟩
  obtain ⟨i, hi, rfl⟩ := List.getElem_of_mem hx
  have := mark_at l zeroPoly i (by rwa [mark_length] at hi)
  rw [zero_at] at this
  have e : at0 (mark l zeroPoly) i = (mark l zeroPoly)[i] := by
    simp [at0, List.getD_eq_getElem?_getD, List.getElem?_eq_getElem hi]
  rw [← e, this]
  split <;> simp

theorem filter_mem_range' (n : Nat) : ∀ (a : Nat) (l : List Nat), Inc l → (∀ x ∈ l, a ≤ x ∧ x < a + n) →
    (List.range' a n).filter (fun j => decide (j ∈ l)) = l := by
  induction n with
  | zero =>
    intro a l _ h
    cases l with
    | nil => rfl
    | cons b l => have := h b (by simp); omega
  | succ n ih =>
    intro a l hl h
    rw [List.range'_succ]
    cases l with
    | nil => simp
    | cons b l =>
      have hp := List.pairwise_cons.1 hl
      by_cases hb : b = a
      · subst hb
        rw [List.filter_cons_of_pos (by simp)]
        congr 1
        rw [← ih (b + 1) l hp.2 (fun x hx => ⟨hp.1 x hx, by have := h x (by simp [hx]); omega⟩)]
        apply List.filter_congr
        intro x hx
        have := (List.mem_range'_1.1 hx).1
        rw [ih (b + 1) l hp.2 (fun x hx => ⟨hp.1 x hx, by have := h x (by simp [hx]); omega⟩)]
        simp only [List.mem_cons, decide_eq_decide]
        constructor
        · rintro (rfl | h)
          · omega
          · exact h
        · exact fun h => .inr h
      · have hba := h b (by simp)
        have hna : a ∉ b :: l := by
          intro hm
          rcases List.mem_cons.1 hm with h1 | h1
          · exact hb h1.symm
          · have := hp.1 a h1; omega
        rw [List.filter_cons_of_neg (by simpa using hna)]
        exact ih (a + 1) (b :: l) hl (fun x hx => by
          have h1 := h x hx
          rcases List.mem_cons.1 hx with rfl | hx
          · omega
          · have := hp.1 x hx; omega)

theorem ones_mark (l : List Nat) (hl : Inc l) (h : ∀ x ∈ l, x < 256) : ones (mark l zeroPoly) = l := by
  unfold ones
  rw [List.range_eq_range']
  refine Eq.trans ?_ (filter_mem_range' 256 0 l hl (fun x hx => ⟨by omega, by have := h x hx; omega⟩))
  apply List.filter_congr
  intro j hj
  have hj := (List.mem_range'_1.1 hj).2
  rw [mark_at l zeroPoly j (by rw [zero_length]; omega), zero_at]
  by_cases hm : j ∈ l <;> simp [hm]

theorem ones_inc (row : List Int) : Inc (ones row) := List.Pairwise.filter _ List.pairwise_lt_range

theorem ones_lt (row : List Int) : ∀ x ∈ ones row, x < 256 := fun _ hx => List.mem_range.1 (List.mem_filter.1 hx).1

theorem mark_ones (row : List Int) (h : IsRow row) : mark (ones row) zeroPoly = row := by
  apply List.ext_getElem
  · rw [mark_length, zero_length, h.1]
  · intro i h1 h2
    have hi : i < 256 := by rw [← h.1]; exact h2
    have := mark_at (ones row) zeroPoly i (by rw [zero_length]; exact hi)
    rw [zero_at] at this
    have e1 : at0 (mark (ones row) zeroPoly) i = (mark (ones row) zeroPoly)[i] := by
      simp [at0, List.getD_eq_getElem?_getD, List.getElem?_eq_getElem h1]
    have e2 : at0 row i = row[i] := by simp [at0, List.getD_eq_getElem?_getD, List.getElem?_eq_getElem h2]
    rw [← e1, this, ← e2]
    have hm : i ∈ ones row ↔ at0 row i ≠ 0 := by
      unfold ones; rw [List.mem_filter, List.mem_range, decide_eq_true_eq]; exact ⟨fun h => h.2, fun h => ⟨hi, h⟩⟩
    simp only [hm]
    have := h.2 _ (List.getElem_mem h2)
    rw [← e2] at this
    generalize at0 row i = x at *
    rcases this with h | h <;> simp [h]

theorem map_ofNat_toNat (l : Bytes) : (l.map UInt8.toNat).map UInt8.ofNat = l := by
  rw [List.map_map]
  conv => rhs; rw [← List.map_id l]
  apply List.map_congr_left
  intro x _
  simp

theorem map_toNat_ofNat (l : List Nat) (h : ∀ x ∈ l, x < 256) : (l.map UInt8.ofNat).map UInt8.toNat = l := by
  rw [List.map_map]
  conv => rhs; rw [← List.map_id l]
  apply List.map_congr_left
  intro x hx
  have := h x hx
  simp only [Function.comp, UInt8.toNat_ofNat', id]
  omega

/-! ### Unpacking a packed hint -/

theorem enc_count (P : Params) (h : Nat → List Int) (hw : tot h P.k ≤ P.omega) (i : Nat) (hi : i < P.k) :
    (enc P h P.k)[P.omega + i]? = some (UInt8.ofNat (tot h (i + 1))) := by
  have hfl : (flat h P.k).length = tot h P.k := rfl
  unfold enc
  rw [List.getElem?_append_left (by simp [hfl]; omega), List.getElem?_append_right (by simp [hfl]; omega)]
  simp only [List.length_append, List.length_replicate, hfl]
  rw [show P.omega + i - (tot h P.k + (P.omega - tot h P.k)) = i by omega]
  simp [hi]

theorem flat_take (h : Nat → List Int) {i k : Nat} (hi : i ≤ k) : ∃ r, flat h k = flat h i ++ r := by
  induction hi with
  | refl => exact ⟨[], by simp⟩
  | step _ ih =>
    obtain ⟨r, hr⟩ := ih
    exact ⟨r ++ onesB (h _), by rw [Nat.succ_eq_add_one, flat_succ, hr, List.append_assoc]⟩

theorem seg_enc (P : Params) (h : Nat → List Int) (i : Nat) (hi : i < P.k) :
    seg (enc P h P.k) (tot h i) (tot h (i + 1)) = ones (h i) := by
  obtain ⟨r, hr⟩ := flat_take h (show i + 1 ≤ P.k from hi)
  have hfl : (flat h i).length = tot h i := rfl
  have hs := tot_succ h i
  have hol : (onesB (h i)).length = (ones (h i)).length := by simp [onesB]
  unfold seg enc
  rw [hr, flat_succ]
  simp only [List.append_assoc]
  rw [List.drop_append, List.drop_eq_nil_of_le (by omega), List.nil_append, hfl, Nat.sub_self, List.drop_zero,
    List.take_append_of_le_length (by omega), List.take_of_length_le (by omega)]
  exact map_toNat_ofNat _ (ones_lt _)

theorem hintRows_enc (P : Params) (h : Nat → List Int) (hw : tot h P.k ≤ P.omega) (ho : P.omega < 256)
    (hr : ∀ i < P.k, IsRow (h i)) : ∀ (n i : Nat), i + n = P.k →
    hintRows P (enc P h P.k) n i (tot h i) ((List.range i).map h) = .ok (some (tot h P.k, (List.range P.k).map h)) := by
  intro n
  induction n with
  | zero => intro i hi; obtain rfl : i = P.k := by omega
            rfl
  | succ n ih =>
    intro i hi
    have hm := tot_mono h (show i + 1 ≤ P.k by omega)
    have hm2 := tot_mono h (show i ≤ i + 1 by omega)
    have hc : (UInt8.ofNat (tot h (i + 1))).toNat = tot h (i + 1) := by rw [UInt8.toNat_ofNat']; omega
    rw [hintRows, enc_count P h hw i (by omega)]
    simp only [hc]
    rw [if_neg (by omega), rowLoop_spec _ _ _ hm2 (by rw [enc_length P h P.k (Nat.le_refl _) hw]; omega),
      seg_enc P h i (by omega), if_pos (ones_inc _), mark_ones _ (hr i (by omega))]
    simp only
    have := ih (i + 1) (by omega)
    rw [List.range_succ, List.map_append] at this
    exact this

theorem hintUnpack_pack (P : Params) (h : Nat → List Int) (hw : tot h P.k ≤ P.omega) (ho : P.omega < 256)
    (hr : ∀ i < P.k, IsRow (h i)) : hintBitUnpack P (hintBitPack P h) = .ok (some ((List.range P.k).map h)) := by
  rw [hintBitPack_eq P h hw]
  unfold hintBitUnpack
  have := hintRows_enc P h hw ho hr P.k 0 (by omega)
  have e0 : tot h 0 = 0 := rfl
  rw [e0] at this
  simp only [List.range_zero, List.map_nil] at this
  rw [this]
  simp only
  rw [if_pos]
  rw [List.all_eq_true]
  intro i hi
  have hi := List.mem_range.1 hi
  by_cases hlt : i < tot h P.k
  · simp [hlt]
  · simp only [hlt, decide_false, Bool.false_or, beq_iff_eq]
    have hfl : (flat h P.k).length = tot h P.k := rfl
    unfold enc
    simp only [List.append_assoc, List.getD_eq_getElem?_getD]
    rw [List.getElem?_append_right (by omega), List.getElem?_append_left (by simp; omega), List.getElem?_replicate]
    split <;> rfl

/-! ### Packing an unpacked hint -/

/-- What is known after `i` rows of `hint_bit_unpack`. -/
structure Good (P : Params) (y : Bytes) (i idx : Nat) (rows : List (List Int)) : Prop where
  len : rows.length = i
  le : idx ≤ P.omega
  row : ∀ j < i, IsRow (rows.getD j [])
  flat : flat (fun j => rows.getD j []) i = y.take idx
  cnt : ∀ j < i, y[P.omega + j]? = some (UInt8.ofNat (tot (fun j => rows.getD j []) (j + 1)))

theorem seg_take (y : Bytes) (a b : Nat) (h : a ≤ b) : y.take a ++ (seg y a b).map UInt8.ofNat = y.take b := by
  unfold seg
  rw [map_ofNat_toNat]
  have : b = a + (b - a) := by omega
  conv => rhs; rw [this, List.take_add]

theorem good_step {P : Params} {y : Bytes} {i idx : Nat} {rows : List (List Int)} (g : Good P y i idx rows)
    (hy : y.length = P.omega + P.k) (c : UInt8) (hc : y[P.omega + i]? = some c) (h1 : idx ≤ c.toNat) (h2 : c.toNat ≤ P.omega)
    (hinc : Inc (seg y idx c.toNat)) : Good P y (i + 1) c.toNat (rows ++ [mark (seg y idx c.toNat) zeroPoly]) := by
  have hold : ∀ j < i, (rows ++ [mark (seg y idx c.toNat) zeroPoly]).getD j [] = rows.getD j [] := by
    intro j hj
    simp only [List.getD_eq_getElem?_getD]
    rw [List.getElem?_append_left (by rw [g.len]; exact hj)]
  have hnew : (rows ++ [mark (seg y idx c.toNat) zeroPoly]).getD i [] = mark (seg y idx c.toNat) zeroPoly := by
    simp only [List.getD_eq_getElem?_getD]
    rw [List.getElem?_append_right (by rw [g.len]; omega), g.len, Nat.sub_self]
    rfl
  have hlt : ∀ x ∈ seg y idx c.toNat, x < 256 := by
    intro x hx
    unfold seg at hx
    obtain ⟨b, _, rfl⟩ := List.mem_map.1 hx
    exact b.toNat_lt
  have hflat : flat (fun j => (rows ++ [mark (seg y idx c.toNat) zeroPoly]).getD j []) (i + 1) = y.take c.toNat := by
    rw [flat_succ]
    simp only [hnew]
    rw [flat_congr (g := fun j => rows.getD j []) hold, g.flat]
    unfold onesB
    rw [ones_mark _ hinc hlt]
    exact seg_take y idx c.toNat h1
  refine ⟨by simp [g.len], h2, ?_, hflat, ?_⟩
  · intro j hj
    by_cases hji : j < i
    · rw [hold j hji]; exact g.row j hji
    · obtain rfl : j = i := by omega
      rw [hnew]; exact mark_isRow _
  · intro j hj
    by_cases hji : j < i
    · rw [g.cnt j hji]
      unfold tot
      rw [flat_congr (h := fun j => (rows ++ [mark (seg y idx c.toNat) zeroPoly]).getD j []) (g := fun j => rows.getD j [])
        (fun l hl => hold l (by omega))]
    · obtain rfl : j = i := by omega
      rw [hc]
      unfold tot
      rw [hflat, List.length_take, Nat.min_eq_left (by omega)]
      simp

theorem hintRows_good {P : Params} {y : Bytes} (hy : y.length = P.omega + P.k) : ∀ (n i idx : Nat) (rows : List (List Int))
    (r : Nat × List (List Int)), Good P y i idx rows → hintRows P y n i idx rows = .ok (some r) → Good P y (i + n) r.1 r.2 := by
  intro n
  induction n with
  | zero =>
    intro i idx rows r g h
    simp only [hintRows, Except.ok.injEq, Option.some.injEq] at h
    subst h
    exact g
  | succ n ih =>
    intro i idx rows r g h
    rw [hintRows] at h
    split at h
    · simp at h
    · rename_i c hc
      split at h
      · simp at h
      · rename_i hcc
        have h1 : idx ≤ c.toNat := by omega
        have h2 : c.toNat ≤ P.omega := by omega
        rw [rowLoop_spec y idx c.toNat h1 (by omega)] at h
        by_cases hinc : Inc (seg y idx c.toNat)
        · rw [if_pos hinc] at h
          simp only at h
          have := ih (i + 1) _ _ r (good_step g hy c hc h1 h2 hinc) h
          rwa [show i + 1 + n = i + (n + 1) by omega] at this
        · rw [if_neg hinc] at h
          simp at h

/-- What a successful `hint_bit_unpack` returns. -/
theorem hintUnpack_sound {P : Params} {y : Bytes} (hy : y.length = P.omega + P.k) {rows : List (List Int)}
    (h : hintBitUnpack P y = .ok (some rows)) :
    rows.length = P.k ∧ (∀ i < P.k, IsRow (rows.getD i [])) ∧ tot (fun i => rows.getD i []) P.k ≤ P.omega ∧
      hintBitPack P (fun i => rows.getD i []) = y := by
  unfold hintBitUnpack at h
  split at h
  · simp at h
  · simp at h
  · rename_i idx hh hr
    split at h
    · rename_i hz
      simp only [Except.ok.injEq, Option.some.injEq] at h
      subst h
      have g0 : Good P y 0 0 [] := ⟨rfl, by omega, fun j hj => by omega, by simp [flat], fun j hj => by omega⟩
      have g := hintRows_good hy P.k 0 0 [] _ g0 hr
      rw [Nat.zero_add] at g
      simp only at g
      have hle := g.le
      have htot : tot (fun j => hh.getD j []) P.k = idx := by
        unfold tot; rw [g.flat, List.length_take, Nat.min_eq_left (by omega)]
      refine ⟨g.len, g.row, by omega, ?_⟩
      rw [hintBitPack_eq P _ (by omega)]
      unfold enc
      rw [g.flat, htot, Nat.sub_self, List.replicate_zero, List.append_nil]
      apply List.ext_getElem?
      intro j
      by_cases h1 : j < idx
      · rw [List.append_assoc, List.getElem?_append_left (by rw [List.length_take]; omega), List.getElem?_take_of_lt h1]
      · by_cases h2 : j < P.omega
        · rw [List.append_assoc, List.getElem?_append_right (by rw [List.length_take]; omega),
            List.getElem?_append_left (by rw [List.length_take, List.length_replicate]; omega), List.getElem?_replicate,
            List.length_take, if_pos (by omega)]
          have := List.all_eq_true.1 hz j (List.mem_range.2 h2)
          simp only [h1, decide_false, Bool.false_or, beq_iff_eq, List.getD_eq_getElem?_getD] at this
          rw [List.getElem?_eq_getElem (by omega)] at this ⊢
          simp at this
          rw [this]
        · rw [List.getElem?_append_right (by rw [List.length_append, List.length_take, List.length_replicate]; omega)]
          rw [List.length_append, List.length_take, List.length_replicate]
          by_cases h3 : j < P.omega + P.k
          · have := g.cnt (j - P.omega) (by omega)
            rw [show P.omega + (j - P.omega) = j by omega] at this
            rw [this, show j - (min idx y.length + (P.omega - idx)) = j - P.omega by omega]
            rw [List.getElem?_map,
              List.getElem?_range (by omega)]
            rfl
          · rw [List.getElem?_eq_none (by rw [List.length_map, List.length_range]; omega),
              List.getElem?_eq_none (by omega)]
    · simp at h

end Verif.PQ.Dsa
