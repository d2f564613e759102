import Verif.PQ.Fips205

/-!
# Lemmas on conversions, digits and addresses of SLH-DSA
-/

namespace Verif.PQ.Slh

open Verif.CA (Bytes PyErr)

/-! ## Loops -/

theorem forRange_inv {σ : Type} (body : Nat → σ → Except PyErr σ) (I : Nat → σ → Prop) (n : Nat) (s : σ) (h0 : I 0 s)
    (hs : ∀ i s, i < n → I i s → ∃ s', body i s = .ok s' ∧ I (i + 1) s') : ∃ s', forRange body n s = .ok s' ∧ I n s' := by
  induction n with
  | zero => exact ⟨s, rfl, h0⟩
  | succ n ih =>
    obtain ⟨s1, e1, i1⟩ := ih (fun i s hi => hs i s (by omega))
    obtain ⟨s2, e2, i2⟩ := hs n s1 (by omega) i1
    exact ⟨s2, by simp only [forRange, e1]; exact e2, i2⟩

theorem forRange_succ {σ : Type} (body : Nat → σ → Except PyErr σ) (n : Nat) (s : σ) :
    forRange body (n + 1) s = (forRange body n s).bind (body n) := by
  rw [forRange]
  cases forRange body n s <;> rfl

/-! ## Numbers and bytes -/

/-- The big-endian value of a byte string (specification). -/
def val (b : Bytes) : Nat := b.foldl (fun t b => t * 256 + b.toNat) 0

theorem foldl_val (b : Bytes) (t : Nat) : b.foldl (fun t b => t * 256 + b.toNat) t = t * 256 ^ b.length + val b := by
  induction b generalizing t with
  | nil => simp [val]
  | cons x b ih =>
    have e : val (x :: b) = x.toNat * 256 ^ b.length + val b := by
      rw [show val (x :: b) = b.foldl (fun t b => t * 256 + b.toNat) (0 * 256 + x.toNat) from rfl, ih, Nat.zero_mul, Nat.zero_add]
    rw [List.foldl_cons, ih, e, List.length_cons, Nat.pow_succ, Nat.add_mul, Nat.mul_assoc, Nat.mul_comm 256, Nat.add_assoc]

theorem val_append (a b : Bytes) : val (a ++ b) = val a * 256 ^ b.length + val b := by
  unfold val; rw [List.foldl_append, foldl_val]; rfl

theorem val_nil : val [] = 0 := rfl

theorem val_single (x : UInt8) : val [x] = x.toNat := by simp [val]

theorem val_lt (b : Bytes) : val b < 256 ^ b.length := by
  induction b with
  | nil => simp [val]
  | cons x b ih =>
    have : val (x :: b) = x.toNat * 256 ^ b.length + val b := by
      have := val_append [x] b
      rw [val_single] at this
      exact this
    rw [this, List.length_cons, Nat.pow_succ]
    have hx := x.toNat_lt
    have : x.toNat * 256 ^ b.length ≤ 255 * 256 ^ b.length := Nat.mul_le_mul_right _ (by omega)
    omega

theorem fromBytes_eq (b : Bytes) : fromBytes b = val b := rfl

theorem toInt_ok (s : Bytes) (n : Nat) (h : n ≤ s.length) : toInt s n = .ok (val (s.take n)) := by
  unfold toInt; rw [if_neg (by omega)]; rfl

theorem toByte_length (x n : Nat) : (toByte x n).length = n := by
  induction n generalizing x with
  | zero => rfl
  | succ n ih => simp [toByte, ih]

theorem val_toByte (x n : Nat) : val (toByte x n) = x % 256 ^ n := by
  induction n generalizing x with
  | zero => simp [toByte, val, Nat.mod_one]
  | succ n ih =>
    rw [toByte, val_append, ih, val_single]
    simp only [List.length_singleton, Nat.pow_one]
    rw [UInt8.toNat_ofNat_of_lt' (by simp [UInt8.size]; omega), Nat.pow_succ, Nat.mul_comm (256 ^ n) 256, Nat.mod_mul]
    omega

theorem toByte_val (b : Bytes) : toByte (val b) b.length = b := by
  have key : ∀ n (b : Bytes), b.length = n → toByte (val b) n = b := by
    intro n
    induction n with
    | zero => intro b h; rw [List.eq_nil_of_length_eq_zero h]; rfl
    | succ n ih =>
      intro b h
      have hne : b ≠ [] := by intro e; rw [e] at h; simp at h
      obtain ⟨a, x, rfl⟩ : ∃ a x, b = a ++ [x] := ⟨b.dropLast, b.getLast hne, (List.dropLast_concat_getLast hne).symm⟩
      have hl : a.length = n := by simpa using h
      rw [toByte, val_append, val_single]
      simp only [List.length_singleton, Nat.pow_one]
      have hx := x.toNat_lt
      have e1 : (val a * 256 + x.toNat) / 256 = val a := by omega
      have e2 : (val a * 256 + x.toNat) % 256 = x.toNat := by omega
      rw [e1, e2, ih a hl]
      simp
  exact key _ b rfl

theorem val_injective (a b : Bytes) (hl : a.length = b.length) (h : val a = val b) : a = b := by
  rw [← toByte_val a, ← toByte_val b, h, hl]

/-! ## Digits -/

/-- The `j`-th of the big-endian base-2^b digits of a `bits`-bit number `x` (specification). -/
def digit (x bits b j : Nat) : Nat := x / 2 ^ (bits - b * (j + 1)) % 2 ^ b

theorem val_take (s : Bytes) (i : Nat) : val (s.take i) = val s / 256 ^ (s.length - i) := by
  have e : val s = val (s.take i) * 256 ^ (s.drop i).length + val (s.drop i) := by
    rw [← val_append, List.take_append_drop]
  have hl := val_lt (s.drop i)
  rw [List.length_drop] at e hl
  rw [e, Nat.mul_comm, Nat.mul_add_div (Nat.pow_pos (by omega)), Nat.div_eq_of_lt hl, Nat.add_zero]

theorem val_take_succ (s : Bytes) (i : Nat) (x : UInt8) (h : s[i]? = some x) :
    val (s.take (i + 1)) = val (s.take i) * 256 + x.toNat := by
  rw [List.take_add_one, h]
  simp [val_append, val_single]

theorem refill_spec (s : Bytes) (b : Nat) : ∀ (fuel i c t : Nat), i ≤ s.length → t = val (s.take i) → b ≤ c + 8 * fuel →
    (c < b → b - c ≤ 8 * (s.length - i)) →
    ∃ i' c', refill s b fuel (i, c, t) = .ok (i', c', val (s.take i')) ∧ i' ≤ s.length ∧ b ≤ c' ∧ 8 * i' + c = 8 * i + c' := by
  intro fuel
  induction fuel with
  | zero => intro i c t hi ht hb hc; exact ⟨i, c, by rw [refill, ht], hi, by omega, by omega⟩
  | succ fuel ih =>
    intro i c t hi ht hb hc
    rw [refill]
    by_cases h : c < b
    · rw [if_pos h]
      have hlt : i < s.length := by have := hc h; omega
      rw [List.getElem?_eq_getElem hlt]
      simp only
      obtain ⟨i', c', e, h1, h2, h3⟩ := ih (i + 1) (c + 8) (t * 256 + s[i].toNat) (by omega)
        (by rw [val_take_succ s i s[i] (List.getElem?_eq_getElem hlt), ht]) (by omega) (fun h' => by have := hc h; omega)
      exact ⟨i', c', e, h1, h2, by omega⟩
    · rw [if_neg h, ht]
      exact ⟨i, c, rfl, hi, by omega, rfl⟩

theorem pow256 (n : Nat) : 256 ^ n = 2 ^ (8 * n) := by rw [Nat.pow_mul]

/-- `base_2b` yields the digits. -/
theorem base2b_spec (s : Bytes) (b outLen : Nat) (h : b * outLen ≤ 8 * s.length) :
    base2b s b outLen = .ok ((List.range outLen).map (digit (val s) (8 * s.length) b)) := by
  unfold base2b
  obtain ⟨st, e, i1, i2, i3, i4, i5⟩ := forRange_inv (fun _ st => digitStep s b st)
    (fun j (st : (Nat × Nat × Nat) × List Nat) => st.1.1 ≤ s.length ∧ st.1.2.2 = val (s.take st.1.1) ∧
      8 * st.1.1 = b * j + st.1.2.1 ∧ st.2 = (List.range j).map (digit (val s) (8 * s.length) b) ∧ True) outLen ((0, 0, 0), [])
    ⟨Nat.zero_le _, by simp [val], by simp, rfl, trivial⟩ (by
      intro j st hj ⟨h1, h2, h3, h4, _⟩
      obtain ⟨⟨i, c, t⟩, v⟩ := st
      simp only at h1 h2 h3 h4 ⊢
      have hm : b * (j + 1) ≤ b * outLen := Nat.mul_le_mul_left b (by omega)
      rw [Nat.mul_add] at hm
      obtain ⟨i', c', e, g1, g2, g3⟩ := refill_spec s b b i c t h1 h2 (by omega) (fun hc => by omega)
      unfold digitStep
      simp only [e]
      refine ⟨_, rfl, g1, rfl, ?_, ?_, trivial⟩
      · show 8 * i' = b * (j + 1) + (c' - b)
        rw [Nat.mul_add]; omega
      · show v ++ _ = _
        rw [h4, List.range_succ, List.map_append]
        congr 1
        simp only [List.map_cons, List.map_nil]
        unfold digit
        rw [val_take s i', pow256, Nat.div_div_eq_div_mul, ← Nat.pow_add]
        congr 3
        have : 8 * (s.length - i') + (c' - b) = 8 * s.length - b * (j + 1) := by
          rw [Nat.mul_add]; omega
        rw [this])
  rw [e]
  simp only [i4]

theorem digit_lt (x bits b j : Nat) : digit x bits b j < 2 ^ b := Nat.mod_lt _ (Nat.two_pow_pos b)

/-- The value of a list of digits, big-endian (specification). -/
def digitsVal (b : Nat) (l : List Nat) : Nat := l.foldl (fun t d => t * 2 ^ b + d) 0

theorem digitsVal_snoc (b : Nat) (l : List Nat) (x : Nat) : digitsVal b (l ++ [x]) = digitsVal b l * 2 ^ b + x := by
  unfold digitsVal; rw [List.foldl_append]; rfl

/-- The digits determine the leading bits. -/
theorem digitsVal_digits (x bits b n : Nat) (h : b * n ≤ bits) :
    digitsVal b ((List.range n).map (digit x bits b)) = x / 2 ^ (bits - b * n) % 2 ^ (b * n) := by
  induction n with
  | zero => simp [digitsVal, Nat.mod_one]
  | succ n ih =>
    have hh : b * (n + 1) = b * n + b := Nat.mul_succ b n
    rw [List.range_succ, List.map_append]
    simp only [List.map_cons, List.map_nil]
    rw [digitsVal_snoc, ih (by omega)]
    unfold digit
    rw [hh]
    have e : x / 2 ^ (bits - b * n) = x / 2 ^ (bits - (b * n + b)) / 2 ^ b := by
      rw [Nat.div_div_eq_div_mul, ← Nat.pow_add]
      congr 2; omega
    rw [e]
    generalize x / 2 ^ (bits - (b * n + b)) = y
    rw [Nat.add_comm (b * n) b, Nat.pow_add, Nat.mod_mul]
    rw [Nat.mul_comm (2 ^ b), Nat.add_comm]

/-! ## Addresses -/

/-- The fields of an address (specification): layer, tree, type, and the three words whose meaning depends on the type. -/
structure Fields where
  layer : Nat
  tree : Nat
  typ : AType
  kp : Nat
  height : Nat
  index : Nat
  deriving DecidableEq

/-- The address with these fields (FIPS 205, figure 2). -/
def enc (F : Fields) : Adrs :=
  toByte F.layer 4 ++ (toByte F.tree 12 ++ (toByte F.typ.code 4 ++ (toByte F.kp 4 ++ (toByte F.height 4 ++ toByte F.index 4))))

theorem enc_length (F : Fields) : (enc F).length = 32 := by simp [enc, toByte_length]

theorem splice_mid (x y z v : Bytes) (h : v.length = y.length) : splice (x ++ (y ++ z)) x.length v = x ++ (v ++ z) := by
  unfold splice
  rw [List.take_left, h, ← List.append_assoc, List.drop_left' (by rw [List.length_append]), List.append_assoc]

theorem slice_mid (x y z : Bytes) (i j : Nat) (hi : x.length = i) (hj : x.length + y.length = j) : slice (x ++ (y ++ z)) i j = y := by
  subst hi hj
  unfold slice
  rw [List.take_length_add_append, List.drop_left, List.take_left]

theorem newAdrs_enc : newAdrs = enc ⟨0, 0, .wotsHash, 0, 0, 0⟩ := by decide

theorem setLayer_enc (F : Fields) (x : Nat) (h : x < 256 ^ 4) : setLayer (enc F) x = .ok (enc { F with layer := x }) := by
  unfold setLayer setField
  rw [if_pos h]
  exact congrArg _ (splice_mid [] (toByte F.layer 4) _ (toByte x 4) (by simp [toByte_length]))

theorem setTree_enc (F : Fields) (x : Nat) (h : x < 256 ^ 12) : setTree (enc F) x = .ok (enc { F with tree := x }) := by
  unfold setTree setField
  rw [if_pos h]
  have := splice_mid (toByte F.layer 4) (toByte F.tree 12) (toByte F.typ.code 4 ++ (toByte F.kp 4 ++ (toByte F.height 4 ++ toByte F.index 4)))
    (toByte x 12) (by simp [toByte_length])
  rw [toByte_length] at this
  exact congrArg _ this

theorem setKeyPair_enc (F : Fields) (x : Nat) (h : x < 256 ^ 4) : setKeyPair (enc F) x = .ok (enc { F with kp := x }) := by
  unfold setKeyPair setField
  rw [if_pos h]
  have := splice_mid (toByte F.layer 4 ++ (toByte F.tree 12 ++ toByte F.typ.code 4)) (toByte F.kp 4) (toByte F.height 4 ++ toByte F.index 4)
    (toByte x 4) (by simp [toByte_length])
  simp only [List.length_append, toByte_length, List.append_assoc, Nat.reduceAdd] at this
  exact congrArg _ this

theorem setHeight_enc (F : Fields) (x : Nat) (h : x < 256 ^ 4) : setHeight (enc F) x = .ok (enc { F with height := x }) := by
  unfold setHeight setField
  rw [if_pos h]
  have := splice_mid (toByte F.layer 4 ++ (toByte F.tree 12 ++ (toByte F.typ.code 4 ++ toByte F.kp 4))) (toByte F.height 4) (toByte F.index 4)
    (toByte x 4) (by simp [toByte_length])
  simp only [List.length_append, toByte_length, List.append_assoc, Nat.reduceAdd] at this
  exact congrArg _ this

theorem setIndex_enc (F : Fields) (x : Nat) (h : x < 256 ^ 4) : setIndex (enc F) x = .ok (enc { F with index := x }) := by
  unfold setIndex setField
  rw [if_pos h]
  have := splice_mid (toByte F.layer 4 ++ (toByte F.tree 12 ++ (toByte F.typ.code 4 ++ (toByte F.kp 4 ++ toByte F.height 4)))) (toByte F.index 4) []
    (toByte x 4) (by simp [toByte_length])
  simp only [List.length_append, toByte_length, List.append_assoc, List.append_nil] at this
  exact congrArg _ this

theorem zeros_eq : (List.replicate 12 0 : Bytes) = toByte 0 4 ++ (toByte 0 4 ++ toByte 0 4) := by decide

theorem setType_enc (F : Fields) (t : AType) : setType (enc F) t = enc ⟨F.layer, F.tree, t, 0, 0, 0⟩ := by
  unfold setType
  have h1 := splice_mid (toByte F.layer 4 ++ toByte F.tree 12) (toByte F.typ.code 4) (toByte F.kp 4 ++ (toByte F.height 4 ++ toByte F.index 4))
    (toByte t.code 4) (by simp [toByte_length])
  simp only [List.length_append, toByte_length, List.append_assoc, Nat.reduceAdd] at h1
  unfold enc
  rw [h1]
  have h2 := splice_mid (toByte F.layer 4 ++ (toByte F.tree 12 ++ toByte t.code 4)) (toByte F.kp 4 ++ (toByte F.height 4 ++ toByte F.index 4)) []
    (toByte 0 4 ++ (toByte 0 4 ++ toByte 0 4)) (by simp [toByte_length])
  simp only [List.length_append, toByte_length, List.append_assoc, List.append_nil, Nat.reduceAdd] at h2
  rw [zeros_eq]
  exact h2

theorem getKeyPair_enc (F : Fields) (h : F.kp < 256 ^ 4) : getKeyPair (enc F) = F.kp := by
  unfold getKeyPair
  have := slice_mid (toByte F.layer 4 ++ (toByte F.tree 12 ++ toByte F.typ.code 4)) (toByte F.kp 4) (toByte F.height 4 ++ toByte F.index 4) 20 24
    (by simp [toByte_length]) (by simp [toByte_length])
  simp only [List.append_assoc] at this
  unfold enc
  rw [this, fromBytes_eq, val_toByte, Nat.mod_eq_of_lt h]

theorem getIndex_enc (F : Fields) (h : F.index < 256 ^ 4) : getIndex (enc F) = F.index := by
  unfold getIndex
  have := slice_mid (toByte F.layer 4 ++ (toByte F.tree 12 ++ (toByte F.typ.code 4 ++ (toByte F.kp 4 ++ toByte F.height 4)))) (toByte F.index 4) [] 28 32
    (by simp [toByte_length]) (by simp [toByte_length])
  simp only [List.append_assoc, List.append_nil] at this
  unfold enc
  rw [this, fromBytes_eq, val_toByte, Nat.mod_eq_of_lt h]

end Verif.PQ.Slh
