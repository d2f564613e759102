import Verif.PQ.Fips203

/-! Lemmas about the bit, byte and compression functions of `fips203.py`. -/

namespace Verif.PQ.Kem

open Verif.CA (Bytes PyErr)

/-- A list of bits. -/
def IsBits (l : List Nat) : Prop := ∀ b ∈ l, b < 2

theorem natBits_length (d a : Nat) : (natBits d a).length = d := by
  induction d generalizing a with
  | zero => rfl
  | succ d ih => simp [natBits, ih]

theorem natBits_isBits (d a : Nat) : IsBits (natBits d a) := by
  induction d generalizing a with
  | zero => intro b hb; simp [natBits] at hb
  | succ d ih =>
    intro b hb
    simp only [natBits, List.mem_cons] at hb
    rcases hb with rfl | hb
    · exact Nat.mod_lt _ (by omega)
    · exact ih _ b hb

theorem bitsVal_natBits (d a : Nat) : bitsVal (natBits d a) = a % 2 ^ d := by
  induction d generalizing a with
  | zero => simp [natBits, bitsVal, Nat.mod_one]
  | succ d ih =>
    simp only [natBits, bitsVal, ih]
    rw [Nat.pow_succ, Nat.mul_comm (2 ^ d) 2, Nat.mod_mul]

theorem natBits_bitsVal (l : List Nat) (h : IsBits l) : natBits l.length (bitsVal l) = l := by
  induction l with
  | nil => rfl
  | cons b bs ih =>
    have hb : b < 2 := h b (by simp)
    simp only [List.length_cons, natBits, bitsVal]
    rw [show (b + 2 * bitsVal bs) / 2 = bitsVal bs by omega, show (b + 2 * bitsVal bs) % 2 = b by omega,
      ih (fun x hx => h x (by simp [hx]))]

theorem bitsVal_lt (l : List Nat) (h : IsBits l) : bitsVal l < 2 ^ l.length := by
  induction l with
  | nil => simp [bitsVal]
  | cons b bs ih =>
    have hb : b < 2 := h b (by simp)
    have := ih (fun x hx => h x (by simp [hx]))
    simp only [bitsVal, List.length_cons, Nat.pow_succ]
    omega

theorem bytesToBits_cons (x : UInt8) (b : Bytes) : bytesToBits (x :: b) = natBits 8 x.toNat ++ bytesToBits b := by
  simp [bytesToBits]

theorem bytesToBits_length (b : Bytes) : (bytesToBits b).length = 8 * b.length := by
  induction b with
  | nil => rfl
  | cons x b ih => rw [bytesToBits_cons]; simp [natBits_length, ih]; omega

theorem bytesToBits_isBits (b : Bytes) : IsBits (bytesToBits b) := by
  induction b with
  | nil => intro x hx; simp [bytesToBits] at hx
  | cons x b ih =>
    rw [bytesToBits_cons]
    intro y hy
    rcases List.mem_append.1 hy with hy | hy
    · exact natBits_isBits _ _ y hy
    · exact ih y hy

theorem bitsToBytes_append8 (l r : List Nat) (h : l.length = 8) :
    bitsToBytes (l ++ r) = UInt8.ofNat (bitsVal l) :: bitsToBytes r := by
  match l, h with
  | [_, _, _, _, _, _, _, _], _ => rfl

theorem bitsToBytes_bytesToBits (b : Bytes) : bitsToBytes (bytesToBits b) = b := by
  induction b with
  | nil => rfl
  | cons x b ih =>
    rw [bytesToBits_cons, bitsToBytes_append8 _ _ (natBits_length _ _), ih, bitsVal_natBits]
    congr 1
    have := x.toNat_lt
    rw [Nat.mod_eq_of_lt (by simpa using this)]
    simp

theorem split8 (l : List Nat) (n : Nat) (h : l.length = 8 * (n + 1)) :
    ∃ a r, l = a ++ r ∧ a.length = 8 ∧ r.length = 8 * n :=
  ⟨l.take 8, l.drop 8, (List.take_append_drop 8 l).symm, by simp; omega, by simp; omega⟩

theorem bytesToBits_bitsToBytes (n : Nat) : ∀ (l : List Nat), l.length = 8 * n → IsBits l →
    bytesToBits (bitsToBytes l) = l := by
  induction n with
  | zero => intro l h _; obtain rfl := List.length_eq_zero_iff.mp (show l.length = 0 by omega); rfl
  | succ n ih =>
    intro l h hb
    obtain ⟨a, r, rfl, ha, hr⟩ := split8 l n h
    have hba : IsBits a := fun x hx => hb x (by simp [hx])
    rw [bitsToBytes_append8 _ _ ha, bytesToBits_cons, ih r hr (fun x hx => hb x (by simp [hx]))]
    have hlt := bitsVal_lt a hba
    rw [ha] at hlt
    have : (UInt8.ofNat (bitsVal a)).toNat = bitsVal a := by
      rw [UInt8.toNat_ofNat']; exact Nat.mod_eq_of_lt hlt
    rw [this]
    have := natBits_bitsVal a hba
    rw [ha] at this
    rw [this]

theorem bitsToBytes_length (n : Nat) : ∀ (l : List Nat), l.length = 8 * n → (bitsToBytes l).length = n := by
  induction n with
  | zero => intro l h; obtain rfl := List.length_eq_zero_iff.mp (show l.length = 0 by omega); rfl
  | succ n ih =>
    intro l h
    obtain ⟨a, r, rfl, ha, hr⟩ := split8 l n h
    rw [bitsToBytes_append8 _ _ ha]; simp [ih r hr]

/-! ### Chunks -/

theorem flatMap_congr' {α β : Type} {l : List α} {f g : α → List β} (h : ∀ x ∈ l, f x = g x) :
    l.flatMap f = l.flatMap g := by
  induction l with
  | nil => rfl
  | cons a l ih => simp [h a (by simp), ih (fun x hx => h x (by simp [hx]))]

theorem flatMap_length {α : Type} (g : Nat → List α) (d : Nat) (hg : ∀ i, (g i).length = d) (n : Nat) :
    ((List.range n).flatMap g).length = n * d := by
  induction n with
  | zero => simp
  | succ n ih => simp [List.range_succ, ih, hg, Nat.succ_mul]

theorem flatMap_chunk {α : Type} (g : Nat → List α) (d : Nat) (hg : ∀ i, (g i).length = d) (n i : Nat) (hi : i < n) :
    (((List.range n).flatMap g).drop (i * d)).take d = g i := by
  induction n with
  | zero => omega
  | succ n ih =>
    have hl := flatMap_length g d hg n
    rw [List.range_succ, List.flatMap_append]
    by_cases h : i < n
    · have h2 : i * d + d ≤ n * d := by
        have := Nat.mul_le_mul_right d (show i + 1 ≤ n from h)
        rwa [Nat.succ_mul] at this
      rw [List.drop_append_of_le_length (by omega), List.take_append_of_le_length (by rw [List.length_drop, hl]; omega)]
      exact ih h
    · have : i = n := by omega
      subst this
      rw [List.drop_append, List.drop_of_length_le (by omega), hl]
      simp only [Nat.sub_self, List.drop_zero, List.nil_append]
      simp [List.take_of_length_le, hg]

theorem chunk_flatMap {α : Type} (d : Nat) (l : List α) (n : Nat) (h : l.length = n * d) :
    (List.range n).flatMap (fun i => (l.drop (i * d)).take d) = l := by
  induction n generalizing l with
  | zero => simp at h; simp [h]
  | succ n ih =>
    have hl : l = l.take (n * d) ++ l.drop (n * d) := (List.take_append_drop _ l).symm
    have h1 : (l.take (n * d)).length = n * d := by simp [h, Nat.succ_mul]
    have h2 := ih (l.take (n * d)) h1
    rw [List.range_succ, List.flatMap_append]
    have : (List.range n).flatMap (fun i => (l.drop (i * d)).take d) =
        (List.range n).flatMap (fun i => ((l.take (n * d)).drop (i * d)).take d) := by
      apply flatMap_congr'
      intro i hi
      have hi := List.mem_range.1 hi
      have h3 : i * d + d ≤ n * d := by
        have := Nat.mul_le_mul_right d (show i + 1 ≤ n from hi)
        rwa [Nat.succ_mul] at this
      rw [List.drop_take, List.take_take, Nat.min_eq_left (by omega)]
    rw [this, h2]
    simp only [List.flatMap_cons, List.flatMap_nil, List.append_nil]
    rw [List.take_of_length_le (l := l.drop (n * d)) (by simp [h, Nat.succ_mul]), ← hl]

theorem isBits_flatMap (d : Nat) (g : Nat → Nat) (n : Nat) : IsBits ((List.range n).flatMap (fun i => natBits d (g i))) := by
  intro b hb
  obtain ⟨i, _, hi⟩ := List.mem_flatMap.1 hb
  exact natBits_isBits _ _ b hi

theorem byteEncode_length (d : Nat) (f : List Int) : (byteEncode d f).length = 32 * d := by
  unfold byteEncode
  apply bitsToBytes_length
  rw [flatMap_length _ d (fun i => natBits_length _ _)]
  omega

theorem codeMod_pos (d : Nat) : 0 < codeMod d := by
  unfold codeMod; split
  · exact Int.pow_pos (by decide)
  · decide

theorem codeMod_le (d : Nat) (hd : d ≤ 12) : codeMod d ≤ 2 ^ d := by
  unfold codeMod; split
  · exact Int.le_refl _
  · rw [show d = 12 by omega]; decide

/-- The bytes holding the `d`-bit values `v 0, ..., v 255`. -/
def rawEncode (d : Nat) (v : Nat → Nat) : Bytes := bitsToBytes ((List.range 256).flatMap (fun i => natBits d (v i)))

theorem rawEncode_bits (d : Nat) (v : Nat → Nat) :
    bytesToBits (rawEncode d v) = (List.range 256).flatMap (fun i => natBits d (v i)) := by
  unfold rawEncode
  rw [bytesToBits_bitsToBytes (32 * d) _ (by rw [flatMap_length _ d (fun i => natBits_length _ _)]; omega)
    (isBits_flatMap _ _ _)]

theorem rawEncode_chunk (d : Nat) (v : Nat → Nat) (i : Nat) (hi : i < 256) :
    bitsVal (((bytesToBits (rawEncode d v)).drop (i * d)).take d) = v i % 2 ^ d := by
  rw [rawEncode_bits, flatMap_chunk _ d (fun i => natBits_length _ _) 256 i hi, bitsVal_natBits]

theorem rawEncode_length (d : Nat) (v : Nat → Nat) : (rawEncode d v).length = 32 * d := by
  unfold rawEncode
  apply bitsToBytes_length
  rw [flatMap_length _ d (fun i => natBits_length _ _)]
  omega

theorem byteDecode_rawEncode (d : Nat) (v : Nat → Nat) :
    byteDecode d (rawEncode d v) = (List.range 256).map (fun i => ((v i % 2 ^ d : Nat) : Int) % codeMod d) := by
  unfold byteDecode
  apply List.map_congr_left
  intro i hi
  rw [rawEncode_chunk d v i (List.mem_range.1 hi)]

/-- Decoding an encoding gives the reduced coefficients. -/
theorem byteDecode_byteEncode (d : Nat) (hd : d ≤ 12) (f : List Int) :
    byteDecode d (byteEncode d f) = (List.range 256).map (fun i => at0 f i % codeMod d) := by
  refine (byteDecode_rawEncode d (fun i => (at0 f i % codeMod d).toNat)).trans ?_
  apply List.map_congr_left
  intro i _
  have h0 := Int.emod_nonneg (at0 f i) (Int.ne_of_gt (codeMod_pos d))
  have h1 := Int.emod_lt_of_pos (at0 f i) (codeMod_pos d)
  have h2 := codeMod_le d hd
  have h3 : (at0 f i % codeMod d).toNat % 2 ^ d = (at0 f i % codeMod d).toNat := by
    apply Nat.mod_eq_of_lt
    have : ((2 ^ d : Nat) : Int) = 2 ^ d := by simp
    omega
  rw [h3, Int.toNat_of_nonneg h0, Int.emod_emod]

theorem byteEncode_byteDecode (d : Nat) (hd : d < 12) (b : Bytes) (hb : b.length = 32 * d) :
    byteEncode d (byteDecode d b) = b := by
  unfold byteEncode
  have hl : (bytesToBits b).length = 256 * d := by rw [bytesToBits_length, hb]; omega
  have key : ∀ i ∈ List.range 256, natBits d (at0 (byteDecode d b) i % codeMod d).toNat =
      ((bytesToBits b).drop (i * d)).take d := by
    intro i hi
    have hi := List.mem_range.1 hi
    have e : at0 (byteDecode d b) i = (bitsVal (((bytesToBits b).drop (i * d)).take d) : Int) % codeMod d := by
      unfold byteDecode
      simp [at0, hi]
    rw [e, Int.emod_emod]
    generalize hc : ((bytesToBits b).drop (i * d)).take d = c
    have hcl : c.length = d := by
      rw [← hc]; simp only [List.length_take, List.length_drop, hl]
      have := Nat.mul_le_mul_right d (show i + 1 ≤ 256 from hi)
      rw [Nat.succ_mul] at this
      omega
    have hcb : IsBits c := by
      intro x hx
      rw [← hc] at hx
      exact bytesToBits_isBits b x (List.mem_of_mem_drop (List.mem_of_mem_take hx))
    have hlt := bitsVal_lt c hcb
    rw [hcl] at hlt
    have hm : codeMod d = ((2 ^ d : Nat) : Int) := by unfold codeMod; rw [if_pos hd]; simp
    rw [hm, ← Int.natCast_emod, Nat.mod_eq_of_lt hlt, Int.toNat_natCast]
    have := natBits_bitsVal c hcb
    rwa [hcl] at this
  rw [show (List.range 256).flatMap (fun i => natBits d (at0 (byteDecode d b) i % codeMod d).toNat) =
      (List.range 256).flatMap (fun i => ((bytesToBits b).drop (i * d)).take d) from flatMap_congr' key,
    chunk_flatMap d _ 256 hl, bitsToBytes_bytesToBits]

theorem byteDecode_length (d : Nat) (b : Bytes) : (byteDecode d b).length = 256 := by simp [byteDecode]

theorem byteDecode_range (d : Nat) (b : Bytes) : ∀ x ∈ byteDecode d b, 0 ≤ x ∧ x < codeMod d := by
  intro x hx
  simp only [byteDecode, List.mem_map] at hx
  obtain ⟨i, _, rfl⟩ := hx
  exact ⟨Int.emod_nonneg _ (Int.ne_of_gt (codeMod_pos d)), Int.emod_lt_of_pos _ (codeMod_pos d)⟩

/-- A list of 256 values is the table of its reads. -/
theorem map_at0 (f : List Int) (n : Nat) (h : f.length = n) : (List.range n).map (at0 f) = f := by
  apply List.ext_getElem
  · simp [h]
  · intro i h1 h2; simp [at0, h2]

theorem at0_mem {f : List Int} {i : Nat} (h : i < f.length) : at0 f i ∈ f := by
  simp [at0, h]

/-! ### Compression -/

theorem compress1_decompress1 (d : Nat) (h1 : 1 ≤ d) (h2 : d ≤ 11) (y : Int) (hy0 : 0 ≤ y) (hy : y < 2 ^ d) :
    compress1 d (decompress1 d y) = y := by
  have key : (decompress1 d y * 2 ^ d + (q - 1) / 2) / q = y := by
    unfold decompress1 q
    have : d = 1 ∨ d = 2 ∨ d = 3 ∨ d = 4 ∨ d = 5 ∨ d = 6 ∨ d = 7 ∨ d = 8 ∨ d = 9 ∨ d = 10 ∨ d = 11 := by omega
    rcases this with rfl | rfl | rfl | rfl | rfl | rfl | rfl | rfl | rfl | rfl | rfl
    all_goals
      simp only [Int.reducePow, Nat.reduceSub] at hy ⊢
      omega
  unfold compress1
  rw [key]
  exact Int.emod_eq_of_lt hy0 hy

theorem compress1_range (d : Nat) (x : Int) : 0 ≤ compress1 d x ∧ compress1 d x < 2 ^ d := by
  have h : (0 : Int) < 2 ^ d := Int.pow_pos (by decide)
  exact ⟨Int.emod_nonneg _ (Int.ne_of_gt h), Int.emod_lt_of_pos _ h⟩

/-- `round(q / 2^(d+1))`. -/
def errBound (d : Nat) : Int := (q + 2 ^ d) / 2 ^ (d + 1)

theorem decompress1_compress1 (d : Nat) (h1 : 1 ≤ d) (h2 : d ≤ 11) (x : Int) (hx0 : 0 ≤ x) (hx : x < q) :
    ∃ n k : Int, decompress1 d (compress1 d x) = x + n + k * q ∧ -errBound d ≤ n ∧ n ≤ errBound d := by
  unfold compress1
  generalize hC : (x * 2 ^ d + (q - 1) / 2) / q = C
  have hC0 : 0 ≤ C ∧ C ≤ 2 ^ d := by
    rw [← hC]
    have h2 : (0 : Int) < 2 ^ d := Int.pow_pos (by decide)
    unfold q at *
    constructor
    · have := Int.mul_nonneg hx0 (Int.le_of_lt h2); omega
    · have := Int.mul_le_mul_of_nonneg_right (show x ≤ 3328 by omega) (Int.le_of_lt h2); omega
  have hd : d = 1 ∨ d = 2 ∨ d = 3 ∨ d = 4 ∨ d = 5 ∨ d = 6 ∨ d = 7 ∨ d = 8 ∨ d = 9 ∨ d = 10 ∨ d = 11 := by omega
  by_cases hh : C < 2 ^ d
  · rw [Int.emod_eq_of_lt hC0.1 hh]
    refine ⟨decompress1 d C - x, 0, by omega, ?_⟩
    unfold decompress1 errBound
    unfold q at *
    rcases hd with rfl | rfl | rfl | rfl | rfl | rfl | rfl | rfl | rfl | rfl | rfl
    all_goals
      simp only [Int.reducePow, Nat.reduceAdd, Nat.reduceSub] at *
      omega
  · have hh : C = 2 ^ d := by omega
    rw [hh, Int.emod_self]
    rw [hh] at hC
    refine ⟨3329 - x, -1, ?_, ?_⟩
    · unfold decompress1; unfold q at *
      have : (0 : Int) < 2 ^ (d - 1) := Int.pow_pos (by decide)
      have e : (2 : Int) ^ d = 2 ^ (d - 1) * 2 := by rw [← Int.pow_succ, show (d - 1).succ = d by omega]
      rw [Int.ediv_eq_zero_of_lt (by omega) (by omega)]
      omega
    · unfold errBound
      unfold q at *
      rcases hd with rfl | rfl | rfl | rfl | rfl | rfl | rfl | rfl | rfl | rfl | rfl
      all_goals
        simp only [Int.reducePow, Nat.reduceAdd] at *
        omega

/-! ### Slices -/

theorem slice_append_left (a b : Bytes) (n : Nat) (h : a.length = n) : slice (a ++ b) 0 n = a := by
  unfold slice; simp [← h]

theorem slice_mid (a b c : Bytes) (i j : Nat) (h1 : a.length = i) (h2 : j = i + b.length) : slice (a ++ b ++ c) i j = b := by
  unfold slice; subst h1 h2; simp

theorem slice_chunk (g : Nat → Bytes) (d n i : Nat) (hg : ∀ i, (g i).length = d) (hi : i < n) (r : Bytes) :
    slice ((List.range n).flatMap g ++ r) (d * i) (d * (i + 1)) = g i := by
  have hl := flatMap_length g d hg n
  have h2 : i * d + d ≤ n * d := by
    have := Nat.mul_le_mul_right d (show i + 1 ≤ n from hi)
    rwa [Nat.succ_mul] at this
  unfold slice
  rw [Nat.mul_add, Nat.mul_one, Nat.add_sub_cancel_left, Nat.mul_comm d i]
  rw [List.drop_append_of_le_length (by omega), List.take_append_of_le_length (by rw [List.length_drop, hl]; omega)]
  exact flatMap_chunk g d hg n i hi

end Verif.PQ.Kem
