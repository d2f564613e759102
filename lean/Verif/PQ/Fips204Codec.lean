import Verif.PQ.Fips204Round
import Verif.PQ.Fips203Codec

/-! Conversions and packing of `fips204.py`. -/

namespace Verif.PQ.Dsa

open Verif.CA (Bytes)
open Verif.PQ.Kem

theorem emod_step (x k n : Int) (hk : 0 < k) (hn : 0 < n) : x % n + n * ((x / n) % k) = x % (n * k) := by
  have h1 := Int.mul_ediv_add_emod x n
  have h2 := Int.mul_ediv_add_emod (x / n) k
  have h3 := Int.emod_nonneg x (Int.ne_of_gt hn)
  have h4 := Int.emod_lt_of_pos x hn
  have h5 := Int.emod_nonneg (x / n) (Int.ne_of_gt hk)
  have h6 := Int.emod_lt_of_pos (x / n) hk
  have e : x = (x % n + n * ((x / n) % k)) + (n * k) * (x / n / k) := by
    rw [Int.mul_assoc]
    have : n * (k * (x / n / k)) + n * (x / n % k) = n * (x / n) := by rw [← Int.mul_add, h2]
    omega
  have h7 : n * ((x / n) % k) ≤ n * (k - 1) := Int.mul_le_mul_of_nonneg_left (by omega) (by omega)
  rw [Int.mul_sub, Int.mul_one] at h7
  have h8 : 0 ≤ n * ((x / n) % k) := Int.mul_nonneg (by omega) h5
  have e2 : x % (n * k) = (x % n + n * ((x / n) % k) + (n * k) * (x / n / k)) % (n * k) := congrArg (· % (n * k)) e
  rw [e2, Int.add_mul_emod_self_left]
  exact (Int.emod_eq_of_lt (by omega) (by omega)).symm

theorem integerToBits_length (x : Int) (a : Nat) : (integerToBits x a).length = a := by
  induction a generalizing x with
  | zero => rfl
  | succ a ih => simp [integerToBits, ih]

theorem integerToBits_isBits (x : Int) (a : Nat) : IsBits (integerToBits x a) := by
  induction a generalizing x with
  | zero => intro b hb; simp [integerToBits] at hb
  | succ a ih =>
    intro b hb
    simp only [integerToBits, List.mem_cons] at hb
    rcases hb with rfl | hb
    · omega
    · exact ih _ b hb

theorem bitsVal_integerToBits (x : Int) (a : Nat) : (bitsVal (integerToBits x a) : Int) = x % 2 ^ a := by
  induction a generalizing x with
  | zero => simp only [integerToBits, bitsVal, Int.pow_zero]; omega
  | succ a ih =>
    simp only [integerToBits, bitsVal, Int.natCast_add, Int.natCast_mul, ih]
    have := emod_step x (2 ^ a) 2 (Int.pow_pos (by decide)) (by decide)
    rw [show (2 : Int) ^ (a + 1) = 2 * 2 ^ a by rw [Int.pow_succ, Int.mul_comm], ← this]
    omega

/-- In range, the bits are those of the natural number. -/
theorem integerToBits_nat (x : Nat) (a : Nat) : integerToBits x a = natBits a x := by
  induction a generalizing x with
  | zero => rfl
  | succ a ih =>
    simp only [integerToBits, natBits]
    rw [show ((x : Int) / 2) = ((x / 2 : Nat) : Int) by omega, ih]
    congr 1

theorem bitsToInteger_eq (y : List Nat) (a : Nat) : bitsToInteger y a = bitsVal (y.take a) := by
  unfold bitsToInteger
  rw [List.foldl_reverse]
  generalize y.take a = l
  induction l with
  | nil => rfl
  | cons b l ih => simp only [List.foldr_cons, ih, bitsVal]; omega

theorem take_take_chunk (z : List Nat) (n c : Nat) : ((z.drop n).take c).take c = (z.drop n).take c := by rw [List.take_take, Nat.min_self]

theorem simpleBitUnpack_eq (v : Bytes) (b : Nat) : simpleBitUnpack v b =
    (List.range 256).map (fun i => (bitsVal (((bytesToBits v).drop (i * bitLen b)).take (bitLen b)) : Int)) := by
  unfold simpleBitUnpack
  apply List.map_congr_left
  intro i _
  rw [bitsToInteger_eq, take_take_chunk]

theorem bitUnpack_eq (v : Bytes) (a b : Nat) : bitUnpack v a b =
    (List.range 256).map (fun i => (b : Int) - bitsVal (((bytesToBits v).drop (i * bitLen (a + b))).take (bitLen (a + b)))) := by
  unfold bitUnpack
  apply List.map_congr_left
  intro i _
  rw [bitsToInteger_eq, take_take_chunk]

theorem lt_bitLen {n b : Nat} (h : n ≤ b) : n < 2 ^ bitLen b := by
  unfold bitLen
  split
  · omega
  · have := Nat.lt_log2_self (n := b)
    omega

theorem bitPack_flat (w : List Int) (hw : w.length = 256) (f : Int → List Nat) :
    w.flatMap f = (List.range 256).flatMap (fun i => f (at0 w i)) := by
  conv => lhs; rw [← map_at0 w 256 hw]
  rw [List.flatMap_map]

/-- The packed values. -/
theorem bitPack_raw (w : List Int) (hw : w.length = 256) (a b : Nat) (h : ∀ x ∈ w, -(a : Int) ≤ x ∧ x ≤ b) :
    bitPack w a b = rawEncode (bitLen (a + b)) (fun i => ((b : Int) - at0 w i).toNat) := by
  unfold bitPack rawEncode
  rw [bitPack_flat w hw]
  congr 1
  apply flatMap_congr'
  intro i hi
  have := h _ (at0_mem (f := w) (i := i) (by rw [hw]; exact List.mem_range.1 hi))
  rw [← integerToBits_nat]
  congr 1
  simp only
  omega

theorem simpleBitPack_raw (w : List Int) (b : Nat) (hw : w.length = 256) (h : ∀ x ∈ w, 0 ≤ x ∧ x ≤ b) :
    simpleBitPack w b = rawEncode (bitLen b) (fun i => (at0 w i).toNat) := by
  unfold simpleBitPack rawEncode
  congr 1
  apply flatMap_congr'
  intro i hi
  have := h _ (at0_mem (f := w) (i := i) (by rw [hw]; exact List.mem_range.1 hi))
  rw [← integerToBits_nat]
  congr 1
  simp only
  omega

theorem bitPack_length (w : List Int) (hw : w.length = 256) (a b : Nat) : (bitPack w a b).length = 32 * bitLen (a + b) := by
  unfold bitPack
  apply bitsToBytes_length
  rw [bitPack_flat w hw, Kem.flatMap_length _ (bitLen (a + b)) (fun i => integerToBits_length _ _)]
  omega

theorem simpleBitPack_length (w : List Int) (b : Nat) : (simpleBitPack w b).length = 32 * bitLen b := by
  unfold simpleBitPack
  apply bitsToBytes_length
  rw [Kem.flatMap_length _ (bitLen b) (fun i => integerToBits_length _ _)]
  omega

theorem bitUnpack_bitPack (w : List Int) (hw : w.length = 256) (a b : Nat) (h : ∀ x ∈ w, -(a : Int) ≤ x ∧ x ≤ b) :
    bitUnpack (bitPack w a b) a b = w := by
  rw [bitPack_raw w hw a b h, bitUnpack_eq]
  refine Eq.trans ?_ (map_at0 w 256 hw)
  apply List.map_congr_left
  intro i hi
  have hi := List.mem_range.1 hi
  have := h _ (at0_mem (f := w) (i := i) (by rw [hw]; exact hi))
  rw [rawEncode_chunk _ _ i hi, Nat.mod_eq_of_lt (lt_bitLen (by omega))]
  omega

theorem simpleBitUnpack_simpleBitPack (w : List Int) (hw : w.length = 256) (b : Nat) (h : ∀ x ∈ w, 0 ≤ x ∧ x ≤ b) :
    simpleBitUnpack (simpleBitPack w b) b = w := by
  rw [simpleBitPack_raw w b hw h, simpleBitUnpack_eq]
  refine Eq.trans ?_ (map_at0 w 256 hw)
  apply List.map_congr_left
  intro i hi
  have hi := List.mem_range.1 hi
  have := h _ (at0_mem (f := w) (i := i) (by rw [hw]; exact hi))
  rw [rawEncode_chunk _ _ i hi, Nat.mod_eq_of_lt (lt_bitLen (by omega))]
  omega

theorem bitUnpack_length (v : Bytes) (a b : Nat) : (bitUnpack v a b).length = 256 := by simp [bitUnpack]
theorem simpleBitUnpack_length (v : Bytes) (b : Nat) : (simpleBitUnpack v b).length = 256 := by simp [simpleBitUnpack]

/-- Chunks of the bits of a byte string of the right length. -/
theorem chunk_bits (v : Bytes) (c : Nat) (hv : v.length = 32 * c) (i : Nat) (hi : i < 256) :
    (((bytesToBits v).drop (i * c)).take c).length = c ∧ IsBits (((bytesToBits v).drop (i * c)).take c) := by
  constructor
  · have := bytesToBits_length v
    have h2 : i * c + c ≤ 256 * c := by
      have := Nat.mul_le_mul_right c (show i + 1 ≤ 256 from hi)
      rwa [Nat.succ_mul] at this
    rw [List.length_take, List.length_drop, this, hv]
    omega
  · intro x hx
    exact bytesToBits_isBits v x (List.mem_of_mem_drop (List.mem_of_mem_take hx))

/-- Every byte string of the right length is the packing of its unpacking. -/
theorem bitPack_bitUnpack (v : Bytes) (a b : Nat) (hv : v.length = 32 * bitLen (a + b)) : bitPack (bitUnpack v a b) a b = v := by
  unfold bitPack
  rw [bitPack_flat _ (bitUnpack_length v a b)]
  have hl : (bytesToBits v).length = 256 * bitLen (a + b) := by rw [bytesToBits_length, hv]; omega
  have key : ∀ i ∈ List.range 256, integerToBits ((b : Int) - at0 (bitUnpack v a b) i) (bitLen (a + b)) =
      ((bytesToBits v).drop (i * bitLen (a + b))).take (bitLen (a + b)) := by
    intro i hi
    have hi := List.mem_range.1 hi
    obtain ⟨h1, h2⟩ := chunk_bits v _ hv i hi
    have e : at0 (bitUnpack v a b) i = (b : Int) - bitsVal (((bytesToBits v).drop (i * bitLen (a + b))).take (bitLen (a + b))) := by
      rw [bitUnpack_eq]
      simp [at0, hi]
    rw [e, show ∀ x y : Int, x - (x - y) = y by intros; omega, integerToBits_nat]
    generalize ((bytesToBits v).drop (i * bitLen (a + b))).take (bitLen (a + b)) = l at *
    have := natBits_bitsVal l h2
    rwa [h1] at this
  rw [flatMap_congr' key, chunk_flatMap _ _ _ hl, bitsToBytes_bytesToBits]

theorem simpleBitPack_simpleBitUnpack (v : Bytes) (b : Nat) (hv : v.length = 32 * bitLen b) :
    simpleBitPack (simpleBitUnpack v b) b = v := by
  unfold simpleBitPack
  have hl : (bytesToBits v).length = 256 * bitLen b := by rw [bytesToBits_length, hv]; omega
  have key : ∀ i ∈ List.range 256, integerToBits (at0 (simpleBitUnpack v b) i) (bitLen b) =
      ((bytesToBits v).drop (i * bitLen b)).take (bitLen b) := by
    intro i hi
    have hi := List.mem_range.1 hi
    obtain ⟨h1, h2⟩ := chunk_bits v _ hv i hi
    have e : at0 (simpleBitUnpack v b) i = bitsVal (((bytesToBits v).drop (i * bitLen b)).take (bitLen b)) := by
      rw [simpleBitUnpack_eq]
      simp [at0, hi]
    rw [e, integerToBits_nat]
    generalize ((bytesToBits v).drop (i * bitLen b)).take (bitLen b) = l at *
    have := natBits_bitsVal l h2
    rwa [h1] at this
  rw [flatMap_congr' key, chunk_flatMap _ _ _ hl, bitsToBytes_bytesToBits]

/-- Unpacked values lie in the range given by the number of bits. -/
theorem bitUnpack_range (v : Bytes) (a b : Nat) (hv : v.length = 32 * bitLen (a + b)) :
    ∀ x ∈ bitUnpack v a b, (b : Int) - (2 ^ bitLen (a + b) - 1) ≤ x ∧ x ≤ b := by
  intro x hx
  rw [bitUnpack_eq] at hx
  obtain ⟨i, hi, rfl⟩ := List.mem_map.1 hx
  obtain ⟨h1, h2⟩ := chunk_bits v _ hv i (List.mem_range.1 hi)
  have := bitsVal_lt _ h2
  rw [h1] at this
  have h3 : ((bitsVal (((bytesToBits v).drop (i * bitLen (a + b))).take (bitLen (a + b))) : Nat) : Int) < 2 ^ bitLen (a + b) := by
    exact_mod_cast this
  omega

/-- Little-endian value of a byte string. -/
def leVal : Bytes → Nat
  | [] => 0
  | b :: r => b.toNat + 256 * leVal r

theorem integerToBytes_length (x : Int) (a : Nat) : (integerToBytes x a).length = a := by
  induction a generalizing x with
  | zero => rfl
  | succ a ih => simp [integerToBytes, ih]

theorem leVal_integerToBytes (x : Int) (a : Nat) : (leVal (integerToBytes x a) : Int) = x % 256 ^ a := by
  induction a generalizing x with
  | zero => simp only [integerToBytes, leVal, Int.pow_zero]; omega
  | succ a ih =>
    simp only [integerToBytes, leVal, Int.natCast_add, Int.natCast_mul, ih]
    have := emod_step x (256 ^ a) 256 (Int.pow_pos (by decide)) (by decide)
    rw [show (256 : Int) ^ (a + 1) = 256 * 256 ^ a by rw [Int.pow_succ, Int.mul_comm], ← this]
    have h2 : (UInt8.ofNat (x % 256).toNat).toNat = (x % 256).toNat := by
      rw [UInt8.toNat_ofNat']; omega
    rw [h2]
    omega

theorem integerToBytes_leVal (b : Bytes) : integerToBytes (leVal b) b.length = b := by
  induction b with
  | nil => rfl
  | cons x b ih =>
    simp only [List.length_cons, integerToBytes, leVal]
    have := x.toNat_lt
    have e1 : (((x.toNat + 256 * leVal b : Nat) : Int) % 256).toNat = x.toNat := by omega
    have e2 : (((x.toNat + 256 * leVal b : Nat) : Int) / 256) = (leVal b : Int) := by omega
    rw [e1, e2, ih, UInt8.ofNat_toNat]

end Verif.PQ.Dsa
