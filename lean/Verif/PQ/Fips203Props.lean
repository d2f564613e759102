import Verif.PQ.Fips203Pke

/-!
# Properties of ML-KEM (`fips203.py`): C30 - C38

Specifications: lists of bits, the negacyclic product `negMul` (`NttTheory.lean`), the noise polynomial `noise`
(`Fips203Pke.lean`).
-/

namespace Verif.PQ.Kem

open Verif.CA (Bytes PyErr)

/-! ## C30: bits and bytes -/

/-- C30: the two conversions are mutually inverse. -/
theorem C30_bits_bytes :
    (∀ b : Bytes, bitsToBytes (bytesToBits b) = b) ∧
    (∀ l : List Nat, 8 ∣ l.length → (∀ x ∈ l, x = 0 ∨ x = 1) → bytesToBits (bitsToBytes l) = l) := by
  refine ⟨bitsToBytes_bytesToBits, fun l ⟨n, hn⟩ hl => bytesToBits_bitsToBytes n l hn (fun x hx => ?_)⟩
  rcases hl x hx with h | h <;> omega

example : bytesToBits [0xb1, 0x02] = [1, 0, 0, 0, 1, 1, 0, 1, 0, 1, 0, 0, 0, 0, 0, 0] ∧
    bitsToBytes [1, 0, 0, 0, 1, 1, 0, 1, 0, 1, 0, 0, 0, 0, 0, 0] = [0xb1, 0x02] := by decide

/-! ## C31: ByteEncode and ByteDecode -/

/-- C31: decoding inverts encoding on reduced polynomials. -/
theorem C31_decode_encode (d : Nat) (hd : d ≤ 12) (f : List Int) (hl : f.length = 256)
    (hr : ∀ x ∈ f, 0 ≤ x ∧ x < (if d = 12 then 3329 else 2 ^ d)) : byteDecode d (byteEncode d f) = f := by
  rw [byteDecode_byteEncode d hd]
  conv => rhs; rw [← map_at0 f 256 hl]
  apply List.map_congr_left
  intro i hi
  have h := hr _ (at0_mem (f := f) (i := i) (by rw [hl]; exact List.mem_range.1 hi))
  apply Int.emod_eq_of_lt h.1
  unfold codeMod q
  split at h
  · rw [if_neg (by omega)]; exact h.2
  · rw [if_pos (by omega)]; exact h.2

/-- C31: for `d < 12` encoding inverts decoding, so every byte string is the encoding of exactly one polynomial. -/
theorem C31_encode_decode (d : Nat) (hd : d < 12) (b : Bytes) (hb : b.length = 32 * d) :
    byteEncode d (byteDecode d b) = b := byteEncode_byteDecode d hd b hb

theorem C31_decode_injective (d : Nat) (hd : d < 12) (b b' : Bytes) (hb : b.length = 32 * d) (hb' : b'.length = 32 * d)
    (h : byteDecode d b = byteDecode d b') : b = b' := by
  rw [← byteEncode_byteDecode d hd b hb, ← byteEncode_byteDecode d hd b' hb', h]

/-- The encoding has `32 d` bytes. -/
theorem C31_encode_length (d : Nat) (f : List Int) : (byteEncode d f).length = 32 * d := byteEncode_length d f

/-- C31: for `d = 12` every polynomial with a coefficient below 767 has a second encoding. -/
theorem C31_decode12_not_injective (f : List Int) (hf : f.length = 256) (hr : ∀ x ∈ f, 0 ≤ x ∧ x < 3329)
    (i : Nat) (hi : i < 256) (hs : at0 f i < 767) :
    ∃ b : Bytes, b.length = 384 ∧ b ≠ byteEncode 12 f ∧ byteDecode 12 b = f := by
  have hr' : ∀ k < 256, 0 ≤ at0 f k ∧ at0 f k < 3329 := fun k hk => hr _ (at0_mem (by omega))
  have hd : byteDecode 12 (byteEncode 12 f) = f := C31_decode_encode 12 (by omega) f hf (by simpa using hr)
  let v : Nat → Nat := fun k => if k = i then (at0 f k).toNat + 3329 else (at0 f k).toNat
  refine ⟨rawEncode 12 v, rawEncode_length 12 v, ?_, ?_⟩
  · intro h
    have h1 := rawEncode_chunk 12 v i hi
    have h2 := rawEncode_chunk 12 (fun i => (at0 f i % codeMod 12).toNat) i hi
    have h3 : rawEncode 12 (fun i => (at0 f i % codeMod 12).toNat) = byteEncode 12 f := rfl
    rw [h, ← h3, h2] at h1
    have := hr' i hi
    have e : codeMod 12 = 3329 := rfl
    simp only [v, if_true, e] at h1
    omega
  · rw [byteDecode_rawEncode]
    conv => rhs; rw [← map_at0 f 256 hf]
    apply List.map_congr_left
    intro k hk
    have := hr' k (List.mem_range.1 hk)
    have e : codeMod 12 = 3329 := rfl
    rw [e]
    simp only [v]
    split
    · rename_i h; subst h; omega
    · omega

example : (byteEncode 12 ([1, 767] ++ List.replicate 254 0)).take 4 = [0x01, 0xf0, 0x2f, 0x00] ∧
    (byteDecode 1 (0xb1 :: List.replicate 31 0)).take 9 = [1, 0, 0, 0, 1, 1, 0, 1, 0] := by decide +kernel

/-! ## C32: compression -/

/-- C32: compressing a decompressed value gives it back. -/
theorem C32_compress_decompress (d : Nat) (h1 : 1 ≤ d) (h2 : d < 12) (ys : List Int) (h : ∀ y ∈ ys, 0 ≤ y ∧ y < 2 ^ d) :
    compress d (decompress d ys) = ys := by
  unfold compress decompress
  rw [List.map_map]
  conv => rhs; rw [← List.map_id ys]
  apply List.map_congr_left
  intro y hy
  exact compress1_decompress1 d h1 (by omega) y (h y hy).1 (h y hy).2

/-- C32: the error of compression is at most `⌊(q + 2^d) / 2^(d+1)⌋`, that is `q / 2^(d+1)` rounded, modulo `q`. -/
theorem C32_error_bound (d : Nat) (h1 : 1 ≤ d) (h2 : d < 12) (x : Int) (hx0 : 0 ≤ x) (hx : x < 3329) :
    ∃ n k : Int, decompress1 d (compress1 d x) = x + n + k * 3329 ∧
      n.natAbs ≤ (3329 + 2 ^ d) / 2 ^ (d + 1) := by
  obtain ⟨n, k, h, h3, h4⟩ := decompress1_compress1 d h1 (by omega) x hx0 hx
  refine ⟨n, k, h, ?_⟩
  have e : errBound d = (((3329 + 2 ^ d) / 2 ^ (d + 1) : Nat) : Int) := by
    unfold errBound q; push_cast; rfl
  omega

/-- C32: the bound is attained for every `d`, so it cannot be improved. -/
theorem C32_bound_tight (d : Nat) (h1 : 1 ≤ d) (h2 : d < 12) :
    ∃ x n k : Int, 0 ≤ x ∧ x < 3329 ∧ decompress1 d (compress1 d x) = x + n + k * 3329 ∧
      n.natAbs = (3329 + 2 ^ d) / 2 ^ (d + 1) := by
  have hd : d = 1 ∨ d = 2 ∨ d = 3 ∨ d = 4 ∨ d = 5 ∨ d = 6 ∨ d = 7 ∨ d = 8 ∨ d = 9 ∨ d = 10 ∨ d = 11 := by omega
  rcases hd with rfl | rfl | rfl | rfl | rfl | rfl | rfl | rfl | rfl | rfl | rfl
  · exact ⟨832, -832, 0, by decide +kernel⟩
  · exact ⟨416, -416, 0, by decide +kernel⟩
  · exact ⟨208, -208, 0, by decide +kernel⟩
  · exact ⟨104, -104, 0, by decide +kernel⟩
  · exact ⟨52, -52, 0, by decide +kernel⟩
  · exact ⟨26, -26, 0, by decide +kernel⟩
  · exact ⟨13, -13, 0, by decide +kernel⟩
  · exact ⟨1658, 7, 0, by decide +kernel⟩
  · exact ⟨3, -3, 0, by decide +kernel⟩
  · exact ⟨5, 2, 0, by decide +kernel⟩
  · exact ⟨1, 1, 0, by decide +kernel⟩

example : compress 4 [0, 100, 105, 1664, 3328] = [0, 0, 1, 8, 0] ∧ decompress 4 [0, 1, 8, 15] = [0, 208, 1665, 3121] := by
  decide

/-! ## C33, C34: the transform -/

/-- A polynomial: 256 coefficients in `[0, q)`. -/
def IsPoly (f : List Int) : Prop := f.length = 256 ∧ ∀ x ∈ f, 0 ≤ x ∧ x < 3329

theorem IsPoly.at {f : List Int} (h : IsPoly f) : ∀ k < 256, 0 ≤ at0 f k ∧ at0 f k < q :=
  fun k hk => h.2 _ (at0_mem (by rw [h.1]; exact hk))

/-- C33: `ntt_inverse` inverts `ntt`. -/
theorem C33_inverse_ntt (f : List Int) (hf : IsPoly f) : nttInv (ntt f) = f :=
  list_eq_of_cast (Q := 3329) (nttInv_length _ (ntt_length f hf.1)) hf.1 (nttInv_range _ (ntt_length f hf.1)) hf.at
    (nttInv_ntt_res f hf.1)

/-- C33: `ntt` inverts `ntt_inverse`. -/
theorem C33_ntt_inverse (f : List Int) (hf : IsPoly f) : ntt (nttInv f) = f :=
  list_eq_of_cast (Q := 3329) (ntt_length _ (nttInv_length f hf.1)) hf.1 (ntt_range _ (nttInv_length f hf.1)) hf.at
    (ntt_nttInv_res f hf.1)

theorem all_of_at {l : List Int} {n : Nat} {P : Int → Prop} (hl : l.length = n) (h : ∀ k < n, P (at0 l k)) : ∀ x ∈ l, P x := by
  intro x hx
  obtain ⟨i, hi, rfl⟩ := List.mem_iff_getElem.1 hx
  have := h i (by omega)
  simpa [at0, hi] using this

/-- C33: both transforms map polynomials to polynomials. -/
theorem C33_range (f : List Int) (hf : f.length = 256) : IsPoly (ntt f) ∧ IsPoly (nttInv f) :=
  ⟨⟨ntt_length f hf, all_of_at (ntt_length f hf) (ntt_range f hf)⟩,
    ⟨nttInv_length f hf, all_of_at (nttInv_length f hf) (nttInv_range f hf)⟩⟩

/-- C34: multiplication in the transform domain is multiplication modulo `X^256 + 1` and `q`. -/
theorem C34_multiply (f g : List Int) (hf : f.length = 256) (hg : g.length = 256) :
    nttInv (multiplyNtts (ntt f) (ntt g)) = (List.range 256).map (fun k => prodCoeff f g k % 3329) := by
  have hl := multiplyNtts_length (ntt f) (ntt g)
  apply list_eq_of_cast (Q := 3329) (nttInv_length _ hl) (by simp) (nttInv_range _ hl)
  · intro k hk
    rw [map_range_at _ _ _ hk]
    exact emod_q_range _
  · intro k hk
    refine (nttInv_mul_res f g hf hg k hk).trans ?_
    rw [← prodCoeff_cast (Q := 3329)]
    unfold castK
    rw [map_range_at _ _ _ hk]
    exact (cq _).symm

/-- X * X^255 = -1. -/
example : prodCoeff (0 :: 1 :: List.replicate 254 0) (List.replicate 255 0 ++ [1]) 0 = -1 ∧
    prodCoeff (3 :: 1 :: List.replicate 254 0) (5 :: 2 :: List.replicate 254 0) 1 = 11 := by decide +kernel

/-! ## C38: sizes -/

/-- The hash functions have the output sizes of `sha3_256` and `sha3_512` (328-335). -/
structure Env.Sized (E : Env) : Prop where
  h : ∀ x, (E.h x).length = 32
  g : ∀ x, (E.g x).1.length = 32 ∧ (E.g x).2.length = 32

theorem byteEncodeVec_eq (d n : Nat) (t : Nat → List Int) :
    byteEncodeVec d ((List.range n).map t) = (List.range n).flatMap (fun i => byteEncode d (t i)) := by
  unfold byteEncodeVec; rw [List.flatMap_map]

theorem byteEncodeVec_length (d n : Nat) (t : Nat → List Int) :
    (byteEncodeVec d ((List.range n).map t)).length = n * (32 * d) := by
  rw [byteEncodeVec_eq, flatMap_length _ (32 * d) (fun i => byteEncode_length d (t i))]

theorem kpkeKeygen_sizes {P : Params} {E : Env} (hE : E.Sized) {d ek dk : Bytes} (h : kpkeKeygen P E d = some (ek, dk)) :
    ek.length = 384 * P.k + 32 ∧ dk.length = 384 * P.k := by
  unfold kpkeKeygen at h
  simp only at h
  split at h
  · simp at h
  · simp only [Option.some.injEq, Prod.mk.injEq] at h
    obtain ⟨rfl, rfl⟩ := h
    rw [List.length_append, byteEncodeVec_length, byteEncodeVec_length, (hE.g _).1]
    omega

/-- C38: key sizes. -/
theorem C38_key_sizes (P : Params) (E : Env) (hE : E.Sized) (d z ek dk : Bytes) (hz : z.length = 32)
    (h : keygen P E d z = some (ek, dk)) : ek.length = 384 * P.k + 32 ∧ dk.length = 768 * P.k + 96 := by
  unfold keygen at h
  split at h
  · simp at h
  · rename_i ek' dk' hk
    obtain ⟨h1, h2⟩ := kpkeKeygen_sizes hE hk
    simp only [Option.some.injEq, Prod.mk.injEq] at h
    obtain ⟨rfl, rfl⟩ := h
    refine ⟨h1, ?_⟩
    simp only [List.length_append, h1, h2, hE.h, hz]
    omega

theorem kpkeEncrypt_size {P : Params} {E : Env} {ek m r c : Bytes} (h : kpkeEncrypt P E ek m r = some c) :
    c.length = 32 * (P.du * P.k + P.dv) := by
  unfold kpkeEncrypt at h
  simp only at h
  split at h
  · simp at h
  · simp only [Option.some.injEq] at h
    rw [← h, List.length_append, List.flatMap_map, flatMap_length _ (32 * P.du) (fun i => byteEncode_length _ _), byteEncode_length]
    rw [Nat.mul_add, Nat.mul_comm P.k, Nat.mul_assoc]

/-- C38: the ciphertext size. -/
theorem C38_ciphertext_size (P : Params) (E : Env) (ek m key c : Bytes) (h : encaps P E ek m = some (key, c)) :
    c.length = 32 * (P.du * P.k + P.dv) := by
  unfold encaps at h
  split at h
  · simp at h
  · rename_i c' hc
    simp only [Option.some.injEq, Prod.mk.injEq] at h
    obtain ⟨_, rfl⟩ := h
    exact kpkeEncrypt_size hc

/-- The parts of a decapsulation key. -/
theorem keygen_parts {P : Params} {E : Env} (hE : E.Sized) {d z ek dk : Bytes} (hz : z.length = 32)
    (h : keygen P E d z = some (ek, dk)) :
    ∃ dp, kpkeKeygen P E d = some (ek, dp) ∧ slice dk 0 (384 * P.k) = dp ∧ slice dk (384 * P.k) (768 * P.k + 32) = ek ∧
      slice dk (768 * P.k + 32) (768 * P.k + 64) = E.h ek ∧ slice dk (768 * P.k + 64) (768 * P.k + 96) = z := by
  unfold keygen at h
  split at h
  · simp at h
  · rename_i ek' dk' hk
    obtain ⟨h1, h2⟩ := kpkeKeygen_sizes hE hk
    have h3 := hE.h ek'
    simp only [Option.some.injEq, Prod.mk.injEq] at h
    obtain ⟨rfl, rfl⟩ := h
    refine ⟨dk', hk, ?_, ?_, ?_, ?_⟩
    · rw [List.append_assoc, List.append_assoc]; exact slice_append_left _ _ _ h2
    · rw [List.append_assoc]; exact slice_mid _ _ _ _ _ h2 (by omega)
    · exact slice_mid _ _ _ _ _ (by simp [h1, h2]; omega) (by omega)
    · have := slice_mid (dk' ++ ek' ++ E.h ek') z [] (768 * P.k + 64) (768 * P.k + 96) (by simp [h1, h2, h3]; omega) (by omega)
      simpa using this

/-- C38: the encapsulation key is recovered from the decapsulation key. -/
theorem C38_public_key (P : Params) (E : Env) (hE : E.Sized) (d z ek dk : Bytes) (hz : z.length = 32)
    (h : keygen P E d z = some (ek, dk)) : getPublicKey P dk = ek := by
  obtain ⟨dp, _, _, h2, _⟩ := keygen_parts hE hz h
  exact h2

/-! ## C35: K-PKE -/

/-- Compression lengths of the parameter sets. -/
def Params.Ok (P : Params) : Prop := 1 ≤ P.du ∧ P.du ≤ 11 ∧ 1 ≤ P.dv ∧ P.dv ≤ 11

example : p512.Ok ∧ p768.Ok ∧ p1024.Ok := by
  refine ⟨⟨?_, ?_, ?_, ?_⟩, ⟨?_, ?_, ?_, ?_⟩, ⟨?_, ?_, ?_, ?_⟩⟩ <;> decide

/-- The secret polynomial `s_i` of the key made from seed `d`. -/
def sOf (P : Params) (E : Env) (d : Bytes) (i : Nat) : List Int :=
  sampleCbd P.eta1 (E.prf P.eta1 (E.g (d ++ [UInt8.ofNat P.k])).2 i)
/-- The error polynomial `e_i` of the key made from seed `d`. -/
def eOf (P : Params) (E : Env) (d : Bytes) (i : Nat) : List Int :=
  sampleCbd P.eta1 (E.prf P.eta1 (E.g (d ++ [UInt8.ofNat P.k])).2 (P.k + i))
/-- The polynomial `y_i` of the coins `r`. -/
def yOf (P : Params) (E : Env) (r : Bytes) (i : Nat) : List Int := sampleCbd P.eta1 (E.prf P.eta1 r i)
/-- The polynomial `e1_i` of the coins `r`. -/
def e1Of (P : Params) (E : Env) (r : Bytes) (i : Nat) : List Int := sampleCbd P.eta2 (E.prf P.eta2 r (P.k + i))
/-- The polynomial `e2` of the coins `r`. -/
def e2Of (P : Params) (E : Env) (r : Bytes) : List Int := sampleCbd P.eta2 (E.prf P.eta2 r (2 * P.k))
/-- The matrix entry of the key made from seed `d`. -/
def aOf (P : Params) (E : Env) (d : Bytes) (i j : Nat) : List Int :=
  (sampleNtt E ((E.g (d ++ [UInt8.ofNat P.k])).1 ++ [UInt8.ofNat j, UInt8.ofNat i])).getD []

/-- `u_i = A^T y + e1` before compression. -/
def uOf (P : Params) (E : Env) (d r : Bytes) (i : Nat) : List Int :=
  polyAdd (nttInv (accMul P.k zeroPoly (fun j => aOf P E d j i) (fun j => ntt (yOf P E r j)))) (e1Of P E r i)
/-- `t_i = A s + e` in the transform domain. -/
def tOf (P : Params) (E : Env) (d : Bytes) (i : Nat) : List Int :=
  accMul P.k (ntt (eOf P E d i)) (aOf P E d i) (fun j => ntt (sOf P E d j))
/-- `v = t y + e2 + mu` before compression. -/
def vOf (P : Params) (E : Env) (d r m : Bytes) : List Int :=
  polyAdd (polyAdd (nttInv (accMul P.k zeroPoly (tOf P E d) (fun j => ntt (yOf P E r j)))) (e2Of P E r))
    (decompress 1 (byteDecode 1 m))

/-- The accumulated noise of an encryption: `e·y + e2 + c_v - s·(e1 + c_u)`. -/
def noiseOf (P : Params) (E : Env) (d r m : Bytes) (k : Nat) : Zq :=
  noise P.k (sOf P E d) (eOf P E d) (yOf P E r) (e1Of P E r) (e2Of P E r)
    (uOf P E d r) (fun i => decompress P.du (compress P.du (uOf P E d r i)))
    (vOf P E d r m) (decompress P.dv (compress P.dv (vOf P E d r m))) k

/-- Bit `k` of a message. -/
def msgBit (m : Bytes) (k : Nat) : Int := ((bytesToBits m).getD k 0 : Nat)

theorem sampleCbd_length (eta : Nat) (b : Bytes) : (sampleCbd eta b).length = 256 := by simp [sampleCbd]

theorem compress_length (d : Nat) (l : List Int) : (compress d l).length = l.length := by simp [compress]
theorem decompress_length (d : Nat) (l : List Int) : (decompress d l).length = l.length := by simp [decompress]

/-- Decoding of an encoded reduced list. -/
theorem decode12 (f : List Int) (hf : f.length = 256) (hr : ∀ k < 256, 0 ≤ at0 f k ∧ at0 f k < q) :
    byteDecode 12 (byteEncode 12 f) = f :=
  C31_decode_encode 12 (by omega) f hf (by simpa [q] using all_of_at hf hr)

theorem decodeC (d : Nat) (h : d ≤ 11) (f : List Int) (hf : f.length = 256) :
    byteDecode d (byteEncode d (compress d f)) = compress d f := by
  refine C31_decode_encode d (by omega) _ (by rw [compress_length, hf]) ?_
  intro x hx
  simp only [compress, List.mem_map] at hx
  obtain ⟨y, _, rfl⟩ := hx
  rw [if_neg (by omega)]
  exact compress1_range d y

theorem compress1_bit (w b : Int) (n : Int) (k : Int) (hw : 0 ≤ w ∧ w < 3329) (hb : b = 0 ∨ b = 1) (h : w = 1665 * b + n + k * 3329)
    (h1 : -832 ≤ n) (h2 : n ≤ 832 - b) : compress1 1 w = b := by
  unfold compress1 q
  simp only [Int.reducePow, Int.reduceSub, Int.reduceDiv]
  rcases hb with rfl | rfl
  · have : k = 0 ∨ k = 1 := by omega
    rcases this with rfl | rfl
    · rw [show (w * 2 + 1664) / 3329 = 0 by omega]; rfl
    · rw [show (w * 2 + 1664) / 3329 = 2 by omega]; rfl
  · have : k = 0 := by omega
    subst this
    rw [show (w * 2 + 1664) / 3329 = 1 by omega]; rfl

theorem compress1_bit_conv (w b : Int) (hw : 0 ≤ w ∧ w < 3329) (hb : b = 0 ∨ b = 1) (h : compress1 1 w = b) :
    ∃ n k : Int, w = 1665 * b + n + k * 3329 ∧ -832 ≤ n ∧ n ≤ 832 - b := by
  unfold compress1 q at h
  simp only [Int.reducePow, Int.reduceSub, Int.reduceDiv] at h
  rcases hb with rfl | rfl
  · have h3 : (w * 2 + 1664) / 3329 = 0 ∨ (w * 2 + 1664) / 3329 = 2 := by omega
    rcases h3 with h3 | h3
    · exact ⟨w, 0, by omega, by omega, by omega⟩
    · exact ⟨w - 3329, 1, by omega, by omega, by omega⟩
  · have h3 : (w * 2 + 1664) / 3329 = 1 := by omega
    exact ⟨w - 1665, 0, by omega, by omega, by omega⟩

theorem byteDecode1_at (m : Bytes) (hm : m.length = 32) (k : Nat) (hk : k < 256) : at0 (byteDecode 1 m) k = msgBit m k := by
  have hl : k < (bytesToBits m).length := by rw [bytesToBits_length, hm]; exact hk
  unfold byteDecode msgBit
  simp only
  rw [map_range_at _ _ _ hk]
  have hb := bytesToBits_isBits m _ (List.getElem_mem hl)
  rw [Nat.mul_one]
  have : ((bytesToBits m).drop k).take 1 = [(bytesToBits m)[k]] := by
    rw [List.drop_eq_getElem_cons hl]; rfl
  rw [this]
  have e : codeMod 1 = 2 := rfl
  rw [e]
  simp only [bitsVal, List.getD_eq_getElem?_getD, List.getElem?_eq_getElem hl, Option.getD_some]
  omega

theorem msgBit_bit (m : Bytes) (k : Nat) : msgBit m k = 0 ∨ msgBit m k = 1 := by
  unfold msgBit
  by_cases hl : k < (bytesToBits m).length
  · have hb := bytesToBits_isBits m _ (List.getElem_mem hl)
    simp only [List.getD_eq_getElem?_getD, List.getElem?_eq_getElem hl, Option.getD_some]
    omega
  · simp [List.getElem?_eq_none (Nat.not_lt.mp hl)]

attribute [local irreducible] ntt nttInv accMul polyAdd polySub byteEncode byteDecode compress decompress sampleCbd sampleNtt

/-- What `k_pke_decrypt` computes on an honest ciphertext: message plus noise, compressed. -/
theorem decrypt_encrypt_eq {P : Params} (hP : P.Ok) {E : Env} (hE : E.Sized) {d m r ek dk c : Bytes} (hm : m.length = 32)
    (hk : kpkeKeygen P E d = some (ek, dk)) (hc : kpkeEncrypt P E ek m r = some c) :
    ∃ w : List Int, kpkeDecrypt P dk c = byteEncode 1 (compress 1 w) ∧ IsPoly w ∧
      ∀ k < 256, res w k = ((1665 * msgBit m k : Int) : Zq) + noiseOf P E d r m k := by
  have hrho := (hE.g (d ++ [UInt8.ofNat P.k])).1
  unfold kpkeKeygen at hk
  simp only at hk
  split at hk
  · simp at hk
  rename_i a ha
  simp only [Option.some.injEq, Prod.mk.injEq] at hk
  obtain ⟨hek, hdk⟩ := hk
  have haOf : ∀ i j, a i j = aOf P E d i j := by
    unfold genMatrix at ha
    simp only at ha
    split at ha
    · simp only [Option.some.injEq] at ha
      intro i j; rw [← ha]; rfl
    · simp at ha
  -- the parts of the encapsulation key
  have htl : ∀ i, (tOf P E d i).length = 256 := fun i => accMul_length _ _ _ _ (ntt_length _ (sampleCbd_length _ _))
  have htr : ∀ i, ∀ k < 256, 0 ≤ at0 (tOf P E d i) k ∧ at0 (tOf P E d i) k < q :=
    fun i => accMul_range _ _ _ _ (ntt_range _ (sampleCbd_length _ _))
  have hek' : ek = (List.range P.k).flatMap (fun i => byteEncode 12 (tOf P E d i)) ++ (E.g (d ++ [UInt8.ofNat P.k])).1 := by
    rw [← hek, byteEncodeVec_eq]
    congr 1
    apply flatMap_congr'
    intro i _
    unfold tOf
    rw [show a i = aOf P E d i from funext (haOf i)]
    rfl
  have hdk' : dk = (List.range P.k).flatMap (fun i => byteEncode 12 (ntt (sOf P E d i))) ++ [] := by
    rw [← hdk, byteEncodeVec_eq, List.append_nil]; rfl
  have hlen12 : ∀ f : Nat → List Int, ((List.range P.k).flatMap (fun i => byteEncode 12 (f i))).length = 384 * P.k := by
    intro f; rw [flatMap_length _ 384 (fun i => byteEncode_length 12 _), Nat.mul_comm]
  have hrho' : slice ek (384 * P.k) (384 * P.k + 32) = (E.g (d ++ [UInt8.ofNat P.k])).1 := by
    have := slice_mid ((List.range P.k).flatMap (fun i => byteEncode 12 (tOf P E d i))) (E.g (d ++ [UInt8.ofNat P.k])).1 []
      (384 * P.k) (384 * P.k + 32) (hlen12 _) (by omega)
    rw [hek']; simpa using this
  -- encryption
  unfold kpkeEncrypt at hc
  simp only [hrho', ha] at hc
  simp only [Option.some.injEq] at hc
  generalize htd : (fun i => byteDecode 12 (slice ek (384 * i) (384 * (i + 1)))) = td at hc
  have htd' : ∀ i < P.k, td i = tOf P E d i := by
    intro i hi
    rw [← htd]
    simp only
    rw [hek', slice_chunk _ 384 P.k i (fun i => byteEncode_length 12 _) hi, decode12 _ (htl i) (htr i)]
  have hacc : accMul P.k zeroPoly td (fun j => ntt (yOf P E r j)) = accMul P.k zeroPoly (tOf P E d) (fun j => ntt (yOf P E r j)) := by
    unfold accMul
    apply List.foldl_ext
    intro acc j hj
    rw [htd' j (List.mem_range.1 hj)]
  have hu : ∀ i, polyAdd (nttInv (accMul P.k zeroPoly (fun j => a j i) (fun i => ntt (sampleCbd P.eta1 (E.prf P.eta1 r i)))))
      (sampleCbd P.eta2 (E.prf P.eta2 r (P.k + i))) = uOf P E d r i := by
    intro i
    unfold uOf
    rw [show (fun j => a j i) = fun j => aOf P E d j i from funext (fun j => haOf j i)]
    rfl
  have hc' : c = (List.range P.k).flatMap (fun i => byteEncode P.du (compress P.du (uOf P E d r i))) ++
      byteEncode P.dv (compress P.dv (vOf P E d r m)) := by
    rw [← hc, List.flatMap_map]
    congr 1
    · apply flatMap_congr'; intro i _; rw [hu i]
    · unfold vOf; rw [← hacc]; rfl
  have hul : ∀ i, (uOf P E d r i).length = 256 := fun i => polyAdd_length _ _
  have hvl : (vOf P E d r m).length = 256 := polyAdd_length _ _
  have hc1l : ((List.range P.k).flatMap (fun i => byteEncode P.du (compress P.du (uOf P E d r i)))).length = 32 * P.du * P.k := by
    rw [flatMap_length _ (32 * P.du) (fun i => byteEncode_length _ _), Nat.mul_comm]
  -- decryption
  have hc1 : slice c 0 (32 * P.du * P.k) = (List.range P.k).flatMap (fun i => byteEncode P.du (compress P.du (uOf P E d r i))) ++ [] := by
    rw [hc', slice_append_left _ _ _ hc1l, List.append_nil]
  have hc2 : slice c (32 * P.du * P.k) (32 * (P.du * P.k + P.dv)) = byteEncode P.dv (compress P.dv (vOf P E d r m)) := by
    have := slice_mid ((List.range P.k).flatMap (fun i => byteEncode P.du (compress P.du (uOf P E d r i))))
      (byteEncode P.dv (compress P.dv (vOf P E d r m))) [] (32 * P.du * P.k) (32 * (P.du * P.k + P.dv)) hc1l
      (by rw [byteEncode_length, Nat.mul_add, Nat.mul_assoc])
    rw [hc']; simpa using this
  let up := fun i => decompress P.du (compress P.du (uOf P E d r i))
  let vp := decompress P.dv (compress P.dv (vOf P E d r m))
  let w := polySub vp (nttInv (accMul P.k zeroPoly (fun i => ntt (sOf P E d i)) (fun i => ntt (up i))))
  refine ⟨w, ?_, ⟨polySub_length _ _, all_of_at (polySub_length _ _) (polySub_range _ _)⟩, ?_⟩
  · unfold kpkeDecrypt
    simp only [hc1, hc2]
    rw [decodeC P.dv hP.2.2.2 _ hvl]
    have : accMul P.k zeroPoly (fun i => byteDecode 12 (slice dk (384 * i) (384 * (i + 1))))
        (fun i => ntt (decompress P.du (byteDecode P.du (slice ((List.range P.k).flatMap (fun i => byteEncode P.du (compress P.du (uOf P E d r i))) ++ [])
          (32 * P.du * i) (32 * P.du * (i + 1)))))) = accMul P.k zeroPoly (fun i => ntt (sOf P E d i)) (fun i => ntt (up i)) := by
      unfold accMul
      apply List.foldl_ext
      intro acc j hj
      have hj := List.mem_range.1 hj
      beta_reduce
      rw [hdk', slice_chunk _ 384 P.k j (fun i => byteEncode_length 12 _) hj,
        slice_chunk _ (32 * P.du) P.k j (fun i => byteEncode_length _ _) hj,
        decode12 (ntt (sOf P E d j)) (ntt_length _ (sampleCbd_length _ _)) (ntt_range _ (sampleCbd_length _ _)), decodeC P.du hP.2.1 _ (hul j)]
    rw [this]
  · intro k hk
    have := decrypt_equation P.k (aOf P E d) (sOf P E d) (eOf P E d) (yOf P E r) (e1Of P E r) (e2Of P E r)
      (decompress 1 (byteDecode 1 m)) up vp (fun i => sampleCbd_length _ _) (fun i => sampleCbd_length _ _) (fun i => sampleCbd_length _ _)
      (fun i => by rw [decompress_length, compress_length, hul]) (tOf P E d) (uOf P E d r) (vOf P E d r m) w
      (fun i _ => rfl) (fun i _ => rfl) rfl rfl k hk
    rw [this]
    have hmu : res (decompress 1 (byteDecode 1 m)) k = ((1665 * msgBit m k : Int) : Zq) := by
      simp only [res, castK, decompress]
      rw [map_at _ _ _ (by rw [byteDecode_length]; exact hk), byteDecode1_at m hm k hk]
      congr 1
      rcases msgBit_bit m k with h | h <;> rw [h] <;> rfl
    rw [hmu]
    rfl

/-- C35: decryption returns the message if and only if, at every coefficient, the noise lies in `[-832, 832]` where the
message bit is 0 and in `[-832, 831]` where it is 1. -/
theorem C35_decrypt_iff (P : Params) (hP : P.Ok) (E : Env) (hE : E.Sized) (d m r ek dk c : Bytes) (hm : m.length = 32)
    (hk : kpkeKeygen P E d = some (ek, dk)) (hc : kpkeEncrypt P E ek m r = some c) :
    kpkeDecrypt P dk c = m ↔
      ∀ k < 256, ∃ n : Int, noiseOf P E d r m k = (n : Zq) ∧ -832 ≤ n ∧ n ≤ 832 - msgBit m k := by
  obtain ⟨w, hw, hp, hn⟩ := decrypt_encrypt_eq hP hE hm hk hc
  have hbit : kpkeDecrypt P dk c = m ↔ ∀ k < 256, compress1 1 (at0 w k) = msgBit m k := by
    have hcm : ∀ k < 256, at0 (compress 1 w) k = compress1 1 (at0 w k) := fun k hk => by
      unfold compress; rw [map_at _ _ _ (by rw [hp.1]; exact hk)]
    rw [hw]
    constructor
    · intro h k hk
      have h2 := decodeC 1 (by omega) w hp.1
      rw [h] at h2
      rw [← byteDecode1_at m hm k hk, h2, hcm k hk]
    · intro h
      have : compress 1 w = byteDecode 1 m := by
        apply List.ext_getElem (by rw [compress_length, hp.1, byteDecode_length])
        intro i h1 h2
        have hi : i < 256 := by rw [byteDecode_length] at h2; exact h2
        have h3 := (hcm i hi).trans ((h i hi).trans (byteDecode1_at m hm i hi).symm)
        simpa [at0, h1, h2] using h3
      rw [this, byteEncode_byteDecode 1 (by omega) m (by omega)]
  rw [hbit]
  constructor
  · intro h k hk
    obtain ⟨n, j, h1, h2, h3⟩ := compress1_bit_conv (at0 w k) (msgBit m k) (hp.at k hk) (msgBit_bit m k) (h k hk)
    refine ⟨n, ?_, h2, h3⟩
    have h4 := hn k hk
    simp only [res, castK] at h4
    rw [h1] at h4
    have h5 : ((1665 * msgBit m k + n + j * 3329 : Int) : Zq) = ((1665 * msgBit m k : Int) : Zq) + (n : Zq) := by
      rw [Int.cast_add, Int.cast_add, Int.cast_mul j, show ((3329 : Int) : Zq) = 0 from rfl, mul_zero, add_zero]
    rw [h5] at h4
    exact (add_left_cancel h4).symm
  · intro h k hk
    obtain ⟨n, h1, h2, h3⟩ := h k hk
    have h4 := hn k hk
    simp only [res, castK] at h4
    rw [h1, ← Int.cast_add, ZMod.intCast_eq_intCast_iff] at h4
    obtain ⟨j, hj⟩ := h4.symm.dvd
    exact compress1_bit (at0 w k) (msgBit m k) n j (hp.at k hk) (msgBit_bit m k) (by push_cast at hj; omega) h2 h3

/-- C35: in particular decryption returns the message when all noise coefficients are below 832 in absolute value. -/
theorem C35_decrypt_encrypt (P : Params) (hP : P.Ok) (E : Env) (hE : E.Sized) (d m r ek dk c : Bytes) (hm : m.length = 32)
    (hk : kpkeKeygen P E d = some (ek, dk)) (hc : kpkeEncrypt P E ek m r = some c)
    (hn : ∀ k < 256, ∃ n : Int, noiseOf P E d r m k = (n : Zq) ∧ n.natAbs < 832) : kpkeDecrypt P dk c = m := by
  refine (C35_decrypt_iff P hP E hE d m r ek dk c hm hk hc).2 (fun k hk => ?_)
  obtain ⟨n, h1, h2⟩ := hn k hk
  refine ⟨n, h1, by omega, ?_⟩
  rcases msgBit_bit m k with h | h <;> omega

/-! ## C36, C37: ML-KEM -/

/-- C36: the decapsulated key is the encapsulated key, for noise in the range of C35. -/
theorem C36_agreement (P : Params) (hP : P.Ok) (E : Env) (hE : E.Sized) (d z m ek dk key c : Bytes)
    (hz : z.length = 32) (hm : m.length = 32) (hk : keygen P E d z = some (ek, dk)) (hc : encaps P E ek m = some (key, c))
    (hn : ∀ k < 256, ∃ n : Int, noiseOf P E d (E.g (m ++ E.h ek)).2 m k = (n : Zq) ∧ -832 ≤ n ∧ n ≤ 832 - msgBit m k) :
    decaps P E dk c = some key := by
  obtain ⟨dp, h1, h2, h3, h4, h5⟩ := keygen_parts hE hz hk
  unfold encaps at hc
  split at hc
  · simp at hc
  rename_i c' hce
  simp only [Option.some.injEq, Prod.mk.injEq] at hc
  obtain ⟨rfl, rfl⟩ := hc
  have hd := (C35_decrypt_iff P hP E hE d m _ ek dp c' hm h1 hce).2 hn
  unfold decaps
  simp only [h2, h3, h4, hd, hce, ne_eq, not_true_eq_false, if_false]

/-- C37: decapsulation accepts exactly the re-encryption of the decrypted message and otherwise returns `J(z ‖ c)`; with
an honest key it always returns one of the two. -/
theorem C37_implicit_rejection (P : Params) (E : Env) (hE : E.Sized) (d z ek dk : Bytes) (hz : z.length = 32)
    (hk : keygen P E d z = some (ek, dk)) (c : Bytes) :
    ∃ mp cp, kpkeEncrypt P E ek mp (E.g (mp ++ E.h ek)).2 = some cp ∧
      ((c = cp ∧ decaps P E dk c = some (E.g (mp ++ E.h ek)).1) ∨ (c ≠ cp ∧ decaps P E dk c = some (E.j (z ++ c)))) := by
  obtain ⟨dp, h1, h2, h3, h4, h5⟩ := keygen_parts hE hz hk
  have hrho : slice ek (384 * P.k) (384 * P.k + 32) = (E.g (d ++ [UInt8.ofNat P.k])).1 ∧
      ∃ a, genMatrix P E (E.g (d ++ [UInt8.ofNat P.k])).1 = some a := by
    unfold kpkeKeygen at h1
    simp only at h1
    split at h1
    · simp at h1
    rename_i a ha
    simp only [Option.some.injEq, Prod.mk.injEq] at h1
    refine ⟨?_, a, ha⟩
    rw [← h1.1]
    have := slice_mid (byteEncodeVec 12 ((List.range P.k).map (fun i => accMul P.k (ntt (sampleCbd P.eta1 (E.prf P.eta1 (E.g (d ++ [UInt8.ofNat P.k])).2 (P.k + i)))) (a i)
      (fun i => ntt (sampleCbd P.eta1 (E.prf P.eta1 (E.g (d ++ [UInt8.ofNat P.k])).2 i)))))) (E.g (d ++ [UInt8.ofNat P.k])).1 []
      (384 * P.k) (384 * P.k + 32) (by rw [byteEncodeVec_length]; omega) (by have := (hE.g (d ++ [UInt8.ofNat P.k])).1; omega)
    simpa using this
  obtain ⟨hr1, a, ha⟩ := hrho
  have henc : ∀ m r, ∃ cp, kpkeEncrypt P E ek m r = some cp := by
    intro m r
    unfold kpkeEncrypt
    simp only [hr1, ha]
    exact ⟨_, rfl⟩
  obtain ⟨cp, hcp⟩ := henc (kpkeDecrypt P dp c) (E.g (kpkeDecrypt P dp c ++ E.h ek)).2
  refine ⟨kpkeDecrypt P dp c, cp, hcp, ?_⟩
  unfold decaps
  simp only [h2, h3, h4, h5, hcp]
  by_cases h : c = cp
  · left; exact ⟨h, by rw [if_neg (fun hh => hh h)]⟩
  · right; exact ⟨h, by rw [if_pos h]⟩

/-- C37: a ciphertext that differs from an honest one but decrypts to the same message is rejected. -/
theorem C37_tampered (P : Params) (hP : P.Ok) (E : Env) (hE : E.Sized) (d z m ek dk key c c' : Bytes)
    (hz : z.length = 32) (hm : m.length = 32) (hk : keygen P E d z = some (ek, dk)) (hc : encaps P E ek m = some (key, c))
    (hn : ∀ k < 256, ∃ n : Int, noiseOf P E d (E.g (m ++ E.h ek)).2 m k = (n : Zq) ∧ -832 ≤ n ∧ n ≤ 832 - msgBit m k)
    (hne : c' ≠ c) (hdec : kpkeDecrypt P (slice dk 0 (384 * P.k)) c' = kpkeDecrypt P (slice dk 0 (384 * P.k)) c) :
    decaps P E dk c' = some (E.j (z ++ c')) := by
  obtain ⟨dp, h1, h2, h3, h4, h5⟩ := keygen_parts hE hz hk
  unfold encaps at hc
  split at hc
  · simp at hc
  rename_i c'' hce
  simp only [Option.some.injEq, Prod.mk.injEq] at hc
  obtain ⟨rfl, rfl⟩ := hc
  have hd := (C35_decrypt_iff P hP E hE d m _ ek dp c'' hm h1 hce).2 hn
  rw [h2, hd] at hdec
  unfold decaps
  simp only [h2, h3, h4, h5, hdec, hce, ne_eq, hne, not_false_eq_true, if_true]

/-! ### The hypotheses of C35 and C36 can be met -/

/-- An environment whose PRF and XOF return zeros. -/
def zeroEnv : Env where
  h := fun _ => List.replicate 32 1
  g := fun x => (List.replicate 32 2, (x ++ List.replicate 32 3).take 32)
  j := fun _ => List.replicate 32 4
  prf := fun eta _ _ => List.replicate (64 * eta) 0
  xof := fun _ _ => 0
  fuel := 128

theorem zeroEnv_sized : zeroEnv.Sized := ⟨fun _ => by simp [zeroEnv], fun _ => by simp [zeroEnv]⟩

theorem cbd_zero (eta n : Nat) : ∀ k, at0 (sampleCbd eta (List.replicate n 0)) k = 0 := by
  have hb : bytesToBits (List.replicate n 0) = List.replicate (n * 8) 0 := by
    induction n with
    | zero => rfl
    | succ n ih => rw [List.replicate_succ, bytesToBits_cons, ih, Nat.succ_mul, Nat.add_comm, List.replicate_add]; rfl
  intro k
  unfold sampleCbd
  simp only [hb, List.drop_replicate, List.take_replicate, List.sum_replicate]
  generalize 256 = M
  by_cases hk : k < M
  · rw [map_range_at _ _ _ hk]; simp
  · simp [at0, hk]

/-- The PRF returns zeros. -/
def Env.ZeroPrf (E : Env) : Prop := ∀ eta x i, E.prf eta x i = List.replicate (64 * eta) 0

theorem zeroEnv_prf : zeroEnv.ZeroPrf := fun _ _ _ => rfl

theorem zero_cbd {E : Env} (hE : E.ZeroPrf) (eta : Nat) (x : Bytes) (i : Nat) : res (sampleCbd eta (E.prf eta x i)) = fun _ => 0 := by
  funext k
  simp only [res, castK]
  rw [hE eta x i, cbd_zero]; simp

theorem negMul_zero_left (G : Nat → Zq) (k : Nat) : negMul 256 (fun _ => 0) G k = 0 := by
  unfold negMul; simp

theorem hat_ntt_zero {f : List Int} (hf : f.length = 256) (h : res f = fun _ => 0) : hat (ntt f) = 0 := by
  rw [hat_ntt f hf, h, N_zero]

theorem inv_acc_zero (n : Nat) (f g : Nat → List Int) (h : ∀ j, hat (g j) = 0) :
    ∀ k < 256, res (nttInv (accMul n zeroPoly f g)) k = 0 := by
  have h1 : N (res (nttInv (accMul n zeroPoly f g))) = N (fun _ => 0) := by
    rw [N_nttInv _ (accMul_length _ _ _ _ zeroPoly_length), hat_accMul, hat_zero, N_zero, zero_add]
    exact Finset.sum_eq_zero (fun j _ => by rw [h j, mul_zero])
  exact N_inj h1

theorem zero_noise {E : Env} (hE : E.ZeroPrf) (P : Params) (hP : P.Ok) (hdv : P.dv = 4 ∨ P.dv = 5) (d r m : Bytes) (hm : m.length = 32) (k : Nat) (hk : k < 256) :
    noiseOf P E d r m k = 0 := by
  have hv : ∀ k < 256, at0 (vOf P E d r m) k = 1665 * msgBit m k := by
    intro k hk
    have h2 : at0 (decompress 1 (byteDecode 1 m)) k = 1665 * msgBit m k := by
      unfold decompress
      rw [map_at _ _ _ (by rw [byteDecode_length]; exact hk), byteDecode1_at m hm k hk]
      rcases msgBit_bit m k with h | h <;> rw [h] <;> rfl
    have h1 : res (vOf P E d r m) k = ((1665 * msgBit m k : Int) : Zq) := by
      unfold vOf
      rw [polyAdd_res _ _ k hk, polyAdd_res _ _ k hk, inv_acc_zero P.k (tOf P E d) (fun j => ntt (yOf P E r j)) (fun j => hat_ntt_zero (sampleCbd_length _ _) (zero_cbd hE _ _ _)) k hk]
      unfold e2Of
      rw [zero_cbd hE, ← h2]
      simp only [zero_add, res, castK]
    have hr := polyAdd_range (polyAdd (nttInv (accMul P.k zeroPoly (tOf P E d) (fun j => ntt (yOf P E r j)))) (e2Of P E r))
      (decompress 1 (byteDecode 1 m)) k hk
    exact int_eq_of_cast (Q := 3329) hr (by rcases msgBit_bit m k with h | h <;> rw [h] <;> decide) h1
  unfold noiseOf noise
  have hs : ∀ i, res (sOf P E d i) = fun _ => 0 := fun i => zero_cbd hE _ _ _
  have he : ∀ i, res (eOf P E d i) = fun _ => 0 := fun i => zero_cbd hE _ _ _
  have he2 : res (e2Of P E r) k = 0 := congrFun (zero_cbd hE _ _ _) k
  rw [he2]
  simp only [hs, he, negMul_zero_left, sub_zero, Finset.sum_const_zero, zero_add]
  rw [sub_eq_zero]
  simp only [res, castK]
  congr 1
  have hvl : (vOf P E d r m).length = 256 := polyAdd_length _ _
  unfold decompress compress
  rw [map_at _ _ _ (by rw [List.length_map, hvl]; exact hk), map_at _ _ _ (by rw [hvl]; exact hk), hv k hk]
  rcases msgBit_bit m k with h | h <;> rcases hdv with h2 | h2 <;> rw [h, h2] <;> rfl

theorem zero_matrix {E : Env} (hx : E.xof = fun _ _ => 0) (hf : E.fuel = 128) (P : Params) (rho : Bytes) : ∃ a, genMatrix P E rho = some a := by
  have h : ∀ b, (sampleNtt E b).isSome = true := by
    intro b
    have : sampleNtt E b = sampleLoop (fun _ => 0) 128 0 [] := by unfold sampleNtt; rw [hx, hf]
    rw [this]
    decide +kernel
  unfold genMatrix
  simp only [h]
  exact ⟨_, if_pos (by simp)⟩

/-- Key generation and encapsulation succeed and every message meets the noise condition in this environment, for the
three parameter sets: the hypotheses of C35 and C36 are satisfiable. -/
example (P : Params) (hP : P = p512 ∨ P = p768 ∨ P = p1024) (d z m : Bytes) (hz : z.length = 32) (hm : m.length = 32) :
    ∃ ek dk key c, keygen P zeroEnv d z = some (ek, dk) ∧ encaps P zeroEnv ek m = some (key, c) ∧
      decaps P zeroEnv dk c = some key := by
  have hok : P.Ok ∧ (P.dv = 4 ∨ P.dv = 5) := by
    rcases hP with rfl | rfl | rfl <;> exact ⟨⟨by decide, by decide, by decide, by decide⟩, by decide⟩
  obtain ⟨a, ha⟩ := zero_matrix (E := zeroEnv) rfl rfl P (zeroEnv.g (d ++ [UInt8.ofNat P.k])).1
  have hkg : ∃ ek dk, keygen P zeroEnv d z = some (ek, dk) := by
    unfold keygen kpkeKeygen
    simp only [ha]
    exact ⟨_, _, rfl⟩
  obtain ⟨ek, dk, hkg⟩ := hkg
  have hen : ∃ key c, encaps P zeroEnv ek m = some (key, c) := by
    obtain ⟨a', ha'⟩ := zero_matrix (E := zeroEnv) rfl rfl P (slice ek (384 * P.k) (384 * P.k + 32))
    unfold encaps kpkeEncrypt
    simp only [ha']
    exact ⟨_, _, rfl⟩
  obtain ⟨key, c, hen⟩ := hen
  refine ⟨ek, dk, key, c, hkg, hen, C36_agreement P hok.1 zeroEnv zeroEnv_sized d z m ek dk key c hz hm hkg hen (fun k hk => ?_)⟩
  refine ⟨0, by rw [zero_noise zeroEnv_prf P hok.1 hok.2 _ _ _ hm k hk]; simp, by omega, ?_⟩
  rcases msgBit_bit m k with h | h <;> omega

/-! ## C39: sampling -/

/-- The 12-bit numbers in a byte stream from position `p`, two per three bytes, little endian. -/
def candidates (s : Nat → UInt8) : Nat → Nat → List Int
  | 0, _ => []
  | n + 1, p =>
    (((s p).toNat + 256 * (s (p + 1)).toNat + 65536 * (s (p + 2)).toNat) % 4096 : Nat) ::
    (((s p).toNat + 256 * (s (p + 1)).toNat + 65536 * (s (p + 2)).toNat) / 4096 : Nat) :: candidates s n (p + 3)

theorem sampleLoop_spec (s : Nat → UInt8) : ∀ (fuel p : Nat) (a r : List Int), a.length ≤ 256 →
    sampleLoop s fuel p a = some r →
    r = (a ++ (candidates s fuel p).filter (fun x => x < 3329)).take 256 ∧ r.length = 256 := by
  intro fuel
  induction fuel with
  | zero =>
    intro p a r ha h
    unfold sampleLoop at h
    split at h
    · simp at h
    · simp only [Option.some.injEq] at h
      subst h
      simp only [candidates, List.filter_nil, List.append_nil]
      exact ⟨by rw [List.take_of_length_le ha], by omega⟩
  | succ n ih =>
    intro p a r ha h
    unfold sampleLoop at h
    split at h
    · rename_i hlt
      simp only at h
      have b0 := (s p).toNat_lt
      have b1 := (s (p + 1)).toNat_lt
      have b2 := (s (p + 2)).toNat_lt
      have e1 : (((s p).toNat : Int) + 256 * (((s (p + 1)).toNat : Int) % 16)) =
          (((s p).toNat + 256 * (s (p + 1)).toNat + 65536 * (s (p + 2)).toNat) % 4096 : Nat) := by omega
      have e2 : (((s (p + 1)).toNat : Int) / 16 + 16 * ((s (p + 2)).toNat : Int)) =
          (((s p).toNat + 256 * (s (p + 1)).toNat + 65536 * (s (p + 2)).toNat) / 4096 : Nat) := by omega
      rw [e1, e2] at h
      unfold candidates
      generalize (((s p).toNat + 256 * (s (p + 1)).toNat + 65536 * (s (p + 2)).toNat) % 4096 : Nat) = x at *
      generalize (((s p).toNat + 256 * (s (p + 1)).toNat + 65536 * (s (p + 2)).toNat) / 4096 : Nat) = y at *
      have hq : q = 3329 := rfl
      rw [hq] at h
      by_cases hx : (x : Int) < 3329
      · rw [if_pos hx] at h
        by_cases hy : (y : Int) < 3329
        · by_cases hf : (a ++ [(x : Int)]).length < 256
          · rw [if_pos ⟨hy, hf⟩] at h
            obtain ⟨h1, h2⟩ := ih (p + 3) _ r (by simp at hf ⊢; omega) h
            refine ⟨?_, h2⟩
            rw [h1]
            simp [hx, hy]
          · rw [if_neg (fun hh => hf hh.2)] at h
            obtain ⟨h1, h2⟩ := ih (p + 3) _ r (by simp; omega) h
            refine ⟨?_, h2⟩
            have hl : (a ++ [(x : Int)]).length = 256 := by
              have : (a ++ [(x : Int)]).length = a.length + 1 := by simp
              omega
            rw [h1, List.take_append_of_le_length (by omega)]
            simp only [List.filter_cons, hx, hy, decide_true, if_true]
            rw [show a ++ (x : Int) :: (y : Int) :: (candidates s n (p + 3)).filter (fun x => decide (x < 3329)) =
              (a ++ [(x : Int)]) ++ ((y : Int) :: (candidates s n (p + 3)).filter (fun x => decide (x < 3329))) by simp]
            exact (List.take_append_of_le_length (Nat.le_of_eq hl.symm)).symm
        · rw [if_neg (fun hh => hy hh.1)] at h
          obtain ⟨h1, h2⟩ := ih (p + 3) _ r (by simp; omega) h
          refine ⟨?_, h2⟩
          rw [h1]
          simp [hx, hy]
      · rw [if_neg hx] at h
        by_cases hy : (y : Int) < 3329
        · rw [if_pos ⟨hy, hlt⟩] at h
          obtain ⟨h1, h2⟩ := ih (p + 3) _ r (by simp; omega) h
          refine ⟨?_, h2⟩
          rw [h1]
          simp [hx, hy]
        · rw [if_neg (fun hh => hy hh.1)] at h
          obtain ⟨h1, h2⟩ := ih (p + 3) _ r ha h
          refine ⟨?_, h2⟩
          rw [h1]
          simp [hx, hy]
    · simp only [Option.some.injEq] at h
      subst h
      exact ⟨by rw [List.take_append_of_le_length (by omega), List.take_of_length_le ha], by omega⟩

/-- C39: `sample_ntt` returns the first 256 of the 12-bit numbers of the stream that are below `q`, in order. -/
theorem C39_sample_ntt (E : Env) (b : Bytes) (a : List Int) (h : sampleNtt E b = some a) :
    a = ((candidates (E.xof b) E.fuel 0).filter (fun x => x < 3329)).take 256 ∧ a.length = 256 := by
  have := sampleLoop_spec (E.xof b) E.fuel 0 [] a (by simp) (by unfold sampleNtt at h; exact h)
  simpa using this

/-- C39: in particular the sampled polynomial is reduced. -/
theorem C39_sample_ntt_poly (E : Env) (b : Bytes) (a : List Int) (h : sampleNtt E b = some a) : IsPoly a := by
  obtain ⟨h1, h2⟩ := C39_sample_ntt E b a h
  refine ⟨h2, fun x hx => ?_⟩
  rw [h1] at hx
  obtain ⟨h3, h4⟩ := List.mem_filter.1 (List.mem_of_mem_take hx)
  refine ⟨?_, by simpa using h4⟩
  have : ∀ (s : Nat → UInt8) (n p : Nat), ∀ x ∈ candidates s n p, 0 ≤ x := by
    intro s n
    induction n with
    | zero => intro p x hx; simp [candidates] at hx
    | succ n ih =>
      intro p x hx
      simp only [candidates, List.mem_cons] at hx
      rcases hx with rfl | rfl | hx
      · omega
      · omega
      · exact ih _ x hx
  exact this _ _ _ x h3

theorem sum_le_of_bits (l : List Nat) (h : IsBits l) : l.sum ≤ l.length := by
  induction l with
  | nil => simp
  | cons b l ih =>
    have := h b (by simp)
    have := ih (fun x hx => h x (by simp [hx]))
    simp only [List.sum_cons, List.length_cons]; omega

/-- C39: the coefficients of `sample_poly_cbd` are residues of numbers between `-eta` and `eta`: the difference of the
numbers of ones in two blocks of `eta` bits. -/
theorem C39_cbd (eta : Nat) (b : Bytes) (k : Nat) (hk : k < 256) :
    ∃ x y : Nat, x ≤ eta ∧ y ≤ eta ∧ at0 (sampleCbd eta b) k = ((x : Int) - y) % 3329 := by
  unfold sampleCbd
  simp only
  rw [map_range_at _ _ _ hk]
  have hb : ∀ n, ((((bytesToBits b).drop n).take eta).sum) ≤ eta := by
    intro n
    have h1 := sum_le_of_bits (((bytesToBits b).drop n).take eta)
      (fun x hx => bytesToBits_isBits b x (List.mem_of_mem_drop (List.mem_of_mem_take hx)))
    simp only [List.length_take] at h1
    omega
  exact ⟨_, _, hb _, hb _, by push_cast; rfl⟩

example : at0 (sampleCbd 2 (List.replicate 128 0x3c)) 4 = 3327 ∧ at0 (sampleCbd 2 (List.replicate 128 0x3c)) 5 = 2 ∧
    candidates (fun _ => 0xff) 1 0 = [4095, 4095] := by decide +kernel

end Verif.PQ.Kem
