import Verif.CA.Base
import Verif.CA.Msg
import Verif.PQ.Loops

/-!
# ML-KEM (`pq_logic/fips/fips203.py`)

Coefficients are Python integers (`Int`), bits are `Nat`, byte strings `List UInt8`. The hash functions, the PRF
and the XOF (an infinite byte stream) are the fields of `Env`. Calls outside the domain of a function (lists that
are too short, which raise `IndexError` in Python) are not modelled: reads outside a list give 0.
-/

namespace Verif.PQ.Kem

open Verif.CA (Bytes PyErr)

/-- `fips203.py` 21-23, `ML_KEM_PARAM`: `(k, eta1, eta2, du, dv)`. -/
structure Params where
  k : Nat
  eta1 : Nat
  eta2 : Nat
  du : Nat
  dv : Nat
  deriving DecidableEq

/-- ml-kem-512 (23). -/
def p512 : Params := ⟨2, 3, 2, 10, 4⟩
/-- ml-kem-768 (23). -/
def p768 : Params := ⟨3, 2, 2, 10, 4⟩
/-- ml-kem-1024 (23). -/
def p1024 : Params := ⟨4, 2, 2, 11, 5⟩

/-- `self.q` (321). -/
def q : Int := 3329

/-- `fips203.py` 30-159, `ML_KEM_ZETA_NTT`. -/
def zetaNtt : List Int := [
  1, 1729, 2580, 3289, 2642, 630, 1897, 848, 1062, 1919, 193, 797, 2786, 3260, 569, 1746, 296, 2447, 1339,
  1476, 3046, 56, 2240, 1333, 1426, 2094, 535, 2882, 2393, 2879, 1974, 821, 289, 331, 3253, 1756, 1197, 2304,
  2277, 2055, 650, 1977, 2513, 632, 2865, 33, 1320, 1915, 2319, 1435, 807, 452, 1438, 2868, 1534, 2402, 2647,
  2617, 1481, 648, 2474, 3110, 1227, 910, 17, 2761, 583, 2649, 1637, 723, 2288, 1100, 1409, 2662, 3281, 233,
  756, 2156, 3015, 3050, 1703, 1651, 2789, 1789, 1847, 952, 1461, 2687, 939, 2308, 2437, 2388, 733, 2337,
  268, 641, 1584, 2298, 2037, 3220, 375, 2549, 2090, 1645, 1063, 319, 2773, 757, 2099, 561, 2466, 2594, 2804,
  1092, 403, 1026, 1143, 2150, 2775, 886, 1722, 1212, 1874, 1029, 2110, 2935, 885, 2154]

/-- `fips203.py` 165-294, `ML_KEM_ZETA_MUL`. -/
def zetaMul : List Int := [
  17, -17, 2761, -2761, 583, -583, 2649, -2649, 1637, -1637, 723, -723, 2288, -2288, 1100, -1100, 1409,
  -1409, 2662, -2662, 3281, -3281, 233, -233, 756, -756, 2156, -2156, 3015, -3015, 3050, -3050, 1703, -1703,
  1651, -1651, 2789, -2789, 1789, -1789, 1847, -1847, 952, -952, 1461, -1461, 2687, -2687, 939, -939, 2308,
  -2308, 2437, -2437, 2388, -2388, 733, -733, 2337, -2337, 268, -268, 641, -641, 1584, -1584, 2298, -2298,
  2037, -2037, 3220, -3220, 375, -375, 2549, -2549, 2090, -2090, 1645, -1645, 1063, -1063, 319, -319, 2773,
  -2773, 757, -757, 2099, -2099, 561, -561, 2466, -2466, 2594, -2594, 2804, -2804, 1092, -1092, 403, -403,
  1026, -1026, 1143, -1143, 2150, -2150, 2775, -2775, 886, -886, 1722, -1722, 1212, -1212, 1874, -1874, 1029,
  -1029, 2110, -2110, 2935, -2935, 885, -885, 2154, -2154]

/-- `fips203.py` 328-343: `h`, `g`, `j`, `prf`, and the XOF of `sample_ntt` as a byte stream. -/
structure Env where
  h : Bytes → Bytes
  g : Bytes → Bytes × Bytes
  j : Bytes → Bytes
  prf : Nat → Bytes → Nat → Bytes
  xof : Bytes → Nat → UInt8
  fuel : Nat

/-- `fips203.py` 348-349, `compress`, one coefficient (`x << d` is `x * 2^d`). -/
def compress1 (d : Nat) (x : Int) : Int := ((x * 2 ^ d + (q - 1) / 2) / q) % 2 ^ d

/-- `fips203.py` 351-352, `decompress`, one coefficient (`>> d` is division by `2^d`; `d ≥ 1`). -/
def decompress1 (d : Nat) (y : Int) : Int := (q * y + 2 ^ (d - 1)) / 2 ^ d

/-- `compress` (348). -/
def compress (d : Nat) (xs : List Int) : List Int := xs.map (compress1 d)

/-- `decompress` (351). -/
def decompress (d : Nat) (ys : List Int) : List Int := ys.map (decompress1 d)

/-- Little-endian value of a bit list (the sums `x += b[i + j] << j`). -/
def bitsVal : List Nat → Nat
  | [] => 0
  | b :: bs => b + 2 * bitsVal bs

/-- The loop `b[..+j] = a % 2; a //= 2` for `d` steps. -/
def natBits : Nat → Nat → List Nat
  | 0, _ => []
  | d + 1, a => a % 2 :: natBits d (a / 2)

/-- `fips203.py` 356-364, `bits_to_bytes` (for a length divisible by 8; Python raises `IndexError` otherwise). -/
def bitsToBytes : List Nat → Bytes
  | b0 :: b1 :: b2 :: b3 :: b4 :: b5 :: b6 :: b7 :: r =>
    UInt8.ofNat (bitsVal [b0, b1, b2, b3, b4, b5, b6, b7]) :: bitsToBytes r
  | _ => []

/-- `fips203.py` 368-375, `bytes_to_bits`: `(x >> j) & 1`. -/
def bytesToBits (b : Bytes) : List Nat := b.flatMap (fun x => natBits 8 x.toNat)

/-- The modulus `m` of `byte_encode`/`byte_decode` (385-388). -/
def codeMod (d : Nat) : Int := if d < 12 then 2 ^ d else q

/-- `fips203.py` 379-396, `byte_encode` of one polynomial. -/
def byteEncode (d : Nat) (f : List Int) : Bytes :=
  bitsToBytes ((List.range 256).flatMap (fun i => natBits d (at0 f i % codeMod d).toNat))

/-- `byte_encode` of a list of polynomials (380-384). -/
def byteEncodeVec (d : Nat) (fs : List (List Int)) : Bytes := fs.flatMap (byteEncode d)

/-- `fips203.py` 400-412, `byte_decode`. -/
def byteDecode (d : Nat) (b : Bytes) : List Int :=
  let bits := bytesToBits b
  (List.range 256).map (fun i => (bitsVal ((bits.drop (i * d)).take d) : Int) % codeMod d)

/-- `fips203.py` 416-433, `sample_ntt`: the `while j < 256` loop, reading three bytes per step at position `p`. `none`
means that `fuel` steps were not enough (the Python loop would still be running). -/
def sampleLoop (s : Nat → UInt8) : Nat → Nat → List Int → Option (List Int)
  | 0, _, a => if a.length < 256 then none else some a
  | fuel + 1, p, a =>
    if a.length < 256 then
      let c0 : Int := (s p).toNat
      let c1 : Int := (s (p + 1)).toNat
      let c2 : Int := (s (p + 2)).toNat
      let d1 := c0 + 256 * (c1 % 16)
      let d2 := c1 / 16 + 16 * c2
      let a1 := if d1 < q then a ++ [d1] else a
      let a2 := if d2 < q ∧ a1.length < 256 then a1 ++ [d2] else a1
      sampleLoop s fuel (p + 3) a2
    else some a

/-- `sample_ntt`. -/
def sampleNtt (E : Env) (b : Bytes) : Option (List Int) := sampleLoop (E.xof b) E.fuel 0 []

/-- `fips203.py` 437-444, `sample_poly_cbd`. -/
def sampleCbd (eta : Nat) (b : Bytes) : List Int :=
  let bits := bytesToBits b
  (List.range 256).map (fun i =>
    let x : Int := ((bits.drop (2 * i * eta)).take eta).sum
    let y : Int := ((bits.drop ((2 * i + 1) * eta)).take eta).sum
    (x - y) % q)

/-- The body of the inner loop of `ntt` (457-459). -/
def bfly (ze a b : Int) : Int × Int :=
  let t := (ze * b) % q
  ((a + t) % q, (a - t) % q)

/-- The body of the inner loop of `ntt_inverse` (473-475). -/
def ibfly (ze a b : Int) : Int × Int := ((a + b) % q, (ze * (b - a)) % q)

/-- `fips203.py` 448-461, `ntt`: the while loop runs for `le = 128 / 2^t`, `t = 0..6`; the state is the table index
`i` and the list. -/
def ntt (f : List Int) : List Int :=
  ((List.range 7).foldl (fun (s : Nat × List Int) t =>
    let le := 2 ^ (7 - t)
    (s.1 + 2 ^ t, layerLoop bfly (fun b => at0 zetaNtt (s.1 + b)) le (2 ^ t) s.2)) (1, f)).2

/-- `fips203.py` 465-479, `ntt_inverse`: `le = 2^(7 - t)` for `t = 6..0`. -/
def nttInv (f : List Int) : List Int :=
  (((List.range 7).reverse.foldl (fun (s : Nat × List Int) t =>
    let le := 2 ^ (7 - t)
    (s.1 - 2 ^ t, layerLoop ibfly (fun b => at0 zetaNtt (s.1 - b)) le (2 ^ t) s.2)) (127, f)).2).map
    (fun x => (x * 3303) % q)

/-- `fips203.py` 491-494, `best_case_multiply`. -/
def baseMul (a0 a1 b0 b1 gam : Int) : List Int := [(a0 * b0 + a1 * b1 * gam) % q, (a0 * b1 + a1 * b0) % q]

/-- `fips203.py` 483-487, `multiply_ntts`. -/
def multiplyNtts (f g : List Int) : List Int :=
  (List.range 128).flatMap (fun i =>
    baseMul (at0 f (2 * i)) (at0 f (2 * i + 1)) (at0 g (2 * i)) (at0 g (2 * i + 1)) (at0 zetaMul i))

/-- `fips203.py` 498-499, `poly_add`. -/
def polyAdd (f g : List Int) : List Int := (List.range 256).map (fun i => (at0 f i + at0 g i) % q)

/-- `fips203.py` 501-502, `poly_sub`. -/
def polySub (f g : List Int) : List Int := (List.range 256).map (fun i => (at0 f i - at0 g i) % q)

/-- `[0] * 256`. -/
def zeroPoly : List Int := List.replicate 256 0

/-- The accumulation loops `t = poly_add(t, multiply_ntts(f_j, g_j))` for `j in range(k)`. -/
def accMul (k : Nat) (init : List Int) (f g : Nat → List Int) : List Int :=
  (List.range k).foldl (fun t j => polyAdd t (multiplyNtts (f j) (g j))) init

/-- The matrix `a[i][j] = sample_ntt(rho + bytes([j, i]))` (513-516, 547-550); `none` if some sampling does not
finish. -/
def genMatrix (P : Params) (E : Env) (rho : Bytes) : Option (Nat → Nat → List Int) :=
  let smp := fun i j => sampleNtt E (rho ++ [UInt8.ofNat j, UInt8.ofNat i])
  if (List.range P.k).all (fun i => (List.range P.k).all (fun j => (smp i j).isSome)) then
    some (fun i j => (smp i j).getD [])
  else none

/-- `fips203.py` 506-538, `k_pke_keygen`. -/
def kpkeKeygen (P : Params) (E : Env) (d : Bytes) : Option (Bytes × Bytes) :=
  let rho := (E.g (d ++ [UInt8.ofNat P.k])).1
  let sig := (E.g (d ++ [UInt8.ofNat P.k])).2
  match genMatrix P E rho with
  | none => none
  | some a =>
    let s := fun i => ntt (sampleCbd P.eta1 (E.prf P.eta1 sig i))
    let e := fun i => ntt (sampleCbd P.eta1 (E.prf P.eta1 sig (P.k + i)))
    let t := fun i => accMul P.k (e i) (a i) s
    some (byteEncodeVec 12 ((List.range P.k).map t) ++ rho, byteEncodeVec 12 ((List.range P.k).map s))

/-- `b[i:j]`. -/
def slice (b : Bytes) (i j : Nat) : Bytes := (b.drop i).take (j - i)

/-- `fips203.py` 542-594, `k_pke_encrypt`. -/
def kpkeEncrypt (P : Params) (E : Env) (ek m r : Bytes) : Option Bytes :=
  let t := fun i => byteDecode 12 (slice ek (384 * i) (384 * (i + 1)))
  let rho := slice ek (384 * P.k) (384 * P.k + 32)
  match genMatrix P E rho with
  | none => none
  | some a =>
    let y := fun i => ntt (sampleCbd P.eta1 (E.prf P.eta1 r i))
    let e1 := fun i => sampleCbd P.eta2 (E.prf P.eta2 r (P.k + i))
    let e2 := sampleCbd P.eta2 (E.prf P.eta2 r (2 * P.k))
    let u := fun i => polyAdd (nttInv (accMul P.k zeroPoly (fun j => a j i) y)) (e1 i)
    let mu := decompress 1 (byteDecode 1 m)
    let v := polyAdd (polyAdd (nttInv (accMul P.k zeroPoly t y)) e2) mu
    let c1 := ((List.range P.k).map u).flatMap (fun ui => byteEncode P.du (compress P.du ui))
    let c2 := byteEncode P.dv (compress P.dv v)
    some (c1 ++ c2)

/-- `fips203.py` 598-617, `k_pke_decrypt`. -/
def kpkeDecrypt (P : Params) (dk c : Bytes) : Bytes :=
  let c1 := slice c 0 (32 * P.du * P.k)
  let c2 := slice c (32 * P.du * P.k) (32 * (P.du * P.k + P.dv))
  let up := fun i => decompress P.du (byteDecode P.du (slice c1 (32 * P.du * i) (32 * P.du * (i + 1))))
  let vp := decompress P.dv (byteDecode P.dv c2)
  let s := fun i => byteDecode 12 (slice dk (384 * i) (384 * (i + 1)))
  let w := accMul P.k zeroPoly s (fun i => ntt (up i))
  let w := polySub vp (nttInv w)
  byteEncode 1 (compress 1 w)

/-- `fips203.py` 621-634, `keygen_internal`. -/
def keygen (P : Params) (E : Env) (d z : Bytes) : Option (Bytes × Bytes) :=
  match kpkeKeygen P E d with
  | none => none
  | some (ek, dk) => some (ek, dk ++ ek ++ E.h ek ++ z)

/-- `fips203.py` 638-654, `encaps_internal`: the key and the ciphertext. -/
def encaps (P : Params) (E : Env) (ek m : Bytes) : Option (Bytes × Bytes) :=
  match kpkeEncrypt P E ek m (E.g (m ++ E.h ek)).2 with
  | none => none
  | some c => some ((E.g (m ++ E.h ek)).1, c)

/-- `fips203.py` 656-658, `get_public_key`. -/
def getPublicKey (P : Params) (dk : Bytes) : Bytes := slice dk (384 * P.k) (768 * P.k + 32)

/-- `fips203.py` 661-686, `decaps_internal`. -/
def decaps (P : Params) (E : Env) (dk c : Bytes) : Option Bytes :=
  let dkPke := slice dk 0 (384 * P.k)
  let ekPke := slice dk (384 * P.k) (768 * P.k + 32)
  let h := slice dk (768 * P.k + 32) (768 * P.k + 64)
  let z := slice dk (768 * P.k + 64) (768 * P.k + 96)
  let mp := kpkeDecrypt P dkPke c
  match kpkeEncrypt P E ekPke mp (E.g (mp ++ h)).2 with
  | none => none
  | some cp => some (if c ≠ cp then E.j (z ++ c) else (E.g (mp ++ h)).1)

end Verif.PQ.Kem
