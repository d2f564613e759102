import Verif.PQ.Fips203

/-!
# ML-DSA (`pq_logic/fips/fips204.py`)

Coefficients are Python integers (`Int`), bits are `Nat`, byte strings `List UInt8`. `Env` holds the hash `h` with its
output length and the two extendable-output functions as infinite byte streams; `fuel` bounds every rejection loop and
`none` means "still running". Vectors of polynomials are functions of the index; a matrix has two indices.
-/

namespace Verif.PQ.Dsa

open Verif.CA (Bytes PyErr)
open Verif.PQ.Kem (bitsVal natBits bitsToBytes bytesToBits slice zeroPoly)

/-- `fips204.py` 296-300, `ML_DSA_PARAM`. -/
structure Params where
  d : Nat
  tau : Nat
  lam : Nat
  gam1 : Nat
  gam2 : Nat
  k : Nat
  ell : Nat
  eta : Nat
  beta : Nat
  omega : Nat
  deriving DecidableEq

/-- ml-dsa-44 (297): `2**17 = 131072`, `(q - 1) // 88 = 95232`. -/
def p44 : Params := ⟨13, 39, 128, 131072, 95232, 4, 4, 2, 78, 80⟩
/-- ml-dsa-65 (298): `2**19 = 524288`, `(q - 1) // 32 = 261888`. -/
def p65 : Params := ⟨13, 49, 192, 524288, 261888, 6, 5, 4, 196, 55⟩
/-- ml-dsa-87 (299). -/
def p87 : Params := ⟨13, 60, 256, 524288, 261888, 8, 7, 2, 120, 75⟩

/-- `ML_DSA_Q`. -/
def q : Int := 8380417

/-- `fips204.py` 32-289, `ML_DSA_ZETAS`. -/
def zetas : List Int := [
  0, 4808194, 3765607, 3761513, 5178923, 5496691, 5234739, 5178987, 7778734, 3542485, 2682288, 2129892,
  3764867, 7375178, 557458, 7159240, 5010068, 4317364, 2663378, 6705802, 4855975, 7946292, 676590, 7044481,
  5152541, 1714295, 2453983, 1460718, 7737789, 4795319, 2815639, 2283733, 3602218, 3182878, 2740543, 4793971,
  5269599, 2101410, 3704823, 1159875, 394148, 928749, 1095468, 4874037, 2071829, 4361428, 3241972, 2156050,
  3415069, 1759347, 7562881, 4805951, 3756790, 6444618, 6663429, 4430364, 5483103, 3192354, 556856, 3870317,
  2917338, 1853806, 3345963, 1858416, 3073009, 1277625, 5744944, 3852015, 4183372, 5157610, 5258977, 8106357,
  2508980, 2028118, 1937570, 4564692, 2811291, 5396636, 7270901, 4158088, 1528066, 482649, 1148858, 5418153,
  7814814, 169688, 2462444, 5046034, 4213992, 4892034, 1987814, 5183169, 1736313, 235407, 5130263, 3258457,
  5801164, 1787943, 5989328, 6125690, 3482206, 4197502, 7080401, 6018354, 7062739, 2461387, 3035980, 621164,
  3901472, 7153756, 2925816, 3374250, 1356448, 5604662, 2683270, 5601629, 4912752, 2312838, 7727142, 7921254,
  348812, 8052569, 1011223, 6026202, 4561790, 6458164, 6143691, 1744507, 1753, 6444997, 5720892, 6924527,
  2660408, 6600190, 8321269, 2772600, 1182243, 87208, 636927, 4415111, 4423672, 6084020, 5095502, 4663471,
  8352605, 822541, 1009365, 5926272, 6400920, 1596822, 4423473, 4620952, 6695264, 4969849, 2678278, 4611469,
  4829411, 635956, 8129971, 5925040, 4234153, 6607829, 2192938, 6653329, 2387513, 4768667, 8111961, 5199961,
  3747250, 2296099, 1239911, 4541938, 3195676, 2642980, 1254190, 8368000, 2998219, 141835, 8291116, 2513018,
  7025525, 613238, 7070156, 6161950, 7921677, 6458423, 4040196, 4908348, 2039144, 6500539, 7561656, 6201452,
  6757063, 2105286, 6006015, 6346610, 586241, 7200804, 527981, 5637006, 6903432, 1994046, 2491325, 6987258,
  507927, 7192532, 7655613, 6545891, 5346675, 8041997, 2647994, 3009748, 5767564, 4148469, 749577, 4357667,
  3980599, 2569011, 6764887, 1723229, 1665318, 2028038, 1163598, 5011144, 3994671, 8368538, 7009900, 3020393,
  3363542, 214880, 545376, 7609976, 3105558, 7277073, 508145, 7826699, 860144, 3430436, 140244, 6866265,
  6195333, 3123762, 2358373, 6187330, 5365997, 6663603, 2926054, 7987710, 8077412, 3531229, 4405932, 4606686,
  1900052, 7598542, 1054478, 7648983]

/-- `h` (320-324), the streams of `XOFHash("shake256")` and `XOFHash("shake128")` (902, 919, 937), and the pre-hash
functions of 394-402. -/
structure Env where
  h : Bytes → Nat → Bytes
  xof256 : Bytes → Nat → UInt8
  xof128 : Bytes → Nat → UInt8
  sha256 : Bytes → Bytes
  sha512 : Bytes → Bytes
  shake128 : Bytes → Bytes
  fuel : Nat

/-- Python's `int.bit_length` of a natural number. -/
def bitLen (n : Nat) : Nat := if n = 0 then 0 else Nat.log2 n + 1

/-- `fips204.py` 669-674, `integer_to_bits` (`& 1` and `>>` of Python integers are `%` and floor division). -/
def integerToBits : Int → Nat → List Nat
  | _, 0 => []
  | x, alpha + 1 => (x % 2).toNat :: integerToBits (x / 2) alpha

/-- `fips204.py` 678-682, `bits_to_integer`: Horner's rule from index `alpha - 1` down to 0. -/
def bitsToInteger (y : List Nat) (alpha : Nat) : Int :=
  ((y.take alpha).reverse.foldl (fun (x : Int) (b : Nat) => 2 * x + b) 0)

/-- `fips204.py` 686-691, `integer_to_bytes`. -/
def integerToBytes : Int → Nat → Bytes
  | _, 0 => []
  | x, alpha + 1 => UInt8.ofNat (x % 256).toNat :: integerToBytes (x / 256) alpha

/-- `fips204.py` 718-725, `coeff_from_three_bytes`. -/
def coeffFromThreeBytes (b0 b1 b2 : UInt8) : Option Int :=
  let c2 : Int := if b2.toNat > 127 then b2.toNat - 128 else b2.toNat
  let z : Int := c2 * 65536 + b1.toNat * 256 + b0.toNat
  if z < q then some z else none

/-- `fips204.py` 729-735, `coeff_from_half_byte`. -/
def coeffFromHalfByte (eta : Nat) (b : Nat) : Option Int :=
  if eta = 2 ∧ b < 15 then some (2 - (b % 5 : Nat))
  else if eta = 4 ∧ b < 9 then some (4 - (b : Nat))
  else none

/-- `fips204.py` 739-744, `simple_bit_pack`. -/
def simpleBitPack (w : List Int) (b : Nat) : Bytes :=
  bitsToBytes ((List.range 256).flatMap (fun i => integerToBits (at0 w i) (bitLen b)))

/-- `fips204.py` 748-753, `bit_pack` (packs every element of `w`). -/
def bitPack (w : List Int) (a b : Nat) : Bytes :=
  bitsToBytes (w.flatMap (fun wi => integerToBits (b - wi) (bitLen (a + b))))

/-- `fips204.py` 757-763, `simple_bit_unpack`. -/
def simpleBitUnpack (v : Bytes) (b : Nat) : List Int :=
  let c := bitLen b
  let z := bytesToBits v
  (List.range 256).map (fun i => bitsToInteger ((z.drop (i * c)).take c) c)

/-- `fips204.py` 767-773, `bit_unpack`. -/
def bitUnpack (v : Bytes) (a b : Nat) : List Int :=
  let c := bitLen (a + b)
  let z := bytesToBits v
  (List.range 256).map (fun i => (b : Int) - bitsToInteger ((z.drop (i * c)).take c) c)

/-- The inner loop of `hint_bit_pack` (781-784), state `(idx, y)`. -/
def hintPackRow (row : List Int) (s : Nat × Bytes) : Nat × Bytes :=
  (List.range 256).foldl (fun (s : Nat × Bytes) j =>
    if at0 row j ≠ 0 then (s.1 + 1, s.2.set s.1 (UInt8.ofNat j)) else s) s

/-- `fips204.py` 777-786, `hint_bit_pack`. More than `omega` ones are outside the modelled domain (the loop then
overwrites the counters or raises `IndexError`). -/
def hintBitPack (P : Params) (h : Nat → List Int) : Bytes :=
  ((List.range P.k).foldl (fun (s : Nat × Bytes) i =>
    let s' := hintPackRow (h i) s
    (s'.1, s'.2.set (P.omega + i) (UInt8.ofNat s'.1))) (0, List.replicate (P.omega + P.k) 0)).2

/-- The while loop of `hint_bit_unpack` (797-802), `n` steps from `idx`: `none` is `return None`. A read of `y` outside
the list cannot happen here, because `idx < y[omega + i] <= omega`. -/
def hintRowLoop (y : Bytes) (first : Nat) : Nat → Nat → List Int → Option (List Int)
  | 0, _, row => some row
  | n + 1, idx, row =>
    if first < idx ∧ (y.getD idx 0).toNat ≤ (y.getD (idx - 1) 0).toNat then none
    else hintRowLoop y first n (idx + 1) (row.set (y.getD idx 0).toNat 1)

/-- The for loop of `hint_bit_unpack` (793-802) over the remaining rows `i, i+1, ...`; the state is `idx` and the rows
finished so far. `y[omega + i]` raises `IndexError` if `y` is too short. -/
def hintRows (P : Params) (y : Bytes) : Nat → Nat → Nat → List (List Int) → Except PyErr (Option (Nat × List (List Int)))
  | 0, _, idx, h => .ok (some (idx, h))
  | n + 1, i, idx, h =>
    match y[P.omega + i]? with
    | none => .error .indexError
    | some c =>
      if c.toNat < idx ∨ c.toNat > P.omega then .ok none
      else
        match hintRowLoop y idx (c.toNat - idx) idx zeroPoly with
        | none => .ok none
        | some row => hintRows P y n (i + 1) c.toNat (h ++ [row])

/-- `fips204.py` 790-806, `hint_bit_unpack`; the last loop checks that the unused bytes are zero. -/
def hintBitUnpack (P : Params) (y : Bytes) : Except PyErr (Option (List (List Int))) :=
  match hintRows P y P.k 0 0 [] with
  | .error e => .error e
  | .ok none => .ok none
  | .ok (some (idx, h)) =>
    if (List.range P.omega).all (fun i => decide (i < idx) || (y.getD i 0 == 0)) then .ok (some h) else .ok none

/-- `bitlen_b` of `pk_encode`/`pk_decode` (812, 821). -/
def t1Bits (P : Params) : Nat := bitLen 8380416 - P.d

/-- `fips204.py` 810-815, `pk_encode`. -/
def pkEncode (P : Params) (rho : Bytes) (t1 : Nat → List Int) : Bytes :=
  rho ++ (List.range P.k).flatMap (fun i => simpleBitPack (t1 i) (2 ^ t1Bits P - 1))

/-- `fips204.py` 819-827, `pk_decode`, the key seed. -/
def pkRho (pk : Bytes) : Bytes := slice pk 0 32
/-- `pk_decode`, the vector `t1`. -/
def pkT1 (P : Params) (pk : Bytes) (i : Nat) : List Int :=
  simpleBitUnpack (slice pk (32 + 32 * t1Bits P * i) (32 + 32 * t1Bits P * (i + 1))) (2 ^ t1Bits P - 1)

/-- `le` (848). -/
def etaLen (P : Params) : Nat := 32 * bitLen (2 * P.eta)

/-- `fips204.py` 831-839, `sk_encode`. -/
def skEncode (P : Params) (rho kk tr : Bytes) (s1 s2 t0 : Nat → List Int) : Bytes :=
  rho ++ kk ++ tr
    ++ (List.range P.ell).flatMap (fun i => bitPack (s1 i) P.eta P.eta)
    ++ (List.range P.k).flatMap (fun i => bitPack (s2 i) P.eta P.eta)
    ++ (List.range P.k).flatMap (fun i => bitPack (t0 i) (2 ^ (P.d - 1) - 1) (2 ^ (P.d - 1)))

/-- `fips204.py` 843-866, `sk_decode`; the running pointer `pt` is written out. -/
def skRho (sk : Bytes) : Bytes := slice sk 0 32
def skK (sk : Bytes) : Bytes := slice sk 32 64
def skTr (sk : Bytes) : Bytes := slice sk 64 128
def skS1 (P : Params) (sk : Bytes) (i : Nat) : List Int :=
  bitUnpack (slice sk (128 + etaLen P * i) (128 + etaLen P * (i + 1))) P.eta P.eta
def skS2 (P : Params) (sk : Bytes) (i : Nat) : List Int :=
  let pt := 128 + etaLen P * P.ell
  bitUnpack (slice sk (pt + etaLen P * i) (pt + etaLen P * (i + 1))) P.eta P.eta
def skT0 (P : Params) (sk : Bytes) (i : Nat) : List Int :=
  let pt := 128 + etaLen P * P.ell + etaLen P * P.k
  bitUnpack (slice sk (pt + 32 * P.d * i) (pt + 32 * P.d * (i + 1))) (2 ^ (P.d - 1) - 1) (2 ^ (P.d - 1))

/-- `bl` (880). -/
def zLen (P : Params) : Nat := 32 * (1 + bitLen (P.gam1 - 1))

/-- `fips204.py` 870-875, `sig_encode`. -/
def sigEncode (P : Params) (ct : Bytes) (z h : Nat → List Int) : Bytes :=
  ct ++ (List.range P.ell).flatMap (fun i => bitPack (z i) (P.gam1 - 1) P.gam1) ++ hintBitPack P h

/-- `fips204.py` 879-889, `sig_decode`: `ct`. -/
def sigCt (P : Params) (sig : Bytes) : Bytes := slice sig 0 (P.lam / 4)
/-- The bytes of the `i`-th response polynomial (885). -/
def sigZBytes (P : Params) (sig : Bytes) (i : Nat) : Bytes :=
  slice sig (P.lam / 4 + zLen P * i) (P.lam / 4 + zLen P * (i + 1))
/-- The response vector (886). -/
def sigZ (P : Params) (sig : Bytes) (i : Nat) : List Int := bitUnpack (sigZBytes P sig i) (P.gam1 - 1) P.gam1
/-- The hint bytes (887). -/
def sigHBytes (P : Params) (sig : Bytes) : Bytes :=
  slice sig (P.lam / 4 + zLen P * P.ell) (P.lam / 4 + zLen P * P.ell + P.omega + P.k)

/-- `sig_decode`: a response polynomial with missing bytes makes `bits_to_integer` raise `IndexError` (886, 681). -/
def sigDecode (P : Params) (sig : Bytes) : Except PyErr (Bytes × (Nat → List Int) × Option (List (List Int))) :=
  if (List.range P.ell).all (fun i => (sigZBytes P sig i).length == zLen P) then
    match hintBitUnpack P (sigHBytes P sig) with
    | .error e => .error e
    | .ok h => .ok (sigCt P sig, sigZ P sig, h)
  else .error .indexError

/-- `fips204.py` 893-898, `w1_encode`. -/
def w1Encode (P : Params) (w1 : Nat → List Int) : Bytes :=
  (List.range P.k).flatMap (fun i => simpleBitPack (w1 i) (8380416 / (2 * P.gam2) - 1))

/-- The loop `j = read(1)[0]; while j > i: ...` of `sample_in_ball` (910-912) from position `p`: the accepted `j` and
the next position. -/
def ballNext (s : Nat → UInt8) (i : Nat) : Nat → Nat → Option (Nat × Nat)
  | 0, _ => none
  | fuel + 1, p => if (s p).toNat > i then ballNext s i fuel (p + 1) else some ((s p).toNat, p + 1)

/-- The for loop of `sample_in_ball` (909-914): `n` more steps from index `i`. -/
def ballLoop (s : Nat → UInt8) (hbits : List Nat) (tau fuel : Nat) : Nat → Nat → Nat → List Int → Option (List Int)
  | 0, _, _, c => some c
  | n + 1, i, p, c =>
    match ballNext s i fuel p with
    | none => none
    | some (j, p') =>
      let c := c.set i (at0 c j)
      let c := c.set j ((-1) ^ hbits.getD (i + tau - 256) 0)
      ballLoop s hbits tau fuel n (i + 1) p' c

/-- `fips204.py` 902-915, `sample_in_ball`. -/
def sampleInBall (P : Params) (E : Env) (rho : Bytes) : Option (List Int) :=
  let s := E.xof256 rho
  let hbits := bytesToBits ((List.range 8).map s)
  ballLoop s hbits P.tau E.fuel P.tau (256 - P.tau) 8 zeroPoly

/-- `fips204.py` 919-933, `rej_ntt_poly`. -/
def rejNttLoop (s : Nat → UInt8) : Nat → Nat → List Int → Option (List Int)
  | 0, _, a => if a.length < 256 then none else some a
  | fuel + 1, p, a =>
    if a.length < 256 then
      match coeffFromThreeBytes (s p) (s (p + 1)) (s (p + 2)) with
      | some x => rejNttLoop s fuel (p + 3) (a ++ [x])
      | none => rejNttLoop s fuel (p + 3) a
    else some a

/-- `rej_ntt_poly`. -/
def rejNttPoly (E : Env) (rho : Bytes) : Option (List Int) := rejNttLoop (E.xof128 rho) E.fuel 0 []

/-- `fips204.py` 937-953, `rej_bounded_poly`. -/
def rejBoundedLoop (eta : Nat) (s : Nat → UInt8) : Nat → Nat → List Int → Option (List Int)
  | 0, _, a => if a.length < 256 then none else some a
  | fuel + 1, p, a =>
    if a.length < 256 then
      let z := (s p).toNat
      let a := match coeffFromHalfByte eta (z % 16) with | some x => a ++ [x] | none => a
      let a := match coeffFromHalfByte eta (z / 16) with
        | some x => if a.length < 256 then a ++ [x] else a
        | none => a
      rejBoundedLoop eta s fuel (p + 1) a
    else some a

/-- `rej_bounded_poly`. -/
def rejBoundedPoly (P : Params) (E : Env) (rho : Bytes) : Option (List Int) :=
  rejBoundedLoop P.eta (E.xof256 rho) E.fuel 0 []

/-- `fips204.py` 957-963, `expand_a`; `none` if some sampling does not finish. -/
def expandA (P : Params) (E : Env) (rho : Bytes) : Option (Nat → Nat → List Int) :=
  let smp := fun r s => rejNttPoly E (rho ++ integerToBytes (s : Nat) 1 ++ integerToBytes (r : Nat) 1)
  if (List.range P.k).all (fun r => (List.range P.ell).all (fun s => (smp r s).isSome)) then
    some (fun r s => (smp r s).getD [])
  else none

/-- `fips204.py` 967-974, `expand_s`. -/
def expandS (P : Params) (E : Env) (rho : Bytes) : Option ((Nat → List Int) × (Nat → List Int)) :=
  let smp := fun (r : Nat) => rejBoundedPoly P E (rho ++ integerToBytes r 2)
  if (List.range (P.ell + P.k)).all (fun r => (smp r).isSome) then
    some (fun r => (smp r).getD [], fun r => (smp (r + P.ell)).getD [])
  else none

/-- `fips204.py` 978-985, `expand_mask`. -/
def expandMask (P : Params) (E : Env) (rho : Bytes) (mu : Nat) (r : Nat) : List Int :=
  bitUnpack (E.h (rho ++ integerToBytes ((mu + r : Nat) : Int) 2) (32 * (1 + bitLen (P.gam1 - 1)))) (P.gam1 - 1) P.gam1

/-- `fips204.py` 997-998, `modpm`. -/
def modpm (m alpha : Int) : Int := -((alpha / 2 - m) % alpha) + alpha / 2

/-- `fips204.py` 1000-1007, `inf_norm` of one polynomial. -/
def infNorm (x : List Int) : Int := x.foldl (fun y xi => max y (modpm xi q).natAbs) 0

/-- `inf_norm` of a vector of `n` polynomials. -/
def infNormVec (n : Nat) (x : Nat → List Int) : Int := (List.range n).foldl (fun y i => max y (infNorm (x i))) 0

/-- `fips204.py` 1012-1026, `power2round`, one coefficient: `(r1, r0)`. -/
def power2round (d : Nat) (r : Int) : Int × Int :=
  let rp := r % q
  let r0 := modpm rp (2 ^ d)
  ((rp - r0) / 2 ^ d, r0)

/-- `fips204.py` 1030-1038, `decompose`. -/
def decompose (P : Params) (r : Int) : Int × Int :=
  let rp := r % q
  let r0 := modpm rp (2 * P.gam2)
  if rp - r0 = q - 1 then (0, r0 - 1) else ((rp - r0) / (2 * P.gam2), r0)

/-- `fips204.py` 1042-1050, `high_bits`, one polynomial. -/
def highBits (P : Params) (r : List Int) : List Int := r.map (fun x => (decompose P x).1)

/-- `fips204.py` 1054-1062, `low_bits`, one polynomial. -/
def lowBits (P : Params) (r : List Int) : List Int := r.map (fun x => (decompose P x).2)

/-- `fips204.py` 1143-1147, `add`. -/
def add (a b : List Int) : List Int := (List.range a.length).map (fun i => (at0 a i + at0 b i) % q)

/-- `fips204.py` 1151-1160, `neg`. -/
def neg (a : List Int) : List Int := a.map (fun x => (-x) % q)

/-- `fips204.py` 1164-1174, `sub`. -/
def sub (a b : List Int) : List Int := (List.range a.length).map (fun i => (at0 a i - at0 b i) % q)

/-- `fips204.py` 1178-1190, `neq`. -/
def neq (a b : List Int) : List Int := (List.range a.length).map (fun i => if at0 a i = at0 b i then 0 else 1)

/-- `fips204.py` 1194-1203, `weight` of one polynomial. -/
def weight (a : List Int) : Nat := (a.map (fun x => if x = 0 then 0 else 1)).sum

/-- `weight` of a vector of `n` polynomials. -/
def weightVec (n : Nat) (a : Nat → List Int) : Nat := ((List.range n).map (fun i => weight (a i))).sum

/-- `fips204.py` 1066-1069, `make_hint`, one polynomial. -/
def makeHint (P : Params) (z r : List Int) : List Int := neq (highBits P r) (highBits P (add r z))

/-- The body of the loop of `use_hint` (1080-1084). -/
def useHint1 (P : Params) (h r : Int) : Int :=
  let m : Int := 8380416 / (2 * P.gam2)
  let r1 := (decompose P r).1
  let r0 := (decompose P r).2
  let r1 := if h = 1 ∧ r0 > 0 then (r1 + 1) % m else r1
  if h = 1 ∧ r0 ≤ 0 then (r1 - 1) % m else r1

/-- `fips204.py` 1073-1085, `use_hint`, one polynomial. -/
def useHint (P : Params) (h r : List Int) : List Int := (List.range 256).map (fun i => useHint1 P (at0 h i) (at0 r i))

/-- The body of the inner loop of `ntt` (1099-1102). -/
def bfly (z a b : Int) : Int × Int :=
  let t := (z * b) % q
  ((a + t) % q, (a - t) % q)

/-- The body of the inner loop of `ntt_inverse` (1122-1126); the code has `z = -ZETAS[m]`. -/
def ibfly (ze a b : Int) : Int × Int := ((a + b) % q, (-ze * ((a - b) % q)) % q)

/-- `fips204.py` 1089-1104, `ntt`: layers `le = 2^(7 - t)`, `t = 0..7`; the table index is incremented before use, so the
state holds the next index. -/
def ntt (f : List Int) : List Int :=
  ((List.range 8).foldl (fun (s : Nat × List Int) t =>
    let le := 2 ^ (7 - t)
    (s.1 + 2 ^ t, layerLoop bfly (fun b => at0 zetas (s.1 + b)) le (2 ^ t) s.2)) (1, f)).2

/-- `fips204.py` 1108-1131, `ntt_inverse`. -/
def nttInv (f : List Int) : List Int :=
  (((List.range 8).reverse.foldl (fun (s : Nat × List Int) t =>
    let le := 2 ^ (7 - t)
    (s.1 - 2 ^ t, layerLoop ibfly (fun b => at0 zetas (s.1 - b)) le (2 ^ t) s.2)) (255, f)).2).map
    (fun x => (8347681 * x) % q)

/-- `fips204.py` 1207-1208, `mul_ntt`. -/
def mulNtt (a b : List Int) : List Int := (List.range 256).map (fun i => (at0 a i * at0 b i) % q)

/-- `fips204.py` 1212-1217, `matrix_vector_ntt`, row `i`. -/
def matVec (P : Params) (m : Nat → Nat → List Int) (v : Nat → List Int) (i : Nat) : List Int :=
  (List.range P.ell).foldl (fun w j => add w (mulNtt (m i j) (v j))) zeroPoly

/-- `t` of `keygen_internal` (467-470). -/
def keyT (P : Params) (a : Nat → Nat → List Int) (s1 s2 : Nat → List Int) (i : Nat) : List Int :=
  add (nttInv (matVec P a (fun j => ntt (s1 j)) i)) (s2 i)

/-- `fips204.py` 437-484, `keygen_internal`. -/
def keygen (P : Params) (E : Env) (xi : Bytes) : Option (Bytes × Bytes) :=
  let se := E.h (xi ++ integerToBytes P.k 1 ++ integerToBytes P.ell 1) 128
  let rho := slice se 0 32
  let rhop := slice se 32 96
  let kk := slice se 96 128
  match expandA P E rho, expandS P E rhop with
  | some a, some (s1, s2) =>
    let t := keyT P a s1 s2
    let t1 := fun i => (t i).map (fun x => (power2round P.d x).1)
    let t0 := fun i => (t i).map (fun x => (power2round P.d x).2)
    let pk := pkEncode P rho t1
    some (pk, skEncode P rho kk (E.h pk 64) s1 s2 t0)
  | _, _ => none

/-- `pq_logic/keys/sig_keys.py` 196-230, `MLDSAPrivateKey._derive_public_key`. -/
def derivePublicKey (P : Params) (E : Env) (sk : Bytes) : Option Bytes :=
  match expandA P E (skRho sk) with
  | none => none
  | some a =>
    let t := keyT P a (skS1 P sk) (skS2 P sk)
    some (pkEncode P (skRho sk) (fun i => (t i).map (fun x => (power2round P.d x).1)))

/-- One round of the loop of `sign_internal` (532-592) for a mask `y`: outer `none` if `sample_in_ball` does not finish,
`some none` if the round is rejected, otherwise `(ct, z, h)`. -/
def signRound (P : Params) (E : Env) (a : Nat → Nat → List Int) (s1 s2 t0 : Nat → List Int) (mu : Bytes)
    (y : Nat → List Int) : Option (Option (Bytes × (Nat → List Int) × (Nat → List Int))) :=
  let w := fun i => nttInv (matVec P a (fun j => ntt (y j)) i)
  let ct := E.h (mu ++ w1Encode P (fun i => highBits P (w i))) (P.lam / 4)
  match sampleInBall P E ct with
  | none => none
  | some c =>
    let ch := ntt c
    let cs1 := fun i => nttInv (mulNtt ch (ntt (s1 i)))
    let cs2 := fun i => nttInv (mulNtt ch (ntt (s2 i)))
    let z := fun i => add (y i) (cs1 i)
    let r0 := fun i => lowBits P (sub (w i) (cs2 i))
    if infNormVec P.ell z ≥ (P.gam1 : Int) - P.beta ∨ infNormVec P.k r0 ≥ (P.gam2 : Int) - P.beta then some none
    else
      let ct0 := fun i => nttInv (mulNtt ch (ntt (t0 i)))
      let h := fun i => makeHint P (neg (ct0 i)) (add (sub (w i) (cs2 i)) (ct0 i))
      if infNormVec P.k ct0 ≥ (P.gam2 : Int) ∨ weightVec P.k h > P.omega then some none
      else some (some (ct, z, h))

/-- The while loop of `sign_internal` (530-592), at most `n` rounds; `kappa` grows by `ell`. -/
def signLoop (P : Params) (E : Env) (a : Nat → Nat → List Int) (s1 s2 t0 : Nat → List Int) (mu rhopp : Bytes) :
    Nat → Nat → Option (Bytes × (Nat → List Int) × (Nat → List Int))
  | 0, _ => none
  | n + 1, kappa =>
    match signRound P E a s1 s2 t0 mu (expandMask P E rhopp kappa) with
    | none => none
    | some none => signLoop P E a s1 s2 t0 mu rhopp n (kappa + P.ell)
    | some (some r) => some r

/-- `fips204.py` 488-598, `sign_internal`. -/
def signInternal (P : Params) (E : Env) (sk mp rnd : Bytes) : Option Bytes :=
  match expandA P E (skRho sk) with
  | none => none
  | some a =>
    let mu := E.h (skTr sk ++ mp) 64
    let rhopp := E.h (skK sk ++ rnd ++ mu) 64
    match signLoop P E a (skS1 P sk) (skS2 P sk) (skT0 P sk) mu rhopp E.fuel 0 with
    | none => none
    | some (ct, z, h) => some (sigEncode P ct (fun i => (z i).map (fun x => modpm x q)) h)

/-- The value `w1p` recomputed by `verify_internal` (636-655). -/
def verifyW1 (P : Params) (a : Nat → Nat → List Int) (t1 z h : Nat → List Int) (c : List Int) (i : Nat) : List Int :=
  let ch := ntt c
  let wp := matVec P a (fun j => ntt (z j)) i
  let th := mulNtt ch (ntt ((t1 i).map (fun x => x * 2 ^ P.d)))
  useHint P (h i) (nttInv (sub wp th))

/-- `fips204.py` 602-665, `verify_internal`; `none` if a sampling loop does not finish. The public key is assumed to have
its full length (`from_public_bytes` in `sig_keys.py` 166-176 checks it; a shorter one raises `IndexError`). -/
def verifyInternal (P : Params) (E : Env) (pk mp sig : Bytes) : Option (Except PyErr Bool) :=
  match sigDecode P sig with
  | .error e => some (.error e)
  | .ok (_, _, none) => some (.ok false)
  | .ok (ct, z, some h) =>
    match expandA P E (pkRho pk), sampleInBall P E ct with
    | some a, some c =>
      let mu := E.h (E.h pk 64 ++ mp) 64
      let w1p := verifyW1 P a (pkT1 P pk) z (fun i => h.getD i []) c
      let ctp := E.h (mu ++ w1Encode P w1p) (P.lam / 4)
      some (.ok (decide (infNormVec P.ell z < (P.gam1 : Int) - P.beta) && (ct == ctp)))
    | _, _ => none

/-! ### The external interfaces -/

/-- `mp` of `sign` and `verify` (351, 373). -/
def pureMp (ctx m : Bytes) : Bytes := integerToBytes 0 1 ++ integerToBytes ctx.length 1 ++ ctx ++ m

/-- The pre-hash names (390-404). -/
inductive PreHash where
  | sha256 | sha512 | shake128
  deriving DecidableEq

/-- The DER OID (391, 395, 399). -/
def phOid : PreHash → Bytes
  | .sha256 => [0x06, 0x09, 0x60, 0x86, 0x48, 0x01, 0x65, 0x03, 0x04, 0x02, 0x01]
  | .sha512 => [0x06, 0x09, 0x60, 0x86, 0x48, 0x01, 0x65, 0x03, 0x04, 0x02, 0x03]
  | .shake128 => [0x06, 0x09, 0x60, 0x86, 0x48, 0x01, 0x65, 0x03, 0x04, 0x02, 0x0B]

/-- The digest (392-401). -/
def phDigest (E : Env) : PreHash → Bytes → Bytes
  | .sha256 => E.sha256
  | .sha512 => E.sha512
  | .shake128 => E.shake128

/-- `mp` of `hash_ml_dsa_sign` and `hash_ml_dsa_verify` (405, 433). -/
def hashMp (E : Env) (ctx m : Bytes) (ph : PreHash) : Bytes :=
  integerToBytes 1 1 ++ integerToBytes ctx.length 1 ++ ctx ++ phOid ph ++ phDigest E ph m

/-- What a call of the external interface gives: Python's `None`, a value, an exception, or not finished. -/
inductive Out (α : Type) where
  | pyNone
  | value (a : α)
  | raised (e : PyErr)
  | running
  deriving DecidableEq

/-- A result of a sampling loop as an outcome. -/
def Out.ofOption {α : Type} : Option α → Out α
  | none => .running
  | some a => .value a

/-- A result that may also be an exception. -/
def Out.ofExcept {α : Type} : Option (Except PyErr α) → Out α
  | none => .running
  | some (.error e) => .raised e
  | some (.ok a) => .value a

/-- `fips204.py` 329-353, `sign`; `rnd` is 32 zero bytes if not given. -/
def sign (P : Params) (E : Env) (sk m ctx : Bytes) (rndIn : Option Bytes) : Out Bytes :=
  if ctx.length > 255 then .pyNone
  else Out.ofOption (signInternal P E sk (pureMp ctx m) (rndIn.getD (List.replicate 32 0)))

/-- `fips204.py` 356-374, `verify`. -/
def verify (P : Params) (E : Env) (pk m sig ctx : Bytes) : Out Bool :=
  if ctx.length > 255 then .raised .valueError
  else Out.ofExcept (verifyInternal P E pk (pureMp ctx m) sig)

/-- `fips204.py` 378-407, `hash_ml_dsa_sign`; `ph = none` is an unknown name. -/
def hashSign (P : Params) (E : Env) (sk m ctx : Bytes) (ph : Option PreHash) (rndIn : Option Bytes) : Out Bytes :=
  if ctx.length > 255 then .pyNone
  else match ph with
  | none => .pyNone
  | some ph => Out.ofOption (signInternal P E sk (hashMp E ctx m ph) (rndIn.getD (List.replicate 32 0)))

/-- `fips204.py` 411-434, `hash_ml_dsa_verify`. -/
def hashVerify (P : Params) (E : Env) (pk m sig ctx : Bytes) (ph : Option PreHash) : Out Bool :=
  if ctx.length > 255 then .pyNone
  else match ph with
  | none => .value false
  | some ph => Out.ofExcept (verifyInternal P E pk (hashMp E ctx m ph) sig)

end Verif.PQ.Dsa
