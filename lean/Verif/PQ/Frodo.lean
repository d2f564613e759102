import Verif.PQ.Fips203Codec

/-!
# FrodoKEM (`pq_logic/fips/frodokem.py`)

Matrices are lists of rows of Python integers (`Int`), bits are `Nat`, byte strings `List UInt8`. SHAKE and AES-128
are the fields of `Env`. Bit arrays of the package `bitstring` are lists of bits; `.bytes` of a bit array and
`bitstring.Bits(bytes)` put the most significant bit of a byte first. Reads outside a list or a byte string (which
raise in Python) give 0; none happens for byte strings that pass the length assertions.
-/

namespace Verif.PQ.Frodo

open Verif.CA (Bytes PyErr)
open Verif.PQ.Kem (bitsVal natBits bitsToBytes bytesToBits slice)

/-- `frodokem.py` 54-169, the attributes set by `setParamsFrodo*` (the `len_*_bytes` values and `error_distribution`). -/
structure Params where
  chi : List Nat
  D : Nat
  q : Nat
  n : Nat
  nbar : Nat
  mbar : Nat
  B : Nat
  lenSeedA : Nat
  lenZ : Nat
  lenMu : Nat
  lenSeedSE : Nat
  lenSalt : Nat
  lenS : Nat
  lenK : Nat
  lenPkh : Nat
  lenSk : Nat
  lenPk : Nat
  lenCt : Nat
  lenSs : Nat

/-- `setParamsFrodo640` (54-91). -/
def p640 : Params where
  chi := [9288, 8720, 7216, 5264, 3384, 1918, 958, 422, 164, 56, 17, 4, 1]
  D := 15
  q := 32768
  n := 640
  nbar := 8
  mbar := 8
  B := 2
  lenSeedA := 16
  lenZ := 16
  lenMu := 16
  lenSeedSE := 32
  lenSalt := 32
  lenS := 16
  lenK := 16
  lenPkh := 16
  lenSk := 19888
  lenPk := 9616
  lenCt := 9752
  lenSs := 16

/-- `setParamsFrodo976` (93-130). -/
def p976 : Params where
  chi := [11278, 10277, 7774, 4882, 2545, 1101, 396, 118, 29, 6, 1]
  D := 16
  q := 65536
  n := 976
  nbar := 8
  mbar := 8
  B := 3
  lenSeedA := 16
  lenZ := 16
  lenMu := 24
  lenSeedSE := 48
  lenSalt := 48
  lenS := 24
  lenK := 24
  lenPkh := 24
  lenSk := 31296
  lenPk := 15632
  lenCt := 15792
  lenSs := 24

/-- `setParamsFrodo1344` (132-169). -/
def p1344 : Params where
  chi := [18286, 14320, 6876, 2023, 364, 40, 2]
  D := 16
  q := 65536
  n := 1344
  nbar := 8
  mbar := 8
  B := 4
  lenSeedA := 16
  lenZ := 16
  lenMu := 32
  lenSeedSE := 64
  lenSalt := 64
  lenS := 32
  lenK := 32
  lenPkh := 32
  lenSk := 43088
  lenPk := 21520
  lenCt := 21696
  lenSs := 32

/-- `self.shake` (SHAKE128 or SHAKE256, 190-204), `__shake128` and `__aes128_16bytesonly` (206-212); `useAes` tells
which generator `__init__` (26-52) installed as `self.gen`. -/
structure Env where
  shake : Bytes → Nat → Bytes
  shake128 : Bytes → Nat → Bytes
  aes : Bytes → Bytes → Bytes
  useAes : Bool

/-! ## Matrices -/

abbrev Mat := List (List Int)

/-- `M[i][j]`. -/
def ent (M : Mat) (i j : Nat) : Int := (M.getD i []).getD j 0

/-- `[[f(i, j) for j in range(m)] for i in range(n)]`. -/
def tab (n m : Nat) (f : Nat → Nat → Int) : Mat := (List.range n).map (fun i => (List.range m).map (f i))

/-- `len(M[0])`. -/
def ncols (M : Mat) : Nat := (M.getD 0 []).length

/-- `for k in range(n): acc += f(k)`. -/
def sumTo (n : Nat) (f : Nat → Int) : Int := (List.range n).foldl (fun a k => a + f k) 0

/-- `frodokem.py` 214-224, `__cdf_zero_centred_symmetric`. -/
def cdf (chi : List Nat) : List Int :=
  let t0 : Int := (chi.getD 0 0 / 2 : Nat) - 1
  (List.range chi.length).map (fun z => if z = 0 then t0 else t0 + (((chi.take (z + 1)).drop 1).sum : Nat))

/-- `frodokem.py` 226-239, `__matrix_mul`. -/
def matMul (q : Nat) (X Y : Mat) : Except PyErr Mat :=
  if ncols X = Y.length then
    .ok (tab X.length (ncols Y) (fun i j => sumTo (ncols X) (fun k => ent X i k * ent Y k j) % q))
  else .error .assertionError

/-- `frodokem.py` 241-248, `__matrix_add`. -/
def matAdd (q : Nat) (X Y : Mat) : Except PyErr Mat :=
  if ncols X = ncols Y ∧ X.length = Y.length then
    .ok (tab X.length (ncols X) (fun i j => (ent X i j + ent Y i j) % q))
  else .error .assertionError

/-- `frodokem.py` 250-257, `__matrix_sub`. -/
def matSub (q : Nat) (X Y : Mat) : Except PyErr Mat :=
  if ncols X = ncols Y ∧ X.length = Y.length then
    .ok (tab X.length (ncols X) (fun i j => (ent X i j - ent Y i j) % q))
  else .error .assertionError

/-- `frodokem.py` 259-263, `__matrix_transpose`. -/
def transpose (X : Mat) : Mat := tab (ncols X) X.length (fun i j => ent X j i)

/-- `frodokem.py` 275-287, `__ctverify`. The entries are non-negative (reduced or unpacked), so that `^` and `|` act
on natural numbers. -/
def ctverify (a b : Mat) : Bool :=
  (List.range a.length).foldl (fun r i =>
    (List.range (a.getD i []).length).foldl (fun r j => r ||| ((ent a i j).toNat ^^^ (ent b i j).toNat)) r) 0 == 0

/-- The mask of `__ctselect` (292-294). -/
def ctmask (selector : Bool) : Nat := (List.range 8).foldl (fun m i => m ||| (selector.toNat <<< i)) 0

/-- `frodokem.py` 289-298, `__ctselect`. -/
def ctselect (a b : Bytes) (selector : Bool) : Bytes :=
  let mask := UInt8.ofNat (ctmask selector)
  (List.range a.length).map (fun i => (a.getD i 0 &&& mask) ||| (b.getD i 0 &&& ~~~mask))

/-! ## Codes -/

/-- `frodokem.py` 300-316, `encode`; `__bytes_to_bit_array` (265-273) is `bytesToBits`. -/
def encode (P : Params) (k : Bytes) : Mat :=
  let kbits := bytesToBits k
  tab P.mbar P.nbar (fun i j =>
    (bitsVal ((kbits.drop ((i * P.nbar + j) * P.B)).take P.B) : Int) * (P.q / 2 ^ P.B : Nat))

/-- Line 344 of `decode`: `math.floor(K[i][j] * 2**B / q + 0.5) % 2**B`. `q` is a power of two and the products are
below 2^53, so that the floating point numbers are exact. -/
def dc (P : Params) (x : Int) : Int := (2 * (x * 2 ^ P.B) + P.q) / (2 * P.q) % 2 ^ P.B

/-- `frodokem.py` 327-356, `decode`; `__bit_array_to_bytes` (318-325) is `bitsToBytes`. -/
def decode (P : Params) (K : Mat) : Bytes :=
  bitsToBytes ((List.range P.mbar).flatMap (fun i =>
    (List.range P.nbar).flatMap (fun j => natBits P.B (dc P (ent K i j)).toNat)))

/-- `.bytes` of a bit array whose length is divisible by 8. -/
def beBytes : List Nat → Bytes
  | b0 :: b1 :: b2 :: b3 :: b4 :: b5 :: b6 :: b7 :: r =>
    UInt8.ofNat (bitsVal [b7, b6, b5, b4, b3, b2, b1, b0]) :: beBytes r
  | _ => []

/-- The bits of `bitstring.Bits(b)`. -/
def beBits (b : Bytes) : List Nat := b.flatMap (fun x => (natBits 8 x.toNat).reverse)

/-- `frodokem.py` 358-378, `pack`. The loop `c[l] = tmp % 2; tmp >>= 1` gives the bits of `tmp mod 2^D`. -/
def pack (D : Nat) (C : Mat) : Bytes :=
  beBytes ((List.range C.length).flatMap (fun i =>
    (List.range (ncols C)).flatMap (fun j => (natBits D (ent C i j % 2 ^ D).toNat).reverse)))

/-- `frodokem.py` 380-392, `unpack`. The sum of `b[(i*n2+j)*D+l] * 2^(D-1-l)` is the value of the reversed bits. -/
def unpack (D : Nat) (b : Bytes) (n1 n2 : Nat) : Mat :=
  let bbits := beBits b
  tab n1 n2 (fun i j => (bitsVal ((bbits.drop ((i * n2 + j) * D)).take D).reverse : Int))

/-! ## Sampling -/

/-- `frodokem.py` 394-411, `sample`. -/
def sample (T : List Int) (r : Nat) : Int :=
  let t : Int := (r / 2 : Nat)
  let e := (List.range (T.length - 1)).foldl (fun (e : Int) z => if t > T.getD z 0 then e + 1 else e) 0
  (-1) ^ (r % 2) * e

/-- `frodokem.py` 413-423, `sample_matrix`. -/
def sampleMatrix (T : List Int) (r : List Nat) (n1 n2 : Nat) : Mat :=
  tab n1 n2 (fun i j => sample T (r.getD (i * n2 + j) 0))

/-- `struct.unpack_from('<H', b, 2 * i)[0]`. -/
def u16 (b : Bytes) (i : Nat) : Nat := (b.getD (2 * i) 0).toNat + 256 * (b.getD (2 * i + 1) 0).toNat

/-- `[struct.unpack_from('<H', b, 2 * i)[0] for i in range(m)]`. -/
def words (m : Nat) (b : Bytes) : List Nat := (List.range m).map (u16 b)

/-- `struct.pack('<H', i)`. -/
def packU16 (i : Nat) : Bytes := [UInt8.ofNat (i % 256), UInt8.ofNat (i / 256)]

/-- `frodokem.py` 425-442, `genAES128`. -/
def genAES (P : Params) (E : Env) (seedA : Bytes) : Mat :=
  tab P.n P.n (fun i j =>
    (u16 (E.aes seedA (packU16 i ++ packU16 (j / 8 * 8) ++ List.replicate 12 0)) (j % 8) : Int) % P.q)

/-- `frodokem.py` 444-460, `genSHAKE128`. -/
def genSHAKE (P : Params) (E : Env) (seedA : Bytes) : Mat :=
  tab P.n P.n (fun i j => (u16 (E.shake128 (packU16 i ++ seedA) (16 * P.n / 8)) j : Int) % P.q)

/-- `self.gen` (31-49). -/
def gen (P : Params) (E : Env) (seedA : Bytes) : Mat := if E.useAes then genAES P E seedA else genSHAKE P E seedA

/-! ## The key encapsulation mechanism -/

/-- `bitstring.BitArray(intle=x, length=16)`; `bitstring` rejects values outside `[-2^15, 2^15)`, samples are at most 12
in absolute value. -/
def intle16 (x : Int) : Bytes := [UInt8.ofNat (x % 256).toNat, UInt8.ofNat (x / 256 % 256).toNat]

/-- `read('intle:16')` of the word number `i`. -/
def readIntle16 (b : Bytes) (i : Nat) : Int := if u16 b i < 32768 then u16 b i else (u16 b i : Int) - 65536

/-- `frodokem.py` 462-512, `kem_keygen`, for the seed `s || seedSE || z` (given or random). -/
def keygen (P : Params) (E : Env) (seed : Bytes) : Except PyErr (Bytes × Bytes) := do
  let T := cdf P.chi
  let s := slice seed 0 P.lenS
  let seedSE := slice seed P.lenS (P.lenS + P.lenSeedSE)
  let z := slice seed (P.lenS + P.lenSeedSE) (P.lenS + P.lenSeedSE + P.lenZ)
  let seedA := E.shake z P.lenSeedA
  let A := gen P E seedA
  let r := words (2 * P.n * P.nbar) (E.shake (0x5f :: seedSE) (2 * P.n * P.nbar * 2))
  let St := sampleMatrix T (r.take (P.n * P.nbar)) P.nbar P.n
  let S := transpose St
  let Em := sampleMatrix T ((r.take (2 * P.n * P.nbar)).drop (P.n * P.nbar)) P.n P.nbar
  let AS ← matMul P.q A S
  let Bm ← matAdd P.q AS Em
  let b := pack P.D Bm
  let pkh := E.shake (seedA ++ b) P.lenPkh
  let pk := seedA ++ b
  if pk.length ≠ P.lenPk then throw .assertionError
  let sk := s ++ seedA ++ b ++
    (List.range P.nbar).flatMap (fun i => (List.range P.n).flatMap (fun j => intle16 (ent St i j))) ++ pkh
  if sk.length ≠ P.lenSk then throw .assertionError
  return (pk, sk)

/-- Lines 536-565 of `kem_encaps` and 635-660 of `kem_decaps`: the matrices `B'` and `C` for the message `mu`, computed
from `seedA`, `b` and `seedSE`. -/
def encrypt (P : Params) (E : Env) (seedA b seedSE mu : Bytes) : Except PyErr (Mat × Mat) := do
  let T := cdf P.chi
  let r := words (2 * P.mbar * P.n + P.mbar * P.nbar)
    (E.shake (0x96 :: seedSE) ((2 * P.mbar * P.n + P.mbar * P.mbar) * 2))
  let S' := sampleMatrix T (r.take (P.mbar * P.n)) P.mbar P.n
  let E' := sampleMatrix T ((r.take (2 * P.mbar * P.n)).drop (P.mbar * P.n)) P.mbar P.n
  let A := gen P E seedA
  let SA ← matMul P.q S' A
  let B' ← matAdd P.q SA E'
  let E'' := sampleMatrix T ((r.take (2 * P.mbar * P.n + P.mbar * P.nbar)).drop (2 * P.mbar * P.n)) P.mbar P.nbar
  let Bm := unpack P.D b P.n P.nbar
  let SB ← matMul P.q S' Bm
  let V ← matAdd P.q SB E''
  let C ← matAdd P.q V (encode P mu)
  return (B', C)

/-- `frodokem.py` 514-575, `kem_encaps`; `muSalt` is the result of `randombytes`. -/
def encaps (P : Params) (E : Env) (pk muSalt : Bytes) : Except PyErr (Bytes × Bytes) := do
  if 8 * pk.length ≠ 8 * P.lenSeedA + P.D * P.n * P.nbar then throw .assertionError
  let seedA := slice pk 0 P.lenSeedA
  let b := pk.drop P.lenSeedA
  let mu := slice muSalt 0 P.lenMu
  let salt := slice muSalt P.lenMu (P.lenMu + P.lenSalt)
  let pkh := E.shake pk P.lenPkh
  let seedSEk := E.shake (pkh ++ mu ++ salt) (P.lenSeedSE + P.lenK)
  let seedSE := slice seedSEk 0 P.lenSeedSE
  let k := slice seedSEk P.lenSeedSE (P.lenSeedSE + P.lenK)
  let (B', C) ← encrypt P E seedA b seedSE mu
  let c1 := pack P.D B'
  let c2 := pack P.D C
  let ss := E.shake (c1 ++ c2 ++ salt ++ k) P.lenSs
  let ct := c1 ++ c2 ++ salt
  if ct.length ≠ P.lenCt then throw .assertionError
  if ss.length ≠ P.lenSs then throw .assertionError
  return (ct, ss)

/-- `frodokem.py` 577-671, `kem_decaps`. -/
def decaps (P : Params) (E : Env) (sk ct : Bytes) : Except PyErr Bytes := do
  if ct.length ≠ P.lenCt then throw .assertionError
  let l1 := P.mbar * P.n * P.D / 8
  let l2 := P.mbar * P.nbar * P.D / 8
  let c1 := slice ct 0 l1
  let c2 := slice ct l1 (l1 + l2)
  let salt := slice ct (l1 + l2) (l1 + l2 + P.lenSalt)
  if sk.length ≠ P.lenSk then throw .assertionError
  let o1 := P.lenS
  let o2 := o1 + P.lenSeedA
  let o3 := o2 + P.D * P.n * P.nbar / 8
  let o4 := o3 + P.n * P.nbar * 16 / 8
  let s := slice sk 0 o1
  let seedA := slice sk o1 o2
  let b := slice sk o2 o3
  let Sbytes := slice sk o3 o4
  let St := tab P.nbar P.n (fun i j => readIntle16 Sbytes (i * P.n + j))
  let S := transpose St
  let pkh := slice sk o4 (o4 + P.lenPkh)
  let B' := unpack P.D c1 P.mbar P.n
  let C := unpack P.D c2 P.mbar P.nbar
  let BS ← matMul P.q B' S
  let M ← matSub P.q C BS
  let mu' := decode P M
  let seedSEk := E.shake (pkh ++ mu' ++ salt) (P.lenSeedSE + P.lenK)
  let seedSE' := slice seedSEk 0 P.lenSeedSE
  let k' := slice seedSEk P.lenSeedSE (P.lenSeedSE + P.lenK)
  let (B'', C') ← encrypt P E seedA b seedSE' mu'
  let kbar := ctselect k' s (ctverify (B' ++ C) (B'' ++ C'))
  let ss := E.shake (c1 ++ c2 ++ salt ++ kbar) P.lenSs
  if ss.length ≠ P.lenSs then throw .assertionError
  return ss

end Verif.PQ.Frodo
