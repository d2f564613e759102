import Verif.CA.Msg

/-!
# SLH-DSA (`pq_logic/fips/fips205.py`)

Byte strings are `List UInt8`. An `ADRS` object is its 32-byte array; a method that changes its `ADRS` argument returns the
new array beside its result. The six keyed hash functions are parameters (`Hash`), so every theorem holds for arbitrary hash functions; 172-318
(`ofShake`, `ofSha2`) build them from SHAKE256, SHA-256 and SHA-512.

`chain`, `xmss_node` and `fors_node` return `None` for out-of-range arguments. Every caller concatenates the result with a
byte string at once, which raises `TypeError`; here they raise `TypeError` themselves.
-/

namespace Verif.PQ.Slh

open Verif.CA (Bytes PyErr)

/-- `b[i:j]`. -/
def slice (b : Bytes) (i j : Nat) : Bytes := (b.take j).drop i

/-- `for i in range(n)` with loop state `σ`; the first exception ends the loop. -/
def forRange {σ : Type} (body : Nat → σ → Except PyErr σ) : Nat → σ → Except PyErr σ
  | 0, s => .ok s
  | n + 1, s => match forRange body n s with
    | .ok s => body n s
    | .error e => .error e

/-! ## Conversions -/

/-- `fips205.py` 322-327, `to_int`. -/
def toInt (s : Bytes) (n : Nat) : Except PyErr Nat :=
  if s.length < n then .error .indexError else .ok ((s.take n).foldl (fun t b => t * 256 + b.toNat) 0)

/-- `fips205.py` 329-336, `to_byte`: the last byte first. Also Python's `x.to_bytes(n, "big")` for `x < 256**n`. -/
def toByte (x : Nat) : Nat → Bytes
  | 0 => []
  | n + 1 => toByte (x / 256) n ++ [UInt8.ofNat (x % 256)]

/-- The inner loop of `base_2b` (350-353): `while c < b`. At most `b` rounds are needed. -/
def refill (s : Bytes) (b : Nat) : Nat → Nat × Nat × Nat → Except PyErr (Nat × Nat × Nat)
  | 0, st => .ok st
  | fuel + 1, (i, c, t) =>
    if c < b then
      match s[i]? with
      | some x => refill s b fuel (i + 1, c + 8, t * 256 + x.toNat)
      | none => .error .indexError
    else .ok (i, c, t)

/-- One round of `for j in range(out_len)` (349-355); the loop state is `((i, c, t), v)`. -/
def digitStep (s : Bytes) (b : Nat) (st : (Nat × Nat × Nat) × List Nat) : Except PyErr ((Nat × Nat × Nat) × List Nat) :=
  match refill s b b st.1 with
  | .ok (i, c, t) => .ok ((i, c - b, t), st.2 ++ [t / 2 ^ (c - b) % 2 ^ b])
  | .error e => .error e

/-- `fips205.py` 338-356, `base_2b`. -/
def base2b (s : Bytes) (b outLen : Nat) : Except PyErr (List Nat) :=
  match forRange (fun _ st => digitStep s b st) outLen ((0, 0, 0), []) with
  | .ok st => .ok st.2
  | .error e => .error e

/-! ## Addresses -/

/-- `fips205.py` 27-98: the array of an `ADRS`. -/
abbrev Adrs := Bytes

/-- `ADRS()` (41-43). -/
def newAdrs : Adrs := List.replicate 32 0

/-- `self.a[i:i+len(v)] = v`. -/
def splice (a : Adrs) (i : Nat) (v : Bytes) : Adrs := a.take i ++ v ++ a.drop (i + v.length)

/-- `self.a[i:i+n] = x.to_bytes(n, byteorder="big")`. -/
def setField (a : Adrs) (i n x : Nat) : Except PyErr Adrs :=
  if x < 256 ^ n then .ok (splice a i (toByte x n)) else .error .overflowError

/-- 49-51 -/
def setLayer (a : Adrs) (x : Nat) := setField a 0 4 x
/-- 53-55 -/
def setTree (a : Adrs) (x : Nat) := setField a 4 12 x
/-- 57-59 -/
def setKeyPair (a : Adrs) (x : Nat) := setField a 20 4 x
/-- 65-71, `set_tree_height` and `set_chain_address`. -/
def setHeight (a : Adrs) (x : Nat) := setField a 24 4 x
/-- 73-75 and 81-83, `set_tree_index` and `set_hash_address`. -/
def setIndex (a : Adrs) (x : Nat) := setField a 28 4 x

/-- `int.from_bytes(b, "big")`. -/
def fromBytes (b : Bytes) : Nat := b.foldl (fun t b => t * 256 + b.toNat) 0

/-- 61-63 -/
def getKeyPair (a : Adrs) : Nat := fromBytes (slice a 20 24)
/-- 77-79 -/
def getIndex (a : Adrs) : Nat := fromBytes (slice a 28 32)

/-- The type constants (31-37). -/
inductive AType where
  | wotsHash | wotsPk | tree | forsTree | forsRoots | wotsPrf | forsPrf
  deriving DecidableEq

/-- 31-37 -/
def AType.code : AType → Nat
  | .wotsHash => 0 | .wotsPk => 1 | .tree => 2 | .forsTree => 3 | .forsRoots => 4 | .wotsPrf => 5 | .forsPrf => 6

/-- 85-92, `set_type_and_clear`. -/
def setType (a : Adrs) (t : AType) : Adrs := splice (splice a 16 (toByte t.code 4)) 20 (List.replicate 12 0)

/-- 98-100, `adrsc`. -/
def adrsc (a : Adrs) : Bytes := slice a 3 4 ++ slice a 8 16 ++ slice a 19 20 ++ slice a 20 32

/-! ## Parameters and hash functions -/

/-- `fips205.py` 123-169: the numbers of an `SLH_DSA` object. -/
structure Params where
  n : Nat
  h : Nat
  d : Nat
  hp : Nat
  a : Nat
  k : Nat
  lgw : Nat
  m : Nat
  deriving DecidableEq

/-- Python's `int.bit_length`. -/
def bitLength (n : Nat) : Nat := if n = 0 then 0 else Nat.log2 n + 1

/-- 159 -/
def Params.w (P : Params) : Nat := 2 ^ P.lgw
/-- 160 -/
def Params.len1 (P : Params) : Nat := (8 * P.n + (P.lgw - 1)) / P.lgw
/-- 161 -/
def Params.len2 (P : Params) : Nat := bitLength (P.len1 * (P.w - 1)) / P.lgw + 1
/-- 162 -/
def Params.len (P : Params) : Nat := P.len1 + P.len2
/-- 165 -/
def Params.pkSz (P : Params) : Nat := 2 * P.n
/-- 167 -/
def Params.sigSz (P : Params) : Nat := (1 + P.k * (1 + P.a) + P.h + P.d * P.len) * P.n

/-- 855-856, as in the table 854-867 of parameter sets (each occurs once with SHA-2 and once with SHAKE). -/
def p128s : Params := ⟨16, 63, 7, 9, 12, 14, 4, 30⟩
/-- 857-858 -/
def p128f : Params := ⟨16, 66, 22, 3, 6, 33, 4, 34⟩
/-- 859-860 -/
def p192s : Params := ⟨24, 63, 7, 9, 14, 17, 4, 39⟩
/-- 861-862 -/
def p192f : Params := ⟨24, 66, 22, 3, 8, 33, 4, 42⟩
/-- 863-864 -/
def p256s : Params := ⟨32, 64, 8, 8, 14, 22, 4, 47⟩
/-- 865-866 -/
def p256f : Params := ⟨32, 68, 17, 4, 9, 35, 4, 49⟩

/-- The bound methods `h_msg`, `prf`, `prf_msg`, `h_f`, `h_h`, `h_t` (135-155). -/
structure Hash where
  hMsg : Bytes → Bytes → Bytes → Bytes → Bytes
  prf : Bytes → Bytes → Adrs → Bytes
  prfMsg : Bytes → Bytes → Bytes → Bytes
  f : Bytes → Adrs → Bytes → Bytes
  h : Bytes → Adrs → Bytes → Bytes
  t : Bytes → Adrs → Bytes → Bytes

/-- 172-188 with 135-141: the SHAKE functions. -/
def ofShake (shake : Bytes → Nat → Bytes) (P : Params) : Hash where
  hMsg := fun r seed root m => shake (r ++ seed ++ root ++ m) P.m
  prf := fun pkSeed skSeed a => shake (pkSeed ++ a ++ skSeed) P.n
  prfMsg := fun skPrf rnd m => shake (skPrf ++ rnd ++ m) P.n
  f := fun seed a m => shake (seed ++ a ++ m) P.n
  h := fun seed a m => shake (seed ++ a ++ m) P.n
  t := fun seed a m => shake (seed ++ a ++ m) P.n

/-- 212-232, `mgf` (the counter is below 2^32 for every mask of the parameter sets). -/
def mgf (hash : Bytes → Bytes) (hashL : Nat) (seed : Bytes) (maskLen : Nat) : Bytes :=
  ((List.range ((maskLen + hashL - 1) / hashL)).flatMap (fun c => hash (seed ++ toByte c 4))).take maskLen

/-- 234-263, `hmac`. -/
def hmac (hash : Bytes → Bytes) (hashB : Nat) (k text : Bytes) : Bytes :=
  let k := if k.length > hashB then hash k else k
  let pad := k ++ List.replicate (hashB - k.length) 0
  hash (pad.map (· ^^^ 0x5C) ++ hash (pad.map (· ^^^ 0x36) ++ text))

/-- 142-154 with 190-208, 265-318: the SHA-2 functions of category 1 (`n = 16`) and of categories 3 and 5. -/
def ofSha2 (sha256 sha512 : Bytes → Bytes) (P : Params) : Hash where
  hMsg := fun r seed root m =>
    if P.n = 16 then mgf sha256 32 (r ++ seed ++ sha256 (r ++ seed ++ root ++ m)) P.m
    else mgf sha512 64 (r ++ seed ++ sha512 (r ++ seed ++ root ++ m)) P.m
  prf := fun pkSeed skSeed a => (sha256 (pkSeed ++ List.replicate (64 - P.n) 0 ++ adrsc a ++ skSeed)).take P.n
  prfMsg := fun skPrf rnd m =>
    if P.n = 16 then (hmac sha256 64 skPrf (rnd ++ m)).take P.n else (hmac sha512 128 skPrf (rnd ++ m)).take P.n
  f := fun seed a m => (sha256 (seed ++ List.replicate (64 - P.n) 0 ++ adrsc a ++ m)).take P.n
  h := fun seed a m =>
    if P.n = 16 then (sha256 (seed ++ List.replicate (64 - P.n) 0 ++ adrsc a ++ m)).take P.n
    else (sha512 (seed ++ List.replicate (128 - P.n) 0 ++ adrsc a ++ m)).take P.n
  t := fun seed a m =>
    if P.n = 16 then (sha256 (seed ++ List.replicate (64 - P.n) 0 ++ adrsc a ++ m)).take P.n
    else (sha512 (seed ++ List.replicate (128 - P.n) 0 ++ adrsc a ++ m)).take P.n

/-! ## WOTS+ -/

/-- One round of 364-366. -/
def chainStep (H : Hash) (seed : Bytes) (i j : Nat) (st : Bytes × Adrs) : Except PyErr (Bytes × Adrs) := do
  let a ← setIndex st.2 (i + j)
  .ok (H.f seed a st.1, a)

/-- `fips205.py` 357-367, `chain`. -/
def chain (P : Params) (H : Hash) (x : Bytes) (i s : Nat) (seed : Bytes) (a : Adrs) : Except PyErr (Bytes × Adrs) :=
  if i + s ≥ P.w then .error .typeError
  else forRange (chainStep H seed i) s (x, a)

/-- Lines 394-399 and 417-422, identical in `wots_sign` and `wots_pk_from_sig`: the digits of the message and of its checksum (the
digits are below `w`, so the subtraction is not truncated). -/
def wotsDigits (P : Params) (m : Bytes) : Except PyErr (List Nat) := do
  let msg ← base2b m P.lgw P.len1
  let csum := ((List.range P.len1).map (fun i => P.w - 1 - msg.getD i 0)).foldl (· + ·) 0
  let csum := csum * 2 ^ ((8 - P.len2 * P.lgw % 8) % 8)
  let cs ← base2b (toByte csum ((P.len2 * P.lgw + 7) / 8)) P.lgw P.len2
  .ok (msg ++ cs)

/-- One round of the loops 378-382 and 404-408, which differ in the number of steps `cnt i` only; the loop state is
`(sk_adrs, adrs, tmp)`. -/
def wotsStep (P : Params) (H : Hash) (skSeed seed : Bytes) (cnt : Nat → Nat) (i : Nat) (st : Adrs × Adrs × Bytes) :
    Except PyErr (Adrs × Adrs × Bytes) := do
  let skA ← setHeight st.1 i
  let a ← setHeight st.2.1 i
  let (v, a) ← chain P H (H.prf seed skSeed skA) 0 (cnt i) seed a
  .ok (skA, a, st.2.2 ++ v)

/-- `fips205.py` 369-387, `wots_pkgen`. -/
def wotsPkgen (P : Params) (H : Hash) (skSeed seed : Bytes) (a : Adrs) : Except PyErr (Bytes × Adrs) := do
  let skA ← setKeyPair (setType a .wotsPrf) (getKeyPair a)
  let (_, a, tmp) ← forRange (wotsStep P H skSeed seed (fun _ => P.w - 1)) P.len (skA, a, [])
  let pkA ← setKeyPair (setType a .wotsPk) (getKeyPair a)
  .ok (H.t seed pkA tmp, a)

/-- `fips205.py` 389-410, `wots_sign`. -/
def wotsSign (P : Params) (H : Hash) (m skSeed seed : Bytes) (a : Adrs) : Except PyErr (Bytes × Adrs) := do
  let msg ← wotsDigits P m
  let skA ← setKeyPair (setType a .wotsPrf) (getKeyPair a)
  let (_, a, sig) ← forRange (wotsStep P H skSeed seed (fun i => msg.getD i 0)) P.len (skA, a, [])
  .ok (sig, a)

/-- One round of 424-426. -/
def wotsVerStep (P : Params) (H : Hash) (sig seed : Bytes) (msg : List Nat) (i : Nat) (st : Adrs × Bytes) :
    Except PyErr (Adrs × Bytes) := do
  let a ← setHeight st.1 i
  let (v, a) ← chain P H (slice sig (i * P.n) ((i + 1) * P.n)) (msg.getD i 0) (P.w - 1 - msg.getD i 0) seed a
  .ok (a, st.2 ++ v)

/-- `fips205.py` 412-431, `wots_pk_from_sig`. -/
def wotsPkFromSig (P : Params) (H : Hash) (sig m seed : Bytes) (a : Adrs) : Except PyErr (Bytes × Adrs) := do
  let msg ← wotsDigits P m
  let (a, tmp) ← forRange (wotsVerStep P H sig seed msg) P.len (a, [])
  let pkA ← setKeyPair (setType a .wotsPk) (getKeyPair a)
  .ok (H.t seed pkA tmp, a)

/-! ## XMSS -/

/-- `fips205.py` 433-450, `xmss_node`. -/
def xmssNode (P : Params) (H : Hash) (skSeed seed : Bytes) : Nat → Nat → Adrs → Except PyErr (Bytes × Adrs)
  | 0, i, a =>
    if 0 > P.hp ∨ i ≥ 2 ^ (P.hp - 0) then .error .typeError
    else do
      let a ← setKeyPair (setType a .wotsHash) i
      wotsPkgen P H skSeed seed a
  | z + 1, i, a =>
    if z + 1 > P.hp ∨ i ≥ 2 ^ (P.hp - (z + 1)) then .error .typeError
    else do
      let (l, a) ← xmssNode P H skSeed seed z (2 * i) a
      let (r, a) ← xmssNode P H skSeed seed z (2 * i + 1) a
      let a ← setHeight (setType a .tree) (z + 1)
      let a ← setIndex a i
      .ok (H.h seed a (l ++ r), a)

/-- One round of 458-460. -/
def authStep (P : Params) (H : Hash) (skSeed seed : Bytes) (idx j : Nat) (st : Bytes × Adrs) : Except PyErr (Bytes × Adrs) := do
  let (v, a) ← xmssNode P H skSeed seed j ((idx / 2 ^ j) ^^^ 1) st.2
  .ok (st.1 ++ v, a)

/-- `fips205.py` 452-465, `xmss_sign`. -/
def xmssSign (P : Params) (H : Hash) (m skSeed : Bytes) (idx : Nat) (seed : Bytes) (a : Adrs) : Except PyErr (Bytes × Adrs) := do
  let (auth, a) ← forRange (authStep P H skSeed seed idx) P.hp ([], a)
  let a ← setKeyPair (setType a .wotsHash) idx
  let (sig, a) ← wotsSign P H m skSeed seed a
  .ok (sig ++ auth, a)

/-- One round of the climbing loops (480-489 and 622-632): set the height, halve the index, hash with the sibling. `bit` is
the tested bit of the leaf index. `(index - 1) // 2` is negative for index 0, which `to_bytes` rejects. -/
def climb (H : Hash) (seed : Bytes) (k : Nat) (bit : Bool) (authK : Bytes) (st : Bytes × Adrs) : Except PyErr (Bytes × Adrs) := do
  let a ← setHeight st.2 (k + 1)
  if bit then
    let a ← if getIndex a = 0 then .error .overflowError else setIndex a ((getIndex a - 1) / 2)
    .ok (H.h seed a (authK ++ st.1), a)
  else
    let a ← setIndex a (getIndex a / 2)
    .ok (H.h seed a (st.1 ++ authK), a)

/-- The `k`-th round for leaf index `idx` and authentication path `auth`. -/
def climbStep (P : Params) (H : Hash) (seed : Bytes) (idx : Nat) (auth : Bytes) (k : Nat) (st : Bytes × Adrs) : Except PyErr (Bytes × Adrs) :=
  climb H seed k (idx / 2 ^ k % 2 == 1) (slice auth (k * P.n) ((k + 1) * P.n)) st

/-- `fips205.py` 467-491, `xmss_pk_from_sig`. -/
def xmssPkFromSig (P : Params) (H : Hash) (idx : Nat) (sigX m seed : Bytes) (a : Adrs) : Except PyErr (Bytes × Adrs) := do
  let a ← setKeyPair (setType a .wotsHash) idx
  let sig := slice sigX 0 (P.len * P.n)
  let auth := sigX.drop (P.len * P.n)
  let (node, a) ← wotsPkFromSig P H sig m seed a
  let a ← setIndex (setType a .tree) idx
  forRange (climbStep P H seed idx auth) P.hp (node, a)

/-! ## Hypertree -/

/-- The loop state of `ht_sign` and `ht_verify`. -/
structure HtState where
  iLeaf : Nat
  iTree : Nat
  adrs : Adrs
  sig : Bytes
  root : Bytes

/-- One round of 508-518 (`j` counts from 0 here, from 1 there). -/
def htSignStep (P : Params) (H : Hash) (skSeed seed : Bytes) (j : Nat) (st : HtState) : Except PyErr HtState := do
  let iLeaf := st.iTree % 2 ^ P.hp
  let iTree := st.iTree / 2 ^ P.hp
  let a ← setLayer st.adrs (j + 1)
  let a ← setTree a iTree
  let (sig, a) ← xmssSign P H st.root skSeed iLeaf seed a
  if j + 1 < P.d - 1 then
    let (root, a) ← xmssPkFromSig P H iLeaf sig st.root seed a
    .ok ⟨iLeaf, iTree, a, st.sig ++ sig, root⟩
  else .ok ⟨iLeaf, iTree, a, st.sig ++ sig, st.root⟩

/-- `fips205.py` 493-519, `ht_sign`. -/
def htSign (P : Params) (H : Hash) (m skSeed seed : Bytes) (iTree iLeaf : Nat) : Except PyErr Bytes := do
  let a ← setTree newAdrs iTree
  let (sig, a) ← xmssSign P H m skSeed iLeaf seed a
  let (root, a) ← xmssPkFromSig P H iLeaf sig m seed a
  let st ← forRange (htSignStep P H skSeed seed) (P.d - 1) ⟨iLeaf, iTree, a, sig, root⟩
  .ok st.sig

/-- One round of 541-547. -/
def htVerStep (P : Params) (H : Hash) (sigHt seed : Bytes) (j : Nat) (st : HtState) : Except PyErr HtState := do
  let iLeaf := st.iTree % 2 ^ P.hp
  let iTree := st.iTree / 2 ^ P.hp
  let a ← setLayer st.adrs (j + 1)
  let a ← setTree a iTree
  let (node, a) ← xmssPkFromSig P H iLeaf
    (slice sigHt ((j + 1) * (P.hp + P.len) * P.n) ((j + 1 + 1) * (P.hp + P.len) * P.n)) st.root seed a
  .ok ⟨iLeaf, iTree, a, st.sig, node⟩

/-- `fips205.py` 521-549, `ht_verify`. -/
def htVerify (P : Params) (H : Hash) (m sigHt seed : Bytes) (iTree iLeaf : Nat) (root : Bytes) : Except PyErr Bool := do
  let a ← setTree newAdrs iTree
  let (node, a) ← xmssPkFromSig P H iLeaf (slice sigHt 0 ((P.hp + P.len) * P.n)) m seed a
  let st ← forRange (htVerStep P H sigHt seed) (P.d - 1) ⟨iLeaf, iTree, a, [], node⟩
  .ok (st.root == root)

/-! ## FORS -/

/-- `fips205.py` 551-559, `fors_sk_gen`. -/
def forsSkGen (H : Hash) (skSeed seed : Bytes) (a : Adrs) (idx : Nat) : Except PyErr Bytes := do
  let skA ← setKeyPair (setType a .forsPrf) (getKeyPair a)
  let skA ← setIndex skA idx
  .ok (H.prf seed skSeed skA)

/-- `fips205.py` 561-579, `fors_node`. -/
def forsNode (P : Params) (H : Hash) (skSeed seed : Bytes) : Nat → Nat → Adrs → Except PyErr (Bytes × Adrs)
  | 0, i, a =>
    if 0 > P.a ∨ i ≥ P.k * 2 ^ (P.a - 0) then .error .typeError
    else do
      let sk ← forsSkGen H skSeed seed a i
      let a ← setHeight a 0
      let a ← setIndex a i
      .ok (H.f seed a sk, a)
  | z + 1, i, a =>
    if z + 1 > P.a ∨ i ≥ P.k * 2 ^ (P.a - (z + 1)) then .error .typeError
    else do
      let (l, a) ← forsNode P H skSeed seed z (2 * i) a
      let (r, a) ← forsNode P H skSeed seed z (2 * i + 1) a
      let a ← setHeight a (z + 1)
      let a ← setIndex a i
      .ok (H.h seed a (l ++ r), a)

/-- One round of 596-598. -/
def forsAuthStep (P : Params) (H : Hash) (skSeed seed : Bytes) (i idx j : Nat) (st : Bytes × Adrs) : Except PyErr (Bytes × Adrs) := do
  let (v, a) ← forsNode P H skSeed seed j (i * 2 ^ (P.a - j) + ((idx / 2 ^ j) ^^^ 1)) st.2
  .ok (st.1 ++ v, a)

/-- One round of 594-598. -/
def forsSignStep (P : Params) (H : Hash) (skSeed seed : Bytes) (indices : List Nat) (i : Nat) (st : Bytes × Adrs) :
    Except PyErr (Bytes × Adrs) := do
  let sk ← forsSkGen H skSeed seed st.2 (i * 2 ^ P.a + indices.getD i 0)
  forRange (forsAuthStep P H skSeed seed i (indices.getD i 0)) P.a (st.1 ++ sk, st.2)

/-- `fips205.py` 581-599, `fors_sign`. -/
def forsSign (P : Params) (H : Hash) (md skSeed seed : Bytes) (a : Adrs) : Except PyErr (Bytes × Adrs) := do
  let indices ← base2b md P.a P.k
  forRange (forsSignStep P H skSeed seed indices) P.k ([], a)

/-- One round of 616-633. -/
def forsPkStep (P : Params) (H : Hash) (sig seed : Bytes) (indices : List Nat) (i : Nat) (st : Bytes × Adrs) :
    Except PyErr (Bytes × Adrs) := do
  let sk := slice sig (i * (P.a + 1) * P.n) ((i * (P.a + 1) + 1) * P.n)
  let a ← setHeight st.2 0
  let a ← setIndex a (i * 2 ^ P.a + indices.getD i 0)
  let auth := slice sig ((i * (P.a + 1) + 1) * P.n) ((i + 1) * (P.a + 1) * P.n)
  let (node, a) ← forRange (climbStep P H seed (indices.getD i 0) auth) P.a (H.f seed a sk, a)
  .ok (st.1 ++ node, a)

/-- `fips205.py` 601-639, `fors_pk_from_sig`. -/
def forsPkFromSig (P : Params) (H : Hash) (sig md seed : Bytes) (a : Adrs) : Except PyErr (Bytes × Adrs) := do
  let indices ← base2b md P.a P.k
  let (root, a) ← forRange (forsPkStep P H sig seed indices) P.k ([], a)
  let pkA ← setKeyPair (setType a .forsRoots) (getKeyPair a)
  .ok (H.t seed pkA root, a)

/-! ## SLH-DSA -/

/-- `fips205.py` 641-655, `slh_keygen_internal`: `(pk, sk)`. -/
def keygenInternal (P : Params) (H : Hash) (skSeed skPrf seed : Bytes) : Except PyErr (Bytes × Bytes) := do
  let a ← setLayer newAdrs (P.d - 1)
  let (root, _) ← xmssNode P H skSeed seed P.hp 0 a
  .ok (seed ++ root, skSeed ++ skPrf ++ seed ++ root)

/-- `fips205.py` 657-667, `split_digest`. -/
def splitDigest (P : Params) (digest : Bytes) : Except PyErr (Bytes × Nat × Nat) := do
  let ka1 := (P.k * P.a + 7) / 8
  let md := slice digest 0 ka1
  let hd := P.h / P.d
  let hhd := P.h - hd
  let ka2 := ka1 + (hhd + 7) / 8
  let t ← toInt (slice digest ka1 ka2) ((hhd + 7) / 8)
  let ka3 := ka2 + (hd + 7) / 8
  let l ← toInt (slice digest ka2 ka3) ((hd + 7) / 8)
  .ok (md, t % 2 ^ hhd, l % 2 ^ hd)

/-- The address set up in 691-693 and 720-722. -/
def forsAdrs (iTree iLeaf : Nat) : Except PyErr Adrs := do
  let a ← setTree newAdrs iTree
  setKeyPair (setType a .forsTree) iLeaf

/-- `fips205.py` 669-702, `slh_sign_internal`. -/
def signInternal (P : Params) (H : Hash) (m sk : Bytes) (addrnd : Option Bytes) : Except PyErr Bytes := do
  let skSeed := slice sk 0 P.n
  let skPrf := slice sk P.n (2 * P.n)
  let seed := slice sk (2 * P.n) (3 * P.n)
  let root := sk.drop (3 * P.n)
  let r := H.prfMsg skPrf (addrnd.getD seed) m
  let digest := H.hMsg r seed root m
  let (md, iTree, iLeaf) ← splitDigest P digest
  let a ← forsAdrs iTree iLeaf
  let (sigFors, a) ← forsSign P H md skSeed seed a
  let (pkFors, _) ← forsPkFromSig P H sigFors md seed a
  let sigHt ← htSign P H pkFors skSeed seed iTree iLeaf
  .ok (r ++ sigFors ++ sigHt)

/-- `fips205.py` 704-725, `slh_verify_internal`. -/
def verifyInternal (P : Params) (H : Hash) (m sig pk : Bytes) : Except PyErr Bool :=
  if sig.length ≠ P.sigSz ∨ pk.length ≠ P.pkSz then .ok false
  else do
    let seed := pk.take P.n
    let root := pk.drop P.n
    let r := slice sig 0 P.n
    let sigFors := slice sig P.n ((1 + P.k * (1 + P.a)) * P.n)
    let sigHt := sig.drop ((1 + P.k * (1 + P.a)) * P.n)
    let digest := H.hMsg r seed root m
    let (md, iTree, iLeaf) ← splitDigest P digest
    let a ← forsAdrs iTree iLeaf
    let (pkFors, _) ← forsPkFromSig P H sigFors md seed a
    htVerify P H pkFors sigHt seed iTree iLeaf root

/-- `fips205.py` 106-117, `integer_to_bytes(x, 1)`. -/
def oneByte (x : Nat) : Bytes := [UInt8.ofNat (x % 256)]

/-- The string signed by `slh_sign` (757) and checked by `slh_verify` (808). -/
def pureMp (ctx m : Bytes) : Bytes := oneByte 0 ++ oneByte ctx.length ++ ctx ++ m

/-- `fips205.py` 743-759, `slh_sign` with `param = None`; `none` is Python's `None`. -/
def slhSign (P : Params) (H : Hash) (m ctx sk : Bytes) (addrnd : Option Bytes) : Except PyErr (Option Bytes) :=
  if ctx.length > 255 then .ok none
  else (signInternal P H (pureMp ctx m) sk addrnd).map some

/-- `fips205.py` 793-809, `slh_verify` with `param = None`. -/
def slhVerify (P : Params) (H : Hash) (m sig ctx pk : Bytes) : Except PyErr Bool :=
  if ctx.length > 255 then .ok false
  else verifyInternal P H (pureMp ctx m) sig pk

/-- `_compute_hash`/`_compute_shake` as used for the pre-hash (769-784). -/
structure PreHash where
  sha256 : Bytes → Bytes
  sha512 : Bytes → Bytes
  shake128 : Bytes → Nat → Bytes
  shake256 : Bytes → Nat → Bytes

/-- The DER encoding of an object identifier of the NIST hash arc, e.g. 770. -/
def hashOid (x : UInt8) : Bytes := [0x06, 0x09, 0x60, 0x86, 0x48, 0x01, 0x65, 0x03, 0x04, 0x02, x]

/-- The identifier and the digest for a name (769-786, 829-847); `names` are the four names the caller compares with. -/
def preHash (G : PreHash) (names : String × String × String × String) (ph : String) (m : Bytes) : Option Bytes :=
  if ph = names.1 then some (hashOid 0x01 ++ G.sha256 m)
  else if ph = names.2.1 then some (hashOid 0x03 ++ G.sha512 m)
  else if ph = names.2.2.1 then some (hashOid 0x0B ++ G.shake128 m 32)
  else if ph = names.2.2.2 then some (hashOid 0x0C ++ G.shake256 m 64)
  else none

/-- 769-781 -/
def signNames : String × String × String × String := ("sha-256", "sha-512", "shake128", "shake256")
/-- 829-841 -/
def verifyNames : String × String × String × String := ("SHA-256", "SHA-512", "SHAKE128", "SHAKE256")

/-- `fips205.py` 762-790, `hash_slh_sign` with `param = None`. 789 passes the key as the message and the message as the key. -/
def hashSlhSign (P : Params) (H : Hash) (G : PreHash) (m ctx : Bytes) (ph : String) (sk : Bytes) (rnd : Option Bytes) :
    Except PyErr (Option Bytes) :=
  if ctx.length > 255 then .error .valueError
  else match preHash G signNames ph m with
  | none => .ok none
  | some d => (signInternal P H sk (oneByte 1 ++ oneByte ctx.length ++ ctx ++ d) rnd).map some

/-- `fips205.py` 812-851, `hash_ml_dsa_verify` with `param = None`. -/
def hashSlhVerify (P : Params) (H : Hash) (G : PreHash) (pk m sig ctx : Bytes) (ph : String) : Except PyErr Bool :=
  if ctx.length > 255 then .error .valueError
  else match preHash G verifyNames ph m with
  | none => .error .valueError
  | some d => verifyInternal P H (oneByte 1 ++ oneByte ctx.length ++ ctx ++ d) sig pk

end Verif.PQ.Slh
