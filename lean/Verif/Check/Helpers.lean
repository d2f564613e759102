import Verif.CA.Msg

/-!
# Pure helpers of the test suite (resources/utils.py, resources/compareutils.py, resources/asn1utils.py)
-/

namespace Verif.Check

open Verif.CA (Bytes PyErr)

/-! ## Nonces (resources/utils.py) -/

/-- `bin(x).count("1")` for a byte value. -/
def popcount : Nat → Nat → Nat
  | 0, _ => 0
  | fuel + 1, n => n % 2 + popcount fuel (n / 2)

/-- `bytes.ljust(n, b"\x00")`. -/
def ljust0 (n : Nat) (b : Bytes) : Bytes := b ++ List.replicate (n - b.length) 0

/-- `sum(bin(n1 ^ n2).count("1") for n1, n2 in zip(a, b))` (line 57); a byte has at most 8 bits. -/
def hamming (a b : Bytes) : Nat := ((a.zip b).map (fun p => popcount 8 (p.1 ^^^ p.2).toNat)).sum

/-- The distance of one pair after padding (lines 52-57). -/
def paddedHamming (a b : Bytes) : Nat :=
  let m := max a.length b.length
  hamming (ljust0 m a) (ljust0 m b)

/-- The inner loop: one nonce against the later ones. -/
def diverseFrom (minD : Int) (a : Bytes) : List Bytes → Except PyErr Unit
  | [] => .ok ()
  | b :: bs => if (paddedHamming a b : Int) < minD then .error .valueError else diverseFrom minD a bs

/-- `utils.py` 37-67, `nonces_must_be_diverse`; `itertools.combinations(nonces, 2)` enumerates the pairs in
this order. -/
def noncesDiverse (minD : Int) : List Bytes → Except PyErr Unit
  | [] => .ok ()
  | a :: rest =>
    match diverseFrom minD a rest with
    | .error e => .error e
    | .ok () => noncesDiverse minD rest

/-- `utils.py` 70-82, `nonces_must_be_unique`: the `Counter` has an entry with count > 1. -/
def noncesUnique (l : List Bytes) : Except PyErr Unit :=
  if l.any (fun x => decide (1 < l.count x)) then .error .valueError else .ok ()

/-! ## Manipulations (resources/utils.py) -/

/-- `utils.py` 105-115, `manipulate_first_byte`; `data[0]` of empty data raises `IndexError`. -/
def manipulateFirstByte : Bytes → Except PyErr Bytes
  | [] => .error .indexError
  | b :: bs => if b = 0 then .ok (1 :: bs) else .ok (0 :: bs)

/-- `int.from_bytes(b, "big")`. -/
def beNat (b : Bytes) : Nat := b.foldl (fun a x => a * 256 + x.toNat) 0

/-- `n.to_bytes(len, "little")` for a number that fits. -/
def leBytes : Nat → Nat → Bytes
  | 0, _ => []
  | len + 1, n => UInt8.ofNat (n % 256) :: leBytes len (n / 256)

/-- The key classes `manipulate_pq_stateful_signature_bytes` distinguishes, with the values it reads from them:
XMSS, XMSS^MT (`ceil(tree_height / 8)` index bytes), HSS (header 4 bytes plus `levels - 1` times
signature + public key). -/
inductive StflKey where
  | xmss
  | xmssmt (treeHeight : Nat)
  | hss (levels span lmots : Nat)

/-- Lines 862-881: position and length of the index. -/
def indexPos : StflKey → Except PyErr (Nat × Nat)
  | .xmss => .ok (0, 4)
  | .xmssmt h => .ok (0, (h + 7) / 8)
  | .hss levels span _ => if levels < 1 then .error .valueError else .ok (4 + (levels - 1) * span, 4)

/-- `_manipulate_stateful_signature_payload` / `_manipulate_hss_lms_signature` (922-942). -/
def manipulatePayload (k : StflKey) (payload : Bytes) : Except PyErr Bytes :=
  match k with
  | .hss _ _ lmots =>
    if payload.length < lmots then .error .valueError
    else match manipulateFirstByte (payload.take lmots) with
      | .error e => .error e
      | .ok m => .ok (m ++ payload.drop lmots)
  | _ => manipulateFirstByte payload

/-- `utils.py` 816-908, `manipulate_pq_stateful_signature_bytes`; `index = none` stands for the default maximum
`dflt`. -/
def manipulateStfl (data : Bytes) (k : StflKey) (manipulateSig : Bool) (index : Option Int) (dflt : Nat) :
    Except PyErr Bytes :=
  match indexPos k with
  | .error e => .error e
  | .ok (start, len) =>
    let sigStart := start + len
    if data.length < sigStart then .error .valueError
    else if manipulateSig then
      if data.length = sigStart then .error .valueError
      else match manipulatePayload k (data.drop sigStart) with
        | .error e => .error e
        | .ok m => .ok (data.take sigStart ++ m)
    else
      let i : Int := index.getD dflt
      if i < 0 then .error .valueError
      else if i > (2 ^ (len * 8) - 1 : Nat) then .error .valueError
      else .ok (data.take start ++ leBytes len i.toNat ++ data.drop (start + len))

/-- `stateful_sig_keys.py` 431-436 (XMSS) and 688-701 (XMSS^MT), `get_leaf_index`. -/
def leafIndex (k : StflKey) (sigSize : Nat) (sig : Bytes) : Except PyErr Nat :=
  match k with
  | .xmss => if sig.length ≠ sigSize then .error .valueError else .ok (beNat (sig.take 4))
  | .xmssmt h => if sig.length < 4 then .error .valueError else .ok (beNat (sig.take ((h + 7) / 8)))
  | .hss levels span _ => .ok (beNat ((sig.drop (4 + (levels - 1) * span)).take 4))

/-! ## Password expansion -/

/-- `s * n` for a sequence. -/
def repeatList {α : Type} (s : List α) : Nat → List α
  | 0 => []
  | n + 1 => s ++ repeatList s n

/-- `utils.py` 1094-1107, `expand_string_to_length`. -/
def expandString {α : Type} (s : List α) (length : Int) : Except PyErr (List α) :=
  if s = [] then .error .valueError
  else if length < 0 then .error .valueError
  else .ok ((repeatList s (length.toNat / s.length + 1)).take length.toNat)

/-! ## Distinguished names (resources/compareutils.py 25-91)

A name is a list of RDNs, each a list of attributes (type and value, of an arbitrary type `A`); `tagged` is
whatever the explicit tagging of the `Name` adds to its DER encoding. -/

structure DName (A : Type) where
  tag : Nat := 0
  rdns : List (List A)
  deriving DecidableEq

/-- `suiteenums.NameCompareTypes`. -/
inductive CmpMode where
  | strict
  | withoutTag
  | contains
  | containsSeq

/-- The pairs `(rdn_index, attr)` of a name. -/
def indexed {A : Type} : Nat → List (List A) → List (Nat × A)
  | _, [] => []
  | i, r :: rs => r.map (fun a => (i, a)) ++ indexed (i + 1) rs

/-- `compareutils.py` 26-91, `compare_pyasn1_names`; DER equality is equality of the structure. -/
def compareNames {A : Type} [DecidableEq A] (name1 name2 : DName A) : CmpMode → Bool
  | .withoutTag => decide (name2.rdns = name1.rdns)
  | .strict => decide (name2.tag = name1.tag ∧ name2.rdns = name1.rdns)
  | .contains => name1.rdns.all (fun rdn => rdn.all (fun a => name2.rdns.flatten.contains a))
  | .containsSeq => (indexed 0 name1.rdns).all (fun p => (indexed 0 name2.rdns).contains p)

/-! ## Named bits and integers (resources/asn1utils.py)

`names` is the list of names of the ASN.1 type in bit order, a bit string is a list of Booleans, a comma
separated argument string is a list of raw tokens; `strip` removes surrounding blanks. -/

/-- `str.strip(" ")`. -/
def stripL (l : List Char) : List Char := (l.dropWhile (· == ' ')).reverse.dropWhile (· == ' ') |>.reverse

/-- `asn1utils.py` 405-431, `_is_bit_set_in_bitstring` (non-negative index). -/
def bitSet (x : List Bool) (i : Nat) (exclusive : Bool) : Bool :=
  match x[i]? with
  | some true => if exclusive then decide ((x.filter (· = true)).length = 1) else true
  | some false => false
  | none => false

/-- `asn1utils.py` 434-452, `_is_either_bit_set_in_bitstring`. -/
def eitherBitSet (x : List Bool) (is : List Nat) (exclusive : Bool) : Bool :=
  is.any (fun i => bitSet x i exclusive)

/-- `asn1utils.py` 562-576, `get_set_bitstring_names` (before joining). -/
def setNames (names : List (List Char)) (x : List Bool) : List (List Char) :=
  ((names.zip x).filter (fun p => p.2)).map (fun p => p.1)

/-- `get_set_bitstring_names(...).split(", ")`: joining no names and splitting yields one empty string. -/
def splitNames (l : List (List Char)) : List (List Char) := if l = [] then [[]] else l

/-- `[names.index(val) for val in values]`. -/
def indicesOf (names : List (List Char)) : List (List Char) → Except PyErr (List Nat)
  | [] => .ok []
  | v :: vs =>
    if v ∈ names then
      match indicesOf names vs with
      | .error e => .error e
      | .ok is => .ok (names.idxOf v :: is)
    else .error .valueError

/-- `asn1utils.py` 498-534, `is_bit_set` for an argument made of names; `values` are the tokens of
`bit_indices.strip(" ").split(",")`, not yet stripped themselves. -/
def isBitSetNames (names : List (List Char)) (x : List Bool) (values : List (List Char)) (exclusive : Bool) :
    Except PyErr Bool :=
  let all := splitNames (setNames names x)
  match indicesOf names (values.map stripL) with
  | .error e => .error e
  | .ok is =>
    if all = values then .ok true
    else if all = names ∧ exclusive then .error .valueError
    else .ok (eitherBitSet x is exclusive)

/-- The assignments `bit_string[ind] = "1"` of `asn1_names_to_bitstring` (580-603). -/
def setBits (names : List (List Char)) : List (List Char) → List Bool → Except PyErr (List Bool)
  | [], x => .ok x
  | v :: vs, x =>
    if stripL v ∈ names then setBits names vs (x.set (names.idxOf (stripL v)) true) else .error .valueError

/-- `asn1utils.py` 580-603, `asn1_names_to_bitstring`: trailing zero bits are removed. -/
def namesToBits (names values : List (List Char)) : Except PyErr (List Bool) :=
  match setBits names values (List.replicate (names.length + 1) false) with
  | .error e => .error e
  | .ok x => .ok ((x.reverse.dropWhile (· = false)).reverse)

/-- `asn1utils.py` 627-641, `asn1_compare_named_integer`. -/
def compareNamedInteger (names : List (List Char)) (x : Int) (value : List Char) : Except PyErr Bool :=
  if value ∈ names then .ok (decide ((names.idxOf value : Int) = x)) else .error .valueError

/-- The list comprehension of `asn1_compare_named_values` (694), returning the number of matches. -/
def countMatches (names : List (List Char)) (x : Int) : List (List Char) → Except PyErr Nat
  | [] => .ok 0
  | v :: vs =>
    match compareNamedInteger names x (stripL v) with
    | .error e => .error e
    | .ok b =>
      match countMatches names x vs with
      | .error e => .error e
      | .ok n => .ok (n + if b then 1 else 0)

/-- `asn1utils.py` 644-712, `asn1_compare_named_values` for an INTEGER (`raise_exception=False`). -/
def compareNamedValues (names : List (List Char)) (x : Int) (values : List (List Char)) (exclusive : Bool) :
    Except PyErr Bool :=
  match countMatches names x values with
  | .error e => .error e
  | .ok n => .ok (if n = 0 then false else exclusive)

end Verif.Check
