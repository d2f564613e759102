import Verif.CA.Base

/-!
# The pairs of names and values in `regInfo` (resources/cmputils.py)

A text is the list of its characters. `str.isdigit` and the DER encoding of a `UTF8String` are parameters; the rest,
the percent encoding of `urllib.parse` included, is modelled. Surrogates, for which `quote` fails, are no characters
of Lean. The value of an attribute is its DER encoding, as it is after a message has been sent.
-/

namespace Verif.Ra

open Verif.CA (PyErr)

/-- The escape sequence `%3f`, in small or in capital letters: `_parse_utf8_pairs` resources/cmputils.py 1651-1652. -/
def isEscQ (a b : Char) : Bool := a == '3' && (b == 'f' || b == 'F')

/-- The escape sequence `%25`: `_parse_utf8_pairs` resources/cmputils.py 1654. -/
def isEscP (a b : Char) : Bool := a == '2' && b == '5'

/-- One more character of a name or of a value. -/
def consFst (c : Char) : Except PyErr (List Char × List Char) → Except PyErr (List Char × List Char)
  | .ok (n, r) => .ok (c :: n, r)
  | .error e => .error e

/-- The loop for a name, to the first `?`: `_parse_utf8_pairs` resources/cmputils.py 1642-1666. -/
def parseName : List Char → Except PyErr (List Char × List Char)
  | [] => .error .valueError
  | '?' :: r => .ok ([], r)
  | '%' :: a :: b :: r =>
    if isEscQ a b then consFst '?' (parseName r)
    else if isEscP a b then consFst '%' (parseName r)
    else .error .valueError
  | '%' :: _ => .error .valueError
  | c :: r => consFst c (parseName r)

/-- The loop for a value, to the first `%` which begins no escape sequence: `_parse_utf8_pairs` resources/cmputils.py
1674-1693. -/
def parseValue : List Char → Except PyErr (List Char × List Char)
  | [] => .error .valueError
  | '%' :: a :: b :: r =>
    if isEscQ a b then consFst '?' (parseValue r)
    else if isEscP a b then consFst '%' (parseValue r)
    else .ok ([], a :: b :: r)
  | '%' :: r => .ok ([], r)
  | c :: r => consFst c (parseValue r)

/-- A name begins with a digit: `_parse_utf8_pairs` resources/cmputils.py 1670. -/
def digitFirst (isDigit : Char → Bool) : List Char → Bool
  | [] => false
  | c :: _ => isDigit c

/-- The loop over the pairs, for as many rounds as the text has characters: `_parse_utf8_pairs` resources/cmputils.py
1637-1698. -/
def pairsLoop (isDigit : Char → Bool) : Nat → List Char → Except PyErr (List (List Char × List Char))
  | _, [] => .ok []
  | 0, _ :: _ => .error .exception
  | k + 1, s =>
    match parseName s with
    | .error e => .error e
    | .ok (n, r) =>
      if digitFirst isDigit n then .error .valueError
      else
        match parseValue r with
        | .error e => .error e
        | .ok (v, r') =>
          match pairsLoop isDigit k r' with
          | .error e => .error e
          | .ok ps => .ok ((n, v) :: ps)

/-- `_parse_utf8_pairs` resources/cmputils.py 1625-1698. -/
def parsePairs (isDigit : Char → Bool) (s : List Char) : Except PyErr (List (List Char × List Char)) :=
  pairsLoop isDigit s.length s

/-! ## Percent encoding (`urllib.parse`) -/

/-- The characters which `quote` keeps: letters and digits of ASCII, `_.-~` and `/`. -/
def isSafe (c : Char) : Bool := c.isAlphanum || c == '_' || c == '.' || c == '-' || c == '~' || c == '/'

/-- A hexadecimal digit, as `quote` writes it. -/
def hexDigit (n : Nat) : Char := if n < 10 then Char.ofNat (48 + n) else Char.ofNat (55 + n)

/-- The value of a hexadecimal digit, small or capital. -/
def hexVal (c : Char) : Option Nat :=
  if 48 ≤ c.toNat ∧ c.toNat ≤ 57 then some (c.toNat - 48)
  else if 65 ≤ c.toNat ∧ c.toNat ≤ 70 then some (c.toNat - 55)
  else if 97 ≤ c.toNat ∧ c.toNat ≤ 102 then some (c.toNat - 87)
  else none

/-- `%XX` -/
def hexEsc (b : UInt8) : List Char := ['%', hexDigit (b.toNat / 16), hexDigit (b.toNat % 16)]

/-- `parse.quote`, called in resources/cmputils.py 1616. -/
def quote (s : List Char) : List Char :=
  s.flatMap fun c => if isSafe c then [c] else (String.utf8EncodeChar c).flatMap hexEsc

/-- The byte of two hexadecimal digits. -/
def hexByte (a b : Char) : Option UInt8 :=
  match hexVal a, hexVal b with
  | some x, some y => some (UInt8.ofNat (16 * x + y))
  | _, _ => none

/-- `bytes.decode("utf-8", "strict")` -/
def utf8Dec (b : List UInt8) : Option (List Char) := (ByteArray.mk b.toArray).utf8Decode?.map Array.toList

/-- `parse.unquote` with strict errors, called in resources/cmputils.py 1746: the bytes of each run of ASCII
characters, after the escape sequences are replaced, are decoded. -/
def unqGo : List UInt8 → List Char → Option (List Char)
  | acc, [] => utf8Dec acc
  | acc, '%' :: a :: b :: r =>
    match hexByte a b with
    | some x => unqGo (acc ++ [x]) r
    | none => unqGo (acc ++ [0x25]) (a :: b :: r)
  | acc, c :: r =>
    if c.toNat < 128 then unqGo (acc ++ [UInt8.ofNat c.toNat]) r
    else
      match utf8Dec acc, unqGo [] r with
      | some p, some q => some (p ++ c :: q)
      | _, _ => none

/-- `parse.unquote` -/
def unquote (s : List Char) : Option (List Char) := unqGo [] s

/-! ## The attributes -/

abbrev Attr := List Nat × List UInt8

/-- `id_regInfo_utf8Pairs` (RFC 4211). -/
def regInfoUtf8Pairs : List Nat := [1, 3, 6, 1, 5, 5, 7, 5, 2, 1]

/-- `_check_unique_controls` resources/cmputils.py 1499-1511: the loop, with the set of the types seen. -/
def checkUnique : List (List Nat) → List Attr → Except PyErr Unit
  | _, [] => .ok ()
  | seen, a :: as => if a.1 ∈ seen then .error .badRequest else checkUnique (a.1 :: seen) as

/-- The first attribute of a type, as in the loops at resources/cmputils.py 1544-1547, 1728-1731, 990-994, 1088-1091,
1179-1182 and 1340-1344. -/
def firstOf (oid : List Nat) : List Attr → Option (List UInt8)
  | [] => none
  | a :: as => if a.1 = oid then some a.2 else firstOf oid as

/-- The DER encoding of a `UTF8String`, the decoder with the rest of the bytes, and `str.isdigit`. -/
structure TextEnv where
  enc : List Char → List UInt8
  dec : List UInt8 → Option (List Char × List UInt8)
  isDigit : Char → Bool

/-- `prepare_utf8_pairs_req_info` resources/cmputils.py 1569-1622. -/
def prepareUtf8Pairs (t : TextEnv) (data : List Char) (encode : Bool) : Attr :=
  (regInfoUtf8Pairs, t.enc (if encode then quote data else data))

/-- `validate_reg_info_utf8_pairs` resources/cmputils.py 1739-1749, of the value found. -/
def readUtf8Pairs (t : TextEnv) (infos : List Attr) (der : List UInt8) :
    Except PyErr (Option (List (List Char × List Char))) :=
  match checkUnique [] infos with
  | .error e => .error e
  | .ok _ =>
    match t.dec der with
    | none => .error .pyasn1Error
    | some (s, rest) =>
      if rest ≠ [] then .error .badAsn1Data
      else
        match unquote s with
        | none => .error .badAsn1Data
        | some u =>
          match parsePairs t.isDigit u with
          | .error _ => .error .badAsn1Data
          | .ok ps => .ok (some ps)

/-- `validate_reg_info_utf8_pairs` resources/cmputils.py 1702-1749. -/
def validateUtf8Pairs (t : TextEnv) (infos : List Attr) (must : Bool) :
    Except PyErr (Option (List (List Char × List Char))) :=
  match firstOf regInfoUtf8Pairs infos with
  | none => if must then .error .valueError else .ok none
  | some der => readUtf8Pairs t infos der

end Verif.Ra
