import Verif.Ra.Status

/-!
# Paths into ASN.1 structures (resources/asn1utils.py 70-258)

A structure is a tree: a simple value, a `SEQUENCE` or `SET` with named components, a `CHOICE` with its alternatives and
the one which is set, or a `SEQUENCE OF` or `SET OF`.  Simplified: the elements of strings cannot be reached, digits are
`0` to `9`, and no component has a number as its name.  Reading a component has the effects which it has in pyasn1: an
alternative which is not set is made, and so is a missing element of a list.
-/

namespace Verif.Ra

open Verif.CA (Bytes PyErr)

/-- A pyasn1 object. -/
inductive Asn where
  | leaf (v : Option Bytes)
  | seq (fs : List (List Char × Asn))
  | choice (alts : List (List Char × Asn)) (cur : Option (List Char × Asn))
  | list (proto : Asn) (es : List Asn)

/-- What stands between the brackets of `obj[…]`. -/
inductive Key where
  | name (n : List Char)
  | idx (i : Nat)
  deriving DecidableEq

/-- Lines 237-240: a part of a key with a slash. -/
def partKey (p : List Char) : Key := if isDigits p then .idx (digitsNat p) else .name p

/-- Lines 225-243: the keys of a query. -/
def keysOf (q : List Char) : List Key :=
  (splitAt '.' q).flatMap fun key => if '/' ∈ key then (splitAt '/' key).map partKey else [.name key]

/-- The component with the given name. -/
def lookupField (n : List Char) : List (List Char × Asn) → Option Asn
  | [] => none
  | (m, a) :: fs => if isDigits n = false ∧ m = n then some a else lookupField n fs

/-- The components with a new value for the name. -/
def updField (n : List Char) (b : Asn) : List (List Char × Asn) → List (List Char × Asn)
  | [] => []
  | (m, a) :: fs => if m = n then (m, b) :: fs else (m, a) :: updField n b fs

/-- The alternative `n` of a choice: the one which is set, or a new one. -/
def altOf (proto : Asn) (n : List Char) : Option (List Char × Asn) → Asn
  | some (m, a) => if m = n then a else proto
  | none => proto

/-- The name of the alternative at a position. -/
def altName (alts : List (List Char × Asn)) : Key → Option (List Char × Asn)
  | .name n => (lookupField n alts).map fun p => (n, p)
  | .idx i => alts[i]?

/-- `obj[key]`. -/
def child : Asn → Key → Option Asn
  | .leaf _, _ => none
  | .seq fs, .name n => lookupField n fs
  | .seq fs, .idx i => (fs[i]?).map (·.2)
  | .choice alts cur, k => (altName alts k).map fun p => altOf p.2 p.1 cur
  | .list _ _, .name _ => none
  | .list p es, .idx i => some ((es[i]?).getD p)

/-- The elements of a list, as many as are needed. -/
def extend (p : Asn) (es : List Asn) (n : Nat) : List Asn := es ++ List.replicate (n - es.length) p

/-- The object after something has been done to `obj[key]`, which is now `b`. -/
def put : Asn → Key → Asn → Asn
  | .leaf v, _, _ => .leaf v
  | .seq fs, .name n, b => .seq (updField n b fs)
  | .seq fs, .idx i, b => .seq (fs.modify i fun p => (p.1, b))
  | .choice alts cur, k, b =>
    match altName alts k with
    | none => .choice alts cur
    | some p => .choice alts (some (p.1, b))
  | .list p es, .name _, _ => .list p es
  | .list p es, .idx i, b => .list p ((extend p es (i + 1)).set i b)

/-- `list(obj.keys())` (247) fails for objects without named components. -/
def pathErr : Asn → PyErr
  | .seq _ => .valueError
  | .choice _ _ => .valueError
  | .leaf _ => .attributeError
  | .list _ _ => .attributeError

/-- The loop of `get_asn1_value` (231-244) and its handler (245-256). -/
def getKeys : Asn → List Key → Except PyErr Asn
  | a, [] => .ok a
  | a, k :: ks =>
    match child a k with
    | none => .error (pathErr a)
    | some c => getKeys c ks

/-- `asn1utils.py` 198-258, `get_asn1_value`. -/
def getAsn (a : Asn) (q : List Char) : Except PyErr Asn := getKeys a (keysOf q)

/-- The object after `f` has been done to what is found at the keys. -/
def walk (f : Asn → Except PyErr Asn) : Asn → List Key → Except PyErr Asn
  | a, [] => f a
  | a, k :: ks =>
    match child a k with
    | none => .error (pathErr a)
    | some c =>
      match walk f c ks with
      | .error e => .error e
      | .ok c' => .ok (put a k c')

/-- The object after `get_asn1_value` has been called with it. -/
def afterGet (a : Asn) (q : List Char) : Except PyErr Asn := walk .ok a (keysOf q)

/-- Lines 88-97, `asn1_must_have_values_set`, for the texts between the commas; `isV` is `isValue`. -/
def mustHave (isV : Asn → Bool) (a : Asn) : List (List Char) → Except PyErr Unit
  | [] => .ok ()
  | q :: qs =>
    match getAsn a (Verif.Check.stripL q) with
    | .error e => .error e
    | .ok v => if isV v then (match afterGet a (Verif.Check.stripL q) with
        | .error e => .error e
        | .ok a' => mustHave isV a' qs) else .error .valueError

/-- `_split_last_parent` (132-150), which is called only for texts with a dot or slash: the parent and the child. -/
def splitLast (s : List Char) : List Char × List Char :=
  let c := (s.reverse.takeWhile fun x => x ≠ '.' && x ≠ '/').reverse
  (s.take (s.length - (c.length + 1)), c)

/-- Lines 175-193: `parent[child] = value`; `fit old new` is the value after the conversion to the type of the component, if
it can be converted. -/
def assign (fit : Asn → Asn → Option Asn) (key : List Char) (v : Asn) : Asn → Except PyErr Asn
  | .leaf _ => .error .valueError
  | .list p es =>
    if isDigits key then
      if digitsNat key > es.length then .error .valueError
      else match fit p v with
        | none => .error .valueError
        | some w => .ok (put (.list p es) (.idx (digitsNat key)) w)
    else .error .valueError
  | .seq fs =>
    match lookupField key fs with
    | none => .error .valueError
    | some c => match fit c v with
      | none => .error .valueError
      | some w => .ok (put (.seq fs) (.name key) w)
  | .choice alts cur =>
    match lookupField key alts with
    | none => .error .valueError
    | some p => match fit p v with
      | none => .error .valueError
      | some w => .ok (put (.choice alts cur) (.name key) w)

/-- `asn1utils.py` 153-195, `set_asn1_value`: the object after the call. -/
def setAsn (fit : Asn → Asn → Option Asn) (a : Asn) (path : List Char) (v : Asn) : Except PyErr Asn :=
  if Verif.Check.stripL path = [] then .error .valueError
  else if path.getLast? = some '/' ∨ path.getLast? = some '.' then .error .valueError
  else if '.' ∉ path ∧ '/' ∉ path then .error .valueError
  else
    let ks := if (splitLast path).1 = [] then [] else keysOf (splitLast path).1
    match walk (assign fit (splitLast path).2 v) a ks with
    | .error _ => .error .valueError
    | .ok a' => .ok a'

/-- `list(obj)`: the names of all components which a `SEQUENCE` can have, and the name of the alternative of a choice
which is set (none: `StopIteration` in a generator); the elements of a list are no names. -/
def fieldNames : Asn → Except PyErr (List (List Char))
  | .seq fs => .ok (fs.map (·.1))
  | .choice _ (some p) => .ok [p.1]
  | .choice _ none => .error .exception
  | .list _ _ => .ok []
  | .leaf _ => .error .typeError

/-- `asn1utils.py` 100-129, `asn1_must_contain_fields`. -/
def mustContain (a : Asn) (fields : List Char) : Except PyErr Unit :=
  match fieldNames a with
  | .error e => .error e
  | .ok ns => if ((splitAt ',' fields).map Verif.Check.stripL).all (· ∈ ns) then .ok () else .error .valueError

end Verif.Ra
