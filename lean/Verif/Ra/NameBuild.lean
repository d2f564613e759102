import Verif.Ra.Build

/-!
# Names for negative tests and the check of names (resources/prepareutils.py, certbuildutils.py)

* `resources/prepareutils.py` 41-99: `prepare_name`, `parse_common_name_from_str`;
* `resources/prepareutils.py` 292-490: the relative distinguished names with wrong sizes, and their check;
* `resources/certbuildutils.py` 1667-1682: `_validate_name`;
* `resources/oidutils.py` 853-928, `resources/asn1_structures.py` 464-560: the tables.

A value is modelled by the kind of its string, its text and whether data follow; the check is modelled for values as they are
read from DER. The upper bounds that are imported from `pkilint` (business category, postal code, street address, organization
identifier) are those of X.520 and are written here as numbers.
-/

namespace Verif.Ra.NameBuild

open Verif.CA (PyErr)

/-- The classes of `CERT_ATTR_OID_2_STRUCTURE`; `max` is `size_max`. -/
inductive Ty where
  | dnQualifier
  | domainComponent
  | serial
  | email
  | country
  | x520 (max : Nat)
  | orgId
  deriving DecidableEq

/-- The kind of string that is written. -/
inductive Str where
  | printable | ia5 | utf8
  deriving DecidableEq

/-- `oidutils.py` 853-875 and 879-903, with `asn1_structures.py` 464-560: name, identifier, class. -/
def attrTable : List (String × String × Ty) :=
  [("CN", "2.5.4.3", .x520 64), ("L", "2.5.4.7", .x520 128), ("ST", "2.5.4.8", .x520 128), ("O", "2.5.4.10", .x520 64),
   ("OU", "2.5.4.11", .x520 64), ("C", "2.5.4.6", .country), ("STREET", "2.5.4.9", .x520 128),
   ("DC", "0.9.2342.19200300.100.1.25", .domainComponent), ("SN", "2.5.4.5", .serial), ("T", "2.5.4.12", .x520 64),
   ("GN", "2.5.4.42", .x520 32768), ("S", "2.5.4.4", .x520 32768), ("I", "2.5.4.43", .x520 32768),
   ("GQ", "2.5.4.44", .x520 32768), ("DNQ", "2.5.4.46", .dnQualifier), ("PSEUDONYM", "2.5.4.65", .x520 128),
   ("NAME", "2.5.4.41", .x520 32768), ("EMAIL", "1.2.840.113549.1.9.1", .email), ("businessCategory", "2.5.4.15", .x520 128),
   ("postalCode", "2.5.4.17", .x520 40), ("organizationIdentifier", "2.5.4.97", .orgId)]

/-- An attribute as it is sent. With `badType` the identifier is made of the octets of the value. -/
structure Attr where
  oid : String
  badType : Bool := false
  str : Str
  text : List Char
  trailing : Bool := false
  deriving DecidableEq

/-- The options. -/
structure Flags where
  badMin : Bool := false
  badMax : Bool := false
  invalidType : Bool := false
  trailing : Bool := false
  deriving DecidableEq

/-- `prepareutils.py` 308-333, `_get_bad_min_or_max_size`, for a least size of 1 and one of the flags. -/
def badText (max : Nat) (badMin : Bool) : List Char := if badMin then [] else List.replicate (max + 1) 'A'

/-- `prepareutils.py` 369-393: the text with the wrong size, if one is asked for. -/
def sized (max : Nat) (f : Flags) (value : List Char) : List Char :=
  if f.badMin || f.badMax then badText max f.badMin else value

/-- `prepareutils.py` 362-396: kind and text of the value. -/
def valueOf (f : Flags) (value : List Char) : Ty → Str × List Char
  | .dnQualifier => (.printable, value)
  | .domainComponent => (.ia5, value)
  | .serial => (.printable, sized 64 f value)
  | .email => (.ia5, sized 255 f value)
  | .country => (.printable, if f.badMin then ['D'] else if f.badMax then ['D', 'E', 'E'] else value)
  | .x520 max => (.utf8, sized max f value)
  | .orgId => (.utf8, value)

/-- `prepareutils.py` 336-409, `_prepare_attr_and_type_value`, of an entry of the table. -/
def prepAttr (f : Flags) (oid : String) (ty : Ty) (value : List Char) : Except PyErr Attr :=
  if f.badMin && f.badMax then .error .valueError
  else .ok { oid, badType := f.invalidType, str := (valueOf f value ty).1, text := (valueOf f value ty).2, trailing := f.trailing }

/-- `text.replace(", ", ",")`. -/
def dropSpace : List Char → List Char
  | [] => []
  | [c] => [c]
  | c :: d :: rest => if c = ',' ∧ d = ' ' then ',' :: dropSpace rest else c :: dropSpace (d :: rest)

/-- `OID_CM_NAME_MAP`. -/
def lookName (name : List Char) : Option (String × Ty) := (attrTable.find? (fun e => e.1.toList == name)).map (·.2)

/-- `prepareutils.py` 443-454: one option. -/
def prepOption (f : Flags) (option : List Char) : Except PyErr Attr :=
  match splitAt '=' option with
  | [name, value] => match lookName name with
    | none => .error .valueError
    | some (oid, ty) => prepAttr f oid ty value
  | _ => .error .valueError

/-- `prepareutils.py` 442-455: the loop. -/
def prepOptions (f : Flags) : List (List Char) → Except PyErr (List Attr)
  | [] => .ok []
  | o :: os => match prepOption f o with
    | .error e => .error e
    | .ok a => match prepOptions f os with
      | .error e => .error e
      | .ok as => .ok (a :: as)

/-- `prepareutils.py` 413-457, `prepare_relative_distinguished_name`. -/
def prepRdn (f : Flags) (values : String) : Except PyErr (List Attr) := prepOptions f (splitAt ',' (dropSpace values.toList))

/-! ## The check -/

/-- The class of an identifier in `CERT_ATTR_OID_2_CORRECT_STRUCTURE` (`oidutils.py` 905-928). -/
def lookOid (oid : String) : Option Ty := (attrTable.find? (fun e => e.2.1 == oid)).map (·.2.2)

/-- The sizes of `rfc5280` for the class: least and greatest. -/
def bounds : Ty → Nat × Option Nat
  | .dnQualifier => (0, none)
  | .domainComponent => (0, none)
  | .serial => (1, some 64)
  | .email => (1, some 255)
  | .country => (2, some 2)
  | .x520 max => (1, some max)
  | .orgId => (1, none)

/-- The kinds of strings that the structure takes; a `DirectoryString` takes printable and UTF-8 strings. -/
def takesStr : Ty → Str → Bool
  | .dnQualifier, s => s == .printable
  | .domainComponent, s => s == .ia5
  | .serial, s => s == .printable
  | .email, s => s == .ia5
  | .country, s => s == .printable
  | .x520 _, s => s != .ia5
  | .orgId, s => s != .ia5

/-- Does the size fit? -/
def fits (b : Nat × Option Nat) (n : Nat) : Bool :=
  b.1 ≤ n && (match b.2 with | none => true | some m => n ≤ m)

/-- `prepareutils.py` 471-487: is there nothing to complain about? An identifier made of the octets of the value is unknown. -/
def attrOk (a : Attr) : Bool :=
  if a.badType then false
  else match lookOid a.oid with
    | none => false
    | some ty => takesStr ty a.str && fits (bounds ty) a.text.length && !a.trailing

/-- `prepareutils.py` 461-490, `validate_relative_name_for_correct_data_types`. -/
def validateRdn (rdn : List Attr) : Except PyErr Unit := if rdn.all attrOk then .ok () else .error .badAsn1Data

/-- `certbuildutils.py` 1680-1682: the loop. -/
def validateRdns : List (List Attr) → Except PyErr Unit
  | [] => .ok ()
  | r :: rs => match validateRdn r with
    | .error e => .error e
    | .ok () => validateRdns rs

/-- `certbuildutils.py` 1667-1682, `_validate_name`; an absent name is fine. -/
def validateName (name : Option (List (List Attr))) (types : Bool := true) : Except PyErr Unit :=
  match name with
  | none => .ok ()
  | some rdns => if types then validateRdns rdns else .ok ()

/-! ## Names from text -/

/-- `prepareutils.py` 74-99, `parse_common_name_from_str`; `parse` is `x509.Name.from_rfc4514_string`, `none` is `ValueError`. -/
def parseName {N : Type} (parse : List Char → Option N) (empty : N) (t : String) : Except PyErr N :=
  if t = "Null-DN" ∨ t = "NULL-DN" then .ok empty
  else if '=' ∉ t.toList then .error .valueError
  else match parse (dropSpace t.toList) with
    | none => .error .valueError
    | some n => .ok n

end Verif.Ra.NameBuild
