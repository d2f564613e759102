import Verif.Check.Helpers

/-!
# Checks of the key usage extensions (resources/certutils.py 514-707)

Comma-separated arguments are lists of their pieces, spaces included. An extension is absent (`none`), present, or
cannot be decoded (an exception). Bit strings are lists of bits; names of extended key usages stand for their OIDs
(the mapping `CMP_EKU_OID_2_NAME` is one-to-one, other OIDs are other strings).

Simplified: key usages given by number are not modelled.
-/

namespace Verif.Check

open Verif.CA

/-- `suiteenums.py` 80-86, `KeyUsageStrictness`. -/
inductive Strictness where
  | none
  | lax
  | strict
  | absStrict
  deriving DecidableEq, Repr

/-- `_validate_key_usage` (592-616) without `same_vals`: the number of pieces whose bit is set, which is compared
to the number of pieces. -/
def countSet (names : List (List Char)) (x : List Bool) : List (List Char) → Except PyErr Nat
  | [] => .ok 0
  | v :: vs =>
    match isBitSetNames names x [stripL v] false with
    | .error e => .error e
    | .ok b =>
      match countSet names x vs with
      | .error e => .error e
      | .ok n => .ok ((if b then 1 else 0) + n)

/-- `rfc5280.KeyUsage("a, b")` of `pyasn1`: each stripped name sets its bit; an unknown name is an error. -/
def usageOf (names : List (List Char)) (vals : List (List Char)) : Except PyErr (List Bool) :=
  if ∀ v ∈ vals, stripL v ∈ names then .ok (names.map (fun n => decide (n ∈ vals.map stripL)))
  else .error .pyasn1Error

/-- `certutils.py` 592-616, `_validate_key_usage`. The joined names are equal exactly if the names are. -/
def validateUsage (names : List (List Char)) (expected : List (List Char)) (x : List Bool) (same : Bool) :
    Except PyErr Bool :=
  if same then
    match usageOf names expected with
    | .error e => .error e
    | .ok y => .ok (decide (setNames names x = setNames names y))
  else
    match countSet names x expected with
    | .error e => .error e
    | .ok n => .ok (decide (expected.length = n))

/-- `certutils.py` 619-669, `validate_key_usage`. -/
def validateKeyUsage (names : List (List Char)) (usage : Except PyErr (Option (List Bool)))
    (expected : List (List Char)) (s : Strictness) : Except PyErr Unit :=
  if s = .none then .ok ()
  else match usage with
  | .error e => .error e
  | .ok none => if s = .absStrict ∨ s = .strict then .error .badKeyUsage else .ok ()
  | .ok (some x) =>
    match validateUsage names expected x (decide (s = .absStrict)) with
    | .error e => .error e
    | .ok b => if b then .ok () else .error .badKeyUsage

/-- `certutils.py` 672-707, `must_not_contain_key_usage`. -/
def mustNotContain (names : List (List Char)) (usage : Except PyErr (Option (List Bool)))
    (forbidden : List (List Char)) (mustBePresent : Bool) : Except PyErr Unit :=
  match usage with
  | .error e => .error e
  | .ok none => if mustBePresent then .error .badKeyUsage else .ok ()
  | .ok (some x) =>
    match validateUsage names forbidden x false with
    | .error e => .error e
    | .ok b => if b then .error .badKeyUsage else .ok ()

/-- The CMP related extended key usages: `CMP_EKU_OID_2_NAME` (oidutils.py 79). -/
def cmpEkus : List String := ["cmKGA", "cmcRA", "cmcCA"]

/-- `certutils.py` 514-590, `validate_cmp_extended_key_usage`; `pieces` is
`set(ext_key_usages.strip(" ").split(","))`, whose members are not stripped. -/
def validateEku (eku : Except PyErr (Option (List String))) (pieces : List String) (s : Strictness) :
    Except PyErr Unit :=
  if s = .none then .ok ()
  else match eku with
  | .error e => .error e
  | .ok none => if s = .absStrict ∨ s = .strict then .error .valueError else .ok ()
  | .ok (some l) =>
    let expected := cmpEkus.filter (fun n => decide (n ∈ pieces))
    if expected = [] ∨ ∃ p ∈ pieces, p ∉ cmpEkus then .error .valueError
    else
      let found := l.filter (fun o => decide (o ∈ expected))
      if expected.length ≠ found.length then .error .valueError
      else if s = .absStrict ∧ l.length ≠ expected.length then .error .valueError
      else .ok ()

/-- `pyasn1_alt_modules` `rfc5280.KeyUsage.namedValues`. -/
def keyUsageNames : List (List Char) :=
  ["digitalSignature".toList, "nonRepudiation".toList, "keyEncipherment".toList, "dataEncipherment".toList,
    "keyAgreement".toList, "keyCertSign".toList, "cRLSign".toList, "encipherOnly".toList, "decipherOnly".toList]

end Verif.Check
