import Verif.PQ.HybridLoad
import Verif.PQ.CompSig

/-!
# Generation of hybrid keys (pq_logic/keys/hybrid_key_factory.py, pq_logic/combined_factory.py)

* `hybrid_key_factory.py` 42-121, 124-376: the tables of combinations and `HybridKeyFactory.generate_hybrid_key`, `from_keys`;
* `resources/oidutils.py` 699-715: the combinations of composite signatures;
* `combined_factory.py` 111-188: `generate_key_from_name`;
* `trad_key_factory.py` 30-63, 98-178: `generate_trad_key` for the kinds that occur;
* `composite_kem.py` 194-204, 317-320, `chempat_key.py` 330-343: what the constructors check.

A key is modelled by what the choice depends on (name, class, size, curve) and a number that tells keys apart. The algorithm is one of
`HybridKeyFactory.supported_algorithms()` (332-340).
-/

namespace Verif.PQ.HybGen

open Verif.CA (PyErr)
open Verif.PQ.Hyb (pyIn pyReplaceOnce pyReplace pyLower pyStarts pyInt curveInstances getPqAlgName splitHybridName rsaSize compName
  chempatNameToOid)

/-! ## The tables -/

/-- The entry "curve" of a combination: missing, `None` or a name. -/
inductive CurveField where
  | absent
  | null
  | name (c : String)
  deriving DecidableEq

structure Comb where
  pq : String
  trad : String
  length : Option String := none
  curve : CurveField := .absent
  deriving DecidableEq

/-- `hybrid_key_factory.py` 42-60 and 62-74, `ALL_CHEMPAT_COMBINATIONS`. -/
def chempatCombs : List Comb :=
  [⟨"sntrup761", "x25519", none, .absent⟩, ⟨"mceliece-348864", "x25519", none, .absent⟩, ⟨"mceliece-460896", "x25519", none, .absent⟩,
   ⟨"mceliece-6688128", "x25519", none, .absent⟩, ⟨"mceliece-6960119", "x25519", none, .absent⟩,
   ⟨"mceliece-8192128", "x25519", none, .absent⟩, ⟨"mceliece-348864", "x448", none, .absent⟩, ⟨"mceliece-460896", "x448", none, .absent⟩,
   ⟨"mceliece-6688128", "x448", none, .absent⟩, ⟨"mceliece-6960119", "x448", none, .absent⟩, ⟨"mceliece-8192128", "x448", none, .absent⟩,
   ⟨"ml-kem-768", "x25519", none, .absent⟩, ⟨"ml-kem-1024", "x448", none, .absent⟩,
   ⟨"ml-kem-768", "ecdh", none, .name "secp256r1"⟩, ⟨"ml-kem-1024", "ecdh", none, .name "secp384r1"⟩,
   ⟨"ml-kem-768", "ecdh", none, .name "brainpoolP256r1"⟩, ⟨"ml-kem-1024", "ecdh", none, .name "brainpoolP384r1"⟩,
   ⟨"frodokem-976-aes", "x25519", none, .absent⟩, ⟨"frodokem-976-shake", "x25519", none, .absent⟩,
   ⟨"frodokem-640-aes", "ecdh", none, .name "brainpoolp256r1"⟩, ⟨"frodokem-640-shake", "ecdh", none, .name "brainpoolp256r1"⟩,
   ⟨"frodokem-976-aes", "ecdh", none, .name "brainpoolp384r1"⟩, ⟨"frodokem-976-shake", "ecdh", none, .name "brainpoolp384r1"⟩,
   ⟨"frodokem-1344-aes", "ecdh", none, .name "brainpoolp512r1"⟩, ⟨"frodokem-1344-shake", "ecdh", none, .name "brainpoolp512r1"⟩,
   ⟨"frodokem-1344-aes", "x448", none, .absent⟩, ⟨"frodokem-1344-shake", "x448", none, .absent⟩]

/-- `hybrid_key_factory.py` 76-86, `ALL_COMPOSITE_KEM05_COMBINATIONS`. -/
def kem05Combs : List Comb :=
  [⟨"ml-kem-768", "x25519", none, .absent⟩, ⟨"ml-kem-768", "rsa", some "2048", .absent⟩, ⟨"ml-kem-768", "rsa", some "3072", .absent⟩,
   ⟨"ml-kem-768", "rsa", some "4096", .absent⟩, ⟨"ml-kem-768", "ecdh", none, .name "secp384r1"⟩,
   ⟨"ml-kem-768", "ecdh", none, .name "brainpoolp256r1"⟩, ⟨"ml-kem-1024", "ecdh", none, .name "secp384r1"⟩,
   ⟨"ml-kem-1024", "ecdh", none, .name "brainpoolp384r1"⟩, ⟨"ml-kem-1024", "x448", none, .absent⟩]

/-- `hybrid_key_factory.py` 96-119, `ALL_COMPOSITE_KEM_FRODOKEM_COMBINATIONS`. -/
def frodoCombs : List Comb :=
  [⟨"frodokem-976-aes", "x25519", none, .absent⟩, ⟨"frodokem-976-aes", "rsa", some "2048", .absent⟩,
   ⟨"frodokem-976-aes", "rsa", some "3072", .absent⟩, ⟨"frodokem-976-aes", "rsa", some "4096", .absent⟩,
   ⟨"frodokem-976-aes", "ecdh", none, .name "secp256r1"⟩, ⟨"frodokem-976-aes", "ecdh", none, .name "secp384r1"⟩,
   ⟨"frodokem-976-aes", "ecdh", none, .name "brainpoolp256r1"⟩,
   ⟨"frodokem-976-shake", "x25519", none, .absent⟩, ⟨"frodokem-976-shake", "rsa", some "2048", .absent⟩,
   ⟨"frodokem-976-shake", "rsa", some "3072", .absent⟩, ⟨"frodokem-976-shake", "rsa", some "4096", .absent⟩,
   ⟨"frodokem-976-shake", "ecdh", none, .name "secp256r1"⟩, ⟨"frodokem-976-shake", "ecdh", none, .name "secp384r1"⟩,
   ⟨"frodokem-976-shake", "ecdh", none, .name "brainpoolp256r1"⟩,
   ⟨"frodokem-1344-aes", "ecdh", none, .name "secp384r1"⟩, ⟨"frodokem-1344-aes", "ecdh", none, .name "brainpoolp384r1"⟩,
   ⟨"frodokem-1344-aes", "x448", none, .absent⟩, ⟨"frodokem-1344-shake", "ecdh", none, .name "secp384r1"⟩,
   ⟨"frodokem-1344-shake", "ecdh", none, .name "brainpoolp384r1"⟩, ⟨"frodokem-1344-shake", "x448", none, .absent⟩]

/-- `hybrid_key_factory.py` 89-94 and 121, `ALL_COMPOSITE_KEM07_COMBINATIONS`. -/
def kem07Combs : List Comb :=
  [⟨"ml-kem-768", "ecdh", none, .name "secp256r1"⟩, ⟨"ml-kem-1024", "rsa", some "3072", .absent⟩,
   ⟨"ml-kem-1024", "ecdh", none, .name "secp512r1"⟩] ++ kem05Combs ++ frodoCombs

/-- `oidutils.py` 699-715, `ALL_COMPOSITE_SIG_COMBINATIONS`. -/
def sigCombs : List Comb :=
  [⟨"ml-dsa-44", "rsa", some "2048", .absent⟩, ⟨"ml-dsa-44", "ed25519", none, .null⟩, ⟨"ml-dsa-44", "ecdsa", none, .name "secp256r1"⟩,
   ⟨"ml-dsa-65", "rsa", some "3072", .absent⟩, ⟨"ml-dsa-65", "rsa", some "4096", .absent⟩,
   ⟨"ml-dsa-65", "ecdsa", none, .name "secp256r1"⟩, ⟨"ml-dsa-65", "ecdsa", none, .name "secp384r1"⟩,
   ⟨"ml-dsa-65", "ecdsa", none, .name "brainpoolP256r1"⟩, ⟨"ml-dsa-65", "ed25519", none, .null⟩,
   ⟨"ml-dsa-87", "ecdsa", none, .name "secp384r1"⟩, ⟨"ml-dsa-87", "ecdsa", none, .name "brainpoolP384r1"⟩,
   ⟨"ml-dsa-87", "ed448", none, .null⟩, ⟨"ml-dsa-87", "rsa", some "3072", .absent⟩, ⟨"ml-dsa-87", "rsa", some "4096", .absent⟩,
   ⟨"ml-dsa-87", "ecdsa", none, .name "secp512r1"⟩]

/-- The supported algorithms (332-340). -/
inductive Alg where
  | xwing | sig | dhkem | kem | chempat
  deriving DecidableEq

/-- `hybrid_key_factory.py` 220-226, `hybrid_mappings`. -/
def combs : Alg → List Comb
  | .sig => sigCombs
  | .kem => kem07Combs
  | .chempat => chempatCombs
  | .dhkem => kem07Combs
  | .xwing => []

/-! ## Choosing -/

/-- What is asked for. -/
structure Req where
  pq : Option String := none
  trad : Option String := none
  length : Option String := none
  curve : Option String := none
  deriving DecidableEq

/-- A text that Python takes as true. -/
def given : Option String → Option String
  | some "" => none
  | o => o

/-- `if x and entry[..] != x: continue`. -/
def differs (x : Option String) (entry : Option String) : Bool :=
  match given x with
  | none => false
  | some v => entry != some v

/-- `hybrid_key_factory.py` 191: the curve; `None.lower()` is an AttributeError. -/
def curveDiffers (x : Option String) (entry : CurveField) : Except PyErr Bool :=
  match given x with
  | none => .ok false
  | some v => match entry with
    | .absent => .ok ("" != pyLower v)
    | .null => .error .attributeError
    | .name c => .ok (pyLower c != pyLower v)

/-- `hybrid_key_factory.py` 184-194: does the loop go on? -/
def skips (r : Req) (e : Comb) : Except PyErr Bool :=
  if differs r.pq (some e.pq) then .ok true
  else if differs r.trad (some e.trad) then .ok true
  else if differs r.length e.length then .ok true
  else curveDiffers r.curve e.curve

/-- The loop of 184-199. -/
def search (r : Req) : List Comb → Except PyErr Comb
  | [] => .error .valueError
  | e :: es => match skips r e with
    | .error x => .error x
    | .ok true => search r es
    | .ok false => .ok e

/-- `hybrid_key_factory.py` 156-199, `get_valid_hybrid_combination`. -/
def findComb (cs : List Comb) (r : Req) : Except PyErr Comb :=
  if given r.pq = none ∧ given r.trad = none ∧ given r.length = none ∧ given r.curve = none then
    match cs with
    | [] => .error .indexError
    | e :: _ => .ok e
  else search r cs

/-! ## Keys -/

/-- The classes of traditional private keys. -/
inductive Trad where
  | rsa (bits : Nat)
  | ec (curve : String)
  | ed25519 | ed448 | x25519 | x448 | dsa
  deriving DecidableEq

/-- A traditional key; `wrapped` tells a `DHKEMPrivateKey` or `RSADecapKey`. -/
structure TKey where
  shape : Trad
  id : Nat
  wrapped : Bool := false
  deriving DecidableEq

structure PKey where
  name : String
  id : Nat
  deriving DecidableEq

/-- A hybrid private key. -/
structure HKey where
  alg : Alg
  pq : PKey
  trad : TKey
  deriving DecidableEq

/-- `trad_key_factory.py` 30-63 and 98-178, for the names of the tables. -/
def genTrad (trad : String) (length curve : Option String) : Except PyErr Trad :=
  if trad = "rsa" then (pyInt ((given length).getD "2048")).map .rsa
  else if trad = "ecdh" ∨ trad = "ecdsa" ∨ trad = "ec" then
    match curveInstances.lookup (curve.getD "secp256r1") with
    | none => .error .valueError
    | some c => .ok (.ec c)
  else if trad = "ed25519" then .ok .ed25519
  else if trad = "ed448" then .ok .ed448
  else if trad = "x25519" then .ok .x25519
  else if trad = "x448" then .ok .x448
  else .error .valueError

/-- The classes of KEM keys that `chempat_key.py` 335-343 knows. -/
def chempatFamily (pq : String) : Bool :=
  pyStarts pq "ml-kem" || pyStarts pq "mceliece" || pyStarts pq "sntrup761" || pyStarts pq "frodokem"

/-- `isinstance(trad_key, (TradKEMPrivateKey, ECDHPrivateKey, RSAPrivateKey))` (`composite_kem.py` 197-204). -/
def kemTrad (t : TKey) : Bool :=
  t.wrapped || (match t.shape with | .rsa _ => true | .ec _ => true | .x25519 => true | .x448 => true | _ => false)

/-- `hybrid_key_factory.py` 202-214, `_parse_private_keys`, with the constructors; what the constructor does not check is kept. -/
def build (alg : Alg) (p : PKey) (t : TKey) : Except PyErr HKey :=
  match alg with
  | .chempat => if chempatFamily p.name then .ok ⟨.chempat, p, t⟩ else .error .invalidKeyCombination
  | .sig => .ok ⟨.sig, p, t⟩
  | .kem => if kemTrad t then .ok ⟨.kem, p, t⟩ else .error .valueError
  | .dhkem => if kemTrad t then .ok ⟨.dhkem, p, t⟩ else .error .valueError
  | .xwing => .error .keyError

/-- The curve of an entry, as it is handed to `generate_trad_key`. -/
def curveArg : CurveField → Option String
  | .name c => some c
  | _ => none

/-- `hybrid_key_factory.py` 343-376, `_generate_default_hybrid_key`; `n` and `m` are the numbers of the new keys. -/
def genDefault (alg : Alg) (r : Req) (n m : Nat) : Except PyErr HKey :=
  if (alg = .dhkem ∨ alg = .kem) ∧ (r.pq = some "frodokem-aes-640" ∨ r.pq = some "frodokem-shake-640") then .error .invalidKeyCombination
  else match findComb (combs alg) r with
    | .error e => .error e
    | .ok c => match genTrad c.trad c.length (curveArg c.curve) with
      | .error e => .error e
      | .ok t => build alg ⟨c.pq, n⟩ { shape := t, id := m }

/-- `KEY_CLASS_MAPPING` (`oid_mapping.py` 50-67) of the class of the key, with 135-139. -/
def classOf (allowed : List String) (t : TKey) : Except PyErr String :=
  if t.wrapped then .error .keyError
  else .ok (match t.shape with
    | .rsa _ => "rsa"
    | .ec _ => if "ecdh" ∈ allowed then "ecdh" else "ecdsa"
    | .ed25519 => "ed25519"
    | .ed448 => "ed448"
    | .x25519 => "x25519"
    | .x448 => "x448"
    | .dsa => "dsa")

/-- `hybrid_key_factory.py` 292-297: the allowed classes. -/
def allowedFor : Alg → List String
  | .chempat => ["ecdh", "x25519", "x448"]
  | .kem => ["rsa", "ecdh", "x25519", "x448"]
  | .sig => ["rsa", "ecdsa", "ed25519", "ed448"]
  | .xwing => ["x25519"]
  | .dhkem => []

/-- `hybrid_key_factory.py` 124-153, `_get_trad_key_from_pq_key`. -/
def reqOfTrad (alg : Alg) (t : TKey) : Except PyErr Req :=
  match classOf (allowedFor alg) t with
  | .error e => .error e
  | .ok name =>
    if name ∉ allowedFor alg then .error .valueError
    else .ok (match t.shape with
      | .rsa bits => { trad := some name, length := some (toString (rsaSize bits)) }
      | .ec c => { trad := some name, curve := some c }
      | _ => { trad := some name })

/-- `hybrid_key_factory.py` 277-320, `from_keys`. -/
def fromKeys (alg : Alg) (p : Option PKey) (t : Option TKey) (n m : Nat) : Except PyErr HKey :=
  match p, t with
  | none, none => .error .valueError
  | some p, t =>
    if alg = .xwing then .ok ⟨.xwing, p, t.getD { shape := .x25519, id := m }⟩
    else match genDefault alg { pq := some p.name } n m with
      | .error e => .error e
      | .ok h => build alg p (t.getD h.trad)
  | none, some t =>
    if alg = .xwing then .ok ⟨.xwing, ⟨"ml-kem-768", n⟩, t⟩
    else match reqOfTrad alg t with
      | .error e => .error e
      | .ok r => match genDefault alg r n m with
        | .error e => .error e
        | .ok h => build alg h.pq t

/-- `hybrid_key_factory.py` 228-233, `default_comb`. -/
def defaultReq : Alg → Req
  | .sig => { pq := some "ml-dsa-44", trad := some "rsa", length := some "2048" }
  | _ => { pq := some "ml-kem-768", trad := some "x25519" }

/-- `hybrid_key_factory.py` 236-274, `generate_hybrid_key`. -/
def generate (alg : Alg) (r : Req) (p : Option PKey) (t : Option TKey) (n m : Nat) : Except PyErr HKey :=
  if p.isSome ∨ t.isSome then fromKeys alg p t n m
  else if alg = .xwing then .ok ⟨.xwing, ⟨"ml-kem-768", n⟩, { shape := .x25519, id := m }⟩
  else if r = {} then genDefault alg (defaultReq alg) n m
  else genDefault alg r n m

/-! ## The identifier of the public key -/

/-- `get_trad_name` of the wrapped public key (`trad_kem_keys.py` 106-109, 330-339); other classes raise. -/
def kemTradName (dh : Bool) : Trad → Except PyErr String
  | .rsa bits => if dh then .error .valueError else .ok ("rsa" ++ toString bits)
  | .ec c => .ok ("ecdh-" ++ c)
  | .x25519 => .ok "x25519"
  | .x448 => .ok "x448"
  | _ => .error .valueError

/-- The traditional part as `CompSig` takes it. -/
def sigKind : Trad → Option CSig.Kind
  | .rsa bits => some (.rsa bits)
  | .ec c => some (.ec c)
  | .ed25519 => some .ed25519
  | .ed448 => some .ed448
  | _ => none

/-- A key of the tables of identifiers. -/
def lookup (table : List (String × List Nat)) (name : String) : Except PyErr (List Nat) :=
  match table.lookup name with
  | none => .error .invalidKeyCombination
  | some o => .ok o

/-- `public_key().get_oid(...)` of the classes; the option of a composite signature is `use_pss`. -/
def pubOid (k : HKey) (usePss : Bool) : Except PyErr (List Nat) :=
  match k.alg with
  | .sig => match sigKind k.trad.shape with
    | none => .error .valueError
    | some t => CSig.nameOid ("composite-sig-" ++ k.pq.name ++ "-" ++ CSig.tradName usePss t)
  | .kem => match kemTradName false k.trad.shape with
    | .error e => .error e
    | .ok t => Hyb.nameOid (compName .kem k.pq.name t)
  | .dhkem => match kemTradName true k.trad.shape with
    | .error e => .error e
    | .ok t => Hyb.nameOid (compName .dhkem k.pq.name t)
  | .chempat => match kemTradName true k.trad.shape with
    | .error e => .error e
    | .ok t => lookup chempatNameToOid ("chempat-" ++ k.pq.name ++ "-" ++ t)
  | .xwing => .ok [1, 3, 6, 1, 4, 1, 62253, 25722]

/-! ## By name -/

/-- `combined_factory.py` 80-91, `_any_string_in_string`. -/
def anyIn (s : String) (options : List String) : Except PyErr String :=
  match options.find? (fun o => pyIn o s) with
  | none => .error .valueError
  | some o => .ok o

def prefixAlg (p : String) : Alg := if p = "dhkem" then .dhkem else if p = "kem" then .kem else .sig

/-- `str.isdigit()` for the texts that occur. -/
def isDigits (s : String) : Bool := !s.toList.isEmpty && s.toList.all Char.isDigit

/-- `combined_factory.py` 127-136: what the rest of the name asks for. -/
def nameParts (algorithm pfx pq : String) : Except PyErr (String × Option String × Option String) :=
  let algorithm := if pyIn "-hash" algorithm then pyReplaceOnce algorithm "-hash" "" else algorithm
  let rest := pyReplaceOnce algorithm ("composite-" ++ pfx ++ "-" ++ pq ++ "-") ""
  match anyIn rest ["rsa", "ecdsa", "ecdh", "ec", "ed25519", "ed448", "x25519", "x448"] with
  | .error e => .error e
  | .ok trad =>
    let rest := pyReplace (pyReplace rest trad "") "-pss" ""
    .ok (trad, if isDigits rest then some rest else none,
      if isDigits rest ∨ rest = "" then none else some (pyLower (pyReplaceOnce rest "-" "")))

/-- `combined_factory.py` 145-155: the identifier must exist. -/
def checkOid (k : HKey) (trad : String) : Except PyErr HKey :=
  match pubOid k (k.alg == .sig && pyStarts trad "rsa") with
  | .error e => .error e
  | .ok _ => .ok k

/-- `combined_factory.py` 111-155, `_generate_composite_key_by_name`; the pre-hash names of `generate_pq_key` do not occur. -/
def compositeByName (name : String) (n m : Nat) : Except PyErr HKey :=
  let algorithm := pyLower name
  match anyIn algorithm ["dhkem", "kem", "sig"] with
  | .error e => .error e
  | .ok pfx => match getPqAlgName algorithm with
    | .error e => .error e
    | .ok pq => match nameParts algorithm pfx pq with
      | .error e => .error e
      | .ok (trad, length, curve) => match genTrad trad length curve with
        | .error e => .error e
        | .ok t => match fromKeys (prefixAlg pfx) (some ⟨pq, n⟩) (some { shape := t, id := m }) 0 0 with
          | .error e => .error e
          | .ok k => checkOid k trad

/-- `combined_factory.py` 157-172, `_generate_chempat_key_by_name`. -/
def chempatByName (name : String) (n m : Nat) : Except PyErr HKey :=
  match splitHybridName name with
  | .error e => .error e
  | .ok (pq, tradCurve) => match anyIn tradCurve ["ecdh", "x448", "x25519"] with
    | .error e => .error e
    | .ok trad =>
      let rest := pyReplaceOnce tradCurve trad ""
      generate .chempat { pq := some pq, trad := some trad, curve := if rest = "" then none else some (pyReplaceOnce rest "-" "") }
        none none n m

/-- `combined_factory.py` 174-188, `generate_key_from_name`, for hybrid names. -/
def byName (name : String) (n m : Nat) : Except PyErr HKey :=
  if pyStarts name "composite" then compositeByName name n m
  else chempatByName name n m

end Verif.PQ.HybGen
