import Verif.PQ.Hybrid

/-!
# Names of hybrid algorithms

`pq_logic/combined_factory.py` 821-848 and `pq_logic/keys/pq_key_factory.py` 371-381: taking a hybrid name apart.
-/

namespace Verif.PQ.Hyb

open Verif.CA (Bytes PyErr)

/-- Python's `sub in s`, on characters. -/
def infixChars (sub : List Char) : List Char → Bool
  | [] => sub.isEmpty
  | c :: cs => sub.isPrefixOf (c :: cs) || infixChars sub cs

def pyIn (sub s : String) : Bool := infixChars sub.toList s.toList

/-- Python's `s.replace(old, new, 1)`, on characters. -/
def replaceOnceChars (old new : List Char) : List Char → List Char
  | [] => if old.isEmpty then new else []
  | c :: cs => if old.isPrefixOf (c :: cs) then new ++ (c :: cs).drop old.length else c :: replaceOnceChars old new cs

def pyReplaceOnce (s old new : String) : String := String.ofList (replaceOnceChars old.toList new.toList s.toList)

def pyStarts (s p : String) : Bool := p.toList.isPrefixOf s.toList

def pyEnds (s p : String) : Bool := p.toList.isSuffixOf s.toList

/-- The keys of `PQ_NAME_2_OID` (`oidutils.py` 657-660, 732-733) in their order: `ML_DSA_NAME_2_OID` (553-566),
`SLH_DSA_NAME_2_OID` (584-612, 637), `FALCON_NAME_2_OID`, `ML_KEM_NAME_2_OID`, the stateful schemes (641-645), then the KEMs
added later (720-722). -/
def pqNameKeys : List String :=
  ["ml-dsa-44", "ml-dsa-65", "ml-dsa-87", "ml-dsa-44-sha512", "ml-dsa-65-sha512", "ml-dsa-87-sha512",
   "slh-dsa-sha2-128s", "slh-dsa-sha2-128f", "slh-dsa-sha2-192s", "slh-dsa-sha2-192f", "slh-dsa-sha2-256s", "slh-dsa-sha2-256f",
   "slh-dsa-shake-128s", "slh-dsa-shake-128f", "slh-dsa-shake-192s", "slh-dsa-shake-192f", "slh-dsa-shake-256s", "slh-dsa-shake-256f",
   "slh-dsa-sha2-128s-sha256", "slh-dsa-sha2-128f-sha256", "slh-dsa-sha2-192s-sha512", "slh-dsa-sha2-192f-sha512",
   "slh-dsa-sha2-256s-sha512", "slh-dsa-sha2-256f-sha512", "slh-dsa-shake-128s-shake128", "slh-dsa-shake-128f-shake128",
   "slh-dsa-shake-192s-shake256", "slh-dsa-shake-192f-shake256", "slh-dsa-shake-256s-shake256", "slh-dsa-shake-256f-shake256",
   "falcon-512", "falcon-padded-512", "falcon-1024", "falcon-padded-1024",
   "ml-kem-512", "ml-kem-768", "ml-kem-1024", "xmss", "xmssmt", "hss", "sntrup761",
   "mceliece-348864", "mceliece-460896", "mceliece-6688128", "mceliece-6960119", "mceliece-8192128",
   "frodokem-640-aes", "frodokem-640-shake", "frodokem-976-aes", "frodokem-976-shake", "frodokem-1344-aes", "frodokem-1344-shake"]

/-- `pq_key_factory.py` 371-381, `get_pq_alg_name`. -/
def getPqAlgName (algorithm : String) : Except PyErr String :=
  match pqNameKeys.find? (fun x => pyIn x algorithm) with
  | some x => .ok x
  | none => .error .valueError

/-- `combined_factory.py` 831-841, the prefix. -/
def hybridPrefix (alg : String) : Option String :=
  ["chempat-", "composite-sig-", "composite-dhkem-", "composite-kem-"].find? (fun p => pyStarts alg p)

/-- `combined_factory.py` 820-848, `get_pq_and_trad_name_form_hybrid_name`. -/
def splitHybridName (name : String) : Except PyErr (String × String) :=
  let alg := pyLower name
  match hybridPrefix alg with
  | none => .error .notImplemented
  | some p =>
    match getPqAlgName alg with
    | .error e => .error e
    | .ok pq => .ok (pq, pyReplaceOnce (pyReplaceOnce alg p "") (pq ++ "-") "")

end Verif.PQ.Hyb
