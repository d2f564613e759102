import Verif.PQ.Hybrid

/-!
# Stateful hash-based signature keys: XMSS, XMSS^MT and HSS/LMS

`pq_logic/keys/stateful_sig_keys.py`, `pq_logic/keys/hss_validation.py`, `pq_logic/keys/pq_stateful_sig_factory.py`, the
approval filter of `resources/ca_ra_utils.py` and the index helpers of `resources/keyutils.py`. The signature schemes
themselves are those of the packages `oqs` and `pyhsslms`: their answers are the fields of `Oqs` and the arguments called
`deser`. Names are ASCII.
-/

namespace Verif.PQ.Stfl

open Verif.CA (Bytes PyErr)
open Verif.PQ.Slh (toByte fromBytes)
open Verif.PQ.Mech (toBytesBE)
open Verif.PQ.Hyb (pyUpper pyLower)

/-! ## Tables -/

/-- An entry of `XMSS_ALG_DETAILS` or `XMSSMT_ALG_DETAILS`; the fields `w`, `len` and `d` are never read. -/
structure Details where
  hashAlg : String
  n : Nat
  h : Nat
deriving DecidableEq, Repr

/-- LMS parameters: hash, digest size, tree height. -/
structure Lms where
  hash : String
  m : Nat
  h : Nat
deriving DecidableEq, Repr

/-- LM-OTS parameters: hash, digest size, number of chains, Winternitz parameter. -/
structure Lmots where
  hash : String
  n : Nat
  p : Nat
  w : Nat
deriving DecidableEq, Repr

/-- `XMSS_ALG_IDS` (stateful_sig_keys.py 1245-1267). -/
def xmssIds : List (Nat × String) :=
  [(0x01, "XMSS-SHA2_10_256"), (0x02, "XMSS-SHA2_16_256"), (0x03, "XMSS-SHA2_20_256"), (0x04, "XMSS-SHA2_10_512"),
   (0x05, "XMSS-SHA2_16_512"), (0x06, "XMSS-SHA2_20_512"), (0x07, "XMSS-SHAKE_10_256"), (0x08, "XMSS-SHAKE_16_256"),
   (0x09, "XMSS-SHAKE_20_256"), (0x0A, "XMSS-SHAKE_10_512"), (0x0B, "XMSS-SHAKE_16_512"), (0x0C, "XMSS-SHAKE_20_512"),
   (0x0D, "XMSS-SHA2_10_192"), (0x0E, "XMSS-SHA2_16_192"), (0x0F, "XMSS-SHA2_20_192"), (0x10, "XMSS-SHAKE256_10_256"),
   (0x11, "XMSS-SHAKE256_16_256"), (0x12, "XMSS-SHAKE256_20_256"), (0x13, "XMSS-SHAKE256_10_192"),
   (0x14, "XMSS-SHAKE256_16_192"), (0x15, "XMSS-SHAKE256_20_192")]

/-- `XMSS_NOT_APPROVED` (1268-1278). -/
def xmssNotApproved : List String :=
  ["XMSS-SHA2_10_512", "XMSS-SHA2_16_512", "XMSS-SHA2_20_512", "XMSS-SHAKE_10_256", "XMSS-SHAKE_16_256",
   "XMSS-SHAKE_20_256", "XMSS-SHAKE_10_512", "XMSS-SHAKE_16_512", "XMSS-SHAKE_20_512"]

/-- `XMSSMT_ALG_IDS` (1281-1338). -/
def xmssmtIds : List (Nat × String) :=
  [(0x01, "XMSSMT-SHA2_20/2_256"), (0x02, "XMSSMT-SHA2_20/4_256"), (0x03, "XMSSMT-SHA2_40/2_256"),
   (0x04, "XMSSMT-SHA2_40/4_256"), (0x05, "XMSSMT-SHA2_40/8_256"), (0x06, "XMSSMT-SHA2_60/3_256"),
   (0x07, "XMSSMT-SHA2_60/6_256"), (0x08, "XMSSMT-SHA2_60/12_256"), (0x09, "XMSSMT-SHA2_20/2_512"),
   (0x0A, "XMSSMT-SHA2_20/4_512"), (0x0B, "XMSSMT-SHA2_40/2_512"), (0x0C, "XMSSMT-SHA2_40/4_512"),
   (0x0D, "XMSSMT-SHA2_40/8_512"), (0x0E, "XMSSMT-SHA2_60/3_512"), (0x0F, "XMSSMT-SHA2_60/6_512"),
   (0x10, "XMSSMT-SHA2_60/12_512"), (0x11, "XMSSMT-SHAKE_20/2_256"), (0x12, "XMSSMT-SHAKE_20/4_256"),
   (0x13, "XMSSMT-SHAKE_40/2_256"), (0x14, "XMSSMT-SHAKE_40/4_256"), (0x15, "XMSSMT-SHAKE_40/8_256"),
   (0x16, "XMSSMT-SHAKE_60/3_256"), (0x17, "XMSSMT-SHAKE_60/6_256"), (0x18, "XMSSMT-SHAKE_60/12_256"),
   (0x19, "XMSSMT-SHAKE_20/2_512"), (0x1A, "XMSSMT-SHAKE_20/4_512"), (0x1B, "XMSSMT-SHAKE_40/2_512"),
   (0x1C, "XMSSMT-SHAKE_40/4_512"), (0x1D, "XMSSMT-SHAKE_40/8_512"), (0x1E, "XMSSMT-SHAKE_60/3_512"),
   (0x1F, "XMSSMT-SHAKE_60/6_512"), (0x20, "XMSSMT-SHAKE_60/12_512"), (0x21, "XMSSMT-SHA2_20/2_192"),
   (0x22, "XMSSMT-SHA2_20/4_192"), (0x23, "XMSSMT-SHA2_40/2_192"), (0x24, "XMSSMT-SHA2_40/4_192"),
   (0x25, "XMSSMT-SHA2_40/8_192"), (0x26, "XMSSMT-SHA2_60/3_192"), (0x27, "XMSSMT-SHA2_60/6_192"),
   (0x28, "XMSSMT-SHA2_60/12_192"), (0x29, "XMSSMT-SHAKE256_20/2_256"), (0x2A, "XMSSMT-SHAKE256_20/4_256"),
   (0x2B, "XMSSMT-SHAKE256_40/2_256"), (0x2C, "XMSSMT-SHAKE256_40/4_256"), (0x2D, "XMSSMT-SHAKE256_40/8_256"),
   (0x2E, "XMSSMT-SHAKE256_60/3_256"), (0x2F, "XMSSMT-SHAKE256_60/6_256"), (0x30, "XMSSMT-SHAKE256_60/12_256"),
   (0x31, "XMSSMT-SHAKE256_20/2_192"), (0x32, "XMSSMT-SHAKE256_20/4_192"), (0x33, "XMSSMT-SHAKE256_40/2_192"),
   (0x34, "XMSSMT-SHAKE256_40/4_192"), (0x35, "XMSSMT-SHAKE256_40/8_192"), (0x36, "XMSSMT-SHAKE256_60/3_192"),
   (0x37, "XMSSMT-SHAKE256_60/6_192"), (0x38, "XMSSMT-SHAKE256_60/12_192")]

/-- `XMSSMT_NOT_APPROVED` (1340-1357). -/
def xmssmtNotApproved : List String :=
  ["XMSSMT-SHA2_20/2_512", "XMSSMT-SHA2_20/4_512", "XMSSMT-SHA2_40/2_512", "XMSSMT-SHA2_40/4_512",
   "XMSSMT-SHA2_40/8_512", "XMSSMT-SHA2_60/3_512", "XMSSMT-SHA2_60/6_512", "XMSSMT-SHA2_60/12_512",
   "XMSSMT-SHAKE256_20/2_512", "XMSSMT-SHAKE256_20/4_512", "XMSSMT-SHAKE256_40/2_512", "XMSSMT-SHAKE256_40/4_512",
   "XMSSMT-SHAKE256_40/8_512", "XMSSMT-SHAKE256_60/3_512", "XMSSMT-SHAKE256_60/6_512", "XMSSMT-SHAKE256_60/12_512"]

/-- `XMSS_ALG_DETAILS` (34-59). -/
def xmssDetails : List (String × Details) :=
  [("xmss-sha2_10_256", ⟨"sha256", 32, 10⟩), ("xmss-sha2_16_256", ⟨"sha256", 32, 16⟩),
   ("xmss-sha2_20_256", ⟨"sha256", 32, 20⟩), ("xmss-sha2_10_512", ⟨"sha512", 64, 10⟩),
   ("xmss-sha2_16_512", ⟨"sha512", 64, 16⟩), ("xmss-sha2_20_512", ⟨"sha512", 64, 20⟩),
   ("xmss-shake_10_256", ⟨"shake128", 32, 10⟩), ("xmss-shake_16_256", ⟨"shake128", 32, 16⟩),
   ("xmss-shake_20_256", ⟨"shake128", 32, 20⟩), ("xmss-shake_10_512", ⟨"shake256", 64, 10⟩),
   ("xmss-shake_16_512", ⟨"shake256", 64, 16⟩), ("xmss-shake_20_512", ⟨"shake256", 64, 20⟩),
   ("xmss-sha2_10_192", ⟨"sha256", 24, 10⟩), ("xmss-sha2_16_192", ⟨"sha256", 24, 16⟩),
   ("xmss-sha2_20_192", ⟨"sha256", 24, 20⟩), ("xmss-shake_10_192", ⟨"shake128", 24, 10⟩),
   ("xmss-shake_16_192", ⟨"shake128", 24, 16⟩), ("xmss-shake_20_192", ⟨"shake128", 24, 20⟩),
   ("xmss-shake256_10_192", ⟨"shake256", 24, 10⟩), ("xmss-shake256_16_192", ⟨"shake256", 24, 16⟩),
   ("xmss-shake256_20_192", ⟨"shake256", 24, 20⟩), ("xmss-shake256_10_256", ⟨"shake256", 32, 10⟩),
   ("xmss-shake256_16_256", ⟨"shake256", 32, 16⟩), ("xmss-shake256_20_256", ⟨"shake256", 32, 20⟩)]

/-- `XMSSMT_ALG_DETAILS` (61-95). -/
def xmssmtDetails : List (String × Details) :=
  [("xmssmt-sha2_20/2_256", ⟨"sha256", 32, 20⟩), ("xmssmt-sha2_20/4_256", ⟨"sha256", 32, 20⟩),
   ("xmssmt-sha2_40/2_256", ⟨"sha256", 32, 40⟩), ("xmssmt-sha2_40/4_256", ⟨"sha256", 32, 40⟩),
   ("xmssmt-sha2_40/8_256", ⟨"sha256", 32, 40⟩), ("xmssmt-sha2_60/3_256", ⟨"sha256", 32, 60⟩),
   ("xmssmt-sha2_60/6_256", ⟨"sha256", 32, 60⟩), ("xmssmt-sha2_60/12_256", ⟨"sha256", 32, 60⟩),
   ("xmssmt-sha2_20/2_512", ⟨"sha512", 64, 20⟩), ("xmssmt-sha2_20/4_512", ⟨"sha512", 64, 20⟩),
   ("xmssmt-sha2_40/2_512", ⟨"sha512", 64, 40⟩), ("xmssmt-sha2_40/4_512", ⟨"sha512", 64, 40⟩),
   ("xmssmt-sha2_40/8_512", ⟨"sha512", 64, 40⟩), ("xmssmt-sha2_60/3_512", ⟨"sha512", 64, 60⟩),
   ("xmssmt-sha2_60/6_512", ⟨"sha512", 64, 60⟩), ("xmssmt-sha2_60/12_512", ⟨"sha512", 64, 60⟩),
   ("xmssmt-shake_20/2_256", ⟨"shake128", 32, 20⟩), ("xmssmt-shake_20/4_256", ⟨"shake128", 32, 20⟩),
   ("xmssmt-shake_40/2_256", ⟨"shake128", 32, 40⟩), ("xmssmt-shake_40/4_256", ⟨"shake128", 32, 40⟩),
   ("xmssmt-shake_40/8_256", ⟨"shake128", 32, 40⟩), ("xmssmt-shake_60/3_256", ⟨"shake128", 32, 60⟩),
   ("xmssmt-shake_60/6_256", ⟨"shake128", 32, 60⟩), ("xmssmt-shake_60/12_256", ⟨"shake128", 32, 60⟩),
   ("xmssmt-shake_20/2_512", ⟨"shake256", 64, 20⟩), ("xmssmt-shake_20/4_512", ⟨"shake256", 64, 20⟩),
   ("xmssmt-shake_40/2_512", ⟨"shake256", 64, 40⟩), ("xmssmt-shake_40/4_512", ⟨"shake256", 64, 40⟩),
   ("xmssmt-shake_40/8_512", ⟨"shake256", 64, 40⟩), ("xmssmt-shake_60/3_512", ⟨"shake256", 64, 60⟩),
   ("xmssmt-shake_60/6_512", ⟨"shake256", 64, 60⟩), ("xmssmt-shake_60/12_512", ⟨"shake256", 64, 60⟩)]

/-- The LMS types of RFC 8554 and their parameters, with the codes of `lms_algorithm_type_dict` (115-136): code, name, and
hash, `m`, `h` of `PYHSSLMS_LMS_PARAMS` (a table of the package `pyhsslms`, not of the repository; trusted). -/
def lmsTable : List (Nat × String × Lms) :=
  [(0x05, "lms_sha256_m32_h5", ⟨"sha256", 32, 5⟩), (0x06, "lms_sha256_m32_h10", ⟨"sha256", 32, 10⟩),
   (0x07, "lms_sha256_m32_h15", ⟨"sha256", 32, 15⟩), (0x08, "lms_sha256_m32_h20", ⟨"sha256", 32, 20⟩),
   (0x09, "lms_sha256_m32_h25", ⟨"sha256", 32, 25⟩), (0x0a, "lms_sha256_m24_h5", ⟨"sha256", 24, 5⟩),
   (0x0b, "lms_sha256_m24_h10", ⟨"sha256", 24, 10⟩), (0x0c, "lms_sha256_m24_h15", ⟨"sha256", 24, 15⟩),
   (0x0d, "lms_sha256_m24_h20", ⟨"sha256", 24, 20⟩), (0x0e, "lms_sha256_m24_h25", ⟨"sha256", 24, 25⟩),
   (0x0f, "lms_shake_m32_h5", ⟨"shake", 32, 5⟩), (0x10, "lms_shake_m32_h10", ⟨"shake", 32, 10⟩),
   (0x11, "lms_shake_m32_h15", ⟨"shake", 32, 15⟩), (0x12, "lms_shake_m32_h20", ⟨"shake", 32, 20⟩),
   (0x13, "lms_shake_m32_h25", ⟨"shake", 32, 25⟩), (0x14, "lms_shake_m24_h5", ⟨"shake", 24, 5⟩),
   (0x15, "lms_shake_m24_h10", ⟨"shake", 24, 10⟩), (0x16, "lms_shake_m24_h15", ⟨"shake", 24, 15⟩),
   (0x17, "lms_shake_m24_h20", ⟨"shake", 24, 20⟩), (0x18, "lms_shake_m24_h25", ⟨"shake", 24, 25⟩)]

/-- The LM-OTS types: code (`lmots_algorithm_type_dict`, 96-113), name, and hash, `n`, `p`, `w` of `PYHSSLMS_LMOTS_PARAMS`
(trusted like `lmsTable`). -/
def lmotsTable : List (Nat × String × Lmots) :=
  [(0x01, "lmots_sha256_n32_w1", ⟨"sha256", 32, 265, 1⟩), (0x02, "lmots_sha256_n32_w2", ⟨"sha256", 32, 133, 2⟩),
   (0x03, "lmots_sha256_n32_w4", ⟨"sha256", 32, 67, 4⟩), (0x04, "lmots_sha256_n32_w8", ⟨"sha256", 32, 34, 8⟩),
   (0x05, "lmots_sha256_n24_w1", ⟨"sha256", 24, 200, 1⟩), (0x06, "lmots_sha256_n24_w2", ⟨"sha256", 24, 101, 2⟩),
   (0x07, "lmots_sha256_n24_w4", ⟨"sha256", 24, 51, 4⟩), (0x08, "lmots_sha256_n24_w8", ⟨"sha256", 24, 26, 8⟩),
   (0x09, "lmots_shake_n32_w1", ⟨"shake", 32, 265, 1⟩), (0x0a, "lmots_shake_n32_w2", ⟨"shake", 32, 133, 2⟩),
   (0x0b, "lmots_shake_n32_w4", ⟨"shake", 32, 67, 4⟩), (0x0c, "lmots_shake_n32_w8", ⟨"shake", 32, 34, 8⟩),
   (0x0d, "lmots_shake_n24_w1", ⟨"shake", 24, 200, 1⟩), (0x0e, "lmots_shake_n24_w2", ⟨"shake", 24, 101, 2⟩),
   (0x0f, "lmots_shake_n24_w4", ⟨"shake", 24, 51, 4⟩), (0x10, "lmots_shake_n24_w8", ⟨"shake", 24, 26, 8⟩)]

/-! ## Names -/

/-- Python's `s.split(c)` for a one-character separator, on characters. -/
def splitChar (c : Char) : List Char → List (List Char)
  | [] => [[]]
  | x :: xs =>
    if x = c then [] :: splitChar c xs
    else match splitChar c xs with
      | [] => [[x]]
      | f :: fs => (x :: f) :: fs

/-- `int(s)` of a string of decimal digits; every other string is a `ValueError` (signs, blanks and underscores, which
`int` also takes, do not occur in the names). -/
def pyInt (s : List Char) : Except PyErr Nat :=
  if s ≠ [] ∧ s.all Char.isDigit then .ok (s.foldl (fun a c => a * 10 + (c.toNat - 48)) 0) else .error .valueError

/-- `int(name.split("_")[-1]) // 8` (stateful_sig_keys.py 380-381, 475-476, 586). -/
def sizeOfName (name : String) : Except PyErr Nat :=
  match (splitChar '_' name.toList).getLast? with
  | none => .error .indexError
  | some f => match pyInt f with
    | .error e => .error e
    | .ok k => .ok (k / 8)

/-- `name.split("_")[1]`. -/
def secondField (name : String) : Except PyErr (List Char) :=
  match (splitChar '_' name.toList)[1]? with
  | none => .error .indexError
  | some f => .ok f

/-- `int(name.split("_")[1].split("/")[i])` (`tree_height` 759-762, `layers` 765-768). -/
def mtField (i : Nat) (name : String) : Except PyErr Nat :=
  match secondField name with
  | .error e => .error e
  | .ok f => match (splitChar '/' f)[i]? with
    | none => .error .indexError
    | some g => pyInt g

/-- `math.ceil(h / 8)`. -/
def ceil8 (h : Nat) : Nat := (h + 7) / 8

/-- `data[a:b]` for `a ≤ b`. -/
def slice (data : Bytes) (a b : Nat) : Bytes := (data.drop a).take (b - a)

def startsWith (s p : String) : Bool := p.toList.isPrefixOf s.toList

def endsWith (s p : String) : Bool := p.toList.isSuffixOf s.toList

/-- `int.from_bytes(data[:4], "big")`. -/
def headId (data : Bytes) : Nat := fromBytes (data.take 4)

/-! ## The `oqs` backend -/

/-- What `oqs.StatefulSignature(name)` answers; the constructor raises for a mechanism that is not compiled in. -/
structure Oqs where
  enabled : String → Bool
  pubLen : String → Nat
  secLen : String → Nat
  sigLen : String → Nat
  /-- `sigs_total()` -/
  total : String → Nat

/-! ## XMSS public keys -/

/-- A stateful public key object. -/
structure Pub where
  name : String
  bytes : Bytes
deriving DecidableEq, Repr

/-- `_check_name` (408-419, 527-540) of XMSS keys; `dflt` is the name that stands for "xmss": 20_256 for the public, 10_256
for the private key. -/
def xmssCheckName (dflt name : String) : Except PyErr (String × String) :=
  let name := if pyLower name = "xmss" then dflt else pyLower name
  if pyUpper name ∈ xmssIds.map (·.2) then .ok (name, pyUpper name) else .error .valueError

/-- `XMSSPublicKey(name, data)`: `_check_name` and `_initialize_key` (421-429), `key_size` (470-477). -/
def xmssPub (o : Oqs) (name : String) (data : Bytes) : Except PyErr Pub :=
  match xmssCheckName "xmss-sha2_20_256" name with
  | .error e => .error e
  | .ok (name, other) => match sizeOfName name with
    | .error e => .error e
    | .ok n =>
      if data.length ≠ 2 * n + 4 then .error .invalidKeyData
      else if o.enabled other then .ok ⟨name, data⟩ else .error .mechanismNotSupported

/-- `XMSSPublicKey.from_public_bytes` (443-449). -/
def xmssPubLoad (o : Oqs) (data : Bytes) : Except PyErr Pub :=
  match xmssIds.lookup (headId data) with
  | none => .error .invalidKeyData
  | some nm => xmssPub o (pyUpper nm) data

/-- `XMSSPublicKey.get_leaf_index` (431-436). -/
def xmssLeaf (o : Oqs) (k : Pub) (sig : Bytes) : Except PyErr Nat :=
  if sig.length ≠ o.sigLen (pyUpper k.name) then .error .valueError else .ok (fromBytes (sig.take 4))

/-- `XMSSPublicKey.hash_alg` (496-509). -/
def xmssHash (k : Pub) : Except PyErr String :=
  if startsWith k.name "xmss-shake_" then
    match (splitChar '_' k.name.toList).getLast? with
    | none => .error .indexError
    | some f => match pyInt f with
      | .error e => .error e
      | .ok size => if size = 256 then .ok "shake128" else if size = 512 then .ok "shake256" else .ok "shake128"
  else match xmssDetails.lookup k.name with
    | none => .error .keyError
    | some d => .ok d.hashAlg

/-- `XMSSPublicKey.max_sig_size` (464-467). -/
def xmssMax (k : Pub) : Except PyErr Nat :=
  match secondField k.name with
  | .error e => .error e
  | .ok f => match pyInt f with
    | .error e => .error e
    | .ok h => .ok (2 ^ h - 1)

/-! ## XMSS^MT public keys -/

/-- `XMSSMTPublicKey._check_name` (661-672). -/
def xmssmtCheckName (name : String) : Except PyErr (String × String) :=
  let name := if pyLower name = "xmssmt" then "xmssmt-sha2_20/2_256" else pyLower name
  if pyUpper name ∈ xmssmtIds.map (·.2) then .ok (name, pyUpper name) else .error .valueError

/-- `XMSSMTPublicKey(name, data)` (`_initialize_key`, 678-686). -/
def xmssmtPub (o : Oqs) (name : String) (data : Bytes) : Except PyErr Pub :=
  match xmssmtCheckName name with
  | .error e => .error e
  | .ok (name, other) =>
    if !o.enabled other then .error .mechanismNotSupported
    else if data.length ≠ o.pubLen other then .error .invalidKeyData else .ok ⟨name, data⟩

/-- `XMSSMTPublicKey.from_public_bytes` (703-712): the two dictionary accesses come before the test for unknown ids. -/
def xmssmtPubLoad (o : Oqs) (data : Bytes) : Except PyErr Pub :=
  match xmssmtIds.lookup (headId data) with
  | none => .error .keyError
  | some nm => match xmssmtDetails.lookup (pyLower nm) with
    | none => .error .keyError
    | some d => if data.length ≠ d.n * 2 + 4 then .error .invalidKeyData else xmssmtPub o nm data

/-- `XMSSMTPublicKey.get_leaf_index` (688-700). -/
def xmssmtLeaf (k : Pub) (sig : Bytes) : Except PyErr Nat :=
  if sig.length < 4 then .error .valueError
  else match mtField 0 k.name with
    | .error e => .error e
    | .ok h => .ok (fromBytes (sig.take (ceil8 h)))

/-- `XMSSMTPublicKey.hash_alg` (771-773). -/
def xmssmtHash (k : Pub) : Except PyErr String :=
  match xmssmtDetails.lookup k.name with
  | none => .error .keyError
  | some d => .ok d.hashAlg

/-- `XMSSMTPublicKey.max_sig_size` (731-734). -/
def xmssmtMax (k : Pub) : Except PyErr Nat :=
  match xmssmtDetails.lookup k.name with
  | none => .error .keyError
  | some d => .ok (2 ^ d.h - 1)

/-! ## Private keys of the `oqs` backend -/

/-- `_xmss_liboqs_sk_to_pk` (365-399). -/
def skToPk (sk : Bytes) (name : String) : Except PyErr Bytes :=
  let oid := slice sk 0 4
  if !startsWith (pyUpper name) "XMSS-" && !startsWith (pyUpper name) "XMSSMT-" then .error .valueError
  else match sizeOfName name with
    | .error e => .error e
    | .ok n =>
      if startsWith (pyUpper name) "XMSSMT" then
        match xmssmtDetails.lookup (pyLower name) with
        | none => .error .keyError
        | some d =>
          -- `offset2 = math.ceil(h / 8) - 4` may be negative; the sums are not, as `hdr` is 8
          let root := 8 + 2 * n + ceil8 d.h - 4
          let seed := 8 + 3 * n + ceil8 d.h - 4
          .ok (oid ++ slice sk root (root + n) ++ slice sk seed (seed + n))
      else
        let start := 8 + 2 * n
        .ok (oid ++ slice sk start (start + n) ++ slice sk (start + n) (start + 2 * n))

/-- A private key object: the algorithm, the bytes that `export_secret_key()` returns and the cached public key. -/
structure Sec where
  name : String
  sk : Bytes
  pub : Option Bytes
deriving DecidableEq, Repr

/-- `XMSSPrivateKey(name, private_bytes=sk, public_key=pub)` (`_initialize_key`, 542-555). That the backend hands out the
bytes it was given is trusted. -/
def xmssSec (o : Oqs) (name : String) (sk : Bytes) (pub : Option Bytes) : Except PyErr Sec :=
  match xmssCheckName "xmss-sha2_10_256" name with
  | .error e => .error e
  | .ok (name, other) =>
    if !o.enabled other then .error .mechanismNotSupported
    else if sk.length ≠ o.secLen other then .error .invalidKeyData else .ok ⟨name, sk, pub⟩

/-- `XMSSPrivateKey.from_private_bytes` (572-592). -/
def xmssSecLoad (o : Oqs) (data : Bytes) : Except PyErr Sec :=
  match xmssIds.lookup (headId data) with
  | none => .error .invalidKeyData
  | some nm => match sizeOfName nm with
    | .error e => .error e
    | .ok n =>
      if data.length < 4 + 3 * n then .error .invalidKeyData
      else if data.length = 4 + 3 * n then .error .notImplemented
      else xmssSec o nm data none

/-- `XMSSPrivateKey.public_key` (521-525). -/
def xmssSecPub (o : Oqs) (k : Sec) : Except PyErr Pub :=
  match k.pub with
  | some b => xmssPub o k.name b
  | none => match skToPk k.sk (pyUpper k.name) with
    | .error e => .error e
    | .ok b => xmssPub o k.name b

/-- `XMSSPrivateKey._change_index` (594-610). -/
def xmssChangeIndex (o : Oqs) (k : Sec) (i : Nat) : Except PyErr Sec :=
  if fromBytes (slice k.sk 4 8) = i then .ok k
  else match toBytesBE i 4 with
    | .error e => .error e
    | .ok ib => match xmssSecPub o k with
      | .error e => .error e
      | .ok p => xmssSec o k.name (slice k.sk 0 4 ++ ib ++ k.sk.drop 8) (some p.bytes)

/-- `XMSSPrivateKey.private_numbers` (557-569). -/
def privateNumbers (k : Sec) : Except PyErr Bytes :=
  match xmssDetails.lookup (pyLower k.name) with
  | none => .error .keyError
  | some d => .ok (k.sk.take (4 + 4 * d.n))

/-- `XMSSMTPrivateKey(name, private_bytes=sk, public_key=pub)` (`_check_name` 783-794, `_initialize_key` 796-809): the name
must have details. -/
def xmssmtSec (o : Oqs) (name : String) (sk : Bytes) (pub : Option Bytes) : Except PyErr Sec :=
  let name := if pyLower name = "xmssmt" then "xmssmt-sha2_20/2_256" else pyLower name
  if (xmssmtDetails.lookup name).isNone then .error .valueError
  else if !o.enabled (pyUpper name) then .error .mechanismNotSupported
  else if sk.length ≠ o.secLen (pyUpper name) then .error .invalidKeyData else .ok ⟨name, sk, pub⟩

/-- `XMSSMTPrivateKey.from_private_bytes` (834-837). -/
def xmssmtSecLoad (o : Oqs) (data : Bytes) : Except PyErr Sec :=
  match xmssmtIds.lookup (headId data) with
  | none => .error .keyError
  | some nm => xmssmtSec o nm data none

/-- `XMSSMTPrivateKey.public_key` (811-815). -/
def xmssmtSecPub (o : Oqs) (k : Sec) : Except PyErr Pub :=
  match k.pub with
  | some b => xmssmtPub o k.name b
  | none => match skToPk k.sk (pyUpper k.name) with
    | .error e => .error e
    | .ok b => xmssmtPub o k.name b

/-- `XMSSMTPrivateKey._change_index` (874-887); `tree_height` is that of the public key. -/
def xmssmtChangeIndex (o : Oqs) (k : Sec) (i : Nat) : Except PyErr Sec :=
  match xmssmtSecPub o k with
  | .error e => .error e
  | .ok p => match mtField 0 p.name with
    | .error e => .error e
    | .ok h => match toBytesBE i (ceil8 h) with
      | .error e => .error e
      | .ok ib => xmssmtSec o k.name (slice k.sk 0 4 ++ ib ++ k.sk.drop (4 + ceil8 h)) (some p.bytes)

/-- `_validate_public_key` (pq_stateful_sig_factory.py 134-166): `own` is `private_key.public_key()`, `given` the outcome of
`from_public_bytes` on the public key bytes of the structure. -/
def checkPublic (own : Pub) (given : Except PyErr Pub) : Except PyErr Unit :=
  match given with
  | .error .invalidKeyData => .error .invalidKeyData
  | .error .keyError => .error .invalidKeyData
  | .error e => .error e
  | .ok p => if p ≠ own then .error .mismatchingKey else .ok ()

/-- `_load_private_key_from_pkcs8` (204-232) for "xmss". -/
def xmssPkcs8 (o : Oqs) (sk : Bytes) (pub : Option Bytes) : Except PyErr Sec :=
  match xmssSecLoad o sk with
  | .error e => .error e
  | .ok k => match pub with
    | none => .ok k
    | some b => match xmssSecPub o k with
      | .error e => .error e
      | .ok own => match checkPublic own (xmssPubLoad o b) with
        | .error e => .error e
        | .ok () => .ok k

/-- `_load_private_key_from_pkcs8` (204-232) for "xmssmt". -/
def xmssmtPkcs8 (o : Oqs) (sk : Bytes) (pub : Option Bytes) : Except PyErr Sec :=
  match xmssmtSecLoad o sk with
  | .error e => .error e
  | .ok k => match pub with
    | none => .ok k
    | some b => match xmssmtSecPub o k with
      | .error e => .error e
      | .ok own => match checkPublic own (xmssmtPubLoad o b) with
        | .error e => .error e
        | .ok () => .ok k

/-! ## Changing the state of a private key (`resources/keyutils.py`) -/

/-- `_get_index` (keyutils.py 1238-1258) for keys of index length `length`; `total` is the private key's `max_sig_size`. -/
def getIndex (length total : Nat) (lastIndex : Bool) (index : Option Nat) : Except PyErr Bytes :=
  match index with
  | some i => if lastIndex then toBytesBE (total - 1) length else toBytesBE i length
  | none => toBytesBE total length

/-- `modify_pq_stateful_sig_private_key` (keyutils.py 1262-1313) for an XMSS key with `used_index=False`. -/
def xmssModify (o : Oqs) (k : Sec) (lastIndex : Bool) (index : Option Nat) : Except PyErr Sec :=
  match getIndex 4 (o.total (pyUpper k.name)) lastIndex index with
  | .error e => .error e
  | .ok ib => match xmssSecPub o k with
    | .error e => .error e
    | .ok p => xmssSec o k.name (slice k.sk 0 4 ++ ib ++ k.sk.drop 8) (some p.bytes)

/-- The same for an XMSS^MT key. -/
def xmssmtModify (o : Oqs) (k : Sec) (lastIndex : Bool) (index : Option Nat) : Except PyErr Sec :=
  match xmssmtSecPub o k with
  | .error e => .error e
  | .ok p => match mtField 0 p.name with
    | .error e => .error e
    | .ok h => match getIndex (ceil8 h) (o.total (pyUpper k.name)) lastIndex index with
      | .error e => .error e
      | .ok ib => xmssmtSec o k.name (slice k.sk 0 4 ++ ib ++ k.sk.drop (4 + ceil8 h)) (some p.bytes)

/-- The choice of an earlier state with `used_index=True` (keyutils.py 1292-1300): `key.used_keys[index]`, the last one when
no index is given. Negative indices are not modelled. -/
def usedState (used : List Bytes) (index : Option Nat) : Except PyErr Bytes :=
  match index with
  | some i =>
    if used.length < i then .error .valueError
    else match used[i]? with
      | none => .error .indexError
      | some b => .ok b
  | none => match used.getLast? with
    | none => .error .indexError
    | some b => .ok b

/-! ## HSS -/

/-- An entry of `HSS_ALGORITHM_DETAILS`. -/
structure HssDetails where
  lmsCode : Nat
  lmotsCode : Nat
  hash : String
  n : Nat
  h : Nat
  w : Nat
  lmotsSigLen : Nat
  lmsSigLen : Nat
  lmsPubLen : Nat
  maxPerTree : Nat
deriving DecidableEq, Repr

/-- The inner loop of `_build_hss_algorithms` (209-232). `LenI` of `pyhsslms` is 16. -/
def hssEntry (l : Nat × String × Lms) (o : Nat × String × Lmots) : Option (String × HssDetails) :=
  if o.2.2.hash ≠ l.2.2.hash ∨ o.2.2.n ≠ l.2.2.m then none
  else
    let lmotsSig := 4 + o.2.2.n * (o.2.2.p + 1)
    some ("hss_" ++ l.2.1 ++ "_" ++ o.2.1,
      { lmsCode := l.1, lmotsCode := o.1, hash := l.2.2.hash, n := o.2.2.n, h := l.2.2.h, w := o.2.2.w
        lmotsSigLen := lmotsSig, lmsSigLen := 4 + lmotsSig + 4 + l.2.2.h * l.2.2.m, lmsPubLen := 8 + 16 + l.2.2.m
        maxPerTree := 2 ^ l.2.2.h })

/-- `_build_hss_algorithms` (206-233). -/
def hssDetails : List (String × HssDetails) := lmsTable.flatMap fun l => lmotsTable.filterMap (hssEntry l)

/-- The part of a deserialised `pyhsslms.HssPublicKey` that is used. -/
structure HssPubData where
  levels : Nat
  lmsType : Nat
  lmotsType : Nat
deriving DecidableEq, Repr

/-- `build_hss_name_from_codes` (324-362). -/
def hssName (lmsType lmotsType : Nat) : Except PyErr String :=
  match lmsTable.lookup lmsType with
  | none => .error .invalidKeyData
  | some l => match lmotsTable.lookup lmotsType with
    | none => .error .invalidKeyData
    | some o =>
      let name := "hss_" ++ l.1 ++ "_" ++ o.1
      if (hssDetails.lookup name).isNone then .error .invalidKeyData else .ok name

/-- An HSS public key object. -/
structure HssPub where
  name : String
  bytes : Bytes
  levels : Nat
  lmsType : Nat
  lmotsType : Nat
deriving DecidableEq, Repr

/-- `_get_and_chck_hss_name` (269-276). -/
def hssNorm (name : String) : String :=
  if name = "" then "hss_lms_sha256_m32_h5_lmots_sha256_n32_w8"
  else if pyLower name = "hss" then "hss_lms_sha256_m32_h5_lmots_sha256_n32_w8" else pyLower name

/-- `HSSPublicKey(name, data)` (`_check_name` 909-916, `_initialize_key` 918-939); `deser` is
`pyhsslms.HssPublicKey.deserialize`, `none` its `ValueError`. The `oqs` object built at the end is not modelled. -/
def hssPub (deser : Bytes → Option HssPubData) (name : String) (data : Bytes) : Except PyErr HssPub :=
  match hssDetails.lookup (hssNorm name) with
  | none => .error .valueError
  | some d => match deser data with
    | none => .error .invalidKeyData
    | some p =>
      if data.length ≠ 4 + d.lmsPubLen then .error .invalidKeyData
      else match hssName p.lmsType p.lmotsType with
        | .error e => .error e
        | .ok canonical =>
          if canonical ≠ hssNorm name then .error .invalidKeyData
          else .ok ⟨hssNorm name, data, p.levels, p.lmsType, p.lmotsType⟩

/-- `HSSPublicKey.from_public_bytes` (946-975). -/
def hssPubLoad (deser : Bytes → Option HssPubData) (data : Bytes) : Except PyErr HssPub :=
  match deser data with
  | none => .error .valueError
  | some p => match hssName p.lmsType p.lmotsType with
    | .error e => .error e
    | .ok name => hssPub deser name data

/-- `_compute_hss_signature_length` (279-284). -/
def hssSigLen (d : HssDetails) (levels : Nat) : Nat := 4 + max (levels - 1) 0 * (d.lmsSigLen + d.lmsPubLen) + d.lmsSigLen

/-- The part of a deserialised `pyhsslms.HssSignature` that is used: the level count, the leaf numbers of the signatures over
the lower trees, and that of the last signature. -/
structure HssSig where
  levels : Nat
  upper : List Nat
  bottom : Nat
deriving DecidableEq, Repr

/-- The loop of `compute_hss_signature_index` (309-315). -/
def hssIndexLoop (maxPerTree : Nat) : List Nat → Nat → Except PyErr Nat
  | [], total => .ok total
  | v :: vs, total =>
    if maxPerTree ≤ v then .error .invalidSignature else hssIndexLoop maxPerTree vs (total * maxPerTree + v)

/-- `compute_hss_signature_index` (287-321) on the deserialised signature; `name` and `levels` are those of the key. -/
def hssIndex (name : String) (levels : Nat) (sig : Option HssSig) : Except PyErr Nat :=
  match hssDetails.lookup name with
  | none => .error .valueError
  | some d => match sig with
    | none => .error .valueError
    | some s =>
      if (s.upper ++ [s.bottom]).length ≠ s.levels then .error .invalidSignature
      else match hssIndexLoop d.maxPerTree (s.upper ++ [s.bottom]) 0 with
        | .error e => .error e
        | .ok total => if levels ≠ s.levels then .error .invalidSignature else .ok total

/-- `HSSPublicKey.get_leaf_index` (1031-1037). -/
def hssLeaf (sig : Option HssSig) : Except PyErr Nat :=
  match sig with
  | none => .error .valueError
  | some s => .ok s.bottom

/-- `get_pq_stateful_sig_index_from_sig` (keyutils.py 1444-1453) for an HSS key. -/
def sigIndexHss (k : HssPub) (sig : Option HssSig) (returnLms : Bool) : Except PyErr Nat :=
  if returnLms then hssLeaf sig else hssIndex k.name k.levels sig

/-- The part of a deserialised `pyhsslms.HssPrivateKey` that is used: the level count and the types of the top tree. -/
structure HssSecData where
  levels : Nat
  lmsType : Nat
  lmotsType : Nat
deriving DecidableEq, Repr

/-- `HSSPrivateKey(name, private_bytes=data, levels=requested)` (`_initialize_key`, 1131-1164); the result is the name and the
level count. -/
def hssSec (deser : Bytes → Option HssSecData) (name : String) (data : Bytes) (requested : Option Nat) :
    Except PyErr (String × Nat) :=
  match hssDetails.lookup (hssNorm name) with
  | none => .error .valueError
  | some _ =>
    -- `self._requested_levels or 1`
    let target := match requested with
      | none => 1
      | some 0 => 1
      | some l => l
    match deser data with
    | none => .error .invalidKeyData
    | some p =>
      if p.levels ≠ target then .error .invalidKeyData
      else match hssName p.lmsType p.lmotsType with
        | .error e => .error e
        | .ok nm => if nm ≠ hssNorm name then .error .invalidKeyData else .ok (hssNorm name, p.levels)

/-- `HSSPrivateKey.from_private_bytes` (1183-1187). -/
def hssSecLoad (deser : Bytes → Option HssSecData) (data : Bytes) : Except PyErr (String × Nat) :=
  match deser data with
  | none => .error .valueError
  | some p => match hssName p.lmsType p.lmotsType with
    | .error e => .error e
    | .ok name => hssSec deser name data (some p.levels)

/-- `HSSPublicKey.get_level_names` (1065-1087). -/
def levelNames (k : HssPub) : Except PyErr (List (String × String)) :=
  match lmsTable.lookup k.lmsType with
  | none => .error .invalidKeyData
  | some l => match lmotsTable.lookup k.lmotsType with
    | none => .error .invalidKeyData
    | some o => .ok (List.replicate k.levels (l.1, o.1))

/-! ## `hss_validation.py` -/

/-- The messages of the validation. -/
inductive Issue
  | unknownLms | unknownLmots | familyPair | digestPair | winternitzValue | heightValue
  | depth | level (i : Nat) (issue : Issue)
  | family (i : Nat) | digest (i : Nat) | winternitz (i : Nat)
deriving DecidableEq, Repr

/-- The match of `$` in the two patterns (39-40) also accepts one line feed at the end. -/
def dropNewline (s : String) : String :=
  if s.toList.getLast? = some '\n' then String.ofList s.toList.dropLast else s

/-- `_LMS_NAMES` and the pattern describe the names of `lmsTable` (30-40); `_parse_lms` (58-64). -/
def parseLms (name : String) : Except PyErr Lms :=
  match (lmsTable.map (·.2)).lookup (dropNewline name) with
  | none => .error .invalidKeyData
  | some l => .ok l

/-- `_parse_lmots` (49-55). -/
def parseLmots (name : String) : Except PyErr Lmots :=
  match (lmotsTable.map (·.2)).lookup (dropNewline name) with
  | none => .error .invalidKeyData
  | some o => .ok o

/-- `_validate_lms_lmots_pair` (67-93). -/
def pairIssues (lms lmots : String) : Except PyErr (List Issue) :=
  let errs := (if lms ∈ lmsTable.map (·.2.1) then [] else [Issue.unknownLms]) ++
    (if lmots ∈ lmotsTable.map (·.2.1) then [] else [Issue.unknownLmots])
  if errs ≠ [] then .ok errs
  else match parseLms lms with
    | .error e => .error e
    | .ok l => match parseLmots lmots with
      | .error e => .error e
      | .ok o => .ok ((if l.hash ≠ o.hash then [Issue.familyPair] else []) ++
          (if l.m ≠ o.n then [Issue.digestPair] else []) ++
          (if o.w ∈ [1, 2, 4, 8] then [] else [Issue.winternitzValue]) ++
          (if l.h ∈ [5, 10, 15, 20, 25] then [] else [Issue.heightValue]))

/-- The loop of `_validate_hss_configuration` (112-114). -/
def levelIssues : Nat → List (String × String) → Except PyErr (List Issue)
  | _, [] => .ok []
  | i, (lms, lmots) :: rest => match pairIssues lms lmots with
    | .error e => .error e
    | .ok l => match levelIssues (i + 1) rest with
      | .error e => .error e
      | .ok r => .ok (l.map (Issue.level i) ++ r)

/-- `_validate_hss_configuration` (96-116) of normalised levels. -/
def configIssues (levels : List (String × String)) : Except PyErr (List Issue) :=
  match levelIssues 0 levels with
  | .error e => .error e
  | .ok l => .ok ((if 1 ≤ levels.length ∧ levels.length ≤ 8 then [] else [Issue.depth]) ++ l)

/-- The loop of the three mismatch checks (119-200): the value `f` of every later level is compared with that of the first. -/
def laterIssues {α : Type} [DecidableEq α] (f : String × String → Except PyErr α) (tag : Nat → Issue) (first : α) :
    Nat → List (String × String) → Except PyErr (List Issue)
  | _, [] => .ok []
  | i, x :: rest => match f x with
    | .error e => .error e
    | .ok v => match laterIssues f tag first (i + 1) rest with
      | .error e => .error e
      | .ok r => .ok ((if v ≠ first then [tag i] else []) ++ r)

/-- `_check_digest_size_mismatch`, `_check_hash_family_mismatch`, `_check_winternitz_parameter_mismatch` (119-200). -/
def mismatchIssues {α : Type} [DecidableEq α] (f : String × String → Except PyErr α) (tag : Nat → Issue) :
    List (String × String) → Except PyErr (List Issue)
  | [] => .ok []
  | x :: rest => match f x with
    | .error e => .error e
    | .ok first => laterIssues f tag first 1 rest

def familyOf (x : String × String) : Except PyErr String := (parseLms x.1).map (·.hash)
def digestOf (x : String × String) : Except PyErr Nat := (parseLmots x.2).map (·.n)
def winternitzOf (x : String × String) : Except PyErr Nat := (parseLmots x.2).map (·.w)

/-- `validate_hss_key_levels` (203-222); `lower` is Python's `str.lower`. -/
def validateLevels (lower : String → String) (levels : List (String × String)) (enforceLw : Bool) : Except PyErr Unit :=
  let norm := levels.map fun x => (lower x.1, lower x.2)
  match configIssues norm with
  | .error e => .error e
  | .ok issues =>
    let more : Except PyErr (List Issue) :=
      if !enforceLw && decide (1 < levels.length) then
        match mismatchIssues familyOf .family norm with
        | .error e => .error e
        | .ok a => match mismatchIssues digestOf .digest norm with
          | .error e => .error e
          | .ok b => match mismatchIssues winternitzOf .winternitz norm with
            | .error e => .error e
            | .ok c => .ok (a ++ b ++ c)
      else .ok []
    match more with
    | .error e => .error e
    | .ok more => if issues ++ more = [] then .ok () else .error .invalidKeyData

/-- `validate_hss_key` (225-239) of a public key: the flag that allows different hashes per level is passed on as
`enforce_lw`. -/
def validateHssKey (lower : String → String) (k : HssPub) (allowDiff : Bool) : Except PyErr Unit :=
  match levelNames k with
  | .error e => .error e
  | .ok levels => validateLevels lower levels allowDiff

/-! ## Approval (`resources/ca_ra_utils.py`) -/

/-- `is_nist_approved_xmssmt` (1398-1402). -/
def approvedXmssmt (name : String) : Bool :=
  (startsWith name "xmssmt-sha2_" || startsWith name "xmssmt-shake256_") && (endsWith name "_256" || endsWith name "_192")

/-- `is_nist_approved_xmss` (1405-1409). -/
def approvedXmss (name : String) : Bool :=
  (startsWith name "xmss-sha2_" || startsWith name "xmss-shake256_") && (endsWith name "_256" || endsWith name "_192")

/-- A loaded stateful public key. -/
inductive AnyPub
  | xmss (k : Pub)
  | xmssmt (k : Pub)
  | hss (k : HssPub)
deriving DecidableEq, Repr

def AnyPub.name : AnyPub → String
  | .xmss k => k.name
  | .xmssmt k => k.name
  | .hss k => k.name

/-- `PQHashStatefulSigPublicKey.get_oid` (abstract_stateful_hash_sig.py 17-23): the family name whose object identifier is
returned; the three identifiers of `PQ_STATEFUL_HASH_SIG_NAME_2_OID` are different. -/
def oidName (name : String) : Except PyErr String :=
  let sep := if startsWith name "xmss-" || startsWith name "xmssmt-" then '-' else '_'
  match splitChar sep name.toList with
  | [] => .error .indexError
  | f :: _ => if String.ofList f ∈ ["xmss", "xmssmt", "hss"] then .ok (String.ofList f) else .error .keyError

/-- `_validate_pq_hash_stateful_sig_pub_key` (1412-1464): `alg` names the algorithm identifier of the template, `params` tells
whether its parameters are present; `enforceLwcmp` is the keyword argument. -/
def validateTemplateKey (lower : String → String) (k : AnyPub) (alg : String) (params enforceLwcmp : Bool) :
    Except PyErr Unit :=
  if params then .error .badCertTemplate
  else match oidName k.name with
    | .error e => .error e
    | .ok oid =>
      if alg ≠ oid then .error .badCertTemplate
      else if startsWith k.name "xmss-" then
        if !approvedXmss k.name then .error .badCertTemplate else .ok ()
      else if startsWith k.name "xmssmt-" then
        if !approvedXmssmt k.name then .error .badCertTemplate else .ok ()
      else if startsWith k.name "hss" then
        match k with
        | .hss k => match validateHssKey lower k (false || enforceLwcmp) with
          | .error .invalidKeyData => .error .badCertTemplate
          | r => r
        | _ => .error .invalidKeyData
      else .error .notImplemented

/-- `PQStatefulSigFactory.load_public_key_from_spki` (pq_stateful_sig_factory.py 111-131): `alg` is
`PQ_STATEFUL_HASH_SIG_OID_2_NAME[oid]`, `none` its `KeyError`. -/
def loadSpki (o : Oqs) (deser : Bytes → Option HssPubData) (alg : Option String) (params : Bool) (data : Bytes) :
    Except PyErr AnyPub :=
  match alg with
  | none => .error .keyError
  | some alg =>
    if params then .error .invalidKeyData
    else if alg = "xmss" then (xmssPubLoad o data).map .xmss
    else if alg = "xmssmt" then (xmssmtPubLoad o data).map .xmssmt
    else if alg = "hss" then (hssPubLoad deser data).map .hss
    else .error .valueError

end Verif.PQ.Stfl
