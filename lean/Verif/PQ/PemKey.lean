import Verif.CA.Msg

/-!
# Private keys in PEM files

* `resources/keyutils.py`: `save_key` (88-155) as far as the file format is concerned, `_extract_pem_private_key_block`
  (398-415), `load_private_key_from_file` (418-501);
* `pq_logic/keys/key_pyasn1_utils.py`: `compute_aes_cbc` (31-60), `CUSTOM_KEY_TYPES` (72-90), `load_enc_key` (95-145),
  `derive_and_encrypt_key` (148-176);
* `pq_logic/keys/serialize_utils.py`: `prepare_enc_key_pem` (21-46);
* `pq_logic/combined_factory.py`: the armour of `save_private_key_one_asym_key` (727-739), the same as in
  `pq_logic/keys/abstract_wrapper_keys.py` 238-253; the armour of public keys (abstract_wrapper_keys.py 178-188);
* `resources/utils.py`: `decode_pem_string` (129-157), `load_and_decode_pem_file` (160-191).

Texts are lists of characters that stand for bytes (all below 256). Base64, the hexadecimal numbers, the padding, the lines
and the search for the block are modelled in full; the key derivation and AES-CBC on whole blocks are parameters. That
`textwrap.wrap` cuts a text without blanks and hyphens into pieces of 64 characters is taken from its documentation.
-/

namespace Verif.PQ.Pem

open Verif.CA (Bytes PyErr)

abbrev Text := List Char

/-! ## Base64 -/

/-- The alphabet. -/
def b64Char (n : Nat) : Char :=
  if n < 26 then Char.ofNat (65 + n)
  else if n < 52 then Char.ofNat (97 + (n - 26))
  else if n < 62 then Char.ofNat (48 + (n - 52))
  else if n = 62 then '+' else '/'

def b64Val (c : Char) : Option Nat :=
  let n := c.toNat
  if 65 ≤ n ∧ n ≤ 90 then some (n - 65)
  else if 97 ≤ n ∧ n ≤ 122 then some (n - 97 + 26)
  else if 48 ≤ n ∧ n ≤ 57 then some (n - 48 + 52)
  else if n = 43 then some 62
  else if n = 47 then some 63
  else none

/-- `base64.b64encode`. -/
def b64encode : Bytes → Text
  | [] => []
  | [a] => [b64Char (a.toNat / 4), b64Char (a.toNat % 4 * 16), '=', '=']
  | [a, b] => [b64Char (a.toNat / 4), b64Char (a.toNat % 4 * 16 + b.toNat / 16), b64Char (b.toNat % 16 * 4), '=']
  | a :: b :: c :: rest =>
    b64Char (a.toNat / 4) :: b64Char (a.toNat % 4 * 16 + b.toNat / 16) :: b64Char (b.toNat % 16 * 4 + c.toNat / 64) ::
      b64Char (c.toNat % 64) :: b64encode rest

/-- `binascii.a2b_base64` without `strict_mode`: `q` characters of the current group have been read, `left` are the bits not
yet output, `pads` counts the equal signs. Characters outside of the alphabet are passed over; a complete padding ends the
input. -/
def b64go : Text → Nat → Nat → Nat → Except PyErr Bytes
  | [], q, _, _ => if q = 0 then .ok [] else .error .valueError
  | c :: rest, q, left, pads =>
    if c = '=' then
      if 2 ≤ q then
        if 4 ≤ q + (pads + 1) then .ok [] else b64go rest q left (pads + 1)
      else b64go rest q left pads
    else
      match b64Val c with
      | none => b64go rest q left pads
      | some v =>
        if q = 0 then b64go rest 1 v 0
        else if q = 1 then (b64go rest 2 (v % 16) 0).map (UInt8.ofNat (left * 4 + v / 16) :: ·)
        else if q = 2 then (b64go rest 3 (v % 4) 0).map (UInt8.ofNat (left * 16 + v / 4) :: ·)
        else (b64go rest 0 0 0).map (UInt8.ofNat (left * 64 + v) :: ·)

/-- `base64.b64decode(s)`. -/
def b64decode (s : Text) : Except PyErr Bytes := b64go s 0 0 0

/-! ## Hexadecimal numbers -/

def hexDigit (n : Nat) : Char := if n < 10 then Char.ofNat (48 + n) else Char.ofNat (55 + n)

def hexVal (c : Char) : Option Nat :=
  let n := c.toNat
  if 48 ≤ n ∧ n ≤ 57 then some (n - 48)
  else if 65 ≤ n ∧ n ≤ 70 then some (n - 55)
  else if 97 ≤ n ∧ n ≤ 102 then some (n - 87)
  else none

/-- `iv.hex().upper()`. -/
def hexUpper : Bytes → Text
  | [] => []
  | b :: rest => hexDigit (b.toNat / 16) :: hexDigit (b.toNat % 16) :: hexUpper rest

/-- ASCII white space. -/
def isSpace (c : Char) : Bool := c = ' ' || (9 ≤ c.toNat && c.toNat ≤ 13)

/-- `bytes.fromhex`: white space is allowed in front of each pair. -/
def fromHex : Text → Except PyErr Bytes
  | [] => .ok []
  | [c] => if isSpace c then .ok [] else .error .valueError
  | c :: d :: rest =>
    if isSpace c then fromHex (d :: rest)
    else
      match hexVal c, hexVal d with
      | some h, some l => (fromHex rest).map (UInt8.ofNat (h * 16 + l) :: ·)
      | _, _ => .error .valueError

/-! ## Lines and substrings -/

/-- `splitlines()`; `extra` are the separators of one character besides line feed and carriage return. -/
def splitLines (extra : Char → Bool) : Text → Text → List Text
  | cur, [] => if cur.isEmpty then [] else [cur.reverse]
  | cur, [c] => if c = '\n' || c = '\r' || extra c then [cur.reverse] else [(c :: cur).reverse]
  | cur, c :: d :: rest =>
    if c = '\r' && d = '\n' then cur.reverse :: splitLines extra [] rest
    else if c = '\n' || c = '\r' || extra c then cur.reverse :: splitLines extra [] (d :: rest)
    else splitLines extra (c :: cur) (d :: rest)

/-- `bytes.splitlines()`. -/
def bytesLines (s : Text) : List Text := splitLines (fun _ => false) [] s

/-- `str.splitlines()` of an ASCII string. -/
def strLines (s : Text) : List Text :=
  splitLines (fun c => c.toNat = 11 || c.toNat = 12 || (28 ≤ c.toNat && c.toNat ≤ 30)) [] s

/-- `needle in text`. -/
def hasSub (needle : Text) : Text → Bool
  | [] => needle.isEmpty
  | c :: rest => needle.isPrefixOf (c :: rest) || hasSub needle rest

/-- The text in front of the first occurrence. -/
def before (needle : Text) : Text → Option Text
  | [] => if needle.isEmpty then some [] else none
  | c :: rest => if needle.isPrefixOf (c :: rest) then some [] else (before needle rest).map (c :: ·)

/-- `s.split(sep)` for one character. -/
def splitOn (sep : Char) : Text → List Text
  | [] => [[]]
  | c :: rest =>
    if c = sep then [] :: splitOn sep rest
    else
      match splitOn sep rest with
      | [] => [[c]]
      | p :: ps => (c :: p) :: ps

/-- `rstrip()`. -/
def rstrip (s : Text) : Text := (s.reverse.dropWhile isSpace).reverse

/-- `textwrap.wrap(s, width=64)` of a text without blanks and hyphens; the first argument is the fuel. -/
def chunks : Nat → Text → List Text
  | 0, _ => []
  | _ + 1, [] => []
  | n + 1, s => s.take 64 :: chunks n (s.drop 64)

def wrap (s : Text) : List Text := chunks s.length s

/-- `"\n".join(…).split("\n")` of the pieces: one empty line if there are none. -/
def wrapLines (s : Text) : List Text := if s.isEmpty then [[]] else wrap s

/-- `"\n".join(lines)`. -/
def joinLines : List Text → Text
  | [] => []
  | [l] => l
  | l :: rest => l ++ '\n' :: joinLines rest

/-! ## Encryption -/

structure Cipher where
  /-- PBKDF2 with SHA-256, 100000 rounds and 32 bytes: password, salt -/
  kdf : String → Bytes → Bytes
  /-- AES in CBC mode on whole blocks: key, initialisation vector, data -/
  enc : Bytes → Bytes → Bytes → Bytes
  dec : Bytes → Bytes → Bytes → Bytes

/-- PKCS7 padding to 16 bytes. -/
def pad (d : Bytes) : Bytes := d ++ List.replicate (16 - d.length % 16) (UInt8.ofNat (16 - d.length % 16))

/-- PKCS7 unpadding of whole blocks. -/
def unpad (d : Bytes) : Except PyErr Bytes :=
  match d.getLast? with
  | none => .error .valueError
  | some p =>
    if 1 ≤ p.toNat ∧ p.toNat ≤ 16 ∧ d.drop (d.length - p.toNat) = List.replicate p.toNat p then
      .ok (d.take (d.length - p.toNat))
    else .error .valueError

/-- `compute_aes_cbc` (31-60). -/
def aesCbc (ci : Cipher) (key data iv : Bytes) (decrypt : Bool) : Except PyErr Bytes :=
  if iv.length ≠ 16 then .error .valueError
  else if decrypt then
    if data.length % 16 ≠ 0 then .error .valueError else unpad (ci.dec key iv data)
  else .ok (ci.enc key iv (pad data))

/-- `derive_and_encrypt_key` (148-176); `random` is `os.urandom(16)`. -/
def deriveAndEncrypt (ci : Cipher) (random : Bytes) (password : String) (data : Bytes) (decrypt : Bool)
    (iv : Option Bytes) : Except PyErr (Bytes × Bytes) :=
  match iv with
  | none =>
    if decrypt then .error .valueError
    else (aesCbc ci (ci.kdf password random) data random decrypt).map (·, random)
  | some iv => (aesCbc ci (ci.kdf password iv) data iv decrypt).map (·, iv)

/-! ## Writing -/

def beginMark : Text := "-----BEGIN ".toList
def endMark : Text := "-----END ".toList
def keyTail : Text := " PRIVATE KEY-----".toList

/-- The first and the last line. -/
def beginLine (name : Text) : Text := beginMark ++ name ++ keyTail
def endLine (name : Text) : Text := endMark ++ name ++ keyTail

/-- `prepare_enc_key_pem` (21-46). -/
def encPem (ci : Cipher) (random : Bytes) (password : String) (der : Bytes) (name : Text) : Except PyErr Text :=
  match deriveAndEncrypt ci random password der false none with
  | .error e => .error e
  | .ok (data, iv) =>
    .ok (joinLines ([beginLine name, "Proc-Type: 4,ENCRYPTED".toList,
      "DEK-Info: AES-256-CBC,".toList ++ hexUpper iv, []] ++ wrapLines (b64encode data) ++ [endLine name, []]))

/-- The armour without encryption (combined_factory.py 730-739). -/
def plainPem (der : Bytes) (name : Text) : Text :=
  beginLine name ++ '\n' :: joinLines (wrap (b64encode der)) ++ '\n' :: endLine name ++ ['\n']

/-- The armour of a public key (abstract_wrapper_keys.py 184-188): the name is a `bytes` object in a format string, so that
its representation is printed. -/
def publicPem (der : Bytes) (name : Text) : Text :=
  let shown := "b'".toList ++ name ++ ['\'']
  beginMark ++ shown ++ " PUBLIC KEY-----\n".toList ++ joinLines (wrap (b64encode der)) ++
    "\n-----END ".toList ++ shown ++ " PUBLIC KEY-----\n".toList

/-- What `save_key` (88-155) writes for a key that is not a traditional one: encrypted unless the password is `None`. -/
def saveKey (ci : Cipher) (random : Bytes) (password : Option String) (der : Bytes) (name : Text) : Except PyErr Text :=
  match password with
  | some pw => encPem ci random pw der name
  | none => .ok (plainPem der name)

/-! ## Reading -/

/-- The ciphers that the header may name (124). -/
def cipherNames : List Text := ["AES-256-CBC".toList, "AES-192-CBC".toList, "AES-128-CBC".toList]

/-- The DEK-Info line (116-128): the initialisation vector. -/
def dekInfo (line : Text) : Except PyErr Bytes :=
  if !"DEK-Info:".toList.isPrefixOf line then .error .valueError
  else
    match before ": ".toList line with
    | none => .error .valueError
    | some pre =>
      match splitOn ',' (line.drop (pre.length + 2)) with
      | [algo, ivHex] =>
        if !cipherNames.contains algo then .error .valueError
        else
          match fromHex ivHex with
          | .error e => .error e
          | .ok iv => if iv.length ≠ 16 then .error .valueError else .ok iv
      | _ => .error .valueError

/-- The loop over the lines of the body (133-139). -/
def bodyLines : List Text → List Text
  | [] => []
  | l :: rest => if endMark.isPrefixOf l then [] else l :: bodyLines rest

/-- An empty line behind the header is passed over (130-131). -/
def dropBlank : List Text → List Text
  | [] => []
  | l :: rest => if l.all isSpace then rest else l :: rest

/-- From the DEK-Info line on (115-145). -/
def loadBody (ci : Cipher) (password : String) : List Text → Except PyErr Bytes
  | [] => .error .indexError
  | dek :: rest =>
    match dekInfo dek with
    | .error e => .error e
    | .ok iv =>
      match b64decode (bodyLines (dropBlank rest)).flatten with
      | .error e => .error e
      | .ok data => (deriveAndEncrypt ci [] password data true (some iv)).map (·.1)

/-- `begin_line` (106-108). -/
def goodBegin (l : Text) : Bool := beginMark.isPrefixOf (rstrip l) && keyTail.isSuffixOf (rstrip l)

/-- `load_enc_key` (95-145). -/
def loadEncKey (ci : Cipher) (password : String) (data : Text) : Except PyErr Bytes :=
  match bytesLines data with
  | [] => .error .indexError
  | first :: rest =>
    if !goodBegin first then .error .valueError
    else
      match rest with
      | [] => .error .indexError
      | second :: more =>
        if "Proc-Type:".toList.isPrefixOf second then loadBody ci password more else loadBody ci password (second :: more)

/-- White space of ASCII strings, which includes the four separators. -/
def isStrSpace (c : Char) : Bool := isSpace c || (28 ≤ c.toNat && c.toNat ≤ 31)

/-- The lines without comments and blank lines (utils.py 141-148, 176-182). -/
def cosmetic (lines : List Text) : List Text := lines.filter fun l => !("#".toList.isPrefixOf l || l.all isStrSpace)

/-- The rest of the two functions (150-157, 184-191). -/
def decodeLines (lines : List Text) : Except PyErr Bytes :=
  match cosmetic lines with
  | [] => .error .indexError
  | l :: rest => if hasSub "-----BEGIN".toList l then b64decode (rest.dropLast).flatten else b64decode (l :: rest).flatten

/-- `decode("ascii")`. -/
def isAscii (s : Text) : Bool := s.all fun c => c.toNat < 128

/-- `decode_pem_string` (129-157). -/
def decodePem (s : Text) : Except PyErr Bytes := if isAscii s then decodeLines (strLines s) else .error .valueError

/-- `load_and_decode_pem_file` (160-191) of the contents of the file. The line ends are kept by `readlines`; Base64 passes
over them. -/
def decodePemFile (s : Text) : Except PyErr Bytes := if isAscii s then decodeLines (bytesLines s) else .error .valueError

/-- `[A-Za-z0-9-]`. -/
def nameChar (c : Char) : Bool := c.isAlphanum || c = '-'

/-- The pattern at one place (404-409): `.*?` ends at the first fitting end. -/
def blockAt (s : Text) : Option Text :=
  if beginMark.isPrefixOf s then
    let r := s.drop beginMark.length
    let name := r.takeWhile nameChar
    let r2 := r.drop name.length
    if !name.isEmpty && keyTail.isPrefixOf r2 then
      (before (endLine name) (r2.drop keyTail.length)).map fun body => beginLine name ++ body ++ endLine name
    else none
  else none

/-- `_extract_pem_private_key_block` (398-415); `none` for the empty answer. -/
def findBlock : Text → Option Text
  | [] => none
  | c :: rest =>
    match blockAt (c :: rest) with
    | some b => some b
    | none => findBlock rest

/-- `CUSTOM_KEY_TYPES` (72-90). -/
def customTypes : List Text :=
  ["SNTRUP761", "McEliece", "SLH-DSA", "COMPOSITE-SIG", "COMPOSITE-KEM", "COMPOSITE-DHKEM", "FrodoKEM", "XWING", "ML-DSA",
   "ML-KEM", "RSA-KEM", "CHEMPAT", "BASE", "PQ", "XMSS", "XMSSMT", "HSS"].map String.toList

/-- `_get_header_name` of the private key classes: xwing.py 167, stateful_sig_keys.py 517, 779, 1117, trad_kem_keys.py 136,
sig_keys.py 316, 647, 848, kem_keys.py 160, 350, 410, 557, composite_kem.py 322; composite signature, composite KEM and
Chempat keys inherit that of `BaseKey` (abstract_wrapper_keys.py 116). -/
def headerNames : List Text :=
  ["XWING", "XMSS", "XMSSMT", "HSS", "RSA-KEM", "ML-DSA", "SLH-DSA", "FALCON", "ML-KEM", "McEliece", "SNTRUP761",
   "FrodoKEM", "COMPOSITE-DHKEM", "BASE"].map String.toList

/-- The test for an own key type (454). -/
def isCustom (s : Text) : Bool := customTypes.any fun k => hasSub (beginLine k) s

structure Loader (K : Type) where
  /-- `CombinedKeyFactory.load_private_key_from_one_asym_key` -/
  parse : Bytes → Except PyErr K
  /-- `cryptography`'s `load_der_private_key` with the password -/
  loadDer : Bytes → Option String → Except PyErr K
  /-- the rest (473-492) for decoded data that itself contains the text `SPDX-License` or an armour line -/
  odd : Bytes → Option String → Except PyErr K

def asText (b : Bytes) : Text := b.map fun x => Char.ofNat x.toNat

/-- Whether decoded data contains the text `SPDX-License` or an armour line. -/
def oddData (b : Bytes) : Bool := hasSub "SPDX-License".toList (asText b) || isCustom (asText b)

/-- The part for other keys (463-501): a `ValueError` leads to a second attempt with the same arguments. -/
def loadOther {K : Type} (ld : Loader K) (text : Text) (password : Option String) : Except PyErr K :=
  match decodePemFile text with
  | .error e => .error e
  | .ok der =>
    match ld.loadDer der password with
    | .ok k => .ok k
    | .error .valueError => if oddData der then ld.odd der password else ld.loadDer der password
    | .error e => .error e

/-- `load_private_key_from_file` (418-501) of the contents of the file. -/
def loadFile {K : Type} (ci : Cipher) (ld : Loader K) (text : Text) (password : Option String) : Except PyErr K :=
  match findBlock text with
  | some out =>
    if isCustom out then
      match password with
      | some pw =>
        match loadEncKey ci pw out with
        | .error e => .error e
        | .ok der => ld.parse der
      | none =>
        match decodePem out with
        | .error e => .error e
        | .ok der => ld.parse der
    else loadOther ld text password
  | none => loadOther ld text password

end Verif.PQ.Pem
