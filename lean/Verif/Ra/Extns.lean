import Verif.CA.Base

/-!
# The extensions of an issued certificate (resources/certbuildutils.py 2279-2856, 3235-3386, 1686-1751, 1797-1947)

The decoding and encoding of the values of extensions are functions of the environment. Simplified: the subject, the key
and the validity of a certificate are not part of the result; requests are templates and PKCS#10 requests only.
-/

namespace Verif.Ra

open Verif.CA (PyErr)

/-- `rfc5280.Extension`. -/
structure Ext where
  oid : List Nat
  critical : Bool
  value : List UInt8
  deriving DecidableEq, Repr

/-- The named bits of `rfc5280.KeyUsage`, `certbuildutils.py` 2298-2308. -/
inductive Use where
  | digitalSignature
  | nonRepudiation
  | keyEncipherment
  | dataEncipherment
  | keyAgreement
  | keyCertSign
  | cRLSign
  | encipherOnly
  | decipherOnly
  deriving DecidableEq, Repr

/-- The order of the named bits. -/
def useOrder : List Use :=
  [.digitalSignature, .nonRepudiation, .keyEncipherment, .dataEncipherment, .keyAgreement, .keyCertSign, .cRLSign,
    .encipherOnly, .decipherOnly]

/-- `asn1utils.py` 561-575, `get_set_bitstring_names`. -/
def usesFrom : List Use → List Bool → List Use
  | u :: us, b :: bs => if b then u :: usesFrom us bs else usesFrom us bs
  | _, _ => []

/-- `rfc5280.BasicConstraints`. -/
structure Basic where
  ca : Bool
  pathLen : Option Int
  deriving DecidableEq, Repr

/-- `rfc5280.AuthorityKeyIdentifier`. -/
structure Aki (G : Type) where
  keyId : Option (List UInt8)
  issuer : Option G
  serial : Option Int

/-- What `_verify_key_usage` distinguishes of a key (`certbuildutils.py` 2395-2417, `oid_mapping.py` 50-67): a KEM key, another
key with a name (for signatures or not), and the traditional keys; `unmapped` is not in `KEY_CLASS_MAPPING`. -/
inductive UseCls where
  | kem
  | namedSig
  | named
  | edDsa
  | ec
  | rsa
  | xdh
  | unmapped
  deriving DecidableEq, Repr

/-- What is external: the codecs of the values and the key identifiers. -/
structure ExtEnv (K G N : Type) where
  cls : K → UseCls
  decUsage : List UInt8 → Option (List Bool × List UInt8)
  decAki : List UInt8 → Option (Aki G × List UInt8)
  decEku : List UInt8 → Option (Unit × List UInt8)
  decBasic : List UInt8 → Option (Basic × List UInt8)
  decSan : List UInt8 → Option (G × List UInt8)
  decSki : List UInt8 → Option (List UInt8 × List UInt8)
  encUses : List Use → List UInt8
  encAki : List UInt8 → List UInt8
  encSan : G → List UInt8
  encSki : List UInt8 → List UInt8
  ski : K → Except PyErr (List UInt8)
  hasName : G → N → Bool

/-- The extensions of a request: the field of a template, or the attribute of a PKCS#10 request, if there is one. -/
inductive ReqExts where
  | template (l : List Ext)
  | csr (l : Option (List Ext))

/-- What is used of a request: the extensions, whether the public key has a value, an ECDH or ECMQV algorithm, or one with a
hash, the loaded key, and whether the subject is the Null-DN. -/
structure Src (K : Type) where
  exts : ReqExts
  spki : Bool
  ecdh : Bool
  preHash : Bool
  key : Except PyErr K
  nullDn : Bool

/-- `certbuildutils.py` 3235-3277, `parse_extension_and_public_key`: those of a template always have a value, because of
`extend`; an empty list of a PKCS#10 request is replaced by a list without a value. -/
def ReqExts.parse : ReqExts → Option (List Ext)
  | .template l => some l
  | .csr none => none
  | .csr (some []) => none
  | .csr (some (e :: l)) => some (e :: l)

/-- `certextractutils.py` 118-143, `get_extension`. -/
def getExt (l : List Ext) (oid : List Nat) : Option Ext := l.find? (fun e => decide (e.oid = oid))

/-- `rfc5280.id_ce_subjectKeyIdentifier`. -/
def skiOid : List Nat := [2, 5, 29, 14]
/-- `rfc5280.id_ce_keyUsage`. -/
def usageOid : List Nat := [2, 5, 29, 15]
/-- `rfc5280.id_ce_subjectAltName`. -/
def sanOid : List Nat := [2, 5, 29, 17]
/-- `rfc5280.id_ce_basicConstraints`. -/
def basicOid : List Nat := [2, 5, 29, 19]
/-- `rfc5280.id_ce_authorityKeyIdentifier`. -/
def akiOid : List Nat := [2, 5, 29, 35]
/-- `rfc5280.id_ce_extKeyUsage`. -/
def ekuOid : List Nat := [2, 5, 29, 37]

/-- `certbuildutils.py` 2279-2295, `_try_decode_extension_val`, with `certextractutils.py` 177-207: bytes after the value are
an error. -/
def tryDecode {X : Type} (dec : List UInt8 → Option (X × List UInt8)) (l : List Ext) (oid : List Nat) :
    Except PyErr (Option X) :=
  match getExt l oid with
  | none => .ok none
  | some e =>
    match dec e.value with
    | none => .error .badAsn1Data
    | some (x, rest) => if rest ≠ [] then .error .badAsn1Data else .ok (some x)

variable {K G N : Type}

/-! ## Key usage -/

/-- `certbuildutils.py` 2311-2323, `_check_sig_key`; no usage is the set of the empty name. -/
def sigUses (u : List Use) : Except PyErr Unit :=
  if u = [] then .error .badCertTemplate
  else if u.all (fun x => x ∈ [.digitalSignature, .nonRepudiation, .keyCertSign, .cRLSign]) = false then
    .error .badCertTemplate
  else if u.any (fun x => x ∈ [.keyEncipherment, .dataEncipherment, .keyAgreement, .encipherOnly, .decipherOnly]) then
    .error .badCertTemplate
  else .ok ()

/-- `certbuildutils.py` 2334-2340 and 2352-2357: `encipherOnly` and `decipherOnly`. -/
def onlyUses (u : List Use) : Except PyErr Unit :=
  if (.encipherOnly ∈ u ∨ .decipherOnly ∈ u) ∧ .keyAgreement ∉ u then .error .badCertTemplate
  else if .encipherOnly ∈ u ∨ .decipherOnly ∈ u then .error .badCertTemplate
  else .ok ()

/-- `certbuildutils.py` 2326-2340, `_check_ecc_key_usage`. -/
def ecUses (u : List Use) : Except PyErr Unit :=
  if .keyEncipherment ∈ u ∨ .dataEncipherment ∈ u then .error .badCertTemplate
  else onlyUses u

/-- `certbuildutils.py` 2343-2357, `_check_x_ecc_key_usage`. -/
def xUses (u : List Use) : Except PyErr Unit :=
  if u.any (fun x => x ∉ [.decipherOnly, .encipherOnly, .keyAgreement]) then .error .badCertTemplate
  else onlyUses u

/-- `certbuildutils.py` 2395-2417; `ecdh`: the names of the algorithms ECDH and ECMQV (2388-2391) are in none of the lists. -/
def usesFor (ecdh : Bool) (c : UseCls) (u : List Use) : Except PyErr Unit :=
  match c with
  | .kem => if u = [.keyEncipherment] then .ok () else .error .badCertTemplate
  | .namedSig => sigUses u
  | .named => .error .valueError
  | .edDsa => if ecdh then .error .valueError else sigUses u
  | .ec => if ecdh then .error .valueError else ecUses u
  | .rsa => if ecdh then .error .valueError else .ok ()
  | .xdh => if ecdh then .error .valueError else xUses u
  | .unmapped => if ecdh then .error .valueError else .error .keyError

/-- `certbuildutils.py` 2378-2422: the usage for the key. -/
def usageFor (env : ExtEnv K G N) (s : Src K) (bits : List Bool) : Except PyErr (Option Ext) :=
  if s.spki = false then .error .valueError
  else match s.key with
    | .error e => .error e
    | .ok k =>
      match usesFor s.ecdh (env.cls k) (usesFrom useOrder bits) with
      | .error e => .error e
      | .ok () => .ok (some ⟨usageOid, true, env.encUses (usesFrom useOrder bits)⟩)

/-- `certbuildutils.py` 2360-2422, `_verify_key_usage`. -/
def verifyUsage (env : ExtEnv K G N) (s : Src K) : Except PyErr (Option Ext) :=
  match s.exts.parse with
  | none => .ok none
  | some l =>
    match tryDecode env.decUsage l usageOid with
    | .error e => .error e
    | .ok none => .ok none
    | .ok (some bits) => usageFor env s bits

/-! ## The other extensions -/

/-- `certbuildutils.py` 3358-3386 with the arguments of 2816: the identifier is decoded without a look at the bytes after it. -/
def skiFor (env : ExtEnv K G N) (k : K) (e : Ext) : Except PyErr (Option Ext) :=
  match env.decSki e.value with
  | none => .error .badAsn1Data
  | some (d, _) =>
    match env.ski k with
    | .error x => .error x
    | .ok d' => if d ≠ d' then .error .badCertTemplate else .ok (some e)

/-- `certbuildutils.py` 3323-3386, `validate_subject_key_identifier_extension`, as called in 2816. -/
def verifySki (env : ExtEnv K G N) (s : Src K) : Except PyErr (Option Ext) :=
  match s.key with
  | .error e => .error e
  | .ok k =>
    match s.exts.parse with
    | none => .ok none
    | some l =>
      match getExt l skiOid with
      | none => .ok none
      | some e => skiFor env k e

/-- The CA: the identifier of its key, and the subject and serial number of the certificate, if it is given. -/
structure AkiCa (N : Type) where
  kid : Except PyErr (List UInt8)
  cert : Option (N × Int)

/-- `certbuildutils.py` 434-517, `prepare_authority_key_identifier_extension`, with the identifier only. -/
def mkAki (env : ExtEnv K G N) (ca : AkiCa N) : Except PyErr (Option Ext) :=
  match ca.kid with
  | .error e => .error e
  | .ok d => .ok (some ⟨akiOid, false, env.encAki d⟩)

/-- `certbuildutils.py` 2447-2453: the identifier of the key. -/
def akiKid (ca : AkiCa N) (a : Aki G) : Except PyErr Unit :=
  match a.keyId with
  | none => .ok ()
  | some d =>
    match ca.kid with
    | .error e => .error e
    | .ok d' => if d' ≠ d then .error .badCertTemplate else .ok ()

/-- `certbuildutils.py` 2467-2481: the name and the serial number of the CA. -/
def akiCert (env : ExtEnv K G N) (n : N) (serial : Int) (a : Aki G) : Except PyErr Unit :=
  if a.issuer.any (fun g => !(env.hasName g n)) then .error .badCertTemplate
  else if a.serial.any (fun x => decide (x ≠ serial)) then .error .badCertTemplate
  else .ok ()

/-- `certbuildutils.py` 2447-2486: the requested identifier. -/
def akiFor (env : ExtEnv K G N) (ca : AkiCa N) (a : Aki G) : Except PyErr (Option Ext) :=
  match akiKid ca a with
  | .error e => .error e
  | .ok () =>
    match ca.cert with
    | none => if a.issuer.isSome ∨ a.serial.isSome then .error .valueError else mkAki env ca
    | some (n, serial) =>
      match akiCert env n serial a with
      | .error e => .error e
      | .ok () => mkAki env ca

/-- `certbuildutils.py` 2425-2486, `_verify_authority_key_identifier`: a PKCS#10 request has no field `extensions` (2437). -/
def verifyAki (env : ExtEnv K G N) (ca : AkiCa N) (s : Src K) : Except PyErr (Option Ext) :=
  match s.exts.parse with
  | none => mkAki env ca
  | some _ =>
    match s.exts with
    | .csr _ => .error .keyError
    | .template l =>
      match tryDecode env.decAki l akiOid with
      | .error e => .error e
      | .ok none => .ok none
      | .ok (some a) => akiFor env ca a

/-- `certbuildutils.py` 2489-2510, `_verify_extended_key_usage`. -/
def verifyEku (env : ExtEnv K G N) (s : Src K) : Except PyErr (Option Ext) :=
  match s.exts.parse with
  | none => .ok none
  | some l =>
    match tryDecode env.decEku l ekuOid with
    | .error e => .error e
    | .ok _ => .ok (getExt l ekuOid)

/-- `certbuildutils.py` 2571-2581; the test in 2565 is never true, because a `Boolean` is not the object `False`. -/
def pathOk (b : Basic) : Except PyErr Unit :=
  match b.pathLen with
  | none => .ok ()
  | some n =>
    if b.ca = true ∧ n ≤ 0 then .error .badCertTemplate
    else if b.ca = false ∧ n > 0 then .error .badCertTemplate
    else .ok ()

/-- `certbuildutils.py` 2583-2605: algorithms with a hash, and the criticality. -/
def basicFor (s : Src K) (allowNonCrit : Bool) (b : Basic) (e : Option Ext) : Except PyErr (Option Ext) :=
  if s.spki = true ∧ s.preHash = true ∧ b.ca = true then .error .badCertTemplate
  else match e with
    | none => .ok none
    | some e => if allowNonCrit = false ∧ e.critical = false then .error .badCertTemplate else .ok (some e)

/-- `certbuildutils.py` 2513-2605, `verify_ca_basic_constraints`, for a request. -/
def verifyBasic (env : ExtEnv K G N) (s : Src K) (allowNonCrit : Bool) : Except PyErr (Option Ext) :=
  match s.exts.parse with
  | none => .ok none
  | some l =>
    match tryDecode env.decBasic l basicOid with
    | .error e => .error e
    | .ok none => .ok none
    | .ok (some b) =>
      match pathOk b with
      | .error e => .error e
      | .ok () => basicFor s allowNonCrit b (getExt l basicOid)

/-- `certbuildutils.py` 2608-2655, `_verify_subject_alt_name`. -/
def verifySan (env : ExtEnv K G N) (s : Src K) : Except PyErr (Option Ext) :=
  match s.exts.parse with
  | none => if s.nullDn then .error .badCertTemplate else .ok none
  | some l =>
    match tryDecode env.decSan l sanOid with
    | .error e => .error e
    | .ok none => if s.nullDn then .error .badCertTemplate else .ok none
    | .ok (some g) => .ok (some ⟨sanOid, s.nullDn, env.encSan g⟩)

/-! ## All extensions -/

/-- `oidutils.py` 784-805, the values of `EXTENSION_NAME_2_OID`. -/
def knownExts : List (List Nat) :=
  [[2, 5, 29, 14], [1, 3, 6, 1, 5, 5, 7, 1, 1], [2, 5, 29, 15], [2, 5, 29, 37], [2, 5, 29, 19], [2, 5, 29, 35],
    [2, 5, 29, 17], [2, 5, 29, 18], [2, 16, 840, 1, 114027, 80, 6, 1], [2, 5, 29, 73], [2, 5, 29, 74], [2, 5, 29, 72],
    [2, 5, 29, 31], [1, 3, 6, 1, 5, 5, 7, 4, 9996, 9999, 4, 4, 7],
    [1, 3, 6, 1, 5, 5, 7, 4, 9996, 9999, 4, 4, 6], [2, 5, 29, 28], [1, 3, 6, 1, 5, 5, 7, 4, 9996, 9999, 4, 2, 1],
    [2, 5, 29, 16], [2, 5, 29, 32], [1, 3, 6, 1, 5, 5, 7, 48, 1, 2]]

/-- `certbuildutils.py` 2658-2671, `_contains_unknown_extensions`. -/
def unknownExts (l : List Ext) : Bool := l.any (fun e => e.oid ∉ knownExts)

/-- `certbuildutils.py` 2688-2701: with a key usage. -/
def logicUsage (env : ExtEnv K G N) (l : List Ext) (forEe : Option Bool) (u : List Use) : Except PyErr Unit :=
  if forEe = some false ∧ (.keyCertSign ∈ u ∨ .cRLSign ∈ u) then .error .badCertTemplate
  else match tryDecode env.decBasic l basicOid with
    | .error e => .error e
    | .ok none => .ok ()
    | .ok (some b) => if b.ca = false ∧ .keyCertSign ∈ u then .error .badCertTemplate else .ok ()

/-- `certbuildutils.py` 2703-2717: without a key usage, for an end entity; the structure is true if it has a component, and
`cA` has a default. -/
def logicEe (env : ExtEnv K G N) (l : List Ext) : Except PyErr Unit :=
  match tryDecode env.decBasic l basicOid with
  | .error e => .error e
  | .ok none => .ok ()
  | .ok (some b) =>
    if b.ca then .error .badCertTemplate
    else if b.pathLen.any (fun n => decide (n ≠ 0)) then .error .badCertTemplate
    else .ok ()

/-- `certbuildutils.py` 2675-2717, `check_logic_extensions`. -/
def checkLogic (env : ExtEnv K G N) (s : Src K) (forEe : Option Bool) : Except PyErr Unit :=
  match s.exts.parse with
  | none => .ok ()
  | some l =>
    match tryDecode env.decUsage l usageOid with
    | .error e => .error e
    | .ok (some bits) => logicUsage env l forEe (usesFrom useOrder bits)
    | .ok none => if forEe = some true then logicEe env l else .ok ()

/-- `certbuildutils.py` 2839-2850: the verified extension, or else the one of the CA. -/
def pickExts (other : List Ext) : List (List Nat × Option Ext) → List Ext
  | [] => []
  | (_, some e) :: l => e :: pickExts other l
  | (o, none) :: l =>
    match getExt other o with
    | none => pickExts other l
    | some e => e :: pickExts other l

/-- `certbuildutils.py` 2720-2751, `_get_not_included_extensions`. -/
def notIncluded (l other : List Ext) : List Ext := other.filter (fun e => l.all (fun x => decide (x.oid ≠ e.oid)))

/-- `certbuildutils.py` 2835-2856: the verified extensions with those of the CA. -/
def mergeExts (other : List Ext) (v : List (List Nat × Option Ext)) : List Ext :=
  if other = [] then v.filterMap (fun x => x.2)
  else pickExts other v ++ notIncluded (pickExts other v) other

/-- The options of `check_extensions`. -/
structure ExtArgs where
  other : List Ext := []
  allowUnknown : Bool := false
  allowNonCrit : Bool := true
  forEe : Option Bool := none

/-- `certbuildutils.py` 2815-2828: the extensions of the request. -/
def verifyAll (env : ExtEnv K G N) (ca : AkiCa N) (s : Src K) (allowNonCrit : Bool) :
    Except PyErr (List (List Nat × Option Ext)) :=
  match verifyUsage env s with
  | .error e => .error e
  | .ok u =>
    match verifySki env s with
    | .error e => .error e
    | .ok k =>
      match verifyAki env ca s with
      | .error e => .error e
      | .ok a =>
        match verifyEku env s with
        | .error e => .error e
        | .ok x =>
          match verifyBasic env s allowNonCrit with
          | .error e => .error e
          | .ok b =>
            match verifySan env s with
            | .error e => .error e
            | .ok n =>
              .ok [(usageOid, u), (skiOid, k), (akiOid, a), (ekuOid, x), (basicOid, b), (sanOid, n)]

/-- `certbuildutils.py` 2757-2856, `check_extensions`. -/
def checkExts (env : ExtEnv K G N) (ca : AkiCa N) (s : Src K) (a : ExtArgs) :
    Except PyErr (List Ext) :=
  if unknownExts (s.exts.parse.getD []) = true ∧ a.allowUnknown = false then .error .badCertTemplate
  else match checkLogic env s a.forEe with
    | .error e => .error e
    | .ok () =>
      match verifyAll env ca s a.allowNonCrit with
      | .error e => .error e
      | .ok v => .ok (mergeExts a.other v)

/-! ## The certificate -/

/-- `certbuildutils.py` 392-430, `prepare_ski_extension`, not critical. -/
def mkSki (env : ExtEnv K G N) (k : K) : Except PyErr Ext :=
  match env.ski k with
  | .error e => .error e
  | .ok d => .ok ⟨skiOid, false, env.encSki d⟩

/-- The serial number and the extensions of a certificate. -/
structure XCert where
  serial : Int
  exts : List Ext
  deriving DecidableEq, Repr

/-- `certbuildutils.py` 1686-1751, `build_cert_from_cert_template`, with 1797-1855: the certificate of the CA is not given to
`check_extensions`, and the serial number is the one of the template, if it has one. `pre` is the check of the name and the
period. -/
def certFromTmpl (env : ExtEnv K G N) (kid : Except PyErr (List UInt8)) (pre : Except PyErr Unit)
    (l : List Ext) (key : Except PyErr K) (ecdh preHash nullDn : Bool) (serial : Option Int) (rnd : Int) (other : List Ext) :
    Except PyErr XCert :=
  match pre with
  | .error e => .error e
  | .ok () =>
    match key with
    | .error e => .error e
    | .ok k =>
      match mkSki env k with
      | .error e => .error e
      | .ok ski =>
        match checkExts env ⟨kid, none⟩ ⟨.template l, true, ecdh, preHash, .ok k, nullDn⟩ { other := other } with
        | .error e => .error e
        | .ok r => .ok ⟨serial.getD rnd, ski :: r⟩

/-- `certbuildutils.py` 1898-1947, `_process_csr_extensions`, with the default options. -/
def csrExts (env : ExtEnv K G N) (ca : AkiCa N) (s : Src K) (k : K) (other : List Ext)
    (include_ ski : Bool) : Except PyErr (List Ext) :=
  if include_ then checkExts env ca s { other := other, allowNonCrit := false }
  else if ski then
    match mkSki env k with
    | .error e => .error e
    | .ok e => .ok (other ++ [e])
  else .ok other

end Verif.Ra
