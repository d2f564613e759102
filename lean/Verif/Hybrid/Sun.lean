import Verif.Hybrid.Related

/-!
# Sun hybrid certificates

`pq_logic/hybrid_sig/sun_lamps_hybrid_scheme_00.py` and the verification in `pq_logic/pq_verify_logic.py`.

A Sun hybrid certificate carries a second public key and a second signature in two extensions, each *by value* or *by
reference*, i.e. as a hash and a location. The four combinations are the four forms; the certificate is signed in
Form 4, where both are references.

Parameters (`SunEnv`): DER codecs, hashing, key loading, signing and verification. The values served at locations are
an argument (`fetch`), so is the extraction of an alternative key from the certificate of the issuer. Simplified:
certificates are those of the chameleon model, a DER encoded SPKI stands for the `pyasn1` object, CSR attributes have
one value, and the part of the TBS certificate that does not depend on the scheme is an argument of the issuing.
-/

namespace Verif.Hybrid

open Verif.CA Verif.Check

/-- `tmp_oids.py` 452-457, the CSR attributes: hash algorithm and location of the public key, hash algorithm and
location of the signature. -/
def sunPubHashOid : Oid := hybSigArc ++ [4, 2]
/-- `id_altSubPubKeyLocAttr`. -/
def sunPubLocOid : Oid := hybSigArc ++ [4, 3]
/-- `id_altSigValueHashAlgAttr`. -/
def sunSigHashOid : Oid := hybSigArc ++ [4, 4]
/-- `id_altSigValueLocAttr`. -/
def sunSigLocOid : Oid := hybSigArc ++ [4, 5]
/-- `tmp_oids.py` 459, `id_altSubPubKeyExt`. -/
def sunKeyOid : Oid := hybSigArc ++ [4, 6]

/-- `hybrid_structures.py` 21-60, `AltSubPubKeyExt` and `AltSignatureExt`, which have the same components. -/
structure SunVal where
  byVal : Bool
  value : Bytes
  alg : Alg
  hashAlg : Option Alg
  loc : Option String
  deriving DecidableEq, Repr

/-- What the modelled code calls. `S` are private keys, `K` public keys. `digest name data` is `_compute_hash` (52-62),
`hashOid` is `sha_alg_name_to_oid`, `nullParams` the encoded `NULL`, `hybKey` loads an SPKI and splits a hybrid key in
its OID, the traditional and the post-quantum key (for a CSR: only if it is a composite signature key), `preHash` is the
table `COMPOSITE_SIG_PREHASH_OID_2_HASH`, and `sha2Name` says if a name is a key of `SHA2_NAME_2_OID`. -/
structure SunEnv (S K : Type) where
  encTbs : Tbs → Bytes
  encPub : SunVal → Bytes
  decPub : Bytes → Option (SunVal × Bytes)
  encSig : SunVal → Bytes
  decSig : Bytes → Option (SunVal × Bytes)
  hashOf : Oid → Except PyErr (Option String)
  hashOid : String → Except PyErr Oid
  nullParams : Bytes
  digest : String → Bytes → Except PyErr Bytes
  spkiOf : K → Bytes
  decSpki : Bytes → Option (Bytes × Bytes)
  spkiAlg : Bytes → Alg
  loadKey : Bytes → Except PyErr K
  isVerifyKey : K → Bool
  pub : S → K
  prepAlg : S → Option String → Except PyErr Alg
  sign : S → Option String → Bytes → Except PyErr Bytes
  verifyAlg : K → Alg → Bytes → Bytes → Except PyErr Unit
  hybKey : Bytes → Except PyErr (Option (Oid × K × K))
  preHash : Oid → Option String
  sha2Name : String → Bool
  decAlg : Bytes → Option Alg
  decStr : Bytes → Option String

variable {S K : Type}

/-! ## The two extensions -/

/-- `sun_lamps_hybrid_scheme_00.py` 189-254, `prepare_sun_hybrid_alt_sub_pub_key_ext`: the structure. The hash
algorithm is written without parameters (243). -/
def sunPubVal (env : SunEnv S K) (k : K) (byVal : Bool) (hash loc : Option String) : Except PyErr SunVal :=
  match hash with
  | none =>
    if byVal then .ok ⟨true, env.spkiOf k, env.spkiAlg (env.spkiOf k), none, loc⟩ else .error .valueError
  | some h =>
    match (if byVal then .ok (env.spkiOf k) else env.digest h (env.spkiOf k)) with
    | .error e => .error e
    | .ok v =>
      match env.hashOid h with
      | .error e => .error e
      | .ok o => .ok ⟨byVal, v, env.spkiAlg (env.spkiOf k), some ⟨o, none⟩, loc⟩

/-- `sun_lamps_hybrid_scheme_00.py` 248-254: the extension. -/
def sunPubExt (env : SunEnv S K) (k : K) (byVal : Bool) (hash loc : Option String) (critical : Bool) :
    Except PyErr Ext :=
  match sunPubVal env k byVal hash loc with
  | .error e => .error e
  | .ok v => .ok ⟨sunKeyOid, critical, env.encPub v⟩

/-- `sun_lamps_hybrid_scheme_00.py` 257-325, `prepare_sun_hybrid_alt_signature_ext`: the structure. The hash algorithm
is written with the parameters `NULL` (311). -/
def sunSigVal (env : SunEnv S K) (sig : Bytes) (byVal : Bool) (alg : Alg) (hash loc : Option String) :
    Except PyErr SunVal :=
  if sig = [] then .error .valueError
  else
    match hash with
    | none => if byVal then .ok ⟨true, sig, alg, none, loc⟩ else .error .valueError
    | some h =>
      match (if byVal then .ok sig else env.digest h sig) with
      | .error e => .error e
      | .ok v =>
        match env.hashOid h with
        | .error e => .error e
        | .ok o => .ok ⟨byVal, v, alg, some ⟨o, some env.nullParams⟩, loc⟩

/-- `sun_lamps_hybrid_scheme_00.py` 317-325: the extension. -/
def sunSigExt (env : SunEnv S K) (sig : Bytes) (byVal : Bool) (alg : Alg) (hash loc : Option String)
    (critical : Bool) : Except PyErr Ext :=
  match sunSigVal env sig byVal alg hash loc with
  | .error e => .error e
  | .ok v => .ok ⟨sunSigOid, critical, env.encSig v⟩

/-- `get_hash_from_oid(decoded_ext["hashAlg"]["algorithm"])`: an absent algorithm is a schema object that can not be
looked up. -/
def sunHash (env : SunEnv S K) (v : SunVal) : Except PyErr (Option String) :=
  match v.hashAlg with
  | none => .error .pyasn1Error
  | some a => env.hashOf a.oid

/-- `sun_lamps_hybrid_scheme_00.py` 835-848, `_patch_extensions`. -/
def patchExt : List Ext → Ext → Except PyErr (List Ext)
  | [], _ => .error .valueError
  | x :: l, e =>
    if x.oid = e.oid then .ok (e :: l)
    else
      match patchExt l e with
      | .error err => .error err
      | .ok l' => .ok (x :: l')

/-- `sun_lamps_hybrid_scheme_00.py` 1156-1169, `process_public_key`. -/
def procKey (env : SunEnv S K) (b : Bytes) : Except PyErr K :=
  match env.decSpki b with
  | none => .error .pyasn1Error
  | some (o, rest) => if rest ≠ [] then .error .valueError else env.loadKey o

/-- `keyutils.py` 539-568, `load_public_key_from_spki` with bytes. -/
def loadSpkiBytes (env : SunEnv S K) (b : Bytes) : Except PyErr K :=
  match env.decSpki b with
  | none => .error .badAsn1Data
  | some (o, rest) => if rest ≠ [] then .error .badAsn1Data else env.loadKey o

/-! ## Forms -/

/-- `cert` with other extensions. -/
def withExts (c : Cert) (l : List Ext) : Cert := { c with tbs := { c.tbs with exts := l } }

/-- `certextractutils.py` 91-118, `get_extension` with `must_be_non_crit=True`, and the test of the result. -/
def nonCrit (l : List Ext) (o : Oid) : Except PyErr Ext :=
  match getExt l o with
  | none => .error .valueError
  | some e => if e.critical then .error .valueError else .ok e

/-- `sun_lamps_hybrid_scheme_00.py` 922-934: the public key for the other form of the extension. -/
def otherKey (env : SunEnv S K) (fetch : String → Except PyErr Bytes) (v : SunVal) (toVal : Bool) : Except PyErr K :=
  if toVal then
    match v.loc with
    | none => .error .valueError
    | some u =>
      match fetch u with
      | .error e => .error e
      | .ok b => procKey env b
  else
    match v.loc with
    | none => .error .valueError
    | some u => if u = "" then .error .valueError else procKey env v.value

/-- `sun_lamps_hybrid_scheme_00.py` 898-946, `_parse_alt_sub_pub_key_extension`. -/
def convPub (env : SunEnv S K) (fetch : String → Except PyErr Bytes) (c : Cert) (toVal : Bool) : Except PyErr Cert :=
  match nonCrit c.tbs.exts sunKeyOid with
  | .error e => .error e
  | .ok x =>
    match env.decPub x.value with
    | none => .error .pyasn1Error
    | some (v, _) =>
      if toVal = v.byVal then .ok c
      else
        match sunHash env v with
        | .error e => .error e
        | .ok h =>
          match otherKey env fetch v toVal with
          | .error e => .error e
          | .ok k =>
            match sunPubExt env k toVal h v.loc x.critical with
            | .error e => .error e
            | .ok y =>
              match patchExt c.tbs.exts y with
              | .error e => .error e
              | .ok l => .ok (withExts c l)

/-- `sun_lamps_hybrid_scheme_00.py` 875-883: the signature for the other form of the extension. -/
def otherSig (fetch : String → Except PyErr Bytes) (v : SunVal) (toVal : Bool) : Except PyErr Bytes :=
  if toVal then
    match v.loc with
    | none => .error .valueError
    | some u =>
      if u = "" then .error .valueError
      else
        match fetch u with
        | .error e => .error e
        | .ok b => if b = [] then .error .valueError else .ok b
  else .ok v.value

/-- `sun_lamps_hybrid_scheme_00.py` 851-895, `_parse_alt_sig_extension`. -/
def convSig (env : SunEnv S K) (fetch : String → Except PyErr Bytes) (c : Cert) (toVal : Bool) : Except PyErr Cert :=
  match nonCrit c.tbs.exts sunSigOid with
  | .error e => .error e
  | .ok x =>
    match env.decSig x.value with
    | none => .error .pyasn1Error
    | some (v, _) =>
      if toVal = v.byVal then .ok c
      else
        match sunHash env v with
        | .error e => .error e
        | .ok h =>
          match otherSig fetch v toVal with
          | .error e => .error e
          | .ok s =>
            match sunSigExt env s toVal v.alg h v.loc x.critical with
            | .error e => .error e
            | .ok y =>
              match patchExt c.tbs.exts y with
              | .error e => .error e
              | .ok l => .ok (withExts c l)

/-- The four forms, `form_map` (1136-1141): is the key, is the signature given by value. -/
inductive SunForm where
  | form1 | form2 | form3 | form4
  deriving DecidableEq, Repr

/-- `form_map`: the public key. -/
def SunForm.pub : SunForm → Bool
  | .form1 => true | .form2 => true | .form3 => false | .form4 => false

/-- `form_map`: the signature. -/
def SunForm.sig : SunForm → Bool
  | .form1 => true | .form2 => false | .form3 => true | .form4 => false

/-- `sun_lamps_hybrid_scheme_00.py` 1102-1153, `convert_sun_hybrid_cert_to_target_form`. -/
def convert (env : SunEnv S K) (fetch : String → Except PyErr Bytes) (c : Cert) (f : SunForm) : Except PyErr Cert :=
  match convPub env fetch c f.pub with
  | .error e => .error e
  | .ok c' => convSig env fetch c' f.sig

/-- The loop of `get_sun_hybrid_form` (975-979): the last extension of each kind. -/
def lastVals (env : SunEnv S K) : List Ext → Option SunVal → Option SunVal →
    Except PyErr (Option SunVal × Option SunVal)
  | [], p, s => .ok (p, s)
  | x :: l, p, s =>
    if x.oid = sunKeyOid then
      match env.decPub x.value with
      | none => .error .pyasn1Error
      | some (v, _) => lastVals env l (some v) s
    else if x.oid = sunSigOid then
      match env.decSig x.value with
      | none => .error .pyasn1Error
      | some (v, _) => lastVals env l p (some v)
    else lastVals env l p s

/-- `sun_lamps_hybrid_scheme_00.py` 949-994, `get_sun_hybrid_form`. -/
def sunForm (env : SunEnv S K) (c : Cert) : Except PyErr SunForm :=
  match lastVals env c.tbs.exts none none with
  | .error e => .error e
  | .ok (some p, some s) =>
    .ok (if p.byVal && s.byVal then .form1 else if p.byVal && !s.byVal then .form2
      else if !p.byVal && s.byVal then .form3 else .form4)
  | .ok _ => .error .valueError

/-- `sun_lamps_hybrid_scheme_00.py` 997-1010, `_check_form_1_or_3`. -/
def sigByVal (env : SunEnv S K) : List Ext → Except PyErr Bool
  | [] => .ok false
  | x :: l =>
    if x.oid = sunSigOid then
      match env.decSig x.value with
      | none => .error .pyasn1Error
      | some (v, _) => if v.byVal then .ok true else sigByVal env l
    else sigByVal env l

/-- The loop of `contains_sun_hybrid_cert_form_1_or_3` (1084-1088). -/
def firstByVal (env : SunEnv S K) : List Cert → Except PyErr (Option Cert)
  | [] => .ok none
  | c :: l =>
    match sigByVal env c.tbs.exts with
    | .error e => .error e
    | .ok true => .ok (some c)
    | .ok false => firstByVal env l

/-- `sun_lamps_hybrid_scheme_00.py` 1060-1098, `contains_sun_hybrid_cert_form_1_or_3`. The two encoded certificates are
compared as certificates. -/
def containsByVal (env : SunEnv S K) (fetch : String → Except PyErr Bytes) (c4 : Cert) (certs : List Cert) :
    Except PyErr Cert :=
  match firstByVal env certs with
  | .error e => .error e
  | .ok none => .error .valueError
  | .ok (some c) =>
    match convert env fetch c .form4 with
    | .error e => .error e
    | .ok c' => if c4 = c' then .ok c else .error .valueError

/-! ## Verification -/

/-- `sun_lamps_hybrid_scheme_00.py` 697-704: the first extension with the OID. -/
def pubForCheck (env : SunEnv S K) : List Ext → Except PyErr SunVal
  | [] => .error .valueError
  | x :: l =>
    if x.oid = sunKeyOid then
      match env.decPub x.value with
      | none => .error .pyasn1Error
      | some (v, _) => if x.critical then .error .valueError else .ok v
    else pubForCheck env l

/-- `sun_lamps_hybrid_scheme_00.py` 720-742: the hash and the algorithm of the fetched key. -/
def checkFetchedKey (env : SunEnv S K) (v : SunVal) (b : Bytes) (k : K) : Except PyErr K :=
  match sunHash env v with
  | .error e => .error e
  | .ok none => .error .valueError
  | .ok (some h) =>
    match env.digest h (env.spkiOf k) with
    | .error e => .error e
    | .ok d =>
      if d ≠ v.value then .error .valueError
      else
        match env.decSpki b with
        | none => .error .pyasn1Error
        | some (o, _) => if env.spkiAlg o ≠ v.alg then .error .valueError else env.loadKey o

/-- `sun_lamps_hybrid_scheme_00.py` 672-742, `validate_alt_pub_key_extn`. -/
def validatePub (env : SunEnv S K) (fetch : String → Except PyErr Bytes) (c : Cert) : Except PyErr K :=
  match pubForCheck env c.tbs.exts with
  | .error e => .error e
  | .ok v =>
    if v.byVal then .error .valueError
    else
      match v.loc with
      | none => .error .valueError
      | some u =>
        match fetch u with
        | .error e => .error e
        | .ok b =>
          match procKey env b with
          | .error e => .error e
          | .ok k => checkFetchedKey env v b k

/-- `sun_lamps_hybrid_scheme_00.py` 796-804: the last of the extensions with the OID. -/
def sigForCheck (env : SunEnv S K) : List Ext → Option SunVal → Except PyErr (Option SunVal)
  | [], s => .ok s
  | x :: l, s =>
    if x.oid = sunSigOid then
      match env.decSig x.value with
      | none => .error .pyasn1Error
      | some (v, _) => if x.critical then .error .valueError else sigForCheck env l (some v)
    else sigForCheck env l s

/-- `sun_lamps_hybrid_scheme_00.py` 809: the certificate without the extension. -/
def dropSig (c : Cert) : Cert := withExts c (c.tbs.exts.filter (fun x => decide (x.oid ≠ sunSigOid)))

/-- `sun_lamps_hybrid_scheme_00.py` 813-816: the given signature, or the one at the location. -/
def usedSig (fetch : String → Except PyErr Bytes) (v : SunVal) (sig : Option Bytes) : Except PyErr (Option Bytes) :=
  match sig with
  | some s => .ok (some s)
  | none =>
    match v.loc with
    | none => .ok none
    | some u =>
      match fetch u with
      | .error e => .error e
      | .ok b => .ok (some b)

/-- `sun_lamps_hybrid_scheme_00.py` 811-832: hash and signature. -/
def checkAltSig (env : SunEnv S K) (fetch : String → Except PyErr Bytes) (t : Tbs) (v : SunVal) (k : K)
    (sig : Option Bytes) : Except PyErr Unit :=
  match usedSig fetch v sig with
  | .error e => .error e
  | .ok s =>
    match sunHash env v with
    | .error e => .error e
    | .ok none => .error .valueError
    | .ok (some h) =>
      match s with
      | none => .error .valueError
      | some s =>
        match env.digest h s with
        | .error e => .error e
        | .ok d => if v.value ≠ d then .error .valueError else env.verifyAlg k v.alg (env.encTbs t) s

/-- `sun_lamps_hybrid_scheme_00.py` 766-832, `validate_alt_sig_extn`. The second component is the certificate after the
call: the function removes the extension from the object it is given. -/
def validateSig (env : SunEnv S K) (fetch : String → Except PyErr Bytes) (c : Cert) (k : K) (sig : Option Bytes) :
    Except PyErr Unit × Cert :=
  match sigForCheck env c.tbs.exts none with
  | .error e => (.error e, c)
  | .ok none => (.error .valueError, c)
  | .ok (some v) => (checkAltSig env fetch (dropSig c).tbs v k sig, dropSig c)

/-- `sun_lamps_hybrid_scheme_00.py` 746-762, `extract_sun_hybrid_alt_sig`. -/
def extractAltSig (env : SunEnv S K) : List Ext → Option SunVal → Except PyErr Bytes
  | [], none => .error .valueError
  | [], some v => .ok v.value
  | x :: l, s =>
    if x.oid = sunSigOid then
      match env.decSig x.value with
      | none => .error .pyasn1Error
      | some (v, _) => extractAltSig env l (some v)
    else extractAltSig env l s

/-- `sun_lamps_hybrid_scheme_00.py` 1172-1217, `get_sun_hybrid_alt_pub_key`. -/
def sunAltKey (env : SunEnv S K) (fetch : String → Except PyErr Bytes) (l : List Ext) : Except PyErr (Option K) :=
  match getExt l sunKeyOid with
  | none => .ok none
  | some x =>
    match env.decPub x.value with
    | none => .error .pyasn1Error
    | some (v, _) =>
      match (if v.byVal then loadSpkiBytes env v.value
        else
          match v.loc with
          | none => .error .valueError
          | some u =>
            match fetch u with
            | .error e => .error e
            | .ok b => procKey env b) with
      | .error e => .error e
      | .ok k => .ok (some k)

/-- `pq_verify_logic.py` 384-396, `_verify_sun_hybrid_trad_sig`. -/
def verifyTrad (env : SunEnv S K) (fetch : String → Except PyErr Bytes) (c issuer : Cert) : Except PyErr Unit :=
  match convert env fetch c .form4 with
  | .error e => .error e
  | .ok c4 =>
    match env.loadKey issuer.tbs.spki with
    | .error e => .error e
    | .ok k =>
      if env.isVerifyKey k then env.verifyAlg k c4.tbs.alg (env.encTbs c4.tbs) c4.sig else .error .valueError

/-- `pq_verify_logic.py` 435-436: the given alternative key, or the one of the issuer. -/
def altFor (altOf : Cert → Except PyErr (Option K)) (issuer : Cert) (alt : Option K) : Except PyErr (Option K) :=
  match alt with
  | some k => .ok (some k)
  | none => altOf issuer

/-- `pq_verify_logic.py` 399-442, `verify_sun_hybrid_cert`. `altOf` is `may_extract_alt_key_from_cert`. -/
def verifySun (env : SunEnv S K) (fetch : String → Except PyErr Bytes) (altOf : Cert → Except PyErr (Option K))
    (c issuer : Cert) (alt : Option K) (checkAlt : Bool) : Except PyErr Unit :=
  match convert env fetch c .form4 with
  | .error e => .error e
  | .ok c4 =>
    match verifyTrad env fetch c issuer with
    | .error e => .error e
    | .ok () =>
      match altFor altOf issuer alt with
      | .error e => .error e
      | .ok none => .error .valueError
      | .ok (some k) =>
        match validatePub env fetch c4 with
        | .error e => .error e
        | .ok _ => if checkAlt then (validateSig env fetch c4 k none).1 else .ok ()

/-- The loop of `find_sun_hybrid_issuer_cert` (257-264). `_check_names` (211-227) compares the encoded names. -/
def findSunLoop (env : SunEnv S K) (fetch : String → Except PyErr Bytes) (c4 : Cert) : List Cert → Except PyErr Cert
  | [] => .error .valueError
  | x :: l =>
    if c4.tbs.issuer ≠ x.tbs.subject then findSunLoop env fetch c4 l
    else
      match verifyTrad env fetch c4 x with
      | .ok () => .ok x
      | .error .invalidSignature => findSunLoop env fetch c4 l
      | .error e => .error e

/-- `pq_verify_logic.py` 231-266, `find_sun_hybrid_issuer_cert`. -/
def findSunIssuer (env : SunEnv S K) (fetch : String → Except PyErr Bytes) (c : Cert) (certs : List Cert) :
    Except PyErr Cert :=
  match convert env fetch c .form4 with
  | .error e => .error e
  | .ok c4 => findSunLoop env fetch c4 certs

/-! ## Issuing -/

/-- What both kinds of issuing use to sign: the keys of the CA, the hashes of the alternative signature and of the
certificate, the location of the alternative signature, and the option `bad_alt_sig`. -/
structure SunArgs (S : Type) where
  ca : S
  altCa : S
  sigHash : String
  hash : String
  sigLoc : Option String
  badAlt : Bool

/-- Two values computed one after the other. -/
def both {α : Type} (x y : Except PyErr α) : Except PyErr (α × α) :=
  match x with
  | .error e => .error e
  | .ok a =>
    match y with
    | .error e => .error e
    | .ok b => .ok (a, b)

/-- `sun_lamps_hybrid_scheme_00.py` 555-575, `_prepare_public_key_extensions`: by reference and by value. -/
def pubExts (env : SunEnv S K) (k : K) (hash loc : Option String) : Except PyErr (Ext × Ext) :=
  both (sunPubExt env k false hash loc false) (sunPubExt env k true hash loc false)

/-- `sun_lamps_hybrid_scheme_00.py` 518-524 and 643-649: by reference and by value. -/
def sigExts (env : SunEnv S K) (s : Bytes) (alg : Alg) (hash : String) (loc : Option String) :
    Except PyErr (Ext × Ext) :=
  both (sunSigExt env s false alg (some hash) loc false) (sunSigExt env s true alg (some hash) loc false)

/-- `sun_lamps_hybrid_scheme_00.py` 508-552 and 637-668 with 428-434. `t` is the TBS certificate with the extension of
the public key by reference, `p1` this extension by value. Returns Form 4 and Form 1. -/
def sunSign (env : SunEnv S K) (a : SunArgs S) (t : Tbs) (p1 : Ext) : Except PyErr (Cert × Cert) :=
  match env.sign a.altCa (some a.sigHash) (env.encTbs t) with
  | .error e => .error e
  | .ok s₀ =>
    match env.prepAlg a.altCa (some a.sigHash) with
    | .error e => .error e
    | .ok alg =>
      match (if a.badAlt then manipFirst s₀ else .ok s₀) with
      | .error e => .error e
      | .ok s =>
        match sigExts env s alg a.sigHash a.sigLoc with
        | .error e => .error e
        | .ok (s4, s1) =>
          match env.sign a.ca (some a.hash) (env.encTbs { t with exts := t.exts ++ [s4] }) with
          | .error e => .error e
          | .ok sig =>
            match env.prepAlg a.ca (some a.hash) with
            | .error e => .error e
            | .ok ca =>
              match patchExt (t.exts ++ [s4]) p1 with
              | .error e => .error e
              | .ok l =>
                match patchExt l s1 with
                | .error e => .error e
                | .ok l' =>
                  .ok (⟨{ t with exts := t.exts ++ [s4] }, ca, sig⟩, ⟨{ t with exts := l' }, ca, sig⟩)

/-- `sun_lamps_hybrid_scheme_00.py` 502-503: the hash used for everything. -/
def templateHash (env : SunEnv S K) (oid : Oid) (hash : Option String) : String :=
  hash.getD ((env.preHash oid).getD "sha256")

/-- `sun_lamps_hybrid_scheme_00.py` 437-552, `sun_cert_template_to_cert`. `spki` is the public key of the template, `t`
the TBS certificate of `prepare_tbs_certificate_from_template` (`certbuildutils.py` 1797-1855) whose signature
algorithm is that of `hash_alg="sha256"` and whose key is the traditional one. The extension of the key is appended. -/
def sunTemplate (env : SunEnv S K) (ca altCa : S) (spki : Bytes) (t : Tbs) (extra : List Ext) (hash : Option String)
    (pubLoc sigLoc : Option String) (badAlt : Bool) : Except PyErr (Cert × Cert) :=
  match env.hybKey spki with
  | .error e => .error e
  | .ok none => .error .valueError
  | .ok (some (oid, trad, pq)) =>
    match env.prepAlg ca (some "sha256") with
    | .error e => .error e
    | .ok alg =>
      match pubExts env pq (some (templateHash env oid hash)) pubLoc with
      | .error e => .error e
      | .ok (p4, p1) =>
        sunSign env ⟨ca, altCa, templateHash env oid hash, templateHash env oid hash, sigLoc, badAlt⟩
          { t with alg := alg, spki := env.spkiOf trad, exts := t.exts ++ extra ++ [p4] } p1

/-- The values of `_extract_sun_hybrid_attrs_from_csr`. -/
structure SunAttrs where
  pubHash : Option Alg
  pubLoc : Option String
  sigHash : Option Alg
  sigLoc : Option String
  deriving DecidableEq, Repr

/-- `sun_lamps_hybrid_scheme_00.py` 328-355, `_extract_sun_hybrid_attrs_from_csr`: the last attribute of each kind. -/
def sunAttrs (env : SunEnv S K) : List Attr → SunAttrs → Except PyErr SunAttrs
  | [], d => .ok d
  | x :: l, d =>
    if x.typ = sunPubHashOid ∨ x.typ = sunSigHashOid then
      match env.decAlg x.value with
      | none => .error .pyasn1Error
      | some a =>
        if x.typ = sunPubHashOid then sunAttrs env l { d with pubHash := some a }
        else sunAttrs env l { d with sigHash := some a }
    else if x.typ = sunPubLocOid ∨ x.typ = sunSigLocOid then
      match env.decStr x.value with
      | none => .error .pyasn1Error
      | some u =>
        if x.typ = sunPubLocOid then sunAttrs env l { d with pubLoc := some u }
        else sunAttrs env l { d with sigLoc := some u }
    else sunAttrs env l d

/-- `sun_lamps_hybrid_scheme_00.py` 402-405: the hash of the public key. `none` stands for a value that is no name of a
hash: `None`, or the OID that `SHA2_NAME_2_OID` returns. -/
def csrPubHash (env : SunEnv S K) (d : SunAttrs) (hash : String) : Except PyErr (Option String) :=
  match d.pubHash with
  | none => if env.sha2Name hash then .ok none else .error .keyError
  | some a => env.hashOf a.oid

/-- `sun_lamps_hybrid_scheme_00.py` 407-410: the hash of the signature. -/
def csrSigHash (env : SunEnv S K) (d : SunAttrs) (oid : Oid) (hash : String) : Except PyErr (Option String) :=
  match d.sigHash with
  | none => .ok (some ((env.preHash oid).getD hash))
  | some a => env.hashOf a.oid

/-- `sun_lamps_hybrid_scheme_00.py` 359-434, `sun_csr_to_cert`. `t` is the TBS certificate made by
`prepare_tbs_certificate` from the subject of the CSR. The hash of the key is refused by `_compute_hash` if it is no
name (`hash_name_to_instance`, `oid_mapping.py` 171-186); a signature hash that is no name is refused after signing. The
extension of the key comes first. The keyword `bad_alt_sig` has no effect. -/
def sunCsr (env : SunEnv S K) (ca altCa : S) (csr : Csr) (t : Tbs) (extra : List Ext) (hash : String) :
    Except PyErr (Cert × Cert) :=
  match env.hybKey csr.spki with
  | .error e => .error e
  | .ok none => .error .valueError
  | .ok (some (_, trad, pq)) =>
    match sunAttrs env csr.attrs ⟨none, none, none, none⟩ with
    | .error e => .error e
    | .ok d =>
      match csrPubHash env d hash with
      | .error e => .error e
      | .ok ph =>
        match csrSigHash env d csr.alg.oid hash with
        | .error e => .error e
        | .ok sh =>
          match pubExts env pq ph d.pubLoc with
          | .error e => .error e
          | .ok (p4, p1) =>
            match env.prepAlg ca (some hash) with
            | .error e => .error e
            | .ok alg =>
              match sh with
              | none => .error .valueError
              | some sh =>
                sunSign env ⟨ca, altCa, sh, hash, d.sigLoc, false⟩
                  { t with subject := csr.subject, alg := alg, spki := env.spkiOf trad, exts := p4 :: extra } p1

end Verif.Hybrid
