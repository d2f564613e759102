import Verif.Check.Chain
import Verif.Env.Data

/-!
# The private key of a key generation authority

`resources/ca_kga_logic.py` 212-373, 1104-1246, 1314-1548: `validate_not_local_key_gen`, `validate_signed_data_structure`,
`check_signer_infos`, `validate_signed_attributes`, `validate_signature_and_digest_alg`,
`validate_asymmetric_key_package`; `resources/envdatautils.py` 367-727: `prepare_signed_data` and what it calls.

The chain of certificates is that of `Verif.Check.Chain`. Parameters (`SdE`): signatures, hash functions, the names of hash
functions for algorithms, DER, and the loading of keys. Indices and sizes are natural numbers; reading past the end of a
list, which `pyasn1` answers with an empty element, is an error here as its use is one. In the functions that build, the
name of a hash function has no comma.
-/

namespace Verif.Env

open Verif.CA hiding Bytes Msg
open Verif.Prot Verif.Check

/-- An attribute. -/
structure SAttr where
  oid : Oid
  vals : List Bytes
  deriving DecidableEq, Repr

/-- A `SignerInfo`; `D` are digest algorithm identifiers, `A` signature algorithm identifiers. -/
structure SInfo (D A : Type) where
  version : Int
  sid : Rid
  attrs : List SAttr
  sigAlg : A
  digAlg : D
  signature : Option Bytes
  deriving DecidableEq, Repr

/-- A `SignedData`. A certificate choice that is not a certificate is `none`. -/
structure SData (C D A : Type) where
  version : Int
  digestAlgs : List D
  ctype : Oid
  content : Option Bytes
  certs : List (Option C)
  infos : List (SInfo D A)
  deriving DecidableEq, Repr

/-- What is external: `Q` are `OneAsymmetricKey` structures, `P` private keys. -/
structure SdE (C D A Q P : Type) where
  /-- DER of `id-ct-KP-aKeyPackage`. -/
  ctDer : Bytes
  encDig : D → Bytes
  /-- DER of an octet string. -/
  encMd : Bytes → Bytes
  decMd : Bytes → Option Bytes
  encInfo : Oid → Option Bytes → Bytes
  encPkg : List Q → Bytes
  decPkg : Bytes → Option (List Q × Bytes)
  /-- The algorithm is a signature algorithm for messages, composite, or post-quantum. -/
  isSig : A → Bool
  /-- `get_hash_from_oid`. -/
  digName : D → Except PyErr (Option String)
  /-- `get_digest_hash_alg_from_alg_id`. -/
  sigName : A → Except PyErr String
  /-- `get_digest_alg_for_cmp`. -/
  cmpHash : A → C → Except PyErr String
  /-- `get_hash_from_oid` with `only_hash=True`. -/
  onlyHash : A → Except PyErr (Option String)
  /-- `compute_hash`. -/
  hash : String → Bytes → Except PyErr Bytes
  /-- `check_protection_alg_conform_to_spki`. -/
  conform : A → C → Bool
  /-- `verify_signature_with_cert`: certificate, signature, data, hash. -/
  verify : C → Bytes → Bytes → Option String → Except PyErr Unit
  /-- The version of a `OneAsymmetricKey`. -/
  qVersion : Q → Int
  /-- `load_private_key_from_one_asym_key` with version 2. -/
  qLoad : Q → Except PyErr P
  /-- `validate_key_export_type`. -/
  qExport : Q → P → String → Except PyErr Unit
  /-- `prepare_one_asymmetric_key` with version 1, saved as given by the name. -/
  qMake : P → String → Except PyErr Q
  /-- `get_digest_from_key_hash`. -/
  keyHash : P → Except PyErr String
  /-- `get_alg_oid_from_key_hash`. -/
  keyAlg : P → String → Except PyErr A
  /-- `sha_alg_name_to_oid`. -/
  hashAlg : String → Except PyErr D
  /-- `sign_data`. -/
  sign : P → Bytes → String → Except PyErr Bytes
  /-- The subject key identifier. -/
  ski : C → Option Bytes
  /-- `prepare_issuer_and_serial_number`. -/
  issSer : C → Bytes × Int

def contentTypeOid : Oid := [1, 2, 840, 113549, 1, 9, 3]
def messageDigestOid : Oid := [1, 2, 840, 113549, 1, 9, 4]
def keyPackageOid : Oid := [2, 16, 840, 1, 101, 2, 1, 2, 78, 5]

variable {C D A Q P N K S : Type}

/-! ## Validation -/

/-- `ca_kga_logic.py` 1459-1470: one attribute; the state says whether the content type has been found, and the digest. -/
def attrStep (e : SdE C D A Q P) (n : Nat) (st : Bool × Option Bytes) (a : SAttr) :
    Except PyErr (Bool × Option Bytes) :=
  if a.oid = contentTypeOid then .ok (st.1 || a.vals.any (fun v => decide (v = e.ctDer)), st.2)
  else if a.oid = messageDigestOid then
    if a.vals.length ≠ n then .error .valueError
    else
      match a.vals with
      | [] => .error .indexError
      | v :: _ =>
        match e.decMd v with
        | none => .error .pyasn1Error
        | some d => .ok (st.1, some d)
  else .ok st

/-- `ca_kga_logic.py` 1459-1470: the loop. -/
def attrLoop (e : SdE C D A Q P) (n : Nat) : Bool × Option Bytes → List SAttr → Except PyErr (Bool × Option Bytes)
  | st, [] => .ok st
  | st, a :: as =>
    match attrStep e n st a with
    | .error x => .error x
    | .ok st' => attrLoop e n st' as

/-- `ca_kga_logic.py` 1441-1502, `validate_signed_attributes`, `_check_required_attributes`. -/
def signedAttrs (e : SdE C D A Q P) (n : Nat) (as : List SAttr) : Except PyErr Bytes :=
  match attrLoop e n (false, none) as with
  | .error x => .error x
  | .ok (_, none) => .error .valueError
  | .ok (found, some d) => if found = false then .error .valueError else .ok d

/-- `ca_kga_logic.py` 1377-1437, `validate_signature_and_digest_alg`, `_is_signature_alg_id`. -/
def sigAndDigest (e : SdE C D A Q P) (sig : A) (dig content : D) : Except PyErr Unit :=
  if e.encDig content ≠ e.encDig dig then .error .valueError
  else if e.isSig sig = false then .error .badAlg
  else
    match e.digName dig with
    | .error x => if x = .valueError then .error .badAlg else .error x
    | .ok h =>
      match e.sigName sig with
      | .error x => .error x
      | .ok h' => if some h' ≠ h then .error .valueError else .ok ()

/-- `ca_kga_logic.py` 1315-1374, `check_signer_infos`; the first one is checked. -/
def signerInfo (e : SdE C D A Q P) (infos : List (SInfo D A)) (content : D) (kga : C) (n : Nat) :
    Except PyErr (Bytes × A × Bytes) :=
  if infos.length ≠ n then .error .valueError
  else
    match infos with
    | [] => .error .indexError
    | s :: _ =>
      if s.version ≠ 3 then .error .valueError
      else
        match s.sid with
        | .iss _ _ => .error .valueError
        | .ski _ =>
          match signedAttrs e n s.attrs with
          | .error x => .error x
          | .ok d =>
            match sigAndDigest e s.sigAlg s.digAlg content with
            | .error x => .error x
            | .ok () =>
              if e.conform s.sigAlg kga = false then .error .valueError
              else
                match s.signature with
                | none => .error .valueError
                | some g => .ok (d, s.sigAlg, g)

/-- `ca_kga_logic.py` 1145-1171, `_validate_signature_and_algorithm_in_signed_data`. -/
def contentSigned (e : SdE C D A Q P) (x : Bytes × A × Bytes) (content info : Bytes) (kga : C) : Except PyErr Unit :=
  match e.cmpHash x.2.1 kga with
  | .error y => .error y
  | .ok h =>
    match e.hash h content with
    | .error y => .error y
    | .ok d => if x.1 ≠ d then .error .valueError else e.verify kga x.2.2 info (some h)

/-- `ca_kga_logic.py` 1541-1548: the way in which the key is saved. -/
def savedAs (e : SdE C D A Q P) (q : Q) (p : P) : Option String → Except PyErr P
  | none => .ok p
  | some t =>
    match e.qExport q p t with
    | .error x => .error x
    | .ok () => .ok p

/-- `ca_kga_logic.py` 1506-1548, `validate_asymmetric_key_package`. -/
def keyPackage (e : SdE C D A Q P) (n i : Nat) (save : Option String) (l : List Q) : Except PyErr P :=
  if l.length ≠ n then .error .valueError
  else
    match l[i]? with
    | none => .error .indexError
    | some q =>
      if e.qVersion q ≠ 1 then .error .invalidKeyData
      else
        match e.qLoad q with
        | .error x => .error x
        | .ok p => savedAs e q p save

/-- `ca_kga_logic.py` 1206-1216: the content. -/
def contentKey (e : SdE C D A Q P) (n i : Nat) (save : Option String) (content : Option Bytes) :
    Except PyErr (Bytes × P) :=
  match content with
  | none => .error .pyasn1Error
  | some b =>
    match e.decPkg b with
    | none => .error .pyasn1Error
    | some (l, rest) => if rest ≠ [] then .error .valueError else (keyPackage e n i save l).map (b, ·)

/-- `ca_kga_logic.py` 1114-1120: the certificates. -/
def onlyCerts : List (Option C) → Except PyErr (List C)
  | [] => .ok []
  | none :: _ => .error .notImplemented
  | some c :: cs =>
    match onlyCerts cs with
    | .error x => .error x
    | .ok l => .ok (c :: l)

/-- `ca_kga_logic.py` 1104-1142, `get_certificates_from_signed_data`. -/
def sdChain [DecidableEq N] (ch : ChainEnv C N K) (certs : List (Option C)) : Except PyErr (List C) :=
  match onlyCerts certs with
  | .error x => .error x
  | .ok l => signedDataCerts ch l

/-- `ca_kga_logic.py` 1227-1246: signature and certificates. -/
def sdTrust [DecidableEq C] [DecidableEq N] (e : SdE C D A Q P) (ch : ChainEnv C N K) (anchors : Except PyErr (List C))
    (sd : SData C D A) (b : Bytes) (x : Bytes × A × Bytes) (kga : C) (rest : List C) : Except PyErr Unit :=
  match contentSigned e x b (e.encInfo sd.ctype sd.content) kga with
  | .error y => .error y
  | .ok () =>
    match e.onlyHash x.2.1 with
    | .error y => .error y
    | .ok h =>
      match validateKgaCert ch anchors (fun c => e.verify c x.2.2 (e.encInfo sd.ctype sd.content) h) (kga :: rest) with
      | .error y => .error y
      | .ok () => validateEku (ch.eku kga) ["cmKGA"] .strict

/-- `ca_kga_logic.py` 1218-1246: after the content. -/
def sdTail [DecidableEq C] [DecidableEq N] (e : SdE C D A Q P) (ch : ChainEnv C N K) (anchors : Except PyErr (List C))
    (n : Nat) (sd : SData C D A) (dig : D) (x : Bytes × P) : Except PyErr P :=
  match sdChain ch sd.certs with
  | .error y => .error y
  | .ok [] => .error .indexError
  | .ok (kga :: rest) =>
    match signerInfo e sd.infos dig kga n with
    | .error y => .error y
    | .ok s =>
      match sdTrust e ch anchors sd x.1 s kga rest with
      | .error y => .error y
      | .ok () => .ok x.2

/-- `ca_kga_logic.py` 1175-1246, `validate_signed_data_structure`; `n` is the expected size, `i` the index of the key. -/
def openSigned [DecidableEq C] [DecidableEq N] (e : SdE C D A Q P) (ch : ChainEnv C N K) (anchors : Except PyErr (List C))
    (n i : Nat) (save : Option String) (sd : SData C D A) : Except PyErr P :=
  if sd.version ≠ 3 then .error .valueError
  else if sd.digestAlgs.length ≠ n then .error .valueError
  else
    match sd.digestAlgs[i]? with
    | none => .error .indexError
    | some dig =>
      if sd.ctype ≠ keyPackageOid then .error .valueError
      else
        match contentKey e n i save sd.content with
        | .error x => .error x
        | .ok x => sdTail e ch anchors n sd dig x

/-! ## The response -/

/-- The private key in a `CertifiedKeyPair`. -/
inductive PrivField where
  | absent
  | encrypted
  | enveloped (e : EnvData)
  deriving DecidableEq, Repr

/-- A `CertifiedKeyPair`. -/
structure KeyPairR (C : Type) where
  priv : PrivField
  cert : Option C
  deriving DecidableEq, Repr

/-- A response: protocol version, the message, and the responses of the body; `none` for bodies without. -/
structure KgaMsg (C : Type) where
  pvno : Int
  msg : Msg C
  resp : Option (List (Option (KeyPairR C)))
  deriving DecidableEq, Repr

/-- The arguments of `validate_not_local_key_gen`. -/
structure KgaArgs (S : Type) where
  pw : Option Bytes := none
  type : Option String := none
  certIdx : Int := 0
  size : Nat := 1
  idx : Nat := 0
  key : Option S := none
  save : Option String := none
  rnd : Bytes := []

/-- `ca_kga_logic.py` 324-373, `_check_correct_non_local_key_gen_use`, with strictness 2. -/
def usedRightly (env : KEnv S K C) (usage : C → Except PyErr (Option (List Bool))) (rnd : Bytes) (cert : C) (r : Ri)
    (m : Msg C) (pw : Option Bytes) : Except PyErr Unit :=
  match r with
  | .ktri _ => .ok ()
  | .ori _ _ => .ok ()
  | .kari _ => validateKeyUsage keyUsageNames (usage cert) ["keyAgreement".toList] .strict
  | .pwri _ =>
    match pw with
    | none => .error .valueError
    | some w => verifyProt env.toEnv rnd m none (some w) none none false
  | .kekri => .error .valueError

/-- `ca_kga_logic.py` 314-320: the issued certificate has the key. -/
def matchesIssued [DecidableEq K] (keyOf : C → Except PyErr K) (pubOf : P → K) (p : P) (cert : Option C) :
    Except PyErr P :=
  match cert with
  | none => .error .valueError
  | some c =>
    match keyOf c with
    | .error x => .error x
    | .ok k => if k ≠ pubOf p then .error .mismatchingKey else .ok p

/-- The arguments for the enveloped data (289-298). -/
def kgaOpen (a : KgaArgs S) (m : Msg C) (cert : C) : OpenArgs S C :=
  ⟨some m, a.pw, some cert, none, a.type, a.idx, a.size, a.key, false, false, none, a.rnd⟩

/-- What is external to the response: the decoder for the signed data, trust anchors, the key of the new certificate. -/
structure KgaEnv (C D A Q P N K S K' : Type) where
  env : KEnv S K C
  sd : SdE C D A Q P
  ch : ChainEnv C N K'
  anchors : Except PyErr (List C)
  decSd : Bytes → Option (SData C D A × Bytes)
  pubOf : P → K'

variable {K' : Type}

/-- `ca_kga_logic.py` 299-320: after decryption. -/
def kgaDecrypted [DecidableEq C] [DecidableEq N] [DecidableEq K'] (g : KgaEnv C D A Q P N K S K') (a : KgaArgs S)
    (m : KgaMsg C) (cert : C) (kp : KeyPairR C) (e : EnvData) (d : Bytes) : Except PyErr P :=
  match g.decSd d with
  | none => .error .pyasn1Error
  | some (sd, rest) =>
    if rest ≠ [] then .error .valueError
    else
      match openSigned g.sd g.ch g.anchors a.size a.idx a.save sd with
      | .error x => .error x
      | .ok p =>
        match e.infos[a.idx]? with
        | none => .error .indexError
        | some r =>
          match usedRightly g.env g.ch.usage a.rnd cert r m.msg a.pw with
          | .error x => .error x
          | .ok () => matchesIssued g.ch.loadKey g.pubOf p kp.cert

/-- `ca_kga_logic.py` 281-288: the key pair at the index. -/
def respAt (m : KgaMsg C) (i : Nat) : Except PyErr (KeyPairR C) :=
  match m.resp with
  | none => .error .valueError
  | some l =>
    match l[i]? with
    | none => .error .indexError
    | some none => .error .valueError
    | some (some k) => .ok k

/-- `ca_kga_logic.py` 212-320, `validate_not_local_key_gen`. -/
def openKga [DecidableEq C] [DecidableEq N] [DecidableEq K'] (g : KgaEnv C D A Q P N K S K') (a : KgaArgs S)
    (m : KgaMsg C) : Except PyErr P :=
  if m.pvno ≠ 3 then .error .valueError
  else
    match pick m.msg.certs a.certIdx with
    | .error x => .error x
    | .ok cert =>
      match respAt m a.idx with
      | .error x => .error x
      | .ok kp =>
        match kp.priv with
        | .absent => .error .pyasn1Error
        | .encrypted => .error .valueError
        | .enveloped e =>
          match openEnv g.env (kgaOpen a m.msg cert) e with
          | .error x => .error x
          | .ok d => kgaDecrypted g a m cert kp e d

/-! ## Building -/

/-- `envdatautils.py` 368-389, `prepare_signer_identifier`. -/
def mkSid (e : SdE C D A Q P) (c : C) : Rid :=
  match e.ski c with
  | some k => .ski k
  | none => .iss (e.issSer c).1 (e.issSer c).2

/-- `envdatautils.py` 393-429, `prepare_signed_attributes`, in the order of the encoding: by the sizes of the two. -/
def mkAttrs (e : SdE C D A Q P) (d : Bytes) : List SAttr := [⟨contentTypeOid, [e.ctDer]⟩, ⟨messageDigestOid, [e.encMd d]⟩]

/-- `envdatautils.py` 493-494: the hash function of the signature. -/
def sigHashOf (e : SdE C D A Q P) (key : P) : Option String → Except PyErr String
  | some h => .ok h
  | none => e.keyHash key

/-- `envdatautils.py` 496: the hash function of the digest. -/
def digHashOf (h : String) : Option String → String
  | some h' => if h' = "" then h else h'
  | none => h

/-- `envdatautils.py` 493-496 and 653-656: the names of the hash functions. -/
def hashNames (e : SdE C D A Q P) (key : P) (sigHash digHash : Option String) : Except PyErr (String × String) :=
  match sigHashOf e key sigHash with
  | .error x => .error x
  | .ok h => .ok (h, digHashOf h digHash)

/-- `envdatautils.py` 453-522, `prepare_signer_info`, with the two names. -/
def mkSignerInfo (e : SdE C D A Q P) (key : P) (c : C) (content : Bytes) (h h' : String) (bad : Bool) (version : Int) :
    Except PyErr (SInfo D A) :=
  match e.hash h' content with
  | .error x => .error x
  | .ok d =>
    match e.keyAlg key h with
    | .error x => .error x
    | .ok a =>
      match e.hashAlg h' with
      | .error x => .error x
      | .ok da =>
        match e.sign key (e.encInfo keyPackageOid (some content)) h with
        | .error x => .error x
        | .ok s => .ok ⟨version, mkSid e c, mkAttrs e d, a, da, some (if bad then s ++ [65, 65] else s)⟩

/-- `envdatautils.py` 699-727, `prepare_asymmetric_key_package` for private keys. -/
def mkPackage (e : SdE C D A Q P) (save : String) : List P → Except PyErr (List Q)
  | [] => .ok []
  | p :: ps =>
    match e.qMake p save with
    | .error x => .error x
    | .ok q =>
      match mkPackage e save ps with
      | .error x => .error x
      | .ok l => .ok (q :: l)

/-- `envdatautils.py` 650-660: the content. -/
def mkContent (e : SdE C D A Q P) (content : Option Bytes) (keys : Option (List P)) : Except PyErr Bytes :=
  match keys with
  | some l => (mkPackage e "raw" l).map e.encPkg
  | none =>
    match content with
    | none => .error .valueError
    | some b => .ok b

/-- `envdatautils.py` 609-695, `prepare_signed_data`, without prepared `SignerInfo` structures. -/
def mkSigned (e : SdE C D A Q P) (key : P) (c : C) (sigHash digHash : Option String) (content : Option Bytes)
    (keys : Option (List P)) (chain : Option (List C)) (bad : Bool) : Except PyErr (SData C D A) :=
  if content = none ∧ keys.isNone then .error .valueError
  else
    match hashNames e key sigHash digHash with
    | .error x => .error x
    | .ok (h, h') =>
      match mkContent e content keys with
      | .error x => .error x
      | .ok b =>
        match e.hashAlg h' with
        | .error x => .error x
        | .ok da =>
          match mkSignerInfo e key c b h h' bad 3 with
          | .error x => .error x
          | .ok s => .ok ⟨3, [da], keyPackageOid, some b, (chain.getD [c]).map some, [s]⟩

end Verif.Env
