import Verif.Check.KeyUsage

/-!
# Certificate chains and trust in a signer

`build_chain_from_list`, `build_cmp_chain_from_pkimessage`, `check_is_cert_signer`, `certificates_are_trustanchors`
and `certificates_must_be_trusted` (resources/certutils.py), `check_signer_is_trusted` (mock_ca/prot_handler.py),
`get_certificates_from_signed_data` and `_validate_kga_certificate` (resources/ca_kga_logic.py).

Certificates are values of an arbitrary type with decidable equality (equality of the DER encodings, which is what the
code compares); names, keys, the cryptographic operations and `openssl verify` are parameters (`ChainEnv`).

Simplified: logging and the temporary files of the OpenSSL call are left out; a failure of `subprocess` is one of the
results of `openssl`.
-/

namespace Verif.Check

open Verif.CA

variable {C N K : Type}

/-- What the code reads from certificates and the operations it calls. `hashOf`: `get_hash_from_oid` of the signature
algorithm; `pss`: the algorithm is in `RSASSA_PSS_OID_2_NAME`; `rsa`, `canVerify`: class of a public key; `verifyPss`,
`verify`: verification of the signature of a certificate under a key; `usage`: the KeyUsage extension; `eku`: the
ExtendedKeyUsage extension; `openssl`: result of `verify_cert_chain_openssl`; `pqKey`: the key is a composite or
post-quantum signature key. -/
structure ChainEnv (C N K : Type) where
  subject : C → N
  issuer : C → N
  loadKey : C → Except PyErr K
  hashOf : C → Except PyErr (Option String) := fun _ => .ok none
  pss : C → Bool := fun _ => false
  rsa : K → Bool := fun _ => false
  canVerify : K → Bool := fun _ => true
  verifyPss : K → C → Except PyErr Unit := fun _ _ => .error .invalidSignature
  verify : K → C → Option String → Except PyErr Unit
  usage : C → Except PyErr (Option (List Bool)) := fun _ => .ok none
  eku : C → Except PyErr (Option (List String)) := fun _ => .ok none
  openssl : List C → Except PyErr Unit := fun _ => .error .signerNotTrusted
  pqKey : C → Bool := fun _ => false

/-- `except (ValueError, InvalidSignature, BadSigAlgID)` of `check_is_cert_signer` (396). -/
def PyErr.isSignerErr : PyErr → Bool
  | .valueError | .invalidSignature | .badSigAlgId => true
  | _ => false

/-- The `try` block of `check_is_cert_signer` (374-395). -/
def verifyCertSig (env : ChainEnv C N K) (k : K) (h : Option String) (cert : C) : Except PyErr Unit :=
  if env.pss cert then
    if env.rsa k then env.verifyPss k cert else .error .valueError
  else if env.canVerify k then env.verify k cert h else .error .valueError

/-- `certutils.py` 359-399, `check_is_cert_signer`. -/
def isCertSigner [DecidableEq N] (env : ChainEnv C N K) (cert poss : C) : Except PyErr Bool :=
  if env.issuer cert ≠ env.subject poss then .ok false
  else match env.loadKey poss with
  | .error e => .error e
  | .ok k =>
    match env.hashOf cert with
    | .error e => .error e
    | .ok h =>
      match verifyCertSig env k h cert with
      | .ok () => .ok true
      | .error e => if PyErr.isSignerErr e then .ok false else .error e

/-- The inner loop of `build_chain_from_list` (273-277). -/
def findIssuer [DecidableEq N] (env : ChainEnv C N K) (cur : C) : List C → Except PyErr (Option C)
  | [] => .ok none
  | c :: cs =>
    match isCertSigner env cur c with
    | .error e => .error e
    | .ok true => .ok (some c)
    | .ok false => findIssuer env cur cs

/-- The outer loop of `build_chain_from_list` (272-282) with `n` iterations left, returning the certificates appended
to the chain; `current_cert` is always the last one of the chain. -/
def growChain [DecidableEq N] (env : ChainEnv C N K) (certs : List C) : Nat → C → Except PyErr (List C)
  | 0, _ => .ok []
  | n + 1, cur =>
    match findIssuer env cur certs with
    | .error e => .error e
    | .ok none => if env.issuer cur = env.subject cur then .ok [] else growChain env certs n cur
    | .ok (some i) =>
      if env.issuer i = env.subject i then .ok [i]
      else match growChain env certs n i with
        | .error e => .error e
        | .ok l => .ok (i :: l)

/-- The last certificate of a chain that starts with `a`. -/
def lastOf (a : C) : List C → C
  | [] => a
  | b :: l => lastOf b l

/-- `certutils.py` 249-292, `build_chain_from_list`. -/
def buildChain [DecidableEq N] (env : ChainEnv C N K) (ee : C) (certs : List C) (mustSelf : Bool := false) :
    Except PyErr (List C) :=
  match isCertSigner env ee ee with
  | .error e => .error e
  | .ok true => .ok [ee]
  | .ok false =>
    match growChain env certs (certs.length + 1) ee with
    | .error e => .error e
    | .ok l =>
      if env.issuer (lastOf ee l) ≠ env.subject (lastOf ee l) ∧ mustSelf = true then .error .valueError
      else .ok (ee :: l)

/-- `certutils.py` 402-467, `build_cmp_chain_from_pkimessage` with `for_issued_cert=False` and the default for
`ee_cert`; `extraCerts` without a value is `none`. -/
def buildCmpChain [DecidableEq N] (env : ChainEnv C N K) (extraCerts : Option (List C)) : Except PyErr (List C) :=
  match extraCerts with
  | none => .error .valueError
  | some [] => .error .indexError
  | some (c :: cs) => buildChain env c (c :: cs)

/-- `certutils.py` 1053-1066, `cert_in_list`. -/
def chainCertInList [DecidableEq C] (cert : C) (l : List C) : Bool := l.any (fun c => cert = c)

/-- `certutils.py` 1069-1114, `certificates_are_trustanchors`; `anchors` is the loaded trust store. -/
def areAnchors [DecidableEq C] (anchors : Except PyErr (List C)) (certs : List C) : Except PyErr Unit :=
  match anchors with
  | .error e => .error e
  | .ok [] => .error .valueError
  | .ok as => if certs.all (fun c => chainCertInList c as) then .ok () else .error .signerNotTrusted

/-- `certutils.py` 1117-1196, `certificates_must_be_trusted` (a trust store directory is given); a chain of the caller
is never empty. -/
def mustBeTrusted [DecidableEq C] (env : ChainEnv C N K) (anchors : Except PyErr (List C)) (ee : C) (rest : List C)
    (usages : List (List Char)) (s : Strictness) : Except PyErr Unit :=
  match anchors with
  | .error e => .error e
  | .ok as =>
    if chainCertInList (lastOf ee rest) as = false then .error .signerNotTrusted
    else if rest = [] then .ok ()
    else match env.openssl (ee :: rest) with
    | .error e => .error e
    | .ok () => validateKeyUsage keyUsageNames (env.usage ee) usages s

/-- `ProtectedType` of a protected message, as far as `check_signer_is_trusted` distinguishes it: composite,
post-quantum and stateful hash-based signatures (`modern`) skip OpenSSL. -/
inductive SigClass where
  | modern
  | other
  deriving DecidableEq, Repr

/-- `prot_handler.py` 807-861, `check_signer_is_trusted` (the conversion of `FileNotFoundError` is left out). -/
def checkTrusted [DecidableEq C] [DecidableEq N] (env : ChainEnv C N K) (anchors : Except PyErr (List C))
    (useOpenssl : Bool) (cls : SigClass) (forDh : Bool) (extraCerts : Option (List C)) : Except PyErr Unit :=
  match buildCmpChain env extraCerts with
  | .error e => .error e
  | .ok [] => .error .indexError
  | .ok (ee :: rest) =>
    if useOpenssl = true ∧ cls = .other then
      match mustBeTrusted env anchors ee rest [if forDh then "keyAgreement".toList else "digitalSignature".toList]
        .lax with
      | .ok () => .ok ()
      | .error e => if e = .valueError then .error .notAuthorized else .error e
    else areAnchors anchors [lastOf ee rest]

/-! ## The certificate of the key generation authority -/

/-- `l[-1]` and `l[:-1]`. -/
def lastInit (a : C) (l : List C) : C × List C := (lastOf a l, (a :: l).dropLast)

/-- `ca_kga_logic.py` 1104-1142, `get_certificates_from_signed_data` (all choices are certificates). -/
def signedDataCerts [DecidableEq N] (env : ChainEnv C N K) (certs : List C) : Except PyErr (List C) :=
  match certs with
  | [] => .ok []
  | [c] => .ok [c]
  | c :: cs =>
    match buildChain env c cs with
    | .error e => .error e
    | .ok l1 =>
      match buildChain env (lastInit c cs).1 (lastInit c cs).2 with
      | .error e => .error e
      | .ok l2 =>
        let out := if l1.length > l2.length then l1 else l2
        if out.length ≠ (c :: cs).length then .error .valueError else .ok out

/-- `checkutils.py` 888-908, `find_right_cert_pos`: the first certificate whose key verifies the signature;
`sigOk` is the verdict of `verify_signature_with_cert`. -/
def findSigner (sigOk : C → Except PyErr Unit) : List C → Nat → Except PyErr (Option Nat)
  | [], _ => .ok none
  | c :: cs, i =>
    match sigOk c with
    | .ok () => .ok (some i)
    | .error e => if e = .valueError ∨ e = .invalidSignature then findSigner sigOk cs (i + 1) else .error e

/-- `ca_kga_logic.py` 1262-1311, `_validate_kga_certificate`. -/
def validateKgaCert [DecidableEq C] [DecidableEq N] (env : ChainEnv C N K) (anchors : Except PyErr (List C))
    (sigOk : C → Except PyErr Unit) (certs : List C) : Except PyErr Unit :=
  match certs with
  | [] => .ok ()
  | c :: cs =>
    match areAnchors anchors [lastOf c cs] with
    | .error e => .error e
    | .ok () =>
      if (c :: cs).any env.pqKey then
        match buildChain env c cs with
        | .error e => .error e
        | .ok l => if l ≠ c :: cs then .error .valueError else .ok ()
      else match env.openssl (c :: cs) with
      | .error e => .error e
      | .ok () =>
        match findSigner sigOk (c :: cs) 0 with
        | .error e => .error e
        | .ok none => .error .valueError
        | .ok (some i) => if i ≠ 0 then .error .valueError else .ok ()

/-- The parts of a `SignedData` structure that `validate_signed_data_structure` reads. `key`: the key in the
`AsymmetricKeyPackage` (with the checks of `validate_asymmetric_key_package`); `sid`: the kind and value of the signer
identifier; `attrDigest`: the digest in the signed attributes (`validate_signed_attributes`); `algs`: verdict of
`validate_signature_and_digest_alg`. -/
structure SignedData (C P S : Type) where
  version : Int
  digestAlgs : Nat
  contentType : Bool
  trailing : Bool
  key : Except PyErr P
  certs : List C
  signerInfos : Nat
  infoVersion : Int
  sidIsSki : Bool
  sid : S
  attrDigest : Except PyErr Bytes
  algs : Except PyErr Unit
  hasSignature : Bool

/-- The operations on a `SignedData` structure. `conform`: `check_protection_alg_conform_to_spki`; `digest`: digest of
the content with `get_digest_alg_for_cmp`; `sigOk`: `verify_signature_with_cert` over the encapsulated content info. -/
structure SdEnv (C : Type) where
  conform : C → Bool
  digest : C → Except PyErr Bytes
  sigOk : C → Except PyErr Unit

/-- `ca_kga_logic.py` 1313-1372, `check_signer_infos`, with one expected digest. -/
def checkSignerInfos {P S : Type} (o : SdEnv C) (sd : SignedData C P S) (kga : C) : Except PyErr Bytes :=
  if sd.signerInfos ≠ 1 then .error .valueError
  else if sd.infoVersion ≠ 3 then .error .valueError
  else if sd.sidIsSki = false then .error .valueError
  else match sd.attrDigest with
  | .error e => .error e
  | .ok d =>
    match sd.algs with
    | .error e => .error e
    | .ok () =>
      if o.conform kga = false then .error .valueError
      else if sd.hasSignature = false then .error .valueError
      else .ok d

/-- `ca_kga_logic.py` 1145-1172, `_validate_signature_and_algorithm_in_signed_data`. -/
def checkSdSignature (o : SdEnv C) (attrDigest : Bytes) (kga : C) : Except PyErr Unit :=
  match o.digest kga with
  | .error e => .error e
  | .ok d => if attrDigest ≠ d then .error .valueError else o.sigOk kga

/-- `ca_kga_logic.py` 1175-1246, `validate_signed_data_structure` with `expected_size = 1`, `key_index = 0`. -/
def validateSignedData {P S : Type} [DecidableEq C] [DecidableEq N] (env : ChainEnv C N K) (o : SdEnv C)
    (anchors : Except PyErr (List C)) (sd : SignedData C P S) : Except PyErr P :=
  if sd.version ≠ 3 then .error .valueError
  else if sd.digestAlgs ≠ 1 then .error .valueError
  else if sd.contentType = false then .error .valueError
  else if sd.trailing = true then .error .valueError
  else match sd.key with
  | .error e => .error e
  | .ok p =>
    match signedDataCerts env sd.certs with
    | .error e => .error e
    | .ok [] => .error .indexError
    | .ok (kga :: rest) =>
      match checkSignerInfos o sd kga with
      | .error e => .error e
      | .ok d =>
        match checkSdSignature o d kga with
        | .error e => .error e
        | .ok () =>
          match validateKgaCert env anchors o.sigOk (kga :: rest) with
          | .error e => .error e
          | .ok () =>
            match validateEku (env.eku kga) ["cmKGA"] .strict with
            | .error e => .error e
            | .ok () => .ok p

end Verif.Check
