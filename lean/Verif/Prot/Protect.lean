import Verif.Prot.Mac

/-!
# Protecting messages and verifying their protection

`resources/protectionutils.py`: `protect_pkimessage`, `verify_pkimessage_protection`,
`protect_pkimessage_kem_based_mac`, and what they call.

Parameters (`Env`): the classes of keys, signing and verifying with a key, ECDH, key encapsulation, the keys in
certificates, the OIDs of composite and post-quantum algorithms, and `check_consistency_sig_alg_id_and_key`. Signing and
verifying take the padding and hash (`SigMode`) that the code chooses.

Not modelled: the option `add_params_rand_val`; reading certificates from files (the chain that was read is an
argument).
-/

namespace Verif.Prot

open Verif.CA

/-- How a key signs: with a hash, with PSS padding (hash and salt length), with PSS padding and SHAKE, or the way of a
composite key (with PSS?). -/
inductive SigMode where
  | plain (hash : Option String)
  | pss (hash : String) (salt : Int)
  | pssShake (hash : String)
  | composite (pss : Bool)
  deriving DecidableEq, Repr

/-- How a key encapsulates: RSA-OAEP, RSA-KEM, or the only way of the key. -/
inductive KemMode where
  | oaep | rsaKem | plain
  deriving DecidableEq, Repr

/-- Private keys `S`, public keys `K` and certificates `C`. -/
structure Env (S K C : Type) extends MacEnv where
  isSignKey : S → Bool
  isComposite : S → Bool
  isRsa : S → Bool
  isDsa : S → Bool
  isEcdh : S → Bool
  /-- X25519 and X448. -/
  isX : S → Bool
  isKemKey : S → Bool
  isRsaKem : S → Bool
  isVerifyKey : K → Bool
  isCompositePub : K → Bool
  isRsaPub : K → Bool
  isEcdhPub : K → Bool
  isKemPub : K → Bool
  isRsaKemPub : K → Bool
  sign : S → SigMode → Bytes → Except PyErr Bytes
  /-- Key, mode, data, signature. -/
  verify : K → SigMode → Bytes → Bytes → Except PyErr Unit
  ecdh : S → K → Except PyErr Bytes
  /-- Key, mode, random value: shared secret and ciphertext. -/
  encaps : K → KemMode → Bytes → Except PyErr (Bytes × Bytes)
  decaps : S → KemMode → Bytes → Except PyErr Bytes
  /-- `get_kem_oid_from_key`. -/
  kemOid : S → Oid
  kemOidPub : K → Oid
  /-- `load_public_key_from_cert`. -/
  keyOf : C → Except PyErr K
  /-- `get_hash_from_oid` of the signature algorithm of a certificate. -/
  certHash : C → Except PyErr (Option String)
  /-- `build_certificate`: a certificate for a key. -/
  selfCert : S → Except PyErr C
  /-- `patch_sender_and_sender_kid` on the header fields. -/
  patchSender : C → Bytes → Bytes
  /-- `get_alg_oid_from_key_hash`. -/
  sigOid : S → String → Except PyErr Oid
  /-- `CompositeSigPrivateKey.get_oid`. -/
  compOid : S → Oid
  /-- `COMPOSITE_SIG_OID_TO_NAME`: does the name end with `-pss`? -/
  compName : Oid → Option Bool
  isPqOid : Oid → Bool
  isPqSig : Oid → Bool
  isPqPre : Oid → Bool
  isStateful : Oid → Bool
  /-- `check_consistency_sig_alg_id_and_key`. -/
  consistent : K → Oid → Except PyErr Unit
  /-- Decoding an algorithm identifier inside other parameters. -/
  decAlg : Bytes → Option (Oid × Bytes)
  /-- Decoding `KemCiphertextInfoValue`. -/
  decCt : Bytes → Option ((Oid × Option Bytes) × Bytes)
  hkdf : String → Bytes → Bytes → Int → Except PyErr Bytes
  /-- The encoded `KemOtherInfo`: transaction id, context. -/
  encInfo : Bytes → Option Bytes → Bytes

variable {S K C : Type}

/-- `oidutils.py` 233-241, membership in `TRAD_SIG_OID_2_NAME`. -/
def isTradSig (o : Oid) : Bool :=
  (look rsaNames o).isSome || (look pssNames o).isSome || (look ecdsaNames o).isSome || decide (o = ed25519Oid) ||
    decide (o = ed448Oid)

/-- `rfc5480.id_dsa_with_sha256`. -/
def dsaOid : Oid := [2, 16, 840, 1, 101, 3, 4, 3, 2]
/-- `rfc8017.id_mgf1`. -/
def mgf1Oid : Oid := [1, 2, 840, 113549, 1, 1, 8]

/-! ## Signatures -/

/-- Digest sizes of the hash functions. -/
def digestSize (n : String) : Int :=
  if n = "sha1" then 20
  else if n = "sha224" ∨ n = "sha3_224" then 28
  else if n = "sha256" ∨ n = "sha3_256" ∨ n = "shake128" then 32
  else if n = "sha384" ∨ n = "sha3_384" then 48
  else 64

/-- `cryptoutils.py` 63-181, `sign_data`. -/
def signData (env : Env S K C) (s : S) (h : Option String) (pss : Bool) (data : Bytes) : Except PyErr Bytes :=
  if env.isComposite s then env.sign s (.composite pss) data
  else if env.isRsa s ∧ pss = true then
    match h with
    | none => .error .valueError
    | some n =>
      if n = "shake128" ∨ n = "shake256" then env.sign s (.pssShake n) data
      else env.sign s (.pss n (digestSize n)) data
  else env.sign s (.plain h) data

/-- `cryptoutils.py` 622-720, `verify_signature`, without PSS. -/
def verifyData (env : Env S K C) (k : K) (h : Option String) (data sig : Bytes) : Except PyErr Unit :=
  if env.isCompositePub k then env.verify k (.composite false) data sig else env.verify k (.plain h) data sig

/-- `protectionutils.py` 2424-2463, `sign_data_with_alg_id`. For RSASSA-PSS the hash is taken from the OID, not from the
parameters. -/
def signAlg (env : Env S K C) (s : S) (a : AlgId) (data : Bytes) : Except PyErr Bytes :=
  if env.isComposite s then
    match env.compName a.oid with
    | none => .error .keyError
    | some pss => env.sign s (.composite pss) data
  else if (look pssNames a.oid).isSome ∧ env.isRsa s then
    match hashOfOid env.toMacEnv a.oid true with
    | .error e => .error e
    | .ok h => signData env s h true data
  else if env.isPqOid a.oid ∨ isTradSig a.oid then
    match hashOfOid env.toMacEnv a.oid true with
    | .error e => .error e
    | .ok h => signData env s h false data
  else .error .valueError

/-- `protectionutils.py` 2489-2497, `_is_parmeters_null`; the encoded NULL is `05 00`. -/
def isNullPar : Par → Bool
  | .null => true
  | .raw b => decide (b = [5, 0])
  | _ => false

/-- `protectionutils.py` 2500-2618, `_validate_sig_alg_id`. -/
def validSigAlg (env : Env S K C) (a : AlgId) : Except PyErr Unit :=
  if (env.compName a.oid).isSome then if a.par ≠ .absent then .error .badSigAlgId else .ok ()
  else if (look ecdsaNames a.oid).isSome ∨ a.oid = ed448Oid ∨ a.oid = ed25519Oid then
    if a.par ≠ .absent then .error .badSigAlgId else .ok ()
  else if (look rsaNames a.oid).isSome then if isNullPar a.par then .ok () else .error .badSigAlgId
  else if (look pssNames a.oid).isSome then
    if a.oid = pssOid then if a.par = .absent then .error .badSigAlgId else .ok ()
    else if a.par ≠ .absent then .error .badSigAlgId else .ok ()
  else if env.isPqOid a.oid then
    if env.isStateful a.oid ∨ env.isPqSig a.oid ∨ env.isPqPre a.oid then
      if a.par ≠ .absent then .error .badSigAlgId else .ok ()
    else .error .badAlg
  else .error .badAlg

/-- `protectionutils.py` 1836-1841. -/
def getPss (env : Env S K C) : Par → Except PyErr Pss
  | .pss p => .ok p
  | .raw b =>
    match env.decPss b with
    | none => .error .pyasn1Error
    | some (p, rest) => if rest ≠ [] then .error .valueError else .ok p
  | _ => .error .pyasn1Error

/-- `protectionutils.py` 1852-1858: the hash of the mask generation function. -/
def getMgf (env : Env S K C) : MgfPar → Except PyErr Oid
  | .alg o => .ok o
  | .raw b =>
    match env.decAlg b with
    | none => .error .pyasn1Error
    | some (o, rest) => if rest ≠ [] then .error .valueError else .ok o
  | .absent => .error .pyasn1Error

/-- `protectionutils.py` 1842-1861 and 1870-1877. -/
def verifyPssPar (env : Env S K C) (k : K) (p : Pss) (data sig : Bytes) : Except PyErr Unit :=
  match hashOfOid env.toMacEnv p.hash false with
  | .error e => .error e
  | .ok none => .error .typeError
  | .ok (some h) =>
    match hashInst h with
    | .error e => .error e
    | .ok n =>
      if p.mgf ≠ mgf1Oid then .error .valueError
      else
        match getMgf env p.mgfPar with
        | .error e => .error e
        | .ok o =>
          if o ≠ p.hash then .error .valueError
          else env.verify k (.pss n (if p.salt = 0 then digestSize n else p.salt)) data sig

/-- `protectionutils.py` 1821-1877, `verify_rsassa_pss_from_alg_id`. -/
def verifyPss (env : Env S K C) (k : K) (a : AlgId) (data sig : Bytes) : Except PyErr Unit :=
  if a.oid = pssOid then
    if a.par = .absent then .error .valueError
    else
      match getPss env a.par with
      | .error e => .error e
      | .ok p => verifyPssPar env k p data sig
  else if a.oid = pss128Oid then
    if a.par ≠ .absent then .error .badDataFormat else env.verify k (.pssShake "shake128") data sig
  else if a.oid = pss256Oid then
    if a.par ≠ .absent then .error .badDataFormat else env.verify k (.pssShake "shake256") data sig
  else .error .valueError

/-- `protectionutils.py` 2666-2674: the hash, and the exceptions of the two checks. -/
def sigHashChecked (env : Env S K C) (k : K) (o : Oid) : Except PyErr (Option String) :=
  match hashOfOid env.toMacEnv o true with
  | .error .valueError => .error .badAlg
  | .error e => .error e
  | .ok h =>
    match env.consistent k o with
    | .error .valueError => .error .badAlg
    | .error .badAlg => .error .invalidSignature
    | .error e => .error e
    | .ok () => .ok h

/-- `protectionutils.py` 2622-2677, `verify_signature_with_alg_id`. -/
def verifyAlg (env : Env S K C) (k : K) (a : AlgId) (data sig : Bytes) : Except PyErr Unit :=
  match validSigAlg env a with
  | .error e => .error e
  | .ok () =>
    match env.compName a.oid with
    | some pss => if env.isCompositePub k then env.verify k (.composite pss) data sig else .error .typeError
    | none =>
      if (look pssNames a.oid).isSome ∧ env.isRsaPub k then verifyPss env k a data sig
      else if env.isPqOid a.oid ∨ isTradSig a.oid then
        match sigHashChecked env k a.oid with
        | .error e => .error e
        | .ok h => verifyData env k h data sig
      else .error .badAlg

/-- The characters after the last `-`. -/
def lastDash (s : String) : String := String.ofList (s.toList.reverse.takeWhile (fun c => decide (c ≠ '-'))).reverse

/-- `pki_message["extraCerts"][0]` and its key. -/
def firstKey (env : Env S K C) : List C → Except PyErr K
  | [] => .error .indexError
  | c :: _ => env.keyOf c

/-- `protectionutils.py` 1320: the key that was given, or the one of the first certificate. -/
def pickKey (env : Env S K C) (pub : Option K) (certs : List C) : Except PyErr K :=
  match pub with
  | some k => .ok k
  | none => firstKey env certs

/-- `protectionutils.py` 1308-1339, `_verify_pki_message_sig`, for the algorithm, the protected part and the value. -/
def verifySigWith (env : Env S K C) (pub : Option K) (certs : List C) (a : AlgId) (data sig : Bytes) :
    Except PyErr Unit :=
  if (look pssNames a.oid).isSome then
    match pickKey env pub certs with
    | .error e => .error e
    | .ok k => if env.isRsaPub k then verifyPss env k a data sig else .error .valueError
  else
    match hashOfOid env.toMacEnv a.oid false with
    | .error e => .error e
    | .ok h =>
      match pub with
      | some k => verifyAlg env k a data sig
      | none =>
        match firstKey env certs with
        | .error e => .error e
        | .ok k => if env.isVerifyKey k then verifyData env k (h.map lastDash) data sig else .error .valueError

/-! ## DH-based MAC -/

/-- A public key or a certificate. -/
inductive Peer (K C : Type) where
  | key (k : K)
  | cert (c : C)

/-- `protectionutils.py` 1162-1163. -/
def peerKey (env : Env S K C) : Peer K C → Except PyErr K
  | .key k => .ok k
  | .cert c => env.keyOf c

/-- `protectionutils.py` 1159-1163: the public key of the other side. -/
def dhPeer (env : Env S K C) (p : Option (Peer K C)) (certs : List C) : Except PyErr K :=
  match p with
  | some q => peerKey env q
  | none => firstKey env certs

/-- `protectionutils.py` 1141-1172, `_perform_dh_based_mac_exchange`. -/
def dhExchange (env : Env S K C) (priv : Option S) (pub : Option (Peer K C)) (certs : List C) : Except PyErr Bytes :=
  match pub, certs with
  | none, [] => .error .valueError
  | p, cs =>
    match priv with
    | none => .error .valueError
    | some s =>
      if env.isEcdh s then
        match dhPeer env p cs with
        | .error e => .error e
        | .ok k => if env.isEcdhPub k then env.ecdh s k else .error .valueError
      else .error .valueError

/-- Is the shared secret set and not empty? -/
def haveSecret : Option Bytes → Option Bytes
  | none => none
  | some [] => none
  | some b => some b

/-- The shared secret that was given, or the one of the key exchange. -/
def dhSecret (env : Env S K C) (ss : Option Bytes) (priv : Option S) (pub : Option (Peer K C)) (certs : List C) :
    Except PyErr Bytes :=
  match haveSecret ss with
  | some b => .ok b
  | none => dhExchange env priv pub certs

/-- `protectionutils.py` 1175-1208, `_verify_dh_based_protection`. -/
def verifyDh (env : Env S K C) (rnd : Bytes) (m : Msg C) (priv : Option S) (ss : Option Bytes) (pub : Option K) :
    Except PyErr Unit :=
  if ss = none ∧ priv.isNone then .error .valueError
  else
    match dhSecret env ss priv (pub.map .key) m.certs with
    | .error e => .error e
    | .ok b =>
      match symProt env.toMacEnv rnd m b false with
      | .error e => .error e
      | .ok v => if m.prot = some v then .ok () else .error .badMessageCheck

/-! ## KEM-based MAC -/

/-- `oidutils.py` 479-490, `HKDF_OID_2_NAME`. -/
def hkdfNames : List (Oid × String) :=
  [([1, 2, 840, 113549, 1, 9, 16, 3, 28], "hkdf-sha256"), ([1, 2, 840, 113549, 1, 9, 16, 3, 29], "hkdf-sha384"),
   ([1, 2, 840, 113549, 1, 9, 16, 3, 30], "hkdf-sha512"), ([1, 2, 840, 113549, 1, 9, 16, 3, 32], "hkdf-sha3-224"),
   ([1, 2, 840, 113549, 1, 9, 16, 3, 33], "hkdf-sha3-256"), ([1, 2, 840, 113549, 1, 9, 16, 3, 34], "hkdf-sha3-384"),
   ([1, 2, 840, 113549, 1, 9, 16, 3, 35], "hkdf-sha3-512")]

/-- `rfc5990.id_kdf_kdf2`. -/
def kdf2Oid : Oid := [1, 3, 133, 16, 840, 9, 44, 1, 1]
/-- `rfc5990.id_kdf_kdf3`. -/
def kdf3Oid : Oid := [1, 3, 133, 16, 840, 9, 44, 1, 2]

/-- `counter.to_bytes(4, "big")`. -/
def ctrBytes (i : Nat) : Bytes :=
  [UInt8.ofNat (i / 16777216), UInt8.ofNat (i / 65536), UInt8.ofNat (i / 256), UInt8.ofNat i]

/-- `cryptoutils.py` 584-594: the loop. A round adds at least one byte, so `fuel` rounds are enough for `fuel` bytes. -/
def x963Loop (env : MacEnv) (n : String) (v2 : Bool) (ss info : Bytes) (len : Nat) : Nat → Nat → Bytes → Bytes
  | 0, _, acc => acc
  | f + 1, i, acc =>
    if acc.length < len then
      x963Loop env n v2 ss info len f (i + 1)
        (acc ++ env.H n (if v2 then ss ++ ctrBytes i ++ info else ctrBytes i ++ ss ++ info))
    else acc

/-- `cryptoutils.py` 560-596, `compute_ansi_x9_63_kdf`. -/
def x963 (env : MacEnv) (h : String) (v2 : Bool) (ss info : Bytes) (len : Int) : Except PyErr Bytes :=
  match hashInst h with
  | .error e => .error e
  | .ok n => .ok ((x963Loop env n v2 ss info len.toNat len.toNat 1 []).take len.toNat)

/-- `protectionutils.py` 2074-2077. -/
def getKdfHash (env : Env S K C) : KdfPar → Except PyErr Oid
  | .hash o => .ok o
  | .raw b =>
    match env.decAlg b with
    | none => .error .pyasn1Error
    | some (o, _) => .ok o
  | _ => .error .pyasn1Error

/-- `protectionutils.py` 2093-2096: encoded parameters are decoded as an algorithm identifier, which has no field
`prf`. -/
def getKdfPbkdf2 (env : Env S K C) : KdfPar → Except PyErr Pbkdf2
  | .pbkdf2 p => .ok p
  | .raw b =>
    match env.decAlg b with
    | none => .error .pyasn1Error
    | some _ => .error .keyError
  | _ => .error .pyasn1Error

/-- `protectionutils.py` 2055-2104, `compute_kdf_from_alg_id`. -/
def kdfOf (env : Env S K C) (o : Oid) (par : KdfPar) (ss info : Bytes) (len : Int) : Except PyErr Bytes :=
  match look hkdfNames o with
  | some n =>
    match dash1 n with
    | .error e => .error e
    | .ok h =>
      match hashInst h with
      | .error e => .error e
      | .ok n => env.hkdf n ss info len
  | none =>
    if o = kdf2Oid ∨ o = kdf3Oid then
      match getKdfHash env par with
      | .error e => .error e
      | .ok ho =>
        match hashOfOid env.toMacEnv ho false with
        | .error e => .error e
        | .ok none => .error .badAlg
        | .ok (some h) => x963 env.toMacEnv h (decide (o = kdf2Oid)) ss info len
    else if o = pbkdf2Oid then
      match getKdfPbkdf2 env par with
      | .error e => .error e
      | .ok p => if (look hmacNames p.prf).isSome then pbkdf2Of env.toMacEnv p ss else .error .badAlg
    else .error .valueError

/-- `protectionutils.py` 2124-2130. -/
def getKem (env : Env S K C) : Par → Except PyErr KemBm
  | .kem p => .ok p
  | .raw b =>
    match env.decKem b with
    | none => .error .badAsn1Data
    | some (p, rest) => if rest ≠ [] then .error .badAsn1Data else .ok p
  | _ => .error .pyasn1Error

/-- `protectionutils.py` 2151-2161. -/
def kemMacTail (env : Env S K C) (p : KemBm) (key data : Bytes) : Except PyErr Bytes :=
  match look hmacNames p.mac with
  | some n =>
    match dash1 n with
    | .error e => .error e
    | .ok h => hmacOf env.toMacEnv h key data
  | none =>
    if p.mac = kmac128Oid ∨ p.mac = kmac256Oid then kmacOf env.toMacEnv p.mac p.macPar.isSome key data
    else .error .valueError

/-- `protectionutils.py` 2108-2161, `compute_kem_based_mac_from_alg_id`. An empty context is left out. -/
def kemMac (env : Env S K C) (par : Par) (ss tx data : Bytes) : Except PyErr Bytes :=
  match getKem env par with
  | .error e => .error e
  | .ok p =>
    match kdfOf env p.kdf p.kdfPar ss (env.encInfo tx (haveSecret p.ctx)) p.len with
    | .error e => .error e
    | .ok key => kemMacTail env p key data

/-- `tmp_oids.py` 98, `id_it_KemCiphertextInfo`. -/
def kemInfoOid : Oid := [1, 3, 6, 1, 5, 5, 7, 4, 9999]

/-- `protectionutils.py` 2352-2356: the first such value. -/
def findCt : List (Oid × InfoVal) → Option InfoVal
  | [] => none
  | (o, v) :: l => if o = kemInfoOid then some v else findCt l

/-- `protectionutils.py` 2361-2364. -/
def getCt (env : Env S K C) : InfoVal → Except PyErr (Oid × Option Bytes)
  | .kemCt _ _ => .error .pyasn1Error
  | .raw b =>
    match env.decCt b with
    | none => .error .pyasn1Error
    | some (x, rest) => if rest ≠ [] then .error .valueError else .ok x

/-- `cryptoutils.py` 850-896, `compute_decapsulation`. -/
def decapsCms (env : Env S K C) (s : S) (ct : Bytes) : Except PyErr Bytes :=
  env.decaps s (if env.isRsaKem s then .rsaKem else .plain) ct

/-- `protectionutils.py` 2352-2382: the shared secret in a message. -/
def secretIn (env : Env S K C) (m : Msg C) (s : S) : Except PyErr Bytes :=
  match findCt m.hdr.info with
  | none => .error .valueError
  | some v =>
    match getCt env v with
    | .error e => .error e
    | .ok (o, ct) =>
      if o ≠ env.kemOid s then .error .valueError
      else
        match ct with
        | none => .error .pyasn1Error
        | some c => decapsCms env s c

/-- `protectionutils.py` 2342-2385: the shared secret for the verification. -/
def kemSecret (env : Env S K C) (m : Msg C) (priv : Option S) (ss : Option Bytes) : Except PyErr Bytes :=
  match priv, ss with
  | none, none => .error .valueError
  | none, some b => .ok b
  | some s, some b => if env.isKemKey s then .ok b else .error .valueError
  | some s, none => if env.isKemKey s then secretIn env m s else .error .valueError

/-- `protectionutils.py` 2387-2390: the expected value. -/
def kemValue (env : Env S K C) (m : Msg C) (ss : Bytes) : Except PyErr Bytes :=
  match protectedPart env.toMacEnv m with
  | .error e => .error e
  | .ok data =>
    match m.hdr.txId with
    | none => .error .badMessageCheck
    | some tx =>
      match m.hdr.alg with
      | none => .error .pyasn1Error
      | some a => kemMac env a.par ss tx data

/-- `protectionutils.py` 2327-2394, `verify_kem_based_mac_protection`. -/
def verifyKem (env : Env S K C) (m : Msg C) (priv : Option S) (ss : Option Bytes) : Except PyErr Unit :=
  match kemSecret env m priv ss with
  | .error e => .error e
  | .ok b =>
    match kemValue env m b with
    | .error e => .error e
    | .ok v => if m.prot = some v then .ok () else .error .badMessageCheck

/-- `prepare_alg_ids.py` 157-199 and 532-537: the key derivation function. -/
def prepKdf (rnd : Bytes) (kdf h : String) : Except PyErr (Oid × KdfPar) :=
  if kdf = "pbkdf2" then (prepPbkdf2 rnd 100000 32 h).map (fun p => (pbkdf2Oid, .pbkdf2 p))
  else if kdf = "hkdf" then
    match lookOid hkdfNames ("hkdf-" ++ h) with
    | none => .error .keyError
    | some o => .ok (o, .absent)
  else if "kdf".toList.isPrefixOf kdf.toList then
    (oidOfName h).map (fun o => (if kdf = "kdf2" then kdf2Oid else kdf3Oid, .hash o))
  else .error .valueError

/-- `prepare_alg_ids.py` 505-582, `prepare_kem_based_mac_alg_id`. -/
def prepKem (rnd : Bytes) (kdf h : String) (ctx : Option Bytes) : Except PyErr AlgId :=
  match prepKdf rnd kdf h with
  | .error e => .error e
  | .ok (ko, kp) => (hmacOid h).map (fun o => ⟨kemMacOid, .kem ⟨ko, kp, ctx, 32, o, none⟩⟩)

/-- How the secret of `protect_pkimessage_kem_based_mac` is found. -/
inductive KemSrc (S K C : Type) where
  | secret (ss : Bytes)
  | ct (priv : Option S) (ct : Option Bytes)
  | peer (c : C) (rnd : Bytes)

/-- `protectionutils.py` 2299-2306: the encapsulation for the key of a certificate, and the message with the
ciphertext. -/
def encapsTo (env : Env S K C) (m : Msg C) (c : C) (r : Bytes) : Except PyErr (Bytes × Msg C) :=
  match env.keyOf c with
  | .error e => .error e
  | .ok k =>
    if env.isKemPub k then
      match env.encaps k (if env.isRsaKemPub k then .oaep else .plain) r with
      | .error e => .error e
      | .ok (ss, ct) =>
        .ok (ss, { m with hdr := { m.hdr with info := m.hdr.info ++ [(kemInfoOid, .kemCt (env.kemOidPub k) (some ct))] } })
    else .error .valueError

/-- `protectionutils.py` 2292-2306. -/
def kemSource (env : Env S K C) (m : Msg C) : KemSrc S K C → Except PyErr (Bytes × Msg C)
  | .secret ss => .ok (ss, m)
  | .ct none _ => .error .valueError
  | .ct (some s) ct =>
    if env.isKemKey s then
      match ct with
      | none => .error .pyasn1Error
      | some c => (env.decaps s (if env.isRsaKem s then .oaep else .plain) c).map (fun ss => (ss, m))
    else .error .valueError
  | .peer c r => encapsTo env m c r

/-- `utils.py` 105-115, `manipulate_first_byte`. -/
def manip : Bytes → Except PyErr Bytes
  | [] => .error .indexError
  | b :: l => if b = 0 then .ok (1 :: l) else .ok (0 :: l)

/-- `bad_message_check`. -/
def manipIf (bad : Bool) (b : Bytes) : Except PyErr Bytes := if bad then manip b else .ok b

/-- `protectionutils.py` 2244-2323, `protect_pkimessage_kem_based_mac`. `rnd` is the salt of PBKDF2. -/
def protectKem (env : Env S K C) (m : Msg C) (src : KemSrc S K C) (rnd : Bytes) (kdf h : String) (ctx : Option Bytes)
    (bad : Bool) : Except PyErr (Msg C) :=
  match kemSource env m src with
  | .error e => .error e
  | .ok (ss, m1) =>
    match prepKem rnd kdf h ctx with
    | .error e => .error e
    | .ok a =>
      match kemValue env { m1 with hdr := { m1.hdr with alg := some a } } ss with
      | .error e => .error e
      | .ok v => (manipIf bad v).map (fun v => { m1 with hdr := { m1.hdr with alg := some a }, prot := some v })

/-! ## Protecting -/

/-- The arguments of `protect_pkimessage`. `found` is the chain read from files. -/
structure PArgs (S K C : Type) where
  name : String
  password : Option Bytes
  priv : Option S
  ss : Option Bytes
  cert : Option C
  exclude : Bool
  bad : Bool
  doPatch : Bool
  par : ProtParams
  /-- `params["certificate"]`. -/
  hashCert : Option C
  chain : Option (List C)
  found : Option (List C)
  peer : Option (Peer K C)
  rnd : Bytes

/-- `protectionutils.py` 1075: no password, key or secret. -/
def noSecret (a : PArgs S K C) : Bool := (haveSecret a.password).isNone && a.priv.isNone && a.ss.isNone

/-- `protectionutils.py` 1088-1091: the certificate. -/
def protCert (a : PArgs S K C) : Except PyErr (Option C) :=
  match a.cert, a.chain with
  | some c, _ => .ok (some c)
  | none, none => .ok none
  | none, some [] => .error .indexError
  | none, some (c :: _) => .ok (some c)

/-- `protectionutils.py` 1093-1096. -/
def patched (env : Env S K C) (a : PArgs S K C) (c : Option C) (h : Hdr) : Hdr :=
  match c with
  | none => h
  | some c =>
    if a.name ∈ ["signature", "rsassa-pss", "rsassa_pss", "dh"] ∧ a.doPatch = true then
      { h with fields := env.patchSender c h.fields, sender := true }
    else h

/-- `prepare_alg_ids.py` 637-690, `prepare_rsa_pss_alg_id`. -/
def prepPss (h : String) : Except PyErr AlgId :=
  if h = "shake128" then .ok ⟨pss128Oid, .absent⟩
  else if h = "shake256" then .ok ⟨pss256Oid, .absent⟩
  else
    match oidOfName h with
    | .error e => .error e
    | .ok o =>
      match hashInst h with
      | .error e => .error e
      | .ok n => .ok ⟨pssOid, .pss ⟨o, mgf1Oid, .alg o, digestSize n⟩⟩

/-- `prepare_alg_ids.py` 694-762, `prepare_sig_alg_id`, without PSS. -/
def prepSig (env : Env S K C) (s : S) (h : String) : Except PyErr AlgId :=
  if env.isComposite s then .ok ⟨env.compOid s, .absent⟩
  else
    match env.sigOid s h with
    | .error e => .error e
    | .ok o =>
      if (look pssNames o).isSome then prepPss h
      else .ok ⟨o, if env.isRsa s then .null else .absent⟩

/-- `protectionutils.py` 781-783: the hash of the certificate. -/
def certHashOpt (env : Env S K C) : Option C → Except PyErr (Option String)
  | none => .ok none
  | some c => env.certHash c

/-- `protectionutils.py` 785: the hash. -/
def sigHash (env : Env S K C) (a : PArgs S K C) : Except PyErr String :=
  match certHashOpt env a.hashCert with
  | .error e => .error e
  | .ok ch =>
    match a.par.hash, ch with
    | some h, _ => .ok h
    | none, some h => .ok h
    | none, none => .ok "sha256"

/-- `protectionutils.py` 762-793 and 888-897. -/
def prepSigAlg (env : Env S K C) (a : PArgs S K C) : Except PyErr AlgId :=
  match a.priv with
  | none => .error .valueError
  | some s =>
    match sigHash env a with
    | .error e => .error e
    | .ok h => if env.isSignKey s then prepSig env s h else .error .valueError

/-- `protectionutils.py` 843-912, `_prepare_prot_alg_id`. -/
def prepAlg (env : Env S K C) (a : PArgs S K C) : Except PyErr AlgId :=
  match protKind a.name with
  | .error e => .error e
  | .ok .signature => prepSigAlg env a
  | .ok .pss => prepPss (a.par.hash.getD "sha256")
  | .ok k => prepMacAlg env.toMacEnv a.rnd a.name k a.par

/-- `protectionutils.py` 749-759: the signature. -/
def signMsg (env : Env S K C) (a : PArgs S K C) (alg : AlgId) (m : Msg C) : Except PyErr Bytes :=
  match protectedPart env.toMacEnv m with
  | .error e => .error e
  | .ok data =>
    match a.priv with
    | none => .error .valueError
    | some s =>
      if env.isSignKey s then
        if alg.oid = dsaOid ∧ env.isDsa s then signData env s (some "sha256") false data else signAlg env s alg data
      else .error .valueError

/-- `protectionutils.py` 712-759, `_compute_pkimessage_protection`. -/
def protValue (env : Env S K C) (a : PArgs S K C) (alg : AlgId) (m : Msg C) : Except PyErr Bytes :=
  if m.hdr.sender = false then .error .valueError
  else if alg.oid = dhOid then
    match dhSecret env a.ss a.priv a.peer [] with
    | .error e => .error e
    | .ok b => symProt env.toMacEnv a.rnd m b false
  else if isSymmetric alg.oid then
    match a.password with
    | none => .error .valueError
    | some pw => symProt env.toMacEnv a.rnd m pw false
  else signMsg env a alg m

/-- The bytes of `"test_if_keypair_matches"`. -/
def testData : Bytes := "test_if_keypair_matches".toList.map (fun c => UInt8.ofNat c.toNat)

/-- `protectionutils.py` 336-354: does the first certificate have the key? -/
def testPair (env : Env S K C) (s : S) (c : C) : Except PyErr Unit :=
  match signData env s (some "sha256") false testData with
  | .error e => .error e
  | .ok sig =>
    match env.keyOf c with
    | .error e => .error e
    | .ok k =>
      match verifyData env k (some "sha256") testData sig with
      | .error .invalidSignature => .error .valueError
      | r => r

/-- `protectionutils.py` 290-354, `add_cert_to_pkimessage_used_by_protection`. -/
def addCert [DecidableEq C] (env : Env S K C) (s : S) (c : Option C) (certs : List C) : Except PyErr (List C) :=
  match c, certs with
  | some c, [] => .ok [c]
  | some c, d :: l => if d = c then .ok (d :: l) else .error .valueError
  | none, [] => (env.selfCert s).map (fun c => [c])
  | none, d :: l => (testPair env s d).map (fun _ => d :: l)

/-- `protectionutils.py` 926-950, `_prepare_certificate_chain`. -/
def chainOf (a : PArgs S K C) : Option (List C) :=
  match a.chain with
  | some l => some l
  | none => a.found

/-- `protectionutils.py` 1120-1132: the field `extraCerts`. -/
def protCerts [DecidableEq C] (env : Env S K C) (a : PArgs S K C) (c : Option C) (certs : List C) :
    Except PyErr (List C) :=
  match a.priv with
  | none => .ok (if a.exclude then certs else (chainOf a).getD certs)
  | some s =>
    if c.isNone ∧ env.isX s then .ok certs
    else if a.exclude then .ok certs
    else
      match chainOf a with
      | some l => .ok l
      | none => addCert env s c certs

/-- `protectionutils.py` 1098-1138, after the certificate is known. -/
def protectWith [DecidableEq C] (env : Env S K C) (a : PArgs S K C) (c : Option C) (m : Msg C) :
    Except PyErr (Msg C) :=
  match prepAlg env a with
  | .error e => .error e
  | .ok alg =>
    match protValue env a alg { m with hdr := { patched env a c m.hdr with alg := some alg } } with
    | .error e => .error e
    | .ok v =>
      match protCerts env a c m.certs with
      | .error e => .error e
      | .ok cs =>
        (manipIf a.bad v).map (fun v =>
          { m with hdr := { patched env a c m.hdr with alg := some alg }, prot := some v, certs := cs })

/-- `protectionutils.py` 988-1138, `protect_pkimessage`. -/
def protect [DecidableEq C] (env : Env S K C) (a : PArgs S K C) (m : Msg C) : Except PyErr (Msg C) :=
  if m.body = none then .error .valueError
  else if noSecret a then .error .valueError
  else
    match protCert a with
    | .error e => .error e
    | .ok c => protectWith env a c m

/-! ## Verifying -/

/-- `suiteenums.py` 200-210, `ProtectedType`. -/
inductive ProtType where
  | trad | kem | dh | mac | pq | composite | stateful
  deriving DecidableEq, Repr

/-- `suiteenums.py` 212-249, `ProtectedType.get_protection_type`. -/
def protType (env : Env S K C) (o : Oid) : Except PyErr ProtType :=
  if o = kemMacOid then .ok .kem
  else if o = dhOid then .ok .dh
  else if isSymmetric o then .ok .mac
  else if isTradSig o then .ok .trad
  else if env.isStateful o then .ok .stateful
  else if env.isPqSig o then .ok .pq
  else if (env.compName o).isSome then .ok .composite
  else .error .unknownOID

/-- `oidutils.py` 228-232, membership in `MSG_SIG_ALG`. -/
def isMsgSig (o : Oid) : Bool :=
  decide (o = ed25519Oid) || decide (o = ed448Oid) ||
    ((look rsaNames o).any (fun n => n ∈ ["rsa-sha224", "rsa-sha256", "rsa-sha384", "rsa-sha512"])) ||
    (look pssNames o).isSome ||
    ((look ecdsaNames o).any (fun n => n ∈ ["ecdsa-sha224", "ecdsa-sha256", "ecdsa-sha384", "ecdsa-sha512",
      "ecdsa-shake128", "ecdsa-shake256"]))

/-- `protectionutils.py` 1370-1409, `_enforce_lwcmp_protection_alg`. -/
def lwType (env : Env S K C) (o : Oid) : Except PyErr ProtType :=
  match protType env o with
  | .error e => .error e
  | .ok .kem => .ok .kem
  | .ok .dh => .ok .dh
  | .ok .mac => if o = pbmOid ∨ o = pbmac1Oid then .ok .mac else .error .badAlg
  | .ok .trad => if isMsgSig o then .ok .trad else .error .badAlg
  | .ok _ => .error .badAlg

/-- `protectionutils.py` 1285-1289 and 1302-1305: a MAC with a password. -/
def verifyMac {C : Type} (env : MacEnv) (rnd : Bytes) (m : Msg C) (pw : Option Bytes) (p : Bytes) (lw : Bool) :
    Except PyErr Unit :=
  match pw with
  | none => .error .valueError
  | some w =>
    match symProt env rnd m w lw with
    | .error e => .error e
    | .ok v => if p = v then .ok () else .error .badMacProtection

/-- `protectionutils.py` 1314-1318 and 1308-1339, `_verify_pki_message_sig`. -/
def verifySigMsg (env : Env S K C) (m : Msg C) (pub : Option K) (a : AlgId) (p : Bytes) : Except PyErr Unit :=
  match protectedPart env.toMacEnv m with
  | .error e => .error e
  | .ok data => verifySigWith env pub m.certs a data p

/-- `protectionutils.py` 1268-1305: by the algorithm. -/
def verifyBy (env : Env S K C) (rnd : Bytes) (m : Msg C) (priv : Option S) (pw : Option Bytes) (pub : Option K)
    (ss : Option Bytes) (lw : Bool) (a : AlgId) (p : Bytes) : Except PyErr Unit :=
  if a.oid = kemMacOid then verifyKem env m priv ss
  else if a.oid = dhOid then verifyDh env rnd m priv ss pub
  else if isSymmetric a.oid then verifyMac env.toMacEnv rnd m pw p lw
  else if isTradSig a.oid ∨ env.isPqSig a.oid ∨ env.isStateful a.oid then verifySigMsg env m pub a p
  else .error .valueError

/-- `protectionutils.py` 1212-1305, `verify_pkimessage_protection`. `rnd` is the random value that replaces an empty
salt. -/
def verifyProt (env : Env S K C) (rnd : Bytes) (m : Msg C) (priv : Option S) (pw : Option Bytes) (pub : Option K)
    (ss : Option Bytes) (lw : Bool) : Except PyErr Unit :=
  match m.prot, m.hdr.alg with
  | none, _ => .error .pyasn1Error
  | some _, none => .error .pyasn1Error
  | some p, some a =>
    if lw then
      match lwType env a.oid with
      | .error e => .error e
      | .ok _ => verifyBy env rnd m priv pw pub ss lw a p
    else verifyBy env rnd m priv pw pub ss lw a p

end Verif.Prot
