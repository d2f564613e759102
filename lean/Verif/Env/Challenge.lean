import Verif.Env.Build

/-!
# The challenge of the indirect proof of possession, and its answer

The CA: `resources/ca_ra_utils.py` 110-307 (`prepare_challenge`, `prepare_challenge_enc_rand`) and 3684-3791
(`build_popdecc_from_request`). The client: `resources/extra_issuing_logic.py` 236-273, 352-395 and 414-696
(`process_pkimessage_with_popdecc`). The state of the CA between both is in `Verif.CA.Challenge`.

Names are values of a type `N`, and bytes in recipients as elsewhere. Random values are arguments.

Not modelled: `hybrid_kem_key`; headers apart from `pvno` and the information for KEM; `expected_version`; negative indices.
A position that does not exist makes pyasn1 create an empty element, whose fields cannot be read: it is `pyasn1Error` here.
-/

namespace Verif.Env

open Verif.CA Verif.Prot

variable {S K C N : Type}

/-- The further external functions. -/
structure PopEnv (S K C N : Type) extends KEnv S K C where
  /-- The directory name of the subject of a certificate. -/
  subjectOf : C → N
  /-- `Rand`: the number and the sender. -/
  encRand : Int × N → Bytes
  decRand : Bytes → Option ((Int × N) × Bytes)
  /-- `compare_general_name_and_name`. -/
  sameName : N → N → Bool
  /-- `type(loaded_key) is type(ee_key.public_key())`. -/
  sameType : K → S → Bool
  /-- The exception of `decaps(None)`. -/
  decapsNone : S → PyErr

/-- `ChallengeASN1`: the name of the hash of `owf`, the witness, the challenge and `encryptedRand`. -/
structure Chal where
  owf : Option String
  witness : Bytes
  chal : Bytes
  enc : Option EnvData
  deriving DecidableEq, Repr

/-- The encoded NULL-DN. -/
def nullDn : Bytes := [0x30, 0x00]

/-- `id-data`. -/
def idData : Oid := [1, 2, 840, 113549, 1, 7, 1]

/-! ## The CA -/

/-- `ca_ra_utils.py` 110-140, `_prepare_rand`; `draw` is used if there is no number. -/
def prepRand (pe : PopEnv S K C N) (sender : Option N) (num : Option Int) (draw : Int) (cert : Option C) :
    Except PyErr (Int × N) :=
  match cert, sender with
  | some c, _ => .ok (num.getD draw, pe.subjectOf c)
  | none, some n => .ok (num.getD draw, n)
  | none, none => .error .valueError

/-- `int.to_bytes(4, "big")`. -/
def bytes4 (n : Int) : Except PyErr Bytes :=
  if 0 ≤ n ∧ n < 2 ^ 32 then
    .ok [UInt8.ofNat (n.toNat / 2 ^ 24), UInt8.ofNat (n.toNat / 2 ^ 16), UInt8.ofNat (n.toNat / 2 ^ 8), UInt8.ofNat n.toNat]
  else .error .overflowError

/-- `utils.py` 105-115, `manipulate_first_byte`. -/
def flipFirst : Bytes → Except PyErr Bytes
  | [] => .error .indexError
  | b :: bs => .ok ((if b = 0 then 1 else 0) :: bs)

/-- `ca_ra_utils.py` 143-169, `_prepare_witness_val`: `owf` and the witness. `rnd` are 32 random bytes. -/
def prepWitness (pe : PopEnv S K C N) (hash : Option String) (num : Int) (bad : Bool) (rnd : Bytes) :
    Except PyErr (Option String × Bytes) :=
  match hash with
  | none => .ok (none, if bad then rnd else [])
  | some h =>
    match bytes4 num with
    | .error e => .error e
    | .ok b =>
      match hashOf pe.toMacEnv h b with
      | .error e => .error e
      | .ok w => if bad then (flipFirst w).map (some h, ·) else .ok (some h, w)

/-- `ca_ra_utils.py` 206-224: the bytes of the challenge, and the information for a KEM key. -/
def encChal (pe : PopEnv S K C N) (k : K) (caKey : Option S) (data iv rnd : Bytes) :
    Except PyErr (Bytes × Option (Oid × Bytes)) :=
  if pe.isRsaPub k then (pe.rsaEnc k .pkcs1 rnd data).map (·, none)
  else if pe.isEcdhPub k then
    match caKey with
    | none => .error .valueError
    | some s =>
      if pe.isEcdh s then
        match ecdhOn pe.toKEnv s k false with
        | .error e => .error e
        | .ok z =>
          match dhKey pe.toMacEnv z 32 "sha256" with
          | .error e => .error e
          | .ok ss => (aesEnc pe.toKEnv ss iv data).map (·, none)
      else .error .valueError
  else if pe.isKemPub k then
    match kemEncaps pe.toKEnv k rnd none with
    | .error e => .error e
    | .ok (ss, ct, o) => (aesEnc pe.toKEnv ss iv data).map (·, some (o, ct))
  else .error .valueError

/-- The option `challenge` of `build_popdecc_from_request`: bytes, or a dictionary with or without entries. -/
inductive ChalArg where
  | bytes (b : Bytes)
  | dict (empty : Bool)
  deriving DecidableEq, Repr

/-- `str_to_bytes(challenge or b"")`. -/
def ChalArg.read : ChalArg → Except PyErr Bytes
  | .bytes b => .ok b
  | .dict true => .ok []
  | .dict false => .error .valueError

/-- The random values: the number, the witness, the content encryption key and those of the recipient. -/
structure ChalRand where
  draw : Int
  witness : Bytes
  cek : Bytes
  rd : Rand

/-- The arguments of `build_popdecc_from_request`. -/
structure ChalArgs (S C N : Type) where
  caKey : Option S := none
  num : Option Int := none
  reqId : Option Int := none
  size : Nat := 1
  sender : Option N
  bad : Bool := false
  forPvno : Option Int := none
  chal : ChalArg := .bytes []
  hash : Option String := none
  cert : Option C := none
  iv : Bytes := List.replicate 16 65

/-- What is read of the request: version, number of requests, and of the chosen one the key and `certReqId`. -/
structure ChalReq (K : Type) where
  pvno : Int
  size : Nat
  key : Except PyErr K
  id : Int

/-- `x or y` on numbers. -/
def orInt (x : Option Int) (y : Int) : Int :=
  match x with
  | none => y
  | some n => if n = 0 then y else n

/-- `ca_ra_utils.py` 231-307, `prepare_challenge_enc_rand`. -/
def chalEnc (pe : PopEnv S K C N) (x448 : K → Bool) (gen : S) (a : ChalArgs S C N) (k : K) (num id : Int) (r : ChalRand) :
    Except PyErr Chal :=
  match prepRand pe a.sender (some num) r.draw a.cert with
  | .error e => .error e
  | .ok rand =>
    match buildExchange pe.toKEnv x448 k (pe.encRand rand) a.caKey gen none r.cek (some (nullDn, id)) true (some idData)
        r.rd with
    | .error e => .error e
    | .ok e =>
      match prepWitness pe a.hash rand.1 a.bad r.witness with
      | .error e => .error e
      | .ok (o, w) =>
        match a.chal.read with
        | .error e => .error e
        | .ok b => .ok ⟨o, w, b, some e⟩

/-- `ca_ra_utils.py` 173-227, `prepare_challenge`. -/
def chalPlain (pe : PopEnv S K C N) (a : ChalArgs S C N) (k : K) (num : Int) (r : ChalRand) :
    Except PyErr (Chal × Option (Oid × Bytes)) :=
  match prepRand pe a.sender (some num) r.draw none with
  | .error e => .error e
  | .ok rand =>
    match prepWitness pe a.hash rand.1 a.bad r.witness with
    | .error e => .error e
    | .ok (o, w) =>
      match encChal pe k a.caKey (pe.encRand rand) a.iv r.rd.rnd with
      | .error e => .error e
      | .ok (b, i) => .ok (⟨o, w, b, none⟩, i)

/-- The message with the challenge: version, information for KEM, challenge. -/
structure ChalMsg where
  pvno : Int
  info : Option (Oid × Bytes)
  chal : Chal
  deriving DecidableEq, Repr

/-- `ca_ra_utils.py` 3762-3787: the challenge for a version. -/
def chalFor (pe : PopEnv S K C N) (x448 : K → Bool) (gen : S) (a : ChalArgs S C N) (k : K) (num id v : Int)
    (r : ChalRand) : Except PyErr (Chal × Option (Oid × Bytes)) :=
  if v = 3 then (chalEnc pe x448 gen a k num id r).map (·, none) else chalPlain pe a k num r

/-- `ca_ra_utils.py` 3684-3791, `build_popdecc_from_request`, with the header fields of the request. -/
def buildPopdecc (pe : PopEnv S K C N) (x448 : K → Bool) (gen : S) (a : ChalArgs S C N) (q : ChalReq K) (r : ChalRand) :
    Except PyErr (ChalMsg × Int) :=
  if a.size ≠ q.size then .error .badRequest
  else
    match q.key with
    | .error e => .error e
    | .ok k =>
      match chalFor pe x448 gen a k (orInt a.num r.draw) (orInt a.reqId q.id) (orInt a.forPvno q.pvno) r with
      | .error e => .error e
      | .ok (c, i) => .ok (⟨orInt (some q.pvno) (orInt a.forPvno q.pvno), i, c⟩, orInt a.num r.draw)

/-! ## The client -/

/-- The message as the client gets it: version, challenges (`none` for another body), and what the other functions read. -/
structure PopMsg (C : Type) where
  pvno : Int
  chals : Option (List Chal)
  msg : Msg C

/-- The arguments of `process_pkimessage_with_popdecc`. -/
structure PopArgs (S C N : Type) where
  key : S
  pw : Option Bytes := none
  size : Nat := 1
  idx : Nat := 0
  reqId : Int := 0
  recip : Nat := 0
  recips : Int := 1
  sender : Option N := none
  iv : Bytes := List.replicate 16 65
  kariCert : Option C := none

/-- `extra_issuing_logic.py` 574-589, `validate_popdecc_version`. -/
def popVersion (pvno : Int) (l : List Chal) : Except PyErr Unit :=
  let enc := l.any (fun c => c.enc.isSome)
  let plain := l.any (fun c => c.chal != [])
  if pvno ≠ 3 ∧ enc = true then .error .badRequest
  else if pvno ≠ 2 ∧ enc = false then .error .badRequest
  else if enc = true ∧ plain = true then .error .badRequest
  else .ok ()

/-- The choice `issuerAndSerialNumber` of a recipient identifier. -/
def issRid (r : Option Rid) : Except PyErr (Bytes × Int) :=
  match r with
  | none => .error .pyasn1Error
  | some (.ski _) => .error .valueError
  | some (.iss i n) => .ok (i, n)

/-- The same of a recipient of a key agreement. -/
def issKaRid (r : Option (KaRid × Bytes)) : Except PyErr (Bytes × Int) :=
  match r with
  | none => .error .pyasn1Error
  | some (.rKey _, _) => .error .valueError
  | some (.iss i n, _) => .ok (i, n)

/-- `extra_issuing_logic.py` 254-263: the identifier of a KEM recipient. -/
def oriRid (env : KEnv S K C) (t : Oid) (v : OriVal) : Except PyErr (Bytes × Int) :=
  if t ≠ oriKemOid then .error .notImplemented
  else
    match v with
    | .obj _ => .error .pyasn1Error
    | .raw b =>
      match env.decKemri b with
      | none => .error .pyasn1Error
      | some (k, _) => issRid k.rid

/-- `extra_issuing_logic.py` 236-273, `_extract_rid`. -/
def extractRid (env : KEnv S K C) (r : Option Ri) : Except PyErr (Bytes × Int) :=
  match r with
  | none => .error .pyasn1Error
  | some (.ktri k) => issRid k.rid
  | some (.ori t v) => oriRid env t v
  | some (.kari k) => issKaRid (k.keys.bind (fun l => l[0]?))
  | some _ => .error .valueError

/-- `extra_issuing_logic.py` 352-395, `validate_rid_for_encrypted_rand`. -/
def checkPopRid (env : KEnv S K C) (e : EnvData) (id : Int) (recip : Nat) : Except PyErr Unit :=
  match extractRid env e.infos[recip]? with
  | .error x => .error x
  | .ok (i, n) =>
    if i ≠ nullDn then .error .valueError else if n ≠ id then .error .valueError else .ok ()

/-- Decoding `Rand`; `bad` is the error of the decoder. -/
def readRand (pe : PopEnv S K C N) (bad : PyErr) (b : Bytes) : Except PyErr (Int × N) :=
  match pe.decRand b with
  | none => .error bad
  | some (r, rest) => if rest = [] then .ok r else .error .badAsn1Data

/-- The arguments for opening `encryptedRand`; the index of the recipient is not passed on. -/
def popOpen (a : PopArgs S C N) (m : PopMsg C) : OpenArgs S C :=
  { msg := some m.msg, pw := a.pw, cert := m.msg.certs[0]?, kariCert := a.kariCert, size := a.recips, key := some a.key,
    raw := true, pop := true }

/-- `extra_issuing_logic.py` 592-644, `_process_encrypted_rand`. -/
def encRandOf (pe : PopEnv S K C N) (a : PopArgs S C N) (m : PopMsg C) (e : EnvData) : Except PyErr (Int × N) :=
  match checkPopRid pe.toKEnv e a.reqId a.recip with
  | .error x => .error x
  | .ok () =>
    match openEnv pe.toKEnv (popOpen a m) e with
    | .error x => .error x
    | .ok d => readRand pe .badAsn1Data d

/-- `extra_issuing_logic.py` 430-440: the second certificate. -/
def secondKey (pe : PopEnv S K C N) (s : S) (cs : List C) : Except PyErr K :=
  match cs with
  | [] => .error .valueError
  | c :: _ =>
    match pe.keyOf c with
    | .error e => .error e
    | .ok k => if pe.sameType k s then .ok k else .error .valueError

/-- `extra_issuing_logic.py` 421-440: the key of the CA in the message. -/
def keyInMsg (pe : PopEnv S K C N) (s : S) (cs : List C) : Except PyErr K :=
  match cs with
  | [] => .error .valueError
  | c :: cs =>
    match pe.keyOf c with
    | .error e => .error e
    | .ok k => if pe.sameType k s then .ok k else secondKey pe s cs

/-- `extra_issuing_logic.py` 442-449: the key of the given certificate. -/
def keyOfCert (pe : PopEnv S K C N) (c : C) : Except PyErr K :=
  match pe.keyOf c with
  | .error e => .error e
  | .ok k => if pe.isEcdhPub k then .ok k else .error .valueError

/-- `extra_issuing_logic.py` 414-449, `_may_get_kari_public_key`. -/
def popCaKey (pe : PopEnv S K C N) (a : PopArgs S C N) (m : PopMsg C) : Except PyErr (Option K) :=
  if pe.isEcdh a.key then
    match a.kariCert with
    | none => (keyInMsg pe a.key m.msg.certs).map some
    | some c => (keyOfCert pe c).map some
  else .ok none

/-- `extra_issuing_logic.py` 675-690: the shared secret; the ciphertext for a KEM key is never passed. -/
def popSecret (pe : PopEnv S K C N) (s : S) (ca : Option K) : Except PyErr Bytes :=
  if pe.isEcdh s then
    match ca with
    | none => .error .valueError
    | some k =>
      match ecdhOn pe.toKEnv s k false with
      | .error e => .error e
      | .ok z => dhKey pe.toMacEnv z 32 "sha256"
  else if pe.isKemKey s then .error (pe.decapsNone s)
  else .error .valueError

/-- `extra_issuing_logic.py` 648-696, `process_simple_challenge`, as it is called in 553. -/
def plainRandOf (pe : PopEnv S K C N) (a : PopArgs S C N) (b : Bytes) (ca : Option K) : Except PyErr (Int × N) :=
  if pe.isRsa a.key then
    match pe.rsaDec a.key .pkcs1 b with
    | .error e => .error e
    | .ok d => readRand pe .pyasn1Error d
  else
    match popSecret pe a.key ca with
    | .error e => .error e
    | .ok ss =>
      match aesDec pe.toKEnv ss a.iv b with
      | .error e => .error e
      | .ok d => readRand pe .pyasn1Error d

/-- `extra_issuing_logic.py` 535-553: the decrypted `Rand`. -/
def popRand (pe : PopEnv S K C N) (a : PopArgs S C N) (m : PopMsg C) (c : Chal) : Except PyErr (Int × N) :=
  match c.enc with
  | some e => encRandOf pe a m e
  | none =>
    match popCaKey pe a m with
    | .error e => .error e
    | .ok ca => plainRandOf pe a c.chal ca

/-- `extra_issuing_logic.py` 556-560: the expected sender. -/
def popSender (pe : PopEnv S K C N) (exp : Option N) (n : N) : Except PyErr Unit :=
  match exp with
  | none => .ok ()
  | some x => if pe.sameName n x then .ok () else .error .valueError

/-- `extra_issuing_logic.py` 453-570, `process_pkimessage_with_popdecc`: the numbers in the answer `popdecr`. -/
def popAnswer (pe : PopEnv S K C N) (a : PopArgs S C N) (m : PopMsg C) : Except PyErr (List Int) :=
  match m.chals with
  | none => .error .valueError
  | some l =>
    if l.length ≠ a.size then .error .badRequest
    else
      match l[a.idx]? with
      | none => .error .pyasn1Error
      | some c =>
        match popVersion m.pvno l with
        | .error e => .error e
        | .ok () =>
          match popRand pe a m c with
          | .error e => .error e
          | .ok r =>
            match popSender pe a.sender r.2 with
            | .error e => .error e
            | .ok () => .ok [r.1]

/-- The message after transport. -/
def ChalMsg.sent (env : KEnv S K C) (m : ChalMsg) (msg : Msg C) : PopMsg C :=
  ⟨m.pvno, some [{ m.chal with enc := m.chal.enc.map (wire env) }], msg⟩

end Verif.Env
