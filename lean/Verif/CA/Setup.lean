import Verif.CA.Base

/-!
# Setting up the CA: certificates and keys from the configuration

`resources/utils.py` 371-402, 561-731 (certificate chains, pairs of certificate and key, keys in a list),
`mock_ca/operation_dbs.py` 32-427 and `mock_ca/ca_handler.py` 284-305. Files, decoding and the keys are parameters. The values
of a configuration file are texts or null.
-/

namespace Verif.CA.Setup

/-- What the functions use; `C` are certificates, `K` private keys, `P` public keys. `parseCert` reads a file with a
certificate, `readChain` one with a chain, `loadKey` one with a key under a password or none. `trad` is the public key of the
traditional part of a hybrid key. -/
structure Env (C K P : Type) where
  parseCert : String → Except PyErr C
  readChain : String → Except PyErr (List C)
  loadKey : String → Option String → Except PyErr K
  pub : K → P
  certPub : C → Except PyErr P
  trad : K → Option P
  sign : K → Bool
  pqSign : K → Bool
  hybridKem : K → Bool
  x25519 : K → Bool
  x448 : K → Bool
  ec : K → Bool

/-- An argument that is a path or the object. -/
inductive Arg (T : Type) where
  | path (p : String)
  | obj (x : T)

/-- The default of `password` (`keyutils.py` 420) and `key_password` (`utils.py` 564). -/
def dflt : Option String := some "11111"

variable {C K P : Type} [DecidableEq P]

def getCert (env : Env C K P) : Arg C → Except PyErr C
  | .path p => env.parseCert p
  | .obj c => .ok c

def getKey (env : Env C K P) (pw : Option String) : Arg K → Except PyErr K
  | .path p => env.loadKey p pw
  | .obj k => .ok k

/-- An empty text is false, an object is not. -/
def Arg.truthy {T : Type} : Arg T → Bool
  | .path p => p ≠ ""
  | .obj _ => true

/-- `utils.py` 614-616: is the key that of the certificate? -/
def paired (env : Env C K P) (c : C) (k : K) : Except PyErr Unit :=
  match env.certPub c with
  | .error e => .error e
  | .ok p => if env.pub k ≠ p then .error .valueError else .ok ()

/-- `utils.py` 603-618, the second half of `may_load_cert_and_key`. -/
def loadBoth (env : Env C K P) (c : Arg C) (k : Arg K) (pw : Option String) : Except PyErr (C × K) :=
  match getCert env c with
  | .error e => .error e
  | .ok c =>
    match getKey env pw k with
    | .error e => .error e
    | .ok k =>
      match paired env c k with
      | .error e => .error e
      | .ok () => .ok (c, k)

/-- `utils.py` 561-618, `may_load_cert_and_key`. -/
def mayLoad (env : Env C K P) (pw : Option String) : Option (Arg C) → Option (Arg K) → Except PyErr (Option (C × K))
  | none, none => .ok none
  | some c, some k =>
    if c.truthy && k.truthy then
      match loadBoth env c k pw with
      | .error e => .error e
      | .ok x => .ok (some x)
    else .error .valueError
  | _, _ => .error .valueError

/-- `utils.py` 664-676: the comparison in `is_certificate_and_key_set`. -/
def setPaired (env : Env C K P) (sun : Bool) (c : C) (k : K) : Except PyErr Unit :=
  match env.certPub c with
  | .error e => .error e
  | .ok p =>
    if sun then
      match env.trad k with
      | none => .error .valueError
      | some t => if t ≠ p then .error .valueError else .ok ()
    else if env.pub k ≠ p then .error .valueError else .ok ()

/-- `utils.py` 621-678, `is_certificate_and_key_set`: here the key is loaded first. -/
def isSet (env : Env C K P) (sun : Bool) : Option (Arg C) → Option (Arg K) → Except PyErr Bool
  | none, none => .ok false
  | some c, some k =>
    match getKey env dflt k with
    | .error e => .error e
    | .ok k =>
      match getCert env c with
      | .error e => .error e
      | .ok c =>
        match setPaired env sun c k with
        | .error e => .error e
        | .ok () => .ok true
  | _, _ => .error .valueError

/-! ## The configuration of the issuing CA -/

/-- A configuration: a name is absent, null or a text. -/
abbrev Dict := String → Option (Option String)

/-- `data.get(name)`. -/
def Dict.get (d : Dict) (n : String) : Option String := (d n).join

/-- `operation_dbs.py` 129-155, `_load_cert_key_pair`: the password is `data.get(..)`, so that none is used if it is absent. -/
def loadPair (env : Env C K P) (d : Dict) (cert key pwd : String) : Except PyErr (Option (C × K)) :=
  match d cert, d key with
  | none, none => .ok none
  | some c, some k => mayLoad env (d.get pwd) (c.map .path) (k.map .path)
  | _, _ => .error .valueError

/-- `operation_dbs.py` 157-167, `_load_key`; `pwd` is absent (`False`), or a text or null. -/
def loadSignKey (env : Env C K P) (path : String) (pwd : Option (Option String)) : Except PyErr K :=
  match env.loadKey path (pwd.getD dflt) with
  | .error e => .error e
  | .ok k => if env.sign k then .ok k else .error .valueError

/-- `operation_dbs.py` 177-178. -/
def kgaChain (env : Env C K P) (d : Dict) : Except PyErr (Option (List C)) :=
  match d.get "kga_cert_chain" with
  | none => .ok none
  | some p =>
    match env.readChain p with
    | .error e => .error e
    | .ok l => .ok (some l)

/-- `operation_dbs.py` 179-180. -/
def kgaKey (env : Env C K P) (d : Dict) : Except PyErr (Option K) :=
  match d.get "kga_key" with
  | none => .ok none
  | some p =>
    match loadSignKey env p (d "kga_key_pwd") with
    | .error e => .error e
    | .ok k => .ok (some k)

/-- `operation_dbs.py` 182-188. -/
def kgaCerts (env : Env C K P) (d : Dict) : Option (List C) → Except PyErr (List C)
  | some l => .ok l
  | none =>
    match d.get "kga_cert" with
    | none => .error .badConfig
    | some p =>
      match env.parseCert p with
      | .error e => .error e
      | .ok c => .ok [c]

/-- `operation_dbs.py` 170-188, `_load_kga`. -/
def loadKga (env : Env C K P) (d : Dict) : Except PyErr (List C × Option K) :=
  match kgaChain env d with
  | .error e => .error e
  | .ok chain =>
    match kgaKey env d with
    | .error e => .error e
    | .ok key =>
      match kgaCerts env d chain with
      | .error e => .error e
      | .ok l => .ok (l, key)

/-- `operation_dbs.py` 228-233: the alternative key, if its path is not empty. -/
def altKey (env : Env C K P) (d : Dict) : Except PyErr (Option K) :=
  match d.get "cmp_prot_key_alt" with
  | none => .ok none
  | some p =>
    if p = "" then .ok none
    else
      match loadSignKey env p (d "cmp_prot_key_alt_pwd") with
      | .error e => .error e
      | .ok k => .ok (some k)

/-- `IssuingCertAndKeys` (`operation_dbs.py` 65-111), after `__post_init__`, without the shared secret. -/
structure Issuing (C K : Type) where
  ca : C × K
  prot : C × K
  alt : Option K
  kgaCerts : List C
  kgaKey : Option K
  hybrid : Option (C × K)
  deriving DecidableEq

/-- `operation_dbs.py` 196-211: the pair of the CA. -/
def caPair (env : Env C K P) (d : Dict) : Except PyErr (Option (C × K)) :=
  match d "ca_cert", d "ca_key" with
  | some c, some k => mayLoad env ((d "ca_key_pwd").getD dflt) (c.map .path) (k.map .path)
  | _, _ => .error .valueError

/-- `operation_dbs.py` 235-266 and 109-111: the types of the keys, and the default of the protection. -/
def assemble (env : Env C K P) (ca prot hybrid : Option (C × K)) (kga : List C × Option K) (alt : Option K) :
    Except PyErr (Issuing C K) :=
  if hybrid.any (fun x => !env.hybridKem x.2) then .error .badConfig
  else if alt.any (fun k => !env.pqSign k) then .error .badConfig
  else if prot.any (fun x => !env.sign x.2) then .error .badConfig
  else match ca with
    | none => .error .badConfig
    | some ca =>
      if !env.sign ca.2 then .error .badConfig
      else .ok ⟨ca, prot.getD ca, alt, kga.1, kga.2, hybrid⟩

/-- `operation_dbs.py` 191-266, `IssuingCertAndKeys.load`. -/
def load (env : Env C K P) (d : Dict) : Except PyErr (Issuing C K) :=
  match caPair env d with
  | .error e => .error e
  | .ok ca =>
    match loadPair env d "cmp_prot_cert" "cmp_prot_key" "cmp_prot_key_pwd" with
    | .error e => .error e
    | .ok prot =>
      match loadPair env d "hybrid_kem_cert" "hybrid_kem_key" "hybrid_kem_key_pwd" with
      | .error e => .error e
      | .ok hybrid =>
        match loadKga env d with
        | .error e => .error e
        | .ok kga =>
          match altKey env d with
          | .error e => .error e
          | .ok alt => assemble env ca prot hybrid kga alt

/-- A pair must be set (`operation_dbs.py` 118-127). -/
def mustSet (env : Env C K P) (c : Option C) (k : Option K) : Except PyErr Unit :=
  match isSet env false (c.map .obj) (k.map .obj) with
  | .error e => .error e
  | .ok b => if b then .ok () else .error .valueError

/-- `operation_dbs.py` 113-127, `IssuingCertAndKeys.validate`. -/
def validate (env : Env C K P) (x : Issuing C K) : Except PyErr Unit :=
  match mustSet env (some x.ca.1) (some x.ca.2) with
  | .error e => .error e
  | .ok () =>
    match mustSet env (some x.prot.1) (some x.prot.2) with
    | .error e => .error e
    | .ok () => mustSet env x.kgaCerts.head? x.kgaKey

/-! ## Keys for key agreement -/

/-- `operation_dbs.py` 32-62, `_load_cert_and_key`, for texts. -/
def loadEcc (env : Env C K P) (d : Dict) (cert key pwd : String) : Except PyErr (Option (C × K)) :=
  match d.get cert, d.get key with
  | none, none => .ok none
  | some c, some k =>
    match env.parseCert c with
    | .error e => .error e
    | .ok c =>
      match env.loadKey k ((d pwd).getD dflt) with
      | .error e => .error e
      | .ok k => .ok (some (c, k))
  | _, _ => .error .valueError

/-- `operation_dbs.py` 327-339: one of the three checks of `validate`. -/
def checkEcc (env : Env C K P) (kind : K → Bool) (x : Option (C × K)) : Except PyErr Unit :=
  match isSet env false (x.map fun x => .obj x.1) (x.map fun x => .obj x.2) with
  | .error e => .error e
  | .ok _ => if x.any (fun x => !kind x.2) then .error .valueError else .ok ()

/-- The certificates and keys for key agreement (`NonSigningKeyCertsAndKeys`, `MockCAOPCertsAndKeys`). -/
structure Agree (C K : Type) where
  x25519 : Option (C × K)
  x448 : Option (C × K)
  ecc : Option (C × K)
  deriving DecidableEq

/-- `operation_dbs.py` 322-339, `NonSigningKeyCertsAndKeys.validate`. -/
def checkAgree (env : Env C K P) (x : Agree C K) : Except PyErr Unit :=
  match checkEcc env env.x25519 x.x25519 with
  | .error e => .error e
  | .ok () =>
    match checkEcc env env.x448 x.x448 with
    | .error e => .error e
    | .ok () => checkEcc env env.ec x.ecc

/-- `operation_dbs.py` 290-306, `NonSigningKeyCertsAndKeys.load`. -/
def loadAgree (env : Env C K P) (d : Dict) : Except PyErr (Agree C K) :=
  match loadEcc env d "x25519_cert" "x25519_key" "x25519_key_pwd" with
  | .error e => .error e
  | .ok a =>
    match loadEcc env d "x448_cert" "x448_key" "x448_key_pwd" with
    | .error e => .error e
    | .ok b =>
      match loadEcc env d "ecc_cert" "ecc_key" "ecc_key_pwd" with
      | .error e => .error e
      | .ok c =>
        match checkAgree env ⟨a, b, c⟩ with
        | .error e => .error e
        | .ok () => .ok ⟨a, b, c⟩

/-- `operation_dbs.py` 408-427, `get_ecc_cert`, where the three certificates may be set without keys. -/
def eccCert (env : Env C K P) (x25519 x448 ecc : Option C) : Option K → Except PyErr (Option C)
  | none => .ok none
  | some k =>
    match (if env.x448 k then x448 else if env.x25519 k then x25519 else ecc) with
    | none => .error .valueError
    | some c => .ok (some c)

/-! ## The handler -/

/-- The fields of `MockCAOPCertsAndKeys` (`operation_dbs.py` 365-379). -/
def fields : List String :=
  ["ca_cert", "ca_key", "ca_alt_key", "hybrid_kem_cert", "hybrid_kem_key", "kem_cert", "kem_key", "x25519_cert", "x25519_key",
   "x448_cert", "x448_key", "ecc_cert", "ecc_key", "encr_rsa_cert", "encr_rsa_key"]

/-- A dictionary of the handler. -/
abbrev Config (V : Type) := List (String × V)

/-- The value under a name. -/
def Config.find {V : Type} (c : Config V) (n : String) : Option V := (List.find? (fun x => x.1 = n) c).map (·.2)

/-- Assignment: the place of a known name is kept. -/
def Config.set {V : Type} : Config V → String → V → Config V
  | [], n, v => [(n, v)]
  | x :: r, n, v => if x.1 = n then (n, v) :: r else x :: Config.set r n v

/-- `ca_handler.py` 294-296: what the environment has and the configuration has not. -/
def Config.fill {V : Type} (c : Config V) : Config V → Config V
  | [] => c
  | x :: r => if c.any (fun y => y.1 = x.1) then Config.fill c r else Config.fill (c ++ [x]) r

/-- `ca_handler.py` 292: an empty configuration counts as none. -/
def start {V : Type} (config : Option (Config V)) (altKey : V) : Config V :=
  match config with
  | some (x :: r) => x :: r
  | _ => [("ca_alt_key", altKey)]

/-- `ca_handler.py` 287-303: the configuration with which the state is made. An empty configuration counts as none; a name
that is no field is an unexpected keyword argument. `altKey` is the argument `ca_alt_key` of the handler. -/
def opState {V : Type} (config : Option (Config V)) (altKey : V) (environment : Config V) (cert key : Option V) :
    Except PyErr (Config V) :=
  match cert, key with
  | some cert, some key =>
    let c := Config.set (Config.set (Config.fill (start config altKey) environment) "ca_cert" cert) "ca_key" key
    if c.all (fun x => fields.contains x.1) then .ok c else .error .typeError
  | _, _ => .error .badConfig

/-! ## Keys in a list -/

/-- A key as compared by `check_public_key_is_not_unique`: `hybrid` is a hybrid private key with its two parts. -/
inductive Cmp (T : Type) where
  | single (x : T)
  | hybrid (trad pq : T)
  deriving DecidableEq

/-- `utils.py` 681-700, `check_public_key_is_not_unique`. -/
def notUnique {T : Type} [DecidableEq T] (strict : Bool) (a b : Cmp T) : Bool :=
  if !strict then a ≠ b
  else match a, b with
    | .hybrid t q, .hybrid t' q' => t = t' || q = q'
    | .hybrid t q, .single y => y = t || y = q
    | .single x, .hybrid t q => x = t || x = q
    | .single x, .single y => x ≠ y

/-- `utils.py` 703-731, `check_if_private_key_in_list`: the public keys are compared, which are no hybrid private keys. -/
def inList (env : Env C K P) (keys : List K) (k : K) : Bool :=
  keys.any fun k' => !notUnique true (.single (env.pub k')) (.single (env.pub k))

/-! ## Chains in a file -/

abbrev Line := List Char

/-- `s in line`. -/
def occurs (s : Line) : Line → Bool
  | [] => s.isEmpty
  | c :: r => s.isPrefixOf (c :: r) || occurs s r

def beginMark : Line := "-----BEGIN CERTIFICATE-----".toList
def endMark : Line := "-----END CERTIFICATE-----".toList

/-- Is the line skipped (`utils.py` 384-387)? White space is that of ASCII. -/
def skipped (l : Line) : Bool := l.head? = some '#' || l.all Char.isWhitespace

/-- `utils.py` 377-395, the loop of `load_certificate_chain`: `cur` are the last block's characters, which are kept after its
end; `inside` tells whether the block is open. -/
def blocks (inside : Bool) (cur : Line) : List Line → List Line
  | [] => []
  | l :: r =>
    if skipped l then blocks inside cur r
    else if occurs beginMark l then blocks true [] r
    else if occurs endMark l then cur :: blocks false cur r
    else if inside then blocks inside (cur ++ l) r
    else blocks inside cur r

end Verif.CA.Setup
