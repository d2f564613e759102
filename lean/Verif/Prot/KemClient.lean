import Verif.Prot.Protect

/-!
# The client's messages with a KEM-based MAC

Model of `resources/cmputils.py` 5612-5689 (`build_kem_based_mac_protected_message`), on top of the model of
`protect_pkimessage_kem_based_mac`.

* `Env.encaps` with the mode `plain` is `encaps()`; the two calls with arguments are parameters of their own
  (`CliEnv`).
* An info value which was not read from bytes cannot be given as `kem_ct_info` (`asOctets` raises, as in `getCt`).
-/

namespace Verif.Prot.KemCli

open Verif.CA (PyErr)
open Verif.Prot

variable {S K C : Type}

/-- The calls of hybrid keys. -/
structure CliEnv (S K : Type) where
  /-- `isinstance(key, CompositeKEMPublicKey)` -/
  isCompositeKem : K → Bool
  /-- `isinstance(key, HybridKEMPublicKey)` -/
  isHybridKem : K → Bool
  /-- `encaps(use_in_cms=False)` of a composite key -/
  encapsNoCms : K → Bytes → Except PyErr (Bytes × Bytes)
  /-- `encaps(client_key)` of a hybrid key -/
  encapsWith : K → Option S → Bytes → Except PyErr (Bytes × Bytes)

/-- `cmputils.py` 5670-5675: the encapsulation. -/
def encapsFor (env : Env S K C) (cli : CliEnv S K) (k : K) (client : Option S) (r : Bytes) :
    Except PyErr (Bytes × Bytes) :=
  if cli.isCompositeKem k then cli.encapsNoCms k r
  else if cli.isHybridKem k then cli.encapsWith k client r
  else env.encaps k (if env.isRsaKemPub k then .oaep else .plain) r

/-- `cmputils.py` 5665-5681: the secret for the key of the CA, and the message with the ciphertext. -/
def toCa (env : Env S K C) (cli : CliEnv S K) (m : Msg C) (c : C) (client : Option S) (r : Bytes) :
    Except PyErr (Bytes × Msg C) :=
  match env.keyOf c with
  | .error e => .error e
  | .ok k =>
    if env.isKemPub k then
      match encapsFor env cli k client r with
      | .error e => .error e
      | .ok (ss, ct) =>
        .ok (ss, { m with hdr := { m.hdr with info := m.hdr.info ++ [(kemInfoOid, .kemCt (env.kemOidPub k) (some ct))] } })
    else .error .valueError

/-- `cmputils.py` 5655-5663: the secret in the answer of the CA. -/
def fromAnswer (env : Env S K C) (s : S) : InfoVal → Except PyErr Bytes
  | .kemCt _ _ => .error .pyasn1Error
  | .raw b =>
    match env.decCt b with
    | none => .error .pyasn1Error
    | some ((o, ct), rest) =>
      if rest ≠ [] then .error .badAsn1Data
      else if env.kemOid s ≠ o then .error .valueError
      else
        match ct with
        | none => .error .pyasn1Error
        | some c => env.decaps s (if env.isRsaKem s then .oaep else .plain) c

/-- The arguments. -/
structure Args (S C : Type) where
  ss : Option Bytes
  ca : Option C
  info : Option InfoVal
  client : Option S

/-- `cmputils.py` 5648-5684: the secret, and the message before the protection. -/
def source (env : Env S K C) (cli : CliEnv S K) (m : Msg C) (a : Args S C) (r : Bytes) : Except PyErr (Bytes × Msg C) :=
  if a.info.isSome ∧ a.client.isNone then .error .valueError
  else
    match a.ss with
    | some b => .ok (b, m)
    | none =>
      match a.client, a.info, a.ca with
      | some s, some v, _ => (fromAnswer env s v).map (fun b => (b, m))
      | cl, _, some c => toCa env cli m c cl r
      | _, _, none => .error .valueError

/-- `cmputils.py` 5612-5689, `build_kem_based_mac_protected_message`, with the defaults of
`protect_pkimessage_kem_based_mac` (`protectionutils.py` 2250-2254). -/
def build (env : Env S K C) (cli : CliEnv S K) (m : Msg C) (a : Args S C) (r rnd : Bytes) : Except PyErr (Bytes × Msg C) :=
  match source env cli m a r with
  | .error e => .error e
  | .ok (b, m1) => (protectKem env m1 (.secret b) rnd "kdf3" "sha256" none false).map (fun m' => (b, m'))

end Verif.Prot.KemCli
