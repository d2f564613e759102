import Verif.Prot.Protect

/-!
# Comparing the protection of messages of one transaction

`resources/protectionutils.py`: `_compare_alg_id`, `_compare_pbm_parameters`, `_compare_pbkdf2_parameters`,
`_compare_pbmac1_parameters`, `get_protection_type_from_pkimessage`, `_compare_mac_params`, `_compare_not_strict_mac`,
`mac_protection_algorithms_must_match`, `check_signature_alg_is_consistent`, `_check_is_same_chain` and
`signature_protection_must_match`.

Parameters: the comparison of two salts that are the choice `otherSource` (`oth`), and `build_chain_from_list` (`chain`,
modelled in `Verif/Check/Chain.lean`).

Simplified: logging is left out; DER encodings of algorithm identifiers are compared by their components.
-/

namespace Verif.Prot

open Verif.CA

variable {S K C : Type}

/-! ## MACs -/

/-- `protectionutils.py` 133-156, `_compare_alg_id`. -/
def algEq (o1 : Oid) (p1 : Option Bytes) (o2 : Oid) (p2 : Option Bytes) (allowNull : Bool) : Bool :=
  if allowNull then decide (o1 = o2 ∧ p1 = p2)
  else if o1 ≠ o2 then false
  else if p2.isSome then false
  else true

/-- `protectionutils.py` 178-192, the comparison in `_compare_pbm_parameters`. -/
def cmpPbm (p q : Pbm) (same allowNull : Bool) : Bool :=
  if (p.salt ≠ q.salt ∧ same = true) ∨ (p.salt = q.salt ∧ same = false) then false
  else if p.iter ≠ q.iter then false
  else if algEq p.owf p.owfPar q.owf q.owfPar allowNull = false then false
  else if algEq p.mac p.macPar q.mac q.macPar allowNull = false then false
  else true

/-- `protectionutils.py` 159-192, `_compare_pbm_parameters`. Parameters that were decoded are bytes, which cannot be
asked for a component. -/
def cmpPbmPar (env : MacEnv) (par : Par) (b : Bytes) (same allowNull : Bool) : Except PyErr Bool :=
  match env.decPbm b with
  | none => .ok false
  | some (q, _) =>
    match par with
    | .pbm p => .ok (cmpPbm p q same allowNull)
    | .raw _ => .error .typeError
    | .null => .error .typeError
    | _ => .error .pyasn1Error

/-- `protectionutils.py` 230-232: the lengths of the keys; `int` of an absent one is an error. -/
def cmpKeyLen : Option Int → Option Int → Except PyErr Bool
  | none, none => .ok true
  | some a, some b => .ok (decide (a = b))
  | _, _ => .error .pyasn1Error

/-- `protectionutils.py` 214-225: the salts. -/
def cmpSalt (oth : Pbkdf2 → Pbkdf2 → Bool) (p q : Pbkdf2) (same : Bool) : Bool :=
  match p.salt, q.salt with
  | some a, some b => if (a ≠ b ∧ same = true) ∨ (a = b ∧ same = false) then false else true
  | none, none => oth p q
  | _, _ => false

/-- `protectionutils.py` 195-234, `_compare_pbkdf2_parameters`. -/
def cmpPbkdf2 (oth : Pbkdf2 → Pbkdf2 → Bool) (p q : Pbkdf2) (allowNull same : Bool) : Except PyErr Bool :=
  if cmpSalt oth p q same = false then .ok false
  else if p.iter ≠ q.iter then .ok false
  else
    match cmpKeyLen p.keyLen q.keyLen with
    | .error e => .error e
    | .ok false => .ok false
    | .ok true => .ok (algEq p.prf p.prfPar q.prf q.prfPar allowNull)

/-- `protectionutils.py` 262-273: decoding the parameters of the key derivation function. -/
def kdfDec (env : MacEnv) : KdfPar → Option Pbkdf2
  | .raw b => (env.decPbkdf2 b).map (·.1)
  | _ => none

/-- `protectionutils.py` 237-286, `_compare_pbmac1_parameters`. The OID of the key derivation function is not
compared. -/
def cmpPbmac1 (env : MacEnv) (oth : Pbkdf2 → Pbkdf2 → Bool) (b1 b2 : Bytes) (allowNull same : Bool) : Except PyErr Bool :=
  match env.decPbmac1 b1, env.decPbmac1 b2 with
  | some (p, _), some (q, _) =>
    match kdfDec env p.kdfPar, kdfDec env q.kdfPar with
    | some k, some l =>
      match cmpPbkdf2 oth k l allowNull same with
      | .error e => .error e
      | .ok false => .error .valueError
      | .ok true => if algEq p.mac p.macPar q.mac q.macPar allowNull then .ok true else .error .valueError
    | _, _ => .ok false
  | _, _ => .ok false

/-- `asOctets` of the field `parameters`. -/
def octets : Par → Except PyErr Bytes
  | .raw b => .ok b
  | .absent => .error .pyasn1Error
  | _ => .error .attributeError

/-- `if not f(..): raise ValueError`. -/
def orFail : Except PyErr Bool → Except PyErr Unit
  | .error e => .error e
  | .ok true => .ok ()
  | .ok false => .error .valueError

/-- `protectionutils.py` 1510-1529, the comparison by the algorithm. -/
def macParamsBy (env : MacEnv) (oth : Pbkdf2 → Pbkdf2 → Bool) (a : AlgId) (d b : Bytes) (allowNull same : Bool) :
    Except PyErr Unit :=
  if a.oid = pbmac1Oid then orFail (cmpPbmac1 env oth d b allowNull same)
  else if a.oid = pbmOid then orFail (cmpPbmPar env a.par b same allowNull)
  else if d ≠ b then .error .valueError
  else .ok ()

/-- `protectionutils.py` 1490-1529, `_compare_mac_params`. -/
def macParams (env : MacEnv) (oth : Pbkdf2 → Pbkdf2 → Bool) (a1 a2 : AlgId) (allowNull same : Bool) : Except PyErr Unit :=
  match parDer env a1.par with
  | none => .error .pyasn1Error
  | some d =>
    match octets a2.par with
    | .error e => .error e
    | .ok b =>
      if allowNull = false ∧ same = true ∧ d ≠ b then .error .valueError
      else macParamsBy env oth a1 d b allowNull same

/-- `protectionutils.py` 1412-1487, `get_protection_type_from_pkimessage` with the defaults for DH and KEM. -/
def msgType (env : Env S K C) (m : Msg C) (lw : Bool) : Except PyErr ProtType :=
  match m.hdr.alg with
  | none => .error .valueError
  | some a =>
    match protType env a.oid with
    | .error e => .error e
    | .ok t =>
      if lw then lwType env a.oid
      else if t = .kem then .ok .kem
      else if t = .dh then .ok .dh
      else if isSymmetric a.oid then .ok .mac
      else if isTradSig a.oid then .ok .trad
      else if env.isStateful a.oid then .ok t
      else if (env.compName a.oid).isSome then .ok .composite
      else if env.isPqSig a.oid then .ok .pq
      else .error .unknownOID

/-- `protectionutils.py` 1533-1566, `_compare_not_strict_mac`. -/
def macLoose (env : Env S K C) (req resp : Msg C) (conf : Option (Msg C)) (lw : Bool) : Except PyErr Unit :=
  match msgType env resp lw with
  | .error e => .error e
  | .ok t =>
    match msgType env req lw with
    | .error e => .error e
    | .ok u =>
      if t ≠ u then .error .valueError
      else
        match conf with
        | none => .ok ()
        | some c =>
          match msgType env c lw with
          | .error e => .error e
          | .ok v => if t ≠ v then .error .valueError else .ok ()

/-- `protectionutils.py` 1636-1645: the confirmation. -/
def macConf (env : Env S K C) (oth : Pbkdf2 → Pbkdf2 → Bool) (a1 a2 : AlgId) (conf : Option (Msg C))
    (allowNull same : Bool) : Except PyErr Unit :=
  match conf with
  | none => .ok ()
  | some c =>
    if same then
      match c.hdr.alg with
      | none => .error .pyasn1Error
      | some a3 =>
        if algEq a3.oid (parDer env.toMacEnv a3.par) a2.oid (parDer env.toMacEnv a2.par) false then .ok ()
        else .error .valueError
    else macParams env.toMacEnv oth a1 a2 allowNull same

/-- `protectionutils.py` 1625-1645: the strict comparison. -/
def macStrict (env : Env S K C) (oth : Pbkdf2 → Pbkdf2 → Bool) (resp : Msg C) (a1 a2 : AlgId) (conf : Option (Msg C))
    (same allowNull lw : Bool) : Except PyErr Unit :=
  match msgType env resp false with
  | .error e => .error e
  | .ok t =>
    if t ≠ .mac then .error .valueError
    else if lw = true ∧ a2.oid ≠ pbmac1Oid ∧ a2.oid ≠ pbmOid then .error .valueError
    else if a1.oid ≠ a2.oid then .error .valueError
    else
      match macParams env.toMacEnv oth a1 a2 allowNull same with
      | .error e => .error e
      | .ok () => macConf env oth a1 a2 conf allowNull same

/-- `protectionutils.py` 1569-1645, `mac_protection_algorithms_must_match`. The name of an absent algorithm is an error
before the test for it. -/
def macMatch (env : Env S K C) (oth : Pbkdf2 → Pbkdf2 → Bool) (req resp : Msg C) (conf : Option (Msg C))
    (same allowNull strict lw : Bool) : Except PyErr Unit :=
  match resp.hdr.alg, req.hdr.alg with
  | some a2, some a1 =>
    if strict = false then macLoose env req resp conf lw
    else macStrict env oth resp a1 a2 conf same allowNull lw
  | _, _ => .error .pyasn1Error

/-! ## Signatures -/

/-- `protectionutils.py` 1673-1685: the OID of another message. -/
def sameOid (a : AlgId) : Option (Msg C) → Except PyErr Unit
  | none => .ok ()
  | some m =>
    match m.hdr.alg with
    | none => .error .pyasn1Error
    | some b => if a.oid ≠ b.oid then .error .valueError else .ok ()

/-- `protectionutils.py` 1687-1695: does a message have parameters? -/
def hasPar : Option (Msg C) → Bool
  | none => false
  | some m =>
    match m.hdr.alg with
    | none => false
    | some a => decide (a.par ≠ .absent)

/-- `protectionutils.py` 1648-1696, `check_signature_alg_is_consistent`. -/
def sigConsistent (resp : Msg C) (conf poll : Option (Msg C)) : Except PyErr AlgId :=
  match resp.hdr.alg with
  | none => .error .pyasn1Error
  | some a =>
    match sameOid a conf with
    | .error e => .error e
    | .ok () =>
      match sameOid a poll with
      | .error e => .error e
      | .ok () => if hasPar (some resp) || hasPar conf || hasPar poll then .error .valueError else .ok a

/-- `protectionutils.py` 1775-1776: the hash function. -/
def matchHash (env : Env S K C) (o : Oid) : Except PyErr (Option String) :=
  match hashOfOid env.toMacEnv o false with
  | .error e => .error e
  | .ok none => .ok none
  | .ok (some n) => (dash1 n).map some

/-- `certutils.py` 1221-1239, `verify_signature_with_cert`. -/
def verifyWithCert (env : Env S K C) (c : C) (data sig : Bytes) (h : Option String) : Except PyErr Unit :=
  match env.keyOf c with
  | .error e => .error e
  | .ok k => if env.isVerifyKey k then verifyData env k h data sig else .error .valueError

/-- `protectionutils.py` 1778-1786, 1792-1800 and 1807-1815: the signature of one message. -/
def sigOne (env : Env S K C) (c : C) (h : Option String) (m : Msg C) : Except PyErr Unit :=
  match protectedPart env.toMacEnv m with
  | .error e => .error e
  | .ok data =>
    match m.prot with
    | none => .error .pyasn1Error
    | some p =>
      match verifyWithCert env c data p h with
      | .error .invalidSignature => .error .valueError
      | r => r

/-- The signature of a message that may be missing. -/
def sigOpt (env : Env S K C) (c : C) (h : Option String) : Option (Msg C) → Except PyErr Unit
  | none => .ok ()
  | some m => sigOne env c h m

/-- `protectionutils.py` 1718-1728: the chain of another message, if it has certificates. -/
def sameChain [DecidableEq C] (chain : C → List C → Except PyErr (List C)) (c : C) (l : List C) :
    Option (Msg C) → Except PyErr Unit
  | none => .ok ()
  | some m =>
    if m.certs = [] then .ok ()
    else
      match chain c m.certs with
      | .error e => .error e
      | .ok l' => if l ≠ l' then .error .valueError else .ok ()

/-- `protectionutils.py` 1699-1728, `_check_is_same_chain`. The certificates are compared by their encodings. -/
def sameChains [DecidableEq C] (chain : C → List C → Except PyErr (List C)) (c : C) (certs : List C)
    (conf poll : Option (Msg C)) : Except PyErr Unit :=
  match chain c certs with
  | .error e => .error e
  | .ok l =>
    match sameChain chain c l conf with
    | .error e => .error e
    | .ok () => sameChain chain c l poll

/-- `protectionutils.py` 1774-1817: the signatures and the chains. -/
def sigVerifyAll [DecidableEq C] (env : Env S K C) (chain : C → List C → Except PyErr (List C)) (o : Oid) (c : C)
    (resp : Msg C) (conf poll : Option (Msg C)) : Except PyErr Unit :=
  match matchHash env o with
  | .error e => .error e
  | .ok h =>
    match sigOne env c h resp with
    | .error e => .error e
    | .ok () =>
      match sigOpt env c h conf with
      | .error e => .error e
      | .ok () =>
        match sigOpt env c h poll with
        | .error e => .error e
        | .ok () => sameChains chain c resp.certs conf poll

/-- `protectionutils.py` 1735-1817, `signature_protection_must_match`. -/
def sigMatch [DecidableEq C] (env : Env S K C) (chain : C → List C → Except PyErr (List C)) (resp : Msg C)
    (conf poll : Option (Msg C)) : Except PyErr Unit :=
  match resp.certs with
  | [] => .error .valueError
  | c :: _ =>
    if conf.isNone ∧ poll.isNone then .error .valueError
    else
      match sigConsistent resp conf poll with
      | .error e => .error e
      | .ok a => sigVerifyAll env chain a.oid c resp conf poll

end Verif.Prot
