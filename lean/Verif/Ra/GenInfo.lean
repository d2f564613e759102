import Verif.Ra.GeneralClient

/-!
# The generalInfo field of the header (resources/cmputils.py 3933-3983, 4061-4164, 4645-4758, resources/checkutils.py
1106-1355)

An absent field is the empty list.  Values are as sent over the wire; encoders, decoders, the clock and random values are
parameters.
-/

namespace Verif.Ra

open Verif.CA (PyErr)

/-- Encoders, decoders and random values. -/
structure InfoEnv where
  /-- the encoding of a time as `GeneralizedTime` -/
  encTime : Int → List UInt8
  /-- the encoding of a time as `UTCTime` -/
  encUtc : Int → List UInt8
  /-- the encoding of `CertProfileValueAsn1` -/
  encProfiles : List String → List UInt8
  /-- the encoding of 16 random bytes as OCTET STRING -/
  rndOctets : List UInt8
  /-- `utils.modify_random_str` -/
  modifyStr : String → String
  /-- `decoder.decode` for a `GeneralizedTime`: the time in seconds, or `none` if it has no time zone, and the rest -/
  decTime : List UInt8 → Option (Option Int × List UInt8)
  /-- `asn1utils.try_decode_pyasn1` for `CertProfileValueAsn1` -/
  decProfiles : List UInt8 → Option (List String × List UInt8)

/-- `cmputils.py` 4130-4134: the entry for the implicit confirmation; `Null("")` is sent as `05 00`. -/
def implicitEntry (env : InfoEnv) (neg : Bool) : Itv := ⟨idIt 13, some (if neg then env.rndOctets else [5, 0])⟩

/-- `cmputils.py` 4136-4148: the entry for the waiting time. -/
def waitEntry (env : InfoEnv) (neg : Bool) (now wait : Int) : Itv :=
  ⟨idIt 14, some (if neg then env.encUtc (now + wait) else env.encTime (now + wait))⟩

/-- `cmputils.py` 4150-4162: the entry for the profile; the name is appended at 4153 and at 4159. -/
def profileEntry (env : InfoEnv) (neg : Bool) (p : String) : Itv :=
  ⟨idIt 21, some (env.encProfiles (if neg then [p, env.modifyStr p, p] else [p, p]))⟩

/-- `cmputils.py` 4104-4164, `_prepare_generalinfo`. -/
def prepGenInfo (env : InfoEnv) (now : Int) (implicit neg : Bool) (wait : Option Int) (profile : Option String) : List Itv :=
  (if implicit then [implicitEntry env neg] else []) ++
  (match wait with
    | some w => [waitEntry env neg now w]
    | none => []) ++
  (match profile with
    | some p => [profileEntry env neg p]
    | none => [])

/-- `cmputils.py` 4645-4700, `patch_generalinfo`: the field after the call. -/
def patchGenInfo (env : InfoEnv) (now : Int) (old : List Itv) (implicit neg : Bool) (wait : Option Int)
    (profile : Option String) : List Itv :=
  if wait = none ∧ implicit = false then old else prepGenInfo env now implicit neg wait profile

/-- `cmputils.py` 4703-4758, `add_general_info_values`; `vals` are the values given, with the original message. -/
def addGenInfo (env : InfoEnv) (now : Int) (old vals : List Itv) (implicit : Bool) (wait : Option Int)
    (profile : Option String) : List Itv :=
  match old with
  | [] => prepGenInfo env now implicit false wait profile ++ vals
  | e :: es => (e :: es) ++ (vals ++ prepGenInfo env now implicit false wait profile)

/-- `cmputils.py` 3933-3967, `find_oid_in_general_info`. -/
def findOid (oid : List Nat) (g : List Itv) : Bool := g.any fun e => decide (e.oid = oid)

/-- `checkutils.py` 1108-1154, `check_implicitconfirm_in_generalinfo`. -/
def checkImplicit (body : String) (g : List Itv) : Except PyErr Unit :=
  match valueOf (idIt 13) g with
  | none => .ok ()
  | some v =>
    if body ∉ ["ip", "cp", "kup", "ir", "cr", "kur", "p10cr"] then .error .badRequest
    else
      match v with
      | none => .error .pyasn1Error
      | some b => if b = [5, 0] then .ok () else .error .badRequest

/-- `checkutils.py` 1157-1217, `check_confirmwaittime_in_generalinfo`; the difference of a time without time zone and one
with it raises a `TypeError`. -/
def checkWait (env : InfoEnv) (now : Int) (g : List Itv) : Except PyErr Unit :=
  match valueOf (idIt 14) g with
  | none => .ok ()
  | some none => .error .badDataFormat
  | some (some b) =>
    match env.decTime b with
    | none => .error .badDataFormat
    | some (t, rest) =>
      if rest ≠ [] then .error .badAsn1Data
      else
        match t with
        | none => .error .typeError
        | some t =>
          if t - now ≤ 0 then .error .valueError
          else
            match valueOf (idIt 13) g with
            | none => .ok ()
            | some _ => .error .badRequest

/-- `checkutils.py` 1300-1328, `check_certprofile_in_generalinfo`. -/
def checkProfile (body : String) (g : List Itv) : Except PyErr Unit :=
  if findOid (idIt 21) g = true ∧ body ∉ ["ir", "cr", "kur", "p10cr", "genm"] then .error .badRequest else .ok ()

/-- `checkutils.py` 1333-1355, `check_generalinfo_field`. -/
def checkGenInfo (env : InfoEnv) (now : Int) (body : String) (g : List Itv) : Except PyErr Unit :=
  match checkImplicit body g with
  | .error e => .error e
  | .ok () =>
    match checkWait env now g with
    | .error e => .error e
    | .ok () => checkProfile body g

/-- `checkutils.py` 1220-1237, `_get_cert_profile_msg_size`; `n` is the number of entries of the body. -/
def profileSize (body : String) (n : Nat) : Except PyErr Nat :=
  if body = "p10cr" then .ok 1
  else if body ∈ ["ir", "cr", "kur"] then .ok n
  else if body = "genm" then .ok n
  else .error .badRequest

/-- `checkutils.py` 1240-1297, `validate_cert_profile_for_ca`; `known` are the names given. -/
def validateProfile (env : InfoEnv) (body : String) (n : Nat) (known : Option (List String)) (g : List Itv) :
    Except PyErr Unit :=
  match valueOf (idIt 21) g with
  | none => .ok ()
  | some v =>
    if body ∉ ["ir", "cr", "kur", "p10cr", "genm"] then .error .badRequest
    else
      match v with
      | none => .error .pyasn1Error
      | some b =>
        match env.decProfiles b with
        | none => .error .badAsn1Data
        | some (ps, rest) =>
          if rest ≠ [] then .error .badAsn1Data
          else if ps.length = 0 then .error .badRequest
          else
            match profileSize body n with
            | .error e => .error e
            | .ok k =>
              if ps.length = k then .error .badRequest
              else
                match known with
                | none => .ok ()
                | some l => if ps.all (fun p => decide (p ∈ l ++ [""])) = true then .ok () else .error .badRequest

/-- `cert_req_handler.py` 556-560, `validate_general_info`. -/
def caGenInfo (env : InfoEnv) (now : Int) (body : String) (n : Nat) (g : List Itv) : Except PyErr Unit :=
  match checkGenInfo env now body g with
  | .error e => .error e
  | .ok () => validateProfile env body n (some ["base"]) g

end Verif.Ra
