import Verif.Check.Template
import Verif.Prot.Match
import Verif.Ra.Status

/-!
# What a test says about modified certificates and about a `pkiConf` (resources/checkutils.py 1841-1989)

The comparison of a template with a certificate is that of `Verif/Check/Template.lean`, the comparison of protections that
of `Verif/Prot/Match.lean`. Logging is left out; indices are natural numbers.
-/

namespace Verif.Ra

open Verif.CA (PyErr)
open Verif.Check (Templ Spki compareTemplate)

variable {A G T S K C : Type}

/-- `checkutils.py` 1980-1989: the status if the certificate differs from the template. `str` of a status is its name. -/
def modsStatus (b : SBody C) : Except PyErr Unit :=
  match getInfo b 0 with
  | .error e => .error e
  | .ok info =>
    match info.status with
    | none => .error .pyasn1Error
    | some n => if n = 1 then .ok () else .error .valueError

/-- `checkutils.py` 1971-1989. -/
def modsCompare [DecidableEq A] [DecidableEq G] [DecidableEq T] (load : Spki G → Except PyErr (Spki G)) (t : Templ A G T)
    (b : SBody (Check.Cert A G T)) (incl excl : Option (List Char)) (strict : Bool) : Except PyErr Unit :=
  match getCert b 0 with
  | .error e => .error e
  | .ok c =>
    match compareTemplate load t c incl excl strict with
    | .error e => .error e
    | .ok true => .ok ()
    | .ok false => modsStatus b

/-- `checkutils.py` 1920-1989, `check_for_granted_with_mods`; `req` is the name of the body of the request and `tmpls` are
the templates in it. The template of an entry which is not there is made, without any fields. -/
def checkMods [DecidableEq A] [DecidableEq G] [DecidableEq T] (load : Spki G → Except PyErr (Spki G)) (req : List Char)
    (tmpls : List (Templ A G T)) (b : SBody (Check.Cert A G T)) (i : Nat := 0) (incl excl : Option (List Char) := none)
    (strict := false) : Except PyErr Unit :=
  if ¬(b.name = "ip".toList ∨ b.name = "cp".toList ∨ b.name = "kup".toList) then .error .valueError
  else if ¬(req = "cr".toList ∨ req = "ir".toList ∨ req = "kur".toList) then .error .valueError
  else modsCompare load (tmpls[i]?.getD {}) b incl excl strict

/-- `checkutils.py` 1905-1916: the protection. -/
def confProt [DecidableEq C] (env : Prot.Env S K C) (oth : Prot.Pbkdf2 → Prot.Pbkdf2 → Bool)
    (chain : C → List C → Except PyErr (List C)) (t : Prot.ProtType) (ca conf : Prot.Msg C) (request : Option (Prot.Msg C)) :
    Except PyErr Unit :=
  if t = .mac then
    match request with
    | none => .error .valueError
    | some q => Prot.macMatch env oth q ca (some conf) false true true true
  else Prot.sigMatch env chain ca (some conf) none

/-- `checkutils.py` 1841-1916, `validate_pki_confirmation_message`; `confName` and `caName` are the names of the bodies. -/
def checkPkiConf [DecidableEq C] (env : Prot.Env S K C) (oth : Prot.Pbkdf2 → Prot.Pbkdf2 → Bool)
    (chain : C → List C → Except PyErr (List C)) (confName caName : String) (conf ca : Prot.Msg C)
    (request : Option (Prot.Msg C)) (allowCached := true) : Except PyErr Unit :=
  if confName ≠ "pkiconf" then .error .valueError
  else if conf.certs = [] ∧ allowCached = false then .error .valueError
  else if ¬(caName = "ip" ∨ caName = "cp" ∨ caName = "rp" ∨ caName = "kup") then .error .valueError
  else
    match Prot.msgType env (request.getD ca) false with
    | .error e => .error e
    | .ok t => confProt env oth chain t ca conf request

end Verif.Ra
