import Verif.Ra.General
import Verif.Check.Template
import Verif.Check.Helpers

/-!
# The general messages built by the client

Model of `resources/general_msg_utils.py` 870-967 (`build_cmp_general_message`) and 1736-1779 (`_append_messages`) with
the functions which prepare the single entries.

* The random value of an entry is the parameter `rnd` (by type); the encoding of language tags is a parameter.
* `prepare_crl_update_retrieval` is a parameter with its outcome.
* `str.strip()` is modelled for texts whose only white space is the blank.
* The header (`prepare_pki_message`) is not part of this model.
-/

namespace Verif.Ra.Genm

open Verif.CA (PyErr)
open Verif.Check (splitComma stripL)
open Verif.Ra (Itv idIt)

/-- The functions called by the builder. -/
structure BuildEnv where
  /-- `os.urandom(16)` for the entry of the given type (`cmputils.py` 4091-4093) -/
  rnd : Nat → List UInt8
  /-- encoding of `SuppLangTagsValue` (`general_msg_utils.py` 1476-1482) -/
  encLangs : List String → List UInt8
  /-- `prepare_crl_update_retrieval` (`general_msg_utils.py` 943-950); the argument is `bad_this_update` -/
  crlRetrieval : Bool → Except PyErr Itv

/-- `general_msg_utils.py` 936-939: the names of the wanted entries. -/
def wanted : Option String → List (List Char)
  | none => []
  | some t => splitComma (stripL t.toList)

/-- `cmputils.py` 4062-4101, `prepare_info_type_and_value` without a value. -/
def infoEntry (env : BuildEnv) (n : Nat) (fill : Bool) : Itv :=
  ⟨idIt n, if fill then some (env.rnd n) else none⟩

/-- `general_msg_utils.py` 164-182, `_prepare_get_root_ca_cert_update`. -/
def rootEntry (cert : Option (List UInt8)) : Itv := ⟨idIt 20, cert⟩

/-- `general_msg_utils.py` 1447-1483, `prepare_supported_language_tags` of `"DE"` (the default of 1741, which no caller
changes). -/
def langEntry (env : BuildEnv) : Itv := ⟨idIt 16, some (env.encLangs ["DE"])⟩

/-- One `if … in messages` of `_append_messages`. -/
def ifNamed (ns : List (List Char)) (name : String) (e : Itv) : List Itv :=
  if name.toList ∈ ns then [e] else []

/-- `general_msg_utils.py` 1736-1779, `_append_messages`: the entries which are appended, with 74-85, 304-311, 781-790,
1277-1287, 1144-1153 and 1083-1092 for the single entries. -/
def appended (env : BuildEnv) (ns : List (List Char)) (fill : Bool) (cert : Option (List UInt8)) : List Itv :=
  ifNamed ns "get_ca_certs" (infoEntry env 17 fill)
    ++ (ifNamed ns "get_root_ca_cert_update" (rootEntry cert)
    ++ (ifNamed ns "get_cert_template" (infoEntry env 19 fill)
    ++ (ifNamed ns "current_crl" (infoEntry env 6 fill)
    ++ (ifNamed ns "preferred_sym_alg" (infoEntry env 4 fill)
    ++ (ifNamed ns "enc_key_agree" (infoEntry env 3 fill)
    ++ (ifNamed ns "sign_key_types" (infoEntry env 2 fill)
    ++ (ifNamed ns "supp_lang_tags" (langEntry env)
    ++ ifNamed ns "kem_ct_info" (infoEntry env 9999 fill))))))))

/-- `general_msg_utils.py` 870-967, `build_cmp_general_message`: the body. -/
def buildGeneral (env : BuildEnv) (add : Option String) (cert : Option (List UInt8)) (info : List Itv)
    (negative : Bool) : Except PyErr (List Itv) :=
  if "crl_update_ret".toList ∈ wanted add then
    match env.crlRetrieval negative with
    | .error e => .error e
    | .ok e => .ok (e :: (info ++ appended env (wanted add) negative cert))
  else .ok (info ++ appended env (wanted add) negative cert)

end Verif.Ra.Genm
