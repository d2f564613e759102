import Verif.Ra.Sender

/-!
# Building messages of the client (resources/cmputils.py 74-280, 3124-3271, 4206-4228, 4295-4574, 5246-5394, 5404-5575)

Bytes given as texts are not modelled.  Names are parsed by the environment; random values are arguments.
-/

namespace Verif.Ra

open Verif.CA (PyErr Bytes)
open Verif.Check (Hdr Inner)

/-- All fields of a header; the field generalInfo is empty if absent. -/
structure FHdr (V : Type) where
  pvno : Option Int := none
  sender : Option (GName V) := none
  recipient : Option (GName V) := none
  tid : Option Bytes := none
  senderNonce : Option Bytes := none
  recipNonce : Option Bytes := none
  time : Option Int := none
  senderKid : Option Bytes := none
  recipKid : Option Bytes := none
  info : List Itv := []
  freeText : Option (List String) := none
deriving DecidableEq

/-- A name as argument: a text, or a name. -/
inductive NameArg (V : Type) where
  | text (s : List Char)
  | name (n : GName V)

/-- The functions called. -/
structure BuildEnv (V : Type) where
  /-- `prepareutils.parse_to_general_name` for a text -/
  parse : List Char → Except PyErr (GName V)
  /-- `prepareutils.prepare_general_name` with `directoryName` -/
  dirName : List Char → Except PyErr (Dn V)
  /-- as in `SenderEnv` -/
  text : V → Except PyErr (List Char)
  /-- the encoding in UTF-8 -/
  utf8 : List Char → Bytes

variable {V : Type}

/-- The parts of a text between the occurrences of a character (`str.split`). -/
def splitAt (c : Char) : List Char → List (List Char)
  | [] => [[]]
  | x :: xs =>
    if x = c then [] :: splitAt c xs
    else
      match splitAt c xs with
      | [] => [[x]]
      | p :: ps => (x :: p) :: ps

/-- Without blanks at both ends (`str.strip(" ")`). -/
def stripBlanks (s : List Char) : List Char :=
  ((s.dropWhile (· = ' ')).reverse.dropWhile (· = ' ')).reverse

/-- The set of excluded fields (215). -/
def excludeOf (s : Option (List Char)) : List (List Char) :=
  match s with
  | none => []
  | some s => splitAt ',' (stripBlanks s)

/-- The loop of `get_common_name_from_str` (4220-4223). -/
def cnParts : List (List Char) → Except PyErr (List Char)
  | [] => .ok []
  | e :: es =>
    match splitAt '=' e with
    | [a, v] =>
      match cnParts es with
      | .error x => .error x
      | .ok r => .ok ((if a = ['C', 'N'] then ['C', 'N', '='] ++ v else []) ++ r)
    | _ => .error .valueError

/-- `cmputils.py` 4206-4228, `get_common_name_from_str`. -/
def cnFromStr (s : List Char) : Except PyErr (Option (List Char)) :=
  if '=' ∉ s then .ok none
  else
    match cnParts (splitAt ',' s) with
    | .error e => .error e
    | .ok r => .ok (if r = [] then none else some r)

/-- `cmputils.py` 113-132, `_prepare_sender_kid`. -/
def senderKidOf (env : BuildEnv V) (dflt : Bytes) (kid : Option Bytes) (sender : NameArg V) : Except PyErr Bytes :=
  match kid, sender with
  | some (b :: bs), _ => .ok (b :: bs)
  | _, .text s =>
    match cnFromStr s with
    | .error e => .error e
    | .ok none => .ok dflt
    | .ok (some t) => .ok (env.utf8 t)
  | k, .name _ => .ok (k.getD dflt)

/-- The arguments of `prepare_pki_message`. -/
structure MArgs (V : Type) where
  sender : NameArg V
  recipient : NameArg V
  exclude : Option (List Char) := none
  tid : Option Bytes := none
  senderNonce : Option Bytes := none
  recipNonce : Option Bytes := none
  implicit : Bool := false
  recipKid : Option Bytes := none
  senderKid : Option Bytes := none
  time : Option Int := none
  freeText : List String := []
  pvno : Option Int := some 2
  forMac : Bool := false
  forKga : Bool := false

/-- `prepareutils.parse_to_general_name`. -/
def nameOf (env : BuildEnv V) : NameArg V → Except PyErr (GName V)
  | .text s => env.parse s
  | .name n => .ok n

/-- A field which may be excluded. -/
def field {α : Type} (ex : List (List Char)) (f : String) (v : Except PyErr α) : Except PyErr (Option α) :=
  if f.toList ∈ ex then .ok none
  else
    match v with
    | .error e => .error e
    | .ok x => .ok (some x)

/-- `value or other` for bytes. -/
def orB (a : Option Bytes) (b : Bytes) : Bytes :=
  match a with
  | some (x :: l) => x :: l
  | _ => b

/-- `cmputils.py` 135-153, `_prepare_pvno`. -/
def pvnoOf (p : Option Int) (kga : Bool) : Int :=
  match p with
  | some v => v
  | none => if kga then 3 else 2

/-- `cmputils.py` 4389-4417, `_patch_senderkid_for_mac`; the name is never `None`. -/
def kidOfSender (env : BuildEnv V) (n : Option (GName V)) : Except PyErr Bytes :=
  match n with
  | some (.dir d) =>
    match opensslName env.text [idCn] d with
    | .error e => .error e
    | .ok t => .ok (env.utf8 t)
  | _ => .error .valueError

/-- `cmputils.py` 267-278: the sender and the key identifier for MAC-based protection; each exception is turned into a
`ValueError`.  The name tested at 275 is `sender_kid`. -/
def macPatch (env : BuildEnv V) (a : MArgs V) (h : FHdr V) : Except PyErr (FHdr V) :=
  match a.sender with
  | .name _ => .error .valueError
  | .text s =>
    match (if "sender".toList ∈ excludeOf a.exclude then .ok h.sender
        else
          match env.dirName s with
          | .error e => .error e
          | .ok d => .ok (some (.dir d)) : Except PyErr (Option (GName V))) with
    | .error _ => .error .valueError
    | .ok sn =>
      if "sender_kid".toList ∈ excludeOf a.exclude then .ok { h with sender := sn }
      else
        match kidOfSender env sn with
        | .error _ => .error .valueError
        | .ok k => .ok { h with sender := sn, senderKid := some k }

/-- A field which may be excluded, and needs no computation. -/
def plain {α : Type} (ex : List (List Char)) (f : String) (v : Option α) : Option α := if f.toList ∈ ex then none else v

/-- A nonce, if it is not empty. -/
def nonEmpty (b : Option Bytes) : Option Bytes :=
  match b with
  | some (x :: l) => some (x :: l)
  | _ => none

/-- `cmputils.py` 74-100, 210-261: the header before the changes for MAC-based protection. -/
def plainHeader (env : BuildEnv V) (ie : InfoEnv) (dflt : Bytes × Bytes) (r1 r2 : Bytes) (now : Int) (a : MArgs V) :
    Except PyErr (FHdr V) :=
  let ex := excludeOf a.exclude
  match field ex "sender" (nameOf env a.sender) with
  | .error e => .error e
  | .ok sn =>
    match field ex "recipient" (nameOf env a.recipient) with
    | .error e => .error e
    | .ok rc =>
      match field ex "senderKID" (senderKidOf env dflt.1 a.senderKid a.sender) with
      | .error e => .error e
      | .ok kid =>
        .ok {
          pvno := plain ex "pvno" (some (pvnoOf a.pvno a.forKga))
          sender := sn
          recipient := rc
          tid := plain ex "transactionID" (some (orB a.tid r1))
          senderNonce := plain ex "senderNonce" (some (orB a.senderNonce r2))
          recipNonce := plain ex "recipNonce" (nonEmpty a.recipNonce)
          time := plain ex "messageTime" (some (a.time.getD (now - 3)))
          senderKid := kid
          recipKid := plain ex "recipKID" (some (orB a.recipKid dflt.2))
          info := if "generalInfo".toList ∈ ex ∨ a.implicit = false then [] else prepGenInfo ie now true false none none
          freeText := plain ex "freeText" (some a.freeText) }

/-- `cmputils.py` 176-280, `prepare_pki_message`: the header. -/
def buildHeader (env : BuildEnv V) (ie : InfoEnv) (dflt : Bytes × Bytes) (r1 r2 : Bytes) (now : Int) (a : MArgs V) :
    Except PyErr (FHdr V) :=
  match plainHeader env ie dflt r1 r2 now a with
  | .error e => .error e
  | .ok h => if a.forMac then macPatch env a h else .ok h

/-- A message: header, name of the body. -/
structure FMsg (V : Type) where
  hdr : FHdr V
  body : String

/-- The fields which the checks of nested messages read. -/
def FHdr.toHdr (h : FHdr V) : Hdr := { txId := h.tid, senderNonce := h.senderNonce, recipNonce := h.recipNonce }

/-- A message in a nested one. -/
def FMsg.toInner (m : FMsg V) : Inner := ⟨m.hdr.toHdr, m.body⟩

/-- `cmputils.py` 5350-5370: the arguments for an added protection. -/
def addedArgs (others : Option (List (FMsg V))) (a : MArgs V) : Except PyErr (MArgs V) :=
  match others with
  | none => .error .valueError
  | some [] => .error .indexError
  | some (m :: _) =>
    .ok { a with
      senderNonce := if a.senderNonce.isNone then m.hdr.senderNonce else a.senderNonce
      tid := if a.tid.isNone then m.hdr.tid else a.tid
      recipNonce := if m.body = "certConf" ∧ a.recipNonce.isNone then m.hdr.recipNonce else a.recipNonce }

/-- `cmputils.py` 5306-5394, `build_nested_pkimessage`: the header and the messages. -/
def buildNested (env : BuildEnv V) (ie : InfoEnv) (dflt : Bytes × Bytes) (r1 r2 : Bytes) (now : Int) (added : Bool)
    (others : Option (List (FMsg V))) (a : MArgs V) : Except PyErr (FHdr V × List (FMsg V)) :=
  match (if added then addedArgs others a else .ok a) with
  | .error e => .error e
  | .ok a =>
    match buildHeader env ie dflt r1 r2 now { a with forMac := false, forKga := false } with
    | .error e => .error e
    | .ok h => .ok (h, others.getD [])

/-- `cmputils.py` 3124-3142, `_gen_unique_byte_seq`: the first of at most 10000 random values which is not in use. -/
def uniqueSeq (inUse : List Bytes) (rnd : Nat → Bytes) : Except PyErr Bytes :=
  match (List.range 10000).find? fun i => decide (rnd i ∉ inUse) with
  | some i => .ok (rnd i)
  | none => .error .valueError

/-- `cmputils.py` 3145-3179, `_patch_nested_pkimessage` (`inner = none`: the body is not `nested`). -/
def patchNested (h : FHdr V) (inner : Option (List (FMsg V))) (ex : List (List Char)) (rt rn : Nat → Bytes) :
    Except PyErr (FHdr V) :=
  match inner with
  | none => .error .valueError
  | some [] => .error .valueError
  | some ms =>
    match (if "transactionID".toList ∈ ex then .ok h
      else (uniqueSeq (ms.filterMap (·.hdr.tid)) rt).map fun v => { h with tid := some (orB (some v) (rt 10000)) } :
        Except PyErr (FHdr V)) with
    | .error e => .error e
    | .ok h =>
      if "senderNonce".toList ∈ ex then .ok h
      else (uniqueSeq (ms.filterMap (·.hdr.senderNonce)) rn).map fun v => { h with senderNonce := some v }

/-- `cmputils.py` 3247-3265: the patch for an added protection. -/
def patchAdded (h : FHdr V) (inner : Option (List (FMsg V))) (ex : List (List Char)) : Except PyErr (FHdr V) :=
  match inner with
  | none => .error .valueError
  | some [] => .error .valueError
  | some (m :: _) =>
    .ok { h with
      tid := if "transactionID".toList ∈ ex then h.tid else m.hdr.tid
      senderNonce := if "senderNonce".toList ∈ ex then h.senderNonce else m.hdr.senderNonce }

/-- `x.asOctets()`. -/
def octetsOf (x : Option Bytes) : Except PyErr Bytes :=
  match x with
  | none => .error .pyasn1Error
  | some b => .ok b

/-- `cmputils.py` 3275-3323 with 3238-3245: the patch for an exchange; the nonce is not fresh.  `ex`
are the names of fields which occur in the text. -/
def patchExchange (h : FHdr V) (o : FHdr V) (ex : List (List Char)) : Except PyErr (FHdr V) :=
  match (if "transactionID".toList ∈ ex then .ok h.tid else (octetsOf o.tid).map some : Except PyErr (Option Bytes)) with
  | .error e => .error e
  | .ok t =>
    match (if "recipNonce".toList ∈ ex then .ok h.recipNonce else (octetsOf o.senderNonce).map some : Except PyErr (Option Bytes)) with
    | .error e => .error e
    | .ok rn =>
      match (if "senderNonce".toList ∈ ex then .ok h.senderNonce else (octetsOf o.recipNonce).map some :
          Except PyErr (Option Bytes)) with
      | .error e => .error e
      | .ok sn =>
        .ok { h with
          tid := t
          recipNonce := rn
          senderNonce := sn
          recipKid := if "recipKID".toList ∈ ex ∨ o.senderKid.isNone then h.recipKid else o.senderKid
          senderKid := if "senderKID".toList ∈ ex ∨ o.recipKid.isNone then h.senderKid else o.recipKid }

/-- `cmputils.py` 5246-5274, `generate_unique_byte_values`. -/
def uniqueValues (rnd : List Bytes) : List Bytes :=
  rnd.foldl (fun vs v => if v ∈ vs then vs else vs ++ [v]) []

/-- `cmputils.py` 5443-5448: the arguments which a message takes from the one it follows. -/
def followArgs (o : FHdr V) (a : MArgs V) : Except PyErr (MArgs V) :=
  match octetsOf o.tid with
  | .error e => .error e
  | .ok t =>
    match octetsOf o.senderNonce with
    | .error e => .error e
    | .ok n =>
      match octetsOf o.recipNonce with
      | .error e => .error e
      | .ok m =>
        .ok { a with
          tid := if a.tid.isNone then some t else a.tid
          recipNonce := if a.recipNonce.isNone then some n else a.recipNonce
          senderNonce := if a.senderNonce.isNone then some m else a.senderNonce
          recipKid := if a.recipKid.isNone then o.senderKid else a.recipKid
          senderKid := if a.senderKid.isNone then o.recipKid else a.senderKid }

/-- `cmputils.py` 5404-5466, `build_polling_request`, and 5505-5575, `build_polling_response`: the header and the
`certReqId` (with the waiting time for the response).  The version of the response is 2 by default as well. -/
def buildPoll (env : BuildEnv V) (ie : InfoEnv) (dflt : Bytes × Bytes) (r1 r2 : Bytes) (now : Int) (o : Option (FHdr V))
    (id : Int) (a : MArgs V) : Except PyErr (FHdr V × Int) :=
  match (match o with
      | none => .ok a
      | some h => followArgs h a : Except PyErr (MArgs V)) with
  | .error e => .error e
  | .ok a =>
    match buildHeader env ie dflt r1 r2 now { a with forMac := false, forKga := false, time := none } with
    | .error e => .error e
    | .ok h => .ok (h, id)

end Verif.Ra
