import Verif.Ra.GeneralClientProps

/-!
# Examples for the general messages

The name of the root CA is 7, its certificate 1; enveloped data is opened by adding a byte.
-/

namespace Verif.Ra

open Verif.CA (PyErr)

/-- A CA which is asked in toy encodings. -/
def exGen (lw : Bool) : GenEnv Nat Nat Nat Nat where
  lwcmp := lw
  decOids b := some (b.map fun x => [1, x.toNat], [])
  decLangs b := if b = [1] then some (["de"], []) else if b = [2] then some (["en", "es"], []) else none
  decProfiles b := if b = [1] then some (["base"], []) else none
  decCrlStatus b :=
    if b = [1] then some ([⟨.fullName [.directory 7], some 10000⟩], [])
    else if b = [2] then some ([⟨.issuer [.directory 8], none⟩], [])
    else if b = [3] then some ([⟨.issuer [.directory 7], none⟩, ⟨.fullName [.directory 7], none⟩], [])
    else if b = [4] then some ([⟨.fullName [.directory 8, .uri "url"], some 9999⟩], [])
    else none
  decEncKey b := if b = [1] then some (.enveloped 5, []) else none
  decOid _ := none
  decCert b := if b = [1] then some (1, []) else if b = [2] then some (2, []) else none
  decCrl b := some (b, [])
  openEnv n := .ok [n.toUInt8, 1]
  rootCert := 1
  rootName := 7
  rootText := "CN=root"
  rootRdns := [3]
  crlUrl := "url"
  crl i := .ok [200, i.toUInt8]
  now := 100000
  rootUpdate := .ok [18]
  caCerts := [17]
  protEncCert := some [1]
  envCerts := [21, 22]
  implicitConfirm := true
  profiles := ["base"]
  knownOid o := o == [1, 5]
  encOids l := l.flatMap fun o => o.map Nat.toUInt8
  encLangs l := if l = ["en"] then [0x65] else []
  encCrls l := l.flatten
  signTypes := [2]
  encTypes := [3]
  symAlg := [4]
  template := [19]
  kem c := if c = 1 then .ok ([77], [78]) else .error .invalidKeyData

def exGenMsg (body : List Itv) : GenMsg Nat := ⟨3, [9], false, body, [1]⟩

def exGenState : GenState := ⟨[], [], false⟩

/-- Three entries are answered one by one outside the lightweight profile, and refused within it (C174). -/
example :
    processGeneral (exGen false) exGenState (exGenMsg [⟨idIt 17, none⟩, ⟨idIt 7, some [5, 6]⟩, ⟨idIt 12, some [1]⟩]) =
      (.ok ([⟨idIt 17, some [17]⟩, ⟨idIt 7, some [1, 6]⟩, ⟨idIt 12, none⟩],
        ["certificates", "Returns all unsupported OIDs", "Successfully processed the revocation passphrase."]),
        ⟨[[5, 1]], [], false⟩) ∧
    (processGeneral (exGen true) exGenState (exGenMsg [⟨idIt 17, none⟩, ⟨idIt 7, some [5, 6]⟩])).1 = .error .badRequest := by
  decide +kernel

/-- The answers of C174 which differ from RFC 9810. -/
example :
    (genEntry (exGen true) (exGenMsg []) exGenState ⟨idIt 16, some [1]⟩).1 =
      .ok (⟨idIt 16, some [0x65]⟩, some "Currently is always 'en' returned.") ∧
    (genEntry (exGen true) (exGenMsg []) exGenState ⟨idIt 16, some [2]⟩).1 = .error .badRequest ∧
    (genEntry (exGen true) (exGenMsg []) exGenState ⟨idIt 21, some [1]⟩).1 = .error .badRequest ∧
    ((genEntry (exGen true) (exGenMsg []) exGenState ⟨idIt 20, some [1]⟩).1.map fun r => r.1.val) = .ok (some [18]) ∧
    ((genEntry (exGen true) (exGenMsg []) exGenState ⟨idIt 20, some [2]⟩).1.map fun r => r.1.val) = .ok none ∧
    entryAnswer (exGen true) (exGenMsg []) exGenState ⟨idIt 13, none⟩ = .error .pyasn1Error ∧
    entryAnswer (exGen true) (exGenMsg []) exGenState ⟨idIt 10, some []⟩ = .error .badValueBehavior := by
  decide +kernel

/-- CRLs (C175): twenty-five hours are not enough, a second more is; a foreign issuer fails; two entries give two CRLs. -/
example :
    crlUpdate (exGen true) ⟨idIt 22, some [1]⟩ = .ok (⟨idIt 23, none⟩, some "The CRL status list is up to date.") ∧
    crlUpdate (exGen true) ⟨idIt 22, some [4]⟩ = .ok (⟨idIt 23, some [200, 0]⟩, some "") ∧
    crlUpdate (exGen true) ⟨idIt 22, some [2]⟩ = .error .typeError ∧
    crlUpdate (exGen true) ⟨idIt 22, some [3]⟩ = .ok (⟨idIt 23, some [200, 0, 200, 1]⟩, some "") := by
  decide +kernel

/-- A CA which can sign, or not. -/
def exCall (lw : Bool) (sign : Except PyErr Unit) : CallEnv Nat Nat Nat Nat := ⟨exGen lw, .ok (), .ok (), sign⟩

/-- The certificates meant for one response go out with the next (C176). -/
example :
    let s1 := (answerGenm (exCall true (.error .valueError)) ⟨exGenState, []⟩ (exGenMsg [⟨idIt 1, none⟩])).2
    (answerGenm (exCall true (.ok ())) s1 (exGenMsg [⟨idIt 17, none⟩])).1 =
      .ok ⟨[⟨idIt 17, some [17]⟩], ["certificates"], true, [21, 22]⟩ ∧
    (answerGenm (exCall true (.ok ())) ⟨exGenState, []⟩ (exGenMsg [⟨idIt 17, none⟩])).1 =
      .ok ⟨[⟨idIt 17, some [17]⟩], ["certificates"], true, []⟩ := by
  decide +kernel

/-- A passphrase of a refused message is kept (C176). -/
example :
    processGeneral (exGen false) exGenState (exGenMsg [⟨idIt 12, some [1]⟩, ⟨idIt 18, none⟩]) =
      (.error .badRequest, ⟨[[5, 1]], [], false⟩) := by
  decide +kernel

/-- The encapsulated secret (C177). -/
example :
    answerGenm (exCall true (.ok ())) ⟨exGenState, []⟩ (exGenMsg [⟨idIt 9999, none⟩]) =
      (.ok ⟨[⟨idIt 9999, some [78]⟩], [], false, []⟩, ⟨exGenState, [([9], [77])]⟩) ∧
    (answerGenm (exCall false (.ok ())) ⟨exGenState, []⟩ (exGenMsg [⟨idIt 17, none⟩, ⟨idIt 9999, none⟩])).2 =
      ⟨⟨[], [([9], [77])], false⟩, []⟩ ∧
    (answerGenm (exCall true (.ok ())) ⟨exGenState, []⟩ { exGenMsg [⟨idIt 9999, none⟩] with extra := [2] }).1 =
      .error .invalidKeyData := by
  decide +kernel

/-! ## The client -/

def exCaCerts : CaCertsEnv Nat where
  dec b := some (b.map UInt8.toNat, [])
  chain c l := if c ∈ l ∨ l = [] then .ok (c :: l.filter (· ≠ c)) else .error .valueError
  verify l := if l.length < 4 then .ok () else .error .valueError

/-- C178: certificates, and the two ways around their validation. -/
example :
    validateCaCerts exCaCerts ⟨"genp", [⟨idIt 17, some [1, 2]⟩]⟩ true (some 2) (.int 1) = .ok (some [2, 1]) ∧
    validateCaCerts exCaCerts ⟨"genp", [⟨idIt 17, some [1, 2, 3, 4]⟩]⟩ true (some 2) (.int 1) = .error .valueError ∧
    validateCaCerts exCaCerts ⟨"genp", [⟨idIt 17, some [1, 2, 3, 4]⟩]⟩ true (some 2) (.text 1) = .ok none ∧
    validateCaCerts exCaCerts ⟨"genp", []⟩ true (some 2) (.int 1) = .ok none ∧
    validateCaCerts exCaCerts ⟨"genp", [⟨idIt 17, none⟩]⟩ false (some 2) (.int 1) = .error .valueError := by
  decide +kernel

def exTmplEnv : TemplateEnv where
  dec b :=
    match b with
    | 1 :: k => some (⟨false, false, false, false, false, some [([1, 3, 6, 1, 5, 5, 7, 5, 1, 12], k)]⟩, [])
    | 2 :: k => some (⟨false, false, false, false, false, some [([1, 3, 6, 1, 5, 5, 7, 5, 1, 11], k)]⟩, [])
    | 3 :: _ => some (⟨true, false, false, false, false, some [([1, 3, 6, 1, 5, 5, 7, 5, 1, 12], [8])]⟩, [])
    | 4 :: _ => some (⟨false, false, false, false, false, none⟩, [])
    | _ => none
  decLen b := match b with | [x] => some (256 * (x.toNat : Int), []) | _ => none
  decAlg b :=
    match b with
    | [1] => some (⟨[1, 3, 101, 112], none⟩, [])
    | [1, 0] => some (⟨[1, 3, 101, 112], some [5, 0]⟩, [])
    | [2, x] => some (⟨[1, 2, 840, 10045, 2, 1], some [x]⟩, [])
    | _ => none
  decCurve b := some ([1, 3, 132, 0, (b.headD 0).toNat], [])
  curves := curveNames

/-- C179: templates accepted and refused. -/
example :
    let v := fun b => validateTemplate exTmplEnv ⟨"genp", [⟨idIt 19, some b⟩]⟩ true false (.int 1)
    v [1, 8] = .ok () ∧ v [1, 7] = .error .valueError ∧ v [2, 1] = .error .valueError ∧ v [2, 1, 0] = .ok () ∧
    v [2, 2, 34] = .ok () ∧ v [2, 2, 99] = .error .valueError ∧ v [3] = .error .valueError ∧ v [4] = .error .valueError := by
  decide +kernel

def exCrls : CrlsEnv Nat where
  decList b := some (b.map UInt8.toNat, [])
  decOne b := match b with | [x] => some (x.toNat, []) | _ => none
  verify c := if c < 10 then .ok () else .error .invalidSignature
  lint _ := .ok ()

/-- C180: the signature of a CRL counts for the update, and not for the current CRL. -/
example :
    validateCrls exCrls ⟨"genp", [⟨idIt 23, some [5]⟩]⟩ true (.int 1) 1 = .ok () ∧
    validateCrls exCrls ⟨"genp", [⟨idIt 23, some [15]⟩]⟩ true (.int 1) 1 = .error .invalidSignature ∧
    validateCurrentCrl exCrls ⟨"genp", [⟨idIt 6, some [15]⟩]⟩ (.int 1) = .ok () := by
  decide +kernel

def exAlgs : AlgsEnv where
  decAlgs b := if b = [3] then some (caEncTypes (fun c => c.map Nat.toUInt8), []) else some ([], [])
  decAlg b := if b = [4] then some (⟨[2, 16, 840, 1, 101, 3, 4, 1, 42], some []⟩, []) else none
  decCurve b := (curveNames.find? (fun p => p.1.map Nat.toUInt8 == b)).map fun p => (p.1, [])
  decLangs b := if b = [0x65] then some (["en"], []) else none
  decKem b := if b = [78] then some ([79], []) else none
  decaps b := if b = [79] then .ok [77] else .error .invalidKeyData

/-- C181: the answers of the CA before the keywords. -/
example :
    validateSymAlg exAlgs ⟨"genp", [⟨idIt 4, some (exGen true).symAlg⟩]⟩ (.int 1) = .ok "aes256_cbc" ∧
    validateLangs exAlgs ⟨"genp", [⟨idIt 16, some ((exGen true).encLangs ["en"])⟩]⟩ (.int 1) = .ok () ∧
    validateKem exAlgs ⟨"genp", [⟨idIt 9999, some [78]⟩]⟩ (.int 1) = .ok [77] ∧
    (validateEncTypes exAlgs ⟨"genp", [⟨idIt 3, some [3]⟩]⟩ (.int 1)).map List.length = .ok 17 ∧
    validateSignTypes exAlgs ⟨"genp", [⟨idIt 2, some [7]⟩]⟩ (.int 1) = .ok () ∧
    validatePassphrase ⟨"genp", [⟨idIt 12, none⟩]⟩ (.int 1) 0 = .ok () ∧
    validatePassphrase ⟨"genp", [⟨idIt 12, some []⟩]⟩ (.int 1) 0 = .error .valueError := by
  decide +kernel

end Verif.Ra
