import Verif.Ra.PopProps

/-!
# C157, C158: disagreements, and examples
-/

namespace Verif.Ra

open Verif.CA hiding Bytes Msg
open Verif.Check

/-! ## A small instance -/

structure ExCert where
  name : String
  key : Nat
  ext : Option Nat
  ra : Bool
  deriving DecidableEq

/-- A key is a number, its encoding one byte; a signature is the encoding of the request and the key. Keys from 100 on
are for encapsulation, from 200 on for key agreement. -/
def exLoad (s : Spki Nat) : Except PyErr Nat :=
  match s.bits with
  | [b] => .ok b.toNat
  | _ => .error .valueError

def exBuild (t : Tmpl Nat String) (x : Option Nat) : Except PyErr ExCert :=
  match t.key with
  | none => .error .badCertTemplate
  | some s =>
    match exLoad s with
    | .error e => .error e
    | .ok k => .ok ⟨t.rest, k, x, false⟩

def exRa : ExCert := ⟨"RA", 1, none, true⟩

def exEncode (s : Spki Nat) : Bytes :=
  match s.alg with
  | none => 0 :: s.bits
  | some n => 1 :: (List.replicate n 1 ++ 0 :: s.bits)

def exRaEnv : RaEnv Nat Nat Nat String (Nat × Bytes) ExCert Nat Nat Unit where
  ch := {
    subject := fun c => c.key
    issuer := fun c => c.key
    loadKey := fun c => .ok c.key
    verify := fun _ _ _ => .ok ()
    usage := fun c => .ok (some [c.ra])
    eku := fun c => .ok (if c.ra then some ["cmcRA"] else none)
    openssl := fun _ => .ok () }
  loadSpki := exLoad
  isVerify := fun k => decide (k < 100)
  isDsa := fun _ => false
  isDh := fun _ => false
  isKem := fun k => decide (100 ≤ k ∧ k < 200)
  isEcdh := fun k => decide (200 ≤ k)
  isPq := fun _ => false
  isStfl := fun _ => false
  rsaBits := fun _ => none
  hasParams := fun _ => false
  stfl := fun _ _ => .ok ()
  consistent := fun _ _ => .ok ()
  verifyAlg := fun k _ d s => if s = d ++ [UInt8.ofNat k] then .ok () else .error .invalidSignature
  named := fun r => r ≠ ""
  genKey := fun _ => .ok 50
  encSpki := exEncode
  decReq := fun b =>
    match b with
    | [k] => some ((0, ⟨some ⟨some 0, [k]⟩, "changed"⟩), [])
    | _ => none
  utf8 := fun _ => .ok ()
  controls := fun _ => .ok ()
  build := exBuild
  serverKey := fun k => some (k + 1)
  ecdh := fun s k => .ok [UInt8.ofNat (s + k)]
  mac := fun ss _ d => .ok (ss ++ d)
  encKari := fun k _ _ => .ok (k, [2])
  encKem := fun k _ => .ok (k, [1])
  certKey := fun c => .ok c.key
  openKey := fun e => .ok e.2
  decKeyId := fun d => .ok (⟨some d, some (.str "A")⟩, [])
  loadPriv := fun d =>
    match d with
    | [b] => .ok b.toNat
    | _ => .error .valueError
  subjName := fun r => some r
  genIs := fun _ _ => .ok false
  kga := fun t => .ok (⟨t.rest, 50, none, false⟩, (50, []))
  raCerts := .ok [exRa]

theorem exEncode_inj (s s' : Spki Nat) (h : exEncode s = exEncode s') : s = s' := by
  obtain ⟨a, b⟩ := s
  obtain ⟨a', b'⟩ := s'
  unfold exEncode at h
  have key : ∀ n m : Nat, List.replicate n (1 : UInt8) ++ 0 :: b = List.replicate m 1 ++ 0 :: b' → n = m ∧ b = b' := by
    intro n
    induction n with
    | zero =>
      intro m h
      cases m with
      | zero => simpa using h
      | succ m => simp [List.replicate_succ] at h
    | succ n ih =>
      intro m h
      cases m with
      | zero => simp [List.replicate_succ] at h
      | succ m =>
        simp only [List.replicate_succ, List.cons_append, List.cons.injEq, true_and] at h
        obtain ⟨h1, h2⟩ := ih m h
        exact ⟨by rw [h1], h2⟩
  cases a <;> cases a' <;> simp at h
  · rw [h]
  · obtain ⟨h1, h2⟩ := key _ _ h
    rw [h1, h2]

theorem exRaEnv_laws : Laws exRaEnv where
  built := by
    intro t x c h
    change exBuild t x = .ok c at h
    unfold exBuild at h
    cases ht : t.key with
    | none => rw [ht] at h; cases h
    | some s =>
      rw [ht] at h
      dsimp only at h
      cases hl : exLoad s with
      | error e => rw [hl] at h; cases h
      | ok k =>
        rw [hl] at h
        cases h
        refine ⟨k, ⟨s, ht, ?_, hl⟩, rfl⟩
        intro hb
        unfold exLoad at hl
        rw [hb] at hl
        cases hl
  spki := exEncode_inj
  generated := fun _ _ _ h => ⟨50, by cases h; rfl⟩

def exTmpl (k : UInt8) : Tmpl Nat String := ⟨some ⟨some 0, [k]⟩, "A"⟩

def exReq (id : Int) (k : UInt8) (p : Option (Popo Nat (Nat × Bytes))) : Req Nat String (Nat × Bytes) :=
  ⟨id, exTmpl k, p, [k, 7], none⟩

def exMsg (body : String) (l : List (Req Nat String (Nat × Bytes))) : RMsg Nat String (Nat × Bytes) ExCert :=
  { body := body, reqs := l, certs := some [exRa] }

/-- A request with a valid signature is answered. -/
example : ipReply exRaEnv { ext := some 3 } true (exMsg "ir" [exReq 0 5 (some (.signature 0 [5, 7, 5]))])
    = .ok ([⟨0, .cert ⟨"A", 5, some 3, false⟩, none⟩], [⟨"A", 5, some 3, false⟩]) := by decide +kernel

/-- One with an invalid signature is refused. -/
example : ipReply exRaEnv {} true (exMsg "ir" [exReq 0 5 (some (.signature 0 [5, 7, 6]))]) = .error .badPOP := by
  decide +kernel

/-- A certificate for a key of encapsulation is sent encrypted only. -/
example : ipReply exRaEnv {} true (exMsg "ir" [exReq 0 105 (some (.keyEnc (.subsequent true)))])
    = .ok ([⟨0, .enc (105, [1]), none⟩], [⟨"A", 105, none, false⟩]) := by decide +kernel

/-- The MAC with the shared secret. -/
example : ipReply exRaEnv {} true (exMsg "ir" [exReq 0 205 (some (.keyAgree (.agreeMac 0 [UInt8.ofNat 411, 205, 7])))])
    = .ok ([⟨0, .cert ⟨"A", 205, none, false⟩, none⟩], [⟨"A", 205, none, false⟩]) := by decide +kernel

/-- The key that was sent to the CA is not the one in the template. -/
example : ipReply exRaEnv {} true (exMsg "ir" [exReq 0 105 (some (.keyEnc (.encryptedKey (0, [106]))))])
    = .error .badPOP := by decide +kernel

/-- A registration authority vouches for the key. -/
example : ipReply exRaEnv {} true (exMsg "ir" [exReq 0 5 (some .raVerified)])
    = .ok ([⟨0, .cert ⟨"A", 5, none, false⟩, none⟩], [⟨"A", 5, none, false⟩]) := by decide +kernel

example : ipReply exRaEnv {} true { exMsg "ir" [exReq 0 5 (some .raVerified)] with certs := some [⟨"B", 2, none, false⟩] }
    = .error .notAuthorized := by decide +kernel

/-- A key is generated for a template without one. -/
example : ipReply exRaEnv {} true (exMsg "ir" [⟨0, ⟨none, "A"⟩, none, [], none⟩])
    = .ok ([⟨0, .cert ⟨"A", 50, none, false⟩, some (50, [])⟩], [⟨"A", 50, none, false⟩]) := by decide +kernel

/-! ## Disagreements -/

/-- **C157 (refuted).** A certification request with a valid first request gets certificates for any keys in further
requests: their signatures are not verified. -/
theorem C157_later_refuted : ∃ (m : RMsg Nat String (Nat × Bytes) ExCert) (rs : List (Resp ExCert (Nat × Bytes)))
    (r : Req Nat String (Nat × Bytes)) (c : ExCert) (k : Nat) (alg : Nat) (sig : Bytes),
    m.body = "cr" ∧ m.reqs[1]? = some r ∧ checkIds (m.reqs.map (·.id)) = .ok () ∧ cpReply exRaEnv {} m = .ok (rs, [⟨"A", 5, none, false⟩, c]) ∧
      exRaEnv.certKey c = .ok k ∧ r.popo = some (.signature alg sig) ∧
      exRaEnv.verifyAlg k alg r.der sig = .error .invalidSignature :=
  ⟨exMsg "cr" [exReq 0 5 (some (.signature 0 [5, 7, 5])), exReq 1 6 (some (.signature 0 [0]))], _, _,
    ⟨"A", 6, none, false⟩, 6, 0, [0], rfl, rfl, by decide +kernel, rfl, rfl, rfl, by decide +kernel⟩

/-- **C157 (refuted).** Two valid signed requests in one message, and one with a valid signature after one without: the
latter is refused, since the signature of the first request is looked for. -/
theorem C157_mixed_refuted : ∃ (m : RMsg Nat String (Nat × Bytes) ExCert),
    m.reqs = [exReq 0 105 (some (.keyEnc (.subsequent true))), exReq 1 5 (some (.signature 0 [5, 7, 5]))] ∧
      (∃ out, processOne exRaEnv {} (exMsg "cr" [exReq 1 5 (some (.signature 0 [5, 7, 5]))]) 0 = .ok out) ∧
      (∃ out, processOne exRaEnv {} m 0 = .ok out) ∧ cpReply exRaEnv {} m = .error .badPOP :=
  ⟨exMsg "cr" [exReq 0 105 (some (.keyEnc (.subsequent true))), exReq 1 5 (some (.signature 0 [5, 7, 5]))], rfl,
    ⟨_, rfl⟩, ⟨_, rfl⟩, by decide +kernel⟩

/-- **C157 (refuted).** A request for a challenge is answered with an encrypted certificate, if the key is of key
agreement. -/
theorem C157_challenge_refuted : ∃ rs cs, ipReply exRaEnv {} true
    (exMsg "ir" [exReq 0 205 (some (.keyAgree (.subsequent false)))]) = .ok (rs, cs) ∧ cs ≠ [] :=
  ⟨_, _, rfl, by decide⟩

/-- **C157 (refuted).** The extensions of the CA are not in a certificate for a key that was sent to the CA: the result
does not depend on them beyond the first, unused, certificate. -/
theorem C157_extensions_refuted : ∃ (m : RMsg Nat String (Nat × Bytes) ExCert) (c : ExCert) (rs : List (Resp ExCert (Nat × Bytes))),
    ipReply exRaEnv { ext := some 3 } true m = .ok (rs, [c]) ∧ c.ext = none :=
  ⟨exMsg "ir" [exReq 0 105 (some (.keyEnc (.encryptedKey (0, [105]))))], ⟨"A", 105, none, false⟩, _, rfl, rfl⟩

/-- **C157 (refuted).** The template of the registration authority in `regInfo` is used for a signed request, but not for
one with a key of encapsulation. -/
theorem C157_alt_refuted : ∃ (alt : List (List Nat × Bytes)) (rs rs' : List (Resp ExCert (Nat × Bytes))) (c c' : ExCert),
    ipReply exRaEnv {} true (exMsg "ir" [{ exReq 0 5 (some (.signature 0 [5, 7, 5])) with regInfo := some alt }])
        = .ok (rs, [c]) ∧ c.name = "changed" ∧
      ipReply exRaEnv {} true (exMsg "ir" [{ exReq 0 105 (some (.keyEnc (.subsequent true))) with
        regInfo := some [(regInfoCertReq, [105])] }]) = .ok (rs', [c']) ∧ c'.name = "A" :=
  ⟨[(regInfoCertReq, [5])], _, _, ⟨"changed", 5, none, false⟩, ⟨"A", 105, none, false⟩, rfl, rfl, rfl, rfl⟩

section
variable {A K S R E C N X G : Type} [DecidableEq K] [DecidableEq C] [DecidableEq N]

/-- **C158 (refuted).** The protection of the message is not looked at: the statement of a registration authority is
accepted in a message that anyone else protected, or that has no protection, since its certificate is public. -/
theorem C158_protection_refuted (env : RaEnv A K S R E C N X G) (a : CaArgs X) (m : RMsg A R E C)
    (prot : Option (A × Bytes)) (i : Nat) : processOne env a { m with prot := prot } i = processOne env a m i := rfl

/-- **C158 (refuted).** With `verify_ra_verified=False` the statement is accepted from everyone. -/
theorem C158_skipped_refuted (env : RaEnv A K S R E C N X G) (strict : Bool) (m : RMsg A R E C) :
    verifyRa env strict false m = .ok () := rfl

end

/-- The certificate of the authority is in the message, and nothing else of it. -/
example : ipReply exRaEnv {} true { exMsg "ir" [exReq 0 5 (some .raVerified)] with prot := none }
    = .ok ([⟨0, .cert ⟨"A", 5, none, false⟩, none⟩], [⟨"A", 5, none, false⟩]) := by decide +kernel

end Verif.Ra
