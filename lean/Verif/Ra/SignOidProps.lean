import Verif.Ra.SignOid

/-!
# C244: the algorithm of a signature is the one for key and hash, and verifier and signer agree on the hash

The OIDs are those of RFC 8017, 5758, 8692, 9688, 8410, FIPS 204 and 205, as literals.
-/

namespace Verif.Ra

open Verif.CA (PyErr)
open Verif.Prot (Oid look lookOid rsaNames pssNames ecdsaNames hashMap ed25519Oid ed448Oid pssOid pss128Oid pss256Oid dsaOid
  oidOfName hashInst digestSize)

/-! ## Specification -/

/-- RSASSA-PKCS1-v1_5: RFC 8017, A.2.4, and RFC 9688. -/
def rfcRsa : List (String × Oid) :=
  [("sha1", [1, 2, 840, 113549, 1, 1, 5]), ("sha224", [1, 2, 840, 113549, 1, 1, 14]),
   ("sha256", [1, 2, 840, 113549, 1, 1, 11]), ("sha384", [1, 2, 840, 113549, 1, 1, 12]),
   ("sha512", [1, 2, 840, 113549, 1, 1, 13]), ("sha3_224", [2, 16, 840, 1, 101, 3, 4, 3, 13]),
   ("sha3_256", [2, 16, 840, 1, 101, 3, 4, 3, 14]), ("sha3_384", [2, 16, 840, 1, 101, 3, 4, 3, 15]),
   ("sha3_512", [2, 16, 840, 1, 101, 3, 4, 3, 16])]

/-- ECDSA: RFC 5758, RFC 8692 and RFC 9688. -/
def rfcEcdsa : List (String × Oid) :=
  [("sha224", [1, 2, 840, 10045, 4, 3, 1]), ("sha256", [1, 2, 840, 10045, 4, 3, 2]),
   ("sha384", [1, 2, 840, 10045, 4, 3, 3]), ("sha512", [1, 2, 840, 10045, 4, 3, 4]),
   ("shake128", [1, 3, 6, 1, 5, 5, 7, 6, 32]), ("shake256", [1, 3, 6, 1, 5, 5, 7, 6, 33]),
   ("sha3_224", [2, 16, 840, 1, 101, 3, 4, 3, 9]), ("sha3_256", [2, 16, 840, 1, 101, 3, 4, 3, 10]),
   ("sha3_384", [2, 16, 840, 1, 101, 3, 4, 3, 11]), ("sha3_512", [2, 16, 840, 1, 101, 3, 4, 3, 12])]

/-- The algorithms of FIPS 204 and 205 (with the last number of their OIDs below 2.16.840.1.101.3.4.3): the name, the hash
of RFC 9882 and RFC 9814, the algorithm itself and the one with this hash as pre-hash. -/
def fipsSig : List (String × String × Nat × Nat) :=
  [("ml-dsa-44", "sha512", 17, 32), ("ml-dsa-65", "sha512", 18, 33), ("ml-dsa-87", "sha512", 19, 34),
   ("slh-dsa-sha2-128s", "sha256", 20, 35), ("slh-dsa-sha2-128f", "sha256", 21, 36),
   ("slh-dsa-sha2-192s", "sha512", 22, 37), ("slh-dsa-sha2-192f", "sha512", 23, 38),
   ("slh-dsa-sha2-256s", "sha512", 24, 39), ("slh-dsa-sha2-256f", "sha512", 25, 40),
   ("slh-dsa-shake-128s", "shake128", 26, 41), ("slh-dsa-shake-128f", "shake128", 27, 42),
   ("slh-dsa-shake-192s", "shake256", 28, 43), ("slh-dsa-shake-192f", "shake256", 29, 44),
   ("slh-dsa-shake-256s", "shake256", 30, 45), ("slh-dsa-shake-256f", "shake256", 31, 46)]

/-- The OID. -/
def fipsOid (n : Nat) : Oid := [2, 16, 840, 1, 101, 3, 4, 3, n]

/-! ## Names -/

theorem lookOid_mem (l : List (Oid × String)) (n : String) (o : Oid) (h : lookOid l n = some o) : (o, n) ∈ l := by
  induction l with
  | nil => cases h
  | cons e l ih =>
    obtain ⟨k, v⟩ := e
    unfold lookOid at h
    split at h
    · rename_i hv; cases h; subst hv; exact List.mem_cons_self ..
    · exact List.mem_cons_of_mem _ (ih h)

/-- The text after a prefix. -/
def rest (p : String) (s : String) : Option String :=
  if p.toList.isPrefixOf s.toList then some (String.ofList (s.toList.drop p.toList.length)) else none

theorem rest_append (p x : String) : rest p (p ++ x) = some x := by
  unfold rest
  rw [String.toList_append, if_pos (List.isPrefixOf_iff_prefix.2 (List.prefix_append ..)), List.drop_left, String.ofList_toList]

theorem rest_some (p s x : String) (h : rest p s = some x) : s = p ++ x := by
  unfold rest at h
  split at h
  · rename_i hp
    obtain ⟨t, ht⟩ := List.isPrefixOf_iff_prefix.1 hp
    cases h
    rw [← ht, List.drop_left]
    apply String.toList_inj.1
    rw [String.toList_append, String.toList_ofList, ht]
  · cases h

/-- What a dictionary has for the names with a prefix. -/
theorem lookOid_prefix (l : List (Oid × String)) (p : String) (t : List (String × Oid))
    (h1 : ∀ e ∈ l, ∀ y ∈ rest p e.2, (y, e.1) ∈ t) (h2 : ∀ e ∈ t, lookOid l (p ++ e.1) = some e.2) (x : String) (o : Oid) :
    lookOid l (p ++ x) = some o ↔ (x, o) ∈ t := by
  constructor
  · intro h
    exact h1 _ (lookOid_mem _ _ _ h) x (rest_append ..)
  · intro h
    exact h2 _ h

theorem rsa_names (x : String) (o : Oid) : lookOid hashMap ("rsa-" ++ x) = some o ↔ (x, o) ∈ rfcRsa :=
  lookOid_prefix _ _ _ (by decide +kernel) (by decide +kernel) x o

theorem ec_names (x : String) (o : Oid) : lookOid hashMap ("ecdsa-" ++ x) = some o ↔ (x, o) ∈ rfcEcdsa :=
  lookOid_prefix _ _ _ (by decide +kernel) (by decide +kernel) x o

theorem pss_names (x : String) (o : Oid) :
    lookOid extraData ("rsa-" ++ x) = some o ↔ (x, o) ∈ [("sha256-pss", pssOid), ("shake128-pss", pss128Oid), ("shake256-pss", pss256Oid)] :=
  lookOid_prefix _ _ _ (by decide +kernel) (by decide +kernel) x o

theorem ec_no_pss (x : String) : lookOid extraData ("ecdsa-" ++ x) = none := by
  cases h : lookOid extraData ("ecdsa-" ++ x) with
  | none => rfl
  | some o =>
    have := (lookOid_prefix extraData "ecdsa-" [] (by decide +kernel) (by decide +kernel) x o).1 h
    cases this

theorem suffix_inj (x y : String) (h : x ++ "-pss" = y ++ "-pss") : x = y := by
  have := congrArg String.toList h
  rw [String.toList_append, String.toList_append] at this
  exact String.toList_inj.1 (List.append_cancel_right this)

theorem sn_rsa (x : String) : signName "rsa" x false = "rsa-" ++ x := by
  unfold signName
  rw [if_neg (by simp)]
  rfl

theorem sn_pss (x : String) : signName "rsa" x true = "rsa-" ++ (x ++ "-pss") := by
  unfold signName
  rw [if_pos ⟨rfl, rfl⟩, ← String.append_assoc]
  rfl

theorem sn_ec (x : String) (pss : Bool) : signName "ecdsa" x pss = "ecdsa-" ++ x := by
  unfold signName
  rw [if_neg (by simp)]
  rfl

/-! ## RSA -/

theorem rsa_type : lookOid tradNames "rsa" = none := by decide +kernel
theorem ec_type : lookOid tradNames "ecdsa" = none := by decide +kernel

theorem rfcRsa_not_pss : ∀ e ∈ rfcRsa, (look pssNames e.2).isSome = false := by decide +kernel
theorem rfcEc_not_pss : ∀ e ∈ rfcEcdsa, (look pssNames e.2).isSome = false := by decide +kernel

/-- The OID for RSA without PSS. -/
theorem algOid_rsa (x : String) (o : Oid) : algOid .rsa (some x) false = .ok o ↔
    (x, o) ∈ rfcRsa ∨ (x, o) ∈ [("sha256-pss", pssOid), ("shake128-pss", pss128Oid), ("shake256-pss", pss256Oid)] := by
  unfold algOid
  dsimp only [keyType]
  unfold signingOid
  dsimp only
  rw [sn_rsa]
  unfold typeOid
  rw [rsa_type]
  dsimp only
  constructor
  · intro h
    cases he : lookOid extraData ("rsa-" ++ x) with
    | some p =>
      rw [he] at h
      cases h
      exact .inr ((pss_names ..).1 he)
    | none =>
      rw [he] at h
      dsimp only at h
      cases hl : lookOid hashMap ("rsa-" ++ x) with
      | none => rw [hl] at h; cases h
      | some p =>
        rw [hl] at h
        cases h
        exact .inl ((rsa_names ..).1 hl)
  · rintro (h | h)
    · cases he : lookOid extraData ("rsa-" ++ x) with
      | some p =>
        have h' := (pss_names ..).1 he
        have key : ∀ e ∈ rfcRsa, ∀ e' ∈ [("sha256-pss", pssOid), ("shake128-pss", pss128Oid), ("shake256-pss", pss256Oid)], e.1 ≠ e'.1 := by
          decide +kernel
        exact absurd rfl (key (x, o) h (x, p) h')
      | none =>
        dsimp only
        rw [(rsa_names ..).2 h]
        rfl
    · rw [(pss_names ..).2 h]
      rfl

theorem pss_bad_names (rnd : Bool) : ∀ x o, (x, o) ∈ [("sha256-pss", pssOid), ("shake128-pss", pss128Oid), ("shake256-pss", pss256Oid)] →
    pssAlgId x none rnd = .error .valueError ∧ (look pssNames o).isSome = true := by
  have key : ∀ r : Bool, ∀ e ∈ [("sha256-pss", pssOid), ("shake128-pss", pss128Oid), ("shake256-pss", pss256Oid)],
      pssAlgId e.1 none r = .error .valueError ∧ (look pssNames e.2).isSome = true := by
    intro r e he
    cases r <;> revert e he <;> decide +kernel
  intro x o h
  exact key rnd _ h

/-- **C244.** An RSA key without PSS gets the algorithm of RFC 8017 and 9688 for the hash, with NULL as parameters, and none
for other hashes. -/
theorem C244_rsa_iff (h : Option String) (a : SigAlgId) :
    sigAlgId .rsa h false false none = .ok a ↔ ∃ x o, h = some x ∧ (x, o) ∈ rfcRsa ∧ a = ⟨o, .null⟩ := by
  unfold sigAlgId
  dsimp only
  cases h with
  | none =>
    have : algOid .rsa none false = .error .valueError := by decide +kernel
    rw [this]
    constructor
    · intro h; cases h
    · rintro ⟨_, _, h, _⟩; cases h
  | some x =>
    constructor
    · intro h
      cases ho : algOid .rsa (some x) false with
      | error e => rw [ho] at h; cases h
      | ok o =>
        rw [ho] at h
        dsimp only at h
        unfold sigParams at h
        rcases (algOid_rsa ..).1 ho with hm | hm
        · rw [rfcRsa_not_pss _ hm, if_neg (by decide)] at h
          cases h
          exact ⟨x, o, rfl, hm, rfl⟩
        · obtain ⟨e1, e2⟩ := pss_bad_names false x o hm
          rw [e2, if_pos rfl] at h
          dsimp only at h
          rw [e1] at h
          cases h
    · rintro ⟨x', o, h, hm, rfl⟩
      cases h
      rw [(algOid_rsa ..).2 (.inl hm)]
      dsimp only
      unfold sigParams
      rw [rfcRsa_not_pss _ hm, if_neg (by decide)]
      rfl

example : sigAlgId .rsa (some "sha256") false false none = .ok ⟨[1, 2, 840, 113549, 1, 1, 11], .null⟩ := by decide +kernel

/-! ## PSS -/

/-- The OID for RSA with PSS. -/
theorem algOid_pss (x : String) (o : Oid) : algOid .rsa (some x) true = .ok o ↔
    (x, o) ∈ [("sha256", pssOid), ("shake128", pss128Oid), ("shake256", pss256Oid)] := by
  have hn : lookOid hashMap ("rsa-" ++ (x ++ "-pss")) = none := by
    cases h : lookOid hashMap ("rsa-" ++ (x ++ "-pss")) with
    | none => rfl
    | some p =>
      have h := (rsa_names ..).1 h
      have key : ∀ e ∈ rfcRsa, ¬ "-pss".toList.isSuffixOf e.1.toList = true := by decide +kernel
      refine absurd ?_ (key _ h)
      rw [String.toList_append]
      exact List.isSuffixOf_iff_suffix.2 (List.suffix_append ..)
  unfold algOid
  dsimp only [keyType]
  unfold signingOid
  dsimp only
  rw [sn_pss]
  unfold typeOid
  rw [rsa_type, hn]
  dsimp only
  have key : ∀ p, lookOid extraData ("rsa-" ++ (x ++ "-pss")) = some p ↔
      (x, p) ∈ [("sha256", pssOid), ("shake128", pss128Oid), ("shake256", pss256Oid)] := by
    intro p
    rw [pss_names]
    have a1 : "sha256-pss" = "sha256" ++ "-pss" := by decide +kernel
    have a2 : "shake128-pss" = "shake128" ++ "-pss" := by decide +kernel
    have a3 : "shake256-pss" = "shake256" ++ "-pss" := by decide +kernel
    rw [a1, a2, a3]
    simp only [List.mem_cons, List.not_mem_nil, or_false, Prod.mk.injEq]
    constructor
    · rintro (⟨h, e⟩ | ⟨h, e⟩ | ⟨h, e⟩)
      · exact .inl ⟨suffix_inj _ _ h, e⟩
      · exact .inr (.inl ⟨suffix_inj _ _ h, e⟩)
      · exact .inr (.inr ⟨suffix_inj _ _ h, e⟩)
    · rintro (⟨h, e⟩ | ⟨h, e⟩ | ⟨h, e⟩)
      · exact .inl ⟨by rw [h], e⟩
      · exact .inr (.inl ⟨by rw [h], e⟩)
      · exact .inr (.inr ⟨by rw [h], e⟩)
  constructor
  · intro h
    cases he : lookOid extraData ("rsa-" ++ (x ++ "-pss")) with
    | none => rw [he] at h; cases h
    | some p =>
      rw [he] at h
      cases h
      exact (key _).1 he
  · intro h
    rw [(key _).2 h]
    rfl

/-- **C244.** With PSS there are three algorithms: SHA-256 with a salt of 32 bytes (RFC 4055), SHAKE128 and SHAKE256 without
parameters (RFC 8692). -/
theorem C244_pss_iff (h : Option String) (null : Option Bool) (a : SigAlgId) :
    sigAlgId .rsa h true false null = .ok a ↔
      (h = some "sha256" ∧ a = ⟨[1, 2, 840, 113549, 1, 1, 10], .pss [2, 16, 840, 1, 101, 3, 4, 2, 1] true 32⟩) ∨
      (h = some "shake128" ∧ a = ⟨[1, 3, 6, 1, 5, 5, 7, 6, 30], .absent⟩) ∨
      (h = some "shake256" ∧ a = ⟨[1, 3, 6, 1, 5, 5, 7, 6, 31], .absent⟩) := by
  have e1 : ∀ null, sigAlgId .rsa (some "sha256") true false null =
      .ok ⟨[1, 2, 840, 113549, 1, 1, 10], .pss [2, 16, 840, 1, 101, 3, 4, 2, 1] true 32⟩ := by
    rintro (_ | _ | _) <;> decide +kernel
  have e2 : ∀ null, sigAlgId .rsa (some "shake128") true false null = .ok ⟨[1, 3, 6, 1, 5, 5, 7, 6, 30], .absent⟩ := by
    rintro (_ | _ | _) <;> decide +kernel
  have e3 : ∀ null, sigAlgId .rsa (some "shake256") true false null = .ok ⟨[1, 3, 6, 1, 5, 5, 7, 6, 31], .absent⟩ := by
    rintro (_ | _ | _) <;> decide +kernel
  constructor
  · intro hs
    cases h with
    | none =>
      have : sigAlgId .rsa none true false null = .error .valueError := by
        have : algOid .rsa none true = .error .valueError := by decide +kernel
        unfold sigAlgId
        dsimp only
        rw [this]
      rw [this] at hs
      cases hs
    | some x =>
      cases ho : algOid .rsa (some x) true with
      | error e =>
        unfold sigAlgId at hs
        dsimp only at hs
        rw [ho] at hs
        cases hs
      | ok o =>
        have hm := (algOid_pss ..).1 ho
        simp only [List.mem_cons, List.not_mem_nil, or_false, Prod.mk.injEq] at hm
        rcases hm with ⟨rfl, _⟩ | ⟨rfl, _⟩ | ⟨rfl, _⟩
        · rw [e1] at hs; exact .inl ⟨rfl, (Except.ok.inj hs).symm⟩
        · rw [e2] at hs; exact .inr (.inl ⟨rfl, (Except.ok.inj hs).symm⟩)
        · rw [e3] at hs; exact .inr (.inr ⟨rfl, (Except.ok.inj hs).symm⟩)
  · rintro (⟨rfl, rfl⟩ | ⟨rfl, rfl⟩ | ⟨rfl, rfl⟩)
    · exact e1 null
    · exact e2 null
    · exact e3 null

/-- **C244 refuted.** There is no PSS algorithm for SHA-384 or SHA-512, which RFC 4055 has parameters for. -/
theorem C244_pss_refuted (rnd : Bool) (null : Option Bool) (x : String) (hx : x = "sha384" ∨ x = "sha512") :
    sigAlgId .rsa (some x) true rnd null = .error .valueError ∧
      pssAlgId "sha384" none false = .ok ⟨[1, 2, 840, 113549, 1, 1, 10], .pss [2, 16, 840, 1, 101, 3, 4, 2, 2] true 48⟩ := by
  refine ⟨?_, by decide +kernel⟩
  unfold sigAlgId
  dsimp only
  rcases hx with rfl | rfl
  · rw [show algOid .rsa (some "sha384") true = .error .valueError by decide +kernel]
  · rw [show algOid .rsa (some "sha512") true = .error .valueError by decide +kernel]

/-! ## ECDSA and EdDSA -/

/-- The OID for ECDSA. -/
theorem algOid_ec (x : String) (pss : Bool) (o : Oid) : algOid .ec (some x) pss = .ok o ↔ (x, o) ∈ rfcEcdsa := by
  unfold algOid
  dsimp only [keyType]
  unfold signingOid
  dsimp only
  rw [sn_ec, ec_no_pss]
  unfold typeOid
  rw [ec_type]
  dsimp only
  constructor
  · intro h
    cases hl : lookOid hashMap ("ecdsa-" ++ x) with
    | none => rw [hl] at h; cases h
    | some p =>
      rw [hl] at h
      cases h
      exact (ec_names ..).1 hl
  · intro h
    rw [(ec_names ..).2 h]
    rfl

/-- **C244.** An EC key gets the algorithm of RFC 5758, 8692 and 9688 for the hash, without parameters. -/
theorem C244_ec_iff (h : Option String) (pss : Bool) (a : SigAlgId) :
    sigAlgId .ec h pss false none = .ok a ↔ ∃ x o, h = some x ∧ (x, o) ∈ rfcEcdsa ∧ a = ⟨o, .absent⟩ := by
  unfold sigAlgId
  dsimp only
  cases h with
  | none =>
    have : algOid .ec none pss = .error .valueError := by cases pss <;> decide +kernel
    rw [this]
    constructor
    · intro h; cases h
    · rintro ⟨_, _, h, _⟩; cases h
  | some x =>
    constructor
    · intro h
      cases ho : algOid .ec (some x) pss with
      | error e => rw [ho] at h; cases h
      | ok o =>
        rw [ho] at h
        dsimp only at h
        unfold sigParams at h
        have hm := (algOid_ec ..).1 ho
        rw [rfcEc_not_pss _ hm, if_neg (by decide)] at h
        cases h
        exact ⟨x, o, rfl, hm, rfl⟩
    · rintro ⟨x', o, h, hm, rfl⟩
      cases h
      rw [(algOid_ec ..).2 hm]
      dsimp only
      unfold sigParams
      rw [rfcEc_not_pss _ hm, if_neg (by decide)]
      rfl

example : sigAlgId .ec (some "shake128") false false none = .ok ⟨[1, 3, 6, 1, 5, 5, 7, 6, 32], .absent⟩ := by decide +kernel

/-- No name which starts with that of an EdDSA algorithm is one of PSS. -/
theorem ed_no_pss (p : String) (hp : ∀ e ∈ extraData, rest p e.2 = none) (x : String) : lookOid extraData (p ++ x) = none := by
  cases h : lookOid extraData (p ++ x) with
  | none => rfl
  | some o =>
    have := hp _ (lookOid_mem _ _ _ h)
    rw [rest_append] at this
    cases this

/-- **C244.** An EdDSA key gets its algorithm, without parameters (RFC 8410), whatever the hash is. -/
theorem C244_eddsa (h : Option String) (pss : Bool) :
    sigAlgId .ed25519 h pss false none = .ok ⟨[1, 3, 101, 112], .absent⟩ ∧
      sigAlgId .ed448 h pss false none = .ok ⟨[1, 3, 101, 113], .absent⟩ := by
  have t1 : lookOid tradNames "ed25519" = some ed25519Oid := by decide +kernel
  have t2 : lookOid tradNames "ed448" = some ed448Oid := by decide +kernel
  have n1 : (look pssNames ed25519Oid).isSome = false := by decide +kernel
  have n2 : (look pssNames ed448Oid).isSome = false := by decide +kernel
  have a1 : algOid .ed25519 h pss = .ok ed25519Oid := by
    unfold algOid
    dsimp only [keyType]
    unfold signingOid
    cases h with
    | none => dsimp only; unfold typeOid; rw [t1]; rfl
    | some x =>
      dsimp only
      unfold signName
      rw [if_neg (by simp), String.append_assoc, ed_no_pss "ed25519" (by decide +kernel)]
      dsimp only
      unfold typeOid
      rw [t1]
      rfl
  have a2 : algOid .ed448 h pss = .ok ed448Oid := by
    unfold algOid
    dsimp only [keyType]
    unfold signingOid
    cases h with
    | none => dsimp only; unfold typeOid; rw [t2]; rfl
    | some x =>
      dsimp only
      unfold signName
      rw [if_neg (by simp), String.append_assoc, ed_no_pss "ed448" (by decide +kernel)]
      dsimp only
      unfold typeOid
      rw [t2]
      rfl
  unfold sigAlgId
  dsimp only
  rw [a1, a2]
  dsimp only
  unfold sigParams
  rw [n1, n2, if_neg (by decide), if_neg (by decide)]
  exact ⟨rfl, rfl⟩

/-! ## Post-quantum keys -/

theorem pq_signing (h : Option String) (pss : Bool) : signingOid "" h pss = none := by
  have e1 : ∀ x, lookOid extraData ("-" ++ x) = none := fun x => by
    cases hl : lookOid extraData ("-" ++ x) with
    | none => rfl
    | some o => exact nomatch (lookOid_prefix extraData "-" [] (by decide +kernel) (by decide +kernel) x o).1 hl
  have e2 : ∀ x, lookOid hashMap ("-" ++ x) = none := fun x => by
    cases hl : lookOid hashMap ("-" ++ x) with
    | none => rfl
    | some o => exact nomatch (lookOid_prefix hashMap "-" [] (by decide +kernel) (by decide +kernel) x o).1 hl
  have e3 : lookOid tradNames "" = none := by decide +kernel
  cases h with
  | none =>
    unfold signingOid typeOid
    dsimp only
    rw [e3]
    decide +kernel
  | some x =>
    unfold signingOid signName typeOid
    dsimp only
    rw [if_neg (by simp), show "" ++ "-" ++ x = "-" ++ x from rfl, e1, e3]
    dsimp only
    rw [e2]

/-- What a key with this name supports. -/
theorem checkHash_fips : ∀ e ∈ fipsSig, ∀ h, checkHash e.1 h = if h = some e.2.1 then h else none := by
  intro e he h
  cases h with
  | none => rw [ite_self]; rfl
  | some x =>
    unfold checkHash
    dsimp only
    by_cases hx : x = e.2.1
    · subst hx
      rw [if_pos rfl]
      revert e
      decide +kernel
    · rw [if_neg (fun h => hx (Option.some.inj h))]
      by_cases hm : e.1 ∈ mlNames
      · have key : ∀ e ∈ fipsSig, e.1 ∈ mlNames → e.2.1 = "sha512" := by decide +kernel
        rw [if_pos hm, if_neg (fun h => hx (by rw [key e he hm, h]))]
      · rw [if_neg hm]
        have : lookOid slhPreHash (e.1 ++ "-" ++ x) = none := by
          cases hl : lookOid slhPreHash (e.1 ++ "-" ++ x) with
          | none => rfl
          | some o =>
            have key : ∀ e ∈ fipsSig, ∀ s ∈ slhPreHash, ∀ y ∈ rest (e.1 ++ "-") s.2, y = e.2.1 := by decide +kernel
            exact absurd (key e he _ (lookOid_mem _ _ _ hl) x (rest_append ..)) hx
        rw [this]
        split <;> rfl

/-- **C244.** A key of ML-DSA or SLH-DSA gets the algorithm with pre-hash if the hash is the one for it, and the pure one for
each other hash, in both cases without parameters. -/
theorem C244_pq (e : String × String × Nat × Nat) (he : e ∈ fipsSig) (h : Option String) (pss : Bool) :
    sigAlgId (.pq e.1) h pss false none = .ok ⟨fipsOid (if h = some e.2.1 then e.2.2.2 else e.2.2.1), .absent⟩ := by
  have key : algOid (.pq e.1) h pss = .ok (fipsOid (if h = some e.2.1 then e.2.2.2 else e.2.2.1)) := by
    unfold algOid
    dsimp only [keyType]
    rw [pq_signing]
    unfold pqOid
    dsimp only
    rw [checkHash_fips e he]
    by_cases hh : h = some e.2.1
    · subst hh
      rw [if_pos rfl, if_pos rfl]
      revert e
      decide +kernel
    · rw [if_neg hh, if_neg hh]
      clear hh
      revert e
      decide +kernel
  have hn : ∀ b : Bool, (look pssNames (fipsOid (if b then e.2.2.2 else e.2.2.1))).isSome = false := by
    clear key
    revert e
    decide +kernel
  unfold sigAlgId
  dsimp only
  rw [key]
  dsimp only
  unfold sigParams
  have := hn (decide (h = some e.2.1))
  simp only [decide_eq_true_eq] at this
  rw [this, if_neg (by decide)]
  rfl

example : sigAlgId (.pq "ml-dsa-65") (some "sha512") false false none = .ok ⟨[2, 16, 840, 1, 101, 3, 4, 3, 33], .absent⟩ ∧
    sigAlgId (.pq "ml-dsa-65") (some "sha256") false false none = .ok ⟨[2, 16, 840, 1, 101, 3, 4, 3, 18], .absent⟩ := by
  decide +kernel

/-- **C244.** A Falcon key gets its algorithm, without parameters, whatever the hash is; the digest is SHA-512. -/
theorem C244_falcon (e : String × Oid) (he : e ∈ [("falcon-512", [1, 3, 9999, 3, 6]), ("falcon-padded-512", [1, 3, 9999, 3, 16]),
    ("falcon-1024", [1, 3, 9999, 3, 9]), ("falcon-padded-1024", [1, 3, 9999, 3, 19])]) (h : Option String) (pss : Bool) :
    sigAlgId (.pq e.1) h pss false none = .ok ⟨e.2, .absent⟩ ∧ digestOfAlg e.2 = .ok "sha512" := by
  have hc : checkHash e.1 h = none := by
    unfold checkHash
    cases h with
    | none => rfl
    | some x =>
      dsimp only
      have : e.1 ∉ mlNames ∧ (slhHash.lookup e.1).isSome = false := by
        revert e
        decide +kernel
      rw [if_neg this.1, this.2]
      rfl
  have key : algOid (.pq e.1) h pss = .ok e.2 := by
    unfold algOid
    dsimp only [keyType]
    rw [pq_signing]
    unfold pqOid
    dsimp only
    rw [hc]
    clear hc
    revert e
    decide +kernel
  have hn : (look pssNames e.2).isSome = false ∧ digestOfAlg e.2 = .ok "sha512" := by
    clear key hc
    revert e
    decide +kernel
  refine ⟨?_, hn.2⟩
  unfold sigAlgId
  dsimp only
  rw [key]
  dsimp only
  unfold sigParams
  rw [hn.1, if_neg (by decide)]
  rfl

/-! ## The parameters -/

/-- **C244.** The options: `add_null` sets NULL, `add_params_rand_val` random parameters, and both of them are refused; for
RSA `add_null=False` leaves the NULL out. -/
theorem C244_params (k : SigKey) (h : Option String) (o : Oid) (hk : ∀ g, k ≠ .composite g) (ho : algOid k h false = .ok o)
    (hp : (look pssNames o).isSome = false) :
    sigAlgId k h false false (some true) = .ok ⟨o, .null⟩ ∧ sigAlgId k h false false (some false) = .ok ⟨o, .absent⟩ ∧
      sigAlgId k h false true none = .ok ⟨o, .random⟩ ∧ sigAlgId k h false true (some false) = .ok ⟨o, .random⟩ ∧
      sigAlgId k h false true (some true) = .error .valueError := by
  cases k with
  | composite g => exact absurd rfl (hk g)
  | _ =>
    unfold sigAlgId
    dsimp only
    rw [ho]
    dsimp only
    unfold sigParams
    rw [hp, if_neg (by decide)]
    exact ⟨rfl, rfl, rfl, rfl, rfl⟩

/-- **C244 refuted.** With PSS both options are accepted together, and `add_null` has no effect. -/
theorem C244_pss_params_refuted (null : Option Bool) :
    sigAlgId .rsa (some "shake128") true true null = .ok ⟨pss128Oid, .random⟩ ∧
      sigAlgId .rsa (some "shake128") true false null = .ok ⟨pss128Oid, .absent⟩ := by
  rcases null with _ | _ | _ <;> decide +kernel

/-! ## Verification -/

/-- **C244.** The verifier reads the hash with which the signature was made from the algorithm: for RSA, PSS and ECDSA. -/
theorem C244_hash_read (k : SigKey) (hk : k = .rsa ∨ k = .ec) (h : Option String) (pss : Bool) (a : SigAlgId)
    (ha : sigAlgId k h pss false none = .ok a) : hashOnly a.oid = .ok h := by
  have r1 : ∀ e ∈ rfcRsa, hashOnly e.2 = .ok (some e.1) := by decide +kernel
  have r2 : ∀ e ∈ rfcEcdsa, hashOnly e.2 = .ok (some e.1) := by decide +kernel
  rcases hk with rfl | rfl
  · cases pss with
    | false =>
      obtain ⟨x, o, rfl, hm, rfl⟩ := (C244_rsa_iff ..).1 ha
      exact r1 _ hm
    | true =>
      rcases (C244_pss_iff ..).1 ha with ⟨rfl, rfl⟩ | ⟨rfl, rfl⟩ | ⟨rfl, rfl⟩ <;> decide +kernel
  · obtain ⟨x, o, rfl, hm, rfl⟩ := (C244_ec_iff ..).1 ha
    exact r2 _ hm

/-- **C244.** For a key of ML-DSA or SLH-DSA the verifier reads the pre-hash with which the signature was made, or that there
was none. -/
theorem C244_pq_hash_read (e : String × String × Nat × Nat) (he : e ∈ fipsSig) (h : Option String) (pss : Bool) (a : SigAlgId)
    (ha : sigAlgId (.pq e.1) h pss false none = .ok a) : hashOnly a.oid = .ok (if h = some e.2.1 then h else none) := by
  rw [C244_pq e he h pss] at ha
  cases ha
  by_cases hh : h = some e.2.1
  · subst hh
    rw [if_pos rfl, if_pos rfl]
    revert e
    decide +kernel
  · rw [if_neg hh, if_neg hh]
    clear hh
    revert e
    decide +kernel

/-- **C244.** The check that key and algorithm fit accepts the algorithm of each key, apart from PSS. -/
theorem C244_consistent (h : Option String) (a : SigAlgId) :
    (sigAlgId .rsa h false false none = .ok a → checkKeyAlg .rsa a.oid = .ok ()) ∧
    (∀ pss, sigAlgId .ec h pss false none = .ok a → checkKeyAlg .ec a.oid = .ok ()) ∧
    (∀ pss, sigAlgId .ed25519 h pss false none = .ok a → checkKeyAlg .ed25519 a.oid = .ok ()) ∧
    (∀ pss, sigAlgId .ed448 h pss false none = .ok a → checkKeyAlg .ed448 a.oid = .ok ()) ∧
    (∀ e ∈ fipsSig, ∀ pss, sigAlgId (.pq e.1) h pss false none = .ok a → checkKeyAlg (.pq e.1) a.oid = .ok ()) := by
  refine ⟨?_, ?_, ?_, ?_, ?_⟩
  · intro ha
    obtain ⟨x, o, rfl, hm, rfl⟩ := (C244_rsa_iff ..).1 ha
    have key : ∀ e ∈ rfcRsa, checkKeyAlg .rsa e.2 = .ok () := by decide +kernel
    exact key _ hm
  · intro pss ha
    obtain ⟨x, o, rfl, hm, rfl⟩ := (C244_ec_iff ..).1 ha
    have key : ∀ e ∈ rfcEcdsa, checkKeyAlg .ec e.2 = .ok () := by decide +kernel
    exact key _ hm
  · intro pss ha
    rw [(C244_eddsa h pss).1] at ha
    cases ha
    decide +kernel
  · intro pss ha
    rw [(C244_eddsa h pss).2] at ha
    cases ha
    decide +kernel
  · intro e he pss ha
    rw [C244_pq e he h pss] at ha
    cases ha
    by_cases hh : h = some e.2.1
    · rw [if_pos hh]
      clear hh
      revert e
      decide +kernel
    · rw [if_neg hh]
      clear hh
      revert e
      decide +kernel

/-- **C244 refuted.** The check refuses each algorithm of PSS for the RSA key which made the signature. -/
theorem C244_consistent_refuted (h : Option String) (null : Option Bool) (a : SigAlgId)
    (ha : sigAlgId .rsa h true false null = .ok a) : checkKeyAlg .rsa a.oid = .error .badSigAlgId := by
  rcases (C244_pss_iff ..).1 ha with ⟨rfl, rfl⟩ | ⟨rfl, rfl⟩ | ⟨rfl, rfl⟩ <;> decide +kernel

/-! ## The digest -/

/-- **C244.** The hash of the certificate confirmation: the one of the signature for RSA, PSS and ECDSA, SHA-512 and SHAKE256
for EdDSA (RFC 9481), and the one of RFC 9882 and 9814 for ML-DSA and SLH-DSA, with and without pre-hash. -/
theorem C244_digest (h : Option String) (pss : Bool) (a : SigAlgId) :
    (∀ k, k = .rsa ∨ k = .ec → sigAlgId k h pss false none = .ok a → ∃ x, h = some x ∧ digestOfAlg a.oid = .ok x) ∧
    (sigAlgId .ed25519 h pss false none = .ok a → digestOfAlg a.oid = .ok "sha512") ∧
    (sigAlgId .ed448 h pss false none = .ok a → digestOfAlg a.oid = .ok "shake256") ∧
    (∀ e ∈ fipsSig, sigAlgId (.pq e.1) h pss false none = .ok a → digestOfAlg a.oid = .ok e.2.1) := by
  refine ⟨?_, ?_, ?_, ?_⟩
  · rintro k (rfl | rfl) ha
    · cases pss with
      | false =>
        obtain ⟨x, o, rfl, hm, rfl⟩ := (C244_rsa_iff ..).1 ha
        have key : ∀ e ∈ rfcRsa, digestOfAlg e.2 = .ok e.1 := by decide +kernel
        exact ⟨x, rfl, key _ hm⟩
      | true =>
        rcases (C244_pss_iff ..).1 ha with ⟨rfl, rfl⟩ | ⟨rfl, rfl⟩ | ⟨rfl, rfl⟩ <;> exact ⟨_, rfl, by decide +kernel⟩
    · obtain ⟨x, o, rfl, hm, rfl⟩ := (C244_ec_iff ..).1 ha
      have key : ∀ e ∈ rfcEcdsa, digestOfAlg e.2 = .ok e.1 := by decide +kernel
      exact ⟨x, rfl, key _ hm⟩
  · intro ha
    rw [(C244_eddsa h pss).1] at ha
    cases ha
    decide +kernel
  · intro ha
    rw [(C244_eddsa h pss).2] at ha
    cases ha
    decide +kernel
  · intro e he ha
    rw [C244_pq e he h pss] at ha
    cases ha
    by_cases hh : h = some e.2.1
    · rw [if_pos hh]
      clear hh
      revert e
      decide +kernel
    · rw [if_neg hh]
      clear hh
      revert e
      decide +kernel

theorem pq_digest : ∀ e ∈ fipsSig, pqDigest e.1 = .ok e.2.1 := by decide +kernel

/-- **C244.** The digest which signed data has by default is the one which the check of its algorithms asks for. -/
theorem C244_default_digest (sh : String) (k : SigKey)
    (hk : k = .rsa ∨ k = .ec ∨ k = .ed25519 ∨ k = .ed448 ∨ (∃ e ∈ fipsSig, k = .pq e.1) ∨
      (∃ g o, k = .composite g ∧ g false = .ok o ∧ (look compNames o).isSome = true)) :
    ∃ x o, digestOfKey sh k = .ok x ∧ algOid k (some x) false = .ok o ∧ digestOfAlg o = .ok x := by
  rcases hk with rfl | rfl | rfl | rfl | ⟨e, he, rfl⟩ | ⟨g, o, rfl, hg, ho⟩
  · exact ⟨"sha256", [1, 2, 840, 113549, 1, 1, 11], rfl, by decide +kernel, by decide +kernel⟩
  · exact ⟨"sha256", [1, 2, 840, 10045, 4, 3, 2], rfl, by decide +kernel, by decide +kernel⟩
  · exact ⟨"sha512", [1, 3, 101, 112], rfl, by decide +kernel, by decide +kernel⟩
  · exact ⟨"shake256", [1, 3, 101, 113], rfl, by decide +kernel, by decide +kernel⟩
  · refine ⟨e.2.1, fipsOid e.2.2.2, pq_digest e he, ?_, ?_⟩ <;> (revert e; decide +kernel)
  · have key : ∀ e ∈ compNames, ∃ x, look Verif.PQ.CSig.preHash e.1 = some x ∧ digestOfAlg e.1 = .ok x := by
      intro e he
      have : ∀ e ∈ compNames, (look Verif.PQ.CSig.preHash e.1).isSome = true ∧
          (digestOfAlg e.1).toOption = look Verif.PQ.CSig.preHash e.1 := by decide +kernel
      obtain ⟨h1, h2⟩ := this e he
      obtain ⟨x, hx⟩ := Option.isSome_iff_exists.1 h1
      refine ⟨x, hx, ?_⟩
      rw [hx] at h2
      cases hd : digestOfAlg e.1 with
      | error e => rw [hd] at h2; cases h2
      | ok y => rw [hd] at h2; cases h2; rfl
    have hmem : ∀ (l : List (Oid × String)), (look l o).isSome = true → ∃ n, (o, n) ∈ l := by
      intro l
      induction l with
      | nil => intro h; cases h
      | cons e l ih =>
        obtain ⟨k, v⟩ := e
        intro h
        unfold look at h
        split at h
        · rename_i hk; subst hk; exact ⟨v, List.mem_cons_self ..⟩
        · obtain ⟨n, hn⟩ := ih h
          exact ⟨n, List.mem_cons_of_mem _ hn⟩
    obtain ⟨n, hn⟩ := hmem _ ho
    obtain ⟨x, hx, hd⟩ := key _ hn
    refine ⟨x, o, ?_, hg, hd⟩
    unfold digestOfKey anyOid
    dsimp only
    rw [hg]
    dsimp only
    rw [hx]

/-- **C244 refuted.** By default the signature of signed data by a key of ML-DSA or SLH-DSA is one with a pre-hash, for which
CMS has no algorithm (RFC 9882 and RFC 9814 have the pure ones only). -/
theorem C244_pure_refuted (sh : String) (e : String × String × Nat × Nat) (he : e ∈ fipsSig) :
    ∃ x, digestOfKey sh (.pq e.1) = .ok x ∧ algOid (.pq e.1) (some x) false = .ok (fipsOid e.2.2.2) ∧
      fipsOid e.2.2.2 ≠ fipsOid e.2.2.1 := by
  refine ⟨e.2.1, pq_digest e he, ?_, ?_⟩ <;> (revert e; decide +kernel)

/-- **C244 refuted.** Signed data by a stateful key is refused: the check of its algorithms has no digest for it, although
`get_digest_alg_for_cmp` has one. -/
theorem C244_stateful_refuted (o : Oid) (ho : (look statefulNames o).isSome = true) (h : String) :
    cmpDigest o (some (some h)) = .ok h ∧ digestOfAlg o = .error .valueError := by
  refine ⟨?_, ?_⟩
  · unfold cmpDigest
    rw [if_pos ho]
  · have hm : o = [1, 3, 6, 1, 5, 5, 7, 6, 34] ∨ o = [1, 3, 6, 1, 5, 5, 7, 6, 35] ∨ o = [1, 2, 840, 113549, 1, 9, 16, 3, 17] := by
      unfold statefulNames look at ho
      split at ho
      · rename_i h; exact .inl h.symm
      unfold look at ho
      split at ho
      · rename_i h; exact .inr (.inl h.symm)
      unfold look at ho
      split at ho
      · rename_i h; exact .inr (.inr h.symm)
      cases ho
    rcases hm with rfl | rfl | rfl <;> decide +kernel

/-- **C244 refuted.** A hash which a key of ML-DSA or SLH-DSA does not support is accepted and ignored; signed data with it as
digest is refused afterwards. -/
theorem C244_ignored_refuted (e : String × String × Nat × Nat) (he : e ∈ fipsSig) (x : String) (hx : x ≠ e.2.1) (a : SigAlgId)
    (ha : sigAlgId (.pq e.1) (some x) false false none = .ok a) : digestOfAlg a.oid ≠ .ok x := by
  rw [(C244_digest (some x) false a).2.2.2 e he ha]
  intro h
  exact hx (Except.ok.inj h).symm

/-- **C244 refuted.** A composite key whose only algorithm is one with PSS has a digest, but no algorithm for signed data, which
is made without PSS. -/
theorem C244_composite_refuted (sh : String) (g : Bool → Except PyErr Oid) (o : Oid) (h : g false = .error .invalidKeyCombination)
    (h' : g true = .ok o) (x : String) (hx : look Verif.PQ.CSig.preHash o = some x) :
    digestOfKey sh (.composite g) = .ok x ∧ algOid (.composite g) (some x) false = .error .invalidKeyCombination := by
  refine ⟨?_, h⟩
  unfold digestOfKey anyOid
  dsimp only
  rw [h]
  dsimp only
  rw [h']
  dsimp only
  rw [hx]

/-- **C244.** A confirmation for a stateful certificate has the hash of the key of the issuer; without the key, or with one of
another kind, it is refused. -/
theorem C244_stateful_digest (o : Oid) (ho : (look statefulNames o).isSome = true) (k : Option (Option String)) (x : String) :
    cmpDigest o k = .ok x ↔ k = some (some x) := by
  unfold cmpDigest
  rw [if_pos ho]
  rcases k with _ | _ | h
  · exact ⟨nofun, nofun⟩
  · exact ⟨nofun, nofun⟩
  · exact ⟨fun h => by cases h; rfl, fun h => by cases h; rfl⟩

end Verif.Ra
