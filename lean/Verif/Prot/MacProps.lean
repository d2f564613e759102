import Verif.Prot.Protect

/-!
# What MAC-based protection guarantees

The specification `MacOf` says, algorithm by algorithm, which value protects given data under a password (RFC 9481
section 6, RFC 9480/4210 section 5.1.3.1, RFC 8018 section 7.1, RFC 9044, RFC 8702). It has its own table of OIDs.
-/

namespace Verif.Prot

open Verif.CA

/-! ## Specification -/

/-- HMAC algorithms and their hash functions (RFC 9481, RFC 9688). -/
def hmacSpec : List (Oid × String) :=
  [([1, 3, 6, 1, 5, 5, 8, 1, 2], "sha1"), ([1, 2, 840, 113549, 2, 8], "sha224"), ([1, 2, 840, 113549, 2, 9], "sha256"),
   ([1, 2, 840, 113549, 2, 10], "sha384"), ([1, 2, 840, 113549, 2, 11], "sha512"),
   ([2, 16, 840, 1, 101, 3, 4, 2, 13], "sha3_224"), ([2, 16, 840, 1, 101, 3, 4, 2, 14], "sha3_256"),
   ([2, 16, 840, 1, 101, 3, 4, 2, 15], "sha3_384"), ([2, 16, 840, 1, 101, 3, 4, 2, 16], "sha3_512")]

/-- Hash functions. -/
def hashSpec : List (Oid × String) :=
  [([1, 3, 14, 3, 2, 26], "sha1"), ([2, 16, 840, 1, 101, 3, 4, 2, 4], "sha224"),
   ([2, 16, 840, 1, 101, 3, 4, 2, 1], "sha256"), ([2, 16, 840, 1, 101, 3, 4, 2, 2], "sha384"),
   ([2, 16, 840, 1, 101, 3, 4, 2, 3], "sha512"), ([2, 16, 840, 1, 101, 3, 4, 2, 7], "sha3_224"),
   ([2, 16, 840, 1, 101, 3, 4, 2, 8], "sha3_256"), ([2, 16, 840, 1, 101, 3, 4, 2, 9], "sha3_384"),
   ([2, 16, 840, 1, 101, 3, 4, 2, 10], "sha3_512"), ([2, 16, 840, 1, 101, 3, 4, 2, 11], "shake128"),
   ([2, 16, 840, 1, 101, 3, 4, 2, 12], "shake256")]

/-- Signature algorithms and their hash functions; the code takes them for their hash function. -/
def sigHashSpec : List (Oid × String) :=
  [([1, 2, 840, 113549, 1, 1, 5], "sha1"), ([1, 2, 840, 113549, 1, 1, 14], "sha224"),
   ([1, 2, 840, 113549, 1, 1, 11], "sha256"), ([1, 2, 840, 113549, 1, 1, 12], "sha384"),
   ([1, 2, 840, 113549, 1, 1, 13], "sha512"), ([2, 16, 840, 1, 101, 3, 4, 3, 13], "sha3_224"),
   ([2, 16, 840, 1, 101, 3, 4, 3, 14], "sha3_256"), ([2, 16, 840, 1, 101, 3, 4, 3, 15], "sha3_384"),
   ([2, 16, 840, 1, 101, 3, 4, 3, 16], "sha3_512"), ([1, 2, 840, 113549, 1, 1, 10], "sha256"),
   ([1, 3, 6, 1, 5, 5, 7, 6, 30], "shake128"), ([1, 3, 6, 1, 5, 5, 7, 6, 31], "shake256"),
   ([1, 2, 840, 10045, 4, 3, 1], "sha224"), ([1, 2, 840, 10045, 4, 3, 2], "sha256"),
   ([1, 2, 840, 10045, 4, 3, 3], "sha384"), ([1, 2, 840, 10045, 4, 3, 4], "sha512"),
   ([1, 3, 6, 1, 5, 5, 7, 6, 32], "shake128"), ([1, 3, 6, 1, 5, 5, 7, 6, 33], "shake256"),
   ([2, 16, 840, 1, 101, 3, 4, 3, 9], "sha3_224"), ([2, 16, 840, 1, 101, 3, 4, 3, 10], "sha3_256"),
   ([2, 16, 840, 1, 101, 3, 4, 3, 11], "sha3_384"), ([2, 16, 840, 1, 101, 3, 4, 3, 12], "sha3_512")]

/-- Parameters given as a structure, or as the encoding of one with nothing after it. -/
inductive HasPbm (env : MacEnv) : Par → Pbm → Prop
  | obj (p : Pbm) : HasPbm env (.pbm p) p
  | der {b : Bytes} {p : Pbm} : env.decPbm b = some (p, []) → HasPbm env (.raw b) p

/-- See `HasPbm`. -/
inductive HasPbmac1 (env : MacEnv) : Par → Pbmac1 → Prop
  | obj (p : Pbmac1) : HasPbmac1 env (.pbmac1 p) p
  | der {b : Bytes} {p : Pbmac1} : env.decPbmac1 b = some (p, []) → HasPbmac1 env (.raw b) p

/-- See `HasPbm`. -/
inductive HasPbkdf2 (env : MacEnv) : KdfPar → Pbkdf2 → Prop
  | obj (p : Pbkdf2) : HasPbkdf2 env (.pbkdf2 p) p
  | der {b : Bytes} {p : Pbkdf2} : env.decPbkdf2 b = some (p, []) → HasPbkdf2 env (.raw b) p

/-- See `HasPbm`. -/
inductive HasNonce (env : MacEnv) : Par → Bytes → Prop
  | obj (n : Bytes) : HasNonce env (.gcm n) n
  | der {b n : Bytes} : env.decGcm b = some (n, []) → HasNonce env (.raw b) n

/-- A hash function applied `n` times. -/
def iterHash (env : MacEnv) (h : String) : Nat → Bytes → Bytes
  | 0, x => x
  | n + 1, x => iterHash env h n (env.H h x)

/-- `MacOf env a pw data v`: the MAC of `data` under the password is `v`. -/
inductive MacOf (env : MacEnv) : AlgId → Bytes → Bytes → Bytes → Prop
  | hmac {o : Oid} {h : String} (par : Par) (pw data : Bytes) : (o, h) ∈ hmacSpec →
      MacOf env ⟨o, par⟩ pw data (env.hmac h pw data)
  | kmac128 {pw data v : Bytes} : env.kmac false pw data = .ok v →
      MacOf env ⟨[2, 16, 840, 1, 101, 3, 4, 2, 19], .absent⟩ pw data v
  | kmac256 {pw data v : Bytes} : env.kmac true pw data = .ok v →
      MacOf env ⟨[2, 16, 840, 1, 101, 3, 4, 2, 20], .absent⟩ pw data v
  | gmac {o : Oid} {par : Par} {n pw data v : Bytes} :
      o ∈ [[2, 16, 840, 1, 101, 3, 4, 1, 9], [2, 16, 840, 1, 101, 3, 4, 1, 29], [2, 16, 840, 1, 101, 3, 4, 1, 49]] →
      HasNonce env par n → env.gmac pw n data = .ok v → MacOf env ⟨o, par⟩ pw data v
  | pbm {par : Par} {p : Pbm} {h mh : String} (pw data : Bytes) : HasPbm env par p →
      (p.owf, h) ∈ hashSpec ++ hmacSpec ++ sigHashSpec → (p.mac, mh) ∈ hmacSpec →
      MacOf env ⟨[1, 2, 840, 113533, 7, 66, 13], par⟩ pw data
        (env.hmac mh (iterHash env h p.iter.toNat (pw ++ p.salt)) data)
  | pbmac1 {par : Par} {p : Pbmac1} {q : Pbkdf2} {h mh : String} {salt : Bytes} {len : Int} {pw key : Bytes}
      (data : Bytes) : HasPbmac1 env par p → p.kdf = [1, 2, 840, 113549, 1, 5, 12] → HasPbkdf2 env p.kdfPar q →
      q.salt = some salt → q.keyLen = some len → (q.prf, h) ∈ hmacSpec ++ sigHashSpec → (p.mac, mh) ∈ hmacSpec →
      env.pbkdf2 h salt q.iter len pw = .ok key →
      MacOf env ⟨[1, 2, 840, 113549, 1, 5, 14], par⟩ pw data (env.hmac mh key data)

/-- The hash OIDs in the parameters are not those of a composite or post-quantum signature algorithm. -/
def NoSpecial (env : MacEnv) (a : AlgId) : Prop :=
  (∀ p, HasPbm env a.par p → env.special p.owf = none) ∧
  (∀ p q, HasPbmac1 env a.par p → HasPbkdf2 env p.kdfPar q → env.special q.prf = none)

/-- The salt of the password-based MAC is not empty. -/
def Salted (env : MacEnv) (a : AlgId) : Prop := a.oid = pbmOid → ∀ p, HasPbm env a.par p → p.salt ≠ []

/-! ## Tables -/

theorem mem_of_look : ∀ (l : List (Oid × String)) (o : Oid) (n : String), look l o = some n → (o, n) ∈ l
  | [], _, _, h => by cases h
  | (k, v) :: l, o, n, h => by
    unfold look at h
    by_cases hk : k = o
    · rw [if_pos hk] at h
      cases h
      subst hk
      exact List.mem_cons_self
    · rw [if_neg hk] at h
      exact List.mem_cons_of_mem _ (mem_of_look l o n h)

theorem hmac_rows : ∀ x ∈ hmacNames, ∃ y ∈ hmacSpec, y.1 = x.1 ∧ dash1 x.2 = .ok y.2 ∧ hashInst y.2 = .ok y.2 := by
  decide +kernel

theorem hmac_spec_rows : ∀ y ∈ hmacSpec, hashInst y.2 = .ok y.2 ∧ (look hmacNames y.1).map dash1 = some (.ok y.2) := by
  decide +kernel

/-- A name in the table of HMAC algorithms. -/
theorem hmac_name {o : Oid} {n : String} (h : look hmacNames o = some n) :
    ∃ f, (o, f) ∈ hmacSpec ∧ dash1 n = .ok f ∧ hashInst f = .ok f := by
  obtain ⟨⟨y1, y2⟩, hy, h1, h2, h3⟩ := hmac_rows _ (mem_of_look _ _ _ h)
  dsimp only at h1 h2 h3
  subst h1
  exact ⟨y2, hy, h2, h3⟩

/-- An HMAC algorithm is in the table. -/
theorem hmac_look {o : Oid} {f : String} (h : (o, f) ∈ hmacSpec) :
    hashInst f = .ok f ∧ ∃ n, look hmacNames o = some n ∧ dash1 n = .ok f := by
  obtain ⟨h1, h2⟩ := hmac_spec_rows _ h
  dsimp only at h1 h2
  refine ⟨h1, ?_⟩
  cases hl : look hmacNames o with
  | none => rw [hl] at h2; cases h2
  | some n =>
    rw [hl] at h2
    exact ⟨n, rfl, Option.some.inj h2⟩

theorem hash_rows : ∀ x ∈ hashMap, ∃ y ∈ hashSpec ++ hmacSpec ++ sigHashSpec, y.1 = x.1 ∧ hashInst x.2 = .ok y.2 := by
  decide +kernel

theorem hash_spec_rows : ∀ y ∈ hashSpec ++ hmacSpec ++ sigHashSpec, y.1 ≠ ed25519Oid ∧ y.1 ≠ ed448Oid ∧
    (look hashMap y.1).map hashInst = some (.ok y.2) := by
  decide +kernel

theorem prf_rows : ∀ x ∈ hashMap, ∀ f, dash1 x.2 = .ok f →
    hashInst f = .ok f ∧ (x.1, f) ∈ hmacSpec ++ sigHashSpec := by
  have h : ∀ x ∈ hashMap, (match dash1 x.2 with
      | .error _ => true
      | .ok f => decide (hashInst f = .ok f ∧ (x.1, f) ∈ hmacSpec ++ sigHashSpec)) = true := by
    decide +kernel
  intro x hx f hf
  have := h x hx
  rw [hf] at this
  exact of_decide_eq_true this

theorem prf_spec_rows : ∀ y ∈ hmacSpec ++ sigHashSpec, y.1 ≠ ed25519Oid ∧ y.1 ≠ ed448Oid ∧
    hashInst y.2 = .ok y.2 ∧ (look hashMap y.1).map dash1 = some (.ok y.2) := by
  decide +kernel

theorem gmac_mem (o : Oid) : (look gmacNames o).isSome = true ↔
    o ∈ [[2, 16, 840, 1, 101, 3, 4, 1, 9], [2, 16, 840, 1, 101, 3, 4, 1, 29], [2, 16, 840, 1, 101, 3, 4, 1, 49]] := by
  simp only [look, gmacNames, List.mem_cons, List.not_mem_nil, or_false]
  grind

/-! ## Reading the model -/

theorem getPbm_iff (env : MacEnv) (par : Par) (p : Pbm) : getPbm env false par = .ok p ↔ HasPbm env par p := by
  constructor
  · intro h
    unfold getPbm at h
    split at h
    · cases h; exact .obj _
    · rename_i b
      cases hd : env.decPbm b with
      | none => rw [hd] at h; cases h
      | some x =>
        obtain ⟨q, rest⟩ := x
        rw [hd] at h
        dsimp only at h
        by_cases hr : rest = []
        · rw [if_neg (by simp [hr])] at h
          cases h
          subst hr
          exact .der hd
        · rw [if_pos ⟨hr, rfl⟩] at h
          cases h
    · cases h
  · intro h
    cases h with
    | obj => rfl
    | der hd => simp [getPbm, hd]

theorem getPbmac1_iff (env : MacEnv) (par : Par) (p : Pbmac1) :
    getPbmac1 env false par = .ok p ↔ HasPbmac1 env par p := by
  constructor
  · intro h
    unfold getPbmac1 at h
    split at h
    · cases h; exact .obj _
    · rename_i b
      cases hd : env.decPbmac1 b with
      | none => rw [hd] at h; cases h
      | some x =>
        obtain ⟨q, rest⟩ := x
        rw [hd] at h
        dsimp only at h
        by_cases hr : rest = []
        · rw [if_neg (by simp [hr])] at h
          cases h
          subst hr
          exact .der hd
        · rw [if_pos ⟨hr, rfl⟩] at h
          cases h
    · cases h
  · intro h
    cases h with
    | obj => rfl
    | der hd => simp [getPbmac1, hd]

theorem getPbkdf2_iff (env : MacEnv) (par : KdfPar) (p : Pbkdf2) :
    getPbkdf2 env false par = .ok p ↔ HasPbkdf2 env par p := by
  constructor
  · intro h
    unfold getPbkdf2 at h
    split at h
    · cases h; exact .obj _
    · rename_i b
      cases hd : env.decPbkdf2 b with
      | none => rw [hd] at h; cases h
      | some x =>
        obtain ⟨q, rest⟩ := x
        rw [hd] at h
        dsimp only at h
        by_cases hr : rest = []
        · rw [if_neg (by simp [hr])] at h
          cases h
          subst hr
          exact .der hd
        · rw [if_pos ⟨hr, rfl⟩] at h
          cases h
    · cases h
  · intro h
    cases h with
    | obj => rfl
    | der hd => simp [getPbkdf2, hd]

theorem gmacTail_iff (env : MacEnv) (par : Par) (pw data v : Bytes) :
    gmacTail env false par pw data = .ok v ↔ ∃ n, HasNonce env par n ∧ env.gmac pw n data = .ok v := by
  constructor
  · intro h
    unfold gmacTail at h
    split at h
    · exact ⟨_, .obj _, h⟩
    · rename_i b
      cases hd : env.decGcm b with
      | none => rw [hd] at h; cases h
      | some x =>
        obtain ⟨q, rest⟩ := x
        rw [hd] at h
        dsimp only at h
        by_cases hr : rest = []
        · rw [if_neg (by simp [hr])] at h
          subst hr
          exact ⟨_, .der hd, h⟩
        · rw [if_pos ⟨hr, rfl⟩] at h
          cases h
    · cases h
  · rintro ⟨n, hn, h⟩
    cases hn with
    | obj => exact h
    | der hd => simp [gmacTail, hd, h]

theorem hmacHash_iff (o : Oid) (f : String) : hmacHash o = .ok f ↔ (o, f) ∈ hmacSpec := by
  constructor
  · intro h
    unfold hmacHash at h
    cases hl : look hmacNames o with
    | none => rw [hl] at h; cases h
    | some n =>
      rw [hl] at h
      dsimp only at h
      obtain ⟨f', h1, h2, _⟩ := hmac_name hl
      rw [h2] at h
      cases h
      exact h1
  · intro h
    obtain ⟨_, n, h1, h2⟩ := hmac_look h
    unfold hmacHash
    rw [h1]
    exact h2

/-- The hash function behind an OID, as the code finds it in two steps. -/
theorem owf_iff (env : MacEnv) (o : Oid) (f : String) (hs : env.special o = none) :
    (∃ n, hashOfOid env o false = .ok (some n) ∧ hashInst n = .ok f) ↔
      (o, f) ∈ hashSpec ++ hmacSpec ++ sigHashSpec := by
  constructor
  · rintro ⟨n, h, hi⟩
    unfold hashOfOid at h
    by_cases he : o = ed25519Oid ∨ o = ed448Oid
    · rw [if_pos he] at h
      cases h
    · rw [if_neg he, hs] at h
      dsimp only at h
      cases hl : look hashMap o with
      | none => rw [hl] at h; cases h
      | some n' =>
        rw [hl] at h
        cases h
        obtain ⟨⟨y1, y2⟩, hy, h1, h2⟩ := hash_rows _ (mem_of_look _ _ _ hl)
        dsimp only at h1 h2
        rw [hi] at h2
        cases h2
        subst h1
        exact hy
  · intro h
    obtain ⟨h1, h2, h3⟩ := hash_spec_rows _ h
    dsimp only at h1 h2 h3
    cases hl : look hashMap o with
    | none => rw [hl] at h3; cases h3
    | some n =>
      rw [hl] at h3
      refine ⟨n, ?_, Option.some.inj h3⟩
      unfold hashOfOid
      rw [if_neg (by simp [h1, h2]), hs, hl]
      rfl

/-- A known OID is always one of a known hash function. -/
theorem owf_known (env : MacEnv) (o : Oid) (n : String) (hs : env.special o = none)
    (h : hashOfOid env o false = .ok (some n)) : ∃ f, hashInst n = .ok f := by
  unfold hashOfOid at h
  by_cases he : o = ed25519Oid ∨ o = ed448Oid
  · rw [if_pos he] at h
    cases h
  · rw [if_neg he, hs] at h
    dsimp only at h
    cases hl : look hashMap o with
    | none => rw [hl] at h; cases h
    | some n' =>
      rw [hl] at h
      cases h
      obtain ⟨y, _, _, h2⟩ := hash_rows _ (mem_of_look _ _ _ hl)
      exact ⟨_, h2⟩

theorem prf_iff (env : MacEnv) (o : Oid) (f : String) (hs : env.special o = none) :
    prfHash env o = .ok f ↔ (o, f) ∈ hmacSpec ++ sigHashSpec := by
  constructor
  · intro h
    unfold prfHash hashOfOid at h
    by_cases he : o = ed25519Oid ∨ o = ed448Oid
    · rw [if_pos he] at h
      cases h
    · rw [if_neg he, hs] at h
      dsimp only at h
      cases hl : look hashMap o with
      | none => rw [hl] at h; cases h
      | some n =>
        rw [hl] at h
        exact (prf_rows _ (mem_of_look _ _ _ hl) f h).2
  · intro h
    obtain ⟨h1, h2, _, h4⟩ := prf_spec_rows _ h
    dsimp only at h1 h2 h4
    cases hl : look hashMap o with
    | none => rw [hl] at h4; cases h4
    | some n =>
      rw [hl] at h4
      unfold prfHash hashOfOid
      rw [if_neg (by simp [h1, h2]), hs, hl]
      exact Option.some.inj h4

/-- The key derivation finds the same hash function. -/
theorem prf_only (env : MacEnv) (o : Oid) (f : String) (hs : env.special o = none)
    (h : (o, f) ∈ hmacSpec ++ sigHashSpec) : hashOfOid env o true = .ok (some f) ∧ hashInst f = .ok f := by
  obtain ⟨h1, h2, h3, h4⟩ := prf_spec_rows _ h
  dsimp only at h1 h2 h3 h4
  refine ⟨?_, h3⟩
  cases hl : look hashMap o with
  | none => rw [hl] at h4; cases h4
  | some n =>
    rw [hl] at h4
    unfold hashOfOid
    rw [if_neg (by simp [h1, h2]), hs, hl]
    dsimp only
    rw [if_pos rfl, Option.some.inj h4]
    rfl

theorem hashLoop_eq (env : MacEnv) (n h : String) (hi : hashInst n = .ok h) :
    ∀ (k : Nat) (x : Bytes), hashLoop env n k x = .ok (iterHash env h k x)
  | 0, _ => rfl
  | k + 1, x => by
    unfold hashLoop hashOf
    rw [hi]
    exact hashLoop_eq env n h hi k _

theorem pbm_iff (env : MacEnv) (rnd : Bytes) (p : Pbm) (pw data v : Bytes) (hs : env.special p.owf = none)
    (he : p.salt ≠ []) : pbmTail env rnd p pw data false = .ok v ↔
      ∃ h mh, (p.owf, h) ∈ hashSpec ++ hmacSpec ++ sigHashSpec ∧ (p.mac, mh) ∈ hmacSpec ∧
        v = env.hmac mh (iterHash env h p.iter.toNat (pw ++ p.salt)) data := by
  constructor
  · intro h
    unfold pbmTail at h
    cases ho : hashOfOid env p.owf false with
    | error e => rw [ho] at h; cases h
    | ok x =>
      cases x with
      | none => rw [ho] at h; cases h
      | some n =>
        rw [ho] at h
        dsimp only at h
        cases hm : hmacHash p.mac with
        | error e => rw [hm] at h; cases h
        | ok mh =>
          rw [hm] at h
          simp only [checkLw, Bool.false_eq_true, and_false, false_and, if_false] at h
          obtain ⟨f, hf⟩ := owf_known env p.owf n hs ho
          unfold pbmOf at h
          rw [if_neg he, hashLoop_eq env n f hf] at h
          unfold hmacOf at h
          have hmm := (hmacHash_iff _ _).1 hm
          rw [(hmac_look hmm).1] at h
          cases h
          exact ⟨f, mh, (owf_iff env _ f hs).1 ⟨n, ho, hf⟩, hmm, rfl⟩
  · rintro ⟨f, mh, hf, hm, rfl⟩
    obtain ⟨n, ho, hi⟩ := (owf_iff env _ f hs).2 hf
    unfold pbmTail
    rw [ho]
    dsimp only
    rw [(hmacHash_iff _ _).2 hm]
    simp only [checkLw, Bool.false_eq_true, and_false, false_and, if_false]
    unfold pbmOf
    rw [if_neg he, hashLoop_eq env n f hi]
    unfold hmacOf
    rw [(hmac_look hm).1]

theorem pbmac1Tail_iff (env : MacEnv) (p : Pbmac1) (q : Pbkdf2) (pw data v : Bytes) (hs : env.special q.prf = none) :
    pbmac1Tail env p q pw data false = .ok v ↔
      ∃ h mh salt len key, q.salt = some salt ∧ q.keyLen = some len ∧ (q.prf, h) ∈ hmacSpec ++ sigHashSpec ∧
        (p.mac, mh) ∈ hmacSpec ∧ env.pbkdf2 h salt q.iter len pw = .ok key ∧ v = env.hmac mh key data := by
  constructor
  · intro h
    unfold pbmac1Tail at h
    cases hm : hmacHash p.mac with
    | error e => rw [hm] at h; cases h
    | ok mh =>
      rw [hm] at h
      dsimp only at h
      cases hp : prfHash env q.prf with
      | error e => rw [hp] at h; cases h
      | ok f =>
        rw [hp] at h
        simp only [checkLw, Bool.false_eq_true, and_false, false_and, if_false] at h
        have hf := (prf_iff env _ f hs).1 hp
        have hmm := (hmacHash_iff _ _).1 hm
        obtain ⟨h1, h2⟩ := prf_only env _ f hs hf
        unfold pbmac1Mac pbkdf2Of at h
        cases hsl : q.salt with
        | none => rw [hsl] at h; cases h
        | some salt =>
          cases hl : q.keyLen with
          | none => rw [hsl, hl] at h; cases h
          | some len =>
            rw [hsl, hl] at h
            dsimp only at h
            rw [h1] at h
            dsimp only at h
            rw [h2] at h
            dsimp only at h
            cases hk : env.pbkdf2 f salt q.iter len pw with
            | error e => rw [hk] at h; cases h
            | ok key =>
              rw [hk] at h
              unfold hmacOf at h
              rw [(hmac_look hmm).1] at h
              cases h
              exact ⟨f, mh, salt, len, key, rfl, rfl, hf, hmm, hk, rfl⟩
  · rintro ⟨f, mh, salt, len, key, hsl, hl, hf, hmm, hk, rfl⟩
    obtain ⟨h1, h2⟩ := prf_only env _ f hs hf
    unfold pbmac1Tail
    rw [(hmacHash_iff _ _).2 hmm, (prf_iff env _ f hs).2 hf]
    simp only [checkLw, Bool.false_eq_true, and_false, false_and, if_false]
    unfold pbmac1Mac pbkdf2Of
    rw [hsl, hl]
    dsimp only
    rw [h1]
    dsimp only
    rw [h2]
    dsimp only
    rw [hk]
    unfold hmacOf
    rw [(hmac_look hmm).1]

theorem pbmac1Of_iff (env : MacEnv) (par : Par) (pw data v : Bytes) :
    pbmac1Of env par pw data false false = .ok v ↔
      ∃ p q, HasPbmac1 env par p ∧ p.kdf = pbkdf2Oid ∧ HasPbkdf2 env p.kdfPar q ∧
        pbmac1Tail env p q pw data false = .ok v := by
  constructor
  · intro h
    unfold pbmac1Of at h
    cases hg : getPbmac1 env false par with
    | error e => rw [hg] at h; cases h
    | ok p =>
      rw [hg] at h
      dsimp only at h
      by_cases hk : p.kdf = pbkdf2Oid
      · rw [if_neg (by simp [hk])] at h
        cases hq : getPbkdf2 env false p.kdfPar with
        | error e => rw [hq] at h; cases h
        | ok q =>
          rw [hq] at h
          exact ⟨p, q, (getPbmac1_iff _ _ _).1 hg, hk, (getPbkdf2_iff _ _ _).1 hq, h⟩
      · rw [if_pos ⟨rfl, hk⟩] at h
        cases h
  · rintro ⟨p, q, hp, hk, hq, h⟩
    unfold pbmac1Of
    rw [(getPbmac1_iff _ _ _).2 hp]
    dsimp only
    rw [if_neg (by simp [hk]), (getPbkdf2_iff _ _ _).2 hq]
    exact h

theorem mac_oids_distinct :
    look hmacNames kmac128Oid = none ∧ look hmacNames kmac256Oid = none ∧ look hmacNames pbmac1Oid = none ∧
    look hmacNames pbmOid = none ∧ kmac128Oid ≠ kmac256Oid ∧ pbmac1Oid ≠ kmac128Oid ∧ pbmac1Oid ≠ kmac256Oid ∧
    pbmOid ≠ kmac128Oid ∧ pbmOid ≠ kmac256Oid ∧ pbmOid ≠ pbmac1Oid := by
  decide +kernel

theorem gmac_rows : ∀ o ∈ [[2, 16, 840, 1, 101, 3, 4, 1, 9], [2, 16, 840, 1, 101, 3, 4, 1, 29],
    [2, 16, 840, 1, 101, 3, 4, 1, 49]], look hmacNames o = none ∧ o ≠ kmac128Oid ∧ o ≠ kmac256Oid ∧ o ≠ pbmac1Oid ∧
    o ≠ pbmOid ∧ o ≠ dhOid ∧ o ≠ kemMacOid := by
  decide +kernel

/-- The value the code computes is the one the specification says. -/
theorem macByAlg_iff (env : MacEnv) (rnd : Bytes) (a : AlgId) (pw data v : Bytes) (hn : NoSpecial env a)
    (hs : Salted env a) (hd : a.oid ≠ dhOid) :
    macByAlg env rnd a pw data false false = .ok v ↔ MacOf env a pw data v := by
  obtain ⟨o, par⟩ := a
  obtain ⟨d1, d2, d3, d4, d5, d6, d7, d8, d9, d10⟩ := mac_oids_distinct
  constructor
  · intro h
    unfold macByAlg at h
    dsimp only at h
    cases hl : look hmacNames o with
    | some n =>
      rw [hl] at h
      dsimp only at h
      obtain ⟨f, h1, h2, h3⟩ := hmac_name hl
      rw [h2] at h
      dsimp only at h
      unfold hmacOf at h
      rw [h3] at h
      cases h
      exact .hmac _ _ _ h1
    | none =>
      rw [hl] at h
      dsimp only at h
      by_cases hk : o = kmac128Oid ∨ o = kmac256Oid
      · rw [if_pos hk] at h
        unfold kmacOf at h
        by_cases hp : par = .absent
        · rw [if_neg (by simp [hp])] at h
          subst hp
          by_cases h1 : o = kmac128Oid
          · rw [if_pos h1] at h
            subst h1
            exact .kmac128 h
          · rw [if_neg h1] at h
            have h2 : o = kmac256Oid := by
              rcases hk with h2 | h2
              · exact absurd h2 h1
              · exact h2
            rw [if_pos h2] at h
            subst h2
            exact .kmac256 h
        · rw [if_pos (by simp [hp])] at h
          cases h
      · rw [if_neg hk] at h
        by_cases hb : o = pbmac1Oid
        · rw [if_pos hb] at h
          subst hb
          obtain ⟨p, q, hp, hkd, hq, ht⟩ := (pbmac1Of_iff env par pw data v).1 h
          obtain ⟨f, mh, salt, len, key, e1, e2, e3, e4, e5, rfl⟩ :=
            (pbmac1Tail_iff env p q pw data v (hn.2 p q hp hq)).1 ht
          exact .pbmac1 data hp hkd hq e1 e2 e3 e4 e5
        · rw [if_neg hb] at h
          by_cases hm : o = pbmOid
          · rw [if_pos hm] at h
            cases hg : getPbm env false par with
            | error e => rw [hg] at h; cases h
            | ok p =>
              rw [hg] at h
              have hp := (getPbm_iff _ _ _).1 hg
              obtain ⟨f, mh, e1, e2, rfl⟩ := (pbm_iff env rnd p pw data v (hn.1 p hp) (hs hm p hp)).1 h
              subst hm
              exact .pbm pw data hp e1 e2
          · rw [if_neg hm] at h
            by_cases hgm : (look gmacNames o).isSome = true
            · rw [if_pos hgm] at h
              obtain ⟨n, e1, e2⟩ := (gmacTail_iff env par pw data v).1 h
              exact .gmac ((gmac_mem o).1 hgm) e1 e2
            · rw [if_neg hgm, if_neg hd] at h
              cases h
  · intro h
    unfold macByAlg
    cases h with
    | hmac par pw data hm =>
      obtain ⟨h1, n, h2, h3⟩ := hmac_look hm
      dsimp only
      rw [h2]
      dsimp only
      rw [h3]
      dsimp only
      unfold hmacOf
      rw [h1]
    | kmac128 hk =>
      dsimp only
      rw [show ([2, 16, 840, 1, 101, 3, 4, 2, 19] : Oid) = kmac128Oid from rfl, d1]
      dsimp only
      rw [if_pos (Or.inl rfl)]
      unfold kmacOf
      rw [if_neg (by simp)]
      exact hk
    | kmac256 hk =>
      dsimp only
      rw [show ([2, 16, 840, 1, 101, 3, 4, 2, 20] : Oid) = kmac256Oid from rfl, d2]
      dsimp only
      rw [if_pos (Or.inr rfl)]
      unfold kmacOf
      rw [if_neg (by simp)]
      exact hk
    | gmac ho hp hg =>
      obtain ⟨g1, g2, g3, g4, g5, _⟩ := gmac_rows _ ho
      dsimp only
      rw [g1]
      dsimp only
      rw [if_neg (by simp [g2, g3]), if_neg g4, if_neg g5, if_pos ((gmac_mem _).2 ho)]
      exact (gmacTail_iff _ _ _ _ _).2 ⟨_, hp, hg⟩
    | @pbm _ p _ _ _ _ hp e1 e2 =>
      dsimp only
      rw [show ([1, 2, 840, 113533, 7, 66, 13] : Oid) = pbmOid from rfl, d4]
      dsimp only
      rw [if_neg (fun c => c.elim d8 d9), if_neg d10, if_pos rfl, (getPbm_iff _ _ _).2 hp]
      exact (pbm_iff env rnd p pw data _ (hn.1 p hp) (hs rfl p hp)).2 ⟨_, _, e1, e2, rfl⟩
    | @pbmac1 _ p q _ _ _ _ _ key _ hp hkd hq e1 e2 e3 e4 e5 =>
      dsimp only
      rw [show ([1, 2, 840, 113549, 1, 5, 14] : Oid) = pbmac1Oid from rfl, d3]
      dsimp only
      rw [if_neg (fun c => c.elim d6 d7), if_pos rfl]
      exact (pbmac1Of_iff env _ _ _ _).2 ⟨p, q, hp, hkd, hq,
        (pbmac1Tail_iff env p q _ _ _ (hn.2 p q hp hq)).2 ⟨_, _, _, _, key, e1, e2, e3, e4, e5, rfl⟩⟩

end Verif.Prot
