import Verif.Prot.SigRefuted

/-!
# C144: protection with a KEM-based MAC
-/

namespace Verif.Prot

open Verif.CA

variable {S K C : Type}

/-! ## Specification -/

/-- HKDF with SHA-2 (RFC 8619). -/
def hkdfSpec : List (Oid × String) :=
  [([1, 2, 840, 113549, 1, 9, 16, 3, 28], "sha256"), ([1, 2, 840, 113549, 1, 9, 16, 3, 29], "sha384"),
   ([1, 2, 840, 113549, 1, 9, 16, 3, 30], "sha512")]

/-- Block `i` of the key derivation functions of ANSI X9.44: the counter stands before (KDF3) or after (KDF2) the shared
secret. -/
def kdfBlock (env : MacEnv) (n : String) (v2 : Bool) (ss info : Bytes) (i : Nat) : Bytes :=
  env.H n (if v2 then ss ++ ctrBytes i ++ info else ctrBytes i ++ ss ++ info)

/-- The first `len` bytes of the blocks 1, 2, … -/
def kdfSpec (env : MacEnv) (n : String) (v2 : Bool) (ss info : Bytes) (len : Nat) : Bytes :=
  (((List.range' 1 len).map (kdfBlock env n v2 ss info)).flatten).take len

/-- The hash function in the parameters of KDF2 and KDF3; bytes after them are ignored. -/
inductive HasHash (env : Env S K C) : KdfPar → Oid → Prop
  | obj (o : Oid) : HasHash env (.hash o) o
  | der {b r : Bytes} {o : Oid} : env.decAlg b = some (o, r) → HasHash env (.raw b) o

/-- `KdfKey env o par ss info len key`: the function derives `key`. -/
inductive KdfKey (env : Env S K C) : Oid → KdfPar → Bytes → Bytes → Int → Bytes → Prop
  | hkdf {o : Oid} {h : String} {par : KdfPar} {ss info key : Bytes} {len : Int} : (o, h) ∈ hkdfSpec →
      env.hkdf h ss info len = .ok key → KdfKey env o par ss info len key
  | kdf2 {par : KdfPar} {ho : Oid} {h : String} (ss info : Bytes) (len : Int) : HasHash env par ho →
      (ho, h) ∈ hashSpec ++ hmacSpec ++ sigHashSpec →
      KdfKey env [1, 3, 133, 16, 840, 9, 44, 1, 1] par ss info len (kdfSpec env.toMacEnv h true ss info len.toNat)
  | kdf3 {par : KdfPar} {ho : Oid} {h : String} (ss info : Bytes) (len : Int) : HasHash env par ho →
      (ho, h) ∈ hashSpec ++ hmacSpec ++ sigHashSpec →
      KdfKey env [1, 3, 133, 16, 840, 9, 44, 1, 2] par ss info len (kdfSpec env.toMacEnv h false ss info len.toNat)

/-- The parameters, as a structure or encoded. -/
inductive HasKem (env : Env S K C) : Par → KemBm → Prop
  | obj (p : KemBm) : HasKem env (.kem p) p
  | der {b : Bytes} {p : KemBm} : env.decKem b = some (p, []) → HasKem env (.raw b) p

/-- The MAC under the derived key. -/
inductive KemInner (env : MacEnv) : KemBm → Bytes → Bytes → Bytes → Prop
  | hmac {p : KemBm} {h : String} (key data : Bytes) : (p.mac, h) ∈ hmacSpec → KemInner env p key data (env.hmac h key data)
  | kmac128 {p : KemBm} {key data v : Bytes} : p.mac = [2, 16, 840, 1, 101, 3, 4, 2, 19] → p.macPar = none →
      env.kmac false key data = .ok v → KemInner env p key data v
  | kmac256 {p : KemBm} {key data v : Bytes} : p.mac = [2, 16, 840, 1, 101, 3, 4, 2, 20] → p.macPar = none →
      env.kmac true key data = .ok v → KemInner env p key data v

/-- `KemMacOf env par ss tx data v`: the MAC of `data` for the shared secret and the transaction (RFC 9810, 5.1.3.4). -/
inductive KemMacOf (env : Env S K C) : Par → Bytes → Bytes → Bytes → Bytes → Prop
  | mk {par : Par} {p : KemBm} {ss tx data key v : Bytes} : HasKem env par p →
      KdfKey env p.kdf p.kdfPar ss (env.encInfo tx p.ctx) p.len key → KemInner env.toMacEnv p key data v →
      KemMacOf env par ss tx data v

/-! ## Key derivation -/

theorem x963Loop_eq (env : MacEnv) (n : String) (v2 : Bool) (ss info : Bytes) (len : Nat)
    (hne : ∀ x, env.H n x ≠ []) : ∀ (f i : Nat) (acc : Bytes), len ≤ acc.length + f →
    (x963Loop env n v2 ss info len f i acc).take len =
      (acc ++ ((List.range' i f).map (kdfBlock env n v2 ss info)).flatten).take len
  | 0, i, acc, _ => by simp [x963Loop]
  | f + 1, i, acc, hl => by
    unfold x963Loop
    by_cases hlt : acc.length < len
    · rw [if_pos hlt]
      have hb : kdfBlock env n v2 ss info i =
          env.H n (if v2 = true then ss ++ ctrBytes i ++ info else ctrBytes i ++ ss ++ info) := rfl
      have hpos : 0 < (kdfBlock env n v2 ss info i).length := by
        rw [hb]
        exact List.length_pos_iff.2 (hne _)
      rw [← hb, x963Loop_eq env n v2 ss info len hne f (i + 1) _ (by rw [List.length_append]; omega)]
      rw [List.range'_succ]
      simp
    · rw [if_neg hlt, List.take_append_of_le_length (by omega)]

theorem x963_eq (env : MacEnv) (h n : String) (v2 : Bool) (ss info : Bytes) (len : Int) (hi : hashInst h = .ok n)
    (hne : ∀ x, env.H n x ≠ []) : x963 env h v2 ss info len = .ok (kdfSpec env n v2 ss info len.toNat) := by
  unfold x963
  rw [hi]
  dsimp only
  rw [x963Loop_eq env n v2 ss info len.toNat hne _ 1 [] (by simp)]
  rfl

theorem getKdfHash_iff (env : Env S K C) (par : KdfPar) (o : Oid) : getKdfHash env par = .ok o ↔ HasHash env par o := by
  constructor
  · intro h
    unfold getKdfHash at h
    split at h
    · cases h; exact .obj _
    · rename_i b
      cases hd : env.decAlg b with
      | none => rw [hd] at h; cases h
      | some x =>
        obtain ⟨q, r⟩ := x
        rw [hd] at h
        cases h
        exact .der hd
    · cases h
  · intro h
    cases h with
    | obj => rfl
    | der hd =>
      unfold getKdfHash
      dsimp only
      rw [hd]

theorem hkdf_rows : ∀ x ∈ hkdfNames, ∀ h, (dash1 x.2).toOption = some h → ∀ n, (hashInst h).toOption = some n →
    (x.1, n) ∈ hkdfSpec := by
  have : ∀ x ∈ hkdfNames, ((dash1 x.2).toOption.bind (fun h => (hashInst h).toOption)).all
      (fun n => decide ((x.1, n) ∈ hkdfSpec)) = true := by
    decide +kernel
  intro x hx h h1 n h2
  have := this x hx
  rw [h1] at this
  simp only [Option.bind_some, h2, Option.all_some] at this
  exact of_decide_eq_true this

theorem hkdf_spec_rows : ∀ y ∈ hkdfSpec, ∃ x ∈ hkdfNames, look hkdfNames y.1 = some x.2 ∧
    (dash1 x.2).toOption = some y.2 ∧ (hashInst y.2).toOption = some y.2 := by
  decide +kernel

theorem kdf_oids : look hkdfNames kdf2Oid = none ∧ look hkdfNames kdf3Oid = none ∧ look hkdfNames pbkdf2Oid = none ∧
    kdf3Oid ≠ kdf2Oid ∧ pbkdf2Oid ≠ kdf2Oid ∧ pbkdf2Oid ≠ kdf3Oid := by
  decide +kernel

theorem ok_of_toOption {α : Type} {x : Except PyErr α} {a : α} (h : x.toOption = some a) : x = .ok a := by
  cases x with
  | error e => cases h
  | ok b => cases h; rfl

/-- The derivation of the code, for parameters that are not those of PBKDF2. -/
theorem kdfOf_iff (env : Env S K C) (o : Oid) (par : KdfPar) (ss info : Bytes) (len : Int) (key : Bytes)
    (hp : o ≠ pbkdf2Oid) (hs : ∀ ho, HasHash env par ho → env.special ho = none) (hne : ∀ n x, env.H n x ≠ []) :
    kdfOf env o par ss info len = .ok key ↔ KdfKey env o par ss info len key := by
  obtain ⟨t1, t2, t3, t4, t5, t6⟩ := kdf_oids
  constructor
  · intro h
    unfold kdfOf at h
    cases hl : look hkdfNames o with
    | some n =>
      rw [hl] at h
      dsimp only at h
      cases hd : dash1 n with
      | error e => rw [hd] at h; cases h
      | ok d =>
        rw [hd] at h
        dsimp only at h
        cases hi : hashInst d with
        | error e => rw [hi] at h; cases h
        | ok f =>
          rw [hi] at h
          exact .hkdf (hkdf_rows _ (mem_of_look _ _ _ hl) d (by rw [hd]; rfl) f (by rw [hi]; rfl)) h
    | none =>
      rw [hl] at h
      dsimp only at h
      by_cases hk : o = kdf2Oid ∨ o = kdf3Oid
      · rw [if_pos hk] at h
        cases hg : getKdfHash env par with
        | error e => rw [hg] at h; cases h
        | ok ho =>
          rw [hg] at h
          dsimp only at h
          have hh := (getKdfHash_iff _ _ _).1 hg
          cases hx : hashOfOid env.toMacEnv ho false with
          | error e => rw [hx] at h; cases h
          | ok n =>
            rw [hx] at h
            cases n with
            | none => cases h
            | some n =>
              dsimp only at h
              cases hi : hashInst n with
              | error e =>
                unfold x963 at h
                rw [hi] at h
                cases h
              | ok f =>
                have hm := (owf_iff env.toMacEnv ho f (hs ho hh)).1 ⟨n, hx, hi⟩
                rw [x963_eq env.toMacEnv n f _ ss info len hi (hne f)] at h
                cases h
                rcases hk with rfl | rfl
                · exact .kdf2 _ _ _ hh hm
                · rw [decide_eq_false t4]
                  exact .kdf3 _ _ _ hh hm
      · rw [if_neg hk, if_neg hp] at h
        cases h
  · intro h
    cases h with
    | hkdf hm hv =>
      obtain ⟨x, _, h1, h2, h3⟩ := hkdf_spec_rows _ hm
      unfold kdfOf
      rw [h1]
      dsimp only
      rw [ok_of_toOption h2]
      dsimp only
      rw [ok_of_toOption h3]
      exact hv
    | kdf2 _ _ _ hh hm =>
      rename_i ho hn
      obtain ⟨n, n1, n2⟩ := (owf_iff env.toMacEnv _ _ (hs _ hh)).2 hm
      unfold kdfOf
      rw [show ([1, 3, 133, 16, 840, 9, 44, 1, 1] : Oid) = kdf2Oid from rfl, t1]
      dsimp only
      rw [if_pos (Or.inl rfl), (getKdfHash_iff _ _ _).2 hh]
      dsimp only
      rw [n1]
      dsimp only
      rw [decide_eq_true rfl, x963_eq env.toMacEnv n hn _ ss info len n2 (hne hn)]
    | kdf3 _ _ _ hh hm =>
      rename_i ho hn
      obtain ⟨n, n1, n2⟩ := (owf_iff env.toMacEnv _ _ (hs _ hh)).2 hm
      unfold kdfOf
      rw [show ([1, 3, 133, 16, 840, 9, 44, 1, 2] : Oid) = kdf3Oid from rfl, t2]
      dsimp only
      rw [if_pos (Or.inr rfl), (getKdfHash_iff _ _ _).2 hh]
      dsimp only
      rw [n1]
      dsimp only
      rw [decide_eq_false t4, x963_eq env.toMacEnv n hn _ ss info len n2 (hne hn)]

/-! ## The MAC -/

theorem getKem_iff (env : Env S K C) (par : Par) (p : KemBm) : getKem env par = .ok p ↔ HasKem env par p := by
  constructor
  · intro h
    unfold getKem at h
    split at h
    · cases h; exact .obj _
    · rename_i b
      cases hd : env.decKem b with
      | none => rw [hd] at h; cases h
      | some x =>
        obtain ⟨q, r⟩ := x
        rw [hd] at h
        dsimp only at h
        by_cases hr : r = []
        · subst hr
          simp only [ne_eq, not_true_eq_false, if_false] at h
          cases h
          exact .der hd
        · rw [if_pos hr] at h; cases h
    · cases h
  · intro h
    cases h with
    | obj => rfl
    | der hd =>
      unfold getKem
      dsimp only
      rw [hd]
      simp

theorem kemInner_iff (env : Env S K C) (p : KemBm) (key data v : Bytes) :
    kemMacTail env p key data = .ok v ↔ KemInner env.toMacEnv p key data v := by
  obtain ⟨d1, d2, d3, d4, d5, d6, d7, d8, d9, d10⟩ := mac_oids_distinct
  constructor
  · intro h
    unfold kemMacTail at h
    cases hl : look hmacNames p.mac with
    | some n =>
      rw [hl] at h
      dsimp only at h
      obtain ⟨y, hy, h1, h2, h3⟩ := hmac_rows _ (mem_of_look _ _ _ hl)
      rw [h2] at h
      unfold hmacOf at h
      dsimp only at h
      rw [h3] at h
      cases h
      refine .hmac key data ?_
      have : y = (p.mac, y.2) := by rw [show p.mac = y.1 from h1.symm]
      rw [← this]
      exact hy
    | none =>
      rw [hl] at h
      dsimp only at h
      by_cases hk : p.mac = kmac128Oid ∨ p.mac = kmac256Oid
      · rw [if_pos hk] at h
        unfold kmacOf at h
        cases hp : p.macPar with
        | some b => rw [hp] at h; simp at h
        | none =>
          rw [hp] at h
          simp only [Option.isSome_none, Bool.false_eq_true, if_false] at h
          by_cases h1 : p.mac = kmac128Oid
          · rw [if_pos h1] at h
            exact .kmac128 h1 hp h
          · rw [if_neg h1] at h
            have h2 : p.mac = kmac256Oid := hk.resolve_left h1
            rw [if_pos h2] at h
            exact .kmac256 h2 hp h
      · rw [if_neg hk] at h; cases h
  · intro h
    unfold kemMacTail
    cases h with
    | hmac _ _ hm =>
      obtain ⟨h1, n, h2, h3⟩ := hmac_look hm
      rw [h2]
      dsimp only
      rw [h3]
      unfold hmacOf
      dsimp only
      rw [h1]
    | kmac128 ho hp hv =>
      rw [show ([2, 16, 840, 1, 101, 3, 4, 2, 19] : Oid) = kmac128Oid from rfl] at ho
      rw [ho, hp, show look hmacNames kmac128Oid = none by decide +kernel]
      dsimp only
      rw [if_pos (Or.inl rfl)]
      unfold kmacOf
      simp only [Option.isSome_none, Bool.false_eq_true, if_false, if_true]
      exact hv
    | kmac256 ho hp hv =>
      rw [show ([2, 16, 840, 1, 101, 3, 4, 2, 20] : Oid) = kmac256Oid from rfl] at ho
      rw [ho, hp, show look hmacNames kmac256Oid = none by decide +kernel]
      dsimp only
      rw [if_pos (Or.inr rfl)]
      unfold kmacOf
      rw [if_neg (by simp), if_neg (by decide +kernel), if_pos rfl]
      exact hv

/-- The hash functions in the parameters are not those of composite or post-quantum algorithms, the key derivation
function is not PBKDF2, and the context is not empty. -/
def KemUsual (env : Env S K C) (par : Par) : Prop :=
  ∀ p, HasKem env par p → p.kdf ≠ [1, 2, 840, 113549, 1, 5, 12] ∧ p.ctx ≠ some [] ∧
    ∀ ho, HasHash env p.kdfPar ho → env.special ho = none

theorem kemMac_iff (env : Env S K C) (par : Par) (ss tx data v : Bytes) (hu : KemUsual env par)
    (hne : ∀ n x, env.H n x ≠ []) : kemMac env par ss tx data = .ok v ↔ KemMacOf env par ss tx data v := by
  have hctx : ∀ c : Option Bytes, c ≠ some [] → haveSecret c = c := by
    intro c hc
    cases c with
    | none => rfl
    | some b =>
      cases b with
      | nil => exact absurd rfl hc
      | cons x l => rfl
  unfold kemMac
  constructor
  · intro h
    cases hg : getKem env par with
    | error e => rw [hg] at h; cases h
    | ok p =>
      rw [hg] at h
      dsimp only at h
      have hk := (getKem_iff _ _ _).1 hg
      obtain ⟨u1, u2, u3⟩ := hu p hk
      rw [hctx _ u2] at h
      cases hd : kdfOf env p.kdf p.kdfPar ss (env.encInfo tx p.ctx) p.len with
      | error e => rw [hd] at h; cases h
      | ok key =>
        rw [hd] at h
        exact .mk hk ((kdfOf_iff env _ _ _ _ _ _ u1 u3 hne).1 hd) ((kemInner_iff _ _ _ _ _).1 h)
  · rintro ⟨hk, hd, hi⟩
    rename_i p key
    obtain ⟨u1, u2, u3⟩ := hu p hk
    rw [(getKem_iff _ _ _).2 hk]
    dsimp only
    rw [hctx _ u2, (kdfOf_iff env _ _ _ _ _ _ u1 u3 hne).2 hd]
    exact (kemInner_iff _ _ _ _ _).2 hi

/-! ## Verification -/

theorem kem_rows : isSymmetric kemMacOid = true ∧ kemMacOid ≠ dhOid := by decide +kernel

theorem verify_kem (env : Env S K C) (rnd : Bytes) (m : Msg C) (priv : Option S) (pw : Option Bytes) (pub : Option K)
    (ss : Option Bytes) (lw : Bool) (a : AlgId) (p : Bytes) (ha : m.hdr.alg = some a) (hp : m.prot = some p)
    (ho : a.oid = kemMacOid) : verifyProt env rnd m priv pw pub ss lw = verifyKem env m priv ss := by
  have hb : verifyBy env rnd m priv pw pub ss lw a p = verifyKem env m priv ss := by
    unfold verifyBy
    rw [if_pos ho]
  unfold verifyProt
  rw [hp, ha]
  dsimp only
  rw [hb]
  cases lw with
  | false => rfl
  | true =>
    rw [if_pos rfl]
    have : lwType env a.oid = .ok .kem := by
      unfold lwType protType
      rw [if_pos ho]
    rw [this]

/-- Is `v` the expected value? -/
theorem kemValue_ok (env : Env S K C) (m : Msg C) (ss v : Bytes) (a : AlgId) (ha : m.hdr.alg = some a) :
    kemValue env m ss = .ok v ↔ ∃ data tx, protectedPart env.toMacEnv m = .ok data ∧ m.hdr.txId = some tx ∧
      kemMac env a.par ss tx data = .ok v := by
  unfold kemValue
  cases hd : protectedPart env.toMacEnv m with
  | error e => simp
  | ok d =>
    dsimp only
    cases ht : m.hdr.txId with
    | none => simp
    | some tx =>
      dsimp only
      rw [ha]
      simp

theorem verifyKem_ok (env : Env S K C) (m : Msg C) (priv : Option S) (ss : Option Bytes) (p : Bytes)
    (hp : m.prot = some p) : verifyKem env m priv ss = .ok () ↔
      ∃ b, kemSecret env m priv ss = .ok b ∧ kemValue env m b = .ok p := by
  unfold verifyKem
  cases hs : kemSecret env m priv ss with
  | error e => simp
  | ok b =>
    dsimp only
    cases hv : kemValue env m b with
    | error e =>
      simp only [Except.ok.injEq, exists_eq_left']
      rw [hv]
      simp
    | ok v =>
      dsimp only
      rw [hp]
      by_cases h : some p = some v
      · rw [if_pos h]
        cases h
        exact ⟨fun _ => ⟨b, rfl, hv⟩, fun _ => rfl⟩
      · rw [if_neg h]
        constructor
        · intro c; cases c
        · rintro ⟨b', e1, e2⟩
          cases e1
          rw [hv] at e2
          cases e2
          exact absurd rfl h

/-- C144: with a shared secret, a message with a KEM-based MAC is accepted if and only if it has a transaction id and its
protection is the MAC, by the specification, of its encoded header and body. -/
theorem C144_secret_iff (env : Env S K C) (rnd : Bytes) (m : Msg C) (pw : Option Bytes) (pub : Option K) (ss : Bytes)
    (lw : Bool) (a : AlgId) (p : Bytes) (ha : m.hdr.alg = some a) (hp : m.prot = some p)
    (ho : a.oid = [1, 2, 840, 113533, 7, 66, 16]) (hu : KemUsual env a.par) (hne : ∀ n x, env.H n x ≠ []) :
    verifyProt env rnd m none pw pub (some ss) lw = .ok () ↔
      ∃ data tx, protectedPart env.toMacEnv m = .ok data ∧ m.hdr.txId = some tx ∧
        KemMacOf env a.par ss tx data p := by
  rw [verify_kem env rnd m none pw pub (some ss) lw a p ha hp ho, verifyKem_ok env m none (some ss) p hp]
  constructor
  · rintro ⟨b, e1, e2⟩
    cases e1
    obtain ⟨data, tx, h1, h2, h3⟩ := (kemValue_ok env m ss p a ha).1 e2
    exact ⟨data, tx, h1, h2, (kemMac_iff env _ _ _ _ _ hu hne).1 h3⟩
  · rintro ⟨data, tx, h1, h2, h3⟩
    exact ⟨ss, rfl, (kemValue_ok env m ss p a ha).2 ⟨data, tx, h1, h2, (kemMac_iff env _ _ _ _ _ hu hne).2 h3⟩⟩

theorem findCt_iff : ∀ (l : List (Oid × InfoVal)) (v : InfoVal), findCt l = some v ↔
    ∃ pre post, l = pre ++ (kemInfoOid, v) :: post ∧ ∀ x ∈ pre, x.1 ≠ kemInfoOid
  | [], v => by simp [findCt]
  | (o, w) :: l, v => by
    unfold findCt
    by_cases ho : o = kemInfoOid
    · rw [if_pos ho]
      subst ho
      constructor
      · intro h
        cases h
        exact ⟨[], l, rfl, by simp⟩
      · rintro ⟨pre, post, e, hn⟩
        cases pre with
        | nil => cases e; rfl
        | cons x pre =>
          cases e
          exact absurd rfl (hn _ List.mem_cons_self)
    · rw [if_neg ho, findCt_iff l v]
      constructor
      · rintro ⟨pre, post, rfl, hn⟩
        refine ⟨(o, w) :: pre, post, rfl, ?_⟩
        intro x hx
        rcases List.mem_cons.1 hx with rfl | hx
        · exact ho
        · exact hn x hx
      · rintro ⟨pre, post, e, hn⟩
        cases pre with
        | nil => cases e; exact absurd rfl ho
        | cons x pre =>
          cases e
          exact ⟨pre, post, rfl, fun y hy => hn y (List.mem_cons_of_mem _ hy)⟩

/-- C144: with a private key, the shared secret is that of the first ciphertext in the header, which has to be for the
algorithm of the key; RSA keys use RSA-KEM. -/
theorem C144_key_iff (env : Env S K C) (rnd : Bytes) (m : Msg C) (pw : Option Bytes) (pub : Option K) (s : S)
    (lw : Bool) (a : AlgId) (p : Bytes) (ha : m.hdr.alg = some a) (hp : m.prot = some p)
    (ho : a.oid = [1, 2, 840, 113533, 7, 66, 16]) (hu : KemUsual env a.par) (hne : ∀ n x, env.H n x ≠ []) :
    verifyProt env rnd m (some s) pw pub none lw = .ok () ↔
      ∃ data tx ss b ct pre post, protectedPart env.toMacEnv m = .ok data ∧ m.hdr.txId = some tx ∧
        env.isKemKey s = true ∧
        m.hdr.info = pre ++ ([1, 3, 6, 1, 5, 5, 7, 4, 9999], .raw b) :: post ∧
        (∀ x ∈ pre, x.1 ≠ [1, 3, 6, 1, 5, 5, 7, 4, 9999]) ∧ env.decCt b = some ((env.kemOid s, some ct), []) ∧
        env.decaps s (if env.isRsaKem s then .rsaKem else .plain) ct = .ok ss ∧ KemMacOf env a.par ss tx data p := by
  have hsec : ∀ ss, kemSecret env m (some s) none = .ok ss ↔ env.isKemKey s = true ∧ ∃ b ct pre post,
      m.hdr.info = pre ++ (kemInfoOid, .raw b) :: post ∧ (∀ x ∈ pre, x.1 ≠ kemInfoOid) ∧
      env.decCt b = some ((env.kemOid s, some ct), []) ∧
      env.decaps s (if env.isRsaKem s then .rsaKem else .plain) ct = .ok ss := by
    intro ss
    unfold kemSecret
    dsimp only
    by_cases hk : env.isKemKey s = true
    · rw [if_pos hk]
      unfold secretIn
      constructor
      · intro h
        cases hf : findCt m.hdr.info with
        | none => rw [hf] at h; cases h
        | some v =>
          rw [hf] at h
          dsimp only at h
          obtain ⟨pre, post, e1, e2⟩ := (findCt_iff _ _).1 hf
          cases v with
          | kemCt o c => cases h
          | raw b =>
            unfold getCt at h
            dsimp only at h
            cases hd : env.decCt b with
            | none => rw [hd] at h; cases h
            | some x =>
              obtain ⟨⟨o, ct⟩, r⟩ := x
              rw [hd] at h
              dsimp only at h
              by_cases hr : r = []
              · subst hr
                simp only [ne_eq, not_true_eq_false, if_false] at h
                by_cases hoo : o = env.kemOid s
                · rw [if_neg (by simp [hoo])] at h
                  subst hoo
                  cases ct with
                  | none => cases h
                  | some c => exact ⟨hk, b, c, pre, post, e1, e2, hd, h⟩
                · rw [if_pos hoo] at h; cases h
              · rw [if_pos hr] at h; cases h
      · rintro ⟨_, b, ct, pre, post, e1, e2, e3, e4⟩
        rw [(findCt_iff _ _).2 ⟨pre, post, e1, e2⟩]
        unfold getCt
        simp only [e3, ne_eq, not_true_eq_false, if_false]
        exact e4
    · rw [if_neg hk]
      constructor
      · intro h; cases h
      · rintro ⟨h, _⟩; exact absurd h hk
  rw [verify_kem env rnd m (some s) pw pub none lw a p ha hp ho, verifyKem_ok env m (some s) none p hp]
  constructor
  · rintro ⟨b, e1, e2⟩
    obtain ⟨data, tx, h1, h2, h3⟩ := (kemValue_ok env m b p a ha).1 e2
    obtain ⟨k1, b', ct, pre, post, k2, k3, k4, k5⟩ := (hsec b).1 e1
    exact ⟨data, tx, b, b', ct, pre, post, h1, h2, k1, k2, k3, k4, k5, (kemMac_iff env _ _ _ _ _ hu hne).1 h3⟩
  · rintro ⟨data, tx, ss, b, ct, pre, post, h1, h2, k1, k2, k3, k4, k5, h3⟩
    exact ⟨ss, (hsec ss).2 ⟨k1, b, ct, pre, post, k2, k3, k4, k5⟩,
      (kemValue_ok env m ss p a ha).2 ⟨data, tx, h1, h2, (kemMac_iff env _ _ _ _ _ hu hne).2 h3⟩⟩

/-! ## Round trip -/

/-- The codec gives back the parameters; the hash function inside becomes bytes. -/
def KemOk (env : Env S K C) (p : KemBm) : Prop :=
  ∃ kp, env.decKem (env.encKem p) = some ({ p with kdfPar := kp }, []) ∧
    match p.kdfPar with
    | .hash o => ∃ b, kp = .raw b ∧ env.decAlg b = some (o, [])
    | _ => True

theorem kdfOf_sent (env : Env S K C) (o : Oid) (par kp : KdfPar) (ss info : Bytes) (len : Int) (key : Bytes)
    (hp : o ≠ pbkdf2Oid) (hk : match par with
      | .hash o => ∃ b, kp = .raw b ∧ env.decAlg b = some (o, [])
      | _ => True)
    (hsh : (∃ ho, par = .hash ho) ∨ (look hkdfNames o).isSome = true)
    (h : kdfOf env o par ss info len = .ok key) : kdfOf env o kp ss info len = .ok key := by
  unfold kdfOf at h ⊢
  cases hl : look hkdfNames o with
  | some n =>
    rw [hl] at h
    exact h
  | none =>
    rw [hl] at h hsh
    dsimp only at h ⊢
    rcases hsh with ⟨ho, rfl⟩ | c
    · obtain ⟨b, rfl, hb⟩ := hk
      by_cases hkk : o = kdf2Oid ∨ o = kdf3Oid
      · rw [if_pos hkk] at h ⊢
        have e1 : getKdfHash env (.raw b) = .ok ho := by
          unfold getKdfHash
          dsimp only
          rw [hb]
        rw [e1]
        exact h
      · rw [if_neg hkk, if_neg hp] at h
        cases h
    · cases c

theorem prepKem_shape (rnd : Bytes) (kdf h : String) (ctx : Option Bytes) (a : AlgId) (hk : kdf ≠ "pbkdf2")
    (ha : prepKem rnd kdf h ctx = .ok a) : a.oid = kemMacOid ∧ ∃ p, a.par = .kem p ∧ p.ctx = ctx ∧ p.len = 32 ∧
      p.kdf ≠ pbkdf2Oid ∧ ((∃ ho, p.kdfPar = .hash ho) ∨ (look hkdfNames p.kdf).isSome = true) := by
  unfold prepKem at ha
  cases hp : prepKdf rnd kdf h with
  | error e => rw [hp] at ha; cases ha
  | ok x =>
    obtain ⟨ko, kp⟩ := x
    rw [hp] at ha
    dsimp only at ha
    obtain ⟨o, _, rfl⟩ := map_ok ha
    refine ⟨rfl, _, rfl, rfl, rfl, ?_⟩
    unfold prepKdf at hp
    rw [if_neg hk] at hp
    by_cases hh : kdf = "hkdf"
    · rw [if_pos hh] at hp
      cases hl : lookOid hkdfNames ("hkdf-" ++ h) with
      | none => rw [hl] at hp; cases hp
      | some o' =>
        rw [hl] at hp
        cases hp
        have hm := lookOid_mem _ _ _ hl
        have : ∀ x ∈ hkdfNames, x.1 ≠ pbkdf2Oid ∧ (look hkdfNames x.1).isSome = true := by decide +kernel
        exact ⟨(this _ hm).1, Or.inr (this _ hm).2⟩
    · rw [if_neg hh] at hp
      split at hp
      · obtain ⟨o', _, e⟩ := map_ok hp
        cases e
        refine ⟨?_, Or.inl ⟨_, rfl⟩⟩
        dsimp only
        split
        · exact kdf_oids.2.2.2.2.1.symm
        · exact kdf_oids.2.2.2.2.2.symm
      · cases hp

theorem kemMac_sent (env : Env S K C) (p : KemBm) (ss tx data v : Bytes) (hk : p.kdf ≠ pbkdf2Oid)
    (hsh : (∃ ho, p.kdfPar = .hash ho) ∨ (look hkdfNames p.kdf).isSome = true) (hc : KemOk env p)
    (h : kemMac env (.kem p) ss tx data = .ok v) : kemMac env (.raw (env.encKem p)) ss tx data = .ok v := by
  obtain ⟨kp, h1, h2⟩ := hc
  unfold kemMac at h ⊢
  have e1 : getKem env (.raw (env.encKem p)) = .ok { p with kdfPar := kp } := by
    unfold getKem
    dsimp only
    rw [h1]
    simp
  have e2 : getKem env (.kem p) = .ok p := rfl
  rw [e1]
  rw [e2] at h
  dsimp only at h ⊢
  cases hd : kdfOf env p.kdf p.kdfPar ss (env.encInfo tx (haveSecret p.ctx)) p.len with
  | error e => rw [hd] at h; cases h
  | ok key =>
    rw [hd] at h
    rw [kdfOf_sent env p.kdf p.kdfPar kp ss _ p.len key hk h2 hsh hd]
    exact h

theorem protectKem_shape (env : Env S K C) (m m' : Msg C) (src : KemSrc S K C) (rnd : Bytes) (kdf h : String)
    (ctx : Option Bytes) (bad : Bool) (hk : kdf ≠ "pbkdf2") (hp : protectKem env m src rnd kdf h ctx bad = .ok m') :
    ∃ ss m1 a p v v', kemSource env m src = .ok (ss, m1) ∧ m'.hdr = { m1.hdr with alg := some a } ∧
      m'.body = m1.body ∧ a.oid = kemMacOid ∧ a.par = .kem p ∧ p.ctx = ctx ∧ p.len = 32 ∧ p.kdf ≠ pbkdf2Oid ∧
      ((∃ ho, p.kdfPar = .hash ho) ∨ (look hkdfNames p.kdf).isSome = true) ∧ kemValue env m' ss = .ok v ∧
      manipIf bad v = .ok v' ∧ m'.prot = some v' := by
  unfold protectKem at hp
  cases hs : kemSource env m src with
  | error e => rw [hs] at hp; cases hp
  | ok x =>
    obtain ⟨ss, m1⟩ := x
    rw [hs] at hp
    dsimp only at hp
    cases ha : prepKem rnd kdf h ctx with
    | error e => rw [ha] at hp; cases hp
    | ok a =>
      rw [ha] at hp
      dsimp only at hp
      obtain ⟨o1, p, o2, o3, o4, o5, o6⟩ := prepKem_shape rnd kdf h ctx a hk ha
      cases hv : kemValue env { m1 with hdr := { m1.hdr with alg := some a } } ss with
      | error e => rw [hv] at hp; cases hp
      | ok v =>
        rw [hv] at hp
        dsimp only at hp
        obtain ⟨v', h1, rfl⟩ := map_ok hp
        exact ⟨ss, m1, a, p, v, v', rfl, rfl, rfl, o1, o2, o3, o4, o5, o6, hv, h1, rfl⟩

/-- The value of the message after transport. -/
theorem kemValue_sent (env : Env S K C) (m' : Msg C) (a : AlgId) (p : KemBm) (ss v : Bytes)
    (ha : m'.hdr.alg = some a) (hap : a.par = .kem p) (hk : p.kdf ≠ pbkdf2Oid)
    (hsh : (∃ ho, p.kdfPar = .hash ho) ∨ (look hkdfNames p.kdf).isSome = true) (hc : KemOk env p)
    (hv : kemValue env m' ss = .ok v) : kemValue env (transport env.toMacEnv m') ss = .ok v := by
  obtain ⟨data, tx, h1, h2, h3⟩ := (kemValue_ok env m' ss v a ha).1 hv
  refine (kemValue_ok env _ ss v _ (transport_alg env.toMacEnv m' a ha)).2 ⟨data, tx, by rw [transport_part]; exact h1, h2, ?_⟩
  have : (sentAlg env.toMacEnv a).par = .raw (env.encKem p) := by
    unfold sentAlg sentPar
    rw [hap]
    rfl
  rw [this]
  rw [hap] at h3
  exact kemMac_sent env p ss tx data v hk hsh hc h3

/-- C144: a message protected with a KEM-based MAC, with HKDF, KDF2 or KDF3, verifies after transport with its shared
secret; with `bad_message_check` it fails. -/
theorem C144_roundtrip (env : Env S K C) (m m' : Msg C) (src : KemSrc S K C) (rnd : Bytes) (kdf h : String)
    (ctx : Option Bytes) (bad : Bool) (hk : kdf ≠ "pbkdf2") (hp : protectKem env m src rnd kdf h ctx bad = .ok m')
    (rnd' : Bytes) (pw : Option Bytes) (pub : Option K) (lw : Bool) :
    ∃ ss m1 p, kemSource env m src = .ok (ss, m1) ∧ m'.hdr.alg = some ⟨kemMacOid, .kem p⟩ ∧ (KemOk env p →
      verifyProt env rnd' (transport env.toMacEnv m') none pw pub (some ss) lw =
        if bad then .error .badMessageCheck else .ok ()) := by
  obtain ⟨ss, m1, a, p, v, v', e1, e2, e3, e4, e5, e6, e7, e8, e9, e10, e11, e12⟩ :=
    protectKem_shape env m m' src rnd kdf h ctx bad hk hp
  have ha : m'.hdr.alg = some a := by rw [e2]
  have ha' : a = ⟨kemMacOid, .kem p⟩ := by
    obtain ⟨o, q⟩ := a
    dsimp only at e4 e5
    rw [e4, e5]
  refine ⟨ss, m1, p, e1, ha' ▸ ha, fun hc => ?_⟩
  have hv := kemValue_sent env m' a p ss v ha e5 e8 e9 hc e10
  rw [verify_kem env rnd' _ none pw pub (some ss) lw (sentAlg env.toMacEnv a) v' (transport_alg _ m' a ha) e12 e4]
  unfold verifyKem
  rw [show kemSecret env (transport env.toMacEnv m') none (some ss) = .ok ss from rfl]
  dsimp only
  rw [hv]
  dsimp only
  rw [show (transport env.toMacEnv m').prot = some v' from e12]
  cases bad with
  | false =>
    cases e11
    rw [if_pos rfl, if_neg (by simp)]
  | true =>
    rw [if_neg (fun c => manip_ne _ _ e11 (Option.some.inj c)), if_pos rfl]

/-- C144: a message protected for the certificate of a peer verifies after transport with the private key of the peer, if
that is not an RSA key and the header had no such ciphertext before. -/
theorem C144_peer_partial (env : Env S K C) (m m' : Msg C) (c : C) (r : Bytes) (rnd : Bytes) (kdf h : String)
    (ctx : Option Bytes) (k : K) (s : S) (hk : kdf ≠ "pbkdf2")
    (hp : protectKem env m (.peer c r) rnd kdf h ctx false = .ok m') (hc : env.keyOf c = .ok k)
    (hrp : env.isRsaKemPub k = false) (hrs : env.isRsaKem s = false) (hks : env.isKemKey s = true)
    (hoid : env.kemOid s = env.kemOidPub k)
    (hpair : ∀ ss ct, env.encaps k .plain r = .ok (ss, ct) → env.decaps s .plain ct = .ok ss ∧
      env.decCt (env.encCt (env.kemOidPub k) (some ct)) = some ((env.kemOidPub k, some ct), []))
    (hfree : ∀ x ∈ m.hdr.info, x.1 ≠ [1, 3, 6, 1, 5, 5, 7, 4, 9999])
    (rnd' : Bytes) (pw : Option Bytes) (pub : Option K) (lw : Bool) :
    ∃ p, m'.hdr.alg = some ⟨kemMacOid, .kem p⟩ ∧ (KemOk env p →
      verifyProt env rnd' (transport env.toMacEnv m') (some s) pw pub none lw = .ok ()) := by
  obtain ⟨ss, m1, a, p, v, v', e1, e2, e3, e4, e5, e6, e7, e8, e9, e10, e11, e12⟩ :=
    protectKem_shape env m m' (.peer c r) rnd kdf h ctx false hk hp
  have ha : m'.hdr.alg = some a := by rw [e2]
  have ha' : a = ⟨kemMacOid, .kem p⟩ := by
    obtain ⟨o, q⟩ := a
    dsimp only at e4 e5
    rw [e4, e5]
  refine ⟨p, ha' ▸ ha, fun hcod => ?_⟩
  have hv := kemValue_sent env m' a p ss v ha e5 e8 e9 hcod e10
  cases e11
  have hs : ∃ ct, env.encaps k .plain r = .ok (ss, ct) ∧
      m1.hdr.info = m.hdr.info ++ [(kemInfoOid, .kemCt (env.kemOidPub k) (some ct))] := by
    unfold kemSource encapsTo at e1
    dsimp only at e1
    rw [hc] at e1
    dsimp only at e1
    split at e1
    · rw [hrp] at e1
      simp only [Bool.false_eq_true, if_false] at e1
      cases he : env.encaps k .plain r with
      | error e => rw [he] at e1; cases e1
      | ok x =>
        obtain ⟨x1, x2⟩ := x
        rw [he] at e1
        cases e1
        exact ⟨x2, rfl, rfl⟩
    · cases e1
  obtain ⟨ct, he, hinfo⟩ := hs
  obtain ⟨q1, q2⟩ := hpair ss ct he
  rw [verify_kem env rnd' _ (some s) pw pub none lw (sentAlg env.toMacEnv a) v (transport_alg _ m' a ha) e12 e4,
    verifyKem_ok env (transport env.toMacEnv m') (some s) none v e12]
  refine ⟨ss, ?_, hv⟩
  unfold kemSecret
  dsimp only
  rw [if_pos hks]
  unfold secretIn
  have hf : findCt (transport env.toMacEnv m').hdr.info = some (.raw (env.encCt (env.kemOidPub k) (some ct))) := by
    refine (findCt_iff _ _).2 ⟨m.hdr.info.map (fun x => (x.1, .raw (infoDer env.toMacEnv x.2))), [], ?_, ?_⟩
    · show m'.hdr.info.map _ = _
      rw [e2]
      dsimp only
      rw [hinfo, List.map_append]
      rfl
    · intro x hx
      obtain ⟨y, hy, rfl⟩ := List.mem_map.1 hx
      exact hfree y hy
  rw [hf]
  dsimp only
  unfold getCt
  dsimp only
  rw [q2]
  dsimp only
  rw [if_neg (by simp)]
  dsimp only
  rw [if_neg (by simp [hoid])]
  unfold decapsCms
  rw [hrs]
  exact q1

end Verif.Prot
