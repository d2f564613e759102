import Verif.PQ.HybridLoadNames

/-!
# Properties of stored Composite KEM keys (C107)
-/

namespace Verif.PQ.Hyb

open Verif.CA (Bytes PyErr)
open Verif.PQ.Dsa (Out)
open Verif.PQ.Mech

/-! ## What is assumed of the components -/

/-- Reading a key gives a key of the algorithm that was asked for, and a curve key lies on the curve that was asked for. -/
structure LoadLaws {K : PqKem} (E : Env) (KL : KeyLib E) (PL : PqLoad K) : Prop where
  pubNamed : ∀ n b p, PL.fromPublic n b = .ok p → K.name p = n
  privNamed : ∀ n b k, PL.fromPrivate n b = .value k → K.name (K.pub k) = n
  decCurve : ∀ c b p, E.L.decode c b = .ok p → E.L.pubCurve p = c
  rawCurve : ∀ c b k, KL.loadRaw c b = .ok k → E.L.privCurve k = c

/-- Reading back what `cryptography` wrote. -/
structure KeyLaws (E : Env) (KL : KeyLib E) : Prop where
  pub : ∀ k, KL.derPub (E.pkcs1 k) = .ok (some k)
  raw : ∀ k, (∀ n, E.L.privCurve k ≠ .ec n) → KL.loadRaw (E.L.privCurve k) (KL.rawPriv k) = .ok k
  sec1Rest : ∀ k, KL.restSec1 (KL.sec1 k) = .ok []
  sec1 : ∀ k n, E.L.privCurve k = .ec n → KL.derPriv (KL.sec1 k) = .ok (.ec k)
  pkcs1Rest : ∀ k, KL.restPkcs1 (KL.pkcs1 k) = .ok []
  pkcs1 : ∀ k, KL.derPriv (KL.pkcs1 k) = .ok (.rsa k)

/-- The post-quantum public key can be read back from its bytes. -/
def PubStored {K : PqKem} (PL : PqLoad K) (p : K.Pub) : Prop :=
  (K.raw p).length = PL.keySize (K.name p) ∧ PL.fromPublic (K.name p) (K.raw p) = .ok p

/-- The post-quantum private key can be read back from its seed. -/
def PrivStored {K : PqKem} (PL : PqLoad K) (k : K.Priv) (seed : Bytes) : Prop :=
  PL.numbers k = .ok seed ∧ seed.length = PL.seedSize (K.name (K.pub k)) ∧ PL.fromPrivate (K.name (K.pub k)) seed = .value k

/-! ## C107: public keys -/

/-- The same key, with the KEM construction of its class: plain ECDH for "composite-kem", RFC 9180 for "composite-dhkem". -/
def normalTrad {L : Lib} (kind : Kind) : TradPub L → TradPub L
  | .dh _ k => .dh (kind == .dhkem) k
  | t => t

theorem pubOid_spec {K : PqKem} {L : Lib} (k : CompPub K L) :
    pubOid k = nameOid (compName k.kind (K.name k.pq) (specName (specOf k.trad))) := by
  unfold pubOid; rw [tradName_spec]

/-- C107. A public key written with its identifier is read back as the same key, with the construction of its class. -/
theorem C107_public (K : PqKem) (E : Env) (hL : Laws E.L) (KL : KeyLib E) (hK : KeyLaws E KL) (PL : PqLoad K) (k : CompPub K E.L)
    (hn : K.name k.pq ∈ pqNames) (hp : PubStored PL k.pq) (oid : List Nat) (ho : pubOid k = .ok oid) :
    loadPub E KL PL oid (compExport E k) = .ok ⟨k.kind, k.pq, normalTrad k.kind k.trad⟩ := by
  rw [pubOid_spec] at ho
  obtain ⟨trad, he⟩ := entry_of_name hn ho
  obtain ⟨h1, h2, _, _, h5, _, h7, h8, _⟩ := he
  unfold loadPub
  rw [h8]
  dsimp only
  rw [h1]
  dsimp only
  have ht : (compExport E k).take (PL.keySize (K.name k.pq)) = K.raw k.pq := by
    unfold compExport; rw [← hp.1, List.take_left]
  have hd : (compExport E k).drop (PL.keySize (K.name k.pq)) = tradEncode E k.trad := by
    unfold compExport; rw [← hp.1, List.drop_left]
  rw [ht, hp.2, hd]
  dsimp only
  obtain ⟨kind, pq, t⟩ := k
  have hkind : (if pyIn "dhkem" (compName kind (K.name pq) (specName (specOf t))) = true then Kind.dhkem else Kind.kem) = kind := by
    cases kind
    · exact if_neg (fun x => by cases h5.1 x)
    · exact if_pos (h5.2 rfl)
  rw [hkind]
  cases t with
  | dh rfc p =>
    have hl : loadTradPub E KL trad (tradEncode E (.dh rfc p)) = .ok (.ecdh p) := by
      unfold loadTradPub
      rw [h2]
      change (E.L.decode (E.L.pubCurve p) (E.L.encode p)).map _ = _
      rw [hL.dec]; rfl
    dsimp only at hl ⊢
    rw [hl]
    cases kind <;> rfl
  | rsa p =>
    have hl : loadTradPub E KL trad (tradEncode E (.rsa p)) = .ok (.kem (.rsa p)) := by
      unfold loadTradPub
      rw [h2]
      change (match KL.derPub (E.pkcs1 p) with | .error e => _ | .ok none => _ | .ok (some k) => _) = _
      rw [hK.pub]
      exact if_neg (fun x => x rfl)
    dsimp only at hl ⊢
    rw [hl]
    cases kind
    · rfl
    · exact absurd rfl (h7 rfl _)

/-- C107. Whatever bytes a public key is read from, it is a key of the algorithm that the identifier names. -/
theorem C107_public_oid (K : PqKem) (E : Env) (KL : KeyLib E) (PL : PqLoad K) (hl : LoadLaws E KL PL) (oid : List Nat) (data : Bytes)
    (k : CompPub K E.L) (h : loadPub E KL PL oid data = .ok k) : pubOid k = .ok oid := by
  unfold loadPub at h
  split at h
  · cases h
  · rename_i name hname
    obtain ⟨kind, pq, trad, spec, he⟩ := entry_of_oid hname
    have hno := nameOid_of_entry he
    obtain ⟨h1, h2, _, _, h5, _, h7, _⟩ := he
    rw [h1] at h
    dsimp only at h
    split at h
    · cases h
    · rename_i p hp
      split at h
      · cases h
      · rename_i a ha
        have hkind : (if pyIn "dhkem" name = true then Kind.dhkem else Kind.kem) = kind := by
          cases kind
          · exact if_neg (fun x => by cases h5.1 x)
          · exact if_pos (h5.2 rfl)
        rw [hkind] at h
        rw [pubOid_spec]
        have hpn := hl.pubNamed _ _ _ hp
        unfold loadTradPub at ha
        rw [h2] at ha
        cases spec with
        | curve c =>
          dsimp only at ha
          generalize hdec : E.L.decode c (data.drop (PL.keySize pq)) = r at ha
          match r with
          | .error _ => cases ha
          | .ok q =>
            cases ha
            have hq := hl.decCurve _ _ _ hdec
            cases kind <;> cases h <;> (dsimp only [specOf]; rw [hpn, hq]; exact hno)
        | rsa num =>
          dsimp only at ha
          split at ha
          · cases ha
          · cases ha
          · rename_i q hq
            split at ha
            · cases ha
            · rename_i hsz
              cases ha
              have hsz : bitLength q.n = num := Decidable.not_not.1 hsz
              cases kind
              · cases h
                dsimp only [specOf]; rw [hpn, hsz]; exact hno
              · exact absurd rfl (h7 rfl num)

/-- The arguments for which the two classes keep their construction: ECDH and RSA keys, and KEM keys of the right kind. -/
def Matching {L : Lib} (kind : Kind) : ArgPriv L → Prop
  | .kem (.dh rfc _) => kind = .dhkem ∨ rfc = false
  | _ => True

theorem normal_public {K : PqKem} {L : Lib} {kind : Kind} {pq : K.Priv} {a : ArgPriv L} {sk : CompPriv K L}
    (hk : newPriv kind pq a = some sk) (hm : Matching kind a) :
    (⟨(compPublic sk).kind, (compPublic sk).pq, normalTrad (compPublic sk).kind (compPublic sk).trad⟩ : CompPub K L) = compPublic sk := by
  unfold newPriv at hk
  split at hk <;> cases hk
  · rename_i t
    cases t with
    | dh rfc k =>
      have : rfc = false := hm.resolve_left (by decide)
      subst this; rfl
    | rsa k => rfl
  all_goals rfl

/-- C107. A certificate or SPKI carries what is needed: a secret encapsulated for the public key that was read back is recovered with the private
key, if the private key was made from an ECDH or RSA key. -/
theorem C107_interchangeable_partial (K : PqKem) (E : Env) (hL : Laws E.L) (hO : OaepLaw E) (KL : KeyLib E) (hK : KeyLaws E KL)
    (PL : PqLoad K) (kind : Kind) (pq : K.Priv) (a : ArgPriv E.L) (sk : CompPriv K E.L) (hk : newPriv kind pq a = some sk)
    (hm : Matching kind a) (hn : K.name (compPublic sk).pq ∈ pqNames) (hp : PubStored PL (compPublic sk).pq) (oid : List Nat)
    (ho : pubOid (compPublic sk) = .ok oid) :
    ∃ pk, loadPub E KL PL oid (compExport E (compPublic sk)) = .ok pk ∧
      ∀ priv cms r, PqAgrees K sk.pq r.pq → ∀ ss ct, compEncaps E pk priv cms r = .value (ss, ct) → compDecaps E sk ct cms = .value ss := by
  refine ⟨compPublic sk, ?_, fun priv cms r ha ss ct he => C71_agreement K E hL hO kind pq a sk hk priv cms r ha ss ct he⟩
  rw [C107_public K E hL KL hK PL _ hn hp oid ho, normal_public hk hm]

/-- The claim for every key the constructors accept. -/
def storedKeyUsable : Prop :=
  ∀ (K : PqKem) (E : Env), Laws E.L → OaepLaw E → ∀ (KL : KeyLib E), KeyLaws E KL → ∀ (PL : PqLoad K), LoadLaws E KL PL →
    ∀ kind pq a sk, newPriv (K := K) (L := E.L) kind pq a = some sk → K.name (compPublic sk).pq ∈ pqNames → PubStored PL (compPublic sk).pq →
    ∀ oid pk, pubOid (compPublic sk) = .ok oid → loadPub E KL PL oid (compExport E (compPublic sk)) = .ok pk →
    ∀ priv cms r, PqAgrees K sk.pq r.pq → ∀ ss ct, compEncaps E pk priv cms r = .value (ss, ct) → compDecaps E sk ct cms = .value ss

/-- Reading and writing for the toy components: a public key is its curve's number and value, keys have one byte. -/
def toyLoad (name : String) : PqLoad (toyPq name .mlkem) where
  keySize := fun _ => 1
  fromPublic := fun n b => if n = name ∧ b = [7] then .ok () else .error .invalidKeyData
  seedSize := fun _ => 1
  fromPrivate := fun n b => if n = name ∧ b = [7] then .value () else .raised .invalidKeyData
  numbers := fun _ => .ok [7]
  rawPriv := fun _ => [7, 7, 7]

/-- A number in unary. -/
def unary (n : Nat) : Bytes := List.replicate n 1

def readUnary : Bytes → Nat × Bytes
  | [] => (0, [])
  | b :: bs => if b = 1 then ((readUnary bs).1 + 1, (readUnary bs).2) else (0, b :: bs)

theorem readUnary_unary (n : Nat) (b : Bytes) : readUnary (unary n ++ 0 :: b) = (n, 0 :: b) := by
  induction n with
  | zero => exact if_neg (by decide)
  | succ n ih =>
    change (if (1 : UInt8) = 1 then ((readUnary (unary n ++ 0 :: b)).1 + 1, (readUnary (unary n ++ 0 :: b)).2) else _) = _
    rw [if_pos rfl, ih]

/-- An encoding of RSA keys: their numbers in unary, each followed by zero. -/
def rsaBytes : List Nat → Bytes
  | [] => []
  | n :: l => unary n ++ 0 :: rsaBytes l

def readRsa : Nat → Bytes → List Nat
  | 0, _ => []
  | fuel + 1, b => (readUnary b).1 :: readRsa fuel ((readUnary b).2.drop 1)

theorem readRsa_bytes : ∀ l : List Nat, readRsa l.length (rsaBytes l) = l
  | [] => rfl
  | n :: l => by
    have e : readRsa (n :: l).length (rsaBytes (n :: l)) =
      (readUnary (unary n ++ 0 :: rsaBytes l)).1 :: readRsa l.length ((readUnary (unary n ++ 0 :: rsaBytes l)).2.drop 1) := rfl
    rw [e, readUnary_unary]
    change n :: readRsa l.length (rsaBytes l) = _
    rw [readRsa_bytes l]

/-- X25519 with keys of one byte. -/
def oneLib : Lib where
  Priv := UInt8
  Pub := UInt8
  pub := id
  privCurve := fun _ => .x25519
  pubCurve := fun _ => .x25519
  exchange := fun a p => .ok [a * p]
  encode := fun p => [p]
  decode := fun c b => if c = .x25519 ∧ b.length = 1 then .ok (b.headD 0) else .error .valueError
  extract := fun _ s i => s ++ i
  expand := fun _ p i n => (p.drop 19 ++ i.reverse).take n

theorem oneLaws : Laws oneLib where
  curve := fun _ => rfl
  comm := fun a b _ => congrArg (fun x => Except.ok [x]) (UInt8.mul_comm a b)
  mismatch := fun _ _ h => absurd rfl h
  dec := fun _ => rfl

def loadEnv : Env where
  L := oneLib
  pkcs1 := fun k => rsaBytes [k.n, k.e]
  oaepEncrypt := fun _ _ m => .ok m
  oaepDecrypt := fun _ ct => .ok ct
  sha3 := fun x => 3 :: x
  hmac := fun h k x => UInt8.ofNat h.size :: (k ++ x)

def derPubToy (l : List Nat) : Except PyErr (Option RsaPub) :=
  match l with
  | [n, e] => .ok (some ⟨n, e⟩)
  | _ => .error .valueError

def derPrivToy (l : List Nat) : Except PyErr (DerPriv oneLib) :=
  match l with
  | [n, e, d] => .ok (.rsa ⟨n, e, d⟩)
  | _ => .error .valueError

/-- `cryptography` for these keys. -/
def toyKeyLib : KeyLib loadEnv where
  derPub := fun b => derPubToy (readRsa 2 b)
  rawPriv := fun k => [(k : UInt8)]
  loadRaw := fun c b => if c = .x25519 ∧ b.length = 1 then .ok ((b.headD 0 : UInt8)) else .error .valueError
  sec1 := fun _ => []
  pkcs1 := fun k => rsaBytes [k.n, k.e, k.d]
  restSec1 := fun _ => .ok []
  restPkcs1 := fun _ => .ok []
  derPriv := fun b => derPrivToy (readRsa 3 b)

theorem toyKeyLaws : KeyLaws loadEnv toyKeyLib where
  pub := fun k => by
    change derPubToy (readRsa [k.n, k.e].length (rsaBytes [k.n, k.e])) = _
    rw [readRsa_bytes]; rfl
  raw := fun _ _ => rfl
  sec1Rest := fun _ => rfl
  sec1 := fun _ _ h => by cases h
  pkcs1Rest := fun _ => rfl
  pkcs1 := fun k => by
    change derPrivToy (readRsa [k.n, k.e, k.d].length (rsaBytes [k.n, k.e, k.d])) = _
    rw [readRsa_bytes]; rfl

theorem toyLoadLaws (name : String) : LoadLaws loadEnv toyKeyLib (toyLoad name) where
  pubNamed := fun n b p h => by
    change (if n = name ∧ b = [7] then _ else _) = _ at h
    split at h
    · rename_i hc; exact hc.1.symm
    · cases h
  privNamed := fun n b p h => by
    change (if n = name ∧ b = [7] then _ else _) = _ at h
    split at h
    · rename_i hc; exact hc.1.symm
    · cases h
  decCurve := fun c b p h => by
    by_cases hc : c = .x25519 ∧ b.length = 1
    · exact hc.1.symm
    · have h' : (if c = .x25519 ∧ b.length = 1 then (Except.ok (b.headD 0) : Except PyErr UInt8) else .error .valueError) = .ok p := h
      rw [if_neg hc] at h'; cases h'
  rawCurve := fun c b p h => by
    by_cases hc : c = .x25519 ∧ b.length = 1
    · exact hc.1.symm
    · have h' : (if c = .x25519 ∧ b.length = 1 then (Except.ok (b.headD 0) : Except PyErr UInt8) else .error .valueError) = .ok p := h
      rw [if_neg hc] at h'; cases h'

theorem loadOaep : OaepLaw loadEnv := fun _ _ _ _ h => by cases h; rfl

/-- A private key made from a `DHKEMPrivateKey` with its default construction. -/
def rfcKey : CompPriv (toyPq "ml-kem-768" .mlkem) oneLib := ⟨.kem, (), .dh true (5 : UInt8)⟩

/-- C107 is false for a key made from a `DHKEMPrivateKey`, whose default is RFC 9180: the public key that is read back uses plain
ECDH, and the two sides get different secrets. -/
theorem C107_interchangeable_refuted : ¬ storedKeyUsable := by
  intro h
  have := h (toyPq "ml-kem-768" .mlkem) loadEnv oneLaws loadOaep toyKeyLib toyKeyLaws (toyLoad "ml-kem-768") (toyLoadLaws _)
    .kem () (.kem (.dh true (5 : UInt8))) rfcKey rfl (by decide) ⟨rfl, rfl⟩
    [2, 16, 840, 1, 114027, 80, 5, 2, 53] ⟨.kem, (), .dh false (5 : UInt8)⟩ (by decide +kernel)
    (C107_public (toyPq "ml-kem-768" .mlkem) loadEnv oneLaws toyKeyLib toyKeyLaws (toyLoad "ml-kem-768") (compPublic rfcKey) (by decide) ⟨rfl, rfl⟩ _
      (by decide +kernel))
    none true ⟨[8, 9], (3 : UInt8), [], []⟩ (toyPqAgrees _ _ 8 9)
    (3 :: [8, 9, 15, 3, 5] ++ derOid [2, 16, 840, 1, 114027, 80, 5, 2, 53]) [8, 9, 3] (by decide +kernel)
  revert this
  decide +kernel

/-! ## C107: private keys -/

def privSpec {L : Lib} : TradPriv L → TradSpec
  | .dh _ k => .curve (L.pubCurve (L.pub k))
  | .rsa k => .rsa (rsaSize (bitLength k.n))

theorem privOid_spec {K : PqKem} {L : Lib} (k : CompPriv K L) :
    privOid k = nameOid (compName k.kind (K.name (K.pub k.pq)) (specName (privSpec k.trad))) := by
  obtain ⟨kind, pq, t⟩ := k
  cases t <;> rfl

/-- The same key with the construction of its class. -/
def normalPriv {K : PqKem} {L : Lib} (k : CompPriv K L) : CompPriv K L :=
  match k.trad with
  | .dh _ p => ⟨k.kind, k.pq, .dh (k.kind == .dhkem) p⟩
  | .rsa p => ⟨k.kind, k.pq, .rsa p⟩

/-- The RSA key sizes of the tables. -/
def UsualSize {L : Lib} : TradPriv L → Prop
  | .rsa k => bitLength k.n = 2048 ∨ bitLength k.n = 3072 ∨ bitLength k.n = 4096
  | _ => True

def argOf {L : Lib} : TradPriv L → ArgPriv L
  | .dh _ k => .ecdh k
  | .rsa k => .rsa k

/-- The traditional part is read back under its name. -/
theorem trad_round (E : Env) (hL : Laws E.L) (KL : KeyLib E) (hK : KeyLaws E KL) (t : TradPriv E.L) (hu : UsualSize t) (trad : String)
    (hc : privCheck trad (privSpec t) = true) : loadTradPriv E KL trad (exportTrad E KL t) = .ok (argOf t) := by
  have key : loadTradPrivCore E KL trad (exportTrad E KL t) = .ok (argOf t) := by
    cases t with
    | dh rfc k =>
      have hcv := hL.curve k
      unfold privSpec at hc
      dsimp only at hc
      rw [hcv] at hc
      unfold exportTrad
      generalize hcc : E.L.privCurve k = c at hc
      have hraw := hK.raw k
      rw [hcc] at hraw
      dsimp only
      match c with
      | .ec n =>
        simp only [privCheck, Bool.and_eq_true] at hc
        obtain ⟨⟨h1, h2⟩, h3⟩ := hc
        unfold loadTradPrivCore
        rw [if_pos (Or.inr h1), hcc]
        unfold loadEc
        obtain ⟨c', hc'⟩ := Option.isSome_iff_exists.1 h2
        rw [hc']
        dsimp only
        rw [hK.sec1Rest, hK.sec1 k n hcc]
        dsimp only
        rw [hcc]
        exact if_neg (fun x => x (beq_iff_eq.1 h3))
      | .x25519 =>
        have : trad = "x25519" := beq_iff_eq.1 hc
        subst this
        unfold loadTradPrivCore
        rw [if_neg (by decide), if_pos rfl, hcc, hraw (fun n h => by cases h)]
        rfl
      | .x448 =>
        have : trad = "x448" := beq_iff_eq.1 hc
        subst this
        unfold loadTradPrivCore
        rw [if_neg (by decide), if_neg (by decide), if_pos rfl, hcc, hraw (fun n h => by cases h)]
        rfl
    | rsa k =>
      have hsz : rsaSize (bitLength k.n) = bitLength k.n := by
        rcases hu with h | h | h <;> rw [h] <;> rfl
      simp only [privSpec, privCheck, Bool.and_eq_true, Bool.not_eq_true', bne_iff_ne] at hc
      obtain ⟨⟨⟨⟨⟨h1, h2⟩, h3⟩, h4⟩, h5⟩, h6⟩ := hc
      unfold loadTradPrivCore
      rw [if_neg (by rw [h1, h2]; decide), if_neg h3, if_neg h4, if_pos h5]
      change loadRsa E KL (KL.pkcs1 k) trad = _
      unfold loadRsa
      rw [hK.pkcs1Rest, hK.pkcs1]
      dsimp only
      split at h6
      · rename_i m hm
        rw [hm]
        have : m = rsaSize (bitLength k.n) := beq_iff_eq.1 h6
        exact if_neg (fun x => x (by rw [this, hsz]))
      · cases h6
  unfold loadTradPriv
  rw [key]

/-- Wrapping gives the key with the construction of its class. -/
theorem wrap_round {K : PqKem} {L : Lib} (name : String) (sk : CompPriv K L)
    (hs : pyStarts name "composite-dhkem" = true ↔ sk.kind = .dhkem) (hr : sk.kind = .dhkem → ∀ n, privSpec sk.trad ≠ .rsa n) :
    wrapPriv name sk.pq (argOf sk.trad) = .ok (normalPriv sk) := by
  obtain ⟨kind, pq, t⟩ := sk
  cases kind with
  | kem =>
    have hn : ¬ pyStarts name "composite-dhkem" = true := fun x => by cases hs.1 x
    cases t <;> (unfold wrapPriv; dsimp only; rw [if_neg hn]; rfl)
  | dhkem =>
    have hp := hs.2 rfl
    cases t with
    | dh rfc k => unfold wrapPriv; dsimp only; rw [if_pos hp]; rfl
    | rsa k => exact absurd rfl (hr rfl _)

/-- C107. A private key saved with its seed is read back as the same key, with the construction of its class. -/
theorem C107_private (K : PqKem) (E : Env) (hL : Laws E.L) (KL : KeyLib E) (hK : KeyLaws E KL) (PL : PqLoad K) (sk : CompPriv K E.L)
    (seed : Bytes) (hn : K.name (K.pub sk.pq) ∈ pqNames) (hp : PrivStored PL sk.pq seed) (hu : UsualSize sk.trad) (oid : List Nat)
    (ho : privOid sk = .ok oid) :
    ∃ name data, kemOidToName oid = some name ∧ savePriv E KL PL .seed sk = .ok data ∧
      loadPriv E KL PL name data = .value (normalPriv sk) := by
  have ho' := ho
  rw [privOid_spec] at ho
  obtain ⟨trad, he⟩ := entry_of_name hn ho
  obtain ⟨h1, _, _, _, _, h6, h7, h8, _, h10⟩ := he
  refine ⟨_, seed ++ exportTrad E KL sk.trad, h8, ?_, ?_⟩
  · change (PL.numbers sk.pq).map _ = _
    rw [hp.1]; rfl
  · unfold loadPriv
    rw [h1]
    change bind (PL.fromPrivate _ ((seed ++ exportTrad E KL sk.trad).take (PL.seedSize (K.name (K.pub sk.pq))))) _ = _
    rw [← hp.2.1, List.take_left, hp.2.2]
    change bind (lift (loadTradPriv E KL trad ((seed ++ exportTrad E KL sk.trad).drop seed.length))) _ = _
    rw [List.drop_left, trad_round E hL KL hK sk.trad hu trad h10]
    change bind (lift (wrapPriv _ sk.pq (argOf sk.trad))) _ = _
    rw [wrap_round _ sk h6 h7]
    change bind (lift (privOid (normalPriv sk))) _ = _
    have : privOid (normalPriv sk) = privOid sk := by
      obtain ⟨kind, pq, t⟩ := sk
      cases t <;> rfl
    rw [this, ho']
    rfl

/-- A private key made from an ECDH or RSA key, or a KEM key of the right kind, keeps its construction. -/
theorem normal_priv {K : PqKem} {L : Lib} {kind : Kind} {pq : K.Priv} {a : ArgPriv L} {sk : CompPriv K L}
    (hk : newPriv kind pq a = some sk) (hm : Matching kind a) : normalPriv sk = sk := by
  unfold newPriv at hk
  split at hk <;> cases hk
  · rename_i t
    cases t with
    | dh rfc k =>
      have : rfc = false := hm.resolve_left (by decide)
      subst this; rfl
    | rsa k => rfl
  all_goals rfl

/-- C107. A private key whose RSA modulus has another length can be saved, but what was saved cannot be read. -/
theorem C107_rsa_unreadable (K : PqKem) (E : Env) (KL : KeyLib E) (hK : KeyLaws E KL) (PL : PqLoad K) (sk : CompPriv K E.L)
    (seed : Bytes) (hn : K.name (K.pub sk.pq) ∈ pqNames) (hp : PrivStored PL sk.pq seed) (hu : ¬ UsualSize sk.trad) (oid : List Nat)
    (ho : privOid sk = .ok oid) :
    ∃ name data, kemOidToName oid = some name ∧ savePriv E KL PL .seed sk = .ok data ∧
      loadPriv E KL PL name data = .raised .invalidKeyData := by
  rw [privOid_spec] at ho
  obtain ⟨trad, he⟩ := entry_of_name hn ho
  obtain ⟨h1, _, _, _, _, _, _, h8, _, h10⟩ := he
  refine ⟨_, seed ++ exportTrad E KL sk.trad, h8, ?_, ?_⟩
  · change (PL.numbers sk.pq).map _ = _
    rw [hp.1]; rfl
  · unfold loadPriv
    rw [h1]
    change bind (PL.fromPrivate _ ((seed ++ exportTrad E KL sk.trad).take (PL.seedSize (K.name (K.pub sk.pq))))) _ = _
    rw [← hp.2.1, List.take_left, hp.2.2]
    change bind (lift (loadTradPriv E KL trad ((seed ++ exportTrad E KL sk.trad).drop seed.length))) _ = _
    rw [List.drop_left]
    have : loadTradPriv E KL trad (exportTrad E KL sk.trad) = .error .invalidKeyData := by
      generalize sk.trad = t at hu h10
      cases t with
      | dh rfc k => exact absurd trivial hu
      | rsa k =>
        simp only [privSpec, privCheck, Bool.and_eq_true, Bool.not_eq_true', bne_iff_ne] at h10
        obtain ⟨⟨⟨⟨⟨g1, g2⟩, g3⟩, g4⟩, g5⟩, g6⟩ := h10
        have key : loadTradPrivCore E KL trad (exportTrad E KL (.rsa k)) = .error .invalidKeyData := by
          unfold loadTradPrivCore
          rw [if_neg (by rw [g1, g2]; decide), if_neg g3, if_neg g4, if_pos g5]
          change loadRsa E KL (KL.pkcs1 k) trad = _
          unfold loadRsa
          rw [hK.pkcs1Rest, hK.pkcs1]
          dsimp only
          split at g6
          · rename_i m hm
            rw [hm]
            have : m = rsaSize (bitLength k.n) := beq_iff_eq.1 g6
            refine if_pos (fun x => hu ?_)
            rw [this] at x
            have := rsaSize_cases (bitLength k.n)
            rw [x] at this
            exact this
          · cases g6
        unfold loadTradPriv
        rw [key]
        rfl
    rw [this]
    rfl

/-- The length of raw X25519 and X448 keys is checked. -/
structure RawLen (E : Env) (KL : KeyLib E) (len : Curve → Nat) : Prop where
  write : ∀ k, (KL.rawPriv k).length = len (E.L.privCurve k)
  read : ∀ c b k, KL.loadRaw c b = .ok k → b.length = len c
  pos : ∀ c, 0 < len c

theorem raw_unreadable (K : PqKem) (E : Env) (KL : KeyLib E) (len : Curve → Nat) (hr : RawLen E KL len) (PL : PqLoad K) (name pq trad : String)
    (data : Bytes) (c : Curve) (hc : ∀ n, c ≠ .ec n) (h1 : splitHybridName name = .ok (pq, trad)) (h10 : privCheck trad (.curve c) = true)
    (hd : (data.drop (PL.seedSize pq)).length ≠ len c) (k : CompPriv K E.L) : loadPriv E KL PL name data ≠ .value k := by
  intro h
  unfold loadPriv at h
  rw [h1] at h
  obtain ⟨_, hx, h⟩ := bind_value h
  cases hx
  obtain ⟨p, _, h⟩ := bind_value h
  obtain ⟨a, ha, _⟩ := bind_value h
  have ha := lift_value ha
  have hcore : loadTradPrivCore E KL trad (data.drop (PL.seedSize pq)) = .ok a := by
    unfold loadTradPriv at ha
    split at ha
    · cases ha
    · rename_i hh; cases ha; exact hh
  have key : ∃ q, KL.loadRaw c (data.drop (PL.seedSize pq)) = .ok q := by
    match c with
    | .ec n => exact absurd rfl (hc n)
    | .x25519 =>
      have : trad = "x25519" := beq_iff_eq.1 h10
      subst this
      unfold loadTradPrivCore at hcore
      rw [if_neg (by decide), if_pos rfl] at hcore
      generalize KL.loadRaw .x25519 (data.drop (PL.seedSize pq)) = r at hcore ⊢
      match r with
      | .error _ => cases hcore
      | .ok q => exact ⟨q, rfl⟩
    | .x448 =>
      have : trad = "x448" := beq_iff_eq.1 h10
      subst this
      unfold loadTradPrivCore at hcore
      rw [if_neg (by decide), if_neg (by decide), if_pos rfl] at hcore
      generalize KL.loadRaw .x448 (data.drop (PL.seedSize pq)) = r at hcore ⊢
      match r with
      | .error _ => cases hcore
      | .ok q => exact ⟨q, rfl⟩
  obtain ⟨q, hq⟩ := key
  exact hd (hr.read _ _ _ hq)

/-- C107. For the raw and the combined format nothing that is saved can be read: the loader always cuts off a seed. Here for X25519
and X448, and post-quantum keys whose expanded form is not as long as the seed. -/
theorem C107_formats_unreadable (K : PqKem) (E : Env) (hL : Laws E.L) (KL : KeyLib E) (len : Curve → Nat) (hr : RawLen E KL len) (PL : PqLoad K)
    (sk : CompPriv K E.L) (rfc : Bool) (tk : E.L.Priv) (ht : sk.trad = .dh rfc tk) (hc : ∀ n, E.L.privCurve tk ≠ .ec n)
    (seed : Bytes) (hn : K.name (K.pub sk.pq) ∈ pqNames) (hp : PrivStored PL sk.pq seed)
    (hlen : PL.seedSize (K.name (K.pub sk.pq)) < (PL.rawPriv sk.pq).length) (oid : List Nat) (ho : privOid sk = .ok oid) (t : Save) (htt : t ≠ .seed) :
    ∃ name data, kemOidToName oid = some name ∧ savePriv E KL PL t sk = .ok data ∧ ∀ k, loadPriv E KL PL name data ≠ .value k := by
  rw [privOid_spec] at ho
  obtain ⟨trad, he⟩ := entry_of_name hn ho
  obtain ⟨h1, _, _, _, _, _, _, h8, _, h10⟩ := he
  have hs : privSpec sk.trad = .curve (E.L.privCurve tk) := by
    rw [ht]; change TradSpec.curve _ = _; rw [hL.curve]
  have hx : exportTrad E KL sk.trad = KL.rawPriv tk := by
    rw [ht]; unfold exportTrad
    generalize hcc : E.L.privCurve tk = c at hc
    match c with
    | .ec n => exact absurd rfl (hc n)
    | .x25519 => dsimp only; rw [hcc]
    | .x448 => dsimp only; rw [hcc]
  rw [hs] at h10
  have hw := hr.write tk
  have hpos := hr.pos (E.L.privCurve tk)
  cases t with
  | seed => exact absurd rfl htt
  | raw =>
    refine ⟨_, PL.rawPriv sk.pq ++ exportTrad E KL sk.trad, h8, rfl, fun k => raw_unreadable K E KL len hr PL _ _ _ _ _ hc h1 h10 ?_ k⟩
    rw [hx, List.length_drop, List.length_append, hw]
    omega
  | both =>
    refine ⟨_, seed ++ (seed ++ exportTrad E KL sk.trad) ++ exportTrad E KL sk.trad, h8, ?_,
      fun k => raw_unreadable K E KL len hr PL _ _ _ _ _ hc h1 h10 ?_ k⟩
    · change (PL.numbers sk.pq).map _ = _
      rw [hp.1]; rfl
    · rw [hx, List.length_drop, List.length_append, List.length_append, List.length_append, hw, hp.2.1]
      omega

/-- The claim that a key that was saved can be read again, in each of the three formats. -/
def savedReadable : Prop :=
  ∀ (K : PqKem) (E : Env), Laws E.L → ∀ (KL : KeyLib E), KeyLaws E KL → ∀ (PL : PqLoad K), LoadLaws E KL PL →
    ∀ kind pq a sk, newPriv (K := K) (L := E.L) kind pq a = some sk → K.name (K.pub sk.pq) ∈ pqNames → ∀ seed, PrivStored PL sk.pq seed →
    ∀ oid name t data, privOid sk = .ok oid → kemOidToName oid = some name → savePriv E KL PL t sk = .ok data →
    ∃ k, loadPriv E KL PL name data = .value k

/-- C107 is false for the raw format. -/
theorem C107_saved_refuted : ¬ savedReadable := by
  intro h
  have hl : RawLen loadEnv toyKeyLib (fun _ => 1) := by
    refine ⟨fun _ => rfl, fun c b k hk => ?_, fun _ => Nat.one_pos⟩
    by_cases hc : c = .x25519 ∧ b.length = 1
    · exact hc.2
    · have h' : (if c = .x25519 ∧ b.length = 1 then (Except.ok (b.headD 0) : Except PyErr UInt8) else .error .valueError) = .ok k := hk
      rw [if_neg hc] at h'; cases h'
  obtain ⟨name, data, h1, h2, h3⟩ := C107_formats_unreadable (toyPq "ml-kem-768" .mlkem) loadEnv oneLaws toyKeyLib (fun _ => 1) hl
    (toyLoad "ml-kem-768") ⟨.kem, (), .dh false (5 : UInt8)⟩ false (5 : UInt8) rfl (fun n hn => by cases hn) [7] (by decide) ⟨rfl, rfl, rfl⟩
    (by decide) [2, 16, 840, 1, 114027, 80, 5, 2, 53] (by decide +kernel) .raw (by decide)
  obtain ⟨k, hk⟩ := h (toyPq "ml-kem-768" .mlkem) loadEnv oneLaws toyKeyLib toyKeyLaws (toyLoad "ml-kem-768") (toyLoadLaws _) .kem ()
    (.ecdh (5 : UInt8)) ⟨.kem, (), .dh false (5 : UInt8)⟩ rfl (by decide) [7] ⟨rfl, rfl, rfl⟩ _ _ _ _ (by decide +kernel) h1 h2
  exact h3 k hk

/-! ### Private keys with their public key -/

/-- C107. A private key that comes with a public key is only accepted if that public key is its own. -/
theorem C107_checked (K : PqKem) (E : Env) (KL : KeyLib E) (PL : PqLoad K) (name : String) (data pub : Bytes) (sk : CompPriv K E.L)
    (h : decodePriv E KL PL name data (some pub) = .value sk) :
    loadPriv E KL PL name data = .value sk ∧ ∃ oid pk, kemNameToOid.lookup name = some oid ∧ loadPub E KL PL oid pub = .ok pk ∧
      compExport E pk = compExport E (compPublic sk) ∧ pubOid pk = pubOid (compPublic sk) := by
  unfold decodePriv at h
  obtain ⟨sk', h1, h⟩ := bind_value h
  dsimp only at h
  split at h
  · cases h
  · rename_i oid ho
    split at h
    · cases h
    · rename_i pk hpk
      split at h
      · rename_i heq
        cases h
        refine ⟨h1, oid, pk, ho, hpk, ?_⟩
        unfold pubEq at heq
        simp only [Bool.and_eq_true] at heq
        obtain ⟨⟨e1, e2⟩, e3⟩ := heq
        have e1 := beq_iff_eq.1 e1
        have e2 := beq_iff_eq.1 e2
        constructor
        · unfold compExport
          rw [e2]
          congr 1
          generalize pk.trad = t at e3
          generalize (compPublic sk).trad = t' at e3
          cases t <;> cases t' <;> dsimp only at e3
          · exact beq_iff_eq.1 e3
          · cases e3
          · cases e3
          · rename_i p q
            simp only [Bool.and_eq_true] at e3
            have : p = q := by
              cases p; cases q
              have a := beq_iff_eq.1 e3.1
              have b := beq_iff_eq.1 e3.2
              dsimp only at a b
              rw [a, b]
            rw [this]
        · unfold pubOid
          rw [e1]
      · cases h

/-- C107. A public key that cannot be read is reported as invalid key data; exceptions that are neither a `ValueError`
nor an `InvalidKeyData` (which includes `MismatchingKey`) are passed on, and another public key as mismatching. -/
theorem C107_rejected (K : PqKem) (E : Env) (KL : KeyLib E) (PL : PqLoad K) (name : String) (data pub : Bytes) (sk : CompPriv K E.L)
    (oid : List Nat) (h : loadPriv E KL PL name data = .value sk) (ho : kemNameToOid.lookup name = some oid) :
    (∀ e, loadPub E KL PL oid pub = .error e → (e = .valueError ∨ e = .invalidKeyData ∨ e = .mismatchingKey) →
      decodePriv E KL PL name data (some pub) = .raised .invalidKeyData) ∧
    (∀ e, loadPub E KL PL oid pub = .error e → e ≠ .valueError → e ≠ .invalidKeyData → e ≠ .mismatchingKey →
      decodePriv E KL PL name data (some pub) = .raised e) ∧
    (∀ pk, loadPub E KL PL oid pub = .ok pk → compExport E pk ≠ compExport E (compPublic sk) →
      decodePriv E KL PL name data (some pub) = .raised .mismatchingKey) := by
  have hr : decodePriv E KL PL name data (some pub) = match loadPub E KL PL oid pub with
      | .error e => .raised (if e = .valueError ∨ e = .invalidKeyData ∨ e = .mismatchingKey then .invalidKeyData else e)
      | .ok pk => if pubEq E pk (compPublic sk) then .value sk else .raised .mismatchingKey := by
    unfold decodePriv
    rw [h]
    show (match kemNameToOid.lookup name with | none => _ | some oid => _) = _
    rw [ho]
    rfl
  refine ⟨?_, ?_, ?_⟩
  · intro e he hx
    rw [hr, he]
    dsimp only
    rw [if_pos hx]
  · intro e he h1 h2 h3
    rw [hr, he]
    dsimp only
    rw [if_neg (by rintro (x | x | x) <;> contradiction)]
  · intro pk hp hne
    cases hd : decodePriv E KL PL name data (some pub) with
    | value s =>
      obtain ⟨h1, oid', pk', ho', hp', he, -⟩ := C107_checked K E KL PL name data pub s hd
      rw [h] at h1
      cases h1
      rw [ho] at ho'
      cases ho'
      rw [hp] at hp'
      cases hp'
      exact absurd he hne
    | raised e =>
      rw [hr, hp] at hd
      dsimp only at hd
      split at hd
      · cases hd
      · cases hd; rfl
    | pyNone =>
      rw [hr, hp] at hd
      dsimp only at hd
      split at hd <;> cases hd
    | running =>
      rw [hr, hp] at hd
      dsimp only at hd
      split at hd <;> cases hd


theorem pubEq_normal {K : PqKem} (E : Env) (sk : CompPriv K E.L) :
    pubEq E ⟨(compPublic sk).kind, (compPublic sk).pq, normalTrad (compPublic sk).kind (compPublic sk).trad⟩ (compPublic (normalPriv sk)) = true := by
  obtain ⟨kind, pq, t⟩ := sk
  cases kind <;> cases t <;>
    (simp only [pubEq, Bool.and_eq_true]; refine ⟨⟨beq_iff_eq.2 rfl, beq_iff_eq.2 rfl⟩, ?_⟩)
  · exact beq_iff_eq.2 rfl
  · exact Bool.and_eq_true_iff.2 ⟨beq_iff_eq.2 rfl, beq_iff_eq.2 rfl⟩
  · exact beq_iff_eq.2 rfl
  · exact Bool.and_eq_true_iff.2 ⟨beq_iff_eq.2 rfl, beq_iff_eq.2 rfl⟩

/-- C107. A key written as `OneAsymmetricKey` with its seed, in version 0 or 1, is read back as the same key, if it was made from an ECDH or RSA
key. -/
theorem C107_pkcs8_partial (K : PqKem) (E : Env) (hL : Laws E.L) (KL : KeyLib E) (hK : KeyLaws E KL) (PL : PqLoad K)
    (kind : Kind) (pq : K.Priv) (a : ArgPriv E.L) (sk : CompPriv K E.L) (hk : newPriv kind pq a = some sk) (hm : Matching kind a)
    (seed : Bytes) (hn : K.name (K.pub sk.pq) ∈ pqNames) (hp : PrivStored PL sk.pq seed) (hq : PubStored PL (K.pub sk.pq)) (hu : UsualSize sk.trad)
    (version : Int) (hv : version = 0 ∨ version = 1) (oid : List Nat) (data : Bytes) (pub : Option Bytes)
    (hs : saveOneAsym E KL PL version .seed false sk = .ok (oid, data, pub)) :
    (pub = none ↔ version = 0) ∧ loadOneAsym E KL PL version oid data pub = .value sk := by
  unfold saveOneAsym at hs
  split at hs
  · cases hs
  · rename_i oid' ho
    obtain ⟨name, data', h1, h2, h3⟩ := C107_private K E hL KL hK PL sk seed hn hp hu oid' ho
    rw [h2] at hs
    dsimp only at hs
    rw [normal_priv hk hm] at h3
    have hpo : pubOid (compPublic sk) = .ok oid' := by
      rw [C71_oids_partial K E.L kind pq a sk hk ?_, ho]
      intro k hkk
      rw [hkk] at hu
      exact hu
    have hpq : (compPublic sk).pq = K.pub sk.pq := by
      unfold compPublic; split <;> rfl
    obtain ⟨_, _, _, _, he⟩ := entry_of_oid h1
    rcases hv with rfl | rfl
    · rw [if_neg (by decide)] at hs
      cases hs
      refine ⟨⟨fun _ => rfl, fun _ => rfl⟩, ?_⟩
      unfold loadOneAsym
      rw [if_neg (by decide), if_neg (fun x => x.2 rfl), h1]
      change bind (loadPriv E KL PL name data) _ = _
      rw [h3]; rfl
    · rw [if_pos (by decide), hpo] at hs
      cases hs
      refine ⟨⟨fun x => (by cases x), fun x => absurd x (by decide)⟩, ?_⟩
      unfold loadOneAsym
      rw [if_neg (by decide), if_neg (fun x => absurd x.1 (by decide)), h1]
      change bind (loadPriv E KL PL name data) _ = _
      rw [h3]
      change (match kemNameToOid.lookup name with | none => _ | some oid => _) = _
      rw [he.2.2.2.2.2.2.2.2.1]
      dsimp only
      rw [C107_public K E hL KL hK PL (compPublic sk) (by rw [hpq]; exact hn) (by rw [hpq]; exact hq) oid hpo]
      dsimp only
      have := pubEq_normal E sk
      rw [normal_priv hk hm] at this
      exact if_pos this

/-! ### ML-KEM as the component -/

/-- The ML-KEM classes as read and written by the factory; `private_numbers` raises ValueError without a seed. -/
def mlLoad (P : Kem.Params) (KE : Kem.Env) : PqLoad (mlPq P KE) where
  keySize := fun _ => Keys.mlPkSize P
  fromPublic := fun n b => if n = mlName P then Keys.mlFromPublicBytes P b else .error .valueError
  seedSize := fun _ => 64
  fromPrivate := fun n b => if n = mlName P then Keys.mlFromPrivateBytes P KE b else .raised .valueError
  numbers := fun k => match k.seed with
    | none => .error .valueError
    | some s => .ok s
  rawPriv := fun k => k.dk

/-- The assumptions of C107 hold for every ML-KEM key that was made from a seed. -/
theorem ml_stored (P : Kem.Params) (hP : Keys.MlSet P) (KE : Kem.Env) (hKE : KE.Sized) (seed : Bytes) (hs : seed.length = 64) (key : Keys.MlPriv)
    (h : Keys.mlFromPrivateBytes P KE seed = .value key) :
    PrivStored (mlLoad P KE) key seed ∧ PubStored (mlLoad P KE) (Keys.mlPublicKey P key) ∧ 64 < ((mlLoad P KE).rawPriv key).length := by
  have hsd : Keys.mlFromPrivateBytes P KE seed = Keys.mlFromSeed P KE seed := if_pos hs
  have h' := h
  rw [hsd] at h'
  unfold Keys.mlFromSeed at h'
  rw [if_neg (fun x => x hs)] at h'
  generalize hg : Kem.keygen P KE (seed.take 32) (seed.drop 32) = r at h'
  match r with
  | none => cases h'
  | some (ek, dk) =>
    cases h'
    obtain ⟨s1, s2, _, _, _, hk2⟩ := hP.sizes
    have hz : (seed.drop 32).length = 32 := by rw [List.length_drop, hs]
    obtain ⟨l1, l2⟩ := Kem.C38_key_sizes P KE hKE _ _ ek dk hz hg
    refine ⟨⟨rfl, hs, ?_⟩, ⟨?_, ?_⟩, ?_⟩
    · exact (if_pos rfl).trans h
    · change ek.length = Keys.mlPkSize P
      omega
    · exact (if_pos rfl).trans ((Keys.C104_public_lengths P ek).2 (by omega))
    · change 64 < dk.length
      omega

/-- C107 for ML-KEM-768 and ML-KEM-1024: a key made from a seed and an ECDH or RSA key survives being written and read, and the secret that is encapsulated for the
public key that was read back is recovered with the private key that was read back. -/
theorem C107_mlkem (P : Kem.Params) (hP : P = Kem.p768 ∨ P = Kem.p1024) (KE : Kem.Env) (hKE : KE.Sized) (E : Env) (hL : Laws E.L) (hO : OaepLaw E)
    (KL : KeyLib E) (hK : KeyLaws E KL) (seed : Bytes) (hs : seed.length = 64) (key : Keys.MlPriv)
    (hkey : Keys.mlFromPrivateBytes P KE seed = .value key) (kind : Kind) (a : ArgPriv E.L) (sk : CompPriv (mlPq P KE) E.L)
    (hk : newPriv (K := mlPq P KE) kind key a = some sk) (hm : Matching kind a) (hu : UsualSize sk.trad) (oid : List Nat) (data : Bytes) (pub : Option Bytes)
    (hsv : saveOneAsym E KL (mlLoad P KE) 1 .seed false sk = .ok (oid, data, pub)) :
    loadOneAsym E KL (mlLoad P KE) 1 oid data pub = .value sk ∧
    ∃ pk, pub = some (compExport E (compPublic sk)) ∧ loadPub E KL (mlLoad P KE) oid (compExport E (compPublic sk)) = .ok pk ∧
      ∀ priv cms r, PqAgrees (mlPq P KE) key r.pq → ∀ ss ct, compEncaps E pk priv cms r = .value (ss, ct) → compDecaps E sk ct cms = .value ss := by
  have hpq : sk.pq = key := by
    unfold newPriv at hk
    split at hk <;> cases hk <;> rfl
  have hset : Keys.MlSet P := Or.inr hP
  obtain ⟨st1, st2, _⟩ := ml_stored P hset KE hKE seed hs key hkey
  have hn : mlName P ∈ pqNames := by rcases hP with rfl | rfl <;> decide
  have hcp : (compPublic sk).pq = Keys.mlPublicKey P key := by
    rw [← hpq]; unfold compPublic; split <;> rfl
  rw [← hpq] at st1
  have st2' : PubStored (mlLoad P KE) ((mlPq P KE).pub sk.pq) := by rw [hpq]; exact st2
  refine ⟨(C107_pkcs8_partial (mlPq P KE) E hL KL hK (mlLoad P KE) kind key a sk hk hm seed hn st1 st2' hu 1 (Or.inr rfl) oid data pub hsv).2, ?_⟩
  unfold saveOneAsym at hsv
  split at hsv
  · cases hsv
  · rename_i oid' ho
    split at hsv
    · cases hsv
    · rw [if_pos (by decide)] at hsv
      split at hsv
      · cases hsv
      · cases hsv
        have hpo : pubOid (compPublic sk) = .ok oid := by
          rw [C71_oids_partial (mlPq P KE) E.L kind key a sk hk ?_, ho]
          intro k hkk
          rw [hkk] at hu
          exact hu
        obtain ⟨pk, h1, h2⟩ := C107_interchangeable_partial (mlPq P KE) E hL hO KL hK (mlLoad P KE) kind key a sk hk hm
          (by rw [hcp]; exact hn) (by rw [hcp]; exact st2) oid hpo
        rw [hpq] at h2
        exact ⟨pk, rfl, h1, h2⟩

/-! ### Examples -/

def demoSk : CompPriv (toyPq "ml-kem-768" .mlkem) loadEnv.L := ⟨.dhkem, (), .dh true (5 : UInt8)⟩

example : newPriv .dhkem () (.ecdh (5 : UInt8)) = some demoSk := rfl
example : privOid demoSk = .ok [1, 3, 6, 1, 5, 5, 7, 4, 9996, 9999, 3, 1, 2, 1] := by decide +kernel
example : savePriv loadEnv toyKeyLib (toyLoad "ml-kem-768") .seed demoSk = .ok [7, 5] := rfl
example : loadPriv loadEnv toyKeyLib (toyLoad "ml-kem-768") "composite-dhkem-ml-kem-768-x25519" [7, 5] = .value demoSk := by
  obtain ⟨name, data, h1, h2, h3⟩ := C107_private (toyPq "ml-kem-768" .mlkem) loadEnv oneLaws toyKeyLib toyKeyLaws (toyLoad "ml-kem-768") demoSk [7]
    (by decide) ⟨rfl, rfl, rfl⟩ trivial [1, 3, 6, 1, 5, 5, 7, 4, 9996, 9999, 3, 1, 2, 1] (by decide +kernel)
  cases h2
  have : name = "composite-dhkem-ml-kem-768-x25519" := Option.some.inj (h1.symm.trans (by decide +kernel))
  rw [← this]; exact h3
example : compExport loadEnv (compPublic demoSk) = [7, 5] := rfl

/-- What the names of traditional algorithms mean. -/
def tradMeaning : List (String × Except PyErr TradSpec) :=
  [("x25519", .ok (.curve .x25519)), ("x448", .ok (.curve .x448)),
   ("ecdh-secp192r1", .ok (.curve (.ec "secp192r1"))), ("ecdh-prime192v1", .ok (.curve (.ec "secp192r1"))),
   ("ecdh-secp224r1", .ok (.curve (.ec "secp224r1"))), ("ecdh-prime224v1", .ok (.curve (.ec "secp224r1"))),
   ("ecdh-secp256r1", .ok (.curve (.ec "secp256r1"))), ("ecdh-prime256v1", .ok (.curve (.ec "secp256r1"))),
   ("ecdh-secp384r1", .ok (.curve (.ec "secp384r1"))), ("ecdh-secp521r1", .ok (.curve (.ec "secp521r1"))),
   ("ecdh-secp256k1", .ok (.curve (.ec "secp256k1"))),
   ("ecdh-brainpoolP256r1", .ok (.curve (.ec "brainpoolP256r1"))), ("ecdh-brainpoolp256r1", .ok (.curve (.ec "brainpoolP256r1"))),
   ("ecdh-brainpoolP384r1", .ok (.curve (.ec "brainpoolP384r1"))), ("ecdh-brainpoolp384r1", .ok (.curve (.ec "brainpoolP384r1"))),
   ("ecdh-brainpoolP512r1", .ok (.curve (.ec "brainpoolP512r1"))), ("ecdh-brainpoolp512r1", .ok (.curve (.ec "brainpoolP512r1"))),
   ("rsa2048", .ok (.rsa 2048)), ("rsa3072", .ok (.rsa 3072)), ("rsa4096", .ok (.rsa 4096)),
   ("rsa", .error .valueError), ("rsa-2048", .error .valueError), ("ecdh-", .error .valueError), ("ecdh-x25519", .error .valueError),
   ("dsa", .error .valueError)]

/-- **C107.** The names of the curves, with their synonyms, and of the sizes of RSA keys mean what they should; a name
without a number or a curve is refused. -/
theorem C107_names : ∀ e ∈ tradMeaning, pubSpec e.1 = e.2 := by decide +kernel

/-- **C107.** Data which cannot be read as a traditional private key are invalid key data; other errors are passed on. -/
theorem C107_errors (E : Env) (KL : KeyLib E) (data : Bytes) (e : PyErr) (h : KL.loadRaw .x25519 data = .error e) :
    loadTradPriv E KL "x25519" data =
      .error (match e with
        | .badAsn1Data => .invalidKeyData
        | .valueError => .invalidKeyData
        | e => e) := by
  have hc : loadTradPrivCore E KL "x25519" data = .error e := by
    unfold loadTradPrivCore
    rw [if_neg (by decide +kernel), if_pos rfl, h]
    rfl
  unfold loadTradPriv
  rw [hc]
  cases e <;> rfl

end Verif.PQ.Hyb
