import Verif.PQ.Hybrid
import Verif.PQ.KemKeysProps
import Verif.PQ.KemMechProps

/-!
# Properties of the hybrid KEMs
-/

namespace Verif.PQ.Hyb

open Verif.CA (Bytes PyErr)
open Verif.PQ.Dsa (Out)
open Verif.PQ.Mech

theorem bind_value {α β : Type} {o : Out α} {f : α → Out β} {b : β} (h : bind o f = .value b) :
    ∃ a, o = .value a ∧ f a = .value b := by
  cases o with
  | value a => exact ⟨a, rfl, h⟩
  | pyNone => cases h
  | raised e => cases h
  | running => cases h

theorem lift_value {α : Type} {r : Except PyErr α} {a : α} (h : lift r = .value a) : r = .ok a := by
  cases r with
  | ok b => cases h; rfl
  | error e => cases h

/-- A collision of `f`. -/
def Collision (f : Bytes → Bytes) : Prop := ∃ x y, x ≠ y ∧ f x = f y

/-- The component law of one run: what was encapsulated is decapsulated, and has the announced length. -/
def PqAgrees (K : PqKem) (sk : K.Priv) (r : Bytes) : Prop :=
  ∀ ss ct, K.encaps (K.pub sk) r = .value (ss, ct) → ct.length = K.ctLength sk ∧ K.decaps sk ct = .value ss

/-- RSA-OAEP decrypts what it encrypted. -/
def OaepLaw (E : Env) : Prop := ∀ (sk : RsaPriv) pad m ct, E.oaepEncrypt sk.pub pad m = .ok ct → E.oaepDecrypt sk ct = .ok m

/-! ## C71: Composite KEM -/

theorem trad_agreement (E : Env) (hL : Laws E.L) (hO : OaepLaw E) (sk : TradPriv E.L) (priv : Option E.L.Priv) (r : Rand E.L)
    (ss ct : Bytes) (h : tradEncaps E (tradPub sk) priv r = .ok (ss, ct)) : tradDecaps E sk ct = .ok ss := by
  cases sk with
  | dh rfc k => exact C103_class_agreement E.L hL rfc priv r.gen k ss ct h
  | rsa k =>
    change (match E.oaepEncrypt k.pub r.pad r.secret with | .error e => _ | .ok ct => _) = _ at h
    split at h
    · cases h
    · rename_i c hc
      cases h
      exact hO k _ _ _ hc

theorem compPublic_trad {K : PqKem} {L : Lib} {kind : Kind} {pq : K.Priv} {a : ArgPriv L} {sk : CompPriv K L}
    (hk : newPriv kind pq a = some sk) : compPublic sk = ⟨sk.kind, K.pub sk.pq, tradPub sk.trad⟩ := by
  unfold newPriv at hk
  split at hk <;> cases hk <;> first | rfl | (rename_i k _; cases k <;> rfl)

/-- C71. For every key made by the constructors: a secret encapsulated for its public key is decapsulated, if the
component KEMs agree. -/
theorem C71_agreement (K : PqKem) (E : Env) (hL : Laws E.L) (hO : OaepLaw E) (kind : Kind) (pq : K.Priv) (a : ArgPriv E.L)
    (sk : CompPriv K E.L) (hk : newPriv kind pq a = some sk) (priv : Option E.L.Priv) (cms : Bool) (r : Rand E.L)
    (hpq : PqAgrees K sk.pq r.pq) (ss ct : Bytes) (h : compEncaps E (compPublic sk) priv cms r = .value (ss, ct)) :
    compDecaps E sk ct cms = .value ss := by
  have hp := compPublic_trad hk
  unfold compEncaps at h
  obtain ⟨⟨ss1, ct1⟩, h1, h⟩ := bind_value h
  obtain ⟨⟨ss2, ct2⟩, h2, h⟩ := bind_value h
  obtain ⟨s, h3, h⟩ := bind_value h
  cases h
  rw [hp] at h1 h2
  obtain ⟨hl, hd⟩ := hpq ss1 ct1 h1
  have ht := trad_agreement E hL hO sk.trad priv r ss2 ct2 (lift_value h2)
  unfold compDecaps
  dsimp only
  rw [List.take_left' hl, List.drop_left' hl, hd]
  change bind (lift (tradDecaps E sk.trad ct2)) _ = _
  rw [ht]
  change lift (combiner E (compPublic sk) ss1 ss2 ct2 (tradEncode E (tradPub sk.trad)) cms) = _
  have e : (compPublic sk).trad = tradPub sk.trad := by rw [hp]
  rw [← e]
  exact h3

/-- C71. The public key made from the public parts by the public constructor is the public key of the private key. -/
theorem C71_public_key (K : PqKem) (L : Lib) (kind : Kind) (pq : K.Priv) (k : L.Priv) (sk : CompPriv K L)
    (hk : newPriv kind pq (.ecdh k) = some sk) : newPub kind (K.pub pq) (.ecdh (L.pub k)) = some (compPublic sk) := by
  cases kind <;> cases hk <;> rfl

theorem C71_public_key_rsa (K : PqKem) (L : Lib) (pq : K.Priv) (k : RsaPriv) (sk : CompPriv K L)
    (hk : newPriv .kem pq (.rsa k) = some sk) : newPub .kem (K.pub pq) (.rsa k.pub) = some (compPublic sk) := by
  cases hk; rfl

/-! ### What the combiner binds -/

theorem lookup_mem {β : Type} {k : String} {v : β} : ∀ {t : List (String × β)}, t.lookup k = some v → (k, v) ∈ t
  | [], h => by cases h
  | (a, b) :: t, h => by
    rw [List.lookup_cons] at h
    split at h
    · rename_i he
      have := eq_of_beq he
      cases h
      rw [this]
      exact List.mem_cons_self
    · exact List.mem_cons_of_mem _ (lookup_mem h)

theorem nameOid_mem {name : String} {oid : List Nat} (h : nameOid name = .ok oid) : (name, oid) ∈ kemNameToOid := by
  unfold nameOid at h
  split at h
  · cases h
  · rename_i o ho
    cases h
    exact lookup_mem ho

set_option maxRecDepth 8000 in
theorem oid_table : ∀ a ∈ kemNameToOid, ∀ b ∈ kemNameToOid, derOid a.2 <:+ derOid b.2 → a = b := by decide +kernel

theorem suffix_or {α : Type} {a b c d : List α} (h : a ++ b = c ++ d) : b <:+ d ∨ d <:+ b := by
  rcases List.suffix_or_suffix_of_suffix (List.suffix_append a b) (h ▸ List.suffix_append c d) with h | h
  · exact Or.inl h
  · exact Or.inr h

/-- C71. Equal combiner inputs: the same algorithm and the same secrets, ciphertext and public key in a row. -/
theorem C71_inputs {n n' : String} {o o' : List Nat} (hn : nameOid n = .ok o) (hn' : nameOid n' = .ok o') (x x' : Bytes)
    (h : x ++ derOid o = x' ++ derOid o') : n = n' ∧ o = o' ∧ x = x' := by
  have m := nameOid_mem hn
  have m' := nameOid_mem hn'
  have key : (n, o) = (n', o') := by
    rcases suffix_or h with hs | hs
    · exact oid_table _ m _ m' hs
    · exact (oid_table _ m' _ m hs).symm
  cases key
  exact ⟨rfl, rfl, List.append_cancel_right h⟩

/-- C71. In CMS use two combiner calls only give the same secret if they are for the same algorithm and the same
component values, or SHA3-256 has a collision. The values are compared as one string; the four values separately if
three of them have equal lengths, as within one algorithm. -/
theorem C71_binding (K : PqKem) (E : Env) (k k' : CompPub K E.L) (a b c d a' b' c' d' ss : Bytes)
    (h : combiner E k a b c d true = .ok ss) (h' : combiner E k' a' b' c' d' true = .ok ss) :
    Collision E.sha3 ∨
      (compName k.kind (K.name k.pq) (tradName k.trad) = compName k'.kind (K.name k'.pq) (tradName k'.trad) ∧
       a ++ b ++ c ++ d = a' ++ b' ++ c' ++ d' ∧
       (a.length = a'.length → b.length = b'.length → c.length = c'.length → a = a' ∧ b = b' ∧ c = c' ∧ d = d')) := by
  unfold combiner at h h'
  split at h
  · cases h
  · rename_i o ho
    split at h'
    · cases h'
    · rename_i o' ho'
      simp only [Except.ok.injEq, applyKdf, if_true] at h h'
      by_cases e : a ++ b ++ c ++ d ++ derOid o = a' ++ b' ++ c' ++ d' ++ derOid o'
      · obtain ⟨h1, h2, h3⟩ := C71_inputs ho ho' _ _ e
        refine Or.inr ⟨h1, h3, fun la lb lc => ?_⟩
        simp only [List.append_assoc] at h3
        obtain ⟨ea, h3⟩ := List.append_inj h3 la
        obtain ⟨eb, h3⟩ := List.append_inj h3 lb
        obtain ⟨ec, ed⟩ := List.append_inj h3 lc
        exact ⟨ea, eb, ec, ed⟩
      · exact Or.inl ⟨_, _, e, h.trans h'.symm⟩

/-! ### The key derivation function -/

/-- The names of the post-quantum KEM keys (`oidutils.py`, `PQ_KEM_NAME_2_OID`). -/
def pqNames : List String :=
  ["ml-kem-512", "ml-kem-768", "ml-kem-1024", "sntrup761", "mceliece-348864", "mceliece-460896", "mceliece-6688128",
   "mceliece-6960119", "mceliece-8192128", "frodokem-640-aes", "frodokem-640-shake", "frodokem-976-aes", "frodokem-976-shake",
   "frodokem-1344-aes", "frodokem-1344-shake"]

def curves : List Curve :=
  [.x25519, .x448, .ec "secp224r1", .ec "secp256r1", .ec "secp384r1", .ec "secp521r1", .ec "brainpoolP256r1", .ec "brainpoolP384r1", .ec "brainpoolP512r1"]

/-- The composite ML-KEM draft's table: the last arc of the identifier and the KDF. -/
def draftKdf : List (Nat × Kdf) :=
  [(50, .hmacSha256), (51, .hmacSha256), (52, .hmacSha256), (53, .sha3_256), (54, .hmacSha256), (55, .hmacSha256), (56, .hmacSha256),
   (57, .hmacSha512), (58, .hmacSha512), (59, .sha3_256), (60, .hmacSha512), (61, .hmacSha512)]

/-- What a KDF computes, by RFC 2104 and the draft: HMAC under a zero key of the size of the digest, cut to 32 bytes. -/
def kdfSpec (E : Env) : Kdf → Bytes → Bytes
  | .sha3_256, x => E.sha3 x
  | .hmacSha256, x => (E.hmac .sha256 (List.replicate Sha.sha256.size 0) x).take 32
  | .hmacSha512, x => (E.hmac .sha512 (List.replicate Sha.sha512.size 0) x).take 32

theorem append_prefix {α : Type} {p d l : List α} (h : p ++ d = l) : p <+: l ∧ d = l.drop p.length := by
  subst h
  exact ⟨List.prefix_append p d, by rw [List.drop_left]⟩

def rsaPrefix (kind : Kind) (pq : String) : List Char := (kind.text ++ "-" ++ pq ++ "-rsa").toList

set_option maxRecDepth 8000 in
theorem rsa_table : ∀ kind ∈ [Kind.kem, Kind.dhkem], ∀ pq ∈ pqNames, ∀ e ∈ kemNameToOid, rsaPrefix kind pq <+: e.1.toList →
    ∃ n ∈ [2048, 3072, 4096], e.1.toList.drop (rsaPrefix kind pq).length = (toString n).toList := by
  decide +kernel

theorem toString_inj {m n : Nat} (h : (toString m).toList = (toString n).toList) : m = n := by
  have h' : Nat.toDigits 10 m = Nat.toDigits 10 n := by
    have e : ∀ k : Nat, (toString k).toList = Nat.toDigits 10 k := fun k => String.toList_ofList
    rw [← e, ← e, h]
  rw [← Nat.ofDigitChars_toDigits (b := 10) (n := m) (by decide) (by decide), h', Nat.ofDigitChars_toDigits (by decide) (by decide)]

/-- Only RSA keys of 2048, 3072 and 4096 bits have a name in the table. -/
theorem rsa_sizes {kind : Kind} {pq : String} {n : Nat} {oid : List Nat} (hpq : pq ∈ pqNames)
    (h : nameOid (compName kind pq ("rsa" ++ toString n)) = .ok oid) : n = 2048 ∨ n = 3072 ∨ n = 4096 := by
  have hm := nameOid_mem h
  have hk : kind ∈ [Kind.kem, Kind.dhkem] := by cases kind <;> simp
  have hs : rsaPrefix kind pq ++ (toString n).toList = (compName kind pq ("rsa" ++ toString n)).toList := by
    unfold rsaPrefix compName
    simp [String.toList_append]
  obtain ⟨hp, hd⟩ := append_prefix hs
  obtain ⟨m, hm', he⟩ := rsa_table kind hk pq hpq _ hm hp
  have := toString_inj (hd.trans he)
  subst this
  simpa using hm'

theorem draft_table : ∀ e ∈ kemNameToOid, e.2.head? = some 2 → e ∈ mlkemNameToOid := by decide +kernel

set_option maxRecDepth 8000 in
theorem kdf_table_curves : ∀ pq ∈ pqNames, ∀ c ∈ curves, ∀ kind ∈ [Kind.kem, Kind.dhkem], ∀ e ∈ mlkemNameToOid,
    compName kind pq (dhTradName c) = e.1 → ∀ d ∈ draftKdf, e.2 = [2, 16, 840, 1, 114027, 80, 5, 2, d.1] → getKdf pq (dhTradName c) = d.2 := by
  decide +kernel

set_option maxRecDepth 8000 in
theorem kdf_table_rsa : ∀ pq ∈ pqNames, ∀ n ∈ [2048, 3072, 4096], ∀ kind ∈ [Kind.kem, Kind.dhkem], ∀ e ∈ mlkemNameToOid,
    compName kind pq ("rsa" ++ toString n) = e.1 → ∀ d ∈ draftKdf, e.2 = [2, 16, 840, 1, 114027, 80, 5, 2, d.1] →
      getKdf pq ("rsa" ++ toString n) = d.2 := by
  decide +kernel

/-- The keys have known names: a post-quantum KEM of the factory, and one of the curves or RSA of any size. -/
def Known {K : PqKem} {L : Lib} (k : CompPub K L) : Prop :=
  K.name k.pq ∈ pqNames ∧ ∀ rfc p, k.trad = .dh rfc p → L.pubCurve p ∈ curves

/-- C71. Outside of CMS the combiner computes the KDF that the draft names for the object identifier. -/
theorem C71_kdf (K : PqKem) (E : Env) (k : CompPub K E.L) (hk : Known k) (d : Nat × Kdf) (hd : d ∈ draftKdf)
    (ho : pubOid k = .ok [2, 16, 840, 1, 114027, 80, 5, 2, d.1]) (a b c e : Bytes) :
    combiner E k a b c e false = .ok (kdfSpec E d.2 (a ++ b ++ c ++ e ++ derOid [2, 16, 840, 1, 114027, 80, 5, 2, d.1])) := by
  have hkdf : getKdf (K.name k.pq) (tradName k.trad) = d.2 := by
    have hm := draft_table _ (nameOid_mem ho) rfl
    have hkind : k.kind ∈ [Kind.kem, Kind.dhkem] := by cases k.kind <;> simp
    obtain ⟨hp, hc⟩ := hk
    cases ht : k.trad with
    | dh rfc p =>
      rw [ht] at hm
      exact kdf_table_curves _ hp _ (hc rfc p ht) _ hkind _ hm rfl d hd rfl
    | rsa p =>
      have ho' := ho
      unfold pubOid at ho'
      rw [ht] at hm ho'
      have hs := rsa_sizes hp ho'
      exact kdf_table_rsa _ hp _ (by simpa using hs) _ hkind _ hm rfl d hd rfl
  unfold combiner
  rw [ho]
  dsimp only
  rw [hkdf]
  rcases d with ⟨n, d⟩
  cases d <;> rfl

/-- The claim that the KDF of the algorithm is used, in CMS and elsewhere. -/
def kdfFollowsAlgorithm : Prop :=
  ∀ (K : PqKem) (E : Env) (k : CompPub K E.L), Known k → ∀ d ∈ draftKdf, pubOid k = .ok [2, 16, 840, 1, 114027, 80, 5, 2, d.1] →
    ∀ a b c e cms, combiner E k a b c e cms = .ok (kdfSpec E d.2 (a ++ b ++ c ++ e ++ derOid [2, 16, 840, 1, 114027, 80, 5, 2, d.1]))

/-- A KEM whose keys are numbers: the secret is the random value, the ciphertext too. -/
def toyPq (name : String) (family : Family) : PqKem where
  Priv := Unit
  Pub := Unit
  pub := id
  name := fun _ => name
  family := fun _ => family
  ctLength := fun _ => 2
  raw := fun _ => [7]
  encaps := fun _ r => .value (r, (r ++ [0, 0]).take 2)
  decaps := fun _ ct => .value ct

def toyEnv : Env where
  L := toyLib
  pkcs1 := fun k => [UInt8.ofNat k.n, UInt8.ofNat k.e]
  oaepEncrypt := fun _ _ m => .ok m
  oaepDecrypt := fun _ ct => .ok ct
  sha3 := fun x => 3 :: x
  hmac := fun h k x => UInt8.ofNat h.size :: (k ++ x)

theorem toyOaep : OaepLaw toyEnv := fun _ _ _ _ h => by cases h; rfl

theorem toyPqAgrees (name : String) (f : Family) (x y : UInt8) : PqAgrees (toyPq name f) () [x, y] := by
  intro ss ct h
  cases h
  exact ⟨rfl, rfl⟩

def toyPriv : CompPriv (toyPq "ml-kem-768" .mlkem) toyEnv.L := ⟨.kem, (), .dh false (.ec "secp256r1", 5)⟩

example : newPriv .kem () (.ecdh (.ec "secp256r1", 5)) = some toyPriv := rfl
example : compEncaps toyEnv (compPublic toyPriv) none true ⟨[8, 9], (.ec "secp256r1", 3), [], []⟩ =
    .value (3 :: [8, 9, 15, 3, 5] ++ derOid [2, 16, 840, 1, 114027, 80, 5, 2, 54], [8, 9, 3]) := by decide +kernel
example : compDecaps toyEnv toyPriv [8, 9, 3] true = .value (3 :: [8, 9, 15, 3, 5] ++ derOid [2, 16, 840, 1, 114027, 80, 5, 2, 54]) := by
  decide +kernel

/-- C71 is false in CMS use: the branch for HKDF is never taken and SHA3-256 is used for every algorithm. -/
theorem C71_cms_kdf_refuted : ¬ kdfFollowsAlgorithm := by
  intro h
  have := h (toyPq "ml-kem-768" .mlkem) toyEnv (compPublic toyPriv)
    ⟨by decide, fun rfc p hp => by cases hp; decide⟩ (54, .hmacSha256) (by decide) (by decide +kernel) [] [] [] [] true
  revert this
  decide +kernel

/-- C71, what the code does in CMS use: SHA3-256, whatever the algorithm. -/
theorem C71_cms_kdf (K : PqKem) (E : Env) (k : CompPub K E.L) (oid : List Nat) (ho : pubOid k = .ok oid) (a b c e : Bytes) :
    combiner E k a b c e true = .ok (E.sha3 (a ++ b ++ c ++ e ++ derOid oid)) := by
  unfold combiner
  rw [ho]
  rfl

/-! ### RSA keys of other sizes -/

/-- The claim that a private key with an object identifier is usable: its public key has the same identifier. -/
def oidsAgree : Prop :=
  ∀ (K : PqKem) (L : Lib) (sk : CompPriv K L), K.name (K.pub sk.pq) ∈ pqNames → ∀ oid, privOid sk = .ok oid → pubOid (compPublic sk) = .ok oid

/-- C71. The identifiers agree except for RSA keys of an unusual size. -/
theorem C71_oids_partial (K : PqKem) (L : Lib) (kind : Kind) (pq : K.Priv) (a : ArgPriv L) (sk : CompPriv K L) (hk : newPriv kind pq a = some sk)
    (hr : ∀ k, sk.trad = .rsa k → bitLength k.n = 2048 ∨ bitLength k.n = 3072 ∨ bitLength k.n = 4096) :
    pubOid (compPublic sk) = privOid sk := by
  rw [compPublic_trad hk]
  unfold pubOid privOid
  cases ht : sk.trad with
  | dh rfc k => rfl
  | rsa k =>
    dsimp only [tradPub, tradName, rsaTradName, RsaPriv.pub]
    rcases hr k ht with h | h | h <;> rw [h] <;> rfl

theorem rsaSize_cases (v : Nat) : rsaSize v = 2048 ∨ rsaSize v = 3072 ∨ rsaSize v = 4096 := by
  have ite3 : ∀ (p q : Prop) [Decidable p] [Decidable q], (if p then 2048 else if q then 3072 else 4096) = 2048 ∨
      (if p then 2048 else if q then 3072 else 4096) = 3072 ∨ (if p then 2048 else if q then 3072 else 4096) = 4096 := by
    intro p q _ _
    by_cases hp : p <;> by_cases hq : q <;> simp [hp, hq]
  exact ite3 _ _

/-- C71. With an RSA key of another size, every encapsulation and decapsulation ends in InvalidKeyCombination, although
`get_oid` of the private key gives an identifier. -/
theorem C71_rsa_unusable (K : PqKem) (E : Env) (sk : CompPriv K E.L) (k : RsaPriv) (hk : sk.trad = .rsa k) (hkind : sk.kind = .kem)
    (hn : K.name (K.pub sk.pq) = "ml-kem-768")
    (hs : ¬ (bitLength k.n = 2048 ∨ bitLength k.n = 3072 ∨ bitLength k.n = 4096)) :
    (∃ oid, privOid sk = .ok oid) ∧
    (∀ a b c d cms, combiner E (compPublic sk) a b c d cms = .error .invalidKeyCombination) ∧
    (∀ priv cms r ss ct, compEncaps E (compPublic sk) priv cms r ≠ .value (ss, ct)) ∧
    (∀ ct cms ss, compDecaps E sk ct cms ≠ .value ss) := by
  have hp : compPublic sk = ⟨.kem, K.pub sk.pq, .rsa k.pub⟩ := by
    unfold compPublic
    rw [hk, hkind]
    rfl
  have ho : pubOid (compPublic sk) = .error .invalidKeyCombination := by
    cases hc : pubOid (compPublic sk) with
    | ok oid =>
      rw [hp] at hc
      refine absurd (rsa_sizes (pq := K.name (K.pub sk.pq)) (by rw [hn]; decide) hc) hs
    | error e =>
      unfold pubOid nameOid at hc
      split at hc <;> cases hc
      rfl
  have hcomb : ∀ a b c d cms, combiner E (compPublic sk) a b c d cms = .error .invalidKeyCombination := by
    intro a b c d cms
    unfold combiner
    rw [ho]
  refine ⟨?_, hcomb, ?_, ?_⟩
  · unfold privOid
    rw [hk, hkind, hn]
    have := rsaSize_cases (bitLength k.n)
    dsimp only
    rcases this with h | h | h <;> rw [h]
    · exact ⟨[2, 16, 840, 1, 114027, 80, 5, 2, 50], by decide +kernel⟩
    · exact ⟨[2, 16, 840, 1, 114027, 80, 5, 2, 51], by decide +kernel⟩
    · exact ⟨[2, 16, 840, 1, 114027, 80, 5, 2, 52], by decide +kernel⟩
  · intro priv cms r ss ct h
    unfold compEncaps at h
    obtain ⟨⟨ss1, ct1⟩, h1, h⟩ := bind_value h
    obtain ⟨⟨ss2, ct2⟩, h2, h⟩ := bind_value h
    obtain ⟨s, h3, h⟩ := bind_value h
    rw [hcomb] at h3
    cases h3
  · intro ct cms ss h
    unfold compDecaps at h
    obtain ⟨s1, h1, h⟩ := bind_value h
    obtain ⟨s2, h2, h⟩ := bind_value h
    rw [hcomb] at h
    cases h

theorem bitLength_pow : ∃ n, bitLength n = 3071 := by
  refine ⟨2 ^ 3070, ?_⟩
  unfold bitLength
  rw [Nat.log2_two_pow, if_neg (Nat.pos_iff_ne_zero.1 (Nat.two_pow_pos _))]

/-- C71. A composite private key whose RSA modulus has an unusual bit length rounds to a table entry for the private key, while its public key has no such identifier. -/
theorem C71_oids_refuted : ¬ oidsAgree := by
  intro h
  obtain ⟨n, hn⟩ := bitLength_pow
  have key := C71_rsa_unusable (toyPq "ml-kem-768" .mlkem) toyEnv ⟨.kem, (), .rsa ⟨n, 3, 3⟩⟩ ⟨n, 3, 3⟩ rfl rfl rfl
    (by rw [hn]; decide)
  obtain ⟨⟨oid, ho⟩, hc, _⟩ := key
  have hp := h _ _ _ (by change "ml-kem-768" ∈ pqNames; decide) _ ho
  have := hc [] [] [] [] true
  unfold combiner at this
  rw [hp] at this
  cases this

/-! ### ML-KEM and FrodoKEM as components -/

def mlName (P : Kem.Params) : String := if P.k = 3 then "ml-kem-768" else if P.k = 2 then "ml-kem-512" else "ml-kem-1024"

/-- The ML-KEM key classes of `KemKeys.lean`. -/
def mlPq (P : Kem.Params) (E : Kem.Env) : PqKem where
  Priv := Keys.MlPriv
  Pub := Bytes
  pub := Keys.mlPublicKey P
  name := fun _ => mlName P
  family := fun _ => .mlkem
  ctLength := fun _ => Keys.mlCtLength P
  raw := id
  encaps := Keys.mlEncaps P E
  decaps := Keys.mlDecaps P E

/-- The component law for every ML-KEM key that was generated and loaded, for noise in the range of C35. -/
theorem mlPq_agrees (P : Kem.Params) (hP : Keys.MlSet P) (E : Kem.Env) (hE : E.Sized) (seed ek dk data m : Bytes)
    (hs : seed.length = 64) (hm : m.length = 32) (h : Kem.keygen P E (seed.take 32) (seed.drop 32) = some (ek, dk))
    (hd : data = seed ∨ data = dk ∨ data = seed ++ dk) (key : Keys.MlPriv) (hkey : Keys.mlFromPrivateBytes P E data = .value key)
    (hn : ∀ k < 256, ∃ n : Int, Kem.noiseOf P E (seed.take 32) (E.g (m ++ E.h ek)).2 m k = (n : Kem.Zq) ∧ -832 ≤ n ∧ n ≤ 832 - Kem.msgBit m k) :
    PqAgrees (mlPq P E) key m :=
  fun ss ct he => Keys.C104_agreement P hP E hE seed ek dk m ss ct data hs hm h hd key hkey he hn

/-- C71 for ML-KEM: only the laws of `cryptography` are left as assumptions, and the bound on the noise. -/
theorem C71_mlkem (P : Kem.Params) (hP : Keys.MlSet P) (KE : Kem.Env) (hKE : KE.Sized) (E : Env) (hL : Laws E.L) (hO : OaepLaw E)
    (seed ek dk data : Bytes) (hs : seed.length = 64) (h : Kem.keygen P KE (seed.take 32) (seed.drop 32) = some (ek, dk))
    (hd : data = seed ∨ data = dk ∨ data = seed ++ dk) (key : Keys.MlPriv) (hkey : Keys.mlFromPrivateBytes P KE data = .value key)
    (kind : Kind) (a : ArgPriv E.L) (sk : CompPriv (mlPq P KE) E.L) (hk : newPriv (K := mlPq P KE) kind key a = some sk)
    (priv : Option E.L.Priv) (cms : Bool) (r : Rand E.L) (hm : r.pq.length = 32)
    (hn : ∀ k < 256, ∃ n : Int, Kem.noiseOf P KE (seed.take 32) (KE.g (r.pq ++ KE.h ek)).2 r.pq k = (n : Kem.Zq) ∧ -832 ≤ n ∧ n ≤ 832 - Kem.msgBit r.pq k)
    (ss ct : Bytes) (he : compEncaps E (compPublic sk) priv cms r = .value (ss, ct)) : compDecaps E sk ct cms = .value ss := by
  have hpq : sk.pq = key := by
    unfold newPriv at hk
    split at hk <;> cases hk <;> rfl
  refine C71_agreement (mlPq P KE) E hL hO kind key a sk hk priv cms r ?_ ss ct he
  rw [hpq]
  exact mlPq_agrees P hP KE hKE seed ek dk data r.pq hs hm h hd key hkey hn

/-! ## C72: X-Wing -/

/-- What is assumed of X25519 and SHAKE256. -/
structure XLaws (X : XEnv) : Prop where
  comm : ∀ a b, X.exchange a (X.pub b) = X.exchange b (X.pub a)
  pub : ∀ a, (X.pub a).length = 32
  shake : ∀ m, (X.shake96 m).length = 96
  sized : X.kem.Sized

/-- C72. What is encapsulated for the public key of a private key is decapsulated, if ML-KEM does. -/
theorem C72_agreement (X : XEnv) (hX : XLaws X) (k : XPriv) (eph m ss ct : Bytes)
    (hml : PqAgrees (mlPq Kem.p768 X.kem) k.ml m) (h : xEncaps X (xPublicKey X k) eph m = .value (ss, ct)) :
    ct.length = 1120 ∧ xDecaps X k ct = .value ss := by
  unfold xEncaps at h
  obtain ⟨ssX, h1, h⟩ := bind_value h
  obtain ⟨⟨ssM, ctM⟩, h2, h⟩ := bind_value h
  cases h
  obtain ⟨hl, hd⟩ := hml ssM ctM h2
  have hl' : ctM.length = 1088 := hl
  have hp := hX.pub eph
  refine ⟨by rw [List.length_append, hl', hp], ?_⟩
  unfold xDecaps
  dsimp only
  have e : (X.pub eph).take 32 = X.pub eph := List.take_of_length_le (by omega)
  rw [List.take_left' hl', List.drop_left' hl', e]
  change bind (Keys.mlDecaps Kem.p768 X.kem k.ml ctM) _ = _
  have hd' : Keys.mlDecaps Kem.p768 X.kem k.ml ctM = .value ssM := hd
  rw [hd']
  change bind (lift (xLoad (X.pub eph))) _ = _
  unfold xLoad
  rw [if_pos hp]
  change bind (lift (X.exchange k.x (X.pub eph))) _ = _
  have h1' : X.exchange eph (X.pub k.x) = .ok ssX := lift_value h1
  rw [hX.comm k.x eph, h1']
  rfl

/-- The claim that a shared secret has one ciphertext. -/
def xUnique : Prop :=
  ∀ X, XLaws X → ∀ k ct ct' ss, xDecaps X k ct = .value ss → xDecaps X k ct' = .value ss → ct = ct'

/-- C72. What follows the 1120 bytes of a ciphertext is ignored. -/
theorem C72_trailing (X : XEnv) (k : XPriv) (ct extra : Bytes) (h : 1120 ≤ ct.length) :
    xDecaps X k (ct ++ extra) = xDecaps X k ct := by
  unfold xDecaps
  have e1 : (ct ++ extra).take 1088 = ct.take 1088 := List.take_append_of_le_length (by omega)
  have e2 : ((ct ++ extra).drop 1088).take 32 = (ct.drop 1088).take 32 := by
    rw [List.drop_append_of_le_length (by omega), List.take_append_of_le_length (by rw [List.length_drop]; omega)]
  rw [e1, e2]

/-- C72. Ciphertexts that are too short are refused. -/
theorem C72_short (X : XEnv) (k : XPriv) (ct ss : Bytes) (h : ct.length < 1120) : xDecaps X k ct ≠ .value ss := by
  intro hv
  unfold xDecaps at hv
  dsimp only at hv
  obtain ⟨ssM, h1, hv⟩ := bind_value hv
  obtain ⟨pk, h2, hv⟩ := bind_value hv
  have h2 := lift_value h2
  unfold xLoad at h2
  split at h2
  · rename_i hl
    rw [List.length_take, List.length_drop] at hl
    omega
  · cases h2

/-- X25519 and SHAKE256 replaced by constants: the laws hold. -/
def zeroX : XEnv where
  kem := Kem.zeroEnv
  pub := fun _ => List.replicate 32 9
  exchange := fun _ _ => .ok (List.replicate 32 1)
  sha3 := id
  shake96 := fun _ => List.replicate 96 5

theorem zeroX_laws : XLaws zeroX := ⟨fun _ _ => rfl, fun _ => List.length_replicate, fun _ => List.length_replicate, Kem.zeroEnv_sized⟩

theorem zero_keygen (P : Kem.Params) (d z : Bytes) : ∃ ek dk, Kem.keygen P Kem.zeroEnv d z = some (ek, dk) := by
  obtain ⟨a, ha⟩ := Kem.zero_matrix (E := Kem.zeroEnv) rfl rfl P (Kem.zeroEnv.g (d ++ [UInt8.ofNat P.k])).1
  unfold Kem.keygen Kem.kpkeKeygen
  simp only [ha]
  exact ⟨_, _, rfl⟩

/-- Decapsulation with a generated key succeeds for every ciphertext of 1120 bytes. -/
theorem zeroX_decaps (ct : Bytes) (h : ct.length = 1120) : ∃ k ss, xDecaps zeroX k ct = .value ss := by
  obtain ⟨ek, dk, hk⟩ := zero_keygen Kem.p768 (List.replicate 32 0) (List.replicate 32 0)
  obtain ⟨mp, cp, _, hd⟩ := Kem.C37_implicit_rejection Kem.p768 Kem.zeroEnv Kem.zeroEnv_sized _ _ ek dk List.length_replicate hk (ct.take 1088)
  have hd : ∃ s, Kem.decaps Kem.p768 Kem.zeroEnv dk (ct.take 1088) = some s := by
    rcases hd with ⟨_, hd⟩ | ⟨_, hd⟩ <;> exact ⟨_, hd⟩
  obtain ⟨s, hd⟩ := hd
  refine ⟨⟨⟨dk, none, none⟩, [], none⟩, ?_⟩
  unfold xDecaps
  dsimp only
  have hm : Keys.mlDecaps Kem.p768 zeroX.kem ⟨dk, none, none⟩ (ct.take 1088) = .value s := by
    unfold Keys.mlDecaps
    rw [if_neg (by rw [List.length_take, h]; decide)]
    change Out.ofOption (Kem.decaps Kem.p768 Kem.zeroEnv dk (ct.take 1088)) = _
    rw [hd]
    rfl
  rw [hm]
  change ∃ ss, bind (lift (xLoad ((ct.drop 1088).take 32))) _ = .value ss
  unfold xLoad
  rw [if_pos (by rw [List.length_take, List.length_drop, h]; rfl)]
  exact ⟨_, rfl⟩

/-- C72 is false of the code: the slice `ct[1088:1120]` drops trailing bytes. -/
theorem C72_unique_refuted : ¬ xUnique := by
  intro h
  obtain ⟨k, ss, hd⟩ := zeroX_decaps (List.replicate 1120 0) List.length_replicate
  have e := h zeroX zeroX_laws k _ (List.replicate 1120 0 ++ [0]) ss hd
    (by rw [C72_trailing zeroX k _ _ (Nat.le_of_eq List.length_replicate.symm)]; exact hd)
  have := congrArg List.length e
  rw [List.length_append, List.length_replicate] at this
  exact absurd this (by decide)

theorem mlDecaps_length (P : Kem.Params) (E : Kem.Env) (hE : E.Sized) (hj : ∀ x, (E.j x).length = 32) (k : Keys.MlPriv) (ct ss : Bytes)
    (h : Keys.mlDecaps P E k ct = .value ss) : ss.length = 32 := by
  unfold Keys.mlDecaps at h
  split at h
  · cases h
  · cases hd : Kem.decaps P E k.dk ct with
    | none => rw [hd] at h; cases h
    | some s =>
      rw [hd] at h
      cases h
      unfold Kem.decaps at hd
      dsimp only at hd
      split at hd
      · cases hd
      · cases hd
        split
        · exact hj _
        · exact (hE.g _).1

/-- C72. Two decapsulations that give one secret used the same X25519 ciphertext and the same two component secrets, and
were made with the same X25519 key, unless SHA3-256 has a collision. What remains open is whether ML-KEM has one ciphertext for a secret. -/
theorem C72_binding_partial (X : XEnv) (hX : XLaws X) (hj : ∀ x, (X.kem.j x).length = 32)
    (hx : ∀ a p s, X.exchange a p = .ok s → s.length = 32) (k k' : XPriv) (ct ct' ss : Bytes)
    (h : xDecaps X k ct = .value ss) (h' : xDecaps X k' ct' = .value ss) :
    Collision X.sha3 ∨ ((ct.drop 1088).take 32 = (ct'.drop 1088).take 32 ∧ X.pub k.x = X.pub k'.x ∧
      ∃ ssM, Keys.mlDecaps Kem.p768 X.kem k.ml (ct.take 1088) = .value ssM ∧ Keys.mlDecaps Kem.p768 X.kem k'.ml (ct'.take 1088) = .value ssM) := by
  unfold xDecaps at h h'
  dsimp only at h h'
  obtain ⟨m, h1, h⟩ := bind_value h
  obtain ⟨p, h2, h⟩ := bind_value h
  obtain ⟨x, h3, h⟩ := bind_value h
  obtain ⟨m', h1', h'⟩ := bind_value h'
  obtain ⟨p', h2', h'⟩ := bind_value h'
  obtain ⟨x', h3', h'⟩ := bind_value h'
  have len : ∀ {c q : Bytes}, xLoad c = .ok q → c.length = 32 := by
    intro c q hc
    unfold xLoad at hc
    split at hc
    · assumption
    · cases hc
  have l1 := mlDecaps_length _ _ hX.sized hj _ _ _ h1
  have l1' := mlDecaps_length _ _ hX.sized hj _ _ _ h1'
  have l2 := len (lift_value h2)
  have l2' := len (lift_value h2')
  have l3 := hx _ _ _ (lift_value h3)
  have l3' := hx _ _ _ (lift_value h3')
  have e := (Out.value.inj h).trans (Out.value.inj h').symm
  unfold xCombiner at e
  by_cases he : m ++ x ++ (ct.drop 1088).take 32 ++ X.pub k.x ++ xLabel = m' ++ x' ++ (ct'.drop 1088).take 32 ++ X.pub k'.x ++ xLabel
  · have he := List.append_cancel_right he
    obtain ⟨he, e4⟩ := List.append_inj he (by simp only [List.length_append, l1, l1', l2, l2', l3, l3'])
    obtain ⟨he, e3⟩ := List.append_inj he (by simp only [List.length_append, l1, l1', l3, l3'])
    obtain ⟨e1, e2⟩ := List.append_inj he (by omega)
    subst e1
    exact Or.inr ⟨e3, e4, m, h1, h1'⟩
  · exact Or.inl ⟨_, _, he, e⟩

/-! ## C108: X-Wing private keys -/

/-- The X-Wing draft's `expandDecapsulationKey`: ML-KEM-768 key generation from the first 64 bytes of SHAKE256(seed, 96), the
rest is the X25519 private key. -/
def XExpands (X : XEnv) (full ek dk x : Bytes) : Prop :=
  full.length = 96 ∧ Kem.keygen Kem.p768 X.kem (full.take 32) ((full.drop 32).take 32) = some (ek, dk) ∧ x = full.drop 64

theorem mlSet768 : Keys.MlSet Kem.p768 := Or.inr (Or.inl rfl)

theorem ml_seed {X : XEnv} {full ek dk x : Bytes} (h : XExpands X full ek dk x) :
    Keys.mlFromPrivateBytes Kem.p768 X.kem (full.take 64) = .value ⟨dk, some ek, some (full.take 64)⟩ := by
  obtain ⟨hl, hk, _⟩ := h
  have l : (full.take 64).length = 64 := by rw [List.length_take, hl]; rfl
  have e1 : (full.take 64).take 32 = full.take 32 := by rw [List.take_take]; rfl
  have e2 : (full.take 64).drop 32 = (full.drop 32).take 32 := by rw [List.drop_take]
  unfold Keys.mlFromPrivateBytes Keys.mlFromSeed
  rw [if_pos l, if_neg (fun h => h l), e1, e2, hk]
  rfl

theorem xFromSeedCore_eq {X : XEnv} {seed ek dk x : Bytes} (full : Bytes) (hfull : (if seed.length = 32 then X.shake96 seed else seed) = full)
    (h : XExpands X full ek dk x) : xFromSeedCore X seed = .value ⟨⟨dk, some ek, some (full.take 64)⟩, x, some seed⟩ := by
  have hm := ml_seed h
  obtain ⟨hl, hk, rfl⟩ := h
  unfold xFromSeedCore
  rw [hfull]
  dsimp only
  rw [if_neg (fun h => h hl), hm]
  change bind (lift (xLoad ((full.drop 64).take 32))) _ = _
  have e : (full.drop 64).take 32 = full.drop 64 := List.take_of_length_le (by rw [List.length_drop, hl])
  unfold xLoad
  rw [e, if_pos (by rw [List.length_drop, hl])]
  rfl

theorem xExpand_seed (X : XEnv) (seed r : Bytes) (h : seed.length = 32) : xExpand X (some seed) r = xFromSeedCore X seed := by
  cases seed with
  | nil => cases h
  | cons b bs => rfl

/-- C108. The four encodings of a key: the seed, the expanded seed, the two private keys, and the seed with the private keys.
All are loaded to the same private keys with the public key of the draft. -/
theorem C108_import (X : XEnv) (hX : XLaws X) (seed ek dk x : Bytes) (hs : seed.length = 32) (h : XExpands X (X.shake96 seed) ek dk x) :
    ∀ data, data = seed ∨ data = X.shake96 seed ∨ data = dk ++ x ∨ data = seed ++ (dk ++ x) →
      ∃ k, xFromPrivateBytes X data = .value k ∧ k.ml.dk = dk ∧ k.x = x ∧ xPublicKey X k = ⟨ek, X.pub x⟩ ∧
        (xExport k = seed ∨ xExport k = dk ++ x) := by
  have hm := ml_seed h
  have hcore := xFromSeedCore_eq (X.shake96 seed) (if_pos hs) h
  have hfull := h.1
  obtain ⟨_, hk, rfl⟩ := h
  have hz : (((X.shake96 seed).drop 32).take 32).length = 32 := by rw [List.length_take, List.length_drop, hfull]; rfl
  have hdl : dk.length = 2400 := (Kem.C38_key_sizes Kem.p768 X.kem hX.sized _ _ ek dk hz hk).2
  have hpub : Kem.getPublicKey Kem.p768 dk = ek := Kem.C38_public_key Kem.p768 X.kem hX.sized _ _ ek dk hz hk
  have hxl : ((X.shake96 seed).drop 64).length = 32 := by rw [List.length_drop, hfull]
  generalize X.shake96 seed = full at *
  have hload : xLoad (full.drop 64) = .ok (full.drop 64) := if_pos hxl
  have hml : Keys.mlFromPrivateBytes Kem.p768 X.kem dk = .value ⟨dk, none, none⟩ := by
    unfold Keys.mlFromPrivateBytes
    rw [if_neg (by rw [hdl]; decide), if_neg (by rw [hdl]; decide), if_pos (by rw [hdl]; decide)]
    rfl
  have hexp : ∀ m y, xExport ⟨m, y, some seed⟩ = seed := by
    intro m y
    cases seed with
    | nil => cases hs
    | cons b bs => rfl
  generalize hy : full.drop 64 = y at *
  have lr : (dk ++ y).length = 2432 := by rw [List.length_append, hdl, hxl]
  rintro data (rfl | rfl | rfl | rfl)
  · refine ⟨⟨⟨dk, some ek, some (full.take 64)⟩, y, some data⟩, ?_, rfl, rfl, rfl, Or.inl (hexp _ _)⟩
    unfold xFromPrivateBytes
    rw [if_neg (by rw [hs]; decide), if_pos hs, xExpand_seed X _ _ hs, hcore]
  · refine ⟨⟨⟨dk, some ek, some (data.take 64)⟩, y, none⟩, ?_, rfl, rfl, rfl, Or.inr rfl⟩
    unfold xFromPrivateBytes
    rw [if_pos hfull, hm, hy, hload]
    rfl
  · refine ⟨⟨⟨dk, none, none⟩, y, none⟩, ?_, rfl, rfl, ?_, Or.inr rfl⟩
    · unfold xFromPrivateBytes
      rw [if_neg (by rw [lr]; decide), if_neg (by rw [lr]; decide), if_neg (by rw [lr]; decide), if_neg (by rw [lr]; decide),
        List.drop_left' hdl, List.take_left' hdl, hload, hml]
      rfl
    · unfold xPublicKey
      exact congrArg (fun p => (⟨p, X.pub y⟩ : XPub)) hpub
  · refine ⟨⟨⟨dk, some ek, some (full.take 64)⟩, y, some seed⟩, ?_, rfl, rfl, rfl, Or.inl (hexp _ _)⟩
    have lt : (seed ++ (dk ++ y)).length = 2464 := by rw [List.length_append, lr, hs]
    have e1 : (seed ++ (dk ++ y)).take 32 = seed := List.take_left' hs
    have e2 : ((seed ++ (dk ++ y)).drop 32).take 2400 = dk := by rw [List.drop_left' hs, List.take_left' hdl]
    have e3 : (seed ++ (dk ++ y)).drop 2432 = y := by
      rw [← List.append_assoc]
      exact List.drop_left' (by rw [List.length_append, hs, hdl])
    unfold xFromPrivateBytes
    rw [if_neg (by rw [lt]; decide), if_neg (by rw [lt]; decide), if_neg (by rw [lt]; decide), if_pos (by rw [lt]), e1, e2, e3,
      xExpand_seed X _ _ hs, hcore, hload, hml]
    change (if dk ++ y ≠ dk ++ y then _ else _) = _
    rw [if_neg (fun h => h rfl)]

/-- C108. The seed is checked: a seed together with private keys is only accepted if the seed expands to these keys. -/
theorem C108_checked (X : XEnv) (hX : XLaws X) (data : Bytes) (hl : data.length = 2464) (k : XPriv)
    (h : xFromPrivateBytes X data = .value k) :
    ∃ ek, XExpands X (X.shake96 (data.take 32)) ek k.ml.dk k.x ∧ data = data.take 32 ++ (k.ml.dk ++ k.x) ∧ k.seed = some (data.take 32) := by
  have hs : (data.take 32).length = 32 := by rw [List.length_take, hl]; rfl
  have hfull := hX.shake (data.take 32)
  unfold xFromPrivateBytes at h
  rw [if_neg (by rw [hl]; decide), if_neg (by rw [hl]; decide), if_neg (by rw [hl]; decide), if_pos (by rw [hl])] at h
  obtain ⟨sk, h1, h⟩ := bind_value h
  obtain ⟨x, h2, h⟩ := bind_value h
  obtain ⟨m, h3, h⟩ := bind_value h
  split at h
  · cases h
  · rename_i hraw
    cases h
    rw [xExpand_seed X _ _ hs] at h1
    unfold xFromSeedCore at h1
    dsimp only at h1
    rw [if_pos hs, if_neg (fun h => h hfull)] at h1
    obtain ⟨ml, h4, h1⟩ := bind_value h1
    obtain ⟨y, h5, h1⟩ := bind_value h1
    cases h1
    have hraw : ml.dk ++ y = m.dk ++ x := Classical.byContradiction hraw
    unfold Keys.mlFromPrivateBytes Keys.mlFromSeed at h4
    have l64 : ((X.shake96 (data.take 32)).take 64).length = 64 := by rw [List.length_take, hfull]; rfl
    rw [if_pos l64, if_neg (fun h => h l64)] at h4
    have e1 : ((X.shake96 (data.take 32)).take 64).take 32 = (X.shake96 (data.take 32)).take 32 := by rw [List.take_take]; rfl
    have e2 : ((X.shake96 (data.take 32)).take 64).drop 32 = ((X.shake96 (data.take 32)).drop 32).take 32 := by rw [List.drop_take]
    rw [e1, e2] at h4
    cases hk : Kem.keygen Kem.p768 X.kem ((X.shake96 (data.take 32)).take 32) (((X.shake96 (data.take 32)).drop 32).take 32) with
    | none => rw [hk] at h4; cases h4
    | some r =>
      rw [hk] at h4
      cases h4
      obtain ⟨ek, dk⟩ := r
      have e3 : ((X.shake96 (data.take 32)).drop 64).take 32 = (X.shake96 (data.take 32)).drop 64 :=
        List.take_of_length_le (by rw [List.length_drop, hfull])
      rw [e3] at h5
      have h5 := lift_value h5
      unfold xLoad at h5
      rw [if_pos (by rw [List.length_drop, hfull])] at h5
      cases h5
      refine ⟨ek, ⟨hfull, hk, rfl⟩, ?_, rfl⟩
      have h2 := lift_value h2
      unfold xLoad at h2
      rw [if_pos (by rw [List.length_drop, hl])] at h2
      cases h2
      have l24 : ((data.drop 32).take 2400).length = 2400 := by rw [List.length_take, List.length_drop, hl]; rfl
      unfold Keys.mlFromPrivateBytes at h3
      rw [if_neg (by rw [l24]; decide), if_neg (by rw [l24]; decide), if_pos (by rw [l24]; decide)] at h3
      cases h3
      have hraw : dk ++ (X.shake96 (data.take 32)).drop 64 = (data.drop 32).take 2400 ++ data.drop 2432 := hraw
      change data = data.take 32 ++ (dk ++ (X.shake96 (data.take 32)).drop 64)
      rw [hraw]
      have e4 : data.drop 2432 = (data.drop 32).drop 2400 := by rw [List.drop_drop]
      rw [e4, List.take_append_drop, List.take_append_drop]

/-- C108. Data of any other length is refused. -/
theorem C108_lengths (X : XEnv) (data : Bytes) (h : data.length ≠ 32 ∧ data.length ≠ 96 ∧ data.length ≠ 2432 ∧ data.length ≠ 2464) :
    xFromPrivateBytes X data = .raised .invalidKeyData := by
  unfold xFromPrivateBytes
  rw [if_neg h.2.1, if_neg h.1, if_pos ⟨h.2.2.1, h.2.2.2⟩]

/-- C108. Public keys: exactly the strings of 1216 bytes are loaded, and exporting gives them back. -/
theorem C108_public (data : Bytes) (k : XPub) : xFromPublicBytes data = .ok k ↔ data.length = 1216 ∧ k = ⟨data.take 1184, data.drop 1184⟩ := by
  unfold xFromPublicBytes
  by_cases hl : data.length = 1216
  · rw [if_neg (fun h => h hl)]
    have e1 : xLoad (data.drop 1184) = .ok (data.drop 1184) := if_pos (by rw [List.length_drop, hl])
    have e2 : Keys.mlFromPublicBytes Kem.p768 (data.take 1184) = .ok (data.take 1184) :=
      (Keys.C104_public_lengths Kem.p768 _).2 (by rw [List.length_take, hl]; rfl)
    rw [e1]
    dsimp only
    rw [e2]
    constructor
    · intro h; cases h; exact ⟨hl, rfl⟩
    · rintro ⟨_, rfl⟩; rfl
  · rw [if_pos hl]
    constructor
    · intro h; cases h
    · intro h; exact absurd h.1 hl

theorem C108_public_export (data : Bytes) (k : XPub) (h : xFromPublicBytes data = .ok k) : xPublicRaw k = data := by
  obtain ⟨_, rfl⟩ := (C108_public data k).1 h
  exact List.take_append_drop _ _

/-- The hypotheses of C108 are satisfiable. -/
example : ∃ ek dk, XExpands zeroX (zeroX.shake96 (List.replicate 32 1)) ek dk (List.replicate 32 5) := by
  obtain ⟨ek, dk, hk⟩ := zero_keygen Kem.p768 (List.replicate 32 5) (List.replicate 32 5)
  exact ⟨ek, dk, List.length_replicate, hk, rfl⟩

/-! ## C73: Chempat -/

/-- The lengths of the encoded public keys (SEC 1 uncompressed points: two field elements and one byte; raw keys). -/
def EncLen (L : Lib) : Prop :=
  ∀ p, (L.encode p).length = match L.pubCurve p with
    | .x25519 => 32
    | .x448 => 56
    | .ec name => 2 * ((bitLength (fieldPrime name) + 7) / 8) + 1

/-- The curve has whole bytes. -/
def WholeBytes : Curve → Prop
  | .ec name => curveBits name % 8 = 0
  | _ => True

theorem contextCurve_bits {c : Curve} {cn : String} (h : contextCurve c = .ok cn) : WholeBytes c := by
  cases c with
  | x25519 => trivial
  | x448 => trivial
  | ec name =>
    have h : look name curveContext = .ok cn := h
    unfold look at h
    split at h
    · rename_i v hv
      have : ∀ e ∈ curveContext, curveBits e.1 % 8 = 0 := by decide
      exact this _ (lookup_mem hv)
    · cases h

theorem getContext_curve {f : Family} {n : String} {c : Curve} {ctx : Bytes} (h : getContext f n c = .ok ctx) :
    ∃ pq cn, contextPq f n = .ok pq ∧ contextCurve c = .ok cn ∧ ctx = ascii "Chempat-" ++ ascii cn ++ ascii "-" ++ ascii pq := by
  unfold getContext at h
  split at h
  · cases h
  · rename_i pq hpq
    split at h
    · cases h
    · rename_i cn hcn
      cases h
      exact ⟨pq, cn, hpq, hcn, rfl⟩

/-- The ciphertext of the traditional KEM is the encoding of a key on the same curve. -/
theorem dhEncaps_ct {L : Lib} (hL : Laws L) {rfc : Bool} {priv : Option L.Priv} {gen : L.Priv} {pk : L.Pub} {ss ct : Bytes}
    (h : dhEncaps L rfc priv gen pk = .ok (ss, ct)) : ∃ p, ct = L.encode p ∧ L.pubCurve p = L.pubCurve pk := by
  have hx : ∀ sk s, L.exchange sk pk = .ok s → L.pubCurve (L.pub sk) = L.pubCurve pk := by
    intro sk s hs
    rw [hL.curve]
    exact exchange_curve hL hs
  cases rfc with
  | false =>
    change ecdhEncaps L priv gen pk = _ at h
    unfold ecdhEncaps performEcdh at h
    dsimp only at h
    split at h
    · cases h
    · rename_i s hs
      cases h
      split at hs
      · exact ⟨_, rfl, hx _ _ hs⟩
      · cases hs
  | true =>
    change dhkemEncaps L priv gen pk = _ at h
    unfold dhkemEncaps performExchange at h
    dsimp only at h
    split at h
    · cases h
    · rename_i s hs
      have hc : L.pubCurve (L.pub (priv.getD gen)) = L.pubCurve pk := by
        split at hs
        · exact hx _ _ hs
        · cases hs
      split at h
      · cases h
      · split at h
        · cases h
        · split at h
          · cases h
          · cases h
            exact ⟨_, rfl, hc⟩

/-- C73. What is encapsulated is decapsulated, if the component KEMs agree. -/
theorem C73_agreement (K : PqKem) (E : Env) (hL : Laws E.L) (hE : EncLen E.L) (k : ChPriv K E.L) (priv : Option E.L.Priv) (r : Rand E.L)
    (hpq : PqAgrees K k.pq r.pq) (ss ct : Bytes) (h : chEncaps E (chPublic k) priv r = .value (ss, ct)) :
    chDecaps E k ct = .value ss := by
  unfold chEncaps at h
  obtain ⟨⟨ss1, ct1⟩, h1, h⟩ := bind_value h
  obtain ⟨⟨ss2, ct2⟩, h2, h⟩ := bind_value h
  obtain ⟨ctx, h3, h⟩ := bind_value h
  cases h
  obtain ⟨hl, hd⟩ := hpq ss1 ct1 h1
  have h2 := lift_value h2
  have h3 := lift_value h3
  have ht : dhDecaps E.L true k.trad ct2 = .ok ss2 := C103_class_agreement E.L hL true priv r.gen k.trad ss2 ct2 h2
  obtain ⟨p, hp, hc⟩ := dhEncaps_ct hL h2
  obtain ⟨pn, cn, _, hcn, _⟩ := getContext_curve h3
  have hlen := hE p
  rw [← hp, hc] at hlen
  have hbits := contextCurve_bits hcn
  have htail : ∀ n, n = ct2.length → (bind (lift (dhDecaps E.L true k.trad ((ct2 ++ ct1).take n))) fun tradSs =>
      bind (K.decaps k.pq ((ct2 ++ ct1).drop n)) fun pqSs =>
      bind (lift (getContext (K.family (K.pub k.pq)) (K.name (K.pub k.pq)) (E.L.pubCurve (E.L.pub k.trad)))) fun context =>
      .value (chCombiner E ((ct2 ++ ct1).take n) tradSs ((ct2 ++ ct1).drop n) pqSs (K.raw (K.pub k.pq)) (E.L.encode (E.L.pub k.trad)) context)) =
      .value (chCombiner E ct2 ss2 ct1 ss1 (K.raw (chPublic k).pq) (E.L.encode (chPublic k).trad) ctx) := by
    intro n hn
    rw [List.take_left' hn.symm, List.drop_left' hn.symm, ht, hd]
    change bind (lift (getContext _ _ _)) _ = _
    rw [show getContext (K.family (K.pub k.pq)) (K.name (K.pub k.pq)) (E.L.pubCurve (E.L.pub k.trad)) = .ok ctx from h3]
    rfl
  unfold chDecaps
  dsimp only
  have hl' : (ct2 ++ ct1).length = ct2.length + K.ctLength k.pq := by rw [List.length_append, hl]
  change ct2.length = match E.L.pubCurve (E.L.pub k.trad) with | .x25519 => 32 | .x448 => 56 | .ec name => 2 * ((bitLength (fieldPrime name) + 7) / 8) + 1 at hlen
  change WholeBytes (E.L.pubCurve (E.L.pub k.trad)) at hbits
  have hn : ∃ b, checkCtLength (K.ctLength k.pq + dhCtLength (E.L.pubCurve (E.L.pub k.trad))) (dhCtLength (E.L.pubCurve (E.L.pub k.trad)))
      (isEc (E.L.pubCurve (E.L.pub k.trad))) (ct2 ++ ct1) = .ok b ∧
      (if b then dhCtLength (E.L.pubCurve (E.L.pub k.trad)) else
        dhCtLength (E.L.pubCurve (E.L.pub k.trad)) + dhCtLength (E.L.pubCurve (E.L.pub k.trad)) - 1) = ct2.length := by
    unfold checkCtLength
    rw [hl']
    revert hlen hbits
    generalize E.L.pubCurve (E.L.pub k.trad) = c
    cases c with
    | x25519 =>
      intro hlen _
      rw [if_neg (by rw [hlen]; change ¬ (((32 + K.ctLength k.pq : Nat) : Int) ≠ ((K.ctLength k.pq + 32 : Nat) : Int)); omega)]
      exact ⟨true, rfl, hlen.symm⟩
    | x448 =>
      intro hlen _
      rw [if_neg (by rw [hlen]; change ¬ (((56 + K.ctLength k.pq : Nat) : Int) ≠ ((K.ctLength k.pq + 56 : Nat) : Int)); omega)]
      exact ⟨true, rfl, hlen.symm⟩
    | ec name =>
      intro hlen hb
      have hlen : ct2.length = 2 * ((curveBits name + 7) / 8) + 1 := by rw [curveBits_prime]; exact hlen
      have hb : curveBits name % 8 = 0 := hb
      change ∃ b : Bool, (if ((ct2.length + K.ctLength k.pq : Nat) : Int) ≠ ((K.ctLength k.pq + (curveBits name / 8 + 1) : Nat) : Int) then
        if true ∧ ((ct2.length + K.ctLength k.pq : Nat) : Int) = ((K.ctLength k.pq + (curveBits name / 8 + 1) : Nat) : Int) + ((curveBits name / 8 + 1 : Nat) : Int) - 1
          then .ok false else .error .valueError else .ok true : Except PyErr Bool) = .ok b ∧
        (if b then curveBits name / 8 + 1 else curveBits name / 8 + 1 + (curveBits name / 8 + 1) - 1) = ct2.length
      clear hl' htail
      revert hlen hb
      generalize curveBits name = n
      generalize ct2.length = l
      generalize K.ctLength k.pq = q
      intro hlen hb
      by_cases h0 : n / 8 = 0
      · rw [if_neg (by omega)]
        exact ⟨true, rfl, by rw [if_pos rfl]; omega⟩
      · rw [if_pos (by omega), if_pos ⟨rfl, by omega⟩]
        exact ⟨false, rfl, by rw [if_neg (by decide)]; omega⟩
  obtain ⟨b, hb, hn⟩ := hn
  rw [hb]
  exact htail _ hn

/-- The KEMs and curves of the Chempat algorithms. -/
def chPq : List (Family × String) :=
  [(.sntrup, "sntrup761"), (.mceliece, "mceliece-348864"), (.mceliece, "mceliece-460896"), (.mceliece, "mceliece-6688128"),
   (.mceliece, "mceliece-6960119"), (.mceliece, "mceliece-8192128"), (.mlkem, "ml-kem-512"), (.mlkem, "ml-kem-768"),
   (.mlkem, "ml-kem-1024"), (.frodo, "frodokem-640-aes"), (.frodo, "frodokem-640-shake"), (.frodo, "frodokem-976-aes"),
   (.frodo, "frodokem-976-shake"), (.frodo, "frodokem-1344-aes"), (.frodo, "frodokem-1344-shake")]

def chCurves : List Curve :=
  [.x25519, .x448, .ec "secp256r1", .ec "secp384r1", .ec "brainpoolP256r1", .ec "brainpoolP384r1", .ec "brainpoolP512r1"]

/-- Every name of the table of object identifiers is such a combination. -/
theorem C73_table : ∀ e ∈ chempatNameToOid, ∃ p ∈ chPq, ∃ c ∈ chCurves, e.1 = "chempat-" ++ p.2 ++ "-" ++ dhTradName c := by decide +kernel

/-- The claim that the context identifies the combination. -/
def contextIdentifies : Prop :=
  ∀ p ∈ chPq, ∀ p' ∈ chPq, ∀ c ∈ chCurves, ∀ c' ∈ chCurves, ∀ ctx,
    getContext p.1 p.2 c = .ok ctx → getContext p'.1 p'.2 c' = .ok ctx → p = p' ∧ c = c'

/-- C73 is false: the AES and SHAKE variants of FrodoKEM, with different object identifiers, share their contexts. -/
theorem C73_context_refuted : ¬ contextIdentifies := by
  intro h
  have := (h (.frodo, "frodokem-976-aes") (by decide) (.frodo, "frodokem-976-shake") (by decide) .x25519 (by decide) .x25519 (by decide)
    (ascii "Chempat-X25519-FrodoKEM-976") (by decide +kernel) (by decide +kernel)).1
  exact absurd this (by decide)

/-- The two FrodoKEM variants of each size. -/
def frodoVariants : List (String × String) :=
  [("frodokem-640-aes", "frodokem-640-shake"), ("frodokem-976-aes", "frodokem-976-shake"), ("frodokem-1344-aes", "frodokem-1344-shake")]

def sameKem (a b : String) : Prop := a = b ∨ (a, b) ∈ frodoVariants ∨ (b, a) ∈ frodoVariants

instance (a b : String) : Decidable (sameKem a b) := by unfold sameKem; infer_instance

theorem pq_table : ∀ p ∈ chPq, ∀ p' ∈ chPq, ∀ n ∈ (contextPq p.1 p.2).toOption, ∀ n' ∈ (contextPq p'.1 p'.2).toOption, ascii n = ascii n' → sameKem p.2 p'.2 := by
  decide +kernel

theorem pq_noC : ∀ p ∈ chPq, ∀ n ∈ (contextPq p.1 p.2).toOption, (67 : UInt8) ∉ ascii n := by decide +kernel

theorem curve_table : ∀ c ∈ chCurves, ∀ c' ∈ chCurves, ∀ n ∈ (contextCurve c).toOption, ∀ n' ∈ (contextCurve c').toOption, ascii n = ascii n' → c = c' := by
  decide +kernel

theorem curve_noC : ∀ c ∈ chCurves, ∀ n ∈ (contextCurve c).toOption, (67 : UInt8) ∉ ascii n ∧ (45 : UInt8) ∉ ascii n := by decide +kernel

theorem mem_opt {ε α : Type} {r : Except ε α} {a : α} (h : r = .ok a) : a ∈ r.toOption := by rw [h]; rfl

theorem append_sep {x x' y y' : Bytes} {s : UInt8} : s ∉ x → s ∉ x' → x ++ s :: y = x' ++ s :: y' → x = x' ∧ y = y' := by
  induction x generalizing x' with
  | nil =>
    intro _ h' e
    cases x' with
    | nil => cases e; exact ⟨rfl, rfl⟩
    | cons b bs => cases e; exact absurd List.mem_cons_self h'
  | cons a as ih =>
    intro h h' e
    cases x' with
    | nil => cases e; exact absurd List.mem_cons_self h
    | cons b bs =>
      have e' : a = b ∧ as ++ s :: y = bs ++ s :: y' := List.cons.inj e
      obtain ⟨h1, h2⟩ := ih (fun m => h (List.mem_cons_of_mem _ m)) (fun m => h' (List.mem_cons_of_mem _ m)) e'.2
      exact ⟨by rw [e'.1, h1], h2⟩

/-- C73, what holds: a context that ends another one belongs to the same curve and the same KEM, up to the variant of
FrodoKEM. -/
theorem C73_context_partial (p : Family × String) (hp : p ∈ chPq) (p' : Family × String) (hp' : p' ∈ chPq) (c : Curve) (hc : c ∈ chCurves)
    (c' : Curve) (hc' : c' ∈ chCurves) (ctx ctx' : Bytes) (h : getContext p.1 p.2 c = .ok ctx) (h' : getContext p'.1 p'.2 c' = .ok ctx')
    (hs : ctx <:+ ctx') : ctx = ctx' ∧ c = c' ∧ sameKem p.2 p'.2 := by
  obtain ⟨pq, cn, h1, h2, rfl⟩ := getContext_curve h
  obtain ⟨pq', cn', h1', h2', rfl⟩ := getContext_curve h'
  have n2 := curve_noC c hc cn (mem_opt h2)
  have n2' := curve_noC c' hc' cn' (mem_opt h2')
  have n1' := pq_noC p' hp' pq' (mem_opt h1')
  have e : ascii "Chempat-" = [67, 104, 101, 109, 112, 97, 116, 45] := by decide +kernel
  have e2 : ascii "-" = [45] := by decide +kernel
  rw [e, e2] at hs ⊢
  have heq : [67, 104, 101, 109, 112, 97, 116, 45] ++ ascii cn ++ [45] ++ ascii pq = [67, 104, 101, 109, 112, 97, 116, 45] ++ ascii cn' ++ [45] ++ ascii pq' := by
    obtain ⟨t, ht⟩ := hs
    cases t with
    | nil => exact ht
    | cons b bs =>
      exfalso
      have hm : (67 : UInt8) ∈ [104, 101, 109, 112, 97, 116, 45] ++ ascii cn' ++ [45] ++ ascii pq' := by
        have : bs ++ ([67, 104, 101, 109, 112, 97, 116, 45] ++ ascii cn ++ [45] ++ ascii pq) = [104, 101, 109, 112, 97, 116, 45] ++ ascii cn' ++ [45] ++ ascii pq' :=
          (List.cons.inj ht).2
        rw [← this]
        exact List.mem_append_right _ List.mem_cons_self
      rw [List.mem_append, List.mem_append, List.mem_append] at hm
      rcases hm with ((hm | hm) | hm) | hm
      · revert hm; decide
      · exact n2'.1 hm
      · revert hm; decide
      · exact n1' hm
  refine ⟨heq, ?_⟩
  rw [List.append_assoc, List.append_assoc, List.append_assoc, List.append_assoc] at heq
  have heq := List.append_cancel_left heq
  obtain ⟨ha, hb⟩ := append_sep n2.2 n2'.2 heq
  exact ⟨curve_table c hc c' hc' cn (mem_opt h2) cn' (mem_opt h2') ha, pq_table p hp p' hp' pq (mem_opt h1) pq' (mem_opt h1') hb⟩

/-- C73. Equal shared secrets: a collision of SHA3-256, or the same ciphertext, public key and component secrets under the
same combination (up to the variant of FrodoKEM). -/
theorem C73_binding (E : Env) (hsha : ∀ m, (E.sha3 m).length = 32) (p : Family × String) (hp : p ∈ chPq) (p' : Family × String) (hp' : p' ∈ chPq)
    (c : Curve) (hc : c ∈ chCurves) (c' : Curve) (hc' : c' ∈ chCurves) (ctx ctx' : Bytes) (h : getContext p.1 p.2 c = .ok ctx)
    (h' : getContext p'.1 p'.2 c' = .ok ctx') (tct tss pct pss ppk tpk tct' tss' pct' pss' ppk' tpk' : Bytes)
    (e : chCombiner E tct tss pct pss ppk tpk ctx = chCombiner E tct' tss' pct' pss' ppk' tpk' ctx') :
    Collision E.sha3 ∨ (c = c' ∧ sameKem p.2 p'.2 ∧ tct ++ pct = tct' ++ pct' ∧ ppk ++ tpk = ppk' ++ tpk' ∧ tss ++ pss = tss' ++ pss') := by
  have inj : ∀ x y, E.sha3 x = E.sha3 y → Collision E.sha3 ∨ x = y := by
    intro x y hxy
    by_cases hne : x = y
    · exact Or.inr hne
    · exact Or.inl ⟨x, y, hne, hxy⟩
  unfold chCombiner at e
  rcases inj _ _ e with hcol | e
  · exact Or.inl hcol
  · have hctx : ctx = ctx' ∧ c = c' ∧ sameKem p.2 p'.2 := by
      rcases suffix_or e with hs | hs
      · exact C73_context_partial p hp p' hp' c hc c' hc' ctx ctx' h h' hs
      · obtain ⟨h1, h2, h3⟩ := C73_context_partial p' hp' p hp c' hc' c hc ctx' ctx h' h hs
        exact ⟨h1.symm, h2.symm, h3.elim (fun h => Or.inl h.symm) (fun h => Or.inr h.symm)⟩
    obtain ⟨rfl, hc, hk⟩ := hctx
    have e := List.append_cancel_right e
    obtain ⟨e, e3⟩ := List.append_inj' e (by rw [hsha, hsha])
    obtain ⟨e1, e2⟩ := List.append_inj' e (by rw [hsha, hsha])
    rcases inj _ _ e2 with hcol | e2
    · exact Or.inl hcol
    · rcases inj _ _ e3 with hcol | e3
      · exact Or.inl hcol
      · exact Or.inr ⟨hc, hk, e2, e3, e1⟩

/-- C73. A curve without a context name: the secret cannot be made, and the error is a `KeyError`. -/
theorem C73_secp521 : getContext .mlkem "ml-kem-1024" (.ec "secp521r1") = .error .keyError := by decide +kernel

/-- A toy library with encodings of the right lengths. -/
def padLib : Lib := { toyLib with
  encode := fun p => p.2 :: List.replicate (match p.1 with | .x25519 => 31 | .x448 => 55 | .ec name => 2 * ((bitLength (fieldPrime name) + 7) / 8)) 0
  decode := fun c b => match b with
    | x :: _ => .ok (c, x)
    | [] => .error .valueError }

theorem padLaws : Laws padLib where
  curve := fun _ => rfl
  comm := toyLaws.comm
  mismatch := fun _ _ h => ⟨.valueError, if_neg h⟩
  dec := fun _ => rfl

theorem padLen : EncLen padLib := by
  rintro ⟨c, x⟩
  change List.length (_ :: List.replicate _ _) = _
  rw [List.length_cons, List.length_replicate]
  cases c <;> rfl

def padEnv : Env := { toyEnv with L := padLib }

def padPriv : ChPriv (toyPq "ml-kem-768" .mlkem) padEnv.L := ⟨(), (.x25519, 5)⟩

/-- The hypotheses of C73 are satisfiable: secrets are made and recovered. -/
example : ∃ ss ct, chEncaps padEnv (chPublic padPriv) none ⟨[8, 9], (.x25519, 3), [], []⟩ = .value (ss, ct) ∧ chDecaps padEnv padPriv ct = .value ss := by
  cases h : chEncaps padEnv (chPublic padPriv) none ⟨[8, 9], (.x25519, 3), [], []⟩ with
  | value r => exact ⟨r.1, r.2, rfl, C73_agreement _ padEnv padLaws padLen padPriv none _ (toyPqAgrees _ _ 8 9) r.1 r.2 h⟩
  | pyNone => exact absurd h (by decide +kernel)
  | raised e => exfalso; revert h; cases e <;> decide +kernel
  | running => exact absurd h (by decide +kernel)

end Verif.PQ.Hyb
