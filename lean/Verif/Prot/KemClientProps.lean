import Verif.Prot.KemClient
import Verif.Prot.KemRefuted
import Verif.PQ.HybridProps

/-!
# Properties of the client's messages with a KEM-based MAC
-/

namespace Verif.Prot.KemCli

open Verif.CA (PyErr)
open Verif.Prot

variable {S K C : Type}

/-- **C262.** A ciphertext without the key for it is refused, also if the secret is given; without a secret, without a
ciphertext and without the certificate of the CA there is a `ValueError`. -/
theorem C262_required (env : Env S K C) (cli : CliEnv S K) (m : Msg C) (a : Args S C) (r rnd : Bytes)
    (h : (a.info ≠ none ∧ a.client = none) ∨ (a.ss = none ∧ a.info = none ∧ a.ca = none)) :
    build env cli m a r rnd = .error .valueError := by
  have hs : source env cli m a r = .error .valueError := by
    obtain ⟨ss, ca, info, client⟩ := a
    unfold source
    dsimp only at h ⊢
    rcases h with ⟨h1, rfl⟩ | ⟨rfl, rfl, rfl⟩
    · rw [if_pos]
      cases info with
      | none => exact absurd rfl h1
      | some v => exact ⟨rfl, rfl⟩
    · rw [if_neg (by simp)]
      cases client <;> rfl
  unfold build
  rw [hs]

/-- **C262.** Whatever the source of the secret, the message verifies after transport with the secret which is
returned. -/
theorem C262_returned_secret (env : Env S K C) (cli : CliEnv S K) (m m' : Msg C) (a : Args S C) (r rnd b : Bytes)
    (h : build env cli m a r rnd = .ok (b, m')) (rnd' : Bytes) (pw : Option Bytes) (pub : Option K) (lw : Bool) :
    ∃ p, m'.hdr.alg = some ⟨[1, 2, 840, 113533, 7, 66, 16], .kem p⟩ ∧
      (KemOk env p → verifyProt env rnd' (transport env.toMacEnv m') none pw pub (some b) lw = .ok ()) := by
  unfold build at h
  cases hs : source env cli m a r with
  | error e => rw [hs] at h; cases h
  | ok x =>
    obtain ⟨b1, m1⟩ := x
    rw [hs] at h
    dsimp only at h
    cases hp : protectKem env m1 (.secret b1) rnd "kdf3" "sha256" none false with
    | error e => rw [hp] at h; cases h
    | ok m2 =>
      rw [hp] at h
      cases h
      obtain ⟨ss, m3, p, e1, e2, e3⟩ := C144_roundtrip env m1 m' (.secret b) rnd "kdf3" "sha256" none false (by decide) hp
        rnd' pw pub lw
      cases e1
      exact ⟨p, e2, fun hk => by rw [e3 hk]; rfl⟩

/-- For keys which are neither composite nor hybrid the message is the one of `protect_pkimessage_kem_based_mac`. -/
theorem build_peer (env : Env S K C) (cli : CliEnv S K) (m m' : Msg C) (c : C) (cl : Option S) (r rnd b : Bytes) (k : K)
    (hk : env.keyOf c = .ok k) (hc : cli.isCompositeKem k = false) (hy : cli.isHybridKem k = false)
    (h : build env cli m ⟨none, some c, none, cl⟩ r rnd = .ok (b, m')) :
    protectKem env m (.peer c r) rnd "kdf3" "sha256" none false = .ok m' := by
  have hs : source env cli m ⟨none, some c, none, cl⟩ r = encapsTo env m c r := by
    have e1 : source env cli m ⟨none, some c, none, cl⟩ r = toCa env cli m c cl r := by
      unfold source
      rw [if_neg (by simp)]
      cases cl <;> rfl
    rw [e1]
    unfold toCa encapsTo encapsFor
    rw [hk]
    dsimp only
    rw [hc, hy]
    rfl
  unfold build at h
  rw [hs] at h
  unfold protectKem kemSource
  dsimp only
  cases he : encapsTo env m c r with
  | error e => rw [he] at h; cases h
  | ok x =>
    obtain ⟨b1, m1⟩ := x
    rw [he] at h
    dsimp only at h ⊢
    unfold protectKem kemSource at h
    dsimp only at h
    cases h1 : prepKem rnd "kdf3" "sha256" none with
    | error e => rw [h1] at h; cases h
    | ok al =>
      rw [h1] at h
      dsimp only at h ⊢
      cases h2 : kemValue env { m1 with hdr := { m1.hdr with alg := some al } } b1 with
      | error e => rw [h2] at h; cases h
      | ok v =>
        rw [h2] at h
        dsimp only at h ⊢
        unfold manipIf at h ⊢
        rw [if_neg (by decide)] at h ⊢
        cases h
        rfl

/-- **C262, partial.** The message for a CA whose key is neither composite nor hybrid nor an RSA key verifies after
transport with the private key of the CA, if the KEM is correct and the header had no ciphertext before.  What is missing
for composite keys is false (`C262_composite_refuted`). -/
theorem C262_ca_verifies_partial (env : Env S K C) (cli : CliEnv S K) (m m' : Msg C) (c : C) (cl : Option S)
    (r rnd b : Bytes) (k : K) (s : S) (hk : env.keyOf c = .ok k) (hc : cli.isCompositeKem k = false)
    (hy : cli.isHybridKem k = false) (h : build env cli m ⟨none, some c, none, cl⟩ r rnd = .ok (b, m'))
    (hrp : env.isRsaKemPub k = false) (hrs : env.isRsaKem s = false) (hks : env.isKemKey s = true)
    (hoid : env.kemOid s = env.kemOidPub k)
    (hpair : ∀ ss ct, env.encaps k .plain r = .ok (ss, ct) → env.decaps s .plain ct = .ok ss ∧
      env.decCt (env.encCt (env.kemOidPub k) (some ct)) = some ((env.kemOidPub k, some ct), []))
    (hfree : ∀ x ∈ m.hdr.info, x.1 ≠ [1, 3, 6, 1, 5, 5, 7, 4, 9999])
    (rnd' : Bytes) (pw : Option Bytes) (pub : Option K) (lw : Bool) :
    ∃ p, m'.hdr.alg = some ⟨[1, 2, 840, 113533, 7, 66, 16], .kem p⟩ ∧ (KemOk env p →
      verifyProt env rnd' (transport env.toMacEnv m') (some s) pw pub none lw = .ok ()) :=
  C144_peer_partial env m m' c r rnd "kdf3" "sha256" none k s (by decide)
    (build_peer env cli m m' c cl r rnd b k hk hc hy h) hk hrp hrs hks hoid hpair hfree rnd' pw pub lw

/-- **C262.** From the answer of the CA to a general message the secret is taken exactly if the value is, without bytes
left over, a ciphertext for the algorithm of the client's key, and this key decapsulates it. -/
theorem C262_answer_iff (env : Env S K C) (s : S) (v : InfoVal) (b : Bytes) :
    fromAnswer env s v = .ok b ↔ ∃ w ct, v = .raw w ∧ env.decCt w = some ((env.kemOid s, some ct), []) ∧
      env.decaps s (if env.isRsaKem s then .oaep else .plain) ct = .ok b := by
  unfold fromAnswer
  cases v with
  | kemCt o c => simp
  | raw w =>
    dsimp only
    cases hd : env.decCt w with
    | none => simp [hd]
    | some x =>
      obtain ⟨⟨o, ct⟩, rest⟩ := x
      dsimp only
      by_cases h1 : rest = []
      · subst h1
        rw [if_neg (by simp)]
        by_cases h2 : env.kemOid s = o
        · subst h2
          rw [if_neg (by simp)]
          cases ct with
          | none => simp [hd]
          | some c => simp [hd]
        · rw [if_pos h2]
          constructor
          · intro h; cases h
          · rintro ⟨w', ct', hw, hd', -⟩
            cases hw
            rw [hd] at hd'
            cases hd'
            exact absurd rfl h2
      · rw [if_pos h1]
        constructor
        · intro h; cases h
        · rintro ⟨w', ct', hw, hd', -⟩
          cases hw
          rw [hd] at hd'
          cases hd'
          exact absurd rfl h1

/-- **C262.** A secret or an answer leaves the header as it was up to the algorithm; for a CA exactly its ciphertext is
added, after the other values. -/
theorem C262_header (env : Env S K C) (cli : CliEnv S K) (m m' : Msg C) (a : Args S C) (r rnd b : Bytes)
    (h : build env cli m a r rnd = .ok (b, m')) :
    m'.body = m.body ∧ (m'.hdr.info = m.hdr.info ∨
      (a.ss = none ∧ ∃ c k ct, a.ca = some c ∧ env.keyOf c = .ok k ∧ env.isKemPub k = true ∧
        encapsFor env cli k a.client r = .ok (b, ct) ∧
        m'.hdr.info = m.hdr.info ++ [([1, 3, 6, 1, 5, 5, 7, 4, 9999], .kemCt (env.kemOidPub k) (some ct))])) := by
  unfold build at h
  cases hs : source env cli m a r with
  | error e => rw [hs] at h; cases h
  | ok x =>
    obtain ⟨b1, m1⟩ := x
    rw [hs] at h
    dsimp only at h
    cases hp : protectKem env m1 (.secret b1) rnd "kdf3" "sha256" none false with
    | error e => rw [hp] at h; cases h
    | ok m2 =>
      rw [hp] at h
      cases h
      obtain ⟨ss, m3, al, p, v, v', e1, e2, e3, -⟩ :=
        protectKem_shape env m1 m' (.secret b) rnd "kdf3" "sha256" none false (by decide) hp
      cases e1
      rw [e2, e3]
      obtain ⟨ss', ca, info, client⟩ := a
      unfold source at hs
      dsimp only at hs ⊢
      split at hs
      · cases hs
      · cases ss' with
        | some x => cases hs; exact ⟨rfl, .inl rfl⟩
        | none =>
          dsimp only at hs
          have hca : ∀ c, toCa env cli m c client r = .ok (b, m1) → m1.body = m.body ∧
              ∃ k ct, env.keyOf c = .ok k ∧ env.isKemPub k = true ∧ encapsFor env cli k client r = .ok (b, ct) ∧
                m1.hdr.info = m.hdr.info ++ [([1, 3, 6, 1, 5, 5, 7, 4, 9999], .kemCt (env.kemOidPub k) (some ct))] := by
            intro c ht
            unfold toCa at ht
            cases hk : env.keyOf c with
            | error e => rw [hk] at ht; cases ht
            | ok k =>
              rw [hk] at ht
              dsimp only at ht
              by_cases hkp : env.isKemPub k = true
              · rw [if_pos hkp] at ht
                cases he : encapsFor env cli k client r with
                | error e => rw [he] at ht; cases ht
                | ok y =>
                  obtain ⟨s1, ct⟩ := y
                  rw [he] at ht
                  cases ht
                  exact ⟨rfl, k, ct, rfl, hkp, he, rfl⟩
              · rw [if_neg hkp] at ht; cases ht
          have hfin : ∀ c, ca = some c → toCa env cli m c client r = .ok (b, m1) → m1.body = m.body ∧
              (m1.hdr.info = m.hdr.info ∨ ((none : Option Bytes) = none ∧ ∃ c k ct, ca = some c ∧ env.keyOf c = .ok k ∧
                env.isKemPub k = true ∧ encapsFor env cli k client r = .ok (b, ct) ∧
                m1.hdr.info = m.hdr.info ++ [([1, 3, 6, 1, 5, 5, 7, 4, 9999], .kemCt (env.kemOidPub k) (some ct))])) := by
            intro c hc ht
            obtain ⟨h1, k, ct, h2⟩ := hca c ht
            exact ⟨h1, .inr ⟨rfl, c, k, ct, hc, h2⟩⟩
          cases client with
          | none =>
            cases ca with
            | none => cases hs
            | some c => exact hfin c rfl hs
          | some s =>
            cases info with
            | some v =>
              dsimp only at hs
              cases hf : fromAnswer env s v with
              | error e => rw [hf] at hs; cases hs
              | ok y => rw [hf] at hs; cases hs; exact ⟨rfl, .inl rfl⟩
            | none =>
              cases ca with
              | none => cases hs
              | some c => exact hfin c rfl hs

/-! ## Examples -/

/-- The keys of `exKem` are neither composite nor hybrid; key 2 is composite, and its secrets outside of CMS end with
another byte. -/
def exCli : CliEnv Nat Nat :=
  ⟨fun k => decide (k = 2), fun _ => false, fun k r => .ok (UInt8.ofNat k :: (r ++ [1]), 3 :: r), fun _ _ _ => .error .valueError⟩

/-- The built message, if there is one. -/
def exBuilt (a : Args Nat Nat) : Option (Bytes × Msg Nat) := (build exKem exCli (exKemPlain []) a [5] [8]).toOption

/-- C262_returned_secret and C262_ca_verifies_partial: for the CA with key 0 both the returned secret and the private key
verify the message. -/
example : ((exBuilt ⟨none, some 0, none, none⟩).map fun x =>
      (x.1, (verifyProt exKem [] (transport exKem.toMacEnv x.2) none none none (some x.1) false).isOk,
        (verifyProt exKem [] (transport exKem.toMacEnv x.2) (some 0) none none none false).isOk)) =
    some ([0, 5], true, true) := by decide +kernel

/-- C262_answer_iff and C262_header: the answer of the CA. -/
example : ((exBuilt ⟨none, none, some (.raw [0, 3, 9]), some 0⟩).map fun x => (x.1, x.2.hdr.info)) = some ([0, 9], []) := by
  decide +kernel

/-- C262_required. -/
example : (exBuilt ⟨some [1], none, some (.raw [0, 3, 9]), none⟩).isNone = true := by decide +kernel

/-- **C262, refuted.** A message for a CA with a composite key verifies with the secret which is returned, but not with
the private key of the CA, though the KEM is correct and the header had no ciphertext before. -/
theorem C262_composite_refuted : ∃ (env : Env Nat Nat Nat) (cli : CliEnv Nat Nat) (m m' : Msg Nat) (c k s : Nat) (r b : Bytes),
    build env cli m ⟨none, some c, none, none⟩ r [8] = .ok (b, m') ∧ env.keyOf c = .ok k ∧
    cli.isCompositeKem k = true ∧ env.isRsaKemPub k = false ∧ env.kemOid s = env.kemOidPub k ∧
    (∀ ss ct r, env.encaps k .plain r = .ok (ss, ct) → env.decaps s .plain ct = .ok ss) ∧ m.hdr.info = [] ∧
    verifyProt env [] (transport env.toMacEnv m') none none none (some b) false = .ok () ∧
    verifyProt env [] (transport env.toMacEnv m') (some s) none none none false = .error .badMessageCheck := by
  refine ⟨exKem, exCli, exKemPlain [], ((exBuilt ⟨none, some 2, none, none⟩).getD ([], exKemPlain [])).2, 2, 2, 2, [5],
    [2, 5, 1], by decide +kernel, rfl, by decide +kernel, by decide +kernel, rfl, ?_, rfl, by decide +kernel,
    by decide +kernel⟩
  intro ss ct r h
  cases h
  simp [exKem]

end Verif.Prot.KemCli

/-! ## Composite keys -/

namespace Verif.PQ.Hyb

open Verif.CA (Bytes PyErr)
open Verif.PQ.Dsa (Out)
open Verif.PQ.Mech

/-- **C262.** For a composite key the client encapsulates outside of CMS (`cmputils.py` 5671), and the verification
decapsulates for CMS (`protectionutils.py` 2377-2381): from the same inputs the client has the key derivation of the
algorithm, and the CA has SHA3-256. -/
theorem C262_composite_secrets (K : PqKem) (E : Env) (hL : Laws E.L) (hO : OaepLaw E) (kind : Kind) (pq : K.Priv)
    (a : ArgPriv E.L) (sk : CompPriv K E.L) (hk : newPriv kind pq a = some sk) (r : Rand E.L)
    (hpq : PqAgrees K sk.pq r.pq) (ss ct : Bytes) (h : compEncaps E (compPublic sk) none false r = .value (ss, ct)) :
    ∃ inputs, compDecaps E sk ct true = .value (E.sha3 inputs) ∧
      ss = kdfSpec E (getKdf (K.name (compPublic sk).pq) (tradName (compPublic sk).trad)) inputs := by
  unfold compEncaps at h
  obtain ⟨⟨ss1, ct1⟩, h1, h⟩ := bind_value h
  obtain ⟨⟨ss2, ct2⟩, h2, h⟩ := bind_value h
  obtain ⟨s, h3, h⟩ := bind_value h
  cases h
  have h3 := lift_value h3
  unfold combiner at h3
  cases ho : pubOid (compPublic sk) with
  | error e => rw [ho] at h3; cases h3
  | ok oid =>
    rw [ho] at h3
    dsimp only at h3
    injection h3 with h3
    refine ⟨ss1 ++ ss2 ++ ct2 ++ tradEncode E (compPublic sk).trad ++ derOid oid, ?_, ?_⟩
    · have he : compEncaps E (compPublic sk) none true r =
          .value (E.sha3 (ss1 ++ ss2 ++ ct2 ++ tradEncode E (compPublic sk).trad ++ derOid oid), ct1 ++ ct2) := by
        unfold compEncaps
        rw [h1]
        change bind (lift (tradEncaps E (compPublic sk).trad none r)) _ = _
        rw [h2]
        change bind (lift (combiner E (compPublic sk) ss1 ss2 ct2 (tradEncode E (compPublic sk).trad) true)) _ = _
        rw [C71_cms_kdf K E _ oid ho]
        rfl
      exact C71_agreement K E hL hO kind pq a sk hk none true r hpq _ _ he
    · rw [← h3]
      unfold applyKdf kdfSpec
      rw [if_neg (by decide)]
      cases getKdf (K.name (compPublic sk).pq) (tradName (compPublic sk).trad) <;> rfl

/-- The secrets of the two sides for ML-KEM-768 with P-256 in the toy environment: HMAC-SHA-256 and SHA3-256 (C262). -/
example : ∃ ss ct, compEncaps toyEnv (compPublic toyPriv) none false ⟨[8, 9], (.ec "secp256r1", 3), [], []⟩ = .value (ss, ct) ∧
    compDecaps toyEnv toyPriv ct true ≠ .value ss := by
  refine ⟨_, _, rfl, ?_⟩
  decide +kernel

end Verif.PQ.Hyb
