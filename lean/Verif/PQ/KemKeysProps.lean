import Verif.PQ.KemKeys
import Verif.PQ.Fips203Props
import Verif.PQ.FrodoProps

/-!
# Properties of the ML-KEM and FrodoKEM key classes
-/

namespace Verif.PQ.Keys

open Verif.CA (Bytes PyErr)
open Verif.PQ.Dsa (Out)
open Verif.PQ.Kem (slice slice_append_left slice_mid)

/-! ## C104: ML-KEM -/

/-- The parameter sets of the key classes. -/
def MlSet (P : Kem.Params) : Prop := P = Kem.p512 ∨ P = Kem.p768 ∨ P = Kem.p1024

theorem MlSet.sizes {P : Kem.Params} (h : MlSet P) :
    mlSkSize P = 768 * P.k + 96 ∧ mlPkSize P = 384 * P.k + 32 ∧ mlCtLength P = 32 * (P.du * P.k + P.dv) ∧ P.Ok ∧
      (P.dv = 4 ∨ P.dv = 5) ∧ 2 ≤ P.k := by
  rcases h with rfl | rfl | rfl <;>
    exact ⟨by decide, by decide, by decide, ⟨by decide, by decide, by decide, by decide⟩, by decide, by decide⟩

/-- C104. The three encodings of a generated key are loaded: the same decapsulation key, the same public key, and the
export is loaded again. -/
theorem C104_import (P : Kem.Params) (hP : MlSet P) (E : Kem.Env) (hE : E.Sized) (seed ek dk : Bytes) (hs : seed.length = 64)
    (h : Kem.keygen P E (seed.take 32) (seed.drop 32) = some (ek, dk)) :
    ∀ data, data = seed ∨ data = dk ∨ data = seed ++ dk →
      ∃ key, mlFromPrivateBytes P E data = .value key ∧ key.dk = dk ∧ mlPublicKey P key = ek ∧
        (mlExport key = seed ∨ mlExport key = dk) := by
  obtain ⟨s1, s2, s3, _, _, hk2⟩ := hP.sizes
  have hz : (seed.drop 32).length = 32 := by simp [hs]
  have hl := (Kem.C38_key_sizes P E hE _ _ ek dk hz h).2
  have hpub := Kem.C38_public_key P E hE _ _ ek dk hz h
  have hexp : ∀ (d : Bytes) p, mlExport ⟨d, p, some seed⟩ = seed := by
    intro d p
    unfold mlExport
    cases seed with
    | nil => simp at hs
    | cons b bs => rfl
  rintro data (rfl | rfl | rfl)
  · refine ⟨⟨dk, some ek, some data⟩, ?_, rfl, rfl, Or.inl (hexp _ _)⟩
    unfold mlFromPrivateBytes mlFromSeed
    rw [if_pos hs, if_neg (fun h => h hs), h]
    rfl
  · refine ⟨⟨data, none, none⟩, ?_, rfl, hpub, Or.inr rfl⟩
    unfold mlFromPrivateBytes
    rw [if_neg (by omega), if_neg (by omega), if_pos (by omega)]
    rfl
  · refine ⟨⟨dk, none, some seed⟩, ?_, rfl, hpub, Or.inl (hexp _ _)⟩
    unfold mlFromPrivateBytes
    rw [if_neg (by simp; omega), if_pos (by simp; omega)]
    simp only [List.take_left' hs, List.drop_left' hs, mlNew, ne_eq, not_true_eq_false, if_false]

/-- C104. Data of any other length is rejected. -/
theorem C104_lengths (P : Kem.Params) (E : Kem.Env) (data : Bytes)
    (h : data.length ≠ 64 ∧ data.length ≠ mlSkSize P ∧ data.length ≠ mlSkSize P + 64) :
    mlFromPrivateBytes P E data = .raised .invalidKeyData := by
  unfold mlFromPrivateBytes
  rw [if_neg h.1, if_neg h.2.2, if_neg h.2.1]

theorem C104_public_lengths (P : Kem.Params) (data : Bytes) :
    mlFromPublicBytes P data = .ok data ↔ data.length = mlPkSize P := by
  unfold mlFromPublicBytes
  split <;> simp_all

/-- C104. The two classes agree, for noise in the range of C35: for every encoding of a generated key, the secret
encapsulated for its public key is decapsulated. -/
theorem C104_agreement (P : Kem.Params) (hP : MlSet P) (E : Kem.Env) (hE : E.Sized) (seed ek dk m ss ct data : Bytes)
    (hs : seed.length = 64) (hm : m.length = 32)
    (h : Kem.keygen P E (seed.take 32) (seed.drop 32) = some (ek, dk)) (hd : data = seed ∨ data = dk ∨ data = seed ++ dk)
    (key : MlPriv) (hkey : mlFromPrivateBytes P E data = .value key)
    (he : mlEncaps P E (mlPublicKey P key) m = .value (ss, ct))
    (hn : ∀ k < 256, ∃ n : Int, Kem.noiseOf P E (seed.take 32) (E.g (m ++ E.h ek)).2 m k = (n : Kem.Zq) ∧ -832 ≤ n ∧ n ≤ 832 - Kem.msgBit m k) :
    ct.length = mlCtLength P ∧ mlDecaps P E key ct = .value ss := by
  obtain ⟨s1, s2, s3, hok, _, hk2⟩ := hP.sizes
  obtain ⟨key', e, e1, e2, _⟩ := C104_import P hP E hE seed ek dk hs h data hd
  rw [hkey] at e; cases e
  rw [e2] at he
  unfold mlEncaps at he
  cases hc : Kem.encaps P E ek m with
  | none => rw [hc] at he; cases he
  | some r =>
    rw [hc] at he
    cases he
    have hl := Kem.C38_ciphertext_size P E ek m ss ct hc
    refine ⟨by omega, ?_⟩
    unfold mlDecaps
    rw [if_neg (by omega), e1, Kem.C36_agreement P hok E hE _ _ m ek dk ss ct (by simp [hs]) hm h hc hn]
    rfl

/-- C104. Short ciphertexts are refused; ciphertexts that are too long are rejected implicitly, never decapsulated to the
secret of a shorter one. -/
theorem C104_ciphertext_length (P : Kem.Params) (hP : MlSet P) (E : Kem.Env) (hE : E.Sized) (seed ek dk ct : Bytes)
    (hs : seed.length = 64) (h : Kem.keygen P E (seed.take 32) (seed.drop 32) = some (ek, dk)) (key : MlPriv) (hkey : key.dk = dk) :
    (ct.length < mlCtLength P → mlDecaps P E key ct = .raised .valueError) ∧
    (mlCtLength P < ct.length → mlDecaps P E key ct = .value (E.j (seed.drop 32 ++ ct))) := by
  obtain ⟨s1, s2, s3, hok, _, hk2⟩ := hP.sizes
  constructor
  · intro hl
    unfold mlDecaps
    rw [if_pos (by omega)]
  · intro hl
    unfold mlDecaps
    rw [if_neg (by omega), hkey]
    obtain ⟨mp, cp, hcp, ⟨e, _⟩ | ⟨_, e⟩⟩ := Kem.C37_implicit_rejection P E hE _ _ ek dk (by simp [hs]) h ct
    · have := Kem.kpkeEncrypt_size hcp
      rw [← e] at this
      omega
    · rw [e]; rfl

/-- The claim that a seed and a decapsulation key are only accepted together if the seed generates the key. -/
def seedChecked : Prop :=
  ∀ (P : Kem.Params) (E : Kem.Env), MlSet P → E.Sized → ∀ (seed dk : Bytes) (key : MlPriv), seed.length = 64 →
    mlFromPrivateBytes P E (seed ++ dk) = .value key → dk.length = mlSkSize P →
    ∃ ek, Kem.keygen P E (seed.take 32) (seed.drop 32) = some (ek, dk)

/-- C104, what the code does instead: a 64-byte seed followed by any key of the right size is accepted, and the export of
the key is the seed. -/
theorem C104_any_seed_accepted (P : Kem.Params) (hP : MlSet P) (E : Kem.Env) (seed dk : Bytes) (hs : seed.length = 64)
    (hd : dk.length = mlSkSize P) :
    mlFromPrivateBytes P E (seed ++ dk) = .value ⟨dk, none, some seed⟩ ∧ mlExport ⟨dk, none, some seed⟩ = seed := by
  obtain ⟨s1, s2, s3, _, _, hk2⟩ := hP.sizes
  constructor
  · unfold mlFromPrivateBytes
    rw [if_neg (by simp; omega), if_pos (by simp; omega)]
    simp only [List.take_left' hs, List.drop_left' hs, mlNew, ne_eq, not_true_eq_false, if_false]
  · unfold mlExport
    cases seed with
    | nil => simp at hs
    | cons b bs => rfl

/-- C104 is false of the code: the comparison in `from_private_bytes` compares the private key with itself. -/
theorem C104_seed_refuted : ¬ seedChecked := by
  intro h
  have hP : MlSet Kem.p512 := Or.inl rfl
  have key := fun b => h Kem.p512 Kem.zeroEnv hP Kem.zeroEnv_sized (List.replicate 64 0) (List.replicate 1632 b) _ List.length_replicate
    (C104_any_seed_accepted Kem.p512 hP Kem.zeroEnv _ _ List.length_replicate (by rw [List.length_replicate]; rfl)).1 (by rw [List.length_replicate]; rfl)
  obtain ⟨ek, h0⟩ := key 0
  obtain ⟨ek', h1⟩ := key 1
  rw [h0] at h1
  simp only [Option.some.injEq, Prod.mk.injEq] at h1
  have := congrArg (fun l => l.head?) h1.2
  revert this
  rw [List.head?_replicate, List.head?_replicate]
  decide

/-- C104. After such an import the exported key is a different key. -/
theorem C104_export_changes_key (P : Kem.Params) (hP : MlSet P) (E : Kem.Env) (seed ek dk dk' : Bytes) (hs : seed.length = 64)
    (h : Kem.keygen P E (seed.take 32) (seed.drop 32) = some (ek, dk)) (hd : dk'.length = mlSkSize P) :
    ∃ key key', mlFromPrivateBytes P E (seed ++ dk') = .value key ∧ key.dk = dk' ∧
      mlFromPrivateBytes P E (mlExport key) = .value key' ∧ key'.dk = dk := by
  obtain ⟨a, b⟩ := C104_any_seed_accepted P hP E seed dk' hs hd
  refine ⟨_, ⟨dk, some ek, some seed⟩, a, rfl, ?_, rfl⟩
  rw [b]
  unfold mlFromPrivateBytes mlFromSeed
  rw [if_pos hs, if_neg (fun h => h hs), h]
  rfl

/-- Key generation succeeds in the zero environment: `C104_import` and `C104_ciphertext_length` have instances. -/
example (P : Kem.Params) (seed : Bytes) : ∃ ek dk, Kem.keygen P Kem.zeroEnv (seed.take 32) (seed.drop 32) = some (ek, dk) := by
  obtain ⟨a, ha⟩ := Kem.zero_matrix (E := Kem.zeroEnv) rfl rfl P (Kem.zeroEnv.g (seed.take 32 ++ [UInt8.ofNat P.k])).1
  unfold Kem.keygen Kem.kpkeKeygen
  simp only [ha]
  exact ⟨_, _, rfl⟩

/-! ### The input checks of FIPS 203, sections 7.2 and 7.3 -/

/-- The modulus check of section 7.2: every 12-bit integer of the encoded vector is below `q`. -/
def ModulusCheck (P : Kem.Params) (ek : Bytes) : Prop :=
  Kem.byteEncodeVec 12 ((List.range P.k).map (fun i => Kem.byteDecode 12 (slice ek (384 * i) (384 * (i + 1))))) = ek.take (384 * P.k)

/-- The hash check of section 7.3. -/
def HashCheck (P : Kem.Params) (E : Kem.Env) (dk : Bytes) : Prop :=
  E.h (slice dk (384 * P.k) (768 * P.k + 32)) = slice dk (768 * P.k + 32) (768 * P.k + 64)

def modulusChecked : Prop := ∀ P data, MlSet P → mlFromPublicBytes P data = .ok data → ModulusCheck P data
def hashChecked : Prop := ∀ P (E : Kem.Env) data key, MlSet P → E.Sized → mlFromPrivateBytes P E data = .value key → HashCheck P E key.dk

/-- C106 is false of the code: an encapsulation key with an unreduced coefficient is loaded. -/
theorem C106_modulus_refuted : ¬ modulusChecked := by
  intro h
  obtain ⟨b, hb, hne, hdec⟩ := Kem.C31_decode12_not_injective (List.replicate 256 0) List.length_replicate
    (fun x hx => by rw [List.eq_of_mem_replicate hx]; decide) 0 (by decide) (by decide)
  have hl : (b ++ List.replicate 416 0).length = 800 := by rw [List.length_append, hb, List.length_replicate]
  have := h Kem.p512 (b ++ List.replicate 416 0) (Or.inl rfl) (by rw [C104_public_lengths, hl]; rfl)
  unfold ModulusCheck at this
  rw [Kem.byteEncodeVec_eq] at this
  have h0 := Kem.flatMap_chunk (fun i => Kem.byteEncode 12 (Kem.byteDecode 12 (slice (b ++ List.replicate 416 0) (384 * i) (384 * (i + 1)))))
    384 (fun i => Kem.byteEncode_length 12 _) Kem.p512.k 0 (by decide)
  rw [this] at h0
  rw [Nat.zero_mul, List.drop_zero, List.take_take, Nat.min_eq_left (by decide), List.take_left' hb] at h0
  change b = Kem.byteEncode 12 (Kem.byteDecode 12 (slice (b ++ List.replicate 416 0) 0 384)) at h0
  rw [slice_append_left b _ 384 hb, hdec] at h0
  exact hne h0

/-- C106 is false of the code: a decapsulation key with a wrong hash is loaded. -/
theorem C106_hash_refuted : ¬ hashChecked := by
  intro h
  have hP : MlSet Kem.p512 := Or.inl rfl
  have hv : mlFromPrivateBytes Kem.p512 Kem.zeroEnv (List.replicate 1632 0) = .value ⟨List.replicate 1632 0, none, none⟩ := by
    unfold mlFromPrivateBytes
    rw [if_neg (by rw [List.length_replicate]; decide), if_neg (by rw [List.length_replicate]; decide), if_pos (by rw [List.length_replicate]; decide)]
    rfl
  have := h Kem.p512 Kem.zeroEnv _ _ hP Kem.zeroEnv_sized hv
  unfold HashCheck slice at this
  simp only [List.drop_replicate, List.take_replicate] at this
  have e1 : (List.replicate 32 1 : Bytes) = _ := this
  have e2 := congrArg List.head? e1
  revert e2
  rw [List.head?_replicate, List.head?_replicate]
  decide

/-- An environment whose `G` returns the hash part of its input as the key. -/
def hashEnv : Kem.Env where
  h := fun _ => List.replicate 32 1
  g := fun x => (((x.drop 32).take 32 ++ List.replicate 32 0).take 32, List.replicate 32 0)
  j := fun _ => List.replicate 32 4
  prf := fun eta _ _ => List.replicate (64 * eta) 0
  xof := fun _ _ => 0
  fuel := 128

theorem hashEnv_sized : hashEnv.Sized := ⟨fun _ => by simp [hashEnv], fun _ => by simp [hashEnv]⟩

theorem hashEnv_g (m x : Bytes) (hm : m.length = 32) (hx : x.length = 32) : hashEnv.g (m ++ x) = (x, List.replicate 32 0) := by
  unfold hashEnv
  dsimp only
  rw [List.drop_left' hm, List.take_of_length_le (l := x) (by omega), List.take_left' hx]

/-- With a wrong hash `hbad` in the private key the receiver computes `hbad` and the sender the hash of the public key. -/
theorem wrong_hash (P : Kem.Params) (hP : MlSet P) (d m hbad : Bytes) (hd : d.length = 32) (hm : m.length = 32) (hb : hbad.length = 32) :
    ∃ dk ct, mlFromPrivateBytes P hashEnv dk = .value ⟨dk, none, none⟩ ∧
      mlEncaps P hashEnv (mlPublicKey P ⟨dk, none, none⟩) m = .value (hashEnv.h [], ct) ∧
      mlDecaps P hashEnv ⟨dk, none, none⟩ ct = .value hbad := by
  obtain ⟨s1, s2, s3, hok, hdv, hk2⟩ := hP.sizes
  obtain ⟨a, ha⟩ := Kem.zero_matrix (E := hashEnv) rfl rfl P (hashEnv.g (d ++ [UInt8.ofNat P.k])).1
  have hkg : ∃ ek dk, Kem.kpkeKeygen P hashEnv d = some (ek, dk) := by
    unfold Kem.kpkeKeygen
    simp only [ha]
    exact ⟨_, _, rfl⟩
  obtain ⟨ek, dp, hkg⟩ := hkg
  obtain ⟨l1, l2⟩ := Kem.kpkeKeygen_sizes hashEnv_sized hkg
  have e0 : slice (dp ++ ek ++ hbad ++ d) 0 (384 * P.k) = dp := by
    rw [List.append_assoc, List.append_assoc]; exact slice_append_left _ _ _ l2
  have e1 : slice (dp ++ ek ++ hbad ++ d) (384 * P.k) (768 * P.k + 32) = ek := by
    rw [List.append_assoc]; exact slice_mid _ _ _ _ _ l2 (by omega)
  have e2 : slice (dp ++ ek ++ hbad ++ d) (768 * P.k + 32) (768 * P.k + 64) = hbad :=
    slice_mid _ _ _ _ _ (by rw [List.length_append, l1, l2]; omega) (by omega)
  have hlen : (dp ++ ek ++ hbad ++ d).length = mlSkSize P := by
    simp only [List.length_append, l1, l2, s1, hb, hd]
    omega
  obtain ⟨a', ha'⟩ := Kem.zero_matrix (E := hashEnv) rfl rfl P (slice ek (384 * P.k) (384 * P.k + 32))
  have henc : ∀ r, ∃ c, Kem.kpkeEncrypt P hashEnv ek m r = some c := by
    intro r
    unfold Kem.kpkeEncrypt
    simp only [ha']
    exact ⟨_, rfl⟩
  obtain ⟨c, hc⟩ := henc (List.replicate 32 0)
  have hen : Kem.encaps P hashEnv ek m = some (hashEnv.h [], c) := by
    unfold Kem.encaps
    rw [hashEnv_g m _ hm (hashEnv_sized.h ek), hc]
    rfl
  have hdec : Kem.kpkeDecrypt P dp c = m := by
    refine (Kem.C35_decrypt_iff P hok hashEnv hashEnv_sized d m _ ek dp c hm hkg hc).2 (fun k hk => ⟨0, ?_, by omega, ?_⟩)
    · rw [Kem.zero_noise (E := hashEnv) (fun _ _ _ => rfl) P hok hdv _ _ _ hm k hk]; simp
    · rcases Kem.msgBit_bit m k with h | h <;> omega
  generalize hdk : dp ++ ek ++ hbad ++ d = dk at *
  have hcl := Kem.C38_ciphertext_size _ _ _ _ _ _ hen
  refine ⟨dk, c, ?_, ?_, ?_⟩
  · unfold mlFromPrivateBytes
    rw [if_neg (by omega), if_neg (by omega), if_pos hlen]
    rfl
  · have hpub : mlPublicKey P ⟨dk, none, none⟩ = ek := e1
    unfold mlEncaps
    rw [hpub, hen]
    rfl
  · unfold mlDecaps
    rw [if_neg (by omega)]
    have : Kem.decaps P hashEnv dk c = some hbad := by
      unfold Kem.decaps
      simp only [e0, e1, e2, hdec]
      rw [hashEnv_g m _ hm hb, hc]
      simp only [ne_eq, not_true_eq_false, if_false]
    change Out.ofOption (Kem.decaps P hashEnv dk c) = _
    rw [this]
    rfl

/-- C106. The claim that an accepted private key decapsulates what is encapsulated for its own public key. -/
def acceptedAgrees : Prop :=
  ∀ (P : Kem.Params) (E : Kem.Env) (data m ss ct : Bytes) (key : MlPriv), MlSet P → E.Sized → E.ZeroPrf → m.length = 32 →
    mlFromPrivateBytes P E data = .value key → mlEncaps P E (mlPublicKey P key) m = .value (ss, ct) →
    mlDecaps P E key ct = .value ss

/-- C106 is false of the code, even without noise: with a wrong hash in the private key both sides compute different
secrets, and nothing reports it. -/
theorem C106_agreement_refuted : ¬ acceptedAgrees := by
  intro h
  have hP : MlSet Kem.p512 := Or.inl rfl
  obtain ⟨dk, ct, h1, h2, h3⟩ := wrong_hash Kem.p512 hP (List.replicate 32 0) (List.replicate 32 0) (List.replicate 32 9)
    List.length_replicate List.length_replicate List.length_replicate
  have := h Kem.p512 hashEnv dk _ _ ct _ hP hashEnv_sized (fun _ _ _ => rfl) List.length_replicate h1 h2
  rw [h3] at this
  have h9 : List.replicate 32 (9 : UInt8) = hashEnv.h [] := Out.value.inj this
  revert h9
  decide

/-! ## C105: FrodoKEM -/

def FrSet (P : Frodo.Params) : Prop := P = Frodo.p640 ∨ P = Frodo.p976 ∨ P = Frodo.p1344

theorem FrSet.wf {P : Frodo.Params} (h : FrSet P) : Frodo.WF P := by
  rcases h with rfl | rfl | rfl
  · exact Frodo.wf640
  · exact Frodo.wf976
  · exact Frodo.wf1344

theorem FrSet.seed {P : Frodo.Params} (h : FrSet P) : frSeedSize P = P.lenS + P.lenSeedSE + P.lenZ ∧ frSeedSize P < P.lenSk ∧
    0 < frSeedSize P := by
  rcases h with rfl | rfl | rfl <;> decide

/-- C105. Both encodings of a generated key are loaded: the same private key and the same public key. -/
theorem C105_import (P : Frodo.Params) (hP : FrSet P) (E : Frodo.Env) (hE : ∀ m n, (E.shake m n).length = n) (seed pk sk : Bytes)
    (hs : seed.length = frSeedSize P) (h : Frodo.keygen P E seed = .ok (pk, sk)) :
    ∀ data, data = seed ∨ data = sk →
      ∃ key, frFromPrivateBytes P E data = .ok key ∧ key.sk = sk ∧ frPublicKey P key = pk ∧ (frExport key = seed ∨ frExport key = sk) := by
  have hwf := hP.wf
  obtain ⟨hsz, hlt, hpos⟩ := hP.seed
  obtain ⟨pk', sk', ct, ss, hk, _, l1, l2, _⟩ := Frodo.C62_completes P hwf E hE seed (List.replicate (P.lenMu + P.lenSalt) 0)
    (by omega) (by simp)
  rw [h] at hk; cases hk
  rintro data (rfl | rfl)
  · refine ⟨⟨sk, some pk, some data⟩, ?_, rfl, rfl, Or.inl ?_⟩
    · unfold frFromPrivateBytes frFromSeed
      rw [if_pos hs.symm, if_neg (fun h => h hs), h]
    · unfold frExport
      cases data with
      | nil => simp at hs; omega
      | cons b bs => rfl
  · refine ⟨⟨data, none, none⟩, ?_, rfl, ?_, Or.inr rfl⟩
    · unfold frFromPrivateBytes
      rw [if_neg (by omega)]
    · change slice data P.lenS (P.lenS + P.lenPk) = pk
      rw [Frodo.keygen_eq P hwf E hE seed (by omega)] at h
      simp only [Except.ok.injEq, Prod.mk.injEq] at h
      obtain ⟨rfl, rfl⟩ := h
      have hS : (Frodo.kS P seed).length = P.lenS := by
        unfold Frodo.kS slice
        simp only [List.drop_zero, List.length_take]
        omega
      have := slice_mid (Frodo.kS P seed) (Frodo.kSeedA P E seed ++ Frodo.kb P E seed)
        (Frodo.kSt P E seed ++ E.shake (Frodo.kSeedA P E seed ++ Frodo.kb P E seed) P.lenPkh) P.lenS (P.lenS + P.lenPk) hS
        (by rw [l1])
      simpa [List.append_assoc] using this

/-- C105. The two classes agree, for tolerated noise, and ciphertexts of the wrong length are refused. -/
theorem C105_agreement (P : Frodo.Params) (hP : FrSet P) (E : Frodo.Env) (hE : ∀ m n, (E.shake m n).length = n)
    (seed pk sk mu salt ss ct data : Bytes) (hs : seed.length = frSeedSize P) (hmu : mu.length = P.lenMu) (hsalt : salt.length = P.lenSalt)
    (h : Frodo.keygen P E seed = .ok (pk, sk)) (hd : data = seed ∨ data = sk) (key : FrPriv)
    (hkey : frFromPrivateBytes P E data = .ok key) (he : frEncaps P E (frPublicKey P key) (mu ++ salt) = .ok (ss, ct))
    (hn : ∀ i < P.mbar, ∀ j < P.nbar, Frodo.Tolerated P (Frodo.noise P
      (E.shake (0x5f :: (seed.drop P.lenS).take P.lenSeedSE) (4 * P.n * P.nbar))
      (E.shake (0x96 :: (E.shake (E.shake pk P.lenPkh ++ mu ++ salt) (P.lenSeedSE + P.lenK)).take P.lenSeedSE)
        (2 * (2 * P.mbar * P.n + P.mbar * P.mbar))) i j)) :
    ct.length = P.lenCt ∧ frDecaps P E key ct = .ok ss := by
  obtain ⟨hsz, hlt, hpos⟩ := hP.seed
  obtain ⟨key', e, e1, e2, _⟩ := C105_import P hP E hE seed pk sk hs h data hd
  rw [hkey] at e; cases e
  rw [e2] at he
  unfold frEncaps at he
  split at he
  · cases he
  · rename_i ct' ss' hc
    cases he
    obtain ⟨pk', sk', ct', ss', hk', he', l1, l2, l3, _⟩ := Frodo.C62_completes P hP.wf E hE seed (mu ++ salt) (by omega) (by simp [hmu, hsalt])
    rw [h] at hk'; cases hk'
    rw [hc] at he'; cases he'
    refine ⟨l3, ?_⟩
    unfold frDecaps
    rw [if_neg (fun h => h l3), e1, Frodo.C62_agreement P hP.wf E hE seed mu salt (by omega) hmu hsalt pk sk ct ss h hc hn]

theorem C105_ciphertext_length (P : Frodo.Params) (E : Frodo.Env) (key : FrPriv) (ct : Bytes) (h : ct.length ≠ P.lenCt) :
    frDecaps P E key ct = .error .valueError := if_pos h

/-- The claim that keys of the wrong length are refused on import. -/
def frLengthsChecked : Prop :=
  (∀ P E data key, FrSet P → frFromPrivateBytes P E data = .ok key → data.length = frSeedSize P ∨ data.length = P.lenSk) ∧
  (∀ P data pk, FrSet P → frFromPublicBytes data = .ok pk → data.length = P.lenPk)

/-- C105. What the code does without liboqs: everything is accepted, and using such a key ends in an AssertionError. -/
theorem C105_wrong_length_used (P : Frodo.Params) (hP : FrSet P) (E : Frodo.Env) (data rnd ct : Bytes) :
    (data.length ≠ frSeedSize P → data.length ≠ P.lenSk → ct.length = P.lenCt →
      ∃ key, frFromPrivateBytes P E data = .ok key ∧ frDecaps P E key ct = .error .assertionError) ∧
    (data.length ≠ P.lenPk → frFromPublicBytes data = .ok data ∧ frEncaps P E data rnd = .error .assertionError) := by
  refine ⟨fun h1 h2 h3 => ⟨⟨data, none, none⟩, if_neg (fun h => h1 h.symm), ?_⟩, fun h => ⟨rfl, ?_⟩⟩
  · unfold frDecaps
    rw [if_neg (fun h => h h3)]
    have : Frodo.decaps P E data ct = .error .assertionError := by
      unfold Frodo.decaps
      simp only [h3, h2, ne_eq, not_true_eq_false, not_false_eq_true, if_true, if_false]
      rfl
    change (match Frodo.decaps P E data ct with
      | .error .indexError => _
      | r => r) = _
    rw [this]
  · unfold frEncaps
    have hne : 8 * data.length ≠ 8 * P.lenSeedA + P.D * P.n * P.nbar := by
      rcases hP with rfl | rfl | rfl <;> simp_all [Frodo.p640, Frodo.p976, Frodo.p1344] <;> omega
    have : Frodo.encaps P E data rnd = .error .assertionError := by
      unfold Frodo.encaps
      simp only [hne, ne_eq, not_false_eq_true, if_true]
      rfl
    rw [this]

/-- C105. Without liboqs a FrodoKEM key of any length is accepted on import, both private and public. -/
theorem C105_lengths_refuted : ¬ frLengthsChecked := by
  intro h
  have := h.2 Frodo.p640 [] [] (Or.inl rfl) rfl
  revert this
  decide

end Verif.PQ.Keys
