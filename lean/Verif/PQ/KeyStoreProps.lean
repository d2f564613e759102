import Verif.PQ.KeyStore
import Verif.PQ.KemKeysProps
import Verif.PQ.SigKeysProps
import Verif.PQ.HybridProps

/-!
# Properties of saving and loading post-quantum private keys
-/

namespace Verif.PQ.Store

open Verif.CA (Bytes PyErr)
open Verif.PQ.Dsa (Out)
open Verif.PQ.Hyb (bind bind_value lift_value)
open Verif.PQ.Keys (MlSet)

/-! ## The inner structure -/

theorem readLen_small (b : UInt8) (r : Bytes) (h : b.toNat < 128) : readLen (b :: r) = some (b.toNat, r) := by
  rw [readLen, if_pos h]

theorem readLen_long (b : UInt8) (x r : Bytes) (h : b.toNat = 128 + x.length) (hx : x ≠ []) : readLen (b :: (x ++ r)) = some (beNat x, r) := by
  have hl : x.length ≠ 0 := fun h => hx (List.eq_nil_of_length_eq_zero h)
  have he : b.toNat - 128 = x.length := by omega
  rw [readLen, if_neg (by omega), if_neg (by omega), if_neg (by rw [List.length_append]; omega), he, List.take_left' rfl, List.drop_left' rfl]

theorem readLen_encode (n : Nat) (hn : n < 65536) (c : Bytes) : readLen (encodeLen n ++ c) = some (n, c) := by
  unfold encodeLen
  split
  · rename_i h
    have e : (UInt8.ofNat n).toNat = n := by rw [UInt8.toNat_ofNat', Nat.mod_eq_of_lt (by omega)]
    rw [List.singleton_append, readLen_small _ _ (by omega), e]
  · split
    · rename_i h1 h2
      refine (readLen_long 0x81 [UInt8.ofNat n] c rfl (by simp)).trans ?_
      unfold beNat
      rw [List.foldl_cons, List.foldl_nil, UInt8.toNat_ofNat', Nat.mod_eq_of_lt (by omega), Nat.zero_mul, Nat.zero_add]
    · rename_i h1 h2
      refine (readLen_long 0x82 [UInt8.ofNat (n / 256), UInt8.ofNat n] c rfl (by simp)).trans ?_
      unfold beNat
      rw [List.foldl_cons, List.foldl_cons, List.foldl_nil, UInt8.toNat_ofNat', UInt8.toNat_ofNat']
      congr 2
      omega

theorem readValue_encode (c rest : Bytes) (hn : c.length < 65536) : readValue (encodeLen c.length ++ c ++ rest) = some (c, rest) := by
  unfold readValue
  rw [List.append_assoc, readLen_encode _ hn]
  dsimp only
  rw [if_neg (by rw [List.length_append]; omega), List.take_left' rfl, List.drop_left' rfl]

theorem readOctets_encode (c rest : Bytes) (hn : c.length < 65536) : readOctets c.length (tlv 0x04 c ++ rest) = .ok (c, rest) := by
  have h := readValue_encode c rest hn
  unfold tlv
  rw [List.cons_append, readOctets, h]
  exact if_neg (fun h => h rfl)

/-- The sizes of the structure. -/
def WellSized (s r : Nat) : Choice → Prop
  | .seed a => a.length = s
  | .expanded b => b.length = r
  | .both a b => a.length = s ∧ b.length = r

theorem tlv_length (t : UInt8) (c : Bytes) : (tlv t c).length ≤ c.length + 4 := by
  have : (encodeLen c.length).length ≤ 3 := by
    unfold encodeLen
    split
    · exact Nat.le_of_ble_eq_true rfl
    · split
      · exact Nat.le_of_ble_eq_true rfl
      · exact Nat.le_of_ble_eq_true rfl
  unfold tlv
  rw [List.length_cons, List.length_append]
  omega

theorem decode_encode (s r : Nat) (h : s + r + 16 < 65536) (c : Choice) (hc : WellSized s r c) : decodeChoice s r (encodeChoice c) = .ok (c, []) := by
  cases c with
  | seed a =>
    have hc : a.length = s := hc
    have := readValue_encode a [] (by omega)
    rw [List.append_nil] at this
    unfold encodeChoice tlv
    rw [decodeChoice, this]
    exact if_neg (fun h => h hc)
  | expanded b =>
    have hc : b.length = r := hc
    have := readOctets_encode b [] (by omega)
    rw [List.append_nil, hc] at this
    unfold tlv at this
    unfold encodeChoice tlv
    rw [decodeChoice, this]
  | both a b =>
    have hc : a.length = s ∧ b.length = r := hc
    have l1 := tlv_length 0x04 a
    have l2 := tlv_length 0x04 b
    have h1 := readValue_encode (tlv 0x04 a ++ tlv 0x04 b) [] (by rw [List.length_append]; omega)
    have h2 := readOctets_encode a (tlv 0x04 b) (by omega)
    have h3 := readOctets_encode b [] (by omega)
    rw [List.append_nil] at h1 h3
    rw [hc.1] at h2
    rw [hc.2] at h3
    change decodeChoice s r (0x30 :: (encodeLen (tlv 0x04 a ++ tlv 0x04 b).length ++ (tlv 0x04 a ++ tlv 0x04 b))) = _
    generalize tlv 0x04 a ++ tlv 0x04 b = w at h1 h2 ⊢
    rw [decodeChoice, h1]
    dsimp only
    rw [h2]
    dsimp only
    rw [h3]
    exact if_neg (fun h => h rfl)

/-! ## Keys made from a seed -/

/-- A key made from a seed, with what its class does for it. -/
structure Made (C : Cls) (k : C.Key) (s : Bytes) : Prop where
  small : C.seedLen + C.rawLen + 16 < 65536
  seed : C.seed k = some s
  seedLen : s.length = C.seedLen
  load : C.load s = .value k
  rawLen : (C.raw k).length = C.rawLen
  loadRaw : ∃ k', C.load (C.raw k) = .value k' ∧ C.raw k' = C.raw k ∧ C.pub k' = C.pub k
  loadPub : C.loadPub (C.pub k) = .value (C.pub k)
  pubLen : C.pub k ≠ []
  new : C.new (C.raw k) (some (C.pub k)) (C.seed k) = .value k

theorem mlKem_sizes {P : Kem.Params} (hP : MlSet P) : Keys.mlSkSize P ≤ 3168 ∧ 1632 ≤ Keys.mlSkSize P := by
  rcases hP with rfl | rfl | rfl <;> decide

/-- ML-KEM keys made from a seed. -/
theorem mlKem_made (P : Kem.Params) (hP : MlSet P) (E : Kem.Env) (hE : E.Sized) (s ek dk : Bytes) (hs : s.length = 64)
    (h : Kem.keygen P E (s.take 32) (s.drop 32) = some (ek, dk)) : Made (mlKem P E) ⟨dk, some ek, some s⟩ s := by
  obtain ⟨s1, s2, s3, _, _, hk2⟩ := hP.sizes
  have hz : (s.drop 32).length = 32 := by simp [hs]
  have hl := Kem.C38_key_sizes P E hE _ _ ek dk hz h
  obtain ⟨key, e1, e2, e3, _⟩ := Keys.C104_import P hP E hE s ek dk hs h dk (Or.inr (Or.inl rfl))
  refine ⟨?_, rfl, hs, ?_, ?_, ⟨key, e1, e2, e3⟩, ?_, ?_, rfl⟩
  · have := mlKem_sizes hP
    change 64 + Keys.mlSkSize P + 16 < 65536
    omega
  · change Keys.mlFromPrivateBytes P E s = _
    unfold Keys.mlFromPrivateBytes Keys.mlFromSeed
    rw [if_pos hs, if_neg (fun h => h hs), h]
    rfl
  · change dk.length = Keys.mlSkSize P
    rw [hl.2, s1]
  · change Hyb.lift (Keys.mlFromPublicBytes P ek) = .value ek
    rw [(Keys.C104_public_lengths P ek).2 (by rw [hl.1, s2])]
    rfl
  · change ek ≠ []
    intro he
    rw [he] at hl
    have := hl.1
    rw [List.length_nil] at this
    omega

/-- ML-DSA keys made from a seed. -/
theorem mlDsa_made (P : Dsa.Params) (hP : Dsa.IsParam P) (E : Dsa.Env) (hE : E.Sized) (s pk sk : Bytes) (hs : s.length = 32)
    (h : Dsa.keygen P E s = some (pk, sk)) : Made (mlDsa P E) ⟨pk, sk, some s⟩ s := by
  obtain ⟨i1, i2, _, _, i5⟩ := Dsa.C49_import P hP E hE s pk sk hs h
  have hsz : Dsa.skSize P ≤ 4896 ∧ pk ≠ [] ∧ sk.length = Dsa.skSize P := by
    obtain ⟨l1, l2, _⟩ := Dsa.C49_sizes P hP E hE s pk sk h
    obtain ⟨e1, e2, e3⟩ := Dsa.skSize_eq hP
    refine ⟨?_, ?_, by rw [l2, e1]⟩
    · unfold Dsa.skSize
      split
      · omega
      · split <;> omega
    · intro he
      rw [he] at l1
      rcases hP with rfl | rfl | rfl <;> cases l1
  refine ⟨?_, rfl, hs, i1, hsz.2.2, ⟨_, i2, rfl, rfl⟩, i5, hsz.2.1, rfl⟩
  change 32 + Dsa.skSize P + 16 < 65536
  omega

/-! ## C112: saving and loading -/

/-- The wanted result of loading: the same private and public key. -/
def Same (C : Cls) (k k' : C.Key) : Prop := C.raw k' = C.raw k ∧ C.pub k' = C.pub k

theorem checkPub_own {C : Cls} {k : C.Key} {s : Bytes} (m : Made C k s) (k' : C.Key) (h : C.pub k' = C.pub k) :
    checkPub C k' (some (C.pub k)) = .value k' := by
  unfold checkPub
  dsimp only
  rw [m.loadPub]
  change (if C.pub k' ≠ C.pub k then _ else _) = _
  rw [if_neg (fun h' => h' h)]

/-- What is written for a key made from a seed. -/
def contents (C : Cls) (k : C.Key) (s : Bytes) : SaveType → Choice
  | .seed => .seed s
  | .raw => .expanded (C.raw k)
  | .both => .both s (C.raw k)

theorem save_made {C : Cls} {k : C.Key} {s : Bytes} (m : Made C k s) (version : Nat) (st : SaveType) (inc : Bool) :
    save C k none version st inc = .value ⟨version, encodeChoice (contents C k s st),
      if inc = true ∨ version = 1 then some (C.pub k) else none⟩ := by
  have hp : prepareMl C k st = .value (encodeChoice (contents C k s st)) := by
    cases st
    · change bind (privateNumbers C k) _ = _
      unfold privateNumbers
      rw [m.seed]
      exact if_neg (fun h => h m.seedLen)
    · exact if_neg (fun h => h m.rawLen)
    · change bind (privateNumbers C k) _ = _
      unfold privateNumbers
      rw [m.seed]
      exact if_neg (fun h => h.elim (fun h => h m.seedLen) (fun h => h m.rawLen))
  have hg : mayGetPub C k none version inc = if inc = true ∨ version = 1 then some (C.pub k) else none := by
    unfold mayGetPub
    cases inc
    · by_cases hv : version = 1
      · simp [hv]
      · simp [hv]
    · simp
  unfold save
  rw [hp, hg]
  rfl

theorem contents_sized {C : Cls} {k : C.Key} {s : Bytes} (m : Made C k s) (st : SaveType) : WellSized C.seedLen C.rawLen (contents C k s st) := by
  cases st
  · exact m.seedLen
  · exact m.rawLen
  · exact ⟨m.seedLen, m.rawLen⟩

theorem loadChoice_made {C : Cls} {k : C.Key} {s : Bytes} (m : Made C k s) (st : SaveType) (pub : Option Bytes)
    (hp : pub = none ∨ pub = some (C.pub k)) :
    ∃ k', loadChoice C pub (contents C k s st) = .value k' ∧ Same C k k' ∧ (st ≠ .raw → k' = k) := by
  obtain ⟨k2, e1, e2, e3⟩ := m.loadRaw
  have hc : ∀ k', C.pub k' = C.pub k → checkPub C k' pub = .value k' := by
    intro k' h
    rcases hp with rfl | rfl
    · rfl
    · exact checkPub_own m k' h
  cases st
  · refine ⟨k, ?_, ⟨rfl, rfl⟩, fun _ => rfl⟩
    change bind (C.load s) _ = _
    rw [m.load]
    exact hc k rfl
  · refine ⟨k2, ?_, ⟨e2, e3⟩, fun h => absurd rfl h⟩
    change bind (C.load (C.raw k)) _ = _
    rw [e1]
    exact hc k2 e3
  · refine ⟨k, ?_, ⟨rfl, rfl⟩, fun _ => rfl⟩
    change bind (C.load s) _ = _
    rw [m.load]
    change bind (C.load (C.raw k)) _ = _
    rw [e1]
    exact hc k rfl

/-- C112. What is saved as a version 2 structure, or as a version 1 structure without the public key, is loaded again. -/
theorem C112_round_trip (C : Cls) (k : C.Key) (s : Bytes) (m : Made C k s) (version : Nat) (st : SaveType) (inc : Bool)
    (hv : version = 1 ∨ (version = 0 ∧ inc = false)) :
    ∃ a k', save C k none version st inc = .value a ∧ combinedLoad C a = .value k' ∧ Same C k k' ∧ (st ≠ .raw → k' = k) := by
  obtain ⟨k', h1, h2, h3⟩ := loadChoice_made m st (if inc = true ∨ version = 1 then some (C.pub k) else none) (by
    split
    · exact Or.inr rfl
    · exact Or.inl rfl)
  refine ⟨_, k', save_made m version st inc, ?_, h2, h3⟩
  unfold combinedLoad fromOneAsym
  dsimp only
  rw [if_neg (by omega), if_neg (by
    rintro ⟨h4, h5⟩
    rcases hv with h | ⟨_, h⟩
    · omega
    · rw [if_neg (by rintro (h' | h'); · rw [h] at h'; cases h'
                     · omega)] at h5
      cases h5), if_neg (by omega), decode_encode _ _ m.small _ (contents_sized m st)]
  exact h1

/-- The claim for the default arguments with version 1 of the structure (`version=0`). -/
def version0Loads : Prop :=
  ∀ (P : Kem.Params) (E : Kem.Env) k s, Made (mlKem P E) k s → ∀ st, ∃ a k', save (mlKem P E) k none 0 st true = .value a ∧
    combinedLoad (mlKem P E) a = .value k'

theorem zeroKey (P : Kem.Params) (d z : Bytes) : ∃ ek dk, Kem.keygen P Kem.zeroEnv d z = some (ek, dk) := by
  obtain ⟨a, ha⟩ := Kem.zero_matrix (E := Kem.zeroEnv) rfl rfl P (Kem.zeroEnv.g (d ++ [UInt8.ofNat P.k])).1
  unfold Kem.keygen Kem.kpkeKeygen
  simp only [ha]
  exact ⟨_, _, rfl⟩

/-- Every seed makes a key in that environment. -/
theorem zeroMade (s : Bytes) (hs : s.length = 64) : ∃ ek dk, Made (mlKem Kem.p512 Kem.zeroEnv) ⟨dk, some ek, some s⟩ s := by
  obtain ⟨ek, dk, h⟩ := zeroKey Kem.p512 (s.take 32) (s.drop 32)
  exact ⟨ek, dk, mlKem_made Kem.p512 (Or.inl rfl) Kem.zeroEnv Kem.zeroEnv_sized s ek dk hs h⟩

example : ∃ k a k', Made (mlKem Kem.p512 Kem.zeroEnv) k (List.replicate 64 7) ∧ save (mlKem Kem.p512 Kem.zeroEnv) k none 1 .both true = .value a ∧
    combinedLoad (mlKem Kem.p512 Kem.zeroEnv) a = .value k' ∧ k' = k := by
  obtain ⟨ek, dk, m⟩ := zeroMade (List.replicate 64 7) List.length_replicate
  obtain ⟨a, k', h1, h2, _, h3⟩ := C112_round_trip _ _ _ m 1 .both true (Or.inl rfl)
  exact ⟨_, a, k', m, h1, h2, h3 (by decide)⟩

/-- C112 is false for version 1 of the structure: the public key is written, and then refused. -/
theorem C112_version0_refuted : ¬ version0Loads := by
  intro h
  obtain ⟨ek, dk, m⟩ := zeroMade (List.replicate 64 7) List.length_replicate
  obtain ⟨a, k', h1, h2⟩ := h _ _ _ _ m .seed
  rw [save_made m 0 .seed true] at h1
  cases h1
  cases h2

/-! ### The old format -/

/-- The bytes with which the structure starts. -/
def startBytes : List UInt8 := [0x80, 0x04, 0x30]

theorem decode_other (s r : Nat) (b : UInt8) (d : Bytes) (h : b ∉ startBytes) : decodeChoice s r (b :: d) = .error .other := by
  unfold decodeChoice
  split
  · rename_i heq; cases heq; exact absurd (by decide) h
  · rename_i heq; cases heq; exact absurd (by decide) h
  · rename_i heq; cases heq; exact absurd (by decide) h
  · rfl

/-- C112, old format: the key is loaded again if its seed does not start like the structure. -/
theorem C112_old_partial (C : Cls) (k : C.Key) (b : UInt8) (bs : Bytes) (m : Made C k (b :: bs)) (hb : b ∉ startBytes) :
    combinedLoad C (saveOld C k) = .value k := by
  have hs : saveOld C k = ⟨1, b :: bs, some (C.pub k)⟩ := by
    unfold saveOld
    rw [m.seed]
  rw [hs]
  unfold combinedLoad fromOneAsym
  dsimp only
  rw [if_neg (by omega), if_neg (by omega), if_neg (by omega), decode_other _ _ b bs hb]
  dsimp only
  unfold loadAndValidate
  rw [m.load]
  change bind (match some (C.pub k) with
    | some (b :: bs) => bind (C.loadPub (b :: bs)) fun p => if C.pub k ≠ p then .raised .invalidKeyData else .value ()
    | _ => .value ()) (fun _ => C.new (C.raw k) (some (C.pub k)) (C.seed k)) = _
  have hl := m.loadPub
  have hne := m.pubLen
  rw [m.new]
  cases hp : C.pub k with
  | nil => exact absurd hp hne
  | cons x xs =>
    rw [hp] at hl
    dsimp only
    rw [hl]
    change bind (if x :: xs ≠ x :: xs then _ else _) _ = _
    rw [if_neg (fun h => h rfl)]
    rfl

/-- C112, old format: a seed that starts like an octet string of another size is refused. These are at least 126 of 65536
values of the first two bytes for ML-KEM, and 62 for ML-DSA. -/
theorem C112_old_fails (C : Cls) (k : C.Key) (b n : UInt8) (bs : Bytes) (m : Made C k (b :: n :: bs)) (hb : b = 0x80 ∨ b = 0x04)
    (hn : n.toNat ≤ bs.length) (hn2 : n.toNat < 128) (hs : n.toNat ≠ C.seedLen) (hr : n.toNat ≠ C.rawLen) :
    combinedLoad C (saveOld C k) = .raised .invalidKeyData := by
  have he : saveOld C k = ⟨1, b :: n :: bs, some (C.pub k)⟩ := by
    unfold saveOld
    rw [m.seed]
  have hv : readValue (n :: bs) = some (bs.take n.toNat, bs.drop n.toNat) := by
    unfold readValue
    rw [readLen_small _ _ hn2]
    dsimp only
    rw [if_neg (by omega)]
  have hd : decodeChoice C.seedLen C.rawLen (b :: n :: bs) = .error .constraint := by
    rcases hb with rfl | rfl
    · rw [decodeChoice, hv]
      dsimp only
      rw [if_pos (by rw [List.length_take]; omega)]
    · rw [decodeChoice, readOctets, hv]
      dsimp only
      rw [if_pos (by rw [List.length_take]; omega)]
  rw [he]
  unfold combinedLoad fromOneAsym
  dsimp only
  rw [if_neg (by omega), if_neg (by omega), if_neg (by omega), hd]

example : ∃ k, Made (mlKem Kem.p512 Kem.zeroEnv) k (7 :: List.replicate 63 1) ∧
    combinedLoad (mlKem Kem.p512 Kem.zeroEnv) (saveOld (mlKem Kem.p512 Kem.zeroEnv) k) = .value k := by
  obtain ⟨ek, dk, m⟩ := zeroMade (7 :: List.replicate 63 1) (by decide)
  exact ⟨_, m, C112_old_partial _ _ _ _ m (by decide)⟩

/-- The claim for the old format. -/
def oldLoads : Prop :=
  ∀ (P : Kem.Params) (E : Kem.Env) k s, Made (mlKem P E) k s → ∃ k', combinedLoad (mlKem P E) (saveOld (mlKem P E) k) = .value k' ∧
    Same (mlKem P E) k k'

/-- C112 is false for the old format: the seed 80 3e 00 … 00. -/
theorem C112_old_refuted : ¬ oldLoads := by
  intro h
  obtain ⟨ek, dk, m⟩ := zeroMade (0x80 :: 0x3e :: List.replicate 62 0) (by decide)
  obtain ⟨k', h1, _⟩ := h _ _ _ _ m
  rw [C112_old_fails _ _ 0x80 0x3e (List.replicate 62 0) m (Or.inl rfl) (by decide) (by decide) (by decide) (by decide)] at h1
  cases h1

/-! ## C111: the parts of a loaded structure belong together -/

/-- What the classes do with public keys. -/
structure PubLaws (C : Cls) : Prop where
  load : ∀ p p', C.loadPub p = .value p' → p' = p
  new : ∀ raw p seed k, C.new raw (some p) seed = .value k → C.pub k = p

theorem mlKem_pub (P : Kem.Params) (E : Kem.Env) : PubLaws (mlKem P E) where
  load := by
    intro p p' h
    have h := lift_value (show Hyb.lift (Keys.mlFromPublicBytes P p) = .value p' from h)
    unfold Keys.mlFromPublicBytes at h
    split at h
    · cases h
    · cases h; rfl
  new := by
    intro raw p seed k h
    cases h
    rfl

theorem mlDsa_pub (P : Dsa.Params) (E : Dsa.Env) : PubLaws (mlDsa P E) where
  load := by
    intro p p' h
    have h : Dsa.fromPublicBytes P p = .value p' := h
    unfold Dsa.fromPublicBytes at h
    split at h
    · cases h
    · cases h; rfl
  new := by
    intro raw p seed k h
    cases h
    rfl

theorem checkPub_value {C : Cls} (hC : PubLaws C) {k k' : C.Key} {p : Bytes} (h : checkPub C k (some p) = .value k') : k' = k ∧ C.pub k = p := by
  unfold checkPub at h
  obtain ⟨p', h1, h⟩ := bind_value h
  split at h
  · cases h
  · rename_i hne
    cases h
    have := hC.load _ _ h1
    subst this
    exact ⟨rfl, Classical.not_not.1 hne⟩

/-- C111. A non-empty public key in the structure is that of the loaded key. -/
theorem C111_public_partial (C : Cls) (hC : PubLaws C) (a : Asym) (k : C.Key) (b : UInt8) (bs : Bytes) (hp : a.pub = some (b :: bs))
    (h : combinedLoad C a = .value k) : C.pub k = b :: bs := by
  unfold combinedLoad at h
  split at h
  · cases h
  · split at h
    · cases h
    · unfold fromOneAsym at h
      split at h
      · cases h
      · split at h
        · cases h
        · unfold loadAndValidate at h
          obtain ⟨key, _, h⟩ := bind_value h
          obtain ⟨_, _, h⟩ := bind_value h
          rw [hp] at h
          exact hC.new _ _ _ _ h
        · split at h
          · cases h
          · rename_i c rest _ _
            rw [hp] at h
            cases c with
            | seed s =>
              obtain ⟨key, _, h⟩ := bind_value h
              obtain ⟨rfl, h⟩ := checkPub_value hC h
              exact h
            | expanded r =>
              obtain ⟨key, _, h⟩ := bind_value h
              obtain ⟨rfl, h⟩ := checkPub_value hC h
              exact h
            | both s r =>
              obtain ⟨key, _, h⟩ := bind_value h
              obtain ⟨key2, _, h⟩ := bind_value h
              obtain ⟨rfl, h⟩ := checkPub_value hC h
              exact h

/-- C111, raw private keys: a non-empty public key was derived from, or stored with, the private key, before it replaces it. -/
theorem C111_public_raw (C : Cls) (hC : PubLaws C) (priv : Bytes) (k : C.Key) (b : UInt8) (bs : Bytes)
    (h : loadAndValidate C priv (some (b :: bs)) = .value k) : ∃ key, C.load priv = .value key ∧ C.pub key = b :: bs := by
  unfold loadAndValidate at h
  obtain ⟨key, h1, h⟩ := bind_value h
  obtain ⟨u, h2, h⟩ := bind_value h
  obtain ⟨p, h3, h2⟩ := bind_value h2
  split at h2
  · cases h2
  · rename_i hne
    have := hC.load _ _ h3
    subst this
    exact ⟨key, h1, Classical.not_not.1 hne⟩

example : ∃ k : Keys.MlPriv, Made (mlKem Kem.p512 Kem.zeroEnv) k (List.replicate 64 7) ∧
    ∃ key, combinedLoad (mlKem Kem.p512 Kem.zeroEnv) ⟨1, encodeChoice (.seed (List.replicate 64 7)), some ((mlKem Kem.p512 Kem.zeroEnv).pub k)⟩ = .value key := by
  obtain ⟨ek, dk, m⟩ := zeroMade (List.replicate 64 7) List.length_replicate
  obtain ⟨a, k', h1, h2, _, _⟩ := C112_round_trip _ _ _ m 1 .seed true (Or.inl rfl)
  rw [save_made m] at h1
  cases h1
  exact ⟨_, m, k', h2⟩

/-- The claim that the public key of a loaded key is its own. -/
def ownPublic : Prop :=
  ∀ (P : Kem.Params) (E : Kem.Env), MlSet P → ∀ priv pub key, combinedLoad (mlKem P E) ⟨1, priv, pub⟩ = .value key → key.seed = none →
    (mlKem P E).pub key = Kem.getPublicKey P key.dk

theorem load_512 (d : Bytes) (hl : d.length = 1632) : Keys.mlFromPrivateBytes Kem.p512 Kem.zeroEnv d = .value ⟨d, none, none⟩ := by
  have hs : Keys.mlSkSize Kem.p512 = 1632 := by decide
  unfold Keys.mlFromPrivateBytes
  rw [if_neg (by omega), if_neg (by omega), if_pos (by omega)]
  rfl

/-- C111 is false for an empty public key: it is not compared, but becomes the public key. -/
theorem C111_public_refuted : ¬ ownPublic := by
  intro h
  obtain ⟨d, hd⟩ : ∃ d : Bytes, d = List.replicate 1631 0 := ⟨_, rfl⟩
  have hl : (0 :: d).length = 1632 := by rw [hd, List.length_cons, List.length_replicate]
  clear hd
  have := h Kem.p512 Kem.zeroEnv (Or.inl rfl) (0 :: d) (some []) ⟨0 :: d, some [], none⟩ (by
    unfold combinedLoad fromOneAsym
    dsimp only
    rw [if_neg (by omega), if_neg (by omega), if_neg (by omega), decode_other _ _ 0 _ (by decide)]
    dsimp only
    unfold loadAndValidate
    change bind (Keys.mlFromPrivateBytes Kem.p512 Kem.zeroEnv (0 :: d)) _ = _
    rw [load_512 _ hl]
    rfl) rfl
  have := congrArg List.length this
  unfold Kem.getPublicKey Kem.slice at this
  rw [List.length_take, List.length_drop, hl] at this
  have this : (0 : Nat) = min (768 * Kem.p512.k + 32 - 384 * Kem.p512.k) (1632 - 384 * Kem.p512.k) := this
  revert this
  decide

/-- C111. A structure with both parts loads to the key of the seed, whatever loadable key it comes with. -/
theorem C111_both_ignored (C : Cls) (k k2 : C.Key) (s r : Bytes) (m : Made C k s) (hr : r.length = C.rawLen) (hl : C.load r = .value k2) :
    combinedLoad C ⟨1, encodeChoice (.both s r), some (C.pub k)⟩ = .value k := by
  unfold combinedLoad fromOneAsym
  dsimp only
  rw [if_neg (by omega), if_neg (by omega), if_neg (by omega), decode_encode _ _ m.small (.both s r) ⟨m.seedLen, hr⟩]
  change bind (C.load s) _ = _
  rw [m.load]
  change bind (C.load r) _ = _
  rw [hl]
  exact checkPub_own m k rfl

/-- The claim that a seed and a private key loaded together belong together. -/
def bothChecked : Prop :=
  ∀ (P : Kem.Params) (E : Kem.Env), MlSet P → ∀ s r pub key, combinedLoad (mlKem P E) ⟨1, encodeChoice (.both s r), pub⟩ = .value key →
    r.length = Keys.mlSkSize P → key.dk = r

/-- C111 is false for a seed with a private key: the comparison of the two keys compares only their types. -/
theorem C111_both_refuted : ¬ bothChecked := by
  intro h
  obtain ⟨ek, dk, m⟩ := zeroMade (List.replicate 64 7) List.length_replicate
  have key : ∀ r : Bytes, r.length = 1632 → dk = r := by
    intro r hl
    exact h Kem.p512 Kem.zeroEnv (Or.inl rfl) _ _ _ _ (C111_both_ignored _ _ _ _ r m hl (load_512 r hl)) hl
  have h0 := (key (List.replicate 1632 0) List.length_replicate).symm.trans (key (List.replicate 1632 1) List.length_replicate)
  have := congrArg List.head? h0
  rw [List.head?_replicate, List.head?_replicate] at this
  revert this
  decide

/-! ## C110: `PQKeyFactory.from_private_bytes` -/

/-- C110. Seeds and private keys are loaded, -/
theorem C110_partial (C : Cls) (k : C.Key) (s : Bytes) (m : Made C k s) (hle : C.seedLen ≤ C.rawLen) :
    fromPrivateBytes C s = .value k ∧ ∃ k', fromPrivateBytes C (C.raw k) = .value k' ∧ Same C k k' := by
  unfold fromPrivateBytes
  rw [List.take_of_length_le (by rw [m.seedLen]; exact hle), List.take_of_length_le (by rw [m.rawLen])]
  exact ⟨m.load, m.loadRaw⟩

example : ∃ k, fromPrivateBytes (mlKem Kem.p512 Kem.zeroEnv) (List.replicate 64 7) = .value k := by
  obtain ⟨ek, dk, m⟩ := zeroMade (List.replicate 64 7) List.length_replicate
  exact ⟨_, (C110_partial _ _ _ m (by decide)).1⟩

/-- also with bytes after the private key, which are ignored. -/
theorem C110_trailing (C : Cls) (k : C.Key) (s junk : Bytes) (m : Made C k s) : fromPrivateBytes C (C.raw k ++ junk) = C.load (C.raw k) := by
  unfold fromPrivateBytes
  rw [List.take_left' m.rawLen]

/-- The claim that "private key bytes or seed or both" are loaded. -/
def bothLoads : Prop :=
  ∀ (P : Kem.Params) (E : Kem.Env), MlSet P → ∀ k s, Made (mlKem P E) k s → ∀ k', fromPrivateBytes (mlKem P E) (s ++ k.dk) = .value k' → k'.dk = k.dk

/-- C110. Seed and private key together are loaded as another key: the seed followed by the private key without its end. -/
theorem C110_both_loads (P : Kem.Params) (hP : MlSet P) (E : Kem.Env) (k : Keys.MlPriv) (s : Bytes) (m : Made (mlKem P E) k s) :
    fromPrivateBytes (mlKem P E) (s ++ k.dk) = .value ⟨s ++ k.dk.take (Keys.mlSkSize P - 64), none, none⟩ := by
  have h1 : s.length = 64 := m.seedLen
  have h2 : k.dk.length = Keys.mlSkSize P := m.rawLen
  have h3 := mlKem_sizes hP
  unfold fromPrivateBytes
  change Keys.mlFromPrivateBytes P E ((s ++ k.dk).take (Keys.mlSkSize P)) = _
  rw [List.take_append, List.take_of_length_le (by omega : s.length ≤ _), h1]
  generalize hd : s ++ k.dk.take (Keys.mlSkSize P - 64) = d
  have hl : d.length = Keys.mlSkSize P := by
    rw [← hd, List.length_append, List.length_take]
    omega
  unfold Keys.mlFromPrivateBytes
  rw [if_neg (by omega), if_neg (by omega), if_pos hl]
  rfl

/-- C110 is false for both together. -/
theorem C110_both_refuted : ¬ bothLoads := by
  intro h
  obtain ⟨ek, dk, hk⟩ := zeroKey Kem.p512 (List.replicate 32 5) (List.replicate 32 6)
  obtain ⟨ek', dk', hk'⟩ := zeroKey Kem.p512 (List.replicate 32 5) (List.replicate 32 7)
  have mk : ∀ (b : UInt8) (ek dk : Bytes), Kem.keygen Kem.p512 Kem.zeroEnv (List.replicate 32 5) (List.replicate 32 b) = some (ek, dk) →
      dk = (List.replicate 32 5 ++ List.replicate 32 b) ++ dk.take 1568 := by
    intro b ek dk hk
    have hs : (List.replicate 32 (5 : UInt8) ++ List.replicate 32 b).length = 64 := by
      rw [List.length_append, List.length_replicate, List.length_replicate]
    have m := mlKem_made Kem.p512 (Or.inl rfl) Kem.zeroEnv Kem.zeroEnv_sized (List.replicate 32 5 ++ List.replicate 32 b) ek dk hs
      (by rw [List.take_left' List.length_replicate, List.drop_left' List.length_replicate]; exact hk)
    exact (h Kem.p512 Kem.zeroEnv (Or.inl rfl) _ _ m _ (C110_both_loads Kem.p512 (Or.inl rfl) Kem.zeroEnv _ _ m)).symm
  have h1 := mk 6 ek dk hk
  have h2 := mk 7 ek' dk' hk'
  -- both private keys start with the same bytes, which do not depend on the second half of the seed
  have hpre : dk.take 64 = dk'.take 64 := by
    have hx : ∀ (b : UInt8) (ek dk : Bytes), Kem.keygen Kem.p512 Kem.zeroEnv (List.replicate 32 5) (List.replicate 32 b) = some (ek, dk) →
        ∃ e p, Kem.kpkeKeygen Kem.p512 Kem.zeroEnv (List.replicate 32 5) = some (e, p) ∧ dk = p ++ (e ++ (Kem.zeroEnv.h e ++ List.replicate 32 b)) := by
      intro b ek dk hk
      unfold Kem.keygen at hk
      cases hp : Kem.kpkeKeygen Kem.p512 Kem.zeroEnv (List.replicate 32 5) with
      | none => rw [hp] at hk; cases hk
      | some ep =>
        obtain ⟨e, p⟩ := ep
        rw [hp] at hk
        cases hk
        exact ⟨ek, p, rfl, by rw [List.append_assoc, List.append_assoc]⟩
    obtain ⟨e, p, a1, a2⟩ := hx 6 ek dk hk
    obtain ⟨e', p', b1, b2⟩ := hx 7 ek' dk' hk'
    rw [a1] at b1
    cases b1
    have hp : p.length = 384 * 2 := (Kem.kpkeKeygen_sizes Kem.zeroEnv_sized a1).2
    rw [a2, b2, List.take_append_of_le_length (by omega), List.take_append_of_le_length (by omega)]
  rw [h1, h2, List.take_left' (by rw [List.length_append, List.length_replicate, List.length_replicate]),
    List.take_left' (by rw [List.length_append, List.length_replicate, List.length_replicate])] at hpre
  revert hpre
  decide

end Verif.PQ.Store
