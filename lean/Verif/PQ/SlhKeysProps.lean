import Verif.PQ.SlhKeys
import Verif.PQ.Fips205Props

/-!
# Properties of the SLH-DSA key classes (C101, C102)
-/

namespace Verif.PQ.Slh

open Verif.CA (Bytes PyErr)

theorem n_pos {P : Params} (hp : IsParam P) : 0 < P.n := by rcases hp with rfl | rfl | rfl | rfl | rfl | rfl <;> decide

theorem sigSz_pos {P : Params} (hp : IsParam P) : 0 < P.sigSz := by rcases hp with rfl | rfl | rfl | rfl | rfl | rfl <;> decide

theorem slice_all (l : Bytes) (n : Nat) (h : l.length = n) : slice l 0 n = l := by
  unfold slice; rw [List.drop_zero, List.take_of_length_le (by omega)]

/-- C101: a generated key is loaded back from its seed, from its private bytes and from both together; a seed followed by other bytes is
rejected; the public key is loaded back from its bytes. -/
theorem C101_import {P : Params} (hp : IsParam P) {H : Hash} (hH : IsHash P H) (skSeed skPrf seed : Bytes)
    (h1 : skSeed.length = P.n) (h2 : skPrf.length = P.n) (h3 : seed.length = P.n) :
    ∃ pk sk, keygenInternal P H skSeed skPrf seed = .ok (pk, sk) ∧
      fromPrivateBytes P H (skSeed ++ skPrf ++ seed) = .ok ⟨pk, sk, some (skSeed ++ skPrf ++ seed)⟩ ∧
      fromPrivateBytes P H sk = .ok ⟨pk, sk, none⟩ ∧
      fromPrivateBytes P H (skSeed ++ skPrf ++ seed ++ sk) = .ok ⟨pk, sk, some (skSeed ++ skPrf ++ seed)⟩ ∧
      (∀ other, other.length = sk.length → other ≠ sk → fromPrivateBytes P H (skSeed ++ skPrf ++ seed ++ other) = .error .invalidKeyData) ∧
      fromPublicBytes P pk = .ok pk := by
  have hP := ok_of_isParam hp
  have hn := n_pos hp
  have hxl := xmssV_length (sized_of_isHash hp hH) skSeed seed (P.d - 1) 0 P.hp 0
  have hk := keygen_eq hP H skSeed skPrf seed
  generalize xmssV P H skSeed seed (P.d - 1) 0 P.hp 0 = x at *
  have hl3 : (skSeed ++ skPrf ++ seed).length = 3 * P.n := by simp only [List.length_append]; omega
  have s1 : slice (skSeed ++ skPrf ++ seed) 0 P.n = skSeed := by
    rw [List.append_assoc]; exact slice_mid [] skSeed _ 0 P.n rfl (by simp [h1])
  have s2 : slice (skSeed ++ skPrf ++ seed) P.n (2 * P.n) = skPrf := by
    rw [List.append_assoc]; exact slice_mid skSeed skPrf seed _ _ h1 (by omega)
  have s3 : (skSeed ++ skPrf ++ seed).drop (2 * P.n) = seed := List.drop_left' (by simp only [List.length_append]; omega)
  have hseed : fromSeed P H (skSeed ++ skPrf ++ seed) = .ok ⟨seed ++ x, skSeed ++ skPrf ++ seed ++ x, some (skSeed ++ skPrf ++ seed)⟩ := by
    unfold fromSeed
    rw [if_neg (by omega)]
    simp only [s1, s2, s3, hk, bind, Except.bind]
  have hl4 : (skSeed ++ skPrf ++ seed ++ x).length = 4 * P.n := by simp only [List.length_append]; omega
  refine ⟨_, _, hk, ?_, ?_, ?_, ?_, ?_⟩
  · unfold fromPrivateBytes
    rw [if_pos hl3, hseed]
  · have d1 : slice (skSeed ++ skPrf ++ seed ++ x) (2 * P.n) (3 * P.n) = seed := by
      rw [List.append_assoc]
      exact slice_mid (skSeed ++ skPrf) seed x _ _ (by simp only [List.length_append]; omega) (by simp only [List.length_append]; omega)
    have d2 : slice (skSeed ++ skPrf ++ seed ++ x) (3 * P.n) (4 * P.n) = x := by
      have := slice_mid (skSeed ++ skPrf ++ seed) x [] (3 * P.n) (4 * P.n) hl3 (by omega)
      rwa [List.append_nil] at this
    unfold fromPrivateBytes derivePublicKey
    rw [if_neg (by omega), if_neg (by omega), if_neg (by omega), if_neg (by omega), d1, d2]
    rfl
  · have hl7 : (skSeed ++ skPrf ++ seed ++ (skSeed ++ skPrf ++ seed ++ x)).length = 7 * P.n := by rw [List.length_append]; omega
    have q1 := slice_mid [] (skSeed ++ skPrf ++ seed) (skSeed ++ skPrf ++ seed ++ x) 0 (3 * P.n) rfl (by simp only [List.length_nil]; omega)
    have q2 := slice_mid (skSeed ++ skPrf ++ seed) (skSeed ++ skPrf ++ seed ++ x) [] (3 * P.n) (7 * P.n) hl3 (by omega)
    rw [List.append_nil] at q2
    rw [List.nil_append] at q1
    unfold fromPrivateBytes
    rw [if_neg (by omega), if_pos hl7, q1, q2, hseed]
    simp [bind, Except.bind]
  · intro other ho hne
    have hl7 : (skSeed ++ skPrf ++ seed ++ other).length = 7 * P.n := by rw [List.length_append]; omega
    have q1 := slice_mid [] (skSeed ++ skPrf ++ seed) other 0 (3 * P.n) rfl (by simp only [List.length_nil]; omega)
    have q2 := slice_mid (skSeed ++ skPrf ++ seed) other [] (3 * P.n) (7 * P.n) hl3 (by omega)
    rw [List.append_nil] at q2
    rw [List.nil_append] at q1
    unfold fromPrivateBytes
    rw [if_neg (by omega), if_pos hl7, q1, q2, hseed]
    simp only [bind, Except.bind]
    rw [if_pos (Ne.symm hne)]
  · unfold fromPublicBytes
    rw [if_neg (by simp only [List.length_append]; omega)]

/-- C101: any other length is rejected. -/
theorem C101_import_lengths (P : Params) (H : Hash) (data : Bytes) (k : PrivKey) (h : fromPrivateBytes P H data = .ok k) :
    data.length = 3 * P.n ∨ data.length = 4 * P.n ∨ data.length = 7 * P.n := by
  unfold fromPrivateBytes at h
  split at h
  · exact .inl ‹_›
  · split at h
    · exact .inr (.inr ‹_›)
    · split at h
      · cases h
      · exact .inr (.inl (by omega))

/-- C102: signatures made with a key object verify, for every `hash_alg`, context of at most 255 bytes and `is_prehashed`. -/
theorem C102_sign_verify (shake : Bool) {P : Params} (hp : IsParam P) {H : Hash} (hH : IsHash P H) (G : PreHash) (seed : Bytes)
    (hs : seed.length = 3 * P.n) :
    ∃ key, fromPrivateBytes P H seed = .ok key ∧ ∀ (data ctx : Bytes) (hash : Option HashName) (prehashed : Bool), ctx.length ≤ 255 →
      ∃ sig, keySign shake P H G key.sk data hash ctx prehashed = .ok sig ∧ keyVerify shake P H G key.pk sig data hash ctx prehashed = .ok () := by
  have hz := sized_of_isHash hp hH
  have l1 : (slice seed 0 P.n).length = P.n := by unfold slice; simp; omega
  have l2 : (slice seed P.n (2 * P.n)).length = P.n := by unfold slice; simp; omega
  have l3 : (seed.drop (2 * P.n)).length = P.n := by simp; omega
  obtain ⟨pk, sk, e, _, _, hsig⟩ := C54_sign_verify hp hz (slice seed 0 P.n) (slice seed P.n (2 * P.n)) (seed.drop (2 * P.n)) l1 l2 l3
  have hpos := sigSz_pos hp
  refine ⟨⟨pk, sk, some seed⟩, ?_, fun data ctx hash prehashed hc => ?_⟩
  · unfold fromPrivateBytes fromSeed
    rw [if_pos hs, if_neg (by omega), e]
    rfl
  · cases hq : checkHashAlg shake P hash with
    | none =>
      obtain ⟨sig, a, b, c⟩ := hsig (pureMp ctx data) none
      cases sig with
      | nil => exact absurd b (by simp only [List.length_nil]; omega)
      | cons x s =>
        refine ⟨x :: s, ?_, ?_⟩
        · unfold keySign
          rw [if_neg (by omega), hq]
          simp only [slhSign]
          rw [if_neg (by omega), a]
          rfl
        · unfold keyVerify
          rw [if_neg (by omega), hq]
          simp only [slhVerify]
          rw [if_neg (by omega), c]
          rfl
    | some h =>
      obtain ⟨sig, a, b, c⟩ := hsig (keyMp G prehashed ctx data h) none
      cases sig with
      | nil => exact absurd b (by simp only [List.length_nil]; omega)
      | cons x s =>
        refine ⟨x :: s, ?_, ?_⟩
        · unfold keySign
          rw [if_neg (by omega), hq]
          simp only [a]
          rfl
        · unfold keyVerify
          rw [if_neg (by omega), hq]
          simp only [c]
          rfl

/-- C102, domain separation: the strings signed in pure mode and in pre-hash mode differ, whatever the data and contexts. -/
theorem C102_domains (G : PreHash) (pre : Bool) (ctx ctx' data data' : Bytes) (h : HashName) : pureMp ctx data ≠ keyMp G pre ctx' data' h := by
  intro e
  unfold pureMp keyMp oneByte at e
  have := congrArg List.head? e
  simp at this

/-- C102 does not hold for an unsupported hash: with any hash other than the one combined with the parameter set, the key classes sign and
verify the data in pure mode, without an error. A signature requested with such a hash is accepted as a signature without one. -/
theorem C102_unsupported_hash_refuted (shake : Bool) (P : Params) (H : Hash) (G : PreHash) (hash : HashName) (hne : hash ≠ combined shake P)
    (sk pk sig data ctx : Bytes) (pre pre' : Bool) :
    keySign shake P H G sk data (some hash) ctx pre = keySign shake P H G sk data none ctx pre' ∧
    keyVerify shake P H G pk sig data (some hash) ctx pre = keyVerify shake P H G pk sig data none ctx pre' := by
  have e : checkHashAlg shake P (some hash) = none := by
    unfold checkHashAlg; rw [if_neg (by simpa using hne)]
  have e' : checkHashAlg shake P none = none := rfl
  constructor
  · unfold keySign; rw [e, e']
  · unfold keyVerify; rw [e, e']

/-- C101: what `from_private_bytes` accepts as a plain private key of `4n` bytes: the key signs, and its own signatures verify exactly if the
last `n` bytes are the root of the hypertree. -/
theorem C101_plain_import_partial {P : Params} (hp : IsParam P) {H : Hash} (hH : IsHash P H) (data : Bytes) (hd : data.length = 4 * P.n) :
    ∃ key pk sk, fromPrivateBytes P H data = .ok key ∧ key.sk = data ∧
      keygenInternal P H (slice data 0 P.n) (slice data P.n (2 * P.n)) (slice data (2 * P.n) (3 * P.n)) = .ok (pk, sk) ∧
      ∀ m rnd, ∃ sig, signInternal P H m key.sk rnd = .ok sig ∧ verifyInternal P H m sig key.pk = .ok (key.sk == sk) := by
  have hz := sized_of_isHash hp hH
  have hP := ok_of_isParam hp
  have hn := n_pos hp
  have l1 : (slice data 0 P.n).length = P.n := by unfold slice; simp; omega
  have l2 : (slice data P.n (2 * P.n)).length = P.n := by unfold slice; simp; omega
  have l3 : (slice data (2 * P.n) (3 * P.n)).length = P.n := by unfold slice; simp; omega
  have l4 : (slice data (3 * P.n) (4 * P.n)).length = P.n := by unfold slice; simp; omega
  have hsplit : data = slice data 0 P.n ++ slice data P.n (2 * P.n) ++ slice data (2 * P.n) (3 * P.n) ++ slice data (3 * P.n) (4 * P.n) := by
    unfold slice
    rw [List.drop_zero]
    have step : ∀ i j, i ≤ j → data.take i ++ (data.take j).drop i = data.take j := by
      intro i j hij
      have := List.take_append_drop i (data.take j)
      rwa [List.take_take, Nat.min_eq_left hij] at this
    rw [step _ _ (by omega), step _ _ (by omega), step _ _ (by omega), List.take_of_length_le (by omega)]
  have hk := keygen_eq hP H (slice data 0 P.n) (slice data P.n (2 * P.n)) (slice data (2 * P.n) (3 * P.n))
  refine ⟨⟨slice data (2 * P.n) (3 * P.n) ++ slice data (3 * P.n) (4 * P.n), data, none⟩, _, _, ?_, rfl, hk, fun m rnd => ?_⟩
  · unfold fromPrivateBytes derivePublicKey
    rw [if_neg (by omega), if_neg (by omega), if_neg (by omega), if_neg (by omega)]
    rfl
  · obtain ⟨sig, a, _, c⟩ := sign_verify hP hz (slice data 0 P.n) (slice data P.n (2 * P.n)) (slice data (2 * P.n) (3 * P.n)) m rnd
      (slice data (3 * P.n) (4 * P.n)) l4 l1 l2 l3
    rw [← hsplit] at a
    refine ⟨sig, a, ?_⟩
    simp only
    rw [c]
    congr 1
    generalize xmssV P H _ _ _ _ _ _ = x at *
    rw [Bool.eq_iff_iff, beq_iff_eq, beq_iff_eq]
    constructor
    · intro e; rw [e]; exact hsplit
    · intro e
      rw [e] at hsplit
      rw [← e] at hsplit
      have h2 : slice data 0 P.n ++ slice data P.n (2 * P.n) ++ slice data (2 * P.n) (3 * P.n) ++ x =
          slice data 0 P.n ++ slice data P.n (2 * P.n) ++ slice data (2 * P.n) (3 * P.n) ++ slice data (3 * P.n) (4 * P.n) := by
        rw [← e]; exact hsplit
      exact List.append_cancel_left h2

/-- C101, refuted for arbitrary private bytes: beside every generated key there is a string of the same length that is accepted as a private
key although none of its own signatures verifies. -/
theorem C101_inconsistent_key_refuted {P : Params} (hp : IsParam P) {H : Hash} (hH : IsHash P H) (skSeed skPrf seed : Bytes)
    (h1 : skSeed.length = P.n) (h2 : skPrf.length = P.n) (h3 : seed.length = P.n) :
    ∃ data key, data.length = 4 * P.n ∧ data.take (3 * P.n) = skSeed ++ skPrf ++ seed ∧ fromPrivateBytes P H data = .ok key ∧
      ∀ m rnd, ∃ sig, signInternal P H m key.sk rnd = .ok sig ∧ verifyInternal P H m sig key.pk = .ok false := by
  have hn := n_pos hp
  have hP := ok_of_isParam hp
  have hxl := xmssV_length (sized_of_isHash hp hH) skSeed seed (P.d - 1) 0 P.hp 0
  generalize hx : xmssV P H skSeed seed (P.d - 1) 0 P.hp 0 = x at *
  obtain ⟨y, hy, hyne⟩ : ∃ y : Bytes, y.length = P.n ∧ y ≠ x := by
    by_cases h : x = List.replicate P.n 0
    · refine ⟨List.replicate P.n 1, List.length_replicate, ?_⟩
      rw [h]
      intro e
      have := congrArg List.head? e
      rw [show P.n = (P.n - 1) + 1 by omega] at this
      simp [List.replicate_succ] at this
    · exact ⟨List.replicate P.n 0, List.length_replicate, fun e => h e.symm⟩
  have hl : (skSeed ++ skPrf ++ seed ++ y).length = 4 * P.n := by simp only [List.length_append]; omega
  obtain ⟨key, pk, sk, e1, e2, e3, e4⟩ := C101_plain_import_partial hp hH _ hl
  refine ⟨_, key, hl, List.take_left' (by simp only [List.length_append]; omega), e1, fun m rnd => ?_⟩
  obtain ⟨sig, a, b⟩ := e4 m rnd
  refine ⟨sig, a, ?_⟩
  rw [b]
  congr 1
  have s1 : slice (skSeed ++ skPrf ++ seed ++ y) 0 P.n = skSeed := by
    rw [List.append_assoc, List.append_assoc]; exact slice_mid [] skSeed _ 0 P.n rfl (by simp [h1])
  have s2 : slice (skSeed ++ skPrf ++ seed ++ y) P.n (2 * P.n) = skPrf := by
    rw [List.append_assoc, List.append_assoc]; exact slice_mid skSeed skPrf _ _ _ h1 (by omega)
  have s3 : slice (skSeed ++ skPrf ++ seed ++ y) (2 * P.n) (3 * P.n) = seed := by
    rw [List.append_assoc]
    exact slice_mid (skSeed ++ skPrf) seed y _ _ (by simp only [List.length_append]; omega) (by simp only [List.length_append]; omega)
  rw [s1, s2, s3, keygen_eq hP, hx, Except.ok.injEq, Prod.mk.injEq] at e3
  rw [beq_eq_false_iff_ne, e2, ← e3.2]
  intro e
  exact hyne (List.append_cancel_left e)

example : (fromPrivateBytes toyP (ofShake toyShake toyP) [1, 2, 3]).map (fun k => (k.pk.length, k.sk.length)) = .ok (2, 4) ∧
    fromPrivateBytes toyP (ofShake toyShake toyP) [1, 2, 3, 1, 2, 3, 99] = .error .invalidKeyData ∧
    (fromPrivateBytes toyP (ofShake toyShake toyP) [1, 2, 3, 99]).map (·.pk) = .ok [3, 99] := by decide +kernel

end Verif.PQ.Slh
