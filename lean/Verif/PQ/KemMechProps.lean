import Verif.PQ.KemMech
import Verif.PQ.Rsa
import Verif.PQ.Fips205Digits
import Verif.PQ.Fips203Codec

/-!
# Properties of the traditional KEM mechanisms
-/

namespace Verif.PQ.Mech

open Verif.CA (Bytes PyErr)
open Verif.PQ.Slh (toByte fromBytes val val_lt val_toByte toByte_val toByte_length)

/-! ## Integers and bytes -/

theorem i2osp_ok (n k : Nat) (h : n < 256 ^ k) : i2osp n k = .ok (toByte n k) := by
  unfold i2osp toBytesBE
  rw [if_pos h]
  simp [toByte_length]

theorem i2osp_err (n k : Nat) (h : ¬ n < 256 ^ k) : i2osp n k = .error .overflowError := by
  unfold i2osp toBytesBE
  rw [if_neg h]

theorem lt_byteLen (n : Nat) : n < 256 ^ byteLen n := by
  unfold byteLen bitLength
  split
  · subst_vars; simp
  · rename_i h
    have h1 := Nat.lt_log2_self (n := n)
    refine Nat.lt_of_lt_of_le h1 ?_
    rw [show (256 : Nat) = 2 ^ 8 from rfl, ← Nat.pow_mul]
    exact Nat.pow_le_pow_right (by omega) (by omega)

/-- **C74.** The ciphertext length is the length of the modulus in bytes (RFC 8017: the `k` with
`256^(k-1) ≤ n < 256^k`). -/
theorem C74_modulus_length (n : Nat) (h : n ≠ 0) : n < 256 ^ byteLen n ∧ 256 ^ (byteLen n - 1) ≤ n := by
  refine ⟨lt_byteLen n, ?_⟩
  unfold byteLen bitLength
  rw [if_neg h, show (256 : Nat) = 2 ^ 8 from rfl, ← Nat.pow_mul]
  exact Nat.le_trans (Nat.pow_le_pow_right (by omega) (by omega)) (Nat.log2_self_le h)

example : byteLen 65535 = 2 ∧ byteLen 65536 = 3 := by decide +kernel

/-- The field primes of the named curves (FIPS 186-4, D.1.2; RFC 5639, section 3). -/
def fieldPrime : String → Nat
  | "secp224r1" => 2 ^ 224 - 2 ^ 96 + 1
  | "secp256r1" => 2 ^ 256 - 2 ^ 224 + 2 ^ 192 + 2 ^ 96 - 1
  | "secp384r1" => 2 ^ 384 - 2 ^ 128 - 2 ^ 96 + 2 ^ 32 - 1
  | "secp521r1" => 2 ^ 521 - 1
  | "brainpoolP256r1" => 0xA9FB57DBA1EEA9BC3E660A909D838D726E3BF623D52620282013481D1F6E5377
  | "brainpoolP384r1" =>
    0x8CB91E82A3386D280F5D6F7E50E641DF152F7109ED5456B412B1DA197FB71123ACD3A729901D1A71874700133107EC53
  | "brainpoolP512r1" =>
    0xAADD9DB8DBE9C48B3FD4E6AE33C9FC07CB308DB3B3C9D20ED6639CCA703308717D4D9B009BC66842AECDA12AE6A380E62881FF2F2D82C68528AA6056583A48F3
  | _ => 0

theorem bitLength_eq {n k : Nat} (h1 : 2 ^ k ≤ n) (h2 : n < 2 ^ (k + 1)) : bitLength n = k + 1 := by
  have h0 : n ≠ 0 := by
    have := Nat.pow_pos (n := k) (show 0 < 2 by decide)
    omega
  unfold bitLength
  rw [if_neg h0, (Nat.log2_eq_iff h0).mpr ⟨h1, h2⟩]

/-- The key size of a named curve is the bit length of its field prime. -/
theorem curveBits_prime (name : String) : curveBits name = bitLength (fieldPrime name) := by
  unfold curveBits
  split
  · exact (bitLength_eq (k := 223) (by decide +kernel) (by decide +kernel)).symm
  · exact (bitLength_eq (k := 255) (by decide +kernel) (by decide +kernel)).symm
  · exact (bitLength_eq (k := 383) (by decide +kernel) (by decide +kernel)).symm
  · exact (bitLength_eq (k := 520) (by decide +kernel) (by decide +kernel)).symm
  · exact (bitLength_eq (k := 255) (by decide +kernel) (by decide +kernel)).symm
  · exact (bitLength_eq (k := 383) (by decide +kernel) (by decide +kernel)).symm
  · exact (bitLength_eq (k := 511) (by decide +kernel) (by decide +kernel)).symm
  · unfold fieldPrime
    split <;> first | rfl | contradiction

theorem fromBytes_toByte (n k : Nat) (h : n < 256 ^ k) : fromBytes (toByte n k) = n := by
  rw [Verif.PQ.Slh.fromBytes_eq, val_toByte, Nat.mod_eq_of_lt h]

theorem toByte_fromBytes (b : Bytes) : toByte (fromBytes b) b.length = b := toByte_val b

/-! ## C75: KDF3 -/

/-- Block `i` of the KDF3 stream: the digest of the four-byte counter `i + 1` and the secret. -/
def block (sha256 : Bytes → Bytes) (z : Bytes) (i : Nat) : Bytes := sha256 (toByte (i + 1) 4 ++ z)

theorem kdf3Loop_blocks (sha256 : Bytes → Bytes) (hs : ∀ m, (sha256 m).length = 32) (z : Bytes) (L : Nat)
    (hL : L ≤ 32 * (2 ^ 32 - 1)) (fuel j : Nat) (hf : fuel + 32 * j > L) (h1 : 1 ≤ fuel) :
    ∃ k, L ≤ 32 * k ∧ kdf3Loop sha256 z L fuel (j + 1) ((List.range j).flatMap (block sha256 z)) =
      some (.ok (((List.range k).flatMap (block sha256 z)).take L)) := by
  induction fuel generalizing j with
  | zero => omega
  | succ fuel ih =>
    have hlen := Verif.PQ.Kem.flatMap_length (block sha256 z) 32 (fun i => hs _) j
    rw [kdf3Loop]
    by_cases hc : 32 * j < L
    · rw [if_pos (by rw [hlen]; omega)]
      have hb : toBytesBE (j + 1) 4 = .ok (toByte (j + 1) 4) := if_pos (by omega)
      rw [hb]
      have := ih (j + 1) (by omega) (by omega)
      rw [List.range_succ, List.flatMap_append] at this
      simpa [block] using this
    · rw [if_neg (by rw [hlen]; omega)]
      exact ⟨j, by omega, by simp⟩

theorem blocks_getElem (g : Nat → Bytes) (d : Nat) (hd : 0 < d) (hg : ∀ i, (g i).length = d) (k i : Nat) (hi : i < k * d) :
    ((List.range k).flatMap g)[i]? = (g (i / d))[i % d]? := by
  have hik : i / d < k := (Nat.div_lt_iff_lt_mul hd).2 hi
  have := Verif.PQ.Kem.flatMap_chunk g d hg k (i / d) hik
  have hm := Nat.mod_lt i hd
  rw [← this, List.getElem?_take, if_pos hm, List.getElem?_drop, Nat.mul_comm, Nat.div_add_mod]

/-- C75. For every secret and every length up to `32 (2^32 - 1)`, `_compute_kdf3` returns exactly that many bytes, and byte
`i` is byte `i mod 32` of the digest of counter `i / 32 + 1` and the secret, whatever the requested length. -/
theorem C75_stream (sha256 : Bytes → Bytes) (hs : ∀ m, (sha256 m).length = 32) (z : Bytes) (L : Int)
    (hL : L ≤ 32 * (2 ^ 32 - 1)) :
    ∃ out, kdf3 sha256 z L = some (.ok out) ∧ out.length = L.toNat ∧
      ∀ i < L.toNat, out[i]? = (sha256 (toByte (i / 32 + 1) 4 ++ z))[i % 32]? := by
  rcases Int.lt_or_le L 0 with hneg | hpos
  · refine ⟨[], ?_, by simp; omega, fun i hi => by omega⟩
    unfold kdf3
    rw [kdf3Loop, if_neg (by simp; omega)]
    simp
  · obtain ⟨n, rfl⟩ : ∃ n : Nat, L = n := ⟨L.toNat, by omega⟩
    obtain ⟨k, hk, e⟩ := kdf3Loop_blocks sha256 hs z n (by omega) (n + 1) 0 (by omega) (by omega)
    have hlen := Verif.PQ.Kem.flatMap_length (block sha256 z) 32 (fun i => hs _) k
    refine ⟨_, e, by simp [List.length_take, hlen]; omega, fun i hi => ?_⟩
    simp only [Int.toNat_natCast] at hi
    rw [List.getElem?_take, if_pos hi, blocks_getElem (block sha256 z) 32 (by omega) (fun i => hs _) k i (by omega)]
    rfl

/-- C75. Shorter outputs are prefixes of longer ones. -/
theorem C75_prefix (sha256 : Bytes → Bytes) (hs : ∀ m, (sha256 m).length = 32) (z : Bytes) (L L' : Int) (h : L ≤ L')
    (hL : L' ≤ 32 * (2 ^ 32 - 1)) (o o' : Bytes) (h1 : kdf3 sha256 z L = some (.ok o)) (h2 : kdf3 sha256 z L' = some (.ok o')) :
    o = o'.take L.toNat := by
  obtain ⟨p, e, hp, hi⟩ := C75_stream sha256 hs z L (by omega)
  obtain ⟨p', e', hp', hi'⟩ := C75_stream sha256 hs z L' hL
  rw [h1] at e; rw [h2] at e'
  cases e; cases e'
  apply List.ext_getElem?
  intro i
  rw [List.getElem?_take]
  split
  · rename_i hlt
    rw [hi i hlt, hi' i (by omega)]
  · rename_i hge
    exact List.getElem?_eq_none (by omega)

theorem kdf3Loop_overflow (sha256 : Bytes → Bytes) (hs : ∀ m, (sha256 m).length = 32) (z : Bytes) (L : Nat)
    (hL : 32 * (2 ^ 32 - 1) < L) (fuel j : Nat) (hj : j < 2 ^ 32) (hf : fuel + j ≥ 2 ^ 32) :
    kdf3Loop sha256 z L fuel (j + 1) ((List.range j).flatMap (block sha256 z)) = some (.error .overflowError) := by
  induction fuel generalizing j with
  | zero => omega
  | succ fuel ih =>
    have hlen := Verif.PQ.Kem.flatMap_length (block sha256 z) 32 (fun i => hs _) j
    rw [kdf3Loop, if_pos (by rw [hlen]; omega)]
    by_cases hc : j + 1 < 256 ^ 4
    · have hb : toBytesBE (j + 1) 4 = .ok (toByte (j + 1) 4) := if_pos hc
      rw [hb]
      have := ih (j + 1) (by omega) (by omega)
      rw [List.range_succ, List.flatMap_append] at this
      simpa [block] using this
    · have hb : toBytesBE (j + 1) 4 = .error .overflowError := if_neg hc
      rw [hb]

/-- C75. Longer outputs are refused: the counter does not fit into four bytes. -/
theorem C75_overflow (sha256 : Bytes → Bytes) (hs : ∀ m, (sha256 m).length = 32) (z : Bytes) (L : Int)
    (hL : 32 * (2 ^ 32 - 1) < L) : kdf3 sha256 z L = some (.error .overflowError) := by
  obtain ⟨n, rfl⟩ : ∃ n : Nat, L = n := ⟨L.toNat, by omega⟩
  exact kdf3Loop_overflow sha256 hs z n (by omega) (n + 1) 0 (by omega) (by omega)

/-- A digest that repeats the last counter byte. -/
def toySha (m : Bytes) : Bytes := List.replicate 32 (m.getD 3 0)

example : (kdf3 toySha [7, 8] 40).map (fun r => r.toOption.map (fun o => (o.length, o[31]?, o[32]?))) =
    some (some (40, some 1, some 2)) := by decide +kernel
example : kdf3 toySha [7, 8] (-3) = some (.ok []) := by decide +kernel

/-! ## C74: RSA-KEM -/

/-- The value chosen by `encaps` (352). -/
def chosen (rand : Option Nat) (random : Nat) : Nat :=
  match rand with
  | some (r + 1) => r + 1
  | _ => random

theorem rsaEncaps_eq (sha256 : Bytes → Bytes) (length : Option Int) (pk : RsaPub) (rand : Option Nat) (random : Nat)
    (hn : 0 < pk.n) (hz : chosen rand random < pk.n) :
    rsaEncaps sha256 length pk rand random =
      (rsaSecret sha256 length (toByte (chosen rand random) (byteLen pk.n))).map
        (fun r => r.map (fun s => (s, toByte (chosen rand random ^ pk.e % pk.n) (byteLen pk.n)))) := by
  have h1 : chosen rand random ^ pk.e % pk.n < 256 ^ byteLen pk.n := Nat.lt_trans (Nat.mod_lt _ hn) (lt_byteLen _)
  have h2 : chosen rand random < 256 ^ byteLen pk.n := Nat.lt_trans hz (lt_byteLen _)
  unfold rsaEncaps
  change (match i2osp (chosen rand random ^ pk.e % pk.n) (byteLen pk.n) with
    | .error e => _
    | .ok ct => match i2osp (chosen rand random) (byteLen pk.n) with
      | .error e => _
      | .ok z => _) = _
  rw [i2osp_ok _ _ h1, i2osp_ok _ _ h2]

/-- C74. For every RSA key (different primes, `e d = 1` modulo the least common multiple of `p - 1` and `q - 1`), every
chosen value below the modulus and every output length, decapsulating the ciphertext gives the encapsulated secret. -/
theorem C74_round_trip (sha256 : Bytes → Bytes) (length : Option Int) (p q : Nat) (sk : RsaPriv)
    (hk : RsaOk p q sk.n sk.e sk.d) (rand : Option Nat) (random : Nat) (hz : chosen rand random < sk.n) (ss ct : Bytes)
    (h : rsaEncaps sha256 length sk.pub rand random = some (.ok (ss, ct))) :
    ct.length = byteLen sk.n ∧ rsaDecaps sha256 length sk ct = some (.ok ss) := by
  have hn : 0 < sk.n := by rw [hk.hn]; exact Nat.mul_pos hk.hp.pos hk.hq.pos
  rw [rsaEncaps_eq _ _ _ _ _ hn hz] at h
  have h1 : chosen rand random ^ sk.e % sk.n < 256 ^ byteLen sk.n := Nat.lt_trans (Nat.mod_lt _ hn) (lt_byteLen _)
  change (rsaSecret sha256 length (toByte (chosen rand random) (byteLen sk.n))).map
      (fun r => r.map (fun s => (s, toByte (chosen rand random ^ sk.e % sk.n) (byteLen sk.n)))) = _ at h
  cases hr : rsaSecret sha256 length (toByte (chosen rand random) (byteLen sk.n)) with
  | none => rw [hr] at h; simp at h
  | some r =>
    rw [hr] at h
    cases r with
    | error e => simp [Except.map] at h
    | ok s =>
      simp only [Option.map_some, Except.map, Option.some.injEq, Except.ok.injEq, Prod.mk.injEq] at h
      obtain ⟨rfl, rfl⟩ := h
      refine ⟨toByte_length _ _, ?_⟩
      unfold rsaDecaps
      simp only [toByte_length, ne_eq, not_true, if_false]
      rw [fromBytes_toByte _ _ h1, if_neg (by have := Nat.mod_lt (chosen rand random ^ sk.e) hn; omega),
        rsa_pow p q _ _ _ hk _ hz, i2osp_ok _ _ (Nat.lt_trans hz (lt_byteLen _))]
      exact hr

/-- C74. Encapsulation completes whenever the random value is below the modulus, for every length KDF3 can produce. -/
theorem C74_completes (sha256 : Bytes → Bytes) (hs : ∀ m, (sha256 m).length = 32) (length : Option Int)
    (hl : ∀ l, length = some l → l ≤ 32 * (2 ^ 32 - 1)) (pk : RsaPub) (rand : Option Nat) (random : Nat) (hn : 0 < pk.n)
    (hz : chosen rand random < pk.n) :
    ∃ ss, rsaEncaps sha256 length pk rand random = some (.ok (ss, toByte (chosen rand random ^ pk.e % pk.n) (byteLen pk.n))) := by
  rw [rsaEncaps_eq _ _ _ _ _ hn hz]
  cases length with
  | none => exact ⟨_, rfl⟩
  | some l =>
    obtain ⟨o, e, _⟩ := C75_stream sha256 hs (toByte (chosen rand random) (byteLen pk.n)) l (hl l rfl)
    exact ⟨o, by simp only [rsaSecret, e, Option.map_some, Except.map]⟩

/-- C74. Ciphertexts of the wrong length and ciphertexts not below the modulus are rejected. -/
theorem C74_rejects (sha256 : Bytes → Bytes) (length : Option Int) (sk : RsaPriv) (ct : Bytes)
    (h : ct.length ≠ byteLen sk.n ∨ fromBytes ct ≥ sk.n) : rsaDecaps sha256 length sk ct = some (.error .valueError) := by
  unfold rsaDecaps
  by_cases hl : ct.length = byteLen sk.n
  · rw [if_neg (by simp [hl]), if_pos (by rcases h with h | h <;> [exact absurd hl h; exact h])]
  · rw [if_pos hl]

/-- C74. Two ciphertexts accepted with the same raw secret are the same byte string. -/
theorem C74_unique (sha256 : Bytes → Bytes) (p q : Nat) (sk : RsaPriv) (hk : RsaOk p q sk.n sk.e sk.d) (ct ct' z : Bytes)
    (h : rsaDecaps sha256 none sk ct = some (.ok z)) (h' : rsaDecaps sha256 none sk ct' = some (.ok z)) : ct = ct' := by
  have hn : 0 < sk.n := by rw [hk.hn]; exact Nat.mul_pos hk.hp.pos hk.hq.pos
  have key : ∀ c, rsaDecaps sha256 none sk c = some (.ok z) → c.length = byteLen sk.n ∧ fromBytes c = fromBytes z ^ sk.e % sk.n := by
    intro c hc
    unfold rsaDecaps at hc
    dsimp only at hc
    split at hc
    · cases hc
    · rename_i hlen
      split at hc
      · cases hc
      · rename_i hlt
        have hb : fromBytes c ^ sk.d % sk.n < 256 ^ byteLen sk.n := Nat.lt_trans (Nat.mod_lt _ hn) (lt_byteLen _)
        rw [i2osp_ok _ _ hb] at hc
        simp only [rsaSecret, Option.some.injEq, Except.ok.injEq] at hc
        subst hc
        refine ⟨by omega, ?_⟩
        rw [fromBytes_toByte _ _ hb, rsa_pow p q _ _ _ (rsaOk_symm hk) _ (by omega)]
  obtain ⟨l1, e1⟩ := key ct h
  obtain ⟨l2, e2⟩ := key ct' h'
  have := toByte_fromBytes ct
  rw [e1, l1, ← l2, ← e2, toByte_fromBytes] at this
  exact this.symm

/-- The claim without the bound on the chosen value. -/
def roundTripAnyRand : Prop :=
  ∀ (sha256 : Bytes → Bytes) (length : Option Int) (p q : Nat) (sk : RsaPriv), RsaOk p q sk.n sk.e sk.d →
    ∀ (rand : Option Nat) (random : Nat) (ss ct : Bytes), 2 ≤ random → random < sk.n →
      rsaEncaps sha256 length sk.pub rand random = some (.ok (ss, ct)) → rsaDecaps sha256 length sk ct = some (.ok ss)

theorem toyRsa : RsaOk 3 11 33 3 7 := ⟨Nat.prime_three, Nat.prime_eleven, by decide, rfl, by decide⟩

/-- C74 is false if the argument `rand` is not below the modulus: `encaps` does not reduce it before it encodes the
secret. With the modulus 33 and `rand = 40` the sender gets 40 and the receiver 7. -/
theorem C74_large_rand_refuted : ¬ roundTripAnyRand := by
  intro h
  have := h (fun _ => []) none 3 11 ⟨33, 3, 7⟩ toyRsa (some 40) 2 [40] [13] (by decide) (by decide) (by decide +kernel)
  revert this
  decide +kernel

example : rsaEncaps (fun _ => []) none ⟨33, 3⟩ none 5 = some (.ok ([5], [26])) ∧
    rsaDecaps (fun _ => []) none ⟨33, 3, 7⟩ [26] = some (.ok [5]) ∧
    rsaDecaps (fun _ => []) none ⟨33, 3, 7⟩ [33] = some (.error .valueError) := by decide +kernel

/-! ## C103: DHKEM -/

/-- What is assumed of `cryptography`: both sides of an exchange on one curve get the same value, keys of different curves
are refused, and decoding the encoding of a key gives the key back. -/
structure Laws (L : Lib) : Prop where
  curve : ∀ a, L.pubCurve (L.pub a) = L.privCurve a
  comm : ∀ a b, L.privCurve a = L.privCurve b → L.exchange a (L.pub b) = L.exchange b (L.pub a)
  mismatch : ∀ a p, L.privCurve a ≠ L.pubCurve p → ∃ e, L.exchange a p = .error e
  dec : ∀ p, L.decode (L.pubCurve p) (L.encode p) = .ok p

theorem sameKind_refl (c : Curve) : sameKind c c = true := by cases c <;> rfl

theorem exchange_curve {L : Lib} (hL : Laws L) {a : L.Priv} {p : L.Pub} {s : Bytes} (h : L.exchange a p = .ok s) :
    L.privCurve a = L.pubCurve p := by
  by_cases he : L.privCurve a = L.pubCurve p
  · exact he
  · obtain ⟨e, he⟩ := hL.mismatch a p he
    rw [he] at h; cases h

/-- Plain ECDH as a KEM: the receiver gets the sender's secret. -/
theorem C103_ecdh_agreement (L : Lib) (hL : Laws L) (priv : Option L.Priv) (gen sk : L.Priv) (ss ct : Bytes)
    (h : ecdhEncaps L priv gen (L.pub sk) = .ok (ss, ct)) : ecdhDecaps L sk ct = .ok ss := by
  unfold ecdhEncaps at h
  dsimp only at h
  generalize priv.getD gen = a at h
  unfold performEcdh at h
  split at h
  · cases h
  · rename_i s hs
    split at hs
    · simp only [Except.ok.injEq, Prod.mk.injEq] at h
      obtain ⟨rfl, rfl⟩ := h
      have hc := exchange_curve hL hs
      rw [hL.curve] at hc
      have hd := hL.dec (L.pub a)
      rw [hL.curve, hc] at hd
      unfold ecdhDecaps performEcdh
      rw [hd]
      dsimp only
      rw [hL.curve, hc, sameKind_refl, if_pos rfl, ← hL.comm a sk hc]
      exact hs
    · cases hs

/-- C103. DHKEM: whatever ephemeral key is used, a successful encapsulation is decapsulated to the same secret. -/
theorem C103_agreement (L : Lib) (hL : Laws L) (priv : Option L.Priv) (gen sk : L.Priv) (ss ct : Bytes)
    (h : dhkemEncaps L priv gen (L.pub sk) = .ok (ss, ct)) : dhkemDecaps L sk ct = .ok ss := by
  unfold dhkemEncaps at h
  dsimp only at h
  generalize priv.getD gen = a at h
  unfold performExchange at h
  split at h
  · cases h
  · rename_i s hs
    split at hs
    · have hc := exchange_curve hL hs
      rw [hL.curve] at hc
      have hd := hL.dec (L.pub a)
      rw [hL.curve, hc] at hd
      split at h
      · cases h
      · rename_i id hid
        split at h
        · cases h
        · rename_i sh hsh
          split at h
          · cases h
          · rename_i out hout
            simp only [Except.ok.injEq, Prod.mk.injEq] at h
            obtain ⟨rfl, rfl⟩ := h
            unfold dhkemDecaps performExchange
            rw [hd]
            dsimp only
            rw [hL.curve, hc, sameKind_refl, if_pos rfl, ← hL.comm a sk hc, hs]
            dsimp only
            rw [← hc, hid]
            dsimp only
            rw [hsh]
            exact hout
    · cases hs

theorem C103_class_agreement (L : Lib) (hL : Laws L) (rfc : Bool) (priv : Option L.Priv) (gen sk : L.Priv) (ss ct : Bytes)
    (h : dhEncaps L rfc priv gen (L.pub sk) = .ok (ss, ct)) : dhDecaps L rfc sk ct = .ok ss := by
  cases rfc
  · exact C103_ecdh_agreement L hL priv gen sk ss ct h
  · exact C103_agreement L hL priv gen sk ss ct h

/-! RFC 9180, sections 4, 4.1 and 7.1, written down separately. -/

/-- One row of table 2 of RFC 9180: the KEM identifier, the hash of its HKDF and Nsecret. -/
structure Rfc where
  kemId : Nat
  hash : Sha
  nsecret : Nat

/-- Table 2 of RFC 9180. -/
def rfcTable : Curve → Option Rfc
  | .ec "secp256r1" => some ⟨16, .sha256, 32⟩
  | .ec "secp384r1" => some ⟨17, .sha384, 48⟩
  | .ec "secp521r1" => some ⟨18, .sha512, 64⟩
  | .x25519 => some ⟨32, .sha256, 32⟩
  | .x448 => some ⟨33, .sha512, 64⟩
  | _ => none

def rfcSuite (R : Rfc) : Bytes := ascii "KEM" ++ [UInt8.ofNat (R.kemId / 256), UInt8.ofNat (R.kemId % 256)]

/-- `LabeledExtract(salt, label, ikm)`. -/
def rfcLabeledExtract (L : Lib) (R : Rfc) (salt : Bytes) (label : String) (ikm : Bytes) : Bytes :=
  L.extract R.hash salt (ascii "HPKE-v1" ++ rfcSuite R ++ ascii label ++ ikm)

/-- `LabeledExpand(prk, label, info, L)`. -/
def rfcLabeledExpand (L : Lib) (R : Rfc) (prk : Bytes) (label : String) (info : Bytes) (len : Nat) : Bytes :=
  L.expand R.hash prk ([UInt8.ofNat (len / 256), UInt8.ofNat (len % 256)] ++ ascii "HPKE-v1" ++ rfcSuite R ++ ascii label ++ info) len

/-- `ExtractAndExpand(dh, kem_context)`. -/
def rfcExtractAndExpand (L : Lib) (R : Rfc) (dh ctx : Bytes) : Bytes :=
  rfcLabeledExpand L R (rfcLabeledExtract L R [] "eae_prk" dh) "shared_secret" ctx R.nsecret

theorem table_cases (c : Curve) (R : Rfc) (h : rfcTable c = some R) :
    (c = .ec "secp256r1" ∧ R = ⟨16, .sha256, 32⟩) ∨ (c = .ec "secp384r1" ∧ R = ⟨17, .sha384, 48⟩) ∨
    (c = .ec "secp521r1" ∧ R = ⟨18, .sha512, 64⟩) ∨ (c = .x25519 ∧ R = ⟨32, .sha256, 32⟩) ∨ (c = .x448 ∧ R = ⟨33, .sha512, 64⟩) := by
  unfold rfcTable at h
  split at h <;> simp_all

theorem extract_rfc (L : Lib) (c : Curve) (R : Rfc) (h : rfcTable c = some R) (dh ctx : Bytes) :
    ∃ id s, getKeyId c = .ok id ∧ look id idToSha = .ok s ∧
      extractAndExpand L s dh ctx id = .ok (rfcExtractAndExpand L R dh ctx) := by
  have e16 : i2osp 16 2 = .ok [0, 16] := by decide +kernel
  have e17 : i2osp 17 2 = .ok [0, 17] := by decide +kernel
  have e18 : i2osp 18 2 = .ok [0, 18] := by decide +kernel
  have e32 : i2osp 32 2 = .ok [0, 32] := by decide +kernel
  have e33 : i2osp 33 2 = .ok [0, 33] := by decide +kernel
  have e48 : i2osp 48 2 = .ok [0, 48] := by decide +kernel
  have e64 : i2osp 64 2 = .ok [0, 64] := by decide +kernel
  rcases table_cases c R h with ⟨rfl, rfl⟩ | ⟨rfl, rfl⟩ | ⟨rfl, rfl⟩ | ⟨rfl, rfl⟩ | ⟨rfl, rfl⟩
  · exact ⟨16, .sha256, by decide +kernel, by decide, by simp only [extractAndExpand, e16, Sha.size, e32]; rfl⟩
  · exact ⟨17, .sha384, by decide +kernel, by decide, by simp only [extractAndExpand, e17, Sha.size, e48]; rfl⟩
  · exact ⟨18, .sha512, by decide +kernel, by decide, by simp only [extractAndExpand, e18, Sha.size, e64]; rfl⟩
  · exact ⟨32, .sha256, by decide +kernel, by decide, by simp only [extractAndExpand, e32, Sha.size]; rfl⟩
  · exact ⟨33, .sha512, by decide +kernel, by decide, by simp only [extractAndExpand, e33, Sha.size, e64]; rfl⟩

/-- C103. For the five KEMs of RFC 9180, a successful exchange gives `Encap` of the RFC: the secret is
`ExtractAndExpand(dh, enc || pkR)` and the ciphertext is the encoded ephemeral key. -/
theorem C103_rfc9180 (L : Lib) (priv : Option L.Priv) (gen : L.Priv) (pk : L.Pub) (R : Rfc)
    (h : rfcTable (L.privCurve (priv.getD gen)) = some R) (hk : L.pubCurve pk = L.privCurve (priv.getD gen)) (dh : Bytes)
    (hd : L.exchange (priv.getD gen) pk = .ok dh) :
    dhkemEncaps L priv gen pk =
      .ok (rfcExtractAndExpand L R dh (L.encode (L.pub (priv.getD gen)) ++ L.encode pk), L.encode (L.pub (priv.getD gen))) := by
  obtain ⟨id, s, e1, e2, e3⟩ := extract_rfc L _ R h dh (L.encode (L.pub (priv.getD gen)) ++ L.encode pk)
  unfold dhkemEncaps performExchange
  dsimp only
  rw [hk, sameKind_refl, if_pos rfl, hd]
  dsimp only
  rw [e1]
  dsimp only
  rw [e2]
  dsimp only
  rw [e3]

/-- The claim that the suite identifier tells the curves apart. -/
def suiteSeparatesCurves : Prop := ∀ c c' id, getKeyId c = .ok id → getKeyId c' = .ok id → c = c'

/-- C103 does not extend to the brainpool curves: they share the identifiers of the NIST curves. -/
theorem C103_suite_refuted : ¬ suiteSeparatesCurves := by
  intro h
  exact absurd (h (.ec "secp256r1") (.ec "brainpoolP256r1") 16 (by decide +kernel) (by decide +kernel)) (by decide)

/-- C103. On the curves of RFC 9180 the identifier does tell them apart. -/
theorem C103_suite_partial (c c' : Curve) (R R' : Rfc) (h : rfcTable c = some R) (h' : rfcTable c' = some R') (id : Nat)
    (e : getKeyId c = .ok id) (e' : getKeyId c' = .ok id) : c = c' := by
  rcases table_cases c R h with ⟨rfl, -⟩ | ⟨rfl, -⟩ | ⟨rfl, -⟩ | ⟨rfl, -⟩ | ⟨rfl, -⟩ <;>
  rcases table_cases c' R' h' with ⟨rfl, -⟩ | ⟨rfl, -⟩ | ⟨rfl, -⟩ | ⟨rfl, -⟩ | ⟨rfl, -⟩ <;>
  first
  | rfl
  | (exfalso; have := e.trans e'.symm; revert this; decide +kernel)

/-! A toy library: keys are numbers with a curve, the exchange multiplies. -/

def encName : Curve → Bytes
  | .ec n => 0 :: ascii n
  | .x25519 => [1]
  | .x448 => [2]

def toyLib : Lib where
  Priv := Curve × UInt8
  Pub := Curve × UInt8
  pub := id
  privCurve := Prod.fst
  pubCurve := Prod.fst
  exchange := fun a p => if a.1 = p.1 then .ok [a.2 * p.2] else .error .valueError
  encode := fun p => [p.2]
  decode := fun c b => match b with
    | [x] => .ok (c, x)
    | _ => .error .valueError
  extract := fun _ s i => s ++ i
  expand := fun _ p i n => (p.drop 19 ++ i.reverse).take n

theorem toyLaws : Laws toyLib where
  curve := fun _ => rfl
  comm := fun a b h => by
    change (if a.1 = b.1 then _ else _) = (if b.1 = a.1 then _ else _)
    have h' : a.1 = b.1 := h
    rw [if_pos h', if_pos h'.symm]
    exact congrArg (fun x => Except.ok [x]) (UInt8.mul_comm a.2 b.2)
  mismatch := fun a p h => ⟨.valueError, if_neg h⟩
  dec := fun p => rfl

example : dhkemEncaps toyLib none (.x25519, 3) (.x25519, 5) =
    .ok ([15] ++ [5, 3] ++ (ascii "shared_secret").reverse ++ [32, 0] ++ (ascii "KEM").reverse ++ (ascii "HPKE-v1").reverse ++ [32, 0] |>.take 32, [3]) := by
  decide +kernel
example : dhkemDecaps toyLib (.x25519, 5) [3] = (dhkemEncaps toyLib none (.x25519, 3) (.x25519, 5)).map Prod.fst := by
  decide +kernel
example : dhkemEncaps toyLib (some (.ec "secp384r1", 3)) (.x25519, 3) (.ec "secp256r1", 5) = .error .valueError := by decide +kernel

end Verif.PQ.Mech
