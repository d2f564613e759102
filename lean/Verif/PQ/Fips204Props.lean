import Verif.PQ.Fips204Sign

/-!
# Properties of the ML-DSA model (C40 - C49)
-/

namespace Verif.PQ.Dsa

open Verif.CA (Bytes PyErr)
open Verif.PQ.Kem (bitsToBytes bytesToBits slice zeroPoly flatMap_congr' slice_append_left slice_mid slice_chunk)

/-! ## C40: conversions -/

/-- Value of a bit list, least significant bit first. -/
def bitsLE : List Nat → Nat
  | [] => 0
  | b :: l => b + 2 * bitsLE l

theorem bitsLE_eq (l : List Nat) : bitsLE l = Kem.bitsVal l := by
  induction l with
  | nil => rfl
  | cons b l ih => rw [bitsLE, Kem.bitsVal, ih]

/-- C40: `integer_to_bits` gives the binary digits. -/
theorem C40_integer_bits (x : Int) (a : Nat) :
    (integerToBits x a).length = a ∧ (∀ b ∈ integerToBits x a, b = 0 ∨ b = 1) ∧ (bitsLE (integerToBits x a) : Int) = x % 2 ^ a :=
  ⟨integerToBits_length x a, fun b hb => by have := integerToBits_isBits x a b hb; omega, by rw [bitsLE_eq]; exact bitsVal_integerToBits x a⟩

/-- C40: `bits_to_integer` inverts `integer_to_bits` on `[0, 2^a)`. -/
theorem C40_bits_integer (x : Int) (a : Nat) (h0 : 0 ≤ x) (h : x < 2 ^ a) : bitsToInteger (integerToBits x a) a = x := by
  rw [bitsToInteger_eq, List.take_of_length_le (by rw [integerToBits_length]), bitsVal_integerToBits]
  exact Int.emod_eq_of_lt h0 h

/-- C40: `integer_to_bits` inverts `bits_to_integer` on bit lists. -/
theorem C40_integer_of_bits (l : List Nat) (hl : ∀ b ∈ l, b = 0 ∨ b = 1) : integerToBits (bitsToInteger l l.length) l.length = l := by
  rw [bitsToInteger_eq, List.take_of_length_le (Nat.le_refl _), integerToBits_nat]
  exact Kem.natBits_bitsVal l (fun b hb => by rcases hl b hb with h | h <;> omega)

/-- Value of a byte list, least significant byte first. -/
def bytesLE : Bytes → Nat
  | [] => 0
  | b :: l => b.toNat + 256 * bytesLE l

theorem bytesLE_eq (l : Bytes) : bytesLE l = leVal l := by
  induction l with
  | nil => rfl
  | cons b l ih => rw [bytesLE, leVal, ih]

/-- C40: `integer_to_bytes` gives the little-endian bytes, and every byte string is obtained from its value. -/
theorem C40_integer_bytes :
    (∀ (x : Int) (a : Nat), (integerToBytes x a).length = a ∧ (bytesLE (integerToBytes x a) : Int) = x % 256 ^ a) ∧
    (∀ b : Bytes, integerToBytes (bytesLE b) b.length = b) :=
  ⟨fun x a => ⟨integerToBytes_length x a, by rw [bytesLE_eq]; exact leVal_integerToBytes x a⟩,
    fun b => by rw [bytesLE_eq]; exact integerToBytes_leVal b⟩

/-- C40: bits and bytes. -/
theorem C40_bits_bytes :
    (∀ b : Bytes, bitsToBytes (bytesToBits b) = b) ∧
    (∀ l : List Nat, 8 ∣ l.length → (∀ x ∈ l, x = 0 ∨ x = 1) → bytesToBits (bitsToBytes l) = l) := by
  refine ⟨Kem.bitsToBytes_bytesToBits, fun l ⟨n, hn⟩ hl => Kem.bytesToBits_bitsToBytes n l hn (fun x hx => ?_)⟩
  rcases hl x hx with h | h <;> omega

example : integerToBits 6 4 = [0, 1, 1, 0] ∧ bitsToInteger [0, 1, 1, 0] 4 = 6 ∧ integerToBytes 0x1234 2 = [0x34, 0x12] ∧
    integerToBits (-1) 3 = [1, 1, 1] := by decide

/-! ## C41: packing -/

/-- C41: unpacking inverts packing. -/
theorem C41_unpack_pack (w : List Int) (hw : w.length = 256) (a b : Nat) :
    ((∀ x ∈ w, 0 ≤ x ∧ x ≤ b) → simpleBitUnpack (simpleBitPack w b) b = w) ∧
    ((∀ x ∈ w, -(a : Int) ≤ x ∧ x ≤ b) → bitUnpack (bitPack w a b) a b = w) :=
  ⟨simpleBitUnpack_simpleBitPack w hw b, bitUnpack_bitPack w hw a b⟩

/-- C41: packing inverts unpacking, for every byte string of the packed length. -/
theorem C41_pack_unpack (v : Bytes) (a b : Nat) :
    (v.length = 32 * bitLen b → simpleBitPack (simpleBitUnpack v b) b = v) ∧
    (v.length = 32 * bitLen (a + b) → bitPack (bitUnpack v a b) a b = v) :=
  ⟨simpleBitPack_simpleBitUnpack v b, bitPack_bitUnpack v a b⟩

/-- C41: when `a + b + 1` is a power of two, every unpacked coefficient is in the declared range. -/
theorem C41_range (v : Bytes) (a b c : Nat) (h : a + b + 1 = 2 ^ c) (hv : v.length = 32 * bitLen (a + b)) :
    ∀ x ∈ bitUnpack v a b, -(a : Int) ≤ x ∧ x ≤ b := by
  have hc : bitLen (a + b) = c := by
    unfold bitLen
    cases c with
    | zero => rw [if_pos (by simpa using h)]
    | succ c =>
      have hp : 0 < 2 ^ c := Nat.two_pow_pos c
      rw [Nat.pow_succ] at h
      rw [if_neg (by omega)]
      congr 1
      rw [Nat.log2_eq_iff (by omega), Nat.pow_succ]
      omega
  intro x hx
  have := bitUnpack_range v a b hv x hx
  rw [hc] at this
  have h' : ((2 ^ c : Nat) : Int) = a + b + 1 := by rw [← h]; push_cast; rfl
  push_cast at h'
  omega

example : (bitPack ([0, 1, -1, 2] ++ List.replicate 252 0) 1 2).take 2 = [0x36, 0xaa] ∧
    (bitUnpack (0x36 :: List.replicate 63 0xaa) 1 2).take 5 = [0, 1, -1, 2, 0] := by decide +kernel

/-! ## C42: hints -/

/-- Number of nonzero coefficients in the first `n` rows. -/
def onesIn (h : Nat → List Int) : Nat → Nat
  | 0 => 0
  | n + 1 => onesIn h n + ((h n).filter (fun x => x ≠ 0)).length

theorem weight_filter (r : List Int) : weight r = (r.filter (fun x => x ≠ 0)).length := by
  unfold weight
  induction r with
  | nil => rfl
  | cons x r ih =>
    rw [List.map_cons, List.sum_cons, ih, List.filter_cons]
    by_cases h : x = 0
    · simp [h]
    · simp [h]; omega

theorem onesIn_eq (h : Nat → List Int) (n : Nat) (hl : ∀ i < n, (h i).length = 256) : onesIn h n = tot h n := by
  rw [← tot_weight h n hl]
  unfold weightVec
  clear hl
  induction n with
  | zero => rfl
  | succ n ih =>
    rw [onesIn, ih, List.range_succ, List.map_append, List.sum_append, ← weight_filter]
    simp

/-- A hint of `k` rows of 256 zeros and ones with at most `omega` ones. -/
def IsHint (P : Params) (h : Nat → List Int) : Prop :=
  (∀ i < P.k, (h i).length = 256 ∧ ∀ x ∈ h i, x = 0 ∨ x = 1) ∧ onesIn h P.k ≤ P.omega

theorem IsHint.tot_le {P : Params} {h : Nat → List Int} (hh : IsHint P h) : tot h P.k ≤ P.omega := by
  rw [← onesIn_eq h P.k (fun i hi => (hh.1 i hi).1)]; exact hh.2

/-- C42: every hint is recovered. -/
theorem C42_unpack_pack (P : Params) (hP : IsParam P) (h : Nat → List Int) (hh : IsHint P h) :
    hintBitUnpack P (hintBitPack P h) = .ok (some ((List.range P.k).map h)) :=
  hintUnpack_pack P h hh.tot_le (facts hP).omega (fun i hi => hh.1 i hi)

/-- C42: a byte string that unpacks is the packing of the hint it unpacks to. -/
theorem C42_pack_unpack (P : Params) (y : Bytes) (hy : y.length = P.omega + P.k) (rows : List (List Int))
    (h : hintBitUnpack P y = .ok (some rows)) :
    rows.length = P.k ∧ IsHint P (fun i => rows.getD i []) ∧ hintBitPack P (fun i => rows.getD i []) = y := by
  obtain ⟨h1, h2, h3, h4⟩ := hintUnpack_sound hy h
  refine ⟨h1, ⟨fun i hi => h2 i hi, ?_⟩, h4⟩
  rw [onesIn_eq _ _ (fun i hi => (h2 i hi).1)]
  exact h3

/-- C42: two byte strings that unpack to the same hint are equal. -/
theorem C42_unique (P : Params) (y y' : Bytes) (hy : y.length = P.omega + P.k) (hy' : y'.length = P.omega + P.k)
    (rows : List (List Int)) (h : hintBitUnpack P y = .ok (some rows)) (h' : hintBitUnpack P y' = .ok (some rows)) : y = y' := by
  rw [← (C42_pack_unpack P y hy rows h).2.2, (C42_pack_unpack P y' hy' rows h').2.2]

example : IsHint p44 (fun i => if i = 1 then List.replicate 255 0 ++ [1] else zeroPoly) := by
  refine ⟨fun i _ => ?_, by decide +kernel⟩
  simp only
  split
  · refine ⟨by decide +kernel, fun x hx => ?_⟩
    rcases List.mem_append.1 hx with h | h
    · exact .inl (List.eq_of_mem_replicate h)
    · exact .inr (List.mem_singleton.1 h)
  · exact ⟨zeroPoly_length, fun x hx => .inl (List.eq_of_mem_replicate hx)⟩

/-! ## C43: rounding -/

/-- C43: `power2round`. -/
theorem C43_power2round (P : Params) (hP : IsParam P) (r : Int) :
    ((power2round P.d r).1 * 2 ^ 13 + (power2round P.d r).2 - r) % 8380417 = 0 ∧
      -(2 ^ 12) < (power2round P.d r).2 ∧ (power2round P.d r).2 ≤ 2 ^ 12 ∧
      0 ≤ (power2round P.d r).1 ∧ (power2round P.d r).1 < 2 ^ 10 := by
  rw [(facts hP).d]
  have h := power2round_spec r
  unfold q at h
  simp only [Int.reducePow]
  omega

/-- C43: `decompose`. The high part is below `m = (q-1)/(2 gamma2)`; the low part is in `(-gamma2, gamma2]`, except that it
may be `-gamma2` when the high part wrapped to 0. -/
theorem C43_decompose (P : Params) (hP : IsParam P) (r : Int) :
    ((decompose P r).1 * (2 * P.gam2) + (decompose P r).2 - r) % 8380417 = 0 ∧
      0 ≤ (decompose P r).1 ∧ (decompose P r).1 < 8380416 / (2 * P.gam2) ∧
      ((-(P.gam2 : Int) < (decompose P r).2 ∧ (decompose P r).2 ≤ P.gam2) ∨
        ((decompose P r).1 = 0 ∧ (decompose P r).2 = -P.gam2)) := by
  rw [decompose_dec]
  obtain ⟨k, h1, h2, h3, h4⟩ := dec_spec (isParam_g hP) r
  refine ⟨?_, h2, h3, h4⟩
  rw [h1]
  unfold q
  omega

/-- C43: `decompose` returns the only such parts. -/
theorem C43_decompose_unique (P : Params) (hP : IsParam P) (r r1 r0 : Int) (h : (r1 * (2 * P.gam2) + r0 - r) % 8380417 = 0)
    (h0 : 0 ≤ r1) (h1 : r1 < 8380416 / (2 * P.gam2)) (h2 : (-(P.gam2 : Int) < r0 ∧ r0 ≤ P.gam2) ∨ (r1 = 0 ∧ r0 = -P.gam2)) :
    decompose P r = (r1, r0) := by
  rw [decompose_dec]
  have hk := Int.mul_ediv_add_emod (r1 * (2 * P.gam2) + r0 - r) 8380417
  exact dec_unique (isParam_g hP) (k := (r1 * (2 * P.gam2) + r0 - r) / 8380417) (by unfold q; omega) h0 h1 h2

example : decompose p44 8380416 = (0, -1) ∧ decompose p44 (95232 * 3) = (1, 95232) ∧ power2round 13 (-1) = (1023, 0) := by decide

/-! ## C44: hints recover the high bits -/

/-- C44: `use_hint(make_hint(z, r), r)` is `high_bits(r + z)` for `|z| <= gamma2` modulo `q`. -/
theorem C44_use_hint (P : Params) (hP : IsParam P) (z r : List Int) (hr : r.length = 256)
    (hb : ∀ k < 256, ∃ e : Int, (at0 z k - e) % 8380417 = 0 ∧ -(P.gam2 : Int) ≤ e ∧ e ≤ P.gam2) :
    useHint P (makeHint P z r) r = highBits P (add r z) := by
  have la : (add r z).length = 256 := by rw [add_length, hr]
  apply ext_at0 (n := 256) (by simp [useHint]) (by simp [highBits, la])
  intro k hk
  have e1 : at0 (useHint P (makeHint P z r) r) k = uh P.gam2 (at0 (makeHint P z r) k) (at0 r k) := by
    unfold useHint; rw [map_range_at _ _ k hk]; rfl
  have e2 : at0 (highBits P r) k = (dec P.gam2 (at0 r k)).1 := map_at _ _ k (by omega)
  have e3 : at0 (highBits P (add r z)) k = (dec P.gam2 (at0 (add r z) k)).1 := map_at _ _ k (by omega)
  have e4 : at0 (makeHint P z r) k = if at0 (highBits P r) k = at0 (highBits P (add r z)) k then 0 else 1 := by
    unfold makeHint neq; rw [map_range_at _ _ k (by simp [highBits, hr, hk])]
  have e5 : at0 (add r z) k = (at0 r k + at0 z k) % q := add_at _ _ k (by omega)
  rw [e1, e4, e2, e3]
  obtain ⟨e, he, hl, hu⟩ := hb k hk
  obtain ⟨c, hc⟩ := emod_ex (at0 r k + at0 z k)
  have hd := Int.mul_ediv_add_emod (at0 z k - e) 8380417
  exact uh_spec (isParam_g hP) (at0 r k) e (at0 (add r z) k) (c + (at0 z k - e) / 8380417)
    (by rw [e5, hc, Int.add_mul]; unfold q; omega) ⟨hl, hu⟩

/-- C44: adding a value of size at most `b` does not change the high bits when the low bits are below `gamma2 - b`. -/
theorem C44_perturbation (P : Params) (hP : IsParam P) (r s p b : Int) (hs : (s - (r + p)) % 8380417 = 0)
    (hp : -b ≤ p ∧ p ≤ b) (hr : -(P.gam2 - b) < (decompose P r).2 ∧ (decompose P r).2 < P.gam2 - b) :
    (decompose P s).1 = (decompose P r).1 := by
  have hd := Int.mul_ediv_add_emod (s - (r + p)) 8380417
  exact dec_stable (isParam_g hP) r p s ((s - (r + p)) / 8380417) b (by unfold q; omega) hp hr

example : useHint1 p44 1 95232 = 1 ∧ (decompose p44 (95232 + 5)).1 = 1 ∧ (decompose p44 95232).1 = 0 := by decide

/-! ## C45: the transform -/

/-- 256 coefficients in `[0, q)`. -/
def IsPoly (f : List Int) : Prop := f.length = 256 ∧ ∀ x ∈ f, 0 ≤ x ∧ x < 8380417

theorem IsPoly.at {f : List Int} (h : IsPoly f) : ∀ k < 256, 0 ≤ at0 f k ∧ at0 f k < q :=
  fun k hk => h.2 _ (mem_at f k (by rw [h.1]; exact hk))

/-- C45: the transforms are inverse to each other. -/
theorem C45_inverse (f : List Int) (hf : IsPoly f) : nttInv (ntt f) = f ∧ ntt (nttInv f) = f :=
  ⟨list_eq_of_cast (Q := 8380417) (nttInv_length _ (ntt_length f hf.1)) hf.1 (nttInv_range _ (ntt_length f hf.1)) hf.at
    (nttInv_ntt_res f hf.1),
   list_eq_of_cast (Q := 8380417) (ntt_length _ (nttInv_length f hf.1)) hf.1 (ntt_range _ (nttInv_length f hf.1)) hf.at
    (ntt_nttInv_res f hf.1)⟩

/-- C45: pointwise multiplication of transforms is multiplication modulo `X^256 + 1` and `q`. -/
theorem C45_multiply (f g : List Int) (hf : f.length = 256) (hg : g.length = 256) :
    nttInv (mulNtt (ntt f) (ntt g)) = (List.range 256).map (fun k => prodCoeff f g k % 8380417) :=
  ext_at0 (n := 256) (nttInv_length _ (mulNtt_length _ _)) (by simp) (fun k hk => by
    rw [mul_at f g hf hg k hk, map_range_at _ _ k hk]; rfl)

example : prodCoeff (0 :: 1 :: List.replicate 254 0) (List.replicate 255 0 ++ [1]) 0 = -1 ∧
    prodCoeff (3 :: 1 :: List.replicate 254 0) (5 :: 2 :: List.replicate 254 0) 1 = 11 := by decide +kernel

/-! ## C46: domain separation -/

theorem integerToBytes_one {n m : Nat} (hn : n ≤ 255) (hm : m ≤ 255) (h : integerToBytes (n : Int) 1 = integerToBytes (m : Int) 1) : n = m := by
  have h1 := leVal_integerToBytes (n : Int) 1
  have h2 := leVal_integerToBytes (m : Int) 1
  rw [h] at h1
  omega

theorem mp_inj {d d' : Int} {c c' r r' : Bytes} (hc : c.length ≤ 255) (hc' : c'.length ≤ 255)
    (h : integerToBytes d 1 ++ integerToBytes c.length 1 ++ c ++ r = integerToBytes d' 1 ++ integerToBytes c'.length 1 ++ c' ++ r') :
    integerToBytes d 1 = integerToBytes d' 1 ∧ c = c' ∧ r = r' := by
  simp only [List.append_assoc] at h
  obtain ⟨h1, h⟩ := List.append_inj h (by rw [integerToBytes_length, integerToBytes_length])
  obtain ⟨h2, h⟩ := List.append_inj h (by rw [integerToBytes_length, integerToBytes_length])
  have h2 := integerToBytes_one hc hc' h2
  obtain ⟨h3, h4⟩ := List.append_inj h h2
  exact ⟨h1, h3, h4⟩

/-- C46: the string signed in pure mode determines context and message. -/
theorem C46_pure_injective (ctx ctx' m m' : Bytes) (hc : ctx.length ≤ 255) (hc' : ctx'.length ≤ 255)
    (h : pureMp ctx m = pureMp ctx' m') : ctx = ctx' ∧ m = m' :=
  (mp_inj hc hc' h).2

/-- C46: the string signed in pre-hash mode determines context, hash function and digest. -/
theorem C46_hash_injective (E : Env) (ctx ctx' m m' : Bytes) (ph ph' : PreHash) (hc : ctx.length ≤ 255) (hc' : ctx'.length ≤ 255)
    (h : hashMp E ctx m ph = hashMp E ctx' m' ph') : ctx = ctx' ∧ ph = ph' ∧ phDigest E ph m = phDigest E ph' m' := by
  unfold hashMp at h
  rw [List.append_assoc _ (phOid ph), List.append_assoc _ (phOid ph')] at h
  obtain ⟨-, h1, h2⟩ := mp_inj hc hc' h
  obtain ⟨h3, h4⟩ := List.append_inj h2 (by cases ph <;> cases ph' <;> rfl)
  refine ⟨h1, ?_, h4⟩
  revert h3
  cases ph <;> cases ph' <;> decide

/-- C46: no pure-mode string is a pre-hash-mode string. -/
theorem C46_domains (E : Env) (ctx ctx' m m' : Bytes) (ph : PreHash) : pureMp ctx m ≠ hashMp E ctx' m' ph := by
  intro h
  have := congrArg List.head? h
  simp [pureMp, hashMp, integerToBytes] at this

/-- C46: a context of more than 255 bytes yields no signature and is never accepted. -/
theorem C46_long_context (P : Params) (E : Env) (k m sig ctx : Bytes) (rnd : Option Bytes) (ph : Option PreHash) (h : ctx.length > 255) :
    (∀ s, sign P E k m ctx rnd ≠ .value s) ∧ (∀ s, hashSign P E k m ctx ph rnd ≠ .value s) ∧
      verify P E k m sig ctx ≠ .value true ∧ hashVerify P E k m sig ctx ph ≠ .value true := by
  simp [sign, hashSign, verify, hashVerify, h]

example : pureMp [1] [2, 3] = [0, 1, 1, 2, 3] ∧ pureMp [1, 2] [3] = [0, 2, 1, 2, 3] := by decide

/-! ## C47: signatures verify -/

/-- C47: every signature made with a generated key is accepted. -/
theorem C47_sign_verify (P : Params) (hP : IsParam P) (E : Env) (hE : E.Sized) (xi pk sk mp rnd sig : Bytes)
    (hk : keygen P E xi = some (pk, sk)) (hs : signInternal P E sk mp rnd = some sig) :
    verifyInternal P E pk mp sig = some (.ok true) :=
  sign_verify (facts hP) hE hk hs

theorem ofOption_value {α : Type} {o : Option α} {a : α} (h : Out.ofOption o = .value a) : o = some a := by
  cases o <;> simp_all [Out.ofOption]

/-- C47: the same for the external interfaces. -/
theorem C47_external (P : Params) (hP : IsParam P) (E : Env) (hE : E.Sized) (xi pk sk m ctx sig : Bytes) (rnd : Option Bytes)
    (ph : Option PreHash) (hk : keygen P E xi = some (pk, sk)) :
    (sign P E sk m ctx rnd = .value sig → verify P E pk m sig ctx = .value true) ∧
    (hashSign P E sk m ctx ph rnd = .value sig → hashVerify P E pk m sig ctx ph = .value true) := by
  constructor
  · intro h
    unfold sign at h
    unfold verify
    split at h
    · cases h
    · rename_i hc
      rw [if_neg hc, C47_sign_verify P hP E hE xi pk sk _ _ sig hk (ofOption_value h)]
      rfl
  · intro h
    unfold hashSign at h
    unfold hashVerify
    split at h
    · cases h
    · rename_i hc
      rw [if_neg hc]
      split at h
      · cases h
      · rw [C47_sign_verify P hP E hE xi pk sk _ _ sig hk (ofOption_value h)]
        rfl

/-! ## C48: malformed signatures -/

/-- The length of a signature. -/
def sigLen (P : Params) : Nat := P.lam / 4 + zLen P * P.ell + P.omega + P.k

/-- The signature sizes of `sig_keys.py` 90-93. -/
theorem sigLen_values : sigLen p44 = 2420 ∧ sigLen p65 = 3309 ∧ sigLen p87 = 4627 := by decide +kernel

theorem slice_append (x y : Bytes) (a b : Nat) (hb : b ≤ x.length) : slice (x ++ y) a b = slice x a b := by
  unfold slice
  by_cases h : a ≤ b
  · rw [List.drop_append_of_le_length (by omega), List.take_append_of_le_length (by rw [List.length_drop]; omega)]
  · rw [show b - a = 0 by omega]; simp

/-- C48: bytes after a complete signature are ignored. -/
theorem C48_trailing_ignored (P : Params) (E : Env) (pk mp sig junk : Bytes) (hs : sig.length = sigLen P) :
    verifyInternal P E pk mp (sig ++ junk) = verifyInternal P E pk mp sig := by
  have hz : ∀ i < P.ell, sigZBytes P (sig ++ junk) i = sigZBytes P sig i := fun i hi => by
    have h1 : zLen P * (i + 1) ≤ zLen P * P.ell := Nat.mul_le_mul_left _ hi
    unfold sigZBytes
    exact slice_append _ _ _ _ (by unfold sigLen at hs; omega)
  have hc : sigCt P (sig ++ junk) = sigCt P sig := slice_append _ _ _ _ (by unfold sigLen at hs; omega)
  have hh : sigHBytes P (sig ++ junk) = sigHBytes P sig := slice_append _ _ _ _ (by unfold sigLen at hs; omega)
  have hzz : ∀ i < P.ell, sigZ P (sig ++ junk) i = sigZ P sig i := fun i hi => by unfold sigZ; rw [hz i hi]
  have hall : (List.range P.ell).all (fun i => (sigZBytes P (sig ++ junk) i).length == zLen P) =
      (List.range P.ell).all (fun i => (sigZBytes P sig i).length == zLen P) := by
    rw [Bool.eq_iff_iff]
    simp only [List.all_eq_true, List.mem_range]
    exact forall_congr' fun i => forall_congr' fun hi => by rw [hz i hi]
  unfold verifyInternal sigDecode
  rw [hall, hh, hc]
  split
  · rename_i e he
    split at he
    · rename_i hz'
      simp only [if_pos hz']
      split at he
      · rename_i e' h'; simp only at he ⊢; cases he; rfl
      · cases he
    · rename_i hz'
      simp only [if_neg hz']
      cases he; rfl
  · rename_i he
    split at he
    · rename_i hz'
      simp only [if_pos hz']
      split at he
      · cases he
      · rename_i o h'
        simp only [Except.ok.injEq, Prod.mk.injEq] at he
        simp only [he.2.2]
    · cases he
  · rename_i ct z h he
    split at he
    · rename_i hz'
      simp only [if_pos hz']
      split at he
      · cases he
      · rename_i o h'
        simp only [Except.ok.injEq, Prod.mk.injEq] at he
        obtain ⟨rfl, rfl, rfl⟩ := he
        simp only
        rw [infNormVec_congr P.ell _ _ hzz]
        have hw : ∀ a c, verifyW1 P a (pkT1 P pk) (sigZ P (sig ++ junk)) (fun i => h.getD i []) c =
            verifyW1 P a (pkT1 P pk) (sigZ P sig) (fun i => h.getD i []) c := fun a c => by
          funext i
          unfold verifyW1
          simp only
          rw [matVec_congr P a _ (fun j => ntt (sigZ P sig j)) i (fun j hj => by rw [hzz j hj])]
        simp only [hw]
    · cases he

theorem hintRows_read {P : Params} {y : Bytes} : ∀ (n i idx : Nat) (h : List (List Int)) (r : Nat × List (List Int)),
    hintRows P y n i idx h = .ok (some r) → ∀ j, i ≤ j → j < i + n → P.omega + j < y.length := by
  intro n
  induction n with
  | zero => intro i idx h r _ j h1 h2; omega
  | succ n ih =>
    intro i idx h r hr j h1 h2
    rw [hintRows] at hr
    split at hr
    · cases hr
    · rename_i c hc
      have hlt : P.omega + i < y.length := by
        rcases Nat.lt_or_ge (P.omega + i) y.length with h | h
        · exact h
        · rw [List.getElem?_eq_none h] at hc; cases hc
      split at hr
      · cases hr
      · split at hr
        · cases hr
        · by_cases hj : j = i
          · subst hj; exact hlt
          · exact ih _ _ _ _ hr j (by omega) (by omega)

theorem hintUnpack_length {P : Params} (hk : 0 < P.k) {y : Bytes} {rows : List (List Int)} (h : hintBitUnpack P y = .ok (some rows)) :
    P.omega + P.k ≤ y.length := by
  unfold hintBitUnpack at h
  split at h
  · cases h
  · cases h
  · rename_i hr
    have := hintRows_read _ _ _ _ _ hr (P.k - 1) (by omega) (by omega)
    omega

theorem isParam_pos {P : Params} (hP : IsParam P) : 0 < P.k ∧ 0 < P.ell := by
  rcases hP with rfl | rfl | rfl <;> decide

theorem modpm_small {x : Int} (h1 : -4190208 ≤ x) (h2 : x ≤ 4190208) : modpm x q = x :=
  modpm_q_unique (k := 0) (by omega) h1 h2

/-- C48 (partial): a signature is accepted only if it has at least the full length, its hint bytes are the packing of a
hint, and every coefficient of the response is smaller than `gamma1 - beta`. Missing from the property: longer signatures
(they are accepted, see `C48_longer_accepted_refuted`), and the result for shorter ones, which may be an exception. -/
theorem C48_accepted_partial (P : Params) (hP : IsParam P) (E : Env) (pk mp sig : Bytes)
    (h : verifyInternal P E pk mp sig = some (.ok true)) :
    sigLen P ≤ sig.length ∧
    (∃ hint, IsHint P hint ∧ sigHBytes P sig = hintBitPack P hint) ∧
    (∀ i < P.ell, ∀ x ∈ sigZ P sig i, -((P.gam1 : Int) - P.beta) < x ∧ x < (P.gam1 : Int) - P.beta) := by
  unfold verifyInternal at h
  split at h
  · cases h
  · cases h
  · rename_i ct z hh he
    unfold sigDecode at he
    split at he
    · split at he
      · cases he
      · rename_i o ho
        simp only [Except.ok.injEq, Prod.mk.injEq] at he
        obtain ⟨-, rfl, rfl⟩ := he
        split at h
        · rename_i a c ha hc
          simp only [Option.some.injEq, Except.ok.injEq, Bool.and_eq_true, decide_eq_true_eq] at h
          have hpos := isParam_pos hP
          have hl := hintUnpack_length hpos.1 ho
          have hls : (sigHBytes P sig).length = min (P.omega + P.k) (sig.length - (P.lam / 4 + zLen P * P.ell)) := by
            unfold sigHBytes slice
            rw [List.length_take, List.length_drop]
            congr 1
            omega
          have hy : (sigHBytes P sig).length = P.omega + P.k := by omega
          refine ⟨?_, ?_, ?_⟩
          · unfold sigLen; omega
          · obtain ⟨-, h2, h3⟩ := C42_pack_unpack P _ hy _ ho
            exact ⟨_, h2, h3.symm⟩
          · intro i hi x hx
            have F := facts hP
            have hb := F.beta1
            have hg := F.g1q
            have hn := (infNormVec_lt _ _ _ (by omega)).1 h.1 i hi x hx
            have hzl : (sigZBytes P sig i).length = zLen P := by
              unfold sigZBytes
              have h1 : zLen P * (i + 1) ≤ zLen P * P.ell := Nat.mul_le_mul_left _ hi
              rw [slice_length_of _ _ _ sig.length rfl (by omega), Nat.mul_succ]
              omega
            have hr := bitUnpack_range (sigZBytes P sig i) (P.gam1 - 1) P.gam1 (by rw [hzl, F.bl2]; rfl) x hx
            have hbd : (2 : Int) ^ bitLen (P.gam1 - 1 + P.gam1) ≤ 1048576 := by
              clear * - hP
              rcases hP with rfl | rfl | rfl <;> decide +kernel
            rw [modpm_small (by omega) (by omega)] at hn
            omega
        · cases h
    · cases he

theorem hintRows_noError {P : Params} {y : Bytes} (hy : P.omega + P.k ≤ y.length) : ∀ (n i idx : Nat) (h : List (List Int)) {e : PyErr},
    i + n ≤ P.k → hintRows P y n i idx h ≠ .error e := by
  intro n
  induction n with
  | zero => intro i idx h e _ hr; cases hr
  | succ n ih =>
    intro i idx h e hi hr
    rw [hintRows, List.getElem?_eq_getElem (by omega)] at hr
    simp only at hr
    split at hr
    · cases hr
    · split at hr
      · cases hr
      · exact ih _ _ _ (by omega) hr

/-- C48 (partial): a complete signature whose hint bytes are not the packing of a hint gives `False`. -/
theorem C48_bad_hint_partial (P : Params) (hP : IsParam P) (E : Env) (pk mp sig : Bytes) (hs : sigLen P ≤ sig.length)
    (h : ∀ hint, IsHint P hint → sigHBytes P sig ≠ hintBitPack P hint) : verifyInternal P E pk mp sig = some (.ok false) := by
  have hy : (sigHBytes P sig).length = P.omega + P.k := by
    unfold sigLen at hs
    unfold sigHBytes
    rw [slice_length_of _ _ _ sig.length rfl (by omega)]
    omega
  have hall : (List.range P.ell).all (fun i => (sigZBytes P sig i).length == zLen P) = true := by
    rw [List.all_eq_true]
    intro i hi
    have hi := List.mem_range.1 hi
    have h1 : zLen P * (i + 1) ≤ zLen P * P.ell := Nat.mul_le_mul_left _ hi
    unfold sigLen at hs
    unfold sigZBytes
    rw [slice_length_of _ _ _ sig.length rfl (by omega), Nat.mul_succ]
    simp
    omega
  have hnone : hintBitUnpack P (sigHBytes P sig) = .ok none := by
    cases ho : hintBitUnpack P (sigHBytes P sig) with
    | error e =>
      exfalso
      unfold hintBitUnpack at ho
      split at ho
      · rename_i e' he'
        exact hintRows_noError (Nat.le_of_eq hy.symm) _ _ _ _ (by omega) he'
      · cases ho
      · split at ho <;> cases ho
    | ok o =>
      cases o with
      | none => rfl
      | some rows =>
        obtain ⟨-, h2, h3⟩ := C42_pack_unpack P _ hy _ ho
        exact absurd h3.symm (h _ h2)
  unfold verifyInternal sigDecode
  rw [if_pos hall, hnone]

/-! ### A run that signs -/

/-- The hash of `okEnv`. -/
def okH (n : Nat) : Bytes := if n = 576 then bitPack zeroPoly 131071 131072 else List.replicate n 0

/-- An environment in which key generation and signing for ml-dsa-44 finish: the streams are zero, so the matrix is zero and
every secret coefficient is 2; a mask request gets the packing of the zero polynomial. -/
def okEnv : Env where
  h := fun _ n => okH n
  xof256 := fun _ _ => 0
  xof128 := fun _ _ => 0
  sha256 := fun x => x
  sha512 := fun x => x
  shake128 := fun x => x
  fuel := 300

theorem okEnv_sized : okEnv.Sized := by
  intro x n
  show (okH n).length = n
  unfold okH
  split
  · rename_i h
    rw [bitPack_length _ zeroPoly_length, h]
    decide +kernel
  · simp

theorem okEnv_a (rho : Bytes) : expandA p44 okEnv rho = some (fun _ _ => zeroPoly) := by
  have h : ∀ b, rejNttPoly okEnv b = some zeroPoly := fun b => by
    show rejNttLoop (fun _ => 0) 300 0 [] = some zeroPoly
    decide +kernel
  unfold expandA
  simp only [h]
  rfl

/-- The polynomial with every coefficient 2. -/
def twos : List Int := List.replicate 256 2

theorem okEnv_s (rho : Bytes) : expandS p44 okEnv rho = some (fun _ => twos, fun _ => twos) := by
  have h : ∀ b, rejBoundedPoly p44 okEnv b = some twos := fun b => by
    show rejBoundedLoop 2 (fun _ => 0) 300 0 [] = some twos
    decide +kernel
  unfold expandS
  simp only [h]
  rfl

theorem okEnv_ball (rho : Bytes) : ∃ c, sampleInBall p44 okEnv rho = some c := by
  have : ∀ rho, (sampleInBall p44 okEnv rho).isSome = (sampleInBall p44 okEnv []).isSome := fun rho => rfl
  have h2 : (sampleInBall p44 okEnv []).isSome = true := by decide +kernel
  exact Option.isSome_iff_exists.1 ((this rho).trans h2)

theorem zero_product (P : Params) (v : Nat → List Int) (i : Nat) :
    nttInv (matVec P (fun _ _ => zeroPoly) v i) = zeroPoly := by
  have hl := matVec_length P (fun _ _ => zeroPoly) v i
  apply list_eq_of_cast (Q := 8380417) (nttInv_length _ hl) zeroPoly_length (nttInv_range _ hl)
  · intro k _; rw [zeroPoly_at]; decide
  apply res_of_fwdT
  intro k hk
  rw [fwdT_nttInv _ hl k hk, matVec_res P _ _ i k hk]
  have hz : castK 8380417 zeroPoly = fun k => (fun _ => (0 : Zq)) k - (fun _ => (0 : Zq)) k := by
    funext k; simp only [castK, zeroPoly_at]; simp
  rw [show fwdT zt 8 (castK 8380417 zeroPoly) k = 0 by rw [hz, fwdT_sub]; simp]
  apply Finset.sum_eq_zero
  intro j _
  simp only [res, castK, zeroPoly_at]
  simp

theorem dec_small {g : Int} (hg : gOk g) (x e k : Int) (h : e = x + k * q) (h1 : -g < e) (h2 : e < g) : dec g x = (0, e) := by
  apply dec_unique hg (k := k) (by omega) (Int.le_refl _) _ (.inl ⟨h1, by omega⟩)
  rcases hg with rfl | rfl <;> decide

attribute [local irreducible] ntt nttInv mulNtt in
theorem okEnv_round (s1 s2 t0 : Nat → List Int) (mu : Bytes)
    (h1 : VecIn 4 s1 (-2) 2) (h2 : VecIn 4 s2 (-2) 2) (h0 : VecIn 4 t0 (-2) 2) :
    ∃ r, signRound p44 okEnv (fun _ _ => zeroPoly) s1 s2 t0 mu (fun _ => zeroPoly) = some (some r) := by
  have F := facts (P := p44) (.inl rfl)
  unfold signRound
  simp only [zero_product]
  obtain ⟨c, hc⟩ := okEnv_ball (okEnv.h (mu ++ w1Encode p44 (fun _ => highBits p44 zeroPoly)) (p44.lam / 4))
  rw [hc]
  simp only
  have hB := sampleInBall_spec F.tau hc
  have key : ∀ s : Nat → List Int, VecIn 4 s (-2) 2 → ∀ i < 4, ∀ k < 256, ∃ p : Int, -78 ≤ p ∧ p ≤ 78 ∧
      at0 (nttInv (mulNtt (ntt c) (ntt (s i)))) k = p % q := fun s hs i hi k hk => by
    have := challenge_product F hB (hs i hi).1 (hs i hi).2 k
    exact ⟨_, this.1, this.2, mul_at c _ hB.len (hs i hi).1 k hk⟩
  have lm : ∀ f g, (nttInv (mulNtt f g)).length = 256 := fun f g => nttInv_length _ (mulNtt_length f g)
  have lz := zeroPoly_length
  have getk : ∀ {l : List Int} {x : Int}, l.length = 256 → x ∈ l → ∃ k < 256, x = at0 l k := fun {l x} hl hx => by
    obtain ⟨k, hk, rfl⟩ := List.mem_iff_getElem.1 hx
    exact ⟨k, by omega, by simp [at0, hk]⟩
  have n1 : infNormVec 4 (fun i => add zeroPoly (nttInv (mulNtt (ntt c) (ntt (s1 i))))) < 130994 := by
    rw [infNormVec_lt _ _ _ (by omega)]
    intro i hi x hx
    obtain ⟨k, hk, ex⟩ := getk (by rw [add_length, lz]) hx
    rw [ex, add_at _ _ k (by rw [lz]; exact hk), zeroPoly_at]
    obtain ⟨p, hp1, hp2, e⟩ := key s1 h1 i hi k hk
    rw [e]
    obtain ⟨k1, e1⟩ := emod_ex p
    obtain ⟨k2, e2⟩ := emod_ex (0 + p % q)
    rw [modpm_q_unique (y := p) (k := -k1 - k2) (by rw [e2, e1, Int.sub_mul, Int.neg_mul]; omega) (by omega) (by omega)]
    omega
  have hsub : ∀ i < 4, ∀ k < 256, ∃ e K : Int, -78 ≤ e ∧ e ≤ 78 ∧ e = at0 (sub zeroPoly (nttInv (mulNtt (ntt c) (ntt (s2 i))))) k + K * q := by
    intro i hi k hk
    rw [sub_at _ _ k (by rw [lz]; exact hk), zeroPoly_at]
    obtain ⟨p, hp1, hp2, e⟩ := key s2 h2 i hi k hk
    rw [e]
    obtain ⟨k1, e1⟩ := emod_ex p
    obtain ⟨k2, e2⟩ := emod_ex (0 - p % q)
    exact ⟨-p, k1 - k2, by omega, by omega, by rw [e2, e1, Int.sub_mul]; omega⟩
  have ls : ∀ i, (sub zeroPoly (nttInv (mulNtt (ntt c) (ntt (s2 i))))).length = 256 := fun i => by rw [sub_length, lz]
  have n2 : infNormVec 4 (fun i => lowBits p44 (sub zeroPoly (nttInv (mulNtt (ntt c) (ntt (s2 i)))))) < 95154 := by
    rw [infNormVec_lt _ _ _ (by omega)]
    intro i hi x hx
    obtain ⟨k, hk, ex⟩ := getk (by rw [lowBits, List.length_map, ls]) hx
    rw [ex]
    have hl := ls i
    rw [lowBits, map_at _ _ k (by omega), decompose_dec]
    obtain ⟨e, K, he1, he2, e⟩ := hsub i hi k hk
    rw [dec_small F.g2 _ _ K e (by show -95232 < _; omega) (by show _ < 95232; omega)]
    simp only
    rw [modpm_small (by omega) (by omega)]
    omega
  rw [if_neg]
  rotate_left
  · rw [not_or, ge_iff_le, ge_iff_le, Int.not_le, Int.not_le]
    exact ⟨n1, n2⟩
  have n3 : infNormVec 4 (fun i => nttInv (mulNtt (ntt c) (ntt (t0 i)))) < 95232 := by
    rw [infNormVec_lt _ _ _ (by omega)]
    intro i hi x hx
    obtain ⟨k, hk, ex⟩ := getk (lm _ _) hx
    rw [ex]
    obtain ⟨p, hp1, hp2, e⟩ := key t0 h0 i hi k hk
    rw [e]
    obtain ⟨k1, e1⟩ := emod_ex p
    rw [modpm_q_unique (y := p) (k := -k1) (by rw [e1, Int.neg_mul]; omega) (by omega) (by omega)]
    omega
  have n4 : weightVec 4 (fun i => makeHint p44 (neg (nttInv (mulNtt (ntt c) (ntt (t0 i)))))
      (add (sub zeroPoly (nttInv (mulNtt (ntt c) (ntt (s2 i))))) (nttInv (mulNtt (ntt c) (ntt (t0 i)))))) = 0 := by
    have hw : ∀ i < 4, weight (makeHint p44 (neg (nttInv (mulNtt (ntt c) (ntt (t0 i)))))
        (add (sub zeroPoly (nttInv (mulNtt (ntt c) (ntt (s2 i))))) (nttInv (mulNtt (ntt c) (ntt (t0 i)))))) = 0 := by
      intro i hi
      rw [weight_filter, List.length_eq_zero_iff, List.filter_eq_nil_iff]
      intro x hx
      unfold makeHint neq at hx
      obtain ⟨k, hk, rfl⟩ := List.mem_map.1 hx
      have hl := ls i
      have la : (add (sub zeroPoly (nttInv (mulNtt (ntt c) (ntt (s2 i))))) (nttInv (mulNtt (ntt c) (ntt (t0 i))))).length = 256 := by
        rw [add_length, hl]
      have hk : k < 256 := by
        have := List.mem_range.1 hk
        rw [highBits, List.length_map, la] at this
        exact this
      have lm0 := lm (ntt c) (ntt (t0 i))
      rw [highBits, highBits, map_at _ _ k (by omega), map_at _ _ k (by rw [add_length]; omega), decompose_dec, decompose_dec,
        add_at _ _ k (by omega : k < (add (sub zeroPoly (nttInv (mulNtt (ntt c) (ntt (s2 i))))) (nttInv (mulNtt (ntt c) (ntt (t0 i))))).length),
        add_at _ _ k (by omega : k < (sub zeroPoly (nttInv (mulNtt (ntt c) (ntt (s2 i))))).length), neg_at _ k (by omega)]
      obtain ⟨v, K, he1, he2, ev⟩ := hsub i hi k hk
      obtain ⟨p, hp1, hp2, e'⟩ := key t0 h0 i hi k hk
      rw [e']
      generalize at0 (sub zeroPoly (nttInv (mulNtt (ntt c) (ntt (s2 i))))) k = W at *
      obtain ⟨k1, e1⟩ := emod_ex p
      obtain ⟨k2, e2⟩ := emod_ex (W + p % q)
      obtain ⟨k3, e3⟩ := emod_ex (-(p % q))
      obtain ⟨k4, e4⟩ := emod_ex ((W + p % q) % q + -(p % q) % q)
      rw [dec_small F.g2 ((W + p % q) % q) (v + p) (K - k1 - k2) (by rw [e2, e1, Int.sub_mul, Int.sub_mul]; omega)
          (by show -95232 < _; omega) (by show _ < 95232; omega),
        dec_small F.g2 (((W + p % q) % q + -(p % q) % q) % q) v (K - k2 - k3 - k4)
          (by rw [e4, e3, e2, Int.sub_mul, Int.sub_mul, Int.sub_mul]; omega) (by show -95232 < _; omega) (by show _ < 95232; omega)]
      simp
    unfold weightVec
    rw [List.map_congr_left (g := fun _ => 0) (fun i hi => hw i (List.mem_range.1 hi))]
    rfl
  rw [if_neg]
  · exact ⟨_, rfl⟩
  · rw [not_or, ge_iff_le, Int.not_le]
    refine ⟨n3, ?_⟩
    show ¬ weightVec 4 _ > 80
    rw [n4]
    omega

theorem okEnv_mask (rho : Bytes) (mu : Nat) : expandMask p44 okEnv rho mu = fun _ => zeroPoly := by
  funext r
  unfold expandMask
  have hn : 32 * (1 + bitLen (p44.gam1 - 1)) = 576 := by decide +kernel
  have hh : ∀ x, okEnv.h x 576 = bitPack zeroPoly 131071 131072 := fun x => by show okH 576 = _; exact if_pos rfl
  rw [hn, hh, show p44.gam1 - 1 = 131071 from rfl, show p44.gam1 = 131072 from rfl]
  exact bitUnpack_bitPack _ zeroPoly_length _ _ (fun x hx => by rw [List.eq_of_mem_replicate hx]; decide)

theorem okEnv_t0 (s1 s2 : Nat → List Int) (hs2 : VecIn 4 s2 (-2) 2) : VecIn 4 (t0Of p44 (fun _ _ => zeroPoly) s1 s2) (-2) 2 := by
  have F := facts (P := p44) (.inl rfl)
  intro i hi
  refine ⟨(t0Of_in F _ s1 s2 i hi).1, fun x hx => ?_⟩
  unfold t0Of at hx
  obtain ⟨y, hy, rfl⟩ := List.mem_map.1 hx
  unfold keyT at hy
  rw [zero_product] at hy
  unfold add at hy
  obtain ⟨k, hk, rfl⟩ := List.mem_map.1 hy
  rw [zeroPoly_at]
  have hk : k < 256 := by rw [zeroPoly_length] at hk; exact List.mem_range.1 hk
  have := (hs2 i hi).2 (at0 (s2 i) k) (mem_at _ k (by rw [(hs2 i hi).1]; exact hk))
  generalize at0 (s2 i) k = x at this
  have hx : x = -2 ∨ x = -1 ∨ x = 0 ∨ x = 1 ∨ x = 2 := by
    have h1 : -2 ≤ x := this.1
    have h2 : x ≤ 2 := this.2
    omega
  rcases hx with rfl | rfl | rfl | rfl | rfl <;> decide

theorem keygen_some {P : Params} {E : Env} (xi : Bytes) {a : Nat → Nat → List Int} {s : (Nat → List Int) × (Nat → List Int)}
    (ha : ∀ rho, expandA P E rho = some a) (hs : ∀ rho, expandS P E rho = some s) : ∃ pk sk, keygen P E xi = some (pk, sk) := by
  cases h : keygen P E xi with
  | some r => exact ⟨r.1, r.2, rfl⟩
  | none =>
    unfold keygen at h
    simp only [ha, hs] at h
    cases h

theorem okEnv_keygen (xi : Bytes) : ∃ pk sk, keygen p44 okEnv xi = some (pk, sk) := keygen_some xi okEnv_a okEnv_s

theorem signLoop_first {P : Params} {E : Env} {a : Nat → Nat → List Int} {s1 s2 t0 : Nat → List Int} {mu rhopp : Bytes}
    {r : Bytes × (Nat → List Int) × (Nat → List Int)} (n kappa : Nat) (hn : n ≠ 0)
    (h : signRound P E a s1 s2 t0 mu (expandMask P E rhopp kappa) = some (some r)) :
    signLoop P E a s1 s2 t0 mu rhopp n kappa = some r := by
  obtain ⟨m, rfl⟩ := Nat.exists_eq_succ_of_ne_zero hn
  rw [signLoop, h]

theorem signInternal_first {P : Params} {E : Env} {sk mp rnd ct : Bytes} {a : Nat → Nat → List Int} {y z h : Nat → List Int}
    (ha : expandA P E (skRho sk) = some a) (hf : E.fuel ≠ 0)
    (hy : expandMask P E (E.h (skK sk ++ rnd ++ E.h (skTr sk ++ mp) 64) 64) 0 = y)
    (hr : signRound P E a (skS1 P sk) (skS2 P sk) (skT0 P sk) (E.h (skTr sk ++ mp) 64) y = some (some (ct, z, h))) :
    ∃ sig, signInternal P E sk mp rnd = some sig := by
  unfold signInternal
  rw [ha]
  simp only
  rw [signLoop_first E.fuel 0 hf (by rw [hy]; exact hr)]
  exact ⟨_, rfl⟩

theorem okEnv_sign (sk mp rnd : Bytes) (hround : ∃ r, signRound p44 okEnv (fun _ _ => zeroPoly) (skS1 p44 sk) (skS2 p44 sk) (skT0 p44 sk)
      (okEnv.h (skTr sk ++ mp) 64) (fun _ => zeroPoly) = some (some r)) : ∃ sig, signInternal p44 okEnv sk mp rnd = some sig := by
  obtain ⟨⟨ct, z, h⟩, hr⟩ := hround
  exact signInternal_first (okEnv_a _) (by decide) (okEnv_mask _ _) hr

/-- In `okEnv` key generation and signing succeed for every seed and message. -/
theorem okEnv_signs (xi mp rnd : Bytes) :
    ∃ pk sk sig, keygen p44 okEnv xi = some (pk, sk) ∧ signInternal p44 okEnv sk mp rnd = some sig ∧
      verifyInternal p44 okEnv pk mp sig = some (.ok true) := by
  have F := facts (P := p44) (.inl rfl)
  obtain ⟨pk, sk, hk⟩ := okEnv_keygen xi
  obtain ⟨rho, kk, a, s1, s2, lr, lk, ha, hs1, hs2, epk, esk⟩ := keygen_parts okEnv_sized hk
  rw [okEnv_a, Option.some.injEq] at ha
  subst ha
  have lt := okEnv_sized pk 64
  have ht0 : VecIn 4 (t0Of p44 (fun _ _ => zeroPoly) s1 s2) (-2) 2 := okEnv_t0 s1 s2 hs2
  have hround : ∃ r, signRound p44 okEnv (fun _ _ => zeroPoly) (skS1 p44 sk) (skS2 p44 sk) (skT0 p44 sk)
      (okEnv.h (skTr sk ++ mp) 64) (fun _ => zeroPoly) = some (some r) := by
    apply okEnv_round
    · intro i hi; rw [esk, sk_s1 F _ _ _ _ _ _ lr lk lt hs1 i hi]; exact hs1 i hi
    · intro i hi; rw [esk, sk_s2 F _ _ _ _ _ _ lr lk lt hs1 hs2 i hi]; exact hs2 i hi
    · intro i hi; rw [esk, sk_t0 F _ _ _ _ _ _ lr lk lt hs1 hs2 (t0Of_in F _ s1 s2) i hi]; exact ht0 i hi
  obtain ⟨sig, hs⟩ := okEnv_sign sk mp rnd hround
  exact ⟨pk, sk, sig, hk, hs, C47_sign_verify p44 (.inl rfl) okEnv okEnv_sized xi pk sk mp rnd sig hk hs⟩

example : ∃ pk sk sig, keygen p44 okEnv [1, 2, 3] = some (pk, sk) ∧ signInternal p44 okEnv sk [4, 5] [6] = some sig ∧
    verifyInternal p44 okEnv pk [4, 5] sig = some (.ok true) := okEnv_signs _ _ _

/-! ## C49: sizes and key import -/

/-- C49: the sizes of `sig_keys.py` 90-102 and 179. -/
theorem C49_sizes (P : Params) (hP : IsParam P) (E : Env) (hE : E.Sized) (xi pk sk : Bytes) (hk : keygen P E xi = some (pk, sk)) :
    pk.length = 32 + 320 * P.k ∧ sk.length = 128 + 32 * bitLen (2 * P.eta) * (P.ell + P.k) + 416 * P.k ∧
      ∀ mp rnd sig, signInternal P E sk mp rnd = some sig → sig.length = sigLen P := by
  have F := facts hP
  obtain ⟨rho, kk, a, s1, s2, lr, lk, ha, hs1, hs2, epk, esk⟩ := keygen_parts hE hk
  have lt := hE pk 64
  refine ⟨by rw [epk]; exact pkEncode_length F _ _ lr, ?_, ?_⟩
  · rw [esk, skEncode_length F _ _ _ _ _ _ lr lk lt hs1 hs2 (t0Of_in F _ _ _), Nat.mul_add]
    unfold etaLen
    omega
  · intro mp rnd sig hs
    unfold signInternal at hs
    split at hs
    · cases hs
    · simp only at hs
      split at hs
      · cases hs
      · rename_i ct z h hl
        obtain ⟨kappa, hr⟩ := signLoop_some hl
        obtain ⟨h1, h2, h3⟩ := signRound_shape F hE (fun i => expandMask_length _ _ _ _ _) hr
        rw [← Option.some.inj hs, sigEncode_length F ct _ h h1 h2 h3]
        rfl

example : ((32 + 320 * p44.k, 32 + 320 * p65.k, 32 + 320 * p87.k) = (1312, 1952, 2592)) ∧
    (128 + 32 * bitLen (2 * p44.eta) * (p44.ell + p44.k) + 416 * p44.k = 2560) ∧
    (128 + 32 * bitLen (2 * p65.eta) * (p65.ell + p65.k) + 416 * p65.k = 4032) ∧
    (128 + 32 * bitLen (2 * p87.eta) * (p87.ell + p87.k) + 416 * p87.k = 4896) := by decide +kernel

/-- C49: the public key derived from a generated private key is the generated one. -/
theorem C49_derive (P : Params) (hP : IsParam P) (E : Env) (hE : E.Sized) (xi pk sk : Bytes) (hk : keygen P E xi = some (pk, sk)) :
    derivePublicKey P E sk = some pk := by
  have F := facts hP
  obtain ⟨rho, kk, a, s1, s2, lr, lk, ha, hs1, hs2, epk, esk⟩ := keygen_parts hE hk
  have lt := hE pk 64
  have hrho : skRho sk = rho := by rw [esk]; exact sk_rho _ _ _ _ _ _ lr
  have h1 : ∀ i < P.ell, skS1 P sk i = s1 i := fun i hi => by rw [esk]; exact sk_s1 F _ _ _ _ _ _ lr lk lt hs1 i hi
  have h2 : ∀ i < P.k, skS2 P sk i = s2 i := fun i hi => by rw [esk]; exact sk_s2 F _ _ _ _ _ _ lr lk lt hs1 hs2 i hi
  unfold derivePublicKey
  rw [hrho, ha]
  simp only
  rw [epk]
  unfold pkEncode
  refine congrArg some (congrArg (rho ++ ·) (flatMap_congr' ?_))
  intro i hi
  have hi := List.mem_range.1 hi
  unfold t1Of keyT
  simp only
  rw [matVec_congr P a (fun j => ntt (skS1 P sk j)) (fun j => ntt (s1 j)) i (fun j hj => by rw [h1 j hj]), h2 i hi]

/-- C48 is false of the code: a signature with an extra byte is accepted. -/
theorem C48_longer_accepted_refuted :
    ∃ (E : Env) (pk mp sig : Bytes), E.Sized ∧ sig.length ≠ sigLen p44 ∧ verifyInternal p44 E pk mp sig = some (.ok true) := by
  obtain ⟨pk, sk, sig, h1, h2, h4⟩ := okEnv_signs [] [] []
  have h3 := (C49_sizes p44 (.inl rfl) okEnv okEnv_sized [] pk sk h1).2.2 [] [] sig h2
  refine ⟨okEnv, pk, [], sig ++ [0], okEnv_sized, by rw [List.length_append, h3]; simp, ?_⟩
  rw [C48_trailing_ignored p44 okEnv pk [] sig [0] h3]
  exact h4

end Verif.PQ.Dsa
