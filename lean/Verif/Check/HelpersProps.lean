import Verif.Check.Helpers

/-!
# C26, C80, C81, C82, C98: pure helpers
-/

namespace Verif.Check

open Verif.CA (Bytes PyErr)

/-! ## C26 -/

/-- C26: `nonces_must_be_unique` accepts exactly the duplicate-free lists. -/
theorem C26_unique_iff (l : List Bytes) : noncesUnique l = .ok () ↔ l.Nodup := by
  unfold noncesUnique
  rw [List.nodup_iff_count]
  constructor
  · intro h
    split at h
    · simp at h
    · rename_i hn
      intro a
      by_cases ha : a ∈ l
      · simp only [List.any_eq_true, decide_eq_true_eq, not_exists, not_and, Nat.not_lt] at hn
        exact hn a ha
      · rw [List.count_eq_zero_of_not_mem ha]; omega
  · intro h
    rw [if_neg]
    simp only [List.any_eq_true, decide_eq_true_eq, not_exists, not_and, Nat.not_lt]
    intro x _; exact h x

theorem diverseFrom_iff (d : Int) (a : Bytes) (l : List Bytes) :
    diverseFrom d a l = .ok () ↔ ∀ b ∈ l, d ≤ paddedHamming a b := by
  induction l with
  | nil => simp [diverseFrom]
  | cons b bs ih =>
    simp only [diverseFrom]
    split
    · rename_i h; simp; intro hh; omega
    · rename_i h; rw [ih]; simp; intro _; omega

/-- C26: `nonces_must_be_diverse` accepts iff every pair has at least the minimal distance. -/
theorem C26_diverse_iff (d : Int) (l : List Bytes) :
    noncesDiverse d l = .ok () ↔ l.Pairwise (fun a b => d ≤ paddedHamming a b) := by
  induction l with
  | nil => simp [noncesDiverse]
  | cons a as ih =>
    simp only [noncesDiverse, List.pairwise_cons, ← ih, ← diverseFrom_iff]
    cases diverseFrom d a as <;> simp

/-! Independent specification of the Hamming distance: the number of differing bit positions, over an
infinite zero padding. -/

/-- Bit `k` of the zero-padded byte string (bit `k % 8` of byte `k / 8`). -/
def bitAt (b : Bytes) (k : Nat) : Bool := (b[k / 8]?.getD 0).toNat.testBit (k % 8)

/-- Number of positions below `n` in which the two padded strings differ. -/
def diffBits (a b : Bytes) : Nat → Nat
  | 0 => 0
  | n + 1 => diffBits a b n + if bitAt a n = bitAt b n then 0 else 1

theorem popcount_eq (fuel n : Nat) : popcount fuel n = ((List.range fuel).map (fun i => (n.testBit i).toNat)).sum := by
  induction fuel generalizing n with
  | zero => rfl
  | succ f ih =>
    simp only [popcount, ih, List.range_succ_eq_map, List.map_cons, List.sum_cons, List.map_map]
    congr 1
    · simp only [Nat.testBit_zero]; rcases Nat.mod_two_eq_zero_or_one n with h | h <;> simp [h]
    · congr 1
      apply List.map_congr_left
      intro i _
      simp [Nat.testBit_succ]

theorem diffBits_add (a b : Bytes) (n m : Nat) :
    diffBits a b (n + m) = diffBits a b n + ((List.range m).map (fun i => if bitAt a (n + i) = bitAt b (n + i) then 0 else 1)).sum := by
  induction m with
  | zero => simp
  | succ m ih => rw [← Nat.add_assoc, diffBits, ih, List.range_succ]; simp; omega

theorem bitAt_cons (x : UInt8) (xs : Bytes) (k : Nat) : bitAt (x :: xs) (k + 8) = bitAt xs k := by
  unfold bitAt
  have h1 : (k + 8) / 8 = k / 8 + 1 := by omega
  have h2 : (k + 8) % 8 = k % 8 := by omega
  rw [h1, h2]; simp

theorem diffBits_cons (x y : UInt8) (xs ys : Bytes) (n : Nat) :
    diffBits (x :: xs) (y :: ys) (8 + n) = popcount 8 (x ^^^ y).toNat + diffBits xs ys n := by
  induction n with
  | zero =>
    rw [Nat.add_zero, popcount_eq]
    have h0 : diffBits (x :: xs) (y :: ys) 8 = ((List.range 8).map (fun i => if bitAt (x :: xs) i = bitAt (y :: ys) i then 0 else 1)).sum := by
      have := diffBits_add (x :: xs) (y :: ys) 0 8
      simpa only [diffBits, Nat.zero_add] using this
    rw [h0, show diffBits xs ys 0 = 0 from rfl, Nat.add_zero]
    apply congrArg
    apply List.map_congr_left
    intro i hi
    have hi : i < 8 := List.mem_range.mp hi
    have e1 : i / 8 = 0 := by omega
    have e2 : i % 8 = i := by omega
    simp only [bitAt, e1, e2, List.getElem?_cons_zero, Option.getD_some, UInt8.toNat_xor, Nat.testBit_xor]
    cases x.toNat.testBit i <;> cases y.toNat.testBit i <;> rfl
  | succ n ih =>
    rw [← Nat.add_assoc, diffBits, ih, diffBits]
    have : 8 + n = n + 8 := by omega
    rw [this, bitAt_cons, bitAt_cons]; omega

theorem hamming_eq (a b : Bytes) (h : a.length = b.length) : hamming a b = diffBits a b (8 * a.length) := by
  induction a generalizing b with
  | nil => rfl
  | cons x xs ih =>
    cases b with
    | nil => simp at h
    | cons y ys =>
      simp only [List.length_cons, Nat.add_right_cancel_iff] at h
      have : 8 * (x :: xs).length = 8 + 8 * xs.length := by simp; omega
      rw [this, diffBits_cons, ← ih ys h]
      simp [hamming]

theorem bitAt_ljust (b : Bytes) (n k : Nat) : bitAt (ljust0 n b) k = bitAt b k := by
  unfold bitAt ljust0
  by_cases h : k / 8 < b.length
  · rw [List.getElem?_append_left h]
  · rw [List.getElem?_append_right (by omega), List.getElem?_replicate]
    rw [List.getElem?_eq_none (by omega : b.length ≤ k / 8)]
    split <;> rfl

/-- C26: the distance used is the number of differing bits of the zero-padded strings. -/
theorem C26_distance (a b : Bytes) : paddedHamming a b = diffBits a b (8 * max a.length b.length) := by
  unfold paddedHamming
  simp only
  rw [hamming_eq _ _ (by simp [ljust0]; omega)]
  have : (ljust0 (max a.length b.length) a).length = max a.length b.length := by simp [ljust0]; omega
  rw [this]
  generalize 8 * max a.length b.length = n
  induction n with
  | zero => rfl
  | succ n ih => simp only [diffBits, ih, bitAt_ljust]

theorem diffBits_self (a : Bytes) (n : Nat) : diffBits a a n = 0 := by
  induction n <;> simp_all [diffBits]

/-- C26: diversity with a positive minimum implies uniqueness. -/
theorem C26_diverse_unique (d : Int) (hd : 0 < d) (l : List Bytes) (h : noncesDiverse d l = .ok ()) :
    noncesUnique l = .ok () := by
  rw [C26_diverse_iff] at h
  rw [C26_unique_iff]
  refine h.imp ?_
  intro a b hab heq
  subst heq
  rw [C26_distance, diffBits_self] at hab
  omega

example : noncesDiverse 10 [[0xff, 0xff], [0, 0], [0xf0, 0xf0, 0xff]] = .ok () := by decide
example : noncesDiverse 10 [[0xff, 0xff], [0, 0], [0xf0, 0xf1]] = .error .valueError := by decide
/-- The padding can make distinct nonces have distance 0, so uniqueness does not imply diversity. -/
example : noncesUnique [[1], [1, 0]] = .ok () ∧ noncesDiverse 1 [[1], [1, 0]] = .error .valueError := by decide

/-! ## C81 -/

/-- C81: `manipulate_first_byte` rejects empty data and otherwise changes exactly the first byte. -/
theorem C81_first_byte (data : Bytes) :
    (data = [] ∧ manipulateFirstByte data = .error .indexError) ∨
    (∃ b bs b', data = b :: bs ∧ manipulateFirstByte data = .ok (b' :: bs) ∧ b' ≠ b ∧ (b' = 0 ∨ b' = 1)) := by
  cases data with
  | nil => exact .inl ⟨rfl, rfl⟩
  | cons b bs =>
    right
    by_cases h : b = 0
    · exact ⟨b, bs, 1, rfl, by simp [manipulateFirstByte, h], by simp [h], .inr rfl⟩
    · exact ⟨b, bs, 0, rfl, by simp [manipulateFirstByte, h], fun hh => h hh.symm, .inl rfl⟩

theorem manipulateFirstByte_ok {d m : Bytes} (h : manipulateFirstByte d = .ok m) : m.length = d.length ∧ m ≠ d := by
  rcases C81_first_byte d with ⟨_, h2⟩ | ⟨b, bs, b', h1, h2, h3, _⟩
  · rw [h2] at h; simp at h
  · rw [h2] at h; injection h with h; subst h h1; simp [h3]

theorem leBytes_length (len n : Nat) : (leBytes len n).length = len := by
  induction len generalizing n <;> simp_all [leBytes]

/-- C81: manipulating the payload keeps the index and the length and always changes the signature. -/
theorem C81_payload_changed (data : Bytes) (k : StflKey) (i : Option Int) (d : Nat) (m : Bytes) (start len : Nat)
    (hk : indexPos k = .ok (start, len)) (h : manipulateStfl data k true i d = .ok m) :
    m.length = data.length ∧ m ≠ data ∧ m.take (start + len) = data.take (start + len) := by
  unfold manipulateStfl at h
  simp only [hk] at h
  split at h
  · simp at h
  · rename_i hlen
    simp only [if_true] at h
    split at h
    · simp at h
    · rename_i hne
      have key : ∀ p, manipulatePayload k (data.drop (start + len)) = .ok p →
          p.length = (data.drop (start + len)).length ∧ p ≠ data.drop (start + len) := by
        intro p hp
        unfold manipulatePayload at hp
        cases k with
        | hss l s lm =>
          simp only at hp
          split at hp
          · simp at hp
          · rename_i hl
            cases hf : manipulateFirstByte ((data.drop (start + len)).take lm) with
            | error e => simp [hf] at hp
            | ok q =>
              simp only [hf, Except.ok.injEq] at hp
              obtain ⟨h1, h2⟩ := manipulateFirstByte_ok hf
              subst hp
              constructor
              · simp only [List.length_append, h1, List.length_take, List.length_drop] at *; omega
              · intro heq
                apply h2
                conv at heq => rhs; rw [← List.take_append_drop lm (data.drop (start + len))]
                exact List.append_cancel_right heq
        | xmss => exact manipulateFirstByte_ok hp
        | xmssmt _ => exact manipulateFirstByte_ok hp
      cases hp : manipulatePayload k (data.drop (start + len)) with
      | error e => simp [hp] at h
      | ok p =>
        simp only [hp, Except.ok.injEq] at h
        obtain ⟨h1, h2⟩ := key p hp
        subst h
        refine ⟨?_, ?_, ?_⟩
        · simp only [List.length_append, h1, List.length_take, List.length_drop]; omega
        · intro heq
          apply h2
          conv at heq => rhs; rw [← List.take_append_drop (start + len) data]
          exact List.append_cancel_left heq
        · rw [List.take_append_of_le_length (by simp; omega), List.take_take]; simp

/-- The byte-reversed reading of a number of `len` bytes. -/
def byteSwap : Nat → Nat → Nat
  | 0, _ => 0
  | len + 1, n => (n % 256) * 256 ^ len + byteSwap len (n / 256)

theorem beNat_append (l : Bytes) (a : Nat) : l.foldl (fun a x => a * 256 + x.toNat) a = a * 256 ^ l.length + beNat l := by
  induction l generalizing a with
  | nil => simp [beNat]
  | cons x xs ih =>
    simp only [List.foldl_cons, beNat, List.length_cons] at *
    rw [ih, ih (0 * 256 + x.toNat)]
    simp only [Nat.zero_mul, Nat.zero_add, Nat.add_mul, Nat.pow_succ]
    rw [Nat.mul_assoc, Nat.mul_comm 256, Nat.add_assoc]

theorem beNat_leBytes (len n : Nat) : beNat (leBytes len n) = byteSwap len n := by
  induction len generalizing n with
  | zero => rfl
  | succ len ih =>
    simp only [leBytes, beNat, List.foldl_cons, byteSwap]
    rw [beNat_append, leBytes_length, ih]
    simp

/-- C81 (what really happens): the index the verifier reads after the manipulation is the byte-swapped index. -/
theorem C81_index_swapped (data : Bytes) (k : StflKey) (i : Nat) (d : Nat) (m : Bytes) (sz start len : Nat)
    (hk : indexPos k = .ok (start, len)) (hx : k = .xmss ∧ data.length = sz ∨ (∃ h, k = .xmssmt h ∧ 4 ≤ data.length) ∨ ∃ a b c, k = .hss a b c)
    (h : manipulateStfl data k false (some i) d = .ok m) :
    m.length = data.length ∧ leafIndex k sz m = .ok (byteSwap len i) := by
  unfold manipulateStfl at h
  simp only [hk] at h
  split at h
  · simp at h
  · rename_i hlen
    simp only [Bool.false_eq_true, if_false, Option.getD_some] at h
    split at h
    · simp at h
    · split at h
      · simp at h
      · simp only [Except.ok.injEq, Int.toNat_natCast] at h
        have hml : m.length = data.length := by
          rw [← h]; simp only [List.length_append, List.length_take, List.length_drop, leBytes_length]; omega
        have hread : (m.drop start).take len = leBytes len i := by
          rw [← h, List.append_assoc, List.drop_append_of_le_length (by simp; omega)]
          have : (data.take start).drop start = [] := by simp
          rw [this, List.nil_append, List.take_append_of_le_length (by rw [leBytes_length]; omega)]
          rw [List.take_of_length_le (by rw [leBytes_length]; omega)]
        refine ⟨hml, ?_⟩
        rcases hx with ⟨rfl, hs⟩ | ⟨t, rfl, h4⟩ | ⟨a, b, c, rfl⟩
        · simp only [indexPos, Except.ok.injEq, Prod.mk.injEq] at hk
          obtain ⟨rfl, rfl⟩ := hk
          simp only [leafIndex, hml, hs, ne_eq, not_true_eq_false, if_false]
          rw [List.drop_zero] at hread
          rw [hread, beNat_leBytes]
        · simp only [indexPos, Except.ok.injEq, Prod.mk.injEq] at hk
          obtain ⟨rfl, rfl⟩ := hk
          simp only [leafIndex, hml, if_neg (Nat.not_lt.mpr h4)]
          rw [List.drop_zero] at hread
          rw [hread, beNat_leBytes]
        · simp only [indexPos] at hk
          split at hk
          · simp at hk
          · simp only [Except.ok.injEq, Prod.mk.injEq] at hk
            obtain ⟨rfl, rfl⟩ := hk
            simp only [leafIndex]
            rw [hread, beNat_leBytes]

/-- C81 refuted: writing index 1 into an XMSS signature makes the verifier read 16777216. -/
theorem C81_index_refuted :
    ∃ m, manipulateStfl (List.replicate 40 7) .xmss false (some 1) 0 = .ok m ∧ leafIndex .xmss 40 m = .ok 16777216 := by
  refine ⟨_, rfl, by decide⟩

/-- C81 refuted: a default ("maximum") index of 2^16 or 2^20 (`XMSSPrivateKey.max_sig_size`, the liboqs value
`sigs_total()`, for trees of height 16 and 20) is read back as an index that is inside the tree, so the
manipulation does not produce an exhausted index. -/
theorem C81_default_index_in_range_refuted :
    (∃ m, manipulateStfl (List.replicate 40 7) .xmss false none (2 ^ 16) = .ok m ∧ leafIndex .xmss 40 m = .ok 256) ∧
    (∃ m, manipulateStfl (List.replicate 40 7) .xmss false none (2 ^ 20) = .ok m ∧ leafIndex .xmss 40 m = .ok 4096) :=
  ⟨⟨_, rfl, by decide⟩, ⟨_, rfl, by decide⟩⟩

/-- C81 (true part): an index whose little-endian and big-endian encodings agree is read back. -/
theorem C81_index_partial (data : Bytes) (k : StflKey) (i d : Nat) (m : Bytes) (sz start len : Nat)
    (hk : indexPos k = .ok (start, len)) (hx : k = .xmss ∧ data.length = sz ∨ (∃ h, k = .xmssmt h ∧ 4 ≤ data.length) ∨ ∃ a b c, k = .hss a b c)
    (h : manipulateStfl data k false (some i) d = .ok m) : leafIndex k sz m = .ok i ↔ byteSwap len i = i := by
  rw [(C81_index_swapped data k i d m sz start len hk hx h).2]; simp

example : ∃ m, manipulateStfl (List.replicate 40 7) .xmss false (some 0x01020201) 0 = .ok m ∧ leafIndex .xmss 40 m = .ok 0x01020201 :=
  ⟨_, rfl, by decide⟩

/-! ## C82 -/

theorem repeatList_length {α : Type} (s : List α) (n : Nat) : (repeatList s n).length = n * s.length := by
  induction n with
  | zero => simp [repeatList]
  | succ n ih => simp [repeatList, ih, Nat.add_mul]; omega

theorem repeatList_get {α : Type} (s : List α) (n i : Nat) (h : i < n * s.length) : (repeatList s n)[i]? = s[i % s.length]? := by
  induction n generalizing i with
  | zero => simp at h
  | succ n ih =>
    simp only [repeatList]
    by_cases hi : i < s.length
    · rw [List.getElem?_append_left hi, Nat.mod_eq_of_lt hi]
    · rw [List.getElem?_append_right (by omega), ih _ (by rw [Nat.add_mul] at h; omega)]
      rw [← Nat.mod_eq_sub_mod (by omega)]

/-- C82: rejected exactly for empty input or negative length. -/
theorem C82_reject_iff {α : Type} (s : List α) (n : Int) : expandString s n = .error .valueError ↔ s = [] ∨ n < 0 := by
  unfold expandString
  by_cases h : s = []
  · simp [h]
  · by_cases hn : n < 0 <;> simp [h, hn]

/-- C82: otherwise the result has the requested length and is periodic. -/
theorem C82_expand {α : Type} (s : List α) (n : Int) (hs : s ≠ []) (hn : 0 ≤ n) :
    ∃ r, expandString s n = .ok r ∧ (r.length : Int) = n ∧ ∀ i, i < r.length → r[i]? = s[i % s.length]? := by
  have hpos : 0 < s.length := List.length_pos_iff.mpr hs
  have hle : n.toNat < (n.toNat / s.length + 1) * s.length := by
    have := Nat.div_add_mod n.toNat s.length
    have := Nat.mod_lt n.toNat hpos
    rw [Nat.add_mul, Nat.mul_comm]; omega
  refine ⟨_, by unfold expandString; rw [if_neg hs, if_neg (by omega)], ?_, ?_⟩
  · rw [List.length_take, repeatList_length]; omega
  · intro i hi
    rw [List.length_take, repeatList_length] at hi
    rw [List.getElem?_take_of_lt (by omega), repeatList_get _ _ _ (by omega)]

example : expandString "abc".toList 7 = .ok "abcabca".toList := by decide

/-! ## C80 -/

/-- C80 (strict, without_tag): equality of the names, with and without the tag. -/
theorem C80_equality_modes {A : Type} [DecidableEq A] (a b : DName A) :
    (compareNames a b .withoutTag = true ↔ a.rdns = b.rdns) ∧
    (compareNames a b .strict = true ↔ a = b) := by
  constructor
  · simp [compareNames, eq_comm]
  · cases a; cases b
    simp only [compareNames, decide_eq_true_eq, DName.mk.injEq]
    exact ⟨fun ⟨h1, h2⟩ => ⟨h1.symm, h2.symm⟩, fun ⟨h1, h2⟩ => ⟨h1.symm, h2.symm⟩⟩

/-- C80 (what the code computes): `contains` answers whether every attribute of *name1* occurs in name2. -/
theorem C80_contains_exact {A : Type} [DecidableEq A] (a b : DName A) :
    compareNames a b .contains = true ↔ ∀ x ∈ a.rdns.flatten, x ∈ b.rdns.flatten := by
  simp only [compareNames, List.all_eq_true, List.mem_flatten, List.contains_iff_mem]
  exact ⟨fun h x ⟨l, hl, hx⟩ => h l hl x hx, fun h l hl x hx => h x ⟨l, hl, hx⟩⟩

theorem mem_indexed {A : Type} (l : List (List A)) (s i : Nat) (x : A) :
    (i, x) ∈ indexed s l ↔ ∃ j r, i = s + j ∧ l[j]? = some r ∧ x ∈ r := by
  induction l generalizing s with
  | nil => simp [indexed]
  | cons r rs ih =>
    simp only [indexed, List.mem_append, List.mem_map, Prod.mk.injEq, ih]
    constructor
    · rintro (⟨a, ha, h1, h2⟩ | ⟨j, r', h1, h2, h3⟩)
      · exact ⟨0, r, by omega, rfl, h2 ▸ ha⟩
      · exact ⟨j + 1, r', by omega, by simpa using h2, h3⟩
    · rintro ⟨j, r', h1, h2, h3⟩
      cases j with
      | zero => simp at h2; subst h2; exact .inl ⟨x, h3, by omega, rfl⟩
      | succ j => exact .inr ⟨j, r', by omega, by simpa using h2, h3⟩

/-- C80 (what the code computes): `contains_seq` answers whether every attribute of name1 occurs in name2 at the
same RDN position. -/
theorem C80_contains_seq_exact {A : Type} [DecidableEq A] (a b : DName A) :
    compareNames a b .containsSeq = true ↔
      ∀ (i : Nat) (r : List A), a.rdns[i]? = some r → ∀ x ∈ r, ∃ r', b.rdns[i]? = some r' ∧ x ∈ r' := by
  simp only [compareNames, List.all_eq_true, List.contains_iff_mem, Prod.forall]
  constructor
  · intro h i r hr x hx
    obtain ⟨j, r', h1, h2, h3⟩ := (mem_indexed b.rdns 0 i x).mp (h i x ((mem_indexed a.rdns 0 i x).mpr ⟨i, r, by omega, hr, hx⟩))
    have : i = j := by omega
    subst this
    exact ⟨r', h2, h3⟩
  · intro h i x hx
    obtain ⟨j, r, h1, h2, h3⟩ := (mem_indexed a.rdns 0 i x).mp hx
    have : i = j := by omega
    subst this
    obtain ⟨r', h4, h5⟩ := h i r h2 x h3
    exact (mem_indexed b.rdns 0 i x).mpr ⟨i, r', by omega, h4, h5⟩

/-- The documented meaning of `contains`. -/
def DocContains {A : Type} (name1 name2 : DName A) : Prop := ∀ x ∈ name2.rdns.flatten, x ∈ name1.rdns.flatten

/-- C80 refuted: the documented direction ("all attributes in name2 are present in name1") is inverted, both ways. -/
theorem C80_contains_refuted :
    (∃ a b : DName Nat, DocContains a b ∧ compareNames a b .contains = false) ∧
    (∃ a b : DName Nat, ¬ DocContains a b ∧ compareNames a b .contains = true) := by
  refine ⟨⟨⟨0, [[1], [2]]⟩, ⟨0, [[1]]⟩, ?_, by decide⟩, ⟨⟨0, [[1]]⟩, ⟨0, [[1], [2]]⟩, ?_, by decide⟩⟩
  · intro x; simp; omega
  · intro h; exact absurd (h 2 (by decide)) (by decide)

/-- C80 (true part): swapping the arguments gives the documented relation. -/
theorem C80_contains_swapped_partial {A : Type} [DecidableEq A] (a b : DName A) :
    compareNames b a .contains = true ↔ DocContains a b := C80_contains_exact b a

/-! ## C98: named bits and integers -/

/-- C98 refuted (documented call style): the bit string made from "duplicateCertReq, badPOP" does not satisfy
`is_bit_set` for the same argument with `exclusive=True`; the first list is the prefix of the PKIFailureInfo
names needed to show this. -/
theorem C98_roundtrip_refuted :
    let names := ["badAlg".toList, "badMessageCheck".toList, "badRequest".toList]
    let arg := ["badRequest".toList, " badAlg".toList]
    ∃ x, namesToBits names arg = .ok x ∧ isBitSetNames names x arg true = .ok false := by
  refine ⟨_, rfl, by decide⟩

/-- C98 refuted: `asn1_compare_named_values` on an INTEGER with `exclusive=False` never answers True, even for
the matching name. -/
theorem C98_nonexclusive_integer_refuted (names : List (List Char)) (x : Int) (values : List (List Char)) (r : Bool)
    (h : compareNamedValues names x values false = .ok r) : r = false := by
  unfold compareNamedValues at h
  cases hc : countMatches names x values with
  | error e => simp [hc] at h
  | ok n => simp [hc] at h; exact h

theorem countMatches_ok (names : List (List Char)) (x : Int) (values : List (List Char)) (n : Nat)
    (h : countMatches names x values = .ok n) :
    (∀ v ∈ values, stripL v ∈ names) ∧ (n ≠ 0 ↔ ∃ v ∈ values, (names.idxOf (stripL v) : Int) = x) := by
  induction values generalizing n with
  | nil => simp [countMatches] at h; simp [← h]
  | cons v vs ih =>
    simp only [countMatches, compareNamedInteger] at h
    by_cases hv : stripL v ∈ names
    · simp only [if_pos hv] at h
      cases hc : countMatches names x vs with
      | error e => simp [hc] at h
      | ok m =>
        simp only [hc, Except.ok.injEq, decide_eq_true_eq] at h
        obtain ⟨i1, i2⟩ := ih m hc
        refine ⟨by simp only [List.mem_cons, forall_eq_or_imp]; exact ⟨hv, i1⟩, ?_⟩
        simp only [List.mem_cons, exists_eq_or_imp]
        rw [← i2, ← h]
        split
        · simp [*]
        · simp [*]
    · simp [if_neg hv] at h

/-- C98 (true part): with `exclusive=True` the answer is "the integer is one of the named values". -/
theorem C98_exclusive_integer_partial (names : List (List Char)) (x : Int) (values : List (List Char)) (r : Bool)
    (h : compareNamedValues names x values true = .ok r) :
    r = true ↔ ∃ v ∈ values, ∃ i : Nat, names[i]? = some (stripL v) ∧ (i : Int) = x ∧ ∀ j, j < i → names[j]? ≠ some (stripL v) := by
  unfold compareNamedValues at h
  cases hc : countMatches names x values with
  | error e => simp [hc] at h
  | ok n =>
    simp only [hc, Except.ok.injEq] at h
    obtain ⟨h1, h2⟩ := countMatches_ok names x values n hc
    have hidx : ∀ v ∈ values, ((names.idxOf (stripL v) : Int) = x ↔
        ∃ i : Nat, names[i]? = some (stripL v) ∧ (i : Int) = x ∧ ∀ j, j < i → names[j]? ≠ some (stripL v)) := by
      intro v hv
      have hlt := List.idxOf_lt_length_of_mem (h1 v hv)
      have hget : names[names.idxOf (stripL v)]? = some (stripL v) := by
        rw [List.getElem?_eq_getElem hlt]; simp [List.getElem_idxOf hlt]
      have hmin : ∀ j, j < names.idxOf (stripL v) → names[j]? ≠ some (stripL v) := by
        intro j hj heq
        have := List.not_of_lt_findIdx (p := (· == stripL v)) (xs := names) (i := j) (by simpa [List.idxOf] using hj)
        rw [List.getElem?_eq_getElem (by omega)] at heq
        injection heq with heq
        simp [heq] at this
      constructor
      · intro he; exact ⟨_, hget, he, hmin⟩
      · rintro ⟨i, hi1, hi2, hi3⟩
        have : i = names.idxOf (stripL v) := by
          rcases Nat.lt_trichotomy i (names.idxOf (stripL v)) with hh | hh | hh
          · exact absurd hi1 (hmin i hh)
          · exact hh
          · exact absurd hget (hi3 _ hh)
        omega
    have key : r = true ↔ n ≠ 0 := by
      rw [← h]; by_cases hn : n = 0 <;> simp [hn]
    rw [key, h2]
    exact ⟨fun ⟨v, hv, hx⟩ => ⟨v, hv, (hidx v hv).mp hx⟩, fun ⟨v, hv, hx⟩ => ⟨v, hv, (hidx v hv).mpr hx⟩⟩

example : compareNamedValues ["accepted".toList, "grantedWithMods".toList] 1 ["accepted".toList, " grantedWithMods".toList] true = .ok true := by
  decide

/-- C98 (true part): for a single numeric or named bit, `_is_bit_set_in_bitstring` is: the bit is set, and with
`exclusive` no other bit is. -/
theorem C98_single_bit_partial (x : List Bool) (i : Nat) (ex : Bool) :
    bitSet x i ex = true ↔ x[i]? = some true ∧ (ex = true → ∀ j, x[j]? = some true → j = i) := by
  unfold bitSet
  cases hx : x[i]? with
  | none => simp
  | some b =>
    cases b with
    | false => simp
    | true =>
      cases ex with
      | false => simp
      | true =>
        simp only [if_true, decide_eq_true_eq, true_and, forall_const]
        have hsplit := hx
        rw [List.getElem?_eq_some_iff] at hsplit
        obtain ⟨hlt, hget⟩ := hsplit
        have hx2 : x = x.take i ++ true :: x.drop (i + 1) := by
          rw [← hget, List.getElem_cons_drop, List.take_append_drop]
        constructor
        · intro hlen j hj
          rw [hx2] at hlen
          simp only [List.filter_append, List.filter_cons, decide_true, if_true, List.length_append, List.length_cons] at hlen
          have h1 : ((x.take i).filter (· = true)) = [] := List.length_eq_zero_iff.mp (by omega)
          have h2 : ((x.drop (i+1)).filter (· = true)) = [] := List.length_eq_zero_iff.mp (by omega)
          rcases Nat.lt_trichotomy j i with h | h | h
          · have : true ∈ x.take i := by
              rw [List.mem_iff_getElem?]
              exact ⟨j, by rw [List.getElem?_take_of_lt h]; exact hj⟩
            have := List.filter_eq_nil_iff.mp h1 _ this
            simp at this
          · exact h
          · have : true ∈ x.drop (i + 1) := by
              rw [List.mem_iff_getElem?]
              exact ⟨j - (i + 1), by rw [List.getElem?_drop]; rw [show i + 1 + (j - (i + 1)) = j by omega]; exact hj⟩
            have := List.filter_eq_nil_iff.mp h2 _ this
            simp at this
        · intro h
          rw [hx2]
          simp only [List.filter_append, List.filter_cons, decide_true, if_true, List.length_append, List.length_cons]
          have h1 : ((x.take i).filter (· = true)) = [] := by
            rw [List.filter_eq_nil_iff]
            intro a ha hat
            obtain ⟨j, hj⟩ := List.mem_iff_getElem?.mp ha
            have hji : j < i := by
              have := (List.getElem?_eq_some_iff.mp hj).1
              simp at this; omega
            rw [List.getElem?_take_of_lt hji] at hj
            have := h j (by rw [hj]; simpa using hat)
            omega
          have h2 : ((x.drop (i+1)).filter (· = true)) = [] := by
            rw [List.filter_eq_nil_iff]
            intro a ha hat
            obtain ⟨j, hj⟩ := List.mem_iff_getElem?.mp ha
            rw [List.getElem?_drop] at hj
            have := h (i + 1 + j) (by rw [hj]; simpa using hat)
            omega
          rw [h1, h2]; rfl

/-! ### Lists of names -/

/-- Names as in the ASN.1 types: different, not empty, without blanks around them. -/
structure Plain (names : List (List Char)) : Prop where
  nodup : names.Nodup
  plain : ∀ n ∈ names, n ≠ [] ∧ stripL n = n

theorem idxOf_of_getElem? {names : List (List Char)} (hn : names.Nodup) {i : Nat} {v : List Char} (h : names[i]? = some v) : names.idxOf v = i := by
  obtain ⟨hi, rfl⟩ := List.getElem?_eq_some_iff.1 h
  exact hn.idxOf_getElem i hi

theorem getElem?_idxOf {names : List (List Char)} {v : List Char} (h : v ∈ names) : names[names.idxOf v]? = some v := by
  have hlt := List.idxOf_lt_length_of_mem h
  rw [List.getElem?_eq_getElem hlt, List.getElem_idxOf hlt]

theorem mem_setNames (names : List (List Char)) (x : List Bool) (v : List Char) :
    v ∈ setNames names x ↔ ∃ i : Nat, names[i]? = some v ∧ x[i]? = some true := by
  unfold setNames
  simp only [List.mem_map, List.mem_filter]
  constructor
  · rintro ⟨⟨a, b⟩, ⟨h1, h2⟩, rfl⟩
    obtain ⟨i, hi⟩ := List.mem_iff_getElem?.1 h1
    rw [List.getElem?_zip_eq_some] at hi
    exact ⟨i, hi.1, by rw [hi.2]; exact congrArg some h2⟩
  · rintro ⟨i, h1, h2⟩
    exact ⟨(v, true), ⟨List.mem_iff_getElem?.2 ⟨i, by rw [List.getElem?_zip_eq_some]; exact ⟨h1, h2⟩⟩, rfl⟩, rfl⟩

theorem indicesOf_ok {names values : List (List Char)} {is : List Nat} (h : indicesOf names values = .ok is) :
    (∀ v ∈ values, v ∈ names) ∧ is = values.map (names.idxOf ·) := by
  induction values generalizing is with
  | nil => cases h; exact ⟨(by intro _ h; cases h), rfl⟩
  | cons v vs ih =>
    unfold indicesOf at h
    split at h
    · rename_i hv
      split at h
      · cases h
      · rename_i js hj
        cases h
        obtain ⟨i1, i2⟩ := ih hj
        refine ⟨?_, by rw [List.map_cons, i2]⟩
        intro w hw
        rcases List.mem_cons.1 hw with rfl | hw
        · exact hv
        · exact i1 w hw
    · cases h

theorem indicesOf_total {names values : List (List Char)} (h : ∀ v ∈ values, v ∈ names) : indicesOf names values = .ok (values.map (names.idxOf ·)) := by
  induction values with
  | nil => rfl
  | cons v vs ih =>
    unfold indicesOf
    rw [if_pos (h v (List.mem_cons_self ..)), ih (fun w hw => h w (List.mem_cons_of_mem _ hw))]
    rfl

/-- C98 (true part): without `exclusive` the answer for a list of names is whether one of the bits is set. -/
theorem C98_any_bit_partial (names : List (List Char)) (hn : Plain names) (x : List Bool) (values : List (List Char)) (r : Bool)
    (h : isBitSetNames names x values false = .ok r) :
    r = true ↔ ∃ v ∈ values, ∃ i : Nat, names[i]? = some (stripL v) ∧ x[i]? = some true := by
  unfold isBitSetNames at h
  cases hi : indicesOf names (values.map stripL) with
  | error e => rw [hi] at h; cases h
  | ok is =>
    obtain ⟨h1, h2⟩ := indicesOf_ok hi
    rw [hi] at h
    dsimp only at h
    split at h
    · rename_i heq
      cases h
      simp only [true_iff]
      unfold splitNames at heq
      split at heq
      · subst heq
        have := h1 (stripL []) (by simp)
        exact absurd rfl (hn.plain _ this).1
      · rename_i hne
        cases hs : setNames names x with
        | nil => exact absurd hs hne
        | cons v vs =>
          obtain ⟨i, e1, e2⟩ := (mem_setNames names x v).1 (by rw [hs]; exact List.mem_cons_self ..)
          have hv : v ∈ names := List.mem_iff_getElem?.2 ⟨i, e1⟩
          refine ⟨v, by rw [← heq, hs]; exact List.mem_cons_self .., i, ?_, e2⟩
          rw [(hn.plain v hv).2]
          exact e1
    · rw [if_neg (by rintro ⟨_, h⟩; cases h)] at h
      cases h
      unfold eitherBitSet
      rw [h2]
      simp only [List.any_map, List.any_eq_true, Function.comp_apply]
      constructor
      · rintro ⟨v, hv, hb⟩
        exact ⟨v, hv, _, getElem?_idxOf (h1 _ (List.mem_map_of_mem hv)), ((C98_single_bit_partial x _ false).1 hb).1⟩
      · rintro ⟨v, hv, i, e1, e2⟩
        refine ⟨v, hv, (C98_single_bit_partial x _ false).2 ⟨?_, by simp⟩⟩
        rw [idxOf_of_getElem? hn.nodup e1]
        exact e2

/-- C98 (true part): for exactly the names of the set bits, in their order and without blanks, the answer is yes. -/
theorem C98_own_names_partial (names : List (List Char)) (hn : Plain names) (x : List Bool) (ex : Bool) (h : setNames names x ≠ []) :
    isBitSetNames names x (setNames names x) ex = .ok true := by
  have hm : (setNames names x).map stripL = setNames names x := by
    conv => rhs; rw [← List.map_id (setNames names x)]
    apply List.map_congr_left
    intro v hv
    obtain ⟨i, e1, _⟩ := (mem_setNames names x v).1 hv
    exact (hn.plain v (List.mem_iff_getElem?.2 ⟨i, e1⟩)).2
  unfold isBitSetNames
  rw [hm, indicesOf_total]
  · dsimp only
    unfold splitNames
    rw [if_neg h, if_pos rfl]
  · intro v hv
    obtain ⟨i, e1, _⟩ := (mem_setNames names x v).1 hv
    exact List.mem_iff_getElem?.2 ⟨i, e1⟩

theorem setBits_spec (names : List (List Char)) (hn : names.Nodup) (values : List (List Char)) :
    ∀ x, names.length ≤ x.length → (∀ v ∈ values, stripL v ∈ names) → ∃ y, setBits names values x = .ok y ∧ y.length = x.length ∧
      ∀ i : Nat, y[i]? = some true ↔ x[i]? = some true ∨ ∃ v ∈ values, names[i]? = some (stripL v) := by
  induction values with
  | nil => intro x _ _; exact ⟨x, rfl, rfl, fun i => by simp⟩
  | cons v vs ih =>
    intro x hx h
    have hv := h v (List.mem_cons_self ..)
    have hlt := List.idxOf_lt_length_of_mem hv
    obtain ⟨y, e1, e2, e3⟩ := ih (x.set (names.idxOf (stripL v)) true) (by rw [List.length_set]; exact hx) (fun w hw => h w (List.mem_cons_of_mem _ hw))
    refine ⟨y, ?_, by rw [e2, List.length_set], ?_⟩
    · unfold setBits
      rw [if_pos hv]
      exact e1
    · intro i
      rw [e3, List.getElem?_set]
      simp only [List.mem_cons, exists_eq_or_imp]
      by_cases hi : names.idxOf (stripL v) = i
      · rw [if_pos hi, if_pos (by omega)]
        have : names[i]? = some (stripL v) := by rw [← hi]; exact getElem?_idxOf hv
        simp [this]
      · rw [if_neg hi]
        have : ¬ names[i]? = some (stripL v) := fun h => hi (idxOf_of_getElem? hn h)
        simp [this]

theorem setBits_names (names values : List (List Char)) : ∀ x y, setBits names values x = .ok y → ∀ v ∈ values, stripL v ∈ names := by
  induction values with
  | nil => intro x y _ v hv; cases hv
  | cons w ws ih =>
    intro x y h v hv
    unfold setBits at h
    split at h
    · rename_i hw
      rcases List.mem_cons.1 hv with rfl | hv
      · exact hw
      · exact ih _ _ h v hv
    · cases h

theorem trim_spec (x : List Bool) : ((x.reverse.dropWhile (· = false)).reverse.getLast? ≠ some false) ∧
    ∀ i : Nat, (x.reverse.dropWhile (· = false)).reverse[i]? = some true ↔ x[i]? = some true := by
  constructor
  · rw [List.getLast?_reverse]
    intro h
    have := List.head?_dropWhile_not (fun b : Bool => decide (b = false)) x.reverse
    rw [h] at this
    simp at this
  · intro i
    have hx : x = (x.reverse.dropWhile (· = false)).reverse ++ (x.reverse.takeWhile (· = false)).reverse := by
      rw [← List.reverse_append, List.takeWhile_append_dropWhile, List.reverse_reverse]
    conv => rhs; rw [hx]
    rw [List.getElem?_append]
    split
    · rfl
    · rename_i hlt
      rw [List.getElem?_eq_none (by omega)]
      simp only [reduceCtorEq, false_iff]
      intro h
      have hm := List.mem_reverse.1 (List.mem_of_getElem? h)
      have := List.all_takeWhile (p := fun b : Bool => decide (b = false)) (l := x.reverse)
      rw [List.all_eq_true] at this
      have := this _ hm
      simp at this

/-- C98 (true part): the bit string made from a list of names has exactly the bits of these names set, and no zero bits at its end;
it exists if all names are known. -/
theorem C98_names_to_bits_partial (names : List (List Char)) (hn : names.Nodup) (values : List (List Char)) :
    ((∃ x, namesToBits names values = .ok x) ↔ ∀ v ∈ values, stripL v ∈ names) ∧
    ∀ x, namesToBits names values = .ok x →
      (∀ i : Nat, x[i]? = some true ↔ ∃ v ∈ values, names[i]? = some (stripL v)) ∧ x.getLast? ≠ some false := by
  have main : ∀ x, namesToBits names values = .ok x → (∀ v ∈ values, stripL v ∈ names) := by
    intro x h
    unfold namesToBits at h
    split at h
    · cases h
    · rename_i y hy
      exact setBits_names _ _ _ _ hy
  constructor
  · constructor
    · rintro ⟨x, h⟩
      exact main x h
    · intro h
      obtain ⟨y, e1, _⟩ := setBits_spec names hn values (List.replicate (names.length + 1) false) (by rw [List.length_replicate]; omega) h
      unfold namesToBits
      rw [e1]
      exact ⟨_, rfl⟩
  · intro x h
    obtain ⟨y, e1, _, e3⟩ := setBits_spec names hn values (List.replicate (names.length + 1) false) (by rw [List.length_replicate]; omega) (main x h)
    unfold namesToBits at h
    rw [e1] at h
    cases h
    obtain ⟨t1, t2⟩ := trim_spec y
    refine ⟨?_, t1⟩
    intro i
    rw [t2, e3]
    constructor
    · rintro (h | h)
      · have := List.mem_of_getElem? h
        simp at this
      · exact h
    · exact Or.inr

example : namesToBits ["badAlg".toList, "badMessageCheck".toList, "badRequest".toList, "badTime".toList] ["badRequest".toList, " badAlg".toList]
    = .ok [true, false, true] := by decide

example : isBitSetNames ["badAlg".toList, "badMessageCheck".toList, "badRequest".toList] [true, false, true] ["badAlg".toList, "badRequest".toList] true
    = .ok true := by decide

/-! ### C81: what is manipulated -/

/-- C81: there is an index to change unless an HSS key has no levels. -/
theorem C81_position (k : StflKey) : (∃ p, indexPos k = .ok p) ↔ ∀ span lmots, k ≠ .hss 0 span lmots := by
  cases k with
  | xmss => exact ⟨fun _ _ _ => by simp, fun _ => ⟨_, rfl⟩⟩
  | xmssmt h => exact ⟨fun _ _ _ => by simp, fun _ => ⟨_, rfl⟩⟩
  | hss levels span lmots =>
    unfold indexPos
    cases levels with
    | zero => simp
    | succ n => simp

/-- C81: an index is written iff the signature is long enough and the index fits. -/
theorem C81_index_accepted (data : Bytes) (k : StflKey) (i : Int) (d start len : Nat) (hk : indexPos k = .ok (start, len)) :
    (∃ m, manipulateStfl data k false (some i) d = .ok m) ↔ start + len ≤ data.length ∧ 0 ≤ i ∧ i < ((2 ^ (8 * len) : Nat) : Int) := by
  have hp : 0 < 2 ^ (8 * len) := Nat.pow_pos (by omega)
  unfold manipulateStfl
  rw [hk]
  simp only [Bool.false_eq_true, if_false, Option.getD_some, Nat.mul_comm len 8]
  generalize 2 ^ (8 * len) = q at hp
  split
  · simp; omega
  · split
    · simp; omega
    · split
      · simp; omega
      · simp; omega

/-- C81: without an index the given maximum is written. -/
theorem C81_default_index (data : Bytes) (k : StflKey) (d d' : Nat) :
    manipulateStfl data k false none d = manipulateStfl data k false (some (d : Int)) d' := rfl

/-- C81: the signature is changed iff there is something behind the index, for HSS a whole LM-OTS signature. -/
theorem C81_payload_accepted (data : Bytes) (k : StflKey) (i : Option Int) (d start len : Nat) (hk : indexPos k = .ok (start, len)) :
    (∃ m, manipulateStfl data k true i d = .ok m) ↔
      start + len < data.length ∧ ∀ levels span lmots, k = .hss levels span lmots → 0 < lmots ∧ start + len + lmots ≤ data.length := by
  have hfb : ∀ b : Bytes, (∃ m, manipulateFirstByte b = .ok m) ↔ 0 < b.length := by
    intro b
    cases b with
    | nil => simp [manipulateFirstByte]
    | cons b bs => unfold manipulateFirstByte; by_cases hb : b = 0 <;> simp [hb]
  unfold manipulateStfl
  rw [hk]
  simp only [if_true]
  split
  · simp; omega
  · split
    · simp; omega
    · rename_i h1 h2
      have key : (∃ m, manipulatePayload k (data.drop (start + len)) = .ok m) ↔
          start + len < data.length ∧ ∀ levels span lmots, k = .hss levels span lmots → 0 < lmots ∧ start + len + lmots ≤ data.length := by
        unfold manipulatePayload
        cases k with
        | xmss =>
          simp only [hfb, List.length_drop]
          simp; omega
        | xmssmt h =>
          simp only [hfb, List.length_drop]
          simp; omega
        | hss levels span lmots =>
          simp only [List.length_drop, StflKey.hss.injEq]
          split
          · simp only [reduceCtorEq, exists_const, false_iff]
            intro h
            have := h.2 levels span lmots ⟨rfl, rfl, rfl⟩
            omega
          · have hf := hfb ((data.drop (start + len)).take lmots)
            rw [List.length_take, List.length_drop] at hf
            have goal : (∃ m, manipulateFirstByte ((data.drop (start + len)).take lmots) = .ok m) ↔
                start + len < data.length ∧ ∀ levels_1 span_1 lmots_1, levels = levels_1 ∧ span = span_1 ∧ lmots = lmots_1 →
                  0 < lmots_1 ∧ start + len + lmots_1 ≤ data.length := by
              rw [hf]
              constructor
              · intro h
                refine ⟨by omega, ?_⟩
                rintro _ _ _ ⟨rfl, rfl, rfl⟩
                omega
              · intro h
                have := h.2 levels span lmots ⟨rfl, rfl, rfl⟩
                omega
            rw [← goal]
            cases manipulateFirstByte ((data.drop (start + len)).take lmots) <;> simp
      rw [← key]
      cases manipulatePayload k (data.drop (start + len)) <;> simp

end Verif.Check
