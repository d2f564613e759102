import Verif.PQ.Fips205Digits

/-!
# What the WOTS+, XMSS, hypertree and FORS functions compute

Every function is described by a closed expression (`wotsPkV`, `xmssV`, `forsV`, …) over `enc` addresses.
-/

namespace Verif.PQ.Slh

open Verif.CA (Bytes PyErr)

/-- Output lengths of the hash functions. -/
structure Hash.Sized (H : Hash) (P : Params) : Prop where
  prf : ∀ s k a, (H.prf s k a).length = P.n
  prfMsg : ∀ k r m, (H.prfMsg k r m).length = P.n
  f : ∀ s a m, (H.f s a m).length = P.n
  h : ∀ s a m, (H.h s a m).length = P.n
  t : ∀ s a m, (H.t s a m).length = P.n
  hMsg : ∀ r s k m, (H.hMsg r s k m).length = P.m

/-- The arithmetic facts about a parameter set that the algorithms rely on. -/
structure Ok (P : Params) : Prop where
  lgw : 1 ≤ P.lgw
  w : P.w ≤ 256 ^ 4
  len : P.len ≤ 256 ^ 4
  hp : 2 ^ P.hp ≤ 256 ^ 4
  fors : P.k * 2 ^ P.a ≤ 256 ^ 4
  a : P.a < 256 ^ 4
  d : 1 ≤ P.d
  d' : P.d ≤ 256 ^ 4
  h : P.h = P.d * P.hp
  tree : 2 ^ (P.h - P.hp) ≤ 256 ^ 12
  digits : P.lgw * P.len1 ≤ 8 * P.n
  digest : (P.k * P.a + 7) / 8 + (P.h - P.h / P.d + 7) / 8 + (P.h / P.d + 7) / 8 ≤ P.m

/-- The parameter sets of the table. -/
def IsParam (P : Params) : Prop := P = p128s ∨ P = p128f ∨ P = p192s ∨ P = p192f ∨ P = p256s ∨ P = p256f

theorem ok_of_isParam {P : Params} (h : IsParam P) : Ok P := by
  rcases h with rfl | rfl | rfl | rfl | rfl | rfl <;> constructor <;> decide +kernel

theorem w_pos (P : Params) : 1 ≤ P.w := Nat.two_pow_pos _

/-! ## Chunks -/

theorem flatMap_len (f : Nat → Bytes) (n k : Nat) (h : ∀ i < k, (f i).length = n) : ((List.range k).flatMap f).length = k * n := by
  induction k with
  | zero => simp
  | succ k ih =>
    rw [List.range_succ, List.flatMap_append, List.length_append, ih (fun i hi => h i (by omega))]
    simp [h k (by omega), Nat.succ_mul]

theorem slice_chunk (f : Nat → Bytes) (n k i : Nat) (rest : Bytes) (h : ∀ i < k, (f i).length = n) (hi : i < k) :
    slice ((List.range k).flatMap f ++ rest) (i * n) ((i + 1) * n) = f i := by
  have e : List.range k = List.range i ++ ([i] ++ (List.range (k - i - 1)).map (i + 1 + ·)) := by
    have : k = i + (1 + (k - i - 1)) := by omega
    conv => lhs; rw [this, List.range_add, List.range_add]
    simp [List.map_map, Function.comp_def, Nat.add_assoc]
  rw [e, List.flatMap_append, List.flatMap_append, List.append_assoc, List.append_assoc]
  simp only [List.flatMap_singleton]
  apply slice_mid
  · exact flatMap_len f n i (fun j hj => h j (by omega))
  · rw [flatMap_len f n i (fun j hj => h j (by omega)), h i hi, Nat.succ_mul]

theorem slice_chunk' (f : Nat → Bytes) (n k i : Nat) (h : ∀ i < k, (f i).length = n) (hi : i < k) :
    slice ((List.range k).flatMap f) (i * n) ((i + 1) * n) = f i := by
  have := slice_chunk f n k i [] h hi
  rwa [List.append_nil] at this

theorem flatMap_snoc (f : Nat → Bytes) (n : Nat) : (List.range (n + 1)).flatMap f = (List.range n).flatMap f ++ f n := by
  rw [List.range_succ, List.flatMap_append]; simp

theorem flatMap_congr' {α β : Type} {l : List α} {f g : α → List β} (h : ∀ x ∈ l, f x = g x) : l.flatMap f = l.flatMap g := by
  induction l with
  | nil => rfl
  | cons a l ih => simp only [List.flatMap_cons]; rw [h a (by simp), ih (fun x hx => h x (by simp [hx]))]

/-! ## Chains -/

/-- `s` steps of the chain `c` of key `kp` starting at step `i` (specification). -/
def chainV (H : Hash) (seed : Bytes) (L T kp c : Nat) (x : Bytes) (i : Nat) : Nat → Bytes
  | 0 => x
  | s + 1 => H.f seed (enc ⟨L, T, .wotsHash, kp, c, i + s⟩) (chainV H seed L T kp c x i s)

theorem chainV_comp (H : Hash) (seed : Bytes) (L T kp c : Nat) (x : Bytes) (i a b : Nat) :
    chainV H seed L T kp c (chainV H seed L T kp c x i a) (i + a) b = chainV H seed L T kp c x i (a + b) := by
  induction b with
  | zero => rfl
  | succ b ih => rw [← Nat.add_assoc, chainV, chainV, ih, Nat.add_assoc]

theorem chainV_length {P : Params} {H : Hash} (hH : H.Sized P) (seed : Bytes) (L T kp c : Nat) (x : Bytes) (i s : Nat) (hx : x.length = P.n) :
    (chainV H seed L T kp c x i s).length = P.n := by
  cases s with
  | zero => exact hx
  | succ s => exact hH.f _ _ _

theorem chain_eq {P : Params} (hP : Ok P) (H : Hash) (seed : Bytes) (L T kp c y : Nat) (x : Bytes) (i s : Nat) (h : i + s < P.w) :
    ∃ y', chain P H x i s seed (enc ⟨L, T, .wotsHash, kp, c, y⟩) =
      .ok (chainV H seed L T kp c x i s, enc ⟨L, T, .wotsHash, kp, c, y'⟩) := by
  unfold chain
  rw [if_neg (by omega)]
  obtain ⟨st, e, y', hi⟩ := forRange_inv (chainStep H seed i)
    (fun j st => ∃ y', st = (chainV H seed L T kp c x i j, enc ⟨L, T, .wotsHash, kp, c, y'⟩)) s (x, enc ⟨L, T, .wotsHash, kp, c, y⟩)
    ⟨y, rfl⟩ (by
      intro j st hj ⟨y', e⟩
      subst e
      refine ⟨_, ?_, i + j, rfl⟩
      unfold chainStep
      have hw := hP.w
      simp only [setIndex_enc ⟨L, T, .wotsHash, kp, c, y'⟩ (i + j) (by omega), bind, Except.bind]
      rfl)
  exact ⟨y', by rw [e, hi]⟩

/-! ## WOTS+ -/

/-- Secret value `i` of WOTS+ key `kp` (specification). -/
def skV (H : Hash) (skSeed seed : Bytes) (L T kp i : Nat) : Bytes := H.prf seed skSeed (enc ⟨L, T, .wotsPrf, kp, i, 0⟩)

/-- The chain values reached after `cnt i` steps, concatenated. -/
def chainsV (P : Params) (H : Hash) (skSeed seed : Bytes) (L T kp : Nat) (cnt : Nat → Nat) : Bytes :=
  (List.range P.len).flatMap (fun i => chainV H seed L T kp i (skV H skSeed seed L T kp i) 0 (cnt i))

/-- The WOTS+ public key (specification). -/
def wotsPkV (P : Params) (H : Hash) (skSeed seed : Bytes) (L T kp : Nat) : Bytes :=
  H.t seed (enc ⟨L, T, .wotsPk, kp, 0, 0⟩) (chainsV P H skSeed seed L T kp (fun _ => P.w - 1))

theorem wotsLoop {P : Params} (hP : Ok P) (H : Hash) (skSeed seed : Bytes) (L T kp c y : Nat) (cnt : Nat → Nat)
    (hc : ∀ i < P.len, cnt i < P.w) :
    ∃ skA c' y', forRange (wotsStep P H skSeed seed cnt) P.len (enc ⟨L, T, .wotsPrf, kp, 0, 0⟩, enc ⟨L, T, .wotsHash, kp, c, y⟩, []) =
      .ok (skA, enc ⟨L, T, .wotsHash, kp, c', y'⟩, chainsV P H skSeed seed L T kp cnt) := by
  obtain ⟨st, e, hc, c', y', hi⟩ := forRange_inv (wotsStep P H skSeed seed cnt)
    (fun j st => ∃ h c' y', st = (enc ⟨L, T, .wotsPrf, kp, h, 0⟩, enc ⟨L, T, .wotsHash, kp, c', y'⟩,
      (List.range j).flatMap (fun i => chainV H seed L T kp i (skV H skSeed seed L T kp i) 0 (cnt i)))) P.len
    (enc ⟨L, T, .wotsPrf, kp, 0, 0⟩, enc ⟨L, T, .wotsHash, kp, c, y⟩, []) ⟨0, c, y, rfl⟩ (by
      intro j st hj ⟨h, c', y', e⟩
      subst e
      have hl := hP.len
      obtain ⟨y'', ec⟩ := chain_eq hP H seed L T kp j y' (skV H skSeed seed L T kp j) 0 (cnt j) (by rw [Nat.zero_add]; exact hc j hj)
      refine ⟨_, ?_, j, j, y'', rfl⟩
      unfold wotsStep
      simp only [setHeight_enc ⟨L, T, .wotsPrf, kp, h, 0⟩ j (by omega), setHeight_enc ⟨L, T, .wotsHash, kp, c', y'⟩ j (by omega),
        bind, Except.bind]
      unfold skV at ec
      rw [ec]
      simp only [flatMap_snoc]
      rfl)
  exact ⟨_, c', y', by rw [e, hi]; rfl⟩

theorem wotsPkgen_eq {P : Params} (hP : Ok P) (H : Hash) (skSeed seed : Bytes) (L T kp c y : Nat) (hk : kp < 256 ^ 4) :
    ∃ c' y', wotsPkgen P H skSeed seed (enc ⟨L, T, .wotsHash, kp, c, y⟩) =
      .ok (wotsPkV P H skSeed seed L T kp, enc ⟨L, T, .wotsHash, kp, c', y'⟩) := by
  have hw := w_pos P
  obtain ⟨skA, c', y', e⟩ := wotsLoop hP H skSeed seed L T kp c y (fun _ => P.w - 1) (fun _ _ => by omega)
  refine ⟨c', y', ?_⟩
  unfold wotsPkgen
  simp only [setType_enc, getKeyPair_enc ⟨L, T, .wotsHash, kp, c, y⟩ hk, setKeyPair_enc ⟨L, T, .wotsPrf, 0, 0, 0⟩ kp hk, bind, Except.bind, e,
    getKeyPair_enc ⟨L, T, .wotsHash, kp, c', y'⟩ hk, setKeyPair_enc ⟨L, T, .wotsPk, 0, 0, 0⟩ kp hk]
  rfl

/-- The digits signed by WOTS+ (specification): the message in base `w`, then the checksum. -/
def csumOf (P : Params) (m : Bytes) : Nat :=
  ((List.range P.len1).map (fun i => P.w - 1 - digit (val m) (8 * P.n) P.lgw i)).foldl (· + ·) 0

/-- The shifted checksum. -/
def csumShift (P : Params) (m : Bytes) : Nat := csumOf P m * 2 ^ ((8 - P.len2 * P.lgw % 8) % 8)

/-- All digits. -/
def digitsOf (P : Params) (m : Bytes) : List Nat :=
  (List.range P.len1).map (digit (val m) (8 * P.n) P.lgw) ++
    (List.range P.len2).map (digit (val (toByte (csumShift P m) ((P.len2 * P.lgw + 7) / 8))) (8 * ((P.len2 * P.lgw + 7) / 8)) P.lgw)

theorem wotsDigits_eq {P : Params} (hP : Ok P) (m : Bytes) (hm : m.length = P.n) : wotsDigits P m = .ok (digitsOf P m) := by
  unfold wotsDigits
  rw [base2b_spec m P.lgw P.len1 (by rw [hm]; exact hP.digits)]
  simp only [bind, Except.bind]
  rw [base2b_spec _ P.lgw P.len2 (by rw [toByte_length, Nat.mul_comm P.lgw]; omega), toByte_length, hm]
  simp only
  unfold digitsOf csumShift csumOf
  congr 6
  congr 2
  apply List.map_congr_left
  intro i hi
  have hi := List.mem_range.1 hi
  simp [List.getD, hi]

theorem digitsOf_length (P : Params) (m : Bytes) : (digitsOf P m).length = P.len := by
  unfold digitsOf Params.len; simp

theorem digitsOf_lt (P : Params) (m : Bytes) (i : Nat) : (digitsOf P m).getD i 0 < P.w := by
  rw [List.getD_eq_getElem?_getD]
  cases h : (digitsOf P m)[i]? with
  | none => exact Nat.two_pow_pos _
  | some x =>
    have := List.mem_of_getElem? h
    unfold digitsOf at this
    rw [List.mem_append, List.mem_map, List.mem_map] at this
    rcases this with ⟨j, _, rfl⟩ | ⟨j, _, rfl⟩ <;> exact digit_lt _ _ _ _

theorem wotsSign_eq {P : Params} (hP : Ok P) (H : Hash) (m skSeed seed : Bytes) (L T kp c y : Nat) (hk : kp < 256 ^ 4) (hm : m.length = P.n) :
    ∃ c' y', wotsSign P H m skSeed seed (enc ⟨L, T, .wotsHash, kp, c, y⟩) =
      .ok (chainsV P H skSeed seed L T kp (fun i => (digitsOf P m).getD i 0), enc ⟨L, T, .wotsHash, kp, c', y'⟩) := by
  obtain ⟨skA, c', y', e⟩ := wotsLoop hP H skSeed seed L T kp c y (fun i => (digitsOf P m).getD i 0) (fun i _ => digitsOf_lt P m i)
  refine ⟨c', y', ?_⟩
  unfold wotsSign
  simp only [wotsDigits_eq hP m hm, setType_enc, getKeyPair_enc ⟨L, T, .wotsHash, kp, c, y⟩ hk, setKeyPair_enc ⟨L, T, .wotsPrf, 0, 0, 0⟩ kp hk,
    bind, Except.bind, e]

/-- What `wots_pk_from_sig` computes for arbitrary signature bytes. -/
def wotsFromV (P : Params) (H : Hash) (sig m seed : Bytes) (L T kp : Nat) : Bytes :=
  H.t seed (enc ⟨L, T, .wotsPk, kp, 0, 0⟩) ((List.range P.len).flatMap (fun i =>
    chainV H seed L T kp i (slice sig (i * P.n) ((i + 1) * P.n)) ((digitsOf P m).getD i 0) (P.w - 1 - (digitsOf P m).getD i 0)))

theorem wotsPkFromSig_eq {P : Params} (hP : Ok P) (H : Hash) (sig m seed : Bytes) (L T kp c y : Nat) (hk : kp < 256 ^ 4) (hm : m.length = P.n) :
    ∃ c' y', wotsPkFromSig P H sig m seed (enc ⟨L, T, .wotsHash, kp, c, y⟩) =
      .ok (wotsFromV P H sig m seed L T kp, enc ⟨L, T, .wotsHash, kp, c', y'⟩) := by
  obtain ⟨st, e, c', y', hi⟩ := forRange_inv (wotsVerStep P H sig seed (digitsOf P m))
    (fun j st => ∃ c' y', st = (enc ⟨L, T, .wotsHash, kp, c', y'⟩, (List.range j).flatMap (fun i =>
      chainV H seed L T kp i (slice sig (i * P.n) ((i + 1) * P.n)) ((digitsOf P m).getD i 0) (P.w - 1 - (digitsOf P m).getD i 0)))) P.len
    (enc ⟨L, T, .wotsHash, kp, c, y⟩, []) ⟨c, y, rfl⟩ (by
      intro j st hj ⟨c', y', e⟩
      subst e
      have hl := hP.len
      have hd := digitsOf_lt P m j
      obtain ⟨y'', ec⟩ := chain_eq hP H seed L T kp j y' (slice sig (j * P.n) ((j + 1) * P.n)) ((digitsOf P m).getD j 0)
        (P.w - 1 - (digitsOf P m).getD j 0) (by omega)
      refine ⟨_, ?_, j, y'', rfl⟩
      unfold wotsVerStep
      simp only [setHeight_enc ⟨L, T, .wotsHash, kp, c', y'⟩ j (by omega), bind, Except.bind, ec, flatMap_snoc])
  refine ⟨c', y', ?_⟩
  unfold wotsPkFromSig
  subst hi
  simp only [wotsDigits_eq hP m hm, bind, Except.bind, e, setType_enc, getKeyPair_enc ⟨L, T, .wotsHash, kp, c', y'⟩ hk,
    setKeyPair_enc ⟨L, T, .wotsPk, 0, 0, 0⟩ kp hk]
  rfl

/-- The public key computed from a signature is the public key. -/
theorem wotsFromV_sign {P : Params} {H : Hash} (hH : H.Sized P) (m skSeed seed rest : Bytes) (L T kp : Nat) :
    wotsFromV P H (chainsV P H skSeed seed L T kp (fun i => (digitsOf P m).getD i 0) ++ rest) m seed L T kp = wotsPkV P H skSeed seed L T kp := by
  unfold wotsFromV wotsPkV
  congr 1
  unfold chainsV
  apply flatMap_congr'
  intro i hi
  have hi := List.mem_range.1 hi
  have hs := slice_chunk (fun i => chainV H seed L T kp i (skV H skSeed seed L T kp i) 0 ((digitsOf P m).getD i 0)) P.n P.len i rest
    (fun j _ => chainV_length hH _ _ _ _ _ _ _ _ (hH.prf _ _ _)) hi
  simp only at hs ⊢
  rw [hs]
  have := chainV_comp H seed L T kp i (skV H skSeed seed L T kp i) 0 ((digitsOf P m).getD i 0) (P.w - 1 - (digitsOf P m).getD i 0)
  rw [Nat.zero_add] at this
  rw [this]
  have hd := digitsOf_lt P m i
  congr 1
  omega

/-! ## XMSS -/

/-- The node `i` of height `z` in the XMSS tree (specification). -/
def xmssV (P : Params) (H : Hash) (skSeed seed : Bytes) (L T : Nat) : Nat → Nat → Bytes
  | 0, i => wotsPkV P H skSeed seed L T i
  | z + 1, i => H.h seed (enc ⟨L, T, .tree, 0, z + 1, i⟩)
      (xmssV P H skSeed seed L T z (2 * i) ++ xmssV P H skSeed seed L T z (2 * i + 1))

theorem xmssV_length {P : Params} {H : Hash} (hH : H.Sized P) (skSeed seed : Bytes) (L T z i : Nat) : (xmssV P H skSeed seed L T z i).length = P.n := by
  cases z with
  | zero => exact hH.t _ _ _
  | succ z => exact hH.h _ _ _

theorem xmssNode_eq {P : Params} (hP : Ok P) (H : Hash) (skSeed seed : Bytes) (L T : Nat) (z : Nat) :
    ∀ (i : Nat) (ty : AType) (x c y : Nat), z ≤ P.hp → i < 2 ^ (P.hp - z) →
    ∃ ty' x' c' y', xmssNode P H skSeed seed z i (enc ⟨L, T, ty, x, c, y⟩) = .ok (xmssV P H skSeed seed L T z i, enc ⟨L, T, ty', x', c', y'⟩) := by
  have hhp := hP.hp
  induction z with
  | zero =>
    intro i ty x c y _ hi
    have hi' : i < 256 ^ 4 := Nat.lt_of_lt_of_le hi hhp
    obtain ⟨c', y', e⟩ := wotsPkgen_eq hP H skSeed seed L T i 0 0 hi'
    refine ⟨.wotsHash, i, c', y', ?_⟩
    rw [xmssNode, if_neg (by omega)]
    simp only [setType_enc, setKeyPair_enc ⟨L, T, .wotsHash, 0, 0, 0⟩ i hi', bind, Except.bind, e]
    rfl
  | succ z ih =>
    intro i ty x c y hz hi
    have e2 : 2 ^ (P.hp - z) = 2 * 2 ^ (P.hp - (z + 1)) := by rw [show P.hp - z = (P.hp - (z + 1)) + 1 by omega, Nat.pow_succ, Nat.mul_comm]
    have hz' : z + 1 < 256 ^ 4 := by
      have : P.hp < 2 ^ P.hp := Nat.lt_two_pow_self
      omega
    have hi' : i < 256 ^ 4 := by
      have : 2 ^ (P.hp - (z + 1)) ≤ 2 ^ P.hp := Nat.pow_le_pow_right (by omega) (by omega)
      omega
    obtain ⟨t1, x1, c1, y1, e⟩ := ih (2 * i) ty x c y (by omega) (by omega)
    obtain ⟨t3, x3, c3, y3, e3⟩ := ih (2 * i + 1) t1 x1 c1 y1 (by omega) (by omega)
    refine ⟨.tree, 0, z + 1, i, ?_⟩
    rw [xmssNode, if_neg (by omega)]
    simp only [e, bind, Except.bind, e3, setType_enc, setHeight_enc ⟨L, T, .tree, 0, 0, 0⟩ (z + 1) hz', setIndex_enc ⟨L, T, .tree, 0, z + 1, 0⟩ i hi']
    rfl

theorem xor_one (x : Nat) : x ^^^ 1 = if x % 2 = 0 then x + 1 else x - 1 := by
  have h1 : (x ^^^ 1) / 2 = x / 2 := by rw [Nat.xor_div_two]; simp
  have h2 : (x ^^^ 1) % 2 = (x + 1) % 2 := by
    have := Nat.testBit_xor x 1 0
    rw [Nat.testBit_zero, Nat.testBit_zero, Nat.testBit_zero] at this
    generalize x ^^^ 1 = z at this
    by_cases hx : x % 2 = 1 <;> by_cases hz : z % 2 = 1 <;> simp [hx, hz] at this <;> omega
  split <;> omega

theorem xor_one_lt (x k : Nat) (h : x < 2 ^ (k + 1)) : x ^^^ 1 < 2 ^ (k + 1) := by
  rw [xor_one]
  rw [Nat.pow_succ] at *
  split <;> omega

/-- The authentication path (specification). -/
def authV (P : Params) (H : Hash) (skSeed seed : Bytes) (L T idx : Nat) : Bytes :=
  (List.range P.hp).flatMap (fun j => xmssV P H skSeed seed L T j ((idx / 2 ^ j) ^^^ 1))

/-- An XMSS signature (specification). -/
def xmssSigV (P : Params) (H : Hash) (m skSeed seed : Bytes) (L T idx : Nat) : Bytes :=
  chainsV P H skSeed seed L T idx (fun i => (digitsOf P m).getD i 0) ++ authV P H skSeed seed L T idx

theorem div_pow_lt {x hp j : Nat} (h : x < 2 ^ hp) (hj : j ≤ hp) : x / 2 ^ j < 2 ^ (hp - j) := by
  apply Nat.div_lt_of_lt_mul
  rw [← Nat.pow_add]
  rwa [show j + (hp - j) = hp by omega]

theorem xmssSign_eq {P : Params} (hP : Ok P) (H : Hash) (m skSeed seed : Bytes) (L T idx : Nat) (ty : AType) (x c y : Nat)
    (hi : idx < 2 ^ P.hp) (hm : m.length = P.n) :
    ∃ ty' x' c' y', xmssSign P H m skSeed idx seed (enc ⟨L, T, ty, x, c, y⟩) =
      .ok (xmssSigV P H m skSeed seed L T idx, enc ⟨L, T, ty', x', c', y'⟩) := by
  have hi' : idx < 256 ^ 4 := Nat.lt_of_lt_of_le hi hP.hp
  obtain ⟨st, e, t1, x1, c1, y1, h1⟩ := forRange_inv (authStep P H skSeed seed idx)
    (fun j st => ∃ ty x c y, st = ((List.range j).flatMap (fun j => xmssV P H skSeed seed L T j ((idx / 2 ^ j) ^^^ 1)), enc ⟨L, T, ty, x, c, y⟩)) P.hp
    ([], enc ⟨L, T, ty, x, c, y⟩) ⟨ty, x, c, y, rfl⟩ (by
      intro j st hj ⟨ty, x, c, y, e⟩
      subst e
      have hlt : (idx / 2 ^ j) ^^^ 1 < 2 ^ (P.hp - j) := by
        have := div_pow_lt hi (Nat.le_of_lt hj)
        rw [show P.hp - j = (P.hp - j - 1) + 1 by omega] at this ⊢
        exact xor_one_lt _ _ this
      obtain ⟨t1, x1, c1, y1, e⟩ := xmssNode_eq hP H skSeed seed L T j _ ty x c y (by omega) hlt
      refine ⟨_, ?_, t1, x1, c1, y1, rfl⟩
      unfold authStep
      simp only [e, bind, Except.bind, flatMap_snoc])
  subst h1
  obtain ⟨c2, y2, e2⟩ := wotsSign_eq hP H m skSeed seed L T idx 0 0 hi' hm
  refine ⟨.wotsHash, idx, c2, y2, ?_⟩
  unfold xmssSign
  simp only [e, bind, Except.bind, setType_enc, setKeyPair_enc ⟨L, T, .wotsHash, 0, 0, 0⟩ idx hi', e2]
  rfl

/-- One climbing round reaches the parent. `N` is a Merkle tree with inner addresses `enc ⟨L, T, ty, kp, z, i⟩`. -/
theorem climb_eq (H : Hash) (seed : Bytes) (L T : Nat) (ty : AType) (kp c : Nat) (N : Nat → Nat → Bytes)
    (hN : ∀ z i, N (z + 1) i = H.h seed (enc ⟨L, T, ty, kp, z + 1, i⟩) (N z (2 * i) ++ N z (2 * i + 1)))
    (k g : Nat) (bit : Bool) (hb : bit = (g % 2 == 1)) (hg : g < 256 ^ 4) (hk : k + 1 < 256 ^ 4) :
    climb H seed k bit (N k (g ^^^ 1)) (N k g, enc ⟨L, T, ty, kp, c, g⟩) =
      .ok (N (k + 1) (g / 2), enc ⟨L, T, ty, kp, k + 1, g / 2⟩) := by
  unfold climb
  simp only [setHeight_enc ⟨L, T, ty, kp, c, g⟩ (k + 1) hk, bind, Except.bind, getIndex_enc ⟨L, T, ty, kp, k + 1, g⟩ hg]
  rw [hN, xor_one]
  by_cases h : g % 2 = 1
  · have hb' : bit = true := by rw [hb, h]; rfl
    rw [if_pos hb', if_neg (by omega), if_neg (by omega), show (g - 1) / 2 = g / 2 by omega]
    simp only [setIndex_enc ⟨L, T, ty, kp, k + 1, g⟩ (g / 2) (by omega)]
    rw [show 2 * (g / 2) = g - 1 by omega, show g - 1 + 1 = g by omega]
  · have hb' : ¬ (bit = true) := by rw [hb]; simp [h]
    rw [if_neg hb', if_pos (by omega)]
    simp only [setIndex_enc ⟨L, T, ty, kp, k + 1, g⟩ (g / 2) (by omega)]
    rw [show 2 * (g / 2) = g by omega]

/-- Climbing from leaf `g` with its siblings reaches the ancestor. -/
theorem climb_loop (P : Params) (H : Hash) (seed : Bytes) (L T : Nat) (ty : AType) (kp c : Nat) (N : Nat → Nat → Bytes)
    (hN : ∀ z i, N (z + 1) i = H.h seed (enc ⟨L, T, ty, kp, z + 1, i⟩) (N z (2 * i) ++ N z (2 * i + 1)))
    (idx g hgt : Nat) (auth : Bytes) (hb : ∀ k < hgt, idx / 2 ^ k % 2 = g / 2 ^ k % 2) (hg : g < 256 ^ 4) (hh : hgt < 256 ^ 4)
    (ha : ∀ k < hgt, slice auth (k * P.n) ((k + 1) * P.n) = N k ((g / 2 ^ k) ^^^ 1)) :
    ∃ c', forRange (climbStep P H seed idx auth) hgt (N 0 g, enc ⟨L, T, ty, kp, c, g⟩) =
      .ok (N hgt (g / 2 ^ hgt), enc ⟨L, T, ty, kp, c', g / 2 ^ hgt⟩) := by
  obtain ⟨st, e, c', hi⟩ := forRange_inv (climbStep P H seed idx auth)
    (fun k st => ∃ c', st = (N k (g / 2 ^ k), enc ⟨L, T, ty, kp, c', g / 2 ^ k⟩)) hgt (N 0 g, enc ⟨L, T, ty, kp, c, g⟩)
    ⟨c, by simp⟩ (by
      intro k st hk ⟨c', e⟩
      subst e
      refine ⟨_, ?_, k + 1, rfl⟩
      unfold climbStep
      rw [ha k hk]
      have hlt : g / 2 ^ k < 256 ^ 4 := Nat.lt_of_le_of_lt (Nat.div_le_self _ _) hg
      rw [climb_eq H seed L T ty kp c' N hN k (g / 2 ^ k) _ (by rw [hb k hk]) hlt (by omega)]
      rw [Nat.div_div_eq_div_mul, ← Nat.pow_succ])
  exact ⟨c', by rw [e, hi]⟩

theorem chainsV_length {P : Params} {H : Hash} (hH : H.Sized P) (skSeed seed : Bytes) (L T kp : Nat) (cnt : Nat → Nat) :
    (chainsV P H skSeed seed L T kp cnt).length = P.len * P.n :=
  flatMap_len _ _ _ (fun _ _ => chainV_length hH _ _ _ _ _ _ _ _ (hH.prf _ _ _))

theorem xmssSigV_take {P : Params} {H : Hash} (hH : H.Sized P) (m skSeed seed : Bytes) (L T idx : Nat) :
    slice (xmssSigV P H m skSeed seed L T idx) 0 (P.len * P.n) = chainsV P H skSeed seed L T idx (fun i => (digitsOf P m).getD i 0) ∧
    (xmssSigV P H m skSeed seed L T idx).drop (P.len * P.n) = authV P H skSeed seed L T idx := by
  have hl : (chainsV P H skSeed seed L T idx (fun i => (digitsOf P m).getD i 0)).length = P.len * P.n :=
    flatMap_len _ _ _ (fun _ _ => chainV_length hH _ _ _ _ _ _ _ _ (hH.prf _ _ _))
  unfold xmssSigV slice
  rw [List.take_left' hl, List.drop_left' hl, List.drop_zero]
  exact ⟨rfl, rfl⟩

theorem authV_length {P : Params} {H : Hash} (hH : H.Sized P) (skSeed seed : Bytes) (L T idx : Nat) :
    (authV P H skSeed seed L T idx).length = P.hp * P.n := flatMap_len _ _ _ (fun _ _ => xmssV_length hH _ _ _ _ _ _)

theorem xmssSigV_length {P : Params} {H : Hash} (hH : H.Sized P) (m skSeed seed : Bytes) (L T idx : Nat) :
    (xmssSigV P H m skSeed seed L T idx).length = (P.hp + P.len) * P.n := by
  unfold xmssSigV
  rw [List.length_append, authV_length hH, chainsV_length hH, Nat.add_mul, Nat.add_comm]

/-- The root computed from an XMSS signature is the root of the tree. -/
theorem xmssPkFromSig_eq {P : Params} (hP : Ok P) {H : Hash} (hH : H.Sized P) (m skSeed seed : Bytes) (L T idx : Nat) (ty : AType) (x c y : Nat)
    (hi : idx < 2 ^ P.hp) (hm : m.length = P.n) :
    ∃ ty' x' c' y', xmssPkFromSig P H idx (xmssSigV P H m skSeed seed L T idx) m seed (enc ⟨L, T, ty, x, c, y⟩) =
      .ok (xmssV P H skSeed seed L T P.hp 0, enc ⟨L, T, ty', x', c', y'⟩) := by
  have hi' : idx < 256 ^ 4 := Nat.lt_of_lt_of_le hi hP.hp
  have hh : P.hp < 256 ^ 4 := Nat.lt_of_lt_of_le Nat.lt_two_pow_self hP.hp
  obtain ⟨e1, e2⟩ := xmssSigV_take hH m skSeed seed L T idx
  obtain ⟨c1, y1, e3⟩ := wotsPkFromSig_eq hP H (chainsV P H skSeed seed L T idx (fun i => (digitsOf P m).getD i 0)) m seed L T idx 0 0 hi' hm
  have e4 := wotsFromV_sign hH m skSeed seed [] L T idx
  rw [List.append_nil] at e4
  rw [e4] at e3
  obtain ⟨c2, e5⟩ := climb_loop P H seed L T .tree 0 0 (xmssV P H skSeed seed L T) (fun z i => rfl) idx idx P.hp
    (authV P H skSeed seed L T idx) (fun _ _ => rfl) hi' hh (fun k hk => slice_chunk' _ _ _ _ (fun _ _ => xmssV_length hH _ _ _ _ _ _) hk)
  rw [Nat.div_eq_of_lt hi] at e5
  refine ⟨.tree, 0, c2, 0, ?_⟩
  unfold xmssPkFromSig
  simp only [e1, e2, setType_enc, setKeyPair_enc ⟨L, T, .wotsHash, 0, 0, 0⟩ idx hi', bind, Except.bind, e3,
    setIndex_enc ⟨L, T, .tree, 0, 0, 0⟩ idx hi']
  exact e5

end Verif.PQ.Slh
