import Verif.PQ.FrodoCodec

/-! The computation of `kem_keygen`, `kem_encaps` and `kem_decaps` of `frodokem.py` in closed form. -/

namespace Verif.PQ.Frodo

open Verif.CA (Bytes PyErr)
open Verif.PQ.Kem

/-- What the three parameter sets have in common. -/
structure WF (P : Params) : Prop where
  q : P.q = 2 ^ P.D
  B : P.B ≤ P.D
  n : 0 < P.n
  nbar : 0 < P.nbar
  mbar : 0 < P.mbar
  d1 : 8 ∣ P.n * P.nbar * P.D
  d2 : 8 ∣ P.mbar * P.n * P.D
  d3 : 8 ∣ P.mbar * P.nbar * P.D
  mu : 8 * P.lenMu = P.mbar * P.nbar * P.B
  pk : 8 * P.lenPk = 8 * P.lenSeedA + P.D * P.n * P.nbar
  sk : P.lenSk = P.lenS + P.lenSeedA + P.D * P.n * P.nbar / 8 + P.n * P.nbar * 16 / 8 + P.lenPkh
  ct : P.lenCt = P.mbar * P.n * P.D / 8 + P.mbar * P.nbar * P.D / 8 + P.lenSalt
  chi : P.chi.length ≤ 32768
  kS : P.lenK = P.lenS

theorem wf640 : WF p640 := by constructor <;> decide
theorem wf976 : WF p976 := by constructor <;> decide
theorem wf1344 : WF p1344 := by constructor <;> decide

/-! ### Sampling -/

theorem count_bounds (p : Nat → Prop) [DecidablePred p] (n : Nat) :
    0 ≤ (List.range n).foldl (fun (e : Int) z => if p z then e + 1 else e) 0 ∧
    (List.range n).foldl (fun (e : Int) z => if p z then e + 1 else e) 0 ≤ n := by
  induction n with
  | zero => simp
  | succ n ih =>
    rw [List.range_succ, List.foldl_append]
    simp only [List.foldl_cons, List.foldl_nil]
    split <;> omega

theorem sample_bound (T : List Int) (r : Nat) :
    -((T.length - 1 : Nat) : Int) ≤ sample T r ∧ sample T r ≤ (T.length - 1 : Nat) := by
  unfold sample
  have h := count_bounds (fun z => ((r / 2 : Nat) : Int) > T.getD z 0) (T.length - 1)
  dsimp only at h ⊢
  generalize (List.range (T.length - 1)).foldl (fun (e : Int) z => if ((r / 2 : Nat) : Int) > T.getD z 0 then e + 1 else e) 0 = e at h ⊢
  rcases Nat.mod_two_eq_zero_or_one r with h2 | h2 <;> rw [h2]
  · rw [Int.pow_zero, Int.one_mul]; omega
  · rw [Int.pow_one]; omega

theorem cdf_length (chi : List Nat) : (cdf chi).length = chi.length := by simp [cdf]

/-! ### Words -/

theorem words_getD (m : Nat) (b : Bytes) (t d i : Nat) (ht : t ≤ m) (hi : d + i < t) :
    (((words m b).take t).drop d).getD i 0 = u16 b (d + i) := by
  have hm : d + i < m := by omega
  simp [words, List.getD_eq_getElem?_getD, List.getElem?_take, hi, hm]

theorem u16_chunk (b : Bytes) (k : Nat) : u16 b k = u16 ((b.drop (k * 2)).take 2) 0 := by
  unfold u16
  simp [List.getD_eq_getElem?_getD, List.getElem?_take, Nat.mul_comm]

theorem intle_roundtrip (x : Int) (h1 : -32768 ≤ x) (h2 : x < 32768) : readIntle16 (intle16 x) 0 = x := by
  have a1 : (UInt8.ofNat (x % 256).toNat).toNat = (x % 256).toNat := by
    rw [UInt8.toNat_ofNat']; omega
  have a2 : (UInt8.ofNat (x / 256 % 256).toNat).toNat = (x / 256 % 256).toNat := by
    rw [UInt8.toNat_ofNat']; omega
  have e : u16 (intle16 x) 0 = (x % 256).toNat + 256 * (x / 256 % 256).toNat := by
    show (UInt8.ofNat (x % 256).toNat).toNat + 256 * (UInt8.ofNat (x / 256 % 256).toNat).toNat = _
    rw [a1, a2]
  unfold readIntle16
  rw [e]
  split <;> omega

/-- The serialisation of `S^T` in the private key. -/
def serS (nbar n : Nat) (f : Nat → Nat → Int) : Bytes :=
  (List.range nbar).flatMap (fun i => (List.range n).flatMap (fun j => intle16 (f i j)))

theorem serS_length (nbar n : Nat) (f : Nat → Nat → Int) (hn : 0 < n) : (serS nbar n f).length = nbar * n * 2 := by
  unfold serS
  rw [flatMap_nest (fun i j => intle16 (f i j)) _ _ hn, flatMap_length _ 2 (fun i => rfl)]

theorem serS_read (nbar n : Nat) (f : Nat → Nat → Int) (hf : ∀ i j, -32768 ≤ f i j ∧ f i j < 32768) (i j : Nat)
    (hi : i < nbar) (hj : j < n) : readIntle16 (serS nbar n f) (i * n + j) = f i j := by
  have e : u16 (serS nbar n f) (i * n + j) = u16 (intle16 (f i j)) 0 := by
    rw [u16_chunk]
    unfold serS
    rw [flatMap_nest (fun i j => intle16 (f i j)) _ _ (by omega), flatMap_chunk _ 2 (fun i => rfl) _ _ (idx_lt nbar n i j hi hj),
      idx_div _ _ _ hj, idx_mod _ _ _ hj]
  have h := intle_roundtrip (f i j) (hf i j).1 (hf i j).2
  unfold readIntle16 at h ⊢
  rw [e]
  exact h

/-! ### Congruence -/

/-- `a` and `b` differ by a multiple of `q`. -/
def Cg (q : Nat) (a b : Int) : Prop := ∃ c : Int, a = b + q * c

theorem Cg.rfl' (q : Nat) (a : Int) : Cg q a a := ⟨0, by simp⟩

theorem Cg.trans {q : Nat} {a b c : Int} : Cg q a b → Cg q b c → Cg q a c := by
  rintro ⟨x, rfl⟩ ⟨y, rfl⟩
  exact ⟨y + x, by rw [Int.mul_add]; omega⟩

theorem Cg.add {q : Nat} {a b c d : Int} : Cg q a b → Cg q c d → Cg q (a + c) (b + d) := by
  rintro ⟨x, rfl⟩ ⟨y, rfl⟩
  exact ⟨x + y, by rw [Int.mul_add]; omega⟩

theorem Cg.sub {q : Nat} {a b c d : Int} : Cg q a b → Cg q c d → Cg q (a - c) (b - d) := by
  rintro ⟨x, rfl⟩ ⟨y, rfl⟩
  exact ⟨x - y, by rw [Int.mul_sub]; omega⟩

theorem Cg.mul_left {q : Nat} {a b : Int} (c : Int) : Cg q a b → Cg q (c * a) (c * b) := by
  rintro ⟨x, rfl⟩
  exact ⟨c * x, by rw [Int.mul_add, Int.mul_left_comm]⟩

theorem Cg.mul_right {q : Nat} {a b : Int} (c : Int) : Cg q a b → Cg q (a * c) (b * c) := by
  rintro ⟨x, rfl⟩
  exact ⟨x * c, by rw [Int.add_mul, Int.mul_assoc]⟩

theorem Cg.mod (q : Nat) (a : Int) : Cg q (a % q) a := ⟨-(a / q), by rw [Int.emod_def, Int.mul_neg]; omega⟩

theorem Cg.sum {q : Nat} (n : Nat) (f g : Nat → Int) (h : ∀ k < n, Cg q (f k) (g k)) : Cg q (sumTo n f) (sumTo n g) := by
  induction n with
  | zero => exact Cg.rfl' _ _
  | succ n ih =>
    rw [sumTo_succ, sumTo_succ]
    exact (ih (fun k hk => h k (by omega))).add (h n (by omega))

theorem Cg.emod_eq {q : Nat} {a b : Int} : Cg q a b → a % q = b % q := by
  rintro ⟨x, rfl⟩
  exact Int.add_mul_emod_self_left _ _ _

/-! ### The equation behind decryption -/

/-- `M = C - B'S` is the encoded message plus `S'E + E'' - E'S`. -/
theorem noise_equation (q n : Nat) (A : Nat → Nat → Int) (s' e' : Nat → Int) (s e : Nat → Int) (e'' m : Int) :
    Cg q ((((sumTo n (fun k => s' k * ((sumTo n (fun l => A k l * s l) % q + e k) % q))) % q + e'') % q + m) % q
        - sumTo n (fun k => ((sumTo n (fun l => s' l * A l k) % q + e' k) % q) * s k) % q)
      (m + (sumTo n (fun k => s' k * e k) + e'' - sumTo n (fun k => e' k * s k))) := by
  have h1 : Cg q ((((sumTo n (fun k => s' k * ((sumTo n (fun l => A k l * s l) % q + e k) % q))) % q + e'') % q + m) % q)
      (sumTo n (fun k => s' k * (sumTo n (fun l => A k l * s l) + e k)) + e'' + m) := by
    refine (Cg.mod _ _).trans (Cg.add ((Cg.mod _ _).trans (Cg.add ((Cg.mod _ _).trans ?_) (Cg.rfl' _ _))) (Cg.rfl' _ _))
    apply Cg.sum
    intro k _
    exact Cg.mul_left _ ((Cg.mod _ _).trans (Cg.add (Cg.mod _ _) (Cg.rfl' _ _)))
  have h2 : Cg q (sumTo n (fun k => ((sumTo n (fun l => s' l * A l k) % q + e' k) % q) * s k) % q)
      (sumTo n (fun k => (sumTo n (fun l => s' l * A l k) + e' k) * s k)) := by
    refine (Cg.mod _ _).trans ?_
    apply Cg.sum
    intro k _
    exact Cg.mul_right _ ((Cg.mod _ _).trans (Cg.add (Cg.mod _ _) (Cg.rfl' _ _)))
  refine (h1.sub h2).trans ?_
  have e1 : sumTo n (fun k => s' k * (sumTo n (fun l => A k l * s l) + e k)) =
      sumTo n (fun k => sumTo n (fun l => s' k * A k l * s l)) + sumTo n (fun k => s' k * e k) := by
    rw [← sumTo_add]
    apply sumTo_congr
    intro k _
    rw [Int.mul_add, ← sumTo_mul]
    congr 1
    apply sumTo_congr
    intro l _
    rw [Int.mul_assoc]
  have e2 : sumTo n (fun k => (sumTo n (fun l => s' l * A l k) + e' k) * s k) =
      sumTo n (fun k => sumTo n (fun l => s' k * A k l * s l)) + sumTo n (fun k => e' k * s k) := by
    rw [sumTo_swap, ← sumTo_add]
    apply sumTo_congr
    intro k _
    rw [Int.add_mul, ← sumTo_mul_right]
  rw [e1, e2]
  have : ∀ a b c d e : Int, a + b + c + d - (a + e) = d + (b + c - e) := by intros; omega
  rw [this]
  exact Cg.rfl' _ _

/-! ### Constant-time helpers -/

theorem foldl_or (g : Nat → Nat) (n r : Nat) :
    (List.range n).foldl (fun r j => r ||| g j) r = 0 ↔ r = 0 ∧ ∀ j < n, g j = 0 := by
  induction n with
  | zero => simp
  | succ n ih =>
    rw [List.range_succ, List.foldl_append]
    simp only [List.foldl_cons, List.foldl_nil, Nat.or_eq_zero_iff]
    rw [ih]
    constructor
    · rintro ⟨⟨h1, h2⟩, h3⟩
      refine ⟨h1, fun j hj => ?_⟩
      by_cases h : j = n
      · rw [h]; exact h3
      · exact h2 j (by omega)
    · rintro ⟨h1, h2⟩
      exact ⟨⟨h1, fun j hj => h2 j (by omega)⟩, h2 n (by omega)⟩

theorem foldl_or2 (g : Nat → Nat → Nat) (len : Nat → Nat) (n r : Nat) :
    (List.range n).foldl (fun r i => (List.range (len i)).foldl (fun r j => r ||| g i j) r) r = 0 ↔
      r = 0 ∧ ∀ i < n, ∀ j < len i, g i j = 0 := by
  induction n with
  | zero => simp
  | succ n ih =>
    rw [List.range_succ, List.foldl_append]
    simp only [List.foldl_cons, List.foldl_nil]
    rw [foldl_or, ih]
    constructor
    · rintro ⟨⟨h1, h2⟩, h3⟩
      refine ⟨h1, fun i hi j hj => ?_⟩
      by_cases h : i = n
      · subst h; exact h3 j hj
      · exact h2 i (by omega) j hj
    · rintro ⟨h1, h2⟩
      exact ⟨⟨h1, fun i hi j hj => h2 i (by omega) j hj⟩, fun j hj => h2 n (by omega) j hj⟩

theorem ctverify_iff (a b : Mat) :
    ctverify a b = true ↔ ∀ i < a.length, ∀ j < (a.getD i []).length, (ent a i j).toNat = (ent b i j).toNat := by
  unfold ctverify
  rw [beq_iff_eq, foldl_or2 (fun i j => (ent a i j).toNat ^^^ (ent b i j).toNat) (fun i => (a.getD i []).length)]
  have hx : ∀ x y : Nat, x ^^^ y = 0 ↔ x = y := by
    intro x y
    constructor
    · intro h
      have := congrArg (fun z => x ^^^ z) h
      simpa [← Nat.xor_assoc] using this.symm
    · rintro rfl; exact Nat.xor_self x
  simp only [hx, true_and]

theorem getD_getElem {α : Type} (l : List α) (i : Nat) (d : α) (h : i < l.length) : l.getD i d = l[i] := by
  simp [List.getD_eq_getElem?_getD, h]

theorem ctselect_true (a b : Bytes) : ctselect a b true = a := by
  unfold ctselect
  have : UInt8.ofNat (ctmask true) = 255 := by decide
  rw [this]
  apply List.ext_getElem
  · simp
  · intro i h1 h2
    simp only [List.getElem_map, List.getElem_range]
    rw [getD_getElem _ _ _ h2]
    have h : ∀ x y : UInt8, (x &&& 255) ||| (y &&& ~~~255) = x := by
      intro x y
      have e1 : ~~~(255 : UInt8) = 0 := by decide
      rw [e1, UInt8.and_zero, UInt8.or_zero]
      exact UInt8.and_neg_one
    exact h _ _

theorem ctselect_false (a b : Bytes) (h : a.length = b.length) : ctselect a b false = b := by
  unfold ctselect
  have : UInt8.ofNat (ctmask false) = 0 := by decide
  rw [this]
  apply List.ext_getElem
  · simp [h]
  · intro i h1 h2
    simp only [List.getElem_map, List.getElem_range]
    rw [getD_getElem b _ _ h2, UInt8.and_zero, UInt8.zero_or]
    have e1 : ~~~(0 : UInt8) = -1 := by decide
    rw [e1]
    exact UInt8.and_neg_one

/-! ### The matrices in closed form -/

/-- The `k`-th sample of the stream `rb`. -/
def chiAt (P : Params) (rb : Bytes) (k : Nat) : Int := sample (cdf P.chi) (u16 rb k)

theorem sampleMatrix_words (P : Params) (m : Nat) (b : Bytes) (t d n1 n2 : Nat) (ht : t ≤ m) (h : d + n1 * n2 ≤ t) :
    sampleMatrix (cdf P.chi) (((words m b).take t).drop d) n1 n2 = tab n1 n2 (fun i j => chiAt P b (d + (i * n2 + j))) := by
  unfold sampleMatrix
  apply tab_congr
  intro i hi j hj
  have := idx_lt n1 n2 i j hi hj
  rw [words_getD m b t d _ ht (by omega)]
  rfl

theorem sampleMatrix_words0 (P : Params) (m : Nat) (b : Bytes) (t n1 n2 : Nat) (ht : t ≤ m) (h : n1 * n2 ≤ t) :
    sampleMatrix (cdf P.chi) ((words m b).take t) n1 n2 = tab n1 n2 (fun i j => chiAt P b (i * n2 + j)) := by
  have := sampleMatrix_words P m b t 0 n1 n2 ht (by omega)
  simpa using this

/-- The entries of the public matrix. -/
def genEnt (P : Params) (E : Env) (seedA : Bytes) (i j : Nat) : Int := ent (gen P E seedA) i j

theorem gen_tab (P : Params) (E : Env) (seedA : Bytes) : gen P E seedA = tab P.n P.n (genEnt P E seedA) := by
  have h : ∃ g, gen P E seedA = tab P.n P.n g := by
    unfold gen
    split
    · exact ⟨_, rfl⟩
    · exact ⟨_, rfl⟩
  obtain ⟨g, hg⟩ := h
  unfold genEnt
  rw [tab_ent _ _ _ (by rw [hg, tab_length]) (by rw [hg]; exact tab_rows _ _ _)]

/-- Entries of `B' = S'A + E'`. -/
def encB (P : Params) (E : Env) (seedA rb : Bytes) (i k : Nat) : Int :=
  (sumTo P.n (fun l => chiAt P rb (i * P.n + l) * genEnt P E seedA l k) % P.q
    + chiAt P rb (P.mbar * P.n + (i * P.n + k))) % P.q

/-- Entries of `C = S'B + E'' + encode(mu)`. -/
def encC (P : Params) (Bm : Nat → Nat → Int) (rb mu : Bytes) (i j : Nat) : Int :=
  ((sumTo P.n (fun k => chiAt P rb (i * P.n + k) * Bm k j) % P.q
    + chiAt P rb (2 * P.mbar * P.n + (i * P.nbar + j))) % P.q
    + (digit P mu (i * P.nbar + j) : Int) * (P.q / 2 ^ P.B : Nat)) % P.q

/-- The stream of `seedSE`. -/
def encStream (P : Params) (E : Env) (seedSE : Bytes) : Bytes :=
  E.shake (0x96 :: seedSE) ((2 * P.mbar * P.n + P.mbar * P.mbar) * 2)

theorem unpack_tab (D : Nat) (b : Bytes) (n1 n2 : Nat) : unpack D b n1 n2 = tab n1 n2 (ent (unpack D b n1 n2)) :=
  (tab_ent _ _ _ (by unfold unpack; exact tab_length _ _ _) (by unfold unpack; exact tab_rows _ _ _)).symm

theorem encrypt_eq (P : Params) (hP : WF P) (E : Env) (seedA b seedSE mu : Bytes) :
    encrypt P E seedA b seedSE mu =
      .ok (tab P.mbar P.n (encB P E seedA (encStream P E seedSE)),
           tab P.mbar P.nbar (encC P (ent (unpack P.D b P.n P.nbar)) (encStream P E seedSE) mu)) := by
  unfold encrypt
  dsimp only
  change (Except.bind _ _) = _
  have a2 : 2 * P.mbar * P.n = P.mbar * P.n + P.mbar * P.n := by rw [Nat.mul_assoc, Nat.two_mul]
  rw [sampleMatrix_words0 P _ _ _ _ _ (by omega) (Nat.le_refl _),
    sampleMatrix_words P _ _ (2 * P.mbar * P.n) _ _ _ (by omega) (by omega),
    sampleMatrix_words P _ _ (2 * P.mbar * P.n + P.mbar * P.nbar) _ _ _ (by omega) (by omega),
    gen_tab, unpack_tab, encode_tab]
  simp only [bind, Except.bind, matMul_tab _ _ _ _ _ _ hP.mbar hP.n, matAdd_tab _ _ _ _ _ hP.mbar, pure, Except.pure]
  rw [← unpack_tab]
  rfl

/-- The stream of `seedSE` in `kem_keygen`. -/
def keyStream (P : Params) (E : Env) (seedSE : Bytes) : Bytes := E.shake (0x5f :: seedSE) (2 * P.n * P.nbar * 2)

/-- Entries of `B = AS + E`. -/
def keyB (P : Params) (E : Env) (seedA rb : Bytes) (k j : Nat) : Int :=
  (sumTo P.n (fun l => genEnt P E seedA k l * chiAt P rb (j * P.n + l)) % P.q
    + chiAt P rb (P.n * P.nbar + (k * P.nbar + j))) % P.q

theorem slice_length (b : Bytes) (i j : Nat) (h : j ≤ b.length) : (slice b i j).length = j - i := by
  unfold slice; rw [List.length_take, List.length_drop]; omega

theorem serS_congr (nbar n : Nat) (f g : Nat → Nat → Int) (h : ∀ i < nbar, ∀ j < n, f i j = g i j) :
    serS nbar n f = serS nbar n g := by
  unfold serS
  apply flatMap_congr'
  intro i hi
  apply flatMap_congr'
  intro j hj
  rw [h i (List.mem_range.1 hi) j (List.mem_range.1 hj)]

/-- The parts of the key generation seed and the values derived from them. -/
def kS (P : Params) (seed : Bytes) : Bytes := slice seed 0 P.lenS
def kRb (P : Params) (E : Env) (seed : Bytes) : Bytes := keyStream P E (slice seed P.lenS (P.lenS + P.lenSeedSE))
def kSeedA (P : Params) (E : Env) (seed : Bytes) : Bytes :=
  E.shake (slice seed (P.lenS + P.lenSeedSE) (P.lenS + P.lenSeedSE + P.lenZ)) P.lenSeedA
/-- The packed matrix `B`. -/
def kb (P : Params) (E : Env) (seed : Bytes) : Bytes :=
  pack P.D (tab P.n P.nbar (keyB P E (kSeedA P E seed) (kRb P E seed)))
/-- The serialised `S^T`. -/
def kSt (P : Params) (E : Env) (seed : Bytes) : Bytes :=
  serS P.nbar P.n (fun i j => chiAt P (kRb P E seed) (i * P.n + j))

theorem kb_length (P : Params) (hP : WF P) (E : Env) (seed : Bytes) : (kb P E seed).length = P.D * P.n * P.nbar / 8 := by
  unfold kb
  rw [pack_length _ _ _ _ hP.n hP.nbar hP.d1, Nat.mul_comm (P.n * P.nbar), Nat.mul_assoc]

theorem kSt_length (P : Params) (hP : WF P) (E : Env) (seed : Bytes) : (kSt P E seed).length = P.n * P.nbar * 16 / 8 := by
  unfold kSt
  rw [serS_length _ _ _ hP.n, Nat.mul_comm P.nbar]
  omega

theorem keygen_eq (P : Params) (hP : WF P) (E : Env) (hE : ∀ m n, (E.shake m n).length = n) (seed : Bytes)
    (hs : seed.length = P.lenS + P.lenSeedSE + P.lenZ) :
    keygen P E seed = .ok (kSeedA P E seed ++ kb P E seed,
      kS P seed ++ kSeedA P E seed ++ kb P E seed ++ kSt P E seed ++ E.shake (kSeedA P E seed ++ kb P E seed) P.lenPkh) := by
  have hd : 8 ∣ P.D * P.n * P.nbar := by
    have := hP.d1
    rwa [Nat.mul_comm (P.n * P.nbar), ← Nat.mul_assoc] at this
  have hlen : (kSeedA P E seed ++ kb P E seed).length = P.lenPk := by
    have := hP.pk
    rw [List.length_append, kb_length P hP]
    unfold kSeedA
    rw [hE]
    omega
  have hlen2 : (kS P seed ++ kSeedA P E seed ++ kb P E seed ++ kSt P E seed ++
      E.shake (kSeedA P E seed ++ kb P E seed) P.lenPkh).length = P.lenSk := by
    rw [hP.sk]
    simp only [List.length_append, kb_length P hP, kSt_length P hP, hE]
    unfold kS kSeedA
    rw [hE, slice_length _ _ _ (by omega)]
    omega
  have a2 : 2 * P.n * P.nbar = P.n * P.nbar + P.n * P.nbar := by rw [Nat.mul_assoc, Nat.two_mul]
  unfold keygen
  dsimp only
  rw [sampleMatrix_words0 P _ _ _ _ _ (by omega) (by rw [Nat.mul_comm]; exact Nat.le_refl _),
    sampleMatrix_words P _ _ (2 * P.n * P.nbar) _ _ _ (by omega) (by omega), transpose_tab _ _ _ hP.nbar, gen_tab]
  simp only [bind, Except.bind, matMul_tab _ _ _ _ _ _ hP.n hP.n, matAdd_tab _ _ _ _ _ hP.n, pure, Except.pure]
  have hSt : (List.range P.nbar).flatMap (fun i => (List.range P.n).flatMap (fun j => intle16 (ent (tab P.nbar P.n fun i j =>
      chiAt P (E.shake (0x5f :: slice seed P.lenS (P.lenS + P.lenSeedSE)) (2 * P.n * P.nbar * 2)) (i * P.n + j)) i j))) =
      kSt P E seed := by
    apply serS_congr
    intro i hi j hj
    rw [ent_tab _ _ _ _ _ hi hj]
    rfl
  rw [hSt]
  change (if (kSeedA P E seed ++ kb P E seed).length ≠ P.lenPk then _ else _) = _
  rw [if_neg (by simp [hlen])]
  change (if (kS P seed ++ kSeedA P E seed ++ kb P E seed ++ kSt P E seed ++
      E.shake (kSeedA P E seed ++ kb P E seed) P.lenPkh).length ≠ P.lenSk then _ else _) = _
  rw [if_neg (by simp only [hlen2]; simp)]
  rfl

/-- Two matrices of the same shape with non-negative entries. -/
theorem ctverify_eq (a b : Mat) (hs : a.map List.length = b.map List.length)
    (ha : ∀ r ∈ a, ∀ x ∈ r, 0 ≤ x) (hb : ∀ r ∈ b, ∀ x ∈ r, 0 ≤ x) : ctverify a b = true ↔ a = b := by
  rw [ctverify_iff]
  have hl : a.length = b.length := by simpa using congrArg List.length hs
  constructor
  · intro h
    apply List.ext_getElem hl
    intro i h1 h2
    have hr : a[i].length = b[i].length := by
      have := congrArg (fun l => l[i]?) hs
      simpa [h1, h2] using this
    apply List.ext_getElem hr
    intro j h3 h4
    have hi := h i h1 j (by rw [getD_getElem _ _ _ h1]; exact h3)
    unfold ent at hi
    rw [getD_getElem a _ _ h1, getD_getElem b _ _ h2, getD_getElem _ _ _ h3, getD_getElem _ _ _ h4] at hi
    have p1 := ha _ (List.getElem_mem h1) _ (List.getElem_mem h3)
    have p2 := hb _ (List.getElem_mem h2) _ (List.getElem_mem h4)
    omega
  · rintro rfl i _ j _
    rfl

theorem tab_shape (n m : Nat) (f : Nat → Nat → Int) : (tab n m f).map List.length = List.replicate n m := by
  rw [List.eq_replicate_iff]
  refine ⟨by simp [tab], fun x hx => ?_⟩
  obtain ⟨r, hr, rfl⟩ := List.mem_map.1 hx
  exact tab_rows n m f r hr

theorem tab_nonneg (n m : Nat) (f : Nat → Nat → Int) (h : ∀ i < n, ∀ j < m, 0 ≤ f i j) : ∀ r ∈ tab n m f, ∀ x ∈ r, 0 ≤ x := by
  intro r hr x hx
  simp only [tab, List.mem_map] at hr
  obtain ⟨i, hi, rfl⟩ := hr
  simp only [List.mem_map] at hx
  obtain ⟨j, hj, rfl⟩ := hx
  exact h i (List.mem_range.1 hi) j (List.mem_range.1 hj)

/-! ### Encapsulation and decapsulation in closed form -/

def eSeedSE (P : Params) (E : Env) (pkh mu salt : Bytes) : Bytes :=
  slice (E.shake (pkh ++ mu ++ salt) (P.lenSeedSE + P.lenK)) 0 P.lenSeedSE
def eK (P : Params) (E : Env) (pkh mu salt : Bytes) : Bytes :=
  slice (E.shake (pkh ++ mu ++ salt) (P.lenSeedSE + P.lenK)) P.lenSeedSE (P.lenSeedSE + P.lenK)
/-- The matrix `B'`. -/
def eB (P : Params) (E : Env) (seedA seedSE : Bytes) : Mat := tab P.mbar P.n (encB P E seedA (encStream P E seedSE))
/-- The matrix `C`. -/
def eC (P : Params) (E : Env) (b seedSE mu : Bytes) : Mat :=
  tab P.mbar P.nbar (encC P (ent (unpack P.D b P.n P.nbar)) (encStream P E seedSE) mu)

theorem encaps_eq (P : Params) (hP : WF P) (E : Env) (hE : ∀ m n, (E.shake m n).length = n) (seedA b mu salt : Bytes)
    (hA : seedA.length = P.lenSeedA) (hb : b.length = P.D * P.n * P.nbar / 8) (hmu : mu.length = P.lenMu)
    (hsalt : salt.length = P.lenSalt) :
    encaps P E (seedA ++ b) (mu ++ salt) =
      let pkh := E.shake (seedA ++ b) P.lenPkh
      let ct := pack P.D (eB P E seedA (eSeedSE P E pkh mu salt)) ++ pack P.D (eC P E b (eSeedSE P E pkh mu salt) mu) ++ salt
      .ok (ct, E.shake (ct ++ eK P E pkh mu salt) P.lenSs) := by
  have hd : 8 ∣ P.D * P.n * P.nbar := by
    have := hP.d1
    rwa [Nat.mul_comm (P.n * P.nbar), ← Nat.mul_assoc] at this
  have e1 : slice (seedA ++ b) 0 P.lenSeedA = seedA := slice_append_left _ _ _ hA
  have e2 : (seedA ++ b).drop P.lenSeedA = b := by rw [← hA]; simp
  have e3 : slice (mu ++ salt) 0 P.lenMu = mu := slice_append_left _ _ _ hmu
  have e4 : slice (mu ++ salt) P.lenMu (P.lenMu + P.lenSalt) = salt := by
    have := slice_mid mu salt [] P.lenMu (P.lenMu + P.lenSalt) hmu (by rw [hsalt])
    simpa using this
  unfold encaps
  dsimp only
  rw [if_neg (by simp only [List.length_append]; omega), e1, e2, e3, e4]
  simp only [bind, Except.bind, encrypt_eq P hP, pure, Except.pure]
  change (if (pack P.D (eB P E seedA (eSeedSE P E (E.shake (seedA ++ b) P.lenPkh) mu salt)) ++
    pack P.D (eC P E b (eSeedSE P E (E.shake (seedA ++ b) P.lenPkh) mu salt) mu) ++ salt).length ≠ P.lenCt then _ else _) = _
  rw [if_neg (by
    simp only [List.length_append, eB, eC, pack_length _ _ _ _ hP.mbar hP.n hP.d2, pack_length _ _ _ _ hP.mbar hP.nbar hP.d3,
      hsalt, hP.ct]
    simp)]
  simp only [hE]
  rw [if_neg (by simp)]
  rfl

/-- The message recovered from `c1`, `c2` with the secret matrix `f = S^T`. -/
def dMu (P : Params) (f : Nat → Nat → Int) (c1 c2 : Bytes) : Bytes :=
  decode P (tab P.mbar P.nbar (fun i j => (ent (unpack P.D c2 P.mbar P.nbar) i j -
    sumTo P.n (fun k => ent (unpack P.D c1 P.mbar P.n) i k * f j k) % P.q) % P.q))

theorem ctverify_mats (P : Params) (hP : WF P) (E : Env) (c1 c2 seedA b seedSE mu : Bytes) :
    ctverify (unpack P.D c1 P.mbar P.n ++ unpack P.D c2 P.mbar P.nbar) (eB P E seedA seedSE ++ eC P E b seedSE mu) = true ↔
      unpack P.D c1 P.mbar P.n = eB P E seedA seedSE ∧ unpack P.D c2 P.mbar P.nbar = eC P E b seedSE mu := by
  have hq : (P.q : Int) ≠ 0 := by
    rw [hP.q]
    have : 0 < 2 ^ P.D := Nat.pow_pos (by decide)
    omega
  have hl1 : (unpack P.D c1 P.mbar P.n).length = P.mbar := by unfold unpack; exact tab_length _ _ _
  rw [ctverify_eq]
  · constructor
    · intro h
      exact List.append_inj h (by rw [hl1]; unfold eB; rw [tab_length])
    · rintro ⟨h1, h2⟩; rw [h1, h2]
  · rw [List.map_append, List.map_append]
    unfold eB eC unpack
    simp only [tab_shape]
  · intro r hr
    rcases List.mem_append.1 hr with hr | hr
    · rw [unpack_tab] at hr
      exact tab_nonneg _ _ _ (fun i hi j hj => (unpack_range _ _ _ _ _ _ hi hj).1) r hr
    · rw [unpack_tab] at hr
      exact tab_nonneg _ _ _ (fun i hi j hj => (unpack_range _ _ _ _ _ _ hi hj).1) r hr
  · intro r hr
    rcases List.mem_append.1 hr with hr | hr
    · exact tab_nonneg _ _ _ (fun i hi j hj => Int.emod_nonneg _ hq) r hr
    · exact tab_nonneg _ _ _ (fun i hi j hj => Int.emod_nonneg _ hq) r hr

theorem decaps_eq (P : Params) (hP : WF P) (E : Env) (hE : ∀ m n, (E.shake m n).length = n) (s seedA b pkh : Bytes)
    (f : Nat → Nat → Int) (hf : ∀ i j, -32768 ≤ f i j ∧ f i j < 32768) (c1 c2 salt : Bytes)
    (hs : s.length = P.lenS) (hA : seedA.length = P.lenSeedA) (hb : b.length = P.D * P.n * P.nbar / 8)
    (hpkh : pkh.length = P.lenPkh) (h1 : c1.length = P.mbar * P.n * P.D / 8) (h2 : c2.length = P.mbar * P.nbar * P.D / 8)
    (hsalt : salt.length = P.lenSalt) :
    decaps P E (s ++ seedA ++ b ++ serS P.nbar P.n f ++ pkh) (c1 ++ c2 ++ salt) =
      let mu := dMu P f c1 c2
      let seedSE := eSeedSE P E pkh mu salt
      let kbar := ctselect (eK P E pkh mu salt) s (ctverify (unpack P.D c1 P.mbar P.n ++ unpack P.D c2 P.mbar P.nbar)
        (eB P E seedA seedSE ++ eC P E b seedSE mu))
      .ok (E.shake (c1 ++ c2 ++ salt ++ kbar) P.lenSs) := by
  have hS : (serS P.nbar P.n f).length = P.n * P.nbar * 16 / 8 := by
    rw [serS_length _ _ _ hP.n, Nat.mul_comm P.nbar]; omega
  generalize hSS : serS P.nbar P.n f = SS at *
  have hlc : (c1 ++ c2 ++ salt).length = P.lenCt := by simp only [List.length_append, h1, h2, hsalt, hP.ct]
  have hls : (s ++ seedA ++ b ++ SS ++ pkh).length = P.lenSk := by
    simp only [List.length_append, hs, hA, hb, hS, hpkh, hP.sk]
  have c1e : slice (c1 ++ c2 ++ salt) 0 (P.mbar * P.n * P.D / 8) = c1 := by
    rw [List.append_assoc]; exact slice_append_left _ _ _ h1
  have c2e : slice (c1 ++ c2 ++ salt) (P.mbar * P.n * P.D / 8) (P.mbar * P.n * P.D / 8 + P.mbar * P.nbar * P.D / 8) = c2 :=
    slice_mid _ _ _ _ _ h1 (by rw [h2])
  have c3e : slice (c1 ++ c2 ++ salt) (P.mbar * P.n * P.D / 8 + P.mbar * P.nbar * P.D / 8)
      (P.mbar * P.n * P.D / 8 + P.mbar * P.nbar * P.D / 8 + P.lenSalt) = salt := by
    have := slice_mid (c1 ++ c2) salt [] (P.mbar * P.n * P.D / 8 + P.mbar * P.nbar * P.D / 8)
      (P.mbar * P.n * P.D / 8 + P.mbar * P.nbar * P.D / 8 + P.lenSalt) (by rw [List.length_append, h1, h2]) (by rw [hsalt])
    simpa using this
  have s1 : slice (s ++ seedA ++ b ++ SS ++ pkh) 0 P.lenS = s := by
    simp only [List.append_assoc]; exact slice_append_left _ _ _ hs
  have s2 : slice (s ++ seedA ++ b ++ SS ++ pkh) P.lenS (P.lenS + P.lenSeedA) = seedA := by
    have := slice_mid s seedA (b ++ SS ++ pkh) P.lenS (P.lenS + P.lenSeedA) hs (by rw [hA])
    simpa only [List.append_assoc] using this
  have s3 : slice (s ++ seedA ++ b ++ SS ++ pkh) (P.lenS + P.lenSeedA) (P.lenS + P.lenSeedA + P.D * P.n * P.nbar / 8) = b := by
    have := slice_mid (s ++ seedA) b (SS ++ pkh) (P.lenS + P.lenSeedA) (P.lenS + P.lenSeedA + P.D * P.n * P.nbar / 8)
      (by rw [List.length_append, hs, hA]) (by rw [hb])
    simpa only [List.append_assoc] using this
  have s4 : slice (s ++ seedA ++ b ++ SS ++ pkh) (P.lenS + P.lenSeedA + P.D * P.n * P.nbar / 8)
      (P.lenS + P.lenSeedA + P.D * P.n * P.nbar / 8 + P.n * P.nbar * 16 / 8) = SS :=
    slice_mid (s ++ seedA ++ b) SS pkh _ _ (by simp only [List.length_append, hs, hA, hb]) (by rw [hS])
  have s5 : slice (s ++ seedA ++ b ++ SS ++ pkh) (P.lenS + P.lenSeedA + P.D * P.n * P.nbar / 8 + P.n * P.nbar * 16 / 8)
      (P.lenS + P.lenSeedA + P.D * P.n * P.nbar / 8 + P.n * P.nbar * 16 / 8 + P.lenPkh) = pkh := by
    have := slice_mid (s ++ seedA ++ b ++ SS) pkh [] (P.lenS + P.lenSeedA + P.D * P.n * P.nbar / 8 + P.n * P.nbar * 16 / 8)
      (P.lenS + P.lenSeedA + P.D * P.n * P.nbar / 8 + P.n * P.nbar * 16 / 8 + P.lenPkh)
      (by simp only [List.length_append, hs, hA, hb, hS]) (by rw [hpkh])
    simpa using this
  unfold decaps
  dsimp only
  rw [if_neg (by simp only [hlc]; simp), if_neg (by simp only [hls]; simp), c1e, c2e, c3e, s1, s2, s3, s4, s5]
  have hT : tab P.nbar P.n (fun i j => readIntle16 SS (i * P.n + j)) = tab P.nbar P.n f := by
    apply tab_congr
    intro i hi j hj
    rw [← hSS]
    exact serS_read _ _ _ hf _ _ hi hj
  rw [hT, transpose_tab _ _ _ hP.nbar]
  have hm : matMul P.q (unpack P.D c1 P.mbar P.n) (tab P.n P.nbar fun i j => f j i) =
      .ok (tab P.mbar P.nbar (fun i j => sumTo P.n (fun k => ent (unpack P.D c1 P.mbar P.n) i k * f j k) % P.q)) := by
    rw [unpack_tab, matMul_tab _ _ _ _ _ _ hP.mbar hP.n, ← unpack_tab]
  have hsub : matSub P.q (unpack P.D c2 P.mbar P.nbar)
      (tab P.mbar P.nbar (fun i j => sumTo P.n (fun k => ent (unpack P.D c1 P.mbar P.n) i k * f j k) % P.q)) =
      .ok (tab P.mbar P.nbar (fun i j => (ent (unpack P.D c2 P.mbar P.nbar) i j -
        sumTo P.n (fun k => ent (unpack P.D c1 P.mbar P.n) i k * f j k) % P.q) % P.q)) := by
    rw [unpack_tab P.D c2, matSub_tab _ _ _ _ _ hP.mbar, ← unpack_tab P.D c2]
  simp only [bind, Except.bind, hm, hsub, encrypt_eq P hP, pure, Except.pure, hE]
  rw [if_neg (by simp)]
  rfl

end Verif.PQ.Frodo
