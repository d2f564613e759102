import Verif.PQ.FrodoKem

/-!
# Properties of FrodoKEM (`frodokem.py`): C60 - C64

`WF` lists the arithmetic relations between the parameters; it holds for the three parameter sets (`wf640`, `wf976`,
`wf1344`). SHAKE is an arbitrary function with outputs of the requested length, AES-128 an arbitrary function.
-/

namespace Verif.PQ.Frodo

open Verif.CA (Bytes PyErr)
open Verif.PQ.Kem

/-! ## C60: pack and unpack -/

/-- C60: unpacking inverts packing on reduced matrices of any shape. -/
theorem C60_unpack_pack (D n1 n2 : Nat) (C : Mat) (h1 : 0 < n1) (h2 : 0 < n2) (h8 : 8 ∣ n1 * n2 * D)
    (hl : C.length = n1) (hr : ∀ r ∈ C, r.length = n2) (hq : ∀ r ∈ C, ∀ x ∈ r, 0 ≤ x ∧ x < 2 ^ D) :
    unpack D (pack D C) n1 n2 = C := by
  have e := tab_ent C n1 n2 hl hr
  conv => lhs; rw [← e]
  rw [unpack_pack D n1 n2 _ h1 h2 h8]
  conv => rhs; rw [← e]
  apply tab_congr
  intro i hi j hj
  have hi' : i < C.length := by omega
  have hj' : j < C[i].length := by rw [hr _ (List.getElem_mem hi')]; exact hj
  have hx := hq _ (List.getElem_mem hi') _ (List.getElem_mem hj')
  have : ent C i j = C[i][j] := by
    unfold ent
    rw [getD_getElem _ _ _ hi', getD_getElem _ _ _ hj']
  rw [this]
  exact Int.emod_eq_of_lt hx.1 hx.2

/-- C60: packing inverts unpacking, and `pack` has the announced length. -/
theorem C60_pack_unpack (D n1 n2 : Nat) (b : Bytes) (h1 : 0 < n1) (h2 : 0 < n2) (hb : 8 * b.length = n1 * n2 * D) :
    pack D (unpack D b n1 n2) = b ∧
    (∀ i < n1, ∀ j < n2, 0 ≤ ent (unpack D b n1 n2) i j ∧ ent (unpack D b n1 n2) i j < 2 ^ D) :=
  ⟨pack_unpack D n1 n2 b h1 h2 hb, fun _ hi _ hj => unpack_range D b n1 n2 _ _ hi hj⟩

/-- The bit order: the first entry of the matrix occupies the first `D` bits, most significant bit first. -/
example : pack 12 [[0xabc, 0x123], [0, 0xfff]] = [0xab, 0xc1, 0x23, 0x00, 0x0f, 0xff] ∧
    unpack 12 [0xab, 0xc1, 0x23, 0x00, 0x0f, 0xff] 2 2 = [[0xabc, 0x123], [0, 0xfff]] := by decide

/-! ## C61: encode and decode -/

/-- The noise values that the decoder tolerates: modulo `q` in the interval `[-q / 2^(B+1), q / 2^(B+1))`. -/
def Tolerated (P : Params) (e : Int) : Prop :=
  ∃ c : Int, -(P.q : Int) ≤ 2 ^ (P.B + 1) * (e - c * P.q) ∧ 2 ^ (P.B + 1) * (e - c * P.q) < P.q

theorem tolerated_iff (P : Params) (hP : WF P) (e : Int) :
    Tolerated P e ↔ ∃ c : Int, -((2 : Int) ^ (P.D - P.B)) ≤ 2 * (e - c * P.q) ∧ 2 * (e - c * P.q) < 2 ^ (P.D - P.B) := by
  have hqq : (P.q : Int) = 2 ^ (P.D - P.B) * 2 ^ P.B := by
    rw [hP.q, ← Int.pow_add, Nat.sub_add_cancel hP.B]; simp
  have hN : (0 : Int) < 2 ^ P.B := Int.pow_pos (by decide)
  have key : ∀ x : Int, (-(P.q : Int) ≤ 2 ^ (P.B + 1) * x ∧ 2 ^ (P.B + 1) * x < P.q) ↔
      (-((2 : Int) ^ (P.D - P.B)) ≤ 2 * x ∧ 2 * x < 2 ^ (P.D - P.B)) := by
    intro x
    rw [Int.pow_succ, Int.mul_assoc, hqq, Int.mul_comm (2 ^ (P.D - P.B)) (2 ^ P.B), ← Int.mul_neg]
    constructor
    · rintro ⟨h1, h2⟩
      exact ⟨Int.le_of_mul_le_mul_left h1 hN, Int.lt_of_mul_lt_mul_left h2 (by omega)⟩
    · rintro ⟨h1, h2⟩
      exact ⟨Int.mul_le_mul_of_nonneg_left h1 (by omega), Int.mul_lt_mul_of_pos_left h2 hN⟩
  constructor
  · rintro ⟨c, h⟩; exact ⟨c, (key _).1 h⟩
  · rintro ⟨c, h⟩; exact ⟨c, (key _).2 h⟩

/-- C61: with an error matrix `e`, the decoder returns the message exactly when every entry is tolerated. -/
theorem C61_decode_iff (P : Params) (hP : WF P) (m : Bytes) (hm : m.length = P.lenMu) (e : Nat → Nat → Int) :
    decode P (tab P.mbar P.nbar (fun i j => (ent (encode P m) i j + e i j) % P.q)) = m ↔
      ∀ i < P.mbar, ∀ j < P.nbar, Tolerated P (e i j) := by
  rw [decode_tab_iff P _ m hP.nbar (by rw [hm, hP.mu])]
  have key : ∀ i < P.mbar, ∀ j < P.nbar,
      (dc P ((ent (encode P m) i j + e i j) % P.q) = digit P m (i * P.nbar + j) ↔ Tolerated P (e i j)) := by
    intro i hi j hj
    have hlt := digit_lt P m (i * P.nbar + j)
    have e2 : ((2 ^ P.B : Nat) : Int) = 2 ^ P.B := by simp
    rw [encode_tab, ent_tab _ _ _ _ _ hi hj,
      dc_ec_iff P hP.q hP.B (digit P m (i * P.nbar + j)) (e i j) (by omega) (by omega), tolerated_iff P hP]
  constructor
  · intro h i hi j hj; exact (key i hi j hj).1 (h i hi j hj)
  · intro h i hi j hj; exact (key i hi j hj).2 (h i hi j hj)

/-- C61: decoding inverts encoding. -/
theorem C61_decode_encode (P : Params) (hP : WF P) (m : Bytes) (hm : m.length = P.lenMu) :
    decode P (encode P m) = m := by
  rw [encode_tab, decode_tab_iff P _ m hP.nbar (by rw [hm, hP.mu])]
  intro i _ j _
  have hlt := digit_lt P m (i * P.nbar + j)
  have e2 : ((2 ^ P.B : Nat) : Int) = 2 ^ P.B := by simp
  have hQ : P.q / 2 ^ P.B = 2 ^ (P.D - P.B) := by rw [hP.q]; exact Nat.pow_div hP.B (by decide)
  have hqq : P.q = 2 ^ P.B * 2 ^ (P.D - P.B) := by rw [hP.q, ← Nat.pow_add, Nat.add_sub_cancel' hP.B]
  have hq : digit P m (i * P.nbar + j) * (P.q / 2 ^ P.B) < P.q := by
    rw [hQ]
    conv => rhs; rw [hqq]
    exact Nat.mul_lt_mul_of_pos_right hlt (Nat.pow_pos (by decide))
  have h := (dc_ec_iff P hP.q hP.B (digit P m (i * P.nbar + j)) 0 (by omega) (by omega)).2
    ⟨0, by have : (0 : Int) < 2 ^ (P.D - P.B) := Int.pow_pos (by decide); simp; omega,
      by have : (0 : Int) < 2 ^ (P.D - P.B) := Int.pow_pos (by decide); simp; omega⟩
  rw [Int.add_zero, ← Int.natCast_mul, ← Int.natCast_emod, Nat.mod_eq_of_lt hq] at h
  rw [← Int.natCast_mul]
  exact h

/-- FrodoKEM-640: the noise -4096 is decoded correctly, +4096 is not. -/
example : Tolerated p640 (-4096) ∧ Tolerated p640 4095 ∧ ¬ Tolerated p640 4096 := by
  refine ⟨⟨0, by decide, by decide⟩, ⟨0, by decide, by decide⟩, ?_⟩
  rintro ⟨c, h1, h2⟩
  have e1 : ((p640.q : Nat) : Int) = 32768 := rfl
  have e2 : (2 : Int) ^ (p640.B + 1) = 8 := rfl
  rw [e1, e2] at h1 h2
  omega

/-! ## C63: constant-time helpers -/

/-- C63: `__ctverify` is equality of matrices of the same shape with non-negative entries. -/
theorem C63_ctverify (a b : Mat) (hs : a.map List.length = b.map List.length)
    (ha : ∀ r ∈ a, ∀ x ∈ r, 0 ≤ x) (hb : ∀ r ∈ b, ∀ x ∈ r, 0 ≤ x) : ctverify a b = decide (a = b) := by
  have h := ctverify_eq a b hs ha hb
  by_cases hab : a = b
  · rw [decide_eq_true hab]; exact h.2 hab
  · rw [decide_eq_false hab]
    cases hc : ctverify a b
    · rfl
    · exact absurd (h.1 hc) hab

/-- C63: `__ctselect` returns its first argument for `True` and the second one for `False`. -/
theorem C63_ctselect (a b : Bytes) (h : a.length = b.length) (sel : Bool) :
    ctselect a b sel = if sel then a else b := by
  cases sel
  · exact ctselect_false a b h
  · exact ctselect_true a b

example : ctverify [[1, 2], [3]] [[1, 2], [3]] = true ∧ ctverify [[1, 2], [3]] [[1, 2], [7]] = false ∧
    ctselect [0xa5, 0x0f] [0x5a, 0xf0] true = [0xa5, 0x0f] ∧ ctselect [0xa5, 0x0f] [0x5a, 0xf0] false = [0x5a, 0xf0] := by
  decide

/-! ## C64: sampling -/

/-- C64: the absolute value of a sample is below the number of table entries. -/
theorem C64_bound (T : List Int) (r : Nat) : (sample T r).natAbs ≤ T.length - 1 := by
  have := sample_bound T r
  omega

theorem count_mono (p p' : Nat → Prop) [DecidablePred p] [DecidablePred p'] (h : ∀ z, p z → p' z) (n : Nat) :
    (List.range n).foldl (fun (e : Int) z => if p z then e + 1 else e) 0 ≤
      (List.range n).foldl (fun (e : Int) z => if p' z then e + 1 else e) 0 := by
  induction n with
  | zero => simp
  | succ n ih =>
    rw [List.range_succ, List.foldl_append, List.foldl_append]
    simp only [List.foldl_cons, List.foldl_nil]
    by_cases hp : p n
    · rw [if_pos hp, if_pos (h n hp)]; omega
    · rw [if_neg hp]; split <;> omega

theorem sample_abs (T : List Int) (r : Nat) :
    ((sample T r).natAbs : Int) =
      (List.range (T.length - 1)).foldl (fun (e : Int) z => if ((r / 2 : Nat) : Int) > T.getD z 0 then e + 1 else e) 0 := by
  have h := count_bounds (fun z => ((r / 2 : Nat) : Int) > T.getD z 0) (T.length - 1)
  unfold sample
  dsimp only at h ⊢
  generalize (List.range (T.length - 1)).foldl (fun (e : Int) z => if ((r / 2 : Nat) : Int) > T.getD z 0 then e + 1 else e) 0 = e at h ⊢
  rcases Nat.mod_two_eq_zero_or_one r with h2 | h2 <;> rw [h2]
  · rw [Int.pow_zero, Int.one_mul]; omega
  · rw [Int.pow_one]; omega

/-- C64: the absolute value grows with the upper 15 bits; the lowest bit only decides the sign. -/
theorem C64_monotone (T : List Int) (r r' : Nat) (h : r / 2 ≤ r' / 2) : (sample T r).natAbs ≤ (sample T r').natAbs := by
  have h1 := sample_abs T r
  have h2 := sample_abs T r'
  have h3 := count_mono (fun z => ((r / 2 : Nat) : Int) > T.getD z 0) (fun z => ((r' / 2 : Nat) : Int) > T.getD z 0)
    (fun z hz => by omega) (T.length - 1)
  omega

/-- `chi(0)/2 + chi(1) + ... + chi(z)`: the number of 15-bit values that give a sample of absolute value at most `z`. -/
def cum (chi : List Nat) : Nat → Nat
  | 0 => chi.getD 0 0 / 2
  | z + 1 => cum chi z + chi.getD (z + 1) 0

theorem cdf_getD (chi : List Nat) (z : Nat) (hz : z < chi.length) : (cdf chi).getD z 0 = (cum chi z : Int) - 1 := by
  have key : ∀ z < chi.length, cum chi z = chi.getD 0 0 / 2 + ((chi.take (z + 1)).drop 1).sum := by
    intro z
    induction z with
    | zero => intro h; simp [cum]
    | succ z ih =>
      intro h
      have e : (chi.take (z + 1 + 1)).drop 1 = (chi.take (z + 1)).drop 1 ++ [chi[z + 1]] := by
        rw [List.take_succ_eq_append_getElem h, List.drop_append_of_le_length (by simp; omega)]
      rw [cum, ih (by omega), e, List.sum_append, getD_getElem _ _ _ h]
      simp
      omega
  have h := key z hz
  unfold cdf
  rw [getD_getElem _ _ _ (by simp; exact hz)]
  simp only [List.getElem_map, List.getElem_range]
  split
  · rename_i h0; subst h0; simp [cum]
  · rw [h]; omega

theorem cum_mono (chi : List Nat) (a b : Nat) (h : a ≤ b) : cum chi a ≤ cum chi b := by
  induction b with
  | zero => have : a = 0 := by omega
            subst this; exact Nat.le_refl _
  | succ b ih =>
    by_cases hab : a = b + 1
    · subst hab; exact Nat.le_refl _
    · have := ih (by omega)
      rw [show cum chi (b + 1) = cum chi b + chi.getD (b + 1) 0 from rfl]
      omega

theorem count_prefix (p : Nat → Prop) [DecidablePred p] (n c : Nat) (hc : c ≤ n) (h : ∀ z < n, p z ↔ z < c) :
    (List.range n).foldl (fun (e : Int) z => if p z then e + 1 else e) 0 = c := by
  have key : ∀ m ≤ n, (List.range m).foldl (fun (e : Int) z => if p z then e + 1 else e) 0 = (min m c : Nat) := by
    intro m
    induction m with
    | zero => simp
    | succ m ih =>
      intro hm
      rw [List.range_succ, List.foldl_append]
      simp only [List.foldl_cons, List.foldl_nil]
      rw [ih (by omega)]
      have := h m (by omega)
      by_cases hp : p m
      · rw [if_pos hp]; have := this.1 hp; omega
      · rw [if_neg hp]
        have : ¬ m < c := fun hx => hp (this.2 hx)
        omega
  rw [key n (Nat.le_refl _)]
  omega

/-- C64: the samples follow the distribution table. The absolute value is `z` exactly when the upper 15 bits lie in the
`z`-th interval of the cumulative distribution (the last interval is open above), and bit 0 is the sign. -/
theorem C64_distribution (chi : List Nat) (z r : Nat) (hz : z < chi.length)
    (h1 : z = 0 ∨ cum chi (z - 1) ≤ r / 2) (h2 : z = chi.length - 1 ∨ r / 2 < cum chi z) :
    sample (cdf chi) r = (-1) ^ (r % 2) * (z : Int) := by
  unfold sample
  dsimp only
  rw [cdf_length]
  rw [count_prefix (fun x => ((r / 2 : Nat) : Int) > (cdf chi).getD x 0) (chi.length - 1) z (by omega)]
  intro x hx
  rw [cdf_getD _ _ (by omega)]
  constructor
  · intro hgt
    rcases h2 with h2 | h2
    · omega
    · by_cases hxz : x < z
      · exact hxz
      · have := cum_mono chi z x (by omega)
        omega
  · intro hxz
    rcases h1 with h1 | h1
    · omega
    · have := cum_mono chi x (z - 1) (by omega)
      omega

/-- The three tables: the cumulative distribution ends at 2^15. -/
theorem C64_tables : ∀ P, P = p640 ∨ P = p976 ∨ P = p1344 → cum P.chi (P.chi.length - 1) = 2 ^ 15 := by
  rintro P (rfl | rfl | rfl) <;> decide

example : sample (cdf p640.chi) 9287 = 0 ∧ sample (cdf p640.chi) 9288 = 1 ∧ sample (cdf p640.chi) 9289 = -1 ∧
    sample (cdf p640.chi) 65535 = -12 := by decide

/-! ## C62: the shared secrets agree -/

/-- The accumulated noise `S'E + E'' - E'S` at `(i, j)`. `S^T` and `E` are the samples number `0 ..` and `n*nbar ..` of the
stream `kr`; `S'`, `E'` and `E''` those number `0 ..`, `mbar*n ..` and `2*mbar*n ..` of the stream `er`. -/
def noise (P : Params) (kr er : Bytes) (i j : Nat) : Int :=
  let χ (rb : Bytes) (k : Nat) : Int := sample (cdf P.chi) (u16 rb k)
  sumTo P.n (fun k => χ er (i * P.n + k) * χ kr (P.n * P.nbar + (k * P.nbar + j)))
    + χ er (2 * P.mbar * P.n + (i * P.nbar + j))
    - sumTo P.n (fun k => χ er (P.mbar * P.n + (i * P.n + k)) * χ kr (j * P.n + k))

theorem chiAt_range (P : Params) (hP : WF P) (rb : Bytes) (k : Nat) : -32768 ≤ chiAt P rb k ∧ chiAt P rb k < 32768 := by
  have h := sample_bound (cdf P.chi) (u16 rb k)
  rw [cdf_length] at h
  have := hP.chi
  unfold chiAt
  omega

/-- The message recovered by `kem_decaps` from the matrices of `kem_encaps`. -/
theorem dMu_iff (P : Params) (hP : WF P) (E : Env) (seed seedSE mu : Bytes) (hmu : mu.length = P.lenMu) :
    dMu P (fun i j => chiAt P (kRb P E seed) (i * P.n + j)) (pack P.D (eB P E (kSeedA P E seed) seedSE))
        (pack P.D (eC P E (kb P E seed) seedSE mu)) = mu ↔
      ∀ i < P.mbar, ∀ j < P.nbar, Tolerated P (noise P (kRb P E seed) (encStream P E seedSE) i j) := by
  rw [← C61_decode_iff P hP mu hmu]
  have hq2 : (P.q : Int) = 2 ^ P.D := by rw [hP.q]; simp
  have e : ∀ (a : Int), a % P.q % 2 ^ P.D = a % P.q := by intro a; rw [← hq2, Int.emod_emod]
  have hM : tab P.mbar P.nbar (fun i j => (ent (unpack P.D (pack P.D (eC P E (kb P E seed) seedSE mu)) P.mbar P.nbar) i j -
      sumTo P.n (fun k => ent (unpack P.D (pack P.D (eB P E (kSeedA P E seed) seedSE)) P.mbar P.n) i k *
        chiAt P (kRb P E seed) (j * P.n + k)) % P.q) % P.q) =
      tab P.mbar P.nbar (fun i j => (ent (encode P mu) i j + noise P (kRb P E seed) (encStream P E seedSE) i j) % P.q) := by
    apply tab_congr
    intro i hi j hj
    apply Cg.emod_eq
    rw [encode_tab, ent_tab _ _ _ _ _ hi hj]
    have h := noise_equation P.q P.n (genEnt P E (kSeedA P E seed)) (fun k => chiAt P (encStream P E seedSE) (i * P.n + k))
      (fun k => chiAt P (encStream P E seedSE) (P.mbar * P.n + (i * P.n + k)))
      (fun l => chiAt P (kRb P E seed) (j * P.n + l)) (fun k => chiAt P (kRb P E seed) (P.n * P.nbar + (k * P.nbar + j)))
      (chiAt P (encStream P E seedSE) (2 * P.mbar * P.n + (i * P.nbar + j)))
      ((digit P mu (i * P.nbar + j) : Int) * (P.q / 2 ^ P.B : Nat))
    have hc : ent (unpack P.D (pack P.D (eC P E (kb P E seed) seedSE mu)) P.mbar P.nbar) i j =
        ((((sumTo P.n (fun k => chiAt P (encStream P E seedSE) (i * P.n + k) *
          ((sumTo P.n (fun l => genEnt P E (kSeedA P E seed) k l * chiAt P (kRb P E seed) (j * P.n + l)) % P.q +
            chiAt P (kRb P E seed) (P.n * P.nbar + (k * P.nbar + j))) % P.q))) % P.q +
          chiAt P (encStream P E seedSE) (2 * P.mbar * P.n + (i * P.nbar + j))) % P.q +
          ((digit P mu (i * P.nbar + j) : Int) * (P.q / 2 ^ P.B : Nat))) % P.q) := by
      unfold eC
      rw [unpack_pack _ _ _ _ hP.mbar hP.nbar hP.d3, ent_tab _ _ _ _ _ hi hj]
      unfold encC
      rw [e]
      congr 3
      congr 2
      apply sumTo_congr
      intro k hk
      congr 1
      unfold kb
      rw [unpack_pack _ _ _ _ hP.n hP.nbar hP.d1, ent_tab _ _ _ _ _ hk hj]
      unfold keyB
      rw [e]
    have hb : sumTo P.n (fun k => ent (unpack P.D (pack P.D (eB P E (kSeedA P E seed) seedSE)) P.mbar P.n) i k *
        chiAt P (kRb P E seed) (j * P.n + k)) =
        sumTo P.n (fun k => ((sumTo P.n (fun l => chiAt P (encStream P E seedSE) (i * P.n + l) *
          genEnt P E (kSeedA P E seed) l k) % P.q + chiAt P (encStream P E seedSE) (P.mbar * P.n + (i * P.n + k))) % P.q) *
          chiAt P (kRb P E seed) (j * P.n + k)) := by
      apply sumTo_congr
      intro k hk
      congr 1
      unfold eB
      rw [unpack_pack _ _ _ _ hP.mbar hP.n hP.d2, ent_tab _ _ _ _ _ hi hk]
      unfold encB
      rw [e]
    rw [hc, hb]
    exact h
  unfold dMu
  rw [hM]

/-- C62: key generation and encapsulation terminate normally (no assertion fails) for all seeds of the right length. -/
theorem C62_completes (P : Params) (hP : WF P) (E : Env) (hE : ∀ m n, (E.shake m n).length = n) (seed muSalt : Bytes)
    (hs : seed.length = P.lenS + P.lenSeedSE + P.lenZ) (hm : muSalt.length = P.lenMu + P.lenSalt) :
    ∃ pk sk ct ss, keygen P E seed = .ok (pk, sk) ∧ encaps P E pk muSalt = .ok (ct, ss) ∧
      pk.length = P.lenPk ∧ sk.length = P.lenSk ∧ ct.length = P.lenCt ∧ ss.length = P.lenSs := by
  have hk := keygen_eq P hP E hE seed hs
  have hb := kb_length P hP E seed
  have hA : (kSeedA P E seed).length = P.lenSeedA := by unfold kSeedA; rw [hE]
  have hS : (kS P seed).length = P.lenS := by unfold kS; rw [slice_length _ _ _ (by omega)]; omega
  have hd : 8 ∣ P.D * P.n * P.nbar := by
    have := hP.d1
    rwa [Nat.mul_comm (P.n * P.nbar), ← Nat.mul_assoc] at this
  have he := encaps_eq P hP E hE (kSeedA P E seed) (kb P E seed) (muSalt.take P.lenMu) (muSalt.drop P.lenMu) hA hb
    (by simp; omega) (by simp; omega)
  rw [List.take_append_drop] at he
  refine ⟨_, _, _, _, hk, he, ?_, ?_, ?_, hE _ _⟩
  · have := hP.pk
    rw [List.length_append, hA, hb]
    omega
  · simp only [List.length_append, hA, hb, hS, kSt_length P hP, hE, hP.sk]
  · simp only [List.length_append, eB, eC, pack_length _ _ _ _ hP.mbar hP.n hP.d2,
      pack_length _ _ _ _ hP.mbar hP.nbar hP.d3, hP.ct, List.length_drop, hm]
    omega

/-- C62: the shared secrets agree whenever the accumulated noise is tolerated by the decoder. -/
theorem C62_agreement (P : Params) (hP : WF P) (E : Env) (hE : ∀ m n, (E.shake m n).length = n) (seed mu salt : Bytes)
    (hs : seed.length = P.lenS + P.lenSeedSE + P.lenZ) (hmu : mu.length = P.lenMu) (hsalt : salt.length = P.lenSalt)
    (pk sk ct ss : Bytes) (hk : keygen P E seed = .ok (pk, sk)) (he : encaps P E pk (mu ++ salt) = .ok (ct, ss))
    (hn : ∀ i < P.mbar, ∀ j < P.nbar, Tolerated P (noise P
      (E.shake (0x5f :: (seed.drop P.lenS).take P.lenSeedSE) (4 * P.n * P.nbar))
      (E.shake (0x96 :: (E.shake (E.shake pk P.lenPkh ++ mu ++ salt) (P.lenSeedSE + P.lenK)).take P.lenSeedSE)
        (2 * (2 * P.mbar * P.n + P.mbar * P.mbar))) i j)) :
    decaps P E sk ct = .ok ss := by
  rw [keygen_eq P hP E hE seed hs] at hk
  simp only [Except.ok.injEq, Prod.mk.injEq] at hk
  obtain ⟨rfl, rfl⟩ := hk
  have hb := kb_length P hP E seed
  have hA : (kSeedA P E seed).length = P.lenSeedA := by unfold kSeedA; rw [hE]
  have hS : (kS P seed).length = P.lenS := by unfold kS; rw [slice_length _ _ _ (by omega)]; omega
  rw [encaps_eq P hP E hE _ _ _ _ hA hb hmu hsalt] at he
  simp only [Except.ok.injEq, Prod.mk.injEq] at he
  obtain ⟨rfl, rfl⟩ := he
  generalize hpkh : E.shake (kSeedA P E seed ++ kb P E seed) P.lenPkh = pkh at *
  have hpl : pkh.length = P.lenPkh := by rw [← hpkh, hE]
  unfold kSt
  rw [decaps_eq P hP E hE _ _ _ _ _ (fun i j => chiAt_range P hP _ _) _ _ _ hS hA hb hpl
    (by unfold eB; rw [pack_length _ _ _ _ hP.mbar hP.n hP.d2]) (by unfold eC; rw [pack_length _ _ _ _ hP.mbar hP.nbar hP.d3]) hsalt]
  have a1 : slice (E.shake (pkh ++ mu ++ salt) (P.lenSeedSE + P.lenK)) 0 P.lenSeedSE =
      (E.shake (pkh ++ mu ++ salt) (P.lenSeedSE + P.lenK)).take P.lenSeedSE := by unfold slice; simp
  have a2 : slice seed P.lenS (P.lenS + P.lenSeedSE) = (seed.drop P.lenS).take P.lenSeedSE := by
    unfold slice; rw [Nat.add_sub_cancel_left]
  have a3 : 2 * P.n * P.nbar * 2 = 4 * P.n * P.nbar := by
    rw [Nat.mul_comm _ 2, Nat.mul_assoc 2, Nat.mul_assoc 4]; omega
  have hmu' := (dMu_iff P hP E seed (eSeedSE P E pkh mu salt) mu hmu).2 (by
    unfold kRb keyStream encStream eSeedSE
    rw [a1, a2, a3, Nat.mul_comm (2 * P.mbar * P.n + P.mbar * P.mbar) 2]
    exact hn)
  dsimp only
  rw [hmu']
  have hq2 : (P.q : Int) = 2 ^ P.D := by rw [hP.q]; simp
  have e : ∀ (a : Int), a % P.q % 2 ^ P.D = a % P.q := by intro a; rw [← hq2, Int.emod_emod]
  have hv := (ctverify_mats P hP E (pack P.D (eB P E (kSeedA P E seed) (eSeedSE P E pkh mu salt)))
    (pack P.D (eC P E (kb P E seed) (eSeedSE P E pkh mu salt) mu)) (kSeedA P E seed) (kb P E seed) (eSeedSE P E pkh mu salt) mu).2 (by
      constructor
      · unfold eB
        rw [unpack_pack _ _ _ _ hP.mbar hP.n hP.d2]
        apply tab_congr
        intro i _ j _
        unfold encB
        rw [e]
      · unfold eC
        rw [unpack_pack _ _ _ _ hP.mbar hP.nbar hP.d3]
        apply tab_congr
        intro i _ j _
        unfold encC
        rw [e])
  rw [hv, ctselect_true]

/-- C62: implicit rejection. For a ciphertext of the right length, decapsulation returns either the secret of an
encapsulation that produces exactly this ciphertext, or the hash of the ciphertext and the secret value `s`. -/
theorem C62_implicit_rejection (P : Params) (hP : WF P) (E : Env) (hE : ∀ m n, (E.shake m n).length = n)
    (seed ct : Bytes) (hs : seed.length = P.lenS + P.lenSeedSE + P.lenZ) (hct : ct.length = P.lenCt)
    (pk sk : Bytes) (hk : keygen P E seed = .ok (pk, sk)) :
    (∃ mu ss, mu.length = P.lenMu ∧
      encaps P E pk (mu ++ ct.drop (P.mbar * P.n * P.D / 8 + P.mbar * P.nbar * P.D / 8)) = .ok (ct, ss) ∧
      decaps P E sk ct = .ok ss) ∨
    decaps P E sk ct = .ok (E.shake (ct ++ seed.take P.lenS) P.lenSs) := by
  rw [keygen_eq P hP E hE seed hs] at hk
  simp only [Except.ok.injEq, Prod.mk.injEq] at hk
  obtain ⟨rfl, rfl⟩ := hk
  have hb := kb_length P hP E seed
  have hA : (kSeedA P E seed).length = P.lenSeedA := by unfold kSeedA; rw [hE]
  have hS : (kS P seed).length = P.lenS := by unfold kS; rw [slice_length _ _ _ (by omega)]; omega
  have hSe : kS P seed = seed.take P.lenS := by unfold kS slice; simp
  generalize hl1 : P.mbar * P.n * P.D / 8 = l1
  generalize hl2 : P.mbar * P.nbar * P.D / 8 = l2
  have hlc : ct.length = l1 + l2 + P.lenSalt := by rw [hct, hP.ct, hl1, hl2]
  have hsplit : ct = ct.take l1 ++ (ct.drop l1).take l2 ++ ct.drop (l1 + l2) := by
    rw [List.append_assoc, ← List.drop_drop, List.take_append_drop, List.take_append_drop]
  have k1 : (ct.take l1).length = l1 := by simp; omega
  have k2 : ((ct.drop l1).take l2).length = l2 := by simp; omega
  have k3 : (ct.drop (l1 + l2)).length = P.lenSalt := by simp; omega
  generalize ct.take l1 = c1 at *
  generalize (ct.drop l1).take l2 = c2 at *
  generalize ct.drop (l1 + l2) = salt at *
  subst hsplit
  generalize hpkh : E.shake (kSeedA P E seed ++ kb P E seed) P.lenPkh = pkh
  have hpl : pkh.length = P.lenPkh := by rw [← hpkh, hE]
  unfold kSt
  rw [decaps_eq P hP E hE _ _ _ _ _ (fun i j => chiAt_range P hP _ _) _ _ _ hS hA hb hpl (by rw [k1, hl1]) (by rw [k2, hl2]) k3]
  dsimp only
  generalize hmu : dMu P (fun i j => chiAt P (kRb P E seed) (i * P.n + j)) c1 c2 = mu
  have hmul : mu.length = P.lenMu := by
    rw [← hmu]
    unfold dMu decode
    apply bitsToBytes_length
    rw [hP.mu, flatMap_length _ (P.nbar * P.B) (fun i => by
      rw [flatMap_length _ P.B (fun j => natBits_length _ _)]), Nat.mul_assoc]
  have hkl : (eK P E pkh mu salt).length = (kS P seed).length := by
    unfold eK
    rw [slice_length _ _ _ (by rw [hE]; exact Nat.le_refl _), hS, ← hP.kS]
    omega
  by_cases hv : ctverify (unpack P.D c1 P.mbar P.n ++ unpack P.D c2 P.mbar P.nbar)
      (eB P E (kSeedA P E seed) (eSeedSE P E pkh mu salt) ++ eC P E (kb P E seed) (eSeedSE P E pkh mu salt) mu) = true
  · left
    have hvv := (ctverify_mats P hP E _ _ _ _ _ _).1 hv
    rw [hv, ctselect_true]
    refine ⟨mu, _, hmul, ?_, rfl⟩
    rw [encaps_eq P hP E hE _ _ _ _ hA hb hmul k3, hpkh]
    dsimp only
    have x1 : 8 * c1.length = P.mbar * P.n * P.D := by rw [k1, ← hl1]; exact Nat.mul_div_cancel' hP.d2
    have x2 : 8 * c2.length = P.mbar * P.nbar * P.D := by rw [k2, ← hl2]; exact Nat.mul_div_cancel' hP.d3
    rw [← hvv.1, ← hvv.2, pack_unpack _ _ _ _ hP.mbar hP.n x1, pack_unpack _ _ _ _ hP.mbar hP.nbar x2]
  · right
    rw [Bool.not_eq_true] at hv
    rw [hv, ctselect_false _ _ hkl, hSe]

/-- A small parameter set with `n = 1`. -/
def toy : Params where
  chi := [40000, 10000, 2768]
  D := 8
  q := 256
  n := 1
  nbar := 2
  mbar := 2
  B := 2
  lenSeedA := 1
  lenZ := 1
  lenMu := 1
  lenSeedSE := 1
  lenSalt := 1
  lenS := 1
  lenK := 1
  lenPkh := 1
  lenSk := 9
  lenPk := 3
  lenCt := 7
  lenSs := 2

def toyShake (m : Bytes) (n : Nat) : Bytes :=
  (List.range n).map (fun i => UInt8.ofNat (m.foldl (fun a x => 31 * a + x.toNat) 7 * (2 * i + 1) + 53 * i * i))

def toyEnv : Env := ⟨toyShake, toyShake, fun k m => toyShake (k ++ m) 16, false⟩

example : WF toy := by constructor <;> decide

/-- The small instance: the secrets agree, and a changed ciphertext gives the rejection secret. -/
example : ∃ pk sk ct ss, keygen toy toyEnv [9, 200, 3] = .ok (pk, sk) ∧ encaps toy toyEnv pk [0xb4, 17] = .ok (ct, ss) ∧
    decaps toy toyEnv sk ct = .ok ss ∧
    decaps toy toyEnv sk (ct.set 0 (ct.getD 0 0 + 1)) = .ok (toyShake (ct.set 0 (ct.getD 0 0 + 1) ++ [9]) 2) ∧
    toyShake (ct.set 0 (ct.getD 0 0 + 1) ++ [9]) 2 ≠ ss := by
  refine ⟨_, _, _, _, rfl, rfl, ?_, ?_, ?_⟩ <;> decide

end Verif.PQ.Frodo
