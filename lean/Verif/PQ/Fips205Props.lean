import Verif.PQ.Fips205Sign

/-!
# Properties of SLH-DSA (C50 to C55)
-/

namespace Verif.PQ.Slh

open Verif.CA (Bytes PyErr)

/-! ## C50: conversions -/

/-- C50: `to_byte` then `to_int` is the identity below `256^n`. -/
theorem C50_int_of_byte (x n : Nat) (h : x < 256 ^ n) : toInt (toByte x n) n = .ok x := by
  rw [toInt_ok _ _ (by rw [toByte_length]; exact Nat.le_refl _), List.take_of_length_le (by rw [toByte_length]; exact Nat.le_refl _),
    val_toByte, Nat.mod_eq_of_lt h]

/-- C50: `to_int` then `to_byte` is the identity on byte strings. -/
theorem C50_byte_of_int (b : Bytes) : ∃ x, toInt b b.length = .ok x ∧ x < 256 ^ b.length ∧ toByte x b.length = b := by
  refine ⟨val b, ?_, val_lt b, toByte_val b⟩
  rw [toInt_ok _ _ (Nat.le_refl _), List.take_of_length_le (Nat.le_refl _)]

/-- C50: `base_2b` yields `outLen` digits below `2^b` whose big-endian value is the leading `b * outLen` bits of the input. -/
theorem C50_digits (s : Bytes) (b outLen : Nat) (h : b * outLen ≤ 8 * s.length) :
    ∃ ds, base2b s b outLen = .ok ds ∧ ds.length = outLen ∧ (∀ x ∈ ds, x < 2 ^ b) ∧
      digitsVal b ds = val s / 2 ^ (8 * s.length - b * outLen) := by
  refine ⟨_, base2b_spec s b outLen h, by simp, ?_, ?_⟩
  · intro x hx
    obtain ⟨j, _, rfl⟩ := List.mem_map.1 hx
    exact digit_lt _ _ _ _
  · rw [digitsVal_digits _ _ _ _ h]
    apply Nat.mod_eq_of_lt
    apply Nat.div_lt_of_lt_mul
    rw [← Nat.pow_add, Nat.sub_add_cancel h, ← pow256]
    exact val_lt s

theorem digitsVal_cons (b : Nat) (l : List Nat) (x : Nat) : digitsVal b (x :: l) = x * 2 ^ (b * l.length) + digitsVal b l := by
  have key : ∀ (l : List Nat) (t : Nat), l.foldl (fun t d => t * 2 ^ b + d) t = t * 2 ^ (b * l.length) + digitsVal b l := by
    intro l
    induction l with
    | nil => intro t; simp [digitsVal]
    | cons y l ih =>
      intro t
      have e : digitsVal b (y :: l) = (0 * 2 ^ b + y) * 2 ^ (b * l.length) + digitsVal b l := ih _
      rw [e, List.foldl_cons, ih, List.length_cons, Nat.mul_succ, Nat.pow_add, Nat.zero_mul, Nat.zero_add,
        Nat.add_mul, Nat.mul_assoc, Nat.mul_comm (2 ^ b), Nat.add_assoc]
  show l.foldl _ (0 * 2 ^ b + x) = _
  rw [key, Nat.zero_mul, Nat.zero_add]

theorem digitsVal_lt (b : Nat) (l : List Nat) (h : ∀ x ∈ l, x < 2 ^ b) : digitsVal b l < 2 ^ (b * l.length) := by
  induction l with
  | nil => simp [digitsVal]
  | cons x l ih =>
    have h1 := ih (fun y hy => h y (List.mem_cons_of_mem _ hy))
    have h2 := h x List.mem_cons_self
    rw [digitsVal_cons, List.length_cons, Nat.mul_succ, Nat.pow_add, Nat.mul_comm (2 ^ _)]
    have : (x + 1) * 2 ^ (b * l.length) ≤ 2 ^ b * 2 ^ (b * l.length) := Nat.mul_le_mul_right _ h2
    rw [Nat.succ_mul] at this
    omega

/-- C50: digits below `2^b` are determined by their value, so `C50_digits` describes the output of `base_2b` completely. -/
theorem C50_digits_unique (b : Nat) : ∀ (l l' : List Nat), l.length = l'.length → (∀ x ∈ l, x < 2 ^ b) → (∀ x ∈ l', x < 2 ^ b) →
    digitsVal b l = digitsVal b l' → l = l'
  | [], [], _, _, _, _ => rfl
  | x :: l, y :: l', hl, hx, hy, h => by
    have hl' : l.length = l'.length := by simpa using hl
    have h1 := digitsVal_lt b l (fun z hz => hx z (List.mem_cons_of_mem _ hz))
    have h2 := digitsVal_lt b l' (fun z hz => hy z (List.mem_cons_of_mem _ hz))
    rw [digitsVal_cons, digitsVal_cons, ← hl'] at h
    rw [← hl'] at h2
    have hp : 0 < 2 ^ (b * l.length) := Nat.two_pow_pos _
    have e : x = y := by
      have := congrArg (· / 2 ^ (b * l.length)) h
      simp only [Nat.mul_comm _ (2 ^ (b * l.length)), Nat.mul_add_div hp, Nat.div_eq_of_lt h1, Nat.div_eq_of_lt h2, Nat.add_zero] at this
      exact this
    subst e
    rw [C50_digits_unique b l l' hl' (fun z hz => hx z (List.mem_cons_of_mem _ hz)) (fun z hz => hy z (List.mem_cons_of_mem _ hz)) (by omega)]

example : base2b [0x12, 0x34] 4 4 = .ok [1, 2, 3, 4] ∧ base2b [0xAB, 0xCD, 0xEF] 6 3 = .ok [0x2A, 0x3C, 0x37] ∧ toByte 0x1234 2 = [0x12, 0x34] ∧
    toInt [0x12, 0x34] 2 = .ok 0x1234 ∧ base2b [0x12] 4 3 = .error .indexError := by decide

/-! ## C51: addresses -/

theorem splice_get (a : Adrs) (i : Nat) (v : Bytes) (h : i + v.length ≤ a.length) :
    (splice a i v).length = a.length ∧ slice (splice a i v) i (i + v.length) = v ∧
      ∀ j, j < i ∨ i + v.length ≤ j → (splice a i v)[j]? = a[j]? := by
  have hti : (a.take i).length = i := by rw [List.length_take]; omega
  unfold splice
  refine ⟨by simp; omega, ?_, ?_⟩
  · rw [List.append_assoc]
    exact slice_mid _ _ _ _ _ hti (by rw [hti])
  · intro j hj
    rcases hj with hj | hj
    · rw [List.append_assoc, List.getElem?_append_left (by omega), List.getElem?_take]
      simp [hj]
    · rw [List.getElem?_append_right (by simp; omega), List.getElem?_drop]
      congr 1
      simp; omega

/-- C51: what a setter does to an address: it succeeds exactly for values that fit, stores the value and leaves every other byte. -/
def SetsOnly (set : Adrs → Nat → Except PyErr Adrs) (off n : Nat) : Prop :=
  ∀ (a : Adrs) (x : Nat), a.length = 32 →
    (x < 256 ^ n → ∃ a', set a x = .ok a' ∧ a'.length = 32 ∧ val (slice a' off (off + n)) = x ∧
      ∀ j, j < off ∨ off + n ≤ j → a'[j]? = a[j]?) ∧
    (¬ x < 256 ^ n → set a x = .error .overflowError)

theorem setField_only (off n : Nat) (h : off + n ≤ 32) : SetsOnly (fun a x => setField a off n x) off n := by
  intro a x ha
  refine ⟨fun hx => ?_, fun hx => by simp only [setField, if_neg hx]⟩
  have := splice_get a off (toByte x n) (by rw [toByte_length]; omega)
  rw [toByte_length] at this
  obtain ⟨h1, h2, h3⟩ := this
  refine ⟨_, by simp only [setField]; rw [if_pos hx], by omega, ?_, h3⟩
  rw [h2, val_toByte, Nat.mod_eq_of_lt hx]

/-- C51: each setter changes only its own field. -/
theorem C51_setters : SetsOnly setLayer 0 4 ∧ SetsOnly setTree 4 12 ∧ SetsOnly setKeyPair 20 4 ∧ SetsOnly setHeight 24 4 ∧ SetsOnly setIndex 28 4 :=
  ⟨setField_only 0 4 (by omega), setField_only 4 12 (by omega), setField_only 20 4 (by omega), setField_only 24 4 (by omega),
    setField_only 28 4 (by omega)⟩

/-- C51: `set_type_and_clear` stores the type, zeroes the last twelve bytes and keeps layer and tree. -/
theorem C51_set_type (a : Adrs) (t : AType) (ha : a.length = 32) :
    (setType a t).length = 32 ∧ val (slice (setType a t) 16 20) = t.code ∧ (∀ j, 20 ≤ j → j < 32 → (setType a t)[j]? = some 0) ∧
      ∀ j, j < 16 → (setType a t)[j]? = a[j]? := by
  obtain ⟨h1, h2, h3⟩ := splice_get a 16 (toByte t.code 4) (by rw [toByte_length]; omega)
  rw [toByte_length] at h2 h3
  have hz : (List.replicate 12 (0 : UInt8)).length = 12 := List.length_replicate
  obtain ⟨k1, k2, k3⟩ := splice_get (splice a 16 (toByte t.code 4)) 20 (List.replicate 12 0) (by rw [hz, h1]; omega)
  rw [hz] at k2 k3
  have hc : t.code < 256 ^ 4 := by cases t <;> decide
  have get_slice : ∀ (b : Bytes) (i j l : Nat), j + l = i → (slice b j (j + 32))[l]? = if l < 32 then b[i]? else none := by
    intro b i j l e; subst e; unfold slice; rw [List.getElem?_drop, List.getElem?_take]; split <;> split <;> first | rfl | omega
  have slice_ext : ∀ (b c : Bytes), (∀ j, j < 20 → b[j]? = c[j]?) → slice b 16 20 = slice c 16 20 := by
    intro b c h
    unfold slice
    congr 1
    apply List.ext_getElem?
    intro j
    rw [List.getElem?_take, List.getElem?_take]
    split
    · exact h j (by assumption)
    · rfl
  unfold setType
  refine ⟨by omega, ?_, ?_, ?_⟩
  · rw [slice_ext _ _ (fun j hj => k3 j (Or.inl hj)), show (20 : Nat) = 16 + 4 from rfl, h2, val_toByte, Nat.mod_eq_of_lt hc]
  · intro j hj hj'
    have e : (splice (splice a 16 (toByte t.code 4)) 20 (List.replicate 12 0))[j]? = (slice (splice (splice a 16 (toByte t.code 4)) 20 (List.replicate 12 0)) 20 (20 + 12))[j - 20]? := by
      unfold slice
      rw [List.getElem?_drop, List.getElem?_take, if_pos (by omega)]
      congr 1; omega
    rw [e, k2, List.getElem?_replicate, if_pos (by omega)]
  · intro j hj
    rw [k3 j (Or.inl (by omega)), h3 j (Or.inl hj)]

/-- The address built by the setters from the values of all fields, in the order used by the algorithms. -/
def build (F : Fields) : Except PyErr Adrs := do
  let a ← setLayer newAdrs F.layer
  let a ← setTree a F.tree
  let a ← setKeyPair (setType a F.typ) F.kp
  let a ← setHeight a F.height
  setIndex a F.index

/-- Field values that fit. -/
structure Fields.Fits (F : Fields) : Prop where
  layer : F.layer < 256 ^ 4
  tree : F.tree < 256 ^ 12
  kp : F.kp < 256 ^ 4
  height : F.height < 256 ^ 4
  index : F.index < 256 ^ 4

theorem build_eq (F : Fields) (h : F.Fits) : build F = .ok (enc F) := by
  unfold build
  simp only [newAdrs_enc, setLayer_enc _ _ h.layer, setTree_enc _ _ h.tree, setType_enc, setKeyPair_enc _ _ h.kp, setHeight_enc _ _ h.height,
    setIndex_enc _ _ h.index, bind, Except.bind]

theorem toByte_inj {x y n : Nat} (hx : x < 256 ^ n) (hy : y < 256 ^ n) (h : toByte x n = toByte y n) : x = y := by
  have := congrArg val h
  rwa [val_toByte, val_toByte, Nat.mod_eq_of_lt hx, Nat.mod_eq_of_lt hy] at this

theorem code_inj (s t : AType) (h : s.code = t.code) : s = t := by
  cases s <;> cases t <;> first | rfl | exact absurd h (by decide)

theorem code_lt (t : AType) : t.code < 7 := by cases t <;> decide

/-- C51: addresses of distinct field values are distinct. -/
theorem C51_injective (F G : Fields) (hF : F.Fits) (hG : G.Fits) (h : build F = build G) : F = G := by
  rw [build_eq F hF, build_eq G hG, Except.ok.injEq] at h
  have ap : ∀ {x y z w : Bytes} {n : Nat}, x.length = n → y.length = n → x ++ z = y ++ w → x = y ∧ z = w := fun h1 h2 h =>
    List.append_inj h (h1.trans h2.symm)
  unfold enc at h
  obtain ⟨e1, h⟩ := ap (toByte_length _ 4) (toByte_length _ 4) h
  obtain ⟨e2, h⟩ := ap (toByte_length _ 12) (toByte_length _ 12) h
  obtain ⟨e3, h⟩ := ap (toByte_length _ 4) (toByte_length _ 4) h
  obtain ⟨e4, h⟩ := ap (toByte_length _ 4) (toByte_length _ 4) h
  obtain ⟨e5, e6⟩ := ap (toByte_length _ 4) (toByte_length _ 4) h
  have c1 := code_lt F.typ
  have c2 := code_lt G.typ
  have f1 := toByte_inj hF.layer hG.layer e1
  have f2 := toByte_inj hF.tree hG.tree e2
  have f3 := code_inj _ _ (toByte_inj (by omega) (by omega) e3)
  have f4 := toByte_inj hF.kp hG.kp e4
  have f5 := toByte_inj hF.height hG.height e5
  have f6 := toByte_inj hF.index hG.index e6
  cases F; cases G
  simp only at f1 f2 f3 f4 f5 f6
  subst f1 f2 f3 f4 f5 f6
  rfl

theorem toByte_append (x n k : Nat) : toByte x (n + k) = toByte (x / 256 ^ k) n ++ toByte x k := by
  induction k generalizing x with
  | zero => simp [toByte]
  | succ k ih =>
    rw [← Nat.add_assoc, toByte, toByte, ih, Nat.div_div_eq_div_mul, Nat.pow_succ, Nat.mul_comm (256 ^ k), List.append_assoc]

theorem adrsc_enc (F : Fields) : adrsc (enc F) =
    toByte F.layer 1 ++ (toByte F.tree 8 ++ (toByte F.typ.code 1 ++ (toByte F.kp 4 ++ (toByte F.height 4 ++ toByte F.index 4)))) := by
  unfold enc adrsc
  rw [toByte_append F.layer 3 1, toByte_append F.tree 4 8, toByte_append F.typ.code 3 1]
  generalize hl : toByte (F.layer / 256 ^ 1) 3 = l1
  generalize hl2 : toByte F.layer 1 = l2
  generalize ht : toByte (F.tree / 256 ^ 8) 4 = t1
  generalize ht2 : toByte F.tree 8 = t2
  generalize hc : toByte (F.typ.code / 256 ^ 1) 3 = c1
  generalize hc2 : toByte F.typ.code 1 = c2
  have al : l1.length = 3 := by rw [← hl, toByte_length]
  have al2 : l2.length = 1 := by rw [← hl2, toByte_length]
  have at1 : t1.length = 4 := by rw [← ht, toByte_length]
  have at2 : t2.length = 8 := by rw [← ht2, toByte_length]
  have ac : c1.length = 3 := by rw [← hc, toByte_length]
  have ac2 : c2.length = 1 := by rw [← hc2, toByte_length]
  generalize hr : toByte F.kp 4 ++ (toByte F.height 4 ++ toByte F.index 4) = r
  have ar : r.length = 12 := by rw [← hr]; simp [toByte_length]
  simp only [List.append_assoc]
  congr 1
  · exact slice_mid l1 l2 _ 3 4 al (by omega)
  congr 1
  · have := slice_mid (l1 ++ (l2 ++ t1)) t2 (c1 ++ (c2 ++ r)) 8 16 (by simp; omega) (by simp; omega)
    simpa only [List.append_assoc] using this
  congr 1
  · have := slice_mid (l1 ++ (l2 ++ (t1 ++ (t2 ++ c1)))) c2 r 19 20 (by simp; omega) (by simp; omega)
    simpa only [List.append_assoc] using this
  · have := slice_mid (l1 ++ (l2 ++ (t1 ++ (t2 ++ (c1 ++ c2))))) r [] 20 32 (by simp; omega) (by simp; omega)
    simpa only [List.append_assoc, List.append_nil] using this

/-- C51: the compressed addresses of the SHA-2 sets are distinct as well, for layers below 256 and trees below `2^64`. -/
theorem C51_compressed (F G : Fields) (hF : F.Fits) (hG : G.Fits) (lF : F.layer < 256) (lG : G.layer < 256) (tF : F.tree < 2 ^ 64)
    (tG : G.tree < 2 ^ 64) (h : (build F).map adrsc = (build G).map adrsc) : F = G := by
  rw [build_eq F hF, build_eq G hG] at h
  have h : adrsc (enc F) = adrsc (enc G) := by simpa [Except.map] using h
  rw [adrsc_enc, adrsc_enc] at h
  have ap : ∀ {x y z w : Bytes} {n : Nat}, x.length = n → y.length = n → x ++ z = y ++ w → x = y ∧ z = w := fun h1 h2 h =>
    List.append_inj h (h1.trans h2.symm)
  obtain ⟨e1, h⟩ := ap (toByte_length _ 1) (toByte_length _ 1) h
  obtain ⟨e2, h⟩ := ap (toByte_length _ 8) (toByte_length _ 8) h
  obtain ⟨e3, h⟩ := ap (toByte_length _ 1) (toByte_length _ 1) h
  obtain ⟨e4, h⟩ := ap (toByte_length _ 4) (toByte_length _ 4) h
  obtain ⟨e5, e6⟩ := ap (toByte_length _ 4) (toByte_length _ 4) h
  have c1 := code_lt F.typ
  have c2 := code_lt G.typ
  have f1 := toByte_inj (by omega) (by omega) e1
  have f2 := toByte_inj (by omega) (by omega) e2
  have f3 := code_inj _ _ (toByte_inj (by omega) (by omega) e3)
  have f4 := toByte_inj hF.kp hG.kp e4
  have f5 := toByte_inj hF.height hG.height e5
  have f6 := toByte_inj hF.index hG.index e6
  cases F; cases G
  simp only at f1 f2 f3 f4 f5 f6
  subst f1 f2 f3 f4 f5 f6
  rfl

/-- C51: the layers and trees of every parameter set are in the range of `C51_compressed`. -/
theorem C51_params (P : Params) (h : IsParam P) : P.d ≤ 256 ∧ 2 ^ (P.h - P.hp) ≤ 2 ^ 64 := by
  rcases h with rfl | rfl | rfl | rfl | rfl | rfl <;> decide +kernel

example : (build ⟨1, 0x0203, .tree, 0, 5, 6⟩).map (·.take 20) = .ok [0, 0, 0, 1, 0, 0, 0, 0, 0, 0, 0, 0, 0, 0, 2, 3, 0, 0, 0, 2] ∧
    (build ⟨0, 0, .tree, 0, 0, 0⟩).map adrsc = (build ⟨256, 0, .tree, 0, 0, 0⟩).map adrsc ∧
    setLayer newAdrs (256 ^ 4) = .error .overflowError := by decide

/-! ## C52: the checksum -/

theorem foldl_add (l : List Nat) (a : Nat) : l.foldl (· + ·) a = a + l.foldl (· + ·) 0 := by
  induction l generalizing a with
  | nil => rfl
  | cons x l ih => rw [List.foldl_cons, List.foldl_cons, ih, ih (0 + x)]; omega

theorem sum_range_succ (f : Nat → Nat) (n : Nat) :
    ((List.range (n + 1)).map f).foldl (· + ·) 0 = ((List.range n).map f).foldl (· + ·) 0 + f n := by
  rw [List.range_succ, List.map_append, List.foldl_append]; rfl

theorem sum_le (f g : Nat → Nat) (n : Nat) (h : ∀ i < n, f i ≤ g i) :
    ((List.range n).map f).foldl (· + ·) 0 ≤ ((List.range n).map g).foldl (· + ·) 0 := by
  induction n with
  | zero => exact Nat.le_refl _
  | succ n ih =>
    rw [sum_range_succ, sum_range_succ]
    have := ih (fun i hi => h i (by omega))
    have := h n (by omega)
    omega

theorem sum_eq (f g : Nat → Nat) (n : Nat) (h : ∀ i < n, f i ≤ g i)
    (e : ((List.range n).map g).foldl (· + ·) 0 ≤ ((List.range n).map f).foldl (· + ·) 0) : ∀ i < n, f i = g i := by
  induction n with
  | zero => intro i hi; omega
  | succ n ih =>
    rw [sum_range_succ, sum_range_succ] at e
    have h1 := sum_le f g n (fun i hi => h i (by omega))
    have h2 := h n (by omega)
    intro i hi
    by_cases hn : i = n
    · subst hn; omega
    · exact ih (fun i hi => h i (by omega)) (by omega) i (by omega)

theorem sum_const_le (f : Nat → Nat) (n c : Nat) (h : ∀ i < n, f i ≤ c) : ((List.range n).map f).foldl (· + ·) 0 ≤ n * c := by
  induction n with
  | zero => exact Nat.zero_le _
  | succ n ih =>
    rw [sum_range_succ, Nat.succ_mul]
    have := ih (fun i hi => h i (by omega))
    have := h n (by omega)
    omega

/-- What the checksum needs of a parameter set: the message digits cover the message and the checksum fits in its digits. -/
structure CsumOk (P : Params) : Prop where
  all : P.lgw * P.len1 = 8 * P.n
  fits : P.len1 * (P.w - 1) < 2 ^ (P.lgw * P.len2)

theorem csumOk_of_isParam {P : Params} (h : IsParam P) : CsumOk P := by
  rcases h with rfl | rfl | rfl | rfl | rfl | rfl <;> constructor <;> decide +kernel

theorem digitsVal_mono (b : Nat) (f g : Nat → Nat) (n : Nat) (h : ∀ i < n, f i ≤ g i) :
    digitsVal b ((List.range n).map f) ≤ digitsVal b ((List.range n).map g) := by
  induction n with
  | zero => exact Nat.le_refl _
  | succ n ih =>
    rw [List.range_succ, List.map_append, List.map_append]
    simp only [List.map_cons, List.map_nil]
    rw [digitsVal_snoc, digitsVal_snoc]
    have := Nat.mul_le_mul_right (2 ^ b) (ih (fun i hi => h i (by omega)))
    have := h n (by omega)
    omega

theorem csum_digitsVal {P : Params} (hP : CsumOk P) (m : Bytes) :
    digitsVal P.lgw ((List.range P.len2).map (digit (val (toByte (csumShift P m) ((P.len2 * P.lgw + 7) / 8))) (8 * ((P.len2 * P.lgw + 7) / 8)) P.lgw)) =
      csumOf P m := by
  have hc : csumOf P m < 2 ^ (P.lgw * P.len2) := by
    refine Nat.lt_of_le_of_lt ?_ hP.fits
    exact sum_const_le _ _ _ (fun i _ => by omega)
  have hs : (8 - P.len2 * P.lgw % 8) % 8 = 8 * ((P.len2 * P.lgw + 7) / 8) - P.lgw * P.len2 := by rw [Nat.mul_comm P.lgw]; omega
  have hle : P.lgw * P.len2 ≤ 8 * ((P.len2 * P.lgw + 7) / 8) := by rw [Nat.mul_comm P.lgw]; omega
  rw [digitsVal_digits _ _ _ _ hle, val_toByte, pow256]
  unfold csumShift
  rw [hs]
  generalize 8 * ((P.len2 * P.lgw + 7) / 8) = bits at *
  have : csumOf P m * 2 ^ (bits - P.lgw * P.len2) < 2 ^ bits := by
    have e : 2 ^ bits = 2 ^ (P.lgw * P.len2) * 2 ^ (bits - P.lgw * P.len2) := by rw [← Nat.pow_add]; congr 1; omega
    rw [e]
    exact Nat.mul_lt_mul_of_pos_right hc (Nat.two_pow_pos _)
  rw [Nat.mod_eq_of_lt this, Nat.mul_div_cancel _ (Nat.two_pow_pos _), Nat.mod_eq_of_lt hc]

/-- C52: the digits signed for two distinct digests: at least one of the first is strictly smaller. -/
theorem C52_checksum {P : Params} (h : IsParam P) (m m' : Bytes) (hm : m.length = P.n) (hm' : m'.length = P.n) (hne : m ≠ m') :
    ∃ ds ds', wotsDigits P m = .ok ds ∧ wotsDigits P m' = .ok ds' ∧ ds.length = P.len ∧ ds'.length = P.len ∧
      ∃ i < P.len, ds.getD i 0 < ds'.getD i 0 := by
  have hP := ok_of_isParam h
  have hC := csumOk_of_isParam h
  refine ⟨_, _, wotsDigits_eq hP m hm, wotsDigits_eq hP m' hm', digitsOf_length P m, digitsOf_length P m', ?_⟩
  apply Classical.byContradiction
  intro hno
  have hge : ∀ i < P.len, (digitsOf P m').getD i 0 ≤ (digitsOf P m).getD i 0 := by
    intro i hi
    apply Classical.byContradiction
    intro hlt
    exact hno ⟨i, hi, by omega⟩
  have left : ∀ m : Bytes, ∀ i < P.len1, (digitsOf P m).getD i 0 = digit (val m) (8 * P.n) P.lgw i := by
    intro m i hi
    unfold digitsOf
    rw [List.getD_eq_getElem?_getD, List.getElem?_append_left (by simpa using hi)]
    simp [hi]
  have right : ∀ m : Bytes, ∀ i < P.len2, (digitsOf P m).getD (P.len1 + i) 0 =
      digit (val (toByte (csumShift P m) ((P.len2 * P.lgw + 7) / 8))) (8 * ((P.len2 * P.lgw + 7) / 8)) P.lgw i := by
    intro m i hi
    unfold digitsOf
    rw [List.getD_eq_getElem?_getD, List.getElem?_append_right (by simp)]
    simp [hi]
  have h1 : ∀ i < P.len1, digit (val m') (8 * P.n) P.lgw i ≤ digit (val m) (8 * P.n) P.lgw i := by
    intro i hi
    have := hge i (by unfold Params.len; omega)
    rwa [left _ _ hi, left _ _ hi] at this
  have h2 : csumOf P m' ≤ csumOf P m := by
    rw [← csum_digitsVal hC, ← csum_digitsVal hC]
    apply digitsVal_mono
    intro i hi
    have := hge (P.len1 + i) (by unfold Params.len; omega)
    rwa [right _ _ hi, right _ _ hi] at this
  have h3 := sum_eq (fun i => P.w - 1 - digit (val m) (8 * P.n) P.lgw i) (fun i => P.w - 1 - digit (val m') (8 * P.n) P.lgw i) P.len1
    (fun i hi => by have := h1 i hi; omega) h2
  have h4 : ∀ i < P.len1, digit (val m) (8 * P.n) P.lgw i = digit (val m') (8 * P.n) P.lgw i := by
    intro i hi
    have a := h3 i hi
    have b : digit (val m) (8 * P.n) P.lgw i < P.w := digit_lt _ _ _ _
    have c : digit (val m') (8 * P.n) P.lgw i < P.w := digit_lt _ _ _ _
    omega
  have key : ∀ m : Bytes, m.length = P.n → digitsVal P.lgw ((List.range P.len1).map (digit (val m) (8 * P.n) P.lgw)) = val m := by
    intro m hm
    rw [digitsVal_digits _ _ _ _ (by rw [hC.all]; exact Nat.le_refl _), hC.all, Nat.sub_self, Nat.pow_zero, Nat.div_one, ← pow256, ← hm,
      Nat.mod_eq_of_lt (val_lt m)]
  apply hne
  apply val_injective _ _ (hm.trans hm'.symm)
  rw [← key m hm, ← key m' hm']
  congr 1
  apply List.map_congr_left
  intro i hi
  exact h4 i (List.mem_range.1 hi)

example : wotsDigits p128f (List.replicate 16 0) = .ok (List.replicate 32 0 ++ [1, 14, 0]) ∧
    wotsDigits p128f (List.replicate 16 0xFF) = .ok (List.replicate 32 15 ++ [0, 0, 0]) := by decide +kernel

/-! ## C53: reproducing the public keys -/

/-- C53: the WOTS+ key computed from a signature is the generated key. -/
theorem C53_wots {P : Params} (hp : IsParam P) {H : Hash} (hH : H.Sized P) (m skSeed seed : Bytes) (F : Fields) (hF : F.Fits)
    (hw : F.typ = .wotsHash) (hm : m.length = P.n) :
    ∃ a sig pk a1 a2 a3, build F = .ok a ∧ wotsSign P H m skSeed seed a = .ok (sig, a1) ∧ wotsPkgen P H skSeed seed a = .ok (pk, a2) ∧
      wotsPkFromSig P H sig m seed a = .ok (pk, a3) ∧ sig.length = P.len * P.n := by
  have hP := ok_of_isParam hp
  obtain ⟨L, T, ty, kp, c, y⟩ := F
  subst hw
  obtain ⟨c1, y1, e1⟩ := wotsSign_eq hP H m skSeed seed L T kp c y hF.kp hm
  obtain ⟨c2, y2, e2⟩ := wotsPkgen_eq hP H skSeed seed L T kp c y hF.kp
  obtain ⟨c3, y3, e3⟩ := wotsPkFromSig_eq hP H (chainsV P H skSeed seed L T kp (fun i => (digitsOf P m).getD i 0)) m seed L T kp c y hF.kp hm
  have := wotsFromV_sign hH m skSeed seed [] L T kp
  rw [List.append_nil] at this
  rw [this] at e3
  exact ⟨_, _, _, _, _, _, build_eq _ hF, e1, e2, e3, chainsV_length hH _ _ _ _ _ _⟩

/-- C53: the root computed from an XMSS signature is the root of the tree. -/
theorem C53_xmss {P : Params} (hp : IsParam P) {H : Hash} (hH : H.Sized P) (m skSeed seed : Bytes) (F : Fields) (hF : F.Fits) (idx : Nat)
    (hi : idx < 2 ^ P.hp) (hm : m.length = P.n) :
    ∃ a sig root a1 a2 a3, build F = .ok a ∧ xmssSign P H m skSeed idx seed a = .ok (sig, a1) ∧ xmssNode P H skSeed seed P.hp 0 a = .ok (root, a2) ∧
      xmssPkFromSig P H idx sig m seed a = .ok (root, a3) ∧ sig.length = (P.hp + P.len) * P.n := by
  have hP := ok_of_isParam hp
  obtain ⟨L, T, ty, kp, c, y⟩ := F
  obtain ⟨_, _, _, _, e1⟩ := xmssSign_eq hP H m skSeed seed L T idx ty kp c y hi hm
  obtain ⟨_, _, _, _, e2⟩ := xmssNode_eq hP H skSeed seed L T P.hp 0 ty kp c y (Nat.le_refl _) (by simp)
  obtain ⟨_, _, _, _, e3⟩ := xmssPkFromSig_eq hP hH m skSeed seed L T idx ty kp c y hi hm
  exact ⟨_, _, _, _, _, _, build_eq _ hF, e1, e2, e3, xmssSigV_length hH _ _ _ _ _ _⟩

theorem htSigV_length {P : Params} {H : Hash} (hH : H.Sized P) (m skSeed seed : Bytes) (iTree iLeaf : Nat) :
    (htSigV P H m skSeed seed iTree iLeaf).length = P.d * ((P.hp + P.len) * P.n) :=
  flatMap_len _ _ _ (fun _ _ => xmssSigV_length hH _ _ _ _ _ _)

/-- C53: hypertree signatures verify under the root of the top tree, and under no other string. -/
theorem C53_hypertree {P : Params} (hp : IsParam P) {H : Hash} (hH : H.Sized P) (m skSeed seed : Bytes) (iTree iLeaf : Nat)
    (hm : m.length = P.n) (ht : iTree < 2 ^ (P.h - P.hp)) (hl : iLeaf < 2 ^ P.hp) :
    ∃ a sig root a', build ⟨P.d - 1, 0, .wotsHash, 0, 0, 0⟩ = .ok a ∧ xmssNode P H skSeed seed P.hp 0 a = .ok (root, a') ∧
      htSign P H m skSeed seed iTree iLeaf = .ok sig ∧ htVerify P H m sig seed iTree iLeaf root = .ok true ∧
      ∀ x, htVerify P H m sig seed iTree iLeaf x = .ok (root == x) := by
  have hP := ok_of_isParam hp
  have hd := hP.d'
  have hd1 := hP.d
  obtain ⟨_, _, _, _, e2⟩ := xmssNode_eq hP H skSeed seed (P.d - 1) 0 P.hp 0 .wotsHash 0 0 0 (Nat.le_refl _) (by simp)
  refine ⟨_, _, _, _, build_eq _ ⟨by simp only; omega, by simp only; omega, by simp only; omega, by simp only; omega, by simp only; omega⟩, e2,
    htSign_eq hP hH m skSeed seed iTree iLeaf hm ht hl, ?_, fun x => htVerify_eq hP hH m skSeed seed x iTree iLeaf hm ht hl⟩
  rw [htVerify_eq hP hH m skSeed seed _ iTree iLeaf hm ht hl, beq_self_eq_true]

/-- The root of tree `i` of FORS key `a`, and the key built from all of them (specification in terms of `fors_node`). -/
def IsForsKey (P : Params) (H : Hash) (skSeed seed : Bytes) (F : Fields) (pk : Bytes) : Prop :=
  ∃ roots : Nat → Bytes, (∀ i < P.k, ∃ a a', build F = .ok a ∧ forsNode P H skSeed seed P.a i a = .ok (roots i, a')) ∧
    ∃ ra, build { F with typ := .forsRoots, height := 0, index := 0 } = .ok ra ∧ pk = H.t seed ra ((List.range P.k).flatMap roots)

/-- C53: the FORS key computed from a signature is the hash of the roots of all trees. -/
theorem C53_fors {P : Params} (hp : IsParam P) {H : Hash} (hH : H.Sized P) (md skSeed seed : Bytes) (F : Fields) (hF : F.Fits)
    (hw : F.typ = .forsTree) (hm : md.length = (P.k * P.a + 7) / 8) :
    ∃ a sig pk a1 a2, build F = .ok a ∧ forsSign P H md skSeed seed a = .ok (sig, a1) ∧ forsPkFromSig P H sig md seed a = .ok (pk, a2) ∧
      IsForsKey P H skSeed seed F pk ∧ sig.length = P.k * ((P.a + 1) * P.n) := by
  have hP := ok_of_isParam hp
  obtain ⟨L, T, ty, kp, c, y⟩ := F
  subst hw
  obtain ⟨c1, y1, e1⟩ := forsSign_eq hP H md skSeed seed L T kp c y hF.kp (by omega)
  obtain ⟨a2, e2⟩ := forsPkFromSig_eq hP hH md skSeed seed L T kp c y hF.kp (by omega)
  refine ⟨_, _, _, _, _, build_eq _ hF, e1, e2, ⟨forsV H skSeed seed L T kp P.a, fun i hi => ?_, ?_⟩, forsSigV_length hH _ _ _ _ _ _⟩
  · obtain ⟨c', y', e⟩ := forsNode_eq hP H skSeed seed L T kp hF.kp P.a i c y (Nat.le_refl _) (by simpa using hi)
    exact ⟨_, _, build_eq _ hF, e⟩
  · exact ⟨_, build_eq _ ⟨hF.layer, hF.tree, hF.kp, by simp only; omega, by simp only; omega⟩, rfl⟩

/-! ## C54: signatures verify -/

theorem splitDigest_ok {P : Params} (hP : Ok P) (digest : Bytes) (h : digest.length = P.m) :
    ∃ md t l, splitDigest P digest = .ok (md, t, l) ∧ md.length = (P.k * P.a + 7) / 8 ∧ t < 2 ^ (P.h - P.hp) ∧ l < 2 ^ P.hp := by
  have hd := hP.digest
  have hhd : P.h / P.d = P.hp := by rw [hP.h]; exact Nat.mul_div_cancel_left _ hP.d
  rw [hhd] at hd
  unfold splitDigest
  simp only [hhd]
  generalize (P.k * P.a + 7) / 8 = ka at *
  generalize hA : (P.h - P.hp + 7) / 8 = A at *
  generalize hB : (P.hp + 7) / 8 = B at *
  have l1 : (slice digest ka (ka + A)).length = A := by unfold slice; simp; omega
  have l2 : (slice digest (ka + A) (ka + A + B)).length = B := by unfold slice; simp; omega
  simp only [toInt_ok _ _ (Nat.le_of_eq l1.symm), toInt_ok _ _ (Nat.le_of_eq l2.symm), bind, Except.bind]
  exact ⟨slice digest 0 ka, _, _, rfl, by unfold slice; simp; omega, Nat.mod_lt _ (Nat.two_pow_pos _), Nat.mod_lt _ (Nat.two_pow_pos _)⟩

theorem forsAdrs_eq (t l : Nat) (ht : t < 256 ^ 12) (hl : l < 256 ^ 4) : forsAdrs t l = .ok (enc ⟨0, t, .forsTree, l, 0, 0⟩) := by
  unfold forsAdrs
  simp only [newAdrs_enc, setTree_enc ⟨0, 0, .wotsHash, 0, 0, 0⟩ t ht, setType_enc, setKeyPair_enc ⟨0, t, .forsTree, 0, 0, 0⟩ l hl, bind, Except.bind]

/-- A key pair in the sense of `slh_keygen_internal`. -/
theorem keygen_eq {P : Params} (hP : Ok P) (H : Hash) (skSeed skPrf seed : Bytes) :
    keygenInternal P H skSeed skPrf seed = .ok (seed ++ xmssV P H skSeed seed (P.d - 1) 0 P.hp 0,
      skSeed ++ skPrf ++ seed ++ xmssV P H skSeed seed (P.d - 1) 0 P.hp 0) := by
  obtain ⟨_, _, _, _, e2⟩ := xmssNode_eq hP H skSeed seed (P.d - 1) 0 P.hp 0 .wotsHash 0 0 0 (Nat.le_refl _) (by simp)
  have hd := hP.d'
  have hd1 := hP.d
  unfold keygenInternal
  simp only [newAdrs_enc, setLayer_enc ⟨0, 0, .wotsHash, 0, 0, 0⟩ (P.d - 1) (by omega), bind, Except.bind, e2]

/-- Signing with `sk_seed, sk_prf, pk_seed` and an arbitrary `pk_root` field `x`: the own signature verifies exactly if `x` is the root. -/
theorem sign_verify {P : Params} (hP : Ok P) {H : Hash} (hH : H.Sized P) (skSeed skPrf seed m : Bytes) (rnd : Option Bytes)
    (x : Bytes) (hxl : x.length = P.n) (h1 : skSeed.length = P.n) (h2 : skPrf.length = P.n) (h3 : seed.length = P.n) :
    ∃ sig, signInternal P H m (skSeed ++ skPrf ++ seed ++ x) rnd = .ok sig ∧ sig.length = P.sigSz ∧
      verifyInternal P H m sig (seed ++ x) = .ok (xmssV P H skSeed seed (P.d - 1) 0 P.hp 0 == x) := by
  have s1 : slice (skSeed ++ skPrf ++ seed ++ x) 0 P.n = skSeed := by
    rw [List.append_assoc, List.append_assoc]
    exact slice_mid [] skSeed _ 0 P.n rfl (by simp [h1])
  have s2 : slice (skSeed ++ skPrf ++ seed ++ x) P.n (2 * P.n) = skPrf := by
    rw [List.append_assoc, List.append_assoc]
    exact slice_mid skSeed skPrf _ _ _ h1 (by omega)
  have s3 : slice (skSeed ++ skPrf ++ seed ++ x) (2 * P.n) (3 * P.n) = seed := by
    rw [List.append_assoc]
    exact slice_mid (skSeed ++ skPrf) seed x _ _ (by simp; omega) (by simp; omega)
  have s4 : (skSeed ++ skPrf ++ seed ++ x).drop (3 * P.n) = x := List.drop_left' (by simp; omega)
  generalize hr : H.prfMsg skPrf (rnd.getD seed) m = r
  have hrl : r.length = P.n := by rw [← hr]; exact hH.prfMsg _ _ _
  obtain ⟨md, t, l, e1, b1, b2, b3⟩ := splitDigest_ok hP (H.hMsg r seed x m) (hH.hMsg _ _ _ _)
  have ht : t < 256 ^ 12 := Nat.lt_of_lt_of_le b2 hP.tree
  have hl : l < 256 ^ 4 := Nat.lt_of_lt_of_le b3 hP.hp
  obtain ⟨c1, y1, e2⟩ := forsSign_eq hP H md skSeed seed 0 t l 0 0 hl (by omega)
  obtain ⟨a2, e3⟩ := forsPkFromSig_eq hP hH md skSeed seed 0 t l c1 y1 hl (by omega)
  obtain ⟨a4, e5⟩ := forsPkFromSig_eq hP hH md skSeed seed 0 t l 0 0 hl (by omega)
  have hfl : (forsPkV P H skSeed seed 0 t l).length = P.n := hH.t _ _ _
  have e4 := htSign_eq hP hH (forsPkV P H skSeed seed 0 t l) skSeed seed t l hfl b2 b3
  have e6 := fun root => htVerify_eq hP hH (forsPkV P H skSeed seed 0 t l) skSeed seed root t l hfl b2 b3
  have hfs := forsSigV_length hH md skSeed seed 0 t l
  have hht := htSigV_length hH (forsPkV P H skSeed seed 0 t l) skSeed seed t l
  generalize forsSigV P H md skSeed seed 0 t l = sf at *
  generalize htSigV P H (forsPkV P H skSeed seed 0 t l) skSeed seed t l = sh at *
  have hlen : (r ++ sf ++ sh).length = P.sigSz := by
    unfold Params.sigSz
    have e1 : P.d * ((P.hp + P.len) * P.n) = P.h * P.n + P.d * P.len * P.n := by
      rw [hP.h, ← Nat.mul_assoc, Nat.mul_add, Nat.add_mul]
    have e2 : P.k * ((P.a + 1) * P.n) = P.k * (1 + P.a) * P.n := by rw [← Nat.mul_assoc, Nat.add_comm 1]
    rw [List.length_append, List.length_append, hrl, hfs, hht, e1, e2, Nat.add_mul, Nat.add_mul, Nat.add_mul, Nat.one_mul]
    omega
  refine ⟨r ++ sf ++ sh, ?_, hlen, ?_⟩
  · unfold signInternal
    simp only [s1, s2, s3, s4, hr, e1, bind, Except.bind, forsAdrs_eq t l ht hl, e2, e3, e4]
  · have hcut : (1 + P.k * (1 + P.a)) * P.n = P.n + sf.length := by
      rw [hfs, Nat.add_mul, Nat.one_mul, Nat.mul_assoc, Nat.add_comm 1]
    have t1 : slice (r ++ sf ++ sh) 0 P.n = r := by
      rw [List.append_assoc]
      exact slice_mid [] r _ 0 P.n rfl (by simp [hrl])
    have t2 : slice (r ++ sf ++ sh) P.n ((1 + P.k * (1 + P.a)) * P.n) = sf := by
      rw [List.append_assoc, hcut]
      exact slice_mid r sf sh _ _ hrl (by omega)
    have t3 : (r ++ sf ++ sh).drop ((1 + P.k * (1 + P.a)) * P.n) = sh := List.drop_left' (by rw [hcut, List.length_append, hrl])
    unfold verifyInternal
    rw [if_neg (by unfold Params.pkSz; simp only [hlen, List.length_append]; omega)]
    simp only [List.take_left' h3, List.drop_left' h3, t1, t2, t3, e1, bind, Except.bind, forsAdrs_eq t l ht hl, e5, e6]

/-- C54: for hash functions with the right output lengths, every generated key pair has the declared sizes, and signatures made with it
verify and have the declared size; `rnd = none` is the deterministic variant. -/
theorem C54_sign_verify {P : Params} (hp : IsParam P) {H : Hash} (hH : H.Sized P) (skSeed skPrf seed : Bytes)
    (h1 : skSeed.length = P.n) (h2 : skPrf.length = P.n) (h3 : seed.length = P.n) :
    ∃ pk sk, keygenInternal P H skSeed skPrf seed = .ok (pk, sk) ∧ pk.length = P.pkSz ∧ sk.length = 4 * P.n ∧
      ∀ (m : Bytes) (rnd : Option Bytes), ∃ sig, signInternal P H m sk rnd = .ok sig ∧ sig.length = P.sigSz ∧
        verifyInternal P H m sig pk = .ok true := by
  have hP := ok_of_isParam hp
  have hxl := xmssV_length hH skSeed seed (P.d - 1) 0 P.hp 0
  refine ⟨_, _, keygen_eq hP H skSeed skPrf seed, by unfold Params.pkSz; rw [List.length_append, hxl]; omega, by
    simp only [List.length_append, hxl]; omega, fun m rnd => ?_⟩
  obtain ⟨sig, e1, e2, e3⟩ := sign_verify hP hH skSeed skPrf seed m rnd _ hxl h1 h2 h3
  exact ⟨sig, e1, e2, by rw [e3, beq_self_eq_true]⟩

/-- C54: signatures and keys of another length are rejected. -/
theorem C54_lengths (P : Params) (H : Hash) (m sig pk : Bytes) (h : sig.length ≠ P.sigSz ∨ pk.length ≠ P.pkSz) :
    verifyInternal P H m sig pk = .ok false := by
  unfold verifyInternal; rw [if_pos h]

theorem ofShake_sized (shake : Bytes → Nat → Bytes) (hs : ∀ b n, (shake b n).length = n) (P : Params) : (ofShake shake P).Sized P :=
  ⟨fun _ _ _ => hs _ _, fun _ _ _ => hs _ _, fun _ _ _ => hs _ _, fun _ _ _ => hs _ _, fun _ _ _ => hs _ _, fun _ _ _ _ => hs _ _⟩

theorem mgf_length (hash : Bytes → Bytes) (hl : Nat) (hpos : 0 < hl) (h : ∀ b, (hash b).length = hl) (seed : Bytes) (k : Nat) :
    (mgf hash hl seed k).length = k := by
  unfold mgf
  rw [List.length_take, flatMap_len _ hl _ (fun _ _ => h _)]
  have h1 := Nat.div_add_mod (k + hl - 1) hl
  have h2 := Nat.mod_lt (k + hl - 1) hpos
  rw [Nat.mul_comm] at h1
  omega

theorem ofSha2_sized (sha256 sha512 : Bytes → Bytes) (h256 : ∀ b, (sha256 b).length = 32) (h512 : ∀ b, (sha512 b).length = 64) (P : Params)
    (hn : P.n ≤ 32) : (ofSha2 sha256 sha512 P).Sized P := by
  have t1 : ∀ b, ((sha256 b).take P.n).length = P.n := fun b => by rw [List.length_take, h256]; omega
  have t2 : ∀ b, ((sha512 b).take P.n).length = P.n := fun b => by rw [List.length_take, h512]; omega
  refine ⟨fun _ _ _ => t1 _, fun _ _ _ => ?_, fun _ _ _ => t1 _, fun _ _ _ => ?_, fun _ _ _ => ?_, fun _ _ _ _ => ?_⟩
  all_goals unfold ofSha2; simp only; split
  · exact t1 _
  · exact t2 _
  · exact t1 _
  · exact t2 _
  · exact t1 _
  · exact t2 _
  · exact mgf_length _ _ (by omega) h256 _ _
  · exact mgf_length _ _ (by omega) h512 _ _

/-- The hash functions of the code for given primitives of the standard output lengths. -/
inductive IsHash (P : Params) : Hash → Prop
  | shake (s : Bytes → Nat → Bytes) (h : ∀ b n, (s b n).length = n) : IsHash P (ofShake s P)
  | sha2 (s256 s512 : Bytes → Bytes) (h256 : ∀ b, (s256 b).length = 32) (h512 : ∀ b, (s512 b).length = 64) : IsHash P (ofSha2 s256 s512 P)

theorem sized_of_isHash {P : Params} (hp : IsParam P) {H : Hash} (h : IsHash P H) : H.Sized P := by
  cases h with
  | shake s h => exact ofShake_sized s h P
  | sha2 s256 s512 h256 h512 =>
    refine ofSha2_sized s256 s512 h256 h512 P ?_
    rcases hp with rfl | rfl | rfl | rfl | rfl | rfl <;> decide

/-- C54: `slh_sign` and `slh_verify` with a context, for both families of hash functions of the code: a context of at most 255 bytes is signed
and accepted, a longer one yields neither a signature nor an acceptance. -/
theorem C54_context {P : Params} (hp : IsParam P) {H : Hash} (hH : IsHash P H) (skSeed skPrf seed : Bytes)
    (h1 : skSeed.length = P.n) (h2 : skPrf.length = P.n) (h3 : seed.length = P.n) :
    ∃ pk sk, keygenInternal P H skSeed skPrf seed = .ok (pk, sk) ∧
      ∀ (m ctx : Bytes) (rnd : Option Bytes),
        (ctx.length ≤ 255 → ∃ sig, slhSign P H m ctx sk rnd = .ok (some sig) ∧ slhVerify P H m sig ctx pk = .ok true) ∧
        (255 < ctx.length → slhSign P H m ctx sk rnd = .ok none ∧ ∀ sig, slhVerify P H m sig ctx pk = .ok false) := by
  obtain ⟨pk, sk, e, _, _, hs⟩ := C54_sign_verify hp (sized_of_isHash hp hH) skSeed skPrf seed h1 h2 h3
  refine ⟨pk, sk, e, fun m ctx rnd => ⟨fun hc => ?_, fun hc => ?_⟩⟩
  · obtain ⟨sig, a, _, b⟩ := hs (pureMp ctx m) rnd
    refine ⟨sig, ?_, ?_⟩
    · unfold slhSign; rw [if_neg (by omega), a]; rfl
    · unfold slhVerify; rw [if_neg (by omega), b]
  · refine ⟨by unfold slhSign; rw [if_pos hc], fun sig => by unfold slhVerify; rw [if_pos hc]⟩

/-- C54: the strings signed for two pairs of context and message are equal only if the pairs are. -/
theorem C54_context_injective (c c' m m' : Bytes) (h : c.length ≤ 255) (h' : c'.length ≤ 255) (e : pureMp c m = pureMp c' m') : c = c' ∧ m = m' := by
  unfold pureMp oneByte at e
  simp only [List.cons_append, List.nil_append, List.cons.injEq, true_and] at e
  obtain ⟨e1, e2⟩ := e
  have hl : c.length = c'.length := by
    have := congrArg UInt8.toNat e1
    simp only [UInt8.toNat_ofNat'] at this
    omega
  exact List.append_inj e2 hl

/-! A small set of parameters and a toy hash function, to run the algorithms. -/

/-- Toy parameters. -/
def toyP : Params := ⟨1, 2, 2, 1, 2, 2, 4, 3⟩
/-- Toy hash. -/
def toyShake (b : Bytes) (n : Nat) : Bytes := toByte (b.foldl (fun t x => (t * 31 + x.toNat + 7) % 65521) 1 * 2654435761 / 16) n

example : (do let (pk, sk) ← keygenInternal toyP (ofShake toyShake toyP) [1] [2] [3]
              let sig ← signInternal toyP (ofShake toyShake toyP) [9, 8] sk none
              let ok ← verifyInternal toyP (ofShake toyShake toyP) [9, 8] sig pk
              let bad ← verifyInternal toyP (ofShake toyShake toyP) [9, 7] sig pk
              Except.ok (pk.length, sk.length, sig.length == toyP.sigSz, ok, bad) : Except PyErr _) = .ok (2, 4, true, true, false) := by
  decide +kernel

/-! ## C55: pre-hash signatures -/

/-- C55 is false of the code: `hash_slh_sign` knows only lower-case names and the verification only upper-case ones. For every name either
signing returns `None` or verification raises `ValueError`, whatever the key, message, context and signature. -/
theorem C55_prehash_refuted (P : Params) (H : Hash) (G : PreHash) (ph : String) (m ctx sk pk : Bytes) (rnd : Option Bytes) :
    (∀ sig, hashSlhSign P H G m ctx ph sk rnd ≠ .ok (some sig)) ∨ (∀ sig, hashSlhVerify P H G pk m sig ctx ph = .error .valueError) := by
  have key : preHash G signNames ph m = none ∨ preHash G verifyNames ph m = none := by
    by_cases h : preHash G signNames ph m = none
    · exact Or.inl h
    · right
      have : ph = "sha-256" ∨ ph = "sha-512" ∨ ph = "shake128" ∨ ph = "shake256" := by
        apply Classical.byContradiction
        intro hn
        simp only [not_or] at hn
        apply h
        unfold preHash signNames
        rw [if_neg hn.1, if_neg hn.2.1, if_neg hn.2.2.1, if_neg hn.2.2.2]
      rcases this with rfl | rfl | rfl | rfl <;>
        (unfold preHash verifyNames; rw [if_neg (by decide), if_neg (by decide), if_neg (by decide), if_neg (by decide)])
  rcases key with k | k
  · left
    intro sig
    unfold hashSlhSign
    rw [k]
    split <;> simp
  · right
    intro sig
    unfold hashSlhVerify
    rw [k]
    split <;> rfl

/-- C55, what holds: the verification accepts the signature of the string that the standard prescribes for the pre-hash, for each of the four
upper-case names. (`hash_slh_sign` does not compute this signature.) -/
theorem C55_verify_partial {P : Params} (hp : IsParam P) {H : Hash} (hH : IsHash P H) (G : PreHash) (skSeed skPrf seed : Bytes)
    (h1 : skSeed.length = P.n) (h2 : skPrf.length = P.n) (h3 : seed.length = P.n) :
    ∃ pk sk, keygenInternal P H skSeed skPrf seed = .ok (pk, sk) ∧
      ∀ (m ctx : Bytes) (rnd : Option Bytes) (ph : String) (d : Bytes), ctx.length ≤ 255 →
        (ph, d) ∈ [("SHA-256", hashOid 1 ++ G.sha256 m), ("SHA-512", hashOid 3 ++ G.sha512 m), ("SHAKE128", hashOid 11 ++ G.shake128 m 32),
          ("SHAKE256", hashOid 12 ++ G.shake256 m 64)] →
        ∃ sig, signInternal P H ([1, UInt8.ofNat ctx.length] ++ ctx ++ d) sk rnd = .ok sig ∧ hashSlhVerify P H G pk m sig ctx ph = .ok true := by
  obtain ⟨pk, sk, e, _, _, hs⟩ := C54_sign_verify hp (sized_of_isHash hp hH) skSeed skPrf seed h1 h2 h3
  refine ⟨pk, sk, e, fun m ctx rnd ph d hc hd => ?_⟩
  obtain ⟨sig, a, _, b⟩ := hs ([1, UInt8.ofNat ctx.length] ++ ctx ++ d) rnd
  refine ⟨sig, a, ?_⟩
  have hpre : preHash G verifyNames ph m = some d := by
    simp only [List.mem_cons, Prod.mk.injEq, List.not_mem_nil, or_false] at hd
    rcases hd with ⟨rfl, rfl⟩ | ⟨rfl, rfl⟩ | ⟨rfl, rfl⟩ | ⟨rfl, rfl⟩
    · rfl
    · unfold preHash verifyNames; rw [if_neg (by decide), if_pos rfl]
    · unfold preHash verifyNames; rw [if_neg (by decide), if_neg (by decide), if_pos rfl]
    · unfold preHash verifyNames; rw [if_neg (by decide), if_neg (by decide), if_neg (by decide), if_pos rfl]
  unfold hashSlhVerify
  rw [if_neg (by omega), hpre]
  have e1 : oneByte 1 ++ oneByte ctx.length = [1, UInt8.ofNat ctx.length] := by
    unfold oneByte; rw [Nat.mod_eq_of_lt (by omega : ctx.length < 256)]; rfl
  simp only [e1]
  exact b

end Verif.PQ.Slh
