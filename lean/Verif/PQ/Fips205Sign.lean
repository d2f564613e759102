import Verif.PQ.Fips205Tree

/-!
# Hypertree, FORS and SLH-DSA signatures
-/

namespace Verif.PQ.Slh

open Verif.CA (Bytes PyErr)

/-! ## Hypertree -/

/-- The tree used on layer `j` (specification). -/
def treeAt (P : Params) (iTree j : Nat) : Nat := iTree / 2 ^ (P.hp * j)

/-- The leaf used on layer `j` (specification). -/
def leafAt (P : Params) (iTree iLeaf : Nat) : Nat → Nat
  | 0 => iLeaf
  | j + 1 => treeAt P iTree j % 2 ^ P.hp

/-- The string signed on layer `j`: the message, then the roots of the trees below (specification). -/
def msgAt (P : Params) (H : Hash) (m skSeed seed : Bytes) (iTree : Nat) : Nat → Bytes
  | 0 => m
  | j + 1 => xmssV P H skSeed seed j (treeAt P iTree j) P.hp 0

/-- The signature on layer `j` (specification). -/
def layerSig (P : Params) (H : Hash) (m skSeed seed : Bytes) (iTree iLeaf j : Nat) : Bytes :=
  xmssSigV P H (msgAt P H m skSeed seed iTree j) skSeed seed j (treeAt P iTree j) (leafAt P iTree iLeaf j)

/-- The hypertree signature (specification). -/
def htSigV (P : Params) (H : Hash) (m skSeed seed : Bytes) (iTree iLeaf : Nat) : Bytes :=
  (List.range P.d).flatMap (layerSig P H m skSeed seed iTree iLeaf)

theorem treeAt_succ (P : Params) (iTree j : Nat) : treeAt P iTree j / 2 ^ P.hp = treeAt P iTree (j + 1) := by
  unfold treeAt; rw [Nat.div_div_eq_div_mul, ← Nat.pow_add, Nat.mul_succ]

theorem msgAt_length {P : Params} {H : Hash} (hH : H.Sized P) (m skSeed seed : Bytes) (iTree j : Nat) (hm : m.length = P.n) :
    (msgAt P H m skSeed seed iTree j).length = P.n := by
  cases j with
  | zero => exact hm
  | succ j => exact xmssV_length hH _ _ _ _ _ _

theorem leafAt_lt (P : Params) (iTree iLeaf j : Nat) (h : iLeaf < 2 ^ P.hp) : leafAt P iTree iLeaf j < 2 ^ P.hp := by
  cases j with
  | zero => exact h
  | succ j => exact Nat.mod_lt _ (Nat.two_pow_pos _)

theorem treeAt_lt {P : Params} (hP : Ok P) (iTree j : Nat) (h : iTree < 2 ^ (P.h - P.hp)) : treeAt P iTree j < 256 ^ 12 :=
  Nat.lt_of_le_of_lt (Nat.div_le_self _ _) (Nat.lt_of_lt_of_le h hP.tree)

theorem htSign_eq {P : Params} (hP : Ok P) {H : Hash} (hH : H.Sized P) (m skSeed seed : Bytes) (iTree iLeaf : Nat)
    (hm : m.length = P.n) (ht : iTree < 2 ^ (P.h - P.hp)) (hl : iLeaf < 2 ^ P.hp) :
    htSign P H m skSeed seed iTree iLeaf = .ok (htSigV P H m skSeed seed iTree iLeaf) := by
  have ht0 : iTree < 256 ^ 12 := Nat.lt_of_lt_of_le ht hP.tree
  obtain ⟨t1, x1, c1, y1, e1⟩ := xmssSign_eq hP H m skSeed seed 0 iTree iLeaf .wotsHash 0 0 0 hl hm
  obtain ⟨t2, x2, c2, y2, e2⟩ := xmssPkFromSig_eq hP hH m skSeed seed 0 iTree iLeaf t1 x1 c1 y1 hl hm
  have tr0 : treeAt P iTree 0 = iTree := by simp [treeAt]
  have hd := hP.d
  have hd' := hP.d'
  obtain ⟨st, e, hi⟩ := forRange_inv (htSignStep P H skSeed seed)
    (fun j st => st.iTree = treeAt P iTree j ∧ (∃ L T ty x c y, st.adrs = enc ⟨L, T, ty, x, c, y⟩) ∧
      st.sig = (List.range (j + 1)).flatMap (layerSig P H m skSeed seed iTree iLeaf) ∧
      (j < P.d - 1 → st.root = msgAt P H m skSeed seed iTree (j + 1))) (P.d - 1)
    ⟨iLeaf, iTree, enc ⟨0, iTree, t2, x2, c2, y2⟩, xmssSigV P H m skSeed seed 0 iTree iLeaf, xmssV P H skSeed seed 0 iTree P.hp 0⟩
    ⟨tr0.symm, ⟨_, _, _, _, _, _, rfl⟩, by
      simp only [List.range_one, List.flatMap_singleton, Nat.zero_add]
      unfold layerSig msgAt leafAt
      rw [tr0], fun _ => by
        show _ = xmssV P H skSeed seed 0 (treeAt P iTree 0) P.hp 0
        rw [tr0]⟩ (by
      intro j st hj ⟨h1, ⟨L, T, ty, x, c, y, h2⟩, h3, h4⟩
      have h4 := h4 hj
      have htr : st.iTree / 2 ^ P.hp = treeAt P iTree (j + 1) := by rw [h1, treeAt_succ]
      have hlf : st.iTree % 2 ^ P.hp = leafAt P iTree iLeaf (j + 1) := by rw [h1]; rfl
      have hlt := leafAt_lt P iTree iLeaf (j + 1) hl
      have htl := treeAt_lt hP iTree (j + 1) ht
      have hml : st.root.length = P.n := by rw [h4]; exact msgAt_length hH _ _ _ _ _ hm
      obtain ⟨t1, x1, c1, y1, e1⟩ := xmssSign_eq hP H st.root skSeed seed (j + 1) (treeAt P iTree (j + 1)) (leafAt P iTree iLeaf (j + 1)) ty x c y hlt hml
      obtain ⟨t2, x2, c2, y2, e2⟩ := xmssPkFromSig_eq hP hH st.root skSeed seed (j + 1) (treeAt P iTree (j + 1)) (leafAt P iTree iLeaf (j + 1)) t1 x1 c1 y1 hlt hml
      have hsig : st.sig ++ xmssSigV P H st.root skSeed seed (j + 1) (treeAt P iTree (j + 1)) (leafAt P iTree iLeaf (j + 1)) =
          (List.range (j + 1 + 1)).flatMap (layerSig P H m skSeed seed iTree iLeaf) := by
        rw [flatMap_snoc, h3, h4]; rfl
      unfold htSignStep
      simp only [htr, hlf, h2, setLayer_enc ⟨L, T, ty, x, c, y⟩ (j + 1) (by omega), setTree_enc ⟨j + 1, T, ty, x, c, y⟩ _ htl, bind, Except.bind, e1]
      by_cases hlast : j + 1 < P.d - 1
      · rw [if_pos hlast]
        simp only [e2]
        exact ⟨_, rfl, rfl, ⟨_, _, _, _, _, _, rfl⟩, hsig, fun _ => rfl⟩
      · rw [if_neg hlast]
        exact ⟨_, rfl, rfl, ⟨_, _, _, _, _, _, rfl⟩, hsig, fun h => absurd h hlast⟩)
  unfold htSign
  simp only [newAdrs_enc, setTree_enc ⟨0, 0, .wotsHash, 0, 0, 0⟩ iTree ht0, bind, Except.bind, e1, e2, e]
  rw [hi.2.2.1, show P.d - 1 + 1 = P.d by omega]
  rfl

theorem htVerify_eq {P : Params} (hP : Ok P) {H : Hash} (hH : H.Sized P) (m skSeed seed root : Bytes) (iTree iLeaf : Nat)
    (hm : m.length = P.n) (ht : iTree < 2 ^ (P.h - P.hp)) (hl : iLeaf < 2 ^ P.hp) :
    htVerify P H m (htSigV P H m skSeed seed iTree iLeaf) seed iTree iLeaf root = .ok (xmssV P H skSeed seed (P.d - 1) 0 P.hp 0 == root) := by
  have ht0 : iTree < 256 ^ 12 := Nat.lt_of_lt_of_le ht hP.tree
  obtain ⟨t2, x2, c2, y2, e2⟩ := xmssPkFromSig_eq hP hH m skSeed seed 0 iTree iLeaf .wotsHash 0 0 0 hl hm
  have tr0 : treeAt P iTree 0 = iTree := by simp [treeAt]
  have hd := hP.d
  have hd' := hP.d'
  have hsl : ∀ j < P.d, slice (htSigV P H m skSeed seed iTree iLeaf) (j * ((P.hp + P.len) * P.n)) ((j + 1) * ((P.hp + P.len) * P.n)) =
      layerSig P H m skSeed seed iTree iLeaf j := fun j hj => slice_chunk' _ _ _ _ (fun _ _ => xmssSigV_length hH _ _ _ _ _ _) hj
  have hs0 : slice (htSigV P H m skSeed seed iTree iLeaf) 0 ((P.hp + P.len) * P.n) = xmssSigV P H m skSeed seed 0 iTree iLeaf := by
    have := hsl 0 (by omega)
    rw [Nat.zero_mul, Nat.zero_add, Nat.one_mul] at this
    rw [this]; unfold layerSig msgAt leafAt; rw [tr0]
  obtain ⟨st, e, hi⟩ := forRange_inv (htVerStep P H (htSigV P H m skSeed seed iTree iLeaf) seed)
    (fun j st => st.iTree = treeAt P iTree j ∧ (∃ L T ty x c y, st.adrs = enc ⟨L, T, ty, x, c, y⟩) ∧
      st.root = msgAt P H m skSeed seed iTree (j + 1)) (P.d - 1)
    ⟨iLeaf, iTree, enc ⟨0, iTree, t2, x2, c2, y2⟩, [], xmssV P H skSeed seed 0 iTree P.hp 0⟩
    ⟨tr0.symm, ⟨_, _, _, _, _, _, rfl⟩, by
      show _ = xmssV P H skSeed seed 0 (treeAt P iTree 0) P.hp 0
      rw [tr0]⟩ (by
      intro j st hj ⟨h1, ⟨L, T, ty, x, c, y, h2⟩, h4⟩
      have htr : st.iTree / 2 ^ P.hp = treeAt P iTree (j + 1) := by rw [h1, treeAt_succ]
      have hlf : st.iTree % 2 ^ P.hp = leafAt P iTree iLeaf (j + 1) := by rw [h1]; rfl
      have hlt := leafAt_lt P iTree iLeaf (j + 1) hl
      have htl := treeAt_lt hP iTree (j + 1) ht
      have hml : st.root.length = P.n := by rw [h4]; exact msgAt_length hH _ _ _ _ _ hm
      have hsj : slice (htSigV P H m skSeed seed iTree iLeaf) ((j + 1) * (P.hp + P.len) * P.n) ((j + 1 + 1) * (P.hp + P.len) * P.n) =
          xmssSigV P H st.root skSeed seed (j + 1) (treeAt P iTree (j + 1)) (leafAt P iTree iLeaf (j + 1)) := by
        rw [Nat.mul_assoc, Nat.mul_assoc, hsl (j + 1) (by omega), h4]; rfl
      obtain ⟨t2, x2, c2, y2, e2⟩ := xmssPkFromSig_eq hP hH st.root skSeed seed (j + 1) (treeAt P iTree (j + 1)) (leafAt P iTree iLeaf (j + 1)) ty x c y hlt hml
      unfold htVerStep
      simp only [htr, hlf, h2, setLayer_enc ⟨L, T, ty, x, c, y⟩ (j + 1) (by omega), setTree_enc ⟨j + 1, T, ty, x, c, y⟩ _ htl, bind, Except.bind, hsj, e2]
      exact ⟨_, rfl, rfl, ⟨_, _, _, _, _, _, rfl⟩, rfl⟩)
  have hz : treeAt P iTree (P.d - 1) = 0 := by
    unfold treeAt
    apply Nat.div_eq_of_lt
    have : P.h - P.hp = P.hp * (P.d - 1) := by rw [hP.h, Nat.mul_sub, Nat.mul_one, Nat.mul_comm]
    rwa [← this]
  unfold htVerify
  simp only [newAdrs_enc, setTree_enc ⟨0, 0, .wotsHash, 0, 0, 0⟩ iTree ht0, bind, Except.bind, hs0, e2, e]
  rw [hi.2.2]
  show Except.ok (xmssV P H skSeed seed (P.d - 1) (treeAt P iTree (P.d - 1)) P.hp 0 == root) = _
  rw [hz]

/-! ## FORS -/

/-- The secret value `i` of FORS key `kp` (specification). -/
def forsSkV (H : Hash) (skSeed seed : Bytes) (L T kp i : Nat) : Bytes := H.prf seed skSeed (enc ⟨L, T, .forsPrf, kp, 0, i⟩)

/-- The node `i` of height `z` of the FORS trees (specification). -/
def forsV (H : Hash) (skSeed seed : Bytes) (L T kp : Nat) : Nat → Nat → Bytes
  | 0, i => H.f seed (enc ⟨L, T, .forsTree, kp, 0, i⟩) (forsSkV H skSeed seed L T kp i)
  | z + 1, i => H.h seed (enc ⟨L, T, .forsTree, kp, z + 1, i⟩)
      (forsV H skSeed seed L T kp z (2 * i) ++ forsV H skSeed seed L T kp z (2 * i + 1))

theorem forsV_length {P : Params} {H : Hash} (hH : H.Sized P) (skSeed seed : Bytes) (L T kp z i : Nat) :
    (forsV H skSeed seed L T kp z i).length = P.n := by
  cases z with
  | zero => exact hH.f _ _ _
  | succ z => exact hH.h _ _ _

theorem forsSkGen_eq (H : Hash) (skSeed seed : Bytes) (L T kp c y i : Nat) (ty : AType) (hk : kp < 256 ^ 4) (hi : i < 256 ^ 4) :
    forsSkGen H skSeed seed (enc ⟨L, T, ty, kp, c, y⟩) i = .ok (forsSkV H skSeed seed L T kp i) := by
  unfold forsSkGen
  simp only [setType_enc, getKeyPair_enc ⟨L, T, ty, kp, c, y⟩ hk, setKeyPair_enc ⟨L, T, .forsPrf, 0, 0, 0⟩ kp hk,
    setIndex_enc ⟨L, T, .forsPrf, kp, 0, 0⟩ i hi, bind, Except.bind]
  rfl

theorem forsNode_eq {P : Params} (hP : Ok P) (H : Hash) (skSeed seed : Bytes) (L T kp : Nat) (hk : kp < 256 ^ 4) (z : Nat) :
    ∀ (i c y : Nat), z ≤ P.a → i < P.k * 2 ^ (P.a - z) →
    ∃ c' y', forsNode P H skSeed seed z i (enc ⟨L, T, .forsTree, kp, c, y⟩) =
      .ok (forsV H skSeed seed L T kp z i, enc ⟨L, T, .forsTree, kp, c', y'⟩) := by
  have hf := hP.fors
  have ha := hP.a
  induction z with
  | zero =>
    intro i c y _ hi
    have hi' : i < 256 ^ 4 := Nat.lt_of_lt_of_le hi hf
    refine ⟨0, i, ?_⟩
    rw [forsNode, if_neg (by omega)]
    simp only [forsSkGen_eq H skSeed seed L T kp c y i .forsTree hk hi', setHeight_enc ⟨L, T, .forsTree, kp, c, y⟩ 0 (by omega),
      setIndex_enc ⟨L, T, .forsTree, kp, 0, y⟩ i hi', bind, Except.bind]
    rfl
  | succ z ih =>
    intro i c y hz hi
    have e2 : P.k * 2 ^ (P.a - z) = 2 * (P.k * 2 ^ (P.a - (z + 1))) := by
      rw [show P.a - z = (P.a - (z + 1)) + 1 by omega, Nat.pow_succ, ← Nat.mul_assoc, Nat.mul_comm]
    have hi' : i < 256 ^ 4 := by
      have : P.k * 2 ^ (P.a - (z + 1)) ≤ P.k * 2 ^ P.a := Nat.mul_le_mul_left _ (Nat.pow_le_pow_right (by omega) (by omega))
      omega
    obtain ⟨c1, y1, e⟩ := ih (2 * i) c y (by omega) (by omega)
    obtain ⟨c3, y3, e3⟩ := ih (2 * i + 1) c1 y1 (by omega) (by omega)
    refine ⟨z + 1, i, ?_⟩
    rw [forsNode, if_neg (by omega)]
    simp only [e, bind, Except.bind, e3, setHeight_enc ⟨L, T, .forsTree, kp, c3, y3⟩ (z + 1) (by omega),
      setIndex_enc ⟨L, T, .forsTree, kp, z + 1, y3⟩ i hi']
    rfl

/-- The authentication path of tree `i` for leaf `idx` (specification). -/
def forsAuthV (P : Params) (H : Hash) (skSeed seed : Bytes) (L T kp i idx : Nat) : Bytes :=
  (List.range P.a).flatMap (fun j => forsV H skSeed seed L T kp j (i * 2 ^ (P.a - j) + ((idx / 2 ^ j) ^^^ 1)))

/-- The part of the signature that belongs to tree `i` (specification). -/
def forsBlockV (P : Params) (H : Hash) (skSeed seed : Bytes) (L T kp i idx : Nat) : Bytes :=
  forsSkV H skSeed seed L T kp (i * 2 ^ P.a + idx) ++ forsAuthV P H skSeed seed L T kp i idx

/-- The leaf index of tree `i` (specification). -/
def forsIdx (P : Params) (md : Bytes) (i : Nat) : Nat := digit (val md) (8 * md.length) P.a i

/-- The FORS signature (specification). -/
def forsSigV (P : Params) (H : Hash) (md skSeed seed : Bytes) (L T kp : Nat) : Bytes :=
  (List.range P.k).flatMap (fun i => forsBlockV P H skSeed seed L T kp i (forsIdx P md i))

/-- The FORS public key (specification). -/
def forsPkV (P : Params) (H : Hash) (skSeed seed : Bytes) (L T kp : Nat) : Bytes :=
  H.t seed (enc ⟨L, T, .forsRoots, kp, 0, 0⟩) ((List.range P.k).flatMap (forsV H skSeed seed L T kp P.a))

theorem fors_base {P : Params} (md : Bytes) (hm : P.k * P.a ≤ 8 * md.length) :
    base2b md P.a P.k = .ok ((List.range P.k).map (forsIdx P md)) := base2b_spec md P.a P.k (by rw [Nat.mul_comm]; exact hm)

theorem getD_map_range (f : Nat → Nat) (k i : Nat) (h : i < k) : ((List.range k).map f).getD i 0 = f i := by
  simp [List.getD, h]

theorem leaf_lt {P : Params} (hP : Ok P) {i idx : Nat} (hi : i < P.k) (hx : idx < 2 ^ P.a) :
    i * 2 ^ P.a + idx < 256 ^ 4 := by
  have : (i + 1) * 2 ^ P.a ≤ P.k * 2 ^ P.a := Nat.mul_le_mul_right _ hi
  have hf := hP.fors
  rw [Nat.succ_mul] at this
  omega

theorem leaf_div {a i idx j : Nat} (hj : j ≤ a) : (i * 2 ^ a + idx) / 2 ^ j = i * 2 ^ (a - j) + idx / 2 ^ j := by
  have e : i * 2 ^ a = 2 ^ j * (i * 2 ^ (a - j)) := by
    rw [Nat.mul_left_comm, ← Nat.pow_add, show j + (a - j) = a by omega]
  rw [e, Nat.mul_add_div (Nat.two_pow_pos j)]

theorem leaf_even {a i j : Nat} (hj : j < a) : i * 2 ^ (a - j) % 2 = 0 := by
  rw [show a - j = (a - j - 1) + 1 by omega, Nat.pow_succ, ← Nat.mul_assoc, Nat.mul_mod_left]

theorem leaf_xor {a i idx j : Nat} (hj : j < a) : ((i * 2 ^ a + idx) / 2 ^ j) ^^^ 1 = i * 2 ^ (a - j) + ((idx / 2 ^ j) ^^^ 1) := by
  have h := leaf_even (i := i) hj
  rw [leaf_div (Nat.le_of_lt hj), xor_one, xor_one]
  generalize i * 2 ^ (a - j) = A at *
  generalize idx / 2 ^ j = B at *
  split <;> split <;> omega

theorem forsSign_eq {P : Params} (hP : Ok P) (H : Hash) (md skSeed seed : Bytes) (L T kp c y : Nat) (hk : kp < 256 ^ 4)
    (hm : P.k * P.a ≤ 8 * md.length) :
    ∃ c' y', forsSign P H md skSeed seed (enc ⟨L, T, .forsTree, kp, c, y⟩) =
      .ok (forsSigV P H md skSeed seed L T kp, enc ⟨L, T, .forsTree, kp, c', y'⟩) := by
  obtain ⟨st, e, c', y', hi⟩ := forRange_inv (forsSignStep P H skSeed seed ((List.range P.k).map (forsIdx P md)))
    (fun i st => ∃ c y, st = ((List.range i).flatMap (fun i => forsBlockV P H skSeed seed L T kp i (forsIdx P md i)), enc ⟨L, T, .forsTree, kp, c, y⟩)) P.k
    ([], enc ⟨L, T, .forsTree, kp, c, y⟩) ⟨c, y, rfl⟩ (by
      intro i st hi ⟨c, y, e⟩
      subst e
      have hx : forsIdx P md i < 2 ^ P.a := digit_lt _ _ _ _
      have hlt := leaf_lt hP hi hx
      unfold forsSignStep
      simp only [getD_map_range _ _ _ hi, forsSkGen_eq H skSeed seed L T kp c y _ .forsTree hk hlt, bind, Except.bind]
      generalize hpre : (List.range i).flatMap (fun i => forsBlockV P H skSeed seed L T kp i (forsIdx P md i)) = pre
      obtain ⟨st, e, c', y', hi2⟩ := forRange_inv (forsAuthStep P H skSeed seed i (forsIdx P md i))
        (fun j st => ∃ c y, st = (pre ++ forsSkV H skSeed seed L T kp (i * 2 ^ P.a + forsIdx P md i) ++
          (List.range j).flatMap (fun j => forsV H skSeed seed L T kp j (i * 2 ^ (P.a - j) + ((forsIdx P md i / 2 ^ j) ^^^ 1))),
          enc ⟨L, T, .forsTree, kp, c, y⟩)) P.a
        (pre ++ forsSkV H skSeed seed L T kp (i * 2 ^ P.a + forsIdx P md i), enc ⟨L, T, .forsTree, kp, c, y⟩) ⟨c, y, by simp⟩ (by
          intro j st hj ⟨c, y, e⟩
          subst e
          have hlt : i * 2 ^ (P.a - j) + ((forsIdx P md i / 2 ^ j) ^^^ 1) < P.k * 2 ^ (P.a - j) := by
            have h1 := div_pow_lt hx (Nat.le_of_lt hj)
            have h2 : (forsIdx P md i / 2 ^ j) ^^^ 1 < 2 ^ (P.a - j) := by
              rw [show P.a - j = (P.a - j - 1) + 1 by omega] at h1 ⊢
              exact xor_one_lt _ _ h1
            have : (i + 1) * 2 ^ (P.a - j) ≤ P.k * 2 ^ (P.a - j) := Nat.mul_le_mul_right _ hi
            rw [Nat.succ_mul] at this
            omega
          obtain ⟨c', y', e⟩ := forsNode_eq hP H skSeed seed L T kp hk j _ c y (Nat.le_of_lt hj) hlt
          refine ⟨_, ?_, c', y', rfl⟩
          unfold forsAuthStep
          simp only [e, bind, Except.bind, flatMap_snoc, List.append_assoc])
      refine ⟨_, by rw [e], c', y', ?_⟩
      rw [hi2, flatMap_snoc, hpre]
      unfold forsBlockV forsAuthV
      rw [List.append_assoc])
  refine ⟨c', y', ?_⟩
  unfold forsSign
  simp only [fors_base md hm, bind, Except.bind]
  rw [e, hi]
  rfl

theorem forsBlockV_length {P : Params} {H : Hash} (hH : H.Sized P) (skSeed seed : Bytes) (L T kp i idx : Nat) :
    (forsBlockV P H skSeed seed L T kp i idx).length = (P.a + 1) * P.n := by
  unfold forsBlockV forsAuthV forsSkV
  rw [List.length_append, hH.prf, flatMap_len _ P.n _ (fun _ _ => forsV_length hH _ _ _ _ _ _ _), Nat.succ_mul, Nat.add_comm]

theorem forsSigV_length {P : Params} {H : Hash} (hH : H.Sized P) (md skSeed seed : Bytes) (L T kp : Nat) :
    (forsSigV P H md skSeed seed L T kp).length = P.k * ((P.a + 1) * P.n) :=
  flatMap_len _ _ _ (fun _ _ => forsBlockV_length hH _ _ _ _ _ _ _)

theorem forsSigV_parts {P : Params} {H : Hash} (hH : H.Sized P) (md skSeed seed : Bytes) (L T kp i : Nat) (hi : i < P.k) :
    slice (forsSigV P H md skSeed seed L T kp) (i * (P.a + 1) * P.n) ((i * (P.a + 1) + 1) * P.n) =
      forsSkV H skSeed seed L T kp (i * 2 ^ P.a + forsIdx P md i) ∧
    slice (forsSigV P H md skSeed seed L T kp) ((i * (P.a + 1) + 1) * P.n) ((i + 1) * (P.a + 1) * P.n) =
      forsAuthV P H skSeed seed L T kp i (forsIdx P md i) := by
  let f := fun i => forsBlockV P H skSeed seed L T kp i (forsIdx P md i)
  have hlen : ∀ i, (f i).length = (P.a + 1) * P.n := fun i => forsBlockV_length hH _ _ _ _ _ _ _
  have hsplit : forsSigV P H md skSeed seed L T kp = (List.range i).flatMap f ++ (forsSkV H skSeed seed L T kp (i * 2 ^ P.a + forsIdx P md i) ++
      (forsAuthV P H skSeed seed L T kp i (forsIdx P md i) ++ ((List.range (P.k - i - 1)).map (i + 1 + ·)).flatMap f)) := by
    have e : List.range P.k = List.range i ++ ([i] ++ (List.range (P.k - i - 1)).map (i + 1 + ·)) := by
      have : P.k = i + (1 + (P.k - i - 1)) := by omega
      conv => lhs; rw [this, List.range_add, List.range_add]
      simp [List.map_map, Function.comp_def, Nat.add_assoc]
    show (List.range P.k).flatMap f = _
    rw [e, List.flatMap_append, List.flatMap_append, List.flatMap_singleton]
    show _ ++ ((forsSkV _ _ _ _ _ _ _ ++ forsAuthV _ _ _ _ _ _ _ _ _) ++ _) = _
    rw [List.append_assoc]
  have hpre : ((List.range i).flatMap f).length = i * (P.a + 1) * P.n := by
    rw [flatMap_len f _ i (fun j _ => hlen j), Nat.mul_assoc]
  have hsk : (forsSkV H skSeed seed L T kp (i * 2 ^ P.a + forsIdx P md i)).length = P.n := hH.prf _ _ _
  have hau : (forsAuthV P H skSeed seed L T kp i (forsIdx P md i)).length = P.a * P.n :=
    flatMap_len _ _ _ (fun _ _ => forsV_length hH _ _ _ _ _ _ _)
  rw [hsplit]
  constructor
  · apply slice_mid
    · exact hpre
    · rw [hpre, hsk, Nat.succ_mul]
  · rw [← List.append_assoc]
    apply slice_mid
    · rw [List.length_append, hpre, hsk, Nat.succ_mul]
    · rw [List.length_append, hpre, hsk, hau, Nat.succ_mul i, Nat.add_mul, Nat.add_mul P.a]
      omega

theorem forsPkFromSig_eq {P : Params} (hP : Ok P) {H : Hash} (hH : H.Sized P) (md skSeed seed : Bytes) (L T kp c y : Nat) (hk : kp < 256 ^ 4)
    (hm : P.k * P.a ≤ 8 * md.length) :
    ∃ a', forsPkFromSig P H (forsSigV P H md skSeed seed L T kp) md seed (enc ⟨L, T, .forsTree, kp, c, y⟩) =
      .ok (forsPkV P H skSeed seed L T kp, a') := by
  obtain ⟨st, e, c', y', hi⟩ := forRange_inv (forsPkStep P H (forsSigV P H md skSeed seed L T kp) seed ((List.range P.k).map (forsIdx P md)))
    (fun i st => ∃ c y, st = ((List.range i).flatMap (forsV H skSeed seed L T kp P.a), enc ⟨L, T, .forsTree, kp, c, y⟩)) P.k
    ([], enc ⟨L, T, .forsTree, kp, c, y⟩) ⟨c, y, rfl⟩ (by
      intro i st hi ⟨c, y, e⟩
      subst e
      have hx : forsIdx P md i < 2 ^ P.a := digit_lt _ _ _ _
      have hlt := leaf_lt hP hi hx
      obtain ⟨p1, p2⟩ := forsSigV_parts hH md skSeed seed L T kp i hi
      obtain ⟨c2, e2⟩ := climb_loop P H seed L T .forsTree kp 0 (forsV H skSeed seed L T kp) (fun z i => rfl) (forsIdx P md i)
        (i * 2 ^ P.a + forsIdx P md i) P.a (forsAuthV P H skSeed seed L T kp i (forsIdx P md i))
        (fun j hj => by have := leaf_even (i := i) hj; rw [leaf_div (Nat.le_of_lt hj)]; omega) hlt hP.a
        (fun j hj => by
          rw [leaf_xor hj]
          exact slice_chunk' (fun j => forsV H skSeed seed L T kp j (i * 2 ^ (P.a - j) + ((forsIdx P md i / 2 ^ j) ^^^ 1))) _ _ _
            (fun _ _ => forsV_length hH _ _ _ _ _ _ _) hj)
      have hgi : (i * 2 ^ P.a + forsIdx P md i) / 2 ^ P.a = i := by
        rw [leaf_div (Nat.le_refl _), Nat.div_eq_of_lt hx]; simp
      rw [hgi] at e2
      unfold forsPkStep
      simp only [getD_map_range _ _ _ hi, p1, p2, setHeight_enc ⟨L, T, .forsTree, kp, c, y⟩ 0 (by omega), bind, Except.bind,
        setIndex_enc ⟨L, T, .forsTree, kp, 0, y⟩ _ hlt]
      have e3 : forRange (climbStep P H seed (forsIdx P md i) (forsAuthV P H skSeed seed L T kp i (forsIdx P md i))) P.a
          (H.f seed (enc ⟨L, T, .forsTree, kp, 0, i * 2 ^ P.a + forsIdx P md i⟩) (forsSkV H skSeed seed L T kp (i * 2 ^ P.a + forsIdx P md i)),
            enc ⟨L, T, .forsTree, kp, 0, i * 2 ^ P.a + forsIdx P md i⟩) = _ := e2
      rw [e3]
      simp only [flatMap_snoc]
      exact ⟨_, rfl, c2, i, rfl⟩)
  subst hi
  refine ⟨enc ⟨L, T, .forsTree, kp, c', y'⟩, ?_⟩
  unfold forsPkFromSig
  simp only [fors_base md hm, bind, Except.bind, e, setType_enc, getKeyPair_enc ⟨L, T, .forsTree, kp, c', y'⟩ hk,
    setKeyPair_enc ⟨L, T, .forsRoots, 0, 0, 0⟩ kp hk]
  rfl

end Verif.PQ.Slh
