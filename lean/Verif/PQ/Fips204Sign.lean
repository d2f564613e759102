import Verif.PQ.Fips204Sample
import Verif.PQ.Fips204Hint

/-! Signing and verification of `fips204.py`. -/

namespace Verif.PQ.Dsa

open Verif.CA (Bytes PyErr)
open Verif.PQ.Kem (slice zeroPoly flatMap_congr' slice_append_left slice_mid slice_chunk)
open Finset

/-! ### Norms -/

theorem foldl_max_lt {α : Type} (f : α → Int) (B : Int) (l : List α) (a : Int) :
    l.foldl (fun y x => max y (f x)) a < B ↔ a < B ∧ ∀ x ∈ l, f x < B := by
  induction l generalizing a with
  | nil => simp
  | cons x l ih =>
    rw [List.foldl_cons, ih]
    simp only [List.mem_cons, forall_eq_or_imp]
    rw [Int.max_lt, and_assoc]

theorem infNorm_lt (x : List Int) (B : Int) (hB : 0 < B) : infNorm x < B ↔ ∀ a ∈ x, ((modpm a q).natAbs : Int) < B := by
  unfold infNorm; rw [foldl_max_lt]; simp [hB]

theorem infNormVec_lt (n : Nat) (x : Nat → List Int) (B : Int) (hB : 0 < B) :
    infNormVec n x < B ↔ ∀ i < n, ∀ a ∈ x i, ((modpm a q).natAbs : Int) < B := by
  unfold infNormVec
  rw [foldl_max_lt]
  simp only [hB, true_and, List.mem_range]
  exact forall_congr' fun i => forall_congr' fun _ => infNorm_lt _ _ hB

theorem infNormVec_congr (n : Nat) (x y : Nat → List Int) (h : ∀ i < n, x i = y i) : infNormVec n x = infNormVec n y := by
  unfold infNormVec
  apply List.foldl_ext
  intro a i hi
  rw [h i (List.mem_range.1 hi)]

theorem modpm_modpm (x : Int) : modpm (modpm x q) q = modpm x q := by
  obtain ⟨k, h1, h2, h3⟩ := modpm_q x
  exact modpm_q_unique (k := 0) (by omega) h2 h3

theorem modpm_res (x : Int) : ((modpm x q : Int) : Zq) = (x : Zq) := by
  obtain ⟨k, h1, _⟩ := modpm_q x
  rw [h1]
  push_cast
  have : ((q : Int) : Zq) = 0 := by decide +kernel
  rw [this]; ring

/-! ### Slices with length known only below the bound -/

theorem slice_chunk_lt (g : Nat → Bytes) (d n i : Nat) (hg : ∀ i < n, (g i).length = d) (hi : i < n) (pre r : Bytes) (m : Nat)
    (hm : pre.length = m) : slice (pre ++ (List.range n).flatMap g ++ r) (m + d * i) (m + d * (i + 1)) = g i := by
  have e : (List.range n).flatMap g = (List.range n).flatMap (fun i => if i < n then g i else List.replicate d 0) :=
    flatMap_congr' (fun j hj => by rw [if_pos (List.mem_range.1 hj)])
  have h2 := slice_chunk (fun i => if i < n then g i else List.replicate d 0) d n i
    (fun j => by split
                 · rename_i h; exact hg j h
                 · simp) hi r
  simp only [if_pos hi] at h2
  rw [← e] at h2
  rw [← h2]
  unfold slice
  rw [List.append_assoc, List.drop_append, List.drop_eq_nil_of_le (by omega), List.nil_append, hm]
  rw [show m + d * i - m = d * i by omega, show m + d * (i + 1) - (m + d * i) = d * (i + 1) - d * i by omega]

theorem flatMap_length_lt (g : Nat → Bytes) (d n : Nat) (hg : ∀ i < n, (g i).length = d) : ((List.range n).flatMap g).length = d * n := by
  induction n with
  | zero => simp
  | succ n ih =>
    rw [List.range_succ, List.flatMap_append, List.length_append, ih (fun i hi => hg i (by omega))]
    simp only [List.flatMap_cons, List.flatMap_nil, List.append_nil]
    rw [hg n (by omega), Nat.mul_succ]

/-! ### Parameters -/

/-- The facts about a parameter set that the proofs use. -/
structure Facts (P : Params) : Prop where
  d : P.d = 13
  g2 : gOk P.gam2
  tau : P.tau ≤ 256
  beta : P.tau * P.eta = P.beta
  beta1 : P.beta < P.gam1
  beta2 : P.beta < P.gam2
  g1 : 0 < P.gam1
  g1q : P.gam1 ≤ 524288
  omega : P.omega < 256
  t1b : t1Bits P = 10
  bl0 : bitLen (P.eta + P.eta) = bitLen (2 * P.eta)
  bl1 : bitLen (2 ^ (13 - 1) - 1 + 2 ^ (13 - 1)) = 13
  bl2 : bitLen (P.gam1 - 1 + P.gam1) = 1 + bitLen (P.gam1 - 1)
  bl3 : bitLen (2 ^ 10 - 1) = 10

theorem facts {P : Params} (h : IsParam P) : Facts P := by
  rcases h with rfl | rfl | rfl <;>
    refine ⟨by decide, ?_, by decide, by decide, by decide, by decide, by decide, by decide, by decide, by decide +kernel, by decide +kernel,
      by decide +kernel, by decide +kernel, by decide +kernel⟩
  · exact .inl rfl
  · exact .inr rfl
  · exact .inr rfl

/-- `h` returns as many bytes as asked for. -/
def Env.Sized (E : Env) : Prop := ∀ x n, (E.h x n).length = n

/-! ### Codecs of keys and signatures -/

/-- A vector of `n` polynomials with coefficients in `[lo, hi]`. -/
def VecIn (n : Nat) (v : Nat → List Int) (lo hi : Int) : Prop :=
  ∀ i < n, (v i).length = 256 ∧ ∀ x ∈ v i, lo ≤ x ∧ x ≤ hi

theorem pk_rho (P : Params) (rho : Bytes) (t1 : Nat → List Int) (hr : rho.length = 32) : pkRho (pkEncode P rho t1) = rho :=
  slice_append_left _ _ _ hr

theorem pk_t1 {P : Params} (F : Facts P) (rho : Bytes) (t1 : Nat → List Int) (hr : rho.length = 32) (ht : VecIn P.k t1 0 1023)
    (i : Nat) (hi : i < P.k) : pkT1 P (pkEncode P rho t1) i = t1 i := by
  unfold pkT1 pkEncode
  rw [F.t1b]
  have h := slice_chunk_lt (fun i => simpleBitPack (t1 i) (2 ^ 10 - 1)) (32 * 10) P.k i
    (fun j _ => by rw [simpleBitPack_length, F.bl3]) hi rho [] 32 hr
  rw [List.append_nil] at h
  rw [h]
  exact simpleBitUnpack_simpleBitPack _ (ht i hi).1 _ (fun x hx => by have := (ht i hi).2 x hx; omega)

theorem pkEncode_length {P : Params} (F : Facts P) (rho : Bytes) (t1 : Nat → List Int) (hr : rho.length = 32) :
    (pkEncode P rho t1).length = 32 + 320 * P.k := by
  unfold pkEncode
  rw [List.length_append, hr, F.t1b, flatMap_length_lt _ 320 P.k (fun i _ => by rw [simpleBitPack_length, F.bl3])]

section Sk
variable {P : Params} (F : Facts P) (rho kk tr : Bytes) (s1 s2 t0 : Nat → List Int)
  (hr : rho.length = 32) (hk : kk.length = 32) (ht : tr.length = 64)
  (h1 : VecIn P.ell s1 (-P.eta) P.eta) (h2 : VecIn P.k s2 (-P.eta) P.eta) (h0 : VecIn P.k t0 (-4095) 4096)
include F hr hk ht

omit F hk ht in
theorem sk_rho : skRho (skEncode P rho kk tr s1 s2 t0) = rho := by
  unfold skRho skEncode; simp only [List.append_assoc]; exact slice_append_left _ _ _ hr

omit F ht in
theorem sk_k : skK (skEncode P rho kk tr s1 s2 t0) = kk := by
  unfold skK skEncode
  simp only [List.append_assoc]
  rw [← List.append_assoc]
  exact slice_mid _ _ _ _ _ hr (by omega)

omit F in
theorem sk_tr : skTr (skEncode P rho kk tr s1 s2 t0) = tr := by
  unfold skTr skEncode
  rw [show rho ++ kk ++ tr ++ (List.range P.ell).flatMap (fun i => bitPack (s1 i) P.eta P.eta) ++
    (List.range P.k).flatMap (fun i => bitPack (s2 i) P.eta P.eta) ++
    (List.range P.k).flatMap (fun i => bitPack (t0 i) (2 ^ (P.d - 1) - 1) (2 ^ (P.d - 1))) =
    (rho ++ kk) ++ tr ++ ((List.range P.ell).flatMap (fun i => bitPack (s1 i) P.eta P.eta) ++
    ((List.range P.k).flatMap (fun i => bitPack (s2 i) P.eta P.eta) ++
    (List.range P.k).flatMap (fun i => bitPack (t0 i) (2 ^ (P.d - 1) - 1) (2 ^ (P.d - 1))))) by simp only [List.append_assoc]]
  exact slice_mid _ _ _ _ _ (by simp [hr, hk]) (by omega)

include h1 in
theorem sk_s1 (i : Nat) (hi : i < P.ell) : skS1 P (skEncode P rho kk tr s1 s2 t0) i = s1 i := by
  unfold skS1 skEncode
  rw [List.append_assoc]
  rw [slice_chunk_lt (fun i => bitPack (s1 i) P.eta P.eta) (etaLen P) P.ell i
    (fun j hj => by rw [bitPack_length _ (h1 j hj).1, F.bl0]; rfl) hi (rho ++ kk ++ tr) _ 128 (by simp [hr, hk, ht])]
  exact bitUnpack_bitPack _ (h1 i hi).1 _ _ (h1 i hi).2

include h1 h2 in
theorem sk_s2 (i : Nat) (hi : i < P.k) : skS2 P (skEncode P rho kk tr s1 s2 t0) i = s2 i := by
  unfold skS2 skEncode
  simp only
  rw [slice_chunk_lt (fun i => bitPack (s2 i) P.eta P.eta) (etaLen P) P.k i
    (fun j hj => by rw [bitPack_length _ (h2 j hj).1, F.bl0]; rfl) hi
    (rho ++ kk ++ tr ++ (List.range P.ell).flatMap (fun i => bitPack (s1 i) P.eta P.eta)) _ (128 + etaLen P * P.ell)
    (by rw [List.length_append, flatMap_length_lt _ (etaLen P) P.ell (fun j hj => by rw [bitPack_length _ (h1 j hj).1, F.bl0]; rfl)]
        simp [hr, hk, ht])]
  exact bitUnpack_bitPack _ (h2 i hi).1 _ _ (h2 i hi).2

include h1 h2 h0 in
theorem sk_t0 (i : Nat) (hi : i < P.k) : skT0 P (skEncode P rho kk tr s1 s2 t0) i = t0 i := by
  unfold skT0 skEncode
  simp only [F.d]
  have e := slice_chunk_lt (fun i => bitPack (t0 i) (2 ^ (13 - 1) - 1) (2 ^ (13 - 1))) (32 * 13) P.k i
    (fun j hj => by rw [bitPack_length _ (h0 j hj).1, F.bl1]) hi
    (rho ++ kk ++ tr ++ (List.range P.ell).flatMap (fun i => bitPack (s1 i) P.eta P.eta) ++
      (List.range P.k).flatMap (fun i => bitPack (s2 i) P.eta P.eta)) [] (128 + etaLen P * P.ell + etaLen P * P.k)
    (by rw [List.length_append, List.length_append,
          flatMap_length_lt _ (etaLen P) P.ell (fun j hj => by rw [bitPack_length _ (h1 j hj).1, F.bl0]; rfl),
          flatMap_length_lt _ (etaLen P) P.k (fun j hj => by rw [bitPack_length _ (h2 j hj).1, F.bl0]; rfl)]
        simp [hr, hk, ht])
  rw [List.append_nil] at e
  rw [e]
  exact bitUnpack_bitPack _ (h0 i hi).1 _ _ (fun x hx => by have := (h0 i hi).2 x hx; omega)

include h1 h2 h0 in
theorem skEncode_length : (skEncode P rho kk tr s1 s2 t0).length = 128 + etaLen P * P.ell + etaLen P * P.k + 416 * P.k := by
  unfold skEncode
  rw [List.length_append, List.length_append, List.length_append,
    flatMap_length_lt _ (etaLen P) P.ell (fun j hj => by rw [bitPack_length _ (h1 j hj).1, F.bl0]; rfl),
    flatMap_length_lt _ (etaLen P) P.k (fun j hj => by rw [bitPack_length _ (h2 j hj).1, F.bl0]; rfl),
    flatMap_length_lt _ 416 P.k (fun j hj => by rw [bitPack_length _ (h0 j hj).1, F.d, F.bl1])]
  simp [hr, hk, ht]

end Sk

section Sig
variable {P : Params} (F : Facts P) (ct : Bytes) (z h : Nat → List Int) (hc : ct.length = P.lam / 4)
  (hz : VecIn P.ell z (-((P.gam1 - 1 : Nat) : Int)) P.gam1) (hh : ∀ i < P.k, IsRow (h i)) (hw : tot h P.k ≤ P.omega)
include F hc hz

omit F hz in
theorem sig_ct : sigCt P (sigEncode P ct z h) = ct := by
  unfold sigCt sigEncode; rw [List.append_assoc]; exact slice_append_left _ _ _ hc

theorem sig_zBytes (i : Nat) (hi : i < P.ell) : sigZBytes P (sigEncode P ct z h) i = bitPack (z i) (P.gam1 - 1) P.gam1 := by
  unfold sigZBytes sigEncode
  rw [slice_chunk_lt (fun i => bitPack (z i) (P.gam1 - 1) P.gam1) (zLen P) P.ell i
    (fun j hj => by rw [bitPack_length _ (hz j hj).1, F.bl2]; rfl) hi ct _ (P.lam / 4) hc]

theorem sig_z (i : Nat) (hi : i < P.ell) : sigZ P (sigEncode P ct z h) i = z i := by
  unfold sigZ
  rw [sig_zBytes F ct z h hc hz i hi]
  exact bitUnpack_bitPack _ (hz i hi).1 _ _ (hz i hi).2

theorem sig_prefix_length : (ct ++ (List.range P.ell).flatMap (fun i => bitPack (z i) (P.gam1 - 1) P.gam1)).length =
    P.lam / 4 + zLen P * P.ell := by
  rw [List.length_append, hc, flatMap_length_lt _ (zLen P) P.ell (fun j hj => by rw [bitPack_length _ (hz j hj).1, F.bl2]; rfl)]

include hw in
theorem sig_h : sigHBytes P (sigEncode P ct z h) = hintBitPack P h := by
  unfold sigHBytes sigEncode
  have hl : (hintBitPack P h).length = P.omega + P.k := by
    rw [hintBitPack_eq P h hw, enc_length P h P.k (Nat.le_refl _) hw]
  have := slice_mid (ct ++ (List.range P.ell).flatMap (fun i => bitPack (z i) (P.gam1 - 1) P.gam1)) (hintBitPack P h) []
    _ (P.lam / 4 + zLen P * P.ell + P.omega + P.k) (sig_prefix_length F ct z hc hz) (by rw [hl]; omega)
  rwa [List.append_nil] at this

include hh hw in
theorem sigDecode_sigEncode : sigDecode P (sigEncode P ct z h) =
    .ok (ct, sigZ P (sigEncode P ct z h), some ((List.range P.k).map h)) := by
  unfold sigDecode
  rw [if_pos, sig_h F ct z h hc hz hw, hintUnpack_pack P h hw F.omega hh, sig_ct ct z h hc]
  rw [List.all_eq_true]
  intro i hi
  have hi := List.mem_range.1 hi
  rw [sig_zBytes F ct z h hc hz i hi, bitPack_length _ (hz i hi).1, F.bl2]
  simp [zLen]

include hw in
theorem sigEncode_length : (sigEncode P ct z h).length = P.lam / 4 + zLen P * P.ell + P.omega + P.k := by
  unfold sigEncode
  rw [List.length_append, sig_prefix_length F ct z hc hz, hintBitPack_eq P h hw, enc_length P h P.k (Nat.le_refl _) hw]
  omega

end Sig

/-! ### The verification equation -/

theorem matVec_congr (P : Params) (a : Nat → Nat → List Int) (v u : Nat → List Int) (i : Nat) (h : ∀ j < P.ell, v j = u j) :
    matVec P a v i = matVec P a u i := by
  unfold matVec
  apply List.foldl_ext
  intro w j hj
  rw [h j (List.mem_range.1 hj)]

attribute [local irreducible] ntt nttInv mulNtt in
/-- The value from which `verify_internal` recovers `w1` is `w - c s2 + c t0`. -/
theorem verify_equation (P : Params) (a : Nat → Nat → List Int) (s1 y z : Nat → List Int) (s2 t0 T c : List Int) (i : Nat)
    (hy : ∀ j < P.ell, (y j).length = 256) (hz : ∀ j < P.ell, (z j).length = 256)
    (hs2 : s2.length = 256) (ht0 : t0.length = 256) (hT : T.length = 256)
    (ez : ∀ j < P.ell, ∀ k < 256, res (z j) k = res (add (y j) (nttInv (mulNtt (ntt c) (ntt (s1 j))))) k)
    (eT : ∀ k < 256, res T k + res t0 k = res (add (nttInv (matVec P a (fun j => ntt (s1 j)) i)) s2) k) :
    nttInv (sub (matVec P a (fun j => ntt (z j)) i) (mulNtt (ntt c) (ntt T))) =
      add (sub (nttInv (matVec P a (fun j => ntt (y j)) i)) (nttInv (mulNtt (ntt c) (ntt s2)))) (nttInv (mulNtt (ntt c) (ntt t0))) := by
  have lmv : ∀ v, (matVec P a v i).length = 256 := fun v => matVec_length P a v i
  have lim : ∀ v, (nttInv (matVec P a v i)).length = 256 := fun v => nttInv_length _ (lmv v)
  have lm : ∀ f g, (nttInv (mulNtt f g)).length = 256 := fun f g => nttInv_length _ (mulNtt_length f g)
  have lsub : (sub (matVec P a (fun j => ntt (z j)) i) (mulNtt (ntt c) (ntt T))).length = 256 := by rw [sub_length, lmv]
  have lws : (sub (nttInv (matVec P a (fun j => ntt (y j)) i)) (nttInv (mulNtt (ntt c) (ntt s2)))).length = 256 := by
    rw [sub_length, lim]
  apply list_eq_of_cast (Q := 8380417) (nttInv_length _ lsub) (by rw [add_length, lws]) (nttInv_range _ lsub)
  · intro k hk
    rw [add_at _ _ k (by rw [lws]; exact hk)]
    exact emod_q_range _
  apply res_of_fwdT
  intro k hk
  rw [fwdT_nttInv _ lsub k hk, sub_res _ _ k (by rw [lmv]; exact hk), matVec_res P a _ i k hk, mulNtt_res _ _ k hk]
  -- the right-hand side
  have er : fwdT zt 8 (res (add (sub (nttInv (matVec P a (fun j => ntt (y j)) i)) (nttInv (mulNtt (ntt c) (ntt s2)))) (nttInv (mulNtt (ntt c) (ntt t0))))) k =
      (∑ j ∈ range P.ell, res (a i j) k * res (ntt (y j)) k) - res (ntt c) k * res (ntt s2) k + res (ntt c) k * res (ntt t0) k := by
    rw [fwdT_congr zt 8 (by omega) _ (fun k => (res (nttInv (matVec P a (fun j => ntt (y j)) i)) k -
        res (nttInv (mulNtt (ntt c) (ntt s2))) k) + res (nttInv (mulNtt (ntt c) (ntt t0))) k)
      (fun k hk => by rw [add_res _ _ k (by rw [lws]; exact hk), sub_res _ _ k (by rw [lim]; exact hk)]) k hk]
    rw [fwdT_add, fwdT_sub]
    simp only
    rw [fwdT_nttInv _ (lmv _) k hk, fwdT_nttInv _ (mulNtt_length _ _) k hk, fwdT_nttInv _ (mulNtt_length _ _) k hk,
      matVec_res P a _ i k hk, mulNtt_res _ _ k hk, mulNtt_res _ _ k hk]
  refine Eq.trans ?_ er.symm
  -- the transform of `z`
  have hzh : ∀ j ∈ range P.ell, res (a i j) k * res (ntt (z j)) k =
      res (a i j) k * res (ntt (y j)) k + res (ntt c) k * (res (a i j) k * res (ntt (s1 j)) k) := by
    intro j hj
    have hj := mem_range.1 hj
    have : res (ntt (z j)) k = res (ntt (y j)) k + res (ntt c) k * res (ntt (s1 j)) k := by
      rw [ntt_res _ (hz j hj) k hk, fwdT_congr zt 8 (by omega) _ (fun k => res (y j) k + res (nttInv (mulNtt (ntt c) (ntt (s1 j)))) k)
        (fun k hk => by rw [ez j hj k hk, add_res _ _ k (by rw [hy j hj]; exact hk)]) k hk, fwdT_add]
      simp only
      rw [fwdT_nttInv _ (mulNtt_length _ _) k hk, mulNtt_res _ _ k hk, ntt_res _ (hy j hj) k hk]
    rw [this]; ring
  -- the transform of `t1 * 2^d`
  have hTh : res (ntt T) k = (∑ j ∈ range P.ell, res (a i j) k * res (ntt (s1 j)) k) + res (ntt s2) k - res (ntt t0) k := by
    rw [ntt_res _ hT k hk, fwdT_congr zt 8 (by omega) _ (fun k => (res (nttInv (matVec P a (fun j => ntt (s1 j)) i)) k + res s2 k) - res t0 k)
      (fun k hk => by
        have := eT k hk
        rw [add_res _ _ k (by rw [lim]; exact hk)] at this
        rw [← this]; ring) k hk, fwdT_sub, fwdT_add]
    simp only
    rw [fwdT_nttInv _ (lmv _) k hk, matVec_res P a _ i k hk, ntt_res _ hs2 k hk, ntt_res _ ht0 k hk]
  rw [sum_congr rfl hzh, sum_add_distrib, ← mul_sum, hTh]
  ring

/-! ### The hint of a signing round -/

theorem emod_ex (x : Int) : ∃ k : Int, x % q = x + k * q := by
  have := Int.mul_ediv_add_emod x q
  exact ⟨-(x / q), by rw [Int.neg_mul, Int.mul_comm]; omega⟩

theorem mem_at (l : List Int) (k : Nat) (h : k < l.length) : at0 l k ∈ l := by
  simp only [at0, List.getD_eq_getElem?_getD, List.getElem?_eq_getElem h, Option.getD_some]
  exact List.getElem_mem h

theorem ext_at0 {f g : List Int} {n : Nat} (hf : f.length = n) (hg : g.length = n) (h : ∀ k < n, at0 f k = at0 g k) : f = g := by
  rw [← Kem.map_at0 f n hf, ← Kem.map_at0 g n hg]
  exact List.map_congr_left (fun k hk => h k (List.mem_range.1 hk))

theorem hint_row {P : Params} (F : Facts P) (w cs2 ct0 : List Int) (p : Nat → Int)
    (hw : w.length = 256) (hc2 : cs2.length = 256) (hc0 : ct0.length = 256)
    (hp : ∀ k < 256, at0 cs2 k = p k % q) (hpb : ∀ k < 256, -(P.beta : Int) ≤ p k ∧ p k ≤ P.beta)
    (hr : ∀ x ∈ lowBits P (sub w cs2), ((modpm x q).natAbs : Int) < P.gam2 - P.beta)
    (h0 : ∀ x ∈ ct0, ((modpm x q).natAbs : Int) < P.gam2) :
    useHint P (makeHint P (neg ct0) (add (sub w cs2) ct0)) (add (sub w cs2) ct0) = highBits P w := by
  have lW : (sub w cs2).length = 256 := by rw [sub_length, hw]
  have lr : (add (sub w cs2) ct0).length = 256 := by rw [add_length, lW]
  have ln : (neg ct0).length = 256 := by rw [neg_length, hc0]
  have ls : (add (add (sub w cs2) ct0) (neg ct0)).length = 256 := by rw [add_length, lr]
  apply ext_at0 (n := 256) (by simp [useHint]) (by simp [highBits, hw])
  intro k hk
  have hWk : at0 (sub w cs2) k = (at0 w k - at0 cs2 k) % q := sub_at w cs2 k (by omega)
  have hrk : at0 (add (sub w cs2) ct0) k = (at0 (sub w cs2) k + at0 ct0 k) % q := add_at _ _ k (by omega)
  have hnk : at0 (neg ct0) k = (-(at0 ct0 k)) % q := neg_at _ k (by omega)
  have hsk : at0 (add (add (sub w cs2) ct0) (neg ct0)) k = (at0 (add (sub w cs2) ct0) k + at0 (neg ct0) k) % q := add_at _ _ k (by omega)
  have hr' := hr (at0 (lowBits P (sub w cs2)) k) (mem_at _ k (by simp [lowBits, lW, hk]))
  have h0' := h0 (at0 ct0 k) (mem_at _ k (by omega))
  have hp' := hp k hk
  have hpb' := hpb k hk
  have elow : at0 (lowBits P (sub w cs2)) k = (dec P.gam2 (at0 (sub w cs2) k)).2 := map_at _ _ k (by omega)
  have ehigh : at0 (highBits P w) k = (dec P.gam2 (at0 w k)).1 := map_at _ _ k (by omega)
  have eh : at0 (makeHint P (neg ct0) (add (sub w cs2) ct0)) k =
      if (dec P.gam2 (at0 (add (sub w cs2) ct0) k)).1 = (dec P.gam2 (at0 (add (add (sub w cs2) ct0) (neg ct0)) k)).1 then 0 else 1 := by
    unfold makeHint neq
    rw [map_range_at _ _ k (by simp [highBits, lr, hk])]
    rw [show at0 (highBits P (add (sub w cs2) ct0)) k = (dec P.gam2 (at0 (add (sub w cs2) ct0) k)).1 from map_at _ _ k (by omega),
      show at0 (highBits P (add (add (sub w cs2) ct0) (neg ct0))) k = (dec P.gam2 (at0 (add (add (sub w cs2) ct0) (neg ct0)) k)).1 from map_at _ _ k (by omega)]
  have eu : at0 (useHint P (makeHint P (neg ct0) (add (sub w cs2) ct0)) (add (sub w cs2) ct0)) k =
      uh P.gam2 (at0 (makeHint P (neg ct0) (add (sub w cs2) ct0)) k) (at0 (add (sub w cs2) ct0) k) := by
    unfold useHint
    rw [map_range_at _ _ k hk]
    rfl
  rw [eu, eh, ehigh]
  rw [elow] at hr'
  generalize at0 (add (add (sub w cs2) ct0) (neg ct0)) k = s at *
  generalize at0 (add (sub w cs2) ct0) k = r at *
  generalize at0 (sub w cs2) k = W at *
  generalize at0 (neg ct0) k = n at *
  generalize at0 ct0 k = c0 at *
  generalize at0 cs2 k = c2 at *
  generalize at0 w k = wk at *
  generalize p k = pk at *
  obtain ⟨kn, en⟩ := emod_ex (-c0)
  obtain ⟨kc, ec, -, -⟩ := modpm_q c0
  obtain ⟨ks, es⟩ := emod_ex (r + n)
  obtain ⟨kr, er⟩ := emod_ex (W + c0)
  obtain ⟨kW, eW⟩ := emod_ex (wk - c2)
  obtain ⟨kp, ep⟩ := emod_ex pk
  have rW := emod_q_range (wk - c2)
  have rs := emod_q_range (r + n)
  have hsW : s = W := by
    unfold q at *
    omega
  have e1 := uh_spec F.g2 r (-(modpm c0 q)) s (ks + kn + kc) (by rw [hsk, es, hnk, en, ec, Int.add_mul, Int.add_mul]; omega) (by omega)
  rw [e1, hsW]
  have gb := F.g2
  obtain ⟨k1, -, -, -, w1⟩ := dec_spec F.g2 W
  have em : modpm (dec P.gam2 W).2 q = (dec P.gam2 W).2 := by
    apply modpm_q_unique (k := 0) (by omega) <;> (rcases gb with h | h <;> rw [h] at w1 ⊢ <;> omega)
  rw [em] at hr'
  exact (dec_stable F.g2 W pk wk (kp - kW) P.beta (by rw [hWk, eW, hp', ep, Int.sub_mul]; omega) hpb' (by omega)).symm

/-! ### Keys -/

theorem expandS_spec {P : Params} {E : Env} {rho : Bytes} {s1 s2 : Nat → List Int} (h : expandS P E rho = some (s1, s2)) :
    VecIn P.ell s1 (-P.eta) P.eta ∧ VecIn P.k s2 (-P.eta) P.eta := by
  unfold expandS at h
  simp only at h
  split at h
  · rename_i hall
    rw [List.all_eq_true] at hall
    simp only [Option.some.injEq, Prod.mk.injEq] at h
    obtain ⟨rfl, rfl⟩ := h
    constructor
    · intro i hi
      have := hall i (List.mem_range.2 (by omega))
      obtain ⟨x, hx⟩ := Option.isSome_iff_exists.1 this
      simp only [hx, Option.getD_some]
      exact rejBoundedPoly_spec hx
    · intro i hi
      have := hall (i + P.ell) (List.mem_range.2 (by omega))
      obtain ⟨x, hx⟩ := Option.isSome_iff_exists.1 this
      simp only [hx, Option.getD_some]
      exact rejBoundedPoly_spec hx
  · cases h

/-- High and low part of `t`. -/
def t1Of (P : Params) (a : Nat → Nat → List Int) (s1 s2 : Nat → List Int) (i : Nat) : List Int :=
  (keyT P a s1 s2 i).map (fun x => (power2round P.d x).1)

def t0Of (P : Params) (a : Nat → Nat → List Int) (s1 s2 : Nat → List Int) (i : Nat) : List Int :=
  (keyT P a s1 s2 i).map (fun x => (power2round P.d x).2)

theorem keyT_length (P : Params) (a : Nat → Nat → List Int) (s1 s2 : Nat → List Int) (i : Nat) : (keyT P a s1 s2 i).length = 256 := by
  unfold keyT; rw [add_length, nttInv_length _ (matVec_length _ _ _ _)]

theorem t1Of_in {P : Params} (F : Facts P) (a : Nat → Nat → List Int) (s1 s2 : Nat → List Int) : VecIn P.k (t1Of P a s1 s2) 0 1023 := by
  intro i _
  unfold t1Of
  refine ⟨by rw [List.length_map, keyT_length], fun x hx => ?_⟩
  obtain ⟨y, -, rfl⟩ := List.mem_map.1 hx
  rw [F.d]
  have := power2round_spec y
  omega

theorem t0Of_in {P : Params} (F : Facts P) (a : Nat → Nat → List Int) (s1 s2 : Nat → List Int) : VecIn P.k (t0Of P a s1 s2) (-4095) 4096 := by
  intro i _
  unfold t0Of
  refine ⟨by rw [List.length_map, keyT_length], fun x hx => ?_⟩
  obtain ⟨y, -, rfl⟩ := List.mem_map.1 hx
  rw [F.d]
  have := power2round_spec y
  omega

theorem slice_length_of (x : Bytes) (a b n : Nat) (hx : x.length = n) (hb : b ≤ n) : (slice x a b).length = b - a := by
  unfold slice; rw [List.length_take, List.length_drop]; omega

/-- What `keygen` returns. -/
theorem keygen_parts {P : Params} {E : Env} (hE : E.Sized) {xi pk sk : Bytes} (h : keygen P E xi = some (pk, sk)) :
    ∃ rho kk a s1 s2, rho.length = 32 ∧ kk.length = 32 ∧ expandA P E rho = some a ∧
      VecIn P.ell s1 (-P.eta) P.eta ∧ VecIn P.k s2 (-P.eta) P.eta ∧ pk = pkEncode P rho (t1Of P a s1 s2) ∧
      sk = skEncode P rho kk (E.h pk 64) s1 s2 (t0Of P a s1 s2) := by
  unfold keygen at h
  simp only at h
  split at h
  · rename_i a s1 s2 ha hs
    simp only [Option.some.injEq, Prod.mk.injEq] at h
    obtain ⟨e1, e2⟩ := expandS_spec hs
    refine ⟨_, slice (E.h (xi ++ integerToBytes P.k 1 ++ integerToBytes P.ell 1) 128) 96 128, a, s1, s2, slice_length_of _ 0 32 128 (hE _ _) (by omega), slice_length_of _ 96 128 128 (hE _ _) (by omega), ha, e1, e2, h.1.symm, ?_⟩
    rw [← h.1]
    exact h.2.symm
  · cases h

/-! ### Signing -/

theorem signLoop_some {P : Params} {E : Env} {a : Nat → Nat → List Int} {s1 s2 t0 : Nat → List Int} {mu rhopp : Bytes}
    {r : Bytes × (Nat → List Int) × (Nat → List Int)} {n kappa : Nat} (h : signLoop P E a s1 s2 t0 mu rhopp n kappa = some r) :
    ∃ kappa', signRound P E a s1 s2 t0 mu (expandMask P E rhopp kappa') = some (some r) := by
  induction n generalizing kappa with
  | zero => cases h
  | succ n ih =>
    rw [signLoop] at h
    split at h
    · cases h
    · exact ih h
    · rename_i h'
      exact ⟨kappa, by rw [h', Option.some.inj h]⟩

theorem expandMask_length (P : Params) (E : Env) (rho : Bytes) (mu r : Nat) :
    (expandMask P E rho mu r).length = 256 := by
  unfold expandMask
  exact bitUnpack_length _ _ _

theorem makeHint_isRow (P : Params) (z r : List Int) (hr : r.length = 256) : IsRow (makeHint P z r) := by
  unfold makeHint neq
  refine ⟨by simp [highBits, hr], fun x hx => ?_⟩
  obtain ⟨i, -, rfl⟩ := List.mem_map.1 hx
  split
  · exact .inl rfl
  · exact .inr rfl

theorem w1Encode_congr (P : Params) (f g : Nat → List Int) (h : ∀ i < P.k, f i = g i) : w1Encode P f = w1Encode P g := by
  unfold w1Encode
  exact flatMap_congr' (fun i hi => by rw [h i (List.mem_range.1 hi)])

theorem natAbs_le_of {x : Int} {b : Nat} (h : -(b : Int) ≤ x ∧ x ≤ b) : x.natAbs ≤ b := by omega

/-- The coefficients of `c * s` when `s` is short. -/
theorem challenge_product {P : Params} (F : Facts P) {c s : List Int} (hc : Ball c P.tau) (hs : s.length = 256)
    (hb : ∀ x ∈ s, -(P.eta : Int) ≤ x ∧ x ≤ P.eta) (k : Nat) : -(P.beta : Int) ≤ prodCoeff c s k ∧ prodCoeff c s k ≤ P.beta := by
  have h := prodCoeff_bound c s P.eta hc.len (fun j => by
    by_cases hj : j < 256
    · exact natAbs_le_of (hb _ (mem_at s j (by omega)))
    · simp [at0, List.getElem?_eq_none (show s.length ≤ j by omega)]) k
  rw [hc.norm, F.beta] at h
  omega

/-- The shape of what a signing round returns. -/
theorem signRound_shape {P : Params} (F : Facts P) {E : Env} (hE : E.Sized) {a : Nat → Nat → List Int} {s1 s2 t0 y : Nat → List Int}
    {mu ct : Bytes} {z h : Nat → List Int} (hyl : ∀ i, (y i).length = 256)
    (hround : signRound P E a s1 s2 t0 mu y = some (some (ct, z, h))) :
    ct.length = P.lam / 4 ∧ VecIn P.ell (fun i => (z i).map (fun x => modpm x q)) (-((P.gam1 - 1 : Nat) : Int)) P.gam1 ∧
      tot h P.k ≤ P.omega := by
  unfold signRound at hround
  simp only at hround
  split at hround
  · cases hround
  rename_i c hc
  split at hround
  · simp at hround
  rename_i hn1
  split at hround
  · simp at hround
  rename_i hn2
  simp only [Option.some.injEq, Prod.mk.injEq] at hround
  obtain ⟨ect, ez, eh⟩ := hround
  rw [not_or, ge_iff_le, ge_iff_le, Int.not_le, Int.not_le] at hn1
  rw [not_or, ge_iff_le, Int.not_le] at hn2
  have hb1 := F.beta1
  have hn1z := (infNormVec_lt _ _ _ (by omega)).1 hn1.1
  refine ⟨by rw [← ect]; exact hE _ _, fun i hi => ⟨?_, fun x hx => ?_⟩, ?_⟩
  · rw [List.length_map, ← ez]; simp only; rw [add_length, hyl]
  · obtain ⟨x', hx', rfl⟩ := List.mem_map.1 hx
    have := hn1z i hi x' (by rw [← ez] at hx'; exact hx')
    omega
  · rw [← tot_weight h P.k (fun i _ => by
      rw [← eh]; exact (makeHint_isRow _ _ _ (by rw [add_length, sub_length, nttInv_length _ (matVec_length _ _ _ _)])).1), ← eh]
    omega

attribute [local irreducible] ntt nttInv mulNtt in
theorem sign_verify {P : Params} (F : Facts P) {E : Env} (hE : E.Sized) {xi pk sk mp rnd sig : Bytes}
    (hk : keygen P E xi = some (pk, sk)) (hs : signInternal P E sk mp rnd = some sig) :
    verifyInternal P E pk mp sig = some (.ok true) := by
  obtain ⟨rho, kk, a, s1, s2, lr, lk, ha, hs1, hs2, rfl, esk⟩ := keygen_parts hE hk
  have lt := hE (pkEncode P rho (t1Of P a s1 s2)) 64
  have h1 : ∀ i < P.ell, skS1 P sk i = s1 i := fun i hi => by rw [esk]; exact sk_s1 F _ _ _ _ _ _ lr lk lt hs1 i hi
  have h2 : ∀ i < P.k, skS2 P sk i = s2 i := fun i hi => by rw [esk]; exact sk_s2 F _ _ _ _ _ _ lr lk lt hs1 hs2 i hi
  have h0 : ∀ i < P.k, skT0 P sk i = t0Of P a s1 s2 i := fun i hi => by
    rw [esk]; exact sk_t0 F _ _ _ _ _ _ lr lk lt hs1 hs2 (t0Of_in F a s1 s2) i hi
  have hrho : skRho sk = rho := by rw [esk]; exact sk_rho _ _ _ _ _ _ lr
  have htr : skTr sk = E.h (pkEncode P rho (t1Of P a s1 s2)) 64 := by rw [esk]; exact sk_tr _ _ _ _ _ _ lr lk lt
  unfold signInternal at hs
  rw [hrho, ha] at hs
  simp only [htr] at hs
  split at hs
  · cases hs
  rename_i ct z h hloop
  obtain ⟨kappa, hround⟩ := signLoop_some hloop
  have hs := (Option.some.inj hs).symm
  subst hs
  generalize hmu : E.h (E.h (pkEncode P rho (t1Of P a s1 s2)) 64 ++ mp) 64 = mu at hround hloop
  have hyl : ∀ i, (expandMask P E (E.h (skK sk ++ rnd ++ mu) 64) kappa i).length = 256 := fun i => expandMask_length _ _ _ _ _
  generalize expandMask P E (E.h (skK sk ++ rnd ++ mu) 64) kappa = y at hround hyl
  unfold signRound at hround
  simp only at hround
  split at hround
  · cases hround
  rename_i c hc
  split at hround
  · simp at hround
  rename_i hn1
  split at hround
  · simp at hround
  rename_i hn2
  simp only [Option.some.injEq, Prod.mk.injEq] at hround
  obtain ⟨ect, ez, eh⟩ := hround
  have hB := sampleInBall_spec F.tau hc
  rw [ect] at hc
  rw [not_or, ge_iff_le, ge_iff_le, Int.not_le, Int.not_le] at hn1
  rw [not_or, ge_iff_le, Int.not_le] at hn2
  have hb1 := F.beta1
  have hb2 := F.beta2
  have hn1z := (infNormVec_lt _ _ _ (by omega)).1 hn1.1
  have hn1r := (infNormVec_lt _ _ _ (by omega)).1 hn1.2
  have hn2c := (infNormVec_lt _ _ _ (by omega)).1 hn2.1
  have lim : ∀ v i, (nttInv (matVec P a v i)).length = 256 := fun v i => nttInv_length _ (matVec_length P a v i)
  have lm : ∀ f g, (nttInv (mulNtt f g)).length = 256 := fun f g => nttInv_length _ (mulNtt_length f g)
  have hrow : ∀ i, IsRow (h i) := fun i => by
    rw [← eh]; exact makeHint_isRow _ _ _ (by rw [add_length, sub_length, lim])
  have hwt : tot h P.k ≤ P.omega := by
    rw [← tot_weight h P.k (fun i _ => (hrow i).1), ← eh]
    omega
  have hzl : ∀ i, (z i).length = 256 := fun i => by rw [← ez]; simp only; rw [add_length, hyl]
  have hzr : ∀ i < P.ell, ∀ x ∈ z i, ((modpm x q).natAbs : Int) < P.gam1 - P.beta := fun i hi x hx => hn1z i hi x (by rw [← ez] at hx; exact hx)
  have hzv : VecIn P.ell (fun i => (z i).map (fun x => modpm x q)) (-((P.gam1 - 1 : Nat) : Int)) P.gam1 := by
    intro i hi
    refine ⟨by rw [List.length_map, hzl], fun x hx => ?_⟩
    obtain ⟨x', hx', rfl⟩ := List.mem_map.1 hx
    have := hzr i hi x' hx'
    omega
  have lct : ct.length = P.lam / 4 := by rw [← ect]; exact hE _ _
  have esz := sig_z F ct _ h lct hzv
  unfold verifyInternal
  rw [sigDecode_sigEncode F ct _ h lct hzv (fun i _ => hrow i) hwt]
  simp only
  rw [pk_rho P rho _ lr, ha, hc]
  simp only [Option.some.injEq, Except.ok.injEq, Bool.and_eq_true, decide_eq_true_eq, beq_iff_eq]
  constructor
  · rw [infNormVec_congr _ _ _ esz, infNormVec_lt _ _ _ (by omega)]
    intro i hi x hx
    obtain ⟨x', hx', rfl⟩ := List.mem_map.1 hx
    rw [modpm_modpm]
    exact hzr i hi x' hx'
  · rw [hmu, ← ect]
    congr 2
    apply w1Encode_congr
    intro i hi
    symm
    unfold verifyW1
    simp only
    rw [matVec_congr P a _ (fun j => ntt ((z j).map (fun x => modpm x q))) i (fun j hj => by rw [ect, esz j hj])]
    have eT1 : pkT1 P (pkEncode P rho (t1Of P a s1 s2)) i = t1Of P a s1 s2 i := pk_t1 F rho _ lr (t1Of_in F a s1 s2) i hi
    rw [eT1]
    have lT : ((t1Of P a s1 s2 i).map (fun x => x * 2 ^ P.d)).length = 256 := by rw [List.length_map, (t1Of_in F a s1 s2 i hi).1]
    rw [verify_equation P a (skS1 P sk) y _ (skS2 P sk i) (skT0 P sk i) _ c i (fun j _ => hyl j) (fun j _ => by rw [List.length_map, hzl])
      (by rw [h2 i hi]; exact (hs2 i hi).1) (by rw [h0 i hi]; exact (t0Of_in F a s1 s2 i hi).1) lT
      (fun j _ k hk => by
        have e : z j = add (y j) (nttInv (mulNtt (ntt c) (ntt (skS1 P sk j)))) := by rw [← ez]
        have hl := hzl j
        unfold res castK
        rw [map_at _ _ k (by omega), modpm_res, e])
      (fun k hk => by
        have lT0 : (t0Of P a s1 s2 i).length = 256 := (t0Of_in F a s1 s2 i hi).1
        have lT1 : (t1Of P a s1 s2 i).length = 256 := (t1Of_in F a s1 s2 i hi).1
        have lK := keyT_length P a s1 s2 i
        rw [matVec_congr P a _ (fun j => ntt (s1 j)) i (fun j hj => by rw [h1 j hj]), h2 i hi, h0 i hi]
        change _ = res (keyT P a s1 s2 i) k
        unfold res castK
        rw [map_at _ _ k (by omega)]
        unfold t0Of t1Of
        rw [map_at _ _ k (by omega), map_at _ _ k (by omega), F.d]
        have hp := (power2round_spec (at0 (keyT P a s1 s2 i) k)).1
        rw [show (2 : Int) ^ 13 = 8192 by rfl]
        rw [← Int.cast_add, hp]
        exact cast_emod (Q := 8380417) _)]
    have hh : ((List.range P.k).map h).getD i [] = h i := by simp [hi]
    rw [hh, ← eh]
    exact hint_row F _ _ _ (fun k => prodCoeff c (skS2 P sk i) k) (lim _ _) (lm _ _) (lm _ _)
      (fun k hk => mul_at c _ hB.len (by rw [h2 i hi]; exact (hs2 i hi).1) k hk)
      (fun k _ => challenge_product F hB (by rw [h2 i hi]; exact (hs2 i hi).1) (by rw [h2 i hi]; exact (hs2 i hi).2) k)
      (hn1r i hi) (hn2c i hi)

end Verif.PQ.Dsa
