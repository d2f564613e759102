import Verif.PQ.Fips203Ntt

/-! Lemmas about K-PKE: the transform as a ring isomorphism, the decryption equation. -/

namespace Verif.PQ.Kem

open Finset
open Verif.CA (Bytes PyErr)

/-- The transform domain: 128 quadratic extensions `Zq[X]/(X² - γ_c)`. -/
abbrev Hat := (c : Fin 128) → QuadraticAlgebra Zq (cst zt (128 + c.val)) 0

/-- 256 coefficients as an element of the transform domain. -/
def toHat (H : Nat → Zq) : Hat := fun c => ⟨H (2 * c.val), H (2 * c.val + 1)⟩

/-- A transformed list. -/
def hat (f : List Int) : Hat := toHat (res f)

/-- The transform of coefficients. -/
def N (F : Nat → Zq) : Hat := toHat (fwdT zt 7 F)

theorem toHat_congr {F G : Nat → Zq} (h : ∀ k < 256, F k = G k) : toHat F = toHat G := by
  funext c
  unfold toHat
  rw [h _ (by omega), h _ (by omega)]

theorem toHat_inj {F G : Nat → Zq} (h : toHat F = toHat G) : ∀ k < 256, F k = G k := by
  intro k hk
  have := congrFun h ⟨k / 2, by omega⟩
  unfold toHat at this
  simp only at this
  rcases Nat.mod_two_eq_zero_or_one k with h | h
  · have := congrArg QuadraticAlgebra.re this
    rwa [show 2 * (k / 2) = k by omega] at this
  · have := congrArg QuadraticAlgebra.im this
    simp only at this
    rwa [show 2 * (k / 2) + 1 = k by omega] at this

theorem N_congr {F G : Nat → Zq} (h : ∀ k < 256, F k = G k) : N F = N G :=
  toHat_congr (fwdT_congr zt 7 (by omega) F G h)

theorem N_inj {F G : Nat → Zq} (h : N F = N G) : ∀ k < 256, F k = G k := by
  intro k hk
  have h1 := toHat_inj h
  have h2 := bwdT_congr zt 7 (by omega) _ _ h1 k hk
  rw [bwdT_fwdT zt 7 (by omega) inv_table 7 (by omega) F k hk, bwdT_fwdT zt 7 (by omega) inv_table 7 (by omega) G k hk] at h2
  have h3 := congrArg (fun x => (3303 : Zq) * x) h2
  simpa only [← mul_assoc, inv128, one_mul] using h3

theorem hat_polyAdd (f g : List Int) : hat (polyAdd f g) = hat f + hat g := by
  funext c
  unfold hat toHat
  rw [polyAdd_res _ _ _ (by omega), polyAdd_res _ _ _ (by omega)]
  rfl

theorem hat_mul (f g : List Int) : hat (multiplyNtts f g) = hat f * hat g := by
  funext c
  obtain ⟨h1, h2⟩ := multiplyNtts_res f g c.val c.isLt
  unfold hat toHat
  rw [h1, h2]
  show _ = (⟨_, _⟩ * ⟨_, _⟩ : QuadraticAlgebra Zq (cst zt (128 + c.val)) 0)
  rw [QuadraticAlgebra.mk_mul_mk]
  ext
  · simp only; ring
  · simp only; ring

theorem replicate_at (n k : Nat) : at0 (List.replicate n 0) k = 0 := by
  simp only [at0, List.getD_eq_getElem?_getD, List.getElem?_replicate]
  split <;> rfl

theorem zeroPoly_at (k : Nat) : at0 zeroPoly k = 0 := replicate_at 256 k

theorem zeroPoly_length : zeroPoly.length = 256 := List.length_replicate

theorem hat_zero : hat zeroPoly = 0 := by
  funext c
  unfold hat toHat
  have h : ∀ k < 256, res zeroPoly k = 0 := by
    intro k hk
    simp only [res, castK]
    rw [zeroPoly_at]; simp
  rw [h _ (by omega), h _ (by omega)]
  rfl

theorem hat_accMul (n : Nat) (init : List Int) (f g : Nat → List Int) :
    hat (accMul n init f g) = hat init + ∑ j ∈ range n, hat (f j) * hat (g j) := by
  unfold accMul
  induction n with
  | zero => simp
  | succ n ih =>
    rw [List.range_succ, List.foldl_append, sum_range_succ]
    simp only [List.foldl_cons, List.foldl_nil]
    rw [hat_polyAdd, ih, hat_mul, add_assoc]

theorem accMul_length (n : Nat) (init : List Int) (f g : Nat → List Int) (h : init.length = 256) :
    (accMul n init f g).length = 256 := by
  unfold accMul
  induction n with
  | zero => simpa
  | succ n ih => rw [List.range_succ, List.foldl_append]; simp [polyAdd_length]

theorem accMul_range (n : Nat) (init : List Int) (f g : Nat → List Int)
    (h : ∀ k < 256, 0 ≤ at0 init k ∧ at0 init k < q) :
    ∀ k < 256, 0 ≤ at0 (accMul n init f g) k ∧ at0 (accMul n init f g) k < q := by
  unfold accMul
  induction n with
  | zero => simpa
  | succ n ih => rw [List.range_succ, List.foldl_append]; exact polyAdd_range _ _

theorem hat_ntt (f : List Int) (hf : f.length = 256) : hat (ntt f) = N (res f) := toHat_congr (ntt_res f hf)

theorem N_nttInv (f : List Int) (hf : f.length = 256) : N (res (nttInv f)) = hat f := by
  rw [← hat_ntt _ (nttInv_length f hf)]
  exact toHat_congr (ntt_nttInv_res f hf)

theorem fwd_add (z : Nat → Zq) (le : Nat) (F G : Nat → Zq) : fwd z le (fun k => F k + G k) = fun k => fwd z le F k + fwd z le G k := by
  funext k; unfold fwd; split <;> ring

theorem fwdT_add (ζ : Nat → Zq) (t : Nat) (F G : Nat → Zq) :
    fwdT ζ t (fun k => F k + G k) = fun k => fwdT ζ t F k + fwdT ζ t G k := by
  induction t with
  | zero => rfl
  | succ t ih => simp only [fwdT, ih, fwd_add]

theorem N_add (F G : Nat → Zq) : N (fun k => F k + G k) = N F + N G := by
  unfold N; rw [fwdT_add]; rfl

theorem N_smul_neg (F : Nat → Zq) : N (fun k => - F k) = - N F := by
  have h : (fun k => - F k) = fun k => (-1) * F k := by funext k; ring
  unfold N
  rw [h, fwdT_smul]
  funext c
  unfold toHat
  show _ = - (⟨_, _⟩ : QuadraticAlgebra Zq (cst zt (128 + c.val)) 0)
  ext <;> simp

theorem N_sub (F G : Nat → Zq) : N (fun k => F k - G k) = N F - N G := by
  have h : (fun k => F k - G k) = fun k => F k + (- G k) := by funext k; ring
  rw [h, N_add, N_smul_neg, sub_eq_add_neg]

theorem N_zero : N (fun _ => 0) = 0 := by
  have h := N_add (fun _ => 0) (fun _ => 0)
  simp only [add_zero] at h
  exact left_eq_add.mp h

theorem N_sum (n : Nat) (F : Nat → Nat → Zq) : N (fun k => ∑ i ∈ range n, F i k) = ∑ i ∈ range n, N (F i) := by
  induction n with
  | zero => simpa using N_zero
  | succ n ih =>
    rw [sum_range_succ, ← ih, ← N_add]
    congr 1
    funext k
    rw [sum_range_succ]

theorem N_negMul (F G : Nat → Zq) : N (negMul 256 F G) = N F * N G := by
  funext c
  obtain ⟨h1, h2⟩ := fwdT7_mul zt zt_zero sq_table F G c.val c.isLt
  unfold N toHat
  rw [h1, h2]
  show _ = (⟨_, _⟩ * ⟨_, _⟩ : QuadraticAlgebra Zq (cst zt (128 + c.val)) 0)
  rw [QuadraticAlgebra.mk_mul_mk]
  ext
  · simp only; ring
  · simp only; ring

/-- The noise of a ciphertext: `e·y + e2 + c_v - s·(e1 + c_u)` in `Zq[X]/(X^256+1)`, where `c_u`, `c_v` are the
errors of the compression of `u` and `v`. -/
def noise (n : Nat) (s e y e1 : Nat → List Int) (e2 : List Int) (u up : Nat → List Int) (v vp : List Int) (k : Nat) : Zq :=
  (∑ i ∈ range n, (negMul 256 (res (e i)) (res (y i)) k -
    negMul 256 (res (s i)) (fun l => res (e1 i) l + (res (up i) l - res (u i) l)) k)) + res e2 k + (res vp k - res v k)

/-- The decryption equation. -/
theorem decrypt_equation (n : Nat) (a : Nat → Nat → List Int) (s e y e1 : Nat → List Int) (e2 mu : List Int)
    (up : Nat → List Int) (vp : List Int)
    (hs : ∀ i, (s i).length = 256) (he : ∀ i, (e i).length = 256) (hy : ∀ i, (y i).length = 256)
    (hup : ∀ i, (up i).length = 256)
    (t u : Nat → List Int) (v w : List Int)
    (ht : ∀ i < n, t i = accMul n (ntt (e i)) (a i) (fun j => ntt (s j)))
    (hu : ∀ i < n, u i = polyAdd (nttInv (accMul n zeroPoly (fun j => a j i) (fun j => ntt (y j)))) (e1 i))
    (hv : v = polyAdd (polyAdd (nttInv (accMul n zeroPoly t (fun j => ntt (y j)))) e2) mu)
    (hw : w = polySub vp (nttInv (accMul n zeroPoly (fun i => ntt (s i)) (fun i => ntt (up i))))) :
    ∀ k < 256, res w k = res mu k + noise n s e y e1 e2 u up v vp k := by
  apply N_inj
  have hz := zeroPoly_length
  -- the public vector
  have Ht : ∀ i < n, hat (t i) = N (res (e i)) + ∑ j ∈ range n, hat (a i j) * N (res (s j)) := by
    intro i hi
    rw [ht i hi, hat_accMul, hat_ntt _ (he i)]
    rw [sum_congr rfl (fun j _ => by rw [hat_ntt _ (hs j)])]
  have Hu : ∀ i < n, N (res (u i)) = (∑ j ∈ range n, hat (a j i) * N (res (y j))) + N (res (e1 i)) := by
    intro i hi
    rw [hu i hi, N_congr (polyAdd_res _ _), N_add, N_nttInv _ (accMul_length _ _ _ _ hz), hat_accMul, hat_zero, zero_add]
    rw [sum_congr rfl (fun j _ => by rw [hat_ntt _ (hy j)])]
  have Hv : N (res v) = (∑ i ∈ range n, hat (t i) * N (res (y i))) + N (res e2) + N (res mu) := by
    rw [hv, N_congr (polyAdd_res _ _), N_add, N_congr (polyAdd_res _ _), N_add, N_nttInv _ (accMul_length _ _ _ _ hz),
      hat_accMul, hat_zero, zero_add]
    rw [sum_congr rfl (fun j _ => by rw [hat_ntt _ (hy j)])]
  have Hw : N (res w) = N (res vp) - ∑ i ∈ range n, N (res (s i)) * N (res (up i)) := by
    rw [hw, N_congr (polySub_res _ _), N_sub, N_nttInv _ (accMul_length _ _ _ _ hz), hat_accMul, hat_zero, zero_add]
    rw [sum_congr rfl (fun j _ => by rw [hat_ntt _ (hs j), hat_ntt _ (hup j)])]
  have Hn : N (noise n s e y e1 e2 u up v vp) =
      (∑ i ∈ range n, (N (res (e i)) * N (res (y i)) - N (res (s i)) * (N (res (e1 i)) + (N (res (up i)) - N (res (u i)))))) +
        N (res e2) + (N (res vp) - N (res v)) := by
    unfold noise
    rw [N_add, N_add, N_sum, N_sub]
    rw [sum_congr rfl (fun i _ => by rw [N_sub, N_negMul, N_negMul, N_add, N_sub])]
  rw [Hw, N_add (res mu) (noise n s e y e1 e2 u up v vp), Hn, Hv]
  have e1' : ∑ i ∈ range n, hat (t i) * N (res (y i)) =
      ∑ i ∈ range n, N (res (e i)) * N (res (y i)) + ∑ i ∈ range n, ∑ j ∈ range n, hat (a i j) * N (res (s j)) * N (res (y i)) := by
    rw [← sum_add_distrib]
    apply sum_congr rfl
    intro i hi
    rw [Ht i (mem_range.mp hi), add_mul, sum_mul]
  have e2' : ∑ i ∈ range n, (N (res (e i)) * N (res (y i)) - N (res (s i)) * (N (res (e1 i)) + (N (res (up i)) - N (res (u i))))) =
      ∑ i ∈ range n, N (res (e i)) * N (res (y i)) - ∑ i ∈ range n, N (res (s i)) * N (res (up i)) +
        ∑ i ∈ range n, ∑ j ∈ range n, hat (a j i) * N (res (s i)) * N (res (y j)) := by
    rw [← sum_sub_distrib, ← sum_add_distrib]
    apply sum_congr rfl
    intro i hi
    have h3 : ∑ j ∈ range n, hat (a j i) * N (res (s i)) * N (res (y j)) = N (res (s i)) * (N (res (u i)) - N (res (e1 i))) := by
      rw [Hu i (mem_range.mp hi), add_sub_cancel_right, mul_sum]
      exact sum_congr rfl (fun j _ => by ring)
    rw [h3]
    ring
  rw [e1', e2', sum_comm (f := fun i j => hat (a j i) * N (res (s i)) * N (res (y j)))]
  ring

end Verif.PQ.Kem
