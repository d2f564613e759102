import Mathlib.Data.ZMod.Basic
import Mathlib.Tactic.Ring
import Verif.Env.Mqv
import Verif.Env.KariProps

/-!
# C154: one-pass ECMQV
-/

namespace Verif.Env

open Verif.CA Verif.Prot

/-! ## Specification -/

/-- The associate value of SEC 1, section 3.4: half of the bits of the order, rounded up. -/
def avfSpec (n x : Nat) : Nat := x % 2 ^ ((n.log2 + 1 + 1) / 2) + 2 ^ ((n.log2 + 1 + 1) / 2)

/-- A fixed number of big-endian bytes. -/
def fixedBytes : Nat → Nat → Bytes
  | 0, _ => []
  | k + 1, n => fixedBytes k (n / 256) ++ [UInt8.ofNat (n % 256)]

variable {G : Type} [AddCommGroup G]

/-- The first coordinate of a point that is not at infinity. -/
def xSpec [DecidableEq G] (c : Curve G) (p : G) : Except PyErr Bytes :=
  if p = 0 then .error .valueError else .ok (minBytes (c.x p))

/-- The point of SEC 1, section 3.4, for the one-pass scheme, in which the static key of the recipient is used twice: with
the private keys of both sides. -/
def mqvPoint (c : Curve G) (a : G → Nat) (ds e dr : Nat) : G :=
  (c.h * ((e + a (e • c.g) * ds) * (dr + a (dr • c.g) * dr))) • c.g

/-! ## Lemmas -/

theorem mul_mod_smul {n k : Nat} {p : G} (h : n • p = 0) : (k % n) • p = k • p := by
  conv_rhs => rw [← Nat.mod_add_div k n, add_nsmul, mul_comm, mul_nsmul', h, nsmul_zero, add_zero]

theorem mulPt_smul (c : Curve G) {k : Nat} {p : G} (h : c.n • p = 0) : mulPt c k p = k • p := by
  unfold mulPt
  split
  · rename_i hk
    rw [← mul_mod_smul h, hk, zero_nsmul]
  · rfl

theorem ord_smul {n k : Nat} {p : G} (h : n • p = 0) : n • (k • p) = 0 := by
  rw [← mul_nsmul, mul_comm, mul_nsmul, h, nsmul_zero]

theorem scale_mod {n h k : Nat} {p : G} (hp : n • p = 0) : (h * (k % n)) • p = (h * k) • p := by
  rw [mul_comm, mul_nsmul, mul_mod_smul hp, ← mul_nsmul, mul_comm]

theorem minBytesF_fuel : ∀ f f' n, n ≤ f → n ≤ f' → minBytesF f n = minBytesF f' n := by
  intro f
  induction f with
  | zero =>
    intro f' n h _
    have : n = 0 := by omega
    subst this
    cases f' <;> rfl
  | succ f ih =>
    intro f' n h h'
    cases f' with
    | zero =>
      have : n = 0 := by omega
      subst this
      rfl
    | succ f' =>
      unfold minBytesF
      split
      · rfl
      · rw [ih f' (n / 256) (by omega) (by omega)]

theorem minBytes_pos {n : Nat} (h : n ≠ 0) : minBytes n = minBytes (n / 256) ++ [UInt8.ofNat (n % 256)] := by
  unfold minBytes
  cases n with
  | zero => exact absurd rfl h
  | succ m =>
    rw [minBytesF, if_neg h, minBytesF_fuel m ((m + 1) / 256) _ (by omega) (by omega)]

theorem fixedBytes_length (k n : Nat) : (fixedBytes k n).length = k := by
  induction k generalizing n with
  | zero => rfl
  | succ k ih => simp [fixedBytes, ih]

/-- The bytes without leading zeros are as many as needed. -/
theorem minBytes_eq (k n : Nat) (h : n < 256 ^ (k + 1)) (h' : 256 ^ k ≤ n) : minBytes n = fixedBytes (k + 1) n := by
  induction k generalizing n with
  | zero =>
    have hn : n ≠ 0 := by
      have := h'
      simp at this
      omega
    rw [minBytes_pos hn]
    have : n / 256 = 0 := by
      simp at h
      omega
    rw [this]
    rfl
  | succ k ih =>
    have hp : 0 < 256 ^ (k + 1) := Nat.pow_pos (by decide)
    have hn : n ≠ 0 := by omega
    rw [minBytes_pos hn, fixedBytes, ih (n / 256) ?_ ?_]
    · rw [Nat.pow_succ] at h
      omega
    · rw [Nat.pow_succ] at h'
      omega

theorem minBytes_short (k n : Nat) (h : n < 256 ^ k) : (minBytes n).length ≤ k := by
  induction k generalizing n with
  | zero =>
    have : n = 0 := by simpa using h
    subst this
    exact Nat.le_refl 0
  | succ k ih =>
    by_cases hn : n = 0
    · subst hn
      exact Nat.zero_le _
    · rw [minBytes_pos hn, List.length_append]
      have := ih (n / 256) (by rw [Nat.pow_succ] at h; omega)
      simpa using this

theorem minBytes_inj : ∀ a b, minBytes a = minBytes b → a = b := by
  intro a
  induction a using Nat.strongRecOn with
  | _ a ih =>
    intro b h
    by_cases ha : a = 0
    · subst ha
      by_cases hb : b = 0
      · exact hb.symm
      · rw [minBytes_pos hb] at h
        have := congrArg List.length h
        rw [List.length_append, show minBytes 0 = [] from rfl, List.length_nil, List.length_singleton] at this
        omega
    · by_cases hb : b = 0
      · subst hb
        rw [minBytes_pos ha] at h
        have := congrArg List.length h
        rw [List.length_append, show minBytes 0 = [] from rfl, List.length_nil, List.length_singleton] at this
        omega
      · rw [minBytes_pos ha, minBytes_pos hb] at h
        have h1 := (List.append_inj' h rfl).1
        have h2 := List.head_eq_of_cons_eq (List.append_inj' h rfl).2
        have h3 := ih (a / 256) (by omega) _ h1
        have h4 := congrArg UInt8.toNat h2
        rw [UInt8.toNat_ofNat_of_lt' (by show a % 256 < 256; omega), UInt8.toNat_ofNat_of_lt' (by show b % 256 < 256; omega)] at h4
        omega

variable [DecidableEq G]

/-! ## C154 -/

/-- C154: both sides compute the same, whatever the associate values are: the scheme of SEC 1 with the value of the code. -/
theorem C154_scheme (c : Curve G) (ds e dr : Nat) (hg : c.n • c.g = 0) (h1 : ds • c.g ≠ 0) (h2 : e • c.g ≠ 0)
    (h3 : dr • c.g ≠ 0) : mqvSendZ c ds e (dr • c.g) = xSpec c (mqvPoint c (avf c) ds e dr) ∧
      mqvRecvZ c dr (dr • c.g) (ds • c.g) (e • c.g) = xSpec c (mqvPoint c (avf c) ds e dr) := by
  have hr : c.n • (dr • c.g) = 0 := ord_smul hg
  have hs : c.n • (ds • c.g) = 0 := ord_smul hg
  have he : c.n • (e • c.g) = 0 := ord_smul hg
  have hz : ∀ p, zOf c p = xSpec c p := fun _ => rfl
  constructor
  · unfold mqvSendZ
    rw [mulPt_smul c hg, mulPt_smul c hg, if_neg h1, if_neg h2]
    dsimp only
    rw [mulPt_smul c hr, hz]
    congr 1
    have hs' : c.n • (dr • c.g + avf c (dr • c.g) • (dr • c.g)) = 0 := by rw [nsmul_add, hr, ord_smul hr, add_zero]
    rw [mulPt_smul c hs', scale_mod hs']
    unfold mqvPoint
    rw [← mul_nsmul' c.g (avf c (dr • c.g)) dr, ← add_nsmul, ← mul_nsmul']
    congr 1
    ring
  · unfold mqvRecvZ
    rw [mulPt_smul c hg, if_neg h3]
    dsimp only
    rw [mulPt_smul c hs, hz]
    congr 1
    have hs' : c.n • (e • c.g + avf c (e • c.g) • (ds • c.g)) = 0 := by rw [nsmul_add, he, ord_smul hs, add_zero]
    rw [mulPt_smul c hs', scale_mod hs']
    unfold mqvPoint
    rw [← mul_nsmul' c.g (avf c (e • c.g)) ds, ← add_nsmul, ← mul_nsmul']
    congr 1
    ring

/-- C154: sender and recipient agree. -/
theorem C154_agree (c : Curve G) (ds e dr : Nat) (hg : c.n • c.g = 0) (h1 : ds • c.g ≠ 0) (h2 : e • c.g ≠ 0)
    (h3 : dr • c.g ≠ 0) : mqvRecvZ c dr (dr • c.g) (ds • c.g) (e • c.g) = mqvSendZ c ds e (dr • c.g) := by
  rw [(C154_scheme c ds e dr hg h1 h2 h3).1, (C154_scheme c ds e dr hg h1 h2 h3).2]

/-- C154: the associate value is that of the standard when the logarithm of the rounded order has the right integer
part. -/
theorem C154_avf_partial (c : Curve G) (p : G) (h : c.flog (round53 c.n) = c.n.log2) :
    avf c p = avfSpec c.n (c.x p) := by
  unfold avf avfLen avfSpec
  rw [h]

/-- The orders of secp256r1 and secp521r1 (SEC 2). -/
def goodOrders : List Nat :=
  [0xFFFFFFFF00000000FFFFFFFFFFFFFFFFBCE6FAADA7179E84F3B9CAC2FC632551,
   0x01FFFFFFFFFFFFFFFFFFFFFFFFFFFFFFFFFFFFFFFFFFFFFFFFFFFFFFFFFFFFFFFFFFFA51868783BF2F966B7FCC0148F709A5D03BB5C9B8899C47AEBB6FB71E91386409]

/-- C154: it is for secp256r1 and secp521r1, with a logarithm whose integer part is right. -/
theorem C154_avf (c : Curve G) (p : G) (h : c.n ∈ goodOrders) (hl : ∀ m, c.flog m = m.log2) :
    avf c p = avfSpec c.n (c.x p) := by
  have key : ∀ n ∈ goodOrders, ((round53 n).log2 + 1 + 1) / 2 = (n.log2 + 1 + 1) / 2 := by decide +kernel
  unfold avf avfLen avfSpec
  rw [hl, key c.n h]

/-- C154: the secret has the bytes of the standard when the coordinate needs all of them. -/
theorem C154_bytes_partial (c : Curve G) (p : G) (k : Nat) (hp : p ≠ 0) (h : c.x p < 256 ^ (k + 1))
    (h' : 256 ^ k ≤ c.x p) : zOf c p = .ok (fixedBytes (k + 1) (c.x p)) := by
  unfold zOf
  rw [if_neg hp, minBytes_eq k _ h h']

/-- C154: ECDH with the cofactor by this function agrees as well. -/
theorem C154_cofactor (c : Curve G) (d d' cof : Nat) (hg : c.n • c.g = 0) :
    cofactorZ c d (d' • c.g) cof = cofactorZ c d' (d • c.g) cof := by
  have h : mulPt c d (d' • c.g) = mulPt c d' (d • c.g) := by
    rw [mulPt_smul c (ord_smul hg), mulPt_smul c (ord_smul hg), ← mul_nsmul, ← mul_nsmul, mul_comm]
  unfold cofactorZ
  rw [h]

/-- C154: with these functions, a key agreement recipient with one-pass MQV is opened: the private keys are numbers, the
public keys points. -/
theorem C154_roundtrip {C : Type} (c : Curve G) (env : KEnv Nat G C) {x448 : G → Bool} {s gen s' : Nat} {cek ukm : Bytes}
    {cc kc : C} {o : KaOpts Nat} {r : Kari} {pop : Bool} (hpub : ∀ s, env.pubOf s = s • c.g)
    (hsend : ∀ ds e q, env.mqvSend ds e q = mqvSendZ c ds e q)
    (hrecv : ∀ dr qs qe, env.mqvRecv dr qs qe = mqvRecvZ c dr (env.pubOf dr) qs qe)
    (hg : c.n • c.g = 0) (h1 : s • c.g ≠ 0) (h2 : (o.eph.getD gen) • c.g ≠ 0) (h3 : s' • c.g ≠ 0)
    (hne : ∀ n x, env.H n x ≠ [])
    (h : buildKari env x448 (s' • c.g) s gen cek ukm (some cc) none none none o = .ok r) (hm : o.mqv = true)
    (ho : o.oid = none) (hx : env.isXPub (s' • c.g) = false)
    (hw : ∀ w, env.decWrapAlg (env.encWrapAlg w) = some (w, []))
    (hq : ∀ e u, env.decMqv (env.encMqv e u) = some (([1, 2, 840, 10045, 2, 1], .ok e, u), []))
    (hu : ∀ kek ek, env.wrap kek cek = .ok ek → env.unwrap kek ek = .ok cek) (hs : env.isEcdh s' = true)
    (hs' : env.isEc s' = true) (he : env.isEcPub ((o.eph.getD gen) • c.g) = true)
    (hk : env.keyOf kc = .ok (s • c.g)) (hk' : env.isEcPub (s • c.g) = true) :
    kariCek env r (some cc) s' pop (some kc) = .ok cek := by
  refine C151_roundtrip_mqv env hne h hm ho hx hw hq hu hs hs' (by rw [hpub]; exact he) hk hk' ?_
  rw [hrecv, hsend, hpub, hpub, C154_agree c s (o.eph.getD gen) s' hg h1 h2 h3]

/-! ## Examples -/

/-- The integers modulo 11, with the exact logarithm. -/
def exCurve : Curve (ZMod 11) := ⟨11, 1, 2, ZMod.val, Nat.log2⟩

/-- C154_scheme, C154_agree and C154_cofactor. -/
example : mqvSendZ exCurve 3 4 (5 • (2 : ZMod 11)) = .ok [9] ∧
    mqvRecvZ exCurve 5 (5 • (2 : ZMod 11)) (3 • 2) (4 • 2) = mqvSendZ exCurve 3 4 (5 • 2) ∧
    mqvRecvZ exCurve 5 (5 • (2 : ZMod 11)) (3 • 2) (6 • 2) ≠ mqvSendZ exCurve 3 4 (5 • 2) ∧
    cofactorZ exCurve 3 (4 • (2 : ZMod 11)) 1 = .ok [2] :=
  ⟨by decide +kernel, C154_agree exCurve 3 4 5 (by decide) (by decide) (by decide) (by decide), by decide +kernel,
    by decide +kernel⟩

/-- C154_avf_partial: the value is that of the standard here. -/
example : avf exCurve 7 = avfSpec 11 7 ∧ avfSpec 11 7 = 7 :=
  ⟨C154_avf_partial exCurve 7 (by decide +kernel), by decide +kernel⟩

/-- C154_avf: the order of secp256r1. -/
example : avf (⟨0xFFFFFFFF00000000FFFFFFFFFFFFFFFFBCE6FAADA7179E84F3B9CAC2FC632551, 1, 1, fun _ => 5, Nat.log2⟩ :
    Curve (ZMod 7)) 1 = 5 + 2 ^ 128 := by
  rw [C154_avf _ _ (by decide +kernel) (fun _ => rfl)]
  decide +kernel

/-- C154_bytes_partial: a coordinate with two bytes. -/
example : zOf (⟨65537, 1, 1, ZMod.val, Nat.log2⟩ : Curve (ZMod 65537)) 300 = .ok [1, 44] :=
  C154_bytes_partial _ 300 1 (by decide) (by decide +kernel) (by decide +kernel)

/-! ## Differences -/

/-- The orders of secp192r1, secp224r1, secp256k1 and secp384r1 (SEC 2), with their numbers of bits. -/
def badOrders : List (Nat × Nat) :=
  [(0xFFFFFFFFFFFFFFFFFFFFFFFF99DEF836146BC9B1B4D22831, 192),
   (0xFFFFFFFFFFFFFFFFFFFFFFFFFFFF16A2E0B8F03E13DD29455C5C2A3D, 224),
   (0xFFFFFFFFFFFFFFFFFFFFFFFFFFFFFFFEBAAEDCE6AF48A03BBFD25E8CD0364141, 256),
   (0xFFFFFFFFFFFFFFFFFFFFFFFFFFFFFFFFFFFFFFFFFFFFFFFFC7634D81F4372DDF581A0DB248B0A77AECEC196ACCC52973, 384)]

/-- For these curves the order is rounded to the next power of two before the logarithm is taken, so the associate value
has one bit too many, for every point: the result is not the one of the standard. -/
theorem C154_avf_refuted : ∀ x ∈ badOrders, x.1.log2 + 1 = x.2 ∧ round53 x.1 = 2 ^ x.2 ∧
    ∀ (c : Curve G) (p : G), c.n = x.1 → (∀ k, c.flog (2 ^ k) = k) →
      avfLen c = (x.2 + 1 + 1) / 2 ∧ avf c p ≠ avfSpec c.n (c.x p) := by
  have key : ∀ x ∈ badOrders, x.1.log2 + 1 = x.2 ∧ round53 x.1 = 2 ^ x.2 ∧ (x.2 + 1 + 1) / 2 = (x.1.log2 + 1 + 1) / 2 + 1 := by
    decide +kernel
  intro x hx
  obtain ⟨k1, k2, k3⟩ := key x hx
  refine ⟨k1, k2, ?_⟩
  intro c p hn hl
  have ha : avfLen c = (x.2 + 1 + 1) / 2 := by
    unfold avfLen
    rw [hn, k2, hl]
  refine ⟨ha, ?_⟩
  unfold avf avfSpec
  rw [ha, hn, k3, Nat.pow_succ]
  have hp : 0 < 2 ^ ((x.1.log2 + 1 + 1) / 2) := Nat.pow_pos (by decide)
  have := Nat.mod_lt (c.x p) hp
  omega

/-- A group of a given order, with the exact logarithm. -/
def cycCurve (n : Nat) : Curve (ZMod n) := ⟨n, 1, 1, ZMod.val, Nat.log2⟩

theorem cyc_point (n : Nat) (a : ZMod n → Nat) :
    mqvPoint (cycCurve n) a 1 1 1 = (((1 + a 1) * (1 + a 1) : Nat) : ZMod n) := by
  unfold mqvPoint cycCurve
  dsimp only
  rw [one_nsmul, one_mul, mul_one, nsmul_eq_mul, mul_one]

theorem cyc_x (n k : Nat) (hk : k % n ≠ 0) : xSpec (cycCurve n) (k : ZMod n) = .ok (minBytes (k % n)) := by
  have hv : ((k : Nat) : ZMod n).val = k % n := ZMod.val_natCast _ _
  unfold xSpec
  rw [if_neg ?_]
  · unfold cycCurve
    dsimp only
    rw [hv]
  · intro h0
    rw [h0, ZMod.val_zero] at hv
    exact hk hv.symm

theorem cyc_refuted (n a b : Nat) (h1 : 1 < n) (ha : avfLen (cycCurve n) = a) (hb : (n.log2 + 1 + 1) / 2 = b)
    (ha' : 1 % 2 ^ a = 1) (hb' : 1 % 2 ^ b = 1)
    (h2 : (1 + (1 + 2 ^ a)) * (1 + (1 + 2 ^ a)) % n ≠ 0) (h3 : (1 + (1 + 2 ^ b)) * (1 + (1 + 2 ^ b)) % n ≠ 0)
    (h4 : (1 + (1 + 2 ^ a)) * (1 + (1 + 2 ^ a)) % n ≠ (1 + (1 + 2 ^ b)) * (1 + (1 + 2 ^ b)) % n) :
    n • (cycCurve n).g = 0 ∧ mqvSendZ (cycCurve n) 1 1 (1 • (cycCurve n).g) ≠
      xSpec (cycCurve n) (mqvPoint (cycCurve n) (fun p => avfSpec n ((cycCurve n).x p)) 1 1 1) := by
  haveI : Fact (1 < n) := ⟨h1⟩
  have hg : n • (cycCurve n).g = 0 := by
    unfold cycCurve
    dsimp only
    rw [nsmul_eq_mul, ZMod.natCast_self, zero_mul]
  have hone : 1 • (cycCurve n).g ≠ 0 := by
    rw [one_nsmul]
    exact one_ne_zero
  refine ⟨hg, ?_⟩
  rw [(C154_scheme (cycCurve n) 1 1 1 hg hone hone hone).1, cyc_point, cyc_point]
  have hx : (cycCurve n).x 1 = 1 := ZMod.val_one n
  have e1 : avf (cycCurve n) 1 = 1 + 2 ^ a := by
    unfold avf
    rw [ha, hx, ha']
  have e2 : avfSpec n ((cycCurve n).x 1) = 1 + 2 ^ b := by
    unfold avfSpec
    rw [hb, hx, hb']
  rw [e1, e2, cyc_x _ _ h2, cyc_x _ _ h3]
  intro h
  exact h4 (minBytes_inj _ _ (Except.ok.inj h))

/-- The order of secp384r1. -/
def n384 : Nat :=
  0xFFFFFFFFFFFFFFFFFFFFFFFFFFFFFFFFFFFFFFFFFFFFFFFFC7634D81F4372DDF581A0DB248B0A77AECEC196ACCC52973

/-- With the order of secp384r1, the sender's secret differs from that of the standard. -/
theorem C154_standard_refuted : ∃ (n : Nat) (c : Curve (ZMod n)) (ds e dr : Nat), (n, 384) ∈ badOrders ∧ c.n = n ∧
    (∀ k, c.flog (2 ^ k) = k) ∧ n • c.g = 0 ∧
    mqvSendZ c ds e (dr • c.g) ≠ xSpec c (mqvPoint c (fun p => avfSpec n (c.x p)) ds e dr) :=
  ⟨n384, cycCurve n384, 1, 1, 1, by decide +kernel, rfl, fun _ => Nat.log2_two_pow,
    cyc_refuted n384 193 192 (by decide +kernel) (by decide +kernel) (by decide +kernel) (by decide +kernel)
      (by decide +kernel) (by decide +kernel) (by decide +kernel) (by decide +kernel)⟩

/-- A coordinate with leading zero bytes is written without them: the secret is shorter than in the standard. -/
theorem C154_bytes_refuted :
    (∀ (c : Curve G) (p : G) (k : Nat), p ≠ 0 → c.x p < 256 ^ k → zOf c p ≠ .ok (fixedBytes (k + 1) (c.x p))) ∧
    ∃ (c : Curve (ZMod 65537)) (p : ZMod 65537), p ≠ 0 ∧ zOf c p = .ok [5] ∧ fixedBytes 3 (c.x p) = [0, 0, 5] := by
  refine ⟨?_, ⟨65537, 1, 1, ZMod.val, Nat.log2⟩, 5, by decide, by decide +kernel, by decide +kernel⟩
  intro c p k hp hk h
  unfold zOf at h
  rw [if_neg hp] at h
  have := congrArg List.length (Except.ok.inj h)
  rw [fixedBytes_length] at this
  have := minBytes_short k _ hk
  omega

end Verif.Env
