import Verif.CA.SetupProps

/-!
# C256: the names which the configuration of the handler may have
-/

namespace Verif.CA.Setup

open Verif.CA

/-- A value of the state: the alternative key, or a certificate or key of one of the purposes. -/
def IsField (n : String) : Prop :=
  n = "ca_alt_key" ∨ ∃ p ∈ ["ca", "hybrid_kem", "kem", "x25519", "x448", "ecc", "encr_rsa"], n = p ++ "_cert" ∨ n = p ++ "_key"

theorem fields_iff (n : String) : fields.contains n = true ↔ IsField n := by
  have hl : "ca" ++ "_cert" = "ca_cert" ∧ "ca" ++ "_key" = "ca_key" ∧ "hybrid_kem" ++ "_cert" = "hybrid_kem_cert" ∧
      "hybrid_kem" ++ "_key" = "hybrid_kem_key" ∧ "kem" ++ "_cert" = "kem_cert" ∧ "kem" ++ "_key" = "kem_key" ∧
      "x25519" ++ "_cert" = "x25519_cert" ∧ "x25519" ++ "_key" = "x25519_key" ∧ "x448" ++ "_cert" = "x448_cert" ∧
      "x448" ++ "_key" = "x448_key" ∧ "ecc" ++ "_cert" = "ecc_cert" ∧ "ecc" ++ "_key" = "ecc_key" ∧
      "encr_rsa" ++ "_cert" = "encr_rsa_cert" ∧ "encr_rsa" ++ "_key" = "encr_rsa_key" := by decide +kernel
  obtain ⟨a1, a2, a3, a4, a5, a6, a7, a8, a9, b1, b2, b3, b4, b5⟩ := hl
  unfold IsField fields
  simp only [List.contains_iff_mem, List.mem_cons, List.not_mem_nil, or_false, exists_eq_or_imp, exists_eq_left, a1, a2, a3, a4, a5,
    a6, a7, a8, a9, b1, b2, b3, b4, b5]
  grind

theorem set_all {V : Type} (p : String → Bool) (c : Config V) (n : String) (v : V) (hn : p n = true) :
    (Config.set c n v).all (fun x => p x.1) = c.all (fun x => p x.1) := by
  induction c with
  | nil => simp [Config.set, hn]
  | cons x r ih =>
    unfold Config.set
    by_cases h : x.1 = n
    · rw [if_pos h]; simp [hn, h]
    · rw [if_neg h]; simp only [List.all_cons, ih]

theorem fill_all {V : Type} (p : String → Bool) (e : Config V) : ∀ c : Config V,
    (Config.fill c e).all (fun x => p x.1) = (c.all (fun x => p x.1) && e.all (fun x => p x.1)) := by
  induction e with
  | nil => intro c; simp [Config.fill]
  | cons x r ih =>
    intro c
    unfold Config.fill
    by_cases h : c.any (fun y => decide (y.1 = x.1)) = true
    · rw [if_pos h, ih]
      obtain ⟨y, hy, hyx⟩ := List.any_eq_true.mp h
      have hyx := decide_eq_true_eq.mp hyx
      simp only [List.all_cons]
      cases hc : c.all (fun x => p x.1) with
      | false => simp
      | true =>
        have := List.all_eq_true.mp hc y hy
        rw [hyx] at this
        simp [this]
    · rw [if_neg h, ih]
      simp [Bool.and_assoc]

/-- **C256** With a certificate and a key of the CA the state is made exactly if all names of the configuration, and of the
environment, are names of its values; otherwise the handler is not made, with a TypeError. -/
theorem C256_names_iff {V : Type} (config : Config V) (hc : config ≠ []) (alt : V) (e : Config V) (cert key : V) :
    ((∃ s, opState (some config) alt e (some cert) (some key) = .ok s) ↔ ∀ x ∈ config ++ e, IsField x.1) ∧
    ((∃ x ∈ config ++ e, ¬ IsField x.1) → opState (some config) alt e (some cert) (some key) = .error .typeError) := by
  have hst : start (some config) alt = config := by
    unfold start
    cases config with
    | nil => exact absurd rfl hc
    | cons x r => rfl
  have hall : (Config.set (Config.set (Config.fill config e) "ca_cert" cert) "ca_key" key).all (fun x => fields.contains x.1) = true ↔
      ∀ x ∈ config ++ e, IsField x.1 := by
    rw [set_all (fun n => fields.contains n) _ _ _ (by decide), set_all (fun n => fields.contains n) _ _ _ (by decide),
      fill_all (fun n => fields.contains n)]
    rw [← List.all_append, List.all_eq_true]
    constructor
    · intro h x hx; exact (fields_iff _).mp (h x hx)
    · intro h x hx; exact (fields_iff _).mpr (h x hx)
  unfold opState
  dsimp only
  rw [hst]
  by_cases h : (Config.set (Config.set (Config.fill config e) "ca_cert" cert) "ca_key" key).all (fun x => fields.contains x.1) = true
  · rw [if_pos h]
    exact ⟨⟨fun _ => hall.mp h, fun _ => ⟨_, rfl⟩⟩, fun ⟨x, hx, hn⟩ => absurd (hall.mp h x hx) hn⟩
  · rw [if_neg h]
    refine ⟨⟨fun ⟨s, hs⟩ => (by cases hs), fun h' => absurd (hall.mpr h') h⟩, fun _ => rfl⟩

example : ∃ s, opState (some [("x448_cert", 3), ("encr_rsa_key", 4)]) 9 [] (some 1) (some 2) = .ok s :=
  (C256_names_iff _ (by decide) _ _ _ _).1.mpr (fun x hx => (fields_iff _).mp (by
    simp only [List.append_nil, List.mem_cons, List.not_mem_nil, or_false] at hx
    rcases hx with rfl | rfl <;> decide +kernel))

end Verif.CA.Setup
