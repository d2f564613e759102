import Verif.PQ.Stateful
import Verif.PQ.KemMechProps

/-!
# Stateful hash-based signature keys: properties
-/

namespace Verif.PQ.Stfl

open Verif.CA (Bytes PyErr)
open Verif.PQ.Slh (toByte fromBytes)
open Verif.PQ.Mech (toBytesBE fromBytes_toByte)
open Verif.PQ.Hyb (pyUpper pyLower)

theorem lookup_mem {α β : Type} [BEq α] [LawfulBEq α] {k : α} {v : β} {t : List (α × β)} (h : t.lookup k = some v) : (k, v) ∈ t := by
  induction t with
  | nil => cases h
  | cons x t ih =>
    rw [List.lookup] at h
    split at h
    · rename_i e
      cases h
      rw [LawfulBEq.eq_of_beq e]
      exact List.mem_cons_self
    · exact List.mem_cons_of_mem _ (ih h)

theorem lookup_none {α β : Type} [BEq α] [LawfulBEq α] {k : α} {t : List (α × β)} (h : t.lookup k = none) (v : β) : (k, v) ∉ t := by
  induction t with
  | nil => exact List.not_mem_nil
  | cons x t ih =>
    rw [List.lookup] at h
    split at h
    · cases h
    · rename_i e
      intro hm
      rcases List.mem_cons.1 hm with rfl | hm
      · simp at e
      · exact ih h hm

/-! ## C76: the index of an HSS signature -/

/-- Signing order: the next list of leaf numbers, lowest tree first. A tree with `m` leaves that is used up starts again at
leaf 0 below the next leaf of the tree above it; the key is exhausted when the top tree is. -/
def nextUp (m : Nat) : List Nat → Option (List Nat)
  | [] => none
  | q :: up => if q + 1 < m then some ((q + 1) :: up) else (nextUp m up).map (0 :: ·)

/-- The same with the top tree first. -/
def next (m : Nat) (leaves : List Nat) : Option (List Nat) := (nextUp m leaves.reverse).map List.reverse

/-- The leaf numbers of the `k`-th signature of a key with `levels` trees of `m` leaves, counted from 0. -/
def nthLeaves (m levels : Nat) : Nat → Option (List Nat)
  | 0 => some (List.replicate levels 0)
  | k + 1 => (nthLeaves m levels k).bind (next m)

/-- Number with the given digits, lowest first. -/
def valUp (m : Nat) : List Nat → Nat
  | [] => 0
  | q :: up => q + m * valUp m up

theorem valUp_lt (m : Nat) : ∀ l : List Nat, (∀ q ∈ l, q < m) → valUp m l < m ^ l.length
  | [], _ => by simp [valUp]
  | q :: l, h => by
    have h1 := valUp_lt m l (fun x hx => h x (List.mem_cons_of_mem _ hx))
    have h2 := h q List.mem_cons_self
    rw [valUp, List.length_cons, Nat.pow_succ]
    calc q + m * valUp m l < m + m * valUp m l := by omega
      _ = m * (valUp m l + 1) := by rw [Nat.mul_add, Nat.mul_one, Nat.add_comm]
      _ ≤ m * m ^ l.length := Nat.mul_le_mul_left _ h1
      _ = m ^ l.length * m := Nat.mul_comm _ _

theorem valUp_inj (m : Nat) : ∀ l l' : List Nat, l.length = l'.length → (∀ q ∈ l, q < m) → (∀ q ∈ l', q < m) →
    valUp m l = valUp m l' → l = l'
  | [], [], _, _, _, _ => rfl
  | [], _ :: _, h, _, _, _ => by simp at h
  | _ :: _, [], h, _, _, _ => by simp at h
  | q :: l, q' :: l', hl, h, h', e => by
    have h1 := h q List.mem_cons_self
    have h2 := h' q' List.mem_cons_self
    rw [valUp, valUp] at e
    have eq : q = q' := by
      have := congrArg (· % m) e
      simpa [Nat.add_mul_mod_self_left, Nat.mod_eq_of_lt h1, Nat.mod_eq_of_lt h2] using this
    subst eq
    have ev : valUp m l = valUp m l' := Nat.eq_of_mul_eq_mul_left (by omega) (Nat.add_left_cancel e)
    rw [valUp_inj m l l' (by simpa using hl) (fun x hx => h x (List.mem_cons_of_mem _ hx))
      (fun x hx => h' x (List.mem_cons_of_mem _ hx)) ev]

theorem nextUp_some (m : Nat) : ∀ l l' : List Nat, (∀ q ∈ l, q < m) → nextUp m l = some l' →
    l'.length = l.length ∧ (∀ q ∈ l', q < m) ∧ valUp m l' = valUp m l + 1
  | [], _, _, h => by cases h
  | q :: up, l', hq, h => by
    rw [nextUp] at h
    have h1 := hq q List.mem_cons_self
    split at h
    · rename_i hlt
      cases h
      refine ⟨rfl, ?_, by rw [valUp, valUp]; omega⟩
      intro x hx
      rcases List.mem_cons.1 hx with rfl | hx
      · exact hlt
      · exact hq x (List.mem_cons_of_mem _ hx)
    · rename_i hge
      cases e : nextUp m up with
      | none => rw [e] at h; cases h
      | some up' =>
        rw [e] at h
        cases h
        obtain ⟨a, b, c⟩ := nextUp_some m up up' (fun x hx => hq x (List.mem_cons_of_mem _ hx)) e
        refine ⟨by simp [a], ?_, ?_⟩
        · intro x hx
          rcases List.mem_cons.1 hx with rfl | hx
          · omega
          · exact b x hx
        · rw [valUp, valUp, c, Nat.mul_add]
          omega

theorem nextUp_none (m : Nat) : ∀ l : List Nat, (∀ q ∈ l, q < m) → nextUp m l = none → valUp m l + 1 = m ^ l.length
  | [], _, _ => rfl
  | q :: up, hq, h => by
    rw [nextUp] at h
    have h1 := hq q List.mem_cons_self
    split at h
    · cases h
    · rename_i hge
      cases e : nextUp m up with
      | some _ => rw [e] at h; cases h
      | none =>
        have := nextUp_none m up (fun x hx => hq x (List.mem_cons_of_mem _ hx)) e
        rw [valUp, List.length_cons, Nat.pow_succ, ← this, Nat.add_mul, Nat.mul_comm]
        omega

theorem nthLeaves_some (m levels : Nat) (hm : 0 < m) : ∀ k l, nthLeaves m levels k = some l →
    l.length = levels ∧ (∀ q ∈ l, q < m) ∧ valUp m l.reverse = k
  | 0, l, h => by
    cases h
    refine ⟨by simp, fun q hq => by rw [List.eq_of_mem_replicate hq]; exact hm, ?_⟩
    rw [List.reverse_replicate]
    clear hm
    induction levels with
    | zero => rfl
    | succ n ih => rw [List.replicate_succ, valUp, ih]; simp
  | k + 1, l, h => by
    rw [nthLeaves] at h
    cases e : nthLeaves m levels k with
    | none => rw [e] at h; cases h
    | some l0 =>
      rw [e] at h
      obtain ⟨a, b, c⟩ := nthLeaves_some m levels hm k l0 e
      rw [Option.bind_some, next] at h
      cases e2 : nextUp m l0.reverse with
      | none => rw [e2] at h; cases h
      | some l1 =>
        rw [e2] at h
        cases h
        obtain ⟨a1, b1, c1⟩ := nextUp_some m _ _ (fun q hq => b q (List.mem_reverse.1 hq)) e2
        refine ⟨by simp [a1, a], fun q hq => b1 q (List.mem_reverse.1 hq), ?_⟩
        rw [List.reverse_reverse, c1, c]

theorem nthLeaves_none (m levels : Nat) (hm : 0 < m) : ∀ k, nthLeaves m levels k = none → m ^ levels ≤ k
  | 0, h => by cases h
  | k + 1, h => by
    rw [nthLeaves] at h
    cases e : nthLeaves m levels k with
    | none => have := nthLeaves_none m levels hm k e; omega
    | some l0 =>
      rw [e] at h
      obtain ⟨a, b, c⟩ := nthLeaves_some m levels hm k l0 e
      rw [Option.bind_some, next] at h
      cases e2 : nextUp m l0.reverse with
      | some _ => rw [e2] at h; cases h
      | none =>
        have := nextUp_none m _ (fun q hq => b q (List.mem_reverse.1 hq)) e2
        rw [c, List.length_reverse, a] at this
        omega

theorem foldl_valUp (m : Nat) (l : List Nat) : l.foldl (fun t v => t * m + v) 0 = valUp m l.reverse := by
  suffices h : ∀ r : List Nat, r.reverse.foldl (fun t v => t * m + v) 0 = valUp m r by
    simpa using h l.reverse
  intro r
  rw [List.foldl_reverse]
  induction r with
  | nil => rfl
  | cons q r ih => rw [List.foldr_cons, ih, valUp, Nat.mul_comm, Nat.add_comm]

theorem hssIndexLoop_ok (m : Nat) : ∀ (l : List Nat) (t n : Nat), hssIndexLoop m l t = .ok n ↔
    (∀ q ∈ l, q < m) ∧ n = l.foldl (fun t v => t * m + v) t
  | [], t, n => by simp [hssIndexLoop, eq_comm]
  | q :: l, t, n => by
    rw [hssIndexLoop]
    split
    · rename_i h
      constructor
      · intro h; cases h
      · intro ⟨h', _⟩
        have := h' q List.mem_cons_self
        omega
    · rename_i h
      rw [hssIndexLoop_ok m l]
      simp only [List.forall_mem_cons, List.foldl_cons]
      constructor
      · rintro ⟨a, b⟩; exact ⟨⟨by omega, a⟩, b⟩
      · rintro ⟨⟨_, a⟩, b⟩; exact ⟨a, b⟩

/-- The leaf numbers of a signature, top tree first. -/
def leaves (s : HssSig) : List Nat := s.upper ++ [s.bottom]

theorem hssIndex_ok (name : String) (d : HssDetails) (hd : hssDetails.lookup name = some d) (levels : Nat) (s : HssSig)
    (n : Nat) : hssIndex name levels (some s) = .ok n ↔
      (leaves s).length = levels ∧ s.levels = levels ∧ (∀ q ∈ leaves s, q < d.maxPerTree) ∧ n = valUp d.maxPerTree (leaves s).reverse := by
  have key := hssIndexLoop_ok d.maxPerTree (leaves s) 0 n
  rw [foldl_valUp] at key
  unfold hssIndex
  rw [hd]
  dsimp only
  change (if (leaves s).length ≠ s.levels then _ else match hssIndexLoop d.maxPerTree (leaves s) 0 with
    | .error e => _ | .ok total => _) = _ ↔ _
  by_cases h1 : (leaves s).length = s.levels
  · rw [if_neg (by simp [h1])]
    cases e : hssIndexLoop d.maxPerTree (leaves s) 0 with
    | error e' =>
      rw [e] at key
      constructor
      · intro h; cases h
      · rintro ⟨_, _, a, b⟩
        exact absurd (key.2 ⟨a, b⟩) (by simp)
    | ok t =>
      rw [e] at key
      dsimp only
      by_cases h2 : levels = s.levels
      · rw [if_neg (by simp [h2])]
        rw [key, h2]
        simp [h1]
      · rw [if_pos h2]
        constructor
        · intro h; cases h
        · rintro ⟨_, h, _⟩; exact absurd h.symm h2
  · rw [if_pos h1]
    constructor
    · intro h; cases h
    · rintro ⟨a, b, _⟩
      exact absurd (a.trans b.symm) h1

theorem hssDetails_max {name : String} {d : HssDetails} (h : hssDetails.lookup name = some d) : d.maxPerTree = 2 ^ d.h ∧ 0 < d.maxPerTree := by
  have hm := lookup_mem h
  have key : d.maxPerTree = 2 ^ d.h := by
    rw [hssDetails, List.mem_flatMap] at hm
    obtain ⟨l, _, hm⟩ := hm
    rw [List.mem_filterMap] at hm
    obtain ⟨o, _, e⟩ := hm
    unfold hssEntry at e
    split at e
    · cases e
    · cases e; rfl
  exact ⟨key, by rw [key]; exact Nat.two_pow_pos _⟩

/-- **C76.** A signature has index `k` exactly when it carries the leaf numbers of the `k`-th signature in signing order:
the index counts signatures from 0, every number below `(2^h)^levels` is the index of one list of leaf numbers, and no two
lists share an index. -/
theorem C76_signing_order (name : String) (d : HssDetails) (hd : hssDetails.lookup name = some d) (levels : Nat) (s : HssSig)
    (k : Nat) : hssIndex name levels (some s) = .ok k ↔
      s.levels = levels ∧ 0 < levels ∧ nthLeaves (2 ^ d.h) levels k = some (leaves s) := by
  obtain ⟨he, hp⟩ := hssDetails_max hd
  rw [hssIndex_ok name d hd, he]
  rw [he] at hp
  constructor
  · rintro ⟨h1, h2, h3, h4⟩
    refine ⟨h2, by rw [← h1]; simp [leaves], ?_⟩
    cases e : nthLeaves (2 ^ d.h) levels k with
    | none =>
      have := nthLeaves_none _ _ hp _ e
      have hlt := valUp_lt (2 ^ d.h) (leaves s).reverse (fun q hq => h3 q (List.mem_reverse.1 hq))
      rw [List.length_reverse, h1, ← h4] at hlt
      omega
    | some l =>
      obtain ⟨a, b, c⟩ := nthLeaves_some _ _ hp _ _ e
      have := valUp_inj (2 ^ d.h) l.reverse (leaves s).reverse (by simp [a, h1])
        (fun q hq => b q (List.mem_reverse.1 hq)) (fun q hq => h3 q (List.mem_reverse.1 hq)) (by rw [c, h4])
      rw [List.reverse_inj.1 this]
  · rintro ⟨h1, _, h3⟩
    obtain ⟨a, b, c⟩ := nthLeaves_some _ _ hp _ _ h3
    exact ⟨a, h1, b, c.symm⟩

/-- **C76.** Every number below `(2^h)^levels` is an index, and no other number is. -/
theorem C76_range (name : String) (d : HssDetails) (hd : hssDetails.lookup name = some d) (levels : Nat) (hl : 0 < levels) (k : Nat) :
    (∃ s, hssIndex name levels (some s) = .ok k) ↔ k < (2 ^ d.h) ^ levels := by
  obtain ⟨he, hp⟩ := hssDetails_max hd
  rw [he] at hp
  constructor
  · rintro ⟨s, h⟩
    rw [hssIndex_ok name d hd, he] at h
    obtain ⟨h1, h2, h3, h4⟩ := h
    have hlt := valUp_lt (2 ^ d.h) (leaves s).reverse (fun q hq => h3 q (List.mem_reverse.1 hq))
    rw [List.length_reverse, h1, ← h4] at hlt
    exact hlt
  · intro h
    cases e : nthLeaves (2 ^ d.h) levels k with
    | none => have := nthLeaves_none _ _ hp _ e; omega
    | some l =>
      obtain ⟨a, b, c⟩ := nthLeaves_some _ _ hp _ _ e
      have hne : l ≠ [] := by intro h0; rw [h0] at a; simp at a; omega
      refine ⟨⟨levels, l.dropLast, l.getLast hne⟩, ?_⟩
      rw [C76_signing_order name d hd]
      refine ⟨rfl, hl, ?_⟩
      rw [e]
      exact congrArg some (List.dropLast_append_getLast hne).symm

/-- **C76.** Two signatures with the same index carry the same leaf numbers on all levels. -/
theorem C76_same_index (name : String) (levels : Nat) (s t : HssSig) (k : Nat) (hs : hssIndex name levels (some s) = .ok k)
    (ht : hssIndex name levels (some t) = .ok k) : s = t := by
  cases e : hssDetails.lookup name with
  | none => unfold hssIndex at hs; rw [e] at hs; cases hs
  | some d =>
    rw [C76_signing_order name d e] at hs ht
    have := hs.2.2.symm.trans ht.2.2
    have hl : leaves s = leaves t := Option.some.inj this
    unfold leaves at hl
    obtain ⟨h1, h2⟩ := List.append_inj' hl rfl
    cases s; cases t
    simp only [List.cons.injEq, and_true] at h2
    simp_all

/-- **C76.** The index of the mock CA's state check is that of `compute_hss_signature_index`, unless the bottom leaf number is
asked for. -/
theorem C76_ca_index (k : HssPub) (sig : Option HssSig) : sigIndexHss k sig false = hssIndex k.name k.levels sig := rfl

/-- **C76, bottom leaf number.** It is the index modulo the leaves of a tree: the signature `2^h` positions later in signing
order has the same one. -/
theorem C76_leaf_is_remainder (name : String) (d : HssDetails) (hd : hssDetails.lookup name = some d) (levels : Nat) (s : HssSig)
    (k : Nat) (h : hssIndex name levels (some s) = .ok k) : hssLeaf (some s) = .ok (k % 2 ^ d.h) := by
  obtain ⟨he, _⟩ := hssDetails_max hd
  rw [hssIndex_ok name d hd, he] at h
  obtain ⟨_, _, h3, h4⟩ := h
  have hb := h3 s.bottom (by simp [leaves])
  rw [h4, leaves, List.reverse_append, List.reverse_singleton, List.singleton_append, valUp, Nat.add_mul_mod_self_left,
    Nat.mod_eq_of_lt hb]
  rfl

/-- **C76 refuted for the leaf index.** For every parameter set and every key of two or more levels two different one-time keys
have the same bottom leaf number. -/
theorem C76_leaf_index_refuted (name : String) (d : HssDetails) (hd : hssDetails.lookup name = some d) (hh : 0 < d.h)
    (levels : Nat) (hl : 2 ≤ levels) : ∃ s t : HssSig, ∃ i j, hssIndex name levels (some s) = .ok i ∧
      hssIndex name levels (some t) = .ok j ∧ i ≠ j ∧ leaves s ≠ leaves t ∧ hssLeaf (some s) = hssLeaf (some t) := by
  have hp : 2 ≤ 2 ^ d.h := Nat.le_trans (by decide : 2 ≤ 2 ^ 1) (Nat.pow_le_pow_right (by omega) hh)
  have hbig : 2 ^ d.h < (2 ^ d.h) ^ levels := by
    calc 2 ^ d.h = (2 ^ d.h) ^ 1 := (Nat.pow_one _).symm
      _ < (2 ^ d.h) ^ levels := Nat.pow_lt_pow_right (by omega) (by omega)
  obtain ⟨s, hs⟩ := (C76_range name d hd levels (by omega) 0).2 (by omega)
  obtain ⟨t, ht⟩ := (C76_range name d hd levels (by omega) (2 ^ d.h)).2 hbig
  refine ⟨s, t, 0, 2 ^ d.h, hs, ht, by omega, ?_, ?_⟩
  · intro hc
    have h1 := (C76_signing_order name d hd levels s 0).1 hs
    have h2 := (C76_signing_order name d hd levels t (2 ^ d.h)).1 ht
    have : hssIndex name levels (some t) = .ok 0 := (C76_signing_order name d hd levels t 0).2 ⟨h2.1, h2.2.1, by rw [← hc]; exact h1.2.2⟩
    rw [ht] at this
    injection this with h
    omega
  · rw [C76_leaf_is_remainder name d hd levels s 0 hs, C76_leaf_is_remainder name d hd levels t _ ht]
    simp

/-- Three trees of 32 leaves: the signature after `(0, 3, 31)` is `(0, 4, 0)`; its index is `128`. -/
example : hssIndex "hss_lms_sha256_m32_h5_lmots_sha256_n32_w8" 3 (some ⟨3, [0, 4], 0⟩) = .ok 128 ∧
    hssIndex "hss_lms_sha256_m32_h5_lmots_sha256_n32_w8" 3 (some ⟨3, [0, 3], 31⟩) = .ok 127 ∧
    next 32 [0, 3, 31] = some [0, 4, 0] := by decide +kernel

/-! ## C77: the levels of an HSS key -/

/-- The names of one level in the notation of RFC 8554 and RFC 9858. -/
def levelNamesOf (f : String) (n h w : Nat) : String × String :=
  ("lms_" ++ f ++ "_m" ++ toString n ++ "_h" ++ toString h, "lmots_" ++ f ++ "_n" ++ toString n ++ "_w" ++ toString w)

/-- The values that the standards define. -/
def Defined (f : String) (n h w : Nat) : Prop :=
  f ∈ ["sha256", "shake"] ∧ n ∈ [24, 32] ∧ h ∈ [5, 10, 15, 20, 25] ∧ w ∈ [1, 2, 4, 8]

theorem lmsTable_names : ∀ a ∈ lmsTable, a.2.1 = "lms_" ++ a.2.2.hash ++ "_m" ++ toString a.2.2.m ++ "_h" ++ toString a.2.2.h ∧
    a.2.2.hash ∈ ["sha256", "shake"] ∧ a.2.2.m ∈ [24, 32] ∧ a.2.2.h ∈ [5, 10, 15, 20, 25] ∧ parseLms a.2.1 = .ok a.2.2 ∧
    lmsTable.lookup a.1 = some a.2 := by
  decide +kernel

theorem lmotsTable_names : ∀ a ∈ lmotsTable, a.2.1 = "lmots_" ++ a.2.2.hash ++ "_n" ++ toString a.2.2.n ++ "_w" ++ toString a.2.2.w ∧
    a.2.2.hash ∈ ["sha256", "shake"] ∧ a.2.2.n ∈ [24, 32] ∧ a.2.2.w ∈ [1, 2, 4, 8] ∧ parseLmots a.2.1 = .ok a.2.2 ∧
    lmotsTable.lookup a.1 = some a.2 := by
  decide +kernel

theorem lms_defined : ∀ f ∈ ["sha256", "shake"], ∀ n ∈ [24, 32], ∀ h ∈ [5, 10, 15, 20, 25],
    ("lms_" ++ f ++ "_m" ++ toString n ++ "_h" ++ toString h, (⟨f, n, h⟩ : Lms)) ∈ lmsTable.map (·.2) := by
  decide +kernel

theorem lmots_defined : ∀ f ∈ ["sha256", "shake"], ∀ n ∈ [24, 32], ∀ w ∈ [1, 2, 4, 8],
    ∃ p ∈ [265, 133, 67, 34, 200, 101, 51, 26], ("lmots_" ++ f ++ "_n" ++ toString n ++ "_w" ++ toString w, (⟨f, n, p, w⟩ : Lmots)) ∈ lmotsTable.map (·.2) := by
  decide +kernel

theorem parseLms_of_mem {nm : String} {l : Lms} (h : (nm, l) ∈ lmsTable.map (·.2)) : parseLms nm = .ok l := by
  obtain ⟨a, ha, e⟩ := List.mem_map.1 h
  have := (lmsTable_names a ha).2.2.2.2.1
  rw [e] at this
  exact this

theorem parseLmots_of_mem {nm : String} {l : Lmots} (h : (nm, l) ∈ lmotsTable.map (·.2)) : parseLmots nm = .ok l := by
  obtain ⟨a, ha, e⟩ := List.mem_map.1 h
  have := (lmotsTable_names a ha).2.2.2.2.1
  rw [e] at this
  exact this

theorem pairIssues_total (a b : String) : ∃ l, pairIssues a b = .ok l := by
  unfold pairIssues
  dsimp only
  by_cases h1 : a ∈ lmsTable.map (·.2.1)
  · by_cases h2 : b ∈ lmotsTable.map (·.2.1)
    · obtain ⟨x, hx, rfl⟩ := List.mem_map.1 h1
      obtain ⟨y, hy, rfl⟩ := List.mem_map.1 h2
      rw [if_pos h1, if_pos h2, if_neg (by simp), (lmsTable_names x hx).2.2.2.2.1, (lmotsTable_names y hy).2.2.2.2.1]
      exact ⟨_, rfl⟩
    · rw [if_pos h1, if_neg h2, if_pos (by simp)]
      exact ⟨_, rfl⟩
  · rw [if_neg h1, if_pos (by simp)]
    exact ⟨_, rfl⟩

theorem pairIssues_nil (a b : String) : pairIssues a b = .ok [] ↔ ∃ f n h w, Defined f n h w ∧ (a, b) = levelNamesOf f n h w := by
  unfold pairIssues
  dsimp only
  by_cases h1 : a ∈ lmsTable.map (·.2.1)
  · by_cases h2 : b ∈ lmotsTable.map (·.2.1)
    · obtain ⟨x, hx, rfl⟩ := List.mem_map.1 h1
      obtain ⟨y, hy, rfl⟩ := List.mem_map.1 h2
      obtain ⟨x1, x2, x3, x4, x5, _⟩ := lmsTable_names x hx
      obtain ⟨y1, y2, y3, y4, y5, _⟩ := lmotsTable_names y hy
      rw [if_pos h1, if_pos h2, if_neg (by simp), x5, y5]
      dsimp only
      rw [if_pos y4, if_pos x4]
      constructor
      · intro h
        have h3 : x.2.2.hash = y.2.2.hash := by
          apply Classical.byContradiction; intro hc; rw [if_pos hc] at h; simp at h
        have h4 : x.2.2.m = y.2.2.n := by
          apply Classical.byContradiction; intro hc; rw [if_pos hc] at h; simp at h
        refine ⟨x.2.2.hash, x.2.2.m, x.2.2.h, y.2.2.w, ⟨x2, x3, x4, y4⟩, ?_⟩
        rw [levelNamesOf]
        refine Prod.ext x1 ?_
        rw [h3, h4]
        exact y1
      · rintro ⟨f, n, h, w, ⟨hf, hn, hh, hw⟩, e⟩
        have e1 : x.2.1 = _ := (Prod.mk.inj e).1
        have e2 : y.2.1 = _ := (Prod.mk.inj e).2
        have p1 := parseLms_of_mem (lms_defined f hf n hn h hh)
        obtain ⟨p, _, hp⟩ := lmots_defined f hf n hn w hw
        have p2 := parseLmots_of_mem hp
        rw [← e1, x5] at p1
        rw [← e2, y5] at p2
        injection p1 with p1
        injection p2 with p2
        rw [p1, p2]
        simp
    · rw [if_pos h1, if_neg h2]
      rw [if_pos (by simp)]
      constructor
      · intro h; simp at h
      · rintro ⟨f, n, h, w, ⟨hf, hn, hh, hw⟩, e⟩
        obtain ⟨p, _, hp⟩ := lmots_defined f hf n hn w hw
        obtain ⟨y, hy, ey⟩ := List.mem_map.1 hp
        exact absurd (List.mem_map.2 ⟨y, hy, by rw [ey]; exact (Prod.mk.inj e).2.symm⟩) h2
  · rw [if_neg h1]
    rw [if_pos (by simp)]
    constructor
    · intro h; simp at h
    · rintro ⟨f, n, h, w, ⟨hf, hn, hh, hw⟩, e⟩
      obtain ⟨y, hy, ey⟩ := List.mem_map.1 (lms_defined f hf n hn h hh)
      exact absurd (List.mem_map.2 ⟨y, hy, by rw [ey]; exact (Prod.mk.inj e).1.symm⟩) h1

theorem levelIssues_total : ∀ (l : List (String × String)) i, ∃ r, levelIssues i l = .ok r ∧
    (r = [] ↔ ∀ x ∈ l, pairIssues x.1 x.2 = .ok [])
  | [], _ => ⟨[], rfl, by simp⟩
  | (a, b) :: l, i => by
    obtain ⟨p, hp⟩ := pairIssues_total a b
    obtain ⟨r, hr, hi⟩ := levelIssues_total l (i + 1)
    refine ⟨p.map (Issue.level i) ++ r, by rw [levelIssues, hp]; dsimp only; rw [hr], ?_⟩
    rw [List.append_eq_nil_iff, List.map_eq_nil_iff, hi, List.forall_mem_cons, hp]
    simp

theorem configIssues_total (l : List (String × String)) : ∃ r, configIssues l = .ok r ∧
    (r = [] ↔ (1 ≤ l.length ∧ l.length ≤ 8) ∧ ∀ x ∈ l, pairIssues x.1 x.2 = .ok []) := by
  obtain ⟨r, hr, hi⟩ := levelIssues_total l 0
  refine ⟨_, by rw [configIssues, hr], ?_⟩
  rw [List.append_eq_nil_iff, hi]
  by_cases h : 1 ≤ l.length ∧ l.length ≤ 8
  · simp [h]
  · rw [if_neg h]; simp [h]

theorem laterIssues_ok {α : Type} [DecidableEq α] (f : String × String → Except PyErr α) (tag : Nat → Issue) (first : α) :
    ∀ (l : List (String × String)) (i : Nat), (∃ e, laterIssues f tag first i l = .error e ∧ ∃ x ∈ l, f x = .error e) ∨
      ∃ r, laterIssues f tag first i l = .ok r ∧ (r = [] ↔ ∀ x ∈ l, f x = .ok first)
  | [], _ => .inr ⟨[], rfl, by simp⟩
  | x :: l, i => by
    rw [laterIssues]
    cases e : f x with
    | error e' => exact .inl ⟨e', rfl, x, List.mem_cons_self, e⟩
    | ok v =>
      dsimp only
      rcases laterIssues_ok f tag first l (i + 1) with ⟨e', h, y, hy, hy'⟩ | ⟨r, hr, hi⟩
      · rw [h]
        exact .inl ⟨e', rfl, y, List.mem_cons_of_mem _ hy, hy'⟩
      · rw [hr]
        refine .inr ⟨_, rfl, ?_⟩
        rw [List.append_eq_nil_iff, hi, List.forall_mem_cons, e]
        by_cases hv : v = first
        · simp [hv]
        · rw [if_pos hv]; simp [hv]

theorem mismatchIssues_ok {α : Type} [DecidableEq α] (f : String × String → Except PyErr α) (tag : Nat → Issue)
    (l : List (String × String)) : (∃ e, mismatchIssues f tag l = .error e ∧ ∃ x ∈ l, f x = .error e) ∨
      ∃ r, mismatchIssues f tag l = .ok r ∧ (r = [] ↔ l = [] ∨ ∃ v, ∀ x ∈ l, f x = .ok v) := by
  cases l with
  | nil => exact .inr ⟨[], rfl, by simp⟩
  | cons x l =>
    rw [mismatchIssues]
    cases e : f x with
    | error e' => exact .inl ⟨e', rfl, x, List.mem_cons_self, e⟩
    | ok v =>
      dsimp only
      rcases laterIssues_ok f tag v l 1 with ⟨e', h, y, hy, hy'⟩ | ⟨r, hr, hi⟩
      · exact .inl ⟨e', h, y, List.mem_cons_of_mem _ hy, hy'⟩
      · refine .inr ⟨r, hr, hi.trans ?_⟩
        constructor
        · intro h; exact .inr ⟨v, by rw [List.forall_mem_cons]; exact ⟨e, h⟩⟩
        · rintro (h | ⟨v', h⟩)
          · cases h
          · have := h x List.mem_cons_self
            rw [e] at this
            injection this with this
            rw [this]
            intro y hy
            exact h y (List.mem_cons_of_mem _ hy)

theorem parseLms_error {s : String} {e : PyErr} (h : parseLms s = .error e) : e = .invalidKeyData := by
  unfold parseLms at h; split at h <;> cases h; rfl

theorem parseLmots_error {s : String} {e : PyErr} (h : parseLmots s = .error e) : e = .invalidKeyData := by
  unfold parseLmots at h; split at h <;> cases h; rfl

theorem map_error {α β : Type} {r : Except PyErr α} {f : α → β} {e : PyErr} (h : r.map f = .error e) : r = .error e := by
  cases r <;> simp [Except.map] at h; rw [h]

/-- All levels have defined parameters, and hash function, digest size and Winternitz parameter are the same everywhere. -/
def Uniform (lower : String → String) (levels : List (String × String)) : Prop :=
  ∃ f n w, ∀ x ∈ levels, ∃ h, Defined f n h w ∧ (lower x.1, lower x.2) = levelNamesOf f n h w

/-- Every level has defined parameters. -/
def EachDefined (lower : String → String) (levels : List (String × String)) : Prop :=
  ∀ x ∈ levels, ∃ f n h w, Defined f n h w ∧ (lower x.1, lower x.2) = levelNamesOf f n h w

theorem values_of_level {f : String} {n h w : Nat} (hd : Defined f n h w) :
    familyOf (levelNamesOf f n h w) = .ok f ∧ digestOf (levelNamesOf f n h w) = .ok n ∧ winternitzOf (levelNamesOf f n h w) = .ok w := by
  obtain ⟨hf, hn, hh, hw⟩ := hd
  have p1 := parseLms_of_mem (lms_defined f hf n hn h hh)
  obtain ⟨p, _, hp⟩ := lmots_defined f hf n hn w hw
  have p2 := parseLmots_of_mem hp
  unfold familyOf digestOf winternitzOf levelNamesOf
  rw [p1, p2]
  exact ⟨rfl, rfl, rfl⟩

/-- **C77.** The check passes or raises `InvalidKeyData`; zero or more than eight levels are always rejected. -/
theorem C77_depth (lower : String → String) (levels : List (String × String)) (flag : Bool) :
    (validateLevels lower levels flag = .ok () ∨ validateLevels lower levels flag = .error .invalidKeyData) ∧
    (levels.length = 0 ∨ 8 < levels.length → validateLevels lower levels flag = .error .invalidKeyData) := by
  obtain ⟨r, hr, hi⟩ := configIssues_total (levels.map fun x => (lower x.1, lower x.2))
  have fam := mismatchIssues_ok familyOf .family (levels.map fun x => (lower x.1, lower x.2))
  have dig := mismatchIssues_ok digestOf .digest (levels.map fun x => (lower x.1, lower x.2))
  have win := mismatchIssues_ok winternitzOf .winternitz (levels.map fun x => (lower x.1, lower x.2))
  have hlen : levels.length = 0 ∨ 8 < levels.length → r ≠ [] := by
    intro h h0
    have := (hi.1 h0).1
    rw [List.length_map] at this
    omega
  unfold validateLevels
  dsimp only
  rw [hr]
  dsimp only
  cases hc : (!flag && decide (1 < levels.length)) with
  | false =>
    rw [if_neg (by simp)]
    dsimp only
    by_cases h0 : r ++ [] = []
    · rw [if_pos h0]
      exact ⟨.inl rfl, fun h => absurd (by simpa using h0) (hlen h)⟩
    · rw [if_neg h0]
      exact ⟨.inr rfl, fun _ => rfl⟩
  | true =>
    rw [if_pos rfl]
    rcases fam with ⟨e, h, x, _, hx⟩ | ⟨ra, ha, _⟩
    · rw [h, parseLms_error (map_error hx)]; exact ⟨.inr rfl, fun _ => rfl⟩
    · rw [ha]
      dsimp only
      rcases dig with ⟨e, h, x, _, hx⟩ | ⟨rb, hb, _⟩
      · rw [h, parseLmots_error (map_error hx)]; exact ⟨.inr rfl, fun _ => rfl⟩
      · rw [hb]
        dsimp only
        rcases win with ⟨e, h, x, _, hx⟩ | ⟨rc, hcc, _⟩
        · rw [h, parseLmots_error (map_error hx)]; exact ⟨.inr rfl, fun _ => rfl⟩
        · rw [hcc]
          dsimp only
          by_cases h0 : r ++ (ra ++ rb ++ rc) = []
          · rw [if_pos h0]
            exact ⟨.inl rfl, fun h => absurd (List.append_eq_nil_iff.1 h0).1 (hlen h)⟩
          · rw [if_neg h0]
            exact ⟨.inr rfl, fun _ => rfl⟩

theorem pairs_iff (lower : String → String) (levels : List (String × String)) :
    (∀ x ∈ levels.map (fun x => (lower x.1, lower x.2)), pairIssues x.1 x.2 = .ok []) ↔ EachDefined lower levels := by
  rw [List.forall_mem_map]
  constructor
  · intro h x hx; exact (pairIssues_nil _ _).1 (h x hx)
  · intro h x hx; exact (pairIssues_nil _ _).2 (h x hx)

/-- **C77 partial: what the check with enforcement accepts.** One to eight levels with defined parameters, which may differ from
level to level. -/
theorem C77_enforced_partial (lower : String → String) (levels : List (String × String)) :
    validateLevels lower levels true = .ok () ↔ (1 ≤ levels.length ∧ levels.length ≤ 8) ∧ EachDefined lower levels := by
  obtain ⟨r, hr, hi⟩ := configIssues_total (levels.map fun x => (lower x.1, lower x.2))
  rw [pairs_iff, List.length_map] at hi
  unfold validateLevels
  dsimp only
  rw [hr]
  dsimp only
  rw [if_neg (by simp)]
  dsimp only
  rw [← hi, List.append_nil]
  by_cases h0 : r = []
  · rw [if_pos h0]; simp [h0]
  · rw [if_neg h0]; simp [h0]

/-- **C77 partial: what the check without enforcement accepts.** One to eight levels with the same hash function, digest size
and Winternitz parameter; the tree heights may differ. -/
theorem C77_not_enforced_partial (lower : String → String) (levels : List (String × String)) :
    validateLevels lower levels false = .ok () ↔ (1 ≤ levels.length ∧ levels.length ≤ 8) ∧ Uniform lower levels := by
  obtain ⟨r, hr, hi⟩ := configIssues_total (levels.map fun x => (lower x.1, lower x.2))
  have fam := mismatchIssues_ok familyOf .family (levels.map fun x => (lower x.1, lower x.2))
  have dig := mismatchIssues_ok digestOf .digest (levels.map fun x => (lower x.1, lower x.2))
  have win := mismatchIssues_ok winternitzOf .winternitz (levels.map fun x => (lower x.1, lower x.2))
  rw [pairs_iff, List.length_map] at hi
  -- values of uniform levels
  have huni : Uniform lower levels → EachDefined lower levels ∧ ∃ f n w, ∀ x ∈ levels.map (fun x => (lower x.1, lower x.2)),
      familyOf x = .ok f ∧ digestOf x = .ok n ∧ winternitzOf x = .ok w := by
    rintro ⟨f, n, w, h⟩
    refine ⟨fun x hx => ?_, f, n, w, ?_⟩
    · obtain ⟨h', hd, e⟩ := h x hx
      exact ⟨f, n, h', w, hd, e⟩
    · rw [List.forall_mem_map]
      intro x hx
      obtain ⟨h', hd, e⟩ := h x hx
      rw [e]
      exact values_of_level hd
  have hback : EachDefined lower levels → (∃ f, ∀ x ∈ levels.map (fun x => (lower x.1, lower x.2)), familyOf x = .ok f) →
      (∃ n, ∀ x ∈ levels.map (fun x => (lower x.1, lower x.2)), digestOf x = .ok n) →
      (∃ w, ∀ x ∈ levels.map (fun x => (lower x.1, lower x.2)), winternitzOf x = .ok w) → Uniform lower levels := by
    rintro hE ⟨f, hf⟩ ⟨n, hn⟩ ⟨w, hw⟩
    refine ⟨f, n, w, fun x hx => ?_⟩
    obtain ⟨f', n', h, w', hd, e⟩ := hE x hx
    obtain ⟨v1, v2, v3⟩ := values_of_level hd
    have hm : (lower x.1, lower x.2) ∈ levels.map (fun x => (lower x.1, lower x.2)) := List.mem_map.2 ⟨x, hx, rfl⟩
    have u1 := hf _ hm
    have u2 := hn _ hm
    have u3 := hw _ hm
    rw [e] at u1 u2 u3
    rw [v1] at u1
    rw [v2] at u2
    rw [v3] at u3
    injection u1 with u1
    injection u2 with u2
    injection u3 with u3
    subst u1 u2 u3
    exact ⟨h, hd, e⟩
  have hne : 1 ≤ levels.length → levels.map (fun x => (lower x.1, lower x.2)) ≠ [] := by
    intro h h0
    rw [List.map_eq_nil_iff] at h0
    rw [h0] at h
    simp at h
  have hone : levels.length ≤ 1 → EachDefined lower levels → Uniform lower levels := by
    intro h1 hE
    match levels, h1, hE with
    | [], _, _ => exact ⟨"sha256", 32, 8, by simp⟩
    | [x], _, hE =>
      obtain ⟨f, n, h, w, hd, e⟩ := hE x (by simp)
      exact ⟨f, n, w, by simp only [List.mem_singleton, forall_eq]; exact ⟨h, hd, e⟩⟩
    | _ :: _ :: _, h1, _ => simp at h1
  unfold validateLevels
  dsimp only
  rw [hr]
  dsimp only
  by_cases hc : 1 < levels.length
  · rw [if_pos (by simp [hc])]
    rcases fam with ⟨e, h, x, hx, hxe⟩ | ⟨ra, ha, hai⟩
    · rw [h]
      constructor
      · intro h; cases h
      · rintro ⟨_, hu⟩
        obtain ⟨_, f, n, w, hv⟩ := huni hu
        rw [(hv x hx).1] at hxe
        cases hxe
    · rw [ha]
      dsimp only
      rcases dig with ⟨e, h, x, hx, hxe⟩ | ⟨rb, hb, hbi⟩
      · rw [h]
        constructor
        · intro h; cases h
        · rintro ⟨_, hu⟩
          obtain ⟨_, f, n, w, hv⟩ := huni hu
          rw [(hv x hx).2.1] at hxe
          cases hxe
      · rw [hb]
        dsimp only
        rcases win with ⟨e, h, x, hx, hxe⟩ | ⟨rc, hcc, hci⟩
        · rw [h]
          constructor
          · intro h; cases h
          · rintro ⟨_, hu⟩
            obtain ⟨_, f, n, w, hv⟩ := huni hu
            rw [(hv x hx).2.2] at hxe
            cases hxe
        · rw [hcc]
          dsimp only
          by_cases h0 : r ++ (ra ++ rb ++ rc) = []
          · rw [if_pos h0]
            simp only [List.append_eq_nil_iff] at h0
            obtain ⟨h1, ⟨h2, h3⟩, h4⟩ := h0
            obtain ⟨hl, hE⟩ := hi.1 h1
            have hn := hne hl.1
            exact ⟨fun _ => ⟨hl, hback hE ((hai.1 h2).resolve_left hn) ((hbi.1 h3).resolve_left hn) ((hci.1 h4).resolve_left hn)⟩, fun _ => rfl⟩
          · rw [if_neg h0]
            constructor
            · intro h; cases h
            · rintro ⟨hl, hu⟩
              obtain ⟨hE, f, n, w, hv⟩ := huni hu
              refine absurd ?_ h0
              simp only [List.append_eq_nil_iff]
              exact ⟨hi.2 ⟨hl, hE⟩, ⟨hai.2 (.inr ⟨f, fun x hx => (hv x hx).1⟩), hbi.2 (.inr ⟨n, fun x hx => (hv x hx).2.1⟩)⟩,
                hci.2 (.inr ⟨w, fun x hx => (hv x hx).2.2⟩)⟩
  · rw [if_neg (by simp [hc])]
    dsimp only
    rw [List.append_nil]
    by_cases h0 : r = []
    · rw [if_pos h0]
      obtain ⟨hl, hE⟩ := hi.1 h0
      exact ⟨fun _ => ⟨hl, hone (by omega) hE⟩, fun _ => rfl⟩
    · rw [if_neg h0]
      constructor
      · intro h; cases h
      · rintro ⟨hl, hu⟩
        exact absurd (hi.2 ⟨hl, (huni hu).1⟩) h0

/-- **C77 refuted.** With enforcement enabled, a key whose second level uses another hash function, another digest size and
another Winternitz parameter is accepted; without enforcement it is rejected. -/
theorem C77_enforcement_refuted :
    validateLevels pyLower [levelNamesOf "sha256" 32 5 8, levelNamesOf "shake" 24 5 4] true = .ok () ∧
    validateLevels pyLower [levelNamesOf "sha256" 32 5 8, levelNamesOf "shake" 24 5 4] false = .error .invalidKeyData ∧
    ¬ Uniform pyLower [levelNamesOf "sha256" 32 5 8, levelNamesOf "shake" 24 5 4] := by
  have h2 : validateLevels pyLower [levelNamesOf "sha256" 32 5 8, levelNamesOf "shake" 24 5 4] false = .error .invalidKeyData := by decide +kernel
  refine ⟨by decide +kernel, h2, fun hu => ?_⟩
  have := (C77_not_enforced_partial pyLower _).2 ⟨by decide, hu⟩
  rw [h2] at this
  cases this

/-- **C77 refuted for tree heights.** Neither setting rejects levels whose trees have different heights. -/
theorem C77_heights_refuted (lower : String → String) (f : String) (n h h' w : Nat) (hd : Defined f n h w) (hd' : Defined f n h' w)
    (hl : ∀ h, (lower (levelNamesOf f n h w).1, lower (levelNamesOf f n h w).2) = levelNamesOf f n h w) (flag : Bool) :
    validateLevels lower [levelNamesOf f n h w, levelNamesOf f n h' w] flag = .ok () := by
  cases flag
  · rw [C77_not_enforced_partial]
    refine ⟨by simp, f, n, w, ?_⟩
    simp only [List.mem_cons, List.not_mem_nil, or_false, forall_eq_or_imp, forall_eq]
    exact ⟨⟨h, hd, hl h⟩, ⟨h', hd', hl h'⟩⟩
  · rw [C77_enforced_partial]
    refine ⟨by simp, ?_⟩
    intro x hx
    simp only [List.mem_cons, List.not_mem_nil, or_false] at hx
    rcases hx with rfl | rfl
    · exact ⟨f, n, h, w, hd, hl h⟩
    · exact ⟨f, n, h', w, hd', hl h'⟩

example : validateLevels pyLower [levelNamesOf "shake" 24 10 4, levelNamesOf "shake" 24 5 4, levelNamesOf "shake" 24 25 4] false = .ok () := by
  decide +kernel

end Verif.PQ.Stfl
