import Verif.PQ.StatefulProps

/-!
Loading stateful public keys, and which of them a certificate template may contain: C78, C114, and C77 for loaded keys.
-/

namespace Verif.PQ.Stfl

open Verif.CA (Bytes PyErr)
open Verif.PQ.Hyb (pyUpper pyLower)

/-! ## C78: the approval filter -/

theorem startsWith_append (s p : String) : startsWith s p = true ↔ ∃ r, s.toList = p.toList ++ r := by
  unfold startsWith
  rw [List.isPrefixOf_iff_prefix]
  exact ⟨fun ⟨r, h⟩ => ⟨r, h.symm⟩, fun ⟨r, h⟩ => ⟨r, h.symm⟩⟩

theorem endsWith_append (s p : String) : endsWith s p = true ↔ ∃ r, s.toList = r ++ p.toList := by
  unfold endsWith
  rw [List.isSuffixOf_iff_suffix]
  exact ⟨fun ⟨r, h⟩ => ⟨r, h.symm⟩, fun ⟨r, h⟩ => ⟨r, h.symm⟩⟩

/-- **C78.** Whatever the name: an approved XMSS name has no 512-bit digest and is not one of the original SHAKE sets. -/
theorem C78_xmss_all_names (name : String) (h : approvedXmss name = true) :
    endsWith name "_512" = false ∧ startsWith name "xmss-shake_" = false := by
  unfold approvedXmss at h
  rw [Bool.and_eq_true, Bool.or_eq_true, Bool.or_eq_true] at h
  obtain ⟨hp, hs⟩ := h
  constructor
  · rw [Bool.eq_false_iff]
    intro h5
    rw [endsWith_append] at h5
    rw [endsWith_append, endsWith_append] at hs
    obtain ⟨r5, h5⟩ := h5
    rcases hs with ⟨r, hs⟩ | ⟨r, hs⟩ <;>
    · have := List.append_inj_right' (hs.symm.trans h5) (by decide)
      revert this
      decide
  · rw [Bool.eq_false_iff]
    intro h5
    rw [startsWith_append] at h5
    rw [startsWith_append, startsWith_append] at hp
    obtain ⟨r5, h5⟩ := h5
    have key : ∀ p : List Char, (∃ r, name.toList = p ++ r) → p.take 11 = "xmss-shake_".toList.take p.length := by
      rintro p ⟨r, hr⟩
      have e := hr.symm.trans h5
      have := congrArg (fun l => (l.take p.length).take 11) e
      simp only [List.take_left] at this
      rw [this, List.take_take, Nat.min_comm, ← List.take_take, show (11 : Nat) = "xmss-shake_".toList.length from by decide +kernel, List.take_left]
    rcases hp with hp | hp
    · exact absurd (key _ hp) (by decide +kernel)
    · exact absurd (key _ hp) (by decide +kernel)

/-- **C78.** The same for XMSS^MT. -/
theorem C78_xmssmt_all_names (name : String) (h : approvedXmssmt name = true) :
    endsWith name "_512" = false ∧ startsWith name "xmssmt-shake_" = false := by
  unfold approvedXmssmt at h
  rw [Bool.and_eq_true, Bool.or_eq_true, Bool.or_eq_true] at h
  obtain ⟨hp, hs⟩ := h
  constructor
  · rw [Bool.eq_false_iff]
    intro h5
    rw [endsWith_append] at h5
    rw [endsWith_append, endsWith_append] at hs
    obtain ⟨r5, h5⟩ := h5
    rcases hs with ⟨r, hs⟩ | ⟨r, hs⟩ <;>
    · have := List.append_inj_right' (hs.symm.trans h5) (by decide)
      revert this
      decide
  · rw [Bool.eq_false_iff]
    intro h5
    rw [startsWith_append] at h5
    rw [startsWith_append, startsWith_append] at hp
    obtain ⟨r5, h5⟩ := h5
    have key : ∀ p : List Char, (∃ r, name.toList = p ++ r) → p.take 13 = "xmssmt-shake_".toList.take p.length := by
      rintro p ⟨r, hr⟩
      have e := hr.symm.trans h5
      have := congrArg (fun l => (l.take p.length).take 13) e
      simp only [List.take_left] at this
      rw [this, List.take_take, Nat.min_comm, ← List.take_take, show (13 : Nat) = "xmssmt-shake_".toList.length from by decide +kernel, List.take_left]
    rcases hp with hp | hp
    · exact absurd (key _ hp) (by decide +kernel)
    · exact absurd (key _ hp) (by decide +kernel)

/-- The parameter sets of NIST SP 800-208 by registered identifier: SHA-256 and SHAKE256 with digests of 192 or 256 bits. -/
def xmssApprovedId (i : Nat) : Prop := (1 ≤ i ∧ i ≤ 3) ∨ (0x0D ≤ i ∧ i ≤ 0x15)

def xmssmtApprovedId (i : Nat) : Prop := (1 ≤ i ∧ i ≤ 8) ∨ (0x21 ≤ i ∧ i ≤ 0x38)

instance (i : Nat) : Decidable (xmssApprovedId i) := by unfold xmssApprovedId; infer_instance
instance (i : Nat) : Decidable (xmssmtApprovedId i) := by unfold xmssmtApprovedId; infer_instance

/-- **C78.** Of the registered XMSS sets exactly those of SP 800-208 pass the filter, and exactly the others are in the list of
sets that are not approved. -/
theorem C78_xmss_table : ∀ a ∈ xmssIds, (approvedXmss (pyLower a.2) = true ↔ xmssApprovedId a.1) ∧
    (a.2 ∈ xmssNotApproved ↔ ¬ xmssApprovedId a.1) := by
  decide +kernel

/-- **C78.** Of the registered XMSS^MT sets exactly those of SP 800-208 pass the filter, and the filter rejects everything in
the list. -/
theorem C78_xmssmt_table : (∀ a ∈ xmssmtIds, approvedXmssmt (pyLower a.2) = true ↔ xmssmtApprovedId a.1) ∧
    ∀ nm ∈ xmssmtNotApproved, approvedXmssmt (pyLower nm) = false := by
  decide +kernel

/-- **C78, the list `XMSSMT_NOT_APPROVED` refuted.** It omits the sixteen original SHAKE sets, which are not approved, and its
last eight entries are names that no identifier has. -/
theorem C78_list_refuted : (∀ a ∈ xmssmtIds, 0x11 ≤ a.1 ∧ a.1 ≤ 0x20 → ¬ xmssmtApprovedId a.1 ∧ a.2 ∉ xmssmtNotApproved) ∧
    (xmssmtNotApproved.filter (· ∉ xmssmtIds.map (·.2))).length = 8 := by
  decide +kernel

example : approvedXmss "xmss-shake256_16_192" = true ∧ approvedXmss "xmss-shake_16_256" = false ∧
    approvedXmssmt "xmssmt-sha2_60/12_192" = true ∧ approvedXmssmt "xmssmt-sha2_60/12_512" = false := by decide +kernel

/-! ## C114: loading stateful public keys -/

/-- Digest size and tree height of the registered XMSS sets (RFC 8391 and SP 800-208), by identifier. -/
def xmssSpec (i : Nat) : Option (Nat × Nat) :=
  if 1 ≤ i ∧ i ≤ 0x15 then
    let n := if i ≤ 3 then 32 else if i ≤ 6 then 64 else if i ≤ 9 then 32 else if i ≤ 12 then 64 else if i ≤ 15 then 24
      else if i ≤ 18 then 32 else 24
    let h := match (i - 1) % 3 with
      | 0 => 10
      | 1 => 16
      | _ => 20
    some (n, h)
  else none

/-- The same for XMSS^MT, identifiers 1 to 0x38. -/
def xmssmtSpec (i : Nat) : Option (Nat × Nat) :=
  if 1 ≤ i ∧ i ≤ 0x38 then
    let n := if i ≤ 8 then 32 else if i ≤ 16 then 64 else if i ≤ 24 then 32 else if i ≤ 32 then 64 else if i ≤ 40 then 24
      else if i ≤ 48 then 32 else 24
    let h := match (i - 1) % 8 with
      | 0 | 1 => 20
      | 2 | 3 | 4 => 40
      | _ => 60
    some (n, h)
  else none

theorem xmssIds_facts : ∀ a ∈ xmssIds, ∃ n h, xmssSpec a.1 = some (n, h) ∧ pyUpper a.2 = a.2 ∧ sizeOfName (pyLower a.2) = .ok n ∧
    sizeOfName a.2 = .ok n ∧ (∀ d, xmssCheckName d a.2 = .ok (pyLower a.2, a.2)) ∧ (∀ d, xmssCheckName d (pyLower a.2) = .ok (pyLower a.2, a.2)) ∧
    xmssMax ⟨pyLower a.2, []⟩ = .ok (2 ^ h - 1) ∧ pyUpper (pyLower a.2) = a.2 := by
  have key : ∀ a ∈ xmssIds, ∃ s ∈ (xmssSpec a.1).toList, pyUpper a.2 = a.2 ∧ sizeOfName (pyLower a.2) = .ok s.1 ∧
    sizeOfName a.2 = .ok s.1 ∧ pyLower a.2 ≠ "xmss" ∧ pyLower (pyLower a.2) = pyLower a.2 ∧ a.2 ∈ xmssIds.map (·.2) ∧
    secondField (pyLower a.2) = .ok (toString s.2).toList ∧ pyInt (toString s.2).toList = .ok s.2 ∧ pyUpper (pyLower a.2) = a.2 := by decide +kernel
  intro a ha
  obtain ⟨s, hs, h1, h2, h3, h4, h5, h6, h7, h8, h9⟩ := key a ha
  refine ⟨s.1, s.2, by simpa using hs, h1, h2, h3, ?_, ?_, ?_, h9⟩
  · intro d
    unfold xmssCheckName
    dsimp only
    rw [if_neg h4, h9, if_pos h6]
  · intro d
    unfold xmssCheckName
    dsimp only
    rw [h5, if_neg h4, h9, if_pos h6]
  · unfold xmssMax
    dsimp only
    rw [h7]
    dsimp only
    rw [h8]

theorem xmssIds_lookup : ∀ a ∈ xmssIds, xmssIds.lookup a.1 = some a.2 := by decide +kernel

theorem xmssIds_complete (i : Nat) (s : Nat × Nat) (h : xmssSpec i = some s) : ∃ nm, (i, nm) ∈ xmssIds := by
  have hi : 1 ≤ i ∧ i ≤ 0x15 := by
    apply Classical.byContradiction; intro hc; unfold xmssSpec at h; rw [if_neg hc] at h; cases h
  have : ∀ i < 0x16, 1 ≤ i → (xmssIds.lookup i).isSome := by decide +kernel
  have := this i (by omega) hi.1
  obtain ⟨nm, e⟩ := Option.isSome_iff_exists.1 this
  exact ⟨nm, lookup_mem e⟩

/-- **C114.** An XMSS public key is accepted exactly when its first four bytes are a registered identifier and its length fits the
digest size; the bytes are kept, and the name is the registered one. Everything else is `InvalidKeyData`. -/
theorem C114_xmss (o : Oqs) (ho : ∀ a ∈ xmssIds, o.enabled a.2 = true) (data : Bytes) :
    (∃ n h nm, xmssSpec (headId data) = some (n, h) ∧ data.length = 4 + 2 * n ∧ (headId data, nm) ∈ xmssIds ∧
      xmssPubLoad o data = .ok ⟨pyLower nm, data⟩ ∧ xmssMax ⟨pyLower nm, data⟩ = .ok (2 ^ h - 1)) ∨
    ((∀ s, xmssSpec (headId data) = some s → data.length ≠ 4 + 2 * s.1) ∧ xmssPubLoad o data = .error .invalidKeyData) := by
  unfold xmssPubLoad
  cases e : xmssIds.lookup (headId data) with
  | none =>
    refine .inr ⟨fun s hs => ?_, rfl⟩
    obtain ⟨nm, hm⟩ := xmssIds_complete _ s hs
    exact absurd hm (lookup_none e nm)
  | some nm =>
    have hm := lookup_mem e
    obtain ⟨n, h, h1, h2, h3, h4, h5, h6, h7, h8⟩ := xmssIds_facts _ hm
    dsimp only at h1 h2 h3 h4 h5 h6 h7 h8 ⊢
    rw [h2]
    unfold xmssPub
    rw [h5]
    dsimp only
    rw [h3]
    dsimp only
    by_cases hl : data.length = 4 + 2 * n
    · rw [if_neg (by omega), if_pos (ho _ hm)]
      exact .inl ⟨n, h, nm, h1, hl, hm, rfl, h7⟩
    · rw [if_pos (by omega)]
      refine .inr ⟨fun s hs => ?_, rfl⟩
      rw [h1] at hs
      cases hs
      exact hl

theorem xmss_names_differ : ∀ a ∈ xmssIds, ∀ b ∈ xmssIds, pyLower a.2 = pyLower b.2 → a = b := by decide +kernel

/-- **C114.** The exported bytes of a loaded XMSS key load as the same key, and keys with the same name have the same identifier. -/
theorem C114_xmss_reload (o : Oqs) (ho : ∀ a ∈ xmssIds, o.enabled a.2 = true) (data data' : Bytes) (k k' : Pub) (h : xmssPubLoad o data = .ok k) (h' : xmssPubLoad o data' = .ok k') :
    xmssPubLoad o k.bytes = .ok k ∧ (k.name = k'.name ↔ headId data = headId data') := by
  rcases C114_xmss o ho data with ⟨n, hh, nm, a1, a2, a3, a4, _⟩ | ⟨_, a4⟩
  · rcases C114_xmss o ho data' with ⟨n', hh', nm', b1, b2, b3, b4, _⟩ | ⟨_, b4⟩
    · rw [a4] at h
      rw [b4] at h'
      cases h
      cases h'
      refine ⟨a4, fun hn => congrArg Prod.fst (xmss_names_differ _ a3 _ b3 hn), fun hi => ?_⟩
      have e1 := xmssIds_lookup _ a3
      have e2 := xmssIds_lookup _ b3
      dsimp only at e1 e2
      rw [hi, e2] at e1
      cases e1
      rfl
    · rw [b4] at h'; cases h'
  · rw [a4] at h; cases h

theorem xmssmtIds_lower : ∀ a ∈ xmssmtIds, pyLower a.2 ≠ "xmssmt" ∧ pyLower (pyLower a.2) = pyLower a.2 ∧ pyUpper (pyLower a.2) = a.2 := by
  decide +kernel

theorem xmssmtIds_fields : ∀ a ∈ xmssmtIds, ∃ s ∈ (xmssmtSpec a.1).toList, mtField 0 (pyLower a.2) = .ok s.2 ∧ sizeOfName a.2 = .ok s.1 := by
  decide +kernel

theorem xmssmtIds_names (a : Nat × String) (ha : a ∈ xmssmtIds) : ∃ s ∈ (xmssmtSpec a.1).toList, xmssmtCheckName a.2 = .ok (pyLower a.2, a.2) ∧
    xmssmtCheckName (pyLower a.2) = .ok (pyLower a.2, a.2) ∧ mtField 0 (pyLower a.2) = .ok s.2 ∧ sizeOfName a.2 = .ok s.1 ∧ pyUpper (pyLower a.2) = a.2 := by
  obtain ⟨h1, h2, h3⟩ := xmssmtIds_lower a ha
  obtain ⟨s, hs, h4, h5⟩ := xmssmtIds_fields a ha
  have hm : a.2 ∈ xmssmtIds.map (·.2) := List.mem_map_of_mem ha
  refine ⟨s, hs, ?_, ?_, h4, h5, h3⟩
  · unfold xmssmtCheckName
    dsimp only
    rw [if_neg h1, h3, if_pos hm]
  · unfold xmssmtCheckName
    dsimp only
    rw [h2, if_neg h1, h3, if_pos hm]

theorem xmssmtIds_detailed : ∀ a ∈ xmssmtIds,
    (xmssmtDetails.lookup (pyLower a.2)).map (fun d => (d.n, d.h)) = if a.1 ≤ 0x20 then xmssmtSpec a.1 else none := by
  decide +kernel

theorem xmssmtIds_facts (a : Nat × String) (ha : a ∈ xmssmtIds) : ∃ n h, xmssmtSpec a.1 = some (n, h) ∧ xmssmtCheckName a.2 = .ok (pyLower a.2, a.2) ∧
    xmssmtCheckName (pyLower a.2) = .ok (pyLower a.2, a.2) ∧ mtField 0 (pyLower a.2) = .ok h ∧ sizeOfName a.2 = .ok n ∧ pyUpper (pyLower a.2) = a.2 ∧
    (a.1 ≤ 0x20 → ∃ hs, xmssmtDetails.lookup (pyLower a.2) = some ⟨hs, n, h⟩) ∧ (0x20 < a.1 → xmssmtDetails.lookup (pyLower a.2) = none) := by
  obtain ⟨s, hs, h1, h2, h3, h4, h5⟩ := xmssmtIds_names a ha
  have hs : xmssmtSpec a.1 = some s := by simpa using hs
  have hd := xmssmtIds_detailed a ha
  refine ⟨s.1, s.2, hs, h1, h2, h3, h4, h5, ?_, ?_⟩
  · intro h
    rw [if_pos h, hs] at hd
    generalize xmssmtDetails.lookup (pyLower a.2) = r at hd
    cases r with
    | none => cases hd
    | some d =>
      obtain ⟨d1, d2, d3⟩ := d
      cases hd
      exact ⟨d1, rfl⟩
  · intro h
    rw [if_neg (by omega)] at hd
    generalize xmssmtDetails.lookup (pyLower a.2) = r at hd
    cases r with
    | none => rfl
    | some d => cases hd

theorem xmssmtIds_complete (i : Nat) (s : Nat × Nat) (h : xmssmtSpec i = some s) : ∃ nm, (i, nm) ∈ xmssmtIds := by
  have hi : 1 ≤ i ∧ i ≤ 0x38 := by
    apply Classical.byContradiction; intro hc; unfold xmssmtSpec at h; rw [if_neg hc] at h; cases h
  have : ∀ i < 0x39, 1 ≤ i → (xmssmtIds.lookup i).isSome := by decide +kernel
  have := this i (by omega) hi.1
  obtain ⟨nm, e⟩ := Option.isSome_iff_exists.1 this
  exact ⟨nm, lookup_mem e⟩

/-- The backend knows the registered XMSS^MT sets and their public key lengths. -/
def OqsMt (o : Oqs) : Prop := ∀ a ∈ xmssmtIds, o.enabled a.2 = true ∧ ∀ s, xmssmtSpec a.1 = some s → o.pubLen a.2 = 4 + 2 * s.1

/-- **C114 partial, XMSS^MT.** Keys of the identifiers 1 to 0x20 are accepted exactly when the length fits and rejected with
`InvalidKeyData` otherwise; all other identifiers end in a `KeyError`. -/
theorem C114_xmssmt_partial (o : Oqs) (ho : OqsMt o) (data : Bytes) :
    (headId data ∈ List.range' 1 0x20 ∧ ∃ n h nm, xmssmtSpec (headId data) = some (n, h) ∧ (headId data, nm) ∈ xmssmtIds ∧
      xmssmtPubLoad o data = if data.length = 4 + 2 * n then .ok ⟨pyLower nm, data⟩ else .error .invalidKeyData) ∨
    (headId data ∉ List.range' 1 0x20 ∧ xmssmtPubLoad o data = .error .keyError) := by
  unfold xmssmtPubLoad
  cases e : xmssmtIds.lookup (headId data) with
  | none =>
    refine .inr ⟨fun hr => ?_, rfl⟩
    rw [List.mem_range'_1] at hr
    have : (xmssmtSpec (headId data)).isSome := by unfold xmssmtSpec; rw [if_pos (by omega)]; rfl
    obtain ⟨s, hs⟩ := Option.isSome_iff_exists.1 this
    obtain ⟨nm, hm⟩ := xmssmtIds_complete _ s hs
    exact absurd hm (lookup_none e nm)
  | some nm =>
    have hm := lookup_mem e
    obtain ⟨n, h, h1, h2, h3, h4, _, _, h5, h6⟩ := xmssmtIds_facts _ hm
    dsimp only at h1 h2 h3 h4 h5 h6 ⊢
    have hlo : 1 ≤ headId data := by
      apply Classical.byContradiction; intro hc; unfold xmssmtSpec at h1; rw [if_neg (by omega)] at h1; cases h1
    by_cases hi : headId data ≤ 0x20
    · obtain ⟨hs, hd⟩ := h5 hi
      rw [hd]
      dsimp only
      refine .inl ⟨by rw [List.mem_range'_1]; omega, n, h, nm, h1, hm, ?_⟩
      obtain ⟨o1, o2⟩ := ho _ hm
      have o2 := o2 _ h1
      dsimp only at o1 o2
      by_cases hl : data.length = 4 + 2 * n
      · rw [if_neg (by omega), if_pos hl]
        unfold xmssmtPub
        rw [h2]
        dsimp only
        rw [o1, o2, if_neg (by simp), if_neg (by simp [hl])]
      · rw [if_pos (by omega), if_neg hl]
    · rw [h6 (by omega)]
      exact .inr ⟨by rw [List.mem_range'_1]; omega, rfl⟩

/-- **C114 refuted, XMSS^MT.** A well-formed key of any of the twenty-four registered sets 0x21 to 0x38, all of them approved, raises
a `KeyError`, and so does a key with an unknown identifier; neither is the `InvalidKeyData` that the callers handle. -/
theorem C114_xmssmt_refuted (o : Oqs) (ho : OqsMt o) (data : Bytes) (h : headId data = 0 ∨ 0x20 < headId data) :
    xmssmtPubLoad o data = .error .keyError := by
  rcases C114_xmssmt_partial o ho data with ⟨hr, _⟩ | ⟨_, he⟩
  · rw [List.mem_range'_1] at hr; omega
  · exact he

/-- **C114 refuted, the default names.** The name "xmss" stands for trees of height 20 in a public key and of height 10 in a
private key: a public key object built from a generated key's bytes under that name announces the wrong set. -/
theorem C114_default_name_refuted (o : Oqs) (ho : ∀ a ∈ xmssIds, o.enabled a.2 = true) (sk pk : Bytes) (hs : sk.length = o.secLen "XMSS-SHA2_10_256")
    (hp : pk.length = 68) : xmssSec o "xmss" sk (some pk) = .ok ⟨"xmss-sha2_10_256", sk, some pk⟩ ∧
      xmssPub o "xmss" pk = .ok ⟨"xmss-sha2_20_256", pk⟩ := by
  have c1 : xmssCheckName "xmss-sha2_10_256" "xmss" = .ok ("xmss-sha2_10_256", "XMSS-SHA2_10_256") := by decide +kernel
  have c2 : xmssCheckName "xmss-sha2_20_256" "xmss" = .ok ("xmss-sha2_20_256", "XMSS-SHA2_20_256") := by decide +kernel
  have c3 : sizeOfName "xmss-sha2_20_256" = .ok 32 := by decide +kernel
  constructor
  · unfold xmssSec
    rw [c1]
    dsimp only
    rw [ho (1, "XMSS-SHA2_10_256") (by decide +kernel), if_neg (by simp), if_neg (by simp [hs])]
  · unfold xmssPub
    rw [c2]
    dsimp only
    rw [c3]
    dsimp only
    rw [ho (3, "XMSS-SHA2_20_256") (by decide +kernel), if_neg (by omega), if_pos rfl]

theorem lookup_of_mem {α β : Type} [BEq α] [LawfulBEq α] {k : α} {v : β} : ∀ {t : List (α × β)}, (∀ w, (k, w) ∈ t → w = v) → (k, v) ∈ t →
    t.lookup k = some v
  | [], _, h => by cases h
  | (k', v') :: t, hu, h => by
    rw [List.lookup_cons]
    by_cases e : k = k'
    · subst e
      simp [hu v' (by simp)]
    · have : (k == k') = false := by simpa using e
      rw [this]
      dsimp only
      refine lookup_of_mem (fun w hw => hu w (List.mem_cons_of_mem _ hw)) ?_
      rcases List.mem_cons.1 h with h | h
      · cases h; exact absurd rfl e
      · exact h

theorem lms_no_prefix : ∀ l ∈ lmsTable, ∀ l' ∈ lmsTable, (l.2.1.toList ++ ['_']).isPrefixOf l'.2.1.toList = false ∧
    (l.2.1.toList = l'.2.1.toList → l = l') := by decide +kernel

theorem lmots_inj : ∀ o ∈ lmotsTable, ∀ o' ∈ lmotsTable, o.2.1.toList = o'.2.1.toList → o = o' := by decide +kernel

theorem sep_prefix {L L' O O' : List Char} (h : L ++ '_' :: O = L' ++ '_' :: O') : L = L' ∧ O = O' ∨ (L ++ ['_']) <+: L' ∨ (L' ++ ['_']) <+: L := by
  rcases List.append_eq_append_iff.1 h with ⟨a, e1, e2⟩ | ⟨a, e1, e2⟩
  · cases a with
    | nil => left; simp at e1 e2; exact ⟨e1.symm, e2⟩
    | cons c a =>
      right; left
      simp at e2
      rw [e1, e2.1]
      exact ⟨a, by simp⟩
  · cases a with
    | nil => left; simp at e1 e2; exact ⟨e1, e2.symm⟩
    | cons c a =>
      right; right
      simp at e2
      rw [e1, e2.1]
      exact ⟨a, by simp⟩

/-- The combined names determine the two types. -/
theorem hssName_inj {l l' : Nat × String × Lms} {o o' : Nat × String × Lmots} (hl : l ∈ lmsTable) (hl' : l' ∈ lmsTable) (ho : o ∈ lmotsTable) (ho' : o' ∈ lmotsTable)
    (h : "hss_" ++ l.2.1 ++ "_" ++ o.2.1 = "hss_" ++ l'.2.1 ++ "_" ++ o'.2.1) : l = l' ∧ o = o' := by
  have h := congrArg String.toList h
  simp only [String.toList_append, List.append_assoc, List.append_cancel_left_eq] at h
  have e : "_".toList = ['_'] := by decide +kernel
  rw [e] at h
  rcases sep_prefix h with ⟨h1, h2⟩ | h1 | h1
  · exact ⟨(lms_no_prefix l hl l' hl').2 h1, lmots_inj o ho o' ho' h2⟩
  · have := (lms_no_prefix l hl l' hl').1
    rw [List.isPrefixOf_iff_prefix.2 h1] at this
    cases this
  · have := (lms_no_prefix l' hl' l hl).1
    rw [List.isPrefixOf_iff_prefix.2 h1] at this
    cases this

theorem hssDetails_mem {nm : String} {d : HssDetails} : (nm, d) ∈ hssDetails ↔ ∃ l ∈ lmsTable, ∃ o ∈ lmotsTable, hssEntry l o = some (nm, d) := by
  unfold hssDetails
  simp only [List.mem_flatMap, List.mem_filterMap]

theorem hssEntry_some {l : Nat × String × Lms} {o : Nat × String × Lmots} {nm : String} {d : HssDetails} (h : hssEntry l o = some (nm, d)) :
    o.2.2.hash = l.2.2.hash ∧ o.2.2.n = l.2.2.m ∧ nm = "hss_" ++ l.2.1 ++ "_" ++ o.2.1 := by
  unfold hssEntry at h
  split at h
  · cases h
  · rename_i hc
    rw [not_or] at hc
    dsimp only at h
    have h := congrArg Prod.fst (Option.some.inj h)
    exact ⟨Classical.not_not.1 hc.1, Classical.not_not.1 hc.2, h.symm⟩

/-- The codes in an entry of `HSS_ALGORITHM_DETAILS` are those of its name, the lengths those of RFC 8554, and the sets are the pairs
with the same hash function and digest size. -/
theorem hssDetails_lookup (l : Nat × String × Lms) (hl : l ∈ lmsTable) (o : Nat × String × Lmots) (ho : o ∈ lmotsTable) :
    hssDetails.lookup ("hss_" ++ l.2.1 ++ "_" ++ o.2.1) = (hssEntry l o).map (·.2) := by
  cases he : hssEntry l o with
  | none =>
    cases e : hssDetails.lookup ("hss_" ++ l.2.1 ++ "_" ++ o.2.1) with
    | none => rfl
    | some d =>
      obtain ⟨l', hl', o', ho', h⟩ := hssDetails_mem.1 (lookup_mem e)
      obtain ⟨rfl, rfl⟩ := hssName_inj hl hl' ho ho' (hssEntry_some h).2.2
      rw [h] at he
      cases he
  | some x =>
    obtain ⟨nm, d⟩ := x
    obtain ⟨_, _, hn⟩ := hssEntry_some he
    subst hn
    refine lookup_of_mem (fun w hw => ?_) (hssDetails_mem.2 ⟨l, hl, o, ho, he⟩)
    obtain ⟨l', hl', o', ho', h⟩ := hssDetails_mem.1 hw
    obtain ⟨rfl, rfl⟩ := hssName_inj hl hl' ho ho' (hssEntry_some h).2.2
    rw [h] at he
    cases he
    rfl

theorem hssDetails_facts (l : Nat × String × Lms) (hl : l ∈ lmsTable) (o : Nat × String × Lmots) (ho : o ∈ lmotsTable) (h1 : l.2.2.hash = o.2.2.hash) (h2 : l.2.2.m = o.2.2.n) :
    (hssDetails.lookup ("hss_" ++ l.2.1 ++ "_" ++ o.2.1)).map (fun d => (d.lmsCode, d.lmotsCode, d.lmsPubLen, d.h, d.n)) =
      some (l.1, o.1, 24 + l.2.2.m, l.2.2.h, l.2.2.m) := by
  rw [hssDetails_lookup l hl o ho, hssEntry, if_neg (by simp [h1, h2])]
  simp [h2]

theorem hssDetails_mismatch (l : Nat × String × Lms) (hl : l ∈ lmsTable) (o : Nat × String × Lmots) (ho : o ∈ lmotsTable) (h : ¬ (l.2.2.hash = o.2.2.hash ∧ l.2.2.m = o.2.2.n)) :
    hssDetails.lookup ("hss_" ++ l.2.1 ++ "_" ++ o.2.1) = none := by
  rw [hssDetails_lookup l hl o ho, hssEntry, if_pos]
  · rfl
  · apply Classical.byContradiction
    intro hc
    rw [not_or] at hc
    exact h ⟨(Classical.not_not.1 hc.1).symm, (Classical.not_not.1 hc.2).symm⟩

theorem pyLower_names : (∀ a ∈ lmsTable, pyLower a.2.1 = a.2.1) ∧ ∀ a ∈ lmotsTable, pyLower a.2.1 = a.2.1 := by decide +kernel

theorem pyLower_append (a b : String) : pyLower (a ++ b) = pyLower a ++ pyLower b := by
  unfold pyLower
  simp [String.toList_append]

theorem hssNames_norm (nm : String) (d : HssDetails) (h : (nm, d) ∈ hssDetails) : hssNorm nm = nm := by
  obtain ⟨l, hl, o, ho, h⟩ := hssDetails_mem.1 h
  obtain ⟨_, _, rfl⟩ := hssEntry_some h
  have e : pyLower ("hss_" ++ l.2.1 ++ "_" ++ o.2.1) = "hss_" ++ l.2.1 ++ "_" ++ o.2.1 := by
    rw [pyLower_append, pyLower_append, pyLower_append, pyLower_names.1 l hl, pyLower_names.2 o ho]
    have e1 : pyLower "hss_" = "hss_" := by decide +kernel
    have e2 : pyLower "_" = "_" := by decide +kernel
    rw [e1, e2]
  have len : ∀ s : String, s.toList.length < 4 → "hss_" ++ l.2.1 ++ "_" ++ o.2.1 ≠ s := by
    intro s hs he
    have := congrArg (fun x : String => x.toList.length) he
    have e4 : "hss_".toList.length = 4 := by decide +kernel
    simp only [String.toList_append, List.length_append, e4] at this
    omega
  unfold hssNorm
  rw [e, if_neg (len _ (by decide +kernel)), if_neg (len _ (by decide +kernel))]

theorem hssName_ok {a b : Nat} {nm : String} (h : hssName a b = .ok nm) : ∃ l o d, (a, l) ∈ lmsTable ∧ (b, o) ∈ lmotsTable ∧
    nm = "hss_" ++ l.1 ++ "_" ++ o.1 ∧ hssDetails.lookup nm = some d := by
  unfold hssName at h
  split at h
  · cases h
  · rename_i l e1
    split at h
    · cases h
    · rename_i o e2
      dsimp only at h
      split at h
      · cases h
      · rename_i hd
        have h := Except.ok.inj h
        subst h
        cases e3 : hssDetails.lookup ("hss_" ++ l.1 ++ "_" ++ o.1) with
        | none => rw [e3] at hd; exact absurd rfl hd
        | some d => exact ⟨l, o, d, lookup_mem e1, lookup_mem e2, rfl, rfl⟩

/-- **C114, HSS.** A key is accepted exactly when `pyhsslms` can parse it, its two type codes are defined, belong to the same
hash function and digest size, and the length is that of the type; name and level count are those of the data. -/
theorem C114_hss (deser : Bytes → Option HssPubData) (data : Bytes) (k : HssPub) : hssPubLoad deser data = .ok k ↔
    ∃ p l o, deser data = some p ∧ (p.lmsType, l) ∈ lmsTable ∧ (p.lmotsType, o) ∈ lmotsTable ∧ l.2.hash = o.2.hash ∧ l.2.m = o.2.n ∧
      data.length = 4 + 24 + l.2.m ∧ k = ⟨"hss_" ++ l.1 ++ "_" ++ o.1, data, p.levels, p.lmsType, p.lmotsType⟩ := by
  unfold hssPubLoad
  cases hp : deser data with
  | none => simp
  | some p =>
    dsimp only
    cases hn : hssName p.lmsType p.lmotsType with
    | error e =>
      dsimp only
      constructor
      · intro h; cases h
      · rintro ⟨p', l, o, e', hl, ho, h1, h2, _⟩
        cases e'
        have e1 := (lmsTable_names _ hl).2.2.2.2.2
        have e2 := (lmotsTable_names _ ho).2.2.2.2.2
        have e3 := hssDetails_facts _ hl _ ho h1 h2
        dsimp only at e1 e2 e3
        unfold hssName at hn
        rw [e1] at hn
        dsimp only at hn
        rw [e2] at hn
        dsimp only at hn
        rw [if_neg (by
          intro h0
          cases e4 : hssDetails.lookup ("hss_" ++ l.1 ++ "_" ++ o.1) with
          | none => rw [e4] at e3; cases e3
          | some d => rw [e4] at h0; simp at h0)] at hn
        cases hn
    | ok nm =>
      dsimp only
      obtain ⟨l, o, d, hl, ho, rfl, hd⟩ := hssName_ok hn
      have hnorm := hssNames_norm _ _ (lookup_mem hd)
      have hmatch : l.2.hash = o.2.hash ∧ l.2.m = o.2.n := by
        apply Classical.byContradiction
        intro hc
        have := hssDetails_mismatch _ hl _ ho hc
        dsimp only at this
        rw [hd] at this
        cases this
      have hf := hssDetails_facts _ hl _ ho hmatch.1 hmatch.2
      dsimp only at hf
      rw [hd] at hf
      simp only [Option.map_some, Option.some.injEq, Prod.mk.injEq] at hf
      unfold hssPub
      rw [hnorm, hd]
      dsimp only
      rw [hp]
      dsimp only
      rw [hn, hf.2.2.1]
      dsimp only
      by_cases hlen : data.length = 4 + 24 + l.2.m
      · rw [if_neg (by omega), if_neg (by simp)]
        constructor
        · intro h
          cases h
          exact ⟨p, l, o, rfl, hl, ho, hmatch.1, hmatch.2, hlen, rfl⟩
        · rintro ⟨p', l', o', e', hl', ho', _, _, _, rfl⟩
          cases e'
          have e1 := (lmsTable_names _ hl).2.2.2.2.2
          have e2 := (lmotsTable_names _ ho).2.2.2.2.2
          have e1' := (lmsTable_names _ hl').2.2.2.2.2
          have e2' := (lmotsTable_names _ ho').2.2.2.2.2
          dsimp only at e1 e2 e1' e2'
          rw [e1] at e1'
          rw [e2] at e2'
          cases e1'
          cases e2'
          rfl
      · rw [if_pos (by omega)]
        constructor
        · intro h; cases h
        · rintro ⟨p', l', o', e', hl', ho', _, _, h3, _⟩
          cases e'
          have e1 := (lmsTable_names _ hl).2.2.2.2.2
          have e1' := (lmsTable_names _ hl').2.2.2.2.2
          dsimp only at e1 e1'
          rw [e1] at e1'
          cases e1'
          exact absurd h3 hlen

/-! ### The keys that a certificate template may contain -/

theorem oid_facts : (∀ a ∈ xmssIds, oidName (pyLower a.2) = .ok "xmss" ∧ startsWith (pyLower a.2) "xmss-" = true) ∧
    (∀ a ∈ xmssmtIds, oidName (pyLower a.2) = .ok "xmssmt" ∧ startsWith (pyLower a.2) "xmss-" = false ∧ startsWith (pyLower a.2) "xmssmt-" = true) := by
  decide +kernel

/-- **C78, end to end.** An XMSS key loaded from a template passes exactly when the algorithm identifier is that of XMSS without
parameters and the identifier in the key is that of an approved set. -/
theorem C78_template_xmss (o : Oqs) (ho : ∀ a ∈ xmssIds, o.enabled a.2 = true) (lower : String → String) (data : Bytes) (k : Pub)
    (h : xmssPubLoad o data = .ok k) (alg : String) (params lw : Bool) :
    validateTemplateKey lower (.xmss k) alg params lw = .ok () ↔ params = false ∧ alg = "xmss" ∧ xmssApprovedId (headId data) := by
  rcases C114_xmss o ho data with ⟨n, hh, nm, a1, a2, a3, a4, _⟩ | ⟨_, a4⟩
  · rw [a4] at h
    cases h
    obtain ⟨f1, f2⟩ := oid_facts.1 _ a3
    have f3 := (C78_xmss_table _ a3).1
    dsimp only at f1 f2 f3
    unfold validateTemplateKey AnyPub.name
    dsimp only
    rw [f1, f2, ← f3]
    dsimp only
    cases params
    · by_cases ha : alg = "xmss"
      · cases approvedXmss (pyLower nm) <;> simp [ha]
      · simp [ha]
    · simp
  · rw [a4] at h; cases h

/-- **C78, end to end.** For XMSS^MT only the first eight of the thirty-two approved sets can pass, as the others cannot be loaded. -/
theorem C78_template_xmssmt (o : Oqs) (ho : OqsMt o) (lower : String → String) (data : Bytes) (k : Pub)
    (h : xmssmtPubLoad o data = .ok k) (alg : String) (params lw : Bool) :
    validateTemplateKey lower (.xmssmt k) alg params lw = .ok () ↔ params = false ∧ alg = "xmssmt" ∧ 1 ≤ headId data ∧ headId data ≤ 8 := by
  rcases C114_xmssmt_partial o ho data with ⟨hr, n, hh, nm, a1, a3, a4⟩ | ⟨_, a4⟩
  · rw [a4] at h
    split at h
    · cases h
      obtain ⟨f1, f2, f2'⟩ := oid_facts.2 _ a3
      have f3 := C78_xmssmt_table.1 _ a3
      rw [List.mem_range'_1] at hr
      have f4 : xmssmtApprovedId (headId data) ↔ 1 ≤ headId data ∧ headId data ≤ 8 := by
        unfold xmssmtApprovedId; omega
      dsimp only at f1 f2 f2' f3
      unfold validateTemplateKey AnyPub.name
      dsimp only
      rw [f1, f2, f2', ← f4, ← f3]
      dsimp only
      cases params
      · by_cases ha : alg = "xmssmt"
        · cases approvedXmssmt (pyLower nm) <;> simp [ha]
        · simp [ha]
      · simp
    · cases h
  · rw [a4] at h; cases h

/-- **C77, keys.** The levels reported for a loaded HSS key are equal, so neither flag changes the outcome: a loaded key passes exactly
when it has one to eight levels. -/
theorem C77_key (deser : Bytes → Option HssPubData) (data : Bytes) (k : HssPub) (h : hssPubLoad deser data = .ok k) (lower : String → String)
    (hl : (∀ a ∈ lmsTable, lower a.2.1 = a.2.1) ∧ ∀ a ∈ lmotsTable, lower a.2.1 = a.2.1) (flag : Bool) :
    validateHssKey lower k flag = if 1 ≤ k.levels ∧ k.levels ≤ 8 then .ok () else .error .invalidKeyData := by
  obtain ⟨p, l, o, _, h1, h2, h3, h4, _, rfl⟩ := (C114_hss deser data k).1 h
  obtain ⟨x1, x2, x3, x4, _, x6⟩ := lmsTable_names _ h1
  obtain ⟨y1, y2, y3, y4, _, y6⟩ := lmotsTable_names _ h2
  have hl1 := hl.1 _ h1
  have hl2 := hl.2 _ h2
  dsimp only at x1 x2 x3 x4 x6 y1 y2 y3 y4 y6 hl1 hl2
  unfold validateHssKey levelNames
  dsimp only
  rw [x6]
  dsimp only
  rw [y6]
  dsimp only
  have hlev : (lower l.1, lower o.1) = levelNamesOf l.2.hash l.2.m l.2.h o.2.w := by
    rw [hl1, hl2, levelNamesOf, ← x1]
    refine Prod.ext rfl ?_
    dsimp only
    rw [h3, h4]
    exact y1
  have hu : Uniform lower (List.replicate p.levels (l.1, o.1)) := by
    refine ⟨l.2.hash, l.2.m, o.2.w, fun x hx => ?_⟩
    rw [List.eq_of_mem_replicate hx]
    exact ⟨l.2.h, ⟨x2, x3, x4, y4⟩, hlev⟩
  by_cases hd : 1 ≤ p.levels ∧ p.levels ≤ 8
  · rw [if_pos hd]
    cases flag
    · exact (C77_not_enforced_partial _ _).2 ⟨by simpa using hd, hu⟩
    · refine (C77_enforced_partial _ _).2 ⟨by simpa using hd, fun x hx => ?_⟩
      obtain ⟨f, n, w, hu⟩ := hu
      obtain ⟨h', hd', e⟩ := hu x hx
      exact ⟨f, n, h', w, hd', e⟩
  · rw [if_neg hd]
    exact (C77_depth lower _ flag).2 (by rw [List.length_replicate]; omega)

theorem hss_oid (nm : String) (r : String) (h : nm = "hss_" ++ r) : oidName nm = .ok "hss" ∧ startsWith nm "xmss-" = false ∧
    startsWith nm "xmssmt-" = false ∧ startsWith nm "hss" = true := by
  subst h
  have e : ("hss_" ++ r).toList = 'h' :: 's' :: 's' :: '_' :: r.toList := by
    rw [String.toList_append]
    exact congrArg (· ++ r.toList) (by decide +kernel : "hss_".toList = ['h', 's', 's', '_'])
  have x1 : startsWith ("hss_" ++ r) "xmss-" = false := by
    rw [Bool.eq_false_iff]
    intro hc
    obtain ⟨t, ht⟩ := (startsWith_append _ _).1 hc
    rw [e, (by decide +kernel : "xmss-".toList = ['x', 'm', 's', 's', '-'])] at ht
    simp at ht
  have x2 : startsWith ("hss_" ++ r) "xmssmt-" = false := by
    rw [Bool.eq_false_iff]
    intro hc
    obtain ⟨t, ht⟩ := (startsWith_append _ _).1 hc
    rw [e, (by decide +kernel : "xmssmt-".toList = ['x', 'm', 's', 's', 'm', 't', '-'])] at ht
    simp at ht
  have x3 : startsWith ("hss_" ++ r) "hss" = true := by
    rw [startsWith_append, e, (by decide +kernel : "hss".toList = ['h', 's', 's'])]
    exact ⟨_, rfl⟩
  refine ⟨?_, x1, x2, x3⟩
  unfold oidName
  rw [x1, x2, e]
  simp only [Bool.or_self, Bool.false_eq_true, if_false, splitChar, Char.reduceEq, if_true]
  rw [if_pos (by decide +kernel)]

/-- **C78, end to end.** A loaded HSS key passes exactly when the algorithm identifier is that of HSS without parameters and the key has one to
eight levels. -/
theorem C78_template_hss (deser : Bytes → Option HssPubData) (data : Bytes) (k : HssPub) (h : hssPubLoad deser data = .ok k) (lower : String → String)
    (hl : (∀ a ∈ lmsTable, lower a.2.1 = a.2.1) ∧ ∀ a ∈ lmotsTable, lower a.2.1 = a.2.1) (alg : String) (params lw : Bool) :
    validateTemplateKey lower (.hss k) alg params lw = .ok () ↔ params = false ∧ alg = "hss" ∧ 1 ≤ k.levels ∧ k.levels ≤ 8 := by
  have hk := C77_key deser data k h lower hl (false || lw)
  obtain ⟨p, l, o, _, _, _, _, _, _, rfl⟩ := (C114_hss deser data k).1 h
  obtain ⟨f1, f2, f3, f4⟩ := hss_oid ("hss_" ++ l.1 ++ "_" ++ o.1) (l.1 ++ "_" ++ o.1) (by simp only [String.append_assoc])
  unfold validateTemplateKey AnyPub.name
  dsimp only at hk ⊢
  rw [f1, f2, f3, f4, hk]
  dsimp only
  cases params
  · by_cases ha : alg = "hss"
    · by_cases hd : 1 ≤ p.levels ∧ p.levels ≤ 8
      · simp [ha, hd]
      · simp only [if_neg hd]
        simp [ha]
        omega
    · simp [ha]
  · simp

/-- A backend with everything compiled in. -/
def fullOqs : Oqs where
  enabled _ := true
  pubLen nm := match sizeOfName nm with
    | .ok n => 4 + 2 * n
    | .error _ => 0
  secLen _ := 200
  sigLen _ := 2500
  total _ := 1024

theorem fullOqs_mt : OqsMt fullOqs := by
  intro a ha
  refine ⟨rfl, fun s hs => ?_⟩
  obtain ⟨n, h, h1, _, _, _, h5, _⟩ := xmssmtIds_facts a ha
  rw [h1] at hs
  cases hs
  change (match sizeOfName a.2 with | .ok n => 4 + 2 * n | .error _ => 0) = _
  rw [h5]

example : xmssPubLoad fullOqs ([0, 0, 0, 0x0D] ++ List.replicate 48 7) = .ok ⟨"xmss-sha2_10_192", [0, 0, 0, 0x0D] ++ List.replicate 48 7⟩ ∧
    xmssPubLoad fullOqs ([0, 0, 0, 0x0D] ++ List.replicate 64 7) = .error .invalidKeyData ∧
    xmssmtPubLoad fullOqs ([0, 0, 0, 1] ++ List.replicate 64 7) = .ok ⟨"xmssmt-sha2_20/2_256", [0, 0, 0, 1] ++ List.replicate 64 7⟩ ∧
    xmssmtPubLoad fullOqs ([0, 0, 0, 0x21] ++ List.replicate 48 7) = .error .keyError := by decide +kernel

example : validateHssKey pyLower ⟨"hss_lms_sha256_m32_h5_lmots_sha256_n32_w8", [], 3, 5, 4⟩ true = .ok () ∧
    validateHssKey pyLower ⟨"hss_lms_sha256_m32_h5_lmots_sha256_n32_w8", [], 9, 5, 4⟩ false = .error .invalidKeyData := by decide +kernel

end Verif.PQ.Stfl
