import Verif.Ra.Extns

/-!
# The extensions of an issued certificate: C170 (all extensions), C171 (key usage), C172 (CA certificates), C173 (identifiers and
names)
-/

namespace Verif.Ra

open Verif.CA (PyErr)

variable {K G N : Type}

/-! ## Specification -/

/-- No extension of the list is of this kind. -/
def NoExt (l : List Ext) (o : List Nat) : Prop := ∀ x ∈ l, x.oid ≠ o

/-- The first extension of this kind. -/
def FirstExt (l : List Ext) (o : List Nat) (e : Ext) : Prop := ∃ a b, l = a ++ e :: b ∧ e.oid = o ∧ NoExt a o

/-- The value of the first extension of this kind, with nothing after it. -/
def Decodes {X : Type} (dec : List UInt8 → Option (X × List UInt8)) (l : List Ext) (o : List Nat) (x : X) : Prop :=
  ∃ e, FirstExt l o e ∧ dec e.value = some (x, [])

/-- No two extensions are of the same kind (RFC 5280, 4.2). -/
def OneOfEach (l : List Ext) : Prop := (l.map (fun e => e.oid)).Nodup

/-- The kinds of extensions that are looked at: key usage, subject and authority key identifier, extended key usage, basic
constraints, alternative names. -/
def checkedKinds : List (List Nat) := [[2, 5, 29, 15], [2, 5, 29, 14], [2, 5, 29, 35], [2, 5, 29, 37], [2, 5, 29, 19], [2, 5, 29, 17]]

/-- The bit is set. -/
def Bit (x : List Bool) (i : Nat) : Prop := x[i]? = some true

/-- The bit of a usage (RFC 5280, 4.2.1.3). -/
def Use.bit : Use → Nat
  | .digitalSignature => 0
  | .nonRepudiation => 1
  | .keyEncipherment => 2
  | .dataEncipherment => 3
  | .keyAgreement => 4
  | .keyCertSign => 5
  | .cRLSign => 6
  | .encipherOnly => 7
  | .decipherOnly => 8

/-- The usages are those of a signature key: 0, 1, 5 and 6, at least one. -/
def SigBits (x : List Bool) : Prop := (∃ i < 9, Bit x i) ∧ ∀ i < 9, Bit x i → i = 0 ∨ i = 1 ∨ i = 5 ∨ i = 6

/-- The usages that are accepted for a key. -/
def UsageFine (ecdh : Bool) (c : UseCls) (x : List Bool) : Prop :=
  match c with
  | .kem => Bit x 2 ∧ ∀ i < 9, Bit x i → i = 2
  | .namedSig => SigBits x
  | .edDsa => ecdh = false ∧ SigBits x
  | .ec => ecdh = false ∧ ∀ i < 9, Bit x i → i = 0 ∨ i = 1 ∨ i = 4 ∨ i = 5 ∨ i = 6
  | .rsa => ecdh = false
  | .xdh => ecdh = false ∧ ∀ i < 9, Bit x i → i = 4
  | .named => False
  | .unmapped => False

/-- The constraints that are accepted: a path length is positive for a CA, and not positive otherwise. -/
def BasicFine (b : Basic) : Prop := ∀ n, b.pathLen = some n → (b.ca = true → 0 < n) ∧ (b.ca = false → n ≤ 0)

/-! ## Lookups -/

theorem getExt_none {l : List Ext} {o : List Nat} : getExt l o = none ↔ NoExt l o := by
  unfold getExt NoExt
  rw [List.find?_eq_none]
  simp

theorem getExt_some {l : List Ext} {o : List Nat} {e : Ext} : getExt l o = some e ↔ FirstExt l o e := by
  unfold getExt FirstExt NoExt
  rw [List.find?_eq_some_iff_append]
  constructor
  · rintro ⟨h, a, b, rfl, hn⟩
    exact ⟨a, b, rfl, of_decide_eq_true h, fun x hx => by simpa using hn x hx⟩
  · rintro ⟨a, b, rfl, h, hn⟩
    exact ⟨decide_eq_true h, a, b, rfl, fun x hx => by simpa using hn x hx⟩

theorem FirstExt.mem {l : List Ext} {o : List Nat} {e : Ext} (h : FirstExt l o e) : e ∈ l := by
  obtain ⟨a, b, rfl, _⟩ := h
  simp

theorem FirstExt.oid {l : List Ext} {o : List Nat} {e : Ext} (h : FirstExt l o e) : e.oid = o := by
  obtain ⟨a, b, _, h, _⟩ := h
  exact h

theorem FirstExt.unique {l : List Ext} {o : List Nat} {e e' : Ext} (h : FirstExt l o e) (h' : FirstExt l o e') : e = e' := by
  have h1 := getExt_some.2 h
  rw [getExt_some.2 h'] at h1
  cases h1
  rfl

theorem FirstExt.not_no {l : List Ext} {o : List Nat} {e : Ext} (h : FirstExt l o e) : ¬ NoExt l o :=
  fun hn => hn e h.mem h.oid

theorem not_no_first {l : List Ext} {o : List Nat} (h : ¬ NoExt l o) : ∃ e, FirstExt l o e := by
  cases hg : getExt l o with
  | none => exact absurd (getExt_none.1 hg) h
  | some e => exact ⟨e, getExt_some.1 hg⟩

theorem tryDecode_none {X : Type} {dec : List UInt8 → Option (X × List UInt8)} {l : List Ext} {o : List Nat} :
    tryDecode dec l o = .ok none ↔ NoExt l o := by
  unfold tryDecode
  rw [← getExt_none]
  cases getExt l o with
  | none => simp
  | some e =>
    simp only [reduceCtorEq, iff_false]
    cases dec e.value with
    | none => simp
    | some p => by_cases hr : p.2 = [] <;> simp [hr]

theorem tryDecode_some {X : Type} {dec : List UInt8 → Option (X × List UInt8)} {l : List Ext} {o : List Nat} {x : X} :
    tryDecode dec l o = .ok (some x) ↔ Decodes dec l o x := by
  unfold tryDecode Decodes
  cases h : getExt l o with
  | none =>
    simp only [Except.ok.injEq, reduceCtorEq, false_iff]
    rintro ⟨e, he, _⟩
    exact he.not_no (getExt_none.1 h)
  | some e =>
    have he := getExt_some.1 h
    dsimp only
    have hx : (∃ e', FirstExt l o e' ∧ dec e'.value = some (x, [])) ↔ dec e.value = some (x, []) := by
      constructor
      · rintro ⟨e', h', hd⟩
        rw [he.unique h']
        exact hd
      · exact fun hd => ⟨e, he, hd⟩
    rw [hx]
    cases hd : dec e.value with
    | none => simp
    | some p =>
      obtain ⟨y, rest⟩ := p
      dsimp only
      by_cases hr : rest = []
      · simp [hr]
      · simp [hr]

/-! ## Key usage -/

theorem mem_usesFrom {us : List Use} {x : List Bool} {u : Use} :
    u ∈ usesFrom us x ↔ ∃ i : Nat, us[i]? = some u ∧ x[i]? = some true := by
  induction us generalizing x with
  | nil => cases x <;> simp [usesFrom]
  | cons v us ih =>
    cases x with
    | nil => simp [usesFrom]
    | cons b bs =>
      rw [usesFrom]
      have hsplit : (∃ i : Nat, (v :: us)[i]? = some u ∧ (b :: bs)[i]? = some true) ↔
          (v = u ∧ b = true) ∨ ∃ i : Nat, us[i]? = some u ∧ bs[i]? = some true := by
        constructor
        · rintro ⟨i, h1, h2⟩
          cases i with
          | zero => exact .inl ⟨by simpa using h1, by simpa using h2⟩
          | succ i => exact .inr ⟨i, by simpa using h1, by simpa using h2⟩
        · rintro (⟨rfl, rfl⟩ | ⟨i, h1, h2⟩)
          · exact ⟨0, rfl, rfl⟩
          · exact ⟨i + 1, by simpa using h1, by simpa using h2⟩
      rw [hsplit, ← ih]
      cases b with
      | true => simp [eq_comm]
      | false => simp

/-- The usages are exactly the set bits. -/
theorem mem_uses (x : List Bool) (u : Use) : u ∈ usesFrom useOrder x ↔ Bit x u.bit := by
  rw [mem_usesFrom]
  have key : ∀ i, useOrder[i]? = some u ↔ i = u.bit := by
    intro i
    by_cases hi : i < 9
    · have : ∀ (u : Use) (i : Fin 9), useOrder[i.val]? = some u ↔ i.val = u.bit := by
        intro u i
        cases u <;> revert i <;> decide
      exact this u ⟨i, hi⟩
    · have h1 : useOrder[i]? = none := List.getElem?_eq_none (by show 9 ≤ i; omega)
      rw [h1]
      simp only [reduceCtorEq, false_iff]
      intro h
      have : u.bit < 9 := by cases u <;> decide
      omega
  constructor
  · rintro ⟨i, h1, h2⟩
    rw [(key i).1 h1] at h2
    exact h2
  · intro h
    exact ⟨u.bit, (key _).2 rfl, h⟩

theorem usesFrom_sublist (us : List Use) (x : List Bool) : (usesFrom us x).Sublist us := by
  induction us generalizing x with
  | nil => cases x <;> exact List.Sublist.refl _
  | cons v us ih =>
    cases x with
    | nil => exact List.nil_sublist _
    | cons b bs =>
      rw [usesFrom]
      split
      · exact (ih bs).cons_cons v
      · exact (ih bs).cons v

theorem uses_nodup (x : List Bool) : (usesFrom useOrder x).Nodup :=
  (by decide : useOrder.Nodup).sublist (usesFrom_sublist _ _)

/-- The usage of a bit. -/
theorem use_of_bit {i : Nat} (hi : i < 9) : ∃ u : Use, u.bit = i := by
  have : ∀ i : Fin 9, ∃ u ∈ useOrder, u.bit = i.val := by decide
  obtain ⟨u, _, h⟩ := this ⟨i, hi⟩
  exact ⟨u, h⟩

theorem use_bit_lt (u : Use) : u.bit < 9 := by cases u <;> decide

theorem forall_bits {x : List Bool} {P : Nat → Prop} :
    (∀ u ∈ usesFrom useOrder x, P u.bit) ↔ ∀ i < 9, Bit x i → P i := by
  constructor
  · intro h i hi hb
    obtain ⟨u, rfl⟩ := use_of_bit hi
    exact h u ((mem_uses x u).2 hb)
  · intro h u hu
    exact h u.bit (use_bit_lt u) ((mem_uses x u).1 hu)

theorem sigUses_ok (x : List Bool) : sigUses (usesFrom useOrder x) = .ok () ↔ SigBits x := by
  have hne : usesFrom useOrder x = [] ↔ ¬ ∃ i < 9, Bit x i := by
    constructor
    · rintro h ⟨i, hi, hb⟩
      obtain ⟨u, rfl⟩ := use_of_bit hi
      have := (mem_uses x u).2 hb
      rw [h] at this
      cases this
    · intro h
      cases hu : usesFrom useOrder x with
      | nil => rfl
      | cons u l => exact absurd ⟨u.bit, use_bit_lt u, (mem_uses x u).1 (by rw [hu]; exact List.mem_cons_self ..)⟩ h
  have hall : (usesFrom useOrder x).all (fun u => u ∈ [.digitalSignature, .nonRepudiation, .keyCertSign, .cRLSign]) = true ↔
      ∀ i < 9, Bit x i → i = 0 ∨ i = 1 ∨ i = 5 ∨ i = 6 := by
    rw [← forall_bits, List.all_eq_true]
    refine forall₂_congr (fun u _ => ?_)
    cases u <;> decide
  unfold sigUses SigBits
  by_cases h1 : usesFrom useOrder x = []
  · rw [if_pos h1]
    simp [hne.1 h1]
  rw [if_neg h1]
  have h1' : ∃ i < 9, Bit x i := Classical.not_not.1 (fun h => h1 (hne.2 h))
  by_cases h2 : (usesFrom useOrder x).all (fun u => u ∈ [.digitalSignature, .nonRepudiation, .keyCertSign, .cRLSign]) = true
  · rw [if_neg (by rw [h2]; decide), if_neg]
    · exact ⟨fun _ => ⟨h1', hall.1 h2⟩, fun _ => rfl⟩
    · intro h3
      rw [List.any_eq_true] at h3
      obtain ⟨u, hu, hu'⟩ := h3
      have := List.all_eq_true.1 h2 u hu
      revert this hu'
      cases u <;> decide
  · rw [if_pos (by simpa using h2)]
    simp only [reduceCtorEq, false_iff]
    exact fun h => h2 (hall.2 h.2)

theorem onlyUses_ok (u : List Use) : onlyUses u = .ok () ↔ .encipherOnly ∉ u ∧ .decipherOnly ∉ u := by
  unfold onlyUses
  by_cases h : .encipherOnly ∈ u ∨ .decipherOnly ∈ u
  · rw [if_pos h]
    split <;> simp only [reduceCtorEq, false_iff] <;> exact fun hn => h.elim hn.1 hn.2
  · rw [if_neg (fun hh => h hh.1), if_neg h]
    exact ⟨fun _ => ⟨fun hh => h (.inl hh), fun hh => h (.inr hh)⟩, fun _ => rfl⟩

theorem ecUses_ok (x : List Bool) : ecUses (usesFrom useOrder x) = .ok () ↔
    ∀ i < 9, Bit x i → i = 0 ∨ i = 1 ∨ i = 4 ∨ i = 5 ∨ i = 6 := by
  unfold ecUses
  rw [← forall_bits (P := fun i => i = 0 ∨ i = 1 ∨ i = 4 ∨ i = 5 ∨ i = 6)]
  by_cases h : .keyEncipherment ∈ usesFrom useOrder x ∨ .dataEncipherment ∈ usesFrom useOrder x
  · rw [if_pos h]
    simp only [reduceCtorEq, false_iff]
    intro hn
    rcases h with h | h
    · exact absurd (hn _ h) (by decide)
    · exact absurd (hn _ h) (by decide)
  · rw [if_neg h, onlyUses_ok]
    constructor
    · rintro ⟨h1, h2⟩ u hu
      cases u
      case keyEncipherment => exact absurd (.inl hu) h
      case dataEncipherment => exact absurd (.inr hu) h
      case encipherOnly => exact absurd hu h1
      case decipherOnly => exact absurd hu h2
      all_goals decide
    · intro hn
      exact ⟨fun hu => absurd (hn _ hu) (by decide), fun hu => absurd (hn _ hu) (by decide)⟩

theorem xUses_ok (x : List Bool) : xUses (usesFrom useOrder x) = .ok () ↔ ∀ i < 9, Bit x i → i = 4 := by
  unfold xUses
  rw [← forall_bits (P := fun i => i = 4)]
  by_cases h : (usesFrom useOrder x).any (fun u => u ∉ [.decipherOnly, .encipherOnly, .keyAgreement]) = true
  · rw [if_pos h]
    simp only [reduceCtorEq, false_iff]
    intro hn
    obtain ⟨u, hu, hu'⟩ := List.any_eq_true.1 h
    have := hn u hu
    revert this hu'
    cases u <;> decide
  · rw [if_neg h, onlyUses_ok]
    constructor
    · rintro ⟨h1, h2⟩ u hu
      have h3 : ¬ (decide (u ∉ [.decipherOnly, .encipherOnly, .keyAgreement]) = true) :=
        fun hh => h (List.any_eq_true.2 ⟨u, hu, hh⟩)
      cases u
      case encipherOnly => exact absurd hu h1
      case decipherOnly => exact absurd hu h2
      case keyAgreement => rfl
      all_goals exact absurd (by decide) h3
    · intro hn
      exact ⟨fun hu => absurd (hn _ hu) (by decide), fun hu => absurd (hn _ hu) (by decide)⟩

/-- **C171 (key usage).** The usages that are accepted for a key are exactly those of the specification. -/
theorem C171_uses_iff (ecdh : Bool) (c : UseCls) (x : List Bool) :
    usesFor ecdh c (usesFrom useOrder x) = .ok () ↔ UsageFine ecdh c x := by
  cases c with
  | kem =>
    show (if usesFrom useOrder x = [.keyEncipherment] then (.ok () : Except PyErr Unit) else .error .badCertTemplate) = .ok () ↔
      Bit x 2 ∧ ∀ i < 9, Bit x i → i = 2
    rw [← forall_bits (P := fun i => i = 2)]
    split
    · rename_i h
      rw [h]
      refine ⟨fun _ => ⟨(mem_uses x .keyEncipherment).1 (by rw [h]; exact List.mem_cons_self ..), ?_⟩, fun _ => rfl⟩
      intro u hu
      cases List.mem_singleton.1 hu
      rfl
    · rename_i h
      simp only [reduceCtorEq, false_iff]
      rintro ⟨h1, h2⟩
      have hm := (mem_uses x .keyEncipherment).2 h1
      have hnd := uses_nodup x
      have hall : ∀ u ∈ usesFrom useOrder x, u = .keyEncipherment := by
        intro u hu
        have := h2 u hu
        revert this
        cases u <;> decide
      cases hu : usesFrom useOrder x with
      | nil => rw [hu] at hm; cases hm
      | cons a l =>
        rw [hu] at hall hnd h
        have ha := hall a (List.mem_cons_self ..)
        cases l with
        | nil => exact h (by rw [ha])
        | cons b l =>
          have hb := hall b (List.mem_cons_of_mem _ (List.mem_cons_self ..))
          rw [ha, hb] at hnd
          simp at hnd
  | namedSig => exact sigUses_ok x
  | named => simp [usesFor, UsageFine]
  | edDsa => cases ecdh <;> simp [usesFor, UsageFine, sigUses_ok]
  | ec =>
    cases ecdh with
    | true => simp [usesFor, UsageFine]
    | false =>
      show ecUses (usesFrom useOrder x) = .ok () ↔ false = false ∧ _
      rw [ecUses_ok]
      simp
  | rsa => cases ecdh <;> simp [usesFor, UsageFine]
  | xdh =>
    cases ecdh with
    | true => simp [usesFor, UsageFine]
    | false =>
      show xUses (usesFrom useOrder x) = .ok () ↔ false = false ∧ _
      rw [xUses_ok]
      simp
  | unmapped => cases ecdh <;> simp [usesFor, UsageFine]

theorem verifyUsage_ok {env : ExtEnv K G N} {s : Src K} {l : List Ext} (hs : s.exts.parse = some l) {r : Option Ext} :
    verifyUsage env s = .ok r ↔ (NoExt l [2, 5, 29, 15] ∧ r = none) ∨
      ∃ x k, Decodes env.decUsage l [2, 5, 29, 15] x ∧ s.spki = true ∧ s.key = .ok k ∧ UsageFine s.ecdh (env.cls k) x ∧
        r = some ⟨[2, 5, 29, 15], true, env.encUses (usesFrom useOrder x)⟩ := by
  have hoid : usageOid = [2, 5, 29, 15] := rfl
  unfold verifyUsage
  rw [hs, hoid]
  dsimp only
  cases h : tryDecode env.decUsage l [2, 5, 29, 15] with
  | error e =>
    simp only [reduceCtorEq, false_iff]
    rintro (⟨hn, -⟩ | ⟨x, k, hd, -⟩)
    · rw [tryDecode_none.2 hn] at h; cases h
    · rw [tryDecode_some.2 hd] at h; cases h
  | ok o =>
    cases o with
    | none =>
      have hn := tryDecode_none.1 h
      dsimp only
      constructor
      · intro h'; cases h'; exact .inl ⟨hn, rfl⟩
      · rintro (⟨-, rfl⟩ | ⟨x, k, ⟨e, he, -⟩, -⟩)
        · rfl
        · exact absurd hn he.not_no
    | some x =>
      have hd := tryDecode_some.1 h
      dsimp only
      unfold usageFor
      constructor
      · intro h'
        by_cases hk : s.spki = false
        · rw [if_pos hk] at h'; cases h'
        rw [if_neg hk] at h'
        cases hkey : s.key with
        | error e => rw [hkey] at h'; cases h'
        | ok k =>
          rw [hkey] at h'
          dsimp only at h'
          cases hu : usesFor s.ecdh (env.cls k) (usesFrom useOrder x) with
          | error e => rw [hu] at h'; cases h'
          | ok u =>
            rw [hu] at h'
            cases h'
            exact .inr ⟨x, k, hd, by simpa using hk, rfl, (C171_uses_iff _ _ _).1 hu, rfl⟩
      · rintro (⟨hn, -⟩ | ⟨y, k, hy, hk, hkey, hu, rfl⟩)
        · obtain ⟨e, he, -⟩ := hd
          exact absurd hn he.not_no
        · have hxy := tryDecode_some.2 hy
          rw [h] at hxy
          cases hxy
          rw [if_neg (by rw [hk]; decide), hkey]
          dsimp only
          rw [(C171_uses_iff _ _ _).2 hu]
          rfl

/-! ## Basic constraints -/

theorem pathOk_ok (b : Basic) : pathOk b = .ok () ↔ BasicFine b := by
  obtain ⟨ca, p⟩ := b
  unfold pathOk BasicFine
  cases p with
  | none => simp
  | some n =>
    dsimp only
    cases ca with
    | true =>
      by_cases hn : n ≤ 0
      · rw [if_pos ⟨rfl, hn⟩]
        simp
        omega
      · rw [if_neg (fun h => hn h.2), if_neg (by simp)]
        simp
        omega
    | false =>
      rw [if_neg (by simp)]
      by_cases hn : n > 0
      · rw [if_pos ⟨rfl, hn⟩]
        simp
        omega
      · rw [if_neg (fun h => hn h.2)]
        simp
        omega

/-- **C172 (basic constraints).** What is accepted, and what the certificate gets: the extension as it is in the request. -/
theorem C172_basic_iff (env : ExtEnv K G N) (s : Src K) (l : List Ext) (allow : Bool) (hs : s.exts.parse = some l)
    (r : Option Ext) : verifyBasic env s allow = .ok r ↔ (NoExt l [2, 5, 29, 19] ∧ r = none) ∨
      ∃ e b, FirstExt l [2, 5, 29, 19] e ∧ env.decBasic e.value = some (b, []) ∧ BasicFine b ∧
        ¬ (s.spki = true ∧ s.preHash = true ∧ b.ca = true) ∧ (allow = false → e.critical = true) ∧ r = some e := by
  have hoid : basicOid = [2, 5, 29, 19] := rfl
  unfold verifyBasic
  rw [hs, hoid]
  dsimp only
  cases h : tryDecode env.decBasic l [2, 5, 29, 19] with
  | error e =>
    simp only [reduceCtorEq, false_iff]
    rintro (⟨hn, -⟩ | ⟨e, b, he, hd, -⟩)
    · rw [tryDecode_none.2 hn] at h; cases h
    · rw [tryDecode_some.2 ⟨e, he, hd⟩] at h; cases h
  | ok o =>
    cases o with
    | none =>
      have hn := tryDecode_none.1 h
      dsimp only
      constructor
      · intro h'; cases h'; exact .inl ⟨hn, rfl⟩
      · rintro (⟨-, rfl⟩ | ⟨e, b, he, -⟩)
        · rfl
        · exact absurd hn he.not_no
    | some b =>
      obtain ⟨e, he, hd⟩ := tryDecode_some.1 h
      dsimp only
      have hx : ((NoExt l [2, 5, 29, 19] ∧ r = none) ∨ ∃ e b, FirstExt l [2, 5, 29, 19] e ∧
          env.decBasic e.value = some (b, []) ∧ BasicFine b ∧ ¬ (s.spki = true ∧ s.preHash = true ∧ b.ca = true) ∧
          (allow = false → e.critical = true) ∧ r = some e) ↔ BasicFine b ∧
          ¬ (s.spki = true ∧ s.preHash = true ∧ b.ca = true) ∧ (allow = false → e.critical = true) ∧ r = some e := by
        constructor
        · rintro (⟨hn, -⟩ | ⟨e', b', he', hd', hrest⟩)
          · exact absurd hn he.not_no
          · cases he.unique he'
            rw [hd] at hd'
            cases hd'
            exact hrest
        · intro hh
          exact .inr ⟨e, b, he, hd, hh⟩
      rw [hx, ← pathOk_ok]
      cases hp : pathOk b with
      | error x => simp
      | ok x =>
        dsimp only
        unfold basicFor
        rw [getExt_some.2 he]
        dsimp only
        by_cases hq : s.spki = true ∧ s.preHash = true ∧ b.ca = true
        · rw [if_pos hq]
          simp only [reduceCtorEq, false_iff]
          exact fun hh => hh.2.1 hq
        · rw [if_neg hq]
          by_cases hc : allow = false ∧ e.critical = false
          · rw [if_pos hc]
            simp only [reduceCtorEq, false_iff]
            intro hh
            have := hh.2.2.1 hc.1
            rw [hc.2] at this
            cases this
          · rw [if_neg hc]
            constructor
            · intro hh
              cases hh
              refine ⟨rfl, hq, fun ha => ?_, rfl⟩
              cases he' : e.critical with
              | true => rfl
              | false => exact absurd ⟨ha, he'⟩ hc
            · rintro ⟨-, -, -, rfl⟩
              rfl

/-! ## Identifiers, extended key usage and names -/

/-- **C173 (subject key identifier).** An identifier in a request is accepted exactly if it is the one of the key; the
certificate gets the extension as it is in the request. -/
theorem C173_ski_iff (env : ExtEnv K G N) (s : Src K) (l : List Ext) (k : K) (hs : s.exts.parse = some l) (hk : s.key = .ok k)
    (r : Option Ext) : verifySki env s = .ok r ↔ (NoExt l [2, 5, 29, 14] ∧ r = none) ∨
      ∃ e d rest, FirstExt l [2, 5, 29, 14] e ∧ env.decSki e.value = some (d, rest) ∧ env.ski k = .ok d ∧ r = some e := by
  have hoid : skiOid = [2, 5, 29, 14] := rfl
  unfold verifySki
  rw [hk, hs, hoid]
  dsimp only
  cases h : getExt l [2, 5, 29, 14] with
  | none =>
    have hn := getExt_none.1 h
    dsimp only
    constructor
    · intro h'; cases h'; exact .inl ⟨hn, rfl⟩
    · rintro (⟨-, rfl⟩ | ⟨e, d, rest, he, -⟩)
      · rfl
      · exact absurd hn he.not_no
  | some e =>
    have he := getExt_some.1 h
    dsimp only
    unfold skiFor
    constructor
    · intro h'
      cases hd : env.decSki e.value with
      | none => rw [hd] at h'; cases h'
      | some p =>
        obtain ⟨d, rest⟩ := p
        rw [hd] at h'
        dsimp only at h'
        cases hx : env.ski k with
        | error x => rw [hx] at h'; cases h'
        | ok d' =>
          rw [hx] at h'
          dsimp only at h'
          by_cases hdd : d = d'
          · rw [if_neg (not_not_intro hdd)] at h'
            cases h'
            exact .inr ⟨e, d, rest, he, hd, by rw [hdd], rfl⟩
          · rw [if_pos hdd] at h'
            cases h'
    · rintro (⟨hn, -⟩ | ⟨e', d, rest, he', hd, hx, rfl⟩)
      · exact absurd hn he.not_no
      · cases he.unique he'
        rw [hd]
        dsimp only
        rw [hx]
        dsimp only
        rw [if_neg (not_not_intro rfl)]

theorem verifyEku_ok {env : ExtEnv K G N} {s : Src K} {l : List Ext} (hs : s.exts.parse = some l) {r : Option Ext} :
    verifyEku env s = .ok r ↔ (NoExt l [2, 5, 29, 37] ∧ r = none) ∨
      ∃ e u, FirstExt l [2, 5, 29, 37] e ∧ env.decEku e.value = some (u, []) ∧ r = some e := by
  have hoid : ekuOid = [2, 5, 29, 37] := rfl
  unfold verifyEku
  rw [hs, hoid]
  dsimp only
  cases h : tryDecode env.decEku l [2, 5, 29, 37] with
  | error e =>
    simp only [reduceCtorEq, false_iff]
    rintro (⟨hn, -⟩ | ⟨e, b, he, hd, -⟩)
    · rw [tryDecode_none.2 hn] at h; cases h
    · rw [tryDecode_some.2 ⟨e, he, hd⟩] at h; cases h
  | ok o =>
    cases o with
    | none =>
      have hn := tryDecode_none.1 h
      dsimp only
      rw [getExt_none.2 hn]
      constructor
      · intro h'; cases h'; exact .inl ⟨hn, rfl⟩
      · rintro (⟨-, rfl⟩ | ⟨e, b, he, -⟩)
        · rfl
        · exact absurd hn he.not_no
    | some b =>
      obtain ⟨e, he, hd⟩ := tryDecode_some.1 h
      dsimp only
      rw [getExt_some.2 he]
      constructor
      · intro h'; cases h'; exact .inr ⟨e, b, he, hd, rfl⟩
      · rintro (⟨hn, -⟩ | ⟨e', b', he', -, rfl⟩)
        · exact absurd hn he.not_no
        · cases he.unique he'
          rfl

/-- **C173 (alternative names).** The alternative names are written again, and are critical exactly if the subject is empty; an
empty subject needs them. -/
theorem C173_san_iff (env : ExtEnv K G N) (s : Src K) (l : List Ext) (hs : s.exts.parse = some l) (r : Option Ext) :
    verifySan env s = .ok r ↔ (NoExt l [2, 5, 29, 17] ∧ s.nullDn = false ∧ r = none) ∨
      ∃ g, Decodes env.decSan l [2, 5, 29, 17] g ∧ r = some ⟨[2, 5, 29, 17], s.nullDn, env.encSan g⟩ := by
  have hoid : sanOid = [2, 5, 29, 17] := rfl
  unfold verifySan
  rw [hs, hoid]
  dsimp only
  cases h : tryDecode env.decSan l [2, 5, 29, 17] with
  | error e =>
    simp only [reduceCtorEq, false_iff]
    rintro (⟨hn, -⟩ | ⟨g, hd, -⟩)
    · rw [tryDecode_none.2 hn] at h; cases h
    · rw [tryDecode_some.2 hd] at h; cases h
  | ok o =>
    cases o with
    | none =>
      have hn := tryDecode_none.1 h
      dsimp only
      cases hd : s.nullDn with
      | true =>
        simp only [if_true, reduceCtorEq, Bool.true_eq_false, false_and, and_false, false_or, false_iff]
        rintro ⟨g, ⟨e, he, -⟩, -⟩
        exact he.not_no hn
      | false =>
        simp only [Bool.false_eq_true, if_false, Except.ok.injEq, true_and]
        constructor
        · rintro rfl; exact .inl ⟨hn, rfl⟩
        · rintro (⟨-, rfl⟩ | ⟨g, ⟨e, he, -⟩, -⟩)
          · rfl
          · exact absurd hn he.not_no
    | some g =>
      have hd := tryDecode_some.1 h
      dsimp only
      constructor
      · intro h'; cases h'; exact .inr ⟨g, hd, rfl⟩
      · rintro (⟨hn, -⟩ | ⟨g', hd', rfl⟩)
        · obtain ⟨e, he, -⟩ := hd
          exact absurd hn he.not_no
        · have := tryDecode_some.2 hd'
          rw [h] at this
          cases this
          rfl

/-- The identifier of the CA is as requested, without a certificate of the CA at hand. -/
def AkiFine (env : ExtEnv K G N) (ca : AkiCa N) (a : Aki G) (d : List UInt8) : Prop :=
  ca.kid = .ok d ∧ (∀ d', a.keyId = some d' → d' = d) ∧
    match ca.cert with
    | none => a.issuer = none ∧ a.serial = none
    | some (n, i) => (∀ g, a.issuer = some g → env.hasName g n = true) ∧ ∀ x, a.serial = some x → x = i

theorem akiKid_ok {ca : AkiCa N} {a : Aki G} : akiKid ca a = .ok () ↔ ∀ d, a.keyId = some d → ca.kid = .ok d := by
  unfold akiKid
  cases a.keyId with
  | none => simp
  | some d =>
    dsimp only
    cases ca.kid with
    | error e => simp
    | ok d' =>
      by_cases hd : d' = d
      · simp [hd]
      · simp [hd]

theorem akiCert_ok {env : ExtEnv K G N} {n : N} {i : Int} {a : Aki G} : akiCert env n i a = .ok () ↔
    (∀ g, a.issuer = some g → env.hasName g n = true) ∧ ∀ x, a.serial = some x → x = i := by
  have h1 : a.issuer.any (fun g => !(env.hasName g n)) = false ↔ ∀ g, a.issuer = some g → env.hasName g n = true := by
    cases a.issuer <;> simp
  have h2 : a.serial.any (fun x => decide (x ≠ i)) = false ↔ ∀ x, a.serial = some x → x = i := by
    cases a.serial <;> simp
  unfold akiCert
  rw [← h1, ← h2]
  cases a.issuer.any (fun g => !(env.hasName g n)) <;> cases a.serial.any (fun x => decide (x ≠ i)) <;> simp

theorem mkAki_ok {env : ExtEnv K G N} {ca : AkiCa N} {r : Option Ext} : mkAki env ca = .ok r ↔
    ∃ d, ca.kid = .ok d ∧ r = some ⟨[2, 5, 29, 35], false, env.encAki d⟩ := by
  have hoid : akiOid = [2, 5, 29, 35] := rfl
  unfold mkAki
  rw [hoid]
  cases ca.kid with
  | error e => simp
  | ok d => simp [eq_comm]

theorem akiFor_ok {env : ExtEnv K G N} {ca : AkiCa N} {a : Aki G} {r : Option Ext} :
    akiFor env ca a = .ok r ↔ ∃ d, AkiFine env ca a d ∧ r = some ⟨[2, 5, 29, 35], false, env.encAki d⟩ := by
  have hkid : ∀ d, ca.kid = .ok d → ((∀ d', a.keyId = some d' → ca.kid = .ok d') ↔ ∀ d', a.keyId = some d' → d' = d) := by
    intro d hd
    rw [hd]
    simp [eq_comm]
  unfold akiFor AkiFine
  cases hk : akiKid ca a with
  | error e =>
    simp only [reduceCtorEq, false_iff]
    rintro ⟨d, ⟨h1, h2, -⟩, -⟩
    have := akiKid_ok.2 ((hkid d h1).2 h2)
    rw [hk] at this
    cases this
  | ok u =>
    have hk' := akiKid_ok.1 hk
    dsimp only
    cases hc : ca.cert with
    | none =>
      dsimp only
      constructor
      · intro h
        by_cases hi : a.issuer.isSome ∨ a.serial.isSome
        · rw [if_pos hi] at h; cases h
        · rw [if_neg hi] at h
          obtain ⟨d, hd, rfl⟩ := mkAki_ok.1 h
          refine ⟨d, ⟨hd, (hkid d hd).1 hk', ?_, ?_⟩, rfl⟩
          · cases hx : a.issuer with
            | none => rfl
            | some g => exact absurd (.inl (by rw [hx]; rfl)) hi
          · cases hx : a.serial with
            | none => rfl
            | some g => exact absurd (.inr (by rw [hx]; rfl)) hi
      · rintro ⟨d, ⟨hd, -, h1, h2⟩, rfl⟩
        rw [if_neg (by rw [h1, h2]; simp)]
        exact mkAki_ok.2 ⟨d, hd, rfl⟩
    | some c =>
      obtain ⟨n, i⟩ := c
      dsimp only
      cases hx : akiCert env n i a with
      | error e =>
        simp only [reduceCtorEq, false_iff]
        rintro ⟨d, ⟨-, -, h3⟩, -⟩
        rw [akiCert_ok.2 h3] at hx
        cases hx
      | ok u =>
        dsimp only
        rw [mkAki_ok]
        constructor
        · rintro ⟨d, hd, rfl⟩
          exact ⟨d, ⟨hd, (hkid d hd).1 hk', akiCert_ok.1 hx⟩, rfl⟩
        · rintro ⟨d, ⟨hd, -⟩, rfl⟩
          exact ⟨d, hd, rfl⟩

/-- **C173 (authority key identifier).** An identifier of the CA in a template is accepted exactly if it is the one of its key;
its name and its serial number are accepted only if the certificate of the CA is given. The certificate gets one that is not
critical, with the identifier of the key only. -/
theorem C173_aki_iff (env : ExtEnv K G N) (ca : AkiCa N) (s : Src K) (l : List Ext) (hs : s.exts = .template l) (r : Option Ext) :
    verifyAki env ca s = .ok r ↔ (NoExt l [2, 5, 29, 35] ∧ r = none) ∨
      ∃ a d, Decodes env.decAki l [2, 5, 29, 35] a ∧ AkiFine env ca a d ∧ r = some ⟨[2, 5, 29, 35], false, env.encAki d⟩ := by
  have hoid : akiOid = [2, 5, 29, 35] := rfl
  unfold verifyAki
  rw [hs, hoid]
  simp only [ReqExts.parse]
  cases h : tryDecode env.decAki l [2, 5, 29, 35] with
  | error e =>
    simp only [reduceCtorEq, false_iff]
    rintro (⟨hn, -⟩ | ⟨a, d, hd, -⟩)
    · rw [tryDecode_none.2 hn] at h; cases h
    · rw [tryDecode_some.2 hd] at h; cases h
  | ok o =>
    cases o with
    | none =>
      have hn := tryDecode_none.1 h
      dsimp only
      constructor
      · intro h'; cases h'; exact .inl ⟨hn, rfl⟩
      · rintro (⟨-, rfl⟩ | ⟨a, d, ⟨e, he, -⟩, -⟩)
        · rfl
        · exact absurd hn he.not_no
    | some a =>
      have hd := tryDecode_some.1 h
      dsimp only
      rw [akiFor_ok]
      constructor
      · rintro ⟨d, h1, h2⟩
        exact .inr ⟨a, d, hd, h1, h2⟩
      · rintro (⟨hn, -⟩ | ⟨a', d, hd', h1, h2⟩)
        · obtain ⟨e, he, -⟩ := hd
          exact absurd hn he.not_no
        · have := tryDecode_some.2 hd'
          rw [h] at this
          cases this
          exact ⟨d, h1, h2⟩

end Verif.Ra
