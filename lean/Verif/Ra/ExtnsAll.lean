import Verif.Ra.ExtnsProps

/-!
# The extensions of an issued certificate: all of them together (C170 to C173)
-/

namespace Verif.Ra

open Verif.CA (PyErr)

variable {K G N : Type}

/-! ## Specification -/

/-- The usages of the set bits, in the order of the bits. -/
def bitUses (x : List Bool) : List Use :=
  [.digitalSignature, .nonRepudiation, .keyEncipherment, .dataEncipherment, .keyAgreement, .keyCertSign, .cRLSign,
    .encipherOnly, .decipherOnly].filter (fun u => decide (x[u.bit]? = some true))

/-- An extension of the certificate that comes from the request. -/
inductive Answer (env : ExtEnv K G N) (ca : AkiCa N) (nullDn : Bool) (l : List Ext) : Ext → Prop
  | usage (x : List Bool) : Decodes env.decUsage l [2, 5, 29, 15] x →
      Answer env ca nullDn l ⟨[2, 5, 29, 15], true, env.encUses (bitUses x)⟩
  | ski (e : Ext) : FirstExt l [2, 5, 29, 14] e → Answer env ca nullDn l e
  | aki (d : List UInt8) : ¬ NoExt l [2, 5, 29, 35] → ca.kid = .ok d →
      Answer env ca nullDn l ⟨[2, 5, 29, 35], false, env.encAki d⟩
  | eku (e : Ext) : FirstExt l [2, 5, 29, 37] e → Answer env ca nullDn l e
  | basic (e : Ext) : FirstExt l [2, 5, 29, 19] e → Answer env ca nullDn l e
  | san (g : G) : Decodes env.decSan l [2, 5, 29, 17] g → Answer env ca nullDn l ⟨[2, 5, 29, 17], nullDn, env.encSan g⟩

/-- The rules between the key usage and the basic constraints. -/
def LogicFine (env : ExtEnv K G N) (l : List Ext) (forEe : Option Bool) : Prop :=
  (∀ x, Decodes env.decUsage l [2, 5, 29, 15] x → (forEe = some false → ¬ Bit x 5 ∧ ¬ Bit x 6) ∧
    ∀ b, Decodes env.decBasic l [2, 5, 29, 19] b → Bit x 5 → b.ca = true) ∧
  (NoExt l [2, 5, 29, 15] → forEe = some true → ∀ b, Decodes env.decBasic l [2, 5, 29, 19] b →
    b.ca = false ∧ ∀ n, b.pathLen = some n → n = 0)

/-- The template is acceptable. -/
structure Acceptable (env : ExtEnv K G N) (ca : AkiCa N) (s : Src K) (a : ExtArgs) (l : List Ext) (k : K) : Prop where
  known : a.allowUnknown = false → ∀ e ∈ l, e.oid ∈
    [[2, 5, 29, 14], [1, 3, 6, 1, 5, 5, 7, 1, 1], [2, 5, 29, 15], [2, 5, 29, 37], [2, 5, 29, 19], [2, 5, 29, 35],
    [2, 5, 29, 17], [2, 5, 29, 18], [2, 16, 840, 1, 114027, 80, 6, 1], [2, 5, 29, 73], [2, 5, 29, 74], [2, 5, 29, 72],
    [2, 5, 29, 31], [1, 3, 6, 1, 5, 5, 7, 4, 9996, 9999, 4, 4, 7],
    [1, 3, 6, 1, 5, 5, 7, 4, 9996, 9999, 4, 4, 6], [2, 5, 29, 28], [1, 3, 6, 1, 5, 5, 7, 4, 9996, 9999, 4, 2, 1],
    [2, 5, 29, 16], [2, 5, 29, 32], [1, 3, 6, 1, 5, 5, 7, 48, 1, 2]]
  logic : LogicFine env l a.forEe
  usage : ¬ NoExt l [2, 5, 29, 15] → s.spki = true ∧ ∃ x, Decodes env.decUsage l [2, 5, 29, 15] x ∧ UsageFine s.ecdh (env.cls k) x
  ski : ∀ e, FirstExt l [2, 5, 29, 14] e → ∃ d rest, env.decSki e.value = some (d, rest) ∧ env.ski k = .ok d
  aki : ¬ NoExt l [2, 5, 29, 35] → ∃ i d, Decodes env.decAki l [2, 5, 29, 35] i ∧ AkiFine env ca i d
  eku : ¬ NoExt l [2, 5, 29, 37] → ∃ u, Decodes env.decEku l [2, 5, 29, 37] u
  basic : ∀ e, FirstExt l [2, 5, 29, 19] e → ∃ b, env.decBasic e.value = some (b, []) ∧ BasicFine b ∧
    ¬ (s.spki = true ∧ s.preHash = true ∧ b.ca = true) ∧ (a.allowNonCrit = false → e.critical = true)
  san : ¬ NoExt l [2, 5, 29, 17] → ∃ g, Decodes env.decSan l [2, 5, 29, 17] g
  named : NoExt l [2, 5, 29, 17] → s.nullDn = false

/-! ## Lists -/

theorem filter_of_sublist {X : Type} [DecidableEq X] {s l : List X} (h : s.Sublist l) (hl : l.Nodup) :
    l.filter (fun x => decide (x ∈ s)) = s := by
  induction h with
  | slnil => rfl
  | cons a h ih =>
    obtain ⟨ha, hl⟩ := List.nodup_cons.1 hl
    rw [List.filter_cons, if_neg, ih hl]
    exact fun hh => ha (h.subset (of_decide_eq_true hh))
  | cons_cons a h ih =>
    rename_i l1 l2
    obtain ⟨ha, hl⟩ := List.nodup_cons.1 hl
    rw [List.filter_cons, if_pos (by simp)]
    congr 1
    rw [← ih hl]
    refine List.filter_congr (fun x hx => ?_)
    have hne : x ≠ a := fun hh => ha (hh ▸ hx)
    rw [ih hl]
    simp [hne]

theorem usesFrom_eq (x : List Bool) : usesFrom useOrder x = bitUses x := by
  rw [← filter_of_sublist (usesFrom_sublist useOrder x) (by decide : useOrder.Nodup)]
  unfold bitUses
  show List.filter _ useOrder = List.filter _ useOrder
  refine List.filter_congr (fun u _ => ?_)
  exact decide_eq_decide.2 (mem_uses x u)

theorem unknownExts_false {l : List Ext} : unknownExts l = false ↔ ∀ e ∈ l, e.oid ∈ knownExts := by
  unfold unknownExts
  rw [List.any_eq_false]
  simp

/-! ## The logic -/

theorem logic_ok {env : ExtEnv K G N} {s : Src K} {l : List Ext} {forEe : Option Bool} (hs : s.exts.parse = some l)
    (hu : ¬ NoExt l [2, 5, 29, 15] → ∃ x, Decodes env.decUsage l [2, 5, 29, 15] x)
    (hb : ¬ NoExt l [2, 5, 29, 19] → ∃ b, Decodes env.decBasic l [2, 5, 29, 19] b) :
    checkLogic env s forEe = .ok () ↔ LogicFine env l forEe := by
  have h1 : usageOid = [2, 5, 29, 15] := rfl
  have h2 : basicOid = [2, 5, 29, 19] := rfl
  have hbas : (∃ b, tryDecode env.decBasic l [2, 5, 29, 19] = .ok (some b)) ∨ tryDecode env.decBasic l [2, 5, 29, 19] = .ok none := by
    by_cases hn : NoExt l [2, 5, 29, 19]
    · exact .inr (tryDecode_none.2 hn)
    · obtain ⟨b, hb⟩ := hb hn
      exact .inl ⟨b, tryDecode_some.2 hb⟩
  unfold checkLogic LogicFine
  rw [hs, h1]
  dsimp only
  by_cases hn : NoExt l [2, 5, 29, 15]
  · rw [tryDecode_none.2 hn]
    dsimp only
    have hv : ∀ x, ¬ Decodes env.decUsage l [2, 5, 29, 15] x := by
      rintro x ⟨e, he, -⟩
      exact he.not_no hn
    have hleft : (∀ x, Decodes env.decUsage l [2, 5, 29, 15] x → (forEe = some false → ¬ Bit x 5 ∧ ¬ Bit x 6) ∧
        ∀ b, Decodes env.decBasic l [2, 5, 29, 19] b → Bit x 5 → b.ca = true) := fun x hx => absurd hx (hv x)
    by_cases hf : forEe = some true
    · rw [if_pos hf]
      unfold logicEe
      rw [h2]
      rcases hbas with ⟨b, hb⟩ | hb
      · rw [hb]
        have hbd := tryDecode_some.1 hb
        have huniq : ∀ b', Decodes env.decBasic l [2, 5, 29, 19] b' → b' = b := by
          intro b' h'
          have := tryDecode_some.2 h'
          rw [hb] at this
          cases this
          rfl
        dsimp only
        have hp : b.pathLen.any (fun n => decide (n ≠ 0)) = false ↔ ∀ n, b.pathLen = some n → n = 0 := by
          cases b.pathLen <;> simp
        constructor
        · intro h
          refine ⟨hleft, fun _ _ b' hb' => ?_⟩
          rw [huniq b' hb']
          by_cases hc : b.ca = true
          · rw [if_pos hc] at h; cases h
          · rw [if_neg hc] at h
            cases hx : b.pathLen.any (fun n => decide (n ≠ 0)) with
            | true => rw [hx] at h; cases h
            | false => exact ⟨by simpa using hc, hp.1 hx⟩
        · rintro ⟨-, h⟩
          obtain ⟨hc, hx⟩ := h hn hf b hbd
          rw [if_neg (by rw [hc]; decide), hp.2 hx]
          rfl
      · rw [hb]
        have hnb := tryDecode_none.1 hb
        simp only [true_iff]
        refine ⟨hleft, fun _ _ b' hb' => ?_⟩
        obtain ⟨e, he, -⟩ := hb'
        exact absurd hnb he.not_no
    · rw [if_neg hf]
      simp only [true_iff]
      exact ⟨hleft, fun _ h => absurd h hf⟩
  · obtain ⟨x, hx⟩ := hu hn
    rw [tryDecode_some.2 hx]
    dsimp only
    have huniq : ∀ x', Decodes env.decUsage l [2, 5, 29, 15] x' → x' = x := by
      intro x' h'
      have := tryDecode_some.2 h'
      rw [tryDecode_some.2 hx] at this
      cases this
      rfl
    unfold logicUsage
    rw [h2]
    have h5 := mem_uses x .keyCertSign
    have h6 := mem_uses x .cRLSign
    simp only [Use.bit] at h5 h6
    have hred : ((∀ x, Decodes env.decUsage l [2, 5, 29, 15] x → (forEe = some false → ¬ Bit x 5 ∧ ¬ Bit x 6) ∧
        ∀ b, Decodes env.decBasic l [2, 5, 29, 19] b → Bit x 5 → b.ca = true) ∧
        (NoExt l [2, 5, 29, 15] → forEe = some true → ∀ b, Decodes env.decBasic l [2, 5, 29, 19] b →
        b.ca = false ∧ ∀ n, b.pathLen = some n → n = 0)) ↔ (forEe = some false → ¬ Bit x 5 ∧ ¬ Bit x 6) ∧
        ∀ b, Decodes env.decBasic l [2, 5, 29, 19] b → Bit x 5 → b.ca = true := by
      constructor
      · exact fun h => h.1 x hx
      · intro h
        refine ⟨fun x' hx' => ?_, fun h' => absurd h' hn⟩
        rw [huniq x' hx']
        exact h
    rw [hred]
    by_cases hf : forEe = some false ∧ (Bit x 5 ∨ Bit x 6)
    · rw [if_pos ⟨hf.1, hf.2.imp h5.2 h6.2⟩]
      simp only [reduceCtorEq, false_iff]
      rintro ⟨h, -⟩
      exact hf.2.elim (h hf.1).1 (h hf.1).2
    · rw [if_neg (fun hh => hf ⟨hh.1, hh.2.imp h5.1 h6.1⟩)]
      have hf' : forEe = some false → ¬ Bit x 5 ∧ ¬ Bit x 6 :=
        fun h => ⟨fun h' => hf ⟨h, .inl h'⟩, fun h' => hf ⟨h, .inr h'⟩⟩
      rcases hbas with ⟨b, hb⟩ | hb
      · rw [hb]
        have hbd := tryDecode_some.1 hb
        dsimp only
        by_cases hc : b.ca = false ∧ Bit x 5
        · rw [if_pos ⟨hc.1, h5.2 hc.2⟩]
          simp only [reduceCtorEq, false_iff]
          rintro ⟨-, h⟩
          have := h b hbd hc.2
          rw [hc.1] at this
          cases this
        · rw [if_neg (fun hh => hc ⟨hh.1, h5.1 hh.2⟩)]
          simp only [true_iff]
          refine ⟨hf', fun b' hb' h5' => ?_⟩
          have := tryDecode_some.2 hb'
          rw [hb] at this
          cases this
          cases hca : b.ca with
          | true => rfl
          | false => exact absurd ⟨hca, h5'⟩ hc
      · rw [hb]
        have hnb := tryDecode_none.1 hb
        simp only [true_iff]
        refine ⟨hf', fun b' hb' => ?_⟩
        obtain ⟨e, he, -⟩ := hb'
        exact absurd hnb he.not_no

/-! ## The merge -/

/-- The verified extensions are under their own kind. -/
def Keyed (v : List (List Nat × Option Ext)) : Prop := ∀ o e, (o, some e) ∈ v → e.oid = o

theorem pickExts_mem {other : List Ext} {v : List (List Nat × Option Ext)} {e : Ext} :
    e ∈ pickExts other v ↔ (∃ o, (o, some e) ∈ v) ∨ ∃ o, (o, none) ∈ v ∧ FirstExt other o e := by
  induction v with
  | nil => simp [pickExts]
  | cons p v ih =>
    obtain ⟨o, m⟩ := p
    cases m with
    | some e' =>
      rw [pickExts, List.mem_cons, ih]
      simp only [List.mem_cons, Prod.mk.injEq, Option.some.injEq, reduceCtorEq, and_false, false_or, exists_or,
        exists_eq_left]
      rw [or_assoc]
    | none =>
      rw [pickExts]
      have hr : ((∃ o', (o', some e) ∈ (o, none) :: v) ∨ ∃ o', (o', none) ∈ (o, (none : Option Ext)) :: v ∧ FirstExt other o' e) ↔
          FirstExt other o e ∨ (∃ o, (o, some e) ∈ v) ∨ ∃ o, (o, none) ∈ v ∧ FirstExt other o e := by
        simp only [List.mem_cons, Prod.mk.injEq, reduceCtorEq, and_false, false_or, and_true, or_and_right, exists_or,
          exists_eq_left]
        constructor
        · rintro (h | h | h)
          · exact .inr (.inl h)
          · exact .inl h
          · exact .inr (.inr h)
        · rintro (h | h | h)
          · exact .inr (.inl h)
          · exact .inl h
          · exact .inr (.inr h)
      rw [hr, ← ih]
      cases hg : getExt other o with
      | none =>
        have hn := getExt_none.1 hg
        dsimp only
        constructor
        · exact .inr
        · rintro (h | h)
          · exact absurd hn h.not_no
          · exact h
      | some e' =>
        have he := getExt_some.1 hg
        dsimp only
        rw [List.mem_cons]
        constructor
        · rintro (rfl | h)
          · exact .inl he
          · exact .inr h
        · rintro (h | h)
          · exact .inl (h.unique he)
          · exact .inr h

theorem FirstExt.of_mem {l : List Ext} {e : Ext} (hl : OneOfEach l) (he : e ∈ l) : FirstExt l e.oid e := by
  obtain ⟨a, b, rfl⟩ := List.append_of_mem he
  refine ⟨a, b, rfl, rfl, fun x hx hxe => ?_⟩
  unfold OneOfEach at hl
  rw [List.map_append, List.map_cons, List.nodup_append] at hl
  exact hl.2.2 x.oid (List.mem_map_of_mem hx) e.oid (List.mem_cons_self ..) hxe

theorem notIncluded_mem {l other : List Ext} {e : Ext} : e ∈ notIncluded l other ↔ e ∈ other ∧ NoExt l e.oid := by
  unfold notIncluded NoExt
  simp

theorem mergeExts_eq (other : List Ext) (v : List (List Nat × Option Ext)) :
    mergeExts other v = pickExts other v ++ notIncluded (pickExts other v) other := by
  unfold mergeExts
  split
  · rename_i h
    rw [h]
    simp only [notIncluded, List.filter_nil, List.append_nil]
    induction v with
    | nil => rfl
    | cons p v ih =>
      obtain ⟨o, m⟩ := p
      cases m with
      | none => exact ih
      | some e => exact congrArg (e :: ·) ih
  · rfl

theorem mergeExts_mem {other : List Ext} {v : List (List Nat × Option Ext)} (ho : OneOfEach other) (hk : Keyed v) {e : Ext}
    (hv : (v.map (fun p => p.1)).Nodup) :
    e ∈ mergeExts other v ↔ (∃ o, (o, some e) ∈ v) ∨ (e ∈ other ∧ ∀ o e', (o, some e') ∈ v → o ≠ e.oid) := by
  rw [mergeExts_eq, List.mem_append, pickExts_mem, notIncluded_mem]
  constructor
  · rintro ((h | ⟨o, hm, hf⟩) | ⟨hm, hn⟩)
    · exact .inl h
    · refine .inr ⟨hf.mem, fun o' e' hm' h' => ?_⟩
      have h1 : o' = o := by rw [h', hf.oid]
      subst h1
      have key : ∀ (w : List (List Nat × Option Ext)), (w.map (fun p => p.1)).Nodup → (o', some e') ∈ w → (o', none) ∈ w → False := by
        intro w hw h1 h2
        induction w with
        | nil => cases h1
        | cons p w ih =>
          rw [List.map_cons, List.nodup_cons] at hw
          rcases List.mem_cons.1 h1 with h1 | h1
          · rcases List.mem_cons.1 h2 with h2 | h2
            · rw [← h2] at h1; cases h1
            · exact hw.1 (by rw [← h1]; exact List.mem_map_of_mem (f := fun p => p.1) h2)
          · rcases List.mem_cons.1 h2 with h2 | h2
            · exact hw.1 (by rw [← h2]; exact List.mem_map_of_mem (f := fun p => p.1) h1)
            · exact ih hw.2 h1 h2
      exact key v hv hm' hm
    · refine .inr ⟨hm, fun o e' hm' h' => ?_⟩
      exact hn e' (pickExts_mem.2 (.inl ⟨o, hm'⟩)) (by rw [hk o e' hm', h'])
  · rintro (h | ⟨hm, h⟩)
    · exact .inl (.inl h)
    · have hf := FirstExt.of_mem ho hm
      by_cases hn : (e.oid, none) ∈ v
      · exact .inl (.inr ⟨_, hn, hf⟩)
      · refine .inr ⟨hm, fun x hx hxe => ?_⟩
        rcases pickExts_mem.1 hx with ⟨o, hm'⟩ | ⟨o, hm', hf'⟩
        · exact h o x hm' (by rw [← hk o x hm', hxe])
        · rw [← hf'.oid, hxe] at hm'
          exact hn hm'

theorem pickExts_sublist {other : List Ext} {v : List (List Nat × Option Ext)} (hk : Keyed v) :
    ((pickExts other v).map (fun e => e.oid)).Sublist (v.map (fun p => p.1)) := by
  induction v with
  | nil => exact List.Sublist.refl _
  | cons p v ih =>
    have ih := ih (fun o e h => hk o e (List.mem_cons_of_mem _ h))
    obtain ⟨o, m⟩ := p
    cases m with
    | some e =>
      rw [pickExts, List.map_cons, List.map_cons, hk o e (List.mem_cons_self ..)]
      exact ih.cons_cons o
    | none =>
      rw [pickExts]
      cases hg : getExt other o with
      | none => exact ih.cons o
      | some e =>
        dsimp only
        rw [List.map_cons, List.map_cons, (getExt_some.1 hg).oid]
        exact ih.cons_cons o

theorem mergeExts_nodup {other : List Ext} {v : List (List Nat × Option Ext)} (ho : OneOfEach other) (hk : Keyed v)
    (hv : (v.map (fun p => p.1)).Nodup) : OneOfEach (mergeExts other v) := by
  unfold OneOfEach at *
  rw [mergeExts_eq, List.map_append, List.nodup_append]
  refine ⟨hv.sublist (pickExts_sublist hk), ho.sublist (List.filter_sublist.map _), ?_⟩
  rintro a ha b hb rfl
  obtain ⟨x, hx, rfl⟩ := List.mem_map.1 ha
  obtain ⟨y, hy, hxy⟩ := List.mem_map.1 hb
  exact (notIncluded_mem.1 hy).2 x hx hxy.symm

end Verif.Ra
