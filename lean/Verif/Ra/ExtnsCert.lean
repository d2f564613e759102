import Verif.Ra.ExtnsAll

/-!
# The extensions of an issued certificate: which templates are accepted, and what the certificate gets (C170 to C173)
-/

namespace Verif.Ra

open Verif.CA (PyErr)

variable {K G N : Type}

theorem verifyAll_ok {env : ExtEnv K G N} {ca : AkiCa N} {s : Src K} {n : Bool} {v : List (List Nat × Option Ext)} :
    verifyAll env ca s n = .ok v ↔ ∃ u k a x b g, verifyUsage env s = .ok u ∧ verifySki env s = .ok k ∧
      verifyAki env ca s = .ok a ∧ verifyEku env s = .ok x ∧ verifyBasic env s n = .ok b ∧ verifySan env s = .ok g ∧
      v = [([2, 5, 29, 15], u), ([2, 5, 29, 14], k), ([2, 5, 29, 35], a), ([2, 5, 29, 37], x), ([2, 5, 29, 19], b),
        ([2, 5, 29, 17], g)] := by
  unfold verifyAll
  cases verifyUsage env s with
  | error e => simp
  | ok u =>
    cases verifySki env s with
    | error e => simp
    | ok k =>
      cases verifyAki env ca s with
      | error e => simp
      | ok a =>
        cases verifyEku env s with
        | error e => simp
        | ok x =>
          cases verifyBasic env s n with
          | error e => simp
          | ok b =>
            cases verifySan env s with
            | error e => simp
            | ok g =>
              have h : [(usageOid, u), (skiOid, k), (akiOid, a), (ekuOid, x), (basicOid, b), (sanOid, g)] =
                [([2, 5, 29, 15], u), ([2, 5, 29, 14], k), ([2, 5, 29, 35], a), ([2, 5, 29, 37], x), ([2, 5, 29, 19], b),
                  ([2, 5, 29, 17], g)] := rfl
              dsimp only
              rw [h]
              constructor
              · intro h
                cases h
                exact ⟨_, _, _, _, _, _, rfl, rfl, rfl, rfl, rfl, rfl, rfl⟩
              · rintro ⟨_, _, _, _, _, _, h1, h2, h3, h4, h5, h6, rfl⟩
                cases h1; cases h2; cases h3; cases h4; cases h5; cases h6
                rfl

theorem keyed_verified {env : ExtEnv K G N} {ca : AkiCa N} {s : Src K} {n : Bool} {v : List (List Nat × Option Ext)}
    {l : List Ext} (hs : s.exts = .template l) (h : verifyAll env ca s n = .ok v) : Keyed v ∧ (v.map (fun p => p.1)).Nodup := by
  have hp : s.exts.parse = some l := by rw [hs]; rfl
  obtain ⟨u, k, a, x, b, g, h1, h2, h3, h4, h5, h6, rfl⟩ := verifyAll_ok.1 h
  refine ⟨?_, (by decide : [[2, 5, 29, 15], [2, 5, 29, 14], [2, 5, 29, 35], [2, 5, 29, 37], [2, 5, 29, 19], [2, 5, 29, 17]].Nodup)⟩
  have hkey : ∃ key, s.key = .ok key := by
    cases hk : s.key with
    | ok key => exact ⟨key, rfl⟩
    | error e => unfold verifySki at h2; rw [hk] at h2; cases h2
  obtain ⟨key, hkey⟩ := hkey
  intro o e hm
  simp only [List.mem_cons, Prod.mk.injEq, List.not_mem_nil, or_false] at hm
  rcases hm with ⟨rfl, rfl⟩ | ⟨rfl, rfl⟩ | ⟨rfl, rfl⟩ | ⟨rfl, rfl⟩ | ⟨rfl, rfl⟩ | ⟨rfl, rfl⟩
  · rcases (verifyUsage_ok hp).1 h1 with ⟨-, h⟩ | ⟨_, _, _, _, _, _, h⟩ <;> cases h
    rfl
  · rcases (C173_ski_iff env s l key hp hkey _).1 h2 with ⟨-, h⟩ | ⟨e', _, _, hf, _, _, h⟩ <;> cases h
    exact hf.oid
  · rcases (C173_aki_iff env ca s l hs _).1 h3 with ⟨-, h⟩ | ⟨_, _, _, _, h⟩ <;> cases h
    rfl
  · rcases (verifyEku_ok hp).1 h4 with ⟨-, h⟩ | ⟨e', _, hf, _, h⟩ <;> cases h
    exact hf.oid
  · rcases (C172_basic_iff env s l n hp _).1 h5 with ⟨-, h⟩ | ⟨e', _, hf, _, _, _, _, h⟩ <;> cases h
    exact hf.oid
  · rcases (C173_san_iff env s l hp _).1 h6 with ⟨-, -, h⟩ | ⟨_, _, h⟩ <;> cases h
    rfl

theorem checkExts_ok {env : ExtEnv K G N} {ca : AkiCa N} {s : Src K} {a : ExtArgs} {l : List Ext} {r : List Ext}
    (hp : s.exts.parse = some l) : checkExts env ca s a = .ok r ↔ (a.allowUnknown = false → ∀ e ∈ l, e.oid ∈ knownExts) ∧
      checkLogic env s a.forEe = .ok () ∧ ∃ v, verifyAll env ca s a.allowNonCrit = .ok v ∧ r = mergeExts a.other v := by
  unfold checkExts
  rw [hp]
  simp only [Option.getD_some]
  constructor
  · intro h
    by_cases hu : unknownExts l = true ∧ a.allowUnknown = false
    · rw [if_pos hu] at h; cases h
    rw [if_neg hu] at h
    cases hl : checkLogic env s a.forEe with
    | error e => rw [hl] at h; cases h
    | ok u =>
      rw [hl] at h
      dsimp only at h
      cases hv : verifyAll env ca s a.allowNonCrit with
      | error e => rw [hv] at h; cases h
      | ok v =>
        rw [hv] at h
        cases h
        refine ⟨fun ha => unknownExts_false.1 ?_, rfl, v, rfl, rfl⟩
        cases hx : unknownExts l with
        | false => rfl
        | true => exact absurd ⟨hx, ha⟩ hu
  · rintro ⟨h1, h2, v, h3, rfl⟩
    rw [if_neg, h2]
    · dsimp only
      rw [h3]
    · rintro ⟨hx, ha⟩
      rw [unknownExts_false.2 (h1 ha)] at hx
      cases hx

/-- **C170 (accepted templates).** The extensions of a template are accepted exactly if they are acceptable. -/
theorem C170_accepted_iff (env : ExtEnv K G N) (ca : AkiCa N) (s : Src K) (a : ExtArgs) (l : List Ext) (k : K)
    (hs : s.exts = .template l) (hk : s.key = .ok k) :
    (∃ r, checkExts env ca s a = .ok r) ↔ Acceptable env ca s a l k := by
  have hp : s.exts.parse = some l := by rw [hs]; rfl
  constructor
  · rintro ⟨r, h⟩
    obtain ⟨h1, h2, v, h3, -⟩ := (checkExts_ok hp).1 h
    obtain ⟨u, ki, ai, x, b, g, g1, g2, g3, g4, g5, g6, -⟩ := verifyAll_ok.1 h3
    have hu : ¬ NoExt l [2, 5, 29, 15] → s.spki = true ∧ ∃ x, Decodes env.decUsage l [2, 5, 29, 15] x ∧
        UsageFine s.ecdh (env.cls k) x := by
      intro hn
      rcases (verifyUsage_ok hp).1 g1 with ⟨hh, -⟩ | ⟨x, k', hd, hsp, hk', hf, -⟩
      · exact absurd hh hn
      · rw [hk] at hk'
        cases hk'
        exact ⟨hsp, x, hd, hf⟩
    have hb : ∀ e, FirstExt l [2, 5, 29, 19] e → ∃ b, env.decBasic e.value = some (b, []) ∧ BasicFine b ∧
        ¬ (s.spki = true ∧ s.preHash = true ∧ b.ca = true) ∧ (a.allowNonCrit = false → e.critical = true) := by
      intro e he
      rcases (C172_basic_iff env s l _ hp _).1 g5 with ⟨hh, -⟩ | ⟨e', b, he', hd, h1, h2, h3, -⟩
      · exact absurd hh he.not_no
      · cases he.unique he'
        exact ⟨b, hd, h1, h2, h3⟩
    have hbd : ¬ NoExt l [2, 5, 29, 19] → ∃ b, Decodes env.decBasic l [2, 5, 29, 19] b := by
      intro hn
      obtain ⟨e, he⟩ := not_no_first hn
      obtain ⟨b, hd, -⟩ := hb e he
      exact ⟨b, e, he, hd⟩
    refine ⟨h1, (logic_ok hp (fun hn => ?_) hbd).1 h2, hu, ?_, ?_, ?_, hb, ?_, ?_⟩
    · obtain ⟨-, x, hx, -⟩ := hu hn
      exact ⟨x, hx⟩
    · intro e he
      rcases (C173_ski_iff env s l k hp hk _).1 g2 with ⟨hh, -⟩ | ⟨e', d, rest, he', hd, hx, -⟩
      · exact absurd hh he.not_no
      · cases he.unique he'
        exact ⟨d, rest, hd, hx⟩
    · intro hn
      rcases (C173_aki_iff env ca s l hs _).1 g3 with ⟨hh, -⟩ | ⟨i, d, hd, hf, -⟩
      · exact absurd hh hn
      · exact ⟨i, d, hd, hf⟩
    · intro hn
      rcases (verifyEku_ok hp).1 g4 with ⟨hh, -⟩ | ⟨e, u, he, hd, -⟩
      · exact absurd hh hn
      · exact ⟨u, e, he, hd⟩
    · intro hn
      rcases (C173_san_iff env s l hp _).1 g6 with ⟨hh, -⟩ | ⟨g, hd, -⟩
      · exact absurd hh hn
      · exact ⟨g, hd⟩
    · intro hn
      rcases (C173_san_iff env s l hp _).1 g6 with ⟨-, hh, -⟩ | ⟨g, ⟨e, he, -⟩, -⟩
      · exact hh
      · exact absurd hn he.not_no
  · intro h
    have hud : ¬ NoExt l [2, 5, 29, 15] → ∃ x, Decodes env.decUsage l [2, 5, 29, 15] x := by
      intro hn
      obtain ⟨-, x, hx, -⟩ := h.usage hn
      exact ⟨x, hx⟩
    have hbd : ¬ NoExt l [2, 5, 29, 19] → ∃ b, Decodes env.decBasic l [2, 5, 29, 19] b := by
      intro hn
      obtain ⟨e, he⟩ := not_no_first hn
      obtain ⟨b, hd, -⟩ := h.basic e he
      exact ⟨b, e, he, hd⟩
    have g1 : ∃ r, verifyUsage env s = .ok r := by
      by_cases hn : NoExt l [2, 5, 29, 15]
      · exact ⟨_, (verifyUsage_ok hp).2 (.inl ⟨hn, rfl⟩)⟩
      · obtain ⟨hsp, x, hx, hf⟩ := h.usage hn
        exact ⟨_, (verifyUsage_ok hp).2 (.inr ⟨x, k, hx, hsp, hk, hf, rfl⟩)⟩
    have g2 : ∃ r, verifySki env s = .ok r := by
      by_cases hn : NoExt l [2, 5, 29, 14]
      · exact ⟨_, (C173_ski_iff env s l k hp hk _).2 (.inl ⟨hn, rfl⟩)⟩
      · obtain ⟨e, he⟩ := not_no_first hn
        obtain ⟨d, rest, hd, hx⟩ := h.ski e he
        exact ⟨_, (C173_ski_iff env s l k hp hk _).2 (.inr ⟨e, d, rest, he, hd, hx, rfl⟩)⟩
    have g3 : ∃ r, verifyAki env ca s = .ok r := by
      by_cases hn : NoExt l [2, 5, 29, 35]
      · exact ⟨_, (C173_aki_iff env ca s l hs _).2 (.inl ⟨hn, rfl⟩)⟩
      · obtain ⟨i, d, hd, hx⟩ := h.aki hn
        exact ⟨_, (C173_aki_iff env ca s l hs _).2 (.inr ⟨i, d, hd, hx, rfl⟩)⟩
    have g4 : ∃ r, verifyEku env s = .ok r := by
      by_cases hn : NoExt l [2, 5, 29, 37]
      · exact ⟨_, (verifyEku_ok hp).2 (.inl ⟨hn, rfl⟩)⟩
      · obtain ⟨u, e, he, hx⟩ := h.eku hn
        exact ⟨_, (verifyEku_ok hp).2 (.inr ⟨e, u, he, hx, rfl⟩)⟩
    have g5 : ∃ r, verifyBasic env s a.allowNonCrit = .ok r := by
      by_cases hn : NoExt l [2, 5, 29, 19]
      · exact ⟨_, (C172_basic_iff env s l _ hp _).2 (.inl ⟨hn, rfl⟩)⟩
      · obtain ⟨e, he⟩ := not_no_first hn
        obtain ⟨b, hd, h1, h2, h3⟩ := h.basic e he
        exact ⟨_, (C172_basic_iff env s l _ hp _).2 (.inr ⟨e, b, he, hd, h1, h2, h3, rfl⟩)⟩
    have g6 : ∃ r, verifySan env s = .ok r := by
      by_cases hn : NoExt l [2, 5, 29, 17]
      · exact ⟨_, (C173_san_iff env s l hp _).2 (.inl ⟨hn, h.named hn, rfl⟩)⟩
      · obtain ⟨g, hd⟩ := h.san hn
        exact ⟨_, (C173_san_iff env s l hp _).2 (.inr ⟨g, hd, rfl⟩)⟩
    obtain ⟨_, g1⟩ := g1
    obtain ⟨_, g2⟩ := g2
    obtain ⟨_, g3⟩ := g3
    obtain ⟨_, g4⟩ := g4
    obtain ⟨_, g5⟩ := g5
    obtain ⟨_, g6⟩ := g6
    exact ⟨_, (checkExts_ok hp).2 ⟨h.known, (logic_ok hp hud hbd).2 h.logic, _,
      verifyAll_ok.2 ⟨_, _, _, _, _, _, g1, g2, g3, g4, g5, g6, rfl⟩, rfl⟩⟩

/-- **C170 (one extension of each kind).** The extensions of an accepted template, with those of the CA, are of distinct kinds,
if those of the CA are; and they are exactly the answers to the template, and those of the CA of a kind that is not answered. -/
theorem C170_members (env : ExtEnv K G N) (ca : AkiCa N) (s : Src K) (a : ExtArgs) (l r : List Ext)
    (hs : s.exts = .template l) (ho : OneOfEach a.other) (h : checkExts env ca s a = .ok r) :
    OneOfEach r ∧ ∀ e, e ∈ r ↔ Answer env ca s.nullDn l e ∨ (e ∈ a.other ∧ (e.oid ∈ checkedKinds → NoExt l e.oid)) := by
  have hp : s.exts.parse = some l := by rw [hs]; rfl
  obtain ⟨h1, h2, v, h3, rfl⟩ := (checkExts_ok hp).1 h
  obtain ⟨hkv, hnv⟩ := keyed_verified hs h3
  refine ⟨mergeExts_nodup ho hkv hnv, fun e => ?_⟩
  rw [mergeExts_mem ho hkv hnv]
  obtain ⟨u, k, ai, x, b, g, g1, g2, g3, g4, g5, g6, rfl⟩ := verifyAll_ok.1 h3
  have hkey : ∃ key, s.key = .ok key := by
    cases hk : s.key with
    | ok key => exact ⟨key, rfl⟩
    | error e => unfold verifySki at g2; rw [hk] at g2; cases g2
  obtain ⟨key, hkey⟩ := hkey
  -- the answers, one kind at a time
  have a1 : ∀ e, u = some e ↔ ∃ x, Decodes env.decUsage l [2, 5, 29, 15] x ∧ e = ⟨[2, 5, 29, 15], true, env.encUses (bitUses x)⟩ := by
    intro e
    rcases (verifyUsage_ok hp).1 g1 with ⟨hn, rfl⟩ | ⟨x, _, hd, _, _, _, rfl⟩
    · simp only [reduceCtorEq, false_iff]
      rintro ⟨x, ⟨e', he', -⟩, -⟩
      exact he'.not_no hn
    · rw [usesFrom_eq]
      constructor
      · intro hh; cases hh; exact ⟨x, hd, rfl⟩
      · rintro ⟨x', hd', rfl⟩
        have := tryDecode_some.2 hd'
        rw [tryDecode_some.2 hd] at this
        cases this
        rfl
  have a2 : ∀ e, k = some e ↔ FirstExt l [2, 5, 29, 14] e := by
    intro e
    rcases (C173_ski_iff env s l key hp hkey _).1 g2 with ⟨hn, rfl⟩ | ⟨e', _, _, he', _, _, rfl⟩
    · simp only [reduceCtorEq, false_iff]
      exact fun hh => hh.not_no hn
    · exact ⟨fun hh => by cases hh; exact he', fun hh => by rw [hh.unique he']⟩
  have a3 : ∀ e, ai = some e ↔ ¬ NoExt l [2, 5, 29, 35] ∧ ∃ d, ca.kid = .ok d ∧ e = ⟨[2, 5, 29, 35], false, env.encAki d⟩ := by
    intro e
    rcases (C173_aki_iff env ca s l hs _).1 g3 with ⟨hn, rfl⟩ | ⟨i, d, hd, hf, rfl⟩
    · simp [hn]
    · obtain ⟨e', he', -⟩ := hd
      constructor
      · intro hh; cases hh; exact ⟨he'.not_no, d, hf.1, rfl⟩
      · rintro ⟨-, d', hd', rfl⟩
        have := hf.1
        rw [hd'] at this
        cases this
        rfl
  have a4 : ∀ e, x = some e ↔ FirstExt l [2, 5, 29, 37] e := by
    intro e
    rcases (verifyEku_ok hp).1 g4 with ⟨hn, rfl⟩ | ⟨e', _, he', _, rfl⟩
    · simp only [reduceCtorEq, false_iff]
      exact fun hh => hh.not_no hn
    · exact ⟨fun hh => by cases hh; exact he', fun hh => by rw [hh.unique he']⟩
  have a5 : ∀ e, b = some e ↔ FirstExt l [2, 5, 29, 19] e := by
    intro e
    rcases (C172_basic_iff env s l _ hp _).1 g5 with ⟨hn, rfl⟩ | ⟨e', _, he', _, _, _, _, rfl⟩
    · simp only [reduceCtorEq, false_iff]
      exact fun hh => hh.not_no hn
    · exact ⟨fun hh => by cases hh; exact he', fun hh => by rw [hh.unique he']⟩
  have a6 : ∀ e, g = some e ↔ ∃ x, Decodes env.decSan l [2, 5, 29, 17] x ∧ e = ⟨[2, 5, 29, 17], s.nullDn, env.encSan x⟩ := by
    intro e
    rcases (C173_san_iff env s l hp _).1 g6 with ⟨hn, -, rfl⟩ | ⟨x, hd, rfl⟩
    · simp only [reduceCtorEq, false_iff]
      rintro ⟨x, ⟨e', he', -⟩, -⟩
      exact he'.not_no hn
    · constructor
      · intro hh; cases hh; exact ⟨x, hd, rfl⟩
      · rintro ⟨x', hd', rfl⟩
        have := tryDecode_some.2 hd'
        rw [tryDecode_some.2 hd] at this
        cases this
        rfl
  -- whether there is an answer
  have b1 : (∃ e, u = some e) ↔ ¬ NoExt l [2, 5, 29, 15] := by
    rcases (verifyUsage_ok hp).1 g1 with ⟨hn, rfl⟩ | ⟨x, _, ⟨e, he, _⟩, _, _, _, rfl⟩
    · simp [hn]
    · simp [he.not_no]
  have b2 : (∃ e, k = some e) ↔ ¬ NoExt l [2, 5, 29, 14] := by
    simp only [a2]
    exact ⟨fun ⟨e, he⟩ => he.not_no, not_no_first⟩
  have b3 : (∃ e, ai = some e) ↔ ¬ NoExt l [2, 5, 29, 35] := by
    rcases (C173_aki_iff env ca s l hs _).1 g3 with ⟨hn, rfl⟩ | ⟨i, d, ⟨e, he, _⟩, hf, rfl⟩
    · simp [hn]
    · simp [he.not_no]
  have b4 : (∃ e, x = some e) ↔ ¬ NoExt l [2, 5, 29, 37] := by
    simp only [a4]
    exact ⟨fun ⟨e, he⟩ => he.not_no, not_no_first⟩
  have b5 : (∃ e, b = some e) ↔ ¬ NoExt l [2, 5, 29, 19] := by
    simp only [a5]
    exact ⟨fun ⟨e, he⟩ => he.not_no, not_no_first⟩
  have b6 : (∃ e, g = some e) ↔ ¬ NoExt l [2, 5, 29, 17] := by
    rcases (C173_san_iff env s l hp _).1 g6 with ⟨hn, -, rfl⟩ | ⟨x, ⟨e, he, _⟩, rfl⟩
    · simp [hn]
    · simp [he.not_no]
  have hans : (∃ o, (o, some e) ∈ [([2, 5, 29, 15], u), ([2, 5, 29, 14], k), ([2, 5, 29, 35], ai), ([2, 5, 29, 37], x),
      ([2, 5, 29, 19], b), ([2, 5, 29, 17], g)]) ↔ Answer env ca s.nullDn l e := by
    simp only [List.mem_cons, Prod.mk.injEq, List.not_mem_nil, or_false, exists_or, exists_eq_left]
    constructor
    · rintro (h | h | h | h | h | h)
      · obtain ⟨x, hd, rfl⟩ := (a1 e).1 h.symm
        exact .usage x hd
      · exact .ski e ((a2 e).1 h.symm)
      · obtain ⟨hn, d, hd, rfl⟩ := (a3 e).1 h.symm
        exact .aki d hn hd
      · exact .eku e ((a4 e).1 h.symm)
      · exact .basic e ((a5 e).1 h.symm)
      · obtain ⟨x, hd, rfl⟩ := (a6 e).1 h.symm
        exact .san x hd
    · intro h
      cases h with
      | usage x hd => exact .inl ((a1 _).2 ⟨x, hd, rfl⟩).symm
      | ski _ hf => exact .inr (.inl ((a2 e).2 hf).symm)
      | aki d hn hd => exact .inr (.inr (.inl ((a3 _).2 ⟨hn, d, hd, rfl⟩).symm))
      | eku _ hf => exact .inr (.inr (.inr (.inl ((a4 e).2 hf).symm)))
      | basic _ hf => exact .inr (.inr (.inr (.inr (.inl ((a5 e).2 hf).symm))))
      | san g hd => exact .inr (.inr (.inr (.inr (.inr ((a6 _).2 ⟨g, hd, rfl⟩).symm))))
  rw [hans]
  refine or_congr_right (and_congr_right (fun _ => ?_))
  constructor
  · intro hh hm
    apply Classical.byContradiction
    intro hn
    have hno : ∀ o m, (o, m) ∈ [([2, 5, 29, 15], u), ([2, 5, 29, 14], k), ([2, 5, 29, 35], ai), ([2, 5, 29, 37], x),
      ([2, 5, 29, 19], b), ([2, 5, 29, 17], g)] → e.oid = o → (∃ e', m = some e') → False := by
      rintro o m hm ho ⟨e', rfl⟩
      exact hh o e' hm ho.symm
    unfold checkedKinds at hm
    simp only [List.mem_cons, List.not_mem_nil, or_false] at hm
    rcases hm with hm | hm | hm | hm | hm | hm <;> rw [hm] at hn
    · exact hno _ u (by simp) hm (b1.2 hn)
    · exact hno _ k (by simp) hm (b2.2 hn)
    · exact hno _ ai (by simp) hm (b3.2 hn)
    · exact hno _ x (by simp) hm (b4.2 hn)
    · exact hno _ b (by simp) hm (b5.2 hn)
    · exact hno _ g (by simp) hm (b6.2 hn)
  · intro hh o e' hm ho
    subst ho
    simp only [List.mem_cons, Prod.mk.injEq, List.not_mem_nil, or_false] at hm
    unfold checkedKinds at hh
    rcases hm with ⟨ho, hm⟩ | ⟨ho, hm⟩ | ⟨ho, hm⟩ | ⟨ho, hm⟩ | ⟨ho, hm⟩ | ⟨ho, hm⟩ <;> rw [ho] at hh
    · exact b1.1 ⟨e', hm.symm⟩ (hh (by decide))
    · exact b2.1 ⟨e', hm.symm⟩ (hh (by decide))
    · exact b3.1 ⟨e', hm.symm⟩ (hh (by decide))
    · exact b4.1 ⟨e', hm.symm⟩ (hh (by decide))
    · exact b5.1 ⟨e', hm.symm⟩ (hh (by decide))
    · exact b6.1 ⟨e', hm.symm⟩ (hh (by decide))

theorem certFromTmpl_ok {env : ExtEnv K G N} {kid : Except PyErr (List UInt8)} {pre : Except PyErr Unit} {l : List Ext}
    {key : Except PyErr K} {ecdh preHash nullDn : Bool} {serial : Option Int} {rnd : Int} {other : List Ext} {c : XCert} :
    certFromTmpl env kid pre l key ecdh preHash nullDn serial rnd other = .ok c ↔ pre = .ok () ∧ ∃ k d r, key = .ok k ∧
      env.ski k = .ok d ∧
      checkExts env ⟨kid, none⟩ ⟨.template l, true, ecdh, preHash, .ok k, nullDn⟩ { other := other } = .ok r ∧
      c = ⟨serial.getD rnd, ⟨[2, 5, 29, 14], false, env.encSki d⟩ :: r⟩ := by
  have hoid : skiOid = [2, 5, 29, 14] := rfl
  unfold certFromTmpl mkSki
  rw [hoid]
  cases pre with
  | error e => simp
  | ok u =>
    cases key with
    | error e => simp
    | ok k =>
      dsimp only
      cases hd : env.ski k with
      | error e =>
        simp only [reduceCtorEq, true_and, false_iff]
        rintro ⟨k', d, r, h1, h2, -⟩
        cases h1
        rw [hd] at h2
        cases h2
      | ok d =>
        dsimp only
        cases hr : checkExts env ⟨kid, none⟩ ⟨.template l, true, ecdh, preHash, .ok k, nullDn⟩ { other := other } with
        | error e =>
          simp only [reduceCtorEq, true_and, false_iff]
          rintro ⟨k', d, r, h1, h2, h3, -⟩
          cases h1
          rw [hr] at h3
          cases h3
        | ok r =>
          constructor
          · intro h
            cases h
            exact ⟨rfl, k, d, r, rfl, hd, hr, rfl⟩
          · rintro ⟨-, k', d', r', h1, h2, h3, rfl⟩
            cases h1
            rw [hd] at h2
            cases h2
            rw [hr] at h3
            cases h3
            rfl

/-- **C170 (extensions of the certificate).** A certificate is issued exactly if the template is acceptable, and the certificate
has one subject key identifier more than the extensions of the template and of the CA: so no two extensions are of the same
kind exactly if neither of them has an identifier of the subject key. -/
theorem C170_certificate_partial (env : ExtEnv K G N) (kid : Except PyErr (List UInt8)) (pre : Except PyErr Unit) (l : List Ext)
    (key : Except PyErr K) (ecdh preHash nullDn : Bool) (serial : Option Int) (rnd : Int) (other : List Ext) (c : XCert)
    (ho : OneOfEach other) (h : certFromTmpl env kid pre l key ecdh preHash nullDn serial rnd other = .ok c) :
    (∃ k d, key = .ok k ∧ env.ski k = .ok d ∧
      Acceptable env ⟨kid, none⟩ ⟨.template l, true, ecdh, preHash, .ok k, nullDn⟩ { other := other } l k ∧
      ∀ e, e ∈ c.exts ↔ e = ⟨[2, 5, 29, 14], false, env.encSki d⟩ ∨ Answer env ⟨kid, none⟩ nullDn l e ∨
        (e ∈ other ∧ (e.oid ∈ checkedKinds → NoExt l e.oid))) ∧
    (OneOfEach c.exts ↔ NoExt l [2, 5, 29, 14] ∧ NoExt other [2, 5, 29, 14]) := by
  obtain ⟨-, k, d, r, rfl, hd, hr, rfl⟩ := certFromTmpl_ok.1 h
  obtain ⟨hn, hm⟩ := C170_members env _ _ _ l r rfl ho hr
  refine ⟨⟨k, d, rfl, hd, (C170_accepted_iff env _ _ _ l k rfl rfl).1 ⟨r, hr⟩, fun e => ?_⟩, ?_⟩
  · rw [List.mem_cons, hm]
  · show ((_ :: r).map (fun e => e.oid)).Nodup ↔ _
    rw [List.map_cons, List.nodup_cons]
    constructor
    · rintro ⟨h1, -⟩
      have hl : NoExt l [2, 5, 29, 14] := by
        apply Classical.byContradiction
        intro hh
        obtain ⟨e, he⟩ := not_no_first hh
        exact h1 (List.mem_map.2 ⟨e, (hm e).2 (.inl (.ski e he)), he.oid⟩)
      refine ⟨hl, fun x hx ho => h1 (List.mem_map.2 ⟨x, (hm x).2 (.inr ⟨hx, fun _ => ?_⟩), ho⟩)⟩
      rw [ho]
      exact hl
    · rintro ⟨h1, h2⟩
      refine ⟨fun hh => ?_, hn⟩
      obtain ⟨e, he, ho⟩ := List.mem_map.1 hh
      rcases (hm e).1 he with h | ⟨h, -⟩
      · cases h with
        | usage x hd => exact absurd ho (by show [2, 5, 29, 15] ≠ [2, 5, 29, 14]; decide)
        | ski _ hf => exact hf.not_no h1
        | aki d hn hd => exact absurd ho (by show [2, 5, 29, 35] ≠ [2, 5, 29, 14]; decide)
        | eku _ hf => rw [hf.oid] at ho; exact absurd ho (by show [2, 5, 29, 37] ≠ [2, 5, 29, 14]; decide)
        | basic _ hf => rw [hf.oid] at ho; exact absurd ho (by show [2, 5, 29, 19] ≠ [2, 5, 29, 14]; decide)
        | san g hd => exact absurd ho (by show [2, 5, 29, 17] ≠ [2, 5, 29, 14]; decide)
      · exact h2 e h ho

/-- **C170 (two extensions of the same kind).** A template with the identifier of its key, as required by a client that follows
RFC 5280, gets a certificate with two identifiers. -/
theorem C170_duplicate_refuted (env : ExtEnv K G N) (kid : Except PyErr (List UInt8)) (pre : Except PyErr Unit) (l : List Ext)
    (key : Except PyErr K) (ecdh preHash nullDn : Bool) (serial : Option Int) (rnd : Int) (other : List Ext) (c : XCert)
    (ho : OneOfEach other) (hl : ¬ NoExt l [2, 5, 29, 14])
    (h : certFromTmpl env kid pre l key ecdh preHash nullDn serial rnd other = .ok c) : ¬ OneOfEach c.exts :=
  fun hh => hl ((C170_certificate_partial env kid pre l key ecdh preHash nullDn serial rnd other c ho h).2.1 hh).1

/-- **C170 (the extensions of the CA).** "`other_extensions` are used to override the extensions in the certificate template": the
constraints, the usages and the names of the template override those of the CA. -/
theorem C170_override_refuted (env : ExtEnv K G N) (kid : Except PyErr (List UInt8)) (pre : Except PyErr Unit) (l : List Ext)
    (key : Except PyErr K) (ecdh preHash nullDn : Bool) (serial : Option Int) (rnd : Int) (other : List Ext) (c : XCert) (e : Ext)
    (ho : OneOfEach other) (he : FirstExt l [2, 5, 29, 19] e)
    (h : certFromTmpl env kid pre l key ecdh preHash nullDn serial rnd other = .ok c) :
    ∀ x, x ∈ c.exts ∧ x.oid = [2, 5, 29, 19] ↔ x = e := by
  obtain ⟨⟨k, d, -, -, -, hm⟩, -⟩ := C170_certificate_partial env kid pre l key ecdh preHash nullDn serial rnd other c ho h
  intro x
  constructor
  · rintro ⟨hx, hxo⟩
    rcases (hm x).1 hx with rfl | h | ⟨h, hh⟩
    · exact absurd hxo (by show [2, 5, 29, 14] ≠ [2, 5, 29, 19]; decide)
    · cases h with
      | usage x hd => exact absurd hxo (by show [2, 5, 29, 15] ≠ [2, 5, 29, 19]; decide)
      | ski _ hf => rw [hf.oid] at hxo; exact absurd hxo (by decide)
      | aki d hn hd => exact absurd hxo (by show [2, 5, 29, 35] ≠ [2, 5, 29, 19]; decide)
      | eku _ hf => rw [hf.oid] at hxo; exact absurd hxo (by decide)
      | basic _ hf => exact hf.unique he
      | san g hd => exact absurd hxo (by show [2, 5, 29, 17] ≠ [2, 5, 29, 19]; decide)
    · rw [hxo] at hh
      exact absurd (hh (by decide)) he.not_no
  · rintro rfl
    exact ⟨(hm x).2 (.inr (.inl (.basic x he))), he.oid⟩

/-- **C170 (known extensions that are not looked at).** An extension of the template that is known, but is not one of the six that
are checked, is left out without an error, also if it is critical: the certificate has it only if the CA adds it. -/
theorem C170_dropped_refuted (env : ExtEnv K G N) (kid : Except PyErr (List UInt8)) (pre : Except PyErr Unit) (l : List Ext)
    (key : Except PyErr K) (ecdh preHash nullDn : Bool) (serial : Option Int) (rnd : Int) (other : List Ext) (c : XCert) (e : Ext)
    (ho : OneOfEach other) (h : certFromTmpl env kid pre l key ecdh preHash nullDn serial rnd other = .ok c)
    (he : e.oid ∉ checkedKinds) : e ∈ c.exts ↔ e ∈ other := by
  obtain ⟨⟨k, d, -, -, -, hm⟩, -⟩ := C170_certificate_partial env kid pre l key ecdh preHash nullDn serial rnd other c ho h
  rw [hm]
  constructor
  · rintro (rfl | h | ⟨h, -⟩)
    · exact absurd (by show [2, 5, 29, 14] ∈ checkedKinds; decide) he
    · exfalso
      cases h with
      | usage x hd => exact he (by show [2, 5, 29, 15] ∈ checkedKinds; decide)
      | ski _ hf => rw [hf.oid] at he; exact he (by decide)
      | aki d hn hd => exact he (by show [2, 5, 29, 35] ∈ checkedKinds; decide)
      | eku _ hf => rw [hf.oid] at he; exact he (by decide)
      | basic _ hf => rw [hf.oid] at he; exact he (by decide)
      | san g hd => exact he (by show [2, 5, 29, 17] ∈ checkedKinds; decide)
    · exact h
  · intro h
    exact .inr (.inr ⟨h, fun hh => absurd hh he⟩)

/-- **C173 (authority key identifier of the certificate).** Every certificate that is not self-signed must have one (RFC 5280,
4.2.1.1): without one in the template, and none of the CA, the certificate has none. -/
theorem C173_no_aki_refuted (env : ExtEnv K G N) (kid : Except PyErr (List UInt8)) (pre : Except PyErr Unit) (l : List Ext)
    (key : Except PyErr K) (ecdh preHash nullDn : Bool) (serial : Option Int) (rnd : Int) (other : List Ext) (c : XCert)
    (ho : OneOfEach other) (h : certFromTmpl env kid pre l key ecdh preHash nullDn serial rnd other = .ok c) :
    NoExt c.exts [2, 5, 29, 35] ↔ NoExt l [2, 5, 29, 35] ∧ NoExt other [2, 5, 29, 35] := by
  obtain ⟨⟨k, d, -, -, hacc, hm⟩, -⟩ := C170_certificate_partial env kid pre l key ecdh preHash nullDn serial rnd other c ho h
  constructor
  · intro hn
    have hl : NoExt l [2, 5, 29, 35] := by
      apply Classical.byContradiction
      intro hh
      obtain ⟨i, d, hd, hf⟩ := hacc.aki hh
      exact hn _ ((hm _).2 (.inr (.inl (.aki d hh hf.1)))) rfl
    refine ⟨hl, fun x hx hxo => hn x ((hm x).2 (.inr (.inr ⟨hx, fun _ => ?_⟩))) hxo⟩
    rw [hxo]
    exact hl
  · rintro ⟨h1, h2⟩ x hx hxo
    rcases (hm x).1 hx with rfl | h | ⟨h, hh⟩
    · exact absurd hxo (by show [2, 5, 29, 14] ≠ [2, 5, 29, 35]; decide)
    · cases h with
      | usage x hd => exact absurd hxo (by show [2, 5, 29, 15] ≠ [2, 5, 29, 35]; decide)
      | ski _ hf => rw [hf.oid] at hxo; exact absurd hxo (by decide)
      | aki d hn hd => exact hn h1
      | eku _ hf => rw [hf.oid] at hxo; exact absurd hxo (by decide)
      | basic _ hf => rw [hf.oid] at hxo; exact absurd hxo (by decide)
      | san g hd => exact absurd hxo (by show [2, 5, 29, 17] ≠ [2, 5, 29, 35]; decide)
    · exact h2 x h hxo

/-- **C173 (issuer and serial number of the CA).** An identifier of the CA with its name or its serial number is rejected in every
template, also if it is correct. -/
theorem C173_aki_issuer_refuted (env : ExtEnv K G N) (kid : Except PyErr (List UInt8)) (pre : Except PyErr Unit) (l : List Ext)
    (key : Except PyErr K) (ecdh preHash nullDn : Bool) (serial : Option Int) (rnd : Int) (other : List Ext) (i : Aki G)
    (hi : Decodes env.decAki l [2, 5, 29, 35] i) (hx : i.issuer ≠ none ∨ i.serial ≠ none) :
    ∃ e, certFromTmpl env kid pre l key ecdh preHash nullDn serial rnd other = .error e := by
  cases h : certFromTmpl env kid pre l key ecdh preHash nullDn serial rnd other with
  | error e => exact ⟨e, rfl⟩
  | ok c =>
    obtain ⟨-, k, d, r, rfl, hd, hr, rfl⟩ := certFromTmpl_ok.1 h
    have hacc := (C170_accepted_iff env _ _ _ l k rfl rfl).1 ⟨r, hr⟩
    have hi' := tryDecode_some.2 hi
    obtain ⟨e, he, -⟩ := hi
    obtain ⟨i', d', hi2, -, -, hf⟩ := hacc.aki he.not_no
    rw [tryDecode_some.2 hi2] at hi'
    cases hi'
    exact (hx.elim (fun h => h hf.1) (fun h => h hf.2)).elim

/-- **C170 (serial number).** "Serial numbers are assigned by the CA" (RFC 4211, 5: the field must be left out): the serial number
of the template is taken. -/
theorem C170_serial_refuted (env : ExtEnv K G N) (kid : Except PyErr (List UInt8)) (pre : Except PyErr Unit) (l : List Ext)
    (key : Except PyErr K) (ecdh preHash nullDn : Bool) (n rnd : Int) (other : List Ext) (c : XCert)
    (h : certFromTmpl env kid pre l key ecdh preHash nullDn (some n) rnd other = .ok c) : c.serial = n := by
  obtain ⟨-, k, d, r, rfl, hd, hr, rfl⟩ := certFromTmpl_ok.1 h
  rfl

/-- **C170 (serial number).** Without one, it is the random one. -/
theorem C170_serial (env : ExtEnv K G N) (kid : Except PyErr (List UInt8)) (pre : Except PyErr Unit) (l : List Ext)
    (key : Except PyErr K) (ecdh preHash nullDn : Bool) (rnd : Int) (other : List Ext) (c : XCert)
    (h : certFromTmpl env kid pre l key ecdh preHash nullDn none rnd other = .ok c) : c.serial = rnd := by
  obtain ⟨-, k, d, r, rfl, hd, hr, rfl⟩ := certFromTmpl_ok.1 h
  rfl

/-- **C170 (PKCS#10 requests with extensions).** A PKCS#10 request with extensions is never accepted, if its extensions are to be
included. -/
theorem C170_csr_refuted (env : ExtEnv K G N) (ca : AkiCa N) (s : Src K) (k : K) (other : List Ext) (ski : Bool) (e : Ext)
    (l : List Ext) (hs : s.exts = .csr (some (e :: l))) : ∃ x, csrExts env ca s k other true ski = .error x := by
  have hp : s.exts.parse = some (e :: l) := by rw [hs]; rfl
  show ∃ x, (if true = true then _ else _) = Except.error x
  rw [if_pos rfl]
  cases h : checkExts env ca s { other := other, allowNonCrit := false } with
  | error x => exact ⟨x, rfl⟩
  | ok r =>
    obtain ⟨-, -, v, hv, -⟩ := (checkExts_ok hp).1 h
    obtain ⟨u, k, a, x, b, g, h1, h2, h3, -⟩ := verifyAll_ok.1 hv
    unfold verifyAki at h3
    rw [hp, hs] at h3
    cases h3

/-- **C170 (PKCS#10 requests without extensions).** A request without extensions is accepted only if the key can be loaded, it
has a subject, and the key of the CA has an identifier; the certificate gets this identifier and the extensions of the CA. -/
theorem C170_csr_none (env : ExtEnv K G N) (ca : AkiCa N) (s : Src K) (k : K) (other r : List Ext) (ski : Bool)
    (hs : s.exts = .csr none ∨ s.exts = .csr (some [])) (ho : OneOfEach other) :
    csrExts env ca s k other true ski = .ok r → (∃ key, s.key = .ok key) ∧ s.nullDn = false ∧ ∃ d, ca.kid = .ok d ∧ OneOfEach r ∧
      ∀ e, e ∈ r ↔ e = ⟨[2, 5, 29, 35], false, env.encAki d⟩ ∨ (e ∈ other ∧ e.oid ≠ [2, 5, 29, 35]) := by
  have hp : s.exts.parse = none := by rcases hs with hs | hs <;> rw [hs] <;> rfl
  intro h
  change (if true = true then _ else _) = Except.ok r at h
  rw [if_pos rfl] at h
  unfold checkExts at h
  rw [hp, if_neg (by simp [unknownExts])] at h
  unfold checkLogic at h
  rw [hp] at h
  dsimp only at h
  cases hv : verifyAll env ca s false with
  | error e => rw [hv] at h; cases h
  | ok v =>
    rw [hv] at h
    cases h
    obtain ⟨u, ki, a, x, b, g, h1, h2, h3, h4, h5, h6, rfl⟩ := verifyAll_ok.1 hv
    unfold verifyUsage at h1
    unfold verifySki at h2
    unfold verifyAki at h3
    unfold verifyEku at h4
    unfold verifyBasic at h5
    unfold verifySan at h6
    rw [hp] at h1 h2 h3 h4 h5 h6
    dsimp only at h1 h3 h4 h5 h6
    cases h1
    cases h4
    cases h5
    obtain ⟨d, hd, rfl⟩ := mkAki_ok.1 h3
    cases hk : s.key with
    | error e => rw [hk] at h2; cases h2
    | ok key =>
      rw [hk] at h2
      cases h2
      cases hn : s.nullDn with
      | true => rw [hn] at h6; cases h6
      | false =>
        rw [hn] at h6
        cases h6
        have hkv : Keyed [([2, 5, 29, 15], none), ([2, 5, 29, 14], none),
            ([2, 5, 29, 35], some ⟨[2, 5, 29, 35], false, env.encAki d⟩), ([2, 5, 29, 37], none), ([2, 5, 29, 19], none),
            ([2, 5, 29, 17], none)] := by
          intro o e hm
          simp only [List.mem_cons, Prod.mk.injEq, reduceCtorEq, and_false, false_or, List.not_mem_nil, or_false,
            Option.some.injEq] at hm
          obtain ⟨rfl, rfl⟩ := hm
          rfl
        have hnd : [[2, 5, 29, 15], [2, 5, 29, 14], [2, 5, 29, 35], [2, 5, 29, 37], [2, 5, 29, 19], [2, 5, 29, 17]].Nodup := by
          decide
        refine ⟨⟨key, rfl⟩, rfl, d, hd, mergeExts_nodup ho hkv hnd, fun e => ?_⟩
        rw [mergeExts_mem ho hkv hnd]
        simp only [List.mem_cons, Prod.mk.injEq, reduceCtorEq, and_false, false_or, List.not_mem_nil, or_false,
          Option.some.injEq, exists_eq_left]
        refine or_congr_right (and_congr_right (fun _ => ?_))
        constructor
        · exact fun hh ho => hh _ _ ⟨rfl, rfl⟩ ho.symm
        · rintro hh o e' ⟨rfl, rfl⟩ ho
          exact hh ho.symm

/-! ## Key usage and CA certificates -/

/-- **C171 (encipherOnly and decipherOnly).** RFC 5480, 3 and RFC 8410, 5 allow both of them with `keyAgreement`: no usage with one
of them is accepted for an EC or an X25519 or X448 key. -/
theorem C171_encipher_refuted (ecdh : Bool) (c : UseCls) (x : List Bool) (hc : c = .ec ∨ c = .xdh) (hx : Bit x 7 ∨ Bit x 8) :
    ∃ e, usesFor ecdh c (usesFrom useOrder x) = .error e := by
  cases h : usesFor ecdh c (usesFrom useOrder x) with
  | error e => exact ⟨e, rfl⟩
  | ok u =>
    have hf := (C171_uses_iff ecdh c x).1 h
    exfalso
    rcases hc with rfl | rfl
    · rcases hx with hx | hx
      · exact absurd (hf.2 7 (by decide) hx) (by decide)
      · exact absurd (hf.2 8 (by decide) hx) (by decide)
    · rcases hx with hx | hx
      · exact absurd (hf.2 7 (by decide) hx) (by decide)
      · exact absurd (hf.2 8 (by decide) hx) (by decide)

/-- **C171 (id-ecDH and id-ecMQV).** No usage is accepted for a traditional key with one of these algorithms, also not
`keyAgreement` alone. -/
theorem C171_ecdh_refuted (c : UseCls) (x : List Bool) (hc : c ≠ .kem ∧ c ≠ .namedSig) :
    ∃ e, usesFor true c (usesFrom useOrder x) = .error e := by
  cases h : usesFor true c (usesFrom useOrder x) with
  | error e => exact ⟨e, rfl⟩
  | ok u =>
    have hf := (C171_uses_iff true c x).1 h
    exfalso
    cases c with
    | kem => exact hc.1 rfl
    | namedSig => exact hc.2 rfl
    | named => exact hf
    | unmapped => exact hf
    | edDsa => cases hf.1
    | ec => cases hf.1
    | rsa => cases hf
    | xdh => cases hf.1

/-- **C171 (RSA).** Every usage is accepted for an RSA key, also none. -/
theorem C171_rsa (x : List Bool) : usesFor false .rsa (usesFrom useOrder x) = .ok () := (C171_uses_iff _ _ _).2 rfl

/-- **C171 (key usage of the certificate).** The key usage of the certificate, if it is from the template, is critical and fits
the key. -/
theorem C171_certificate (env : ExtEnv K G N) (kid : Except PyErr (List UInt8)) (pre : Except PyErr Unit) (l : List Ext)
    (key : Except PyErr K) (ecdh preHash nullDn : Bool) (serial : Option Int) (rnd : Int) (other : List Ext) (c : XCert)
    (ho : OneOfEach other) (hl : ¬ NoExt l [2, 5, 29, 15])
    (h : certFromTmpl env kid pre l key ecdh preHash nullDn serial rnd other = .ok c) :
    ∃ k x, key = .ok k ∧ Decodes env.decUsage l [2, 5, 29, 15] x ∧ UsageFine ecdh (env.cls k) x ∧
      ∀ e, e ∈ c.exts ∧ e.oid = [2, 5, 29, 15] ↔ e = ⟨[2, 5, 29, 15], true, env.encUses (bitUses x)⟩ := by
  obtain ⟨⟨k, d, hk, -, hacc, hm⟩, -⟩ := C170_certificate_partial env kid pre l key ecdh preHash nullDn serial rnd other c ho h
  obtain ⟨-, x, hx, hf⟩ := hacc.usage hl
  refine ⟨k, x, hk, hx, hf, fun e => ?_⟩
  constructor
  · rintro ⟨he, heo⟩
    rcases (hm e).1 he with rfl | h | ⟨h, hh⟩
    · exact absurd heo (by show [2, 5, 29, 14] ≠ [2, 5, 29, 15]; decide)
    · cases h with
      | usage x' hd =>
        have := tryDecode_some.2 hd
        rw [tryDecode_some.2 hx] at this
        cases this
        rfl
      | ski _ hf => rw [hf.oid] at heo; exact absurd heo (by decide)
      | aki d hn hd => exact absurd heo (by show [2, 5, 29, 35] ≠ [2, 5, 29, 15]; decide)
      | eku _ hf => rw [hf.oid] at heo; exact absurd heo (by decide)
      | basic _ hf => rw [hf.oid] at heo; exact absurd heo (by decide)
      | san g hd => exact absurd heo (by show [2, 5, 29, 17] ≠ [2, 5, 29, 15]; decide)
    · rw [heo] at hh
      exact absurd (hh (by decide)) hl
  · rintro rfl
    exact ⟨(hm _).2 (.inr (.inl (.usage x hx))), rfl⟩

/-- **C172 (path length of a CA).** RFC 5280, 4.2.1.9: a path length of zero is the usual one of a CA that issues to end entities.
A request for it is rejected. -/
theorem C172_pathlen_refuted (b : Basic) (hb : b.ca = true) (hp : b.pathLen = some 0) : pathOk b = .error .badCertTemplate := by
  obtain ⟨ca, p⟩ := b
  cases hb
  cases hp
  rfl

/-- **C172 (path length of an end entity).** "CAs MUST NOT include the pathLenConstraint field unless the cA boolean is asserted": a
path length of zero, or a negative one, is accepted for an end entity. -/
theorem C172_ee_pathlen_refuted (b : Basic) (hb : b.ca = false) (n : Int) (hn : n ≤ 0) (hp : b.pathLen = some n) :
    pathOk b = .ok () := by
  rw [pathOk_ok]
  intro m hm
  rw [hp] at hm
  cases hm
  exact ⟨fun h => (by rw [hb] at h; cases h), fun _ => hn⟩

/-- **C172 (signing certificates and CRLs).** The test of `for_ee` is the wrong way round: for a CA (`for_ee=False`) the usages to
sign certificates or CRLs are rejected. -/
theorem C172_for_ca_refuted (env : ExtEnv K G N) (ca : AkiCa N) (s : Src K) (a : ExtArgs) (l : List Ext) (x : List Bool)
    (hs : s.exts = .template l) (ha : a.forEe = some false) (hx : Decodes env.decUsage l [2, 5, 29, 15] x)
    (hb : Bit x 5 ∨ Bit x 6) : ∃ e, checkExts env ca s a = .error e := by
  cases h : checkExts env ca s a with
  | error e => exact ⟨e, rfl⟩
  | ok r =>
    have hp : s.exts.parse = some l := by rw [hs]; rfl
    obtain ⟨-, h2, v, h3, -⟩ := (checkExts_ok hp).1 h
    obtain ⟨u, k, ai, y, b, g, g1, g2, -⟩ := verifyAll_ok.1 h3
    have hkey : ∃ key, s.key = .ok key := by
      cases hk : s.key with
      | ok key => exact ⟨key, rfl⟩
      | error e => unfold verifySki at g2; rw [hk] at g2; cases g2
    obtain ⟨key, hkey⟩ := hkey
    have hacc := (C170_accepted_iff env ca s a l key hs hkey).1 ⟨r, h⟩
    have := (hacc.logic.1 x hx).1 ha
    exact (hb.elim this.1 this.2).elim

/-- **C172 (signing certificates).** With a key usage in the template, an end entity (`for_ee=True`) is treated as without the
option. -/
theorem C172_for_ee_refuted (env : ExtEnv K G N) (ca : AkiCa N) (s : Src K) (a : ExtArgs) (l : List Ext) (k : K)
    (hs : s.exts = .template l) (hk : s.key = .ok k) (hl : ¬ NoExt l [2, 5, 29, 15]) :
    (∃ r, checkExts env ca s { a with forEe := some true } = .ok r) ↔ ∃ r, checkExts env ca s { a with forEe := none } = .ok r := by
  rw [C170_accepted_iff env ca s _ l k hs hk, C170_accepted_iff env ca s _ l k hs hk]
  constructor
  · intro h
    exact ⟨h.known, ⟨fun x hx => ⟨fun h => (by cases h), (h.logic.1 x hx).2⟩, fun hn => absurd hn hl⟩, h.usage, h.ski, h.aki, h.eku,
      h.basic, h.san, h.named⟩
  · intro h
    exact ⟨h.known, ⟨fun x hx => ⟨fun h => (by cases h), (h.logic.1 x hx).2⟩, fun hn => absurd hn hl⟩, h.usage, h.ski, h.aki, h.eku,
      h.basic, h.san, h.named⟩

/-- **C172 (signing certificates).** A certificate from a template with both extensions may sign certificates only if it is one of
a CA. -/
theorem C172_cert_sign_partial (env : ExtEnv K G N) (kid : Except PyErr (List UInt8)) (pre : Except PyErr Unit) (l : List Ext)
    (key : Except PyErr K) (ecdh preHash nullDn : Bool) (serial : Option Int) (rnd : Int) (other : List Ext) (c : XCert)
    (x : List Bool) (b : Basic) (hx : Decodes env.decUsage l [2, 5, 29, 15] x) (hb : Decodes env.decBasic l [2, 5, 29, 19] b)
    (h : certFromTmpl env kid pre l key ecdh preHash nullDn serial rnd other = .ok c) (h5 : Bit x 5) : b.ca = true := by
  obtain ⟨-, k, d, r, rfl, hd, hr, rfl⟩ := certFromTmpl_ok.1 h
  have hacc := (C170_accepted_iff env _ _ _ l k rfl rfl).1 ⟨r, hr⟩
  exact (hacc.logic.1 x hx).2 b hb h5

/-! ## Examples -/

/-- An environment for the examples: the values are the bits, the two components, and the identifier. -/
def exExt : ExtEnv UseCls Nat Nat where
  cls := id
  decUsage v := some (v.map (fun b => decide (b = 1)), [])
  decAki v := match v with
    | [] => some (⟨none, none, none⟩, [])
    | 0 :: d => some (⟨some d, none, none⟩, [])
    | _ :: d => some (⟨some d, some 5, some 9⟩, [])
  decEku _ := some ((), [])
  decBasic v := match v with
    | [] => some (⟨false, none⟩, [])
    | [b] => some (⟨decide (b = 1), none⟩, [])
    | b :: n :: rest => some (⟨decide (b = 1), some n.toNat⟩, rest)
  decSan v := some (v.length, [])
  decSki v := some (v, [])
  encUses l := l.map (fun u => UInt8.ofNat u.bit)
  encAki d := 0 :: d
  encSan g := List.replicate g 4
  encSki d := d
  ski _ := .ok [7, 7]
  hasName g n := decide (g = n)

/-- A template for an end entity: signatures, an extended key usage and alternative names. -/
def exEe : List Ext := [⟨[2, 5, 29, 15], false, [1]⟩, ⟨[2, 5, 29, 37], false, [3]⟩, ⟨[2, 5, 29, 17], true, [4]⟩]

/-- The certificate of the template, with an extension of the CA. -/
example : certFromTmpl exExt (.ok [8]) (.ok ()) exEe (.ok .ec) false false false none 77 [⟨[2, 5, 29, 31], false, [6]⟩] =
    .ok ⟨77, [⟨[2, 5, 29, 14], false, [7, 7]⟩, ⟨[2, 5, 29, 15], true, [0]⟩, ⟨[2, 5, 29, 37], false, [3]⟩,
      ⟨[2, 5, 29, 17], false, [4]⟩, ⟨[2, 5, 29, 31], false, [6]⟩]⟩ := by decide +kernel

/-- **C172 (CA certificates).** A template can ask for a certificate of a CA; nobody looks at who asks. The constraints need not be
critical ("Conforming CAs MUST mark the extension as critical", RFC 5280, 4.2.1.9). -/
theorem C172_ca_refuted : ∃ (l : List Ext) (c : XCert),
    certFromTmpl exExt (.ok [8]) (.ok ()) l (.ok .ec) false false false none 77 [] = .ok c ∧
    ⟨[2, 5, 29, 19], false, [1]⟩ ∈ c.exts ∧ ⟨[2, 5, 29, 15], true, [5]⟩ ∈ c.exts ∧ exExt.decBasic [1] = some (⟨true, none⟩, []) :=
  ⟨[⟨[2, 5, 29, 15], true, [0, 0, 0, 0, 0, 1]⟩, ⟨[2, 5, 29, 19], false, [1]⟩], _, rfl, by decide, by decide, rfl⟩

/-- **C171 (keyCertSign without constraints).** "If the keyCertSign bit is asserted, then the cA bit in the basic constraints
extension MUST also be asserted" (RFC 5280, 4.2.1.3): a certificate with this usage and without constraints is issued. -/
theorem C171_cert_sign_refuted : ∃ (l : List Ext) (c : XCert),
    certFromTmpl exExt (.ok [8]) (.ok ()) l (.ok .ec) false false false none 77 [] = .ok c ∧
    ⟨[2, 5, 29, 15], true, [5]⟩ ∈ c.exts ∧ NoExt c.exts [2, 5, 29, 19] :=
  ⟨[⟨[2, 5, 29, 15], true, [0, 0, 0, 0, 0, 1]⟩], _, rfl, by decide, by unfold NoExt; decide⟩

/-- A critical extension that is known and not looked at is left out. -/
example : certFromTmpl exExt (.ok [8]) (.ok ()) [⟨[2, 5, 29, 18], true, [1]⟩] (.ok .rsa) false false false none 77 [] =
    .ok ⟨77, [⟨[2, 5, 29, 14], false, [7, 7]⟩]⟩ := by decide +kernel

/-- An unknown extension is rejected. -/
example : certFromTmpl exExt (.ok [8]) (.ok ()) [⟨[1, 2], false, [1]⟩] (.ok .rsa) false false false none 77 [] =
    .error .badCertTemplate := by decide +kernel

/-- Two identifiers of the subject key. -/
example : certFromTmpl exExt (.ok [8]) (.ok ()) [⟨[2, 5, 29, 14], false, [7, 7]⟩] (.ok .rsa) false false false (some 5) 77 [] =
    .ok ⟨5, [⟨[2, 5, 29, 14], false, [7, 7]⟩, ⟨[2, 5, 29, 14], false, [7, 7]⟩]⟩ := by decide +kernel

/-- The identifier of the CA. -/
example : certFromTmpl exExt (.ok [8]) (.ok ()) [⟨[2, 5, 29, 35], true, [0, 8]⟩] (.ok .rsa) false false false none 77 [] =
    .ok ⟨77, [⟨[2, 5, 29, 14], false, [7, 7]⟩, ⟨[2, 5, 29, 35], false, [0, 8]⟩]⟩ := by decide +kernel

/-- An identifier of another CA, and one with a name and a serial number. -/
example : certFromTmpl exExt (.ok [8]) (.ok ()) [⟨[2, 5, 29, 35], true, [0, 9]⟩] (.ok .rsa) false false false none 77 [] =
    .error .badCertTemplate ∧
    certFromTmpl exExt (.ok [8]) (.ok ()) [⟨[2, 5, 29, 35], true, [1, 8]⟩] (.ok .rsa) false false false none 77 [] =
    .error .valueError := by decide +kernel

/-- An empty subject needs alternative names, and they are critical. -/
example : certFromTmpl exExt (.ok [8]) (.ok ()) [] (.ok .rsa) false false true none 77 [⟨[2, 5, 29, 17], true, [4]⟩] =
    .error .badCertTemplate ∧
    certFromTmpl exExt (.ok [8]) (.ok ()) [⟨[2, 5, 29, 17], false, [4]⟩] (.ok .rsa) false false true none 77 [] =
    .ok ⟨77, [⟨[2, 5, 29, 14], false, [7, 7]⟩, ⟨[2, 5, 29, 17], true, [4]⟩]⟩ := by decide +kernel

/-- The constraints of the template win against those of the CA. -/
example : certFromTmpl exExt (.ok [8]) (.ok ()) [⟨[2, 5, 29, 19], false, [1]⟩] (.ok .rsa) false false false none 77
    [⟨[2, 5, 29, 19], true, [0]⟩] = .ok ⟨77, [⟨[2, 5, 29, 14], false, [7, 7]⟩, ⟨[2, 5, 29, 19], false, [1]⟩]⟩ := by decide +kernel

/-- A CA with a path length of zero, and one of one. -/
example : certFromTmpl exExt (.ok [8]) (.ok ()) [⟨[2, 5, 29, 19], true, [1, 0]⟩] (.ok .rsa) false false false none 77 [] =
    .error .badCertTemplate ∧
    certFromTmpl exExt (.ok [8]) (.ok ()) [⟨[2, 5, 29, 19], true, [1, 1]⟩] (.ok .rsa) false false false none 77 [] =
    .ok ⟨77, [⟨[2, 5, 29, 14], false, [7, 7]⟩, ⟨[2, 5, 29, 19], true, [1, 1]⟩]⟩ := by decide +kernel

/-- PKCS#10 requests: with extensions, and without. -/
example : csrExts exExt ⟨.ok [8], some (5, 9)⟩ ⟨.csr (some exEe), true, false, false, .ok .ec, false⟩ .ec [] true true =
    .error .keyError ∧
    csrExts exExt ⟨.ok [8], some (5, 9)⟩ ⟨.csr none, true, false, false, .ok .ec, false⟩ .ec [⟨[2, 5, 29, 31], false, [6]⟩] true true =
    .ok [⟨[2, 5, 29, 35], false, [0, 8]⟩, ⟨[2, 5, 29, 31], false, [6]⟩] ∧
    csrExts exExt ⟨.ok [8], some (5, 9)⟩ ⟨.csr none, true, false, false, .ok .ec, false⟩ .ec [⟨[2, 5, 29, 31], false, [6]⟩] false true =
    .ok [⟨[2, 5, 29, 31], false, [6]⟩, ⟨[2, 5, 29, 14], false, [7, 7]⟩] := by decide +kernel

/-- For a CA the usage to sign certificates is rejected, for an end entity it is accepted. -/
example : checkExts exExt ⟨.ok [8], none⟩
      ⟨.template [⟨[2, 5, 29, 15], true, [0, 0, 0, 0, 0, 1]⟩, ⟨[2, 5, 29, 19], true, [1]⟩], true, false, false, .ok .ec, false⟩
      { forEe := some false } = .error .badCertTemplate ∧
    checkExts exExt ⟨.ok [8], none⟩
      ⟨.template [⟨[2, 5, 29, 15], true, [0, 0, 0, 0, 0, 1]⟩, ⟨[2, 5, 29, 19], true, [1]⟩], true, false, false, .ok .ec, false⟩
      { forEe := some true } = .ok [⟨[2, 5, 29, 15], true, [5]⟩, ⟨[2, 5, 29, 19], true, [1]⟩] := by decide +kernel

/-- Usages: keyAgreement for X25519, not with encipherOnly; none for a KEM key. -/
example : usesFor false .xdh [.keyAgreement] = .ok () ∧ usesFor false .xdh [.keyAgreement, .encipherOnly] = .error .badCertTemplate ∧
    usesFor false .kem [] = .error .badCertTemplate ∧ usesFor true .ec [.keyAgreement] = .error .valueError := by decide +kernel

end Verif.Ra
