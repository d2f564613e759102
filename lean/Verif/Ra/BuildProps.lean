import Verif.Ra.Build
import Verif.Ra.SenderProps

/-!
# Properties of the messages which the client builds
-/

namespace Verif.Ra

open Verif.CA (PyErr Bytes ProtType)
open Verif.Check (Hdr Inner validateAddProtection validateNestedUnique)

variable {V C : Type}

/-! ## C191 -/

/-- `t` is one of the texts between the occurrences of `c` in `s`. -/
def Piece (c : Char) (s t : List Char) : Prop :=
  c ∉ t ∧ ∃ pre post, s = pre ++ t ++ post ∧ (pre = [] ∨ pre.getLast? = some c) ∧ (post = [] ∨ post.head? = some c)

theorem splitAt_ne_nil (c : Char) (s : List Char) : splitAt c s ≠ [] := by
  cases s with
  | nil => simp [splitAt]
  | cons x xs =>
    unfold splitAt
    split
    · simp
    · split <;> simp

theorem splitAt_head (c : Char) : ∀ (s p : List Char) (ps : List (List Char)), splitAt c s = p :: ps →
    c ∉ p ∧ ∃ post, s = p ++ post ∧ ((post = [] ∧ ps = []) ∨ ∃ r, post = c :: r ∧ ps = splitAt c r)
  | [], p, ps, h => by
    unfold splitAt at h
    obtain ⟨rfl, rfl⟩ := List.cons.inj h
    exact ⟨by simp, [], rfl, Or.inl ⟨rfl, rfl⟩⟩
  | x :: xs, p, ps, h => by
    unfold splitAt at h
    by_cases hx : x = c
    · rw [if_pos hx] at h
      obtain ⟨rfl, rfl⟩ := List.cons.inj h
      exact ⟨by simp, x :: xs, rfl, Or.inr ⟨xs, by rw [hx], rfl⟩⟩
    · rw [if_neg hx] at h
      cases hs : splitAt c xs with
      | nil => exact absurd hs (splitAt_ne_nil c xs)
      | cons q qs =>
        rw [hs] at h
        obtain ⟨rfl, rfl⟩ := List.cons.inj h
        obtain ⟨h1, post, h2, h3⟩ := splitAt_head c xs q qs hs
        refine ⟨?_, post, by rw [h2]; rfl, h3⟩
        simp only [List.mem_cons, not_or]
        exact ⟨fun e => hx e.symm, h1⟩

theorem splitAt_cons_free (c : Char) (p post : List Char) (hp : c ∉ p) : splitAt c (p ++ c :: post) = p :: splitAt c post := by
  induction p with
  | nil => simp [splitAt]
  | cons x xs ih =>
    simp only [List.mem_cons, not_or] at hp
    rw [List.cons_append, splitAt, if_neg (fun e => hp.1 e.symm), ih hp.2]

theorem splitAt_free (c : Char) (p : List Char) (hp : c ∉ p) : splitAt c p = [p] := by
  induction p with
  | nil => rfl
  | cons x xs ih =>
    simp only [List.mem_cons, not_or] at hp
    rw [splitAt, if_neg (fun e => hp.1 e.symm), ih hp.2]

theorem splitAt_append (c : Char) (pre r : List Char) : splitAt c (pre ++ c :: r) = splitAt c pre ++ splitAt c r := by
  induction pre with
  | nil => simp [splitAt]
  | cons x xs ih =>
    rw [List.cons_append, splitAt, ih]
    by_cases hx : x = c
    · rw [if_pos hx, splitAt, if_pos hx]
      rfl
    · rw [if_neg hx, splitAt, if_neg hx]
      cases hs : splitAt c xs with
      | nil => exact absurd hs (splitAt_ne_nil c xs)
      | cons q qs => rfl

theorem mem_splitAt_iff (c : Char) (s t : List Char) : t ∈ splitAt c s ↔ Piece c s t := by
  constructor
  · intro h
    have aux : ∀ (n : Nat) (s : List Char), s.length ≤ n → t ∈ splitAt c s → Piece c s t := by
      intro n
      induction n with
      | zero =>
        intro s hs h
        have : s = [] := List.length_eq_zero_iff.1 (by omega)
        subst this
        have : t = [] := by simpa [splitAt] using h
        subst this
        exact ⟨by simp, [], [], rfl, Or.inl rfl, Or.inl rfl⟩
      | succ n ih =>
        intro s hs h
        cases hsp : splitAt c s with
        | nil => exact absurd hsp (splitAt_ne_nil c s)
        | cons p ps =>
          obtain ⟨h1, post, h2, h3⟩ := splitAt_head c s p ps hsp
          rw [hsp] at h
          rcases List.mem_cons.1 h with rfl | h
          · refine ⟨h1, [], post, by simpa using h2, Or.inl rfl, ?_⟩
            rcases h3 with ⟨rfl, _⟩ | ⟨r, rfl, _⟩
            · exact Or.inl rfl
            · exact Or.inr rfl
          · rcases h3 with ⟨_, rfl⟩ | ⟨r, rfl, rfl⟩
            · cases h
            · have hl : r.length ≤ n := by
                rw [h2] at hs
                simp at hs
                omega
              obtain ⟨g1, pre', post', g2, g3, g4⟩ := ih r hl h
              refine ⟨g1, p ++ c :: pre', post', by rw [h2, g2]; simp, Or.inr ?_, g4⟩
              rcases g3 with rfl | g3
              · simp
              · rw [List.getLast?_append_of_ne_nil _ (by simp), List.getLast?_cons, g3]
                rfl
    exact aux s.length s (Nat.le_refl _) h
  · rintro ⟨h1, pre, post, rfl, h2, h3⟩
    have hin : ∀ post, (post = [] ∨ post.head? = some c) → t ∈ splitAt c (t ++ post) := by
      intro post h3
      rcases h3 with rfl | h3
      · rw [List.append_nil, splitAt_free c t h1]
        simp
      · cases post with
        | nil => cases h3
        | cons x r =>
          cases h3
          rw [splitAt_cons_free c t r h1]
          simp
    rcases h2 with rfl | h2
    · exact hin post h3
    · obtain ⟨q, rfl⟩ : ∃ q, pre = q ++ [c] := by
        rw [List.getLast?_eq_some_iff] at h2
        exact h2
      rw [List.append_assoc, List.append_assoc, List.singleton_append, splitAt_append]
      exact List.mem_append_right _ (hin post h3)

/-- The field is excluded. -/
def Excluded (a : MArgs V) (f : String) : Prop := f.toList ∈ excludeOf a.exclude

/-- **C191.** A field is excluded if and only if its exact name is one of the texts between the commas, where only blanks
at the two ends of the whole text do not count. -/
theorem C191_excluded_iff (a : MArgs V) (s : List Char) (hs : a.exclude = some s) (f : String) :
    Excluded a f ↔ Piece ',' (stripBlanks s) f.toList := by
  unfold Excluded excludeOf
  rw [hs]
  exact mem_splitAt_iff ',' _ _

/-- The fields of a header without MAC-based protection are those which are not excluded. -/
structure BuiltFields (a : MArgs V) (r1 r2 : Bytes) (now : Int) (h : FHdr V) : Prop where
  pvno : h.pvno = none ↔ Excluded a "pvno"
  sender : h.sender = none ↔ Excluded a "sender"
  recipient : h.recipient = none ↔ Excluded a "recipient"
  tid : h.tid = none ↔ Excluded a "transactionID"
  senderNonce : h.senderNonce = none ↔ Excluded a "senderNonce"
  recipNonce : h.recipNonce ≠ none ↔ ¬ Excluded a "recipNonce" ∧ ∃ n, a.recipNonce = some n ∧ n ≠ []
  time : h.time = none ↔ Excluded a "messageTime"
  senderKid : h.senderKid = none ↔ Excluded a "senderKID"
  recipKid : h.recipKid = none ↔ Excluded a "recipKID"
  freeText : h.freeText = none ↔ Excluded a "freeText"
  info : h.info ≠ [] ↔ ¬ Excluded a "generalInfo" ∧ a.implicit = true
  version : ∀ v, h.pvno = some v → a.pvno = some v ∨ (a.pvno = none ∧ v = if a.forKga then 3 else 2)
  givenTid : ∀ t u, h.tid = some t → a.tid = some u → u ≠ [] → t = u
  freshTid : ∀ t, h.tid = some t → (a.tid = none ∨ a.tid = some []) → t = r1
  givenNonce : ∀ t u, h.senderNonce = some t → a.senderNonce = some u → u ≠ [] → t = u
  freshNonce : ∀ t, h.senderNonce = some t → (a.senderNonce = none ∨ a.senderNonce = some []) → t = r2
  recip : ∀ t, h.recipNonce = some t → a.recipNonce = some t
  givenTime : ∀ t, h.time = some t → (a.time = some t ∨ (a.time = none ∧ t = now - 3))

theorem plain_none {α : Type} (ex : List (List Char)) (f : String) (v : α) : plain ex f (some v) = none ↔ f.toList ∈ ex := by
  unfold plain
  split
  · rename_i h; simp [h]
  · rename_i h; simp [h]

theorem field_none {α : Type} (ex : List (List Char)) (f : String) (v : Except PyErr α) (x : Option α)
    (h : field ex f v = .ok x) : x = none ↔ f.toList ∈ ex := by
  unfold field at h
  split at h
  · rename_i hf
    cases h
    simp [hf]
  · rename_i hf
    split at h
    · cases h
    · cases h
      simp [hf]

theorem plain_some {α : Type} {ex : List (List Char)} {f : String} {v : Option α} {x : α} (h : plain ex f v = some x) :
    v = some x := by
  unfold plain at h
  split at h
  · cases h
  · exact h

theorem orB_given {a : Option Bytes} {b u : Bytes} (h : a = some u) (hu : u ≠ []) : orB a b = u := by
  subst h
  cases u with
  | nil => exact absurd rfl hu
  | cons x l => rfl

theorem orB_fresh {a : Option Bytes} {b : Bytes} (h : a = none ∨ a = some []) : orB a b = b := by
  rcases h with rfl | rfl <;> rfl

theorem plainHeader_fields (env : BuildEnv V) (ie : InfoEnv) (dflt : Bytes × Bytes) (r1 r2 : Bytes) (now : Int) (a : MArgs V)
    (h : FHdr V) (hb : plainHeader env ie dflt r1 r2 now a = .ok h) : BuiltFields a r1 r2 now h := by
  unfold plainHeader at hb
  dsimp only at hb
  split at hb
  · cases hb
  rename_i sn hsn
  split at hb
  · cases hb
  rename_i rc hrc
  split at hb
  · cases hb
  rename_i kid hkid
  rw [← Except.ok.inj hb]
  refine ⟨plain_none _ _ _, field_none _ _ _ _ hsn, field_none _ _ _ _ hrc, plain_none _ _ _, plain_none _ _ _, ?_,
    plain_none _ _ _, field_none _ _ _ _ hkid, plain_none _ _ _, plain_none _ _ _, ?_, ?_, ?_, ?_, ?_, ?_, ?_, ?_⟩
  · dsimp only
    unfold plain nonEmpty Excluded
    by_cases hx : "recipNonce".toList ∈ excludeOf a.exclude
    · rw [if_pos hx]
      exact ⟨fun h => absurd rfl h, fun h => absurd hx h.1⟩
    · rw [if_neg hx]
      split
      · rename_i x l hr
        exact ⟨fun _ => ⟨hx, x :: l, hr, by simp⟩, fun _ => by simp⟩
      · rename_i hr
        refine ⟨fun h => absurd rfl h, ?_⟩
        rintro ⟨_, n, hn, hne⟩
        cases n with
        | nil => exact absurd rfl hne
        | cons x l => exact absurd hn (hr x l)
  · dsimp only
    unfold Excluded
    by_cases hx : "generalInfo".toList ∈ excludeOf a.exclude ∨ a.implicit = false
    · rw [if_pos hx]
      simp only [ne_eq, not_true_eq_false, false_iff, not_and]
      intro h1 h2
      rcases hx with hx | hx
      · exact h1 hx
      · rw [h2] at hx; cases hx
    · rw [if_neg hx]
      simp only [not_or, Bool.not_eq_false] at hx
      exact ⟨fun _ => hx, fun _ => by simp [prepGenInfo]⟩
  · intro v hv
    have := Option.some.inj (plain_some hv)
    unfold pvnoOf at this
    split at this
    · rename_i w hw
      exact Or.inl (by rw [hw, this])
    · rename_i hw
      exact Or.inr ⟨hw, this.symm⟩
  · intro t u ht hu hne
    rw [← Option.some.inj (plain_some ht), orB_given hu hne]
  · intro t ht hu
    rw [← Option.some.inj (plain_some ht), orB_fresh hu]
  · intro t u ht hu hne
    rw [← Option.some.inj (plain_some ht), orB_given hu hne]
  · intro t ht hu
    rw [← Option.some.inj (plain_some ht), orB_fresh hu]
  · intro t ht
    have := plain_some ht
    unfold nonEmpty at this
    split at this
    · rename_i x l hr
      rw [hr]
      exact this
    · cases this
  · intro t ht
    have := Option.some.inj (plain_some ht)
    cases hat : a.time with
    | none =>
      rw [hat] at this
      exact Or.inr ⟨rfl, this.symm⟩
    | some u =>
      rw [hat] at this
      exact Or.inl (by rw [← this]; rfl)

/-- **C191.** Without MAC-based protection the header has exactly the fields which are not excluded, with the values given
or fresh ones. -/
theorem C191_fields (env : BuildEnv V) (ie : InfoEnv) (dflt : Bytes × Bytes) (r1 r2 : Bytes) (now : Int) (a : MArgs V)
    (hm : a.forMac = false) (h : FHdr V) (hb : buildHeader env ie dflt r1 r2 now a = .ok h) : BuiltFields a r1 r2 now h := by
  unfold buildHeader at hb
  split at hb
  · cases hb
  rename_i h' hp
  rw [if_neg (by simp [hm])] at hb
  rw [← Except.ok.inj hb]
  exact plainHeader_fields env ie dflt r1 r2 now a h' hp

/-- **C191 refuted.** A blank after a comma is part of the name of the field, which is therefore not excluded. -/
theorem C191_blank_refuted (env : BuildEnv V) (ie : InfoEnv) (dflt : Bytes × Bytes) (r1 r2 : Bytes) (now : Int) (a : MArgs V)
    (hx : a.exclude = some "senderKID, senderNonce".toList) (hm : a.forMac = false) (h : FHdr V)
    (hb : buildHeader env ie dflt r1 r2 now a = .ok h) : h.senderNonce ≠ none ∧ h.senderKid = none := by
  have hf := C191_fields env ie dflt r1 r2 now a hm h hb
  refine ⟨fun hn => ?_, hf.senderKid.2 ?_⟩
  · have := hf.senderNonce.1 hn
    unfold Excluded at this
    rw [hx] at this
    exact absurd this (by decide)
  · unfold Excluded
    rw [hx]
    decide

theorem macPatch_ok {env : BuildEnv V} {a : MArgs V} {h h' : FHdr V} (hp : macPatch env a h = .ok h') :
    (∃ s, a.sender = .text s) ∧
    (¬ Excluded a "sender" → ∃ s d, a.sender = .text s ∧ env.dirName s = .ok d ∧ h'.sender = some (.dir d)) ∧
    (Excluded a "sender" → h'.sender = h.sender) ∧
    (¬ Excluded a "sender_kid" → ∃ d t, h'.sender = some (.dir d) ∧ opensslName env.text [idCn] d = .ok t ∧
      h'.senderKid = some (env.utf8 t)) ∧
    (Excluded a "sender_kid" → h'.senderKid = h.senderKid) ∧
    h' = { h with sender := h'.sender, senderKid := h'.senderKid } := by
  unfold macPatch at hp
  cases hs : a.sender with
  | name n => rw [hs] at hp; cases hp
  | text s =>
    rw [hs] at hp
    dsimp only at hp
    split at hp
    · cases hp
    rename_i sn hsn
    have hsend : (¬ Excluded a "sender" → ∃ d, env.dirName s = .ok d ∧ sn = some (.dir d)) ∧
        (Excluded a "sender" → sn = h.sender) := by
      unfold Excluded
      split at hsn
      · rename_i hx
        exact ⟨fun hn => absurd hx hn, fun _ => (Except.ok.inj hsn).symm⟩
      · rename_i hx
        refine ⟨fun _ => ?_, fun hn => absurd hn hx⟩
        split at hsn
        · cases hsn
        · rename_i d hd
          exact ⟨d, hd, (Except.ok.inj hsn).symm⟩
    by_cases hk : "sender_kid".toList ∈ excludeOf a.exclude
    · rw [if_pos hk] at hp
      rw [← Except.ok.inj hp]
      refine ⟨⟨s, rfl⟩, fun hn => ?_, hsend.2, fun hn => absurd hk hn, fun _ => rfl, rfl⟩
      obtain ⟨d, hd, h2⟩ := hsend.1 hn
      exact ⟨s, d, rfl, hd, h2⟩
    · rw [if_neg hk] at hp
      split at hp
      · cases hp
      rename_i k hkk
      rw [← Except.ok.inj hp]
      refine ⟨⟨s, rfl⟩, fun hn => ?_, hsend.2, fun _ => ?_, fun hn => absurd hn hk, rfl⟩
      · obtain ⟨d, hd, h2⟩ := hsend.1 hn
        exact ⟨s, d, rfl, hd, h2⟩
      · unfold kidOfSender at hkk
        split at hkk
        · rename_i d
          split at hkk
          · cases hkk
          rename_i t ht
          exact ⟨d, t, rfl, ht, by rw [← Except.ok.inj hkk]⟩
        · cases hkk

theorem buildHeader_mac {env : BuildEnv V} {ie : InfoEnv} {dflt : Bytes × Bytes} {r1 r2 : Bytes} {now : Int} {a : MArgs V}
    (hm : a.forMac = true) {h : FHdr V} (hb : buildHeader env ie dflt r1 r2 now a = .ok h) :
    ∃ h0, plainHeader env ie dflt r1 r2 now a = .ok h0 ∧ macPatch env a h0 = .ok h := by
  unfold buildHeader at hb
  split at hb
  · cases hb
  rename_i h' hp
  rw [if_pos hm] at hb
  exact ⟨h', hp, hb⟩

/-- **C191 refuted.** With MAC-based protection the senderKID cannot be left out by its name: it is there, unless
`sender_kid` is excluded. -/
theorem C191_mac_kid_refuted (env : BuildEnv V) (ie : InfoEnv) (dflt : Bytes × Bytes) (r1 r2 : Bytes) (now : Int) (a : MArgs V)
    (hm : a.forMac = true) (hk : ¬ Excluded a "sender_kid") (h : FHdr V) (hb : buildHeader env ie dflt r1 r2 now a = .ok h) :
    h.senderKid ≠ none := by
  obtain ⟨h0, _, h2⟩ := buildHeader_mac hm hb
  obtain ⟨d, t, _, _, h3⟩ := (macPatch_ok h2).2.2.2.1 hk
  rw [h3]
  simp

/-- **C191.** With both names excluded it is left out. -/
theorem C191_mac_both (env : BuildEnv V) (ie : InfoEnv) (dflt : Bytes × Bytes) (r1 r2 : Bytes) (now : Int) (a : MArgs V)
    (hm : a.forMac = true) (h1 : Excluded a "sender_kid") (h2 : Excluded a "senderKID") (h : FHdr V)
    (hb : buildHeader env ie dflt r1 r2 now a = .ok h) : h.senderKid = none := by
  obtain ⟨h0, h3, h4⟩ := buildHeader_mac hm hb
  rw [(macPatch_ok h4).2.2.2.2.1 h1]
  exact (plainHeader_fields env ie dflt r1 r2 now a h0 h3).senderKid.2 h2

/-- **C191 refuted.** With MAC-based protection no message without sender can be built, unless `sender_kid` is excluded,
too. -/
theorem C191_mac_sender_refuted (env : BuildEnv V) (ie : InfoEnv) (dflt : Bytes × Bytes) (r1 r2 : Bytes) (now : Int)
    (a : MArgs V) (hm : a.forMac = true) (h1 : Excluded a "sender") (h2 : ¬ Excluded a "sender_kid") (h : FHdr V) :
    buildHeader env ie dflt r1 r2 now a ≠ .ok h := by
  intro hb
  obtain ⟨h0, h3, h4⟩ := buildHeader_mac hm hb
  obtain ⟨_, _, h5, h6, _⟩ := macPatch_ok h4
  obtain ⟨d, t, h7, _⟩ := h6 h2
  rw [h5 h1, (plainHeader_fields env ie dflt r1 r2 now a h0 h3).sender.2 h1] at h7
  cases h7

/-! ## C192 -/

/-- The text `A=v` for each pair, separated by commas. -/
def joinPairs : List (List Char × List Char) → List Char
  | [] => []
  | [(a, v)] => a ++ '=' :: v
  | (a, v) :: p :: ps => (a ++ '=' :: v) ++ ',' :: joinPairs (p :: ps)

theorem splitAt_joinPairs : ∀ (ps : List (List Char × List Char)), ps ≠ [] →
    (∀ p ∈ ps, ',' ∉ p.1 ∧ ',' ∉ p.2) → splitAt ',' (joinPairs ps) = ps.map fun p => p.1 ++ '=' :: p.2
  | [], h, _ => absurd rfl h
  | [(a, v)], _, hc => by
    have := hc _ (List.mem_cons_self ..)
    unfold joinPairs
    rw [splitAt_free]
    · rfl
    · simp [this.1, this.2]
  | (a, v) :: p :: ps, _, hc => by
    have := hc _ (List.mem_cons_self ..)
    unfold joinPairs
    rw [splitAt_cons_free _ _ _ (by simp [this.1, this.2]),
      splitAt_joinPairs (p :: ps) (by simp) (fun q hq => hc q (List.mem_cons_of_mem _ hq))]
    rfl

theorem cnParts_pairs : ∀ (ps : List (List Char × List Char)), (∀ p ∈ ps, '=' ∉ p.1 ∧ '=' ∉ p.2) →
    cnParts (ps.map fun p => p.1 ++ '=' :: p.2) =
      .ok (((ps.filter fun p => decide (p.1 = ['C', 'N'])).map fun p => ['C', 'N', '='] ++ p.2).flatten)
  | [], _ => rfl
  | (a, v) :: ps, hc => by
    have := hc _ (List.mem_cons_self ..)
    rw [List.map_cons, cnParts, splitAt_cons_free _ _ _ this.1, splitAt_free _ _ this.2]
    dsimp only
    rw [cnParts_pairs ps (fun q hq => hc q (List.mem_cons_of_mem _ hq))]
    dsimp only
    by_cases ha : a = ['C', 'N']
    · rw [if_pos ha, List.filter_cons_of_pos (by simpa using ha)]
      rfl
    · rw [if_neg ha, List.filter_cons_of_neg (by simpa using ha)]
      rfl

theorem eq_mem_joinPairs : ∀ (ps : List (List Char × List Char)), ps ≠ [] → '=' ∈ joinPairs ps
  | [], h => absurd rfl h
  | [(a, v)], _ => by simp [joinPairs]
  | (a, v) :: p :: ps, _ => by simp [joinPairs]

/-- **C192.** Of a text `A=v,B=w,…` whose names and values have neither commas nor signs of equality the common name is
the joined texts of all attributes called `CN`, and there is none if there is no such attribute. -/
theorem C192_common_name (ps : List (List Char × List Char)) (hne : ps ≠ [])
    (hc : ∀ p ∈ ps, ',' ∉ p.1 ∧ ',' ∉ p.2 ∧ '=' ∉ p.1 ∧ '=' ∉ p.2) :
    ((∃ v, (['C', 'N'], v) ∈ ps) → cnFromStr (joinPairs ps) =
      .ok (some (((ps.filter fun p => decide (p.1 = ['C', 'N'])).map fun p => ['C', 'N', '='] ++ p.2).flatten))) ∧
    ((¬ ∃ v, (['C', 'N'], v) ∈ ps) → cnFromStr (joinPairs ps) = .ok none) := by
  unfold cnFromStr
  rw [if_neg (not_not_intro (eq_mem_joinPairs ps hne)),
    splitAt_joinPairs ps hne (fun p hp => ⟨(hc p hp).1, (hc p hp).2.1⟩),
    cnParts_pairs ps (fun p hp => ⟨(hc p hp).2.2.1, (hc p hp).2.2.2⟩)]
  dsimp only
  refine ⟨fun hv => ?_, fun hv => ?_⟩
  · rw [if_neg]
    obtain ⟨v, hv⟩ := hv
    rw [List.flatten_eq_nil_iff]
    intro h
    have := h (['C', 'N', '='] ++ v) (List.mem_map.2 ⟨(['C', 'N'], v), List.mem_filter.2 ⟨hv, by simp⟩, rfl⟩)
    cases this
  · rw [if_pos]
    rw [List.flatten_eq_nil_iff]
    intro l hl
    obtain ⟨p, hp, _⟩ := List.mem_map.1 hl
    obtain ⟨h1, h2⟩ := List.mem_filter.1 hp
    exact absurd ⟨p.2, by rw [← of_decide_eq_true h2]; exact h1⟩ hv

/-- **C192 refuted.** A common name after a comma and a blank is not found; the senderKID is the default one then. -/
theorem C192_blank_refuted (env : BuildEnv V) (dflt : Bytes) :
    cnFromStr "C=DE, CN=Joe".toList = .ok none ∧ senderKidOf env dflt none (.text "C=DE, CN=Joe".toList) = .ok dflt := by
  have : cnFromStr "C=DE, CN=Joe".toList = .ok none := by decide
  refine ⟨this, ?_⟩
  unfold senderKidOf
  dsimp only
  rw [this]

/-- **C192 refuted.** A text with a second sign of equality in an attribute, or a comma in a value, ends with a
`ValueError`, whatever name it stands for; then no message can be built, unless the senderKID is given or excluded. -/
theorem C192_equals_refuted (env : BuildEnv V) (ie : InfoEnv) (dflt : Bytes × Bytes) (r1 r2 : Bytes) (now : Int) (a : MArgs V)
    (s : List Char) (hs : s = "CN=a=b".toList ∨ s = "O=Foo, Inc.,CN=a".toList) (ha : a.sender = .text s) (hk : a.senderKid = none)
    (hx : a.exclude = none) (h : FHdr V) :
    cnFromStr s = .error .valueError ∧ buildHeader env ie dflt r1 r2 now a ≠ .ok h := by
  have hcn : cnFromStr s = .error .valueError := by
    rcases hs with rfl | rfl <;> decide
  refine ⟨hcn, fun hb => ?_⟩
  unfold buildHeader plainHeader at hb
  dsimp only at hb
  have : field (excludeOf a.exclude) "senderKID" (senderKidOf env dflt.1 a.senderKid a.sender) = .error .valueError := by
    rw [hx, ha, hk]
    unfold field senderKidOf
    rw [if_neg (by simp [excludeOf])]
    dsimp only
    rw [hcn]
  rw [this] at hb
  split at hb
  · cases hb
  · rename_i h' hp
    split at hp
    · cases hp
    split at hp
    · cases hp
    cases hp

/-! ## C193 -/

/-- The CA's view of a header. -/
def FHdr.hdr (h : FHdr V) : Hdr := { txId := h.tid, senderNonce := h.senderNonce, recipNonce := h.recipNonce, time := h.time }

theorem not_excluded_none {a : MArgs V} (h : a.exclude = none) (f : String) : ¬ Excluded a f := by
  unfold Excluded excludeOf
  rw [h]
  simp

/-- **C193.** A message with MAC-based protection which the client builds with nothing excluded is accepted by the header
checks of the CA, if it arrives in time: for every name of the sender, with or without implicit confirmation. -/
theorem C193_mac_accepted [DecidableEq V] (env : BuildEnv V) (senv : SenderEnv V C) (ie : InfoEnv) (dflt : Bytes × Bytes)
    (r1 r2 : Bytes) (h1 : r1.length = 16) (h2 : r2.length = 16) (now later : Int) (a : MArgs V) (cfg : HCfg)
    (htext : senv.text = env.text) (hutf : ∀ t, senv.utf8? (env.utf8 t) = some t)
    (hmac : a.forMac = true) (hex : a.exclude = none) (htid : a.tid = none) (hsn : a.senderNonce = none)
    (hrn : a.recipNonce = none) (hv : a.pvno = none ∨ a.pvno = some 2 ∨ a.pvno = some 3) (ht : a.time = none)
    (hl : now - 3 ≤ later ∧ later ≤ now - 3 + cfg.interval) (hmust : cfg.must = true) (hlw : cfg.lwcmp = false)
    (body : String) (n : Nat) (hbody : body ∈ ["ir", "cr", "p10cr"]) (h : FHdr V)
    (hb : buildHeader env ie dflt r1 r2 now a = .ok h) :
    ∃ snd v, h.sender = some snd ∧ h.pvno = some v ∧
      caValidateHeader senv ie cfg later false
        { sender := snd, kid := h.senderKid, alg := some (some .mac), protection := true, extra := [], pvno := v, hdr := h.hdr,
          body := body, n := n, info := h.info } = .ok () := by
  obtain ⟨h0, hp, hm⟩ := buildHeader_mac hmac hb
  have hf := plainHeader_fields env ie dflt r1 r2 now a h0 hp
  obtain ⟨_, _, _, h6, _, h8⟩ := macPatch_ok hm
  obtain ⟨d, t, hd, hdt, hkid⟩ := h6 (not_excluded_none hex _)
  have e1 : h.pvno = h0.pvno := by rw [h8]
  have e2 : h.tid = h0.tid := by rw [h8]
  have e3 : h.senderNonce = h0.senderNonce := by rw [h8]
  have e4 : h.recipNonce = h0.recipNonce := by rw [h8]
  have e5 : h.time = h0.time := by rw [h8]
  have e6 : h.info = h0.info := by rw [h8]
  obtain ⟨v, hpv⟩ := Option.ne_none_iff_exists'.1 (fun e => not_excluded_none hex _ (hf.pvno.1 e))
  obtain ⟨ti, hti⟩ := Option.ne_none_iff_exists'.1 (fun e => not_excluded_none hex _ (hf.tid.1 e))
  obtain ⟨no, hno⟩ := Option.ne_none_iff_exists'.1 (fun e => not_excluded_none hex _ (hf.senderNonce.1 e))
  obtain ⟨tm, htm⟩ := Option.ne_none_iff_exists'.1 (fun e => not_excluded_none hex _ (hf.time.1 e))
  have hrec : h0.recipNonce = none := by
    cases hr : h0.recipNonce with
    | none => rfl
    | some x => rw [hf.recip x hr] at hrn; cases hrn
  have htm' : tm = now - 3 := by
    rcases hf.givenTime tm htm with h | ⟨_, h⟩
    · rw [ht] at h; cases h
    · exact h
  have hinfo : h0.info = [] ∨ h0.info = [⟨idIt 13, some [5, 0]⟩] := by
    unfold plainHeader at hp
    dsimp only at hp
    split at hp
    · cases hp
    split at hp
    · cases hp
    split at hp
    · cases hp
    rw [← Except.ok.inj hp]
    dsimp only
    split
    · exact Or.inl rfl
    · exact Or.inr rfl
  refine ⟨.dir d, v, hd, by rw [e1, hpv], ?_⟩
  rw [C190_accepted_iff senv ie cfg hmust]
  have hinfo' : ∀ e ∈ h0.info, e.oid = [1, 3, 6, 1, 5, 5, 7, 4, 13] ∧ e.val = some [5, 0] := by
    intro e he
    rcases hinfo with hi | hi
    · rw [hi] at he; cases he
    · rw [hi] at he
      have : e = ⟨idIt 13, some [5, 0]⟩ := by simpa using he
      rw [this]
      exact ⟨rfl, rfl⟩
  have hfirst : ∀ o e, FirstOf h0.info o e → e ∈ h0.info ∧ e.oid = o := by
    rintro o e ⟨pre, post, hl, ho, _⟩
    exact ⟨by rw [hl]; simp, ho⟩
  refine ⟨?_, ?_, ⟨ti, no, ?_, ?_, ?_, ?_, ?_⟩, ⟨?_, ?_, ?_⟩, ?_, ?_, rfl, .mac, env.utf8 t, rfl, hkid, ?_, ?_, ?_, ?_, ?_⟩
  · rcases hf.version v hpv with hw | ⟨_, hw⟩
    · rcases hv with hv | hv | hv
      · rw [hv] at hw; cases hw
      · rw [hv] at hw; cases hw; exact Or.inl rfl
      · rw [hv] at hw; cases hw; exact Or.inr rfl
    · dsimp only
      cases hkga : a.forKga with
      | false => exact Or.inl (by rw [hw, hkga]; rfl)
      | true => exact Or.inr (by rw [hw, hkga]; rfl)
  · rintro hn
    dsimp only at hn
    rw [hn] at hbody
    exact absurd hbody (by decide)
  · exact e2.trans hti
  · exact e3.trans hno
  · exact e4.trans hrec
  · rw [hf.freshTid ti hti (Or.inl htid)]; exact h1
  · rw [hf.freshNonce no hno (Or.inl hsn)]; exact h2
  · intro e he
    rw [e6] at he
    obtain ⟨hm1, _⟩ := hfirst _ _ he
    refine ⟨?_, (hinfo' e hm1).2⟩
    simp only [List.mem_cons, List.not_mem_nil, or_false] at hbody ⊢
    rcases hbody with h | h | h
    · exact Or.inr (Or.inr (Or.inr (Or.inl h)))
    · exact Or.inr (Or.inr (Or.inr (Or.inr (Or.inl h))))
    · exact Or.inr (Or.inr (Or.inr (Or.inr (Or.inr (Or.inr h)))))
  · intro e he
    rw [e6] at he
    obtain ⟨hm1, ho⟩ := hfirst _ _ he
    rw [(hinfo' e hm1).1] at ho
    exact absurd ho (by decide)
  · intro e he ho
    rw [e6] at he
    rw [(hinfo' e he).1] at ho
    exact absurd ho (by decide)
  · intro e he
    rw [e6] at he
    obtain ⟨hm1, ho⟩ := hfirst _ _ he
    rw [(hinfo' e hm1).1] at ho
    exact absurd ho (by decide)
  · intro _
    exact ⟨tm, e5.trans htm, by rw [htm']; exact hl.1, by rw [htm']; exact hl.2⟩
  · unfold GoodSender
    rw [if_pos (Or.inl rfl)]
    rw [← htext] at hdt
    obtain ⟨vs, hvs, rfl⟩ := (cn_notation_iff senv d t).1 hdt
    exact ⟨d, vs, _, rfl, hvs, hutf _, (dropCn_eq _ _).1 (dropCn_join vs)⟩
  · intro hk
    simp only [List.mem_cons, List.not_mem_nil, or_false] at hbody hk
    rcases hbody with rfl | rfl | rfl <;> (rcases hk with hk | hk | hk <;> exact absurd hk (by decide))
  · intro hk
    dsimp only at hk
    rw [hk] at hbody
    exact absurd hbody (by decide)
  · intro hn
    exact absurd (List.mem_cons_self ..) hn
  · intro _ hl
    exact absurd (hlw.symm.trans hl) (by decide)

/-- **C193 refuted.** A message with MAC-based protection whose sender has no common name is built all the same, with the
senderKID `NULL-DN`. -/
theorem C193_null_refuted (env : BuildEnv V) (ie : InfoEnv) (dflt : Bytes × Bytes) (r1 r2 : Bytes) (now : Int) (a : MArgs V)
    (hmac : a.forMac = true) (hex : a.exclude = none) (s : List Char) (hs : a.sender = .text s) (d : Dn V)
    (hd : env.dirName s = .ok d) (hcn : ∀ r ∈ d, ∀ x ∈ r, x.oid ≠ [2, 5, 4, 3]) (h : FHdr V)
    (hb : buildHeader env ie dflt r1 r2 now a = .ok h) : h.senderKid = some (env.utf8 "NULL-DN".toList) := by
  obtain ⟨h0, _, hm⟩ := buildHeader_mac hmac hb
  obtain ⟨_, h4, _, h6, _⟩ := macPatch_ok hm
  obtain ⟨s', d', hs', hd', hh⟩ := h4 (not_excluded_none hex _)
  rw [hs] at hs'
  cases hs'
  rw [hd] at hd'
  cases hd'
  obtain ⟨d'', t, hd'', ht, hkid⟩ := h6 (not_excluded_none hex _)
  rw [hh] at hd''
  cases hd''
  rw [hkid]
  unfold opensslName at ht
  have : attrTexts env.text [idCn] d.flatten = .ok [] := by
    have aux : ∀ l : List (SAttr V), (∀ x ∈ l, x.oid ≠ [2, 5, 4, 3]) → attrTexts env.text [idCn] l = .ok [] := by
      intro l
      induction l with
      | nil => intro _; rfl
      | cons x xs ih =>
        intro hx
        unfold attrTexts
        rw [if_neg (by simpa [idCn] using hx x (List.mem_cons_self ..))]
        exact ih fun y hy => hx y (List.mem_cons_of_mem _ hy)
    refine aux _ fun x hx => ?_
    obtain ⟨r, hr, hx⟩ := List.mem_flatten.1 hx
    exact hcn r hr x hx
  rw [this] at ht
  rw [← Except.ok.inj ht]
  rfl

/-! ## Examples -/

/-- Every text is an e-mail address, and the common name of a directory name. -/
def exHdrBuild : BuildEnv (List Char) where
  parse s := .ok (.mail s)
  dirName s := .ok [[⟨[2, 5, 4, 3], s.drop 3⟩]]
  text := .ok
  utf8 s := s.map fun c => UInt8.ofNat c.toNat

example : buildHeader exHdrBuild exInfo ([1], [2]) [3] [4] 100
    { sender := .text "CN=a".toList, recipient := .text "x".toList, exclude := some "recipKID,messageTime,freeText".toList }
    = .ok { pvno := some 2, sender := some (.mail "CN=a".toList), recipient := some (.mail "x".toList), tid := some [3],
            senderNonce := some [4], senderKid := some (exBytes "CN=a") } := by decide +kernel
example : buildHeader exHdrBuild exInfo ([1], [2]) [3] [4] 100
    { sender := .text "CN=a".toList, recipient := .text "x".toList, exclude := some "senderKID,recipKID,freeText".toList,
      forMac := true, implicit := true, tid := some [9] }
    = .ok { pvno := some 2, sender := some (.dir (exCn "a")), recipient := some (.mail "x".toList), tid := some [9],
            senderNonce := some [4], time := some 97, senderKid := some (exBytes "CN=a"), info := [⟨idIt 13, some [5, 0]⟩] } := by
  decide +kernel
example : cnFromStr "C=DE,CN=a,O=b".toList = .ok (some "CN=a".toList) := by decide +kernel
example : splitAt ',' "a,,b".toList = ["a".toList, [], "b".toList] := by decide +kernel

end Verif.Ra
