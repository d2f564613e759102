import Verif.Ra.BuildProps
import Mathlib.Data.List.Perm.Subperm

/-!
# Properties of the nested messages and polling messages which the client builds
-/

namespace Verif.Ra

open Verif.CA (PyErr Bytes ProtType)
open Verif.Check (Hdr Inner validateAddProtection validateNestedUnique)

variable {V : Type}

/-! ## C194 -/

theorem buildNested_ok {env : BuildEnv V} {ie : InfoEnv} {dflt : Bytes × Bytes} {r1 r2 : Bytes} {now : Int} {added : Bool}
    {others : Option (List (FMsg V))} {a : MArgs V} {h : FHdr V} {ms : List (FMsg V)}
    (hb : buildNested env ie dflt r1 r2 now added others a = .ok (h, ms)) :
    ms = others.getD [] ∧ ∃ a', (if added then addedArgs others a else .ok a) = .ok a' ∧
      BuiltFields { a' with forMac := false, forKga := false } r1 r2 now h := by
  unfold buildNested at hb
  split at hb
  · cases hb
  rename_i a' ha
  split at hb
  · cases hb
  rename_i h' hh
  obtain ⟨rfl, rfl⟩ := Prod.mk.inj (Except.ok.inj hb)
  exact ⟨rfl, a', ha, C191_fields env ie dflt r1 r2 now _ rfl h' hh⟩

/-- **C194.** A message with an added protection which is built for one message passes the check of the RA, if the message
itself has what is needed: transactionID and senderNonce, a recipNonce if and only if it is a confirmation, and
nothing but sender and senderKID is excluded. -/
theorem C194_added_accepted (env : BuildEnv V) (ie : InfoEnv) (dflt : Bytes × Bytes) (r1 r2 : Bytes) (now : Int)
    (m : FMsg V) (a : MArgs V) (t s : Bytes) (ht : m.hdr.tid = some t) (hs : m.hdr.senderNonce = some s) (ht16 : t.length = 16)
    (hs16 : s.length = 16)
    (hr : if m.body = "certConf" then ∃ r, m.hdr.recipNonce = some r ∧ r.length = 16 else m.hdr.recipNonce = none)
    (hex : a.exclude = some "sender,senderKID".toList) (h1 : a.tid = none) (h2 : a.senderNonce = none) (h3 : a.recipNonce = none)
    (h : FHdr V) (ms : List (FMsg V)) (hb : buildNested env ie dflt r1 r2 now true (some [m]) a = .ok (h, ms)) (cl : Bool) :
    validateAddProtection h.toHdr (some (ms.map FMsg.toInner)) cl = .ok () := by
  obtain ⟨hms, a', ha, hf⟩ := buildNested_ok hb
  subst hms
  rw [if_pos rfl] at ha
  unfold addedArgs at ha
  have ha' := Except.ok.inj ha
  have hexc : ∀ f : String, f.toList ∉ excludeOf (some "sender,senderKID".toList) →
      ¬ Excluded { a' with forMac := false, forKga := false } f := by
    intro f hf
    unfold Excluded
    rw [← ha']
    dsimp only
    rw [hex]
    exact hf
  have htid : h.tid = some t := by
    obtain ⟨x, hx⟩ := Option.ne_none_iff_exists'.1 (fun e => hexc "transactionID" (by decide) (hf.tid.1 e))
    have := hf.givenTid x t hx (by rw [← ha']; simp [h1, ht]) (by rintro rfl; simp at ht16)
    rw [hx, this]
  have hsn : h.senderNonce = some s := by
    obtain ⟨x, hx⟩ := Option.ne_none_iff_exists'.1 (fun e => hexc "senderNonce" (by decide) (hf.senderNonce.1 e))
    have := hf.givenNonce x s hx (by rw [← ha']; simp [h2, hs]) (by rintro rfl; simp at hs16)
    rw [hx, this]
  rw [Verif.Check.C16_iff]
  refine ⟨m.toInner, t, s, rfl, htid, ht, hsn, hs, ?_, fun _ => ⟨ht16, hs16⟩⟩
  have harg : a'.recipNonce = if m.body = "certConf" then m.hdr.recipNonce else none := by
    rw [← ha']
    dsimp only
    by_cases hc : m.body = "certConf"
    · rw [if_pos ⟨hc, by simp [h3]⟩, if_pos hc]
    · rw [if_neg (fun e => hc e.1), if_neg hc, h3]
  by_cases hc : m.body = "certConf"
  · rw [if_pos hc] at hr harg
    obtain ⟨r, hr1, hr2⟩ := hr
    rw [if_pos (show m.toInner.body = "certConf" from hc)]
    have hne : h.recipNonce ≠ none := hf.recipNonce.2 ⟨hexc "recipNonce" (by decide), r, by rw [← hr1]; exact harg,
      by rintro rfl; simp at hr2⟩
    obtain ⟨x, hx⟩ := Option.ne_none_iff_exists'.1 hne
    have := hf.recip x hx
    rw [show ({ a' with forMac := false, forKga := false } : MArgs V).recipNonce = a'.recipNonce from rfl, harg, hr1] at this
    cases this
    exact ⟨r, hx, hr1, fun _ => hr2⟩
  · rw [if_neg hc] at hr harg
    rw [if_neg (show ¬ m.toInner.body = "certConf" from hc)]
    refine ⟨?_, hr⟩
    cases hx : h.recipNonce with
    | none => exact hx
    | some x =>
      have := hf.recip x hx
      rw [show ({ a' with forMac := false, forKga := false } : MArgs V).recipNonce = a'.recipNonce from rfl, harg] at this
      cases this

/-- **C194.** Without a message, or without any messages, none can be built: with an error of Python in the latter case. -/
theorem C194_added_none (env : BuildEnv V) (ie : InfoEnv) (dflt : Bytes × Bytes) (r1 r2 : Bytes) (now : Int) (a : MArgs V) :
    buildNested env ie dflt r1 r2 now true none a = .error .valueError ∧
    buildNested env ie dflt r1 r2 now true (some []) a = .error .indexError := ⟨rfl, rfl⟩

/-- **C194 refuted.** Patching the header of a message for an added protection does not set the recipNonce: the result for
a confirmation is refused, if there was none before. -/
theorem C194_patch_conf_refuted (h : FHdr V) (m : FMsg V) (ms : List (FMsg V)) (ex : List (List Char)) (h' : FHdr V)
    (hc : m.body = "certConf") (hn : h.recipNonce = none) (hp : patchAdded h (some (m :: ms)) ex = .ok h') (cl : Bool) :
    validateAddProtection h'.toHdr (some [m.toInner]) cl ≠ .ok () := by
  unfold patchAdded at hp
  rw [← Except.ok.inj hp]
  intro hv
  obtain ⟨m', t, s, hm, -, -, -, -, hr, -⟩ := (Verif.Check.C16_iff _ _ _).1 hv
  cases hm
  rw [if_pos (show m.toInner.body = "certConf" from hc)] at hr
  obtain ⟨r, hr, _⟩ := hr
  rw [show FHdr.toHdr _ = _ from rfl] at hr
  exact absurd (hn.symm.trans hr) (by simp)

/-- **C194.** For other messages the patched header is accepted exactly if the message has a transactionID and a
senderNonce of 16 bytes, and neither of the two has a recipNonce. -/
theorem C194_patch_other (h : FHdr V) (m : FMsg V) (h' : FHdr V) (hc : m.body ≠ "certConf")
    (hp : patchAdded h (some [m]) [] = .ok h') :
    validateAddProtection h'.toHdr (some [m.toInner]) true = .ok () ↔
      (∃ t, m.hdr.tid = some t ∧ t.length = 16) ∧ (∃ s, m.hdr.senderNonce = some s ∧ s.length = 16) ∧
        h.recipNonce = none ∧ m.hdr.recipNonce = none := by
  unfold patchAdded at hp
  rw [← Except.ok.inj hp, Verif.Check.C16_iff]
  constructor
  · rintro ⟨m', t, s, hm, h1, h2, h3, h4, hr, hl⟩
    cases hm
    rw [if_neg (show ¬ m.toInner.body = "certConf" from hc)] at hr
    exact ⟨⟨t, h2, (hl rfl).1⟩, ⟨s, h4, (hl rfl).2⟩, hr.1, hr.2⟩
  · rintro ⟨⟨t, h1, h2⟩, ⟨s, h3, h4⟩, h5, h6⟩
    refine ⟨m.toInner, t, s, rfl, ?_, h1, ?_, h3, ?_, fun _ => ⟨h2, h4⟩⟩
    · exact h1
    · exact h3
    · rw [if_neg (show ¬ m.toInner.body = "certConf" from hc)]
      exact ⟨h5, h6⟩

theorem uniqueSeq_ok {inUse : List Bytes} {rnd : Nat → Bytes} {v : Bytes} (h : uniqueSeq inUse rnd = .ok v) :
    v ∉ inUse ∧ ∃ i, i < 10000 ∧ v = rnd i := by
  unfold uniqueSeq at h
  split at h
  · rename_i i hi
    cases h
    have h1 := List.find?_some hi
    have h2 := List.mem_of_find?_eq_some hi
    exact ⟨by simpa using h1, i, List.mem_range.1 h2, rfl⟩
  · cases h

/-- **C194.** A header patched for nested messages has a transactionID and a senderNonce which none of them has. -/
theorem C194_patch_unique (h : FHdr V) (ms : List (FMsg V)) (rt rn : Nat → Bytes) (hlen : ∀ i, (rt i).length = 16 ∧ (rn i).length = 16)
    (h' : FHdr V) (hp : patchNested h (some ms) [] rt rn = .ok h') :
    ms ≠ [] ∧ ∃ t s, h'.tid = some t ∧ h'.senderNonce = some s ∧ t.length = 16 ∧ s.length = 16 ∧
      ∀ m ∈ ms, m.hdr.tid ≠ some t ∧ m.hdr.senderNonce ≠ some s := by
  unfold patchNested at hp
  cases ms with
  | nil => cases hp
  | cons m ms =>
    dsimp only at hp
    refine ⟨by simp, ?_⟩
    rw [if_neg (by simp)] at hp
    cases ht : uniqueSeq ((m :: ms).filterMap (·.hdr.tid)) rt with
    | error e => rw [ht] at hp; cases hp
    | ok t =>
      rw [ht] at hp
      dsimp only [Except.map] at hp
      rw [if_neg (by simp)] at hp
      cases hs : uniqueSeq ((m :: ms).filterMap (·.hdr.senderNonce)) rn with
      | error e => rw [hs] at hp; cases hp
      | ok s =>
        rw [hs] at hp
        dsimp only [Except.map] at hp
        rw [← Except.ok.inj hp]
        obtain ⟨h1, i, _, rfl⟩ := uniqueSeq_ok ht
        obtain ⟨h2, j, _, rfl⟩ := uniqueSeq_ok hs
        have hne : orB (some (rt i)) (rt 10000) = rt i := orB_given rfl (by
          intro e
          have := (hlen i).1
          rw [e] at this
          simp at this)
        refine ⟨rt i, rn j, congrArg some hne, rfl, (hlen i).1, (hlen j).2, fun x hx => ⟨fun e => ?_, fun e => ?_⟩⟩
        · exact h1 (List.mem_filterMap.2 ⟨x, hx, e⟩)
        · exact h2 (List.mem_filterMap.2 ⟨x, hx, e⟩)

/-- **C194.** So the batch is accepted by the check of the CA exactly if the messages in it have pairwise different
identifiers of 16 bytes, and the recipNonce of the header, if any, has 16 bytes. -/
theorem C194_batch_iff (h : FHdr V) (ms : List (FMsg V)) (rt rn : Nat → Bytes) (hlen : ∀ i, (rt i).length = 16 ∧ (rn i).length = 16)
    (h' : FHdr V) (hp : patchNested h (some ms) [] rt rn = .ok h') :
    validateNestedUnique h'.toHdr "nested" (ms.map FMsg.toInner) true true false true = .ok () ↔
      (∀ m ∈ ms, ∃ t s, m.hdr.tid = some t ∧ m.hdr.senderNonce = some s ∧ t.length = 16 ∧ s.length = 16) ∧
      (ms.map (·.hdr.tid)).Nodup ∧ (ms.map (·.hdr.senderNonce)).Nodup ∧ (∀ r, h'.recipNonce = some r → r.length = 16) := by
  obtain ⟨_, t, s, ht, hs, hl1, hl2, hm⟩ := C194_patch_unique h ms rt rn hlen h' hp
  have e1 : Verif.Check.fieldOf Hdr.txId h'.toHdr (ms.map FMsg.toInner) = some t :: ms.map (·.hdr.tid) := by
    unfold Verif.Check.fieldOf
    rw [List.map_map]
    exact congrArg (· :: _) ht
  have e2 : Verif.Check.fieldOf Hdr.senderNonce h'.toHdr (ms.map FMsg.toInner) = some s :: ms.map (·.hdr.senderNonce) := by
    unfold Verif.Check.fieldOf
    rw [List.map_map]
    exact congrArg (· :: _) hs
  rw [Verif.Check.C14_iff, e1, e2]
  unfold Verif.Check.Present Verif.Check.Len16
  constructor
  · rintro ⟨_, p1, p2, _, n1, n2, _, l⟩
    obtain ⟨l1, l2, _, l3⟩ := l rfl
    refine ⟨fun m hmm => ?_, (List.nodup_cons.1 (n1 rfl)).2, (List.nodup_cons.1 (n2 rfl)).2, fun r hr => ?_⟩
    · have m1 : m.hdr.tid ∈ some t :: ms.map (·.hdr.tid) := List.mem_cons_of_mem _ (List.mem_map.2 ⟨m, hmm, rfl⟩)
      have m2 : m.hdr.senderNonce ∈ some s :: ms.map (·.hdr.senderNonce) :=
        List.mem_cons_of_mem _ (List.mem_map.2 ⟨m, hmm, rfl⟩)
      obtain ⟨x, hx⟩ := Option.ne_none_iff_exists'.1 (p1 _ m1)
      obtain ⟨y, hy⟩ := Option.ne_none_iff_exists'.1 (p2 _ m2)
      exact ⟨x, y, hx, hy, l1 x (hx ▸ m1), l2 y (hy ▸ m2)⟩
    · exact l3 rfl r (by rw [← hr]; exact List.mem_cons_self ..)
  · rintro ⟨ha, n1, n2, hr⟩
    refine ⟨rfl, ?_, ?_, fun e => (by cases e), fun _ => ?_, fun _ => ?_, fun e => (by cases e), fun _ => ⟨?_, ?_, fun e => (by cases e), fun _ => ?_⟩⟩
    · intro x hx
      rcases List.mem_cons.1 hx with rfl | hx
      · simp
      · obtain ⟨m, hmm, rfl⟩ := List.mem_map.1 hx
        obtain ⟨t', s', h1, -⟩ := ha m hmm
        simp [h1]
    · intro x hx
      rcases List.mem_cons.1 hx with rfl | hx
      · simp
      · obtain ⟨m, hmm, rfl⟩ := List.mem_map.1 hx
        obtain ⟨t', s', -, h1, -⟩ := ha m hmm
        simp [h1]
    · refine List.nodup_cons.2 ⟨fun hx => ?_, n1⟩
      obtain ⟨m, hmm, hx⟩ := List.mem_map.1 hx
      exact (hm m hmm).1 hx
    · refine List.nodup_cons.2 ⟨fun hx => ?_, n2⟩
      obtain ⟨m, hmm, hx⟩ := List.mem_map.1 hx
      exact (hm m hmm).2 hx
    · intro v hv
      rcases List.mem_cons.1 hv with hv | hv
      · cases hv; exact hl1
      · obtain ⟨m, hmm, hx⟩ := List.mem_map.1 hv
        obtain ⟨t', s', h1, -, h2, -⟩ := ha m hmm
        rw [h1] at hx
        cases hx
        exact h2
    · intro v hv
      rcases List.mem_cons.1 hv with hv | hv
      · cases hv; exact hl2
      · obtain ⟨m, hmm, hx⟩ := List.mem_map.1 hv
        obtain ⟨t', s', -, h1, -, h2⟩ := ha m hmm
        rw [h1] at hx
        cases hx
        exact h2
    · intro v hv
      exact hr v (List.mem_singleton.1 hv).symm

/-- **C194.** The random values are pairwise different. -/
theorem C194_values_distinct (rnd : List Bytes) : (uniqueValues rnd).Nodup ∧ ∀ v, v ∈ uniqueValues rnd ↔ v ∈ rnd := by
  unfold uniqueValues
  have aux : ∀ (l acc : List Bytes), acc.Nodup →
      (l.foldl (fun vs v => if v ∈ vs then vs else vs ++ [v]) acc).Nodup ∧
      ∀ v, v ∈ l.foldl (fun vs v => if v ∈ vs then vs else vs ++ [v]) acc ↔ v ∈ acc ∨ v ∈ l := by
    intro l
    induction l with
    | nil => intro acc h; exact ⟨h, fun v => by simp⟩
    | cons x xs ih =>
      intro acc h
      rw [List.foldl_cons]
      by_cases hx : x ∈ acc
      · rw [if_pos hx]
        refine ⟨(ih acc h).1, fun v => ?_⟩
        rw [(ih acc h).2 v, List.mem_cons]
        constructor
        · rintro (h | h)
          · exact Or.inl h
          · exact Or.inr (Or.inr h)
        · rintro (h | rfl | h)
          · exact Or.inl h
          · exact Or.inl hx
          · exact Or.inr h
      · rw [if_neg hx]
        have hn : (acc ++ [x]).Nodup := by
          rw [List.nodup_append]
          refine ⟨h, by simp, fun a ha b hb => ?_⟩
          rw [List.mem_singleton.1 hb]
          rintro rfl
          exact hx ha
        refine ⟨(ih _ hn).1, fun v => ?_⟩
        rw [(ih _ hn).2 v, List.mem_append, List.mem_singleton, List.mem_cons, or_assoc]
  exact ⟨(aux rnd [] List.nodup_nil).1, fun v => by rw [(aux rnd [] List.nodup_nil).2 v]; simp⟩

/-- **C194 refuted.** But there are fewer than asked for if two of the values drawn are equal. -/
theorem C194_values_refuted (rnd : List Bytes) (h : ¬ rnd.Nodup) : (uniqueValues rnd).length ≠ rnd.length := by
  obtain ⟨h1, h2⟩ := C194_values_distinct rnd
  intro hl
  have hsub : (uniqueValues rnd).Subperm rnd := h1.subperm fun v hv => (h2 v).1 hv
  exact h ((hsub.perm_of_length_le (by omega)).nodup_iff.1 h1)

/-! ## C195 -/

/-- **C195.** A polling request built from a response belongs to the same transaction and answers its senderNonce; its
own senderNonce is the one of the message before. -/
theorem C195_follows (env : BuildEnv V) (ie : InfoEnv) (dflt : Bytes × Bytes) (r1 r2 : Bytes) (now : Int) (o : FHdr V)
    (id : Int) (a : MArgs V) (hex : a.exclude = none) (h1 : a.tid = none) (h2 : a.senderNonce = none) (h3 : a.recipNonce = none)
    (t n m : Bytes) (ht : o.tid = some t) (hn : o.senderNonce = some n) (hm : o.recipNonce = some m) (ht0 : t ≠ []) (hn0 : n ≠ [])
    (hm0 : m ≠ []) (h : FHdr V) (i : Int) (hb : buildPoll env ie dflt r1 r2 now (some o) id a = .ok (h, i)) :
    i = id ∧ h.tid = some t ∧ h.recipNonce = some n ∧ h.senderNonce = some m := by
  unfold buildPoll followArgs octetsOf at hb
  dsimp only at hb
  rw [ht, hn, hm] at hb
  dsimp only at hb
  split at hb
  · cases hb
  rename_i h' hh
  obtain ⟨rfl, rfl⟩ := Prod.mk.inj (Except.ok.inj hb)
  have hf := C191_fields env ie dflt r1 r2 now _ rfl h' hh
  have hx : ∀ b : MArgs V, b.exclude = a.exclude → ∀ f, ¬ Excluded b f := by
    intro b hb f
    exact not_excluded_none (hb.trans hex) f
  refine ⟨rfl, ?_, ?_, ?_⟩
  · obtain ⟨x, hx'⟩ := Option.ne_none_iff_exists'.1 (fun e => hx _ rfl _ (hf.tid.1 e))
    rw [hx', hf.givenTid x t hx' (by simp [h1]) ht0]
  · have hne : h'.recipNonce ≠ none := hf.recipNonce.2 ⟨hx _ rfl _, n, by simp [h3], hn0⟩
    obtain ⟨x, hx'⟩ := Option.ne_none_iff_exists'.1 hne
    have := hf.recip x hx'
    simp only [h3, Option.isNone_none, if_true, Option.some.injEq] at this
    rw [hx', this]
  · obtain ⟨x, hx'⟩ := Option.ne_none_iff_exists'.1 (fun e => hx _ rfl _ (hf.senderNonce.1 e))
    rw [hx', hf.givenNonce x m hx' (by simp [h2]) hm0]

/-- **C195 refuted.** The senderNonce of a polling request is not fresh: whatever random value is drawn, it is the one of
the request before, if the response answered it. -/
theorem C195_fresh_refuted (env : BuildEnv V) (ie : InfoEnv) (dflt : Bytes × Bytes) (r1 r2 : Bytes) (now : Int)
    (req o : FHdr V) (hans : o.recipNonce = req.senderNonce) (id : Int) (a : MArgs V) (hex : a.exclude = none) (h1 : a.tid = none)
    (h2 : a.senderNonce = none) (h3 : a.recipNonce = none) (t n m : Bytes) (ht : o.tid = some t) (hn : o.senderNonce = some n)
    (hm : req.senderNonce = some m) (ht0 : t ≠ []) (hn0 : n ≠ []) (hm0 : m ≠ []) (h : FHdr V) (i : Int)
    (hb : buildPoll env ie dflt r1 r2 now (some o) id a = .ok (h, i)) : h.senderNonce = req.senderNonce := by
  rw [hm]
  exact (C195_follows env ie dflt r1 r2 now o id a hex h1 h2 h3 t n m ht hn (hans.trans hm) ht0 hn0 hm0 h i hb).2.2.2

/-- **C195 refuted.** A message which follows one without recipNonce, like the first request of a transaction, cannot be
built or patched: this ends with an error of the ASN.1 library, also if all nonces are given. -/
theorem C195_first_refuted (env : BuildEnv V) (ie : InfoEnv) (dflt : Bytes × Bytes) (r1 r2 : Bytes) (now : Int) (o h : FHdr V)
    (id : Int) (a : MArgs V) (hr : o.recipNonce = none) (t n : Bytes) (ht : o.tid = some t) (hn : o.senderNonce = some n) :
    buildPoll env ie dflt r1 r2 now (some o) id a = .error .pyasn1Error ∧ patchExchange h o [] = .error .pyasn1Error := by
  unfold buildPoll followArgs patchExchange octetsOf
  dsimp only
  rw [hr, ht, hn]
  exact ⟨rfl, rfl⟩

/-- **C195.** A message patched for an exchange has the transactionID of the other one, answers its senderNonce, and
repeats the nonce answered; all other fields but the key identifiers stay. -/
theorem C195_patch (h o : FHdr V) (t n m : Bytes) (ht : o.tid = some t) (hn : o.senderNonce = some n) (hm : o.recipNonce = some m) :
    ∃ h', patchExchange h o [] = .ok h' ∧ h'.tid = some t ∧ h'.recipNonce = some n ∧ h'.senderNonce = some m ∧
      (∀ k, o.senderKid = some k → h'.recipKid = some k) ∧ (∀ k, o.recipKid = some k → h'.senderKid = some k) ∧
      (o.senderKid = none → h'.recipKid = h.recipKid) ∧ (o.recipKid = none → h'.senderKid = h.senderKid) ∧
      h'.sender = h.sender ∧ h'.recipient = h.recipient ∧ h'.pvno = h.pvno ∧ h'.time = h.time ∧ h'.info = h.info := by
  unfold patchExchange octetsOf
  rw [ht, hn, hm]
  refine ⟨_, rfl, rfl, rfl, rfl, ?_, ?_, ?_, ?_, rfl, rfl, rfl, rfl, rfl⟩ <;> intros <;> simp_all

/-! ## Examples -/

/-- A request in a nested message. -/
def exInner (b : String) (r : Option Bytes) : FMsg (List Char) :=
  ⟨{ tid := some (List.replicate 16 1), senderNonce := some (List.replicate 16 2), recipNonce := r }, b⟩

example : (buildNested exHdrBuild exInfo ([1], [2]) [3] [4] 100 true (some [exInner "certConf" (some (List.replicate 16 5))])
      { sender := .text "x".toList, recipient := .text "y".toList, exclude := some "sender,senderKID".toList }).map
        (fun r => validateAddProtection r.1.toHdr (some (r.2.map FMsg.toInner)) true) = .ok (.ok ()) := by decide +kernel
example : uniqueSeq [[1], [2]] (fun i => [UInt8.ofNat (i + 1)]) = .ok [3] := by decide +kernel
example : uniqueValues [[1], [2], [1]] = [[1], [2]] := by decide +kernel
example : (buildPoll exHdrBuild exInfo ([1], [2]) [3] [4] 100 (some { tid := some [7], senderNonce := some [8], recipNonce := some [9] })
      (-1) { sender := .text "x".toList, recipient := .text "y".toList }).map
        (fun r => (r.2, r.1.tid, r.1.recipNonce, r.1.senderNonce)) = .ok (-1, some [7], some [8], some [9]) := by decide +kernel

end Verif.Ra
