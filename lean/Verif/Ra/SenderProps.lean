import Verif.Ra.Sender
import Verif.Ra.GenInfoProps
import Verif.Check.HeaderProps
import Mathlib.Data.List.Forall2

/-!
# Properties of the sender and senderKID checks
-/

namespace Verif.Ra

open Verif.CA (PyErr Bytes ProtType presenceCheck)
open Verif.Check (Hdr validateRequestIds checkMessageTime validateWrongIntegrity)

variable {V C : Type}

/-! ## The text of a name -/

/-- `ts` are the texts `TYPE=value` of the attributes of a name with one of the given types, in order. -/
def NameTexts (env : SenderEnv V C) (oids : List (List Nat)) (d : Dn V) (ts : List (List Char)) : Prop :=
  List.Forall₂ (fun a t => ∃ x, env.text a.val = .ok x ∧ t = (cmNames.lookup a.oid).getD ['N', 'o', 'n', 'e'] ++ '=' :: x)
    (d.flatten.filter fun a => decide (a.oid ∈ oids)) ts

theorem attrTexts_iff (env : SenderEnv V C) (oids : List (List Nat)) : ∀ (l : List (SAttr V)) (ts : List (List Char)),
    attrTexts env.text oids l = .ok ts ↔
      List.Forall₂ (fun a t => ∃ x, env.text a.val = .ok x ∧ t = (cmNames.lookup a.oid).getD ['N', 'o', 'n', 'e'] ++ '=' :: x)
        (l.filter fun a => decide (a.oid ∈ oids)) ts
  | [], ts => by
    unfold attrTexts
    rw [List.filter_nil, List.forall₂_nil_left_iff]
    exact ⟨fun h => (Except.ok.inj h).symm, fun h => by rw [h]⟩
  | a :: as, ts => by
    unfold attrTexts
    by_cases ha : a.oid ∈ oids
    · rw [if_pos ha, List.filter_cons_of_pos (by simpa using ha)]
      cases ht : env.text a.val with
      | error e =>
        dsimp only
        refine ⟨fun h => (by cases h), fun h => ?_⟩
        cases h with
        | cons h1 h2 =>
          obtain ⟨x, hx, _⟩ := h1
          rw [ht] at hx
          cases hx
      | ok t =>
        dsimp only
        constructor
        · intro h
          cases hr : attrTexts env.text oids as with
          | error e => rw [hr] at h; cases h
          | ok us =>
            rw [hr] at h
            rw [← Except.ok.inj h]
            exact .cons ⟨t, ht, rfl⟩ ((attrTexts_iff env oids as us).1 hr)
        · intro h
          cases h with
          | cons h1 h2 =>
            obtain ⟨x, hx, h1⟩ := h1
            rw [ht] at hx
            cases hx
            rw [(attrTexts_iff env oids as _).2 h2, h1]
    · rw [if_neg ha, List.filter_cons_of_neg (by simpa using ha)]
      exact attrTexts_iff env oids as ts

theorem opensslName_iff (env : SenderEnv V C) (oids : List (List Nat)) (d : Dn V) (t : List Char) :
    opensslName env.text oids d = .ok t ↔ ∃ ts, NameTexts env oids d ts ∧ t = joinNames ts := by
  unfold opensslName NameTexts
  constructor
  · intro h
    cases hr : attrTexts env.text oids d.flatten with
    | error e => rw [hr] at h; cases h
    | ok ts =>
      rw [hr] at h
      exact ⟨ts, (attrTexts_iff env oids _ ts).1 hr, (Except.ok.inj h).symm⟩
  · rintro ⟨ts, h, rfl⟩
    rw [(attrTexts_iff env oids _ ts).2 h]

/-- The values of the common names of a name. -/
def CommonNames (env : SenderEnv V C) (d : Dn V) (vs : List (List Char)) : Prop :=
  List.Forall₂ (fun a v => env.text a.val = .ok v) (d.flatten.filter fun a => decide (a.oid = [2, 5, 4, 3])) vs

/-- The identifier which the code makes of common names. -/
def macId : List (List Char) → List Char
  | [] => ['N', 'U', 'L', 'L', '-', 'D', 'N']
  | v :: vs => v ++ (vs.map ([',', 'C', 'N', '='] ++ ·)).flatten

theorem cn_texts_aux (env : SenderEnv V C) : ∀ (l : List (SAttr V)) (ts : List (List Char)),
    (∀ a ∈ l, a.oid = [2, 5, 4, 3]) →
    (List.Forall₂ (fun a t => ∃ x, env.text a.val = .ok x ∧ t = (cmNames.lookup a.oid).getD ['N', 'o', 'n', 'e'] ++ '=' :: x) l ts ↔
      ∃ vs, List.Forall₂ (fun a v => env.text a.val = .ok v) l vs ∧ ts = vs.map (['C', 'N', '='] ++ ·))
  | [], ts, _ => by
    simp only [List.forall₂_nil_left_iff]
    refine ⟨fun h => ⟨[], rfl, h⟩, ?_⟩
    rintro ⟨vs, rfl, h⟩
    exact h
  | a :: as, ts, hl => by
    have ha := hl a (List.mem_cons_self ..)
    have hl' := fun b hb => hl b (List.mem_cons_of_mem _ hb)
    constructor
    · intro h
      cases h with
      | cons h1 h2 =>
        obtain ⟨x, hx, rfl⟩ := h1
        obtain ⟨vs, hvs, rfl⟩ := (cn_texts_aux env as _ hl').1 h2
        refine ⟨x :: vs, .cons hx hvs, ?_⟩
        rw [ha]
        rfl
    · rintro ⟨vs, hvs, rfl⟩
      cases hvs with
      | cons h1 h2 =>
        refine .cons ⟨_, h1, ?_⟩ ((cn_texts_aux env as _ hl').2 ⟨_, h2, rfl⟩)
        rw [ha]
        rfl

theorem cn_texts_iff (env : SenderEnv V C) (d : Dn V) (ts : List (List Char)) :
    NameTexts env [idCn] d ts ↔ ∃ vs, CommonNames env d vs ∧ ts = vs.map (['C', 'N', '='] ++ ·) := by
  unfold NameTexts CommonNames
  have : (fun a : SAttr V => decide (a.oid ∈ [idCn])) = fun a => decide (a.oid = [2, 5, 4, 3]) := by
    funext a
    simp [idCn]
  rw [this]
  refine cn_texts_aux env _ ts fun a ha => ?_
  simpa using (List.mem_filter.1 ha).2

theorem cn_notation_iff (env : SenderEnv V C) (d : Dn V) (t : List Char) :
    opensslName env.text [idCn] d = .ok t ↔ ∃ vs, CommonNames env d vs ∧ t = joinNames (vs.map (['C', 'N', '='] ++ ·)) := by
  rw [opensslName_iff]
  constructor
  · rintro ⟨ts, h, rfl⟩
    obtain ⟨vs, hv, rfl⟩ := (cn_texts_iff env d ts).1 h
    exact ⟨vs, hv, rfl⟩
  · rintro ⟨vs, hv, rfl⟩
    exact ⟨_, (cn_texts_iff env d _).2 ⟨vs, hv, rfl⟩, rfl⟩

theorem dropCn_join (vs : List (List Char)) : dropCn (joinNames (vs.map (['C', 'N', '='] ++ ·))) = macId vs := by
  cases vs with
  | nil => decide
  | cons v vs =>
    unfold joinNames macId
    rw [List.map_cons]
    simp only [List.map_map]
    rfl

/-- `k` names `t`: with or without the prefix `CN=`. -/
def Names (k t : List Char) : Prop :=
  k = ['C', 'N', '='] ++ t ∨ (k = t ∧ ¬ ['C', 'N', '='] <+: t)

theorem dropCn_eq (k t : List Char) : dropCn k = t ↔ Names k t := by
  unfold Names
  constructor
  · intro h
    unfold dropCn at h
    split at h
    · exact Or.inl (by rw [h]; rfl)
    · rename_i hk
      refine Or.inr ⟨h, ?_⟩
      rintro ⟨r, hr⟩
      exact hk r (by rw [h, ← hr]; rfl)
  · rintro (rfl | ⟨rfl, h⟩)
    · rfl
    · unfold dropCn
      split
      · rename_i r
        exact absurd ⟨r, rfl⟩ h
      · rfl

/-! ## C189 -/

/-- The name `n` is the subject `subj`: as a directory name, or as the text of it in an e-mail address. -/
def IsSubject (env : SenderEnv V C) (n : GName V) (subj : Dn V) : Prop :=
  n = .dir subj ∨ ∃ ts, n = .mail (joinNames ts) ∧ NameTexts env (cmNames.map (·.1)) subj ts

/-- What is accepted as sender and senderKID of a message protected with `p`. -/
def GoodSender (env : SenderEnv V C) (p : ProtType) (n : GName V) (kid : Bytes) (extra : List C) : Prop :=
  if p = .mac ∨ p = .kem then
    ∃ d vs k, n = .dir d ∧ CommonNames env d vs ∧ env.utf8? kid = some k ∧ Names k (macId vs)
  else
    IsSubject env n (firstSubject env extra) ∧
      ∀ c, extra.head? = some c → ∃ s, env.ski c = .ok s ∧ (s = none ∨ s = some kid)

theorem compareGn_iff [DecidableEq V] (env : SenderEnv V C) (n : GName V) (subj : Dn V) :
    compareGn env n subj = .ok true ↔ IsSubject env n subj := by
  unfold compareGn IsSubject
  cases n with
  | dir d =>
    simp only [Except.ok.injEq, decide_eq_true_iff, GName.dir.injEq, reduceCtorEq, false_and, exists_false, or_false]
  | mail s =>
    simp only [reduceCtorEq, false_or, GName.mail.injEq]
    constructor
    · intro h
      cases ho : opensslName env.text (cmNames.map (·.1)) subj with
      | error e => rw [ho] at h; cases h
      | ok t =>
        rw [ho] at h
        obtain ⟨ts, hts, rfl⟩ := (opensslName_iff env _ subj t).1 ho
        exact ⟨ts, (of_decide_eq_true (Except.ok.inj h)).symm, hts⟩
    · rintro ⟨ts, rfl, hts⟩
      rw [(opensslName_iff env _ subj _).2 ⟨ts, hts, rfl⟩]
      simp
  | uri s => simp
  | other k => simp

theorem kidForMac_iff (env : SenderEnv V C) (n : GName V) (kid : Bytes) :
    kidForMac env n kid false = .ok () ↔
      ∃ d vs k, n = .dir d ∧ CommonNames env d vs ∧ env.utf8? kid = some k ∧ Names k (macId vs) := by
  unfold kidForMac
  cases n with
  | dir d =>
    dsimp only
    constructor
    · intro h
      cases hk : env.utf8? kid with
      | none => rw [hk] at h; cases h
      | some k =>
        rw [hk] at h
        dsimp only at h
        cases ho : opensslName env.text [idCn] d with
        | error e => rw [ho] at h; cases h
        | ok t =>
          rw [ho] at h
          dsimp only at h
          obtain ⟨vs, hvs, rfl⟩ := (cn_notation_iff env d t).1 ho
          by_cases he : dropCn k = dropCn (joinNames (vs.map (['C', 'N', '='] ++ ·)))
          · rw [dropCn_join] at he
            exact ⟨d, vs, k, rfl, hvs, rfl, (dropCn_eq _ _).1 he⟩
          · rw [if_pos ⟨he, rfl⟩] at h
            cases h
    · rintro ⟨d', vs, k, hd, hvs, hk, hn⟩
      cases hd
      rw [hk]
      dsimp only
      rw [(cn_notation_iff env d _).2 ⟨vs, hvs, rfl⟩]
      dsimp only
      rw [if_neg]
      rintro ⟨h, _⟩
      exact h (by rw [dropCn_join]; exact (dropCn_eq _ _).2 hn)
  | mail s => simp
  | uri s => simp
  | other k => simp

/-- **C189.** A message passes the checks of sender and senderKID of a CA which wants protection if and only if it is
protected with a known algorithm, has a senderKID, and: for MAC- and KEM-based protection the sender is a directory
name and the senderKID names the identifier made of its common names, with or without `CN=`; otherwise the sender is
the subject of the first certificate, and the senderKID is its key identifier, if it has one. -/
theorem C189_accepted_iff [DecidableEq V] (env : SenderEnv V C) (m : SMsg V C) :
    senderChecks env true m = .ok () ↔
      m.protection = true ∧ ∃ p kid, m.alg = some (some p) ∧ m.kid = some kid ∧ GoodSender env p m.sender kid m.extra := by
  unfold senderChecks checkSender validateKid presenceCheck GoodSender
  cases halg : m.alg with
  | none => cases hp : m.protection <;> simp
  | some p? =>
    cases hp : m.protection with
    | false => simp
    | true =>
      cases p? with
      | none => simp
      | some p =>
        simp only [Option.isSome_some, reduceCtorEq, and_false, if_false, and_self, if_true, true_and,
          Option.some.injEq]
        by_cases hm : p = .mac ∨ p = .kem
        · simp only [if_pos hm]
          constructor
          · intro h
            cases hs : senderForMac env m.sender false with
            | error e => rw [hs] at h; cases h
            | ok u =>
              rw [hs] at h
              dsimp only at h
              cases hk : m.kid with
              | none => rw [hk] at h; cases h
              | some kid =>
                rw [hk] at h
                refine ⟨p, kid, rfl, rfl, ?_⟩
                rw [if_pos hm]
                exact (kidForMac_iff env m.sender kid).1 h
          · rintro ⟨p', kid, rfl, hk, h⟩
            rw [if_pos hm] at h
            have h' := (kidForMac_iff env m.sender kid).2 h
            obtain ⟨d, vs, k, hd, hvs, -, -⟩ := h
            have hs : senderForMac env m.sender false = .ok () := by
              unfold senderForMac
              rw [hd]
              dsimp only
              rw [(cn_notation_iff env d _).2 ⟨vs, hvs, rfl⟩]
            rw [hs, hk]
            exact h'
        · simp only [if_neg hm]
          constructor
          · intro h
            cases hc : compareGn env m.sender (firstSubject env m.extra) with
            | error e => rw [hc] at h; cases h
            | ok b =>
              rw [hc] at h
              cases b with
              | false => cases h
              | true =>
                dsimp only at h
                cases hk : m.kid with
                | none => rw [hk] at h; cases h
                | some kid =>
                  rw [hk] at h
                  dsimp only at h
                  refine ⟨p, kid, rfl, rfl, ?_⟩
                  rw [if_neg hm]
                  refine ⟨(compareGn_iff env _ _).1 hc, fun c hcc => ?_⟩
                  unfold kidCert at h
                  dsimp only at h
                  rw [hcc] at h
                  dsimp only at h
                  cases hski : env.ski c with
                  | error e => rw [hski] at h; cases h
                  | ok s =>
                    refine ⟨s, rfl, ?_⟩
                    rw [hski] at h
                    cases s with
                    | none => exact Or.inl rfl
                    | some s =>
                      dsimp only at h
                      by_cases hsk : s = kid
                      · exact Or.inr (by rw [hsk])
                      · rw [if_neg hsk] at h
                        cases h
          · rintro ⟨p', kid, rfl, hk, h⟩
            rw [if_neg hm] at h
            obtain ⟨h1, h2⟩ := h
            rw [(compareGn_iff env _ _).2 h1, hk]
            dsimp only
            unfold kidCert
            dsimp only
            cases he : m.extra.head? with
            | none => rfl
            | some c =>
              dsimp only
              obtain ⟨s, hs, h3⟩ := h2 c he
              rw [hs]
              rcases h3 with rfl | rfl
              · rfl
              · exact if_pos rfl

/-- **C189.** For a sender with one common name the senderKID has to be it, with or without `CN=`. -/
theorem C189_one_cn [DecidableEq V] (env : SenderEnv V C) (d : Dn V) (v : List Char) (hd : CommonNames env d [v])
    (kid : Bytes) (k : List Char) (hk : env.utf8? kid = some k) (extra : List C) :
    senderChecks env true ⟨.dir d, some kid, some (some .mac), true, extra⟩ = .ok () ↔
      k = ['C', 'N', '='] ++ v ∨ (k = v ∧ ¬ ['C', 'N', '='] <+: v) := by
  rw [C189_accepted_iff]
  unfold GoodSender
  constructor
  · rintro ⟨-, p, kid', hp, hkid, h⟩
    cases hp
    cases hkid
    rw [if_pos (Or.inl rfl)] at h
    obtain ⟨d', vs, k', hd', hvs, hk', hn⟩ := h
    cases hd'
    rw [hk] at hk'
    cases hk'
    have : vs = [v] := by
      unfold CommonNames at hd hvs
      generalize d.flatten.filter (fun a => decide (a.oid = [2, 5, 4, 3])) = l at hd hvs
      cases hd with
      | cons h1 h2 =>
        cases h2
        cases hvs with
        | cons g1 g2 =>
          cases g2
          rw [h1] at g1
          rw [Except.ok.inj g1]
    subst this
    simpa [macId, Names] using hn
  · intro h
    refine ⟨rfl, .mac, kid, rfl, rfl, ?_⟩
    rw [if_pos (Or.inl rfl)]
    exact ⟨d, [v], k, rfl, hd, hk, by simpa [macId, Names] using h⟩

/-- **C189 refuted.** A sender without any common name is accepted for MAC-based protection, if the senderKID is the text
`NULL-DN`. -/
theorem C189_no_cn_refuted [DecidableEq V] (env : SenderEnv V C) (d : Dn V) (hd : ∀ r ∈ d, ∀ a ∈ r, a.oid ≠ [2, 5, 4, 3])
    (kid : Bytes) (hk : env.utf8? kid = some "NULL-DN".toList) (extra : List C) :
    senderChecks env true ⟨.dir d, some kid, some (some .mac), true, extra⟩ = .ok () := by
  rw [C189_accepted_iff]
  refine ⟨rfl, .mac, kid, rfl, rfl, ?_⟩
  unfold GoodSender
  rw [if_pos (Or.inl rfl)]
  refine ⟨d, [], _, rfl, ?_, hk, Or.inr ⟨by decide, by decide⟩⟩
  unfold CommonNames
  rw [List.forall₂_nil_right_iff, List.filter_eq_nil_iff]
  intro a ha
  obtain ⟨r, hr, ha⟩ := List.mem_flatten.1 ha
  simpa using hd r hr a ha

/-- **C189 refuted.** The senderKID does not determine the common names: one for two common names `a` and `b` is also
accepted for a sender with the one common name `a,CN=b`. -/
theorem C189_ambiguous_refuted [DecidableEq V] (env : SenderEnv V C) (x y z : V) (a b : List Char) (hx : env.text x = .ok a)
    (hy : env.text y = .ok b) (hz : env.text z = .ok (a ++ [',', 'C', 'N', '='] ++ b)) (kid : Bytes)
    (hk : env.utf8? kid = some (['C', 'N', '='] ++ (a ++ [',', 'C', 'N', '='] ++ b))) (extra : List C) :
    senderChecks env true ⟨.dir [[⟨[2, 5, 4, 3], x⟩], [⟨[2, 5, 4, 3], y⟩]], some kid, some (some .mac), true, extra⟩ = .ok () ∧
    senderChecks env true ⟨.dir [[⟨[2, 5, 4, 3], z⟩]], some kid, some (some .mac), true, extra⟩ = .ok () := by
  rw [C189_accepted_iff, C189_accepted_iff]
  unfold GoodSender
  refine ⟨⟨rfl, .mac, kid, rfl, rfl, ?_⟩, ⟨rfl, .mac, kid, rfl, rfl, ?_⟩⟩
  · rw [if_pos (Or.inl rfl)]
    exact ⟨_, [a, b], _, rfl, .cons hx (.cons hy .nil), hk, Or.inl (by simp [macId])⟩
  · rw [if_pos (Or.inl rfl)]
    exact ⟨_, [a ++ [',', 'C', 'N', '='] ++ b], _, rfl, .cons hz .nil, hk, Or.inl (by simp [macId])⟩

/-- **C189 refuted.** For DH-based MAC protection the rules for MACs do not hold: the sender has to be the subject of a
certificate, and a message without certificates is refused whatever its senderKID, unless the sender is the empty
name. -/
theorem C189_dh_refuted [DecidableEq V] (env : SenderEnv V C) (d : Dn V) (hd : d ≠ []) (kid : Option Bytes) (must : Bool) :
    senderChecks env must ⟨.dir d, kid, some (some .dh), true, []⟩ = .error .badMessageCheck := by
  unfold senderChecks checkSender presenceCheck
  simp only [Option.isSome_some, reduceCtorEq, if_false, and_self, if_true, or_self]
  unfold compareGn firstSubject
  simp [hd]

/-- **C189 refuted.** A signed message without any certificate passes the checks with any senderKID, if the sender is
the empty name. -/
theorem C189_no_cert_refuted [DecidableEq V] (env : SenderEnv V C) (kid : Bytes) (must : Bool) :
    senderChecks env must ⟨.dir [], some kid, some (some .tradSig), true, []⟩ = .ok () := by
  cases must <;> rfl

/-- **C189.** If the certificate has no key identifier, any senderKID is accepted. -/
theorem C189_no_ski [DecidableEq V] (env : SenderEnv V C) (c : C) (cs : List C) (h : env.ski c = .ok none) (kid : Bytes)
    (p : ProtType) (hp : ¬ (p = .mac ∨ p = .kem)) :
    senderChecks env true ⟨.dir (env.subject c), some kid, some (some p), true, c :: cs⟩ = .ok () := by
  rw [C189_accepted_iff]
  refine ⟨rfl, p, kid, rfl, rfl, ?_⟩
  unfold GoodSender
  rw [if_neg hp]
  refine ⟨Or.inl rfl, fun c' hc => ⟨none, ?_, Or.inl rfl⟩⟩
  cases hc
  exact h

/-- **C189 refuted.** An e-mail address as sender does not determine the subject: attributes of other types are
ignored. -/
theorem C189_mail_refuted [DecidableEq V] (env : SenderEnv V C) (c c' : C) (d : Dn V) (a : SAttr V)
    (ha : a.oid = [1, 2, 3]) (hc : env.subject c = d) (hc' : env.subject c' = d ++ [[a]]) (t : List Char)
    (ht : opensslName env.text (cmNames.map (·.1)) d = .ok t) (kid : Bytes) (h : env.ski c = .ok none)
    (h' : env.ski c' = .ok none) :
    senderChecks env true ⟨.mail t, some kid, some (some .tradSig), true, [c]⟩ = .ok () ∧
    senderChecks env true ⟨.mail t, some kid, some (some .tradSig), true, [c']⟩ = .ok () := by
  obtain ⟨ts, hts, rfl⟩ := (opensslName_iff env _ d t).1 ht
  rw [C189_accepted_iff, C189_accepted_iff]
  unfold GoodSender
  refine ⟨⟨rfl, .tradSig, kid, rfl, rfl, ?_⟩, ⟨rfl, .tradSig, kid, rfl, rfl, ?_⟩⟩
  · rw [if_neg (by simp)]
    refine ⟨Or.inr ⟨ts, rfl, ?_⟩, fun x hx => ⟨none, ?_, Or.inl rfl⟩⟩
    · unfold firstSubject
      dsimp only
      rw [hc]
      exact hts
    · cases hx
      exact h
  · rw [if_neg (by simp)]
    refine ⟨Or.inr ⟨ts, rfl, ?_⟩, fun x hx => ⟨none, ?_, Or.inl rfl⟩⟩
    · unfold firstSubject
      dsimp only
      rw [hc']
      unfold NameTexts at hts ⊢
      rw [List.flatten_append, List.filter_append]
      have : List.filter (fun x : SAttr V => decide (x.oid ∈ cmNames.map (·.1))) [[a]].flatten = [] := by
        rw [List.filter_eq_nil_iff]
        intro x hx
        have : x = a := by simpa using hx
        rw [this, ha]
        decide
      rw [this, List.append_nil]
      exact hts
    · cases hx
      exact h'

/-- **C189 refuted.** A response whose sender is an URI or of another type of name ends with an error of Python, also if
differing senders are to be allowed. -/
theorem C189_types_refuted [DecidableEq V] (env : SenderEnv V C) (must allow : Bool) (s : List Char) (k : String)
    (p : ProtType) (hp : ¬ (p = .mac ∨ p = .kem)) (kid : Option Bytes) (extra : List C) :
    checkSender env must allow ⟨.uri s, kid, some (some p), true, extra⟩ = .error .valueError ∧
    checkSender env must allow ⟨.other k, kid, some (some p), true, extra⟩ = .error .notImplemented := by
  unfold checkSender presenceCheck
  simp only [Option.isSome_some, reduceCtorEq, false_and, if_false, and_self, if_true, if_neg hp]
  exact ⟨rfl, rfl⟩

/-- **C189.** Without protection, and if none is wanted, neither field is looked at. -/
theorem C189_unprotected [DecidableEq V] (env : SenderEnv V C) (n : GName V) (kid : Option Bytes) (extra : List C) :
    senderChecks env false ⟨n, kid, none, false, extra⟩ = .ok () := rfl

/-! ## C190 -/

/-- A certificate chain of a signer: it has at least two certificates, the last one is self-signed, and the first one
may sign. -/
def GoodSigner (env : SenderEnv V C) (extra : List C) : Prop :=
  ∃ c cs a b r z, extra = c :: cs ∧ env.chain c (c :: cs) = .ok (a :: b :: r) ∧ (b :: r).getLast? = some z ∧
    env.signer z z = .ok true ∧ env.sigUsage a = .ok ()

/-- What the CA wants of the header of a protected request which is not `nested`. -/
structure GoodHeader (env : SenderEnv V C) (ie : InfoEnv) (cfg : HCfg) (now : Int) (m : HMsg V C) : Prop where
  version : m.pvno = 2 ∨ m.pvno = 3
  notNested : m.body ≠ "nested"
  ids : ∃ t s, m.hdr.txId = some t ∧ m.hdr.senderNonce = some s ∧ m.hdr.recipNonce = none ∧ t.length = 16 ∧ s.length = 16
  info : GoodInfo ie now m.body m.info
  profiles : ∀ e, FirstOf m.info [1, 3, 6, 1, 5, 5, 7, 4, 21] e →
    ∃ b ps, e.val = some b ∧ ie.decProfiles b = some (ps, []) ∧ ps ≠ [] ∧ ps.length ≠ requests m.body m.n ∧
      ∀ p ∈ ps, p = "base" ∨ p = ""
  time : cfg.checkTime = true → ∃ t, m.hdr.time = some t ∧ t ≤ now ∧ now ≤ t + cfg.interval
  prot : m.protection = true
  sender : ∃ p kid, m.alg = some (some p) ∧ m.kid = some kid ∧ GoodSender env p m.sender kid m.extra ∧
    (m.body ∈ ["ccr", "kur", "rr"] → p ≠ .mac) ∧ (m.body = "ccr" → p ≠ .dh ∧ p ≠ .kem) ∧
    (p ∉ [.mac, .kem, .dh] → GoodSigner env m.extra) ∧
    (p = .mac → cfg.lwcmp = true → m.lwAlg = true)

theorem checkSigner_iff (env : SenderEnv V C) (extra : List C) : checkSigner env extra = .ok () ↔ GoodSigner env extra := by
  unfold checkSigner GoodSigner
  cases extra with
  | nil => simp
  | cons c cs =>
    dsimp only
    constructor
    · intro h
      cases hc : env.chain c (c :: cs) with
      | error e => rw [hc] at h; cases h
      | ok l =>
        rw [hc] at h
        match l, h with
        | [], h => cases h
        | [_], h => cases h
        | a :: b :: r, h =>
          dsimp only at h
          cases hs : env.signer ((b :: r).getLast (by simp)) ((b :: r).getLast (by simp)) with
          | error e => rw [hs] at h; cases h
          | ok x =>
            rw [hs] at h
            cases x with
            | false => cases h
            | true => exact ⟨c, cs, a, b, r, _, rfl, hc, List.getLast?_eq_some_getLast (by simp), hs, h⟩
    · rintro ⟨c', cs', a, b, r, z, h0, hc, hz, hs, hu⟩
      cases h0
      rw [hc]
      dsimp only
      rw [List.getLast?_eq_some_getLast (by simp)] at hz
      rw [Option.some.inj hz, hs]
      exact hu

/-- **C190.** The header of a request which is not `nested` is accepted by a CA which wants protection if and only if it
is good in the sense above. -/
theorem C190_accepted_iff [DecidableEq V] (env : SenderEnv V C) (ie : InfoEnv) (cfg : HCfg) (hm : cfg.must = true) (now : Int)
    (m : HMsg V C) : caValidateHeader env ie cfg now false m = .ok () ↔ GoodHeader env ie cfg now m := by
  unfold caValidateHeader
  have hprof : ∀ (hg : GoodInfo ie now m.body m.info), (validateProfile ie m.body m.n (some ["base"]) m.info = .ok () ↔
      ∀ e, FirstOf m.info [1, 3, 6, 1, 5, 5, 7, 4, 21] e →
        ∃ b ps, e.val = some b ∧ ie.decProfiles b = some (ps, []) ∧ ps ≠ [] ∧ ps.length ≠ requests m.body m.n ∧
          ∀ p ∈ ps, p = "base" ∨ p = "") := by
    intro hg
    rw [C187_accepted_iff]
    constructor
    · intro h e he
      obtain ⟨_, b, ps, h1, h2, h3, h4, h5⟩ := h e he
      exact ⟨b, ps, h1, h2, h3, h4, fun p hp => (h5 p hp).imp (fun x => by simpa using x) id⟩
    · intro h e he
      obtain ⟨b, ps, h1, h2, h3, h4, h5⟩ := h e he
      have hb : m.body ∈ ["ir", "cr", "kur", "p10cr", "genm"] := by
        obtain ⟨pre, post, hgl, ho, _⟩ := he
        exact hg.profile e (by rw [hgl]; simp) ho
      exact ⟨hb, b, ps, h1, h2, h3, h4, fun p hp => (h5 p hp).imp (fun x => by simpa using x) id⟩
  have htime : caTime cfg now m.hdr = .ok () ↔
      (cfg.checkTime = true → ∃ t, m.hdr.time = some t ∧ t ≤ now ∧ now ≤ t + cfg.interval) := by
    unfold caTime
    cases hc : cfg.checkTime with
    | false => simp
    | true =>
      simp only [if_true, forall_const]
      rw [← Verif.Check.C96_request_time]
      cases ht : m.hdr.time with
      | none =>
        simp only [reduceCtorEq, false_iff]
        intro h
        obtain ⟨t, h1, _⟩ := (Verif.Check.C96_request_time _ _ _).1 h
        rw [ht] at h1
        cases h1
      | some t => exact Iff.rfl
  have hsig : ∀ p, m.alg = some (some p) → (caSigner env cfg m = .ok () ↔
      (p ∉ [ProtType.mac, .kem, .dh] → GoodSigner env m.extra) ∧ (p = .mac → cfg.lwcmp = true → m.lwAlg = true)) := by
    intro p hp
    unfold caSigner
    rw [hp]
    dsimp only
    have := checkSigner_iff env m.extra
    cases p <;> simp [this] <;> (cases cfg.lwcmp <;> cases m.lwAlg <;> simp)
  constructor
  · intro h
    split at h
    · cases h
    rename_i hv
    split at h
    · cases h
    rename_i hids
    split at h
    · cases h
    rename_i hinfo
    split at h
    · cases h
    rename_i ht
    split at h
    · cases h
    split at h
    · cases h
    rename_i hwi
    split at h
    · cases h
    rename_i hs
    rw [hm, C189_accepted_iff] at hs
    obtain ⟨hprot, p, kid, halg, hkid, hgood⟩ := hs
    have hids' := (Verif.Check.C99_request_ids_iff m.hdr m.body).1 (by simpa using hids)
    unfold caGenInfo at hinfo
    split at hinfo
    · cases hinfo
    rename_i hgi
    have hgi' := (C186_accepted_iff ie now m.body m.info).1 hgi
    have hwi' := (Verif.Check.C18_iff m.body m.alg).1 hwi
    obtain ⟨hs1, hs2⟩ := (hsig p halg).1 h
    obtain ⟨hn, ⟨t, ht1, ht2⟩, ⟨sn, hs3, hs4⟩, hr⟩ := hids'
    refine ⟨by omega, hn, ⟨t, sn, ht1, hs3, hr, ht2, hs4⟩, hgi', (hprof hgi').1 hinfo, htime.1 ht, hprot,
      p, kid, halg, hkid, hgood, fun hb => ?_, fun hb => ?_, hs1, hs2⟩
    · obtain ⟨p', hp', h1, _⟩ := hwi' (by
        simp only [List.mem_cons, List.not_mem_nil, or_false] at hb ⊢
        rcases hb with hb | hb | hb
        · exact Or.inl hb
        · exact Or.inr (Or.inl hb)
        · exact Or.inr (Or.inr (Or.inl hb)))
      rw [halg] at hp'
      cases hp'
      exact h1
    · obtain ⟨p', hp', _, h1⟩ := hwi' (by rw [hb]; decide)
      rw [halg] at hp'
      cases hp'
      exact h1 hb
  · rintro ⟨hv, hn, ⟨t, sn, ht1, hs3, hr, ht2, hs4⟩, hgi, hpr, ht, hprot, p, kid, halg, hkid, hgood, hb1, hb2, hs1, hs2⟩
    rw [if_neg (by omega), if_neg (by simp), (Verif.Check.C99_request_ids_iff m.hdr m.body).2
      ⟨hn, ⟨t, ht1, ht2⟩, ⟨sn, hs3, hs4⟩, hr⟩]
    dsimp only
    have hcg : caGenInfo ie now m.body m.n m.info = .ok () := by
      unfold caGenInfo
      rw [(C186_accepted_iff ie now m.body m.info).2 hgi]
      exact (hprof hgi).2 hpr
    rw [hcg]
    dsimp only
    rw [htime.2 ht]
    dsimp only
    have hpc : presenceCheck m.alg.isSome m.protection cfg.must = .ok () := by
      rw [halg, hprot]
      rfl
    rw [hpc]
    dsimp only
    have hwi : validateWrongIntegrity m.body m.alg = .ok () := by
      rw [Verif.Check.C18_iff]
      intro hb
      refine ⟨p, halg, ?_, hb2⟩
      simp only [List.mem_cons, List.not_mem_nil, or_false] at hb
      refine hb1 ?_
      rcases hb with hb | hb | hb | hb
      · rw [hb]; decide
      · rw [hb]; decide
      · rw [hb]; decide
      · exact absurd hb hn
    rw [hwi]
    dsimp only
    have hsc : senderChecks env cfg.must m.toSMsg = .ok () := by
      rw [hm]
      exact (C189_accepted_iff env m.toSMsg).2 ⟨hprot, p, kid, halg, hkid, hgood⟩
    rw [hsc]
    exact (hsig p halg).2 ⟨hs1, hs2⟩

/-! ## Examples -/

/-- Certificates are subjects with a key identifier; chains are the given lists. -/
def exSend : SenderEnv (List Char) (Dn (List Char) × Option Bytes) where
  text := .ok
  utf8? b := some (b.map fun x => Char.ofNat x.toNat)
  subject c := c.1
  ski c := .ok c.2
  chain _ l := .ok l
  signer _ _ := .ok true
  sigUsage _ := .ok ()

def exCn (s : String) : Dn (List Char) := [[⟨[2, 5, 4, 3], s.toList⟩]]
def exBytes (s : String) : Bytes := s.toList.map fun c => UInt8.ofNat c.toNat

example : senderChecks exSend true ⟨.dir (exCn "a"), some (exBytes "CN=a"), some (some .mac), true, []⟩ = .ok () := by decide +kernel
example : senderChecks exSend true ⟨.dir (exCn "a"), some (exBytes "a"), some (some .kem), true, []⟩ = .ok () := by decide +kernel
example : senderChecks exSend true ⟨.dir (exCn "a"), some (exBytes "b"), some (some .mac), true, []⟩ = .error .badMessageCheck := by
  decide +kernel
example : senderChecks exSend true ⟨.dir (exCn "a"), some [7], some (some .tradSig), true, [(exCn "a", some [7])]⟩ = .ok () := by
  decide +kernel
example : senderChecks exSend true ⟨.dir (exCn "a"), some [8], some (some .tradSig), true, [(exCn "a", some [7])]⟩
    = .error .badMessageCheck := by decide +kernel
example : senderChecks exSend true ⟨.mail "CN=a,O=b".toList, some [7], some (some .pqSig), true,
    [([[⟨[2, 5, 4, 3], "a".toList⟩], [⟨[2, 5, 4, 10], "b".toList⟩]], some [7])]⟩ = .ok () := by decide +kernel

/-- A signed request which is accepted. -/
def exHMsg : HMsg (List Char) (Dn (List Char) × Option Bytes) where
  sender := .dir (exCn "a")
  kid := some [7]
  alg := some (some .tradSig)
  protection := true
  extra := [(exCn "a", some [7]), (exCn "ca", none)]
  pvno := 2
  hdr := { txId := some (List.replicate 16 1), senderNonce := some (List.replicate 16 2), time := some 100 }
  body := "kur"
  n := 1
  info := []

example : caValidateHeader exSend exInfo { must := true, interval := 60 } 120 false exHMsg = .ok () := by decide +kernel
example : caValidateHeader exSend exInfo { must := true, interval := 60 } 120 false { exHMsg with pvno := 1 }
    = .error .unsupportedVersion := by decide +kernel
example : caValidateHeader exSend exInfo { must := true, interval := 60 } 120 false { exHMsg with extra := [(exCn "a", some [7])] }
    = .error .signerNotTrusted := by decide +kernel

end Verif.Ra
