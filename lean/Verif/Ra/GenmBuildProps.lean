import Verif.Ra.GenmBuild
import Verif.Ra.CertGenProps
import Verif.Ra.GeneralExamples

/-!
# Properties of the general messages built by the client, and the answers of the CA to them
-/

namespace Verif.Ra.Genm

open Verif.CA (PyErr)
open Verif.Check (splitComma stripL)
open Verif.Ra (Itv idIt GenEnv GenMsg GenState GenAnswer processGeneral Piece)

/-- The names accepted by the keyword and the types of RFC 9810, section 5.3.19, in the order of the body. -/
def nameTypes : List (String × List Nat) :=
  [("get_ca_certs", [1, 3, 6, 1, 5, 5, 7, 4, 17]), ("get_root_ca_cert_update", [1, 3, 6, 1, 5, 5, 7, 4, 20]),
   ("get_cert_template", [1, 3, 6, 1, 5, 5, 7, 4, 19]), ("current_crl", [1, 3, 6, 1, 5, 5, 7, 4, 6]),
   ("preferred_sym_alg", [1, 3, 6, 1, 5, 5, 7, 4, 4]), ("enc_key_agree", [1, 3, 6, 1, 5, 5, 7, 4, 3]),
   ("sign_key_types", [1, 3, 6, 1, 5, 5, 7, 4, 2]), ("supp_lang_tags", [1, 3, 6, 1, 5, 5, 7, 4, 16]),
   ("kem_ct_info", [1, 3, 6, 1, 5, 5, 7, 4, 9999])]

/-- The name is, literally, one of the pieces between the commas of the text without the blanks around it. -/
def Named (add : Option String) (name : String) : Prop :=
  ∃ t, add = some t ∧ Piece ',' (stripL t.toList) name.toList

theorem named_iff (add : Option String) (name : String) : name.toList ∈ wanted add ↔ Named add name := by
  unfold wanted Named
  cases add with
  | none => simp
  | some t => simp [CertGen.mem_pieces]

theorem ifNamed_map (ns : List (List Char)) (name : String) (e : Itv) :
    (ifNamed ns name e).map Itv.oid = if name.toList ∈ ns then [e.oid] else [] := by
  unfold ifNamed; split <;> rfl

theorem ifNamed_sub (ns : List (List Char)) (name : String) (e : Itv) :
    ((ifNamed ns name e).map Itv.oid).Sublist [e.oid] := by
  rw [ifNamed_map]; split
  · exact List.Sublist.refl _
  · exact List.nil_sublist _

theorem mem_ifNamed (ns : List (List Char)) (name : String) (e x : Itv) :
    x ∈ ifNamed ns name e ↔ name.toList ∈ ns ∧ x = e := by
  unfold ifNamed; split <;> simp [*]

theorem mem_ifNamed_oid (ns : List (List Char)) (name : String) (e : Itv) (o : List Nat) :
    o ∈ (ifNamed ns name e).map Itv.oid ↔ name.toList ∈ ns ∧ o = e.oid := by
  rw [ifNamed_map]; split <;> simp [*]

/-- The entries, with the names which ask for them. -/
theorem mem_appended (env : BuildEnv) (ns : List (List Char)) (f : Bool) (c : Option (List UInt8)) (x : Itv) :
    x ∈ appended env ns f c ↔
      ("get_ca_certs".toList ∈ ns ∧ x = infoEntry env 17 f) ∨ ("get_root_ca_cert_update".toList ∈ ns ∧ x = rootEntry c) ∨
      ("get_cert_template".toList ∈ ns ∧ x = infoEntry env 19 f) ∨ ("current_crl".toList ∈ ns ∧ x = infoEntry env 6 f) ∨
      ("preferred_sym_alg".toList ∈ ns ∧ x = infoEntry env 4 f) ∨ ("enc_key_agree".toList ∈ ns ∧ x = infoEntry env 3 f) ∨
      ("sign_key_types".toList ∈ ns ∧ x = infoEntry env 2 f) ∨ ("supp_lang_tags".toList ∈ ns ∧ x = langEntry env) ∨
      ("kem_ct_info".toList ∈ ns ∧ x = infoEntry env 9999 f) := by
  unfold appended
  simp only [List.mem_append, mem_ifNamed]

/-- **C261.** Without the CRL update the body consists of the given entries followed by entries of the known types: each
at most once, in a fixed order whatever the order of the names, and exactly those whose name is given; no other name has
an effect. -/
theorem C261_entries (env : BuildEnv) (add : Option String) (c : Option (List UInt8)) (info : List Itv) (neg : Bool)
    (h : ¬ Named add "crl_update_ret") :
    ∃ l, buildGeneral env add c info neg = .ok (info ++ l) ∧
      (l.map Itv.oid).Sublist (nameTypes.map Prod.snd) ∧
      ∀ p ∈ nameTypes, (p.2 ∈ l.map Itv.oid ↔ Named add p.1) := by
  refine ⟨appended env (wanted add) neg c, ?_, ?_, ?_⟩
  · unfold buildGeneral
    rw [if_neg (fun hh => h ((named_iff _ _).1 hh))]
  · unfold appended
    simp only [List.map_append]
    exact (ifNamed_sub _ _ _).append ((ifNamed_sub _ _ _).append ((ifNamed_sub _ _ _).append
      ((ifNamed_sub _ _ _).append ((ifNamed_sub _ _ _).append ((ifNamed_sub _ _ _).append
      ((ifNamed_sub _ _ _).append ((ifNamed_sub _ _ _).append (ifNamed_sub _ _ _))))))))
  · intro p hp
    have key : p.2 ∈ (appended env (wanted add) neg c).map Itv.oid ↔ p.1.toList ∈ wanted add := by
      unfold appended
      simp only [List.map_append, List.mem_append, mem_ifNamed_oid, infoEntry, rootEntry, langEntry]
      change p ∈ [("get_ca_certs", idIt 17), ("get_root_ca_cert_update", idIt 20), ("get_cert_template", idIt 19),
        ("current_crl", idIt 6), ("preferred_sym_alg", idIt 4), ("enc_key_agree", idIt 3), ("sign_key_types", idIt 2),
        ("supp_lang_tags", idIt 16), ("kem_ct_info", idIt 9999)] at hp
      simp only [List.mem_cons, List.not_mem_nil, or_false] at hp
      rcases hp with rfl | rfl | rfl | rfl | rfl | rfl | rfl | rfl | rfl <;>
        simp only [idIt_inj, Nat.reduceEqDiff, and_true, and_false, or_false, false_or]
    exact key.trans (named_iff _ _)

/-- **C261.** Asking for the CRL update puts its entry first; it is the only one whose preparation can fail. -/
theorem C261_crl_update (env : BuildEnv) (add : Option String) (c : Option (List UInt8)) (info : List Itv) (neg : Bool)
    (h : Named add "crl_update_ret") :
    (∀ e, env.crlRetrieval neg = .error e → buildGeneral env add c info neg = .error e) ∧
    (∀ x, env.crlRetrieval neg = .ok x →
      ∃ l, buildGeneral env add c info neg = .ok (x :: (info ++ l)) ∧
        (l.map Itv.oid).Sublist (nameTypes.map Prod.snd)) := by
  have hw := (named_iff _ _).2 h
  unfold buildGeneral
  rw [if_pos hw]
  refine ⟨fun e he => by rw [he], fun x hx => ⟨_, by rw [hx], ?_⟩⟩
  unfold appended
  simp only [List.map_append]
  exact (ifNamed_sub _ _ _).append ((ifNamed_sub _ _ _).append ((ifNamed_sub _ _ _).append
    ((ifNamed_sub _ _ _).append ((ifNamed_sub _ _ _).append ((ifNamed_sub _ _ _).append
    ((ifNamed_sub _ _ _).append ((ifNamed_sub _ _ _).append (ifNamed_sub _ _ _))))))))

variable {N R E C : Type} [DecidableEq N] [DecidableEq R] [DecidableEq C]

/-- A CA which has all that the entries ask for, and a client whose first certificate has a KEM key. -/
structure Ready (ca : GenEnv N R E C) (m : GenMsg C) (cert : Option (List UInt8)) : Prop where
  crl : ∃ v, ca.crl 0 = .ok v
  root : ∃ v, ca.rootUpdate = .ok v
  known : ∀ b, cert = some b → ∃ c, ca.decCert b = some (c, [])
  kem : ∃ c cs r, m.extra = c :: cs ∧ ca.kem c = .ok r

theorem forall2_of_total {A B : Type} {P : A → B → Prop} (l : List A) (h : ∀ x ∈ l, ∃ y, P x y) :
    ∃ os, List.Forall₂ P l os := by
  induction l with
  | nil => exact ⟨[], .nil⟩
  | cons x xs ih =>
    obtain ⟨y, hy⟩ := h x (by simp)
    obtain ⟨os, ho⟩ := ih (fun z hz => h z (by simp [hz]))
    exact ⟨y :: os, .cons hy ho⟩

theorem forall2_mem {A B : Type} {P : A → B → Prop} {l : List A} {os : List B} (h : List.Forall₂ P l os) :
    ∀ x ∈ l, ∃ y, P x y := by
  induction h with
  | nil => intro x hx; cases hx
  | cons h1 _ ih =>
    intro x hx
    rcases List.mem_cons.1 hx with rfl | hx
    · exact ⟨_, h1⟩
    · exact ih x hx

/-- **C261.** The message built by the client is answered by a CA outside the lightweight profile exactly if one of the
known names is given and the language tags are not among them; the CA has the requested data, and reads the language
tags as they were written. -/
theorem C261_answered_iff (env : BuildEnv) (ca : GenEnv N R E C) (s : GenState) (m : GenMsg C) (add : Option String)
    (c : Option (List UInt8)) (hn : ¬ Named add "crl_update_ret") (hb : buildGeneral env add c [] false = .ok m.body)
    (hl : ca.lwcmp = false) (hr : Ready ca m c) (hd : ca.decLangs (env.encLangs ["DE"]) = some (["DE"], [])) :
    (∃ os ts s', processGeneral ca s m = (.ok (os, ts), s')) ↔
      (∃ p ∈ nameTypes, Named add p.1) ∧ ¬ Named add "supp_lang_tags" := by
  have hbody : m.body = appended env (wanted add) false c := by
    unfold buildGeneral at hb
    rw [if_neg (fun hh => hn ((named_iff _ _).1 hh)), List.nil_append] at hb
    injection hb with hb
    exact hb.symm
  have hne : m.body ≠ [] ↔ ∃ p ∈ nameTypes, Named add p.1 := by
    obtain ⟨l, h1, h2, h3⟩ := C261_entries env add c [] false hn
    rw [List.nil_append, hb] at h1
    cases h1
    constructor
    · intro hne
      obtain ⟨x, hx⟩ := List.exists_mem_of_ne_nil _ hne
      have : x.oid ∈ nameTypes.map Prod.snd := h2.subset (List.mem_map.2 ⟨x, hx, rfl⟩)
      obtain ⟨p, hp, e⟩ := List.mem_map.1 this
      exact ⟨p, hp, (h3 p hp).1 (e ▸ List.mem_map.2 ⟨x, hx, rfl⟩)⟩
    · rintro ⟨p, hp, hnm⟩ he
      have := (h3 p hp).2 hnm
      rw [he] at this
      cases this
  rw [← hne]
  constructor
  · rintro ⟨os, ts, s', h⟩
    obtain ⟨h1, -, h3⟩ := (C174_answered_iff ca s m os).1 ⟨ts, s', h⟩
    refine ⟨h1, fun hlang => ?_⟩
    have hx : langEntry env ∈ m.body := by
      rw [hbody, mem_appended]
      have := (named_iff _ _).2 hlang
      simp only [this, true_and, true_or, or_true]
    obtain ⟨y, hy⟩ := forall2_mem h3 _ hx
    unfold langEntry idIt at hy
    cases hy with
    | langs b l hb1 hb2 hb3 =>
      rw [hd] at hb1
      cases hb1
      exact absurd (hb3 "DE" (by simp)) (by decide)
  · rintro ⟨h1, h2⟩
    obtain ⟨os, ho⟩ := forall2_of_total (P := GenAnswer ca m) m.body (by
      intro x hx
      rw [hbody, mem_appended] at hx
      obtain ⟨⟨v, hv⟩, ⟨w, hw⟩, hk, d, ds, ⟨ss, r⟩, hm, hkem⟩ := hr
      rcases hx with ⟨-, rfl⟩ | ⟨-, rfl⟩ | ⟨-, rfl⟩ | ⟨-, rfl⟩ | ⟨-, rfl⟩ | ⟨-, rfl⟩ | ⟨-, rfl⟩ | ⟨hh, -⟩ | ⟨-, rfl⟩
      · exact ⟨_, .caCerts⟩
      · cases c with
        | none => exact ⟨_, .rootAny w hw⟩
        | some b =>
          obtain ⟨d, hd'⟩ := hk b rfl
          by_cases hq : d = ca.rootCert
          · subst hq; exact ⟨_, .rootSame b w hd' hw⟩
          · exact ⟨_, .rootOther b d hd' hq⟩
      · exact ⟨_, .template⟩
      · exact ⟨_, .crl v hv⟩
      · exact ⟨_, .sym⟩
      · exact ⟨_, .enc⟩
      · exact ⟨_, .sign⟩
      · exact absurd ((named_iff _ _).1 hh) h2
      · exact ⟨_, .kem d ds ss r hm hkem⟩)
    obtain ⟨ts, s', h⟩ := (C174_answered_iff ca s m os).2 ⟨h1, (fun hh => by rw [hl] at hh; cases hh), ho⟩
    exact ⟨os, ts, s', h⟩

/-- **C261, refuted.** The language tags which the client asks for (`DE`, RFC 5646 tags are compared without regard to
case) are refused by every CA, with every other entry of the same message. -/
theorem C261_language_refuted (env : BuildEnv) (ca : GenEnv N R E C) (s : GenState) (m : GenMsg C) (add : Option String)
    (c : Option (List UInt8)) (info : List Itv) (neg : Bool) (hn : Named add "supp_lang_tags")
    (hb : buildGeneral env add c info neg = .ok m.body)
    (hd : ca.decLangs (env.encLangs ["DE"]) = some (["DE"], [])) :
    ¬ ∃ os ts s', processGeneral ca s m = (.ok (os, ts), s') := by
  rintro ⟨os, ts, s', h⟩
  obtain ⟨-, -, h3⟩ := (C174_answered_iff ca s m os).1 ⟨ts, s', h⟩
  have hx0 : langEntry env ∈ appended env (wanted add) neg c := by
    rw [mem_appended]
    have := (named_iff _ _).2 hn
    simp only [this, true_and, true_or, or_true]
  have hx : langEntry env ∈ m.body := by
    unfold buildGeneral at hb
    split at hb
    · split at hb
      · cases hb
      · injection hb with hb
        rw [← hb]
        exact List.mem_cons_of_mem _ (List.mem_append_right _ hx0)
    · injection hb with hb
      rw [← hb]
      exact List.mem_append_right _ hx0
  obtain ⟨y, hy⟩ := forall2_mem h3 _ hx
  unfold langEntry idIt at hy
  cases hy with
  | langs b l hb1 hb2 hb3 =>
    rw [hd] at hb1
    cases hb1
    exact absurd (hb3 "DE" (by simp)) (by decide)

/-- **C261.** A negative message (with random values where the value has to be absent) is refused by every CA, if it asks
for one of the seven types whose value the client fills. -/
theorem C261_negative (env : BuildEnv) (ca : GenEnv N R E C) (s : GenState) (m : GenMsg C) (add : Option String)
    (c : Option (List UInt8)) (name : String)
    (hn : Named add name) (hnm : name ∈ ["get_ca_certs", "get_cert_template", "current_crl", "preferred_sym_alg",
      "enc_key_agree", "sign_key_types", "kem_ct_info"])
    (hu : ¬ Named add "crl_update_ret") (hb : buildGeneral env add c [] true = .ok m.body) :
    ¬ ∃ os ts s', processGeneral ca s m = (.ok (os, ts), s') := by
  rintro ⟨os, ts, s', h⟩
  obtain ⟨-, -, h3⟩ := (C174_answered_iff ca s m os).1 ⟨ts, s', h⟩
  have hbody : m.body = appended env (wanted add) true c := by
    unfold buildGeneral at hb
    rw [if_neg (fun hh => hu ((named_iff _ _).1 hh)), List.nil_append] at hb
    injection hb with hb
    exact hb.symm
  have hw := (named_iff _ _).2 hn
  have hx : ∃ n ∈ [17, 19, 6, 4, 3, 2, 9999], infoEntry env n true ∈ m.body := by
    simp only [List.mem_cons, List.not_mem_nil, or_false] at hnm
    rcases hnm with rfl | rfl | rfl | rfl | rfl | rfl | rfl
    · exact ⟨17, by simp, by rw [hbody, mem_appended]; simp only [hw, true_and, true_or, or_true]⟩
    · exact ⟨19, by simp, by rw [hbody, mem_appended]; simp only [hw, true_and, true_or, or_true]⟩
    · exact ⟨6, by simp, by rw [hbody, mem_appended]; simp only [hw, true_and, true_or, or_true]⟩
    · exact ⟨4, by simp, by rw [hbody, mem_appended]; simp only [hw, true_and, true_or, or_true]⟩
    · exact ⟨3, by simp, by rw [hbody, mem_appended]; simp only [hw, true_and, true_or, or_true]⟩
    · exact ⟨2, by simp, by rw [hbody, mem_appended]; simp only [hw, true_and, true_or, or_true]⟩
    · exact ⟨9999, by simp, by rw [hbody, mem_appended]; simp only [hw, true_and, or_true]⟩
  obtain ⟨n, hn', hx⟩ := hx
  obtain ⟨y, hy⟩ := forall2_mem h3 _ hx
  simp only [List.mem_cons, List.not_mem_nil, or_false] at hn'
  unfold infoEntry idIt at hy
  rw [if_pos rfl] at hy
  rcases hn' with rfl | rfl | rfl | rfl | rfl | rfl | rfl <;> cases hy

/-- **C261.** `negative` has no effect on the update of the root certificate: a message which asks for it only is the same
with and without it. -/
theorem C261_negative_root (env : BuildEnv) (c : Option (List UInt8)) (neg : Bool) :
    buildGeneral env (some "get_root_ca_cert_update") c [] neg = .ok [⟨[1, 3, 6, 1, 5, 5, 7, 4, 20], c⟩] := by
  have hw : wanted (some "get_root_ca_cert_update") = ["get_root_ca_cert_update".toList] := by decide +kernel
  unfold buildGeneral appended ifNamed
  rw [hw]
  rfl

/-- **C261, refuted.** A name which follows a comma and a blank is ignored without a message, be it known or not: the body
is the one of the names before it. -/
theorem C261_blank_refuted (env : BuildEnv) (a b : String) (c : Option (List UInt8)) (info : List Itv) (neg : Bool)
    (ha : ',' ∉ a.toList) (hb : ',' ∉ b.toList) (ha1 : ' ' ∉ a.toList) (hb1 : ' ' ∉ b.toList) (ha2 : a.toList ≠ [])
    (hb2 : b.toList ≠ []) :
    buildGeneral env (some (a ++ ", " ++ b)) c info neg = buildGeneral env (some a) c info neg := by
  have hs : ∀ l : List Char, (∀ x, l.head? = some x → x ≠ ' ') → (∀ x, l.getLast? = some x → x ≠ ' ') → stripL l = l := by
    intro l h1 h2
    have d : ∀ k : List Char, (∀ x, k.head? = some x → x ≠ ' ') → k.dropWhile (· == ' ') = k := by
      intro k hk
      cases k with
      | nil => rfl
      | cons x xs => simp [hk x rfl]
    unfold stripL
    rw [d l h1, d l.reverse (by intro x hx; rw [List.head?_reverse] at hx; exact h2 x hx), List.reverse_reverse]
  have hwa : wanted (some a) = [a.toList] := by
    unfold wanted; dsimp only
    rw [hs _ (fun x hx e => ha1 (e ▸ List.mem_of_head? hx)) (fun x hx e => ha1 (e ▸ List.mem_of_getLast? hx))]
    exact Verif.Check.splitComma_token _ ha
  have hwb : wanted (some (a ++ ", " ++ b)) = [a.toList, ' ' :: b.toList] := by
    have e : (a ++ ", " ++ b).toList = a.toList ++ ',' :: (' ' :: b.toList) := by simp
    unfold wanted; dsimp only
    rw [e, hs]
    · rw [Verif.Check.splitComma_cons _ _ ha, Verif.Check.splitComma_token]
      simp [hb]
    · intro x hx e'
      rw [List.head?_append_of_ne_nil _ ha2] at hx
      exact ha1 (e' ▸ List.mem_of_head? hx)
    · intro x hx e'
      have : a.toList ++ ',' :: (' ' :: b.toList) = (a.toList ++ [',', ' ']) ++ b.toList := by simp
      rw [this, List.getLast?_append_of_ne_nil _ hb2] at hx
      exact hb1 (e' ▸ List.mem_of_getLast? hx)
  have hm : ∀ name : String, name.toList.head? ≠ some ' ' →
      (name.toList ∈ [a.toList, ' ' :: b.toList] ↔ name.toList ∈ [a.toList]) := by
    intro name hh
    simp only [List.mem_cons, List.not_mem_nil, or_false, or_iff_left_iff_imp]
    intro h
    rw [h] at hh
    exact absurd rfl hh
  have hi : ∀ (name : String) (e : Itv), name.toList.head? ≠ some ' ' →
      ifNamed [a.toList, ' ' :: b.toList] name e = ifNamed [a.toList] name e := by
    intro name e hh
    unfold ifNamed
    rw [if_congr (hm name hh) rfl rfl]
  unfold buildGeneral
  rw [hwa, hwb]
  have happ : appended env [a.toList, ' ' :: b.toList] neg c = appended env [a.toList] neg c := by
    unfold appended
    rw [hi _ _ (by decide), hi _ _ (by decide), hi _ _ (by decide), hi _ _ (by decide), hi _ _ (by decide),
      hi _ _ (by decide), hi _ _ (by decide), hi _ _ (by decide), hi _ _ (by decide)]
  rw [happ, if_congr (hm "crl_update_ret" (by decide)) rfl rfl]

/-- **C261.** A message with no known name, such as one asked for with misspelt names only, is built with an empty body
and refused by every CA. -/
theorem C261_unknown_refused (env : BuildEnv) (ca : GenEnv N R E C) (s : GenState) (m : GenMsg C) (add : Option String)
    (c : Option (List UInt8)) (neg : Bool) (hu : ¬ Named add "crl_update_ret") (hn : ∀ p ∈ nameTypes, ¬ Named add p.1)
    (hb : buildGeneral env add c [] neg = .ok m.body) :
    processGeneral ca s m = (.error .badRequest, s) := by
  obtain ⟨l, h1, h2, h3⟩ := C261_entries env add c [] neg hu
  rw [List.nil_append, hb] at h1
  cases h1
  have he : m.body = [] := by
    rw [List.eq_nil_iff_forall_not_mem]
    intro x hx
    have : x.oid ∈ nameTypes.map Prod.snd := h2.subset (List.mem_map.2 ⟨x, hx, rfl⟩)
    obtain ⟨p, hp, e⟩ := List.mem_map.1 this
    exact hn p hp ((h3 p hp).1 (e ▸ List.mem_map.2 ⟨x, hx, rfl⟩))
  unfold processGeneral
  rw [he]
  simp

/-! ## Examples -/

/-- Toy encodings. -/
def exBuild : BuildEnv := ⟨fun n => [n.toUInt8, 7], fun _ => [3], fun b => if b then .error .valueError else .ok ⟨idIt 22, some [1]⟩⟩

/-- Names in another order, one of them twice, and one unknown (C261). -/
example : buildGeneral exBuild (some " current_crl,get_ca_certs,nonsense,current_crl ") none [⟨[1, 2], none⟩] false =
    .ok [⟨[1, 2], none⟩, ⟨idIt 17, none⟩, ⟨idIt 6, none⟩] := by decide +kernel

/-- The CRL update comes first; the second name is lost because of the blank (C261). -/
example : buildGeneral exBuild (some "kem_ct_info, get_ca_certs,crl_update_ret") none [] false =
    .ok [⟨idIt 22, some [1]⟩, ⟨idIt 9999, none⟩] := by decide +kernel

/-- A built message is answered by the CA (C261). -/
example : ∃ l, buildGeneral exBuild (some "sign_key_types,get_ca_certs") none [] false = .ok l ∧
    (processGeneral (exGen false) exGenState (exGenMsg l)).1.map Prod.fst =
      .ok [⟨idIt 17, some [17]⟩, ⟨idIt 2, some [2]⟩] := ⟨_, rfl, by decide +kernel⟩

/-- The negative one is refused (C261). -/
example : ∃ l, buildGeneral exBuild (some "sign_key_types,get_ca_certs") none [] true = .ok l ∧
    (processGeneral (exGen false) exGenState (exGenMsg l)).1 = .error .badValueBehavior := ⟨_, rfl, by decide +kernel⟩

/-- The hypotheses of `C261_answered_iff` about the CA hold for a CA. -/
example : Ready (exGen false) (exGenMsg []) (some [2]) :=
  ⟨⟨_, rfl⟩, ⟨_, rfl⟩, fun b h => ⟨2, by cases h; rfl⟩, ⟨1, [], _, rfl, rfl⟩⟩

end Verif.Ra.Genm
