import Verif.Ra.RevReq
import Verif.Ra.ReqTmplProps
import Verif.Check.TemplateProps

/-!
# What the CA makes of the revocation requests of the client (C239)
-/

namespace Verif.Ra

open Verif.CA hiding Bytes Msg
open Verif.Check hiding Spki

variable {A G K P T : Type}

/-- Encoding and decoding of an ENUMERATED fit together, `int()` does not read the names of reasons, and going through
a set visits every element once. -/
structure RevAgree (re : RevEnc) (decode : Bytes → Option (Int × Bytes)) : Prop where
  dec : ∀ n rest, 0 ≤ n → n ≤ 20 → decode (re.enc n ++ rest) = some (n, rest)
  names : ∀ n r, CrlReason n r → re.pyInt r.toList = none
  order : ∀ l, (re.order l).Perm l

theorem RevAgree.dec0 {re : RevEnc} {decode : Bytes → Option (Int × Bytes)} (h : RevAgree re decode) (n : Int)
    (h0 : 0 ≤ n) (h1 : n ≤ 20) : decode (re.enc n) = some (n, []) := by
  have := h.dec n [] h0 h1
  rwa [List.append_nil] at this

theorem RevAgree.order1 {re : RevEnc} {decode : Bytes → Option (Int × Bytes)} (h : RevAgree re decode) (x : List Char) :
    re.order [x] = [x] := List.perm_singleton.1 (h.order [x])

theorem crlReason_range {n : Int} {r : String} (h : CrlReason n r) : 0 ≤ n ∧ n ≤ 20 := by
  cases h <;> decide

theorem reasonValue_name {re : RevEnc} {decode : Bytes → Option (Int × Bytes)} (h : RevAgree re decode) {n : Int}
    {r : String} (hr : CrlReason n r) : reasonValue re r.toList = .ok n := by
  unfold reasonValue
  rw [h.names n r hr]; dsimp only
  cases hr <;> rfl

theorem reasonSet_name {n : Int} {r : String} (hr : CrlReason n r) : reasonSet r.toList = [r.toList] := by
  cases hr <;> decide +kernel

/-- The details for a single named reason are the one extension that the CA reads as this reason. -/
theorem C239_reason {re : RevEnc} {decode : Bytes → Option (Int × Bytes)} (h : RevAgree re decode) {n : Int}
    {r : String} (hr : CrlReason n r) :
    ∃ l, prepReasons re (some r.toList) = .ok l ∧ l.length = 1 ∧ crlReason decode (some l) none = .ok r := by
  refine ⟨[⟨[2, 5, 29, 21], re.enc n⟩], ?_, rfl, ?_⟩
  · unfold prepReasons givenExts
    rw [if_neg (by simp)]; dsimp only
    rw [reasonSet_name hr, h.order1]
    unfold reasonExts
    rw [reasonValue_name h hr]; dsimp only
    unfold reasonExts
    rfl
  · rw [C119_reason]
    exact ⟨_, n, rfl, rfl, h.dec0 n (crlReason_range hr).1 (crlReason_range hr).2, hr, fun m hm => by cases hm⟩

theorem reasonExts_length {re : RevEnc} {b : Bool} {rs : List (List Char)} {l : List Ext}
    (h : reasonExts re b rs = .ok l) : l.length = rs.length := by
  induction rs generalizing l with
  | nil => unfold reasonExts at h; cases h; rfl
  | cons r rs ih =>
    unfold reasonExts at h
    cases h1 : reasonValue re r with
    | error e => rw [h1] at h; cases h
    | ok n =>
      rw [h1] at h; dsimp only at h
      cases h2 : reasonExts re b rs with
      | error e => rw [h2] at h; cases h
      | ok l' =>
        rw [h2] at h; cases h
        rw [List.length_cons, ih h2, List.length_cons]

theorem reasonExts_shape {re : RevEnc} {b : Bool} {rs : List (List Char)} {l : List Ext}
    (h : reasonExts re b rs = .ok l) :
    ∀ e ∈ l, e.oid = [2, 5, 29, 21] ∧ ∃ r ∈ rs, ∃ n, reasonValue re r = .ok n ∧
      e.value = if b then re.enc n ++ [0, 0, 0, 0] else re.enc n := by
  induction rs generalizing l with
  | nil => unfold reasonExts at h; cases h; intro e he; cases he
  | cons r rs ih =>
    unfold reasonExts at h
    cases h1 : reasonValue re r with
    | error e => rw [h1] at h; cases h
    | ok n =>
      rw [h1] at h; dsimp only at h
      cases h2 : reasonExts re b rs with
      | error e => rw [h2] at h; cases h
      | ok l' =>
        rw [h2] at h; cases h
        intro e he
        rcases List.mem_cons.1 he with rfl | he
        · exact ⟨rfl, r, List.mem_cons_self, n, h1, rfl⟩
        · obtain ⟨h3, r', h4, h5⟩ := ih h2 e he
          exact ⟨h3, r', List.mem_cons_of_mem _ h4, h5⟩

theorem prepReasons_ok {re : RevEnc} {s : Option (List Char)} {a b c : Bool} {l : List Ext}
    (h : prepReasons re s a b c = .ok l) :
    ∃ g, givenExts re s c = .ok g ∧
      l = g ++ (if a then [crlReasonExt (re.enc 20)] else []) ++ (if b then [crlReasonExt notDer] else []) := by
  unfold prepReasons at h
  split at h
  · cases h
  cases h1 : givenExts re s c with
  | error e => rw [h1] at h; cases h
  | ok g => rw [h1] at h; cases h; exact ⟨g, rfl, rfl⟩

theorem crlReason_many {decode : Bytes → Option (Int × Bytes)} {l : List Ext} (h : l.length ≠ 1) (m : Option String) :
    crlReason decode (some l) m = .error .badRequest := by
  unfold crlReason
  match l, h with
  | [], _ => rfl
  | [_], h => exact absurd rfl h
  | _ :: _ :: _, _ => rfl

/-- Details with several different reasons, or with a reason and one of the two invalid ones, are rejected, in whatever
order the set of reasons is gone through. -/
theorem C239_several {re : RevEnc} {decode : Bytes → Option (Int × Bytes)} (h : RevAgree re decode) {s : List Char}
    {a b c : Bool} {l : List Ext} (hp : prepReasons re (some s) a b c = .ok l)
    (hm : (a = true ∨ b = true) ∨
      ∃ x ∈ splitComma (stripL s), ∃ y ∈ splitComma (stripL s), x ≠ y) (m : Option String) :
    crlReason decode (some l) m = .error .badRequest := by
  obtain ⟨g, h1, rfl⟩ := prepReasons_ok hp
  have hl := reasonExts_length h1
  rw [(h.order _).length_eq] at hl
  have hmem : ∀ x, x ∈ reasonSet s ↔ x ∈ splitComma (stripL s) := fun x => List.mem_eraseDups
  have hne : splitComma (stripL s) ≠ [] := by
    intro h0
    cases h2 : stripL s with
    | nil => rw [h2] at h0; cases h0
    | cons c cs =>
      rw [h2, splitComma] at h0
      split at h0
      · cases h0
      · split at h0 <;> cases h0
  have hpos : 1 ≤ (reasonSet s).length := by
    cases h2 : splitComma (stripL s) with
    | nil => exact absurd h2 hne
    | cons x xs =>
      have : x ∈ reasonSet s := (hmem x).2 (by rw [h2]; exact List.mem_cons_self)
      exact List.length_pos_of_mem this
  apply crlReason_many
  rw [List.length_append, List.length_append]
  rcases hm with (rfl | rfl) | ⟨x, hx, y, hy, hxy⟩
  · rw [if_pos rfl]
    simp only [List.length_cons, List.length_nil]
    omega
  · rw [if_pos (c := (true = true)) rfl]
    simp only [List.length_cons, List.length_nil]
    omega
  · have h2 : 2 ≤ (reasonSet s).length := by
      have h3 := (hmem x).2 hx
      have h4 := (hmem y).2 hy
      match reasonSet s, h3, h4 with
      | [z], h3, h4 =>
        exact absurd ((List.mem_singleton.1 h3).trans (List.mem_singleton.1 h4).symm) hxy
      | _ :: _ :: _, _, _ => simp
    omega

/-- The invalid details are found to be such by the CA: trailing bytes, a value out of range, and bytes that are no
encoding. -/
theorem C239_invalid {re : RevEnc} {decode : Bytes → Option (Int × Bytes)} (h : RevAgree re decode)
    (hn : decode notDer = none) (l : List Ext) (m : Option String) :
    (∀ n r, CrlReason n r → prepReasons re (some r.toList) (addBytes := true) = .ok l →
      crlReason decode (some l) m = .error .badAsn1Data) ∧
    (prepReasons re none (invReason := true) = .ok l → crlReason decode (some l) m = .error .badAsn1Data) ∧
    (prepReasons re none (invDer := true) = .ok l → crlReason decode (some l) m = .error .badAsn1Data) := by
  refine ⟨fun n r hr hp => ?_, fun hp => ?_, fun hp => ?_⟩
  · obtain ⟨g, h1, rfl⟩ := prepReasons_ok hp
    unfold givenExts at h1; dsimp only at h1
    rw [reasonSet_name hr, h.order1] at h1
    unfold reasonExts at h1
    rw [reasonValue_name h hr] at h1; dsimp only at h1
    unfold reasonExts at h1; dsimp only at h1
    cases h1
    unfold crlReason crlReasonExt
    dsimp only [List.append_nil, List.singleton_append, Bool.false_eq_true, ite_false, ite_true, List.append,
      List.cons_append, List.nil_append]
    simp [h.dec n _ (crlReason_range hr).1 (crlReason_range hr).2]
  · obtain ⟨g, h1, rfl⟩ := prepReasons_ok hp
    cases h1
    unfold crlReason crlReasonExt
    simp [h.dec0 20 (by decide) (by decide)]
    rfl
  · obtain ⟨g, h1, rfl⟩ := prepReasons_ok hp
    cases h1
    unfold crlReason crlReasonExt
    simp [hn]

theorem reasonValue_iff {re : RevEnc} {x : List Char} :
    ((∃ n, reasonValue re x = .ok n) ↔ (∃ n, re.pyInt x = some n) ∨ ∃ n r, CrlReason n r ∧ x = r.toList) ∧
    ((∀ n, reasonValue re x ≠ .ok n) → reasonValue re x = .error .pyasn1Error) := by
  unfold reasonValue
  cases h1 : re.pyInt x with
  | some n => exact ⟨⟨fun _ => .inl ⟨n, rfl⟩, fun _ => ⟨n, rfl⟩⟩, fun h => absurd rfl (h n)⟩
  | none =>
    dsimp only
    cases h2 : crlReasons.find? (fun p => decide (p.2.toList = x)) with
    | some p =>
      have hm := List.mem_of_find?_eq_some h2
      have hp : p.2.toList = x := of_decide_eq_true (List.find?_some (p := fun p : Int × String => decide (p.2.toList = x)) h2)
      refine ⟨⟨fun _ => .inr ⟨p.1, p.2, (lookup_reason _ _).1 ((lookup_iff _ _).2 hm), hp.symm⟩,
        fun _ => ⟨p.1, rfl⟩⟩, fun h => absurd rfl (h p.1)⟩
    | none =>
      refine ⟨⟨fun h => ?_, fun h => ?_⟩, fun _ => rfl⟩
      · obtain ⟨n, h⟩ := h; cases h
      · rcases h with ⟨n, h⟩ | ⟨n, r, hr, rfl⟩
        · cases h
        · have hm := (lookup_iff n r).1 ((lookup_reason n r).2 hr)
          have := List.find?_eq_none.1 h2 (n, r) hm
          exact absurd (decide_eq_true rfl) this

theorem reasonExts_iff {re : RevEnc} {b : Bool} {rs : List (List Char)} :
    ((∃ l, reasonExts re b rs = .ok l) ↔ ∀ x ∈ rs, ∃ n, reasonValue re x = .ok n) ∧
    ((∀ l, reasonExts re b rs ≠ .ok l) → reasonExts re b rs = .error .pyasn1Error) := by
  induction rs with
  | nil => exact ⟨⟨fun _ x hx => (by cases hx), fun _ => ⟨[], rfl⟩⟩, fun h => absurd rfl (h [])⟩
  | cons r rs ih =>
    unfold reasonExts
    cases h1 : reasonValue re r with
    | error e =>
      refine ⟨⟨fun h => ?_, fun h => ?_⟩, fun _ => ?_⟩
      · obtain ⟨l, h⟩ := h; cases h
      · obtain ⟨n, h⟩ := h r List.mem_cons_self
        rw [h1] at h; cases h
      · have := (reasonValue_iff (re := re) (x := r)).2 (fun n hn => by rw [h1] at hn; cases hn)
        rw [h1] at this; cases this; rfl
    | ok n =>
      dsimp only
      cases h2 : reasonExts re b rs with
      | error e =>
        refine ⟨⟨fun h => ?_, fun h => ?_⟩, fun _ => ?_⟩
        · obtain ⟨l, h⟩ := h; cases h
        · obtain ⟨l, h3⟩ := ih.1.2 (fun x hx => h x (List.mem_cons_of_mem _ hx))
          rw [h2] at h3; cases h3
        · have := ih.2 (fun l hl => by rw [h2] at hl; cases hl)
          rw [h2] at this; cases this; rfl
      | ok l =>
        refine ⟨⟨fun _ x hx => ?_, fun _ => ⟨_, rfl⟩⟩, fun h => absurd rfl (h _)⟩
        rcases List.mem_cons.1 hx with rfl | hx
        · exact ⟨n, h1⟩
        · exact ih.1.1 ⟨l, h2⟩ x hx

/-- A list of reasons is accepted exactly if every part of it between commas is a number or the name of a reason;
otherwise `PyAsn1Error` is raised. -/
theorem C239_reasons_read {re : RevEnc} (ho : ∀ l, (re.order l).Perm l) (s : List Char) (a b c : Bool) :
    ((∃ l, prepReasons re (some s) a b c = .ok l) ↔
      ∀ x ∈ splitComma (stripL s), (∃ n, re.pyInt x = some n) ∨ ∃ n r, CrlReason n r ∧ x = r.toList) ∧
    ((∀ l, prepReasons re (some s) a b c ≠ .ok l) → prepReasons re (some s) a b c = .error .pyasn1Error) := by
  have hmem : ∀ x, x ∈ re.order (reasonSet s) ↔ x ∈ splitComma (stripL s) :=
    fun x => (ho _).mem_iff.trans List.mem_eraseDups
  have key := reasonExts_iff (re := re) (b := c) (rs := re.order (reasonSet s))
  unfold prepReasons givenExts
  rw [if_neg (by simp)]; dsimp only
  constructor
  · rw [show (∀ x ∈ splitComma (stripL s), (∃ n, re.pyInt x = some n) ∨ ∃ n r, CrlReason n r ∧ x = r.toList) ↔
        ∃ l, reasonExts re c (re.order (reasonSet s)) = .ok l from ?_]
    · cases h1 : reasonExts re c (re.order (reasonSet s)) with
      | error e =>
        constructor
        · rintro ⟨l, h⟩; cases h
        · rintro ⟨l, h⟩; cases h
      | ok l => exact ⟨fun _ => ⟨l, rfl⟩, fun _ => ⟨_, rfl⟩⟩
    · rw [key.1]
      exact ⟨fun h x hx => reasonValue_iff.1.2 (h x ((hmem x).1 hx)), fun h x hx => reasonValue_iff.1.1 (h x ((hmem x).2 hx))⟩
  · intro h
    cases h1 : reasonExts re c (re.order (reasonSet s)) with
    | error e =>
      have := key.2 (fun l hl => by rw [h1] at hl; cases hl)
      rw [h1] at this; cases this; rfl
    | ok l => exact absurd (by rw [h1]) (h _)

/-- In particular a blank after a comma is not skipped. -/
theorem C239_blank_refuted {re : RevEnc} (ho : ∀ l, (re.order l).Perm l) (hi : re.pyInt " superseded".toList = none) :
    prepReasons re (some "keyCompromise, superseded".toList) = .error .pyasn1Error := by
  apply (C239_reasons_read ho _ _ _ _).2
  intro l hl
  have := (C239_reasons_read ho _ _ _ _).1.1 ⟨l, hl⟩ " superseded".toList (by decide +kernel)
  rcases this with ⟨n, hn⟩ | ⟨n, r, hr, hx⟩
  · rw [hi] at hn; cases hn
  · have : ∀ p ∈ crlReasons, " superseded".toList ≠ p.2.toList := by decide +kernel
    exact this (n, r) ((lookup_iff n r).1 ((lookup_reason n r).2 hr)) hx

/-! ## The template of the details -/

/-- The issuer has a text that is read back as the same sequence of RDNs. -/
def NameRead (env : ClEnv G K P (DName A) T Ext) (n : DName A) : Prop :=
  ∃ s m, env.notation' n = .ok (some s) ∧ s ≠ "" ∧ env.parse s = .ok m ∧ m.rdns = n.rdns

theorem revExcl_eq : filterOptions templateKeys none (some revExcl) =
    ["extensions".toList, "validity".toList, "publicKey".toList, "subject".toList] := by decide +kernel

/-- The details made of a certificate name exactly its issuer and its serial number, and nothing else. -/
theorem C239_template {env : ClEnv G K P (DName A) T Ext} {c : Cert A G T} (hi : NameRead env c.issuer)
    (hs : ∃ s, env.notation' c.subject = .ok s) (r : List Char) :
    ∃ t, revTmpl env { cert := some c, reason := r } = .ok t ∧ t.serial = some c.serial ∧
      (∃ n, t.issuer = some n ∧ n.rdns = c.issuer.rdns) ∧ t.version = none ∧ t.validity = none ∧ t.subject = none ∧
      t.key = none ∧ t.issuerUID = none ∧ t.subjectUID = none ∧ t.exts = none := by
  obtain ⟨s, m, h1, h2, h3, h4⟩ := hi
  obtain ⟨s', h5⟩ := hs
  refine ⟨⟨none, some c.serial, some m, none, none, none, none, none, none⟩, ?_, rfl, ⟨m, rfl, h4⟩, rfl, rfl, rfl, rfl,
    rfl, rfl, rfl⟩
  have hex : exclusion ({ cert := some (ofCert c), excl := some revExcl } : TmplArgs G K P (DName A) T Ext) =
      ["extensions".toList, "validity".toList, "publicKey".toList, "subject".toList] := by
    unfold exclusion; dsimp only
    rw [revExcl_eq]; rfl
  unfold revTmpl; dsimp only [Option.map]
  unfold prepTmpl; dsimp only
  rw [hex]
  have hn : tmplNames env ({ cert := some (ofCert c), excl := some revExcl } : TmplArgs G K P (DName A) T Ext) =
      .ok (some (.text s), s'.map ClName.text) := by
    unfold tmplNames orCertName ofCert; dsimp only
    rw [h1]; dsimp only
    rw [h5]; rfl
  rw [hn]; dsimp only
  have hsub : nameField env ["extensions".toList, "validity".toList, "publicKey".toList, "subject".toList] "subject"
      (s'.map ClName.text) = .ok none := by
    cases s' with
    | none => rfl
    | some y =>
      unfold nameField; dsimp only [Option.map]
      rw [if_neg (fun hc => hc.2 (by decide))]
  have hiss : nameField env ["extensions".toList, "validity".toList, "publicKey".toList, "subject".toList] "issuer"
      (some (.text s)) = .ok (some m) := by
    unfold nameField; dsimp only
    rw [if_pos ⟨decide_eq_true h2, by decide⟩]
    unfold nameObj; dsimp only
    rw [h3]
  rw [hsub]; dsimp only
  rw [hiss]; dsimp only
  have hkey : tmplPubField env ({ cert := some (ofCert c), excl := some revExcl } : TmplArgs G K P (DName A) T Ext)
      ["extensions".toList, "validity".toList, "publicKey".toList, "subject".toList] = .ok none := by
    unfold tmplPubField
    rw [if_pos (by decide)]
  rw [hkey]; dsimp only
  rfl

section
variable [DecidableEq A] [DecidableEq G] [DecidableEq T]

theorem containsLoop_first (load : Check.Spki G → Except PyErr (Check.Spki G)) (t : Templ A G T) (hk : t.key = none)
    (c : Cert A G T) (cs : List (Cert A G T)) (b : Bool) (hc : c ∈ cs)
    (ha : ∀ x ∈ cs, Agrees load (fun _ => True) true t x ↔ x = c) : containsLoop load t b cs = .ok c := by
  induction cs generalizing b with
  | nil => cases hc
  | cons x xs ih =>
    rw [containsLoop]
    cases h1 : compareTemplate load t x (some "serialNumber, issuer".toList) none false with
    | error e =>
      obtain ⟨-, k, hk', -⟩ := C117_total load t x _ _ _ e h1
      rw [hk] at hk'; cases hk'
    | ok f =>
      cases h2 : compareTemplate load t x none none true with
      | error e =>
        obtain ⟨-, k, hk', -⟩ := C117_total load t x _ _ _ e h2
        rw [hk] at hk'; cases hk'
      | ok r =>
        cases r with
        | true =>
          have := (ha x List.mem_cons_self).1 ((C117_all load t x true).1 h2)
          rw [this]
        | false =>
          have hne : x ≠ c := by
            intro h3
            have := (C117_all load t x true).2 ((ha x List.mem_cons_self).2 h3)
            rw [h2] at this; cases this
          rcases List.mem_cons.1 hc with h3 | h3
          · exact absurd h3.symm hne
          · exact ih f h3 (fun y hy => ha y (List.mem_cons_of_mem _ hy))

/-- The request made of an issued certificate, of which issuer and serial number are its own, is answered by the CA for
exactly this certificate and the requested reason: a revocation unless it is revoked, a revival if it is. -/
theorem C239_round_trip {env : ClEnv G K P (DName A) T Ext} {re : RevEnc} {decode : Bytes → Option (Int × Bytes)}
    (load : Check.Spki G → Except PyErr (Check.Spki G)) (h : RevAgree re decode) {c : Cert A G T}
    (hi : NameRead env c.issuer) (hs : ∃ s, env.notation' c.subject = .ok s) {n : Int} {r : String}
    (hr : CrlReason n r) {issued revoked : List (Cert A G T)} (hc : c ∈ issued)
    (hu : ∀ x ∈ issued, x.serial = c.serial → x.issuer.rdns = c.issuer.rdns → x = c)
    (hv : c ∈ revoked ↔ r = "removeFromCRL") :
    ∃ rr, buildRr env re { cert := some c, reason := r.toList } = .ok rr ∧
      buildRp load decode issued (some revoked) true rr = .ok ([none], [(r, c)]) := by
  obtain ⟨t, h1, h2, ⟨m, h3, h4⟩, h5, h6, h7, h8, h9, h10, h11⟩ := C239_template hi hs r.toList
  obtain ⟨l, h12, -, h13⟩ := C239_reason h hr
  have hag : ∀ x ∈ issued, Agrees load (fun _ => True) true t x ↔ x = c := by
    intro x hx
    constructor
    · intro ha
      refine hu x hx (ha.serial trivial _ h2) ?_
      rw [ha.issuer trivial _ h3, h4]
    · rintro rfl
      refine ⟨fun _ k hk => ?_, fun _ k hk => ?_, fun _ k hk => ?_, fun _ k hk => ?_, fun _ k hk => ?_,
        fun _ k j hk => ?_, fun _ k j hk => ?_, fun _ k hk => ?_, fun _ k hk => ?_, fun _ k hk => ?_⟩
      · rw [h2] at hk; exact Option.some.inj hk
      · rw [h11] at hk; cases hk
      · rw [h3] at hk; cases hk; exact h4.symm
      · rw [h7] at hk; cases hk
      · rw [h8] at hk; cases hk
      · rw [h6] at hk; cases hk
      · rw [h6] at hk; cases hk
      · rw [h9] at hk; cases hk
      · rw [h10] at hk; cases hk
      · rw [h5] at hk; cases hk
  refine ⟨[⟨t, some l⟩], ?_, ?_⟩
  · unfold buildRr prepRevContent prepRevDetails
    dsimp only
    rw [h1]; dsimp only
    unfold revEntry; dsimp only
    rw [h12]; rfl
  · have hval : validateRevDetails load decode ⟨t, some l⟩ issued (some revoked) = .ok (r, c) := by
      unfold validateRevDetails
      dsimp only
      have hman : revMandatory t = .ok () := by
        unfold revMandatory
        rw [h2, h3, h5]; rfl
      rw [hman]; dsimp only
      unfold containsTemplate
      rw [containsLoop_first load t h8 c issued false hc hag]
      dsimp only [Except.mapError]
      rw [h13]; dsimp only
      by_cases hrm : r = "removeFromCRL"
      · rw [if_pos hrm]
        have : certInList c revoked = true := by
          unfold certInList
          exact List.any_eq_true.2 ⟨c, hv.2 hrm, decide_eq_true rfl⟩
        unfold checkRevive; dsimp only
        rw [if_pos this]
      · rw [if_neg hrm]
        have : certInList c revoked = false := by
          unfold certInList
          rw [List.any_eq_false]
          intro x hx hcx
          exact hrm (hv.1 (of_decide_eq_true hcx ▸ hx))
        unfold checkRevoked; dsimp only
        rw [if_neg (by rw [this]; exact Bool.false_ne_true)]
    unfold buildRp
    rw [if_neg (by simp)]
    unfold rpLoop
    rw [hval]; dsimp only
    rw [if_pos rfl]
    unfold rpLoop
    rfl

/-- Without the details for the entry in the CRL nothing is revoked. -/
theorem C239_no_entry {env : ClEnv G K P (DName A) T Ext} {re : RevEnc} {decode : Bytes → Option (Int × Bytes)}
    (load : Check.Spki G → Except PyErr (Check.Spki G)) (a : RevArgs A G T) (ha : a.noEntry = true)
    {rr : List (RevDetails A G T)} (h : buildRr env re a = .ok rr) (issued : List (Cert A G T))
    (revoked : Option (List (Cert A G T))) {sts : List (Option PyErr)} {data : List (String × Cert A G T)}
    (hb : buildRp load decode issued revoked true rr = .ok (sts, data)) :
    data = [] ∧ ∃ e, sts = [some e] := by
  obtain ⟨d, rfl, hd⟩ := C119_answer load decode issued revoked rr sts data hb
  have hnone : d.crlEntryDetails = none := by
    unfold buildRr prepRevContent prepRevDetails at h
    cases h1 : revTmpl env { a with issuer := none } with
    | error e => rw [h1] at h; cases h
    | ok t =>
      rw [h1] at h; dsimp only at h
      unfold revEntry at h; dsimp only at h
      rw [if_pos ha] at h
      cases h; rfl
  rcases hd with ⟨x, h1, -⟩ | ⟨e, -, -, h2, h3⟩
  · have h2 := (C119_accepted load decode d issued revoked x.1 x.2 h1).2.2.2.2.1
    rw [hnone] at h2; cases h2
  · exact ⟨h3, e, h2⟩

/-- The request with a serial number but without a certificate and a template has no issuer; the CA does not answer it
with a revocation, whatever was issued. This is the only way in which `build_cmp_revive_request` names its arguments. -/
theorem C239_serial_only_refuted {env : ClEnv G K P (DName A) T Ext} {re : RevEnc}
    {decode : Bytes → Option (Int × Bytes)} (load : Check.Spki G → Except PyErr (Check.Spki G)) (a : RevArgs A G T)
    (hc : a.cert = none) (ht : a.tmpl = none) {rr : List (RevDetails A G T)}
    (h : buildRr env re a = .ok rr ∨ buildRevive env re a = .ok rr) (issued : List (Cert A G T))
    (revoked : Option (List (Cert A G T))) :
    buildRp load decode issued revoked true rr = .ok ([some .addInfoNotAvailable], []) := by
  have key : ∀ b : RevArgs A G T, b.cert = none → b.tmpl = none → b.issuer = none →
      prepRevContent env re b = .ok rr →
      buildRp load decode issued revoked true rr = .ok ([some .addInfoNotAvailable], []) := by
    intro b hb1 hb2 hb3 h
    unfold prepRevContent prepRevDetails at h
    cases h1 : revTmpl env b with
    | error e => rw [h1] at h; cases h
    | ok t =>
      rw [h1] at h; dsimp only at h
      have hiss : t.issuer = none := by
        unfold revTmpl at h1
        rw [hb2] at h1; dsimp only at h1
        rw [hb1, hb3] at h1
        cases h2 : prepTmpl env { serial := b.serial, issuer := (none : Option String).map ClName.text, cert := (none : Option (Cert A G T)).map ofCert, excl := some b.excl } with
        | error e => rw [h2] at h1; cases h1
        | ok v =>
          obtain ⟨t', l'⟩ := v
          rw [h2] at h1; dsimp only at h1
          have h1 := Except.ok.inj h1
          obtain ⟨i, s, is, sn, k, h3, h4, h5, h6, rfl, -⟩ := prepTmpl_ok h2
          cases h3
          cases h5
          rw [← h1]; rfl
      cases h7 : revEntry re b with
      | error e => rw [h7] at h; cases h
      | ok l =>
        rw [h7] at h; cases h
        have hval : validateRevDetails load decode ⟨t, l⟩ issued revoked = .error .addInfoNotAvailable := by
          unfold validateRevDetails revMandatory
          rw [hiss]; rfl
        unfold buildRp
        rw [if_neg (by simp)]
        unfold rpLoop
        rw [hval]; dsimp only
        rw [if_pos (show PyErr.isCmp .addInfoNotAvailable = true from rfl), if_pos rfl]
        unfold rpLoop
        rfl
  rcases h with h | h
  · exact key { a with issuer := none } hc ht rfl h
  · exact key { a with reason := "removeFromCRL".toList, issuer := none } hc ht rfl h

omit [DecidableEq A] [DecidableEq G] [DecidableEq T] in
/-- With a certificate and a serial number the certificate with this number is meant, except for the number zero, which
is replaced by that of the certificate. -/
theorem C239_serial_number {env : ClEnv G K P (DName A) T Ext} {c : Cert A G T} {n : Int} {r : List Char}
    {t : Templ A G T} (h : revTmpl env { cert := some c, serial := some n, reason := r } = .ok t) :
    t.serial = some (if n = 0 then c.serial else n) := by
  unfold revTmpl at h; dsimp only [Option.map] at h
  cases h2 : prepTmpl env { serial := some n, cert := some (ofCert c), excl := some revExcl } with
  | error e => rw [h2] at h; cases h
  | ok v =>
    obtain ⟨t', l'⟩ := v
    rw [h2] at h
    have h := Except.ok.inj h
    obtain ⟨i, s, is, sn, k, h3, h4, h5, h6, rfl, -⟩ := prepTmpl_ok h2
    rw [← h]
    unfold toTempl assemble tmplSerial exclusion; dsimp only
    rw [revExcl_eq, if_neg (show "serialNumber".toList ∉
      ["extensions".toList, "validity".toList, "publicKey".toList, "subject".toList] ++
        if false = true ∧ (none : Option (P ⊕ K)).isNone = true then ["publicKey".toList] else [] by
        rw [if_neg (by simp)]; decide)]
    by_cases h0 : n = 0
    · rw [if_pos h0, if_pos h0]; rfl
    · rw [if_neg h0, if_neg h0]

omit [DecidableEq A] [DecidableEq G] [DecidableEq T] in
/-- A template and details of the caller are taken as they are. -/
theorem C239_given {env : ClEnv G K P (DName A) T Ext} {re : RevEnc} (a : RevArgs A G T) {t : Templ A G T}
    {l : List Ext} (ht : a.tmpl = some t) (hl : a.entry = some l) (hn : a.noEntry = false) :
    buildRr env re a = .ok [⟨t, some l⟩] := by
  unfold buildRr prepRevContent prepRevDetails revTmpl
  dsimp only
  rw [ht]; dsimp only
  unfold revEntry; dsimp only
  rw [if_neg (by rw [hn]; exact Bool.false_ne_true), hl]

end

/-! ## Examples -/

/-- The client of the examples. -/
def exRevCl : ClEnv Nat Nat Nat (DName Nat) Nat Ext where
  pub := fun p => p
  isKem := fun _ => false
  isXdh := fun _ => false
  isDh := fun _ => false
  spkiOf := fun k => .ok ⟨some k, [1]⟩
  loadKey := fun s => .ok (s.alg.getD 0)
  notation' := fun n => .ok (some (if n.rdns = [[1]] then "CN=CA" else "CN=EE"))
  parse := fun s => .ok ⟨0, if s = "CN=CA" then [[1]] else [[2]]⟩
  badName := fun _ => .ok "x"
  sigAlg := fun p _ _ => .ok p
  hashAlg := fun p _ => .ok p
  sign := fun _ _ _ d => .ok d
  damage := fun _ d => 0 :: d
  encReq := fun _ _ _ => []
  privNums := fun _ => .ok []
  pkcs8 := fun _ => []
  pwri := fun d _ => .ok d

/-- An ENUMERATED of the examples: a tag and the value. -/
def exRevEnc : RevEnc := ⟨fun n => [10, UInt8.ofNat n.toNat], fun _ => none, List.reverse⟩

/-- The certificate of the examples. -/
def exRrCert : Cert Nat Nat Nat := ⟨2, 7, ⟨4, [[1]]⟩, 1, 9, ⟨4, [[2]]⟩, ⟨3, [5]⟩, none, none, [], []⟩

def exRevDec : Bytes → Option (Int × Bytes)
  | 10 :: b :: bs => some (b.toNat, bs)
  | _ => none

example : NameRead exRevCl exRrCert.issuer := ⟨"CN=CA", ⟨0, [[1]]⟩, rfl, by decide, rfl, rfl⟩

theorem exRevAgree : RevAgree exRevEnc exRevDec := by
  refine ⟨fun n rest h0 h1 => ?_, fun _ _ _ => rfl, fun l => List.reverse_perm l⟩
  show some (((UInt8.ofNat n.toNat).toNat : Int), rest) = some (n, rest)
  have : (UInt8.ofNat n.toNat).toNat = n.toNat := by
    rw [UInt8.toNat_ofNat']; omega
  rw [this]
  congr 2
  omega

/-- The answer of the CA to the request, for the examples. -/
def exRp (rr : Except PyErr (List (RevDetails Nat Nat Nat))) (issued revoked : List (Cert Nat Nat Nat)) :
    Option (List (Option PyErr) × List (String × Cert Nat Nat Nat)) :=
  rr.toOption.bind (fun rr => (buildRp (fun s => .ok s) exRevDec issued (some revoked) true rr).toOption)

example : exRp (buildRr exRevCl exRevEnc { cert := some exRrCert, reason := "keyCompromise".toList })
    [{ exRrCert with serial := 8 }, exRrCert] [] = some ([none], [("keyCompromise", exRrCert)]) := by decide +kernel

example : exRp (buildRr exRevCl exRevEnc { cert := some exRrCert, reason := "keyCompromise".toList })
    [exRrCert] [exRrCert] = some ([some .certRevoked], []) := by decide +kernel

example : exRp (buildRr exRevCl exRevEnc { cert := some exRrCert, noEntry := true }) [exRrCert] [] =
    some ([some .badRequest], []) := by decide +kernel

example : exRp (buildRevive exRevCl exRevEnc { cert := some exRrCert }) [exRrCert] [exRrCert] =
    some ([none], [("removeFromCRL", exRrCert)]) := by decide +kernel

example : exRp (buildRevive exRevCl exRevEnc { serial := some 7 }) [exRrCert] [exRrCert] =
    some ([some .addInfoNotAvailable], []) := by decide +kernel

example : (prepReasons exRevEnc (some "keyCompromise,superseded,keyCompromise".toList)).toOption =
    some [⟨[2, 5, 29, 21], [10, 4]⟩, ⟨[2, 5, 29, 21], [10, 1]⟩] := by decide +kernel

example : crlReason exRevDec (some [⟨[2, 5, 29, 21], [10, 4]⟩, ⟨[2, 5, 29, 21], [10, 1]⟩]) none =
    .error .badRequest := rfl

example : (prepReasons exRevEnc (some "keyCompromise, superseded".toList)).toOption = none ∧
    (prepReasons exRevEnc none).toOption = none ∧
    (prepReasons exRevEnc none (invReason := true)).toOption = some [⟨[2, 5, 29, 21], [10, 20]⟩] := by decide +kernel

example : (revTmpl exRevCl { cert := some exRrCert, serial := some 0 }).toOption.map (·.serial) = some (some 7) ∧
    (revTmpl exRevCl { cert := some exRrCert, serial := some 5 }).toOption.map (·.serial) = some (some 5) := by
  decide +kernel

end Verif.Ra
