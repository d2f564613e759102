import Verif.Ra.GeneralClient
import Verif.Ra.GeneralCrl

/-!
# What the validation of general responses accepts
-/

namespace Verif.Ra

open Verif.CA (PyErr)

/-- The first entry of the type: everything before it has another type. -/
def FirstEntry (oid : List Nat) (l : List Itv) (v : Option (List UInt8)) : Prop :=
  ∃ pre e post, l = pre ++ e :: post ∧ e.oid = oid ∧ e.val = v ∧ ∀ x ∈ pre, x.oid ≠ oid

theorem valueOf_some (oid : List Nat) (l : List Itv) (v : Option (List UInt8)) :
    valueOf oid l = some v ↔ FirstEntry oid l v := by
  unfold FirstEntry
  induction l with
  | nil => simp [valueOf]
  | cons a as ih =>
    unfold valueOf
    by_cases h : a.oid = oid
    · rw [if_pos h]
      constructor
      · intro hh
        exact ⟨[], a, as, rfl, h, Option.some.inj hh, by simp⟩
      · rintro ⟨pre, e, post, heq, he, hv, hp⟩
        cases pre with
        | nil =>
          rw [List.nil_append, List.cons.injEq] at heq
          rw [heq.1, hv]
        | cons p ps =>
          rw [List.cons_append, List.cons.injEq] at heq
          exact absurd (heq.1 ▸ h) (hp p (List.mem_cons_self ..))
    · rw [if_neg h, ih]
      constructor
      · rintro ⟨pre, e, post, rfl, he, hv, hp⟩
        refine ⟨a :: pre, e, post, rfl, he, hv, fun x hx => ?_⟩
        rcases List.mem_cons.1 hx with rfl | hx
        · exact h
        · exact hp x hx
      · rintro ⟨pre, e, post, heq, he, hv, hp⟩
        cases pre with
        | nil =>
          rw [List.nil_append, List.cons.injEq] at heq
          exact absurd (heq.1 ▸ he) h
        | cons p ps =>
          rw [List.cons_append, List.cons.injEq] at heq
          exact ⟨ps, e, post, heq.2, he, hv, fun x hx => hp x (List.mem_cons_of_mem _ hx)⟩

theorem fetch_ok (r : Reply) (size : Strint) (oid : List Nat) (v : Option (List UInt8)) :
    fetch r size oid = .ok v ↔ r.name = "genp" ∧ FirstEntry oid r.content v := by
  rw [← valueOf_some]
  unfold fetch validateReply
  by_cases h : r.name = "genp"
  · rw [if_neg (not_not_intro h)]
    dsimp only
    cases hv : valueOf oid r.content with
    | none => simp [h]
    | some w => simp [h]
  · rw [if_pos h]
    simp [h]

theorem decodeAll_ok {T : Type} (dec : List UInt8 → Option (T × List UInt8)) (err : PyErr) (v : Option (List UInt8))
    (x : T) : decodeAll dec err v = .ok x ↔ ∃ b, v = some b ∧ dec b = some (x, []) := by
  unfold decodeAll
  cases v with
  | none => simp
  | some b =>
    dsimp only
    cases h : dec b with
    | none => simp [h]
    | some p =>
      obtain ⟨y, r⟩ := p
      cases r with
      | nil => simp [h]
      | cons a as => simp [h]

/-! ## The number of entries -/

/-- **C178.** The check of a general response refuses every other body. -/
theorem C178_body (r : Reply) (size : Strint) : validateReply r size = .ok () ↔ r.name = "genp" := by
  unfold validateReply
  by_cases h : r.name = "genp" <;> simp [h]

/-- **C178, refuted.** The expected number of entries is not enforced: a response with any number of them passes,
whatever number is expected. -/
theorem C178_size_refuted (l : List Itv) (size : Strint) : validateReply ⟨"genp", l⟩ size = .ok () := by
  simp [validateReply]

/-- **C178, refuted.** The keywords accept a response with further entries: here two language tags, of which only the
first is looked at. -/
theorem C178_extra_entries_refuted (env : AlgsEnv) (b : List UInt8) (l : List Itv)
    (hb : env.decLangs b = some (["en"], [])) :
    validateLangs env ⟨"genp", ⟨[1, 3, 6, 1, 5, 5, 7, 4, 16], some b⟩ :: l⟩ (.int 1) = .ok () := by
  simp [validateLangs, fetch, validateReply, valueOf, idIt, decodeAll, hb]

/-! ## CA certificates -/

variable {C : Type}

/-- **C178.** With the expected number given as a number and met, the certificates are returned exactly if the entry is
there with a list of certificates whose chain could be built and verified. -/
theorem C178_ca_certs_iff (env : CaCertsEnv C) (r : Reply) (must : Bool) (ee : Option C) (ch : List C) :
    validateCaCerts env r must ee (.int r.content.length) = .ok (some ch) ↔
      r.name = "genp" ∧ ∃ b certs rest, FirstEntry [1, 3, 6, 1, 5, 5, 7, 4, 17] r.content (some b) ∧
        env.dec b = some (certs, rest) ∧ caChain env ee certs = .ok ch ∧ env.verify ch = .ok () := by
  have hid : idIt 17 = [1, 3, 6, 1, 5, 5, 7, 4, 17] := rfl
  unfold validateCaCerts
  cases hr : validateReply r (.int r.content.length) with
  | error e =>
    have : r.name ≠ "genp" := fun h => by rw [(C178_body r _).2 h] at hr; cases hr
    simp [this]
  | ok u =>
    have hn := (C178_body r _).1 hr
    dsimp only
    rw [if_neg (by simp [sizeIs])]
    cases hv : valueOf (idIt 17) r.content with
    | none =>
      constructor
      · intro h; cases h
      · rintro ⟨-, b, certs, rest, hf, -⟩
        rw [← valueOf_some, ← hid, hv] at hf; cases hf
    | some v =>
      dsimp only
      have hf := (valueOf_some _ _ _).1 hv
      have huniq : ∀ w, FirstEntry [1, 3, 6, 1, 5, 5, 7, 4, 17] r.content w → w = v := fun w hw => by
        rw [← valueOf_some, ← hid, hv] at hw; exact (Option.some.inj hw).symm
      by_cases hm : v = none ∧ must = true
      · rw [if_pos hm]
        constructor
        · intro h; cases h
        · rintro ⟨-, b, certs, rest, hf', -⟩
          have := huniq _ hf'
          rw [hm.1] at this; cases this
      · rw [if_neg hm]
        unfold caChecked
        cases v with
        | none =>
          constructor
          · intro h; cases h
          · rintro ⟨-, b, certs, rest, hf', -⟩
            have := huniq _ hf'; cases this
        | some b =>
          dsimp only
          constructor
          · intro h
            cases hd : env.dec b with
            | none => rw [hd] at h; cases h
            | some p =>
              obtain ⟨certs, rest⟩ := p
              rw [hd] at h
              dsimp only at h
              cases hc : caChain env ee certs with
              | error e => rw [hc] at h; cases h
              | ok ch' =>
                rw [hc] at h
                dsimp only at h
                cases hw : env.verify ch' with
                | error e => rw [hw] at h; cases h
                | ok u =>
                  rw [hw] at h
                  cases h
                  exact ⟨hn, b, certs, rest, hf, hd, hc, hw⟩
          · rintro ⟨-, b', certs, rest, hf', hd, hc, hw⟩
            have := huniq _ hf'
            cases this
            rw [hd]
            dsimp only
            rw [hc]
            dsimp only
            rw [hw]
            rfl

/-- **C178, refuted.** With the expected number given as text, as by Robot Framework, nothing of the response is
validated: the keyword succeeds for every general response, also if a value is demanded. -/
theorem C178_text_refuted (env : CaCertsEnv C) (l : List Itv) (must : Bool) (ee : Option C) (n : Int) :
    validateCaCerts env ⟨"genp", l⟩ must ee (.text n) = .ok none := by
  simp [validateCaCerts, validateReply, sizeIs]

/-- **C178, refuted.** With another number of entries than expected, the keyword succeeds as well. -/
theorem C178_number_refuted (env : CaCertsEnv C) (l : List Itv) (must : Bool) (ee : Option C) (n : Int)
    (h : (l.length : Int) ≠ n) : validateCaCerts env ⟨"genp", l⟩ must ee (.int n) = .ok none := by
  simp [validateCaCerts, validateReply, sizeIs, h]

/-- **C178, refuted.** RFC 9810, section 5.3.19.14: the value may be absent.  A response without one is refused also
where it is not demanded. -/
theorem C178_absent_refuted (env : CaCertsEnv C) (must : Bool) (ee : Option C) :
    validateCaCerts env ⟨"genp", [⟨[1, 3, 6, 1, 5, 5, 7, 4, 17], none⟩]⟩ must ee (.int 1) = .error .valueError := by
  cases must <;> simp [validateCaCerts, validateReply, sizeIs, valueOf, idIt, caChecked, Except.map]

/-- **C178, refuted.** Bytes after the list of certificates are ignored. -/
theorem C178_trailing_refuted (env : CaCertsEnv C) (b rest : List UInt8) (c : C) (hd : env.dec b = some ([c], rest))
    (hc : env.chain c [] = .ok [c]) (hv : env.verify [c] = .ok ()) :
    validateCaCerts env ⟨"genp", [⟨[1, 3, 6, 1, 5, 5, 7, 4, 17], some b⟩]⟩ true none (.int 1) = .ok (some [c]) := by
  simp [validateCaCerts, validateReply, sizeIs, valueOf, idIt, caChecked, caChain, hd, hc, hv, Except.map]

/-! ## The template -/

/-- The key which a template may ask for: one control, which gives the length of an RSA key of at least 2048 bits, an
Edwards curve with parameters, or an elliptic curve known by name. -/
inductive KeySpecOk (env : TemplateEnv) : List (List Nat × List UInt8) → Prop
  | rsa (b : List UInt8) (n : Int) : env.decLen b = some (n, []) → 2048 ≤ n →
      KeySpecOk env [([1, 3, 6, 1, 5, 5, 7, 5, 1, 12], b)]
  | edwards (b p : List UInt8) (a : List Nat) : env.decAlg b = some (⟨a, some p⟩, []) →
      a = [1, 3, 101, 112] ∨ a = [1, 3, 101, 113] → KeySpecOk env [([1, 3, 6, 1, 5, 5, 7, 5, 1, 11], b)]
  | curve (b p : List UInt8) (c : List Nat) (n : String) : env.decAlg b = some (⟨[1, 2, 840, 10045, 2, 1], some p⟩, []) →
      env.decCurve p = some (c, []) → env.curves.lookup c = some n →
      KeySpecOk env [([1, 3, 6, 1, 5, 5, 7, 5, 1, 11], b)]
  | unknown (o : List Nat) (b : List UInt8) : o ≠ [1, 3, 6, 1, 5, 5, 7, 5, 1, 12] → o ≠ [1, 3, 6, 1, 5, 5, 7, 5, 1, 11] →
      KeySpecOk env [(o, b)]

theorem checkAlgCtrl_ok (env : TemplateEnv) (b : List UInt8) :
    checkAlgCtrl env b = .ok () ↔
      (∃ a p, env.decAlg b = some (⟨a, some p⟩, []) ∧ (a = [1, 3, 101, 112] ∨ a = [1, 3, 101, 113])) ∨
      (∃ p c n, env.decAlg b = some (⟨[1, 2, 840, 10045, 2, 1], some p⟩, []) ∧ env.decCurve p = some (c, []) ∧
        env.curves.lookup c = some n) := by
  unfold checkAlgCtrl
  cases hd : decodeAll env.decAlg .valueError (some b) with
  | error e =>
    have hno : ∀ x, env.decAlg b ≠ some (x, []) := fun x hx => by
      rw [(decodeAll_ok _ _ _ _).2 ⟨b, rfl, hx⟩] at hd; cases hd
    simp [hno]
  | ok a =>
    obtain ⟨b', hb', hb⟩ := (decodeAll_ok _ _ _ _).1 hd
    cases hb'
    dsimp only
    rw [hb]
    obtain ⟨alg, params⟩ := a
    dsimp only
    by_cases h1 : alg = [1, 3, 101, 113] ∨ alg = [1, 3, 101, 112]
    · rw [if_pos h1]
      cases params with
      | none => simp
      | some p =>
        rw [if_neg (by simp)]
        simp only [true_iff]
        exact .inl ⟨alg, p, rfl, h1.symm⟩
    rw [if_neg h1]
    by_cases h2 : alg = [1, 2, 840, 113549, 1, 1, 1]
    · rw [if_pos h2]
      subst h2
      simp
    rw [if_neg h2]
    by_cases h3 : alg = [1, 2, 840, 10045, 2, 1]
    · rw [if_pos h3]
      subst h3
      cases params with
      | none => simp
      | some p =>
        dsimp only
        cases hc : decodeAll env.decCurve .valueError (some p) with
        | error e =>
          have hno : ∀ x, env.decCurve p ≠ some (x, []) := fun x hx => by
            rw [(decodeAll_ok _ _ _ _).2 ⟨p, rfl, hx⟩] at hc; cases hc
          constructor
          · intro h; cases h
          · rintro (⟨a, q, ha, hh⟩ | ⟨q, c, n, ha, hq, -⟩)
            · cases ha; simp at hh
            · cases ha; exact absurd hq (hno c)
        | ok c =>
          obtain ⟨p', hp', hp⟩ := (decodeAll_ok _ _ _ _).1 hc
          cases hp'
          dsimp only
          cases hl : env.curves.lookup c with
          | none =>
            constructor
            · intro h; cases h
            · rintro (⟨a, q, ha, hh⟩ | ⟨q, c', n, ha, hq, hn⟩)
              · cases ha; simp at hh
              · cases ha
                rw [hp] at hq
                cases hq
                rw [hl] at hn; cases hn
          | some n =>
            simp only [Option.isSome_some, if_true, true_iff]
            exact .inr ⟨p, c, n, rfl, hp, hl⟩
    · rw [if_neg h3]
      constructor
      · intro h; cases h
      · rintro (⟨a, q, ha, hh⟩ | ⟨q, c', n, ha, hq, hn⟩)
        · cases ha; exact absurd hh.symm h1
        · cases ha; exact absurd rfl h3

theorem checkControls_ok (env : TemplateEnv) (must : Bool) (c : Option (List (List Nat × List UInt8))) :
    checkControls env must 2048 c = .ok () ↔ ∃ l, c = some l ∧ KeySpecOk env l := by
  unfold checkControls
  cases c with
  | none => cases must <;> simp
  | some l =>
    rw [if_neg (by simp)]
    simp only [Option.getD_some, Option.some.injEq, exists_eq_left']
    match l with
    | [] =>
      constructor
      · intro h; cases h
      · intro h; cases h
    | x :: y :: zs =>
      constructor
      · intro h; simp at h
      · intro h; cases h
    | [(o, b)] =>
      rw [if_neg (by simp)]
      by_cases h12 : o = [1, 3, 6, 1, 5, 5, 7, 5, 1, 12]
      · subst h12
        have hlen : checkLenCtrl env 2048 [([1, 3, 6, 1, 5, 5, 7, 5, 1, 12], b)] =
            match decodeAll env.decLen .valueError (some b) with
            | .error e => .error e
            | .ok n => if n < 2048 then .error .valueError else .ok () := by
          simp [checkLenCtrl, controlOf]
          rfl
        have halg : checkAlgCtrls env [([1, 3, 6, 1, 5, 5, 7, 5, 1, 12], b)] = .ok () := by
          simp [checkAlgCtrls, controlOf, List.lookup]
        rw [hlen, halg]
        cases hd : decodeAll env.decLen .valueError (some b) with
        | error e =>
          constructor
          · intro h; cases h
          · intro h
            cases h with
            | rsa _ n hn _ => rw [(decodeAll_ok _ _ _ _).2 ⟨b, rfl, hn⟩] at hd; cases hd
            | unknown _ _ h1 _ => exact absurd rfl h1
        | ok n =>
          obtain ⟨b', hb', hb⟩ := (decodeAll_ok _ _ _ _).1 hd
          cases hb'
          dsimp only
          by_cases hn : n < 2048
          · rw [if_pos hn]
            constructor
            · intro h; cases h
            · intro h
              cases h with
              | rsa _ n' hn' hle =>
                rw [hb] at hn'
                cases hn'
                omega
              | unknown _ _ h1 _ => exact absurd rfl h1
          · rw [if_neg hn]
            exact ⟨fun _ => .rsa b n hb (by omega), fun _ => rfl⟩
      · have hlen : checkLenCtrl env 2048 [(o, b)] = .ok () := by
          simp [checkLenCtrl, controlOf, List.lookup, beq_eq_false_iff_ne.2 (Ne.symm h12)]
        rw [hlen]
        dsimp only
        by_cases h11 : o = [1, 3, 6, 1, 5, 5, 7, 5, 1, 11]
        · subst h11
          have halg : checkAlgCtrls env [([1, 3, 6, 1, 5, 5, 7, 5, 1, 11], b)] = checkAlgCtrl env b := by
            simp [checkAlgCtrls, controlOf]
          rw [halg, checkAlgCtrl_ok]
          constructor
          · rintro (⟨a, p, hd, ha⟩ | ⟨p, c, n, hd, hc, hn⟩)
            · exact .edwards b p a hd ha
            · exact .curve b p c n hd hc hn
          · intro h
            cases h with
            | edwards _ p a hd ha => exact .inl ⟨a, p, hd, ha⟩
            | curve _ p c n hd hc hn => exact .inr ⟨p, c, n, hd, hc, hn⟩
            | unknown _ _ _ h2 => exact absurd rfl h2
        · have halg : checkAlgCtrls env [(o, b)] = .ok () := by
            simp [checkAlgCtrls, controlOf, List.lookup, beq_eq_false_iff_ne.2 (Ne.symm h11)]
          rw [halg]
          exact ⟨fun _ => .unknown o b h12 h11, fun _ => rfl⟩

theorem checkTemplateFields_ok (t : ReqTemplate) :
    checkTemplateFields t = .ok () ↔ t.publicKey = false ∧ t.serialNumber = false ∧ t.signingAlg = false ∧
      t.issuerUID = false ∧ t.subjectUID = false := by
  unfold checkTemplateFields
  cases t.publicKey <;> cases t.serialNumber <;> cases t.signingAlg <;> cases t.issuerUID <;> cases t.subjectUID <;> simp

/-- **C179.** A template for certificate requests is accepted exactly if it is there, nothing follows it, the fields
which must be absent are, and it asks for a key by one control as above. -/
theorem C179_template_iff (env : TemplateEnv) (r : Reply) (must controlsMust : Bool) (size : Strint) :
    validateTemplate env r must controlsMust size = .ok () ↔
      r.name = "genp" ∧ ∃ b t l, FirstEntry [1, 3, 6, 1, 5, 5, 7, 4, 19] r.content (some b) ∧ env.dec b = some (t, []) ∧
        t.keySpec = some l ∧ KeySpecOk env l ∧
        t.publicKey = false ∧ t.serialNumber = false ∧ t.signingAlg = false ∧ t.issuerUID = false ∧ t.subjectUID = false := by
  have hid : idIt 19 = [1, 3, 6, 1, 5, 5, 7, 4, 19] := rfl
  have huniq : ∀ v w, fetch r size (idIt 19) = .ok v → FirstEntry [1, 3, 6, 1, 5, 5, 7, 4, 19] r.content w → w = v :=
    fun v w h hw => by
      have := ((fetch_ok _ _ _ _).1 h)
      have h2 := (fetch_ok r size (idIt 19) w).2 ⟨this.1, hw⟩
      rw [h] at h2
      exact (Except.ok.inj h2).symm
  unfold validateTemplate
  cases hf : fetch r size (idIt 19) with
  | error e =>
    constructor
    · intro h; cases h
    · rintro ⟨hn, b, t, l, h1, -⟩
      rw [(fetch_ok r size (idIt 19) (some b)).2 ⟨hn, h1⟩] at hf; cases hf
  | ok v =>
    obtain ⟨hn, hv⟩ := (fetch_ok _ _ _ _).1 hf
    dsimp only
    by_cases hm : v = none ∧ must = true
    · rw [if_pos hm]
      constructor
      · intro h; cases h
      · rintro ⟨-, b, t, l, h1, -⟩
        have := huniq _ _ hf h1
        rw [hm.1] at this; cases this
    rw [if_neg hm]
    cases hd : decodeAll env.dec .valueError v with
    | error e =>
      constructor
      · intro h; cases h
      · rintro ⟨-, b, t, l, h1, h2, -⟩
        rw [(decodeAll_ok _ _ _ _).2 ⟨b, (huniq _ _ hf h1).symm, h2⟩] at hd; cases hd
    | ok t =>
      obtain ⟨b, rfl, hb⟩ := (decodeAll_ok _ _ _ _).1 hd
      dsimp only
      constructor
      · intro h
        cases hc : checkControls env controlsMust 2048 t.keySpec with
        | error e => rw [hc] at h; cases h
        | ok u =>
          rw [hc] at h
          obtain ⟨l, hl, hk⟩ := (checkControls_ok _ _ _).1 hc
          exact ⟨hn, b, t, l, hv, hb, hl, hk, (checkTemplateFields_ok t).1 h⟩
      · rintro ⟨-, b', t', l, h1, h2, h3, h4, h5⟩
        have := huniq _ _ hf h1
        cases this
        rw [hb] at h2
        cases h2
        rw [(checkControls_ok env controlsMust t.keySpec).2 ⟨l, h3, h4⟩]
        exact (checkTemplateFields_ok t).2 h5

/-- **C179, refuted.** RFC 8410, section 3: for Ed25519 and Ed448 the parameters must be absent.  A template which asks
for such a key in this way is refused; one with parameters is accepted. -/
theorem C179_edwards_refuted (env : TemplateEnv) (b : List UInt8) (a : List Nat)
    (ha : a = [1, 3, 101, 112] ∨ a = [1, 3, 101, 113]) :
    (env.decAlg b = some (⟨a, none⟩, []) → checkAlgCtrl env b = .error .valueError) ∧
    (∀ p, env.decAlg b = some (⟨a, some p⟩, []) → checkAlgCtrl env b = .ok ()) := by
  constructor
  · intro h
    simp [checkAlgCtrl, decodeAll, h, ha.symm]
  · intro p h
    exact (checkAlgCtrl_ok env b).2 (.inl ⟨a, p, h, ha⟩)

/-- **C179, refuted.** RFC 9810, section 5.3.19.16: the controls are optional, and so is the whole value.  A response
without them is refused also where neither is demanded. -/
theorem C179_optional_refuted (env : TemplateEnv) (must : Bool) :
    checkControls env false 2048 none = .error .valueError ∧
    (validateTemplate env ⟨"genp", [⟨[1, 3, 6, 1, 5, 5, 7, 4, 19], none⟩]⟩ false must (.int 1) = .error .pyasn1Error) := by
  simp [checkControls, validateTemplate, fetch, validateReply, valueOf, idIt, decodeAll]

/-- **C179, refuted.** A control of a type which means nothing for a template is accepted. -/
theorem C179_unknown_control_refuted (env : TemplateEnv) (b : List UInt8) :
    checkControls env true 2048 (some [([1, 3, 6, 1, 5, 5, 7, 5, 1, 1], b)]) = .ok () :=
  (checkControls_ok _ _ _).2 ⟨_, rfl, .unknown _ _ (by decide) (by decide)⟩

/-! ## CRLs -/

variable {L : Type}

theorem verifyCrls_ok (env : CrlsEnv L) (l : List L) : verifyCrls env l = .ok () ↔ ∀ c ∈ l, env.verify c = .ok () := by
  induction l with
  | nil => simp [verifyCrls]
  | cons c cs ih =>
    unfold verifyCrls
    rw [List.forall_mem_cons, ← ih]
    cases env.verify c with
    | error e => simp
    | ok u => simp

/-- **C180.** A response to the CRL update retrieval is accepted exactly if it carries the expected number of CRLs, all of
them verified, or, where this is allowed, none. -/
theorem C180_update_iff (env : CrlsEnv L) (r : Reply) (must : Bool) (size : Strint) (n : Nat) :
    validateCrls env r must size n = .ok () ↔
      r.name = "genp" ∧
      ((FirstEntry [1, 3, 6, 1, 5, 5, 7, 4, 23] r.content none ∧ must = false) ∨
       ∃ b l, FirstEntry [1, 3, 6, 1, 5, 5, 7, 4, 23] r.content (some b) ∧ env.decList b = some (l, []) ∧ l.length = n ∧
        ∀ c ∈ l, env.verify c = .ok ()) := by
  have hid : idIt 23 = [1, 3, 6, 1, 5, 5, 7, 4, 23] := rfl
  have huniq : ∀ v w, fetch r size (idIt 23) = .ok v → FirstEntry [1, 3, 6, 1, 5, 5, 7, 4, 23] r.content w → w = v :=
    fun v w h hw => by
      have := ((fetch_ok _ _ _ _).1 h)
      have h2 := (fetch_ok r size (idIt 23) w).2 ⟨this.1, hw⟩
      rw [h] at h2
      exact (Except.ok.inj h2).symm
  unfold validateCrls
  cases hf : fetch r size (idIt 23) with
  | error e =>
    have hno : ∀ w, r.name = "genp" → ¬ FirstEntry [1, 3, 6, 1, 5, 5, 7, 4, 23] r.content w := fun w hn hw => by
      rw [(fetch_ok r size (idIt 23) w).2 ⟨hn, hw⟩] at hf; cases hf
    constructor
    · intro h; cases h
    · rintro ⟨hn, ⟨h1, -⟩ | ⟨b, l, h1, -⟩⟩
      · exact absurd h1 (hno _ hn)
      · exact absurd h1 (hno _ hn)
  | ok v =>
    obtain ⟨hn, hv⟩ := (fetch_ok _ _ _ _).1 hf
    rw [hid] at hv
    cases v with
    | none =>
      dsimp only
      constructor
      · intro h
        cases must with
        | true => simp at h
        | false => exact ⟨hn, .inl ⟨hv, rfl⟩⟩
      · rintro ⟨-, ⟨-, rfl⟩ | ⟨b, l, h1, -⟩⟩
        · rfl
        · have := huniq _ _ hf h1; cases this
    | some b =>
      dsimp only
      constructor
      · intro h
        cases hd : decodeAll env.decList .valueError (some b) with
        | error e => rw [hd] at h; cases h
        | ok l =>
          rw [hd] at h
          obtain ⟨b', hb', hb⟩ := (decodeAll_ok _ _ _ _).1 hd
          cases hb'
          dsimp only at h
          by_cases hl : l.length ≠ n
          · rw [if_pos hl] at h; cases h
          · rw [if_neg hl] at h
            exact ⟨hn, .inr ⟨b, l, hv, hb, by simpa using hl, (verifyCrls_ok _ _).1 h⟩⟩
      · rintro ⟨-, ⟨h1, -⟩ | ⟨b', l, h1, h2, h3, h4⟩⟩
        · have := huniq _ _ hf h1; cases this
        · have := huniq _ _ hf h1
          cases this
          rw [(decodeAll_ok _ _ _ _).2 ⟨b, rfl, h2⟩]
          dsimp only
          rw [if_neg (not_not_intro h3)]
          exact (verifyCrls_ok _ _).2 h4

/-- **C180, refuted.** A current CRL is accepted without any look at its signature: whatever the verification says of it,
only the linter decides. -/
theorem C180_current_refuted (env : CrlsEnv L) (b : List UInt8) (c : L) (e : PyErr) (hd : env.decOne b = some (c, []))
    (hl : env.lint c = .ok ()) (size : Strint) :
    validateCurrentCrl { env with verify := fun _ => .error e } ⟨"genp", [⟨[1, 3, 6, 1, 5, 5, 7, 4, 6], some b⟩]⟩ size =
      .ok () := by
  simp [validateCurrentCrl, fetch, validateReply, valueOf, idIt, decodeAll, hd, hl]

/-! ## The answers of the mock CA before the keywords of the suite -/

/-- The algorithms which the CA lists for encryption: all curves it has (twice those with two names) and X25519 and X448
(`general_msg_handler.py` 647-650, `prepare_alg_ids.py` 109-119). -/
def caEncTypes (encCurve : List Nat → List UInt8) : List AlgCtrl :=
  ([[1, 2, 840, 10045, 3, 1, 1], [1, 2, 840, 10045, 3, 1, 1], [1, 3, 132, 0, 33], [1, 3, 132, 0, 33],
    [1, 2, 840, 10045, 3, 1, 7], [1, 2, 840, 10045, 3, 1, 7], [1, 3, 132, 0, 34], [1, 3, 132, 0, 35], [1, 3, 132, 0, 10],
    [1, 3, 36, 3, 3, 2, 8, 1, 1, 7], [1, 3, 36, 3, 3, 2, 8, 1, 1, 11], [1, 3, 36, 3, 3, 2, 8, 1, 1, 13],
    [1, 3, 36, 3, 3, 2, 8, 1, 1, 7], [1, 3, 36, 3, 3, 2, 8, 1, 1, 11], [1, 3, 36, 3, 3, 2, 8, 1, 1, 13]].map
      fun c => (⟨[1, 2, 840, 10045, 2, 1], some (encCurve c)⟩ : AlgCtrl)) ++
  [⟨[1, 3, 101, 110], none⟩, ⟨[1, 3, 101, 111], none⟩]

/-- **C181.** The list of algorithms for encryption which the mock CA sends is accepted by the keyword of the suite, which
finds a name for each of them. -/
theorem C181_enc_types (env : AlgsEnv) (encCurve : List Nat → List UInt8) (b : List UInt8) (size : Strint)
    (hb : env.decAlgs b = some (caEncTypes encCurve, [])) (hc : ∀ c, env.decCurve (encCurve c) = some (c, [])) :
    validateEncTypes env ⟨"genp", [⟨[1, 3, 6, 1, 5, 5, 7, 4, 3], some b⟩]⟩ size =
      .ok ["secp192r1", "secp192r1", "secp224r1", "secp224r1", "secp256r1", "secp256r1", "secp384r1", "secp521r1",
        "secp256k1", "brainpoolP256r1", "brainpoolP384r1", "brainpoolP512r1", "brainpoolP256r1", "brainpoolP384r1",
        "brainpoolP512r1", "x25519", "x448"] := by
  have hec : ∀ c n, curveNames.lookup c = some n →
      encName env ⟨[1, 2, 840, 10045, 2, 1], some (encCurve c)⟩ = .ok n := by
    intro c n h
    simp [encName, decodeAll, hc c, h]
  have hx : encName env ⟨[1, 3, 101, 110], none⟩ = .ok "x25519" := rfl
  have hy : encName env ⟨[1, 3, 101, 111], none⟩ = .ok "x448" := rfl
  simp only [validateEncTypes, fetch, validateReply, valueOf, idIt, decodeAll, hb, ne_eq, not_true_eq_false, if_false,
    if_true, caEncTypes, List.map_cons, List.map_nil, List.cons_append, List.nil_append, encNamesOf]
  rw [hec _ "secp192r1" (by decide +kernel), hec _ "secp224r1" (by decide +kernel), hec _ "secp256r1" (by decide +kernel),
    hec _ "secp384r1" (by decide +kernel), hec _ "secp521r1" (by decide +kernel), hec _ "secp256k1" (by decide +kernel),
    hec _ "brainpoolP256r1" (by decide +kernel), hec _ "brainpoolP384r1" (by decide +kernel),
    hec _ "brainpoolP512r1" (by decide +kernel), hx, hy]

/-- **C181.** So are the answers of the CA to the preferred algorithm, the language tags, the passphrase and the request
template. -/
theorem C181_fixed {N R E C : Type} [DecidableEq N] [DecidableEq R] [DecidableEq C] (env : GenEnv N R E C)
    (m : GenMsg C) (s s' : GenState) (e o : Itv) (t : Option String) (cl : AlgsEnv) (te : TemplateEnv) (p len : List UInt8)
    (size : Strint) (must controlsMust : Bool)
    (hsym : cl.decAlg env.symAlg = some (⟨[2, 16, 840, 1, 101, 3, 4, 1, 42], some p⟩, []))
    (hlang : cl.decLangs (env.encLangs ["en"]) = some (["en"], []))
    (htmp : te.dec env.template = some (⟨false, false, false, false, false,
      some [([1, 3, 6, 1, 5, 5, 7, 5, 1, 12], len)]⟩, []))
    (hlen : te.decLen len = some (2048, []))
    (h : genEntry env m s e = (.ok (o, t), s')) :
    (e.oid = [1, 3, 6, 1, 5, 5, 7, 4, 4] → validateSymAlg cl ⟨"genp", [o]⟩ size = .ok "aes256_cbc") ∧
    (e.oid = [1, 3, 6, 1, 5, 5, 7, 4, 16] → validateLangs cl ⟨"genp", [o]⟩ size = .ok ()) ∧
    (e.oid = [1, 3, 6, 1, 5, 5, 7, 4, 12] → validatePassphrase ⟨"genp", [o]⟩ size 0 = .ok ()) ∧
    (e.oid = [1, 3, 6, 1, 5, 5, 7, 4, 19] → validateTemplate te ⟨"genp", [o]⟩ must controlsMust size = .ok ()) := by
  refine ⟨fun ho => ?_, fun ho => ?_, fun ho => ?_, fun ho => ?_⟩
  · have h1 : genEntry env m s e = (fixedAnswer e 4 env.symAlg, s) := by simp [genEntry, ho, idIt]
    rw [h1] at h
    unfold fixedAnswer at h
    split at h
    · cases h
    · cases h
      have hl : symNames.lookup [2, 16, 840, 1, 101, 3, 4, 1, 42] = some "aes256_cbc" := by decide +kernel
      simp [validateSymAlg, fetch, validateReply, valueOf, idIt, readWhole, hsym, hl]
  · have h1 : genEntry env m s e = (suppLangs env e, s) := by simp [genEntry, ho, idIt]
    rw [h1] at h
    have ho' : o = ⟨[1, 3, 6, 1, 5, 5, 7, 4, 16], some (env.encLangs ["en"])⟩ := by
      have := (Prod.mk.inj h).1
      unfold suppLangs at this
      split at this
      · cases this
      · split at this
        · cases this
        · cases this
        · split at this
          · cases this; rfl
          · cases this
    subst ho'
    simp [validateLangs, fetch, validateReply, valueOf, idIt, decodeAll, hlang]
  · have h1 := genEntry_12 env m s e ho
    rw [h1] at h
    have ho' : o = ⟨[1, 3, 6, 1, 5, 5, 7, 4, 12], none⟩ := by
      simp only [revPassphrase] at h
      split at h
      · cases h
      · cases h; rfl
    subst ho'
    simp [validatePassphrase, validateReply, idIt]
  · have h1 : genEntry env m s e = (.ok (⟨idIt 19, some env.template⟩, some "template"), s) := by
      simp [genEntry, ho, idIt]
    rw [h1] at h
    cases h
    refine (C179_template_iff te _ must controlsMust size).2 ⟨rfl, env.template, _, _,
      ⟨[], ⟨idIt 19, some env.template⟩, [], rfl, rfl, rfl, by simp⟩, htmp, rfl, .rsa len 2048 hlen (by omega), rfl, rfl, rfl, rfl, rfl⟩

/-- **C181.** The passphrase response is accepted exactly if the entry at the index is of its type and without a value. -/
theorem C181_passphrase_iff (r : Reply) (size : Strint) (i : Nat) :
    validatePassphrase r size i = .ok () ↔
      r.name = "genp" ∧ r.content[i]? = some ⟨[1, 3, 6, 1, 5, 5, 7, 4, 12], none⟩ := by
  unfold validatePassphrase
  cases hr : validateReply r size with
  | error e =>
    have : r.name ≠ "genp" := fun h => by rw [(C178_body r size).2 h] at hr; cases hr
    simp [this]
  | ok u =>
    have hn := (C178_body r size).1 hr
    dsimp only
    cases hc : r.content[i]? with
    | none => simp
    | some e =>
      obtain ⟨o, v⟩ := e
      dsimp only
      by_cases ho : o = idIt 12
      · subst ho
        cases v with
        | none => simp [hn, idIt]
        | some b => simp
      · rw [if_pos ho]
        have ho' : o ≠ [1, 3, 6, 1, 5, 5, 7, 4, 12] := ho
        simp [ho']

/-- **C181.** The encapsulated secret arrives: if the client's key opens what was encapsulated for its certificate, the
keyword returns the secret which the CA kept. -/
theorem C181_kem {N R E C : Type} [DecidableEq N] [DecidableEq R] [DecidableEq C] (env : CallEnv N R E C) (s s' : CallState)
    (m : GenMsg C) (g : Genp C) (cl : AlgsEnv) (size : Strint) (e : Itv) (es : List Itv)
    (hk : ∀ c ss v, env.gen.kem c = .ok (ss, v) → ∃ ct, cl.decKem v = some (ct, []) ∧ cl.decaps ct = .ok ss)
    (hb : m.body = e :: es) (he : e.oid = [1, 3, 6, 1, 5, 5, 7, 4, 9999]) (h0 : s.gen.addEnv = false)
    (hnew : ∀ p ∈ s.macSecrets, p.1 ≠ m.tx) (h : answerGenm env s m = (.ok g, s')) :
    ∃ ss, validateKem cl ⟨"genp", g.content⟩ size = .ok ss ∧ s'.macSecrets.lookup m.tx = some ss := by
  obtain ⟨c, cs, ss, v, -, -, -, hkem, -, rfl, rfl⟩ := (C177_kem_iff env s s' m e es g hb he h0).1 h
  obtain ⟨ct, hd, hdec⟩ := hk c ss v hkem
  refine ⟨ss, ?_, C177_found_partial _ _ _ hnew⟩
  simp [validateKem, fetch, validateReply, valueOf, idIt, readWhole, hd, hdec]

/-- **C181, refuted.** The list of signature algorithms is only decoded: an empty one is accepted, and so is any
algorithm. -/
theorem C181_sign_types_refuted (env : AlgsEnv) (b : List UInt8) (l : List AlgCtrl) (size : Strint)
    (hb : env.decAlgs b = some (l, [])) :
    validateSignTypes env ⟨"genp", [⟨[1, 3, 6, 1, 5, 5, 7, 4, 2], some b⟩]⟩ size = .ok () := by
  simp [validateSignTypes, fetch, validateReply, valueOf, idIt, decodeAll, hb]

/-- **C181, refuted.** RFC 9810, section 5.3.19.4, allows any symmetric algorithm as the preferred one.  The keyword knows
AES in CBC mode only, so a CA which prefers AES-256-GCM (2.16.840.1.101.3.4.1.46) is refused. -/
theorem C181_gcm_refuted (env : AlgsEnv) (b : List UInt8) (p : Option (List UInt8)) (size : Strint)
    (hb : env.decAlg b = some (⟨[2, 16, 840, 1, 101, 3, 4, 1, 46], p⟩, [])) :
    validateSymAlg env ⟨"genp", [⟨[1, 3, 6, 1, 5, 5, 7, 4, 4], some b⟩]⟩ size = .error .valueError := by
  have hl : symNames.lookup [2, 16, 840, 1, 101, 3, 4, 1, 46] = none := by decide +kernel
  simp [validateSymAlg, fetch, validateReply, valueOf, idIt, readWhole, hb, hl]

end Verif.Ra
