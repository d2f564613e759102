import Verif.Ra.Controls
import Verif.Ra.Utf8PairsProps

/-!
# Property C168: the controls of a certificate request
-/

namespace Verif.Ra

open Verif.CA (PyErr)

variable {K S E : Type}

/-- The first control of a type has the value. -/
def Carries (oid : List Nat) (cs : List Attr) (v : List UInt8) : Prop :=
  ∃ pre post, cs = pre ++ (oid, v) :: post ∧ ∀ a ∈ pre, a.1 ≠ oid

/-- There is no control of the type. -/
def Lacks (oid : List Nat) (cs : List Attr) : Prop := ∀ a ∈ cs, a.1 ≠ oid

theorem firstOf_none (oid : List Nat) : ∀ cs : List Attr, firstOf oid cs = none ↔ Lacks oid cs
  | [] => by simp [firstOf, Lacks]
  | a :: cs => by
    unfold firstOf
    by_cases h : a.1 = oid
    · rw [if_pos h]
      exact ⟨nofun, fun h' => absurd h (h' a (by simp))⟩
    · rw [if_neg h, firstOf_none oid cs]
      unfold Lacks
      simp [h]

theorem firstOf_some (oid : List Nat) (v : List UInt8) : ∀ cs : List Attr, firstOf oid cs = some v ↔ Carries oid cs v
  | [] => by simp [firstOf, Carries]
  | a :: cs => by
    unfold firstOf
    by_cases h : a.1 = oid
    · rw [if_pos h]
      constructor
      · intro h'
        cases h'
        exact ⟨[], cs, by rw [← h]; rfl, by simp⟩
      · rintro ⟨pre, post, he, hp⟩
        cases pre with
        | nil => cases he; rfl
        | cons b pre => cases he; exact absurd h (hp a (by simp))
    · rw [if_neg h, firstOf_some oid v cs]
      constructor
      · rintro ⟨pre, post, rfl, hp⟩
        refine ⟨a :: pre, post, rfl, ?_⟩
        intro b hb
        rcases List.mem_cons.1 hb with rfl | hb
        · exact h
        · exact hp b hb
      · rintro ⟨pre, post, he, hp⟩
        cases pre with
        | nil => cases he; exact absurd rfl h
        | cons b pre => cases he; exact ⟨pre, post, rfl, fun b hb => hp b (by simp [hb])⟩

/-- **C168.** A private key taken from the archive options is the key of the template. -/
theorem C168_archived_key [DecidableEq K] (env : CtrlEnv K S E) (tmpl : Option (Except PyErr K)) (cs : List Attr)
    (must : Bool) (s : S) (h : archiveOptions env tmpl cs must = .ok (.key s)) : tmpl = some (.ok (env.pub s)) := by
  unfold archiveOptions at h
  cases hf : firstOf ctrlArchive cs with
  | none => rw [hf] at h; cases must <;> cases h
  | some der =>
    rw [hf] at h; dsimp only at h
    cases hd : env.decArchive der with
    | none => rw [hd] at h; cases h
    | some p =>
      obtain ⟨o, rest⟩ := p
      rw [hd] at h; dsimp only at h
      by_cases hr : rest ≠ []
      · rw [if_pos hr] at h; cases h
      · rw [if_neg hr] at h
        cases o with
        | encryptedPrivKey e => cases h
        | archiveRemGenPrivKey b => cases h
        | keyGenParameters seed =>
          dsimp only at h
          cases hk : keyGenParams env tmpl seed with
          | error e => rw [hk] at h; cases h
          | ok s' =>
            rw [hk] at h; cases h
            unfold keyGenParams at hk
            cases tmpl with
            | none => cases hk
            | some x =>
              cases x with
              | error e => cases hk
              | ok k =>
                dsimp only at hk
                cases hg : env.genKey k seed with
                | error e => rw [hg] at hk; cases e <;> cases hk
                | ok s'' =>
                  rw [hg] at hk; dsimp only at hk
                  by_cases hp : env.pub s'' ≠ k
                  · rw [if_pos hp] at hk; cases hk
                  · rw [if_neg hp] at hk; cases hk
                    rw [Decidable.not_not.1 hp]

/-- The publication which is asked for is well-formed: nothing is said about where, if there is to be no publication;
else each place has a method other than `dontCare`, and a location. -/
def PublicationOk (p : Publication) : Prop :=
  (p.action = 0 ∧ p.infos = none) ∨
    (p.action = 1 ∧ ∀ is, p.infos = some is → ∀ i ∈ is, (i.method = 1 ∨ i.method = 2 ∨ i.method = 3) ∧ i.location = true)

theorem pubInfosOk_iff : ∀ is : List PubInfo, pubInfosOk is = .ok () ↔
    ∀ i ∈ is, (i.method = 1 ∨ i.method = 2 ∨ i.method = 3) ∧ i.location = true
  | [] => by simp [pubInfosOk]
  | i :: is => by
    unfold pubInfosOk
    have ih := pubInfosOk_iff is
    simp only [List.mem_cons, List.not_mem_nil, or_false, forall_eq_or_imp]
    by_cases h1 : ¬(i.method = 0 ∨ i.method = 1 ∨ i.method = 2 ∨ i.method = 3)
    · rw [if_pos h1]
      constructor
      · intro h; cases h
      · rintro ⟨⟨h, _⟩, _⟩; exact absurd (.inr h) h1
    · rw [if_neg h1]
      by_cases h2 : i.method = 0
      · rw [if_pos h2]
        constructor
        · intro h; cases h
        · rintro ⟨⟨h, _⟩, _⟩; omega
      · rw [if_neg h2]
        have h12 : i.method = 1 ∨ i.method = 2 ∨ i.method = 3 := by
          rcases Decidable.not_not.1 h1 with h | h
          · exact absurd h h2
          · exact h
        by_cases h3 : ¬ i.location = true
        · rw [if_pos h3]
          constructor
          · intro h; cases h
          · rintro ⟨⟨_, h⟩, _⟩; exact absurd h h3
        · rw [if_neg h3, ih]
          exact ⟨fun h => ⟨⟨h12, Decidable.not_not.1 h3⟩, h⟩, fun h => h.2⟩

/-- **C168.** A control about the publication is accepted exactly if it is well-formed; it may be absent, unless it is
required. -/
theorem C168_publication_iff (env : CtrlEnv K S E) (cs : List Attr) (must : Bool) :
    publicationInfo env cs must = .ok () ↔
      (Lacks [1, 3, 6, 1, 5, 5, 7, 5, 1, 3] cs ∧ must = false) ∨
        ∃ der p, Carries [1, 3, 6, 1, 5, 5, 7, 5, 1, 3] cs der ∧ env.decPublication der = some (p, []) ∧ PublicationOk p := by
  have hoid : ctrlPublication = [1, 3, 6, 1, 5, 5, 7, 5, 1, 3] := rfl
  rw [← hoid]
  unfold publicationInfo
  cases hf : firstOf ctrlPublication cs with
  | none =>
    have hl := (firstOf_none _ _).1 hf
    dsimp only
    constructor
    · intro h
      cases must with
      | true => cases h
      | false => exact .inl ⟨hl, rfl⟩
    · rintro (⟨_, rfl⟩ | ⟨der, p, hc, _⟩)
      · rfl
      · rw [(firstOf_some _ _ _).2 hc] at hf; cases hf
  | some der =>
    have hc := (firstOf_some _ _ _).1 hf
    dsimp only
    have uniq : ∀ der', Carries ctrlPublication cs der' → der' = der := by
      intro der' h'
      have := (firstOf_some _ _ _).2 h'
      rw [hf] at this; cases this; rfl
    have hnl : ¬ Lacks ctrlPublication cs := by
      intro hl; rw [(firstOf_none _ _).2 hl] at hf; cases hf
    cases hd : env.decPublication der with
    | none =>
      constructor
      · intro h; cases h
      · rintro (⟨hl, _⟩ | ⟨der', p, hc', hd', _⟩)
        · exact absurd hl hnl
        · rw [uniq _ hc', hd] at hd'; cases hd'
    | some q =>
      obtain ⟨p, rest⟩ := q
      dsimp only
      have rhs : ((Lacks ctrlPublication cs ∧ must = false) ∨ ∃ der p, Carries ctrlPublication cs der ∧
          env.decPublication der = some (p, []) ∧ PublicationOk p) ↔ rest = [] ∧ PublicationOk p := by
        constructor
        · rintro (⟨hl, _⟩ | ⟨der', p', hc', hd', hp'⟩)
          · exact absurd hl hnl
          · rw [uniq _ hc', hd] at hd'; cases hd'; exact ⟨rfl, hp'⟩
        · rintro ⟨rfl, hp⟩; exact .inr ⟨der, p, hc, hd, hp⟩
      rw [rhs]
      by_cases hr : rest ≠ []
      · rw [if_pos hr]; exact ⟨nofun, fun h => absurd h.1 hr⟩
      · rw [if_neg hr]
        have hr' : rest = [] := Decidable.not_not.1 hr
        by_cases ha : p.action ∉ [0, 1]
        · rw [if_pos ha]
          refine ⟨nofun, ?_⟩
          rintro ⟨_, ⟨h, _⟩ | ⟨h, _⟩⟩ <;> simp [h] at ha
        · rw [if_neg ha]
          have ha' : p.action = 0 ∨ p.action = 1 := by
            have : ¬¬ (p.action = 0 ∨ p.action = 1) := by simpa using ha
            exact Decidable.not_not.1 this
          by_cases h0 : p.action = 0 ∧ p.infos.isSome
          · rw [if_pos h0]
            refine ⟨nofun, ?_⟩
            rintro ⟨_, ⟨_, h⟩ | ⟨h, _⟩⟩
            · rw [h] at h0; exact absurd h0.2 (by decide)
            · omega
          · rw [if_neg h0, pubInfosOk_iff]
            constructor
            · intro h
              refine ⟨hr', ?_⟩
              rcases ha' with h' | h'
              · left
                refine ⟨h', ?_⟩
                cases hi : p.infos with
                | none => rfl
                | some is => exact absurd ⟨h', by rw [hi]; rfl⟩ h0
              · right
                refine ⟨h', ?_⟩
                intro is his
                rw [his] at h; exact h
            · rintro ⟨_, ⟨_, h⟩ | ⟨_, h⟩⟩
              · rw [h]; simp
              · cases hi : p.infos with
                | none => simp
                | some is => exact h is hi

/-- A control with a text is as expected: it is absent and not required, or its type and those of all other controls
occur once and its text is the one expected, if any is. -/
def TextOk (env : CtrlEnv K S E) (oid : List Nat) (cs : List Attr) (must : Bool) (expected : Option String)
    (found : Option String) : Prop :=
  (Lacks oid cs ∧ must = false ∧ found = none) ∨
    ∃ der s, Carries oid cs der ∧ (cs.map Prod.fst).Nodup ∧ env.decText der = some (s, []) ∧
      (∀ x, expected = some x → s = x) ∧ found = some s

theorem textControl_iff (env : CtrlEnv K S E) (oid : List Nat) (cs : List Attr) (must : Bool)
    (expected out : Option String) :
    textControl env oid cs must expected = .ok out ↔ TextOk env oid cs must expected out := by
  unfold textControl TextOk
  cases hf : firstOf oid cs with
  | none =>
    have hl := (firstOf_none _ _).1 hf
    dsimp only
    constructor
    · intro h
      cases must with
      | true => cases h
      | false => cases h; exact .inl ⟨hl, rfl, rfl⟩
    · rintro (⟨_, rfl, rfl⟩ | ⟨der, s, hc, _⟩)
      · rfl
      · rw [(firstOf_some _ _ _).2 hc] at hf; cases hf
  | some der =>
    have hc := (firstOf_some _ _ _).1 hf
    dsimp only
    have uniq : ∀ der', Carries oid cs der' → der' = der := by
      intro der' h'
      have := (firstOf_some _ _ _).2 h'
      rw [hf] at this; cases this; rfl
    have hnl : ¬ Lacks oid cs := by
      intro hl; rw [(firstOf_none _ _).2 hl] at hf; cases hf
    cases hu : checkUnique [] cs with
    | error e =>
      constructor
      · intro h; cases h
      · rintro (⟨hl, _⟩ | ⟨der', s, hc', hn, _⟩)
        · exact absurd hl hnl
        · rw [(checkUnique_iff cs []).2 ⟨hn, by simp⟩] at hu; cases hu
    | ok u =>
      have hnd := ((checkUnique_iff cs []).1 hu).1
      dsimp only
      cases hd : env.decText der with
      | none =>
        constructor
        · intro h; cases h
        · rintro (⟨hl, _⟩ | ⟨der', s, hc', hn, hd', _⟩)
          · exact absurd hl hnl
          · rw [uniq _ hc', hd] at hd'; cases hd'
      | some q =>
        obtain ⟨s, rest⟩ := q
        dsimp only
        by_cases hr : rest ≠ []
        · rw [if_pos hr]
          constructor
          · intro h; cases h
          · rintro (⟨hl, _⟩ | ⟨der', s', hc', hn, hd', _⟩)
            · exact absurd hl hnl
            · rw [uniq _ hc', hd] at hd'; cases hd'; exact absurd rfl hr
        · rw [if_neg hr]
          have hr' : rest = [] := Decidable.not_not.1 hr
          subst hr'
          cases expected with
          | none =>
            constructor
            · intro h; cases h; exact .inr ⟨der, s, hc, hnd, hd, nofun, rfl⟩
            · rintro (⟨hl, _⟩ | ⟨der', s', hc', hn, hd', _, rfl⟩)
              · exact absurd hl hnl
              · rw [uniq _ hc', hd] at hd'; cases hd'; rfl
          | some x =>
            dsimp only
            by_cases hx : s ≠ x
            · rw [if_pos hx]
              constructor
              · intro h; cases h
              · rintro (⟨hl, _⟩ | ⟨der', s', hc', hn, hd', he, rfl⟩)
                · exact absurd hl hnl
                · rw [uniq _ hc', hd] at hd'; cases hd'; exact absurd (he x rfl) hx
            · rw [if_neg hx]
              constructor
              · intro h; cases h
                exact .inr ⟨der, s, hc, hnd, hd, fun y hy => by cases hy; exact Decidable.not_not.1 hx, rfl⟩
              · rintro (⟨hl, _⟩ | ⟨der', s', hc', hn, hd', _, rfl⟩)
                · exact absurd hl hnl
                · rw [uniq _ hc', hd] at hd'; cases hd'; rfl

/-- The token of a request is in order: none is expected; or there is none and it is not required; or it is the one
expected and has not been used. -/
def TokenOk (env : CtrlEnv K S E) (f : CtrlFlags) (st : Issuing) (cs : List Attr) : Prop :=
  ∀ t, st.regToken = some t → TextOk env [1, 3, 6, 1, 5, 5, 7, 5, 1, 1] cs f.token (some t) none ∨
    (TextOk env [1, 3, 6, 1, 5, 5, 7, 5, 1, 1] cs f.token (some t) (some t) ∧ st.found = false)

theorem tokenStep_ok (env : CtrlEnv K S E) (f : CtrlFlags) (st : Issuing) (cs : List Attr) :
    (tokenStep env f st cs).2 = .ok () ↔ TokenOk env f st cs := by
  unfold tokenStep TokenOk
  cases ht : st.regToken with
  | none => exact ⟨fun _ t h => (nomatch h), fun _ => rfl⟩
  | some t =>
    dsimp only
    have hT : ∀ o, textControl env ctrlRegToken cs f.token (some t) = .ok o ↔ _ :=
      fun o => textControl_iff env ctrlRegToken cs f.token (some t) o
    cases hc : textControl env ctrlRegToken cs f.token (some t) with
    | error e =>
      constructor
      · intro h; cases h
      · intro h
        rcases h t rfl with h | h
        · rw [(hT none).2 h] at hc; cases hc
        · rw [(hT (some t)).2 h.1] at hc; cases hc
    | ok o =>
      cases o with
      | none => exact ⟨fun _ t' h' => by cases h'; exact .inl ((hT none).1 hc), fun _ => rfl⟩
      | some s =>
        have hs := (hT (some s)).1 hc
        have hst : s = t := by
          rcases hs with ⟨_, _, h⟩ | ⟨_, _, _, _, _, he, h⟩
          · cases h
          · cases h; exact he t rfl
        subst hst
        dsimp only
        cases hfd : st.found with
        | true =>
          constructor
          · intro h; cases h
          · intro h
            rcases h s rfl with h | h
            · rw [(hT none).2 h] at hc; cases hc
            · cases h.2
        | false => exact ⟨fun _ t' h' => by cases h'; exact .inr ⟨hs, rfl⟩, fun _ => rfl⟩

theorem tokenStep_state (env : CtrlEnv K S E) (f : CtrlFlags) (st : Issuing) (cs : List Attr) :
    (tokenStep env f st cs).1.regToken = st.regToken ∧ (tokenStep env f st cs).1.authenticator = st.authenticator := by
  unfold tokenStep
  split
  · exact ⟨rfl, rfl⟩
  · split
    · exact ⟨rfl, rfl⟩
    · exact ⟨rfl, rfl⟩
    · split <;> exact ⟨rfl, rfl⟩

/-- **C168.** The controls of a request, if there are any, are accepted exactly if the archive options and the
publication are, the token is in order, and the authenticator is the one expected. -/
theorem C168_accept_iff [DecidableEq K] (env : CtrlEnv K S E) (f : CtrlFlags) (tmpl : Except PyErr K) (st : Issuing)
    (cs : List Attr) :
    (requestControls env f tmpl st (some cs)).2 = .ok () ↔
      (∃ a, archiveOptions env (some tmpl) cs f.archive = .ok a) ∧ publicationInfo env cs f.publication = .ok () ∧
        TokenOk env f st cs ∧ ∃ o, TextOk env [1, 3, 6, 1, 5, 5, 7, 5, 1, 2] cs f.authenticator st.authenticator o := by
  unfold requestControls
  dsimp only
  cases ha : archiveOptions env (some tmpl) cs f.archive with
  | error e => exact ⟨nofun, fun h => by obtain ⟨a, h⟩ := h.1; cases h⟩
  | ok a =>
    dsimp only
    cases hp : publicationInfo env cs f.publication with
    | error e => exact ⟨nofun, fun h => by cases h.2.1⟩
    | ok u =>
      dsimp only
      have hs := tokenStep_state env f st cs
      have ht := tokenStep_ok env f st cs
      cases hx : tokenStep env f st cs with
      | mk st' r =>
        rw [hx] at hs ht
        cases r with
        | error e =>
          constructor
          · intro h; cases h
          · intro h; have := ht.2 h.2.2.1; cases this
        | ok u' =>
          have htok := ht.1 rfl
          unfold authStep
          dsimp only at hs ⊢
          rw [hs.2]
          cases hc : textControl env ctrlAuthenticator cs f.authenticator st.authenticator with
          | error e =>
            constructor
            · intro h; cases h
            · rintro ⟨_, _, _, o, ho⟩
              rw [(textControl_iff _ ctrlAuthenticator _ _ _ _).2 ho] at hc; cases hc
          | ok o =>
            exact ⟨fun _ => ⟨⟨a, rfl⟩, rfl, htok, o, (textControl_iff _ _ _ _ _ _).1 hc⟩, fun _ => rfl⟩

/-- A request with a token. -/
def HasToken (r : Except PyErr K × Option (List Attr)) : Bool :=
  match r.2 with
  | none => false
  | some cs => cs.any fun a => a.1 == [1, 3, 6, 1, 5, 5, 7, 5, 1, 1]

/-- The number of the requests with a token which are accepted. -/
def tokensUsed : List (Except PyErr K × Option (List Attr)) → List (Except PyErr Unit) → Nat
  | r :: rs, .ok _ :: os => (if HasToken r then 1 else 0) + tokensUsed rs os
  | _ :: rs, .error _ :: os => tokensUsed rs os
  | _, _ => 0

theorem hasToken_lacks (k : Except PyErr K) (cs : List Attr) :
    HasToken (k, some cs) = false ↔ Lacks ctrlRegToken cs := by
  have hoid : ctrlRegToken = [1, 3, 6, 1, 5, 5, 7, 5, 1, 1] := rfl
  rw [hoid]
  unfold HasToken Lacks
  simp [List.any_eq_false]

theorem step_found [DecidableEq K] (env : CtrlEnv K S E) (f : CtrlFlags) (k : Except PyErr K) (st : Issuing)
    (cs : Option (List Attr)) (t : String) (ht : st.regToken = some t) :
    (requestControls env f k st cs).1.regToken = some t ∧
      (st.found = true → (requestControls env f k st cs).1.found = true) ∧
      ((requestControls env f k st cs).2 = .ok () → HasToken (k, cs) = true →
        st.found = false ∧ (requestControls env f k st cs).1.found = true) := by
  unfold requestControls
  cases cs with
  | none => exact ⟨ht, id, fun _ h => by cases h⟩
  | some cs =>
    dsimp only
    cases ha : archiveOptions env (some k) cs f.archive with
    | error e => exact ⟨ht, id, fun h => by cases h⟩
    | ok a =>
      dsimp only
      cases hp : publicationInfo env cs f.publication with
      | error e => exact ⟨ht, id, fun h => by cases h⟩
      | ok u =>
        dsimp only
        have key : ∀ (x : Issuing × Except PyErr Unit), (authStep env f cs x).1 = x.1 ∧
            ((authStep env f cs x).2 = .ok () → x.2 = .ok ()) := by
          rintro ⟨st', r⟩
          cases r with
          | error e => exact ⟨rfl, id⟩
          | ok u =>
            unfold authStep
            dsimp only
            cases textControl env ctrlAuthenticator cs f.authenticator st'.authenticator with
            | error e => exact ⟨rfl, fun _ => rfl⟩
            | ok o => exact ⟨rfl, fun _ => rfl⟩
        obtain ⟨h1, h2⟩ := key (tokenStep env f st cs)
        rw [h1]
        refine ⟨(tokenStep_state env f st cs).1.trans ht, ?_, ?_⟩
        · intro hf
          unfold tokenStep
          rw [ht]; dsimp only
          split
          · exact hf
          · exact hf
          · rw [if_pos hf]; exact hf
        · intro hok htk
          have hok' := h2 hok
          unfold tokenStep at hok' ⊢
          rw [ht] at hok' ⊢
          dsimp only at hok' ⊢
          cases hc : textControl env ctrlRegToken cs f.token (some t) with
          | error e => rw [hc] at hok'; cases hok'
          | ok o =>
            cases o with
            | none =>
              rcases (textControl_iff _ _ _ _ _ _).1 hc with ⟨hl, _⟩ | ⟨_, _, _, _, _, _, h⟩
              · rw [(hasToken_lacks k cs).2 hl] at htk; cases htk
              · cases h
            | some s =>
              rw [hc] at hok'
              dsimp only at hok' ⊢
              cases hfd : st.found with
              | true => rw [hfd] at hok'; cases hok'
              | false => exact ⟨rfl, rfl⟩

theorem run_used [DecidableEq K] (env : CtrlEnv K S E) (f : CtrlFlags) (t : String) :
    ∀ (rs : List (Except PyErr K × Option (List Attr))) (st : Issuing), st.regToken = some t →
      tokensUsed rs (runControls env f st rs) ≤ if st.found then 0 else 1
  | [], st, _ => by simp [tokensUsed]
  | (k, cs) :: rs, st, ht => by
    obtain ⟨h1, h2, h3⟩ := step_found env f k st cs t ht
    have ih := run_used env f t rs (requestControls env f k st cs).1 h1
    unfold runControls
    cases hr : (requestControls env f k st cs).2 with
    | error e =>
      simp only [tokensUsed]
      cases hf : st.found with
      | false => split at ih <;> simp_all <;> omega
      | true => rw [h2 hf] at ih; simpa using ih
    | ok u =>
      simp only [tokensUsed]
      cases hT : HasToken (k, cs) with
      | true =>
        obtain ⟨hf, hf'⟩ := h3 hr hT
        rw [hf'] at ih
        rw [hf]
        simp at ih ⊢
        omega
      | false =>
        cases hf : st.found with
        | false => split at ih <;> simp_all <;> omega
        | true => rw [h2 hf] at ih; simpa using ih

/-- **C168.** A registration token is used once: in any sequence of requests at most one with a token is accepted. -/
theorem C168_once [DecidableEq K] (env : CtrlEnv K S E) (f : CtrlFlags) (t : String) (st : Issuing)
    (rs : List (Except PyErr K × Option (List Attr))) (ht : st.regToken = some t) :
    tokensUsed rs (runControls env f st rs) ≤ 1 :=
  Nat.le_trans (run_used env f t rs st ht) (by split <;> omega)

/-- An environment for the examples: a text is written as one byte, 1 for `secret` and 2 for `name`. -/
def exCtrl : CtrlEnv Nat Nat Unit where
  decText b := if b = [1] then some ("secret", []) else if b = [2] then some ("name", []) else none
  decArchive b := if b = [5] then some (.keyGenParameters [9], []) else some (.archiveRemGenPrivKey true, [])
  decPublication b := if b = [0] then some (⟨0, none⟩, []) else some (⟨1, some [⟨2, true⟩]⟩, [])
  genKey _ seed := .ok seed.length
  pub s := s

example : runControls exCtrl {} { regToken := some "secret" }
    [(.ok 1, some [([1, 3, 6, 1, 5, 5, 7, 5, 1, 1], [1])]), (.ok 1, none), (.ok 1, some [([1, 3, 6, 1, 5, 5, 7, 5, 1, 1], [1])])] =
    [.ok (), .ok (), .error .badRequest] := by rfl

example : archiveOptions exCtrl (some (.ok 1)) [([1, 3, 6, 1, 5, 5, 7, 5, 1, 4], [5])] true = .ok (.key 1) := by rfl

example : archiveOptions exCtrl (some (.ok 2)) [([1, 3, 6, 1, 5, 5, 7, 5, 1, 4], [5])] true = .error .badCertTemplate := by rfl

/-- **C168 (refuted).** What is required is not required of a request without controls: it is accepted, though each of
the four controls is required. -/
theorem C168_required_refuted : ∃ (env : CtrlEnv Nat Nat Unit) (st : Issuing),
    requestControls env ⟨true, true, true, true⟩ (.ok 1) st none = (st, .ok ()) ∧
    (requestControls env ⟨false, false, true, false⟩ (.ok 1) st (some [])).2 = .error .valueError :=
  ⟨exCtrl, { regToken := some "secret" }, rfl, rfl⟩

/-- **C168 (refuted).** A token may be used up by a request which is refused: the token is marked before the
authenticator is looked at, and the request with the right authenticator is then refused. -/
theorem C168_burnt_refuted : ∃ (env : CtrlEnv Nat Nat Unit) (st : Issuing) (bad good : List Attr),
    runControls env {} st [(.ok 1, some bad), (.ok 1, some good)] = [.error .badRequest, .error .badRequest] ∧
    runControls env {} st [(.ok 1, some good)] = [.ok ()] :=
  ⟨exCtrl, { regToken := some "secret", authenticator := some "name" },
    [([1, 3, 6, 1, 5, 5, 7, 5, 1, 1], [1]), ([1, 3, 6, 1, 5, 5, 7, 5, 1, 2], [1])], [([1, 3, 6, 1, 5, 5, 7, 5, 1, 1], [1]), ([1, 3, 6, 1, 5, 5, 7, 5, 1, 2], [2])], rfl, rfl⟩

/-- **C168 (refuted).** A type of control may occur twice, if there is neither a token nor an authenticator; the second
control is not read. -/
theorem C168_duplicate_refuted : ∃ (env : CtrlEnv Nat Nat Unit) (st : Issuing) (cs : List Attr),
    ¬ (cs.map Prod.fst).Nodup ∧ (requestControls env {} (.ok 1) st (some cs)).2 = .ok () ∧
    (requestControls env {} (.ok 2) st (some cs)).2 = .ok () ∧
    (requestControls env {} (.ok 2) st (some cs.tail)).2 = .error .badCertTemplate :=
  ⟨exCtrl, { regToken := some "secret" }, [([1, 3, 6, 1, 5, 5, 7, 5, 1, 4], [6]), ([1, 3, 6, 1, 5, 5, 7, 5, 1, 4], [5])], by decide, rfl, rfl, rfl⟩

/-- **C168 (refuted).** The method of publication asked for is not used: the control always says X.500. -/
theorem C168_method_refuted (action method : String) (loc : Option String) (p : Publication)
    (h : publicationControl action (some method) loc = .ok p) : p.infos = some [⟨1, loc.isSome⟩] := by
  unfold publicationControl at h
  cases ha : [("dontPublish", (0 : Int)), ("pleasePublish", 1), ("badAction", 2)].lookup action with
  | none => rw [ha] at h; cases h
  | some a => rw [ha] at h; cases h; rfl

/-- **C168.** The options for the archive are those of the first control of the type of RFC 4211; without one, there are none. -/
theorem C168_archive_absent [DecidableEq K] (env : CtrlEnv K S E) (tmpl : Option (Except PyErr K)) (cs : List Attr) (must : Bool)
    (h : Lacks [1, 3, 6, 1, 5, 5, 7, 5, 1, 4] cs) :
    archiveOptions env tmpl cs must = if must then .error .valueError else .ok .none := by
  have hoid : ctrlArchive = [1, 3, 6, 1, 5, 5, 7, 5, 1, 4] := rfl
  unfold archiveOptions
  rw [hoid, (firstOf_none _ _).2 h]

/-- **C168.** A control for the archive which cannot be read, or with something after it, is refused. -/
theorem C168_archive_read [DecidableEq K] (env : CtrlEnv K S E) (tmpl : Option (Except PyErr K)) (cs : List Attr) (must : Bool)
    (der : List UInt8) (a : Archived S E) (h : Carries [1, 3, 6, 1, 5, 5, 7, 5, 1, 4] cs der)
    (ha : archiveOptions env tmpl cs must = .ok a) : ∃ o, env.decArchive der = some (o, []) ∧
      (∀ e, o = .encryptedPrivKey e → a = .encrypted e) ∧ (∀ b, o = .archiveRemGenPrivKey b → a = .none) := by
  have hoid : ctrlArchive = [1, 3, 6, 1, 5, 5, 7, 5, 1, 4] := rfl
  unfold archiveOptions at ha
  rw [hoid, (firstOf_some _ _ _).2 h] at ha
  dsimp only at ha
  cases hd : env.decArchive der with
  | none => rw [hd] at ha; cases ha
  | some p =>
    obtain ⟨o, rest⟩ := p
    rw [hd] at ha
    dsimp only at ha
    by_cases hr : rest = []
    · subst hr
      rw [if_neg (not_not_intro rfl)] at ha
      refine ⟨o, rfl, ?_, ?_⟩
      · rintro e rfl; cases ha; rfl
      · rintro b rfl; cases ha; rfl
    · rw [if_pos hr] at ha; cases ha

/-- **C168.** The numbers of the methods of publication (RFC 4211, 6.3), and one for a bad method. -/
theorem C168_method_numbers (method : String) (loc : Option String) (i : PubInfo) :
    singlePubInfo method loc = .ok i ↔ i.location = loc.isSome ∧
      ((method = "dontCare" ∧ i.method = 0) ∨ (method = "x500" ∧ i.method = 1) ∨ (method = "web" ∧ i.method = 2) ∨
        (method = "ldap" ∧ i.method = 3) ∨ (method = "badMethod" ∧ i.method = 4)) := by
  obtain ⟨m, l⟩ := i
  unfold singlePubInfo
  simp only [List.lookup_cons, List.lookup_nil]
  by_cases h0 : method = "dontCare"
  · subst h0; simp [eq_comm, and_comm]
  by_cases h1 : method = "x500"
  · subst h1; simp [eq_comm, and_comm]
  by_cases h2 : method = "web"
  · subst h2; simp [eq_comm, and_comm]
  by_cases h3 : method = "ldap"
  · subst h3; simp [eq_comm, and_comm]
  by_cases h4 : method = "badMethod"
  · subst h4; simp [eq_comm, and_comm]
  simp [h0, h1, h2, h3, h4, beq_eq_false_iff_ne.2 h0, beq_eq_false_iff_ne.2 h1, beq_eq_false_iff_ne.2 h2,
    beq_eq_false_iff_ne.2 h3, beq_eq_false_iff_ne.2 h4]

end Verif.Ra
