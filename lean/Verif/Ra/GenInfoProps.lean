import Verif.Ra.GenInfo

/-!
# Which generalInfo fields are built and accepted

Properties: C186 (the check of the field), C187 (the certificate profiles accepted by the CA), C188 (the fields built by
the suite).
-/

namespace Verif.Ra

open Verif.CA (PyErr)

/-- `e` is the first entry of its type in `g`. -/
def FirstOf (g : List Itv) (oid : List Nat) (e : Itv) : Prop :=
  ∃ pre post, g = pre ++ e :: post ∧ e.oid = oid ∧ ∀ x ∈ pre, x.oid ≠ oid

theorem valueOf_first (oid : List Nat) : ∀ (g : List Itv) (v : Option (List UInt8)),
    valueOf oid g = some v ↔ ∃ e, FirstOf g oid e ∧ e.val = v
  | [], v => by
    unfold valueOf
    refine ⟨fun h => (by cases h), ?_⟩
    rintro ⟨e, ⟨pre, post, h, _⟩, _⟩
    cases pre <;> cases h
  | x :: xs, v => by
    unfold valueOf
    by_cases hx : x.oid = oid
    · rw [if_pos hx]
      constructor
      · intro h
        exact ⟨x, ⟨[], xs, rfl, hx, by simp⟩, Option.some.inj h⟩
      · rintro ⟨e, ⟨pre, post, h, h1, h2⟩, hv⟩
        cases pre with
        | nil =>
          rw [List.nil_append] at h
          rw [(List.cons.inj h).1, hv]
        | cons y ys =>
          rw [List.cons_append] at h
          exact absurd hx ((List.cons.inj h).1 ▸ h2 y (List.mem_cons_self ..))
    · rw [if_neg hx, valueOf_first oid xs v]
      constructor
      · rintro ⟨e, ⟨pre, post, h, h1, h2⟩, hv⟩
        refine ⟨e, ⟨x :: pre, post, by rw [h]; rfl, h1, ?_⟩, hv⟩
        intro y hy
        rcases List.mem_cons.1 hy with rfl | hy
        · exact hx
        · exact h2 y hy
      · rintro ⟨e, ⟨pre, post, h, h1, h2⟩, hv⟩
        cases pre with
        | nil =>
          rw [List.nil_append] at h
          exact absurd ((List.cons.inj h).1 ▸ h1) hx
        | cons y ys =>
          rw [List.cons_append] at h
          exact ⟨e, ⟨ys, post, (List.cons.inj h).2, h1, fun z hz => h2 z (List.mem_cons_of_mem _ hz)⟩, hv⟩

theorem valueOf_none (oid : List Nat) (g : List Itv) : valueOf oid g = none ↔ ∀ e ∈ g, e.oid ≠ oid := by
  induction g with
  | nil => simp [valueOf]
  | cons x xs ih =>
    unfold valueOf
    by_cases hx : x.oid = oid
    · rw [if_pos hx]
      exact ⟨fun h => (by cases h), fun h => absurd hx (h x (List.mem_cons_self ..))⟩
    · rw [if_neg hx, ih]
      simp [hx]

theorem first_unique {g : List Itv} {oid : List Nat} {e f : Itv} (he : FirstOf g oid e) (hf : FirstOf g oid f) :
    e.val = f.val := by
  have h1 := (valueOf_first oid g e.val).2 ⟨e, he, rfl⟩
  have h2 := (valueOf_first oid g f.val).2 ⟨f, hf, rfl⟩
  rw [h1] at h2
  exact Option.some.inj h2

/-! ## C186 -/

/-- The field as RFC 9483 (section 3.1) wants it, for the first entries of the types: the implicit confirmation is NULL
and only in messages about certificates; the waiting time is a time in the future, without an implicit confirmation; a
profile is only in requests. -/
structure GoodInfo (env : InfoEnv) (now : Int) (body : String) (g : List Itv) : Prop where
  implicit : ∀ e, FirstOf g [1, 3, 6, 1, 5, 5, 7, 4, 13] e →
    body ∈ ["ip", "cp", "kup", "ir", "cr", "kur", "p10cr"] ∧ e.val = some [5, 0]
  wait : ∀ e, FirstOf g [1, 3, 6, 1, 5, 5, 7, 4, 14] e →
    (∃ b t, e.val = some b ∧ env.decTime b = some (some t, []) ∧ now < t) ∧ ∀ x ∈ g, x.oid ≠ [1, 3, 6, 1, 5, 5, 7, 4, 13]
  profile : ∀ e ∈ g, e.oid = [1, 3, 6, 1, 5, 5, 7, 4, 21] → body ∈ ["ir", "cr", "kur", "p10cr", "genm"]

theorem implicit_iff (body : String) (g : List Itv) : checkImplicit body g = .ok () ↔
    ∀ e, FirstOf g [1, 3, 6, 1, 5, 5, 7, 4, 13] e →
      body ∈ ["ip", "cp", "kup", "ir", "cr", "kur", "p10cr"] ∧ e.val = some [5, 0] := by
  unfold checkImplicit
  rw [show idIt 13 = [1, 3, 6, 1, 5, 5, 7, 4, 13] from rfl]
  cases hv : valueOf [1, 3, 6, 1, 5, 5, 7, 4, 13] g with
  | none =>
    refine ⟨fun _ e he => ?_, fun _ => rfl⟩
    have := (valueOf_first _ g e.val).2 ⟨e, he, rfl⟩
    rw [hv] at this; cases this
  | some v =>
    obtain ⟨e, he, hev⟩ := (valueOf_first _ g v).1 hv
    dsimp only
    constructor
    · intro h f hf
      have hfe := first_unique hf he
      split at h
      · cases h
      · rename_i hb
        cases v with
        | none => cases h
        | some b =>
          dsimp only at h
          split at h
          · rename_i h5
            exact ⟨Decidable.not_not.1 hb, by rw [hfe, hev, h5]⟩
          · cases h
    · intro h
      obtain ⟨h1, h2⟩ := h e he
      rw [if_neg (not_not_intro h1)]
      rw [hev] at h2
      subst h2
      exact if_pos rfl

theorem wait_iff (env : InfoEnv) (now : Int) (g : List Itv) : checkWait env now g = .ok () ↔
    ∀ e, FirstOf g [1, 3, 6, 1, 5, 5, 7, 4, 14] e →
      (∃ b t, e.val = some b ∧ env.decTime b = some (some t, []) ∧ now < t) ∧
        ∀ x ∈ g, x.oid ≠ [1, 3, 6, 1, 5, 5, 7, 4, 13] := by
  unfold checkWait
  rw [show idIt 13 = [1, 3, 6, 1, 5, 5, 7, 4, 13] from rfl, show idIt 14 = [1, 3, 6, 1, 5, 5, 7, 4, 14] from rfl]
  cases hv : valueOf [1, 3, 6, 1, 5, 5, 7, 4, 14] g with
  | none =>
    refine ⟨fun _ e he => ?_, fun _ => rfl⟩
    have := (valueOf_first _ g e.val).2 ⟨e, he, rfl⟩
    rw [hv] at this; cases this
  | some v =>
    obtain ⟨e, he, hev⟩ := (valueOf_first _ g v).1 hv
    constructor
    · intro h f hf
      have hfe := first_unique hf he
      cases v with
      | none => cases h
      | some b =>
        dsimp only at h
        cases hd : env.decTime b with
        | none => rw [hd] at h; cases h
        | some p =>
          obtain ⟨t, rest⟩ := p
          rw [hd] at h
          dsimp only at h
          split at h
          · cases h
          · rename_i hr
            cases t with
            | none => cases h
            | some t =>
              dsimp only at h
              split at h
              · cases h
              · rename_i ht
                cases hi : valueOf [1, 3, 6, 1, 5, 5, 7, 4, 13] g with
                | some w => rw [hi] at h; cases h
                | none =>
                  have hr' : rest = [] := by simpa using hr
                  subst hr'
                  exact ⟨⟨b, t, by rw [hfe, hev], hd, by omega⟩, (valueOf_none _ g).1 hi⟩
    · intro h
      obtain ⟨⟨b, t, h1, h2, h3⟩, h4⟩ := h e he
      rw [hev] at h1
      subst h1
      dsimp only
      rw [h2]
      dsimp only
      rw [if_neg (by simp), if_neg (by omega), (valueOf_none _ g).2 h4]

theorem profile_iff (body : String) (g : List Itv) : checkProfile body g = .ok () ↔
    ∀ e ∈ g, e.oid = [1, 3, 6, 1, 5, 5, 7, 4, 21] → body ∈ ["ir", "cr", "kur", "p10cr", "genm"] := by
  unfold checkProfile findOid
  have hany : (g.any fun e => decide (e.oid = idIt 21)) = true ↔ ∃ e ∈ g, e.oid = [1, 3, 6, 1, 5, 5, 7, 4, 21] := by
    rw [List.any_eq_true]
    simp only [decide_eq_true_iff]
    exact Iff.rfl
  by_cases hb : body ∈ ["ir", "cr", "kur", "p10cr", "genm"]
  · rw [if_neg (fun h => h.2 hb)]
    exact ⟨fun _ _ _ _ => hb, fun _ => rfl⟩
  · by_cases he : ∃ e ∈ g, e.oid = [1, 3, 6, 1, 5, 5, 7, 4, 21]
    · rw [if_pos ⟨hany.2 he, hb⟩]
      obtain ⟨e, h1, h2⟩ := he
      exact ⟨fun h => (by cases h), fun h => absurd (h e h1 h2) hb⟩
    · rw [if_neg (fun h => he (hany.1 h.1))]
      exact ⟨fun _ e h1 h2 => absurd ⟨e, h1, h2⟩ he, fun _ => rfl⟩

/-- **C186.** The generalInfo field of a message is accepted if and only if it is as RFC 9483 wants it, where only the
first entry of a type is looked at. -/
theorem C186_accepted_iff (env : InfoEnv) (now : Int) (body : String) (g : List Itv) :
    checkGenInfo env now body g = .ok () ↔ GoodInfo env now body g := by
  unfold checkGenInfo
  constructor
  · intro h
    split at h
    · cases h
    · rename_i h1
      split at h
      · cases h
      · rename_i h2
        exact ⟨(implicit_iff body g).1 h1, (wait_iff env now g).1 h2, (profile_iff body g).1 h⟩
  · rintro ⟨h1, h2, h3⟩
    rw [(implicit_iff body g).2 h1]
    dsimp only
    rw [(wait_iff env now g).2 h2]
    exact (profile_iff body g).2 h3

/-- **C186 refuted.** An implicit confirmation with any value is accepted after a correct one. -/
theorem C186_second_refuted (env : InfoEnv) (now : Int) (v : Option (List UInt8)) :
    checkGenInfo env now "ir" [⟨[1, 3, 6, 1, 5, 5, 7, 4, 13], some [5, 0]⟩, ⟨[1, 3, 6, 1, 5, 5, 7, 4, 13], v⟩] = .ok () := by
  rfl

/-- **C186 refuted.** A request with an implicit confirmation without a value is not refused with `BadRequest`, but ends
with an error of the ASN.1 library. -/
theorem C186_absent_refuted (env : InfoEnv) (now : Int) (g : List Itv) :
    checkGenInfo env now "ir" (⟨[1, 3, 6, 1, 5, 5, 7, 4, 13], none⟩ :: g) = .error .pyasn1Error := by
  rfl

/-! ## C187 -/

/-- The profiles as RFC 9483 (section 3.1) wants them: the first entry of the type has one name for each request of the
message, and the CA knows each of them. -/
def RightProfiles (env : InfoEnv) (n : Nat) (known : List String) (g : List Itv) : Prop :=
  ∃ e b ps, FirstOf g [1, 3, 6, 1, 5, 5, 7, 4, 21] e ∧ e.val = some b ∧ env.decProfiles b = some (ps, []) ∧ ps.length = n ∧
    ∀ p ∈ ps, p ∈ known

/-- The number of requests in a message. -/
def requests (body : String) (n : Nat) : Nat := if body = "p10cr" then 1 else n

theorem profileSize_eq (body : String) (n : Nat) (h : body ∈ ["ir", "cr", "kur", "p10cr", "genm"]) :
    profileSize body n = .ok (requests body n) := by
  unfold profileSize requests
  by_cases hp : body = "p10cr"
  · rw [if_pos hp, if_pos hp]
  · rw [if_neg hp, if_neg hp]
    by_cases hg : body = "genm"
    · rw [if_neg (by rw [hg]; decide), if_pos hg]
    · rw [if_pos]
      simp only [List.mem_cons, List.not_mem_nil, or_false] at h ⊢
      rcases h with h | h | h | h | h
      · exact Or.inl h
      · exact Or.inr (Or.inl h)
      · exact Or.inr (Or.inr h)
      · exact absurd h hp
      · exact absurd h hg

/-- **C187.** Profiles are accepted by the CA if and only if the type of the message is allowed, their number is *not* the
number of requests, nor 0, and each is known or empty. -/
theorem C187_accepted_iff (env : InfoEnv) (body : String) (n : Nat) (known : List String) (g : List Itv) :
    validateProfile env body n (some known) g = .ok () ↔
      ∀ e, FirstOf g [1, 3, 6, 1, 5, 5, 7, 4, 21] e →
        body ∈ ["ir", "cr", "kur", "p10cr", "genm"] ∧
        ∃ b ps, e.val = some b ∧ env.decProfiles b = some (ps, []) ∧ ps ≠ [] ∧ ps.length ≠ requests body n ∧
          ∀ p ∈ ps, p ∈ known ∨ p = "" := by
  unfold validateProfile
  rw [show idIt 21 = [1, 3, 6, 1, 5, 5, 7, 4, 21] from rfl]
  cases hv : valueOf [1, 3, 6, 1, 5, 5, 7, 4, 21] g with
  | none =>
    refine ⟨fun _ e he => ?_, fun _ => rfl⟩
    have := (valueOf_first _ g e.val).2 ⟨e, he, rfl⟩
    rw [hv] at this; cases this
  | some v =>
    obtain ⟨e, he, hev⟩ := (valueOf_first _ g v).1 hv
    dsimp only
    have hall : ∀ ps : List String, ps.all (fun p => decide (p ∈ known ++ [""])) = true ↔ ∀ p ∈ ps, p ∈ known ∨ p = "" := by
      intro ps
      simp [List.all_eq_true]
    constructor
    · intro h f hf
      have hfe := first_unique hf he
      split at h
      · cases h
      · rename_i hb
        have hb' : body ∈ ["ir", "cr", "kur", "p10cr", "genm"] := Decidable.not_not.1 hb
        cases v with
        | none => cases h
        | some b =>
          dsimp only at h
          cases hd : env.decProfiles b with
          | none => rw [hd] at h; cases h
          | some p =>
            obtain ⟨ps, rest⟩ := p
            rw [hd] at h
            dsimp only at h
            split at h
            · cases h
            · rename_i hr
              split at h
              · cases h
              · rename_i h0
                rw [profileSize_eq body n hb'] at h
                dsimp only at h
                split at h
                · cases h
                · rename_i hk
                  split at h
                  · rename_i ha
                    have hr' : rest = [] := by simpa using hr
                    subst hr'
                    exact ⟨hb', b, ps, by rw [hfe, hev], hd, by simpa using h0, hk, (hall ps).1 ha⟩
                  · cases h
    · intro h
      obtain ⟨hb, b, ps, h1, h2, h3, h4, h5⟩ := h e he
      rw [hev] at h1
      subst h1
      rw [if_neg (not_not_intro hb)]
      dsimp only
      rw [h2]
      dsimp only
      rw [if_neg (by simp), if_neg (by simpa using h3), profileSize_eq body n hb]
      dsimp only
      rw [if_neg h4, if_pos ((hall ps).2 h5)]

/-- **C187 refuted.** A request with one known profile for each of its requests is always refused. -/
theorem C187_right_refuted (env : InfoEnv) (body : String) (n : Nat) (known : List String) (g : List Itv)
    (h : RightProfiles env (requests body n) known g) : validateProfile env body n (some known) g ≠ .ok () := by
  intro hok
  obtain ⟨e, b, ps, he, hv, hd, hl, _⟩ := h
  obtain ⟨_, b', ps', hv', hd', _, hl', _⟩ := (C187_accepted_iff env body n known g).1 hok e he
  rw [hv] at hv'
  cases hv'
  rw [hd] at hd'
  obtain ⟨rfl, _⟩ := Prod.mk.inj (Option.some.inj hd')
  exact hl' hl

/-- **C187.** A profile which the CA does not know, and which is not empty, is refused. -/
theorem C187_unknown (env : InfoEnv) (body : String) (n : Nat) (known : List String) (g : List Itv) (e : Itv)
    (he : FirstOf g [1, 3, 6, 1, 5, 5, 7, 4, 21] e) (b : List UInt8) (ps : List String) (hv : e.val = some b)
    (hd : env.decProfiles b = some (ps, [])) (p : String) (hp : p ∈ ps) (hk : p ∉ known) (hne : p ≠ "") :
    validateProfile env body n (some known) g ≠ .ok () := by
  intro hok
  obtain ⟨_, b', ps', hv', hd', _, _, ha⟩ := (C187_accepted_iff env body n known g).1 hok e he
  rw [hv] at hv'
  cases hv'
  rw [hd] at hd'
  obtain ⟨rfl, _⟩ := Prod.mk.inj (Option.some.inj hd')
  rcases ha p hp with h | h
  · exact hk h
  · exact hne h

/-! ## C188 -/

/-- Encoders and decoders fit, and the other values are not taken for the expected ones. -/
structure InfoRoundTrip (env : InfoEnv) : Prop where
  time : ∀ t, env.decTime (env.encTime t) = some (some t, [])
  utc : ∀ t, env.decTime (env.encUtc t) = none
  profiles : ∀ ps, env.decProfiles (env.encProfiles ps) = some (ps, [])
  rnd : env.rndOctets ≠ [5, 0]

/-- **C188 refuted.** A profile alone is not set by `patch_generalinfo`: the message stays as it was. -/
theorem C188_profile_alone_refuted (env : InfoEnv) (now : Int) (old : List Itv) (neg : Bool) (p : String) :
    patchGenInfo env now old false neg none (some p) = old := if_pos ⟨rfl, rfl⟩

/-- **C188.** Otherwise it sets exactly what is asked for, and all other entries are lost. -/
theorem C188_patch (env : InfoEnv) (now : Int) (old : List Itv) (implicit neg : Bool) (wait : Option Int)
    (profile : Option String) (h : implicit = true ∨ wait ≠ none) (oid : List Nat) :
    findOid oid (patchGenInfo env now old implicit neg wait profile) = true ↔
      ((oid = [1, 3, 6, 1, 5, 5, 7, 4, 13] ∧ implicit = true) ∨ (oid = [1, 3, 6, 1, 5, 5, 7, 4, 14] ∧ wait ≠ none) ∨
       (oid = [1, 3, 6, 1, 5, 5, 7, 4, 21] ∧ profile ≠ none)) := by
  unfold patchGenInfo
  have hn : ¬ (wait = none ∧ implicit = false) := by
    rintro ⟨h1, h2⟩
    rcases h with h | h
    · rw [h] at h2; cases h2
    · exact h h1
  rw [if_neg hn]
  unfold prepGenInfo findOid
  rw [List.any_append, List.any_append, Bool.or_eq_true, Bool.or_eq_true]
  cases implicit <;> cases wait <;> cases profile <;>
    simp [implicitEntry, waitEntry, profileEntry, idIt, eq_comm, or_assoc]

/-- **C188 refuted.** The profile which is built is named twice: for a message with one request the number of profiles is
wrong by the RFC. -/
theorem C188_twice_refuted (env : InfoEnv) (hr : InfoRoundTrip env) (now : Int) (wait : Option Int) (implicit : Bool)
    (p : String) (known : List String) (vals : List Itv) :
    ¬ RightProfiles env 1 known (addGenInfo env now [] vals implicit wait (some p)) ∧
    valueOf [1, 3, 6, 1, 5, 5, 7, 4, 21] (addGenInfo env now [] vals implicit wait (some p)) = some (some (env.encProfiles [p, p])) := by
  have hval : valueOf [1, 3, 6, 1, 5, 5, 7, 4, 21] (addGenInfo env now [] vals implicit wait (some p))
      = some (some (env.encProfiles [p, p])) := by
    unfold addGenInfo prepGenInfo
    cases implicit <;> cases wait <;> rfl
  refine ⟨?_, hval⟩
  rintro ⟨e, b, ps, he, hb, hd, hl, _⟩
  have := (valueOf_first _ _ _).2 ⟨e, he, hb⟩
  rw [hval] at this
  rw [← Option.some.inj (Option.some.inj this), hr.profiles] at hd
  obtain ⟨rfl, _⟩ := Prod.mk.inj (Option.some.inj hd)
  exact absurd hl (by simp)

/-- **C188.** The two errors make up for each other: what the suite builds for a known profile in a message with one
request is accepted by the CA. -/
theorem C188_known_accepted (env : InfoEnv) (hr : InfoRoundTrip env) (now : Int) (body : String)
    (hb : body ∈ ["ir", "cr", "kur", "p10cr"]) (implicit : Bool) :
    caGenInfo env now body 1 (addGenInfo env now [] [] implicit none (some "base")) = .ok () := by
  have hb2 : body ∈ ["ir", "cr", "kur", "p10cr", "genm"] := by
    simp only [List.mem_cons, List.not_mem_nil, or_false] at hb ⊢
    rcases hb with h | h | h | h <;> simp [h]
  have hb3 : body ∈ ["ip", "cp", "kup", "ir", "cr", "kur", "p10cr"] := by
    simp only [List.mem_cons, List.not_mem_nil, or_false] at hb ⊢
    rcases hb with h | h | h | h <;> simp [h]
  have hreq : requests body 1 = 1 := by
    unfold requests
    split <;> rfl
  have hg : addGenInfo env now [] [] implicit none (some "base")
      = (if implicit then [⟨idIt 13, some [5, 0]⟩] else []) ++ [⟨idIt 21, some (env.encProfiles ["base", "base"])⟩] := by
    cases implicit <;> rfl
  have hval : valueOf [1, 3, 6, 1, 5, 5, 7, 4, 21] (addGenInfo env now [] [] implicit none (some "base"))
      = some (some (env.encProfiles ["base", "base"])) := by
    rw [hg]; cases implicit <;> rfl
  unfold caGenInfo
  have h1 : checkGenInfo env now body (addGenInfo env now [] [] implicit none (some "base")) = .ok () := by
    rw [C186_accepted_iff]
    refine ⟨?_, ?_, fun _ _ _ => hb2⟩
    · intro e he
      refine ⟨hb3, ?_⟩
      have := (valueOf_first _ _ _).2 ⟨e, he, rfl⟩
      rw [hg] at this
      cases implicit with
      | true => exact (Option.some.inj this).symm
      | false => cases this
    · intro e he
      have := (valueOf_first _ _ _).2 ⟨e, he, rfl⟩
      rw [hg] at this
      cases implicit <;> cases this
  rw [h1]
  dsimp only
  rw [C187_accepted_iff]
  intro e he
  refine ⟨hb2, _, _, ?_, hr.profiles ["base", "base"], by simp, ?_, ?_⟩
  · have := (valueOf_first _ _ _).2 ⟨e, he, rfl⟩
    rw [hval] at this
    exact (Option.some.inj this).symm
  · rw [hreq]; decide
  · intro p hp
    simp at hp
    simp [hp]

/-- **C188.** What is built for negative tests is refused: another value of the implicit confirmation, a waiting time of
the wrong type, in the past or together with the implicit confirmation. -/
theorem C188_negative (env : InfoEnv) (hr : InfoRoundTrip env) (now w : Int) (body : String) (old : List Itv) :
    checkGenInfo env now body (patchGenInfo env now old true true none none) ≠ .ok () ∧
    checkGenInfo env now body (patchGenInfo env now old false true (some w) none) = .error .badDataFormat ∧
    (w ≤ 0 → checkGenInfo env now body (patchGenInfo env now old false false (some w) none) = .error .valueError) ∧
    checkGenInfo env now body (patchGenInfo env now old true false (some w) none) ≠ .ok () := by
  refine ⟨?_, ?_, ?_, ?_⟩
  · intro h
    have := ((C186_accepted_iff _ _ _ _).1 h).implicit ⟨idIt 13, some env.rndOctets⟩ ⟨[], [], rfl, rfl, by simp⟩
    exact hr.rnd (Option.some.inj this.2)
  · have hp : patchGenInfo env now old false true (some w) none = [⟨idIt 14, some (env.encUtc (now + w))⟩] := rfl
    rw [hp]
    have : checkWait env now [⟨idIt 14, some (env.encUtc (now + w))⟩] = .error .badDataFormat := by
      unfold checkWait
      rw [show valueOf (idIt 14) [⟨idIt 14, some (env.encUtc (now + w))⟩] = some (some (env.encUtc (now + w))) from rfl]
      dsimp only
      rw [hr.utc]
    unfold checkGenInfo
    rw [show checkImplicit body [⟨idIt 14, some (env.encUtc (now + w))⟩] = .ok () from rfl]
    dsimp only
    rw [this]
  · intro hw
    have hp : patchGenInfo env now old false false (some w) none = [⟨idIt 14, some (env.encTime (now + w))⟩] := rfl
    rw [hp]
    have : checkWait env now [⟨idIt 14, some (env.encTime (now + w))⟩] = .error .valueError := by
      unfold checkWait
      rw [show valueOf (idIt 14) [⟨idIt 14, some (env.encTime (now + w))⟩] = some (some (env.encTime (now + w))) from rfl]
      dsimp only
      rw [hr.time]
      dsimp only
      rw [if_neg (by simp), if_pos (by omega)]
    unfold checkGenInfo
    rw [show checkImplicit body [⟨idIt 14, some (env.encTime (now + w))⟩] = .ok () from rfl]
    dsimp only
    rw [this]
  · intro h
    have := ((C186_accepted_iff _ _ _ _).1 h).wait ⟨idIt 14, some (env.encTime (now + w))⟩
      ⟨[⟨idIt 13, some [5, 0]⟩], [], rfl, rfl, by simp [idIt]⟩
    exact absurd rfl (this.2 ⟨idIt 13, some [5, 0]⟩ (List.mem_cons_self ..))

/-- **C188.** `add_general_info_values` keeps the entries which are there, in their order, and adds the new ones, the
given values being first only if there were entries. -/
theorem C188_added (env : InfoEnv) (now : Int) (old vals : List Itv) (implicit : Bool) (wait : Option Int)
    (profile : Option String) :
    (∃ new, addGenInfo env now old vals implicit wait profile = old ++ new ∧
      ∀ e, e ∈ new ↔ e ∈ vals ∨ e ∈ prepGenInfo env now implicit false wait profile) := by
  cases old with
  | nil => exact ⟨_, rfl, fun e => List.mem_append.trans Or.comm⟩
  | cons x xs => exact ⟨_, rfl, fun e => List.mem_append⟩

/-! ## Examples -/

/-- A small environment: a time is its number, and profiles are numbered by their lengths. -/
def exInfo : InfoEnv where
  encTime t := [24, UInt8.ofNat t.toNat]
  encUtc t := [23, UInt8.ofNat t.toNat]
  encProfiles ps := 48 :: ps.map fun p => if p = "base" then 1 else 2
  rndOctets := [4, 7]
  modifyStr p := p ++ "x"
  decTime b := match b with
    | 24 :: t :: rest => some (some t.toNat, rest)
    | _ => none
  decProfiles b := match b with
    | 48 :: l => some (l.map fun x => if x = 1 then "base" else "other", [])
    | _ => none

def okInfo (x : Except PyErr Unit) : Bool :=
  match x with
  | .ok () => true
  | .error _ => false

example : okInfo (checkGenInfo exInfo 10 "ir" (patchGenInfo exInfo 10 [] true false none none)) = true ∧
    okInfo (checkGenInfo exInfo 10 "ir" (patchGenInfo exInfo 10 [] false false (some 5) none)) = true ∧
    okInfo (checkGenInfo exInfo 10 "ir" (patchGenInfo exInfo 10 [] true false (some 5) none)) = false ∧
    okInfo (checkGenInfo exInfo 10 "genm" (patchGenInfo exInfo 10 [] true false none none)) = false ∧
    okInfo (checkGenInfo exInfo 10 "rr" [profileEntry exInfo false "base"]) = false := by decide +kernel

example : okInfo (validateProfile exInfo "ir" 1 (some ["base"]) [⟨idIt 21, some (exInfo.encProfiles ["base"])⟩]) = false ∧
    okInfo (validateProfile exInfo "ir" 2 (some ["base"]) [⟨idIt 21, some (exInfo.encProfiles ["base"])⟩]) = true ∧
    okInfo (validateProfile exInfo "ir" 1 (some ["base"]) [⟨idIt 21, some (exInfo.encProfiles ["base", "base"])⟩]) = true ∧
    okInfo (validateProfile exInfo "ir" 2 (some ["base"]) [⟨idIt 21, some (exInfo.encProfiles ["other"])⟩]) = false := by
  decide +kernel

example : (patchGenInfo exInfo 10 [] false false none (some "base")) = [] ∧
    (patchGenInfo exInfo 10 [] true false none (some "base")).map (·.oid) = [idIt 13, idIt 21] ∧
    okInfo (caGenInfo exInfo 10 "ir" 1 (addGenInfo exInfo 10 [] [] true none (some "base"))) = true ∧
    okInfo (caGenInfo exInfo 10 "ir" 2 (addGenInfo exInfo 10 [] [] true none (some "base"))) = false := by decide +kernel

end Verif.Ra
