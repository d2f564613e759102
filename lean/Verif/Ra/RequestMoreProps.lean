import Verif.Ra.PopRefuted

/-!
# C157, C159: further statements about the processing of requests

The template of a registration authority, the errors of loading a template's key, and the type of the reply.
-/

namespace Verif.Ra

open Verif.CA hiding Bytes Msg
open Verif.Check

variable {A K S R E C N X G : Type}

/-- C157: the template that replaces the request's is exactly the one in the only control with the OID of RFC 4211 for
requests (1.3.6.1.5.5.7.5.2.2); all controls must be different and those of the other kind in order, the replacement has
the request's number and, if the request has a key, the same encoding of the key. -/
theorem C157_alt_iff (env : RaEnv A K S R E C N X G) (r : Req A R E) (t : Tmpl A R) :
    altTmpl env r = .ok (some t) ↔
      ∃ l d, r.regInfo = some l ∧ ([1, 3, 6, 1, 5, 5, 7, 5, 2, 2], d) ∈ l ∧ (l.map (·.1)).Nodup ∧
        env.utf8 l = .ok () ∧ env.decReq d = some ((r.id, t), []) ∧
        (∀ s, r.tmpl.key = some s → ∃ s', t.key = some s' ∧ env.encSpki s = env.encSpki s') := by
  have hall : ∀ x : Int × Tmpl A R, altAllowed env r x = .ok () ↔ x.1 = r.id ∧
      (∀ s, r.tmpl.key = some s → ∃ s', x.2.key = some s' ∧ env.encSpki s = env.encSpki s') := by
    intro x
    unfold altAllowed
    by_cases hi : r.id = x.1
    · rw [if_neg (fun h => h hi)]
      cases hk : r.tmpl.key with
      | none => simp [hi]
      | some s =>
        dsimp only
        cases hx : x.2.key with
        | none => simp
        | some s' =>
          dsimp only
          by_cases he : env.encSpki s = env.encSpki s'
          · simp [he, hi]
          · simp [he]
    · rw [if_pos hi]
      constructor
      · intro h; cases h
      · rintro ⟨h, _⟩; exact absurd h.symm hi
  have hfind : ∀ (l : List (List Nat × Bytes)), (l.map (·.1)).Nodup → ∀ d,
      (l.find? (fun x => x.1 = regInfoCertReq) = some d ↔ d ∈ l ∧ d.1 = [1, 3, 6, 1, 5, 5, 7, 5, 2, 2]) := by
    intro l
    induction l with
    | nil => simp
    | cons x xs ih =>
      intro hn d
      rw [List.map_cons, List.nodup_cons] at hn
      by_cases hx : x.1 = [1, 3, 6, 1, 5, 5, 7, 5, 2, 2]
      · rw [List.find?_cons_of_pos (p := fun x : List Nat × Bytes => decide (x.1 = regInfoCertReq)) (decide_eq_true (show x.1 = regInfoCertReq from hx))]
        constructor
        · intro h; injection h with h; subst h; exact ⟨List.mem_cons_self .., hx⟩
        · rintro ⟨h, h2⟩
          rcases List.mem_cons.mp h with h | h
          · rw [h]
          · exact absurd (List.mem_map.mpr ⟨d, h, by rw [h2, hx]⟩) hn.1
      · rw [List.find?_cons_of_neg (p := fun x : List Nat × Bytes => decide (x.1 = regInfoCertReq)) (fun h => hx (of_decide_eq_true h)), ih hn.2]
        constructor
        · rintro ⟨h, h2⟩; exact ⟨List.mem_cons_of_mem _ h, h2⟩
        · rintro ⟨h, h2⟩
          rcases List.mem_cons.mp h with h | h
          · subst h; exact absurd h2 hx
          · exact ⟨h, h2⟩
  unfold altTmpl
  cases hr : r.regInfo with
  | none => simp
  | some l =>
    dsimp only
    have key : altReq env r l = .ok (some t) ↔ ∃ d, ([1, 3, 6, 1, 5, 5, 7, 5, 2, 2], d) ∈ l ∧ (l.map (·.1)).Nodup ∧
        env.decReq d = some ((r.id, t), []) ∧
        (∀ s, r.tmpl.key = some s → ∃ s', t.key = some s' ∧ env.encSpki s = env.encSpki s') := by
      unfold altReq
      by_cases hn : (l.map (·.1)).Nodup
      · cases hf : l.find? (fun x => x.1 = regInfoCertReq) with
        | none =>
          constructor
          · intro h; cases h
          · rintro ⟨d, h, _⟩; rw [(hfind l hn (_, d)).mpr ⟨h, rfl⟩] at hf; cases hf
        | some d =>
          obtain ⟨hd1, hd2⟩ := (hfind l hn d).mp hf
          dsimp only
          rw [if_neg (fun h => h hn)]
          have huniq : ∀ d', ([1, 3, 6, 1, 5, 5, 7, 5, 2, 2], d') ∈ l → d' = d.2 := by
            intro d' h
            have := (hfind l hn (_, d')).mpr ⟨h, rfl⟩
            rw [hf] at this; injection this with this; rw [this]
          cases hdec : env.decReq d.2 with
          | none =>
            constructor
            · intro h; cases h
            · rintro ⟨d', h, _, h2, _⟩; rw [huniq d' h, hdec] at h2; cases h2
          | some y =>
            obtain ⟨x, rest⟩ := y
            dsimp only
            by_cases hrest : rest = []
            · rw [if_neg (fun h => h hrest)]
              cases ha : altAllowed env r x with
              | error e =>
                constructor
                · intro h; cases h
                · rintro ⟨d', h, _, h2, h3⟩
                  rw [huniq d' h, hdec] at h2; injection h2 with h2; injection h2 with h2 _
                  subst h2
                  rw [(hall _).mpr ⟨rfl, h3⟩] at ha; cases ha
              | ok _ =>
                obtain ⟨h1, h2⟩ := (hall x).mp ha
                dsimp only
                constructor
                · intro h; injection h with h; injection h with h; subst h
                  refine ⟨d.2, ?_, hn, ?_, h2⟩
                  · rw [← hd2]; exact hd1
                  · rw [hdec, hrest, ← h1]
                · rintro ⟨d', h, _, h3, _⟩
                  rw [huniq d' h, hdec] at h3; injection h3 with h3; injection h3 with h3 _
                  rw [h3]
            · rw [if_pos hrest]
              constructor
              · intro h; cases h
              · rintro ⟨d', h, _, h2, _⟩
                rw [huniq d' h, hdec] at h2; injection h2 with h2; injection h2 with _ h2; exact absurd h2 hrest
      · constructor
        · intro h
          exfalso
          cases hf : l.find? (fun x => x.1 = regInfoCertReq) with
          | none => rw [hf] at h; cases h
          | some d => rw [hf] at h; dsimp only at h; rw [if_pos hn] at h; cases h
        · rintro ⟨_, _, h, _⟩; exact absurd h hn
    cases ha : altReq env r l with
    | error e =>
      rw [ha] at key
      constructor
      · intro h; cases h
      · rintro ⟨l', d, hl, h1, h2, _, h4, h5⟩
        injection hl with hl; subst hl
        have := key.mpr ⟨d, h1, h2, h4, h5⟩
        cases this
    | ok o =>
      rw [ha] at key
      dsimp only
      cases hu : env.utf8 l with
      | error e =>
        constructor
        · intro h; cases h
        · rintro ⟨l', d, hl, _, _, h3, _⟩; injection hl with hl; subst hl; rw [hu] at h3; cases h3
      | ok _ =>
        dsimp only
        rw [key]
        constructor
        · rintro ⟨d, h1, h2, h3, h4⟩; exact ⟨l, d, rfl, h1, h2, hu, h3, h4⟩
        · rintro ⟨l', d, hl, h1, h2, _, h4, h5⟩; injection hl with hl; subst hl; exact ⟨d, h1, h2, h4, h5⟩

example : altTmpl exRaEnv { exReq 0 5 none with regInfo := some [([1, 3, 6, 1, 5, 5, 7, 5, 2, 2], [5])] } =
    .ok (some ⟨some ⟨some 0, [5]⟩, "changed"⟩) := rfl

/-- C157: a key of the template that cannot be loaded — a bad algorithm, a bad value or bad key data — is reported as a bad
template; every other error is passed on. -/
theorem C157_load_error (env : RaEnv A K S R E C N X G) (alg : Option A) (max : Nat) (t : Tmpl A R) (s : Spki A)
    (e : PyErr) (hn : env.named t.rest = true) (hk : t.key = some s) (hb : s.bits ≠ []) (he : env.loadSpki s = .error e) :
    checkTmplKey env alg max t =
      .error (if e ∈ [PyErr.badAlg, .valueError, .invalidKeyData] then .badCertTemplate else e) := by
  unfold checkTmplKey tmplKey tmplErr
  rw [if_neg (by simp [hn]), hk]
  dsimp only
  rw [if_neg hb, he]
  dsimp only
  cases e <;> rfl

/-- C157: for a proof by signature the key is loaded too; a bad algorithm, a bad value, bad key data and bad ASN.1 are
reported as a bad template, every other error is passed on. -/
theorem C157_sig_load_error (env : RaEnv A K S R E C N X G) (r : Req A R E) (a : A) (s : Spki A) (e : PyErr)
    (hk : r.tmpl.key = some s) (hb : s.bits ≠ []) (he : env.loadSpki s = .error e) :
    sigKeyOk env r a =
      .error (if e ∈ [PyErr.badAlg, .valueError, .invalidKeyData, .badAsn1Data] then .badCertTemplate else e) := by
  unfold sigKeyOk reqKey tmplKey tmplErr
  rw [hk]
  dsimp only
  rw [if_neg hb, he]
  dsimp only
  cases e <;> rfl

/-- The reply to a request (RFC 9810, section 5.1.2). -/
def repliesOf : List (String × String) :=
  [("ir", "ip"), ("cr", "cp"), ("p10cr", "cp"), ("kur", "kup"), ("crr", "ccp")]

/-- C159: the body type of the reply is the one for the request's, and there is none for other bodies. The cross
certification request is looked up under `crr`, not under its name `ccr`. -/
theorem C159_reply_type (b r : String) : replyType b = .ok r ↔ (b, r) ∈ repliesOf := by
  unfold replyType repliesOf
  by_cases h1 : b = "ir"
  · subst h1; simp [eq_comm]
  · rw [if_neg h1]
    by_cases h2 : b ∈ ["cr", "p10cr"]
    · rw [if_pos h2]
      have : b = "cr" ∨ b = "p10cr" := by simpa using h2
      rcases this with rfl | rfl <;> simp [eq_comm]
    · rw [if_neg h2]
      have h2' : ¬ b = "cr" ∧ ¬ b = "p10cr" := by simpa using h2
      by_cases h3 : b = "kur"
      · subst h3; simp [eq_comm]
      · rw [if_neg h3]
        by_cases h4 : b = "crr"
        · subst h4; simp [eq_comm]
        · rw [if_neg h4]; simp [h1, h2', h3, h4]

/-- C159, false of the code: there is no reply type for a cross certification request (`ccr`). -/
theorem C159_ccr_refuted : replyType "ccr" = .error .valueError := by decide +kernel

example : replyType "ir" = .ok "ip" ∧ replyType "rr" = .error .valueError := by decide +kernel

end Verif.Ra
