import Verif.Ra.General
import Mathlib.Data.List.Forall2

/-!
# Which general messages the mock CA answers, and with what
-/

namespace Verif.Ra

open Verif.CA (PyErr)

variable {N R E C : Type} [DecidableEq N] [DecidableEq R] [DecidableEq C]

/-! ## The answer to one entry -/

/-- The answers of the CA, entry by entry.  The numbers are those of RFC 9810, section 5.3.19, below
1.3.6.1.5.5.7.4. -/
inductive GenAnswer (env : GenEnv N R E C) (m : GenMsg C) : Itv → Itv → Prop
  | kem (c : C) (cs : List C) (ss v : List UInt8) : m.extra = c :: cs → env.kem c = .ok (ss, v) →
      GenAnswer env m ⟨[1, 3, 6, 1, 5, 5, 7, 4, 9999], none⟩ ⟨[1, 3, 6, 1, 5, 5, 7, 4, 9999], some v⟩
  | protEnc (v : List UInt8) : env.protEncCert = some v →
      GenAnswer env m ⟨[1, 3, 6, 1, 5, 5, 7, 4, 1], none⟩ ⟨[1, 3, 6, 1, 5, 5, 7, 4, 1], some v⟩
  | sign : GenAnswer env m ⟨[1, 3, 6, 1, 5, 5, 7, 4, 2], none⟩ ⟨[1, 3, 6, 1, 5, 5, 7, 4, 2], some env.signTypes⟩
  | enc : GenAnswer env m ⟨[1, 3, 6, 1, 5, 5, 7, 4, 3], none⟩ ⟨[1, 3, 6, 1, 5, 5, 7, 4, 3], some env.encTypes⟩
  | sym : GenAnswer env m ⟨[1, 3, 6, 1, 5, 5, 7, 4, 4], none⟩ ⟨[1, 3, 6, 1, 5, 5, 7, 4, 4], some env.symAlg⟩
  | crl (v : List UInt8) : env.crl 0 = .ok v →
      GenAnswer env m ⟨[1, 3, 6, 1, 5, 5, 7, 4, 6], none⟩ ⟨[1, 3, 6, 1, 5, 5, 7, 4, 6], some v⟩
  | allKnown (b : List UInt8) (l : List (List Nat)) : env.decOids b = some (l, []) → (∀ o ∈ l, env.knownOid o = true) →
      GenAnswer env m ⟨[1, 3, 6, 1, 5, 5, 7, 4, 7], some b⟩ ⟨[1, 3, 6, 1, 5, 5, 7, 4, 7], none⟩
  | someUnknown (b : List UInt8) (l : List (List Nat)) : env.decOids b = some (l, []) →
      (∃ o ∈ l, env.knownOid o = false) →
      GenAnswer env m ⟨[1, 3, 6, 1, 5, 5, 7, 4, 7], some b⟩
        ⟨[1, 3, 6, 1, 5, 5, 7, 4, 7], some (env.encOids (l.filter (fun o => env.knownOid o = false)))⟩
  | passphrase (b : List UInt8) (d : E) (p : List UInt8) : env.decEncKey b = some (.enveloped d, []) → m.pvno = 3 →
      env.openEnv d = .ok p →
      GenAnswer env m ⟨[1, 3, 6, 1, 5, 5, 7, 4, 12], some b⟩ ⟨[1, 3, 6, 1, 5, 5, 7, 4, 12], none⟩
  | langs (b : List UInt8) (l : List String) : env.decLangs b = some (l, []) → l ≠ [] →
      (∀ x ∈ l, x = "en" ∨ x = "de" ∨ x = "fr") →
      GenAnswer env m ⟨[1, 3, 6, 1, 5, 5, 7, 4, 16], some b⟩ ⟨[1, 3, 6, 1, 5, 5, 7, 4, 16], some (env.encLangs ["en"])⟩
  | caCerts : GenAnswer env m ⟨[1, 3, 6, 1, 5, 5, 7, 4, 17], none⟩ ⟨[1, 3, 6, 1, 5, 5, 7, 4, 17], some env.caCerts⟩
  | template : GenAnswer env m ⟨[1, 3, 6, 1, 5, 5, 7, 4, 19], none⟩ ⟨[1, 3, 6, 1, 5, 5, 7, 4, 19], some env.template⟩
  | rootAny (v : List UInt8) : env.rootUpdate = .ok v →
      GenAnswer env m ⟨[1, 3, 6, 1, 5, 5, 7, 4, 20], none⟩ ⟨[1, 3, 6, 1, 5, 5, 7, 4, 18], some v⟩
  | rootSame (b v : List UInt8) : env.decCert b = some (env.rootCert, []) → env.rootUpdate = .ok v →
      GenAnswer env m ⟨[1, 3, 6, 1, 5, 5, 7, 4, 20], some b⟩ ⟨[1, 3, 6, 1, 5, 5, 7, 4, 18], some v⟩
  | rootOther (b : List UInt8) (c : C) : env.decCert b = some (c, []) → c ≠ env.rootCert →
      GenAnswer env m ⟨[1, 3, 6, 1, 5, 5, 7, 4, 20], some b⟩ ⟨[1, 3, 6, 1, 5, 5, 7, 4, 18], none⟩
  | crls (b : List UInt8) (o : Itv) (t : Option String) :
      crlUpdate env ⟨[1, 3, 6, 1, 5, 5, 7, 4, 22], some b⟩ = .ok (o, t) →
      GenAnswer env m ⟨[1, 3, 6, 1, 5, 5, 7, 4, 22], some b⟩ o

omit [DecidableEq N] [DecidableEq R] [DecidableEq C] in
theorem readWhole_ok {T : Type} (dec : List UInt8 → Option (T × List UInt8)) (v : Option (List UInt8)) (x : T) :
    readWhole dec v = .ok x ↔ ∃ b, v = some b ∧ dec b = some (x, []) := by
  unfold readWhole
  cases v with
  | none => simp
  | some b =>
    dsimp only
    cases h : dec b with
    | none => simp [h]
    | some p =>
      obtain ⟨y, r⟩ := p
      cases r with
      | nil => simp [h]
      | cons a as => simp [h]

/-- The numbers as used by the model. -/
theorem idIt_inj {a b : Nat} : idIt a = idIt b ↔ a = b := by simp [idIt]

/-- The entry is processed: its value is absent where it has to be, and the branch of its type gives an answer. -/
def entryAnswer (env : GenEnv N R E C) (m : GenMsg C) (s : GenState) (e : Itv) : Except PyErr (Itv × Option String) :=
  match absentOk e with
  | .error er => .error er
  | .ok () => (genEntry env m s e).1

omit [DecidableEq N] [DecidableEq R] [DecidableEq C] in
theorem absentOk_ok (e : Itv) : absentOk e = .ok () ↔ (e.oid ∈ absentTypes → e.val = none) := by
  unfold absentOk
  cases h : e.val with
  | none => simp
  | some b => by_cases hm : e.oid ∈ absentTypes <;> simp [hm]

theorem C174_entry_sound (env : GenEnv N R E C) (m : GenMsg C) (s : GenState) (e o : Itv) (t : Option String)
    (h : entryAnswer env m s e = .ok (o, t)) : GenAnswer env m e o := by
  obtain ⟨oid, v⟩ := e
  unfold entryAnswer at h
  cases ha : absentOk ⟨oid, v⟩ with
  | error er => rw [ha] at h; cases h
  | ok u =>
    rw [ha] at h
    dsimp only at h
    rw [absentOk_ok] at ha
    dsimp only at ha
    unfold genEntry at h
    dsimp only at h
    by_cases h0 : oid = idIt 9999
    · subst h0
      rw [if_pos rfl] at h
      have hv : v = none := ha (by decide)
      subst hv
      simp only [kemEntry, kemInfo] at h
      cases hx : m.extra with
      | nil => simp [hx] at h
      | cons c cs =>
        cases hk : env.kem c with
        | error er => simp [hx, hk] at h
        | ok p =>
          obtain ⟨ss, w⟩ := p
          simp [hx, hk] at h
          obtain ⟨rfl, rfl⟩ := h
          exact .kem c cs ss w hx hk
    rw [if_neg h0] at h
    by_cases h1 : oid = idIt 1
    · subst h1
      rw [if_pos rfl] at h
      have hv : v = none := ha (by decide)
      subst hv
      simp only [protEnc] at h
      cases hp : env.protEncCert with
      | none => simp [hp] at h
      | some w =>
        simp [hp] at h
        obtain ⟨rfl, rfl⟩ := h
        exact .protEnc w hp
    rw [if_neg h1] at h
    by_cases h2 : oid = idIt 2
    · subst h2
      rw [if_pos rfl] at h
      have hv : v = none := ha (by decide)
      subst hv
      simp at h
      obtain ⟨rfl, rfl⟩ := h
      exact .sign
    rw [if_neg h2] at h
    by_cases h3 : oid = idIt 3
    · subst h3
      rw [if_pos rfl] at h
      have hv : v = none := ha (by decide)
      subst hv
      simp [fixedAnswer] at h
      obtain ⟨rfl, rfl⟩ := h
      exact .enc
    rw [if_neg h3] at h
    by_cases h4 : oid = idIt 4
    · subst h4
      rw [if_pos rfl] at h
      have hv : v = none := ha (by decide)
      subst hv
      simp [fixedAnswer] at h
      obtain ⟨rfl, rfl⟩ := h
      exact .sym
    rw [if_neg h4] at h
    by_cases h6 : oid = idIt 6
    · subst h6
      rw [if_pos rfl] at h
      have hv : v = none := ha (by decide)
      subst hv
      simp only [currentCrl] at h
      cases hc : env.crl 0 with
      | error er => simp [hc] at h
      | ok w =>
        simp [hc] at h
        obtain ⟨rfl, rfl⟩ := h
        exact .crl w hc
    rw [if_neg h6] at h
    by_cases h7 : oid = idIt 7
    · subst h7
      rw [if_pos rfl] at h
      simp only [unsupportedOids] at h
      cases hd : readWhole env.decOids v with
      | error er => rw [hd] at h; cases h
      | ok l =>
        rw [hd] at h
        obtain ⟨b, rfl, hb⟩ := (readWhole_ok _ _ _).1 hd
        dsimp only at h
        cases hf : l.filter (fun o => !env.knownOid o) with
        | nil =>
          simp only [hf] at h
          cases h
          exact .allKnown b l hb (by simpa using hf)
        | cons a as =>
          simp only [hf] at h
          cases h
          have hq : (l.filter fun o => decide (env.knownOid o = false)) = a :: as := by
            rw [← hf]; congr 1; funext o; cases env.knownOid o <;> rfl
          rw [← hq]
          refine .someUnknown b l hb ⟨a, ?_⟩
          have := List.mem_cons_self (a := a) (l := as)
          rw [← hf, List.mem_filter] at this
          simpa using this
    rw [if_neg h7] at h
    by_cases h10 : oid = idIt 10
    · subst h10
      rw [if_pos rfl] at h
      have hv : v = none := ha (by decide)
      subst hv
      simp [keyPairParam] at h
    rw [if_neg h10] at h
    by_cases h12 : oid = idIt 12
    · subst h12
      rw [if_pos rfl] at h
      simp only [revPassphrase] at h
      cases hr : readPassphrase env m.pvno ⟨idIt 12, v⟩ with
      | error er => simp [hr] at h
      | ok p =>
        simp [hr] at h
        obtain ⟨rfl, rfl⟩ := h
        unfold readPassphrase at hr
        cases v with
        | none => cases hr
        | some b =>
          dsimp only at hr
          cases hd : readWhole env.decEncKey (some b) with
          | error er => rw [hd] at hr; cases hr
          | ok k =>
            rw [hd] at hr
            obtain ⟨b', hb', hb⟩ := (readWhole_ok _ _ _).1 hd
            cases hb'
            cases k with
            | encryptedValue => dsimp only at hr; split at hr <;> cases hr
            | enveloped d =>
              dsimp only at hr
              by_cases hp : m.pvno = 3
              · rw [if_neg (by simp [hp])] at hr
                exact .passphrase b d p hb hp hr
              · rw [if_pos hp] at hr; cases hr
    rw [if_neg h12] at h
    by_cases h16 : oid = idIt 16
    · subst h16
      rw [if_pos rfl] at h
      simp only [suppLangs] at h
      cases v with
      | none => cases h
      | some b =>
        dsimp only at h
        cases hd : readWhole env.decLangs (some b) with
        | error er => rw [hd] at h; cases h
        | ok l =>
          rw [hd] at h
          obtain ⟨b', hb', hb⟩ := (readWhole_ok _ _ _).1 hd
          cases hb'
          cases l with
          | nil => cases h
          | cons x xs =>
            dsimp only at h
            by_cases hl : ((x :: xs).all fun y => y ∈ ["en", "de", "fr"]) = true
            · rw [if_pos hl] at h
              cases h
              refine .langs b (x :: xs) hb (by simp) fun y hy => ?_
              have := List.all_eq_true.1 hl y hy
              simpa using this
            · rw [if_neg hl] at h; cases h
    rw [if_neg h16] at h
    by_cases h18 : oid = idIt 18
    · rw [if_pos h18] at h; cases h
    rw [if_neg h18] at h
    by_cases h20 : oid = idIt 20
    · subst h20
      rw [if_pos rfl] at h
      simp only [rootCaCert] at h
      cases v with
      | none =>
        dsimp only at h
        cases hu : env.rootUpdate with
        | error er => simp [hu] at h
        | ok w => simp [hu] at h; obtain ⟨rfl, rfl⟩ := h; exact .rootAny w hu
      | some b =>
        dsimp only at h
        cases hd : readWhole env.decCert (some b) with
        | error er => rw [hd] at h; cases h
        | ok c =>
          rw [hd] at h
          obtain ⟨b', hb', hb⟩ := (readWhole_ok _ _ _).1 hd
          cases hb'
          dsimp only at h
          by_cases hc : c = env.rootCert
          · rw [if_pos hc] at h
            cases hu : env.rootUpdate with
            | error er => simp [hu] at h
            | ok w =>
              simp [hu] at h; obtain ⟨rfl, rfl⟩ := h
              exact .rootSame b w (hc ▸ hb) hu
          · rw [if_neg hc] at h
            cases h
            exact .rootOther b c hb hc
    rw [if_neg h20] at h
    by_cases h19 : oid = idIt 19
    · subst h19
      rw [if_pos rfl] at h
      have hv : v = none := ha (by decide)
      subst hv
      simp at h
      obtain ⟨rfl, rfl⟩ := h
      exact .template
    rw [if_neg h19] at h
    by_cases h22 : oid = idIt 22
    · subst h22
      rw [if_pos rfl] at h
      cases v with
      | none => simp [crlUpdate] at h
      | some b => exact .crls b o t h
    rw [if_neg h22] at h
    by_cases h17 : oid = idIt 17
    · subst h17
      rw [if_pos rfl] at h
      have hv : v = none := ha (by decide)
      subst hv
      simp at h
      obtain ⟨rfl, rfl⟩ := h
      exact .caCerts
    rw [if_neg h17] at h
    by_cases h13 : oid = idIt 13
    · subst h13
      rw [if_pos rfl] at h
      have hv : v = none := ha (by decide)
      subst hv
      simp [implicitConfirm, readWhole] at h
    rw [if_neg h13] at h
    by_cases h21 : oid = idIt 21
    · rw [if_pos h21] at h
      simp only [certProfile] at h
      split at h
      · cases h
      · cases h
      · split at h <;> cases h
      · cases h
    rw [if_neg h21] at h
    cases h

theorem C174_entry_complete (env : GenEnv N R E C) (m : GenMsg C) (s : GenState) (e o : Itv) (h : GenAnswer env m e o) :
    ∃ t, entryAnswer env m s e = .ok (o, t) := by
  cases h with
  | kem c cs ss v hx hk => exact ⟨none, by simp [entryAnswer, absentOk, genEntry, idIt, kemEntry, kemInfo, hx, hk]⟩
  | protEnc v hp => exact ⟨_, by simp [entryAnswer, absentOk, genEntry, idIt, protEnc, hp]; rfl⟩
  | sign => exact ⟨_, by simp [entryAnswer, absentOk, genEntry, idIt]; rfl⟩
  | enc => exact ⟨_, by simp [entryAnswer, absentOk, genEntry, idIt, fixedAnswer]; rfl⟩
  | sym => exact ⟨_, by simp [entryAnswer, absentOk, genEntry, idIt, fixedAnswer]; rfl⟩
  | crl v hc => exact ⟨_, by simp [entryAnswer, absentOk, genEntry, idIt, currentCrl, hc]; rfl⟩
  | allKnown b l hb hk =>
    have hf : l.filter (fun o => !env.knownOid o) = [] := by simpa using hk
    exact ⟨_, by simp [entryAnswer, absentOk, absentTypes, genEntry, idIt, unsupportedOids, readWhole, hb, hf]; rfl⟩
  | someUnknown b l hb hk =>
    obtain ⟨a, ha, hu⟩ := hk
    have hq : (l.filter fun o => decide (env.knownOid o = false)) = l.filter (fun o => !env.knownOid o) := by
      congr 1; funext o; cases env.knownOid o <;> rfl
    cases hf : l.filter (fun o => !env.knownOid o) with
    | nil =>
      have : a ∈ l.filter (fun o => !env.knownOid o) := by simp [ha, hu]
      rw [hf] at this; cases this
    | cons x xs =>
      rw [hq, hf]
      exact ⟨_, by simp [entryAnswer, absentOk, absentTypes, genEntry, idIt, unsupportedOids, readWhole, hb, hf]; rfl⟩
  | passphrase b d p hb hp ho =>
    exact ⟨_, by simp [entryAnswer, absentOk, absentTypes, genEntry, idIt, revPassphrase, readPassphrase, readWhole, hb, hp, ho]; rfl⟩
  | langs b l hb hn hl =>
    cases l with
    | nil => exact absurd rfl hn
    | cons x xs =>
      have ha : ((x :: xs).all fun y => y ∈ ["en", "de", "fr"]) = true :=
        List.all_eq_true.2 fun y hy => by simpa using hl y hy
      refine ⟨some "Currently is always 'en' returned.", ?_⟩
      simp only [entryAnswer, absentOk, absentTypes, genEntry, idIt, suppLangs, readWhole, hb]
      rw [if_pos ha]
      simp
  | caCerts => exact ⟨_, by simp [entryAnswer, absentOk, genEntry, idIt]; rfl⟩
  | template => exact ⟨_, by simp [entryAnswer, absentOk, genEntry, idIt]; rfl⟩
  | rootAny v hu => exact ⟨_, by simp [entryAnswer, absentOk, genEntry, idIt, rootCaCert, hu]; rfl⟩
  | rootSame b v hb hu =>
    exact ⟨_, by simp [entryAnswer, absentOk, absentTypes, genEntry, idIt, rootCaCert, readWhole, hb, hu]; rfl⟩
  | rootOther b c hb hc =>
    exact ⟨_, by simp [entryAnswer, absentOk, absentTypes, genEntry, idIt, rootCaCert, readWhole, hb, hc]; rfl⟩
  | crls b o t hc =>
    refine ⟨t, ?_⟩
    have h22 : (idIt 22) = [1, 3, 6, 1, 5, 5, 7, 4, 22] := rfl
    simp [entryAnswer, absentOk, absentTypes, genEntry, idIt, hc]

/-! ## The whole message -/

theorem genLoop_ok (env : GenEnv N R E C) (m : GenMsg C) (s : GenState) (l os : List Itv) :
    (∃ ts s', genLoop env m s l = (.ok (os, ts), s')) ↔ List.Forall₂ (GenAnswer env m) l os := by
  induction l generalizing s os with
  | nil =>
    constructor
    · rintro ⟨ts, s', h⟩
      simp [genLoop] at h
      obtain ⟨⟨rfl, -⟩, -⟩ := h
      exact .nil
    · intro h
      cases h
      exact ⟨[], s, rfl⟩
  | cons e es ih =>
    constructor
    · rintro ⟨ts, s', h⟩
      unfold genLoop at h
      cases ha : absentOk e with
      | error er => rw [ha] at h; cases h
      | ok u =>
        rw [ha] at h
        dsimp only at h
        rcases hg : genEntry env m s e with ⟨r, s1⟩
        rw [hg] at h
        cases r with
        | error er => cases h
        | ok p =>
          obtain ⟨o, t⟩ := p
          dsimp only at h
          rcases hl : genLoop env m s1 es with ⟨r2, s2⟩
          rw [hl] at h
          cases r2 with
          | error er => cases h
          | ok q =>
            obtain ⟨os', ts'⟩ := q
            dsimp only at h
            cases h
            refine .cons (C174_entry_sound env m s e o t ?_) ((ih s1 os').1 ⟨ts', s', hl⟩)
            unfold entryAnswer
            rw [ha]
            dsimp only
            rw [hg]
    · intro h
      cases h with
      | @cons _ o _ os' h1 h2 =>
        obtain ⟨t, ht⟩ := C174_entry_complete env m s e o h1
        unfold entryAnswer at ht
        cases ha : absentOk e with
        | error er => rw [ha] at ht; cases ht
        | ok u =>
          rw [ha] at ht
          dsimp only at ht
          rcases hg : genEntry env m s e with ⟨r, s1⟩
          rw [hg] at ht
          dsimp only at ht
          subst ht
          obtain ⟨ts, s', hl⟩ := (ih s1 os').2 h2
          refine ⟨keepText t ++ ts, s', ?_⟩
          unfold genLoop
          rw [ha]
          dsimp only
          rw [hg]
          dsimp only
          rw [hl]

/-- **C174.** A general message is answered exactly if it has an entry, under the lightweight profile just one, and each
of its entries has an answer; the response then carries these answers, one for each entry and in the same order,
whatever was processed before. -/
theorem C174_answered_iff (env : GenEnv N R E C) (s : GenState) (m : GenMsg C) (os : List Itv) :
    (∃ ts s', processGeneral env s m = (.ok (os, ts), s')) ↔
      m.body ≠ [] ∧ (env.lwcmp = true → m.body.length = 1) ∧ List.Forall₂ (GenAnswer env m) m.body os := by
  rw [← genLoop_ok env m s m.body os]
  unfold processGeneral
  by_cases h1 : env.lwcmp = true ∧ m.body.length > 1
  · rw [if_pos h1]
    constructor
    · rintro ⟨ts, s', h⟩; cases h
    · rintro ⟨-, h, -⟩
      have := h h1.1
      omega
  · rw [if_neg h1]
    by_cases h2 : m.body.length = 0
    · rw [if_pos h2]
      constructor
      · rintro ⟨ts, s', h⟩; cases h
      · rintro ⟨h, -⟩; exact absurd (List.eq_nil_of_length_eq_zero h2) h
    · rw [if_neg h2]
      constructor
      · intro h
        refine ⟨fun hh => h2 (by rw [hh]; rfl), fun hl => ?_, h⟩
        have : ¬ m.body.length > 1 := fun hh => h1 ⟨hl, hh⟩
        omega
      · rintro ⟨-, -, h⟩; exact h

/-- RFC 9810, sections 5.3.19.1-16 and 5.1.1.5: the type of the answer to a request of the given type, where one is
defined. -/
def rfcAnswerType (o : List Nat) : Option (List Nat) :=
  if o = [1, 3, 6, 1, 5, 5, 7, 4, 20] then some [1, 3, 6, 1, 5, 5, 7, 4, 18]
  else if o = [1, 3, 6, 1, 5, 5, 7, 4, 22] then some [1, 3, 6, 1, 5, 5, 7, 4, 23]
  else if o = [1, 3, 6, 1, 5, 5, 7, 4, 10] then some [1, 3, 6, 1, 5, 5, 7, 4, 11]
  else if o ∈ [[1, 3, 6, 1, 5, 5, 7, 4, 1], [1, 3, 6, 1, 5, 5, 7, 4, 2], [1, 3, 6, 1, 5, 5, 7, 4, 3],
      [1, 3, 6, 1, 5, 5, 7, 4, 4], [1, 3, 6, 1, 5, 5, 7, 4, 6], [1, 3, 6, 1, 5, 5, 7, 4, 7],
      [1, 3, 6, 1, 5, 5, 7, 4, 12], [1, 3, 6, 1, 5, 5, 7, 4, 16], [1, 3, 6, 1, 5, 5, 7, 4, 17],
      [1, 3, 6, 1, 5, 5, 7, 4, 19], [1, 3, 6, 1, 5, 5, 7, 4, 9999]] then some o
  else none

omit [DecidableEq C] in
theorem crlUpdate_type (env : GenEnv N R E C) (e o : Itv) (t : Option String) (h : crlUpdate env e = .ok (o, t)) :
    o.oid = [1, 3, 6, 1, 5, 5, 7, 4, 23] := by
  unfold crlUpdate at h
  split at h
  · cases h
  · split at h
    · cases h
    · cases h
    · split at h
      · cases h
      · cases h; rfl
      · split at h
        · cases h
        · cases h; rfl

/-- **C174.** The type of each answer is the one which RFC 9810 assigns to the type of the request. -/
theorem C174_types (env : GenEnv N R E C) (s s' : GenState) (m : GenMsg C) (os : List Itv) (ts : List String)
    (h : processGeneral env s m = (.ok (os, ts), s')) :
    List.Forall₂ (fun e o => rfcAnswerType e.oid = some o.oid) m.body os := by
  have := ((C174_answered_iff env s m os).1 ⟨ts, s', h⟩).2.2
  refine this.imp fun e o ha => ?_
  cases ha with
  | crls b o t hc => rw [crlUpdate_type env _ _ _ hc]; rfl
  | _ => rfl

/-- **C174, refuted.** A request for the parameters of a key pair (`id-it-keyPairParamReq`, whose value is an OID) is
never answered: with a value it is refused because the value should be absent, without one because it should be
present. -/
theorem C174_key_pair_param_refuted (env : GenEnv N R E C) (m : GenMsg C) (s : GenState) (v : Option (List UInt8)) :
    entryAnswer env m s ⟨[1, 3, 6, 1, 5, 5, 7, 4, 10], v⟩ = .error .badValueBehavior := by
  cases v with
  | none => simp [entryAnswer, absentOk, genEntry, idIt, keyPairParam]
  | some b => simp [entryAnswer, absentOk, absentTypes, idIt]

/-- **C174, refuted.** The CA which supports implicit confirmation never says so: the entry is refused with a value, and
without one the absent value is decoded. -/
theorem C174_implicit_confirm_refuted (env : GenEnv N R E C) (m : GenMsg C) (s : GenState) (v : Option (List UInt8)) :
    entryAnswer env m s ⟨[1, 3, 6, 1, 5, 5, 7, 4, 13], v⟩ =
      match v with
      | none => .error .pyasn1Error
      | some _ => .error .badValueBehavior := by
  cases v with
  | none => simp [entryAnswer, absentOk, genEntry, idIt, implicitConfirm, readWhole]
  | some b => simp [entryAnswer, absentOk, absentTypes, idIt]

/-- **C174, refuted.** A certificate profile known to the CA is refused like an unknown one. -/
theorem C174_profile_refuted (env : GenEnv N R E C) (m : GenMsg C) (s : GenState) (b : List UInt8) (l : List String)
    (h : env.decProfiles b = some (l, [])) :
    entryAnswer env m s ⟨[1, 3, 6, 1, 5, 5, 7, 4, 21], some b⟩ = .error .badRequest := by
  simp only [entryAnswer, absentOk, absentTypes, genEntry, idIt, certProfile, readWhole, h]
  cases l with
  | nil => simp
  | cons x xs =>
    cases xs with
    | nil => simp
    | cons y ys => simp

/-- **C174, refuted.** RFC 9810, section 5.3.19.13: the answer to the language tags is the tag chosen among those sent.
A client which understands only German is answered in English. -/
theorem C174_language_refuted (env : GenEnv N R E C) (m : GenMsg C) (s : GenState) (b : List UInt8)
    (h : env.decLangs b = some (["de"], [])) :
    (entryAnswer env m s ⟨[1, 3, 6, 1, 5, 5, 7, 4, 16], some b⟩).map (fun r => r.1) =
      .ok ⟨[1, 3, 6, 1, 5, 5, 7, 4, 16], some (env.encLangs ["en"])⟩ := by
  simp [entryAnswer, absentOk, absentTypes, genEntry, idIt, suppLangs, readWhole, h, Except.map]

/-- **C174, refuted.** A list which names a language unknown to the CA is refused, also if it names English. -/
theorem C174_language_list_refuted (env : GenEnv N R E C) (m : GenMsg C) (s : GenState) (b : List UInt8)
    (h : env.decLangs b = some (["en", "es"], [])) :
    entryAnswer env m s ⟨[1, 3, 6, 1, 5, 5, 7, 4, 16], some b⟩ = .error .badRequest := by
  simp [entryAnswer, absentOk, absentTypes, genEntry, idIt, suppLangs, readWhole, h]

/-- **C174, refuted.** RFC 9810, section 5.3.19.15: the update is sent if the root certificate was updated.  The CA
answers with an update to every client which knows its present root certificate, and with none to a client which
knows another one. -/
theorem C174_root_refuted (env : GenEnv N R E C) (m : GenMsg C) (s : GenState) (b v : List UInt8) (c : C)
    (hv : env.rootUpdate = .ok v) (hb : env.decCert b = some (c, [])) :
    (entryAnswer env m s ⟨[1, 3, 6, 1, 5, 5, 7, 4, 20], some b⟩).map (fun r => r.1.val) =
      .ok (if c = env.rootCert then some v else none) := by
  by_cases hc : c = env.rootCert
  · simp [entryAnswer, absentOk, absentTypes, genEntry, idIt, rootCaCert, readWhole, hb, hv, hc, Except.map]
  · simp [entryAnswer, absentOk, absentTypes, genEntry, idIt, rootCaCert, readWhole, hb, hc, Except.map]

end Verif.Ra
