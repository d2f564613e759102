import Verif.Env.ContentProps
import Verif.Prot.KemProps

/-!
# C149: password recipients of `EnvelopedData`
-/

namespace Verif.Env

open Verif.CA Verif.Prot

variable {S K C : Type}

/-! ## Specification -/

/-- AES key wrap (RFC 3565) and the length of its key in bytes. -/
def WrapAlg (o : Oid) (n : Nat) : Prop :=
  (o = [2, 16, 840, 1, 101, 3, 4, 1, 5] ∧ n = 16) ∨ (o = [2, 16, 840, 1, 101, 3, 4, 1, 25] ∧ n = 24) ∨
    (o = [2, 16, 840, 1, 101, 3, 4, 1, 45] ∧ n = 32)

/-- The encoding of the parameters is one of PBKDF2 parameters, without trailing bytes. -/
inductive PwKdf (env : KEnv S K C) : KdfPar → Pbkdf2 → Prop
  | obj {p q : Pbkdf2} : env.decPbkdf2 (env.encPbkdf2 p) = some (q, []) → PwKdf env (.pbkdf2 p) q
  | raw {b : Bytes} {q : Pbkdf2} : env.decPbkdf2 b = some (q, []) → PwKdf env (.raw b) q
  | hash {o : Oid} {q : Pbkdf2} : env.decPbkdf2 (env.encHashAlg o) = some (q, []) → PwKdf env (.hash o) q

/-- `PwriKey env p salt pw cek`: the recipient has version 3, PBKDF2 and AES key wrap without parameters, the derived key
has the length that the key wrap needs, its salt is not that of the protection, and the encrypted key is unwrapped with the
key derived from the password. -/
inductive PwriKey (env : KEnv S K C) (p : Pwri) (salt pw : Bytes) : Bytes → Prop
  | mk {par : KdfPar} {w : Oid} {n : Nat} {ek : Bytes} {q : Pbkdf2} {s : Bytes} {h : String} {kek cek : Bytes} :
      p.version = some 3 → p.kdf = some ([1, 2, 840, 113549, 1, 5, 12], par) → p.wrap = some ⟨w, none⟩ → WrapAlg w n →
      p.encKey = some ek → PwKdf env par q → q.salt = some s → s ≠ salt → q.keyLen = some (n : Int) →
      (q.prf, h) ∈ hmacSpec ++ sigHashSpec → env.pbkdf2 h s q.iter n pw = .ok kek → env.unwrap kek ek = .ok cek →
      PwriKey env p salt pw cek

/-- PBKDF2 parameters inside those of PBMAC1. -/
inductive InnerKdf (env : MacEnv) : KdfPar → Pbkdf2 → Prop
  | obj (p : Pbkdf2) : InnerKdf env (.pbkdf2 p) p
  | der {b r : Bytes} {p : Pbkdf2} : env.decPbkdf2 b = some (p, r) → InnerKdf env (.raw b) p

/-- The salt of a protection with a password: PBM or PBMAC1. -/
inductive ProtSalt (env : MacEnv) : AlgId → Bytes → Prop
  | pbmObj (p : Pbm) : ProtSalt env ⟨[1, 2, 840, 113533, 7, 66, 13], .pbm p⟩ p.salt
  | pbmDer {b r : Bytes} {p : Pbm} : env.decPbm b = some (p, r) →
      ProtSalt env ⟨[1, 2, 840, 113533, 7, 66, 13], .raw b⟩ p.salt
  | pbmac1Obj {p : Pbmac1} {q : Pbkdf2} {s : Bytes} : p.kdfPar = .pbkdf2 q → q.salt = some s →
      ProtSalt env ⟨[1, 2, 840, 113549, 1, 5, 14], .pbmac1 p⟩ s
  | pbmac1Der {b r : Bytes} {p : Pbmac1} {q : Pbkdf2} {s : Bytes} : env.decPbmac1 b = some (p, r) →
      InnerKdf env p.kdfPar q → q.salt = some s → ProtSalt env ⟨[1, 2, 840, 113549, 1, 5, 14], .raw b⟩ s

/-- The salt that the recipient must not repeat: the given one, or that of the protection of the message. -/
inductive OuterSalt (env : KEnv S K C) : Option (Msg C) → Option Bytes → Bytes → Prop
  | given (m : Option (Msg C)) (s : Bytes) : OuterSalt env m (some s) s
  | msg {m : Msg C} {a : AlgId} {s : Bytes} : m.hdr.alg = some a → ProtSalt env.toMacEnv a s →
      OuterSalt env (some m) none s

/-- `At l i x`: `x` stands at place `i`, from the end if `i` is negative. -/
def At {α : Type} (l : List α) (i : Int) (x : α) : Prop :=
  ∃ n : Nat, (i = n ∨ i + l.length = n ∧ i < 0) ∧ l[n]? = some x

/-- The hash of the key derivation is not one of a composite or post-quantum algorithm. -/
def PwUsual (env : KEnv S K C) (p : Pwri) : Prop :=
  ∀ o par q, p.kdf = some (o, par) → PwKdf env par q → env.special q.prf = none

/-! ## Lemmas -/

theorem lenOf_wrap (o : Oid) (n : Nat) : lenOf wrapLens o = some n ↔ WrapAlg o n := by
  unfold WrapAlg
  simp only [wrapLens, lenOf]
  by_cases h1 : ([2, 16, 840, 1, 101, 3, 4, 1, 5] : Oid) = o
  · subst h1
    simp
    grind
  · rw [if_neg h1]
    by_cases h2 : ([2, 16, 840, 1, 101, 3, 4, 1, 25] : Oid) = o
    · subst h2
      simp
      grind
    · rw [if_neg h2]
      by_cases h3 : ([2, 16, 840, 1, 101, 3, 4, 1, 45] : Oid) = o
      · subst h3
        simp
        grind
      · rw [if_neg h3]
        grind

theorem wrapAlg_unique {o : Oid} {n m : Nat} (h : WrapAlg o n) (h' : WrapAlg o m) : n = m := by
  have := (lenOf_wrap o n).mpr h
  rw [(lenOf_wrap o m).mpr h'] at this
  cases this
  rfl

theorem pwKdf_iff (env : KEnv S K C) (par : KdfPar) (q : Pbkdf2) :
    PwKdf env par q ↔ ∃ b, kdfParDer env par = some b ∧ env.decPbkdf2 b = some (q, []) := by
  constructor
  · intro h
    cases h with
    | obj h => exact ⟨_, rfl, h⟩
    | raw h => exact ⟨_, rfl, h⟩
    | hash h => exact ⟨_, rfl, h⟩
  · rintro ⟨b, h1, h2⟩
    cases par with
    | absent => cases h1
    | pbkdf2 p => cases h1; exact .obj h2
    | hash o => cases h1; exact .hash h2
    | raw b' => cases h1; exact .raw h2

theorem pbkdf2Of_iff (env : MacEnv) (q : Pbkdf2) (pw k : Bytes) (hs : env.special q.prf = none) :
    pbkdf2Of env q pw = .ok k ↔ ∃ s n h, q.salt = some s ∧ q.keyLen = some n ∧ (q.prf, h) ∈ hmacSpec ++ sigHashSpec ∧
      env.pbkdf2 h s q.iter n pw = .ok k := by
  unfold pbkdf2Of
  cases h1 : q.salt with
  | none => exact ⟨nofun, fun ⟨_, _, _, h, _⟩ => nomatch h⟩
  | some s =>
    dsimp only
    cases h2 : q.keyLen with
    | none => exact ⟨nofun, fun ⟨_, _, _, _, h, _⟩ => nomatch h⟩
    | some n =>
      dsimp only
      constructor
      · intro h
        cases h3 : hashOfOid env q.prf true with
        | error e => rw [h3] at h; cases h
        | ok o =>
          rw [h3] at h
          cases o with
          | none => cases h
          | some f =>
            dsimp only at h
            have hp : (q.prf, f) ∈ hmacSpec ++ sigHashSpec := by
              rw [← prf_iff env q.prf f hs]
              unfold hashOfOid at h3
              unfold prfHash hashOfOid
              by_cases he : q.prf = ed25519Oid ∨ q.prf = ed448Oid
              · rw [if_pos he] at h3
                cases h3
              · rw [if_neg he, hs] at h3 ⊢
                dsimp only at h3 ⊢
                cases hl : look hashMap q.prf with
                | none => rw [hl] at h3; cases h3
                | some x =>
                  rw [hl] at h3
                  dsimp only at h3 ⊢
                  rw [if_pos rfl] at h3
                  obtain ⟨y, hy, hy'⟩ := map_ok h3
                  cases hy'
                  exact hy
            rw [(prf_only env q.prf f hs hp).2] at h
            exact ⟨s, n, f, rfl, rfl, hp, h⟩
      · rintro ⟨s', n', f, h3, h4, h5, h6⟩
        cases h3
        cases h4
        rw [(prf_only env q.prf f hs h5).1]
        dsimp only
        rw [(prf_only env q.prf f hs h5).2]
        exact h6

theorem checkPwri_iff (env : KEnv S K C) (p : Pwri) (salt : Bytes) (q : Pbkdf2) (ek : Bytes) :
    checkPwri env p salt = .ok (q, ek) ↔ ∃ par w n s, p.version = some 3 ∧
      p.kdf = some ([1, 2, 840, 113549, 1, 5, 12], par) ∧ p.wrap = some ⟨w, none⟩ ∧ WrapAlg w n ∧ p.encKey = some ek ∧
      PwKdf env par q ∧ q.salt = some s ∧ s ≠ salt ∧ q.keyLen = some (n : Int) := by
  obtain ⟨v, kdf, w, e⟩ := p
  constructor
  · intro h
    unfold checkPwri at h
    dsimp only at h
    cases v with
    | none => cases h
    | some v =>
      dsimp only at h
      split at h
      · cases h
      · rename_i hv
        cases kdf with
        | none => cases h
        | some x =>
          obtain ⟨o, par⟩ := x
          dsimp only at h
          split at h
          · cases h
          · rename_i ho
            cases w with
            | none => cases h
            | some w =>
              obtain ⟨wo, wp⟩ := w
              dsimp only at h
              cases hl : lenOf wrapLens wo with
              | none => rw [hl] at h; cases h
              | some n =>
                rw [hl] at h
                dsimp only at h
                unfold pwriTail at h
                dsimp only at h
                cases e with
                | none => cases h
                | some e =>
                  dsimp only at h
                  cases hd : kdfParDer env par with
                  | none => rw [hd] at h; cases h
                  | some b =>
                    rw [hd] at h
                    dsimp only at h
                    cases hb : env.decPbkdf2 b with
                    | none => rw [hb] at h; cases h
                    | some y =>
                      obtain ⟨q', r⟩ := y
                      rw [hb] at h
                      dsimp only at h
                      split at h
                      · cases h
                      · rename_i hr
                        cases hp : pwriParams ⟨wo, wp⟩ n salt q' with
                        | error x => rw [hp] at h; cases h
                        | ok u =>
                          rw [hp] at h
                          cases h
                          unfold pwriParams at hp
                          dsimp only at hp
                          split at hp
                          · cases hp
                          · rename_i hwp
                            cases hs : q.salt with
                            | none => rw [hs] at hp; cases hp
                            | some s =>
                              rw [hs] at hp
                              dsimp only at hp
                              split at hp
                              · cases hp
                              · rename_i hne
                                cases hk : q.keyLen with
                                | none => rw [hk] at hp; cases hp
                                | some k =>
                                  rw [hk] at hp
                                  dsimp only at hp
                                  split at hp
                                  · cases hp
                                  · rename_i hlen
                                    have hr' : r = [] := Classical.not_not.mp hr
                                    have hv' : v = 3 := Classical.not_not.mp hv
                                    have ho' : o = pbkdf2Oid := Classical.not_not.mp ho
                                    have hw' : wp = none := by
                                      cases wp with
                                      | none => rfl
                                      | some _ => exact absurd rfl hwp
                                    subst hr' hv' ho' hw'
                                    exact ⟨par, wo, n, s, rfl, rfl, rfl, (lenOf_wrap _ _).mp hl, rfl,
                                      (pwKdf_iff env par q).mpr ⟨b, hd, hb⟩, rfl, hne,
                                      congrArg some (Classical.not_not.mp hlen)⟩
  · rintro ⟨par, wo, n, s, h1, h2, h3, h4, h5, h6, h7, h8, h9⟩
    dsimp only at h1 h2 h3 h5
    subst h1 h2 h3 h5
    obtain ⟨b, hd, hb⟩ := (pwKdf_iff env par q).mp h6
    unfold checkPwri
    dsimp only
    rw [if_neg (by decide), if_neg (by decide), (lenOf_wrap wo n).mpr h4]
    dsimp only
    unfold pwriTail
    dsimp only
    rw [hd]
    dsimp only
    rw [hb]
    dsimp only
    rw [if_neg (by simp)]
    unfold pwriParams
    dsimp only
    rw [if_neg (by simp), h7]
    dsimp only
    rw [if_neg h8, h9]
    dsimp only
    rw [if_neg (by simp)]

theorem saltDer_iff (env : MacEnv) (p : Pbmac1) (s : Bytes) :
    saltDer env p = .ok s ↔ ∃ q, InnerKdf env p.kdfPar q ∧ q.salt = some s := by
  unfold saltDer
  constructor
  · intro h
    cases hg : getPbkdf2 env true p.kdfPar with
    | error e => rw [hg] at h; cases h
    | ok q =>
      rw [hg] at h
      dsimp only at h
      cases hs : q.salt with
      | none => rw [hs] at h; cases h
      | some s' =>
        rw [hs] at h
        cases h
        refine ⟨q, ?_, hs⟩
        unfold getPbkdf2 at hg
        split at hg
        · cases hg
          rename_i hp
          rw [hp]
          exact .obj _
        · rename_i b hp
          rw [hp]
          cases hd : env.decPbkdf2 b with
          | none => rw [hd] at hg; cases hg
          | some y =>
            obtain ⟨q', r⟩ := y
            rw [hd] at hg
            dsimp only at hg
            rw [if_neg (by simp)] at hg
            cases hg
            exact .der hd
        · cases hg
  · rintro ⟨q, hi, hs⟩
    have hg : getPbkdf2 env true p.kdfPar = .ok q := by
      generalize p.kdfPar = x at hi
      cases hi with
      | obj => rfl
      | der hd =>
        unfold getPbkdf2
        dsimp only
        rw [hd]
        dsimp only
        rw [if_neg (by simp)]
    rw [hg]
    dsimp only
    rw [hs]

theorem protSalt_iff (env : MacEnv) (a : AlgId) (s : Bytes) : protSalt env a = .ok s ↔ ProtSalt env a s := by
  obtain ⟨o, par⟩ := a
  unfold protSalt
  dsimp only
  constructor
  · intro h
    split at h
    · rename_i ho
      subst ho
      split at h
      · rename_i p
        unfold saltObj at h
        split at h
        · rename_i q hq
          cases hs : q.salt with
          | none => rw [hs] at h; cases h
          | some s' => rw [hs] at h; cases h; exact .pbmac1Obj hq hs
        · cases h
        · cases h
        · cases h
      · rename_i hn
        cases par with
        | raw b =>
          unfold getPbmac1 at h
          dsimp only at h
          cases hd : env.decPbmac1 b with
          | none => rw [hd] at h; cases h
          | some y =>
            obtain ⟨p, r⟩ := y
            rw [hd] at h
            dsimp only at h
            rw [if_neg (by simp)] at h
            obtain ⟨q, hi, hs⟩ := (saltDer_iff env p s).mp h
            exact .pbmac1Der hd hi hs
        | pbmac1 p => exact absurd rfl (hn p)
        | absent => cases h
        | null => cases h
        | pbm p => cases h
        | gcm p => cases h
        | dhbm p => cases h
        | kem p => cases h
        | pss p => cases h
    · split at h
      · rename_i ho
        subst ho
        cases par with
        | pbm p => cases h; exact .pbmObj p
        | raw b =>
          unfold getPbm at h
          dsimp only at h
          cases hd : env.decPbm b with
          | none => rw [hd] at h; cases h
          | some y =>
            obtain ⟨p, r⟩ := y
            rw [hd] at h
            dsimp only at h
            rw [if_neg (by simp)] at h
            cases h
            exact .pbmDer hd
        | pbmac1 p => cases h
        | absent => cases h
        | null => cases h
        | gcm p => cases h
        | dhbm p => cases h
        | kem p => cases h
        | pss p => cases h
      · cases h
  · intro h
    cases h with
    | pbmObj p => rfl
    | pbmDer hd =>
      rw [if_neg (by decide), if_pos (show ([1, 2, 840, 113533, 7, 66, 13] : Oid) = pbmOid from rfl)]
      unfold getPbm
      dsimp only
      rw [hd]
      dsimp only
      rw [if_neg (by simp)]
    | pbmac1Obj hq hs =>
      rw [if_pos (show ([1, 2, 840, 113549, 1, 5, 14] : Oid) = pbmac1Oid from rfl)]
      dsimp only
      unfold saltObj
      rw [hq]
      dsimp only
      rw [hs]
    | pbmac1Der hd hi hs =>
      rw [if_pos (show ([1, 2, 840, 113549, 1, 5, 14] : Oid) = pbmac1Oid from rfl)]
      dsimp only
      unfold getPbmac1
      dsimp only
      rw [hd]
      dsimp only
      rw [if_neg (by simp)]
      exact (saltDer_iff env _ s).mpr ⟨_, hi, hs⟩

theorem cmpSalt_iff (env : KEnv S K C) (m : Option (Msg C)) (salt : Option Bytes) (s : Bytes) :
    cmpSalt env m salt = .ok s ↔ OuterSalt env m salt s := by
  constructor
  · intro h
    unfold cmpSalt at h
    split at h
    · cases h; exact .given _ _
    · cases h
    · rename_i m
      cases ha : m.hdr.alg with
      | none => rw [ha] at h; cases h
      | some a =>
        rw [ha] at h
        exact .msg ha ((protSalt_iff _ _ _).mp h)
  · intro h
    cases h with
    | given => rfl
    | msg ha hs =>
      unfold cmpSalt
      dsimp only
      rw [ha]
      exact (protSalt_iff _ _ _).mpr hs

theorem pick_iff {α : Type} (l : List α) (i : Int) (x : α) : pick l i = .ok x ↔ At l i x := by
  unfold pick At
  by_cases hi : i < 0
  · rw [if_pos hi]
    constructor
    · intro h
      cases hx : l[(i + l.length).toNat]? with
      | none => rw [hx] at h; cases h
      | some y =>
        rw [hx] at h
        dsimp only at h
        split at h
        · cases h
        · rename_i hn
          cases h
          exact ⟨(i + l.length).toNat, Or.inr ⟨by omega, hi⟩, hx⟩
    · rintro ⟨n, hn | hn, hx⟩
      · omega
      · have : (i + l.length).toNat = n := by omega
        rw [this, hx]
        dsimp only
        rw [if_neg (by omega)]
  · rw [if_neg hi]
    constructor
    · intro h
      cases hx : l[i.toNat]? with
      | none => rw [hx] at h; cases h
      | some y =>
        rw [hx] at h
        dsimp only at h
        rw [if_neg (by omega)] at h
        cases h
        exact ⟨i.toNat, Or.inl (by omega), hx⟩
    · rintro ⟨n, hn | hn, hx⟩
      · have : i.toNat = n := by omega
        rw [this, hx]
        dsimp only
        rw [if_neg (by omega)]
      · omega

theorem at_lt {α : Type} {l : List α} {i : Int} {x : α} (h : At l i x) : l ≠ [] ∧ i < l.length := by
  obtain ⟨n, hn, hx⟩ := h
  have := (List.getElem?_eq_some_iff.mp hx).1
  refine ⟨by intro h; subst h; simp at this, by omega⟩

theorem sized_iff (e : EnvData) (size idx : Int) (r : Ri) :
    sized e size idx = .ok r ↔ (e.infos.length : Int) = size ∧ At e.infos idx r := by
  unfold sized
  constructor
  · intro h
    split at h
    · cases h
    · rename_i h1
      split at h
      · cases h
      · exact ⟨Classical.not_not.mp h1, (pick_iff _ _ _).mp h⟩
  · rintro ⟨h1, h2⟩
    obtain ⟨h3, h4⟩ := at_lt h2
    rw [if_neg (not_not_intro h1), if_neg (by
      rintro (h | h)
      · exact h3 h
      · omega)]
    exact (pick_iff _ _ _).mpr h2

theorem recipOf_iff (e : EnvData) (size idx : Int) (t : Option String) (r : Ri) :
    recipOf e size idx t = .ok r ↔ (e.infos.length : Int) = size ∧ At e.infos idx r ∧ ∀ n, t = some n → r.name = n := by
  unfold recipOf
  constructor
  · intro h
    cases hs : sized e size idx with
    | error x => rw [hs] at h; cases h
    | ok r' =>
      rw [hs] at h
      dsimp only at h
      obtain ⟨h1, h2⟩ := (sized_iff e size idx r').mp hs
      cases t with
      | none => cases h; exact ⟨h1, h2, nofun⟩
      | some t =>
        dsimp only at h
        split at h
        · cases h
        · rename_i hn
          cases h
          refine ⟨h1, h2, fun n hn' => ?_⟩
          cases hn'
          exact Classical.not_not.mp hn
  · rintro ⟨h1, h2, h3⟩
    rw [(sized_iff e size idx r).mpr ⟨h1, h2⟩]
    dsimp only
    cases t with
    | none => rfl
    | some t =>
      dsimp only
      rw [if_neg (not_not_intro (h3 t rfl))]

/-! ## C149 -/

/-- C149: the content encryption key of a password recipient: all conditions hold, and it is the unwrapped one. -/
theorem C149_iff (env : KEnv S K C) (m : Option (Msg C)) (pw : Bytes) (p : Pwri) (salt : Option Bytes) (cek : Bytes)
    (hu : PwUsual env p) :
    pwriCek env m pw p salt = .ok cek ↔ ∃ s, OuterSalt env m salt s ∧ PwriKey env p s pw cek := by
  unfold pwriCek
  constructor
  · intro h
    cases hs : cmpSalt env m salt with
    | error e => rw [hs] at h; cases h
    | ok s =>
      rw [hs] at h
      dsimp only at h
      cases hc : checkPwri env p s with
      | error e => rw [hc] at h; cases h
      | ok y =>
        obtain ⟨q, ek⟩ := y
        rw [hc] at h
        dsimp only at h
        obtain ⟨par, w, n, s', h1, h2, h3, h4, h5, h6, h7, h8, h9⟩ := (checkPwri_iff env p s q ek).mp hc
        unfold pwriKey at h
        cases hk : pbkdf2Of env.toMacEnv q pw with
        | error e => rw [hk] at h; cases h
        | ok k =>
          rw [hk] at h
          dsimp only at h
          obtain ⟨s'', n', f, g1, g2, g3, g4⟩ := (pbkdf2Of_iff env.toMacEnv q pw k (hu _ _ _ h2 h6)).mp hk
          rw [h7] at g1
          cases g1
          rw [h9] at g2
          cases g2
          exact ⟨s, (cmpSalt_iff env m salt s).mp hs, .mk h1 h2 h3 h4 h5 h6 h7 h8 h9 g3 g4 h⟩
  · rintro ⟨s, hs, hp⟩
    rw [(cmpSalt_iff env m salt s).mpr hs]
    dsimp only
    cases hp with
    | @mk par w n ek q s' f kek _ h1 h2 h3 h4 h5 h6 h7 h8 h9 g3 g4 g5 =>
      rw [(checkPwri_iff env p s q ek).mpr ⟨par, w, n, s', h1, h2, h3, h4, h5, h6, h7, h8, h9⟩]
      dsimp only
      unfold pwriKey
      rw [(pbkdf2Of_iff env.toMacEnv q pw kek (hu _ _ _ h2 h6)).mpr ⟨s', n, f, h7, h9, g3, g4⟩]
      exact g5

/-- C149: `EnvelopedData` for a password is opened exactly when the recipient at the index is one for the password, the
content is encrypted under its key, and the protection of the message verifies with the same password. -/
theorem C149_open_iff (env : KEnv S K C) (rnd : Bytes) (e : EnvData) (pw : Bytes) (m : Option (Msg C))
    (salt : Option Bytes) (size idx : Int) (raw skip : Bool) (d : Bytes)
    (hu : ∀ p, .pwri p ∈ e.infos → PwUsual env p) :
    openPwri env rnd e pw m salt size idx raw skip = .ok d ↔
      (e.infos.length : Int) = size ∧ ∃ p s cek, At e.infos idx (.pwri p) ∧ OuterSalt env m salt s ∧
        PwriKey env p s pw cek ∧ Content env e.enc cek raw d ∧
        (skip = false → ∃ msg, m = some msg ∧ verifyProt env.toEnv rnd msg none (some pw) none none false = .ok ()) := by
  have hmem : ∀ {r}, At e.infos idx r → r ∈ e.infos := fun ⟨n, _, h⟩ => List.mem_of_getElem? h
  unfold openPwri
  constructor
  · intro h
    split at h
    · cases h
    · cases hr : recipOf e size idx (some "pwri") with
      | error x => rw [hr] at h; cases h
      | ok r =>
        rw [hr] at h
        obtain ⟨h1, h2, h3⟩ := (recipOf_iff _ _ _ _ _).mp hr
        cases r with
        | pwri p =>
          dsimp only at h
          cases hk : pwriCek env m pw p salt with
          | error x => rw [hk] at h; cases h
          | ok cek =>
            rw [hk] at h
            dsimp only at h
            cases ho : openInfo env e.enc cek raw with
            | error x => rw [ho] at h; cases h
            | ok d' =>
              rw [ho] at h
              dsimp only at h
              obtain ⟨s, hs, hp⟩ := (C149_iff env m pw p salt cek (hu p (hmem h2))).mp hk
              unfold pwriVerify at h
              cases skip with
              | true =>
                cases h
                exact ⟨h1, p, s, cek, h2, hs, hp, (C148_iff _ _ _ _ _).mp ho, nofun⟩
              | false =>
                rw [if_neg (by simp)] at h
                cases m with
                | none => cases h
                | some msg =>
                  dsimp only at h
                  cases hv : verifyProt env.toEnv rnd msg none (some pw) none none false with
                  | error x => rw [hv] at h; cases h
                  | ok u =>
                    rw [hv] at h
                    cases h
                    exact ⟨h1, p, s, cek, h2, hs, hp, (C148_iff _ _ _ _ _).mp ho, fun _ => ⟨msg, rfl, hv⟩⟩
        | ktri _ => cases h
        | kari _ => cases h
        | kekri => cases h
        | ori _ _ => cases h
  · rintro ⟨h1, p, s, cek, h2, hs, hp, hc, hv⟩
    rw [if_neg (by
      rintro ⟨ha, hb⟩
      cases hs with
      | given => cases ha
      | msg => cases hb)]
    rw [(recipOf_iff e size idx (some "pwri") (.pwri p)).mpr ⟨h1, h2, fun n hn => by cases hn; rfl⟩]
    dsimp only
    rw [(C149_iff env m pw p salt cek (hu p (hmem h2))).mpr ⟨s, hs, hp⟩]
    dsimp only
    rw [(C148_iff _ _ _ _ _).mpr hc]
    dsimp only
    unfold pwriVerify
    cases skip with
    | true => rfl
    | false =>
      obtain ⟨msg, hm, hvm⟩ := hv rfl
      subst hm
      rw [if_neg (by simp)]
      dsimp only
      rw [hvm]

/-- C149: what `validate_enveloped_data` returns for the type `pwri` comes with a message whose protection is the MAC of
its header and body under the same password. -/
theorem C149_protected (env : KEnv S K C) (a : OpenArgs S C) (e : EnvData) (d : Bytes) (m : Msg C) (alg : AlgId)
    (p : Bytes) (ht : a.type = some "pwri") (hm : a.msg = some m) (ha : m.hdr.alg = some alg) (hp : m.prot = some p)
    (ho : alg.oid ∈ pwMacOids) (hn : NoSpecial env.toMacEnv alg) (hs : Salted env.toMacEnv alg)
    (hu : ∀ p, .pwri p ∈ e.infos → PwUsual env p) (h : openEnv env a e = .ok d) :
    ∃ w data, a.pw = some w ∧ protectedPart env.toMacEnv m = .ok data ∧ MacOf env.toMacEnv alg w data p := by
  unfold openEnv at h
  rw [if_pos ht] at h
  cases hw : a.pw with
  | none => rw [hw] at h; cases h
  | some w =>
    rw [hw] at h
    dsimp only at h
    obtain ⟨_, _, _, _, _, _, _, _, hv⟩ := (C149_open_iff env a.rnd e w a.msg a.salt a.size a.idx a.raw false d hu).mp h
    obtain ⟨msg, h1, h2⟩ := hv rfl
    rw [hm] at h1
    cases h1
    obtain ⟨data, h3, h4⟩ := (C142_iff env.toEnv a.rnd m none w none none alg p ha hp ho hn hs).mp h2
    exact ⟨w, data, rfl, h3, h4⟩

/-- C149: a recipient that repeats the salt of the protection is refused. -/
theorem C149_salt (env : KEnv S K C) {m : Option (Msg C)} {pw : Bytes} {p : Pwri} {salt : Option Bytes} {cek s : Bytes}
    {o : Oid} {par : KdfPar} {q : Pbkdf2} (hu : PwUsual env p) (hs : OuterSalt env m salt s) (hk : p.kdf = some (o, par))
    (hq : PwKdf env par q) (he : q.salt = some s) : pwriCek env m pw p salt ≠ .ok cek := by
  intro h
  obtain ⟨s', h1, h2⟩ := (C149_iff env m pw p salt cek hu).mp h
  have := (cmpSalt_iff env m salt s).mpr hs
  rw [(cmpSalt_iff env m salt s').mpr h1] at this
  cases this
  cases h2 with
  | mk _ g2 _ _ _ g6 g7 g8 =>
    rw [hk] at g2
    cases g2
    obtain ⟨b, i1, i2⟩ := (pwKdf_iff env par q).mp hq
    obtain ⟨b', j1, j2⟩ := (pwKdf_iff env par _).mp g6
    rw [i1] at j1
    cases j1
    rw [i2] at j2
    cases j2
    rw [he] at g7
    cases g7
    exact g8 rfl

/-! ## Round trip -/

/-- The shape of a recipient built with PBKDF2. -/
theorem buildPwri_shape (env : KEnv S K C) {pw cek rnd : Bytes} {o : PwOpts} {p : Pwri} (hk : o.kdfName = "pbkdf2")
    (hn : o.noKdf = false) (hb : o.badKey = false) (h : buildPwri env pw cek rnd o = .ok p) :
    ∃ prf kek w, p = ⟨some o.version, some (pbkdf2Oid, .pbkdf2 ⟨some (if o.salt = [] then rnd else o.salt), o.iter,
      some o.len, prf, none⟩), some ⟨aes256Wrap, none⟩, some w⟩ ∧
      pbkdf2Of env.toMacEnv ⟨some (if o.salt = [] then rnd else o.salt), o.iter, some o.len, prf, none⟩ pw = .ok kek ∧
      env.wrap kek cek = .ok w := by
  unfold buildPwri pwKeys at h
  rw [if_pos hk] at h
  unfold pwWrap prepPbkdf2 at h
  cases h1 : hmacOid o.hash with
  | error e => rw [h1] at h; cases h
  | ok prf =>
    rw [h1] at h
    dsimp only at h
    cases h2 : pbkdf2Of env.toMacEnv ⟨some (if o.salt = [] then rnd else o.salt), o.iter, some o.len, prf, none⟩ pw with
    | error e => rw [h2] at h; cases h
    | ok kek =>
      rw [h2] at h
      dsimp only at h
      cases h3 : env.wrap kek cek with
      | error e => rw [h3] at h; cases h
      | ok w =>
        rw [h3] at h
        dsimp only at h
        rw [hn, hb] at h
        cases h
        exact ⟨prf, kek, w, rfl, h2, h3⟩

/-- C149: the recipient that the code builds, after transport, gives back the key for the same password. -/
theorem C149_roundtrip (env : KEnv S K C) {pw cek rnd : Bytes} {o : PwOpts} {p : Pwri} {m : Option (Msg C)}
    {salt : Option Bytes} {s : Bytes} (hv : o.version = 3) (hl : o.len = 32) (hk : o.kdfName = "pbkdf2")
    (hn : o.noKdf = false) (hb : o.badKey = false) (h : buildPwri env pw cek rnd o = .ok p)
    (hs : OuterSalt env m salt s) (hne : (if o.salt = [] then rnd else o.salt) ≠ s)
    (hc : ∀ q, env.decPbkdf2 (env.encPbkdf2 q) = some (q, []))
    (hw : ∀ k w, env.wrap k cek = .ok w → env.unwrap k w = .ok cek) :
    pwriCek env m pw (wirePwri env p) salt = .ok cek := by
  obtain ⟨prf, kek, w, rfl, h2, h3⟩ := buildPwri_shape env hk hn hb h
  unfold pwriCek
  rw [(cmpSalt_iff env m salt s).mpr hs]
  dsimp only
  rw [(checkPwri_iff env _ s ⟨some (if o.salt = [] then rnd else o.salt), o.iter, some o.len, prf, none⟩ w).mpr
    ⟨_, aes256Wrap, 32, _, by rw [← hv]; rfl, rfl, rfl, Or.inr (Or.inr ⟨rfl, rfl⟩), rfl, .raw (hc _), rfl, hne,
      congrArg some hl⟩]
  dsimp only
  unfold pwriKey
  rw [h2]
  exact hw _ _ h3

/-- C149: so is the whole structure: with a salt other than that of the protection, and a protection that verifies. -/
theorem C149_env_roundtrip (env : KEnv S K C) {pw data cek salt rnd iv rnd' : Bytes} {kdf : String} {raw skip : Bool}
    {oid : Oid} {e : EnvData} {m : Option (Msg C)} {osalt : Option Bytes} {s : Bytes}
    (h : buildPwriEnv env pw data cek salt rnd iv kdf raw oid = .ok e)
    (hs : OuterSalt env m osalt s) (hne : (if salt = [] then rnd else salt) ≠ s)
    (hk : cek.length = 16 ∨ cek.length = 24 ∨ cek.length = 32) (ho : raw = false → oid = [1, 2, 840, 113549, 1, 7, 2])
    (hc : ∀ q, env.decPbkdf2 (env.encPbkdf2 q) = some (q, []))
    (hw : ∀ k w, env.wrap k cek = .ok w → env.unwrap k w = .ok cek)
    (hiv : env.decIv (env.encIv iv) = some (iv, []))
    (hd : ∀ c, env.cbcEnc cek iv (pad data) = .ok c → env.cbcDec cek iv c = .ok (pad data))
    (hv : skip = false → ∃ msg, m = some msg ∧ verifyProt env.toEnv rnd' msg none (some pw) none none false = .ok ()) :
    openPwri env rnd' (wire env e) pw m osalt 1 0 raw skip = .ok data := by
  unfold buildPwriEnv at h
  cases hp : buildPwri env pw cek rnd { salt := salt } with
  | error x => rw [hp] at h; cases h
  | ok p =>
    rw [hp] at h
    dsimp only at h
    unfold buildEnv at h
    cases hi : buildInfo env cek data iv (some (if raw then dataOid else oid)) with
    | error x => rw [hi] at h; cases h
    | ok x =>
      rw [hi] at h
      cases h
      have hx : openInfo env x cek raw = .ok data := by
        refine C148_roundtrip env hk hiv hd ?_ hi
        cases raw with
        | true => rfl
        | false => exact ho rfl
      have hkey := C149_roundtrip env (o := { salt := salt }) rfl rfl rfl rfl rfl hp hs hne hc hw
      unfold openPwri
      rw [if_neg (by
        rintro ⟨ha, hb⟩
        cases hs with
        | given => cases ha
        | msg => cases hb)]
      rw [(recipOf_iff _ 1 0 (some "pwri") (.pwri (wirePwri env p))).mpr
        ⟨rfl, ⟨0, Or.inl rfl, rfl⟩, fun n hn => by cases hn; rfl⟩]
      dsimp only
      rw [hkey]
      dsimp only [wire]
      rw [hx]
      dsimp only
      unfold pwriVerify
      cases skip with
      | true => rfl
      | false =>
        obtain ⟨msg, hm, hvm⟩ := hv rfl
        subst hm
        rw [if_neg (by simp)]
        dsimp only
        rw [hvm]

end Verif.Env
