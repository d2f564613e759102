import Verif.Hybrid.VerifyProps

/-!
# Properties of CRLs with an alternative signature (C131)
-/

namespace Verif.Hybrid

open Verif.CA

variable {S K : Type}

/-- The extensions without alternative signatures. -/
def noSigExt (l : List Ext) : List Ext := l.filter (fun e => decide (e.oid ≠ [2, 5, 29, 74]))

/-- The first extension with an identifier. -/
def FirstExt (l : List Ext) (o : Oid) (e : Ext) : Prop :=
  ∃ pre post, l = pre ++ e :: post ∧ e.oid = o ∧ ∀ x ∈ pre, x.oid ≠ o

theorem lastExt_cons {l : List Ext} {o : Oid} {i x : Ext} (h : LastExt l o i) : LastExt (x :: l) o i := by
  obtain ⟨p, q, rfl, ho, hq⟩ := h
  exact ⟨x :: p, q, rfl, ho, hq⟩

theorem firstExt_cons {l : List Ext} {o : Oid} {i x : Ext} (hx : x.oid ≠ o) (h : FirstExt l o i) :
    FirstExt (x :: l) o i := by
  obtain ⟨p, q, rfl, ho, hq⟩ := h
  exact ⟨x :: p, q, rfl, ho, fun y hy => (List.mem_cons.1 hy).elim (fun e => e ▸ hx) (hq y)⟩

/-- What the loop finds: the last algorithm and signature, the first key unless there is one already. -/
theorem crlLoop_spec (env : CatEnv S K) (l : List Ext) (v w : CrlVals K) (h : crlLoop env l v = .ok w) :
    w.other = v.other ++ noSigExt l ∧
    ((w.alg = v.alg ∧ ∀ x ∈ l, x.oid ≠ altAlgOid) ∨
      ∃ i a, LastExt l altAlgOid i ∧ env.decAlg i.value = some (a, []) ∧ w.alg = some a) ∧
    ((w.sig = v.sig ∧ ∀ x ∈ l, x.oid ≠ altSigOid) ∨
      ∃ i a, LastExt l altSigOid i ∧ env.decBits i.value = some (a, []) ∧ w.sig = some a) ∧
    ((∃ k, v.key = some k ∧ w.key = some k) ∨ (v.key = none ∧ w.key = none ∧ ∀ x ∈ l, x.oid ≠ altSpkiOid) ∨
      (v.key = none ∧ ∃ i b k, FirstExt l altSpkiOid i ∧ env.decSpki i.value = some (b, []) ∧
        env.loadKey b = .ok k ∧ w.key = some k)) := by
  induction l generalizing v with
  | nil =>
    cases h
    refine ⟨(List.append_nil _).symm, Or.inl ⟨rfl, fun x hx => by cases hx⟩, Or.inl ⟨rfl, fun x hx => by cases hx⟩, ?_⟩
    cases hk : w.key with
    | none => exact Or.inr (Or.inl ⟨rfl, rfl, fun x hx => by cases hx⟩)
    | some k => exact Or.inl ⟨k, rfl, rfl⟩
  | cons i l ih =>
    have keep : ∀ {A : Type} (o : Oid) (d : Bytes → Option (A × Bytes)) (x y : Option A), i.oid ≠ o →
        ((x = y ∧ ∀ z ∈ l, z.oid ≠ o) ∨ ∃ j a, LastExt l o j ∧ d j.value = some (a, []) ∧ x = some a) →
        ((x = y ∧ ∀ z ∈ i :: l, z.oid ≠ o) ∨ ∃ j a, LastExt (i :: l) o j ∧ d j.value = some (a, []) ∧ x = some a) := by
      intro A o d x y hn h
      rcases h with ⟨h1, h2⟩ | ⟨j, a, h1, h2, h3⟩
      · exact Or.inl ⟨h1, fun z hz => (List.mem_cons.1 hz).elim (fun e => e ▸ hn) (h2 z)⟩
      · exact Or.inr ⟨j, a, lastExt_cons h1, h2, h3⟩
    have here : ∀ {A : Type} (o : Oid) (d : Bytes → Option (A × Bytes)) (x y : Option A) (a : A), i.oid = o →
        d i.value = some (a, []) →
        ((x = some a ∧ ∀ z ∈ l, z.oid ≠ o) ∨ ∃ j a, LastExt l o j ∧ d j.value = some (a, []) ∧ x = some a) →
        ((x = y ∧ ∀ z ∈ i :: l, z.oid ≠ o) ∨ ∃ j a, LastExt (i :: l) o j ∧ d j.value = some (a, []) ∧ x = some a) := by
      intro A o d x y a hn hd h
      rcases h with ⟨h1, h2⟩ | ⟨j, b, h1, h2, h3⟩
      · exact Or.inr ⟨i, a, ⟨[], l, rfl, hn, h2⟩, hd, h1⟩
      · exact Or.inr ⟨j, b, lastExt_cons h1, h2, h3⟩
    have keepK : ∀ (x y : Option K), i.oid ≠ altSpkiOid →
        ((∃ k, x = some k ∧ y = some k) ∨ (x = none ∧ y = none ∧ ∀ x ∈ l, x.oid ≠ altSpkiOid) ∨
          (x = none ∧ ∃ i b k, FirstExt l altSpkiOid i ∧ env.decSpki i.value = some (b, []) ∧
            env.loadKey b = .ok k ∧ y = some k)) →
        ((∃ k, x = some k ∧ y = some k) ∨ (x = none ∧ y = none ∧ ∀ x ∈ i :: l, x.oid ≠ altSpkiOid) ∨
          (x = none ∧ ∃ j b k, FirstExt (i :: l) altSpkiOid j ∧ env.decSpki j.value = some (b, []) ∧
            env.loadKey b = .ok k ∧ y = some k)) := by
      intro x y hn h
      rcases h with h | ⟨h1, h2, h3⟩ | ⟨h0, j, b, k, h1, h2⟩
      · exact Or.inl h
      · exact Or.inr (Or.inl ⟨h1, h2, fun z hz => (List.mem_cons.1 hz).elim (fun e => e ▸ hn) (h3 z)⟩)
      · exact Or.inr (Or.inr ⟨h0, j, b, k, firstExt_cons hn h1, h2⟩)
    have filt : i.oid ≠ altSigOid → noSigExt (i :: l) = i :: noSigExt l := by
      intro hn
      unfold noSigExt
      rw [List.filter_cons_of_pos]
      exact decide_eq_true hn
    unfold crlLoop at h
    by_cases h3 : i.oid = altSigOid
    · have n1 : i.oid ≠ altAlgOid := by rw [h3]; decide
      have n2 : i.oid ≠ altSpkiOid := by rw [h3]; decide
      rw [if_pos h3] at h
      cases hd : env.decBits i.value with
      | none => rw [hd] at h; cases h
      | some p =>
        obtain ⟨a, r⟩ := p
        rw [hd] at h; dsimp only at h
        by_cases hr : r = []
        · subst hr
          rw [if_neg (fun hx => hx rfl)] at h
          obtain ⟨e1, e2, e3, e4⟩ := ih _ h
          refine ⟨?_, keep _ _ _ _ n1 e2, here _ _ _ _ _ h3 hd e3, keepK _ _ n2 e4⟩
          rw [e1]
          unfold noSigExt
          rw [List.filter_cons_of_neg]
          rw [decide_eq_true_eq]
          exact not_not_intro h3
        · rw [if_pos hr] at h; cases h
    · rw [if_neg h3] at h
      by_cases h1 : i.oid = altAlgOid
      · have n2 : i.oid ≠ altSpkiOid := by rw [h1]; decide
        rw [if_pos h1] at h
        cases hd : env.decAlg i.value with
        | none => rw [hd] at h; cases h
        | some p =>
          obtain ⟨a, r⟩ := p
          rw [hd] at h; dsimp only at h
          by_cases hr : r = []
          · subst hr
            rw [if_neg (fun hx => hx rfl)] at h
            obtain ⟨e1, e2, e3, e4⟩ := ih _ h
            refine ⟨?_, here _ _ _ _ _ h1 hd e2, keep _ _ _ _ h3 e3, keepK _ _ n2 e4⟩
            rw [e1, filt h3]
            simp
          · rw [if_pos hr] at h; cases h
      · rw [if_neg h1] at h
        by_cases h2 : i.oid = altSpkiOid
        · rw [if_pos h2] at h
          cases hd : env.decSpki i.value with
          | none => rw [hd] at h; cases h
          | some p =>
            obtain ⟨b, r⟩ := p
            rw [hd] at h; dsimp only at h
            by_cases hr : r = []
            · subst hr
              rw [if_neg (fun hx => hx rfl)] at h
              cases hk : v.key with
              | some k =>
                rw [hk] at h; dsimp only at h
                obtain ⟨e1, e2, e3, e4⟩ := ih _ h
                refine ⟨?_, keep _ _ _ _ h1 e2, keep _ _ _ _ h3 e3, Or.inl ⟨k, rfl, ?_⟩⟩
                · rw [e1, filt h3]; simp
                · rcases e4 with ⟨k', f1, f2⟩ | ⟨f1, -⟩ | ⟨f1, -⟩
                  · rw [f2, ← f1]
                  · cases f1
                  · cases f1
              | none =>
                rw [hk] at h; dsimp only at h
                cases hl : env.loadKey b with
                | error e => rw [hl] at h; cases h
                | ok k =>
                  rw [hl] at h; dsimp only at h
                  obtain ⟨e1, e2, e3, e4⟩ := ih _ h
                  refine ⟨?_, keep _ _ _ _ h1 e2, keep _ _ _ _ h3 e3,
                    Or.inr (Or.inr ⟨rfl, i, b, k, ⟨[], l, rfl, h2, fun x hx => by cases hx⟩, hd, hl, ?_⟩)⟩
                  · rw [e1, filt h3]; simp
                  · rcases e4 with ⟨k', f1, f2⟩ | ⟨f1, -⟩ | ⟨f1, -⟩
                    · rw [f2, ← f1]
                    · cases f1
                    · cases f1
            · rw [if_pos hr] at h; cases h
        · rw [if_neg h2] at h
          obtain ⟨e1, e2, e3, e4⟩ := ih _ h
          refine ⟨?_, keep _ _ _ _ h1 e2, keep _ _ _ _ h3 e3, keepK _ _ h2 e4⟩
          rw [e1, filt h3]
          simp

/-- A CRL is accepted only if the certificate's key signed all of it, and it either has no extensions at all (and no
alternative signature was demanded) or carries an alternative signature that is valid over the rest, with the given key
or else the first one in the CRL. -/
theorem C131_sound (env : HybEnv S K) (c : Crl) (ca : Cert) (key : Option K) (must : Bool)
    (h : (verifyCrl env c ca key must).1 = .ok ()) :
    (∃ hh k, env.hashOf c.alg.oid = .ok hh ∧ env.loadKey ca.tbs.spki = .ok k ∧
      env.verify k hh (env.encCrl c.rest c.exts) c.sig = .ok ()) ∧
    ((c.exts = [] ∧ must = false) ∨
     ∃ ia is aa s k, LastExt c.exts [2, 5, 29, 73] ia ∧ env.decAlg ia.value = some (aa, []) ∧
       LastExt c.exts [2, 5, 29, 74] is ∧ env.decBits is.value = some (s, []) ∧
       env.verifyAlg k aa (env.encCrl c.rest (noSigExt c.exts) ++ env.encAlg c.alg) s = .ok () ∧
       (key = some k ∨ (key = none ∧ ∃ ik b, FirstExt c.exts [2, 5, 29, 72] ik ∧
          env.decSpki ik.value = some (b, []) ∧ env.loadKey b = .ok k))) := by
  unfold verifyCrl at h
  cases hm : crlMain env c ca with
  | error e => rw [hm] at h; cases h
  | ok u =>
    rw [hm] at h; dsimp only at h
    constructor
    · unfold crlMain at hm
      cases h1 : env.hashOf c.alg.oid with
      | error e => rw [h1] at hm; cases hm
      | ok hh =>
        rw [h1] at hm; dsimp only at hm
        cases h2 : env.loadKey ca.tbs.spki with
        | error e => rw [h2] at hm; cases hm
        | ok k =>
          rw [h2] at hm; dsimp only at hm
          cases h3 : ensureVerify env.toCatEnv k with
          | error e => rw [h3] at hm; cases hm
          | ok k0 =>
            obtain ⟨rfl, -⟩ := ensureVerify_ok _ _ _ h3
            rw [h3] at hm
            exact ⟨hh, k0, rfl, rfl, hm⟩
    · cases he : c.exts with
      | nil =>
        rw [he] at h
        cases must with
        | true => cases h
        | false => exact Or.inl ⟨rfl, rfl⟩
      | cons x l =>
        rw [he] at h; dsimp only at h
        refine Or.inr ?_
        cases hl : crlLoop env.toCatEnv (x :: l) ⟨none, key, none, []⟩ with
        | error e => rw [hl] at h; cases h
        | ok v =>
          rw [hl] at h; dsimp only at h
          obtain ⟨e1, e2, e3, e4⟩ := crlLoop_spec _ _ _ _ hl
          unfold crlAlt at h
          cases ha : v.alg with
          | none => rw [ha] at h; cases h
          | some aa =>
            cases hk : v.key with
            | none => rw [ha, hk] at h; cases h
            | some k =>
              cases hs : v.sig with
              | none => rw [ha, hk, hs] at h; cases h
              | some s =>
                rw [ha, hk, hs] at h; dsimp only at h
                cases hv : ensureVerify env.toCatEnv k with
                | error e => rw [hv] at h; cases h
                | ok k0 =>
                  obtain ⟨rfl, -⟩ := ensureVerify_ok _ _ _ hv
                  rw [hv] at h; dsimp only at h
                  rcases e2 with ⟨f, -⟩ | ⟨ia, a', f1, f2, f3⟩
                  · rw [ha] at f; cases f
                  · rw [ha] at f3; cases f3
                    rcases e3 with ⟨f, -⟩ | ⟨is, s', g1, g2, g3⟩
                    · rw [hs] at f; cases f
                    · rw [hs] at g3; cases g3
                      refine ⟨ia, is, aa, s, k0, f1, f2, g1, g2, ?_, ?_⟩
                      · have := asAlt_ok _ h
                        rw [e1] at this
                        exact this
                      · rw [hk] at e4
                        rcases e4 with ⟨k', q1, q2⟩ | ⟨q1, q2, -⟩ | ⟨q1, ik, b, k', q2, q3, q4, q5⟩
                        · cases q2; exact Or.inl q1
                        · cases q2
                        · cases q5; exact Or.inr ⟨q1, ik, b, q2, q3, q4⟩

theorem crlLoop_append (env : CatEnv S K) (l l' : List Ext) (v w : CrlVals K) (h : crlLoop env l v = .ok w) :
    crlLoop env (l ++ l') v = crlLoop env l' w := by
  generalize hr : crlLoop env l' w = q
  induction l generalizing v with
  | nil => cases h; exact hr
  | cons i l ih =>
    rw [List.cons_append]
    unfold crlLoop at h ⊢
    by_cases h3 : i.oid = altSigOid
    · rw [if_pos h3] at h ⊢
      cases hd : env.decBits i.value with
      | none => rw [hd] at h; cases h
      | some p =>
        rw [hd] at h; dsimp only at h ⊢
        by_cases hp : p.2 ≠ []
        · rw [if_pos hp] at h; cases h
        · rw [if_neg hp] at h ⊢; exact ih _ h
    · rw [if_neg h3] at h ⊢
      by_cases h1 : i.oid = altAlgOid
      · rw [if_pos h1] at h ⊢
        cases hd : env.decAlg i.value with
        | none => rw [hd] at h; cases h
        | some p =>
          rw [hd] at h; dsimp only at h ⊢
          by_cases hp : p.2 ≠ []
          · rw [if_pos hp] at h; cases h
          · rw [if_neg hp] at h ⊢; exact ih _ h
      · rw [if_neg h1] at h ⊢
        by_cases h2 : i.oid = altSpkiOid
        · rw [if_pos h2] at h ⊢
          cases hd : env.decSpki i.value with
          | none => rw [hd] at h; cases h
          | some p =>
            rw [hd] at h; dsimp only at h ⊢
            by_cases hp : p.2 ≠ []
            · rw [if_pos hp] at h; cases h
            · rw [if_neg hp] at h ⊢
              cases hk : v.key with
              | some k => rw [hk] at h; dsimp only at h ⊢; exact ih _ h
              | none =>
                rw [hk] at h; dsimp only at h ⊢
                cases hl : env.loadKey p.1 with
                | error e => rw [hl] at h; cases h
                | ok k => rw [hl] at h; dsimp only at h ⊢; exact ih _ h
        · rw [if_neg h2] at h ⊢
          exact ih _ h

theorem crlLoop_plain (env : CatEnv S K) (l : List Ext) (v : CrlVals K)
    (h : ∀ x ∈ l, x.oid ≠ altAlgOid ∧ x.oid ≠ altSpkiOid ∧ x.oid ≠ altSigOid) :
    crlLoop env l v = .ok { v with other := v.other ++ l } := by
  induction l generalizing v with
  | nil => rw [List.append_nil]; rfl
  | cons i l ih =>
    obtain ⟨h1, h2, h3⟩ := h i List.mem_cons_self
    unfold crlLoop
    rw [if_neg h3, if_neg h1, if_neg h2, ih _ (fun x hx => h x (List.mem_cons_of_mem _ hx))]
    simp

theorem crlLoop_alg (env : CatEnv S K) (e : Ext) (a : Alg) (l : List Ext) (v : CrlVals K) (he : e.oid = altAlgOid)
    (hd : env.decAlg e.value = some (a, [])) :
    crlLoop env (e :: l) v = crlLoop env l { v with alg := some a, other := v.other ++ [e] } := by
  rw [crlLoop, he, if_neg (by decide), if_pos rfl, hd]
  rfl

theorem crlLoop_sig (env : CatEnv S K) (e : Ext) (a : Bytes) (l : List Ext) (v : CrlVals K) (he : e.oid = altSigOid)
    (hd : env.decBits e.value = some (a, [])) :
    crlLoop env (e :: l) v = crlLoop env l { v with sig := some a } := by
  rw [crlLoop, he, if_pos rfl, hd]
  rfl

theorem crlLoop_key (env : CatEnv S K) (e : Ext) (b : Bytes) (k : K) (l : List Ext) (v : CrlVals K)
    (he : e.oid = altSpkiOid) (hd : env.decSpki e.value = some (b, [])) (hb : env.loadKey b = .ok k)
    (hv : v.key = none ∨ v.key = some k) :
    crlLoop env (e :: l) v = crlLoop env l { v with key := some k, other := v.other ++ [e] } := by
  rw [crlLoop, he, if_neg (by decide), if_neg (by decide), if_pos rfl, hd]
  dsimp only
  rw [if_neg (fun hx => hx rfl)]
  rcases hv with hv | hv
  · rw [hv]
    dsimp only
    rw [hb]
  · rw [hv]

/-- A CRL signed with two keys (without PSS) is accepted under a certificate of the first, if the second is given or
included. What is left of it has no alternative signature. -/
theorem C131_round_trip (env : HybEnv S K) (hf : Faithful env.toCatEnv) (c c' : Crl) (ca alt : S) (o : CrlOpts)
    (cert : Cert) (key : Option K) (must : Bool) (h : signCrl env c ca (some alt) o = .ok c')
    (ho : o.pss = false ∧ o.badSig = false ∧ o.badAlt = false)
    (hno : ∀ x ∈ c.exts, x.oid ≠ [2, 5, 29, 73] ∧ x.oid ≠ [2, 5, 29, 72] ∧ x.oid ≠ [2, 5, 29, 74])
    (hc : env.loadKey cert.tbs.spki = .ok (env.pub ca))
    (hk : key = some (env.pub alt) ∨ (key = none ∧ o.incl = true)) :
    verifyCrl env c' cert key must = (.ok (), { c' with exts := noSigExt c'.exts }) := by
  obtain ⟨o1, o2, o3⟩ := ho
  unfold signCrl at h
  rw [o1] at h
  cases h2 : env.prepAlg ca o.hash false with
  | error e => rw [h2] at h; cases h
  | ok a =>
    rw [h2] at h; dsimp only at h
    unfold crlWithAlt at h
    rw [o1, o3] at h
    cases h1 : env.prepAlg alt (o.altHash.or o.hash) false with
    | error e => rw [h1] at h; cases h
    | ok aa =>
      rw [h1] at h; dsimp only at h
      generalize hinfo : (c.exts ++ [altAlgExt env.toCatEnv aa o.crit] ++
        (if o.incl = true then [altSpkiExt env.toCatEnv (env.pub alt) o.crit] else [])) = exts at h
      cases h3 : env.sign alt (o.altHash.or o.hash) false (env.encCrl c.rest exts ++ env.encAlg a) with
      | error e => rw [h3] at h; cases h
      | ok s =>
        rw [h3] at h; dsimp only at h
        have hm : catManip false s = .ok s := rfl
        rw [hm] at h; dsimp only at h
        cases h4 : env.sign ca o.hash false (env.encCrl c.rest (exts ++ [altSigExt env.toCatEnv s o.crit])) with
        | error e => rw [h4] at h; cases h
        | ok sig =>
          rw [h4, o2] at h; dsimp only at h
          have hm : catManip false sig = .ok sig := rfl
          rw [hm] at h
          cases h
          have v1 := hf.algSig _ _ _ _ _ _ h1 h3
          obtain ⟨hh, v2, v3⟩ := hf.hash _ _ _ _ _ _ h2 h4
          have hnos : noSigExt (exts ++ [altSigExt env.toCatEnv s o.crit]) = exts := by
            have hall : noSigExt exts = exts := by
              unfold noSigExt
              rw [List.filter_eq_self]
              intro x hx
              rw [← hinfo] at hx
              refine decide_eq_true ?_
              rcases List.mem_append.1 hx with hx | hx
              · rcases List.mem_append.1 hx with hx | hx
                · exact (hno x hx).2.2
                · rw [List.mem_singleton.1 hx]
                  exact (by decide : altAlgOid ≠ altSigOid)
              · cases hi : o.incl with
                | false => rw [hi] at hx; cases hx
                | true =>
                  rw [hi] at hx
                  rw [List.mem_singleton.1 hx]
                  exact (by decide : altSpkiOid ≠ altSigOid)
            have : noSigExt (exts ++ [altSigExt env.toCatEnv s o.crit]) = noSigExt exts := by
              unfold noSigExt
              rw [List.filter_append]
              simp [altSigExt, altSigOid]
            rw [this, hall]
          have hloop : crlLoop env.toCatEnv (exts ++ [altSigExt env.toCatEnv s o.crit]) ⟨none, key, none, []⟩ =
              .ok ⟨some aa, some (env.pub alt), some s, exts⟩ := by
            obtain ⟨b, hb1, hb2⟩ := hf.spki (env.pub alt)
            have e0 := crlLoop_plain env.toCatEnv c.exts ⟨none, key, none, []⟩ hno
            rw [← hinfo, List.append_assoc, List.append_assoc, crlLoop_append _ _ _ _ _ e0]
            have stepAlg : ∀ l v, crlLoop env.toCatEnv (altAlgExt env.toCatEnv aa o.crit :: l) v =
                crlLoop env.toCatEnv l { v with alg := some aa, other := v.other ++ [altAlgExt env.toCatEnv aa o.crit] } := by
              intro l v
              exact crlLoop_alg env.toCatEnv _ aa l v rfl (hf.alg _ _ _ _ h1)
            have stepSig : ∀ l v, crlLoop env.toCatEnv (altSigExt env.toCatEnv s o.crit :: l) v =
                crlLoop env.toCatEnv l { v with sig := some s } := by
              intro l v
              exact crlLoop_sig env.toCatEnv _ s l v rfl (hf.bits s)
            have stepKey : ∀ l v, (v.key = none ∨ v.key = some (env.pub alt)) →
                crlLoop env.toCatEnv (altSpkiExt env.toCatEnv (env.pub alt) o.crit :: l) v =
                crlLoop env.toCatEnv l { v with key := some (env.pub alt), other := v.other ++ [altSpkiExt env.toCatEnv (env.pub alt) o.crit] } := by
              intro l v hv
              exact crlLoop_key env.toCatEnv _ b (env.pub alt) l v rfl hb1 hb2 hv
            rw [List.cons_append, List.nil_append, stepAlg]
            cases hi : o.incl with
            | true =>
              rw [if_pos rfl, List.cons_append, List.nil_append, stepKey _ _ (by
                rcases hk with hk | hk
                · exact Or.inr hk
                · exact Or.inl hk.1), stepSig]
              simp [crlLoop]
            | false =>
              rcases hk with hk | hk
              · rw [if_neg (by decide), List.nil_append, stepSig, hk]
                simp [crlLoop]
              · rw [hk.2] at hi; cases hi
          unfold verifyCrl crlMain
          dsimp only
          rw [v2]
          dsimp only
          rw [hc]
          dsimp only
          unfold ensureVerify
          rw [if_pos (hf.verifier _ _ _ _ h2)]
          dsimp only
          rw [v3]
          dsimp only
          have hne : ∃ x l, exts ++ [altSigExt env.toCatEnv s o.crit] = x :: l := by
            cases exts with
            | nil => exact ⟨_, _, rfl⟩
            | cons x l => exact ⟨x, _, rfl⟩
          obtain ⟨x, l, hxl⟩ := hne
          rw [hxl] at hloop hnos ⊢
          dsimp only
          rw [hloop]
          dsimp only
          unfold crlAlt
          dsimp only
          unfold ensureVerify
          rw [if_pos (hf.verifier _ _ _ _ h1)]
          dsimp only
          rw [v1, hnos]
          rfl

/-- The check changes at most the extensions: it removes the alternative signature. -/
theorem C131_state (env : HybEnv S K) (c : Crl) (ca : Cert) (key : Option K) (must : Bool) :
    (verifyCrl env c ca key must).2 = c ∨ (verifyCrl env c ca key must).2 = { c with exts := noSigExt c.exts } := by
  unfold verifyCrl
  cases crlMain env c ca with
  | error e => exact Or.inl rfl
  | ok u =>
    dsimp only
    cases he : c.exts with
    | nil => exact Or.inl rfl
    | cons x l =>
      dsimp only
      cases hl : crlLoop env.toCatEnv (x :: l) ⟨none, key, none, []⟩ with
      | error e => exact Or.inl rfl
      | ok v =>
        obtain ⟨e1, -⟩ := crlLoop_spec _ _ _ _ hl
        rw [List.nil_append] at e1
        dsimp only
        rw [e1]
        exact Or.inr rfl

/-- An ordinary CRL with extensions, but without an alternative signature, is refused even if none is demanded. -/
theorem C131_ordinary_refuted (env : HybEnv S K) (c : Crl) (ca : Cert) (key : Option K) (must : Bool) (hne : c.exts ≠ [])
    (hno : ∀ x ∈ c.exts, x.oid ≠ [2, 5, 29, 74]) : (verifyCrl env c ca key must).1 ≠ .ok () := by
  intro h
  obtain ⟨-, h | ⟨ia, is, aa, s, k, -, -, ⟨pre, post, hl, ho, -⟩, -⟩⟩ := C131_sound env c ca key must h
  · exact hne h.1
  · exact hno is (by rw [hl]; simp) ho

/-! ### A toy instance -/

/-- A CRL with one extension (its number). -/
def toyCrl : Crl := ⟨[3, 3], [⟨[2, 5, 29, 20], false, [1]⟩], ⟨[1], none⟩, []⟩
def okC (x : Except PyErr Crl) : Crl :=
  match x with
  | .ok m => m
  | .error _ => toyCrl
def toyCrlOpts : CrlOpts := ⟨true, none, none, false, false, false, false⟩
def toySigned : Crl := okC (signCrl toyHyb toyCrl 7 (some 60) toyCrlOpts)

example : verifyCrl toyHyb toySigned toySender none true = (.ok (), { toySigned with exts := noSigExt toySigned.exts }) :=
  C131_round_trip toyHyb toyPop_faithful.base toyCrl toySigned 7 60 toyCrlOpts toySender none true (by decide +kernel)
    ⟨rfl, rfl, rfl⟩ (by decide) rfl (Or.inr ⟨rfl, rfl⟩)
example : toySigned.exts.length = 4 := by decide +kernel
example : (verifyCrl toyHyb (okC (signCrl toyHyb toyCrl 7 (some 60) { toyCrlOpts with badAlt := true })) toySender none
    true).1 = .error .invalidAltSignature := by decide +kernel
example : (verifyCrl toyHyb (okC (signCrl toyHyb toyCrl 7 none toyCrlOpts)) toySender none false).1 =
    .error .valueError := by decide +kernel

/-- The alternative key of the CA's certificate plays no role: without a given key the CRL brings its own, which may be
any. -/
theorem C131_alt_key_refuted :
    ¬ ∀ (env : HybEnv UInt8 UInt8), PopFaithful env.toPopEnv → ∀ (c : Crl) (ca : Cert) (k : UInt8),
      mayAltKey env ca none = .ok (some k) → (verifyCrl env c ca none true).1 = .ok () →
      ∃ i s aa, LastExt c.exts [2, 5, 29, 74] i ∧ env.decBits i.value = some (s, []) ∧
        env.verifyAlg k aa (env.encCrl c.rest (noSigExt c.exts) ++ env.encAlg c.alg) s = .ok () := by
  intro h
  let c := okC (signCrl toyHyb toyCrl 7 (some 77) toyCrlOpts)
  obtain ⟨i, s, aa, ⟨pre, post, hl, ho, -⟩, hd, hv⟩ := h toyHyb toyPop_faithful c toySender 60 (by decide +kernel)
    (by decide +kernel)
  have hall : c.exts.all (fun e => decide (e.oid = [2, 5, 29, 74] → e.value.head? = some 77)) = true := by
    decide +kernel
  have hi := of_decide_eq_true (List.all_eq_true.1 hall i (by rw [hl]; simp)) ho
  have hs : s = i.value := by
    have hd : some (i.value, ([] : Bytes)) = some (s, []) := hd
    cases hd
    rfl
  have hv : (if s = 60 :: (toyHyb.encCrl c.rest (noSigExt c.exts) ++ toyHyb.encAlg c.alg) then Except.ok ()
    else Except.error PyErr.invalidSignature) = Except.ok () := hv
  rw [if_neg] at hv
  · cases hv
  · intro hx
    rw [← hs, hx] at hi
    exact absurd hi (by decide)

/-- The check takes the alternative signature out of the CRL: the same check fails the next time. -/
theorem C131_twice_refuted :
    ¬ ∀ (env : HybEnv UInt8 UInt8), PopFaithful env.toPopEnv → ∀ (c : Crl) (ca : Cert),
      (verifyCrl env c ca none false).1 = .ok () →
      (verifyCrl env (verifyCrl env c ca none false).2 ca none false).1 = .ok () := by
  intro h
  have := h toyHyb toyPop_faithful toySigned toySender (by decide +kernel)
  exact absurd this (by decide +kernel)

/-- As `toyHyb`, with two kinds of signatures: those with PSS have a zero after the key. -/
def toyPssHyb : HybEnv UInt8 UInt8 := { toyHyb with
  prepAlg := fun s _ p => if s < 100 then .ok ⟨[if p then 2 else 1], none⟩ else .error .valueError
  encAlg := fun a => if a = ⟨[2], none⟩ then [8] else [7]
  decAlg := fun b => if b = [7] then some (⟨[1], none⟩, []) else if b = [8] then some (⟨[2], none⟩, []) else none
  sign := fun s _ p d => if p then .ok (s :: 0 :: d) else .ok (s :: d)
  verifyAlg := fun k a d sig =>
    if sig = (if a.oid = [2] then k :: 0 :: d else k :: d) then .ok () else .error .invalidSignature }

theorem toyPssHyb_faithful : Faithful toyPssHyb.toCatEnv where
  alg := by
    intro s h p a ha
    have ha : (if s < 100 then Except.ok ⟨[if p then 2 else 1], none⟩ else Except.error .valueError : Except PyErr Alg)
      = .ok a := ha
    split at ha
    · cases ha
      cases p <;> decide
    · cases ha
  bits := fun _ => rfl
  spki := fun k => ⟨[k], rfl, rfl⟩
  verifier := by
    intro s h p a ha
    have ha : (if s < 100 then Except.ok ⟨[if p then 2 else 1], none⟩ else Except.error .valueError : Except PyErr Alg)
      = .ok a := ha
    split at ha
    · rename_i hs; exact decide_eq_true hs
    · cases ha
  hash := by
    intro s h p a d sig _ hs
    cases hs
    exact ⟨none, rfl, if_pos rfl⟩
  algSig := by
    intro s h p a d sig ha hs
    have ha : (if s < 100 then Except.ok ⟨[if p then 2 else 1], none⟩ else Except.error .valueError : Except PyErr Alg)
      = .ok a := ha
    split at ha
    · cases ha
      cases p <;> cases hs <;> exact if_pos rfl
    · cases ha

/-- With `use_rsa_pss` the algorithm identifiers say PSS, but the signatures are made without: the CRL is not accepted. -/
theorem C131_pss_refuted :
    ¬ ∀ (env : HybEnv UInt8 UInt8), Faithful env.toCatEnv → ∀ (c c' : Crl) (ca alt : UInt8) (o : CrlOpts) (cert : Cert),
      signCrl env c ca (some alt) o = .ok c' → o.badSig = false → o.badAlt = false → o.incl = true →
      (∀ x ∈ c.exts, x.oid ≠ [2, 5, 29, 73] ∧ x.oid ≠ [2, 5, 29, 72] ∧ x.oid ≠ [2, 5, 29, 74]) →
      env.loadKey cert.tbs.spki = .ok (env.pub ca) → (verifyCrl env c' cert none false).1 = .ok () := by
  intro h
  have := h toyPssHyb toyPssHyb_faithful toyCrl
    (okC (signCrl toyPssHyb toyCrl 7 (some 60) { toyCrlOpts with pss := true })) 7 60 { toyCrlOpts with pss := true }
    toySender (by decide +kernel) rfl rfl rfl (by decide) rfl
  exact absurd this (by decide +kernel)

end Verif.Hybrid
