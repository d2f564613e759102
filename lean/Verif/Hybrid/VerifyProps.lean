import Verif.Hybrid.Verify
import Verif.Hybrid.CatalystIssueProps

/-!
# Properties of hybrid protection (C130, C131, C132, C133)
-/

namespace Verif.Hybrid

open Verif.CA

variable {S K : Type}

/-! ## C130: messages -/

/-- The `generalInfo` without alternative signatures. -/
def noSig (l : List Info) : List Info := l.filter (fun i => decide (i.oid ≠ [2, 5, 29, 74]))

/-- The last entry with an identifier. -/
def LastInfo (l : List Info) (o : Oid) (i : Info) : Prop :=
  ∃ pre post, l = pre ++ i :: post ∧ i.oid = o ∧ ∀ x ∈ post, x.oid ≠ o

theorem lastInfo_cons {l : List Info} {o : Oid} {i x : Info} (h : LastInfo l o i) : LastInfo (x :: l) o i := by
  obtain ⟨p, q, rfl, ho, hq⟩ := h
  exact ⟨x :: p, q, rfl, ho, hq⟩

/-- What the loop finds: the last value of each kind, and everything but the signatures. -/
theorem infoLoop_spec (env : CatEnv S K) (l : List Info) (v w : InfoVals) (h : infoLoop env l v = .ok w) :
    w.other = v.other ++ noSig l ∧
    ((w.alg = v.alg ∧ ∀ x ∈ l, x.oid ≠ altAlgOid) ∨
      ∃ i a r, LastInfo l altAlgOid i ∧ env.decAlg i.value = some (a, r) ∧ w.alg = some a) ∧
    ((w.spki = v.spki ∧ ∀ x ∈ l, x.oid ≠ altSpkiOid) ∨
      ∃ i a r, LastInfo l altSpkiOid i ∧ env.decSpki i.value = some (a, r) ∧ w.spki = some a) ∧
    ((w.sig = v.sig ∧ ∀ x ∈ l, x.oid ≠ altSigOid) ∨
      ∃ i a r, LastInfo l altSigOid i ∧ env.decBits i.value = some (a, r) ∧ w.sig = some a) := by
  induction l generalizing v with
  | nil =>
    cases h
    exact ⟨(List.append_nil _).symm, Or.inl ⟨rfl, fun x hx => by cases hx⟩, Or.inl ⟨rfl, fun x hx => by cases hx⟩,
      Or.inl ⟨rfl, fun x hx => by cases hx⟩⟩
  | cons i l ih =>
    -- a value of another kind: what holds of the rest holds of the whole
    have keep : ∀ {A : Type} (o : Oid) (d : Bytes → Option (A × Bytes)) (x y : Option A), i.oid ≠ o →
        ((x = y ∧ ∀ z ∈ l, z.oid ≠ o) ∨ ∃ j a r, LastInfo l o j ∧ d j.value = some (a, r) ∧ x = some a) →
        ((x = y ∧ ∀ z ∈ i :: l, z.oid ≠ o) ∨ ∃ j a r, LastInfo (i :: l) o j ∧ d j.value = some (a, r) ∧ x = some a) := by
      intro A o d x y hn h
      rcases h with ⟨h1, h2⟩ | ⟨j, a, r, h1, h2, h3⟩
      · exact Or.inl ⟨h1, fun z hz => (List.mem_cons.1 hz).elim (fun e => e ▸ hn) (h2 z)⟩
      · exact Or.inr ⟨j, a, r, lastInfo_cons h1, h2, h3⟩
    have here : ∀ {A : Type} (o : Oid) (d : Bytes → Option (A × Bytes)) (x y : Option A) (a : A) (r : Bytes), i.oid = o →
        d i.value = some (a, r) →
        ((x = some a ∧ ∀ z ∈ l, z.oid ≠ o) ∨ ∃ j a r, LastInfo l o j ∧ d j.value = some (a, r) ∧ x = some a) →
        ((x = y ∧ ∀ z ∈ i :: l, z.oid ≠ o) ∨ ∃ j a r, LastInfo (i :: l) o j ∧ d j.value = some (a, r) ∧ x = some a) := by
      intro A o d x y a r hn hd h
      rcases h with ⟨h1, h2⟩ | ⟨j, b, q, h1, h2, h3⟩
      · exact Or.inr ⟨i, a, r, ⟨[], l, rfl, hn, h2⟩, hd, h1⟩
      · exact Or.inr ⟨j, b, q, lastInfo_cons h1, h2, h3⟩
    have filt : i.oid ≠ altSigOid → noSig (i :: l) = i :: noSig l := by
      intro hn
      unfold noSig
      rw [List.filter_cons_of_pos]
      exact decide_eq_true hn
    unfold infoLoop at h
    by_cases h1 : i.oid = altAlgOid
    · have n1 : i.oid ≠ altSpkiOid := by rw [h1]; decide
      have n2 : i.oid ≠ altSigOid := by rw [h1]; decide
      rw [if_pos h1] at h
      cases hd : env.decAlg i.value with
      | none => rw [hd] at h; cases h
      | some p =>
        obtain ⟨a, r⟩ := p
        rw [hd] at h; dsimp only at h
        obtain ⟨e1, e2, e3, e4⟩ := ih _ h
        refine ⟨?_, here _ _ _ _ _ _ h1 hd e2, keep _ _ _ _ n1 e3, keep _ _ _ _ n2 e4⟩
        rw [e1, filt n2]
        simp
    · rw [if_neg h1] at h
      by_cases h2 : i.oid = altSpkiOid
      · have n2 : i.oid ≠ altSigOid := by rw [h2]; decide
        rw [if_pos h2] at h
        cases hd : env.decSpki i.value with
        | none => rw [hd] at h; cases h
        | some p =>
          obtain ⟨a, r⟩ := p
          rw [hd] at h; dsimp only at h
          obtain ⟨e1, e2, e3, e4⟩ := ih _ h
          refine ⟨?_, keep _ _ _ _ h1 e2, here _ _ _ _ _ _ h2 hd e3, keep _ _ _ _ n2 e4⟩
          rw [e1, filt n2]
          simp
      · rw [if_neg h2] at h
        by_cases h3 : i.oid = altSigOid
        · rw [if_pos h3] at h
          cases hd : env.decBits i.value with
          | none => rw [hd] at h; cases h
          | some p =>
            obtain ⟨a, r⟩ := p
            rw [hd] at h; dsimp only at h
            obtain ⟨e1, e2, e3, e4⟩ := ih _ h
            refine ⟨?_, keep _ _ _ _ h1 e2, keep _ _ _ _ h2 e3, here _ _ _ _ _ _ h3 hd e4⟩
            rw [e1]
            unfold noSig
            rw [List.filter_cons_of_neg]
            rw [decide_eq_true_eq]
            exact not_not_intro h3
        · rw [if_neg h3] at h
          obtain ⟨e1, e2, e3, e4⟩ := ih _ h
          refine ⟨?_, keep _ _ _ _ h1 e2, keep _ _ _ _ h2 e3, keep _ _ _ _ h3 e4⟩
          rw [e1, filt h3]
          simp

theorem infoVals_some (env : CatEnv S K) (l : List Info) (must : Bool) (a : Alg) (p : Option Bytes) (s : Bytes)
    (o : List Info) (h : infoVals env l must = .ok (some (a, p, s, o))) :
    o = noSig l ∧
    (∃ i r, LastInfo l [2, 5, 29, 73] i ∧ env.decAlg i.value = some (a, r)) ∧
    (∃ i r, LastInfo l [2, 5, 29, 74] i ∧ env.decBits i.value = some (s, r)) ∧
    ((p = none ∧ ∀ x ∈ l, x.oid ≠ [2, 5, 29, 72]) ∨
      ∃ i b r, LastInfo l [2, 5, 29, 72] i ∧ env.decSpki i.value = some (b, r) ∧ p = some b) := by
  unfold infoVals at h
  cases hl : infoLoop env l ⟨none, none, none, []⟩ with
  | error e => rw [hl] at h; cases h
  | ok w =>
    obtain ⟨e1, e2, e3, e4⟩ := infoLoop_spec env l _ _ hl
    rw [hl] at h; dsimp only at h
    cases ha : w.alg with
    | none =>
      rw [ha] at h
      cases hs : w.sig with
      | none => rw [hs] at h; dsimp only at h; split at h <;> cases h
      | some x => rw [hs] at h; cases h
    | some x =>
      rw [ha] at h
      cases hs : w.sig with
      | none => rw [hs] at h; cases h
      | some y =>
        rw [hs] at h
        cases h
        refine ⟨e1, ?_, ?_, e3⟩
        · rcases e2 with ⟨e, -⟩ | ⟨i, b, r, h1, h2, h3⟩
          · rw [ha] at e; cases e
          · rw [ha] at h3; cases h3; exact ⟨i, r, h1, h2⟩
        · rcases e4 with ⟨e, -⟩ | ⟨i, b, r, h1, h2, h3⟩
          · rw [hs] at e; cases e
          · rw [hs] at h3; cases h3; exact ⟨i, r, h1, h2⟩

theorem infoVals_none (env : CatEnv S K) (l : List Info) (must : Bool) (h : infoVals env l must = .ok none) :
    must = false ∧ ∀ x ∈ l, x.oid ≠ [2, 5, 29, 73] ∧ x.oid ≠ [2, 5, 29, 74] := by
  unfold infoVals at h
  cases hl : infoLoop env l ⟨none, none, none, []⟩ with
  | error e => rw [hl] at h; cases h
  | ok w =>
    obtain ⟨e1, e2, e3, e4⟩ := infoLoop_spec env l _ _ hl
    rw [hl] at h; dsimp only at h
    cases ha : w.alg with
    | some x => rw [ha] at h; cases hs : w.sig <;> rw [hs] at h <;> cases h
    | none =>
      cases hs : w.sig with
      | some y => rw [ha, hs] at h; cases h
      | none =>
        rw [ha, hs] at h; dsimp only at h
        cases must with
        | true => cases h
        | false =>
          refine ⟨rfl, fun x hx => ⟨?_, ?_⟩⟩
          · rcases e2 with ⟨-, e⟩ | ⟨i, b, r, h1, h2, h3⟩
            · exact e x hx
            · rw [ha] at h3; cases h3
          · rcases e4 with ⟨-, e⟩ | ⟨i, b, r, h1, h2, h3⟩
            · exact e x hx
            · rw [hs] at h3; cases h3

theorem ensureVerify_ok (env : CatEnv S K) (k k' : K) (h : ensureVerify env k = .ok k') :
    k' = k ∧ env.isVerifyKey k = true := by
  unfold ensureVerify at h
  split at h
  · rename_i hv; cases h; exact ⟨rfl, hv⟩
  · cases h

/-- A message with a single protection algorithm is accepted only if its first certificate's key signed all of it; and
it carries either no alternative signature (and none was demanded), or a valid one over everything but itself. The key
of this one is taken from the header, or else from the certificates. -/
theorem C130_sound (env : HybEnv S K) (m : HMsg) (key : Option K) (must : Bool) (a : Alg) (ha : m.protAlg = some a)
    (hc : env.isCompositeOid a.oid = false) (h : (verifyHybrid env m key must).1 = .ok ()) :
    ∃ sig c cs k, m.prot = some sig ∧ m.certs = c :: cs ∧ env.loadKey c.tbs.spki = .ok k ∧
      env.verifyAlg k a (env.encProt m.rest (some a) m.info) sig = .ok () ∧
      ((must = false ∧ ∀ x ∈ m.info, x.oid ≠ [2, 5, 29, 73] ∧ x.oid ≠ [2, 5, 29, 74]) ∨
       ∃ ia is aa s r r' k', LastInfo m.info [2, 5, 29, 73] ia ∧ env.decAlg ia.value = some (aa, r) ∧
         LastInfo m.info [2, 5, 29, 74] is ∧ env.decBits is.value = some (s, r') ∧
         env.verifyAlg k' aa (env.encProt m.rest (some a) (noSig m.info)) s = .ok () ∧
         ((∃ ik b r'', LastInfo m.info [2, 5, 29, 72] ik ∧ env.decSpki ik.value = some (b, r'') ∧
            env.loadKey b = .ok k') ∨
          ((∀ x ∈ m.info, x.oid ≠ [2, 5, 29, 72]) ∧ mayAltKey env c (some cs) = .ok (some k')))) := by
  unfold verifyHybrid at h
  rw [ha] at h; dsimp only at h
  cases hp : m.prot with
  | none => rw [hp] at h; cases h
  | some sig =>
    rw [hp] at h; dsimp only at h
    by_cases hx : m.certs = [] ∧ key = none
    · rw [if_pos hx] at h; cases h
    · rw [if_neg hx, if_neg (by rw [hc]; decide)] at h
      unfold verifySingle at h
      cases hcs : m.certs with
      | nil => rw [hcs] at h; cases h
      | cons c cs =>
        rw [hcs] at h; dsimp only at h
        cases hk : env.loadKey c.tbs.spki with
        | error e => rw [hk] at h; cases h
        | ok k =>
          rw [hk] at h; dsimp only at h
          cases hv : ensureVerify env.toCatEnv k with
          | error e => rw [hv] at h; cases h
          | ok k0 =>
            obtain ⟨rfl, -⟩ := ensureVerify_ok _ _ _ hv
            rw [hv] at h; dsimp only at h
            cases hs : env.verifyAlg k0 a (env.encProt m.rest m.protAlg m.info) sig with
            | error e => rw [hs] at h; cases h
            | ok u =>
              rw [hs] at h; dsimp only at h
              refine ⟨sig, c, cs, k0, rfl, rfl, hk, ?_, ?_⟩
              · rw [← ha]; exact hs
              · unfold verifyInfo at h
                cases hi : infoVals env.toCatEnv m.info must with
                | error e => rw [hi] at h; cases h
                | ok o =>
                  cases o with
                  | none => exact Or.inl (infoVals_none _ _ _ hi)
                  | some v =>
                    obtain ⟨aa, p, s, oth⟩ := v
                    rw [hi] at h; dsimp only at h
                    obtain ⟨rfl, ⟨ia, r, l1, d1⟩, ⟨is, r', l2, d2⟩, hpk⟩ := infoVals_some _ _ _ _ _ _ _ hi
                    cases hk' : infoKey env p c cs with
                    | error e => rw [hk'] at h; cases h
                    | ok ok' =>
                      rw [hk'] at h
                      cases ok' with
                      | none => cases h
                      | some k' =>
                        dsimp only at h
                        cases hv' : ensureVerify env.toCatEnv k' with
                        | error e => rw [hv'] at h; cases h
                        | ok k1 =>
                          obtain ⟨rfl, -⟩ := ensureVerify_ok _ _ _ hv'
                          rw [hv'] at h; dsimp only at h
                          refine Or.inr ⟨ia, is, aa, s, r, r', k1, l1, d1, l2, d2, ?_, ?_⟩
                          · rw [← ha]; exact asAlt_ok _ h
                          · unfold infoKey at hk'
                            rcases hpk with ⟨rfl, hno⟩ | ⟨ik, b, r'', l3, d3, rfl⟩
                            · exact Or.inr ⟨hno, hk'⟩
                            · dsimp only at hk'
                              cases hb : env.loadKey b with
                              | error e => rw [hb] at hk'; cases hk'
                              | ok kb =>
                                rw [hb] at hk'
                                cases hk'
                                exact Or.inl ⟨ik, b, r'', l3, d3, hb⟩

theorem infoLoop_append (env : CatEnv S K) (l l' : List Info) (v w : InfoVals) (h : infoLoop env l v = .ok w) :
    infoLoop env (l ++ l') v = infoLoop env l' w := by
  generalize hr : infoLoop env l' w = r
  induction l generalizing v with
  | nil => cases h; exact hr
  | cons i l ih =>
    rw [List.cons_append]
    unfold infoLoop at h ⊢
    by_cases h1 : i.oid = altAlgOid
    · rw [if_pos h1] at h ⊢
      cases hd : env.decAlg i.value with
      | none => rw [hd] at h; cases h
      | some p => rw [hd] at h; dsimp only at h ⊢; exact ih _ h
    · rw [if_neg h1] at h ⊢
      by_cases h2 : i.oid = altSpkiOid
      · rw [if_pos h2] at h ⊢
        cases hd : env.decSpki i.value with
        | none => rw [hd] at h; cases h
        | some p => rw [hd] at h; dsimp only at h ⊢; exact ih _ h
      · rw [if_neg h2] at h ⊢
        by_cases h3 : i.oid = altSigOid
        · rw [if_pos h3] at h ⊢
          cases hd : env.decBits i.value with
          | none => rw [hd] at h; cases h
          | some p => rw [hd] at h; dsimp only at h ⊢; exact ih _ h
        · rw [if_neg h3] at h ⊢
          exact ih _ h

theorem infoLoop_plain (env : CatEnv S K) (l : List Info) (v : InfoVals)
    (h : ∀ x ∈ l, x.oid ≠ altAlgOid ∧ x.oid ≠ altSpkiOid ∧ x.oid ≠ altSigOid) :
    infoLoop env l v = .ok { v with other := v.other ++ l } := by
  induction l generalizing v with
  | nil => rw [List.append_nil]; rfl
  | cons i l ih =>
    obtain ⟨h1, h2, h3⟩ := h i List.mem_cons_self
    unfold infoLoop
    rw [if_neg h1, if_neg h2, if_neg h3, ih _ (fun x hx => h x (List.mem_cons_of_mem _ hx))]
    simp

/-- A message protected with two keys is accepted, if the first certificate has the first key and the second key is
in the header or found from the certificates. What is left of the message has no alternative signature. -/
theorem C130_round_trip (env : HybEnv S K) (hf : PopFaithful env.toPopEnv) (m m' : HMsg) (key alt : S) (incl : Bool)
    (hash : Option String) (pss : Bool) (given : Option K) (must : Bool) (c : Cert) (cs : List Cert)
    (h : protectCat env m key alt incl hash pss false = .ok m')
    (hno : ∀ x ∈ m.info, x.oid ≠ [2, 5, 29, 73] ∧ x.oid ≠ [2, 5, 29, 72] ∧ x.oid ≠ [2, 5, 29, 74])
    (hcs : m.certs = c :: cs) (hc : env.loadKey c.tbs.spki = .ok (env.pub key))
    (hk : incl = true ∨ mayAltKey env c (some cs) = .ok (some (env.pub alt))) :
    verifyHybrid env m' given must = (.ok (), { m' with info := noSig m'.info }) := by
  unfold protectCat at h
  cases h1 : env.prepAlg alt hash pss with
  | error e => rw [h1] at h; cases h
  | ok aa =>
    rw [h1] at h; dsimp only at h
    cases h2 : env.prepAlg key hash pss with
    | error e => rw [h2] at h; cases h
    | ok a =>
      rw [h2] at h; dsimp only at h
      generalize hinfo : (m.info ++ [(⟨altAlgOid, env.encAlg aa⟩ : Info)] ++
        (if incl = true then [(⟨altSpkiOid, env.spkiOf (env.pub alt)⟩ : Info)] else [])) = info at h
      cases h3 : env.signAlg alt aa (env.encProt m.rest (some a) info) with
      | error e => rw [h3] at h; cases h
      | ok s =>
        rw [h3] at h; dsimp only at h
        have hm : catManip false s = .ok s := rfl
        rw [hm] at h; dsimp only at h
        cases h4 : env.signAlg key a (env.encProt m.rest (some a) (info ++ [⟨altSigOid, env.encBits s⟩])) with
        | error e => rw [h4] at h; cases h
        | ok sig =>
          rw [h4] at h; cases h
          obtain ⟨v1, -⟩ := hf.sig _ _ _ _ _ _ h1 h3
          obtain ⟨v2, c2⟩ := hf.sig _ _ _ _ _ _ h2 h4
          have hnos : noSig (info ++ [⟨altSigOid, env.encBits s⟩]) = info := by
            have hall : noSig info = info := by
              unfold noSig
              rw [List.filter_eq_self]
              intro x hx
              rw [← hinfo] at hx
              refine decide_eq_true ?_
              rcases List.mem_append.1 hx with hx | hx
              · rcases List.mem_append.1 hx with hx | hx
                · exact (hno x hx).2.2
                · rw [List.mem_singleton.1 hx]
                  exact (by decide : altAlgOid ≠ altSigOid)
              · cases incl with
                | false => cases hx
                | true =>
                  rw [List.mem_singleton.1 hx]
                  exact (by decide : altSpkiOid ≠ altSigOid)
            have : noSig (info ++ [⟨altSigOid, env.encBits s⟩]) = noSig info := by
              unfold noSig
              rw [List.filter_append]
              simp [altSigOid]
            rw [this, hall]
          have hloop : infoVals env.toCatEnv (info ++ [⟨altSigOid, env.encBits s⟩]) must =
              .ok (some (aa, if incl = true then ((env.decSpki (env.spkiOf (env.pub alt))).map (·.1)) else none, s, info)) := by
            obtain ⟨b, hb1, -⟩ := hf.base.spki (env.pub alt)
            have e0 := infoLoop_plain env.toCatEnv m.info ⟨none, none, none, []⟩ hno
            unfold infoVals
            rw [← hinfo, List.append_assoc, List.append_assoc, infoLoop_append _ _ _ _ _ e0]
            cases incl with
            | false =>
              simp only [Bool.false_eq_true, if_false, List.nil_append, List.cons_append]
              unfold infoLoop
              rw [if_pos rfl]
              dsimp only
              rw [hf.base.alg _ _ _ _ h1]
              dsimp only
              unfold infoLoop
              rw [if_neg (show altSigOid ≠ altAlgOid by decide), if_neg (show altSigOid ≠ altSpkiOid by decide), if_pos rfl]
              dsimp only
              rw [hf.base.bits]
              dsimp only
              unfold infoLoop
              dsimp only
              simp
            | true =>
              simp only [if_true, List.cons_append, List.nil_append]
              unfold infoLoop
              rw [if_pos rfl]
              dsimp only
              rw [hf.base.alg _ _ _ _ h1]
              dsimp only
              unfold infoLoop
              rw [if_neg (show altSpkiOid ≠ altAlgOid by decide), if_pos rfl]
              dsimp only
              rw [hb1]
              dsimp only
              unfold infoLoop
              rw [if_neg (show altSigOid ≠ altAlgOid by decide), if_neg (show altSigOid ≠ altSpkiOid by decide), if_pos rfl]
              dsimp only
              rw [hf.base.bits]
              dsimp only
              unfold infoLoop
              dsimp only
              simp
          have hkey : infoKey env (if incl = true then ((env.decSpki (env.spkiOf (env.pub alt))).map (·.1)) else none) c cs
              = .ok (some (env.pub alt)) := by
            cases incl with
            | true =>
              obtain ⟨b, hb1, hb2⟩ := hf.base.spki (env.pub alt)
              simp only [if_true]
              rw [hb1]
              show (env.loadKey b).map some = _
              rw [hb2]
              rfl
            | false =>
              rcases hk with hk | hk
              · cases hk
              · simpa [infoKey] using hk
          unfold verifyHybrid
          dsimp only
          rw [if_neg (by rw [hcs]; rintro ⟨hx, -⟩; cases hx), if_neg (by rw [c2]; decide)]
          unfold verifySingle
          dsimp only
          rw [hcs]
          dsimp only
          rw [hc]
          dsimp only
          unfold ensureVerify
          rw [if_pos (hf.base.verifier _ _ _ _ h2)]
          dsimp only
          rw [v2]
          dsimp only
          unfold verifyInfo
          dsimp only
          rw [hloop]
          dsimp only
          rw [hkey]
          dsimp only
          unfold ensureVerify
          rw [if_pos (hf.base.verifier _ _ _ _ h1)]
          dsimp only
          rw [v1, hnos]
          rfl

/-- The check changes at most the `generalInfo`: it removes the alternative signature. -/
theorem C130_state (env : HybEnv S K) (m : HMsg) (key : Option K) (must : Bool) :
    (verifyHybrid env m key must).2 = m ∨ (verifyHybrid env m key must).2 = { m with info := noSig m.info } := by
  have hi : ∀ c cs, (verifyInfo env m c cs must).2 = m ∨ (verifyInfo env m c cs must).2 = { m with info := noSig m.info } := by
    intro c cs
    unfold verifyInfo
    cases hv : infoVals env.toCatEnv m.info must with
    | error e => exact Or.inl rfl
    | ok o =>
      cases o with
      | none => exact Or.inl rfl
      | some v =>
        obtain ⟨aa, p, s, oth⟩ := v
        obtain ⟨rfl, -⟩ := infoVals_some _ _ _ _ _ _ _ hv
        dsimp only
        cases infoKey env p c cs with
        | error e => exact Or.inl rfl
        | ok ok' =>
          cases ok' with
          | none => exact Or.inr rfl
          | some k' =>
            dsimp only
            cases ensureVerify env.toCatEnv k' <;> exact Or.inr rfl
  unfold verifyHybrid
  split
  · exact Or.inl rfl
  · split
    · exact Or.inl rfl
    · split
      · exact Or.inl rfl
      · split
        · split
          · exact Or.inl rfl
          · split <;> exact Or.inl rfl
        · unfold verifySingle
          split
          · exact Or.inl rfl
          · split
            · exact Or.inl rfl
            · split
              · exact Or.inl rfl
              · split
                · exact Or.inl rfl
                · exact hi _ _

/-- Without certificates a message with a single protection algorithm is refused, even if the key is given. -/
theorem C130_key_only_refuted (env : HybEnv S K) (m : HMsg) (key : Option K) (must : Bool) (a : Alg)
    (ha : m.protAlg = some a) (hc : env.isCompositeOid a.oid = false) (hcs : m.certs = []) :
    (verifyHybrid env m key must).1 ≠ .ok () := by
  intro h
  obtain ⟨_, _, _, _, _, h2, _⟩ := C130_sound env m key must a ha hc h
  rw [hcs] at h2
  cases h2

/-- A wrong alternative signature on demand differs from the right one, and the message is signed again over it. -/
theorem C130_bad (env : HybEnv S K) (m m' : HMsg) (key alt : S) (incl : Bool) (hash : Option String) (pss : Bool)
    (h : protectCat env m key alt incl hash pss true = .ok m') :
    ∃ pre s s' aa a, m'.info = pre ++ [⟨[2, 5, 29, 74], env.encBits s'⟩] ∧ m'.protAlg = some a ∧
      env.signAlg alt aa (env.encProt m.rest (some a) pre) = .ok s ∧ s' ≠ s ∧
      ∃ sig, m'.prot = some sig ∧ env.signAlg key a (env.encProt m'.rest (some a) m'.info) = .ok sig := by
  unfold protectCat at h
  cases h1 : env.prepAlg alt hash pss with
  | error e => rw [h1] at h; cases h
  | ok aa =>
    rw [h1] at h; dsimp only at h
    cases h2 : env.prepAlg key hash pss with
    | error e => rw [h2] at h; cases h
    | ok a =>
      rw [h2] at h; dsimp only at h
      generalize hinfo : (m.info ++ [(⟨altAlgOid, env.encAlg aa⟩ : Info)] ++
        (if incl = true then [(⟨altSpkiOid, env.spkiOf (env.pub alt)⟩ : Info)] else [])) = info at h
      cases h3 : env.signAlg alt aa (env.encProt m.rest (some a) info) with
      | error e => rw [h3] at h; cases h
      | ok s =>
        rw [h3] at h; dsimp only at h
        cases hm : catManip true s with
        | error e => rw [hm] at h; cases h
        | ok s' =>
          rw [hm] at h; dsimp only at h
          cases h4 : env.signAlg key a (env.encProt m.rest (some a) (info ++ [⟨altSigOid, env.encBits s'⟩])) with
          | error e => rw [h4] at h; cases h
          | ok sig =>
            rw [h4] at h; cases h
            refine ⟨info, s, s', aa, a, rfl, rfl, h3, ?_, sig, rfl, h4⟩
            rintro rfl
            cases s' with
            | nil => cases hm
            | cons b l =>
              have hm : (if b = 0 then Except.ok (1 :: l) else Except.ok (0 :: l) : Except PyErr Bytes) =
                .ok (b :: l) := hm
              by_cases hb : b = 0
              · rw [if_pos hb] at hm
                injection hm with hm
                have := (List.cons.inj hm).1
                rw [hb] at this
                exact absurd this (by decide)
              · rw [if_neg hb] at hm
                injection hm with hm
                exact hb (List.cons.inj hm).1.symm

/-! ### A toy instance -/

/-- The keys of `toyPop`; composite keys do not occur. -/
def toyHyb : HybEnv UInt8 UInt8 where
  toPopEnv := toyPop
  encProt r _ l := r ++ l.flatMap (fun i => i.value)
  encCrl r l := r ++ l.flatMap (fun e => e.value)
  isComposite _ := false
  certClass _ := .trad
  compositeKey _ _ := .error .valueError
  related _ _ := .error .valueError
  siaDesc _ := .error .valueError
  fetch _ := .error .valueError
  sunKey _ := .ok none
  deltaSpki _ := .error .valueError
  pqPart k := .ok k

/-- The sender's certificate: key 7, alternative key 60. -/
def toySender : Cert :=
  ⟨⟨[], 1, ⟨[1], none⟩, [40], ⟨[1], [2], none⟩, [51], [7], [⟨altSpkiOid, false, [60]⟩]⟩, ⟨[1], none⟩, []⟩
def toyMsg : HMsg := ⟨[3, 3], none, [⟨[1, 2], [5]⟩], none, [toySender]⟩
def okH (x : Except PyErr HMsg) : HMsg :=
  match x with
  | .ok m => m
  | .error _ => toyMsg

/-- Protected with the keys 7 and 60. -/
def toyProt : HMsg := okH (protectCat toyHyb toyMsg 7 60 false none false false)

example : protectCat toyHyb toyMsg 7 60 false none false false = .ok toyProt := by decide +kernel
example : verifyHybrid toyHyb toyProt none true = (.ok (), { toyProt with info := noSig toyProt.info }) :=
  C130_round_trip toyHyb toyPop_faithful toyMsg toyProt 7 60 false none false none true toySender [] (by decide +kernel)
    (by decide) rfl rfl (Or.inr (by decide +kernel))
example : toyProt.info.length = 3 := by decide +kernel
example : (verifyHybrid toyHyb (okH (protectCat toyHyb toyMsg 7 60 false none false true)) none true).1 =
    .error .invalidAltSignature := by decide +kernel

/-- The alternative key of the sender's certificate is not used if the header has one: whoever has the first key can
add an alternative signature of any key. -/
theorem C130_alt_key_refuted :
    ¬ ∀ (env : HybEnv UInt8 UInt8), PopFaithful env.toPopEnv → ∀ (m : HMsg) (c : Cert) (cs : List Cert) (k : UInt8),
      m.certs = c :: cs → mayAltKey env c (some cs) = .ok (some k) → (verifyHybrid env m none true).1 = .ok () →
      ∃ aa s, env.verifyAlg k aa (env.encProt m.rest m.protAlg (noSig m.info)) s = .ok () ∧
        ∃ i r, LastInfo m.info [2, 5, 29, 74] i ∧ env.decBits i.value = some (s, r) := by
  intro h
  let m := okH (protectCat toyHyb toyMsg 7 77 true none false false)
  obtain ⟨aa, s, hv, i, r, ⟨pre, post, hl, -, hpost⟩, hd⟩ := h toyHyb toyPop_faithful m toySender [] 60
    (by decide +kernel) (by decide +kernel) (by decide +kernel)
  have hinfo : m.info = [⟨[1, 2], [5]⟩, ⟨altAlgOid, [7]⟩, ⟨altSpkiOid, [77]⟩] ++
      [⟨[2, 5, 29, 74], [77, 3, 3, 5, 7, 77]⟩] := by decide +kernel
  have hi : i = ⟨[2, 5, 29, 74], [77, 3, 3, 5, 7, 77]⟩ := by
    rw [hinfo] at hl
    rcases List.eq_nil_or_concat post with rfl | ⟨q, y, rfl⟩
    · exact (List.cons.inj (List.append_inj_right' hl rfl)).1.symm
    · rw [List.concat_eq_append, ← List.cons_append, ← List.append_assoc] at hl
      have hy := (List.cons.inj (List.append_inj_right' hl rfl)).1
      exact absurd (by rw [← hy]) (hpost y (by simp))
  rw [hi] at hd
  have hs : s = [77, 3, 3, 5, 7, 77] := by
    have hd : (some ([77, 3, 3, 5, 7, 77], []) : Option (Bytes × Bytes)) = some (s, r) := hd
    injection hd with hd
    injection hd with hd _
    exact hd.symm
  rw [hs] at hv
  have hv : (if ([77, 3, 3, 5, 7, 77] : Bytes) = 60 :: toyHyb.encProt m.rest m.protAlg (noSig m.info) then Except.ok ()
    else Except.error PyErr.invalidSignature) = Except.ok () := hv
  rw [if_neg] at hv
  · cases hv
  · intro hx
    exact absurd (List.cons.inj hx).1 (by decide)

/-- Verifying a message takes the alternative signature out of it, so that the same check of the same message fails the
next time (the endpoint for multiple authentication checks twice). -/
theorem C130_twice_refuted :
    ¬ ∀ (env : HybEnv UInt8 UInt8), PopFaithful env.toPopEnv → ∀ (m : HMsg),
      (verifyHybrid env m none false).1 = .ok () →
      (verifyHybrid env (verifyHybrid env m none false).2 none false).1 = .ok () := by
  intro h
  have := h toyHyb toyPop_faithful toyProt (by decide +kernel)
  exact absurd this (by decide +kernel)

/-- Without an alternative signature the message is unchanged, and it is accepted again. -/
theorem C130_twice_partial (env : HybEnv S K) (m : HMsg) (key : Option K) (must : Bool)
    (hno : ∀ x ∈ m.info, x.oid ≠ [2, 5, 29, 74]) (h : (verifyHybrid env m key must).1 = .ok ()) :
    (verifyHybrid env (verifyHybrid env m key must).2 key must).1 = .ok () := by
  have : (verifyHybrid env m key must).2 = m := by
    rcases C130_state env m key must with hs | hs
    · exact hs
    · rw [hs]
      have : noSig m.info = m.info := by
        unfold noSig
        rw [List.filter_eq_self]
        intro x hx
        exact decide_eq_true (hno x hx)
      rw [this]
  rw [this]
  exact h

/-- A given public key is not used: a message that this key did not sign is accepted, with the key of the certificate
that the message brings. -/
theorem C130_given_key_refuted :
    ¬ ∀ (env : HybEnv UInt8 UInt8), PopFaithful env.toPopEnv → ∀ (m : HMsg) (k : UInt8) (a : Alg) (sig : Bytes),
      m.protAlg = some a → m.prot = some sig → (verifyHybrid env m (some k) false).1 = .ok () →
      env.verifyAlg k a (env.encProt m.rest m.protAlg m.info) sig = .ok () := by
  intro h
  have h1 := h toyHyb toyPop_faithful ⟨[3], some ⟨[1], none⟩, [], some [7, 3], [toySender]⟩ 9 ⟨[1], none⟩ [7, 3] rfl rfl
    (by decide +kernel)
  exact absurd h1 (by decide +kernel)

/-- A sender's certificate whose alternative key makes a composite signature possible. -/
def toyCompMsg : HMsg := ⟨[3], some ⟨[9], none⟩, [], some [60, 7, 3], [toySender]⟩

/-- `must_be_catalyst_signed` has no effect on messages with a composite signature. -/
theorem C130_must_refuted :
    ¬ ∀ (env : HybEnv UInt8 UInt8), PopFaithful env.toPopEnv → ∀ (m : HMsg),
      (verifyHybrid env m none true).1 = .ok () → ∃ x ∈ m.info, x.oid = [2, 5, 29, 74] := by
  intro h
  obtain ⟨x, hx, -⟩ := h toyHyb toyPop_faithful toyCompMsg (by decide +kernel)
  cases hx

/-- With a single protection algorithm it has. -/
theorem C130_must_partial (env : HybEnv S K) (m : HMsg) (key : Option K) (a : Alg) (ha : m.protAlg = some a)
    (hc : env.isCompositeOid a.oid = false) (h : (verifyHybrid env m key true).1 = .ok ()) :
    ∃ x ∈ m.info, x.oid = [2, 5, 29, 74] := by
  obtain ⟨_, _, _, _, -, -, -, -, h5⟩ := C130_sound env m key true a ha hc h
  rcases h5 with ⟨h5, -⟩ | ⟨_, is, _, _, _, _, _, -, -, ⟨pre, post, hl, ho, -⟩, -⟩
  · cases h5
  · exact ⟨is, by rw [hl]; simp, ho⟩

/-- A composite protection is accepted only if a composite key (given, or in the certificate) verifies it, or the two
keys of a certificate with a traditional key do. -/
theorem C130_composite_sound (env : HybEnv S K) (m : HMsg) (key : Option K) (must : Bool) (a : Alg)
    (ha : m.protAlg = some a) (hc : env.isCompositeOid a.oid = true)
    (h : (verifyHybrid env m key must).1 = .ok ()) :
    ∃ sig, m.prot = some sig ∧
      ((∃ k, key = some k ∧ env.isComposite k = true ∧
          env.verifyAlg k a (env.encProt m.rest (some a) m.info) sig = .ok ()) ∨
       ∃ c cs k, m.certs = c :: cs ∧ env.loadKey c.tbs.spki = .ok k ∧
        ((env.certClass c.tbs.spki = .composite ∧
            env.verifyAlg k a (env.encProt m.rest (some a) m.info) sig = .ok ()) ∨
         (env.certClass c.tbs.spki = .trad ∧ ∃ k', mayAltKey env c (some cs) = .ok (some k') ∧
            (env.compVerify k' k a (env.encProt m.rest (some a) m.info) sig = .ok () ∨
             env.compVerify k k' a (env.encProt m.rest (some a) m.info) sig = .ok ())))) := by
  unfold verifyHybrid at h
  rw [ha] at h; dsimp only at h
  cases hp : m.prot with
  | none => rw [hp] at h; cases h
  | some sig =>
    refine ⟨sig, rfl, ?_⟩
    rw [hp] at h; dsimp only at h
    by_cases hx : m.certs = [] ∧ key = none
    · rw [if_pos hx] at h; cases h
    · rw [if_neg hx, if_pos hc] at h
      cases hk : key.filter env.isComposite with
      | some k =>
        rw [hk] at h
        obtain ⟨k1, k2⟩ := Option.filter_eq_some_iff.1 hk
        exact Or.inl ⟨k, k1, k2, h⟩
      | none =>
        rw [hk] at h; dsimp only at h
        refine Or.inr ?_
        cases hcs : m.certs with
        | nil => rw [hcs] at h; cases h
        | cons c cs =>
          rw [hcs] at h; dsimp only at h
          unfold verifyHybridCert at h
          rw [if_neg (by rw [hc]; decide)] at h
          cases hcl : env.certClass c.tbs.spki with
          | pq => rw [hcl] at h; cases h
          | other => rw [hcl] at h; cases h
          | composite =>
            rw [hcl] at h; dsimp only at h
            cases hl : env.loadKey c.tbs.spki with
            | error e => rw [hl] at h; cases h
            | ok k =>
              rw [hl] at h; dsimp only at h
              cases hv : ensureVerify env.toCatEnv k with
              | error e => rw [hv] at h; cases h
              | ok k0 =>
                obtain ⟨rfl, -⟩ := ensureVerify_ok _ _ _ hv
                rw [hv] at h
                exact ⟨c, cs, k0, rfl, hl, Or.inl ⟨hcl, h⟩⟩
          | trad =>
            rw [hcl] at h; dsimp only at h
            unfold verifyWithOther at h
            rw [if_neg (by rw [hc]; decide)] at h
            cases hma : mayAltKey env c (some cs) with
            | error e => rw [hma] at h; cases h
            | ok o =>
              rw [hma] at h
              cases o with
              | none => cases h
              | some k' =>
                dsimp only at h
                cases hl : env.loadKey c.tbs.spki with
                | error e => rw [hl] at h; cases h
                | ok k =>
                  rw [hl] at h; dsimp only at h
                  refine ⟨c, cs, k, rfl, hl, Or.inr ⟨hcl, k', hma, ?_⟩⟩
                  unfold verifyComposite at h
                  by_cases hq : env.isPqSig k' = true
                  · simp only [if_pos hq] at h
                    split at h
                    · cases h
                    · split at h
                      · cases h
                      · split at h
                        · cases h
                        · exact Or.inl h
                  · simp only [if_neg hq] at h
                    split at h
                    · cases h
                    · split at h
                      · cases h
                      · split at h
                        · cases h
                        · exact Or.inr h

example : (verifyHybrid toyHyb toyCompMsg none false).1 = .ok () := by decide +kernel

end Verif.Hybrid
