import Verif.Hybrid.Catalyst

/-!
# Properties of catalyst certificates (C127)

The statements use `Faithful`, which says what the codecs and the signature schemes do, and the fields of a
certificate.
-/

namespace Verif.Hybrid

open Verif.CA

variable {S K : Type}

/-- The codecs are inverse on what the signer writes, a key is read back from its encoding, and a signature verifies
under the public key of the signer, both with the hash that the algorithm identifier names and with the identifier. -/
structure Faithful (env : CatEnv S K) : Prop where
  alg : ∀ s h p a, env.prepAlg s h p = .ok a → env.decAlg (env.encAlg a) = some (a, [])
  bits : ∀ b, env.decBits (env.encBits b) = some (b, [])
  spki : ∀ k, ∃ b, env.decSpki (env.spkiOf k) = some (b, []) ∧ env.loadKey b = .ok k
  verifier : ∀ s h p a, env.prepAlg s h p = .ok a → env.isVerifyKey (env.pub s) = true
  hash : ∀ s h p a d sig, env.prepAlg s h p = .ok a → env.sign s h false d = .ok sig →
    ∃ h', env.hashOf a.oid = .ok h' ∧ env.verify (env.pub s) h' d sig = .ok ()
  algSig : ∀ s h p a d sig, env.prepAlg s h p = .ok a → env.sign s h p d = .ok sig →
    env.verifyAlg (env.pub s) a d sig = .ok ()

/-- The last extension with an OID in a list (what a later entry of a Python dictionary leaves). -/
def LastExt (l : List Ext) (o : Oid) (e : Ext) : Prop :=
  ∃ pre post, l = pre ++ e :: post ∧ e.oid = o ∧ ∀ x ∈ post, x.oid ≠ o

theorem getExt_some_split (l : List Ext) (o : Oid) (e : Ext) (h : getExt l o = some e) :
    ∃ pre post, l = pre ++ e :: post ∧ e.oid = o ∧ ∀ x ∈ pre, x.oid ≠ o := by
  induction l with
  | nil => cases h
  | cons x l ih =>
    unfold getExt at h ih
    rw [List.find?_cons] at h
    by_cases hx : x.oid = o
    · rw [decide_eq_true hx] at h
      cases h
      exact ⟨[], l, rfl, hx, by simp⟩
    · rw [decide_eq_false hx] at h
      obtain ⟨p, q, h1, h2, h3⟩ := ih h
      refine ⟨x :: p, q, by rw [h1]; rfl, h2, ?_⟩
      intro y hy
      rcases List.mem_cons.1 hy with rfl | hy
      · exact hx
      · exact h3 y hy

theorem getExt_split (pre post : List Ext) (e : Ext) (h : ∀ x ∈ pre, x.oid ≠ e.oid) :
    getExt (pre ++ e :: post) e.oid = some e := by
  induction pre with
  | nil => simp [getExt]
  | cons x pre ih =>
    have hx := h x (List.mem_cons_self)
    have := ih (fun y hy => h y (List.mem_cons_of_mem _ hy))
    unfold getExt at this ⊢
    rw [List.cons_append, List.find?_cons, decide_eq_false hx]
    exact this

theorem getExt_none_iff (l : List Ext) (o : Oid) : getExt l o = none ↔ ∀ x ∈ l, x.oid ≠ o := by
  unfold getExt
  rw [List.find?_eq_none]
  constructor
  · intro h x hx hc
    exact h x hx (decide_eq_true hc)
  · intro h x hx hc
    exact h x hx (of_decide_eq_true hc)

theorem extMap_some_iff (l : List Ext) (o : Oid) (e : Ext) : extMap l o = some e ↔ LastExt l o e := by
  constructor
  · intro h
    obtain ⟨p, q, h1, h2, h3⟩ := getExt_some_split _ _ _ h
    refine ⟨q.reverse, p.reverse, ?_, h2, ?_⟩
    · have := congrArg List.reverse h1
      rw [List.reverse_reverse] at this
      rw [this]; simp
    · intro x hx
      exact h3 x (List.mem_reverse.1 hx)
  · rintro ⟨p, q, rfl, rfl, h3⟩
    unfold extMap
    rw [List.reverse_append, List.reverse_cons, List.append_assoc]
    exact getExt_split _ _ _ (fun x hx => h3 x (List.mem_reverse.1 hx))

theorem extMap_none_iff (l : List Ext) (o : Oid) : extMap l o = none ↔ ∀ x ∈ l, x.oid ≠ o := by
  unfold extMap
  rw [getExt_none_iff]
  constructor
  · intro h x hx; exact h x (List.mem_reverse.2 hx)
  · intro h x hx; exact h x (List.mem_reverse.1 hx)

/-! ## C127: all three extensions or none -/

/-- The check says "not a catalyst certificate" exactly when none of the three extensions is present. -/
theorem C127_none_iff (env : CatEnv S K) (l : List Ext) (must : SigMust) :
    validateCat env l must = .ok none ↔
      ∀ x ∈ l, x.oid ≠ altSpkiOid ∧ x.oid ≠ altAlgOid ∧ x.oid ≠ altSigOid := by
  have h1 := extMap_none_iff l altSpkiOid
  have h2 := extMap_none_iff l altAlgOid
  have h3 := extMap_none_iff l altSigOid
  unfold validateCat
  cases hk : extMap l altSpkiOid <;> cases ha : extMap l altAlgOid <;> cases hs : extMap l altSigOid <;>
    rw [hk] at h1 <;> rw [ha] at h2 <;> rw [hs] at h3 <;> dsimp only
  case none.none.none =>
    refine ⟨fun _ x hx => ⟨h1.1 rfl x hx, h2.1 rfl x hx, h3.1 rfl x hx⟩, fun _ => rfl⟩
  case some.some.some k a s =>
    constructor
    · intro h
      cases hd : decodeCat env k.value a.value s.value must <;> rw [hd] at h <;> cases h
    · intro h
      exact absurd (h1.2 fun x hx => (h x hx).1) (Option.some_ne_none _)
  all_goals
    constructor
    · intro h; cases h
    · intro h
      first
        | exact absurd (h1.2 fun x hx => (h x hx).1) (Option.some_ne_none _)
        | exact absurd (h2.2 fun x hx => (h x hx).2.1) (Option.some_ne_none _)
        | exact absurd (h3.2 fun x hx => (h x hx).2.2) (Option.some_ne_none _)

/-- If the check returns values, all three extensions are present, and the values are those of the last extension of
each OID; the signature algorithm is the one asked for. -/
theorem C127_all_present (env : CatEnv S K) (l : List Ext) (must : SigMust) (v : CatVals)
    (h : validateCat env l must = .ok (some v)) :
    ∃ k a s r r', LastExt l altSpkiOid k ∧ LastExt l altAlgOid a ∧ LastExt l altSigOid s ∧
      env.decSpki k.value = some (v.spki, r) ∧ env.decAlg a.value = some (v.alg, r') ∧
      env.decBits s.value = some (v.sig, []) ∧
      (∀ o, must = .oid o → v.alg.oid = o) ∧ (∀ n, must = .name n → env.pqOid n = some v.alg.oid) := by
  unfold validateCat at h
  cases hk : extMap l altSpkiOid <;> cases ha : extMap l altAlgOid <;> cases hs : extMap l altSigOid <;>
    rw [hk, ha, hs] at h <;> dsimp only at h
  case some.some.some k a s =>
    cases hd : decodeCat env k.value a.value s.value must with
    | error e => rw [hd] at h; cases h
    | ok w =>
      rw [hd] at h
      cases h
      unfold decodeCat at hd
      cases h1 : env.decSpki k.value with
      | none => rw [h1] at hd; cases hd
      | some p =>
        rw [h1] at hd; dsimp only at hd
        cases h2 : env.decAlg a.value with
        | none => rw [h2] at hd; cases hd
        | some q =>
          rw [h2] at hd; dsimp only at hd
          cases h3 : env.decBits s.value with
          | none => rw [h3] at hd; cases hd
          | some t =>
            rw [h3] at hd; dsimp only at hd
            by_cases hr : t.2 ≠ []
            · rw [if_pos hr] at hd; cases hd
            · rw [if_neg hr] at hd
              cases h4 : checkMust env q.1 must with
              | error e => rw [h4] at hd; cases hd
              | ok u =>
                rw [h4] at hd
                cases hd
                have hr : t.2 = [] := Decidable.not_not.1 hr
                refine ⟨k, a, s, p.2, q.2, (extMap_some_iff _ _ _).1 hk, (extMap_some_iff _ _ _).1 ha,
                  (extMap_some_iff _ _ _).1 hs, h1, h2, ?_, ?_, ?_⟩
                · rw [h3, ← hr]
                · rintro o rfl
                  unfold checkMust at h4
                  dsimp only at h4
                  by_cases ho : q.1.oid ≠ o
                  · rw [if_pos ho] at h4; cases h4
                  · exact Decidable.not_not.1 ho
                · rintro n rfl
                  unfold checkMust at h4
                  dsimp only at h4
                  cases hp : env.pqOid n with
                  | none => rw [hp] at h4; cases h4
                  | some o =>
                    rw [hp] at h4; dsimp only at h4
                    by_cases ho : o ≠ q.1.oid
                    · rw [if_pos ho] at h4; cases h4
                    · rw [Decidable.not_not.1 ho]
  all_goals cases h

/-! ## C127: what the alternative signature covers -/

/-- With an injective encoding, two certificates have the same data for the alternative signature exactly when they
agree in every field but the signature algorithm, and in every extension but `altSignatureValue`. -/
theorem C127_covers (env : CatEnv S K) (hinj : Function.Injective env.encPre) (t u : Tbs) :
    altData env t = altData env u ↔
      t.other = u.other ∧ t.serial = u.serial ∧ t.issuer = u.issuer ∧ t.validity = u.validity ∧
      t.subject = u.subject ∧ t.spki = u.spki ∧
      t.exts.filter (fun x => decide (x.oid ≠ [2, 5, 29, 74])) =
        u.exts.filter (fun x => decide (x.oid ≠ [2, 5, 29, 74])) := by
  unfold altData
  constructor
  · intro h
    have := hinj h
    unfold preTbs at this
    injection this with a b c d e f g
    exact ⟨a, b, c, d, e, f, g⟩
  · rintro ⟨a, b, c, d, e, f, g⟩
    unfold preTbs altSigOid
    rw [a, b, c, d, e, f, g]

/-! ## C127: verification -/

/-- What an accepted catalyst certificate has shown: the traditional signature over the whole certificate is good
under the issuer's key, and the alternative signature over the certificate without `altSignatureValue` is good under
the key of the last `subjectAltPublicKeyInfo` extension of the certificate itself. -/
theorem C127_verify_sound (env : CatEnv S K) (c : Cert) (issuer : Option Cert) (key : Option K) (must : SigMust)
    (h : verifyCat env c issuer key must = .ok ()) :
    (∃ k, (∀ i, issuer = some i → env.loadKey i.tbs.spki = .ok k) ∧
      (issuer = none → ∀ k', key = some k' → k = k') ∧
      (issuer = none → key = none → env.loadKey c.tbs.spki = .ok k) ∧
      env.isVerifyKey k = true ∧ env.verifyAlg k c.tbs.alg (env.encTbs c.tbs) c.sig = .ok ()) ∧
    ∃ ke ae se b r a r' sig alt hsh, LastExt c.tbs.exts altSpkiOid ke ∧ LastExt c.tbs.exts altAlgOid ae ∧
      LastExt c.tbs.exts altSigOid se ∧ env.decSpki ke.value = some (b, r) ∧ env.decAlg ae.value = some (a, r') ∧
      env.decBits se.value = some (sig, []) ∧ env.loadKey b = .ok alt ∧ env.isVerifyKey alt = true ∧
      env.hashOf a.oid = .ok hsh ∧ env.verify alt hsh (altData env c.tbs) sig = .ok () := by
  unfold verifyCat at h
  cases hv : validateCat env c.tbs.exts must with
  | error e => rw [hv] at h; cases h
  | ok o =>
    cases o with
    | none => rw [hv] at h; cases h
    | some v =>
      rw [hv] at h; dsimp only at h
      cases hk : issuerKey env c issuer key with
      | error e => rw [hk] at h; cases h
      | ok k =>
        rw [hk] at h; dsimp only at h
        cases hs : verifyCertSig env c k with
        | error e => rw [hs] at h; cases h
        | ok u =>
          rw [hs] at h; dsimp only at h
          constructor
          · refine ⟨k, ?_, ?_, ?_, ?_⟩
            · rintro i rfl; exact hk
            · rintro rfl k' rfl
              exact (Except.ok.inj hk).symm
            · rintro rfl rfl; exact hk
            · unfold verifyCertSig ensureVerify at hs
              by_cases hb : env.isVerifyKey k = true
              · rw [if_pos hb] at hs
                exact ⟨hb, hs⟩
              · rw [if_neg hb] at hs; cases hs
          · obtain ⟨ke, ae, se, r, r', l1, l2, l3, d1, d2, d3, -, -⟩ := C127_all_present env _ _ _ hv
            unfold catVerifyAlt at h
            cases hl : env.loadKey v.spki with
            | error e => rw [hl] at h; cases h
            | ok alt =>
              rw [hl] at h; dsimp only at h
              cases hh : env.hashOf v.alg.oid with
              | error e => rw [hh] at h; cases h
              | ok hsh =>
                rw [hh] at h; dsimp only at h
                unfold ensureVerify at h
                by_cases hb : env.isVerifyKey alt = true
                · rw [if_pos hb] at h
                  exact ⟨ke, ae, se, _, r, _, r', _, alt, hsh, l1, l2, l3, d1, d2, d3, hl, hb, hh, h⟩
                · rw [if_neg hb] at h; cases h

/-! ## C127: signing -/

/-- What `sign_cert_catalyst` returns: the input with the algorithm and three extensions more, the last ones. -/
theorem signCat_ok (env : CatEnv S K) (t : Tbs) (pq trad : S) (o : CatOpts) (c : Cert)
    (h : signCat env t pq trad o = .ok c) :
    ∃ aa ta s s', env.prepAlg pq o.pqHash o.pss = .ok aa ∧ env.prepAlg trad o.hash o.pss = .ok ta ∧
      env.sign pq o.pqHash false (altData env (catPrepared env t pq ta aa o.critical)) = .ok s ∧
      catManip o.badAlt s = .ok s' ∧
      c.tbs = { t with alg := ta, exts := t.exts ++
        [altAlgExt env aa o.critical, altSpkiExt env (env.pub pq) o.critical, altSigExt env s' o.critical] } ∧
      c.alg = ta ∧ env.sign trad o.hash o.pss (env.encTbs c.tbs) = .ok c.sig := by
  unfold signCat at h
  cases h1 : env.prepAlg pq o.pqHash o.pss with
  | error e => rw [h1] at h; cases h
  | ok aa =>
    rw [h1] at h; dsimp only at h
    cases h2 : env.prepAlg trad o.hash o.pss with
    | error e => rw [h2] at h; cases h
    | ok ta =>
      rw [h2] at h; dsimp only at h
      cases h3 : env.sign pq o.pqHash false (altData env (catPrepared env t pq ta aa o.critical)) with
      | error e => rw [h3] at h; cases h
      | ok s =>
        rw [h3] at h; dsimp only at h
        cases h4 : catManip o.badAlt s with
        | error e => rw [h4] at h; cases h
        | ok s' =>
          rw [h4] at h; dsimp only at h
          unfold catSignCert at h
          rw [h2] at h; dsimp only at h
          have e : ({ catPrepared env t pq ta aa o.critical with
              exts := (catPrepared env t pq ta aa o.critical).exts ++ [altSigExt env s' o.critical],
              alg := ta } : Tbs) = { t with alg := ta, exts := t.exts ++
        [altAlgExt env aa o.critical, altSpkiExt env (env.pub pq) o.critical, altSigExt env s' o.critical] } := by
            unfold catPrepared
            simp
          cases h5 : env.sign trad o.hash o.pss (env.encTbs { catPrepared env t pq ta aa o.critical with
              exts := (catPrepared env t pq ta aa o.critical).exts ++ [altSigExt env s' o.critical],
              alg := ta }) with
          | error e => rw [h5] at h; cases h
          | ok sg =>
            rw [h5] at h
            cases h
            refine ⟨aa, ta, s, s', rfl, rfl, h3, h4, e, rfl, h5⟩

/-- The data under the alternative signature does not depend on the `altSignatureValue` extension that is added. -/
theorem altData_prepared (env : CatEnv S K) (t : Tbs) (pq : S) (ta ta' aa : Alg) (crit : Bool) (s : Bytes) :
    altData env { t with alg := ta', exts := t.exts ++
      [altAlgExt env aa crit, altSpkiExt env (env.pub pq) crit, altSigExt env s crit] } =
    altData env (catPrepared env t pq ta aa crit) := by
  unfold altData preTbs catPrepared
  dsimp only
  congr 2
  rw [List.filter_append, List.filter_append]
  congr 1

/-- A certificate that `sign_cert_catalyst` made, whatever the certificate it started from, is accepted against the
issuer with the traditional key, if no wrong signature was asked for. -/
theorem C127_sign_verify (env : CatEnv S K) (hf : Faithful env) (t : Tbs) (pq trad : S) (o : CatOpts) (c : Cert)
    (h : signCat env t pq trad o = .ok c) (hb : o.badAlt = false) (issuer : Cert)
    (hi : env.loadKey issuer.tbs.spki = .ok (env.pub trad)) :
    verifyCat env c (some issuer) none .any = .ok () := by
  obtain ⟨aa, ta, s, s', h1, h2, h3, h4, h5, h6, h7⟩ := signCat_ok env t pq trad o c h
  rw [hb] at h4
  cases h4
  obtain ⟨kb, hk1, hk2⟩ := hf.spki (env.pub pq)
  obtain ⟨h', hh1, hh2⟩ := hf.hash _ _ _ _ _ _ h1 h3
  have hx : c.tbs.exts = t.exts ++
      [altAlgExt env aa o.critical, altSpkiExt env (env.pub pq) o.critical, altSigExt env s o.critical] := by
    rw [h5]
  have e1 : extMap c.tbs.exts altSpkiOid = some (altSpkiExt env (env.pub pq) o.critical) := by
    rw [extMap_some_iff, hx]
    refine ⟨t.exts ++ [altAlgExt env aa o.critical], [altSigExt env s o.critical], by simp, rfl, ?_⟩
    intro x hx
    rw [List.mem_singleton.1 hx]
    exact (by decide : altSigOid ≠ altSpkiOid)
  have e2 : extMap c.tbs.exts altAlgOid = some (altAlgExt env aa o.critical) := by
    rw [extMap_some_iff, hx]
    refine ⟨t.exts, [altSpkiExt env (env.pub pq) o.critical, altSigExt env s o.critical], by simp, rfl, ?_⟩
    intro x hx
    rcases List.mem_cons.1 hx with rfl | hx
    · exact (by decide : altSpkiOid ≠ altAlgOid)
    · rw [List.mem_singleton.1 hx]
      exact (by decide : altSigOid ≠ altAlgOid)
  have e3 : extMap c.tbs.exts altSigOid = some (altSigExt env s o.critical) := by
    rw [extMap_some_iff, hx]
    exact ⟨t.exts ++ [altAlgExt env aa o.critical, altSpkiExt env (env.pub pq) o.critical], [], by simp, rfl, by simp⟩
  have hv : validateCat env c.tbs.exts .any = .ok (some ⟨s, kb, aa⟩) := by
    unfold validateCat
    rw [e1, e2, e3]
    dsimp only
    unfold decodeCat
    simp only [altSpkiExt, altAlgExt, altSigExt]
    rw [hk1, hf.alg _ _ _ _ h1, hf.bits]
    rfl
  have hd : altData env c.tbs = altData env (catPrepared env t pq ta aa o.critical) := by
    rw [h5]; exact altData_prepared env t pq ta ta aa o.critical s
  have ht : env.verifyAlg (env.pub trad) c.tbs.alg (env.encTbs c.tbs) c.sig = .ok () := by
    have : c.tbs.alg = ta := by rw [h5]
    rw [this]
    exact hf.algSig _ _ _ _ _ _ h2 h7
  unfold verifyCat
  rw [hv]
  dsimp only
  have : issuerKey env c (some issuer) none = .ok (env.pub trad) := hi
  rw [this]
  dsimp only
  have : verifyCertSig env c (env.pub trad) = .ok () := by
    unfold verifyCertSig ensureVerify
    rw [if_pos (hf.verifier _ _ _ _ h2)]
    exact ht
  rw [this]
  dsimp only
  unfold catVerifyAlt
  dsimp only
  rw [hk2]
  dsimp only
  rw [hh1]
  dsimp only
  unfold ensureVerify
  rw [if_pos (hf.verifier _ _ _ _ h1)]
  dsimp only
  rw [hd]
  exact hh2

/-! ## A toy instance -/

/-- Keys are bytes, a signature is the key followed by the data, every codec is the identity. -/
def toyCat : CatEnv UInt8 UInt8 where
  encTbs t := t.subject ++ t.spki ++ t.exts.flatMap (fun e => e.value)
  encPre p := p.subject ++ p.spki ++ p.exts.flatMap (fun e => e.value)
  encAlg _ := [7]
  decAlg b := if b = [7] then some (⟨[1], none⟩, []) else none
  encBits b := b
  decBits b := some (b, [])
  decSpki b := some (b, [])
  spkiOf k := [k]
  loadKey b := match b with
    | [k] => .ok k
    | _ => .error .invalidKeyData
  isVerifyKey _ := true
  pub s := s
  prepAlg _ _ _ := .ok ⟨[1], none⟩
  sign s _ _ d := .ok (s :: d)
  verify k _ d sig := if sig = k :: d then .ok () else .error .invalidSignature
  verifyAlg k _ d sig := if sig = k :: d then .ok () else .error .invalidSignature
  hashOf _ := .ok none
  pqOid n := if n = "ml-dsa-44" then some [1] else none

theorem toyCat_faithful : Faithful toyCat where
  alg := by
    intro s h p a ha
    cases ha
    rfl
  bits := fun _ => rfl
  spki := fun k => ⟨[k], rfl, rfl⟩
  verifier := fun _ _ _ _ _ => rfl
  hash := by
    intro s h p a d sig _ hs
    cases hs
    exact ⟨none, rfl, if_pos rfl⟩
  algSig := by
    intro s h p a d sig _ hs
    cases hs
    exact if_pos rfl

/-- A certificate body of subject 50 with key 9. -/
def toyTbs : Tbs := ⟨[], 5, ⟨[], none⟩, [40], ⟨[1], [2], none⟩, [50], [9], [⟨[2, 5, 29, 15], true, [3]⟩]⟩
def toyOpts : CatOpts := ⟨none, some "sha256", false, false, false⟩
/-- The issuer: traditional key 20, alternative key 21. -/
def toyIssuer : Cert := ⟨⟨[], 1, ⟨[1], none⟩, [40], ⟨[1], [2], none⟩, [40], [20], [⟨altSpkiOid, false, [21]⟩]⟩, ⟨[1], none⟩, []⟩
/-- A certificate signed with the traditional key 20 of the issuer and some alternative key 66. -/
def toyForged : Cert :=
  match signCat toyCat toyTbs 66 20 toyOpts with
  | .ok c => c
  | .error _ => toyIssuer

example : signCat toyCat toyTbs 66 20 toyOpts = .ok toyForged := by decide +kernel
example : toyForged.tbs.exts.length = 4 := by decide +kernel
example : verifyCat toyCat toyForged (some toyIssuer) none .any = .ok () :=
  C127_sign_verify toyCat toyCat_faithful toyTbs 66 20 toyOpts toyForged (by decide +kernel) rfl toyIssuer rfl
example : verifyCat toyCat toyForged (some toyIssuer) none (.name "ml-dsa-44") = .ok () := by decide +kernel
example : verifyCat toyCat toyForged (some toyIssuer) none (.oid [2]) = .error .badAlg := by decide +kernel
/-- Another serial number is noticed only if the encoding shows it; another subject is. -/
example : verifyCat toyCat { toyForged with tbs := { toyForged.tbs with subject := [51] } } (some toyIssuer) none .any
    = .error .invalidSignature := by decide +kernel
example : validateCat toyCat toyTbs.exts .any = .ok none := (C127_none_iff toyCat _ _).2 (by decide +kernel)
example : validateCat toyCat [⟨altSpkiOid, false, [1]⟩] .any = .error .valueError := by decide +kernel

/-- The alternative signature does not show that the issuer's alternative key was used: a certificate with an
alternative signature of any other key is accepted, though the issuer certificate carries its alternative key and
this key rejects the signature. Whoever can make the traditional signature needs nothing else. -/
theorem C127_issuer_alt_key_refuted :
    ¬ ∀ (env : CatEnv UInt8 UInt8), Faithful env → ∀ (c issuer : Cert) (v : CatVals) (k : UInt8),
      verifyCat env c (some issuer) none .any = .ok () → validateCat env c.tbs.exts .any = .ok (some v) →
      loadCat env issuer.tbs.exts = .ok k → ∃ h, env.verify k h (altData env c.tbs) v.sig = .ok () := by
  intro h
  obtain ⟨hh, hv⟩ := h toyCat toyCat_faithful toyForged toyIssuer
    ⟨66 :: altData toyCat toyForged.tbs, [66], ⟨[1], none⟩⟩ 21 (by decide +kernel) (by decide +kernel)
    (by decide +kernel)
  have hn : (if (66 :: altData toyCat toyForged.tbs : Bytes) = 21 :: altData toyCat toyForged.tbs then Except.ok ()
    else Except.error PyErr.invalidSignature) = Except.ok () := hv
  have : ¬ (66 :: altData toyCat toyForged.tbs : Bytes) = 21 :: altData toyCat toyForged.tbs := by decide +kernel
  rw [if_neg this] at hn
  cases hn

/-! ## C127: the alternative key of a certificate -/

/-- If a certificate has one `subjectAltPublicKeyInfo` extension with nothing after the key, the key that
`load_catalyst_public_key` returns is the one the alternative signature was checked with. -/
theorem C127_loaded_key_partial (env : CatEnv S K) (l : List Ext) (must : SigMust) (v : CatVals) (k : K)
    (h : validateCat env l must = .ok (some v)) (hl : loadCat env l = .ok k)
    (hu : ∀ x ∈ l, ∀ y ∈ l, x.oid = altSpkiOid → y.oid = altSpkiOid → x = y) :
    env.loadKey v.spki = .ok k := by
  obtain ⟨ke, ae, se, r, r', ⟨p, q, hp, ho, -⟩, -, -, d1, -⟩ := C127_all_present env _ _ _ h
  unfold loadCat at hl
  cases hg : getExt l altSpkiOid with
  | none => rw [hg] at hl; cases hl
  | some e =>
    rw [hg] at hl; dsimp only at hl
    obtain ⟨p', q', hp', ho', -⟩ := getExt_some_split _ _ _ hg
    have he : e = ke := hu e (by rw [hp']; simp) ke (by rw [hp]; simp) ho' ho
    rw [he, d1] at hl; dsimp only at hl
    by_cases hr : r ≠ []
    · rw [if_pos hr] at hl; cases hl
    · rw [if_neg hr] at hl; exact hl

/-- With two such extensions they differ: the first is loaded, the last is used for the check. -/
theorem C127_loaded_key_refuted :
    ¬ ∀ (env : CatEnv UInt8 UInt8), Faithful env → ∀ (c : Cert) (issuer : Cert) (v : CatVals) (k : UInt8),
      verifyCat env c (some issuer) none .any = .ok () → validateCat env c.tbs.exts .any = .ok (some v) →
      loadCat env c.tbs.exts = .ok k → env.loadKey v.spki = .ok k := by
  intro h
  have := h toyCat toyCat_faithful
    (match signCat toyCat { toyTbs with exts := [⟨altSpkiOid, false, [9]⟩] } 66 20 toyOpts with
      | .ok c => c
      | .error _ => toyIssuer) toyIssuer
    (match validateCat toyCat
      (match signCat toyCat { toyTbs with exts := [⟨altSpkiOid, false, [9]⟩] } 66 20 toyOpts with
      | .ok c => c
      | .error _ => toyIssuer).tbs.exts .any with
      | .ok (some v) => v
      | _ => ⟨[], [], ⟨[], none⟩⟩) 9 (by decide +kernel) (by decide +kernel) (by decide +kernel)
  exact absurd this (by decide +kernel)

/-- The alternative key of a certificate that `sign_cert_catalyst` makes is the signer's own alternative key, so
that it says nothing about a second key of the subject: this is what a relying party reads out of it. -/
theorem C127_carries_signer_key (env : CatEnv S K) (hf : Faithful env) (t : Tbs) (pq trad : S) (o : CatOpts)
    (c : Cert) (h : signCat env t pq trad o = .ok c) (hn : ∀ x ∈ t.exts, x.oid ≠ [2, 5, 29, 72]) :
    loadCat env c.tbs.exts = .ok (env.pub pq) := by
  obtain ⟨aa, ta, s, s', -, -, -, -, h5, -, -⟩ := signCat_ok env t pq trad o c h
  obtain ⟨kb, hk1, hk2⟩ := hf.spki (env.pub pq)
  have hg : getExt c.tbs.exts altSpkiOid = some (altSpkiExt env (env.pub pq) o.critical) := by
    have e : c.tbs.exts = (t.exts ++ [altAlgExt env aa o.critical]) ++
        altSpkiExt env (env.pub pq) o.critical :: [altSigExt env s' o.critical] := by
      rw [h5]; simp
    rw [e]
    refine getExt_split _ _ (altSpkiExt env (env.pub pq) o.critical) ?_
    intro x hx
    rcases List.mem_append.1 hx with hx | hx
    · exact hn x hx
    · rw [List.mem_singleton.1 hx]
      exact (by decide : altAlgOid ≠ altSpkiOid)
  unfold loadCat
  rw [hg]
  simp only [altSpkiExt]
  rw [hk1]
  dsimp only
  rw [if_neg (by simp)]
  exact hk2

example : loadCat toyCat toyForged.tbs.exts = .ok 66 :=
  C127_carries_signer_key toyCat toyCat_faithful toyTbs 66 20 toyOpts toyForged (by decide +kernel) (by decide)

/-- `bad_alt_sig` makes a certificate whose alternative signature value is not the one computed. -/
theorem C127_bad_alt_sig (s s' : Bytes) (h : catManip true s = .ok s') : s' ≠ s ∧ s'.length = s.length := by
  cases s with
  | nil => cases h
  | cons b l =>
    have h' : (if b = 0 then Except.ok (1 :: l) else Except.ok (0 :: l) : Except PyErr Bytes) = .ok s' := h
    by_cases hb : b = 0
    · rw [if_pos hb] at h'
      cases h'
      refine ⟨?_, rfl⟩
      intro hc
      rw [hb] at hc
      exact absurd (List.cons.inj hc).1 (by decide)
    · rw [if_neg hb] at h'
      cases h'
      refine ⟨?_, rfl⟩
      intro hc
      exact hb (List.cons.inj hc).1.symm

example : catManip true [0, 3] = .ok [1, 3] := by decide +kernel

end Verif.Hybrid
