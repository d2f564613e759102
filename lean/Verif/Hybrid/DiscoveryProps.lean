import Verif.Hybrid.RelatedProps

/-!
# Properties of certificate discovery, of the revocation checks of hybrid certificates and of merged extensions

C136: the kinds of hybrid certificates and their revocation. C137: certificate discovery. C138: the extensions of a
certificate from those of the request and of the CA.
-/

namespace Verif.Hybrid

open Verif.CA Verif.Check

variable {S K : Type}

/-! ## Kinds -/

/-- The list has an extension with the OID. -/
def HasExt (l : List Ext) (o : Oid) : Prop := ∃ e ∈ l, e.oid = o

theorem getExt_isSome_iff (l : List Ext) (o : Oid) : (getExt l o).isSome = true ↔ HasExt l o := by
  cases hg : getExt l o with
  | none =>
    have h := (getExt_none_iff l o).1 hg
    constructor
    · intro hh; cases hh
    · rintro ⟨e, he, ho⟩
      exact absurd ho (h e he)
  | some e =>
    exact ⟨fun _ => ⟨e, getExt_mem hg, getExt_oid hg⟩, fun _ => rfl⟩

/-- The first subject information access extension has an access description for discovery. -/
def HasDiscovery (env : RelEnv S K) (l : List Ext) : Prop :=
  ∃ e ds, IsFirst l siaExtOid e ∧ env.decSia e.value = .ok ds ∧ ∃ a ∈ ds, a.method = discoveryOid

/-- The marks of the kinds, in the order in which they are looked at. -/
inductive KindOf (env : RelEnv S K) (comp : Oid → Bool) (c : Cert) : Option String → Prop where
  | composite : comp (env.spkiAlg c.tbs.spki).oid = true → KindOf env comp c (some "composite-sig")
  | chameleon : comp (env.spkiAlg c.tbs.spki).oid = false → HasExt c.tbs.exts dcdOid →
      KindOf env comp c (some "chameleon")
  | sun : comp (env.spkiAlg c.tbs.spki).oid = false → ¬ HasExt c.tbs.exts dcdOid → HasExt c.tbs.exts sunSigOid →
      KindOf env comp c (some "sun-hybrid")
  | catalyst : comp (env.spkiAlg c.tbs.spki).oid = false → ¬ HasExt c.tbs.exts dcdOid →
      ¬ HasExt c.tbs.exts sunSigOid → HasExt c.tbs.exts altSigOid ∨ HasExt c.tbs.exts altSpkiOid →
      KindOf env comp c (some "catalyst")
  | discovery : comp (env.spkiAlg c.tbs.spki).oid = false → ¬ HasExt c.tbs.exts dcdOid →
      ¬ HasExt c.tbs.exts sunSigOid → ¬ HasExt c.tbs.exts altSigOid → ¬ HasExt c.tbs.exts altSpkiOid →
      HasDiscovery env c.tbs.exts → KindOf env comp c (some "cert-discovery")
  | related : comp (env.spkiAlg c.tbs.spki).oid = false → ¬ HasExt c.tbs.exts dcdOid →
      ¬ HasExt c.tbs.exts sunSigOid → ¬ HasExt c.tbs.exts altSigOid → ¬ HasExt c.tbs.exts altSpkiOid →
      ¬ HasDiscovery env c.tbs.exts → HasExt c.tbs.exts relatedExtOid → KindOf env comp c (some "related-cert")
  | plain : comp (env.spkiAlg c.tbs.spki).oid = false → ¬ HasExt c.tbs.exts dcdOid →
      ¬ HasExt c.tbs.exts sunSigOid → ¬ HasExt c.tbs.exts altSigOid → ¬ HasExt c.tbs.exts altSpkiOid →
      ¬ HasDiscovery env c.tbs.exts → ¬ HasExt c.tbs.exts relatedExtOid → KindOf env comp c none

theorem isDiscovery_iff (env : RelEnv S K) (c : Cert) (b : Bool) (h : isDiscovery env c = .ok b) :
    b = true ↔ HasDiscovery env c.tbs.exts := by
  unfold isDiscovery at h
  unfold HasDiscovery
  cases hg : getExt c.tbs.exts siaExtOid with
  | none =>
    rw [hg] at h
    cases h
    constructor
    · intro hh; cases hh
    · rintro ⟨e, ds, hf, -⟩
      rw [(getExt_iff _ _ _).2 hf] at hg
      cases hg
  | some e =>
    rw [hg] at h
    dsimp only at h
    cases hd : env.decSia e.value with
    | error e => rw [hd] at h; cases h
    | ok ds =>
      rw [hd] at h
      cases h
      rw [List.any_eq_true]
      constructor
      · rintro ⟨a, ha, hm⟩
        exact ⟨e, ds, (getExt_iff _ _ _).1 hg, hd, a, ha, of_decide_eq_true hm⟩
      · rintro ⟨e', ds', hf, hd', a, ha, hm⟩
        rw [(getExt_iff _ _ _).2 hf] at hg
        cases hg
        rw [hd'] at hd
        cases hd
        exact ⟨a, ha, decide_eq_true hm⟩

/-- The kind of a certificate is that of its first mark. -/
theorem C136_kind (env : RelEnv S K) (comp : Oid → Bool) (c : Cert) (k : Option String)
    (h : hybridKind env comp c = .ok k) : KindOf env comp c k := by
  unfold hybridKind at h
  cases hc : comp (env.spkiAlg c.tbs.spki).oid with
  | true =>
    rw [if_pos hc] at h
    cases h
    exact .composite hc
  | false =>
    rw [if_neg (by rw [hc]; decide)] at h
    by_cases h1 : (getExt c.tbs.exts dcdOid).isSome = true
    · rw [if_pos h1] at h
      cases h
      exact .chameleon hc ((getExt_isSome_iff _ _).1 h1)
    · rw [if_neg h1] at h
      rw [getExt_isSome_iff] at h1
      by_cases h2 : (getExt c.tbs.exts sunSigOid).isSome = true
      · rw [if_pos h2] at h
        cases h
        exact .sun hc h1 ((getExt_isSome_iff _ _).1 h2)
      · rw [if_neg h2] at h
        rw [getExt_isSome_iff] at h2
        by_cases h3 : (getExt c.tbs.exts altSigOid).isSome = true ∨ (getExt c.tbs.exts altSpkiOid).isSome = true
        · rw [if_pos h3] at h
          cases h
          rw [getExt_isSome_iff, getExt_isSome_iff] at h3
          exact .catalyst hc h1 h2 h3
        · rw [if_neg h3] at h
          rw [getExt_isSome_iff, getExt_isSome_iff, not_or] at h3
          cases h4 : isDiscovery env c with
          | error e => rw [h4] at h; cases h
          | ok b =>
            rw [h4] at h
            have hb := isDiscovery_iff env c b h4
            cases b with
            | true =>
              cases h
              exact .discovery hc h1 h2 h3.1 h3.2 (hb.1 rfl)
            | false =>
              have hb : ¬ HasDiscovery env c.tbs.exts := fun hd => by cases hb.2 hd
              dsimp only at h
              by_cases h5 : (getExt c.tbs.exts relatedExtOid).isSome = true
              · rw [if_pos h5] at h
                cases h
                exact .related hc h1 h2 h3.1 h3.2 hb ((getExt_isSome_iff _ _).1 h5)
              · rw [if_neg h5] at h
                cases h
                rw [getExt_isSome_iff] at h5
                exact .plain hc h1 h2 h3.1 h3.2 hb h5

/-! ## Revocation -/

theorem chamRevoked_iff (rv : RevView K) (q : HybReq) (c : Cert) (both : Bool) :
    chamRevoked rv q c both = .ok () ↔ ∃ d, q.delta c = .ok d ∧ rv.revoked c = false ∧ rv.updated c = false ∧
      (both = true → rv.revoked d = false ∧ rv.updated d = false) := by
  unfold chamRevoked
  cases hd : q.delta c with
  | error e => simp
  | ok d =>
    dsimp only
    cases h1 : rv.revoked c <;> cases h2 : rv.updated c <;> cases both <;> cases h3 : rv.revoked d <;>
      cases h4 : rv.updated d <;> simp [h3, h4]

/-- A chameleon certificate passes the check before issuing only if neither it nor its delta certificate is revoked or
updated; a Sun hybrid certificate only if it is not revoked in its Form 4. -/
theorem C136_issuing_partial (env : RelEnv S K) (comp : Oid → Bool) (rv : RevView K)
    (fetch : String → Bool → Except PyErr (List Cert)) (q : HybReq) (both : Bool) (c : Cert) (l : List Cert)
    (hq : q.extra = c :: l) (h : revokedForIssuing env comp rv fetch q both = .ok ()) :
    (hybridKind env comp c = .ok (some "chameleon") → ∃ d, q.delta c = .ok d ∧ rv.revoked c = false ∧
      rv.updated c = false ∧ rv.revoked d = false ∧ rv.updated d = false) ∧
    (hybridKind env comp c = .ok (some "sun-hybrid") → ∃ c4, q.form4 c = .ok c4 ∧ rv.revoked c4 = false) := by
  unfold revokedForIssuing at h
  rw [hq] at h
  dsimp only at h
  constructor
  · intro hk
    rw [hk] at h
    dsimp only [revokedByKind] at h
    rw [if_pos rfl] at h
    cases hc : chamRevoked rv q c true with
    | error e => rw [hc] at h; cases h
    | ok u =>
      obtain ⟨d, h1, h2, h3, h4⟩ := (chamRevoked_iff rv q c true).1 hc
      exact ⟨d, h1, h2, h3, h4 rfl⟩
  · intro hk
    rw [hk] at h
    dsimp only [revokedByKind] at h
    rw [if_neg (by decide), if_neg (by decide), if_pos rfl] at h
    cases hf : q.form4 c with
    | error e => rw [hf] at h; cases h
    | ok c4 =>
      rw [hf] at h
      dsimp only at h
      cases hr : rv.revoked c4 with
      | true => rw [hr] at h; cases h
      | false => exact ⟨c4, rfl, hr⟩

/-- Composite and catalyst certificates pass whatever their state is. -/
theorem C136_ignored_refuted (env : RelEnv S K) (comp : Oid → Bool) (rv : RevView K)
    (fetch : String → Bool → Except PyErr (List Cert)) (q : HybReq) (both : Bool) (c : Cert) (l : List Cert)
    (hq : q.extra = c :: l)
    (hk : hybridKind env comp c = .ok (some "composite-sig") ∨ hybridKind env comp c = .ok (some "catalyst")) :
    revokedForIssuing env comp rv fetch q both = .ok () := by
  unfold revokedForIssuing
  rw [hq]
  dsimp only
  rcases hk with hk | hk
  · rw [hk]
    dsimp only [revokedByKind, revokedByName]
    rw [if_neg (by decide), if_neg (by decide), if_neg (by decide), if_neg (by decide), if_pos rfl]
  · rw [hk]
    dsimp only [revokedByKind]
    rw [if_neg (by decide), if_pos rfl]

/-- Related and discovery certificates never get through: the names of the kinds are spelled differently. -/
theorem C136_names_refuted (env : RelEnv S K) (comp : Oid → Bool) (rv : RevView K)
    (fetch : String → Bool → Except PyErr (List Cert)) (q : HybReq) (both : Bool) (c : Cert) (l : List Cert)
    (hq : q.extra = c :: l)
    (hk : hybridKind env comp c = .ok (some "related-cert") ∨ hybridKind env comp c = .ok (some "cert-discovery")) :
    revokedForIssuing env comp rv fetch q both = .error .notImplemented := by
  unfold revokedForIssuing
  rw [hq]
  dsimp only
  rcases hk with hk | hk
  · rw [hk]
    dsimp only [revokedByKind, revokedByName]
    rw [if_neg (by decide), if_neg (by decide), if_neg (by decide), if_neg (by decide), if_neg (by decide),
      if_neg (by decide)]
  · rw [hk]
    dsimp only [revokedByKind, revokedByName]
    rw [if_neg (by decide), if_neg (by decide), if_neg (by decide), if_neg (by decide), if_neg (by decide),
      if_neg (by decide)]

/-- `CertRevoked` is only raised for chameleon and Sun hybrid certificates. -/
theorem C136_revoked_only (env : RelEnv S K) (comp : Oid → Bool) (rv : RevView K)
    (fetch : String → Bool → Except PyErr (List Cert)) (q : HybReq) (c : Cert) (l : List Cert)
    (hq : q.extra = c :: l) (hkey : ∀ e, q.deltaKey = .error e → e ≠ .certRevoked)
    (hdel : ∀ e, q.delta c = .error e → e ≠ .certRevoked) (hform : ∀ e, q.form4 c = .error e → e ≠ .certRevoked)
    (hkind : ∀ e, hybridKind env comp c = .error e → e ≠ .certRevoked)
    (h : revokedForIssuing env comp rv fetch q false = .error .certRevoked) :
    (hybridKind env comp c = .ok (some "chameleon") ∧ ∃ d, q.delta c = .ok d ∧
      (rv.revoked c = true ∨ rv.updated c = true ∨ rv.revoked d = true ∨ rv.updated d = true)) ∨
    (hybridKind env comp c = .ok (some "sun-hybrid") ∧ ∃ c4, q.form4 c = .ok c4 ∧ rv.revoked c4 = true) := by
  unfold revokedForIssuing at h
  rw [hq] at h
  dsimp only at h
  cases hk : hybridKind env comp c with
  | error e =>
    rw [hk] at h
    cases h
    exact absurd rfl (hkind _ hk)
  | ok o =>
    rw [hk] at h
    cases o with
    | none => cases h
    | some k =>
      dsimp only [revokedByKind] at h
      by_cases h1 : k = "chameleon"
      · subst h1
        refine .inl ⟨rfl, ?_⟩
        rw [if_pos rfl] at h
        cases hd : q.delta c with
        | error e =>
          unfold chamRevoked at h
          rw [hd] at h
          cases h
          exact absurd rfl (hdel _ hd)
        | ok d =>
          refine ⟨d, rfl, ?_⟩
          cases hc : chamRevoked rv q c true with
          | ok u =>
            rw [hc] at h
            dsimp only at h
            cases hk' : q.deltaKey with
            | error e =>
              rw [hk'] at h
              cases h
              exact absurd rfl (hkey _ hk')
            | ok b => rw [hk'] at h; cases h
          | error e =>
            cases h2 : rv.revoked c with
            | true => exact .inl rfl
            | false =>
              cases h3 : rv.updated c with
              | true => exact .inr (.inl rfl)
              | false =>
                cases h4 : rv.revoked d with
                | true => exact .inr (.inr (.inl rfl))
                | false =>
                  cases h5 : rv.updated d with
                  | true => exact .inr (.inr (.inr rfl))
                  | false =>
                    rw [(chamRevoked_iff rv q c true).2 ⟨d, hd, h2, h3, fun _ => ⟨h4, h5⟩⟩] at hc
                    cases hc
      · rw [if_neg h1] at h
        by_cases h2 : k = "catalyst"
        · rw [if_pos h2] at h; cases h
        · rw [if_neg h2] at h
          by_cases h3 : k = "sun-hybrid"
          · subst h3
            refine .inr ⟨rfl, ?_⟩
            rw [if_pos rfl] at h
            cases hf : q.form4 c with
            | error e =>
              rw [hf] at h
              cases h
              exact absurd rfl (hform _ hf)
            | ok c4 =>
              rw [hf] at h
              dsimp only at h
              cases hr : rv.revoked c4 with
              | true => exact ⟨c4, rfl, hr⟩
              | false => rw [hr] at h; cases h
          · rw [if_neg h3] at h
            unfold revokedByName at h
            by_cases h4 : k = "related_cert"
            · rw [if_pos h4, if_pos rfl] at h; cases h
            · rw [if_neg h4] at h
              by_cases h5 : k = "composite-sig"
              · rw [if_pos h5] at h; cases h
              · rw [if_neg h5] at h
                by_cases h6 : k = "cert_discovery"
                · rw [if_pos h6, if_pos rfl] at h; cases h
                · rw [if_neg h6] at h; cases h

/-- The status of the delta key in the request is asked for and not used: with a good chameleon certificate a revoked
delta key passes. The separate check refuses it. -/
theorem C136_delta_key_refuted (env : RelEnv S K) (comp : Oid → Bool) (rv : RevView K)
    (fetch : String → Bool → Except PyErr (List Cert)) (q : HybReq) (both : Bool) (c d : Cert) (l : List Cert)
    (hq : q.extra = c :: l) (hk : hybridKind env comp c = .ok (some "chameleon")) (hd : q.delta c = .ok d)
    (hr : rv.revoked c = false ∧ rv.updated c = false ∧ rv.revoked d = false ∧ rv.updated d = false)
    (hkey : q.deltaKey = .ok true) :
    revokedForIssuing env comp rv fetch q both = .ok () ∧ deltaKeyRevoked q = .error .badCertTemplate := by
  constructor
  · unfold revokedForIssuing
    rw [hq]
    dsimp only
    rw [hk]
    dsimp only [revokedByKind]
    rw [if_pos rfl, (chamRevoked_iff rv q c true).2 ⟨d, hd, hr.1, hr.2.1, fun _ => hr.2.2⟩, hkey]
  · unfold deltaKeyRevoked
    rw [hkey]

/-- The check of signed requests: exact for chameleon certificates. -/
theorem C136_request_partial (rv : RevView K) (q : HybReq) (both : Bool) (c : Cert) (l : List Cert)
    (hq : q.extra = c :: l) (hc : HasExt c.tbs.exts dcdOid) :
    revokedForRequest rv q both = .ok () ↔ ∃ d, q.delta c = .ok d ∧ rv.revoked c = false ∧ rv.updated c = false ∧
      (both = true → rv.revoked d = false ∧ rv.updated d = false) := by
  unfold revokedForRequest
  rw [hq]
  dsimp only
  rw [if_pos ((getExt_isSome_iff _ _).2 hc)]
  exact chamRevoked_iff rv q c both

/-- A request signed with any other hybrid certificate passes, revoked or not. -/
theorem C136_request_refuted (rv : RevView K) (q : HybReq) (both : Bool) (c : Cert) (l : List Cert)
    (hq : q.extra = c :: l) (hc : ¬ HasExt c.tbs.exts dcdOid) : revokedForRequest rv q both = .ok () := by
  unfold revokedForRequest
  rw [hq]
  dsimp only
  rw [if_neg (fun h => hc ((getExt_isSome_iff _ _).1 h))]

/-! ## Discovery -/

theorem prepDiscovery_value (env : RelEnv S K) (url : String) (critical : Bool) (o : Option Cert) :
    (prepDiscovery env url critical o).value =
      env.encSia [⟨discoveryOid, some (relDescOid, env.encDesc ⟨url, o.map (fun c => c.tbs.alg),
        o.map (fun c => env.spkiAlg c.tbs.spki)⟩)⟩] := rfl

/-- The descriptor of a prepared extension is read back, by index 0 and without index; the certificate with it is one
for discovery, and the other certificate is what its location serves. -/
theorem C137_round_trip (env : RelEnv S K) (url : String) (critical : Bool) (o : Option Cert) (a : Cert)
    (fetch : String → Bool → Except PyErr (List Cert)) (s : Cert) (l : List Cert)
    (d : RelDesc) (hd : d = ⟨url, o.map (fun c => c.tbs.alg), o.map (fun c => env.spkiAlg c.tbs.spki)⟩)
    (hsia : env.decSia (env.encSia [⟨discoveryOid, some (relDescOid, env.encDesc d)⟩]) =
      .ok [⟨discoveryOid, some (relDescOid, env.encDesc d)⟩])
    (hdesc : env.decDesc (env.encDesc d) = .ok d)
    (hf : IsFirst a.tbs.exts siaExtOid (prepDiscovery env url critical o)) (hs : fetch url false = .ok (s :: l)) :
    extractDesc env (prepDiscovery env url critical o).value none = .ok d ∧
      extractDesc env (prepDiscovery env url critical o).value (some 0) = .ok d ∧
      isDiscovery env a = .ok true ∧ discoveryCert env fetch a = .ok (some s) := by
  subst hd
  have h1 : extractDesc env (prepDiscovery env url critical o).value none = .ok ⟨url, o.map (fun c => c.tbs.alg),
      o.map (fun c => env.spkiAlg c.tbs.spki)⟩ := by
    rw [prepDiscovery_value]
    unfold extractDesc
    rw [hsia]
    dsimp only
    rw [List.find?_cons, decide_eq_true rfl]
    dsimp only [descOf]
    rw [if_neg (fun h => h rfl), hdesc]
  refine ⟨h1, ?_, ?_, ?_⟩
  · rw [prepDiscovery_value]
    unfold extractDesc
    rw [hsia]
    dsimp only [List.getElem?_cons_zero, descOf]
    rw [if_neg (fun h => h rfl), if_neg (fun h => h rfl), hdesc]
  · unfold isDiscovery
    rw [(getExt_iff _ _ _).2 hf]
    dsimp only
    rw [prepDiscovery_value, hsia]
    dsimp only
    rw [List.any_cons, decide_eq_true rfl]
    rfl
  · unfold discoveryCert
    rw [(getExt_iff _ _ _).2 hf]
    dsimp only
    rw [h1]
    dsimp only
    rw [hs]

/-- With an index exactly the description at it is read, which must be one for discovery with a related certificate
descriptor. -/
theorem C137_index (env : RelEnv S K) (v : Bytes) (i : Nat) (d : RelDesc) :
    extractDesc env v (some i) = .ok d ↔ ∃ ds b, env.decSia v = .ok ds ∧
      ds[i]? = some ⟨discoveryOid, some (relDescOid, b)⟩ ∧ env.decDesc b = .ok d := by
  unfold extractDesc
  cases hs : env.decSia v with
  | error e => simp
  | ok ds =>
    dsimp only
    cases hi : ds[i]? with
    | none =>
      constructor
      · intro h; cases h
      · rintro ⟨ds', b, h1, h2, -⟩
        cases h1
        rw [hi] at h2
        cases h2
    | some a =>
      obtain ⟨m, o⟩ := a
      dsimp only
      constructor
      · intro h
        by_cases hm : m ≠ discoveryOid
        · rw [if_pos hm] at h; cases h
        · rw [if_neg hm] at h
          have hm : m = discoveryOid := Decidable.not_not.1 hm
          subst hm
          unfold descOf at h
          cases o with
          | none => cases h
          | some p =>
            obtain ⟨t, b⟩ := p
            dsimp only at h
            by_cases ht : t ≠ relDescOid
            · rw [if_pos ht] at h; cases h
            · rw [if_neg ht] at h
              have ht : t = relDescOid := Decidable.not_not.1 ht
              subst ht
              exact ⟨ds, b, rfl, hi, h⟩
      · rintro ⟨ds', b, h1, h2, h3⟩
        cases h1
        rw [hi] at h2
        cases h2
        rw [if_neg (fun h => h rfl)]
        unfold descOf
        dsimp only
        rw [if_neg (fun h => h rfl), h3]

/-- The algorithms of the descriptor, if present, must be those of the other certificate. -/
theorem C137_algs (env : RelEnv S K) (o : Cert) (d : RelDesc) :
    checkDescAlgs env o d = .ok () ↔ (d.sigAlg = none ∨ d.sigAlg = some o.tbs.alg) ∧
      (d.keyAlg = none ∨ d.keyAlg = some (env.spkiAlg o.tbs.spki)) := by
  obtain ⟨u, s, k⟩ := d
  unfold checkDescAlgs
  cases s with
  | none =>
    cases k with
    | none => simp
    | some k =>
      by_cases hk : k = env.spkiAlg o.tbs.spki
      · simp [hk]
      · simp [hk]
  | some s =>
    by_cases hs : s = o.tbs.alg
    · cases k with
      | none => simp [hs]
      | some k =>
        by_cases hk : k = env.spkiAlg o.tbs.spki
        · simp [hs, hk]
        · simp [hs, hk]
    · simp [hs]

/-- `validate_cert_discovery_cert` refuses every certificate: it hands the list of extensions over as one extension. -/
theorem C137_validate_refuted (env : RelEnv S K) (fetch : String → Bool → Except PyErr (List Cert))
    (signed : Cert → Cert → Bool) (primary issuer : Cert) :
    validateDiscovery env fetch signed primary issuer = .error .typeError := rfl

/-- A discovery certificate is only issued if the request proves control of the certificate served at its location; it
has the requested subject and key and points to the URL. -/
theorem C137_issued (env : RelEnv S K) (ca : RelCa S) (fetch : String → Bool → Except PyErr (List Cert)) (now : Int)
    (url : String) (extra : List Ext) (csr : RelCsr) (c : Cert) (hv : KindsApart env siaExtOid)
    (h : processDiscovery env ca fetch now url extra csr = .ok c) :
    ∃ r a l, fetch r.loc false = .ok (a :: l) ∧ RelProof env now 500 none csr r a ∧
      IsFirst c.tbs.exts siaExtOid (prepDiscovery env url false (some a)) ∧ c.tbs.subject = csr.subject ∧
      c.tbs.spki = csr.spki ∧ c.tbs.issuer = ca.cert.tbs.subject := by
  unfold processDiscovery at h
  cases h1 : validateRelPop env fetch now 500 false none csr with
  | error e => rw [h1] at h; cases h
  | ok cs =>
    rw [h1] at h
    cases cs with
    | nil => cases h
    | cons a l =>
      dsimp only at h
      obtain ⟨r, a', l', he, hf, P⟩ := (C135_accepted _ _ _ _ _ _ _ _).1 h1
      cases he
      obtain ⟨ver, b1, b2, b3, b4, b5, -⟩ := buildFromCsr_ok env ca csr _ c h
      refine ⟨r, a, l, hf, P, ?_, b3, b4, b5⟩
      rw [b2]
      exact mergeExts_first _ ver siaExtOid _ (hv _ _ _ _ b1) ⟨[], extra, rfl, rfl, fun x hx => by cases hx⟩

/-- Neither trust in the other certificate nor its state is looked at: whoever signs the attribute with the key of any
certificate, also of one they made themselves, gets a certificate, with the URL and the algorithms of that
certificate. -/
theorem C137_untrusted_refuted (env : RelEnv S K) (ca : RelCa S) (fetch : String → Bool → Except PyErr (List Cert))
    (now : Int) (url : String) (extra : List Ext) (csr : RelCsr) (r : Requester) (a : Cert) (l : List Cert)
    (hf : fetch r.loc false = .ok (a :: l)) (P : RelProof env now 500 none csr r a) (s : Bytes) (alg : Alg) :
    processDiscovery env ca fetch now url extra { csr with sig := s, alg := alg } =
      buildFromCsr env ca csr (prepDiscovery env url false (some a) :: extra) := by
  unfold processDiscovery
  have h : validateRelPop env fetch now 500 false none { csr with sig := s, alg := alg } = .ok (a :: l) :=
    (C135_accepted _ _ _ _ _ _ _ _).2 ⟨r, a, l, rfl, hf,
      ⟨P.attr, P.notFuture, P.fresh, P.issuer, P.serial, P.signed⟩⟩
  rw [h]
  rfl

/-! ## Merged extensions -/

theorem mem_pickExts (other : List Ext) (ver : List (Oid × Option Ext)) (x : Ext) :
    x ∈ pickExts other ver ↔ ∃ p ∈ ver, p.2 = some x ∨ (p.2 = none ∧ IsFirst other p.1 x) := by
  induction ver with
  | nil => simp [pickExts]
  | cons p ver ih =>
    obtain ⟨o, oe⟩ := p
    unfold pickExts
    cases oe with
    | some e =>
      dsimp only
      rw [List.mem_cons, ih]
      constructor
      · rintro (rfl | ⟨p, hp, h⟩)
        · exact ⟨(o, some x), List.mem_cons_self, .inl rfl⟩
        · exact ⟨p, List.mem_cons_of_mem _ hp, h⟩
      · rintro ⟨p, hp, h⟩
        rcases List.mem_cons.1 hp with rfl | hp
        · rcases h with h | ⟨h, -⟩
          · cases h
            exact .inl rfl
          · cases h
        · exact .inr ⟨p, hp, h⟩
    | none =>
      dsimp only
      cases hg : getExt other o with
      | none =>
        dsimp only
        rw [ih]
        constructor
        · rintro ⟨p, hp, h⟩
          exact ⟨p, List.mem_cons_of_mem _ hp, h⟩
        · rintro ⟨p, hp, h⟩
          rcases List.mem_cons.1 hp with rfl | hp
          · rcases h with h | ⟨-, h⟩
            · cases h
            · dsimp only at h
              rw [(getExt_iff _ _ _).2 h] at hg
              cases hg
          · exact ⟨p, hp, h⟩
      | some e =>
        dsimp only
        rw [List.mem_cons, ih]
        constructor
        · rintro (rfl | ⟨p, hp, h⟩)
          · exact ⟨(o, none), List.mem_cons_self, .inr ⟨rfl, (getExt_iff _ _ _).1 hg⟩⟩
          · exact ⟨p, List.mem_cons_of_mem _ hp, h⟩
        · rintro ⟨p, hp, h⟩
          rcases List.mem_cons.1 hp with rfl | hp
          · rcases h with h | ⟨-, h⟩
            · cases h
            · dsimp only at h
              rw [(getExt_iff _ _ _).2 h] at hg
              cases hg
              exact .inl rfl
          · exact .inr ⟨p, hp, h⟩

/-- Each checked kind is listed once, with an extension of that kind. -/
structure KindsOk (ver : List (Oid × Option Ext)) : Prop where
  kinds : (ver.map Prod.fst).Nodup
  own : ∀ p ∈ ver, ∀ e, p.2 = some e → e.oid = p.1

theorem pickExts_oids (other : List Ext) (ver : List (Oid × Option Ext)) (h : ∀ p ∈ ver, ∀ e, p.2 = some e → e.oid = p.1) :
    ((pickExts other ver).map Ext.oid).Sublist (ver.map Prod.fst) := by
  induction ver with
  | nil => exact List.Sublist.slnil
  | cons p ver ih =>
    obtain ⟨o, oe⟩ := p
    have ih := ih (fun p hp => h p (List.mem_cons_of_mem _ hp))
    unfold pickExts
    cases oe with
    | some e =>
      have : e.oid = o := h (o, some e) (List.mem_cons_self) e rfl
      dsimp only
      rw [List.map_cons, List.map_cons, this]
      exact ih.cons_cons o
    | none =>
      dsimp only
      cases hg : getExt other o with
      | none => exact ih.cons o
      | some e =>
        dsimp only
        rw [List.map_cons, List.map_cons, getExt_oid hg]
        exact ih.cons_cons o

theorem kinds_inj (ver : List (Oid × Option Ext)) (h : (ver.map Prod.fst).Nodup) (o : Oid) (a b : Option Ext)
    (ha : (o, a) ∈ ver) (hb : (o, b) ∈ ver) : a = b := by
  induction ver with
  | nil => cases ha
  | cons p ver ih =>
    rw [List.map_cons, List.nodup_cons] at h
    rcases List.mem_cons.1 ha with ha | ha
    · rcases List.mem_cons.1 hb with hb | hb
      · rw [← ha] at hb
        cases hb
        rfl
      · rw [← ha] at h
        exact absurd (List.mem_map_of_mem (f := Prod.fst) hb) h.1
    · rcases List.mem_cons.1 hb with hb | hb
      · rw [← hb] at h
        exact absurd (List.mem_map_of_mem (f := Prod.fst) ha) h.1
      · exact ih h.2 ha hb

/-- What the request asks for, as checked, is in the certificate; of the CA's own extensions those are, that are not of
a kind the request asks for; nothing else is. -/
theorem C138_merge (other : List Ext) (ver : List (Oid × Option Ext)) (hk : KindsOk ver) (x : Ext) :
    x ∈ mergeExts other ver ↔
      (∃ o, (o, some x) ∈ ver) ∨
      ((∀ o, (o, none) ∈ ver → x.oid = o → IsFirst other o x) ∧ x ∈ other ∧ ∀ o e, (o, some e) ∈ ver → x.oid ≠ o) := by
  unfold mergeExts
  rw [List.mem_append, List.mem_filter, mem_pickExts]
  constructor
  · rintro (⟨⟨o, oe⟩, hp, h | ⟨h, hf⟩⟩ | ⟨hx, hd⟩)
    · dsimp only at h
      subst h
      exact .inl ⟨o, hp⟩
    · dsimp only at h hf
      subst h
      obtain ⟨pre, post, he, ho, hpre⟩ := id hf
      refine .inr ⟨?_, by rw [he]; simp, ?_⟩
      · intro o' _ ho'
        rw [← ho', ho]
        exact hf
      · intro o' e' hm hxo
        have hoo : o = o' := ho.symm.trans hxo
        subst hoo
        cases kinds_inj ver hk.kinds o none (some e') hp hm
    · have hd := of_decide_eq_true hd
      refine .inr ⟨?_, hx, ?_⟩
      · intro o hm hxo
        exfalso
        have hsome : ∃ e, getExt other o = some e := by
          cases hg : getExt other o with
          | none => exact absurd hxo ((getExt_none_iff _ _).1 hg x hx)
          | some e => exact ⟨e, rfl⟩
        obtain ⟨e, he⟩ := hsome
        apply hd
        rw [hxo, ← getExt_oid he]
        exact List.mem_map_of_mem ((mem_pickExts _ _ _).2 ⟨(o, none), hm, .inr ⟨rfl, (getExt_iff _ _ _).1 he⟩⟩)
      · intro o e hm hxo
        apply hd
        have he : e.oid = o := hk.own _ hm e rfl
        rw [hxo, ← he]
        exact List.mem_map_of_mem ((mem_pickExts _ _ _).2 ⟨(o, some e), hm, .inl rfl⟩)
  · rintro (⟨o, hm⟩ | ⟨h1, h2, h3⟩)
    · exact .inl ⟨(o, some x), hm, .inl rfl⟩
    · by_cases hin : ∃ o, (o, none) ∈ ver ∧ x.oid = o
      · obtain ⟨o, hm, hxo⟩ := hin
        exact .inl ⟨(o, none), hm, .inr ⟨rfl, h1 o hm hxo⟩⟩
      · refine .inr ⟨h2, decide_eq_true ?_⟩
        intro hm
        obtain ⟨y, hy, hyo⟩ := List.mem_map.1 hm
        obtain ⟨⟨o, oe⟩, hp, h | ⟨h, hf⟩⟩ := (mem_pickExts _ _ _).1 hy
        · dsimp only at h
          subst h
          exact h3 o y hp (hyo.symm.trans (hk.own _ hp y rfl))
        · dsimp only at h hf
          subst h
          obtain ⟨-, -, -, ho, -⟩ := hf
          exact hin ⟨o, hp, hyo.symm.trans ho⟩

/-- No OID twice, if the CA's own list has none twice. -/
theorem C138_nodup (other : List Ext) (ver : List (Oid × Option Ext)) (hk : KindsOk ver)
    (ho : (other.map Ext.oid).Nodup) : ((mergeExts other ver).map Ext.oid).Nodup := by
  unfold mergeExts
  rw [List.map_append, List.nodup_append]
  refine ⟨(pickExts_oids other ver hk.own).nodup hk.kinds, ?_, ?_⟩
  · exact ((List.filter_sublist (p := _) (l := other)).map Ext.oid).nodup ho
  · intro a ha b hb hab
    subst hab
    obtain ⟨x, hx, hxo⟩ := List.mem_map.1 hb
    have := of_decide_eq_true (List.mem_filter.1 hx).2
    rw [hxo] at this
    exact this ha

/-! ## Examples -/

/-- The location of the descriptor serves the certificate with key 7. -/
def toyFetch2 : String → Bool → Except PyErr (List Cert)
  | "other", _ => .ok [toyRelCert 1 7 []]
  | _, _ => .error .valueError

/-- A revoked composite certificate passes; a related one does not, revoked or not. -/
example : revokedForIssuing toyRel (fun o => decide (o = [66])) ⟨fun _ => true, fun _ => true, fun _ _ => none⟩ toyFetch
      ⟨[toyRelCert 1 66 []], fun _ => .error .valueError, .ok false, fun c => .ok c⟩ false = .ok () ∧
    revokedForIssuing toyRel (fun o => decide (o = [66])) toyRv toyFetch
      ⟨[toyRelCert 1 6 [⟨relatedExtOid, false, [1]⟩]], fun _ => .error .valueError, .ok false, fun c => .ok c⟩ false =
      .error .notImplemented ∧
    revokedForIssuing toyRel (fun o => decide (o = [66])) ⟨fun _ => true, fun _ => true, fun _ _ => none⟩ toyFetch
      ⟨[toyRelCert 1 6 [⟨sunSigOid, false, [1]⟩]], fun _ => .error .valueError, .ok false, fun c => .ok c⟩ false =
      .error .certRevoked := by decide +kernel

/-- A discovery certificate for the toy request, from a certificate of no known CA. -/
example : (processDiscovery toyRel toyRelCa toyFetch 150 "u" [] (toyRelCsr [])).toBool = true := by decide +kernel

/-- `C137_round_trip` applies to the toy. -/
example : discoveryCert toyRel toyFetch2
    (toyRelCert 2 6 [⟨kuOid, true, [1]⟩, prepDiscovery toyRel "other" false (some (toyRelCert 1 7 []))]) =
      .ok (some (toyRelCert 1 7 [])) :=
  (C137_round_trip toyRel "other" false (some (toyRelCert 1 7 [])) _ toyFetch2 (toyRelCert 1 7 []) []
    ⟨"other", some ⟨[1], none⟩, some ⟨[7], none⟩⟩ rfl rfl rfl ⟨[⟨kuOid, true, [1]⟩], [], rfl, rfl, by decide⟩
    rfl).2.2.2

/-- The requested key usage replaces that of the CA, the CA's extended key usage is used, the rest is kept. -/
example : mergeExts [⟨[50], false, [1]⟩, ⟨kuOid, false, [2]⟩, ⟨ekuOid, false, [3]⟩]
      [(kuOid, some ⟨kuOid, true, [9]⟩), (bcOid, none), (ekuOid, none)] =
    [⟨kuOid, true, [9]⟩, ⟨ekuOid, false, [3]⟩, ⟨[50], false, [1]⟩] := by decide +kernel

end Verif.Hybrid
