import Verif.Hybrid.ChameleonProps
import Verif.Hybrid.CrlProps

/-!
# Properties of migration chains and of certificates with a composite signature (C132, C133)
-/

namespace Verif.Hybrid

open Verif.CA

variable {S K : Type}

/-! ## C132: chains -/

/-- `b` is named as the issuer of `a` and its key verifies the signature of `a`. -/
def Issued (env : CatEnv S K) (a b : Cert) : Prop :=
  a.tbs.issuer = b.tbs.subject ∧
  ∃ k, env.loadKey b.tbs.spki = .ok k ∧ env.verifyAlg k a.tbs.alg (env.encTbs a.tbs) a.sig = .ok ()

theorem migSigned_ok (env : CatEnv S K) (c p : Cert) (h : migSigned env c p = .ok ()) :
    ∃ k, env.loadKey p.tbs.spki = .ok k ∧ env.verifyAlg k c.tbs.alg (env.encTbs c.tbs) c.sig = .ok () := by
  unfold migSigned at h
  cases hk : env.loadKey p.tbs.spki with
  | error e => rw [hk] at h; cases h
  | ok k => rw [hk] at h; exact ⟨k, rfl, h⟩

theorem migLoop_spec (env : CatEnv S K) (c : Cert) (certs r : List Cert) (h : migLoop env c certs = .ok r) :
    r.Sublist certs ∧ (c :: r).IsChain (Issued env) ∧ ∀ x ∈ (c :: r).dropLast, x.tbs.subject ≠ x.tbs.issuer := by
  induction certs generalizing c r with
  | nil =>
    cases h
    exact ⟨List.Sublist.slnil, List.IsChain.singleton _, fun x hx => by cases hx⟩
  | cons p l ih =>
    have skip : migLoop env c l = .ok r → r.Sublist (p :: l) ∧ (c :: r).IsChain (Issued env) ∧
        ∀ x ∈ (c :: r).dropLast, x.tbs.subject ≠ x.tbs.issuer := by
      intro h
      obtain ⟨h1, h2⟩ := ih _ _ h
      exact ⟨h1.cons _, h2⟩
    unfold migLoop at h
    by_cases hn : c.tbs.issuer ≠ p.tbs.subject
    · rw [if_pos hn] at h
      exact skip h
    · rw [if_neg hn] at h
      cases hs : migSigned env c p with
      | error e =>
        rw [hs] at h; dsimp only at h
        split at h
        · exact skip h
        · cases h
      | ok u =>
        rw [hs] at h; dsimp only at h
        by_cases hc : c.tbs.subject = c.tbs.issuer
        · rw [if_pos hc] at h
          cases h
          exact ⟨List.nil_sublist _, List.IsChain.singleton _, fun x hx => by cases hx⟩
        · rw [if_neg hc] at h
          cases hm : migLoop env p l with
          | error e => rw [hm] at h; cases h
          | ok q =>
            rw [hm] at h
            cases h
            obtain ⟨h1, h2, h3⟩ := ih _ _ hm
            refine ⟨h1.cons_cons _, List.isChain_cons_cons.2 ⟨⟨Decidable.not_not.1 hn, migSigned_ok _ _ _ hs⟩, h2⟩, ?_⟩
            intro x hx
            rw [List.dropLast_cons_cons] at hx
            rcases List.mem_cons.1 hx with rfl | hx
            · exact hc
            · exact h3 x hx

/-- A chain that is found starts with the certificate, goes on with some of the given ones in their order, each of them
named as the issuer of the one before and with the key that verifies its signature. It ends at the first self-issued
one, and it has a second member unless that was said to be unnecessary. -/
theorem C132_sound (env : CatEnv S K) (c : Cert) (certs : List Cert) (self : Bool) (l : List Cert)
    (h : migChain env c certs self = .ok l) :
    ∃ r, l = c :: r ∧ r.Sublist certs ∧ l.IsChain (Issued env) ∧
      (∀ x ∈ l.dropLast, x.tbs.subject ≠ x.tbs.issuer) ∧ (r = [] → self = true) := by
  unfold migChain at h
  split at h
  · cases h
  · cases hm : migLoop env c certs with
    | error e => rw [hm] at h; cases h
    | ok r =>
      rw [hm] at h; dsimp only at h
      split at h
      · cases h
      · rename_i hn
        cases h
        obtain ⟨h1, h2, h3⟩ := migLoop_spec _ _ _ _ hm
        refine ⟨r, rfl, h1, h2, h3, fun hr => ?_⟩
        cases self with
        | true => rfl
        | false => exact absurd ⟨hr, rfl⟩ hn

theorem migLoop_skip (env : CatEnv S K) (c : Cert) (l : List Cert) (h : ∀ x ∈ l, x.tbs.subject ≠ c.tbs.issuer) :
    migLoop env c l = .ok [] := by
  induction l with
  | nil => rfl
  | cons p l ih =>
    unfold migLoop
    rw [if_pos (fun hx => h p List.mem_cons_self hx.symm)]
    exact ih (fun x hx => h x (List.mem_cons_of_mem _ hx))

theorem migLoop_found (env : CatEnv S K) (c : Cert) (certs path : List Cert)
    (hn : certs.Pairwise (fun a b => a.tbs.subject ≠ b.tbs.subject)) (hp : path.Sublist certs)
    (hc : (c :: path).IsChain (Issued env)) (hs : ∀ x ∈ (c :: path).dropLast, x.tbs.subject ≠ x.tbs.issuer)
    (hl : ∀ y ∈ (c :: path).getLast?, ∀ x ∈ certs, x.tbs.subject = y.tbs.issuer → x ∈ path) :
    migLoop env c certs = .ok path := by
  induction certs generalizing c path with
  | nil => cases hp; rfl
  | cons p l ih =>
    rw [List.pairwise_cons] at hn
    obtain ⟨hn1, hn2⟩ := hn
    cases path with
    | nil =>
      refine migLoop_skip env c _ (fun x hx hxe => ?_)
      cases hl c rfl x hx hxe
    | cons q path =>
      obtain ⟨⟨hq1, k, hq2, hq3⟩, hc2⟩ := List.isChain_cons_cons.1 hc
      cases hp with
      | cons _ hp =>
        unfold migLoop
        have hne : c.tbs.issuer ≠ p.tbs.subject := by
          rw [hq1]
          exact fun hx => hn1 q (hp.subset List.mem_cons_self) hx.symm
        rw [if_pos hne]
        refine ih c (q :: path) hn2 hp hc hs (fun y hy x hx hxe => ?_)
        exact hl y hy x (List.mem_cons_of_mem _ hx) hxe
      | cons_cons _ hp =>
        unfold migLoop
        rw [if_neg (not_not_intro hq1)]
        have : migSigned env c p = .ok () := by
          unfold migSigned
          rw [hq2]
          exact hq3
        rw [this]
        dsimp only
        rw [List.dropLast_cons_cons] at hs
        rw [if_neg (hs c List.mem_cons_self)]
        have := ih p path hn2 hp hc2 (fun x hx => hs x (List.mem_cons_of_mem _ hx)) (fun y hy x hx hxe => by
          have h1 := hl y (by rw [List.getLast?_cons_cons]; exact hy) x (List.mem_cons_of_mem _ hx) hxe
          rcases List.mem_cons.1 h1 with rfl | h1
          · exact absurd rfl (hn1 x hx)
          · exact h1)
        rw [this]
        rfl

/-- If the given certificates have distinct names and the issuers occur among them in the order of the chain, it is
found, up to one whose issuer is not given or that is self-issued. -/
theorem C132_found_partial (env : CatEnv S K) (c q : Cert) (certs path : List Cert) (self : Bool)
    (hn : certs.Pairwise (fun a b => a.tbs.subject ≠ b.tbs.subject)) (hp : (q :: path).Sublist certs)
    (hc : (c :: q :: path).IsChain (Issued env))
    (hs : ∀ x ∈ (c :: q :: path).dropLast, x.tbs.subject ≠ x.tbs.issuer)
    (hl : ∀ y ∈ (q :: path).getLast?, ∀ x ∈ certs, x.tbs.subject = y.tbs.issuer → x ∈ q :: path) :
    migChain env c certs self = .ok (c :: q :: path) := by
  unfold migChain
  rw [if_neg (by rintro rfl; cases hp), migLoop_found env c certs (q :: path) hn hp hc hs (by
    rw [List.getLast?_cons_cons]; exact hl)]
  rfl

/-- A certificate for the name `n` with key `k`, issued by the name `i` with key `s`. -/
def toyCert (n : UInt8) (k : UInt8) (i s : UInt8) : Cert :=
  ⟨⟨[], 1, ⟨[1], none⟩, [i], ⟨[1], [2], none⟩, [n], [k], []⟩, ⟨[1], none⟩, [s, n, k]⟩

/-- An end entity, an intermediate CA and a root. -/
def migLeaf : Cert := toyCert 1 11 2 12
def migInter : Cert := toyCert 2 12 3 13
def migRoot : Cert := toyCert 3 13 3 13

example : migChain toyCat migLeaf [migInter, toyCert 9 9 9 9, migRoot] false = .ok [migLeaf, migInter, migRoot] :=
  C132_found_partial toyCat migLeaf migInter [migInter, toyCert 9 9 9 9, migRoot] [migRoot] false (by decide)
    ((List.Sublist.cons _ (List.Sublist.refl _)).cons_cons _)
    (List.isChain_cons_cons.2 ⟨⟨rfl, 12, rfl, rfl⟩, List.isChain_cons_cons.2 ⟨⟨rfl, 13, rfl, rfl⟩, .singleton _⟩⟩)
    (by decide) (by decide)

/-- The order of the given certificates matters: there is only one pass over them. -/
theorem C132_order_refuted :
    ¬ ∀ (env : CatEnv UInt8 UInt8), Faithful env → ∀ (c : Cert) (certs certs' : List Cert), certs.Perm certs' →
      certs.Pairwise (fun a b => a.tbs.subject ≠ b.tbs.subject) →
      migChain env c certs false = migChain env c certs' false := by
  intro h
  have := h toyCat toyCat_faithful migLeaf [migInter, migRoot] [migRoot, migInter] (List.Perm.swap _ _ _) (by decide)
  exact absurd this (by decide +kernel)

/-- As `toyCat`, with composite keys from 100 on and composite signatures of algorithm 9: another key is a
`TypeError`. -/
def toyCompCat : CatEnv UInt8 UInt8 := { toyCat with
  prepAlg := fun s _ _ => .ok (if s < 100 then ⟨[1], none⟩ else ⟨[9], none⟩)
  encAlg := fun a => if a = ⟨[1], none⟩ then [7] else [9]
  decAlg := fun b => if b = [7] then some (⟨[1], none⟩, []) else if b = [9] then some (⟨[9], none⟩, []) else none
  verifyAlg := fun k a d sig =>
    if a.oid = [9] ∧ k < 100 then .error .typeError
    else if sig = k :: d then .ok () else .error .invalidSignature }

theorem toyCompCat_faithful : Faithful toyCompCat where
  alg := by
    intro s h p a ha
    have ha : Except.ok (if s < 100 then (⟨[1], none⟩ : Alg) else ⟨[9], none⟩) = Except.ok (ε := PyErr) a := ha
    injection ha with ha
    subst ha
    by_cases hs : s < 100
    · rw [if_pos hs]; decide
    · rw [if_neg hs]; decide
  bits := fun _ => rfl
  spki := fun k => ⟨[k], rfl, rfl⟩
  verifier := fun _ _ _ _ _ => rfl
  hash := by
    intro s h p a d sig _ hs
    cases hs
    exact ⟨none, rfl, if_pos rfl⟩
  algSig := by
    intro s h p a d sig ha hs
    cases hs
    have ha : Except.ok (if s < 100 then (⟨[1], none⟩ : Alg) else ⟨[9], none⟩) = Except.ok (ε := PyErr) a := ha
    injection ha with ha
    subst ha
    have key : ∀ a : Alg, (a.oid = [9] → ¬ s < 100) → toyCompCat.verifyAlg s a d (s :: d) = .ok () := by
      intro a ha
      show (if a.oid = [9] ∧ s < 100 then Except.error PyErr.typeError
        else if s :: d = s :: d then Except.ok () else Except.error PyErr.invalidSignature) = Except.ok ()
      rw [if_neg (fun hx => ha hx.1 hx.2), if_pos rfl]
    refine key _ (fun ho => ?_)
    intro hs
    rw [if_pos hs] at ho
    exact absurd ho (by decide)

/-- A certificate with a composite signature. -/
def compLeaf : Cert :=
  ⟨⟨[], 1, ⟨[9], none⟩, [2], ⟨[1], [2], none⟩, [1], [11], []⟩, ⟨[9], none⟩, [112, 1, 11]⟩

/-- The issuer among the given ones is not found if one with the same name and a traditional key comes first: its
`TypeError` ends the search (as during a migration, when a CA has certificates of both kinds). -/
theorem C132_same_name_refuted :
    ¬ ∀ (env : CatEnv UInt8 UInt8), Faithful env → ∀ (c p : Cert) (certs : List Cert), p ∈ certs → Issued env c p →
      c.tbs.subject ≠ c.tbs.issuer → ∃ l, migChain env c certs false = .ok l := by
  intro h
  obtain ⟨l, hl⟩ := h toyCompCat toyCompCat_faithful compLeaf (toyCert 2 112 2 112) [toyCert 2 12 2 12, toyCert 2 112 2 112]
    (by decide) ⟨rfl, 112, rfl, rfl⟩ (by decide)
  have he : migChain toyCompCat compLeaf [toyCert 2 12 2 12, toyCert 2 112 2 112] false = .error .typeError := by
    decide +kernel
  rw [he] at hl
  cases hl

example : migChain toyCompCat compLeaf [toyCert 2 112 2 112, toyCert 2 12 2 12] false =
    .ok [compLeaf, toyCert 2 112 2 112] := by decide +kernel

/-! ## C133: composite signatures of certificates, and the alternative key of a certificate -/

/-- A composite signature of a certificate is accepted only if the composite key made of the second certificate's and
the issuer's verifies it. -/
theorem C133_sound (env : HybEnv S K) (ee issuer : Cert) (other : Option Cert)
    (h : verifyCertHybrid env ee issuer other = .ok ()) :
    ∃ o p t k, other = some o ∧ env.loadKey o.tbs.spki = .ok p ∧ env.loadKey issuer.tbs.spki = .ok t ∧
      env.compositeKey p t = .ok k ∧ env.verifyAlg k ee.tbs.alg (env.encTbs ee.tbs) ee.sig = .ok () := by
  unfold verifyCertHybrid at h
  cases other with
  | none => cases h
  | some o =>
    dsimp only at h
    split at h
    · cases h
    · cases h1 : env.loadKey issuer.tbs.spki with
      | error e => rw [h1] at h; cases h
      | ok t =>
        rw [h1] at h; dsimp only at h
        cases h2 : env.loadKey o.tbs.spki with
        | error e => rw [h2] at h; cases h
        | ok p =>
          rw [h2] at h; dsimp only at h
          cases h3 : env.compositeKey p t with
          | error e => rw [h3] at h; cases h
          | ok k =>
            rw [h3] at h
            exact ⟨o, p, t, k, rfl, h2, rfl, h3, h⟩

/-- It is accepted if the subject's own key is a composite one. -/
theorem C133_complete_partial (env : HybEnv S K) (ee issuer o : Cert) (p t k : K)
    (he : env.certClass ee.tbs.spki = .composite) (hp : env.loadKey o.tbs.spki = .ok p)
    (ht : env.loadKey issuer.tbs.spki = .ok t) (hk : env.compositeKey p t = .ok k) :
    verifyCertHybrid env ee issuer (some o) = env.verifyAlg k ee.tbs.alg (env.encTbs ee.tbs) ee.sig := by
  unfold verifyCertHybrid
  dsimp only
  rw [if_neg (not_not_intro he), ht]
  dsimp only
  rw [hp]
  dsimp only
  rw [hk]

/-- Without a second certificate the check always fails: the branches for the issuer's composite key and for a given
alternative key are never reached. -/
theorem C133_other_refuted (env : HybEnv S K) (ee issuer : Cert) :
    verifyCertHybrid env ee issuer none = .error .typeError := rfl

/-- Which kind of signature it is, is decided by the subject's key: a valid composite signature over a certificate for
a traditional key is refused. -/
theorem C133_subject_key_refuted (env : HybEnv S K) (ee issuer o : Cert) (h : env.certClass ee.tbs.spki ≠ .composite) :
    verifyCertHybrid env ee issuer (some o) = .error .unknownOID := by
  unfold verifyCertHybrid
  dsimp only
  rw [if_pos h]

/-- Composite keys exist: 200 is made of 60 and 7, and it is the subject's key of `compEe`. -/
def toyComp2 : HybEnv UInt8 UInt8 := { toyHyb with
  certClass := fun b => if b = [200] then .composite else .trad
  compositeKey := fun p t => if p = 60 ∧ t = 7 then .ok 200 else .error .invalidKeyCombination
  deltaSpki := fun _ => .ok [5] }
def compEe : Cert :=
  ⟨⟨[], 1, ⟨[9], none⟩, [2], ⟨[1], [2], none⟩, [1], [200], []⟩, ⟨[9], none⟩, [200, 1, 200]⟩
def compEe2 : Cert :=
  ⟨⟨[], 1, ⟨[9], none⟩, [2], ⟨[1], [2], none⟩, [1], [11], []⟩, ⟨[9], none⟩, [200, 1, 11]⟩

example : verifyCertHybrid toyComp2 compEe (toyCert 2 7 2 7) (some (toyCert 2 60 2 60)) = .ok () := by decide +kernel
example : verifyCertHybrid toyComp2 compEe (toyCert 2 60 2 60) (some (toyCert 2 7 2 7)) =
    .error .invalidKeyCombination := by decide +kernel
example : verifyCertHybrid toyComp2 compEe2 (toyCert 2 7 2 7) (some (toyCert 2 60 2 60)) = .error .unknownOID := by
  decide +kernel

/-- The extension with the identifier that comes first. -/
abbrev Has (c : Cert) (o : Oid) : Prop := ∃ e ∈ c.tbs.exts, e.oid = o

theorem has_of_getExt {c : Cert} {o : Oid} {e : Ext} (h : getExt c.tbs.exts o = some e) : Has c o :=
  ⟨e, getExt_mem h, getExt_oid h⟩

theorem not_has_of_getExt {c : Cert} {o : Oid} (h : getExt c.tbs.exts o = none) : ¬ Has c o := by
  rintro ⟨e, he, ho⟩
  exact (getExt_none_iff _ o).1 h e he ho

theorem except_map_some {x : Except PyErr K} {k : K} (h : x.map some = .ok (some k)) : x = .ok k := by
  cases x with
  | error e => cases h
  | ok v => cases h; rfl

theorem except_map_none {x : Except PyErr K} (h : x.map some = .ok none) : False := by
  cases x with
  | error e => cases h
  | ok v => cases h

/-- Where the alternative key of a certificate comes from, in this order: the Sun hybrid extension, the related
certificate (if certificates to look in are given), the alternative key, the certificate that the subject information
access names, the delta certificate, the composite key. -/
theorem C133_alt_key (env : HybEnv S K) (c : Cert) (others : Option (List Cert)) (k : K)
    (h : mayAltKey env c others = .ok (some k)) :
    (Has c [1, 3, 6, 1, 5, 5, 7, 4, 9996, 9999, 4, 4, 6] ∧ env.sunKey c.tbs.exts = .ok (some k)) ∨
    (¬ Has c [1, 3, 6, 1, 5, 5, 7, 4, 9996, 9999, 4, 4, 6] ∧
      ((Has c [1, 3, 6, 1, 5, 5, 7, 4, 9996, 9999, 4, 2, 1] ∧ ∃ l r, others = some l ∧ env.related l c = .ok r ∧
          env.loadKey r.tbs.spki = .ok k) ∨
       ((¬ Has c [1, 3, 6, 1, 5, 5, 7, 4, 9996, 9999, 4, 2, 1] ∨ others = none) ∧
        ((∃ e b, FirstExt c.tbs.exts [2, 5, 29, 72] e ∧ env.decSpki e.value = some (b, []) ∧ env.loadKey b = .ok k ∧
            env.isPqSig k = true) ∨
         (¬ Has c [2, 5, 29, 72] ∧
          ((∃ e d r, FirstExt c.tbs.exts [1, 3, 6, 1, 5, 5, 7, 1, 11] e ∧ env.siaDesc e = .ok d ∧ env.fetch d = .ok r ∧
              env.loadKey r.tbs.spki = .ok k) ∨
           (Has c dcdOid ∧ ∃ b, env.deltaSpki c = .ok b ∧ env.loadKey b = .ok k) ∨
           (¬ Has c dcdOid ∧ env.certClass c.tbs.spki = .composite ∧
              ∃ k', env.loadKey c.tbs.spki = .ok k' ∧ env.pqPart k' = .ok k))))))) := by
  unfold mayAltKey at h
  cases hd : siaOf env c.tbs.exts with
  | error e => rw [hd] at h; cases h
  | ok desc =>
    rw [hd] at h; dsimp only at h
    cases h1 : getExt c.tbs.exts sunPubOid with
    | some e =>
      rw [h1] at h; dsimp only at h
      refine Or.inl ⟨has_of_getExt h1, ?_⟩
      cases h2 : env.sunKey c.tbs.exts with
      | error e => rw [h2] at h; cases h
      | ok o =>
        rw [h2] at h
        cases o with
        | none => cases h
        | some k' => cases h; rfl
    | none =>
      rw [h1] at h; dsimp only at h
      refine Or.inr ⟨not_has_of_getExt h1, ?_⟩
      have rest : altKeyRest env c desc = .ok (some k) → _ := fun hr => by
        have : (∃ e b, FirstExt c.tbs.exts [2, 5, 29, 72] e ∧ env.decSpki e.value = some (b, []) ∧
              env.loadKey b = .ok k ∧ env.isPqSig k = true) ∨
            (¬ Has c [2, 5, 29, 72] ∧
              ((∃ e d r, FirstExt c.tbs.exts [1, 3, 6, 1, 5, 5, 7, 1, 11] e ∧ env.siaDesc e = .ok d ∧
                  env.fetch d = .ok r ∧ env.loadKey r.tbs.spki = .ok k) ∨
               (Has c dcdOid ∧ ∃ b, env.deltaSpki c = .ok b ∧ env.loadKey b = .ok k) ∨
               (¬ Has c dcdOid ∧ env.certClass c.tbs.spki = .composite ∧
                  ∃ k', env.loadKey c.tbs.spki = .ok k' ∧ env.pqPart k' = .ok k))) := by
          unfold altKeyRest at hr
          cases h3 : getExt c.tbs.exts altSpkiOid with
          | some e =>
            rw [h3] at hr; dsimp only at hr
            refine Or.inl ?_
            cases h4 : loadCat env.toCatEnv [e] with
            | error e => rw [h4] at hr; cases hr
            | ok k' =>
              rw [h4] at hr; dsimp only at hr
              split at hr
              · rename_i hq
                cases hr
                unfold loadCat at h4
                have hg : getExt [e] altSpkiOid = some e := by
                  rw [getExt_cons, if_pos (getExt_oid h3)]
                rw [hg] at h4; dsimp only at h4
                cases h5 : env.decSpki e.value with
                | none => rw [h5] at h4; cases h4
                | some p =>
                  obtain ⟨b, r⟩ := p
                  rw [h5] at h4; dsimp only at h4
                  split at h4
                  · cases h4
                  · rename_i hr
                    rw [Decidable.not_not.1 hr]  at h5
                    exact ⟨e, b, getExt_some_split _ _ _ h3, h5, h4, hq⟩
              · cases hr
          | none =>
            rw [h3] at hr; dsimp only at hr
            refine Or.inr ⟨not_has_of_getExt h3, ?_⟩
            cases desc with
            | some d =>
              dsimp only at hr
              refine Or.inl ?_
              unfold siaOf at hd
              cases h4 : getExt c.tbs.exts siaOid with
              | none => rw [h4] at hd; cases hd
              | some e =>
                rw [h4] at hd; dsimp only at hd
                cases h5 : env.siaDesc e with
                | error e => rw [h5] at hd; dsimp only at hd; split at hd <;> cases hd
                | ok d' =>
                  rw [h5] at hd
                  cases hd
                  cases h6 : env.fetch d with
                  | error e => rw [h6] at hr; cases hr
                  | ok r =>
                    rw [h6] at hr
                    exact ⟨e, d, r, getExt_some_split _ _ _ h4, h5, h6, except_map_some hr⟩
            | none =>
              dsimp only at hr
              refine Or.inr ?_
              cases h4 : getExt c.tbs.exts dcdOid with
              | some e =>
                rw [h4] at hr; dsimp only at hr
                cases h5 : env.deltaSpki c with
                | error e => rw [h5] at hr; cases hr
                | ok b =>
                  rw [h5] at hr
                  exact Or.inl ⟨has_of_getExt h4, b, rfl, except_map_some hr⟩
              | none =>
                rw [h4] at hr; dsimp only at hr
                split at hr
                · rename_i hcc
                  cases h5 : env.loadKey c.tbs.spki with
                  | error e => rw [h5] at hr; cases hr
                  | ok k' =>
                    rw [h5] at hr
                    exact Or.inr ⟨not_has_of_getExt h4, hcc, k', rfl, except_map_some hr⟩
                · cases hr
        exact this
      cases h2 : getExt c.tbs.exts relatedOid with
      | none =>
        rw [h2] at h; dsimp only at h
        exact Or.inr ⟨Or.inl (not_has_of_getExt h2), rest h⟩
      | some e =>
        rw [h2] at h
        cases others with
        | none => exact Or.inr ⟨Or.inr rfl, rest h⟩
        | some l =>
          dsimp only at h
          cases h3 : env.related l c with
          | error e => rw [h3] at h; cases h
          | ok r =>
            rw [h3] at h
            exact Or.inl ⟨has_of_getExt h2, l, r, rfl, h3, except_map_some h⟩

/-- There is no alternative key only if nothing in the certificate says so, or its related certificate could not be
looked for. -/
theorem C133_no_alt_key (env : HybEnv S K) (c : Cert) (others : Option (List Cert))
    (h : mayAltKey env c others = .ok none) :
    ¬ Has c [1, 3, 6, 1, 5, 5, 7, 4, 9996, 9999, 4, 4, 6] ∧
    (Has c [1, 3, 6, 1, 5, 5, 7, 4, 9996, 9999, 4, 2, 1] → others = none) ∧ ¬ Has c [2, 5, 29, 72] ∧ ¬ Has c dcdOid ∧
    env.certClass c.tbs.spki ≠ .composite := by
  unfold mayAltKey at h
  cases hd : siaOf env c.tbs.exts with
  | error e => rw [hd] at h; cases h
  | ok desc =>
    rw [hd] at h; dsimp only at h
    cases h1 : getExt c.tbs.exts sunPubOid with
    | some e =>
      rw [h1] at h; dsimp only at h
      cases h2 : env.sunKey c.tbs.exts with
      | error e => rw [h2] at h; cases h
      | ok o => rw [h2] at h; cases o <;> cases h
    | none =>
      rw [h1] at h; dsimp only at h
      refine ⟨not_has_of_getExt h1, ?_⟩
      have rest : altKeyRest env c desc = .ok none →
          ¬ Has c [2, 5, 29, 72] ∧ ¬ Has c dcdOid ∧ env.certClass c.tbs.spki ≠ .composite := fun hr => by
        unfold altKeyRest at hr
        cases h3 : getExt c.tbs.exts altSpkiOid with
        | some e =>
          rw [h3] at hr; dsimp only at hr
          cases h4 : loadCat env.toCatEnv [e] with
          | error e => rw [h4] at hr; cases hr
          | ok k' => rw [h4] at hr; dsimp only at hr; split at hr <;> cases hr
        | none =>
          rw [h3] at hr; dsimp only at hr
          cases desc with
          | some d =>
            dsimp only at hr
            cases h6 : env.fetch d with
            | error e => rw [h6] at hr; cases hr
            | ok r => rw [h6] at hr; exact (except_map_none hr).elim
          | none =>
            dsimp only at hr
            cases h4 : getExt c.tbs.exts dcdOid with
            | some e =>
              rw [h4] at hr; dsimp only at hr
              cases h5 : env.deltaSpki c with
              | error e => rw [h5] at hr; cases hr
              | ok b => rw [h5] at hr; exact (except_map_none hr).elim
            | none =>
              rw [h4] at hr; dsimp only at hr
              split at hr
              · cases h5 : env.loadKey c.tbs.spki with
                | error e => rw [h5] at hr; cases hr
                | ok k' => rw [h5] at hr; exact (except_map_none hr).elim
              · rename_i hcc
                exact ⟨not_has_of_getExt h3, not_has_of_getExt h4, hcc⟩
      cases h2 : getExt c.tbs.exts relatedOid with
      | none =>
        rw [h2] at h
        exact ⟨fun hh => absurd hh (not_has_of_getExt h2), rest h⟩
      | some e =>
        rw [h2] at h
        cases others with
        | none => exact ⟨fun _ => rfl, rest h⟩
        | some l =>
          dsimp only at h
          cases h3 : env.related l c with
          | error e => rw [h3] at h; cases h
          | ok r => rw [h3] at h; exact (except_map_none h).elim

/-- A certificate with a delta certificate. -/
def deltaHolder : Cert :=
  ⟨⟨[], 1, ⟨[1], none⟩, [2], ⟨[1], [2], none⟩, [1], [7], [⟨dcdOid, false, [1]⟩]⟩, ⟨[1], none⟩, []⟩

example : mayAltKey toyComp2 toySender none = .ok (some 60) := by decide +kernel
example : mayAltKey toyComp2 migRoot none = .ok none := by decide +kernel

/-- The key is said to be a post-quantum signature key, but only that of the alternative key extension is checked to be
one: the delta certificate may have a traditional key. -/
theorem C133_pq_refuted :
    ¬ ∀ (env : HybEnv UInt8 UInt8), PopFaithful env.toPopEnv → ∀ (c : Cert) (others : Option (List Cert)) (k : UInt8),
      mayAltKey env c others = .ok (some k) → env.isPqSig k = true := by
  intro h
  have := h toyComp2 toyPop_faithful deltaHolder none 5 (by decide +kernel)
  exact absurd this (by decide +kernel)

end Verif.Hybrid
