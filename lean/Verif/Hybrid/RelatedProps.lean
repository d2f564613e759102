import Verif.Hybrid.Related
import Verif.Hybrid.CatalystIssueProps
import Verif.Hybrid.ChameleonProps

/-!
# Properties of related certificates

C134: the `RelatedCertificate` extension. C135: the `RequesterCertificate` attribute and the issuing of related
certificates.
-/

namespace Verif.Hybrid

open Verif.CA Verif.Check

variable {S K : Type}

/-- The codec of the extension is an inverse and a signature verifies under the key and hash it was made with. -/
structure RelFaithful (env : RelEnv S K) : Prop where
  rel : ∀ d, env.decRel (env.encRel d) = some (d, [])
  sig : ∀ s h d g, env.sign s h false d = .ok g → env.verify (env.pub s) h d g = .ok ()
  name : ∀ n, env.sameName n n = true

/-- `e` is the first extension with the OID `o`. -/
def IsFirst (l : List Ext) (o : Oid) (e : Ext) : Prop :=
  ∃ pre post, l = pre ++ e :: post ∧ e.oid = o ∧ ∀ x ∈ pre, x.oid ≠ o

theorem getExt_iff (l : List Ext) (o : Oid) (e : Ext) : getExt l o = some e ↔ IsFirst l o e := by
  constructor
  · exact getExt_some_split l o e
  · rintro ⟨pre, post, rfl, rfl, h⟩
    exact getExt_split pre post e h

/-- `h` is the hash that belongs to the signature algorithm of `c`: that of the algorithm, or else the one to be used
with it. -/
def HashName (env : RelEnv S K) (c : Cert) (h : String) : Prop :=
  env.hashOf c.tbs.alg.oid = .ok (some h) ∨ (env.hashOf c.tbs.alg.oid = .ok none ∧ env.digestOf c.tbs.alg = .ok h)

/-- The hash in use: the given one, or else that of the certificate. -/
def UsedHash (env : RelEnv S K) (hash : Option String) (c : Cert) (h : String) : Prop :=
  hash = some h ∨ (hash = none ∧ HashName env c h)

theorem relHash_iff (env : RelEnv S K) (hash : Option String) (c : Cert) (h : String) :
    relHash env hash c = .ok h ↔ UsedHash env hash c h := by
  unfold relHash UsedHash HashName
  cases hash with
  | some h' =>
    constructor
    · intro e
      cases e
      exact .inl rfl
    · rintro (e | ⟨e, -⟩)
      · cases e
        rfl
      · cases e
  | none =>
    dsimp only
    cases hh : env.hashOf c.tbs.alg.oid with
    | error e => simp
    | ok o =>
      cases o with
      | none => simp
      | some h' => simp

/-! ## The extension -/

/-- An accepted related certificate is the one in the extension: its hash, with the hash algorithm of the certificate
with the extension, is the value of the first such extension. -/
theorem C134_sound (env : RelEnv S K) (a rel : Cert) (hash : Option String)
    (h : validateRelated env a rel hash = .ok ()) :
    ∃ e d hn, IsFirst a.tbs.exts relatedExtOid e ∧ env.decRel e.value = some (d, []) ∧ d ≠ [] ∧
      UsedHash env hash a hn ∧ env.certHash hn rel = .ok d := by
  unfold validateRelated relatedValue at h
  cases hg : getExt a.tbs.exts relatedExtOid with
  | none => rw [hg] at h; cases h
  | some e =>
    rw [hg] at h
    dsimp only at h
    cases hd : env.decRel e.value with
    | none => rw [hd] at h; cases h
    | some p =>
      obtain ⟨d, r⟩ := p
      rw [hd] at h
      cases r with
      | cons x r => cases h
      | nil =>
        dsimp only at h
        by_cases h0 : d = []
        · rw [if_pos h0] at h; cases h
        · rw [if_neg h0] at h
          cases hh : relHash env hash a with
          | error e => rw [hh] at h; cases h
          | ok hn =>
            rw [hh] at h
            dsimp only at h
            cases hc : env.certHash hn rel with
            | error e => rw [hc] at h; cases h
            | ok d' =>
              rw [hc] at h
              dsimp only at h
              by_cases hne : d' ≠ d
              · rw [if_pos hne] at h; cases h
              · have hne : d' = d := by
                  by_cases hx : d' = d
                  · exact hx
                  · exact absurd hx hne
                subst hne
                exact ⟨e, d', hn, (getExt_iff _ _ _).1 hg, hd, h0, (relHash_iff _ _ _ _).1 hh, hc⟩

/-- With a collision free hash at most one certificate is accepted for a given certificate. -/
theorem C134_unique (env : RelEnv S K) (a r₁ r₂ : Cert) (hash : Option String)
    (hinj : ∀ h c c' d, env.certHash h c = .ok d → env.certHash h c' = .ok d → c = c')
    (h₁ : validateRelated env a r₁ hash = .ok ()) (h₂ : validateRelated env a r₂ hash = .ok ()) : r₁ = r₂ := by
  obtain ⟨e, d, hn, hf, hd, -, hu, hc⟩ := C134_sound env a r₁ hash h₁
  obtain ⟨e', d', hn', hf', hd', -, hu', hc'⟩ := C134_sound env a r₂ hash h₂
  have he := (getExt_iff _ _ _).2 hf
  rw [(getExt_iff _ _ _).2 hf'] at he
  cases he
  rw [hd] at hd'
  cases hd'
  have hh := (relHash_iff _ _ _ _).2 hu
  rw [(relHash_iff _ _ _ _).2 hu'] at hh
  cases hh
  exact hinj _ _ _ _ hc hc'

theorem prepRelated_ok (env : RelEnv S K) (rel : Cert) (hash : Option String) (critical : Bool) (e : Ext)
    (h : prepRelated env rel hash critical = .ok e) :
    ∃ hn d, UsedHash env hash rel hn ∧ env.certHash hn rel = .ok d ∧ e = ⟨relatedExtOid, critical, env.encRel d⟩ := by
  unfold prepRelated at h
  cases hh : relHash env hash rel with
  | error e => rw [hh] at h; cases h
  | ok hn =>
    rw [hh] at h
    dsimp only at h
    cases hc : env.certHash hn rel with
    | error e => rw [hc] at h; cases h
    | ok d =>
      rw [hc] at h
      cases h
      exact ⟨hn, d, (relHash_iff _ _ _ _).1 hh, hc, rfl⟩

/-- The bits of `x` are among those of `y`. -/
def BitsIn (x y : List Bool) : Prop := ∀ i : Nat, x[i]? = some true → y[i]? = some true

theorem setNames_sub (names : List (List Char)) (x y : List Bool) (h : BitsIn x y) :
    (setNames names x).Sublist (setNames names y) := by
  induction names generalizing x y with
  | nil => simp [setNames]
  | cons n names ih =>
    cases x with
    | nil => simp [setNames]
    | cons b x =>
      have h0 := h 0
      have hs : ∀ i : Nat, x[i]? = some true → y.tail[i]? = some true := by
        intro i hi
        have := h (i + 1) (by rw [List.getElem?_cons_succ]; exact hi)
        cases y with
        | nil => simp at this
        | cons c y => simpa using this
      cases y with
      | nil =>
        have hb : b = false := by
          cases b
          · rfl
          · simp at h0
        subst hb
        have := ih x [] hs
        simpa [setNames] using this
      | cons c y =>
        have := ih x y hs
        cases b with
        | false =>
          cases c with
          | false => simpa [setNames] using this
          | true =>
            have h2 := List.Sublist.cons n this
            simpa [setNames] using h2
        | true =>
          have hc : c = true := by simpa using h0
          subst hc
          have h2 := List.Sublist.cons_cons n this
          simpa [setNames] using h2

theorem mem_intercalate (sep : List Char) (l : List (List Char)) (c : Char) :
    c ∈ List.intercalate sep l ↔ (∃ n ∈ l, c ∈ n) ∨ (c ∈ sep ∧ 2 ≤ l.length) := by
  induction l with
  | nil => simp [List.intercalate]
  | cons a l ih =>
    cases l with
    | nil => simp [List.intercalate]
    | cons b l =>
      have he : List.intercalate sep (a :: b :: l) = a ++ sep ++ List.intercalate sep (b :: l) := by
        simp [List.intercalate, List.intersperse]
      rw [he, List.mem_append, List.mem_append, ih]
      constructor
      · rintro ((h | h) | (⟨n, hn, h⟩ | ⟨h, -⟩))
        · exact .inl ⟨a, by simp, h⟩
        · exact .inr ⟨h, by simp⟩
        · exact .inl ⟨n, List.mem_cons_of_mem _ hn, h⟩
        · exact .inr ⟨h, by simp⟩
      · rintro (⟨n, hn, h⟩ | ⟨h, -⟩)
        · rcases List.mem_cons.1 hn with rfl | hn
          · exact .inl (.inl h)
          · exact .inr (.inl ⟨n, hn, h⟩)
        · exact .inl (.inr h)

theorem checkKu_sub (x y : List Bool) (h : BitsIn x y) : checkKu (some x) (some y) = .ok () := by
  have hs := setNames_sub keyUsageNames x y h
  unfold checkKu
  dsimp only
  rw [if_neg]
  rintro ⟨c, hc, hn⟩
  apply hn
  unfold joinedNames at hc ⊢
  rw [mem_intercalate] at hc ⊢
  rcases hc with ⟨n, hn, hc⟩ | ⟨hc, hl⟩
  · exact .inl ⟨n, hs.subset hn, hc⟩
  · exact .inr ⟨hc, Nat.le_trans hl hs.length_le⟩

/-- Key usage of `a` that the related certificate covers: `a` has none, or both have it and the bits of `a` are among
those of the other. -/
def KuCovered (env : RelEnv S K) (a rel : Cert) : Prop :=
  (∀ x ∈ a.tbs.exts, x.oid ≠ kuOid) ∨
    ∃ e e' x y, IsFirst a.tbs.exts kuOid e ∧ IsFirst rel.tbs.exts kuOid e' ∧ env.decKu e.value = .ok x ∧
      env.decKu e'.value = .ok y ∧ BitsIn x y

/-- A certificate with the extension made from the related certificate is accepted with it, if both certificates are
signed with algorithms of the same hash (or the hash is given), the certificate has no extended key usage and the
related one covers its key usage. -/
theorem C134_round_trip_partial (env : RelEnv S K) (F : RelFaithful env) (a rel : Cert) (hash : Option String)
    (critical : Bool) (e : Ext) (hn : String) (hp : prepRelated env rel hash critical = .ok e)
    (hf : IsFirst a.tbs.exts relatedExtOid e) (hr : UsedHash env hash rel hn) (ha : UsedHash env hash a hn)
    (hne : env.certHash hn rel ≠ .ok []) (heku : ∀ x ∈ a.tbs.exts, x.oid ≠ ekuOid)
    (hku : KuCovered env a rel) (hkr : ∀ x ∈ rel.tbs.exts, x.oid = kuOid → ∃ b, env.decKu x.value = .ok b) :
    validateRelated env a rel hash = .ok () := by
  obtain ⟨hn', d, hu, hc, rfl⟩ := prepRelated_ok env rel hash critical e hp
  have h1 := (relHash_iff _ _ _ _).2 hu
  rw [(relHash_iff _ _ _ _).2 hr] at h1
  cases h1
  have hd : d ≠ [] := by
    intro h
    rw [h] at hc
    exact hne hc
  unfold validateRelated relatedValue
  rw [(getExt_iff _ _ _).2 hf]
  dsimp only
  rw [F.rel d]
  dsimp only
  rw [if_neg hd, (relHash_iff _ _ _ _).2 ha]
  dsimp only
  rw [hc]
  dsimp only
  rw [if_neg (fun h => h rfl)]
  have he : extValue env.decEku a.tbs.exts ekuOid = .ok none := by
    unfold extValue
    rw [(getExt_none_iff _ _).2 heku]
  unfold checkUsages
  rw [he]
  dsimp only [checkEku]
  rcases hku with hku | ⟨e, e', x, y, h1, h2, h3, h4, h5⟩
  · have hx : extValue env.decKu a.tbs.exts kuOid = .ok none := by
      unfold extValue
      rw [(getExt_none_iff _ _).2 hku]
    rw [hx]
    dsimp only
    cases hy : extValue env.decKu rel.tbs.exts kuOid with
    | ok y => rfl
    | error e =>
      unfold extValue at hy
      cases hg : getExt rel.tbs.exts kuOid with
      | none => rw [hg] at hy; cases hy
      | some e' =>
        rw [hg] at hy
        obtain ⟨b, hb⟩ := hkr e' (getExt_mem hg) (getExt_oid hg)
        dsimp only at hy
        rw [hb] at hy
        cases hy
  · have hx : extValue env.decKu a.tbs.exts kuOid = .ok (some x) := by
      unfold extValue
      rw [(getExt_iff _ _ _).2 h1]
      dsimp only
      rw [h3]
    have hy : extValue env.decKu rel.tbs.exts kuOid = .ok (some y) := by
      unfold extValue
      rw [(getExt_iff _ _ _).2 h2]
      dsimp only
      rw [h4]
    rw [hx]
    dsimp only
    rw [hy]
    exact checkKu_sub x y h5

/-- The extension is made with the hash of the *related* certificate and checked with that of the certificate that
carries it: if the two digests differ, the certificate made for it is refused. -/
theorem C134_hash_refuted (env : RelEnv S K) (F : RelFaithful env) (a rel : Cert) (critical : Bool) (e : Ext)
    (h₁ h₂ : String) (hp : prepRelated env rel none critical = .ok e) (hf : IsFirst a.tbs.exts relatedExtOid e)
    (hr : HashName env rel h₁) (ha : HashName env a h₂) (hd : env.certHash h₁ rel ≠ env.certHash h₂ rel) :
    validateRelated env a rel none ≠ .ok () := by
  intro h
  obtain ⟨hn', d, hu, hc, rfl⟩ := prepRelated_ok env rel none critical e hp
  obtain ⟨e', d', hn, hf', hd', -, hu', hc'⟩ := C134_sound env a rel none h
  have he := (getExt_iff _ _ _).2 hf
  rw [(getExt_iff _ _ _).2 hf'] at he
  cases he
  dsimp only at hd'
  rw [F.rel d] at hd'
  cases hd'
  have hu1 := (relHash_iff _ _ _ _).2 hu
  rw [(relHash_iff _ _ _ _).2 (Or.inr ⟨rfl, hr⟩)] at hu1
  cases hu1
  have hu2 := (relHash_iff _ _ _ _).2 hu'
  rw [(relHash_iff _ _ _ _).2 (Or.inr ⟨rfl, ha⟩)] at hu2
  cases hu2
  exact hd (hc.trans hc'.symm)

theorem validateRelated_usages (env : RelEnv S K) (a rel : Cert) (hash : Option String)
    (h : validateRelated env a rel hash = .ok ()) : checkUsages env a rel = .ok () := by
  unfold validateRelated at h
  cases hv : relatedValue env a with
  | error e => rw [hv] at h; cases h
  | ok o =>
    rw [hv] at h
    cases o with
    | none => cases h
    | some d =>
      dsimp only at h
      by_cases h0 : d = []
      · rw [if_pos h0] at h; cases h
      · rw [if_neg h0] at h
        cases hh : relHash env hash a with
        | error e => rw [hh] at h; cases h
        | ok hn =>
          rw [hh] at h
          dsimp only at h
          cases hc : env.certHash hn rel with
          | error e => rw [hc] at h; cases h
          | ok d' =>
            rw [hc] at h
            dsimp only at h
            by_cases hne : d' ≠ d
            · rw [if_pos hne] at h; cases h
            · rw [if_neg hne] at h
              exact h

/-- A certificate with an extended key usage is refused, whatever the related certificate contains. -/
theorem C134_eku_refuted (env : RelEnv S K) (a rel : Cert) (hash : Option String) (e : Ext) (o : Oid) (l : List Oid)
    (hf : IsFirst a.tbs.exts ekuOid e) (hd : env.decEku e.value = .ok (o :: l)) :
    validateRelated env a rel hash ≠ .ok () := by
  intro h
  have hu := validateRelated_usages env a rel hash h
  unfold checkUsages extValue at hu
  rw [(getExt_iff _ _ _).2 hf] at hu
  dsimp only at hu
  rw [hd] at hu
  cases hu

/-- A certificate with key usage is only accepted with a related certificate that has this extension as well. -/
theorem C134_ku_present (env : RelEnv S K) (a rel : Cert) (hash : Option String) (e : Ext)
    (hf : IsFirst a.tbs.exts kuOid e) (h : validateRelated env a rel hash = .ok ()) :
    ∃ e', IsFirst rel.tbs.exts kuOid e' := by
  have hu := validateRelated_usages env a rel hash h
  unfold checkUsages at hu
  cases hk : extValue env.decEku a.tbs.exts ekuOid with
  | error e => rw [hk] at hu; cases hu
  | ok u =>
    rw [hk] at hu
    dsimp only at hu
    cases hc : checkEku u with
    | error e => rw [hc] at hu; cases hu
    | ok _ =>
      rw [hc] at hu
      dsimp only at hu
      unfold extValue at hu
      rw [(getExt_iff _ _ _).2 hf] at hu
      dsimp only at hu
      cases hx : env.decKu e.value with
      | error e => rw [hx] at hu; cases hu
      | ok x =>
        rw [hx] at hu
        dsimp only at hu
        cases hg : getExt rel.tbs.exts kuOid with
        | none => rw [hg] at hu; cases hu
        | some e' => exact ⟨e', (getExt_iff _ _ _).1 hg⟩

theorem findRelated_iff (env : RelEnv S K) (h : String) (d : Bytes) (l : List Cert) (c : Cert) :
    findRelated env h d l = .ok c ↔
      ∃ pre post, l = pre ++ c :: post ∧ env.certHash h c = .ok d ∧
        ∀ x ∈ pre, ∃ d', env.certHash h x = .ok d' ∧ d' ≠ d := by
  induction l with
  | nil =>
    constructor
    · intro hh; cases hh
    · rintro ⟨pre, post, he, -⟩
      cases pre <;> cases he
  | cons x l ih =>
    unfold findRelated
    cases hx : env.certHash h x with
    | error e =>
      constructor
      · intro hh; cases hh
      · rintro ⟨pre, post, he, hc, hp⟩
        cases pre with
        | nil =>
          cases he
          rw [hx] at hc
          cases hc
        | cons y pre =>
          cases he
          obtain ⟨d', hd', -⟩ := hp x (List.mem_cons_self)
          rw [hx] at hd'
          cases hd'
    | ok d' =>
      dsimp only
      by_cases hd : d' = d
      · rw [if_pos hd]
        subst hd
        constructor
        · intro hh
          cases hh
          exact ⟨[], l, rfl, hx, fun y hy => by cases hy⟩
        · rintro ⟨pre, post, he, hc, hp⟩
          cases pre with
          | nil => cases he; rfl
          | cons y pre =>
            cases he
            obtain ⟨d'', hd'', hne⟩ := hp x (List.mem_cons_self)
            rw [hx] at hd''
            cases hd''
            exact absurd rfl hne
      · rw [if_neg hd, ih]
        constructor
        · rintro ⟨pre, post, rfl, hc, hp⟩
          refine ⟨x :: pre, post, rfl, hc, ?_⟩
          intro y hy
          rcases List.mem_cons.1 hy with rfl | hy
          · exact ⟨d', hx, hd⟩
          · exact hp y hy
        · rintro ⟨pre, post, he, hc, hp⟩
          cases pre with
          | nil =>
            cases he
            rw [hx] at hc
            cases hc
            exact absurd rfl hd
          | cons y pre =>
            cases he
            exact ⟨pre, post, rfl, hc, fun y hy => hp y (List.mem_cons_of_mem _ hy)⟩

/-- The certificate found in a list is its first one with the hash in the extension; it is found whenever there is
one, unless an earlier one has no hash. -/
theorem C134_find (env : RelEnv S K) (certs : List Cert) (a c : Cert) (hn : String) (e : Ext) (d : Bytes)
    (ha : HashName env a hn) (hf : IsFirst a.tbs.exts relatedExtOid e) (hd : env.decRel e.value = some (d, [])) :
    relatedFromList env certs a = .ok c ↔
      ∃ pre post, certs = pre ++ c :: post ∧ env.certHash hn c = .ok d ∧
        ∀ x ∈ pre, ∃ d', env.certHash hn x = .ok d' ∧ d' ≠ d := by
  unfold relatedFromList relatedValue
  rw [(relHash_iff _ _ _ _).2 (Or.inr ⟨rfl, ha⟩), (getExt_iff _ _ _).2 hf]
  dsimp only
  rw [hd]
  exact findRelated_iff env hn d certs c

/-! ## The request -/

/-- `v` is the list of values of the first attribute of the type. -/
def FirstAttr (l : List (Oid × List Bytes)) (o : Oid) (v : List Bytes) : Prop :=
  ∃ pre post, l = pre ++ (o, v) :: post ∧ ∀ x ∈ pre, x.1 ≠ o

theorem getAttr_iff (l : List (Oid × List Bytes)) (o : Oid) (v : List Bytes) :
    getAttr l o = some v ↔ FirstAttr l o v := by
  unfold getAttr FirstAttr
  induction l with
  | nil =>
    constructor
    · intro h; cases h
    · rintro ⟨pre, post, he, -⟩
      cases pre <;> cases he
  | cons x l ih =>
    rw [List.find?_cons]
    by_cases hx : x.1 = o
    · rw [decide_eq_true hx]
      obtain ⟨o', v'⟩ := x
      dsimp only at hx
      subst hx
      constructor
      · intro h
        cases h
        exact ⟨[], l, rfl, fun y hy => by cases hy⟩
      · rintro ⟨pre, post, he, hp⟩
        cases pre with
        | nil => cases he; rfl
        | cons y pre =>
          cases he
          exact absurd rfl (hp _ (List.mem_cons_self))
    · rw [decide_eq_false hx]
      dsimp only
      rw [ih]
      constructor
      · rintro ⟨pre, post, rfl, hp⟩
        refine ⟨x :: pre, post, rfl, ?_⟩
        intro y hy
        rcases List.mem_cons.1 hy with rfl | hy
        · exact hx
        · exact hp y hy
      · rintro ⟨pre, post, he, hp⟩
        cases pre with
        | nil => cases he; exact absurd rfl hx
        | cons y pre =>
          cases he
          exact ⟨pre, post, rfl, fun y hy => hp y (List.mem_cons_of_mem _ hy)⟩

/-- The request proves control of the certificate `a`: its first attribute names `a`, is fresh and signed with the key
of `a`. -/
structure RelProof (env : RelEnv S K) (now maxAge : Int) (hash : Option String) (csr : RelCsr) (r : Requester)
    (a : Cert) : Prop where
  attr : ∃ v, FirstAttr csr.attrs relatedReqOid [v] ∧ env.decReq v = .ok r
  notFuture : r.time ≤ now
  fresh : now ≤ r.time + maxAge
  issuer : env.sameName r.issuer a.tbs.issuer = true
  serial : r.serial = a.tbs.serial
  signed : ∃ k h, env.loadKey a.tbs.spki = .ok k ∧ env.isVerifyKey k = true ∧ UsedHash env hash a h ∧
    env.verify k (some h) (env.encData r.time r.issuer r.serial) r.sig = .ok ()

theorem requesterOf_iff (env : RelEnv S K) (csr : RelCsr) (r : Requester) :
    requesterOf env csr = .ok r ↔ ∃ v, FirstAttr csr.attrs relatedReqOid [v] ∧ env.decReq v = .ok r := by
  unfold requesterOf
  cases hg : getAttr csr.attrs relatedReqOid with
  | none =>
    constructor
    · intro h; cases h
    · rintro ⟨v, hv, -⟩
      rw [(getAttr_iff _ _ _).2 hv] at hg
      cases hg
  | some l =>
    match l, hg with
    | [v], hg =>
      constructor
      · intro h
        exact ⟨v, (getAttr_iff _ _ _).1 hg, h⟩
      · rintro ⟨w, hw, hd⟩
        rw [(getAttr_iff _ _ _).2 hw] at hg
        cases hg
        exact hd
    | [], hg =>
      constructor
      · intro h; cases h
      · rintro ⟨v, hv, -⟩
        rw [(getAttr_iff _ _ _).2 hv] at hg
        cases hg
    | _ :: _ :: _, hg =>
      constructor
      · intro h; cases h
      · rintro ⟨v, hv, -⟩
        rw [(getAttr_iff _ _ _).2 hv] at hg
        cases hg

theorem verifyRelPop_iff (env : RelEnv S K) (a : Cert) (r : Requester) (hash : Option String) :
    verifyRelPop env a r hash = .ok () ↔
      ∃ k h, env.loadKey a.tbs.spki = .ok k ∧ env.isVerifyKey k = true ∧ UsedHash env hash a h ∧
        env.verify k (some h) (env.encData r.time r.issuer r.serial) r.sig = .ok () := by
  unfold verifyRelPop
  cases hk : env.loadKey a.tbs.spki with
  | error e =>
    constructor
    · intro h; cases h
    · rintro ⟨k, h, h1, -⟩
      cases h1
  | ok k =>
    dsimp only
    cases hh : relHash env hash a with
    | error e =>
      constructor
      · intro h; cases h
      · rintro ⟨k', h, -, -, h1, -⟩
        rw [(relHash_iff _ _ _ _).2 h1] at hh
        cases hh
    | ok hn =>
      dsimp only
      by_cases hv : env.isVerifyKey k = false
      · rw [if_pos hv]
        constructor
        · intro h; cases h
        · rintro ⟨k', h, h1, h2, -⟩
          cases h1
          rw [hv] at h2
          cases h2
      · rw [if_neg hv]
        have hv' : env.isVerifyKey k = true := by
          cases hx : env.isVerifyKey k with
          | true => rfl
          | false => exact absurd hx hv
        unfold reqData
        constructor
        · intro h
          cases hw : env.verify k (some hn) (env.encData r.time r.issuer r.serial) r.sig with
          | ok u => exact ⟨k, hn, rfl, hv', (relHash_iff _ _ _ _).1 hh, hw⟩
          | error e =>
            rw [hw] at h
            cases e <;> cases h
        · rintro ⟨k', h, h1, -, h3, h4⟩
          cases h1
          rw [(relHash_iff _ _ _ _).2 h3] at hh
          cases hh
          rw [h4]

theorem checkCertId_iff (env : RelEnv S K) (r : Requester) (a : Cert) :
    checkCertId env r a = .ok () ↔ env.sameName r.issuer a.tbs.issuer = true ∧ r.serial = a.tbs.serial := by
  unfold checkCertId
  cases hs : env.sameName r.issuer a.tbs.issuer with
  | false => simp
  | true =>
    by_cases hn : r.serial = a.tbs.serial
    · simp [hn]
    · simp [hn]

/-- A request is accepted with a list of certificates exactly if they are what is served at the location in its
attribute, and the attribute proves control of the first of them, freshly. -/
theorem C135_accepted (env : RelEnv S K) (fetch : String → Bool → Except PyErr (List Cert)) (now maxAge : Int)
    (loadChain : Bool) (hash : Option String) (csr : RelCsr) (chain : List Cert) :
    validateRelPop env fetch now maxAge loadChain hash csr = .ok chain ↔
      ∃ r a l, chain = a :: l ∧ fetch r.loc loadChain = .ok (a :: l) ∧ RelProof env now maxAge hash csr r a := by
  unfold validateRelPop
  cases hr : requesterOf env csr with
  | error e =>
    constructor
    · intro h; cases h
    · rintro ⟨r, a, l, -, -, P⟩
      rw [(requesterOf_iff _ _ _).2 P.attr] at hr
      cases hr
  | ok r =>
    dsimp only
    by_cases h1 : r.time > now
    · rw [if_pos h1]
      constructor
      · intro h; cases h
      · rintro ⟨r', a, l, -, -, P⟩
        rw [(requesterOf_iff _ _ _).2 P.attr] at hr
        cases hr
        have := P.notFuture
        omega
    · rw [if_neg h1]
      by_cases h2 : now - r.time > maxAge
      · rw [if_pos h2]
        constructor
        · intro h; cases h
        · rintro ⟨r', a, l, -, -, P⟩
          rw [(requesterOf_iff _ _ _).2 P.attr] at hr
          cases hr
          have := P.fresh
          omega
      · rw [if_neg h2]
        cases hf : fetch r.loc loadChain with
        | error e =>
          constructor
          · intro h; cases h
          · rintro ⟨r', a, l, -, hf', P⟩
            rw [(requesterOf_iff _ _ _).2 P.attr] at hr
            cases hr
            rw [hf'] at hf
            cases hf
        | ok cs =>
          cases cs with
          | nil =>
            constructor
            · intro h; cases h
            · rintro ⟨r', a, l, -, hf', P⟩
              rw [(requesterOf_iff _ _ _).2 P.attr] at hr
              cases hr
              rw [hf'] at hf
              cases hf
          | cons a l =>
            dsimp only
            constructor
            · intro h
              cases hc : checkCertId env r a with
              | error e => rw [hc] at h; cases h
              | ok u =>
                rw [hc] at h
                dsimp only at h
                cases hp : verifyRelPop env a r hash with
                | error e => rw [hp] at h; cases h
                | ok u =>
                  rw [hp] at h
                  cases h
                  have hc' := (checkCertId_iff env r a).1 hc
                  exact ⟨r, a, l, rfl, hf, ⟨(requesterOf_iff _ _ _).1 hr, by omega, by omega, hc'.1, hc'.2,
                    (verifyRelPop_iff env a r hash).1 hp⟩⟩
            · rintro ⟨r', a', l', rfl, hf', P⟩
              rw [(requesterOf_iff _ _ _).2 P.attr] at hr
              cases hr
              rw [hf'] at hf
              cases hf
              rw [(checkCertId_iff env r a).2 ⟨P.issuer, P.serial⟩]
              dsimp only
              rw [(verifyRelPop_iff env a r hash).2 P.signed]

/-- What `prepare_requester_certificate` makes for a certificate and its key is accepted within the time limit, if the
location serves the certificate. -/
theorem C135_round_trip (env : RelEnv S K) (F : RelFaithful env) (fetch : String → Bool → Except PyErr (List Cert))
    (now maxAge time : Int) (loadChain : Bool) (hash : Option String) (csr : RelCsr) (a : Cert) (l : List Cert)
    (key : S) (uri : String) (r : Requester) (hp : prepRequester env a key uri hash time = .ok r)
    (hd : env.decReq (env.encReq r) = .ok r)
    (hno : ∀ x ∈ csr.attrs, x.1 ≠ relatedReqOid) (hk : env.loadKey a.tbs.spki = .ok (env.pub key))
    (hv : env.isVerifyKey (env.pub key) = true) (hf : fetch uri loadChain = .ok (a :: l)) (h1 : time ≤ now)
    (h2 : now ≤ time + maxAge) :
    validateRelPop env fetch now maxAge loadChain hash (addRequester env csr r) = .ok (a :: l) := by
  unfold prepRequester at hp
  cases hh : relHash env hash a with
  | error e => rw [hh] at hp; cases hp
  | ok hn =>
    rw [hh] at hp
    dsimp only at hp
    cases hs : env.sign key (some hn) false (env.encData time a.tbs.issuer a.tbs.serial) with
    | error e => rw [hs] at hp; cases hp
    | ok s =>
      rw [hs] at hp
      cases hp
      rw [C135_accepted]
      refine ⟨_, a, l, rfl, hf, ⟨⟨_, ⟨csr.attrs, [], rfl, hno⟩, hd⟩, h1, h2, F.name _, rfl, ?_⟩⟩
      exact ⟨env.pub key, hn, hk, hv, (relHash_iff _ _ _ _).1 hh, F.sig _ _ _ _ hs⟩

/-- A request time in the future or older than the limit is refused as such. -/
theorem C135_time (env : RelEnv S K) (fetch : String → Bool → Except PyErr (List Cert)) (now maxAge : Int)
    (loadChain : Bool) (hash : Option String) (csr : RelCsr) (r : Requester) (v : Bytes)
    (ha : FirstAttr csr.attrs relatedReqOid [v]) (hd : env.decReq v = .ok r)
    (ht : now < r.time ∨ r.time + maxAge < now) :
    validateRelPop env fetch now maxAge loadChain hash csr = .error .badTime := by
  unfold validateRelPop
  rw [(requesterOf_iff env csr r).2 ⟨v, ha, hd⟩]
  dsimp only
  by_cases h1 : r.time > now
  · rw [if_pos h1]
  · rw [if_neg h1, if_pos (by omega)]

/-- The attribute is not bound to the request: the same attribute is accepted in a CSR of anyone else, for any key and
subject. -/
theorem C135_replay_refuted (env : RelEnv S K) (fetch : String → Bool → Except PyErr (List Cert)) (now maxAge : Int)
    (loadChain : Bool) (hash : Option String) (csr csr' : RelCsr) (v : List Bytes) (chain : List Cert)
    (h : FirstAttr csr.attrs relatedReqOid v) (h' : FirstAttr csr'.attrs relatedReqOid v)
    (hok : validateRelPop env fetch now maxAge loadChain hash csr = .ok chain) :
    validateRelPop env fetch now maxAge loadChain hash csr' = .ok chain := by
  have he : requesterOf env csr' = requesterOf env csr := by
    unfold requesterOf
    rw [(getAttr_iff _ _ _).2 h, (getAttr_iff _ _ _).2 h']
  unfold validateRelPop at hok ⊢
  rw [he]
  exact hok

/-! ## Trust -/

/-- No CA certificate: no basic constraints, or such that say so. -/
def NotCa (env : RelEnv S K) (l : List Ext) : Prop :=
  (∀ x ∈ l, x.oid ≠ bcOid) ∨ ∃ e, IsFirst l bcOid e ∧ env.decBc e.value = .ok false

theorem isCaExts_iff (env : RelEnv S K) (l : List Ext) : isCaExts env l = .ok false ↔ NotCa env l := by
  unfold isCaExts NotCa
  cases hg : getExt l bcOid with
  | none =>
    constructor
    · intro _
      exact .inl ((getExt_none_iff _ _).1 hg)
    · intro _; rfl
  | some e =>
    constructor
    · intro h
      exact .inr ⟨e, (getExt_iff _ _ _).1 hg, h⟩
    · rintro (h | ⟨e', hf, hd⟩)
      · rw [(getExt_none_iff _ _).2 h] at hg
        cases hg
      · rw [(getExt_iff _ _ _).2 hf] at hg
        cases hg
        exact hd

theorem checkTrust_iff (tr : TrustEnv) (openssl : Bool) (chain : List Cert) :
    checkTrust tr openssl chain = .ok () ↔
      ∃ c, chain.getLast? = some c ∧ tr.anchor c = .ok () ∧ (openssl = true → tr.openssl chain = .ok ()) := by
  unfold checkTrust
  cases hl : chain.getLast? with
  | none => simp
  | some c =>
    dsimp only
    cases ha : tr.anchor c with
    | error e => simp [ha]
    | ok u =>
      cases openssl with
      | false => simp [ha]
      | true => simp [ha]

theorem validateBinding_ok (env : RelEnv S K) (tr : TrustEnv) (fetch : String → Bool → Except PyErr (List Cert))
    (now maxAge : Int) (loadChain openssl : Bool) (given : Option (List Cert)) (csr : RelCsr) (a : Cert)
    (h : validateBinding env tr fetch now maxAge loadChain openssl given csr = .ok a) :
    checkCsrEe env csr = .ok () ∧ ∃ l chain, validateRelPop env fetch now maxAge loadChain none csr = .ok (a :: l) ∧
      isCaExts env a.tbs.exts = .ok false ∧ chainFor tr loadChain a (a :: l) given = .ok chain ∧
      checkTrust tr openssl chain = .ok () := by
  unfold validateBinding at h
  cases h1 : checkCsrEe env csr with
  | error e => rw [h1] at h; cases h
  | ok u =>
    rw [h1] at h
    dsimp only at h
    refine ⟨rfl, ?_⟩
    cases h2 : validateRelPop env fetch now maxAge loadChain none csr with
    | error e => rw [h2] at h; cases h
    | ok cs =>
      rw [h2] at h
      cases cs with
      | nil => cases h
      | cons c l =>
        dsimp only at h
        cases h3 : isCaExts env c.tbs.exts with
        | error e => rw [h3] at h; cases h
        | ok b =>
          rw [h3] at h
          cases b with
          | true => cases h
          | false =>
            dsimp only at h
            cases h4 : chainFor tr loadChain c (c :: l) given with
            | error e => rw [h4] at h; cases h
            | ok chain =>
              rw [h4] at h
              dsimp only at h
              cases h5 : checkTrust tr openssl chain with
              | error e => rw [h5] at h; cases h
              | ok u =>
                rw [h5] at h
                cases h
                exact ⟨l, chain, rfl, h3, h4, h5⟩

/-- A related certificate accepted without a chain given by the caller: the request proves control of it, it is no CA
certificate, and the chain built for it (or served with it) ends in a trust anchor and passes the OpenSSL check, if
that is asked for. -/
theorem C135_trusted (env : RelEnv S K) (tr : TrustEnv) (fetch : String → Bool → Except PyErr (List Cert))
    (now maxAge : Int) (loadChain openssl : Bool) (csr : RelCsr) (a : Cert)
    (h : validateBinding env tr fetch now maxAge loadChain openssl none csr = .ok a) :
    ∃ r l chain c, fetch r.loc loadChain = .ok (a :: l) ∧ RelProof env now maxAge none csr r a ∧
      NotCa env a.tbs.exts ∧ (tr.buildChain a = .ok chain ∨ chain = a :: l) ∧ chain.getLast? = some c ∧
      tr.anchor c = .ok () ∧ (openssl = true → tr.openssl chain = .ok ()) := by
  obtain ⟨-, l, chain, h2, h3, h4, h5⟩ := validateBinding_ok env tr fetch now maxAge loadChain openssl none csr a h
  obtain ⟨r, a', l', he, hf, P⟩ := (C135_accepted _ _ _ _ _ _ _ _).1 h2
  cases he
  obtain ⟨c, hc1, hc2, hc3⟩ := (checkTrust_iff _ _ _).1 h5
  refine ⟨r, l, chain, c, hf, P, (isCaExts_iff _ _).1 h3, ?_, hc1, hc2, hc3⟩
  unfold chainFor at h4
  by_cases hb : loadChain = false ∧ (a :: l).length = 1
  · rw [if_pos hb] at h4
    cases hbc : tr.buildChain a with
    | error e => rw [hbc] at h4; cases h4
    | ok l' =>
      rw [hbc] at h4
      cases h4
      exact .inl rfl
  · rw [if_neg hb] at h4
    cases h4
    exact .inr rfl

/-- A chain given by the caller replaces the one of the certificate: with it, a certificate that is part of no trusted
chain is accepted. -/
theorem C135_given_refuted (env : RelEnv S K) (tr : TrustEnv) (fetch : String → Bool → Except PyErr (List Cert))
    (now maxAge : Int) (openssl : Bool) (csr : RelCsr) (a : Cert) (l given : List Cert)
    (hee : checkCsrEe env csr = .ok ()) (hp : validateRelPop env fetch now maxAge true none csr = .ok (a :: l))
    (hca : NotCa env a.tbs.exts) (ht : checkTrust tr openssl given = .ok ()) :
    validateBinding env tr fetch now maxAge true openssl (some given) csr = .ok a := by
  unfold validateBinding
  rw [hee]
  dsimp only
  rw [hp]
  dsimp only
  rw [(isCaExts_iff _ _).2 hca]
  dsimp only
  unfold chainFor
  rw [if_neg (fun h => by cases h.1)]
  dsimp only [Option.getD]
  rw [ht]

/-! ## Issuing -/

theorem buildFromCsr_ok (env : RelEnv S K) (ca : RelCa S) (csr : RelCsr) (other : List Ext) (c : Cert)
    (h : buildFromCsr env ca csr other = .ok c) :
    ∃ ver, env.checkCsrExts csr.subject csr.spki csr.attrs = .ok ver ∧ c.tbs.exts = mergeExts other ver ∧
      c.tbs.subject = csr.subject ∧ c.tbs.spki = csr.spki ∧ c.tbs.issuer = ca.cert.tbs.subject ∧
      c.tbs.serial = ca.serial ∧ c.tbs.validity = ca.validity ∧ c.tbs.alg = c.alg ∧
      env.sign ca.key (some "sha256") true (env.encTbs c.tbs) = .ok c.sig := by
  unfold buildFromCsr at h
  cases h1 : env.checkName csr.subject with
  | error e => rw [h1] at h; cases h
  | ok u =>
    rw [h1] at h
    dsimp only at h
    cases h2 : env.prepAlg ca.key (some "sha256") true with
    | error e => rw [h2] at h; cases h
    | ok alg =>
      rw [h2] at h
      dsimp only at h
      cases h3 : env.loadKey csr.spki with
      | error e => rw [h3] at h; cases h
      | ok k =>
        rw [h3] at h
        dsimp only at h
        cases h4 : env.checkCsrExts csr.subject csr.spki csr.attrs with
        | error e => rw [h4] at h; cases h
        | ok ver =>
          rw [h4] at h
          dsimp only at h
          cases h5 : env.sign ca.key (some "sha256") true (env.encTbs ⟨ca.other, ca.serial, alg, ca.cert.tbs.subject,
              ca.validity, csr.subject, csr.spki, mergeExts other ver⟩) with
          | error e => rw [h5] at h; cases h
          | ok s =>
            rw [h5] at h
            cases h
            exact ⟨ver, rfl, rfl, rfl, rfl, rfl, rfl, rfl, rfl, h5⟩

/-- The extensions of a request that the CA checks are of fixed kinds, none of them in `os`; each is of its kind. -/
def KindsApart (env : RelEnv S K) (o : Oid) : Prop :=
  ∀ s k l ver, env.checkCsrExts s k l = .ok ver → ∀ p ∈ ver, p.1 ≠ o ∧ ∀ e, p.2 = some e → e.oid = p.1

theorem pickExts_apart (other : List Ext) (ver : List (Oid × Option Ext)) (o : Oid)
    (h : ∀ p ∈ ver, p.1 ≠ o ∧ ∀ e, p.2 = some e → e.oid = p.1) : ∀ x ∈ pickExts other ver, x.oid ≠ o := by
  induction ver with
  | nil => intro x hx; cases hx
  | cons p ver ih =>
    obtain ⟨q, oe⟩ := p
    have hp := h (q, oe) (List.mem_cons_self)
    have ih := ih (fun p hp => h p (List.mem_cons_of_mem _ hp))
    intro x hx
    unfold pickExts at hx
    cases oe with
    | some e =>
      dsimp only at hx
      rcases List.mem_cons.1 hx with rfl | hx
      · rw [hp.2 _ rfl]
        exact hp.1
      · exact ih x hx
    | none =>
      dsimp only at hx
      cases hg : getExt other q with
      | none =>
        rw [hg] at hx
        exact ih x hx
      | some e =>
        rw [hg] at hx
        rcases List.mem_cons.1 hx with rfl | hx
        · rw [getExt_oid hg]
          exact hp.1
        · exact ih x hx

theorem mergeExts_first (other : List Ext) (ver : List (Oid × Option Ext)) (o : Oid) (e : Ext)
    (h : ∀ p ∈ ver, p.1 ≠ o ∧ ∀ e, p.2 = some e → e.oid = p.1) (hf : IsFirst other o e) :
    IsFirst (mergeExts other ver) o e := by
  have hp := pickExts_apart other ver o h
  rw [← getExt_iff]
  unfold mergeExts
  rw [getExt_append, (getExt_none_iff _ _).2 hp, Option.none_or]
  obtain ⟨pre, post, rfl, ho, hpre⟩ := hf
  rw [List.filter_append, List.filter_cons]
  rw [if_pos]
  · have := getExt_split (pre.filter (fun x => decide (x.oid ∉ (pickExts (pre ++ e :: post) ver).map Ext.oid)))
      (post.filter (fun x => decide (x.oid ∉ (pickExts (pre ++ e :: post) ver).map Ext.oid))) e
      (fun x hx => by rw [ho]; exact hpre x (List.mem_filter.1 hx).1)
    rw [ho] at this
    exact this
  · apply decide_eq_true
    intro hm
    obtain ⟨x, hx, hxo⟩ := List.mem_map.1 hm
    exact hp x hx (hxo.trans ho)

/-- A related certificate is only issued if the requested key is a good signature key, the request proves control of
the related certificate, which is issued by this CA and neither revoked nor updated; it has the requested subject and
key and the hash of the related certificate. -/
theorem C135_issued (env : RelEnv S K) (tr : TrustEnv) (rv : RevView K) (ca : RelCa S)
    (fetch : String → Bool → Except PyErr (List Cert)) (now : Int) (extra : List Ext) (csr : RelCsr) (c : Cert)
    (hv : KindsApart env relatedExtOid) (h : processRelated env tr rv ca fetch now extra csr = .ok c) :
    ∃ r a k hn d e, RelProof env now 500 none csr r a ∧ env.loadKey csr.spki = .ok k ∧ env.isVerifyKey k = true ∧
      rv.keyStatus k csr.subject = none ∧ env.sameName a.tbs.issuer ca.cert.tbs.subject = true ∧
      rv.revoked a = false ∧ rv.updated a = false ∧ HashName env a hn ∧ env.certHash hn a = .ok d ∧
      IsFirst c.tbs.exts relatedExtOid e ∧ e.value = env.encRel d ∧ e.critical = false ∧ c.tbs.subject = csr.subject ∧
      c.tbs.spki = csr.spki ∧ c.tbs.issuer = ca.cert.tbs.subject := by
  unfold processRelated at h
  cases h1 : checkReqKey env rv csr with
  | error e => rw [h1] at h; cases h
  | ok u =>
    rw [h1] at h
    dsimp only at h
    cases h2 : validateBinding env tr fetch now 500 false false none csr with
    | error e => rw [h2] at h; cases h
    | ok a =>
      rw [h2] at h
      dsimp only at h
      cases h3 : checkRelStatus env rv ca a with
      | error e => rw [h3] at h; cases h
      | ok u =>
        rw [h3] at h
        dsimp only at h
        unfold buildRelated at h
        cases h4 : prepRelated env a none false with
        | error e => rw [h4] at h; cases h
        | ok e =>
          rw [h4] at h
          dsimp only at h
          obtain ⟨r, -, -, -, -, P, -⟩ := C135_trusted env tr fetch now 500 false false csr a h2
          obtain ⟨hn, d, hu, hd, rfl⟩ := prepRelated_ok env a none false e h4
          have hu : HashName env a hn := by
            rcases hu with hu | ⟨-, hu⟩
            · cases hu
            · exact hu
          obtain ⟨ver, b1, b2, b3, b4, b5, -⟩ := buildFromCsr_ok env ca csr _ c h
          have hfirst : IsFirst c.tbs.exts relatedExtOid ⟨relatedExtOid, false, env.encRel d⟩ := by
            rw [b2]
            exact mergeExts_first _ ver relatedExtOid _ (hv _ _ _ _ b1)
              ⟨[], extra, rfl, rfl, fun x hx => by cases hx⟩
          unfold checkReqKey at h1
          cases hk : env.loadKey csr.spki with
          | error e => rw [hk] at h1; cases h1
          | ok k =>
            rw [hk] at h1
            dsimp only at h1
            cases hvk : env.isVerifyKey k with
            | false => rw [if_pos hvk] at h1; cases h1
            | true =>
              rw [if_neg (by rw [hvk]; decide)] at h1
              cases hst : rv.keyStatus k csr.subject with
              | some e => rw [hst] at h1; cases h1
              | none =>
                unfold checkRelStatus at h3
                cases hs : env.sameName a.tbs.issuer ca.cert.tbs.subject with
                | false => rw [hs] at h3; cases h3
                | true =>
                  rw [hs] at h3
                  cases hr : rv.revoked a with
                  | true => rw [hr] at h3; cases h3
                  | false =>
                    cases hup : rv.updated a with
                    | true => rw [hr, hup] at h3; cases h3
                    | false =>
                      exact ⟨r, a, k, hn, d, _, P, rfl, hvk, hst, hs, hr, hup, hu, hd, hfirst, rfl, rfl, b3, b4, b5⟩

/-- The certificate does not depend on the signature of the CSR: the key in the request needs no proof of possession. -/
theorem C135_csr_signature (env : RelEnv S K) (tr : TrustEnv) (rv : RevView K) (ca : RelCa S)
    (fetch : String → Bool → Except PyErr (List Cert)) (now : Int) (extra : List Ext) (csr : RelCsr) (s : Bytes)
    (alg : Alg) :
    processRelated env tr rv ca fetch now extra { csr with sig := s, alg := alg } =
      processRelated env tr rv ca fetch now extra csr := rfl

/-! ## Examples -/

/-- A toy: hash names are part of the digest, a signature is the key and the data. -/
def toyRel : RelEnv UInt8 UInt8 where
  encTbs t := t.subject ++ t.spki
  encRel d := d
  decRel b := some (b, [])
  encReq r := if r.time = 100 then [1, 2, 3] else []
  decReq b := if b = [1, 2, 3] then .ok ⟨[9], 5, 100, "loc", [7, 0]⟩ else .error .pyasn1Error
  encData _ _ _ := [0]
  decExts _ := .ok []
  decKu b := .ok (b.map (fun x => decide (x = 1)))
  decEku b := .ok (b.map (fun x => [x.toNat]))
  decBc b := .ok (decide (b = [1]))
  encSia _ := []
  decSia _ := .ok [⟨discoveryOid, some (relDescOid, [4])⟩]
  encDesc _ := [4]
  decDesc _ := .ok ⟨"other", some ⟨[1], none⟩, some ⟨[7], none⟩⟩
  hashOf o := if o = [1] then .ok (some "sha256") else if o = [2] then .ok (some "sha512") else .ok none
  digestOf _ := .ok "sha512"
  certHash h c := .ok (if h = "sha256" then 1 :: c.sig else 2 :: c.sig)
  loadKey b := match b with
    | [k] => .ok k
    | _ => .error .invalidKeyData
  spkiAlg b := ⟨b.map UInt8.toNat, none⟩
  isVerifyKey _ := true
  pub s := s
  prepAlg _ _ _ := .ok ⟨[1], none⟩
  sign s _ _ d := .ok (s :: d)
  verify k _ d sig := if sig = k :: d then .ok () else .error .invalidSignature
  sameName a b := decide (a = b)
  checkName _ := .ok ()
  checkCsrExts _ _ _ := .ok [(kuOid, none), (ekuOid, none)]

/-- A certificate of the toy. -/
def toyRelCert (alg key : UInt8) (exts : List Ext) : Cert :=
  ⟨⟨[], 5, ⟨[alg.toNat], none⟩, [9], ⟨[], [], none⟩, [8], [key], exts⟩, ⟨[alg.toNat], none⟩, [alg, key]⟩

/-- The related certificate has a `sha512` signature, the one with the extension a `sha256` one: refused. With the
same algorithm it is accepted. -/
example : prepRelated toyRel (toyRelCert 2 7 []) none false = .ok ⟨relatedExtOid, false, [2, 2, 7]⟩ ∧
    validateRelated toyRel (toyRelCert 1 6 [⟨relatedExtOid, false, [2, 2, 7]⟩]) (toyRelCert 2 7 []) none =
      .error .valueError ∧
    validateRelated toyRel (toyRelCert 2 6 [⟨relatedExtOid, false, [2, 2, 7]⟩]) (toyRelCert 2 7 []) none = .ok () := by
  decide +kernel

/-- `dataEncipherment` is accepted against `digitalSignature` and `keyEncipherment`, as each of its letters occurs in
the names of these two. -/
theorem C134_ku_refuted : ∃ (a rel : Cert) (e e' : Ext) (x y : List Bool),
    validateRelated toyRel a rel none = .ok () ∧ IsFirst a.tbs.exts kuOid e ∧ toyRel.decKu e.value = .ok x ∧
      IsFirst rel.tbs.exts kuOid e' ∧ toyRel.decKu e'.value = .ok y ∧ ¬ BitsIn x y := by
  refine ⟨toyRelCert 2 6 [⟨relatedExtOid, false, [2, 2, 7]⟩, ⟨kuOid, true, [0, 0, 0, 1]⟩],
    toyRelCert 2 7 [⟨kuOid, true, [1, 0, 1]⟩], ⟨kuOid, true, [0, 0, 0, 1]⟩, ⟨kuOid, true, [1, 0, 1]⟩,
    [false, false, false, true], [true, false, true], by decide +kernel, ?_, by decide, ?_, by decide, ?_⟩
  · exact ⟨[⟨relatedExtOid, false, [2, 2, 7]⟩], [], rfl, rfl, by decide⟩
  · exact ⟨[], [], rfl, rfl, by decide⟩
  · intro h
    have := h 3 rfl
    cases this

/-- A certificate with `serverAuth` is refused with a related certificate with the same extended key usage. -/
example : validateRelated toyRel (toyRelCert 2 6 [⟨relatedExtOid, false, [2, 2, 7]⟩, ⟨ekuOid, false, [1]⟩])
    (toyRelCert 2 7 [⟨ekuOid, false, [1]⟩]) none = .error .valueError := by decide +kernel

/-- The CSR of the toy with the attribute for the certificate with key 7; `sig` is the signature of the CSR. -/
def toyRelCsr (sig : Bytes) : RelCsr := ⟨[8], [3], [(relatedReqOid, [[1, 2, 3]])], ⟨[1], none⟩, sig⟩

/-- The location serves the certificate with key 7. -/
def toyFetch : String → Bool → Except PyErr (List Cert)
  | "loc", _ => .ok [toyRelCert 1 7 []]
  | _, _ => .error .valueError

/-- Everything is trusted and good. -/
def toyTrust : TrustEnv := ⟨fun c => .ok [c], fun _ => .ok (), fun _ => .ok ()⟩
/-- Everything is trusted and good. -/
def toyRv : RevView UInt8 := ⟨fun _ => false, fun _ => false, fun _ _ => none⟩
/-- The CA of the toy. -/
def toyRelCa : RelCa UInt8 :=
  ⟨⟨⟨[], 1, ⟨[1], none⟩, [9], ⟨[], [], none⟩, [9], [2], []⟩, ⟨[1], none⟩, []⟩, 2, ⟨[], [], none⟩, 77, []⟩

/-- The key 3 gets a certificate, with no valid signature in the CSR. -/
theorem C135_pop_refuted : ∃ c, c.tbs.spki = [3] ∧ ∀ s,
    processRelated toyRel toyTrust toyRv toyRelCa toyFetch 150 [] (toyRelCsr s) = .ok c := by
  obtain ⟨c, hc⟩ := ok_of_isOk (processRelated toyRel toyTrust toyRv toyRelCa toyFetch 150 [] (toyRelCsr []))
    (by decide +kernel)
  refine ⟨c, ?_, fun s => ?_⟩
  · have hv : KindsApart toyRel relatedExtOid := by
      intro s k l ver hver p hp
      cases hver
      rcases List.mem_cons.1 hp with rfl | hp
      · exact ⟨by decide, fun e he => by cases he⟩
      · rcases List.mem_cons.1 hp with rfl | hp
        · exact ⟨by decide, fun e he => by cases he⟩
        · cases hp
    obtain ⟨r, a, k, hn, d, e, -, -, -, -, -, -, -, -, -, -, -, -, -, h, -⟩ :=
      C135_issued toyRel toyTrust toyRv toyRelCa toyFetch 150 [] (toyRelCsr []) c hv hc
    exact h
  · exact (C135_csr_signature toyRel toyTrust toyRv toyRelCa toyFetch 150 [] (toyRelCsr []) s ⟨[1], none⟩).trans hc

theorem toyRel_faithful : RelFaithful toyRel where
  rel := fun _ => rfl
  sig := by
    intro s h d g hg
    cases hg
    exact if_pos rfl
  name := fun n => decide_eq_true rfl

/-- The attribute made with key 7 for its certificate is the one of the toy CSR. -/
example : prepRequester toyRel (toyRelCert 1 7 []) 7 "loc" none 100 = .ok ⟨[9], 5, 100, "loc", [7, 0]⟩ ∧
    addRequester toyRel ⟨[8], [3], [], ⟨[1], none⟩, []⟩ ⟨[9], 5, 100, "loc", [7, 0]⟩ = toyRelCsr [] := by
  decide +kernel

/-- `C135_round_trip` applies to the toy. -/
example : validateRelPop toyRel toyFetch 600 500 false none
    (addRequester toyRel ⟨[8], [3], [], ⟨[1], none⟩, []⟩ ⟨[9], 5, 100, "loc", [7, 0]⟩) = .ok [toyRelCert 1 7 []] :=
  C135_round_trip toyRel toyRel_faithful toyFetch 600 500 100 false none _ _ [] 7 "loc" _ rfl rfl (by decide) rfl rfl
    rfl (by decide) (by decide)

/-- `C134_round_trip_partial` applies to two certificates with `sha512` signatures and equal key usage. -/
example : validateRelated toyRel
    (toyRelCert 2 6 [⟨relatedExtOid, false, [2, 2, 7]⟩, ⟨kuOid, true, [1, 0, 1]⟩])
    (toyRelCert 2 7 [⟨kuOid, true, [1, 0, 1]⟩]) none = .ok () :=
  C134_round_trip_partial toyRel toyRel_faithful _ _ none false ⟨relatedExtOid, false, [2, 2, 7]⟩ "sha512" rfl
    ⟨[], _, rfl, rfl, by decide⟩ (.inr ⟨rfl, .inl rfl⟩) (.inr ⟨rfl, .inl rfl⟩) (by decide) (by decide)
    (.inr ⟨⟨kuOid, true, [1, 0, 1]⟩, ⟨kuOid, true, [1, 0, 1]⟩, _, _, ⟨[⟨relatedExtOid, false, [2, 2, 7]⟩], [], rfl, rfl,
      by decide⟩, ⟨[], [], rfl, rfl, by decide⟩, rfl, rfl, fun i h => h⟩) (fun x _ _ => ⟨_, rfl⟩)

/-- Fresh: accepted; later: refused. -/
example : validateRelPop toyRel toyFetch 600 500 false none (toyRelCsr []) = .ok [toyRelCert 1 7 []] ∧
    validateRelPop toyRel toyFetch 601 500 false none (toyRelCsr []) = .error .badTime ∧
    validateRelPop toyRel toyFetch 99 500 false none (toyRelCsr []) = .error .badTime := by decide +kernel

end Verif.Hybrid
