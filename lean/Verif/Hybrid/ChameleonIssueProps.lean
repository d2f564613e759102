import Verif.Hybrid.ChameleonProps

/-!
# Properties of paired requests and of what is issued for them (C125, C126)
-/

namespace Verif.Hybrid

open Verif.CA

variable {K : Type}

/-! ## Specification -/

/-- Specification: `a` is the last attribute of type `o`. -/
def LastOf (o : Oid) (l : List Attr) (a : Attr) : Prop :=
  ∃ pre post, l = pre ++ a :: post ∧ a.typ = o ∧ ∀ x ∈ post, x.typ ≠ o

/-- Specification: the attributes that the delta key signs: all but delta signatures. -/
def signedAttrs (l : List Attr) : List Attr := l.filter (fun a => decide (a.typ ≠ deltaSigOid))

/-- Specification: delta requests and delta signatures can be decoded. -/
def Readable (env : Env K) (l : List Attr) : Prop :=
  (∀ a ∈ l, a.typ = deltaReqOid → ∃ r, env.decReq a.value = .ok r) ∧
  (∀ a ∈ l, a.typ = deltaSigOid → ∃ s, env.decSig a.value = .ok s)

/-- Specification: `spki` is a verification key with which `sig` over `data` verifies. -/
def Verifies (env : Env K) (spki : Bytes) (a : Alg) (data sig : Bytes) : Prop :=
  ∃ k, env.loadKey spki = .ok k ∧ env.isVerifyKey k = true ∧ env.verify k a data sig = .ok ()

/-! ## C126 -/

theorem extractLoop_cons (env : Env K) (acc : ChamAttrs) (a : Attr) (l : List Attr) :
    extractLoop env acc (a :: l) =
      if a.typ = deltaReqOid then
        match env.decReq a.value with
        | .error e => .error e
        | .ok r => extractLoop env { acc with rest := acc.rest ++ [a], req := some r } l
      else if a.typ = deltaSigOid then
        match env.decSig a.value with
        | .error e => .error e
        | .ok s => extractLoop env { acc with sig := some s } l
      else extractLoop env { acc with rest := acc.rest ++ [a] } l := rfl

theorem lastOf_cons {o : Oid} {l : List Attr} {a x : Attr} (h : LastOf o l a) : LastOf o (x :: l) a := by
  obtain ⟨pre, post, h1, h2, h3⟩ := h
  exact ⟨x :: pre, post, by rw [h1]; rfl, h2, h3⟩

theorem signedAttrs_cons_ne {a : Attr} {l : List Attr} (h : a.typ ≠ deltaSigOid) :
    signedAttrs (a :: l) = a :: signedAttrs l := List.filter_cons_of_pos (decide_eq_true h)

theorem signedAttrs_cons_eq {a : Attr} {l : List Attr} (h : a.typ = deltaSigOid) :
    signedAttrs (a :: l) = signedAttrs l := List.filter_cons_of_neg (by simp [h])

/-- What the loop finds: all but the delta signatures, the last request and the last signature. -/
theorem extractLoop_ok {env : Env K} : ∀ (l : List Attr) {acc r : ChamAttrs}, extractLoop env acc l = .ok r →
    Readable env l ∧ r.rest = acc.rest ++ signedAttrs l ∧
    ((r.req = acc.req ∧ ∀ x ∈ l, x.typ ≠ deltaReqOid) ∨
      ∃ a q, LastOf deltaReqOid l a ∧ env.decReq a.value = .ok q ∧ r.req = some q) ∧
    ((r.sig = acc.sig ∧ ∀ x ∈ l, x.typ ≠ deltaSigOid) ∨
      ∃ a s, LastOf deltaSigOid l a ∧ env.decSig a.value = .ok s ∧ r.sig = some s) := by
  intro l
  induction l with
  | nil =>
    intro acc r h
    cases h
    exact ⟨⟨fun a ha => (by cases ha), fun a ha => (by cases ha)⟩, (List.append_nil _).symm,
      Or.inl ⟨rfl, fun x hx => (by cases hx)⟩, Or.inl ⟨rfl, fun x hx => (by cases hx)⟩⟩
  | cons a l ih =>
    intro acc r h
    rw [extractLoop_cons] at h
    by_cases h1 : a.typ = deltaReqOid
    · rw [if_pos h1] at h
      have hns : a.typ ≠ deltaSigOid := by rw [h1]; decide
      cases hd : env.decReq a.value with
      | error e => rw [hd] at h; cases h
      | ok q =>
        rw [hd] at h
        obtain ⟨hr, h2, h3, h4⟩ := ih h
        refine ⟨⟨?_, ?_⟩, ?_, ?_, ?_⟩
        · intro x hx hxt
          cases List.mem_cons.1 hx with
          | inl hh => exact ⟨q, hh ▸ hd⟩
          | inr hh => exact hr.1 x hh hxt
        · intro x hx hxt
          cases List.mem_cons.1 hx with
          | inl hh => exact absurd (hh ▸ hxt) hns
          | inr hh => exact hr.2 x hh hxt
        · rw [h2, signedAttrs_cons_ne hns, List.append_assoc]; rfl
        · cases h3 with
          | inl h3 => exact Or.inr ⟨a, q, ⟨[], l, rfl, h1, h3.2⟩, hd, h3.1⟩
          | inr h3 =>
            obtain ⟨b, q', hb, hb2, hb3⟩ := h3
            exact Or.inr ⟨b, q', lastOf_cons hb, hb2, hb3⟩
        · cases h4 with
          | inl h4 =>
            refine Or.inl ⟨h4.1, ?_⟩
            intro x hx
            cases List.mem_cons.1 hx with
            | inl hh => rw [hh]; exact hns
            | inr hh => exact h4.2 x hh
          | inr h4 =>
            obtain ⟨b, s, hb, hb2, hb3⟩ := h4
            exact Or.inr ⟨b, s, lastOf_cons hb, hb2, hb3⟩
    · rw [if_neg h1] at h
      by_cases h5 : a.typ = deltaSigOid
      · rw [if_pos h5] at h
        cases hd : env.decSig a.value with
        | error e => rw [hd] at h; cases h
        | ok s =>
          rw [hd] at h
          obtain ⟨hr, h2, h3, h4⟩ := ih h
          refine ⟨⟨?_, ?_⟩, ?_, ?_, ?_⟩
          · intro x hx hxt
            cases List.mem_cons.1 hx with
            | inl hh => exact absurd (hh ▸ hxt) h1
            | inr hh => exact hr.1 x hh hxt
          · intro x hx hxt
            cases List.mem_cons.1 hx with
            | inl hh => exact ⟨s, hh ▸ hd⟩
            | inr hh => exact hr.2 x hh hxt
          · rw [h2, signedAttrs_cons_eq h5]
          · cases h3 with
            | inl h3 =>
              refine Or.inl ⟨h3.1, ?_⟩
              intro x hx
              cases List.mem_cons.1 hx with
              | inl hh => rw [hh]; exact h1
              | inr hh => exact h3.2 x hh
            | inr h3 =>
              obtain ⟨b, q', hb, hb2, hb3⟩ := h3
              exact Or.inr ⟨b, q', lastOf_cons hb, hb2, hb3⟩
          · cases h4 with
            | inl h4 => exact Or.inr ⟨a, s, ⟨[], l, rfl, h5, h4.2⟩, hd, h4.1⟩
            | inr h4 =>
              obtain ⟨b, s', hb, hb2, hb3⟩ := h4
              exact Or.inr ⟨b, s', lastOf_cons hb, hb2, hb3⟩
      · rw [if_neg h5] at h
        obtain ⟨hr, h2, h3, h4⟩ := ih h
        refine ⟨⟨?_, ?_⟩, ?_, ?_, ?_⟩
        · intro x hx hxt
          cases List.mem_cons.1 hx with
          | inl hh => exact absurd (hh ▸ hxt) h1
          | inr hh => exact hr.1 x hh hxt
        · intro x hx hxt
          cases List.mem_cons.1 hx with
          | inl hh => exact absurd (hh ▸ hxt) h5
          | inr hh => exact hr.2 x hh hxt
        · rw [h2, signedAttrs_cons_ne h5, List.append_assoc]; rfl
        · cases h3 with
          | inl h3 =>
            refine Or.inl ⟨h3.1, ?_⟩
            intro x hx
            cases List.mem_cons.1 hx with
            | inl hh => rw [hh]; exact h1
            | inr hh => exact h3.2 x hh
          | inr h3 =>
            obtain ⟨b, q', hb, hb2, hb3⟩ := h3
            exact Or.inr ⟨b, q', lastOf_cons hb, hb2, hb3⟩
        · cases h4 with
          | inl h4 =>
            refine Or.inl ⟨h4.1, ?_⟩
            intro x hx
            cases List.mem_cons.1 hx with
            | inl hh => rw [hh]; exact h5
            | inr hh => exact h4.2 x hh
          | inr h4 =>
            obtain ⟨b, s', hb, hb2, hb3⟩ := h4
            exact Or.inr ⟨b, s', lastOf_cons hb, hb2, hb3⟩

/-- Readable attributes are read. -/
theorem extractLoop_readable {env : Env K} : ∀ (l : List Attr) (acc : ChamAttrs), Readable env l →
    ∃ r, extractLoop env acc l = .ok r := by
  intro l
  induction l with
  | nil => exact fun acc _ => ⟨acc, rfl⟩
  | cons a l ih =>
    intro acc hr
    have hr' : Readable env l :=
      ⟨fun x hx => hr.1 x (List.mem_cons_of_mem _ hx), fun x hx => hr.2 x (List.mem_cons_of_mem _ hx)⟩
    rw [extractLoop_cons]
    by_cases h1 : a.typ = deltaReqOid
    · rw [if_pos h1]
      obtain ⟨q, hq⟩ := hr.1 a List.mem_cons_self h1
      rw [hq]
      exact ih _ hr'
    · rw [if_neg h1]
      by_cases h2 : a.typ = deltaSigOid
      · rw [if_pos h2]
        obtain ⟨s, hs⟩ := hr.2 a List.mem_cons_self h2
        rw [hs]
        exact ih _ hr'
      · rw [if_neg h2]
        exact ih _ hr'

theorem lastOf_unique {o : Oid} {l : List Attr} {a b : Attr} (ha : LastOf o l a) (hb : LastOf o l b) : a = b := by
  obtain ⟨p1, q1, h1, ht1, hn1⟩ := ha
  obtain ⟨p2, q2, h2, ht2, hn2⟩ := hb
  induction l generalizing p1 p2 with
  | nil => cases p1 <;> cases h1
  | cons x l ih =>
    cases p1 with
    | nil =>
      cases p2 with
      | nil =>
        rw [h1] at h2
        cases h2
        rfl
      | cons y p2 =>
        rw [h1] at h2
        cases h2
        exact absurd ht2 (hn1 b (List.mem_append_right _ List.mem_cons_self))
    | cons y p1 =>
      cases p2 with
      | nil =>
        rw [h2] at h1
        cases h1
        exact absurd ht1 (hn2 a (List.mem_append_right _ List.mem_cons_self))
      | cons z p2 =>
        exact ih p1 (List.cons.inj h1).2 p2 (List.cons.inj h2).2

theorem verifyCsr_ok {env : Env K} {csr : Csr} :
    verifyCsr env csr = .ok () ↔
      Verifies env csr.spki csr.alg (env.encInfo csr.subject csr.spki csr.attrs) csr.sig := by
  unfold verifyCsr Verifies
  cases hk : env.loadKey csr.spki with
  | error e => exact ⟨fun h => (by cases h), fun ⟨k, h, _⟩ => (by cases h)⟩
  | ok k =>
    dsimp only
    cases hv : env.isVerifyKey k with
    | false =>
      rw [if_pos rfl]
      exact ⟨fun h => (by cases h), fun ⟨k', h, h2, _⟩ => (by cases h; rw [hv] at h2; cases h2)⟩
    | true =>
      rw [if_neg (by decide)]
      cases hs : env.verify k csr.alg (env.encInfo csr.subject csr.spki csr.attrs) csr.sig with
      | error e =>
        constructor
        · intro h
          cases e <;> cases h
        · intro ⟨k', h, h2, h3⟩
          cases h
          rw [hs] at h3
          cases h3
      | ok u => exact ⟨fun _ => ⟨k, rfl, hv, hs⟩, fun _ => rfl⟩

theorem altErr_ok {r : Except PyErr Unit} : altErr r = .ok () ↔ r = .ok () := by
  cases r with
  | error e =>
    constructor
    · intro h
      cases e <;> cases h
    · intro h; cases h
  | ok u => exact Iff.rfl

theorem verifyAlt_ok {env : Env K} {k : K} {a : Alg} {data s : Bytes} :
    verifyAlt env k a data s = .ok () ↔ env.isVerifyKey k = true ∧ env.verify k a data s = .ok () := by
  unfold verifyAlt
  cases env.isVerifyKey k with
  | false => exact ⟨fun h => (by cases h), fun h => (by cases h.1)⟩
  | true => exact ⟨fun h => ⟨rfl, h⟩, fun h => h.2⟩

/-- C126. A paired request is accepted, with the delta request `r`, exactly if its attributes are readable, the
request signature verifies with the base key over all attributes, and the last delta signature verifies with the key
of the last delta request, which is `r`, over the attributes without delta signatures. -/
theorem C126_iff (env : Env K) (csr : Csr) (r : DeltaReq) :
    verifyPaired env csr = .ok r ↔
      Readable env csr.attrs ∧
      Verifies env csr.spki csr.alg (env.encInfo csr.subject csr.spki csr.attrs) csr.sig ∧
      ∃ ar as s, LastOf deltaReqOid csr.attrs ar ∧ env.decReq ar.value = .ok r ∧
        LastOf deltaSigOid csr.attrs as ∧ env.decSig as.value = .ok s ∧
        Verifies env r.spki (r.alg.getD csr.alg) (env.encInfo csr.subject csr.spki (signedAttrs csr.attrs)) s := by
  unfold verifyPaired
  constructor
  · intro h
    cases hc : verifyCsr env csr with
    | error e => rw [hc] at h; cases h
    | ok u =>
      rw [hc] at h
      dsimp only at h
      cases hx : extractLoop env ⟨[], none, none⟩ csr.attrs with
      | error e => rw [hx] at h; cases h
      | ok x =>
        rw [hx] at h
        obtain ⟨hr, h2, h3, h4⟩ := extractLoop_ok _ hx
        obtain ⟨rest, req, sig⟩ := x
        cases req with
        | none => cases h
        | some q =>
          cases sig with
          | none => cases h
          | some s =>
            dsimp only at h
            cases hl : env.loadKey q.spki with
            | error e => rw [hl] at h; cases h
            | ok k =>
              rw [hl] at h
              dsimp only at h
              cases hv : altErr (verifyAlt env k (q.alg.getD csr.alg)
                  (env.encInfo csr.subject csr.spki rest) s) with
              | error e => rw [hv] at h; cases h
              | ok v =>
                rw [hv] at h
                cases h
                cases v
                have hva := verifyAlt_ok.1 (altErr_ok.1 hv)
                have hrest : rest = signedAttrs csr.attrs := h2
                rw [hrest] at hva
                have h3 := h3.resolve_left (fun hh => by cases hh.1)
                have h4 := h4.resolve_left (fun hh => by cases hh.1)
                obtain ⟨ar, q', h5, h6, h7⟩ := h3
                obtain ⟨as, s', h8, h9, h10⟩ := h4
                cases h7
                cases h10
                exact ⟨hr, verifyCsr_ok.1 hc, ar, as, s, h5, h6, h8, h9, k, hl, hva.1, hva.2⟩
  · intro ⟨hr, hv, ar, as, s, h1, h2, h3, h4, k, hk, hk2, hk3⟩
    rw [verifyCsr_ok.2 hv]
    dsimp only
    obtain ⟨x, hx⟩ := extractLoop_readable csr.attrs ⟨[], none, none⟩ hr
    rw [hx]
    obtain ⟨-, h5, h6, h7⟩ := extractLoop_ok _ hx
    have h6 := h6.resolve_left (fun hh => by
      obtain ⟨p, q, hl, ht, -⟩ := h1
      exact hh.2 ar (hl ▸ List.mem_append_right _ List.mem_cons_self) ht)
    have h7 := h7.resolve_left (fun hh => by
      obtain ⟨p, q, hl, ht, -⟩ := h3
      exact hh.2 as (hl ▸ List.mem_append_right _ List.mem_cons_self) ht)
    obtain ⟨ar', q', ha, hb, hc⟩ := h6
    obtain ⟨as', s', hd, he, hf⟩ := h7
    cases lastOf_unique ha h1
    cases lastOf_unique hd h3
    rw [h2] at hb
    cases hb
    rw [h4] at he
    cases he
    obtain ⟨rest, req, sig⟩ := x
    cases hc
    cases hf
    have hrest : rest = signedAttrs csr.attrs := h5
    cases hrest
    dsimp only
    rw [hk]
    dsimp only
    rw [altErr_ok.2 (verifyAlt_ok.2 ⟨hk2, hk3⟩)]

/-- C126. A delta signature that does not verify is reported as a bad alternative proof of possession; a bad request
signature as a bad proof of possession. -/
theorem C126_bad_delta {env : Env K} {csr : Csr} {r : DeltaReq} {ar as : Attr} {s : Bytes} {k : K}
    (hr : Readable env csr.attrs)
    (hv : Verifies env csr.spki csr.alg (env.encInfo csr.subject csr.spki csr.attrs) csr.sig)
    (h1 : LastOf deltaReqOid csr.attrs ar) (h2 : env.decReq ar.value = .ok r)
    (h3 : LastOf deltaSigOid csr.attrs as) (h4 : env.decSig as.value = .ok s)
    (hk : env.loadKey r.spki = .ok k) (hk2 : env.isVerifyKey k = true)
    (hbad : env.verify k (r.alg.getD csr.alg) (env.encInfo csr.subject csr.spki (signedAttrs csr.attrs)) s =
      .error .invalidSignature) :
    verifyPaired env csr = .error .badAltPOP := by
  unfold verifyPaired
  rw [verifyCsr_ok.2 hv]
  dsimp only
  obtain ⟨x, hx⟩ := extractLoop_readable csr.attrs ⟨[], none, none⟩ hr
  rw [hx]
  obtain ⟨-, h5, h6, h7⟩ := extractLoop_ok _ hx
  have h6 := h6.resolve_left (fun hh => by
    obtain ⟨p, q, hl, ht, -⟩ := h1
    exact hh.2 ar (hl ▸ List.mem_append_right _ List.mem_cons_self) ht)
  have h7 := h7.resolve_left (fun hh => by
    obtain ⟨p, q, hl, ht, -⟩ := h3
    exact hh.2 as (hl ▸ List.mem_append_right _ List.mem_cons_self) ht)
  obtain ⟨ar', q', ha, hb, hc⟩ := h6
  obtain ⟨as', s', hd, he, hf⟩ := h7
  cases lastOf_unique ha h1
  cases lastOf_unique hd h3
  rw [h2] at hb
  cases hb
  rw [h4] at he
  cases he
  obtain ⟨rest, req, sig⟩ := x
  cases hc
  cases hf
  have hrest : rest = signedAttrs csr.attrs := h5
  cases hrest
  dsimp only
  rw [hk]
  dsimp only
  have : verifyAlt env k (r.alg.getD csr.alg) (env.encInfo csr.subject csr.spki (signedAttrs csr.attrs)) s =
      .error .invalidSignature := by
    unfold verifyAlt
    rw [if_neg (by rw [hk2]; decide)]
    exact hbad
  rw [this]
  rfl

/-- C126. What `build_paired_csr` puts together is accepted, in whatever order the set of attributes is decoded. -/
theorem C126_built {env : Env K} {csr : Csr} {subject spki : Bytes} {attrs : List Attr} {req sig : Attr} {alg : Alg}
    {baseSig s : Bytes} {r : DeltaReq}
    (hset : ∀ n k l m, l.Perm m → env.encInfo n k l = env.encInfo n k m)
    (hplain : ∀ a ∈ attrs, a.typ ≠ deltaReqOid ∧ a.typ ≠ deltaSigOid)
    (hreq : req.typ = deltaReqOid) (hsig : sig.typ = deltaSigOid)
    (hr : env.decReq req.value = .ok r) (hs : env.decSig sig.value = .ok s)
    (hbase : Verifies env spki alg (env.encInfo subject spki (attrs ++ [req] ++ [sig])) baseSig)
    (hdelta : Verifies env r.spki (r.alg.getD alg) (env.encInfo subject spki (attrs ++ [req])) s)
    (hcsr : csr.subject = subject ∧ csr.spki = spki ∧ csr.alg = alg ∧ csr.sig = baseSig)
    (hp : csr.attrs.Perm (pairedCsr subject spki attrs req sig alg baseSig).attrs) :
    verifyPaired env csr = .ok r := by
  obtain ⟨e1, e2, e3, e4⟩ := hcsr
  have hp : csr.attrs.Perm (attrs ++ [req] ++ [sig]) := hp
  have hmem : ∀ a ∈ csr.attrs, a ∈ attrs ∨ a = req ∨ a = sig := by
    intro a ha
    have := hp.mem_iff.1 ha
    rw [List.append_assoc, List.mem_append] at this
    cases this with
    | inl h => exact Or.inl h
    | inr h => exact Or.inr (by simpa using h)
  have hlast : ∀ o a, a ∈ csr.attrs → a.typ = o → (∀ x ∈ csr.attrs, x.typ = o → x = a) →
      LastOf o csr.attrs a := by
    intro o a ha hao hu
    -- the last attribute of that type is equal to `a`
    have : ∀ l : List Attr, (∃ x ∈ l, x.typ = o) → ∃ b, LastOf o l b := by
      intro l
      induction l with
      | nil => intro ⟨x, hx, _⟩; cases hx
      | cons y l ih =>
        intro ⟨x, hx, hxo⟩
        by_cases hex : ∃ x ∈ l, x.typ = o
        · obtain ⟨b, hb⟩ := ih hex
          exact ⟨b, lastOf_cons hb⟩
        · cases List.mem_cons.1 hx with
          | inl h =>
            exact ⟨x, [], l, by rw [h]; rfl, hxo, fun z hz hzo => hex ⟨z, hz, hzo⟩⟩
          | inr h => exact absurd ⟨x, h, hxo⟩ hex
    obtain ⟨b, hb⟩ := this csr.attrs ⟨a, ha, hao⟩
    have hba : b = a := by
      obtain ⟨p, q, hl, ht, -⟩ := hb
      exact hu b (hl ▸ List.mem_append_right _ List.mem_cons_self) ht
    exact hba ▸ hb
  have hrne : deltaReqOid ≠ deltaSigOid := by decide
  have hreqm : req ∈ csr.attrs := hp.mem_iff.2 (by simp)
  have hsigm : sig ∈ csr.attrs := hp.mem_iff.2 (by simp)
  rw [C126_iff]
  refine ⟨⟨?_, ?_⟩, ?_, req, sig, s, ?_, hr, ?_, hs, ?_⟩
  · intro a ha hat
    rcases hmem a ha with h | h | h
    · exact absurd hat (hplain a h).1
    · exact ⟨r, h ▸ hr⟩
    · rw [h, hsig] at hat; exact absurd hat.symm hrne
  · intro a ha hat
    rcases hmem a ha with h | h | h
    · exact absurd hat (hplain a h).2
    · rw [h, hreq] at hat; exact absurd hat hrne
    · exact ⟨s, h ▸ hs⟩
  · rw [e1, e2, e3, e4, hset _ _ _ _ hp]
    exact hbase
  · refine hlast _ req hreqm hreq ?_
    intro x hx hxt
    rcases hmem x hx with h | h | h
    · exact absurd hxt (hplain x h).1
    · exact h
    · rw [h, hsig] at hxt; exact absurd hxt.symm hrne
  · refine hlast _ sig hsigm hsig ?_
    intro x hx hxt
    rcases hmem x hx with h | h | h
    · exact absurd hxt (hplain x h).2
    · rw [h, hreq] at hxt; exact absurd hxt hrne
    · exact h
  · have hf : (signedAttrs csr.attrs).Perm (attrs ++ [req]) := by
      have h1 : (signedAttrs csr.attrs).Perm (signedAttrs (attrs ++ [req] ++ [sig])) := hp.filter _
      have h2 : signedAttrs (attrs ++ [req] ++ [sig]) = attrs ++ [req] := by
        unfold signedAttrs
        rw [List.filter_append, List.filter_eq_self.2, List.filter_eq_nil_iff.2, List.append_nil]
        · intro a ha
          rw [List.mem_singleton.1 ha, hsig]
          simp
        · intro a ha
          rcases List.mem_append.1 ha with h | h
          · exact decide_eq_true (hplain a h).2
          · rw [List.mem_singleton.1 h, hreq]
            exact decide_eq_true hrne
      rw [← h2]
      exact h1
    rw [e1, e2, e3, hset _ _ _ _ hf]
    exact hdelta

/-- C126, part: with one delta request, the key whose revocation and reuse the CA checks is the key that signed. -/
theorem C126_sender_partial {env : Env K} {csr : Csr} {r : DeltaReq} {k : K} {n : Bytes}
    (hone : ∀ a ∈ csr.attrs, ∀ b ∈ csr.attrs, a.typ = deltaReqOid → b.typ = deltaReqOid → a = b)
    (hv : verifyPaired env csr = .ok r) (hs : loadDeltaSender env csr = .ok (k, n)) :
    env.loadKey r.spki = .ok k ∧ n = r.subject.getD csr.subject := by
  obtain ⟨-, -, ar, as, s, ⟨p, q, hl, ht, -⟩, h2, -⟩ := (C126_iff env csr r).1 hv
  have har : ar ∈ csr.attrs := hl ▸ List.mem_append_right _ List.mem_cons_self
  unfold loadDeltaSender at hs
  cases hf : csr.attrs.find? (fun a => decide (a.typ = deltaReqOid)) with
  | none =>
    rw [hf] at hs
    cases hs
  | some a =>
    rw [hf] at hs
    have ha := List.mem_of_find?_eq_some hf
    have hat : a.typ = deltaReqOid := by
      have := List.find?_some hf
      exact of_decide_eq_true this
    cases hone a ha ar har hat ht
    dsimp only at hs
    rw [h2] at hs
    dsimp only at hs
    cases hk : env.loadKey r.spki with
    | error e => rw [hk] at hs; cases hs
    | ok k' =>
      rw [hk] at hs
      cases hs
      exact ⟨rfl, rfl⟩

/-! ## C125: what is issued -/

/-- Specification: the signature algorithm identifier for a hash leads back to itself through the hash of its OID. -/
def Consistent (env : Env K) (hash : String) (pss : Bool) : Prop :=
  ∀ a, env.prepAlg (some hash) pss = .ok a → ∃ h', env.hashOf a.oid = .ok h' ∧ env.prepAlg h' pss = .ok a

/-- Specification: the descriptor in the certificate is decoded as what was encoded. -/
def Decodes (env : Env K) (p : Cert) : Prop :=
  ∀ x, (⟨dcdOid, false, env.encDcd x⟩ : Ext) ∈ p.tbs.exts → env.decDcd (env.encDcd x) = some (x, [])

theorem certFromCsr_ok {env : Env K} {i : Issue} {serial : Int} {subject spki : Bytes} {exts : List Ext}
    {hash : String} {pss : Bool} {c : Cert} (h : certFromCsr env i serial subject spki exts hash pss = .ok c) :
    ∃ a s, env.prepAlg (some hash) pss = .ok a ∧ env.sign (some hash) pss (env.encTbs c.tbs) = .ok s ∧
      c = ⟨⟨i.version, serial, a, i.issuer, i.validity, subject, spki, exts⟩, a, s⟩ := by
  unfold certFromCsr tbsOf at h
  cases hn : env.checkName subject with
  | error e => rw [hn] at h; cases h
  | ok u =>
    rw [hn] at h
    dsimp only at h
    cases ha : env.prepAlg (some hash) pss with
    | error e => rw [ha] at h; cases h
    | ok a =>
      rw [ha] at h
      dsimp only at h
      obtain ⟨a', s, h1, h2, h3⟩ := signCert_ok h
      rw [ha] at h1
      cases h1
      exact ⟨a, s, rfl, by rw [h3]; exact h2, h3⟩

/-- The two certificates. -/
theorem issuePair_ok {env : Env K} {i : Issue} {csr : Csr} {req : DeltaReq} {b d : List Ext} {hash : String}
    {pss : Bool} {p δ : Cert} (h : issuePair env i csr req b d hash pss = .ok (p, δ)) :
    ∃ a0 a1 s0 s1 base, base = ⟨i.version, i.serialBase, a0, i.issuer, i.validity, csr.subject, csr.spki, b⟩ ∧
      env.prepAlg (some "sha256") pss = .ok a0 ∧ env.prepAlg (some hash) pss = .ok a1 ∧
      δ = ⟨⟨i.version, i.serialDelta, a1, i.issuer, i.validity, req.subject.getD csr.subject, req.spki, d⟩, a1, s1⟩ ∧
      env.sign (some hash) pss (env.encTbs δ.tbs) = .ok s1 ∧
      buildBase env δ base pss false none = .ok p ∧ s0 = p.sig := by
  unfold issuePair at h
  cases hb : certFromCsr env i i.serialBase csr.subject csr.spki b "sha256" pss with
  | error e => rw [hb] at h; cases h
  | ok base =>
    rw [hb] at h
    dsimp only at h
    cases hd : certFromCsr env i i.serialDelta (req.subject.getD csr.subject) req.spki d hash pss with
    | error e => rw [hd] at h; cases h
    | ok delta =>
      rw [hd] at h
      dsimp only at h
      cases hp : buildBase env delta base.tbs pss false none with
      | error e => rw [hp] at h; cases h
      | ok p' =>
        rw [hp] at h
        cases h
        obtain ⟨a0, s0, h1, h2, h3⟩ := certFromCsr_ok hb
        obtain ⟨a1, s1, h4, h5, h6⟩ := certFromCsr_ok hd
        refine ⟨a0, a1, p.sig, s1, _, rfl, h1, h4, h6, h5, ?_, rfl⟩
        rw [h3] at hp
        exact hp

/-- The steps of issuing for a paired request. -/
theorem buildPaired_ok [DecidableEq K] {env : Env K} {i : Issue} {csr : Csr} {o : ExtOpts} {hash : String}
    {pss : Bool} {p δ : Cert} (h : buildPaired env i csr o hash pss = .ok (p, δ)) :
    ∃ req k1 k2 xs b d, verifyPaired env csr = .ok req ∧ env.loadKey csr.spki = .ok k1 ∧
      env.loadKey req.spki = .ok k2 ∧ validateKeys env k1 k2 = .ok () ∧ csrExts env csr = .ok xs ∧
      processExts env xs csr.spki req o = .ok (b, d) ∧ issuePair env i csr req b d hash pss = .ok (p, δ) := by
  unfold buildPaired at h
  cases h1 : verifyPaired env csr with
  | error e => rw [h1] at h; cases h
  | ok req =>
    rw [h1] at h
    dsimp only at h
    cases h2 : env.loadKey csr.spki with
    | error e => rw [h2] at h; cases h
    | ok k1 =>
      rw [h2] at h
      dsimp only at h
      cases h3 : env.loadKey req.spki with
      | error e => rw [h3] at h; cases h
      | ok k2 =>
        rw [h3] at h
        dsimp only at h
        cases h4 : validateKeys env k1 k2 with
        | error e => rw [h4] at h; cases h
        | ok u =>
          cases u
          rw [h4] at h
          dsimp only at h
          cases h5 : csrExts env csr with
          | error e => rw [h5] at h; cases h
          | ok xs =>
            rw [h5] at h
            dsimp only at h
            cases h6 : processExts env xs csr.spki req o with
            | error e => rw [h6] at h; cases h
            | ok bd =>
              rw [h6] at h
              obtain ⟨b, d⟩ := bd
              exact ⟨req, k1, k2, xs, b, d, rfl, rfl, h3, h4, rfl, h6, h⟩

theorem validateKeys_ok [DecidableEq K] {env : Env K} {k1 k2 : K} (h : validateKeys env k1 k2 = .ok ()) :
    env.isVerifyKey k1 = true ∧ env.isVerifyKey k2 = true ∧ k2 ≠ k1 ∧
      (∀ n, env.rsaBits k1 = some n → 2048 ≤ n ∧ n ≤ 8192) ∧ (∀ n, env.rsaBits k2 = some n → 2048 ≤ n ∧ n ≤ 8192) := by
  unfold validateKeys at h
  by_cases h1 : env.isVerifyKey k1 = false
  · rw [if_pos h1] at h; cases h
  rw [if_neg h1] at h
  by_cases h2 : env.isVerifyKey k2 = false
  · rw [if_pos h2] at h; cases h
  rw [if_neg h2] at h
  by_cases h3 : k2 = k1
  · rw [if_pos h3] at h; cases h
  rw [if_neg h3] at h
  by_cases h4 : rsaSizeOk env k2 = false
  · rw [if_pos h4] at h; cases h
  rw [if_neg h4] at h
  by_cases h5 : rsaSizeOk env k1 = false
  · rw [if_pos h5] at h; cases h
  have hrsa : ∀ k, ¬ rsaSizeOk env k = false → ∀ n, env.rsaBits k = some n → 2048 ≤ n ∧ n ≤ 8192 := by
    intro k hk n hn
    unfold rsaSizeOk at hk
    rw [hn] at hk
    simpa using hk
  exact ⟨by simpa using h1, by simpa using h2, h3, hrsa k1 h5, hrsa k2 h4⟩

/-- C125. A pair is issued only for two different signature keys of which the requester proved possession; the paired
certificate has the base key and the subject of the request, the delta certificate the delta key and the subject of the
delta request or of the request; both are signed, with the algorithm they name, over their own contents. -/
theorem C125_pair [DecidableEq K] {env : Env K} {i : Issue} {csr : Csr} {o : ExtOpts} {hash : String}
    {pss : Bool} {p δ : Cert} (h : buildPaired env i csr o hash pss = .ok (p, δ)) :
    ∃ req k1 k2, verifyPaired env csr = .ok req ∧ env.loadKey csr.spki = .ok k1 ∧ env.loadKey req.spki = .ok k2 ∧
      env.isVerifyKey k1 = true ∧ env.isVerifyKey k2 = true ∧ k2 ≠ k1 ∧
      (∀ n, env.rsaBits k1 = some n → 2048 ≤ n ∧ n ≤ 8192) ∧
      (∀ n, env.rsaBits k2 = some n → 2048 ≤ n ∧ n ≤ 8192) ∧
      p.tbs.spki = csr.spki ∧ p.tbs.subject = csr.subject ∧ p.tbs.issuer = i.issuer ∧ p.tbs.validity = i.validity ∧
      p.tbs.serial = i.serialBase ∧
      δ.tbs.spki = req.spki ∧ δ.tbs.subject = req.subject.getD csr.subject ∧ δ.tbs.issuer = i.issuer ∧
      δ.tbs.validity = i.validity ∧ δ.tbs.serial = i.serialDelta ∧
      p.alg = p.tbs.alg ∧ δ.alg = δ.tbs.alg ∧ env.prepAlg (some hash) pss = .ok δ.alg ∧
      env.sign (some hash) pss (env.encTbs δ.tbs) = .ok δ.sig ∧
      ∃ h', env.hashOf δ.alg.oid = .ok h' ∧ env.prepAlg h' pss = .ok p.alg ∧
        env.sign h' pss (env.encTbs p.tbs) = .ok p.sig := by
  obtain ⟨req, k1, k2, xs, b, d, h1, h2, h3, h4, -, -, h7⟩ := buildPaired_ok h
  obtain ⟨g1, g2, g3, g4, g5⟩ := validateKeys_ok h4
  obtain ⟨a0, a1, s0, s1, base, rfl, e1, e2, rfl, e4, e5, -⟩ := issuePair_ok h7
  obtain ⟨h', a, s, f1, f2, f3, f4⟩ := buildBase_ok e5
  refine ⟨req, k1, k2, h1, h2, h3, g1, g2, g3, g4, g5, ?_⟩
  cases f4
  exact ⟨rfl, rfl, rfl, rfl, rfl, rfl, rfl, rfl, rfl, rfl, rfl, rfl, e2, e4, h', f1, f2, f3⟩

/-- Rebuilding the issued delta certificate, for given extension lists. -/
theorem issuePair_rebuild {env : Env K} {i : Issue} {csr : Csr} {req : DeltaReq} {b d : List Ext} {hash : String}
    {pss : Bool} {p δ : Cert} (hcodec : Decodes env p)
    (hi : i.validity.tag = none) (hn : (b.map (·.oid)).Nodup) (hd : dcdOid ∉ b.map (·.oid))
    (h : issuePair env i csr req b d hash pss = .ok (p, δ)) :
    rebuildDelta env p = .ok δ ↔ d.map (·.oid) = b.map (·.oid) ∧
      ((env.prepAlg (some "sha256") pss = .ok δ.alg ∧ p.alg = δ.alg) ∨
       (env.prepAlg (some "sha256") pss ≠ .ok δ.alg ∧ δ.alg.params = none)) := by
  obtain ⟨a0, a1, s0, s1, base, rfl, e1, e2, rfl, e4, e5, -⟩ := issuePair_ok h
  have hdcd := hcodec (prepareDcd _ _) (by
    obtain ⟨h', a, s, -, -, -, f4⟩ := buildBase_ok e5
    rw [f4]
    exact List.mem_append_right _ List.mem_cons_self)
  refine (C124_exact hdcd hn hd hi rfl e5).trans ?_
  rw [e1]
  constructor
  · intro ⟨h1, _, _, h4⟩
    refine ⟨h1, ?_⟩
    cases h4 with
    | inl h4 => exact Or.inl ⟨congrArg Except.ok h4.1.symm, h4.2⟩
    | inr h4 => exact Or.inr ⟨fun hh => h4.1 (Except.ok.inj hh).symm, h4.2⟩
  · intro ⟨h1, h4⟩
    refine ⟨h1, rfl, rfl, ?_⟩
    cases h4 with
    | inl h4 => exact Or.inl ⟨(Except.ok.inj h4.1).symm, h4.2⟩
    | inr h4 => exact Or.inr ⟨fun hh => h4.1 (congrArg Except.ok hh.symm), h4.2⟩

/-! ### Extensions of both -/

theorem hasExt_false {o : Oid} {l : List Ext} : hasExt o l = false ↔ o ∉ l.map (·.oid) := by
  unfold hasExt
  rw [List.any_eq_false]
  constructor
  · intro h hm
    obtain ⟨e, he, heo⟩ := List.mem_map.1 hm
    exact h e he (decide_eq_true heo)
  · intro h e he hd
    exact h (List.mem_map.2 ⟨e, he, of_decide_eq_true hd⟩)

/-- Two runs over the same OIDs from targets with the same OIDs end with the same OIDs. -/
theorem addShared_oids {x1 x2 : List Ext} : ∀ (os : List Oid) {t1 t2 b d : List Ext},
    t1.map (·.oid) = t2.map (·.oid) → addShared x1 t1 os = .ok b → addShared x2 t2 os = .ok d →
    b.map (·.oid) = d.map (·.oid) := by
  intro os
  induction os with
  | nil => intro t1 t2 b d h h1 h2; cases h1; cases h2; exact h
  | cons o os ih =>
    intro t1 t2 b d h h1 h2
    unfold addShared at h1 h2
    have hh : hasExt o t1 = hasExt o t2 := by
      cases hx : hasExt o t1 with
      | false => exact (hasExt_false.2 (h ▸ hasExt_false.1 hx)).symm
      | true =>
        cases hy : hasExt o t2 with
        | false => rw [hasExt_false.2 (h ▸ hasExt_false.1 hy)] at hx; cases hx
        | true => rfl
    rw [hh] at h1
    by_cases hc : hasExt o t2 = false ∧ o ≠ skiOid
    · rw [if_pos hc] at h1 h2
      cases hg1 : getExt x1 o with
      | none => rw [hg1] at h1; cases h1
      | some e1 =>
        rw [hg1] at h1
        cases hg2 : getExt x2 o with
        | none => rw [hg2] at h2; cases h2
        | some e2 =>
          rw [hg2] at h2
          exact ih (by rw [List.map_append, List.map_append, h]; simp [getExt_oid hg1, getExt_oid hg2]) h1 h2
    · rw [if_neg hc] at h1 h2
      exact ih h h1 h2

/-- What is added: no OID twice, and only the given OIDs, other than the key identifier. -/
theorem addShared_spec {x : List Ext} : ∀ (os : List Oid) {t b : List Ext}, addShared x t os = .ok b →
    ((t.map (·.oid)).Nodup → (b.map (·.oid)).Nodup) ∧
    (∃ l, b = t ++ l ∧ ∀ e ∈ l, e.oid ∈ os ∧ e.oid ≠ skiOid ∧ getExt x e.oid = some e) ∧
    ∀ o ∈ os, o ≠ skiOid → o ∈ b.map (·.oid) := by
  intro os
  induction os with
  | nil =>
    intro t b h
    cases h
    exact ⟨id, ⟨[], (List.append_nil _).symm, fun e he => (by cases he)⟩, fun o ho => (by cases ho)⟩
  | cons o os ih =>
    intro t b h
    unfold addShared at h
    by_cases hc : hasExt o t = false ∧ o ≠ skiOid
    · rw [if_pos hc] at h
      cases hg : getExt x o with
      | none => rw [hg] at h; cases h
      | some e =>
        rw [hg] at h
        obtain ⟨h1, ⟨l, h2, h3⟩, h4⟩ := ih h
        have heo := getExt_oid hg
        refine ⟨fun hn => h1 ?_, ⟨e :: l, by rw [h2, List.append_assoc]; rfl, ?_⟩, ?_⟩
        · rw [List.map_append, List.nodup_append]
          refine ⟨hn, by simp, ?_⟩
          intro a ha c hcm hac
          have : c = o := by simpa [heo] using hcm
          exact hasExt_false.1 hc.1 (this ▸ hac ▸ ha)
        · intro y hy
          cases List.mem_cons.1 hy with
          | inl hh => rw [hh]; exact ⟨heo ▸ List.mem_cons_self, heo ▸ hc.2, heo.symm ▸ hg⟩
          | inr hh =>
            obtain ⟨q1, q2, q3⟩ := h3 y hh
            exact ⟨List.mem_cons_of_mem _ q1, q2, q3⟩
        · intro y hy hys
          cases List.mem_cons.1 hy with
          | inl hh =>
            rw [h2, List.map_append, List.mem_append]
            exact Or.inl (by rw [List.map_append]; simp [heo, hh])
          | inr hh => exact h4 y hh hys
    · rw [if_neg hc] at h
      obtain ⟨h1, ⟨l, h2, h3⟩, h4⟩ := ih h
      refine ⟨h1, ⟨l, h2, fun y hy => ?_⟩, fun y hy hys => ?_⟩
      · obtain ⟨q1, q2, q3⟩ := h3 y hy
        exact ⟨List.mem_cons_of_mem _ q1, q2, q3⟩
      · cases List.mem_cons.1 hy with
        | inl hh =>
          have : hasExt o t ≠ false := fun hf => hc ⟨hf, hh ▸ hys⟩
          have ht : o ∈ t.map (·.oid) :=
            Classical.byContradiction (fun hne => this (hasExt_false.2 hne))
          rw [h2, List.map_append, List.mem_append]
          exact Or.inl (hh ▸ ht)
        | inr hh => exact h4 y hh hys

/-- The validated or prepared key identifier belongs to the key. -/
theorem validateSki_ok {env : Env K} (hski : ∀ x, env.decSki (env.encSki x) = .ok x) {exts : List Ext} {spki : Bytes}
    {c : Option Bool} {prep : Bool} {s : Option Ext} (h : validateSki env exts spki c prep = .ok s) :
    (∀ e, s = some e → e.oid = skiOid ∧ env.decSki e.value = .ok (env.digest spki)) ∧ (prep = true → s ≠ none) := by
  have hnew : ∀ b, (skiExt env spki b).oid = skiOid ∧ env.decSki (skiExt env spki b).value = .ok (env.digest spki) :=
    fun b => ⟨rfl, hski _⟩
  unfold validateSki at h
  cases hg : getExt exts skiOid with
  | none =>
    rw [hg] at h
    dsimp only at h
    cases prep with
    | false =>
      cases h
      exact ⟨fun e he => (by cases he), fun hh => (by cases hh)⟩
    | true =>
      cases h
      exact ⟨fun e he => (by cases he; exact hnew _), fun _ hh => (by cases hh)⟩
  | some x =>
    rw [hg] at h
    dsimp only at h
    cases hv : env.decSki x.value with
    | error e => rw [hv] at h; cases h
    | ok v =>
      rw [hv] at h
      dsimp only at h
      by_cases hd : v ≠ env.digest spki
      · rw [if_pos hd] at h; cases h
      · rw [if_neg hd] at h
        have hx : x.oid = skiOid ∧ env.decSki x.value = .ok (env.digest spki) :=
          ⟨getExt_oid hg, by rw [hv, Decidable.not_not.1 hd]⟩
        cases c with
        | none =>
          cases h
          exact ⟨fun e he => (by cases he; exact hx), fun _ hh => (by cases hh)⟩
        | some c =>
          dsimp only at h
          by_cases hcc : x.critical ≠ c
          · rw [if_pos hcc] at h
            cases h
            exact ⟨fun e he => (by cases he; exact hnew _), fun _ hh => (by cases hh)⟩
          · rw [if_neg hcc] at h
            cases h
            exact ⟨fun e he => (by cases he; exact hx), fun _ hh => (by cases hh)⟩

/-- The extensions of a pair for which both request some. -/
theorem processRemove_ok {env : Env K} (hski : ∀ x, env.decSki (env.encSki x) = .ok x) {xs : List Ext}
    {spki : Bytes} {req : DeltaReq} {os : List Oid} {inc : Option Bool} {crit : Bool} {add b d : List Ext}
    (h : processRemove env xs spki req os inc crit add = .ok (b, d)) :
    d.map (·.oid) = b.map (·.oid) ∧
    ∃ t1 t2 l1 l2, b = t1 ++ add ++ l1 ∧ d = t2 ++ add ++ l2 ∧
      addShared xs (t1 ++ add) os = .ok b ∧ addShared req.exts (t2 ++ add) os = .ok d ∧
      (∀ e ∈ l1, e.oid ∈ os ∧ e.oid ≠ skiOid ∧ getExt xs e.oid = some e) ∧
      (∀ e ∈ l2, e.oid ∈ os ∧ e.oid ≠ skiOid ∧ getExt req.exts e.oid = some e) ∧
      ((inc = some false ∧ t1 = [] ∧ t2 = []) ∨
       (inc ≠ some false ∧ ∃ e1 e2, t1 = [e1] ∧ t2 = [e2] ∧ e1.oid = skiOid ∧ e2.oid = skiOid ∧
          env.decSki e1.value = .ok (env.digest spki) ∧ env.decSki e2.value = .ok (env.digest req.spki))) := by
  unfold processRemove at h
  cases h1 : validateSki env xs spki none (decide (inc ≠ some false)) with
  | error e => rw [h1] at h; cases h
  | ok bs =>
    rw [h1] at h
    dsimp only at h
    cases h2 : validateSki env req.exts req.spki (some crit) (decide (inc ≠ some false)) with
    | error e => rw [h2] at h; cases h
    | ok ds =>
      rw [h2] at h
      dsimp only at h
      cases h3 : addShared xs ((if inc = some false then [] else bs.toList) ++ add) os with
      | error e => rw [h3] at h; cases h
      | ok b' =>
        rw [h3] at h
        dsimp only at h
        cases h4 : addShared req.exts ((if inc = some false then [] else ds.toList) ++ add) os with
        | error e => rw [h4] at h; cases h
        | ok d' =>
          rw [h4] at h
          cases h
          obtain ⟨v1, v2⟩ := validateSki_ok hski h1
          obtain ⟨v3, v4⟩ := validateSki_ok hski h2
          obtain ⟨-, ⟨l1, e1, f1⟩, -⟩ := addShared_spec os h3
          obtain ⟨-, ⟨l2, e2, f2⟩, -⟩ := addShared_spec os h4
          by_cases hc : inc = some false
          · rw [if_pos hc] at h3 h4 e1 e2
            exact ⟨(addShared_oids os rfl h3 h4).symm, [], [], l1, l2, e1, e2, h3, h4, f1, f2,
              Or.inl ⟨hc, rfl, rfl⟩⟩
          · rw [if_neg hc] at h3 h4 e1 e2
            cases bs with
            | none => exact absurd rfl (v2 (decide_eq_true hc))
            | some s1 =>
              cases ds with
              | none => exact absurd rfl (v4 (decide_eq_true hc))
              | some s2 =>
                have w1 := v1 s1 rfl
                have w2 := v3 s2 rfl
                refine ⟨(addShared_oids os ?_ h3 h4).symm, [s1], [s2], l1, l2, e1, e2, h3, h4, f1, f2,
                  Or.inr ⟨hc, s1, s2, rfl, rfl, w1.1, w2.1, w1.2, w2.2⟩⟩
                simp [Option.toList, w1.1, w2.1]

/-- With extensions requested for both certificates and not told to issue different ones, the code restricts both to
the types that both requests have. -/
theorem processBoth_eq {env : Env K} {xs : List Ext} {spki : Bytes} {req : DeltaReq} {o : ExtOpts} {b d : List Ext}
    (hs : o.same = true) (h : processBoth env xs spki req o = .ok (b, d)) :
    processRemove env xs spki req (sharedOids xs req.exts) o.includeSki o.skiCritical o.additional = .ok (b, d) := by
  unfold processBoth at h
  by_cases h1 : notIncluded xs req.exts = []
  · rw [if_pos h1] at h; exact h
  · rw [if_neg h1] at h
    cases hst : o.strict with
    | true => rw [hst] at h; cases h
    | false =>
      rw [hst, if_neg (by decide), hs] at h
      exact h

/-- Specification: nothing among the additional extensions that the issuing itself adds. -/
def AddOk (l : List Ext) : Prop := (l.map (·.oid)).Nodup ∧ skiOid ∉ l.map (·.oid) ∧ dcdOid ∉ l.map (·.oid)

/-- C125, part: for a pair in which both certificates, or neither, request extensions, of which the descriptor is not
one, the delta certificate is rebuilt from the paired certificate, if the hash is the default one. -/
theorem C125_rebuild_partial [DecidableEq K] {env : Env K} {i : Issue} {csr : Csr} {o : ExtOpts} {pss : Bool}
    {p δ : Cert} {req : DeltaReq} {xs : Option (List Ext)}
    (hcodec : Decodes env p) (hski : ∀ x, env.decSki (env.encSki x) = .ok x)
    (hcons : Consistent env "sha256" pss) (hi : i.validity.tag = none) (ho : AddOk o.additional)
    (hsame : o.same = true)
    (hv : verifyPaired env csr = .ok req) (hx : csrExts env csr = .ok xs)
    (hbranch : (xs = none ∧ req.exts = []) ∨
      (∃ l, xs = some l ∧ req.exts ≠ [] ∧ ¬ (dcdOid ∈ l.map (·.oid) ∧ dcdOid ∈ req.exts.map (·.oid))))
    (h : buildPaired env i csr o "sha256" pss = .ok (p, δ)) :
    rebuildDelta env p = .ok δ := by
  have hps := C125_pair h
  obtain ⟨req', k1, k2, xs', b, d, h1, h2, h3, h4, h5, h6, h7⟩ := buildPaired_ok h
  rw [hv] at h1
  cases h1
  rw [hx] at h5
  cases h5
  have hkey : (b.map (·.oid)).Nodup ∧ dcdOid ∉ b.map (·.oid) ∧ d.map (·.oid) = b.map (·.oid) := by
    cases hbranch with
    | inl hb =>
      obtain ⟨rfl, hr⟩ := hb
      unfold processExts at h6
      dsimp only at h6
      rw [if_pos hr] at h6
      cases h6
      unfold optSki
      by_cases hinc : o.includeSki = some true
      · rw [if_pos hinc, if_pos hinc]
        refine ⟨?_, ?_, ?_⟩
        · rw [List.map_append, List.nodup_append]
          refine ⟨ho.1, by simp, ?_⟩
          intro a ha c hc hac
          have : c = skiOid := by simpa [skiExt] using hc
          exact ho.2.1 (this ▸ hac ▸ ha)
        · rw [List.map_append, List.mem_append, not_or]
          refine ⟨ho.2.2, ?_⟩
          intro hm
          have : dcdOid = skiOid := by simpa [skiExt] using hm
          exact absurd this (by decide)
        · rw [List.map_append, List.map_append]; rfl
      · rw [if_neg hinc, if_neg hinc, List.append_nil]
        exact ⟨ho.1, ho.2.2, rfl⟩
    | inr hb =>
      obtain ⟨l, rfl, hr, hnd⟩ := hb
      unfold processExts at h6
      dsimp only at h6
      rw [if_neg hr] at h6
      obtain ⟨q1, t1, t2, l1, l2, rfl, rfl, q4, q5, q6, q7, q8⟩ := processRemove_ok hski (processBoth_eq hsame h6)
      have hsh : dcdOid ∉ sharedOids l req.exts := by
        intro hm
        obtain ⟨m1, m2⟩ := List.mem_filter.1 hm
        exact hnd ⟨m1, of_decide_eq_true m2⟩
      refine ⟨?_, ?_, q1⟩
      · refine (addShared_spec _ q4).1 ?_
        cases q8 with
        | inl q8 => rw [q8.2.1]; exact ho.1
        | inr q8 =>
          obtain ⟨-, e1, e2, r1, -, r3, -⟩ := q8
          rw [r1, List.singleton_append, List.map_cons, List.nodup_cons, r3]
          exact ⟨ho.2.1, ho.1⟩
      · rw [List.map_append, List.map_append, List.mem_append, List.mem_append, not_or, not_or]
        refine ⟨⟨?_, ho.2.2⟩, ?_⟩
        · cases q8 with
          | inl q8 => rw [q8.2.1]; exact List.not_mem_nil
          | inr q8 =>
            obtain ⟨-, e1, e2, r1, -, r3, -⟩ := q8
            rw [r1]
            intro hm
            have : dcdOid = e1.oid := by simpa using hm
            rw [r3] at this
            exact absurd this (by decide)
        · intro hm
          obtain ⟨e, he, heo⟩ := List.mem_map.1 hm
          exact hsh (heo ▸ (q6 e he).1)
  refine (issuePair_rebuild hcodec hi hkey.1 hkey.2.1 h7).2 ⟨hkey.2.2, Or.inl ?_⟩
  obtain ⟨_, _, _, _, _, _, _, _, _, _, _, _, _, _, _, _, _, _, _, _, _, _, _, g1, _, h', g2, g3, _⟩ := hps
  refine ⟨g1, ?_⟩
  obtain ⟨h'', c1, c2⟩ := hcons _ g1
  rw [g2] at c1
  cases c1
  rw [g3] at c2
  exact Except.ok.inj c2

/-! ### Key identifiers -/

/-- The extensions of the paired certificate: those for the base certificate, and the descriptor. -/
theorem issuePair_exts {env : Env K} {i : Issue} {csr : Csr} {req : DeltaReq} {b d : List Ext} {hash : String}
    {pss : Bool} {p δ : Cert} (h : issuePair env i csr req b d hash pss = .ok (p, δ)) :
    δ.tbs.exts = d ∧ ∃ base : Tbs, base.exts = b ∧ env.prepAlg (some "sha256") pss = .ok base.alg ∧
      p.tbs.exts = b ++ [dcdExt env false (prepareDcd δ base)] := by
  obtain ⟨a0, a1, s0, s1, base, rfl, e1, e2, rfl, e4, e5, -⟩ := issuePair_ok h
  obtain ⟨h', a, s, f1, f2, f3, rfl⟩ := buildBase_ok e5
  exact ⟨rfl, _, rfl, e1, rfl⟩

/-- C125, part: where both certificates, or neither, request extensions, the key identifiers in the paired and in the
delta certificate are those of their own keys. -/
theorem C125_ski_partial [DecidableEq K] {env : Env K} {i : Issue} {csr : Csr} {o : ExtOpts} {hash : String}
    {pss : Bool} {p δ : Cert} {req : DeltaReq} {xs : Option (List Ext)}
    (hski : ∀ x, env.decSki (env.encSki x) = .ok x) (ho : AddOk o.additional) (hsame : o.same = true)
    (hv : verifyPaired env csr = .ok req) (hx : csrExts env csr = .ok xs)
    (hbranch : (xs = none ∧ req.exts = []) ∨ (∃ l, xs = some l ∧ req.exts ≠ []))
    (h : buildPaired env i csr o hash pss = .ok (p, δ)) :
    (∀ e ∈ p.tbs.exts, e.oid = skiOid → env.decSki e.value = .ok (env.digest p.tbs.spki)) ∧
    (∀ e ∈ δ.tbs.exts, e.oid = skiOid → env.decSki e.value = .ok (env.digest δ.tbs.spki)) := by
  obtain ⟨req', _, _, h0, _, _, _, _, _, _, _, hp1, _, _, _, _, hd1, _⟩ := C125_pair h
  rw [hv] at h0
  cases h0
  obtain ⟨req', k1, k2, xs', b, d, h1, h2, h3, h4, h5, h6, h7⟩ := buildPaired_ok h
  rw [hv] at h1
  cases h1
  rw [hx] at h5
  cases h5
  obtain ⟨g1, base, -, -, g2⟩ := issuePair_exts h7
  have hkey : (∀ e ∈ b, e.oid = skiOid → env.decSki e.value = .ok (env.digest csr.spki)) ∧
      (∀ e ∈ d, e.oid = skiOid → env.decSki e.value = .ok (env.digest req.spki)) := by
    have hadd : ∀ e ∈ o.additional, e.oid ≠ skiOid := fun e he hh => ho.2.1 (List.mem_map.2 ⟨e, he, hh⟩)
    cases hbranch with
    | inl hb =>
      obtain ⟨rfl, hr⟩ := hb
      unfold processExts at h6
      dsimp only at h6
      rw [if_pos hr] at h6
      cases h6
      have hopt : ∀ s, ∀ e ∈ optSki env s o, env.decSki e.value = .ok (env.digest s) := by
        intro s e he
        unfold optSki at he
        by_cases hinc : o.includeSki = some true
        · rw [if_pos hinc] at he
          rw [List.mem_singleton.1 he]
          exact hski _
        · rw [if_neg hinc] at he
          cases he
      constructor
      · intro e he heo
        cases List.mem_append.1 he with
        | inl hh => exact absurd heo (hadd e hh)
        | inr hh => exact hopt _ e hh
      · intro e he heo
        cases List.mem_append.1 he with
        | inl hh => exact absurd heo (hadd e hh)
        | inr hh => exact hopt _ e hh
    | inr hb =>
      obtain ⟨l, rfl, hr⟩ := hb
      unfold processExts at h6
      dsimp only at h6
      rw [if_neg hr] at h6
      obtain ⟨q1, t1, t2, l1, l2, rfl, rfl, q4, q5, q6, q7, q8⟩ := processRemove_ok hski (processBoth_eq hsame h6)
      have ht : (∀ e ∈ t1, env.decSki e.value = .ok (env.digest csr.spki)) ∧
          (∀ e ∈ t2, env.decSki e.value = .ok (env.digest req.spki)) := by
        cases q8 with
        | inl q8 =>
          rw [q8.2.1, q8.2.2]
          exact ⟨fun e he => (by cases he), fun e he => (by cases he)⟩
        | inr q8 =>
          obtain ⟨-, e1, e2, r1, r2, -, -, r5, r6⟩ := q8
          rw [r1, r2]
          exact ⟨fun e he => (by rw [List.mem_singleton.1 he]; exact r5),
            fun e he => (by rw [List.mem_singleton.1 he]; exact r6)⟩
      constructor
      · intro e he heo
        rcases List.mem_append.1 he with hh | hh
        · rcases List.mem_append.1 hh with hh | hh
          · exact ht.1 e hh
          · exact absurd heo (hadd e hh)
        · exact absurd heo (q6 e hh).2.1
      · intro e he heo
        rcases List.mem_append.1 he with hh | hh
        · rcases List.mem_append.1 hh with hh | hh
          · exact ht.2 e hh
          · exact absurd heo (hadd e hh)
        · exact absurd heo (q7 e hh).2.1
  rw [hp1, hd1, g1, g2]
  refine ⟨?_, hkey.2⟩
  intro e he heo
  cases List.mem_append.1 he with
  | inl hh => exact hkey.1 e hh heo
  | inr hh =>
    rw [List.mem_singleton.1 hh] at heo
    exact absurd (show dcdOid = skiOid from heo) (by decide)

/-! ### What is false of the code -/

theorem parseLoop_ok : ∀ (l : List Ext) {t r : List Ext}, parseLoop t l = .ok r →
    (∀ e ∈ l, e.oid ≠ dcdOid) ∧ ∃ m, r = t ++ m ∧ ∀ e ∈ m, e ∈ l ∧ e.oid ≠ skiOid := by
  intro l
  induction l with
  | nil =>
    intro t r h
    cases h
    exact ⟨fun e he => (by cases he), [], (List.append_nil _).symm, fun e he => (by cases he)⟩
  | cons x l ih =>
    intro t r h
    unfold parseLoop at h
    by_cases h1 : x.oid = dcdOid
    · rw [if_pos h1] at h; cases h
    rw [if_neg h1] at h
    have hl : (∀ e ∈ l, e.oid ≠ dcdOid) → ∀ e ∈ x :: l, e.oid ≠ dcdOid := by
      intro hh e he
      cases List.mem_cons.1 he with
      | inl h => rw [h]; exact h1
      | inr h => exact hh e h
    by_cases h2 : x.oid = skiOid
    · rw [if_pos h2] at h
      obtain ⟨g1, m, g2, g3⟩ := ih h
      exact ⟨hl g1, m, g2, fun e he => ⟨List.mem_cons_of_mem _ (g3 e he).1, (g3 e he).2⟩⟩
    rw [if_neg h2] at h
    cases h3 : hasExt x.oid t with
    | true =>
      rw [h3, if_pos rfl] at h
      obtain ⟨g1, m, g2, g3⟩ := ih h
      exact ⟨hl g1, m, g2, fun e he => ⟨List.mem_cons_of_mem _ (g3 e he).1, (g3 e he).2⟩⟩
    | false =>
      rw [h3, if_neg (by decide)] at h
      obtain ⟨g1, m, g2, g3⟩ := ih h
      refine ⟨hl g1, x :: m, by rw [g2, List.append_assoc]; rfl, ?_⟩
      intro e he
      cases List.mem_cons.1 he with
      | inl hh => rw [hh]; exact ⟨List.mem_cons_self, h2⟩
      | inr hh => exact ⟨List.mem_cons_of_mem _ (g3 e hh).1, (g3 e hh).2⟩

theorem parseExtension_ok {env : Env K} {exts t r : List Ext} {spki : Bytes} {inc : Option Bool} {crit : Bool}
    (h : parseExtension env exts spki t inc crit = .ok r) :
    ∃ s, validateSki env exts spki none (decide (inc = some true)) = .ok s ∧ (∀ e ∈ exts, e.oid ≠ dcdOid) ∧
      ∃ m, r = addSki env spki t inc crit s ++ m ∧ ∀ e ∈ m, e ∈ exts ∧ e.oid ≠ skiOid := by
  unfold parseExtension at h
  cases hs : validateSki env exts spki none (decide (inc = some true)) with
  | error e => rw [hs] at h; cases h
  | ok s =>
    rw [hs] at h
    obtain ⟨h1, m, h2, h3⟩ := parseLoop_ok _ h
    exact ⟨s, rfl, h1, m, h2, h3⟩

/-- C125, false of the code: if only the base certificate requests extensions, the delta certificate has none of them,
and what is rebuilt from the paired certificate is never the delta certificate. -/
theorem C125_base_only_refuted [DecidableEq K] {env : Env K} {i : Issue} {csr : Csr} {hash : String}
    {pss : Bool} {p δ : Cert} {req : DeltaReq} {l : List Ext}
    (hv : verifyPaired env csr = .ok req) (hx : csrExts env csr = .ok (some l)) (hl : l ≠ []) (hr : req.exts = [])
    (h : buildPaired env i csr {} hash pss = .ok (p, δ)) : rebuildDelta env p ≠ .ok δ := by
  intro hreb
  obtain ⟨req', k1, k2, xs', b, d, h1, h2, h3, h4, h5, h6, h7⟩ := buildPaired_ok h
  rw [hv] at h1
  cases h1
  rw [hx] at h5
  cases h5
  obtain ⟨g1, base, -, -, g2⟩ := issuePair_exts h7
  unfold processExts at h6
  dsimp only at h6
  rw [if_pos hr] at h6
  cases hp : parseExtension env l csr.spki l none false with
  | error e => rw [hp] at h6; cases h6
  | ok b' =>
    rw [hp] at h6
    cases h6
    obtain ⟨s, -, hnd, m, hm, -⟩ := parseExtension_ok hp
    obtain ⟨dd, -, -, -, -, -, hex, -⟩ := C124_rebuilt hreb
    rw [g1] at hex
    have hnil : (p.tbs.exts.map (·.oid)).filter (fun o => decide (o ≠ dcdOid)) = [] := hex.symm
    cases l with
    | nil => exact hl rfl
    | cons e l =>
      have hmem : e ∈ p.tbs.exts := by
        rw [g2, hm]
        refine List.mem_append_left _ (List.mem_append_left _ ?_)
        unfold addSki
        split
        · exact List.mem_cons_self
        · rw [if_neg (by decide)]
          exact List.mem_append_left _ List.mem_cons_self
      have : e.oid ∈ (p.tbs.exts.map (·.oid)).filter (fun o => decide (o ≠ dcdOid)) :=
        List.mem_filter.2 ⟨List.mem_map.2 ⟨e, hmem, rfl⟩, decide_eq_true (hnd e List.mem_cons_self)⟩
      rw [hnil] at this
      cases this

/-- C125, false of the code: if only the base certificate requests extensions and a key identifier is among them, the
paired certificate has two key identifiers. -/
theorem C125_ski_twice_refuted [DecidableEq K] {env : Env K} {i : Issue} {csr : Csr} {hash : String}
    {pss : Bool} {p δ : Cert} {req : DeltaReq} {l : List Ext}
    (hv : verifyPaired env csr = .ok req) (hx : csrExts env csr = .ok (some l)) (hl : skiOid ∈ l.map (·.oid))
    (hr : req.exts = []) (h : buildPaired env i csr {} hash pss = .ok (p, δ)) :
    2 ≤ (p.tbs.exts.map (·.oid)).count skiOid := by
  obtain ⟨req', k1, k2, xs', b, d, h1, h2, h3, h4, h5, h6, h7⟩ := buildPaired_ok h
  rw [hv] at h1
  cases h1
  rw [hx] at h5
  cases h5
  obtain ⟨g1, base, -, -, g2⟩ := issuePair_exts h7
  unfold processExts at h6
  dsimp only at h6
  rw [if_pos hr] at h6
  cases hp : parseExtension env l csr.spki l none false with
  | error e => rw [hp] at h6; cases h6
  | ok b' =>
    rw [hp] at h6
    cases h6
    obtain ⟨s, hs, -, m, hm, -⟩ := parseExtension_ok hp
    have hsome : ∃ e, s = some e ∧ e.oid = skiOid := by
      unfold validateSki at hs
      cases hg : getExt l skiOid with
      | none => exact absurd hl (getExt_none.1 hg)
      | some e =>
        rw [hg] at hs
        dsimp only at hs
        cases hd : env.decSki e.value with
        | error x => rw [hd] at hs; cases hs
        | ok v =>
          rw [hd] at hs
          dsimp only at hs
          by_cases hv' : v ≠ env.digest csr.spki
          · rw [if_pos hv'] at hs; cases hs
          · rw [if_neg hv'] at hs
            cases hs
            exact ⟨e, rfl, getExt_oid hg⟩
    obtain ⟨e, rfl, he⟩ := hsome
    have hadd : addSki env csr.spki l none false (some e) = l ++ [e] := by
      unfold addSki
      exact if_neg (by decide)
    rw [g2, hm, hadd]
    simp only [List.map_append, List.count_append, List.map_cons, List.map_nil, he]
    have h1 : 1 ≤ (l.map (·.oid)).count skiOid := List.one_le_count_iff.2 hl
    have h2 : [skiOid].count skiOid = 1 := by simp
    omega

/-- C125, false of the code: if only the delta certificate requests extensions, the paired certificate has exactly the
extensions of the delta certificate, so its key identifier is that of the delta key. -/
theorem C125_delta_only_refuted [DecidableEq K] {env : Env K} {i : Issue} {csr : Csr} {o : ExtOpts} {hash : String}
    {pss : Bool} {p δ : Cert} {req : DeltaReq} (hski : ∀ x, env.decSki (env.encSki x) = .ok x)
    (hv : verifyPaired env csr = .ok req) (hx : csrExts env csr = .ok none) (hr : req.exts ≠ [])
    (hinc : o.includeSki = some true) (h : buildPaired env i csr o hash pss = .ok (p, δ)) :
    (∃ x, p.tbs.exts = δ.tbs.exts ++ [x]) ∧
    ∃ e ∈ p.tbs.exts, e.oid = skiOid ∧ env.decSki e.value = .ok (env.digest δ.tbs.spki) := by
  obtain ⟨req', _, _, h0, _, _, _, _, _, _, _, hp1, _, _, _, _, hd1, _⟩ := C125_pair h
  rw [hv] at h0
  cases h0
  obtain ⟨req', k1, k2, xs', b, d, h1, h2, h3, h4, h5, h6, h7⟩ := buildPaired_ok h
  rw [hv] at h1
  cases h1
  rw [hx] at h5
  cases h5
  obtain ⟨g1, base, -, -, g2⟩ := issuePair_exts h7
  unfold processExts at h6
  dsimp only at h6
  rw [if_neg hr] at h6
  cases hp : parseExtension env req.exts req.spki o.additional o.includeSki o.skiCritical with
  | error e => rw [hp] at h6; cases h6
  | ok b' =>
    rw [hp] at h6
    cases h6
    refine ⟨⟨_, by rw [g1]; exact g2⟩, ?_⟩
    obtain ⟨s, hs, -, m, hm, -⟩ := parseExtension_ok hp
    obtain ⟨v1, v2⟩ := validateSki_ok hski hs
    rw [hd1]
    cases s with
    | none => exact absurd rfl (v2 (decide_eq_true hinc))
    | some e =>
      have hadd : addSki env req.spki o.additional o.includeSki o.skiCritical (some e) = o.additional ++ [e] := by
        unfold addSki
        exact if_neg (by rw [hinc]; decide)
      refine ⟨e, ?_, v1 e rfl⟩
      rw [g2, hm, hadd]
      exact List.mem_append_left _ (List.mem_append_left _ (List.mem_append_right _ List.mem_cons_self))

/-- C125, false of the code: with another hash than the default one and a signature algorithm with parameters (an RSA
key of the CA), the delta certificate of a pair with one descriptor is never rebuilt. -/
theorem C125_hash_refuted [DecidableEq K] {env : Env K} {i : Issue} {csr : Csr} {o : ExtOpts} {hash : String}
    {pss : Bool} {p δ : Cert} (hcodec : Decodes env p)
    (hone : (p.tbs.exts.map (·.oid)).count dcdOid = 1)
    (hdiff : env.prepAlg (some hash) pss ≠ env.prepAlg (some "sha256") pss) (hpar : δ.alg.params ≠ none)
    (h : buildPaired env i csr o hash pss = .ok (p, δ)) : rebuildDelta env p ≠ .ok δ := by
  intro hreb
  obtain ⟨_, _, _, _, _, _, _, _, _, _, _, _, _, _, _, _, _, _, _, _, _, _, hda, hprep, _⟩ := C125_pair h
  obtain ⟨req', k1, k2, xs', b, d, h1, h2, h3, h4, h5, h6, h7⟩ := buildPaired_ok h
  obtain ⟨g1, base, -, gb, g2⟩ := issuePair_exts h7
  have hnb : dcdOid ∉ b.map (·.oid) := by
    intro hm
    rw [g2, List.map_append, List.count_append] at hone
    have h1 : 1 ≤ (b.map (·.oid)).count dcdOid := List.one_le_count_iff.2 hm
    have h2 : (([dcdExt env false (prepareDcd δ base)] : List Ext).map (·.oid)).count dcdOid = 1 := by
      simp [dcdExt]
    omega
  have hget : getDcd env p = .ok (prepareDcd δ base) := by
    unfold getDcd
    rw [g2, getExt_append, getExt_none.2 hnb]
    show (match env.decDcd (env.encDcd (prepareDcd δ base)) with
      | none => Except.error PyErr.pyasn1Error
      | some (d, rest) => if rest = [] then .ok d else .error .badAsn1Data) = _
    rw [hcodec _ (by rw [g2]; exact List.mem_append_right _ List.mem_cons_self)]
    exact if_pos rfl
  unfold rebuildDelta at hreb
  rw [hget] at hreb
  dsimp only at hreb
  unfold rebuildWith at hreb
  split at hreb
  · cases hreb
  · have halg := congrArg Cert.alg (Except.ok.inj hreb)
    dsimp only [prepareDcd] at halg
    have hne : δ.tbs.alg ≠ base.alg := by
      intro he
      refine hdiff ?_
      rw [gb, ← he, ← hda]
      exact hprep
    rw [if_neg hne] at halg
    have : (none : Option Bytes) = δ.alg.params := congrArg Alg.params halg
    exact hpar this.symm

/-- C125, false of the code: if both requests ask for a descriptor extension, the one of the base request enters the
paired certificate before the CA's, and every reader takes it: the delta key is whatever the requester wrote, without
any proof of possession. -/
theorem C125_injected_refuted [DecidableEq K] {env : Env K} {i : Issue} {csr : Csr} {hash : String}
    {pss : Bool} {p δ : Cert} {req : DeltaReq} {l : List Ext} {e : Ext} {dd : Dcd}
    (hski : ∀ x, env.decSki (env.encSki x) = .ok x)
    (hv : verifyPaired env csr = .ok req) (hx : csrExts env csr = .ok (some l))
    (he : getExt l dcdOid = some e) (hreq : dcdOid ∈ req.exts.map (·.oid))
    (hdec : env.decDcd e.value = some (dd, []))
    (h : buildPaired env i csr {} hash pss = .ok (p, δ)) :
    deltaSpki env p = .ok dd.spki := by
  obtain ⟨req', k1, k2, xs', b, d, h1, h2, h3, h4, h5, h6, h7⟩ := buildPaired_ok h
  rw [hv] at h1
  cases h1
  rw [hx] at h5
  cases h5
  obtain ⟨g1, base, -, -, g2⟩ := issuePair_exts h7
  have hr : req.exts ≠ [] := fun hh => by rw [hh] at hreq; cases hreq
  unfold processExts at h6
  dsimp only at h6
  rw [if_neg hr] at h6
  obtain ⟨-, t1, t2, l1, l2, rfl, -, q4, -, q6, -, q8⟩ := processRemove_ok hski (processBoth_eq rfl h6)
  have hl : dcdOid ∈ l.map (·.oid) := List.mem_map.2 ⟨e, getExt_mem he, getExt_oid he⟩
  have hsh : dcdOid ∈ sharedOids l req.exts := List.mem_filter.2 ⟨hl, decide_eq_true hreq⟩
  have hb := (addShared_spec _ q4).2.2 dcdOid hsh (by decide)
  have ht1 : dcdOid ∉ t1.map (·.oid) := by
    cases q8 with
    | inl q8 => rw [q8.2.1]; exact List.not_mem_nil
    | inr q8 =>
      obtain ⟨-, e1, e2, r1, -, r3, -⟩ := q8
      rw [r1]
      intro hm
      have : dcdOid = e1.oid := by simpa using hm
      rw [r3] at this
      exact absurd this (by decide)
  have hget1 : getExt l1 dcdOid = some e := by
    have hmem : dcdOid ∈ l1.map (·.oid) := by
      rw [List.map_append, List.map_append, List.mem_append, List.mem_append] at hb
      exact hb.resolve_left (fun hh => hh.elim ht1 List.not_mem_nil)
    cases hg : getExt l1 dcdOid with
    | none => exact absurd hmem (getExt_none.1 hg)
    | some x =>
      have := (q6 x (getExt_mem hg)).2.2
      rw [getExt_oid hg, he] at this
      exact this.symm
  have hget : getExt p.tbs.exts dcdOid = some e := by
    rw [g2, getExt_append, getExt_append, getExt_append, getExt_none.2 ht1, hget1]
    rfl
  unfold deltaSpki getDcd
  rw [hget]
  dsimp only
  rw [hdec]
  dsimp only
  rw [if_pos rfl]

/-! ## Examples -/

/-- A toy environment: keys are their bytes, a signature is valid if it repeats the key, RSA-like algorithm
identifiers have parameters, and the descriptor `x0` is the one that can be encoded. -/
def demoEnv (x0 : Dcd) : Env Bytes where
  encTbs _ := []
  encDcd x := if x = x0 then [1] else [0]
  decDcd v := if v = [1] then some (x0, []) else none
  hashOf o := .ok (if o = [384] then some "sha384" else some "sha256")
  prepAlg h _ := .ok (if h = some "sha384" then ⟨[384], some [5]⟩ else ⟨[256], some [5]⟩)
  sign _ _ _ := .ok [9]
  decReq v := match v with
    | k :: es => .ok ⟨none, [k], es.map (fun o => ⟨if o = 0 then dcdOid else if o = 1 then skiOid else [o.toNat], false, [k]⟩), none⟩
    | [] => .error .pyasn1Error
  decSig v := .ok v
  decExts v := .ok (v.map (fun o => ⟨if o = 0 then dcdOid else if o = 1 then skiOid else [o.toNat], false, [1]⟩))
  encInfo _ _ _ := []
  loadKey k := .ok k
  isVerifyKey _ := true
  rsaBits _ := none
  verify k _ _ s := if s = k then .ok () else .error .invalidSignature
  checkName _ := .ok ()
  digest k := k
  encSki x := x
  decSki v := .ok v

def demoDcd : Dcd := ⟨12, none, none, none, none, [2], [], [9]⟩
def demoIssue : Issue := ⟨[7], ⟨[1], [2], none⟩, 11, 12, [2]⟩
/-- A request for the base key `[1]` with the requested base extensions `b` and the delta request `d`. -/
def demoCsr (b : Option Bytes) (d : Bytes) : Csr :=
  ⟨[8], [1], (match b with | some v => [⟨extReqOid, v⟩] | none => []) ++ [⟨deltaReqOid, d⟩, ⟨deltaSigOid, [2]⟩],
    ⟨[256], some [5]⟩, [1]⟩

def demoRun (x0 : Dcd) (b : Option Bytes) (d : Bytes) (o : ExtOpts) (hash : String) : Except PyErr (Cert × Cert) :=
  buildPaired (demoEnv x0) demoIssue (demoCsr b d) o hash false

/-- Is the issued delta certificate the rebuilt one? -/
def demoBack (x0 : Dcd) : Except PyErr (Cert × Cert) → Option Bool
  | .ok (p, δ) => some (decide (rebuildDelta (demoEnv x0) p = .ok δ))
  | .error _ => none

-- C124_exact, C125_rebuild_partial: a pair without and a pair with requested extensions
example : demoBack demoDcd (demoRun demoDcd none [2] {} "sha256") = some true := by decide +kernel
example : demoBack { demoDcd with exts := [⟨skiOid, false, [2]⟩, ⟨[30], false, [2]⟩] }
    (demoRun { demoDcd with exts := [⟨skiOid, false, [2]⟩, ⟨[30], false, [2]⟩] } (some [30]) [2, 30] {} "sha256") =
      some true := by decide +kernel
-- C125_base_only_refuted
example : demoBack demoDcd (demoRun demoDcd (some [30]) [2] {} "sha256") = some false := by decide +kernel
-- C125_hash_refuted, C124_parameters_refuted
example : demoBack { demoDcd with alg := some ⟨[384], none⟩ }
    (demoRun { demoDcd with alg := some ⟨[384], none⟩ } none [2] {} "sha384") = some false := by decide +kernel
-- C125_ski_twice_refuted
example : (match demoRun demoDcd (some [1]) [2] {} "sha256" with
    | .ok (p, _) => (p.tbs.exts.map (·.oid)).count skiOid
    | .error _ => 0) = 2 := by decide +kernel
-- C125_delta_only_refuted: the key identifier of the delta key `[2]` in the certificate for the key `[1]`
example : (match demoRun demoDcd none [2, 30] { includeSki := some true } "sha256" with
    | .ok (p, _) => (p.tbs.spki, (getExt p.tbs.exts skiOid).map (·.value))
    | .error _ => ([], none)) = ([1], some [2]) := by decide +kernel
-- C125_injected_refuted: the delta key of the paired certificate is the `[66]` of the requested descriptor
example : (match demoRun { demoDcd with spki := [66] } (some [0]) [2, 0] {} "sha256" with
    | .ok (p, δ) => (deltaSpki (demoEnv { demoDcd with spki := [66] }) p, δ.tbs.spki)
    | .error e => (.error e, [])) = (.ok [66], [2]) := by decide +kernel
-- C126_iff, C126_bad_delta
example : verifyPaired (demoEnv demoDcd) (demoCsr none [2]) = .ok ⟨none, [2], [], none⟩ := by decide +kernel
example : verifyPaired (demoEnv demoDcd) (demoCsr none [3]) = .error .badAltPOP := by decide +kernel

/-- C126, false of the code: with two delta requests, the CA checks whether the key of the first is revoked or already
certified, and issues for the key of the last. -/
theorem C126_two_requests_refuted : ∃ (env : Env Bytes) (csr : Csr) (r : DeltaReq) (k : Bytes) (n : Bytes),
    verifyPaired env csr = .ok r ∧ loadDeltaSender env csr = .ok (k, n) ∧ env.loadKey r.spki ≠ .ok k := by
  refine ⟨demoEnv demoDcd, { demoCsr none [2] with
    attrs := [⟨deltaReqOid, [3]⟩, ⟨deltaReqOid, [2]⟩, ⟨deltaSigOid, [2]⟩] }, ⟨none, [2], [], none⟩, [3], [8], ?_⟩
  decide +kernel

end Verif.Hybrid
