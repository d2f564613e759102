import Verif.Hybrid.Chameleon

/-!
# Properties of chameleon certificates

C124: the delta certificate can be rebuilt from the paired certificate. C125: what is issued for a paired request.
C126: a paired request proves possession of both keys.
-/

namespace Verif.Hybrid

open Verif.CA

variable {K : Type}

/-! ## Specification -/

/-- Specification: the delta certificate differs from the base certificate only in what a descriptor can express and
the code expresses. `final` is the signature algorithm of the finished base certificate. -/
structure Expressible (delta : Cert) (base : Tbs) (final : Alg) : Prop where
  exts : delta.tbs.exts.map (·.oid) = base.exts.map (·.oid)
  validity : delta.tbs.validity = base.validity
  other : delta.tbs.other = base.other
  alg : (delta.tbs.alg = base.alg ∧ final = delta.tbs.alg) ∨ (delta.tbs.alg ≠ base.alg ∧ delta.tbs.alg.params = none)

/-! ## Extension lists -/

/-- The extension of the delta certificate in place of one of the base certificate. -/
def patch (delta : List Ext) (b : Ext) : Ext :=
  match getExt delta b.oid with
  | none => b
  | some e => { b with critical := e.critical, value := e.value }

theorem getExt_cons (e : Ext) (l : List Ext) (o : Oid) :
    getExt (e :: l) o = if e.oid = o then some e else getExt l o := by
  unfold getExt
  rw [List.find?_cons]
  by_cases h : e.oid = o
  · rw [if_pos h, decide_eq_true h]
  · rw [if_neg h, decide_eq_false h]

theorem getExt_oid {l : List Ext} {o : Oid} {e : Ext} (h : getExt l o = some e) : e.oid = o := by
  have := List.find?_some h
  exact of_decide_eq_true this

theorem getExt_mem {l : List Ext} {o : Oid} {e : Ext} (h : getExt l o = some e) : e ∈ l :=
  List.mem_of_find?_eq_some h

theorem getExt_none {l : List Ext} {o : Oid} : getExt l o = none ↔ o ∉ l.map (·.oid) := by
  unfold getExt
  rw [List.find?_eq_none]
  constructor
  · intro h hm
    obtain ⟨e, he, heo⟩ := List.mem_map.1 hm
    exact h e he (decide_eq_true heo)
  · intro h e he hd
    exact h (List.mem_map.2 ⟨e, he, of_decide_eq_true hd⟩)

theorem getExt_append (l m : List Ext) (o : Oid) : getExt (l ++ m) o = (getExt l o).or (getExt m o) := by
  unfold getExt
  rw [List.find?_append]

/-- With distinct OIDs each extension is the one found. -/
theorem getExt_self {l : List Ext} (hn : (l.map (·.oid)).Nodup) {e : Ext} (he : e ∈ l) : getExt l e.oid = some e := by
  induction l with
  | nil => cases he
  | cons x l ih =>
    rw [List.map_cons, List.nodup_cons] at hn
    rw [getExt_cons]
    by_cases h : x.oid = e.oid
    · rw [if_pos h]
      cases List.mem_cons.1 he with
      | inl h1 => rw [h1]
      | inr h1 => exact absurd (h ▸ List.mem_map.2 ⟨e, h1, rfl⟩) hn.1
    · rw [if_neg h]
      cases List.mem_cons.1 he with
      | inl h1 => exact absurd (by rw [h1]) h
      | inr h1 => exact ih hn.2 h1

theorem patch_oid (delta : List Ext) (b : Ext) : (patch delta b).oid = b.oid := by
  unfold patch
  split <;> rfl

theorem map_patch_oid (delta base : List Ext) : (base.map (patch delta)).map (·.oid) = base.map (·.oid) := by
  rw [List.map_map]
  exact List.map_congr_left (fun b _ => patch_oid delta b)

theorem replaceExt_append {x : Ext} {pre l : List Ext} (h : x.oid ∉ pre.map (·.oid)) :
    replaceExt x (pre ++ l) = (replaceExt x l).map (pre ++ ·) := by
  induction pre with
  | nil => rw [List.nil_append]; cases replaceExt x l <;> rfl
  | cons p pre ih =>
    rw [List.map_cons, List.mem_cons, not_or] at h
    rw [List.cons_append, replaceExt, if_neg (fun hh => h.1 hh.symm), ih h.2]
    cases replaceExt x l <;> rfl

theorem applyExts_cons (l : List Ext) (x : Ext) (xs : List Ext) :
    applyExts l (x :: xs) = match replaceExt x l with
      | none => .error .valueError
      | some l' => applyExts l' xs := rfl

/-- The descriptor's extensions turn those of the base certificate into those of the delta certificate. -/
theorem applyExts_clean (delta : List Ext) : ∀ (base pre : List Ext), ((pre ++ base).map (·.oid)).Nodup →
    applyExts (pre ++ base) (cleanExts base delta) = .ok (pre ++ base.map (patch delta)) := by
  intro base
  induction base with
  | nil => intro pre _; rfl
  | cons b base ih =>
    intro pre hn
    have hb : b.oid ∉ pre.map (·.oid) := by
      rw [List.map_append, List.nodup_append] at hn
      intro hm
      exact hn.2.2 _ hm _ (by simp) rfl
    have hrec : ∀ b' : Ext, b'.oid = b.oid →
        applyExts (pre ++ b' :: base) (cleanExts base delta) = .ok (pre ++ b' :: base.map (patch delta)) := by
      intro b' hb'
      have := ih (pre ++ [b']) (by
        rw [List.append_assoc]
        simpa [hb'] using hn)
      simpa using this
    have hcl : cleanExts (b :: base) delta = differing delta b ++ cleanExts base delta := List.flatMap_cons
    rw [hcl, List.map_cons]
    unfold differing patch
    cases hg : getExt delta b.oid with
    | none => exact hrec b rfl
    | some e =>
      have heo := getExt_oid hg
      have hrep : applyExts (pre ++ b :: base) ([e] ++ cleanExts base delta) =
          .ok (pre ++ { b with critical := e.critical, value := e.value } :: base.map (patch delta)) := by
        rw [List.singleton_append, applyExts_cons, replaceExt_append (by rw [heo]; exact hb), replaceExt,
          if_pos heo.symm]
        exact hrec _ rfl
      dsimp only
      by_cases hc : e.critical ≠ b.critical
      · rw [if_pos hc]; exact hrep
      · rw [if_neg hc]
        by_cases hv : e.value ≠ b.value
        · rw [if_pos hv]; exact hrep
        · rw [if_neg hv]
          rw [Decidable.not_not.1 hc, Decidable.not_not.1 hv]
          exact hrec b rfl

theorem map_patch_eq (D : List Ext) : ∀ (base l : List Ext), l.map (·.oid) = base.map (·.oid) →
    (∀ e ∈ l, getExt D e.oid = some e) → base.map (patch D) = l := by
  intro base
  induction base with
  | nil =>
    intro l h _
    exact (List.map_eq_nil_iff.1 h).symm
  | cons b base ih =>
    intro l h hg
    cases l with
    | nil => simp at h
    | cons e l =>
      rw [List.map_cons, List.map_cons, List.cons.injEq] at h
      rw [List.map_cons, ih l h.2 (fun x hx => hg x (List.mem_cons_of_mem _ hx))]
      have : patch D b = e := by
        have h2 := hg e List.mem_cons_self
        unfold patch
        rw [← h.1, h2]
      rw [this]

/-- The rebuilt extensions are those of the delta certificate exactly if the OIDs and their order are the same. -/
theorem map_patch_iff {D base : List Ext} (hn : (base.map (·.oid)).Nodup) :
    base.map (patch D) = D ↔ D.map (·.oid) = base.map (·.oid) := by
  constructor
  · intro h
    rw [← map_patch_oid D base, h]
  · intro h
    exact map_patch_eq D base D h (fun e he => getExt_self (h ▸ hn) he)

theorem withoutDcd_eq {l : List Ext} (h : dcdOid ∉ l.map (·.oid)) : withoutDcd l = l := by
  unfold withoutDcd
  rw [List.filter_eq_self]
  intro e he
  exact decide_eq_true (fun hh => h (List.mem_map.2 ⟨e, he, hh⟩))

theorem withoutDcd_append {l : List Ext} (h : dcdOid ∉ l.map (·.oid)) (c : Bool) (v : Bytes) :
    withoutDcd (l ++ [⟨dcdOid, c, v⟩]) = l := by
  have : withoutDcd (l ++ [⟨dcdOid, c, v⟩]) = withoutDcd l ++ withoutDcd [⟨dcdOid, c, v⟩] := List.filter_append ..
  rw [this, withoutDcd_eq h]
  exact List.append_nil l

/-! ## C124 -/

theorem signCert_ok {env : Env K} {t : Tbs} {h : Option String} {pss : Bool} {c : Cert}
    (hs : signCert env t h pss = .ok c) :
    ∃ a s, env.prepAlg h pss = .ok a ∧ env.sign h pss (env.encTbs { t with alg := a }) = .ok s ∧
      c = ⟨{ t with alg := a }, a, s⟩ := by
  unfold signCert at hs
  cases ha : env.prepAlg h pss with
  | error e => rw [ha] at hs; cases hs
  | ok a =>
    rw [ha] at hs
    dsimp only at hs
    cases hg : env.sign h pss (env.encTbs { t with alg := a }) with
    | error e => rw [hg] at hs; cases hs
    | ok s =>
      rw [hg] at hs
      cases hs
      exact ⟨a, s, rfl, hg, rfl⟩

/-- A base certificate as issued: the given one with the descriptor, signed over the result. -/
theorem buildBase_ok {env : Env K} {delta : Cert} {base : Tbs} {pss crit : Bool} {h : Option String} {p : Cert}
    (hb : buildBase env delta base pss crit h = .ok p) :
    ∃ h' a s, pickHash env delta h = .ok h' ∧ env.prepAlg h' pss = .ok a ∧
      env.sign h' pss (env.encTbs p.tbs) = .ok s ∧
      p = ⟨{ base with exts := base.exts ++ [dcdExt env crit (prepareDcd delta base)], alg := a }, a, s⟩ := by
  unfold buildBase at hb
  cases hp : pickHash env delta h with
  | error e => rw [hp] at hb; cases hb
  | ok h' =>
    rw [hp] at hb
    obtain ⟨a, s, h1, h2, h3⟩ := signCert_ok hb
    refine ⟨h', a, s, rfl, h1, ?_, h3⟩
    rw [h3]
    exact h2

theorem getD_ite_none {α : Type} (p : Prop) [Decidable p] (a b : α) :
    (if p then none else some a).getD b = if p then b else a := by
  split <;> rfl

/-- The certificate rebuilt from a freshly issued base certificate. -/
theorem rebuild_built {env : Env K} {delta : Cert} {base : Tbs} {pss crit : Bool} {h : Option String} {p : Cert}
    (hcodec : env.decDcd (env.encDcd (prepareDcd delta base)) = some (prepareDcd delta base, []))
    (hn : (base.exts.map (·.oid)).Nodup) (hd : dcdOid ∉ base.exts.map (·.oid))
    (hb : buildBase env delta base pss crit h = .ok p) :
    rebuildDelta env p = .ok
      { tbs :=
          { other := base.other
            serial := delta.tbs.serial
            alg := if delta.tbs.alg = base.alg then p.alg else ⟨delta.tbs.alg.oid, none⟩
            issuer := delta.tbs.issuer
            validity := rebuiltValidity (prepareDcd delta base) base.validity
            subject := delta.tbs.subject
            spki := delta.tbs.spki
            exts := base.exts.map (patch delta.tbs.exts) }
        alg := if delta.tbs.alg = base.alg then p.alg else ⟨delta.tbs.alg.oid, none⟩
        sig := delta.sig } := by
  obtain ⟨h', a, s, -, -, -, rfl⟩ := buildBase_ok hb
  have hget : getExt (base.exts ++ [dcdExt env crit (prepareDcd delta base)]) dcdOid =
      some (dcdExt env crit (prepareDcd delta base)) := by
    rw [getExt_append, getExt_none.2 hd]
    rfl
  unfold rebuildDelta getDcd
  dsimp only
  rw [hget]
  dsimp only [dcdExt]
  rw [hcodec]
  dsimp only
  rw [if_pos rfl]
  unfold rebuildWith
  dsimp only
  rw [withoutDcd_append hd]
  have := applyExts_clean delta.tbs.exts base.exts [] hn
  rw [List.nil_append, List.nil_append] at this
  rw [show (prepareDcd delta base).exts = cleanExts base.exts delta.tbs.exts from rfl, this]
  dsimp only [prepareDcd]
  simp only [getD_ite_none]
  congr 2
  congr 1
  · split
    · rename_i h; exact h.symm
    · rfl
  · split
    · rename_i h; exact h.symm
    · rfl

theorem rebuiltValidity_iff {delta : Cert} {base : Tbs} (hv : delta.tbs.validity.tag = none) :
    rebuiltValidity (prepareDcd delta base) base.validity = delta.tbs.validity ↔
      delta.tbs.validity = base.validity := by
  unfold rebuiltValidity
  dsimp only [prepareDcd]
  by_cases h : delta.tbs.validity = base.validity
  · rw [if_pos h]
    exact ⟨fun _ => h, fun _ => h.symm⟩
  · rw [if_neg h]
    constructor
    · intro hh
      have : (some 2 : Option Nat) = delta.tbs.validity.tag := congrArg Validity.tag hh
      rw [hv] at this
      cases this
    · intro hh
      exact absurd hh h

/-- C124. The delta certificate is rebuilt from the base certificate issued for it exactly if the two have the same
extension OIDs in the same order, the same validity and version, and either the same signature algorithm, with which
the base certificate is finally signed, or a delta algorithm without parameters. -/
theorem C124_exact {env : Env K} {delta : Cert} {base : Tbs} {pss crit : Bool} {h : Option String} {p : Cert}
    (hcodec : env.decDcd (env.encDcd (prepareDcd delta base)) = some (prepareDcd delta base, []))
    (hn : (base.exts.map (·.oid)).Nodup) (hd : dcdOid ∉ base.exts.map (·.oid))
    (hv : delta.tbs.validity.tag = none) (ha : delta.alg = delta.tbs.alg)
    (hb : buildBase env delta base pss crit h = .ok p) :
    rebuildDelta env p = .ok delta ↔ Expressible delta base p.alg := by
  rw [rebuild_built hcodec hn hd hb]
  constructor
  · intro heq
    have heq := Except.ok.inj heq
    have htbs := congrArg Cert.tbs heq
    have h1 : base.exts.map (patch delta.tbs.exts) = delta.tbs.exts := congrArg Tbs.exts htbs
    have h2 : rebuiltValidity (prepareDcd delta base) base.validity = delta.tbs.validity := congrArg Tbs.validity htbs
    have h3 : delta.tbs.other = base.other := by rw [← htbs]
    have h4 : (if delta.tbs.alg = base.alg then p.alg else ⟨delta.tbs.alg.oid, none⟩) = delta.tbs.alg :=
      congrArg Tbs.alg htbs
    refine ⟨(map_patch_iff hn).1 h1, (rebuiltValidity_iff hv).1 h2, h3, ?_⟩
    by_cases hh : delta.tbs.alg = base.alg
    · rw [if_pos hh] at h4
      exact Or.inl ⟨hh, h4⟩
    · rw [if_neg hh] at h4
      exact Or.inr ⟨hh, (congrArg Alg.params h4).symm⟩
  · intro ⟨h1, h2, h3, h4⟩
    have hx := (map_patch_iff (D := delta.tbs.exts) hn).2 h1
    have hval := (rebuiltValidity_iff (delta := delta) (base := base) hv).2 h2
    have halg : (if delta.tbs.alg = base.alg then p.alg else ⟨delta.tbs.alg.oid, none⟩) = delta.tbs.alg := by
      cases h4 with
      | inl h4 => rw [if_pos h4.1]; exact h4.2
      | inr h4 =>
        rw [if_neg h4.1]
        show Alg.mk delta.tbs.alg.oid none = ⟨delta.tbs.alg.oid, delta.tbs.alg.params⟩
        rw [h4.2]
    rw [hx, hval, halg, ← h3]
    show Except.ok (Cert.mk delta.tbs delta.tbs.alg delta.sig) = _
    rw [← ha]

/-- C124, false of the code: a delta certificate whose signature algorithm differs and has parameters (RSA: NULL) is
never rebuilt, since only the OID enters the descriptor. -/
theorem C124_parameters_refuted {env : Env K} {delta : Cert} {base : Tbs} {pss crit : Bool} {h : Option String}
    {p : Cert} (hcodec : env.decDcd (env.encDcd (prepareDcd delta base)) = some (prepareDcd delta base, []))
    (hn : (base.exts.map (·.oid)).Nodup) (hd : dcdOid ∉ base.exts.map (·.oid))
    (hb : buildBase env delta base pss crit h = .ok p)
    (hdiff : delta.tbs.alg ≠ base.alg) (hpar : delta.tbs.alg.params ≠ none) :
    rebuildDelta env p ≠ .ok delta := by
  rw [rebuild_built hcodec hn hd hb]
  intro heq
  have h4 : (if delta.tbs.alg = base.alg then p.alg else ⟨delta.tbs.alg.oid, none⟩) = delta.tbs.alg :=
    congrArg Tbs.alg (congrArg Cert.tbs (Except.ok.inj heq))
  rw [if_neg hdiff] at h4
  exact hpar (congrArg Alg.params h4).symm

/-- C124, false of the code: a delta certificate with another validity is never rebuilt; the rebuilt validity has a
context tag that a certificate must not have. -/
theorem C124_validity_refuted {env : Env K} {delta : Cert} {base : Tbs} {pss crit : Bool} {h : Option String}
    {p : Cert} (hcodec : env.decDcd (env.encDcd (prepareDcd delta base)) = some (prepareDcd delta base, []))
    (hn : (base.exts.map (·.oid)).Nodup) (hd : dcdOid ∉ base.exts.map (·.oid))
    (hb : buildBase env delta base pss crit h = .ok p) (hdiff : delta.tbs.validity ≠ base.validity) :
    ∃ c, rebuildDelta env p = .ok c ∧ c.tbs.validity.tag = some 2 := by
  refine ⟨_, rebuild_built hcodec hn hd hb, ?_⟩
  show (rebuiltValidity (prepareDcd delta base) base.validity).tag = some 2
  unfold rebuiltValidity
  dsimp only [prepareDcd]
  rw [if_neg hdiff]

/-- C124, false of the code: with other extension OIDs than the base certificate, or another order, the delta
certificate is never rebuilt, and nothing reports that. -/
theorem C124_extensions_refuted {env : Env K} {delta : Cert} {base : Tbs} {pss crit : Bool} {h : Option String}
    {p : Cert} (hcodec : env.decDcd (env.encDcd (prepareDcd delta base)) = some (prepareDcd delta base, []))
    (hn : (base.exts.map (·.oid)).Nodup) (hd : dcdOid ∉ base.exts.map (·.oid))
    (hb : buildBase env delta base pss crit h = .ok p)
    (hdiff : delta.tbs.exts.map (·.oid) ≠ base.exts.map (·.oid)) :
    ∃ c, rebuildDelta env p = .ok c ∧ c ≠ delta ∧ c.tbs.exts.map (·.oid) = base.exts.map (·.oid) := by
  refine ⟨_, rebuild_built hcodec hn hd hb, ?_, map_patch_oid _ _⟩
  intro heq
  exact hdiff ((map_patch_iff hn).1 (congrArg Tbs.exts (congrArg Cert.tbs heq)))

/-! ### Validation of a descriptor -/

theorem extMap_nodup {base : List Ext} (hn : (base.map (·.oid)).Nodup) {b : Ext} (hb : b ∈ base) :
    extMap base b.oid = some b := by
  unfold extMap
  refine getExt_self ?_ (List.mem_reverse.2 hb)
  rw [List.map_reverse]
  exact (List.reverse_perm _).nodup_iff.2 hn

theorem extMap_none {base : List Ext} {o : Oid} (h : o ∉ base.map (·.oid)) : extMap base o = none := by
  unfold extMap
  rw [getExt_none, List.map_reverse, List.mem_reverse]
  exact h

theorem checkDcdExt_ok {base : List Ext} (hn : (base.map (·.oid)).Nodup) (e : Ext) :
    checkDcdExt base e = .ok () ↔ e.oid ≠ dcdOid ∧ e.oid ∈ base.map (·.oid) ∧ e ∉ base := by
  by_cases hm : e.oid ∈ base.map (·.oid)
  · obtain ⟨b, hb, hbo⟩ := List.mem_map.1 hm
    unfold checkDcdExt
    rw [← hbo, extMap_nodup hn hb]
    dsimp only
    by_cases heq : e.critical = b.critical ∧ e.value = b.value
    · rw [if_pos heq]
      have : e = b := by
        cases e; cases b
        dsimp only at heq hbo
        rw [heq.1, heq.2, hbo]
      constructor
      · intro h; cases h
      · intro h; exact absurd (this ▸ hb) h.2.2
    · rw [if_neg heq]
      have hne : e ∉ base := by
        intro he
        have h1 := extMap_nodup hn he
        rw [← hbo, extMap_nodup hn hb] at h1
        cases h1
        exact heq ⟨rfl, rfl⟩
      by_cases hd : e.oid = dcdOid
      · rw [if_pos (hbo.trans hd)]
        constructor
        · intro h; cases h
        · intro h; exact absurd (hbo.trans hd) h.1
      · rw [if_neg (by rw [hbo]; exact hd)]
        exact ⟨fun _ => ⟨by rw [hbo]; exact hd, by rw [hbo]; exact hm, hne⟩, fun _ => rfl⟩
  · unfold checkDcdExt
    rw [extMap_none hm]
    constructor
    · intro h; cases h
    · intro h; exact absurd h.2.1 hm

/-- C124. The validation of a descriptor against the extensions of the base certificate accepts exactly if each
extension of the descriptor is of another type than the descriptor, of a type the base certificate has, and differs
from the base certificate's. -/
theorem C124_validate_iff {base : List Ext} (hn : (base.map (·.oid)).Nodup) (l : List Ext) :
    validateDcd base l = .ok () ↔ ∀ e ∈ l, e.oid ≠ dcdOid ∧ e.oid ∈ base.map (·.oid) ∧ e ∉ base := by
  induction l with
  | nil => exact ⟨fun _ e he => (by cases he), fun _ => rfl⟩
  | cons e l ih =>
    rw [List.forall_mem_cons, ← ih, ← checkDcdExt_ok hn, validateDcd]
    cases checkDcdExt base e with
    | error x =>
      constructor
      · intro h; cases h
      · intro h; exact absurd h.1 (by intro hh; cases hh)
    | ok u =>
      cases u
      exact ⟨fun h => ⟨rfl, h⟩, fun h => h.2⟩

theorem mem_cleanExts {base delta : List Ext} {e : Ext} (h : e ∈ cleanExts base delta) :
    ∃ b ∈ base, getExt delta b.oid = some e ∧ (e.critical ≠ b.critical ∨ e.value ≠ b.value) := by
  obtain ⟨b, hb, hm⟩ := List.mem_flatMap.1 h
  refine ⟨b, hb, ?_⟩
  unfold differing at hm
  cases hg : getExt delta b.oid with
  | none => rw [hg] at hm; cases hm
  | some x =>
    rw [hg] at hm
    dsimp only at hm
    by_cases hc : x.critical ≠ b.critical
    · rw [if_pos hc] at hm
      cases List.mem_singleton.1 hm
      exact ⟨rfl, Or.inl hc⟩
    · rw [if_neg hc] at hm
      by_cases hv : x.value ≠ b.value
      · rw [if_pos hv] at hm
        cases List.mem_singleton.1 hm
        exact ⟨rfl, Or.inr hv⟩
      · rw [if_neg hv] at hm
        cases hm

/-- C124. The descriptor the code prepares passes its own validation. -/
theorem C124_prepared_valid (delta : Cert) {base : Tbs} (hn : (base.exts.map (·.oid)).Nodup)
    (hd : dcdOid ∉ base.exts.map (·.oid)) : validateDcd base.exts (prepareDcd delta base).exts = .ok () := by
  rw [C124_validate_iff hn]
  intro e he
  obtain ⟨b, hb, hg, hne⟩ := mem_cleanExts (show e ∈ cleanExts base.exts delta.tbs.exts from he)
  have ho := getExt_oid hg
  have hm : e.oid ∈ base.exts.map (·.oid) := List.mem_map.2 ⟨b, hb, ho.symm⟩
  refine ⟨fun h => hd (h ▸ hm), hm, ?_⟩
  intro hmem
  have h1 := getExt_self hn hmem
  rw [ho, getExt_self hn hb] at h1
  cases h1
  cases hne with
  | inl h => exact h rfl
  | inr h => exact h rfl

/-- Specification: in the delta certificate an extension is what the descriptor says about its type, or what the
base certificate has. The descriptor lists exactly the shared types whose criticality or value differ. -/
theorem C124_prepared_exts (delta : Cert) (base : Tbs) (e : Ext) :
    e ∈ (prepareDcd delta base).exts ↔ ∃ b ∈ base.exts, getExt delta.tbs.exts b.oid = some e ∧ e ≠ b := by
  constructor
  · intro he
    obtain ⟨b, hb, hg, hne⟩ := mem_cleanExts (show e ∈ cleanExts base.exts delta.tbs.exts from he)
    refine ⟨b, hb, hg, fun h => ?_⟩
    cases h
    cases hne with
    | inl h => exact h rfl
    | inr h => exact h rfl
  · intro ⟨b, hb, hg, hne⟩
    refine List.mem_flatMap.2 ⟨b, hb, ?_⟩
    unfold differing
    rw [hg]
    dsimp only
    by_cases hc : e.critical ≠ b.critical
    · rw [if_pos hc]; exact List.mem_singleton.2 rfl
    · rw [if_neg hc]
      by_cases hv : e.value ≠ b.value
      · rw [if_pos hv]; exact List.mem_singleton.2 rfl
      · exfalso
        have ho := getExt_oid hg
        refine hne ?_
        cases e; cases b
        dsimp only at hc hv ho
        rw [Decidable.not_not.1 hc, Decidable.not_not.1 hv, ho]

/-! ### Any paired certificate -/

theorem replaceExt_some {x : Ext} {l : List Ext} (h : x.oid ∈ l.map (·.oid)) :
    ∃ l', replaceExt x l = some l' ∧ l'.map (·.oid) = l.map (·.oid) := by
  induction l with
  | nil => cases h
  | cons e l ih =>
    unfold replaceExt
    by_cases he : e.oid = x.oid
    · rw [if_pos he]
      exact ⟨_, rfl, rfl⟩
    · rw [if_neg he]
      rw [List.map_cons, List.mem_cons] at h
      obtain ⟨l', h1, h2⟩ := ih (h.resolve_left (fun hh => he hh.symm))
      rw [h1]
      exact ⟨e :: l', rfl, by rw [List.map_cons, List.map_cons, h2]⟩

theorem replaceExt_none {x : Ext} {l : List Ext} (h : x.oid ∉ l.map (·.oid)) : replaceExt x l = none := by
  induction l with
  | nil => rfl
  | cons e l ih =>
    rw [List.map_cons, List.mem_cons, not_or] at h
    rw [replaceExt, if_neg (fun hh => h.1 hh.symm), ih h.2]
    rfl

/-- Applying succeeds exactly if each type is there, and keeps the types. -/
theorem applyExts_spec (xs : List Ext) : ∀ l : List Ext,
    ((∀ x ∈ xs, x.oid ∈ l.map (·.oid)) → ∃ l', applyExts l xs = .ok l' ∧ l'.map (·.oid) = l.map (·.oid)) ∧
    ((∃ x ∈ xs, x.oid ∉ l.map (·.oid)) → applyExts l xs = .error .valueError) := by
  induction xs with
  | nil => exact fun l => ⟨fun _ => ⟨l, rfl, rfl⟩, fun ⟨x, hx, _⟩ => (by cases hx)⟩
  | cons x xs ih =>
    intro l
    by_cases hx : x.oid ∈ l.map (·.oid)
    · obtain ⟨l', h1, h2⟩ := replaceExt_some hx
      rw [applyExts_cons, h1]
      have := ih l'
      rw [h2] at this
      refine ⟨fun h => this.1 (fun y hy => h y (List.mem_cons_of_mem _ hy)), fun ⟨y, hy, hy2⟩ => ?_⟩
      cases List.mem_cons.1 hy with
      | inl h => exact absurd (h ▸ hx) hy2
      | inr h => exact this.2 ⟨y, h, hy2⟩
    · rw [applyExts_cons, replaceExt_none hx]
      exact ⟨fun h => absurd (h x List.mem_cons_self) hx, fun _ => rfl⟩

/-- C124. From whatever certificate and descriptor: if a delta certificate is rebuilt, its key, serial number and
signature are those of the descriptor, its extensions have the types of the base certificate's without descriptors,
and issuer, subject and version come from the base certificate unless the descriptor names others. -/
theorem C124_rebuilt {env : Env K} {p c : Cert} (h : rebuildDelta env p = .ok c) :
    ∃ d, getDcd env p = .ok d ∧ deltaSpki env p = .ok c.tbs.spki ∧ c.tbs.spki = d.spki ∧ c.tbs.serial = d.serial ∧
      c.sig = d.sig ∧ c.tbs.exts.map (·.oid) = (p.tbs.exts.map (·.oid)).filter (fun o => decide (o ≠ dcdOid)) ∧
      (d.issuer = none → c.tbs.issuer = p.tbs.issuer) ∧ (∀ n, d.issuer = some n → c.tbs.issuer = n) ∧
      (d.subject = none → c.tbs.subject = p.tbs.subject) ∧ (∀ n, d.subject = some n → c.tbs.subject = n) ∧
      (d.validity = none → c.tbs.validity = p.tbs.validity) ∧ c.tbs.other = p.tbs.other := by
  unfold rebuildDelta at h
  cases hd : getDcd env p with
  | error e => rw [hd] at h; cases h
  | ok d =>
    rw [hd] at h
    dsimp only at h
    unfold rebuildWith at h
    cases hx : applyExts (withoutDcd p.tbs.exts) d.exts with
    | error e => rw [hx] at h; cases h
    | ok l =>
      rw [hx] at h
      cases h
      refine ⟨d, rfl, ?_, rfl, rfl, rfl, ?_, ?_, ?_, ?_, ?_, ?_, rfl⟩
      · unfold deltaSpki
        rw [hd]
      · have hl : l.map (·.oid) = (withoutDcd p.tbs.exts).map (·.oid) := by
          by_cases hall : ∀ x ∈ d.exts, x.oid ∈ (withoutDcd p.tbs.exts).map (·.oid)
          · obtain ⟨l', h1, h2⟩ := (applyExts_spec d.exts _).1 hall
            rw [hx] at h1
            cases h1
            exact h2
          · exfalso
            have : applyExts (withoutDcd p.tbs.exts) d.exts = .error .valueError := by
              refine (applyExts_spec d.exts _).2 ?_
              exact Classical.byContradiction (fun hne => hall (fun x hx =>
                Classical.byContradiction (fun hxo => hne ⟨x, hx, hxo⟩)))
            rw [hx] at this
            cases this
        show l.map (·.oid) = _
        rw [hl, List.filter_map]
        rfl
      · intro hh; show d.issuer.getD _ = _; rw [hh]; rfl
      · intro n hh; show d.issuer.getD _ = _; rw [hh]; rfl
      · intro hh; show d.subject.getD _ = _; rw [hh]; rfl
      · intro n hh; show d.subject.getD _ = _; rw [hh]; rfl
      · intro hh
        show rebuiltValidity d _ = _
        unfold rebuiltValidity
        rw [hh]

/-- C124. A descriptor that passes the validation against the certificate it is in can be applied. -/
theorem C124_valid_rebuilds {env : Env K} {p : Cert} {d : Dcd} (hn : (p.tbs.exts.map (·.oid)).Nodup)
    (hd : getDcd env p = .ok d) (hv : validateDcd p.tbs.exts d.exts = .ok ()) :
    ∃ c, rebuildDelta env p = .ok c := by
  rw [C124_validate_iff hn] at hv
  unfold rebuildDelta
  rw [hd]
  dsimp only
  unfold rebuildWith
  obtain ⟨l, h1, -⟩ := (applyExts_spec d.exts (withoutDcd p.tbs.exts)).1 (by
    intro x hx
    obtain ⟨h1, h2, -⟩ := hv x hx
    obtain ⟨b, hb, hbo⟩ := List.mem_map.1 h2
    exact List.mem_map.2 ⟨b, List.mem_filter.2 ⟨hb, decide_eq_true (by rw [hbo]; exact h1)⟩, hbo⟩)
  rw [h1]
  exact ⟨_, rfl⟩

end Verif.Hybrid
