import Verif.Check.Template

/-!
# Properties of template comparison, option strings and revocation details (C117, C118, C119)
-/

namespace Verif.Check

open Verif.CA (Bytes PyErr)

/-! ## C118: option strings -/

/-- Specification: the comma separated string of a list of tokens. -/
def joinComma : List (List Char) → List Char
  | [] => []
  | [t] => t
  | t :: u :: ts => t ++ ',' :: joinComma (u :: ts)

theorem splitComma_token (t : List Char) (h : ',' ∉ t) : splitComma t = [t] := by
  induction t with
  | nil => rfl
  | cons c cs ih =>
    have hc : c ≠ ',' := fun e => h (by simp [e])
    have hcs : ',' ∉ cs := fun m => h (by simp [m])
    rw [splitComma, if_neg hc, ih hcs]

theorem splitComma_cons (t rest : List Char) (h : ',' ∉ t) :
    splitComma (t ++ ',' :: rest) = t :: splitComma rest := by
  induction t with
  | nil => rw [List.nil_append, splitComma, if_pos rfl]
  | cons c cs ih =>
    have hc : c ≠ ',' := fun e => h (by simp [e])
    have hcs : ',' ∉ cs := fun m => h (by simp [m])
    rw [List.cons_append, splitComma, if_neg hc, ih hcs]

theorem splitComma_join (ts : List (List Char)) (hne : ts ≠ []) (h : ∀ t ∈ ts, ',' ∉ t) :
    splitComma (joinComma ts) = ts := by
  induction ts with
  | nil => exact absurd rfl hne
  | cons t ts ih =>
    cases ts with
    | nil => exact splitComma_token t (h t (by simp))
    | cons u us =>
      rw [joinComma, splitComma_cons t _ (h t (by simp)), ih (by simp) (fun x hx => h x (by simp [hx]))]

theorem dropWhile_id (l : List Char) (h : ' ' ∉ l) : l.dropWhile (· == ' ') = l := by
  cases l with
  | nil => rfl
  | cons c cs =>
    have hc : c ≠ ' ' := fun e => h (by simp [e])
    rw [List.dropWhile_cons_of_neg]
    simpa using hc

theorem stripL_id (l : List Char) (h : ' ' ∉ l) : stripL l = l := by
  unfold stripL
  rw [dropWhile_id l h, dropWhile_id l.reverse (by simpa using h), List.reverse_reverse]

theorem join_noblank (ts : List (List Char)) (h : ∀ t ∈ ts, ' ' ∉ t) : ' ' ∉ joinComma ts := by
  induction ts with
  | nil => simp [joinComma]
  | cons t ts ih =>
    cases ts with
    | nil => exact h t (by simp)
    | cons u us =>
      have := ih (fun x hx => h x (by simp [hx]))
      have ht := h t (by simp)
      simp only [joinComma, List.mem_append, List.mem_cons, not_or]
      exact ⟨ht, by decide, this⟩

/-- A plain option name: no comma, no blank. -/
def PlainName (t : List Char) : Prop := ',' ∉ t ∧ ' ' ∉ t

/-- **C118 (partial).** For an `include` string made of plain names separated by commas without blanks, the
excluded options are exactly the known options that are not listed, whatever `exclude` says. Missing: strings
with blanks after the commas, see `C118_blank_refuted`. -/
theorem C118_include_partial (options ts : List (List Char)) (excl : Option (List Char)) (hne : ts ≠ [])
    (hp : ∀ t ∈ ts, PlainName t) (o : List Char) :
    o ∈ filterOptions options (some (joinComma ts)) excl ↔ o ∈ options ∧ o ∉ ts := by
  simp only [filterOptions]
  rw [stripL_id _ (join_noblank ts (fun t ht => (hp t ht).2)), splitComma_join ts hne (fun t ht => (hp t ht).1)]
  simp

/-- **C118 (partial).** For an `exclude` string of the same form, exactly the listed options are excluded; with
neither string nothing is. -/
theorem C118_exclude_partial (options ts : List (List Char)) (hne : ts ≠ []) (hp : ∀ t ∈ ts, PlainName t) (o : List Char) :
    (o ∈ filterOptions options none (some (joinComma ts)) ↔ o ∈ ts) ∧ o ∉ filterOptions options none none := by
  simp only [filterOptions]
  rw [stripL_id _ (join_noblank ts (fun t ht => (hp t ht).2)), splitComma_join ts hne (fun t ht => (hp t ht).1)]
  simp

/-- Specification of the documented meaning: the comma separated names, blanks around a name not counting. -/
def Listed (s o : List Char) : Prop :=
  ∃ pre post : List Char, s = pre ++ o ++ post ∧
    (∃ p b, pre = p ++ b ∧ (p = [] ∨ ∃ q, p = q ++ [',']) ∧ ∀ c ∈ b, c = ' ') ∧
    (∃ p b, post = b ++ p ∧ (p = [] ∨ ∃ q, p = ',' :: q) ∧ ∀ c ∈ b, c = ' ')

/-- **C118 (refuted).** A name listed after a comma and a blank is not recognised: with the include string
`"serialNumber, issuer"` that `_contains_cert_template` passes, `issuer` is excluded although it is listed. -/
theorem C118_blank_refuted :
    ∃ s o : List Char, Listed s o ∧ o ∈ templateKeys ∧ o ∈ filterOptions templateKeys (some s) none := by
  refine ⟨"serialNumber, issuer".toList, "issuer".toList, ⟨"serialNumber, ".toList, [], by decide +kernel, ?_, ?_⟩,
    by decide +kernel, by decide +kernel⟩
  · exact ⟨"serialNumber,".toList, [' '], by decide +kernel, Or.inr ⟨"serialNumber".toList, by decide +kernel⟩,
      by simp⟩
  · exact ⟨[], [], rfl, Or.inl rfl, by simp⟩

example : filterOptions templateKeys (some "subject,publicKey".toList) none
    = ["version", "serialNumber", "signingAlg", "issuer", "validity", "issuerUID", "subjectUID",
        "extensions"].map String.toList := by decide +kernel

example : joinComma ["subject".toList, "publicKey".toList] = "subject,publicKey".toList ∧ PlainName "subject".toList := by
  constructor
  · decide +kernel
  · exact ⟨by decide +kernel, by decide +kernel⟩

/-! ## C117: template comparison -/

variable {A G T : Type}

/-- Specification: the template agrees with the certificate in every field for which `P` holds. -/
structure Agrees (load : Spki G → Except PyErr (Spki G)) (P : String → Prop) (strict : Bool) (t : Templ A G T)
    (c : Cert A G T) : Prop where
  serial : P "serialNumber" → ∀ n, t.serial = some n → c.serial = n
  exts : P "extensions" → ∀ l, t.exts = some l → ∀ e ∈ l, ∃ e' ∈ c.exts, e'.oid = e.oid
  issuer : P "issuer" → ∀ n, t.issuer = some n → c.issuer.rdns = n.rdns
  subject : P "subject" → ∀ n, t.subject = some n →
    (strict = true → c.subject.rdns = n.rdns) ∧
    (strict = false → ∀ rdn ∈ n.rdns, ∀ a ∈ rdn, ∃ rdn' ∈ c.subject.rdns, a ∈ rdn')
  key : P "publicKey" → ∀ k, t.key = some k →
    (k.bits ≠ [] → load c.spki = .ok k) ∧ (k.bits = [] → c.spki.alg = k.alg)
  notBefore : P "validity" → ∀ nb na, t.validity = some (some nb, na) → c.notBefore = nb
  notAfter : P "validity" → ∀ nb na, t.validity = some (nb, some na) → c.notAfter = na
  issuerUID : P "issuerUID" → ∀ u, t.issuerUID = some u → c.issuerUID = some u
  subjectUID : P "subjectUID" → ∀ u, t.subjectUID = some u → c.subjectUID = some u
  version : P "version" → ∀ v, t.version = some v → c.version = v

section
variable [DecidableEq A] [DecidableEq G] [DecidableEq T]

theorem cmpExts_iff (t : Templ A G T) (c : Cert A G T) (b : Bool) :
    cmpExts t c b = true ↔ (b = false → ∀ l, t.exts = some l → ∀ e ∈ l, ∃ e' ∈ c.exts, e'.oid = e.oid) := by
  unfold cmpExts containsExt
  cases b <;> cases t.exts <;> simp

theorem any_iff {α : Type} (o : Option α) (f : α → Bool) : o.any f = true ↔ ∃ x, o = some x ∧ f x = true := by
  cases o <;> simp

theorem cmpValidity_iff (t : Templ A G T) (c : Cert A G T) (b : Bool) :
    cmpValidity t c b = true ↔ (b = false → (∀ nb na, t.validity = some (some nb, na) → c.notBefore = nb) ∧
      (∀ nb na, t.validity = some (nb, some na) → c.notAfter = na)) := by
  unfold cmpValidity
  cases b with
  | true => simp
  | false =>
    rcases ht : t.validity with _ | ⟨nb, na⟩
    · simp
    · cases nb <;> cases na <;> simp <;> grind

theorem cmpUid_iff (a b : Option Bytes) : cmpUid a b = true ↔ ∀ u, a = some u → b = some u := by
  unfold cmpUid
  cases a <;> cases b <;> simp <;> grind

omit [DecidableEq A] [DecidableEq G] [DecidableEq T] in
theorem ite2_iff {p q r s : Prop} [Decidable p] [Decidable q] [Decidable r] [Decidable s] :
    ((if ¬ p ∧ q then false else if ¬ r ∧ s then false else true) = true) ↔ (¬ p → ¬ q) ∧ (¬ r → ¬ s) := by
  by_cases p <;> by_cases q <;> by_cases r <;> by_cases s <;> simp [*]

theorem cmpUids_iff (t : Templ A G T) (c : Cert A G T) (ex : List (List Char)) :
    cmpUids t c ex = true ↔ ("issuerUID".toList ∉ ex → ∀ u, t.issuerUID = some u → c.issuerUID = some u) ∧
      ("subjectUID".toList ∉ ex → ∀ u, t.subjectUID = some u → c.subjectUID = some u) := by
  unfold cmpUids
  rw [ite2_iff, ← cmpUid_iff, ← cmpUid_iff, Bool.not_eq_false, Bool.not_eq_false]

theorem cmpNames_iff (t : Templ A G T) (c : Cert A G T) (ex : List (List Char)) (strict : Bool) :
    cmpNames t c ex strict = true ↔
      ("issuer".toList ∉ ex → ∀ n, t.issuer = some n → c.issuer.rdns = n.rdns) ∧
      ("subject".toList ∉ ex → ∀ n, t.subject = some n → (strict = true → c.subject.rdns = n.rdns) ∧
        (strict = false → ∀ rdn ∈ n.rdns, ∀ a ∈ rdn, ∃ rdn' ∈ c.subject.rdns, a ∈ rdn')) := by
  have hi : (t.issuer.any (fun n => !compareNames n c.issuer .withoutTag) = true) ↔
      ¬ ∀ n, t.issuer = some n → c.issuer.rdns = n.rdns := by
    cases t.issuer <;> simp [compareNames]
  have hs : (t.subject.any (fun n => !compareNames n c.subject (if strict then .withoutTag else .contains)) = true) ↔
      ¬ ∀ n, t.subject = some n → (strict = true → c.subject.rdns = n.rdns) ∧
        (strict = false → ∀ rdn ∈ n.rdns, ∀ a ∈ rdn, ∃ rdn' ∈ c.subject.rdns, a ∈ rdn') := by
    cases t.subject <;> cases strict <;> simp [compareNames]
  unfold cmpNames
  rw [ite2_iff, hi, hs, Classical.not_not, Classical.not_not]

theorem cmpKey_iff (load : Spki G → Except PyErr (Spki G)) (t : Templ A G T) (c : Cert A G T) (b : Bool) :
    cmpKey load t c b = .ok true ↔ (b = false → ∀ k, t.key = some k →
      (k.bits ≠ [] → load c.spki = .ok k) ∧ (k.bits = [] → c.spki.alg = k.alg)) := by
  unfold cmpKey
  cases b with
  | true => simp
  | false =>
    cases ht : t.key with
    | none => simp
    | some k =>
      by_cases hb : k.bits = []
      · by_cases ha : k.alg = c.spki.alg
        · simp [hb, ha]
        · simp [hb, ha, Ne.symm ha]
      · cases hl : load c.spki with
        | error e => simp [hb]
        | ok k' =>
          by_cases hk : k' = k <;> simp [hb, hk]

theorem compareTemplate_iff (load : Spki G → Except PyErr (Spki G)) (t : Templ A G T) (c : Cert A G T)
    (incl excl : Option (List Char)) (strict : Bool) :
    compareTemplate load t c incl excl strict = .ok true ↔
      Agrees load (fun o => o.toList ∉ filterOptions templateKeys incl excl) strict t c := by
  unfold compareTemplate
  simp only
  generalize filterOptions templateKeys incl excl = ex
  have hs : (t.serial.any (fun n => decide (n ≠ c.serial)) = true) ↔ ¬ ∀ n, t.serial = some n → c.serial = n := by
    cases t.serial <;> simp <;> exact ⟨fun h e => h e.symm, fun h e => h e.symm⟩
  have hv : (t.version.any (fun n => decide (n ≠ c.version)) = true) ↔ ¬ ∀ n, t.version = some n → c.version = n := by
    cases t.version <;> simp <;> exact ⟨fun h e => h e.symm, fun h e => h e.symm⟩
  have he := cmpExts_iff t c (decide ("extensions".toList ∈ ex))
  have hn := cmpNames_iff t c ex strict
  have hk := cmpKey_iff load t c (decide ("publicKey".toList ∈ ex))
  have hva := cmpValidity_iff t c (decide ("validity".toList ∈ ex))
  have hu := cmpUids_iff t c ex
  rw [decide_eq_false_iff_not] at he hk hva
  constructor
  · intro h
    by_cases h1 : "serialNumber".toList ∉ ex ∧ t.serial.any (fun n => decide (n ≠ c.serial)) = true
    · rw [if_pos h1] at h; cases h
    rw [if_neg h1] at h
    cases e2 : cmpExts t c (decide ("extensions".toList ∈ ex)) with
    | false => rw [e2, if_pos rfl] at h; cases h
    | true =>
    rw [e2, if_neg Bool.noConfusion] at h
    cases e3 : cmpNames t c ex strict with
    | false => rw [e3, if_pos rfl] at h; cases h
    | true =>
    rw [e3, if_neg Bool.noConfusion] at h
    cases e4 : cmpKey load t c (decide ("publicKey".toList ∈ ex)) with
    | error e => rw [e4] at h; cases h
    | ok b =>
    cases b with
    | false => rw [e4] at h; cases h
    | true =>
    rw [e4] at h
    dsimp only at h
    cases e5 : cmpValidity t c (decide ("validity".toList ∈ ex)) with
    | false => rw [e5, if_pos rfl] at h; cases h
    | true =>
    rw [e5, if_neg Bool.noConfusion] at h
    cases e6 : cmpUids t c ex with
    | false => rw [e6, if_pos rfl] at h; cases h
    | true =>
    rw [e6, if_neg Bool.noConfusion] at h
    by_cases h7 : "version".toList ∉ ex ∧ t.version.any (fun n => decide (n ≠ c.version)) = true
    · rw [if_pos h7] at h; cases h
    have n3 := hn.mp e3
    have n5 := hva.mp e5
    have n6 := hu.mp e6
    exact ⟨fun p => Classical.byContradiction fun q => h1 ⟨p, hs.mpr q⟩, he.mp e2, n3.1, n3.2, hk.mp e4,
      fun p => (n5 p).1, fun p => (n5 p).2, n6.1, n6.2,
      fun p => Classical.byContradiction fun q => h7 ⟨p, hv.mpr q⟩⟩
  · intro h
    rw [if_neg (fun x => hs.mp x.2 (h.serial x.1)), he.mpr h.exts, if_neg Bool.noConfusion,
      hn.mpr ⟨h.issuer, h.subject⟩, if_neg Bool.noConfusion, hk.mpr h.key]
    dsimp only
    rw [hva.mpr (fun p => ⟨h.notBefore p, h.notAfter p⟩), if_neg Bool.noConfusion,
      hu.mpr ⟨h.issuerUID, h.subjectUID⟩, if_neg Bool.noConfusion, if_neg (fun x => hv.mp x.2 (h.version x.1))]

/-- **C117.** Without field options the comparison is `True` exactly for certificates that agree with every field
the template sets. -/
theorem C117_all (load : Spki G → Except PyErr (Spki G)) (t : Templ A G T) (c : Cert A G T) (strict : Bool) :
    compareTemplate load t c none none strict = .ok true ↔ Agrees load (fun _ => True) strict t c := by
  rw [compareTemplate_iff]
  have : (fun o : String => o.toList ∉ filterOptions templateKeys none none) = fun _ => True := by
    funext o; simp [filterOptions]
  rw [this]

/-- **C117.** With an include list only the listed fields count. -/
theorem C117_include (load : Spki G → Except PyErr (Spki G)) (t : Templ A G T) (c : Cert A G T) (strict : Bool)
    (ts : List String) (excl : Option (List Char)) (hne : ts ≠ []) (hp : ∀ s ∈ ts, PlainName s.toList) :
    compareTemplate load t c (some (joinComma (ts.map String.toList))) excl strict = .ok true ↔
      Agrees load (fun o => o.toList ∈ templateKeys → o ∈ ts) strict t c := by
  rw [compareTemplate_iff]
  have : (fun o : String => o.toList ∉ filterOptions templateKeys (some (joinComma (ts.map String.toList))) excl)
      = fun o => o.toList ∈ templateKeys → o ∈ ts := by
    funext o
    rw [C118_include_partial _ _ _ (by simpa using hne) (by simpa using hp)]
    apply propext
    constructor
    · intro h hk
      apply Classical.byContradiction
      intro hn
      refine h ⟨hk, fun hm => hn ?_⟩
      obtain ⟨x, hx, e⟩ := List.mem_map.mp hm
      rw [← String.toList_inj.mp e]; exact hx
    · intro h hk
      exact hk.2 (List.mem_map.mpr ⟨o, h hk.1, rfl⟩)
  rw [this]

/-- **C117.** With an exclude list every field but the listed ones counts. -/
theorem C117_exclude (load : Spki G → Except PyErr (Spki G)) (t : Templ A G T) (c : Cert A G T) (strict : Bool)
    (ts : List String) (hne : ts ≠ []) (hp : ∀ s ∈ ts, PlainName s.toList) :
    compareTemplate load t c none (some (joinComma (ts.map String.toList))) strict = .ok true ↔
      Agrees load (fun o => o ∉ ts) strict t c := by
  rw [compareTemplate_iff]
  have : (fun o : String => o.toList ∉ filterOptions templateKeys none (some (joinComma (ts.map String.toList))))
      = fun o => o ∉ ts := by
    funext o
    rw [(C118_exclude_partial _ _ (by simpa using hne) (by simpa using hp) _).1]
    apply propext
    refine not_congr ⟨fun hm => ?_, fun h => List.mem_map.mpr ⟨o, h, rfl⟩⟩
    obtain ⟨x, hx, e⟩ := List.mem_map.mp hm
    rw [← String.toList_inj.mp e]; exact hx
  rw [this]

/-- **C117.** The comparison raises only when the certificate's key cannot be loaded, and then only if the
template carries a key with bits. -/
theorem C117_total (load : Spki G → Except PyErr (Spki G)) (t : Templ A G T) (c : Cert A G T)
    (incl excl : Option (List Char)) (strict : Bool) (e : PyErr)
    (h : compareTemplate load t c incl excl strict = .error e) :
    load c.spki = .error e ∧ ∃ k, t.key = some k ∧ k.bits ≠ [] := by
  unfold compareTemplate at h
  simp only at h
  generalize filterOptions templateKeys incl excl = ex at h
  split at h
  · simp at h
  split at h
  · simp at h
  split at h
  · simp at h
  split at h
  · rename_i e' hk
    obtain rfl : e' = e := by simpa using h
    unfold cmpKey at hk
    split at hk
    · simp at hk
    split at hk
    · simp at hk
    · rename_i k hk'
      split at hk
      · rename_i hb
        cases hl : load c.spki with
        | error e2 =>
          rw [hl] at hk
          obtain rfl : e2 = e' := by simpa using hk
          exact ⟨rfl, k, hk', hb⟩
        | ok k2 =>
          rw [hl] at hk
          dsimp only at hk
          split at hk <;> simp at hk
      · split at hk <;> simp at hk
  · simp at h
  · split at h
    · simp at h
    split at h
    · simp at h
    split at h <;> simp at h

end

/-- The key of a certificate as it is, always loadable. -/
def loadId {G : Type} (k : Spki G) : Except PyErr (Spki G) := .ok k

/-- A certificate used in the examples. -/
def exCert : Cert Nat Nat Nat :=
  { serial := 7, issuer := ⟨0, [[1], [2]]⟩, notBefore := 10, notAfter := 20, subject := ⟨0, [[3], [4, 5]]⟩,
    spki := ⟨1, [9, 9]⟩, exts := [⟨[2, 5, 29, 15], [1]⟩] }

/-- **C117 (refuted).** A matching template does not mean that the requested extensions were issued: only the
OIDs are compared, here a keyUsage of value 2 was requested and one of value 1 issued. -/
theorem C117_ext_value_refuted :
    ∃ (t : Templ Nat Nat Nat) (c : Cert Nat Nat Nat), compareTemplate loadId t c none none true = .ok true ∧
      ∃ l e, t.exts = some l ∧ e ∈ l ∧ e ∉ c.exts :=
  ⟨{ exts := some [⟨[2, 5, 29, 15], [2]⟩] }, exCert, by decide +kernel, _, _, rfl, List.mem_cons_self, by decide⟩

/-- **C117 (refuted).** `_contains_cert_template`'s first comparison is meant to compare `serialNumber` and
`issuer`; it is `True` for a certificate of another issuer. -/
theorem C117_issuer_refuted :
    ∃ (t : Templ Nat Nat Nat) (c : Cert Nat Nat Nat) (n : DName Nat),
      compareTemplate loadId t c (some "serialNumber, issuer".toList) none false = .ok true ∧
      t.issuer = some n ∧ n.rdns ≠ c.issuer.rdns :=
  ⟨{ serial := some 7, issuer := some ⟨0, [[8]]⟩ }, exCert, _, by decide +kernel, rfl, by decide⟩

example : compareTemplate loadId
    { serial := some 7, issuer := some ⟨3, [[1], [2]]⟩, subject := some ⟨0, [[5]]⟩, key := some ⟨1, [9, 9]⟩,
      validity := some (none, some 20) } exCert none none false = .ok true := by decide +kernel

example : compareTemplate loadId { subject := some ⟨0, [[5]]⟩ } exCert none none true = .ok false := by decide +kernel

example : compareTemplate loadId { issuerUID := some [1] } exCert none none true = .ok false := by decide +kernel

/-! ## C119: revocation details -/

section
variable [DecidableEq A] [DecidableEq G] [DecidableEq T]

theorem containsLoop_ok (load : Spki G → Except PyErr (Spki G)) (t : Templ A G T) (c : Cert A G T)
    (cs : List (Cert A G T)) (b : Bool) (h : containsLoop load t b cs = .ok c) :
    ∃ pre post, cs = pre ++ c :: post ∧ Agrees load (fun _ => True) true t c ∧
      ∀ x ∈ pre, ¬ Agrees load (fun _ => True) true t x := by
  induction cs generalizing b with
  | nil => simp [containsLoop] at h
  | cons x xs ih =>
    rw [containsLoop] at h
    cases h1 : compareTemplate load t x (some "serialNumber, issuer".toList) none false with
    | error e => rw [h1] at h; cases h
    | ok f =>
      rw [h1] at h; dsimp only at h
      cases h2 : compareTemplate load t x none none true with
      | error e => rw [h2] at h; cases h
      | ok r =>
        rw [h2] at h
        cases r with
        | true =>
          obtain rfl : x = c := by simpa using h
          exact ⟨[], xs, rfl, (C117_all load t x true).mp h2, by simp⟩
        | false =>
          obtain ⟨pre, post, e, ha, hn⟩ := ih f h
          refine ⟨x :: pre, post, by rw [e]; rfl, ha, ?_⟩
          intro y hy
          rcases List.mem_cons.mp hy with rfl | hy
          · intro hA
            rw [(C117_all load t y true).mpr hA] at h2
            simp at h2
          · exact hn y hy

/-- **C119.** The certificate found for a revocation is the first of the list that agrees with every field of
`certDetails`. -/
theorem C119_found (load : Spki G → Except PyErr (Spki G)) (t : Templ A G T) (c : Cert A G T)
    (cs : List (Cert A G T)) (h : containsTemplate load t cs = .ok c) :
    ∃ pre post, cs = pre ++ c :: post ∧ Agrees load (fun _ => True) true t c ∧
      ∀ x ∈ pre, ¬ Agrees load (fun _ => True) true t x := by
  unfold containsTemplate at h
  cases e : containsLoop load t false cs with
  | error x => rw [e] at h; simp [Except.mapError] at h
  | ok x =>
    rw [e] at h
    obtain rfl : x = c := by simpa [Except.mapError] using h
    exact containsLoop_ok load t _ cs false e

theorem containsLoop_none (load : Spki G → Except PyErr (Spki G)) (t : Templ A G T)
    (cs : List (Cert A G T)) (b : Bool) (hl : ∀ c ∈ cs, ∃ k, load c.spki = .ok k)
    (hn : ∀ c ∈ cs, ¬ Agrees load (fun _ => True) true t c) :
    ∃ f, containsLoop load t b cs = .error (.badCertId, f) := by
  induction cs generalizing b with
  | nil => exact ⟨b, rfl⟩
  | cons x xs ih =>
    rw [containsLoop]
    obtain ⟨k, hk⟩ := hl x (by simp)
    cases h1 : compareTemplate load t x (some "serialNumber, issuer".toList) none false with
    | error e =>
      have := (C117_total load t x _ _ _ e h1).1
      rw [hk] at this; simp at this
    | ok f =>
      cases h2 : compareTemplate load t x none none true with
      | error e =>
        have := (C117_total load t x _ _ _ e h2).1
        rw [hk] at this; simp at this
      | ok r =>
        cases r with
        | true => exact absurd ((C117_all load t x true).mp h2) (hn x (by simp))
        | false => exact ih f (fun c hc => hl c (by simp [hc])) (fun c hc => hn c (by simp [hc]))

/-- **C119.** If no certificate agrees (and all keys load) the answer is `BadCertId`. -/
theorem C119_unknown (load : Spki G → Except PyErr (Spki G)) (t : Templ A G T)
    (cs : List (Cert A G T)) (hl : ∀ c ∈ cs, ∃ k, load c.spki = .ok k)
    (hn : ∀ c ∈ cs, ¬ Agrees load (fun _ => True) true t c) :
    containsTemplate load t cs = .error .badCertId := by
  obtain ⟨f, hf⟩ := containsLoop_none load t cs false hl hn
  unfold containsTemplate
  rw [hf]; rfl

theorem lookup_iff (n : Int) (r : String) : crlReasons.lookup n = some r ↔ (n, r) ∈ crlReasons := by
  constructor
  · intro h
    unfold crlReasons at h ⊢
    simp only [List.lookup] at h
    repeat' split at h
    all_goals simp_all
  · intro h
    simp only [crlReasons, List.mem_cons, Prod.mk.injEq, List.not_mem_nil, or_false] at h
    rcases h with ⟨rfl, rfl⟩ | ⟨rfl, rfl⟩ | ⟨rfl, rfl⟩ | ⟨rfl, rfl⟩ | ⟨rfl, rfl⟩ | ⟨rfl, rfl⟩ | ⟨rfl, rfl⟩ |
      ⟨rfl, rfl⟩ | ⟨rfl, rfl⟩ | ⟨rfl, rfl⟩ <;> rfl

/-- Specification: the values of `CRLReason` (RFC 5280, 5.3.1); 7 is not used. -/
inductive CrlReason : Int → String → Prop where
  | unspecified : CrlReason 0 "unspecified"
  | keyCompromise : CrlReason 1 "keyCompromise"
  | cACompromise : CrlReason 2 "cACompromise"
  | affiliationChanged : CrlReason 3 "affiliationChanged"
  | superseded : CrlReason 4 "superseded"
  | cessationOfOperation : CrlReason 5 "cessationOfOperation"
  | certificateHold : CrlReason 6 "certificateHold"
  | removeFromCRL : CrlReason 8 "removeFromCRL"
  | privilegeWithdrawn : CrlReason 9 "privilegeWithdrawn"
  | aACompromise : CrlReason 10 "aACompromise"

theorem lookup_reason (n : Int) (r : String) : crlReasons.lookup n = some r ↔ CrlReason n r := by
  rw [lookup_iff]
  constructor
  · intro h
    simp only [crlReasons, List.mem_cons, Prod.mk.injEq, List.not_mem_nil, or_false] at h
    rcases h with ⟨rfl, rfl⟩ | ⟨rfl, rfl⟩ | ⟨rfl, rfl⟩ | ⟨rfl, rfl⟩ | ⟨rfl, rfl⟩ | ⟨rfl, rfl⟩ | ⟨rfl, rfl⟩ |
      ⟨rfl, rfl⟩ | ⟨rfl, rfl⟩ | ⟨rfl, rfl⟩ <;> constructor
  · intro h
    cases h <;> simp [crlReasons]

omit [DecidableEq A] [DecidableEq G] [DecidableEq T] in
/-- **C119.** A reason is returned exactly for details with a single `cRLReasons` extension that decodes without
remainder to a value named in RFC 5280 (and to the expected name, if one is given). -/
theorem C119_reason (decode : Bytes → Option (Int × Bytes)) (details : Option (List Ext)) (mustBe : Option String)
    (r : String) : crlReason decode details mustBe = .ok r ↔
      ∃ e n, details = some [e] ∧ e.oid = [2, 5, 29, 21] ∧ decode e.value = some (n, []) ∧ CrlReason n r ∧
        ∀ m, mustBe = some m → r = m := by
  constructor
  · intro h
    unfold crlReason at h
    split at h
    · simp at h
    · rename_i e
      split at h
      · simp at h
      rename_i ho
      split at h
      · simp at h
      rename_i n rest hd
      split at h
      · simp at h
      rename_i hr
      split at h
      · simp at h
      rename_i r' hl
      split at h
      · simp at h
      rename_i hm
      obtain rfl : r' = r := by simpa using h
      refine ⟨e, n, rfl, by simpa [crlReasonsOid] using ho, ?_, (lookup_reason n r').mp hl, ?_⟩
      · rw [hd, Classical.not_not.mp hr]
      · intro m hm'
        rw [hm'] at hm
        simpa using hm
    · simp at h
  · rintro ⟨e, n, rfl, ho, hd, hl, hm⟩
    have ho' : e.oid = crlReasonsOid := ho
    rw [crlReason]
    rw [if_neg (by simp [ho']), hd]
    dsimp only
    rw [if_neg (by simp), (lookup_reason n r).mpr hl]
    dsimp only
    rw [if_neg]
    cases mustBe with
    | none => simp
    | some m => simp [hm m rfl]

/-- **C119.** Revocation details are accepted only with issuer and serial number set, for a certificate of the
list that agrees with all of `certDetails`; a revocation only if it is not in the revoked list, a revival only if
it is. -/
theorem C119_accepted (load : Spki G → Except PyErr (Spki G)) (decode : Bytes → Option (Int × Bytes))
    (d : RevDetails A G T) (issued : List (Cert A G T)) (revoked : Option (List (Cert A G T))) (r : String)
    (c : Cert A G T) (h : validateRevDetails load decode d issued revoked = .ok (r, c)) :
    c ∈ issued ∧ Agrees load (fun _ => True) true d.certDetails c ∧
      (∃ n, d.certDetails.issuer = some n ∧ c.issuer.rdns = n.rdns) ∧ d.certDetails.serial = some c.serial ∧
      crlReason decode d.crlEntryDetails none = .ok r ∧
      ∀ l, revoked = some l → (c ∈ l ↔ r = "removeFromCRL") := by
  unfold validateRevDetails at h
  cases h1 : revMandatory d.certDetails with
  | error e => simp [h1] at h
  | ok u =>
  rw [h1] at h; dsimp only at h
  cases h2 : containsTemplate load d.certDetails issued with
  | error e => simp [h2] at h
  | ok c' =>
  rw [h2] at h; dsimp only at h
  cases h3 : crlReason decode d.crlEntryDetails none with
  | error e => simp [h3] at h
  | ok r' =>
  rw [h3] at h; dsimp only at h
  cases h4 : (if r' = "removeFromCRL" then checkRevive c' revoked else checkRevoked c' revoked) with
  | error e => simp [h4] at h
  | ok u2 =>
  rw [h4] at h
  obtain ⟨rfl, rfl⟩ : r' = r ∧ c' = c := by simpa using h
  obtain ⟨pre, post, hc, ha, _⟩ := C119_found load d.certDetails c' issued h2
  unfold revMandatory at h1
  have hi : ∃ n, d.certDetails.issuer = some n := by
    cases e : d.certDetails.issuer with
    | none => rw [e] at h1; simp at h1
    | some n => exact ⟨n, rfl⟩
  obtain ⟨n, hn⟩ := hi
  rw [if_neg (by simp [hn])] at h1
  have hs : ∃ n, d.certDetails.serial = some n := by
    cases e : d.certDetails.serial with
    | none => rw [e] at h1; simp at h1
    | some n => exact ⟨n, rfl⟩
  obtain ⟨s, hs⟩ := hs
  refine ⟨by rw [hc]; simp, ha, ⟨n, hn, ha.issuer trivial n hn⟩, ?_, rfl, ?_⟩
  · rw [hs, ha.serial trivial s hs]
  · intro l hl
    rw [hl] at h4
    by_cases hr : r' = "removeFromCRL"
    · rw [if_pos hr] at h4
      unfold checkRevive certInList at h4
      simp only at h4
      split at h4
      · rename_i hm
        simp only [List.any_eq_true, decide_eq_true_eq, exists_eq_right'] at hm
        exact ⟨fun _ => hr, fun _ => hm⟩
      · simp at h4
    · rw [if_neg hr] at h4
      unfold checkRevoked certInList at h4
      simp only at h4
      split at h4
      · simp at h4
      · rename_i hm
        simp only [List.any_eq_true, decide_eq_true_eq, exists_eq_right'] at hm
        exact ⟨fun x => absurd x hm, fun x => absurd x hr⟩

/-- **C119 (refuted).** A revocation request that states the version of the certificate is never accepted for a
version 3 certificate: any value but `v2` is refused, and `v2` does not agree with the certificate. -/
theorem C119_version_refuted (load : Spki G → Except PyErr (Spki G)) (decode : Bytes → Option (Int × Bytes))
    (d : RevDetails A G T) (issued : List (Cert A G T)) (revoked : Option (List (Cert A G T))) (v : Int)
    (hv : d.certDetails.version = some v) (h3 : ∀ c ∈ issued, c.version = 2) (x : String × Cert A G T) :
    validateRevDetails load decode d issued revoked ≠ .ok x := by
  intro h
  obtain ⟨hm, ha, _⟩ := C119_accepted load decode d issued revoked x.1 x.2 h
  have hver := ha.version trivial v hv
  rw [h3 _ hm] at hver
  unfold validateRevDetails revMandatory at h
  rw [hv, ← hver] at h
  by_cases a : d.certDetails.issuer.isNone = true
  · rw [if_pos a] at h; simp at h
  rw [if_neg a] at h
  by_cases b : d.certDetails.serial.isNone = true
  · rw [if_pos b] at h; simp at h
  rw [if_neg b, if_pos (by decide)] at h
  simp at h

/-- **C119.** In LwCMP mode the answer to a request is one status: accepted with the certificate and reason of
`validate_rev_details`, or the rejection with its error. -/
theorem C119_answer (load : Spki G → Except PyErr (Spki G)) (decode : Bytes → Option (Int × Bytes))
    (issued : List (Cert A G T)) (revoked : Option (List (Cert A G T))) (rr : List (RevDetails A G T))
    (sts : List (Option PyErr)) (data : List (String × Cert A G T))
    (h : buildRp load decode issued revoked true rr = .ok (sts, data)) :
    ∃ d, rr = [d] ∧
      ((∃ x, validateRevDetails load decode d issued revoked = .ok x ∧ sts = [none] ∧ data = [x]) ∨
       (∃ e, validateRevDetails load decode d issued revoked = .error e ∧ e.isCmp = true ∧ sts = [some e] ∧ data = [])) := by
  unfold buildRp at h
  match rr, h with
  | [], h => simp at h
  | _ :: _ :: _, h => simp at h
  | [d], h =>
    rw [if_neg (by simp)] at h
    rw [rpLoop] at h
    refine ⟨d, rfl, ?_⟩
    cases hv : validateRevDetails load decode d issued revoked with
    | error e =>
      rw [hv] at h; dsimp only at h
      by_cases hc : e.isCmp = true
      · rw [if_pos hc] at h
        right
        exact ⟨e, rfl, hc, by simpa [rpLoop, eq_comm] using h⟩
      · rw [if_neg hc] at h; simp at h
    | ok x =>
      rw [hv] at h
      left
      exact ⟨x, rfl, by simpa [rpLoop, eq_comm] using h⟩

/-- **C119 (refuted).** Without `enforce_lwcmp`, documented as the way to answer several entries, a request with
at least one entry never gets an answer. -/
theorem C119_nonlwcmp_refuted (load : Spki G → Except PyErr (Spki G)) (decode : Bytes → Option (Int × Bytes))
    (issued : List (Cert A G T)) (revoked : Option (List (Cert A G T))) (d : RevDetails A G T)
    (ds : List (RevDetails A G T)) : ∃ e, buildRp load decode issued revoked false (d :: ds) = .error e := by
  unfold buildRp
  rw [if_neg (by simp), rpLoop]
  cases validateRevDetails load decode d issued revoked with
  | error e => by_cases h : e.isCmp = true <;> simp [h]
  | ok x => simp

end

/-- A decoder for the examples: one byte is the value. -/
def exDecode : Bytes → Option (Int × Bytes)
  | [] => none
  | b :: bs => some (b.toNat, bs)

example : buildRp loadId exDecode [exCert] (some []) true
    [⟨{ serial := some 7, issuer := some ⟨0, [[1], [2]]⟩ }, some [⟨[2, 5, 29, 21], [1]⟩]⟩]
    = .ok ([none], [("keyCompromise", exCert)]) := by decide +kernel

example : buildRp loadId exDecode [exCert] (some []) true
    [⟨{ serial := some 8, issuer := some ⟨0, [[1], [2]]⟩ }, some [⟨[2, 5, 29, 21], [1]⟩]⟩]
    = .ok ([some .badCertId], []) := by decide +kernel

example : buildRp loadId exDecode [exCert] (some [exCert]) true
    [⟨{ serial := some 7, issuer := some ⟨0, [[1], [2]]⟩ }, some [⟨[2, 5, 29, 21], [1]⟩]⟩]
    = .ok ([some .certRevoked], []) := by decide +kernel

/-- The hypotheses of `C119_version_refuted` are met by a request for `exCert` with its own version. -/
example : buildRp loadId exDecode [exCert] (some []) true
    [⟨{ version := some 2, serial := some 7, issuer := some ⟨0, [[1], [2]]⟩ }, some [⟨[2, 5, 29, 21], [1]⟩]⟩]
    = .ok ([some .badRequest], []) := by decide +kernel

end Verif.Check
