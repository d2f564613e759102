import Verif.Ra.ReqTmpl

/-!
# Properties of the templates and controls of the client
-/

namespace Verif.Ra

open Verif.CA hiding Bytes Msg
open Verif.Check hiding Spki

variable {A K P N T X : Type}

/-! ## Example -/

/-- Keys are numbers, their encoding is one byte; names are texts. -/
def exCl1 : ClEnv Nat Nat Nat String Nat Nat where
  pub := fun p => p
  isKem := fun p => decide (100 ≤ p ∧ p < 200)
  isXdh := fun p => decide (200 ≤ p ∧ p < 250)
  isDh := fun p => decide (250 ≤ p)
  spkiOf := fun k => .ok ⟨some (k / 10), [UInt8.ofNat k]⟩
  loadKey := fun s => match s.bits with | [b] => .ok b.toNat | _ => .error .valueError
  notation' := fun n => .ok (if n = "" then none else some n)
  parse := fun s => .ok s
  badName := fun n => .ok (n ++ "x")
  sigAlg := fun p _ _ => .ok p
  hashAlg := fun p _ => .ok p
  sign := fun p _ _ d => .ok (d ++ [UInt8.ofNat p])
  damage := fun _ d => 0 :: d
  encReq := fun i t c => [UInt8.ofNat i.toNat, UInt8.ofNat (c.getD []).length] ++ t.rest.exts.map UInt8.ofNat ++
    (match t.key with | none => [] | some s => s.bits)
  privNums := fun p => .ok [UInt8.ofNat p]
  pkcs8 := fun p => [9, UInt8.ofNat p]
  pwri := fun d w => .ok (w ++ d)

/-- A certificate of the key 5. -/
def exClCert : ClCert Nat String Nat Nat := ⟨77, "CN=CA", "CN=EE", (1, 9), [14], ⟨some 0, [5]⟩⟩

/-! ## Templates -/

theorem prepTmpl_ok {env : ClEnv A K P N T X} {a : TmplArgs A K P N T X} {t : ClTmpl A N T X} {l : Option (List X)}
    (h : prepTmpl env a = .ok (t, l)) :
    ∃ i s is sn k, tmplNames env a = .ok (i, s) ∧ nameField env (exclusion a) "subject" s = .ok sn ∧
      nameField env (exclusion a) "issuer" i = .ok is ∧ tmplPubField env a (exclusion a) = .ok k ∧
      t = assemble a (exclusion a) is sn k ∧ l = (tmplExts a (decide ("extensions".toList ∈ exclusion a))).2 := by
  unfold prepTmpl at h; dsimp only at h
  cases h1 : tmplNames env a with
  | error e => rw [h1] at h; cases h
  | ok v =>
    obtain ⟨i, s⟩ := v
    rw [h1] at h; dsimp only at h
    cases h2 : nameField env (exclusion a) "subject" s with
    | error e => rw [h2] at h; cases h
    | ok sn =>
      rw [h2] at h; dsimp only at h
      cases h3 : nameField env (exclusion a) "issuer" i with
      | error e => rw [h3] at h; cases h
      | ok is =>
        rw [h3] at h; dsimp only at h
        cases h4 : tmplPubField env a (exclusion a) with
        | error e => rw [h4] at h; cases h
        | ok k =>
          rw [h4] at h; dsimp only at h
          cases h
          exact ⟨i, s, is, sn, k, rfl, h2, h3, rfl, rfl, rfl⟩

theorem exclusion_mem {a : TmplArgs A K P N T X} {f : List Char}
    (h : f ∈ filterOptions templateKeys a.incl a.excl) : f ∈ exclusion a :=
  List.mem_append_left _ h

theorem exclusion_iff {a : TmplArgs A K P N T X} {f : List Char} (hf : f ≠ "publicKey".toList) :
    f ∈ exclusion a ↔ f ∈ filterOptions templateKeys a.incl a.excl := by
  unfold exclusion
  rw [List.mem_append]
  constructor
  · rintro (h | h)
    · exact h
    · split at h
      · exact absurd (List.mem_singleton.1 h) hf
      · cases h
  · exact Or.inl

theorem exclusion_key {a : TmplArgs A K P N T X} (hk : a.forKga = false ∨ a.key ≠ none) (f : List Char) :
    f ∈ exclusion a ↔ f ∈ filterOptions templateKeys a.incl a.excl := by
  unfold exclusion
  rw [if_neg, List.append_nil]
  rintro ⟨h1, h2⟩
  rcases hk with hk | hk
  · rw [hk] at h1; cases h1
  · exact hk (Option.isNone_iff_eq_none.1 h2)

theorem nameField_excluded {env : ClEnv A K P N T X} {ex : List (List Char)} {f : String} {x : Option (ClName N)}
    {n : Option N} (hf : f.toList ∈ ex) (h : nameField env ex f x = .ok n) : n = none := by
  unfold nameField at h
  cases x with
  | none => cases h; rfl
  | some y =>
    dsimp only at h
    rw [if_neg (fun hc => hc.2 hf)] at h
    cases h; rfl

/-- A field that the caller excludes is absent, whatever else is given. -/
theorem C234_excluded_absent {env : ClEnv A K P N T X} {a : TmplArgs A K P N T X} {t : ClTmpl A N T X}
    {l : Option (List X)} (h : prepTmpl env a = .ok (t, l)) :
    let ex := filterOptions templateKeys a.incl a.excl
    ("version".toList ∈ ex → t.rest.version = none) ∧ ("serialNumber".toList ∈ ex → t.rest.serial = none) ∧
    ("signingAlg".toList ∈ ex → t.rest.signAlg = none) ∧ ("issuer".toList ∈ ex → t.rest.issuer = none) ∧
    ("validity".toList ∈ ex → t.rest.validity = none) ∧ ("subject".toList ∈ ex → t.rest.subject = none) ∧
    ("publicKey".toList ∈ ex → t.key = none) ∧ ("extensions".toList ∈ ex → t.rest.exts = []) := by
  obtain ⟨i, s, is, sn, k, -, h2, h3, h4, rfl, -⟩ := prepTmpl_ok h
  refine ⟨fun hx => ?_, fun hx => ?_, fun hx => ?_, fun hx => ?_, fun hx => ?_, fun hx => ?_, fun hx => ?_, fun hx => ?_⟩
  · exact if_pos (exclusion_mem hx)
  · exact if_pos (exclusion_mem hx)
  · exact if_pos (exclusion_mem hx)
  · exact nameField_excluded (exclusion_mem hx) h3
  · exact if_pos (exclusion_mem hx)
  · exact nameField_excluded (exclusion_mem hx) h2
  · unfold tmplPubField at h4
    rw [if_pos (exclusion_mem hx)] at h4
    cases h4; rfl
  · unfold assemble tmplExts; dsimp only
    rw [if_pos (decide_eq_true (exclusion_mem hx))]

/-- Nothing of the validity is in a template by default, even if it is given. -/
theorem C234_default_validity {env : ClEnv A K P N T X} {a : TmplArgs A K P N T X} {t : ClTmpl A N T X}
    {l : Option (List X)} (hi : a.incl = none) (he : a.excl = some "validity".toList)
    (h : prepTmpl env a = .ok (t, l)) : t.rest.validity = none := by
  refine (C234_excluded_absent h).2.2.2.2.1 ?_
  rw [hi, he]; decide +kernel

theorem nameField_given {env : ClEnv A K P N T X} {ex : List (List Char)} {f : String} {x : ClName N}
    {n : Option N} (hf : f.toList ∉ ex) (hx : x.given = true) (h : nameField env ex f (some x) = .ok n) :
    ∃ m, nameObj env x = .ok m ∧ n = some m := by
  unfold nameField at h; dsimp only at h
  rw [if_pos ⟨hx, hf⟩] at h
  cases h1 : nameObj env x with
  | error e => rw [h1] at h; cases h
  | ok m => rw [h1] at h; cases h; exact ⟨m, rfl, rfl⟩

theorem orCertName_given {env : ClEnv A K P N T X} {x : ClName N} (n : N) (hx : x.given = true) :
    orCertName env (some x) n = .ok (some x) := by
  unfold orCertName; dsimp only; rw [if_pos hx]

theorem tmplNames_issuer {env : ClEnv A K P N T X} {a : TmplArgs A K P N T X} {x : ClName N}
    {i s : Option (ClName N)} (ha : a.issuer = some x) (hx : x.given = true)
    (h : tmplNames env a = .ok (i, s)) : i = some x := by
  unfold tmplNames at h
  cases hc : a.cert with
  | none => rw [hc] at h; cases h; exact ha
  | some c =>
    rw [hc] at h; dsimp only at h
    rw [ha, orCertName_given c.issuer hx] at h; dsimp only at h
    split at h
    · cases h
    · cases h; rfl

theorem tmplNames_subject {env : ClEnv A K P N T X} {a : TmplArgs A K P N T X} {x : ClName N}
    {i s : Option (ClName N)} (ha : a.subject = some x) (hx : x.given = true)
    (h : tmplNames env a = .ok (i, s)) : s = some x := by
  unfold tmplNames at h
  cases hc : a.cert with
  | none => rw [hc] at h; cases h; exact ha
  | some c =>
    rw [hc] at h; dsimp only at h
    split at h
    · cases h
    · rw [ha, orCertName_given c.subject hx] at h; dsimp only at h
      cases h; rfl

/-- A value that the caller gives is in the template as it is given, also beside a certificate, if its field is not
excluded; a serial number only if it is not zero or there is no certificate. -/
theorem C234_given_kept_partial {env : ClEnv A K P N T X} {a : TmplArgs A K P N T X} {t : ClTmpl A N T X}
    {l : Option (List X)} (h : prepTmpl env a = .ok (t, l)) :
    let ex := filterOptions templateKeys a.incl a.excl
    (∀ v, "version".toList ∉ ex → a.version = some v → t.rest.version = some v) ∧
    (∀ n, "serialNumber".toList ∉ ex → a.serial = some n → (n ≠ 0 ∨ a.cert = none) → t.rest.serial = some n) ∧
    (∀ g, "signingAlg".toList ∉ ex → a.signAlg = some g → t.rest.signAlg = some g) ∧
    (∀ v, "validity".toList ∉ ex → a.validity = some v → t.rest.validity = some v) ∧
    (∀ n, "issuer".toList ∉ ex → a.issuer = some (.name n) → t.rest.issuer = some n) ∧
    (∀ n, "subject".toList ∉ ex → a.subject = some (.name n) → t.rest.subject = some n) ∧
    (∀ s, "subject".toList ∉ ex → s ≠ "" → a.subject = some (.text s) →
      ∃ n, env.parse s = .ok n ∧ t.rest.subject = some n) ∧
    (∀ s, "issuer".toList ∉ ex → s ≠ "" → a.issuer = some (.text s) →
      ∃ n, env.parse s = .ok n ∧ t.rest.issuer = some n) := by
  obtain ⟨i, s, is, sn, k, h1, h2, h3, h4, rfl, -⟩ := prepTmpl_ok h
  refine ⟨fun v hx hv => ?_, fun n hx hv hz => ?_, fun g hx hv => ?_, fun v hx hv => ?_, fun n hx hv => ?_,
    fun n hx hv => ?_, fun s hx hs hv => ?_, fun s hx hs hv => ?_⟩
  · have hx' : "version".toList ∉ exclusion a := fun hc => hx ((exclusion_iff (by decide)).1 hc)
    exact (if_neg hx').trans hv
  · have hx' : "serialNumber".toList ∉ exclusion a := fun hc => hx ((exclusion_iff (by decide)).1 hc)
    refine (if_neg hx').trans ?_
    unfold tmplSerial
    cases hc : a.cert with
    | none => exact hv
    | some c =>
      dsimp only; rw [hv]; dsimp only
      rcases hz with hz | hz
      · rw [if_neg hz]
      · rw [hc] at hz; cases hz
  · have hx' : "signingAlg".toList ∉ exclusion a := fun hc => hx ((exclusion_iff (by decide)).1 hc)
    exact (if_neg hx').trans hv
  · have hx' : "validity".toList ∉ exclusion a := fun hc => hx ((exclusion_iff (by decide)).1 hc)
    refine (if_neg hx').trans ?_
    unfold tmplValidity; rw [hv]
  · have hx' : "issuer".toList ∉ exclusion a := fun hc => hx ((exclusion_iff (by decide)).1 hc)
    rw [tmplNames_issuer hv rfl h1] at h3
    obtain ⟨m, hm, rfl⟩ := nameField_given hx' rfl h3
    cases hm; rfl
  · have hx' : "subject".toList ∉ exclusion a := fun hc => hx ((exclusion_iff (by decide)).1 hc)
    rw [tmplNames_subject hv rfl h1] at h2
    obtain ⟨m, hm, rfl⟩ := nameField_given hx' rfl h2
    cases hm; rfl
  · have hx' : "subject".toList ∉ exclusion a := fun hc => hx ((exclusion_iff (by decide)).1 hc)
    have hg : (ClName.text s : ClName N).given = true := decide_eq_true hs
    rw [tmplNames_subject hv hg h1] at h2
    obtain ⟨m, hm, rfl⟩ := nameField_given hx' hg h2
    exact ⟨m, hm, rfl⟩
  · have hx' : "issuer".toList ∉ exclusion a := fun hc => hx ((exclusion_iff (by decide)).1 hc)
    have hg : (ClName.text s : ClName N).given = true := decide_eq_true hs
    rw [tmplNames_issuer hv hg h1] at h3
    obtain ⟨m, hm, rfl⟩ := nameField_given hx' hg h3
    exact ⟨m, hm, rfl⟩

theorem encKey_ok {env : ClEnv A K P N T X} {b : Bool} {k : K} {r : Option (Spki A)} (h : encKey env b k = .ok r) :
    ∃ s, env.spkiOf k = .ok s ∧ r = some (if b then { s with bits := [] } else s) := by
  unfold encKey at h
  cases h1 : env.spkiOf k with
  | error e => rw [h1] at h; cases h
  | ok s => rw [h1] at h; cases h; exact ⟨s, rfl, rfl⟩

/-- The key of a template: the given `SubjectPublicKeyInfo` if there is one, else the public key of the given key;
for a key generation authority only its algorithm. -/
theorem C234_key {env : ClEnv A K P N T X} {a : TmplArgs A K P N T X} {t : ClTmpl A N T X}
    {l : Option (List X)} (hx : "publicKey".toList ∉ filterOptions templateKeys a.incl a.excl)
    (h : prepTmpl env a = .ok (t, l)) :
    (∀ s, a.spki = some s → a.forKga = false → t.key = some s) ∧
    (∀ s x, a.spki = some s → a.forKga = true → a.key = some x → t.key = some ⟨s.alg, []⟩) ∧
    (∀ p, a.spki = none → a.key = some (.inl p) → ∃ s, env.spkiOf (env.pub p) = .ok s ∧
      t.key = some (if a.forKga then ⟨s.alg, []⟩ else s)) ∧
    (∀ k, a.spki = none → a.key = some (.inr k) → ∃ s, env.spkiOf k = .ok s ∧
      t.key = some (if a.forKga then ⟨s.alg, []⟩ else s)) := by
  obtain ⟨i, s, is, sn, k, -, -, -, h4, rfl, -⟩ := prepTmpl_ok h
  have key : a.forKga = false ∨ a.key ≠ none → tmplPub env a = .ok k := by
    intro hk
    unfold tmplPubField at h4
    rwa [if_neg (fun hc => hx ((exclusion_key hk _).1 hc))] at h4
  refine ⟨fun s hs hf => ?_, fun s x hs hf hk => ?_, fun p hs hk => ?_, fun k' hs hk => ?_⟩
  · have h5 := key (.inl hf)
    unfold tmplPub at h5
    rw [hs] at h5; dsimp only at h5
    rw [hf] at h5; cases h5; rfl
  · have h5 := key (.inr (by rw [hk]; exact fun hc => by cases hc))
    unfold tmplPub at h5
    rw [hs] at h5; dsimp only at h5
    rw [hf] at h5; cases h5; rfl
  · have h5 := key (.inr (by rw [hk]; exact fun hc => by cases hc))
    unfold tmplPub at h5
    rw [hs, hk] at h5; dsimp only at h5
    obtain ⟨s, h6, rfl⟩ := encKey_ok h5
    exact ⟨s, h6, rfl⟩
  · have h5 := key (.inr (by rw [hk]; exact fun hc => by cases hc))
    unfold tmplPub at h5
    rw [hs, hk] at h5; dsimp only at h5
    obtain ⟨s, h6, rfl⟩ := encKey_ok h5
    exact ⟨s, h6, rfl⟩

/-- The text of a name can be read back, and the key of a certificate encoded again. -/
def Faithful (env : ClEnv A K P N T X) (c : ClCert A N T X) : Prop :=
  (∀ n s, env.notation' n = .ok (some s) → s ≠ "" ∧ env.parse s = .ok n) ∧
  (∀ k, env.loadKey c.spki = .ok k → env.spkiOf k = .ok c.spki)

theorem nameField_cert {env : ClEnv A K P N T X} {c : ClCert A N T X} (hf : Faithful env c) {n : N} {s : Option String}
    (hs : env.notation' n = .ok s) {f : String} {ex : List (List Char)} (hx : f.toList ∉ ex) {r : Option N}
    (h : nameField env ex f (s.map ClName.text) = .ok r) : r = s.map (fun _ => n) := by
  cases s with
  | none => cases h; rfl
  | some s =>
    obtain ⟨h1, h2⟩ := hf.1 n s hs
    obtain ⟨m, hm, rfl⟩ := nameField_given hx (x := .text s) (decide_eq_true h1) h
    have hm' : env.parse s = .ok m := hm
    rw [h2] at hm'; cases hm'; rfl

/-- A template made of a certificate alone describes the certificate: the serial number, the names that have a text,
the validity, the extensions and the key. -/
theorem C234_from_cert {env : ClEnv A K P N T X} {c : ClCert A N T X} {t : ClTmpl A N T X}
    {l : Option (List X)} (hf : Faithful env c) (h : prepTmpl env { cert := some c, excl := none } = .ok (t, l)) :
    t.rest.serial = some c.serial ∧ t.rest.validity = some c.validity ∧ t.rest.exts = c.exts ∧
    t.key = some c.spki ∧ t.rest.version = none ∧ t.rest.signAlg = none ∧
    (∀ s, env.notation' c.issuer = .ok (some s) → t.rest.issuer = some c.issuer) ∧
    (∀ s, env.notation' c.subject = .ok (some s) → t.rest.subject = some c.subject) := by
  obtain ⟨i, s, is, sn, k, h1, h2, h3, h4, rfl, -⟩ := prepTmpl_ok h
  have hex : exclusion ({ cert := some c, excl := none } : TmplArgs A K P N T X) = [] := rfl
  rw [hex] at h2 h3 h4 ⊢
  refine ⟨rfl, rfl, ?_, ?_, rfl, rfl, fun x hn => ?_, fun x hn => ?_⟩
  · show (none : Option (List X)).getD [] ++ c.exts = c.exts
    rfl
  · unfold tmplPubField tmplPub at h4
    dsimp only at h4
    rw [if_neg (by simp)] at h4
    cases h5 : env.loadKey c.spki with
    | error e => rw [h5] at h4; cases h4
    | ok k' =>
      rw [h5] at h4; dsimp only at h4
      obtain ⟨s', h6, rfl⟩ := encKey_ok h4
      rw [hf.2 k' h5] at h6; cases h6; rfl
  · unfold tmplNames orCertName at h1; dsimp only at h1
    rw [hn] at h1; dsimp only at h1
    split at h1
    · cases h1
    · cases h1
      exact nameField_cert hf hn (by simp) h3
  · unfold tmplNames orCertName at h1; dsimp only at h1
    cases h5 : env.notation' c.issuer with
    | error e => rw [h5] at h1; cases h1
    | ok y =>
      rw [h5] at h1; dsimp only at h1
      rw [hn] at h1; dsimp only at h1
      cases h1
      exact nameField_cert hf hn (by simp) h2

example : ∃ t l, prepTmpl exCl1 { cert := some exClCert, excl := none } = .ok (t, l) ∧
    t = ⟨some ⟨some 0, [5]⟩, ⟨none, some 77, none, some "CN=CA", some (1, 9), some "CN=EE", [14]⟩⟩ :=
  ⟨_, _, rfl, rfl⟩

/-- Without a certificate nothing is in the template that was not given. -/
theorem C234_nothing_added {env : ClEnv A K P N T X} {a : TmplArgs A K P N T X} {t : ClTmpl A N T X}
    {l : Option (List X)} (hc : a.cert = none) (h : prepTmpl env a = .ok (t, l)) :
    (∀ v, t.rest.version = some v → a.version = some v) ∧ (∀ n, t.rest.serial = some n → a.serial = some n) ∧
    (∀ g, t.rest.signAlg = some g → a.signAlg = some g) ∧ (∀ v, t.rest.validity = some v → a.validity = some v) ∧
    (a.subject = none → t.rest.subject = none) ∧ (a.issuer = none → t.rest.issuer = none) ∧
    (∀ x ∈ t.rest.exts, ∃ g, a.exts = some g ∧ x ∈ g) ∧ (a.key = none → a.spki = none → t.key = none) := by
  obtain ⟨i, s, is, sn, k, h1, h2, h3, h4, rfl, -⟩ := prepTmpl_ok h
  have hn : tmplNames env a = .ok (a.issuer, a.subject) := by unfold tmplNames; rw [hc]
  rw [hn] at h1; cases h1
  unfold assemble; dsimp only
  refine ⟨fun v hv => ?_, fun n hv => ?_, fun g hv => ?_, fun v hv => ?_, fun hs => ?_, fun hs => ?_, fun x hx => ?_,
    fun hk hs => ?_⟩
  · split at hv
    · cases hv
    · exact hv
  · split at hv
    · cases hv
    · unfold tmplSerial at hv; rw [hc] at hv; exact hv
  · split at hv
    · cases hv
    · exact hv
  · split at hv
    · cases hv
    · unfold tmplValidity at hv
      cases hv' : a.validity with
      | none => rw [hv', hc] at hv; cases hv
      | some w => rw [hv'] at hv; exact hv
  · rw [hs] at h2; cases h2; rfl
  · rw [hs] at h3; cases h3; rfl
  · unfold tmplExts at hx
    split at hx
    · cases hx
    · unfold allExts at hx; rw [hc] at hx; dsimp only at hx
      cases he : a.exts with
      | none => rw [he] at hx; cases hx
      | some g => rw [he] at hx; exact ⟨g, rfl, hx⟩
  · unfold tmplPubField at h4
    split at h4
    · cases h4; rfl
    · unfold tmplPub at h4; rw [hs, hk, hc] at h4; cases h4; rfl

/-- The extensions are the given ones, then those of the certificate if they are to be included. -/
theorem C234_extensions {env : ClEnv A K P N T X} {a : TmplArgs A K P N T X} {t : ClTmpl A N T X}
    {l : Option (List X)} (hx : "extensions".toList ∉ filterOptions templateKeys a.incl a.excl)
    (h : prepTmpl env a = .ok (t, l)) :
    (∀ c, a.cert = some c → a.certExts = true → t.rest.exts = a.exts.getD [] ++ c.exts) ∧
    (a.cert = none ∨ a.certExts = false → t.rest.exts = a.exts.getD [] ∧ l = a.exts) := by
  obtain ⟨i, s, is, sn, k, -, -, -, -, rfl, rfl⟩ := prepTmpl_ok h
  have hx' : "extensions".toList ∉ exclusion a := fun hc => hx ((exclusion_iff (by decide)).1 hc)
  unfold assemble tmplExts; dsimp only
  rw [if_neg (by rw [decide_eq_true_eq]; exact hx')]
  dsimp only
  refine ⟨fun c hc hi => ?_, fun hc => ?_⟩
  · unfold allExts; rw [hc]; dsimp only; rw [if_pos hi]
  · have key : allExts a = a.exts.getD [] := by
      unfold allExts
      cases h0 : a.cert with
      | none => rfl
      | some c =>
        dsimp only
        rcases hc with hc | hc
        · rw [h0] at hc; cases hc
        · rw [hc]; rfl
    rw [key]
    refine ⟨rfl, ?_⟩
    cases a.exts <;> rfl

/-- A serial number of zero is not used beside a certificate: the template has that of the certificate. -/
theorem C234_serial_zero_refuted :
    ¬ ∀ (a : TmplArgs Nat Nat Nat String Nat Nat) t l, prepTmpl exCl1 a = .ok (t, l) → ∀ n, a.serial = some n →
      "serialNumber".toList ∉ filterOptions templateKeys a.incl a.excl → t.rest.serial = some n := by
  intro h
  have := h { cert := some exClCert, serial := some 0 } _ _ rfl 0 rfl (by decide +kernel)
  exact absurd this (by decide +kernel)

/-- A given `SubjectPublicKeyInfo` is dropped if the template is for a key generation authority and no key is given:
the request does not name the algorithm. -/
theorem C234_kga_spki_refuted :
    ¬ ∀ (a : TmplArgs Nat Nat Nat String Nat Nat) t l, prepTmpl exCl1 a = .ok (t, l) → ∀ s, a.spki = some s →
      "publicKey".toList ∉ filterOptions templateKeys a.incl a.excl → ∃ k, t.key = some k ∧ k.alg = s.alg := by
  intro h
  obtain ⟨k, hk, -⟩ := h { forKga := true, spki := some ⟨some 3, [1]⟩ } _ _ rfl _ rfl (by decide +kernel)
  cases hk

/-- The list of extensions of the caller is changed, so a second template has the extensions of both certificates. -/
theorem C234_caller_list_refuted :
    ¬ ∀ (a : TmplArgs Nat Nat Nat String Nat Nat) t l, prepTmpl exCl1 a = .ok (t, l) → l = a.exts := by
  intro h
  have := h { cert := some exClCert, exts := some [1] } _ _ rfl
  exact absurd this (by decide +kernel)

example : ∃ t l t' l', prepTmpl exCl1 { cert := some exClCert, exts := some [1] } = .ok (t, l) ∧
    prepTmpl exCl1 { cert := some { exClCert with exts := [2] }, exts := l } = .ok (t', l') ∧
    t'.rest.exts = [1, 14, 2] := ⟨_, _, _, _, rfl, rfl, rfl⟩

/-- A template of a PKCS#10 request has its key and subject, its extensions and nothing else. -/
theorem C234_from_csr {env : ClEnv A K P N T X} {c : ClCsr A N X} {t : ClTmpl A N T X}
    (hn : ∀ s, env.notation' c.subject = .ok (some s) → s ≠ "" ∧ env.parse s = .ok c.subject)
    (hk : ∀ k, env.loadKey c.spki = .ok k → env.spkiOf k = .ok c.spki)
    (h : tmplFromCsr env c = .ok t) :
    t.key = some c.spki ∧ t.rest.exts = c.exts.getD [] ∧ t.rest.issuer = none ∧ t.rest.serial = none ∧
    t.rest.version = none ∧ t.rest.validity = none ∧ t.rest.signAlg = none ∧
    (∀ s, env.notation' c.subject = .ok (some s) → t.rest.subject = some c.subject) ∧
    (env.notation' c.subject = .ok none → t.rest.subject = none) := by
  unfold tmplFromCsr at h
  cases h1 : env.loadKey c.spki with
  | error e => rw [h1] at h; cases h
  | ok k =>
    rw [h1] at h; dsimp only at h
    cases h2 : env.notation' c.subject with
    | error e => rw [h2] at h; cases h
    | ok s =>
      rw [h2] at h; dsimp only at h
      cases h3 : prepTmpl env { key := some (.inr k), subject := s.map ClName.text, exts := c.exts } with
      | error e => rw [h3] at h; cases h
      | ok v =>
        obtain ⟨t', l⟩ := v
        rw [h3] at h; dsimp only at h; cases h
        have hne : ∀ f : String, f ≠ "validity" → f.toList ∉ filterOptions templateKeys none
            (some "validity".toList) := by
          intro f hf hc
          have hv : filterOptions templateKeys none (some "validity".toList) = ["validity".toList] := by
            decide +kernel
          rw [hv] at hc
          exact hf (String.toList_inj.1 (List.mem_singleton.1 hc))
        obtain ⟨s', hs', hk'⟩ := (C234_key (hne "publicKey" (by decide)) h3).2.2.2 k rfl rfl
        have hb := C234_nothing_added rfl h3
        have ho : ∀ {α : Type} {o : Option α}, (∀ v, o = some v → (none : Option α) = some v) → o = none := by
          intro α o ho
          cases o with
          | none => rfl
          | some v => cases ho v rfl
        refine ⟨?_, ((C234_extensions (hne "extensions" (by decide)) h3).2 (.inl rfl)).1, hb.2.2.2.2.2.1 rfl,
          ho hb.2.1, ho hb.1, C234_default_validity rfl rfl h3, ho hb.2.2.1, fun x hx => ?_, fun hx => ?_⟩
        · rw [hk k h1] at hs'; cases hs'; exact hk'
        · cases hx
          obtain ⟨h5, h6⟩ := hn x h2
          obtain ⟨n, h7, h8⟩ := (C234_given_kept_partial h3).2.2.2.2.2.2.1 x (hne "subject" (by decide)) h5 rfl
          rw [h6] at h7; cases h7; exact h8
        · cases hx
          exact hb.2.2.2.2.1 rfl

example : ∃ t, tmplFromCsr exCl1 ⟨⟨some 0, [5]⟩, "CN=EE", some [3]⟩ = .ok t ∧
    t = ⟨some ⟨some 0, [5]⟩, { subject := some "CN=EE", exts := [3] }⟩ := ⟨_, rfl, rfl⟩

/-! ## Controls -/

/-- The control made of a certificate names that certificate. -/
theorem C237_old_cert_id {env : ClEnv A K P N T X} {c : ClCert A N T X} {x : ClCtl A N} (hf : Faithful env c)
    (h : prepOldCert env (some c) none none false false = .ok x) : x = .oldCert c.issuer c.serial := by
  unfold prepOldCert at h
  rw [if_neg (fun hc => by cases hc.1)] at h
  have h0 : oldSerial (some c) none false = some c.serial := rfl
  rw [h0] at h; dsimp only at h
  unfold certIssuer askedIssuer at h; dsimp only at h
  cases h1 : env.notation' c.issuer with
  | error e => rw [h1] at h; cases h
  | ok s =>
    rw [h1] at h; dsimp only at h
    rw [if_neg (by decide)] at h; dsimp only at h
    unfold oldCertCtl at h
    cases s with
    | none => rw [if_pos ⟨rfl, rfl⟩] at h; cases h
    | some s =>
      rw [if_neg (fun hc => by cases hc.2)] at h
      have h2 : orIssuer none (some s) = some s := rfl
      rw [h2] at h; dsimp only at h
      rw [(hf.1 c.issuer s h1).2] at h
      cases h; rfl

/-- The structure of controls keeps the given controls, in their order, and ends with the one of the certificate. -/
theorem C237_controls_kept {env : ClEnv A K P N T X} {c : ClCert A N T X} {g : Option (List (ClCtl A N))}
    {r : List (ClCtl A N)} {l : Option (List (ClCtl A N))} (hf : Faithful env c)
    (h : prepControls env (some c) none none g = .ok (r, l)) :
    r = g.getD [] ++ [.oldCert c.issuer c.serial] := by
  unfold prepControls at h
  rw [if_neg (fun hc => by cases hc.1), if_pos (.inl rfl)] at h
  cases h1 : prepOldCert env (some c) none none false false with
  | error e => rw [h1] at h; cases h
  | ok x =>
    rw [h1] at h; dsimp only at h
    cases h
    rw [C237_old_cert_id hf h1]

example : ∃ l, prepControls exCl1 (some exClCert) none none (some [.remGen true]) =
    .ok ([.remGen true, .oldCert "CN=CA" 77], l) := ⟨_, rfl⟩

/-- The list of controls of the caller gets the new control. -/
theorem C237_caller_list_refuted :
    ¬ ∀ c g r l, prepControls exCl1 (some c) none none g = .ok (r, l) → l = g := by
  intro h
  have := h exClCert (some []) _ _ rfl
  exact absurd this (by decide +kernel)

/-- The serial number zero with an issuer passes the check of the controls, and then is an error; nothing can be asked
for a certificate with that number. -/
theorem C237_serial_zero {env : ClEnv A K P N T X} (s : String) (g : Option (List (ClCtl A N))) :
    prepControls env none (some 0) (some s) g = .error .valueError ∨ (s = "" ∧ g ≠ none) := by
  unfold prepControls
  by_cases hs : s = ""
  · subst hs
    cases g with
    | none => left; rw [if_pos ⟨rfl, rfl, rfl⟩]
    | some l => right; exact ⟨rfl, fun hc => by cases hc⟩
  · left
    have h1 : serialAndIssuer (some 0) (some s) = true := by
      unfold serialAndIssuer; simp [hs]
    rw [if_neg (fun hc => by rw [h1] at hc; cases hc.2.1), if_pos (.inr h1)]
    unfold prepOldCert
    have h2 : bothGiven (some 0) (some s) = false := rfl
    rw [if_pos ⟨rfl, h2⟩]

theorem C237_serial_zero_refuted :
    ¬ ∀ (n : Int) (s : String), s ≠ "" → prepControls exCl1 none (some n) (some s) none =
      .ok ([.oldCert s n], none) := by
  intro h
  have h1 := h 0 "CN=CA" (by decide)
  rcases C237_serial_zero (env := exCl1) "CN=CA" none with h2 | ⟨h2, -⟩
  · rw [h2] at h1; cases h1
  · exact absurd h2 (by decide)

theorem C237_serial_issuer_partial {env : ClEnv A K P N T X} {n : Int} {s : String} {i : N} (hn : n ≠ 0) (hs : s ≠ "")
    (hp : env.parse s = .ok i) :
    prepControls env none (some n) (some s) none = .ok ([.oldCert i n], none) := by
  unfold prepControls
  have h1 : serialAndIssuer (some n) (some s) = true := by
    unfold serialAndIssuer; simp [hs]
  rw [if_neg (fun hc => by rw [h1] at hc; cases hc.2.1), if_pos (.inr h1)]
  unfold prepOldCert
  have h2 : bothGiven (some n) (some s) = true := decide_eq_true ⟨hn, hs⟩
  rw [if_neg (fun hc => by rw [h2] at hc; cases hc.2)]
  have h3 : oldSerial (none : Option (ClCert A N T X)) (some n) false = some n := by
    unfold oldSerial; dsimp only; rw [if_neg hn]; rfl
  rw [h3]; dsimp only
  unfold certIssuer askedIssuer; dsimp only
  rw [if_neg (by decide)]; dsimp only
  unfold oldCertCtl
  rw [if_neg (fun hc => by cases hc.1)]
  have h4 : orIssuer (some s) none = some s := by unfold orIssuer; dsimp only; rw [if_neg hs]
  rw [h4]; dsimp only; rw [hp]; rfl

/-- The negative controls differ from the correct one: the serial number is the next, or the issuer is changed. -/
theorem C237_wrong_ids {env : ClEnv A K P N T X} {c : ClCert A N T X} {x : ClCtl A N} :
    (prepOldCert env (some c) none none true false = .ok x → ∃ i, x = .oldCert i (c.serial + 1)) ∧
    (prepOldCert env (some c) none none false true = .ok x → ∃ s i, env.badName c.issuer = .ok s ∧
      (s ≠ "" → env.parse s = .ok i) ∧ x = .oldCert i c.serial) := by
  constructor
  · intro h
    unfold prepOldCert at h
    rw [if_neg (fun hc => by cases hc.1)] at h
    have h0 : oldSerial (some c) none true = some (c.serial + 1) := rfl
    rw [h0] at h; dsimp only at h
    split at h
    · cases h
    · split at h
      · cases h
      · unfold oldCertCtl at h
        split at h
        · cases h
        · split at h
          · cases h
          · split at h
            · cases h
            · cases h; exact ⟨_, rfl⟩
  · intro h
    unfold prepOldCert at h
    rw [if_neg (fun hc => by cases hc.1)] at h
    have h0 : oldSerial (some c) none false = some c.serial := rfl
    rw [h0] at h; dsimp only at h
    split at h
    · cases h
    · unfold askedIssuer at h; dsimp only at h
      rw [if_pos rfl] at h
      cases h1 : env.badName c.issuer with
      | error e => rw [h1] at h; cases h
      | ok s =>
        rw [h1] at h; dsimp only at h
        unfold oldCertCtl at h
        rw [if_neg (fun hc => by cases hc.1)] at h
        split at h
        · cases h
        · rename_i s' hs'
          cases h2 : env.parse s' with
          | error e => rw [h2] at h; cases h
          | ok i =>
            rw [h2] at h; cases h
            refine ⟨s, i, rfl, fun hne => ?_, rfl⟩
            unfold orIssuer at hs'; dsimp only at hs'
            rw [if_neg hne] at hs'; cases hs'; exact h2

example : prepOldCert exCl1 (some exClCert) none none true false = .ok (.oldCert "CN=CA" 78) ∧
    prepOldCert exCl1 (some exClCert) none none false true = .ok (.oldCert "CN=CAx" 77) := ⟨rfl, rfl⟩

/-- With a password and a private key, the private key is in the control in the clear, as parameters of a generated
key: the branch that encrypts it is never reached. -/
theorem C237_archive_in_clear {env : ClEnv A K P N T X} {p : P} {w : Option Bytes} {b : Bool} {d : Bytes}
    (h : env.privNums p = .ok d) : prepArchive env none none (some p) w b = .ok (.keyGen d) := by
  unfold prepArchive; dsimp only; rw [h]

theorem C237_archive_refuted :
    ¬ ∀ p w x b, prepArchive exCl1 none none (some p) (some w) b = .ok x → ∃ d, x = ClCtl.envelopedKey d := by
  intro h
  obtain ⟨d, hd⟩ := h 5 [1] _ true rfl
  cases hd

/-- Without a private key and parameters: an encrypted key is used as it is, a password is an error, and else the flag
is in the control. -/
theorem C237_archive_partial (env : ClEnv A K P N T X) (d w : Bytes) (q : Option Bytes) (p : Option P)
    (v : Option Bytes) (b : Bool) :
    prepArchive env (some (.enveloped d)) q p v b = .ok (.envelopedKey d) ∧
    prepArchive env (some (.value d)) q p v b = .ok (.encryptedValue d) ∧
    prepArchive env none (some d) p v b = .ok (.keyGen d) ∧
    prepArchive env none none none (some w) b = .error .valueError ∧
    prepArchive env none none none none b = .ok (.remGen b) := ⟨rfl, rfl, rfl, rfl, rfl⟩

/-- The key of `protocolEncrKey` is that of the certificate, the structure, or the encoding of the key. -/
theorem C237_encr_key (env : ClEnv A K P N T X) :
    (∀ c, prepEncrKey env (some (.cert c)) = .ok (.encrKey (some c.spki))) ∧
    (∀ s, prepEncrKey env (some (.spki s)) = .ok (.encrKey (some s))) ∧
    (∀ k s, env.spkiOf k = .ok s → prepEncrKey env (some (.key k)) = .ok (.encrKey (some s))) := by
  refine ⟨fun _ => rfl, fun _ => rfl, fun k s h => ?_⟩
  unfold prepEncrKey; dsimp only; rw [h]

end Verif.Ra
