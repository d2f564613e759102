import Verif.Ra.CsrBuild
import Verif.Ra.HandlerProps

/-!
# Certification requests of the client and what the CA makes of them (C240), and the public keys in them (C241)
-/

namespace Verif.Ra

open Verif.CA hiding Bytes Msg
open Verif.Check (DName compareNames CmpMode)

variable {B K P : Type}

/-- The parts of the environment fit together for the key `p`: the structures of its public key are read as this key,
and signatures by `p` verify and damaged ones do not. -/
structure CsrAgree (env : CsrEnv B K P) (p : P) : Prop where
  load : ∀ pss h s, spkiFromPub env (env.pub p) pss h = .ok s → env.loadKey s = .ok (env.pub p)
  verifies : env.isVerify (env.pub p) = true
  good : ∀ h pss d g s, env.sigAlg p h pss = .ok g → env.sign p h pss d = .ok s → env.verify (env.pub p) g d s = .ok ()
  bad : ∀ h pss d g s, env.sigAlg p h pss = .ok g → env.sign p h pss d = .ok s →
    env.verify (env.pub p) g d (env.damage p s) = .error .invalidSignature

theorem buildCsr_ok {env : CsrEnv B K P} {a : CsrArgs B P} {c : CsrMsg B} {l : Option (List XExt)}
    (h : buildCsr env a = .ok (c, l)) :
    ∃ n s x, parseCommonName env a.name = .ok n ∧ csrSpki env a = .ok s ∧ csrReqExts env a = .ok x ∧
      csrFinish env a s (csrBody env a n s x) = .ok c ∧ l = a.exts.bind (fun _ => x) := by
  unfold buildCsr at h
  cases h1 : parseCommonName env a.name with
  | error e => rw [h1] at h; cases h
  | ok n =>
    rw [h1] at h; dsimp only at h
    cases h2 : csrSpki env a with
    | error e => rw [h2] at h; cases h
    | ok s =>
      rw [h2] at h; dsimp only at h
      cases h3 : csrReqExts env a with
      | error e => rw [h3] at h; cases h
      | ok x =>
        rw [h3] at h; dsimp only at h
        cases h4 : csrFinish env a s (csrBody env a n s x) with
        | error e => rw [h4] at h; cases h
        | ok c' => rw [h4] at h; cases h; exact ⟨n, s, x, rfl, rfl, rfl, h4, rfl⟩

theorem signCsr_ok {env : CsrEnv B K P} {c r : CsrMsg B} {p : P} {hash : Option String} {pss : Bool} {o : Option P}
    {bad : Bool} {given : Option KAlgId} (h : signCsr env c p hash pss o bad given = .ok r) :
    ∃ g s, signAlgId env p hash pss given = .ok g ∧ env.sign (o.getD p) hash pss (env.encInfo c.info) = .ok s ∧
      r = ⟨c.info, some g, some (if bad then env.damage p s else s)⟩ := by
  unfold signCsr at h
  cases h1 : signAlgId env p hash pss given with
  | error e => rw [h1] at h; cases h
  | ok g =>
    rw [h1] at h; dsimp only at h
    cases h2 : env.sign (o.getD p) hash pss (env.encInfo c.info) with
    | error e => rw [h2] at h; cases h
    | ok s => rw [h2] at h; cases h; exact ⟨g, s, rfl, rfl, rfl⟩

theorem csrFinish_info {env : CsrEnv B K P} {a : CsrArgs B P} {s : KSpki} {c r : CsrMsg B}
    (h : csrFinish env a s c = .ok r) : r.info = c.info := by
  unfold csrFinish at h
  split at h
  · obtain ⟨g, s, -, -, rfl⟩ := signCsr_ok h; rfl
  · split at h
    · cases h; rfl
    · cases h; rfl

/-- The content of a request: the version, the given name, the given key or that of the signer (for a KGA without its
bits), and the extensions as the CA reads them: those given and, last, that of the alternative name. The list of the
caller is extended by the latter. -/
theorem C240_content {env : CsrEnv B K P} {a : CsrArgs B P} {c : CsrMsg B} {l : Option (List XExt)}
    (hx : ∀ l, csrReqExts env a = .ok (some l) → env.decExts (env.encExts l) = .ok l)
    (h : buildCsr env a = .ok (c, l)) :
    c.info.version = a.version ∧
    (∀ n, a.name = .inr n → c.info.subject = n) ∧ (∀ t, a.name = .inl t → env.parse t = .ok c.info.subject) ∧
    (∃ s, (∀ s', a.spki = some s' → s = s') ∧ (a.spki = none → spkiFromPub env (env.pub a.key) a.pss none = .ok s) ∧
      c.info.spki = if a.forKga then ⟨s.alg, []⟩ else s) ∧
    (a.san = none → csrExtsOf env c = .ok a.exts ∧ l = a.exts) ∧
    (∀ t, a.san = some t → ∃ x, env.san t = .ok x ∧ csrExtsOf env c = .ok (some (a.exts.getD [] ++ [x])) ∧
      l = a.exts.map (· ++ [x])) := by
  obtain ⟨n, s, x, h1, h2, h3, h4, rfl⟩ := buildCsr_ok h
  have hi := csrFinish_info h4
  have hext : csrExtsOf env c = .ok x := by
    unfold csrExtsOf
    rw [hi]
    unfold csrBody
    cases x with
    | none => rfl
    | some x =>
      unfold csrAddExts
      dsimp only [List.nil_append]
      rw [List.find?_cons_of_pos (p := fun a : CsrAttr => decide (a.typ = extReq)) (decide_eq_true rfl)]
      dsimp only
      rw [hx x h3]
  have hb : ∀ (y : Option (List XExt)), (csrBody env a n s y).info.version = a.version ∧
      (csrBody env a n s y).info.subject = n ∧
      (csrBody env a n s y).info.spki = if a.forKga then ⟨s.alg, []⟩ else s := by
    intro y; cases y <;> exact ⟨rfl, rfl, rfl⟩
  rw [hi, (hb x).1, (hb x).2.1, (hb x).2.2]
  refine ⟨rfl, fun m hm => ?_, fun t ht => ?_, ⟨s, fun s' hs => ?_, fun hs => ?_, rfl⟩, fun hs => ?_, fun t ht => ?_⟩
  · rw [hm] at h1; exact (Except.ok.inj h1).symm
  · rw [ht] at h1; exact h1
  · unfold csrSpki at h2; rw [hs] at h2; exact (Except.ok.inj h2).symm
  · unfold csrSpki at h2; rw [hs] at h2; exact h2
  · unfold csrReqExts at h3; rw [hs] at h3
    have h3 := (Except.ok.inj h3).symm
    subst h3
    exact ⟨hext, by cases a.exts <;> rfl⟩
  · unfold csrReqExts at h3; rw [ht] at h3; dsimp only at h3
    cases h5 : env.san t with
    | error e => rw [h5] at h3; cases h3
    | ok y =>
      rw [h5] at h3
      have h3 := (Except.ok.inj h3).symm
      subst h3
      exact ⟨y, rfl, hext, by cases a.exts <;> rfl⟩

/-- A request that is signed with its own key verifies, and one with a damaged signature is answered with `BadPOP`. -/
theorem C240_verifies {env : CsrEnv B K P} {a : CsrArgs B P} {c : CsrMsg B} {l : Option (List XExt)}
    (hg : CsrAgree env a.key) (hs : ∀ s, a.spki = some s → env.loadKey s = .ok (env.pub a.key))
    (hn : a.noSig = false) (hk : a.forKga = false) (h : buildCsr env a = .ok (c, l)) :
    csrVerify env c = if a.bad then .error .badPOP else .ok () := by
  obtain ⟨n, s, x, h1, h2, h3, h4, rfl⟩ := buildCsr_ok h
  have hload : env.loadKey s = .ok (env.pub a.key) := by
    unfold csrSpki at h2
    cases h5 : a.spki with
    | some s' => rw [h5] at h2; cases h2; exact hs s h5
    | none => rw [h5] at h2; exact hg.load _ _ _ h2
  have hspki : (csrBody env a n s x).info.spki = s := by
    unfold csrBody; rw [hk]; cases x <;> rfl
  unfold csrFinish at h4
  rw [if_pos ⟨hn, hk⟩] at h4
  obtain ⟨g, t, h6, h7, rfl⟩ := signCsr_ok h4
  unfold csrVerify
  dsimp only
  rw [hspki, hload]; dsimp only
  rw [if_neg (by rw [hg.verifies]; exact fun hc => by cases hc)]
  cases hb : a.bad with
  | true =>
    rw [if_pos rfl, hg.bad _ _ _ _ _ h6 h7]; rfl
  | false =>
    rw [if_neg Bool.false_ne_true, hg.good _ _ _ _ _ h6 h7]; rfl

/-- A request for the key of another: it is verified with the key in it. -/
theorem C240_foreign_key {env : CsrEnv B K P} {a : CsrArgs B P} {c : CsrMsg B} {l : Option (List XExt)} {s : KSpki}
    {k : K} (hs : a.spki = some s) (hl : env.loadKey s = .ok k)
    (hv : ∀ g d t, env.sigAlg a.key a.hash a.pss = .ok g → env.sign a.key a.hash a.pss d = .ok t →
      env.verify k g d t = .error .invalidSignature)
    (hb : a.bad = false) (hn : a.noSig = false) (hk : a.forKga = false) (h : buildCsr env a = .ok (c, l)) :
    csrVerify env c = .error .badPOP ∨ (env.isVerify k = false ∧ csrVerify env c = .error .valueError) := by
  obtain ⟨n, s', x, h1, h2, h3, h4, rfl⟩ := buildCsr_ok h
  have : s' = s := by unfold csrSpki at h2; rw [hs] at h2; exact (Except.ok.inj h2).symm
  subst this
  have hspki : (csrBody env a n s' x).info.spki = s' := by
    unfold csrBody; rw [hk]; cases x <;> rfl
  unfold csrFinish at h4
  rw [if_pos ⟨hn, hk⟩] at h4
  obtain ⟨g, t, h6, h7, rfl⟩ := signCsr_ok h4
  unfold csrVerify
  dsimp only
  rw [hspki, hl]; dsimp only
  cases hv' : env.isVerify k with
  | false => rw [if_pos rfl]; exact .inr ⟨rfl, rfl⟩
  | true =>
    rw [if_neg (fun hc => by cases hc), hb, if_neg Bool.false_ne_true, hv g _ t h6 h7]
    exact .inl rfl

/-- A request for a KGA has neither the bits of a key nor a signature; one built without a signature is not accepted. -/
theorem C240_unsigned {env : CsrEnv B K P} {a : CsrArgs B P} {c : CsrMsg B} {l : Option (List XExt)}
    (h : buildCsr env a = .ok (c, l)) :
    (a.forKga = true → c.info.spki.bits = [] ∧ c.sig = some [] ∧ c.alg = some c.info.spki.alg) ∧
    (a.forKga = false → a.noSig = true → c.sig = none ∧ c.alg = none ∧ csrVerify env c ≠ .ok ()) := by
  obtain ⟨n, s, x, h1, h2, h3, h4, rfl⟩ := buildCsr_ok h
  unfold csrFinish at h4
  refine ⟨fun hk => ?_, fun hk hn => ?_⟩
  · rw [if_neg (fun hc => by rw [hk] at hc; exact absurd hc.2 (by decide)), if_pos hk] at h4
    cases h4
    have hspki : (csrBody env a n s x).info.spki = ⟨s.alg, []⟩ := by
      unfold csrBody; rw [hk]; cases x <;> rfl
    dsimp only
    rw [hspki]
    exact ⟨rfl, rfl, rfl⟩
  · rw [if_neg (fun hc => by rw [hn] at hc; exact absurd hc.1 (by decide)),
      if_neg (fun hc => by rw [hk] at hc; exact absurd hc (by decide))] at h4
    have h4 := (Except.ok.inj h4).symm
    have hsig : c.sig = none ∧ c.alg = none := by
      rw [h4]; unfold csrBody; cases x <;> exact ⟨rfl, rfl⟩
    refine ⟨hsig.1, hsig.2, fun hc => ?_⟩
    unfold csrVerify at hc
    rw [hsig.1] at hc
    split at hc
    · cases hc
    · split at hc <;> cases hc

/-- `other_key` signs, but the algorithm is that of the first key. -/
theorem C240_other_key {env : CsrEnv B K P} {c r : CsrMsg B} {p q : P} {hash : Option String} {pss bad : Bool}
    (h : signCsr env c p hash pss (some q) bad = .ok r) :
    r.info = c.info ∧ ∃ g s, env.sigAlg p hash pss = .ok g ∧ r.alg = some g ∧
      env.sign q hash pss (env.encInfo c.info) = .ok s ∧ r.sig = some (if bad then env.damage p s else s) := by
  obtain ⟨g, s, h1, h2, rfl⟩ := signCsr_ok h
  exact ⟨rfl, g, s, h1, rfl, h2, rfl⟩

/-- Extensions that are added to a request that has some are not read, by the CA or by anyone. -/
theorem C240_second_extensions_refuted {env : CsrEnv B K P} {c : CsrMsg B} {l : List XExt}
    (h : csrExtsOf env c = .ok (some l)) (l' : List XExt) : csrExtsOf env (csrAddExts env c l') = .ok (some l) := by
  unfold csrExtsOf at h ⊢
  unfold csrAddExts
  dsimp only
  rw [List.find?_append]
  cases h1 : c.info.attrs.find? (fun a => decide (a.typ = extReq)) with
  | none => rw [h1] at h; cases h
  | some a => rw [h1] at h; exact h

/-- The first extensions that are added are read. -/
theorem C240_first_extensions {env : CsrEnv B K P} {c : CsrMsg B} {l : List XExt}
    (hx : env.decExts (env.encExts l) = .ok l) (h : ∀ a ∈ c.info.attrs, a.typ ≠ [1, 2, 840, 113549, 1, 9, 14]) :
    csrExtsOf env (csrAddExts env c l) = .ok (some l) := by
  unfold csrExtsOf csrAddExts
  dsimp only
  rw [List.find?_append, show c.info.attrs.find? (fun a => decide (a.typ = extReq)) = none from
    List.find?_eq_none.2 (fun a ha hc => h a ha (of_decide_eq_true hc))]
  dsimp only [Option.none_or]
  rw [List.find?_cons_of_pos (p := fun a : CsrAttr => decide (a.typ = extReq)) (decide_eq_true rfl)]
  dsimp only
  rw [hx]

/-! ## p10cr -/

theorem buildP10_ok {env : CsrEnv B K P} {a : CsrArgs B P} {c : CsrMsg B} (h : buildP10 env a = .ok c) :
    ∃ s l, p10Spki env a = .ok s ∧
      buildCsr env { a with spki := some s, san := none, noSig := false, forKga := false } = .ok (c, l) := by
  unfold buildP10 at h
  cases h1 : p10Spki env a with
  | error e => rw [h1] at h; cases h
  | ok s =>
    rw [h1] at h; dsimp only at h
    cases h2 : buildCsr env { a with spki := some s, san := none, noSig := false, forKga := false } with
    | error e => rw [h2] at h; cases h
    | ok v => rw [h2] at h; cases h; exact ⟨s, v.2, rfl, h2⟩

/-- `subjectAltName`, `exclude_signature` and `for_kga` are taken by `build_p10cr_from_key` but have no effect. -/
theorem C240_ignored_refuted (env : CsrEnv B K P) (a : CsrArgs B P) (san : Option String) (noSig forKga : Bool) :
    buildP10 env { a with san := san, noSig := noSig, forKga := forKga } = buildP10 env a := rfl

/-- For a key of a post-quantum signature algorithm that does not support the hash, which is SHA-256 if none is given,
no `p10cr` is built. -/
theorem C240_pq_hash_refuted {env : CsrEnv B K P} {a : CsrArgs B P} {chk : String → Option String} {h : String}
    (hs : a.spki = none) (hp : env.compPriv a.key = none) (hc : env.composite (env.pub a.key) = none)
    (hr : env.isRsa (env.pub a.key) = false) (hk : env.checkHash (env.pub a.key) = some chk) (hh : a.hash = some h)
    (hn : chk h = none) : buildP10 env a = .error .valueError := by
  have : p10Spki env a = .error .valueError := by
    unfold p10Spki prepSpki
    rw [hs]; dsimp only
    rw [if_neg (by simp), if_neg (by simp), hp]; dsimp only
    unfold otherSpki plainSpki pubOf; dsimp only
    rw [if_neg (by simp), if_neg (c := (none : Option String) = some "rsa-kem" ∨ (none : Option String) = some "rsa_kem")
      (by simp), if_neg (by rw [hr]; simp)]
    unfold spkiFromPub
    rw [hc]; dsimp only
    rw [hk, hh]; dsimp only
    rw [hn]
  unfold buildP10
  rw [this]

/-- The `p10cr` of a key is answered by the CA with a certificate for exactly this key, if it is named; with a damaged
signature with `BadPOP`. The extensions of the request are not in the certificate. -/
theorem C240_p10_partial {env : CsrEnv B K P} {a : CsrArgs B P} {c : CsrMsg B} (hg : CsrAgree env a.key)
    (hx : ∀ l, a.exts = some l → env.decExts (env.encExts l) = .ok l)
    (hs : ∀ s, p10Spki env a = .ok s → env.loadKey s = .ok (env.pub a.key)) (h : buildP10 env a = .ok c)
    (ca : P10Env K) :
    (a.bad = true → processP10 ca (toP10 env c) = .error .badPOP) ∧
    (a.bad = false → ca.nameOk = .ok () → ca.sign = .ok () →
      (c.info.subject.rdns ≠ [] ∨ ∃ l, a.exts = some l ∧ ∃ x ∈ l, x.1 = [2, 5, 29, 17]) →
      processP10 ca (toP10 env c) = .ok ⟨decide (c.info.subject.rdns = []), env.pub a.key,
        ca.exts ++ [ca.ski (env.pub a.key)]⟩) := by
  obtain ⟨s, l, h1, h2⟩ := buildP10_ok h
  have hv := C240_verifies (a := { a with spki := some s, san := none, noSig := false, forKga := false }) hg
    (fun s' hs' => by cases hs'; exact hs s h1) rfl rfl h2
  have hc := C240_content (a := { a with spki := some s, san := none, noSig := false, forKga := false })
    (fun l hl => hx l (Except.ok.inj hl)) h2
  obtain ⟨-, -, -, ⟨s', h3, -, h5⟩, h6, -⟩ := hc
  have hkey : env.loadKey c.info.spki = .ok (env.pub a.key) := by
    rw [h5, h3 s rfl]; exact hs s h1
  have hext : csrExtsOf env c = .ok a.exts := (h6 rfl).1
  refine ⟨fun hb => ?_, fun hb hn hsg hnm => ?_⟩
  · unfold processP10 toP10
    dsimp only
    rw [hkey]; dsimp only
    rw [hv]; dsimp only
    rw [hb]; rfl
  · rw [C226_issued_iff]
    refine ⟨?_, hn, hsg, ⟨a.exts.getD [], ?_, fun hnull => ?_⟩, env.pub a.key, hkey, rfl⟩
    · show csrVerify env c = .ok ()
      rw [hv]
      dsimp only
      rw [hb]; rfl
    · show p10Exts env c = _
      unfold p10Exts; rw [hext]
    · have hnull : c.info.subject.rdns = [] := of_decide_eq_true hnull
      rcases hnm with hnm | ⟨l', hl', hx⟩
      · exact absurd hnull hnm
      · rw [hl']; exact hx

/-! ## Comparing a request with the certificate -/

/-- What is compared: the subject (the same RDNs if `strict`, otherwise that each attribute occurs), the key, and, if the
request has an attribute, exactly the extensions of the certificate. -/
theorem C240_compare_iff [DecidableEq B] (env : CsrEnv B K P) (c : CsrMsg B) (subject : DName B) (spki : KSpki)
    (exts : List XExt) (strict : Bool) :
    compareCsr env c subject spki exts strict = .ok true ↔
      (strict = true → subject.rdns = c.info.subject.rdns) ∧
      (strict = false → ∀ rdn ∈ c.info.subject.rdns, ∀ x ∈ rdn, ∃ rdn' ∈ subject.rdns, x ∈ rdn') ∧
      c.info.spki = spki ∧
      (c.info.attrs = [] ∨ (∃ x, c.info.attrs = [x]) ∧ csrExtsOf env c = .ok (some exts)) := by
  have hname : compareNames c.info.subject subject (if strict then .withoutTag else .contains) = true ↔
      (strict = true → subject.rdns = c.info.subject.rdns) ∧
      (strict = false → ∀ rdn ∈ c.info.subject.rdns, ∀ x ∈ rdn, ∃ rdn' ∈ subject.rdns, x ∈ rdn') := by
    cases strict <;> simp [compareNames]
  have hex : cmpCsrExts env c exts = .ok true ↔
      (c.info.attrs = [] ∨ (∃ x, c.info.attrs = [x]) ∧ csrExtsOf env c = .ok (some exts)) := by
    unfold cmpCsrExts
    cases hl : c.info.attrs with
    | nil => simp
    | cons y ys =>
      cases ys with
      | cons z zs => simp
      | nil =>
        rw [if_neg (by simp), if_neg (by simp)]
        cases h1 : csrExtsOf env c with
        | error e => simp
        | ok o =>
          cases o with
          | none => simp
          | some l => simp
  unfold compareCsr
  cases hn : compareNames c.info.subject subject (if strict then .withoutTag else .contains) with
  | false =>
    rw [if_pos rfl]
    refine ⟨fun h => (by cases h), fun h => ?_⟩
    rw [hname.2 ⟨h.1, h.2.1⟩] at hn; cases hn
  | true =>
    rw [if_neg (fun h => by cases h)]
    have hn' := hname.1 hn
    by_cases hk : c.info.spki = spki
    · rw [if_neg (fun h => h hk), hex]
      exact ⟨fun h => ⟨hn'.1, hn'.2, hk, h⟩, fun h => h.2.2.2⟩
    · rw [if_pos hk]
      exact ⟨fun h => (by cases h), fun h => absurd h.2.2.1 hk⟩

/-- The certificate that the CA issues for a request with extensions passes the comparison only if what was requested is
what the CA puts into every certificate, with the key identifier last. -/
theorem C240_compare_refuted [DecidableEq B] {env : CsrEnv B K P} {a : CsrArgs B P} {c : CsrMsg B}
    (hx : ∀ l, a.exts = some l → env.decExts (env.encExts l) = .ok l) (h : buildP10 env a = .ok c) {ca : P10Env K} {r : P10Cert K}
    (hr : processP10 ca (toP10 env c) = .ok r) {l : List XExt} (hl : a.exts = some l) (subject : DName B) (spki : KSpki)
    (strict : Bool) (hc : compareCsr env c subject spki r.exts strict = .ok true) : l = ca.exts ++ [ca.ski r.key] := by
  obtain ⟨s, l', h1, h2⟩ := buildP10_ok h
  obtain ⟨-, -, -, -, h6, -⟩ := C240_content (a := { a with spki := some s, san := none, noSig := false, forKga := false })
    (fun l hl => hx l (Except.ok.inj hl)) h2
  have hext : csrExtsOf env c = .ok (some l) := by rw [(h6 rfl).1]; exact congrArg _ hl
  obtain ⟨-, -, -, -, k, -, rfl⟩ := (C226_issued_iff ca _ r).1 hr
  obtain ⟨-, -, -, h7⟩ := (C240_compare_iff env c subject spki _ strict).1 hc
  rcases h7 with h7 | ⟨-, h7⟩
  · unfold csrExtsOf at hext; rw [h7] at hext; cases hext
  · rw [hext] at h7
    exact Option.some.inj (Except.ok.inj h7)

/-! ## Public keys -/

/-- A key that is not a composite private key, for a KGA: only the identifier of the algorithm is left. -/
theorem C241_kga_partial {env : CsrEnv B K P} {a : SpkiArgs K P} {s : KSpki} (hk : a.forKga = true)
    (hc : ∀ p, a.key = some (.inl p) → env.compPriv p = none) (h : prepSpki env a = .ok s) : s.bits = [] := by
  have key : ∀ k, otherSpki env a k = .ok s → s.bits = [] := by
    intro k hk'
    unfold otherSpki at hk'
    rw [if_pos hk] at hk'
    unfold spkiForKga at hk'
    split at hk'
    · cases hk'
    · cases hk'; rfl
  unfold prepSpki at h
  split at h
  · cases h
  split at h
  · cases h
  cases hkey : a.key with
  | none => rw [hkey] at h; exact key _ h
  | some x =>
    cases x with
    | inl p => rw [hkey] at h; dsimp only at h; rw [hc p hkey] at h; exact key _ h
    | inr k => rw [hkey] at h; exact key _ h

/-- A composite private key is put in with its bits even for a KGA. -/
theorem C241_kga_composite_refuted {env : CsrEnv B K P} {a : SpkiArgs K P} {p : P}
    {f : Bool → Except PyErr (List Nat)} {s : KSpki} (hk : a.key = some (.inl p)) (hf : env.compPriv p = some f)
    (h : prepSpki env a = .ok s) :
    s.bits = env.rawPub p ++ (if a.badSize then [0] else []) ∧ f a.pss = .ok s.alg.oid := by
  unfold prepSpki at h
  split at h
  · cases h
  split at h
  · cases h
  rw [hk] at h; dsimp only at h
  rw [hf] at h; dsimp only at h
  unfold compSpki at h
  cases h1 : f a.pss with
  | error e => rw [h1] at h; cases h
  | ok o =>
    rw [h1] at h
    have h := (Except.ok.inj h).symm
    subst h
    refine ⟨?_, ?_⟩
    · dsimp only
      cases a.badSize
      · rw [if_neg Bool.false_ne_true, if_neg Bool.false_ne_true, List.append_nil]
      · rfl
    · unfold extraParams
      cases a.addNull <;> cases a.addRand <;> rfl

/-- For a KGA the parameters of the key are dropped: of a key on an elliptic curve the curve. -/
theorem C241_kga_params_refuted {env : CsrEnv B K P} {a : SpkiArgs K P} {k : K} {s : KSpki}
    (hk : a.key = some (.inr k)) (hn : a.name = none) (hkga : a.forKga = true) (h0 : a.addNull = false)
    (h1 : a.addRand = false) (h : prepSpki env a = .ok s) :
    s.alg.params = none ∧ ∃ s', spkiFromPub env k a.pss none = .ok s' ∧ s.alg.oid = s'.alg.oid := by
  unfold prepSpki at h
  rw [if_neg (by rw [hkga]; simp), if_neg (by rw [h0]; simp), hk] at h
  dsimp only at h
  unfold otherSpki at h
  rw [if_pos hkga] at h
  unfold spkiForKga kgaAlg at h
  rw [hn] at h
  dsimp only [Option.map, pubOf] at h
  cases h2 : spkiFromPub env k a.pss none with
  | error e => rw [h2] at h; cases h
  | ok s' =>
    rw [h2] at h
    have h := (Except.ok.inj h).symm
    subst h
    unfold extraParams
    rw [h0, h1]
    exact ⟨rfl, s', rfl, rfl⟩

/-- `add_null` has no effect on a key that is neither composite nor for a KGA. -/
theorem C241_null_refuted (env : CsrEnv B K P) (a : SpkiArgs K P) (hk : a.forKga = false) (hr : a.addRand = false)
    (hc : ∀ p, a.key = some (.inl p) → env.compPriv p = none) (b : Bool) :
    prepSpki env { a with addNull := b } = prepSpki env a := by
  obtain ⟨k, kga, nm, pss, hh, bs, ar, an, rd⟩ := a
  dsimp only at hk hr hc ⊢
  subst hk hr
  have key : ∀ x y z, otherSpki env ⟨z, false, nm, pss, hh, bs, false, y, rd⟩ x =
      otherSpki env ⟨z, false, nm, pss, hh, bs, false, an, rd⟩ x := fun _ _ _ => rfl
  unfold prepSpki
  dsimp only
  rw [if_neg (c := b = true ∧ false = true) (by simp), if_neg (c := an = true ∧ false = true) (by simp)]
  cases k with
  | none => rfl
  | some x =>
    cases x with
    | inl p => dsimp only; rw [hc p rfl]; dsimp only; rw [key]
    | inr k => dsimp only; rw [key]

/-- The structure of a public key that is neither RSA nor renamed is that of the library; a hash changes the identifier
of a post-quantum key and nothing else. -/
theorem C241_plain {env : CsrEnv B K P} {k : K} {hash : Option String} {s : KSpki}
    (hr : env.isRsa k = false) (hc : env.composite k = none)
    (h : prepSpki env { key := some (.inr k), hash := hash } = .ok s) :
    ∃ d, env.derSpki k = .ok d ∧ s.bits = d.bits ∧ s.alg.params = d.alg.params ∧
      (s.alg.oid = d.alg.oid ∨ ∃ chk h h', env.checkHash k = some chk ∧ hash = some h ∧ chk h = some h' ∧
        env.hashOid k h' = .ok s.alg.oid) := by
  unfold prepSpki at h
  rw [if_neg (by simp), if_neg (by simp)] at h
  dsimp only at h
  unfold otherSpki plainSpki pubOf at h
  dsimp only at h
  rw [if_neg (by simp), if_neg (c := (none : Option String) = some "rsa-kem" ∨ (none : Option String) = some "rsa_kem")
    (by simp), if_neg (by rw [hr]; simp)] at h
  unfold spkiFromPub at h
  rw [hc] at h; dsimp only at h
  have base : ∀ {s : KSpki}, (match env.derSpki k with
      | .error e => (.error e : Except PyErr KSpki)
      | .ok s => .ok (finishSpki (P := P) { key := some (.inr k), hash := hash } s)) = .ok s →
      ∃ d, env.derSpki k = .ok d ∧ s = d := by
    intro s hs
    cases h1 : env.derSpki k with
    | error e => rw [h1] at hs; cases hs
    | ok d => rw [h1] at hs; exact ⟨d, rfl, (Except.ok.inj hs).symm⟩
  cases h1 : env.checkHash k with
  | none =>
    rw [h1] at h; dsimp only at h
    obtain ⟨d, h2, rfl⟩ := base h
    exact ⟨s, h2, rfl, rfl, .inl rfl⟩
  | some chk =>
    rw [h1] at h; dsimp only at h
    cases hash with
    | none =>
      dsimp only at h
      obtain ⟨d, h2, rfl⟩ := base h
      exact ⟨s, h2, rfl, rfl, .inl rfl⟩
    | some hh =>
      dsimp only at h
      cases h2 : chk hh with
      | none => rw [h2] at h; cases h
      | some h' =>
        rw [h2] at h; dsimp only at h
        cases h3 : env.hashOid k h' with
        | error e => rw [h3] at h; cases h
        | ok o =>
          rw [h3] at h; dsimp only at h
          cases h4 : env.derSpki k with
          | error e => rw [h4] at h; cases h
          | ok d =>
            rw [h4] at h
            have h := (Except.ok.inj h).symm
            subst h
            exact ⟨d, rfl, rfl, rfl, .inr ⟨chk, hh, h', rfl, rfl, h2, h3⟩⟩

/-- Both flags for the parameters, or neither a key nor a KGA: `ValueError`. -/
theorem C241_flags (env : CsrEnv B K P) (a : SpkiArgs K P)
    (h : (a.key = none ∧ a.forKga = false) ∨ (a.addNull = true ∧ a.addRand = true)) :
    prepSpki env a = .error .valueError := by
  unfold prepSpki
  rcases h with h | h
  · rw [if_pos ⟨by rw [h.1]; rfl, h.2⟩]
  · by_cases h1 : a.key.isNone = true ∧ a.forKga = false
    · rw [if_pos h1]
    · rw [if_neg h1, if_pos h]

/-! ## Examples -/

/-- The environment of the examples: the keys 0 to 9 are plain, 10 to 19 post-quantum with SHA-512 only, 20 to 29
composite. -/
def exCsr : CsrEnv Nat Nat Nat where
  pub := fun p => p
  composite := fun k => if 20 ≤ k then some (fun b => .ok ⟨⟨[2, k, if b then 1 else 0], none⟩, [UInt8.ofNat k]⟩) else none
  checkHash := fun k => if 10 ≤ k then some (fun h => if h = "sha512" then some h else none) else none
  hashOid := fun k _ => .ok [5, k]
  derSpki := fun k => .ok ⟨⟨[1, k], some [7]⟩, [UInt8.ofNat k]⟩
  isRsa := fun k => decide (k = 3)
  pkcs1 := fun k => [UInt8.ofNat k]
  pssAlg := fun _ => .ok ⟨[9], none⟩
  compPriv := fun p => if 20 ≤ p then some (fun b => .ok [2, p, if b then 1 else 0]) else none
  rawPub := fun p => [UInt8.ofNat p]
  encap := fun k => k
  generate := fun _ => .ok 0
  loadKey := fun s => match s.bits with | [b] => .ok b.toNat | _ => .error .valueError
  isVerify := fun _ => true
  parse := fun s => .ok ⟨0, if s = "" then [] else [[s.length]]⟩
  sigAlg := fun p _ _ => .ok ⟨[4, p], none⟩
  sign := fun p _ _ d => .ok (UInt8.ofNat p :: d)
  damage := fun _ d => 255 :: d
  encInfo := fun i => (i.spki.bits ++ i.attrs.flatMap (·.value)) ++ [UInt8.ofNat i.subject.rdns.length]
  encExts := fun l => l.flatMap (fun x => UInt8.ofNat x.2.length :: x.2)
  decExts := fun d => .ok [([2, 5, 29, 17], d.drop 1)]
  san := fun s => .ok ([2, 5, 29, 17], [UInt8.ofNat s.length])
  verify := fun k _ d s => if s = UInt8.ofNat k :: d then .ok () else .error .invalidSignature

theorem exCsr_agree : CsrAgree exCsr 5 := by
  refine ⟨fun pss h s hs => ?_, rfl, fun h pss d g s hg hs => ?_, fun h pss d g s hg hs => ?_⟩
  · cases h <;> cases hs <;> rfl
  · cases hs; exact if_pos rfl
  · cases hs
    have : (255 : UInt8) ≠ UInt8.ofNat 5 := by decide
    exact if_neg (c := 255 :: UInt8.ofNat 5 :: d = UInt8.ofNat 5 :: d) (t := .ok ())
      (fun hc => this (List.cons.inj hc).1)

example : (buildCsr exCsr { key := 5, san := some "abc" }).toOption =
    some (⟨⟨0, ⟨0, [[18]]⟩, ⟨⟨[1, 5], some [7]⟩, [5]⟩, [⟨extReq, [1, 3]⟩]⟩, some ⟨[4, 5], none⟩,
      some [5, 5, 1, 3, 1]⟩, none) := by decide +kernel

example : ((buildCsr exCsr { key := 5, san := some "abc" }).toOption.map (fun c => csrVerify exCsr c.1)) =
    some (.ok ()) := by decide +kernel

example : ((buildCsr exCsr { key := 5, bad := true }).toOption.map (fun c => csrVerify exCsr c.1)) =
    some (.error .badPOP) := by decide +kernel

example : ((buildCsr exCsr { key := 5, spki := some ⟨⟨[1, 6], none⟩, [6]⟩ }).toOption.map
    (fun c => csrVerify exCsr c.1)) = some (.error .badPOP) := by decide +kernel

example : (buildCsr exCsr { key := 5, forKga := true }).toOption.map (fun c => (c.1.info.spki.bits, c.1.sig)) =
    some ([], some []) := by decide +kernel

example : buildP10 exCsr { key := 12 } = .error .valueError ∧
    (buildP10 exCsr { key := 12, hash := none }).toOption.map (csrVerify exCsr) = some (.ok ()) ∧
    (buildP10 exCsr { key := 12, hash := some "sha512" }).toOption.map (·.info.spki.alg.oid) = some [5, 12] := by
  decide +kernel

example : (buildP10 exCsr { key := 5 }).toOption.bind (fun c => (processP10 exP10 (toP10 exCsr c)).toOption.map (·.key)) =
    some 5 := by decide +kernel

example : (prepSpki exCsr { key := some (.inl 21), forKga := true }).toOption.map (·.bits) = some [21] ∧
    (prepSpki exCsr { key := some (.inl 5), forKga := true }).toOption = some ⟨⟨[1, 5], none⟩, []⟩ ∧
    (prepSpki exCsr { key := some (.inl 5), addNull := true }).toOption = some ⟨⟨[1, 5], some [7]⟩, [5]⟩ := by
  decide +kernel

example : (compareCsr exCsr ⟨⟨0, ⟨0, [[1]]⟩, ⟨⟨[1, 5], none⟩, [5]⟩, []⟩, none, none⟩ ⟨0, [[1], [2]]⟩
    ⟨⟨[1, 5], none⟩, [5]⟩ [([2], [])] false).toOption = some true ∧
    (compareCsr exCsr ⟨⟨0, ⟨0, [[1]]⟩, ⟨⟨[1, 5], none⟩, [5]⟩, [⟨extReq, [0]⟩]⟩, none, none⟩ ⟨0, [[1]]⟩
    ⟨⟨[1, 5], none⟩, [5]⟩ [([2], [])] false).toOption = some false := by decide +kernel

end Verif.Ra
