import Verif.Hybrid.CatalystIssue
import Verif.Hybrid.CatalystProps
import Mathlib.Data.List.Forall2

/-!
# Properties of the issuing of catalyst certificates (C128, C129)
-/

namespace Verif.Hybrid

open Verif.CA

variable {S K : Type}

/-- A signature of `k` over the request as sent. -/
def SignedFull (env : PopEnv S K) (m : CatMsg) (k : K) : Prop :=
  ∃ a s, m.popo = .sig a s ∧ env.verifyAlg k a (env.encReq m.req) s = .ok ()

/-- A signature of `k`, in the `altSignatureValue` extension of the request, over the rest of the request. -/
def SignedAlt (env : PopEnv S K) (m : CatMsg) (k : K) : Prop :=
  ∃ e ∈ m.req.exts, ∃ s r a, e.oid = [2, 5, 29, 74] ∧ env.decBits e.value = some (s, r) ∧
    env.verifyAlg k a (env.encReq { m.req with
      exts := m.req.exts.filter (fun x => decide (x.oid ≠ [2, 5, 29, 74])) }) s = .ok ()

/-- A composite signature of the two keys over the request as sent. -/
def SignedComposite (env : PopEnv S K) (m : CatMsg) (k k' : K) : Prop :=
  ∃ a s, m.popo = .sig a s ∧ (env.compVerify k k' a (env.encReq m.req) s = .ok () ∨
    env.compVerify k' k a (env.encReq m.req) s = .ok ())

/-! ## C128: the proof of possession -/

theorem asAlt_ok (x : Except PyErr Unit) (h : asAlt x = .ok ()) : x = .ok () := by
  unfold asAlt at h
  split at h
  · cases h
  · exact h

theorem verifyAltPop_ok (env : PopEnv S K) (k : K) (m : CatMsg) (a s : Ext) (hs : getExt m.req.exts altSigOid = some s)
    (h : (verifyAltPop env k m a s).1 = .ok ()) : SignedAlt env m k := by
  unfold verifyAltPop at h
  cases h1 : env.decAlg a.value with
  | none => rw [h1] at h; cases h
  | some p =>
    rw [h1] at h; dsimp only at h
    cases h2 : env.decBits s.value with
    | none => rw [h2] at h; cases h
    | some q =>
      rw [h2] at h; dsimp only at h
      obtain ⟨x, y, hx, ho, -⟩ := getExt_some_split _ _ _ hs
      exact ⟨s, by rw [hx]; simp, q.1, q.2, p.1, ho, h2, asAlt_ok _ h⟩

/-- What an accepted proof of possession has shown about the two keys of the request. -/
theorem C128_pop_sound (env : PopEnv S K) (m : CatMsg) (h : (verifyPop env m).1 = .ok ()) :
    ∃ first alt, env.loadKey m.req.spki = .ok first ∧ loadCat env.toCatEnv m.req.exts = .ok alt ∧
      (SignedComposite env m first alt ∨
       (m.popo = .keyEnc ∧ (env.isPqSig alt = true ∨ env.isTradVerify alt = true) ∧ SignedAlt env m alt) ∨
       (SignedFull env m first ∧ (env.isKem alt = true ∨ SignedAlt env m alt))) := by
  unfold verifyPop at h
  cases h1 : loadCat env.toCatEnv m.req.exts with
  | error e => rw [h1] at h; cases h
  | ok alt =>
    rw [h1] at h; dsimp only at h
    cases h2 : env.loadKey m.req.spki with
    | error e => rw [h2] at h; cases h
    | ok first =>
      rw [h2] at h; dsimp only at h
      refine ⟨first, alt, rfl, rfl, ?_⟩
      cases hp : m.popo with
      | keyEnc =>
        rw [hp] at h; dsimp only at h
        refine Or.inr (Or.inl ⟨rfl, ?_⟩)
        unfold popKeyEnc at h
        cases h3 : getExt m.req.exts altSigOid with
        | none => rw [h3] at h; cases h
        | some s =>
          rw [h3] at h; dsimp only at h
          unfold ensureSingle at h
          by_cases hs : env.isPqSig alt = true ∨ env.isTradVerify alt = true
          · rw [if_pos hs] at h; dsimp only at h
            cases h4 : getExt m.req.exts altAlgOid with
            | none => rw [h4] at h; cases h
            | some a =>
              rw [h4] at h; dsimp only at h
              exact ⟨hs, verifyAltPop_ok env _ _ _ _ h3 h⟩
          · rw [if_neg hs] at h; cases h
      | other => rw [hp] at h; cases h
      | sig a s =>
        rw [hp] at h; dsimp only at h
        by_cases hc : env.isCompositeOid a.oid = true
        · rw [if_pos hc] at h
          refine Or.inl ⟨a, s, hp, ?_⟩
          have h : verifyComposite env a (env.encReq m.req) s first alt = .ok () := h
          unfold verifyComposite at h
          by_cases hq : env.isPqSig first = true
          · simp only [if_pos hq] at h
            by_cases i1 : env.isMlDsa first = false
            · rw [if_pos i1] at h; cases h
            · by_cases i2 : env.isEcRsa alt = false
              · rw [if_neg i1, if_pos i2] at h; cases h
              · rw [if_neg i1, if_neg i2, if_neg (by rw [hc]; decide)] at h
                exact Or.inl h
          · simp only [if_neg hq] at h
            by_cases i1 : env.isMlDsa alt = false
            · rw [if_pos i1] at h; cases h
            · by_cases i2 : env.isEcRsa first = false
              · rw [if_neg i1, if_pos i2] at h; cases h
              · rw [if_neg i1, if_neg i2, if_neg (by rw [hc]; decide)] at h
                exact Or.inr h
        · rw [if_neg hc] at h
          refine Or.inr (Or.inr ?_)
          by_cases hk : env.isKem alt = true
          · rw [if_pos hk] at h
            unfold popFirst ensureVerify at h
            by_cases hv : env.isVerifyKey first = true
            · rw [if_pos hv] at h
              exact ⟨⟨a, s, hp, h⟩, Or.inl hk⟩
            · rw [if_neg hv] at h; cases h
          · rw [if_neg hk] at h
            unfold popBoth ensureVerify at h
            by_cases hv : env.isVerifyKey first = true
            · rw [if_pos hv] at h; dsimp only at h
              cases h3 : env.verifyAlg first a (env.encReq m.req) s with
              | error e => rw [h3] at h; cases h
              | ok u =>
                rw [h3] at h; dsimp only at h
                cases h4 : getExt m.req.exts altSigOid with
                | none => rw [h4] at h; cases h
                | some x =>
                  cases h5 : getExt m.req.exts altAlgOid with
                  | none => rw [h4, h5] at h; cases h
                  | some y =>
                    rw [h4, h5] at h; dsimp only at h
                    exact ⟨⟨a, s, hp, h3⟩, Or.inr (verifyAltPop_ok env _ _ _ _ h4 h)⟩
            · rw [if_neg hv] at h; cases h

/-- The check changes nothing but the alternative signature of the request. -/
theorem verifyPop_state (env : PopEnv S K) (m : CatMsg) :
    (verifyPop env m).2 = m ∨ (verifyPop env m).2 = stripAltSig m := by
  have hva : ∀ k a s, (verifyAltPop env k m a s).2 = stripAltSig m := by
    intro k a s
    unfold verifyAltPop
    split
    · rfl
    · split <;> rfl
  unfold verifyPop
  split
  · exact Or.inl rfl
  · split
    · exact Or.inl rfl
    · split
      · unfold popKeyEnc
        split
        · exact Or.inl rfl
        · split
          · exact Or.inl rfl
          · split
            · exact Or.inl rfl
            · exact Or.inr (hva _ _ _)
      · exact Or.inl rfl
      · split
        · exact Or.inl rfl
        · split
          · unfold popFirst
            split <;> exact Or.inl rfl
          · unfold popBoth
            split
            · exact Or.inl rfl
            · split
              · exact Or.inl rfl
              · split
                · exact Or.inr (hva _ _ _)
                · exact Or.inl rfl

theorem verifyPop_keeps (env : PopEnv S K) (m : CatMsg) :
    (verifyPop env m).2.popo = m.popo ∧ (verifyPop env m).2.req.spki = m.req.spki ∧
      (verifyPop env m).2.req.subject = m.req.subject := by
  rcases verifyPop_state env m with h | h <;> rw [h] <;> exact ⟨rfl, rfl, rfl⟩

/-! ## C128: issuing -/

theorem popErr_ok (x : Except PyErr Unit) (h : popErr x = .ok ()) : x = .ok () := by
  unfold popErr at h
  split at h
  · cases h
  · cases h
  · exact h

/-- The certificate of a result. -/
def CatOut.cert : CatOut K → Cert
  | .plain c => c
  | .enc c _ => c

theorem catIssue_ok (env : PopEnv S K) (ca : S) (caName : Bytes) (extra : List Ext) (hash : Option String)
    (pss : Bool) (body : ReqBody) (msgs : List CatMsg) (idx : Nat) (out : CatOut K)
    (h : catIssue env ca caName extra hash pss body msgs idx = .ok out) :
    ∃ m alt c, msgs[idx]? = some m ∧ loadCat env.toCatEnv m.req.exts = .ok alt ∧ (verifyPop env m).1 = .ok () ∧
      catCert env ca caName extra hash pss (verifyPop env m).2.req alt = .ok c ∧
      catRespond env body idx (verifyPop env m).2 alt c = .ok out := by
  unfold catIssue at h
  by_cases hb : body = .p10cr
  · rw [if_pos hb] at h; cases h
  · rw [if_neg hb] at h
    cases h1 : msgs[idx]? with
    | none => rw [h1] at h; cases h
    | some m =>
      rw [h1] at h; dsimp only at h
      by_cases hc : env.isCompositeSpki m.req.spki = true
      · rw [if_pos hc] at h; cases h
      · rw [if_neg hc] at h
        cases h2 : loadCat env.toCatEnv m.req.exts with
        | error e => rw [h2] at h; cases h
        | ok alt =>
          rw [h2] at h; dsimp only at h
          cases h3 : popErr (verifyPop env m).1 with
          | error e => rw [h3] at h; cases h
          | ok u =>
            rw [h3] at h; dsimp only at h
            cases h4 : catCert env ca caName extra hash pss (verifyPop env m).2.req alt with
            | error e => rw [h4] at h; cases h
            | ok c =>
              rw [h4] at h
              exact ⟨m, alt, c, rfl, h2, popErr_ok _ h3, h4, h⟩

theorem catCert_ok (env : PopEnv S K) (ca : S) (caName : Bytes) (extra : List Ext) (hash : Option String)
    (pss : Bool) (r : CatReq) (alt : K) (c : Cert) (h : catCert env ca caName extra hash pss r alt = .ok c) :
    ∃ k, env.loadKey r.spki = .ok k ∧ c.tbs.spki = r.spki ∧ c.tbs.subject = r.subject ∧ c.tbs.issuer = caName ∧
      c.tbs.exts = env.stdExts k ++ extra ++ [altSpkiExt env.toCatEnv alt false] ∧
      env.sign ca hash pss (env.encTbs c.tbs) = .ok c.sig := by
  unfold catCert at h
  cases h1 : env.prepAlg ca hash pss with
  | error e => rw [h1] at h; cases h
  | ok a =>
    rw [h1] at h; dsimp only at h
    unfold catTbs at h
    cases h2 : env.loadKey r.spki with
    | error e => rw [h2] at h; cases h
    | ok k =>
      rw [h2] at h; dsimp only at h
      unfold catSignCert at h
      rw [h1] at h; dsimp only at h
      split at h
      · cases h
      · rename_i sg h3
        cases h
        exact ⟨k, rfl, rfl, rfl, rfl, rfl, h3⟩

/-- A catalyst certificate is issued only after possession of both keys was shown. In the clear: both keys signed the
request. Encrypted: it is encrypted for one key, a KEM key of the request, and the other key signed the request. -/
theorem C128_issue_sound (env : PopEnv S K)
    (hkem : ∀ k, env.isKem k = true → env.isPqSig k = false ∧ env.isTradVerify k = false) (ca : S) (caName : Bytes)
    (extra : List Ext) (hash : Option String) (pss : Bool) (body : ReqBody) (msgs : List CatMsg) (idx : Nat)
    (out : CatOut K) (h : catIssue env ca caName extra hash pss body msgs idx = .ok out) :
    ∃ m first alt, msgs[idx]? = some m ∧ env.loadKey m.req.spki = .ok first ∧
      loadCat env.toCatEnv m.req.exts = .ok alt ∧
      (∀ c, out = .plain c → SignedComposite env m first alt ∨ (SignedFull env m first ∧ SignedAlt env m alt)) ∧
      (∀ c k, out = .enc c k → env.isKem k = true ∧
        ((k = first ∧ SignedAlt env m alt) ∨
         (k = alt ∧ (SignedFull env m first ∨ SignedComposite env m first alt)))) := by
  obtain ⟨m, alt, c, h1, h2, h3, h4, h5⟩ := catIssue_ok env _ _ _ _ _ _ _ _ _ h
  obtain ⟨first, alt', k1, k2, hd⟩ := C128_pop_sound env m h3
  have : alt' = alt := by rw [k2] at h2; exact Except.ok.inj h2
  subst this
  obtain ⟨hp, hsp, -⟩ := verifyPop_keeps env m
  obtain ⟨fk, hf1, hf2, -⟩ := catCert_ok env _ _ _ _ _ _ _ _ h4
  rw [hsp] at hf1 hf2
  have hfirst : fk = first := by rw [k1] at hf1; exact (Except.ok.inj hf1).symm
  refine ⟨m, first, alt', h1, k1, k2, ?_, ?_⟩
  · rintro c' rfl
    unfold catRespond at h5
    rw [hp] at h5
    by_cases hx : m.popo = .keyEnc ∨ env.isKem alt' = true
    · rw [if_pos hx] at h5
      by_cases hb : body ≠ .ir
      · rw [if_pos hb] at h5; cases h5
      · rw [if_neg hb] at h5
        unfold encrCert at h5
        split at h5
        · split at h5
          · cases h5
          · split at h5 <;> cases h5
        · cases h5
    · rcases hd with hd | ⟨hd, -⟩ | ⟨hd, hd' | hd'⟩
      · exact Or.inl hd
      · exact absurd (Or.inl hd) hx
      · exact absurd (Or.inr hd') hx
      · exact Or.inr ⟨hd, hd'⟩
  · rintro c' k rfl
    unfold catRespond at h5
    rw [hp] at h5
    by_cases hx : m.popo = .keyEnc ∨ env.isKem alt' = true
    · rw [if_pos hx] at h5
      by_cases hb : body ≠ .ir
      · rw [if_pos hb] at h5; cases h5
      · rw [if_neg hb] at h5
        unfold encrCert at h5
        split at h5
        · rename_i hpo
          by_cases hka : env.isKem alt' = true
          · simp only [if_pos hka] at h5
            cases h5
            refine ⟨hka, Or.inr ⟨rfl, ?_⟩⟩
            rcases hd with hd | ⟨-, hd | hd, -⟩ | ⟨hd, -⟩
            · exact Or.inr hd
            · rw [(hkem alt' hka).1] at hd; cases hd
            · rw [(hkem alt' hka).2] at hd; cases hd
            · exact Or.inl hd
          · simp only [if_neg hka] at h5
            rw [hf2, k1] at h5
            dsimp only at h5
            by_cases hkf : env.isKem first = true
            · rw [if_pos hkf] at h5
              cases h5
              refine ⟨hkf, Or.inl ⟨rfl, ?_⟩⟩
              have hke : m.popo = .keyEnc := hx.resolve_right hka
              rcases hd with ⟨a, s, hd, -⟩ | ⟨-, -, hd⟩ | ⟨⟨a, s, hd, -⟩, -⟩
              · rw [hke] at hd; cases hd
              · exact hd
              · rw [hke] at hd; cases hd
            · rw [if_neg hkf] at h5; cases h5
        · cases h5
    · rw [if_neg hx] at h5; cases h5

/-- The certificate is for the two keys of the request and its subject, and the CA signed it. -/
theorem C128_cert_keys (env : PopEnv S K) (hf : Faithful env.toCatEnv) (ca : S) (caName : Bytes) (extra : List Ext)
    (hash : Option String) (pss : Bool) (body : ReqBody) (msgs : List CatMsg) (idx : Nat) (out : CatOut K)
    (h : catIssue env ca caName extra hash pss body msgs idx = .ok out)
    (hstd : ∀ k, ∀ e ∈ env.stdExts k, e.oid ≠ [2, 5, 29, 72]) (hextra : ∀ e ∈ extra, e.oid ≠ [2, 5, 29, 72]) :
    ∃ m, msgs[idx]? = some m ∧ out.cert.tbs.spki = m.req.spki ∧ out.cert.tbs.subject = m.req.subject ∧
      out.cert.tbs.issuer = caName ∧
      loadCat env.toCatEnv out.cert.tbs.exts = loadCat env.toCatEnv m.req.exts ∧
      (∃ a, env.verifyAlg (env.pub ca) a (env.encTbs out.cert.tbs) out.cert.sig = .ok ()) := by
  obtain ⟨m, alt, c, h1, h2, h3, h4, h5⟩ := catIssue_ok env _ _ _ _ _ _ _ _ _ h
  obtain ⟨-, hsp, hsu⟩ := verifyPop_keeps env m
  have hc : out.cert = c := by
    unfold catRespond at h5
    split at h5
    · split at h5
      · cases h5
      · unfold encrCert at h5
        split at h5
        · split at h5
          · cases h5
          · split at h5
            · cases h5; rfl
            · cases h5
        · cases h5
    · cases h5; rfl
  obtain ⟨k, -, c1, c2, c3, c4, c5⟩ := catCert_ok env _ _ _ _ _ _ _ _ h4
  rw [hc]
  refine ⟨m, h1, c1.trans hsp, c2.trans hsu, c3, ?_, ?_⟩
  · rw [h2]
    have hg : getExt c.tbs.exts altSpkiOid = some (altSpkiExt env.toCatEnv alt false) := by
      rw [c4]
      refine getExt_split _ _ (altSpkiExt env.toCatEnv alt false) ?_
      intro x hx
      rcases List.mem_append.1 hx with hx | hx
      · exact hstd k x hx
      · exact hextra x hx
    obtain ⟨b, hb1, hb2⟩ := hf.spki alt
    unfold loadCat
    rw [hg]
    simp only [altSpkiExt]
    rw [hb1]; dsimp only
    rw [if_neg (by simp)]
    exact hb2
  · unfold catCert at h4
    cases ha : env.prepAlg ca hash pss with
    | error e => rw [ha] at h4; cases h4
    | ok a => exact ⟨a, hf.algSig _ _ _ _ _ _ ha c5⟩

/-! ## C128: requests -/

/-- What the further parameters do: a signature with an algorithm identifier verifies, composite algorithms and keys
are recognised, and the classes of public keys are those of the private keys. -/
structure PopFaithful (env : PopEnv S K) : Prop where
  base : Faithful env.toCatEnv
  sig : ∀ s h p a d x, env.prepAlg s h p = .ok a → env.signAlg s a d = .ok x →
    env.verifyAlg (env.pub s) a d x = .ok () ∧ env.isCompositeOid a.oid = false
  comp : ∀ p t h q a d x, env.compAlg p t h q = .ok a → env.compSign p t a d = .ok x →
    env.compVerify (env.pub p) (env.pub t) a d x = .ok () ∧ env.isCompositeOid a.oid = true ∧
    env.isMlDsa (env.pub p) = true ∧ env.isEcRsa (env.pub t) = true ∧ env.isPqSig (env.pub t) = false
  pq : ∀ s, env.isPqSig (env.pub s) = env.isPqSign s
  trad : ∀ s, env.isTradVerify (env.pub s) = env.isTradSign s
  kem : ∀ s, env.isKem (env.pub s) = env.isKemPriv s
  kemNot : ∀ s, env.isKemPriv s = true → env.isPqSign s = false ∧ env.isTradSign s = false

theorem secondPop_ok (env : PopEnv S K) (alt : S) (r r' : CatReq) (hash : Option String) (pss : Bool)
    (h : secondPop env alt r hash pss false = .ok r') :
    ∃ a s, env.prepAlg alt hash pss = .ok a ∧
      env.signAlg alt a (env.encReq { r with exts := r.exts ++
        [altAlgExt env.toCatEnv a false, altSpkiExt env.toCatEnv (env.pub alt) false] }) = .ok s ∧
      r' = { r with exts := r.exts ++ [altAlgExt env.toCatEnv a false, altSpkiExt env.toCatEnv (env.pub alt) false,
        altSigExt env.toCatEnv s false] } := by
  unfold secondPop at h
  cases h1 : env.prepAlg alt hash pss with
  | error e => rw [h1] at h; cases h
  | ok a =>
    rw [h1] at h; dsimp only at h
    cases h2 : env.signAlg alt a (env.encReq { r with exts := r.exts ++
        [altAlgExt env.toCatEnv a false, altSpkiExt env.toCatEnv (env.pub alt) false] }) with
    | error e => rw [h2] at h; cases h
    | ok s =>
      rw [h2] at h
      have h : (Except.ok _ : Except PyErr CatReq) = .ok r' := h
      cases h
      refine ⟨a, s, rfl, h2, ?_⟩
      simp

theorem loadCat_of_getExt (env : CatEnv S K) (hf : Faithful env) (l : List Ext) (k : K) (crit : Bool)
    (hg : getExt l altSpkiOid = some (altSpkiExt env k crit)) : loadCat env l = .ok k := by
  obtain ⟨b, hb1, hb2⟩ := hf.spki k
  unfold loadCat
  rw [hg]
  simp only [altSpkiExt]
  rw [hb1]; dsimp only
  rw [if_neg (by simp)]
  exact hb2

/-- The check of the alternative signature accepts what `_compute_second_pop_catalyst` wrote. -/
theorem verifyAltPop_second (env : PopEnv S K) (hf : PopFaithful env) (alt : S) (r r' : CatReq) (hash : Option String)
    (pss : Bool) (p : Popo) (hr : r.exts = []) (h : secondPop env alt r hash pss false = .ok r') :
    loadCat env.toCatEnv r'.exts = .ok (env.pub alt) ∧
    ∃ a s, getExt r'.exts altAlgOid = some a ∧ getExt r'.exts altSigOid = some s ∧
      (verifyAltPop env (env.pub alt) ⟨r', p⟩ a s).1 = .ok () := by
  obtain ⟨a, s, h1, h2, rfl⟩ := secondPop_ok env alt r r' hash pss h
  rw [hr] at h2
  simp only [hr, List.nil_append] at h2 ⊢
  constructor
  · refine loadCat_of_getExt _ hf.base _ _ false ?_
    exact getExt_split [altAlgExt env.toCatEnv a false] _ _ (by
      intro x hx
      rw [List.mem_singleton.1 hx]
      exact (by decide : altAlgOid ≠ altSpkiOid))
  · refine ⟨altAlgExt env.toCatEnv a false, altSigExt env.toCatEnv s false,
      getExt_split [] _ (altAlgExt env.toCatEnv a false) (by simp), ?_, ?_⟩
    · exact getExt_split [altAlgExt env.toCatEnv a false, altSpkiExt env.toCatEnv (env.pub alt) false] []
        (altSigExt env.toCatEnv s false) (by
        intro x hx
        rcases List.mem_cons.1 hx with rfl | hx
        · exact (by decide : altAlgOid ≠ altSigOid)
        · rw [List.mem_singleton.1 hx]
          exact (by decide : altSpkiOid ≠ altSigOid))
    · unfold verifyAltPop
      simp only [altAlgExt, altSigExt]
      rw [hf.base.alg _ _ _ _ h1, hf.base.bits]
      dsimp only
      have : stripAltSig (⟨{ r with exts := [⟨altAlgOid, false, env.encAlg a⟩,
          altSpkiExt env.toCatEnv (env.pub alt) false, ⟨altSigOid, false, env.encBits s⟩] }, p⟩ : CatMsg) =
          ⟨{ r with exts := [⟨altAlgOid, false, env.encAlg a⟩, altSpkiExt env.toCatEnv (env.pub alt) false] }, p⟩ := by
        unfold stripAltSig
        simp [altSpkiExt, altAlgOid, altSigOid, altSpkiOid]
      rw [this]
      have hv := (hf.sig _ _ _ _ _ _ h1 h2).1
      unfold altAlgExt at hv
      rw [hv]
      rfl

/-- A request made with any supported pair of keys, without a wrong proof being asked for, is accepted. -/
theorem C128_request_accepted (env : PopEnv S K) (hf : PopFaithful env) (first alt : S) (r : CatReq)
    (hash : Option String) (pss composite : Bool) (m : CatMsg) (hr : r.exts = [])
    (hk : env.loadKey r.spki = .ok (env.pub first))
    (h : catRequest env first alt r hash pss composite false false = .ok m) : (verifyPop env m).1 = .ok () := by
  unfold catRequest at h
  by_cases hc : composite = true
  · rw [if_pos hc] at h
    unfold reqComposite at h
    dsimp only at h
    cases h1 : env.compAlg (if env.isPqSign first = true then first else alt)
        (if env.isPqSign first = true then alt else first) hash pss with
    | error e => rw [h1] at h; cases h
    | ok a =>
      rw [h1] at h; dsimp only at h
      cases h2 : env.compSign (if env.isPqSign first = true then first else alt)
        (if env.isPqSign first = true then alt else first) a
        (env.encReq { r with exts := r.exts ++ [altSpkiExt env.toCatEnv (env.pub alt) false] }) with
      | error e => rw [h2] at h; cases h
      | ok s =>
        rw [h2] at h
        have h : (Except.ok (⟨_, _⟩ : CatMsg) : Except PyErr CatMsg) = .ok m := h
        cases h
        obtain ⟨c1, c2, c3, c4, c5⟩ := hf.comp _ _ _ _ _ _ _ h1 h2
        have hl : loadCat env.toCatEnv (r.exts ++ [altSpkiExt env.toCatEnv (env.pub alt) false]) =
            .ok (env.pub alt) := by
          refine loadCat_of_getExt _ hf.base _ _ false ?_
          rw [hr]
          exact getExt_split [] _ (altSpkiExt env.toCatEnv (env.pub alt) false) (by simp)
        unfold verifyPop
        dsimp only
        rw [hl, hk]
        dsimp only
        rw [if_pos c2]
        show verifyComposite env a _ s (env.pub first) (env.pub alt) = .ok ()
        unfold verifyComposite
        by_cases hq : env.isPqSign first = true
        · simp only [if_pos hq] at c1 c3 c4 c5
          have hq' : env.isPqSig (env.pub first) = true := by rw [hf.pq]; exact hq
          simp only [if_pos hq']
          rw [if_neg (by rw [c3]; decide), if_neg (by rw [c4]; decide), if_neg (by rw [c2]; decide)]
          exact c1
        · simp only [if_neg hq] at c1 c3 c4 c5
          have hq' : ¬ env.isPqSig (env.pub first) = true := by rw [hf.pq]; exact hq
          simp only [if_neg hq']
          rw [if_neg (by rw [c3]; decide), if_neg (by rw [c4]; decide), if_neg (by rw [c2]; decide)]
          exact c1
  · rw [if_neg hc] at h
    by_cases h1 : env.isKemPriv first = true ∧ env.isTradSign alt = true
    · rw [if_pos h1] at h
      cases h2 : secondPop env alt r hash pss false with
      | error e => rw [h2] at h; cases h
      | ok r' =>
        rw [h2] at h
        have h : (Except.ok (⟨_, _⟩ : CatMsg) : Except PyErr CatMsg) = .ok m := h
        cases h
        obtain ⟨e1, a, s, e2, e3, e4⟩ := verifyAltPop_second env hf alt r r' hash pss .keyEnc hr h2
        obtain ⟨_, _, _, _, hr'⟩ := secondPop_ok env alt r r' hash pss h2
        have hsp : r'.spki = r.spki := by rw [hr']
        unfold verifyPop
        dsimp only
        rw [e1, hsp, hk]
        dsimp only
        unfold popKeyEnc
        dsimp only
        rw [e3]
        dsimp only
        unfold ensureSingle
        rw [if_pos (Or.inr (by rw [hf.trad]; exact h1.2))]
        dsimp only
        rw [e2]
        exact e4
    · rw [if_neg h1] at h
      by_cases h2 : (env.isPqSign alt = true ∨ env.isTradSign alt = true) ∧
          (env.isPqSign first = true ∨ env.isTradSign first = true)
      · rw [if_pos h2] at h
        unfold reqBothSign at h
        cases h3 : secondPop env alt r hash pss false with
        | error e => rw [h3] at h; cases h
        | ok r' =>
          rw [h3] at h; dsimp only at h
          cases h4 : env.prepAlg first hash pss with
          | error e => rw [h4] at h; cases h
          | ok a =>
            rw [h4] at h; dsimp only at h
            cases h5 : env.signAlg first a (env.encReq r') with
            | error e => rw [h5] at h; cases h
            | ok s =>
              rw [h5] at h
              have h : (Except.ok (⟨_, _⟩ : CatMsg) : Except PyErr CatMsg) = .ok m := h
              cases h
              obtain ⟨v1, v2⟩ := hf.sig _ _ _ _ _ _ h4 h5
              obtain ⟨e1, x, y, e2, e3, e4⟩ := verifyAltPop_second env hf alt r r' hash pss (.sig a s) hr h3
              obtain ⟨_, _, _, _, hr'⟩ := secondPop_ok env alt r r' hash pss h3
              have hsp : r'.spki = r.spki := by rw [hr']
              have hak : ¬ env.isKem (env.pub alt) = true := by
                rw [hf.kem]
                intro hkk
                obtain ⟨n1, n2⟩ := hf.kemNot alt hkk
                rcases h2.1 with hx | hx
                · rw [n1] at hx; cases hx
                · rw [n2] at hx; cases hx
              unfold verifyPop
              dsimp only
              rw [e1, hsp, hk]
              dsimp only
              rw [if_neg (by rw [v2]; decide), if_neg hak]
              unfold popBoth ensureVerify
              rw [if_pos (hf.base.verifier _ _ _ _ h4)]
              dsimp only
              rw [v1]
              dsimp only
              rw [e2, e3]
              exact e4
      · rw [if_neg h2] at h
        by_cases h3 : env.isKemPriv alt = true ∧ env.isTradSign first = true
        · rw [if_pos h3] at h
          unfold reqAltKem at h
          dsimp only at h
          cases h4 : env.prepAlg first hash pss with
          | error e => rw [h4] at h; cases h
          | ok a =>
            rw [h4] at h; dsimp only at h
            cases h5 : env.signAlg first a
                (env.encReq { r with exts := r.exts ++ [altSpkiExt env.toCatEnv (env.pub alt) false] }) with
            | error e => rw [h5] at h; cases h
            | ok s =>
              rw [h5] at h
              have h : (Except.ok (⟨_, _⟩ : CatMsg) : Except PyErr CatMsg) = .ok m := h
              cases h
              obtain ⟨v1, v2⟩ := hf.sig _ _ _ _ _ _ h4 h5
              have hl : loadCat env.toCatEnv (r.exts ++ [altSpkiExt env.toCatEnv (env.pub alt) false]) =
                  .ok (env.pub alt) := by
                refine loadCat_of_getExt _ hf.base _ _ false ?_
                rw [hr]
                exact getExt_split [] _ (altSpkiExt env.toCatEnv (env.pub alt) false) (by simp)
              have hak : env.isKem (env.pub alt) = true := by rw [hf.kem]; exact h3.1
              unfold verifyPop
              dsimp only
              rw [hl, hk]
              dsimp only
              rw [if_neg (by rw [v2]; decide), if_pos hak]
              unfold popFirst ensureVerify
              rw [if_pos (hf.base.verifier _ _ _ _ h4)]
              exact v1
        · rw [if_neg h3] at h; cases h

/-! ## A toy instance -/

/-- Keys below 50 are traditional, those below 100 are ML-DSA keys, the others are KEM keys. Signatures are the key
(or the two keys) before the data. -/
def toyPop : PopEnv UInt8 UInt8 where
  toCatEnv := { toyCat with
    isVerifyKey := fun k => decide (k < 100)
    prepAlg := fun s _ _ => if s < 100 then .ok ⟨[1], none⟩ else .error .valueError }
  encReq r := r.spki ++ r.exts.flatMap (fun e => e.value)
  signAlg s _ d := .ok (s :: d)
  compVerify p t _ d sig := if sig = p :: t :: d then .ok () else .error .invalidSignature
  compSign p t _ d := .ok (p :: t :: d)
  compAlg p t _ _ := if 50 ≤ p ∧ p < 100 ∧ t < 50 then .ok ⟨[9], none⟩ else .error .invalidKeyCombination
  isCompositeOid o := decide (o = [9])
  isCompositeSpki _ := false
  isKem k := decide (100 ≤ k)
  isPqSig k := decide (50 ≤ k ∧ k < 100)
  isMlDsa k := decide (50 ≤ k ∧ k < 100)
  isTradVerify k := decide (k < 50)
  isEcRsa k := decide (k < 50)
  isKemPriv k := decide (100 ≤ k)
  isTradSign k := decide (k < 50)
  isPqSign k := decide (50 ≤ k ∧ k < 100)
  genKey _ := .ok 77
  defaultKey := 65
  preHashOf _ := none
  stdExts _ := [⟨skiOid, false, [8]⟩]
  tbsOther := []
  serial := 12
  validity _ := ⟨[1], [2], none⟩

theorem toyPop_faithful : PopFaithful toyPop where
  base := {
    alg := by
      intro s h p a ha
      have ha : (if s < 100 then Except.ok ⟨[1], none⟩ else Except.error .valueError : Except PyErr Alg) = .ok a := ha
      split at ha
      · cases ha; rfl
      · cases ha
    bits := fun _ => rfl
    spki := fun k => ⟨[k], rfl, rfl⟩
    verifier := by
      intro s h p a ha
      have ha : (if s < 100 then Except.ok ⟨[1], none⟩ else Except.error .valueError : Except PyErr Alg) = .ok a := ha
      split at ha
      · rename_i hs; exact decide_eq_true hs
      · cases ha
    hash := by
      intro s h p a d sig _ hs
      cases hs
      exact ⟨none, rfl, if_pos rfl⟩
    algSig := by
      intro s h p a d sig _ hs
      cases hs
      exact if_pos rfl }
  sig := by
    intro s h p a d x ha hx
    have ha : (if s < 100 then Except.ok ⟨[1], none⟩ else Except.error .valueError : Except PyErr Alg) = .ok a := ha
    cases hx
    split at ha
    · cases ha; exact ⟨if_pos rfl, rfl⟩
    · cases ha
  comp := by
    intro p t h q a d x ha hx
    have ha : (if 50 ≤ p ∧ p < 100 ∧ t < 50 then Except.ok ⟨[9], none⟩ else Except.error .invalidKeyCombination :
      Except PyErr Alg) = .ok a := ha
    cases hx
    split at ha
    · rename_i hc
      obtain ⟨c1, c2, c3⟩ := hc
      cases ha
      refine ⟨if_pos rfl, rfl, decide_eq_true ⟨c1, c2⟩, decide_eq_true c3, decide_eq_false ?_⟩
      rintro ⟨c4, -⟩
      exact absurd c3 (UInt8.not_lt.2 c4)
    · cases ha
  pq := fun _ => rfl
  trad := fun _ => rfl
  kem := fun _ => rfl
  kemNot := by
    intro s hs
    have hs : (100 : UInt8) ≤ s := of_decide_eq_true hs
    refine ⟨decide_eq_false ?_, decide_eq_false ?_⟩
    · rintro ⟨-, h2⟩
      exact absurd h2 (UInt8.not_lt.2 hs)
    · intro h2
      exact absurd (UInt8.lt_trans h2 (by decide)) (UInt8.not_lt.2 hs)

/-- A request for key `k`. -/
def toyReq (id : Int) (k : UInt8) : CatReq := ⟨id, [], [51], [k], []⟩

/-- The message of a result, or an unusable one. -/
def okMsg (x : Except PyErr CatMsg) : CatMsg :=
  match x with
  | .ok m => m
  | .error _ => ⟨toyReq 0 0, .other⟩

def toyBoth : CatMsg := okMsg (catRequest toyPop 7 60 (toyReq 0 7) none false false false false)
def toyAltKem : CatMsg := okMsg (catRequest toyPop 7 101 (toyReq 0 7) none false false false false)
def toyFirstKem : CatMsg := okMsg (catRequest toyPop 101 7 (toyReq 0 101) none false false false false)
def toyComp : CatMsg := okMsg (catRequest toyPop 7 60 (toyReq 0 7) none false true false false)

example : (verifyPop toyPop toyBoth).1 = .ok () :=
  C128_request_accepted toyPop toyPop_faithful 7 60 (toyReq 0 7) none false false toyBoth rfl rfl (by decide +kernel)
example : SignedFull toyPop toyBoth 7 ∧ SignedAlt toyPop toyBoth 60 := by
  refine ⟨⟨_, _, rfl, by decide +kernel⟩, ⟨altSigExt toyPop.toCatEnv [60, 7, 7, 60] false, by decide +kernel,
    [60, 7, 7, 60], [], ⟨[1], none⟩, rfl, rfl, by decide +kernel⟩⟩
example : (verifyPop toyPop toyAltKem).1 = .ok () := by decide +kernel
example : (verifyPop toyPop toyFirstKem).1 = .ok () := by decide +kernel
example : (verifyPop toyPop toyComp).1 = .ok () := by decide +kernel
/-- A request whose alternative signature is wrong is refused. -/
example : catIssue toyPop 20 [40] [] none false .ir
    [okMsg (catRequest toyPop 7 60 (toyReq 0 7) none false false false true)] 0 = .error .badAltPOP := by
  decide +kernel

/-- For whom a result is encrypted; `some none` if it is in the clear. -/
def recipientOf (x : Except PyErr (CatOut UInt8)) : Option (Option UInt8) :=
  match x with
  | .ok (.plain _) => some none
  | .ok (.enc _ k) => some (some k)
  | .error _ => none

example : recipientOf (catIssue toyPop 20 [40] [] none false .ir [toyBoth] 0) = some none := by decide +kernel
example : recipientOf (catIssue toyPop 20 [40] [] none false .kur [toyComp] 0) = some none := by decide +kernel
example : recipientOf (catIssue toyPop 20 [40] [] none false .ir [toyFirstKem] 0) = some (some 101) := by
  decide +kernel
example : recipientOf (catIssue toyPop 20 [40] [] none false .ir [toyAltKem] 0) = some (some 101) := by
  decide +kernel

theorem ok_of_isOk {α : Type} (x : Except PyErr α) (h : x.toBool = true) : ∃ a, x = .ok a := by
  cases x with
  | error e => cases h
  | ok a => exact ⟨a, rfl⟩

/-- A request with a KEM key as the alternative key gets its certificate only as the first request of an `ir`: at
another place, or in a `cr`, the same request ends with an exception. -/
theorem C128_kem_everywhere_refuted :
    ¬ ∀ (env : PopEnv UInt8 UInt8) (ca : UInt8) (n : Bytes) (m : CatMsg) (body : ReqBody) (pre : List CatMsg)
        (out : CatOut UInt8), body ≠ .p10cr →
      catIssue env ca n [] none false .ir [m] 0 = .ok out →
      catIssue env ca n [] none false body (pre ++ [m]) pre.length = .ok out := by
  intro h
  obtain ⟨out, ho⟩ := ok_of_isOk (catIssue toyPop 20 [40] [] none false .ir [toyAltKem] 0) (by decide +kernel)
  have h1 := h toyPop 20 [40] toyAltKem .ir [toyBoth] out (by decide) ho
  have h2 : catIssue toyPop 20 [40] [] none false .ir ([toyBoth] ++ [toyAltKem]) [toyBoth].length =
    .error .pyasn1Error := by decide +kernel
  rw [h2] at h1
  cases h1

/-- With signatures of both keys the place and the body do not matter. -/
theorem C128_place_partial (env : PopEnv S K) (ca : S) (n : Bytes) (extra : List Ext) (hash : Option String)
    (pss : Bool) (m : CatMsg) (body : ReqBody) (pre post : List CatMsg) (c : Cert) (hb : body ≠ .p10cr)
    (h : catIssue env ca n extra hash pss .ir [m] 0 = .ok (.plain c)) :
    catIssue env ca n extra hash pss body (pre ++ m :: post) pre.length = .ok (.plain c) := by
  have hget : (pre ++ m :: post)[pre.length]? = some m := by simp
  unfold catIssue at h ⊢
  rw [if_neg hb, hget]
  rw [if_neg (by decide)] at h
  rw [show [m][0]? = some m from rfl] at h
  dsimp only at h ⊢
  by_cases hc : env.isCompositeSpki m.req.spki = true
  · rw [if_pos hc] at h; cases h
  · rw [if_neg hc] at h ⊢
    cases h2 : loadCat env.toCatEnv m.req.exts with
    | error e => rw [h2] at h; cases h
    | ok alt =>
      rw [h2] at h; dsimp only at h ⊢
      cases h3 : popErr (verifyPop env m).1 with
      | error e => rw [h3] at h; cases h
      | ok u =>
        rw [h3] at h; dsimp only at h ⊢
        cases h4 : catCert env ca n extra hash pss (verifyPop env m).2.req alt with
        | error e => rw [h4] at h; cases h
        | ok c' =>
          rw [h4] at h; dsimp only at h ⊢
          unfold catRespond at h ⊢
          by_cases hx : (verifyPop env m).2.popo = .keyEnc ∨ env.isKem alt = true
          · rw [if_pos hx, if_neg (by decide)] at h
            unfold encrCert at h
            split at h
            · split at h
              · cases h
              · split at h <;> cases h
            · cases h
          · rw [if_neg hx] at h ⊢
            exact h

/-! ## C128: a wrong proof on demand -/

/-- `bad_pop` with two signing keys: the signature is changed twice, and if its first byte is 0 or 1 the second change
undoes the first. The request with the wrong proof is then the request with the right one. -/
theorem C128_bad_pop_refuted :
    ¬ ∀ (env : PopEnv UInt8 UInt8) (first alt : UInt8) (r : CatReq) (m m' : CatMsg),
      catRequest env first alt r none false false false false = .ok m →
      catRequest env first alt r none false false true false = .ok m' → m' ≠ m := by
  intro h
  exact h toyPop 1 60 (toyReq 0 1) (okMsg (catRequest toyPop 1 60 (toyReq 0 1) none false false false false))
    (okMsg (catRequest toyPop 1 60 (toyReq 0 1) none false false true false)) (by decide +kernel) (by decide +kernel)
    (by decide +kernel)

theorem manip_twice (s s' s'' : Bytes) (h : catManip true s = .ok s') (h' : catManip true s' = .ok s'') :
    s'' = s ↔ ∃ b l, s = b :: l ∧ (b = 0 ∨ b = 1) := by
  cases s with
  | nil => cases h
  | cons b l =>
    have h : (if b = 0 then Except.ok (1 :: l) else Except.ok (0 :: l) : Except PyErr Bytes) = .ok s' := h
    by_cases hb : b = 0
    · rw [if_pos hb] at h
      cases h
      have h' : (Except.ok (0 :: l) : Except PyErr Bytes) = .ok s'' := h'
      cases h'
      rw [hb]
      exact ⟨fun _ => ⟨0, l, rfl, Or.inl rfl⟩, fun _ => rfl⟩
    · rw [if_neg hb] at h
      cases h
      have h' : (Except.ok (1 :: l) : Except PyErr Bytes) = .ok s'' := h'
      cases h'
      constructor
      · intro hc
        exact ⟨b, l, rfl, Or.inr (List.cons.inj hc).1.symm⟩
      · rintro ⟨b', l', hbl, hb'⟩
        obtain ⟨rfl, rfl⟩ := List.cons.inj hbl
        rcases hb' with rfl | rfl
        · exact absurd rfl hb
        · rfl

/-- For two signing keys, the proof with `bad_pop` is the right one exactly if the signature starts with 0 or 1. -/
theorem C128_bad_pop_partial (env : PopEnv S K) (first alt : S) (r : CatReq) (hash : Option String) (pss badAlt : Bool)
    (m m' : CatMsg) (hk : env.isKemPriv first = false)
    (hs : (env.isPqSign alt = true ∨ env.isTradSign alt = true) ∧
      (env.isPqSign first = true ∨ env.isTradSign first = true))
    (h : catRequest env first alt r hash pss false false badAlt = .ok m)
    (h' : catRequest env first alt r hash pss false true badAlt = .ok m') :
    m'.req = m.req ∧ ∃ a s, m.popo = .sig a s ∧ (m' = m ↔ ∃ b l, s = b :: l ∧ (b = 0 ∨ b = 1)) := by
  have hred : ∀ bad, catRequest env first alt r hash pss false bad badAlt =
      reqBothSign env first alt r hash pss bad badAlt := by
    intro bad
    unfold catRequest
    rw [if_neg (by decide), if_neg (by rw [hk]; simp), if_pos hs]
  rw [hred] at h h'
  unfold reqBothSign at h h'
  cases h3 : secondPop env alt r hash pss badAlt with
  | error e => rw [h3] at h; cases h
  | ok r' =>
    rw [h3] at h h'; dsimp only at h h'
    cases h4 : env.prepAlg first hash pss with
    | error e => rw [h4] at h; cases h
    | ok a =>
      rw [h4] at h h'; dsimp only at h h'
      cases h5 : env.signAlg first a (env.encReq r') with
      | error e => rw [h5] at h; cases h
      | ok s =>
        rw [h5] at h h'
        have h : (Except.ok (⟨_, _⟩ : CatMsg) : Except PyErr CatMsg) = .ok m := h
        cases h
        dsimp only at h'
        cases h6 : catManip true s with
        | error e => rw [h6] at h'; cases h'
        | ok s' =>
          rw [h6] at h'; dsimp only at h'
          unfold sigPopo at h'
          cases h7 : catManip true s' with
          | error e => rw [h7] at h'; cases h'
          | ok s'' =>
            rw [h7] at h'
            have h' : (Except.ok (⟨_, _⟩ : CatMsg) : Except PyErr CatMsg) = .ok m' := h'
            cases h'
            refine ⟨rfl, a, s, rfl, ?_⟩
            rw [← manip_twice s s' s'' h6 h7]
            constructor
            · intro hc
              injection hc with _ hc
              injection hc
            · intro hc
              rw [hc]

example : (okMsg (catRequest toyPop 7 60 (toyReq 0 7) none false false true false)).popo ≠ toyBoth.popo := by
  decide +kernel

/-! ## C129: certificates with a second signature of the CA -/

theorem signedSingle_ok (env : PopEnv S K) (ca : S) (n : Bytes)
    (checkExts : CatReq → List Ext → Except PyErr (List Ext)) (alt : Option S) (allow : Bool) (hash : Option String)
    (pss : Bool) (id : Option Int) (extra : List Ext) (m : CatMsg) (r : Int × Cert)
    (h : signedSingle env ca n checkExts alt allow hash pss id extra m = .ok r) :
    r.1 = id.getD 0 ∧ ∃ k hh a t xs, genAltKey env (getExt m.req.exts altAlgOid) alt allow = .ok (k, hh) ∧
      env.prepAlg ca hash pss = .ok a ∧ catTbs env n m.req a = .ok t ∧ checkExts m.req extra = .ok xs ∧
      signCat env.toCatEnv { t with exts := t.exts ++ xs } k ca ⟨hh, hash, pss, false, false⟩ = .ok r.2 := by
  unfold signedSingle at h
  cases h1 : genAltKey env (getExt m.req.exts altAlgOid) alt allow with
  | error e => rw [h1] at h; cases h
  | ok p =>
    obtain ⟨k, hh⟩ := p
    rw [h1] at h; dsimp only at h
    cases h2 : env.prepAlg ca hash pss with
    | error e => rw [h2] at h; cases h
    | ok a =>
      rw [h2] at h; dsimp only at h
      cases h3 : catTbs env n m.req a with
      | error e => rw [h3] at h; cases h
      | ok t =>
        rw [h3] at h; dsimp only at h
        cases h4 : checkExts m.req extra with
        | error e => rw [h4] at h; cases h
        | ok xs =>
          rw [h4] at h; dsimp only at h
          cases h5 : signCat env.toCatEnv { t with exts := t.exts ++ xs } k ca ⟨hh, hash, pss, false, false⟩ with
          | error e => rw [h5] at h; cases h
          | ok c =>
            rw [h5] at h
            cases h
            exact ⟨rfl, k, hh, a, t, xs, rfl, rfl, h3, rfl, h5⟩

theorem signedSingle_fields (env : PopEnv S K) (ca : S) (n : Bytes)
    (checkExts : CatReq → List Ext → Except PyErr (List Ext)) (alt : Option S) (allow : Bool) (hash : Option String)
    (pss : Bool) (id : Option Int) (extra : List Ext) (m : CatMsg) (r : Int × Cert)
    (h : signedSingle env ca n checkExts alt allow hash pss id extra m = .ok r) :
    r.2.tbs.spki = m.req.spki ∧ r.2.tbs.subject = m.req.subject ∧ r.2.tbs.issuer = n := by
  obtain ⟨-, k, hh, a, t, xs, -, -, ht, -, hs⟩ := signedSingle_ok env _ _ _ _ _ _ _ _ _ _ _ h
  obtain ⟨aa, ta, s, s', -, -, -, -, h5, -, -⟩ := signCat_ok _ _ _ _ _ _ hs
  unfold catTbs at ht
  split at ht
  · cases ht
  · cases ht
    rw [h5]
    exact ⟨rfl, rfl, rfl⟩

theorem signedAll_ok (env : PopEnv S K) (ca : S) (n : Bytes)
    (checkExts : CatReq → List Ext → Except PyErr (List Ext)) (pop : CatMsg → Except PyErr Unit) (alt : Option S)
    (allow : Bool) (hash : Option String) (pss : Bool) (extra : List Ext) (msgs : List CatMsg)
    (rs : List (Int × Cert)) (h : signedAll env ca n checkExts pop alt allow hash pss extra msgs = .ok rs) :
    List.Forall₂ (fun m r => pop m = .ok () ∧
      signedSingle env ca n checkExts alt allow hash pss none extra m = .ok r) msgs rs := by
  induction msgs generalizing rs with
  | nil => cases h; exact List.Forall₂.nil
  | cons m l ih =>
    unfold signedAll at h
    cases h1 : pop m with
    | error e => rw [h1] at h; cases h
    | ok u =>
      rw [h1] at h; dsimp only at h
      cases h2 : signedSingle env ca n checkExts alt allow hash pss none extra m with
      | error e => rw [h2] at h; cases h
      | ok r =>
        rw [h2] at h; dsimp only at h
        cases h3 : signedAll env ca n checkExts pop alt allow hash pss extra l with
        | error e => rw [h3] at h; cases h
        | ok rs' =>
          rw [h3] at h
          cases h
          exact List.Forall₂.cons ⟨h1, h2⟩ (ih rs' h3)

/-- Without an index, every request is answered, in order, by a certificate for its own subject and key, after its
proof of possession was checked; and every certificate is accepted as a catalyst certificate of the CA. -/
theorem C129_answers (env : PopEnv S K) (hf : Faithful env.toCatEnv) (ca : S) (n : Bytes)
    (checkExts : CatReq → List Ext → Except PyErr (List Ext)) (sigPop : CatMsg → Except PyErr Unit) (alt : Option S)
    (allow : Bool) (hash : Option String) (pss : Bool) (extra : List Ext) (body : ReqBody) (msgs : List CatMsg)
    (rs : List (Int × Cert))
    (h : catSigned env ca n checkExts sigPop alt allow hash pss extra body none msgs = .ok rs) (caCert : Cert)
    (hca : env.loadKey caCert.tbs.spki = .ok (env.pub ca)) :
    List.Forall₂ (fun m r => sigPop m = .ok () ∧ r.2.tbs.spki = m.req.spki ∧ r.2.tbs.subject = m.req.subject ∧
      verifyCat env.toCatEnv r.2 (some caCert) none .any = .ok ()) msgs rs := by
  unfold catSigned at h
  by_cases hb : body = .p10cr
  · rw [if_pos hb] at h; cases h
  · rw [if_neg hb] at h
    refine (signedAll_ok env _ _ _ _ _ _ _ _ _ _ _ h).imp ?_
    rintro m r ⟨hp, hs⟩
    have h1 : sigPop m = .ok () := by
      unfold popForBody at hp
      split at hp
      · split at hp
        · exact hp
        · cases hp
      · cases hp
    obtain ⟨f1, f2, -⟩ := signedSingle_fields env _ _ _ _ _ _ _ _ _ _ _ hs
    obtain ⟨-, k, hh, a, t, xs, -, -, -, -, hc⟩ := signedSingle_ok env _ _ _ _ _ _ _ _ _ _ _ hs
    exact ⟨h1, f1, f2, C127_sign_verify env.toCatEnv hf _ _ _ _ _ hc rfl caCert hca⟩

/-- Every response has the `certReqId` 0, whatever the request has. -/
theorem C129_ids_all_zero (env : PopEnv S K) (ca : S) (n : Bytes)
    (checkExts : CatReq → List Ext → Except PyErr (List Ext)) (sigPop : CatMsg → Except PyErr Unit) (alt : Option S)
    (allow : Bool) (hash : Option String) (pss : Bool) (extra : List Ext) (body : ReqBody) (msgs : List CatMsg)
    (rs : List (Int × Cert))
    (h : catSigned env ca n checkExts sigPop alt allow hash pss extra body none msgs = .ok rs) :
    ∀ r ∈ rs, r.1 = 0 := by
  unfold catSigned at h
  by_cases hb : body = .p10cr
  · rw [if_pos hb] at h; cases h
  · rw [if_neg hb] at h
    have := signedAll_ok env _ _ _ _ _ _ _ _ _ _ _ h
    clear h
    induction this with
    | nil => intro r hr; cases hr
    | cons hd _ ih =>
      intro r hr
      rcases List.mem_cons.1 hr with rfl | hr
      · exact (signedSingle_ok env _ _ _ _ _ _ _ _ _ _ _ hd.2).1
      · exact ih r hr

/-- The extensions of the CA are added to those of the request. -/
def toyCheck (_ : CatReq) (extra : List Ext) : Except PyErr (List Ext) := .ok extra
/-- Two plain requests, the second with id 1. -/
def toyTwo : List CatMsg := [⟨toyReq 0 7, .sig ⟨[1], none⟩ [1]⟩, ⟨toyReq 1 8, .sig ⟨[1], none⟩ [1]⟩]

/-- The results, or none. -/
def okRs (x : Except PyErr (List (Int × Cert))) : List (Int × Cert) :=
  match x with
  | .ok l => l
  | .error _ => []

example : (okRs (catSigned toyPop 20 [40] toyCheck (fun _ => .ok ()) none true none false [] .ir none toyTwo)).length
    = 2 := by decide +kernel

/-- So the responses do not name the requests they answer. -/
theorem C129_ids_refuted :
    ¬ ∀ (env : PopEnv UInt8 UInt8) (ca : UInt8) (n : Bytes)
        (checkExts : CatReq → List Ext → Except PyErr (List Ext)) (sigPop : CatMsg → Except PyErr Unit)
        (msgs : List CatMsg) (rs : List (Int × Cert)),
      catSigned env ca n checkExts sigPop none true none false [] .ir none msgs = .ok rs →
      rs.map (fun r => r.1) = msgs.map (fun m => m.req.reqId) := by
  intro h
  have := h toyPop 20 [40] toyCheck (fun _ => .ok ()) toyTwo
    (okRs (catSigned toyPop 20 [40] toyCheck (fun _ => .ok ()) none true none false [] .ir none toyTwo))
    (by decide +kernel)
  exact absurd this (by decide +kernel)

/-- With an index the proof of possession is not looked at. -/
theorem C129_pop_with_index_refuted :
    ¬ ∀ (env : PopEnv UInt8 UInt8) (ca : UInt8) (n : Bytes)
        (checkExts : CatReq → List Ext → Except PyErr (List Ext)) (sigPop : CatMsg → Except PyErr Unit) (i : Nat)
        (msgs : List CatMsg) (m : CatMsg) (rs : List (Int × Cert)), msgs[i]? = some m →
      catSigned env ca n checkExts sigPop none true none false [] .ir (some i) msgs = .ok rs → sigPop m = .ok () := by
  intro h
  have := h toyPop 20 [40] toyCheck (fun _ => .error .badPOP) 0 toyTwo _
    (okRs (catSigned toyPop 20 [40] toyCheck (fun _ => .error .badPOP) none true none false [] .ir (some 0) toyTwo))
    rfl (by decide +kernel)
  cases this

/-- `allow_chosen_sig_alg=False` is not obeyed without an index: the client still chooses the algorithm. -/
theorem C129_chosen_alg_refuted :
    ¬ ∀ (env : PopEnv UInt8 UInt8) (ca alt : UInt8) (n : Bytes)
        (checkExts : CatReq → List Ext → Except PyErr (List Ext)) (sigPop : CatMsg → Except PyErr Unit)
        (msgs : List CatMsg) (rs : List (Int × Cert)),
      catSigned env ca n checkExts sigPop (some alt) false none false [] .ir none msgs = .ok rs →
      ∀ r ∈ rs, loadCat env.toCatEnv r.2.tbs.exts = .ok (env.pub alt) := by
  intro h
  let l : List CatMsg := [⟨{ toyReq 0 7 with exts := [⟨altAlgOid, false, [7]⟩] }, .sig ⟨[1], none⟩ [1]⟩]
  have := h toyPop 20 66 [40] toyCheck (fun _ => .ok ()) l
    (okRs (catSigned toyPop 20 [40] toyCheck (fun _ => .ok ()) (some 66) false none false [] .ir none l))
    (by decide +kernel)
  have hall : (okRs (catSigned toyPop 20 [40] toyCheck (fun _ => .ok ()) (some 66) false none false [] .ir none l)).all
    (fun r => decide (loadCat toyPop.toCatEnv r.2.tbs.exts = .ok (toyPop.pub 66))) = true := by
    rw [List.all_eq_true]
    intro r hr
    exact decide_eq_true (this r hr)
  exact absurd hall (by decide +kernel)

/-- With the argument obeyed (no chosen algorithm in the request) the given key is used. -/
theorem C129_given_key_partial (env : PopEnv S K) (hf : Faithful env.toCatEnv) (ca alt : S) (n : Bytes)
    (checkExts : CatReq → List Ext → Except PyErr (List Ext)) (allow : Bool) (hash : Option String) (pss : Bool)
    (id : Option Int) (extra : List Ext) (m : CatMsg) (r : Int × Cert)
    (h : signedSingle env ca n checkExts (some alt) allow hash pss id extra m = .ok r)
    (hno : allow = false ∨ ∀ x ∈ m.req.exts, x.oid ≠ [2, 5, 29, 73])
    (hstd : ∀ k, ∀ e ∈ env.stdExts k, e.oid ≠ [2, 5, 29, 72])
    (hchk : ∀ q x l, checkExts q x = .ok l → ∀ e ∈ l, e.oid ≠ [2, 5, 29, 72]) :
    loadCat env.toCatEnv r.2.tbs.exts = .ok (env.pub alt) := by
  obtain ⟨-, k, hh, a, t, xs, hg, -, ht, hx, hc⟩ := signedSingle_ok env _ _ _ _ _ _ _ _ _ _ _ h
  have hk : k = alt := by
    have : genAltKey env (getExt m.req.exts altAlgOid) (some alt) allow =
        if env.isPqSign alt then .ok (alt, none) else .error .badAlg := by
      unfold genAltKey
      rcases hno with rfl | hno
      · cases getExt m.req.exts altAlgOid <;> rfl
      · rw [(getExt_none_iff _ altAlgOid).2 hno]
        rfl
    rw [this] at hg
    split at hg
    · cases hg; rfl
    · cases hg
  rw [hk] at hc
  refine C127_carries_signer_key env.toCatEnv hf _ _ _ _ _ hc ?_
  unfold catTbs at ht
  split at ht
  · cases ht
  · cases ht
    intro x hxm
    rcases List.mem_append.1 hxm with hxm | hxm
    · exact hstd _ x hxm
    · exact hchk _ _ _ hx x hxm

/-- The extensions given by the CA (revocation pointers) are not in the certificate: the result is the same for all. -/
theorem C129_extensions_refuted :
    ¬ ∀ (env : PopEnv UInt8 UInt8) (ca : UInt8) (n : Bytes)
        (checkExts : CatReq → List Ext → Except PyErr (List Ext)) (sigPop : CatMsg → Except PyErr Unit)
        (e : Ext) (msgs : List CatMsg) (rs : List (Int × Cert)),
      (∀ q x l, checkExts q x = .ok l → ∀ y ∈ x, y ∈ l) →
      catSigned env ca n checkExts sigPop none true none false [e] .ir none msgs = .ok rs →
      ∀ r ∈ rs, e ∈ r.2.tbs.exts := by
  intro h
  have := h toyPop 20 [40] toyCheck (fun _ => .ok ()) ⟨[1, 3, 6], false, [4]⟩ toyTwo
    (okRs (catSigned toyPop 20 [40] toyCheck (fun _ => .ok ()) none true none false [⟨[1, 3, 6], false, [4]⟩] .ir
      none toyTwo)) (by
      intro q x l hl y hy
      cases hl
      exact hy) (by decide +kernel)
  have hall : (okRs (catSigned toyPop 20 [40] toyCheck (fun _ => .ok ()) none true none false
    [⟨[1, 3, 6], false, [4]⟩] .ir none toyTwo)).all
    (fun r => decide ((⟨[1, 3, 6], false, [4]⟩ : Ext) ∈ r.2.tbs.exts)) = true := by
    rw [List.all_eq_true]
    intro r hr
    exact decide_eq_true (this r hr)
  exact absurd hall (by decide +kernel)

/-- A `ccr` is listed as supported, but with a request it always ends with an exception. -/
theorem C129_ccr_refuted (env : PopEnv S K) (ca : S) (n : Bytes)
    (checkExts : CatReq → List Ext → Except PyErr (List Ext)) (sigPop : CatMsg → Except PyErr Unit) (alt : Option S)
    (allow : Bool) (hash : Option String) (pss : Bool) (extra : List Ext) (m : CatMsg) (msgs : List CatMsg) :
    catSigned env ca n checkExts sigPop alt allow hash pss extra .ccr none (m :: msgs) = .error .keyError := rfl

/-- The alternative key that the client sends is not in the certificate; the key of the CA's second signature is. -/
theorem C129_client_alt_key_refuted :
    ¬ ∀ (env : PopEnv UInt8 UInt8) (ca : UInt8) (n : Bytes)
        (checkExts : CatReq → List Ext → Except PyErr (List Ext)) (sigPop : CatMsg → Except PyErr Unit)
        (m : CatMsg) (r : Int × Cert) (k : UInt8),
      loadCat env.toCatEnv m.req.exts = .ok k →
      catSigned env ca n checkExts sigPop none true none false [] .ir none [m] = .ok [r] →
      loadCat env.toCatEnv r.2.tbs.exts = .ok k := by
  intro h
  let m : CatMsg := ⟨{ toyReq 0 7 with exts := [⟨altSpkiOid, false, [61]⟩] }, .sig ⟨[1], none⟩ [1]⟩
  obtain ⟨r, h1⟩ := ok_of_isOk (signedSingle toyPop 20 [40] toyCheck none true none false none [] m)
    (by decide +kernel)
  have h2 : catSigned toyPop 20 [40] toyCheck (fun _ => .ok ()) none true none false [] .ir none [m] = .ok [r] := by
    show signedAll _ _ _ _ _ _ _ _ _ _ _ = _
    unfold signedAll
    rw [h1]
    rfl
  have h3 := h toyPop 20 [40] toyCheck (fun _ => .ok ()) m r 61 (by decide +kernel) h2
  have h4 : (match signedSingle toyPop 20 [40] toyCheck none true none false none [] m with
      | .ok r => decide (loadCat toyPop.toCatEnv r.2.tbs.exts = .ok 61)
      | .error _ => false) = false := by decide +kernel
  rw [h1] at h4
  dsimp only at h4
  exact absurd h3 (of_decide_eq_false h4)

end Verif.Hybrid
