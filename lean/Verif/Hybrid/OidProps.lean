import Verif.Hybrid.DiscoveryProps
import Verif.Hybrid.SunIssueProps
import Verif.Hybrid.MigrationProps
import Verif.Hybrid.ChameleonIssueProps
import Verif.Hybrid.CatalystIssueProps

/-!
# The identifiers of the hybrid schemes

Extensions and attributes are recognised by their OIDs. The theorems say with the numbers of the drafts (Chameleon:
draft-bonnell-lamps-chameleon-certs, arc of Entrust; certificate binding, discovery and Sun hybrid: the arc of the test
suite) what is written and what is read, together with a few errors which are dealt with.
-/

namespace Verif.Hybrid

open Verif.CA (Bytes PyErr)

variable {S K : Type}

/-- **C211.** The delta certificate descriptor is written with its OID, and a certificate which has an extension with it
is a Chameleon one. -/
theorem C211_chameleon (env : Env K) (critical : Bool) (d : Dcd) (spki : Bytes) :
    (dcdExt env critical d).oid = [2, 16, 840, 1, 114027, 80, 6, 1] ∧ (skiExt env spki critical).oid = [2, 5, 29, 14] := ⟨rfl, rfl⟩

/-- **C211.** The attributes of a Chameleon request: the request for the delta certificate, and its signature, which is
left out of what is signed; all others are kept. -/
theorem C211_chameleon_attrs (env : Env K) (v : Bytes) (r : DeltaReq) (s : Bytes) (hr : env.decReq v = .ok r)
    (hs : env.decSig v = .ok s) (o : Oid) (h1 : o ≠ [2, 16, 840, 1, 114027, 80, 6, 2]) (h2 : o ≠ [2, 16, 840, 1, 114027, 80, 6, 3]) :
    extractLoop env ⟨[], none, none⟩ [⟨[2, 16, 840, 1, 114027, 80, 6, 2], v⟩, ⟨[2, 16, 840, 1, 114027, 80, 6, 3], v⟩, ⟨o, v⟩] =
      .ok ⟨[⟨[2, 16, 840, 1, 114027, 80, 6, 2], v⟩, ⟨o, v⟩], some r, some s⟩ := by
  unfold extractLoop
  rw [if_pos (by dsimp only; decide), hr]
  dsimp only
  unfold extractLoop
  rw [if_neg (by dsimp only; decide), if_pos (by dsimp only; decide), hs]
  dsimp only
  unfold extractLoop
  rw [if_neg (show ¬ o = deltaReqOid from h1), if_neg (show ¬ o = deltaSigOid from h2)]
  rfl

/-- **C211.** The extensions requested with PKCS #10 are those of the attribute `extensionRequest` of RFC 2985. -/
theorem C211_request (env : Env K) (csr : Csr) :
    (csrExts env csr = .ok none ↔ ∀ a ∈ csr.attrs, a.typ ≠ [1, 2, 840, 113549, 1, 9, 14]) ∧
    ∀ l, csrExts env csr = .ok (some l) → ∃ a ∈ csr.attrs, a.typ = [1, 2, 840, 113549, 1, 9, 14] ∧ env.decExts a.value = .ok l := by
  unfold csrExts
  cases hf : csr.attrs.find? (fun a => decide (a.typ = extReqOid)) with
  | none =>
    dsimp only
    rw [List.find?_eq_none] at hf
    exact ⟨⟨fun _ a ha e => hf a ha (decide_eq_true e), fun _ => rfl⟩, fun l h => (by cases h)⟩
  | some a =>
    dsimp only
    have ha := List.mem_of_find?_eq_some hf
    have ht : a.typ = extReqOid := by simpa using List.find?_some hf
    cases hd : env.decExts a.value with
    | error e => exact ⟨⟨fun h => (by cases h), fun h => absurd ht (h a ha)⟩, fun l h => (by cases h)⟩
    | ok l =>
      refine ⟨⟨fun h => (by cases h), fun h => absurd ht (h a ha)⟩, fun l' h => ?_⟩
      cases h
      exact ⟨a, ha, ht, hd⟩

/-- **C211.** The kind of a hybrid certificate is told by the OIDs of its extensions. -/
theorem C211_kind (env : RelEnv S K) (comp : Oid → Bool) (c : Cert) (hc : comp (env.spkiAlg c.tbs.spki).oid = false) :
    (hybridKind env comp c = .ok (some "chameleon") ↔ ∃ e ∈ c.tbs.exts, e.oid = [2, 16, 840, 1, 114027, 80, 6, 1]) ∧
    (hybridKind env comp c = .ok (some "sun-hybrid") ↔ (∀ e ∈ c.tbs.exts, e.oid ≠ [2, 16, 840, 1, 114027, 80, 6, 1]) ∧
      ∃ e ∈ c.tbs.exts, e.oid = [1, 3, 6, 1, 5, 5, 7, 4, 9996, 9999, 4, 4, 7]) := by
  have hget : ∀ o, (getExt c.tbs.exts o).isSome = true ↔ ∃ e ∈ c.tbs.exts, e.oid = o := by
    intro o
    unfold getExt
    rw [List.find?_isSome]
    simp only [decide_eq_true_eq]
  have no : ∀ o, (getExt c.tbs.exts o).isSome ≠ true → ∀ e ∈ c.tbs.exts, e.oid ≠ o := by
    intro o h e he ho
    exact h ((hget o).2 ⟨e, he, ho⟩)
  unfold hybridKind
  rw [if_neg (by rw [hc]; decide)]
  by_cases h1 : (getExt c.tbs.exts dcdOid).isSome = true
  · rw [if_pos h1]
    refine ⟨⟨fun _ => (hget _).1 h1, fun _ => rfl⟩, ⟨fun h => absurd h (by decide), fun h => ?_⟩⟩
    obtain ⟨e, he, ho⟩ := (hget _).1 h1
    exact absurd ho (h.1 e he)
  · rw [if_neg h1]
    by_cases h2 : (getExt c.tbs.exts sunSigOid).isSome = true
    · rw [if_pos h2]
      refine ⟨⟨fun h => absurd h (by decide), fun ⟨e, he, ho⟩ => absurd ho (no _ h1 e he)⟩, ⟨fun _ => ⟨no _ h1, (hget _).1 h2⟩, fun _ => rfl⟩⟩
    · rw [if_neg h2]
      generalize hx : (if (getExt c.tbs.exts altSigOid).isSome = true ∨ (getExt c.tbs.exts altSpkiOid).isSome = true
        then (Except.ok (some "catalyst") : Except PyErr (Option String)) else _) = x
      have key : ∀ s, x = .ok (some s) → s ≠ "chameleon" ∧ s ≠ "sun-hybrid" := by
        intro s hs
        rw [hs] at hx
        split at hx
        · cases hx; decide
        · split at hx
          · cases hx
          · cases hx; decide
          · split at hx
            · cases hx; decide
            · cases hx
      refine ⟨⟨fun h => absurd rfl (key _ h).1, fun ⟨e, he, ho⟩ => absurd ho (no _ h1 e he)⟩,
        ⟨fun h => absurd rfl (key _ h).2, fun ⟨_, e, he, ho⟩ => absurd ho (no _ h2 e he)⟩⟩

/-- **C211.** A certificate is bound to another one by the extension with the OID for it, and asked for with the attribute
with the OID for it. -/
theorem C211_related (env : RelEnv S K) (rel : Cert) (hash : Option String) (critical : Bool) (e : Ext) (csr : RelCsr) (r : Requester)
    (h : prepRelated env rel hash critical = .ok e) :
    e.oid = [1, 3, 6, 1, 5, 5, 7, 4, 9996, 9999, 4, 2, 1] ∧
    (addRequester env csr r).attrs = csr.attrs ++ [([1, 3, 6, 1, 5, 5, 7, 4, 9996, 9999, 4, 2, 2], [env.encReq r])] := by
  unfold prepRelated at h
  split at h
  · cases h
  · split at h
    · cases h
    · cases h
      exact ⟨rfl, rfl⟩

/-- **C211.** The second certificate is announced in `subjectInfoAccess`, with the method and the name of discovery. -/
theorem C211_discovery (env : RelEnv S K) (url : String) (critical : Bool) (other : Option Cert) (v : Bytes) (l : List AccDesc)
    (d : AccDesc) (hv : env.decSia v = .ok l) :
    (prepDiscovery env url critical other).oid = [1, 3, 6, 1, 5, 5, 7, 1, 11] ∧
    (d.method ≠ [1, 3, 6, 1, 5, 5, 7, 4, 9996, 9999, 4, 3, 1] → l = [d] → extractDesc env v none = .error .valueError) ∧
    (∀ w, l = [⟨[1, 3, 6, 1, 5, 5, 7, 4, 9996, 9999, 4, 3, 1], some ([1, 3, 6, 1, 5, 5, 7, 4, 9996, 9999, 4, 3, 2], w)⟩] →
      extractDesc env v none = env.decDesc w) := by
  refine ⟨rfl, ?_, ?_⟩
  · intro hd hl
    unfold extractDesc
    rw [hv, hl]
    dsimp only [List.find?]
    rw [show decide (d.method = discoveryOid) = false from decide_eq_false hd]
  · intro w hl
    unfold extractDesc
    rw [hv, hl]
    dsimp only [List.find?]
    rw [show decide (([1, 3, 6, 1, 5, 5, 7, 4, 9996, 9999, 4, 3, 1] : Oid) = discoveryOid) = true by decide]
    dsimp only
    unfold descOf
    dsimp only
    rw [if_neg (by decide)]

/-- **C211.** A binding does not allow an extended key usage, and a certificate of a CA is not bound: these are the
extensions with the OIDs of X.509. -/
theorem C211_ca (env : RelEnv S K) (l : List Ext) (h : isCaExts env l = .ok true) : ∃ e ∈ l, e.oid = [2, 5, 29, 19] ∧ env.decBc e.value = .ok true := by
  unfold isCaExts at h
  split at h
  · cases h
  · rename_i e he
    refine ⟨e, ?_, ?_, h⟩
    · unfold getExt at he
      exact List.mem_of_find?_eq_some he
    · unfold getExt at he
      have : e.oid = bcOid := by simpa using List.find?_some he
      exact this

/-- **C211.** The key usages compared are those of the extensions with the OIDs of X.509: if neither certificate has them,
nothing is compared. -/
theorem C211_usages (env : RelEnv S K) (c : Cert) (h1 : ∀ e ∈ c.tbs.exts, e.oid ≠ [2, 5, 29, 15])
    (h2 : ∀ e ∈ c.tbs.exts, e.oid ≠ [2, 5, 29, 37]) :
    extValue env.decKu c.tbs.exts kuOid = .ok none ∧ extValue env.decEku c.tbs.exts ekuOid = .ok none := by
  have no : ∀ o, (∀ e ∈ c.tbs.exts, e.oid ≠ o) → getExt c.tbs.exts o = none := by
    intro o h
    unfold getExt
    rw [List.find?_eq_none]
    intro e he
    simpa using h e he
  unfold extValue
  rw [no kuOid h1, no ekuOid h2]
  exact ⟨rfl, rfl⟩

/-- **C211.** The extensions of the Sun hybrid scheme. -/
theorem C211_sun (env : SunEnv S K) (k : K) (sig : Bytes) (alg : Alg) (byVal : Bool) (hash loc : Option String) (critical : Bool)
    (e f : Ext) (he : sunPubExt env k byVal hash loc critical = .ok e) (hf : sunSigExt env sig byVal alg hash loc critical = .ok f) :
    e.oid = [1, 3, 6, 1, 5, 5, 7, 4, 9996, 9999, 4, 4, 6] ∧ f.oid = [1, 3, 6, 1, 5, 5, 7, 4, 9996, 9999, 4, 4, 7] := by
  unfold sunPubExt at he
  unfold sunSigExt at hf
  split at he
  · cases he
  · split at hf
    · cases hf
    · cases he
      cases hf
      exact ⟨rfl, rfl⟩

/-- **C211.** The attributes of a Sun hybrid request: hash and location, for the key and for the signature. -/
theorem C211_sun_attrs (env : SunEnv S K) (v1 v2 v3 v4 : Bytes) (a b : Alg) (s t : String) (h1 : env.decAlg v1 = some a)
    (h2 : env.decStr v2 = some s) (h3 : env.decAlg v3 = some b) (h4 : env.decStr v4 = some t) :
    sunAttrs env [⟨[1, 3, 6, 1, 5, 5, 7, 4, 9996, 9999, 4, 4, 2], v1⟩, ⟨[1, 3, 6, 1, 5, 5, 7, 4, 9996, 9999, 4, 4, 3], v2⟩,
      ⟨[1, 3, 6, 1, 5, 5, 7, 4, 9996, 9999, 4, 4, 4], v3⟩, ⟨[1, 3, 6, 1, 5, 5, 7, 4, 9996, 9999, 4, 4, 5], v4⟩]
      ⟨none, none, none, none⟩ = .ok ⟨some a, some s, some b, some t⟩ := by
  unfold sunAttrs
  rw [if_pos (by dsimp only; decide)]
  dsimp only
  rw [h1]
  dsimp only
  rw [if_pos (by decide)]
  unfold sunAttrs
  rw [if_neg (by dsimp only; decide), if_pos (by dsimp only; decide)]
  dsimp only
  rw [h2]
  dsimp only
  rw [if_pos (by decide)]
  unfold sunAttrs
  rw [if_pos (by dsimp only; decide)]
  dsimp only
  rw [h3]
  dsimp only
  rw [if_neg (by decide)]
  unfold sunAttrs
  rw [if_neg (by dsimp only; decide), if_pos (by dsimp only; decide)]
  dsimp only
  rw [h4]
  dsimp only
  rw [if_neg (by decide)]
  rfl

-- A Sun hybrid certificate and a Chameleon one.
example : hybridKind toyRel (fun _ => false) (toyRelCert 1 6 [⟨[1, 3, 6, 1, 5, 5, 7, 4, 9996, 9999, 4, 4, 7], false, [1]⟩]) =
      .ok (some "sun-hybrid") ∧
    hybridKind toyRel (fun _ => false) (toyRelCert 1 6 [⟨[2, 16, 840, 1, 114027, 80, 6, 1], false, [1]⟩]) =
      .ok (some "chameleon") := by decide +kernel

/-! ## Errors which are dealt with -/

/-- **C132.** A certificate with the name of the issuer which is not the issuer is passed over, whether the signature is
wrong, the key or the algorithm cannot be used; other errors end the search. -/
theorem C132_passed_over (env : CatEnv S K) (c p : Cert) (l : List Cert) (e : PyErr) (hn : c.tbs.issuer = p.tbs.subject)
    (h : migSigned env c p = .error e) :
    (e = .invalidSignature ∨ e = .valueError ∨ e = .badSigAlgId → migLoop env c (p :: l) = migLoop env c l) ∧
    (e ≠ .invalidSignature → e ≠ .valueError → e ≠ .badSigAlgId → migLoop env c (p :: l) = .error e) := by
  rw [show migLoop env c (p :: l) = (if c.tbs.issuer ≠ p.tbs.subject then migLoop env c l
    else match migSigned env c p with
    | .error e =>
      if e = .invalidSignature ∨ e = .valueError ∨ e = .badSigAlgId then migLoop env c l else .error e
    | .ok () =>
      if c.tbs.subject = c.tbs.issuer then .ok []
      else (migLoop env p l).map (fun r => p :: r)) from rfl, if_neg (by rw [hn]; simp), h]
  dsimp only
  refine ⟨fun he => by rw [if_pos he], fun h1 h2 h3 => by rw [if_neg (by simp [h1, h2, h3])]⟩

/-- **C133.** A `subjectInfoAccess` extension without a descriptor is as good as none; other errors are passed on. -/
theorem C133_no_descriptor (env : HybEnv S K) (l : List Ext) (x : Ext) (e : PyErr) (hx : getExt l [1, 3, 6, 1, 5, 5, 7, 1, 11] = some x)
    (he : env.siaDesc x = .error e) : (e = .valueError → siaOf env l = .ok none) ∧ (e ≠ .valueError → siaOf env l = .error e) := by
  unfold siaOf
  rw [show getExt l siaOid = some x from hx]
  dsimp only
  rw [he]
  dsimp only
  refine ⟨fun h => by rw [if_pos h], fun h => by rw [if_neg h]⟩

/-- **C129.** Requests of the three kinds are dealt with in the same way. -/
theorem C129_bodies (env : PopEnv S K) (ca : S) (n : Bytes) (checkExts : CatReq → List Ext → Except PyErr (List Ext))
    (sigPop : CatMsg → Except PyErr Unit) (alt : Option S) (allow : Bool) (hash : Option String) (pss : Bool) (extra : List Ext)
    (idx : Option Nat) (msgs : List CatMsg) :
    catSigned env ca n checkExts sigPop alt allow hash pss extra .cr idx msgs =
      catSigned env ca n checkExts sigPop alt allow hash pss extra .ir idx msgs ∧
    catSigned env ca n checkExts sigPop alt allow hash pss extra .kur idx msgs =
      catSigned env ca n checkExts sigPop alt allow hash pss extra .ir idx msgs := by
  have h1 : popForBody .cr sigPop = popForBody .ir sigPop := by
    funext m
    unfold popForBody
    rw [if_pos (by decide), if_pos (by decide)]
  have h2 : popForBody .kur sigPop = popForBody .ir sigPop := by
    funext m
    unfold popForBody
    rw [if_pos (by decide), if_pos (by decide)]
  unfold catSigned
  rw [h1, h2]
  refine ⟨?_, ?_⟩ <;> rw [if_neg (by decide), if_neg (by decide)]

end Verif.Hybrid
