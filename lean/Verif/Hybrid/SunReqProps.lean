import Verif.Hybrid.SunReq

/-!
# Requests for Sun hybrid certificates: properties (C254)
-/

namespace Verif.Hybrid.SunReq

open Verif.CA (Bytes PyErr)

variable {C Csr Q K E A : Type}

/-- When a PKCS#10 request is granted: the possession of the key was shown by the signature, and the certificate built from
the request is the answer to the request -1. -/
structure GrantedCsr (env : Env C Csr Q K E) (ca : C) (a : Args C) (csr : Csr) (r : Answer C E) (c4 c1 : C) : Prop where
  possession : env.verifyCsr csr = .ok ()
  subject : env.subjectOk csr = .ok ()
  built : env.csrCert ca csr a.serial a.badAltSig = .ok (c4, c1)
  answer : r = ⟨"cp", -1, .plain c4⟩

/-- When a request for a composite signature key is granted: the possession of the key was shown for the very request that is
answered. -/
structure GrantedSig (env : Env C Csr Q K E) (ca : C) (a : Args C) (name : String) (l : List Q) (q : Q) (r : Answer C E)
    (c4 c1 : C) : Prop where
  chosen : l[a.certIndex.getD 0]? = some q
  kind : ∃ k, env.pubKey (some q) = .ok k ∧ env.kind k = .compositeSig
  possession : env.sigPop name l (a.certIndex.getD 0) = .ok ()
  built : env.tmplCert ca (some q) a.serial a.pubLoc a.sigLoc a.badAltSig = .ok (c4, c1)
  answer : r = ⟨if name = "ir" then "ip" else if name = "kur" then "kup" else "cp", env.reqId q, .plain c4⟩

/-- When a request for a hybrid KEM key is granted: the certificate is given encrypted for that key. The body is `ir`, and the
answer goes to the first request. -/
structure GrantedKem (env : Env C Csr Q K E) (ca : C) (a : Args C) (name : String) (l : List Q) (r : Answer C E)
    (c4 c1 : C) : Prop where
  body : name = "ir"
  built : env.tmplCert ca l[a.certIndex.getD 0]? a.serial a.pubLoc a.sigLoc false = .ok (c4, c1)
  answer : ∃ k q rest e, env.pubKey l[a.certIndex.getD 0]? = .ok k ∧ env.kind k = .hybridKem ∧ l = q :: rest ∧
    env.encr q c4 k = .ok e ∧ r = ⟨"ip", env.reqId q, .enc e⟩

private theorem csrBranch_iff (env : Env C Csr Q K E) (a : Args C) (ca : C) (csr : Csr) (r : Answer C E) (c4 c1 : C) :
    csrBranch env a ca csr = .ok (r, c4, c1) ↔ GrantedCsr env ca a csr r c4 c1 := by
  unfold csrBranch
  constructor
  · intro h
    cases h1 : env.verifyCsr csr with
    | error e => rw [h1] at h; cases h
    | ok u =>
      rw [h1] at h; dsimp only at h
      cases h2 : env.csrCert ca csr a.serial a.badAltSig with
      | error e => rw [h2] at h; cases h
      | ok p =>
        obtain ⟨x, y⟩ := p
        rw [h2] at h; dsimp only at h
        cases h3 : env.subjectOk csr with
        | error e => rw [h3] at h; cases h
        | ok u =>
          rw [h3] at h; dsimp only at h
          cases h
          exact ⟨h1, h3, h2, rfl⟩
  · rintro ⟨h1, h2, h3, h4⟩
    rw [h1]; dsimp only
    rw [h3]; dsimp only
    rw [h2, h4]

private theorem sigBranch_iff (env : Env C Csr Q K E) (a : Args C) (ca : C) (name : String) (l : List Q) (i : Nat)
    (r : Answer C E) (c4 c1 : C) : sigBranch env a ca name l i = .ok (r, c4, c1) ↔
      env.sigPop name l i = .ok () ∧ ∃ q, l[i]? = some q ∧
        env.tmplCert ca (some q) a.serial a.pubLoc a.sigLoc a.badAltSig = .ok (c4, c1) ∧
        r = ⟨caBody name, env.reqId q, .plain c4⟩ := by
  unfold sigBranch
  constructor
  · intro h
    cases h1 : env.sigPop name l i with
    | error e => rw [h1] at h; cases h
    | ok u =>
      rw [h1] at h; dsimp only at h
      cases h2 : env.tmplCert ca l[i]? a.serial a.pubLoc a.sigLoc a.badAltSig with
      | error e => rw [h2] at h; cases h
      | ok p =>
        obtain ⟨x, y⟩ := p
        rw [h2] at h; dsimp only at h
        cases h3 : l[i]? with
        | none => rw [h3] at h; cases h
        | some q =>
          rw [h3] at h h2; dsimp only at h
          cases h
          exact ⟨rfl, q, rfl, h2, rfl⟩
  · rintro ⟨h1, q, h2, h3, h4⟩
    rw [h1]; dsimp only
    rw [h2, h3, h4]

private theorem kemBranch_iff (env : Env C Csr Q K E) (a : Args C) (ca : C) (name : String) (l : List Q) (i : Nat) (k : K)
    (r : Answer C E) (c4 c1 : C) : kemBranch env a ca name l i k = .ok (r, c4, c1) ↔
      name = "ir" ∧ env.tmplCert ca l[i]? a.serial a.pubLoc a.sigLoc false = .ok (c4, c1) ∧
        ∃ q rest e, l = q :: rest ∧ env.encr q c4 k = .ok e ∧ r = ⟨"ip", env.reqId q, .enc e⟩ := by
  unfold kemBranch encResponse
  constructor
  · intro h
    cases h2 : env.tmplCert ca l[i]? a.serial a.pubLoc a.sigLoc false with
    | error e => rw [h2] at h; cases h
    | ok p =>
      obtain ⟨x, y⟩ := p
      rw [h2] at h; dsimp only at h
      by_cases hn : name = "ir"
      · rw [if_pos hn] at h
        cases l with
        | nil => cases h
        | cons q rest =>
          dsimp only at h
          cases h3 : env.encr q x k with
          | error e => rw [h3] at h; cases h
          | ok e =>
            rw [h3] at h
            cases h
            exact ⟨hn, rfl, q, rest, e, rfl, h3, rfl⟩
      · rw [if_neg hn] at h; cases h
  · rintro ⟨h1, h2, q, rest, e, h3, h4, h5⟩
    rw [h2]; dsimp only
    rw [if_pos h1, h3]; dsimp only
    rw [h4, h5]; rfl

private theorem buildSun_reqs (env : Env C Csr Q K E) (a : Args C) (name : String) (l : List Q) {ca : C}
    (hi : issuer a = .ok ca) (hn : name = "ir" ∨ name = "cr" ∨ name = "kur") :
    buildSun env a (.reqs name l) = crmfBranch env a ca name l := by
  unfold buildSun
  rw [hi]
  dsimp only
  rw [if_pos]
  rcases hn with h | h | h
  · exact .inl h
  · exact .inr (.inl h)
  · exact .inr (.inr (.inl h))

private theorem crmf_iff (env : Env C Csr Q K E) (a : Args C) (ca : C) (name : String) (l : List Q) (r : Answer C E)
    (c4 c1 : C) : crmfBranch env a ca name l = .ok (r, c4, c1) ↔
      (∃ q, GrantedSig env ca a name l q r c4 c1) ∨ GrantedKem env ca a name l r c4 c1 := by
  unfold crmfBranch
  constructor
  · intro h
    cases h1 : env.pubKey l[a.certIndex.getD 0]? with
    | error e => rw [h1] at h; cases h
    | ok k =>
      rw [h1] at h; dsimp only at h
      cases hk : env.kind k with
      | compositeSig =>
        rw [hk] at h; dsimp only at h
        obtain ⟨p, q, hq, ht, hr⟩ := (sigBranch_iff ..).mp h
        refine .inl ⟨q, hq, ⟨k, ?_, hk⟩, p, ht, hr⟩
        rw [← hq]; exact h1
      | hybridKem =>
        rw [hk] at h; dsimp only at h
        obtain ⟨p, ht, q, rest, e, hl, he, hr⟩ := (kemBranch_iff ..).mp h
        exact .inr ⟨p, ht, k, q, rest, e, h1, hk, hl, he, hr⟩
      | other => rw [hk] at h; cases h
  · rintro (⟨q, hq, ⟨k, hp, hk⟩, p, ht, hr⟩ | ⟨hn, ht, k, q, rest, e, hp, hk, hl, he, hr⟩)
    · rw [← hq] at hp
      rw [hp]; dsimp only
      rw [hk]; dsimp only
      exact (sigBranch_iff ..).mpr ⟨p, q, hq, ht, hr⟩
    · rw [hp]; dsimp only
      rw [hk]; dsimp only
      exact (kemBranch_iff ..).mpr ⟨hn, ht, q, rest, e, hl, he, hr⟩

/-- **C254** A PKCS#10 request is granted exactly if its signature, its subject and the building of the certificate succeed;
the locations chosen by the CA play no part. -/
theorem C254_p10cr (env : Env C Csr Q K E) (a : Args C) (ca : C) (hi : a.caCert = some ca) (csr : Csr) (r : Answer C E)
    (c4 c1 : C) : buildSun env a (.p10cr csr) = .ok (r, c4, c1) ↔ GrantedCsr env ca a csr r c4 c1 := by
  have : issuer a = .ok ca := by unfold issuer; rw [hi]
  unfold buildSun
  rw [this]
  exact csrBranch_iff ..

/-- **C254** A CRMF request is granted exactly in two ways: for a composite signature key after the check of possession for
the chosen request and with its identifier, or for a hybrid KEM key with the certificate encrypted. -/
theorem C254_crmf (env : Env C Csr Q K E) (a : Args C) (ca : C) (hi : a.caCert = some ca) (name : String)
    (hn : name = "ir" ∨ name = "cr" ∨ name = "kur") (l : List Q) (r : Answer C E) (c4 c1 : C) :
    buildSun env a (.reqs name l) = .ok (r, c4, c1) ↔
      (∃ q, GrantedSig env ca a name l q r c4 c1) ∨ GrantedKem env ca a name l r c4 c1 := by
  have : issuer a = .ok ca := by unfold issuer; rw [hi]
  rw [buildSun_reqs env a name l this hn]
  exact crmf_iff ..

/-- **C254** The certificate of a CA is its own, or the first of its chain; without both nothing is issued. -/
theorem C254_issuer (env : Env C Csr Q K E) (a : Args C) (body : Body Csr Q) (h : a.caCert = none) :
    (a.chain = none → buildSun env a body = .error .valueError) ∧
    (∀ c rest, a.chain = some (c :: rest) → buildSun env a body = buildSun env { a with caCert := some c } body) := by
  constructor
  · intro hc
    unfold buildSun issuer
    rw [h, hc]
  · intro c rest hc
    have h1 : issuer a = .ok c := by unfold issuer; rw [h, hc]
    have h2 : issuer { a with caCert := some c } = .ok c := rfl
    unfold buildSun
    rw [h1, h2]
    cases body with
    | p10cr csr => rfl
    | reqs n l => rfl
    | other n => rfl

/-! ## The handler -/

private theorem sign_extra {h : Handler C E A} {req : Request Csr Q} {r : Answer C E} {conf : Bool} {second : Option C}
    {s : Signed C E} (hs : signResponse h req r conf second = .ok s) :
    s.answer = r ∧ s.implicitConfirm = conf ∧
      (((∃ m, req.prot = .mac (.ok m) ∧ s.mac = some m) ∧ s.extraCerts = second.toList ++ h.chain) ∨
       ((∀ x, req.prot ≠ .mac x) ∧ s.mac = none ∧ s.extraCerts = h.caCert :: second.toList ++ h.chain.tail)) := by
  unfold signResponse at hs
  cases hp : req.prot with
  | mac alg =>
    rw [hp] at hs; dsimp only at hs
    cases alg with
    | error e => cases hs
    | ok m =>
      dsimp only at hs
      cases hq : h.protect (some m) r (second.toList ++ h.chain) with
      | error e => rw [hq] at hs; cases hs
      | ok u =>
        rw [hq] at hs
        cases hs
        exact ⟨rfl, rfl, .inl ⟨⟨m, rfl, rfl⟩, rfl⟩⟩
  | none =>
    rw [hp] at hs; dsimp only at hs
    cases hq : h.protect none r (h.caCert :: second.toList ++ h.chain.tail) with
    | error e => rw [hq] at hs; cases hs
    | ok u =>
      rw [hq] at hs
      cases hs
      exact ⟨rfl, rfl, .inr ⟨fun x hx => (nomatch hx), rfl, rfl⟩⟩
  | signature =>
    rw [hp] at hs; dsimp only at hs
    cases hq : h.protect none r (h.caCert :: second.toList ++ h.chain.tail) with
    | error e => rw [hq] at hs; cases hs
    | ok u =>
      rw [hq] at hs
      cases hs
      exact ⟨rfl, rfl, .inr ⟨fun x hx => (nomatch hx), rfl, rfl⟩⟩

private theorem process_steps {env : Env C Csr Q K E} {h : Handler C E A} {req : Request Csr Q} {serial : Int} {url : String}
    {bad : Bool} {o : Outcome C E A} (hp : processRequest env h req serial url bad = .ok o) :
    checkBody env req.body = .ok () ∧ ∃ r c4 c1 en,
      buildSun env { caCert := some h.caCert, serial := serial, pubLoc := url ++ "/pubkey/" ++ toString serial,
                     sigLoc := url ++ "/sig/" ++ toString serial, badAltSig := bad } req.body = .ok (r, c4, c1) ∧
      entry h serial c1 = .ok en ∧ finish h req r c4 c1 en = .ok o := by
  unfold processRequest at hp
  cases h1 : checkBody env req.body with
  | error e => rw [h1] at hp; cases hp
  | ok u =>
    rw [h1] at hp; dsimp only at hp
    cases h2 : buildSun env { caCert := some h.caCert, serial := serial, pubLoc := url ++ "/pubkey/" ++ toString serial,
                                  sigLoc := url ++ "/sig/" ++ toString serial, badAltSig := bad } req.body with
    | error e => rw [h2] at hp; cases hp
    | ok p =>
      obtain ⟨r, c4, c1⟩ := p
      rw [h2] at hp; dsimp only at hp
      cases h3 : entry h serial c1 with
      | error e => rw [h3] at hp; cases hp
      | ok en =>
        rw [h3] at hp; dsimp only at hp
        exact ⟨rfl, r, c4, c1, en, rfl, h3, hp⟩

private theorem finish_cases {h : Handler C E A} {req : Request Csr Q} {r : Answer C E} {c4 c1 : C} {en : Entry C A}
    {o : Outcome C E A} (hf : finish h req r c4 c1 en = .ok o) : o.entry = en ∧
    ((∃ e, r.content = .enc e) ∧ signResponse h req r false none = .ok o.signed ∧ o.issued = none ∧ o.toConfirm = some c4 ∨
     (∃ c, r.content = .plain c) ∧ signResponse h req r req.implicitConfirm (some c1) = .ok o.signed ∧
       o.issued = (if req.implicitConfirm then some c4 else none) ∧
       o.toConfirm = (if req.implicitConfirm then none else some c4)) := by
  unfold finish at hf
  cases hc : r.content with
  | enc e =>
    rw [hc] at hf; dsimp only at hf
    cases hs : signResponse h req r false none with
    | error e => rw [hs] at hf; cases hf
    | ok s =>
      rw [hs] at hf
      cases hf
      exact ⟨rfl, .inl ⟨⟨e, rfl⟩, rfl, rfl, rfl⟩⟩
  | plain c =>
    rw [hc] at hf; dsimp only at hf
    cases hi : req.implicitConfirm with
    | true =>
      rw [hi, if_pos rfl] at hf
      cases hs : signResponse h req r true (some c1) with
      | error e => rw [hs] at hf; cases hf
      | ok s =>
        rw [hs] at hf
        cases hf
        exact ⟨rfl, .inr ⟨⟨c, rfl⟩, rfl, rfl, rfl⟩⟩
    | false =>
      rw [hi, if_neg (by decide)] at hf
      cases hs : signResponse h req r false (some c1) with
      | error e => rw [hs] at hf; cases hf
      | ok s =>
        rw [hs] at hf
        cases hf
        exact ⟨rfl, .inr ⟨⟨c, rfl⟩, rfl, rfl, rfl⟩⟩

/-- **C254** A certificate that is sent encrypted is sent only so: besides the answer, the message holds certificates of the
CA only. It is never taken for confirmed, even if implicit confirmation was asked for, and the answer does not promise it. -/
theorem C254_encrypted_only (env : Env C Csr Q K E) (h : Handler C E A) (req : Request Csr Q) (serial : Int) (url : String)
    (bad : Bool) (o : Outcome C E A) (hp : processRequest env h req serial url bad = .ok o) (e : E)
    (he : o.signed.answer.content = .enc e) :
    (∀ c ∈ o.signed.extraCerts, c = h.caCert ∨ c ∈ h.chain) ∧ o.signed.implicitConfirm = false ∧ o.issued = none ∧
      o.toConfirm.isSome := by
  obtain ⟨_, r, c4, c1, en, _, _, hf⟩ := process_steps hp
  obtain ⟨_, ⟨_, hs, hi, ht⟩ | ⟨⟨c, hc⟩, hs, _, _⟩⟩ := finish_cases hf
  · obtain ⟨_, hconf, hx⟩ := sign_extra hs
    refine ⟨?_, hconf, hi, by rw [ht]; rfl⟩
    intro c hc
    rcases hx with ⟨_, hx⟩ | ⟨_, _, hx⟩
    · rw [hx] at hc
      exact .inr hc
    · rw [hx] at hc
      rcases List.mem_cons.mp hc with rfl | hc
      · exact .inl rfl
      · exact .inr (List.mem_of_mem_tail hc)
  · obtain ⟨ha, _, _⟩ := sign_extra hs
    rw [ha, hc] at he
    cases he

/-- **C254** With a certificate in the clear, its other form follows the certificate of the CA in a signed message; under a MAC it
comes first, before the chain. The certificate counts as confirmed exactly if implicit confirmation was asked for, and this is
what the answer says; otherwise it is to be confirmed. -/
theorem C254_plain (env : Env C Csr Q K E) (h : Handler C E A) (req : Request Csr Q) (serial : Int) (url : String)
    (bad : Bool) (o : Outcome C E A) (hp : processRequest env h req serial url bad = .ok o) (c : C)
    (hc : o.signed.answer.content = .plain c) :
    o.signed.implicitConfirm = req.implicitConfirm ∧
    (req.implicitConfirm = true → o.issued = some c ∧ o.toConfirm = none) ∧
    (req.implicitConfirm = false → o.issued = none ∧ o.toConfirm = some c) ∧
    o.entry.serial = serial ∧
    (o.signed.mac = none → o.signed.extraCerts = [h.caCert, o.entry.cert1] ++ h.chain.tail) ∧
    (o.signed.mac ≠ none → o.signed.extraCerts = o.entry.cert1 :: h.chain) := by
  obtain ⟨_, r, c4, c1, en, hb, hen, hf⟩ := process_steps hp
  have hplain : ∀ c', r.content = .plain c' → c' = c4 := by
    intro c' hr
    cases hbody : req.body with
    | p10cr csr =>
      rw [hbody] at hb
      have := (C254_p10cr env _ h.caCert rfl csr r c4 c1).mp hb
      rw [this.answer] at hr
      cases hr; rfl
    | other n =>
      rw [hbody] at hb
      cases hb
    | reqs name l =>
      rw [hbody] at hb
      unfold buildSun at hb
      have hiss : issuer ({ caCert := some h.caCert, serial := serial, pubLoc := url ++ "/pubkey/" ++ toString serial,
                                  sigLoc := url ++ "/sig/" ++ toString serial, badAltSig := bad } : Args C) = .ok h.caCert := rfl
      rw [hiss] at hb
      dsimp only at hb
      split at hb
      · rcases (crmf_iff ..).mp hb with ⟨q, hg⟩ | hg
        · rw [hg.answer] at hr
          cases hr; rfl
        · obtain ⟨k, q, rest, e, _, _, _, _, ha⟩ := hg.answer
          rw [ha] at hr
          cases hr
      · cases hb
  have hce : en.serial = serial ∧ en.cert1 = c1 := by
    unfold entry at hen
    cases h1 : h.altKey c1 with
    | error e => rw [h1] at hen; cases hen
    | ok k =>
      rw [h1] at hen; dsimp only at hen
      cases h2 : h.altSig c1 with
      | error e => rw [h2] at hen; cases hen
      | ok s =>
        rw [h2] at hen; dsimp only at hen
        cases k with
        | none => cases hen
        | some k => cases hen; exact ⟨rfl, rfl⟩
  obtain ⟨hentry, ⟨⟨e, he⟩, hs, hi, ht⟩ | ⟨⟨c', hc'⟩, hs, hi, ht⟩⟩ := finish_cases hf
  · obtain ⟨ha, _, _⟩ := sign_extra hs
    rw [ha, he] at hc
    cases hc
  · obtain ⟨ha, hconf, hx⟩ := sign_extra hs
    rw [ha, hc'] at hc
    cases hc
    have hcc := hplain c hc'
    rw [hentry, hce.1, hce.2]
    refine ⟨hconf, ?_, ?_, rfl, ?_, ?_⟩
    · intro h1; rw [hi, ht, h1, hcc]; exact ⟨rfl, rfl⟩
    · intro h1; rw [hi, ht, h1, hcc]; exact ⟨rfl, rfl⟩
    · intro hm
      rcases hx with ⟨⟨m, _, hm'⟩, _⟩ | ⟨_, _, hx⟩
      · rw [hm'] at hm; cases hm
      · rw [hx]; rfl
    · intro hm
      rcases hx with ⟨_, hx⟩ | ⟨_, hm', _⟩
      · rw [hx]; rfl
      · exact absurd hm' hm

/-- **C254** The answer is protected like the request: with the MAC that belongs to the one of the request, or with the
signature of the CA. -/
theorem C254_protection (env : Env C Csr Q K E) (h : Handler C E A) (req : Request Csr Q) (serial : Int) (url : String)
    (bad : Bool) (o : Outcome C E A) (hp : processRequest env h req serial url bad = .ok o) (m : String) :
    o.signed.mac = some m ↔ req.prot = .mac (.ok m) := by
  obtain ⟨_, r, c4, c1, en, hb, hen, hf⟩ := process_steps hp
  have key : ∀ conf sec, signResponse h req r conf sec = .ok o.signed → (o.signed.mac = some m ↔ req.prot = .mac (.ok m)) := by
    intro conf sec hs
    obtain ⟨_, _, ⟨⟨m', h1, h2⟩, _⟩ | ⟨h1, h2, _⟩⟩ := sign_extra hs
    · rw [h1, h2]
      constructor
      · intro h; cases h; rfl
      · intro h; cases h; rfl
    · rw [h2]
      constructor
      · intro h; cases h
      · intro h; exact absurd h (h1 _)
  obtain ⟨_, ⟨_, hs, _, _⟩ | ⟨_, hs, _, _⟩⟩ := finish_cases hf
  · exact key _ _ hs
  · exact key _ _ hs

/-! ## Refuted claims -/

/-- **C254, refuted**: requests for hybrid KEM keys are answered only in `ir` messages. In a `cr` or `kur` message, each of
them fails with an error of the ASN.1 library, as the alternative `ir` is read. -/
theorem C254_kem_other_bodies_refuted (env : Env C Csr Q K E) (a : Args C) (ca : C) (hi : a.caCert = some ca) (name : String)
    (hn : name = "cr" ∨ name = "kur") (l : List Q) (k : K) (hk : env.pubKey l[a.certIndex.getD 0]? = .ok k)
    (hkind : env.kind k = .hybridKem) (c4 c1 : C)
    (hb : env.tmplCert ca l[a.certIndex.getD 0]? a.serial a.pubLoc a.sigLoc false = .ok (c4, c1)) :
    buildSun env a (.reqs name l) = .error .pyasn1Error := by
  have hi' : issuer a = .ok ca := by unfold issuer; rw [hi]
  rw [buildSun_reqs env a name l hi' (.inr hn)]
  unfold crmfBranch
  rw [hk]; dsimp only
  rw [hkind]; dsimp only
  unfold kemBranch
  rw [hb]; dsimp only
  unfold encResponse
  have : name ≠ "ir" := by
    rcases hn with rfl | rfl <;> decide
  rw [if_neg this]
  rfl

/-- **C254, refuted**: cross-certification requests are refused: the list of bodies has `crr`, which is no body, for `ccr`. -/
theorem C254_ccr_refuted (env : Env C Csr Q K E) (a : Args C) (ca : C) (hi : a.caCert = some ca) (l : List Q) :
    buildSun env a (.reqs "ccr" l) = .error .valueError := by
  unfold buildSun issuer
  rw [hi]
  rfl

/-- **C254, refuted**: the bad alternative signature that a test asks for is not made for KEM keys: the request to spoil it
changes nothing. -/
theorem C254_bad_sig_for_kem_refuted (env : Env C Csr Q K E) (a : Args C) (name : String) (l : List Q) (k : K)
    (hk : env.pubKey l[a.certIndex.getD 0]? = .ok k) (hkind : env.kind k = .hybridKem) (b : Bool) :
    buildSun env { a with badAltSig := b } (.reqs name l) = buildSun env a (.reqs name l) := by
  have h1 : issuer { a with badAltSig := b } = issuer a := rfl
  unfold buildSun
  rw [h1]
  cases issuer a with
  | error e => rfl
  | ok ca =>
    dsimp only
    by_cases hn : name = "ir" ∨ name = "cr" ∨ name = "kur" ∨ name = "crr"
    · rw [if_pos hn, if_pos hn]
      unfold crmfBranch
      dsimp only
      rw [hk]; dsimp only
      rw [hkind]
      rfl
    · rw [if_neg hn, if_neg hn]

/-! ## Examples -/

/-- Certificates are texts; a request is its identifier and the kind of its key. -/
def exEnv : Env String String (Int × Kind) (Int × Kind) String where
  verifyCsr c := if c = "forged" then .error .badPOP else .ok ()
  version _ := 0
  subjectOk _ := .ok ()
  csrCert ca c n bad := .ok (ca ++ ">" ++ c ++ toString n ++ (if bad then "!" else ""), "form 1 of " ++ c)
  reqId q := q.1
  pubKey q := match q with | some q => .ok q | none => .error .pyasn1Error
  kind k := k.2
  sigPop _ l i := match l[i]? with | some q => if q.1 = 7 then .error .badPOP else .ok () | none => .error .indexError
  tmplCert ca q n p s bad := match q with
    | some q => .ok (ca ++ ">" ++ toString q.1 ++ " " ++ toString n ++ " " ++ p ++ " " ++ s ++ (if bad then "!" else ""), "form 1")
    | none => .error .pyasn1Error
  encr q c k := .ok ("for key " ++ toString k.1 ++ ", request " ++ toString q.1 ++ ": " ++ c)

def exHandler : Handler String String Nat where
  caCert := "CA"
  chain := ["CA", "Root"]
  altKey _ := .ok (some 5)
  altSig _ := .ok [1, 2]
  protect _ _ _ := .ok ()

example : processRequest exEnv exHandler ⟨.reqs "cr" [(0, .compositeSig)], false, .signature⟩ 9 "http://h" true =
    .ok ⟨⟨⟨"cp", 0, .plain "CA>0 9 http://h/pubkey/9 http://h/sig/9!"⟩, false, ["CA", "form 1", "Root"], none⟩,
      ⟨9, "form 1", 5, [1, 2]⟩, none, some "CA>0 9 http://h/pubkey/9 http://h/sig/9!"⟩ := by decide +kernel

example : processRequest exEnv exHandler ⟨.reqs "ir" [(0, .hybridKem)], true, .mac (.ok "pbmac1")⟩ 9 "u" true =
    .ok ⟨⟨⟨"ip", 0, .enc "for key 0, request 0: CA>0 9 u/pubkey/9 u/sig/9"⟩, false, ["CA", "Root"], some "pbmac1"⟩,
      ⟨9, "form 1", 5, [1, 2]⟩, none, some "CA>0 9 u/pubkey/9 u/sig/9"⟩ := by decide +kernel

/-- **C254, refuted**: not each request of a message is answered. A message with two proper requests gets one response. -/
theorem C254_each_request_answered_refuted : ∃ o, processRequest exEnv exHandler
      ⟨.reqs "ir" [(1, .compositeSig), (0, .compositeSig)], false, .signature⟩ 9 "u" false = .ok o ∧
    o.signed.answer.certReqId = 1 := by
  refine ⟨⟨⟨⟨"ip", 1, .plain "CA>1 9 u/pubkey/9 u/sig/9"⟩, false, ["CA", "form 1", "Root"], none⟩,
    ⟨9, "form 1", 5, [1, 2]⟩, none, some "CA>1 9 u/pubkey/9 u/sig/9"⟩, ?_, rfl⟩
  decide +kernel

/-- **C254, refuted**: the index of the request is not heeded for KEM keys: the certificate for the second request is the
answer to the first one. -/
theorem C254_index_for_kem_refuted : ∃ r c4 c1, buildSun exEnv
      { caCert := some "CA", serial := 9, pubLoc := "p", sigLoc := "s", certIndex := some 1 }
      (.reqs "ir" [(0, .compositeSig), (1, .hybridKem)]) = .ok (r, c4, c1) ∧
    r = ⟨"ip", 0, .enc "for key 1, request 0: CA>1 9 p s"⟩ := by
  refine ⟨_, "CA>1 9 p s", "form 1", ?_, rfl⟩
  decide +kernel

/-- **C254, refuted**: a key of another type is refused with a `ValueError`, which the endpoint does not turn into a CMP error
message. -/
theorem C254_other_key_refuted (env : Env C Csr Q K E) (a : Args C) (ca : C) (hi : a.caCert = some ca) (name : String)
    (hn : name = "ir" ∨ name = "cr" ∨ name = "kur") (l : List Q) (k : K)
    (hk : env.pubKey l[a.certIndex.getD 0]? = .ok k) (hkind : env.kind k = .other) :
    buildSun env a (.reqs name l) = .error .valueError := by
  have hi' : issuer a = .ok ca := by unfold issuer; rw [hi]
  rw [buildSun_reqs env a name l hi' hn]
  unfold crmfBranch
  rw [hk]; dsimp only
  rw [hkind]

end Verif.Hybrid.SunReq
