import Verif.Ra.Revoked

/-!
# What the revocation checks accept

C212: the OCSP check; C213: the CRL check; C214: the combined check; C215: the signer of a CRL.
-/

namespace Verif.Ra

open Verif.CA Verif.Ra.Revoked

/-! ## Specification -/

/-- The addresses of OCSP responders named by a certificate. -/
def OcspAddresses (c : RevCert) : List String :=
  (c.aia.getD []).filterMap (fun e => if e.1 = "1.3.6.1.5.5.7.48.1" then e.2 else none)

/-- Every OCSP entry of the certificate is a URI. -/
def OcspAllUri (c : RevCert) : Prop :=
  ∀ e ∈ c.aia.getD [], e.1 = "1.3.6.1.5.5.7.48.1" → e.2 ≠ none

/-- The responder at `u` gives an answer the caller allows. -/
def OcspAllowed (env : RevEnv) (expected : String) (allowFail allowUnknown : Bool) (u : String) : Prop :=
  (∃ body r, env.post u = some (200, body) ∧ env.loadOcsp body = .ok r ∧ r.successful = true ∧
      (r.state.text = expected ∨ (r.state = .unknown ∧ allowUnknown = true))) ∨
  (allowFail = true ∧ ∀ body, env.post u ≠ some (200, body))

/-- The CRL in these octets, read as DER and otherwise as PEM. -/
def CrlIn (env : RevEnv) (data : Bytes) (crl : CrlData) : Prop :=
  env.loadDer data = some crl ∨ (env.loadDer data = none ∧ env.loadPem data = some crl)

/-- The CRL at an address (never empty). -/
def CrlAt (env : RevEnv) (u : String) (crl : CrlData) : Prop :=
  u ≠ "" ∧ ∃ d, env.get u = .ok d ∧ CrlIn env d crl

/-- The CRL in a file. -/
def CrlFile (env : RevEnv) (f : String) (crl : CrlData) : Prop :=
  ∃ d, env.read f = .ok d ∧ CrlIn env d crl

/-- The CRL the caller names: by address if there is one, otherwise by file. -/
def CrlNamed (env : RevEnv) (url file : Option String) (crl : CrlData) : Prop :=
  (∃ u, url = some u ∧ CrlAt env u crl) ∨
  ((url = none ∨ url = some "") ∧ ∃ f, file = some f ∧ f ≠ "" ∧ CrlFile env f crl)

/-- The caller names no CRL. -/
def NoCrlNamed (url file : Option String) : Prop :=
  (url = none ∨ url = some "") ∧ (file = none ∨ file = some "")

/-! ## OCSP -/

theorem C212_addresses_aux (es : List (String × Option String)) (us : List String) :
    ocspUrlsOf es = .ok us ↔ (∀ e ∈ es, e.1 = "1.3.6.1.5.5.7.48.1" → e.2 ≠ none) ∧
      us = es.filterMap (fun e => if e.1 = "1.3.6.1.5.5.7.48.1" then e.2 else none) := by
  induction es generalizing us with
  | nil => simp [ocspUrlsOf, eq_comm]
  | cons x xs ih =>
    obtain ⟨m, loc⟩ := x
    unfold ocspUrlsOf
    by_cases hm : m = ocspMethod
    · rw [if_pos hm]
      have hm' : m = "1.3.6.1.5.5.7.48.1" := hm
      cases loc with
      | none => constructor
                · intro h; cases h
                · rintro ⟨h, _⟩; exact absurd rfl (h _ (List.mem_cons_self ..) hm')
      | some u =>
        dsimp only
        cases hx : ocspUrlsOf xs with
        | error e =>
          constructor
          · intro h; cases h
          · rintro ⟨h, _⟩
            have := (ih _).mpr ⟨fun e he => h e (List.mem_cons_of_mem _ he), rfl⟩
            rw [hx] at this; cases this
        | ok vs =>
          obtain ⟨h1, h2⟩ := (ih vs).mp hx
          dsimp only
          constructor
          · intro h
            injection h with h
            refine ⟨?_, ?_⟩
            · intro e he
              cases he with
              | head => intro _; simp
              | tail _ he => exact h1 e he
            · simp [hm', ← h2, h]
          · rintro ⟨_, h⟩
            simp [hm', ← h2] at h
            rw [h]
    · rw [if_neg hm]
      have hm' : ¬ m = "1.3.6.1.5.5.7.48.1" := hm
      rw [ih]
      simp [hm']

/-- C212: the addresses the check finds in a certificate are the URIs of its OCSP entries, in order; it fails to find
them exactly if an OCSP entry is not a URI. -/
theorem C212_addresses (c : RevCert) (us : List String) :
    getOcspUrls c = .ok us ↔ OcspAllUri c ∧ us = OcspAddresses c := by
  unfold getOcspUrls OcspAllUri OcspAddresses
  cases c.aia with
  | none => simp [eq_comm]
  | some es => exact C212_addresses_aux es us

/-- C212: what passes for the responder at one address. -/
theorem C212_single_iff (env : RevEnv) (u expected : String) (af au : Bool) :
    singleOcsp env u expected af au = .ok () ↔ OcspAllowed env expected af au u := by
  unfold singleOcsp postOcsp OcspAllowed
  cases hp : env.post u with
  | none => cases af <;> simp
  | some x =>
    obtain ⟨code, body⟩ := x
    dsimp only
    by_cases hc : code = 200
    · subst hc
      simp only [ne_eq, not_true_eq_false, decide_false, Bool.false_and, Bool.false_eq_true, if_false]
      cases hl : env.loadOcsp body with
      | error e =>
        constructor
        · intro h; cases h
        · rintro (⟨b, r, h, h2, _⟩ | ⟨_, h⟩)
          · injection h with h; injection h with _ h; subst h; rw [hl] at h2; cases h2
          · exact absurd rfl (h body)
      | ok r =>
        dsimp only
        have key : checkOcspResp r expected au = .ok () ↔
            (r.successful = true ∧ (r.state.text = expected ∨ (r.state = .unknown ∧ au = true))) := by
          unfold checkOcspResp
          cases r.successful
          · simp
          · simp only [Bool.not_true, Bool.false_eq_true, if_false, true_and]
            by_cases h1 : r.state = .unknown ∧ au = true
            · simp [h1]
            · by_cases h2 : r.state.text = expected
              · simp [h2]
              · have : (decide (r.state = OcspState.unknown) && au) = false := by
                  cases au <;> simp_all
                simp [this, h1, h2]
        rw [key]
        constructor
        · rintro ⟨h1, h2⟩; exact .inl ⟨body, r, rfl, hl, h1, h2⟩
        · rintro (⟨b, r', h, h2, h3⟩ | ⟨_, h⟩)
          · injection h with h; injection h with _ h; subst h; rw [hl] at h2; injection h2 with h2; subst h2; exact h3
          · exact absurd rfl (h body)
    · have hne : ∀ b, some (code, body) ≠ some (200, b) := by
        intro b h; injection h with h; injection h with h _; exact hc h
      cases af
      · simp [hc]
      · simp [hc]

theorem C212_all_aux (env : RevEnv) (expected : String) (af au : Bool) (us : List String) :
    allOcsp env expected af au us = .ok () ↔ ∀ u ∈ us, OcspAllowed env expected af au u := by
  induction us with
  | nil => simp [allOcsp]
  | cons u us ih =>
    unfold allOcsp
    cases hs : singleOcsp env u expected af au with
    | error e =>
      constructor
      · intro h; cases h
      · intro h
        have := (C212_single_iff env u expected af au).mpr (h u (List.mem_cons_self ..))
        rw [hs] at this; cases this
    | ok _ =>
      dsimp only
      have := (C212_single_iff env u expected af au).mp hs
      rw [ih]; simp [this]

/-- C212: exactly when the OCSP check passes. The status asked for is one of the three, both certificates can be
converted, the request can be built, every OCSP entry is a URI, the certificate names a responder if that is required —
which by default it is when the caller gives an address — and every responder asked (the caller's alone, or all of the
certificate's) gives an allowed answer. -/
theorem C212_accepted_iff (env : RevEnv) (cert issuer : RevCert) (url : Option String) (expected : String)
    (af : Bool) (must : Option Bool) (au : Bool) :
    checkOcsp env cert issuer url expected af must au = .ok () ↔
      (expected = "good" ∨ expected = "revoked" ∨ expected = "unknown") ∧
      env.convert issuer = .ok () ∧ env.convert cert = .ok () ∧ (∃ b, env.buildReq = .ok b) ∧ OcspAllUri cert ∧
      ((must = some true ∨ (must = none ∧ url ≠ none)) → OcspAddresses cert ≠ []) ∧
      (∀ u, url = some u → OcspAllowed env expected af au u) ∧
      (url = none → ∀ u ∈ OcspAddresses cert, OcspAllowed env expected af au u) := by
  unfold checkOcsp
  by_cases he : expected ∈ ["good", "revoked", "unknown"]
  · rw [if_neg (fun h => h he)]
    have he' : expected = "good" ∨ expected = "revoked" ∨ expected = "unknown" := by simpa using he
    unfold createOcspReq
    cases h1 : env.convert issuer with
    | error e => simp
    | ok _ =>
      cases h2 : env.convert cert with
      | error e => simp
      | ok _ =>
        cases h3 : getOcspUrls cert with
        | error e =>
          constructor
          · intro h; cases h
          · rintro ⟨_, _, _, _, hu, _⟩
            have := (C212_addresses cert _).mpr ⟨hu, rfl⟩
            rw [h3] at this; cases this
        | ok us =>
          obtain ⟨hu, rfl⟩ := (C212_addresses cert us).mp h3
          dsimp only
          have hmust : (must.getD url.isSome = true) ↔ (must = some true ∨ (must = none ∧ url ≠ none)) := by
            cases must with
            | none => cases url <;> simp
            | some b => simp
          by_cases hc : ((OcspAddresses cert).isEmpty && must.getD url.isSome) = true
          · rw [if_pos hc]
            rw [Bool.and_eq_true, hmust, List.isEmpty_iff] at hc
            constructor
            · intro h; cases h
            · rintro ⟨_, _, _, _, _, h, _⟩; exact absurd hc.1 (h hc.2)
          · rw [if_neg hc]
            have hc' : (must = some true ∨ (must = none ∧ url ≠ none)) → OcspAddresses cert ≠ [] := by
              intro h1 h2
              exact hc (by rw [Bool.and_eq_true, hmust, List.isEmpty_iff]; exact ⟨h2, h1⟩)
            cases hb : env.buildReq with
            | error e => simp
            | ok b =>
              dsimp only
              rw [C212_all_aux]
              cases url with
              | none =>
                constructor
                · intro h; exact ⟨he', rfl, rfl, ⟨b, rfl⟩, hu, hc', fun u h => (by cases h), fun _ => h⟩
                · rintro ⟨_, _, _, _, _, _, _, h⟩; exact h rfl
              | some u =>
                constructor
                · intro h
                  refine ⟨he', rfl, rfl, ⟨b, rfl⟩, hu, hc', fun v hv => ?_, fun h => (by cases h)⟩
                  injection hv with hv; subst hv
                  exact h u (List.mem_cons_self ..)
                · rintro ⟨_, _, _, _, _, _, h, _⟩ v hv
                  have : v = u := by simpa [ocspTargets] using hv
                  subst this; exact h v rfl
  · rw [if_pos he]
    constructor
    · intro h; cases h
    · rintro ⟨h, _⟩; exact absurd (by simpa using h) he

/-- Toy environment: the responder at "r" answers `good` for the serial number 7 with a bad signature, that at "x" does
not know; "l" and the file "f" hold CRLs. -/
def exRev : RevEnv where
  post u := if u = "r" then some (200, [1]) else if u = "x" then some (200, [2]) else if u = "v" then some (200, [3])
    else none
  loadOcsp b := if b = [1] then .ok ⟨true, .good, 7, false⟩ else if b = [2] then .ok ⟨true, .unknown, 7, true⟩
    else if b = [3] then .ok ⟨true, .revoked, 7, true⟩ else .error .valueError
  get u := if u = "l" then .ok [10] else if u = "m" then .ok [11] else .error .exception
  read f := if f = "f" then .ok [10] else .error .exception
  loadDer d := if d = [10] then some ⟨[7, 8], "CN=Other", false⟩ else if d = [11] then some ⟨[], "CN=CA", true⟩ else none
  loadPem _ := none

/-- A certificate naming a responder and a CRL. -/
def exRevCert : RevCert where
  serial := 5
  issuer := "CN=CA"
  aia := some [("1.3.6.1.5.5.7.48.2", none), ("1.3.6.1.5.5.7.48.1", some "r")]
  crlDps := some [[none, some "m"], []]

/-- A certificate without extensions. -/
def exBareCert : RevCert := { serial := 5, issuer := "CN=CA" }

example : OcspAddresses exRevCert = ["r"] := by decide +kernel

example : checkOcsp exRev exRevCert exBareCert none "good" = .ok () := by decide +kernel

example : checkOcsp exRev exRevCert exBareCert none "revoked" = .error (.state .good) := by decide +kernel

/-- C212, false of the code: an answer counts although it is about another certificate and its signature is not the
responder's (RFC 6960, section 3.2): the outcome depends only on `successful` and `state`. -/
theorem C212_unverified_refuted (r s : OcspResp) (hs : r.successful = s.successful) (ht : r.state = s.state)
    (expected : String) (au : Bool) :
    checkOcspResp r expected au = checkOcspResp s expected au ∧
    (∃ answer : OcspResp, answer.serial ≠ exRevCert.serial ∧ answer.signatureValid = false ∧
      exRev.loadOcsp [1] = .ok answer ∧ checkOcsp exRev exRevCert exBareCert none "good" = .ok ()) := by
  refine ⟨?_, ⟨true, .good, 7, false⟩, by decide, rfl, rfl, by decide +kernel⟩
  unfold checkOcspResp
  rw [hs, ht]

/-- C212, false of the code: the documentation has the extension required by default when no address is given. The
default is the reverse: without an address a certificate without the extension passes for every status (no responder
was asked), and with an address the check of such a certificate fails whatever the responder says. -/
theorem C212_default_refuted (env : RevEnv) (cert issuer : RevCert) (ha : cert.aia = none)
    (h1 : env.convert issuer = .ok ()) (h2 : env.convert cert = .ok ()) (hb : ∃ b, env.buildReq = .ok b)
    (expected : String) (he : expected = "good" ∨ expected = "revoked" ∨ expected = "unknown") (af au : Bool) :
    checkOcsp env cert issuer none expected af none au = .ok () ∧
    (∀ u, checkOcsp env cert issuer (some u) expected af none au = .error (.py .exception)) := by
  constructor
  · rw [C212_accepted_iff]
    refine ⟨he, h1, h2, hb, ?_, ?_, fun u h => (by cases h), fun _ u hu => ?_⟩
    · unfold OcspAllUri; rw [ha]; intro e h; cases h
    · rintro (h | ⟨_, h⟩)
      · cases h
      · exact absurd rfl h
    · unfold OcspAddresses at hu; rw [ha] at hu; cases hu
  · intro u
    unfold checkOcsp
    have : expected ∈ ["good", "revoked", "unknown"] := by simpa using he
    rw [if_neg (fun h => h this)]
    unfold createOcspReq getOcspUrls
    rw [h1, h2, ha]
    rfl

example : exBareCert.aia = none ∧ checkOcsp exRev exBareCert exBareCert none "revoked" = .ok () ∧
    checkOcsp exRev exBareCert exBareCert (some "r") "good" = .error (.py .exception) := by decide +kernel

/-- C212: with failures allowed, a responder that cannot be reached makes every status pass. -/
theorem C212_failure_allowed (env : RevEnv) (u expected : String) (au : Bool)
    (hf : ∀ body, env.post u ≠ some (200, body)) : singleOcsp env u expected true au = .ok () :=
  (C212_single_iff env u expected true au).mpr (.inr ⟨rfl, hf⟩)

example : singleOcsp exRev "down" "revoked" true false = .ok () ∧
    singleOcsp exRev "down" "revoked" false false = .error (.py .valueError) := by decide +kernel

/-! ## CRLs -/

theorem parseCrl_iff (env : RevEnv) (d : Bytes) (n : Int) (b : Bool) :
    parseCrl env d n = .ok b ↔ ∃ crl, CrlIn env d crl ∧ (b = true ↔ n ∈ crl.serials) := by
  have key : ∀ l : List Int, l.any (fun s => s = n) = b ↔ (b = true ↔ n ∈ l) := by
    intro l
    have : l.any (fun s => s = n) = true ↔ n ∈ l := by simp
    rw [← this]
    cases b <;> cases l.any (fun s => s = n) <;> simp
  unfold parseCrl CrlIn
  cases hd : env.loadDer d with
  | some c =>
    dsimp only
    constructor
    · intro h; injection h with h; exact ⟨c, .inl rfl, (key _).mp h⟩
    · rintro ⟨crl, h | ⟨h, _⟩, hb⟩
      · injection h with h; subst h; rw [(key _).mpr hb]
      · cases h
  | none =>
    dsimp only
    cases hp : env.loadPem d with
    | some c =>
      dsimp only
      constructor
      · intro h; injection h with h; exact ⟨c, .inr ⟨rfl, rfl⟩, (key _).mp h⟩
      · rintro ⟨crl, h | ⟨_, h⟩, hb⟩
        · cases h
        · injection h with h; subst h; rw [(key _).mpr hb]
    | none =>
      constructor
      · intro h; cases h
      · rintro ⟨crl, h | ⟨_, h⟩, _⟩ <;> cases h

theorem given_some (s : Option String) (t : String) : given s = some t ↔ s = some t ∧ t ≠ "" := by
  unfold given
  rw [Option.filter_eq_some_iff]
  simp

theorem given_none (s : Option String) : given s = none ↔ s = none ∨ s = some "" := by
  cases s with
  | none => simp [given]
  | some t =>
    by_cases h : t = ""
    · subst h; simp [given]
    · constructor
      · intro hg; rw [(given_some (some t) t).mpr ⟨rfl, h⟩] at hg; cases hg
      · rintro (hg | hg)
        · cases hg
        · injection hg with hg; exact absurd hg h

theorem singleCrl_iff (env : RevEnv) (n : Int) (url file : Option String) (b : Bool) :
    singleCrl env n url file = .ok b ↔ ∃ crl, CrlNamed env url file crl ∧ (b = true ↔ n ∈ crl.serials) := by
  unfold singleCrl CrlNamed CrlAt CrlFile
  cases hu : given url with
  | some u =>
    obtain ⟨rfl, hne⟩ := (given_some url u).mp hu
    dsimp only
    cases hg : env.get u with
    | error e =>
      constructor
      · intro h; cases h
      · rintro ⟨crl, ⟨v, hv, _, d, hd, _⟩ | ⟨h | h, _⟩, _⟩
        · injection hv with hv; subst hv; rw [hg] at hd; cases hd
        · cases h
        · injection h with h; exact absurd h hne
    | ok d =>
      dsimp only
      rw [parseCrl_iff]
      constructor
      · rintro ⟨crl, h1, h2⟩; exact ⟨crl, .inl ⟨u, rfl, hne, d, hg, h1⟩, h2⟩
      · rintro ⟨crl, ⟨v, hv, _, d', hd, h1⟩ | ⟨h | h, _⟩, h2⟩
        · injection hv with hv; subst hv; rw [hg] at hd; injection hd with hd; subst hd; exact ⟨crl, h1, h2⟩
        · cases h
        · injection h with h; exact absurd h hne
  | none =>
    have hn := (given_none url).mp hu
    dsimp only
    cases hf : given file with
    | some f =>
      obtain ⟨rfl, hne⟩ := (given_some file f).mp hf
      dsimp only
      cases hg : env.read f with
      | error e =>
        constructor
        · intro h; cases h
        · rintro ⟨crl, ⟨v, hv, hv2, _⟩ | ⟨_, g, hg', _, d, hd, _⟩, _⟩
          · subst hv
            rcases hn with h | h
            · cases h
            · injection h with h; exact absurd h hv2
          · injection hg' with h; subst h; rw [hg] at hd; cases hd
      | ok d =>
        dsimp only
        rw [parseCrl_iff]
        constructor
        · rintro ⟨crl, h1, h2⟩; exact ⟨crl, .inr ⟨hn, f, rfl, hne, d, hg, h1⟩, h2⟩
        · rintro ⟨crl, ⟨v, hv, hv2, _⟩ | ⟨_, g, hg', _, d', hd, h1⟩, h2⟩
          · subst hv
            rcases hn with h | h
            · cases h
            · injection h with h; exact absurd h hv2
          · injection hg' with h; subst h; rw [hg] at hd; injection hd with hd; subst hd; exact ⟨crl, h1, h2⟩
    | none =>
      have hnf := (given_none file).mp hf
      constructor
      · intro h; cases h
      · rintro ⟨crl, ⟨v, hv, hv2, _⟩ | ⟨_, g, hg', hg2, _⟩, _⟩
        · subst hv
          rcases hn with h | h
          · cases h
          · injection h with h; exact absurd h hv2
        · subst hg'
          rcases hnf with h | h
          · cases h
          · injection h with h; exact absurd h hg2

theorem singleCrl_url (env : RevEnv) (n : Int) (u : String) (b : Bool) :
    singleCrl env n (some u) none = .ok b ↔ ∃ crl, CrlAt env u crl ∧ (b = true ↔ n ∈ crl.serials) := by
  rw [singleCrl_iff]
  unfold CrlNamed
  constructor
  · rintro ⟨crl, ⟨v, hv, h⟩ | ⟨_, f, hf, _⟩, h2⟩
    · injection hv with hv; subst hv; exact ⟨crl, h, h2⟩
    · cases hf
  · rintro ⟨crl, h, h2⟩; exact ⟨crl, .inl ⟨u, rfl, h⟩, h2⟩

theorem crlLoop_notTrue (env : RevEnv) (n : Int) (us : List String) (acc : Option Bool) (r : Option Bool)
    (hr : r ≠ some true) :
    crlLoop env n acc us = .ok r ↔ r = (if us = [] then acc else some false) ∧
      ∀ u ∈ us, ∃ crl, CrlAt env u crl ∧ n ∉ crl.serials := by
  induction us generalizing acc with
  | nil => simp [crlLoop, eq_comm]
  | cons u us ih =>
    unfold crlLoop
    rw [if_neg (by simp)]
    cases hs : singleCrl env n (some u) none with
    | error e =>
      constructor
      · intro h; cases h
      · rintro ⟨_, h⟩
        obtain ⟨crl, h1, h2⟩ := h u (List.mem_cons_self ..)
        have := (singleCrl_url env n u false).mpr ⟨crl, h1, by simp [h2]⟩
        rw [hs] at this; cases this
    | ok b =>
      cases b with
      | true =>
        constructor
        · intro h; injection h with h; exact absurd h.symm hr
        · rintro ⟨_, h⟩
          obtain ⟨crl, h1, h2⟩ := h u (List.mem_cons_self ..)
          have := (singleCrl_url env n u false).mpr ⟨crl, h1, by simp [h2]⟩
          rw [hs] at this; cases this
      | false =>
        dsimp only
        obtain ⟨crl, h1, h2⟩ := (singleCrl_url env n u false).mp hs
        have h2' : n ∉ crl.serials := by simpa using h2
        rw [ih]
        have : (if us = [] then some false else some false) = (some false : Option Bool) := by split <;> rfl
        rw [this]
        constructor
        · rintro ⟨ha, hb⟩
          refine ⟨ha, fun v hv => ?_⟩
          cases hv with
          | head => exact ⟨crl, h1, h2'⟩
          | tail _ hv => exact hb v hv
        · rintro ⟨ha, hb⟩; exact ⟨ha, fun v hv => hb v (List.mem_cons_of_mem _ hv)⟩

theorem crlLoop_true (env : RevEnv) (n : Int) (us : List String) (acc : Option Bool) (ha : acc ≠ some true) :
    crlLoop env n acc us = .ok (some true) ↔ ∃ pre u post, us = pre ++ u :: post ∧
      (∀ v ∈ pre, ∃ crl, CrlAt env v crl ∧ n ∉ crl.serials) ∧ ∃ crl, CrlAt env u crl ∧ n ∈ crl.serials := by
  induction us generalizing acc with
  | nil =>
    constructor
    · intro h; injection h with h; exact absurd h ha
    · rintro ⟨pre, u, post, h, _⟩; simp at h
  | cons u us ih =>
    unfold crlLoop
    cases hs : singleCrl env n (some u) none with
    | error e =>
      constructor
      · intro h; cases h
      · rintro ⟨pre, v, post, h, hp, crl, h1, h2⟩
        exfalso
        cases pre with
        | nil =>
          injection h with h _; subst h
          have := (singleCrl_url env n u true).mpr ⟨crl, h1, by simp [h2]⟩
          rw [hs] at this; cases this
        | cons w ws =>
          injection h with h _; subst h
          obtain ⟨crl, h1, h2⟩ := hp u (List.mem_cons_self ..)
          have := (singleCrl_url env n u false).mpr ⟨crl, h1, by simp [h2]⟩
          rw [hs] at this; cases this
    | ok b =>
      cases b with
      | true =>
        obtain ⟨crl, h1, h2⟩ := (singleCrl_url env n u true).mp hs
        simp only [true_iff]
        exact ⟨[], u, us, rfl, fun v hv => (by cases hv), crl, h1, h2.mp rfl⟩
      | false =>
        dsimp only
        obtain ⟨crl, h1, h2⟩ := (singleCrl_url env n u false).mp hs
        have h2' : n ∉ crl.serials := by simpa using h2
        rw [ih (some false) (by simp)]
        constructor
        · rintro ⟨pre, v, post, h, hp, hc⟩
          refine ⟨u :: pre, v, post, by rw [h]; rfl, fun w hw => ?_, hc⟩
          cases hw with
          | head => exact ⟨crl, h1, h2'⟩
          | tail _ hw => exact hp w hw
        · rintro ⟨pre, v, post, h, hp, hc⟩
          cases pre with
          | nil =>
            injection h with h _; subst h
            obtain ⟨crl', h3, h4⟩ := hc
            have := (singleCrl_url env n u true).mpr ⟨crl', h3, by simp [h4]⟩
            rw [hs] at this; cases this
          | cons w ws =>
            injection h with _ h
            exact ⟨ws, v, post, h, fun x hx => hp x (List.mem_cons_of_mem _ hx), hc⟩

theorem noCrl_iff (url file : Option String) :
    ((given url).isSome || (given file).isSome) = false ↔ NoCrlNamed url file := by
  unfold NoCrlNamed
  rw [← given_none, ← given_none]
  cases given url <;> cases given file <;> simp

/-- C213: exactly when the CRL check passes: the CRL the caller names can be read and does not list the number; or the
caller names none, and the certificate's CRLs can all be read and do not list it — at least one, unless allowed. -/
theorem C213_accepted_iff (env : RevEnv) (cert : RevCert) (url file : Option String) (allowNo : Bool) :
    checkCrl env cert url file allowNo = .ok () ↔
      (∃ crl, CrlNamed env url file crl ∧ cert.serial ∉ crl.serials) ∨
      (NoCrlNamed url file ∧ (∀ u ∈ crlUrls cert, ∃ crl, CrlAt env u crl ∧ cert.serial ∉ crl.serials) ∧
        (crlUrls cert = [] → allowNo = true)) := by
  have hex : NoCrlNamed url file → ¬ ∃ crl, CrlNamed env url file crl ∧ cert.serial ∉ crl.serials := by
    rintro ⟨h1, h2⟩ ⟨crl, ⟨u, hu, hne, _⟩ | ⟨_, f, hf, hne, _⟩, _⟩
    · subst hu; rcases h1 with h | h
      · cases h
      · injection h with h; exact hne h
    · subst hf; rcases h2 with h | h
      · cases h
      · injection h with h; exact hne h
  have hout : checkCrl env cert url file allowNo = .ok () ↔
      crlResult env cert url file = .ok (some false) ∨ (crlResult env cert url file = .ok none ∧ allowNo = true) := by
    unfold checkCrl
    cases crlResult env cert url file with
    | error e => simp
    | ok r =>
      cases r with
      | none => cases allowNo <;> simp
      | some b => cases b <;> simp
  rw [hout]
  unfold crlResult
  cases hg : ((given url).isSome || (given file).isSome) with
  | true =>
    have hn : ¬ NoCrlNamed url file := by
      intro h; rw [← noCrl_iff, hg] at h; cases h
    rw [if_pos rfl]
    cases hs : singleCrl env cert.serial url file with
    | error e =>
      constructor
      · rintro (h | ⟨h, _⟩) <;> cases h
      · rintro (⟨crl, h1, h2⟩ | ⟨h, _⟩)
        · have := (singleCrl_iff env cert.serial url file false).mpr ⟨crl, h1, by simp [h2]⟩
          rw [hs] at this; cases this
        · exact absurd h hn
    | ok b =>
      dsimp only
      constructor
      · rintro (h | ⟨h, _⟩)
        · injection h with h; injection h with h; subst h
          obtain ⟨crl, h1, h2⟩ := (singleCrl_iff env cert.serial url file false).mp hs
          exact .inl ⟨crl, h1, by simpa using h2⟩
        · injection h with h; cases h
      · rintro (⟨crl, h1, h2⟩ | ⟨h, _⟩)
        · have := (singleCrl_iff env cert.serial url file false).mpr ⟨crl, h1, by simp [h2]⟩
          rw [hs] at this; injection this with this; subst this; exact .inl rfl
        · exact absurd h hn
  | false =>
    have hn := (noCrl_iff url file).mp hg
    rw [if_neg (by simp)]
    have hex' := hex hn
    rw [crlLoop_notTrue env cert.serial (crlUrls cert) none (some false) (by simp),
      crlLoop_notTrue env cert.serial (crlUrls cert) none none (by simp)]
    by_cases hu : crlUrls cert = []
    · simp [hu, hex', hn]
    · simp [hu, hex', hn]

/-- C213: exactly when the CRL check says "revoked". -/
theorem C213_revoked_iff (env : RevEnv) (cert : RevCert) (url file : Option String) (allowNo : Bool)
    (hget : ∀ u, env.get u ≠ .error .certRevoked) (hread : ∀ f, env.read f ≠ .error .certRevoked) :
    checkCrl env cert url file allowNo = .error .certRevoked ↔
      (∃ crl, CrlNamed env url file crl ∧ cert.serial ∈ crl.serials) ∨
      (NoCrlNamed url file ∧ ∃ pre u post, crlUrls cert = pre ++ u :: post ∧
        (∀ v ∈ pre, ∃ crl, CrlAt env v crl ∧ cert.serial ∉ crl.serials) ∧
        ∃ crl, CrlAt env u crl ∧ cert.serial ∈ crl.serials) := by
  have hex : NoCrlNamed url file → ¬ ∃ crl, CrlNamed env url file crl ∧ cert.serial ∈ crl.serials := by
    rintro ⟨h1, h2⟩ ⟨crl, ⟨u, hu, hne, _⟩ | ⟨_, f, hf, hne, _⟩, _⟩
    · subst hu; rcases h1 with h | h
      · cases h
      · injection h with h; exact hne h
    · subst hf; rcases h2 with h | h
      · cases h
      · injection h with h; exact hne h
  have hparse : ∀ d, parseCrl env d cert.serial ≠ .error .certRevoked := by
    intro d; unfold parseCrl
    cases env.loadDer d with
    | some c => intro h; cases h
    | none => cases env.loadPem d <;> intro h <;> cases h
  have hsingle : ∀ u f, singleCrl env cert.serial u f ≠ .error .certRevoked := by
    intro u f; unfold singleCrl
    cases given u with
    | some v =>
      dsimp only
      cases hv : env.get v with
      | error e => dsimp only; intro h; injection h with h; subst h; exact hget v hv
      | ok d => exact hparse d
    | none =>
      dsimp only
      cases given f with
      | some v =>
        dsimp only
        cases hv : env.read v with
        | error e => dsimp only; intro h; injection h with h; subst h; exact hread v hv
        | ok d => exact hparse d
      | none => intro h; cases h
  have hloop : ∀ us acc, crlLoop env cert.serial acc us ≠ .error .certRevoked := by
    intro us
    induction us with
    | nil => intro acc h; cases h
    | cons u us ih =>
      intro acc
      unfold crlLoop
      cases hs : singleCrl env cert.serial (some u) none with
      | error e => dsimp only; intro h; injection h with h; subst h; exact hsingle _ _ hs
      | ok b => cases b with
        | true => intro h; cases h
        | false => exact ih _
  have hres : crlResult env cert url file ≠ .error .certRevoked := by
    unfold crlResult
    split
    · cases hs : singleCrl env cert.serial url file with
      | error e => dsimp only; intro h; injection h with h; subst h; exact hsingle _ _ hs
      | ok b => intro h; cases h
    · exact hloop _ _
  have hout : checkCrl env cert url file allowNo = .error .certRevoked ↔
      crlResult env cert url file = .ok (some true) := by
    unfold checkCrl
    cases hx : crlResult env cert url file with
    | error e =>
      constructor
      · intro h; injection h with h; subst h; exact absurd hx hres
      · intro h; cases h
    | ok r =>
      cases r with
      | none => cases allowNo <;> simp
      | some b => cases b <;> simp
  rw [hout]
  unfold crlResult
  cases hg : ((given url).isSome || (given file).isSome) with
  | true =>
    have hn : ¬ NoCrlNamed url file := by
      intro h; rw [← noCrl_iff, hg] at h; cases h
    rw [if_pos rfl]
    cases hs : singleCrl env cert.serial url file with
    | error e =>
      constructor
      · intro h; cases h
      · rintro (⟨crl, h1, h2⟩ | ⟨h, _⟩)
        · have := (singleCrl_iff env cert.serial url file true).mpr ⟨crl, h1, by simp [h2]⟩
          rw [hs] at this; cases this
        · exact absurd h hn
    | ok b =>
      dsimp only
      constructor
      · intro h
        injection h with h; injection h with h; subst h
        obtain ⟨crl, h1, h2⟩ := (singleCrl_iff env cert.serial url file true).mp hs
        exact .inl ⟨crl, h1, h2.mp rfl⟩
      · rintro (⟨crl, h1, h2⟩ | ⟨h, _⟩)
        · have := (singleCrl_iff env cert.serial url file true).mpr ⟨crl, h1, by simp [h2]⟩
          rw [hs] at this; injection this with this; subst this; rfl
        · exact absurd h hn
  | false =>
    have hn := (noCrl_iff url file).mp hg
    rw [if_neg (by simp), crlLoop_true env cert.serial (crlUrls cert) none (by simp)]
    simp only [hex hn, hn, true_and, false_or]

example : checkCrl exRev exRevCert = .ok () ∧ checkCrl exRev { exRevCert with serial := 8 } (some "l") = .error .certRevoked
    ∧ checkCrl exRev { exRevCert with serial := 8 } none (some "f") = .error .certRevoked
    ∧ checkCrl exRev exBareCert = .error .valueError ∧ checkCrl exRev exBareCert none none true = .ok () := by
  decide +kernel

/-- C213, false of the code: a CRL decides whoever issued it and whether or not it is genuine — here one of another CA
with a bad signature makes the certificate "revoked" because it lists the same number. The outcome depends only on the
numbers listed. -/
theorem C213_foreign_refuted :
    (∀ (env env' : RevEnv) (d : Bytes) (n : Int) (c c' : CrlData), env.loadDer d = some c → env'.loadDer d = some c' →
      c.serials = c'.serials → parseCrl env d n = parseCrl env' d n) ∧
    ∃ crl, exRev.loadDer [10] = some crl ∧ crl.issuer ≠ exRevCert.issuer ∧ crl.genuine = false ∧
      checkCrl exRev { exRevCert with serial := 8 } (some "l") = .error .certRevoked := by
  constructor
  · intro env env' d n c c' h h' hs
    unfold parseCrl
    rw [h, h']
    dsimp only
    rw [hs]
  · exact ⟨⟨[7, 8], "CN=Other", false⟩, rfl, by decide, rfl, by decide +kernel⟩

/-- C213, false of the code: with an address and a file, the file is not read; a certificate listed only in the file
passes. -/
theorem C213_file_unread_refuted (env : RevEnv) (cert : RevCert) (u : String) (hu : u ≠ "")
    (file file' : Option String) (allowNo : Bool) :
    checkCrl env cert (some u) file allowNo = checkCrl env cert (some u) file' allowNo := by
  have hg : given (some u) = some u := (given_some _ _).mpr ⟨rfl, hu⟩
  unfold checkCrl crlResult singleCrl
  rw [hg]
  rfl

example : checkCrl exRev { exRevCert with serial := 7 } (some "m") (some "f") = .ok () ∧
    checkCrl exRev { exRevCert with serial := 7 } none (some "f") = .error .certRevoked := by decide +kernel

/-! ## Both -/

/-- C214: exactly when the check passes for a certificate expected not to be revoked. -/
theorem C214_valid_iff (env : RevEnv) (cert : RevCert) (ca : Option RevCert) (o : RevOpts)
    (hx : o.expectRevoked = false) :
    validateRevoked env cert ca o = .ok () ↔
      (ca = none → o.ocspUrl = none) ∧
      (∀ i, ca = some i → checkOcsp env cert i o.ocspUrl "good" o.allowFail none o.allowUnknown = .ok ()) ∧
      checkCrl env cert o.crlUrl o.crlFile o.allowNoUrls = .ok () := by
  unfold validateRevoked
  by_cases hc : ca = none ∧ o.ocspUrl ≠ none
  · rw [if_pos hc]
    constructor
    · intro h; cases h
    · rintro ⟨h, _⟩; exact absurd (h hc.1) hc.2
  · rw [if_neg hc]
    have hc' : ca = none → o.ocspUrl = none := fun h => Classical.byContradiction (fun h2 => hc ⟨h, h2⟩)
    have hb : revocationEnd o.expectRevoked (revocationBody env cert ca o) = .ok () ↔
        revocationBody env cert ca o = .ok () := by
      rw [hx]
      cases revocationBody env cert ca o <;> simp [revocationEnd]
    rw [hb]
    unfold revocationBody ocspPart
    cases ca with
    | none => simp [hc' rfl]
    | some i =>
      dsimp only
      cases ho : checkOcsp env cert i o.ocspUrl "good" o.allowFail none o.allowUnknown with
      | error e =>
        constructor
        · intro h; cases h
        · rintro ⟨_, h, _⟩; have := h i rfl; rw [ho] at this; cases this
      | ok _ =>
        dsimp only
        constructor
        · intro h
          refine ⟨fun h => (by cases h), fun j hj => ?_, h⟩
          injection hj with hj; subst hj; exact ho
        · rintro ⟨_, _, h⟩; exact h

/-- The OCSP check of the given CA's certificate says that the state is not `good`. -/
def OcspNotGood (env : RevEnv) (cert : RevCert) (ca : Option RevCert) (o : RevOpts) : Prop :=
  ∃ i e, ca = some i ∧ checkOcsp env cert i o.ocspUrl "good" o.allowFail none o.allowUnknown = .error e ∧
    (e = .state .revoked ∨ e = .state .unknown ∨ e = .py .certRevoked)

/-- C214: exactly when the check passes for a certificate expected to be revoked. The last way for an OCSP check to
count, a `CertRevoked` raised by an external call, does not occur in practice. -/
theorem C214_revoked_iff (env : RevEnv) (cert : RevCert) (ca : Option RevCert) (o : RevOpts)
    (hx : o.expectRevoked = true) :
    validateRevoked env cert ca o = .ok () ↔
      (ca = none → o.ocspUrl = none) ∧
      (OcspNotGood env cert ca o ∨
        ((∀ i, ca = some i → checkOcsp env cert i o.ocspUrl "good" o.allowFail none o.allowUnknown = .ok ()) ∧
          checkCrl env cert o.crlUrl o.crlFile o.allowNoUrls = .error .certRevoked)) := by
  unfold validateRevoked
  by_cases hc : ca = none ∧ o.ocspUrl ≠ none
  · rw [if_pos hc]
    constructor
    · intro h; cases h
    · rintro ⟨h, _⟩; exact absurd (h hc.1) hc.2
  · rw [if_neg hc]
    have hc' : ca = none → o.ocspUrl = none := fun h => Classical.byContradiction (fun h2 => hc ⟨h, h2⟩)
    have hb : revocationEnd o.expectRevoked (revocationBody env cert ca o) = .ok () ↔
        revocationBody env cert ca o = .error .certRevoked := by
      rw [hx]
      cases revocationBody env cert ca o <;> simp [revocationEnd]
    rw [hb]
    unfold revocationBody ocspPart OcspNotGood
    cases ca with
    | none =>
      constructor
      · intro h; exact ⟨hc', .inr ⟨fun i h => (by cases h), h⟩⟩
      · rintro ⟨_, ⟨i, e, h, _⟩ | ⟨_, h⟩⟩
        · cases h
        · exact h
    | some i =>
      dsimp only
      cases ho : checkOcsp env cert i o.ocspUrl "good" o.allowFail none o.allowUnknown with
      | error e =>
        dsimp only
        constructor
        · intro h
          injection h with h
          refine ⟨hc', .inl ⟨i, e, rfl, ho, ?_⟩⟩
          cases e with
          | state s => cases s with
            | good => cases h
            | revoked => exact .inl rfl
            | unknown => exact .inr (.inl rfl)
          | py e => exact .inr (.inr (by rw [show e = .certRevoked from h]))
        · rintro ⟨_, ⟨j, e', hj, h1, h2⟩ | ⟨h, _⟩⟩
          · injection hj with hj; subst hj
            rw [ho] at h1; injection h1 with h1; subst h1
            rcases h2 with h | h | h <;> subst h <;> rfl
          · have := h i rfl; rw [ho] at this; cases this
      | ok _ =>
        dsimp only
        constructor
        · intro h
          refine ⟨hc', .inr ⟨fun j hj => ?_, h⟩⟩
          injection hj with hj; subst hj; exact ho
        · rintro ⟨_, ⟨j, e', hj, h1, h2⟩ | ⟨_, h⟩⟩
          · injection hj with hj; subst hj
            rw [ho] at h1; cases h1
          · exact h

/-- C214: an address of a responder without the CA's certificate is refused. -/
theorem C214_needs_issuer (env : RevEnv) (cert : RevCert) (o : RevOpts) (h : o.ocspUrl ≠ none) :
    validateRevoked env cert none o = .error .valueError := by
  unfold validateRevoked; rw [if_pos ⟨rfl, h⟩]

/-- A certificate whose responder does not know it. -/
def exUnknownCert : RevCert := { exRevCert with aia := some [("1.3.6.1.5.5.7.48.1", some "x")] }

example : validateRevoked exRev exRevCert (some exBareCert) {} = .ok () ∧
    validateRevoked exRev exRevCert (some exBareCert) { crlUrl := some "l" } = .ok () ∧
    validateRevoked exRev { exRevCert with serial := 7 } (some exBareCert) { crlUrl := some "l", expectRevoked := true }
      = .ok () ∧
    validateRevoked exRev exRevCert (some exBareCert) { expectRevoked := true } = .error .valueError := by
  decide +kernel

/-- C214, false of the code: a certificate expected to be revoked passes if its responder does not know it — it was
never revoked, and no CRL is read — and one expected to be valid is then reported revoked. -/
theorem C214_unknown_refuted (env : RevEnv) (cert i : RevCert) (o : RevOpts)
    (hu : checkOcsp env cert i o.ocspUrl "good" o.allowFail none o.allowUnknown = .error (.state .unknown)) :
    validateRevoked env cert (some i) { o with expectRevoked := true } = .ok () ∧
    validateRevoked env cert (some i) { o with expectRevoked := false } = .error .certRevoked := by
  constructor
  · rw [C214_revoked_iff _ _ _ _ rfl]
    exact ⟨fun h => (by cases h), .inl ⟨i, _, rfl, hu, .inr (.inl rfl)⟩⟩
  · unfold validateRevoked revocationBody ocspPart
    rw [if_neg (by simp)]
    dsimp only
    rw [hu]
    rfl

example : checkOcsp exRev exUnknownCert exBareCert none "good" = .error (.state .unknown) ∧
    checkCrl exRev exUnknownCert = .ok () ∧
    validateRevoked exRev exUnknownCert (some exBareCert) { expectRevoked := true } = .ok () := by decide +kernel

/-- C214, false of the code: with the address of a responder given, the check of a certificate that has no AIA extension
fails, whatever that responder and the CRLs say. -/
theorem C214_address_refuted (env : RevEnv) (cert i : RevCert) (o : RevOpts) (u : String) (hu : o.ocspUrl = some u)
    (ha : cert.aia = none) (h1 : env.convert i = .ok ()) (h2 : env.convert cert = .ok ())
    (hb : ∃ b, env.buildReq = .ok b) :
    validateRevoked env cert (some i) o = .error .exception := by
  have h := (C212_default_refuted env cert i ha h1 h2 hb "good" (.inl rfl) o.allowFail o.allowUnknown).2 u
  unfold validateRevoked revocationBody ocspPart
  rw [if_neg (by simp), hu]
  dsimp only
  rw [h]
  rfl

example : validateRevoked exRev { exBareCert with serial := 7 } (some exBareCert)
      { ocspUrl := some "v", crlUrl := some "l", expectRevoked := true } = .error .exception ∧
    validateRevoked exRev { exBareCert with serial := 7 } (some exBareCert)
      { crlUrl := some "l", expectRevoked := true } = .ok () := by decide +kernel

/-! ## The signer of a CRL -/

section Signer

variable {C N K : Type}

/-- `c` is named as the CRL's issuer and its key verifies the CRL. -/
def SignsCrl (env : CrlEnv C) (h : Option String) (c : C) : Prop := env.sameName c = true ∧ env.verify h c = .ok ()

/-- `c` is passed over: another name, or a key that does not verify the CRL. -/
def PassedOver (env : CrlEnv C) (h : Option String) (c : C) : Prop :=
  env.sameName c = false ∨ env.verify h c = .error .valueError ∨ env.verify h c = .error .invalidSignature

theorem signerLoop_ok (env : CrlEnv C) (h : Option String) (cs : List C) (c : C) :
    signerLoop env h cs = .ok c ↔ ∃ pre post, cs = pre ++ c :: post ∧ SignsCrl env h c ∧
      ∀ p ∈ pre, PassedOver env h p := by
  induction cs with
  | nil =>
    constructor
    · intro hh; cases hh
    · rintro ⟨pre, post, hh, _⟩; simp at hh
  | cons x xs ih =>
    unfold signerLoop
    have step : PassedOver env h x → ¬ SignsCrl env h x →
        ((∃ pre post, xs = pre ++ c :: post ∧ SignsCrl env h c ∧ ∀ p ∈ pre, PassedOver env h p) ↔
         (∃ pre post, x :: xs = pre ++ c :: post ∧ SignsCrl env h c ∧ ∀ p ∈ pre, PassedOver env h p)) := by
      intro hp hs
      constructor
      · rintro ⟨pre, post, h1, h2, h3⟩
        refine ⟨x :: pre, post, by rw [h1]; rfl, h2, fun p hp' => ?_⟩
        cases hp' with
        | head => exact hp
        | tail _ hp' => exact h3 p hp'
      · rintro ⟨pre, post, h1, h2, h3⟩
        cases pre with
        | nil => injection h1 with h1 _; subst h1; exact absurd h2 hs
        | cons y ys =>
          injection h1 with _ h1
          exact ⟨ys, post, h1, h2, fun p hp' => h3 p (List.mem_cons_of_mem _ hp')⟩
    cases hn : env.sameName x with
    | false =>
      rw [if_neg (by simp), ih]
      exact step (.inl hn) (fun hs => by rw [hs.1] at hn; cases hn)
    | true =>
      rw [if_pos rfl]
      cases hv : env.verify h x with
      | ok _ =>
        dsimp only
        constructor
        · intro hh; injection hh with hh; subst hh
          exact ⟨[], xs, rfl, ⟨hn, hv⟩, fun p hp => (by cases hp)⟩
        · rintro ⟨pre, post, h1, h2, h3⟩
          cases pre with
          | nil => injection h1 with h1 _; subst h1; rfl
          | cons y ys =>
            injection h1 with h1 _; subst h1
            rcases h3 x (List.mem_cons_self ..) with hh | hh | hh
            · rw [hn] at hh; cases hh
            · rw [hv] at hh; cases hh
            · rw [hv] at hh; cases hh
      | error e =>
        dsimp only
        cases hk : skipSigner e with
        | true =>
          rw [if_pos rfl, ih]
          refine step (.inr ?_) (fun hs => by have := hs.2; rw [hv] at this; cases this)
          cases e <;> first | exact .inl hv | exact .inr hv | cases hk
        | false =>
          rw [if_neg (by simp)]
          constructor
          · intro hh; cases hh
          · rintro ⟨pre, post, h1, h2, h3⟩
            exfalso
            cases pre with
            | nil => injection h1 with h1 _; subst h1; have := h2.2; rw [hv] at this; cases this
            | cons y ys =>
              injection h1 with h1 _; subst h1
              rcases h3 x (List.mem_cons_self ..) with hh | hh | hh
              · rw [hn] at hh; cases hh
              · rw [hv] at hh; injection hh with hh; subst hh; cases hk
              · rw [hv] at hh; injection hh with hh; subst hh; cases hk

/-- C215: the signer found for a CRL is the first certificate of the list given (or of the directory, if none is given)
that is named as its issuer and whose key verifies its signature, all before it having another name or a key that does
not verify it. -/
theorem C215_found_iff (env : CrlEnv C) (certs : List C) (dir : Except PyErr (List C)) (c : C) :
    findCrlSigner env certs dir = .ok c ↔
      ∃ pool h pre post, ((certs ≠ [] ∧ pool = certs) ∨ (certs = [] ∧ dir = .ok pool)) ∧ env.hash = .ok h ∧
        pool = pre ++ c :: post ∧ SignsCrl env h c ∧ ∀ p ∈ pre, PassedOver env h p := by
  unfold findCrlSigner
  cases certs with
  | nil =>
    cases dir with
    | error e => simp
    | ok pool =>
      cases hh : env.hash with
      | error e => simp
      | ok h =>
        simp only [List.isEmpty_nil, if_true]
        rw [signerLoop_ok]
        constructor
        · rintro ⟨pre, post, h1, h2, h3⟩; exact ⟨pool, h, pre, post, .inr ⟨by trivial, rfl⟩, rfl, h1, h2, h3⟩
        · rintro ⟨pool', h', pre, post, hp | ⟨_, hp⟩, hh', h1, h2, h3⟩
          · exact absurd rfl hp.1
          · injection hp with hp; injection hh' with hh'; subst hp hh'; exact ⟨pre, post, h1, h2, h3⟩
  | cons x xs =>
    cases hh : env.hash with
    | error e => simp
    | ok h =>
      simp only [List.isEmpty_cons, Bool.false_eq_true, if_false]
      rw [signerLoop_ok]
      constructor
      · rintro ⟨pre, post, h1, h2, h3⟩; exact ⟨x :: xs, h, pre, post, .inl ⟨by simp, rfl⟩, rfl, h1, h2, h3⟩
      · rintro ⟨pool', h', pre, post, ⟨_, hp⟩ | ⟨hp, _⟩, hh', h1, h2, h3⟩
        · injection hh' with hh'; subst hp hh'; exact ⟨pre, post, h1, h2, h3⟩
        · cases hp

/-- C215: the chain built for a CRL is that of its signer, from the caller's list and the trust store. -/
theorem C215_chain_iff [DecidableEq N] (env : CrlEnv C) (chain : Check.ChainEnv C N K) (certs : List C) (dg : Bool)
    (store dir : Except PyErr (List C)) (l : List C) :
    (buildCrlChain env chain certs dg store dir).1 = .ok l ↔
      (certs = [] → dg = true) ∧ ∃ s c, store = .ok s ∧ findCrlSigner env (certs ++ s) dir = .ok c ∧
        Check.buildChain chain c (certs ++ s) = .ok l := by
  unfold buildCrlChain
  by_cases hc : (certs.isEmpty && !dg) = true
  · rw [if_pos hc]
    rw [Bool.and_eq_true, List.isEmpty_iff] at hc
    constructor
    · intro h; cases h
    · rintro ⟨h, _⟩; have := h hc.1; rw [this] at hc; cases hc.2
  · rw [if_neg hc]
    have hc' : certs = [] → dg = true := by
      intro h; subst h; cases dg
      · exact absurd rfl hc
      · rfl
    cases store with
    | error e => simp
    | ok s =>
      dsimp only
      cases hf : findCrlSigner env (certs ++ s) dir with
      | error e =>
        constructor
        · intro h; cases h
        · rintro ⟨_, s', c, h1, h2, _⟩; injection h1 with h1; subst h1; rw [hf] at h2; cases h2
      | ok c =>
        dsimp only
        constructor
        · intro h; exact ⟨hc', s, c, rfl, hf, h⟩
        · rintro ⟨_, s', c', h1, h2, h3⟩; injection h1 with h1; subst h1; rw [hf] at h2; injection h2 with h2
          subst h2; exact h3

/-- C215, false of the code: building the chain of a CRL changes the caller's list: the whole trust store is appended
to it, so that the anchors are afterwards among the certificates the caller holds; every further call appends them
again. -/
theorem C215_mutation_refuted [DecidableEq N] (env : CrlEnv C) (chain : Check.ChainEnv C N K) (certs : List C)
    (hne : certs ≠ []) (dg : Bool) (s : List C) (dir : Except PyErr (List C)) :
    (buildCrlChain env chain certs dg (.ok s) dir).2 = certs ++ s ∧
    (buildCrlChain env chain (buildCrlChain env chain certs dg (.ok s) dir).2 dg (.ok s) dir).2 = certs ++ s ++ s := by
  have key : ∀ cs : List C, cs ≠ [] → (buildCrlChain env chain cs dg (.ok s) dir).2 = cs ++ s := by
    intro cs h
    have he : cs.isEmpty = false := by cases cs with
      | nil => exact absurd rfl h
      | cons => rfl
    unfold buildCrlChain
    rw [he]
    simp only [Bool.false_and, Bool.false_eq_true, if_false]
    cases findCrlSigner env (cs ++ s) dir <;> rfl
  have h1 := key certs hne
  refine ⟨h1, ?_⟩
  rw [h1]
  exact key _ (by simp [hne])

/-- C215, false of the code: a certificate with the issuer's name whose key cannot be loaded makes the search fail
although the signer follows it in the list. -/
theorem C215_unreadable_refuted (env : CrlEnv C) (h : Option String) (hh : env.hash = .ok h) (bad c : C)
    (hn : env.sameName bad = true) (e : PyErr) (he : e ≠ .valueError ∧ e ≠ .invalidSignature)
    (hv : env.verify h bad = .error e) (dir : Except PyErr (List C)) :
    findCrlSigner env [bad, c] dir = .error e := by
  unfold findCrlSigner
  simp only [List.isEmpty_cons, Bool.false_eq_true, if_false, hh]
  unfold signerLoop
  rw [if_pos hn, hv]
  have : skipSigner e = false := by
    cases e <;> first | rfl | exact absurd rfl he.1 | exact absurd rfl he.2
  dsimp only
  rw [this]; rfl

end Signer

/-- Toy search: 1 has another name, 2 and 4 the issuer's name but other keys, 3 is the signer; 5 has the issuer's name and
a key that cannot be loaded. -/
def exCrlEnv : CrlEnv Nat where
  sameName c := c ≠ 1
  verify _ c := if c = 3 then .ok () else if c = 5 then .error .invalidKeyData else .error .invalidSignature

example : findCrlSigner exCrlEnv [1, 2, 3, 4] (.ok []) = .ok 3 ∧ findCrlSigner exCrlEnv [] (.ok [4, 3]) = .ok 3 ∧
    findCrlSigner exCrlEnv [5, 3] (.ok []) = .error .invalidKeyData ∧
    findCrlSigner exCrlEnv [1, 2] (.ok []) = .error .valueError := by decide +kernel

/-- Toy chain environment: 3 is issued by 9, which is self-signed. -/
def exCrlChain : Check.ChainEnv Nat Nat Nat where
  subject c := c
  issuer c := if c = 3 then 9 else c
  loadKey c := .ok c
  verify k c _ := if (c = 3 ∧ k = 9) ∨ (c = 9 ∧ k = 9) then .ok () else .error .invalidSignature

example : buildCrlChain exCrlEnv exCrlChain [3] true (.ok [9]) (.ok []) = (.ok [3, 9], [3, 9]) := by decide +kernel

end Verif.Ra
