import Verif.Ra.CrlPoint
import Verif.Ra.BuildProps
import Verif.Ra.GeneralExamples

/-!
# C245: the addresses of revocation information in certificates are read and answered; C246: issuer and serial number
-/

namespace Verif.Ra.CrlDp

open Verif.CA (PyErr)
open Verif.Ra.Revoked (RevCert getOcspUrls crlUrls)

variable {N R : Type}

/-! ## Reasons -/

/-- The bits of `ReasonFlags` (RFC 5280, 4.2.1.13). -/
def rfcReason : List (List Char × Nat) :=
  [("unused".toList, 0), ("keyCompromise".toList, 1), ("cACompromise".toList, 2), ("affiliationChanged".toList, 3),
   ("superseded".toList, 4), ("cessationOfOperation".toList, 5), ("certificateHold".toList, 6),
   ("privilegeWithdrawn".toList, 7), ("aACompromise".toList, 8)]

theorem rfcReason_iff (t : List Char) (k : Nat) : (t, k) ∈ rfcReason ↔ reasonFlags[k]? = some t := by
  constructor
  · have : ∀ e ∈ rfcReason, reasonFlags[e.2]? = some e.1 := by decide +kernel
    exact fun h => this _ h
  · intro h
    have hk : k < 9 := (List.getElem?_eq_some_iff.1 h).1
    have : ∀ k : Fin 9, ∀ t ∈ reasonFlags[k.val]?, (t, k.val) ∈ rfcReason := by decide +kernel
    exact this ⟨k, hk⟩ t h

theorem reasonFlags_mem (t : List Char) : t ∈ reasonFlags ↔ ∃ k, (t, k) ∈ rfcReason := by
  constructor
  · intro h
    obtain ⟨k, hk⟩ := List.getElem?_of_mem h
    exact ⟨k, (rfcReason_iff ..).2 hk⟩
  · rintro ⟨k, hk⟩
    exact List.mem_of_getElem? ((rfcReason_iff ..).1 hk)

theorem flagBits_get (l : List (List Char)) (k : Nat) : (flagBits l)[k]? = some true ↔ ∃ t, (t, k) ∈ rfcReason ∧ t ∈ l := by
  unfold flagBits
  rw [List.getElem?_map]
  constructor
  · intro h
    cases hk : reasonFlags[k]? with
    | none => rw [hk] at h; cases h
    | some t =>
      rw [hk] at h
      exact ⟨t, (rfcReason_iff ..).2 hk, of_decide_eq_true (Option.some.inj h)⟩
  · rintro ⟨t, h1, h2⟩
    rw [(rfcReason_iff ..).1 h1]
    exact congrArg some (decide_eq_true h2)

/-- **C245.** A text of reasons is accepted if it is "all" or each of the texts between its commas is a reason. -/
theorem C245_reasons_iff (s : List Char) :
    (∃ b, reasonBits s = .ok b) ↔ s = "all".toList ∨ ∀ t, Piece ',' s t → ∃ k, (t, k) ∈ rfcReason := by
  unfold reasonBits
  by_cases ha : s = "all".toList
  · rw [if_pos ha]
    exact ⟨fun _ => .inl ha, fun _ => ⟨_, rfl⟩⟩
  · rw [if_neg ha]
    constructor
    · rintro ⟨b, h⟩
      split at h
      · rename_i hall
        exact .inr (fun t ht => (reasonFlags_mem t).1 (hall t ((mem_splitAt_iff ..).2 ht)))
      · cases h
    · rintro (h | h)
      · exact absurd h ha
      · rw [if_pos (fun t ht => (reasonFlags_mem t).2 (h t ((mem_splitAt_iff ..).1 ht)))]
        exact ⟨_, rfl⟩

/-- **C245.** The bits which are set are those of the reasons in the text, and all of them for "all". -/
theorem C245_reason_bits (s : List Char) (b : List Bool) (h : reasonBits s = .ok b) (k : Nat) :
    b[k]? = some true ↔ ∃ t, (t, k) ∈ rfcReason ∧ (s = "all".toList ∨ Piece ',' s t) := by
  unfold reasonBits at h
  by_cases ha : s = "all".toList
  · rw [if_pos ha] at h
    cases h
    rw [flagBits_get]
    constructor
    · rintro ⟨t, h1, _⟩; exact ⟨t, h1, .inl ha⟩
    · rintro ⟨t, h1, _⟩; exact ⟨t, h1, (reasonFlags_mem t).2 ⟨k, h1⟩⟩
  · rw [if_neg ha] at h
    split at h
    · cases h
      rw [flagBits_get]
      constructor
      · rintro ⟨t, h1, h2⟩; exact ⟨t, h1, .inr ((mem_splitAt_iff ..).1 h2)⟩
      · rintro ⟨t, h1, h2 | h2⟩
        · exact absurd h2 ha
        · exact ⟨t, h1, (mem_splitAt_iff ..).2 h2⟩
    · cases h

example : reasonBits "keyCompromise,superseded".toList = .ok [false, true, false, false, true, false, false, false, false] := by
  decide +kernel

/-- **C245 refuted.** A blank after a comma is an error, although the texts of the statuses and failures may have one. -/
theorem C245_blank_refuted : reasonBits "keyCompromise, superseded".toList = .error .valueError := by decide +kernel

/-- **C245 refuted.** The reasons of an issuing distribution point are all nine of them, whichever were asked for. -/
theorem C245_idp_reasons_refuted (prep : String → Except PyErr N) (dpn : Option (Option (Dpn N R))) (full : Option (NamesArg N))
    (rel : Option (List R)) (a : IdpArgs) (s : List Char) (hs : a.reasons = some s) (i : Idp N R)
    (h : prepIdp prep dpn full rel a = .ok i) : ∃ b, i.reasons = some b ∧ ∀ t k, (t, k) ∈ rfcReason → b[k]? = some true := by
  unfold prepIdp at h
  cases hn : idpName prep dpn full rel with
  | error e => rw [hn] at h; cases h
  | ok d =>
    rw [hn] at h
    dsimp only at h
    rw [hs] at h
    unfold someReasons at h
    dsimp only at h
    cases hr : reasonBits s with
    | error e => rw [hr] at h; cases h
    | ok b =>
      rw [hr] at h
      cases h
      refine ⟨_, rfl, ?_⟩
      intro t k hk
      have : ∀ e ∈ rfcReason, (reasonFlags.map (fun n => !n.isEmpty))[e.2]? = some true := by decide +kernel
      exact this _ hk

example : ((prepIdp (N := Nat) (R := Nat) (fun _ => .ok 0) none none none { reasons := some "keyCompromise".toList }).toOption.map
    (·.reasons)) = some (some [true, true, true, true, true, true, true, true, true]) := by decide +kernel

/-! ## Distribution points -/

theorem truthy_one (u : String) (hu : u ≠ "") : (NamesArg.one u : NamesArg N).truthy = true := by
  unfold NamesArg.truthy
  dsimp only
  rw [decide_eq_false hu]
  rfl

theorem given_one (u : String) (hu : u ≠ "") : givenNames (some (.one u) : Option (NamesArg N)) = true := truthy_one (N := N) u hu

theorem filter_ne (t : String) (ht : t ≠ "") : (some t).filter (fun s => !decide (s = "")) = some t := by
  rw [Option.filter_some, if_pos (by rw [decide_eq_false ht]; rfl)]

theorem dpnOf_one (prep : String → Except PyErr N) (u : String) (hu : u ≠ "") :
    dpnOf prep (some (.one u)) (none : Option (List R)) = .ok (some (.full [.uri u])) := by
  unfold dpnOf
  dsimp only
  rw [truthy_one u hu]
  rfl

/-- **C245.** A distribution point for an address has this address, the reasons, and nothing else. -/
theorem C245_uri (prep : String → Except PyErr N) (u : String) (hu : u ≠ "") (rs : Option (List Char)) (p : DistPoint N R) :
    prepPoint prep rs none (some (.one u)) none = .ok p ↔
      p.name = some (.full [.uri u]) ∧ p.issuer = none ∧
        ((rs.getD [] = [] ∧ p.reasons = none) ∨ ∃ s b, rs = some s ∧ s ≠ [] ∧ reasonBits s = .ok b ∧ p.reasons = some b) := by
  have hn : pointName prep (some (.one u)) (none : Option (List R)) = .ok (some (.full [.uri u])) := by
    unfold pointName prepDpn
    rw [if_pos (by rw [given_one u hu]; rfl), dpnOf_one prep u hu]
    rfl
  unfold prepPoint
  rw [hn]
  unfold pointIssuer
  dsimp only
  obtain ⟨pn, pr, pi⟩ := p
  dsimp only
  rcases rs with _ | _ | ⟨c, l⟩
  · unfold pointReasons
    dsimp only
    constructor
    · intro h; cases h; exact ⟨rfl, rfl, .inl ⟨rfl, rfl⟩⟩
    · rintro ⟨rfl, rfl, ⟨_, rfl⟩ | ⟨_, _, h, _⟩⟩
      · rfl
      · cases h
  · unfold pointReasons
    dsimp only
    constructor
    · intro h; cases h; exact ⟨rfl, rfl, .inl ⟨rfl, rfl⟩⟩
    · rintro ⟨rfl, rfl, ⟨_, rfl⟩ | ⟨_, _, h, h', _⟩⟩
      · rfl
      · cases h; exact absurd rfl h'
  · unfold pointReasons
    dsimp only
    cases hr : reasonBits (c :: l) with
    | error e =>
      constructor
      · intro h; cases h
      · rintro ⟨_, _, ⟨h, _⟩ | ⟨s, b, h, _, h2, _⟩⟩
        · cases h
        · cases h; rw [hr] at h2; cases h2
    | ok b =>
      constructor
      · intro h; cases h; exact ⟨rfl, rfl, .inr ⟨_, b, rfl, nofun, hr, rfl⟩⟩
      · rintro ⟨rfl, rfl, ⟨h, _⟩ | ⟨s, b', h, _, h2, rfl⟩⟩
        · cases h
        · cases h; rw [hr] at h2; cases h2; rfl

/-- **C245.** An address and a relative name together are refused. -/
theorem C245_both (prep : String → Except PyErr N) (is : Option (NamesArg N)) (u : String) (hu : u ≠ "") (r : List R)
    (p : DistPoint N R) : prepPoint prep none is (some (.one u)) (some r) ≠ .ok p := by
  have : pointName prep (some (.one u)) (some r) = .error .valueError := by
    unfold pointName prepDpn
    rw [if_pos (by rw [given_one u hu]; rfl)]
    rfl
  unfold prepPoint pointReasons
  dsimp only
  cases pointIssuer prep is with
  | error e => exact nofun
  | ok x => dsimp only; rw [this]; exact nofun

/-- **C245 refuted.** A distribution point of reasons only is made, which RFC 5280 (4.2.1.13) forbids; and so is one with
nothing in it. -/
theorem C245_reasons_only_refuted (prep : String → Except PyErr N) :
    (∃ b, prepPoint prep (some "all".toList) none none (none : Option (List R)) = .ok ⟨none, some b, none⟩) ∧
      prepPoint prep none none (some (.one "")) (none : Option (List R)) = .ok {} :=
  ⟨⟨_, rfl⟩, rfl⟩

/-- **C245 refuted.** An empty address is no name for a distribution point, and an error for an issuing distribution
point. -/
theorem C245_empty_refuted (prep : String → Except PyErr N) (a : IdpArgs) :
    prepIdp prep none (some (.one "")) (none : Option (List R)) a = .error .pyasn1Error ∧
      pointName prep (some (.one "")) (none : Option (List R)) = .ok none := ⟨rfl, rfl⟩

/-- **C245 refuted.** The name for the extension is ignored if an issuing distribution point is given, even if there are two of
them, which is refused otherwise. -/
theorem C245_idp_given_refuted (prep : String → Except PyErr N) (i : Idp N R) (d : Option (Dpn N R)) (f : NamesArg N) :
    idpExt prep (some i) (some d) (some f) = .ok i ∧ idpExt prep (none : Option (Idp N R)) (some d) (some f) = .error .valueError :=
  ⟨rfl, rfl⟩

/-! ## The extensions of the CA -/

theorem crl_ne (u : UrlData) : u.crl ≠ "" := by
  intro h
  have := congrArg String.toList h
  unfold UrlData.crl at this
  rw [String.toList_append] at this
  have h2 := (List.append_eq_nil_iff.1 this).2
  exact absurd h2 (by decide +kernel)

/-- **C245.** The extensions which the CA adds to certificates: the address of the OCSP responder, two distribution points, and
an issuing distribution point. -/
theorem C245_ca (prep : String → Except PyErr N) (u : UrlData) (subject : N) :
    ∃ b, (∀ t k, (t, k) ∈ rfcReason → b[k]? = some true) ∧ caExts (R := R) prep u subject = .ok
      ⟨some [("1.3.6.1.5.5.7.48.1", some (u.base ++ ":" ++ toString u.port ++ "/ocsp"))],
       some [⟨some (.full [.uri (u.base ++ ":" ++ toString u.port ++ "/crl")]), some b, none⟩,
         ⟨none, none, some [.directory subject]⟩],
       some { name := some (.full [.uri (u.base ++ ":" ++ toString u.port ++ "/crl")]) }⟩ := by
  refine ⟨flagBits reasonFlags, ?_, ?_⟩
  · intro t k h
    exact (flagBits_get ..).2 ⟨t, h, (reasonFlags_mem t).2 ⟨k, h⟩⟩
  · have h1 : prepPoint prep (some "all".toList) none (some (.one u.crl)) (none : Option (List R)) =
        .ok ⟨some (.full [.uri u.crl]), some (flagBits reasonFlags), none⟩ :=
      (C245_uri prep u.crl (crl_ne u) _ _).2 ⟨rfl, rfl, .inr ⟨_, _, rfl, by decide, rfl, rfl⟩⟩
    have h2 : idpName prep none (some (.one u.crl)) (none : Option (List R)) = .ok (some (.full [.uri u.crl])) := by
      unfold idpName idpDpn prepDpn
      dsimp only
      rw [dpnOf_one prep _ (crl_ne u)]
      rfl
    have h3 : prepIdp prep none (some (.one u.crl)) (none : Option (List R)) {} = .ok { name := some (.full [.uri u.crl]) } := by
      unfold prepIdp
      rw [h2]
      rfl
    unfold caExts ocspExt
    dsimp only
    rw [h1]
    dsimp only
    rw [h3]
    rfl

/-- **C245.** The client finds exactly the address of the OCSP responder and the one of the CRL in a certificate of the CA. -/
theorem C245_client (prep : String → Except PyErr N) (u : UrlData) (subject : N) (x : RevExts N R)
    (h : caExts prep u subject = .ok x) (serial : Int) (issuer : String) :
    getOcspUrls (toRev serial issuer x) = .ok [u.base ++ ":" ++ toString u.port ++ "/ocsp"] ∧
      crlUrls (toRev serial issuer x) = [u.base ++ ":" ++ toString u.port ++ "/crl"] := by
  obtain ⟨b, _, hx⟩ := C245_ca (R := R) prep u subject
  rw [hx] at h
  cases h
  exact ⟨rfl, rfl⟩

/-- **C245.** A request for the CRL which is made from a certificate of the CA is answered with the CRL. -/
theorem C245_answered [DecidableEq N] [DecidableEq R] {E C : Type} (prep : String → Except PyErr N) (u : UrlData) (subject : N)
    (x : RevExts N R) (h : caExts prep u subject = .ok x) (env : GenEnv N (List R) E C) (hu : env.crlUrl = u.crl) (now : Int) (i : Nat) :
    ∃ s, crlRetrieval now { cert := some x } = .ok s ∧ crlOfStatus env i s = (env.crl i).map some := by
  obtain ⟨b, _, hx⟩ := C245_ca (R := R) prep u subject
  rw [hx] at h
  cases h
  refine ⟨⟨.fullName [.uri u.crl], none⟩, rfl, ?_⟩
  unfold crlOfStatus sourceOk findName sameGenName
  dsimp only
  rw [hu, beq_self_eq_true]

example : (caExts (R := Nat) (fun _ => .ok 7) ⟨"http://127.0.0.1", 5000⟩ (7 : Nat)).toOption.bind
    (fun x => (crlRetrieval 0 { cert := some x }).toOption.map (·.source)) =
      some (.fullName [.uri "http://127.0.0.1:5000/crl"]) := by decide +kernel

/-- **C245 refuted.** The second distribution point of the CA has the CA itself as `cRLIssuer`, and no name: RFC 5280 (4.2.1.13)
asks the CA to leave it out and to include the name. -/
theorem C245_crl_issuer_refuted (prep : String → Except PyErr N) (u : UrlData) (subject : N) (x : RevExts N R)
    (h : caExts prep u subject = .ok x) : ∃ ps, x.points = some ps ∧ ∃ p ∈ ps, p.name = none ∧ p.issuer = some [.directory subject] := by
  obtain ⟨b, _, hx⟩ := C245_ca (R := R) prep u subject
  rw [hx] at h
  cases h
  exact ⟨_, rfl, _, List.mem_cons_of_mem _ (List.mem_cons_self ..), rfl, rfl⟩

/-- **C245 refuted.** There is no request for the second distribution point, or for one which is not there; for both the error is
that no name was given. -/
theorem C245_index_refuted (prep : String → Except PyErr N) (u : UrlData) (subject : N) (x : RevExts N R)
    (h : caExts prep u subject = .ok x) (now : Int) (i : Nat) (hi : 0 < i) :
    crlRetrieval now { cert := some x, index := i } = .error .valueError := by
  obtain ⟨b, _, hx⟩ := C245_ca (R := R) prep u subject
  rw [hx] at h
  cases h
  obtain ⟨j, rfl⟩ : ∃ j, i = j + 1 := ⟨i - 1, by omega⟩
  cases j with
  | zero => rfl
  | succ j => rfl

/-! ## Requests -/

/-- **C245 refuted.** An address or a name which is given is ignored if the certificate has a distribution point. -/
theorem C245_given_refuted (now : Int) (x : RevExts N R) (d : Dpn N R) (hd : certDpn x 0 = some d) (url name : Option String) :
    crlRetrieval now { cert := some x, url := url, name := name } = .ok ⟨d.source, none⟩ := by
  unfold crlRetrieval retSource
  have : retFile { cert := some x, url := url, name := name } = some d := by
    cases url with
    | none => cases name <;> exact hd
    | some u => exact hd
  rw [this]
  rfl

/-- **C245.** Without a certificate and a CRL the source is the name, or the address if there is none. -/
theorem C245_source_iff (now : Int) (url name : Option String) (s : CrlStatus N (List R)) :
    crlRetrieval now { url := url, name := name } = .ok s ↔
      s.thisUpdate = none ∧ ((∃ n, name = some n ∧ s.source = .fullName [.mail n]) ∨
        (∃ u, name = none ∧ url = some u ∧ s.source = .fullName [.uri u])) := by
  obtain ⟨src, t⟩ := s
  unfold crlRetrieval retSource
  have : retFile (N := N) (R := R) { url := url, name := name } = none := by
    cases url with
    | none => cases name <;> rfl
    | some u => rfl
  rw [this]
  dsimp only
  unfold genNameDpn
  cases name with
  | some n =>
    constructor
    · intro h; cases h; exact ⟨rfl, .inl ⟨n, rfl, rfl⟩⟩
    · rintro ⟨rfl, ⟨n', h, rfl⟩ | ⟨_, h, _⟩⟩
      · cases h; rfl
      · cases h
  | none =>
    cases url with
    | none =>
      constructor
      · intro h; cases h
      · rintro ⟨_, ⟨_, h, _⟩ | ⟨_, _, h, _⟩⟩ <;> cases h
    | some u =>
      constructor
      · intro h; cases h; exact ⟨rfl, .inr ⟨u, rfl, rfl, rfl⟩⟩
      · rintro ⟨rfl, ⟨_, h, _⟩ | ⟨_, _, h, rfl⟩⟩
        · cases h
        · cases h; rfl

/-- **C245.** The CA answers such a request if the name is the text of its own, or the address is the one of its CRL. -/
theorem C245_source_answer [DecidableEq N] [DecidableEq R] {E C : Type} (env : GenEnv N (List R) E C) (now : Int) (url name : Option String)
    (s : CrlStatus N (List R)) (h : crlRetrieval now { url := url, name := name } = .ok s) (i : Nat) :
    crlOfStatus env i s = if name = some env.rootText ∨ (name = none ∧ url = some env.crlUrl) then (env.crl i).map some
      else .ok none := by
  obtain ⟨ht, ⟨n, rfl, hs⟩ | ⟨u, rfl, rfl, hs⟩⟩ := (C245_source_iff ..).1 h
  · unfold crlOfStatus sourceOk
    rw [hs, ht]
    dsimp only
    unfold findName sameGenName findName
    dsimp only
    by_cases e : env.rootText = n
    · rw [if_pos (.inl (by rw [e])), beq_iff_eq.2 e]
    · rw [if_neg (by rintro (h | ⟨h, _⟩) <;> cases h; exact e rfl), beq_eq_false_iff_ne.2 e]
  · unfold crlOfStatus sourceOk
    rw [hs, ht]
    dsimp only
    unfold findName sameGenName findName
    dsimp only
    by_cases e : u = env.crlUrl
    · subst e
      rw [if_pos (.inr ⟨rfl, rfl⟩), beq_self_eq_true]
    · rw [if_neg (by rintro (h | ⟨_, h⟩) <;> cases h; exact e rfl), beq_eq_false_iff_ne.2 (fun h => e h.symm)]

/-- **C245.** With a CRL without extensions the source is its issuer and the time is its `thisUpdate`; the CA answers if it is
the issuer and the CRL is older than 25 hours. -/
theorem C245_file [DecidableEq N] [DecidableEq R] {E C : Type} (env : GenEnv N (List R) E C) (now : Int) (f : CrlFile N R)
    (hf : f.exts = none) (hn : f.issuer = env.rootName) (i : Nat) :
    ∃ s, crlRetrieval now { file := some f } = .ok s ∧
      crlOfStatus env i s = if env.now - f.thisUpdate > 90000 then (env.crl i).map some else .ok none := by
  refine ⟨⟨.fullName [.directory f.issuer], some (f.thisUpdate + 0)⟩, ?_, ?_⟩
  · unfold crlRetrieval retSource retFile fileDpn
    dsimp only
    rw [hf]
    rfl
  · unfold crlOfStatus sourceOk findName sameGenName
    dsimp only
    rw [decide_eq_true hn, Int.add_zero]

/-- **C245 refuted.** The index has no effect for a CRL: its first distribution point is taken. -/
theorem C245_file_index_refuted (now : Int) (f : CrlFile N R) (i : Nat) :
    crlRetrieval now { file := some f, index := i } = crlRetrieval now { file := some f } := rfl

/-- **C245 refuted.** With a certificate and a CRL the source is the one of the CRL, and that of the certificate is lost. -/
theorem C245_cert_file_refuted (now : Int) (x : RevExts N R) (f : CrlFile N R) (i : Nat) :
    crlRetrieval now { cert := some x, file := some f, index := i } = crlRetrieval now { file := some f } := rfl

/-- **C245 refuted.** A time which is meant to be bad is not refused by the CA: it is one day later, and the answer is the CRL or
nothing. -/
theorem C245_bad_refuted [DecidableEq N] [DecidableEq R] {E C : Type} (env : GenEnv N (List R) E C) (now : Int) (u : String)
    (hu : u = env.crlUrl) (i : Nat) :
    ∃ s, crlRetrieval now { url := some u, bad := true } = .ok s ∧ s.thisUpdate = some (now + 86400) ∧
      crlOfStatus env i s = if env.now - now > 176400 then (env.crl i).map some else .ok none := by
  refine ⟨⟨.fullName [.uri u], some (now + 86400)⟩, rfl, rfl, ?_⟩
  unfold crlOfStatus sourceOk findName sameGenName
  dsimp only
  rw [hu, beq_self_eq_true]
  dsimp only
  by_cases h : env.now - now > 176400
  · rw [if_pos h, if_pos (by omega)]
  · rw [if_neg h, if_neg (by omega)]

/-- **C245.** With `exclude_this_update` there is no time, whatever else is given. -/
theorem C245_exclude (now : Int) (a : RetArgs N R) (ha : a.exclude = true) (s : CrlStatus N (List R)) (h : crlRetrieval now a = .ok s) :
    s.thisUpdate = none := by
  unfold crlRetrieval at h
  cases hs : retSource a with
  | error e => rw [hs] at h; cases h
  | ok d =>
    rw [hs] at h
    cases h
    unfold retTime
    rw [if_neg (by rw [ha]; simp)]

/-! ## Issuer and serial number -/

variable {C : Type}

/-- **C246.** From a certificate alone: its issuer and its serial number. -/
theorem C246_cert (env : IsEnv C N) (c : C) : issuerSerial env { cert := some c } = .ok (env.issuer c, env.serial c) := rfl

/-- **C246.** Without a certificate both the issuer and the serial number are needed, and taken. -/
theorem C246_given_iff (env : IsEnv C N) (s : Option String) (k : Option SerArg) (hs : s ≠ some "") (r : N × Int) :
    issuerSerial env { issuer := s, serial := k } = .ok r ↔
      ∃ t j, s = some t ∧ k = some j ∧ env.prep t = .ok r.1 ∧
        (j = .num r.2 ∨ ∃ x, j = .text x ∧ env.int x = some r.2) := by
  obtain ⟨n, m⟩ := r
  unfold issuerSerial
  cases s with
  | none =>
    rw [if_pos ⟨rfl, .inl rfl⟩]
    exact ⟨nofun, fun ⟨_, _, h, _⟩ => by cases h⟩
  | some t =>
    have ht : t ≠ "" := fun h => hs (by rw [h])
    cases k with
    | none =>
      rw [if_pos ⟨rfl, .inr rfl⟩]
      exact ⟨nofun, fun ⟨_, _, _, h, _⟩ => by cases h⟩
    | some j =>
      rw [if_neg (by simp)]
      have hi : isIssuer env ({ issuer := some t, serial := some j } : IsArgs C) = env.prep t := by
        unfold isIssuer
        dsimp only
        rw [filter_ne t ht]
      rw [hi]
      unfold isSerial
      dsimp only
      constructor
      · intro h
        cases hp : env.prep t with
        | error e => rw [hp] at h; cases h
        | ok n' =>
          rw [hp] at h
          dsimp only at h
          cases j with
          | num z =>
            cases h
            exact ⟨t, _, rfl, rfl, hp, .inl rfl⟩
          | text x =>
            unfold serNum at h
            dsimp only at h
            cases hx : env.int x with
            | none => rw [hx] at h; cases h
            | some z =>
              rw [hx] at h
              cases h
              exact ⟨t, _, rfl, rfl, hp, .inr ⟨x, rfl, hx⟩⟩
      · rintro ⟨t', j', h, h', hp, hj⟩
        cases h
        cases h'
        rw [hp]
        dsimp only
        rcases hj with rfl | ⟨x, rfl, hx⟩
        · rfl
        · unfold serNum
          dsimp only
          rw [hx]
          rfl

/-- **C246.** A serial number which is meant to be modified is another one than that of the certificate, and the issuer is
still its own. -/
theorem C246_mod_serial (env : IsEnv C N) (c : C) :
    ∃ k, issuerSerial env { cert := some c, modSerial := true } = .ok (env.issuer c, k) ∧ k ≠ env.serial c :=
  ⟨env.serial c + 1, rfl, by omega⟩

/-- **C246.** An issuer which is meant to be modified is the name for the changed text. -/
theorem C246_mod_issuer_iff (env : IsEnv C N) (c : C) (r : N × Int) :
    issuerSerial env { cert := some c, modIssuer := true } = .ok r ↔
      ∃ s, env.modified c = .ok s ∧ env.prep s = .ok r.1 ∧ r.2 = env.serial c := by
  obtain ⟨n, m⟩ := r
  unfold issuerSerial isIssuer
  dsimp only [Option.filter]
  rw [if_neg (by simp), if_pos rfl]
  constructor
  · intro h
    cases hm : env.modified c with
    | error e => rw [hm] at h; cases h
    | ok s =>
      rw [hm] at h
      dsimp only at h
      cases hp : env.prep s with
      | error e => rw [hp] at h; cases h
      | ok n' => rw [hp] at h; cases h; exact ⟨s, rfl, hp, rfl⟩
  · rintro ⟨s, hm, hp, rfl⟩
    rw [hm]
    dsimp only at hp ⊢
    rw [hp]
    rfl

/-- **C246 refuted.** An issuer which is meant to be modified is not, if it is given. -/
theorem C246_mod_issuer_refuted (env : IsEnv C N) (c : Option C) (t : String) (ht : t ≠ "") (k : Option SerArg) :
    issuerSerial env { cert := c, issuer := some t, serial := k, modIssuer := true } =
      issuerSerial env { cert := c, issuer := some t, serial := k } := by
  unfold issuerSerial isIssuer
  dsimp only
  rw [filter_ne t ht]
  rfl

/-- **C246 refuted.** An empty issuer, which is meant to be a name without entries, is replaced by that of the certificate; without
a certificate it is a `TypeError`. -/
theorem C246_empty_refuted (env : IsEnv C N) (c : C) (k : SerArg) :
    isIssuer env { cert := some c, issuer := some "", serial := some k } = .ok (env.issuer c) ∧
      issuerSerial env ({ issuer := some "", serial := some k } : IsArgs C) = .error .typeError := ⟨rfl, rfl⟩

example : (issuerSerial (C := Nat × Int) (N := Nat) ⟨(·.1), (·.2), fun _ => .ok 3, fun _ => some 5, fun _ => .ok "CN=a"⟩
    { cert := some (1, 8), serial := some (.text "5"), modSerial := true }).toOption = some (1, 6) := by decide +kernel

end Verif.Ra.CrlDp
