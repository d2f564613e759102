import Verif.Ra.RespBuildProps

/-!
# Properties of the messages of the CA with responses (C243)
-/

namespace Verif.Ra

open Verif.CA (Bytes PyErr)
open Verif.Check (stripL pkiStatusNames RfcStatus)

variable {C N : Type}

/-- The answers to requests for certificates (RFC 9810, 5.3). -/
inductive CertAnswer : List Char → List Char → Prop
  | ir : CertAnswer "ir".toList "ip".toList
  | cr : CertAnswer "cr".toList "cp".toList
  | p10cr : CertAnswer "p10cr".toList "cp".toList
  | kur : CertAnswer "kur".toList "kup".toList
  | ccr : CertAnswer "ccr".toList "ccp".toList

/-- **C243.** The body of the answer is the one for the body of the request, and there is none for other requests. -/
theorem C243_name_iff (b n : List Char) : caBodyName b = .ok n ↔ CertAnswer b n := by
  constructor
  · intro h
    unfold caBodyName at h
    split at h
    · rename_i hb; cases h; subst hb; exact .ir
    split at h
    · rename_i hb
      cases h
      rcases List.mem_cons.1 hb with rfl | hb
      · exact .cr
      rcases List.mem_cons.1 hb with rfl | hb
      · exact .p10cr
      cases hb
    split at h
    · rename_i hb; cases h; subst hb; exact .kur
    split at h
    · rename_i hb; cases h; subst hb; exact .ccr
    cases h
  · intro h
    cases h <;> decide +kernel

theorem certAnswer_body {b n : List Char} (h : CertAnswer b n) : IsCaBody n := by
  cases h <;> constructor

theorem certAnswer_mem {b n : List Char} (h : CertAnswer b n) : n ∈ caBodies := (caBodies_iff n).2 (certAnswer_body h)

theorem respBodyName_eq (b : List Char) (h1 : b ≠ "ccr".toList) (h2 : b ≠ "crr".toList) : respBodyName b = caBodyName b := by
  have key : ∀ s : String, String.ofList b = s ↔ b = s.toList := by
    intro s
    constructor
    · intro h; rw [← h, String.toList_ofList]
    · rintro rfl; exact String.ofList_toList
  unfold respBodyName replyType caBodyName
  by_cases a : b = "ir".toList
  · rw [if_pos ((key _).2 a), if_pos a]
  rw [if_neg (fun h => a ((key _).1 h)), if_neg a]
  by_cases c : b ∈ ["cr".toList, "p10cr".toList]
  · have : String.ofList b ∈ ["cr", "p10cr"] := by
      rcases List.mem_cons.1 c with e | c
      · rw [(key _).2 e]; decide
      rcases List.mem_cons.1 c with e | c
      · rw [(key _).2 e]; decide
      cases c
    rw [if_pos this, if_pos c]
  · have : ¬ String.ofList b ∈ ["cr", "p10cr"] := by
      intro h
      rcases List.mem_cons.1 h with e | h
      · exact c (by rw [(key _).1 e]; decide)
      rcases List.mem_cons.1 h with e | h
      · exact c (by rw [(key _).1 e]; decide)
      cases h
    rw [if_neg this, if_neg c]
    by_cases d : b = "kur".toList
    · rw [if_pos ((key _).2 d), if_pos d]
    rw [if_neg (fun h => d ((key _).1 h)), if_neg d, if_neg (fun h => h2 ((key _).1 h)), if_neg h1]

/-- **C243 refuted.** `_build_ca_cert_response_body` does not answer a `ccr`, unless the name of the body is given, since the
name of the request is misspelt. -/
theorem C243_ccr_refuted (he : HdrEnv N) (q : CaReq N) (hq : q.body = "ccr".toList) (set : Bool) (a : HArgs N)
    (rs : Option (List (KResp C))) (pubs : Option (List C)) (m : CaMsg N C) : buildCertBody he (some q) set a none rs pubs ≠ .ok m := by
  intro h
  unfold buildCertBody plainName orName at h
  cases hh : respHdr he ((some q).map (·.hdr)) set a with
  | error e => rw [hh] at h; cases h
  | ok hd =>
    rw [hh] at h
    dsimp only at h
    rw [hq, show respBodyName "ccr".toList = .error .valueError by decide +kernel] at h
    cases h

/-- **C243.** `build_ca_message` makes the answer to the request. -/
theorem C243_answer_iff (he : HdrEnv N) (q : CaReq N) (set : Bool) (a : HArgs N)
    (rs : List (KResp C)) (m : CaMsg N C) :
    buildCaMessage he (some q) set a none (some rs) = .ok m ↔
      ∃ hd n, respHdr he (some q.hdr) set a = .ok hd ∧ CertAnswer q.body n ∧
        m = ⟨hd, { pvno := hd.pvno, body := n, resps := rs }⟩ := by
  unfold buildCaMessage messageName orName
  dsimp only
  constructor
  · intro h
    cases hn : caBodyName q.body with
    | error e => rw [hn] at h; cases h
    | ok n =>
      rw [hn] at h
      dsimp only [Option.map] at h
      cases hh : respHdr he (some q.hdr) set a with
      | error e => rw [hh] at h; cases h
      | ok hd =>
        rw [hh] at h
        dsimp only at h
        have hc := (C243_name_iff ..).1 hn
        have : n ∈ caBodies := certAnswer_mem hc
        unfold caBody at h
        rw [if_neg (fun x => x this)] at h
        cases h
        exact ⟨hd, n, rfl, hc, rfl⟩
  · rintro ⟨hd, n, hh, hc, rfl⟩
    have : n ∈ caBodies := certAnswer_mem hc
    rw [(C243_name_iff ..).2 hc]
    dsimp only [Option.map]
    rw [hh]
    unfold caBody
    rw [if_neg (fun x => x this)]
    rfl

/-- **C243.** `_build_ca_cert_response_body` makes the same message, apart from `ccr`, and from the name `crr`, which no body
has. -/
theorem C243_answer_body_partial (he : HdrEnv N) (q : CaReq N) (h1 : q.body ≠ "ccr".toList) (h2 : q.body ≠ "crr".toList) (set : Bool)
    (a : HArgs N) (rs : List (KResp C)) (m : CaMsg N C) :
    buildCertBody he (some q) set a none (some rs) none = .ok m ↔ buildCaMessage he (some q) set a none (some rs) = .ok m := by
  unfold buildCertBody buildCaMessage plainName messageName orName
  dsimp only
  rw [respBodyName_eq q.body h1 h2]
  cases respHdr he ((some q).map (·.hdr)) set a with
  | error e =>
    cases caBodyName q.body with
    | error e' => exact ⟨nofun, nofun⟩
    | ok n => exact ⟨nofun, nofun⟩
  | ok hd =>
    cases caBodyName q.body with
    | error e' => exact ⟨nofun, nofun⟩
    | ok n => exact Iff.rfl

/-! ## Certificates which are given -/

/-- The response with a certificate. -/
def granted (id : Int) (c : C) : KResp C := ⟨some id, ⟨some 0, none, none⟩, some ⟨.cert c, none⟩⟩

theorem prepResp_cert (id : Int) (c : C) : prepResp { id := id, cert := some c } = .ok (granted id c) := rfl

theorem cp_mem : "cp".toList ∈ caBodies := by decide +kernel
theorem ip_mem : "ip".toList ∈ caBodies := by decide +kernel

/-- **C243.** With a certificate the answer has one response for it, with the identifier which is given. -/
theorem C243_cp_iff (he : HdrEnv N) (ie : IssueEnv C) (h : HArgs N) (a : BuildArgs N C) (c : C) (hc : a.cert = some c)
    (hen : a.enc = none) (hr : a.resps = none) (x : CaMsg N C × List (Option C)) :
    buildCp he ie h a = .ok x ↔ ∃ hd, respHdr he (a.req.map (·.hdr)) a.set h = .ok hd ∧ x.2 = [some c] ∧ x.1.hdr = hd ∧
      x.1.msg.pvno = hd.pvno ∧ x.1.msg.body = "cp".toList ∧ x.1.msg.resps = [granted (a.id.getD 0) c] ∧
      x.1.msg.caPubs = a.pubs.filter (fun l => !l.isEmpty) ∧ x.1.msg.extra = none := by
  have hpub : pubsField a.pubs = a.pubs.filter (fun l => !l.isEmpty) := by
    unfold pubsField
    cases a.pubs with
    | none => rfl
    | some l => cases l with
      | nil => rfl
      | cons _ _ => rfl
  have hcp : cpResps ie a = .ok ([granted (a.id.getD 0) c], [some c]) := by
    unfold cpResps
    rw [hc, hen, hr]
    rfl
  unfold buildCp
  rw [hcp]
  dsimp only
  constructor
  · intro e
    cases hh : respHdr he (a.req.map (·.hdr)) a.set h with
    | error e' => rw [hh] at e; cases e
    | ok hd =>
      rw [hh] at e
      dsimp only at e
      unfold caBody at e
      rw [if_neg (fun h => h cp_mem)] at e
      cases e
      exact ⟨hd, rfl, rfl, rfl, rfl, rfl, rfl, hpub, rfl⟩
  · rintro ⟨hd, hh, e1, e2, e3, e4, e5, e6, e7⟩
    rw [hh]
    dsimp only
    unfold caBody
    rw [if_neg (fun h => h cp_mem)]
    obtain ⟨⟨hd', pv, bd, rs, pb, ex⟩, cs⟩ := x
    dsimp only at e1 e2 e3 e4 e5 e6 e7
    subst e1 e2 e3 e4 e5 e7
    rw [e6, ← hpub]
    rfl

/-- **C243.** The same for `ip`. -/
theorem C243_ip_iff (he : HdrEnv N) (ie : IssueEnv C) (h : HArgs N) (a : BuildArgs N C) (c : C) (hc : a.cert = some c)
    (hen : a.enc = none) (hr : a.resps = none) (hk : a.key = false) (x : CaMsg N C × List (Option C)) :
    buildIp he ie h a = .ok x ↔ ∃ hd, respHdr he (a.req.map (·.hdr)) a.set h = .ok hd ∧ x.2 = [some c] ∧ x.1.hdr = hd ∧
      x.1.msg.pvno = hd.pvno ∧ x.1.msg.body = "ip".toList ∧ x.1.msg.resps = [granted (a.id.getD 0) c] ∧
      x.1.msg.caPubs = a.pubs.filter (fun l => !l.isEmpty) ∧ x.1.msg.extra = none := by
  have hpub : pubsField a.pubs = a.pubs.filter (fun l => !l.isEmpty) := by
    unfold pubsField
    cases a.pubs with
    | none => rfl
    | some l => cases l with
      | nil => rfl
      | cons _ _ => rfl
  have hip : ipResps ie a = .ok ([granted (a.id.getD 0) c], [some c]) := by
    unfold ipResps
    rw [hc, hen, hr, hk]
    rfl
  unfold buildIp
  rw [hip, hc, hen, if_neg (by simp)]
  constructor
  · intro e
    cases hh : respHdr he (a.req.map (·.hdr)) a.set h with
    | error e' => rw [hh] at e; cases e
    | ok hd =>
      rw [hh] at e
      dsimp only at e
      unfold caBody at e
      rw [if_neg (fun h => h ip_mem)] at e
      cases e
      exact ⟨hd, rfl, rfl, rfl, rfl, rfl, rfl, hpub, rfl⟩
  · rintro ⟨hd, hh, e1, e2, e3, e4, e5, e6, e7⟩
    rw [hh]
    dsimp only
    unfold caBody
    rw [if_neg (fun h => h ip_mem)]
    obtain ⟨⟨hd', pv, bd, rs, pb, ex⟩, cs⟩ := x
    dsimp only at e1 e2 e3 e4 e5 e6 e7
    subst e1 e2 e3 e4 e5 e7
    rw [e6, ← hpub]
    rfl

/-- **C243.** The client accepts such an answer if and only if the identifier is the one for its request, and `caPubs` is in
order. -/
theorem C243_client_iff {K I : Type} [DecidableEq C] [DecidableEq N] {D : Type} (env : BodyEnv C N K I) (he : HdrEnv D)
    (ie : IssueEnv C) (h : HArgs D) (a : BuildArgs D C) (c : C) (hc : a.cert = some c) (hen : a.enc = none)
    (hr : a.resps = none) (x : CaMsg D C × List (Option C)) (hx : buildCp he ie h a = .ok x) (p10 ir : Bool) :
    (∃ m', checkBody env x.1.msg true p10 1 0 ir = .ok m') ↔
      a.id.getD 0 = (if p10 then -1 else 0) ∧ PubsOk env x.1.msg c := by
  obtain ⟨hd, _, _, _, _, hb, hrs, _, _⟩ := (C243_cp_iff he ie h a c hc hen hr x).1 hx
  rw [C204_accepted_iff, hb, hrs]
  constructor
  · rintro ⟨_, r, e, hid, hg⟩
    cases e
    refine ⟨Option.some.inj hid, ?_⟩
    rcases hg with ⟨_, _, c', k, e, hp, _⟩ | ⟨e, _⟩
    · cases e; exact hp
    · cases e
  · rintro ⟨hid, hp⟩
    refine ⟨.cp, _, rfl, congrArg some hid, .inl ⟨.inl rfl, rfl, c, none, rfl, hp, by simp, nofun⟩⟩

/-- **C243 refuted.** The answer to a PKCS #10 request, for which a certificate but no identifier is given, is refused by the
client, since its identifier is 0 and not -1. -/
theorem C243_p10_refuted {K I : Type} [DecidableEq C] [DecidableEq N] {D : Type} (env : BodyEnv C N K I) (he : HdrEnv D)
    (ie : IssueEnv C) (h : HArgs D) (a : BuildArgs D C) (c : C) (hc : a.cert = some c) (hen : a.enc = none)
    (hr : a.resps = none) (hi : a.id = none) (x : CaMsg D C × List (Option C)) (hx : buildCp he ie h a = .ok x) (ir : Bool) :
    ¬ ∃ m', checkBody env x.1.msg true true 1 0 ir = .ok m' := by
  rw [C243_client_iff env he ie h a c hc hen hr x hx, hi]
  rintro ⟨h, _⟩
  cases h

/-- **C243 refuted.** Neither the body of the request nor the identifiers in it have an effect on the body and the responses
for a certificate which is given. -/
theorem C243_request_refuted (he : HdrEnv N) (ie : IssueEnv C) (h : HArgs N) (a : BuildArgs N C) (c : C) (hc : a.cert = some c)
    (hen : a.enc = none) (hr : a.resps = none) (hi : a.id = none) (x : CaMsg N C × List (Option C)) :
    (buildCp he ie h a = .ok x → x.1.msg.body = "cp".toList ∧ x.1.msg.resps = [granted 0 c]) ∧
    (a.key = false → buildIp he ie h a = .ok x → x.1.msg.body = "ip".toList ∧ x.1.msg.resps = [granted 0 c]) := by
  constructor
  · intro hx
    obtain ⟨_, _, _, _, _, hb, hrs, _⟩ := (C243_cp_iff he ie h a c hc hen hr x).1 hx
    rw [hi] at hrs
    exact ⟨hb, hrs⟩
  · intro hk hx
    obtain ⟨_, _, _, _, _, hb, hrs, _⟩ := (C243_ip_iff he ie h a c hc hen hr hk x).1 hx
    rw [hi] at hrs
    exact ⟨hb, hrs⟩

/-! ## The header -/

/-- **C243.** The answer to a request has its transaction identifier and its version, and the nonce of the request as
`recipNonce`. -/
theorem C243_header_partial (he : HdrEnv N) (ie : IssueEnv C) (ca : N) (a : BuildArgs N C) (q : CaReq N) (hq : a.req = some q)
    (hs : a.set = true) (hr : ∀ i, he.rnd i ≠ []) (ht : Filled q.hdr.tid) (hn : Filled q.hdr.senderNonce)
    (x : CaMsg N C × List (Option C)) (hx : buildCp he ie { sender := ca } a = .ok x ∨ buildIp he ie { sender := ca } a = .ok x) :
    Answers q.hdr x.1.hdr ∧ x.1.hdr.pvno = q.hdr.pvno ∧ x.1.msg.pvno = q.hdr.pvno ∧ x.1.hdr.recipient = q.hdr.sender ∧
      x.1.hdr.sender = ca := by
  obtain ⟨p, hp, h1, h2, h3, h4, _⟩ := C160_response_partial he.kid he.dflt he.rnd q.hdr ca hr ht hn
  have hh : respHdr he (a.req.map (·.hdr)) a.set { sender := ca } = .ok p := by
    unfold respHdr
    rw [hq, hs]
    exact hp
  have key : x.1.hdr = p ∧ x.1.msg.pvno = p.pvno := by
    rcases hx with hx | hx
    · unfold buildCp at hx
      cases hc : cpResps ie a with
      | error e => rw [hc] at hx; cases hx
      | ok y =>
        obtain ⟨rs, cs⟩ := y
        rw [hc] at hx
        dsimp only at hx
        rw [hh] at hx
        dsimp only at hx
        unfold caBody at hx
        rw [if_neg (fun h => h cp_mem)] at hx
        cases hx
        exact ⟨rfl, rfl⟩
    · unfold buildIp at hx
      split at hx
      · cases hx
      · rw [hh] at hx
        dsimp only at hx
        cases hc : ipResps ie a with
        | error e => rw [hc] at hx; cases hx
        | ok y =>
          obtain ⟨rs, cs⟩ := y
          rw [hc] at hx
          dsimp only at hx
          unfold caBody at hx
          rw [if_neg (fun h => h ip_mem)] at hx
          cases hx
          exact ⟨rfl, rfl⟩
  rw [key.1, key.2]
  exact ⟨h1, h2, h2, h3, h4⟩

/-- **C243 refuted.** The option not to take the fields of the header from the request has no effect for keys which are
generated by the CA: the answer has the transaction identifier and the nonce of the request all the same. -/
theorem C243_kga_header_refuted (he : HdrEnv N) (ie : IssueEnv C) (ca : N) (q : CaReq N) (r : KResp C)
    (ht : Filled q.hdr.tid) (hn : Filled q.hdr.senderNonce) (m : CaMsg N C)
    (h : kgaMessage he ie { sender := ca } q false r = .ok m) : Answers q.hdr m.hdr := by
  obtain ⟨t, ht, htn⟩ := ht
  obtain ⟨n, hn, hnn⟩ := hn
  obtain ⟨t0, ts, rfl⟩ := List.exists_cons_of_ne_nil htn
  obtain ⟨n0, ns, rfl⟩ := List.exists_cons_of_ne_nil hnn
  unfold kgaMessage setCaHeader orField at h
  rw [ht, hn] at h
  dsimp only at h
  unfold Answers
  rw [ht, hn]
  split at h
  · unfold buildIp respHdr ipResps at h
    dsimp only at h
    rw [if_neg (by simp), if_neg (by simp)] at h
    dsimp only at h
    unfold caBody at h
    rw [if_neg (fun h => h ip_mem)] at h
    cases h
    exact ⟨rfl, rfl⟩
  · split at h
    · rename_i hk
      unfold buildCertBody respHdr at h
      dsimp only at h
      rw [if_neg (by simp)] at h
      dsimp only [plainName, orName] at h
      rw [hk, show respBodyName "kur".toList = .ok "kup".toList by decide +kernel] at h
      dsimp only at h
      unfold caBody at h
      rw [if_neg (fun h => h (by decide +kernel))] at h
      cases h
      exact ⟨rfl, rfl⟩
    · unfold buildCp respHdr cpResps at h
      dsimp only at h
      rw [if_neg (by simp), if_neg (c := false = true) (by simp)] at h
      dsimp only at h
      unfold caBody at h
      rw [if_neg (fun h => h cp_mem)] at h
      cases h
      exact ⟨rfl, rfl⟩

/-! ## Further arguments -/

/-- **C243 refuted.** Responses alone are enough for `ip`, but not for `cp`. -/
theorem C243_responses_refuted (he : HdrEnv N) (ie : IssueEnv C) (h : HArgs N) (a : BuildArgs N C) (rs : List (KResp C))
    (hr : a.resps = some rs) (hc : a.cert = none) (hen : a.enc = none) (hq : a.req = none) :
    buildCp he ie h a = .error .valueError ∧ ∃ x, buildIp he ie h a = .ok x ∧ x.1.msg.resps = rs := by
  constructor
  · unfold buildCp cpResps
    rw [hc, hen, hq]
    rfl
  · unfold buildIp ipResps respHdr
    rw [hc, hen, hq, hr, if_neg (by simp)]
    have : (if a.set = true then Option.map (fun x : CaReq N => x.hdr) none else none) = none := by split <;> rfl
    rw [this]
    dsimp only
    unfold caBody
    rw [if_neg (fun h => h ip_mem)]
    exact ⟨_, rfl, rfl⟩

/-- **C243 refuted.** With an encrypted certificate alone the list of certificates which `build_ip_cmp_message` gives has an
entry which is no certificate; the one of `build_cp_cmp_message` is empty. -/
theorem C243_none_refuted (he : HdrEnv N) (ie : IssueEnv C) (h : HArgs N) (a : BuildArgs N C) (b : Bytes)
    (hr : a.resps = none) (hc : a.cert = none) (hen : a.enc = some b) (x : CaMsg N C × List (Option C)) :
    (buildIp he ie h a = .ok x → x.2 = [none]) ∧ (buildCp he ie h a = .ok x → x.2 = []) := by
  constructor
  · intro hx
    unfold buildIp at hx
    rw [hc, hen, if_neg (by simp)] at hx
    cases hh : respHdr he (a.req.map (·.hdr)) a.set h with
    | error e => rw [hh] at hx; cases hx
    | ok hd =>
      rw [hh] at hx
      dsimp only at hx
      unfold ipResps at hx
      rw [hc, hen, hr] at hx
      have : ∃ r, givenResp { id := a.id.getD 0, cert := none, enc := some b, key := a.key } [(none : Option C)] = .ok ([r], [none]) := by
        cases a.key <;> exact ⟨_, rfl⟩
      obtain ⟨r, hr'⟩ := this
      dsimp only at hx
      rw [if_neg (by simp)] at hx
      dsimp only at hx
      rw [hr'] at hx
      dsimp only at hx
      unfold caBody at hx
      rw [if_neg (fun h => h ip_mem)] at hx
      cases hx
      rfl
  · intro hx
    unfold buildCp cpResps at hx
    rw [hc, hen, hr] at hx
    cases hh : respHdr he (a.req.map (·.hdr)) a.set h with
    | error e => rw [hh] at hx; cases hx
    | ok hd =>
      rw [hh] at hx
      cases hx
      rfl

/-- **C243 refuted.** For a PKCS #10 request the identifier 0, if it is given, is replaced by -1. -/
theorem C243_p10_id_refuted (he : HdrEnv N) (ie : IssueEnv C) (h : HArgs N) (a : BuildArgs N C) (q : CaReq N) (hq : a.req = some q)
    (hb : q.body = "p10cr".toList) (hr : a.resps = none) (hc : a.cert = none) (hen : a.enc = none) (hi : a.id = some 0)
    (x : CaMsg N C × List (Option C)) (hx : buildIp he ie h a = .ok x) : ∃ c, x.1.msg.resps = [granted (-1) c] := by
  unfold buildIp at hx
  rw [hc, hen, hr, hq, if_neg (by simp)] at hx
  cases hh : respHdr he ((some q).map (·.hdr)) a.set h with
  | error e => rw [hh] at hx; cases hx
  | ok hd =>
    rw [hh] at hx
    dsimp only at hx
    unfold ipResps at hx
    rw [hc, hen, hr, hq] at hx
    dsimp only at hx
    rw [if_pos (by simp)] at hx
    dsimp only at hx
    unfold ipIssue at hx
    cases hl : (if a.lw = true then ie.lw else .ok ()) with
    | error e => rw [hl] at hx; cases hx
    | ok u =>
      rw [hl] at hx
      dsimp only at hx
      rw [if_pos hb] at hx
      cases hp : ie.p10 with
      | error e => rw [hp] at hx; cases hx
      | ok c =>
        rw [hp, hi] at hx
        dsimp only at hx
        unfold givenResp at hx
        rw [prepResp_cert] at hx
        dsimp only at hx
        unfold caBody at hx
        rw [if_neg (fun h => h ip_mem)] at hx
        cases hx
        exact ⟨c, rfl⟩

/-- **C243 refuted.** One entry of a request can be answered by `build_cp_cmp_message` without an identifier if the request
is a `cr`; for another body, for which a certificate is issued all the same, there is no answer. -/
theorem C243_index_refuted (he : HdrEnv N) (ie : IssueEnv C) (h : HArgs N) (a : BuildArgs N C) (q : CaReq N) (hq : a.req = some q)
    (hb : q.body ≠ "cr".toList) (hr : a.resps = none) (hc : a.cert = none) (hen : a.enc = none) (hi : a.id = none) (i : Nat)
    (hx : a.index = some i) (x : CaMsg N C × List (Option C)) : buildCp he ie h a ≠ .ok x := by
  intro e
  unfold buildCp cpResps at e
  rw [hc, hen, hr, hq, hx, hi] at e
  dsimp only at e
  rw [if_neg (by simp), if_neg (by simp)] at e
  cases hca : a.ca with
  | false => rw [hca] at e; cases e
  | true =>
    rw [hca, if_neg (by simp)] at e
    unfold cpOne at e
    cases ho : ie.one i with
    | error e' => rw [ho] at e; cases e
    | ok y =>
      rw [ho] at e
      dsimp only [givenId] at e
      unfold crId at e
      rw [if_neg hb] at e
      cases e

/-! ## Requests which are processed -/

section Requests
variable {A K S R E X G : Type}

/-- The response of `Verif.Ra.Request`, with an encoding of the encrypted certificate. -/
def toKResp (der : E → Bytes) (r : Resp C E) : KResp C :=
  ⟨some r.id, ⟨some 0, none, none⟩, some ⟨match r.pair with
    | .cert c => .cert c
    | .enc e => .enc true (der e), r.priv.map fun _ => true⟩⟩

/-- The answers of `Verif.Ra.Request`. -/
def toKAll (der : E → Bytes) (x : Except PyErr (List (Resp C E) × List C)) : Except PyErr (List (KResp C) × List C) :=
  match x with
  | .error e => .error e
  | .ok (rs, cs) => .ok (rs.map (toKResp der), cs)

theorem processLoop_ids [DecidableEq K] [DecidableEq C] [DecidableEq N] (env : RaEnv A K S R E C N X G) (a : CaArgs X)
    (m : RMsg A R E C) : ∀ (todo : List (Req A R E)) (i : Nat) (rs : List (Resp C E)) (cs : List C),
    processLoop env a m i todo = .ok (rs, cs) → rs.map (·.id) = todo.map (·.id) ∧ cs.length = todo.length
  | [], _, _, _, h => by cases h; exact ⟨rfl, rfl⟩
  | r :: todo, i, rs, cs, h => by
    unfold processLoop at h
    cases h1 : processOne env a m i with
    | error e => rw [h1] at h; cases h
    | ok x =>
      rw [h1] at h
      dsimp only at h
      cases h2 : processLoop env a m (i + 1) todo with
      | error e => rw [h2] at h; cases h
      | ok y =>
        obtain ⟨rs', cs'⟩ := y
        rw [h2] at h
        cases h
        obtain ⟨e1, e2⟩ := processLoop_ids env a m todo (i + 1) rs' cs' h2
        exact ⟨by rw [List.map_cons, e1]; rfl, by rw [List.length_cons, e2]; rfl⟩

/-- **C243.** For a request which is processed as a whole there is one response for each of its entries, in their order and
with their identifiers, and all of them are accepted. -/
theorem C243_ids [DecidableEq K] [DecidableEq C] [DecidableEq N] {D : Type} (env : RaEnv A K S R E C N X G) (ca : CaArgs X)
    (m : RMsg A R E C) (der : E → Bytes) (he : HdrEnv D) (ie : IssueEnv C) (hie : ie.all = toKAll der (cpReply env ca m))
    (h : HArgs D) (a : BuildArgs D C) (hr : a.resps = none) (hc : a.cert = none) (hen : a.enc = none) (hx : a.index = none)
    (x : CaMsg D C × List (Option C)) (e : buildCp he ie h a = .ok x) :
    x.1.msg.resps.map (·.id) = m.reqs.map (fun r => some r.id) ∧ x.2.length = m.reqs.length ∧
      ∀ r ∈ x.1.msg.resps, r.info = ⟨some 0, none, none⟩ := by
  unfold buildCp cpResps at e
  rw [hc, hen, hr, hx, hie] at e
  cases hq : a.req with
  | none => rw [hq] at e; cases e
  | some q =>
    rw [hq] at e
    dsimp only at e
    rw [if_neg (by simp), if_neg (by simp)] at e
    cases hca : a.ca with
    | false => rw [hca] at e; cases e
    | true =>
      rw [hca, if_neg (by simp)] at e
      unfold allThere toKAll cpReply processAll at e
      cases hl : processLoop env ca m 0 m.reqs with
      | error e' => rw [hl] at e; cases e
      | ok y =>
        obtain ⟨rs, cs⟩ := y
        rw [hl] at e
        dsimp only at e
        cases hh : respHdr he ((some q).map (·.hdr)) a.set h with
        | error e' => rw [hh] at e; cases e
        | ok hd =>
          rw [hh] at e
          dsimp only at e
          unfold caBody at e
          rw [if_neg (fun h => h cp_mem)] at e
          cases e
          obtain ⟨e1, e2⟩ := processLoop_ids env ca m _ _ _ _ hl
          refine ⟨?_, by rw [List.length_map]; exact e2, ?_⟩
          · change (rs.map (toKResp der)).map (·.id) = _
            rw [List.map_map]
            have := congrArg (List.map some) e1
            rw [List.map_map, List.map_map] at this
            exact this
          · intro r hr
            obtain ⟨s, _, rfl⟩ := List.mem_map.1 hr
            rfl

end Requests

/-! ## Refusals and key recovery -/

/-- **C243.** A refusal is made for each of the requests for certificates, if the failures are named correctly, and only
for these. -/
theorem C243_refusal_iff (he : HdrEnv N) (h : HArgs N) (q : Option (CaReq N)) (b : List Char) (id : Option Int)
    (fail : Option (List Char)) (texts : Option (List (List Char))) (m : CaMsg N C) :
    buildRefusal he h q (some b) id "rejection".toList fail texts = .ok m ↔
      ∃ hd n r, respHdr he (q.map (·.hdr)) true h = .ok hd ∧ CertAnswer b n ∧
        r.id = some (id.getD (if b = "p10cr".toList then -1 else 0)) ∧
        InfoOf { status := "rejection".toList, fail := fail, texts := texts : RespArgs C } r.info ∧ r.pair = none ∧
        m = ⟨hd, { pvno := hd.pvno, body := n, resps := [r] }⟩ := by
  have hid : refusalId b id = id.getD (if b = "p10cr".toList then -1 else 0) := by
    unfold refusalId
    cases id <;> rfl
  have hresp : ∀ r, prepResp { id := refusalId b id, status := "rejection".toList, fail := fail, texts := texts : RespArgs C } = .ok r ↔
      r.id = some (id.getD (if b = "p10cr".toList then -1 else 0)) ∧
        InfoOf { status := "rejection".toList, fail := fail, texts := texts : RespArgs C } r.info ∧ r.pair = none := by
    intro r
    rw [C242_response_iff _ (show isDigits "rejection".toList = false by decide +kernel), hid]
    dsimp only
    have hp : PairOf ({ id := refusalId b id, status := "rejection".toList, fail := fail, texts := texts : RespArgs C }) r.pair ↔
        r.pair = none := by
      constructor
      · intro h
        generalize r.pair = p at h
        cases h with
        | none => rfl
        | enc _ h => cases h
        | cert _ h => cases h
      · intro h
        rw [h]
        exact .none rfl rfl rfl
    rw [hid] at hp
    rw [hp]
    rfl
  unfold buildRefusal refusalBody refusalName
  dsimp only
  constructor
  · intro e
    cases hh : respHdr he (q.map (·.hdr)) true h with
    | error e' => rw [hh] at e; cases e
    | ok hd =>
      rw [hh] at e
      dsimp only at e
      cases hr : prepResp { id := refusalId b id, status := "rejection".toList, fail := fail, texts := texts : RespArgs C } with
      | error e' => rw [hr] at e; cases e
      | ok r =>
        rw [hr] at e
        dsimp only at e
        obtain ⟨h1, h2, h3⟩ := (hresp r).1 hr
        cases hn : caBodyName b with
        | error e' => rw [hn] at e; cases e
        | ok n =>
          rw [hn] at e
          dsimp only at e
          have hc := (C243_name_iff ..).1 hn
          have : n ∈ caBodies := certAnswer_mem hc
          unfold caBody at e
          rw [if_neg (fun x => x this)] at e
          cases e
          exact ⟨hd, n, r, rfl, hc, h1, h2, h3, rfl⟩
  · rintro ⟨hd, n, r, hh, hc, h1, h2, h3, rfl⟩
    rw [hh]
    dsimp only
    rw [(hresp r).2 ⟨h1, h2, h3⟩]
    dsimp only
    rw [(C243_name_iff ..).2 hc]
    have : n ∈ caBodies := certAnswer_mem hc
    dsimp only
    unfold caBody
    rw [if_neg (fun x => x this)]
    rfl

/-- **C243.** The client accepts a refusal to which no identifier is given, whatever its failures and texts are. -/
theorem C243_refusal_client {K I : Type} [DecidableEq C] [DecidableEq N] {D : Type} (env : BodyEnv C N K I) (he : HdrEnv D)
    (h : HArgs D) (q : Option (CaReq D)) (b : List Char) (fail : Option (List Char)) (texts : Option (List (List Char)))
    (m : CaMsg D C) (hm : buildRefusal he h q (some b) none "rejection".toList fail texts = .ok m) (loc ir : Bool) :
    checkBody env m.msg loc (decide (b = "p10cr".toList)) 1 0 ir = .ok m.msg := by
  obtain ⟨hd, n, r, _, hc, h1, h2, h3, rfl⟩ := (C243_refusal_iff ..).1 hm
  have hst : r.info.status = some 2 := by
    rcases h2 with h2 | ⟨_, ⟨k, hk, hr⟩, _⟩
    · cases h2
    · have : k = 2 := by
        have h0 := (rfcStatus_iff ..).1 hr
        have h2 : pkiStatusNames[2]? = some "rejection".toList := by decide +kernel
        have hk7 : k < pkiStatusNames.length := by
          rcases Nat.lt_or_ge k pkiStatusNames.length with h' | h'
          · exact h'
          · rw [List.getElem?_eq_none h'] at h0; cases h0
        have e := h0.trans h2.symm
        exact (List.getElem?_inj hk7 (by decide +kernel)).1 e
      rw [hk, this]
      rfl
  have hacc : ∃ m', checkBody env { pvno := hd.pvno, body := n, resps := [r] : KMsg C } loc (decide (b = "p10cr".toList)) 1 0 ir
      = .ok m' := by
    refine (C204_accepted_iff ..).2 ⟨certAnswer_body hc, r, rfl, ?_, .inr ⟨hst, fun p hp => ?_, rfl⟩⟩
    · rw [h1]
      by_cases hb : b = "p10cr".toList
      · rw [if_pos hb, if_pos (decide_eq_true hb)]; rfl
      · rw [if_neg hb, if_neg (fun x => hb (of_decide_eq_true x))]; rfl
    · rw [h3] at hp; cases hp
  obtain ⟨m', hm'⟩ := hacc
  rw [C205_refusal env _ m' loc _ ir 1 0 (fun r' h' => by cases h'; exact hst) hm'] at hm'
  exact hm'

/-- **C243 refuted.** A response to a request for the recovery of keys says that the certificate was accepted, whatever its
status is. -/
theorem C243_krp_refuted (cert : Option C) (s : List Char) (cs hist : Option (List C)) (k : Krp C)
    (h : krpBody cert s cs hist none = .ok k) : k.info.texts = some ["The certificate updated was accepted.".toList] ∧
      (s = "rejection".toList → k.info.status = some 2) := by
  unfold krpBody prepInfo at h
  cases hs : statusArg s with
  | error e => rw [hs] at h; cases h
  | ok n =>
    rw [hs] at h
    cases h
    refine ⟨rfl, ?_⟩
    rintro rfl
    rw [show statusArg "rejection".toList = .ok 2 by decide +kernel] at hs
    cases hs
    rfl

/-! ## Examples -/

/-- The header of the examples. -/
def exHE : HdrEnv Nat := ⟨fun _ _ => [9], (0, [8]), fun i => [10 + UInt8.ofNat i.1]⟩

/-- A request. -/
def exCaReq : CaReq Nat := ⟨⟨2, 5, 7, some [1], some [2], none, none, none⟩, "ir".toList, [4]⟩

/-- Certificates are issued for each entry. -/
def exIE : IssueEnv Nat := ⟨.ok ([granted 4 1], [1]), fun _ => .ok (1, none, false), .ok 1, .ok ()⟩

/-- A certificate is given with an `ir`, the identifier of which is 4: the answer is a `cp` for the identifier 0. -/
example : (buildCp exHE exIE { sender := 7 } { req := some exCaReq, cert := some 3 }).toOption.map (fun x => (x.1.msg.body, x.1.msg.resps)) =
    some ("cp".toList, [granted 0 3]) := by decide +kernel

/-- The answer of the CA to the same request, which is processed. -/
example : (buildIp exHE exIE { sender := 7 } { req := some exCaReq }).toOption.map (fun x => (x.1.msg.resps, x.2, x.1.hdr.tid, x.1.hdr.recipNonce)) =
    some ([granted 4 1], [some 1], some [1], some [2]) := by decide +kernel

/-- A refusal of a PKCS #10 request. -/
example : (buildRefusal (C := Nat) exHE { sender := 7 } none (some "p10cr".toList) none (fail := some "badPOP".toList)).toOption.map
    (fun m => (m.msg.body, m.msg.resps.map (·.id))) = some ("cp".toList, [some (-1)]) := by decide +kernel

/-- A key which is generated: the fields of the header are set also if they should not be. -/
example : (kgaMessage exHE exIE { sender := 7 } exCaReq false (granted 0 1)).toOption.map (fun m => (m.hdr.tid, m.hdr.recipNonce)) =
    some (some [1], some [2]) := by decide +kernel

end Verif.Ra
