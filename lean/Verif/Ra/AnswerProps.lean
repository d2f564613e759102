import Verif.Ra.Answer
import Verif.Ra.BuildProps

/-!
# Theorems on error messages and the protection of answers
-/

namespace Verif.Ra

open Verif.CA (PyErr Bytes ProtType)

variable {V C : Type}

/-! ## Error messages -/

private theorem excl_both : excludeOf (joinExclude (errExclude true true)) = [] := by decide +kernel
private theorem excl_nonce : excludeOf (joinExclude (errExclude true false)) = ["transactionID".toList] := by decide +kernel
private theorem excl_tid : excludeOf (joinExclude (errExclude false true)) = ["recipNonce".toList] := by decide +kernel
private theorem excl_none :
    excludeOf (joinExclude (errExclude false false)) = ["recipNonce".toList, " transactionID".toList] := by decide +kernel

private theorem plainHeader_ids {env : BuildEnv V} {ie : InfoEnv} {d : Bytes × Bytes} {r1 r2 : Bytes} {now : Int}
    {a : MArgs V} {h : FHdr V} (hb : plainHeader env ie d r1 r2 now a = .ok h) :
    h.tid = plain (excludeOf a.exclude) "transactionID" (some (orB a.tid r1)) ∧
    h.recipNonce = plain (excludeOf a.exclude) "recipNonce" (nonEmpty a.recipNonce) ∧
    h.senderNonce = plain (excludeOf a.exclude) "senderNonce" (some (orB a.senderNonce r2)) ∧
    h.pvno = plain (excludeOf a.exclude) "pvno" (some (pvnoOf a.pvno a.forKga)) ∧
    h.info = (if "generalInfo".toList ∈ excludeOf a.exclude ∨ a.implicit = false then []
      else prepGenInfo ie now true false none none) := by
  unfold plainHeader at hb
  dsimp only at hb
  split at hb
  · cases hb
  split at hb
  · cases hb
  split at hb
  · cases hb
  injection hb with hb
  subst hb
  exact ⟨rfl, rfl, rfl, rfl, rfl⟩

private theorem buildErr_inv {env : BuildEnv V} {ie : InfoEnv} {d : Bytes × Bytes} {r1 r2 : Bytes} {now : Int}
    {e : CmpErr} {rq : Option ReqIds} {h : FHdr V} {b : ErrBody}
    (hb : buildErr env ie d r1 r2 now e rq = .ok (h, b)) :
    plainHeader env ie d r1 r2 now (errArgs rq) = .ok h ∧
    b = { status := "rejection", fail := some e.fail, texts := freeText e.message, code := 1,
          details := errDetails e.details } := by
  unfold buildErr at hb
  cases hh : buildHeader env ie d r1 r2 now (errArgs rq) with
  | error x => rw [hh] at hb; cases hb
  | ok h' =>
    rw [hh] at hb
    injection hb with hb
    injection hb with h1 h2
    subst h1 h2
    refine ⟨?_, rfl⟩
    unfold buildHeader at hh
    cases hp : plainHeader env ie d r1 r2 now (errArgs rq) with
    | error x => rw [hp] at hh; cases hh
    | ok h'' =>
      rw [hp] at hh
      dsimp only at hh
      rw [if_neg (by cases rq <;> exact Bool.false_ne_true)] at hh
      injection hh with hh
      rw [hh]

/-- An error message for a request with a transaction identifier and a nonce carries both, with a fresh nonce, and the
fail information and text of the exception. -/
theorem C218_echoes {env : BuildEnv V} {ie : InfoEnv} {d : Bytes × Bytes} {r1 r2 : Bytes} {now : Int}
    {e : CmpErr} {t n : Bytes} (ht : t ≠ []) (hn : n ≠ []) {h : FHdr V} {b : ErrBody}
    (hb : buildErr env ie d r1 r2 now e (some ⟨some n, some t⟩) = .ok (h, b)) :
    h.tid = some t ∧ h.recipNonce = some n ∧ h.senderNonce = some r2 ∧ h.pvno = some 2 ∧ h.info = [] ∧
    b.status = "rejection" ∧ b.fail = some e.fail ∧ b.code = 1 ∧ b.texts = (if e.message = "" then [] else [e.message]) := by
  obtain ⟨hp, rfl⟩ := buildErr_inv hb
  obtain ⟨h1, h2, h3, h4, h5⟩ := plainHeader_ids hp
  have hx : excludeOf (errArgs (V := V) (some ⟨some n, some t⟩)).exclude = [] := excl_both
  rw [hx] at h1 h2 h3 h4 h5
  cases t with
  | nil => exact absurd rfl ht
  | cons a l =>
    cases n with
    | nil => exact absurd rfl hn
    | cons c m => exact ⟨h1, h2, h3, h4, h5, rfl, rfl, rfl, rfl⟩

/-- A request without nonce: the error message has no recipient nonce. -/
theorem C218_no_nonce {env : BuildEnv V} {ie : InfoEnv} {d : Bytes × Bytes} {r1 r2 : Bytes} {now : Int}
    {e : CmpErr} {t : Bytes} (ht : t ≠ []) {h : FHdr V} {b : ErrBody}
    (hb : buildErr env ie d r1 r2 now e (some ⟨none, some t⟩) = .ok (h, b)) :
    h.tid = some t ∧ h.recipNonce = none := by
  obtain ⟨hp, rfl⟩ := buildErr_inv hb
  obtain ⟨h1, h2, _⟩ := plainHeader_ids hp
  have hx : excludeOf (errArgs (V := V) (some ⟨none, some t⟩)).exclude = ["recipNonce".toList] := excl_tid
  rw [hx] at h1 h2
  cases t with
  | nil => exact absurd rfl ht
  | cons a l => exact ⟨h1, h2⟩

/-- A request without transaction identifier but with a nonce: the error message has no identifier. -/
theorem C218_no_tid {env : BuildEnv V} {ie : InfoEnv} {d : Bytes × Bytes} {r1 r2 : Bytes} {now : Int}
    {e : CmpErr} {n : Bytes} (hn : n ≠ []) {h : FHdr V} {b : ErrBody}
    (hb : buildErr env ie d r1 r2 now e (some ⟨some n, none⟩) = .ok (h, b)) :
    h.tid = none ∧ h.recipNonce = some n := by
  obtain ⟨hp, rfl⟩ := buildErr_inv hb
  obtain ⟨h1, h2, _⟩ := plainHeader_ids hp
  have hx : excludeOf (errArgs (V := V) (some ⟨some n, none⟩)).exclude = ["transactionID".toList] := excl_nonce
  rw [hx] at h1 h2
  cases n with
  | nil => exact absurd rfl hn
  | cons a l => exact ⟨h1, h2⟩

/-- A request with neither: the names are joined with a comma and a blank, and the second one is not recognised, so that
the error message carries a random transaction identifier. -/
theorem C218_neither_refuted {env : BuildEnv V} {ie : InfoEnv} {d : Bytes × Bytes} {r1 r2 : Bytes} {now : Int}
    {e : CmpErr} {h : FHdr V} {b : ErrBody}
    (hb : buildErr env ie d r1 r2 now e (some ⟨none, none⟩) = .ok (h, b)) :
    h.tid = some r1 ∧ h.recipNonce = none := by
  obtain ⟨hp, rfl⟩ := buildErr_inv hb
  obtain ⟨h1, h2, _⟩ := plainHeader_ids hp
  have hx : excludeOf (errArgs (V := V) (some ⟨none, none⟩)).exclude = ["recipNonce".toList, " transactionID".toList] :=
    excl_none
  rw [hx] at h1 h2
  exact ⟨h1, h2⟩

/-- Without a request, and for an empty transaction identifier, the identifier is random. -/
theorem C218_random {env : BuildEnv V} {ie : InfoEnv} {d : Bytes × Bytes} {r1 r2 : Bytes} {now : Int}
    {e : CmpErr} {rq : Option ReqIds} (hr : rq = none ∨ ∃ n, rq = some ⟨n, some []⟩) {h : FHdr V} {b : ErrBody}
    (hb : buildErr env ie d r1 r2 now e rq = .ok (h, b)) : h.tid = some r1 := by
  obtain ⟨hp, rfl⟩ := buildErr_inv hb
  obtain ⟨h1, _⟩ := plainHeader_ids hp
  rcases hr with rfl | ⟨n, rfl⟩
  · exact h1
  · cases n with
    | none =>
      have hx : excludeOf (errArgs (V := V) (some ⟨none, some []⟩)).exclude = ["recipNonce".toList] := excl_tid
      rw [hx] at h1
      exact h1
    | some n =>
      have hx : excludeOf (errArgs (V := V) (some ⟨some n, some []⟩)).exclude = [] := excl_both
      rw [hx] at h1
      exact h1

private theorem excl_cases (rq : Option ReqIds) :
    "sender".toList ∉ excludeOf (errArgs (V := V) rq).exclude ∧
    "recipient".toList ∉ excludeOf (errArgs (V := V) rq).exclude ∧
    "senderKID".toList ∉ excludeOf (errArgs (V := V) rq).exclude := by
  cases rq with
  | none =>
    have hx : excludeOf (errArgs (V := V) none).exclude = [] := rfl
    rw [hx]
    exact ⟨List.not_mem_nil, List.not_mem_nil, List.not_mem_nil⟩
  | some q =>
    obtain ⟨n, t⟩ := q
    have hx : excludeOf (errArgs (V := V) (some ⟨n, t⟩)).exclude = excludeOf (joinExclude (errExclude n.isSome t.isSome)) :=
      rfl
    rw [hx]
    generalize n.isSome = x
    generalize t.isSome = y
    cases x <;> cases y <;> decide +kernel

/-- An error message can always be built if its two fixed names can be encoded. -/
theorem C218_total {env : BuildEnv V} (ie : InfoEnv) (d : Bytes × Bytes) (r1 r2 : Bytes) (now : Int)
    (e : CmpErr) (rq : Option ReqIds) {s r : GName V} (hs : env.parse "tests@example.com".toList = .ok s)
    (hr : env.parse "testr@example.com".toList = .ok r) :
    ∃ h b, buildErr env ie d r1 r2 now e rq = .ok (h, b) ∧ h.sender = some s ∧ h.recipient = some r := by
  have hcn : cnFromStr "tests@example.com".toList = .ok none := by decide +kernel
  obtain ⟨h1, h2, h3⟩ := excl_cases (V := V) rq
  have hp : ∃ h, plainHeader env ie d r1 r2 now (errArgs rq) = .ok h ∧ h.sender = some s ∧ h.recipient = some r := by
    unfold plainHeader
    dsimp only
    unfold field
    rw [if_neg h1, if_neg h2, if_neg h3]
    have a1 : nameOf env (errArgs (V := V) rq).sender = .ok s := hs
    have a2 : nameOf env (errArgs (V := V) rq).recipient = .ok r := hr
    have a3 : senderKidOf env d.1 (errArgs (V := V) rq).senderKid (errArgs (V := V) rq).sender = .ok d.1 := by
      show senderKidOf env d.1 none (.text "tests@example.com".toList) = .ok d.1
      unfold senderKidOf
      generalize "tests@example.com".toList = t at hcn
      dsimp only
      rw [hcn]
    rw [a1, a2, a3]
    exact ⟨_, rfl, rfl, rfl⟩
  obtain ⟨h, hp, hs', hr'⟩ := hp
  refine ⟨h, ⟨"rejection", some e.fail, freeText e.message, 1, errDetails e.details⟩, ?_, hs', hr'⟩
  · unfold buildErr buildHeader
    rw [hp]
    dsimp only
    rw [if_neg (by cases rq <;> exact Bool.false_ne_true)]

/-- The details given as a list are those reported. -/
theorem C218_details (l : List String) : errDetails (some (.many l)) = l := rfl

/-- A text given as details is followed by one detail for each of its characters. -/
theorem C218_text_refuted (s : String) :
    errDetails (some (.one s)) = s :: s.toList.map String.singleton ∧
    (errDetails (some (.one s))).length = s.length + 1 := by
  refine ⟨rfl, ?_⟩
  show (s :: s.toList.map String.singleton).length = _
  rw [List.length_cons, List.length_map, String.length_toList]

/-- So the details are exactly the text given only if it is empty. -/
theorem C218_text_exact_iff (s : String) : errDetails (some (.one s)) = [s] ↔ s = "" := by
  constructor
  · intro h
    have h := congrArg List.length h
    rw [(C218_text_refuted s).2] at h
    have h0 : s.length = 0 := by simpa using h
    rw [← String.length_toList] at h0
    exact String.toList_inj.1 (List.eq_nil_of_length_eq_zero h0)
  · rintro rfl; rfl

/-- The fail information given takes precedence over that of the class, unless it is empty. -/
theorem C218_fail (e : CmpErr) :
    (∀ s, e.failinfo = some s → s ≠ "" → e.fail = s) ∧ (e.failinfo = none ∨ e.failinfo = some "" → e.fail = e.clsFail) := by
  refine ⟨fun s h hs => ?_, fun h => ?_⟩
  · unfold CmpErr.fail; rw [h]; exact if_neg hs
  · rcases h with h | h <;> (unfold CmpErr.fail; rw [h]); exact if_pos rfl

/-- A request asks for a challenge exactly if it is an `ir` or `cr` whose proof of possession is left to a subsequent
challenge; a certification request in PKCS#10 form or a key update never does. -/
theorem C218_challenge_iff (body : String) (p : PopView) :
    containsChallenge body p = true ↔ (body = "ir" ∨ body = "cr") ∧ p = .enc "subsequentMessage" (some "challengeResp") := by
  unfold containsChallenge
  by_cases hb : body = "ir" ∨ body = "cr"
  · rw [if_pos hb]
    cases p with
    | absent => exact ⟨fun h => (by cases h), fun h => by cases h.2⟩
    | other => exact ⟨fun h => (by cases h), fun h => by cases h.2⟩
    | enc alt v =>
      dsimp only
      by_cases ha : alt = "subsequentMessage"
      · subst ha
        rw [if_neg (fun h => h rfl)]
        cases v with
        | none => exact ⟨fun h => (by cases h), fun h => by cases h.2⟩
        | some n =>
          constructor
          · intro h; have := of_decide_eq_true h; subst this; exact ⟨hb, rfl⟩
          · intro h; injection h.2 with _ h2; injection h2 with h2; subst h2; rfl
      · rw [if_pos ha]
        constructor
        · intro h; cases h
        · intro h; injection h.2 with h2; exact absurd h2 ha
  · rw [if_neg hb]
    exact ⟨fun h => (by cases h), fun h => absurd h.1 hb⟩

/-! ## Protection of answers -/

theorem finish_iff (env : AnsEnv C) (a b : Ans C) : finish env a = .ok b ↔ env.sign a.how = .ok () ∧ b = a := by
  unfold finish
  cases env.sign a.how with
  | error e => exact ⟨fun h => (by cases h), fun h => by cases h.1⟩
  | ok u => exact ⟨fun h => ⟨rfl, (Except.ok.inj h).symm⟩, fun h => by rw [h.2]⟩

private theorem dirAns_inv {env : AnsEnv C} {rs : AnsResp C} {second : Option C} {add : List C} {how : How C} {c : C}
    {a : Ans C} (h : dirAns env rs second add how c = .ok a) :
    ∃ ch, env.dirChain c = .ok ch ∧ env.sign how = .ok () ∧
      a = ⟨how, rs.extra ++ [c] ++ second.toList ++ ch.tail ++ add, .subject c, certKid env rs.kid c⟩ := by
  unfold dirAns at h
  cases hs : env.sign how with
  | error e => rw [hs] at h; cases h
  | ok u =>
    rw [hs] at h
    dsimp only at h
    cases hd : env.dirChain c with
    | error e => rw [hd] at h; cases h
    | ok ch => rw [hd] at h; injection h with h; exact ⟨ch, rfl, rfl, h.symm⟩

/-- The forms of an answer of the CA: signed with its own key, or with its key for key agreement, or by a MAC. -/
inductive AnswerForm (env : AnsEnv C) (extra : List C) (second : Option C) (add : List C) : Ans C → Prop
  | signed (kid : Option Bytes) (x : Option C) :
      AnswerForm env extra second add
        ⟨.sig env.protCert none, extra ++ env.protCert :: x.toList ++ second.toList ++ env.chain.tail ++ add,
          .subject env.protCert, kid⟩
  | kari (ch : List C) (kid : Option Bytes) : env.dirChain env.eccCert = .ok ch →
      AnswerForm env extra second add
        ⟨.kariSig env.eccCert, extra ++ env.eccCert :: second.toList ++ ch.tail ++ add, .subject env.eccCert, kid⟩
  | dh (c : C) (ch : List C) (kid : Option Bytes) : env.dirChain c = .ok ch →
      AnswerForm env extra second add ⟨.dh c, extra ++ c :: second.toList ++ ch.tail ++ add, .subject c, kid⟩
  | kemMac (ss : Bytes) :
      AnswerForm env extra second add ⟨.kemMac ss, extra ++ second.toList ++ add, .caName, some env.caKid⟩
  | mac (alg : String) :
      AnswerForm env extra second add ⟨.mac alg env.password, extra ++ second.toList ++ add, .caName, some env.caKid⟩

private theorem signPlain_form {env : AnsEnv C} {rs : AnsResp C} {second : Option C} {add : List C} {a : Ans C}
    (h : signPlain env rs second add = .ok a) :
    a = ⟨.sig env.protCert none, rs.extra ++ env.protCert :: (none : Option C).toList ++ second.toList ++ env.chain.tail ++ add,
      .subject env.protCert, certKid env (some env.caKid) env.protCert⟩ :=
  ((finish_iff ..).1 h).2

private theorem protectEnc_form {env : AnsEnv C} {rs : AnsResp C} {second : Option C} {add : List C} {c : C} {a : Ans C}
    (h : protectEnc env rs second add c = .ok a) :
    a = ⟨.sig env.protCert none, rs.extra ++ env.protCert :: (some c).toList ++ second.toList ++ env.chain.tail ++ add,
      .subject env.protCert, certKid env rs.kid env.protCert⟩ :=
  ((finish_iff ..).1 h).2

private theorem dirAns_kari {env : AnsEnv C} {rs : AnsResp C} {second : Option C} {add : List C} {a : Ans C}
    (h : dirAns env rs second add (.kariSig env.eccCert) env.eccCert = .ok a) :
    AnswerForm env rs.extra second add a ∧ a.how = .kariSig env.eccCert := by
  obtain ⟨ch, h1, _, rfl⟩ := dirAns_inv h
  have := AnswerForm.kari (extra := rs.extra) (second := second) (add := add) ch (certKid env rs.kid env.eccCert) h1
  refine ⟨?_, rfl⟩
  simpa using this

private theorem protectSig_form {env : AnsEnv C} {rq : AnsReq C} {rs : AnsResp C} {second : Option C} {add : List C}
    {a : Ans C} (h : protectSig env rq rs second add = .ok a) :
    AnswerForm env rs.extra second add a ∧
      ((a.how = .kariSig env.eccCert ∧ isKgaKari env rq rs = .ok true) ∨
       (a.how = .sig env.protCert none ∧ isKgaKari env rq rs = .ok false)) := by
  unfold protectSig at h
  cases hk : isKgaKari env rq rs with
  | error e => rw [hk] at h; cases h
  | ok b =>
    rw [hk] at h
    cases b with
    | true => exact ⟨(dirAns_kari h).1, .inl ⟨(dirAns_kari h).2, rfl⟩⟩
    | false =>
      dsimp only at h
      cases hc : kariEnc env rq rs with
      | error e => rw [hc] at h; cases h
      | ok o =>
        rw [hc] at h
        cases o with
        | none => rw [signPlain_form h]; exact ⟨.signed .., .inr ⟨rfl, rfl⟩⟩
        | some c => rw [protectEnc_form h]; exact ⟨.signed .., .inr ⟨rfl, rfl⟩⟩

private theorem protectDh_inv {env : AnsEnv C} {rq : AnsReq C} {rs : AnsResp C} {second : Option C} {add : List C}
    {a : Ans C} (h : protectDh env rq rs second add = .ok a) :
    ∃ c, dhCert env rq.extra.head? = .ok c ∧ a.how = .dh c ∧ AnswerForm env rs.extra second add a := by
  unfold protectDh at h
  cases hc : dhCert env rq.extra.head? with
  | error e => rw [hc] at h; cases h
  | ok c =>
    rw [hc] at h
    obtain ⟨ch, h1, _, rfl⟩ := dirAns_inv h
    have := AnswerForm.dh (env := env) (extra := rs.extra) (second := second) (add := add) c ch (certKid env rs.kid c) h1
    exact ⟨c, rfl, rfl, by simpa using this⟩

/-- Each answer has one of the forms; the certificates of the answer follow those it had. -/
theorem C219_form {env : AnsEnv C} {rq : AnsReq C} {rs : AnsResp C} {second : Option C} {add : List C}
    {a : Ans C} (h : protectReply env rq rs second add = .ok a) : AnswerForm env rs.extra second add a := by
  unfold protectReply at h
  split at h
  · rw [signPlain_form h]; exact .signed ..
  · cases h
  · obtain ⟨_, _, _, hf⟩ := protectDh_inv h; exact hf
  · split at h
    · cases h
    · rw [((finish_iff ..).1 h).2]; exact .kemMac _
    · exact (protectSig_form h).1
  · rw [((finish_iff ..).1 h).2]; exact .mac _
  all_goals exact (protectSig_form h).1

/-- The certificate of the key which protects an answer is the first of its certificates, and the sender is its
subject: a client which reads the first certificate verifies with the right key. -/
theorem C219_first {env : AnsEnv C} {rq : AnsReq C} {rs : AnsResp C} {second : Option C} {add : List C}
    {a : Ans C} (hx : rs.extra = []) (h : protectReply env rq rs second add = .ok a) {c : C}
    (hc : (∃ k, a.how = .sig c k) ∨ a.how = .kariSig c ∨ a.how = .dh c) :
    a.extra.head? = some c ∧ a.sender = .subject c := by
  have hf := C219_form h
  rw [hx] at hf
  cases hf <;> rcases hc with ⟨k, hc⟩ | hc | hc <;> first | (injection hc with hc; subst hc; exact ⟨rfl, rfl⟩) | cases hc

/-- Each answer contains the secondary certificate and those of the chain of the CA. -/
theorem C219_certs {env : AnsEnv C} {rq : AnsReq C} {rs : AnsResp C} {second : Option C} {add : List C}
    {a : Ans C} (h : protectReply env rq rs second add = .ok a) :
    (∀ c, second = some c → c ∈ a.extra) ∧ (∀ c ∈ add, c ∈ a.extra) ∧ (∀ c ∈ rs.extra, c ∈ a.extra) := by
  have hf := C219_form h
  refine ⟨fun c hc => ?_, fun c hc => ?_, fun c hc => ?_⟩
  · subst hc; cases hf <;> simp
  · cases hf <;> simp [hc]
  · cases hf <;> simp [hc]

/-- The alternative key of the configuration is never used. -/
theorem C219_alt_refuted {env : AnsEnv C} {rq : AnsReq C} {rs : AnsResp C} {second : Option C} {add : List C}
    {a : Ans C} (h : protectReply env rq rs second add = .ok a) {c : C} {k : Option Bytes} (hs : a.how = .sig c k) :
    c = env.protCert ∧ k = none := by
  have hf := C219_form h
  cases hf <;> first | (injection hs with h1 h2; exact ⟨h1.symm, h2.symm⟩) | cases hs

/-- Is the protection by a signature? -/
def How.bySig : How C → Prop
  | .sig .. => True
  | .kariSig _ => True
  | _ => False

/-- The protection of an answer is of the kind of that of the request; a request protected by a KEM-based MAC whose secret
is not known is answered with a signature, an unprotected one too. -/
theorem C219_kind {env : AnsEnv C} {rq : AnsReq C} {rs : AnsResp C} {second : Option C} {add : List C}
    {a : Ans C} (h : protectReply env rq rs second add = .ok a) :
    (rq.alg = some (.ok .mac) → a.how = .mac (sameMac env.defMac rq.algOid true) env.password) ∧
    (rq.alg = some (.ok .dh) → ∃ c, a.how = .dh c ∧ dhCert env rq.extra.head? = .ok c) ∧
    (∀ ss, rq.alg = some (.ok .kem) → rq.kem = .ok (some ss) → a.how = .kemMac ss) ∧
    (rq.alg = some (.ok .kem) → rq.kem = .ok none → a.how.bySig) ∧
    (rq.alg = none → a.how = .sig env.protCert none) ∧
    (∀ t, rq.alg = some (.ok t) → t ≠ .mac → t ≠ .dh → t ≠ .kem → a.how.bySig) := by
  have sigOf : protectSig env rq rs second add = .ok a → a.how.bySig := fun h => by
    rcases (protectSig_form h).2 with ⟨h, _⟩ | ⟨h, _⟩ <;> (rw [h]; trivial)
  unfold protectReply at h
  refine ⟨fun ha => ?_, fun ha => ?_, fun ss ha hk => ?_, fun ha hk => ?_, fun ha => ?_, fun t ha h1 h2 h3 => ?_⟩
  · rw [ha] at h; rw [((finish_iff ..).1 h).2]
  · rw [ha] at h
    obtain ⟨c, h1, h2, _⟩ := protectDh_inv h
    exact ⟨c, h2, h1⟩
  · rw [ha] at h; dsimp only at h; rw [hk] at h; rw [((finish_iff ..).1 h).2]
  · rw [ha] at h; dsimp only at h; rw [hk] at h; exact sigOf h
  · rw [ha] at h; rw [signPlain_form h]
  · rw [ha] at h
    cases t with
    | mac => exact absurd rfl h1
    | dh => exact absurd rfl h2
    | kem => exact absurd rfl h3
    | tradSig => exact sigOf h
    | pqSig => exact sigOf h
    | compositeSig => exact sigOf h
    | pqStateful => exact sigOf h

/-- The certificate for a DH-based MAC is the one of the CA of the same kind as the key of the client; for other keys the
answer is refused. -/
theorem C219_dh_iff (env : AnsEnv C) (o : Option C) (c : C) :
    dhCert env o = .ok c ↔ ∃ k, env.keyOf o = .ok k ∧
      ((k = .x25519 ∧ c = env.x25519Cert) ∨ (k = .x448 ∧ c = env.x448Cert) ∨ (k = .ec ∧ c = env.eccCert)) := by
  unfold dhCert
  cases hk : env.keyOf o with
  | error e => exact ⟨fun h => (by cases h), fun ⟨_, h, _⟩ => by cases h⟩
  | ok k =>
    constructor
    · intro h
      refine ⟨k, rfl, ?_⟩
      cases k with
      | x25519 => exact .inl ⟨rfl, (Except.ok.inj h).symm⟩
      | x448 => exact .inr (.inl ⟨rfl, (Except.ok.inj h).symm⟩)
      | ec => exact .inr (.inr ⟨rfl, (Except.ok.inj h).symm⟩)
      | other => cases h
    · rintro ⟨k', h, hh⟩
      injection h with h
      subst h
      rcases hh with ⟨rfl, rfl⟩ | ⟨rfl, rfl⟩ | ⟨rfl, rfl⟩ <;> rfl

theorem C219_dh_other {env : AnsEnv C} {o : Option C} (h : env.keyOf o = .ok .other) :
    dhCert env o = .error .badMessageCheck := by
  unfold dhCert; rw [h]

/-- The MAC algorithm of an answer is that of the request for PBMAC1 and the password-based MAC. -/
theorem C219_mac_partial (dflt : String) :
    sameMac dflt [1, 2, 840, 113549, 1, 5, 14] true = "pbmac1" ∧
    sameMac dflt [1, 2, 840, 113533, 7, 66, 13] true = "password_based_mac" ∧
    sameMac dflt [1, 2, 840, 113549, 1, 5, 14] false = "password_based_mac" ∧
    sameMac dflt [1, 2, 840, 113533, 7, 66, 13] false = "pbmac1" := ⟨rfl, rfl, rfl, rfl⟩

/-- Every other MAC is answered with the default algorithm. -/
theorem C219_mac_other (dflt : String) (oid : List Nat) (b : Bool) (h1 : oid ≠ [1, 2, 840, 113549, 1, 5, 14])
    (h2 : oid ≠ [1, 2, 840, 113533, 7, 66, 13]) : sameMac dflt oid b = dflt := by
  unfold sameMac; rw [if_neg h1, if_neg h2]

/-- So requests protected with HMAC-SHA256 and with KMAC-SHAKE128 get the same algorithm, which cannot be that of both. -/
theorem C219_mac_refuted (dflt : String) :
    ¬ ∃ name : List Nat → String, name [1, 2, 840, 113549, 2, 9] ≠ name [2, 16, 840, 1, 101, 3, 4, 2, 19] ∧
      ∀ oid, sameMac dflt oid true = name oid := by
  rintro ⟨name, hne, h⟩
  apply hne
  rw [← h, ← h, C219_mac_other _ _ _ (by decide) (by decide), C219_mac_other _ _ _ (by decide) (by decide)]

private theorem anyPriv_true {l : List (Except PyErr Bool)} (h : anyPriv l = .ok true) : .ok true ∈ l := by
  induction l with
  | nil => cases h
  | cons x l ih =>
    cases x with
    | error e => cases h
    | ok b =>
      cases b with
      | true => exact List.mem_cons_self ..
      | false => exact List.mem_cons_of_mem _ (ih h)

/-- The key-agreement key signs an answer only if it delivers a private key in an `ip`, `cp` or `kup` to a client whose
certificate has an elliptic-curve key. -/
theorem C219_kari {env : AnsEnv C} {rq : AnsReq C} {rs : AnsResp C} {second : Option C} {add : List C}
    {a : Ans C} (h : protectReply env rq rs second add = .ok a) {c : C} (hk : a.how = .kariSig c) :
    c = env.eccCert ∧ (rs.body = "ip" ∨ rs.body = "cp" ∨ rs.body = "kup") ∧ .ok true ∈ rs.privKeys ∧
      env.keyOf rq.extra.head? = .ok .ec := by
  have hsig : protectSig env rq rs second add = .ok a := by
    unfold protectReply at h
    split at h
    · rw [signPlain_form h] at hk; cases hk
    · cases h
    · obtain ⟨_, _, h2, _⟩ := protectDh_inv h; rw [hk] at h2; cases h2
    · split at h
      · cases h
      · rw [((finish_iff ..).1 h).2] at hk; cases hk
      · exact h
    · rw [((finish_iff ..).1 h).2] at hk; cases hk
    all_goals exact h
  rcases (protectSig_form hsig).2 with ⟨h1, h2⟩ | ⟨h1, _⟩
  · rw [hk] at h1
    injection h1 with h1
    refine ⟨h1, ?_⟩
    unfold isKgaKari at h2
    split at h2
    · cases h2
    · rename_i hb
      have hb := Decidable.not_not.1 hb
      cases hp : anyPriv rs.privKeys with
      | error e => rw [hp] at h2; cases h2
      | ok b =>
        rw [hp] at h2
        cases b with
        | false => cases h2
        | true =>
          dsimp only at h2
          cases hx : env.keyOf rq.extra.head? with
          | error e => rw [hx] at h2; cases h2
          | ok k =>
            rw [hx] at h2
            injection h2 with h2
            rw [of_decide_eq_true h2]
            exact ⟨by rcases hb with h | h | h <;> simp [h], anyPriv_true hp, rfl⟩
  · rw [hk] at h1; cases h1

/-! ## `sign_response` -/

/-- An unprotected request is answered with a signature, but without the secondary certificate and the chain. -/
theorem C220_unprotected {env : AnsEnv C} {rq : AnsReq C} {rs : AnsResp C} {second : Option C} {add : List C}
    (hb : rq.body ≠ "nested") (ha : rq.alg = none) {a : Ans C} (h : signResponse env rq rs second add = .ok a) :
    a.how = .sig env.protCert none ∧ a.sender = .subject env.protCert ∧ a.extra = rs.extra ++ env.fullChain env.protCert := by
  unfold signResponse at h
  rw [if_neg hb, ha] at h
  rw [((finish_iff ..).1 h).2]
  exact ⟨rfl, rfl, rfl⟩

/-- A protected request which is not nested is answered by `protect_pkimessage`. -/
theorem C220_protected (env : AnsEnv C) {rq : AnsReq C} (rs : AnsResp C) (second : Option C) (add : List C)
    (hb : rq.body ≠ "nested") (ha : rq.alg ≠ none) :
    signResponse env rq rs second add = protectReply env rq rs second add := by
  unfold signResponse
  rw [if_neg hb]
  cases h : rq.alg with
  | none => exact absurd h ha
  | some _ => rfl

/-- The secondary certificate is not in every answer. -/
theorem C220_second_refuted :
    ¬ ∀ (env : AnsEnv Nat) (rq : AnsReq Nat) (rs : AnsResp Nat) (c : Nat) (a : Ans Nat),
      signResponse env rq rs (some c) [] = .ok a → c ∈ a.extra := by
  intro h
  have := h { protCert := 1, chain := [1], x25519Cert := 2, x448Cert := 3, eccCert := 4, keyOf := fun _ => .ok .other,
              dirChain := fun c => .ok [c], fullChain := fun c => [c], password := [], caKid := [], ski := fun _ => none,
              subjKid := fun _ => [], sign := fun _ => .ok () }
    { body := "ir" } { body := "ip" } 9 _ rfl
  revert this
  decide

/-- An answer to a nested request protected by a KEM-based MAC uses the password of the CA, not the secret agreed. -/
theorem C220_nested_kem_refuted {env : AnsEnv C} {rq : AnsReq C} {rs : AnsResp C} {second : Option C} {add : List C}
    (hb : rq.body = "nested") (hr : rs.body ≠ "nested") (hi : rq.innerAlg = true) (ha : rq.alg = some (.ok .kem))
    {ss : Bytes} (hk : rq.kem = .ok (some ss)) {a : Ans C} (h : signResponse env rq rs second add = .ok a) :
    a.how = .kemMac env.password := by
  unfold signResponse signNested at h
  rw [if_pos hb, if_neg hr, if_neg (by rw [hi]; exact Bool.noConfusion), ha] at h
  dsimp only at h
  rw [hk] at h
  rw [((finish_iff ..).1 h).2]

/-- A nested request protected by a DH-based MAC is never answered. -/
theorem C220_nested_dh_refuted {env : AnsEnv C} {rq : AnsReq C} {rs : AnsResp C} {second : Option C} {add : List C}
    (hb : rq.body = "nested") (hr : rs.body ≠ "nested") (hi : rq.innerAlg = true) (ha : rq.alg = some (.ok .dh)) :
    ∃ e, signResponse env rq rs second add = .error e := by
  unfold signResponse signNested
  rw [if_pos hb, if_neg hr, if_neg (by rw [hi]; exact Bool.noConfusion), ha]
  dsimp only
  cases dhCert env rq.extra.head? with
  | error e => exact ⟨e, rfl⟩
  | ok c =>
    dsimp only
    cases env.sign (.dh c) with
    | error e => exact ⟨e, rfl⟩
    | ok u => exact ⟨_, rfl⟩

/-! ## Content types -/

/-- With the default, everything is sent as a CMP message; a certificate is sent with its own type only if asked for. -/
theorem C220_type_refuted (p : Payload) (t : String) :
    (contentType p true = .ok t → t = "application/pkixcmp") ∧
    (contentType p false = .ok "application/pkix-cert" ↔ p = .certificate) := by
  refine ⟨fun h => ?_, ?_⟩
  · cases p with
    | other => cases h
    | raw => exact (Except.ok.inj h).symm
    | message => exact (Except.ok.inj h).symm
    | certificate => exact (Except.ok.inj h).symm
  · cases p <;> decide +kernel

/-! ## Examples -/

/-- Certificates are numbers; the CA has the certificates 1 to 4. -/
def exAns : AnsEnv Nat where
  protCert := 1
  chain := [1, 10, 11]
  altKey := some [7]
  x25519Cert := 2
  x448Cert := 3
  eccCert := 4
  keyOf o := .ok (match o with | some 52 => .x25519 | some 53 => .x448 | some 54 => .ec | _ => .other)
  dirChain c := .ok [c, 20]
  fullChain c := [c, 10]
  password := [115]
  caKid := [67, 65]
  ski c := if c = 1 then some [9, 9] else none
  subjKid c := [UInt8.ofNat c]
  sign _ := .ok ()

example : protectReply exAns { body := "ir", alg := some (.ok .tradSig) } { body := "ip" } (some 5) [6]
    = .ok ⟨.sig 1 none, [1, 5, 10, 11, 6], .subject 1, some [9, 9]⟩ := by decide +kernel
example : protectReply exAns { body := "ir", alg := some (.ok .dh), extra := [52] } { body := "ip" } none [6]
    = .ok ⟨.dh 2, [2, 20, 6], .subject 2, some [2]⟩ := by decide +kernel
example : protectReply exAns { body := "ir", alg := some (.ok .dh), extra := [60] } { body := "ip" } none [6]
    = .error .badMessageCheck := by decide +kernel
example : protectReply exAns { body := "ir", alg := some (.ok .mac), algOid := [1, 2, 840, 113549, 1, 5, 14] } { body := "ip" }
    none [6] = .ok ⟨.mac "pbmac1" [115], [6], .caName, some [67, 65]⟩ := by decide +kernel
example : protectReply exAns { body := "ir", alg := some (.ok .tradSig), extra := [54] }
    { body := "ip", privKeys := [.ok false, .ok true] } none []
    = .ok ⟨.kariSig 4, [4, 20], .subject 4, some [4]⟩ := by decide +kernel
example : protectReply exAns { body := "ir", alg := some (.ok .kem), reqKey := .ok .x448 } { body := "ip", enc := .ok true }
    none [] = .ok ⟨.sig 1 none, [1, 3, 10, 11], .subject 1, some [9, 9]⟩ := by decide +kernel
example : signResponse exAns { body := "nested", alg := some (.ok .kem), kem := .ok (some [1, 2]), innerAlg := true }
    { body := "ip" } none [] = .ok ⟨.kemMac [115], [], .caName, some [67, 65]⟩ := by decide +kernel
example : signResponse exAns { body := "nested", alg := some (.ok .dh), extra := [53], innerAlg := true }
    { body := "ip" } none [] = .error .pyasn1Error := by decide +kernel
example : buildErr exHdrBuild exInfo ([1], [2]) [3] [4] 100 { clsFail := "badPOP", message := "m", details := some (.one "ab") }
    (some ⟨some [7], some [8]⟩)
    = .ok ({ pvno := some 2, sender := some (.mail "tests@example.com".toList),
             recipient := some (.mail "testr@example.com".toList), tid := some [8], senderNonce := some [4],
             recipNonce := some [7], time := some 97, senderKid := some [1], recipKid := some [2], freeText := some [] },
           ⟨"rejection", some "badPOP", ["m"], 1, ["ab", "a", "b"]⟩) := by decide +kernel
example : ((buildErr exHdrBuild exInfo ([1], [2]) [3] [4] 100 { message := "m" } (some ⟨none, none⟩)).toOption.bind (·.1.tid))
    = some [3] := by decide +kernel
example : containsChallenge "cr" (.enc "subsequentMessage" (some "challengeResp")) = true := by decide +kernel
example : containsChallenge "kur" (.enc "subsequentMessage" (some "challengeResp")) = false := by decide +kernel
example : contentType .certificate true = .ok "application/pkixcmp" := by decide +kernel

end Verif.Ra
