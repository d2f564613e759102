import Verif.CA.Nested
import Verif.CA.DispatchProps
import Verif.CA.CertConfProps
import Verif.Check.HeaderProps

/-!
# Properties of nested messages: C15, C90
-/

namespace Verif.CA

open Verif.Check (Cert Spki)

variable {C D R S P : Type}

/-! ## Specification -/

/-- The response body that belongs to a request body (RFC 9810, section 5.3). -/
inductive Replies : String → String → Prop where
  | ir : Replies "ir" "ip"
  | cr : Replies "cr" "cp"
  | p10cr : Replies "p10cr" "cp"
  | kur : Replies "kur" "kup"
  | ccr : Replies "ccr" "ccp"
  | certConf : Replies "certConf" "pkiconf"

/-- The message an element of a batch stands for: itself, or the message it wraps. -/
def BEntry.Stands (e : BEntry C S P) (q : NReq C S P) : Prop :=
  (e.msg.m.body ≠ "nested" ∧ q = e.msg) ∨ (e.msg.m.body = "nested" ∧ e.inner = [q])

/-- The response answers the element: same transaction, and the body that belongs to the request, or an error
message for a certificate request. -/
def AnswersEntry (e : BEntry C S P) (r : Resp) : Prop :=
  r.tx = e.msg.m.txId ∧ ∃ q, e.Stands q ∧
    (Replies q.m.body r.body ∨ (r.body = "error" ∧ ∃ b, Replies q.m.body b ∧ q.m.body ≠ "certConf"))

/-- The issuing functions answer with the body that belongs to the request. -/
def GoodIssue (issue : Issue C D R S P) : Prop :=
  ∀ st q now b st', issue st q now = (.ok b, st') → Replies q.m.body b

/-! ## Single elements -/

theorem respBody_replies {b : String} (h : b ∈ ["ir", "cr", "p10cr", "kur", "ccr"]) : Replies b (respBody b) := by
  simp only [List.mem_cons, List.not_mem_nil, or_false] at h
  rcases h with rfl | rfl | rfl | rfl | rfl
  · exact .ir
  · exact .cr
  · exact .p10cr
  · exact .kur
  · exact .ccr

theorem requestBody_ok [DecidableEq D] {H : C → D} {issue : Issue C D R S P} {st st' : CaSt C D R S} {q : NReq C S P}
    {now : Int} {b : String} (h : requestBody H issue st q now = (.ok b, st')) : issue st q now = (.ok b, st') := by
  unfold requestBody at h
  split at h
  · cases (Prod.mk.inj h).1
  split at h
  · cases (Prod.mk.inj h).1
  split at h
  · cases (Prod.mk.inj h).1
  split at h
  · cases (Prod.mk.inj h).1
  split at h
  · cases (Prod.mk.inj h).1
  exact h

theorem processCertRequest_ok [DecidableEq D] {H : C → D} {issue : Issue C D R S P} (gi : GoodIssue issue)
    {st st' : CaSt C D R S} {q : NReq C S P} {must : Bool} {now : Int} {b : String × Bool}
    (h : processCertRequest H issue st q must now = (.ok b, st')) :
    (Replies q.m.body b.1 ∨ b.1 = "error") ∧ q.m.body ∈ ["ir", "cr", "p10cr", "kur", "ccr"] := by
  unfold processCertRequest at h
  split at h
  · cases (Prod.mk.inj h).1
  by_cases hb : q.m.body ∉ ["ir", "cr", "p10cr", "kur", "ccr"]
  · rw [if_pos hb] at h
    cases (Prod.mk.inj h).1
  rw [if_neg hb] at h
  refine ⟨?_, Classical.not_not.mp hb⟩
  split at h
  · next b' s' hr =>
    have := (Prod.mk.inj h).1
    cases this
    exact Or.inl (gi _ _ _ _ _ (requestBody_ok hr))
  · next e s' hr =>
    by_cases h1 : e = .transactionIdInUse
    · rw [if_pos h1] at h
      cases (Prod.mk.inj h).1
      exact Or.inr rfl
    · rw [if_neg h1] at h
      by_cases h2 : e.isCmp = true
      · rw [if_pos h2] at h
        cases (Prod.mk.inj h).1
        exact Or.inl (respBody_replies (Classical.not_not.mp hb))
      · rw [if_neg h2] at h
        cases (Prod.mk.inj h).1

theorem request_not_conf {b : String} (h : b ∈ ["ir", "cr", "p10cr", "kur", "ccr"]) : b ≠ "certConf" := by
  rintro rfl
  revert h
  decide

theorem answers_request {e : BEntry C S P} {q : NReq C S P} (hs : e.Stands q) (ht : q.m.txId = e.msg.m.txId) {b : String}
    (h : (Replies q.m.body b ∨ b = "error") ∧ q.m.body ∈ ["ir", "cr", "p10cr", "kur", "ccr"]) :
    AnswersEntry e ⟨q.m.txId, b⟩ := by
  refine ⟨ht, q, hs, ?_⟩
  rcases h.1 with h1 | h1
  · exact Or.inl h1
  · exact Or.inr ⟨h1, _, respBody_replies h.2, request_not_conf h.2⟩

theorem caCertConf_ok [DecidableEq C] [DecidableEq D] {H : C → D} {cfg : ConfCfg} {env : ConfEnv C}
    {st st' : CaSt C D R S} {m : Msg C} {now : Int} {b : String}
    (h : caCertConf H cfg env st m now = (.ok b, st')) : b = "pkiconf" := by
  unfold caCertConf at h
  split at h
  · cases (Prod.mk.inj h).1
  · cases (Prod.mk.inj h).1; rfl
  · cases (Prod.mk.inj h).1; rfl

variable [DecidableEq C] [DecidableEq D]

theorem processAdded_ok {H : C → D} {cfg : ConfCfg} {env : ConfEnv C} {issue : Issue C D R S P} (gi : GoodIssue issue)
    {st st' : CaSt C D R S} {outer : NReq C S P} {inner : List (NReq C S P)} {now : Int} {r : Resp}
    (h : processAdded H cfg env issue st outer inner now = (.ok r, st')) (hb : outer.m.body = "nested") :
    AnswersEntry ⟨outer, inner⟩ r := by
  unfold processAdded at h
  split at h
  · cases (Prod.mk.inj h).1
  next hv =>
  rcases (Check.C16_iff _ _ _).mp hv with ⟨m, t, s, hi, h1, h2, -⟩
  split at h
  · cases (Prod.mk.inj h).1
  next q qs =>
  have hqs : qs = [] := by
    have := congrArg (fun o => (o.getD []).length) hi
    simp only [Option.getD_some, List.map_cons, List.length_cons, List.length_map, List.length_nil] at this
    exact List.eq_nil_of_length_eq_zero (by omega)
  subst hqs
  have hm : innerOf q = m := by
    simp only [List.map_cons, List.map_nil, Option.some.injEq, List.cons.injEq, and_true] at hi
    exact hi
  have ht : q.m.txId = outer.m.txId := by
    rw [← hm] at h2
    exact h2.trans h1.symm
  have hs : BEntry.Stands ⟨outer, [q]⟩ q := Or.inr ⟨hb, rfl⟩
  split at h
  · cases (Prod.mk.inj h).1
  split at h
  · cases (Prod.mk.inj h).1
  by_cases hr : q.m.body ∈ ["ir", "cr", "p10cr", "kur", "ccr"]
  · rw [if_pos hr] at h
    split at h
    · cases (Prod.mk.inj h).1
    · next b f s' hp =>
      cases (Prod.mk.inj h).1
      exact answers_request hs ht (processCertRequest_ok gi hp)
  · rw [if_neg hr] at h
    by_cases hc : q.m.body = "certConf"
    · rw [if_pos hc] at h
      split at h
      · cases (Prod.mk.inj h).1
      · next b s' hp =>
        cases (Prod.mk.inj h).1
        refine ⟨ht, q, hs, Or.inl ?_⟩
        rw [hc, caCertConf_ok hp]
        exact .certConf
    · rw [if_neg hc] at h
      cases (Prod.mk.inj h).1

theorem batchEntry_ok {H : C → D} {cfg : ConfCfg} {env : ConfEnv C} {issue : Issue C D R S P} (gi : GoodIssue issue)
    {st st' : CaSt C D R S} {e : BEntry C S P} {now : Int} {r : Resp}
    (h : batchEntry H cfg env issue st e now = (.ok r, st')) : AnswersEntry e r := by
  unfold batchEntry at h
  dsimp only at h
  by_cases hn : e.msg.m.body = "nested"
  · rw [if_pos hn] at h
    by_cases hl : e.inner.length ≠ 1
    · rw [if_pos hl] at h
      cases (Prod.mk.inj h).1
    · rw [if_neg hl] at h
      exact processAdded_ok gi h hn
  rw [if_neg hn] at h
  have hs : e.Stands e.msg := Or.inl ⟨hn, rfl⟩
  by_cases hc : e.msg.m.body = "certConf"
  · rw [if_pos hc] at h
    split at h
    · cases (Prod.mk.inj h).1
    · next b s' hp =>
      cases (Prod.mk.inj h).1
      refine ⟨rfl, e.msg, hs, Or.inl ?_⟩
      rw [hc, caCertConf_ok hp]
      exact .certConf
  rw [if_neg hc] at h
  split at h
  · cases (Prod.mk.inj h).1
  split at h
  · cases (Prod.mk.inj h).1
  by_cases hr : e.msg.m.body ∈ ["cr", "ir", "p10cr", "kur", "ccr"]
  · rw [if_pos hr] at h
    split at h
    · cases (Prod.mk.inj h).1
    · next b f s' hp =>
      cases (Prod.mk.inj h).1
      exact answers_request hs rfl (processCertRequest_ok gi hp)
  · rw [if_neg hr] at h
    cases (Prod.mk.inj h).1

/-! ## The loop -/

theorem batchLoop_cons {H : C → D} {cfg : ConfCfg} {env : ConfEnv C} {issue : Issue C D R S P} {now : Int}
    {e : BEntry C S P} {es : List (BEntry C S P)} {st : CaSt C D R S} :
    batchLoop H cfg env issue now (e :: es) st =
      match batchEntry H cfg env issue st e now with
      | (.error x, st) => (.error x, st)
      | (.ok r, st) =>
        match batchLoop H cfg env issue now es st with
        | (.error x, st) => (.error x, st)
        | (.ok rs, st) => (.ok (r :: rs), st) := rfl

theorem batchLoop_append {H : C → D} {cfg : ConfCfg} {env : ConfEnv C} {issue : Issue C D R S P} {now : Int}
    {pre post : List (BEntry C S P)} {st s1 : CaSt C D R S} {rs : List Resp}
    (h : batchLoop H cfg env issue now pre st = (.ok rs, s1)) :
    batchLoop H cfg env issue now (pre ++ post) st =
      ((batchLoop H cfg env issue now post s1).1.map (rs ++ ·), (batchLoop H cfg env issue now post s1).2) := by
  induction pre generalizing st rs with
  | nil =>
    cases h
    rw [List.nil_append]
    rcases batchLoop H cfg env issue now post s1 with ⟨_ | _, _⟩ <;> rfl
  | cons e es ih =>
    rw [List.cons_append]
    unfold batchLoop at h
    rcases he : batchEntry H cfg env issue st e now with ⟨x | r, s2⟩
    · rw [he] at h
      cases (Prod.mk.inj h).1
    · rw [he] at h
      dsimp only at h
      rcases hl : batchLoop H cfg env issue now es s2 with ⟨x | rs', s3⟩
      · rw [hl] at h
        cases (Prod.mk.inj h).1
      · rw [hl] at h
        dsimp only at h
        cases (Prod.mk.inj h).1
        cases (Prod.mk.inj h).2
        rw [batchLoop_cons, he]
        dsimp only
        rw [ih hl]
        rcases batchLoop H cfg env issue now post s1 with ⟨_ | _, _⟩ <;> rfl

theorem batchLoop_split {H : C → D} {cfg : ConfCfg} {env : ConfEnv C} {issue : Issue C D R S P} {now : Int}
    {pre post : List (BEntry C S P)} {e : BEntry C S P} {st st' : CaSt C D R S} {rs : List Resp}
    (h : batchLoop H cfg env issue now (pre ++ e :: post) st = (.ok rs, st')) :
    ∃ rs1 r rs2 s1 s2, rs = rs1 ++ r :: rs2 ∧ rs1.length = pre.length ∧
      batchLoop H cfg env issue now pre st = (.ok rs1, s1) ∧
      batchEntry H cfg env issue s1 e now = (.ok r, s2) ∧
      batchLoop H cfg env issue now post s2 = (.ok rs2, st') := by
  induction pre generalizing st rs with
  | nil =>
    rw [List.nil_append] at h
    unfold batchLoop at h
    rcases he : batchEntry H cfg env issue st e now with ⟨x | r, s2⟩
    · rw [he] at h
      cases (Prod.mk.inj h).1
    · rw [he] at h
      dsimp only at h
      rcases hl : batchLoop H cfg env issue now post s2 with ⟨x | rs', s3⟩
      · rw [hl] at h
        cases (Prod.mk.inj h).1
      · rw [hl] at h
        dsimp only at h
        cases (Prod.mk.inj h).1
        cases (Prod.mk.inj h).2
        exact ⟨[], r, rs', st, s2, rfl, rfl, rfl, he, hl⟩
  | cons f fs ih =>
    rw [List.cons_append] at h
    unfold batchLoop at h
    rcases he : batchEntry H cfg env issue st f now with ⟨x | r, s2⟩
    · rw [he] at h
      cases (Prod.mk.inj h).1
    · rw [he] at h
      dsimp only at h
      rcases hl : batchLoop H cfg env issue now (fs ++ e :: post) s2 with ⟨x | rs', s3⟩
      · rw [hl] at h
        cases (Prod.mk.inj h).1
      · rw [hl] at h
        dsimp only at h
        cases (Prod.mk.inj h).1
        cases (Prod.mk.inj h).2
        rcases ih hl with ⟨rs1, r', rs2, s1, s2', h1, h2, h3, h4, h5⟩
        refine ⟨r :: rs1, r', rs2, s1, s2', by rw [h1]; rfl, by rw [List.length_cons, h2, List.length_cons], ?_, h4, h5⟩
        unfold batchLoop
        rw [he]
        dsimp only
        rw [h3]

theorem batchLoop_length {H : C → D} {cfg : ConfCfg} {env : ConfEnv C} {issue : Issue C D R S P} {now : Int}
    {es : List (BEntry C S P)} {st st' : CaSt C D R S} {rs : List Resp}
    (h : batchLoop H cfg env issue now es st = (.ok rs, st')) : rs.length = es.length := by
  induction es generalizing st rs with
  | nil => cases (Prod.mk.inj h).1; rfl
  | cons e es ih =>
    rcases batchLoop_split (pre := []) h with ⟨rs1, r, rs2, s1, s2, h1, h2, -, -, h5⟩
    rw [h1, List.length_append, h2, List.length_cons, ih h5, List.length_cons]
    simp only [List.length_nil, Nat.zero_add]

theorem processBatched_ok {H : C → D} {cfg : ConfCfg} {env : ConfEnv C} {issue : Issue C D R S P} {now : Int}
    {outer : NReq C S P} {es : List (BEntry C S P)} {st st' : CaSt C D R S} {rs : List Resp}
    (h : processBatched H cfg env issue st outer es now = (.ok rs, st')) :
    checkNonces outer es = .ok () ∧ batchLoop H cfg env issue now es st = (.ok rs, st') := by
  unfold processBatched at h
  split at h
  · cases (Prod.mk.inj h).1
  · next hc => exact ⟨hc, h⟩

theorem checkNonces_ok {outer : NReq C S P} {es : List (BEntry C S P)} (h : checkNonces outer es = .ok ()) :
    Check.validateNestedUnique (hdrOf outer.m) outer.m.body (es.map (fun e => innerOf e.msg)) true true false true
        = .ok () ∧
      ((∀ e ∈ es, e.msg.m.body = "certConf") ∨ ((∀ e ∈ es, e.msg.m.body ≠ "certConf") ∧ outer.m.recipNonce = none)) := by
  unfold checkNonces at h
  split at h
  · cases h
  next hv =>
  refine ⟨hv, ?_⟩
  by_cases ha : es.any (fun e => decide (e.msg.m.body = "certConf")) = true
  · rw [if_pos ha] at h
    by_cases hb : es.all (fun e => decide (e.msg.m.body = "certConf")) = true
    · refine Or.inl (fun e he => ?_)
      exact of_decide_eq_true (List.all_eq_true.mp hb e he)
    · rw [if_neg hb] at h
      cases h
  · rw [if_neg ha] at h
    by_cases hr : outer.m.recipNonce.isSome = true
    · rw [if_pos hr] at h
      cases h
    · refine Or.inr ⟨fun e he hc => ha (List.any_eq_true.mpr ⟨e, he, decide_eq_true hc⟩), ?_⟩
      cases ho : outer.m.recipNonce with
      | none => rfl
      | some r => rw [ho] at hr; exact absurd rfl hr

/-! ## C15 -/

/-- **C15.** A successful batch has one response per inner message; the `i`-th response is the one the handler
gives to the `i`-th message, in the state the earlier messages left, and it answers that message: it carries its
transaction and the body that belongs to it (or an error for a certificate request). -/
theorem C15_one_for_one {H : C → D} {cfg : ConfCfg} {env : ConfEnv C} {issue : Issue C D R S P} (gi : GoodIssue issue)
    {now : Int} {outer : NReq C S P} {es : List (BEntry C S P)} {st st' : CaSt C D R S} {rs : List Resp}
    (h : processBatched H cfg env issue st outer es now = (.ok rs, st')) :
    rs.length = es.length ∧
    ∀ pre e post, es = pre ++ e :: post →
      ∃ rs1 r rs2 s1 s2, rs = rs1 ++ r :: rs2 ∧ rs1.length = pre.length ∧ AnswersEntry e r ∧
        batchLoop H cfg env issue now pre st = (.ok rs1, s1) ∧
        batchEntry H cfg env issue s1 e now = (.ok r, s2) ∧
        batchLoop H cfg env issue now post s2 = (.ok rs2, st') := by
  have hl := (processBatched_ok h).2
  refine ⟨batchLoop_length hl, fun pre e post he => ?_⟩
  rw [he] at hl
  rcases batchLoop_split hl with ⟨rs1, r, rs2, s1, s2, h1, h2, h3, h4, h5⟩
  exact ⟨rs1, r, rs2, s1, s2, h1, h2, batchEntry_ok gi h4, h3, h4, h5⟩

/-- **C15.** No response can be taken for the answer to another message of the batch: the transaction of the
`i`-th response is that of the `j`-th message only for `i = j`. -/
theorem C15_unambiguous {H : C → D} {cfg : ConfCfg} {env : ConfEnv C} {issue : Issue C D R S P} (gi : GoodIssue issue)
    {now : Int} {outer : NReq C S P} {es : List (BEntry C S P)} {st st' : CaSt C D R S} {rs : List Resp}
    (h : processBatched H cfg env issue st outer es now = (.ok rs, st')) (i j : Nat) (hi : i < rs.length)
    (hj : j < es.length) : rs[i].tx = (es[j]).msg.m.txId ↔ i = j := by
  have hlen := (C15_one_for_one gi h).1
  have key : rs[i].tx = (es[i]'(hlen ▸ hi)).msg.m.txId := by
    have hd : es = es.take i ++ (es[i]'(hlen ▸ hi)) :: es.drop (i + 1) := by
      rw [List.getElem_cons_drop, List.take_append_drop]
    rcases (C15_one_for_one gi h).2 _ _ _ hd with ⟨rs1, r, rs2, -, -, h1, h2, h3, -⟩
    have h4 : rs1.length = i := by rw [h2, List.length_take]; omega
    have h5 : rs[i] = r := by
      simp only [h1, ← h4, List.getElem_append_right (Nat.le_refl _), Nat.sub_self, List.getElem_cons_zero]
    rw [h5]
    exact h3.1
  have hnd := ((Check.C14_iff _ _ _ _ _ _ _).mp (checkNonces_ok (processBatched_ok h).1).1).2.2.2.2.1 rfl
  have hnd2 : (es.map (fun e => e.msg.m.txId)).Nodup := by
    have := (List.nodup_cons.mp hnd).2
    rw [List.map_map] at this
    exact this
  rw [key]
  constructor
  · intro he
    have hi' : i < (es.map (fun e => e.msg.m.txId)).length := by rw [List.length_map]; omega
    have hj' : j < (es.map (fun e => e.msg.m.txId)).length := by rw [List.length_map]; exact hj
    have hm : (es.map (fun e => e.msg.m.txId))[i] = (es.map (fun e => e.msg.m.txId))[j] := by
      rw [List.getElem_map, List.getElem_map]; exact he
    have hp := List.pairwise_iff_getElem.mp hnd2
    rcases Nat.lt_trichotomy i j with hlt | heq | hgt
    · exact absurd hm (hp i j hi' hj' hlt)
    · exact heq
    · exact absurd hm.symm (hp j i hj' hi' hgt)
  · rintro rfl
    rfl

/-- **C15.** The elements of an accepted batch are all `certConf` messages or none of them is. -/
theorem C15_certConf_only_partial {H : C → D} {cfg : ConfCfg} {env : ConfEnv C} {issue : Issue C D R S P} {now : Int}
    {outer : NReq C S P} {es : List (BEntry C S P)} {st st' : CaSt C D R S} {rs : List Resp}
    (h : processBatched H cfg env issue st outer es now = (.ok rs, st')) :
    (∀ e ∈ es, e.msg.m.body = "certConf") ∨
      ((∀ e ∈ es, e.msg.m.body ≠ "certConf") ∧ outer.m.recipNonce = none) :=
  (checkNonces_ok (processBatched_ok h).1).2

/-- **C15.** If a batch fails, either the check of the header failed and nothing has changed, or some message
failed after all earlier ones had been answered; their effects stay, the later messages are not looked at, and no
response is returned. -/
theorem C15_failure {H : C → D} {cfg : ConfCfg} {env : ConfEnv C} {issue : Issue C D R S P} {now : Int}
    {outer : NReq C S P} {es : List (BEntry C S P)} {st st' : CaSt C D R S} {x : PyErr} :
    processBatched H cfg env issue st outer es now = (.error x, st') ↔
      (checkNonces outer es = .error x ∧ st' = st) ∨
      (checkNonces outer es = .ok () ∧ ∃ pre e post rs1 s1, es = pre ++ e :: post ∧
        batchLoop H cfg env issue now pre st = (.ok rs1, s1) ∧
        batchEntry H cfg env issue s1 e now = (.error x, st')) := by
  unfold processBatched
  cases hc : checkNonces outer es with
  | error y =>
    constructor
    · intro h
      cases (Prod.mk.inj h).1
      exact Or.inl ⟨rfl, (Prod.mk.inj h).2.symm⟩
    · rintro (⟨h1, h2⟩ | ⟨h1, -⟩)
      · cases h1
        rw [h2]
      · cases h1
  | ok u =>
    dsimp only
    constructor
    · intro h
      refine Or.inr ⟨rfl, ?_⟩
      clear hc
      induction es generalizing st with
      | nil => cases (Prod.mk.inj h).1
      | cons e es ih =>
        unfold batchLoop at h
        rcases he : batchEntry H cfg env issue st e now with ⟨y | r, s2⟩
        · rw [he] at h
          cases h
          exact ⟨[], e, es, [], st, rfl, rfl, he⟩
        · rw [he] at h
          dsimp only at h
          rcases hl : batchLoop H cfg env issue now es s2 with ⟨y | rs, s3⟩
          · rw [hl] at h
            cases h
            rcases ih hl with ⟨pre, e', post, rs1, s1, h1, h2, h3⟩
            refine ⟨e :: pre, e', post, r :: rs1, s1, by rw [h1]; rfl, ?_, h3⟩
            unfold batchLoop
            rw [he]
            dsimp only
            rw [h2]
          · rw [hl] at h
            cases (Prod.mk.inj h).1
    · rintro (⟨h1, -⟩ | ⟨-, pre, e, post, rs1, s1, h1, h2, h3⟩)
      · cases h1
      · rw [h1, batchLoop_append h2]
        unfold batchLoop
        rw [h3]
        rfl

omit [DecidableEq C] [DecidableEq D] in
theorem not_replies_rr {b : String} (h : Replies "rr" b) : False := by
  generalize hx : "rr" = x at h
  cases h <;> exact absurd hx (by decide)

/-- **C15.** A batch with a revocation request among its elements is never answered, although the message of
`_check_nonces` lists `rr` among the supported kinds. -/
theorem C15_rr_never {H : C → D} {cfg : ConfCfg} {env : ConfEnv C} {issue : Issue C D R S P} (gi : GoodIssue issue)
    {now : Int} {outer : NReq C S P} {es : List (BEntry C S P)} {st : CaSt C D R S} {e : BEntry C S P} (he : e ∈ es)
    (hr : e.msg.m.body = "rr") : ∃ x st', processBatched H cfg env issue st outer es now = (.error x, st') := by
  rcases h : processBatched H cfg env issue st outer es now with ⟨x | rs, st'⟩
  · exact ⟨x, st', rfl⟩
  · exfalso
    rcases List.append_of_mem he with ⟨pre, post, hd⟩
    rcases (C15_one_for_one gi h).2 _ _ _ hd with ⟨-, r, -, -, -, -, -, ⟨-, q, hs, h4⟩, -⟩
    have hq : q.m.body = "rr" := by
      rcases hs with ⟨-, rfl⟩ | ⟨hn, -⟩
      · exact hr
      · rw [hr] at hn
        exact absurd hn (by decide)
    rw [hq] at h4
    rcases h4 with h4 | ⟨-, b, h4, -⟩
    · exact not_replies_rr h4
    · exact not_replies_rr h4

/-! ## C90: checks on inner messages -/

/-- **C90.** What is checked for a message with added protection that is answered: the outer protection verified; the
inner protection is present as a whole or not at all; if present it verified, whatever the inner message is. -/
theorem C90_added_checked {H : C → D} {cfg : ConfCfg} {env : ConfEnv C} {issue : Issue C D R S P} {now : Int}
    {outer q : NReq C S P} {st st' : CaSt C D R S} {r : Resp}
    (h : processAdded H cfg env issue st outer [q] now = (.ok r, st')) :
    outer.orig = .ok () ∧ q.alg.isSome = q.protection ∧ (q.alg.isSome = true → q.verdict = .ok ()) ∧
      (q.m.body = "kur" ∨ q.m.body = "ccr" → ∃ p, q.alg = some (.ok p) ∧ p ≠ .mac) := by
  unfold processAdded at h
  split at h
  · cases (Prod.mk.inj h).1
  next =>
  dsimp only at h
  split at h
  · cases (Prod.mk.inj h).1
  next hp =>
  split at h
  · cases (Prod.mk.inj h).1
  next hv =>
  clear h
  unfold verifyAdded at hv
  split at hv
  · cases hv
  next ht =>
  split at hv
  · cases hv
  next hc =>
  refine ⟨hv, ?_, ?_, ?_⟩
  · revert hp
    unfold presenceCheck
    cases q.alg.isSome <;> cases q.protection <;> intro hp <;> first | rfl | cases hp
  · intro ha
    rw [if_pos (.inr ha)] at hc
    unfold validateProt at hc
    split at hc
    · cases hc
    · cases hc
    · split at hc
      · cases hc
      · exact hc
  · intro hb
    have hm : q.m.body ∈ ["rr", "kur", "ccr"] := by
      simp only [List.mem_cons, List.not_mem_nil, or_false]
      exact Or.inr hb
    unfold checkProtType at ht
    rw [if_neg (fun x => x.1 hm)] at ht
    split at ht
    · cases ht
    · cases ht
    · next p hp =>
      refine ⟨p, hp, fun hpm => ?_⟩
      rw [if_pos ⟨hpm, hm⟩] at ht
      cases ht

/-- **C90.** What is checked for an inner certificate request that is answered: the protection is present as a
whole or not at all; if present it verified, for `kur` and `ccr` it is present and not a MAC. -/
theorem C90_request_checked_partial {H : C → D} {cfg : ConfCfg} {env : ConfEnv C} {issue : Issue C D R S P} {now : Int}
    {e : BEntry C S P} {st st' : CaSt C D R S} {r : Resp}
    (h : batchEntry H cfg env issue st e now = (.ok r, st')) (hn : e.msg.m.body ≠ "nested")
    (hc : e.msg.m.body ≠ "certConf") :
    e.msg.alg.isSome = e.msg.protection ∧ (e.msg.alg.isSome = true → e.msg.verdict = .ok ()) ∧
      (e.msg.m.body = "kur" ∨ e.msg.m.body = "ccr" → ∃ p, e.msg.alg = some (.ok p) ∧ p ≠ .mac) := by
  unfold batchEntry at h
  dsimp only at h
  rw [if_neg hn, if_neg hc] at h
  split at h
  · cases (Prod.mk.inj h).1
  next hp =>
  split at h
  · cases (Prod.mk.inj h).1
  next hv =>
  clear h
  unfold verifyInner at hv
  split at hv
  · cases hv
  next ht =>
  refine ⟨?_, ?_, ?_⟩
  · revert hp
    unfold presenceCheck
    cases e.msg.alg.isSome <;> cases e.msg.protection <;> intro hp <;> first | rfl | cases hp
  · intro ha
    rw [if_pos ha] at hv
    split at hv
    · next y hy =>
      by_cases hb : y.isBadMessageCheck = true
      · rw [if_pos hb] at hv; cases hv
      · rw [if_neg hb] at hv; cases hv
    · next hy =>
      unfold validateProt at hy
      split at hy
      · cases hy
      · cases hy
      · split at hy
        · cases hy
        · exact hy
  · intro hb
    have hm : e.msg.m.body ∈ ["rr", "kur", "ccr"] := by
      simp only [List.mem_cons, List.not_mem_nil, or_false]
      exact Or.inr hb
    unfold checkProtType at ht
    rw [if_neg (fun x => x.1 hm)] at ht
    split at ht
    · cases ht
    · cases ht
    · next p hp =>
      refine ⟨p, hp, fun hpm => ?_⟩
      rw [if_pos ⟨hpm, hm⟩] at ht
      cases ht

omit [DecidableEq C] in
theorem prot_of_alg {q : NReq C S P} {p : ProtType} (h : q.alg = some (.ok p)) :
    q.unknownAlg = false ∧ q.m.prot = some p ∧ q.prot? = some (some p) := by
  unfold DReq.alg at h
  by_cases hu : q.unknownAlg = true
  · rw [if_pos hu] at h
    cases h
  · rw [if_neg hu] at h
    have hu' : q.unknownAlg = false := by cases hq : q.unknownAlg <;> first | rfl | exact absurd hq hu
    have hp : q.m.prot = some p := by
      cases hm : q.m.prot with
      | none => rw [hm] at h; cases h
      | some p' => rw [hm] at h; cases h; rfl
    refine ⟨hu', hp, ?_⟩
    unfold DReq.prot?
    rw [hu', hp]
    rfl

/-- A signed initial request, all of whose own checks succeed. -/
structure SignedIr (q : NReq C S P) : Prop where
  body : q.m.body = "ir"
  alg : q.alg = some (.ok .tradSig)
  present : q.protection = true
  verdict : q.verdict = .ok ()
  hdr : q.hdrOk = .ok ()
  sameKey : q.sameKey = .ok ()
  orig : q.orig = .ok ()
  ids : q.ids = .ok ()

/-- The answer the issuing function gives to such a request inside a batch. -/
theorem batch_signedIr {H : C → D} {cfg : ConfCfg} {env : ConfEnv C} {issue : Issue C D R S P} {now : Int}
    {q : NReq C S P} {st st' : CaSt C D R S} {b : String} (hq : SignedIr q)
    (hu : checkUpdated H st.sys.db q now = .ok ()) (hi : issue st q now = (.ok b, st')) :
    batchEntry H cfg env issue st ⟨q, []⟩ now = (.ok ⟨q.m.txId, b⟩, st') := by
  have hb := hq.body
  have hwi : Check.validateWrongIntegrity q.m.body q.prot? = .ok () := by
    rw [hb]; rfl
  have hsome : q.alg.isSome = true := by rw [hq.alg]; rfl
  have hpres : presenceCheck q.alg.isSome q.protection false = .ok () := by
    rw [hsome, hq.present]; rfl
  have hvp : validateProt q = .ok () := by
    unfold validateProt
    rw [hq.alg]
    dsimp only
    rw [hwi]
    exact hq.verdict
  have hpt : checkProtType q = .ok () := by
    unfold checkProtType
    rw [if_neg (fun x => by rw [hsome] at x; exact absurd x.2 (by decide)), hq.alg]
    dsimp only
    rw [if_neg (fun x => absurd x.1 (by decide))]
  have hvi : verifyInner q = .ok () := by
    unfold verifyInner
    rw [hpt]
    dsimp only
    rw [if_pos hsome, hvp]
  have hvh : validateHeader q false = .ok () := by
    unfold validateHeader
    rw [hq.hdr]
    dsimp only
    rw [hpres]
    exact hwi
  have hrb : requestBody H issue st q now = (.ok b, st') := by
    unfold requestBody
    rw [hwi, hq.sameKey, hu, hq.orig, hq.ids]
    exact hi
  have hpc : processCertRequest H issue st q false now = (.ok (b, true), st') := by
    unfold processCertRequest
    rw [hvh]
    dsimp only
    rw [if_neg (by rw [hb]; decide), hrb]
  unfold batchEntry
  dsimp only
  rw [if_neg (by rw [hb]; decide), if_neg (by rw [hb]; decide), hpres]
  dsimp only
  rw [hvi]
  dsimp only
  rw [if_pos (by rw [hb]; decide), hpc]

/-- **C90 (refuted).** The holder of a revoked certificate is refused when they send a request directly, whatever
the handlers do, but the same request inside a batch is passed to the issuing function and its certificate is
returned. -/
theorem C90_revoked_signer_refuted [DecidableEq P] {H : C → D} {keyOf : C → PKey P} {rev : RevState C D} {cfg : ConfCfg}
    {env : ConfEnv C} {issue : Issue C D R S P} {now : Int} {q : NReq C S P} {st st' : CaSt C D R S} {b : String} {c : C}
    (hq : SignedIr q) (hx : q.m.extraCerts.head? = some c) (hr : st.sys.db.getCertState H c = .revoked)
    (hnu : findDigest (H c) st.sys.db.updateEntries = none) (hi : issue st q now = (.ok b, st')) :
    (∀ hs : Handlers C D R S P,
      process H keyOf cfg env hs rev st q.toDReq now = (onError hs.sign q.toDReq .certRevoked, st)) ∧
    batchEntry H cfg env issue st ⟨q, []⟩ now = (.ok ⟨q.m.txId, b⟩, st') := by
  refine ⟨fun hs => ?_, batch_signedIr hq ?_ hi⟩
  · have : preChecks H keyOf rev st q.toDReq now = .error .certRevoked := by
      unfold preChecks checkAllowed
      rw [hx]
      dsimp only
      rw [if_pos (by rw [hq.body]; decide), if_pos hr]
    unfold process
    rw [this]
  · unfold checkUpdated
    rw [hx]
    dsimp only
    unfold validateIsUpdated
    rw [hnu]

/-- **C90 (refuted).** A party with an unconfirmed certificate is refused when it sends a further request
directly, but not when the request is an element of a batch. -/
theorem C90_open_confirmation_refuted [DecidableEq P] {H : C → D} {keyOf : C → PKey P} {rev : RevState C D}
    {cfg : ConfCfg} {env : ConfEnv C} {issue : Issue C D R S P} {now : Int} {q : NReq C S P} {st st' : CaSt C D R S}
    {b : String} (hq : SignedIr q) (hcmp : q.inProfile = true) (hstfl : q.stflCheck = .ok ()) (hkeys : q.keys = .ok [])
    (hsig : ∀ c ∈ q.m.extraCerts, st.sys.db.getCertState H c ≠ .revoked)
    (hnu : ∀ c ∈ q.m.extraCerts, findDigest (H c) st.sys.db.updateEntries = none)
    (hopen : q.m.extraCerts.any st.sys.conf.isNotConfirmed = true) (hi : issue st q now = (.ok b, st')) :
    (∀ hs : Handlers C D R S P,
      process H keyOf cfg env hs rev st q.toDReq now = (onError hs.sign q.toDReq .notAuthorized, st)) ∧
    batchEntry H cfg env issue st ⟨q, []⟩ now = (.ok ⟨q.m.txId, b⟩, st') := by
  obtain ⟨c, cs, hc⟩ : ∃ c cs, q.m.extraCerts = c :: cs := by
    cases h : q.m.extraCerts with
    | nil => rw [h] at hopen; cases hopen
    | cons c cs => exact ⟨c, cs, rfl⟩
  have hmem : c ∈ q.m.extraCerts := by rw [hc]; exact List.mem_cons_self
  have hhead : q.m.extraCerts.head? = some c := by rw [hc]; rfl
  have hup : ∀ t, validateIsUpdated H st.sys.db.updateEntries st.sys.db.timeout q.m.body c t now = .ok () := by
    intro t
    unfold validateIsUpdated
    rw [hnu c hmem]
  have hb := hq.body
  refine ⟨fun hs => ?_, batch_signedIr hq ?_ hi⟩
  · have h1 : checkAllowed H st.sys.db q.m.body q.m.extraCerts now = .ok () := by
      unfold checkAllowed
      rw [hhead]
      dsimp only
      rw [if_pos (by rw [hb]; decide), if_neg (hsig c hmem)]
      exact hup false
    have h2 : verifyProtection st q.toDReq = .ok () := by
      unfold verifyProtection
      rw [if_neg (fun x => by rw [hcmp] at x; exact absurd x.2 (by decide))]
      rw [hq.present, hstfl, hq.alg]
      exact hq.verdict
    have h3 : checkKey keyOf rev q.toDReq = .ok () := by
      unfold checkKey
      dsimp only
      rw [if_neg (by rw [hb]; decide), if_pos (Or.inl hb), hkeys]
      rfl
    have h4 : checkOpen st.sys.conf q.toDReq = .error .notAuthorized := by
      unfold checkOpen
      rw [if_neg (by rw [hc]; exact List.cons_ne_nil _ _), hq.alg]
      dsimp only
      rw [if_neg (by decide), if_neg (by rw [hb]; decide), if_pos hopen]
    have : preChecks H keyOf rev st q.toDReq now = .error .notAuthorized := by
      unfold preChecks
      rw [h1]
      dsimp only
      rw [if_neg (by rw [hb]; decide), h2]
      dsimp only
      rw [if_pos (Or.inl hb), h3]
      dsimp only
      rw [if_neg (by rw [hb]; decide), h4]
    unfold process
    rw [this]
  · unfold checkUpdated
    rw [hhead]
    exact hup _

/-- **C90 (refuted).** The protection of a `certConf` element of a batch is never verified: the answer and the
state afterwards do not depend on the signature or MAC at all. -/
theorem C90_certConf_unverified_refuted {H : C → D} {cfg : ConfCfg} {env : ConfEnv C} {issue : Issue C D R S P}
    {now : Int} {q q' : NReq C S P} {i i' : List (NReq C S P)} {st : CaSt C D R S} (hb : q.m.body = "certConf")
    (hm : q'.m = q.m) :
    batchEntry H cfg env issue st ⟨q', i'⟩ now = batchEntry H cfg env issue st ⟨q, i⟩ now := by
  have hb' : q'.m.body = "certConf" := by rw [hm]; exact hb
  have go : ∀ (x : NReq C S P) (y : List (NReq C S P)), x.m.body = "certConf" →
      batchEntry H cfg env issue st ⟨x, y⟩ now =
        (match caCertConf H cfg env st x.m now with
        | (.error x, st) => (.error x, st)
        | (.ok b, st) => (.ok ⟨x.m.txId, b⟩, st)) := by
    intro x y hx
    unfold batchEntry
    dsimp only
    rw [if_neg (by rw [hx]; decide), if_pos hx]
    rfl
  rw [go q i hb, go q' i' hb', hm]

/-- **C90 (refuted).** An element without protection may be answered with a certificate, but if that certificate
needs a confirmation it never gets one: with the default configuration every `certConf` for a stored request
without protection fails. -/
theorem C90_unprotected_unconfirmable_refuted {H : C → D} {cfg : ConfCfg} {env : ConfEnv C} {now : Int} {m req : Msg C}
    {st : CaSt C D R S} {tx : Bytes} (hcfg : cfg.mustBeProtected = true) (htx : m.txId = some tx)
    (hreq : st.sys.conf.requests.get tx = some req) (hp : req.prot = none) :
    ∃ e, caCertConf H cfg env st m now = (.error e, st) := by
  have hv : verifyProt cfg req m = .error .valueError := by
    unfold verifyProt
    rw [if_neg (fun x => by rw [hcfg] at x; exact absurd x.1 (by decide)), hp]
  have : ∃ e, confChecks cfg env st.sys.conf m = .error e := by
    unfold confChecks
    cases st.sys.conf.isConfirmed m with
    | error e => exact ⟨e, rfl⟩
    | ok u =>
    dsimp only
    cases st.sys.conf.validateTxId m with
    | error e => exact ⟨e, rfl⟩
    | ok u =>
    dsimp only
    cases st.sys.conf.validateNonces m cfg.mustBeFresh with
    | error e => exact ⟨e, rfl⟩
    | ok u =>
    dsimp only
    rw [htx]
    dsimp only
    rw [hreq]
    dsimp only
    rw [hv]
    exact ⟨_, rfl⟩
  rcases this with ⟨e, he⟩
  refine ⟨e, ?_⟩
  unfold caCertConf Sys.processCertConf
  rw [he]

/-! ## Concrete batches -/

/-- Nonces and transaction IDs of the examples. -/
def nb (i : UInt8) : Bytes := List.replicate 16 i

/-- A request of the example batches. -/
def nReq (body : String) (i : UInt8) (prot : Option ProtType) (certs : List Nat) : NReq Nat Unit Unit :=
  { m := { body := body, txId := some (nb i), senderNonce := some (nb i), prot := prot, extraCerts := certs }
    protection := prot.isSome
    kemMac := fun _ => false }

/-- An issuing function: certificate `7` for an `ir`, and a `BadRequest` for a `cr`. -/
def nIssue : Issue Nat Nat Nat Unit Unit := fun st q now =>
  if q.m.body = "ir" then
    (.ok "ip", { st with sys := (st.sys.afterRequest id q.m
      { body := "ip", txId := q.m.txId, senderNonce := some (nb 50), recipNonce := q.m.senderNonce, prot := q.m.prot }
      [7] false false (.ok ()) now).2 })
  else if q.m.body = "cr" then (.error .badRequest, st)
  else (.error .keyError, st)

/-- The outer message of the examples. -/
def nOuter : NReq Nat Unit Unit := nReq "nested" 9 (some .tradSig) [1]

/-- A CA that waits for the confirmation of certificate `5`, transaction `1`. -/
def nCa : CaSt Nat Nat Nat Unit :=
  { sys := (({} : Sys Nat Nat Nat).afterRequest id (nReq "ir" 1 (some .mac) []).m
      { body := "ip", txId := some (nb 1), senderNonce := some (nb 51), recipNonce := some (nb 1), prot := some .mac }
      [5] false false (.ok ()) 0).2 }

/-- The correct confirmation of certificate `5`, with the given verdict on its MAC. -/
def nConf (v : Except PyErr Unit) : NReq Nat Unit Unit :=
  { m := { body := "certConf", txId := some (nb 1), senderNonce := some (nb 4), recipNonce := some (nb 51),
           prot := some .mac, certConf := [{ certHash := some [5] }] }
    verdict := v
    kemMac := fun _ => false }

/-- The confirmation wrapped in a message of its own. -/
def nWrapped : BEntry Nat Unit Unit :=
  { msg := { m := { body := "nested", txId := some (nb 1), senderNonce := some (nb 4), recipNonce := some (nb 51),
                    prot := some .tradSig, extraCerts := [1] }
             kemMac := fun _ => false }
    inner := [nConf (.ok ())] }

/-- The batch handler of the examples. -/
def nRun (st : CaSt Nat Nat Nat Unit) (es : List (BEntry Nat Unit Unit)) :=
  processNested id {} demoEnv nIssue st nOuter es 0

-- Three requests, one of which is refused by the issuing function: three answers, in order.
example : (nRun nCa [⟨nReq "ir" 2 (some .mac) [], []⟩, ⟨nReq "cr" 3 none [], []⟩, ⟨nReq "ir" 5 none [], []⟩]).1 =
    .ok [⟨some (nb 2), "ip"⟩, ⟨some (nb 3), "cp"⟩, ⟨some (nb 5), "ip"⟩] := by decide +kernel

-- The same transaction twice is refused.
example : (nRun nCa [⟨nReq "ir" 2 (some .mac) [], []⟩, ⟨nReq "ir" 2 none [], []⟩]).1 = .error .badRequest := by
  decide +kernel

/-- **C15.** The effects of the messages before a failing one stay: the second message fails, no response is
returned, and yet certificate `7` of the first message is in the database and waits for a confirmation of which
the requester will never know. -/
theorem C15_effects_remain :
    (nRun {} [⟨nReq "ir" 2 (some .mac) [], []⟩, ⟨nReq "rr" 3 (some .tradSig) [], []⟩]).1 = .error .notImplemented ∧
    (nRun {} [⟨nReq "ir" 2 (some .mac) [], []⟩, ⟨nReq "rr" 3 (some .tradSig) [], []⟩]).2.sys.db.getCertState id 7
      = .notConfirmed := by
  decide +kernel

/-- **C15 (refuted).** A batch need not contain only confirmations or none: a wrapped confirmation is accepted
beside an initial request, and both are answered. -/
theorem C15_wrapped_mixed_refuted :
    (nRun nCa [⟨nReq "ir" 2 (some .mac) [], []⟩, nWrapped]).1 = .ok [⟨some (nb 2), "ip"⟩, ⟨some (nb 1), "pkiconf"⟩] ∧
    (nRun nCa [⟨nReq "ir" 2 (some .mac) [], []⟩, ⟨nConf (.ok ()), []⟩]).1 = .error .badRequest := by
  decide +kernel

/-- **C90 (refuted).** A confirmation whose MAC does not verify confirms the certificate when it comes in a batch;
sent directly it is refused without effect. -/
theorem C90_forged_certConf_refuted :
    (∀ (hs : Handlers Nat Nat Nat Unit Unit) (rev : RevState Nat Nat),
      process id (fun _ => PKey.plain ()) {} demoEnv hs rev nCa (nConf (.error .badMessageCheck)).toDReq 0 =
        (onError hs.sign (nConf (.error .badMessageCheck)).toDReq .badMessageCheck, nCa)) ∧
    batchEntry id {} demoEnv nIssue nCa ⟨nConf (.error .badMessageCheck), []⟩ 0 =
      batchEntry id {} demoEnv nIssue nCa ⟨nConf (.ok ()), []⟩ 0 ∧
    (batchEntry id {} demoEnv nIssue nCa ⟨nConf (.error .badMessageCheck), []⟩ 0).1 =
      .ok ⟨some (nb 1), "pkiconf"⟩ ∧
    (batchEntry id {} demoEnv nIssue nCa ⟨nConf (.error .badMessageCheck), []⟩ 0).2.sys.db.getCertState id 5 =
      .confirmed := by
  refine ⟨fun hs rev => ?_, C90_certConf_unverified_refuted rfl rfl, by decide +kernel, by decide +kernel⟩
  have : preChecks id (fun _ => PKey.plain ()) rev nCa (nConf (.error .badMessageCheck)).toDReq 0 =
      .error .badMessageCheck := rfl
  unfold process
  rw [this]

-- The revoked signer: certificate 8 is revoked, the request it signs is answered inside a batch.
example : (nRun { sys := { db := { certs := [{ state := .revoked, cert := 8, digest := 8 }] } } }
    [⟨nReq "ir" 2 (some .tradSig) [8], []⟩, ⟨nReq "cr" 3 none [], []⟩]).1 =
    .ok [⟨some (nb 2), "ip"⟩, ⟨some (nb 3), "cp"⟩] := by decide +kernel

example : SignedIr (nReq "ir" 2 (some .tradSig) [8]) := ⟨rfl, rfl, rfl, rfl, rfl, rfl, rfl, rfl⟩

-- The hypotheses of the two refutations are satisfiable: certificate 5 waits for its confirmation.
example := C90_open_confirmation_refuted (P := Unit) (H := id) (keyOf := fun _ => PKey.plain ()) (rev := {}) (cfg := {})
  (env := demoEnv) (issue := nIssue) (now := 0) (q := nReq "ir" 2 (some .tradSig) [5]) (st := nCa)
  (b := "ip") ⟨rfl, rfl, rfl, rfl, rfl, rfl, rfl, rfl⟩ rfl rfl rfl (by decide +kernel) (by decide +kernel)
  (by decide +kernel) rfl

example := C90_revoked_signer_refuted (P := Unit) (H := id) (keyOf := fun _ => PKey.plain ()) (rev := {}) (cfg := {})
  (env := demoEnv) (issue := nIssue) (now := 0) (q := nReq "ir" 2 (some .tradSig) [8])
  (st := { sys := { db := { certs := [{ state := .revoked, cert := 8, digest := 8 }] } } })
  (b := "ip") (c := 8) ⟨rfl, rfl, rfl, rfl, rfl, rfl, rfl, rfl⟩ rfl rfl rfl rfl

end Verif.CA
