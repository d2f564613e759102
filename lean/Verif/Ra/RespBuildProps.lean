import Verif.Ra.RespBuild
import Verif.Ra.CaBodyProps
import Verif.Ra.BuildProps
import Verif.Ra.HeaderProps

/-!
# Properties of the responses of the CA (C242, C243)
-/

namespace Verif.Ra

open Verif.CA (Bytes PyErr)
open Verif.Check (stripL pkiStatusNames RfcStatus RfcAnswer)

variable {C N : Type}

/-! ## C242: the status and the response -/

/-- The bits of `PKIFailureInfo` (RFC 9810, 5.2.3). -/
inductive RfcFailure : Nat → List Char → Prop
  | badAlg : RfcFailure 0 "badAlg".toList
  | badMessageCheck : RfcFailure 1 "badMessageCheck".toList
  | badRequest : RfcFailure 2 "badRequest".toList
  | badTime : RfcFailure 3 "badTime".toList
  | badCertId : RfcFailure 4 "badCertId".toList
  | badDataFormat : RfcFailure 5 "badDataFormat".toList
  | wrongAuthority : RfcFailure 6 "wrongAuthority".toList
  | incorrectData : RfcFailure 7 "incorrectData".toList
  | missingTimeStamp : RfcFailure 8 "missingTimeStamp".toList
  | badPOP : RfcFailure 9 "badPOP".toList
  | certRevoked : RfcFailure 10 "certRevoked".toList
  | certConfirmed : RfcFailure 11 "certConfirmed".toList
  | wrongIntegrity : RfcFailure 12 "wrongIntegrity".toList
  | badRecipientNonce : RfcFailure 13 "badRecipientNonce".toList
  | timeNotAvailable : RfcFailure 14 "timeNotAvailable".toList
  | unacceptedPolicy : RfcFailure 15 "unacceptedPolicy".toList
  | unacceptedExtension : RfcFailure 16 "unacceptedExtension".toList
  | addInfoNotAvailable : RfcFailure 17 "addInfoNotAvailable".toList
  | badSenderNonce : RfcFailure 18 "badSenderNonce".toList
  | badCertTemplate : RfcFailure 19 "badCertTemplate".toList
  | signerNotTrusted : RfcFailure 20 "signerNotTrusted".toList
  | transactionIdInUse : RfcFailure 21 "transactionIdInUse".toList
  | unsupportedVersion : RfcFailure 22 "unsupportedVersion".toList
  | notAuthorized : RfcFailure 23 "notAuthorized".toList
  | systemUnavail : RfcFailure 24 "systemUnavail".toList
  | systemFailure : RfcFailure 25 "systemFailure".toList
  | duplicateCertReq : RfcFailure 26 "duplicateCertReq".toList

theorem rfcFailure_iff (n : Nat) (t : List Char) : RfcFailure n t ↔ failNames[n]? = some t := by
  constructor
  · intro h
    cases h <;> rfl
  · intro h
    have hl : n < 27 := by
      rcases Nat.lt_or_ge n 27 with h' | h'
      · exact h'
      · rw [List.getElem?_eq_none (by exact h')] at h
        cases h
    have : n = 0 ∨ n = 1 ∨ n = 2 ∨ n = 3 ∨ n = 4 ∨ n = 5 ∨ n = 6 ∨ n = 7 ∨ n = 8 ∨ n = 9 ∨ n = 10 ∨ n = 11 ∨ n = 12 ∨ n = 13 ∨
      n = 14 ∨ n = 15 ∨ n = 16 ∨ n = 17 ∨ n = 18 ∨ n = 19 ∨ n = 20 ∨ n = 21 ∨ n = 22 ∨ n = 23 ∨ n = 24 ∨ n = 25 ∨ n = 26 := by
      omega
    rcases this with e | e | e | e | e | e | e | e | e | e | e | e | e | e | e | e | e | e | e | e | e | e | e | e | e | e | e <;>
      subst e <;> cases h <;> constructor

theorem findIdx_name {l : List (List Char)} (hnd : l.Nodup) (s : List Char) (n : Nat) :
    l.findIdx? (· = s) = some n ↔ l[n]? = some s := by
  rw [List.findIdx?_eq_some_iff_getElem]
  constructor
  · rintro ⟨h, e, _⟩
    rw [List.getElem?_eq_getElem h]
    exact congrArg some (of_decide_eq_true e)
  · intro h
    obtain ⟨hl, e⟩ := List.getElem?_eq_some_iff.1 h
    refine ⟨hl, decide_eq_true e, fun j hj => ?_⟩
    intro hj'
    have hj' := of_decide_eq_true hj'
    have := (List.getElem_inj hnd).1 (hj'.trans e.symm)
    omega

/-- **C242.** A status which is given by its name is the one of RFC 9810; another name is refused. -/
theorem C242_status_iff (s : List Char) (hs : isDigits s = false) (n : Int) :
    statusArg s = .ok n ↔ ∃ k : Nat, n = k ∧ RfcStatus k s := by
  unfold statusArg
  rw [hs, if_neg (by decide)]
  cases h : pkiStatusNames.findIdx? (· = s) with
  | none =>
    constructor
    · intro h; cases h
    · rintro ⟨k, rfl, hk⟩
      have := (findIdx_name (by decide +kernel) s k).2 ((rfcStatus_iff ..).1 hk)
      rw [h] at this
      cases this
  | some m =>
    have hm := (rfcStatus_iff ..).2 ((findIdx_name (by decide +kernel) s m).1 h)
    constructor
    · intro e; cases e; exact ⟨m, rfl, hm⟩
    · rintro ⟨k, rfl, hk⟩
      have := (findIdx_name (by decide +kernel) s k).2 ((rfcStatus_iff ..).1 hk)
      rw [h] at this
      cases this
      rfl

theorem bitPositions_ok : ∀ (ss : List (List Char)) (ns : List Nat), bitPositions ss = .ok ns →
    (∀ t ∈ ss, ∃ k, RfcFailure k (stripL t)) ∧ ∀ k, k ∈ ns ↔ ∃ t ∈ ss, RfcFailure k (stripL t)
  | [], ns, h => by
    cases h
    exact ⟨nofun, fun k => ⟨nofun, fun ⟨_, h, _⟩ => nomatch h⟩⟩
  | s :: ss, ns, h => by
    unfold bitPositions at h
    cases hf : failNames.findIdx? (· = stripL s) with
    | none => rw [hf] at h; cases h
    | some n =>
      rw [hf] at h
      dsimp only at h
      have hn := (rfcFailure_iff ..).2 ((findIdx_name failNames_plain.nodup _ n).1 hf)
      cases hb : bitPositions ss with
      | error e => rw [hb] at h; cases h
      | ok ms =>
        rw [hb] at h
        cases h
        obtain ⟨h1, h2⟩ := bitPositions_ok ss ms hb
        refine ⟨?_, fun k => ?_⟩
        · intro t ht
          rcases List.mem_cons.1 ht with rfl | ht
          · exact ⟨n, hn⟩
          · exact h1 t ht
        · rw [List.mem_cons, h2]
          constructor
          · rintro (rfl | ⟨t, ht, hk⟩)
            · exact ⟨s, List.mem_cons_self .., hn⟩
            · exact ⟨t, List.mem_cons_of_mem _ ht, hk⟩
          · rintro ⟨t, ht, hk⟩
            rcases List.mem_cons.1 ht with rfl | ht
            · have := (findIdx_name failNames_plain.nodup _ k).2 ((rfcFailure_iff ..).1 hk)
              rw [hf] at this
              cases this
              exact .inl rfl
            · exact .inr ⟨t, ht, hk⟩

theorem bitPositions_total : ∀ (ss : List (List Char)), (∀ t ∈ ss, ∃ k, RfcFailure k (stripL t)) → ∃ ns, bitPositions ss = .ok ns
  | [], _ => ⟨[], rfl⟩
  | s :: ss, h => by
    obtain ⟨k, hk⟩ := h s (List.mem_cons_self ..)
    obtain ⟨ns, hns⟩ := bitPositions_total ss (fun t ht => h t (List.mem_cons_of_mem _ ht))
    unfold bitPositions
    rw [(findIdx_name failNames_plain.nodup _ k).2 ((rfcFailure_iff ..).1 hk)]
    dsimp only
    rw [hns]
    exact ⟨_, rfl⟩

theorem foldl_max_le (ns : List Nat) : ∀ a : Nat, a ≤ ns.foldl max a ∧ ∀ k ∈ ns, k ≤ ns.foldl max a := by
  induction ns with
  | nil => exact fun a => ⟨Nat.le_refl _, nofun⟩
  | cons n ns ih =>
    intro a
    rw [List.foldl_cons]
    obtain ⟨h1, h2⟩ := ih (max a n)
    refine ⟨by omega, fun k hk => ?_⟩
    rcases List.mem_cons.1 hk with rfl | hk
    · omega
    · exact h2 k hk

theorem bitsAt_set (ns : List Nat) (k : Nat) : (bitsAt ns)[k]? = some true ↔ k ∈ ns := by
  unfold bitsAt
  rw [List.getElem?_map]
  constructor
  · intro h
    cases hr : (List.range (ns.foldl max 0 + 1))[k]? with
    | none => rw [hr] at h; cases h
    | some j =>
      rw [hr] at h
      obtain ⟨hl, e⟩ := List.getElem?_eq_some_iff.1 hr
      rw [List.getElem_range] at e
      subst e
      exact of_decide_eq_true (Option.some.inj h)
  · intro h
    have := (foldl_max_le ns 0).2 k h
    rw [List.getElem?_range (by omega)]
    exact congrArg some (decide_eq_true h)

/-- **C242.** The failure information which is given by names between commas is accepted if and only if each of them,
without the blanks around it, is the name of a failure. -/
theorem C242_failure_iff (f : List Char) (hf : f ≠ []) (hd : isDigits f = false) :
    (∃ b, failArg f = .ok b) ↔ ∀ t, Piece ',' f t → ∃ k, RfcFailure k (stripL t) := by
  unfold failArg
  rw [if_neg hf, hd, if_neg (by decide)]
  constructor
  · rintro ⟨b, h⟩
    cases hb : bitPositions (splitAt ',' f) with
    | error e => rw [hb] at h; cases h
    | ok ns =>
      intro t ht
      exact (bitPositions_ok _ _ hb).1 t ((mem_splitAt_iff ..).2 ht)
  · intro h
    obtain ⟨ns, hns⟩ := bitPositions_total (splitAt ',' f) (fun t ht => h t ((mem_splitAt_iff ..).1 ht))
    rw [hns]
    exact ⟨_, rfl⟩

/-- **C242.** The bits which are set are the ones of the failures in the text. -/
theorem C242_failure_bits (f : List Char) (hf : f ≠ []) (hd : isDigits f = false) (b : List Bool) (h : failArg f = .ok b) (k : Nat) :
    b[k]? = some true ↔ ∃ t, Piece ',' f t ∧ RfcFailure k (stripL t) := by
  unfold failArg at h
  rw [if_neg hf, hd, if_neg (by decide)] at h
  cases hb : bitPositions (splitAt ',' f) with
  | error e => rw [hb] at h; cases h
  | ok ns =>
    rw [hb] at h
    cases h
    rw [bitsAt_set, (bitPositions_ok _ _ hb).2]
    constructor
    · rintro ⟨t, ht, hk⟩
      exact ⟨t, (mem_splitAt_iff ..).1 ht, hk⟩
    · rintro ⟨t, ht, hk⟩
      exact ⟨t, (mem_splitAt_iff ..).2 ht, hk⟩

/-- **C242.** A text which is empty sets no bit, and so does one of zeros. -/
theorem C242_failure_none (f : List Char) (hf : ∀ c ∈ f, c = '0') : ∃ b, failArg f = .ok b ∧ ∀ k : Nat, b[k]? ≠ some true := by
  unfold failArg
  by_cases h0 : f = []
  · rw [if_pos h0]
    exact ⟨[], rfl, fun k => by simp⟩
  · rw [if_neg h0, if_pos, if_pos]
    · refine ⟨_, rfl, fun k => ?_⟩
      rw [List.getElem?_map]
      cases hk : f[k]? with
      | none => simp
      | some c =>
        have := hf c (List.mem_of_getElem? hk)
        subst this
        decide
    · rw [List.all_eq_true]
      intro c hc
      rw [hf c hc]
      decide
    · unfold isDigits
      rw [Bool.and_eq_true, List.all_eq_true]
      refine ⟨?_, fun c hc => ?_⟩
      · cases f with
        | nil => exact absurd rfl h0
        | cons _ _ => rfl
      · rw [hf c hc]
        decide

/-- The status of a response: the one which is given as a whole, or the one of a name, with the failures and the texts. -/
def InfoOf (a : RespArgs C) (i : StInfo) : Prop :=
  a.info = some i ∨ (a.info = none ∧ (∃ k : Nat, i.status = some (k : Int) ∧ RfcStatus k a.status) ∧
    (a.fail = none → i.fail = none) ∧ (∀ f, a.fail = some f → ∃ b, failArg f = .ok b ∧ i.fail = some b) ∧
    i.texts = match a.texts with
      | none => none
      | some [] => none
      | some l => some l)

/-- The pair of a response: an encrypted certificate comes before one in the clear, and there is no private key without
either. -/
inductive PairOf (a : RespArgs C) : Option (KPair C) → Prop
  | none (hc : a.cert = none) (he : a.enc = none) (hk : a.key = false) : PairOf a none
  | enc (b : Bytes) (he : a.enc = some b) : PairOf a (some ⟨.enc true b, if a.key then some true else none⟩)
  | cert (c : C) (hc : a.cert = some c) (he : a.enc = none) : PairOf a (some ⟨.cert c, if a.key then some true else none⟩)

theorem respInfo_iff (a : RespArgs C) (hs : isDigits a.status = false) (i : StInfo) : respInfo a = .ok i ↔ InfoOf a i := by
  unfold respInfo InfoOf
  cases hi : a.info with
  | some j =>
    dsimp only
    constructor
    · intro h; cases h; exact .inl rfl
    · rintro (h | ⟨h, _⟩)
      · cases h; rfl
      · cases h
  | none =>
    dsimp only
    have ht : freeTexts a.texts = (match a.texts with
      | none => none
      | some [] => none
      | some l => some l) := rfl
    unfold prepInfo
    constructor
    · intro h
      cases hn : statusArg a.status with
      | error e => rw [hn] at h; cases h
      | ok n =>
        rw [hn] at h
        dsimp only at h
        obtain ⟨k, rfl, hk⟩ := (C242_status_iff _ hs n).1 hn
        cases hf : a.fail with
        | none =>
          rw [hf] at h
          cases h
          exact .inr ⟨rfl, ⟨k, rfl, hk⟩, fun _ => rfl, nofun, ht⟩
        | some f =>
          rw [hf] at h
          dsimp only at h
          cases hb : failArg f with
          | error e => rw [hb] at h; cases h
          | ok b =>
            rw [hb] at h
            cases h
            exact .inr ⟨rfl, ⟨k, rfl, hk⟩, nofun, fun f' e => ⟨b, by cases e; exact hb, rfl⟩, ht⟩
    · rintro (h | ⟨_, ⟨k, hk, hr⟩, h1, h2, h3⟩)
      · cases h
      · rw [(C242_status_iff _ hs k).2 ⟨k, rfl, hr⟩]
        obtain ⟨st, fl, tx⟩ := i
        dsimp only at hk h1 h2 h3 ⊢
        subst hk
        rw [← ht] at h3
        subst h3
        cases hf : a.fail with
        | none => rw [h1 hf]
        | some f =>
          obtain ⟨b, hb, e⟩ := h2 f hf
          dsimp only
          rw [hb, e]

/-- **C242.** What `prepare_cert_response` makes: the identifier, the status, and the pair for what is given; a private key
without a certificate is refused. -/
theorem C242_response_iff (a : RespArgs C) (hs : isDigits a.status = false) (r : KResp C) :
    prepResp a = .ok r ↔ r.id = some a.id ∧ InfoOf a r.info ∧ PairOf a r.pair := by
  obtain ⟨id, inf, pr⟩ := r
  dsimp only
  unfold prepResp
  cases hi : respInfo a with
  | error e =>
    dsimp only
    constructor
    · intro h; cases h
    · rintro ⟨_, h, _⟩
      rw [(respInfo_iff a hs _).2 h] at hi
      cases hi
  | ok j =>
    have hj := (respInfo_iff a hs _).1 hi
    have key : InfoOf a inf ↔ inf = j := by
      rw [← respInfo_iff a hs, hi]
      exact ⟨fun h => (Except.ok.inj h).symm, fun h => congrArg _ h.symm⟩
    rw [key]
    dsimp only
    unfold keyPair certOrEnc
    constructor
    · intro h
      cases hc : a.cert <;> cases he : a.enc <;> cases hk : a.key <;> rw [hc, he, hk] at h <;> cases h
      · exact ⟨rfl, rfl, .none hc he hk⟩
      · exact ⟨rfl, rfl, by simpa [hk] using PairOf.enc (a := a) _ he⟩
      · exact ⟨rfl, rfl, by simpa [hk] using PairOf.enc (a := a) _ he⟩
      · exact ⟨rfl, rfl, by simpa [hk] using PairOf.cert (a := a) _ hc he⟩
      · exact ⟨rfl, rfl, by simpa [hk] using PairOf.cert (a := a) _ hc he⟩
      · exact ⟨rfl, rfl, by simpa [hk] using PairOf.enc (a := a) _ he⟩
      · exact ⟨rfl, rfl, by simpa [hk] using PairOf.enc (a := a) _ he⟩
    · rintro ⟨rfl, rfl, hp⟩
      cases hp with
      | none hc he hk => rw [hc, he, hk]; rfl
      | enc b he =>
        rw [he]
        cases hc : a.cert <;> rfl
      | cert c hc he =>
        rw [he, hc]
        rfl

/-- **C242 refuted.** Of a certificate and an encrypted one the former is lost: the client does not get it. -/
theorem C242_cert_refuted (a : RespArgs C) (c : C) (b : Bytes) (hc : a.cert = some c) (he : a.enc = some b) (r : KResp C)
    (h : prepResp a = .ok r) (m : KMsg C) (hm : m.resps[0]? = some r) (c' : C) : kCert m 0 ≠ .ok c' := by
  unfold prepResp keyPair certOrEnc at h
  rw [hc, he] at h
  cases hi : respInfo a with
  | error e => rw [hi] at h; cases h
  | ok j =>
    rw [hi] at h
    cases h
    unfold kCert kResp
    by_cases hb : m.body ∈ caBodies
    · rw [if_pos hb, hm]
      intro h; cases h
    · rw [if_neg hb]
      intro h; cases h

/-- A response with two failures. -/
example : (prepResp (C := Nat) { id := 3, status := "rejection".toList, fail := some "badPOP, badAlg".toList }) =
    .ok ⟨some 3, ⟨some 2, some [true, false, false, false, false, false, false, false, false, true], none⟩, none⟩ := by
  decide +kernel

/-- The response with a certificate and an encrypted one. -/
example : prepResp (C := Nat) { cert := some 7, enc := some [1] } = .ok ⟨some 0, ⟨some 0, none, none⟩, some ⟨.enc true [1], none⟩⟩ := by
  decide +kernel

/-- A private key alone is refused. -/
example : prepResp (C := Nat) { key := true } = .error .valueError := by decide +kernel

end Verif.Ra
