import Verif.Prot.Match
import Verif.Prot.SigRefuted

/-!
# C146: comparing the MAC algorithms of messages
-/

namespace Verif.Prot

open Verif.CA

variable {S K C : Type}

/-! ## Specification -/

/-- The parameters of two password-based MACs agree; the salts are the same if `same`, else different. -/
structure PbmMatch (p q : Pbm) (same : Bool) : Prop where
  salt : p.salt = q.salt ↔ same = true
  iter : p.iter = q.iter
  owf : p.owf = q.owf ∧ p.owfPar = q.owfPar
  mac : p.mac = q.mac ∧ p.macPar = q.macPar

/-- The same for PBKDF2 with explicit salts. -/
structure KdfMatch (p q : Pbkdf2) (same : Bool) : Prop where
  salt : ∃ a b, p.salt = some a ∧ q.salt = some b ∧ (a = b ↔ same = true)
  iter : p.iter = q.iter
  keyLen : p.keyLen = q.keyLen
  prf : p.prf = q.prf ∧ p.prfPar = q.prfPar

/-- The type of protection of a message for the lightweight profile or without it. -/
inductive HasType (env : Env S K C) (m : Msg C) : Bool → ProtType → Prop
  | any {a : AlgId} {t : ProtType} : m.hdr.alg = some a → protType env a.oid = .ok t → HasType env m false t
  | lw {a : AlgId} {t : ProtType} : m.hdr.alg = some a → lwType env a.oid = .ok t → HasType env m true t

/-! ## Lemmas -/

theorem algEq_null (o1 o2 : Oid) (p1 p2 : Option Bytes) : algEq o1 p1 o2 p2 true = true ↔ o1 = o2 ∧ p1 = p2 := by
  simp [algEq]

theorem algEq_strict (o1 o2 : Oid) (p1 p2 : Option Bytes) :
    algEq o1 p1 o2 p2 false = true ↔ o1 = o2 ∧ p2 = none := by
  unfold algEq
  rw [if_neg (by simp)]
  by_cases h : o1 = o2
  · rw [if_neg (by simp [h])]
    cases p2 <;> simp [h]
  · rw [if_pos h]
    simp [h]

theorem cmpPbm_iff (p q : Pbm) (same : Bool) : cmpPbm p q same true = true ↔ PbmMatch p q same := by
  unfold cmpPbm
  constructor
  · intro h
    by_cases h1 : (p.salt ≠ q.salt ∧ same = true) ∨ (p.salt = q.salt ∧ same = false)
    · rw [if_pos h1] at h; cases h
    · rw [if_neg h1] at h
      by_cases h2 : p.iter ≠ q.iter
      · rw [if_pos h2] at h; cases h
      · rw [if_neg h2] at h
        by_cases h3 : algEq p.owf p.owfPar q.owf q.owfPar true = false
        · rw [if_pos h3] at h; cases h
        · rw [if_neg h3] at h
          by_cases h4 : algEq p.mac p.macPar q.mac q.macPar true = false
          · rw [if_pos h4] at h; cases h
          · refine ⟨?_, by simpa using h2, (algEq_null _ _ _ _).1 (by simpa using h3),
              (algEq_null _ _ _ _).1 (by simpa using h4)⟩
            cases same <;> simp_all
  · rintro ⟨h1, h2, h3, h4⟩
    have e3 := (algEq_null _ _ _ _).2 h3
    have e4 := (algEq_null _ _ _ _).2 h4
    rw [e3, e4]
    cases same <;> simp_all

theorem cmpPbkdf2_iff (oth : Pbkdf2 → Pbkdf2 → Bool) (p q : Pbkdf2) (same : Bool) (hs : p.salt ≠ none) :
    cmpPbkdf2 oth p q true same = .ok true ↔ KdfMatch p q same := by
  unfold cmpPbkdf2
  constructor
  · intro h
    by_cases h1 : cmpSalt oth p q same = false
    · rw [if_pos h1] at h; cases h
    · rw [if_neg h1] at h
      by_cases h2 : p.iter ≠ q.iter
      · rw [if_pos h2] at h; cases h
      · rw [if_neg h2] at h
        cases h3 : cmpKeyLen p.keyLen q.keyLen with
        | error e => rw [h3] at h; cases h
        | ok b =>
          rw [h3] at h
          cases b with
          | false => cases h
          | true =>
            dsimp only at h
            refine ⟨?_, by simpa using h2, ?_, (algEq_null _ _ _ _).1 (Except.ok.inj h)⟩
            · unfold cmpSalt at h1
              cases hp : p.salt with
              | none => exact absurd hp hs
              | some a =>
                cases hq : q.salt with
                | none => rw [hp, hq] at h1; simp at h1
                | some b =>
                  rw [hp, hq] at h1
                  refine ⟨a, b, rfl, rfl, ?_⟩
                  cases same <;> simp_all
            · cases hp : p.keyLen <;> cases hq : q.keyLen <;> rw [hp, hq] at h3 <;> simp [cmpKeyLen] at h3
              · exact congrArg some h3
  · rintro ⟨⟨a, b, h1, h2, h3⟩, h4, h5, h6⟩
    have e1 : cmpSalt oth p q same = true := by
      unfold cmpSalt
      rw [h1, h2]
      cases same <;> simp_all
    have e2 : cmpKeyLen p.keyLen q.keyLen = .ok true := by
      rw [h5]
      cases q.keyLen <;> simp [cmpKeyLen]
    rw [e1, e2, (algEq_null _ _ _ _).2 h6]
    simp [h4]

theorem orFail_ok (r : Except PyErr Bool) : orFail r = .ok () ↔ r = .ok true := by
  cases r with
  | error e => simp [orFail]
  | ok b => cases b <;> simp [orFail]

theorem kdfDec_raw (env : MacEnv) (b : Bytes) (k : Pbkdf2) (r : Bytes) (h : env.decPbkdf2 b = some (k, r)) :
    kdfDec env (.raw b) = some k := by
  simp [kdfDec, h]

theorem octets_ok (p : Par) (b : Bytes) : octets p = .ok b ↔ p = .raw b := by
  cases p <;> simp [octets]

theorem msgType_iff (env : Env S K C) (m : Msg C) (lw : Bool) (t : ProtType)
    (hd : ∀ o, env.isPqSig o = true → (env.compName o).isSome = false) :
    msgType env m lw = .ok t ↔ HasType env m lw t := by
  unfold msgType
  cases ha : m.hdr.alg with
  | none =>
    constructor
    · intro h; cases h
    · intro h
      cases h with
      | any h1 _ => rw [ha] at h1; cases h1
      | lw h1 _ => rw [ha] at h1; cases h1
  | some a =>
    dsimp only
    cases lw with
    | true =>
      have hE : lwType env a.oid = .ok t ↔ HasType env m true t :=
        ⟨fun h => .lw ha h, fun h => by cases h with | lw h1 h2 => rw [ha] at h1; cases h1; exact h2⟩
      rw [← hE]
      cases hp : protType env a.oid with
      | error e => simp [lwType, hp]
      | ok t' => simp
    | false =>
      have hE : protType env a.oid = .ok t ↔ HasType env m false t :=
        ⟨fun h => .any ha h, fun h => by cases h with | any h1 h2 => rw [ha] at h1; cases h1; exact h2⟩
      rw [← hE]
      cases hp : protType env a.oid with
      | error e => simp
      | ok t' =>
        dsimp only
        rw [if_neg (by simp)]
        suffices hx : (if t' = ProtType.kem then Except.ok ProtType.kem
          else if t' = .dh then .ok .dh
          else if isSymmetric a.oid then .ok .mac
          else if isTradSig a.oid then .ok .trad
          else if env.isStateful a.oid then .ok t'
          else if (env.compName a.oid).isSome then .ok .composite
          else if env.isPqSig a.oid then .ok .pq
          else (.error .unknownOID : Except PyErr ProtType)) = .ok t' by rw [hx]
        unfold protType at hp
        have hd' := hd a.oid
        by_cases h1 : a.oid = kemMacOid
        · rw [if_pos h1] at hp; cases hp; rfl
        · rw [if_neg h1] at hp
          by_cases h2 : a.oid = dhOid
          · rw [if_pos h2] at hp; cases hp; rfl
          · rw [if_neg h2] at hp
            by_cases h3 : isSymmetric a.oid = true
            · rw [if_pos h3] at hp; cases hp; simp [h3]
            · rw [if_neg h3] at hp
              by_cases h4 : isTradSig a.oid = true
              · rw [if_pos h4] at hp; cases hp; simp [h3, h4]
              · rw [if_neg h4] at hp
                by_cases h5 : env.isStateful a.oid = true
                · rw [if_pos h5] at hp; cases hp; simp [h3, h4, h5]
                · rw [if_neg h5] at hp
                  by_cases h6 : env.isPqSig a.oid = true
                  · rw [if_pos h6] at hp; cases hp; simp [h3, h4, h5, h6, hd' h6]
                  · rw [if_neg h6] at hp
                    by_cases h7 : (env.compName a.oid).isSome = true
                    · rw [if_pos h7] at hp; cases hp; simp [h3, h4, h5, h7]
                    · rw [if_neg h7] at hp; cases hp

theorem match_rows : pbmOid ≠ pbmac1Oid ∧ isSymmetric pbmOid = true ∧ isSymmetric pbmac1Oid = true ∧
    pbmOid ≠ kemMacOid ∧ pbmOid ≠ dhOid ∧ pbmac1Oid ≠ kemMacOid ∧ pbmac1Oid ≠ dhOid := by
  decide +kernel

theorem msgType_mac (env : Env S K C) (m : Msg C) (a : AlgId) (ha : m.hdr.alg = some a)
    (ho : a.oid = pbmOid ∨ a.oid = pbmac1Oid) : msgType env m false = .ok .mac := by
  obtain ⟨_, t2, t3, t4, t5, t6, t7⟩ := match_rows
  have hsym : isSymmetric a.oid = true := by rcases ho with h | h <;> rw [h] <;> assumption
  have h1 : a.oid ≠ kemMacOid := by rcases ho with h | h <;> rw [h] <;> assumption
  have h2 : a.oid ≠ dhOid := by rcases ho with h | h <;> rw [h] <;> assumption
  have hp : protType env a.oid = .ok .mac := by
    unfold protType
    rw [if_neg h1, if_neg h2, if_pos hsym]
  unfold msgType
  rw [ha]
  dsimp only
  rw [hp]
  simp [hsym]

/-- The strict comparison without a confirmation for the two algorithms of the lightweight profile. -/
theorem macMatch_core (env : Env S K C) (oth : Pbkdf2 → Pbkdf2 → Bool) (req resp : Msg C) (same an lw : Bool)
    (a1 a2 : AlgId) (h1 : req.hdr.alg = some a1) (h2 : resp.hdr.alg = some a2)
    (ho : a1.oid = pbmOid ∨ a1.oid = pbmac1Oid) :
    macMatch env oth req resp none same an true lw = .ok () ↔
      a2.oid = a1.oid ∧ macParams env.toMacEnv oth a1 a2 an same = .ok () := by
  unfold macMatch
  rw [h1, h2]
  dsimp only
  rw [if_neg (by simp)]
  unfold macStrict
  constructor
  · intro h
    cases ht : msgType env resp false with
    | error e => rw [ht] at h; cases h
    | ok t =>
      rw [ht] at h
      dsimp only at h
      by_cases c1 : t ≠ .mac
      · rw [if_pos c1] at h; cases h
      · rw [if_neg c1] at h
        by_cases c2 : lw = true ∧ a2.oid ≠ pbmac1Oid ∧ a2.oid ≠ pbmOid
        · rw [if_pos c2] at h; cases h
        · rw [if_neg c2] at h
          by_cases c3 : a1.oid ≠ a2.oid
          · rw [if_pos c3] at h; cases h
          · rw [if_neg c3] at h
            cases hm : macParams env.toMacEnv oth a1 a2 an same with
            | error e => rw [hm] at h; cases h
            | ok u => exact ⟨(Decidable.not_not.1 c3).symm, rfl⟩
  · rintro ⟨e1, e2⟩
    rw [msgType_mac env resp a2 h2 (by rw [e1]; exact ho), e2]
    dsimp only
    rw [if_neg (by simp), if_neg (by rw [e1]; rintro ⟨_, x, y⟩; exact ho.elim y x), if_neg (by simp [e1])]
    rfl

/-! ## Theorems -/

/-- C146: for a password-based MAC, as the suite has it before sending, the response is accepted if and only if it has the
same algorithm, its parameters can be decoded, and they agree; the salts are the same, or different, as asked for. -/
theorem C146_pbm_partial (env : Env S K C) (oth : Pbkdf2 → Pbkdf2 → Bool) (req resp : Msg C) (same lw : Bool) (p : Pbm)
    (a2 : AlgId) (h1 : req.hdr.alg = some ⟨[1, 2, 840, 113533, 7, 66, 13], .pbm p⟩) (h2 : resp.hdr.alg = some a2) :
    macMatch env oth req resp none same true true lw = .ok () ↔
      a2.oid = [1, 2, 840, 113533, 7, 66, 13] ∧
        ∃ b q r, a2.par = .raw b ∧ env.decPbm b = some (q, r) ∧ PbmMatch p q same := by
  rw [macMatch_core env oth req resp same true lw _ a2 h1 h2 (Or.inl rfl)]
  refine and_congr_right (fun _ => ?_)
  unfold macParams
  rw [show parDer env.toMacEnv (.pbm p) = some (env.encPbm p) from rfl]
  dsimp only
  have hne : ([1, 2, 840, 113533, 7, 66, 13] : Oid) ≠ pbmac1Oid := match_rows.1
  constructor
  · intro h
    cases ho : octets a2.par with
    | error e => rw [ho] at h; cases h
    | ok b =>
      rw [ho] at h
      dsimp only at h
      rw [if_neg (by simp)] at h
      unfold macParamsBy at h
      dsimp only at h
      rw [if_neg hne, if_pos (show ([1, 2, 840, 113533, 7, 66, 13] : Oid) = pbmOid from rfl), orFail_ok] at h
      unfold cmpPbmPar at h
      cases hd : env.decPbm b with
      | none => rw [hd] at h; simp at h
      | some x =>
        obtain ⟨q, r⟩ := x
        rw [hd] at h
        exact ⟨b, q, r, (octets_ok _ _).1 ho, hd, (cmpPbm_iff _ _ _).1 (Except.ok.inj h)⟩
  · rintro ⟨b, q, r, e1, e2, e3⟩
    rw [(octets_ok _ _).2 e1]
    dsimp only
    rw [if_neg (by simp)]
    unfold macParamsBy
    dsimp only
    rw [if_neg hne, if_pos (show ([1, 2, 840, 113533, 7, 66, 13] : Oid) = pbmOid from rfl), orFail_ok]
    unfold cmpPbmPar
    rw [e2]
    exact congrArg _ ((cmpPbm_iff _ _ _).2 e3)

/-- C146: for PBMAC1 with PBKDF2 and an explicit salt, the response is accepted if and only if it has the same algorithm,
its parameters can be decoded, and the parameters of the key derivation function and the MAC agree. -/
theorem C146_pbmac1_partial (env : Env S K C) (oth : Pbkdf2 → Pbkdf2 → Bool) (req resp : Msg C) (same lw : Bool)
    (a1 a2 : AlgId) (d kb1 : Bytes) (p : Pbmac1) (k : Pbkdf2) (r1 r2 : Bytes) (h1 : req.hdr.alg = some a1)
    (h2 : resp.hdr.alg = some a2) (ho : a1.oid = [1, 2, 840, 113549, 1, 5, 14])
    (hd : parDer env.toMacEnv a1.par = some d) (hp : env.decPbmac1 d = some (p, r1)) (hpk : p.kdfPar = .raw kb1)
    (hk : env.decPbkdf2 kb1 = some (k, r2)) (hs : k.salt ≠ none) :
    macMatch env oth req resp none same true true lw = .ok () ↔
      a2.oid = [1, 2, 840, 113549, 1, 5, 14] ∧
        ∃ b q r kb l r', a2.par = .raw b ∧ env.decPbmac1 b = some (q, r) ∧ q.kdfPar = .raw kb ∧
          env.decPbkdf2 kb = some (l, r') ∧ KdfMatch k l same ∧ p.mac = q.mac ∧ p.macPar = q.macPar := by
  rw [macMatch_core env oth req resp same true lw a1 a2 h1 h2 (Or.inr ho), ho]
  refine and_congr_right (fun _ => ?_)
  unfold macParams
  rw [hd]
  dsimp only
  constructor
  · intro h
    cases hoc : octets a2.par with
    | error e => rw [hoc] at h; cases h
    | ok b =>
      rw [hoc] at h
      dsimp only at h
      rw [if_neg (by simp)] at h
      unfold macParamsBy at h
      rw [if_pos (show a1.oid = pbmac1Oid from ho), orFail_ok] at h
      unfold cmpPbmac1 at h
      rw [hp] at h
      cases hq : env.decPbmac1 b with
      | none => rw [hq] at h; simp at h
      | some x =>
        obtain ⟨q, r⟩ := x
        rw [hq] at h
        dsimp only at h
        rw [hpk, kdfDec_raw _ _ _ _ hk] at h
        cases hl : kdfDec env.toMacEnv q.kdfPar with
        | none => rw [hl] at h; simp at h
        | some l =>
          rw [hl] at h
          dsimp only at h
          have hraw : ∃ kb r', q.kdfPar = .raw kb ∧ env.decPbkdf2 kb = some (l, r') := by
            unfold kdfDec at hl
            split at hl
            · rename_i kb heq
              cases hx : env.decPbkdf2 kb with
              | none => rw [hx] at hl; cases hl
              | some y =>
                rw [hx] at hl
                obtain ⟨l', r'⟩ := y
                cases hl
                exact ⟨kb, r', heq, hx⟩
            · cases hl
          obtain ⟨kb, r', e1, e2⟩ := hraw
          cases hc : cmpPbkdf2 oth k l true same with
          | error e => rw [hc] at h; cases h
          | ok v =>
            rw [hc] at h
            cases v with
            | false => cases h
            | true =>
              dsimp only at h
              by_cases hm : algEq p.mac p.macPar q.mac q.macPar true = true
              · obtain ⟨m1, m2⟩ := (algEq_null _ _ _ _).1 hm
                exact ⟨b, q, r, kb, l, r', (octets_ok _ _).1 hoc, hq, e1, e2, (cmpPbkdf2_iff _ _ _ _ hs).1 hc, m1, m2⟩
              · rw [if_neg hm] at h; cases h
  · rintro ⟨b, q, r, kb, l, r', e1, e2, e3, e4, e5, e6, e7⟩
    rw [(octets_ok _ _).2 e1]
    dsimp only
    rw [if_neg (by simp)]
    unfold macParamsBy
    rw [if_pos (show a1.oid = pbmac1Oid from ho), orFail_ok]
    unfold cmpPbmac1
    rw [hp, e2]
    dsimp only
    rw [hpk, e3, kdfDec_raw _ _ _ _ hk,
      kdfDec_raw _ _ _ _ e4]
    dsimp only
    rw [(cmpPbkdf2_iff oth k l same hs).2 e5]
    dsimp only
    rw [if_pos ((algEq_null _ _ _ _).2 ⟨e6, e7⟩)]

/-- C146: with the strict comparison, whatever the other arguments are, an accepted response has the algorithm of the
request, which is a MAC; for the lightweight profile PBMAC1 or a password-based MAC. -/
theorem C146_strict (env : Env S K C) (oth : Pbkdf2 → Pbkdf2 → Bool) (req resp : Msg C) (conf : Option (Msg C))
    (same an lw : Bool) (hd : ∀ o, env.isPqSig o = true → (env.compName o).isSome = false)
    (h : macMatch env oth req resp conf same an true lw = .ok ()) :
    ∃ a1 a2, req.hdr.alg = some a1 ∧ resp.hdr.alg = some a2 ∧ a1.oid = a2.oid ∧ protType env a2.oid = .ok .mac ∧
      (lw = true → a2.oid = [1, 2, 840, 113549, 1, 5, 14] ∨ a2.oid = [1, 2, 840, 113533, 7, 66, 13]) := by
  unfold macMatch at h
  cases h2 : resp.hdr.alg with
  | none => rw [h2] at h; cases h
  | some a2 =>
    cases h1 : req.hdr.alg with
    | none => rw [h1, h2] at h; cases h
    | some a1 =>
      rw [h1, h2] at h
      dsimp only at h
      rw [if_neg (by simp)] at h
      unfold macStrict at h
      cases ht : msgType env resp false with
      | error e => rw [ht] at h; cases h
      | ok t =>
        rw [ht] at h
        dsimp only at h
        by_cases c1 : t ≠ .mac
        · rw [if_pos c1] at h; cases h
        · rw [if_neg c1] at h
          by_cases c2 : lw = true ∧ a2.oid ≠ pbmac1Oid ∧ a2.oid ≠ pbmOid
          · rw [if_pos c2] at h; cases h
          · rw [if_neg c2] at h
            by_cases c3 : a1.oid ≠ a2.oid
            · rw [if_pos c3] at h; cases h
            · have hT := (msgType_iff env resp false t hd).1 ht
              cases hT with
              | any g1 g2 =>
                rw [h2] at g1
                cases g1
                refine ⟨a1, a2, rfl, rfl, Decidable.not_not.1 c3, by rw [g2, Decidable.not_not.1 c1], ?_⟩
                intro hl
                by_cases k1 : a2.oid = pbmac1Oid
                · exact Or.inl k1
                · by_cases k2 : a2.oid = pbmOid
                  · exact Or.inr k2
                  · exact absurd ⟨hl, k1, k2⟩ c2

/-- C146: without the strict comparison the messages are accepted if and only if their protection is of the same type. -/
theorem C146_not_strict (env : Env S K C) (oth : Pbkdf2 → Pbkdf2 → Bool) (req resp : Msg C) (conf : Option (Msg C))
    (same an lw : Bool) (hd : ∀ o, env.isPqSig o = true → (env.compName o).isSome = false) :
    macMatch env oth req resp conf same an false lw = .ok () ↔
      ∃ t, HasType env req lw t ∧ HasType env resp lw t ∧ ∀ c, conf = some c → HasType env c lw t := by
  have hcore : macMatch env oth req resp conf same an false lw = .ok () ↔ macLoose env req resp conf lw = .ok () := by
    unfold macMatch
    cases h2 : resp.hdr.alg with
    | none => simp [macLoose, msgType, h2]
    | some a2 =>
      cases h1 : req.hdr.alg with
      | none =>
        dsimp only
        constructor
        · intro h; cases h
        · intro h
          unfold macLoose at h
          rw [show msgType env req lw = .error .valueError by unfold msgType; rw [h1]] at h
          cases ht : msgType env resp lw <;> rw [ht] at h <;> cases h
      | some a1 => simp
  rw [hcore]
  unfold macLoose
  constructor
  · intro h
    cases ht : msgType env resp lw with
    | error e => rw [ht] at h; cases h
    | ok t =>
      rw [ht] at h
      dsimp only at h
      cases hu : msgType env req lw with
      | error e => rw [hu] at h; cases h
      | ok u =>
        rw [hu] at h
        dsimp only at h
        by_cases c : t ≠ u
        · rw [if_pos c] at h; cases h
        · rw [if_neg c] at h
          have c' : t = u := Decidable.not_not.1 c
          subst c'
          refine ⟨t, (msgType_iff env req lw t hd).1 hu, (msgType_iff env resp lw t hd).1 ht, ?_⟩
          rintro m rfl
          dsimp only at h
          cases hv : msgType env m lw with
          | error e => rw [hv] at h; cases h
          | ok v =>
            rw [hv] at h
            dsimp only at h
            by_cases c2 : t ≠ v
            · rw [if_pos c2] at h; cases h
            · rw [← Decidable.not_not.1 c2] at hv
              exact (msgType_iff env m lw t hd).1 hv
  · rintro ⟨t, h1, h2, h3⟩
    rw [(msgType_iff env resp lw t hd).2 h2, (msgType_iff env req lw t hd).2 h1]
    dsimp only
    rw [if_neg (by simp)]
    cases conf with
    | none => rfl
    | some m =>
      dsimp only
      rw [(msgType_iff env m lw t hd).2 (h3 m rfl)]
      simp

/-- C146: a request and a response that the suite prepares with the same arguments and different salts agree. -/
theorem C146_suite (env : Env S K C) (oth : Pbkdf2 → Pbkdf2 → Bool) (req resp : Msg C) (lw : Bool) (rnd rnd' s s' : Bytes)
    (it : Int) (h : String) (p q : Pbm) (b r : Bytes) (hp : prepPbm env.toMacEnv rnd s it h = .ok p)
    (hq : prepPbm env.toMacEnv rnd' s' it h = .ok q) (hne : p.salt ≠ q.salt) (hc : env.decPbm b = some (q, r))
    (h1 : req.hdr.alg = some ⟨pbmOid, .pbm p⟩) (h2 : resp.hdr.alg = some ⟨pbmOid, .raw b⟩) :
    macMatch env oth req resp none false true true lw = .ok () := by
  refine (C146_pbm_partial env oth req resp false lw p _ h1 h2).2 ⟨rfl, b, q, r, rfl, hc, ?_⟩
  unfold prepPbm at hp hq
  cases ho : oidOfName h with
  | error e => rw [ho] at hp; cases hp
  | ok o =>
    cases hm : hmacOid h with
    | error e => rw [ho, hm] at hp; cases hp
    | ok mo =>
      rw [ho, hm] at hp hq
      cases hp
      cases hq
      exact ⟨by simpa using hne, rfl, ⟨rfl, rfl⟩, ⟨rfl, rfl⟩⟩

end Verif.Prot
