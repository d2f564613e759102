import Verif.Prot.MatchProps

/-!
# C146: where the comparison of MAC algorithms goes wrong, and examples
-/

namespace Verif.Prot

open Verif.CA

variable {S K C : Type}

/-! ## An environment for examples -/

/-- Parameters of a password-based MAC as the suite makes them, with a salt. -/
def exMatchPbm (s : Bytes) (owfPar : Option Bytes) : Pbm :=
  ⟨s, [2, 16, 840, 1, 101, 3, 4, 2, 1], owfPar, 500, [1, 2, 840, 113549, 2, 9], none⟩

/-- Bytes that start with 1 are a password-based MAC with NULL, with 2 one without; the rest is the salt. Bytes that start
with 3 are PBMAC1 with PBKDF2 (4: with another key derivation function); the rest is the salt. -/
def exMatch : Env Nat Nat Nat :=
  { exSig with
    toMacEnv := { exMac with
      encPbm := fun p => (if p.owfPar = none then 2 else 1) :: p.salt
      decPbm := fun b => match b with
        | 1 :: s => some (exMatchPbm s (some [5, 0]), [])
        | 2 :: s => some (exMatchPbm s none, [])
        | _ => none
      encPbmac1 := fun p => match p.kdfPar with
        | .pbkdf2 k => (if p.kdf = pbkdf2Oid then 3 else 4) :: k.salt.getD []
        | _ => []
      decPbmac1 := fun b => match b with
        | 3 :: s => some (⟨pbkdf2Oid, .raw s, [1, 2, 840, 113549, 2, 9], none⟩, [])
        | 4 :: s => some (⟨[1, 3, 6, 1, 4, 1, 11591, 4, 11], .raw s, [1, 2, 840, 113549, 2, 9], none⟩, [])
        | _ => none
      decPbkdf2 := fun b => some (⟨some b, 500, some 32, [1, 2, 840, 113549, 2, 9], none⟩, []) } }

/-- A message with an algorithm. -/
def exMatchMsg (o : Oid) (p : Par) : Msg Nat := ⟨⟨[10], true, some ⟨o, p⟩, some [11], []⟩, some [12], some [1], []⟩

/-- The comparison of other salts. -/
def exOth : Pbkdf2 → Pbkdf2 → Bool := fun _ _ => false

/-- C146_pbm_partial: different salts are accepted, the same one is not, unless asked for. -/
example : macMatch exMatch exOth (exMatchMsg pbmOid (.pbm (exMatchPbm [7] (some [5, 0])))) (exMatchMsg pbmOid (.raw [1, 8]))
      none false true true true = .ok () ∧
    macMatch exMatch exOth (exMatchMsg pbmOid (.pbm (exMatchPbm [7] (some [5, 0])))) (exMatchMsg pbmOid (.raw [1, 7]))
      none false true true true = .error .valueError ∧
    macMatch exMatch exOth (exMatchMsg pbmOid (.pbm (exMatchPbm [7] (some [5, 0])))) (exMatchMsg pbmOid (.raw [1, 7]))
      none true true true true = .ok () := by
  decide +kernel

/-- C146_pbmac1_partial. -/
example : macMatch exMatch exOth (exMatchMsg pbmac1Oid (.raw [3, 7])) (exMatchMsg pbmac1Oid (.raw [3, 8]))
      none false true true true = .ok () ∧
    macMatch exMatch exOth (exMatchMsg pbmac1Oid (.raw [3, 7])) (exMatchMsg pbmac1Oid (.raw [3, 7]))
      none false true true true = .error .valueError := by
  decide +kernel

/-- C146_strict, C146_not_strict. -/
example : macMatch exMatch exOth (exMatchMsg pbmac1Oid (.raw [3, 7])) (exMatchMsg pbmOid (.raw [1, 8]))
      none false true true true = .error .valueError ∧
    macMatch exMatch exOth (exMatchMsg pbmac1Oid (.raw [3, 7])) (exMatchMsg pbmOid (.raw [1, 8]))
      (some (exMatchMsg pbmOid (.raw [1, 9]))) false true false true = .ok () ∧
    macMatch exMatch exOth (exMatchMsg pbmac1Oid (.raw [3, 7])) (exMatchMsg pbmOid (.raw [1, 8]))
      (some (exMatchMsg dhOid (.raw [1, 9]))) false true false true = .error .valueError := by
  decide +kernel

/-- C146_suite. -/
example : macMatch exMatch exOth
    (exMatchMsg pbmOid (.pbm ((prepPbm exMatch.toMacEnv [] [7] 500 "sha256").toOption.getD (exMatchPbm [] none))))
    (exMatchMsg pbmOid (.raw [1, 8])) none false true true true = .ok () :=
  C146_suite exMatch exOth _ _ true [] [] [7] [8] 500 "sha256" (exMatchPbm [7] (some [5, 0]))
    (exMatchPbm [8] (some [5, 0])) [1, 8] [] (by decide +kernel) (by decide +kernel) (by decide) rfl rfl rfl

/-! ## Differences -/

/-- The confirmation is not looked at unless the salts have to be the same: any message will do, even one protected with a
signature. -/
theorem C146_conf_refuted :
    (∀ (env : Env S K C) (oth : Pbkdf2 → Pbkdf2 → Bool) (req resp conf : Msg C) (an lw : Bool),
      macMatch env oth req resp (some conf) false an true lw = macMatch env oth req resp none false an true lw) ∧
    ∃ (req resp conf : Msg Nat), macMatch exMatch exOth req resp (some conf) false true true true = .ok () ∧
      ∃ a, conf.hdr.alg = some a ∧ protType exMatch a.oid = .ok .trad := by
  constructor
  · intro env oth req resp conf an lw
    unfold macMatch
    cases resp.hdr.alg with
    | none => rfl
    | some a2 =>
      cases req.hdr.alg with
      | none => rfl
      | some a1 =>
        dsimp only
        rw [if_neg (by simp), if_neg (by simp)]
        unfold macStrict
        cases msgType env resp false with
        | error e => rfl
        | ok t =>
          dsimp only
          cases hm : macParams env.toMacEnv oth a1 a2 an false with
          | error e => rfl
          | ok u =>
            dsimp only
            rw [show macConf env oth a1 a2 (some conf) an false = macParams env.toMacEnv oth a1 a2 an false from rfl, hm]
            rfl
  · exact ⟨exMatchMsg pbmOid (.pbm (exMatchPbm [7] (some [5, 0]))), exMatchMsg pbmOid (.raw [1, 8]),
      exMatchMsg [1, 2, 840, 10045, 4, 3, 2] .absent, by decide +kernel, _, rfl, by decide +kernel⟩

/-- With a confirmation and the same salt nothing is ever accepted, not even three equal messages. -/
theorem C146_conf_salt_refuted (env : Env S K C) (oth : Pbkdf2 → Pbkdf2 → Bool) (req resp conf : Msg C) (an lw : Bool) :
    macMatch env oth req resp (some conf) true an true lw ≠ .ok () := by
  intro h
  unfold macMatch at h
  cases h2 : resp.hdr.alg with
  | none => rw [h2] at h; cases h
  | some a2 =>
    cases h1 : req.hdr.alg with
    | none => rw [h1, h2] at h; cases h
    | some a1 =>
      rw [h1, h2] at h
      dsimp only at h
      rw [if_neg (by simp)] at h
      unfold macStrict at h
      cases ht : msgType env resp false with
      | error e => rw [ht] at h; cases h
      | ok t =>
        rw [ht] at h
        dsimp only at h
        split at h
        · cases h
        · split at h
          · cases h
          · split at h
            · cases h
            · cases hm : macParams env.toMacEnv oth a1 a2 an true with
              | error e => rw [hm] at h; cases h
              | ok u =>
                rw [hm] at h
                dsimp only at h
                have hraw : ∃ b, a2.par = .raw b := by
                  unfold macParams at hm
                  cases hd : parDer env.toMacEnv a1.par with
                  | none => rw [hd] at hm; cases hm
                  | some d =>
                    rw [hd] at hm
                    dsimp only at hm
                    cases ho : octets a2.par with
                    | error e => rw [ho] at hm; cases hm
                    | ok b => exact ⟨b, (octets_ok _ _).1 ho⟩
                obtain ⟨b, hb⟩ := hraw
                unfold macConf at h
                dsimp only at h
                rw [if_pos rfl] at h
                cases h3 : conf.hdr.alg with
                | none => rw [h3] at h; cases h
                | some a3 =>
                  rw [h3] at h
                  dsimp only at h
                  rw [if_neg (fun c => by
                    have := ((algEq_strict _ _ _ _).1 c).2
                    rw [hb] at this
                    cases this)] at h
                  cases h

/-- Without the confirmation the same three messages are accepted. -/
example : macMatch exMatch exOth (exMatchMsg pbmOid (.pbm (exMatchPbm [7] (some [5, 0])))) (exMatchMsg pbmOid (.raw [1, 7]))
    (some (exMatchMsg pbmOid (.raw [1, 7]))) true true true true = .error .valueError := by
  decide +kernel

/-- The key derivation function of PBMAC1 is not compared: scrypt is taken for PBKDF2. -/
theorem C146_kdf_refuted : ∃ (env : Env Nat Nat Nat) (req resp : Msg Nat) (p q : Pbmac1) (b b' : Bytes),
    macMatch env exOth req resp none false true true true = .ok () ∧ req.hdr.alg = some ⟨pbmac1Oid, .raw b⟩ ∧
    resp.hdr.alg = some ⟨pbmac1Oid, .raw b'⟩ ∧ env.decPbmac1 b = some (p, []) ∧ env.decPbmac1 b' = some (q, []) ∧
    p.kdf ≠ q.kdf :=
  ⟨exMatch, exMatchMsg pbmac1Oid (.raw [3, 7]), exMatchMsg pbmac1Oid (.raw [4, 8]), _, _, [3, 7], [4, 8],
    by decide +kernel, rfl, rfl, rfl, rfl, by decide⟩

/-- The flag for NULL has the opposite effect. With it, absent and NULL parameters differ. Without it, the parameters of
the request are not looked at, and a response of the suite, with NULL, is refused. -/
theorem C146_null_refuted :
    macMatch exMatch exOth (exMatchMsg pbmOid (.pbm (exMatchPbm [7] (some [5, 0])))) (exMatchMsg pbmOid (.raw [2, 8]))
      none false true true true = .error .valueError ∧
    macMatch exMatch exOth (exMatchMsg pbmOid (.pbm (exMatchPbm [7] (some [5, 0])))) (exMatchMsg pbmOid (.raw [2, 8]))
      none false false true true = .ok () ∧
    macMatch exMatch exOth (exMatchMsg pbmOid (.pbm (exMatchPbm [7] none))) (exMatchMsg pbmOid (.raw [1, 8]))
      none false true true true = .error .valueError ∧
    macMatch exMatch exOth (exMatchMsg pbmOid (.pbm (exMatchPbm [7] (some [5, 0])))) (exMatchMsg pbmOid (.raw [1, 8]))
      none false false true true = .error .valueError := by
  decide +kernel

/-- Without the lightweight profile, MACs without parameters (HMAC and KMAC) can never be compared. -/
theorem C146_hmac_refuted (env : Env S K C) (oth : Pbkdf2 → Pbkdf2 → Bool) (req resp : Msg C) (conf : Option (Msg C))
    (same an lw : Bool) (o : Oid) (h1 : req.hdr.alg = some ⟨o, .absent⟩) :
    macMatch env oth req resp conf same an true lw ≠ .ok () := by
  intro h
  unfold macMatch at h
  cases h2 : resp.hdr.alg with
  | none => rw [h2] at h; cases h
  | some a2 =>
    rw [h1, h2] at h
    dsimp only at h
    rw [if_neg (by simp)] at h
    unfold macStrict at h
    cases ht : msgType env resp false with
    | error e => rw [ht] at h; cases h
    | ok t =>
      rw [ht] at h
      dsimp only at h
      split at h
      · cases h
      · split at h
        · cases h
        · split at h
          · cases h
          · rw [show macParams env.toMacEnv oth ⟨o, .absent⟩ a2 an same = .error .pyasn1Error from rfl] at h
            cases h

/-- Both messages are protected with the same HMAC. -/
example : macMatch exMatch exOth (exMatchMsg [1, 2, 840, 113549, 2, 9] .absent) (exMatchMsg [1, 2, 840, 113549, 2, 9] .absent)
    none false true true false = .error .pyasn1Error := by
  decide +kernel

/-- A request with a password-based MAC that was encoded and decoded is never accepted, while one with PBMAC1 is. -/
theorem C146_decoded_refuted (env : Env S K C) (oth : Pbkdf2 → Pbkdf2 → Bool) (req resp : Msg C) (same an lw : Bool)
    (b : Bytes) (h1 : req.hdr.alg = some ⟨pbmOid, .raw b⟩) :
    macMatch env oth req resp none same an true lw ≠ .ok () := by
  intro h
  cases h2 : resp.hdr.alg with
  | none =>
    unfold macMatch at h
    rw [h2] at h
    cases h
  | some a2 =>
    obtain ⟨_, h3⟩ := (macMatch_core env oth req resp same an lw _ a2 h1 h2 (Or.inl rfl)).1 h
    unfold macParams at h3
    rw [show parDer env.toMacEnv (.raw b) = some b from rfl] at h3
    dsimp only at h3
    cases ho : octets a2.par with
    | error e => rw [ho] at h3; cases h3
    | ok d =>
      rw [ho] at h3
      dsimp only at h3
      split at h3
      · cases h3
      · unfold macParamsBy at h3
        dsimp only at h3
        rw [if_neg match_rows.1, if_pos rfl, orFail_ok] at h3
        unfold cmpPbmPar at h3
        cases hd : env.decPbm d with
        | none => rw [hd] at h3; simp at h3
        | some x => rw [hd] at h3; cases h3

/-- Without the strict comparison, messages that are protected with signatures are accepted. -/
theorem C146_not_strict_refuted : ∃ (env : Env Nat Nat Nat) (req resp : Msg Nat) (a1 a2 : AlgId),
    macMatch env exOth req resp none false true false true = .ok () ∧ req.hdr.alg = some a1 ∧ resp.hdr.alg = some a2 ∧
    protType env a1.oid = .ok .trad ∧ protType env a2.oid = .ok .trad :=
  ⟨exMatch, exMatchMsg [1, 2, 840, 10045, 4, 3, 2] .absent, exMatchMsg [1, 2, 840, 10045, 4, 3, 3] .absent, _, _,
    by decide +kernel, rfl, rfl, by decide +kernel, by decide +kernel⟩

end Verif.Prot
