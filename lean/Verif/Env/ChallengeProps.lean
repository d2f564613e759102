import Verif.Env.EnvProps
import Verif.Env.Challenge
import Verif.CA.Challenge

/-!
# C169: the challenge of the indirect proof of possession is answered by the holder of the key
-/

namespace Verif.Env

open Verif.CA hiding Bytes Msg
open Verif.Prot

variable {S K C N : Type}

/-! ## Specification -/

/-- The recipient is named by the NULL-DN and the number of the request. -/
inductive PopRid (env : KEnv S K C) (id : Int) : Ri → Prop
  | ktri {k : Ktri} : k.rid = some (.iss [0x30, 0x00] id) → PopRid env id (.ktri k)
  | kari {k : Kari} {ek : Bytes} {l : List (KaRid × Bytes)} : k.keys = some ((.iss [0x30, 0x00] id, ek) :: l) →
      PopRid env id (.kari k)
  | kem {b rest : Bytes} {k : Kemri} : env.decKemri b = some (k, rest) → k.rid = some (.iss [0x30, 0x00] id) →
      PopRid env id (.ori [1, 2, 840, 113549, 1, 9, 16, 13, 3] (.raw b))

/-- The key of the CA for Diffie-Hellman: of the given certificate; else of the first certificate of the message that has a
key of the right type, among the first two. -/
inductive PopCaKey (pe : PopEnv S K C N) (a : PopArgs S C N) (m : PopMsg C) : K → Prop
  | given {c : C} {k : K} : a.kariCert = some c → pe.keyOf c = .ok k → pe.isEcdhPub k = true → PopCaKey pe a m k
  | first {c : C} {cs : List C} {k : K} : a.kariCert = none → m.msg.certs = c :: cs → pe.keyOf c = .ok k →
      pe.sameType k a.key = true → PopCaKey pe a m k
  | second {c c' : C} {cs : List C} {k k' : K} : a.kariCert = none → m.msg.certs = c :: c' :: cs → pe.keyOf c = .ok k' →
      pe.sameType k' a.key = false → pe.keyOf c' = .ok k → pe.sameType k a.key = true → PopCaKey pe a m k

/-- What a challenge contains for the holder of the key. -/
inductive PopRandIn (pe : PopEnv S K C N) (a : PopArgs S C N) (m : PopMsg C) (c : Chal) : Int × N → Prop
  | enc {e : EnvData} {ri : Ri} {d : Bytes} {r : Int × N} : c.enc = some e → e.infos[a.recip]? = some ri →
      PopRid pe.toKEnv a.reqId ri →
      openEnv pe.toKEnv { msg := some m.msg, pw := a.pw, cert := m.msg.certs[0]?, kariCert := a.kariCert, size := a.recips, idx := 0, key := some a.key, raw := true, pop := true } e = .ok d → pe.decRand d = some (r, []) → PopRandIn pe a m c r
  | rsa {d : Bytes} {r : Int × N} : c.enc = none → pe.isRsa a.key = true → pe.rsaDec a.key .pkcs1 c.chal = .ok d →
      pe.decRand d = some (r, []) → PopRandIn pe a m c r
  | dh {k : K} {z ss d : Bytes} {r : Int × N} : c.enc = none → pe.isRsa a.key = false → pe.isEcdh a.key = true →
      PopCaKey pe a m k → pe.dh a.key k false = .ok z → dhKey pe.toMacEnv z 32 "sha256" = .ok ss →
      aesDec pe.toKEnv ss a.iv c.chal = .ok d → pe.decRand d = some (r, []) → PopRandIn pe a m c r

/-! ## Versions -/

/-- **C169.** The versions: either version 3, some `encryptedRand` and no bytes in any `challenge`, or version 2 and no
`encryptedRand`. -/
theorem C169_version_iff (v : Int) (l : List Chal) : popVersion v l = .ok () ↔
    (v = 3 ∧ (∃ c ∈ l, c.enc ≠ none) ∧ ∀ c ∈ l, c.chal = []) ∨ (v = 2 ∧ ∀ c ∈ l, c.enc = none) := by
  unfold popVersion
  have he : l.any (fun c => c.enc.isSome) = true ↔ ∃ c ∈ l, c.enc ≠ none := by
    rw [List.any_eq_true]
    exact ⟨fun ⟨c, h, h'⟩ => ⟨c, h, fun h2 => by rw [h2] at h'; cases h'⟩,
      fun ⟨c, h, h'⟩ => ⟨c, h, by cases hc : c.enc with | none => exact absurd hc h' | some x => rfl⟩⟩
  have hp : l.any (fun c => c.chal != []) = true ↔ ∃ c ∈ l, c.chal ≠ [] := by
    rw [List.any_eq_true]
    exact ⟨fun ⟨c, h, h'⟩ => ⟨c, h, by simpa using h'⟩, fun ⟨c, h, h'⟩ => ⟨c, h, by simpa using h'⟩⟩
  dsimp only
  constructor
  · intro h
    split at h
    · cases h
    · rename_i h1
      split at h
      · cases h
      · rename_i h2
        split at h
        · cases h
        · rename_i h3
          by_cases hx : l.any (fun c => c.enc.isSome) = true
          · refine .inl ⟨Decidable.byContradiction (fun hv => h1 ⟨hv, hx⟩), he.1 hx, fun c hc => ?_⟩
            exact Decidable.byContradiction (fun hn => h3 ⟨hx, hp.2 ⟨c, hc, hn⟩⟩)
          · refine .inr ⟨Decidable.byContradiction (fun hv => h2 ⟨hv, by simpa using hx⟩), fun c hc => ?_⟩
            exact Decidable.byContradiction (fun hn => hx (he.2 ⟨c, hc, hn⟩))
  · rintro (⟨rfl, h1, h2⟩ | ⟨rfl, h1⟩)
    · rw [if_neg (by simp), if_neg (fun h => by rw [he.2 h1] at h; cases h.2),
        if_neg (fun h => by obtain ⟨c, hc, hn⟩ := hp.1 h.2; exact hn (h2 c hc))]
    · have : ¬ l.any (fun c => c.enc.isSome) = true := fun h => by
        obtain ⟨c, hc, hn⟩ := he.1 h
        exact hn (h1 c hc)
      rw [if_neg (fun h => this h.2), if_neg (by simp), if_neg (fun h => this h.1)]

/-! ## The recipient -/

theorem checkPopRid_eq (env : KEnv S K C) (e : EnvData) (id : Int) (n : Nat) :
    checkPopRid env e id n = .ok () ↔ extractRid env e.infos[n]? = .ok ([0x30, 0x00], id) := by
  unfold checkPopRid
  constructor
  · intro h
    cases hx : extractRid env e.infos[n]? with
    | error x => rw [hx] at h; cases h
    | ok y =>
      obtain ⟨i, s⟩ := y
      rw [hx] at h
      dsimp only at h
      by_cases h1 : i = nullDn
      · rw [if_neg (not_not_intro h1)] at h
        by_cases h2 : s = id
        · rw [h1, h2]; rfl
        · rw [if_pos h2] at h; cases h
      · rw [if_pos h1] at h; cases h
  · intro h
    rw [h]
    dsimp only
    rw [if_neg (by decide), if_neg (not_not_intro rfl)]

theorem issRid_iff (r : Option Rid) (i : Bytes) (n : Int) : issRid r = .ok (i, n) ↔ r = some (.iss i n) := by
  unfold issRid
  split
  · exact ⟨nofun, nofun⟩
  · exact ⟨nofun, nofun⟩
  · exact ⟨fun h => by cases h; rfl, fun h => by cases h; rfl⟩

/-- **C169.** The recipient is accepted iff it is named by the NULL-DN and the number of the request. -/
theorem C169_rid_iff (env : KEnv S K C) (e : EnvData) (id : Int) (n : Nat) :
    checkPopRid env e id n = .ok () ↔ ∃ ri, e.infos[n]? = some ri ∧ PopRid env id ri := by
  rw [checkPopRid_eq]
  cases e.infos[n]? with
  | none => exact ⟨nofun, fun ⟨_, h, _⟩ => nomatch h⟩
  | some ri =>
    have hs : (∃ x, some ri = some x ∧ PopRid env id x) ↔ PopRid env id ri :=
      ⟨fun ⟨x, h, h'⟩ => by cases h; exact h', fun h => ⟨ri, rfl, h⟩⟩
    rw [hs]
    cases ri with
    | ktri k => exact (issRid_iff _ _ _).trans ⟨.ktri, fun h => by cases h with | ktri h => exact h⟩
    | kekri => exact ⟨nofun, nofun⟩
    | pwri p => exact ⟨nofun, nofun⟩
    | kari k =>
      simp only [extractRid]
      unfold issKaRid
      constructor
      · intro h
        cases hk : k.keys with
        | none => rw [hk] at h; cases h
        | some l =>
          rw [hk] at h
          cases l with
          | nil => cases h
          | cons x l =>
            obtain ⟨r, ek⟩ := x
            cases r with
            | rKey b => cases h
            | iss i s => cases h; exact .kari hk
      · intro h
        cases h with
        | kari h => rw [h]; rfl
    | ori t v =>
      simp only [extractRid]
      unfold oriRid
      constructor
      · intro h
        by_cases ht : t = oriKemOid
        · subst ht
          rw [if_neg (not_not_intro rfl)] at h
          cases v with
          | obj k => cases h
          | raw b =>
            dsimp only at h
            cases hd : env.decKemri b with
            | none => rw [hd] at h; cases h
            | some y =>
              obtain ⟨k, rest⟩ := y
              rw [hd] at h
              exact .kem hd ((issRid_iff _ _ _).1 h)
        · rw [if_pos ht] at h; cases h
      · intro h
        cases h with
        | kem h1 h2 =>
          rw [if_neg (by decide)]
          dsimp only
          rw [h1]
          exact (issRid_iff _ _ _).2 h2

/-! ## The answer -/

theorem readRand_iff (pe : PopEnv S K C N) (bad : PyErr) (b : Bytes) (r : Int × N) :
    readRand pe bad b = .ok r ↔ pe.decRand b = some (r, []) := by
  unfold readRand
  cases hd : pe.decRand b with
  | none => exact ⟨nofun, nofun⟩
  | some y =>
    obtain ⟨x, rest⟩ := y
    dsimp only
    by_cases hr : rest = []
    · rw [if_pos hr, hr]
      exact ⟨fun h => by cases h; rfl, fun h => by cases h; rfl⟩
    · rw [if_neg hr]
      exact ⟨nofun, fun h => by cases h; exact absurd rfl hr⟩

theorem keyInMsg_iff (pe : PopEnv S K C N) (a : PopArgs S C N) (m : PopMsg C) (k : K) (h : pe.isEcdh a.key = true) :
    popCaKey pe a m = .ok (some k) ↔ PopCaKey pe a m k := by
  unfold popCaKey
  rw [if_pos h]
  cases hc : a.kariCert with
  | some c =>
    dsimp only
    unfold keyOfCert
    cases hk : pe.keyOf c with
    | error e =>
      refine ⟨nofun, fun h => ?_⟩
      cases h with
      | given g1 g2 _ => rw [hc] at g1; cases g1; rw [hk] at g2; cases g2
      | first g1 => rw [hc] at g1; cases g1
      | second g1 => rw [hc] at g1; cases g1
    | ok k' =>
      dsimp only
      by_cases hp : pe.isEcdhPub k' = true
      · rw [if_pos hp]
        refine ⟨fun h => by cases h; exact .given hc hk hp, fun h => ?_⟩
        cases h with
        | given g1 g2 _ => rw [hc] at g1; cases g1; rw [hk] at g2; cases g2; rfl
        | first g1 => rw [hc] at g1; cases g1
        | second g1 => rw [hc] at g1; cases g1
      · rw [if_neg hp]
        refine ⟨nofun, fun h => ?_⟩
        cases h with
        | given g1 g2 g3 => rw [hc] at g1; cases g1; rw [hk] at g2; cases g2; exact absurd g3 hp
        | first g1 => rw [hc] at g1; cases g1
        | second g1 => rw [hc] at g1; cases g1
  | none =>
    dsimp only
    cases hm : m.msg.certs with
    | nil =>
      refine ⟨nofun, fun h => ?_⟩
      cases h with
      | given g1 => rw [hc] at g1; cases g1
      | first _ g2 => rw [hm] at g2; cases g2
      | second _ g2 => rw [hm] at g2; cases g2
    | cons c cs =>
      unfold keyInMsg
      dsimp only
      cases hk : pe.keyOf c with
      | error e =>
        refine ⟨nofun, fun h => ?_⟩
        cases h with
        | given g1 => rw [hc] at g1; cases g1
        | first _ g2 g3 => rw [hm] at g2; cases g2; rw [hk] at g3; cases g3
        | second _ g2 g3 => rw [hm] at g2; cases g2; rw [hk] at g3; cases g3
      | ok k1 =>
        dsimp only
        by_cases ht : pe.sameType k1 a.key = true
        · rw [if_pos ht]
          refine ⟨fun h => by cases h; exact .first hc hm hk ht, fun h => ?_⟩
          cases h with
          | given g1 => rw [hc] at g1; cases g1
          | first _ g2 g3 => rw [hm] at g2; cases g2; rw [hk] at g3; cases g3; rfl
          | second _ g2 g3 g4 => rw [hm] at g2; cases g2; rw [hk] at g3; cases g3; rw [ht] at g4; cases g4
        · rw [if_neg ht]
          unfold secondKey
          cases cs with
          | nil =>
            refine ⟨nofun, fun h => ?_⟩
            cases h with
            | given g1 => rw [hc] at g1; cases g1
            | first _ g2 g3 g4 => rw [hm] at g2; cases g2; rw [hk] at g3; cases g3; exact absurd g4 ht
            | second _ g2 => rw [hm] at g2; cases g2
          | cons c' cs =>
            dsimp only
            cases hk' : pe.keyOf c' with
            | error e =>
              refine ⟨nofun, fun h => ?_⟩
              cases h with
              | given g1 => rw [hc] at g1; cases g1
              | first _ g2 g3 g4 => rw [hm] at g2; cases g2; rw [hk] at g3; cases g3; exact absurd g4 ht
              | second _ g2 _ _ g3 => rw [hm] at g2; cases g2; rw [hk'] at g3; cases g3
            | ok k2 =>
              dsimp only
              by_cases ht' : pe.sameType k2 a.key = true
              · rw [if_pos ht']
                refine ⟨fun h => by cases h; exact .second hc hm hk (by simpa using ht) hk' ht', fun h => ?_⟩
                cases h with
                | given g1 => rw [hc] at g1; cases g1
                | first _ g2 g3 g4 => rw [hm] at g2; cases g2; rw [hk] at g3; cases g3; exact absurd g4 ht
                | second _ g2 _ _ g3 => rw [hm] at g2; cases g2; rw [hk'] at g3; cases g3; rfl
              · rw [if_neg ht']
                refine ⟨nofun, fun h => ?_⟩
                cases h with
                | given g1 => rw [hc] at g1; cases g1
                | first _ g2 g3 g4 => rw [hm] at g2; cases g2; rw [hk] at g3; cases g3; exact absurd g4 ht
                | second _ g2 _ _ g3 g4 => rw [hm] at g2; cases g2; rw [hk'] at g3; cases g3; exact absurd g4 ht'

theorem plainRand_iff (pe : PopEnv S K C N) (a : PopArgs S C N) (m : PopMsg C) (c : Chal) (r : Int × N)
    (hn : c.enc = none) (hre : pe.isRsa a.key = true → pe.isEcdh a.key = false) :
    popRand pe a m c = .ok r ↔ PopRandIn pe a m c r := by
  unfold popRand
  rw [hn]
  dsimp only
  by_cases hr : pe.isRsa a.key = true
  · have hca : popCaKey pe a m = .ok none := by
      unfold popCaKey
      rw [if_neg (by rw [hre hr]; nofun)]
    rw [hca]
    dsimp only
    unfold plainRandOf
    rw [if_pos hr]
    cases hd : pe.rsaDec a.key .pkcs1 c.chal with
    | error e =>
      refine ⟨nofun, fun h => ?_⟩
      cases h with
      | enc g1 => rw [hn] at g1; cases g1
      | rsa _ _ g3 => rw [hd] at g3; cases g3
      | dh _ g2 => rw [hr] at g2; cases g2
    | ok d =>
      refine (readRand_iff _ _ _ _).trans ⟨fun h => .rsa hn hr hd h, fun h => ?_⟩
      cases h with
      | enc g1 => rw [hn] at g1; cases g1
      | rsa _ _ g3 g4 => rw [hd] at g3; cases g3; exact g4
      | dh _ g2 => rw [hr] at g2; cases g2
  · by_cases he : pe.isEcdh a.key = true
    · constructor
      · intro h
        cases hk : popCaKey pe a m with
        | error e => rw [hk] at h; cases h
        | ok y =>
          rw [hk] at h
          dsimp only at h
          unfold plainRandOf popSecret at h
          rw [if_neg hr, if_pos he] at h
          cases y with
          | none => cases h
          | some k =>
            dsimp only at h
            cases hz : ecdhOn pe.toKEnv a.key k false with
            | error e => rw [hz] at h; cases h
            | ok z =>
              rw [hz] at h
              dsimp only at h
              cases hs : dhKey pe.toMacEnv z 32 "sha256" with
              | error e => rw [hs] at h; cases h
              | ok ss =>
                rw [hs] at h
                dsimp only at h
                cases hd : aesDec pe.toKEnv ss a.iv c.chal with
                | error e => rw [hd] at h; cases h
                | ok d =>
                  rw [hd] at h
                  unfold ecdhOn at hz
                  rw [if_neg (by simp)] at hz
                  exact .dh hn (by simpa using hr) he ((keyInMsg_iff pe a m k he).1 hk) hz hs hd ((readRand_iff _ _ _ _).1 h)
      · intro h
        cases h with
        | enc g1 => rw [hn] at g1; cases g1
        | rsa _ g2 => exact absurd g2 hr
        | dh _ _ _ g1 g2 g3 g4 g5 =>
          rw [(keyInMsg_iff pe a m _ he).2 g1]
          dsimp only
          unfold plainRandOf popSecret ecdhOn
          rw [if_neg hr, if_pos he]
          dsimp only
          rw [if_neg (by simp), g2]
          dsimp only
          rw [g3]
          dsimp only
          rw [g4]
          exact (readRand_iff _ _ _ _).2 g5
    · constructor
      · intro h
        have hca : popCaKey pe a m = .ok none := by
          unfold popCaKey
          rw [if_neg he]
        rw [hca] at h
        dsimp only at h
        unfold plainRandOf popSecret at h
        rw [if_neg hr, if_neg he] at h
        by_cases hkk : pe.isKemKey a.key = true
        · rw [if_pos hkk] at h; cases h
        · rw [if_neg hkk] at h; cases h
      · intro h
        cases h with
        | enc g1 => rw [hn] at g1; cases g1
        | rsa _ g2 => exact absurd g2 hr
        | dh _ _ g3 => exact absurd g3 he

theorem popRand_iff (pe : PopEnv S K C N) (a : PopArgs S C N) (m : PopMsg C) (c : Chal) (r : Int × N)
    (hre : pe.isRsa a.key = true → pe.isEcdh a.key = false) :
    popRand pe a m c = .ok r ↔ PopRandIn pe a m c r := by
  cases hn : c.enc with
  | none => exact plainRand_iff pe a m c r hn hre
  | some e =>
    unfold popRand
    rw [hn]
    dsimp only
    unfold encRandOf
    constructor
    · intro h
      cases h1 : checkPopRid pe.toKEnv e a.reqId a.recip with
      | error x => rw [h1] at h; cases h
      | ok u =>
        rw [h1] at h
        dsimp only at h
        obtain ⟨ri, g1, g2⟩ := (C169_rid_iff _ _ _ _).1 h1
        cases h2 : openEnv pe.toKEnv (popOpen a m) e with
        | error x => rw [h2] at h; cases h
        | ok d =>
          rw [h2] at h
          exact .enc hn g1 g2 h2 ((readRand_iff _ _ _ _).1 h)
    · intro h
      cases h with
      | enc g1 g2 g3 g4 g5 =>
        rw [hn] at g1
        cases g1
        rw [(C169_rid_iff _ _ _ _).2 ⟨_, g2, g3⟩]
        dsimp only
        unfold popOpen
        rw [g4]
        exact (readRand_iff _ _ _ _).2 g5
      | rsa g1 => rw [hn] at g1; cases g1
      | dh g1 => rw [hn] at g1; cases g1

/-- **C169.** The client answers exactly if there is the expected number of challenges, the versions are right, it can open the
chosen challenge, and the expected sender is named in it; then the answer is the number in the challenge. -/
theorem C169_iff (pe : PopEnv S K C N) (a : PopArgs S C N) (m : PopMsg C) (l : List Int)
    (hre : pe.isRsa a.key = true → pe.isEcdh a.key = false) :
    popAnswer pe a m = .ok l ↔ ∃ cs c n s, m.chals = some cs ∧ cs.length = a.size ∧ cs[a.idx]? = some c ∧
      ((m.pvno = 3 ∧ (∃ c ∈ cs, c.enc ≠ none) ∧ ∀ c ∈ cs, c.chal = []) ∨ (m.pvno = 2 ∧ ∀ c ∈ cs, c.enc = none)) ∧
      PopRandIn pe a m c (n, s) ∧ (∀ x, a.sender = some x → pe.sameName s x = true) ∧ l = [n] := by
  have hsnd : ∀ s, popSender pe a.sender s = .ok () ↔ ∀ x, a.sender = some x → pe.sameName s x = true := by
    intro s
    unfold popSender
    cases a.sender with
    | none => exact ⟨fun _ => nofun, fun _ => rfl⟩
    | some x =>
      dsimp only
      by_cases h : pe.sameName s x = true
      · rw [if_pos h]
        exact ⟨fun _ y hy => by cases hy; exact h, fun _ => rfl⟩
      · rw [if_neg h]
        exact ⟨nofun, fun g => absurd (g x rfl) h⟩
  unfold popAnswer
  constructor
  · intro h
    cases h1 : m.chals with
    | none => rw [h1] at h; cases h
    | some cs =>
      rw [h1] at h
      dsimp only at h
      by_cases h2 : cs.length = a.size
      · rw [if_neg (not_not_intro h2)] at h
        cases h3 : cs[a.idx]? with
        | none => rw [h3] at h; cases h
        | some c =>
          rw [h3] at h
          dsimp only at h
          cases h4 : popVersion m.pvno cs with
          | error e => rw [h4] at h; cases h
          | ok u =>
            rw [h4] at h
            dsimp only at h
            cases h5 : popRand pe a m c with
            | error e => rw [h5] at h; cases h
            | ok r =>
              rw [h5] at h
              dsimp only at h
              cases h6 : popSender pe a.sender r.2 with
              | error e => rw [h6] at h; cases h
              | ok u =>
                rw [h6] at h
                cases h
                exact ⟨cs, c, r.1, r.2, rfl, h2, h3, (C169_version_iff _ _).1 h4, (popRand_iff pe a m c r hre).1 h5,
                  (hsnd _).1 h6, rfl⟩
      · rw [if_pos h2] at h; cases h
  · rintro ⟨cs, c, n, s, h1, h2, h3, h4, h5, h6, rfl⟩
    rw [h1]
    dsimp only
    rw [if_neg (not_not_intro h2), h3]
    dsimp only
    rw [(C169_version_iff _ _).2 h4]
    dsimp only
    rw [(popRand_iff pe a m c (n, s) hre).2 h5]
    dsimp only
    rw [(hsnd s).2 h6]

/-! ## Round trips -/

theorem ktri_pop (env : KEnv S K C) {key : K} {cek rnd : Bytes} {oaep : Bool} {k : Ktri} {s : S} {is : Bytes × Int}
    (c : Option C) (h : buildKtri env key none cek rnd oaep (some is) none = .ok k)
    (hs : env.special [2, 16, 840, 1, 101, 3, 4, 2, 1] = none) (hs' : env.special [2, 16, 840, 1, 101, 3, 4, 2, 2] = none)
    (hd : ∀ x, env.decOaep (env.encOaep x) = some (x, [])) (ho : ∀ o, env.decOid (env.encOid o) = some (o, []))
    (hr : env.isRsa s = true) (hx : ∀ p x, env.rsaEnc key p rnd cek = .ok x → env.rsaDec s p x = .ok cek) :
    k.rid = some (.iss is.1 is.2) ∧ ktriCek env k c s true = .ok cek := by
  unfold buildKtri at h
  split at h
  · cases ha : ktriAlg env oaep with
    | error e => rw [ha] at h; cases h
    | ok y =>
      obtain ⟨a, p⟩ := y
      rw [ha] at h
      dsimp only at h
      cases he : env.rsaEnc key p rnd cek with
      | error e => rw [he] at h; cases h
      | ok ek =>
        rw [he] at h
        unfold ridOr buildRid at h
        dsimp only at h
        cases h
        have hpad := ktriAlg_padding env ha hs hs' hd ho
        refine ⟨rfl, (C150_iff env _ c s true cek ?_).mpr (.mk rfl nofun rfl rfl hr hpad (hx p ek he))⟩
        intro a' b q rr g1 g2 g3
        cases g1
        unfold ktriAlg at ha
        cases oaep with
        | false => cases ha; cases g2
        | true =>
          rw [if_pos rfl] at ha
          cases hp : oaepPad env (oaepOut env) with
          | error e => rw [hp] at ha; cases ha
          | ok p' =>
            rw [hp] at ha
            cases ha
            cases g2
            rw [hd] at g3
            cases g3
            refine ⟨fun o h => by cases h; exact hs', fun mo mb o r' h h' => ?_⟩
            cases h
            rw [ho] at h'
            cases h'
            exact hs
  · cases h

theorem kari_pop (env : KEnv S K C) {x448 : K → Bool} {k k' : K} {s gen s' : S} {cek ukm : Bytes} {kc : C} {x : Option C}
    {r : Kari} {is : Bytes × Int} (c : Option C) (hne : ∀ n x, env.H n x ≠ [])
    (h : buildKari env x448 k s gen cek ukm none (some is) none none {} = .ok r)
    (hw : ∀ w, env.decWrapAlg (env.encWrapAlg w) = some (w, []))
    (hu : ∀ kek ek, env.wrap kek cek = .ok ek → env.unwrap kek ek = .ok cek) (hs : env.isEcdh s' = true)
    (hkc : x = some kc ∨ x = none ∧ c = some kc)
    (hk : env.keyOf kc = .ok k') (hk' : env.isEcdhPub k' = true) (hd : env.dh s' k' false = env.dh s k false) :
    (∃ ek, r.keys = some [(.iss is.1 is.2, ek)]) ∧ kariCek env r c s' true x = .ok cek := by
  unfold buildKari at h
  cases h1 : kariOid env x448 k ({} : KaOpts S) with
  | error e => rw [h1] at h; cases h
  | ok oid =>
    rw [h1] at h
    dsimp only at h
    cases h2 : kariSender env s gen k ({} : KaOpts S) ukm with
    | error e => rw [h2] at h; cases h
    | ok y =>
      obtain ⟨kek, u⟩ := y
      rw [h2] at h
      dsimp only at h
      cases h3 : env.wrap kek cek with
      | error e => rw [h3] at h; cases h
      | ok ek =>
        rw [h3] at h
        dsimp only at h
        unfold kariInfo at h
        rw [if_neg (by simp)] at h
        unfold origOr buildOrig buildKaRid kaRidRest at h
        simp only [Option.bind_none] at h
        cases h
        have hmem : (oid, false, "sha256") ∈ dhSpec := by
          unfold kariOid at h1
          dsimp only at h1
          split at h1
          · cases h1
            split <;> decide +kernel
          · rw [if_neg (by simp)] at h1
            unfold ecdhOidE at h1
            cases he : ecdhOid ecdhAlgs false "sha256" with
            | none => rw [he] at h1; cases h1
            | some x =>
              rw [he] at h1
              cases h1
              exact ecdhOid_row _ _ _ he
        unfold kariSender at h2
        rw [if_neg (by simp)] at h2
        cases hsd : staticDh env s k "sha256" ({} : KaOpts S).wrapOid (some ukm) false with
        | error e => rw [hsd] at h2; cases h2
        | ok y =>
          rw [hsd] at h2
          cases h2
          obtain ⟨n, z, g1, _, g3, rfl⟩ :=
            (staticDh_iff env s k "sha256" ({} : KaOpts S).wrapOid (some ukm) false kek (dh_rows _ hmem).2.2.1 hne).mp hsd
          refine ⟨⟨ek, rfl⟩, (C151_iff env _ c s' true x cek hne).mpr
            (.mk hs rfl rfl rfl rfl nofun hkc
              (.dh (some ukm) hmem (hw _) g1 hk hk' nofun (by rw [hd, g3])) (hu _ _ h3))⟩

theorem kemri_pop (env : KEnv S K C) {key : K} {cek rnd salt : Bytes} {k : Kemri} {s : S} {is : Bytes × Int}
    (c : Option C) (h : buildKemri env key none cek rnd salt (some is) none {} = .ok k)
    (hr : env.isRsaKemPub key = false) (hr' : env.isRsaDecap s = false) (hoid : env.kemOidE s = env.kemOidPubE key)
    (hok : ∀ x, env.kemOidPubE key = .ok x → env.isKemOid x = true)
    (hd : ∀ ss ct, env.encaps key .plain rnd = .ok (ss, ct) → env.decaps s .plain ct = .ok ss)
    (hal : ∀ x, env.decAlg (env.encHashAlg x) = some (x, []))
    (hw : ∀ kek ek, env.wrap kek cek = .ok ek → env.unwrap kek ek = .ok cek) :
    k.rid = some (.iss is.1 is.2) ∧ kemCek env (wireKemri env k) c (some s) true false = .ok cek := by
  unfold buildKemri ridOr buildRid at h
  dsimp only at h
  cases hwn : wrapByName ({} : KemOpts).wrap with
  | error e => rw [hwn] at h; cases h
  | ok y =>
    obtain ⟨w, len⟩ := y
    rw [hwn] at h
    dsimp only at h
    obtain ⟨m, hm, rfl⟩ := wrapByName_alg hwn
    have hl : kekLenOr ({} : KemOpts) m = m := rfl
    rw [hl] at h
    cases hke : kemEncaps env key rnd none with
    | error e => rw [hke] at h; cases h
    | ok y =>
      obtain ⟨ss, ct, ko⟩ := y
      rw [hke] at h
      dsimp only at h
      obtain ⟨hen, hpo⟩ := kemEncaps_plain env hr hke
      cases hpk : prepKdf salt ({} : KemOpts).kdf ({} : KemOpts).hash with
      | error e => rw [hpk] at h; cases h
      | ok y =>
        obtain ⟨kd, kp⟩ := y
        rw [hpk] at h
        dsimp only at h
        unfold kemWrap at h
        dsimp only at h
        cases hkd : kdfOf env.toEnv kd kp ss (env.encOther ⟨w, none⟩ m none) m with
        | error e => rw [hkd] at h; cases h
        | ok kek =>
          rw [hkd] at h
          dsimp only at h
          cases hek : env.wrap kek cek with
          | error e => rw [hek] at h; cases h
          | ok ek =>
            rw [hek] at h
            cases h
            refine ⟨rfl, ?_⟩
            obtain ⟨p1, p2, p3⟩ := prepKdf_shape (by decide) hpk
            unfold kemCek
            rw [if_neg (by simp)]
            rw [(checkKemri_iff env _ c s true false
              ⟨ct, kd, wireKdfPar env kp, ⟨w, none⟩, m, ek, none⟩).mpr
              ⟨.iss is.1 is.2, ko, m, rfl, rfl, nofun, rfl, hok ko hpo,
                fun _ => by rw [hoid, hpo], rfl, rfl, p2, rfl, hm, rfl, rfl, rfl, rfl⟩]
            dsimp only
            rw [(kemShared_iff env s _ m rfl ss).mpr (.kem hr' (hd ss ct hen))]
            dsimp only
            have : kdfOf env.toEnv kd (wireKdfPar env kp) ss (env.encOther ⟨w, none⟩ m none) m = .ok kek := by
              rcases p3 with ⟨ho, rfl⟩ | ⟨rfl, hs⟩
              · exact kdfOf_sent env.toEnv kd (.hash ho) _ ss _ m kek p1 ⟨_, rfl, hal ho⟩ (Or.inl ⟨ho, rfl⟩) hkd
              · exact kdfOf_sent env.toEnv kd .absent _ ss _ m kek p1 trivial (Or.inr hs) hkd
            rw [this]
            exact hw _ _ hek

/-- What the CA sends, opened: the version, the number and the name. -/
theorem buildPopdecc_ok {pe : PopEnv S K C N} {x448 : K → Bool} {gen : S} {ca : ChalArgs S C N} {q : ChalReq K} {k : K}
    {r : ChalRand} {m : ChalMsg} {n : Int} (h : buildPopdecc pe x448 gen ca q r = .ok (m, n)) (hk : q.key = .ok k) :
    n = orInt ca.num r.draw ∧ m.pvno = orInt (some q.pvno) (orInt ca.forPvno q.pvno) ∧
    chalFor pe x448 gen ca k (orInt ca.num r.draw) (orInt ca.reqId q.id) (orInt ca.forPvno q.pvno) r =
      .ok (m.chal, m.info) := by
  unfold buildPopdecc at h
  split at h
  · cases h
  · rw [hk] at h
    dsimp only at h
    cases hc : chalFor pe x448 gen ca k (orInt ca.num r.draw) (orInt ca.reqId q.id) (orInt ca.forPvno q.pvno) r with
    | error e => rw [hc] at h; cases h
    | ok y =>
      obtain ⟨c, i⟩ := y
      rw [hc] at h
      cases h
      exact ⟨rfl, rfl, rfl⟩

/-- The name that the CA puts into an encrypted number: the subject of its certificate, else the given name. -/
inductive EncName (pe : PopEnv S K C N) (ca : ChalArgs S C N) : N → Prop
  | cert {c : C} : ca.cert = some c → EncName pe ca (pe.subjectOf c)
  | given {x : N} : ca.cert = none → ca.sender = some x → EncName pe ca x

/-- The client takes one challenge, and the name in it is the expected one, if it expects one. -/
structure Expects (pe : PopEnv S K C N) (a : PopArgs S C N) (named : N → Prop) : Prop where
  size : a.size = 1
  idx : a.idx = 0
  name : ∀ s x, named s → a.sender = some x → pe.sameName s x = true

theorem enc_built {pe : PopEnv S K C N} {x448 : K → Bool} {gen : S} {ca : ChalArgs S C N} {q : ChalReq K} {k : K}
    {r : ChalRand} {m : ChalMsg} {n : Int} (h : buildPopdecc pe x448 gen ca q r = .ok (m, n)) (hk : q.key = .ok k)
    (hv : q.pvno = 3) (hv' : ca.forPvno = none ∨ ca.forPvno = some 3) (hch : ca.chal.read = .ok []) :
    m.pvno = 3 ∧ ∃ nm e, EncName pe ca nm ∧ m.chal.enc = some e ∧ m.chal.chal = [] ∧
      buildExchange pe.toKEnv x448 k (pe.encRand (n, nm)) ca.caKey gen none r.cek
        (some ([0x30, 0x00], orInt ca.reqId q.id)) true (some [1, 2, 840, 113549, 1, 7, 1]) r.rd = .ok e := by
  obtain ⟨h1, h2, h3⟩ := buildPopdecc_ok h hk
  have hv3 : orInt ca.forPvno q.pvno = 3 := by
    rcases hv' with h' | h' <;> rw [h', hv] <;> rfl
  refine ⟨by rw [h2, hv]; rfl, ?_⟩
  rw [hv3] at h3
  unfold chalFor at h3
  rw [if_pos rfl, ← h1] at h3
  cases hc : chalEnc pe x448 gen ca k n (orInt ca.reqId q.id) r with
  | error e => rw [hc] at h3; cases h3
  | ok c =>
    rw [hc] at h3
    have hcm : c = m.chal := by injection h3 with h3; exact congrArg Prod.fst h3
    subst hcm
    unfold chalEnc at hc
    cases hp : prepRand pe ca.sender (some n) r.draw ca.cert with
    | error e => rw [hp] at hc; cases hc
    | ok rand =>
      rw [hp] at hc
      dsimp only at hc
      have hnm : ∃ nm, rand = (n, nm) ∧ EncName pe ca nm := by
        unfold prepRand at hp
        cases hcc : ca.cert with
        | some c0 =>
          rw [hcc] at hp
          cases hp
          exact ⟨_, rfl, .cert hcc⟩
        | none =>
          rw [hcc] at hp
          cases hss : ca.sender with
          | none => rw [hss] at hp; cases hp
          | some x =>
            rw [hss] at hp
            cases hp
            exact ⟨_, rfl, .given hcc hss⟩
      obtain ⟨nm, rfl, hnm⟩ := hnm
      cases hb : buildExchange pe.toKEnv x448 k (pe.encRand (n, nm)) ca.caKey gen none r.cek
          (some (nullDn, orInt ca.reqId q.id)) true (some idData) r.rd with
      | error e => rw [hb] at hc; cases hc
      | ok e =>
        rw [hb] at hc
        dsimp only at hc
        cases hw : prepWitness pe ca.hash n ca.bad r.witness with
        | error e => rw [hw] at hc; cases hc
        | ok y =>
          obtain ⟨o, w⟩ := y
          rw [hw, hch] at hc
          cases hc' : m.chal with
          | mk o' w' b' e' =>
            rw [hc'] at hc
            cases hc
            exact ⟨nm, e, hnm, rfl, rfl, hb⟩

/-- A client that gets the enveloped number answers with it. -/
theorem enc_answer {pe : PopEnv S K C N} {a : PopArgs S C N} {m : ChalMsg} {msg : Msg C} {e : EnvData} {ri : Ri} {n : Int}
    {nm : N} {named : N → Prop} (hx : Expects pe a named) (hre : pe.isRsa a.key = true → pe.isEcdh a.key = false)
    (hnm : named nm) (hv : m.pvno = 3) (he : m.chal.enc = some e) (hc : m.chal.chal = [])
    (hri : (wire pe.toKEnv e).infos[a.recip]? = some ri) (hrid : PopRid pe.toKEnv a.reqId ri)
    (ho : openEnv pe.toKEnv (popOpen a (m.sent pe.toKEnv msg)) (wire pe.toKEnv e) = .ok (pe.encRand (n, nm)))
    (hd : ∀ x, pe.decRand (pe.encRand x) = some (x, [])) : popAnswer pe a (m.sent pe.toKEnv msg) = .ok [n] := by
  refine (C169_iff pe a _ _ hre).2 ⟨_, { m.chal with enc := m.chal.enc.map (wire pe.toKEnv) }, n, nm, rfl, ?_, ?_, .inl ⟨hv, ?_, ?_⟩, .enc (e := wire pe.toKEnv e) ?_ hri hrid ho
    (hd _), fun x => hx.name nm x hnm, rfl⟩
  · rw [hx.size]; rfl
  · rw [hx.idx]; rfl
  · exact ⟨_, List.mem_singleton.2 rfl, by rw [he]; nofun⟩
  · intro c hcm
    rw [List.mem_singleton.1 hcm]
    exact hc
  · rw [he]; rfl

/-- **C169 (version 3, RSA).** The holder of the RSA key answers with the number that the CA expects. -/
theorem C169_rsa {pe : PopEnv S K C N} {x448 : K → Bool} {gen : S} {ca : ChalArgs S C N} {q : ChalReq K} {k : K}
    {r : ChalRand} {m : ChalMsg} {n : Int} {a : PopArgs S C N} (msg : Msg C)
    (h : buildPopdecc pe x448 gen ca q r = .ok (m, n)) (hk : q.key = .ok k) (hv : q.pvno = 3)
    (hv' : ca.forPvno = none ∨ ca.forPvno = some 3) (hch : ca.chal.read = .ok []) (hx : Expects pe a (EncName pe ca))
    (hid : a.reqId = orInt ca.reqId q.id) (hr0 : a.recip = 0) (hr1 : a.recips = 1)
    (hd : ∀ x, pe.decRand (pe.encRand x) = some (x, []))
    (hlen : r.cek.length = 16 ∨ r.cek.length = 24 ∨ r.cek.length = 32)
    (hiv : pe.decIv (pe.encIv r.rd.iv) = some (r.rd.iv, []))
    (hc : ∀ d c, pe.cbcEnc r.cek r.rd.iv (pad d) = .ok c → pe.cbcDec r.cek r.rd.iv c = .ok (pad d))
    (hpub : pe.isRsaPub k = true) (hrsa : pe.isRsa a.key = true) (hec : pe.isEcdh a.key = false)
    (hnx : pe.isX a.key = false)
    (hs : pe.special [2, 16, 840, 1, 101, 3, 4, 2, 1] = none) (hs' : pe.special [2, 16, 840, 1, 101, 3, 4, 2, 2] = none)
    (ho1 : ∀ x, pe.decOaep (pe.encOaep x) = some (x, [])) (ho2 : ∀ o, pe.decOid (pe.encOid o) = some (o, []))
    (henc : ∀ p x, pe.rsaEnc k p r.rd.rnd r.cek = .ok x → pe.rsaDec a.key p x = .ok r.cek) :
    popAnswer pe a (m.sent pe.toKEnv msg) = .ok [n] := by
  obtain ⟨g1, nm, e, g2, g3, g4, g5⟩ := enc_built h hk hv hv' hch
  unfold buildExchange exchangeRi at g5
  rw [if_pos hpub] at g5
  cases hb : buildKtri pe.toKEnv k none r.cek r.rd.rnd true (some ([0x30, 0x00], orInt ca.reqId q.id)) none with
  | error x => rw [hb] at g5; cases g5
  | ok kt =>
    rw [hb] at g5
    obtain ⟨p1, p2⟩ := ktri_pop pe.toKEnv (msg.certs[0]?) hb hs hs' ho1 ho2 hrsa henc
    have hin : e.infos = [.ktri kt] := by
      change buildEnv _ _ _ _ _ _ _ = _ at g5
      unfold buildEnv at g5
      split at g5
      · cases g5
      · cases g5; rfl
    refine enc_answer hx (fun _ => hec) g2 g1 g3 g4 (ri := .ktri kt) ?_ (.ktri (by rw [p1, hid])) ?_ hd
    · unfold wire
      rw [hin, hr0]
      rfl
    · refine C153_content_roundtrip pe.toKEnv (r := .ktri kt) g5 ?_ rfl hr1 rfl hlen hiv (hc _) rfl
      show asymExtract pe.toKEnv _ (.ktri kt) = .ok r.cek
      rw [asym_ok]
      cases hkc : a.kariCert with
      | some c => exact ⟨fun _ => rfl, a.key, some c, rfl, .given hkc, p2⟩
      | none => exact ⟨fun _ => rfl, a.key, none, rfl, .none hkc hnx, p2⟩

/-- **C169 (version 3, KEM).** The same for the holder of a KEM key. -/
theorem C169_kem {pe : PopEnv S K C N} {x448 : K → Bool} {gen : S} {ca : ChalArgs S C N} {q : ChalReq K} {k : K}
    {r : ChalRand} {m : ChalMsg} {n : Int} {a : PopArgs S C N} (msg : Msg C)
    (h : buildPopdecc pe x448 gen ca q r = .ok (m, n)) (hk : q.key = .ok k) (hv : q.pvno = 3)
    (hv' : ca.forPvno = none ∨ ca.forPvno = some 3) (hch : ca.chal.read = .ok []) (hx : Expects pe a (EncName pe ca))
    (hid : a.reqId = orInt ca.reqId q.id) (hr0 : a.recip = 0) (hr1 : a.recips = 1)
    (hd : ∀ x, pe.decRand (pe.encRand x) = some (x, []))
    (hlen : r.cek.length = 16 ∨ r.cek.length = 24 ∨ r.cek.length = 32)
    (hiv : pe.decIv (pe.encIv r.rd.iv) = some (r.rd.iv, []))
    (hc : ∀ d c, pe.cbcEnc r.cek r.rd.iv (pad d) = .ok c → pe.cbcDec r.cek r.rd.iv c = .ok (pad d))
    (hnr : pe.isRsaPub k = false) (hne : pe.isEcdhPub k = false) (hre : pe.isRsa a.key = true → pe.isEcdh a.key = false)
    (hr : pe.isRsaKemPub k = false) (hr' : pe.isRsaDecap a.key = false) (hoid : pe.kemOidE a.key = pe.kemOidPubE k)
    (hok : ∀ x, pe.kemOidPubE k = .ok x → pe.isKemOid x = true)
    (hen : ∀ ss ct, pe.encaps k .plain r.rd.rnd = .ok (ss, ct) → pe.decaps a.key .plain ct = .ok ss)
    (hal : ∀ x, pe.decAlg (pe.encHashAlg x) = some (x, []))
    (hw : ∀ kek ek, pe.wrap kek r.cek = .ok ek → pe.unwrap kek ek = .ok r.cek)
    (hde : ∀ k, pe.decKemri (pe.encKemri k) = some (wireKemri pe.toKEnv k, [])) :
    popAnswer pe a (m.sent pe.toKEnv msg) = .ok [n] := by
  obtain ⟨g1, nm, e, g2, g3, g4, g5⟩ := enc_built h hk hv hv' hch
  unfold buildExchange exchangeRi at g5
  rw [if_neg (by rw [hnr]; nofun), if_neg (by rw [hne]; nofun)] at g5
  by_cases hkp : pe.isKemPub k = true
  · rw [if_pos hkp] at g5
    cases hb : buildKemri pe.toKEnv k none r.cek r.rd.rnd r.rd.salt (some ([0x30, 0x00], orInt ca.reqId q.id)) none {} with
    | error x => rw [hb] at g5; cases g5
    | ok kt =>
      rw [hb] at g5
      obtain ⟨p1, p2⟩ := kemri_pop pe.toKEnv (msg.certs[0]?) hb hr hr' hoid hok hen hal hw
      have hin : e.infos = [.ori oriKemOid (.obj kt)] := by
        change buildEnv _ _ _ _ _ _ _ = _ at g5
        unfold buildEnv at g5
        split at g5
        · cases g5
        · cases g5; rfl
      refine enc_answer hx hre g2 g1 g3 g4 (ri := .ori [1, 2, 840, 113549, 1, 9, 16, 13, 3] (.raw (pe.encKemri kt))) ?_
        (.kem (hde kt) (by show kt.rid = _; rw [p1, hid])) ?_ hd
      · unfold wire
        rw [hin, hr0]
        rfl
      · refine C153_content_roundtrip pe.toKEnv (r := .ori oriKemOid (.obj kt)) g5 ?_ rfl hr1 rfl hlen hiv (hc _) rfl
        exact (C152_ori pe.toKEnv (hde kt) p2).2.1
  · rw [if_neg hkp] at g5
    cases g5

/-- **C169 (version 3, EC).** The same for the holder of an EC, X25519 or X448 key: the certificate with the key of the CA is
given, or it is the first of the message. -/
theorem C169_ec {pe : PopEnv S K C N} {x448 : K → Bool} {gen : S} {ca : ChalArgs S C N} {q : ChalReq K} {k k' : K} {kc : C}
    {r : ChalRand} {m : ChalMsg} {n : Int} {a : PopArgs S C N} {sca : S} (msg : Msg C) (hne : ∀ n x, pe.H n x ≠ [])
    (h : buildPopdecc pe x448 gen ca q r = .ok (m, n)) (hk : q.key = .ok k) (hv : q.pvno = 3)
    (hv' : ca.forPvno = none ∨ ca.forPvno = some 3) (hch : ca.chal.read = .ok []) (hx : Expects pe a (EncName pe ca))
    (hid : a.reqId = orInt ca.reqId q.id) (hr0 : a.recip = 0) (hr1 : a.recips = 1)
    (hd : ∀ x, pe.decRand (pe.encRand x) = some (x, []))
    (hlen : r.cek.length = 16 ∨ r.cek.length = 24 ∨ r.cek.length = 32)
    (hiv : pe.decIv (pe.encIv r.rd.iv) = some (r.rd.iv, []))
    (hc : ∀ d c, pe.cbcEnc r.cek r.rd.iv (pad d) = .ok c → pe.cbcDec r.cek r.rd.iv c = .ok (pad d))
    (hnr : pe.isRsaPub k = false) (hec : pe.isEcdhPub k = true) (hrs : pe.isRsa a.key = false)
    (hs : pe.isEcdh a.key = true) (hca : ca.caKey = some sca)
    (hwa : ∀ w, pe.decWrapAlg (pe.encWrapAlg w) = some (w, []))
    (hw : ∀ kek ek, pe.wrap kek r.cek = .ok ek → pe.unwrap kek ek = .ok r.cek)
    (hkc : a.kariCert = some kc ∨ a.kariCert = none ∧ msg.certs[0]? = some kc) (hkk : pe.keyOf kc = .ok k')
    (hkp : pe.isEcdhPub k' = true) (hkx : pe.isX a.key = true → pe.isXPub k' = true)
    (hdh : pe.dh a.key k' false = pe.dh sca k false) :
    popAnswer pe a (m.sent pe.toKEnv msg) = .ok [n] := by
  obtain ⟨g1, nm, e, g2, g3, g4, g5⟩ := enc_built h hk hv hv' hch
  unfold buildExchange exchangeRi at g5
  rw [if_neg (by rw [hnr]; nofun), if_pos hec, hca] at g5
  dsimp only at g5
  by_cases hse : pe.isEcdh sca = true
  · rw [if_pos hse] at g5
    cases hb : buildKari pe.toKEnv x448 k sca gen r.cek r.rd.ukm none (some ([0x30, 0x00], orInt ca.reqId q.id)) none none {} with
    | error x => rw [hb] at g5; cases g5
    | ok kt =>
      rw [hb] at g5
      have hin : e.infos = [.kari kt] := by
        change buildEnv _ _ _ _ _ _ _ = _ at g5
        unfold buildEnv at g5
        split at g5
        · cases g5
        · cases g5; rfl
      have hex : ∃ x, KaCert pe.toKEnv (popOpen a (m.sent pe.toKEnv msg)) a.key x ∧
          (x = some kc ∨ x = none ∧ msg.certs[0]? = some kc) := by
        rcases hkc with h1 | ⟨h1, h2⟩
        · exact ⟨some kc, .given h1, .inl rfl⟩
        · by_cases hxx : pe.isX a.key = true
          · cases hm : msg.certs with
            | nil => rw [hm] at h2; cases h2
            | cons c cs =>
              rw [hm] at h2
              cases h2
              exact ⟨some kc, .first (m := msg) h1 hxx rfl hm hkk (hkx hxx), .inl rfl⟩
          · exact ⟨none, .none h1 (by simpa using hxx), .inr ⟨rfl, h2⟩⟩
      obtain ⟨x, hx1, hx2⟩ := hex
      obtain ⟨⟨ek, p1⟩, p2⟩ := kari_pop pe.toKEnv (msg.certs[0]?) hne hb hwa hw hs hx2 hkk hkp hdh
      refine enc_answer hx (fun h => by rw [hrs] at h; cases h) g2 g1 g3 g4 (ri := .kari kt) ?_
        (.kari (ek := ek) (l := []) (by rw [p1, hid])) ?_ hd
      · unfold wire
        rw [hin, hr0]
        rfl
      · refine C153_content_roundtrip pe.toKEnv (r := .kari kt) g5 ?_ rfl hr1 rfl hlen hiv (hc _) rfl
        show asymExtract pe.toKEnv _ (.kari kt) = .ok r.cek
        rw [asym_ok]
        exact ⟨fun _ => rfl, a.key, x, rfl, hx1, p2⟩
  · rw [if_neg hse] at g5
    cases g5

theorem plain_built {pe : PopEnv S K C N} {x448 : K → Bool} {gen : S} {ca : ChalArgs S C N} {q : ChalReq K} {k : K}
    {r : ChalRand} {m : ChalMsg} {n : Int} (h : buildPopdecc pe x448 gen ca q r = .ok (m, n)) (hk : q.key = .ok k)
    (hv : q.pvno = 2) (hv' : ca.forPvno = none ∨ ca.forPvno = some 2) :
    m.pvno = 2 ∧ ∃ nm, ca.sender = some nm ∧ m.chal.enc = none ∧
      encChal pe k ca.caKey (pe.encRand (n, nm)) ca.iv r.rd.rnd = .ok (m.chal.chal, m.info) := by
  obtain ⟨h1, h2, h3⟩ := buildPopdecc_ok h hk
  have hv3 : orInt ca.forPvno q.pvno = 2 := by
    rcases hv' with h' | h' <;> rw [h', hv] <;> rfl
  refine ⟨by rw [h2, hv]; rfl, ?_⟩
  rw [hv3] at h3
  unfold chalFor at h3
  rw [if_neg (by decide), ← h1] at h3
  unfold chalPlain prepRand at h3
  cases hs : ca.sender with
  | none => rw [hs] at h3; cases h3
  | some nm =>
    rw [hs] at h3
    dsimp only [Option.getD] at h3
    cases hw : prepWitness pe ca.hash n ca.bad r.witness with
    | error e => rw [hw] at h3; cases h3
    | ok y =>
      obtain ⟨o, w⟩ := y
      rw [hw] at h3
      dsimp only at h3
      cases he : encChal pe k ca.caKey (pe.encRand (n, nm)) ca.iv r.rd.rnd with
      | error e => rw [he] at h3; cases h3
      | ok y =>
        obtain ⟨b, i⟩ := y
        rw [he] at h3
        injection h3 with h3
        have e1 : m.chal = ⟨o, w, b, none⟩ := (congrArg Prod.fst h3).symm
        have e2 : m.info = i := (congrArg Prod.snd h3).symm
        rw [e1, e2]
        exact ⟨nm, rfl, rfl, he⟩

theorem plain_answer {pe : PopEnv S K C N} {a : PopArgs S C N} {m : ChalMsg} {msg : Msg C} {n : Int}
    {nm : N} {named : N → Prop} (hx : Expects pe a named) (hre : pe.isRsa a.key = true → pe.isEcdh a.key = false)
    (hnm : named nm) (hv : m.pvno = 2) (he : m.chal.enc = none)
    (ho : PopRandIn pe a (m.sent pe.toKEnv msg) { m.chal with enc := none } (n, nm)) :
    popAnswer pe a (m.sent pe.toKEnv msg) = .ok [n] := by
  refine (C169_iff pe a _ _ hre).2 ⟨_, _, n, nm, rfl, ?_, ?_, .inr ⟨hv, ?_⟩, ho, fun x => hx.name nm x hnm, rfl⟩
  · rw [hx.size]; rfl
  · rw [hx.idx, he]; rfl
  · intro c hcm
    rw [List.mem_singleton.1 hcm, he]
    rfl

/-- **C169 (version 2, RSA).** The holder of the RSA key answers with the number that the CA expects. -/
theorem C169_plain_rsa {pe : PopEnv S K C N} {x448 : K → Bool} {gen : S} {ca : ChalArgs S C N} {q : ChalReq K} {k : K}
    {r : ChalRand} {m : ChalMsg} {n : Int} {a : PopArgs S C N} (msg : Msg C)
    (h : buildPopdecc pe x448 gen ca q r = .ok (m, n)) (hk : q.key = .ok k) (hv : q.pvno = 2)
    (hv' : ca.forPvno = none ∨ ca.forPvno = some 2) (hx : Expects pe a (fun s => ca.sender = some s))
    (hd : ∀ x, pe.decRand (pe.encRand x) = some (x, [])) (hpub : pe.isRsaPub k = true) (hrsa : pe.isRsa a.key = true)
    (hec : pe.isEcdh a.key = false)
    (henc : ∀ d x, pe.rsaEnc k .pkcs1 r.rd.rnd d = .ok x → pe.rsaDec a.key .pkcs1 x = .ok d) :
    popAnswer pe a (m.sent pe.toKEnv msg) = .ok [n] := by
  obtain ⟨g1, nm, g2, g3, g4⟩ := plain_built h hk hv hv'
  unfold encChal at g4
  rw [if_pos hpub] at g4
  cases he : pe.rsaEnc k .pkcs1 r.rd.rnd (pe.encRand (n, nm)) with
  | error e => rw [he] at g4; cases g4
  | ok b =>
    rw [he] at g4
    injection g4 with g4
    have e1 : m.chal.chal = b := (congrArg Prod.fst g4).symm
    exact plain_answer hx (fun _ => hec) g2 g1 g3 (.rsa rfl hrsa (by rw [e1]; exact henc _ _ he) (hd _))

/-- **C169 (version 2, Diffie-Hellman).** The same for the holder of an EC, X25519 or X448 key that finds the key of the CA. -/
theorem C169_plain_dh {pe : PopEnv S K C N} {x448 : K → Bool} {gen : S} {ca : ChalArgs S C N} {q : ChalReq K} {k k' : K}
    {r : ChalRand} {m : ChalMsg} {n : Int} {a : PopArgs S C N} {sca : S} (msg : Msg C)
    (h : buildPopdecc pe x448 gen ca q r = .ok (m, n)) (hk : q.key = .ok k) (hv : q.pvno = 2)
    (hv' : ca.forPvno = none ∨ ca.forPvno = some 2) (hx : Expects pe a (fun s => ca.sender = some s))
    (hd : ∀ x, pe.decRand (pe.encRand x) = some (x, [])) (hnr : pe.isRsaPub k = false) (hec : pe.isEcdhPub k = true)
    (hrs : pe.isRsa a.key = false) (hs : pe.isEcdh a.key = true) (hca : ca.caKey = some sca) (hiv : a.iv = ca.iv)
    (hkc : PopCaKey pe a (m.sent pe.toKEnv msg) k') (hdh : pe.dh a.key k' false = pe.dh sca k false)
    (hc : ∀ ss d c, pe.cbcEnc ss ca.iv (pad d) = .ok c → pe.cbcDec ss ca.iv c = .ok (pad d)) :
    popAnswer pe a (m.sent pe.toKEnv msg) = .ok [n] := by
  obtain ⟨g1, nm, g2, g3, g4⟩ := plain_built h hk hv hv'
  unfold encChal at g4
  rw [if_neg (by rw [hnr]; nofun), if_pos hec, hca] at g4
  dsimp only at g4
  by_cases hse : pe.isEcdh sca = true
  · rw [if_pos hse] at g4
    unfold ecdhOn at g4
    rw [if_neg (by simp)] at g4
    cases hz : pe.dh sca k false with
    | error e => rw [hz] at g4; cases g4
    | ok z =>
      rw [hz] at g4
      dsimp only at g4
      cases hss : dhKey pe.toMacEnv z 32 "sha256" with
      | error e => rw [hss] at g4; cases g4
      | ok ss =>
        rw [hss] at g4
        dsimp only at g4
        unfold aesEnc at g4
        by_cases hl : ca.iv.length = 16
        · rw [if_neg (not_not_intro hl)] at g4
          cases he : pe.cbcEnc ss ca.iv (pad (pe.encRand (n, nm))) with
          | error e => rw [he] at g4; cases g4
          | ok b =>
            rw [he] at g4
            injection g4 with g4
            have e1 : m.chal.chal = b := (congrArg Prod.fst g4).symm
            refine plain_answer hx (fun h => by rw [hrs] at h; cases h) g2 g1 g3
              (.dh rfl hrs hs hkc (hdh.trans hz) hss (d := pe.encRand (n, nm)) ?_ (hd _))
            unfold aesDec
            rw [hiv, if_neg (not_not_intro hl), e1, hc _ _ _ he]
            exact padded_unpad (pad_padded _)
        · rw [if_pos hl] at g4; cases g4
  · rw [if_neg hse] at g4; cases g4

end Verif.Env
