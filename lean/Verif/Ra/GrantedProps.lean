import Verif.Check.TemplateProps
import Verif.Prot.MatchRefuted
import Verif.Prot.SigMatchProps
import Verif.Ra.Granted
import Verif.Ra.StatusProps

/-!
# Theorems on the checks of modified certificates and of a `pkiConf`
-/

namespace Verif.Ra

open Verif.CA (PyErr)
open Verif.Check (Templ Spki DName compareTemplate Agrees C117_all C117_total exCert loadId)

variable {A G T S K C : Type}

/-- The responses of a message with certificates for an initialization, a certification or an update. -/
inductive Responds : SBody C → List (CResp C) → Prop
  | ip (l) : Responds (.ip l) l
  | cp (l) : Responds (.cp l) l
  | kup (l) : Responds (.kup l) l

private theorem name_responds (b : SBody C) (h : ∀ n, b ≠ .other n) :
    (b.name = "ip".toList ∨ b.name = "cp".toList ∨ b.name = "kup".toList) ↔ ∃ l, Responds b l := by
  constructor
  · intro hn
    cases b with
    | ip l => exact ⟨l, .ip l⟩
    | cp l => exact ⟨l, .cp l⟩
    | kup l => exact ⟨l, .kup l⟩
    | other n => exact absurd rfl (h n)
    | error i => exact absurd (show "error".toList = _ ∨ "error".toList = _ ∨ "error".toList = _ from hn) (by decide +kernel)
    | rp i => exact absurd (show "rp".toList = _ ∨ "rp".toList = _ ∨ "rp".toList = _ from hn) (by decide +kernel)
    | ccp i => exact absurd (show "ccp".toList = _ ∨ "ccp".toList = _ ∨ "ccp".toList = _ from hn) (by decide +kernel)
    | certConf i => exact absurd (show "certConf".toList = _ ∨ "certConf".toList = _ ∨ "certConf".toList = _ from hn) (by decide +kernel)
    | krp i => exact absurd (show "krp".toList = _ ∨ "krp".toList = _ ∨ "krp".toList = _ from hn) (by decide +kernel)
  · rintro ⟨l, hl⟩
    cases hl
    · exact .inl rfl
    · exact .inr (.inl rfl)
    · exact .inr (.inr rfl)

private theorem cert_responds {b : SBody C} {l : List (CResp C)} (h : Responds b l) (c : C) :
    getCert b 0 = .ok c ↔ ∃ r l', l = r :: l' ∧ r.pair = some (.cert c) := by
  have key : ∀ b : SBody C, Responds b l → getCert b 0 = (match (entryResp l 0).pair with
      | some (.cert c) => (.ok c : Except PyErr C)
      | _ => .error .valueError) := by
    intro b hb
    cases hb <;> rfl
  rw [key b h]
  cases l with
  | nil => simp [entryResp]
  | cons r l' =>
    have e : entryResp (r :: l') 0 = r := rfl
    rw [e]
    constructor
    · intro h
      split at h
      · rename_i x hx
        cases h
        exact ⟨r, l', rfl, hx⟩
      · cases h
    · rintro ⟨r', l'', e1, e2⟩
      cases e1
      rw [e2]

private theorem info_responds {b : SBody C} {r : CResp C} {l : List (CResp C)} (h : Responds b (r :: l)) :
    getInfo b 0 = .ok r.info := by
  cases h <;> rfl

section
variable [DecidableEq A] [DecidableEq G] [DecidableEq T]

/-- The check of the first entry passes exactly if the certificate has everything the template asks for, or the status says
that it was modified. -/
theorem C232_first_iff (load : Spki G → Except PyErr (Spki G)) (hl : ∀ k e, load k ≠ .error e) (req : List Char)
    (t : Templ A G T) (ts : List (Templ A G T)) (b : SBody (Check.Cert A G T)) (hb : ∀ n, b ≠ .other n) (strict : Bool) :
    checkMods load req (t :: ts) b 0 none none strict = .ok () ↔
      (req = "cr".toList ∨ req = "ir".toList ∨ req = "kur".toList) ∧
      ∃ r l c, Responds b (r :: l) ∧ r.pair = some (.cert c) ∧
        (Agrees load (fun _ => True) strict t c ∨ r.info.status = some 1) := by
  unfold checkMods
  by_cases h1 : b.name = "ip".toList ∨ b.name = "cp".toList ∨ b.name = "kup".toList
  · obtain ⟨l, hr⟩ := (name_responds b hb).1 h1
    rw [if_neg (not_not_intro h1)]
    by_cases h2 : req = "cr".toList ∨ req = "ir".toList ∨ req = "kur".toList
    · rw [if_neg (not_not_intro h2)]
      have e : ((t :: ts)[0]?.getD {}) = t := rfl
      rw [e]
      unfold modsCompare
      constructor
      · intro h
        cases hc : getCert b 0 with
        | error e => rw [hc] at h; cases h
        | ok c =>
          rw [hc] at h
          dsimp only at h
          obtain ⟨r, l', e1, e2⟩ := (cert_responds hr c).1 hc
          subst e1
          refine ⟨h2, r, l', c, hr, e2, ?_⟩
          cases hq : compareTemplate load t c none none strict with
          | error e => exact absurd (C117_total load t c none none strict e hq).1 (hl _ _)
          | ok x =>
            cases x with
            | true => exact .inl ((C117_all load t c strict).1 hq)
            | false =>
              rw [hq] at h
              dsimp only at h
              unfold modsStatus at h
              rw [info_responds hr] at h
              dsimp only at h
              cases hs : r.info.status with
              | none => rw [hs] at h; cases h
              | some n =>
                rw [hs] at h
                dsimp only at h
                by_cases hn : n = 1
                · exact .inr (by rw [hn])
                · rw [if_neg hn] at h; cases h
      · rintro ⟨_, r, l', c, hr', hp, ho⟩
        rw [(cert_responds hr' c).2 ⟨r, l', rfl, hp⟩]
        dsimp only
        cases hq : compareTemplate load t c none none strict with
        | error e => exact absurd (C117_total load t c none none strict e hq).1 (hl _ _)
        | ok x =>
          cases x with
          | true => rfl
          | false =>
            dsimp only
            unfold modsStatus
            rw [info_responds hr']
            dsimp only
            rcases ho with ho | ho
            · rw [(C117_all load t c strict).2 ho] at hq
              cases hq
            · rw [ho]
              rfl
    · rw [if_pos h2]
      constructor
      · intro h; cases h
      · rintro ⟨h, _⟩; exact absurd h h2
  · rw [if_pos h1]
    constructor
    · intro h; cases h
    · rintro ⟨_, r, l, c, hr, _⟩
      exact absurd ((name_responds b hb).2 ⟨_, hr⟩) h1

/-- The check of an entry the request does not have passes, if the first response has a certificate. -/
theorem C232_missing_refuted (load : Spki G → Except PyErr (Spki G)) (ts : List (Templ A G T)) (i : Nat)
    (hi : ts.length ≤ i) (r : CResp (Check.Cert A G T)) (c : Check.Cert A G T) (hr : r.pair = some (.cert c))
    (l : List (CResp (Check.Cert A G T))) : checkMods load "cr".toList ts (.cp (r :: l)) i = .ok () := by
  unfold checkMods
  rw [if_neg (not_not_intro (.inr (.inl rfl))), if_neg (not_not_intro (.inl rfl)), List.getElem?_eq_none hi]
  unfold modsCompare
  have e : getCert (SBody.cp (r :: l)) 0 = .ok c := (cert_responds (.cp _) c).2 ⟨r, l, rfl, hr⟩
  have a : compareTemplate load ({} : Templ A G T) c none none false = .ok true := by
    rw [C117_all]
    constructor <;> intros <;> simp_all
  rw [e]
  dsimp only [Option.getD]
  rw [a]

end

/-- The certificate with another subject. -/
def exOtherCert : Check.Cert Nat Nat Nat := { exCert with subject := ⟨0, [[8]]⟩ }

/-- An index is used for the request only: the second response is not looked at. Its modification without the status for it
is accepted, and if it is as asked for, it is refused. -/
theorem C232_index_refuted :
    ∃ (ts : List (Templ Nat Nat Nat)) (r1 r2 r2' : CResp (Check.Cert Nat Nat Nat)) (t : Templ Nat Nat Nat),
      ts[1]? = some t ∧
      r2.pair = some (.cert exOtherCert) ∧ ¬Agrees loadId (fun _ => True) false t exOtherCert ∧ r2.info.status = some 0 ∧
      checkMods loadId "cr".toList ts (.cp [r1, r2]) 1 = .ok () ∧
      ∃ (ts' : List (Templ Nat Nat Nat)) (t' : Templ Nat Nat Nat), ts'[1]? = some t' ∧ r2'.pair = some (.cert exOtherCert) ∧
        Agrees loadId (fun _ => True) false t' exOtherCert ∧ checkMods loadId "cr".toList ts' (.cp [r1, r2']) 1 = .error .valueError := by
  refine ⟨[{}, { subject := some ⟨0, [[5]]⟩ }], { info := { status := some 0 }, pair := some (.cert exCert) },
    { info := { status := some 0 }, pair := some (.cert exOtherCert) },
    { info := { status := some 0 }, pair := some (.cert exOtherCert) }, { subject := some ⟨0, [[5]]⟩ }, rfl, rfl, ?_, rfl,
    by decide +kernel, [{}, { subject := some ⟨0, [[8]]⟩ }], { subject := some ⟨0, [[8]]⟩ }, rfl, rfl, ?_, by decide +kernel⟩
  · rw [← C117_all]
    decide +kernel
  · rw [← C117_all]
    decide +kernel

/-- A requested extension with another value is not a modification for the check. -/
theorem C232_extension_refuted : ∃ (t : Templ Nat Nat Nat) (l : List Check.Ext) (e : Check.Ext) (r : CResp (Check.Cert Nat Nat Nat)),
    t.exts = some l ∧ e ∈ l ∧ e ∉ exCert.exts ∧ r.pair = some (.cert exCert) ∧ r.info.status = some 0 ∧
    checkMods loadId "cr".toList [t] (.cp [r]) = .ok () :=
  ⟨{ exts := some [⟨[2, 5, 29, 15], [2]⟩] }, [⟨[2, 5, 29, 15], [2]⟩], ⟨[2, 5, 29, 15], [2]⟩,
    { info := { status := some 0 }, pair := some (.cert exCert) }, rfl, by decide, by decide, rfl, rfl, by decide +kernel⟩

/-- A cross-certification and a PKCS#10 request cannot be checked. -/
theorem C232_bodies_refuted (load : Spki Nat → Except PyErr (Spki Nat)) (ts : List (Templ Nat Nat Nat))
    (b : SBody (Check.Cert Nat Nat Nat)) (l : List (CResp (Check.Cert Nat Nat Nat))) (i : Nat) :
    checkMods load "p10cr".toList ts b i = .error .valueError ∧ checkMods load "ccr".toList ts (.ccp l) i = .error .valueError := by
  constructor
  · unfold checkMods
    split
    · rfl
    · rfl
  · rfl

/-- A response with a modified subject needs the status. -/
example : checkMods loadId "cr".toList [{ subject := some ⟨0, [[5]]⟩ }]
      (.cp [{ info := { status := some 0 }, pair := some (.cert exOtherCert) }]) = .error .valueError ∧
    checkMods loadId "cr".toList [{ subject := some ⟨0, [[5]]⟩ }]
      (.cp [{ info := { status := some 1 }, pair := some (.cert exOtherCert) }]) = .ok () := by decide +kernel

/-! ## C233 -/

section
variable [DecidableEq C]

private theorem pkiConf_ok {env : Prot.Env S K C} {oth : Prot.Pbkdf2 → Prot.Pbkdf2 → Bool}
    {chain : C → List C → Except PyErr (List C)} {cn an : String} {conf ca : Prot.Msg C} {q : Option (Prot.Msg C)} {al : Bool} :
    checkPkiConf env oth chain cn an conf ca q al = .ok () ↔
      cn = "pkiconf" ∧ (conf.certs ≠ [] ∨ al = true) ∧ (an = "ip" ∨ an = "cp" ∨ an = "rp" ∨ an = "kup") ∧
      ∃ t, Prot.msgType env (q.getD ca) false = .ok t ∧ confProt env oth chain t ca conf q = .ok () := by
  unfold checkPkiConf
  by_cases h1 : cn ≠ "pkiconf"
  · rw [if_pos h1]
    exact ⟨fun h => (by cases h), fun h => absurd h.1 h1⟩
  rw [if_neg h1]
  by_cases h2 : conf.certs = [] ∧ al = false
  · rw [if_pos h2]
    refine ⟨fun h => (by cases h), fun h => ?_⟩
    rcases h.2.1 with h | h
    · exact absurd h2.1 h
    · rw [h2.2] at h; cases h
  rw [if_neg h2]
  have h2' : conf.certs ≠ [] ∨ al = true := by
    by_cases h : conf.certs = []
    · refine .inr ?_
      cases al with
      | true => rfl
      | false => exact absurd ⟨h, rfl⟩ h2
    · exact .inl h
  by_cases h3 : an = "ip" ∨ an = "cp" ∨ an = "rp" ∨ an = "kup"
  · rw [if_neg (not_not_intro h3)]
    cases ht : Prot.msgType env (q.getD ca) false with
    | error e =>
      refine ⟨fun h => (by cases h), fun h => ?_⟩
      obtain ⟨_, _, _, t, h, _⟩ := h
      cases h
    | ok t =>
      refine ⟨fun h => ⟨Decidable.not_not.1 h1, h2', h3, t, rfl, h⟩, fun h => ?_⟩
      obtain ⟨_, _, _, t', h, h'⟩ := h
      cases h
      exact h'
  · rw [if_pos h3]
    exact ⟨fun h => (by cases h), fun h => absurd h.2.2.1 h3⟩

/-- A `pkiConf` in a transaction with signatures is accepted exactly if it and the response are signed with the key of the
first certificate of the response, with the same algorithm and with the same chain, if it has one. -/
theorem C233_sig_iff (env : Prot.Env S K C) (oth : Prot.Pbkdf2 → Prot.Pbkdf2 → Bool)
    (chain : C → List C → Except PyErr (List C)) (cn an : String) (conf ca : Prot.Msg C) (q : Option (Prot.Msg C)) (al : Bool)
    (t : Prot.ProtType) (ht : Prot.msgType env (q.getD ca) false = .ok t) (hm : t ≠ .mac) (o : Prot.Oid) (par : Prot.Par)
    (ha : ca.hdr.alg = some ⟨o, par⟩) (ho : o ∈ Prot.tradOids) (hs : env.special o = none)
    (hk : ∀ k, env.isCompositePub k = false) :
    checkPkiConf env oth chain cn an conf ca q al = .ok () ↔
      cn = "pkiconf" ∧ (conf.certs ≠ [] ∨ al = true) ∧ (an = "ip" ∨ an = "cp" ∨ an = "rp" ∨ an = "kup") ∧
      ∃ c rest h k l, ca.certs = c :: rest ∧ env.keyOf c = .ok k ∧ env.isVerifyKey k = true ∧ Prot.SigHash o h ∧
        (∀ m, m = ca ∨ m = conf → m.hdr.alg = some ⟨o, .absent⟩ ∧
          (∃ data p, Prot.protectedPart env.toMacEnv m = .ok data ∧ m.prot = some p ∧
            env.verify k (.plain h) data p = .ok ()) ∧ (m.certs ≠ [] → chain c m.certs = .ok l)) := by
  have e : confProt env oth chain t ca conf q = Prot.sigMatch env chain ca (some conf) none := if_neg hm
  have hc := Prot.C147_iff env chain ca (some conf) none o par ha ho hs hk
  rw [pkiConf_ok]
  constructor
  · rintro ⟨h1, h2, h3, t', h4, h5⟩
    rw [ht] at h4
    cases h4
    rw [e] at h5
    obtain ⟨c, rest, h, k, l, e1, _, e3, e4, e5, e6⟩ := hc.1 h5
    refine ⟨h1, h2, h3, c, rest, h, k, l, e1, e3, e4, e5, fun m hm => ?_⟩
    have := e6 m (by rcases hm with rfl | rfl <;> simp)
    exact this
  · rintro ⟨h1, h2, h3, c, rest, h, k, l, e1, e3, e4, e5, e6⟩
    refine ⟨h1, h2, h3, t, ht, ?_⟩
    rw [e]
    exact hc.2 ⟨c, rest, h, k, l, e1, .inl (by simp), e3, e4, e5, fun m hm => e6 m (by simpa using hm)⟩

/-- In a transaction with MACs nothing of the protection of the `pkiConf` is looked at. -/
theorem C233_mac_refuted (env : Prot.Env S K C) (oth : Prot.Pbkdf2 → Prot.Pbkdf2 → Bool)
    (chain : C → List C → Except PyErr (List C)) (an : String) (conf conf' ca q : Prot.Msg C)
    (ht : Prot.msgType env q false = .ok .mac) (h : checkPkiConf env oth chain "pkiconf" an conf ca (some q) = .ok ()) :
    checkPkiConf env oth chain "pkiconf" an conf' ca (some q) = .ok () := by
  obtain ⟨_, _, h3, t, h4, h5⟩ := pkiConf_ok.1 h
  have h4' : Prot.msgType env q false = .ok t := h4
  rw [ht] at h4'
  cases h4'
  refine pkiConf_ok.2 ⟨rfl, .inr rfl, h3, .mac, ht, ?_⟩
  unfold confProt at h5 ⊢
  rw [if_pos rfl] at h5 ⊢
  dsimp only at h5 ⊢
  rw [Prot.C146_conf_refuted.1] at h5 ⊢
  exact h5

/-- Without the request a transaction with MACs cannot be checked. -/
theorem C233_mac_request (env : Prot.Env S K C) (oth : Prot.Pbkdf2 → Prot.Pbkdf2 → Bool)
    (chain : C → List C → Except PyErr (List C)) (cn an : String) (conf ca : Prot.Msg C) (al : Bool)
    (ht : Prot.msgType env ca false = .ok .mac) : checkPkiConf env oth chain cn an conf ca none al ≠ .ok () := by
  intro h
  obtain ⟨_, _, _, t, h4, h5⟩ := pkiConf_ok.1 h
  have h4' : Prot.msgType env ca false = .ok t := h4
  rw [ht] at h4'
  cases h4'
  cases h5

/-- The confirmation after a cross-certification is refused. -/
theorem C233_cross_refuted (env : Prot.Env S K C) (oth : Prot.Pbkdf2 → Prot.Pbkdf2 → Bool)
    (chain : C → List C → Except PyErr (List C)) (conf ca : Prot.Msg C) (q : Option (Prot.Msg C)) (al : Bool) :
    checkPkiConf env oth chain "pkiconf" "ccp" conf ca q al ≠ .ok () := by
  intro h
  obtain ⟨_, _, h3, _⟩ := pkiConf_ok.1 h
  revert h3
  decide

end

/-- A response and a request with MACs, and a `pkiConf` without any protection. -/
example : checkPkiConf Prot.exMatch Prot.exOth (fun _ l => .ok l) "pkiconf" "cp"
      ⟨⟨[10], true, none, none, []⟩, some [12], none, []⟩ (Prot.exMatchMsg Prot.pbmOid (.raw [1, 8]))
      (some (Prot.exMatchMsg Prot.pbmOid (.pbm (Prot.exMatchPbm [7] (some [5, 0]))))) = .ok () ∧
    checkPkiConf Prot.exMatch Prot.exOth (fun _ l => .ok l) "pkiconf" "ccp"
      (Prot.exMatchMsg Prot.pbmOid (.raw [1, 9])) (Prot.exMatchMsg Prot.pbmOid (.raw [1, 8]))
      (some (Prot.exMatchMsg Prot.pbmOid (.pbm (Prot.exMatchPbm [7] (some [5, 0]))))) = .error .valueError ∧
    checkPkiConf Prot.exMatch Prot.exOth (fun _ l => .ok l) "pkiconf" "cp"
      (Prot.exMatchMsg Prot.pbmOid (.raw [1, 9])) (Prot.exMatchMsg Prot.pbmOid (.raw [1, 8])) none = .error .valueError := by
  decide +kernel

end Verif.Ra
