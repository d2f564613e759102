import Verif.Check.HelpersProps
import Verif.Check.TemplateProps
import Verif.Ra.Migration

/-!
# What the checks of cross-signed certificates and of migrated algorithms accept

C216: cross-signed CA certificates; C217: algorithm identifiers, key usages and names in the migration tests.
-/

namespace Verif.Ra

open Verif.CA Verif.Check Verif.Ra.Migration

section Cross

variable {A G T K : Type}

/-- Everything the check of a cross-signed certificate asks. -/
structure CrossOk (env : CrossEnv A G T K) (cross : Cert A G T) (t : Templ A G T) (ca : Cert A G T) : Prop where
  crossBasic : ∃ b, env.basic cross = .ok (some b)
  caBasic : ∃ b, env.basic ca = .ok (some b)
  notSelf : cross.subject.rdns ≠ cross.issuer.rdns
  notCa : cross.subject.rdns ≠ ca.subject.rdns
  ids : ∃ a b, env.ski cross = .ok (some a) ∧ env.ski ca = .ok (some b) ∧ a ≠ b
  aki : ∃ x, env.aki cross = .ok x
  signed : ∃ k, env.loadKey ca = .ok k ∧ env.verify cross k = .ok ()
  template : Agrees env.loadSpki (fun o => o ∉ ["extensions", "signingAlg", "issuer"]) false t cross
  exts : ∀ l, t.exts = some l → ∀ e ∈ l, e ∈ cross.exts

theorem mustBeCa_iff (env : CrossEnv A G T K) (c : Cert A G T) :
    mustBeCa env c = .ok () ↔ ∃ b, env.basic c = .ok (some b) := by
  unfold mustBeCa isCaCert
  cases env.basic c with
  | error e => simp
  | ok x => cases x <;> simp

theorem checkKeyIds_iff (env : CrossEnv A G T K) (c i : Cert A G T) :
    checkKeyIds env c i = .ok () ↔
      (∃ a b, env.ski c = .ok (some a) ∧ env.ski i = .ok (some b) ∧ a ≠ b) ∧ ∃ x, env.aki c = .ok x := by
  unfold checkKeyIds
  cases h1 : env.ski c with
  | error e => simp
  | ok sc =>
    cases h2 : env.ski i with
    | error e => simp
    | ok si =>
      cases h3 : env.aki c with
      | error e => simp
      | ok ak =>
        cases sc with
        | none => simp
        | some a =>
          cases si with
          | none => simp
          | some b =>
            dsimp only [bytesEqAki]
            by_cases hab : a = b
            · subst hab; simp
            · simp [hab]

theorem checkCrossSigned_iff [DecidableEq A] (env : CrossEnv A G T K) (c i : Cert A G T) :
    checkCrossSigned env c i = .ok () ↔
      (∃ b, env.basic c = .ok (some b)) ∧ (∃ b, env.basic i = .ok (some b)) ∧ c.subject.rdns ≠ c.issuer.rdns ∧
      c.subject.rdns ≠ i.subject.rdns ∧
      (∃ a b, env.ski c = .ok (some a) ∧ env.ski i = .ok (some b) ∧ a ≠ b) ∧ (∃ x, env.aki c = .ok x) ∧
      ∃ k, env.loadKey i = .ok k ∧ env.verify c k = .ok () := by
  unfold checkCrossSigned
  cases h1 : mustBeCa env c with
  | error e =>
    constructor
    · intro h; cases h
    · rintro ⟨h, _⟩; rw [(mustBeCa_iff env c).mpr h] at h1; cases h1
  | ok _ =>
    have h1' := (mustBeCa_iff env c).mp h1
    cases h2 : mustBeCa env i with
    | error e =>
      constructor
      · intro h; cases h
      · rintro ⟨_, h, _⟩; rw [(mustBeCa_iff env i).mpr h] at h2; cases h2
    | ok _ =>
      have h2' := (mustBeCa_iff env i).mp h2
      dsimp only
      by_cases h3 : c.subject.rdns = c.issuer.rdns
      · rw [if_pos (by unfold compareNames; exact decide_eq_true h3.symm)]
        constructor
        · intro h; cases h
        · rintro ⟨_, _, h, _⟩; exact absurd h3 h
      · rw [if_neg (by unfold compareNames; simpa using fun h => h3 h.symm)]
        by_cases h4 : c.subject.rdns = i.subject.rdns
        · rw [if_pos (by unfold compareNames; exact decide_eq_true h4.symm)]
          constructor
          · intro h; cases h
          · rintro ⟨_, _, _, h, _⟩; exact absurd h4 h
        · rw [if_neg (by unfold compareNames; simpa using fun h => h4 h.symm)]
          cases h5 : checkKeyIds env c i with
          | error e =>
            constructor
            · intro h; cases h
            · rintro ⟨_, _, _, _, h, h', _⟩; rw [(checkKeyIds_iff env c i).mpr ⟨h, h'⟩] at h5; cases h5
          | ok _ =>
            obtain ⟨h5', h6⟩ := (checkKeyIds_iff env c i).mp h5
            dsimp only
            cases h7 : env.loadKey i with
            | error e => simp
            | ok k =>
              constructor
              · intro h; exact ⟨h1', h2', h3, h4, h5', h6, k, rfl, h⟩
              · rintro ⟨_, _, _, _, _, _, k', hk, hv⟩
                injection hk with hk; subst hk; exact hv

theorem crossExts_iff (env : CrossEnv A G T K) (hv es : List Ext) :
    crossExts env hv es = .ok () ↔ ∀ e ∈ es, e ∈ hv := by
  induction es with
  | nil => simp [crossExts]
  | cons e es ih =>
    unfold crossExts
    by_cases h : e ∈ hv
    · rw [if_neg (fun h' => h' h), ih]; simp [h]
    · rw [if_pos h]; simp [h]

/-- C216: exactly when a cross-signed certificate is accepted. Both certificates have BasicConstraints, whatever is in
it; the certificate's subject is neither its own issuer nor the subject of the CA; both have key identifiers, which
differ; the CA's key verifies the signature; the certificate agrees with the template in all fields but extensions and
issuer; and every extension of the template is in it unchanged. -/
theorem C216_accepted_iff [DecidableEq A] [DecidableEq G] [DecidableEq T] (env : CrossEnv A G T K)
    (cross : Cert A G T) (t : Templ A G T) (ca : Cert A G T) :
    validateCross env cross t ca = .ok () ↔ CrossOk env cross t ca := by
  have hcmp := C117_exclude env.loadSpki t cross false ["extensions", "signingAlg", "issuer"] (by simp)
    (by intro s hs; simp only [List.mem_cons, List.not_mem_nil, or_false] at hs
        rcases hs with rfl | rfl | rfl <;> exact ⟨by decide +kernel, by decide +kernel⟩)
  have hj : joinComma (["extensions", "signingAlg", "issuer"].map String.toList) =
      "extensions,signingAlg,issuer".toList := by decide +kernel
  rw [hj] at hcmp
  unfold validateCross
  cases h1 : checkCrossSigned env cross ca with
  | error e =>
    constructor
    · intro h; cases h
    · intro h
      rw [(checkCrossSigned_iff env cross ca).mpr ⟨h.crossBasic, h.caBasic, h.notSelf, h.notCa, h.ids, h.aki, h.signed⟩] at h1
      cases h1
  | ok _ =>
    obtain ⟨a1, a2, a3, a4, a5, a6, a7⟩ := (checkCrossSigned_iff env cross ca).mp h1
    dsimp only
    cases h2 : compareTemplate env.loadSpki t cross none (some "extensions,signingAlg,issuer".toList) false with
    | error e =>
      constructor
      · intro h; cases h
      · intro h; rw [hcmp.mpr h.template] at h2; cases h2
    | ok b =>
      cases b with
      | false =>
        constructor
        · intro h; cases h
        · intro h; rw [hcmp.mpr h.template] at h2; cases h2
      | true =>
        dsimp only
        rw [crossExts_iff]
        constructor
        · intro h
          refine ⟨a1, a2, a3, a4, a5, a6, a7, hcmp.mp h2, ?_⟩
          intro l hl e he
          rw [hl] at h
          exact h e he
        · intro h e he
          cases hx : t.exts with
          | none => rw [hx] at he; cases he
          | some l => rw [hx] at he; exact h.exts l hx e he

/-- C216, false of the code: a certificate that says that it is not a CA (`cA` is FALSE), and one issued by such a
certificate, are accepted as well as the others: the value of `cA` does not count. -/
theorem C216_ca_flag_refuted [DecidableEq A] [DecidableEq G] [DecidableEq T] (env : CrossEnv A G T K)
    (cross : Cert A G T) (t : Templ A G T) (ca : Cert A G T) (h : validateCross env cross t ca = .ok ()) :
    validateCross { env with basic := fun _ => .ok (some false) } cross t ca = .ok () := by
  rw [C216_accepted_iff] at h ⊢
  exact ⟨⟨false, rfl⟩, ⟨false, rfl⟩, h.notSelf, h.notCa, h.ids, h.aki, h.signed, h.template, h.exts⟩

/-- C216, false of the code: the authority key identifier of the certificate need not be the key identifier of the CA:
any will do, and none too. -/
theorem C216_aki_refuted [DecidableEq A] [DecidableEq G] [DecidableEq T] (env : CrossEnv A G T K)
    (cross : Cert A G T) (t : Templ A G T) (ca : Cert A G T) (h : validateCross env cross t ca = .ok ())
    (x : Option (Option Bytes)) :
    validateCross { env with aki := fun _ => .ok x } cross t ca = .ok () := by
  rw [C216_accepted_iff] at h ⊢
  exact ⟨h.crossBasic, h.caBasic, h.notSelf, h.notCa, h.ids, ⟨x, rfl⟩, h.signed, h.template, h.exts⟩

end Cross

/-- Toy certificates: names are lists of numbers, keys are numbers. -/
def exCrossEnv : CrossEnv Nat Nat Nat Nat where
  basic c := if c.serial = 3 then .ok none else .ok (some true)
  ski c := .ok (some c.spki.bits)
  loadKey c := .ok c.spki.alg
  verify c k := if c.other = [UInt8.ofNat k] then .ok () else .error .invalidSignature

/-- The CA that signs. -/
def exCrossCa : Cert Nat Nat Nat where
  serial := 1
  issuer := { rdns := [[10]] }
  notBefore := 0
  notAfter := 9
  subject := { rdns := [[10]] }
  spki := ⟨1, [1]⟩

/-- The cross-signed certificate. -/
def exCrossed : Cert Nat Nat Nat where
  serial := 2
  issuer := { rdns := [[10]] }
  notBefore := 0
  notAfter := 9
  subject := { rdns := [[20]] }
  spki := ⟨2, [2]⟩
  exts := [⟨[2, 5, 29, 19], [1]⟩]
  other := [1]

/-- The template asked for. -/
def exCrossTempl : Templ Nat Nat Nat := { subject := some { rdns := [[20]] }, exts := some [⟨[2, 5, 29, 19], [1]⟩] }

example : validateCross exCrossEnv exCrossed exCrossTempl exCrossCa = .ok () ∧
    validateCross exCrossEnv { exCrossed with other := [5] } exCrossTempl exCrossCa = .error .invalidSignature ∧
    validateCross exCrossEnv { exCrossed with exts := [] } exCrossTempl exCrossCa = .error .valueError ∧
    validateCross exCrossEnv { exCrossed with serial := 3 } exCrossTempl exCrossCa = .error .valueError := by
  decide +kernel

/-- C216, false of the code: the certificate may name another issuer than the CA whose key verifies it. -/
theorem C216_issuer_refuted :
    ∃ cross : Cert Nat Nat Nat, cross.issuer.rdns ≠ exCrossCa.subject.rdns ∧
      validateCross exCrossEnv cross exCrossTempl exCrossCa = .ok () :=
  ⟨{ exCrossed with issuer := { rdns := [[77]] } }, by decide, by decide +kernel⟩

example : validateCross exCrossEnv { exCrossed with issuer := { rdns := [[20]] } } exCrossTempl exCrossCa =
    .error .valueError := by decide +kernel

/-! ## Migrated algorithms -/

/-- The identifiers of FIPS 203, 204 and 205, with the names the suite uses. -/
def nistOids : List (String × List Nat) :=
  ["ml-dsa-44", "ml-dsa-65", "ml-dsa-87", "slh-dsa-sha2-128s", "slh-dsa-sha2-128f", "slh-dsa-sha2-192s",
    "slh-dsa-sha2-192f", "slh-dsa-sha2-256s", "slh-dsa-sha2-256f", "slh-dsa-shake-128s", "slh-dsa-shake-128f",
    "slh-dsa-shake-192s", "slh-dsa-shake-192f", "slh-dsa-shake-256s", "slh-dsa-shake-256f", "ml-dsa-44-sha512",
    "ml-dsa-65-sha512", "ml-dsa-87-sha512"].zipIdx.map (fun p => (p.1, [2, 16, 840, 1, 101, 3, 4, 3, 17 + p.2])) ++
  ["ml-kem-512", "ml-kem-768", "ml-kem-1024"].zipIdx.map (fun p => (p.1, [2, 16, 840, 1, 101, 3, 4, 4, 1 + p.2]))

theorem isPqOid_iff (o : List Nat) : isPqOid o = true ↔ ∃ n, (o, n) ∈ pqNames := by
  unfold isPqOid
  rw [List.any_eq_true]
  constructor
  · rintro ⟨⟨a, n⟩, h1, h2⟩
    have : a = o := by simpa using h2
    subst this; exact ⟨n, h1⟩
  · rintro ⟨n, h⟩; exact ⟨_, h, by simp⟩

theorem pq_not_hybrid (o : List Nat) (h : isPqOid o = true) : isHybridOid o = false := by
  obtain ⟨n, hn⟩ := (isPqOid_iff o).mp h
  have hall : pqNames.all (fun e => !isHybridOid e.1) = true := by decide +kernel
  have := List.all_eq_true.mp hall _ hn
  simpa using this

/-- C217: exactly which algorithm identifiers the check accepts: those that are *not* post-quantum, without parameters. -/
theorem C217_alg_iff (oid : List Nat) (params : Bool) :
    checkMigrationAlg oid params = .ok () ↔ (∀ n, (oid, n) ∉ pqNames) ∧ params = false := by
  unfold checkMigrationAlg
  have hiff : (∀ n, (oid, n) ∉ pqNames) ↔ isPqOid oid = false := by
    rw [← Bool.not_eq_true, isPqOid_iff, not_exists]
  rw [hiff]
  cases h : isPqOid oid with
  | false => cases params <;> simp
  | true => simp [pq_not_hybrid oid h]

/-- C217, false of the code: the check refuses every post-quantum algorithm identifier, with parameters and without, and
accepts every identifier that is in no table, for instance that of RSA keys. -/
theorem C217_alg_refuted :
    (∀ e ∈ nistOids, ∀ params, checkMigrationAlg e.2 params = .error .unknownOID) ∧
    (∀ oid, (∀ n, (oid, n) ∉ pqNames) → (∀ n, (n, oid) ∉ hybridNameToOid) → checkMigrationAlg oid false = .ok ()) ∧
    checkMigrationAlg [1, 2, 840, 113549, 1, 1, 1] false = .ok () := by
  refine ⟨?_, ?_, by decide +kernel⟩
  · have h : nistOids.all (fun e => decide (checkMigrationAlg e.2 true = .error .unknownOID) &&
        decide (checkMigrationAlg e.2 false = .error .unknownOID)) = true := by decide +kernel
    intro e he params
    have := List.all_eq_true.mp h e he
    rw [Bool.and_eq_true, decide_eq_true_iff, decide_eq_true_iff] at this
    cases params
    · exact this.2
    · exact this.1
  · intro oid h _
    exact (C217_alg_iff oid false).mpr ⟨h, rfl⟩

example : (∀ n, ([1, 2, 3], n) ∉ pqNames) ∧ ∀ n, (n, [1, 2, 3]) ∉ hybridNameToOid := by
  constructor
  · intro n h
    have := (isPqOid_iff [1, 2, 3]).mpr ⟨n, h⟩
    exact absurd this (by decide +kernel)
  · intro n h
    have : hybridNameToOid.all (fun e => decide (e.2 ≠ [1, 2, 3])) = true := by decide +kernel
    have := List.all_eq_true.mp this _ h
    simp at this

/-- `KeyUsage` (RFC 5280). -/
def usageBitNames : List (List Char) :=
  ["digitalSignature", "nonRepudiation", "keyEncipherment", "dataEncipherment", "keyAgreement", "keyCertSign",
    "cRLSign", "encipherOnly", "decipherOnly"].map String.toList

theorem onlyKeyEncipherment_iff (bits : List Bool) :
    onlyKeyEncipherment (splitNames (setNames usageBitNames bits)) = true ↔
      bits[2]? = some true ∧ ∀ i : Nat, i < 9 → i ≠ 2 → bits[i]? ≠ some true := by
  have hidx : ∀ i : Nat, i < 9 → (usageBitNames[i]? = some "keyEncipherment".toList ↔ i = 2) := by
    intro i hi
    have : ∀ i : Fin 9, (usageBitNames[i.val]? = some "keyEncipherment".toList ↔ i.val = 2) := by decide +kernel
    exact this ⟨i, hi⟩
  have hlen : ∀ i : Nat, ∀ v, usageBitNames[i]? = some v → i < 9 := by
    intro i v h
    have := (List.getElem?_eq_some_iff.mp h).1
    simpa [usageBitNames] using this
  have hmem : ∀ v, v ∈ setNames usageBitNames bits ↔ ∃ i : Nat, usageBitNames[i]? = some v ∧ bits[i]? = some true :=
    mem_setNames usageBitNames bits
  have h2 : usageBitNames[2]? = some "keyEncipherment".toList := by decide +kernel
  unfold onlyKeyEncipherment
  rw [Bool.and_eq_true, decide_eq_true_iff, List.all_eq_true]
  unfold splitNames
  by_cases he : setNames usageBitNames bits = []
  · rw [if_pos he]
    constructor
    · rintro ⟨h, _⟩; simp at h
    · rintro ⟨h, _⟩
      have := (hmem _).mpr ⟨2, h2, h⟩
      rw [he] at this; cases this
  · rw [if_neg he]
    constructor
    · rintro ⟨ha, hb⟩
      obtain ⟨i, h3, h4⟩ := (hmem _).mp ha
      have := (hidx i (hlen i _ h3)).mp h3
      subst this
      refine ⟨h4, fun j hj hne ht => hne ?_⟩
      have hj' : j < usageBitNames.length := by simpa [usageBitNames] using hj
      obtain ⟨v, h5⟩ : ∃ v, usageBitNames[j]? = some v := ⟨_, List.getElem?_eq_getElem hj'⟩
      have h6 := hb v ((hmem v).mpr ⟨j, h5, ht⟩)
      rw [of_decide_eq_true h6] at h5
      exact (hidx j hj).mp h5
    · rintro ⟨ha, hb⟩
      refine ⟨(hmem _).mpr ⟨2, h2, ha⟩, fun v hv => ?_⟩
      obtain ⟨i, h3, h4⟩ := (hmem _).mp hv
      have hi := hlen i _ h3
      by_cases hi2 : i = 2
      · subst hi2; rw [h2] at h3; injection h3 with h3; simp [h3]
      · exact absurd h4 (hb i hi hi2)

/-- C217: exactly when the key usage check passes: the certificate's key can be loaded and its extension decoded, and
there is no extension, or the key is that of a KEM and of the nine bits exactly `keyEncipherment` is set. -/
theorem C217_usage_iff (key : Except PyErr PubClass) (usage : Except PyErr (Option (List Bool))) :
    checkMigrationUsage usageBitNames key usage = .ok () ↔
      ∃ k u, key = .ok k ∧ usage = .ok u ∧ (u = none ∨ (k = .kem ∧ ∃ bits, u = some bits ∧
        bits[2]? = some true ∧ ∀ i : Nat, i < 9 → i ≠ 2 → bits[i]? ≠ some true)) := by
  unfold checkMigrationUsage
  cases key with
  | error e => simp
  | ok k =>
    cases usage with
    | error e => simp
    | ok u =>
      cases u with
      | none => simp
      | some bits =>
        dsimp only
        have hb := onlyKeyEncipherment_iff bits
        unfold usageCheck
        cases k with
        | kem =>
          simp only [reduceCtorEq, if_false, if_true]
          cases ho : onlyKeyEncipherment (splitNames (setNames usageBitNames bits)) with
          | true =>
            rw [ho] at hb
            simp only [Bool.not_true, Bool.false_eq_true, if_false, true_iff]
            exact ⟨.kem, some bits, rfl, rfl, .inr ⟨rfl, bits, rfl, hb.mp rfl⟩⟩
          | false =>
            rw [ho] at hb
            simp only [Bool.not_false, if_true]
            constructor
            · intro h; cases h
            · rintro ⟨k, u, hk, hu, h | ⟨_, b, hb', h⟩⟩
              · injection hu with hu; subst hu; cases h
              · injection hu with hu; subst hu; injection hb' with hb'; subst hb'
                exact absurd (hb.mpr h) (by simp)
        | pqSig =>
          simp only [if_true, reduceCtorEq, if_false]
          constructor
          · intro h
            cases hs : sigUsageCheck (splitNames (setNames usageBitNames bits)) with
            | error e => rw [hs] at h; cases h
            | ok _ => rw [hs] at h; cases h
          · rintro ⟨k, u, hk, hu, h | ⟨h, _⟩⟩
            · injection hu with hu; subst hu; cases h
            · injection hk with hk; subst hk; cases h
        | other =>
          simp only [reduceCtorEq, if_false]
          constructor
          · intro h; cases h
          · rintro ⟨k, u, hk, hu, h | ⟨h, _⟩⟩
            · injection hu with hu; subst hu; cases h
            · injection hk with hk; subst hk; cases h

/-- C217, false of the code: a post-quantum signature key with any KeyUsage extension is refused — with
`digitalSignature`, which the documentation allows, as with any other bits. -/
theorem C217_usage_refuted (bits : List Bool) :
    checkMigrationUsage usageBitNames (.ok .pqSig) (.ok (some bits)) = .error .valueError := by
  unfold checkMigrationUsage usageCheck
  dsimp only
  rw [if_pos rfl]
  cases hs : sigUsageCheck (splitNames (setNames usageBitNames bits)) with
  | error e =>
    unfold sigUsageCheck at hs
    split at hs
    · injection hs with hs; rw [← hs]
    · split at hs
      · injection hs with hs; rw [← hs]
      · cases hs
  | ok _ => rfl

example : sigUsageCheck (splitNames (setNames usageBitNames [true])) = .ok () ∧
    checkMigrationUsage usageBitNames (.ok .pqSig) (.ok (some [true])) = .error .valueError ∧
    checkMigrationUsage usageBitNames (.ok .kem) (.ok (some [false, false, true])) = .ok () ∧
    checkMigrationUsage usageBitNames (.ok .kem) (.ok (some [true, false, true])) = .error .valueError ∧
    checkMigrationUsage usageBitNames (.ok .other) (.ok none) = .ok () := by decide +kernel

theorem pqOidOf_iff (name : String) (o : List Nat) : pqOidOf name = some o ↔ (o, name) ∈ pqNames := by
  have hnd : (pqNames.map (·.2)).Nodup := by decide +kernel
  have key : ∀ l : List (List Nat × String), (l.map (·.2)).Nodup →
      ((l.find? (fun e => e.2 = name)).map (·.1) = some o ↔ (o, name) ∈ l) := by
    intro l
    induction l with
    | nil => simp
    | cons x xs ih =>
      intro hn
      obtain ⟨a, n⟩ := x
      rw [List.map_cons, List.nodup_cons] at hn
      by_cases h : n = name
      · subst h
        rw [List.find?_cons_of_pos (by simp)]
        simp only [Option.map_some, Option.some.injEq, List.mem_cons, Prod.mk.injEq, and_true]
        constructor
        · intro h; exact .inl h.symm
        · rintro (h | h)
          · exact h.symm
          · exact absurd (List.mem_map.mpr ⟨_, h, rfl⟩) hn.1
      · rw [List.find?_cons_of_neg (by simpa using h), ih hn.2]
        simp only [List.mem_cons, Prod.mk.injEq]
        constructor
        · exact .inr
        · rintro (⟨_, h'⟩ | h')
          · exact absurd h'.symm h
          · exact h'
  exact key pqNames hnd

theorem hybridOidOf_iff (name : String) (o : List Nat) : hybridOidOf name = some o ↔ (name, o) ∈ hybridNameToOid := by
  have hnd : (hybridNameToOid.map (·.1)).Nodup := by decide +kernel
  have key : ∀ l : List (String × List Nat), (l.map (·.1)).Nodup →
      ((l.find? (fun e => e.1 = name)).map (·.2) = some o ↔ (name, o) ∈ l) := by
    intro l
    induction l with
    | nil => simp
    | cons x xs ih =>
      intro hn
      obtain ⟨n, a⟩ := x
      rw [List.map_cons, List.nodup_cons] at hn
      by_cases h : n = name
      · subst h
        rw [List.find?_cons_of_pos (by simp)]
        simp only [Option.map_some, Option.some.injEq, List.mem_cons, Prod.mk.injEq, true_and]
        constructor
        · intro h; exact .inl h.symm
        · rintro (h | h)
          · exact h.symm
          · exact absurd (List.mem_map.mpr ⟨_, h, rfl⟩) hn.1
      · rw [List.find?_cons_of_neg (by simpa using h), ih hn.2]
        simp only [List.mem_cons, Prod.mk.injEq]
        constructor
        · exact .inr
        · rintro (⟨h', _⟩ | h')
          · exact absurd h'.symm h
          · exact h'
  exact key hybridNameToOid hnd

/-- The name begins with `xmss` or `hss`. -/
def StatefulName (name : String) : Prop :=
  (∃ r, name.toList = ['x', 'm', 's', 's'] ++ r) ∨ ∃ r, name.toList = ['h', 's', 's'] ++ r

theorem statefulPrefix_iff (name : String) : statefulPrefix name = true ↔ StatefulName name := by
  unfold statefulPrefix StatefulName
  rw [Bool.or_eq_true, Bool.or_eq_true, List.isPrefixOf_iff_prefix, List.isPrefixOf_iff_prefix,
    List.isPrefixOf_iff_prefix]
  have e1 : "xmss".toList = ['x', 'm', 's', 's'] := by decide +kernel
  have e2 : "xmssmt".toList = ['x', 'm', 's', 's'] ++ ['m', 't'] := by decide +kernel
  have e3 : "hss".toList = ['h', 's', 's'] := by decide +kernel
  rw [e1, e2, e3]
  constructor
  · rintro ((⟨r, h⟩ | ⟨r, h⟩) | ⟨r, h⟩)
    · exact .inl ⟨r, h.symm⟩
    · exact .inl ⟨['m', 't'] ++ r, by rw [← h, List.append_assoc]⟩
    · exact .inr ⟨r, h.symm⟩
  · rintro (⟨r, h⟩ | ⟨r, h⟩)
    · exact .inl (.inl ⟨r, h.symm⟩)
    · exact .inr ⟨r, h.symm⟩

/-- C217: exactly when a certificate's key is accepted for a name. For a name that begins with `xmss` or `hss` the key
must be a stateful hash-based one of exactly that name; otherwise the identifier must be the one the tables of pure or
hybrid algorithms give for the name. -/
theorem C217_name_iff (oid : List Nat) (key : Except PyErr (Option String)) (name : String) :
    checkMigrationOid oid key name = .ok () ↔
      (StatefulName name ∧ key = .ok (some name)) ∨
      (¬ StatefulName name ∧ ((oid, name) ∈ pqNames ∨ (name, oid) ∈ hybridNameToOid)) := by
  unfold checkMigrationOid
  by_cases hp : statefulPrefix name = true
  · have hs := (statefulPrefix_iff name).mp hp
    rw [if_pos hp]
    unfold checkStateful
    cases key with
    | error e => simp [hs]
    | ok k =>
      cases k with
      | none => simp [hs]
      | some n =>
        dsimp only
        by_cases hn : name = n
        · subst hn; simp [hs]
        · have : ¬ n = name := fun h => hn h.symm
          simp [hs, hn, this]
  · have hs : ¬ StatefulName name := fun h => hp ((statefulPrefix_iff name).mpr h)
    rw [if_neg hp]
    simp only [hs, false_and, false_or, not_false_eq_true, true_and]
    cases h1 : pqOidOf name with
    | some o =>
      dsimp only
      have hm := (pqOidOf_iff name o).mp h1
      have hex : (name, oid) ∉ hybridNameToOid := by
        intro h
        have hall : hybridNameToOid.all (fun e => decide (pqOidOf e.1 = none)) = true := by decide +kernel
        have := List.all_eq_true.mp hall _ h
        rw [decide_eq_true_iff] at this
        rw [h1] at this; cases this
      by_cases ho : oid = o
      · subst ho; simp [hm]
      · rw [if_pos ho]
        constructor
        · intro h; cases h
        · rintro (h | h)
          · have := (pqOidOf_iff name oid).mpr h
            rw [h1] at this; injection this with this; exact absurd this.symm ho
          · exact absurd h hex
    | none =>
      dsimp only
      have hno : ∀ o, (o, name) ∉ pqNames := by
        intro o h; rw [(pqOidOf_iff name o).mpr h] at h1; cases h1
      cases h2 : hybridOidOf name with
      | some o =>
        dsimp only
        have hm := (hybridOidOf_iff name o).mp h2
        by_cases ho : oid = o
        · subst ho; simp [hm]
        · rw [if_pos ho]
          constructor
          · intro h; cases h
          · rintro (h | h)
            · exact absurd h (hno _)
            · have := (hybridOidOf_iff name oid).mpr h
              rw [h2] at this; injection this with this; exact absurd this.symm ho
      | none =>
        constructor
        · intro h; cases h
        · rintro (h | h)
          · exact absurd h (hno _)
          · rw [(hybridOidOf_iff name oid).mpr h] at h2; cases h2

/-- C217: the names of the NIST standards stand for the registered identifiers, and `xwing` for the one of its draft. -/
theorem C217_nist (oid : List Nat) (key : Except PyErr (Option String)) :
    (∀ e ∈ nistOids, (checkMigrationOid oid key e.1 = .ok () ↔ oid = e.2)) ∧
    (checkMigrationOid oid key "xwing" = .ok () ↔ oid = [1, 3, 6, 1, 4, 1, 62253, 25722]) := by
  have key' : ∀ name o, statefulPrefix name = false → (pqOidOf name = some o ∨ (pqOidOf name = none ∧ hybridOidOf name = some o)) →
      (checkMigrationOid oid key name = .ok () ↔ oid = o) := by
    intro name o hp ho
    unfold checkMigrationOid
    rw [hp, if_neg (by simp)]
    rcases ho with h | ⟨h, h'⟩
    · rw [h]; by_cases hx : oid = o <;> simp [hx]
    · rw [h, h']; by_cases hx : oid = o <;> simp [hx]
  constructor
  · intro e he
    have h : nistOids.all (fun e => decide (statefulPrefix e.1 = false) && decide (pqOidOf e.1 = some e.2)) = true := by
      decide +kernel
    have := List.all_eq_true.mp h e he
    rw [Bool.and_eq_true, decide_eq_true_iff, decide_eq_true_iff] at this
    exact key' e.1 e.2 this.1 (.inl this.2)
  · exact key' "xwing" _ (by decide +kernel) (.inr ⟨by decide +kernel, by decide +kernel⟩)

/-- C217: the plain names `xmss`, `xmssmt` and `hss`, which the table of post-quantum names lists, are accepted only for a
key that has exactly that name, never by the identifier. -/
theorem C217_stateful_refuted (oid : List Nat) (name : String) (hn : name ∈ ["xmss", "xmssmt", "hss"])
    (key : Except PyErr (Option String)) :
    (pqOidOf name).isSome = true ∧ (checkMigrationOid oid key name = .ok () ↔ key = .ok (some name)) := by
  have hs : StatefulName name ∧ (pqOidOf name).isSome = true := by
    simp only [List.mem_cons, List.not_mem_nil, or_false] at hn
    rcases hn with rfl | rfl | rfl
    · exact ⟨(statefulPrefix_iff _).mp (by decide +kernel), by decide +kernel⟩
    · exact ⟨(statefulPrefix_iff _).mp (by decide +kernel), by decide +kernel⟩
    · exact ⟨(statefulPrefix_iff _).mp (by decide +kernel), by decide +kernel⟩
  refine ⟨hs.2, ?_⟩
  rw [C217_name_iff]
  simp [hs.1]

example : checkMigrationOid [2, 16, 840, 1, 101, 3, 4, 3, 17] (.ok none) "ml-dsa-44" = .ok () ∧
    checkMigrationOid [2, 16, 840, 1, 101, 3, 4, 3, 18] (.ok none) "ml-dsa-44" = .error .valueError ∧
    checkMigrationOid [1, 3, 6, 1, 5, 5, 7, 6, 34] (.ok (some "xmss-sha2_10_256")) "xmss" = .error .valueError ∧
    checkMigrationOid [] (.ok (some "xmss-sha2_10_256")) "xmss-sha2_10_256" = .ok () := by decide +kernel

end Verif.Ra
