import Verif.CA.Setup

/-!
# Setting up the CA: properties (C256)
-/

namespace Verif.CA.Setup

variable {C K P : Type} [DecidableEq P]

/-- The key belongs to the certificate. -/
def Belongs (env : Env C K P) (c : C) (k : K) : Prop := env.certPub c = .ok (env.pub k)

private theorem paired_iff (env : Env C K P) (c : C) (k : K) : paired env c k = .ok () ↔ Belongs env c k := by
  unfold paired Belongs
  cases h : env.certPub c with
  | error e => exact ⟨fun h => (nomatch h), fun h => (nomatch h)⟩
  | ok p =>
    dsimp only
    by_cases hp : env.pub k = p
    · rw [if_neg (fun h => h hp), hp]
      exact ⟨fun _ => rfl, fun _ => rfl⟩
    · rw [if_pos hp]
      exact ⟨fun h => (nomatch h), fun h => absurd (Except.ok.inj h).symm hp⟩

private theorem loadBoth_iff (env : Env C K P) (c : Arg C) (k : Arg K) (pw : Option String) (x : C) (y : K) :
    loadBoth env c k pw = .ok (x, y) ↔ getCert env c = .ok x ∧ getKey env pw k = .ok y ∧ Belongs env x y := by
  unfold loadBoth
  constructor
  · intro h
    cases h1 : getCert env c with
    | error e => rw [h1] at h; cases h
    | ok c' =>
      rw [h1] at h; dsimp only at h
      cases h2 : getKey env pw k with
      | error e => rw [h2] at h; cases h
      | ok k' =>
        rw [h2] at h; dsimp only at h
        cases h3 : paired env c' k' with
        | error e => rw [h3] at h; cases h
        | ok u =>
          rw [h3] at h
          cases h
          exact ⟨rfl, rfl, (paired_iff env x y).mp h3⟩
  · rintro ⟨h1, h2, h3⟩
    rw [h1]; dsimp only
    rw [h2]; dsimp only
    rw [(paired_iff env x y).mpr h3]

/-- **C256** A certificate and a key are loaded exactly if both are given and readable and the key belongs to the
certificate; nothing is loaded exactly if none of them is given. -/
theorem C256_load (env : Env C K P) (pw : Option String) (c : Option (Arg C)) (k : Option (Arg K)) :
    (mayLoad env pw c k = .ok none ↔ c = none ∧ k = none) ∧
    ∀ x y, mayLoad env pw c k = .ok (some (x, y)) ↔ ∃ a b, c = some a ∧ k = some b ∧ a.truthy = true ∧ b.truthy = true ∧
      getCert env a = .ok x ∧ getKey env pw b = .ok y ∧ Belongs env x y := by
  cases c with
  | none =>
    cases k with
    | none => exact ⟨⟨fun _ => ⟨rfl, rfl⟩, fun _ => rfl⟩, fun x y => ⟨fun h => (nomatch h), fun ⟨_, _, h, _⟩ => (nomatch h)⟩⟩
    | some b => exact ⟨⟨fun h => (nomatch h), fun h => (nomatch h.2)⟩, fun x y => ⟨fun h => (nomatch h), fun ⟨_, _, h, _⟩ => (nomatch h)⟩⟩
  | some a =>
    cases k with
    | none => exact ⟨⟨fun h => (nomatch h), fun h => (nomatch h.1)⟩, fun x y => ⟨fun h => (nomatch h), fun ⟨_, _, _, h, _⟩ => (nomatch h)⟩⟩
    | some b =>
      unfold mayLoad
      dsimp only
      by_cases ht : (a.truthy && b.truthy) = true
      · rw [if_pos ht]
        rw [Bool.and_eq_true] at ht
        cases hb : loadBoth env a b pw with
        | error e =>
          refine ⟨⟨fun h => (nomatch h), fun h => (nomatch h.1)⟩, fun x y => ⟨fun h => (nomatch h), ?_⟩⟩
          rintro ⟨a', b', ha', hb', _, _, h1, h2, h3⟩
          cases ha'; cases hb'
          rw [(loadBoth_iff env a b pw x y).mpr ⟨h1, h2, h3⟩] at hb
          cases hb
        | ok z =>
          refine ⟨⟨fun h => (nomatch h), fun h => (nomatch h.1)⟩, fun x y => ⟨?_, ?_⟩⟩
          · intro h
            cases h
            obtain ⟨h1, h2, h3⟩ := (loadBoth_iff env a b pw x y).mp hb
            exact ⟨a, b, rfl, rfl, ht.1, ht.2, h1, h2, h3⟩
          · rintro ⟨a', b', ha', hb', _, _, h1, h2, h3⟩
            cases ha'; cases hb'
            rw [(loadBoth_iff env a b pw x y).mpr ⟨h1, h2, h3⟩] at hb
            cases hb
            rfl
      · rw [if_neg ht]
        refine ⟨⟨fun h => (nomatch h), fun h => (nomatch h.1)⟩, fun x y => ⟨fun h => (nomatch h), ?_⟩⟩
        rintro ⟨a', b', ha', hb', h1, h2, _⟩
        cases ha'; cases hb'
        rw [h1, h2] at ht
        exact absurd rfl ht

private theorem setPaired_iff (env : Env C K P) (c : C) (k : K) : setPaired env false c k = .ok () ↔ Belongs env c k := by
  rw [← paired_iff]
  unfold setPaired paired
  rfl

private theorem setPaired_sun (env : Env C K P) (c : C) (k : K) : setPaired env true c k = .ok () ↔
    ∃ t, env.trad k = some t ∧ env.certPub c = .ok t := by
  unfold setPaired
  cases h : env.certPub c with
  | error e => exact ⟨fun h => (nomatch h), fun ⟨_, _, h⟩ => (nomatch h)⟩
  | ok p =>
    dsimp only
    rw [if_pos rfl]
    cases ht : env.trad k with
    | none => exact ⟨fun h => (nomatch h), fun ⟨_, h, _⟩ => (nomatch h)⟩
    | some t =>
      dsimp only
      by_cases hp : t = p
      · rw [if_neg (fun h => h hp)]
        exact ⟨fun _ => ⟨t, rfl, by rw [hp]⟩, fun _ => rfl⟩
      · rw [if_pos hp]
        refine ⟨fun h => (nomatch h), ?_⟩
        rintro ⟨t', h1, h2⟩
        cases h1; cases h2
        exact absurd rfl hp

/-- **C256** A pair counts as set exactly if both are given and belong together (for Sun hybrid certificates, the traditional
part of the hybrid key); it counts as not set exactly if none is given; else there is an error. -/
theorem C256_is_set (env : Env C K P) (sun : Bool) (c : Option (Arg C)) (k : Option (Arg K)) :
    (isSet env sun c k = .ok false ↔ c = none ∧ k = none) ∧
    (isSet env sun c k = .ok true ↔ ∃ a b x y, c = some a ∧ k = some b ∧ getCert env a = .ok x ∧
      getKey env (some "11111") b = .ok y ∧
      (sun = false → Belongs env x y) ∧ (sun = true → ∃ t, env.trad y = some t ∧ env.certPub x = .ok t)) := by
  cases c with
  | none =>
    cases k with
    | none => exact ⟨⟨fun _ => ⟨rfl, rfl⟩, fun _ => rfl⟩, fun h => (nomatch h), fun ⟨_, _, _, _, h, _⟩ => (nomatch h)⟩
    | some b => exact ⟨⟨fun h => (nomatch h), fun h => (nomatch h.2)⟩, fun h => (nomatch h), fun ⟨_, _, _, _, h, _⟩ => (nomatch h)⟩
  | some a =>
    cases k with
    | none => exact ⟨⟨fun h => (nomatch h), fun h => (nomatch h.1)⟩, fun h => (nomatch h), fun ⟨_, _, _, _, _, h, _⟩ => (nomatch h)⟩
    | some b =>
      unfold isSet dflt
      dsimp only
      cases h1 : getKey env (some "11111") b with
      | error e =>
        refine ⟨⟨fun h => (nomatch h), fun h => (nomatch h.1)⟩, fun h => (nomatch h), ?_⟩
        rintro ⟨a', b', x, y, ha, hb, _, h2, _⟩
        cases ha; cases hb
        rw [h1] at h2; cases h2
      | ok y =>
        dsimp only
        cases h2 : getCert env a with
        | error e =>
          refine ⟨⟨fun h => (nomatch h), fun h => (nomatch h.1)⟩, fun h => (nomatch h), ?_⟩
          rintro ⟨a', b', x, y, ha, hb, h3, _⟩
          cases ha; cases hb
          rw [h2] at h3; cases h3
        | ok x =>
          dsimp only
          have key : setPaired env sun x y = .ok () ↔ (sun = false → Belongs env x y) ∧
              (sun = true → ∃ t, env.trad y = some t ∧ env.certPub x = .ok t) := by
            cases sun with
            | false => rw [setPaired_iff]; exact ⟨fun h => ⟨fun _ => h, fun h => (nomatch h)⟩, fun h => h.1 rfl⟩
            | true => rw [setPaired_sun]; exact ⟨fun h => ⟨fun h => (nomatch h), fun _ => h⟩, fun h => h.2 rfl⟩
          cases h3 : setPaired env sun x y with
          | error e =>
            refine ⟨⟨fun h => (nomatch h), fun h => (nomatch h.1)⟩, fun h => (nomatch h), ?_⟩
            rintro ⟨a', b', x', y', ha, hb, h4, h5, h6⟩
            cases ha; cases hb
            rw [h2] at h4; rw [h1] at h5
            cases h4; cases h5
            rw [key.mpr h6] at h3
            cases h3
          | ok u =>
            refine ⟨⟨fun h => (nomatch h), fun h => (nomatch h.1)⟩, fun _ => ⟨a, b, x, y, rfl, rfl, h2, h1, key.mp h3⟩, fun _ => rfl⟩

/-! ## The issuing CA -/

private theorem mayLoad_belongs {env : Env C K P} {pw : Option String} {c : Option (Arg C)} {k : Option (Arg K)}
    {x : Option (C × K)} (h : mayLoad env pw c k = .ok x) (z : C × K) (hz : x = some z) : Belongs env z.1 z.2 := by
  subst hz
  obtain ⟨_, _, _, _, _, _, _, _, hb⟩ := ((C256_load env pw c k).2 z.1 z.2).mp h
  exact hb

private theorem loadPair_belongs {env : Env C K P} {d : Dict} {a b c : String} {x : Option (C × K)}
    (h : loadPair env d a b c = .ok x) (z : C × K) (hz : x = some z) : Belongs env z.1 z.2 := by
  unfold loadPair at h
  split at h
  · cases h; cases hz
  · exact mayLoad_belongs h z hz
  · cases h

private theorem caPair_belongs {env : Env C K P} {d : Dict} {x : Option (C × K)}
    (h : caPair env d = .ok x) (z : C × K) (hz : x = some z) : Belongs env z.1 z.2 := by
  unfold caPair at h
  split at h
  · exact mayLoad_belongs h z hz
  · cases h

private theorem any_false {T : Type} {o : Option T} {p : T → Bool} (h : ¬ o.any (fun x => !p x) = true) :
    ∀ x, o = some x → p x = true := by
  rintro x rfl
  cases hp : p x with
  | true => rfl
  | false =>
    exfalso
    apply h
    change (!p x) = true
    rw [hp]
    rfl

private theorem load_steps {env : Env C K P} {d : Dict} {x : Issuing C K} (h : load env d = .ok x) :
    ∃ ca prot hybrid kga alt, caPair env d = .ok ca ∧
      loadPair env d "cmp_prot_cert" "cmp_prot_key" "cmp_prot_key_pwd" = .ok prot ∧
      loadPair env d "hybrid_kem_cert" "hybrid_kem_key" "hybrid_kem_key_pwd" = .ok hybrid ∧
      loadKga env d = .ok kga ∧ altKey env d = .ok alt ∧ assemble env ca prot hybrid kga alt = .ok x := by
  unfold load at h
  cases h1 : caPair env d with
  | error e => rw [h1] at h; cases h
  | ok ca =>
    rw [h1] at h; dsimp only at h
    cases h2 : loadPair env d "cmp_prot_cert" "cmp_prot_key" "cmp_prot_key_pwd" with
    | error e => rw [h2] at h; cases h
    | ok prot =>
      rw [h2] at h; dsimp only at h
      cases h3 : loadPair env d "hybrid_kem_cert" "hybrid_kem_key" "hybrid_kem_key_pwd" with
      | error e => rw [h3] at h; cases h
      | ok hybrid =>
        rw [h3] at h; dsimp only at h
        cases h4 : loadKga env d with
        | error e => rw [h4] at h; cases h
        | ok kga =>
          rw [h4] at h; dsimp only at h
          cases h5 : altKey env d with
          | error e => rw [h5] at h; cases h
          | ok alt =>
            rw [h5] at h; dsimp only at h
            exact ⟨ca, prot, hybrid, kga, alt, rfl, rfl, rfl, rfl, rfl, h⟩

/-- **C256** In a configuration that is loaded, the CA's key, the key for the protection and the hybrid KEM key belong to their
certificates and are of the right types; without a pair for the protection, it is the CA's. -/
theorem C256_issuing (env : Env C K P) (d : Dict) (x : Issuing C K) (h : load env d = .ok x) :
    Belongs env x.ca.1 x.ca.2 ∧ env.sign x.ca.2 = true ∧ Belongs env x.prot.1 x.prot.2 ∧ env.sign x.prot.2 = true ∧
    (d "cmp_prot_cert" = none → d "cmp_prot_key" = none → x.prot = x.ca) ∧
    (∀ z, x.hybrid = some z → Belongs env z.1 z.2 ∧ env.hybridKem z.2 = true) ∧
    (∀ k, x.alt = some k → env.pqSign k = true) := by
  obtain ⟨ca, prot, hybrid, kga, alt, h1, h2, h3, h4, h5, h6⟩ := load_steps h
  unfold assemble at h6
  split at h6
  · cases h6
  · rename_i c1
    split at h6
    · cases h6
    · rename_i c2
      split at h6
      · cases h6
      · rename_i c3
        cases ca with
        | none => cases h6
        | some ca =>
          dsimp only at h6
          split at h6
          · cases h6
          · rename_i c4
            cases h6
            have c4 : env.sign ca.2 = true := by
              cases hs : env.sign ca.2 with
              | true => rfl
              | false => rw [hs] at c4; exact absurd rfl c4
            have hca := caPair_belongs h1 ca rfl
            refine ⟨hca, c4, ?_, ?_, ?_, ?_, any_false c2⟩
            · cases prot with
              | none => exact hca
              | some z => exact loadPair_belongs h2 z rfl
            · cases prot with
              | none => exact c4
              | some z => exact any_false c3 z rfl
            · intro e1 e2
              unfold loadPair at h2
              rw [e1, e2] at h2
              cases h2
              rfl
            · intro z hz
              exact ⟨loadPair_belongs h3 z hz, any_false (p := fun x => env.hybridKem x.2) c1 z hz⟩

private theorem mustSet_some (env : Env C K P) (c : C) (k : K) : mustSet env (some c) (some k) = .ok () ↔ Belongs env c k := by
  have h := C256_is_set env false (some (.obj c)) (some (.obj k))
  unfold mustSet
  dsimp only [Option.map_some]
  cases hs : isSet env false (some (.obj c)) (some (.obj k)) with
  | error e =>
    refine ⟨fun h => (nomatch h), fun hb => ?_⟩
    rw [h.2.mpr ⟨_, _, c, k, rfl, rfl, rfl, rfl, fun _ => hb, fun h => (nomatch h)⟩] at hs
    cases hs
  | ok b =>
    cases b with
    | false => exact absurd (h.1.mp hs).1 (fun h => (nomatch h))
    | true =>
      obtain ⟨a, b, x, y, ha, hb, hx, hy, hh, _⟩ := h.2.mp hs
      cases ha; cases hb; cases hx; cases hy
      exact ⟨fun _ => hh rfl, fun _ => rfl⟩

/-- **C256** The validation of a loaded configuration checks nothing but the pair of the key generation authority, as loading
has ensured the rest. -/
theorem C256_validate (env : Env C K P) (d : Dict) (x : Issuing C K) (h : load env d = .ok x) :
    validate env x = .ok () ↔ ∃ c k, x.kgaCerts.head? = some c ∧ x.kgaKey = some k ∧ Belongs env c k := by
  obtain ⟨h1, _, h2, _⟩ := C256_issuing env d x h
  unfold validate
  rw [(mustSet_some env _ _).mpr h1]; dsimp only
  rw [(mustSet_some env _ _).mpr h2]; dsimp only
  cases hc : x.kgaCerts.head? with
  | none =>
    cases hk : x.kgaKey with
    | none => exact ⟨fun h => (nomatch h), fun ⟨_, _, h, _⟩ => (nomatch h)⟩
    | some k => exact ⟨fun h => (nomatch h), fun ⟨_, _, h, _⟩ => (nomatch h)⟩
  | some c =>
    cases hk : x.kgaKey with
    | none => exact ⟨fun h => (nomatch h), fun ⟨_, _, _, h, _⟩ => (nomatch h)⟩
    | some k =>
      rw [mustSet_some]
      exact ⟨fun h => ⟨c, k, rfl, rfl, h⟩, fun ⟨c', k', e1, e2, h⟩ => by cases e1; cases e2; exact h⟩

/-- **C256, refuted**: the key generation authority is not optional: without a certificate for it nothing is loaded, and the
error is `BadConfig` if the rest is right. -/
theorem C256_kga_optional_refuted (env : Env C K P) (d : Dict) (h1 : d.get "kga_cert_chain" = none) (h2 : d.get "kga_cert" = none) :
    (∀ x, load env d ≠ .ok x) ∧ (d.get "kga_key" = none → loadKga env d = .error .badConfig) := by
  have hc : kgaChain env d = .ok none := by unfold kgaChain; rw [h1]
  have hk : kgaCerts env d none = .error .badConfig := by unfold kgaCerts; rw [h2]
  constructor
  · intro x hx
    obtain ⟨ca, prot, hybrid, kga, alt, _, _, _, h4, _⟩ := load_steps hx
    unfold loadKga at h4
    rw [hc] at h4; dsimp only at h4
    cases hkk : kgaKey env d with
    | error e => rw [hkk] at h4; cases h4
    | ok k => rw [hkk] at h4; dsimp only at h4; rw [hk] at h4; cases h4
  · intro h3
    have : kgaKey env d = .ok none := by unfold kgaKey; rw [h3]
    unfold loadKga
    rw [hc]; dsimp only
    rw [this]; dsimp only
    rw [hk]

/-! ### Examples -/

/-- Certificates, keys and public keys are numbers; a file is named by its number, and the keys are encrypted under the
default password. -/
def exEnv : Env Nat Nat Nat where
  parseCert p := if p = "c1" then .ok 1 else if p = "c2" then .ok 2 else .error .valueError
  readChain _ := .ok []
  loadKey p w := if p = "k1" ∧ w = some "11111" then .ok 1 else if p = "k2" ∧ w = some "11111" then .ok 2 else .error .valueError
  pub k := k
  certPub c := .ok c
  trad _ := none
  sign _ := true
  pqSign _ := true
  hybridKem _ := true
  x25519 k := k = 1
  x448 k := k = 2
  ec _ := false

/-- A configuration from a list. -/
def exDict (l : List (String × String)) : Dict := fun n => (l.find? (fun x => x.1 = n)).map (fun x => some x.2)

example : load exEnv (exDict [("ca_cert", "c1"), ("ca_key", "k1"), ("kga_cert", "c2"), ("kga_key", "k2")]) =
    .ok ⟨(1, 1), (1, 1), none, [2], some 2, none⟩ := by decide +kernel

example : load exEnv (exDict [("ca_cert", "c1"), ("ca_key", "k2"), ("kga_cert", "c2")]) = .error .valueError := by decide +kernel

/-- **C256, refuted**: the key of the key generation authority need not belong to its certificate: the configuration is loaded,
and only the validation, which loading does not call, tells. -/
theorem C256_kga_pair_refuted : ∃ x, load exEnv (exDict [("ca_cert", "c1"), ("ca_key", "k1"), ("kga_cert", "c2"), ("kga_key", "k1")]) = .ok x ∧
    x.kgaCerts = [2] ∧ x.kgaKey = some 1 ∧ validate exEnv x = .error .valueError :=
  ⟨⟨(1, 1), (1, 1), none, [2], some 1, none⟩, by decide +kernel, rfl, rfl, by decide +kernel⟩

/-- **C256, refuted**: the default password is not used for the key of the protection: the same file is loaded as the CA's key,
and refused as the key for the protection. -/
theorem C256_default_password_refuted :
    (load exEnv (exDict [("ca_cert", "c1"), ("ca_key", "k1"), ("kga_cert", "c2")])).toOption.isSome ∧
    load exEnv (exDict [("ca_cert", "c1"), ("ca_key", "k1"), ("cmp_prot_cert", "c1"), ("cmp_prot_key", "k1"), ("kga_cert", "c2")]) =
      .error .valueError := by decide +kernel

/-! ## Keys for key agreement -/

/-- **C256** The keys for key agreement that are loaded are of their types and belong to their certificates. -/
theorem C256_agree (env : Env C K P) (d : Dict) (x : Agree C K) (h : loadAgree env d = .ok x) :
    (∀ z, x.x25519 = some z → env.x25519 z.2 = true ∧ Belongs env z.1 z.2) ∧
    (∀ z, x.x448 = some z → env.x448 z.2 = true ∧ Belongs env z.1 z.2) ∧
    (∀ z, x.ecc = some z → env.ec z.2 = true ∧ Belongs env z.1 z.2) := by
  have key : ∀ (kind : K → Bool) (o : Option (C × K)), checkEcc env kind o = .ok () →
      ∀ z, o = some z → kind z.2 = true ∧ Belongs env z.1 z.2 := by
    rintro kind o ho z rfl
    unfold checkEcc at ho
    cases hs : isSet env false (some (.obj z.1)) (some (.obj z.2)) with
    | error e =>
      dsimp only [Option.map_some] at ho
      rw [hs] at ho; cases ho
    | ok b =>
      dsimp only [Option.map_some] at ho
      rw [hs] at ho; dsimp only at ho
      split at ho
      · cases ho
      · rename_i hk
        refine ⟨any_false (p := fun x => kind x.2) hk z rfl, ?_⟩
        cases b with
        | false => exact absurd ((C256_is_set env false _ _).1.mp hs).1 (fun h => (nomatch h))
        | true =>
          obtain ⟨a, b, x, y, ha, hb, hx, hy, hh, _⟩ := (C256_is_set env false _ _).2.mp hs
          cases ha; cases hb; cases hx; cases hy
          exact hh rfl
  unfold loadAgree at h
  cases h1 : loadEcc env d "x25519_cert" "x25519_key" "x25519_key_pwd" with
  | error e => rw [h1] at h; cases h
  | ok a =>
    rw [h1] at h; dsimp only at h
    cases h2 : loadEcc env d "x448_cert" "x448_key" "x448_key_pwd" with
    | error e => rw [h2] at h; cases h
    | ok b =>
      rw [h2] at h; dsimp only at h
      cases h3 : loadEcc env d "ecc_cert" "ecc_key" "ecc_key_pwd" with
      | error e => rw [h3] at h; cases h
      | ok c =>
        rw [h3] at h; dsimp only at h
        cases h4 : checkAgree env ⟨a, b, c⟩ with
        | error e => rw [h4] at h; cases h
        | ok u =>
          rw [h4] at h
          cases h
          unfold checkAgree at h4
          dsimp only at h4
          cases h5 : checkEcc env env.x25519 a with
          | error e => rw [h5] at h4; cases h4
          | ok u =>
            rw [h5] at h4; dsimp only at h4
            cases h6 : checkEcc env env.x448 b with
            | error e => rw [h6] at h4; cases h4
            | ok u =>
              rw [h6] at h4; dsimp only at h4
              exact ⟨key _ _ h5, key _ _ h6, key _ _ h4⟩

example : loadAgree exEnv (exDict [("x25519_cert", "c1"), ("x25519_key", "k1"), ("x448_cert", "c2"), ("x448_key", "k2")]) =
    .ok ⟨some (1, 1), some (2, 2), none⟩ := by decide +kernel
example : loadAgree exEnv (exDict [("x25519_cert", "c1"), ("x25519_key", "k2")]) = .error .valueError := by decide +kernel

/-- **C256** The certificate for a challenge is that for the type of the key; if it is missing, another one is not taken. -/
theorem C256_ecc_cert (env : Env C K P) (a b c : Option C) (k : K) (x : C) : eccCert env a b c (some k) = .ok (some x) ↔
    (env.x448 k = true ∧ b = some x) ∨ (env.x448 k = false ∧ env.x25519 k = true ∧ a = some x) ∨
    (env.x448 k = false ∧ env.x25519 k = false ∧ c = some x) := by
  unfold eccCert
  cases h1 : env.x448 k <;> cases h2 : env.x25519 k <;> cases a <;> cases b <;> cases c <;> simp [h1, h2]

/-! ## The handler -/

section
variable {V : Type}

private theorem find_set (c : Config V) (n m : String) (v : V) :
    Config.find (Config.set c n v) m = if m = n then some v else Config.find c m := by
  induction c with
  | nil =>
    unfold Config.set Config.find
    by_cases h : m = n
    · subst h; simp
    · rw [if_neg h]; simpa using fun h' : n = m => h h'.symm
  | cons x r ih =>
    unfold Config.set
    by_cases hx : x.1 = n
    · rw [if_pos hx]
      unfold Config.find
      by_cases h : m = n
      · subst h; simp
      · rw [if_neg h]
        have : ¬ n = m := fun h' => h h'.symm
        have h2 : ¬ x.1 = m := fun h' => h (h'.symm.trans hx)
        simp [this, h2]
    · rw [if_neg hx]
      unfold Config.find at ih ⊢
      by_cases h : x.1 = m
      · have : m ≠ n := fun h' => hx (h.trans h')
        rw [if_neg this]
        simp [h]
      · simp only [List.find?_cons, h, decide_false]
        exact ih

private theorem find_fill (e : Config V) : ∀ (c : Config V) (m : String),
    Config.find (Config.fill c e) m = (Config.find c m).or (Config.find e m) := by
  induction e with
  | nil => intro c m; unfold Config.fill; cases h : Config.find c m <;> rfl
  | cons x r ih =>
    intro c m
    unfold Config.fill
    by_cases hx : (c.any fun y => y.1 = x.1) = true
    · rw [if_pos hx, ih]
      by_cases h : x.1 = m
      · have : Config.find c m ≠ none := by
          unfold Config.find
          intro h'
          rw [Option.map_eq_none_iff, List.find?_eq_none] at h'
          rw [List.any_eq_true] at hx
          obtain ⟨y, hy, hy'⟩ := hx
          exact h' y hy (by simpa [h] using hy')
        cases hc : Config.find c m with
        | none => exact absurd hc this
        | some v => rfl
      · have : Config.find (x :: r) m = Config.find r m := by unfold Config.find; simp [h]
        rw [this]
    · rw [if_neg hx, ih]
      have h1 : Config.find (c ++ [x]) m = (Config.find c m).or (Config.find [x] m) := by
        unfold Config.find
        rw [List.find?_append]
        cases List.find? (fun x => decide (x.1 = m)) c <;> rfl
      have h2 : Config.find (x :: r) m = (Config.find [x] m).or (Config.find r m) := by
        unfold Config.find
        by_cases h : x.1 = m
        · simp [h]
        · simp [h]
      rw [h1, h2, Option.or_assoc]

/-- **C256** In the state of the handler, the certificate and the key of the CA are those given, and each other value is that
of the configuration, or else that of the environment. -/
theorem C256_config (config : Config V) (hc : config ≠ []) (alt : V) (e : Config V) (cert key : V) (s : Config V)
    (h : opState (some config) alt e (some cert) (some key) = .ok s) :
    Config.find s "ca_cert" = some cert ∧ Config.find s "ca_key" = some key ∧
    ∀ n, n ≠ "ca_cert" → n ≠ "ca_key" → Config.find s n = (Config.find config n).or (Config.find e n) := by
  have hst : start (some config) alt = config := by
    unfold start
    cases config with
    | nil => exact absurd rfl hc
    | cons x r => rfl
  unfold opState at h
  dsimp only at h
  rw [hst] at h
  split at h
  · cases h
    refine ⟨?_, ?_, ?_⟩
    · rw [find_set, if_neg (by decide), find_set, if_pos rfl]
    · rw [find_set, if_pos rfl]
    · intro n h1 h2
      rw [find_set, if_neg h2, find_set, if_neg h1, find_fill]
  · cases h

/-- **C256, refuted**: a setting that the handler reads from its configuration beside the fields of the state cannot be given:
the chain of the CA, the further extensions and the path of a hybrid KEM key lead to a `TypeError`, in every configuration. -/
theorem C256_settings_refuted (config : Config V) (alt : V) (e : Config V) (cert key : V) (n : String)
    (hn : n ∈ ["ca_cert_chain", "extensions", "hybrid_kem_path", "hybrid_cert_path"]) (v : V) (hv : Config.find config n = some v) :
    opState (some config) alt e (some cert) (some key) = .error .typeError := by
  have hc : config ≠ [] := by rintro rfl; cases hv
  have hst : start (some config) alt = config := by
    unfold start
    cases config with
    | nil => exact absurd rfl hc
    | cons x r => rfl
  have hne : n ≠ "ca_cert" ∧ n ≠ "ca_key" ∧ fields.contains n = false := by
    simp only [List.mem_cons, List.not_mem_nil, or_false] at hn
    rcases hn with rfl | rfl | rfl | rfl <;> decide
  unfold opState
  dsimp only
  rw [hst]
  have hf : Config.find (Config.set (Config.set (Config.fill config e) "ca_cert" cert) "ca_key" key) n = some v := by
    rw [find_set, if_neg hne.2.1, find_set, if_neg hne.1, find_fill, hv]
    rfl
  rw [if_neg]
  intro hall
  unfold Config.find at hf
  rw [Option.map_eq_some_iff] at hf
  obtain ⟨y, hy, _⟩ := hf
  have hmem := List.mem_of_find?_eq_some hy
  have hyn := List.find?_some hy
  have := List.all_eq_true.mp hall y hmem
  rw [decide_eq_true_eq.mp hyn, hne.2.2] at this
  cases this

/-- **C256, refuted**: the alternative key given to the handler is not in its state if there is a configuration without it. -/
theorem C256_alt_key_refuted (config : Config V) (hc : config ≠ []) (alt : V) (e : Config V) (cert key : V) (s : Config V)
    (h1 : Config.find config "ca_alt_key" = none) (h2 : Config.find e "ca_alt_key" = none)
    (h : opState (some config) alt e (some cert) (some key) = .ok s) : Config.find s "ca_alt_key" = none := by
  rw [(C256_config config hc alt e cert key s h).2.2 _ (by decide) (by decide), h1, h2]
  rfl

example : opState (some [("ecc_key", 3)]) 9 [("x25519_key", 4), ("ecc_key", 5)] (some 1) (some 2) =
    .ok [("ecc_key", 3), ("x25519_key", 4), ("ca_cert", 1), ("ca_key", 2)] := by decide +kernel
example : opState (some []) 9 [] (some 1) (some 2) = .ok [("ca_alt_key", 9), ("ca_cert", 1), ("ca_key", 2)] := by decide +kernel
example : opState (some [("ca_cert_chain", 3)]) 9 [] (some 1) (some 2) = .error .typeError := by decide +kernel

end

/-! ## Keys in a list -/

/-- **C256** A key is found in a list exactly if a key with the same public key is there. -/
theorem C256_in_list (env : Env C K P) (keys : List K) (k : K) : inList env keys k = true ↔ ∃ k' ∈ keys, env.pub k' = env.pub k := by
  unfold inList
  rw [List.any_eq_true]
  constructor
  · rintro ⟨x, hx, h⟩
    refine ⟨x, hx, ?_⟩
    by_cases hp : env.pub x = env.pub k
    · exact hp
    · simp [notUnique, hp] at h
  · rintro ⟨x, hx, h⟩
    exact ⟨x, hx, by simp [notUnique, h]⟩

/-- **C256, refuted**: `check_public_key_is_not_unique` does not tell whether the keys are the same: for single keys it tells
that they differ, for two hybrid keys that they share a part. -/
theorem C256_not_unique_refuted {T : Type} [DecidableEq T] (x y t q : T) :
    (notUnique true (.single x) (.single y) = true ↔ x ≠ y) ∧ (notUnique false (.single x) (.single y) = true ↔ x ≠ y) ∧
    notUnique true (.hybrid t q) (.hybrid t q) = true ∧ notUnique false (.hybrid t q) (.hybrid t q) = false := by
  refine ⟨?_, ?_, ?_, ?_⟩ <;> simp [notUnique]

/-! ## Chains in a file -/

/-- A line of a block: it is not skipped and has no mark. -/
def Plain (l : Line) : Prop := skipped l = false ∧ occurs beginMark l = false ∧ occurs endMark l = false

private theorem blocks_plain (b : List Line) (hb : ∀ l ∈ b, Plain l) : ∀ (cur : Line) (r : List Line),
    blocks true cur (b ++ r) = blocks true (cur ++ b.flatten) r := by
  induction b with
  | nil => intro cur r; rw [List.flatten_nil, List.append_nil]; rfl
  | cons l b ih =>
    intro cur r
    obtain ⟨h1, h2, h3⟩ := hb l (List.mem_cons_self ..)
    rw [List.cons_append]
    conv => lhs; unfold blocks
    rw [if_neg (by rw [h1]; decide), if_neg (by rw [h2]; decide), if_neg (by rw [h3]; decide), if_pos rfl,
      ih (fun l hl => hb l (List.mem_cons_of_mem _ hl)), List.flatten_cons, List.append_assoc]

/-- A block with the lines before it. -/
structure Block where
  before : List Line
  first : Line
  lines : List Line
  last : Line

/-- The lines of a file. -/
def Block.text (b : Block) : List Line := b.before ++ b.first :: b.lines ++ [b.last]

/-- A block is well formed: it has the marks, and there are none elsewhere. -/
structure Block.Ok (b : Block) : Prop where
  before : ∀ l ∈ b.before, skipped l = true ∨ Plain l
  first : skipped b.first = false ∧ occurs beginMark b.first = true
  lines : ∀ l ∈ b.lines, Plain l
  last : skipped b.last = false ∧ occurs beginMark b.last = false ∧ occurs endMark b.last = true

private theorem blocks_before (p : List Line) (hp : ∀ l ∈ p, skipped l = true ∨ Plain l) : ∀ (cur : Line) (r : List Line),
    blocks false cur (p ++ r) = blocks false cur r := by
  induction p with
  | nil => intro cur r; rfl
  | cons l p ih =>
    intro cur r
    have ih := ih (fun l hl => hp l (List.mem_cons_of_mem _ hl))
    rw [List.cons_append]
    conv => lhs; unfold blocks
    rcases hp l (List.mem_cons_self ..) with h | ⟨h1, h2, h3⟩
    · rw [if_pos h, ih]
    · rw [if_neg (by rw [h1]; decide), if_neg (by rw [h2]; decide), if_neg (by rw [h3]; decide), if_neg (by decide), ih]

/-- **C256** A file with well-formed blocks has as many certificates, in their order, each the text between its marks,
whatever stands between the blocks. -/
theorem C256_chain (bs : List Block) (h : ∀ b ∈ bs, b.Ok) : ∀ cur,
    blocks false cur (bs.map Block.text).flatten = bs.map (fun b => b.lines.flatten) := by
  induction bs with
  | nil => intro cur; rfl
  | cons b bs ih =>
    intro cur
    have hb := h b (List.mem_cons_self ..)
    have ih := ih (fun b hb => h b (List.mem_cons_of_mem _ hb))
    rw [List.map_cons, List.flatten_cons, List.map_cons]
    unfold Block.text
    rw [List.append_assoc, List.append_assoc, blocks_before _ hb.before, List.cons_append]
    conv => lhs; unfold blocks
    rw [if_neg (by rw [hb.first.1]; decide), if_pos hb.first.2, blocks_plain _ hb.lines, List.nil_append, List.cons_append,
      List.nil_append]
    conv => lhs; unfold blocks
    rw [if_neg (by rw [hb.last.1]; decide), if_neg (by rw [hb.last.2.1]; decide), if_pos hb.last.2.2]
    exact congrArg _ (ih _)

example : blocks false [] ["# chain".toList, "-----BEGIN CERTIFICATE-----".toList, "AAAA".toList, "BB==".toList,
    "-----END CERTIFICATE-----".toList, "subject".toList, "-----BEGIN CERTIFICATE-----".toList, "CCCC".toList,
    "-----END CERTIFICATE-----".toList] = ["AAAABB==".toList, "CCCC".toList] := by decide +kernel

/-- **C256, refuted**: a block without its end is left out without an error, and a second end yields the certificate before it
once more. -/
theorem C256_chain_marks_refuted :
    blocks false [] ["-----BEGIN CERTIFICATE-----".toList, "AAAA".toList] = [] ∧
    blocks false [] ["-----BEGIN CERTIFICATE-----".toList, "AAAA".toList, "-----END CERTIFICATE-----".toList,
      "-----END CERTIFICATE-----".toList] = ["AAAA".toList, "AAAA".toList] := by decide +kernel

end Verif.CA.Setup
