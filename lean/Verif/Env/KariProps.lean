import Verif.Env.KtriProps

/-!
# C151: key agreement recipients of `EnvelopedData`
-/

namespace Verif.Env

open Verif.CA Verif.Prot

variable {S K C : Type}

/-! ## Specification -/

/-- The originator is named by the certificate: subject key identifier, else issuer and serial number. -/
inductive OrigOf (env : KEnv S K C) (c : C) : Orig → Prop
  | ski {b : Bytes} : env.skiOf c = some b → OrigOf env c (.ski b)
  | iss : env.skiOf c = none → OrigOf env c (.iss (env.issuerOf c) (env.serialOf c))

/-- The same for the recipient. -/
inductive KaRidOf (env : KEnv S K C) (c : C) : KaRid → Prop
  | rKey {b : Bytes} : env.skiOf c = some b → KaRidOf env c (.rKey b)
  | iss : env.skiOf c = none → KaRidOf env c (.iss (env.issuerOf c) (env.serialOf c))

/-- Static Diffie-Hellman (RFC 5753, section 7.1.4): OID, with the cofactor?, hash. For X25519, X448 and `id-alg-ESDH` the
hash is SHA-256. -/
def dhSpec : List (Oid × Bool × String) :=
  [([1, 3, 132, 1, 11, 0], false, "sha224"), ([1, 3, 132, 1, 11, 1], false, "sha256"),
   ([1, 3, 132, 1, 11, 2], false, "sha384"), ([1, 3, 132, 1, 11, 3], false, "sha512"),
   ([1, 3, 132, 1, 14, 0], true, "sha224"), ([1, 3, 132, 1, 14, 1], true, "sha256"),
   ([1, 3, 132, 1, 14, 2], true, "sha384"), ([1, 3, 132, 1, 14, 3], true, "sha512"),
   ([1, 3, 101, 110], false, "sha256"), ([1, 3, 101, 111], false, "sha256"),
   ([1, 2, 840, 113549, 1, 9, 16, 3, 5], false, "sha256")]

/-- One-pass MQV. -/
def mqvSpec : List (Oid × String) :=
  [([1, 3, 132, 1, 15, 0], "sha224"), ([1, 3, 132, 1, 15, 1], "sha256"), ([1, 3, 132, 1, 15, 2], "sha384"),
   ([1, 3, 132, 1, 15, 3], "sha512")]

/-- The key encryption key from the shared secret `z` (RFC 5753, section 7.2): the key derivation of ANSI X9.63 on the
encoded `ECC-CMS-SharedInfo`. -/
def kekSpec (env : KEnv S K C) (h : String) (z : Bytes) (w : Oid) (ukm : Option Bytes) (n : Nat) : Bytes :=
  kdfSpec env.toMacEnv h true z (env.encShared w ukm (8 * n)) n

/-- `KariKek env a s c ukm kek`: the key that the recipient derives with their key `s` and the certificate `c` of the
sender. -/
inductive KariKek (env : KEnv S K C) : RawAlg → S → C → Option Bytes → Bytes → Prop
  | dh {o w : Oid} {b z : Bytes} {co : Bool} {h : String} {s : S} {c : C} {k : K} {n : Nat} (ukm : Option Bytes) :
      (o, co, h) ∈ dhSpec → env.decWrapAlg b = some (w, []) → WrapAlg w n → env.keyOf c = .ok k →
      env.isEcdhPub k = true → (co = true → env.isX s = false) → env.dh s k co = .ok z →
      KariKek env ⟨o, some b⟩ s c ukm (kekSpec env h z w ukm n)
  | mqv {o w : Oid} {b z mb : Bytes} {h : String} {s : S} {c : C} {k e : K} {u : Option Bytes} {n : Nat} :
      (o, h) ∈ mqvSpec → env.decWrapAlg b = some (w, []) → WrapAlg w n → env.isEc s = true →
      env.decMqv mb = some (([1, 2, 840, 10045, 2, 1], .ok e, u), []) → env.isEcPub e = true → env.keyOf c = .ok k →
      env.isEcPub k = true → env.mqvRecv s k e = .ok z →
      KariKek env ⟨o, some b⟩ s c (some mb) (kekSpec env h z w u n)

/-- `KariKey env k c s pop kc cek`: version 3; originator and the one recipient both name the certificate `c` (unless
`pop`); the encrypted key is unwrapped with the key derived with the certificate `kc`, or `c` if there is none. -/
inductive KariKey (env : KEnv S K C) (k : Kari) (c : Option C) (s : S) (pop : Bool) (kc : Option C) : Bytes → Prop
  | mk {o : Orig} {a : RawAlg} {r : KaRid} {ek kek cek : Bytes} {x : C} : env.isEcdh s = true → k.version = some 3 →
      k.orig = some o → k.alg = some a → k.keys = some [(r, ek)] →
      (pop = false → ∃ c', c = some c' ∧ OrigOf env c' o ∧ KaRidOf env c' r) →
      (kc = some x ∨ kc = none ∧ c = some x) → KariKek env a s x k.ukm kek → env.unwrap kek ek = .ok cek →
      KariKey env k c s pop kc cek

/-! ## Lemmas -/

theorem checkOrig_iff (env : KEnv S K C) (o : Orig) (c : C) : checkOrig env o c = .ok () ↔ OrigOf env c o := by
  unfold checkOrig
  constructor
  · intro h
    cases hs : env.skiOf c with
    | some k =>
      rw [hs] at h
      cases o with
      | ski b =>
        dsimp only at h
        split at h
        · cases h
        · rename_i hk
          have hk' : k = b := Classical.not_not.mp hk
          subst hk'
          exact .ski hs
      | iss i n => cases h
      | key b => cases h
    | none =>
      rw [hs] at h
      cases o with
      | iss i n =>
        obtain ⟨rfl, rfl⟩ := (issSer_iff env i n c).mp h
        exact .iss hs
      | ski b => cases h
      | key b => cases h
  · intro h
    cases h with
    | ski hs => rw [hs]; simp
    | iss hs => rw [hs]; exact (issSer_iff env _ _ c).mpr ⟨rfl, rfl⟩

theorem checkKaRid_iff (env : KEnv S K C) (r : KaRid) (c : C) : checkKaRid env r c = .ok () ↔ KaRidOf env c r := by
  unfold checkKaRid
  constructor
  · intro h
    cases hs : env.skiOf c with
    | some k =>
      rw [hs] at h
      cases r with
      | rKey b =>
        dsimp only at h
        split at h
        · cases h
        · rename_i hk
          have hk' : b = k := Classical.not_not.mp hk
          subst hk'
          exact .rKey hs
      | iss i n => cases h
    | none =>
      rw [hs] at h
      cases r with
      | iss i n =>
        obtain ⟨rfl, rfl⟩ := (issSer_iff env i n c).mp h
        exact .iss hs
      | rKey b => cases h
  · intro h
    cases h with
    | rKey hs => rw [hs]; simp
    | iss hs => rw [hs]; exact (issSer_iff env _ _ c).mpr ⟨rfl, rfl⟩

theorem dh_rows : ∀ x ∈ dhSpec, look mqvAlgs x.1 = none ∧ isKaAlg x.1 = true ∧ hashInst x.2.2 = .ok x.2.2 ∧
    (if x.1 = x25519Oid ∨ x.1 = x448Oid ∨ x.1 = esdhOid then x.2 = (false, "sha256") else ecdhOf ecdhAlgs x.1 = some x.2) := by
  decide +kernel

theorem mqv_rows : ∀ x ∈ mqvSpec, look mqvAlgs x.1 = some x.2 ∧ isKaAlg x.1 = true ∧ hashInst x.2 = .ok x.2 := by
  decide +kernel

theorem mqvAlgs_eq : mqvAlgs = mqvSpec := rfl

theorem ecdhOf_mem : ∀ (l : List (Oid × Bool × String)) (o : Oid) (x : Bool × String), ecdhOf l o = some x → (o, x) ∈ l
  | (a, y) :: l, o, x, h => by
    unfold ecdhOf at h
    split at h
    · rename_i ha
      cases h
      subst ha
      exact List.mem_cons_self
    · exact List.mem_cons_of_mem _ (ecdhOf_mem l o x h)

theorem ecdhAlgs_sub : ∀ x ∈ ecdhAlgs, x ∈ dhSpec := by decide +kernel

theorem kariKdf_iff (env : KEnv S K C) (w : Oid) (h : String) (ukm : Option Bytes) (z kek : Bytes)
    (hi : hashInst h = .ok h) (hne : ∀ n x, env.H n x ≠ []) :
    kariKdf env w h ukm z = .ok kek ↔ ∃ n, WrapAlg w n ∧ kek = kekSpec env h z w ukm n := by
  unfold kariKdf
  cases hl : lenOf wrapLens w with
  | none =>
    refine ⟨nofun, fun ⟨n, hn, _⟩ => ?_⟩
    rw [(lenOf_wrap w n).mpr hn] at hl
    cases hl
  | some n =>
    dsimp only
    rw [x963_eq env.toMacEnv h h true z _ n hi (hne h)]
    constructor
    · intro he
      cases he
      exact ⟨n, (lenOf_wrap w n).mp hl, rfl⟩
    · rintro ⟨n', hn, rfl⟩
      rw [(lenOf_wrap w n').mpr hn] at hl
      cases hl
      rfl

theorem staticDh_iff (env : KEnv S K C) (s : S) (k : K) (h : String) (w : Oid) (ukm : Option Bytes) (co : Bool)
    (kek : Bytes) (hi : hashInst h = .ok h) (hne : ∀ n x, env.H n x ≠ []) :
    staticDh env s k h w ukm co = .ok kek ↔ ∃ n z, WrapAlg w n ∧ (co = true → env.isX s = false) ∧
      env.dh s k co = .ok z ∧ kek = kekSpec env h z w ukm n := by
  unfold staticDh ecdhOn
  constructor
  · intro he
    split at he
    · cases he
    · split at he
      · cases he
      · rename_i z hz
        obtain ⟨n, h1, h2⟩ := (kariKdf_iff env w h ukm z kek hi hne).mp he
        split at hz
        · cases hz
        · rename_i hc
          refine ⟨n, z, h1, fun hco => ?_, hz, h2⟩
          cases hx : env.isX s with
          | false => rfl
          | true => exact absurd ⟨hco, hx⟩ hc
  · rintro ⟨n, z, h1, h2, h3, h4⟩
    rw [if_neg (by rw [(lenOf_wrap w n).mpr h1]; simp), if_neg (by
      rintro ⟨g1, g2⟩
      rw [h2 g1] at g2
      cases g2), h3]
    exact (kariKdf_iff env w h ukm z kek hi hne).mpr ⟨n, h1, h4⟩

theorem staticDhCert_iff (env : KEnv S K C) (s : S) (c : C) (h : String) (w : Oid) (ukm : Option Bytes) (co : Bool)
    (kek : Bytes) (hi : hashInst h = .ok h) (hne : ∀ n x, env.H n x ≠ []) :
    staticDhCert env s c h w ukm co = .ok kek ↔ ∃ k n z, env.keyOf c = .ok k ∧ env.isEcdhPub k = true ∧ WrapAlg w n ∧
      (co = true → env.isX s = false) ∧ env.dh s k co = .ok z ∧ kek = kekSpec env h z w ukm n := by
  unfold staticDhCert ecdhCertKey
  constructor
  · intro he
    split at he
    · cases he
    · cases hk : env.keyOf c with
      | error e => rw [hk] at he; cases he
      | ok k =>
        rw [hk] at he
        dsimp only at he
        by_cases hp : env.isEcdhPub k = true
        · rw [if_pos hp] at he
          obtain ⟨n, z, h1, h2, h3, h4⟩ := (staticDh_iff env s k h w ukm co kek hi hne).mp he
          exact ⟨k, n, z, rfl, hp, h1, h2, h3, h4⟩
        · rw [if_neg hp] at he
          cases he
  · rintro ⟨k, n, z, hk, hp, h1, h2, h3, h4⟩
    rw [if_neg (by rw [(lenOf_wrap w n).mpr h1]; simp), hk]
    dsimp only
    rw [if_pos hp]
    exact (staticDh_iff env s k h w ukm co kek hi hne).mpr ⟨n, z, h1, h2, h3, h4⟩

theorem processKari_iff (env : KEnv S K C) (a : RawAlg) (s : S) (c : C) (ukm : Option Bytes) (kek : Bytes)
    (hne : ∀ n x, env.H n x ≠ []) : processKari env a s c ukm = .ok kek ↔ KariKek env a s c ukm kek := by
  obtain ⟨o, par⟩ := a
  constructor
  · intro he
    unfold processKari at he
    cases par with
    | none => cases he
    | some b =>
      dsimp only at he
      cases hw : env.decWrapAlg b with
      | none => rw [hw] at he; cases he
      | some y =>
        obtain ⟨w, r⟩ := y
        rw [hw] at he
        dsimp only at he
        by_cases hr : r = []
        · subst hr
          rw [if_neg (by simp)] at he
          unfold kariBy at he
          cases hm : look mqvAlgs o with
          | some h =>
            rw [hm] at he
            dsimp only at he
            have hmem : (o, h) ∈ mqvSpec := mem_of_look _ _ _ hm
            split at he
            · rename_i hec
              unfold processMqv at he
              cases ukm with
              | none => cases he
              | some mb =>
                dsimp only at he
                cases hd : env.decMqv mb with
                | none => rw [hd] at he; cases he
                | some y =>
                  obtain ⟨⟨eo, ek, u⟩, r⟩ := y
                  rw [hd] at he
                  dsimp only at he
                  split at he
                  · cases he
                  · rename_i hr
                    have hr' : r = [] := Classical.not_not.mp hr
                    subst hr'
                    split at he
                    · cases he
                    · rename_i heo
                      have heo' : eo = ecOid := Classical.not_not.mp heo
                      subst heo'
                      cases ek with
                      | error e => cases he
                      | ok e =>
                        dsimp only at he
                        split at he
                        · rename_i hep
                          unfold mqvOne at he
                          cases hk : env.keyOf c with
                          | error e => rw [hk] at he; cases he
                          | ok k =>
                            rw [hk] at he
                            dsimp only at he
                            split at he
                            · rename_i hkp
                              cases hz : env.mqvRecv s k e with
                              | error e => rw [hz] at he; cases he
                              | ok z =>
                                rw [hz] at he
                                obtain ⟨n, h1, h2⟩ := (kariKdf_iff env w h u z kek (mqv_rows _ hmem).2.2 hne).mp he
                                subst h2
                                exact .mqv hmem hw h1 hec hd hep hk hkp hz
                            · cases he
                        · cases he
            · cases he
          | none =>
            rw [hm] at he
            dsimp only at he
            have key : ∀ co h, (o, co, h) ∈ dhSpec → staticDhCert env s c h w ukm co = .ok kek →
                KariKek env ⟨o, some b⟩ s c ukm kek := by
              intro co h hmem hs
              obtain ⟨k, n, z, g1, g2, g3, g4, g5, rfl⟩ :=
                (staticDhCert_iff env s c h w ukm co kek (dh_rows _ hmem).2.2.1 hne).mp hs
              exact .dh ukm hmem hw g3 g1 g2 g4 g5
            split at he
            · rename_i ho
              refine key false "sha256" ?_ he
              rcases ho with rfl | rfl | rfl <;> decide +kernel
            · cases hd : ecdhOf ecdhAlgs o with
              | none => rw [hd] at he; cases he
              | some y =>
                rw [hd] at he
                exact key y.1 y.2 (ecdhAlgs_sub _ (ecdhOf_mem _ _ _ hd)) he
        · rw [if_pos hr] at he
          cases he
  · intro h
    cases h with
    | dh ukm hmem hw h1 h2 h3 h4 h5 =>
      obtain ⟨t1, _, t3, t4⟩ := dh_rows _ hmem
      dsimp only at t1 t3 t4
      unfold processKari
      dsimp only
      rw [hw]
      dsimp only
      rw [if_neg (by simp)]
      unfold kariBy
      rw [t1]
      dsimp only
      split
      · rename_i ho
        rw [if_pos ho] at t4
        cases t4
        exact (staticDhCert_iff env s c _ _ ukm _ _ t3 hne).mpr ⟨_, _, _, h2, h3, h1, h4, h5, rfl⟩
      · rename_i ho
        rw [if_neg ho] at t4
        rw [t4]
        exact (staticDhCert_iff env s c _ _ ukm _ _ t3 hne).mpr ⟨_, _, _, h2, h3, h1, h4, h5, rfl⟩
    | mqv hmem hw h1 hec hd hep hk hkp hz =>
      obtain ⟨t1, _, t3⟩ := mqv_rows _ hmem
      dsimp only at t1 t3
      unfold processKari
      dsimp only
      rw [hw]
      dsimp only
      rw [if_neg (by simp)]
      unfold kariBy
      rw [t1]
      dsimp only
      rw [if_pos hec]
      unfold processMqv
      dsimp only
      rw [hd]
      dsimp only
      rw [if_neg (by simp), if_neg (by decide), if_pos hep]
      unfold mqvOne
      rw [hk]
      dsimp only
      rw [if_pos hkp, hz]
      exact (kariKdf_iff env _ _ _ _ _ t3 hne).mpr ⟨_, h1, rfl⟩

theorem kek_alg {env : KEnv S K C} {a : RawAlg} {s : S} {c : C} {ukm : Option Bytes} {kek : Bytes}
    (h : KariKek env a s c ukm kek) : isKaAlg a.oid = true ∧ (ukm = none → look mqvAlgs a.oid = none) := by
  cases h with
  | dh ukm hmem => exact ⟨(dh_rows _ hmem).2.1, fun _ => (dh_rows _ hmem).1⟩
  | mqv hmem => exact ⟨(mqv_rows _ hmem).2.1, nofun⟩

theorem checkKari_ok (env : KEnv S K C) {k : Kari} {c : Option C} {pop : Bool} {ek : Bytes} {a : RawAlg}
    {u : Option Bytes} (h : checkKari env k c pop = .ok (ek, a, u)) : ∃ o r, k.version = some 3 ∧ k.orig = some o ∧
      k.alg = some a ∧ k.keys = some [(r, ek)] ∧ u = k.ukm ∧
      (pop = false → ∃ c', c = some c' ∧ OrigOf env c' o ∧ KaRidOf env c' r) := by
  obtain ⟨v, orig, ukm, alg, keys⟩ := k
  unfold checkKari at h
  dsimp only at h
  split at h
  · cases h
  · rename_i hc
    cases v with
    | none => cases h
    | some v =>
      dsimp only at h
      split at h
      · cases h
      · rename_i hv
        have hv' : v = 3 := Classical.not_not.mp hv
        subst hv'
        cases orig with
        | none => cases h
        | some o =>
          dsimp only at h
          cases ho : kariOrig env o c pop with
          | error e => rw [ho] at h; cases h
          | ok y =>
            rw [ho] at h
            cases alg with
            | none => cases h
            | some a' =>
              dsimp only at h
              split at h
              · unfold kariKeys at h
                dsimp only at h
                split at h
                · cases h
                · cases keys with
                  | none => cases h
                  | some l =>
                    cases l with
                    | nil => cases h
                    | cons x l =>
                      cases l with
                      | cons _ _ => cases h
                      | nil =>
                        obtain ⟨r, e⟩ := x
                        dsimp only at h
                        cases hr : recipKey env (r, e) c pop with
                        | error x => rw [hr] at h; cases h
                        | ok e' =>
                          rw [hr] at h
                          cases h
                          unfold recipKey at hr
                          unfold kariOrig at ho
                          cases pop with
                          | true =>
                            cases hr
                            exact ⟨o, r, rfl, rfl, rfl, rfl, rfl, nofun⟩
                          | false =>
                            cases c with
                            | none => cases hr
                            | some c =>
                              rw [if_neg (by simp)] at hr ho
                              dsimp only at hr ho
                              cases hk : checkKaRid env r c with
                              | error x => rw [hk] at hr; cases hr
                              | ok y =>
                                rw [hk] at hr
                                cases hr
                                exact ⟨o, r, rfl, rfl, rfl, rfl, rfl,
                                  fun _ => ⟨c, rfl, (checkOrig_iff env o c).mp ho, (checkKaRid_iff env r c).mp hk⟩⟩
              · cases h

theorem ok_checkKari (env : KEnv S K C) {k : Kari} {c : Option C} {pop : Bool} {ek : Bytes} {a : RawAlg} {o : Orig}
    {r : KaRid} (h1 : k.version = some 3) (h2 : k.orig = some o) (h3 : k.alg = some a) (h4 : k.keys = some [(r, ek)])
    (h5 : pop = false → ∃ c', c = some c' ∧ OrigOf env c' o ∧ KaRidOf env c' r) (h6 : isKaAlg a.oid = true)
    (h7 : k.ukm = none → look mqvAlgs a.oid = none) : checkKari env k c pop = .ok (ek, a, k.ukm) := by
  obtain ⟨v, orig, ukm, alg, keys⟩ := k
  dsimp only at h1 h2 h3 h4 h7
  subst h1 h2 h3 h4
  unfold checkKari
  dsimp only
  have hko : kariOrig env o c pop = .ok () := by
    unfold kariOrig
    cases pop with
    | true => rfl
    | false =>
      obtain ⟨c', rfl, g1, _⟩ := h5 rfl
      exact (checkOrig_iff env o c').mpr g1
  have hkr : recipKey env (r, ek) c pop = .ok ek := by
    unfold recipKey
    cases pop with
    | true => rfl
    | false =>
      obtain ⟨c', rfl, _, g2⟩ := h5 rfl
      rw [if_neg (by simp)]
      dsimp only
      rw [(checkKaRid_iff env r c').mpr g2]
  rw [if_neg (by
    rintro ⟨g1, g2⟩
    obtain ⟨c', rfl, _⟩ := h5 g1
    cases g2), if_neg (by decide), hko]
  dsimp only
  rw [if_pos h6]
  unfold kariKeys
  dsimp only
  rw [if_neg (by
    rintro ⟨g1, g2⟩
    rw [h7 (Option.isNone_iff_eq_none.mp g1)] at g2
    cases g2), hkr]

/-! ## C151 -/

/-- C151: the content encryption key of a key agreement recipient: all conditions hold, and it is the unwrapped one. -/
theorem C151_iff (env : KEnv S K C) (k : Kari) (c : Option C) (s : S) (pop : Bool) (kc : Option C) (cek : Bytes)
    (hne : ∀ n x, env.H n x ≠ []) : kariCek env k c s pop kc = .ok cek ↔ KariKey env k c s pop kc cek := by
  unfold kariCek
  constructor
  · intro h
    split at h
    · cases h
    · rename_i hs
      cases hc : checkKari env k c pop with
      | error e => rw [hc] at h; cases h
      | ok y =>
        obtain ⟨ek, a, u⟩ := y
        rw [hc] at h
        dsimp only at h
        obtain ⟨o, r, h1, h2, h3, h4, rfl, h6⟩ := checkKari_ok env hc
        cases hx : kariCertOr kc c with
        | none => rw [hx] at h; cases h
        | some x =>
          rw [hx] at h
          dsimp only at h
          cases hp : processKari env a s x k.ukm with
          | error e => rw [hp] at h; cases h
          | ok kek =>
            rw [hp] at h
            refine .mk (by simpa using hs) h1 h2 h3 h4 h6 ?_ ((processKari_iff env a s x k.ukm kek hne).mp hp) h
            cases kc with
            | none => exact Or.inr ⟨rfl, hx⟩
            | some x' => cases hx; exact Or.inl rfl
  · intro h
    cases h with
    | @mk o a r ek kek _ x h0 h1 h2 h3 h4 h5 h6 h7 h8 =>
      obtain ⟨g1, g2⟩ := kek_alg h7
      rw [if_neg (by simp [h0]), ok_checkKari env h1 h2 h3 h4 h5 g1 g2]
      dsimp only
      have hx : kariCertOr kc c = some x := by
        rcases h6 with rfl | ⟨rfl, rfl⟩ <;> rfl
      rw [hx]
      dsimp only
      rw [(processKari_iff env a s x k.ukm kek hne).mpr h7]
      exact h8

/-- C151: originator and recipient both name the given certificate. -/
theorem C151_named (env : KEnv S K C) {k : Kari} {c : Option C} {s : S} {kc : Option C} {cek : Bytes}
    (h : kariCek env k c s false kc = .ok cek) : ∃ c' o r ek, c = some c' ∧ k.orig = some o ∧ k.keys = some [(r, ek)] ∧
      OrigOf env c' o ∧ KaRidOf env c' r := by
  unfold kariCek at h
  split at h
  · cases h
  · cases hc : checkKari env k c false with
    | error e => rw [hc] at h; cases h
    | ok y =>
      obtain ⟨o, r, _, h2, _, h4, _, h6⟩ := checkKari_ok env (ek := y.1) (a := y.2.1) (u := y.2.2) hc
      obtain ⟨c', g1, g2, g3⟩ := h6 rfl
      exact ⟨c', o, r, _, g1, h2, h4, g2, g3⟩

/-! ## Round trip -/

theorem buildKari_shape (env : KEnv S K C) {x448 : K → Bool} {k : K} {s gen : S} {cek ukm : Bytes} {c : C}
    {o : KaOpts S} {r : Kari} (h : buildKari env x448 k s gen cek ukm (some c) none none none o = .ok r) :
    ∃ oid kek u ek og ri, kariOid env x448 k o = .ok oid ∧ kariSender env s gen k o ukm = .ok (kek, u) ∧
      env.wrap kek cek = .ok ek ∧ OrigOf env c og ∧ KaRidOf env c ri ∧
      r = ⟨some 3, some og, some u, some ⟨oid, some (env.encWrapAlg o.wrapOid)⟩, some [(ri, ek)]⟩ := by
  unfold buildKari at h
  cases h1 : kariOid env x448 k o with
  | error e => rw [h1] at h; cases h
  | ok oid =>
    rw [h1] at h
    dsimp only at h
    cases h2 : kariSender env s gen k o ukm with
    | error e => rw [h2] at h; cases h
    | ok y =>
      obtain ⟨kek, u⟩ := y
      rw [h2] at h
      dsimp only at h
      cases h3 : env.wrap kek cek with
      | error e => rw [h3] at h; cases h
      | ok ek =>
        rw [h3] at h
        dsimp only at h
        unfold kariInfo at h
        rw [if_neg (by simp)] at h
        unfold origOr buildOrig buildKaRid kaRidRest at h
        cases hs : env.skiOf c with
        | some b =>
          simp only [hs, Option.bind_some] at h
          cases h
          exact ⟨oid, kek, u, ek, .ski b, .rKey b, rfl, rfl, h3, .ski hs, .rKey hs, rfl⟩
        | none =>
          simp only [hs, Option.bind_some] at h
          cases h
          exact ⟨oid, kek, u, ek, _, _, rfl, rfl, h3, .iss hs, .iss hs, rfl⟩

theorem ecdhOid_row : ∀ co h o, ecdhOid ecdhAlgs co h = some o → (o, co, h) ∈ dhSpec := by
  have gen : ∀ (l : List (Oid × Bool × String)) co h o, ecdhOid l co h = some o → (o, co, h) ∈ l := by
    intro l
    induction l with
    | nil => intro co h o he; cases he
    | cons x l ih =>
      obtain ⟨a, b, f⟩ := x
      intro co h o he
      unfold ecdhOid at he
      split at he
      · rename_i hc
        obtain ⟨rfl, rfl⟩ := hc
        cases he
        exact List.mem_cons_self
      · exact List.mem_cons_of_mem _ (ih co h o he)
  intro co h o he
  exact ecdhAlgs_sub _ (gen _ _ _ _ he)

/-- C151: static Diffie-Hellman: what the sender builds for the certificate `c` is opened by a recipient whose exchange
with the certificate `kc` of the sender gives the same secret. For X25519 and X448 the hash has to be SHA-256. -/
theorem C151_roundtrip_dh (env : KEnv S K C) {x448 : K → Bool} {k k' : K} {s gen s' : S} {cek ukm : Bytes} {c kc : C}
    {o : KaOpts S} {r : Kari} {pop : Bool} (hne : ∀ n x, env.H n x ≠ [])
    (h : buildKari env x448 k s gen cek ukm (some c) none none none o = .ok r) (hm : o.mqv = false) (ho : o.oid = none)
    (hx : env.isXPub k = true → o.hash = "sha256" ∧ o.cofactor = false)
    (hw : ∀ w, env.decWrapAlg (env.encWrapAlg w) = some (w, []))
    (hu : ∀ kek ek, env.wrap kek cek = .ok ek → env.unwrap kek ek = .ok cek) (hs : env.isEcdh s' = true)
    (hk : env.keyOf kc = .ok k') (hk' : env.isEcdhPub k' = true) (hxx : o.cofactor = true → env.isX s' = false)
    (hd : env.dh s' k' o.cofactor = env.dh s k o.cofactor) :
    kariCek env r (some c) s' pop (some kc) = .ok cek := by
  obtain ⟨oid, kek, u, ek, og, ri, h1, h2, h3, h4, h5, rfl⟩ := buildKari_shape env h
  have hmem : (oid, o.cofactor, o.hash) ∈ dhSpec := by
    unfold kariOid at h1
    rw [ho] at h1
    dsimp only at h1
    split at h1
    · rename_i hxk
      obtain ⟨e1, e2⟩ := hx hxk
      rw [e1, e2]
      cases h1
      split <;> decide +kernel
    · rw [hm, if_neg (by simp)] at h1
      unfold ecdhOidE at h1
      cases he : ecdhOid ecdhAlgs o.cofactor o.hash with
      | none => rw [he] at h1; cases h1
      | some x =>
        rw [he] at h1
        cases h1
        exact ecdhOid_row _ _ _ he
  unfold kariSender at h2
  rw [hm, if_neg (by simp)] at h2
  cases hsd : staticDh env s k o.hash o.wrapOid (some ukm) o.cofactor with
  | error e => rw [hsd] at h2; cases h2
  | ok y =>
    rw [hsd] at h2
    cases h2
    obtain ⟨n, z, g1, _, g3, rfl⟩ :=
      (staticDh_iff env s k o.hash o.wrapOid (some ukm) o.cofactor kek (dh_rows _ hmem).2.2.1 hne).mp hsd
    refine (C151_iff env _ (some c) s' pop (some kc) cek hne).mpr
      (.mk hs rfl rfl rfl rfl (fun _ => ⟨c, rfl, h4, h5⟩) (Or.inl rfl)
        (.dh (some ukm) hmem (hw _) g1 hk hk' hxx (by rw [hd, g3])) (hu _ _ h3))

/-- C151: one-pass MQV: the same, if the two sides of the exchange agree on the secret. -/
theorem C151_roundtrip_mqv (env : KEnv S K C) {x448 : K → Bool} {k k' : K} {s gen s' : S} {cek ukm : Bytes} {c kc : C}
    {o : KaOpts S} {r : Kari} {pop : Bool} (hne : ∀ n x, env.H n x ≠ [])
    (h : buildKari env x448 k s gen cek ukm (some c) none none none o = .ok r) (hm : o.mqv = true) (ho : o.oid = none)
    (hx : env.isXPub k = false)
    (hw : ∀ w, env.decWrapAlg (env.encWrapAlg w) = some (w, []))
    (hq : ∀ e u, env.decMqv (env.encMqv e u) = some (([1, 2, 840, 10045, 2, 1], .ok e, u), []))
    (hu : ∀ kek ek, env.wrap kek cek = .ok ek → env.unwrap kek ek = .ok cek) (hs : env.isEcdh s' = true)
    (hs' : env.isEc s' = true) (he : env.isEcPub (env.pubOf (o.eph.getD gen)) = true)
    (hk : env.keyOf kc = .ok k') (hk' : env.isEcPub k' = true)
    (hd : env.mqvRecv s' k' (env.pubOf (o.eph.getD gen)) = env.mqvSend s (o.eph.getD gen) k) :
    kariCek env r (some c) s' pop (some kc) = .ok cek := by
  obtain ⟨oid, kek, u, ek, og, ri, h1, h2, h3, h4, h5, rfl⟩ := buildKari_shape env h
  have hmem : (oid, o.hash) ∈ mqvSpec := by
    unfold kariOid at h1
    rw [ho, hx, hm] at h1
    dsimp only at h1
    rw [if_neg (by simp), if_pos rfl] at h1
    unfold mqvOidE at h1
    cases hl : lookOid mqvAlgs o.hash with
    | none => rw [hl] at h1; cases h1
    | some y =>
      rw [hl] at h1
      cases h1
      exact lookOid_mem _ _ _ hl
  unfold kariSender at h2
  rw [hm, if_pos rfl] at h2
  split at h2
  · cases h2
  · unfold mqvSender at h2
    cases hz : env.mqvSend s (o.eph.getD gen) k with
    | error e => rw [hz] at h2; cases h2
    | ok z =>
      rw [hz] at h2
      dsimp only at h2
      cases hkd : kariKdf env o.wrapOid o.hash (some ukm) z with
      | error e => rw [hkd] at h2; cases h2
      | ok y =>
        rw [hkd] at h2
        cases h2
        obtain ⟨n, g1, rfl⟩ := (kariKdf_iff env _ _ _ _ _ (mqv_rows _ hmem).2.2 hne).mp hkd
        exact (C151_iff env _ (some c) s' pop (some kc) cek hne).mpr
          (.mk hs rfl rfl rfl rfl (fun _ => ⟨c, rfl, h4, h5⟩) (Or.inl rfl)
            (.mqv hmem (hw _) g1 hs' (hq _ _) he hk hk' (by rw [hd, hz])) (hu _ _ h3))

end Verif.Env
