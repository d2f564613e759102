import Verif.Env.PwriProps

/-!
# C150: key transport recipients of `EnvelopedData`
-/

namespace Verif.Env

open Verif.CA Verif.Prot

variable {S K C : Type}

/-! ## Specification -/

/-- The identifier names the certificate: by the subject key identifier if there is one, else by issuer and serial
number. -/
inductive RidOf (env : KEnv S K C) (c : C) : Rid → Prop
  | ski {b : Bytes} : env.skiOf c = some b → RidOf env c (.ski b)
  | iss : env.skiOf c = none → RidOf env c (.iss (env.issuerOf c) (env.serialOf c))

/-- The hash function behind an OID, as the code finds it. -/
def HashName (o : Oid) (h : String) : Prop := (o, h) ∈ hashSpec ++ hmacSpec ++ sigHashSpec

/-- The padding that an algorithm identifier stands for. -/
inductive Padding (env : KEnv S K C) : RawAlg → RsaPad → Prop
  | absent : Padding env ⟨[1, 2, 840, 113549, 1, 1, 1], none⟩ .pkcs1
  | null : Padding env ⟨[1, 2, 840, 113549, 1, 1, 1], some [5, 0]⟩ .pkcs1
  | oaep {b mb : Bytes} {ho mo go : Oid} {h g : String} :
      env.decOaep b = some (⟨some ho, some (mo, some mb), none⟩, []) → HashName ho h → env.decOid mb = some (go, []) →
      HashName go g → Padding env ⟨[1, 2, 840, 113549, 1, 1, 7], some b⟩ (.oaep h g)

/-- `KtriKey env k c s pop cek`: the recipient has version 2, names the certificate (unless `pop`), has a known algorithm,
and the encrypted key decrypts with the RSA key `s`. -/
inductive KtriKey (env : KEnv S K C) (k : Ktri) (c : Option C) (s : S) (pop : Bool) : Bytes → Prop
  | mk {a : RawAlg} {ek cek : Bytes} {p : RsaPad} : k.version = some 2 →
      (pop = false → ∃ c' r, c = some c' ∧ k.rid = some r ∧ RidOf env c' r) → k.alg = some a → k.encKey = some ek →
      env.isRsa s = true → Padding env a p → env.rsaDec s p ek = .ok cek → KtriKey env k c s pop cek

/-- The hash functions are not those of composite or post-quantum algorithms. -/
def OaepUsual (env : KEnv S K C) (k : Ktri) : Prop :=
  ∀ a b p r, k.alg = some a → a.par = some b → env.decOaep b = some (p, r) →
    (∀ o, p.hash = some o → env.special o = none) ∧
    (∀ mo mb o r', p.mgf = some (mo, some mb) → env.decOid mb = some (o, r') → env.special o = none)

/-! ## Lemmas -/

theorem issSer_iff (env : KEnv S K C) (i : Bytes) (n : Int) (c : C) :
    issSer env i n c = .ok () ↔ i = env.issuerOf c ∧ n = env.serialOf c := by
  unfold issSer
  by_cases h1 : i = env.issuerOf c
  · rw [if_neg (not_not_intro h1)]
    by_cases h2 : n = env.serialOf c
    · rw [if_neg (not_not_intro h2)]
      exact ⟨fun _ => ⟨h1, h2⟩, fun _ => rfl⟩
    · rw [if_pos h2]
      exact ⟨nofun, fun h => absurd h.2 h2⟩
  · rw [if_pos h1]
    exact ⟨nofun, fun h => absurd h.1 h1⟩

theorem checkRid_iff (env : KEnv S K C) (r : Rid) (c : C) : checkRid env r c = .ok () ↔ RidOf env c r := by
  unfold checkRid
  constructor
  · intro h
    cases hs : env.skiOf c with
    | some k =>
      rw [hs] at h
      cases r with
      | ski b =>
        dsimp only at h
        split at h
        · cases h
        · rename_i hk
          have hk' : k = b := Classical.not_not.mp hk
          subst hk'
          exact .ski hs
      | iss i n => cases h
    | none =>
      rw [hs] at h
      cases r with
      | iss i n =>
        obtain ⟨rfl, rfl⟩ := (issSer_iff env i n c).mp h
        exact .iss hs
      | ski b =>
        unfold issOther at h
        dsimp only at h
        split at h <;> cases h
  · intro h
    cases h with
    | ski hs => rw [hs]; simp
    | iss hs => rw [hs]; exact (issSer_iff env _ _ c).mpr ⟨rfl, rfl⟩

theorem oaepHash_iff (env : KEnv S K C) (o : Oid) (h : String) (hs : env.special o = none) :
    oaepHash env o = .ok h ↔ HashName o h := by
  unfold HashName
  rw [← owf_iff env.toMacEnv o h hs]
  unfold oaepHash
  cases h1 : hashOfOid env.toMacEnv o false with
  | error e => exact ⟨nofun, fun ⟨_, h, _⟩ => nomatch h⟩
  | ok x =>
    cases x with
    | none => exact ⟨nofun, fun ⟨_, h, _⟩ => nomatch h⟩
    | some n =>
      dsimp only
      constructor
      · intro h; exact ⟨n, rfl, h⟩
      · rintro ⟨n', h, h'⟩
        cases h
        exact h'

theorem oaepPad_iff (env : KEnv S K C) (p : Oaep) (x : RsaPad) (h1 : ∀ o, p.hash = some o → env.special o = none)
    (h2 : ∀ mo mb o r', p.mgf = some (mo, some mb) → env.decOid mb = some (o, r') → env.special o = none) :
    oaepPad env p = .ok x ↔ ∃ ho mo mb go h g, p = ⟨some ho, some (mo, some mb), none⟩ ∧ HashName ho h ∧
      env.decOid mb = some (go, []) ∧ HashName go g ∧ x = .oaep h g := by
  obtain ⟨ho, mgf, lab⟩ := p
  unfold oaepPad
  constructor
  · intro h
    cases ho with
    | none => cases h
    | some ho =>
      dsimp only at h
      cases hh : oaepHash env ho with
      | error e => rw [hh] at h; cases h
      | ok f =>
        rw [hh] at h
        dsimp only at h
        cases mgf with
        | none => cases h
        | some y =>
          obtain ⟨mo, mb⟩ := y
          cases mb with
          | none => cases h
          | some mb =>
            dsimp only at h
            cases hd : env.decOid mb with
            | none => rw [hd] at h; cases h
            | some z =>
              obtain ⟨go, r⟩ := z
              rw [hd] at h
              dsimp only at h
              split at h
              · cases h
              · rename_i hr
                cases hg : oaepHash env go with
                | error e => rw [hg] at h; cases h
                | ok g =>
                  rw [hg] at h
                  dsimp only at h
                  cases lab with
                  | some _ => cases h
                  | none =>
                    cases h
                    have hr' : r = [] := Classical.not_not.mp hr
                    subst hr'
                    exact ⟨ho, mo, mb, go, f, g, rfl, (oaepHash_iff env ho f (h1 ho rfl)).mp hh, hd,
                      (oaepHash_iff env go g (h2 mo mb go [] rfl hd)).mp hg, rfl⟩
  · rintro ⟨ho', mo, mb, go, f, g, he, hf, hd, hg, rfl⟩
    cases he
    dsimp only
    rw [(oaepHash_iff env ho' f (h1 _ rfl)).mpr hf]
    dsimp only
    rw [hd]
    dsimp only
    rw [if_neg (by simp), (oaepHash_iff env go g (h2 mo mb go [] rfl hd)).mpr hg]
    rfl

theorem rsaPadOf_iff (env : KEnv S K C) (k : Ktri) (a : RawAlg) (x : RsaPad) (ha : k.alg = some a)
    (hu : OaepUsual env k) : rsaPadOf env a = .ok x ↔ Padding env a x := by
  obtain ⟨o, par⟩ := a
  constructor
  · intro h
    unfold rsaPadOf at h
    dsimp only at h
    split at h
    · rename_i ho
      subst ho
      unfold parAbsent at h
      cases par with
      | none => cases h; exact .absent
      | some b =>
        dsimp only at h
        by_cases hb : b = [5, 0]
        · subst hb
          cases h
          exact .null
        · rw [if_neg (by simp [hb])] at h
          cases h
    · split at h
      · rename_i ho
        subst ho
        cases par with
        | none => cases h
        | some b =>
          dsimp only at h
          cases hd : env.decOaep b with
          | none => rw [hd] at h; cases h
          | some y =>
            obtain ⟨p, r⟩ := y
            rw [hd] at h
            dsimp only at h
            split at h
            · cases h
            · rename_i hr
              have hr' : r = [] := Classical.not_not.mp hr
              subst hr'
              obtain ⟨u1, u2⟩ := hu _ b p [] ha rfl hd
              obtain ⟨ho, mo, mb, go, f, g, rfl, hf, hm, hg, rfl⟩ := (oaepPad_iff env p x u1 u2).mp h
              exact .oaep hd hf hm hg
      · cases h
  · intro h
    cases h with
    | absent => rfl
    | null => rfl
    | oaep hd hf hm hg =>
      unfold rsaPadOf
      dsimp only
      rw [if_neg (by decide), if_pos (show ([1, 2, 840, 113549, 1, 1, 7] : Oid) = oaepOid from rfl), hd]
      dsimp only
      rw [if_neg (by simp)]
      obtain ⟨u1, u2⟩ := hu _ _ _ [] ha rfl hd
      exact (oaepPad_iff env _ _ u1 u2).mpr ⟨_, _, _, _, _, _, rfl, hf, hm, hg, rfl⟩

theorem ktriRid_iff (env : KEnv S K C) (r : Option Rid) (c : Option C) (pop : Bool) :
    ktriRid env r c pop = .ok () ↔ (pop = false → ∃ c' r', c = some c' ∧ r = some r' ∧ RidOf env c' r') := by
  unfold ktriRid
  cases pop with
  | true => simp
  | false =>
    rw [if_neg (by simp)]
    cases c with
    | none => simp
    | some c =>
      cases r with
      | none => simp
      | some r =>
        dsimp only
        rw [checkRid_iff]
        constructor
        · intro h _
          exact ⟨c, r, rfl, rfl, h⟩
        · intro h
          obtain ⟨c', r', h1, h2, h3⟩ := h rfl
          cases h1
          cases h2
          exact h3

theorem checkKtri_iff (env : KEnv S K C) (k : Ktri) (c : Option C) (pop : Bool) (ek : Bytes) (a : RawAlg) :
    checkKtri env k c pop = .ok (ek, a) ↔ k.version = some 2 ∧
      (pop = false → ∃ c' r, c = some c' ∧ k.rid = some r ∧ RidOf env c' r) ∧ k.alg = some a ∧ k.encKey = some ek ∧
      (a.oid = rsaEncOid ∨ a.oid = oaepOid) := by
  obtain ⟨v, rid, alg, e⟩ := k
  unfold checkKtri
  constructor
  · intro h
    cases v with
    | none => cases h
    | some v =>
      dsimp only at h
      split at h
      · cases h
      · rename_i hv
        have hv' : v = 2 := Classical.not_not.mp hv
        subst hv'
        cases hr : ktriRid env rid c pop with
        | error x => rw [hr] at h; cases h
        | ok u =>
          rw [hr] at h
          cases alg with
          | none => cases h
          | some a' =>
            dsimp only at h
            split at h
            · cases h
            · rename_i ho
              cases e with
              | none => cases h
              | some e =>
                cases h
                exact ⟨rfl, (ktriRid_iff _ _ _ _).mp hr, rfl, rfl, by
                  by_cases h1 : a.oid = rsaEncOid
                  · exact Or.inl h1
                  · exact Or.inr (Classical.not_not.mp (fun h2 => ho ⟨h1, h2⟩))⟩
  · rintro ⟨h1, h2, h3, h4, h5⟩
    dsimp only at h1 h3 h4 h2
    subst h1 h3 h4
    dsimp only
    rw [if_neg (by decide), (ktriRid_iff _ _ _ _).mpr h2]
    dsimp only
    rw [if_neg (by
      rintro ⟨g1, g2⟩
      exact h5.elim g1 g2)]

/-! ## C150 -/

/-- C150: the content encryption key of a key transport recipient: all conditions hold, and it is the decrypted one. -/
theorem C150_iff (env : KEnv S K C) (k : Ktri) (c : Option C) (s : S) (pop : Bool) (cek : Bytes)
    (hu : OaepUsual env k) : ktriCek env k c s pop = .ok cek ↔ KtriKey env k c s pop cek := by
  unfold ktriCek
  constructor
  · intro h
    cases hc : checkKtri env k c pop with
    | error e => rw [hc] at h; cases h
    | ok y =>
      obtain ⟨ek, a⟩ := y
      rw [hc] at h
      dsimp only at h
      obtain ⟨h1, h2, h3, h4, _⟩ := (checkKtri_iff env k c pop ek a).mp hc
      split at h
      · rename_i hr
        cases hp : rsaPadOf env a with
        | error e => rw [hp] at h; cases h
        | ok p =>
          rw [hp] at h
          exact .mk h1 h2 h3 h4 hr ((rsaPadOf_iff env k a p h3 hu).mp hp) h
      · cases h
  · intro h
    cases h with
    | @mk a ek _ p h1 h2 h3 h4 hr hp hd =>
      have ho : a.oid = rsaEncOid ∨ a.oid = oaepOid := by
        cases hp with
        | absent => exact Or.inl rfl
        | null => exact Or.inl rfl
        | oaep => exact Or.inr rfl
      rw [(checkKtri_iff env k c pop ek a).mpr ⟨h1, h2, h3, h4, ho⟩]
      dsimp only
      rw [if_pos hr, (rsaPadOf_iff env k a p h3 hu).mpr hp]
      exact hd

/-- C150: a key is only returned from a recipient that names the given certificate. -/
theorem C150_recipient (env : KEnv S K C) {k : Ktri} {c : Option C} {s : S} {cek : Bytes}
    (h : ktriCek env k c s false = .ok cek) : ∃ c' r, c = some c' ∧ k.rid = some r ∧ RidOf env c' r := by
  unfold ktriCek at h
  cases hc : checkKtri env k c false with
  | error e => rw [hc] at h; cases h
  | ok y => exact ((checkKtri_iff env k c false y.1 y.2).mp hc).2.1 rfl

/-! ## Round trip -/

theorem buildRid_of (env : KEnv S K C) (c : C) : ∃ r, buildRid env (some c) none = .ok r ∧ RidOf env c r := by
  unfold buildRid
  dsimp only
  cases hs : env.skiOf c with
  | some b => exact ⟨_, rfl, .ski hs⟩
  | none => exact ⟨_, rfl, .iss hs⟩

/-- The padding that is built. -/
theorem ktriAlg_padding (env : KEnv S K C) {oaep : Bool} {a : RawAlg} {p : RsaPad} (h : ktriAlg env oaep = .ok (a, p))
    (hs : env.special [2, 16, 840, 1, 101, 3, 4, 2, 1] = none) (hs' : env.special [2, 16, 840, 1, 101, 3, 4, 2, 2] = none)
    (hd : ∀ x, env.decOaep (env.encOaep x) = some (x, [])) (ho : ∀ o, env.decOid (env.encOid o) = some (o, [])) :
    Padding env a p := by
  unfold ktriAlg at h
  cases oaep with
  | false => cases h; exact .absent
  | true =>
    rw [if_pos rfl] at h
    cases hp : oaepPad env (oaepOut env) with
    | error e => rw [hp] at h; cases h
    | ok p' =>
      rw [hp] at h
      cases h
      obtain ⟨ho', mo, mb, go, f, g, he, hf, hm, hg, rfl⟩ := (oaepPad_iff env (oaepOut env) p (by
        intro o h; cases h; exact hs') (by
        intro mo mb o r h h'
        cases h
        rw [ho] at h'
        cases h'
        exact hs)).mp hp
      exact .oaep (by rw [hd, he]) hf hm hg

/-- C150: the recipient that the code builds for a certificate gives back the key to the holder of the RSA key, with either
padding. -/
theorem C150_roundtrip (env : KEnv S K C) {key : K} {c : C} {cek rnd : Bytes} {oaep pop : Bool} {k : Ktri} {s : S}
    (h : buildKtri env key (some c) cek rnd oaep none none = .ok k)
    (hs : env.special [2, 16, 840, 1, 101, 3, 4, 2, 1] = none) (hs' : env.special [2, 16, 840, 1, 101, 3, 4, 2, 2] = none)
    (hd : ∀ x, env.decOaep (env.encOaep x) = some (x, [])) (ho : ∀ o, env.decOid (env.encOid o) = some (o, []))
    (hr : env.isRsa s = true) (hx : ∀ p x, env.rsaEnc key p rnd cek = .ok x → env.rsaDec s p x = .ok cek) :
    ktriCek env k (some c) s pop = .ok cek := by
  unfold buildKtri at h
  split at h
  · cases ha : ktriAlg env oaep with
    | error e => rw [ha] at h; cases h
    | ok y =>
      obtain ⟨a, p⟩ := y
      rw [ha] at h
      dsimp only at h
      cases he : env.rsaEnc key p rnd cek with
      | error e => rw [he] at h; cases h
      | ok ek =>
        rw [he] at h
        obtain ⟨r, h1, h2⟩ := buildRid_of env c
        unfold ridOr at h
        dsimp only at h
        rw [h1] at h
        cases h
        have hpad := ktriAlg_padding env ha hs hs' hd ho
        refine (C150_iff env _ (some c) s pop cek ?_).mpr (.mk rfl (fun _ => ⟨c, r, rfl, rfl, h2⟩) rfl rfl hr hpad
          (hx p ek he))
        intro a' b q rr g1 g2 g3
        cases g1
        unfold ktriAlg at ha
        cases oaep with
        | false => cases ha; cases g2
        | true =>
          rw [if_pos rfl] at ha
          cases hp : oaepPad env (oaepOut env) with
          | error e => rw [hp] at ha; cases ha
          | ok p' =>
            rw [hp] at ha
            cases ha
            cases g2
            rw [hd] at g3
            cases g3
            refine ⟨fun o h => by cases h; exact hs', fun mo mb o r' h h' => ?_⟩
            cases h
            rw [ho] at h'
            cases h'
            exact hs
  · cases h

/-- C150: only RSA keys can be used, on either side. -/
theorem C150_rsa_only (env : KEnv S K C) :
    (∀ key c cek rnd oaep is rid k, buildKtri env key c cek rnd oaep is rid = .ok k → env.isRsaPub key = true) ∧
    (∀ k c s pop cek, ktriCek env k c s pop = .ok cek → env.isRsa s = true) := by
  constructor
  · intro key c cek rnd oaep is rid k h
    unfold buildKtri at h
    split at h
    · assumption
    · cases h
  · intro k c s pop cek h
    unfold ktriCek at h
    cases hc : checkKtri env k c pop with
    | error e => rw [hc] at h; cases h
    | ok y =>
      rw [hc] at h
      dsimp only at h
      split at h
      · assumption
      · cases h

end Verif.Env
