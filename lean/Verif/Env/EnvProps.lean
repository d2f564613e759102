import Verif.Env.KemriProps

/-!
# C153: `EnvelopedData` as a whole
-/

namespace Verif.Env

open Verif.CA Verif.Prot

variable {S K C : Type}

/-! ## Specification -/

/-- The certificate that takes part in a key agreement: the given one; for an X25519 or X448 key without it, the first
certificate of the message if it has such a key, else the second if it has one. -/
inductive KaCert (env : KEnv S K C) (a : OpenArgs S C) (s : S) : Option C → Prop
  | given {c : C} : a.kariCert = some c → KaCert env a s (some c)
  | none : a.kariCert = none → env.isX s = false → KaCert env a s none
  | first {m : Msg C} {c : C} {cs : List C} {k : K} : a.kariCert = none → env.isX s = true → a.msg = some m →
      m.certs = c :: cs → env.keyOf c = .ok k → env.isXPub k = true → KaCert env a s (some c)
  | second {m : Msg C} {c c' : C} {cs : List C} {k k' : K} : a.kariCert = none → env.isX s = true → a.msg = some m →
      m.certs = c :: c' :: cs → env.keyOf c = .ok k → env.isXPub k = false → env.keyOf c' = .ok k' →
      env.isXPub k' = true → KaCert env a s (some c')

/-- The content encryption key that a recipient gives. -/
inductive RecipientKey (env : KEnv S K C) (a : OpenArgs S C) : Ri → Bytes → Prop
  | pwri {p : Pwri} {w s cek : Bytes} : a.pw = some w → OuterSalt env a.msg a.salt s → PwriKey env p s w cek →
      RecipientKey env a (.pwri p) cek
  | ktri {k : Ktri} {s : S} {x : Option C} {cek : Bytes} : a.key = some s → KaCert env a s x →
      KtriKey env k a.cert s a.pop cek → RecipientKey env a (.ktri k) cek
  | kari {k : Kari} {s : S} {x : Option C} {cek : Bytes} : a.key = some s → KaCert env a s x →
      KariKey env k a.cert s a.pop x cek → RecipientKey env a (.kari k) cek
  | kem {b : Bytes} {k : Kemri} {s : S} {cek : Bytes} : a.key = some s → env.decKemri b = some (k, []) →
      KemriKey env k a.cert s a.pop false cek →
      RecipientKey env a (.ori [1, 2, 840, 113549, 1, 9, 16, 13, 3] (.raw b)) cek

/-- No algorithm is that of a composite or post-quantum signature where a hash function is expected. -/
def RiUsual (env : KEnv S K C) : Ri → Prop
  | .pwri p => PwUsual env p
  | .ktri k => OaepUsual env k
  | .ori _ (.raw b) => ∀ k, env.decKemri b = some (k, []) → KemriUsual env k
  | _ => True

/-! ## Lemmas -/

theorem kariCertFor_iff (env : KEnv S K C) (a : OpenArgs S C) (s : S) (x : Option C) :
    kariCertFor env a s = .ok x ↔ KaCert env a s x := by
  unfold kariCertFor
  cases hk : a.kariCert with
  | some c =>
    rw [if_neg (by simp)]
    constructor
    · intro h
      cases h
      exact .given hk
    · intro h
      cases h with
      | given h => rw [hk] at h; cases h; rfl
      | none h => rw [hk] at h; cases h
      | first h => rw [hk] at h; cases h
      | second h => rw [hk] at h; cases h
  | none =>
    cases hx : env.isX s with
    | false =>
      rw [if_neg (by simp)]
      constructor
      · intro h
        cases h
        exact .none hk hx
      · intro h
        cases h with
        | given h => rw [hk] at h; cases h
        | none => rfl
        | first _ h => rw [hx] at h; cases h
        | second _ h => rw [hx] at h; cases h
    | true =>
      rw [if_pos ⟨rfl, rfl⟩]
      constructor
      · intro h
        cases hm : a.msg with
        | none => rw [hm] at h; cases h
        | some m =>
          rw [hm] at h
          obtain ⟨c, hc, rfl⟩ := map_ok h
          unfold findKariCert at hc
          cases hcs : m.certs with
          | nil => rw [hcs] at hc; cases hc
          | cons d ds =>
            rw [hcs] at hc
            dsimp only at hc
            cases hkd : env.keyOf d with
            | error e => rw [hkd] at hc; cases hc
            | ok k =>
              rw [hkd] at hc
              dsimp only at hc
              cases hxk : env.isXPub k with
              | true =>
                rw [if_pos hxk] at hc
                cases hc
                exact .first hk hx hm hcs hkd hxk
              | false =>
                rw [if_neg (by simp [hxk])] at hc
                unfold secondKari at hc
                cases ds with
                | nil => cases hc
                | cons d' ds =>
                  dsimp only at hc
                  cases hkd' : env.keyOf d' with
                  | error e => rw [hkd'] at hc; cases hc
                  | ok k' =>
                    rw [hkd'] at hc
                    dsimp only at hc
                    cases hxk' : env.isXPub k' with
                    | false => rw [if_neg (by simp [hxk'])] at hc; cases hc
                    | true =>
                      rw [if_pos hxk'] at hc
                      cases hc
                      exact .second hk hx hm hcs hkd hxk hkd' hxk'
      · intro h
        cases h with
        | given h => rw [hk] at h; cases h
        | none _ h => rw [hx] at h; cases h
        | first _ _ hm hcs hkd hxk =>
          rw [hm]
          dsimp only
          unfold findKariCert
          rw [hcs]
          dsimp only
          rw [hkd]
          dsimp only
          rw [if_pos hxk]
          rfl
        | second _ _ hm hcs hkd hxk hkd' hxk' =>
          rw [hm]
          dsimp only
          unfold findKariCert
          rw [hcs]
          dsimp only
          rw [hkd]
          dsimp only
          rw [if_neg (by simp [hxk])]
          unfold secondKari
          dsimp only
          rw [hkd']
          dsimp only
          rw [if_pos hxk']
          rfl

theorem asym_ok (env : KEnv S K C) (a : OpenArgs S C) (r : Ri) (cek : Bytes) :
    asymExtract env a r = .ok cek ↔ (a.cert = none → a.pop = true) ∧ ∃ s x, a.key = some s ∧ KaCert env a s x ∧
      asymCek env r a.cert s a.pop x = .ok cek := by
  unfold asymExtract
  constructor
  · intro h
    split at h
    · cases h
    · rename_i hc
      cases hk : a.key with
      | none => rw [hk] at h; cases h
      | some s =>
        rw [hk] at h
        dsimp only at h
        cases hx : kariCertFor env a s with
        | error e => rw [hx] at h; cases h
        | ok x =>
          rw [hx] at h
          refine ⟨fun hn => ?_, s, x, rfl, (kariCertFor_iff env a s x).mp hx, h⟩
          cases hp : a.pop with
          | true => rfl
          | false => exact absurd ⟨by rw [hn]; rfl, hp⟩ hc
  · rintro ⟨h1, s, x, h2, h3, h4⟩
    rw [if_neg (by
      rintro ⟨g1, g2⟩
      rw [h1 (Option.isNone_iff_eq_none.mp g1)] at g2
      cases g2), h2]
    dsimp only
    rw [(kariCertFor_iff env a s x).mpr h3]
    exact h4

theorem extractFrom_iff (env : KEnv S K C) (a : OpenArgs S C) (r : Ri) (cek : Bytes) (hu : RiUsual env r)
    (hne : ∀ n x, env.H n x ≠ []) : extractFrom env a r = .ok cek ↔ RecipientKey env a r cek := by
  cases r with
  | pwri p =>
    unfold extractFrom
    dsimp only
    constructor
    · intro h
      cases hw : a.pw with
      | none => rw [hw] at h; cases h
      | some w =>
        rw [hw] at h
        obtain ⟨s, h1, h2⟩ := (C149_iff env a.msg w p a.salt cek hu).mp h
        exact .pwri hw h1 h2
    · intro h
      cases h with
      | pwri hw h1 h2 =>
        rw [hw]
        exact (C149_iff env a.msg _ p a.salt cek hu).mpr ⟨_, h1, h2⟩
  | ktri k =>
    show asymExtract env a (.ktri k) = .ok cek ↔ _
    rw [asym_ok]
    constructor
    · rintro ⟨_, s, x, h1, h2, h3⟩
      exact .ktri h1 h2 ((C150_iff env k a.cert s a.pop cek hu).mp h3)
    · intro h
      cases h with
      | @ktri _ s x _ h1 h2 h3 =>
        refine ⟨fun hn => ?_, s, x, h1, h2, (C150_iff env k a.cert s a.pop cek hu).mpr h3⟩
        cases h3 with
        | mk _ hr =>
          cases hp : a.pop with
          | true => rfl
          | false =>
            obtain ⟨c', _, hc, _⟩ := hr hp
            rw [hn] at hc
            cases hc
  | kari k =>
    show asymExtract env a (.kari k) = .ok cek ↔ _
    rw [asym_ok]
    constructor
    · rintro ⟨_, s, x, h1, h2, h3⟩
      exact .kari h1 h2 ((C151_iff env k a.cert s a.pop x cek hne).mp h3)
    · intro h
      cases h with
      | @kari _ s x _ h1 h2 h3 =>
        refine ⟨fun hn => ?_, s, x, h1, h2, (C151_iff env k a.cert s a.pop x cek hne).mpr h3⟩
        cases h3 with
        | mk _ _ _ _ _ hr =>
          cases hp : a.pop with
          | true => rfl
          | false =>
            obtain ⟨c', hc, _⟩ := hr hp
            rw [hn] at hc
            cases hc
  | kekri => exact ⟨nofun, nofun⟩
  | ori t v =>
    show oriCek env t v a.cert a.key a.pop = .ok cek ↔ _
    unfold oriCek
    constructor
    · intro h
      split at h
      · cases h
      · rename_i ht
        have ht' : t = oriKemOid := Classical.not_not.mp ht
        subst ht'
        cases v with
        | obj k => cases h
        | raw b =>
          dsimp only at h
          unfold decodeKemri at h
          cases hd : env.decKemri b with
          | none => rw [hd] at h; cases h
          | some y =>
            obtain ⟨k, r⟩ := y
            rw [hd] at h
            dsimp only at h
            by_cases hr : r = []
            · subst hr
              rw [if_neg (by simp)] at h
              dsimp only at h
              cases hk : a.key with
              | none => rw [hk] at h; exact absurd h (C152_key env k a.cert a.pop false cek)
              | some s =>
                rw [hk] at h
                exact .kem hk hd ((C152_iff env k a.cert s a.pop false cek (hu k hd) hne).mp h)
            · rw [if_pos hr] at h
              cases h
    · intro h
      cases h with
      | kem hk hd hh =>
        rw [if_neg (by decide)]
        dsimp only
        unfold decodeKemri
        rw [hd]
        dsimp only
        rw [if_neg (by simp)]
        dsimp only
        rw [hk]
        exact (C152_iff env _ a.cert _ a.pop false cek (hu _ hd) hne).mpr hh

/-! ## C153 -/

/-- C153: `EnvelopedData` is opened without a type, or with one of the types `ktri`, `kari` and `ori`, exactly when the
number of recipients is the expected one, the recipient at the index has the type, and the content is encrypted under the
key that the **first** recipient gives. -/
theorem C153_iff (env : KEnv S K C) (a : OpenArgs S C) (e : EnvData) (d : Bytes) (h1 : a.type ≠ some "pwri")
    (h2 : a.type ≠ some "kemri") (hu : ∀ r ∈ e.infos, RiUsual env r) (hne : ∀ n x, env.H n x ≠ []) :
    openEnv env a e = .ok d ↔ (e.infos.length : Int) = a.size ∧
      (∃ r, At e.infos a.idx r ∧ ∀ t, a.type = some t → r.name = t) ∧
      ∃ r cek, e.infos[0]? = some r ∧ RecipientKey env a r cek ∧ Content env e.enc cek a.raw d := by
  unfold openEnv
  rw [if_neg h1, if_neg h2]
  unfold openAny extractCek
  constructor
  · intro h
    cases hr : recipOf e a.size a.idx a.type with
    | error x => rw [hr] at h; cases h
    | ok r =>
      rw [hr] at h
      dsimp only at h
      obtain ⟨g1, g2, g3⟩ := (recipOf_iff _ _ _ _ _).mp hr
      cases hs : sized e a.size 0 with
      | error x => rw [hs] at h; cases h
      | ok r0 =>
        rw [hs] at h
        dsimp only at h
        obtain ⟨_, n, hn, hx⟩ := (sized_iff _ _ _ _).mp hs
        have hn0 : n = 0 := by omega
        subst hn0
        cases hc : extractFrom env a r0 with
        | error x => rw [hc] at h; cases h
        | ok cek =>
          rw [hc] at h
          exact ⟨g1, ⟨r, g2, g3⟩, r0, cek, hx,
            (extractFrom_iff env a r0 cek (hu r0 (List.mem_of_getElem? hx)) hne).mp hc, (C148_iff _ _ _ _ _).mp h⟩
  · rintro ⟨g1, ⟨r, g2, g3⟩, r0, cek, hx, g4, g5⟩
    rw [(recipOf_iff _ _ _ _ r).mpr ⟨g1, g2, g3⟩]
    dsimp only
    rw [(sized_iff e a.size 0 r0).mpr ⟨g1, 0, Or.inl rfl, hx⟩]
    dsimp only
    rw [(extractFrom_iff env a r0 cek (hu r0 (List.mem_of_getElem? hx)) hne).mpr g4]
    exact (C148_iff _ _ _ _ _).mpr g5

/-- C153: with one recipient the index can only be 0 or -1, and the recipient whose type is compared is the one whose key
is used. -/
theorem C153_single (env : KEnv S K C) (a : OpenArgs S C) (v : Int) (r : Ri) (x : EncInfo) (d : Bytes)
    (h1 : a.type ≠ some "pwri") (h2 : a.type ≠ some "kemri") (hu : RiUsual env r) (hne : ∀ n x, env.H n x ≠ []) :
    openEnv env a ⟨v, [r], x⟩ = .ok d ↔ a.size = 1 ∧ (a.idx = 0 ∨ a.idx = -1) ∧ (∀ t, a.type = some t → r.name = t) ∧
      ∃ cek, RecipientKey env a r cek ∧ Content env x cek a.raw d := by
  rw [C153_iff env a _ d h1 h2 (by intro y hy; simp at hy; subst hy; exact hu) hne]
  constructor
  · rintro ⟨g1, ⟨y, ⟨n, g2, g3⟩, g4⟩, r0, cek, g5, g6, g7⟩
    cases g5
    dsimp only at g1 g2 g3
    have hn : n = 0 := by
      have := (List.getElem?_eq_some_iff.mp g3).1
      simpa using this
    subst hn
    cases g3
    exact ⟨g1.symm, by
      simp only [List.length_cons, List.length_nil] at g2
      omega, g4, cek, g6, g7⟩
  · rintro ⟨g1, g2, g3, cek, g4, g5⟩
    refine ⟨g1.symm, ⟨r, ⟨0, ?_, rfl⟩, g3⟩, r, cek, rfl, g4, g5⟩
    simp only [List.length_cons, List.length_nil]
    omega

/-- C153: with the type `kemri` the recipient at the index is used. -/
theorem C153_kemri_iff (env : KEnv S K C) (a : OpenArgs S C) (e : EnvData) (d : Bytes) (h : a.type = some "kemri")
    (hu : ∀ b k, .ori [1, 2, 840, 113549, 1, 9, 16, 13, 3] (.raw b) ∈ e.infos → env.decKemri b = some (k, []) →
      KemriUsual env k)
    (hu' : ∀ k, .ori [1, 2, 840, 113549, 1, 9, 16, 13, 3] (.obj k) ∈ e.infos → KemriUsual env k)
    (hne : ∀ n x, env.H n x ≠ []) :
    openEnv env a e = .ok d ↔ (e.infos.length : Int) = a.size ∧ ∃ s v k cek, a.key = some s ∧ env.isKemKey s = true ∧
      At e.infos a.idx (.ori [1, 2, 840, 113549, 1, 9, 16, 13, 3] v) ∧
      (v = .obj k ∨ ∃ b, v = .raw b ∧ env.decKemri b = some (k, [])) ∧ KemriKey env k a.cert s a.pop false cek ∧
      Content env e.enc cek a.raw d := by
  have hmem : ∀ {r}, At e.infos a.idx r → r ∈ e.infos := fun ⟨n, _, h⟩ => List.mem_of_getElem? h
  unfold openEnv
  rw [if_neg (by rw [h]; decide), if_pos h]
  constructor
  · intro h
    cases hk : a.key with
    | none => rw [hk] at h; cases h
    | some s =>
      rw [hk] at h
      dsimp only at h
      split at h
      · rename_i hs
        unfold openKemri at h
        cases hr : recipOf e a.size a.idx (some "ori") with
        | error x => rw [hr] at h; cases h
        | ok r =>
          rw [hr] at h
          obtain ⟨g1, g2, _⟩ := (recipOf_iff _ _ _ _ _).mp hr
          cases r with
          | ori t v =>
            dsimp only at h
            cases hd : decodeOri env t v with
            | error x => rw [hd] at h; cases h
            | ok k =>
              rw [hd] at h
              dsimp only at h
              cases hc : kemCek env k a.cert (some s) a.pop false with
              | error x => rw [hc] at h; cases h
              | ok cek =>
                rw [hc] at h
                dsimp only at h
                unfold decodeOri at hd
                split at hd
                · cases hd
                · rename_i ht
                  have ht' : t = oriKemOid := Classical.not_not.mp ht
                  subst ht'
                  cases v with
                  | obj k' =>
                    cases hd
                    exact ⟨g1, s, _, k, cek, rfl, hs, g2, Or.inl rfl,
                      (C152_iff env k a.cert s a.pop false cek (hu' k (hmem g2)) hne).mp hc, (C148_iff _ _ _ _ _).mp h⟩
                  | raw b =>
                    dsimp only at hd
                    unfold decodeKemri at hd
                    cases hb : env.decKemri b with
                    | none => rw [hb] at hd; cases hd
                    | some y =>
                      obtain ⟨k', r⟩ := y
                      rw [hb] at hd
                      dsimp only at hd
                      split at hd
                      · cases hd
                      · rename_i hr'
                        cases hd
                        have hr'' : r = [] := Classical.not_not.mp hr'
                        subst hr''
                        exact ⟨g1, s, _, k, cek, rfl, hs, g2, Or.inr ⟨b, rfl, hb⟩,
                          (C152_iff env k a.cert s a.pop false cek (hu b k (hmem g2) hb) hne).mp hc,
                          (C148_iff _ _ _ _ _).mp h⟩
          | pwri _ => cases h
          | ktri _ => cases h
          | kari _ => cases h
          | kekri => cases h
      · cases h
  · rintro ⟨g1, s, v, k, cek, hk, hs, g2, g3, g4, g5⟩
    rw [hk]
    dsimp only
    rw [if_pos hs]
    unfold openKemri
    rw [(recipOf_iff e a.size a.idx (some "ori") _).mpr ⟨g1, g2, fun n hn => by cases hn; rfl⟩]
    dsimp only
    have hd : decodeOri env [1, 2, 840, 113549, 1, 9, 16, 13, 3] v = .ok k ∧ KemriUsual env k := by
      unfold decodeOri
      rw [if_neg (by decide)]
      rcases g3 with rfl | ⟨b, rfl, hb⟩
      · exact ⟨rfl, hu' k (hmem g2)⟩
      · refine ⟨?_, hu b k (hmem g2) hb⟩
        dsimp only
        unfold decodeKemri
        rw [hb]
        simp
    rw [hd.1]
    dsimp only
    rw [(C152_iff env k a.cert s a.pop false cek hd.2 hne).mpr g4]
    exact (C148_iff _ _ _ _ _).mpr g5

/-! ## Round trip -/

/-- C153: whatever recipient is built: if after transport it gives the key to the opener, the content is returned. -/
theorem C153_content_roundtrip (env : KEnv S K C) {a : OpenArgs S C} {r : Ri} {cek data iv : Bytes} {v : Int}
    {oid : Option Oid} {e : EnvData} (h : buildEnv env [r] cek data iv v oid = .ok e)
    (hr : extractFrom env a (wireRi env r) = .ok cek) (h1 : a.type = none) (h2 : a.size = 1) (h3 : a.idx = 0)
    (hk : cek.length = 16 ∨ cek.length = 24 ∨ cek.length = 32) (hiv : env.decIv (env.encIv iv) = some (iv, []))
    (hc : ∀ c, env.cbcEnc cek iv (pad data) = .ok c → env.cbcDec cek iv c = .ok (pad data))
    (ht : oid.getD [1, 2, 840, 113549, 1, 7, 2] =
      (if a.raw then [1, 2, 840, 113549, 1, 7, 1] else [1, 2, 840, 113549, 1, 7, 2])) :
    openEnv env a (wire env e) = .ok data := by
  unfold buildEnv at h
  cases hi : buildInfo env cek data iv oid with
  | error x => rw [hi] at h; cases h
  | ok x =>
    rw [hi] at h
    cases h
    have hx := C148_roundtrip env (raw := a.raw) hk hiv hc ht hi
    unfold openEnv
    rw [if_neg (by rw [h1]; simp), if_neg (by rw [h1]; simp)]
    unfold openAny
    have hs : sized (wire env ⟨v, [r], x⟩) a.size 0 = .ok (wireRi env r) :=
      (sized_iff _ _ _ _).mpr ⟨by rw [h2]; rfl, 0, Or.inl rfl, rfl⟩
    rw [(recipOf_iff _ _ _ _ (wireRi env r)).mpr ⟨by rw [h2]; rfl, ⟨0, Or.inl (by rw [h3]; rfl), rfl⟩, by rw [h1]; nofun⟩]
    dsimp only
    unfold extractCek
    rw [hs]
    dsimp only
    rw [hr]
    exact hx

/-- C153: `build_env_data_for_exchange` for an RSA certificate is opened by the holder of the key. -/
theorem C153_exchange_rsa (env : KEnv S K C) {x448 : K → Bool} {key : K} {c : C} {data cek : Bytes} {s0 : Option S}
    {gen s : S} {oaep : Bool} {oid : Option Oid} {rd : Rand} {e : EnvData} {a : OpenArgs S C} {x : Option C}
    (h : buildExchange env x448 key data s0 gen (some c) cek none oaep oid rd = .ok e) (hrsa : env.isRsaPub key = true)
    (hs : env.special [2, 16, 840, 1, 101, 3, 4, 2, 1] = none) (hs' : env.special [2, 16, 840, 1, 101, 3, 4, 2, 2] = none)
    (hd : ∀ x, env.decOaep (env.encOaep x) = some (x, [])) (ho : ∀ o, env.decOid (env.encOid o) = some (o, []))
    (hr : env.isRsa s = true) (hx : ∀ p x, env.rsaEnc key p rd.rnd cek = .ok x → env.rsaDec s p x = .ok cek)
    (h1 : a.type = none) (h2 : a.size = 1) (h3 : a.idx = 0) (h4 : a.key = some s) (h5 : a.cert = some c)
    (h6 : KaCert env a s x)
    (hk : cek.length = 16 ∨ cek.length = 24 ∨ cek.length = 32) (hiv : env.decIv (env.encIv rd.iv) = some (rd.iv, []))
    (hc : ∀ c, env.cbcEnc cek rd.iv (pad data) = .ok c → env.cbcDec cek rd.iv c = .ok (pad data))
    (ht : oid.getD [1, 2, 840, 113549, 1, 7, 2] =
      (if a.raw then [1, 2, 840, 113549, 1, 7, 1] else [1, 2, 840, 113549, 1, 7, 2])) :
    openEnv env a (wire env e) = .ok data := by
  unfold buildExchange exchangeRi at h
  rw [if_pos hrsa] at h
  cases hb : buildKtri env key (some c) cek rd.rnd oaep none none with
  | error x => rw [hb] at h; cases h
  | ok k =>
    rw [hb] at h
    refine C153_content_roundtrip env (r := .ktri k) h ?_ h1 h2 h3 hk hiv hc ht
    show asymExtract env a (.ktri k) = .ok cek
    rw [asym_ok, h5]
    exact ⟨nofun, s, x, h4, h6, C150_roundtrip env hb hs hs' hd ho hr hx⟩

/-- C153: the same for a KEM certificate, with HKDF. -/
theorem C153_exchange_kem (env : KEnv S K C) {x448 : K → Bool} {key : K} {c : C} {data cek : Bytes} {s0 : Option S}
    {gen s : S} {oaep : Bool} {oid : Option Oid} {rd : Rand} {e : EnvData} {a : OpenArgs S C}
    (h : buildExchange env x448 key data s0 gen (some c) cek none oaep oid rd = .ok e)
    (hrsa : env.isRsaPub key = false) (hec : env.isEcdhPub key = false)
    (hr : env.isRsaKemPub key = false) (hr' : env.isRsaDecap s = false) (hoid : env.kemOidE s = env.kemOidPubE key)
    (hok : ∀ x, env.kemOidPubE key = .ok x → env.isKemOid x = true)
    (hd : ∀ ss ct, env.encaps key .plain rd.rnd = .ok (ss, ct) → env.decaps s .plain ct = .ok ss)
    (hal : ∀ x, env.decAlg (env.encHashAlg x) = some (x, []))
    (hw : ∀ kek ek, env.wrap kek cek = .ok ek → env.unwrap kek ek = .ok cek)
    (hde : ∀ k, env.decKemri (env.encKemri k) = some (wireKemri env k, []))
    (h1 : a.type = none) (h2 : a.size = 1) (h3 : a.idx = 0) (h4 : a.key = some s) (h5 : a.cert = some c)
    (hk : cek.length = 16 ∨ cek.length = 24 ∨ cek.length = 32) (hiv : env.decIv (env.encIv rd.iv) = some (rd.iv, []))
    (hc : ∀ c, env.cbcEnc cek rd.iv (pad data) = .ok c → env.cbcDec cek rd.iv c = .ok (pad data))
    (ht : oid.getD [1, 2, 840, 113549, 1, 7, 2] =
      (if a.raw then [1, 2, 840, 113549, 1, 7, 1] else [1, 2, 840, 113549, 1, 7, 2])) :
    openEnv env a (wire env e) = .ok data := by
  unfold buildExchange exchangeRi at h
  rw [if_neg (by simp [hrsa]), if_neg (by simp [hec])] at h
  split at h
  · cases h
  · rename_i ri hri
    split at hri
    · obtain ⟨k, hb, rfl⟩ := map_ok hri
      refine C153_content_roundtrip env (r := .ori oriKemOid (.obj k)) h ?_ h1 h2 h3 hk hiv hc ht
      show oriCek env oriKemOid (.raw (env.encKemri k)) a.cert a.key a.pop = .ok cek
      rw [h4, h5]
      exact (C152_ori env (hde k)
        (C152_roundtrip env hb rfl (by decide) rfl rfl hr hr' hoid hok hd hal hw)).2.1
    · cases hri

/-- C153: the same for an EC key: the certificate `kc` has the public key of the sender, and both names are those of the
certificate `c`. -/
theorem C153_exchange_ec (env : KEnv S K C) {x448 : K → Bool} {key k' : K} {c kc : C} {data cek : Bytes}
    {gen s s' : S} {oaep : Bool} {oid : Option Oid} {rd : Rand} {e : EnvData} {a : OpenArgs S C}
    (hne : ∀ n x, env.H n x ≠ [])
    (h : buildExchange env x448 key data (some s) gen (some c) cek none oaep oid rd = .ok e)
    (hrsa : env.isRsaPub key = false) (hec : env.isEcdhPub key = true)
    (hwa : ∀ w, env.decWrapAlg (env.encWrapAlg w) = some (w, []))
    (hw : ∀ kek ek, env.wrap kek cek = .ok ek → env.unwrap kek ek = .ok cek) (hs : env.isEcdh s' = true)
    (hkc : env.keyOf kc = .ok k') (hk' : env.isEcdhPub k' = true) (hd : env.dh s' k' false = env.dh s key false)
    (h1 : a.type = none) (h2 : a.size = 1) (h3 : a.idx = 0) (h4 : a.key = some s') (h5 : a.cert = some c)
    (h6 : a.kariCert = some kc)
    (hk : cek.length = 16 ∨ cek.length = 24 ∨ cek.length = 32) (hiv : env.decIv (env.encIv rd.iv) = some (rd.iv, []))
    (hc : ∀ c, env.cbcEnc cek rd.iv (pad data) = .ok c → env.cbcDec cek rd.iv c = .ok (pad data))
    (ht : oid.getD [1, 2, 840, 113549, 1, 7, 2] =
      (if a.raw then [1, 2, 840, 113549, 1, 7, 1] else [1, 2, 840, 113549, 1, 7, 2])) :
    openEnv env a (wire env e) = .ok data := by
  unfold buildExchange exchangeRi at h
  rw [if_neg (by simp [hrsa]), if_pos hec] at h
  dsimp only at h
  split at h
  · cases h
  · rename_i ri hri
    split at hri
    · obtain ⟨k, hb, rfl⟩ := map_ok hri
      refine C153_content_roundtrip env (r := .kari k) h ?_ h1 h2 h3 hk hiv hc ht
      show asymExtract env a (.kari k) = .ok cek
      rw [asym_ok, h5]
      exact ⟨nofun, s', some kc, h4, .given h6,
        C151_roundtrip_dh env hne hb rfl rfl (fun _ => ⟨rfl, rfl⟩) hwa hw hs hkc hk' nofun hd⟩
    · cases hri

end Verif.Env
