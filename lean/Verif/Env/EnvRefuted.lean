import Verif.Env.EnvProps
import Verif.Env.Codec

/-!
# C148 to C153: examples, and where the code differs from the standards
-/

namespace Verif.Env

open Verif.CA Verif.Prot

variable {S K C : Type}

/-! ## Values for examples -/

def exCek : Bytes := List.replicate 16 5
def exIv : Bytes := List.replicate 16 9
def exData : Bytes := [1, 2, 3]
def exRand : Rand := ⟨exIv, [8], [7], [6]⟩
def exNoInfo : EncInfo := ⟨[], ⟨[], none⟩, none⟩
def exNoEnv : EnvData := ⟨0, [], exNoInfo⟩

/-- The encrypted content. -/
def exInfo : EncInfo := (buildInfo exK exCek exData exIv none).toOption.getD exNoInfo

/-- A password recipient. -/
def exPwri (o : PwOpts) : Pwri := (buildPwri exK [77] exCek [7] o).toOption.getD ⟨none, none, none, none⟩

/-- `EnvelopedData` for a password. -/
def exPwEnv (kdf : String) : EnvData :=
  (buildPwriEnv exK [77] exData exCek [] [7] exIv kdf false signedDataOid).toOption.getD exNoEnv

/-- A message whose protection is made with the password; its salt is 4. -/
def exPwMsg (p : Bytes) : Msg Nat :=
  ⟨⟨[10], true, some ⟨[1, 2, 840, 113533, 7, 66, 13], .pbm ⟨[4], [2, 16, 840, 1, 101, 3, 4, 2, 1], none, 1,
    [1, 2, 840, 113549, 2, 9], none⟩⟩, some [11], []⟩, some [12], some p, []⟩

/-- The right protection. -/
def exPwProt : Bytes := [6, 1, 77, 4, 10, 11, 12]

/-- A key transport recipient. -/
def exKtri (k c : Nat) (oaep : Bool) : Ktri :=
  (buildKtri exK k (some c) exCek [8] oaep none none).toOption.getD ⟨none, none, none, none⟩

/-- A key agreement recipient. -/
def exKari (k s c : Nat) (o : KaOpts Nat) : Kari :=
  (buildKari exK (fun _ => false) k s 3 exCek [6] (some c) none none none o).toOption.getD ⟨none, none, none, none, none⟩

/-- A KEM recipient. -/
def exKemri (k c : Nat) (o : KemOpts) : Kemri :=
  (buildKemri exK k (some c) exCek [8] [7] none none o).toOption.getD ⟨none, none, none, none, none, none, none, none, none⟩

/-- Options with KDF3 and user keying material. -/
def exKdf3 : KemOpts := { kdf := "kdf3", hash := "sha512", ukm := some [3] }

/-- `EnvelopedData` for a certificate. -/
def exEnvFor (k c : Nat) (s : Option Nat) : EnvData :=
  (buildExchange exK (fun _ => false) k exData s 3 (some c) exCek none true none exRand).toOption.getD exNoEnv

/-- A message with certificates. -/
def exCerts (l : List Nat) : Msg Nat := ⟨⟨[], true, none, none, []⟩, none, none, l⟩

/-! ## Examples -/

/-- C148_iff and C148_roundtrip. -/
example : Content exK exInfo exCek false exData :=
  (C148_iff exK exInfo exCek false exData).mp (C148_roundtrip exK (by decide) (codec_law exIv)
    (fun c h => exK_cbc _ _ _ c h) (by decide) (oid := none) (by decide +kernel))

/-- C148_unique and C148_key_length: another key, content type or length is refused. -/
example : openInfo exK exInfo exCek false = .ok exData ∧ openInfo exK exInfo exCek true = .error .valueError ∧
    openInfo exK exInfo (List.replicate 16 6) false = .error .valueError ∧
    openInfo exK exInfo (List.replicate 24 5) false = .error .valueError := by
  decide +kernel

/-- C149_iff and C149_roundtrip. -/
example : ∃ s, OuterSalt exK none (some [4]) s ∧ PwriKey exK (wirePwri exK (exPwri {})) s [77] exCek :=
  (C149_iff exK none [77] _ (some [4]) exCek (fun _ _ _ _ _ => rfl)).mp
    (C149_roundtrip exK rfl rfl rfl rfl rfl (pw := [77]) (cek := exCek) (rnd := [7]) (o := {}) (by decide +kernel)
      (.given none [4]) (by decide) codec_law (fun k w h => exK_wrap k exCek w h))

/-- C149_salt: the salt of the protection must not be used again. -/
example : pwriCek exK none [77] (wirePwri exK (exPwri { salt := [4] })) (some [4]) = .error .valueError ∧
    pwriCek exK none [77] (wirePwri exK (exPwri { salt := [4] })) (some [3]) = .ok exCek ∧
    pwriCek exK none [78] (wirePwri exK (exPwri { salt := [4] })) (some [3]) = .error .valueError := by
  decide +kernel

/-- C149_open_iff and C149_env_roundtrip, with the protection of the message. -/
example : openPwri exK [] (wire exK (exPwEnv "pbkdf2")) [77] (some (exPwMsg exPwProt)) none 1 0 false false = .ok exData :=
  C149_env_roundtrip exK (kdf := "pbkdf2") (cek := exCek) (salt := []) (rnd := [7]) (iv := exIv) (raw := false)
    (oid := signedDataOid) (by decide +kernel) (.msg rfl (.pbmObj _)) (by decide) (by decide) (fun _ => rfl) codec_law
    (fun k w h => exK_wrap k exCek w h) (codec_law exIv) (fun c h => exK_cbc _ _ _ c h)
    (fun _ => ⟨_, rfl, by decide +kernel⟩)

/-- C149_protected: without it, nothing is returned. -/
example : openEnv exK { type := some "pwri", pw := some [77], msg := some (exPwMsg exPwProt) }
      (wire exK (exPwEnv "pbkdf2")) = .ok exData ∧
    openEnv exK { type := some "pwri", pw := some [77], msg := some (exPwMsg [0]) }
      (wire exK (exPwEnv "pbkdf2")) = .error .badMacProtection := by
  decide +kernel

/-- C150_iff and C150_roundtrip, with a subject key identifier and OAEP. -/
example : KtriKey exK (exKtri 1 21 true) (some 21) 1 false exCek :=
  (C150_iff exK _ (some 21) 1 false exCek (fun _ _ _ _ _ _ _ => ⟨fun _ _ => rfl, fun _ _ _ _ _ _ => rfl⟩)).mp
    (C150_roundtrip exK (key := 1) (rnd := [8]) (oaep := true) (by decide +kernel) rfl rfl codec_law codec_law
      (by decide) (by intro p x h; cases h; exact stripPre_append _ _))

/-- C150_recipient and C150_rsa_only: another certificate, another key, a key that is not RSA. -/
example : ktriCek exK (exKtri 1 21 true) (some 21) 1 false = .ok exCek ∧
    ktriCek exK (exKtri 1 21 true) (some 31) 1 false = .error .valueError ∧
    ktriCek exK (exKtri 1 21 true) (some 1) 1 false = .error .valueError ∧
    ktriCek exK (exKtri 1 21 true) (some 31) 1 true = .ok exCek ∧
    ktriCek exK (exKtri 1 21 true) (some 21) 7 false = .error .valueError ∧
    ktriCek exK (exKtri 1 21 true) (some 21) 2 false = .error .valueError ∧
    buildKtri exK 2 (some 21) exCek [8] true none none = .error .valueError := by
  decide +kernel

/-- C151_iff and C151_roundtrip_dh: cofactor, SHA-512, AES-128; the sender has key 2, the recipient 3. -/
example : KariKey exK (exKari 3 2 11 { hash := "sha512", cofactor := true, wrapOid := [2, 16, 840, 1, 101, 3, 4, 1, 5] })
    (some 11) 3 false (some 2) exCek :=
  (C151_iff exK _ (some 11) 3 false (some 2) exCek (by intro n x; exact nofun)).mp
    (C151_roundtrip_dh exK (x448 := fun _ => false) (k := 3) (k' := 2) (s := 2) (gen := 3) (ukm := [6])
      (o := { hash := "sha512", cofactor := true, wrapOid := [2, 16, 840, 1, 101, 3, 4, 1, 5] })
      (by intro n x; exact nofun) (by decide +kernel) rfl rfl (by intro h; exact absurd h (by decide)) codec_law
      (fun k w h => exK_wrap k exCek w h) (by decide) (by decide) (by decide) (by decide) (by decide))

/-- C151_roundtrip_mqv: the sender has key 2, the recipient 3, the ephemeral key is 2. -/
example : kariCek exK (exKari 3 2 11 { mqv := true, eph := some 2 }) (some 11) 3 false (some 2) = .ok exCek :=
  C151_roundtrip_mqv exK (x448 := fun _ => false) (k := 3) (k' := 2) (s := 2) (gen := 3) (ukm := [6])
    (o := { mqv := true, eph := some 2 }) (by intro n x; exact nofun) (by decide +kernel) rfl rfl (by decide) codec_law
    exK_mqv (fun k w h => exK_wrap k exCek w h) (by decide) (by decide) (by decide) (by decide) (by decide) (by decide)

/-- C151_named: other names, another key. -/
example : kariCek exK (exKari 3 2 11 {}) (some 11) 3 false (some 2) = .ok exCek ∧
    kariCek exK (exKari 3 2 11 {}) (some 12) 3 false (some 2) = .error .valueError ∧
    kariCek exK (exKari 3 2 11 {}) (some 12) 3 true (some 2) = .ok exCek ∧
    kariCek exK (exKari 3 2 11 {}) (some 11) 3 false (some 4) = .error .valueError ∧
    kariCek exK (exKari 3 2 11 {}) (some 11) 2 false (some 2) = .error .valueError := by
  decide +kernel

/-- C152_iff, C152_roundtrip and C152_ori, with KDF3 and user keying material. -/
example : KemriKey exK (wireKemri exK (exKemri 0 20 exKdf3)) (some 20) 0
    false false exCek ∧ oriCek exK oriKemOid (.raw (exK.encKemri (exKemri 0 20 exKdf3))) (some 20) (some 0) false = .ok exCek := by
  have h : kemCek exK (wireKemri exK (exKemri 0 20 exKdf3)) (some 20)
      (some 0) false false = .ok exCek :=
    C152_roundtrip exK (key := 0) (rnd := [8]) (salt := [7]) (o := exKdf3)
      (by decide +kernel) rfl (by decide) rfl rfl (by decide) (by decide) rfl (by intro x h; cases h; decide)
      (by intro ss ct h; cases h; decide) codec_law (fun k w h => exK_wrap k exCek w h)
  exact ⟨(C152_iff exK _ (some 20) 0 false false exCek
    (by
      intro o par hk
      obtain ⟨ko, kp, hkk, hkp⟩ : ∃ ko kp, (wireKemri exK (exKemri 0 20 exKdf3)).kdf = some (ko, .raw kp) ∧ True :=
        ⟨_, _, rfl, trivial⟩
      rw [hkk] at hk
      cases hk
      exact ⟨nofun, fun _ _ => rfl⟩) (by intro n x; exact nofun)).mp h, (C152_ori exK (exK_kemri _) h).2.1⟩

/-- C152_key; another key, another certificate. -/
example : kemCek exK (wireKemri exK (exKemri 0 20 {})) (some 20) (some 0) false false = .ok exCek ∧
    kemCek exK (wireKemri exK (exKemri 0 20 {})) (some 20) none false false = .error .attributeError ∧
    kemCek exK (wireKemri exK (exKemri 0 20 {})) (some 20) (some 6) false false = .error .valueError ∧
    kemCek exK (wireKemri exK (exKemri 0 20 {})) (some 30) (some 0) false false = .error .valueError := by
  decide +kernel

/-- C153_exchange_rsa, C153_content_roundtrip. -/
example : openEnv exK { key := some 1, cert := some 21 } (wire exK (exEnvFor 1 21 none)) = .ok exData :=
  C153_exchange_rsa exK (x448 := fun _ => false) (key := 1) (gen := 3) (cek := exCek) (s0 := none) (oaep := true)
    (oid := none) (rd := exRand) (by decide +kernel) (by decide) rfl rfl codec_law codec_law (by decide)
    (by intro p x h; cases h; exact stripPre_append _ _) rfl rfl rfl rfl rfl (.none rfl (by decide)) (by decide)
    (codec_law exIv) (fun c h => exK_cbc _ _ _ c h) (by decide)

/-- C153_exchange_kem. -/
example : openEnv exK { key := some 0, cert := some 20 } (wire exK (exEnvFor 0 20 none)) = .ok exData :=
  C153_exchange_kem exK (x448 := fun _ => false) (key := 0) (gen := 3) (cek := exCek) (s0 := none) (oaep := true)
    (oid := none) (rd := exRand) (by decide +kernel) (by decide) (by decide) (by decide) (by decide) rfl
    (by intro x h; cases h; decide) (by intro ss ct h; cases h; decide) codec_law (fun k w h => exK_wrap k exCek w h)
    exK_kemri rfl rfl rfl rfl rfl (by decide) (codec_law exIv) (fun c h => exK_cbc _ _ _ c h) (by decide)

/-- C153_exchange_ec. -/
example : openEnv exK { key := some 3, cert := some 11, kariCert := some 2 } (wire exK (exEnvFor 3 11 (some 2))) =
    .ok exData :=
  C153_exchange_ec exK (x448 := fun _ => false) (key := 3) (k' := 2) (gen := 3) (s := 2) (cek := exCek) (oaep := true)
    (oid := none) (rd := exRand) (by intro n x; exact nofun) (by decide +kernel) (by decide) (by decide) codec_law
    (fun k w h => exK_wrap k exCek w h) (by decide) rfl (by decide) (by decide) rfl rfl rfl rfl rfl rfl (by decide)
    (codec_law exIv) (fun c h => exK_cbc _ _ _ c h) (by decide)

/-- C153_iff and C153_single: the second certificate of the message has the X25519 key. -/
example : openEnv exK { key := some 5, cert := some 11, msg := some (exCerts [11, 4]) }
      (wire exK (exEnvFor 5 11 (some 4))) = .ok exData ∧
    openEnv exK { key := some 5, cert := some 11, type := some "kari", idx := -1, msg := some (exCerts [14]) }
      (wire exK (exEnvFor 5 11 (some 4))) = .ok exData ∧
    openEnv exK { key := some 5, cert := some 11, type := some "ktri", kariCert := some 4 }
      (wire exK (exEnvFor 5 11 (some 4))) = .error .valueError ∧
    openEnv exK { key := some 5, cert := some 11, msg := some (exCerts [11, 1]) }
      (wire exK (exEnvFor 5 11 (some 4))) = .error .valueError := by
  decide +kernel

/-- C153_kemri_iff. -/
example : openEnv exK { key := some 0, cert := some 20, type := some "kemri" } (wire exK (exEnvFor 0 20 none)) = .ok exData ∧
    openEnv exK { key := some 0, cert := some 20, type := some "kemri", size := 2 } (wire exK (exEnvFor 0 20 none)) =
      .error .valueError ∧
    openEnv exK { key := some 2, cert := some 20, type := some "kemri" } (wire exK (exEnvFor 0 20 none)) =
      .error .valueError := by
  decide +kernel

/-! ## Differences: password recipients -/

/-- `prepare_enveloped_data_with_pwri` ignores its argument `kdf`: PBKDF2 is used whatever it says. -/
theorem C149_kdf_refuted :
    (∀ (env : KEnv S K C) (pw data cek salt rnd iv : Bytes) (kdf : String) (raw : Bool) (oid : Oid) (e : EnvData),
      buildPwriEnv env pw data cek salt rnd iv kdf raw oid = .ok e →
      ∃ p q, e.infos = [.pwri p] ∧ p.kdf = some ([1, 2, 840, 113549, 1, 5, 12], .pbkdf2 q)) ∧
    ∃ e, buildPwriEnv exK [77] exData exCek [] [7] exIv "hkdf" false signedDataOid = .ok e := by
  refine ⟨?_, exPwEnv "hkdf", by decide +kernel⟩
  intro env pw data cek salt rnd iv kdf raw oid e h
  unfold buildPwriEnv at h
  cases hb : buildPwri env pw cek rnd { salt := salt } with
  | error x => rw [hb] at h; cases h
  | ok p =>
    rw [hb] at h
    dsimp only at h
    unfold buildEnv at h
    split at h
    · cases h
    · cases h
      unfold buildPwri at hb
      cases hk : pwKeys env pw cek rnd { salt := salt } with
      | error x => rw [hk] at hb; cases hb
      | ok y =>
        obtain ⟨kdf, w⟩ := y
        rw [hk] at hb
        dsimp only at hb
        split at hb
        · cases hb
        · cases hb
          unfold pwKeys at hk
          rw [if_pos rfl] at hk
          unfold pwWrap at hk
          split at hk
          · cases hk
          · split at hk
            · cases hk
            · split at hk
              · cases hk
              · cases hk
                exact ⟨_, _, rfl, rfl⟩

/-- With `kdf_name="hkdf"` the password is not used: the wrapping key is derived from the content encryption key, which
the recipient does not have; and the recipient refuses the algorithm. -/
theorem C149_hkdf_refuted :
    (∀ (env : KEnv S K C) (pw pw' cek rnd : Bytes) (o : PwOpts), o.kdfName = "hkdf" →
      buildPwri env pw cek rnd o = buildPwri env pw' cek rnd o) ∧
    (∀ (env : KEnv S K C) (pw cek rnd : Bytes) (o : PwOpts) (p : Pwri), o.kdfName = "hkdf" →
      buildPwri env pw cek rnd o = .ok p → ∀ m pw' salt cek', pwriCek env m pw' (wirePwri env p) salt ≠ .ok cek') ∧
    ∃ p, buildPwri exK [77] exCek [7] { kdfName := "hkdf" } = .ok p := by
  refine ⟨?_, ?_, exPwri { kdfName := "hkdf" }, by decide +kernel⟩
  · intro env pw pw' cek rnd o h
    have : pwKeys env pw cek rnd o = pwKeys env pw' cek rnd o := by
      unfold pwKeys
      simp [h]
    unfold buildPwri
    rw [this]
  · intro env pw cek rnd o p ho h m pw' salt cek' hc
    unfold buildPwri at h
    have hk : pwKeys env pw cek rnd o = hkdfWrap env cek o := by
      unfold pwKeys
      rw [ho, if_neg (by decide), if_pos rfl]
    rw [hk] at h
    cases hw : hkdfWrap env cek o with
    | error x => rw [hw] at h; cases h
    | ok y =>
      obtain ⟨kdf, w⟩ := y
      have hkdf : kdf.1 ∈ hkdfNames.map (·.1) := by
        unfold hkdfWrap at hw
        cases hl : lookOid hkdfNames ("hkdf-" ++ o.hash) with
        | none => rw [hl] at hw; cases hw
        | some ko =>
          rw [hl] at hw
          dsimp only at hw
          split at hw
          · cases hw
          · split at hw
            · cases hw
            · split at hw
              · cases hw
              · cases hw
                exact List.mem_map.mpr ⟨_, lookOid_mem _ _ _ hl, rfl⟩
      have hno : ∀ x ∈ hkdfNames.map (·.1), x ≠ pbkdf2Oid := by decide
      rw [hw] at h
      dsimp only at h
      split at h
      · cases h
      · cases h
        unfold pwriCek at hc
        split at hc
        · cases hc
        · rename_i w' _ _ s _
          have : ∀ x, checkPwri env (wirePwri env ⟨some o.version, if o.noKdf then none else some kdf,
              some ⟨aes256Wrap, none⟩, some w'⟩) s ≠ .ok x := by
            intro x hx
            unfold checkPwri wirePwri at hx
            dsimp only at hx
            split at hx
            · cases hx
            · cases hn : o.noKdf with
              | true => rw [hn] at hx; simp at hx
              | false =>
                rw [hn] at hx
                simp only [Bool.false_eq_true, if_false, Option.map_some] at hx
                rw [if_pos (hno _ hkdf)] at hx
                cases hx
          cases hp : checkPwri env (wirePwri env ⟨some o.version, if o.noKdf then none else some kdf,
              some ⟨aes256Wrap, none⟩, some w'⟩) s with
          | error e => rw [hp] at hc; cases hc
          | ok y => exact this y hp

/-- The length of the wrapping key is an argument, the algorithm of the key wrap is always AES-256: with another length
than 32 the recipient refuses. -/
theorem C149_length_refuted :
    (∀ (env : KEnv S K C) (pw cek rnd : Bytes) (o : PwOpts) (p : Pwri), o.kdfName = "pbkdf2" → o.len ≠ 32 →
      (∀ q, env.decPbkdf2 (env.encPbkdf2 q) = some (q, [])) → buildPwri env pw cek rnd o = .ok p →
      ∀ m pw' salt cek', PwUsual env (wirePwri env p) → pwriCek env m pw' (wirePwri env p) salt ≠ .ok cek') ∧
    ∃ p, buildPwri exK [77] exCek [7] { len := 16 } = .ok p := by
  refine ⟨?_, exPwri { len := 16 }, by decide +kernel⟩
  intro env pw cek rnd o p ho hl hd h m pw' salt cek' hu hc
  obtain ⟨s, _, hk⟩ := (C149_iff env m pw' _ salt cek' hu).mp hc
  unfold buildPwri pwKeys at h
  rw [if_pos ho] at h
  cases hw : pwWrap env pw cek rnd o with
  | error x => rw [hw] at h; cases h
  | ok y =>
    obtain ⟨kdf, w⟩ := y
    rw [hw] at h
    dsimp only at h
    split at h
    · cases h
    · cases h
      unfold pwWrap prepPbkdf2 at hw
      cases hm : hmacOid o.hash with
      | error x => rw [hm] at hw; cases hw
      | ok ho' =>
        rw [hm] at hw
        dsimp only at hw
        split at hw
        · cases hw
        · split at hw
          · cases hw
          · cases hw
            cases hk with
            | mk h1 h2 h3 h4 h5 h6 h7 h8 h9 h10 h11 h12 =>
              cases hn : o.noKdf with
              | true => rw [hn] at h2; cases h2
              | false =>
                rw [hn] at h2
                cases h2
                cases h6 with
                | raw h6 =>
                  rw [hd] at h6
                  cases h6
                  cases h3
                  dsimp only at h9
                  rcases h4 with ⟨h4, h4'⟩ | ⟨h4, h4'⟩ | ⟨h4, h4'⟩
                  · exact absurd h4 (by decide)
                  · exact absurd h4 (by decide)
                  · subst h4'
                    exact hl (Option.some.inj h9)

/-- Without a type, the same `EnvelopedData` is opened although the protection of the message is wrong. -/
theorem C149_unprotected_refuted : ∃ (env : KEnv Nat Nat Nat) (m : Msg Nat) (e : EnvData) (pw d : Bytes),
    verifyProt env.toEnv [] m none (some pw) none none false ≠ .ok () ∧
    openEnv env { type := some "pwri", pw := some pw, msg := some m } e = .error .badMacProtection ∧
    openEnv env { pw := some pw, msg := some m } e = .ok d :=
  ⟨exK, exPwMsg [0], wire exK (exPwEnv "pbkdf2"), [77], exData, by decide +kernel, by decide +kernel, by decide +kernel⟩

/-! ## Key transport -/

/-- The parameters of RSAES-OAEP as RFC 4055 defines them are refused: those of the mask generation function are an
algorithm identifier, and are decoded as an OID; an absent hash, which means SHA-1, is refused too. -/
theorem C150_oaep_refuted :
    (∀ (env : KEnv S K C) (k : Ktri) (b mb r : Bytes) (h : Option Oid) (mo : Oid) (l : Option Bytes),
      k.alg = some ⟨[1, 2, 840, 113549, 1, 1, 7], some b⟩ → env.decOaep b = some (⟨h, some (mo, some mb), l⟩, r) →
      env.decOid mb = none → ∀ c s pop cek, ktriCek env k c s pop ≠ .ok cek) ∧
    (∀ (env : KEnv S K C) (k : Ktri) (b r : Bytes) (g : Option (Oid × Option Bytes)) (l : Option Bytes),
      k.alg = some ⟨[1, 2, 840, 113549, 1, 1, 7], some b⟩ → env.decOaep b = some (⟨none, g, l⟩, r) →
      ∀ c s pop cek, ktriCek env k c s pop ≠ .ok cek) ∧
    ktriCek exK { exKtri 1 21 true with alg := some ⟨[1, 2, 840, 113549, 1, 1, 7], some (exK.encOaep
      ⟨some [2, 16, 840, 1, 101, 3, 4, 2, 2], some (mgf1Oid, some [48, 200]), none⟩)⟩ } (some 21) 1 false =
      .error .pyasn1Error ∧
    ktriCek exK { exKtri 1 21 true with alg := some ⟨[1, 2, 840, 113549, 1, 1, 7], some (exK.encOaep
      ⟨none, some (mgf1Oid, some (exK.encOid [2, 16, 840, 1, 101, 3, 4, 2, 1])), none⟩)⟩ } (some 21) 1 false =
      .error .pyasn1Error := by
  have key : ∀ (env : KEnv S K C) (k : Ktri) (b : Bytes) c s pop cek,
      k.alg = some ⟨[1, 2, 840, 113549, 1, 1, 7], some b⟩ → ktriCek env k c s pop = .ok cek →
      ∃ p q, env.decOaep b = some (p, []) ∧ oaepPad env p = .ok q := by
    intro env k b c s pop cek ha h
    unfold ktriCek at h
    cases hc : checkKtri env k c pop with
    | error e => rw [hc] at h; cases h
    | ok y =>
      obtain ⟨ek, a⟩ := y
      have haa : a = ⟨[1, 2, 840, 113549, 1, 1, 7], some b⟩ := by
        obtain ⟨_, _, h3, _⟩ := (checkKtri_iff env k c pop ek a).mp hc
        rw [ha] at h3
        cases h3
        rfl
      subst haa
      rw [hc] at h
      dsimp only at h
      split at h
      · cases hp : rsaPadOf env ⟨[1, 2, 840, 113549, 1, 1, 7], some b⟩ with
        | error e => rw [hp] at h; cases h
        | ok q =>
          unfold rsaPadOf at hp
          rw [if_neg (show ¬ ([1, 2, 840, 113549, 1, 1, 7] : Oid) = rsaEncOid by decide),
            if_pos (show ([1, 2, 840, 113549, 1, 1, 7] : Oid) = oaepOid from rfl)] at hp
          dsimp only at hp
          cases hd : env.decOaep b with
          | none => rw [hd] at hp; cases hp
          | some z =>
            obtain ⟨p, r⟩ := z
            rw [hd] at hp
            dsimp only at hp
            split at hp
            · cases hp
            · rename_i hr
              have hr' : r = [] := Classical.not_not.mp hr
              subst hr'
              exact ⟨p, q, rfl, hp⟩
      · cases h
  refine ⟨?_, ?_, by decide +kernel, by decide +kernel⟩
  · intro env k b mb r h mo l ha hd hn c s pop cek hc
    obtain ⟨p, q, h1, h2⟩ := key env k b c s pop cek ha hc
    rw [hd] at h1
    cases h1
    unfold oaepPad at h2
    dsimp only at h2
    split at h2
    · cases h2
    · split at h2
      · cases h2
      · rw [hn] at h2
        cases h2
  · intro env k b r g l ha hd c s pop cek hc
    obtain ⟨p, q, h1, h2⟩ := key env k b c s pop cek ha hc
    rw [hd] at h1
    cases h1
    cases h2

/-! ## Key agreement -/

theorem origOf_cases {env : KEnv S K C} {c : C} {o : Orig} (h : OrigOf env c o) :
    (∃ b, env.skiOf c = some b ∧ o = .ski b) ∨ (env.skiOf c = none ∧ o = .iss (env.issuerOf c) (env.serialOf c)) := by
  cases h with
  | ski g => exact Or.inl ⟨_, g, rfl⟩
  | iss g => exact Or.inr ⟨g, rfl⟩

theorem kaRidOf_cases {env : KEnv S K C} {c : C} {o : KaRid} (h : KaRidOf env c o) :
    (∃ b, env.skiOf c = some b ∧ o = .rKey b) ∨ (env.skiOf c = none ∧ o = .iss (env.issuerOf c) (env.serialOf c)) := by
  cases h with
  | rKey g => exact Or.inl ⟨_, g, rfl⟩
  | iss g => exact Or.inr ⟨g, rfl⟩

/-- A recipient that names the sender as the originator and the recipient as the recipient, as RFC 5652 says, is never
accepted when these have different names: both names are compared with the same certificate. -/
theorem C151_originator_refuted :
    (∀ (env : KEnv S K C) (x y : C) (k : Kari) (o : Orig) (r : KaRid) (ek : Bytes), OrigOf env x o → KaRidOf env y r →
      (env.skiOf x ≠ env.skiOf y ∨ env.issuerOf x ≠ env.issuerOf y ∧ env.skiOf x = none) → k.orig = some o →
      k.keys = some [(r, ek)] → ∀ c s kc cek, kariCek env k c s false kc ≠ .ok cek) ∧
    kariCek exK { exKari 3 2 13 {} with orig := some (.ski [12]) } (some 13) 3 false (some 12) = .error .valueError := by
  refine ⟨?_, by decide +kernel⟩
  intro env x y k o r ek ho hr hne hk hkk c s kc cek h
  obtain ⟨c', o', r', ek', _, h2, h3, h4, h5⟩ := C151_named env h
  rw [hk] at h2
  rw [hkk] at h3
  cases h2
  cases h3
  have hx : env.skiOf x = env.skiOf c' ∧ (env.skiOf x = none → env.issuerOf x = env.issuerOf c') := by
    rcases origOf_cases ho with ⟨b, g, e⟩ | ⟨g, e⟩ <;> rcases origOf_cases h4 with ⟨b', g', e'⟩ | ⟨g', e'⟩ <;> rw [e] at e'
    · cases e'
      exact ⟨by rw [g, g'], by rw [g]; nofun⟩
    · cases e'
    · cases e'
    · injection e' with hi _
      exact ⟨by rw [g, g'], fun _ => hi⟩
  have hy : env.skiOf y = env.skiOf c' ∧ (env.skiOf y = none → env.issuerOf y = env.issuerOf c') := by
    rcases kaRidOf_cases hr with ⟨b, g, e⟩ | ⟨g, e⟩ <;> rcases kaRidOf_cases h5 with ⟨b', g', e'⟩ | ⟨g', e'⟩ <;>
      rw [e] at e'
    · cases e'
      exact ⟨by rw [g, g'], by rw [g]; nofun⟩
    · cases e'
    · cases e'
    · injection e' with hi _
      exact ⟨by rw [g, g'], fun _ => hi⟩
  rcases hne with h | ⟨h, h'⟩
  · exact h (by rw [hx.1, hy.1])
  · exact h (by rw [hx.2 h', hy.2 (by rw [hy.1, ← hx.1, h'])])

/-- For a certificate with a subject key identifier, an issuer and serial number as argument makes the originator name
these and the recipient the identifier: such a recipient is never accepted. -/
theorem C151_issuer_refuted :
    (∀ (env : KEnv S K C) (x448 : K → Bool) (k : K) (s gen : S) (cek ukm : Bytes) (c : C) (is : Bytes × Int) (o : KaOpts S)
      (r : Kari), env.skiOf c ≠ none → buildKari env x448 k s gen cek ukm (some c) (some is) none none o = .ok r →
      ∀ c' s' kc cek', kariCek env r c' s' false kc ≠ .ok cek') ∧
    ∃ r, buildKari exK (fun _ => false) 3 2 3 exCek [6] (some 11) (some (exK.issuerOf 11, exK.serialOf 11)) none none {} =
      .ok r := by
  refine ⟨?_, (buildKari exK (fun _ => false) 3 2 3 exCek [6] (some 11) (some (exK.issuerOf 11, exK.serialOf 11)) none none
    {}).toOption.getD ⟨none, none, none, none, none⟩, by decide +kernel⟩
  intro env x448 k s gen cek ukm c is o r hs h c' s' kc cek' hc
  obtain ⟨d, o', r', ek', _, h2, h3, h4, h5⟩ := C151_named env hc
  unfold buildKari at h
  split at h
  · cases h
  · split at h
    · cases h
    · split at h
      · cases h
      · unfold kariInfo at h
        rw [if_neg (by simp)] at h
        unfold origOr buildOrig buildKaRid at h
        dsimp only at h
        cases hk : env.skiOf c with
        | none => exact hs hk
        | some b =>
          have : (some c).bind env.skiOf = some b := hk
          rw [this] at h
          cases h
          cases h2
          cases h3
          rcases origOf_cases h4 with ⟨_, _, e⟩ | ⟨g, _⟩
          · cases e
          · rcases kaRidOf_cases h5 with ⟨_, g', _⟩ | ⟨_, e⟩
            · rw [g] at g'
              cases g'
            · cases e

/-- For an X25519 key, the hash is an argument for the sender; the recipient uses SHA-256. -/
theorem C151_hash_refuted : ∃ (env : KEnv Nat Nat Nat) (r : Kari) (cek : Bytes),
    buildKari env (fun _ => false) 5 4 3 cek [6] (some 11) none none none { hash := "sha512" } = .ok r ∧
    env.dh 5 4 false = env.dh 4 5 false ∧ kariCek env r (some 11) 5 false (some 4) ≠ .ok cek ∧
    kariCek env (exKari 5 4 11 { hash := "sha256" }) (some 11) 5 false (some 4) = .ok cek :=
  ⟨exK, exKari 5 4 11 { hash := "sha512" }, exCek, by decide +kernel, by decide +kernel, by decide +kernel,
    by decide +kernel⟩

/-! ## KEM recipients -/

/-- The default key derivation function of `prepare_recip_info`, PBKDF2, is never accepted in a received KEM recipient. -/
theorem C152_pbkdf2_refuted :
    (∀ (env : KEnv S K C) (key : K) (c : Option C) (cek rnd salt : Bytes) (is : Option (Bytes × Int)) (rid : Option Rid)
      (o : KemOpts) (k : Kemri), o.kdf = "pbkdf2" → buildKemri env key c cek rnd salt is rid o = .ok k →
      ∀ c' s pop sun cek', kemCek env (wireKemri env k) c' s pop sun ≠ .ok cek') ∧
    (∃ k, buildRi exK (fun _ => false) (some 0) none 3 (some 20) none exCek none none true [] "pbkdf2" none exRand =
      .ok (.ori oriKemOid (.obj k)) ∧ kemCek exK k (some 20) (some 0) false false = .ok exCek) := by
  refine ⟨?_, exKemri 0 20 { kdf := "pbkdf2" }, by decide +kernel, by decide +kernel⟩
  intro env key c cek rnd salt is rid o k ho h c' s pop sun cek' hc
  have hk : ∃ q, k.kdf = some (pbkdf2Oid, .pbkdf2 q) := by
    unfold buildKemri at h
    split at h
    · cases h
    · split at h
      · cases h
      · split at h
        · cases h
        · split at h
          · cases h
          · rename_i kdf hkdf
            split at h
            · cases h
            · cases h
              unfold prepKdf at hkdf
              rw [if_pos ho] at hkdf
              obtain ⟨q, _, rfl⟩ := map_ok hkdf
              exact ⟨q, rfl⟩
  obtain ⟨q, hq⟩ := hk
  unfold kemCek at hc
  split at hc
  · cases hc
  · cases hp : checkKemri env (wireKemri env k) c' s pop sun with
    | error e => rw [hp] at hc; cases hc
    | ok p =>
      rw [hp] at hc
      dsimp only at hc
      cases hs : kemShared env s p with
      | error e => rw [hs] at hc; cases hc
      | ok ss =>
        rw [hs] at hc
        dsimp only at hc
        have hpp : p.kdf = pbkdf2Oid ∧ p.kdfPar = .raw (env.encPbkdf2 q) := by
          unfold checkKemri at hp
          split at hp
          · cases hp
          · split at hp
            · cases hp
            · split at hp
              · cases hp
              · unfold kemTail wireKemri at hp
                rw [hq] at hp
                simp only [Option.map_some] at hp
                split at hp
                · cases hp
                · split at hp
                  · cases hp
                  · split at hp
                    · cases hp
                    · cases hp
                      exact ⟨rfl, rfl⟩
        rw [hpp.1, hpp.2] at hc
        have : ∀ info, ∃ e, kdfOf env.toEnv pbkdf2Oid (.raw (env.encPbkdf2 q)) ss info p.len = .error e := by
          intro info
          unfold kdfOf
          rw [show look hkdfNames pbkdf2Oid = none by decide]
          dsimp only
          rw [if_neg (by decide), if_pos rfl]
          unfold getKdfPbkdf2
          dsimp only
          cases env.decAlg (env.encPbkdf2 q) with
          | none => exact ⟨_, rfl⟩
          | some y => exact ⟨_, rfl⟩
        obtain ⟨e, he⟩ := this (env.encOther p.wrap p.len p.ukm)
        rw [he] at hc
        cases hc

/-- A key length that differs from that of the key wrap can be set, and is refused. -/
theorem C152_kek_length_refuted :
    (∀ (env : KEnv S K C) (key : K) (c : Option C) (cek rnd salt : Bytes) (is : Option (Bytes × Int)) (rid : Option Rid)
      (o : KemOpts) (k : Kemri) (n : Int), o.kekLen = some n → n ≠ 0 → wrapByName o.wrap ≠ .ok (aes256Wrap, n) →
      wrapByName o.wrap ≠ .ok ([2, 16, 840, 1, 101, 3, 4, 1, 25], n) →
      wrapByName o.wrap ≠ .ok ([2, 16, 840, 1, 101, 3, 4, 1, 5], n) → buildKemri env key c cek rnd salt is rid o = .ok k →
      checkWrap (wireKemri env k) = .error .valueError) ∧
    ∃ k, buildKemri exK 0 (some 20) exCek [8] [7] none none { kekLen := some 16 } = .ok k ∧
      kemCek exK (wireKemri exK k) (some 20) (some 0) false false = .error .valueError := by
  refine ⟨?_, exKemri 0 20 { kekLen := some 16 }, by decide +kernel, by decide +kernel⟩
  intro env key c cek rnd salt is rid o k n hn h0 h1 h2 h3 h
  have hk : ∃ w len, wrapByName o.wrap = .ok (w, len) ∧ k.wrap = some ⟨w, none⟩ ∧ k.kekLen = some n := by
    unfold buildKemri at h
    split at h
    · cases h
    · split at h
      · cases h
      · rename_i w len hw
        split at h
        · cases h
        · split at h
          · cases h
          · split at h
            · cases h
            · cases h
              refine ⟨w, len, hw, rfl, ?_⟩
              show some (kekLenOr o len) = some n
              unfold kekLenOr
              rw [hn]
              dsimp only
              rw [if_neg h0]
  obtain ⟨w, len, hw, hkw, hkl⟩ := hk
  unfold checkWrap wireKemri
  dsimp only
  rw [hkw, hkl]
  dsimp only
  have hw' := hw
  unfold wrapByName at hw'
  split at hw'
  · cases hw'
    rw [show lenOf wrapLens [2, 16, 840, 1, 101, 3, 4, 1, 5] = some 16 by decide]
    dsimp only
    rw [if_pos (by rintro rfl; exact h3 hw)]
  · split at hw'
    · cases hw'
      rw [show lenOf wrapLens [2, 16, 840, 1, 101, 3, 4, 1, 25] = some 24 by decide]
      dsimp only
      rw [if_pos (by rintro rfl; exact h2 hw)]
    · split at hw'
      · cases hw'
        rw [show lenOf wrapLens [2, 16, 840, 1, 101, 3, 4, 1, 45] = some 32 by decide]
        dsimp only
        rw [if_pos (by rintro rfl; exact h1 hw)]
      · cases hw'

/-- An RSA key encapsulates with OAEP and decapsulates with RSA-KEM. -/
theorem C152_rsa_refuted : ∃ (env : KEnv Nat Nat Nat) (k : Kemri) (cek : Bytes),
    buildKemri env 1 (some 21) cek [8] [7] none none {} = .ok k ∧ env.kemOidE 1 = env.kemOidPubE 1 ∧
    (∀ ss ct, env.encaps 1 .oaep [8] = .ok (ss, ct) → env.decaps 1 .oaep ct = .ok ss) ∧
    kemCek env (wireKemri env k) (some 21) (some 1) false false = .error .valueError :=
  ⟨exK, exKemri 1 21 {}, exCek, by decide +kernel, rfl, by intro ss ct h; cases h; decide, by decide +kernel⟩

/-- `OtherRecipientInfo` as it is built, before encoding, is opened with the type `kemri` and is an `AttributeError`
without a type. -/
theorem C152_object_refuted : ∃ (env : KEnv Nat Nat Nat) (a : OpenArgs Nat Nat) (e : EnvData) (d : Bytes),
    buildExchange env (fun _ => false) 0 d none 3 (some 20) exCek none true none exRand = .ok e ∧
    openEnv env { a with type := some "kemri" } e = .ok d ∧ openEnv env a e = .error .attributeError ∧
    openEnv env a (wire env e) = .ok d :=
  ⟨exK, { key := some 0, cert := some 20 }, exEnvFor 0 20 none, exData, by decide +kernel, by decide +kernel,
    by decide +kernel, by decide +kernel⟩

/-! ## `EnvelopedData` -/

/-- With several recipients, the index chooses the recipient whose type is compared; the key comes from the first. So the
second recipient cannot open, and the first can with an index that says the second. -/
theorem C153_index_refuted : ∃ (env : KEnv Nat Nat Nat) (e : EnvData) (r r' : Ri) (d cek : Bytes),
    e.infos = [r, r'] ∧ extractFrom env { key := some 7, cert := some 17 } r' = .ok cek ∧
    openInfo env e.enc cek false = .ok d ∧
    openEnv env { key := some 7, cert := some 17, type := some "ktri", idx := 1, size := 2 } e = .error .valueError ∧
    openEnv env { key := some 1, cert := some 21, type := some "ktri", idx := 1, size := 2 } e = .ok d :=
  ⟨exK, ⟨2, [.ktri (exKtri 1 21 true), .ktri (exKtri 7 17 true)], exInfo⟩, _, _, exData, exCek, rfl, by decide +kernel,
    by decide +kernel, by decide +kernel, by decide +kernel⟩

/-- The version of `EnvelopedData` is not read. -/
theorem C153_version_refuted :
    (∀ (env : KEnv S K C) (a : OpenArgs S C) (e : EnvData) (v : Int), openEnv env a { e with version := v } = openEnv env a e) ∧
    openEnv exK { key := some 1, cert := some 21 } { wire exK (exEnvFor 1 21 none) with version := 99 } = .ok exData :=
  ⟨fun _ _ _ _ => rfl, by decide +kernel⟩

end Verif.Env
