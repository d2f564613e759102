import Verif.Ra.PrivPop
import Verif.Env.Codec
import Verif.Ra.PopRefuted

/-!
# C247: proofs of possession by key agreement and by an encrypted key, from the client to the CA
-/

namespace Verif.Ra.PopBuild

open Verif.CA Verif.Prot Verif.Env

variable {A S K C G : Type}

/-! ## `agreeMAC` -/

theorem flip_ne {v w : CA.Bytes} (h : flipFirst v = .ok w) : v ≠ w := by
  cases v with
  | nil => cases h
  | cons b bs =>
    cases h
    intro e
    injection e with e _
    by_cases hb : b = 0
    · rw [if_pos hb, hb] at e; exact absurd e (by decide)
    · rw [if_neg hb] at e; exact hb e

theorem pkmacVal_ok {p : PopCl A S G} {ss data : CA.Bytes} {alg : String} {agree bad : Bool} {po : Popo A EnvData}
    (h : pkmacVal p ss data alg agree bad = .ok po) :
    ∃ a v w, p.newAlg alg = .ok a ∧ p.mac ss a data = .ok v ∧ (bad = false → w = v) ∧ (bad = true → v ≠ w) ∧
      po = if agree then .keyAgree (.agreeMac a w) else .keyEnc (.agreeMac a w) := by
  unfold pkmacVal at h
  cases h1 : p.newAlg alg with
  | error e => rw [h1] at h; cases h
  | ok a =>
    rw [h1] at h
    dsimp only at h
    cases h2 : p.mac ss a data with
    | error e => rw [h2] at h; cases h
    | ok v =>
      rw [h2] at h
      dsimp only at h
      cases h3 : spoilMac bad v with
      | error e => rw [h3] at h; cases h
      | ok w =>
        rw [h3] at h
        dsimp only at h
        refine ⟨a, v, w, rfl, h2, ?_, ?_, (Except.ok.inj h).symm⟩
        · intro hb
          rw [hb] at h3
          cases h3
          rfl
        · intro hb
          rw [hb] at h3
          exact flip_ne h3

/-- C247: the proof that the client computes with its key and the certificate of the CA is accepted by the CA, exactly if it
is not spoiled: the CA then issues the certificate for the template, and otherwise refuses with `BadPOP`. -/
theorem C247_agree_mac [DecidableEq K] {S' R N X C' : Type} (env : KEnv S K C) (p : PopCl A S G)
    (ra : RaEnv A K S' R EnvData C' N X G) {a : AgreeArgs S C} {r : Req A R EnvData} {s : S} {c : C} {k : K} {cs : S'}
    {z : CA.Bytes} {po : Popo A EnvData} (x : Option X) (h : agreePopo env p a = .ok po) (hs : a.key = some s)
    (hc : a.ca = some c) (hd : a.der = some r.der) (hz : computeSs env s c = .ok z) (hk : reqKey ra r = .ok k)
    (he : ra.isEcdh k = true) (hsv : ra.serverKey k = some cs) (hag : ra.ecdh cs k = .ok z) (hm : ra.mac = p.mac) :
    ∃ alg v, po = .keyAgree (.agreeMac alg v) ∧ agreeReply ra x r (.agreeMac alg v) =
      if a.bad then .error .badPOP else (ra.build r.tmpl x).map (fun c => { cert := c }) := by
  unfold agreePopo agreeSecret at h
  rw [hs, hc] at h
  dsimp only at h
  rw [hz, hd] at h
  obtain ⟨alg, v, w, h1, h2, h3, h4, rfl⟩ := pkmacVal_ok h
  refine ⟨alg, w, rfl, ?_⟩
  unfold agreeReply
  rw [hk]
  dsimp only
  rw [if_neg (by simp [he])]
  unfold agreeWith
  rw [hsv]
  dsimp only
  unfold agreeMac
  rw [hag]
  dsimp only
  rw [hm, h2]
  dsimp only
  cases hb : a.bad with
  | false =>
    rw [h3 hb, if_neg (by simp), if_neg (by simp)]
    cases ra.build r.tmpl x <;> rfl
  | true => rw [if_pos (h4 hb)]; rfl

/-- C247: the same function without keys and with a secret gives what `prepare_pkmac_popo` gives; with keys they differ
only if a secret is given as well, which the one uses and the other replaces. -/
theorem C247_two_functions (env : KEnv S K C) (p : PopCl A S G) (a : AgreeArgs S C) (d : CA.Bytes)
    (hd : a.der = some d) :
    (∀ z, a.secret = some z → a.key = none ∨ a.ca = none →
      agreePopo env p a = pkmacPopo env p d a.ca a.key a.secret a.alg a.bad) ∧
    (∀ s c, a.key = some s → a.ca = some c →
      agreePopo env p a = pkmacPopo env p d a.ca a.key none a.alg a.bad) := by
  constructor
  · intro z hz hn
    have hs : agreeSecret env a = .ok (some z) := by
      unfold agreeSecret
      rcases hn with hn | hn
      · rw [hn, hz]
      · rw [hn, hz]
        cases a.key <;> rfl
    unfold agreePopo pkmacPopo
    rw [hs, hd, hz]
  · intro s c hk hc
    unfold agreePopo agreeSecret pkmacPopo
    rw [hk, hc, hd]
    dsimp only
    cases computeSs env s c <;> rfl

theorem agreeSecret_none (env : KEnv S K C) (a : AgreeArgs S C) :
    agreeSecret env a = .ok none ↔ a.secret = none ∧ (a.key = none ∨ a.ca = none) := by
  unfold agreeSecret
  cases hk : a.key with
  | none => simp
  | some s =>
    cases hc : a.ca with
    | none => simp
    | some c =>
      dsimp only
      cases computeSs env s c with
      | error e => simp [Except.map]
      | ok z => simp [Except.map]

theorem agreePopo_cases {env : KEnv S K C} {p : PopCl A S G} {a : AgreeArgs S C} {po : Popo A EnvData}
    (h : agreePopo env p a = .ok po) :
    (∃ alg v, po = .keyAgree (.agreeMac alg v)) ∨
      agreeSecret env a = .ok none ∧ (a.env = none ∧ a.encr = true ∧ po = .keyAgree (.subsequent true) ∨
        ∃ e, a.env = some e ∧ po = .keyAgree (.encryptedKey e)) := by
  unfold agreePopo at h
  cases h1 : agreeSecret env a with
  | error e => rw [h1] at h; cases h
  | ok o =>
    rw [h1] at h
    cases o with
    | some z =>
      dsimp only at h
      cases h2 : a.der with
      | none => rw [h2] at h; cases h
      | some d =>
        rw [h2] at h
        obtain ⟨alg, v, w, _, _, _, _, rfl⟩ := pkmacVal_ok h
        exact Or.inl ⟨alg, w, rfl⟩
    | none =>
      dsimp only at h
      refine Or.inr ⟨rfl, ?_⟩
      cases h2 : a.env with
      | some e =>
        rw [h2] at h
        exact Or.inr ⟨e, rfl, (Except.ok.inj h).symm⟩
      | none =>
        rw [h2] at h
        dsimp only at h
        unfold subsequentMsg at h
        split at h
        · rename_i he
          exact Or.inl ⟨rfl, he, (Except.ok.inj h).symm⟩
        · cases h

/-- C247: an encrypted key is sent exactly if it is given, there is no secret, and not both a key and a certificate. -/
theorem C247_agree_encrypted_iff (env : KEnv S K C) (p : PopCl A S G) (a : AgreeArgs S C) (e : EnvData) :
    agreePopo env p a = .ok (.keyAgree (.encryptedKey e)) ↔
      a.env = some e ∧ a.secret = none ∧ (a.key = none ∨ a.ca = none) := by
  constructor
  · intro h
    rcases agreePopo_cases h with ⟨alg, v, h1⟩ | ⟨h1, ⟨_, _, h2⟩ | ⟨e', h2, h3⟩⟩
    · cases h1
    · cases h2
    · cases h3
      exact ⟨h2, (agreeSecret_none env a).mp h1⟩
  · rintro ⟨h1, h2⟩
    unfold agreePopo
    rw [(agreeSecret_none env a).mpr h2, h1]

/-- C247: a later message is announced exactly if nothing is given and the certificate is to be encrypted. -/
theorem C247_subsequent_iff (env : KEnv S K C) (p : PopCl A S G) (a : AgreeArgs S C) (b : Bool) :
    agreePopo env p a = .ok (.keyAgree (.subsequent b)) ↔
      b = true ∧ a.encr = true ∧ a.env = none ∧ a.secret = none ∧ (a.key = none ∨ a.ca = none) := by
  constructor
  · intro h
    rcases agreePopo_cases h with ⟨alg, v, h1⟩ | ⟨h1, ⟨h2, h3, h4⟩ | ⟨e', h2, h3⟩⟩
    · cases h1
    · cases h4
      exact ⟨rfl, h3, h2, (agreeSecret_none env a).mp h1⟩
    · cases h3
  · rintro ⟨rfl, h1, h2, h3⟩
    unfold agreePopo
    rw [(agreeSecret_none env a).mpr h3, h2]
    dsimp only
    unfold subsequentMsg
    rw [if_pos h1]

/-- C247, refuted: a challenge cannot be asked for. With `use_encr_cert=False` and nothing else the function raises a
`PyAsn1Error`. -/
theorem C247_challenge_refuted (env : KEnv S K C) (p : PopCl A S G) (a : AgreeArgs S C) :
    agreePopo env p a ≠ .ok (.keyAgree (.subsequent false)) ∧
    (a.encr = false → a.env = none → a.secret = none → a.key = none ∨ a.ca = none →
      agreePopo env p a = .error .pyasn1Error) := by
  refine ⟨fun h => ?_, fun h1 h2 h3 h4 => ?_⟩
  · have := ((C247_subsequent_iff env p a false).mp h).1
    cases this
  · unfold agreePopo
    rw [(agreeSecret_none env a).mpr ⟨h3, h4⟩, h2]
    dsimp only
    unfold subsequentMsg
    rw [if_neg (by simp [h1])]

/-- C247, refuted: `bad_pop` spoils the proof. Without a secret it changes nothing. -/
theorem C247_bad_pop_refuted (env : KEnv S K C) (p : PopCl A S G) (a : AgreeArgs S C) (h1 : a.secret = none)
    (h2 : a.key = none ∨ a.ca = none) : agreePopo env p { a with bad := true } = agreePopo env p { a with bad := false } := by
  unfold agreePopo
  rw [(agreeSecret_none env { a with bad := true }).mpr ⟨h1, h2⟩,
    (agreeSecret_none env { a with bad := false }).mpr ⟨h1, h2⟩]

/-- C247: a MAC for key encipherment is refused by the CA. -/
theorem C247_mac_encipherment [DecidableEq K] {S' R N X : Type} (p : PopCl A S G)
    (ra : RaEnv A K S' R EnvData C N X G) {ss d : CA.Bytes} {alg : String} {bad : Bool} {po : Popo A EnvData}
    (h : pkmacVal p ss d alg false bad = .ok po) (x : Option X) (r : Req A R EnvData) :
    ∃ q, po = .keyEnc q ∧ ∀ i, encReply ra x r q ≠ .ok i := by
  obtain ⟨a, v, w, _, _, _, _, rfl⟩ := pkmacVal_ok h
  refine ⟨_, rfl, fun i h => ?_⟩
  unfold encReply at h
  cases hb : ra.build r.tmpl x with
  | error e => rw [hb] at h; cases h
  | ok c => rw [hb] at h; cases h

/-! ## The content -/

theorem openInfo_type {env : KEnv S K C} {x : EncInfo} {cek d : CA.Bytes} {raw : Bool}
    (h : openInfo env x cek raw = .ok d) :
    x.ctype = (if raw then [1, 2, 840, 113549, 1, 7, 1] else [1, 2, 840, 113549, 1, 7, 2]) := by
  apply Classical.byContradiction
  intro hn
  unfold openInfo at h
  rw [if_pos (show x.ctype ≠ (if raw then dataOid else signedDataOid) from hn)] at h
  cases h

theorem openEnv_type {env : KEnv S K C} {a : OpenArgs S C} {e : EnvData} {d : CA.Bytes} (ht : a.type = none)
    (h : openEnv env a e = .ok d) :
    e.enc.ctype = (if a.raw then [1, 2, 840, 113549, 1, 7, 1] else [1, 2, 840, 113549, 1, 7, 2]) := by
  unfold openEnv at h
  rw [if_neg (by rw [ht]; simp), if_neg (by rw [ht]; simp)] at h
  unfold openAny at h
  split at h
  · cases h
  · split at h
    · cases h
    · exact openInfo_type h

/-- C247: whatever the recipient is, the CA opens only what has the content type `id-data`. -/
theorem C247_open_type {env : KEnv S K C} {ca : CaKeys S K C} {m : Prot.Msg C} {e : EnvData} {d : CA.Bytes}
    (h : caOpen env ca m e = .ok d) : e.enc.ctype = [1, 2, 840, 113549, 1, 7, 1] := by
  unfold caOpen at h
  split at h
  · cases h
  · split at h
    · cases h
    · exact openEnv_type rfl h
  · unfold caKem at h
    split at h
    · cases h
    · split at h
      · cases h
      · split at h
        · cases h
        · unfold caKemOpen at h
          split at h
          · cases h
          · split at h
            · cases h
            · split at h
              · cases h
              · unfold openFor at h
                split at h
                · cases h
                · cases h
                · split at h
                  · cases h
                  · unfold openChosen at h
                    split at h
                    · cases h
                    · exact openInfo_type h
            · cases h
  · unfold caRsa at h
    split at h
    · cases h
    · split at h
      · cases h
      · exact openEnv_type rfl h
  · unfold caKari at h
    split at h
    · cases h
    · split at h
      · cases h
      · split at h
        · cases h
        · split at h
          · cases h
          · exact openEnv_type rfl h
  · cases h

/-- C247, refuted: what `prepare_kem_env_data_for_popo` builds can be opened by the CA. It has the content type
`id-signedData`, which the CA refuses, whatever its keys are. -/
theorem C247_kem_popo_refuted (env : KEnv S K C) (p : PopCl A S G) {x448 : K → Bool} {gen : S} {c : C}
    {data : Option CA.Bytes} {s : Option S} {n sender : String} {id : Int} {cek : CA.Bytes} {ke : Bool} {r : Rand}
    {po : Popo A EnvData} (h : kemPopo env p x448 gen c data s n id sender cek ke r = .ok po) :
    ∃ e, po = (if ke then .keyEnc (.encryptedKey e) else .keyAgree (.encryptedKey e)) ∧
      ∀ ca m d, caOpen env ca m (wire env e) ≠ .ok d := by
  unfold kemPopo at h
  split at h
  · cases h
  · split at h
    · cases h
    · split at h
      · cases h
      · split at h
        · cases h
        · obtain ⟨e, h1, rfl⟩ := map_ok h
          refine ⟨e, ?_, fun ca m d h2 => ?_⟩
          · unfold encPopo
            cases ke <;> rfl
          · have h3 := C247_open_type h2
            unfold buildExchange at h1
            split at h1
            · cases h1
            · unfold buildEnv at h1
              split at h1
              · cases h1
              · rename_i ri _ x hx
                cases h1
                unfold buildInfo at hx
                split at hx
                · cases hx
                · cases hx
                  exact absurd h3 (by simp only [wire, Option.getD_none, signedDataOid]; decide)

/-! ## The encrypted key -/

/-- RFC 5652, section 6.1, without originator information and unprotected attributes: version 3 with a recipient for a
password or of another kind, version 0 if all recipients have version 0, and otherwise version 2. -/
def RfcVersion (x : Ri) (v : Int) : Prop :=
  match x with
  | .pwri _ => v = 3
  | .ori _ _ => v = 3
  | .ktri k => v = if k.version = some 0 then 0 else 2
  | _ => v = 2

/-- C247, partial: for key transport, of the version that the code uses, and for key agreement the version is that of
RFC 5652. -/
theorem C247_version_partial (x : Ri) (h : (∃ k, x = .ktri k ∧ k.version = some 2) ∨ ∃ k, x = .kari k) :
    RfcVersion x (encKeyVersion none x) := by
  rcases h with ⟨k, rfl, hk⟩ | ⟨k, rfl⟩
  · show (2 : Int) = if k.version = some 0 then 0 else 2
    rw [hk]
    rfl
  · rfl

/-- C247, refuted: with a password or KEM recipient it is 0 and not 3. -/
theorem C247_version_refuted (x : Ri) (h : (∃ k, x = .pwri k) ∨ ∃ t v, x = .ori t v) :
    encKeyVersion none x = 0 ∧ ¬RfcVersion x (encKeyVersion none x) := by
  rcases h with ⟨k, rfl⟩ | ⟨t, v, rfl⟩
  · exact ⟨rfl, by intro h; exact absurd (show (0 : Int) = 3 from h) (by decide)⟩
  · exact ⟨rfl, by intro h; exact absurd (show (0 : Int) = 3 from h) (by decide)⟩

/-- C247: an encrypted key that the CA can open is accepted exactly if it is the key of the template and the identifier
names the subject: the CA then issues the certificate. -/
theorem C247_opened_iff [DecidableEq K] {S' R N X : Type} (ra : RaEnv A K S' R EnvData C N X G) (p : PopCl A S G)
    {t : Tmpl A R} {e : EnvData} {w : KeyWithId G} (ho : ra.openKey e = .ok (p.encKeyId w))
    (hd : ra.decKeyId (p.encKeyId w) = .ok (w, [])) (c : C) :
    encryptedKey ra t e = .ok c ↔ ∃ b k, w.priv = some b ∧ ra.loadPriv b = .ok k ∧ tmplKey ra true t = .ok (some k) ∧
      ((∃ n, w.ident = some (.str n) ∧ ra.subjName t.rest = some n) ∨
        ∃ g, w.ident = some (.gen g) ∧ ra.genIs g t.rest = .ok true) ∧ ra.build t none = .ok c := by
  have hkey : ∀ k, tmplKey ra true t = .ok (some k) → tmplKey ra false t = .ok (some k) := by
    intro k h
    unfold tmplKey at h ⊢
    split
    · rename_i h'; rw [h'] at h; cases h
    · rename_i s h'
      rw [h'] at h
      dsimp only at h
      split
      · rename_i hs; rw [if_pos hs] at h; cases h
      · rename_i hs; rw [if_neg hs] at h; exact h
  constructor
  · intro h
    unfold encryptedKey at h
    split at h
    · cases h
    · cases h
    · rw [ho] at h
      dsimp only at h
      cases h1 : keyWithId ra (p.encKeyId w) t with
      | error x => rw [h1] at h; cases h
      | ok u =>
        rw [h1] at h
        dsimp only at h
        unfold keyWithId at h1
        rw [hd] at h1
        dsimp only at h1
        rw [if_neg (by simp)] at h1
        cases h2 : w.priv with
        | none => rw [h2] at h1; cases h1
        | some b =>
          rw [h2] at h1
          dsimp only at h1
          cases h3 : ra.loadPriv b with
          | error x => rw [h3] at h1; cases h1
          | ok k =>
            rw [h3] at h1
            dsimp only at h1
            cases h4 : tmplKey ra true t with
            | error x => rw [h4] at h1; cases h1
            | ok k' =>
              rw [h4] at h1
              dsimp only at h1
              split at h1
              · cases h1
              · rename_i hk
                have hk := Classical.not_not.mp hk
                refine ⟨b, k, rfl, h3, by rw [hk], ?_, h⟩
                cases hi : w.ident with
                | none => rw [hi] at h1; cases h1
                | some i =>
                  rw [hi] at h1
                  cases i with
                  | str n =>
                    unfold identOk at h1
                    dsimp only at h1
                    split at h1
                    · cases h1
                    · rename_i hn
                      exact Or.inl ⟨n, rfl, Classical.not_not.mp hn⟩
                  | gen g =>
                    unfold identOk at h1
                    dsimp only at h1
                    cases h5 : ra.genIs g t.rest with
                    | error x => rw [h5] at h1; cases h1
                    | ok b' =>
                      rw [h5] at h1
                      cases b' with
                      | false => cases h1
                      | true => exact Or.inr ⟨g, rfl, h5⟩
  · rintro ⟨b, k, h1, h2, h3, h4, h5⟩
    unfold encryptedKey
    rw [hkey k h3]
    dsimp only
    rw [ho]
    dsimp only
    have hw : keyWithId ra (p.encKeyId w) t = .ok () := by
      unfold keyWithId
      rw [hd]
      dsimp only
      rw [if_neg (by simp), h1]
      dsimp only
      rw [h2]
      dsimp only
      rw [h3]
      dsimp only
      rw [if_neg (by simp)]
      rcases h4 with ⟨n, h6, h7⟩ | ⟨g, h6, h7⟩
      · rw [h6]
        unfold identOk
        dsimp only
        rw [if_neg (by simp [h7])]
      · rw [h6]
        unfold identOk
        dsimp only
        rw [h7]
        rfl
    rw [hw]
    exact h5

/-- C247: a key without a name is never accepted. -/
theorem C247_no_name [DecidableEq K] {S' R N X : Type} (ra : RaEnv A K S' R EnvData C N X G) (p : PopCl A S G)
    {t : Tmpl A R} {e : EnvData} {w : KeyWithId G} {s : S} {str : Bool} (hw : encKeyWithId p s none str = .ok w)
    (ho : ra.openKey e = .ok (p.encKeyId w)) (hd : ra.decKeyId (p.encKeyId w) = .ok (w, [])) (c : C) :
    encryptedKey ra t e ≠ .ok c := by
  intro h
  obtain ⟨b, k, _, _, _, h4, _⟩ := (C247_opened_iff ra p ho hd c).mp h
  unfold encKeyWithId keyIdent at hw
  split at hw
  · cases hw
  · dsimp only at hw
    cases hw
    rcases h4 with ⟨n, h6, _⟩ | ⟨g, h6, _⟩ <;> cases h6

/-- The external functions fit together for a key and the random values: what is encrypted is decrypted again. -/
structure Fits (env : KEnv S K C) (cek : CA.Bytes) (r : Rand) : Prop where
  len : cek.length = 16 ∨ cek.length = 24 ∨ cek.length = 32
  iv : env.decIv (env.encIv r.iv) = some (r.iv, [])
  cbc : ∀ d c, env.cbcEnc cek r.iv (pad d) = .ok c → env.cbcDec cek r.iv c = .ok (pad d)
  wrap : ∀ kek ek, env.wrap kek cek = .ok ek → env.unwrap kek ek = .ok cek

theorem encKeyPopo_ok {env : KEnv S K C} {p : PopCl A S G} {x448 : K → Bool} {gen : S} {w : KeyWithId G}
    {cek : CA.Bytes} {r : Rand} {a : EncKeyArgs S C} {po : Popo A EnvData}
    (h : encKeyPopo env p x448 gen w cek r a = .ok po) :
    ∃ x e, encKeyRi env x448 gen cek r a = .ok x ∧ buildEnv env [x] cek (p.encKeyId w) r.iv (encKeyVersion a.version x)
      (some [1, 2, 840, 113549, 1, 7, 1]) = .ok e ∧ po = encPopo a.agree e := by
  unfold encKeyPopo at h
  cases h1 : encKeyRi env x448 gen cek r a with
  | error e => rw [h1] at h; cases h
  | ok x =>
    rw [h1] at h
    dsimp only at h
    obtain ⟨e, h2, h3⟩ := map_ok h
    exact ⟨x, e, rfl, h2, h3.symm⟩

theorem encKeyRi_ok {env : KEnv S K C} {x448 : K → Bool} {gen : S} {cek : CA.Bytes} {r : Rand} {a : EncKeyArgs S C}
    {x : Ri} {ca : C} {k : K} (h : encKeyRi env x448 gen cek r a = .ok x) (hr : a.recip = none) (hca : a.ca = some ca)
    (hk : env.keyOf ca = .ok k) :
    ∃ rid, encKeyRid env k ca a = .ok rid ∧ buildRi env x448 (some k) a.priv gen (some ca) none cek none rid true []
      "hkdf" (encKeyOrig env k rid a.orig) r = .ok x := by
  unfold encKeyRi at h
  rw [hr, hca] at h
  dsimp only at h
  rw [hk] at h
  dsimp only at h
  cases h1 : encKeyRid env k ca a with
  | error e => rw [h1] at h; cases h
  | ok rid => rw [h1] at h; exact ⟨rid, rfl, h⟩

theorem buildEnv_enc {env : KEnv S K C} {x : Ri} {cek data iv : CA.Bytes} {v : Int} {o : Option Oid} {e : EnvData}
    (h : buildEnv env [x] cek data iv v o = .ok e) :
    e.infos = [x] ∧ e.version = v ∧ buildInfo env cek data iv o = .ok e.enc := by
  unfold buildEnv at h
  cases h1 : buildInfo env cek data iv o with
  | error y => rw [h1] at h; cases h
  | ok y => rw [h1] at h; cases h; exact ⟨rfl, rfl, rfl⟩

/-- C247: an encrypted key for the KEM certificate of the CA, without an identifier of its own, is opened by the CA with its
KEM key or, if that is of another algorithm, with its hybrid key; the certificate for the protection plays no role. -/
theorem C247_enc_key_kem (env : KEnv S K C) (p : PopCl A S G) {x448 : K → Bool} {gen s : S} {w : KeyWithId G}
    {cek : CA.Bytes} {r : Rand} {a : EncKeyArgs S C} {po : Popo A EnvData} {c : C} {k : K} {ca : CaKeys S K C}
    {o : Oid} (h : encKeyPopo env p x448 gen w cek r a = .ok po) (hf : Fits env cek r) (hrc : a.recip = none)
    (hrid : a.rid = none) (hca : a.ca = some c) (hk : env.keyOf c = .ok k) (h1 : env.isRsaPub k = false)
    (h2 : env.isEcdhPub k = false) (h3 : env.isKemPub k = true) (h4 : env.isRsaKemPub k = false)
    (h5 : env.isRsaDecap s = false) (h6 : env.kemOidPubE k = .ok o) (h7 : env.kemOidE s = .ok o)
    (h8 : env.isKemOid o = true)
    (hd : ∀ ss ct, env.encaps k .plain r.rnd = .ok (ss, ct) → env.decaps s .plain ct = .ok ss)
    (hal : ∀ x, env.decAlg (env.encHashAlg x) = some (x, []))
    (hde : ∀ k, env.decKemri (env.encKemri k) = some (wireKemri env k, []))
    (hkm : ca.kem.all env.isKemKey = true) (hhy : ca.hyb.all ca.isHyb = true)
    (hs : ca.kem = some s ∧ ca.kemCert = some c ∧ (∀ s', ca.hyb = some s' → ∃ o', env.kemOidE s' = .ok o') ∨
      (∀ s', ca.kem = some s' → ∃ o', env.kemOidE s' = .ok o' ∧ o' ≠ o) ∧ ca.hyb = some s ∧ ca.hybCert = some c)
    (m : Prot.Msg C) :
    ∃ e, po = encPopo a.agree e ∧ caOpen env ca m (wire env e) = .ok (p.encKeyId w) := by
  obtain ⟨x, e, g1, g2, rfl⟩ := encKeyPopo_ok h
  refine ⟨e, rfl, ?_⟩
  obtain ⟨rid, g3, g4⟩ := encKeyRi_ok g1 hrc hca hk
  have g5 : ∃ kr, buildKemri env k (some c) cek r.rnd r.salt none none { kdf := "hkdf" } = .ok kr ∧
      x = .ori oriKemOid (.obj kr) := by
    unfold buildRi at g4
    dsimp only at g4
    rw [if_neg (by simp [h1]), if_neg (by simp [h2]), if_pos h3] at g4
    obtain ⟨kr, g6, g7⟩ := map_ok g4
    refine ⟨kr, ?_, g7.symm⟩
    rw [← g6]
    unfold encKeyRid at g3
    rw [hrid] at g3
    cases hp : a.prot with
    | none => rw [hp] at g3; cases g3; rfl
    | some pc =>
      rw [hp] at g3
      dsimp only at g3
      rw [if_pos h3] at g3
      obtain ⟨r', g8, rfl⟩ := map_ok g3
      unfold buildKemri ridOr
      dsimp only
      rw [g8]
  obtain ⟨kr, g6, rfl⟩ := g5
  obtain ⟨e1, e2, e3⟩ := buildEnv_enc g2
  have hw : (wire env e).infos = [.ori oriKemOid (.raw (env.encKemri kr))] := by
    unfold wire
    rw [e1]
    rfl
  have hcek := C152_roundtrip env (s := s) (pop := false) (sun := false) g6 rfl (by decide) rfl rfl h4 h5
    (by rw [h6, h7]) (by rw [h6]; intro x hx; cases hx; exact h8) hd hal hf.wrap
  have hdec := (C152_ori env (hde kr) hcek).2.2
  have hopen : openChosen env (wire env e) (wireKemri env kr) (some s, some c) = .ok (p.encKeyId w) := by
    unfold openChosen
    rw [hcek]
    exact C148_roundtrip env hf.len hf.iv (hf.cbc _) rfl e3
  have hko : (wireKemri env kr).kem = some o := by
    show kr.kem = some o
    unfold buildKemri at g6
    split at g6
    · cases g6
    · split at g6
      · cases g6
      · dsimp only at g6
        cases hke : kemEncaps env k r.rnd none with
        | error y => rw [hke] at g6; cases g6
        | ok y =>
          obtain ⟨ss, ct, ko⟩ := y
          rw [hke] at g6
          dsimp only at g6
          obtain ⟨_, hpo⟩ := kemEncaps_plain env h4 hke
          rw [h6] at hpo
          cases hpo
          split at g6
          · cases g6
          · split at g6
            · cases g6
            · cases g6; rfl
  have hfor : openFor env ca (wire env e) (wireKemri env kr) = .ok (p.encKeyId w) := by
    unfold openFor
    rcases hs with ⟨s1, s2, s3⟩ | ⟨s1, s2, s3⟩
    · have o1 : oidOpt env ca.kem = .ok (some o) := by rw [s1]; unfold oidOpt; dsimp only; rw [h7]; rfl
      obtain ⟨o2, ho2⟩ : ∃ o2, oidOpt env ca.hyb = .ok o2 := by
        cases hh : ca.hyb with
        | none => exact ⟨none, rfl⟩
        | some s' =>
          obtain ⟨o', ho'⟩ := s3 s' hh
          exact ⟨some o', by unfold oidOpt; dsimp only; rw [ho']; rfl⟩
      rw [o1, ho2]
      dsimp only
      unfold chooseKem
      rw [hko, if_pos ⟨rfl, rfl⟩, s1, s2]
      exact hopen
    · obtain ⟨o1, ho1, hn⟩ : ∃ o1, oidOpt env ca.kem = .ok o1 ∧ o1 ≠ some o := by
        cases hh : ca.kem with
        | none => exact ⟨none, rfl, by simp⟩
        | some s' =>
          obtain ⟨o', ho', hn⟩ := s1 s' hh
          exact ⟨some o', by unfold oidOpt; dsimp only; rw [ho']; rfl, by simpa using hn⟩
      have o2 : oidOpt env ca.hyb = .ok (some o) := by rw [s2]; unfold oidOpt; dsimp only; rw [h7]; rfl
      rw [ho1, o2]
      dsimp only
      unfold chooseKem
      rw [hko, if_neg (fun h => hn h.2), if_pos ⟨rfl, rfl⟩, s2, s3]
      exact hopen
  have hkn : ¬(ca.kem.isNone = true ∧ ca.hyb.isNone = true) := by
    rintro ⟨n1, n2⟩
    rcases hs with ⟨s1, _⟩ | ⟨_, s2, _⟩
    · rw [s1] at n1; cases n1
    · rw [s2] at n2; cases n2
  unfold caOpen
  rw [hw]
  dsimp only
  unfold caKem
  rw [if_neg hkn, if_neg (by simp [hkm]), if_neg (by simp [hhy])]
  unfold caKemOpen
  rw [if_neg hkn]
  rw [(recipOf_iff _ 1 0 (some "ori") (.ori oriKemOid (.raw (env.encKemri kr)))).mpr
    ⟨by rw [hw]; rfl, ⟨0, Or.inl rfl, by rw [hw]; rfl⟩, by intro n hn; cases hn; rfl⟩]
  dsimp only
  rw [hdec]
  exact hfor

/-- C247: with the certificate that protects the message as `cmp_protection_cert` an encrypted key for the RSA certificate
of the CA is opened by the CA. -/
theorem C247_enc_key_rsa (env : KEnv S K C) (p : PopCl A S G) {x448 : K → Bool} {gen s : S} {w : KeyWithId G}
    {cek : CA.Bytes} {r : Rand} {a : EncKeyArgs S C} {po : Popo A EnvData} {c pc : C} {k : K} {ca : CaKeys S K C}
    (h : encKeyPopo env p x448 gen w cek r a = .ok po) (hf : Fits env cek r) (hrc : a.recip = none)
    (hrid : a.rid = none) (hca : a.ca = some c) (hk : env.keyOf c = .ok k) (h1 : env.isRsaPub k = true)
    (h2 : env.isKemPub k = false) (hpc : a.prot = some pc)
    (hs : env.special [2, 16, 840, 1, 101, 3, 4, 2, 1] = none) (hs' : env.special [2, 16, 840, 1, 101, 3, 4, 2, 2] = none)
    (hd : ∀ x, env.decOaep (env.encOaep x) = some (x, [])) (ho : ∀ o, env.decOid (env.encOid o) = some (o, []))
    (hr : env.isRsa s = true) (hnx : env.isX s = false)
    (hx : ∀ p x, env.rsaEnc k p r.rnd cek = .ok x → env.rsaDec s p x = .ok cek) (hcs : ca.rsa = some s)
    (m : Prot.Msg C) (hm : m.certs.head? = some pc) :
    ∃ e, po = encPopo a.agree e ∧ caOpen env ca m (wire env e) = .ok (p.encKeyId w) := by
  obtain ⟨x, e, g1, g2, rfl⟩ := encKeyPopo_ok h
  refine ⟨e, rfl, ?_⟩
  obtain ⟨rid, g3, g4⟩ := encKeyRi_ok g1 hrc hca hk
  have g5 : ∃ kt, buildKtri env k (some pc) cek r.rnd true none none = .ok kt ∧ x = .ktri kt := by
    unfold buildRi at g4
    dsimp only at g4
    rw [if_pos h1] at g4
    obtain ⟨kt, g6, g7⟩ := map_ok g4
    refine ⟨kt, ?_, g7.symm⟩
    rw [← g6]
    unfold encKeyRid at g3
    rw [hrid, hpc] at g3
    dsimp only at g3
    rw [if_neg (by simp [h2])] at g3
    obtain ⟨r', g8, rfl⟩ := map_ok g3
    unfold buildKtri ridOr
    dsimp only
    rw [g8]
  obtain ⟨kt, g6, rfl⟩ := g5
  obtain ⟨e1, e2, e3⟩ := buildEnv_enc g2
  have hw : (wire env e).infos = [.ktri kt] := by
    unfold wire
    rw [e1]
    rfl
  unfold caOpen
  rw [hw]
  dsimp only
  unfold caRsa
  rw [hcs]
  dsimp only
  rw [if_neg (by simp [hr]), hm]
  refine C153_content_roundtrip env (r := .ktri kt) g2 ?_ rfl rfl rfl hf.len hf.iv (hf.cbc _) rfl
  show asymExtract env _ (.ktri kt) = .ok cek
  rw [asym_ok]
  exact ⟨nofun, s, none, rfl, .none rfl hnx, C150_roundtrip env g6 hs hs' hd ho hr hx⟩

/-- C247: the same for an EC certificate of the CA, when the client agrees with the key of its protection certificate. -/
theorem C247_enc_key_ec (env : KEnv S K C) (p : PopCl A S G) {x448 : K → Bool} {gen s s' : S} {w : KeyWithId G}
    {cek : CA.Bytes} {r : Rand} {a : EncKeyArgs S C} {po : Popo A EnvData} {c pc : C} {k k' : K} {ca : CaKeys S K C}
    (h : encKeyPopo env p x448 gen w cek r a = .ok po) (hf : Fits env cek r) (hrc : a.recip = none)
    (hrid : a.rid = none) (hor : a.orig = none) (hca : a.ca = some c) (hk : env.keyOf c = .ok k)
    (h1 : env.isRsaPub k = false) (h2 : env.isEcdhPub k = true) (h3 : env.isKemPub k = false) (hpc : a.prot = some pc)
    (hps : a.priv = some s) (hne : ∀ n x, env.H n x ≠ [])
    (hwa : ∀ w, env.decWrapAlg (env.encWrapAlg w) = some (w, [])) (hs : env.isEcdh s' = true) (hnx : env.isX s' = false)
    (hkc : env.keyOf pc = .ok k') (hk' : env.isEcdhPub k' = true) (hd : env.dh s' k' false = env.dh s k false)
    (hcs : ca.kari k' = .ok s') (m : Prot.Msg C) (hm : m.certs.head? = some pc) :
    ∃ e, po = encPopo a.agree e ∧ caOpen env ca m (wire env e) = .ok (p.encKeyId w) := by
  obtain ⟨x, e, g1, g2, rfl⟩ := encKeyPopo_ok h
  refine ⟨e, rfl, ?_⟩
  obtain ⟨rid, g3, g4⟩ := encKeyRi_ok g1 hrc hca hk
  have g5 : ∃ kt, buildKari env x448 k s gen cek r.ukm (some pc) none none none {} = .ok kt ∧ x = .kari kt := by
    unfold buildRi at g4
    dsimp only at g4
    rw [if_neg (by simp [h1]), if_pos h2, hps] at g4
    dsimp only at g4
    obtain ⟨kt, g6, g7⟩ := map_ok g4
    refine ⟨kt, ?_, g7.symm⟩
    rw [← g6]
    unfold encKeyRid at g3
    rw [hrid, hpc] at g3
    dsimp only at g3
    rw [if_neg (by simp [h3])] at g3
    obtain ⟨r', g8, rfl⟩ := map_ok g3
    have g9 : encKeyOrig env k (some r') a.orig = some (origOfRid r') := by
      unfold encKeyOrig
      rw [hor]
      dsimp only
      rw [if_pos h2]
    rw [g9]
    have g10 : ∀ oid wo ek u, kariInfo env (some pc) none none none oid wo ek u =
        kariInfo env (some c) none (some (origOfRid r')) (some r') oid wo ek u := by
      intro oid wo ek u
      unfold kariInfo origOr buildOrig buildKaRid kaRidRest
      unfold buildRid at g8
      rw [if_neg (by simp), if_neg (by simp)]
      dsimp only at g8 ⊢
      cases hsk : env.skiOf pc with
      | some b =>
        rw [hsk] at g8
        cases g8
        rw [show (some pc).bind env.skiOf = some b from hsk]
        rfl
      | none =>
        rw [hsk] at g8
        cases g8
        rw [show (some pc).bind env.skiOf = none from hsk]
        rfl
    unfold buildKari
    simp only [g10]
  obtain ⟨kt, g6, rfl⟩ := g5
  obtain ⟨e1, e2, e3⟩ := buildEnv_enc g2
  have hw : (wire env e).infos = [.kari kt] := by
    unfold wire
    rw [e1]
    rfl
  unfold caOpen
  rw [hw]
  dsimp only
  unfold caKari
  rw [hm]
  dsimp only
  rw [hkc]
  dsimp only
  rw [if_neg (by simp [hk']), hcs]
  dsimp only
  refine C153_content_roundtrip env (r := .kari kt) g2 ?_ rfl rfl rfl hf.len hf.iv (hf.cbc _) rfl
  show asymExtract env _ (.kari kt) = .ok cek
  rw [asym_ok]
  refine ⟨nofun, s', none, rfl, .none rfl hnx, ?_⟩
  exact C151_roundtrip_dh (c := pc) (kc := pc) env hne g6 rfl rfl (fun _ => ⟨rfl, rfl⟩) hwa hf.wrap hs hkc hk' nofun hd

/-- C247: without an identifier and without the protection certificate an encrypted key for an RSA certificate of the CA is
opened only if the first certificate of the message is identified as that of the CA is. -/
theorem C247_rsa_default (env : KEnv S K C) (p : PopCl A S G) {x448 : K → Bool} {gen : S} {w : KeyWithId G}
    {cek d : CA.Bytes} {r : Rand} {a : EncKeyArgs S C} {e : EnvData} {c : C} {k : K} {ca : CaKeys S K C}
    (h : encKeyPopo env p x448 gen w cek r a = .ok (encPopo a.agree e)) (hrc : a.recip = none)
    (hrid : a.rid = none) (hca : a.ca = some c) (hk : env.keyOf c = .ok k) (h1 : env.isRsaPub k = true)
    (hpc : a.prot = none) (m : Prot.Msg C) (ho : caOpen env ca m (wire env e) = .ok d) :
    ∃ pc i, m.certs.head? = some pc ∧ RidOf env c i ∧ RidOf env pc i := by
  obtain ⟨x, e', g1, g2, g0⟩ := encKeyPopo_ok h
  have he : e = e' := by
    unfold encPopo at g0
    cases ha : a.agree <;> rw [ha] at g0 <;> cases g0 <;> rfl
  subst he
  obtain ⟨rid, g3, g4⟩ := encKeyRi_ok g1 hrc hca hk
  obtain ⟨i, hi1, hi2⟩ := buildRid_of env c
  have g5 : ∃ kt, x = .ktri kt ∧ kt.rid = some i := by
    unfold buildRi at g4
    dsimp only at g4
    rw [if_pos h1] at g4
    obtain ⟨kt, g6, g7⟩ := map_ok g4
    refine ⟨kt, g7.symm, ?_⟩
    unfold encKeyRid at g3
    rw [hrid, hpc] at g3
    cases g3
    unfold buildKtri ridOr at g6
    rw [if_pos h1] at g6
    dsimp only at g6
    rw [hi1] at g6
    split at g6
    · cases g6
    · split at g6
      · cases g6
      · cases g6; rfl
  obtain ⟨kt, rfl, hkt⟩ := g5
  obtain ⟨e1, e2, e3⟩ := buildEnv_enc g2
  have hw : (wire env e).infos = [.ktri kt] := by
    unfold wire
    rw [e1]
    rfl
  unfold caOpen at ho
  rw [hw] at ho
  dsimp only at ho
  unfold caRsa at ho
  split at ho
  · cases ho
  · rename_i s hs
    split at ho
    · cases ho
    · unfold openEnv at ho
      rw [if_neg (by simp), if_neg (by simp)] at ho
      unfold openAny extractCek at ho
      rw [(sized_iff (wire env e) 1 0 (.ktri kt)).mpr ⟨by rw [hw]; rfl, 0, Or.inl rfl, by rw [hw]; rfl⟩] at ho
      split at ho
      · cases ho
      · dsimp only at ho
        split at ho
        · cases ho
        · rename_i y hy
          unfold extractFrom at hy
          dsimp only at hy
          rw [asym_ok] at hy
          obtain ⟨j1, s', kc, j2, j3, j4⟩ := hy
          dsimp only at j1 j4
          cases hh : m.certs.head? with
          | none => exact absurd (j1 hh) (by simp)
          | some pc =>
            rw [hh] at j4
            refine ⟨pc, i, rfl, hi2, ?_⟩
            change ktriCek env kt (some pc) s' false = .ok y at j4
            unfold ktriCek at j4
            split at j4
            · cases j4
            · rename_i ek al hc
              unfold checkKtri at hc
              split at hc
              · cases hc
              · split at hc
                · cases hc
                · split at hc
                  · cases hc
                  · rename_i hr
                    unfold ktriRid at hr
                    rw [if_neg (by simp), hkt] at hr
                    exact (checkRid_iff env i pc).mp hr

/-! ## `verify_encrypted_key_popo` -/

/-- C247, refuted: `verify_encrypted_key_popo` accepts an encrypted key. It accepts nothing at all. -/
theorem C247_verify_refuted (env : KEnv S K C) (dec : CA.Bytes → Except PyErr (KeyWithId G × CA.Bytes))
    (genIs : G → String → Except PyErr Bool) (e : EnvData) (s : Option S) (pw salt : Option CA.Bytes) (cert : Option C)
    (n : Option String) : verifyEncKey env dec genIs e s pw salt cert n ≠ .ok () := by
  intro h
  unfold verifyEncKey at h
  split at h
  · cases h
  · split at h
    · cases h
    · split at h
      · cases h
      · unfold verifyKeyId at h
        split at h
        · cases h
        · split at h <;> cases h

/-- C247, refuted: and what the client builds for the CA is refused before the key is looked at, as its content has the
type `id-data`. -/
theorem C247_verify_type_refuted (env : KEnv S K C) (p : PopCl A S G) {x448 : K → Bool} {gen : S} {w : KeyWithId G}
    {cek : CA.Bytes} {r : Rand} {a : EncKeyArgs S C} {e : EnvData}
    (h : encKeyPopo env p x448 gen w cek r a = .ok (encPopo a.agree e)) (s : Option S) (pw salt : Option CA.Bytes)
    (cert : Option C) (d : CA.Bytes) :
    openEnv env { pw := pw, key := s, cert := cert, salt := salt } (wire env e) ≠ .ok d := by
  obtain ⟨x, e', g1, g2, g0⟩ := encKeyPopo_ok h
  have he : e = e' := by
    unfold encPopo at g0
    cases ha : a.agree <;> rw [ha] at g0 <;> cases g0 <;> rfl
  subst he
  intro ho
  have ht := openEnv_type rfl ho
  obtain ⟨e1, e2, e3⟩ := buildEnv_enc g2
  unfold buildInfo at e3
  split at e3
  · cases e3
  · have := Except.ok.inj e3
    change e.enc.ctype = [1, 2, 840, 113549, 1, 7, 2] at ht
    rw [← this] at ht
    exact absurd ht (by simp only [Option.getD_some]; decide)

/-! ## The encrypted certificate -/

theorem kemCek_congr (env : KEnv S K C) (k : Kemri) (c c' : Option C) (s : Option S) (p p' sun : Bool)
    (h : kemRid env k.rid c p = .ok ()) (h' : kemRid env k.rid c' p' = .ok ()) :
    kemCek env k c s p sun = kemCek env k c' s p' sun := by
  have hn : ∀ (c : Option C) (p : Bool), kemRid env k.rid c p = .ok () → ¬(p = false ∧ c.isNone = true) := by
    rintro c p h ⟨rfl, h2⟩
    obtain ⟨i, _, h3⟩ := (kemRid_iff env k.rid c false).mp h
    obtain ⟨sc, rfl, _⟩ := h3 rfl
    cases h2
  have hc : checkKemri env k c s p sun = checkKemri env k c' s p' sun := by
    unfold checkKemri
    rw [h, h']
  unfold kemCek
  rw [if_neg (hn c p h), if_neg (hn c' p' h'), hc]

/-- The certificate is needed only to compare the identifier. -/
theorem kemCek_split (env : KEnv S K C) (k : Kemri) (c : Option C) (s : Option S) (sun : Bool) (cek : CA.Bytes) :
    kemCek env k c s false sun = .ok cek ↔
      (∃ sc i, c = some sc ∧ k.rid = some i ∧ RidOf env sc i) ∧ kemCek env k none s true sun = .ok cek := by
  have key : kemRid env k.rid c false = .ok () → kemCek env k c s false sun = kemCek env k none s true sun := by
    intro hu
    obtain ⟨i, hi, h2⟩ := (kemRid_iff env k.rid c false).mp hu
    exact kemCek_congr env k c none s false true sun hu ((kemRid_iff env k.rid none true).mpr ⟨i, hi, nofun⟩)
  constructor
  · intro h
    have hr : kemRid env k.rid c false = .ok () := by
      have h' := h
      unfold kemCek at h'
      split at h'
      · cases h'
      · split at h'
        · cases h'
        · rename_i hc
          unfold checkKemri at hc
          split at hc
          · cases hc
          · split at hc
            · cases hc
            · rename_i hr; exact hr
    obtain ⟨i, hi, h2⟩ := (kemRid_iff env k.rid c false).mp hr
    obtain ⟨sc, hsc, hrid⟩ := h2 rfl
    refine ⟨⟨sc, i, hsc, hi, hrid⟩, ?_⟩
    rw [← key hr]
    exact h
  · rintro ⟨⟨sc, i, rfl, hi, hrid⟩, h⟩
    rw [key ((kemRid_iff env k.rid (some sc) false).mpr ⟨i, hi, fun _ => ⟨sc, rfl, hrid⟩⟩)]
    exact h

/-- C247: the client gets the certificate that the CA encrypts for its key if the identifier is not compared; otherwise
exactly if the certificate of the server, given or the first of the message, is identified as the new certificate is. -/
theorem C247_enc_cert (env : KEnv S K C) (encCert : C → CA.Bytes) (dec : CA.Bytes → Option (C × CA.Bytes)) {k : K}
    {c : C} {cek : CA.Bytes} {r : Rand} {e : EnvData} {s : S} (h : encrCertEnv env encCert k c cek r = .ok e)
    (hf : Fits env cek r) (h4 : env.isRsaKemPub k = false) (h5 : env.isRsaDecap s = false)
    (hoid : env.kemOidE s = env.kemOidPubE k) (hok : ∀ x, env.kemOidPubE k = .ok x → env.isKemOid x = true)
    (hd : ∀ ss ct, env.encaps k .plain r.rnd = .ok (ss, ct) → env.decaps s .plain ct = .ok ss)
    (hal : ∀ x, env.decAlg (env.encHashAlg x) = some (x, []))
    (hde : ∀ k, env.decKemri (env.encKemri k) = some (wireKemri env k, []))
    (hc : dec (encCert c) = some (c, [])) (m : Prot.Msg C) (server : Option C) :
    getEncCert env dec m (.env (wire env e)) (some s) server none none true = .ok c ∧
    (getEncCert env dec m (.env (wire env e)) (some s) server none none false = .ok c ↔
      ∃ sc i, server.or m.certs.head? = some sc ∧ RidOf env c i ∧ RidOf env sc i) := by
  unfold encrCertEnv at h
  cases hb : buildKemri env k (some c) cek r.rnd r.salt none none {} with
  | error y => rw [hb] at h; cases h
  | ok kr =>
    rw [hb] at h
    dsimp only at h
    have hcek := C152_roundtrip env (s := s) (pop := false) (sun := false) hb rfl (by decide) rfl rfl h4 h5 hoid hok hd
      hal hf.wrap
    obtain ⟨⟨sc, i, hsc, hi, hri⟩, hpop⟩ := (kemCek_split env _ _ _ _ _).mp hcek
    cases hsc
    have hany : ∀ c' : Option C, kemCek env (wireKemri env kr) c' (some s) true false = .ok cek := by
      intro c'
      rw [← hpop]
      exact kemCek_congr env _ _ _ _ _ _ _ ((kemRid_iff env _ c' true).mpr ⟨i, hi, nofun⟩)
        ((kemRid_iff env _ none true).mpr ⟨i, hi, nofun⟩)
    have hcert : decodeCert dec (encCert c) = .ok c := by
      unfold decodeCert
      rw [hc]
      dsimp only
      rw [if_neg (by simp)]
    have hopen : ∀ pop : Bool, kemCek env (wireKemri env kr) (server.or m.certs.head?) (some s) pop false = .ok cek →
        getEncCert env dec m (.env (wire env e)) (some s) server none none pop = .ok c := by
      intro pop hp
      have ho : openEnv env { msg := some m, key := some s, cert := server.or m.certs.head?, raw := true, pop := pop }
          (wire env e) = .ok (encCert c) :=
        C153_content_roundtrip env (r := .ori oriKemOid (.obj kr)) h
          (show oriCek env oriKemOid (.raw (env.encKemri kr)) _ _ _ = .ok cek from (C152_ori env (hde kr) hp).2.1)
          rfl rfl rfl hf.len hf.iv (hf.cbc _) rfl
      unfold getEncCert
      dsimp only
      rw [ho]
      exact hcert
    refine ⟨hopen true (hany _), ?_, ?_⟩
    · intro hg
      unfold getEncCert at hg
      dsimp only at hg
      split at hg
      · cases hg
      · rename_i d ho
        unfold openEnv at ho
        rw [if_neg (by simp), if_neg (by simp)] at ho
        obtain ⟨e1, e2, e3⟩ := buildEnv_enc h
        have hw : (wire env e).infos = [.ori oriKemOid (.raw (env.encKemri kr))] := by
          unfold wire
          rw [e1]
          rfl
        unfold openAny extractCek at ho
        rw [(sized_iff (wire env e) 1 0 (.ori oriKemOid (.raw (env.encKemri kr)))).mpr
          ⟨by rw [hw]; rfl, 0, Or.inl rfl, by rw [hw]; rfl⟩] at ho
        split at ho
        · cases ho
        · dsimp only at ho
          split at ho
          · cases ho
          · rename_i y hy
            unfold extractFrom at hy
            dsimp only at hy
            unfold oriCek at hy
            rw [if_neg (by simp)] at hy
            dsimp only at hy
            have hdk : decodeKemri env (env.encKemri kr) = .ok (wireKemri env kr) := by
              unfold decodeKemri
              rw [hde]
              simp
            rw [hdk] at hy
            dsimp only at hy
            obtain ⟨⟨sc, i', g1, g2, g3⟩, _⟩ := (kemCek_split env _ _ _ _ _).mp hy
            rw [hi] at g2
            cases g2
            exact ⟨sc, i, g1, hri, g3⟩
    · rintro ⟨sc, i', g1, g2, g3⟩
      refine hopen false ((kemCek_split env _ _ _ _ _).mpr ⟨⟨sc, i, g1, hi, ?_⟩, hpop⟩)
      have : i' = i := by
        cases g2 with
        | ski q =>
          cases hri with
          | ski q' => rw [q] at q'; cases q'; rfl
          | iss q' => rw [q] at q'; cases q'
        | iss q =>
          cases hri with
          | ski q' => rw [q] at q'; cases q'
          | iss q' => rfl
      rw [← this]
      exact g3

/-- C247: the identifier of the certificate that the CA encrypts, as the client checks it: by a key, whatever issuer and
number are given, exactly if the identifier of the key is that of the certificate; by the certificate itself exactly if
this has no subject key identifier. -/
theorem C247_enc_rid (env : KEnv S K C) (skiOfKey : K → CA.Bytes) (encCert : C → CA.Bytes) {k : K} {c : C}
    {cek : CA.Bytes} {r : Rand} {e : EnvData} (h : encrCertEnv env encCert k c cek r = .ok e)
    (hde : ∀ k, env.decKemri (env.encKemri k) = some (wireKemri env k, [])) :
    (∀ q issuer serial cert, checkEncRid env skiOfKey (wire env e) (some q) issuer serial cert = .ok () ↔
      env.skiOf c = some (skiOfKey q)) ∧
    (checkEncRid env skiOfKey (wire env e) none none none (some c) = .ok () ↔ env.skiOf c = none) := by
  unfold encrCertEnv at h
  cases hb : buildKemri env k (some c) cek r.rnd r.salt none none {} with
  | error y => rw [hb] at h; cases h
  | ok kr =>
    rw [hb] at h
    dsimp only at h
    obtain ⟨e1, e2, e3⟩ := buildEnv_enc h
    have hw : (wire env e).infos = [.ori oriKemOid (.raw (env.encKemri kr))] := by
      unfold wire
      rw [e1]
      rfl
    obtain ⟨i, hi1, hi2⟩ := buildRid_of env c
    have hkr : (wireKemri env kr).rid = some i := by
      show kr.rid = some i
      unfold buildKemri ridOr at hb
      dsimp only at hb
      rw [hi1] at hb
      dsimp only at hb
      repeat' (split at hb; · cases hb)
      cases hb
      rfl
    have hdec : decodeOri env oriKemOid (.raw (env.encKemri kr)) = .ok (wireKemri env kr) := by
      unfold decodeOri
      rw [if_neg (by simp)]
      dsimp only
      unfold decodeKemri
      rw [hde]
      simp
    have hcheck : ∀ key issuer serial cert, checkEncRid env skiOfKey (wire env e) key issuer serial cert =
        ridIs (some i) (expectedRid env skiOfKey key issuer serial cert) := by
      intro key issuer serial cert
      unfold checkEncRid
      rw [hw]
      dsimp only
      rw [hdec]
      dsimp only
      rw [hkr]
    constructor
    · intro q issuer serial cert
      rw [hcheck]
      unfold expectedRid ridIs
      dsimp only
      cases hi2 with
      | ski hs =>
        rw [hs]
        split
        · rename_i hn
          constructor
          · intro h; cases h
          · intro h; cases h; exact absurd rfl hn
        · rename_i hn
          constructor
          · intro _
            have := Classical.not_not.mp hn
            cases this
            rfl
          · intro _; rfl
      | iss hs =>
        rw [hs, if_pos (by simp)]
        constructor <;> intro h <;> cases h
    · rw [hcheck]
      unfold expectedRid ridIs
      dsimp only
      cases hi2 with
      | ski hs =>
        rw [hs, if_pos (by simp)]
        constructor <;> intro h <;> cases h
      | iss hs =>
        rw [hs, if_neg (by simp)]
        constructor <;> intro _ <;> rfl

/-! ## Examples -/

/-- A small client: a MAC is the key, the length of the name of the algorithm and the data; a key is one byte. -/
def exPopCl : PopCl Nat Nat Unit where
  newAlg := fun n => .ok n.length
  mac := fun k a d => .ok (UInt8.ofNat a :: (k ++ d))
  privInfo := fun s => .ok [UInt8.ofNat s]
  dirName := fun _ => .ok ()
  encKeyId := fun w => w.priv.getD []
  encName := fun n => .ok [48, UInt8.ofNat n.length]

/-- The CA of `exK`, with the keys of `exCaKeys`. -/
def exCaKeys : CaKeys Nat Nat Nat :=
  { kem := some 6, kemCert := some 16, rsa := some 7, kari := fun _ => .ok 2, isHyb := fun s => s = 0, hyb := none }

def exPopMsg : Prot.Msg Nat := ⟨⟨[], true, none, none, []⟩, none, none, [23]⟩

def exRand : Rand := ⟨List.replicate 16 7, [9, 9], [1], [2]⟩

def exCek : CA.Bytes := List.replicate 32 5

theorem exK_fits : Fits exK exCek exRand where
  len := Or.inr (Or.inr rfl)
  iv := codec_law _
  cbc := fun d c h => exK_cbc _ _ _ _ h
  wrap := fun kek ek h => exK_wrap _ _ _ h

def exWith : KeyWithId Unit := ⟨some [33], some (.str "A")⟩

/-- The data that a proof has. -/
def dataOf : Popo Nat EnvData → Option EnvData
  | .keyEnc (.encryptedKey e) => some e
  | .keyAgree (.encryptedKey e) => some e
  | _ => none

/-- What the CA opens of a proof that the client builds. -/
def exOpened (a : EncKeyArgs Nat Nat) : Option CA.Bytes :=
  (encKeyPopo exK exPopCl (fun _ => false) 2 exWith exCek exRand a).toOption.bind fun po =>
    (dataOf po).bind fun e => (caOpen exK exCaKeys exPopMsg (wire exK e)).toOption

/-- C247: for a KEM, RSA and EC certificate of the CA the key is opened; for RSA only with the protection certificate. -/
example : exOpened { ca := some 16 } = some [33] ∧ exOpened { ca := some 17, prot := some 23 } = some [33] ∧
    exOpened { ca := some 12, prot := some 23, priv := some 3 } = some [33] ∧ exOpened { ca := some 17 } = none := by
  decide +kernel

/-- C247, refuted: without the protection certificate the encrypted key for the RSA certificate of the CA is built and
refused by the CA. -/
theorem C247_rsa_default_refuted :
    ∃ e, encKeyPopo exK exPopCl (fun _ => false) 2 exWith exCek exRand { ca := some 17 } = .ok (encPopo false e) ∧
      ∀ d, caOpen exK exCaKeys exPopMsg (wire exK e) ≠ .ok d := by
  have hx : ∃ e, encKeyPopo exK exPopCl (fun _ => false) 2 exWith exCek exRand { ca := some 17 } =
      .ok (encPopo false e) := by
    cases h : encKeyPopo exK exPopCl (fun _ => false) 2 exWith exCek exRand { ca := some 17 } with
    | error y =>
      have : (encKeyPopo exK exPopCl (fun _ => false) 2 exWith exCek exRand { ca := some 17 }).toOption.isSome = true := by
        decide +kernel
      rw [h] at this
      cases this
    | ok po =>
      obtain ⟨x, e, _, _, rfl⟩ := encKeyPopo_ok h
      exact ⟨e, rfl⟩
  obtain ⟨e, he⟩ := hx
  refine ⟨e, he, fun d hd => ?_⟩
  obtain ⟨pc, i, h1, h2, h3⟩ := C247_rsa_default exK exPopCl (a := { ca := some 17 }) he rfl rfl rfl rfl rfl rfl
    exPopMsg hd
  cases h1
  have q : exK.skiOf 17 = some [17] := rfl
  have q' : exK.skiOf 23 = some [23] := rfl
  cases h2 with
  | ski a =>
    cases h3 with
    | ski b =>
      rw [q] at a
      rw [q'] at b
      rw [← a] at b
      exact absurd b (by decide)
  | iss a => rw [q] at a; cases a

/-- C247: the KEM proof of the other function is built and not opened, and `verify_encrypted_key_popo` does not open the
first. -/
example : ((kemPopo exK exPopCl (fun _ => false) 2 16 none (some 33) "Null-DN" 0 "CN=A" exCek true exRand).toOption.bind
      dataOf).isSome = true ∧
    ((kemPopo exK exPopCl (fun _ => false) 2 16 none (some 33) "Null-DN" 0 "CN=A" exCek true exRand).toOption.bind
      dataOf).bind (fun e => (caOpen exK exCaKeys exPopMsg (wire exK e)).toOption) = none := by
  decide +kernel

/-- C247: the certificate 16 is encrypted for its key; the client reads it without comparing the identifier, and not with
the server certificate 23. By the certificate the identifier is refused, as 16 has a subject key identifier. -/
example :
    ((encrCertEnv exK (fun c => [UInt8.ofNat c]) 6 16 exCek exRand).toOption.bind fun e =>
      (getEncCert exK (fun d => some (d.length + 15, [])) exPopMsg (.env (wire exK e)) (some 6) none none none
        true).toOption) = some 16 ∧
    ((encrCertEnv exK (fun c => [UInt8.ofNat c]) 6 16 exCek exRand).toOption.bind fun e =>
      (getEncCert exK (fun d => some (d.length + 15, [])) exPopMsg (.env (wire exK e)) (some 6) none none none
        false).toOption) = none ∧
    ((encrCertEnv exK (fun c => [UInt8.ofNat c]) 6 16 exCek exRand).toOption.bind fun e =>
      (checkEncRid exK (fun _ => []) (wire exK e) none none none (some 16)).toOption) = none ∧
    ((encrCertEnv exK (fun c => [UInt8.ofNat c]) 6 16 exCek exRand).toOption.bind fun e =>
      (checkEncRid exK (fun _ => [16]) (wire exK e) (some 6) none none none).toOption) = some () := by
  decide +kernel

/-- C247: a proof by MAC with the key 3 and the EC certificate 12, spoiled or not, and what else the function gives. -/
example : (agreePopo exK exPopCl { key := some 3, ca := some 12, der := some [1, 2] } =
      .ok (.keyAgree (.agreeMac 18 [18, 5, 6, 0, 1, 2]))) ∧
    (agreePopo exK exPopCl { key := some 3, ca := some 12, der := some [1, 2], bad := true } =
      .ok (.keyAgree (.agreeMac 18 [0, 5, 6, 0, 1, 2]))) ∧
    (agreePopo exK exPopCl { encr := true } = .ok (.keyAgree (.subsequent true))) ∧
    (agreePopo exK exPopCl { encr := false } = .error .pyasn1Error) :=
  ⟨rfl, rfl, rfl, rfl⟩

/-- The CA of `exRaEnv` with the opening of `exCaKeys`. -/
def exPopRa : RaEnv Nat Nat Nat String EnvData ExCert Nat Nat Unit :=
  { exRaEnv with
    isEcdh := fun k => decide (k = 3)
    serverKey := fun _ => some 2
    ecdh := fun s k => ecdhOn exK s k false
    mac := exPopCl.mac
    encKari := fun _ _ _ => .error .valueError
    encKem := fun _ _ => .error .valueError
    openKey := caOpen exK exCaKeys exPopMsg
    kga := fun _ => .error .valueError }

def exPopReq (name : String) (popo : Option (Popo Nat EnvData)) (k : UInt8) : Req Nat String EnvData :=
  { id := 0, tmpl := ⟨some ⟨some 0, [k]⟩, name⟩, popo := popo, der := [1, 2] }

/-- C247: the CA accepts the MAC of the client with the key 3, refuses the spoiled one, and issues a certificate for the
encrypted key 33 to the subject A but not to B, nor for another key. -/
example :
    ((agreePopo exK exPopCl { key := some 3, ca := some 12, der := some [1, 2] }).toOption.bind fun po =>
      match po with
      | .keyAgree q => ((agreeReply exPopRa none (exPopReq "A" (some po) 3) q).toOption.map (·.cert.key))
      | _ => none) = some 3 ∧
    (agreeReply exPopRa none (exPopReq "A" none 3) (.agreeMac 18 [0, 5, 6, 0, 1, 2])).toOption.isNone = true ∧
    ((encKeyPopo exK exPopCl (fun _ => false) 2 exWith exCek exRand { ca := some 16 }).toOption.bind fun po =>
      (dataOf po).bind fun e => (encryptedKey exPopRa (exPopReq "A" none 33).tmpl (wire exK e)).toOption.map (·.key)) =
        some 33 ∧
    ((encKeyPopo exK exPopCl (fun _ => false) 2 exWith exCek exRand { ca := some 16 }).toOption.bind fun po =>
      (dataOf po).bind fun e => (encryptedKey exPopRa (exPopReq "B" none 33).tmpl (wire exK e)).toOption) = none ∧
    ((encKeyPopo exK exPopCl (fun _ => false) 2 exWith exCek exRand { ca := some 16 }).toOption.bind fun po =>
      (dataOf po).bind fun e => (encryptedKey exPopRa (exPopReq "A" none 34).tmpl (wire exK e)).toOption) = none := by
  decide +kernel

end Verif.Ra.PopBuild
