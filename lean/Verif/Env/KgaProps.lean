import Verif.Env.SignedProps
import Verif.Env.EnvRefuted

/-!
# C156: the private key in a response
-/

namespace Verif.Env

open Verif.CA hiding Bytes Msg
open Verif.Prot Verif.Check

variable {C D A Q P N K S K' : Type}

/-! ## Specification -/

/-- The way in which the message is protected fits the kind of recipient: for key agreement the certificate has the key
usage, for a password the message is protected with it. -/
def RightUse (env : KEnv S K C) (usage : C → Except PyErr (Option (List Bool))) (rnd : Bytes) (cert : C) (m : Msg C)
    (pw : Option Bytes) : Ri → Prop
  | .ktri _ => True
  | .ori _ _ => True
  | .kari _ => ∃ x, usage cert = .ok (some x) ∧ x[4]? = some true
  | .pwri _ => ∃ w, pw = some w ∧ verifyProt env.toEnv rnd m none (some w) none none false = .ok ()
  | .kekri => False

/-- The response at the index has an enveloped private key and a certificate. -/
def KeyPairAt (m : KgaMsg C) (i : Nat) (e : EnvData) (c : C) : Prop :=
  ∃ l, m.resp = some l ∧ l[i]? = some (some ⟨.enveloped e, some c⟩)

/-! ## Lemmas -/

theorem usedRightly_iff (env : KEnv S K C) (usage : C → Except PyErr (Option (List Bool))) (rnd : Bytes) (cert : C)
    (m : Msg C) (pw : Option Bytes) (r : Ri) :
    usedRightly env usage rnd cert r m pw = .ok () ↔ RightUse env usage rnd cert m pw r := by
  cases r with
  | ktri _ => exact ⟨fun _ => trivial, fun _ => rfl⟩
  | ori _ _ => exact ⟨fun _ => trivial, fun _ => rfl⟩
  | kekri => exact ⟨nofun, False.elim⟩
  | pwri _ =>
    unfold usedRightly RightUse
    cases pw with
    | none => exact ⟨nofun, fun ⟨_, h, _⟩ => nomatch h⟩
    | some w =>
      constructor
      · exact fun h => ⟨w, rfl, h⟩
      · rintro ⟨w', h, h'⟩
        cases h
        exact h'
  | kari _ =>
    unfold usedRightly RightUse
    have hs : stripL "keyAgreement".toList = "keyAgreement".toList := by decide +kernel
    dsimp only
    rw [C123_usage keyUsageNames keyUsageNames_plain]
    constructor
    · rintro (h | ⟨h, _⟩ | ⟨_, x, h1, h2⟩ | ⟨h, _⟩)
      · cases h
      · cases h
      · refine ⟨x, h1, ?_⟩
        have := h2 _ (List.mem_singleton.2 rfl)
        rw [hs] at this
        exact (C123_bits 4 "keyAgreement" x rfl).1 this
      · cases h
    · rintro ⟨x, h1, h2⟩
      refine .inr (.inr (.inl ⟨rfl, x, h1, fun v hv => ?_⟩))
      rw [List.mem_singleton.1 hv, hs]
      exact (C123_bits 4 "keyAgreement" x rfl).2 h2

theorem matchesIssued_iff [DecidableEq K] (keyOf : C → Except PyErr K) (pubOf : P → K) (p r : P) (cert : Option C) :
    matchesIssued keyOf pubOf p cert = .ok r ↔ r = p ∧ ∃ c, cert = some c ∧ keyOf c = .ok (pubOf p) := by
  unfold matchesIssued
  cases cert with
  | none => exact ⟨nofun, fun ⟨_, _, h, _⟩ => nomatch h⟩
  | some c =>
    dsimp only
    constructor
    · intro h
      cases hk : keyOf c with
      | error x => rw [hk] at h; cases h
      | ok k =>
        rw [hk] at h
        dsimp only at h
        split at h
        · cases h
        · rename_i hn
          cases h
          exact ⟨rfl, c, rfl, by rw [hk, Classical.not_not.1 hn]⟩
    · rintro ⟨rfl, c', h, h'⟩
      cases h
      rw [h']
      dsimp only
      rw [if_neg (not_not_intro rfl)]

/-! ## C156 -/

/-- C156: exactly when a key is returned. -/
theorem C156_iff [DecidableEq C] [DecidableEq N] [DecidableEq K'] (g : KgaEnv C D A Q P N K S K') (a : KgaArgs S)
    (m : KgaMsg C) (p : P) :
    openKga g a m = .ok p ↔ m.pvno = 3 ∧ ∃ cert e c d sd r, At m.msg.certs a.certIdx cert ∧ KeyPairAt m a.idx e c ∧
      openEnv g.env (kgaOpen a m.msg cert) e = .ok d ∧ g.decSd d = some (sd, []) ∧
      openSigned g.sd g.ch g.anchors a.size a.idx a.save sd = .ok p ∧ e.infos[a.idx]? = some r ∧
      RightUse g.env g.ch.usage a.rnd cert m.msg a.pw r ∧ g.ch.loadKey c = .ok (g.pubOf p) := by
  unfold openKga
  constructor
  · intro h
    split at h
    · cases h
    · rename_i hv
      refine ⟨Classical.not_not.1 hv, ?_⟩
      cases hp : pick m.msg.certs a.certIdx with
      | error x => rw [hp] at h; cases h
      | ok cert =>
      rw [hp] at h
      dsimp only at h
      cases hr : respAt m a.idx with
      | error x => rw [hr] at h; cases h
      | ok kp =>
      rw [hr] at h
      dsimp only at h
      obtain ⟨priv, oc⟩ := kp
      cases priv with
      | absent => cases h
      | encrypted => cases h
      | enveloped e =>
      dsimp only at h
      cases ho : openEnv g.env (kgaOpen a m.msg cert) e with
      | error x => rw [ho] at h; cases h
      | ok d =>
      rw [ho] at h
      dsimp only at h
      unfold kgaDecrypted at h
      cases hd : g.decSd d with
      | none => rw [hd] at h; cases h
      | some x =>
      obtain ⟨sd, rest⟩ := x
      rw [hd] at h
      dsimp only at h
      split at h
      · cases h
      · rename_i hrest
        have hrest := Classical.not_not.1 hrest
        subst hrest
        cases hs : openSigned g.sd g.ch g.anchors a.size a.idx a.save sd with
        | error x => rw [hs] at h; cases h
        | ok q =>
        rw [hs] at h
        dsimp only at h
        cases hi : e.infos[a.idx]? with
        | none => rw [hi] at h; cases h
        | some r =>
        rw [hi] at h
        dsimp only at h
        cases hu : usedRightly g.env g.ch.usage a.rnd cert r m.msg a.pw with
        | error x => rw [hu] at h; cases h
        | ok u =>
        rw [hu] at h
        obtain ⟨rfl, c, rfl, hk⟩ := (matchesIssued_iff _ _ _ _ _).1 h
        refine ⟨cert, e, c, d, sd, r, (pick_iff _ _ _).1 hp, ?_, ho, hd, hs, hi, (usedRightly_iff _ _ _ _ _ _ _).1 hu, hk⟩
        unfold respAt at hr
        split at hr
        · cases hr
        · rename_i l hl
          split at hr
          · cases hr
          · cases hr
          · rename_i k hk
            cases hr
            exact ⟨l, hl, hk⟩
  · rintro ⟨hv, cert, e, c, d, sd, r, h1, ⟨l, h2, h2'⟩, h3, h4, h5, h6, h7, h8⟩
    rw [if_neg (not_not_intro hv), (pick_iff _ _ _).2 h1]
    dsimp only
    have : respAt m a.idx = .ok ⟨.enveloped e, some c⟩ := by
      unfold respAt
      rw [h2]
      dsimp only
      rw [h2']
    rw [this]
    dsimp only
    rw [h3]
    dsimp only
    unfold kgaDecrypted
    rw [h4]
    dsimp only
    rw [if_neg (not_not_intro rfl), h5]
    dsimp only
    rw [h6]
    dsimp only
    rw [(usedRightly_iff _ _ _ _ _ _ _).2 h7]
    exact (matchesIssued_iff _ _ _ _ _).2 ⟨rfl, c, rfl, h8⟩

/-- C156: the returned key is the one of the issued certificate, and it is signed by a trusted authority. -/
theorem C156_accepted [DecidableEq C] [DecidableEq N] [DecidableEq K'] (g : KgaEnv C D A Q P N K S K') (a : KgaArgs S)
    (m : KgaMsg C) (p : P) (h : openKga g a m = .ok p) :
    ∃ e c, KeyPairAt m a.idx e c ∧ g.ch.loadKey c = .ok (g.pubOf p) ∧
      ∃ as sd kga rest s, g.anchors = .ok as ∧ SignedKey g.sd g.ch as a.size a.idx a.save sd p kga rest s := by
  obtain ⟨_, cert, e, c, d, sd, r, _, h2, _, _, h5, _, _, h8⟩ := (C156_iff g a m p).1 h
  obtain ⟨as, kga, rest, s, ha, hk⟩ := C155_accepted _ _ _ _ _ _ _ _ h5
  exact ⟨e, c, h2, h8, as, sd, kga, rest, s, ha, hk⟩

/-- C156: what a trusted authority builds for the key of the issued certificate, opened with the recipient's key, gives the
private key. -/
theorem C156_roundtrip [DecidableEq C] [DecidableEq N] [DecidableEq K'] (g : KgaEnv C D A Q P N K S K') {a : KgaArgs S}
    {m : KgaMsg C} {key p : P} {kga : C} {sigHash : Option String} {content : Option Bytes} {chain : Option (List C)}
    {sd : SData C D A} {h : String} {rest as : List C} {k : Bytes} {cert c : C} {e : EnvData} {d : Bytes} {r : Ri}
    (hb : mkSigned g.sd key kga sigHash none content (some [p]) chain false = .ok sd)
    (hh : sigHash = some h ∨ sigHash = none ∧ g.sd.keyHash key = .ok h) (hl : SdLaws g.sd key kga h)
    (hq : ∀ q, g.sd.qMake p "raw" = .ok q → g.sd.qVersion q = 1 ∧ g.sd.qLoad q = .ok p) (hs : g.sd.ski kga = some k)
    (has : g.anchors = .ok as) (ht : KgaTrusted g.ch as (chain.getD [kga]) kga rest) (hd : g.decSd d = some (sd, []))
    (h1 : a.size = 1) (h2 : a.idx = 0) (h3 : a.save = none) (hv : m.pvno = 3) (hc : At m.msg.certs a.certIdx cert)
    (hr : KeyPairAt m 0 e c) (ho : openEnv g.env (kgaOpen a m.msg cert) e = .ok d) (hi : e.infos[0]? = some r)
    (hu : RightUse g.env g.ch.usage a.rnd cert m.msg a.pw r) (hk : g.ch.loadKey c = .ok (g.pubOf p)) :
    openKga g a m = .ok p := by
  refine (C156_iff g a m p).2 ⟨hv, cert, e, c, d, sd, r, hc, h2 ▸ hr, ho, hd, ?_, h2 ▸ hi, hu, hk⟩
  rw [h1, h2, h3, has]
  exact C155_roundtrip g.sd g.ch hb hh hl hq hs ht

/-- C156: the same from end to end for an RSA certificate of the recipient: the signed data is encoded, encrypted for the
certificate, sent, and opened with the RSA key. -/
theorem C156_roundtrip_rsa [DecidableEq C] [DecidableEq N] [DecidableEq K'] (g : KgaEnv C D A Q P N K S K') {a : KgaArgs S}
    {m : KgaMsg C} {key p : P} {kga : C} {sigHash : Option String} {content : Option Bytes} {chain : Option (List C)}
    {sd : SData C D A} {h : String} {rest as : List C} {k : Bytes} {cert c : C} {e : EnvData} {d cek : Bytes} {s : S}
    {x448 : K → Bool} {ek : K} {s0 : Option S} {gen : S} {oaep : Bool} {rd : Rand}
    (hb : mkSigned g.sd key kga sigHash none content (some [p]) chain false = .ok sd)
    (hh : sigHash = some h ∨ sigHash = none ∧ g.sd.keyHash key = .ok h) (hl : SdLaws g.sd key kga h)
    (hq : ∀ q, g.sd.qMake p "raw" = .ok q → g.sd.qVersion q = 1 ∧ g.sd.qLoad q = .ok p) (hs : g.sd.ski kga = some k)
    (has : g.anchors = .ok as) (ht : KgaTrusted g.ch as (chain.getD [kga]) kga rest) (hd : g.decSd d = some (sd, []))
    (hx : buildExchange g.env x448 ek d s0 gen (some cert) cek none oaep none rd = .ok e)
    (hrsa : g.env.isRsaPub ek = true) (hr : g.env.isRsa s = true) (hxs : g.env.isX s = false)
    (hsp : g.env.special [2, 16, 840, 1, 101, 3, 4, 2, 1] = none)
    (hsp' : g.env.special [2, 16, 840, 1, 101, 3, 4, 2, 2] = none)
    (hdo : ∀ x, g.env.decOaep (g.env.encOaep x) = some (x, [])) (hoi : ∀ o, g.env.decOid (g.env.encOid o) = some (o, []))
    (hdec : ∀ p x, g.env.rsaEnc ek p rd.rnd cek = .ok x → g.env.rsaDec s p x = .ok cek)
    (hk : cek.length = 16 ∨ cek.length = 24 ∨ cek.length = 32)
    (hiv : g.env.decIv (g.env.encIv rd.iv) = some (rd.iv, []))
    (hcbc : ∀ c, g.env.cbcEnc cek rd.iv (pad d) = .ok c → g.env.cbcDec cek rd.iv c = .ok (pad d))
    (h0 : a.type = none) (h1 : a.size = 1) (h2 : a.idx = 0) (h3 : a.save = none) (h4 : a.key = some s) (hv : m.pvno = 3)
    (hc : At m.msg.certs a.certIdx cert) (hkp : KeyPairAt m 0 (wire g.env e) c)
    (hkey : g.ch.loadKey c = .ok (g.pubOf p)) : openKga g a m = .ok p := by
  have ho : openEnv g.env (kgaOpen a m.msg cert) (wire g.env e) = .ok d :=
    C153_exchange_rsa g.env (s := s) (a := kgaOpen a m.msg cert) (x := none) hx hrsa hsp hsp' hdo hoi hr hdec h0
      (by show ((a.size : Nat) : Int) = 1; rw [h1]; rfl) (by show ((a.idx : Nat) : Int) = 0; rw [h2]; rfl) h4 rfl
      (.none rfl hxs) hk hiv hcbc rfl
  obtain ⟨t, hi⟩ : ∃ t, (wire g.env e).infos[0]? = some (.ktri t) := by
    unfold buildExchange exchangeRi at hx
    rw [if_pos hrsa] at hx
    cases hbk : buildKtri g.env ek (some cert) cek rd.rnd oaep none none with
    | error x => rw [hbk] at hx; cases hx
    | ok t =>
      rw [hbk] at hx
      change buildEnv g.env [.ktri t] cek d rd.iv _ _ = .ok e at hx
      unfold buildEnv at hx
      split at hx
      · cases hx
      · cases hx
        exact ⟨t, rfl⟩
  exact C156_roundtrip g hb hh hl hq hs has ht hd h1 h2 h3 hv hc hkp ho hi trivial hkey

/-! ## Differences -/

theorem openEnv_sized {env : KEnv S K C} {a : OpenArgs S C} {e : EnvData} {d : Bytes} (h : openEnv env a e = .ok d) :
    (e.infos.length : Int) = a.size ∧ ∃ r, At e.infos a.idx r := by
  have key : ∀ {t} {x : Except PyErr Ri}, recipOf e a.size a.idx t = x → (∃ r, x = .ok r) →
      (e.infos.length : Int) = a.size ∧ ∃ r, At e.infos a.idx r := by
    rintro t x h1 ⟨r, rfl⟩
    obtain ⟨g1, g2, _⟩ := (recipOf_iff _ _ _ _ _).1 h1
    exact ⟨g1, r, g2⟩
  unfold openEnv at h
  split at h
  · cases hw : a.pw with
    | none => rw [hw] at h; cases h
    | some w =>
      rw [hw] at h
      dsimp only at h
      unfold openPwri at h
      split at h
      · cases h
      · cases hr : recipOf e a.size a.idx (some "pwri") with
        | error x => rw [hr] at h; cases h
        | ok r => exact key hr ⟨r, rfl⟩
  · split at h
    · cases hk : a.key with
      | none => rw [hk] at h; cases h
      | some s =>
        rw [hk] at h
        dsimp only at h
        split at h
        · unfold openKemri at h
          cases hr : recipOf e a.size a.idx (some "ori") with
          | error x => rw [hr] at h; cases h
          | ok r => exact key hr ⟨r, rfl⟩
        · cases h
    · unfold openAny at h
      cases hr : recipOf e a.size a.idx a.type with
      | error x => rw [hr] at h; cases h
      | ok r => exact key hr ⟨r, rfl⟩

/-- The index of the response is also the index of the recipient: a second response whose key is enveloped for one
recipient is never accepted, whatever the other arguments are. -/
theorem C156_index_refuted [DecidableEq C] [DecidableEq N] [DecidableEq K'] (g : KgaEnv C D A Q P N K S K')
    (a : KgaArgs S) (m : KgaMsg C) (p : P) (e : EnvData) (c : C) (hi : 1 ≤ a.idx) (hk : KeyPairAt m a.idx e c)
    (h1 : e.infos.length = 1) : openKga g a m ≠ .ok p := by
  intro h
  obtain ⟨_, cert, e', c', d, sd, r, _, ⟨l, h2, h2'⟩, _, _, _, h6, _⟩ := (C156_iff g a m p).1 h
  obtain ⟨l', h3, h3'⟩ := hk
  rw [h2] at h3
  cases h3
  rw [h2'] at h3'
  cases h3'
  have := (List.getElem?_eq_some_iff.1 h6).1
  omega

/-- The sizes are one: a key in an envelope for two recipients is accepted only if there are two keys and two signers. -/
theorem C156_size_refuted [DecidableEq C] [DecidableEq N] [DecidableEq K'] (g : KgaEnv C D A Q P N K S K')
    (a : KgaArgs S) (m : KgaMsg C) (p : P) (e : EnvData) (c : C) (hk : KeyPairAt m a.idx e c)
    (h : openKga g a m = .ok p) :
    ∃ d sd b l, g.decSd d = some (sd, []) ∧ sd.content = some b ∧ g.sd.decPkg b = some (l, []) ∧
      l.length = e.infos.length ∧ sd.infos.length = e.infos.length ∧ sd.digestAlgs.length = e.infos.length := by
  obtain ⟨_, cert, e', c', d, sd, r, _, ⟨l, h2, h2'⟩, h3, h4, h5, h6, _⟩ := (C156_iff g a m p).1 h
  obtain ⟨l', g3, g3'⟩ := hk
  rw [h2] at g3
  cases g3
  rw [h2'] at g3'
  cases g3'
  have hsz : e.infos.length = a.size := by
    have := (openEnv_sized h3).1
    change (e.infos.length : Int) = ((a.size : Nat) : Int) at this
    omega
  obtain ⟨as, kga, rest, s, _, hsk⟩ := C155_accepted _ _ _ _ _ _ _ _ h5
  obtain ⟨b, dig, dd, gg, hh, c1, ⟨⟨l, q, c2, c3, _⟩⟩, _⟩ := hsk.content
  exact ⟨d, sd, b, l, h4, c1, c2, by rw [c3, hsz], by rw [hsk.size.2, hsz], by rw [hsk.size.1, hsz]⟩

/-! ## A concrete authority -/

/-- The parameters of the example: private keys are numbers, the signature is the number and the data. -/
def exSd : SdE Nat Nat Nat Nat Nat where
  ctDer := [1]
  encDig := fun d => [UInt8.ofNat d]
  encMd := fun b => 4 :: b
  decMd := fun b => match b with
    | 4 :: b => some b
    | _ => none
  encInfo := fun _ b => 9 :: b.getD []
  encPkg := Codec.enc
  decPkg := Codec.dec
  isSig := fun a => decide (a = 1)
  digName := fun d => if d = 2 then .ok (some "sha256") else .error .valueError
  sigName := fun _ => .ok "sha256"
  cmpHash := fun _ _ => .ok "sha256"
  onlyHash := fun _ => .ok (some "sha256")
  hash := fun _ b => .ok (b.map (· + 1))
  conform := fun _ _ => true
  verify := fun c s m _ => if s = UInt8.ofNat (c % 10) :: m then .ok () else .error .invalidSignature
  qVersion := fun _ => 1
  qLoad := .ok
  qExport := fun _ _ _ => .ok ()
  qMake := fun p _ => .ok p
  keyHash := fun _ => .ok "sha256"
  keyAlg := fun _ _ => .ok 1
  hashAlg := fun _ => .ok 2
  sign := fun p m _ => .ok (UInt8.ofNat p :: m)
  ski := fun c => if c < 10 then none else some [UInt8.ofNat c]
  issSer := fun c => ([1], c)

/-- Certificate 90 is the root and has issued all; certificates from 50 are of key generation authorities. -/
def exCh : ChainEnv Nat Nat Nat where
  subject := id
  issuer := fun _ => 90
  loadKey := fun c => .ok (c % 10)
  verify := fun k _ _ => if k = 0 then .ok () else .error .invalidSignature
  eku := fun c => if 50 ≤ c then .ok (some ["cmKGA"]) else .ok none
  usage := fun c => if c < 30 then .ok (some [true, false, false, false, false]) else .ok (some [false, false, false, false, true])
  openssl := fun _ => .ok ()

/-- Signed data for the key 8, by the authority with certificate 56. -/
def exSigned : SData Nat Nat Nat :=
  (mkSigned exSd 6 56 none none none (some [8]) (some [56, 90]) false).toOption.getD ⟨0, [], [], none, [], []⟩

/-- The encoding of the signed data is `exData`. -/
def exG : KgaEnv Nat Nat Nat Nat Nat Nat Nat Nat Nat where
  env := exK
  sd := exSd
  ch := exCh
  anchors := .ok [90]
  decSd := fun d => if d = exData then some (exSigned, []) else none
  pubOf := id

/-- A response for a certificate with key 8. -/
def exResp (e : EnvData) (msg : Msg Nat) : KgaMsg Nat := ⟨3, msg, some [some ⟨.enveloped e, some 78⟩]⟩

theorem exSd_laws : SdLaws exSd 6 56 "sha256" := by
  refine ⟨fun _ => rfl, codec_law, fun _ h => ?_, fun a h => ?_, fun m s h => ?_⟩
  · cases h; rfl
  · cases h
    refine ⟨rfl, rfl, rfl, rfl, _, rfl, fun m s h => ?_⟩
    cases h
    exact if_pos rfl
  · cases h
    exact if_pos rfl

theorem exKga_trusted : KgaTrusted exCh [90] ((some [56, 90]).getD [56]) 56 [90] :=
  ⟨by decide +kernel, by decide, nofun, fun _ => rfl, ⟨["cmKGA"], rfl, by decide, by decide⟩⟩

/-- C155_roundtrip, C155_accepted, C155_attrs, C155_algs, C155_signer, C155_package: what is built is opened. -/
example : openSigned exSd exCh (.ok [90]) 1 0 none exSigned = .ok 8 ∧
    openSigned exSd exCh (.ok [91]) 1 0 none exSigned = .error .signerNotTrusted ∧
    openSigned exSd exCh (.ok [90]) 2 0 none exSigned = .error .valueError :=
  ⟨C155_roundtrip exSd exCh (key := 6) (c := 56) (sigHash := none) (content := none) (chain := some [56, 90]) (h := "sha256")
    (rest := [90]) (k := [56]) (by decide +kernel) (.inr ⟨rfl, rfl⟩) exSd_laws (fun q h => by cases h; exact ⟨rfl, rfl⟩)
    (by decide) exKga_trusted, by decide +kernel, by decide +kernel⟩

/-- C155_attrs: a digest, and none. -/
example : signedAttrs exSd 1 (mkAttrs exSd [5]) = .ok [5] ∧ signedAttrs exSd 1 [⟨contentTypeOid, [[1]]⟩] = .error .valueError ∧
    signedAttrs exSd 1 [⟨messageDigestOid, [[4, 5]]⟩] = .error .valueError ∧
    signedAttrs exSd 1 (⟨[1, 2, 840, 113549, 1, 9, 4], [[4, 6]]⟩ :: mkAttrs exSd [5]) = .ok [5] :=
  ⟨by decide +kernel, by decide +kernel, by decide +kernel, C155_repeated_refuted exSd [5] [6] [4, 6] rfl rfl⟩

/-- C155_algs: another hash. -/
example : sigAndDigest exSd 1 2 2 = .ok () ∧ sigAndDigest exSd 1 2 3 = .error .valueError ∧
    sigAndDigest exSd 2 2 2 = .error .badAlg ∧ sigAndDigest exSd 1 3 3 = .error .badAlg := by
  decide +kernel

/-- C155_ski_refuted: the certificate 6 has no subject key identifier. -/
example : openSigned exSd exCh (.ok [90]) 1 0 none
    ((mkSigned exSd 6 6 none none none (some [8]) (some [6, 90]) false).toOption.getD exSigned) ≠ .ok 8 :=
  C155_ski_refuted exSd exCh (key := 6) (c := 6) (sigHash := none) (digHash := none) (content := none) (keys := some [8])
    (chain := some [6, 90]) (bad := false) (by decide +kernel) (by decide)

/-- C155_attrs_refuted, C155_signers_refuted. -/
example : ∃ s, exSigned.infos = [s] ∧
    openSigned exSd exCh (.ok [90]) 1 0 none { exSigned with infos := [{ s with attrs := ⟨[1, 2, 3], [[7]]⟩ :: s.attrs }] } =
      .ok 8 := by
  refine ⟨exSigned.infos.head (by decide +kernel), by decide +kernel, ?_⟩
  rw [C155_attrs_refuted exSd exCh (.ok [90]) 1 0 none exSigned (exSigned.infos.head (by decide +kernel)) [] ⟨[1, 2, 3], [[7]]⟩
    (by decide +kernel) (by decide) (by decide)]
  decide +kernel

/-- C156_roundtrip_rsa, C156_iff, C156_accepted: the RSA key 1 opens; another certificate does not match the key. -/
example : openKga exG { key := some 1 } (exResp (wire exK (exEnvFor 1 21 none)) (exCerts [21])) = .ok 8 ∧
    openKga exG { key := some 1 } ⟨3, exCerts [21], some [some ⟨.enveloped (wire exK (exEnvFor 1 21 none)), some 77⟩]⟩ =
      .error .mismatchingKey ∧
    openKga exG { key := some 7 } (exResp (wire exK (exEnvFor 1 21 none)) (exCerts [21])) = .error .valueError ∧
    openKga exG { key := some 1 } ⟨2, exCerts [21], none⟩ = .error .valueError :=
  ⟨C156_roundtrip_rsa exG (key := 6) (kga := 56) (sigHash := none) (content := none) (chain := some [56, 90]) (h := "sha256")
    (rest := [90]) (as := [90]) (k := [56]) (cert := 21) (c := 78) (d := exData) (cek := exCek) (s := 1)
    (sd := exSigned) (e := exEnvFor 1 21 none) (x448 := fun _ => false) (ek := 1) (s0 := none) (gen := 3) (oaep := true)
    (rd := exRand) (by decide +kernel) (.inr ⟨rfl, rfl⟩) exSd_laws (fun q h => by cases h; exact ⟨rfl, rfl⟩) (by decide) rfl
    exKga_trusted (by decide +kernel) (by decide +kernel) (by decide) (by decide) (by decide) rfl rfl codec_law codec_law
    (by intro p x h; cases h; exact stripPre_append _ _) (by decide) (codec_law exIv) (fun c h => exK_cbc _ _ _ c h) rfl rfl
    rfl rfl rfl rfl ⟨0, .inl rfl, rfl⟩ ⟨_, rfl, rfl⟩ rfl,
    by decide +kernel, by decide +kernel, by decide +kernel⟩

/-- C156_roundtrip with a password: the message is protected with it. -/
example : openKga exG { pw := some [77], certIdx := 0 }
      (exResp (wire exK (exPwEnv "pbkdf2")) { exPwMsg exPwProt with certs := [21] }) = .ok 8 ∧
    openKga exG { pw := some [77], certIdx := 0 }
      (exResp (wire exK (exPwEnv "pbkdf2")) { exPwMsg [0] with certs := [21] }) ≠ .ok 8 := by
  constructor
  · decide +kernel
  · decide +kernel

/-- RFC 9483, section 4.1.6.1, asks for the key usage keyEncipherment for key transport; it is not checked, while it is for
key agreement. -/
theorem C156_usage_refuted : ∃ (g : KgaEnv Nat Nat Nat Nat Nat Nat Nat Nat Nat) (m : KgaMsg Nat) (cert : Nat) (l : List Bool),
    m.msg.certs = [cert] ∧ g.ch.usage cert = .ok (some l) ∧ l[2]? = some false ∧ openKga g { key := some 1 } m = .ok 8 :=
  ⟨exG, exResp (wire exK (exEnvFor 1 21 none)) (exCerts [21]), 21, [true, false, false, false, false], rfl, rfl, rfl,
    by decide +kernel⟩

/-- C156_index_refuted: the same key pair as second response is not accepted. -/
example : openKga exG { key := some 1, idx := 1 } ⟨3, exCerts [21], some [none,
    some ⟨.enveloped (wire exK (exEnvFor 1 21 none)), some 78⟩]⟩ ≠ .ok 8 :=
  C156_index_refuted exG _ _ 8 _ 78 (by decide) ⟨_, rfl, rfl⟩ (by decide +kernel)

/-- C156_size_refuted. -/
example : ∃ d sd b l, exG.decSd d = some (sd, []) ∧ sd.content = some b ∧ exSd.decPkg b = some (l, []) ∧ l.length = 1 := by
  obtain ⟨d, sd, b, l, h1, h2, h3, h4, _⟩ := C156_size_refuted exG { key := some 1 }
    (exResp (wire exK (exEnvFor 1 21 none)) (exCerts [21])) 8 (wire exK (exEnvFor 1 21 none)) 78 ⟨_, rfl, rfl⟩
    (by decide +kernel)
  exact ⟨d, sd, b, l, h1, h2, h3, by rw [h4]; decide +kernel⟩

end Verif.Env
