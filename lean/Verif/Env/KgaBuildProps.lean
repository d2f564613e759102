import Verif.Env.KgaBuild
import Verif.Env.KgaProps

/-!
# C166: central key generation from end to end
-/

namespace Verif.Env

open Verif.CA hiding Bytes Msg
open Verif.Prot Verif.Check

variable {C D A Q P N K S K' T : Type}

/-! ## Specification -/

/-- The kind of recipient for a request (RFC 9483, 4.1.6): a password, if the request is protected by a MAC with one; else
by the key of the first certificate of the request, which has the key usage for it. -/
inductive KgaKind (env : KEnv S K C) (usage : C → Except PyErr (Option (List Bool))) (m : Msg C) : RType → Prop
  | password {a : AlgId} : m.hdr.alg = some a → a.oid ≠ dhOid → a.oid ≠ kemMacOid → isSymmetric a.oid = true →
      KgaKind env usage m .pwri
  | transport {t : Prot.ProtType} {c : C} {l : List C} {k : K} {x : List Bool} : msgType env.toEnv m false = .ok t → t ≠ .mac →
      m.certs = c :: l → env.keyOf c = .ok k → env.isRsaPub k = true → usage c = .ok (some x) → x[2]? = some true →
      KgaKind env usage m .ktri
  | agreement {t : Prot.ProtType} {c : C} {l : List C} {k : K} {x : List Bool} : msgType env.toEnv m false = .ok t → t ≠ .mac →
      m.certs = c :: l → env.keyOf c = .ok k → env.isRsaPub k = false → env.isEcdhPub k = true →
      usage c = .ok (some x) → x[4]? = some true → KgaKind env usage m .kari
  | encapsulation {t : Prot.ProtType} {c : C} {l : List C} {k : K} {x : List Bool} : msgType env.toEnv m false = .ok t →
      t ≠ .mac → m.certs = c :: l → env.keyOf c = .ok k → env.isRsaPub k = false → env.isEcdhPub k = false →
      env.isKemPub k = true → usage c = .ok (some x) → x[2]? = some true → KgaKind env usage m .kemri

/-- The key that is generated for a template: of the algorithm in it, which has no key bits, or of the default. -/
inductive GeneratedFor (te : TmplEnv T C P) (dflt : Option String) : TKey → P → Prop
  | default {p : P} : te.gen ((dflt.filter (· ≠ "")).getD "rsa") = .ok p → GeneratedFor te dflt none p
  | curve {b : Bytes} {n : String} {p : P} : te.decCurve b = .ok (some n, []) → te.genEc n = .ok p →
      GeneratedFor te dflt (some (some ([1, 2, 840, 10045, 2, 1], some b), some [])) p
  | named {o : Oid} {par : Option Bytes} {n : String} {p : P} : o ≠ [1, 2, 840, 10045, 2, 1] → te.nameOf o = some n →
      te.gen n = .ok p → GeneratedFor te dflt (some (some (o, par), some [])) p

/-- What is expected of the primitives and codecs, for the authority with `key` and certificate `kga`. -/
structure KgaLaws [DecidableEq C] [DecidableEq N] (g : KgaEnv C D A Q P N K S K') (encSd : SData C D A → Bytes)
    (te : TmplEnv T C P) (dflt : Option String) (key : P) (kga : C) (l rest as : List C) (h : String) : Prop where
  hash : g.sd.keyHash key = .ok h
  signer : SdLaws g.sd key kga h
  package : ∀ p q, g.sd.qMake p "raw" = .ok q → g.sd.qVersion q = 1 ∧ g.sd.qLoad q = .ok p
  named : ∃ b, g.sd.ski kga = some b
  anchors : g.anchors = .ok as
  trusted : KgaTrusted g.ch as (kga :: l) kga rest
  signed : ∀ k p d, GeneratedFor te dflt k p →
    mkSigned g.sd key kga none none none (some [p]) (some (kga :: l)) false = .ok d → g.decSd (encSd d) = some (d, [])
  issued : ∀ t p c, GeneratedFor te dflt (te.key t) p → te.build (te.setKey t (algFor te t p) (te.bitsOf p)) = .ok c →
    g.ch.loadKey c = .ok (g.pubOf p)
  iv : ∀ iv, g.env.decIv (g.env.encIv iv) = some (iv, [])
  cbc : ∀ k iv d c, g.env.cbcEnc k iv d = .ok c → g.env.cbcDec k iv c = .ok d

/-- The client has got the answer in a message with `cert` at the place it looks at, and opens it with the defaults. -/
structure Received (a : KgaArgs S) (m : KgaMsg C) (env : KEnv S K C) (cert c : C) (e : EnvData) : Prop where
  type : a.type = none
  size : a.size = 1
  idx : a.idx = 0
  save : a.save = none
  pvno : m.pvno = 3
  cert : At m.msg.certs a.certIdx cert
  pair : KeyPairAt m 0 (wire env e) c

/-! ## Lemmas -/

theorem strictUsage (u : Except PyErr (Option (List Bool))) (i : Nat) (n : String)
    (hn : ["digitalSignature", "nonRepudiation", "keyEncipherment", "dataEncipherment", "keyAgreement", "keyCertSign",
      "cRLSign", "encipherOnly", "decipherOnly"][i]? = some n) (hs : stripL n.toList = n.toList) :
    validateKeyUsage keyUsageNames u [n.toList] .strict = .ok () ↔ ∃ x, u = .ok (some x) ∧ x[i]? = some true := by
  rw [C123_usage keyUsageNames keyUsageNames_plain]
  constructor
  · rintro (h | ⟨h, _⟩ | ⟨_, x, h1, h2⟩ | ⟨h, _⟩)
    · cases h
    · cases h
    · refine ⟨x, h1, ?_⟩
      have := h2 _ (List.mem_singleton.2 rfl)
      rw [hs] at this
      exact (C123_bits i n x hn).1 this
    · cases h
  · rintro ⟨x, h1, h2⟩
    refine .inr (.inr (.inl ⟨rfl, x, h1, fun v hv => ?_⟩))
    rw [List.mem_singleton.1 hv, hs]
    exact (C123_bits i n x hn).2 h2

theorem notAuth_ok {t t' : RType} {x : Except PyErr Unit} : notAuth t x = .ok t' ↔ t' = t ∧ x = .ok () := by
  unfold notAuth
  split
  · simp only [Except.ok.injEq, and_true]
    exact eq_comm
  · simp
  · simp

theorem msgType_mac_iff (env : Prot.Env S K C) (m : Msg C) : msgType env m false = .ok .mac ↔
    ∃ a, m.hdr.alg = some a ∧ a.oid ≠ dhOid ∧ a.oid ≠ kemMacOid ∧ isSymmetric a.oid = true := by
  unfold msgType
  cases m.hdr.alg with
  | none => simp
  | some a =>
    dsimp only
    simp only [Option.some.injEq, exists_eq_left']
    by_cases hk : a.oid = kemMacOid
    · have : protType env a.oid = .ok .kem := by unfold protType; rw [if_pos hk]
      rw [this]
      simp [hk]
    · by_cases hd : a.oid = dhOid
      · have : protType env a.oid = .ok .dh := by unfold protType; rw [if_neg hk, if_pos hd]
        rw [this]
        simp [hd]
      · by_cases hs : isSymmetric a.oid = true
        · have : protType env a.oid = .ok .mac := by unfold protType; rw [if_neg hk, if_neg hd, if_pos hs]
          rw [this]
          simp [hs, hk, hd]
        · cases hp : protType env a.oid with
          | error e => simp [hs]
          | ok t =>
            dsimp only
            have ht : t ≠ .mac := by
              intro ht
              subst ht
              unfold protType at hp
              rw [if_neg hk, if_neg hd, if_neg hs] at hp
              repeat (split at hp; · cases hp)
              cases hp
            constructor
            · intro h
              rw [if_neg (by simp)] at h
              split at h
              · cases h
              · split at h
                · cases h
                · split at h
                  · cases h
                  · split at h
                    · cases h; exact absurd rfl ht
                    · split at h
                      · cases h
                      · split at h <;> cases h
            · exact fun h => absurd h.2.2 hs

theorem certRecip_ok (env : KEnv S K C) (usage : C → Except PyErr (Option (List Bool))) (c : C) (t : RType) :
    certRecip env usage c = .ok t ↔ ∃ k, env.keyOf c = .ok k ∧ ∃ x, usage c = .ok (some x) ∧
      ((env.isRsaPub k = true ∧ t = .ktri ∧ x[2]? = some true) ∨
        (env.isRsaPub k = false ∧ env.isEcdhPub k = true ∧ t = .kari ∧ x[4]? = some true) ∨
        (env.isRsaPub k = false ∧ env.isEcdhPub k = false ∧ env.isKemPub k = true ∧ t = .kemri ∧ x[2]? = some true)) := by
  unfold certRecip
  have h2 := strictUsage (usage c) 2 "keyEncipherment" rfl (by decide +kernel)
  have h4 := strictUsage (usage c) 4 "keyAgreement" rfl (by decide +kernel)
  cases env.keyOf c with
  | error e => simp
  | ok k =>
    dsimp only
    simp only [Except.ok.injEq, exists_eq_left']
    cases hr : env.isRsaPub k with
    | true =>
      rw [if_pos rfl, notAuth_ok, h2]
      constructor
      · rintro ⟨rfl, x, hx, hb⟩; exact ⟨x, hx, .inl ⟨rfl, rfl, hb⟩⟩
      · rintro ⟨x, hx, ⟨_, rfl, hb⟩ | ⟨h, _⟩ | ⟨h, _⟩⟩
        · exact ⟨rfl, x, hx, hb⟩
        · cases h
        · cases h
    | false =>
      rw [if_neg (by simp)]
      cases he : env.isEcdhPub k with
      | true =>
        rw [if_pos rfl, notAuth_ok, h4]
        constructor
        · rintro ⟨rfl, x, hx, hb⟩; exact ⟨x, hx, .inr (.inl ⟨rfl, rfl, rfl, hb⟩)⟩
        · rintro ⟨x, hx, ⟨h, _⟩ | ⟨_, _, rfl, hb⟩ | ⟨_, h, _⟩⟩
          · cases h
          · exact ⟨rfl, x, hx, hb⟩
          · cases h
      | false =>
        rw [if_neg (by simp)]
        cases hk : env.isKemPub k with
        | true =>
          rw [if_pos rfl, notAuth_ok, h2]
          constructor
          · rintro ⟨rfl, x, hx, hb⟩; exact ⟨x, hx, .inr (.inr ⟨rfl, rfl, rfl, rfl, hb⟩)⟩
          · rintro ⟨x, hx, ⟨h, _⟩ | ⟨_, h, _⟩ | ⟨_, _, _, rfl, hb⟩⟩
            · cases h
            · cases h
            · exact ⟨rfl, x, hx, hb⟩
        | false =>
          rw [if_neg (by simp)]
          simp

theorem recipByCert_ok (env : KEnv S K C) (usage : C → Except PyErr (Option (List Bool))) (m : Msg C) (t : RType) :
    recipByCert env usage m = .ok t ↔ ∃ c l, m.certs = c :: l ∧ certRecip env usage c = .ok t := by
  unfold recipByCert firstCert
  cases m.certs with
  | nil => simp
  | cons c l =>
    constructor
    · exact fun h => ⟨c, l, rfl, h⟩
    · rintro ⟨c', l', h, h'⟩
      cases h
      exact h'

/-! ## C166: the recipient and the key -/

/-- **C166 (the kind of recipient).** The chosen kind is exactly the one for the request. -/
theorem C166_kind_iff (env : KEnv S K C) (usage : C → Except PyErr (Option (List Bool))) (m : Msg C) (t : RType) :
    recipType env usage m = .ok t ↔ KgaKind env usage m t := by
  have hm := msgType_mac_iff env.toEnv m
  unfold recipType
  constructor
  · intro h
    split at h
    · cases h
    · rename_i hmac
      obtain ⟨a, h1, h2, h3, h4⟩ := hm.1 hmac
      rw [h1] at h
      dsimp only at h
      unfold macRecip at h
      rw [if_neg h2, if_neg h3] at h
      cases h
      exact .password h1 h2 h3 h4
    · rename_i t' hne hmt
      have hne' : t' ≠ .mac := fun e => hne (by rw [e])
      obtain ⟨c, l, hc, hr⟩ := (recipByCert_ok env usage m t).1 h
      obtain ⟨k, hk, x, hx, ⟨a, rfl, b⟩ | ⟨a, b, rfl, d⟩ | ⟨a, b, c', rfl, d⟩⟩ := (certRecip_ok env usage c t).1 hr
      · exact .transport hmt hne' hc hk a hx b
      · exact .agreement hmt hne' hc hk a b hx d
      · exact .encapsulation hmt hne' hc hk a b c' hx d
  · intro h
    have hby : ∀ {t' : Prot.ProtType}, msgType env.toEnv m false = .ok t' → t' ≠ .mac → recipByCert env usage m = .ok t →
        (match msgType env.toEnv m false with
          | .error e => .error e
          | .ok .mac =>
            match m.hdr.alg with
            | none => .error .valueError
            | some a => .ok (macRecip a.oid)
          | .ok _ => recipByCert env usage m : Except PyErr RType) = .ok t := by
      intro t' h1 h2 h3
      rw [h1]
      cases t' with
      | mac => exact absurd rfl h2
      | _ => exact h3
    cases h with
    | password h1 h2 h3 h4 =>
      rw [hm.2 ⟨_, h1, h2, h3, h4⟩]
      dsimp only
      rw [h1]
      dsimp only
      unfold macRecip
      rw [if_neg h2, if_neg h3]
    | transport h1 h2 hc hk a hx b =>
      exact hby h1 h2 ((recipByCert_ok _ _ _ _).2 ⟨_, _, hc, (certRecip_ok _ _ _ _).2 ⟨_, hk, _, hx, .inl ⟨a, rfl, b⟩⟩⟩)
    | agreement h1 h2 hc hk a b hx d =>
      exact hby h1 h2
        ((recipByCert_ok _ _ _ _).2 ⟨_, _, hc, (certRecip_ok _ _ _ _).2 ⟨_, hk, _, hx, .inr (.inl ⟨a, b, rfl, d⟩)⟩⟩)
    | encapsulation h1 h2 hc hk a b c' hx d =>
      exact hby h1 h2
        ((recipByCert_ok _ _ _ _).2 ⟨_, _, hc, (certRecip_ok _ _ _ _).2 ⟨_, hk, _, hx, .inr (.inr ⟨a, b, c', rfl, d⟩)⟩⟩)

/-- **C166 (the key).** The generated key is exactly one for the template; a template with key bits is refused. -/
theorem C166_key_iff (te : TmplEnv T C P) (dflt : Option String) (k : TKey) (p : P) :
    genFor te dflt k = .ok p ↔ GeneratedFor te dflt k p := by
  have hec : ecKeyOid = [1, 2, 840, 10045, 2, 1] := rfl
  constructor
  · intro h
    rcases k with _ | ⟨_ | ⟨o, par⟩, _ | b⟩
    · refine .default ?_
      rw [← h]
      unfold genFor
      cases dflt with
      | none => rfl
      | some d =>
        by_cases hd : d = ""
        · subst hd; rfl
        · simp [hd, Option.filter]
    · cases h
    · cases h
    · cases h
    · unfold genFor at h
      dsimp only at h
      by_cases hb : b = []
      swap
      · rw [if_pos hb] at h; cases h
      subst hb
      rw [if_neg (not_not_intro rfl)] at h
      unfold genByAlg at h
      by_cases ho : o = ecKeyOid
      · rw [if_pos ho] at h
        subst ho
        unfold genEcFrom at h
        cases par with
        | none => cases h
        | some c =>
          dsimp only at h
          cases hc : te.decCurve c with
          | error e => rw [hc] at h; cases h
          | ok y =>
            obtain ⟨n, rest⟩ := y
            rw [hc] at h
            dsimp only at h
            by_cases hr : rest = []
            swap
            · rw [if_pos hr] at h; cases h
            subst hr
            rw [if_neg (not_not_intro rfl)] at h
            cases n with
            | none => cases h
            | some n => exact .curve hc h
      · rw [if_neg ho] at h
        dsimp only at h
        cases hn : te.nameOf o with
        | none => rw [hn] at h; cases h
        | some n => rw [hn] at h; exact .named ho hn h
  · intro h
    cases h with
    | default h =>
      rw [← h]
      unfold genFor
      cases dflt with
      | none => rfl
      | some d =>
        by_cases hd : d = ""
        · subst hd; rfl
        · simp [hd, Option.filter]
    | curve hc h =>
      unfold genFor genByAlg genEcFrom
      dsimp only
      rw [if_neg (not_not_intro rfl), if_pos hec.symm, hc]
      exact h
    | named ho hn h =>
      unfold genFor genByAlg
      dsimp only
      rw [← hec] at ho
      rw [if_neg (not_not_intro rfl), if_neg ho, hn]
      exact h

/-! ## C166: from end to end -/

/-- The parts of an answer. -/
theorem kgaAnswer_ok {env : KEnv S K C} {usage : C → Except PyErr (Option (List Bool))} {x448 : K → Bool}
    {sd : SdE C D A Q P} {encSd : SData C D A → Bytes} {te : TmplEnv T C P} {ca : KgaCa S C P} {gen : S} {t : T} {m : Msg C}
    {cek : Bytes} {r : Rand} {c : C} {e : EnvData}
    (h : kgaAnswer env usage x448 sd encSd te ca gen t m cek r = .ok (c, e)) :
    ∃ p kga l key ty ri d, GeneratedFor te ca.keyType (te.key t) p ∧ te.build (te.setKey t (algFor te t p) (te.bitsOf p)) = .ok c ∧
      ca.chain = some (kga :: l) ∧ ca.key = some key ∧ KgaKind env usage m ty ∧ kgaRi env x448 ca gen m cek r ty = .ok ri ∧
      mkSigned sd key kga none none none (some [p]) (some (kga :: l)) false = .ok d ∧
      buildEnv env [ri] cek (encSd d) r.iv 2 none = .ok e := by
  unfold kgaAnswer at h
  cases h0 : needsPw env m ca.pw with
  | error x => rw [h0] at h; cases h
  | ok u =>
    rw [h0] at h
    dsimp only at h
    cases h1 : ca.chain with
    | none => rw [h1] at h; cases h
    | some chain =>
      rw [h1] at h
      dsimp only at h
      cases h2 : ca.key with
      | none => rw [h2] at h; cases h
      | some key =>
        rw [h2] at h
        dsimp only at h
        unfold kgaParts genAndSet at h
        cases h3 : genFor te ca.keyType (te.key t) with
        | error x => rw [h3] at h; cases h
        | ok p =>
          rw [h3] at h
          dsimp only at h
          cases h4 : te.build (te.setKey t (algFor te t p) (te.bitsOf p)) with
          | error x => rw [h4] at h; cases h
          | ok c' =>
            rw [h4] at h
            dsimp only at h
            unfold kgaEnvelope at h
            cases h5 : recipType env usage m with
            | error x => rw [h5] at h; cases h
            | ok ty =>
              rw [h5] at h
              dsimp only at h
              cases h6 : kgaRi env x448 ca gen m cek r ty with
              | error x => rw [h6] at h; cases h
              | ok ri =>
                rw [h6] at h
                dsimp only at h
                unfold kgaSigned at h
                cases chain with
                | nil => cases h
                | cons kga l =>
                  dsimp only at h
                  cases h7 : mkSigned sd key kga none none none (some [p]) (some (kga :: l)) false with
                  | error x => rw [h7] at h; cases h
                  | ok d =>
                    rw [h7] at h
                    dsimp only at h
                    cases h8 : buildEnv env [ri] cek (encSd d) r.iv 2 none with
                    | error x => rw [h8] at h; cases h
                    | ok e' =>
                      rw [h8] at h
                      cases h
                      exact ⟨p, kga, l, key, ty, ri, d, (C166_key_iff _ _ _ _).1 h3, h4, rfl, rfl,
                        (C166_kind_iff _ _ _ _).1 h5, h6, h7, h8⟩

theorem buildEnv_first {env : KEnv S K C} {ri : Ri} {cek data iv : Bytes} {v : Int} {oid : Option Oid} {e : EnvData}
    (h : buildEnv env [ri] cek data iv v oid = .ok e) : (wire env e).infos[0]? = some (wireRi env ri) := by
  unfold buildEnv at h
  split at h
  · cases h
  · cases h; rfl

/-- **C166 (from end to end).** If the recipient gives the content encryption key to the client, the client gets the private
key of the issued certificate. -/
theorem C166_roundtrip [DecidableEq C] [DecidableEq N] [DecidableEq K'] (g : KgaEnv C D A Q P N K S K')
    {usage : C → Except PyErr (Option (List Bool))} {x448 : K → Bool} {encSd : SData C D A → Bytes} {te : TmplEnv T C P}
    {ca : KgaCa S C P} {gen : S} {t : T} {req : Msg C} {cek : Bytes} {r : Rand} {c : C} {e : EnvData} {a : KgaArgs S}
    {m : KgaMsg C} {cert : C}
    (h : kgaAnswer g.env usage x448 g.sd encSd te ca gen t req cek r = .ok (c, e))
    (hl : ∀ key kga l, ca.key = some key → ca.chain = some (kga :: l) →
      ∃ rest as h, KgaLaws g encSd te ca.keyType key kga l rest as h)
    (hk : cek.length = 32) (hr : Received a m g.env cert c e)
    (ho : ∀ ty ri, KgaKind g.env usage req ty → kgaRi g.env x448 ca gen req cek r ty = .ok ri →
      extractFrom g.env (kgaOpen a m.msg cert) (wireRi g.env ri) = .ok cek ∧
        RightUse g.env g.ch.usage a.rnd cert m.msg a.pw (wireRi g.env ri)) :
    ∃ p, openKga g a m = .ok p ∧ g.ch.loadKey c = .ok (g.pubOf p) := by
  obtain ⟨p, kga, l, key, ty, ri, d, hp, hc, h1, h2, hty, hri, hs, hb⟩ := kgaAnswer_ok h
  obtain ⟨rest, as, n, L⟩ := hl key kga l h2 h1
  obtain ⟨b, hb'⟩ := L.named
  obtain ⟨hx, hu⟩ := ho ty ri hty hri
  have hkey := L.issued t p c hp hc
  refine ⟨p, ?_, hkey⟩
  have hopen : openEnv g.env (kgaOpen a m.msg cert) (wire g.env e) = .ok (encSd d) :=
    C153_content_roundtrip g.env hb hx hr.type (by show ((a.size : Nat) : Int) = 1; rw [hr.size]; rfl)
      (by show ((a.idx : Nat) : Int) = 0; rw [hr.idx]; rfl) (.inr (.inr hk)) (L.iv _) (fun c h => L.cbc _ _ _ _ h) rfl
  exact C156_roundtrip g hs (.inr ⟨rfl, L.hash⟩) L.signer (L.package p) hb' L.anchors L.trusted (L.signed _ p d hp hs) hr.size hr.idx
    hr.save hr.pvno hr.cert hr.pair hopen (buildEnv_first hb) hu hkey

theorem kgaKind_unique {env : KEnv S K C} {usage : C → Except PyErr (Option (List Bool))} {m : Msg C} {t t' : RType}
    (h : KgaKind env usage m t) (h' : KgaKind env usage m t') : t = t' := by
  have h1 := (C166_kind_iff env usage m t).2 h
  rw [(C166_kind_iff env usage m t').2 h'] at h1
  cases h1
  rfl

/-- The recipient for the certificate of a client. -/
theorem kgaRi_cert {env : KEnv S K C} {x448 : K → Bool} {ca : KgaCa S C P} {gen : S} {m : Msg C} {cek : Bytes} {r : Rand}
    {t : RType} {ri : Ri} {c : C} {l : List C} {k : K} (ht : t ≠ .pwri) (hc : m.certs = c :: l) (hk : env.keyOf c = .ok k)
    (h : kgaRi env x448 ca gen m cek r t = .ok ri) : kgaRiFor env x448 ca gen c k cek r t = .ok ri := by
  unfold kgaRi kgaRiCert firstCert at h
  rw [if_neg ht, hc] at h
  dsimp only at h
  rw [hk] at h
  exact h

/-- **C166 (a password is needed).** Without a password, no key is generated for a request with a MAC, other than one of a DH
or KEM key. -/
theorem C166_needs_password {env : KEnv S K C} {usage : C → Except PyErr (Option (List Bool))} {x448 : K → Bool}
    {sd : SdE C D A Q P} {encSd : SData C D A → Bytes} {te : TmplEnv T C P} {ca : KgaCa S C P} {gen : S} {t : T} {m : Msg C}
    {cek : Bytes} {r : Rand} {a : Prot.AlgId} (ha : m.hdr.alg = some a) (hs : isSymmetric a.oid = true)
    (hd : a.oid ≠ [1, 2, 840, 113533, 7, 66, 30]) (hk : a.oid ≠ [1, 2, 840, 113533, 7, 66, 16]) (hp : ca.pw = none) :
    kgaAnswer env usage x448 sd encSd te ca gen t m cek r = .error .valueError := by
  have h1 := (msgType_mac_iff env.toEnv m).2 ⟨a, ha, hd, hk, hs⟩
  unfold kgaAnswer needsPw
  rw [h1]
  dsimp only
  rw [ha]
  dsimp only
  rw [hp, if_pos ⟨rfl, hd, hk⟩]

/-- **C166 (OAEP).** The content encryption key for an RSA certificate is encrypted with OAEP. -/
theorem C166_oaep {env : KEnv S K C} {x448 : K → Bool} {ca : KgaCa S C P} {gen : S} {m : Msg C} {cek : Bytes} {r : Rand}
    {ri : Ri} (h : kgaRi env x448 ca gen m cek r .ktri = .ok ri) :
    ∃ x a, ri = .ktri x ∧ x.alg = some a ∧ a.oid = [1, 2, 840, 113549, 1, 1, 7] := by
  unfold kgaRi kgaRiCert at h
  rw [if_neg (by decide)] at h
  cases h1 : firstCert m with
  | error e => rw [h1] at h; cases h
  | ok c =>
    rw [h1] at h
    dsimp only at h
    cases h2 : env.keyOf c with
    | error e => rw [h2] at h; cases h
    | ok k =>
      rw [h2] at h
      simp only [kgaRiFor] at h
      split at h
      · cases h
      obtain ⟨x, hb, rfl⟩ := map_ok h
      unfold buildKtri at hb
      split at hb
      swap
      · cases hb
      unfold ktriAlg at hb
      rw [if_pos rfl] at hb
      cases h3 : oaepPad env (oaepOut env) with
      | error e => rw [h3] at hb; cases hb
      | ok p =>
        rw [h3] at hb
        dsimp only at hb
        cases h4 : env.rsaEnc k p r.rnd cek with
        | error e => rw [h4] at hb; cases hb
        | ok ek =>
          rw [h4] at hb
          dsimp only at hb
          cases h5 : ridOr env none ca.protCert none with
          | error e => rw [h5] at hb; cases hb
          | ok rid =>
            rw [h5] at hb
            cases hb
            exact ⟨_, _, rfl, rfl, rfl⟩

/-- **C166 (RSA).** A client with an RSA certificate gets the private key, if the certificate it looks at in the response is the
one of the protection of the CA. -/
theorem C166_rsa [DecidableEq C] [DecidableEq N] [DecidableEq K'] (g : KgaEnv C D A Q P N K S K')
    {usage : C → Except PyErr (Option (List Bool))} {x448 : K → Bool} {encSd : SData C D A → Bytes} {te : TmplEnv T C P}
    {ca : KgaCa S C P} {gen : S} {t : T} {req : Msg C} {cek : Bytes} {r : Rand} {c : C} {e : EnvData} {a : KgaArgs S}
    {m : KgaMsg C} {cert client : C} {l : List C} {k : K} {s : S}
    (h : kgaAnswer g.env usage x448 g.sd encSd te ca gen t req cek r = .ok (c, e))
    (hl : ∀ key kga l, ca.key = some key → ca.chain = some (kga :: l) →
      ∃ rest as h, KgaLaws g encSd te ca.keyType key kga l rest as h)
    (hk : cek.length = 32) (hr : Received a m g.env cert c e) (hcert : ca.protCert = some cert)
    (hty : KgaKind g.env usage req .ktri) (hcl : req.certs = client :: l) (hck : g.env.keyOf client = .ok k)
    (hs : a.key = some s) (hrsa : g.env.isRsa s = true) (hnx : g.env.isX s = false)
    (hsp : g.env.special [2, 16, 840, 1, 101, 3, 4, 2, 1] = none) (hsp' : g.env.special [2, 16, 840, 1, 101, 3, 4, 2, 2] = none)
    (hoa : ∀ x, g.env.decOaep (g.env.encOaep x) = some (x, [])) (hoi : ∀ o, g.env.decOid (g.env.encOid o) = some (o, []))
    (hdec : ∀ p x, g.env.rsaEnc k p r.rnd cek = .ok x → g.env.rsaDec s p x = .ok cek) :
    ∃ p, openKga g a m = .ok p ∧ g.ch.loadKey c = .ok (g.pubOf p) := by
  refine C166_roundtrip g h hl hk hr (fun ty ri h1 h2 => ?_)
  cases kgaKind_unique hty h1
  have h3 := kgaRi_cert (by decide) hcl hck h2
  simp only [kgaRiFor] at h3
  split at h3
  · cases h3
  · rw [hcert] at h3
    obtain ⟨x, hb, rfl⟩ := map_ok h3
    refine ⟨?_, trivial⟩
    show asymExtract g.env (kgaOpen a m.msg cert) (.ktri x) = .ok cek
    rw [asym_ok]
    exact ⟨nofun, s, none, hs, .none rfl hnx, C150_roundtrip g.env hb hsp hsp' hoa hoi hrsa hdec⟩

/-- **C166 (key agreement).** A client with an EC certificate gets the private key, if the certificate it looks at in the
response is the one the CA has used, with the key usage `keyAgreement`. -/
theorem C166_ec [DecidableEq C] [DecidableEq N] [DecidableEq K'] (g : KgaEnv C D A Q P N K S K')
    {usage : C → Except PyErr (Option (List Bool))} {x448 : K → Bool} {encSd : SData C D A → Bytes} {te : TmplEnv T C P}
    {ca : KgaCa S C P} {gen : S} {t : T} {req : Msg C} {cek : Bytes} {r : Rand} {c : C} {e : EnvData} {a : KgaArgs S}
    {m : KgaMsg C} {cert client : C} {l : List C} {k k' : K} {s sca : S} {x : List Bool}
    (h : kgaAnswer g.env usage x448 g.sd encSd te ca gen t req cek r = .ok (c, e))
    (hl : ∀ key kga l, ca.key = some key → ca.chain = some (kga :: l) →
      ∃ rest as h, KgaLaws g encSd te ca.keyType key kga l rest as h)
    (hk : cek.length = 32) (hr : Received a m g.env cert c e) (hca : ca.ecc = (some cert, some sca))
    (hty : KgaKind g.env usage req .kari) (hcl : req.certs = client :: l) (hck : g.env.keyOf client = .ok k)
    (hec : g.env.isEcPub k = true) (hnx : g.env.isXPub k = false) (hs : a.key = some s) (hse : g.env.isEcdh s = true)
    (hsx : g.env.isX s = false) (hcc : g.env.keyOf cert = .ok k') (hk' : g.env.isEcdhPub k' = true)
    (hdh : g.env.dh s k' false = g.env.dh sca k false) (hne : ∀ n x, g.env.H n x ≠ [])
    (hwa : ∀ w, g.env.decWrapAlg (g.env.encWrapAlg w) = some (w, []))
    (hw : ∀ kek ek, g.env.wrap kek cek = .ok ek → g.env.unwrap kek ek = .ok cek)
    (hu : g.ch.usage cert = .ok (some x)) (hx : x[4]? = some true) :
    ∃ p, openKga g a m = .ok p ∧ g.ch.loadKey c = .ok (g.pubOf p) := by
  refine C166_roundtrip g h hl hk hr (fun ty ri h1 h2 => ?_)
  cases kgaKind_unique hty h1
  have h3 := kgaRi_cert (by decide) hcl hck h2
  change kgaKari g.env x448 ca gen k cek r = .ok ri at h3
  unfold kgaKari at h3
  split at h3
  · cases h3
  · have hp : pairFor g.env x448 ca k = some (cert, sca) := by
      unfold pairFor eccPair bothOf
      rw [if_pos hec, hca]
    unfold kariPair at h3
    rw [hp] at h3
    dsimp only at h3
    cases hdd : g.env.dh sca k false with
    | error x => rw [hdd] at h3; cases h3
    | ok z =>
      rw [hdd] at h3
      dsimp only at h3
      obtain ⟨y, hb, rfl⟩ := map_ok h3
      refine ⟨?_, ⟨x, hu, hx⟩⟩
      show asymExtract g.env (kgaOpen a m.msg cert) (.kari y) = .ok cek
      rw [asym_ok]
      refine ⟨nofun, s, none, hs, .none rfl hsx, ?_⟩
      have := C151_roundtrip_dh g.env (kc := cert) (pop := false) hne hb rfl rfl (fun h => by rw [hnx] at h; cases h) hwa hw hse
        hcc hk' nofun hdh
      exact this

/-- **C166 (encapsulation, partial).** A client with a KEM certificate gets the private key, if it finds its own certificate in
the response, where the certificate of the CA is expected. -/
theorem C166_kem_partial [DecidableEq C] [DecidableEq N] [DecidableEq K'] (g : KgaEnv C D A Q P N K S K')
    {usage : C → Except PyErr (Option (List Bool))} {x448 : K → Bool} {encSd : SData C D A → Bytes} {te : TmplEnv T C P}
    {ca : KgaCa S C P} {gen : S} {t : T} {req : Msg C} {cek : Bytes} {r : Rand} {c : C} {e : EnvData} {a : KgaArgs S}
    {m : KgaMsg C} {client : C} {l : List C} {k : K} {s : S}
    (h : kgaAnswer g.env usage x448 g.sd encSd te ca gen t req cek r = .ok (c, e))
    (hl : ∀ key kga l, ca.key = some key → ca.chain = some (kga :: l) →
      ∃ rest as h, KgaLaws g encSd te ca.keyType key kga l rest as h)
    (hk : cek.length = 32) (hr : Received a m g.env client c e)
    (hty : KgaKind g.env usage req .kemri) (hcl : req.certs = client :: l) (hck : g.env.keyOf client = .ok k)
    (hs : a.key = some s) (hrk : g.env.isRsaKemPub k = false) (hrd : g.env.isRsaDecap s = false)
    (hoid : g.env.kemOidE s = g.env.kemOidPubE k) (hok : ∀ x, g.env.kemOidPubE k = .ok x → g.env.isKemOid x = true)
    (hd : ∀ ss ct, g.env.encaps k .plain r.rnd = .ok (ss, ct) → g.env.decaps s .plain ct = .ok ss)
    (hal : ∀ x, g.env.decAlg (g.env.encHashAlg x) = some (x, []))
    (hw : ∀ kek ek, g.env.wrap kek cek = .ok ek → g.env.unwrap kek ek = .ok cek)
    (hde : ∀ k, g.env.decKemri (g.env.encKemri k) = some (wireKemri g.env k, [])) :
    ∃ p, openKga g a m = .ok p ∧ g.ch.loadKey c = .ok (g.pubOf p) := by
  refine C166_roundtrip g h hl hk hr (fun ty ri h1 h2 => ?_)
  cases kgaKind_unique hty h1
  have h3 := kgaRi_cert (by decide) hcl hck h2
  simp only [kgaRiFor] at h3
  split at h3
  · cases h3
  · obtain ⟨x, hb, rfl⟩ := map_ok h3
    refine ⟨?_, trivial⟩
    show oriCek g.env oriKemOid (.raw (g.env.encKemri x)) (some client) a.key false = .ok cek
    rw [hs]
    exact (C152_ori g.env (hde x) (C152_roundtrip g.env hb rfl (by show "hkdf" ≠ "pbkdf2"; decide) rfl rfl hrk hrd hoid hok hd hal hw)).2.1

/-- **C166 (password).** A client that shares a password with the CA gets the private key, if the response is protected with it,
with another salt than the one of the envelope. -/
theorem C166_password [DecidableEq C] [DecidableEq N] [DecidableEq K'] (g : KgaEnv C D A Q P N K S K')
    {usage : C → Except PyErr (Option (List Bool))} {x448 : K → Bool} {encSd : SData C D A → Bytes} {te : TmplEnv T C P}
    {ca : KgaCa S C P} {gen : S} {t : T} {req : Msg C} {cek : Bytes} {r : Rand} {c : C} {e : EnvData} {a : KgaArgs S}
    {m : KgaMsg C} {cert : C} {w salt : Bytes} {alg : AlgId}
    (h : kgaAnswer g.env usage x448 g.sd encSd te ca gen t req cek r = .ok (c, e))
    (hl : ∀ key kga l, ca.key = some key → ca.chain = some (kga :: l) →
      ∃ rest as h, KgaLaws g encSd te ca.keyType key kga l rest as h)
    (hk : cek.length = 32) (hr : Received a m g.env cert c e) (hty : KgaKind g.env usage req .pwri) (hpw : ca.pw = some w)
    (hpw' : a.pw = some w) (hv : verifyProt g.env.toEnv a.rnd m.msg none (some w) none none false = .ok ())
    (halg : m.msg.hdr.alg = some alg) (hsalt : ProtSalt g.env.toMacEnv alg salt) (hne : r.salt ≠ salt)
    (hc : ∀ q, g.env.decPbkdf2 (g.env.encPbkdf2 q) = some (q, []))
    (hw : ∀ k x, g.env.wrap k cek = .ok x → g.env.unwrap k x = .ok cek) :
    ∃ p, openKga g a m = .ok p ∧ g.ch.loadKey c = .ok (g.pubOf p) := by
  refine C166_roundtrip g h hl hk hr (fun ty ri h1 h2 => ?_)
  cases kgaKind_unique hty h1
  unfold kgaRi kgaPwri at h2
  rw [if_pos rfl, hpw] at h2
  obtain ⟨x, hb, rfl⟩ := map_ok h2
  refine ⟨?_, ⟨w, hpw', hv⟩⟩
  show extractFrom g.env (kgaOpen a m.msg cert) (.pwri (wirePwri g.env x)) = .ok cek
  unfold extractFrom
  show (match a.pw with | none => _ | some w => pwriCek g.env (some m.msg) w (wirePwri g.env x) none) = .ok cek
  rw [hpw']
  exact C149_roundtrip g.env (o := {}) rfl rfl rfl rfl rfl hb (.msg halg hsalt) hne hc hw

/-! ## Disagreements -/

theorem at_unique {α : Type} {l : List α} {i : Int} {x y : α} (h : At l i x) (h' : At l i y) : x = y := by
  obtain ⟨n, hn, h1⟩ := h
  obtain ⟨n', hn', h2⟩ := h'
  have : n = n' := by omega
  subst this
  rw [h1] at h2
  cases h2
  rfl

theorem ridOf_unique {env : KEnv S K C} {c c' : C} {r : Rid} (h : RidOf env c r) (h' : RidOf env c' r) :
    env.skiOf c = env.skiOf c' ∧ (env.skiOf c = none → env.issuerOf c = env.issuerOf c' ∧ env.serialOf c = env.serialOf c') := by
  generalize hr : r = r' at h'
  cases h with
  | ski hs =>
    cases h' with
    | ski hs' => cases hr; rw [hs, hs']; exact ⟨rfl, nofun⟩
    | iss _ => cases hr
  | iss hs =>
    cases h' with
    | ski _ => cases hr
    | iss hs' =>
      injection hr with h1 h2
      rw [hs, hs']
      exact ⟨rfl, fun _ => ⟨h1, h2⟩⟩

theorem kemCek_named {env : KEnv S K C} {k : Kemri} {c : C} {s : Option S} {cek : Bytes}
    (h : kemCek env k (some c) s false false = .ok cek) : ∃ r, k.rid = some r ∧ RidOf env c r := by
  cases s with
  | none => exact absurd h (C152_key env k (some c) false false cek)
  | some s =>
    unfold kemCek at h
    rw [if_neg (by simp)] at h
    cases hc : checkKemri env k (some c) (some s) false false with
    | error e => rw [hc] at h; cases h
    | ok p =>
      obtain ⟨r, o, m, _, hr, hrid, _⟩ := (checkKemri_iff env k (some c) s false false p).1 hc
      obtain ⟨c', h1, h2⟩ := hrid rfl
      cases h1
      exact ⟨r, hr, h2⟩

theorem buildKemri_named {env : KEnv S K C} {key : K} {c : C} {cek rnd salt : Bytes} {o : KemOpts} {k : Kemri}
    (h : buildKemri env key (some c) cek rnd salt none none o = .ok k) : ∃ r, k.rid = some r ∧ RidOf env c r := by
  obtain ⟨r, hr, hrid⟩ := buildRid_of env c
  unfold buildKemri ridOr at h
  dsimp only at h
  rw [hr] at h
  dsimp only at h
  refine ⟨r, ?_, hrid⟩
  split at h
  · cases h
  · split at h
    · cases h
    · split at h
      · cases h
      · split at h
        · cases h
        · cases h; rfl

/-- **C166 (refuted).** A client with a KEM certificate cannot open what it gets if the certificate it looks at in the response has
another subject key identifier than its own: the CA names the client, where the client expects the certificate of the CA, as
it is for the other kinds. -/
theorem C166_kem_refuted [DecidableEq C] [DecidableEq N] [DecidableEq K'] (g : KgaEnv C D A Q P N K S K')
    {usage : C → Except PyErr (Option (List Bool))} {x448 : K → Bool} {encSd : SData C D A → Bytes} {te : TmplEnv T C P}
    {ca : KgaCa S C P} {gen : S} {t : T} {req : Msg C} {cek : Bytes} {r : Rand} {c : C} {e : EnvData} {a : KgaArgs S}
    {m : KgaMsg C} {client cert : C} {l : List C} {k : K}
    (h : kgaAnswer g.env usage x448 g.sd encSd te ca gen t req cek r = .ok (c, e)) (hr : Received a m g.env cert c e)
    (hty : KgaKind g.env usage req .kemri) (hcl : req.certs = client :: l) (hck : g.env.keyOf client = .ok k)
    (hde : ∀ k, g.env.decKemri (g.env.encKemri k) = some (wireKemri g.env k, []))
    (hne : g.env.skiOf client ≠ g.env.skiOf cert) (p : P) : openKga g a m ≠ .ok p := by
  intro ho
  obtain ⟨_, cert', e', c', d, sd, ri', hat, hkp, hopen, _⟩ := (C156_iff g a m p).1 ho
  cases at_unique hat hr.cert
  obtain ⟨l1, h1, h2⟩ := hkp
  obtain ⟨l2, h3, h4⟩ := hr.pair
  rw [h1] at h3
  cases h3
  rw [hr.idx, h4] at h2
  cases h2
  obtain ⟨_, _, _, _, ty, ri, sd', _, _, _, _, h1', hri, _, hb⟩ := kgaAnswer_ok h
  cases kgaKind_unique hty h1'
  have h3 := kgaRi_cert (by decide) hcl hck hri
  simp only [kgaRiFor] at h3
  split at h3
  · cases h3
  · obtain ⟨x, hx, rfl⟩ := map_ok h3
    obtain ⟨rid, hrid, hrc⟩ := buildKemri_named hx
    unfold openEnv at hopen
    have htype : (kgaOpen a m.msg cert).type = none := hr.type
    rw [if_neg (by rw [htype]; simp), if_neg (by rw [htype]; simp)] at hopen
    unfold openAny at hopen
    split at hopen
    · cases hopen
    · have hs : sized (wire g.env e) (kgaOpen a m.msg cert).size 0 = .ok (wireRi g.env (.ori oriKemOid (.obj x))) := by
        refine (sized_iff _ _ _ _).mpr ⟨?_, 0, Or.inl rfl, buildEnv_first hb⟩
        show ((wire g.env e).infos.length : Int) = ((a.size : Nat) : Int)
        rw [hr.size]
        unfold buildEnv at hb
        split at hb
        · cases hb
        · cases hb; rfl
      unfold extractCek at hopen
      rw [hs] at hopen
      dsimp only at hopen
      split at hopen
      · cases hopen
      · rename_i cek' hcek
        change oriCek g.env oriKemOid (.raw (g.env.encKemri x)) (some cert) a.key false = .ok cek' at hcek
        unfold oriCek decodeKemri at hcek
        rw [if_neg (not_not_intro rfl)] at hcek
        dsimp only at hcek
        rw [hde] at hcek
        dsimp only at hcek
        rw [if_neg (not_not_intro rfl)] at hcek
        dsimp only at hcek
        obtain ⟨rid', hrid', hrc'⟩ := kemCek_named hcek
        have : rid' = rid := by
          have hw : (wireKemri g.env x).rid = x.rid := rfl
          rw [hw, hrid] at hrid'
          cases hrid'
          rfl
        subst this
        exact hne (ridOf_unique hrc hrc').1

/-- **C166 (refuted).** For key transport the envelope names the certificate of the CA as the one of the recipient (RFC 5652,
6.2.1, and RFC 9483, 4.1.6.1: the certificate of the recipient). -/
theorem C166_rid_refuted {env : KEnv S K C} {x448 : K → Bool} {ca : KgaCa S C P} {gen : S} {req : Msg C} {cek : Bytes}
    {r : Rand} {cert client : C} {l : List C} {k : K} {ri : Ri} (hcl : req.certs = client :: l)
    (hck : env.keyOf client = .ok k) (hcert : ca.protCert = some cert) (hne : env.skiOf client ≠ env.skiOf cert)
    (h : kgaRi env x448 ca gen req cek r .ktri = .ok ri) :
    ∃ x rid, ri = .ktri x ∧ x.rid = some rid ∧ RidOf env cert rid ∧ ¬ RidOf env client rid := by
  have h3 := kgaRi_cert (by decide) hcl hck h
  simp only [kgaRiFor] at h3
  split at h3
  · cases h3
  · rw [hcert] at h3
    obtain ⟨x, hx, rfl⟩ := map_ok h3
    obtain ⟨rid, hrid, hrc⟩ := buildRid_of env cert
    refine ⟨x, rid, rfl, ?_, hrc, fun hc => hne (ridOf_unique hc hrc).1⟩
    unfold buildKtri ridOr at hx
    split at hx
    · split at hx
      · cases hx
      · split at hx
        · cases hx
        · dsimp only at hx
          rw [hrid] at hx
          cases hx
          rfl
    · cases hx

/-- **C166 (refuted).** A request protected with a MAC from a Diffie-Hellman exchange or an encapsulation is treated as if it were
signed: the branches for these are never reached, and without a certificate no key is generated. -/
theorem C166_dh_refuted (env : KEnv S K C) (usage : C → Except PyErr (Option (List Bool))) (m : Msg C) (a : AlgId)
    (ha : m.hdr.alg = some a) (hd : a.oid = dhOid ∨ a.oid = kemMacOid) :
    recipType env usage m = recipByCert env usage m ∧ (m.certs = [] → recipType env usage m = .error .pyasn1Error) := by
  have key : recipType env usage m = recipByCert env usage m := by
    have hdk : dhOid ≠ kemMacOid := by decide +kernel
    unfold recipType msgType
    rw [ha]
    dsimp only
    rcases hd with h | h
    · have : protType env.toEnv a.oid = .ok .dh := by
        unfold protType
        rw [h, if_neg hdk, if_pos rfl]
      rw [this]
      simp
    · have : protType env.toEnv a.oid = .ok .kem := by
        unfold protType
        rw [if_pos h]
      rw [this]
      simp
  refine ⟨key, fun hc => ?_⟩
  rw [key]
  unfold recipByCert firstCert
  rw [hc]

/-! ## Examples -/

/-- Templates are their public keys; the generated key is 8, and certificates have the number 70 and the key. -/
def exTe : TmplEnv TKey Nat Nat where
  key := id
  setKey := fun _ a b => some (some a, some b)
  nameOf := fun o => if o = [1, 2] then some "ed25519" else none
  decCurve := fun b => if b = [1] then .ok (some "secp256r1", []) else .ok (none, [])
  gen := fun _ => .ok 8
  genEc := fun _ => .ok 8
  algOf := fun _ => ([1, 2], none)
  bitsOf := fun p => [UInt8.ofNat p]
  build := fun t => match t with
    | some (some _, some [b]) => .ok (70 + b.toNat)
    | _ => .error .badCertTemplate

/-- The CA: its protection has the certificate 27, the one for key agreement is 33. -/
def exCa : KgaCa Nat Nat Nat :=
  { protCert := some 27, ecc := (some 33, some 3), chain := some [56, 90], key := some 6, pw := some [77] }

/-- Certificates up to 19 are for encipherment, the others for key agreement. -/
def exUsage (c : Nat) : Except PyErr (Option (List Bool)) :=
  if c < 20 then .ok (some [false, false, true]) else .ok (some [false, false, false, false, true])

/-- A signed request with a certificate. -/
def exKgaReq (c : Nat) : Msg Nat :=
  ⟨⟨[], true, some ⟨[1, 2, 840, 113549, 1, 1, 11], .absent⟩, none, []⟩, none, none, [c]⟩

def exCek32 : Bytes := List.replicate 32 5

/-- The answer to a request. -/
def exAnswer (req : Msg Nat) : Except PyErr (Nat × EnvData) :=
  kgaAnswer exK exUsage (fun _ => false) exSd (fun _ => exData) exTe exCa 3 none req exCek32 exRand

/-- The envelope for a request. -/
def exAnswerEnv (req : Msg Nat) : EnvData := ((exAnswer req).toOption.getD (0, exNoEnv)).2

theorem exGen8 {d : Option String} {k : TKey} {p : Nat} (h : GeneratedFor exTe d k p) : p = 8 := by
  cases h with
  | default h => cases h; rfl
  | curve _ h => cases h; rfl
  | named _ _ h => cases h; rfl

theorem exKga_laws : ∀ key kga l, exCa.key = some key → exCa.chain = some (kga :: l) →
    ∃ rest as h, KgaLaws exG (fun _ => exData) exTe exCa.keyType key kga l rest as h := by
  intro key kga l h1 h2
  cases h1
  cases h2
  refine ⟨[90], [90], "sha256", rfl, exSd_laws, fun p q h => ?_, ⟨[56], by decide⟩, rfl, exKga_trusted, fun k p d hp h => ?_,
    fun t p c hp h => ?_, fun iv => codec_law iv, exK_cbc⟩
  · cases h; exact ⟨rfl, rfl⟩
  · cases exGen8 hp
    have : mkSigned exSd 6 56 none none none (some [8]) (some [56, 90]) false = .ok exSigned := by decide +kernel
    change mkSigned exSd 6 56 none none none (some [8]) (some [56, 90]) false = .ok d at h
    rw [this] at h
    cases h
    decide +kernel
  · cases exGen8 hp
    cases h
    decide

/-- C166_rsa: the client with certificate 11 and the RSA key 1 gets the key 8 for the certificate 78. -/
example : exAnswer (exKgaReq 11) = .ok (78, exAnswerEnv (exKgaReq 11)) ∧
    openKga exG { key := some 1 } (exResp (wire exK (exAnswerEnv (exKgaReq 11))) (exCerts [27])) = .ok 8 := by
  have h : exAnswer (exKgaReq 11) = .ok (78, exAnswerEnv (exKgaReq 11)) := by decide +kernel
  refine ⟨h, ?_⟩
  obtain ⟨p, hp, hk⟩ := C166_rsa exG (a := { key := some 1 }) (cert := 27) (client := 11) (k := 1) (s := 1)
    (m := exResp (wire exK (exAnswerEnv (exKgaReq 11))) (exCerts [27])) h exKga_laws rfl
    ⟨rfl, rfl, rfl, rfl, rfl, ⟨0, .inl rfl, rfl⟩, ⟨_, rfl, rfl⟩⟩ rfl
    ((C166_kind_iff _ _ _ _).1 (by decide +kernel)) rfl rfl rfl (by decide) (by decide) rfl rfl codec_law codec_law
    (by intro p x h; cases h; exact stripPre_append _ _)
  cases hk
  exact hp

/-- C166_ec: the client with certificate 22 and the EC key 2. -/
example : exAnswer (exKgaReq 22) = .ok (78, exAnswerEnv (exKgaReq 22)) ∧
    openKga exG { key := some 2 } (exResp (wire exK (exAnswerEnv (exKgaReq 22))) (exCerts [33])) = .ok 8 := by
  have h : exAnswer (exKgaReq 22) = .ok (78, exAnswerEnv (exKgaReq 22)) := by decide +kernel
  refine ⟨h, ?_⟩
  obtain ⟨p, hp, hk⟩ := C166_ec exG (a := { key := some 2 }) (cert := 33) (client := 22) (k := 2) (s := 2) (k' := 3) (sca := 3)
    (x := [false, false, false, false, true])
    (m := exResp (wire exK (exAnswerEnv (exKgaReq 22))) (exCerts [33])) h exKga_laws rfl
    ⟨rfl, rfl, rfl, rfl, rfl, ⟨0, .inl rfl, rfl⟩, ⟨_, rfl, rfl⟩⟩ rfl
    ((C166_kind_iff _ _ _ _).1 (by decide +kernel)) rfl rfl (by decide) (by decide) rfl (by decide) (by decide) rfl (by decide)
    (by decide) (by intro n x; exact nofun) codec_law (fun k w h => exK_wrap k _ w h) rfl rfl
  cases hk
  exact hp

/-- C166_kem_partial and C166_kem_refuted: the client with certificate 16 and the KEM key 6, with its own certificate in the
response, and with the one of the CA. -/
example : openKga exG { key := some 6 } (exResp (wire exK (exAnswerEnv (exKgaReq 16))) (exCerts [16])) = .ok 8 ∧
    openKga exG { key := some 6 } (exResp (wire exK (exAnswerEnv (exKgaReq 16))) (exCerts [27])) ≠ .ok 8 := by
  have h : exAnswer (exKgaReq 16) = .ok (78, exAnswerEnv (exKgaReq 16)) := by decide +kernel
  constructor
  · decide +kernel
  · exact C166_kem_refuted exG (cert := 27) (client := 16) (k := 6) h
      ⟨rfl, rfl, rfl, rfl, rfl, ⟨0, .inl rfl, rfl⟩, ⟨_, rfl, rfl⟩⟩ ((C166_kind_iff _ _ _ _).1 (by decide +kernel)) rfl rfl
      exK_kemri (by decide) 8

/-- C166_password: the request and the response are protected with the password. -/
example : (exAnswer (exPwMsg [])).toOption.isSome = true ∧
    openKga exG { pw := some [77] } (exResp (wire exK (exAnswerEnv (exPwMsg []))) { exPwMsg exPwProt with certs := [27] }) =
      .ok 8 ∧
    openKga exG { pw := some [78] } (exResp (wire exK (exAnswerEnv (exPwMsg []))) { exPwMsg exPwProt with certs := [27] }) ≠
      .ok 8 := by
  refine ⟨by decide +kernel, by decide +kernel, by decide +kernel⟩

/-- C166_key_iff: an EC key, a named one, and a template with key bits. -/
example : genFor exTe none (some (some ([1, 2, 840, 10045, 2, 1], some [1]), some [])) = .ok 8 ∧
    genFor exTe none (some (some ([1, 2], none), some [])) = .ok 8 ∧ genFor exTe none none = .ok 8 ∧
    genFor exTe none (some (some ([1, 2], none), some [4])) = .error .badPOP ∧
    genFor exTe none (some (some ([1, 3], none), some [])) = .error .badCertTemplate ∧
    genFor exTe none (some (some ([1, 2, 840, 10045, 2, 1], some [2]), some [])) = .error .badAlg := by decide +kernel

end Verif.Env
