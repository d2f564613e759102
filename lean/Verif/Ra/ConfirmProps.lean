import Verif.Ra.Confirm
import Verif.Ra.HeaderProps
import Verif.CA.CertConfProps

/-!
# The confirmations of the client and their acceptance by the CA

Properties: C183 (the confirmation of a response is accepted), C184 (the identifiers in the confirmation), C185 (the
confirmation built for a certificate).
-/

namespace Verif.Ra

open Verif.CA

variable {C : Type}

/-- Client and CA use the same digests, and the rule for the digest of a certificate gives both the algorithm `a`,
without the help of the certificate of the CA. -/
structure Agree (cl : ClientEnv C) (ca : ConfEnv C) (c : C) (a : String) : Prop where
  client : ∀ x, cl.digestAlg c x = .ok a
  server : ca.algOf c = some a
  hash : ∀ n, cl.hash n c = .ok (ca.hash n c)
  sig : ∃ h, cl.sigHash c = .ok h
  oid : ∀ n, cl.hashOid n = .ok n

/-- The message with the header `h` and the entries `l`. -/
def confMsg {N : Type} (h : Header N) (l : List CertStatus) (prot : Option ProtType) (alg : String) (extra : List C) : Msg C :=
  { body := "certConf", pvno := h.pvno, txId := h.tid, senderNonce := h.senderNonce, recipNonce := h.recipNonce, prot := prot
    protAlg := alg, extraCerts := extra, certConf := l }

/-- A response for one certificate, with a chain of at least two certificates. -/
structure OneCert (r : CaResponse C) (c : C) (id : Int) : Prop where
  body : r.body = "ip" ∨ r.body = "cp" ∨ r.body = "kup" ∨ r.body = "ccp"
  entry : r.entries = [⟨id, .ok c⟩]
  chain : ∃ x y l, r.chain = .ok (x :: y :: l)

theorem single_eq (cl : ClientEnv C) (ca : ConfEnv C) (c : C) (a : String) (hag : Agree cl ca c a) (args : ConfArgs C)
    (id : Option Int) (x : Option C) (v : Int) (hh : args.certHash = none) (hne : ∀ n, ca.hash n c ≠ []) :
    singleStatus cl args id x v c = .ok ⟨id.getD 0, some (ca.hash (args.hashAlg.getD a) c), args.statusInfo,
      if args.hashForV3.truthy = true ∧ v = 3 then some (args.hashAlg.getD a) else none⟩ := by
  obtain ⟨sh, hs⟩ := hag.sig
  have hhash : ∀ n, certHashOf cl c (some n) false = .ok (ca.hash n c) := fun n => by
    unfold certHashOf
    rw [if_neg (by simp)]
    exact hag.hash n
  have hst : ∀ o : Option (StatusVal × Bool), statusOf (C := C) { statusInfo := o } = o := fun o => by
    cases o with
    | none => rfl
    | some s => rfl
  have key : ∀ n, prepareStatus cl
      { hashAlg := if args.hashForV3.truthy = true ∧ v = 3 then some n else none
        cert := some c, certReqId := id.getD 0, statusInfo := args.statusInfo, certHash := some (ca.hash n c) }
      = .ok ⟨id.getD 0, some (ca.hash n c), args.statusInfo,
        if args.hashForV3.truthy = true ∧ v = 3 then some n else none⟩ := fun n => by
    unfold prepareStatus statusAlg
    by_cases hv : args.hashForV3.truthy = true ∧ v = 3
    · rw [if_pos hv]
      dsimp only
      rw [hag.oid n]
      dsimp only
      unfold statusHash
      dsimp only
      rw [if_neg (by simp [hne n])]
      dsimp only
      rw [if_neg (by simp)]
      cases args.statusInfo <;> rfl
    · rw [if_neg hv]
      dsimp only
      rw [hs]
      dsimp only
      rw [if_neg (by simp)]
      dsimp only
      unfold statusHash
      cases sh with
      | none =>
        dsimp only
        rw [if_neg (by simp)]
        cases args.statusInfo <;> rfl
      | some n' =>
        dsimp only
        rw [if_neg (by simp [hne n])]
        dsimp only
        rw [if_neg (by simp)]
        cases args.statusInfo <;> rfl
  unfold singleStatus
  cases hal : args.hashAlg with
  | none =>
    dsimp only
    rw [hag.client x]
    dsimp only
    rw [if_pos (Or.inl hh), hhash]
    exact key a
  | some n =>
    dsimp only
    rw [if_pos (Or.inl hh), hhash]
    exact key n

theorem entries_one (cl : ClientEnv C) (ca : ConfEnv C) (c : C) (a : String) (hag : Agree cl ca c a) (args : ConfArgs C)
    (r : CaResponse C) (id : Int) (hr : OneCert r c id) (hh : args.certHash = none) (hc : args.cert = none)
    (hs : args.certStatus = none) (hne : ∀ n, ca.hash n c ≠ []) :
    confEntries cl args r = .ok [⟨args.certReqId.getD (max id 0), some (ca.hash (args.hashAlg.getD a) c), args.statusInfo,
      if args.hashForV3.truthy = true ∧ args.pvno.getD r.pvno = 3 then some (args.hashAlg.getD a) else none⟩] := by
  obtain ⟨x, y, l, hch⟩ := hr.chain
  unfold confEntries
  rw [if_neg (by rcases hr.body with h | h | h | h <;> rw [h] <;> decide), hc]
  dsimp only
  rw [hs]
  dsimp only
  rw [hch, hr.entry]
  unfold confLoop
  dsimp only [List.getElem?_cons_succ, List.getElem?_cons_zero, List.length_cons, List.length_nil]
  rw [single_eq cl ca c a hag args _ _ _ hh hne]
  unfold confLoop
  have : reqIdOf id (0 + 1) args.certReqId = args.certReqId.getD (max id 0) := by
    unfold reqIdOf
    cases args.certReqId with
    | some i => rfl
    | none => exact if_pos rfl
  rw [this]
  rfl

/-! ## C183 -/

/-- **C183.** The confirmation built from a response with one certificate, without a status of its own, is accepted by the
CA in exactly these cases: the identifier is that given, or of the response, and has to be 0 (−1 is taken as 0); if the
digest algorithm is written in the entry, the version 3 was given as argument; otherwise the algorithm used for the hash
gives the same digest as the one of the rule. -/
theorem C183_accepted_iff {N : Type} (cl : ClientEnv C) (ca : ConfEnv C) (c : C) (a : String) (hag : Agree cl ca c a)
    (kid : Option (List UInt8) → N → List UInt8) (dflt : N × List UInt8) (rnd : Fin 5 → List UInt8) (q : Header N)
    (ha : HArgs N) (args : ConfArgs C) (r : CaResponse C) (id : Int) (hr : OneCert r c id) (hh : args.certHash = none)
    (hc : args.cert = none) (hs : args.certStatus = none) (hst : args.statusInfo = none) (hne : ∀ n, ca.hash n c ≠ [])
    (h : Header N) (l : List CertStatus) (hb : confFromResp cl kid dflt rnd q ha args r = .ok (h, l))
    (prot : Option ProtType) (alg : String) (extra : List C) :
    buildPkiConf ca (confMsg h l prot alg extra) [c] = .ok () ↔
      ((args.certReqId = some 0 ∨ (args.certReqId = none ∧ id ≤ 0)) ∧
       ((args.hashForV3 ≠ .bool false ∧ args.pvno.getD r.pvno = 3 ∧ args.pvno = some 3) ∨
        ((args.hashForV3 = .bool false ∨ args.pvno.getD r.pvno ≠ 3) ∧
          ∀ n, args.hashAlg = some n → ca.hash n c = ca.hash a c))) := by
  unfold confFromResp at hb
  cases hcl : clientHeader kid dflt rnd q { ha with pvno := args.pvno } with
  | error e => rw [hcl] at hb; cases hb
  | ok h' =>
    rw [hcl] at hb
    dsimp only at hb
    rw [entries_one cl ca c a hag args r id hr hh hc hs hne] at hb
    dsimp only at hb
    obtain ⟨rfl, rfl⟩ := Prod.mk.inj (Except.ok.inj hb)
    have hpv : h'.pvno = args.pvno.getD 2 := by
      unfold clientHeader at hcl
      cases hca : clientArgs (rnd 0) q { ha with pvno := args.pvno } with
      | error e => rw [hca] at hcl; cases hcl
      | ok b =>
        rw [hca] at hcl
        dsimp only at hcl
        rw [← Except.ok.inj hcl]
        have hbp : b.pvno = args.pvno := by
          revert hca
          unfold clientArgs
          dsimp only
          intro hca
          split at hca
          · cases hca
          · split at hca
            · cases hca
            · split at hca
              · cases hca
              · rw [← Except.ok.inj hca]
        show b.pvno.getD 2 = _
        rw [hbp]
    have hid : args.certReqId.getD (max id 0) = 0 ↔
        (args.certReqId = some 0 ∨ (args.certReqId = none ∧ id ≤ 0)) := by
      cases args.certReqId with
      | some i => simp
      | none =>
        show max id 0 = 0 ↔ _
        refine ⟨fun h => Or.inr ⟨rfl, by omega⟩, ?_⟩
        rintro (h | ⟨_, h⟩)
        · cases h
        · omega
    have htr : args.hashForV3.truthy = true ↔ args.hashForV3 ≠ .bool false := by
      cases args.hashForV3 with
      | bool b => cases b <;> simp [Flag.truthy]
      | text b => simp [Flag.truthy]
    unfold buildPkiConf confMsg
    dsimp only
    rw [if_neg (by simp), if_neg (by simp), if_neg (by simp)]
    unfold pkiConfLoop
    dsimp only
    by_cases hi : args.certReqId.getD (max id 0) = 0
    · rw [if_neg (by simp [hi]), hst]
      dsimp only [validateCertStatus]
      rw [if_neg (by simp)]
      unfold certHashAlg
      dsimp only
      have hi' := hid.1 hi
      by_cases hv : args.hashForV3.truthy = true ∧ args.pvno.getD r.pvno = 3
      · rw [if_pos hv]
        dsimp only
        rw [hpv]
        by_cases hp : args.pvno.getD 2 = 3
        · rw [if_neg (by simp [hp])]
          dsimp only
          rw [if_neg (by simp)]
          have hp3 : args.pvno = some 3 := by
            cases hpp : args.pvno with
            | none => rw [hpp] at hp; simp at hp
            | some p => rw [hpp] at hp; simp at hp; rw [hp]
          exact ⟨fun _ => ⟨hi', Or.inl ⟨htr.1 hv.1, hv.2, hp3⟩⟩, fun _ => by unfold pkiConfLoop; rfl⟩
        · rw [if_pos hp]
          dsimp only
          constructor
          · intro h; cases h
          · rintro ⟨_, ⟨_, _, h3⟩ | ⟨h1 | h1, _⟩⟩
            · rw [h3] at hp; simp at hp
            · exact absurd h1 (htr.1 hv.1)
            · exact absurd hv.2 h1
      · rw [if_neg hv]
        dsimp only
        rw [hag.server]
        dsimp only
        have hor : args.hashForV3 = .bool false ∨ args.pvno.getD r.pvno ≠ 3 := by
          by_cases h1 : args.hashForV3 = .bool false
          · exact Or.inl h1
          · exact Or.inr (fun h3 => hv ⟨htr.2 h1, h3⟩)
        have hnot : ¬ (args.hashForV3 ≠ .bool false ∧ args.pvno.getD r.pvno = 3 ∧ args.pvno = some 3) :=
          fun ⟨h1, h3, _⟩ => hv ⟨htr.2 h1, h3⟩
        by_cases he : ca.hash (args.hashAlg.getD a) c = ca.hash a c
        · rw [if_neg (by simp [he])]
          refine ⟨fun _ => ⟨hi', Or.inr ⟨hor, fun n hn => ?_⟩⟩, fun _ => by unfold pkiConfLoop; rfl⟩
          rw [hn] at he
          exact he
        · rw [if_pos he]
          constructor
          · intro h; cases h
          · rintro ⟨_, h | ⟨_, h⟩⟩
            · exact absurd h hnot
            · exfalso
              apply he
              cases hal : args.hashAlg with
              | none => rfl
              | some n => exact h n hal
    · rw [if_pos hi]
      constructor
      · intro h; cases h
      · rintro ⟨h, _⟩
        exact absurd (hid.2 h) hi

/-- **C183.** For a pending exchange the message built with the defaults from the response is accepted and the
certificate is confirmed, where the response does not have the version 3, its values are not empty, the nonce of the
client is new and of 16 bytes and the protection and the other header fields are as the CA wants. -/
theorem C183_confirmed_partial {N D R : Type} [DecidableEq C] [DecidableEq D] (H : C → D) (cfg : ConfCfg)
    (cl : ClientEnv C) (ca : ConfEnv C) (c : C) (a : String) (hag : Agree cl ca c a) (hne : ∀ n, ca.hash n c ≠ [])
    (kid : Option (List UInt8) → N → List UInt8) (dflt : N × List UInt8) (rnd : Fin 5 → List UInt8) (q : Header N)
    (client : N) (r : CaResponse C) (id : Int) (hr : OneCert r c id) (hid : id ≤ 0) (hv : r.pvno ≠ 3)
    (tx : Bytes) (req resp : Msg C) (s : Sys C D R) (hp : Pending H tx req resp c s) (hk : resp.body ≠ "kup")
    (hstf : ca.stfl c req = .ok ())
    (hq : q.tid = some tx ∧ q.senderNonce = resp.senderNonce) (htx : tx ≠ [])
    (hn : ∃ n, resp.senderNonce = some n ∧ n ≠ []) (hans : resp.recipNonce = req.senderNonce ∧ req.senderNonce ≠ none)
    (hrnd : ∀ i, rnd i ≠ []) (hlen : (rnd 0).length = 16) (hfresh : cfg.mustBeFresh = true) (hnew : req.senderNonce ≠ some (rnd 0))
    (prot : Option ProtType) (alg : String) (extra : List C) :
    ∃ h l, confFromResp cl kid dflt rnd q { sender := client } {} r = .ok (h, l) ∧
      (verifyProt cfg req (confMsg h l prot alg extra) = .ok () → ca.hdr (confMsg h l prot alg extra) resp = .ok () →
        ∀ now, (∃ x, (s.processCertConf H cfg ca (confMsg h l prot alg extra) now).1 = .ok x) ∧
          (s.processCertConf H cfg ca (confMsg h l prot alg extra) now).2.db.getCertState H c = .confirmed) := by
  obtain ⟨n, hn, hnn⟩ := hn
  obtain ⟨p, hcl, hansw, hfill, hsn⟩ := C160_client_partial kid dflt rnd q client hrnd ⟨tx, hq.1, htx⟩ ⟨n, by rw [hq.2, hn], hnn⟩
  have he := entries_one cl ca c a hag {} r id hr rfl rfl rfl hne
  rw [if_neg (by exact fun h => hv h.2)] at he
  refine ⟨p, [⟨max id 0, some (ca.hash a c), none, none⟩], ?_, ?_⟩
  · unfold confFromResp
    have hcl' : clientHeader kid dflt rnd q { ({ sender := client } : HArgs N) with pvno := ({} : ConfArgs C).pvno } = .ok p := hcl
    rw [hcl']
    dsimp only
    rw [he]
    rfl
  · intro hprot hhdr now
    have ht : p.tid = some tx := hansw.1.trans hq.1
    have hrn : p.recipNonce = some n := hansw.2.trans (hq.2.trans hn)
    refine C95_honest_accepted H cfg ca tx req resp c s hp hk hstf _ ⟨ht, ⟨⟨?_, ?_⟩, hans, ⟨rnd 0, hsn, hlen⟩, ?_, ?_⟩, hprot,
      hhdr, rfl, ⟨_, rfl, ?_, rfl, a, hag.server, rfl, rfl⟩⟩ now
    · exact hrn.trans hn.symm
    · show p.recipNonce ≠ none
      rw [hrn]; simp
    · intro _
      show p.senderNonce ≠ _
      rw [hsn]
      exact fun h => hnew h.symm
    · intro h
      rw [hfresh] at h; cases h
    · show max id 0 = 0
      omega

/-- **C183 refuted.** The confirmation built with the defaults from a response with version 3 is always refused: the
digest algorithm is written in the entry, because of the version of the response, but the message has version 2. -/
theorem C183_version_refuted {N : Type} (cl : ClientEnv C) (ca : ConfEnv C) (c : C) (a : String) (hag : Agree cl ca c a)
    (hne : ∀ n, ca.hash n c ≠ []) (kid : Option (List UInt8) → N → List UInt8) (dflt : N × List UInt8)
    (rnd : Fin 5 → List UInt8) (q : Header N) (ha : HArgs N) (r : CaResponse C) (id : Int) (hr : OneCert r c id)
    (hid : id ≤ 0) (hv : r.pvno = 3) (h : Header N) (l : List CertStatus)
    (hb : confFromResp cl kid dflt rnd q ha {} r = .ok (h, l)) (prot : Option ProtType) (alg : String) (extra : List C) :
    buildPkiConf ca (confMsg h l prot alg extra) [c] = .error .badCertId := by
  unfold confFromResp at hb
  cases hcl : clientHeader kid dflt rnd q { ha with pvno := ({} : ConfArgs C).pvno } with
  | error e => rw [hcl] at hb; cases hb
  | ok h' =>
    rw [hcl] at hb
    dsimp only at hb
    rw [entries_one cl ca c a hag {} r id hr rfl rfl rfl hne, if_pos ⟨rfl, hv⟩] at hb
    obtain ⟨rfl, rfl⟩ := Prod.mk.inj (Except.ok.inj hb)
    have hpv : h'.pvno = 2 := by
      unfold clientHeader at hcl
      cases hca : clientArgs (rnd 0) q { ha with pvno := ({} : ConfArgs C).pvno } with
      | error e => rw [hca] at hcl; cases hcl
      | ok b =>
        rw [hca] at hcl
        dsimp only at hcl
        rw [← Except.ok.inj hcl]
        have hbp : b.pvno = none := by
          revert hca
          unfold clientArgs
          dsimp only
          intro hca
          split at hca
          · cases hca
          · split at hca
            · cases hca
            · split at hca
              · cases hca
              · rw [← Except.ok.inj hca]
        show b.pvno.getD 2 = _
        rw [hbp]; rfl
    have hm : max id 0 = 0 := by omega
    unfold buildPkiConf confMsg
    dsimp only
    rw [if_neg (by simp), if_neg (by simp), if_neg (by simp)]
    unfold pkiConfLoop
    dsimp only
    rw [if_neg (by simp [hm])]
    dsimp only [validateCertStatus]
    rw [if_neg (by simp)]
    unfold certHashAlg
    dsimp only
    rw [hpv, if_pos (by decide)]

/-- **C183 refuted.** The text `False` for `hash_for_v3` does the same as `True`. -/
theorem C183_flag_refuted (cl : ClientEnv C) (args : ConfArgs C) (r : CaResponse C) (b : Bool) :
    confEntries cl { args with hashForV3 := .text b } r = confEntries cl { args with hashForV3 := .bool true } r := by
  have hs : ∀ id x v c, singleStatus cl { args with hashForV3 := .text b } id x v c
      = singleStatus cl { args with hashForV3 := .bool true } id x v c := fun _ _ _ _ => rfl
  have hl : ∀ n ch v es g, confLoop cl { args with hashForV3 := .text b } n ch v g es
      = confLoop cl { args with hashForV3 := .bool true } n ch v g es := by
    intro n ch v es
    induction es with
    | nil => intro g; rfl
    | cons e es ih =>
      intro g
      unfold confLoop
      dsimp only
      cases e.cert with
      | error er => rfl
      | ok c =>
        dsimp only
        cases ch[1]? with
        | none => rfl
        | some y =>
          dsimp only
          rw [hs]
          cases singleStatus cl { args with hashForV3 := .bool true } _ _ _ _ with
          | error er => rfl
          | ok st =>
            dsimp only
            rw [ih]
  unfold confEntries
  dsimp only
  split
  · rfl
  · split
    · rfl
    · split
      · rfl
      · split
        · rfl
        · exact hl _ _ _ _ _

/-! ## C184 -/

theorem single_id (cl : ClientEnv C) (args : ConfArgs C) (id : Int) (x : Option C) (v : Int) (c : C) (s : CertStatus)
    (h : singleStatus cl args (some id) x v c = .ok s) : s.certReqId = id := by
  unfold singleStatus at h
  split at h
  · cases h
  · split at h
    · cases h
    · unfold prepareStatus at h
      split at h
      · cases h
      · split at h
        · cases h
        · cases h
        · split at h
          · cases h
          · rw [← Except.ok.inj h]; rfl

theorem loop_ids (cl : ClientEnv C) (args : ConfArgs C) (n : Nat) (ch : List C) (v id : Int) :
    ∀ (es : List (RespEntry C)) (l : List CertStatus), confLoop cl args n ch v (some id) es = .ok l →
      l.map (·.certReqId) = es.map fun _ => id
  | [], l, h => by
    unfold confLoop at h
    rw [← Except.ok.inj h]; rfl
  | e :: es, l, h => by
    unfold confLoop at h
    dsimp only [reqIdOf] at h
    split at h
    · cases h
    · split at h
      · cases h
      · split at h
        · cases h
        · rename_i s hs
          split at h
          · cases h
          · rename_i ss hss
            rw [← Except.ok.inj h, List.map_cons, List.map_cons, loop_ids cl args n ch v id es ss hss,
              single_id cl args id _ _ _ s hs]

/-- The identifiers of a confirmation as they should be: those of the entries of the response. -/
def OwnIds (r : CaResponse C) (l : List CertStatus) : Prop := l.map (·.certReqId) = r.entries.map (·.certReqId)

/-- **C184.** A confirmation built from the entries of a response, without an identifier given, has the identifier of the
first entry in each of its entries; for one entry, −1 is taken as 0. -/
theorem C184_first_id (cl : ClientEnv C) (args : ConfArgs C) (r : CaResponse C) (l : List CertStatus) (hc : args.cert = none)
    (hs : args.certStatus = none) (hi : args.certReqId = none) (e : RespEntry C) (es : List (RespEntry C))
    (he : r.entries = e :: es) (h : confEntries cl args r = .ok l) :
    l.map (·.certReqId) = r.entries.map fun _ => (if es = [] then max e.certReqId 0 else e.certReqId) := by
  unfold confEntries at h
  dsimp only at h
  split at h
  · cases h
  · rw [hc] at h
    dsimp only at h
    rw [hs] at h
    dsimp only at h
    split at h
    · cases h
    · rename_i ch hch
      rw [he, hi] at h
      rw [he]
      have hid : reqIdOf e.certReqId (e :: es).length none = if es = [] then max e.certReqId 0 else e.certReqId := by
        unfold reqIdOf
        cases es with
        | nil => rfl
        | cons x xs =>
          dsimp only
          rw [if_neg (by simp), if_neg (by simp)]
      unfold confLoop at h
      dsimp only at h
      rw [hid] at h
      split at h
      · cases h
      · split at h
        · cases h
        · split at h
          · cases h
          · rename_i s hs
            split at h
            · cases h
            · rename_i ss hss
              rw [← Except.ok.inj h, List.map_cons, List.map_cons, loop_ids cl args _ ch _ _ es ss hss,
                single_id cl args _ _ _ _ s hs]

/-- **C184 refuted.** Whenever the entries of a response do not all have the same identifier, the confirmation does not
have their identifiers. -/
theorem C184_own_refuted (cl : ClientEnv C) (args : ConfArgs C) (r : CaResponse C) (l : List CertStatus)
    (hc : args.cert = none) (hs : args.certStatus = none) (hi : args.certReqId = none) (e f : RespEntry C)
    (es : List (RespEntry C)) (he : r.entries = e :: es) (hf : f ∈ es) (hne : f.certReqId ≠ e.certReqId)
    (h : confEntries cl args r = .ok l) : ¬ OwnIds r l := by
  intro ho
  have hfi := C184_first_id cl args r l hc hs hi e es he h
  unfold OwnIds at ho
  rw [ho, he, List.map_inj_left] at hfi
  have h1 := hfi f (List.mem_cons_of_mem _ hf)
  rw [if_neg (by rintro rfl; simp at hf)] at h1
  exact hne h1

/-- **C184.** Where an identifier is given, each entry has it; for a certificate given it is 0 if none is given. -/
theorem C184_given_id (cl : ClientEnv C) (args : ConfArgs C) (r : CaResponse C) (l : List CertStatus)
    (hs : args.certStatus = none) (h : confEntries cl args r = .ok l) :
    (∀ c, args.cert = some c → l.map (·.certReqId) = [args.certReqId.getD 0]) ∧
    (args.cert = none → ∀ i, args.certReqId = some i → l.map (·.certReqId) = r.entries.map fun _ => i) := by
  unfold confEntries at h
  dsimp only at h
  split at h
  · cases h
  · constructor
    · intro c hc
      rw [hc] at h
      dsimp only at h
      split at h
      · cases h
      · rename_i x hx
        cases hsi : singleStatus cl args args.certReqId x (args.pvno.getD r.pvno) c with
        | error e => rw [hsi] at h; cases h
        | ok s =>
          rw [hsi] at h
          rw [← Except.ok.inj h]
          have : singleStatus cl args (some (args.certReqId.getD 0)) x (args.pvno.getD r.pvno) c = .ok s := by
            rw [← hsi]
            unfold singleStatus
            rfl
          show [s.certReqId] = _
          rw [single_id cl args _ _ _ _ s this]
    · intro hc i hi
      rw [hc] at h
      dsimp only at h
      rw [hs] at h
      dsimp only at h
      split at h
      · cases h
      · rw [hi] at h
        exact loop_ids cl args _ _ _ i _ l h

/-- **C184.** The certificate of the CA is always read from the chain of the first certificate of the response: with a
chain of one certificate no confirmation is built, even where no certificate of the CA is needed. -/
theorem C184_chain_needed (cl : ClientEnv C) (args : ConfArgs C) (r : CaResponse C) (l : List CertStatus)
    (hc : args.cert = none) (hs : args.certStatus = none) (hne : r.entries ≠ []) (h : confEntries cl args r = .ok l) :
    ∃ x y t, r.chain = .ok (x :: y :: t) := by
  unfold confEntries at h
  dsimp only at h
  split at h
  · cases h
  · rw [hc] at h
    dsimp only at h
    rw [hs] at h
    dsimp only at h
    split at h
    · cases h
    · rename_i ch hch
      cases he : r.entries with
      | nil => exact absurd he hne
      | cons e es =>
        rw [he] at h
        unfold confLoop at h
        dsimp only at h
        split at h
        · cases h
        · split at h
          · cases h
          · rename_i y hy
            match ch, hch, hy with
            | x :: y' :: t, hch, _ => exact ⟨x, y', t, hch⟩

/-! ## C185 -/

/-- **C185.** The confirmation built for a certificate, with neither hash nor status given, is accepted by the CA if and
only if the identifier is 0, the status is accepted and the digest with the algorithm given, or else of the signature
algorithm, is the one the CA calculates with the algorithm of the rule; nothing is said to the CA about the algorithm. -/
theorem C185_direct_iff (cl : ClientEnv C) (ca : ConfEnv C) (c : C) (a : String) (hserver : ca.algOf c = some a)
    (hhash : ∀ n, cl.hash n c = .ok (ca.hash n c)) (alg : Option String) (id : Int) (m : Msg C)
    (hm : m.body = "certConf") (s : CertStatus)
    (hb : confDirect cl (some c) alg none none .accepted none id = .ok s) (hms : m.certConf = [s]) :
    buildPkiConf ca m [c] = .ok () ↔
      (id = 0 ∧ ∃ n, (alg = some n ∨ (alg = none ∧ cl.sigHash c = .ok (some n))) ∧ ca.hash n c = ca.hash a c) := by
  have hs : ∃ n, (alg = some n ∨ (alg = none ∧ cl.sigHash c = .ok (some n))) ∧ s = ⟨id, some (ca.hash n c), none, none⟩ := by
    unfold confDirect at hb
    rw [if_neg (by simp)] at hb
    dsimp only at hb
    cases hx : certHashOf cl c alg false with
    | error e => rw [hx] at hb; cases hb
    | ok h =>
      rw [hx] at hb
      have hn : ∃ n, (alg = some n ∨ (alg = none ∧ cl.sigHash c = .ok (some n))) ∧ h = ca.hash n c := by
        unfold certHashOf at hx
        rw [if_neg (by simp)] at hx
        cases alg with
        | some n =>
          dsimp only at hx
          rw [hhash] at hx
          exact ⟨n, Or.inl rfl, (Except.ok.inj hx).symm⟩
        | none =>
          dsimp only at hx
          split at hx
          · cases hx
          · cases hx
          · rename_i n hsn
            rw [hhash] at hx
            exact ⟨n, Or.inr ⟨rfl, hsn⟩, (Except.ok.inj hx).symm⟩
      obtain ⟨n, h1, rfl⟩ := hn
      exact ⟨n, h1, (Except.ok.inj hb).symm⟩
  obtain ⟨n, h1, rfl⟩ := hs
  have huniq : ∀ n', (alg = some n' ∨ (alg = none ∧ cl.sigHash c = .ok (some n'))) → n' = n := by
    intro n' h2
    rcases h1 with h1 | ⟨h1, h3⟩ <;> rcases h2 with h2 | ⟨h2, h4⟩
    · rw [h1] at h2; exact (Option.some.inj h2).symm
    · rw [h1] at h2; cases h2
    · rw [h1] at h2; cases h2
    · rw [h3] at h4; exact (Option.some.inj (Except.ok.inj h4)).symm
  unfold buildPkiConf
  rw [if_neg (by simp [hm]), hms, if_neg (by simp), if_neg (by simp)]
  unfold pkiConfLoop
  dsimp only
  by_cases hi : id = 0
  · rw [if_neg (by simp [hi])]
    dsimp only [validateCertStatus]
    rw [if_neg (by simp)]
    unfold certHashAlg
    dsimp only
    rw [hserver]
    dsimp only
    by_cases he : ca.hash n c = ca.hash a c
    · rw [if_neg (by simp [he])]
      exact ⟨fun _ => ⟨hi, n, h1, he⟩, fun _ => by unfold pkiConfLoop; rfl⟩
    · rw [if_pos he]
      refine ⟨fun h => (by cases h), ?_⟩
      rintro ⟨_, n', h2, h3⟩
      rw [huniq n' h2] at h3
      exact absurd h3 he
  · rw [if_pos hi]
    exact ⟨fun h => (by cases h), fun h => absurd h.1 hi⟩

/-- **C185 refuted.** For a certificate whose signature algorithm has no separate digest no confirmation is built, though
there is an algorithm by the rule (with which `build_cert_conf_from_resp` builds it). -/
theorem C185_no_digest_refuted (cl : ClientEnv C) (c : C) (h : cl.sigHash c = .ok none) (st : StatusVal)
    (si : Option (StatusVal × Bool)) (id : Int) :
    confDirect cl (some c) none none none st si id = .error .valueError := by
  unfold confDirect
  rw [if_neg (by simp)]
  dsimp only
  unfold certHashOf
  rw [if_neg (by simp)]
  dsimp only
  rw [h]
  rfl

/-- **C185.** A rejection is accepted by the CA with any hash, and with any algorithm. -/
theorem C185_rejection (ca : ConfEnv C) (c : C) (m : Msg C) (hm : m.body = "certConf") (h : Bytes) (f : Bool)
    (al : Option String) (hms : m.certConf = [⟨0, some h, some (.rejection, f), al⟩]) :
    buildPkiConf ca m [c] = .ok () := by
  unfold buildPkiConf
  rw [if_neg (by simp [hm]), hms, if_neg (by simp), if_neg (by simp)]
  unfold pkiConfLoop
  dsimp only
  rw [if_neg (by simp)]
  dsimp only [validateCertStatus]
  rw [if_pos (by simp)]
  unfold pkiConfLoop
  rfl

/-- **C185.** With `bad_cert_id` the hash in the entry is another one than that of the certificate, wherever an entry is
made. -/
theorem C185_bad_id (cl : ClientEnv C) (a : StatusArgs C) (s t : CertStatus)
    (hg : prepareStatus cl { a with badCertId := false } = .ok s)
    (hb : prepareStatus cl { a with badCertId := true } = .ok t) :
    t.certHash ≠ s.certHash ∧ t.certReqId = s.certReqId ∧ t.status = s.status ∧ t.hashAlg = s.hashAlg := by
  have h1 : statusAlg cl { a with badCertId := true } = statusAlg cl { a with badCertId := false } := rfl
  have h2 : ∀ x, statusHash cl { a with badCertId := true } x = statusHash cl { a with badCertId := false } x := fun _ => rfl
  unfold prepareStatus at hg hb
  rw [h1] at hb
  cases h3 : statusAlg cl { a with badCertId := false } with
  | error e => rw [h3] at hg; cases hg
  | ok p =>
    obtain ⟨alg, f⟩ := p
    rw [h3] at hg hb
    dsimp only at hg hb
    rw [h2] at hb
    cases h4 : statusHash cl { a with badCertId := false } alg with
    | error e => rw [h4] at hg; cases hg
    | ok o =>
      rw [h4] at hg hb
      cases o with
      | none => cases hg
      | some h =>
        dsimp only at hg hb
        rw [if_neg (by simp)] at hg
        rw [if_pos rfl] at hb
        dsimp only at hg
        cases h with
        | nil => cases hb
        | cons b bs =>
          dsimp only [spoil] at hb
          rw [← Except.ok.inj hg, ← Except.ok.inj hb]
          refine ⟨?_, rfl, rfl, rfl⟩
          dsimp only
          intro hx
          have := (List.cons.inj (Option.some.inj hx)).1
          split at this
          · rename_i hb0; rw [hb0] at this; exact absurd this (by decide)
          · rename_i hb0; exact hb0 this.symm

/-! ## Examples -/

/-- An environment: certificates are numbers, 0 is one signed with ECDSA and SHA-256, 1 with Ed25519. -/
def exCl : ClientEnv Nat where
  sigHash c := .ok (if c = 1 then none else some "sha256")
  digestAlg c _ := .ok (if c = 1 then "sha512" else "sha256")
  hash n c := .ok [if n = "sha256" then 5 else 6, UInt8.ofNat c]
  hashOid n := .ok n

def exConfCa : ConfEnv Nat where
  hash n c := [if n = "sha256" then 5 else 6, UInt8.ofNat c]
  algOf c := some (if c = 1 then "sha512" else "sha256")
  hdr _ _ := .ok ()
  stfl _ _ := .ok ()

def exResp (c : Nat) (v : Int) (ids : List Int) : CaResponse Nat :=
  ⟨"cp", v, ids.map fun i => ⟨i, .ok c⟩, .ok [c, 9], fun x => .ok [x, 9]⟩

def exConfHdr : Header Nat := ⟨2, 1, 2, some [1], some [2], some [3], none, none⟩

/-- What the CA says to the confirmation built from a response. -/
def exConfirm (args : ConfArgs Nat) (c : Nat) (v : Int) (ids : List Int) : Except PyErr Unit :=
  match confFromResp exCl (fun k _ => k.getD []) (2, []) (fun i => [UInt8.ofNat i.1 + 1]) exConfHdr { sender := 1 } args
      (exResp c v ids) with
  | .error e => .error e
  | .ok (h, l) => buildPkiConf exConfCa (confMsg h l none "" []) [c]

/-- The identifiers of the confirmation. -/
def exConfIds (args : ConfArgs Nat) (ids : List Int) : Option (List Int) :=
  match confEntries exCl args (exResp 0 2 ids) with
  | .ok l => some (l.map (·.certReqId))
  | .error _ => none

example : Agree exCl exConfCa 0 "sha256" ∧ Agree exCl exConfCa 1 "sha512" :=
  ⟨⟨fun _ => rfl, rfl, fun _ => rfl, ⟨_, rfl⟩, fun _ => rfl⟩, ⟨fun _ => rfl, rfl, fun _ => rfl, ⟨_, rfl⟩, fun _ => rfl⟩⟩

example : exConfirm {} 0 2 [0] = .ok () ∧ exConfirm {} 1 2 [-1] = .ok () ∧
    exConfirm {} 0 3 [0] = .error .badCertId ∧ exConfirm { pvno := some 3 } 0 3 [0] = .ok () ∧
    exConfirm { hashForV3 := .bool false } 0 3 [0] = .ok () ∧
    exConfirm { hashForV3 := .text false } 0 3 [0] = .error .badCertId ∧
    exConfirm { hashAlg := some "sha512" } 0 2 [0] = .error .badCertId ∧
    exConfirm { hashAlg := some "sha512", pvno := some 3 } 0 2 [0] = .ok () ∧
    exConfirm { certReqId := some 1 } 0 2 [0] = .error .badRequest := by decide +kernel

example : exConfIds {} [4, 5, 6] = some [4, 4, 4] ∧ exConfIds {} [-1] = some [0] ∧
    exConfIds { certReqId := some 2 } [4, 5] = some [2, 2] ∧ exConfIds { cert := some 3 } [4] = some [0] := by decide +kernel

example : (confDirect exCl (some 0) none none none .accepted none 0).toOption.map (·.certHash) = some (some [5, 0]) ∧
    (confDirect exCl (some 0) (some "sha512") none none .accepted none 0).toOption.map (fun s => (s.certHash, s.hashAlg))
      = some (some [6, 0], none) ∧
    (match confDirect exCl (some 1) none none none .accepted none 0 with
      | .error .valueError => true
      | _ => false) = true := by decide +kernel

end Verif.Ra
