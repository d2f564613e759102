import Verif.Prot.MatchRefuted
import Verif.Prot.KemProps

/-!
# C147: comparing the signatures of messages
-/

namespace Verif.Prot

open Verif.CA

variable {S K C : Type}

/-! ## Lemmas -/

theorem matchHash_trad (env : Env S K C) (o : Oid) (ho : o ∈ tradOids) (hs : env.special o = none) :
    ∃ h, SigHash o h ∧ matchHash env o = .ok h := by
  obtain ⟨r1, r2⟩ := sigHash_rows o ho
  unfold matchHash hashOfOid
  by_cases he : o = ed25519Oid ∨ o = ed448Oid
  · rw [if_pos he]
    exact ⟨none, (sigHashFn_iff _ _).1 (r1 he), rfl⟩
  · rw [if_neg he, hs]
    obtain ⟨x, _, h1, h2, h3⟩ := r2 he
    dsimp only
    rw [h1]
    simp only [Bool.false_eq_true, if_false]
    rw [ok_of_toOption h2]
    exact ⟨some (lastDash x.2), (sigHashFn_iff _ _).1 h3, rfl⟩

theorem sigHash_fn {o : Oid} {h h' : Option String} (a : SigHash o h) (b : SigHash o h') : h = h' := by
  have := (sigHashFn_iff _ _).2 a
  rw [(sigHashFn_iff _ _).2 b] at this
  exact (Option.some.inj this).symm

theorem sigOne_ok (env : Env S K C) (c : C) (h : Option String) (m : Msg C) :
    sigOne env c h m = .ok () ↔ ∃ data p k, protectedPart env.toMacEnv m = .ok data ∧ m.prot = some p ∧
      env.keyOf c = .ok k ∧ env.isVerifyKey k = true ∧ verifyData env k h data p = .ok () := by
  unfold sigOne
  cases hd : protectedPart env.toMacEnv m with
  | error e => simp
  | ok data =>
    dsimp only
    cases hp : m.prot with
    | none => simp
    | some p =>
      dsimp only
      unfold verifyWithCert
      cases hk : env.keyOf c with
      | error e => cases e <;> simp
      | ok k =>
        dsimp only
        by_cases hv : env.isVerifyKey k = true
        · rw [if_pos hv]
          cases hx : verifyData env k h data p with
          | error e =>
            constructor
            · intro c; cases e <;> cases c
            · rintro ⟨_, _, k', e1, e2, e3, _, e5⟩
              cases e1
              cases e2
              cases e3
              rw [hx] at e5
              cases e5
          | ok u => exact ⟨fun _ => ⟨data, p, k, rfl, rfl, rfl, hv, hx⟩, fun _ => rfl⟩
        · rw [if_neg hv]
          constructor
          · intro c; cases c
          · rintro ⟨_, _, k', _, _, e3, e4, _⟩
            cases e3
            exact absurd e4 hv

theorem sameOid_ok (a : AlgId) (m : Option (Msg C)) : sameOid a m = .ok () ↔
    ∀ x, m = some x → ∃ b, x.hdr.alg = some b ∧ b.oid = a.oid := by
  cases m with
  | none => simp [sameOid]
  | some x =>
    unfold sameOid
    dsimp only
    cases hb : x.hdr.alg with
    | none =>
      constructor
      · intro h; cases h
      · intro h
        obtain ⟨b, h1, _⟩ := h x rfl
        rw [hb] at h1
        cases h1
    | some b =>
      dsimp only
      by_cases h : a.oid ≠ b.oid
      · rw [if_pos h]
        constructor
        · intro c; cases c
        · intro c
          obtain ⟨b', h1, h2⟩ := c x rfl
          rw [hb] at h1
          cases h1
          exact absurd h2.symm h
      · rw [if_neg h]
        refine ⟨fun _ => ?_, fun _ => rfl⟩
        rintro y hy
        cases hy
        exact ⟨b, hb, (Decidable.not_not.1 h).symm⟩

theorem sigConsistent_ok (resp : Msg C) (conf poll : Option (Msg C)) (a : AlgId) :
    sigConsistent resp conf poll = .ok a ↔
      a.par = .absent ∧ ∀ m ∈ resp :: (conf.toList ++ poll.toList), m.hdr.alg = some a := by
  unfold sigConsistent
  constructor
  · intro h
    cases ha : resp.hdr.alg with
    | none => rw [ha] at h; cases h
    | some a' =>
      rw [ha] at h
      dsimp only at h
      cases h1 : sameOid a' conf with
      | error e => rw [h1] at h; cases h
      | ok u =>
        rw [h1] at h
        dsimp only at h
        cases h2 : sameOid a' poll with
        | error e => rw [h2] at h; cases h
        | ok u =>
          rw [h2] at h
          dsimp only at h
          by_cases h3 : (hasPar (some resp) || hasPar conf || hasPar poll) = true
          · rw [if_pos h3] at h; cases h
          · rw [if_neg h3] at h
            cases h
            have h3' : hasPar (some resp) = false ∧ hasPar conf = false ∧ hasPar poll = false := by
              simpa [and_assoc] using h3
            obtain ⟨p1, p2, p3⟩ := h3'
            have hpar : a.par = .absent := by simpa [hasPar, ha] using p1
            refine ⟨hpar, ?_⟩
            have key : ∀ (o : Option (Msg C)), sameOid a o = .ok () → hasPar o = false → ∀ m ∈ o.toList,
                m.hdr.alg = some a := by
              intro o ho hp m hm
              have hm' : o = some m := by simpa using hm
              subst hm'
              obtain ⟨b, hb1, hb2⟩ := (sameOid_ok a (some m)).1 ho m rfl
              have hb3 : b.par = .absent := by simpa [hasPar, hb1] using hp
              rw [hb1]
              obtain ⟨bo, bp⟩ := b
              obtain ⟨ao, ap⟩ := a
              simp_all
            intro m hm
            rcases List.mem_cons.1 hm with rfl | hm
            · exact ha
            · rcases List.mem_append.1 hm with hm | hm
              · exact key conf h1 p2 m hm
              · exact key poll h2 p3 m hm
  · rintro ⟨hpar, hall⟩
    rw [hall resp List.mem_cons_self]
    dsimp only
    have hc : ∀ x, conf = some x → x.hdr.alg = some a := by
      intro x hx
      exact hall x (by simp [hx])
    have hp : ∀ x, poll = some x → x.hdr.alg = some a := by
      intro x hx
      exact hall x (by simp [hx])
    rw [(sameOid_ok a conf).2 (fun x hx => ⟨a, hc x hx, rfl⟩), (sameOid_ok a poll).2 (fun x hx => ⟨a, hp x hx, rfl⟩)]
    dsimp only
    have e1 : hasPar (some resp) = false := by simp [hasPar, hall resp List.mem_cons_self, hpar]
    have e2 : hasPar conf = false := by
      cases conf with
      | none => rfl
      | some x => simp [hasPar, hc x rfl, hpar]
    have e3 : hasPar poll = false := by
      cases poll with
      | none => rfl
      | some x => simp [hasPar, hp x rfl, hpar]
    rw [e1, e2, e3]
    rfl

theorem sigOpt_ok (env : Env S K C) (c : C) (h : Option String) (o : Option (Msg C)) :
    sigOpt env c h o = .ok () ↔ ∀ m ∈ o.toList, sigOne env c h m = .ok () := by
  cases o <;> simp [sigOpt]

theorem sameChain_ok [DecidableEq C] (chain : C → List C → Except PyErr (List C)) (c : C) (l : List C)
    (o : Option (Msg C)) : sameChain chain c l o = .ok () ↔ ∀ m ∈ o.toList, m.certs ≠ [] → chain c m.certs = .ok l := by
  cases o with
  | none => simp [sameChain]
  | some m =>
    unfold sameChain
    dsimp only
    by_cases h : m.certs = []
    · rw [if_pos h]
      simp [h]
    · rw [if_neg h]
      cases hc : chain c m.certs with
      | error e => simp [h, hc]
      | ok l' =>
        dsimp only
        by_cases he : l = l'
        · subst he
          simp [hc]
        · rw [if_pos he]
          simp only [Option.toList_some, List.mem_singleton, forall_eq, hc]
          constructor
          · intro x; cases x
          · intro x
            exact absurd (Except.ok.inj (x h)).symm he

/-! ## Theorems -/

/-- C147: for ECDSA, EdDSA and RSA, `signature_protection_must_match` accepts if and only if there is a second message, all
messages name the same algorithm, without parameters, each has a signature under the key of the first certificate of the
response, and the certificates of each, if there are any, give the same chain for that certificate. -/
theorem C147_iff [DecidableEq C] (env : Env S K C) (chain : C → List C → Except PyErr (List C)) (resp : Msg C)
    (conf poll : Option (Msg C)) (o : Oid) (par : Par) (ha : resp.hdr.alg = some ⟨o, par⟩) (ho : o ∈ tradOids)
    (hs : env.special o = none) (hk : ∀ k, env.isCompositePub k = false) :
    sigMatch env chain resp conf poll = .ok () ↔
      ∃ c rest h k l, resp.certs = c :: rest ∧ (conf ≠ none ∨ poll ≠ none) ∧ env.keyOf c = .ok k ∧
        env.isVerifyKey k = true ∧ SigHash o h ∧
        ∀ m ∈ resp :: (conf.toList ++ poll.toList), m.hdr.alg = some ⟨o, .absent⟩ ∧
          (∃ data p, protectedPart env.toMacEnv m = .ok data ∧ m.prot = some p ∧
            env.verify k (.plain h) data p = .ok ()) ∧
          (m.certs ≠ [] → chain c m.certs = .ok l) := by
  have hvd : ∀ k h d p, verifyData env k h d p = env.verify k (.plain h) d p := by
    intro k h d p
    unfold verifyData
    rw [hk k]
    simp
  obtain ⟨hh, hx1, hx2⟩ := matchHash_trad env o ho hs
  unfold sigMatch
  cases hcs : resp.certs with
  | nil =>
    constructor
    · intro h; cases h
    · rintro ⟨_, _, _, _, _, h, _⟩; cases h
  | cons c rest =>
    dsimp only
    by_cases hn : conf.isNone = true ∧ poll.isNone = true
    · rw [if_pos hn]
      constructor
      · intro h; cases h
      · rintro ⟨_, _, _, _, _, _, h, _⟩
        rw [Option.isNone_iff_eq_none, Option.isNone_iff_eq_none] at hn
        rcases h with h | h
        · exact absurd hn.1 h
        · exact absurd hn.2 h
    · rw [if_neg hn]
      have hn' : conf ≠ none ∨ poll ≠ none := by
        rw [Option.isNone_iff_eq_none, Option.isNone_iff_eq_none] at hn
        by_cases hc : conf = none
        · exact Or.inr (fun hp => hn ⟨hc, hp⟩)
        · exact Or.inl hc
      constructor
      · intro h
        cases hsc : sigConsistent resp conf poll with
        | error e => rw [hsc] at h; cases h
        | ok a =>
          rw [hsc] at h
          dsimp only at h
          obtain ⟨g1, g2⟩ := (sigConsistent_ok resp conf poll a).1 hsc
          have hao : a = ⟨o, .absent⟩ := by
            have := g2 resp List.mem_cons_self
            rw [ha] at this
            cases this
            dsimp only at g1
            rw [g1]
          rw [hao] at h g2
          dsimp only at h
          unfold sigVerifyAll at h
          rw [hx2] at h
          dsimp only at h
          cases h1 : sigOne env c hh resp with
          | error e => rw [h1] at h; cases h
          | ok u =>
            rw [h1] at h
            dsimp only at h
            cases h2 : sigOpt env c hh conf with
            | error e => rw [h2] at h; cases h
            | ok u =>
              rw [h2] at h
              dsimp only at h
              cases h3 : sigOpt env c hh poll with
              | error e => rw [h3] at h; cases h
              | ok u =>
                rw [h3] at h
                dsimp only at h
                unfold sameChains at h
                cases h4 : chain c resp.certs with
                | error e => rw [h4] at h; cases h
                | ok l =>
                  rw [h4] at h
                  dsimp only at h
                  cases h5 : sameChain chain c l conf with
                  | error e => rw [h5] at h; cases h
                  | ok u =>
                    rw [h5] at h
                    dsimp only at h
                    obtain ⟨_, _, k, _, _, k3, k4, _⟩ := (sigOne_ok env c hh resp).1 h1
                    refine ⟨c, rest, hh, k, l, rfl, hn', k3, k4, hx1, ?_⟩
                    intro m hm
                    have hone : sigOne env c hh m = .ok () := by
                      rcases List.mem_cons.1 hm with rfl | hm
                      · exact h1
                      · rcases List.mem_append.1 hm with hm | hm
                        · exact (sigOpt_ok env c hh conf).1 h2 m hm
                        · exact (sigOpt_ok env c hh poll).1 h3 m hm
                    have hch : m.certs ≠ [] → chain c m.certs = .ok l := by
                      rcases List.mem_cons.1 hm with rfl | hm
                      · exact fun _ => h4
                      · rcases List.mem_append.1 hm with hm | hm
                        · exact (sameChain_ok chain c l conf).1 h5 m hm
                        · exact (sameChain_ok chain c l poll).1 h m hm
                    obtain ⟨data, p, k', e1, e2, e3, _, e5⟩ := (sigOne_ok env c hh m).1 hone
                    rw [k3] at e3
                    cases e3
                    rw [hvd] at e5
                    exact ⟨g2 m hm, ⟨data, p, e1, e2, e5⟩, hch⟩
      · rintro ⟨c', rest', h, k, l, e1, _, e3, e4, e5, hall⟩
        cases e1
        have hEq := sigHash_fn hx1 e5
        subst hEq
        rw [(sigConsistent_ok resp conf poll ⟨o, .absent⟩).2 ⟨rfl, fun m hm => (hall m hm).1⟩]
        dsimp only
        unfold sigVerifyAll
        rw [hx2]
        dsimp only
        have hone : ∀ m ∈ resp :: (conf.toList ++ poll.toList), sigOne env c hh m = .ok () := by
          intro m hm
          obtain ⟨_, ⟨data, p, k1, k2, k3⟩, _⟩ := hall m hm
          exact (sigOne_ok env c hh m).2 ⟨data, p, k, k1, k2, e3, e4, by rw [hvd]; exact k3⟩
        rw [hone resp List.mem_cons_self]
        dsimp only
        rw [(sigOpt_ok env c hh conf).2 (fun m hm => hone m (by simp at hm; simp [hm]))]
        dsimp only
        rw [(sigOpt_ok env c hh poll).2 (fun m hm => hone m (by simp at hm; simp [hm]))]
        dsimp only
        unfold sameChains
        rw [(hall resp List.mem_cons_self).2.2 (by rw [hcs]; simp)]
        dsimp only
        rw [(sameChain_ok chain c l conf).2 (fun m hm => (hall m (by simp at hm; simp [hm])).2.2)]
        exact (sameChain_ok chain c l poll).2 (fun m hm => (hall m (by simp at hm; simp [hm])).2.2)

/-- C147: whatever the algorithm is, accepted messages name the same one, without parameters. -/
theorem C147_same_alg [DecidableEq C] (env : Env S K C) (chain : C → List C → Except PyErr (List C)) (resp : Msg C)
    (conf poll : Option (Msg C)) (h : sigMatch env chain resp conf poll = .ok ()) :
    ∃ o, ∀ m ∈ resp :: (conf.toList ++ poll.toList), m.hdr.alg = some ⟨o, .absent⟩ := by
  unfold sigMatch at h
  cases hcs : resp.certs with
  | nil => rw [hcs] at h; cases h
  | cons c rest =>
    rw [hcs] at h
    dsimp only at h
    split at h
    · cases h
    · cases hsc : sigConsistent resp conf poll with
      | error e => rw [hsc] at h; cases h
      | ok a =>
        obtain ⟨g1, g2⟩ := (sigConsistent_ok resp conf poll a).1 hsc
        obtain ⟨o, p⟩ := a
        dsimp only at g1
        subst g1
        exact ⟨o, g2⟩

/-! ## Differences and examples -/

/-- A message with the signature of key `k` in the mode `h`. -/
def exSigMsg (o : Oid) (par : Par) (k : Nat) (h : Option String) (body : Bytes) (certs : List Nat) : Msg Nat :=
  let m : Msg Nat := ⟨⟨[10], true, some ⟨o, par⟩, some [11], []⟩, some body, none, certs⟩
  { m with prot := ((protectedPart exSig.toMacEnv m).bind (exSig.sign k (.plain h))).toOption }

/-- Certificate 0 is issued by certificate 7. -/
def exChain (c : Nat) (l : List Nat) : Except PyErr (List Nat) := .ok (if 7 ∈ l then [c, 7] else [c])

/-- C147_iff, C147_same_alg: ECDSA; with a confirmation without certificates, then with others. -/
example : sigMatch exSig exChain (exSigMsg [1, 2, 840, 10045, 4, 3, 2] .absent 0 (some "sha256") [12] [0, 7])
      (some (exSigMsg [1, 2, 840, 10045, 4, 3, 2] .absent 0 (some "sha256") [13] [])) none = .ok () ∧
    sigMatch exSig exChain (exSigMsg [1, 2, 840, 10045, 4, 3, 2] .absent 0 (some "sha256") [12] [0, 7])
      (some (exSigMsg [1, 2, 840, 10045, 4, 3, 2] .absent 0 (some "sha256") [13] [0, 8])) none = .error .valueError ∧
    sigMatch exSig exChain (exSigMsg [1, 2, 840, 10045, 4, 3, 2] .absent 0 (some "sha256") [12] [0, 7])
      (some (exSigMsg [1, 2, 840, 10045, 4, 3, 2] .absent 3 (some "sha256") [13] [])) none = .error .valueError := by
  decide +kernel

/-- Messages that the suite, or everybody else, signs with RSA have the parameters NULL and are never accepted. -/
theorem C147_rsa_refuted [DecidableEq C] (env : Env S K C) (chain : C → List C → Except PyErr (List C)) (resp : Msg C)
    (conf poll : Option (Msg C)) (a : AlgId) (ha : resp.hdr.alg = some a) (ho : a.oid ∈ rsaSpec.map (·.1))
    (hp : SigParOk a) : sigMatch env chain resp conf poll ≠ .ok () := by
  intro h
  obtain ⟨o, ho'⟩ := C147_same_alg env chain resp conf poll h
  have := ho' resp List.mem_cons_self
  rw [ha] at this
  cases this
  rcases hp with ⟨_, h1 | h1⟩ | ⟨h1, _⟩
  · cases h1
  · cases h1
  · exact h1 ho

example : sigMatch exSig exChain (exSigMsg [1, 2, 840, 113549, 1, 1, 11] (.raw [5, 0]) 1 (some "sha256") [12] [1])
    (some (exSigMsg [1, 2, 840, 113549, 1, 1, 11] (.raw [5, 0]) 1 (some "sha256") [13] [])) none = .error .valueError := by
  decide +kernel

/-- The kind of the algorithm is not tested: a message that names an HMAC is accepted with a signature, although its
protection cannot be verified. -/
theorem C147_mac_refuted : ∃ (resp conf : Msg Nat) (a : AlgId), sigMatch exSig exChain resp (some conf) none = .ok () ∧
    resp.hdr.alg = some a ∧ protType exSig a.oid = .ok .mac ∧
    ∀ priv pub ss lw, verifyProt exSig [] resp priv none pub ss lw ≠ .ok () := by
  refine ⟨exSigMsg [1, 2, 840, 113549, 2, 9] .absent 0 (some "sha256") [12] [0],
    exSigMsg [1, 2, 840, 113549, 2, 9] .absent 0 (some "sha256") [13] [], _, by decide +kernel, rfl, by decide +kernel, ?_⟩
  intro priv pub ss lw h
  cases lw with
  | false =>
    have : verifyProt exSig [] (exSigMsg [1, 2, 840, 113549, 2, 9] .absent 0 (some "sha256") [12] [0]) priv none pub ss
      false = .error .valueError := rfl
    rw [this] at h
    cases h
  | true =>
    have : verifyProt exSig [] (exSigMsg [1, 2, 840, 113549, 2, 9] .absent 0 (some "sha256") [12] [0]) priv none pub ss
      true = .error .badAlg := rfl
    rw [this] at h
    cases h

/-- The first certificate of the confirmation is not compared to that of the response. -/
theorem C147_first_cert_refuted : ∃ (resp conf : Msg Nat) (c d : Nat) (rest rest' : List Nat),
    sigMatch exSig exChain resp (some conf) none = .ok () ∧ resp.certs = c :: rest ∧ conf.certs = d :: rest' ∧ c ≠ d :=
  ⟨exSigMsg [1, 2, 840, 10045, 4, 3, 2] .absent 0 (some "sha256") [12] [0, 7],
    exSigMsg [1, 2, 840, 10045, 4, 3, 2] .absent 0 (some "sha256") [13] [5, 7], 0, 5, [7], [7], by decide +kernel, rfl, rfl,
    by decide⟩

/-- A composite signature is never accepted: its hash function has a name without `-`. -/
theorem C147_composite_refuted [DecidableEq C] (env : Env S K C) (chain : C → List C → Except PyErr (List C))
    (resp : Msg C) (conf poll : Option (Msg C)) (a : AlgId) (n : String) (ha : resp.hdr.alg = some a)
    (hs : env.special a.oid = some (some n)) (hn : '-' ∉ n.toList) (he : a.oid ∉ edSpec) :
    sigMatch env chain resp conf poll ≠ .ok () := by
  intro h
  have hdash : ∀ l : List Char, '-' ∉ l → afterDash l = none := by
    intro l
    induction l with
    | nil => intro _; rfl
    | cons x l ih =>
      intro hx
      unfold afterDash
      rw [if_neg (fun c => hx (by rw [c]; exact List.mem_cons_self))]
      exact ih (fun c => hx (List.mem_cons_of_mem _ c))
  have hm : matchHash env a.oid = .error .indexError := by
    unfold matchHash hashOfOid
    rw [if_neg (fun c => he (by rcases c with c | c <;> rw [c] <;> simp [edSpec, ed25519Oid, ed448Oid])), hs]
    dsimp only
    unfold dash1
    rw [hdash _ hn]
    rfl
  unfold sigMatch at h
  cases hcs : resp.certs with
  | nil => rw [hcs] at h; cases h
  | cons c rest =>
    rw [hcs] at h
    dsimp only at h
    split at h
    · cases h
    · cases hsc : sigConsistent resp conf poll with
      | error e => rw [hsc] at h; cases h
      | ok b =>
        rw [hsc] at h
        dsimp only at h
        have := ((sigConsistent_ok resp conf poll b).1 hsc).2 resp List.mem_cons_self
        rw [ha] at this
        cases this
        unfold sigVerifyAll at h
        rw [hm] at h
        cases h

/-- C147_composite_refuted applies to an environment where `[9, 9]` is a composite algorithm with SHA-512. -/
example (resp : Msg Nat) (conf poll : Option (Msg Nat)) (ha : resp.hdr.alg = some ⟨[9, 9], .absent⟩) :
    sigMatch { exSig with special := fun o => if o = [9, 9] then some (some "sha512") else none } exChain resp conf poll ≠
      .ok () :=
  C147_composite_refuted _ exChain resp conf poll _ "sha512" ha rfl (by decide +kernel) (by decide +kernel)

end Verif.Prot
