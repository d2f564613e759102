import Verif.Ra.ReqBuild
import Verif.Ra.ReqTmplProps

/-!
# Properties of the requests of the client

The requests are checked by the functions of the CA in `Verif.Ra.Request`.
-/

namespace Verif.Ra

open Verif.CA hiding Bytes Msg
open Verif.Check hiding Spki

variable {A K P N T X E S C M Y G : Type}

/-- The client and the CA use the same encodings and algorithms for the key `p`: the CA loads its public key, accepts
its signatures, and has the same kinds of keys. -/
structure ClAgree (env : ClEnv A K P N T X) (ra : RaEnv A K S (ClRest A N T X) E C M Y G) (p : P) : Prop where
  spki : ∀ s, env.spkiOf (env.pub p) = .ok s → s.bits ≠ [] ∧ ra.loadSpki s = .ok (env.pub p)
  sign : ∀ h d sig a, env.sign p h false d = .ok sig → env.sigAlg p h false = .ok a →
    ra.verifyAlg (env.pub p) a d sig = .ok ()
  kem : env.isKem p = true → ra.isKem (env.pub p) = true
  xdh : env.isXdh p = true → ra.isEcdh (env.pub p) = true
  signing : env.isKem p = false → env.isXdh p = false → env.isDh p = false →
    ra.isVerify (env.pub p) = true ∧ ra.isDsa (env.pub p) = false

/-- The proof is what RFC 4211 asks for by the kind of the key: a challenge for keys for encipherment and agreement. -/
def PopFor (env : ClEnv A K P N T X) (p : P) : Popo A E → Prop
  | .raVerified => False
  | .signature _ _ => env.isKem p = false ∧ env.isXdh p = false ∧ env.isDh p = false
  | .keyEnc q => env.isKem p = true ∧ ∃ b, q = .subsequent b
  | .keyAgree q => env.isKem p = false ∧ env.isXdh p = true ∧ ∃ b, q = .subsequent b

theorem prepReqMsg_ok {env : ClEnv A K P N T X} {p : P} {a : ReqArgs A N T X E} {r : ClReq A N T X E}
    (h : prepReqMsg env p a = .ok r) :
    theReq env p a = .ok r.req ∧ thePop env p a r.req = .ok r.popo ∧ r.regInfo = none := by
  unfold prepReqMsg at h
  cases h1 : theReq env p a with
  | error e => rw [h1] at h; cases h
  | ok q =>
    rw [h1] at h; dsimp only at h
    cases h2 : thePop env p a q with
    | error e => rw [h2] at h; cases h
    | ok y => rw [h2] at h; cases h; exact ⟨rfl, h2, rfl⟩

theorem prepSigPop_ok {env : ClEnv A K P N T X} {p : P} {r : ClCertReq A N T X} {hash : Option String} {bad : Bool}
    {q : Popo A E} (h : prepSigPop env p (some r) hash bad false none = .ok q) :
    ∃ sig a, env.sign p hash false (r.der env) = .ok sig ∧ env.sigAlg p hash false = .ok a ∧
      q = .signature a (if bad then env.damage p sig else sig) := by
  unfold prepSigPop popSignature at h; dsimp only at h
  cases h1 : env.sign p hash false (r.der env) with
  | error e => rw [h1] at h; cases h
  | ok sig =>
    rw [h1] at h; dsimp only at h
    cases h2 : env.sigAlg p hash false with
    | error e => rw [h2] at h; cases h
    | ok a => rw [h2] at h; cases h; exact ⟨sig, a, rfl, rfl, rfl⟩

/-- The proof of a prepared request is of the kind of its key: with nothing else asked for, a key for signing signs the
encoding of the request, KEM keys ask for encipherment, X25519 and X448 keys for agreement. -/
theorem C235_pop_kind {env : ClEnv A K P N T X} {p : P} {a : ReqArgs A N T X E} {r : ClReq A N T X E}
    (hg : a.forKga = false) (hp : a.popo = none) (hr : a.ra = false) (hd : env.isDh p = false) (hn : a.noPopo = false)
    (h : prepReqMsg env p a = .ok r) :
    ∃ q, r.popo = some q ∧ PopFor env p q ∧
      ∀ g s, q = .signature g s → ∃ sig, env.sign p a.hash false (r.req.der env) = .ok sig ∧
        env.sigAlg p a.hash false = .ok g ∧ s = if a.badPop then env.damage p sig else sig := by
  obtain ⟨-, h2, -⟩ := prepReqMsg_ok h
  unfold thePop at h2
  rw [if_neg (by rw [hg]; decide), hp] at h2; dsimp only at h2
  rw [if_neg (by rw [hn]; decide)] at h2
  by_cases hk : env.isKem p = true
  · rw [if_pos hk] at h2
    have h3 := (Except.ok.inj h2).symm
    exact ⟨_, h3, ⟨hk, a.encr, rfl⟩, fun g s hq => by cases hq⟩
  · rw [if_neg hk] at h2
    have hk' : env.isKem p = false := by cases hkk : env.isKem p <;> simp_all
    by_cases hx : env.isXdh p = true
    · rw [if_pos hx] at h2
      have h3 := (Except.ok.inj h2).symm
      exact ⟨_, h3, ⟨hk', hx, a.encr, rfl⟩, fun g s hq => by cases hq⟩
    · rw [if_neg hx, if_neg (by rw [hd]; decide)] at h2
      have hx' : env.isXdh p = false := by cases hkk : env.isXdh p <;> simp_all
      unfold signedPop at h2
      cases h3 : prepSigPop (E := E) env p (some r.req) a.hash a.badPop false none with
      | error e => rw [h3] at h2; cases h2
      | ok q =>
        rw [h3] at h2; dsimp only at h2
        rw [if_neg (by rw [hr]; decide)] at h2; dsimp only at h2
        obtain ⟨sig, g, h4, h5, rfl⟩ := prepSigPop_ok h3
        have h6 := (Except.ok.inj h2).symm
        refine ⟨_, h6, ⟨hk', hx', hd⟩, fun g' s hq => ?_⟩
        cases hq
        exact ⟨sig, h4, h5, rfl⟩

theorem reqKey_agree {env : ClEnv A K P N T X} {ra : RaEnv A K S (ClRest A N T X) E C M Y G} {p : P}
    (ha : ClAgree env ra p) {r : ClReq A N T X E} {s : Spki A} (hs : env.spkiOf (env.pub p) = .ok s)
    (hk : r.req.tmpl.key = some s) : reqKey ra (r.toReq env) = .ok (env.pub p) := by
  obtain ⟨h1, h2⟩ := ha.spki s hs
  unfold reqKey tmplKey ClReq.toReq; dsimp only
  rw [hk]; dsimp only
  rw [if_neg h1, h2]

/-- The check of the CA of one request, as the proof has it. -/
theorem verifyPopo_single [DecidableEq C] [DecidableEq M] {env : ClEnv A K P N T X}
    {ra : RaEnv A K S (ClRest A N T X) E C M Y G} {p : P}
    (ha : ClAgree env ra p) {r : ClReq A N T X E} {s : Spki A} (hs : env.spkiOf (env.pub p) = .ok s)
    (hk : r.req.tmpl.key = some s) {q : Popo A E} (hq : r.popo = some q) (hf : PopFor env p q)
    {m : RMsg A (ClRest A N T X) E C} (hb : m.body ∈ ["ir", "cr", "kur"]) (hm : m.reqs = [r.toReq env]) (e v : Bool) :
    verifyPopo ra e v m 0 =
      (match q with
        | .signature g sig => (match popSigned ra (r.toReq env) g sig with
          | .error .badSigAlgId => .error .badPOP
          | x => x)
        | _ => .ok ()) := by
  have hb1 : m.body ∈ ["ir", "cr", "kur", "ccr"] := by
    simp only [List.mem_cons, List.not_mem_nil, or_false] at hb ⊢
    rcases hb with h | h | h <;> simp [h]
  have hb2 : m.body ∈ ["ir", "cr", "kur", "crr"] := by
    simp only [List.mem_cons, List.not_mem_nil, or_false] at hb ⊢
    rcases hb with h | h | h <;> simp [h]
  have hget : getReq m 0 = .ok (r.toReq env) := by
    unfold getReq; rw [if_pos hb1, hm]; rfl
  have hq' : (r.toReq env).popo = some q := hq
  have hkga : isKga ra m 0 = .ok false := by
    unfold isKga; rw [hget]; dsimp only; rw [hq']
  have hkey := reqKey_agree ha hs hk
  unfold verifyPopo
  rw [if_neg (fun hc => hc hb2), hget]; dsimp only
  rw [hkga]; dsimp only
  rw [hq']
  cases q with
  | raVerified => exact absurd hf id
  | signature g sig =>
    dsimp only
    unfold verifySigPop verifyPopSig
    rw [hget]; dsimp only
    rw [hq']; dsimp only
    cases popSigned ra (r.toReq env) g sig with
    | error x => cases x <;> rfl
    | ok u => rfl
  | keyEnc y =>
    dsimp only
    unfold keyKind; rw [hkey]; dsimp only
    rw [if_pos (ha.kem hf.1)]
  | keyAgree y =>
    dsimp only
    unfold keyKind; rw [hkey]; dsimp only
    rw [if_pos (ha.xdh hf.2.1)]

theorem popSigned_agree {env : ClEnv A K P N T X} {ra : RaEnv A K S (ClRest A N T X) E C M Y G} {p : P}
    (ha : ClAgree env ra p) {r : ClReq A N T X E} {s : Spki A} (hs : env.spkiOf (env.pub p) = .ok s)
    (hk : r.req.tmpl.key = some s) (h1 : env.isKem p = false) (h2 : env.isXdh p = false) (h3 : env.isDh p = false)
    (g : A) (sig : Bytes) :
    popSigned ra (r.toReq env) g sig = (match ra.verifyAlg (env.pub p) g (r.req.der env) sig with
      | .error e => .error (popErr e)
      | .ok () => .ok ()) := by
  unfold popSigned
  rw [reqKey_agree ha hs hk]; dsimp only
  obtain ⟨h4, h5⟩ := ha.signing h1 h2 h3
  rw [if_neg (by rw [h4]; decide), if_neg (by rw [h5]; decide)]
  rfl

/-- The CA accepts the proof of every request that is prepared with its public key and without anything that asks for
an invalid or absent proof. -/
theorem C235_pop_accepted [DecidableEq C] [DecidableEq M] {env : ClEnv A K P N T X}
    {ra : RaEnv A K S (ClRest A N T X) E C M Y G} {p : P} (ha : ClAgree env ra p) {a : ReqArgs A N T X E}
    {r : ClReq A N T X E} (hg : a.forKga = false) (hp : a.popo = none) (hr : a.ra = false)
    (hd : env.isDh p = false) (hn : a.noPopo = false) (hbad : a.badPop = false)
    (h : prepReqMsg env p a = .ok r) {s : Spki A} (hs : env.spkiOf (env.pub p) = .ok s)
    (hk : r.req.tmpl.key = some s) {m : RMsg A (ClRest A N T X) E C} (hb : m.body ∈ ["ir", "cr", "kur"])
    (hm : m.reqs = [r.toReq env]) (e v : Bool) : verifyPopo ra e v m 0 = .ok () := by
  obtain ⟨q, hq, hf, hsig⟩ := C235_pop_kind hg hp hr hd hn h
  rw [verifyPopo_single ha hs hk hq hf hb hm]
  cases q with
  | raVerified => exact absurd hf id
  | signature g sig =>
    obtain ⟨sig', h1, h2, h3⟩ := hsig g sig rfl
    rw [hbad] at h3
    dsimp only
    rw [popSigned_agree ha hs hk hf.1 hf.2.1 hf.2.2, h3, if_neg (by decide), ha.sign _ _ _ _ h1 h2]
  | keyEnc y => rfl
  | keyAgree y => rfl

/-- With `bad_pop` and a key for signing the CA refuses the request with `badPOP`, if the signature that is changed does
not verify. -/
theorem C235_bad_pop_refused_partial [DecidableEq C] [DecidableEq M] {env : ClEnv A K P N T X}
    {ra : RaEnv A K S (ClRest A N T X) E C M Y G} {p : P} (ha : ClAgree env ra p) {a : ReqArgs A N T X E}
    {r : ClReq A N T X E} (hg : a.forKga = false) (hp : a.popo = none) (hr : a.ra = false)
    (hd : env.isDh p = false) (hn : a.noPopo = false) (hbad : a.badPop = true) (hk1 : env.isKem p = false)
    (hk2 : env.isXdh p = false)
    (hdam : ∀ d sig g, env.sign p a.hash false d = .ok sig → env.sigAlg p a.hash false = .ok g →
      ra.verifyAlg (env.pub p) g d (env.damage p sig) = .error .invalidSignature)
    (h : prepReqMsg env p a = .ok r) {s : Spki A} (hs : env.spkiOf (env.pub p) = .ok s)
    (hk : r.req.tmpl.key = some s) {m : RMsg A (ClRest A N T X) E C} (hb : m.body ∈ ["ir", "cr", "kur"])
    (hm : m.reqs = [r.toReq env]) (e v : Bool) : verifyPopo ra e v m 0 = .error .badPOP := by
  obtain ⟨q, hq, hf, hsig⟩ := C235_pop_kind hg hp hr hd hn h
  rw [verifyPopo_single ha hs hk hq hf hb hm]
  cases q with
  | raVerified => exact absurd hf id
  | signature g sig =>
    obtain ⟨sig', h1, h2, h3⟩ := hsig g sig rfl
    rw [hbad] at h3
    dsimp only
    rw [popSigned_agree ha hs hk hf.1 hf.2.1 hf.2.2, h3, if_pos rfl, hdam _ _ _ h1 h2]
    rfl
  | keyEnc y => rw [hf.1] at hk1; cases hk1
  | keyAgree y => rw [hf.2.1] at hk2; cases hk2

theorem reqTmpl_key {env : ClEnv A K P N T X} {p : P} {a : ReqArgs A N T X E} {t : ClTmpl A N T X}
    (h1 : a.tmpl = none) (h2 : a.spki = none) (h3 : a.forKga = false) (h : reqTmpl env p a = .ok t) :
    ∃ s, env.spkiOf (env.pub p) = .ok s ∧ t.key = some s := by
  unfold reqTmpl at h
  rw [h1] at h; dsimp only at h
  cases hn : a.name with
  | none => rw [hn] at h; cases h
  | some n =>
    rw [hn] at h; dsimp only at h
    split at h
    · cases h
    · rename_i t' l heq
      cases h
      rw [h2, h3] at heq
      have hx : "publicKey".toList ∉ filterOptions templateKeys none (some "validity".toList) := by decide +kernel
      obtain ⟨s, h5, h6⟩ := (C234_key hx heq).2.2.2 _ rfl rfl
      exact ⟨s, h5, h6⟩

theorem theReq_new {env : ClEnv A K P N T X} {p : P} {a : ReqArgs A N T X E} {r : ClCertReq A N T X}
    (h1 : a.req = none) (h : theReq env p a = .ok r) :
    reqTmpl env p a = .ok r.tmpl ∧ r.id = a.id ∧ r.controls = extendOpt none (a.controls.getD []) := by
  unfold theReq prepCertReq at h
  rw [h1] at h; dsimp only at h
  cases h2 : reqTmpl env p a with
  | error e => rw [h2] at h; cases h
  | ok t => rw [h2] at h; cases h; exact ⟨rfl, rfl, rfl⟩

theorem buildReqs_ok {body : String} {a : ReqArgs A N T X E} {l : List (ClReq A N T X E)} {m : ClMsg A N T X E}
    (h : buildReqs body a l = .ok m) :
    body ∈ ["ir", "cr", "kur", "ccr", "krr"] ∧ m = ⟨body, parsePvno a.pvno a.forKga, l⟩ := by
  unfold buildReqs at h
  split at h
  · rename_i hb; cases h; exact ⟨hb, rfl⟩
  · cases h

theorem fromKey_new {env : ClEnv A K P N T X} {body : String} {p : P} {a : ReqArgs A N T X E} {m : ClMsg A N T X E}
    (h : fromKey env body p a none = .ok m) :
    ∃ r, prepReqMsg env p (keyArgs body a) = .ok r ∧ m = ⟨body, parsePvno a.pvno a.forKga, [r]⟩ := by
  unfold fromKey at h; dsimp only at h
  cases h1 : prepReqMsg env p (keyArgs body a) with
  | error e => rw [h1] at h; cases h
  | ok r =>
    rw [h1] at h; dsimp only at h
    exact ⟨r, rfl, (buildReqs_ok h).2⟩

/-- A message `ir` or `cr` that is built from a key without further wishes has a proof that the CA accepts. -/
theorem C235_message_accepted [DecidableEq C] [DecidableEq M] {env : ClEnv A K P N T X}
    {ra : RaEnv A K S (ClRest A N T X) E C M Y G} {p : P} (ha : ClAgree env ra p) {a : ReqArgs A N T X E}
    {body : String} {m : ClMsg A N T X E} (hb : body = "ir" ∨ body = "cr") (ht : a.tmpl = none) (hq : a.req = none)
    (hs : a.spki = none) (hg : a.forKga = false) (hp : a.popo = none) (hr : a.ra = false) (hd : env.isDh p = false)
    (hbad : a.badPop = false) (h : fromKey env body p a none = .ok m) (e v : Bool) :
    verifyPopo ra e v (m.toMsg (C := C) env) 0 = .ok () := by
  obtain ⟨r, h1, rfl⟩ := fromKey_new h
  have hq' : (keyArgs body a).req = none := by
    unfold keyArgs; dsimp only; rw [hq]; split <;> rfl
  have hs' : (keyArgs body a).spki = none := by
    unfold keyArgs; dsimp only; rw [hs]; split <;> rfl
  obtain ⟨h2, -, -⟩ := theReq_new hq' (prepReqMsg_ok h1).1
  obtain ⟨s, h3, h4⟩ := reqTmpl_key (by exact ht) hs' (by exact hg) h2
  refine C235_pop_accepted ha (by exact hg) (by exact hp) (by exact hr) hd rfl (by exact hbad) h1 h3 h4
    (m := ClMsg.toMsg env ⟨body, _, [r]⟩) ?_ rfl e v
  rcases hb with hb | hb
  · rw [hb]; exact List.mem_cons_self
  · rw [hb]; exact List.mem_cons_of_mem _ List.mem_cons_self

/-! ## Example: the CA of the client -/

/-- The CA for the example: it verifies what the example signs. -/
def exClRa : RaEnv Nat Nat Unit (ClRest Nat String Nat Nat) Unit Nat Nat Unit Unit where
  ch := { issuer := fun c => c, subject := fun c => c, loadKey := fun c => .ok c, verify := fun _ _ _ => .ok () }
  loadSpki := exCl1.loadKey
  isVerify := fun k => decide (k < 100)
  isDsa := fun _ => false
  isDh := fun k => decide (250 ≤ k)
  isKem := fun k => decide (100 ≤ k ∧ k < 200)
  isEcdh := fun k => decide (200 ≤ k ∧ k < 250)
  isPq := fun _ => false
  isStfl := fun _ => false
  rsaBits := fun _ => none
  hasParams := fun _ => false
  stfl := fun _ _ => .ok ()
  consistent := fun _ _ => .ok ()
  verifyAlg := fun k _ d s => if s = d ++ [UInt8.ofNat k] then .ok () else .error .invalidSignature
  named := fun r => r.subject.isSome
  genKey := fun _ => .ok 5
  encSpki := fun s => s.bits
  decReq := fun _ => none
  utf8 := fun _ => .ok ()
  controls := fun _ => .ok ()
  build := fun _ _ => .ok 1
  serverKey := fun _ => none
  ecdh := fun _ _ => .error .valueError
  mac := fun _ _ _ => .ok []
  encKari := fun _ _ _ => .ok ()
  encKem := fun _ _ => .ok ()
  certKey := fun c => .ok c
  openKey := fun _ => .ok []
  decKeyId := fun _ => .error .valueError
  loadPriv := fun _ => .error .valueError
  subjName := fun r => r.subject
  genIs := fun _ _ => .ok true
  kga := fun _ => .ok (1, ())
  raCerts := .ok []


theorem exCl1_agree (p : Nat) (hp : p < 250) : ClAgree exCl1 exClRa p where
  spki := by
    intro s hs
    cases hs
    refine ⟨List.cons_ne_nil _ _, ?_⟩
    show Except.ok (UInt8.ofNat p).toNat = Except.ok p
    rw [UInt8.toNat_ofNat', Nat.mod_eq_of_lt (by omega)]
  sign := by
    intro h d sig a h1 h2
    cases h1
    exact if_pos rfl
  kem := fun h => h
  xdh := fun h => h
  signing := by
    intro h1 h2 h3
    have h1' := of_decide_eq_false h1
    have h2' := of_decide_eq_false h2
    exact ⟨decide_eq_true (show p < 100 by omega), rfl⟩

example : ∃ m, fromKey exCl1 "ir" 7 { name := some (.text "CN=EE"), id := 3 } none = .ok m ∧
    verifyPopo exClRa true true (m.toMsg exCl1) 0 = .ok () := ⟨_, rfl, rfl⟩

example : ∃ m, fromKey exCl1 "cr" 150 { name := some (.text "CN=EE") } none = .ok m ∧
    (m.reqs.map (fun r => r.popo)) = [some (.keyEnc (.subsequent true))] ∧
    verifyPopo exClRa true true (m.toMsg exCl1) 0 = .ok () := ⟨_, rfl, rfl, rfl⟩

example : ∃ m, fromKey exCl1 "ir" 7 { name := some (.text "CN=EE"), badPop := true } none = .ok m ∧
    verifyPopo exClRa true true (m.toMsg exCl1) 0 = .error .badPOP := ⟨_, rfl, by decide +kernel⟩

/-! ## What is not so -/

/-- `bad_pop` does not make an invalid proof for a KEM key: the request is as without it, and accepted. -/
theorem C235_bad_pop_refuted :
    ¬ ∀ (body : String) (p : Nat) (a : ReqArgs Nat String Nat Nat Unit) m, a.badPop = true →
      fromKey exCl1 body p a none = .ok m → verifyPopo exClRa true true (m.toMsg exCl1) 0 ≠ .ok () := by
  intro h
  exact h "ir" 150 { name := some (.text "CN=EE"), badPop := true } _ rfl rfl rfl

/-- For keys for encipherment and agreement, `bad_pop` and `ra_verified` change nothing. -/
theorem C235_flags_ignored {env : ClEnv A K P N T X} {p : P} (a : ReqArgs A N T X E) (b c : Bool)
    (hk : env.isKem p = true ∨ env.isXdh p = true) :
    prepReqMsg env p { a with badPop := b, ra := c } = prepReqMsg env p a := by
  have h1 : ∀ r, thePop env p { a with badPop := b, ra := c } r = thePop env p a r := by
    intro r
    unfold thePop; dsimp only
    by_cases hk' : env.isKem p = true
    · rw [if_pos hk', if_pos hk']
    · have hx : env.isXdh p = true := hk.resolve_left hk'
      rw [if_neg hk', if_neg hk', if_pos hx, if_pos hx]
  have h2 : theReq env p { a with badPop := b, ra := c } = theReq env p a := rfl
  unfold prepReqMsg
  rw [h2]
  cases theReq env p a with
  | error e => rfl
  | ok r => dsimp only; rw [h1]

/-- A certificate request from a PKCS#10 request has a valid proof even if an invalid one is asked for; `ir` and `ccr`
do as they are asked. -/
theorem C235_bad_pop_csr_refuted :
    ¬ ∀ (body : String) c (p : Nat) (a : ReqArgs Nat String Nat Nat Unit) m l, a.badPop = true →
      fromCsr exCl1 body c p a none = .ok (m, l) → verifyPopo exClRa true true (m.toMsg exCl1) 0 ≠ .ok () := by
  intro h
  exact h "cr" ⟨⟨some 0, [5]⟩, "CN=EE", none⟩ 5 { badPop := true } _ _ rfl rfl rfl

example : ∃ m l, fromCsr exCl1 "ir" ⟨⟨some 0, [5]⟩, "CN=EE", none⟩ 5
      ({ badPop := true } : ReqArgs Nat String Nat Nat Unit) none = .ok (m, l) ∧
    verifyPopo exClRa true true (m.toMsg exCl1) 0 = .error .badPOP := ⟨_, _, rfl, by decide +kernel⟩

/-- A request with a Diffie-Hellman key has no proof at all, so the CA takes it for one for a generated key. -/
theorem C235_dh_no_proof {env : ClEnv A K P N T X} {p : P} {a : ReqArgs A N T X E} {r : ClReq A N T X E}
    (hd : env.isDh p = true) (hk : env.isKem p = false) (hx : env.isXdh p = false) (hp : a.popo = none)
    (h : prepReqMsg env p a = .ok r) : r.popo = none := by
  obtain ⟨-, h2, -⟩ := prepReqMsg_ok h
  unfold thePop at h2
  by_cases hg : a.forKga = true
  · rw [if_pos hg] at h2; exact (Except.ok.inj h2).symm
  · rw [if_neg hg, hp] at h2; dsimp only at h2
    by_cases hn : a.noPopo = true
    · rw [if_pos hn] at h2; exact (Except.ok.inj h2).symm
    · rw [if_neg hn, if_neg (by rw [hk]; decide), if_neg (by rw [hx]; decide), if_pos hd] at h2
      exact (Except.ok.inj h2).symm

theorem C235_every_proof_refuted :
    ¬ ∀ (p : Nat) (a : ReqArgs Nat String Nat Nat Unit) r, a.forKga = false → a.noPopo = false →
      prepReqMsg exCl1 p a = .ok r → r.popo ≠ none := by
  intro h
  exact h 251 { name := some (.text "CN=EE") } _ rfl rfl rfl rfl

/-- `prepare_popo` asks for encipherment for X25519 and X448 keys if nothing is said, which the CA refuses. -/
theorem C235_popo_default {env : ClEnv A K P N T X} {p : P} (hk : env.isKem p = false) (hx : env.isXdh p = true)
    (sig : Option Bytes) (o : Option A) (h : Option String) (ra encr : Bool) :
    prepPopo (E := E) env sig o (some p) h ra encr (some true) = .ok (.keyEnc (.subsequent encr)) ∧
    prepPopo (E := E) env sig o (some p) h ra encr none = .ok (.keyAgree (.subsequent encr)) := by
  have h1 : popKind env (some p) = .xdh := by
    unfold popKind; dsimp only; rw [if_neg (by rw [hk]; decide), if_pos hx]
  unfold prepPopo
  rw [h1]
  exact ⟨rfl, rfl⟩

theorem C235_popo_default_refuted :
    ¬ ∀ (p : Nat) (q : Popo Nat Unit), prepPopo exCl1 none none (some p) (some "sha256") false true (some true) = .ok q →
      PopFor exCl1 p q := by
  intro h
  exact absurd (h 210 _ rfl).1 (by decide)

/-- The structure of a proof cannot be made of an object identifier. -/
theorem C235_oid_refused (env : ClEnv A K P N T X) (o : List Nat) (p : P) (sig : Bytes) (b : Bool) :
    sigPop (E := E) env (.inr o) p sig b = .error .pyasn1Error := rfl

/-- An algorithm identifier alone is not enough for `_prepare_poposigningkey`; with a key it is the algorithm. -/
theorem C235_alg_id_alone (env : ClEnv A K P N T X) (a : A) (h : Option String) (p : P) (o : Option A) :
    popAlg env none none (some a) h = .error .valueError ∧ popAlg env (some p) o (some a) h = .ok a := by
  refine ⟨rfl, ?_⟩
  cases o <;> rfl

/-! ## Requests for generated keys -/

/-- A request for a generated key has no proof and only the algorithm of the key; the CA takes it as such. -/
theorem C235_kga {env : ClEnv A K P N T X} {ra : RaEnv A K S (ClRest A N T X) E C M Y G} {p : P}
    {a : ReqArgs A N T X E} {r : ClReq A N T X E} (hg : a.forKga = true) (ht : a.tmpl = none) (hq : a.req = none)
    (hs : a.spki = none) (h : prepReqMsg env p a = .ok r) :
    r.popo = none ∧ ∃ s, env.spkiOf (env.pub p) = .ok s ∧ r.req.tmpl.key = some ⟨s.alg, []⟩ ∧
      ∀ (m : RMsg A (ClRest A N T X) E C) g k, m.body ∈ ["ir", "cr", "kur", "ccr"] → m.reqs = [r.toReq env] →
        s.alg = some g → ra.genKey (some g) = .ok k → isKga ra m 0 = .ok true := by
  obtain ⟨h1, h2, -⟩ := prepReqMsg_ok h
  have hp : r.popo = none := by
    unfold thePop at h2; rw [if_pos hg] at h2; exact (Except.ok.inj h2).symm
  refine ⟨hp, ?_⟩
  have h3 := (theReq_new hq h1).1
  unfold reqTmpl at h3
  rw [ht] at h3; dsimp only at h3
  cases hn : a.name with
  | none => rw [hn] at h3; cases h3
  | some n =>
    rw [hn] at h3; dsimp only at h3
    split at h3
    · cases h3
    · rename_i t' l heq
      have ht' : t' = r.req.tmpl := Except.ok.inj h3
      rw [hs, hg] at heq
      have hx : "publicKey".toList ∉ filterOptions templateKeys none (some "validity".toList) := by decide +kernel
      obtain ⟨s, h5, h6⟩ := (C234_key hx heq).2.2.2 _ rfl rfl
      rw [ht'] at h6
      refine ⟨s, h5, h6, fun m g k hb hm hal hgen => ?_⟩
      unfold isKga getReq
      rw [if_pos hb, hm]; dsimp only [List.getElem?_cons_zero]
      have hp' : (r.toReq env).popo = none := hp
      rw [hp']; dsimp only
      unfold kgaKey ClReq.toReq; dsimp only
      rw [h6]; dsimp only [if_pos]
      rw [if_pos rfl]; dsimp only
      rw [hal]; dsimp only
      rw [if_neg (fun hc => hc rfl), hgen]

example : ∃ m, fromKey exCl1 "ir" 7 { name := some (.text "CN=EE"), forKga := true } none = .ok m ∧ m.pvno = 3 ∧
    verifyPopo exClRa true true (m.toMsg exCl1) 0 = .ok () := ⟨_, rfl, rfl, rfl⟩

/-- A given template is not changed for a key generation authority: with a key in it the CA refuses the request. -/
theorem C235_kga_template_refuted :
    ¬ ∀ (p : Nat) (a : ReqArgs Nat String Nat Nat Unit) m, a.forKga = true → a.popo = none →
      fromKey exCl1 "ir" p a none = .ok m → isKga exClRa (m.toMsg exCl1) 0 = .ok true := by
  intro h
  have := h 7 { tmpl := some ⟨some ⟨some 0, [7]⟩, {}⟩, forKga := true } _ rfl rfl rfl
  exact absurd this (by decide +kernel)

/-! ## Messages -/

/-- The names of the bodies, and the version: the given one, 3 for a generated key, else 2. -/
theorem C236_body {body : String} {a : ReqArgs A N T X E} {l : List (ClReq A N T X E)} :
    (body ∉ ["ir", "cr", "kur", "ccr", "krr"] → buildReqs body a l = .error .valueError) ∧
    (body ∈ ["ir", "cr", "kur", "ccr", "krr"] → ∃ m, buildReqs body a l = .ok m ∧ m.body = body ∧ m.reqs = l ∧
      (∀ n, a.pvno = some n → m.pvno = n) ∧ (a.pvno = none → a.forKga = true → m.pvno = 3) ∧
      (a.pvno = none → a.forKga = false → m.pvno = 2)) := by
  unfold buildReqs
  refine ⟨fun h => if_neg h, fun h => ⟨_, if_pos h, rfl, rfl, fun n hn => ?_, fun h1 h2 => ?_, fun h1 h2 => ?_⟩⟩
  · show parsePvno a.pvno a.forKga = n
    rw [hn]; rfl
  · show parsePvno a.pvno a.forKga = 3
    rw [h1, h2]; rfl
  · show parsePvno a.pvno a.forKga = 2
    rw [h1, h2]; rfl

/-- A message built from a key has one request with the given identifier, the given controls and, in the template, the
given subject and extensions. -/
theorem C236_request {env : ClEnv A K P N T X} {body : String} {p : P} {a : ReqArgs A N T X E} {m : ClMsg A N T X E}
    {n : N} (ht : a.tmpl = none) (hq : a.req = none) (hn : a.name = some (.name n))
    (h : fromKey env body p a none = .ok m) :
    ∃ r, m.reqs = [r] ∧ m.body = body ∧ r.req.id = a.id ∧ r.req.tmpl.rest.subject = some n ∧
      r.req.tmpl.rest.exts = a.exts.getD [] ∧ r.req.controls.getD [] = a.controls.getD [] ∧ r.regInfo = none ∧
      r.req.tmpl.rest.serial = none ∧ r.req.tmpl.rest.issuer = none ∧ r.req.tmpl.rest.validity = none := by
  obtain ⟨r, h1, rfl⟩ := fromKey_new h
  obtain ⟨h2, h3, h4⟩ := prepReqMsg_ok h1
  have hq' : (keyArgs body a).req = none := by
    unfold keyArgs; dsimp only; rw [hq]; split <;> rfl
  obtain ⟨h5, h6, h7⟩ := theReq_new hq' h2
  refine ⟨r, rfl, rfl, h6, ?_⟩
  have ht' : (keyArgs body a).tmpl = none := ht
  have hn' : (keyArgs body a).name = some (.name n) := hn
  unfold reqTmpl at h5
  rw [ht'] at h5; dsimp only at h5
  rw [hn'] at h5; dsimp only at h5
  split at h5
  · cases h5
  · rename_i t l heq
    have ht2 : t = r.req.tmpl := Except.ok.inj h5
    rw [ht2] at heq
    have hx : ∀ f : String, f ≠ "validity" → f.toList ∉ filterOptions templateKeys none
        (some "validity".toList) := by
      intro f hf hc
      have hv : filterOptions templateKeys none (some "validity".toList) = ["validity".toList] := by decide +kernel
      rw [hv] at hc
      exact hf (String.toList_inj.1 (List.mem_singleton.1 hc))
    have hb := C234_nothing_added rfl heq
    refine ⟨(C234_given_kept_partial heq).2.2.2.2.2.1 n (hx _ (by decide)) rfl,
      ((C234_extensions (hx _ (by decide)) heq).2 (.inl rfl)).1, ?_, h4, ?_, hb.2.2.2.2.2.1 rfl,
      C234_default_validity rfl rfl heq⟩
    · rw [h7]
      have hc : (keyArgs body a).controls = a.controls := rfl
      rw [hc]; unfold extendOpt
      by_cases hl : a.controls.getD [] = []
      · rw [if_pos hl, hl]; rfl
      · rw [if_neg hl]; rfl
    · cases hz : r.req.tmpl.rest.serial with
      | none => rfl
      | some z => cases hb.2.1 z hz

/-- Given messages are used as they are, and the key is not: the message is the same for all keys. -/
theorem C236_given_messages {env : ClEnv A K P N T X} {body : String} {p p' : P} {a : ReqArgs A N T X E}
    {l : List (ClReq A N T X E)} {m : ClMsg A N T X E} (h : fromKey env body p a (some l) = .ok m) :
    m.reqs = l ∧ fromKey env body p' a (some l) = .ok m := by
  refine ⟨?_, h⟩
  rw [(buildReqs_ok h).2]

/-- From a PKCS#10 request, its message comes after the given ones. -/
theorem C236_csr_appended {env : ClEnv A K P N T X} {body : String} {c : ClCsr A N X} {p : P} {a : ReqArgs A N T X E}
    {l : Option (List (ClReq A N T X E))} {m : ClMsg A N T X E} {l' : Option (List (ClReq A N T X E))}
    (h : fromCsr env body c p a l = .ok (m, l')) :
    ∃ t r, tmplFromCsr env c = .ok t ∧ m.reqs = l.getD [] ++ [r] ∧ r.req.tmpl = t ∧ r.req.id = a.id ∧
      l' = l.map (fun x => x ++ [r]) := by
  unfold fromCsr at h
  cases h1 : tmplFromCsr env c with
  | error e => rw [h1] at h; cases h
  | ok t =>
    rw [h1] at h; dsimp only at h
    cases h2 : prepReqMsg env p (csrArgs body t a) with
    | error e => rw [h2] at h; cases h
    | ok r =>
      rw [h2] at h; dsimp only at h
      cases h3 : buildReqs body a (l.getD [] ++ [r]) with
      | error e => rw [h3] at h; cases h
      | ok m' =>
        rw [h3] at h; dsimp only at h
        cases h
        obtain ⟨h4, h5, -⟩ := theReq_new (by rfl) (prepReqMsg_ok h2).1
        refine ⟨t, r, rfl, ?_, ?_, h5, rfl⟩
        · rw [(buildReqs_ok h3).2]
        · have h6 : reqTmpl env p (csrArgs body t a) = .ok t := rfl
          rw [h6] at h4; exact (Except.ok.inj h4).symm

/-- The list of the caller has the message afterwards too. -/
theorem C236_caller_list_refuted :
    ¬ ∀ c (p : Nat) (a : ReqArgs Nat String Nat Nat Unit) l m l', fromCsr exCl1 "ir" c p a l = .ok (m, l') →
      l' = l := by
  intro h
  have := h ⟨⟨some 0, [5]⟩, "CN=EE", none⟩ 5 {} (some []) _ _ rfl
  exact absurd this (by decide +kernel)

/-- Only `ir` uses a given `SubjectPublicKeyInfo` or `CertRequest`; for `cr`, `krr` and `ccr` they change nothing. -/
theorem C236_spki_ignored {env : ClEnv A K P N T X} {body : String} {p : P} (a : ReqArgs A N T X E)
    (s : Option (Spki A)) (q : Option (ClCertReq A N T X)) (hb : body ≠ "ir")
    (l : Option (List (ClReq A N T X E))) :
    fromKey env body p { a with spki := s, req := q } l = fromKey env body p a l := by
  have h1 : keyArgs body { a with spki := s, req := q } = keyArgs body a := by
    unfold keyArgs; dsimp only; rw [if_neg hb, if_neg hb, if_neg hb, if_neg hb]
  unfold fromKey
  rw [h1]; rfl

theorem C236_spki_refuted :
    ¬ ∀ body ∈ ["ir", "cr", "ccr"], ∀ (p : Nat) (a : ReqArgs Nat String Nat Nat Unit) m s, a.spki = some s →
      a.tmpl = none → a.req = none → a.forKga = false → fromKey exCl1 body p a none = .ok m →
      ∀ r ∈ m.reqs, r.req.tmpl.key = some s := by
  intro h
  have := h "cr" (by decide) 7 { name := some (.text "CN=EE"), spki := some ⟨some 1, [9]⟩ } _ _ rfl rfl rfl rfl rfl
    _ List.mem_cons_self
  exact absurd this (by decide +kernel)

/-- None of the functions for messages lets the caller leave out the proof or ask for a challenge. -/
theorem C236_proof_wishes_ignored {env : ClEnv A K P N T X} {body : String} {p : P} (a : ReqArgs A N T X E)
    (b c : Bool) (l : Option (List (ClReq A N T X E))) :
    fromKey env body p { a with noPopo := b, encr := c } l = fromKey env body p a l := rfl

/-! ## Key updates -/

theorem buildKur_ok {env : ClEnv A K P N T X} {p : P} {cert : Option (ClCert A N T X)} {use ce : Bool}
    {a : ReqArgs A N T X E} {l : Option (List (ClReq A N T X E))} {m : ClMsg A N T X E}
    (h : buildKur env p cert use ce a l = .ok m) :
    ∃ t cs rs, kurTmpl env p cert ce (a.name.getD (.text "CN=Hans Mustermann")) a = .ok t ∧
      clKurControls env cert use a.controls = .ok cs ∧
      kurReqs env p l (kurArgs t (a.name.getD (.text "CN=Hans Mustermann")) cs a) = .ok rs ∧
      m = ⟨"kur", parsePvno a.pvno a.forKga, rs⟩ := by
  unfold buildKur at h; dsimp only at h
  cases h1 : kurTmpl env p cert ce (a.name.getD (.text "CN=Hans Mustermann")) a with
  | error e => rw [h1] at h; cases h
  | ok t =>
    rw [h1] at h; dsimp only at h
    cases h2 : clKurControls env cert use a.controls with
    | error e => rw [h2] at h; cases h
    | ok cs =>
      rw [h2] at h; dsimp only at h
      cases h3 : kurReqs env p l (kurArgs t (a.name.getD (.text "CN=Hans Mustermann")) cs a) with
      | error e => rw [h3] at h; cases h
      | ok rs =>
        rw [h3] at h; dsimp only at h
        exact ⟨t, cs, rs, rfl, rfl, h3, (buildReqs_ok h).2⟩

theorem kurTmpl_ok {env : ClEnv A K P N T X} {p : P} {cert : Option (ClCert A N T X)} {ce : Bool} {n : ClName N}
    {a : ReqArgs A N T X E} {t : ClTmpl A N T X} (ht : a.tmpl = none) (h : kurTmpl env p cert ce n a = .ok t) :
    ∃ l, prepTmpl env { key := some (.inl p), cert := cert, subject := some n,
                        excl := some "serialNumber,validity".toList, forKga := a.forKga, exts := a.exts,
                        spki := a.spki, certExts := ce } = .ok (t, l) := by
  unfold kurTmpl at h
  rw [ht] at h; dsimp only at h
  split at h
  · cases h
  · rename_i t' l heq
    cases h
    exact ⟨l, heq⟩

/-- A key update has one request with the new key, the given subject, neither serial number nor validity, and with the
controls of the certificate that is updated; the CA accepts its proof. -/
theorem C236_kur_partial [DecidableEq C] [DecidableEq M] {env : ClEnv A K P N T X}
    {ra : RaEnv A K S (ClRest A N T X) E C M Y G} {p : P} (ha : ClAgree env ra p) {c : ClCert A N T X}
    (hf : Faithful env c) {a : ReqArgs A N T X E} {n : N} {m : ClMsg A N T X E} {ce : Bool}
    (ht : a.tmpl = none) (hs : a.spki = none) (hg : a.forKga = false) (hp : a.popo = none) (hr : a.ra = false)
    (hd : env.isDh p = false) (hbad : a.badPop = false) (hn : a.name = some (.name n))
    (h : buildKur env p (some c) true ce a none = .ok m) (e v : Bool) :
    ∃ r s, m.reqs = [r] ∧ m.body = "kur" ∧ env.spkiOf (env.pub p) = .ok s ∧ r.req.tmpl.key = some s ∧
      r.req.tmpl.rest.subject = some n ∧ r.req.tmpl.rest.serial = none ∧ r.req.tmpl.rest.validity = none ∧
      r.req.controls = some [.oldCert c.issuer c.serial] ∧
      verifyPopo ra e v (m.toMsg (C := C) env) 0 = .ok () := by
  obtain ⟨t, cs, rs, h1, h2, h3, rfl⟩ := buildKur_ok h
  obtain ⟨l, h4⟩ := kurTmpl_ok ht h1
  unfold kurReqs at h3; dsimp only at h3
  cases h5 : prepReqMsg env p (kurArgs t (a.name.getD (.text "CN=Hans Mustermann")) cs a) with
  | error e => rw [h5] at h3; cases h3
  | ok r =>
    rw [h5] at h3; dsimp only at h3
    cases h3
    obtain ⟨h6, -, h7⟩ := theReq_new (by rfl) (prepReqMsg_ok h5).1
    have h8 : r.req.tmpl = t := by
      have h9 : reqTmpl env p (kurArgs t (a.name.getD (.text "CN=Hans Mustermann")) cs a) = .ok t := rfl
      rw [h9] at h6; exact (Except.ok.inj h6).symm
    have hv : filterOptions templateKeys none (some "serialNumber,validity".toList) =
        ["serialNumber".toList, "validity".toList] := by decide +kernel
    have hx : "publicKey".toList ∉ filterOptions templateKeys none (some "serialNumber,validity".toList) := by
      rw [hv]; decide +kernel
    have hx2 : "subject".toList ∉ filterOptions templateKeys none (some "serialNumber,validity".toList) := by
      rw [hv]; decide +kernel
    rw [hs, hg, hn] at h4
    obtain ⟨s, h10, h11⟩ := (C234_key hx h4).2.2.1 p rfl rfl
    have h12 := C234_excluded_absent h4
    have h13 := (C234_given_kept_partial h4).2.2.2.2.2.1 n hx2 rfl
    have h14 : r.req.tmpl.key = some s := by rw [h8]; exact h11
    refine ⟨r, s, rfl, rfl, h10, h14, by rw [h8]; exact h13, ?_, ?_, ?_, ?_⟩
    · rw [h8]
      refine h12.2.1 ?_
      show "serialNumber".toList ∈ filterOptions templateKeys none (some "serialNumber,validity".toList)
      decide +kernel
    · rw [h8]
      refine h12.2.2.2.2.1 ?_
      show "validity".toList ∈ filterOptions templateKeys none (some "serialNumber,validity".toList)
      decide +kernel
    · unfold clKurControls at h2
      rw [if_pos rfl] at h2; dsimp only at h2
      cases h15 : prepControls env (some c) none none none with
      | error e => rw [h15] at h2; cases h2
      | ok w =>
        obtain ⟨w, w'⟩ := w
        rw [h15] at h2; dsimp only at h2
        cases h2
        rw [h7]
        have h16 := C237_controls_kept hf h15
        subst h16
        rfl
    · exact C235_pop_accepted ha (by exact hg) (by exact hp) (by exact hr) hd rfl (by exact hbad) h5 h10 h14
        (m := ClMsg.toMsg env ⟨"kur", _, [r]⟩)
        (List.mem_cons_of_mem _ (List.mem_cons_of_mem _ List.mem_cons_self)) rfl e v

example : ∃ m, buildKur exCl1 9 (some exClCert) true false { name := some (.text "CN=EE") } none = .ok m ∧
    m.reqs.map (fun r => (r.req.tmpl, r.req.controls)) =
      [(⟨some ⟨some 0, [9]⟩, { issuer := some "CN=CA", subject := some "CN=EE" }⟩, some [.oldCert "CN=CA" 77])] ∧
    verifyPopo exClRa true true (m.toMsg exCl1) 0 = .ok () := ⟨_, rfl, rfl, rfl⟩

/-- A key update for a certificate does not keep its subject if no name is given. -/
theorem C236_kur_subject_refuted :
    ¬ ∀ (p : Nat) c (a : ReqArgs Nat String Nat Nat Unit) m, a.name = none → a.tmpl = none →
      buildKur exCl1 p (some c) false false a none = .ok m →
      ∀ r ∈ m.reqs, r.req.tmpl.rest.subject = some c.subject := by
  intro h
  have := h 9 exClCert {} _ rfl rfl rfl _ List.mem_cons_self
  exact absurd this (by decide +kernel)

/-- The controls of the caller are dropped if those of the certificate are used. -/
theorem C236_kur_controls_refuted :
    ¬ ∀ (p : Nat) c (a : ReqArgs Nat String Nat Nat Unit) m l, a.controls = some l →
      buildKur exCl1 p (some c) true false a none = .ok m →
      ∀ r ∈ m.reqs, ∀ x ∈ l, x ∈ r.req.controls.getD [] := by
  intro h
  have := h 9 exClCert { controls := some [.remGen true] } _ _ rfl rfl _ List.mem_cons_self _ List.mem_cons_self
  exact absurd this (by decide +kernel)

/-- Controls of a key update need a certificate. -/
theorem C236_kur_needs_cert (env : ClEnv A K P N T X) (p : P) (ce : Bool) (a : ReqArgs A N T X E)
    (l : Option (List (ClReq A N T X E))) : ∀ m, buildKur env p none true ce a l ≠ .ok m := by
  intro m h
  obtain ⟨t, cs, rs, -, h2, -⟩ := buildKur_ok h
  cases h2

end Verif.Ra
