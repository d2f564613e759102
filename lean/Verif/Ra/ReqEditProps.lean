import Verif.Ra.ReqBuildProps

/-!
# Properties of changes of a request message by the client
-/

namespace Verif.Ra

open Verif.CA hiding Bytes Msg
open Verif.Check hiding Spki

variable {A K P N T X E S C M Y G : Type}

/-- A change of a message by the functions of the client. -/
inductive Edit (A N X : Type) where
  | regInfo (l : List (List Nat × Bytes)) (i : Option Nat)
  | controls (l : List (ClCtl A N)) (i : Option Nat)
  | exts (l : List X) (i : Option Nat)

/-- The change is made. -/
def Edit.run (m : ClMsg A N T X E) : Edit A N X → Except PyErr (ClMsg A N T X E)
  | .regInfo l i => addRegInfo l i m
  | .controls l i => addControls l i m
  | .exts l i => addExts l i m

/-- The changes are made, one after the other. -/
def runEdits (m : ClMsg A N T X E) : List (Edit A N X) → Except PyErr (ClMsg A N T X E)
  | [] => .ok m
  | x :: l =>
    match x.run m with
    | .error e => .error e
    | .ok m' => runEdits m' l

theorem editAt_ok {f : ClReq A N T X E → ClReq A N T X E} {i : Option Nat} {m m' : ClMsg A N T X E}
    (h : editAt f i m = .ok m') :
    m.body ∈ ["ir", "cr", "kur", "ccr"] ∧ m'.body = m.body ∧ m'.pvno = m.pvno ∧
      ((i = none ∧ m'.reqs = m.reqs.map f) ∨ ∃ j, i = some j ∧ j < m.reqs.length ∧ m'.reqs = m.reqs.modify j f) := by
  unfold editAt at h
  by_cases hb : m.body ∈ ["ir", "cr", "kur", "ccr"]
  · rw [if_pos hb] at h
    cases i with
    | none => dsimp only at h; cases h; exact ⟨hb, rfl, rfl, .inl ⟨rfl, rfl⟩⟩
    | some j =>
      dsimp only at h
      split at h
      · rename_i hj; cases h; exact ⟨hb, rfl, rfl, .inr ⟨j, rfl, hj, rfl⟩⟩
      · cases h
  · rw [if_neg hb] at h; cases h

/-- Other bodies than the four with certificate requests are refused by all changes, also `krr`, that the client can
build. -/
theorem C238_bodies {m : ClMsg A N T X E} (hb : m.body ∉ ["ir", "cr", "kur", "ccr"]) (x : Edit A N X)
    (env : ClEnv A K P N T X) (i : Nat) (p : Option P) (q : Option (Popo A E)) (h : Option String) (b : Bool) :
    x.run m = .error .valueError ∧ updatePopo env i p q h b m = .error .valueError := by
  constructor
  · cases x <;> exact if_neg hb
  · unfold updatePopo
    rw [if_neg hb]
    split <;> rfl

/-- What a change does to the requests: with an index, the request there, else all of them. -/
def Touched (i : Option Nat) (j : Nat) : Prop := i = none ∨ i = some j

/-- A change keeps the number of requests, the body, the version, and every request that it is not for; of the others it
keeps the identifier and the key. -/
theorem C238_others_kept {m m' : ClMsg A N T X E} {x : Edit A N X} (h : x.run m = .ok m') :
    m'.body = m.body ∧ m'.pvno = m.pvno ∧ m'.reqs.length = m.reqs.length ∧
    ∀ j : Nat, ∀ r, m.reqs[j]? = some r → ∃ r', m'.reqs[j]? = some r' ∧ r'.popo = r.popo ∧ r'.req.id = r.req.id ∧
      r'.req.tmpl.key = r.req.tmpl.key ∧ r'.req.tmpl.rest.subject = r.req.tmpl.rest.subject ∧
      (¬ Touched (match x with | .regInfo _ i => i | .controls _ i => i | .exts _ i => i) j → r' = r) := by
  have key : ∀ (f : ClReq A N T X E → ClReq A N T X E) (i : Option Nat),
      (∀ r, (f r).popo = r.popo ∧ (f r).req.id = r.req.id ∧ (f r).req.tmpl.key = r.req.tmpl.key ∧
        (f r).req.tmpl.rest.subject = r.req.tmpl.rest.subject) →
      editAt f i m = .ok m' →
      m'.body = m.body ∧ m'.pvno = m.pvno ∧ m'.reqs.length = m.reqs.length ∧
      ∀ j : Nat, ∀ r, m.reqs[j]? = some r → ∃ r', m'.reqs[j]? = some r' ∧ r'.popo = r.popo ∧ r'.req.id = r.req.id ∧
        r'.req.tmpl.key = r.req.tmpl.key ∧ r'.req.tmpl.rest.subject = r.req.tmpl.rest.subject ∧
        (¬ Touched i j → r' = r) := by
    intro f i hf he
    obtain ⟨-, h1, h2, h3⟩ := editAt_ok he
    rcases h3 with ⟨hi, h3⟩ | ⟨k, hi, -, h3⟩
    · refine ⟨h1, h2, by rw [h3, List.length_map], fun j r hr => ⟨f r, ?_, (hf r).1, (hf r).2.1, (hf r).2.2.1,
        (hf r).2.2.2, fun hc => absurd (.inl hi) hc⟩⟩
      rw [h3, List.getElem?_map, hr]; rfl
    · refine ⟨h1, h2, by rw [h3, List.length_modify], fun j r hr => ?_⟩
      rw [h3, List.getElem?_modify, hr]
      by_cases hkj : k = j
      · exact ⟨f r, congrArg some (if_pos hkj), (hf r).1, (hf r).2.1, (hf r).2.2.1, (hf r).2.2.2,
          fun hc => absurd (.inr (by rw [hi, hkj])) hc⟩
      · exact ⟨r, congrArg some (if_neg hkj), rfl, rfl, rfl, rfl, fun _ => rfl⟩
  cases x with
  | regInfo l i => exact key _ i (by intro r; exact ⟨rfl, rfl, rfl, rfl⟩) h
  | controls l i => exact key _ i (by intro r; exact ⟨rfl, rfl, rfl, rfl⟩) h
  | exts l i => exact key _ i (by intro r; exact ⟨rfl, rfl, rfl, rfl⟩) h

/-- What is added comes after what is there. -/
theorem C238_appended {m m' : ClMsg A N T X E} {i : Option Nat} {j : Nat} {r : ClReq A N T X E}
    (hr : m.reqs[j]? = some r) (ht : Touched i j) :
    (∀ l, addRegInfo l i m = .ok m' → ∃ r', m'.reqs[j]? = some r' ∧ r'.regInfo.getD [] = r.regInfo.getD [] ++ l ∧
      r'.req = r.req) ∧
    (∀ l, addControls l i m = .ok m' → ∃ r', m'.reqs[j]? = some r' ∧
      r'.req.controls.getD [] = r.req.controls.getD [] ++ l ∧ r'.req.tmpl = r.req.tmpl ∧ r'.regInfo = r.regInfo) ∧
    (∀ l, addExts l i m = .ok m' → ∃ r', m'.reqs[j]? = some r' ∧
      r'.req.tmpl.rest.exts = r.req.tmpl.rest.exts ++ l ∧ r'.req.controls = r.req.controls ∧
      r'.regInfo = r.regInfo) := by
  have key : ∀ (f : ClReq A N T X E → ClReq A N T X E), editAt f i m = .ok m' → m'.reqs[j]? = some (f r) := by
    intro f he
    obtain ⟨-, -, -, h3⟩ := editAt_ok he
    rcases h3 with ⟨-, h3⟩ | ⟨k, hi, -, h3⟩
    · rw [h3, List.getElem?_map, hr]; rfl
    · have hk : k = j := by
        rcases ht with ht | ht
        · rw [ht] at hi; cases hi
        · rw [ht] at hi; cases hi; rfl
      rw [h3, List.getElem?_modify, hr]; exact congrArg some (if_pos hk)
  have hext : ∀ {W : Type} (o : Option (List W)) (l : List W), (extendOpt o l).getD [] = o.getD [] ++ l := by
    intro W o l
    unfold extendOpt
    by_cases hl : l = []
    · rw [if_pos hl, hl, List.append_nil]
    · rw [if_neg hl]; rfl
  refine ⟨fun l h => ⟨_, key _ h, hext _ _, rfl⟩, fun l h => ⟨_, key _ h, hext _ _, rfl, rfl⟩,
    fun l h => ⟨_, key _ h, rfl, rfl, rfl⟩⟩

theorem updatePopo_ok {env : ClEnv A K P N T X} {i : Nat} {p : P} {hash : Option String} {b : Bool}
    {m m' : ClMsg A N T X E} (h : updatePopo env i (some p) none hash b m = .ok m') :
    m.body ∈ ["ir", "cr", "kur", "ccr"] ∧ ∃ r q, m.reqs[i]? = some r ∧
      prepSigPop env p (some r.req) hash b false none = .ok q ∧
      m' = { m with reqs := m.reqs.set i { r with popo := some q } } := by
  unfold updatePopo at h
  rw [if_neg (fun hc => by cases hc.2)] at h
  by_cases hb : m.body ∈ ["ir", "cr", "kur", "ccr"]
  · rw [if_pos hb] at h
    refine ⟨hb, ?_⟩
    cases h1 : m.reqs[i]? with
    | none => rw [h1] at h; cases h
    | some r =>
      rw [h1] at h; dsimp only at h
      unfold popFor at h; dsimp only at h
      cases h2 : prepSigPop (E := E) env p (some r.req) hash b false none with
      | error e => rw [h2] at h; cases h
      | ok q => rw [h2] at h; cases h; exact ⟨r, q, rfl, h2, rfl⟩
  · rw [if_neg hb] at h; cases h

theorem runEdits_key {m m' : ClMsg A N T X E} {l : List (Edit A N X)} (h : runEdits m l = .ok m') :
    m'.body = m.body ∧ m'.reqs.length = m.reqs.length ∧ ∀ j : Nat, ∀ r, m.reqs[j]? = some r →
      ∃ r', m'.reqs[j]? = some r' ∧ r'.req.tmpl.key = r.req.tmpl.key := by
  induction l generalizing m with
  | nil => cases h; exact ⟨rfl, rfl, fun j r hr => ⟨r, hr, rfl⟩⟩
  | cons x l ih =>
    unfold runEdits at h
    cases h1 : x.run m with
    | error e => rw [h1] at h; cases h
    | ok m1 =>
      rw [h1] at h; dsimp only at h
      obtain ⟨h2, h3, h4⟩ := ih h
      obtain ⟨h5, -, h6, h7⟩ := C238_others_kept h1
      refine ⟨h2.trans h5, h3.trans h6, fun j r hr => ?_⟩
      obtain ⟨r1, h8, -, -, h9, -⟩ := h7 j r hr
      obtain ⟨r', h10, h11⟩ := h4 j r1 h8
      exact ⟨r', h10, h11.trans h9⟩

/-- After any changes of a message, `update_popo` with the key of the request makes a proof that the CA verifies. -/
theorem C238_update_popo {env : ClEnv A K P N T X} {ra : RaEnv A K S (ClRest A N T X) E C M Y G} {p : P}
    (ha : ClAgree env ra p) (h1 : env.isKem p = false) (h2 : env.isXdh p = false) (h3 : env.isDh p = false)
    {m m1 m2 : ClMsg A N T X E} {l : List (Edit A N X)} {i : Nat} {hash : Option String} {r : ClReq A N T X E}
    {s : Spki A} (hr : m.reqs[i]? = some r) (hs : env.spkiOf (env.pub p) = .ok s) (hk : r.req.tmpl.key = some s)
    (he : runEdits m l = .ok m1) (hu : updatePopo env i (some p) none hash false m1 = .ok m2) :
    verifyPopSig ra (m2.toMsg (C := C) env) i = .ok () ∧ m2.reqs.length = m.reqs.length ∧
      ∀ j : Nat, j ≠ i → m2.reqs[j]? = m1.reqs[j]? := by
  obtain ⟨h4, h5, h6⟩ := runEdits_key he
  obtain ⟨hb, r1, q, h7, h8, rfl⟩ := updatePopo_ok hu
  obtain ⟨r', h9, h10⟩ := h6 i r hr
  rw [h7] at h9; cases h9
  obtain ⟨sig, g, h11, h12, rfl⟩ := prepSigPop_ok h8
  rw [if_neg (by decide)] at hu
  refine ⟨?_, by rw [← h5]; exact List.length_set, fun j hj => List.getElem?_set_ne (fun hc => hj hc.symm)⟩
  have hlt : i < m1.reqs.length := (List.getElem?_eq_some_iff.1 h7).1
  have hget : getReq (ClMsg.toMsg (C := C) env
      { m1 with reqs := m1.reqs.set i { r1 with popo := some (.signature g (if false then env.damage p sig else sig)) } })
      i = .ok (({ r1 with popo := some (.signature g sig) } : ClReq A N T X E).toReq env) := by
    unfold getReq ClMsg.toMsg; dsimp only
    rw [if_pos hb, List.getElem?_map, List.getElem?_set_self hlt]
    rfl
  unfold verifyPopSig
  rw [hget]; dsimp only
  have hp : (({ r1 with popo := some (.signature g sig) } : ClReq A N T X E).toReq env).popo =
      some (.signature g sig) := rfl
  rw [hp]; dsimp only
  rw [popSigned_agree (r := { r1 with popo := some (.signature g sig) }) ha hs (h10.trans hk) h1 h2 h3]
  have h13 := ha.sign _ _ _ _ h11 h12
  dsimp only
  rw [h13]

/-- The CA verifies no signature of a key but those that were made for the same data. -/
def Exact (env : ClEnv A K P N T X) (ra : RaEnv A K S (ClRest A N T X) E C M Y G) (p : P) : Prop :=
  ∀ h g d d' sig, env.sign p h false d = .ok sig → d' ≠ d →
    ra.verifyAlg (env.pub p) g d' sig = .error .invalidSignature

theorem popSigned_changed {env : ClEnv A K P N T X} {ra : RaEnv A K S (ClRest A N T X) E C M Y G} {p : P}
    (ha : ClAgree env ra p) (hx : Exact env ra p) (h1 : env.isKem p = false) (h2 : env.isXdh p = false)
    (h3 : env.isDh p = false) {m' : ClMsg A N T X E} {i : Nat} {r r' : ClReq A N T X E} {s : Spki A}
    (hs : env.spkiOf (env.pub p) = .ok s) (hk : r'.req.tmpl.key = some s) {hash : Option String} {g : A} {sig : Bytes}
    (hsig : env.sign p hash false (r.req.der env) = .ok sig) (hp : r'.popo = some (.signature g sig))
    (hb : m'.body ∈ ["ir", "cr", "kur", "ccr"]) (hr' : m'.reqs[i]? = some r')
    (hne : r'.req.der env ≠ r.req.der env) :
    verifyPopSig ra (m'.toMsg (C := C) env) i = .error .badPOP := by
  have hget : getReq (ClMsg.toMsg (C := C) env m') i = .ok (r'.toReq env) := by
    unfold getReq ClMsg.toMsg; dsimp only
    rw [if_pos hb, List.getElem?_map, hr']; rfl
  unfold verifyPopSig
  rw [hget]; dsimp only
  have hp' : (r'.toReq env).popo = some (.signature g sig) := hp
  rw [hp']; dsimp only
  rw [popSigned_agree ha hs hk h1 h2 h3, hx _ g _ _ _ hsig hne]
  rfl

/-- Without `update_popo`, a request to which controls or extensions were added has a proof that the CA refuses. -/
theorem C238_stale_popo {env : ClEnv A K P N T X} {ra : RaEnv A K S (ClRest A N T X) E C M Y G} {p : P}
    (ha : ClAgree env ra p) (hx : Exact env ra p)
    (hinj : ∀ i t c i' t' c', env.encReq i t c = env.encReq i' t' c' → c.getD [] = c'.getD [] ∧ t.rest.exts = t'.rest.exts)
    (h1 : env.isKem p = false) (h2 : env.isXdh p = false) (h3 : env.isDh p = false)
    {m m' : ClMsg A N T X E} {i : Option Nat} {j : Nat} {r : ClReq A N T X E} {s : Spki A} (ht : Touched i j)
    (hr : m.reqs[j]? = some r) (hs : env.spkiOf (env.pub p) = .ok s) (hk : r.req.tmpl.key = some s)
    {hash : Option String} {g : A} {sig : Bytes} (hsig : env.sign p hash false (r.req.der env) = .ok sig)
    (hp : r.popo = some (.signature g sig)) :
    (∀ l, l ≠ [] → addControls l i m = .ok m' → verifyPopSig ra (m'.toMsg (C := C) env) j = .error .badPOP) ∧
    (∀ l, l ≠ [] → addExts l i m = .ok m' → verifyPopSig ra (m'.toMsg (C := C) env) j = .error .badPOP) ∧
    (∀ l, addRegInfo l i m = .ok m' → env.sigAlg p hash false = .ok g →
      verifyPopSig ra (m'.toMsg (C := C) env) j = .ok ()) := by
  have happ : ∀ {W : Type} (a l : List W), l ≠ [] → a ++ l ≠ a := by
    intro W a l hl hc
    exact hl (List.append_right_eq_self.1 hc)
  refine ⟨fun l hl h => ?_, fun l hl h => ?_, fun l h hal => ?_⟩
  · obtain ⟨r', h4, h5, h6, -⟩ := (C238_appended hr ht).2.1 l h
    obtain ⟨h7, -, -, h8⟩ := C238_others_kept (x := .controls l i) h
    obtain ⟨r'', h9, h10, -, h11, -⟩ := h8 j r hr
    rw [h4] at h9; cases h9
    refine popSigned_changed ha hx h1 h2 h3 hs (h11.trans hk) hsig (h10.trans hp) (h7 ▸ (editAt_ok h).1) h4 ?_
    intro hc
    have h12 := (hinj _ _ _ _ _ _ hc).1
    rw [h5] at h12
    exact happ _ l hl h12
  · obtain ⟨r', h4, h5, h6, -⟩ := (C238_appended hr ht).2.2 l h
    obtain ⟨h7, -, -, h8⟩ := C238_others_kept (x := .exts l i) h
    obtain ⟨r'', h9, h10, -, h11, -⟩ := h8 j r hr
    rw [h4] at h9; cases h9
    refine popSigned_changed ha hx h1 h2 h3 hs (h11.trans hk) hsig (h10.trans hp) (h7 ▸ (editAt_ok h).1) h4 ?_
    intro hc
    have h12 := (hinj _ _ _ _ _ _ hc).2
    rw [h5] at h12
    exact happ _ l hl h12
  · obtain ⟨r', h4, h5, h6⟩ := (C238_appended hr ht).1 l h
    obtain ⟨h7, -, -, h8⟩ := C238_others_kept (x := .regInfo l i) h
    obtain ⟨r'', h9, h10, -, h11, -⟩ := h8 j r hr
    rw [h4] at h9; cases h9
    have hb : m'.body ∈ ["ir", "cr", "kur", "ccr"] := h7 ▸ (editAt_ok h).1
    have hget : getReq (ClMsg.toMsg (C := C) env m') j = .ok (r'.toReq env) := by
      unfold getReq ClMsg.toMsg; dsimp only
      rw [if_pos hb, List.getElem?_map, h4]; rfl
    unfold verifyPopSig
    rw [hget]; dsimp only
    have hp' : (r'.toReq env).popo = some (.signature g sig) := h10.trans hp
    rw [hp']; dsimp only
    rw [popSigned_agree ha hs (h11.trans hk) h1 h2 h3, h6, ha.sign _ _ _ _ hsig hal]

/-- A request, changed twice: refused, and accepted with a new proof. -/
example : ∃ m m1 m2, fromKey exCl1 "ir" 7 { name := some (.text "CN=EE") } none = .ok m ∧
    runEdits m [.controls [.remGen true] (some 0), .exts [3] none] = .ok m1 ∧
    verifyPopSig exClRa (m1.toMsg exCl1) 0 = .error .badPOP ∧
    updatePopo exCl1 0 (some 7) none (some "sha256") false m1 = .ok m2 ∧
    verifyPopSig exClRa (m2.toMsg exCl1) 0 = .ok () :=
  ⟨_, _, _, rfl, rfl, by decide +kernel, rfl, by decide +kernel⟩

/-- A given proof is put in the message as it is; without a proof and a key nothing is done. -/
theorem C238_given_popo {env : ClEnv A K P N T X} {i : Nat} {p : Option P} {hash : Option String} {b : Bool}
    {m : ClMsg A N T X E} {r : ClReq A N T X E} {q : Popo A E} (hb : m.body ∈ ["ir", "cr", "kur", "ccr"])
    (hr : m.reqs[i]? = some r) :
    (∃ m', updatePopo env i p (some q) hash b m = .ok m' ∧ m'.reqs[i]? = some { r with popo := some q }) ∧
    updatePopo env i none none hash b m = .error .valueError := by
  constructor
  · unfold updatePopo
    rw [if_neg (fun hc => by cases hc.1), if_pos hb, hr]
    refine ⟨_, rfl, ?_⟩
    exact List.getElem?_set_self (List.getElem?_eq_some_iff.1 hr).1
  · unfold updatePopo
    rw [if_pos ⟨rfl, rfl⟩]

end Verif.Ra
