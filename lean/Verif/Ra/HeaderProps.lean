import Verif.Ra.Header

/-!
# C160: transaction identifiers and nonces of a transaction
-/

namespace Verif.Ra

open Verif.CA

variable {N : Type}

/-- The value is present and not empty. -/
def Filled (f : Option (List UInt8)) : Prop := ∃ x, f = some x ∧ x ≠ []

/-- The message belongs to the transaction of the other one, as its answer. -/
def Answers (q p : Header N) : Prop := p.tid = q.tid ∧ p.recipNonce = q.senderNonce

/-- The messages answer each other. -/
def Answering : Header N → List (Header N) → Prop
  | _, [] => True
  | q, p :: ps => Answers q p ∧ Answering p ps

theorem orBytes_ne {a : Option (List UInt8)} {b : List UInt8} (hb : b ≠ []) : orBytes a b ≠ [] := by
  unfold orBytes
  cases a with
  | none => exact hb
  | some x =>
    dsimp only
    split
    · exact hb
    · assumption

theorem orBytes_set {x b : List UInt8} (hx : x ≠ []) : orBytes (some x) b = x := if_neg hx

/-- **C160 (partial).** The response to a request whose transaction identifier and nonce are not empty has its
transaction identifier and its version, its nonce as `recipNonce`, and is for its sender; its own nonce is the
`recipNonce` of the request, or random if there is none. -/
theorem C160_response_partial (kid : Option (List UInt8) → N → List UInt8) (dflt : N × List UInt8)
    (r : Fin 5 → List UInt8) (q : Header N) (ca : N) (hr : ∀ i, r i ≠ []) (ht : Filled q.tid) (hn : Filled q.senderNonce) :
    ∃ p, caHeader kid dflt r q { sender := ca } = .ok p ∧ Answers q p ∧ p.pvno = q.pvno ∧ p.recipient = q.sender ∧
      p.sender = ca ∧ (∀ k, q.senderKid = some k → k ≠ [] → p.recipKid = some k) ∧ Filled p.tid ∧ Filled p.senderNonce ∧
      (q.recipNonce = none → p.senderNonce = some (r 0)) ∧ (Filled q.recipNonce → p.senderNonce = q.recipNonce) := by
  obtain ⟨t, ht, htn⟩ := ht
  obtain ⟨n, hn, hnn⟩ := hn
  unfold caHeader setCaHeader orField
  rw [ht, hn]
  dsimp only
  refine ⟨_, rfl, ⟨?_, ?_⟩, rfl, rfl, rfl, ?_, ?_, ?_, ?_, ?_⟩
  · show some (orBytes (some t) _) = _
    rw [orBytes_set htn, ht]
  · show (match (some n : Option (List UInt8)) with
      | some (x :: l) => some (x :: l)
      | _ => none) = _
    rw [hn]
    cases n with
    | nil => exact absurd rfl hnn
    | cons x l => rfl
  · intro k hk hkn
    show some (orBytes (match q.senderKid with
      | none => none
      | some k => some (orBytes none k)) _) = _
    rw [hk]
    exact congrArg some (orBytes_set hkn)
  · exact ⟨_, rfl, by rw [orBytes_set htn]; exact htn⟩
  · exact ⟨_, rfl, orBytes_ne (hr 3)⟩
  · intro hq
    show some (orBytes (some (orBytes (some (altNonce (r 0) (r 1) q true)) (r 4))) (r 3)) = _
    have : altNonce (r 0) (r 1) q true = r 0 := by simp [altNonce, hq]
    rw [this, orBytes_set (hr 0), orBytes_set (hr 0)]
  · rintro ⟨x, hq, hx⟩
    show some (orBytes (some (orBytes (some (altNonce (r 0) (r 1) q true)) (r 4))) (r 3)) = _
    have : altNonce (r 0) (r 1) q true = x := by simp [altNonce, hq]
    rw [this, orBytes_set hx, orBytes_set hx, hq]

/-- **C160 (partial).** The next message of the client has the transaction identifier of the response, its nonce as
`recipNonce`, and a random nonce of its own. -/
theorem C160_client_partial (kid : Option (List UInt8) → N → List UInt8) (dflt : N × List UInt8)
    (r : Fin 5 → List UInt8) (q : Header N) (client : N) (hr : ∀ i, r i ≠ []) (ht : Filled q.tid) (hn : Filled q.senderNonce) :
    ∃ p, clientHeader kid dflt r q { sender := client } = .ok p ∧ Answers q p ∧ Filled p.tid ∧
      p.senderNonce = some (r 0) := by
  obtain ⟨t, ht, htn⟩ := ht
  obtain ⟨n, hn, hnn⟩ := hn
  unfold clientHeader clientArgs
  rw [ht, hn]
  dsimp only
  rw [if_pos rfl]
  dsimp only
  refine ⟨_, rfl, ⟨?_, ?_⟩, ?_, ?_⟩
  · show some (orBytes (some t) _) = _
    rw [orBytes_set htn, ht]
  · show (match (some n : Option (List UInt8)) with
      | some (x :: l) => some (x :: l)
      | _ => none) = _
    rw [hn]
    cases n with
    | nil => exact absurd rfl hnn
    | cons x l => rfl
  · exact ⟨_, rfl, by show orBytes (some t) _ ≠ _; rw [orBytes_set htn]; exact htn⟩
  · show some (orBytes (some (r 0)) _) = _
    rw [orBytes_set (hr 0)]

/-- **C160 (partial).** In a transaction of any length, in which the values of the first message and the random values
are not empty, each message has the transaction identifier of the first one and the nonce of the one before it. -/
theorem C160_transaction_partial (kid : Option (List UInt8) → N → List UInt8) (dflt : N × List UInt8) (ca client : N)
    (turn : Bool) (q : Header N) (rs : List (Fin 5 → List UInt8)) (hr : ∀ r ∈ rs, ∀ i, r i ≠ []) (ht : Filled q.tid)
    (hn : Filled q.senderNonce) :
    ∃ ps, exchange kid dflt ca client turn q rs = .ok ps ∧ ps.length = rs.length ∧ Answering q ps ∧
      ∀ p ∈ ps, p.tid = q.tid := by
  induction rs generalizing turn q with
  | nil => exact ⟨[], rfl, rfl, trivial, nofun⟩
  | cons r rs ih =>
    have hr0 := hr r (List.mem_cons_self ..)
    have step : ∃ p, (if turn then caHeader kid dflt r q { sender := ca }
        else clientHeader kid dflt r q { sender := client }) = .ok p ∧ Answers q p ∧ Filled p.tid ∧ Filled p.senderNonce := by
      cases turn with
      | true =>
        obtain ⟨p, h1, h2, -, -, -, -, h3, h4, -⟩ := C160_response_partial kid dflt r q ca hr0 ht hn
        exact ⟨p, h1, h2, h3, h4⟩
      | false =>
        obtain ⟨p, h1, h2, h3, h4⟩ := C160_client_partial kid dflt r q client hr0 ht hn
        exact ⟨p, h1, h2, h3, _, h4, hr0 0⟩
    obtain ⟨p, hp, ha, hpt, hpn⟩ := step
    obtain ⟨ps, h1, h2, h3, h4⟩ := ih (!turn) p (fun r' h => hr r' (List.mem_cons_of_mem _ h)) hpt hpn
    refine ⟨p :: ps, ?_, by simp [h2], ⟨ha, h3⟩, ?_⟩
    · unfold exchange
      rw [hp]
      dsimp only
      rw [h1]
    · intro x hx
      rcases List.mem_cons.1 hx with rfl | hx
      · exact ha.1
      · exact (h4 x hx).trans ha.1

/-- The nonces of the CA in a transaction. -/
def caNonces : Bool → List (Header N) → List (Option (List UInt8))
  | _, [] => []
  | true, p :: ps => p.senderNonce :: caNonces false ps
  | false, _ :: ps => caNonces true ps

/-- **C160 (refuted).** The CA uses one nonce for all of its messages: after the first response, which has the random
nonce `n`, every message of the CA in the transaction has `n` too. So the nonce is not fresh in the later ones. -/
theorem C160_fresh_refuted (kid : Option (List UInt8) → N → List UInt8) (dflt : N × List UInt8) (ca client : N)
    (turn : Bool) (q : Header N) (n : List UInt8) (rs : List (Fin 5 → List UInt8)) (ps : List (Header N))
    (hr : ∀ r ∈ rs, ∀ i, r i ≠ []) (ht : Filled q.tid) (hn : Filled q.senderNonce) (hnn : n ≠ [])
    (hq : if turn then q.recipNonce = some n else q.senderNonce = some n)
    (h : exchange kid dflt ca client turn q rs = .ok ps) : ∀ x ∈ caNonces turn ps, x = some n := by
  induction rs generalizing turn q ps with
  | nil =>
    cases h
    unfold caNonces
    exact nofun
  | cons r rs ih =>
    have hr0 := hr r (List.mem_cons_self ..)
    have hr1 : ∀ r ∈ rs, ∀ i, r i ≠ [] := fun r' h => hr r' (List.mem_cons_of_mem _ h)
    unfold exchange at h
    cases turn with
    | true =>
      obtain ⟨p, h1, h2, -, -, -, -, h3, h4, -, h5⟩ := C160_response_partial kid dflt r q ca hr0 ht hn
      rw [if_pos rfl] at h hq
      rw [h1] at h
      dsimp only at h
      cases he : exchange kid dflt ca client (!true) p rs with
      | error e => rw [he] at h; cases h
      | ok ps' =>
        rw [he] at h
        cases h
        have hp : p.senderNonce = some n := (h5 ⟨n, hq, hnn⟩).trans hq
        intro x hx
        rcases List.mem_cons.1 hx with rfl | hx
        · exact hp
        · exact ih false p ps' hr1 h3 h4 (by rw [if_neg (by simp)]; exact hp) he x hx
    | false =>
      obtain ⟨p, h1, h2, h3, h4⟩ := C160_client_partial kid dflt r q client hr0 ht hn
      rw [if_neg (by simp)] at h hq
      rw [h1] at h
      dsimp only at h
      cases he : exchange kid dflt ca client (!false) p rs with
      | error e => rw [he] at h; cases h
      | ok ps' =>
        rw [he] at h
        cases h
        intro x hx
        exact ih true p ps' hr1 h3 ⟨_, h4, hr0 0⟩ (by rw [if_pos rfl]; exact h2.2.trans hq) he x hx

/-- **C160 (refuted).** `use_fresh_nonce=False` makes the nonce of the CA fresh; the default, `True`, does not. -/
theorem C160_option_refuted (kid : Option (List UInt8) → N → List UInt8) (dflt : N × List UInt8)
    (r : Fin 5 → List UInt8) (q p : Header N) (ca : N) (n : List UInt8) (hq : q.recipNonce = some n) (hn : n ≠ [])
    (hr : ∀ i, r i ≠ []) (fresh : Bool) (h : caHeader kid dflt r q { sender := ca, fresh := fresh } = .ok p) :
    p.senderNonce = some (if fresh then n else r 1) := by
  unfold caHeader setCaHeader at h
  cases h1 : orField none q.senderNonce with
  | error e => rw [h1] at h; cases h
  | ok rn =>
    rw [h1] at h
    dsimp only at h
    cases h2 : orField none q.tid with
    | error e => rw [h2] at h; cases h
    | ok t =>
      rw [h2] at h
      cases h
      show some (orBytes (some (orBytes (some (altNonce (r 0) (r 1) q fresh)) (r 4))) (r 3)) = _
      cases fresh with
      | true =>
        have : altNonce (r 0) (r 1) q true = n := by simp [altNonce, hq]
        rw [this, orBytes_set hn, orBytes_set hn, if_pos rfl]
      | false =>
        have : altNonce (r 0) (r 1) q false = r 1 := by simp [altNonce]
        rw [this, orBytes_set (hr 1), orBytes_set (hr 1), if_neg (by simp)]

/-- **C160 (the version).** The version that is given to the CA is the one of its response, unless it is 0; otherwise the response
has the version of the request. -/
theorem C160_version (kid : Option (List UInt8) → N → List UInt8) (dflt : N × List UInt8) (r : Fin 5 → List UInt8)
    (q p : Header N) (a : HArgs N) (h : caHeader kid dflt r q a = .ok p) :
    (∀ v, a.pvno = some v → v ≠ 0 → p.pvno = v) ∧ (a.pvno = none ∨ a.pvno = some 0 → p.pvno = q.pvno) := by
  unfold caHeader setCaHeader at h
  cases h1 : orField a.recipNonce q.senderNonce with
  | error e => rw [h1] at h; cases h
  | ok rn =>
    rw [h1] at h
    dsimp only at h
    cases h2 : orField a.tid q.tid with
    | error e => rw [h2] at h; cases h
    | ok t =>
      rw [h2] at h
      cases h
      refine ⟨fun v hv h0 => ?_, fun hv => ?_⟩
      · show (match a.pvno with
          | none => q.pvno
          | some p => if p = 0 then q.pvno else p) = v
        rw [hv]
        exact if_neg h0
      · show (match a.pvno with
          | none => q.pvno
          | some p => if p = 0 then q.pvno else p) = q.pvno
        rcases hv with hv | hv
        · rw [hv]
        · rw [hv]
          exact if_pos rfl

/-- **C160 (refuted).** The next message of the client has version 2, whatever the version of the response: it does not go on
with version 3. -/
theorem C160_pvno_refuted (kid : Option (List UInt8) → N → List UInt8) (dflt : N × List UInt8) (r : Fin 5 → List UInt8)
    (q p : Header N) (client : N) (h : clientHeader kid dflt r q { sender := client } = .ok p) : p.pvno = 2 := by
  unfold clientHeader clientArgs at h
  cases h1 : q.tid with
  | none => rw [h1] at h; cases h
  | some t =>
    rw [h1] at h
    cases h2 : q.senderNonce with
    | none => rw [h2] at h; cases h
    | some n =>
      rw [h2] at h
      dsimp only at h
      rw [if_pos rfl] at h
      cases h
      rfl

example : (∃ p, caHeader (fun _ _ => []) (0, []) (fun _ => [1]) ⟨2, 1, 7, some [5], some [6], none, none, none⟩
    { sender := 7, pvno := some 3 } = .ok p ∧ p.pvno = 3) ∧
    ∃ p, clientHeader (fun _ _ => []) (0, []) (fun _ => [1]) ⟨3, 7, 1, some [5], some [6], none, none, none⟩
      { sender := 1 } = .ok p ∧ p.pvno = 2 := ⟨⟨_, rfl, rfl⟩, _, rfl, rfl⟩

/-- **C160 (refuted).** A request with an empty transaction identifier and an empty nonce is answered in another
transaction, without `recipNonce`. -/
theorem C160_empty_refuted : ∃ (r : Fin 5 → List UInt8) (q p : Header Nat), (∀ i, r i ≠ []) ∧
    caHeader (fun _ _ => []) (0, []) r q { sender := 7 } = .ok p ∧ p.tid ≠ q.tid ∧ p.recipNonce ≠ q.senderNonce :=
  ⟨fun _ => [1], ⟨2, 1, 7, some [], some [], none, none, none⟩, _, fun _ => by simp, rfl, by decide, by decide⟩

/-- A transaction of four messages: the second message of the CA has the nonce of its first one. -/
example : (exchange (fun _ _ => [9]) (0, [8]) 7 5 true ⟨2, 5, 7, some [1], some [2], none, none, none⟩
    [fun i => [10 + UInt8.ofNat i.1], fun i => [20 + UInt8.ofNat i.1], fun i => [30 + UInt8.ofNat i.1]]).toOption.map
      (fun l => l.map (fun p => (p.tid, p.senderNonce, p.recipNonce)))
    = some [(some [1], some [10], some [2]), (some [1], some [20], some [10]), (some [1], some [10], some [20])] := by
  decide +kernel

end Verif.Ra
