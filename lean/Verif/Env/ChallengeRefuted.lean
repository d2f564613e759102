import Verif.Env.ChallengeProps
import Verif.Env.EnvRefuted

/-!
# C169: the witness, the end of the exchange, and what is false of the code
-/

namespace Verif.Env

open Verif.CA hiding Bytes Msg
open Verif.Prot

variable {S K C N : Type}

/-! ## The witness -/

theorem bytes4_val {n : Int} {b : Bytes} (h : bytes4 n = .ok b) : ∃ b0 b1 b2 b3 : UInt8, b = [b0, b1, b2, b3] ∧
    n = ((b0.toNat * 256 + b1.toNat) * 256 + b2.toNat) * 256 + b3.toNat := by
  unfold bytes4 at h
  by_cases hn : 0 ≤ n ∧ n < 2 ^ 32
  · rw [if_pos hn] at h
    cases h
    refine ⟨_, _, _, _, rfl, ?_⟩
    simp only [UInt8.toNat_ofNat']
    omega
  · rw [if_neg hn] at h
    cases h

theorem witness_of {pe : PopEnv S K C N} {hash nm : String} {n : Int} {bad : Bool} {rnd w : Bytes} {o : Option String}
    (h : prepWitness pe (some hash) n bad rnd = .ok (o, w)) (hh : hashInst hash = .ok nm) :
    o = some hash ∧ ∃ b0 b1 b2 b3 : UInt8, n = ((b0.toNat * 256 + b1.toNat) * 256 + b2.toNat) * 256 + b3.toNat ∧
      (bad = false → w = pe.H nm [b0, b1, b2, b3]) ∧ (bad = true → w ≠ pe.H nm [b0, b1, b2, b3]) := by
  unfold prepWitness at h
  dsimp only at h
  cases hb : bytes4 n with
  | error e => rw [hb] at h; cases h
  | ok b =>
    rw [hb] at h
    obtain ⟨b0, b1, b2, b3, rfl, hn⟩ := bytes4_val hb
    dsimp only at h
    unfold hashOf at h
    rw [hh] at h
    dsimp only at h
    cases bad with
    | false =>
      cases h
      exact ⟨rfl, b0, b1, b2, b3, hn, fun _ => rfl, nofun⟩
    | true =>
      rw [if_pos rfl] at h
      cases hf : flipFirst (pe.H nm [b0, b1, b2, b3]) with
      | error e => rw [hf] at h; cases h
      | ok w' =>
        rw [hf] at h
        cases h
        refine ⟨rfl, b0, b1, b2, b3, hn, nofun, fun _ hw => ?_⟩
        rw [← hw] at hf
        cases w with
        | nil => cases hf
        | cons x xs =>
          unfold flipFirst at hf
          injection hf with hf
          injection hf with hf _
          by_cases hx : x = 0
          · rw [if_pos hx, hx] at hf; exact absurd hf (by decide)
          · rw [if_neg hx] at hf; exact hx hf.symm

/-- **C169.** The witness of the CA: with a hash function, which is named in the challenge, it is the hash of the number as four
bytes, the most significant first, and it is not if a bad one is asked for. -/
theorem C169_witness {pe : PopEnv S K C N} {x448 : K → Bool} {gen : S} {ca : ChalArgs S C N} {q : ChalReq K}
    {r : ChalRand} {m : ChalMsg} {n : Int} {hash nm : String} (h : buildPopdecc pe x448 gen ca q r = .ok (m, n))
    (hc : ca.hash = some hash) (hh : hashInst hash = .ok nm) :
    m.chal.owf = some hash ∧ ∃ b0 b1 b2 b3 : UInt8, n = ((b0.toNat * 256 + b1.toNat) * 256 + b2.toNat) * 256 + b3.toNat ∧
      (ca.bad = false → m.chal.witness = pe.H nm [b0, b1, b2, b3]) ∧
      (ca.bad = true → m.chal.witness ≠ pe.H nm [b0, b1, b2, b3]) := by
  cases hk : q.key with
  | error e =>
    unfold buildPopdecc at h
    split at h
    · cases h
    · rw [hk] at h; cases h
  | ok k =>
    obtain ⟨h1, -, h3⟩ := buildPopdecc_ok h hk
    rw [← h1] at h3
    have hp : ∀ c rand, prepRand pe ca.sender (some n) r.draw c = .ok rand → rand.1 = n := by
      intro c rand hp
      unfold prepRand at hp
      split at hp
      · cases hp; rfl
      · cases hp; rfl
      · cases hp
    unfold chalFor at h3
    split at h3
    · cases he : chalEnc pe x448 gen ca k n (orInt ca.reqId q.id) r with
      | error e => rw [he] at h3; cases h3
      | ok c =>
        rw [he] at h3
        have hcm : c = m.chal := by injection h3 with h3; exact congrArg Prod.fst h3
        rw [← hcm]
        unfold chalEnc at he
        cases g1 : prepRand pe ca.sender (some n) r.draw ca.cert with
        | error e => rw [g1] at he; cases he
        | ok rand =>
          rw [g1] at he
          dsimp only at he
          split at he
          · cases he
          · rw [hp _ _ g1, hc] at he
            cases g2 : prepWitness pe (some hash) n ca.bad r.witness with
            | error e => rw [g2] at he; cases he
            | ok y =>
              obtain ⟨o, w⟩ := y
              rw [g2] at he
              dsimp only at he
              split at he
              · cases he
              · cases he
                exact witness_of g2 hh
    · unfold chalPlain at h3
      cases g1 : prepRand pe ca.sender (some n) r.draw none with
      | error e => rw [g1] at h3; cases h3
      | ok rand =>
        rw [g1] at h3
        dsimp only at h3
        rw [hp _ _ g1, hc] at h3
        cases g2 : prepWitness pe (some hash) n ca.bad r.witness with
        | error e => rw [g2] at h3; cases h3
        | ok y =>
          obtain ⟨o, w⟩ := y
          rw [g2] at h3
          dsimp only at h3
          split at h3
          · cases h3
          · injection h3 with h3
            have hm : m.chal = _ := (congrArg Prod.fst h3).symm
            rw [hm]
            exact witness_of g2 hh

/-! ## The end of the exchange -/

/-- **C169.** If the CA has stored the number of the challenge for an `ir`, and the client answers with it, the CA issues the
certificate for the template of the request. -/
theorem C169_issued {T : Type} {pe : PopEnv S K C N} {a : PopArgs S C N} {m : PopMsg C} {n v : Int} {mac : Bool}
    {tx : CA.Bytes} {t : T} {certOk : T → Bool} {st st' : ChalState T} {u : Unit}
    (h : chalIssue st v mac n tx t "ir" true = (.ok u, st')) (hc : certOk t = true) (ha : popAnswer pe a m = .ok [n]) :
    ∃ l, popAnswer pe a m = .ok l ∧ (chalAnswer certOk st' tx l).2.1 = .ok [t] := by
  refine ⟨[n], ha, ?_⟩
  unfold chalIssue at h
  split at h
  · cases h
  · rw [if_neg (by simp)] at h
    have hst : st' = st.set (n, tx) (t, "ir") := (congrArg Prod.snd h).symm
    subst hst
    simp [chalAnswer, chalLoop, Dict.get_set_self, hc]

/-! ## What is false of the code -/

/-- **C169 (refuted for KEM keys with version 2).** The CA sends the ciphertext in the header, but the client does not read it:
the holder of a KEM key cannot answer any challenge of version 2. -/
theorem C169_kem_refuted {pe : PopEnv S K C N} {a : PopArgs S C N} {m : PopMsg C} (hv : m.pvno = 2)
    (hr : pe.isRsa a.key = false) (he : pe.isEcdh a.key = false) (l : List Int) : popAnswer pe a m ≠ .ok l := by
  intro h
  obtain ⟨cs, c, n, s, h1, h2, h3, h4, h5, -⟩ := (C169_iff pe a m l (fun h => by rw [hr] at h; cases h)).1 h
  rcases h4 with ⟨h4, -⟩ | ⟨-, h4⟩
  · rw [hv] at h4; exact absurd h4 (by decide)
  · have := h4 c (List.mem_of_getElem? h3)
    cases h5 with
    | enc g => rw [this] at g; cases g
    | rsa _ g => rw [hr] at g; cases g
    | dh _ _ g => rw [he] at g; cases g

/-- **C169 (refuted: the witness).** The client never looks at the witness and the hash function: the answer is the same for all
of them. -/
theorem C169_witness_refuted (pe : PopEnv S K C N) (a : PopArgs S C N) (m : PopMsg C) (o : Chal → Option String)
    (w : Chal → Bytes) :
    popAnswer pe a { m with chals := m.chals.map (List.map (fun c => { c with owf := o c, witness := w c })) } =
      popAnswer pe a m := by
  unfold popAnswer
  cases m.chals with
  | none => rfl
  | some l =>
    dsimp only [Option.map]
    rw [List.length_map, List.getElem?_map]
    have hv : popVersion m.pvno (l.map (fun c => { c with owf := o c, witness := w c })) = popVersion m.pvno l := by
      unfold popVersion
      rw [List.any_map, List.any_map]
      rfl
    rw [hv]
    cases l[a.idx]? with
    | none => rfl
    | some c => rfl

/-- **C169 (refuted: zero).** A number 0, a `certReqId` 0 and a version 0 that are asked for are ignored. -/
theorem C169_zero_refuted (pe : PopEnv S K C N) (x448 : K → Bool) (gen : S) (ca : ChalArgs S C N) (q : ChalReq K)
    (r : ChalRand) :
    buildPopdecc pe x448 gen { ca with num := some 0 } q r = buildPopdecc pe x448 gen { ca with num := none } q r ∧
    buildPopdecc pe x448 gen { ca with reqId := some 0 } q r = buildPopdecc pe x448 gen { ca with reqId := none } q r ∧
    buildPopdecc pe x448 gen { ca with forPvno := some 0 } q r = buildPopdecc pe x448 gen { ca with forPvno := none } q r :=
  ⟨rfl, rfl, rfl⟩

/-- **C169 (refuted: several challenges).** There is one number in every answer, whatever the number of challenges. -/
theorem C169_several_refuted (pe : PopEnv S K C N) (a : PopArgs S C N) (m : PopMsg C) (l : List Int)
    (h : popAnswer pe a m = .ok l) : l.length = 1 := by
  unfold popAnswer at h
  cases h1 : m.chals with
  | none => rw [h1] at h; cases h
  | some cs =>
    rw [h1] at h
    dsimp only at h
    split at h
    · cases h
    · split at h
      · cases h
      · split at h
        · cases h
        · split at h
          · cases h
          · split at h
            · cases h
            · cases h; rfl

/-- **C169 (refuted: pending challenges).** The handler passes its dictionary of pending challenges as the bytes of the challenge:
with version 3, no challenge can be built while another one is pending. -/
theorem C169_pending_refuted (pe : PopEnv S K C N) (x448 : K → Bool) (gen : S) (ca : ChalArgs S C N) (q : ChalReq K)
    (r : ChalRand) (hc : ca.chal = .dict false) (hv : q.pvno = 3) (hv' : ca.forPvno = none) (x : ChalMsg × Int) :
    buildPopdecc pe x448 gen ca q r ≠ .ok x := by
  intro h
  cases hk : q.key with
  | error e =>
    unfold buildPopdecc at h
    split at h
    · cases h
    · rw [hk] at h; cases h
  | ok k =>
    obtain ⟨-, -, h3⟩ := buildPopdecc_ok (m := x.1) (n := x.2) h hk
    rw [hv', hv] at h3
    unfold chalFor at h3
    rw [if_pos (by decide)] at h3
    unfold chalEnc at h3
    rw [hc] at h3
    split at h3
    · cases h3
    · split at h3
      · cases h3
      · split at h3
        · cases h3
        · cases h3

/-- **C169 (refuted: the version that is asked for).** The option for the version changes the kind of challenge, and not the
version in the header: the client refuses the message. -/
theorem C169_pvno_refuted {pe : PopEnv S K C N} {x448 : K → Bool} {gen : S} {ca : ChalArgs S C N} {q : ChalReq K}
    {r : ChalRand} {m : ChalMsg} {n : Int} (h : buildPopdecc pe x448 gen ca q r = .ok (m, n))
    (hv : q.pvno = 2 ∧ ca.forPvno = some 3 ∨ q.pvno = 3 ∧ ca.forPvno = some 2) (a : PopArgs S C N) (msg : Msg C)
    (l : List Int) : popAnswer pe a (m.sent pe.toKEnv msg) ≠ .ok l := by
  intro ha
  cases hk : q.key with
  | error e =>
    unfold buildPopdecc at h
    split at h
    · cases h
    · rw [hk] at h; cases h
  | ok k =>
    obtain ⟨-, h2, h3⟩ := buildPopdecc_ok h hk
    have hver : popVersion m.pvno [{ m.chal with enc := m.chal.enc.map (wire pe.toKEnv) }] = .ok () := by
      unfold popAnswer ChalMsg.sent at ha
      dsimp only at ha
      split at ha
      · cases ha
      · split at ha
        · cases ha
        · split at ha
          · cases ha
          · assumption
    rw [C169_version_iff] at hver
    have henc : orInt ca.forPvno q.pvno = 3 ↔ m.chal.enc ≠ none := by
      unfold chalFor at h3
      split at h3
      · rename_i hv3
        refine ⟨fun _ => ?_, fun _ => hv3⟩
        cases hc : chalEnc pe x448 gen ca k (orInt ca.num r.draw) (orInt ca.reqId q.id) r with
        | error e => rw [hc] at h3; cases h3
        | ok c =>
          rw [hc] at h3
          have hcm : c = m.chal := by injection h3 with h3; exact congrArg Prod.fst h3
          rw [← hcm]
          unfold chalEnc at hc
          split at hc
          · cases hc
          · split at hc
            · cases hc
            · split at hc
              · cases hc
              · split at hc
                · cases hc
                · cases hc; nofun
      · rename_i hv3
        refine ⟨fun h => absurd h hv3, fun hn => ?_⟩
        unfold chalPlain at h3
        split at h3
        · cases h3
        · split at h3
          · cases h3
          · split at h3
            · cases h3
            · injection h3 with h3
              have hm : m.chal = _ := (congrArg Prod.fst h3).symm
              rw [hm] at hn
              exact absurd rfl hn
    rcases hv with ⟨v1, v2⟩ | ⟨v1, v2⟩
    · rw [v1, v2] at h2
      have h2 : m.pvno = 2 := h2
      have he := henc.1 (by rw [v1, v2]; rfl)
      rcases hver with ⟨g, -⟩ | ⟨-, g⟩
      · rw [h2] at g; exact absurd g (by decide)
      · have := g _ (List.mem_singleton.2 rfl)
        cases hm : m.chal.enc with
        | none => exact he hm
        | some e => rw [hm] at this; cases this
    · rw [v1, v2] at h2
      have h2 : m.pvno = 3 := h2
      have hn : m.chal.enc = none := by
        cases hm : m.chal.enc with
        | none => rfl
        | some e =>
          have := henc.2 (by rw [hm]; nofun)
          rw [v1, v2] at this
          exact absurd this (by decide)
      rcases hver with ⟨-, ⟨c, hc, hc'⟩, -⟩ | ⟨g, -⟩
      · rw [List.mem_singleton.1 hc, hn] at hc'
        exact hc' rfl
      · rw [h2] at g; exact absurd g (by decide)

/-- **C169 (refuted: the chosen recipient).** The index of the recipient chooses whose name is checked, and not whose key is
used: the answers for any two indices are the same. -/
theorem C169_index_refuted (pe : PopEnv S K C N) (a : PopArgs S C N) (m : PopMsg C) (i j : Nat) (l l' : List Int)
    (h : popAnswer pe { a with recip := i } m = .ok l) (h' : popAnswer pe { a with recip := j } m = .ok l') : l = l' := by
  unfold popAnswer at h h'
  cases h1 : m.chals with
  | none => rw [h1] at h; cases h
  | some cs =>
    rw [h1] at h h'
    dsimp only at h h'
    split at h
    · cases h
    · rename_i hs
      rw [if_neg hs] at h'
      cases hi : cs[a.idx]? with
      | none => rw [hi] at h; cases h
      | some c =>
        rw [hi] at h h'
        dsimp only at h h'
        split at h
        · cases h
        · rename_i hv
          rw [hv] at h'
          dsimp only at h'
          cases hn : c.enc with
          | none =>
            have e1 : popRand pe { a with recip := i } m c = popRand pe { a with recip := j } m c := by
              unfold popRand
              rw [hn]
              rfl
            rw [e1] at h
            exact Except.ok.inj (h.symm.trans h')
          | some e =>
            have e1 : ∀ x y r, popRand pe { a with recip := x } m c = .ok r →
                popRand pe { a with recip := y } m c = .ok r ∨ ∃ z, popRand pe { a with recip := y } m c = .error z := by
              intro x y r hr
              unfold popRand at hr ⊢
              rw [hn] at hr ⊢
              dsimp only at hr ⊢
              unfold encRandOf at hr ⊢
              cases g1 : checkPopRid pe.toKEnv e a.reqId y with
              | error z => exact .inr ⟨z, rfl⟩
              | ok u =>
                cases g2 : checkPopRid pe.toKEnv e a.reqId x with
                | error z => dsimp only at hr; rw [g2] at hr; cases hr
                | ok u' =>
                  dsimp only at hr
                  rw [g2] at hr
                  exact .inl hr
            cases g : popRand pe { a with recip := i } m c with
            | error z => rw [g] at h; cases h
            | ok r =>
              rcases e1 i j r g with g' | ⟨z, g'⟩
              · rw [g] at h
                rw [g'] at h'
                exact Except.ok.inj (h.symm.trans h')
              · rw [g'] at h'; cases h'

/-! ## Examples -/

/-- Names are numbers; the subject of the certificate `c` is `c + 100`. -/
def exPop : PopEnv Nat Nat Nat Nat :=
  { exK with
    subjectOf := fun c => c + 100
    encRand := fun x => Codec.enc (α := Int × Nat) x
    decRand := Codec.dec (α := Int × Nat)
    sameName := fun a b => decide (a = b)
    sameType := fun k s => decide (k / 2 = s / 2)
    decapsNone := fun _ => .typeError }

def exChalRand : ChalRand := ⟨17, [5], exCek, ⟨exIv, [9], [8], [7]⟩⟩

/-- A request with the key `k`. -/
def exChalReq (v : Int) (k : Nat) : ChalReq Nat := ⟨v, 1, .ok k, 5⟩

def exChalArgs : ChalArgs Nat Nat Nat := { sender := some 3, caKey := some 3, num := some 1234567, cert := some 33, hash := some "sha256" }

/-- The message that the CA sends, with the certificate 33 of its key 3. -/
def exChalMsg (v : Int) (k : Nat) : PopMsg Nat :=
  match buildPopdecc exPop (fun k => k == 5) 3 exChalArgs (exChalReq v k) exChalRand with
  | .error _ => ⟨0, none, exCerts []⟩
  | .ok (m, _) => m.sent exPop.toKEnv (exCerts [33])

/-- C169_rsa, C169_kem, C169_ec, C169_plain_rsa, C169_plain_dh, C169_kem_refuted: RSA, KEM and EC keys with both versions; a wrong
key, a wrong `certReqId` and a wrong sender. -/
example :
    popAnswer exPop { key := 1, reqId := 5, sender := some 133 } (exChalMsg 3 1) = .ok [1234567] ∧
    popAnswer exPop { key := 6, reqId := 5 } (exChalMsg 3 6) = .ok [1234567] ∧
    popAnswer exPop { key := 2, reqId := 5 } (exChalMsg 3 2) = .ok [1234567] ∧
    popAnswer exPop { key := 1, sender := some 3 } (exChalMsg 2 1) = .ok [1234567] ∧
    popAnswer exPop { key := 2 } (exChalMsg 2 2) = .ok [1234567] ∧
    popAnswer exPop { key := 6 } (exChalMsg 2 6) = .error .typeError ∧
    popAnswer exPop { key := 7, reqId := 5 } (exChalMsg 3 1) = .error .valueError ∧
    popAnswer exPop { key := 1, reqId := 0 } (exChalMsg 3 1) = .error .valueError ∧
    popAnswer exPop { key := 1, reqId := 5, sender := some 3 } (exChalMsg 3 1) = .error .valueError := by decide +kernel

/-- The challenge in a message. -/
def exChal (v : Int) (k : Nat) (a : ChalArgs Nat Nat Nat) : Chal :=
  match buildPopdecc exPop (fun k => k == 5) 3 a (exChalReq v k) exChalRand with
  | .error _ => ⟨none, [], [], none⟩
  | .ok (m, _) => { m.chal with enc := m.chal.enc.map (wire exK) }

/-- C169_witness, C169_witness_refuted: 1234567 is 0, 18, 214, 135 in base 256; the bad witness is answered as the good one. -/
example : (exChal 3 1 exChalArgs).witness = [1, 0, 18, 214, 135] ∧
    (exChal 3 1 { exChalArgs with bad := true }).witness = [0, 0, 18, 214, 135] ∧
    popAnswer exPop { key := 1, reqId := 5 } ⟨3, some [exChal 3 1 { exChalArgs with bad := true }], exCerts [33]⟩ =
      .ok [1234567] := by decide +kernel

/-- C169_zero_refuted, C169_pending_refuted, C169_pvno_refuted: the number 0 becomes the random one; a pending challenge; the
version 3 that is asked for in answer to a request of version 2. -/
example : (buildPopdecc exPop (fun _ => false) 3 { exChalArgs with num := some 0 } (exChalReq 3 1) exChalRand).toOption.map
      (·.2) = some 17 ∧
    (buildPopdecc exPop (fun _ => false) 3 { exChalArgs with chal := .dict true } (exChalReq 3 1) exChalRand).toOption.map
      (·.2) = some 1234567 ∧
    buildPopdecc exPop (fun _ => false) 3 { exChalArgs with chal := .dict false } (exChalReq 3 1) exChalRand =
      .error .valueError ∧
    ((buildPopdecc exPop (fun _ => false) 3 { exChalArgs with forPvno := some 3 } (exChalReq 2 1) exChalRand).toOption.map
      (fun x => (x.1.pvno, x.1.chal.enc.isSome))) = some (2, true) := by decide +kernel

/-- C169_several_refuted: two challenges with the numbers 1234567 and 8, and one number in the answer. -/
example : popAnswer exPop { key := 1, reqId := 5, size := 2, idx := 1 }
    ⟨3, some [exChal 3 1 exChalArgs, exChal 3 1 { exChalArgs with num := some 8 }], exCerts [33]⟩ = .ok [8] := by
  decide +kernel

/-- Two recipients: the second is for the holder of another key. -/
def exTwoChal : Chal :=
  { exChal 3 1 exChalArgs with
    enc := (exChal 3 1 exChalArgs).enc.map (fun e =>
      { e with infos := e.infos ++ (((exChal 3 6 exChalArgs).enc.map (·.infos)).getD []) }) }

/-- C169_index_refuted, C169_rid_iff: the second recipient is chosen, and the key of the first is used. -/
example : popAnswer exPop { key := 1, reqId := 5, recips := 2, recip := 1 } ⟨3, some [exTwoChal], exCerts [33]⟩ =
      .ok [1234567] ∧
    popAnswer exPop { key := 6, reqId := 5, recips := 2, recip := 1 } ⟨3, some [exTwoChal], exCerts [33]⟩ =
      .error .valueError := by decide +kernel

/-- C169_issued: the CA stores the number for the template 9 and issues it. -/
example : ∃ l, popAnswer exPop { key := 1, reqId := 5 } (exChalMsg 3 1) = .ok l ∧
    (chalAnswer (fun _ => true) ((chalIssue (T := Nat) [] 3 false 1234567 [4] 9 "ir" true).2) [4] l).2.1 = .ok [9] :=
  C169_issued (T := Nat) (st := []) (v := 3) (mac := false) (n := 1234567) (u := ()) rfl rfl (by decide +kernel)

/-- C169_version_iff. -/
example : popVersion 3 [exChal 3 1 exChalArgs] = .ok () ∧ popVersion 2 [exChal 3 1 exChalArgs] = .error .badRequest ∧
    popVersion 2 [exChal 2 1 exChalArgs] = .ok () ∧ popVersion 3 [exChal 2 1 exChalArgs] = .error .badRequest ∧
    popVersion 3 [exChal 3 1 exChalArgs, exChal 2 1 exChalArgs] = .error .badRequest := by decide +kernel

/-- The hypotheses of C169_rsa hold in the example. -/
example : popAnswer exPop { key := 1, reqId := 5, sender := some 133 } (exChalMsg 3 1) = .ok [1234567] := by
  have h : ∃ m, buildPopdecc exPop (fun k => k == 5) 3 exChalArgs (exChalReq 3 1) exChalRand = .ok (m, 1234567) ∧
      exChalMsg 3 1 = m.sent exPop.toKEnv (exCerts [33]) := by
    refine ⟨_, rfl, rfl⟩
  obtain ⟨m, h1, h2⟩ := h
  rw [h2]
  exact C169_rsa (exCerts [33]) h1 rfl rfl (.inl rfl) rfl
    ⟨rfl, rfl, fun s x hn hx => by cases hx; cases hn with | cert h => cases h; rfl | given h => cases h⟩ rfl rfl rfl
    (fun x => codec_law x) (by decide) (codec_law exIv) (fun d c h => exK_cbc _ _ _ c h) rfl rfl rfl rfl rfl rfl
    (fun x => codec_law x) (fun o => codec_law (α := List Nat) o)
    (fun p x h => by cases h; exact stripPre_append _ _)

end Verif.Env
