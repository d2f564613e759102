import Verif.Prot.OrigMsg
import Verif.Prot.MacVerifyProps
import Verif.Prot.SigRefuted
import Verif.Prot.MacRefuted

/-!
# C258: original messages are checked one by one, and only they
-/

namespace Verif.Prot.Orig

open Verif.CA (PyErr)
open Verif.Ra (Itv findOid valueOf)

variable {S K C : Type}

/-! ## Specification -/

/-- The first entry of the type 1.3.6.1.5.5.7.4.15. -/
inductive First : List Itv → Option Bytes → Prop
  | here (v : Option Bytes) (l : List Itv) : First (⟨[1, 3, 6, 1, 5, 5, 7, 4, 15], v⟩ :: l) v
  | later (e : Itv) (l : List Itv) (v : Option Bytes) : e.oid ≠ [1, 3, 6, 1, 5, 5, 7, 4, 15] → First l v → First (e :: l) v

/-- There is no entry of the type. -/
def Without (gi : Option (List Itv)) : Prop := ∀ g, gi = some g → ∀ e ∈ g, e.oid ≠ [1, 3, 6, 1, 5, 5, 7, 4, 15]

theorem origOid_eq : origOid = [1, 3, 6, 1, 5, 5, 7, 4, 15] := rfl

theorem find_false (g : List Itv) :
    findOid origOid g = false ↔ ∀ e ∈ g, e.oid ≠ [1, 3, 6, 1, 5, 5, 7, 4, 15] := by
  unfold findOid
  rw [origOid_eq]
  simp

theorem value_first (g : List Itv) (v : Option Bytes) : valueOf origOid g = some v ↔ First g v := by
  induction g with
  | nil => exact ⟨fun h => (nomatch h), fun h => (nomatch h)⟩
  | cons e es ih =>
    unfold valueOf
    by_cases he : e.oid = origOid
    · rw [if_pos he]
      constructor
      · intro h
        cases h
        obtain ⟨o, w⟩ := e
        rw [origOid_eq] at he
        cases he
        exact .here _ _
      · intro h
        cases h with
        | here => rfl
        | later _ _ _ hn _ => exact absurd he hn
    · rw [if_neg he, ih]
      constructor
      · exact fun h => .later _ _ _ he h
      · intro h
        cases h with
        | here => exact absurd rfl he
        | later _ _ _ _ h' => exact h'

theorem first_found (g : List Itv) (v : Option Bytes) (h : First g v) : findOid origOid g ≠ false := by
  intro hf
  rw [find_false] at hf
  induction h with
  | here v l => exact hf _ (List.mem_cons_self ..) rfl
  | later e l v _ _ ih => exact ih fun x hx => hf x (List.mem_cons_of_mem _ hx)

theorem one_ok (env : Env S K C) (rnd : Bytes) (pw : Option Bytes) (m : Msg C) :
    verifyOne env rnd pw m = .ok () ↔ verifyProt env rnd m none pw none none false = .ok () := by
  unfold verifyOne
  cases verifyProt env rnd m none pw none none false with
  | ok u => cases u; simp
  | error e => simp

theorem all_ok (env : Env S K C) (rnd : Msg C → Bytes) (pw : Option Bytes) (ms : List (Msg C)) :
    verifyAll env rnd pw ms = .ok () ↔ ∀ m ∈ ms, verifyProt env (rnd m) m none pw none none false = .ok () := by
  induction ms with
  | nil => simp [verifyAll]
  | cons m ms ih =>
    unfold verifyAll
    cases h : verifyOne env (rnd m) pw m with
    | ok u =>
      cases u
      have := (one_ok env (rnd m) pw m).1 h
      simp [ih, this]
    | error e =>
      have : ¬ verifyProt env (rnd m) m none pw none none false = .ok () := by
        intro hc
        rw [(one_ok env (rnd m) pw m).2 hc] at h
        cases h
      simp [this]

/-! ## What is accepted -/

/-- C258: a field is accepted exactly if it has no original message and none is asked for, or if the value of the first
entry of the type is the whole encoding of messages each of which has a valid protection under the password or under its own
certificate. -/
theorem C258_iff (env : Env S K C) (dec : Bytes → Option (List (Msg C) × Bytes)) (rnd : Msg C → Bytes) (must : Bool)
    (pw : Option Bytes) (gi : Option (List Itv)) :
    validateOrig env dec rnd must pw gi = .ok () ↔
      (must = false ∧ Without gi) ∨
      ∃ g b ms, gi = some g ∧ First g (some b) ∧ dec b = some (ms, []) ∧
        ∀ m ∈ ms, verifyProt env (rnd m) m none pw none none false = .ok () := by
  unfold validateOrig
  cases gi with
  | none => cases must <;> simp [Without]
  | some g =>
    have hw : Without (some g) ↔ findOid origOid g = false := by
      rw [find_false]
      constructor
      · exact fun h => h g rfl
      · intro h g' hg'
        cases hg'
        exact h
    dsimp only
    by_cases hf : findOid origOid g = false
    · have hno : ∀ v, ¬ First g v := fun v hv => first_found g v hv hf
      cases must with
      | false => rw [if_pos ⟨rfl, hf⟩]; exact ⟨fun _ => .inl ⟨rfl, hw.2 hf⟩, fun _ => rfl⟩
      | true =>
        rw [if_neg (fun h => nomatch h.1), if_pos hf]
        constructor
        · exact fun h => (nomatch h)
        · rintro (⟨h, _⟩ | ⟨g', b, ms, hg, h, _⟩)
          · cases h
          · cases hg; exact absurd h (hno _)
    · rw [if_neg (fun h => hf h.2), if_neg hf]
      cases hv : valueOf origOid g with
      | none =>
        dsimp only
        constructor
        · exact fun h => (nomatch h)
        · rintro (⟨_, h⟩ | ⟨g', b, ms, hg, h, _⟩)
          · exact absurd (hw.1 h) hf
          · cases hg
            rw [(value_first g _).2 h] at hv
            cases hv
      | some v =>
        dsimp only
        have hfirst := (value_first g v).1 hv
        have huniq : ∀ w, First g w → w = v := by
          intro w hw'
          have := (value_first g w).2 hw'
          rw [hv] at this
          exact (Option.some.inj this).symm
        constructor
        · intro h
          cases v with
          | none => cases h
          | some b =>
            unfold verifyValue at h
            dsimp only at h
            cases hd : dec b with
            | none => rw [hd] at h; cases h
            | some r =>
              obtain ⟨ms, rest⟩ := r
              rw [hd] at h
              cases rest with
              | cons x xs => cases h
              | nil => exact .inr ⟨g, b, ms, rfl, hfirst, hd, (all_ok env rnd pw ms).1 h⟩
        · rintro (⟨_, h⟩ | ⟨g', b, ms, hg, h, hd, hall⟩)
          · exact absurd (hw.1 h) hf
          · cases hg
            have := huniq _ h
            subst this
            unfold verifyValue
            dsimp only
            rw [hd]
            exact (all_ok env rnd pw ms).2 hall

/-- C258: if the check asks for an original message and there is none, the answer is that the request is bad; otherwise the
lack of one is never an error. -/
theorem C258_absent (env : Env S K C) (dec : Bytes → Option (List (Msg C) × Bytes)) (rnd : Msg C → Bytes) (must : Bool)
    (pw : Option Bytes) (gi : Option (List Itv)) (h : Without gi) :
    validateOrig env dec rnd must pw gi = if must = true then .error .badRequest else .ok () := by
  unfold validateOrig
  cases gi with
  | none => cases must <;> rfl
  | some g =>
    have hf := (find_false g).2 (h g rfl)
    cases must with
    | false => simp [hf]
    | true => simp [hf]

/-- C258: what a registration authority puts into the field after its own entries is accepted, if each message was protected
with the password; the codec has to give back the messages as transported. -/
theorem C258_roundtrip (env : Env S K C) (dec : Bytes → Option (List (Msg C) × Bytes)) (enc : List (Msg C) → Bytes)
    (rnd : Msg C → Bytes) (must : Bool) (pw : Option Bytes) (own more : List Itv) (ms : List (Msg C))
    (hown : ∀ e ∈ own, e.oid ≠ [1, 3, 6, 1, 5, 5, 7, 4, 15])
    (hc : dec (enc ms) = some (ms.map (transport env.toMacEnv), []))
    (hv : ∀ m ∈ ms, ∀ r, verifyProt env r (transport env.toMacEnv m) none pw none none false = .ok ()) :
    validateOrig env dec rnd must pw (some (own ++ prepareOrig enc ms :: more)) = .ok () := by
  refine (C258_iff ..).2 (.inr ⟨_, enc ms, _, rfl, ?_, hc, ?_⟩)
  · clear hc hv
    induction own with
    | nil => exact .here _ _
    | cons e es ih =>
      exact .later _ _ _ (hown e (List.mem_cons_self ..)) (ih fun x hx => hown x (List.mem_cons_of_mem _ hx))
  · intro m hm
    obtain ⟨m', h1, h2⟩ := List.mem_map.1 hm
    rw [← h2]
    exact hv m' h1 _

/-- C258: the same for messages made by `protect_pkimessage` with a password; the codec has to give back their
parameters. -/
theorem C258_protected [DecidableEq C] (env : Env S K C) (dec : Bytes → Option (List (Msg C) × Bytes))
    (enc : List (Msg C) → Bytes) (rnd : Msg C → Bytes) (must : Bool) (pw : Bytes) (own more : List Itv) (ms : List (Msg C))
    (hown : ∀ e ∈ own, e.oid ≠ [1, 3, 6, 1, 5, 5, 7, 4, 15])
    (hc : dec (enc ms) = some (ms.map (transport env.toMacEnv), []))
    (hp : ∀ m ∈ ms, ∃ (a : PArgs S K C) (m0 : Msg C) (k : ProtKind), protKind a.name = .ok k ∧ pwKind k = true ∧
      a.rnd ≠ [] ∧ a.bad = false ∧ a.password = some pw ∧ protect env a m0 = .ok m ∧
      ∀ alg, m.hdr.alg = some alg → ParOk env.toMacEnv alg.par) :
    validateOrig env dec rnd must (some pw) (some (own ++ prepareOrig enc ms :: more)) = .ok () := by
  refine C258_roundtrip env dec enc rnd must (some pw) own more ms hown hc ?_
  intro m hm r
  obtain ⟨a, m0, k, h1, h2, h3, h4, h5, h6, h7⟩ := hp m hm
  obtain ⟨alg, pw', g1, g2, g3⟩ := C142_roundtrip env a m0 m k h1 h2 h3 h4 h6 r none none none
  rw [h5] at g2
  cases g2
  exact g3 (h7 alg g1)

/-- C258: an original message with a false MAC, or signed by another key than that of its certificate, gives
`BadMessageCheck` if the messages before it are valid. -/
theorem C258_false (env : Env S K C) (dec : Bytes → Option (List (Msg C) × Bytes)) (rnd : Msg C → Bytes) (must : Bool)
    (pw : Option Bytes) (g : List Itv) (b : Bytes) (good bad : List (Msg C)) (m : Msg C) (e : PyErr)
    (hg : First g (some b)) (hd : dec b = some (good ++ m :: bad, []))
    (hv : ∀ x ∈ good, verifyProt env (rnd x) x none pw none none false = .ok ())
    (hm : verifyProt env (rnd m) m none pw none none false = .error e)
    (he : e = .badMessageCheck ∨ e = .badMacProtection ∨ e = .badSignatureProtection ∨ e = .invalidSignature ∨
      e = .invalidAltSignature ∨ e = .badSigAlgId) :
    validateOrig env dec rnd must pw (some g) = .error .badMessageCheck := by
  have hne := first_found g _ hg
  unfold validateOrig
  dsimp only
  rw [if_neg (fun h => hne h.2), if_neg hne, (value_first g _).2 hg]
  unfold verifyValue
  dsimp only
  rw [hd]
  dsimp only
  clear hd hg hne
  induction good with
  | nil =>
    rw [List.nil_append]
    unfold verifyAll verifyOne
    rw [hm]
    rcases he with rfl | rfl | rfl | rfl | rfl | rfl <;> rfl
  | cons x xs ih =>
    rw [List.cons_append]
    unfold verifyAll
    rw [(one_ok env (rnd x) pw x).2 (hv x (List.mem_cons_self ..))]
    exact ih fun y hy => hv y (List.mem_cons_of_mem _ hy)

/-- C258: an original message with a traditional signature is accepted exactly if the key of its own first certificate
verifies it; no trust anchor, and nothing of the message around it, is asked for. -/
theorem C258_signed (env : Env S K C) (dec : Bytes → Option (List (Msg C) × Bytes)) (rnd : Msg C → Bytes) (must : Bool)
    (pw : Option Bytes) (g : List Itv) (b : Bytes) (m : Msg C) (a : AlgId) (p : Bytes)
    (hg : First g (some b)) (hd : dec b = some ([m], [])) (ha : m.hdr.alg = some a) (hp : m.prot = some p)
    (ho : a.oid ∈ tradOids) (hs : env.special a.oid = none) (hk : ∀ k, env.isCompositePub k = false) :
    validateOrig env dec rnd must pw (some g) = .ok () ↔
      ∃ data h c rest k, protectedPart env.toMacEnv m = .ok data ∧ SigHash a.oid h ∧ m.certs = c :: rest ∧
        env.keyOf c = .ok k ∧ env.isVerifyKey k = true ∧ env.verify k (.plain h) data p = .ok () := by
  rw [← C143_cert_iff env (rnd m) m none pw none a p ha hp ho hs hk, C258_iff]
  constructor
  · rintro (⟨_, h⟩ | ⟨g', b', ms, hg', h1, h2, h3⟩)
    · exact absurd ((find_false g).2 (h g rfl)) (first_found g _ hg)
    · cases hg'
      have e1 := (value_first g _).2 hg
      rw [(value_first g _).2 h1] at e1
      cases e1
      rw [hd] at h2
      cases h2
      exact h3 m (List.mem_cons_self ..)
  · intro h
    refine .inr ⟨g, b, [m], rfl, hg, hd, ?_⟩
    intro x hx
    cases List.mem_singleton.1 hx
    exact h

/-! ## What is false of the code -/

/-- C258, refuted: that an original message with a wrong protection is always answered by `BadMessageCheck`.  One without
protection gives an error of the codec; one with a password-based MAC, if the check has no password, a `ValueError`
(`CAHandler.process_ir`, `ca_handler.py` 927, gives none); so does one with a composite signature or another algorithm without branch. -/
theorem C258_error_refuted (env : Env S K C) (dec : Bytes → Option (List (Msg C) × Bytes)) (rnd : Msg C → Bytes)
    (must : Bool) (g : List Itv) (b : Bytes) (m : Msg C) (ms : List (Msg C))
    (hg : First g (some b)) (hd : dec b = some (m :: ms, [])) :
    (m.prot = none → ∀ pw, validateOrig env dec rnd must pw (some g) = .error .pyasn1Error) ∧
    (∀ a p, m.hdr.alg = some a → m.prot = some p → a.oid ∈ pwMacOids →
      validateOrig env dec rnd must none (some g) = .error .valueError) ∧
    (∀ a p, m.hdr.alg = some a → m.prot = some p → isTradSig a.oid = false → isSymmetric a.oid = false →
      a.oid ≠ kemMacOid → a.oid ≠ dhOid → env.isPqSig a.oid = false → env.isStateful a.oid = false →
      ∀ pw, validateOrig env dec rnd must pw (some g) = .error .valueError) := by
  have hne := first_found g _ hg
  have key : ∀ pw e, verifyProt env (rnd m) m none pw none none false = .error e → caught e = false →
      validateOrig env dec rnd must pw (some g) = .error e := by
    intro pw e h hc
    unfold validateOrig
    dsimp only
    rw [if_neg (fun h => hne h.2), if_neg hne, (value_first g _).2 hg]
    unfold verifyValue
    dsimp only
    rw [hd]
    dsimp only
    unfold verifyAll verifyOne
    rw [h]
    dsimp only
    rw [hc]
    rfl
  refine ⟨fun hp pw => ?_, fun a p ha hp ho => ?_, fun a p ha hp h1 h2 h3 h4 h5 h6 pw => ?_⟩
  · refine key pw _ ?_ rfl
    unfold verifyProt
    rw [hp]
  · refine key none _ ?_ rfl
    rw [verify_pwMac env (rnd m) m none none none none a p ha hp ho]
    rfl
  · refine key pw _ ?_ rfl
    unfold verifyProt
    rw [hp, ha]
    dsimp only
    rw [if_neg (by decide)]
    unfold verifyBy
    rw [if_neg h3, if_neg h4, if_neg (by simp [h2]), if_neg (by simp [h1, h5, h6])]

/-- C258, refuted: that a field with a required original message has one.  A sequence without messages is accepted; and a
second entry of the type, with whatever value, is never looked at. -/
theorem C258_required_refuted :
    (∀ (env : Env S K C) (dec : Bytes → Option (List (Msg C) × Bytes)) (rnd : Msg C → Bytes) (pw : Option Bytes) (b : Bytes)
      (l : List Itv), dec b = some ([], []) →
      validateOrig env dec rnd true pw (some (⟨[1, 3, 6, 1, 5, 5, 7, 4, 15], some b⟩ :: l)) = .ok ()) ∧
    (∀ (env : Env S K C) (dec : Bytes → Option (List (Msg C) × Bytes)) (rnd : Msg C → Bytes) (must : Bool)
      (pw : Option Bytes) (v w : Option Bytes) (pre post : List Itv),
      validateOrig env dec rnd must pw (some (pre ++ ⟨[1, 3, 6, 1, 5, 5, 7, 4, 15], v⟩ :: post)) =
      validateOrig env dec rnd must pw
        (some (pre ++ ⟨[1, 3, 6, 1, 5, 5, 7, 4, 15], v⟩ :: ⟨[1, 3, 6, 1, 5, 5, 7, 4, 15], w⟩ :: post))) := by
  refine ⟨?_, ?_⟩
  · intro env dec rnd pw b l h
    exact (C258_iff ..).2 (.inr ⟨_, b, [], rfl, .here _ _, h, fun m hm => (nomatch hm)⟩)
  · intro env dec rnd must pw v w pre post
    have hf : ∀ l, findOid origOid (pre ++ ⟨[1, 3, 6, 1, 5, 5, 7, 4, 15], v⟩ :: l) = true := by
      intro l
      unfold findOid
      simp [origOid_eq]
    have hv : ∀ l l', valueOf origOid (pre ++ ⟨[1, 3, 6, 1, 5, 5, 7, 4, 15], v⟩ :: l) =
        valueOf origOid (pre ++ ⟨[1, 3, 6, 1, 5, 5, 7, 4, 15], v⟩ :: l') := by
      intro l l'
      clear hf
      induction pre with
      | nil => simp [valueOf, origOid_eq]
      | cons e es ih =>
        rw [List.cons_append, List.cons_append]
        unfold valueOf
        rw [ih]
    unfold validateOrig
    dsimp only
    rw [hf, hf, hv post (⟨[1, 3, 6, 1, 5, 5, 7, 4, 15], w⟩ :: post)]

/-! ## Examples -/

/-- A message with a HMAC under the password 1, 2. -/
def exGood : Msg Unit := exMsg ⟨[1, 2, 840, 113549, 2, 9], .absent⟩ [6, 1, 2, 10, 11, 12]

/-- The same with another value. -/
def exBad : Msg Unit := exMsg ⟨[1, 2, 840, 113549, 2, 9], .absent⟩ [6, 1, 2, 10, 11, 13]

/-- A codec for sequences of these. -/
def exDec : Bytes → Option (List (Msg Unit) × Bytes)
  | [0] => some ([], [])
  | [1] => some ([exGood], [])
  | [2] => some ([exGood, exBad], [])
  | [3] => some ([exGood], [9])
  | [4] => some ([{ exGood with prot := none }], [])
  | _ => none

/-- The check with this codec, entries of other types before and after. -/
def exRun (must : Bool) (pw : Option Bytes) (b : Option Bytes) : Except PyErr Unit :=
  validateOrig exEnv exDec (fun _ => []) must pw (some [⟨[1, 3, 6, 1, 5, 5, 7, 4, 13], some [5, 0]⟩,
    ⟨[1, 3, 6, 1, 5, 5, 7, 4, 15], b⟩, ⟨[1, 3, 6, 1, 5, 5, 7, 4, 15], some [7]⟩])

example : exRun true (some [1, 2]) (some [1]) = .ok () := by decide +kernel
example : exRun true (some [1, 2]) (some [0]) = .ok () := by decide +kernel
example : exRun true (some [1, 2]) (some [2]) = .error .badMessageCheck := by decide +kernel
example : exRun true (some [1, 2]) (some [3]) = .error .badMessageCheck := by decide +kernel
example : exRun true (some [1, 2]) (some [4]) = .error .pyasn1Error := by decide +kernel
example : exRun false none (some [1]) = .error .valueError := by decide +kernel
example : exRun false none none = .error .pyasn1Error := by decide +kernel
example : exRun false none (some [8]) = .error .badAsn1Data := by decide +kernel
example : validateOrig exEnv exDec (fun _ => []) true none (some [⟨[1, 3, 6, 1, 5, 5, 7, 4, 13], some [5, 0]⟩]) =
    .error .badRequest := by decide +kernel
example : validateOrig exEnv exDec (fun _ => []) false none none = .ok () := by decide +kernel

end Verif.Prot.Orig
