import Verif.PQ.KeyExport
import Verif.PQ.KeyStoreProps

/-!
# The form in which a private key is saved: properties (C255)
-/

namespace Verif.PQ.KeyExport

open Verif.CA (Bytes PyErr)
open Verif.PQ.Store (Cls Choice SaveType decodeChoice encodeChoice prepareMl Made contents save combinedLoad Asym mlKem mlDsa
  save_made decode_encode contents_sized startBytes decode_other)
open Verif.PQ.Keys (MlSet)
open Verif.PQ.Dsa (Out)

/-- The form of saving is found regardless of case and with hyphens for underscores. -/
example : getType "Seed-And-Raw".toList = .ok .both := by decide +kernel
example : getType "key".toList = .error .valueError := by decide +kernel

/-! ## ML keys -/

/-- What the bytes of an ML key in a given form are. -/
def InForm (C : Cls) (k : C.Key) (s : Bytes) (st : SaveType) (c : Choice) : Prop :=
  (st = .seed ∧ c = .seed s) ∨ (st = .raw ∧ c = .expanded (C.raw k)) ∨ (st = .both ∧ c = .both s (C.raw k))

private theorem parts_form (C : Cls) (k : C.Key) (s : Bytes) (st : SaveType) (c : Choice) :
    ((parts c).1 = st ∧ ((parts c).2.1 = some s ∨ (parts c).2.1 = none) ∧
      ((parts c).2.2 = some (C.raw k) ∨ (parts c).2.2 = none)) ↔ InForm C k s st c := by
  unfold InForm
  cases c <;> cases st <;> simp [parts]

/-- **C255** The bytes of an ML key pass exactly if the key has a seed and the bytes are the structure of the wanted form, with
the seed and the key. -/
theorem C255_ml (C : Cls) (k : C.Key) (bytes : Bytes) (st : SaveType) : checkMl C k bytes st = .ok () ↔
    ∃ s c, C.seed k = some s ∧ decodeChoice C.seedLen C.rawLen bytes = .ok (c, []) ∧ InForm C k s st c := by
  unfold checkMl
  constructor
  · intro h
    cases hd : decodeChoice C.seedLen C.rawLen bytes with
    | error e => rw [hd] at h; cases h
    | ok p =>
      obtain ⟨c, rest⟩ := p
      rw [hd] at h; dsimp only at h
      by_cases hr : rest ≠ []
      · rw [if_pos hr] at h; cases h
      · rw [if_neg hr] at h
        by_cases ht : (parts c).1 ≠ st
        · rw [if_pos ht] at h; cases h
        · rw [if_neg ht] at h
          cases hs : C.seed k with
          | none => rw [hs] at h; cases h
          | some s =>
            rw [hs] at h; dsimp only at h
            by_cases h1 : (parts c).2.1 ≠ some s ∧ (parts c).2.1 ≠ none
            · rw [if_pos h1] at h; cases h
            · rw [if_neg h1] at h
              by_cases h2 : (parts c).2.2 ≠ some (C.raw k) ∧ (parts c).2.2 ≠ none
              · rw [if_pos h2] at h; cases h
              · have hr' : rest = [] := Decidable.not_not.mp hr
                refine ⟨s, c, rfl, by rw [hr'], (parts_form C k s st c).mp ⟨Decidable.not_not.mp ht, ?_, ?_⟩⟩
                · by_cases h3 : (parts c).2.1 = some s
                  · exact .inl h3
                  · exact .inr (Decidable.not_not.mp (fun h4 => h1 ⟨h3, h4⟩))
                · by_cases h3 : (parts c).2.2 = some (C.raw k)
                  · exact .inl h3
                  · exact .inr (Decidable.not_not.mp (fun h4 => h2 ⟨h3, h4⟩))
  · rintro ⟨s, c, hs, hd, hf⟩
    obtain ⟨h1, h2, h3⟩ := (parts_form C k s st c).mpr hf
    rw [hd]; dsimp only
    rw [if_neg (fun h => h rfl), if_neg (fun h => h h1), hs]
    dsimp only
    rw [if_neg (fun h => h2.elim h.1 h.2), if_neg (fun h => h3.elim h.1 h.2)]

/-- **C255** What is written for an ML key made from a seed passes for its own form, and is refused as `InvalidKeyData` for
each other form. -/
theorem C255_ml_saved (C : Cls) (k : C.Key) (s : Bytes) (m : Made C k s) (version : Nat) (st st' : SaveType) (inc : Bool)
    (a : Asym) (h : save C k none version st inc = .value a) :
    checkExport C a.priv st' (.ml k) = if st' = st then .ok () else .error .invalidKeyData := by
  rw [save_made m version st inc] at h
  cases h
  change checkMl C k (encodeChoice (contents C k s st)) st' = _
  have hd := decode_encode _ _ m.small _ (contents_sized m st)
  by_cases ht : st' = st
  · rw [if_pos ht]
    refine (C255_ml C k _ st').mpr ⟨s, _, m.seed, hd, ?_⟩
    subst ht
    cases st'
    · exact .inl ⟨rfl, rfl⟩
    · exact .inr (.inl ⟨rfl, rfl⟩)
    · exact .inr (.inr ⟨rfl, rfl⟩)
  · rw [if_neg ht]
    unfold checkMl
    rw [hd]; dsimp only
    rw [if_neg (fun h => h rfl), if_pos]
    intro h1
    apply ht
    rw [← h1]
    cases st <;> rfl

/-- Nothing else than the errors `BadAsn1Data`, `InvalidKeyData` and, for a key without a seed, `ValueError` occurs. -/
theorem C255_ml_errors (C : Cls) (k : C.Key) (bytes : Bytes) (st : SaveType) (e : PyErr)
    (h : checkMl C k bytes st = .error e) :
    e = .badAsn1Data ∨ e = .invalidKeyData ∨ (e = .valueError ∧ C.seed k = none) := by
  unfold checkMl at h
  cases hd : decodeChoice C.seedLen C.rawLen bytes with
  | error e => rw [hd] at h; cases h; exact .inl rfl
  | ok p =>
    obtain ⟨c, rest⟩ := p
    rw [hd] at h; dsimp only at h
    split at h
    · cases h; exact .inr (.inl rfl)
    · split at h
      · cases h; exact .inr (.inl rfl)
      · cases hs : C.seed k with
        | none => rw [hs] at h; cases h; exact .inr (.inr ⟨rfl, rfl⟩)
        | some s =>
          rw [hs] at h; dsimp only at h
          split at h
          · cases h; exact .inr (.inl rfl)
          · split at h
            · cases h; exact .inr (.inl rfl)
            · cases h

/-- An ML-KEM key read from its raw form has no seed. -/
theorem mlKem_raw_seed (P : Kem.Params) (hP : MlSet P) (E : Kem.Env) (r : Bytes) (hr : r.length = (mlKem P E).rawLen)
    (k : (mlKem P E).Key) (h : (mlKem P E).load r = .value k) : (mlKem P E).seed k = none := by
  have hr : r.length = Keys.mlSkSize P := hr
  have hsz := Store.mlKem_sizes hP
  change Keys.mlFromPrivateBytes P E r = .value k at h
  unfold Keys.mlFromPrivateBytes at h
  rw [if_neg (by omega), if_neg (by omega), if_pos hr] at h
  cases h
  rfl

/-- An ML-DSA key read from its raw form has no seed. -/
theorem mlDsa_raw_seed (P : Dsa.Params) (hP : Dsa.IsParam P) (E : Dsa.Env) (r : Bytes) (hr : r.length = (mlDsa P E).rawLen)
    (k : (mlDsa P E).Key) (h : (mlDsa P E).load r = .value k) : (mlDsa P E).seed k = none := by
  have hr : r.length = Dsa.skSize P := hr
  change Dsa.fromPrivateBytes P E r = .value k at h
  unfold Dsa.fromPrivateBytes at h
  rw [if_neg (by rw [hr]; rcases hP with rfl | rfl | rfl <;> decide), if_pos hr] at h
  cases hd : Dsa.derivePublicKey P E r with
  | none => rw [hd] at h; cases h
  | some pk =>
    rw [hd] at h
    cases h
    rfl

/-- **C255, refuted**: a received key in the raw form does not pass. A key that is read from the structure with the raw form
has no seed, and `ValueError` is raised, whether or not the bytes are right (for ML-KEM). -/
theorem C255_received_raw_kem_refuted (P : Kem.Params) (hP : MlSet P) (E : Kem.Env) (r : Bytes)
    (hr : r.length = Keys.mlSkSize P) (pub : Option Bytes) (k : (mlKem P E).Key)
    (h : combinedLoad (mlKem P E) ⟨1, encodeChoice (.expanded r), pub⟩ = .value k) :
    checkExport (mlKem P E) (encodeChoice (.expanded r)) .raw (.ml k) = .error .valueError := by
  have hsz := Store.mlKem_sizes hP
  have hd : decodeChoice (mlKem P E).seedLen (mlKem P E).rawLen (encodeChoice (.expanded r)) = .ok (.expanded r, []) :=
    decode_encode 64 (Keys.mlSkSize P) (by omega) _ hr
  unfold combinedLoad Store.fromOneAsym at h
  dsimp only at h
  rw [if_neg (by decide), if_neg (fun h => (nomatch h.1)), if_neg (by decide), hd] at h
  dsimp only at h
  rw [if_neg (fun h => h rfl)] at h
  have hl : (mlKem P E).load r = .value k := by
    change Hyb.bind ((mlKem P E).load r) _ = _ at h
    cases hk : (mlKem P E).load r with
    | value k' =>
      rw [hk] at h
      change Store.checkPub (mlKem P E) k' pub = .value k at h
      cases pub with
      | none => cases h; rfl
      | some p => rw [(Store.checkPub_value (Store.mlKem_pub P E) h).1]
    | pyNone => rw [hk] at h; cases h
    | raised e => rw [hk] at h; cases h
    | running => rw [hk] at h; cases h
  have hs := mlKem_raw_seed P hP E r hr k hl
  change checkMl _ k _ _ = _
  unfold checkMl
  rw [hd]; dsimp only
  rw [if_neg (fun h => h rfl), if_neg (fun h => h rfl), hs]

/-- **C255, refuted**: the same for ML-DSA. -/
theorem C255_received_raw_dsa_refuted (P : Dsa.Params) (hP : Dsa.IsParam P) (E : Dsa.Env) (r : Bytes)
    (hr : r.length = Dsa.skSize P) (pub : Option Bytes) (k : (mlDsa P E).Key)
    (h : combinedLoad (mlDsa P E) ⟨1, encodeChoice (.expanded r), pub⟩ = .value k) :
    checkExport (mlDsa P E) (encodeChoice (.expanded r)) .raw (.ml k) = .error .valueError := by
  have hsz : Dsa.skSize P ≤ 4896 := by rcases hP with rfl | rfl | rfl <;> decide
  have hd : decodeChoice (mlDsa P E).seedLen (mlDsa P E).rawLen (encodeChoice (.expanded r)) = .ok (.expanded r, []) :=
    decode_encode 32 (Dsa.skSize P) (by omega) _ hr
  unfold combinedLoad Store.fromOneAsym at h
  dsimp only at h
  rw [if_neg (by decide), if_neg (fun h => (nomatch h.1)), if_neg (by decide), hd] at h
  dsimp only at h
  rw [if_neg (fun h => h rfl)] at h
  have hl : (mlDsa P E).load r = .value k := by
    change Hyb.bind ((mlDsa P E).load r) _ = _ at h
    cases hk : (mlDsa P E).load r with
    | value k' =>
      rw [hk] at h
      change Store.checkPub (mlDsa P E) k' pub = .value k at h
      cases pub with
      | none => cases h; rfl
      | some p => rw [(Store.checkPub_value (Store.mlDsa_pub P E) h).1]
    | pyNone => rw [hk] at h; cases h
    | raised e => rw [hk] at h; cases h
    | running => rw [hk] at h; cases h
  have hs := mlDsa_raw_seed P hP E r hr k hl
  change checkMl _ k _ _ = _
  unfold checkMl
  rw [hd]; dsimp only
  rw [if_neg (fun h => h rfl), if_neg (fun h => h rfl), hs]

private theorem load_raw (r : Bytes) (hl : r.length = 1632) (h : decodeChoice 64 1632 (encodeChoice (.expanded r)) = .ok (.expanded r, [])) :
    combinedLoad (mlKem Kem.p512 Kem.zeroEnv) ⟨1, encodeChoice (.expanded r), none⟩ = .value ⟨r, none, none⟩ := by
  have hd : decodeChoice (mlKem Kem.p512 Kem.zeroEnv).seedLen (mlKem Kem.p512 Kem.zeroEnv).rawLen (encodeChoice (.expanded r)) =
    .ok (.expanded r, []) := h
  unfold combinedLoad Store.fromOneAsym
  dsimp only
  rw [if_neg (by decide), if_neg (fun h => (nomatch h.1)), if_neg (by decide), hd]
  dsimp only
  rw [if_neg (fun h => h rfl)]
  change Hyb.bind (Keys.mlFromPrivateBytes Kem.p512 Kem.zeroEnv r) _ = _
  rw [Store.load_512 r hl]
  rfl

/-- A key for which the hypotheses hold: a raw ML-KEM key of the right size is read, and then refused. -/
example : ∃ k, combinedLoad (mlKem Kem.p512 Kem.zeroEnv) ⟨1, encodeChoice (.expanded (List.replicate 1632 7)), none⟩ = .value k ∧
    checkExport (mlKem Kem.p512 Kem.zeroEnv) (encodeChoice (.expanded (List.replicate 1632 7))) .raw (.ml k) = .error .valueError := by
  have hl : (List.replicate 1632 (7 : UInt8)).length = 1632 := List.length_replicate
  have hk := load_raw _ hl (decode_encode 64 1632 (by decide) _ hl)
  exact ⟨_, hk, C255_received_raw_kem_refuted Kem.p512 (Or.inl rfl) Kem.zeroEnv _ hl none _ hk⟩

/-! ## Other keys -/

/-- **C255** X-Wing: what is written for a key with a seed passes exactly for its own form, as the three forms differ in
length. -/
theorem C255_xwing (C : Cls) (k : Plain) (s : Bytes) (hn : k.numbers = true) (hs : k.seed = some s) (h0 : s ≠ [])
    (hlt : s.length < k.raw.length) (st st' : SaveType) (b : Bytes) (h : saveXwing k st = .ok b) :
    checkExport C b st' (.xwing k) = if st' = st then .ok () else .error .invalidKeyData := by
  have hp : k.privateNumbers = .ok s := by unfold Plain.privateNumbers; rw [hs]
  have h0 : 0 < s.length := List.length_pos_of_ne_nil h0
  have e1 : s ≠ k.raw := fun h => by rw [h] at hlt; omega
  have e2 : s ++ k.raw ≠ k.raw := fun h => by
    have := congrArg List.length h
    rw [List.length_append] at this
    omega
  have e3 : s ++ k.raw ≠ s := fun h => by
    have := congrArg List.length h
    rw [List.length_append] at this
    omega
  change checkPlain k b st' = _
  unfold checkPlain
  rw [if_pos hn]
  cases st with
  | seed =>
    have hb : b = s := by
      change k.privateNumbers = _ at h
      rw [hp] at h
      exact (Except.ok.inj h).symm
    subst hb
    cases st' <;> simp [compareAs, hp, e1, e3.symm]
  | raw =>
    have hb : b = k.raw := (Except.ok.inj h).symm
    subst hb
    cases st' <;> simp [compareAs, hp, e1.symm, e2.symm]
  | both =>
    have hb : b = s ++ k.raw := by
      unfold saveXwing at h
      rw [hp] at h
      exact (Except.ok.inj h).symm
    subst hb
    cases st' <;> simp [compareAs, hp, e2, e3]

/-- **C255** SLH-DSA: the seed and the raw form pass, for each key that has what is written. -/
theorem C255_slh_partial (C : Cls) (k : Plain) (st : SaveType) (hst : st ≠ .both) (b : Bytes) (h : saveSlh k st = .ok b) :
    checkExport C b st (.slh k) = .ok () := by
  cases st with
  | seed =>
    change k.privateNumbers = .ok b at h
    change compareAs k b .seed = _
    unfold compareAs
    rw [h]
    exact if_neg (fun h => h rfl)
  | raw =>
    cases h
    exact if_neg (fun h => h rfl)
  | both => exact absurd rfl hst

/-- **C255, refuted**: for SLH-DSA, what is written for the form `seed_and_raw` (the raw key alone) does not pass. -/
theorem C255_slh_both_refuted (C : Cls) (k : Plain) (s : Bytes) (hs : k.seed = some s) (h0 : s ≠ []) (b : Bytes)
    (h : saveSlh k .both = .ok b) : checkExport C b .both (.slh k) = .error .invalidKeyData := by
  cases h
  have hp : k.privateNumbers = .ok s := by unfold Plain.privateNumbers; rw [hs]
  have h0 : 0 < s.length := List.length_pos_of_ne_nil h0
  have e2 : k.raw ≠ s ++ k.raw := fun h => by
    have := congrArg List.length h
    rw [List.length_append] at this
    omega
  change compareAs k k.raw .both = _
  unfold compareAs
  rw [hp]
  exact if_pos e2

/-- **C255** FrodoKEM and the other PQ keys: the raw form passes, and nothing else passes as raw. -/
theorem C255_raw (C : Cls) (k : Plain) (b : Bytes) : (checkExport C b .raw (.frodo k) = .ok () ↔ b = k.raw) ∧
    (checkExport C b .raw (.plain k) = .ok () ↔ b = k.raw) := by
  have : compareRaw k b .raw = .ok () ↔ b = k.raw := by
    unfold compareRaw
    rw [if_neg (fun h => h rfl)]
    by_cases hb : b = k.raw
    · rw [if_neg (fun h => h hb)]
      exact ⟨fun _ => hb, fun _ => rfl⟩
    · rw [if_pos hb]
      exact ⟨fun h => (nomatch h), fun h => absurd h hb⟩
  exact ⟨this, this⟩

/-- **C255, refuted**: a FrodoKEM key that is saved in a form with the seed cannot be checked: `NotImplementedError`, whatever
the bytes are. -/
theorem C255_frodo_seed_refuted (C : Cls) (k : Plain) (s : Bytes) (hs : k.seed = some s) (st : SaveType) (hst : st ≠ .raw) :
    (∃ b, saveFrodo k st = .ok b) ∧ ∀ b, checkExport C b st (.frodo k) = .error .notImplemented := by
  have hp : k.privateNumbers = .ok s := by unfold Plain.privateNumbers; rw [hs]
  refine ⟨?_, fun b => if_pos hst⟩
  cases st with
  | seed => exact ⟨s, hp⟩
  | raw => exact absurd rfl hst
  | both =>
    refine ⟨s ++ k.raw, ?_⟩
    unfold saveFrodo
    rw [hp]

/-! ## Hybrid keys -/

/-- **C255, refuted**: for composite and Chempat keys the traditional key is not checked: with another one, the same bytes
pass. In particular the structure of the ML key alone passes. -/
theorem C255_hybrid_trad_refuted (C : Cls) (k : C.Key) (s : Bytes) (m : Made C k s) (st : SaveType) (trad : Bytes) :
    ∃ b, prepareMl C k st = .value b ∧ checkExport C b st (.composite (.ml k) trad) = .ok () ∧
      checkExport C b st (.chempat (.ml k) trad) = .ok () := by
  have hs := save_made m 1 st true
  cases hp : prepareMl C k st with
  | value b =>
    unfold save at hs
    rw [hp] at hs
    have hb : b = encodeChoice (contents C k s st) := by
      injection hs with hs
      injection hs
    have := C255_ml_saved C k s m 1 st st true _ (save_made m 1 st true)
    rw [if_pos rfl] at this
    refine ⟨b, rfl, ?_, ?_⟩
    · rw [hb]; exact this
    · rw [hb]; exact this
  | pyNone => unfold save at hs; rw [hp] at hs; cases hs
  | raised e => unfold save at hs; rw [hp] at hs; cases hs
  | running => unfold save at hs; rw [hp] at hs; cases hs

/-- **C255, refuted**: what is written for a composite key does not pass, unless its first byte happens to be one with which
the structure of an ML key starts. -/
theorem C255_composite_refuted (C : Cls) (k : C.Key) (st : SaveType) (b : UInt8) (bs trad : Bytes)
    (hp : compositePart C k st = .ok (b :: bs)) (hb : b ∉ startBytes) (w : Bytes) (h : saveComposite C k trad st = .ok w) :
    checkExport C w st (.composite (.ml k) trad) = .error .badAsn1Data := by
  unfold saveComposite at h
  cases ho : ofOut (prepareMl C k st) with
  | error e => rw [ho] at h; cases h
  | ok u =>
    rw [ho] at h; dsimp only at h
    rw [hp] at h
    cases h
    change checkMl C k (b :: (bs ++ trad)) st = _
    unfold checkMl
    rw [decode_other _ _ b _ hb]

private theorem encodeLen_length (n : Nat) : (Store.encodeLen n).length = if n < 128 then 1 else if n < 256 then 2 else 3 := by
  unfold Store.encodeLen
  split
  · rfl
  · split <;> rfl

private theorem tlv_len (t : UInt8) (c : Bytes) :
    (Store.tlv t c).length = (if c.length < 128 then 2 else if c.length < 256 then 3 else 4) + c.length := by
  unfold Store.tlv
  rw [List.length_cons, List.length_append, encodeLen_length]
  split
  · omega
  · split <;> omega

private theorem chempat_first (P : Kem.Params) (hP : MlSet P) (E : Kem.Env) (k : (mlKem P E).Key) (s : Bytes)
    (m : Made (mlKem P E) k s) (st : SaveType) :
    UInt8.ofNat (encodeChoice (contents (mlKem P E) k s st)).length ∉ startBytes := by
  have h1 : s.length = 64 := m.seedLen
  have h2 : ((mlKem P E).raw k).length = Keys.mlSkSize P := m.rawLen
  cases st with
  | seed =>
    change UInt8.ofNat (Store.tlv 0x80 s).length ∉ _
    rw [tlv_len, h1]
    decide
  | raw =>
    change UInt8.ofNat (Store.tlv 0x04 ((mlKem P E).raw k)).length ∉ _
    rw [tlv_len, h2]
    rcases hP with rfl | rfl | rfl <;> decide
  | both =>
    change UInt8.ofNat (Store.tlv 0x30 (Store.tlv 0x04 s ++ Store.tlv 0x04 ((mlKem P E).raw k))).length ∉ _
    rw [tlv_len, List.length_append, tlv_len, tlv_len, h1, h2]
    rcases hP with rfl | rfl | rfl <;> decide

/-- **C255, refuted**: what is written for a Chempat key with ML-KEM never passes, in no form: it begins with a length. -/
theorem C255_chempat_refuted (P : Kem.Params) (hP : MlSet P) (E : Kem.Env) (k : (mlKem P E).Key) (s : Bytes)
    (m : Made (mlKem P E) k s) (st : SaveType) (trad w : Bytes) (h : saveChempat (mlKem P E) (.ml k) trad st = .ok w) :
    checkExport (mlKem P E) w st (.chempat (.ml k) trad) = .error .badAsn1Data := by
  obtain ⟨b, hb, _⟩ := C255_hybrid_trad_refuted _ k s m st trad
  have hb' : b = encodeChoice (contents (mlKem P E) k s st) := by
    have hs := save_made m 1 st true
    unfold save at hs
    rw [hb] at hs
    injection hs with hs
    injection hs
  unfold saveChempat savePart at h
  dsimp only at h
  rw [hb] at h
  change Except.ok (le4 b.length ++ b ++ trad) = _ at h
  have hf := chempat_first P hP E k s m st
  rw [← hb'] at hf
  have hw := (Except.ok.inj h).symm
  change checkMl (mlKem P E) k w st = _
  rw [hw]
  unfold checkMl le4
  rw [List.cons_append, List.cons_append, decode_other _ _ _ _ hf]

example : ∃ k w, Made (mlKem Kem.p512 Kem.zeroEnv) k (List.replicate 64 7) ∧
    saveChempat (mlKem Kem.p512 Kem.zeroEnv) (.ml k) [1, 2] .seed = .ok w ∧
    checkExport (mlKem Kem.p512 Kem.zeroEnv) w .seed (.chempat (.ml k) [1, 2]) = .error .badAsn1Data := by
  obtain ⟨ek, dk, m⟩ := Store.zeroMade (List.replicate 64 7) List.length_replicate
  obtain ⟨b, hb, _⟩ := C255_hybrid_trad_refuted _ _ _ m .seed [1, 2]
  have hw : saveChempat (mlKem Kem.p512 Kem.zeroEnv) (.ml ⟨dk, some ek, some (List.replicate 64 7)⟩) [1, 2] .seed =
      .ok (le4 b.length ++ b ++ [1, 2]) := by
    unfold saveChempat savePart
    dsimp only
    rw [hb]
    rfl
  exact ⟨_, _, m, hw, C255_chempat_refuted Kem.p512 (Or.inl rfl) Kem.zeroEnv _ _ m .seed [1, 2] _ hw⟩

/-- X-Wing with short keys. -/
example (C : Cls) : checkExport C [1, 2] .raw (.xwing ⟨[3, 4, 5], some [1, 2], true⟩) = .error .invalidKeyData ∧
    checkExport C [1, 2, 3, 4, 5] .both (.xwing ⟨[3, 4, 5], some [1, 2], true⟩) = .ok () := ⟨rfl, rfl⟩

end Verif.PQ.KeyExport
