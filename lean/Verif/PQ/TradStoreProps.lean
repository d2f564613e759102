import Verif.PQ.TradStore

/-!
# Properties of saving, loading and generating traditional private keys (C249)
-/

namespace Verif.PQ.TradStore

open Verif.CA (Bytes PyErr)

variable {K P O Q : Type}

/-! ## What is expected of the library -/

/-- The identifiers of the six classes of keys that have one (RFC 8410, RFC 3279, RFC 5480). -/
inductive HasOid : Kind → String → Prop where
  | x25519 : HasOid .x25519 "1.3.101.110"
  | x448 : HasOid .x448 "1.3.101.111"
  | ed25519 : HasOid .ed25519 "1.3.101.112"
  | ed448 : HasOid .ed448 "1.3.101.113"
  | rsa : HasOid .rsa "1.2.840.113549.1.1.1"
  | ec : HasOid .ec "1.2.840.10045.2.1"

/-- The four classes whose public keys are plain octets, and their sizes. -/
inductive RawKind : Kind → Nat → Prop where
  | x25519 : RawKind .x25519 32
  | x448 : RawKind .x448 56
  | ed25519 : RawKind .ed25519 32
  | ed448 : RawKind .ed448 57

/-- DSA and DH keys have no place in the suite's OneAsymmetricKey. -/
def Usable (k : Kind) : Prop := k ≠ .dsa ∧ k ≠ .dh

/-- The library reads what it writes, and tells keys apart by their encodings. -/
structure Lawful (L : Lib K P O Q) : Prop where
  pubKind : ∀ k, L.pubKind (L.pub k) = L.kind k
  oid : ∀ k, Usable (L.kind k) → HasOid (L.kind k) (L.pkcs8 k).1.oid
  load : ∀ k, L.load (L.pkcs8 k).1 (L.pkcs8 k).2 = some k
  rest : ∀ k r, Usable (L.kind k) → L.restOf (L.kind k) ((L.pkcs8 k).2 ++ r) = some r
  rsaRest : ∀ p r, L.pubKind p = .rsa → L.restRsaPub (L.pkcs1 p ++ r) = some r
  rsaPub : ∀ p, L.pubKind p = .rsa → L.loadDerPub (L.pkcs1 p) = some p
  rsaNe : ∀ p, L.pubKind p = .rsa → L.pkcs1 p ≠ []
  pointNoDer : ∀ p r, L.pubKind p = .ec → L.loadDerPub (L.point p ++ r) = none
  point : ∀ k, L.kind k = .ec → L.fromPoint k (L.point (L.pub k)) = some (L.pub k)
  pointInj : ∀ k b p, L.fromPoint k b = some p → L.point p = b
  pointNe : ∀ p, L.pubKind p = .ec → L.point p ≠ []
  rawLen : ∀ p n, RawKind (L.pubKind p) n → (L.raw p).length = n
  raw : ∀ p n, RawKind (L.pubKind p) n → L.fromRaw (L.pubKind p) (L.raw p) = some p
  pkcs1 : ∀ k, L.kind k = .rsa → L.loadDer (L.pkcs1Priv k) = some k

/-- How the public key is written. -/
inductive Writes (L : Lib K P O Q) : Pub P Q → Bytes → Prop where
  | rsa (p : P) : L.pubKind p = .rsa → Writes L (.trad p) (L.pkcs1 p)
  | ec (p : P) : L.pubKind p = .ec → Writes L (.trad p) (L.point p)
  | raw (p : P) (n : Nat) : RawKind (L.pubKind p) n → Writes L (.trad p) (L.raw p)
  | kem (p : P) : Writes L (.rsaKem p) (L.pkcs1 p)

/-- How the public key is read. -/
inductive Reads (L : Lib K P O Q) (key : K) : Kind → Bytes → P → Prop where
  | rsa (b : Bytes) (p : P) : L.restRsaPub b = some [] → L.loadDerPub b = some p → Reads L key .rsa b p
  | spki (b : Bytes) (p : P) : L.kind key = .ec → L.loadDerPub b = some p → L.pubKind p = .ec → Reads L key .ec b p
  | point (b : Bytes) (p : P) : L.kind key = .ec → L.loadDerPub b = none → L.fromPoint key b = some p → Reads L key .ec b p
  | raw (k : Kind) (n : Nat) (b : Bytes) (p : P) : RawKind k n → b.length = n → L.fromRaw k b = some p → Reads L key k b p

/-- The public key is left out. -/
def Omitted (version : Int) (incl : Option Bool) : Prop := incl = some false ∨ (version = 0 ∧ incl ≠ some true)

theorem withoutPub_iff (v : Int) (incl : Option Bool) : withoutPub v incl = true ↔ Omitted v incl := by
  unfold withoutPub Omitted
  by_cases hv : v = 0
  · subst hv; cases incl with
    | none => decide
    | some b => cases b <;> decide
  · have hb : (v == 0) = false := by rw [beq_eq_false_iff_ne]; exact hv
    rw [hb]
    cases incl with
    | none => simp [hv]
    | some b => cases b <;> simp [hv]

theorem kindOfOid_iff (k : Kind) (o : String) : kindOfOid o = some k ↔ HasOid k o := by
  constructor
  · intro h
    unfold kindOfOid at h
    rw [Option.map_eq_some_iff] at h
    obtain ⟨e, he, rfl⟩ := h
    have hm := List.mem_of_find?_eq_some he
    have ho := List.find?_some (p := fun e : String × Kind => e.1 == o) he
    have ho : e.1 = o := eq_of_beq ho
    subst ho
    simp only [tradKinds, List.mem_cons, List.not_mem_nil, or_false] at hm
    rcases hm with rfl | rfl | rfl | rfl | rfl | rfl <;> constructor
  · intro h
    cases h <;> decide +kernel

theorem hasOid_ne_kem {k : Kind} {o : String} (h : HasOid k o) : o ≠ "1.2.840.113549.1.9.16.3.14" := by
  cases h <;> decide +kernel

theorem rawSize_of {k : Kind} {n : Nat} (h : RawKind k n) : rawSize k = n := by cases h <;> rfl

theorem publicBytes_iff (L : Lib K P O Q) (p : Pub P Q) (b : Bytes) : publicBytes L p = .ok b ↔ Writes L p b := by
  constructor
  · intro h
    cases p with
    | trad p =>
      unfold publicBytes at h
      dsimp only at h
      cases hk : L.pubKind p <;> rw [hk] at h <;> dsimp only at h <;> first
        | (cases h; done)
        | (have := Except.ok.inj h; subst this; first
            | exact .rsa p hk
            | exact .ec p hk
            | exact .raw p 32 (by rw [hk]; constructor)
            | exact .raw p 56 (by rw [hk]; constructor)
            | exact .raw p 57 (by rw [hk]; constructor))
    | rsaKem p =>
      have := Except.ok.inj h; subst this; exact .kem p
    | pq q => cases h
    | hybrid q => cases h
  · intro h
    cases h with
    | rsa p hk => unfold publicBytes; dsimp only; rw [hk]
    | ec p hk => unfold publicBytes; dsimp only; rw [hk]
    | raw p n hk =>
      unfold publicBytes; dsimp only
      generalize hx : L.pubKind p = x at hk
      cases hk <;> rfl
    | kem p => rfl

theorem loadPub_iff (L : Lib K P O Q) {k : Kind} {o : String} (ho : HasOid k o) (key : K) (b : Bytes) (p : P) :
    loadPub L o key b = .ok p ↔ Reads L key k b p := by
  have hk := (kindOfOid_iff k o).2 ho
  have hraw : ∀ n, RawKind k n → loadPub L o key b = loadRaw L k b := by
    intro n hn; unfold loadPub; rw [hk]; cases hn <;> rfl
  constructor
  · intro h
    have rawCase : ∀ n, RawKind k n → Reads L key k b p := by
      intro n hn
      rw [hraw n hn] at h
      unfold loadRaw at h
      split at h
      · cases h
      · rename_i hl
        cases hf : L.fromRaw k b with
        | none => rw [hf] at h; cases h
        | some q =>
          rw [hf] at h; dsimp only at h
          have := Except.ok.inj h; subst this
          exact .raw k n b q hn ((Decidable.not_not.1 hl).trans (rawSize_of hn)) hf
    cases ho with
    | x25519 => exact rawCase 32 .x25519
    | x448 => exact rawCase 56 .x448
    | ed25519 => exact rawCase 32 .ed25519
    | ed448 => exact rawCase 57 .ed448
    | rsa =>
      unfold loadPub at h; rw [hk] at h; dsimp only at h
      unfold loadRsaPub at h
      cases hr : L.restRsaPub b with
      | none => rw [hr] at h; cases h
      | some r =>
        rw [hr] at h
        cases r with
        | cons x xs => cases h
        | nil =>
          dsimp only at h
          cases hd : L.loadDerPub b with
          | none => rw [hd] at h; cases h
          | some q => rw [hd] at h; have := Except.ok.inj h; subst this; exact .rsa b q hr hd
    | ec =>
      unfold loadPub at h; rw [hk] at h; dsimp only at h
      unfold loadEcPub at h
      split at h
      · cases h
      · rename_i hec
        have hec := Decidable.not_not.1 hec
        cases hd : L.loadDerPub b with
        | none =>
          rw [hd] at h; dsimp only at h
          cases hf : L.fromPoint key b with
          | none => rw [hf] at h; cases h
          | some q => rw [hf] at h; have := Except.ok.inj h; subst this; exact .point b q hec hd hf
        | some q =>
          rw [hd] at h; dsimp only at h
          split at h
          · cases h
          · rename_i hq
            have := Except.ok.inj h; subst this
            exact .spki b q hec hd (Decidable.not_not.1 hq)
  · intro h
    cases h with
    | rsa b p hr hd =>
      unfold loadPub; rw [hk]; dsimp only; unfold loadRsaPub; rw [hr]; dsimp only; rw [hd]
    | spki b p hec hd hq =>
      unfold loadPub; rw [hk]; dsimp only; unfold loadEcPub
      rw [if_neg (by simp [hec]), hd]; dsimp only; rw [if_neg (by simp [hq])]
    | point b p hec hd hf =>
      unfold loadPub; rw [hk]; dsimp only; unfold loadEcPub
      rw [if_neg (by simp [hec]), hd]; dsimp only; rw [hf]
    | raw k n b p hn hl hf =>
      rw [hraw n hn]; unfold loadRaw
      rw [if_neg (by rw [rawSize_of hn]; exact fun h => h hl), hf]

/-! ## C249: saving -/

/-- What is written for a traditional key: the algorithm and octets of the library, the version that is asked for, and a public key
- the given one or that of the key - unless it is left out. -/
theorem C249_saved_iff (L : Lib K P O Q) (k : K) (pub : Option (Pub P Q)) (v : Option Int) (incl : Option Bool) (invalid : Bool)
    (s : OneAsym) :
    saveAsym L (.trad k) pub v incl invalid = .ok s ↔
      invalid = false ∧ s.version = v.getD 0 ∧ (s.alg, s.priv) = L.pkcs8 k ∧
      ((Omitted (v.getD 0) incl ∧ s.pub = none) ∨
       (¬Omitted (v.getD 0) incl ∧ ∃ b, Writes L (pub.getD (.trad (L.pub k))) b ∧ s.pub = if b = [] then none else some b)) := by
  unfold saveAsym; dsimp only; unfold prepareTrad
  cases invalid with
  | true =>
    have : privateBytes L (.trad k) true = .error .valueError := by
      unfold privateBytes
      cases isRsaOrEc L (.trad k) <;> rfl
    rw [this]
    constructor
    · intro h; cases h
    · intro h; cases h.1
  | false =>
    have hp : privateBytes L (.trad k) false = .ok ((L.pkcs8 k).2, (L.pkcs8 k).1) := rfl
    rw [hp]; dsimp only
    by_cases ho : Omitted (v.getD 0) incl
    · rw [if_pos ((withoutPub_iff _ _).2 ho)]
      constructor
      · intro h; have := Except.ok.inj h; subst this
        exact ⟨rfl, rfl, rfl, .inl ⟨ho, rfl⟩⟩
      · rintro ⟨_, h1, h2, h3⟩
        obtain ⟨sv, sa, sp, spub⟩ := s
        dsimp only at h1 h2 h3
        rcases h3 with ⟨_, h3⟩ | ⟨h3, _⟩
        · subst h1 h3; rw [← h2]
        · exact absurd ho h3
    · rw [if_neg (fun h => ho ((withoutPub_iff _ _).1 h))]
      have hne : ∀ b, nonEmpty b = if b = [] then none else some b := by
        intro b; cases b <;> rfl
      have hd : pub.getD (L.pubOf (.trad k)) = pub.getD (.trad (L.pub k)) := rfl
      rw [hd]
      constructor
      · intro h
        cases hb : publicBytes L (pub.getD (.trad (L.pub k))) with
        | error e => rw [hb] at h; cases h
        | ok b =>
          rw [hb] at h; dsimp only at h
          have := Except.ok.inj h; subst this
          exact ⟨rfl, rfl, rfl, .inr ⟨ho, b, (publicBytes_iff _ _ _).1 hb, hne b⟩⟩
      · rintro ⟨_, h1, h2, h3⟩
        obtain ⟨sv, sa, sp, spub⟩ := s
        dsimp only at h1 h2 h3
        rcases h3 with ⟨h3, _⟩ | ⟨_, b, hb, h3⟩
        · exact absurd h3 ho
        · rw [(publicBytes_iff _ _ _).2 hb]; dsimp only
          rw [hne b]; subst h1 h3; rw [← h2]

/-- The option for an invalid private key never gives one: for a traditional key it is refused, whatever the key. -/
theorem C249_invalid_key_refuted (L : Lib K P O Q) (k : K) (pub : Option (Pub P Q)) (v : Option Int) (incl : Option Bool) :
    saveAsym L (.trad k) pub v incl true = .error .valueError := by
  unfold saveAsym; dsimp only; unfold prepareTrad
  have : privateBytes L (.trad k) true = .error .valueError := by
    unfold privateBytes
    cases isRsaOrEc L (.trad k) <;> rfl
  rw [this]

/-- A DSA or DH key cannot be saved with its public key. -/
theorem C249_dsa_dh_not_saved (L : Lib K P O Q) (hL : Lawful L) (k : K) (hk : L.kind k = .dsa ∨ L.kind k = .dh) (v : Option Int)
    (incl : Option Bool) (h : ¬Omitted (v.getD 0) incl) :
    saveAsym L (.trad k) none v incl false = .error .typeError := by
  unfold saveAsym; dsimp only; unfold prepareTrad
  have hp : privateBytes L (.trad k) false = .ok ((L.pkcs8 k).2, (L.pkcs8 k).1) := rfl
  rw [hp]; dsimp only
  rw [if_neg (fun hw => h ((withoutPub_iff _ _).1 hw))]
  have : publicBytes L ((none : Option (Pub P Q)).getD (L.pubOf (.trad k))) = .error .typeError := by
    show publicBytes L (.trad (L.pub k)) = _
    unfold publicBytes; dsimp only; rw [hL.pubKind k]
    rcases hk with hk | hk <;> rw [hk]
  rw [this]

/-- With the default arguments nothing is ever saved: the default password needs PEM, the default encoding is DER. -/
theorem C249_defaults_refuted (L : Lib K P O Q) (key : Priv K O) : saveOne L key {} = .error .notImplemented := rfl

/-- A traditional key is never saved as PEM. -/
theorem C249_trad_never_pem (L : Lib K P O Q) (k : K) (a : SaveArgs P Q) (x : Saved K O) (h : a.enc ≠ .der) :
    saveOne L (.trad k) a ≠ .ok x := by
  intro hx
  unfold saveOne at hx
  split at hx
  · cases hx
  · split at hx
    · cases hx
    · cases hs : saveAsym L (.trad k) a.pub a.version a.incl a.invalid with
      | error e => rw [hs] at hx; cases hx
      | ok s =>
        rw [hs] at hx; dsimp only at hx
        unfold encodeSaved at hx
        have h1 : (isWrapper (Priv.trad k : Priv K O) && a.enc == .pem) = false := rfl
        rw [h1, if_neg (by decide)] at hx
        have h2 : (a.enc == Enc.der) = false := by rw [beq_eq_false_iff_ne]; exact h
        rw [h2, if_neg (by decide)] at hx
        cases hx

/-- Saving in a file: an empty password leaves a traditional key unprotected, but is used for a key of the suite. -/
theorem C249_empty_password (L : Lib K P O Q) (ml : O → Bool) (k : K) (x : File K O) :
    (saveKey L ml (.trad k) (some "") = .ok x ↔ x = .lib (.trad k) none) ∧
    (saveKey L ml (.rsaKem k) (some "") = .ok x → ∃ s, x = .own (.pem (.rsaKem k) (some "") s) ∧ s.version = 1) := by
  constructor
  · have : saveKey L ml (.trad k) (some "") = .ok (.lib (.trad k) none) := rfl
    rw [this]
    exact ⟨fun h => (Except.ok.inj h).symm, fun h => by rw [h]⟩
  · intro h
    have hs : saveKey L ml (.rsaKem k) (some "") =
        (saveOne L (.rsaKem k) { password := some "", version := some 1, enc := .pem }).map .own := rfl
    rw [hs] at h
    cases hx : saveOne L (.rsaKem k) ({ password := some "", version := some 1, enc := .pem } : SaveArgs P Q) with
    | error e => rw [hx] at h; cases h
    | ok y =>
      rw [hx] at h
      have h := (Except.ok.inj h).symm
      subst h
      unfold saveOne at hx
      rw [if_neg (fun h => nomatch h), if_neg (fun h => nomatch h)] at hx
      dsimp only at hx
      cases hsv : saveAsym L (.rsaKem k) (none : Option (Pub P Q)) (some 1) none false with
      | error e => rw [hsv] at hx; cases hx
      | ok s =>
        rw [hsv] at hx; dsimp only at hx
        have hx := (Except.ok.inj hx).symm
        subst hx
        refine ⟨s, rfl, ?_⟩
        unfold saveAsym at hsv; dsimp only at hsv; unfold prepareTrad at hsv
        have hp : privateBytes L (.rsaKem k) false = .ok (L.pkcs1Priv k, { oid := rsaKemOid }) := rfl
        rw [hp] at hsv; dsimp only at hsv
        split at hsv
        · have := Except.ok.inj hsv; subst this; rfl
        · split at hsv
          · cases hsv
          · have := Except.ok.inj hsv; subst this; rfl

/-! ## C249: loading -/

/-- What is loaded as a traditional key: version 0 or 1, a public key only with version 1, octets without a rest that the library
takes, and - if there is a public key - that of the private key. -/
theorem C249_load_iff [DecidableEq P] (L : Lib K P O Q) (a : OneAsym) (rest : Bytes) (m : Bool) (kd : Kind)
    (ho : HasOid kd a.alg.oid) (key : Priv K O) :
    loadOne L a rest m = .ok key ↔
      ∃ k, key = .trad k ∧ (a.version = 0 ∨ a.version = 1) ∧ (a.pub ≠ none → a.version = 1) ∧ (m = true → a.version = 1) ∧
        L.restOf kd a.priv = some [] ∧ L.load a.alg a.priv = some k ∧
        ∀ b, a.pub = some b → Reads L k kd b (L.pub k) := by
  have hk := (kindOfOid_iff kd _).2 ho
  have hps : (∃ b, a.pub = some b) ↔ a.pub ≠ none := by
    cases a.pub with
    | none => simp
    | some b => simp
  have hcmp : ∀ k k', comparePub L a k = .ok k' ↔ k' = k ∧ ∀ b, a.pub = some b → Reads L k kd b (L.pub k) := by
    intro k k'
    unfold comparePub
    cases hp : a.pub with
    | none =>
      dsimp only
      constructor
      · intro h; exact ⟨(Except.ok.inj h).symm, fun b hb => nomatch hb⟩
      · rintro ⟨rfl, _⟩; rfl
    | some b =>
      dsimp only
      constructor
      · intro h
        cases hl : loadPub L a.alg.oid k b with
        | error e => rw [hl] at h; cases h
        | ok p =>
          rw [hl] at h; dsimp only at h
          split at h
          · cases h
          · rename_i hne
            have hne := Decidable.not_not.1 hne
            refine ⟨(Except.ok.inj h).symm, fun b' hb' => ?_⟩
            have := Option.some.inj hb'; subst this
            rw [hne]; exact (loadPub_iff L ho k b p).1 hl
      · rintro ⟨rfl, h⟩
        rw [(loadPub_iff L ho k' b _).2 (h b rfl)]; dsimp only
        rw [if_neg (fun h => h rfl)]
  have hpriv : ∀ k, loadPriv L a = .ok k ↔ L.restOf kd a.priv = some [] ∧ L.load a.alg a.priv = some k := by
    intro k
    unfold loadPriv checkPriv
    rw [hk]; dsimp only
    cases hr : L.restOf kd a.priv with
    | none => dsimp only; constructor
              · intro h; cases h
              · intro h; cases h.1
    | some r =>
      cases r with
      | cons x xs => dsimp only; constructor
                     · intro h; cases h
                     · intro h; cases h.1
      | nil =>
        dsimp only
        cases hl : L.load a.alg a.priv with
        | none => dsimp only; constructor
                  · intro h; cases h
                  · intro h; cases h.2
        | some k' =>
          dsimp only
          constructor
          · intro h; rw [Except.ok.inj h]; exact ⟨rfl, rfl⟩
          · rintro ⟨_, h⟩; rw [Option.some.inj h]
  have hby : loadByOid L a m = (parseAsym L a m).map .trad := by
    unfold loadByOid
    rw [if_neg (show ¬a.alg.oid = rsaKemOid from hasOid_ne_kem ho), if_pos (by rw [hk]; rfl)]
  constructor
  · intro h
    unfold loadOne at h
    split at h
    · cases h
    · rename_i hv
      split at h
      · cases h
      · rename_i hv0
        rw [hby] at h
        unfold parseAsym at h
        cases hc : checkVersion a m with
        | error e => rw [hc] at h; cases h
        | ok u =>
          rw [hc] at h; dsimp only at h
          have hm : m = true → a.version = 1 := by
            intro hm
            refine Classical.byContradiction fun hn => ?_
            unfold checkVersion at hc
            rw [if_neg hv, if_pos ⟨hn, hm⟩] at hc
            cases hc
          cases hl : loadPriv L a with
          | error e => rw [hl] at h; cases h
          | ok k =>
            rw [hl] at h; dsimp only at h
            cases hcp : comparePub L a k with
            | error e => rw [hcp] at h; cases h
            | ok k' =>
              rw [hcp] at h
              have h := (Except.ok.inj h).symm
              obtain ⟨rfl, hb⟩ := (hcmp k k').1 hcp
              obtain ⟨h1, h2⟩ := (hpriv _).1 hl
              refine ⟨k', h, ?_, ?_, hm, h1, h2, hb⟩
              · omega
              · intro hne
                have : a.pub.isSome = true := by
                  cases hp : a.pub with
                  | none => exact absurd hp hne
                  | some b => rfl
                have h0 : ¬a.version = 0 := fun h0 => hv0 ⟨h0, this⟩
                omega
  · rintro ⟨k, rfl, hv, hp, hm, h1, h2, h3⟩
    have hv0 : ¬(a.version = 0 ∧ a.pub.isSome = true) := by
      rintro ⟨h0, hs⟩
      have : a.pub ≠ none := by intro hn; rw [hn] at hs; cases hs
      have := hp this
      omega
    have hv' : ¬(a.version ≠ 0 ∧ a.version ≠ 1) := by omega
    unfold loadOne
    rw [if_neg hv', if_neg hv0, hby]
    unfold parseAsym checkVersion
    rw [if_neg hv', if_neg (fun h => h.1 (hm h.2)), if_neg hv0]
    dsimp only
    rw [(hpriv k).2 ⟨h1, h2⟩]; dsimp only
    rw [(hcmp k k).2 ⟨rfl, h3⟩]; rfl

/-- The encoding of the key's own public key is read as that key. -/
theorem writes_reads (L : Lib K P O Q) (hL : Lawful L) (k : K) (b : Bytes) (h : Writes L (.trad (L.pub k)) b) :
    b ≠ [] ∧ Reads L k (L.kind k) b (L.pub k) := by
  have hpk := hL.pubKind k
  generalize hp : L.pub k = p at h hpk
  cases h with
  | rsa _ hk =>
    rw [← hpk, hk]
    refine ⟨hL.rsaNe p hk, .rsa _ _ ?_ (hL.rsaPub p hk)⟩
    have := hL.rsaRest p [] hk
    rwa [List.append_nil] at this
  | ec _ hk =>
    have hkk : L.kind k = .ec := by rw [← hpk, hk]
    rw [hkk]
    have hd := hL.pointNoDer p [] hk
    rw [List.append_nil] at hd
    refine ⟨hL.pointNe p hk, .point _ _ hkk hd ?_⟩
    have := hL.point k hkk
    rwa [hp] at this
  | raw _ n hk =>
    have hl := hL.rawLen p n hk
    refine ⟨?_, ?_⟩
    · intro hn
      rw [hn] at hl
      generalize L.pubKind p = x at hk
      cases hk <;> cases hl
    · rw [← hpk]
      exact .raw _ n _ _ hk hl (hL.raw p n hk)

/-- A key that was saved with version 0 or 1 and, with version 0, without public key, is loaded again. -/
theorem C249_roundtrip [DecidableEq P] (L : Lib K P O Q) (hL : Lawful L) (k : K) (hk : Usable (L.kind k)) (v : Option Int)
    (hv : v = none ∨ v = some 0 ∨ v = some 1) (incl : Option Bool) (hi : v.getD 0 = 0 → incl ≠ some true) (rest : Bytes) :
    ∃ s, saveAsym L (.trad k) none v incl false = .ok s ∧ loadOne L s rest = .ok (.trad k) := by
  have hv' : v.getD 0 = 0 ∨ v.getD 0 = 1 := by
    rcases hv with rfl | rfl | rfl
    · left; rfl
    · left; rfl
    · right; rfl
  have hload : ∀ s : OneAsym, s.version = v.getD 0 → (s.alg, s.priv) = L.pkcs8 k →
      (s.pub ≠ none → s.version = 1) → (∀ b, s.pub = some b → Reads L k (L.kind k) b (L.pub k)) →
      loadOne L s rest = .ok (.trad k) := by
    intro s h1 h2 h3 h4
    have ha : s.alg = (L.pkcs8 k).1 := by rw [← h2]
    have hp : s.priv = (L.pkcs8 k).2 := by rw [← h2]
    have ho : HasOid (L.kind k) s.alg.oid := by rw [ha]; exact hL.oid k hk
    refine (C249_load_iff L s rest false (L.kind k) ho _).2 ⟨k, rfl, ?_, h3, (nomatch ·), ?_, ?_, h4⟩
    · rw [h1]; exact hv'
    · have := hL.rest k [] hk
      rw [List.append_nil] at this
      rw [hp]; exact this
    · rw [ha, hp]; exact hL.load k
  by_cases ho : Omitted (v.getD 0) incl
  · refine ⟨⟨v.getD 0, (L.pkcs8 k).1, (L.pkcs8 k).2, none⟩, ?_, ?_⟩
    · exact (C249_saved_iff L k none v incl false _).2 ⟨rfl, rfl, rfl, .inl ⟨ho, rfl⟩⟩
    · exact hload _ rfl rfl (fun h => absurd rfl h) (fun b hb => nomatch hb)
  · have h1 : v.getD 0 = 1 := by
      rcases hv' with h | h
      · exact absurd (Or.inr ⟨h, hi h⟩) ho
      · exact h
    have hw : ∃ b, Writes L (.trad (L.pub k)) b := by
      have hpk := hL.pubKind k
      cases hkk : L.kind k with
      | dsa => exact absurd hkk hk.1
      | dh => exact absurd hkk hk.2
      | rsa => exact ⟨_, .rsa _ (by rw [hpk, hkk])⟩
      | ec => exact ⟨_, .ec _ (by rw [hpk, hkk])⟩
      | x25519 => exact ⟨_, .raw _ 32 (by rw [hpk, hkk]; constructor)⟩
      | x448 => exact ⟨_, .raw _ 56 (by rw [hpk, hkk]; constructor)⟩
      | ed25519 => exact ⟨_, .raw _ 32 (by rw [hpk, hkk]; constructor)⟩
      | ed448 => exact ⟨_, .raw _ 57 (by rw [hpk, hkk]; constructor)⟩
    obtain ⟨b, hb⟩ := hw
    obtain ⟨hbn, hbr⟩ := writes_reads L hL k b hb
    refine ⟨⟨v.getD 0, (L.pkcs8 k).1, (L.pkcs8 k).2, some b⟩, ?_, ?_⟩
    · refine (C249_saved_iff L k none v incl false _).2 ⟨rfl, rfl, rfl, .inr ⟨ho, b, hb, ?_⟩⟩
      rw [if_neg hbn]
    · refine hload _ rfl rfl (fun _ => h1) (fun b' hb' => ?_)
      have := Option.some.inj hb'; subst this; exact hbr

/-- A structure of version 0 with a public key is written - but always refused. -/
theorem C249_v0_with_public_refuted [DecidableEq P] (L : Lib K P O Q) (hL : Lawful L) (k : K) (s : OneAsym)
    (h : saveAsym L (.trad k) none (some 0) (some true) false = .ok s) (rest : Bytes) (m : Bool) :
    loadOne L s rest m = .error .invalidKeyData := by
  obtain ⟨_, hv, _, hp⟩ := (C249_saved_iff L k none (some 0) (some true) false s).1 h
  rcases hp with ⟨ho, _⟩ | ⟨_, b, hb, hp⟩
  · rcases ho with ho | ⟨_, ho⟩
    · cases ho
    · exact absurd rfl ho
  · have hbn := (writes_reads L hL k b hb).1
    rw [if_neg hbn] at hp
    unfold loadOne
    rw [if_neg (by rw [hv]; decide), if_pos ⟨hv, by rw [hp]; rfl⟩]

/-- Other versions are written and refused. -/
theorem C249_other_version_refused [DecidableEq P] (L : Lib K P O Q) (s : OneAsym) (h : s.version ≠ 0 ∧ s.version ≠ 1)
    (rest : Bytes) (m : Bool) : loadOne L s rest m = .error .invalidKeyData := by
  unfold loadOne; rw [if_pos h]

/-- A key saved with the public key of another pair, of the same class, is not loaded. -/
theorem C249_other_public_refused [DecidableEq P] (L : Lib K P O Q) (hL : Lawful L) (k : K) (hk : Usable (L.kind k)) (p : P)
    (hp : L.pubKind p = L.kind k) (hne : p ≠ L.pub k) (hc : L.kind k = .ec → L.point p ≠ L.point (L.pub k))
    (incl : Option Bool) (hi : incl ≠ some false) (s : OneAsym) (h : saveAsym L (.trad k) (some (.trad p)) (some 1) incl false = .ok s) (rest : Bytes) (m : Bool) (x : Priv K O) :
    loadOne L s rest m ≠ .ok x := by
  obtain ⟨_, hv, hap, hpub⟩ := (C249_saved_iff L k _ (some 1) incl false s).1 h
  intro hx
  have ha : s.alg = (L.pkcs8 k).1 := by rw [← hap]
  have hpr : s.priv = (L.pkcs8 k).2 := by rw [← hap]
  obtain ⟨k', rfl, _, _, _, _, hl, hr⟩ := (C249_load_iff L s rest m (L.kind k) (by rw [ha]; exact hL.oid k hk) x).1 hx
  have hkk : k' = k := by
    rw [ha, hpr, hL.load k] at hl
    exact (Option.some.inj hl).symm
  subst hkk
  rcases hpub with ⟨ho, _⟩ | ⟨_, b, hb, hpub⟩
  · rcases ho with ho | ⟨ho, _⟩
    · exact hi ho
    · cases ho
  · have hb : Writes L (.trad p) b := hb
    have hbn : b ≠ [] := by
      cases hb with
      | rsa _ hk => exact hL.rsaNe p hk
      | ec _ hk => exact hL.pointNe p hk
      | raw _ n hk =>
        intro hn
        have hl := hL.rawLen p n hk
        rw [hn] at hl
        generalize L.pubKind p = x at hk
        cases hk <;> cases hl
    rw [if_neg hbn] at hpub
    have hrd := hr b hpub
    rw [← hp] at hrd
    cases hb with
    | rsa _ hkp =>
      rw [hkp] at hrd
      generalize L.pub k' = q at hne hrd
      cases hrd with
      | rsa _ _ _ hd => rw [hL.rsaPub p hkp] at hd; exact hne (Option.some.inj hd)
      | raw _ _ _ _ hn => cases hn
    | ec _ hkp =>
      have hd0 := hL.pointNoDer p [] hkp
      rw [List.append_nil] at hd0
      have hcc := hc (by rw [← hp, hkp])
      rw [hkp] at hrd
      generalize L.pub k' = q at hcc hrd
      cases hrd with
      | spki _ _ _ hd => rw [hd0] at hd; cases hd
      | point _ _ hec hd hf => exact hcc (hL.pointInj _ _ _ hf).symm
      | raw _ _ _ _ hn => cases hn
    | raw _ n hkp =>
      have hraw := hL.raw p n hkp
      generalize L.pub k' = q at hne hrd
      generalize L.pubKind p = x at hrd hkp hraw
      cases hkp <;> (cases hrd with | raw _ _ _ _ _ _ hf => rw [hraw] at hf; exact hne (Option.some.inj hf))

/-- A `PrivateKeyInfo` is never loaded, whatever it contains: its fields are lost before they are read. -/
theorem C249_private_key_info_refuted [DecidableEq P] (L : Lib K P O Q) (alg : Alg) (priv : Bytes) (m : Bool) (k : K) :
    parseTrad L (.privateKeyInfo alg priv) m ≠ .ok k := by
  intro h
  unfold parseTrad at h
  cases m <;> cases h

/-- Data after the structure: refused by the loader of traditional keys, ignored by the one for all keys. -/
theorem C249_trailing_data [DecidableEq P] (L : Lib K P O Q) (a : OneAsym) (rest : Bytes) (hr : rest ≠ []) (m : Bool) :
    parseTrad L (.bytes a rest) m = .error .invalidKeyData ∧ loadOne L a rest m = loadOne L a [] m := by
  refine ⟨?_, rfl⟩
  unfold parseTrad; dsimp only; rw [if_pos hr]

/-- An RSA-KEM key is loaded as such after saving, with version 0 or 1. -/
theorem C249_rsa_kem_roundtrip [DecidableEq P] (L : Lib K P O Q) (hL : Lawful L) (k : K) (hk : L.kind k = .rsa) (v : Int)
    (hv : v = 0 ∨ v = 1) (rest : Bytes) (m : Bool) :
    ∃ s, saveAsym L (.rsaKem k) none (some v) none false = .ok s ∧ s.alg.oid = "1.2.840.113549.1.9.16.3.14" ∧
      (s.pub = none ↔ v = 0) ∧ loadOne L s rest m = .ok (.rsaKem k) := by
  have hpk : L.pubKind (L.pub k) = .rsa := by rw [hL.pubKind k, hk]
  have hkem : ∀ s : OneAsym, s.priv = L.pkcs1Priv k → loadRsaKem L s = compareRsaKem L k s.pub := by
    intro s hs
    unfold loadRsaKem; rw [hs, hL.pkcs1 k hk]; dsimp only; rw [if_neg (fun h => h hk)]
  rcases hv with rfl | rfl
  · refine ⟨⟨0, { oid := rsaKemOid }, L.pkcs1Priv k, none⟩, rfl, rfl, by simp, ?_⟩
    unfold loadOne
    rw [if_neg (by simp), if_neg (by simp)]
    unfold loadByOid
    rw [if_pos rfl, hkem _ rfl]; rfl
  · refine ⟨⟨1, { oid := rsaKemOid }, L.pkcs1Priv k, some (L.pkcs1 (L.pub k))⟩, ?_, rfl, by simp, ?_⟩
    · unfold saveAsym; dsimp only; unfold prepareTrad
      have hp : privateBytes L (.rsaKem k) false = .ok (L.pkcs1Priv k, { oid := rsaKemOid }) := rfl
      rw [hp]; dsimp only
      rw [if_neg (by decide)]
      have hb : publicBytes L ((none : Option (Pub P Q)).getD (L.pubOf (.rsaKem k))) = .ok (L.pkcs1 (L.pub k)) := rfl
      rw [hb]; dsimp only
      have := hL.rsaNe _ hpk
      generalize L.pkcs1 (L.pub k) = x at this
      cases x with
      | nil => exact absurd rfl this
      | cons y ys => rfl
    · unfold loadOne
      rw [if_neg (by simp), if_neg (by simp)]
      unfold loadByOid
      rw [if_pos rfl, hkem _ rfl]
      unfold compareRsaKem; dsimp only
      rw [hL.rsaPub _ hpk]; dsimp only
      rw [if_neg (fun h => h hpk), if_neg (fun h => h rfl)]

/-! ## C249: the structure for negative tests -/

/-- The version of the structure is the one that was asked for; a text must be a number, "v1" or "v2". -/
theorem C249_prepared_version (L : Lib K P O Q) (E : PrepEnv K P O Q) (key : Priv K O) (a : PrepArgs P Q) (s : OneAsym)
    (h : prepareOne L E key a = .ok s) :
    a.version = .num s.version ∨ (a.version = .text "v1" ∧ s.version = 0) ∨ (a.version = .text "v2" ∧ s.version = 1) ∨
      ∃ t n, a.version = .text t ∧ numberOf t = some n ∧ s.version = n := by
  unfold prepareOne at h
  split at h
  · cases h
  · cases hp : prepPub E key a with
    | error e => rw [hp] at h; cases h
    | ok pub =>
      rw [hp] at h; dsimp only at h
      cases hv : versionOf a.version with
      | error e => rw [hv] at h; cases h
      | ok v =>
        rw [hv] at h; dsimp only at h
        split at h
        · cases h
        · have := Except.ok.inj h; subst this
          show a.version = .num v ∨ (a.version = .text "v1" ∧ v = 0) ∨ (a.version = .text "v2" ∧ v = 1) ∨
            ∃ t n, a.version = .text t ∧ numberOf t = some n ∧ v = n
          cases hav : a.version with
          | num n =>
            rw [hav] at hv
            have := Except.ok.inj hv; subst this
            exact .inl rfl
          | text t =>
            rw [hav] at hv
            unfold versionOf at hv; dsimp only at hv
            cases ht : numberOf t with
            | some n =>
              rw [ht] at hv
              have := Except.ok.inj hv; subst this
              exact .inr (.inr (.inr ⟨t, n, rfl, ht, rfl⟩))
            | none =>
              rw [ht] at hv; dsimp only at hv
              split at hv
              · rename_i h2; subst h2
                have := Except.ok.inj hv; subst this
                exact .inr (.inr (.inl ⟨rfl, rfl⟩))
              · split at hv
                · rename_i h1; subst h1
                  have := Except.ok.inj hv; subst this
                  exact .inr (.inl ⟨rfl, rfl⟩)
                · cases hv

/-- The result for a traditional key, without `invalid_private_key`. -/
theorem prepareOne_trad (L : Lib K P O Q) (E : PrepEnv K P O Q) (k : K) (a : PrepArgs P Q) (hi : a.invalidPriv = false)
    (pub : Option (Pub P Q)) (hp : prepPub E (.trad k) a = .ok pub) (v : Int) (hv : versionOf a.version = .ok v) :
    prepareOne L E (.trad k) a = match saveAsym L (.trad k) pub (some (tmpVersion v)) (prepIncl v a.incl) false with
      | .error e => .error e
      | .ok s => .ok (spoil E a v s) := by
  unfold prepareOne
  rw [hi, Bool.and_false, if_neg (by decide), hp]; dsimp only; rw [hv]; rfl

/-- Version 1 in the words of the option: the public key is left out, even if it is given. -/
theorem C249_v1_has_no_public (L : Lib K P O Q) (E : PrepEnv K P O Q) (k : K) (pub : Option (Pub P Q)) :
    prepareOne L E (.trad k) { version := .text "v1", pub } = .ok ⟨0, (L.pkcs8 k).1, (L.pkcs8 k).2, none⟩ := by
  rw [prepareOne_trad L E k _ rfl pub rfl 0 (by show versionOf (.text "v1") = _; decide +kernel)]
  have : saveAsym L (.trad k) pub (some (tmpVersion 0)) (prepIncl 0 none) false =
      .ok ⟨0, (L.pkcs8 k).1, (L.pkcs8 k).2, none⟩ := rfl
  rw [this]; rfl

/-- "invalid_version_v1" is documented as version 1 with a public key. The structure has no public key, and is loaded: the negative
test sends a valid key. -/
theorem C249_kga_invalid_v1_refuted [DecidableEq P] (L : Lib K P O Q) (hL : Lawful L) (E : PrepEnv K P O Q) (k : K)
    (hk : Usable (L.kind k)) (ver : Version) :
    ∃ s, kgaKey L E (some .versionV1) (.trad k) ver = .ok s ∧ s.pub = none ∧ loadOne L s = .ok (.trad k) := by
  refine ⟨⟨0, (L.pkcs8 k).1, (L.pkcs8 k).2, none⟩, C249_v1_has_no_public L E k (some (L.pubOf (.trad k))), rfl, ?_⟩
  refine (C249_load_iff L _ [] false (L.kind k) (hL.oid k hk) _).2 ⟨k, rfl, .inl rfl, fun h => absurd rfl h, (nomatch ·), ?_, hL.load k,
    fun b hb => nomatch hb⟩
  have := hL.rest k [] hk
  rwa [List.append_nil] at this

/-- "invalid_key_pair" together with version 1: the other public key is generated and then left out. -/
theorem C249_kga_key_pair_v1_refuted [DecidableEq P] (L : Lib K P O Q) (hL : Lawful L) (E : PrepEnv K P O Q) (k : K)
    (hk : Usable (L.kind k)) (p : Pub P Q) (hE : E.different (.trad k) = .ok p) :
    ∃ s, kgaKey L E (some .keyPair) (.trad k) (.text "v1") = .ok s ∧ loadOne L s = .ok (.trad k) := by
  refine ⟨⟨0, (L.pkcs8 k).1, (L.pkcs8 k).2, none⟩, ?_, ?_⟩
  · unfold kgaKey
    rw [prepareOne_trad L E k _ rfl (some p) (by show (E.different (.trad k)).map some = _; rw [hE]; rfl) 0
      (by show versionOf (.text "v1") = _; decide +kernel)]
    have : saveAsym L (.trad k) (some p) (some (tmpVersion 0)) (prepIncl 0 none) false =
      .ok ⟨0, (L.pkcs8 k).1, (L.pkcs8 k).2, none⟩ := rfl
    have hin : (wrongArgs L (.trad k) (.text "v1") (some .keyPair) : PrepArgs P Q).incl = none := rfl
    rw [hin, this]; rfl
  · refine (C249_load_iff L _ [] false (L.kind k) (hL.oid k hk) _).2 ⟨k, rfl, .inl rfl, fun h => absurd rfl h, (nomatch ·), ?_,
      hL.load k, fun b hb => nomatch hb⟩
    have := hL.rest k [] hk
    rwa [List.append_nil] at this

/-- Version 2, no operation: what is built from what was saved. -/
theorem kga_v2 (L : Lib K P O Q) (E : PrepEnv K P O Q) (k : K) (a : PrepArgs P Q) (hi : a.invalidPriv = false)
    (hv : a.version = .text "v2") (hin : a.incl = none) (pub : Option (Pub P Q)) (hp : prepPub E (.trad k) a = .ok pub) (s : OneAsym)
    (h : prepareOne L E (.trad k) a = .ok s) :
    ∃ s', saveAsym L (.trad k) pub (some 1) none false = .ok s' ∧ s = spoil E a 1 s' := by
  rw [prepareOne_trad L E k a hi pub hp 1 (by rw [hv]; decide +kernel), hin] at h
  have he : saveAsym L (.trad k) pub (some (tmpVersion 1)) (prepIncl 1 none) false =
    saveAsym L (.trad k) pub (some 1) none false := rfl
  rw [he] at h
  cases hs : saveAsym L (.trad k) pub (some 1) none false with
  | error e => rw [hs] at h; cases h
  | ok s' => rw [hs] at h; exact ⟨s', rfl, (Except.ok.inj h).symm⟩

/-- "invalid_private_key_size": the structure is not loaded. -/
theorem C249_kga_priv_size_refused [DecidableEq P] (L : Lib K P O Q) (hL : Lawful L) (E : PrepEnv K P O Q) (hr : E.rnd1 ≠ [])
    (k : K) (hk : Usable (L.kind k)) (s : OneAsym) (h : kgaKey L E (some .privSize) (.trad k) = .ok s) (rest : Bytes) (m : Bool)
    (x : Priv K O) : loadOne L s rest m ≠ .ok x := by
  obtain ⟨s', hs, rfl⟩ := kga_v2 L E k _ rfl rfl rfl none rfl s h
  obtain ⟨_, _, hap, _⟩ := (C249_saved_iff L k none (some 1) none false s').1 hs
  have ha : s'.alg = (L.pkcs8 k).1 := by rw [← hap]
  have hpr : s'.priv = (L.pkcs8 k).2 := by rw [← hap]
  intro hx
  obtain ⟨k', _, _, _, _, h1, _⟩ := (C249_load_iff L _ rest m (L.kind k)
    (by show HasOid _ s'.alg.oid; rw [ha]; exact hL.oid k hk) x).1 hx
  have h1 : L.restOf (L.kind k) (s'.priv ++ E.rnd1) = some [] := h1
  rw [hpr, hL.rest k _ hk] at h1
  exact hr (Option.some.inj h1)

/-- "invalid_public_key_size": the structure is not loaded. -/
theorem C249_kga_pub_size_refused [DecidableEq P] (L : Lib K P O Q) (hL : Lawful L) (E : PrepEnv K P O Q) (hr : E.rnd2 ≠ [])
    (k : K) (hk : Usable (L.kind k)) (s : OneAsym) (h : kgaKey L E (some .pubSize) (.trad k) = .ok s) (rest : Bytes) (m : Bool)
    (x : Priv K O) : loadOne L s rest m ≠ .ok x := by
  obtain ⟨s', hs, rfl⟩ := kga_v2 L E k _ rfl rfl rfl none rfl s h
  obtain ⟨_, _, hap, hpub⟩ := (C249_saved_iff L k none (some 1) none false s').1 hs
  have ha : s'.alg = (L.pkcs8 k).1 := by rw [← hap]
  have hpr : s'.priv = (L.pkcs8 k).2 := by rw [← hap]
  intro hx
  obtain ⟨k', _, _, _, _, _, hl, hrd⟩ := (C249_load_iff L _ rest m (L.kind k)
    (by show HasOid _ s'.alg.oid; rw [ha]; exact hL.oid k hk) x).1 hx
  have hl : L.load s'.alg s'.priv = some k' := hl
  rw [ha, hpr, hL.load k] at hl
  have hkk := Option.some.inj hl
  subst hkk
  rcases hpub with ⟨ho, _⟩ | ⟨_, b, hb, hpub⟩
  · rcases ho with ho | ⟨ho, _⟩
    · cases ho
    · cases ho
  · have hb : Writes L (.trad (L.pub k)) b := hb
    rw [if_neg (writes_reads L hL k b hb).1] at hpub
    have hrd := hrd (b ++ E.rnd2) (by show some (s'.pub.getD [] ++ E.rnd2) = _; rw [hpub]; rfl)
    have hlen : E.rnd2.length ≠ 0 := by
      intro hn; exact hr (List.length_eq_zero_iff.1 hn)
    have hpk := hL.pubKind k
    rw [← hpk] at hrd
    generalize L.pub k = p at hb hrd hpk
    cases hb with
    | rsa _ hkp =>
      rw [hkp] at hrd
      cases hrd with
      | rsa _ _ h1 hd => rw [hL.rsaRest p _ hkp] at h1; exact hr (Option.some.inj h1)
      | raw _ _ _ _ hn => cases hn
    | ec _ hkp =>
      rw [hkp] at hrd
      cases hrd with
      | spki _ _ _ hd => rw [hL.pointNoDer p _ hkp] at hd; cases hd
      | point _ _ _ _ hf =>
        have := hL.pointInj _ _ _ hf
        have := congrArg List.length this
        rw [List.length_append] at this
        omega
      | raw _ _ _ _ hn => cases hn
    | raw _ n hkp =>
      have hl := hL.rawLen p n hkp
      generalize L.pubKind p = y at hrd hkp
      cases hkp <;> (cases hrd with
        | raw _ n' _ _ hn hl' _ => cases hn; rw [List.length_append, hl] at hl'; omega)

/-- "invalid_key_pair" with version 2: the structure is not loaded, if the other key is of the same class. -/
theorem C249_kga_key_pair_refused [DecidableEq P] (L : Lib K P O Q) (hL : Lawful L) (E : PrepEnv K P O Q) (k : K)
    (hk : Usable (L.kind k)) (p : P) (hE : E.different (.trad k) = .ok (.trad p)) (hp : L.pubKind p = L.kind k) (hne : p ≠ L.pub k)
    (hc : L.kind k = .ec → L.point p ≠ L.point (L.pub k)) (s : OneAsym)
    (h : kgaKey L E (some .keyPair) (.trad k) = .ok s) (rest : Bytes) (m : Bool) (x : Priv K O) : loadOne L s rest m ≠ .ok x := by
  obtain ⟨s', hs, rfl⟩ := kga_v2 L E k _ rfl rfl rfl (some (.trad p))
    (by show (E.different (.trad k)).map some = _; rw [hE]; rfl) s h
  have hv : s'.version = 1 := ((C249_saved_iff L k _ (some 1) none false s').1 hs).2.1
  have he : spoil E (wrongArgs L (.trad k) (.text "v2") (some .keyPair)) 1 s' = s' := by
    obtain ⟨sv, sa, sp, spub⟩ := s'
    dsimp only at hv; subst hv; rfl
  rw [he]
  exact C249_other_public_refused L hL k hk p hp hne hc none (fun h => nomatch h) s' hs rest m x

/-- "invalid_version": the structure has version 4 and is refused; "invalid_key_pair_cert" is a valid structure. -/
theorem C249_kga_other [DecidableEq P] (L : Lib K P O Q) (E : PrepEnv K P O Q) (key : Priv K O) (ver : Version)
    (rest : Bytes) (m : Bool) :
    (∀ s, kgaKey L E (some .version) key ver = .ok s → s.version = 4 ∧ loadOne L s rest m = .error .invalidKeyData) ∧
    kgaKey L E (some .keyPairCert) key ver = kgaKey L E none key ver := by
  refine ⟨fun s h => ?_, rfl⟩
  have hv := C249_prepared_version L E key _ s h
  have : s.version = 4 := by
    rcases hv with hv | ⟨hv, _⟩ | ⟨hv, _⟩ | ⟨_, _, hv, _⟩
    · exact (Version.num.inj hv).symm
    · cases hv
    · cases hv
    · cases hv
  exact ⟨this, C249_other_version_refused L s (by rw [this]; decide) rest m⟩

/-! ## C249: generating -/

/-- A different public key is different. -/
theorem C249_different_is_different {R : Type} [DecidableEq R] (known : List String) (src : Src) (alg : Option String)
    (make : Nat → Gen → Except PyErr R) (old new : R) (h : differentPub known src alg make old = .ok new) : new ≠ old := by
  have key : ∀ (draw : Nat → Except PyErr R) (n i : Nat), tryDraw old draw n i = .ok new → new ≠ old := by
    intro draw n
    induction n with
    | zero => intro i h; cases h
    | succ n ih =>
      intro i h
      unfold tryDraw at h
      cases hd : draw i with
      | error e => rw [hd] at h; cases h
      | ok p =>
        rw [hd] at h; dsimp only at h
        split at h
        · rename_i hne
          have := Except.ok.inj h; subst this; exact hne
        · exact ih (i + 1) h
  exact key _ _ _ h

/-- The first of the hundred attempts that differs is taken. -/
theorem C249_different_first {R : Type} [DecidableEq R] (known : List String) (src : Src) (alg : Option String)
    (make : Nat → Gen → Except PyErr R) (old new : R) (g : Gen) (hg : otherReq known src alg = .ok g) (i : Nat) (hi : i < 100)
    (hbefore : ∀ j, j < i → make j g = .ok old) (hnew : make i g = .ok new) (hne : new ≠ old) :
    differentPub known src alg make old = .ok new := by
  have hd : ∀ j, drawOf known src alg make j = make j g := by intro j; unfold drawOf; rw [hg]
  have key : ∀ (n j : Nat), j ≤ i → i < j + n → tryDraw old (drawOf known src alg make) n j = .ok new := by
    intro n
    induction n with
    | zero => intro j h1 h2; omega
    | succ n ih =>
      intro j h1 h2
      unfold tryDraw
      rw [hd j]
      by_cases hji : j = i
      · subst hji; rw [hnew]; dsimp only; rw [if_pos hne]
      · rw [hbefore j (by omega)]; dsimp only
        rw [if_neg (fun h => h rfl)]
        exact ih (j + 1) (by omega) (by omega)
  exact key 100 0 (by omega) (by omega)

/-- The length and the curve of the key are passed on only together with an algorithm: without one, a key of the same name but of the
default length or curve is generated. -/
theorem C249_size_lost_refuted (known : List String) (l l' : Option Nat) (c c' : Option String) (name : String) :
    otherReq known ⟨l, c, name⟩ none = otherReq known ⟨l', c', name⟩ none := rfl

/-- An RSA (or DSA, DH) key cannot be asked for as counterpart of another kind of key: the missing length is passed on as `None`. -/
theorem C249_different_rsa_refuted {R : Type} [DecidableEq R] (known : List String) (src : Src) (hl : src.length = none)
    (alg : String) (ha : lower alg = "rsa" ∨ lower alg = "dsa" ∨ lower alg = "dh") (make : Nat → Gen → Except PyErr R) (old : R) :
    differentPub known src (some alg) make old = .error .typeError := by
  have : otherReq known src (some alg) = .error .typeError := by
    show generateKey known alg { length := kwOf src.length, curve := kwOf src.curve } = _
    unfold generateKey
    show genNamed known (lower alg) _ = _
    rw [hl]
    rcases ha with ha | ha | ha <;> rw [ha] <;> rfl
  unfold differentPub tryDraw drawOf
  rw [this]

/-- Likewise an ECC key: the missing curve is passed on as `None`. -/
theorem C249_different_ec_refuted {R : Type} [DecidableEq R] (known : List String) (src : Src) (hc : src.curve = none)
    (alg : String) (ha : lower alg ∈ ["ecdh", "ecdsa", "ecc", "ec"]) (make : Nat → Gen → Except PyErr R) (old : R) :
    differentPub known src (some alg) make old = .error .valueError := by
  have : otherReq known src (some alg) = .error .valueError := by
    show generateKey known alg { length := kwOf src.length, curve := kwOf src.curve } = _
    unfold generateKey
    show genNamed known (lower alg) _ = _
    rw [hc]
    simp only [List.mem_cons, List.not_mem_nil, or_false] at ha
    rcases ha with ha | ha | ha | ha <;> rw [ha] <;> rfl
  unfold differentPub tryDraw drawOf
  rw [this]

/-- A generated RSA key has the length that was asked for, 2048 if none was. -/
theorem C249_rsa_length (known : List String) (alg : String) (ha : lower alg = "rsa") (a : GenArgs) (hs : a.seed = .absent)
    (g : Gen) : generateKey known alg a = .ok g ↔ (a.length = .absent ∧ g = .rsa 2048) ∨ ∃ n, a.length = .val n ∧ g = .rsa n := by
  have : generateKey known alg a = match a.length.getOr 2048 with
      | none => .error .typeError
      | some n => .ok (.rsa n) := by
    unfold generateKey; rw [hs, ha]; rfl
  rw [this]
  cases hl : a.length with
  | absent =>
    constructor
    · intro h; exact .inl ⟨rfl, (Except.ok.inj h).symm⟩
    · rintro (⟨_, rfl⟩ | ⟨n, h, _⟩)
      · rfl
      · cases h
  | none =>
    constructor
    · intro h; cases h
    · rintro (⟨h, _⟩ | ⟨n, h, _⟩) <;> cases h
  | val n =>
    constructor
    · intro h; exact .inr ⟨n, rfl, (Except.ok.inj h).symm⟩
    · rintro (⟨h, _⟩ | ⟨m, h, rfl⟩)
      · cases h
      · rw [Kw.val.inj h]; rfl

/-- A DH key from a secret exponent: only with a prime, and the public number is the power. -/
theorem C249_dh_secret (known : List String) (alg : String) (ha : lower alg = "dh") (a : GenArgs) (hs : a.seed = .absent)
    (x : Nat) (hx : a.secret = .val x) (g : Gen) (h : generateKey known alg a = .ok g) :
    ∃ p b, a.p = .val p ∧ (a.g = .val b ∨ (a.g = .absent ∧ b = 2)) ∧ g = .dhKey p b x (b ^ x % p) := by
  have hg : generateKey known alg a = match a.length.getOr 2048 with
      | none => .error .typeError
      | some n => genDh a.p.toOpt (a.g.getOr 2) a.secret.toOpt n := by
    unfold generateKey; rw [hs, ha]; rfl
  rw [hg, hx] at h
  cases hl : a.length.getOr 2048 with
  | none => rw [hl] at h; cases h
  | some n =>
    rw [hl] at h; dsimp only at h
    unfold genDh at h
    cases hgen : a.g with
    | none => rw [hgen] at h; cases h
    | absent =>
      rw [hgen] at h
      cases hp : a.p with
      | absent => rw [hp] at h; cases h
      | none => rw [hp] at h; cases h
      | val p => rw [hp] at h; exact ⟨p, 2, rfl, .inr ⟨rfl, rfl⟩, (Except.ok.inj h).symm⟩
    | val b =>
      rw [hgen] at h
      cases hp : a.p with
      | absent => rw [hp] at h; cases h
      | none => rw [hp] at h; cases h
      | val p => rw [hp] at h; exact ⟨p, b, rfl, .inl rfl, (Except.ok.inj h).symm⟩

/-! ## Examples -/

/-- A library whose keys are a kind and a number. The octets carry both; a rest is recognised by the size. -/
def exLib : Lib (Kind × UInt8) (Kind × UInt8) Unit Unit where
  kind := fun k => k.1
  pub := fun k => k
  pubKind := fun p => p.1
  pubOther := fun _ => ()
  pkcs8 := fun k => (⟨match k.1 with
    | .x25519 => "1.3.101.110" | .x448 => "1.3.101.111" | .ed25519 => "1.3.101.112" | .ed448 => "1.3.101.113"
    | .rsa => "1.2.840.113549.1.1.1" | .ec => "1.2.840.10045.2.1" | .dsa => "1.2.840.10040.4.1"
    | .dh => "1.2.840.10046.2.1", none⟩, [k.2])
  pkcs1Priv := fun k => [k.2]
  load := fun a b => match b with
    | [x] => match a.oid with
      | "1.3.101.110" => some (.x25519, x) | "1.3.101.111" => some (.x448, x) | "1.3.101.112" => some (.ed25519, x)
      | "1.3.101.113" => some (.ed448, x) | "1.2.840.113549.1.1.1" => some (.rsa, x) | "1.2.840.10045.2.1" => some (.ec, x)
      | "1.2.840.10040.4.1" => some (.dsa, x) | "1.2.840.10046.2.1" => some (.dh, x)
      | _ => none
    | _ => none
  loadDer := fun b => match b with | [x] => some (.rsa, x) | _ => none
  pkcs1 := fun p => [0x30, p.2]
  point := fun p => [0x04, p.2]
  raw := fun p => match p.1 with
    | .x25519 => List.replicate 32 p.2 | .ed25519 => List.replicate 32 p.2 | .x448 => List.replicate 56 p.2
    | .ed448 => List.replicate 57 p.2 | _ => []
  loadDerPub := fun b => match b with | [0x30, x] => some (.rsa, x) | _ => none
  fromPoint := fun _ b => match b with | [0x04, x] => some (.ec, x) | _ => none
  fromRaw := fun k b => match b with | x :: _ => some (k, x) | [] => none
  restOf := fun _ b => match b with | _ :: r => some r | [] => none
  restRsaPub := fun b => match b with | _ :: _ :: r => some r | _ => none
  saveOther := fun _ _ _ _ _ => .error .valueError
  loadOther := fun _ => .error .valueError

/-- The expectations can be met. -/
theorem exLib_lawful : Lawful exLib where
  pubKind := fun _ => rfl
  oid := by
    rintro ⟨k, x⟩ hk
    cases k <;> first | constructor | exact absurd rfl hk.1 | exact absurd rfl hk.2
  load := by rintro ⟨k, x⟩; cases k <;> rfl
  rest := fun _ _ _ => rfl
  rsaRest := fun _ _ _ => rfl
  rsaPub := by rintro ⟨k, x⟩ h; cases h; rfl
  rsaNe := fun _ _ h => nomatch h
  pointNoDer := fun _ _ _ => rfl
  point := by rintro ⟨k, x⟩ h; cases h; rfl
  pointInj := by
    intro k b p h
    show [0x04, p.2] = b
    simp only [exLib] at h
    split at h
    · cases h; rfl
    · cases h
  pointNe := fun _ _ h => nomatch h
  rawLen := by
    rintro ⟨k, x⟩ n h
    have h : RawKind k n := h
    cases h <;> rfl
  raw := by
    rintro ⟨k, x⟩ n h
    have h : RawKind k n := h
    cases h <;> rfl
  pkcs1 := by rintro ⟨k, x⟩ h; cases h; rfl

/-- An environment for the negative tests: the other key is the one with the next number. -/
def exPrep : PrepEnv (Kind × UInt8) (Kind × UInt8) Unit Unit where
  different := fun k => match k with
    | .trad (k, x) => .ok (.trad (k, x + 1))
    | _ => .error .valueError
  rnd1 := [9]
  rnd2 := [8]
  ml := fun _ => true

/-- An ECC key: saved with and without public key, and loaded. -/
example : saveAsym exLib (.trad (.ec, 7)) none (some 1) none false =
      .ok ⟨1, ⟨"1.2.840.10045.2.1", none⟩, [7], some [0x04, 7]⟩ ∧
    saveAsym exLib (.trad (.ec, 7)) none none none false = .ok ⟨0, ⟨"1.2.840.10045.2.1", none⟩, [7], none⟩ ∧
    loadOne exLib ⟨1, ⟨"1.2.840.10045.2.1", none⟩, [7], some [0x04, 7]⟩ = .ok (.trad (.ec, 7)) ∧
    loadOne exLib ⟨1, ⟨"1.2.840.10045.2.1", none⟩, [7], some [0x04, 8]⟩ = .error .mismatchingKey ∧
    loadOne exLib ⟨1, ⟨"1.2.840.10045.2.1", none⟩, [7, 7], none⟩ = .error .invalidKeyData := by decide +kernel

example : ∃ s, saveAsym exLib (.trad (.ed448, 3)) none (some 1) (some true) false = .ok s ∧
    loadOne exLib s [1, 2] = .ok (.trad (.ed448, 3)) :=
  C249_roundtrip exLib exLib_lawful (.ed448, 3) ⟨(nomatch ·), (nomatch ·)⟩ (some 1) (.inr (.inr rfl)) (some true)
    (fun h => nomatch h) [1, 2]

/-- The operations of the central key generation. -/
example : kgaKey exLib exPrep (some .versionV1) (.trad (.rsa, 5)) = .ok ⟨0, ⟨"1.2.840.113549.1.1.1", none⟩, [5], none⟩ ∧
    kgaKey exLib exPrep (some .pubSize) (.trad (.rsa, 5)) = .ok ⟨1, ⟨"1.2.840.113549.1.1.1", none⟩, [5], some [0x30, 5, 8]⟩ ∧
    kgaKey exLib exPrep (some .keyPair) (.trad (.rsa, 5)) = .ok ⟨1, ⟨"1.2.840.113549.1.1.1", none⟩, [5], some [0x30, 6]⟩ ∧
    kgaKey exLib exPrep (some .version) (.trad (.rsa, 5)) = .ok ⟨4, ⟨"1.2.840.113549.1.1.1", none⟩, [5], some [0x30, 5]⟩ := by
  decide +kernel

/-- Generating. -/
example : generateKey ["secp256r1"] "RSA" { length := .val 3072 } = .ok (.rsa 3072) ∧
    generateKey ["secp256r1"] "ec" {} = .ok (.ec "secp256r1") ∧
    generateKey [] "dh" { p := .val 23, g := .val 5, secret := .val 6 } = .ok (.dhKey 23 5 6 8) ∧
    generateKey [] "rsa" { length := .none } = .error .typeError ∧
    differentPub ["secp256r1"] { name := "rsa", length := some 4096 } none
      (fun i g => .ok (i, g)) (0, .rsa 2048) = .ok (1, .rsa 2048) := by decide +kernel

end Verif.PQ.TradStore
