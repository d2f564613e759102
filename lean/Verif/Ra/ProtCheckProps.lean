import Verif.Ra.ProtCheck
import Verif.Check.ChainProps

/-!
# Theorems on the verification of the protection by the Mock CA
-/

namespace Verif.Ra

open Verif.CA hiding Bytes Msg ProtType
open Verif.Check

/-! ## The key of a MAC -/

private theorem getElem?_rep {α : Type} (s : List α) (hs : 0 < s.length) : ∀ k i, i < k * s.length →
    (List.replicate k s).flatten[i]? = s[i % s.length]? := by
  intro k
  induction k with
  | zero => intro i hi; omega
  | succ k ih =>
    intro i hi
    rw [List.replicate_succ, List.flatten_cons]
    by_cases h : i < s.length
    · rw [List.getElem?_append_left h, Nat.mod_eq_of_lt h]
    · rw [List.getElem?_append_right (by omega), ih (i - s.length) (by rw [Nat.succ_mul] at hi; omega)]
      have : i = (i - s.length) + s.length := by omega
      conv => rhs; rw [this, Nat.add_mod_right]

private theorem length_rep {α : Type} (s : List α) : ∀ k, ((List.replicate k s).flatten).length = k * s.length := by
  intro k
  induction k with
  | zero => simp
  | succ k ih => rw [List.replicate_succ, List.flatten_cons, List.length_append, ih, Nat.succ_mul]; omega

/-- An expanded secret repeats the secret up to the size. -/
theorem C228_cyclic {α : Type} (s : List α) (n : Nat) (hs : s ≠ []) :
    ∃ r, expandTo s n = .ok r ∧ r.length = n ∧ ∀ i, i < n → r[i]? = s[i % s.length]? := by
  have hl : 0 < s.length := List.length_pos_iff.2 hs
  have hb : n < (n / s.length + 1) * s.length := by
    have := Nat.lt_div_mul_add hl (a := n)
    rw [Nat.succ_mul]; omega
  refine ⟨_, by unfold expandTo; rw [if_neg hs], ?_, ?_⟩
  · rw [List.length_take, length_rep]; omega
  · intro i hi
    rw [List.getElem?_take_of_lt hi]
    exact getElem?_rep s hl _ i (by omega)

/-- The sizes of the keys of the MACs which need one. -/
def specSize : List (String × Nat) :=
  [("kmac-shake128", 16), ("kmac-shake256", 32), ("aes128_gmac", 16), ("aes192_gmac", 24), ("aes256_gmac", 32)]

/-- The key made from bytes has the size of the algorithm and repeats the secret. -/
theorem C228_size (b : Bytes) (hb : b ≠ []) {name : String} {n : Nat} (h : (name, n) ∈ specSize) :
    ∃ k, macKey name (.bytes b) = .ok k ∧ k.length = n ∧ ∀ i, i < n → k[i]? = b[i % b.length]? := by
  have hk : ∀ n, (∃ k, sizedKey n (.bytes b) = .ok k ∧
      k.length = n ∧ ∀ i, i < n → k[i]? = b[i % b.length]?) := by
    intro n
    obtain ⟨r, h1, h2⟩ := C228_cyclic b n hb
    exact ⟨r, by unfold sizedKey expandSecret; dsimp only; rw [h1]; rfl, h2⟩
  unfold specSize at h
  rcases List.mem_cons.1 h with h | h
  · cases h; exact hk 16
  rcases List.mem_cons.1 h with h | h
  · cases h; exact hk 32
  rcases List.mem_cons.1 h with h | h
  · cases h; exact hk 16
  rcases List.mem_cons.1 h with h | h
  · cases h; exact hk 24
  rcases List.mem_cons.1 h with h | h
  · cases h; exact hk 32
  · cases h

private theorem isInfix_iff (p : List Char) : ∀ s, subText.isInfix p s = true ↔ ∃ a c, s = a ++ p ++ c := by
  intro s
  induction s with
  | nil =>
    unfold subText.isInfix
    rw [List.isEmpty_iff]
    constructor
    · intro h; exact ⟨[], [], by rw [h]; rfl⟩
    · rintro ⟨a, c, h⟩
      have := congrArg List.length h
      rw [List.length_append, List.length_append] at this
      exact List.length_eq_zero_iff.1 (by simp only [List.length_nil] at this; omega)
  | cons x r ih =>
    unfold subText.isInfix
    rw [Bool.or_eq_true, List.isPrefixOf_iff_prefix, ih]
    constructor
    · rintro (⟨c, hc⟩ | ⟨a, c, h⟩)
      · exact ⟨[], c, hc.symm⟩
      · exact ⟨x :: a, c, by rw [h]; rfl⟩
    · rintro ⟨a, c, h⟩
      cases a with
      | nil => exact .inl ⟨c, h.symm⟩
      | cons y a =>
        have h' : x :: r = y :: (a ++ p ++ c) := h
        injection h' with _ h2
        exact .inr ⟨a, c, h2⟩

/-- For any other algorithm the secret is used as it is. -/
theorem C228_plain (b : Bytes) (name : String) (h1 : ¬ ∃ a c, name.toList = a ++ "kmac".toList ++ c)
    (h2 : ¬ ∃ a c, name.toList = a ++ "gmac".toList ++ c) : macKey name (.bytes b) = .ok b := by
  have e1 : ¬ subText "kmac" name = true := fun h => h1 ((isInfix_iff _ _).1 h)
  have e2 : ¬ subText "gmac" name = true := fun h => h2 ((isInfix_iff _ _).1 h)
  have e3 : name ≠ "kmac" := by
    rintro rfl
    exact h1 ⟨[], [], rfl⟩
  unfold macKey passwordInSize keySize
  rw [if_neg e1, if_neg e3, if_neg e2]
  rfl

example : macKey "password_based_mac" (.bytes [1, 2]) = .ok [1, 2] := by decide +kernel
example : macKey "kmac-shake128" (.bytes [1, 2, 3]) = .ok [1, 2, 3, 1, 2, 3, 1, 2, 3, 1, 2, 3, 1, 2, 3, 1] := by decide +kernel

/-- Different secrets give the same key: one which repeats another, and one which agrees with another in the first bytes. -/
theorem C228_same_refuted : ∃ a b c d : Bytes, a ≠ b ∧ c ≠ d ∧ 16 ≤ c.length ∧
    macKey "kmac-shake128" (.bytes a) = macKey "kmac-shake128" (.bytes b) ∧
    macKey "kmac-shake128" (.bytes c) = macKey "kmac-shake128" (.bytes d) :=
  ⟨[1, 2], [1, 2, 1, 2], List.replicate 16 7, List.replicate 16 7 ++ [8], by decide +kernel⟩

/-- A secret given in hexadecimal cannot be used for a MAC which needs a size, though it can for the others. -/
theorem C228_hex_refuted : ∃ s, macKey "pbmac1" (.text s) = .ok [97, 98] ∧
    macKey "kmac-shake128" (.text s) = .error .valueError ∧ macKey "aes256_gmac" (.text s) = .error .valueError :=
  ⟨['0', 'x', '6', '1', '6', '2'], by decide +kernel⟩

/-- A text is expanded by characters: the key may have more bytes than the algorithm asks for. -/
theorem C228_text_refuted : ∃ s k, macKey "aes128_gmac" (.text s) = .ok k ∧ k.length = 32 :=
  ⟨['é'], _, rfl, by decide +kernel⟩

/-! ## The protection of a request -/

variable {C N K : Type} [DecidableEq C] [DecidableEq N]

omit [DecidableEq C] in
private theorem wrongIntegrity_ok (m : ProtMsg C) {t : ProtType} (ht : m.typ = some t) :
    wrongIntegrity m = .ok () ↔ (t = .mac → m.body ∉ ["ccr", "kur", "rr", "nested"]) ∧
      (t = .dh ∨ t = .kem → m.body ≠ "ccr") := by
  have hm : m.body ∈ ["ccr", "kur", "rr", "nested"] ↔
      (m.body = "ccr" ∨ m.body = "kur" ∨ m.body = "rr" ∨ m.body = "nested") := by
    simp only [List.mem_cons, List.not_mem_nil, or_false]
  unfold wrongIntegrity
  rw [ht]
  dsimp only
  by_cases h : m.body = "ccr" ∨ m.body = "kur" ∨ m.body = "rr" ∨ m.body = "nested"
  · rw [if_neg (not_not_intro h)]
    by_cases h1 : t = .mac
    · rw [if_pos h1]
      exact ⟨fun h => (by cases h), fun h2 => absurd (hm.2 h) (h2.1 h1)⟩
    · rw [if_neg h1]
      by_cases h2 : (t = .dh ∨ t = .kem) ∧ m.body = "ccr"
      · rw [if_pos h2]
        exact ⟨fun h => (by cases h), fun h3 => absurd h2.2 (h3.2 h2.1)⟩
      · rw [if_neg h2]
        exact ⟨fun _ => ⟨fun h => absurd h h1, fun h h4 => h2 ⟨h, h4⟩⟩, fun _ => rfl⟩
  · rw [if_pos h]
    exact ⟨fun _ => ⟨fun _ hx => h (hm.1 hx), fun _ hx => h (.inl hx)⟩, fun _ => rfl⟩

omit [DecidableEq N] [DecidableEq C] in
private theorem validateMac_ok (env : ProtEnv C N K) (m : ProtMsg C) :
    validateMac env m = .ok () ↔ m.body ≠ "rr" ∧ ∃ k, macKey m.name env.secret = .ok k ∧ env.mac k = .ok () := by
  unfold validateMac
  by_cases h : m.body = "rr"
  · rw [if_pos h]; exact ⟨fun h => (by cases h), fun h2 => absurd h h2.1⟩
  · rw [if_neg h]
    cases hk : macKey m.name env.secret with
    | error e => exact ⟨fun h => (by cases h), fun ⟨_, _, h, _⟩ => (by cases h)⟩
    | ok k =>
      dsimp only
      cases hm : env.mac k with
      | error e => exact ⟨fun h => (by cases h), fun ⟨_, _, h, h2⟩ => (by cases h; rw [hm] at h2; cases h2)⟩
      | ok u => exact ⟨fun _ => ⟨h, k, rfl, hm⟩, fun _ => rfl⟩

private theorem validateDh_ok (env : ProtEnv C N K) (m : ProtMsg C) :
    validateDh env m = .ok () ↔ (∃ ss, env.dhSecret (m.extra.bind List.head?) = .ok ss ∧ env.dhMac ss = .ok ()) ∧
      checkTrusted env.chain env.anchors env.useOpenssl m.sig true m.extra = .ok () := by
  unfold validateDh
  cases hs : env.dhSecret (m.extra.bind List.head?) with
  | error e => exact ⟨fun h => (by cases h), fun ⟨⟨_, h, _⟩, _⟩ => (by cases h)⟩
  | ok ss =>
    dsimp only
    cases hm : env.dhMac ss with
    | error e => exact ⟨fun h => (by cases h), fun ⟨⟨_, h, h2⟩, _⟩ => (by cases h; rw [hm] at h2; cases h2)⟩
    | ok u => exact ⟨fun h => ⟨⟨ss, rfl, hm⟩, h⟩, fun h => h.2⟩

private theorem areAnchors_one (anchors : Except PyErr (List C)) (c : C) :
    areAnchors anchors [c] = .ok () ↔ ∃ l, anchors = .ok l ∧ c ∈ l := by
  unfold areAnchors
  match anchors with
  | .error e => exact ⟨fun h => (by cases h), fun ⟨_, h, _⟩ => (by cases h)⟩
  | .ok [] => exact ⟨fun h => (by cases h), fun ⟨_, h, h2⟩ => (by cases h; cases h2)⟩
  | .ok (a :: l) =>
    have hc : ([c].all fun c => chainCertInList c (a :: l)) = true ↔ c ∈ a :: l := by
      rw [List.all_cons, List.all_nil, Bool.and_true]
      unfold chainCertInList
      rw [List.any_eq_true]
      exact ⟨fun ⟨x, h1, h2⟩ => (of_decide_eq_true h2 : c = x) ▸ h1, fun h => ⟨c, h, decide_eq_true rfl⟩⟩
    dsimp only
    by_cases h : ([c].all fun c => chainCertInList c (a :: l)) = true
    · rw [if_pos h]; exact ⟨fun _ => ⟨_, rfl, hc.1 h⟩, fun _ => rfl⟩
    · rw [if_neg h]; exact ⟨fun h => (by cases h), fun ⟨_, h2, h3⟩ => absurd (hc.2 (by cases h2; exact h3)) h⟩

omit [DecidableEq N] in
private theorem ccrSigner_ok (env : ProtEnv C N K) (issued : List C) (m : ProtMsg C) :
    ccrSigner env issued m = .ok () ↔ ∃ c l, m.extra = some (c :: l) ∧ (c ∈ issued ∨ ∃ as, env.caAnchors = .ok as ∧ c ∈ as) := by
  unfold ccrSigner
  match m.extra with
  | none => exact ⟨fun h => (by cases h), fun ⟨_, _, h, _⟩ => (by cases h)⟩
  | some [] => exact ⟨fun h => (by cases h), fun ⟨_, _, h, _⟩ => (by cases h)⟩
  | some (c :: l) =>
    dsimp only
    by_cases h : chainCertInList c issued = true
    · rw [if_pos h]
      unfold chainCertInList at h
      obtain ⟨x, h1, h2⟩ := List.any_eq_true.1 h
      exact ⟨fun _ => ⟨c, l, rfl, .inl ((of_decide_eq_true h2 : c = x) ▸ h1)⟩, fun _ => rfl⟩
    · rw [if_neg h]
      have hn : c ∉ issued := fun hc => h (by
        unfold chainCertInList; exact List.any_eq_true.2 ⟨c, hc, decide_eq_true rfl⟩)
      cases ha : areAnchors env.caAnchors [c] with
      | ok u => exact ⟨fun _ => ⟨c, l, rfl, .inr ((areAnchors_one _ _).1 ha)⟩, fun _ => rfl⟩
      | error e =>
        refine ⟨fun h => (by cases h), ?_⟩
        rintro ⟨_, _, h1, h2 | h2⟩
        · cases h1; exact absurd h2 hn
        · cases h1; rw [(areAnchors_one _ _).2 h2] at ha; cases ha

omit [DecidableEq N] [DecidableEq C] in
private theorem sigSteps_ok (env : ProtEnv C N K) (m : ProtMsg C) :
    sigSteps env m = .ok () ↔ (m.stateful = true → env.before = .ok () ∧ env.after = .ok ()) ∧
      (m.sig = .other → env.trad = .ok ()) ∧ (m.sig = .modern → env.hybrid = .ok ()) := by
  unfold sigSteps
  cases m.stateful <;> cases m.sig <;> cases env.before <;> cases env.after <;> cases env.trad <;> cases env.hybrid <;> simp

private theorem validateSig_ok (env : ProtEnv C N K) (issued : List C) (m : ProtMsg C) :
    validateSig env issued m = .ok () ↔
      (m.body = "ccr" → ∃ c l, m.extra = some (c :: l) ∧ (c ∈ issued ∨ ∃ as, env.caAnchors = .ok as ∧ c ∈ as)) ∧
      (m.stateful = true → env.before = .ok () ∧ env.after = .ok ()) ∧
      (m.sig = .other → env.trad = .ok ()) ∧ (m.sig = .modern → env.hybrid = .ok ()) ∧
      checkTrusted env.chain env.anchors env.useOpenssl m.sig false m.extra = .ok () := by
  unfold validateSig
  by_cases h0 : m.extra.isSome = false
  · rw [if_pos h0]
    refine ⟨fun h => (by cases h), ?_⟩
    rintro ⟨_, _, _, _, h⟩
    have : m.extra = none := by
      cases hx : m.extra with
      | none => rfl
      | some l => rw [hx] at h0; cases h0
    rw [this] at h
    cases h
  · rw [if_neg h0]
    by_cases hb : m.body = "ccr"
    · rw [if_pos hb]
      cases hc : ccrSigner env issued m with
      | error e =>
        refine ⟨fun h => (by cases h), ?_⟩
        rintro ⟨h, _⟩
        rw [(ccrSigner_ok ..).2 (h hb)] at hc
        cases hc
      | ok u =>
        dsimp only
        cases hs : sigSteps env m with
        | error e =>
          refine ⟨fun h => (by cases h), ?_⟩
          rintro ⟨_, h1, h2, h3, _⟩
          rw [(sigSteps_ok ..).2 ⟨h1, h2, h3⟩] at hs
          cases hs
        | ok u =>
          obtain ⟨h1, h2, h3⟩ := (sigSteps_ok ..).1 hs
          exact ⟨fun h => ⟨fun _ => (ccrSigner_ok ..).1 hc, h1, h2, h3, h⟩, fun h => h.2.2.2.2⟩
    · rw [if_neg hb]
      dsimp only
      cases hs : sigSteps env m with
      | error e =>
        refine ⟨fun h => (by cases h), ?_⟩
        rintro ⟨_, h1, h2, h3, _⟩
        rw [(sigSteps_ok ..).2 ⟨h1, h2, h3⟩] at hs
        cases hs
      | ok u =>
        obtain ⟨h1, h2, h3⟩ := (sigSteps_ok ..).1 hs
        exact ⟨fun h => ⟨fun hx => absurd hx hb, h1, h2, h3, h⟩, fun h => h.2.2.2.2⟩

/-- A MAC under the pre-shared secret is accepted exactly for requests which a password may authorise, if it verifies under
the key of the algorithm. -/
theorem C229_mac_iff (env : ProtEnv C N K) (issued : List C) (m : ProtMsg C) (ht : m.typ = some .mac) :
    validateProtection env issued m = .ok () ↔ m.body ∉ ["ccr", "kur", "rr", "nested"] ∧
      ∃ k, macKey m.name env.secret = .ok k ∧ env.mac k = .ok () := by
  unfold validateProtection
  rw [ht]
  dsimp only
  cases hw : wrongIntegrity m with
  | error e =>
    refine ⟨fun h => (by cases h), ?_⟩
    rintro ⟨h, _⟩
    rw [(wrongIntegrity_ok m ht).2 ⟨fun _ => h, fun h => (by rcases h with h | h <;> cases h)⟩] at hw
    cases hw
  | ok u =>
    dsimp only
    have hb := ((wrongIntegrity_ok m ht).1 hw).1 rfl
    rw [validateMac_ok]
    refine ⟨fun h => ⟨hb, h.2⟩, fun h => ⟨fun hr => hb ?_, h.2⟩⟩
    rw [hr]; decide

/-- A MAC under a key agreed on with the first certificate is accepted exactly for requests other than `ccr`, if it verifies
and the chain of the certificate is trusted for key agreement. -/
theorem C229_dh_iff (env : ProtEnv C N K) (issued : List C) (m : ProtMsg C) (ht : m.typ = some .dh) :
    validateProtection env issued m = .ok () ↔ m.body ≠ "ccr" ∧
      (∃ ss, env.dhSecret (m.extra.bind List.head?) = .ok ss ∧ env.dhMac ss = .ok ()) ∧
      checkTrusted env.chain env.anchors env.useOpenssl m.sig true m.extra = .ok () := by
  unfold validateProtection
  rw [ht]
  dsimp only
  cases hw : wrongIntegrity m with
  | error e =>
    refine ⟨fun h => (by cases h), ?_⟩
    rintro ⟨h, _⟩
    rw [(wrongIntegrity_ok m ht).2 ⟨fun h => (by cases h), fun _ => h⟩] at hw
    cases hw
  | ok u =>
    dsimp only
    rw [validateDh_ok]
    exact ⟨fun h => ⟨((wrongIntegrity_ok m ht).1 hw).2 (.inl rfl), h⟩, fun h => h.2⟩

/-- A MAC under an encapsulated secret is accepted exactly for requests other than `ccr`, if it verifies. -/
theorem C229_kem_iff (env : ProtEnv C N K) (issued : List C) (m : ProtMsg C) (ht : m.typ = some .kem) :
    validateProtection env issued m = .ok () ↔ m.body ≠ "ccr" ∧ env.kem = .ok () := by
  unfold validateProtection
  rw [ht]
  dsimp only
  cases hw : wrongIntegrity m with
  | error e =>
    refine ⟨fun h => (by cases h), ?_⟩
    rintro ⟨h, _⟩
    rw [(wrongIntegrity_ok m ht).2 ⟨fun h => (by cases h), fun _ => h⟩] at hw
    cases hw
  | ok u => exact ⟨fun h => ⟨((wrongIntegrity_ok m ht).1 hw).2 (.inr rfl), h⟩, fun h => h.2⟩

/-- A signature is accepted exactly if it verifies, the chain of the first certificate is trusted, a stateful signature is
fresh, and for a `ccr` the signer is a cross-certificate of the CA or in the trust store for cross-certification. -/
theorem C229_sig_iff (env : ProtEnv C N K) (issued : List C) (m : ProtMsg C) (ht : m.typ = some .sig) :
    validateProtection env issued m = .ok () ↔
      (m.body = "ccr" → ∃ c l, m.extra = some (c :: l) ∧ (c ∈ issued ∨ ∃ as, env.caAnchors = .ok as ∧ c ∈ as)) ∧
      (m.stateful = true → env.before = .ok () ∧ env.after = .ok ()) ∧
      (m.sig = .other → env.trad = .ok ()) ∧ (m.sig = .modern → env.hybrid = .ok ()) ∧
      checkTrusted env.chain env.anchors env.useOpenssl m.sig false m.extra = .ok () := by
  unfold validateProtection
  rw [ht]
  dsimp only
  rw [(wrongIntegrity_ok m ht).2 ⟨fun h => (by cases h), fun h => (by rcases h with h | h <;> cases h)⟩]
  exact validateSig_ok env issued m

omit [DecidableEq C] [DecidableEq N] in
private theorem lastOf_mem (l : List C) : ∀ a, lastOf a l ∈ a :: l := by
  induction l with
  | nil => intro a; exact List.mem_singleton.2 rfl
  | cons b l ih => intro a; exact List.mem_cons_of_mem _ (ih b)

/-- Whatever is accepted with a signature or a key agreement has a chain which ends in the trust store. -/
theorem C229_anchored (env : ProtEnv C N K) (issued : List C) (m : ProtMsg C) (ht : m.typ = some .sig ∨ m.typ = some .dh)
    (h : validateProtection env issued m = .ok ()) :
    ∃ chain as c, buildCmpChain env.chain m.extra = .ok chain ∧ env.anchors = .ok as ∧ chain.getLast? = some c ∧ c ∈ as := by
  have hc : ∃ b, checkTrusted env.chain env.anchors env.useOpenssl m.sig b m.extra = .ok () := by
    rcases ht with ht | ht
    · exact ⟨_, ((C229_sig_iff env issued m ht).1 h).2.2.2.2⟩
    · exact ⟨_, ((C229_dh_iff env issued m ht).1 h).2.2⟩
  obtain ⟨b, hc⟩ := hc
  have hl : ∀ (l : List C) (a : C), (a :: l).getLast? = some (lastOf a l) := by
    intro l
    induction l with
    | nil => intro a; rfl
    | cons x l ih => intro a; rw [List.getLast?_cons_cons]; exact ih x
  unfold checkTrusted at hc
  cases hch : buildCmpChain env.chain m.extra with
  | error e => rw [hch] at hc; cases hc
  | ok chain =>
    rw [hch] at hc
    cases chain with
    | nil => cases hc
    | cons ee rest =>
      dsimp only at hc
      refine ⟨ee :: rest, ?_⟩
      split at hc
      · cases hm : mustBeTrusted env.chain env.anchors ee rest
            [if b then "keyAgreement".toList else "digitalSignature".toList] .lax with
        | error e =>
          rw [hm] at hc
          dsimp only at hc
          split at hc <;> cases hc
        | ok u =>
          unfold mustBeTrusted at hm
          cases ha : env.anchors with
          | error e => rw [ha] at hm; cases hm
          | ok as =>
            rw [ha] at hm
            dsimp only at hm
            split at hm
            · cases hm
            · rename_i hin
              have hin' : chainCertInList (lastOf ee rest) as = true := by
                cases hx : chainCertInList (lastOf ee rest) as with
                | true => rfl
                | false => exact absurd hx hin
              unfold chainCertInList at hin'
              obtain ⟨x, h1, h2⟩ := List.any_eq_true.1 hin'
              exact ⟨as, _, rfl, rfl, hl rest ee, (of_decide_eq_true h2 : lastOf ee rest = x) ▸ h1⟩
      · obtain ⟨as, ha, hin⟩ := (areAnchors_one _ _).1 hc
        exact ⟨as, _, rfl, ha, hl rest ee, hin⟩

/-- Nothing unprotected is accepted. -/
theorem C229_none (env : ProtEnv C N K) (issued : List C) (m : ProtMsg C) (ht : m.typ = none) :
    validateProtection env issued m = .error .badMessageCheck := by
  unfold validateProtection
  rw [ht]

/-- A CA for the examples: its trust store holds `tRoot`, the one for cross-certification `tOther`; the secret is `ab`. -/
def exProtCa : ProtEnv TCert Nat Nat where
  chain := tEnv
  anchors := .ok [tRoot]
  caAnchors := .ok [tOther]
  secret := .bytes [97, 98]
  mac k := if k = [97, 98] then .ok () else .error .badMacProtection
  dhSecret _ := .error .badMessageCheck
  dhMac _ := .error .valueError
  kem := .error .badMessageCheck
  trad := .ok ()
  hybrid := .ok ()

example : validateProtection exProtCa [] { body := "ir", typ := some .mac, name := "pbmac1" } = .ok () := by decide +kernel
example : validateProtection exProtCa [] { body := "kur", typ := some .mac, name := "pbmac1" } = .error .bodyRelevantError := by
  decide +kernel
example : validateProtection exProtCa [] { body := "ir", typ := some .sig, extra := some [tDev, tRoot] } = .ok () := by
  decide +kernel
example : validateProtection exProtCa [tDev] { body := "ccr", typ := some .sig, extra := some [tDev, tRoot] } = .ok () := by
  decide +kernel
example : validateProtection exProtCa [] { body := "ccr", typ := some .sig, extra := some [tDev, tRoot] }
    = .error .notAuthorized := by decide +kernel

/-- A certificate in the trust store for cross-certification may not send a `ccr`: its chain has to end in the other trust
store as well. -/
theorem C229_ccr_refuted : ∃ (c : TCert) (as : List TCert), exProtCa.caAnchors = .ok as ∧ c ∈ as ∧
    ccrSigner exProtCa [] { body := "ccr", typ := some .sig, extra := some [c] } = .ok () ∧ exProtCa.trad = .ok () ∧
    validateProtection exProtCa [] { body := "ccr", typ := some .sig, extra := some [c] } = .error .signerNotTrusted :=
  ⟨tOther, _, rfl, List.mem_singleton.2 rfl, by decide +kernel, rfl, by decide +kernel⟩

/-- A request can end with an error which is not one of the test suite. -/
theorem C229_error_refuted : ∃ (env : ProtEnv TCert Nat Nat) (m : ProtMsg TCert) (e : PyErr),
    validateProtection env [] m = .error e ∧ e.isCmp = false :=
  ⟨{ exProtCa with secret := .text ['0', 'x', '6', '1'] }, { body := "ir", typ := some .mac, name := "kmac-shake128" },
    .valueError, by decide +kernel⟩

/-! ## The usage period of a private key -/

/-- A usage period is accepted exactly if it is not empty, lies within the validity, and its end comes after its beginning, for
texts whose order is that of the times. -/
theorem C230_iff_partial (time : List Char → Except PyErr Int) (p : Period) (c must : Bool) (lo hi : Int)
    (hord : ∀ b a, p.notBefore = some b → p.notAfter = some a → ∃ x y, time b = .ok x ∧ time a = .ok y ∧ (a < b ↔ y < x) ∧
      (b = a ↔ x = y)) :
    (∃ out, usagePeriod time (fun _ => .ok ()) (some (c, .ok (p, []))) must none (some (lo, hi)) = .ok out) ↔
      (p.notBefore.isSome ∨ p.notAfter.isSome) ∧
      (∀ b, p.notBefore = some b → ∃ x, time b = .ok x ∧ lo ≤ x) ∧
      (∀ a, p.notAfter = some a → ∃ y, time a = .ok y ∧ y ≤ hi) ∧
      (∀ b a x y, p.notBefore = some b → p.notAfter = some a → time b = .ok x → time a = .ok y → x < y) := by
  have hins : ∀ (t : Option (List Char)) (ok : Int → Bool), inside time t ok = .ok () ↔
      ∀ s, t = some s → ∃ v, time s = .ok v ∧ ok v = true := by
    intro t ok
    unfold inside
    cases t with
    | none => exact ⟨fun _ s h => (by cases h), fun _ => rfl⟩
    | some s =>
      dsimp only
      cases ht : time s with
      | error e => exact ⟨fun h => (by cases h), fun h => (by obtain ⟨v, hv, _⟩ := h s rfl; rw [ht] at hv; cases hv)⟩
      | ok v =>
        dsimp only
        by_cases hv : ok v = true
        · rw [if_pos hv]
          exact ⟨fun _ s' hs => (by cases hs; exact ⟨v, ht, hv⟩), fun _ => rfl⟩
        · rw [if_neg hv]
          refine ⟨fun h => (by cases h), fun h => ?_⟩
          obtain ⟨w, hw, hw2⟩ := h s rfl
          rw [ht] at hw
          cases hw
          exact absurd hw2 hv
  have hpi : periodInside time p (some (lo, hi)) = .ok () ↔ (∀ b, p.notBefore = some b → ∃ x, time b = .ok x ∧ lo ≤ x) ∧
      (∀ a, p.notAfter = some a → ∃ y, time a = .ok y ∧ y ≤ hi) := by
    unfold periodInside
    dsimp only
    have e1 : (∀ b, p.notBefore = some b → ∃ x, time b = .ok x ∧ lo ≤ x) ↔
        ∀ b, p.notBefore = some b → ∃ x, time b = .ok x ∧ decide (¬ x < lo) = true := by
      simp only [decide_eq_true_eq, Int.not_lt]
    have e2 : (∀ a, p.notAfter = some a → ∃ y, time a = .ok y ∧ y ≤ hi) ↔
        ∀ a, p.notAfter = some a → ∃ y, time a = .ok y ∧ decide (¬ y > hi) = true := by
      simp only [decide_eq_true_eq, gt_iff_lt, Int.not_lt]
    rw [e1, e2, ← hins p.notBefore fun v => decide (¬ v < lo), ← hins p.notAfter fun v => decide (¬ v > hi)]
    cases inside time p.notBefore fun v => decide (¬ v < lo) with
    | error e => exact ⟨fun h => (by cases h), fun h => (by cases h.1)⟩
    | ok u => exact ⟨fun h => ⟨rfl, h⟩, fun h => h.2⟩
  have hpo : periodOrder p = .ok () ↔
      (∀ b a x y, p.notBefore = some b → p.notAfter = some a → time b = .ok x → time a = .ok y → x < y) := by
    unfold periodOrder
    cases hb : p.notBefore with
    | none => exact ⟨fun _ b a x y h => (by cases h), fun _ => rfl⟩
    | some b =>
      cases ha : p.notAfter with
      | none => exact ⟨fun _ b a x y _ h => (by cases h), fun _ => rfl⟩
      | some a =>
        dsimp only
        obtain ⟨x, y, hx, hy, h1, h2⟩ := hord b a hb ha
        by_cases c1 : a < b
        · rw [if_pos c1]
          refine ⟨fun h => (by cases h), fun h => ?_⟩
          have := h b a x y rfl rfl hx hy
          have := h1.1 c1
          omega
        · rw [if_neg c1]
          by_cases c2 : b = a
          · rw [if_pos c2]
            refine ⟨fun h => (by cases h), fun h => ?_⟩
            have := h b a x y rfl rfl hx hy
            have := h2.1 c2
            omega
          · rw [if_neg c2]
            refine ⟨fun _ b' a' x' y' hb' ha' hx' hy' => ?_, fun _ => rfl⟩
            cases hb'
            cases ha'
            rw [hx] at hx'
            cases hx'
            rw [hy] at hy'
            cases hy'
            have n1 : ¬ y < x := fun h => c1 (h1.2 h)
            have n2 : ¬ x = y := fun h => c2 (h2.2 h)
            omega
  unfold usagePeriod
  dsimp only
  rw [if_neg (fun h => h rfl)]
  have hne : (p.notBefore.isSome ∨ p.notAfter.isSome) ↔ ¬ (p.notBefore = none ∧ p.notAfter = none) := by
    cases p.notBefore <;> cases p.notAfter <;> simp
  by_cases hn : p.notBefore = none ∧ p.notAfter = none
  · rw [if_pos hn]
    exact ⟨fun ⟨_, h⟩ => (by cases h), fun h => absurd hn (hne.1 h.1)⟩
  · rw [if_neg hn]
    cases ho : periodOrder p with
    | error e =>
      refine ⟨fun ⟨_, h⟩ => (by cases h), fun h => ?_⟩
      rw [hpo.2 h.2.2.2] at ho
      cases ho
    | ok u =>
      dsimp only
      cases hi' : periodInside time p (some (lo, hi)) with
      | error e =>
        refine ⟨fun ⟨_, h⟩ => (by cases h), fun h => ?_⟩
        rw [hpi.2 ⟨h.2.1, h.2.2.1⟩] at hi'
        cases hi'
      | ok u =>
        obtain ⟨h1, h2⟩ := hpi.1 hi'
        exact ⟨fun _ => ⟨hne.2 hn, h1, h2, hpo.1 ho⟩, fun _ => ⟨_, rfl⟩⟩

/-- The times of the examples. -/
def exTime : List Char → Except PyErr Int
  | [] => .error .pyasn1Error
  | l => if l = "20240101120000Z".toList then .ok 1200000
    else if l = "20240101120000.5Z".toList then .ok 1200005
    else if l = "202401011200Z".toList then .ok 1200000
    else .ok 2000000

/-- Of times written differently the order of the texts is not that of the times: a period which ends before it begins is
accepted, and one which begins at twelve and ends later is refused. -/
theorem C230_order_refuted : ∃ (p q : Period) (out : Option (Bool × Period) × Bool),
    p = ⟨some "20240101120000.5Z".toList, some "20240101120000Z".toList⟩ ∧
    q = ⟨some "202401011200Z".toList, some "20240101120030Z".toList⟩ ∧
    usagePeriod exTime (fun _ => .ok ()) (some (false, .ok (p, []))) false none (some (0, 3000000)) = .ok out ∧
    usagePeriod exTime (fun _ => .ok ()) (some (false, .ok (q, []))) false none (some (0, 3000000)) = .error .badAsn1Data :=
  ⟨_, _, _, rfl, rfl, rfl, by decide +kernel⟩

/-- The extension is required exactly if asked for, and its criticality is overwritten exactly if asked for. -/
theorem C230_present (time : List Char → Except PyErr Int) (enc : Period → Except PyErr Unit) (must : Bool) (crit : Option Bool)
    (v : Option (Int × Int)) :
    usagePeriod time enc none must crit v = (if must then .error .valueError else .ok (none, false)) ∧
    ∀ c x out mod, usagePeriod time enc (some (c, x)) must crit v = .ok (out, mod) →
      ∃ p, x = .ok (p, []) ∧ out = some (crit.getD c, p) ∧ (mod = true ↔ crit.getD c ≠ c) := by
  refine ⟨rfl, ?_⟩
  intro c x out mod h
  unfold usagePeriod at h
  split at h
  · rename_i h1; cases h1
  · cases h
  · rename_i c' p rest h1
    cases h1
    split at h
    · cases h
    · rename_i hr
      split at h
      · cases h
      · split at h
        · cases h
        · split at h
          · cases h
          · split at h
            · cases h
            · cases h
              refine ⟨p, by rw [Decidable.not_not.1 hr], rfl, ?_⟩
              cases crit with
              | none => exact ⟨fun h => (by cases h), fun h => absurd rfl h⟩
              | some b =>
                dsimp only [Option.getD_some]
                rw [decide_eq_true_eq]
                exact ⟨fun h h2 => h h2.symm, fun h h2 => h h2.symm⟩

example : usagePeriod exTime (fun _ => .ok ()) (some (false, .ok (⟨some "20240101120000Z".toList, none⟩, []))) true
    (some true) (some (0, 3000000)) = .ok (some (true, ⟨some "20240101120000Z".toList, none⟩), true) := by decide +kernel
example : usagePeriod exTime (fun _ => .ok ()) (some (false, .ok (⟨some "20240101120000Z".toList, none⟩, []))) true
    none (some (1500000, 3000000)) = .error .badCertTemplate := by decide +kernel

end Verif.Ra
