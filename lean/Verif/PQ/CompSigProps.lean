import Verif.PQ.CompSig
import Verif.PQ.HybridProps
import Verif.PQ.SigKeysProps

/-!
# Properties of composite signatures
-/

namespace Verif.PQ.CSig

open Verif.CA (Bytes PyErr)
open Verif.PQ.Dsa (Out)
open Verif.PQ.Mech (look ascii)
open Verif.PQ.Hyb (pyReplace bind lift rsaSize bind_value lift_value toString_inj lookup_mem rsaSize_cases)

/-! ## The algorithms of the draft -/

/-- One algorithm of draft-ietf-lamps-pq-composite-sigs: ML-DSA set, traditional key, last arc of the identifier, label,
traditional scheme with its hash, and pre-hash. -/
structure Row where
  pq : String
  kind : Kind
  arc : Nat
  label : String
  scheme : Scheme
  ph : String

/-- The algorithms of the draft. -/
def draft : List Row :=
  [⟨"ml-dsa-44", .rsa 2048, 37, "COMPSIG-MLDSA44-RSA2048-PSS-SHA256", .pss (some "sha256"), "sha256"⟩,
   ⟨"ml-dsa-44", .rsa 2048, 38, "COMPSIG-MLDSA44-RSA2048-PKCS15-SHA256", .pkcs1 (some "sha256"), "sha256"⟩,
   ⟨"ml-dsa-44", .ed25519, 39, "COMPSIG-MLDSA44-Ed25519-SHA512", .eddsa, "sha512"⟩,
   ⟨"ml-dsa-44", .ec "secp256r1", 40, "COMPSIG-MLDSA44-ECDSA-P256-SHA256", .ecdsa (some "sha256"), "sha256"⟩,
   ⟨"ml-dsa-65", .rsa 3072, 41, "COMPSIG-MLDSA65-RSA3072-PSS-SHA512", .pss (some "sha256"), "sha512"⟩,
   ⟨"ml-dsa-65", .rsa 3072, 42, "COMPSIG-MLDSA65-RSA3072-PKCS15-SHA512", .pkcs1 (some "sha256"), "sha512"⟩,
   ⟨"ml-dsa-65", .rsa 4096, 43, "COMPSIG-MLDSA65-RSA4096-PSS-SHA512", .pss (some "sha384"), "sha512"⟩,
   ⟨"ml-dsa-65", .rsa 4096, 44, "COMPSIG-MLDSA65-RSA4096-PKCS15-SHA512", .pkcs1 (some "sha384"), "sha512"⟩,
   ⟨"ml-dsa-65", .ec "secp256r1", 45, "COMPSIG-MLDSA65-ECDSA-P256-SHA512", .ecdsa (some "sha256"), "sha512"⟩,
   ⟨"ml-dsa-65", .ec "secp384r1", 46, "COMPSIG-MLDSA65-ECDSA-P384-SHA512", .ecdsa (some "sha384"), "sha512"⟩,
   ⟨"ml-dsa-65", .ec "brainpoolP256r1", 47, "COMPSIG-MLDSA65-ECDSA-BP256-SHA512", .ecdsa (some "sha256"), "sha512"⟩,
   ⟨"ml-dsa-65", .ed25519, 48, "COMPSIG-MLDSA65-Ed25519-SHA512", .eddsa, "sha512"⟩,
   ⟨"ml-dsa-87", .ec "secp384r1", 49, "COMPSIG-MLDSA87-ECDSA-P384-SHA512", .ecdsa (some "sha384"), "sha512"⟩,
   ⟨"ml-dsa-87", .ec "brainpoolP384r1", 50, "COMPSIG-MLDSA87-ECDSA-BP384-SHA512", .ecdsa (some "sha384"), "sha512"⟩,
   ⟨"ml-dsa-87", .ed448, 51, "COMPSIG-MLDSA87-Ed448-SHAKE256", .eddsa, "shake256"⟩,
   ⟨"ml-dsa-87", .rsa 3072, 52, "COMPSIG-MLDSA87-RSA3072-PSS-SHA512", .pss (some "sha256"), "sha512"⟩,
   ⟨"ml-dsa-87", .rsa 4096, 53, "COMPSIG-MLDSA87-RSA4096-PSS-SHA512", .pss (some "sha384"), "sha512"⟩,
   ⟨"ml-dsa-87", .ec "secp521r1", 54, "COMPSIG-MLDSA87-ECDSA-P521-SHA512", .ecdsa (some "sha512"), "sha512"⟩]

/-- Is the row chosen by the flag? The flag matters for RSA only. -/
def Row.chosen (r : Row) (usePss : Bool) : Bool :=
  match r.scheme with
  | .pss _ => usePss
  | .pkcs1 _ => !usePss
  | _ => true

/-- The message representative M' of the draft. -/
def representative (H : String → Bytes → Bytes) (r : Row) (data ctx : Bytes) : Bytes :=
  "CompositeAlgorithmSignatures2025".toList.map (fun c => UInt8.ofNat c.toNat) ++ ascii r.label ++ [UInt8.ofNat ctx.length] ++ ctx ++ H r.ph data

/-- Acceptance according to the draft: an algorithm for the two keys, a context of at most 255 bytes, and both parts of the
signature are valid for the same representative. -/
def Accepts {K : PqSig} {L : Lib} (H : String → Bytes → Bytes) (k : Pub K L) (data sig ctx : Bytes) (usePss : Bool) : Prop :=
  ∃ r ∈ draft, r.pq = K.name k.pq ∧ r.kind = L.kind k.trad ∧ r.chosen usePss = true ∧ ctx.length ≤ 255 ∧
    K.verify k.pq (representative H r data ctx) (sig.take (K.sigSize k.pq)) (ascii r.label) = .value () ∧
    L.verify k.trad r.scheme (representative H r data ctx) (sig.drop (K.sigSize k.pq)) = .value ()

/-- The names of the ML-DSA sets. -/
def mlNames : List String := ["ml-dsa-44", "ml-dsa-65", "ml-dsa-87"]

/-! ### Names determine keys -/

theorem digits_noDash (n : Nat) : '-' ∉ (toString n).toList := by
  intro h
  have e : (toString n).toList = Nat.toDigits 10 n := String.toList_ofList
  rw [e] at h
  exact absurd (Nat.isDigit_of_mem_toDigits (by decide) (by decide) h) (by decide)

/-- The suffix of RSA names. -/
def pssSuffix (b : Bool) : List Char := if b then ['-', 'p', 's', 's'] else []

theorem tradName_rsa (b : Bool) (n : Nat) : (tradName b (.rsa n)).toList = ['r', 's', 'a'] ++ ((toString n).toList ++ pssSuffix b) := by
  change ("rsa" ++ toString n ++ (if b then "-pss" else "")).toList = _
  rw [String.toList_append, String.toList_append, List.append_assoc]
  cases b <;> rfl

theorem tradName_ec (b : Bool) (c : String) : (tradName b (.ec c)).toList = ['e', 'c', 'd', 's', 'a', '-'] ++ c.toList := by
  change ("ecdsa-" ++ c).toList = _
  rw [String.toList_append]
  rfl

theorem tradName_ed25519 (b : Bool) : (tradName b .ed25519).toList = ['e', 'd', '2', '5', '5', '1', '9'] := by
  change ("ed25519" : String).toList = _
  decide

theorem tradName_ed448 (b : Bool) : (tradName b .ed448).toList = ['e', 'd', '4', '4', '8'] := by
  change ("ed448" : String).toList = _
  decide

theorem pss_inj {m n : Nat} {b b' : Bool} (h : (toString m).toList ++ pssSuffix b = (toString n).toList ++ pssSuffix b') : m = n ∧ b = b' := by
  have key : ∀ m n : Nat, (toString m).toList ++ pssSuffix true ≠ (toString n).toList ++ pssSuffix false := by
    intro m n h
    have hm : '-' ∈ (toString n).toList ++ pssSuffix false := by
      rw [← h]
      exact List.mem_append_right _ List.mem_cons_self
    rw [List.mem_append] at hm
    rcases hm with hm | hm
    · exact digits_noDash n hm
    · cases hm
  cases b <;> cases b'
  · exact ⟨toString_inj (List.append_cancel_right h), rfl⟩
  · exact absurd h.symm (key _ _)
  · exact absurd h (key _ _)
  · exact ⟨toString_inj (List.append_cancel_right h), rfl⟩

/-- The flag is part of a name only for RSA. -/
def flagOf (k : Kind) (b : Bool) : Bool := match k with | .rsa _ => b | _ => true

theorem tradName_inj {k k' : Kind} {b b' : Bool} (h : tradName b k = tradName b' k') : k = k' ∧ flagOf k b = flagOf k' b' := by
  have h : (tradName b k).toList = (tradName b' k').toList := by rw [h]
  cases k with
  | rsa n =>
    rw [tradName_rsa] at h
    cases k' with
    | rsa m =>
      rw [tradName_rsa] at h
      obtain ⟨rfl, rfl⟩ := pss_inj (List.append_cancel_left h)
      exact ⟨rfl, rfl⟩
    | ec c => rw [tradName_ec] at h; cases h
    | ed25519 => rw [tradName_ed25519] at h; cases h
    | ed448 => rw [tradName_ed448] at h; cases h
  | ec c =>
    rw [tradName_ec] at h
    cases k' with
    | rsa m => rw [tradName_rsa] at h; cases h
    | ec c' =>
      rw [tradName_ec] at h
      have := String.toList_inj.1 (List.append_cancel_left h)
      subst this
      exact ⟨rfl, rfl⟩
    | ed25519 => rw [tradName_ed25519] at h; cases h
    | ed448 => rw [tradName_ed448] at h; cases h
  | ed25519 =>
    rw [tradName_ed25519] at h
    cases k' with
    | rsa m => rw [tradName_rsa] at h; cases h
    | ec c' => rw [tradName_ec] at h; cases h
    | ed25519 => exact ⟨rfl, rfl⟩
    | ed448 => rw [tradName_ed448] at h; cases h
  | ed448 =>
    rw [tradName_ed448] at h
    cases k' with
    | rsa m => rw [tradName_rsa] at h; cases h
    | ec c' => rw [tradName_ec] at h; cases h
    | ed25519 => rw [tradName_ed25519] at h; cases h
    | ed448 => exact ⟨rfl, rfl⟩

/-- The flag with which a row is named. -/
def Row.flag (r : Row) : Bool := match r.scheme with | .pss _ => true | .pkcs1 _ => false | _ => true

def Row.name (r : Row) : String := "composite-sig-" ++ r.pq ++ "-" ++ tradName r.flag r.kind

set_option maxRecDepth 8000 in
theorem table_rows : ∀ e ∈ nameToOid, ∃ r ∈ draft, e.1 = r.name ∧ e.2 = cs r.arc := by decide +kernel

set_option maxRecDepth 8000 in
theorem rows_table : ∀ r ∈ draft, nameToOid.lookup r.name = some (cs r.arc) := by decide +kernel

theorem rows_pq : ∀ r ∈ draft, r.pq ∈ mlNames := by decide

theorem names_length : ∀ n ∈ mlNames, n.toList.length = 9 := by decide

theorem rows_flag : ∀ r ∈ draft, ∀ b, r.chosen b = true ↔ flagOf r.kind b = flagOf r.kind r.flag := by decide +kernel

set_option maxRecDepth 8000 in
theorem rows_values : ∀ r ∈ draft, getLabel (cs r.arc) = .ok (ascii r.label) ∧ look (cs r.arc) preHash = .ok r.ph ∧
    ∀ b, r.chosen b = true → scheme r.kind b (getInner (cs r.arc)) = r.scheme := by decide +kernel

theorem name_inj {p p' t t' : String} (hp : p ∈ mlNames) (hp' : p' ∈ mlNames)
    (h : "composite-sig-" ++ p ++ "-" ++ t = "composite-sig-" ++ p' ++ "-" ++ t') : p = p' ∧ t = t' := by
  have h : ("composite-sig-" ++ p ++ "-" ++ t).toList = ("composite-sig-" ++ p' ++ "-" ++ t').toList := by rw [h]
  rw [String.toList_append, String.toList_append, String.toList_append, String.toList_append, String.toList_append, String.toList_append,
    List.append_assoc, List.append_assoc, List.append_assoc, List.append_assoc] at h
  have h := List.append_cancel_left h
  obtain ⟨h1, h2⟩ := List.append_inj h (by rw [names_length p hp, names_length p' hp'])
  exact ⟨String.toList_inj.1 h1, String.toList_inj.1 (List.append_cancel_left h2)⟩

theorem flagOf_name {k : Kind} {b b' : Bool} (h : flagOf k b = flagOf k b') : tradName b k = tradName b' k := by
  cases k with
  | rsa n => have h : b = b' := h; rw [h]
  | ec c => rfl
  | ed25519 => rfl
  | ed448 => rfl

/-- The identifier of a name is that of the row of the draft, and there is one only for the rows. -/
theorem oid_row {p : String} (hp : p ∈ mlNames) (b : Bool) (k : Kind) (oid : List Nat) :
    nameOid ("composite-sig-" ++ p ++ "-" ++ tradName b k) = .ok oid ↔
      ∃ r ∈ draft, r.pq = p ∧ r.kind = k ∧ r.chosen b = true ∧ oid = cs r.arc := by
  constructor
  · intro h
    unfold nameOid at h
    split at h
    · cases h
    · rename_i o ho
      cases h
      obtain ⟨r, hr, h1, h2⟩ := table_rows _ (lookup_mem ho)
      obtain ⟨h3, h4⟩ := name_inj hp (rows_pq r hr) h1
      obtain ⟨h5, h6⟩ := tradName_inj h4
      refine ⟨r, hr, h3.symm, h5.symm, ?_, h2⟩
      rw [rows_flag r hr b, ← h5, h6, h5]
  · rintro ⟨r, hr, rfl, rfl, hc, rfl⟩
    have := (rows_flag r hr b).1 hc
    unfold nameOid
    rw [flagOf_name this]
    have e := rows_table r hr
    unfold Row.name at e
    rw [e]

theorem rows_unique : ∀ r ∈ draft, ∀ r' ∈ draft, ∀ b, r.pq = r'.pq → r.kind = r'.kind → r.chosen b = true → r'.chosen b = true → r.arc = r'.arc := by
  decide +kernel

/-! ## C70 -/

theorem prepare_row (H : String → Bytes → Bytes) (r : Row) (hr : r ∈ draft) (data ctx : Bytes) (hc : ctx.length ≤ 255) :
    prepareSigInput H (cs r.arc) data ctx = .ok (representative H r data ctx, ascii r.label) := by
  obtain ⟨h1, h2, _⟩ := rows_values r hr
  unfold prepareSigInput computePrehash
  rw [if_neg (by omega), h1, h2]
  rfl

/-- C70. The signature is accepted exactly if the draft accepts it: one algorithm of the table fits both keys, and both
parts verify over its message representative. -/
theorem C70_verify_iff (K : PqSig) (L : Lib) (H : String → Bytes → Bytes) (k : Pub K L) (hk : K.name k.pq ∈ mlNames)
    (data sig ctx : Bytes) (usePss : Bool) : verify H k data sig ctx usePss = .value () ↔ Accepts H k data sig ctx usePss := by
  constructor
  · intro h
    unfold verify at h
    obtain ⟨⟨m, label⟩, h1, h'⟩ := bind_value h
    obtain ⟨u, h2, h3⟩ := bind_value h'
    clear h h'
    replace h1 := lift_value h1
    unfold prepareInput at h1
    split at h1
    · cases h1
    · rename_i hctx
      split at h1
      · cases h1
      · rename_i o ho
        obtain ⟨r, hr, e1, e2, e3, rfl⟩ := (oid_row hk usePss (L.kind k.trad) o).1 ho
        rw [prepare_row H r hr data ctx (by omega)] at h1
        cases h1
        refine ⟨r, hr, e1, e2, e3, by omega, h2, ?_⟩
        unfold verifyTrad at h3
        rw [ho] at h3
        change L.verify _ _ _ _ = _ at h3
        rw [← e2, (rows_values r hr).2.2 usePss e3] at h3
        exact h3
  · rintro ⟨r, hr, e1, e2, e3, hctx, h1, h2⟩
    have ho : pubOid k usePss = .ok (cs r.arc) := (oid_row hk usePss (L.kind k.trad) _).2 ⟨r, hr, e1, e2, e3, rfl⟩
    unfold verify
    dsimp only
    have hp : prepareInput H (pubOid k usePss) data ctx = .ok (representative H r data ctx, ascii r.label) := by
      unfold prepareInput
      rw [if_neg (by omega), ho]
      exact prepare_row H r hr data ctx hctx
    rw [hp]
    change bind (K.verify k.pq (representative H r data ctx) (sig.take (K.sigSize k.pq)) (ascii r.label))
      (fun _ => verifyTrad k (representative H r data ctx) (sig.drop (K.sigSize k.pq)) usePss) = _
    rw [h1]
    change verifyTrad k _ _ usePss = _
    unfold verifyTrad
    rw [ho]
    change L.verify _ _ _ _ = _
    rw [← e2, (rows_values r hr).2.2 usePss e3]
    exact h2

/-- The component laws: a signature is accepted with the arguments it was made with, and an ML-DSA signature has its size. -/
def PqLaw (K : PqSig) (sk : K.Priv) : Prop :=
  ∀ m ctx rnd sig, K.sign sk m ctx rnd = .value sig → sig.length = K.sigSize (K.pub sk) ∧ K.verify (K.pub sk) m sig ctx = .value ()

def TradLaw (L : Lib) (sk : L.Priv) : Prop :=
  ∀ s m rnd sig, L.sign sk s m rnd = .value sig → L.verify (L.pub sk) s m sig = .value ()

/-- RSA keys have one of the sizes of the draft. -/
def StdSize (k : Kind) : Prop := match k with | .rsa b => b = 2048 ∨ b = 3072 ∨ b = 4096 | _ => True

instance (k : Kind) : Decidable (StdSize k) := by
  unfold StdSize
  cases k <;> infer_instance

theorem rows_std : ∀ r ∈ draft, StdSize r.kind := by decide

theorem rsaSize_std : rsaSize 2048 = 2048 ∧ rsaSize 3072 = 3072 ∧ rsaSize 4096 = 4096 := by decide

theorem privName_std {k : Kind} (h : StdSize k) (b : Bool) : privTradName b k = tradName b k := by
  cases k with
  | rsa n =>
    have h : n = 2048 ∨ n = 3072 ∨ n = 4096 := h
    change tradName b (.rsa (rsaSize n)) = _
    rcases h with rfl | rfl | rfl
    · rw [rsaSize_std.1]
    · rw [rsaSize_std.2.1]
    · rw [rsaSize_std.2.2]
  | ec c => rfl
  | ed25519 => rfl
  | ed448 => rfl

theorem oids_std {K : PqSig} {L : Lib} (k : Priv K L) (h : StdSize (L.kind (L.pub k.trad))) (b : Bool) : privOid k b = pubOid (publicKey k) b := by
  unfold privOid pubOid
  rw [privName_std h]
  rfl

/-- C70. A signature is accepted with the arguments it was made with, if the components do so. -/
theorem C70_sign_verify_partial (K : PqSig) (L : Lib) (H : String → Bytes → Bytes) (k : Priv K L) (h1 : PqLaw K k.pq) (h2 : TradLaw L k.trad)
    (hs : StdSize (L.kind (L.pub k.trad))) (data ctx : Bytes) (usePss : Bool) (r1 r2 sig : Bytes)
    (h : sign H k data ctx usePss r1 r2 = .value sig) : verify H (publicKey k) data sig ctx usePss = .value () := by
  unfold sign at h
  split at h
  · cases h
  · obtain ⟨⟨m, label⟩, e1, h⟩ := bind_value h
    obtain ⟨s1, e2, h⟩ := bind_value h
    obtain ⟨s2, e3, h⟩ := bind_value h
    cases h
    obtain ⟨l1, v1⟩ := h1 _ _ _ _ e2
    unfold signTrad at e3
    obtain ⟨oid, e4, e3⟩ := bind_value e3
    have v2 := h2 _ _ _ _ e3
    rw [oids_std k hs usePss] at e1 e4
    unfold verify
    dsimp only
    have l1' : s1.length = K.sigSize (publicKey k).pq := l1
    rw [e1, List.take_left' l1', List.drop_left' l1']
    change bind (K.verify (K.pub k.pq) m s1 label) _ = _
    rw [v1]
    change verifyTrad (publicKey k) m s2 usePss = _
    unfold verifyTrad
    rw [e4]
    exact v2

/-- C70. With an RSA key of another size, verification never succeeds: it ends in InvalidKeyCombination. -/
theorem C70_rsa_size (K : PqSig) (L : Lib) (H : String → Bytes → Bytes) (k : Pub K L) (hk : K.name k.pq ∈ mlNames)
    (hs : ¬ StdSize (L.kind k.trad)) (data sig ctx : Bytes) (hc : ctx.length ≤ 255) (usePss : Bool) :
    verify H k data sig ctx usePss = .raised .invalidKeyCombination := by
  have ho : pubOid k usePss = .error .invalidKeyCombination := by
    cases h : pubOid k usePss with
    | ok o =>
      obtain ⟨r, hr, _, e2, _, _⟩ := (oid_row hk usePss (L.kind k.trad) o).1 h
      exact absurd (e2 ▸ rows_std r hr) hs
    | error e =>
      unfold pubOid nameOid at h
      split at h <;> cases h
      rfl
  unfold verify prepareInput
  dsimp only
  rw [if_neg (by omega), ho]
  rfl

/-! ### The input determines what was signed -/

set_option maxRecDepth 8000 in
theorem labels_prefix : ∀ a ∈ labels, ∀ b ∈ labels, ascii a.2 <+: ascii b.2 → a = b := by decide +kernel

theorem prefix_or {α : Type} {a b c d : List α} (h : a ++ b = c ++ d) : a <+: c ∨ c <+: a := by
  rcases List.prefix_or_prefix_of_prefix (List.prefix_append a b) (h ▸ List.prefix_append c d) with h | h
  · exact Or.inl h
  · exact Or.inr h

theorem lookup_mem' {β : Type} {k : List Nat} {v : β} : ∀ {t : List (List Nat × β)}, t.lookup k = some v → (k, v) ∈ t
  | [], h => by cases h
  | (a, b) :: t, h => by
    rw [List.lookup_cons] at h
    split at h
    · rename_i he
      have := eq_of_beq he
      cases h
      rw [this]
      exact List.mem_cons_self
    · exact List.mem_cons_of_mem _ (lookup_mem' h)

/-- C70. Equal inputs of the component signatures: the same algorithm, the same context and the same pre-hash; if the
pre-hash is collision free, the same data. -/
theorem C70_injective (H : String → Bytes → Bytes) (o o' : List Nat) (data data' ctx ctx' m l l' : Bytes)
    (h : prepareSigInput H o data ctx = .ok (m, l)) (h' : prepareSigInput H o' data' ctx' = .ok (m, l')) :
    o = o' ∧ l = l' ∧ ctx = ctx' ∧ ∃ ph, preHash.lookup o = some ph ∧ H ph data = H ph data' := by
  have unf : ∀ {o data ctx m l}, prepareSigInput H o data ctx = .ok (m, l) →
      ctx.length ≤ 255 ∧ ∃ s ph, labels.lookup o = some s ∧ l = ascii s ∧ preHash.lookup o = some ph ∧
        m = sigPrefix ++ l ++ [UInt8.ofNat ctx.length] ++ ctx ++ H ph data := by
    intro o data ctx m l h
    unfold prepareSigInput getLabel computePrehash look at h
    split at h
    · cases h
    · rename_i hc
      cases e1 : labels.lookup o with
      | none => rw [e1] at h; cases h
      | some s =>
        rw [e1] at h
        cases e2 : preHash.lookup o with
        | none => rw [e2] at h; cases h
        | some ph =>
          rw [e2] at h
          cases h
          exact ⟨by omega, s, ph, rfl, rfl, rfl, rfl⟩
  obtain ⟨c1, s, ph, a1, rfl, a3, a4⟩ := unf h
  obtain ⟨c1', s', ph', b1, rfl, b3, b4⟩ := unf h'
  rw [a4, List.append_assoc, List.append_assoc, List.append_assoc, List.append_assoc, List.append_assoc, List.append_assoc] at b4
  replace b4 := List.append_cancel_left b4
  have hlab : (o, s) = (o', s') := by
    rcases prefix_or b4 with hp | hp
    · exact labels_prefix _ (lookup_mem' a1) _ (lookup_mem' b1) hp
    · exact (labels_prefix _ (lookup_mem' b1) _ (lookup_mem' a1) hp).symm
  cases hlab
  replace b4 := List.append_cancel_left b4
  obtain ⟨hl, b5⟩ := List.cons.inj b4
  have hl : ctx.length = ctx'.length := by
    have := congrArg UInt8.toNat hl
    rw [UInt8.toNat_ofNat', UInt8.toNat_ofNat', Nat.mod_eq_of_lt (by omega), Nat.mod_eq_of_lt (by omega)] at this
    exact this
  obtain ⟨e1, e2⟩ := List.append_inj (show ctx ++ H ph data = ctx' ++ H ph' data' from b5) hl
  rw [a3] at b3
  cases b3
  exact ⟨rfl, rfl, e1, ph, a3, e2⟩

/-- C70. Both components see the label of the algorithm: ML-DSA as its context, and the representatives of different
algorithms are different. -/
theorem C70_domains (H : String → Bytes → Bytes) (r r' : Row) (hr : r ∈ draft) (hr' : r' ∈ draft) (hne : r.arc ≠ r'.arc)
    (data data' ctx ctx' : Bytes) (hc : ctx.length ≤ 255) (hc' : ctx'.length ≤ 255) :
    ascii r.label ≠ ascii r'.label ∧ representative H r data ctx ≠ representative H r' data' ctx' := by
  constructor
  · have : ∀ r ∈ draft, ∀ r' ∈ draft, ascii r.label = ascii r'.label → r.arc = r'.arc := by decide +kernel
    exact fun h => hne (this r hr r' hr' h)
  · intro h
    have h1 := prepare_row H r hr data ctx hc
    have h2 := prepare_row H r' hr' data' ctx' hc'
    rw [← h] at h2
    have := (C70_injective H _ _ _ _ _ _ _ _ _ h1 h2).1
    unfold cs at this
    simp only [List.cons.injEq, true_and, and_true] at this
    exact hne this

/-! ### ML-DSA as the component -/

/-- The ML-DSA key classes of `SigKeys.lean`, for keys given by their public and private bytes. -/
def mlPq (P : Dsa.Params) (E : Dsa.Env) (name : String) : PqSig where
  Priv := Dsa.PrivKey
  Pub := Bytes
  pub := Dsa.PrivKey.pk
  name := fun _ => name
  sigSize := fun _ => Dsa.sigLen P
  sign := fun k m ctx rnd => Dsa.keySign P E k.sk m .absent ctx false rnd
  verify := fun pk m sig ctx => Dsa.keyVerify P E pk sig m .absent ctx false

/-- The sizes are those of `sig_keys.py` 92. -/
theorem mlPq_size : Dsa.sigLen Dsa.p44 = 2420 ∧ Dsa.sigLen Dsa.p65 = 3309 ∧ Dsa.sigLen Dsa.p87 = 4627 := Dsa.sigLen_values

theorem mlPq_law (P : Dsa.Params) (hP : Dsa.IsParam P) (E : Dsa.Env) (hE : E.Sized) (name : String) (xi : Bytes) (k : Dsa.PrivKey)
    (hk : Dsa.keygen P E xi = some (k.pk, k.sk)) : PqLaw (mlPq P E name) k := by
  intro m ctx rnd sig h
  have h : Dsa.keySign P E k.sk m .absent ctx false rnd = .value sig := h
  refine ⟨?_, Dsa.C100_sign_verify_partial P hP E hE xi k.pk k.sk m ctx rnd sig .absent false (by decide) hk h⟩
  have hs := (Dsa.C49_sizes P hP E hE xi k.pk k.sk hk).2.2
  unfold Dsa.keySign at h
  split at h
  · cases h
  · rename_i hc
    change Dsa.sign P E k.sk m ctx none = _ at h
    unfold Dsa.sign at h
    rw [if_neg hc] at h
    unfold Dsa.Out.ofOption at h
    split at h
    · cases h
    · rename_i s he
      cases h
      exact hs _ _ _ he

/-- C70 with the ML-DSA of this code base: only the traditional component is assumed. -/
theorem C70_mldsa (P : Dsa.Params) (hP : Dsa.IsParam P) (E : Dsa.Env) (hE : E.Sized) (name : String) (L : Lib) (H : String → Bytes → Bytes)
    (k : Priv (mlPq P E name) L) (xi : Bytes) (hk : Dsa.keygen P E xi = some (k.pq.pk, k.pq.sk)) (h2 : TradLaw L k.trad)
    (hs : StdSize (L.kind (L.pub k.trad))) (data ctx : Bytes) (usePss : Bool) (r1 r2 sig : Bytes)
    (h : sign H k data ctx usePss r1 r2 = .value sig) : verify H (publicKey k) data sig ctx usePss = .value () :=
  C70_sign_verify_partial _ L H k (mlPq_law P hP E hE name xi k.pq hk) h2 hs data ctx usePss r1 r2 sig h

/-! ### Toy components -/

/-- A toy ML-DSA: the signature is a checksum of key, context and message. -/
def toyPq (name : String) : PqSig where
  Priv := UInt8
  Pub := UInt8
  pub := id
  name := fun _ => name
  sigSize := fun _ => 1
  sign := fun k m ctx _ => .value [(m ++ ctx).foldl (· + ·) k]
  verify := fun k m sig ctx => if sig = [(m ++ ctx).foldl (· + ·) k] then .value () else .raised .invalidSignature

def toyLib : Lib where
  Priv := Kind × UInt8
  Pub := Kind × UInt8
  pub := id
  kind := Prod.fst
  sign := fun k _ m _ => .value [m.foldl (· + ·) k.2, k.2]
  verify := fun k _ m sig => if sig = [m.foldl (· + ·) k.2, k.2] then .value () else .raised .invalidSignature
  encode := fun k => [k.2]
  encodePriv := fun k => [k.2]
  decodeRaw := fun c b => match b with
    | [x] => .ok (c, x)
    | _ => .error .valueError
  decodeRsa := fun b => match b with
    | [x] => .ok (.rsa (if x = 0 then 2048 else if x = 1 then 3072 else 4096), x)
    | _ => .error .valueError
  decodePrivRaw := fun c b => match b with
    | [x] => .ok (c, x)
    | _ => .error .valueError
  decodePrivDer := fun b => match b with
    | [x] => .ok (if x < 3 then .rsa (if x = 0 then 2048 else if x = 1 then 3072 else 4096) else .ec "secp256r1", x)
    | _ => .error .valueError

theorem toyPqLaw (n : String) (k : UInt8) : PqLaw (toyPq n) k := by
  intro m ctx rnd sig h
  cases h
  exact ⟨rfl, if_pos rfl⟩

theorem toyTradLaw (k : Kind × UInt8) : TradLaw toyLib k := by
  intro s m rnd sig h
  cases h
  exact if_pos rfl

def toyHash : String → Bytes → Bytes := fun n d => [UInt8.ofNat n.length, d.foldl (· + ·) 0]

def toyKey (name : String) (k : Kind) : Priv (toyPq name) toyLib := ⟨(7 : UInt8), (k, (9 : UInt8))⟩

example : ∃ sig, sign toyHash (toyKey "ml-dsa-65" .ed25519) [1, 2, 3] [4] false [] [] = .value sig ∧
    verify toyHash (publicKey (toyKey "ml-dsa-65" .ed25519)) [1, 2, 3] sig [4] false = .value () ∧
    verify toyHash (publicKey (toyKey "ml-dsa-65" .ed25519)) [1, 2, 4] sig [4] false = .raised .invalidSignature ∧
    verify toyHash (publicKey (toyKey "ml-dsa-65" .ed25519)) [1, 2, 3] sig [5] false = .raised .invalidSignature := by
  refine ⟨_, rfl, ?_, ?_, ?_⟩ <;> decide +kernel

/-- The claim that what is signed can be verified. -/
def signVerify : Prop :=
  ∀ (K : PqSig) (L : Lib) (H : String → Bytes → Bytes) (k : Priv K L), K.name (K.pub k.pq) ∈ mlNames → PqLaw K k.pq → TradLaw L k.trad →
    ∀ data ctx usePss r1 r2 sig, sign H k data ctx usePss r1 r2 = .value sig → verify H (publicKey k) data sig ctx usePss = .value ()

/-- C70 is false for RSA keys of other sizes: the private key rounds the size and signs, the public key refuses. -/
theorem C70_sign_verify_refuted : ¬ signVerify := by
  intro h
  have key := h (toyPq "ml-dsa-44") toyLib toyHash (toyKey "ml-dsa-44" (.rsa 2056)) (by decide) (toyPqLaw _ _) (toyTradLaw _)
    [1] [] true [] []
  obtain ⟨sig, hs⟩ : ∃ sig, sign toyHash (toyKey "ml-dsa-44" (.rsa 2056)) [1] [] true [] [] = .value sig := ⟨_, rfl⟩
  have h1 := key sig hs
  rw [C70_rsa_size (toyPq "ml-dsa-44") toyLib toyHash (publicKey (toyKey "ml-dsa-44" (.rsa 2056))) (by decide)
    (show ¬ ((2056 : Nat) = 2048 ∨ 2056 = 3072 ∨ 2056 = 4096) by decide) [1] sig [] (by decide) true] at h1
  cases h1

/-! ## C109: algorithm identifiers -/

/-- The claim that a signature is accepted under an identifier only if it is an identifier of the key. -/
def identifierFits : Prop :=
  ∀ (K : PqSig) (L : Lib) (H : String → Bytes → Bytes) (k : Pub K L), K.name k.pq ∈ mlNames → ∀ oid data sig,
    verifyWithAlgId H k oid false data sig = some (.value ()) → ∃ usePss, pubOid k usePss = .ok oid

/-- C109. What the identifier does: it selects the padding. Two identifiers of the table with the same padding give the same
answer, whatever the key. -/
theorem C109_only_padding (K : PqSig) (L : Lib) (H : String → Bytes → Bytes) (k : Pub K L) (r r' : Row) (hr : r ∈ draft) (hr' : r' ∈ draft)
    (hp : (∃ h, r.scheme = .pss h) ↔ (∃ h, r'.scheme = .pss h)) (data sig : Bytes) :
    verifyWithAlgId H k (cs r.arc) false data sig = verifyWithAlgId H k (cs r'.arc) false data sig := by
  have tab : ∀ r ∈ draft, ∃ name, oidToName.lookup (cs r.arc) = some name ∧ (Hyb.pyEnds name "-pss" = true ↔ match r.scheme with | .pss _ => True | _ => False) := by
    intro r hr
    have : ∀ r ∈ draft, ∃ name ∈ oidToName.lookup (cs r.arc), (Hyb.pyEnds name "-pss" = match r.scheme with | .pss _ => true | _ => false) := by
      decide +kernel
    obtain ⟨name, h1, h2⟩ := this r hr
    refine ⟨name, h1, ?_⟩
    rw [h2]
    cases r.scheme <;> simp
  obtain ⟨n, h1, h2⟩ := tab r hr
  obtain ⟨n', h1', h2'⟩ := tab r' hr'
  have hpss : ∀ s : Scheme, (∃ h, s = .pss h) ↔ match s with | .pss _ => True | _ => False := by
    intro s
    cases s <;> simp
  have : Hyb.pyEnds n "-pss" = Hyb.pyEnds n' "-pss" := by
    rw [Bool.eq_iff_iff, h2, h2', ← hpss, ← hpss]
    exact hp
  unfold verifyWithAlgId
  rw [h1, h1']
  dsimp only
  rw [this]

/-- C109 is false: an ML-DSA-44 with Ed25519 key accepts its signatures under the identifier of ML-DSA-87 with P-521. -/
theorem C109_identifier_refuted : ¬ identifierFits := by
  intro h
  have key := h (toyPq "ml-dsa-44") toyLib toyHash (publicKey (toyKey "ml-dsa-44" .ed25519)) (by decide) (cs 54) [1]
  obtain ⟨sig, hs⟩ : ∃ sig, sign toyHash (toyKey "ml-dsa-44" .ed25519) [1] [] false [] [] = .value sig := ⟨_, rfl⟩
  have hv := C70_sign_verify_partial _ _ _ (toyKey "ml-dsa-44" .ed25519) (toyPqLaw _ _) (toyTradLaw _)
    (show StdSize .ed25519 from trivial) _ _ _ _ _ _ hs
  have hs : verifyWithAlgId toyHash (publicKey (toyKey "ml-dsa-44" .ed25519)) (cs 54) false [1] sig = some (.value ()) := by
    have e : oidToName.lookup (cs 54) = some "composite-sig-ml-dsa-87-ecdsa-secp521r1" := by decide +kernel
    have e2 : Hyb.pyEnds "composite-sig-ml-dsa-87-ecdsa-secp521r1" "-pss" = false := by decide +kernel
    unfold verifyWithAlgId
    rw [e]
    dsimp only
    rw [e2, hv]
    rfl
  obtain ⟨b, hb⟩ := key sig hs
  revert hb
  cases b <;> decide +kernel

/-- C109, what holds: a signature accepted under an identifier satisfies the draft for the algorithm of the key (with the
padding of the identifier). -/
theorem C109_identifier_partial (K : PqSig) (L : Lib) (H : String → Bytes → Bytes) (k : Pub K L) (hk : K.name k.pq ∈ mlNames) (oid : List Nat)
    (params : Bool) (data sig : Bytes) (h : verifyWithAlgId H k oid params data sig = some (.value ())) :
    params = false ∧ ∃ name, oidToName.lookup oid = some name ∧ Accepts H k data sig [] (Hyb.pyEnds name "-pss") := by
  unfold verifyWithAlgId at h
  split at h
  · cases h
  · rename_i name hn
    split at h
    · cases h
    · rename_i hp
      refine ⟨by simpa using hp, name, hn, ?_⟩
      exact (C70_verify_iff K L H k hk data sig [] _).1 (Option.some.inj h)

/-- C109. Signing and verifying with the identifier of the key. -/
theorem C109_sign_verify (K : PqSig) (L : Lib) (H : String → Bytes → Bytes) (k : Priv K L) (h1 : PqLaw K k.pq) (h2 : TradLaw L k.trad)
    (hs : StdSize (L.kind (L.pub k.trad))) (oid : List Nat) (data r1 r2 sig : Bytes) (h : signWithAlgId H k oid data r1 r2 = .value sig) :
    verifyWithAlgId H (publicKey k) oid false data sig = some (.value ()) := by
  unfold signWithAlgId at h
  obtain ⟨name, e, h⟩ := bind_value h
  have e := lift_value e
  have e : oidToName.lookup oid = some name := by
    unfold look at e
    split at e
    · rename_i v hv
      cases e
      exact hv
    · cases e
  unfold verifyWithAlgId
  rw [e]
  dsimp only
  rw [C70_sign_verify_partial K L H k h1 h2 hs data [] _ r1 r2 sig h]
  rfl

/-! ### Loading keys by algorithm name -/

/-- The loaders of the libraries return keys of the kind asked for. -/
structure LoadLaws (K : PqSig) (L : Lib) (pqLoad : String → Bytes → Except PyErr (K.Pub × Bytes)) : Prop where
  pq : ∀ n d k rest, pqLoad n d = .ok (k, rest) → K.name k = n
  raw : ∀ c d k, L.decodeRaw c d = .ok k → L.kind k = c
  rsa : ∀ d k, L.decodeRsa d = .ok k → ∃ n, L.kind k = .rsa n

set_option maxRecDepth 8000 in
theorem rows_split : ∀ r ∈ draft, Hyb.splitHybridName r.name = .ok (r.pq, Hyb.pyLower (tradName r.flag r.kind)) := by decide +kernel

def notRsa (k : Kind) : Bool := match k with | .rsa _ => false | _ => true

/-- The curve under which the loader looks up the name of a row. -/
def curveOk (r : Row) : Bool := match r.kind with
  | .ec c => match look (pyReplace (Hyb.pyLower (tradName r.flag r.kind)) "ecdsa-" "") curveInstances with
    | .ok c' => c = c'
    | .error _ => false
  | _ => true

set_option maxRecDepth 8000 in
theorem rows_curve : ∀ r ∈ draft, curveOk r = true := by decide +kernel

set_option maxRecDepth 8000 in
theorem rows_names : ∀ r ∈ draft, match r.kind with
    | .ed448 => Hyb.pyLower (tradName r.flag r.kind) = "ed448"
    | .ed25519 => Hyb.pyLower (tradName r.flag r.kind) = "ed25519"
    | .ec _ => Hyb.pyLower (tradName r.flag r.kind) ≠ "ed448" ∧ Hyb.pyLower (tradName r.flag r.kind) ≠ "ed25519" ∧
        Hyb.pyStarts (Hyb.pyLower (tradName r.flag r.kind)) "ecdsa-" = true
    | .rsa _ => Hyb.pyLower (tradName r.flag r.kind) ≠ "ed448" ∧ Hyb.pyLower (tradName r.flag r.kind) ≠ "ed25519" ∧
        Hyb.pyStarts (Hyb.pyLower (tradName r.flag r.kind)) "ecdsa-" = false ∧
        Hyb.pyStarts (Hyb.pyLower (tradName r.flag r.kind)) "rsa" = true := by
  intro r hr
  have : ∀ r ∈ draft, (match r.kind with
    | .ed448 => Hyb.pyLower (tradName r.flag r.kind) == "ed448"
    | .ed25519 => Hyb.pyLower (tradName r.flag r.kind) == "ed25519"
    | .ec _ => Hyb.pyLower (tradName r.flag r.kind) != "ed448" && Hyb.pyLower (tradName r.flag r.kind) != "ed25519" &&
        Hyb.pyStarts (Hyb.pyLower (tradName r.flag r.kind)) "ecdsa-"
    | .rsa _ => Hyb.pyLower (tradName r.flag r.kind) != "ed448" && Hyb.pyLower (tradName r.flag r.kind) != "ed25519" &&
        !Hyb.pyStarts (Hyb.pyLower (tradName r.flag r.kind)) "ecdsa-" &&
        Hyb.pyStarts (Hyb.pyLower (tradName r.flag r.kind)) "rsa") = true := by decide +kernel
  have := this r hr
  cases hk : r.kind <;> rw [hk] at this <;> simpa [and_assoc] using this

/-- C109. A key loaded under the name of an algorithm is a key of that ML-DSA set; for other algorithms than RSA also the
traditional key fits, so the identifier of the key is that of the name. -/
theorem C109_load_public_partial (K : PqSig) (L : Lib) (pqLoad : String → Bytes → Except PyErr (K.Pub × Bytes)) (hL : LoadLaws K L pqLoad)
    (r : Row) (hr : r ∈ draft) (data : Bytes) (k : Pub K L) (h : loadPublic pqLoad r.name data = .ok k) :
    K.name k.pq = r.pq ∧ (notRsa r.kind = true → L.kind k.trad = r.kind ∧ ∀ b, pubOid k b = .ok (cs r.arc)) ∧
      (notRsa r.kind = false → (∃ n, L.kind k.trad = .rsa n) ∧ ∃ r' ∈ draft, r'.pq = r.pq ∧ r'.kind = L.kind k.trad) := by
  unfold loadPublic at h
  rw [rows_split r hr] at h
  dsimp only at h
  split at h
  · cases h
  rename_i pq rest hpq
  split at h
  · cases h
  rename_i t ht
  split at h
  · cases h
  rename_i oid ho
  cases h
  have hn : K.name pq = r.pq := hL.pq _ _ _ _ hpq
  refine ⟨hn, ?_, ?_⟩
  · intro hk
    have hkind : L.kind t = r.kind := by
      unfold loadTradPub at ht
      have hnames := rows_names r hr
      have hcurve := rows_curve r hr
      unfold curveOk at hcurve
      cases hkd : r.kind with
      | rsa n => rw [hkd] at hk; cases hk
      | ec c =>
        rw [hkd] at hnames ht
        rw [if_neg hnames.1, if_neg hnames.2.1, if_pos hnames.2.2] at ht
        rw [hkd] at hcurve
        dsimp only at hcurve
        cases hl : look (pyReplace (Hyb.pyLower (tradName r.flag (.ec c))) "ecdsa-" "") curveInstances with
        | error e => rw [hl] at ht; cases ht
        | ok c' =>
          rw [hl] at ht hcurve
          have hcurve : c = c' := by simpa using hcurve
          rw [hL.raw _ _ _ ht, hcurve]
      | ed25519 =>
        rw [hkd] at hnames ht
        rw [hnames, if_neg (by decide), if_pos rfl] at ht
        exact hL.raw _ _ _ ht
      | ed448 =>
        rw [hkd] at hnames ht
        rw [hnames, if_pos rfl] at ht
        exact hL.raw _ _ _ ht
    refine ⟨hkind, fun b => ?_⟩
    refine (oid_row (p := K.name pq) (by rw [hn]; exact rows_pq r hr) b (L.kind t) _).2 ⟨r, hr, hn.symm, hkind.symm, ?_, rfl⟩
    rw [rows_flag r hr b]
    cases hkd : r.kind with
    | rsa n => rw [hkd] at hk; cases hk
    | ec c => rfl
    | ed25519 => rfl
    | ed448 => rfl
  · intro hk
    have hkind : ∃ n, L.kind t = .rsa n := by
      unfold loadTradPub at ht
      have hnames := rows_names r hr
      cases hkd : r.kind with
      | rsa n =>
        rw [hkd] at hnames ht
        rw [if_neg hnames.1, if_neg hnames.2.1, if_neg (by rw [hnames.2.2.1]; decide)] at ht
        exact hL.rsa _ _ ht
      | ec c => rw [hkd] at hk; cases hk
      | ed25519 => rw [hkd] at hk; cases hk
      | ed448 => rw [hkd] at hk; cases hk
    refine ⟨hkind, ?_⟩
    obtain ⟨r', hr', e1, e2, _⟩ := (oid_row (p := K.name pq) (by rw [hn]; exact rows_pq r hr) _ (L.kind t) _).1 ho
    exact ⟨r', hr', e1.trans hn, e2⟩

/-- The claim that loading under a name gives a key with the identifier of the name. -/
def loadFits : Prop :=
  ∀ (K : PqSig) (L : Lib) (pqLoad : String → Bytes → Except PyErr (K.Pub × Bytes)), LoadLaws K L pqLoad → ∀ r ∈ draft, ∀ data (k : Pub K L),
    loadPublic pqLoad r.name data = .ok k → ∃ usePss, pubOid k usePss = .ok (cs r.arc)

/-- A toy ML-DSA whose public keys carry their name. -/
def toyNamed : PqSig where
  Priv := String × UInt8
  Pub := String × UInt8
  pub := id
  name := Prod.fst
  sigSize := fun _ => 1
  sign := fun k m ctx _ => .value [(m ++ ctx).foldl (· + ·) k.2]
  verify := fun k m sig ctx => if sig = [(m ++ ctx).foldl (· + ·) k.2] then .value () else .raised .invalidSignature

def toyLoad (n : String) (d : Bytes) : Except PyErr (toyNamed.Pub × Bytes) := match d with
  | x :: rest => .ok ((n, x), rest)
  | [] => .error .valueError

theorem toyLoadLaws : LoadLaws toyNamed toyLib toyLoad where
  pq := by
    intro n d k rest h
    cases d with
    | nil => cases h
    | cons x d => cases h; rfl
  raw := by
    intro c d k h
    rcases d with _ | ⟨x, _ | ⟨y, d⟩⟩
    · cases h
    · cases h; rfl
    · cases h
  rsa := by
    intro d k h
    rcases d with _ | ⟨x, _ | ⟨y, d⟩⟩
    · cases h
    · cases h; exact ⟨_, rfl⟩
    · cases h

/-- ML-DSA-65 with RSA-3072 and PSS. -/
def rsaRow : Row := ⟨"ml-dsa-65", .rsa 3072, 41, "COMPSIG-MLDSA65-RSA3072-PSS-SHA512", .pss (some "sha256"), "sha512"⟩

/-- C109 is false: the name with a 3072-bit RSA key loads a 4096-bit key. -/
theorem C109_load_public_refuted : ¬ loadFits := by
  intro h
  have hr : rsaRow ∈ draft := List.mem_of_getElem? (i := 4) rfl
  obtain ⟨b, hb⟩ := h toyNamed toyLib toyLoad toyLoadLaws rsaRow hr [5, 2] ⟨("ml-dsa-65", 5), (.rsa 4096, 2)⟩ (by
    have e1 : Hyb.splitHybridName rsaRow.name = .ok ("ml-dsa-65", "rsa3072-pss") := by decide +kernel
    have e2 : loadTradPub toyLib "rsa3072-pss" [2] = .ok (.rsa 4096, 2) := by rfl
    unfold loadPublic
    rw [e1]
    change (match loadTradPub toyLib "rsa3072-pss" [2] with | .error e => .error e | .ok t => _ : Except PyErr (Pub toyNamed toyLib)) = _
    rw [e2]
    rfl)
  revert hb
  cases b <;> decide +kernel

/-- The loaders of private keys return keys of the kind asked for. -/
structure PrivLaws (K : PqSig) (L : Lib) (pqLoad : String → Bytes → Out K.Priv) : Prop where
  pq : ∀ n d k, pqLoad n d = .value k → K.name (K.pub k) = n
  raw : ∀ c d k, L.decodePrivRaw c d = .ok k → L.kind (L.pub k) = c

set_option maxRecDepth 8000 in
theorem rows_lower : ∀ r ∈ draft, ∀ r' ∈ draft, ∀ c c', r.kind = .ec c → r'.kind = .ec c' → Hyb.pyLower c = Hyb.pyLower c' → c = c' := by
  intro r hr r' hr' c c' h h' hl
  have : ∀ r ∈ draft, ∀ r' ∈ draft, (match r.kind, r'.kind with
    | .ec c, .ec c' => Hyb.pyLower c != Hyb.pyLower c' || c == c'
    | _, _ => true) = true := by decide +kernel
  have := this r hr r' hr'
  rw [h, h'] at this
  simpa [hl] using this

/-- What the private loader computes from the name of a row. -/
def privFacts (r : Row) : Bool :=
  let n := Hyb.pyLower (tradName r.flag r.kind)
  match r.kind with
  | .ec c => (Hyb.pyStarts n "ecdsa" || Hyb.pyStarts n "ecdh") && pyReplace (pyReplace n "ecdsa-" "") "ecdh-" "" == Hyb.pyLower c
  | .ed25519 => n == "ed25519"
  | .ed448 => n == "ed448"
  | .rsa b => !(Hyb.pyStarts n "ecdsa" || Hyb.pyStarts n "ecdh") && n != "ed448" && n != "ed25519" && Hyb.pyStarts n "rsa" &&
      pyReplace n "-pss" "" == "rsa" ++ toString b && (Hyb.pyEnds n "-pss" == r.flag)

set_option maxRecDepth 8000 in
theorem rows_priv : ∀ r ∈ draft, privFacts r = true := by decide +kernel

theorem rsa_inj {m n : Nat} (h : "rsa" ++ toString m = "rsa" ++ toString n) : m = n := by
  have h : ("rsa" ++ toString m).toList = ("rsa" ++ toString n).toList := by rw [h]
  rw [String.toList_append, String.toList_append] at h
  exact toString_inj (List.append_cancel_left h)

/-- C109. A private key loaded under the name of an algorithm has the keys and the identifier of the algorithm. -/
theorem C109_load_private (K : PqSig) (L : Lib) (pqLoad : String → Bytes → Out K.Priv) (hL : PrivLaws K L pqLoad) (r : Row) (hr : r ∈ draft)
    (data : Bytes) (k : Priv K L) (h : loadPrivate pqLoad r.name data = .value k) :
    K.name (K.pub k.pq) = r.pq ∧ L.kind (L.pub k.trad) = r.kind ∧ privOid k r.flag = .ok (cs r.arc) ∧
      pubOid (publicKey k) r.flag = .ok (cs r.arc) := by
  unfold loadPrivate at h
  rw [rows_split r hr] at h
  obtain ⟨pq, h1, h⟩ := bind_value (o := pqLoad r.pq (data.take 32)) h
  obtain ⟨t, h2, h⟩ := bind_value h
  obtain ⟨oid, h3, h⟩ := bind_value h
  have h : Out.value _ = Out.value k := h
  cases h
  have hn : K.name (K.pub pq) = r.pq := hL.pq _ _ _ h1
  have h2 : loadTradPriv L (Hyb.pyLower (tradName r.flag r.kind)) (data.drop 32) = .ok t := lift_value h2
  have h3 := lift_value h3
  have hp : K.name (K.pub pq) ∈ mlNames := by rw [hn]; exact rows_pq r hr
  have hkind : L.kind (L.pub t) = r.kind := by
    have hf := rows_priv r hr
    unfold privFacts at hf
    unfold loadTradPriv at h2
    generalize hnm : Hyb.pyLower (tradName r.flag r.kind) = n at h2 h3 hf
    cases hkd : r.kind with
    | ed25519 =>
      rw [hkd] at hf
      have hf : n = "ed25519" := by simpa using hf
      subst hf
      rw [if_neg (by decide +kernel), if_neg (by decide), if_pos rfl] at h2
      split at h2
      · cases h2
      · rename_i k' hk'
        cases h2
        exact hL.raw _ _ _ hk'
    | ed448 =>
      rw [hkd] at hf
      have hf : n = "ed448" := by simpa using hf
      subst hf
      rw [if_neg (by decide +kernel), if_pos rfl] at h2
      split at h2
      · cases h2
      · rename_i k' hk'
        cases h2
        exact hL.raw _ _ _ hk'
    | rsa b =>
      rw [hkd] at hf
      have hf : (((((Hyb.pyStarts n "ecdsa" || Hyb.pyStarts n "ecdh") = false ∧ n ≠ "ed448") ∧ n ≠ "ed25519") ∧ Hyb.pyStarts n "rsa" = true) ∧
        pyReplace n "-pss" "" = "rsa" ++ toString b) ∧ Hyb.pyEnds n "-pss" = r.flag := by
        simpa only [Bool.and_eq_true, Bool.not_eq_true', bne_iff_ne, beq_iff_eq, ne_eq] using hf
      rw [if_neg (by rw [hf.1.1.1.1.1]; decide), if_neg hf.1.1.1.1.2, if_neg hf.1.1.1.2, if_pos hf.1.1.2] at h2
      split at h2
      · cases h2
      · split at h2
        · rename_i bits hb
          rw [hf.1.2] at h2
          split at h2
          · cases h2
          · rename_i he
            cases h2
            rw [hb, rsa_inj (Classical.not_not.1 he)]
        · cases h2
    | ec c =>
      rw [hkd] at hf
      have hf : (Hyb.pyStarts n "ecdsa" || Hyb.pyStarts n "ecdh") = true ∧ pyReplace (pyReplace n "ecdsa-" "") "ecdh-" "" = Hyb.pyLower c := by
        simpa only [Bool.and_eq_true, beq_iff_eq] using hf
      rw [if_pos hf.1] at h2
      dsimp only at h2
      rw [hf.2] at h2
      split at h2
      · cases h2
      · split at h2
        · cases h2
        · split at h2
          · rename_i c' hc'
            split at h2
            · cases h2
            · rename_i he
              cases h2
              have he := Classical.not_not.1 he
              unfold privOid at h3
              have h3 : nameOid ("composite-sig-" ++ K.name (K.pub pq) ++ "-" ++ privTradName (Hyb.pyEnds n "-pss") (L.kind (L.pub t))) = .ok oid := h3
              rw [hc'] at h3
              obtain ⟨r', hr', _, e2, _⟩ := (oid_row hp true (.ec c') _).1 h3
              rw [hc', rows_lower r' hr' r hr c' c e2 hkd he]
          · cases h2
  have ho : pubOid (publicKey (K := K) (L := L) ⟨pq, t⟩) r.flag = .ok (cs r.arc) :=
    (oid_row hp r.flag (L.kind (L.pub t)) _).2 ⟨r, hr, hn.symm, hkind.symm, (rows_flag r hr _).2 rfl, rfl⟩
  refine ⟨hn, hkind, ?_, ho⟩
  rw [oids_std _ (show StdSize (L.kind (L.pub t)) by rw [hkind]; exact rows_std r hr)]
  exact ho

end Verif.PQ.CSig
