import Verif.PQ.HybridLoad
import Verif.PQ.HybridProps

/-!
# The names of Composite KEM algorithms, taken apart (for C107)

Every entry of the tables is read by the factory as the algorithm it stands for.
-/

namespace Verif.PQ.Hyb

open Verif.CA (Bytes PyErr)
open Verif.PQ.Dsa (Out)
open Verif.PQ.Mech

/-! ## Names -/

/-- The name a traditional algorithm has in the tables. -/
def specName : TradSpec → String
  | .curve c => dhTradName c
  | .rsa n => "rsa" ++ toString n

def specOf {L : Lib} : TradPub L → TradSpec
  | .dh _ k => .curve (L.pubCurve k)
  | .rsa k => .rsa (bitLength k.n)

theorem tradName_spec {L : Lib} (t : TradPub L) : tradName t = specName (specOf t) := by
  cases t <;> rfl

theorem specName_inj : ∀ {s s' : TradSpec}, specName s = specName s' → s = s' := by
  have key : ∀ {s s' : TradSpec}, (specName s).toList = (specName s').toList → s = s' := by
    intro s s' h
    have e1 : ∀ n, (specName (.curve (.ec n))).toList = 'e' :: 'c' :: 'd' :: 'h' :: '-' :: n.toList := fun n => by
      change ("ecdh-" ++ n).toList = _
      rw [String.toList_append]; rfl
    have e2 : ∀ n, (specName (.rsa n)).toList = 'r' :: 's' :: 'a' :: (toString n).toList := fun n => by
      change ("rsa" ++ toString n).toList = _
      rw [String.toList_append]; rfl
    have e3 : (specName (.curve .x25519)).toList = 'x' :: "25519".toList := by decide
    have e4 : (specName (.curve .x448)).toList = 'x' :: "448".toList := by decide
    match s, s' with
    | .curve (.ec n), .curve (.ec m) =>
      rw [e1, e1] at h
      injection h with _ h; injection h with _ h; injection h with _ h; injection h with _ h; injection h with _ h
      rw [String.toList_injective h]
    | .curve (.ec n), .curve .x25519 => rw [e1, e3] at h; exact absurd (List.cons.inj h).1 (by decide)
    | .curve (.ec n), .curve .x448 => rw [e1, e4] at h; exact absurd (List.cons.inj h).1 (by decide)
    | .curve (.ec n), .rsa m => rw [e1, e2] at h; exact absurd (List.cons.inj h).1 (by decide)
    | .curve .x25519, .curve (.ec m) => rw [e1, e3] at h; exact absurd (List.cons.inj h).1 (by decide)
    | .curve .x25519, .curve .x25519 => rfl
    | .curve .x25519, .curve .x448 => exact absurd h (by decide)
    | .curve .x25519, .rsa m => rw [e3, e2] at h; exact absurd (List.cons.inj h).1 (by decide)
    | .curve .x448, .curve (.ec m) => rw [e1, e4] at h; exact absurd (List.cons.inj h).1 (by decide)
    | .curve .x448, .curve .x25519 => exact absurd h (by decide)
    | .curve .x448, .curve .x448 => rfl
    | .curve .x448, .rsa m => rw [e4, e2] at h; exact absurd (List.cons.inj h).1 (by decide)
    | .rsa n, .curve (.ec m) => rw [e1, e2] at h; exact absurd (List.cons.inj h).1 (by decide)
    | .rsa n, .curve .x25519 => rw [e3, e2] at h; exact absurd (List.cons.inj h).1 (by decide)
    | .rsa n, .curve .x448 => rw [e4, e2] at h; exact absurd (List.cons.inj h).1 (by decide)
    | .rsa n, .rsa m =>
      rw [e2, e2] at h
      injection h with _ h; injection h with _ h; injection h with _ h
      rw [toString_inj h]
  intro s s' h
  exact key (congrArg String.toList h)

/-- The characters before the traditional name. -/
def compPrefix (kind : Kind) (pq : String) : List Char := (kind.text ++ "-" ++ pq ++ "-").toList

theorem compName_toList (kind : Kind) (pq t : String) : (compName kind pq t).toList = compPrefix kind pq ++ t.toList := by
  unfold compName compPrefix
  rw [String.toList_append]

theorem prefix_table : ∀ k ∈ [Kind.kem, Kind.dhkem], ∀ k' ∈ [Kind.kem, Kind.dhkem], ∀ p ∈ pqNames, ∀ p' ∈ pqNames,
    (compPrefix k p).isPrefixOf (compPrefix k' p') = true → k = k' ∧ p = p' := by decide +kernel

theorem kind_mem (k : Kind) : k ∈ [Kind.kem, Kind.dhkem] := by cases k <;> decide

theorem compName_inj {k k' : Kind} {p p' t t' : String} (hp : p ∈ pqNames) (hp' : p' ∈ pqNames)
    (h : compName k p t = compName k' p' t') : k = k' ∧ p = p' ∧ t = t' := by
  have h := congrArg String.toList h
  rw [compName_toList, compName_toList] at h
  have hpre : compPrefix k p <+: compPrefix k' p' ∨ compPrefix k' p' <+: compPrefix k p :=
    List.prefix_or_prefix_of_prefix (List.prefix_append _ t.toList) (h ▸ List.prefix_append _ t'.toList)
  have : k = k' ∧ p = p' := by
    rcases hpre with x | x
    · exact prefix_table k (kind_mem k) k' (kind_mem k') p hp p' hp' (List.isPrefixOf_iff_prefix.2 x)
    · have := prefix_table k' (kind_mem k') k (kind_mem k) p' hp' p hp (List.isPrefixOf_iff_prefix.2 x)
      exact ⟨this.1.symm, this.2.symm⟩
  obtain ⟨rfl, rfl⟩ := this
  exact ⟨rfl, rfl, String.toList_injective (List.append_cancel_left h)⟩

/-- How the loader of private keys takes a traditional name. -/
def privCheck (trad : String) : TradSpec → Bool
  | .curve (.ec n) => pyStarts trad "ecdh" && (curveInstances.lookup (pyReplace (pyReplace trad "ecdsa-" "") "ecdh-" "")).isSome &&
      (pyLower n == pyReplace (pyReplace trad "ecdsa-" "") "ecdh-" "")
  | .curve .x25519 => trad == "x25519"
  | .curve .x448 => trad == "x448"
  | .rsa n => !pyStarts trad "ecdsa" && !pyStarts trad "ecdh" && trad != "x25519" && trad != "x448" && pyStarts trad "rsa" &&
      (match pyInt (pyReplace trad "rsa" "") with
       | .ok m => m == n
       | .error _ => false)

/-- What the factory computes from a table entry. -/
def Entry (name : String) (oid : List Nat) (kind : Kind) (pq trad : String) (spec : TradSpec) : Prop :=
  splitHybridName name = .ok (pq, trad) ∧ pubSpec trad = .ok spec ∧ name = compName kind pq (specName spec) ∧ pq ∈ pqNames ∧
    (pyIn "dhkem" name = true ↔ kind = .dhkem) ∧ (pyStarts name "composite-dhkem" = true ↔ kind = .dhkem) ∧
    (kind = .dhkem → ∀ n, spec ≠ .rsa n) ∧ kemOidToName oid = some name ∧ kemNameToOid.lookup name = some oid ∧
    privCheck trad spec = true

def specIsRsa : TradSpec → Bool
  | .rsa _ => true
  | _ => false

/-- A row of the tables, with what the factory should make of its name. -/
structure Row where
  name : String
  oid : List Nat
  kind : Kind
  pq : String
  trad : String
  spec : TradSpec

/-- `COMPOSITE_KEM_NAME_2_OID`, with the parts of the names. -/
def rows : List Row :=
  [⟨"composite-kem-ml-kem-768-rsa2048", [2, 16, 840, 1, 114027, 80, 5, 2, 50], .kem, "ml-kem-768", "rsa2048", .rsa 2048⟩,
   ⟨"composite-kem-ml-kem-768-rsa3072", [2, 16, 840, 1, 114027, 80, 5, 2, 51], .kem, "ml-kem-768", "rsa3072", .rsa 3072⟩,
   ⟨"composite-kem-ml-kem-768-rsa4096", [2, 16, 840, 1, 114027, 80, 5, 2, 52], .kem, "ml-kem-768", "rsa4096", .rsa 4096⟩,
   ⟨"composite-kem-ml-kem-768-x25519", [2, 16, 840, 1, 114027, 80, 5, 2, 53], .kem, "ml-kem-768", "x25519", .curve .x25519⟩,
   ⟨"composite-kem-ml-kem-768-ecdh-secp256r1", [2, 16, 840, 1, 114027, 80, 5, 2, 54], .kem, "ml-kem-768", "ecdh-secp256r1", .curve (.ec "secp256r1")⟩,
   ⟨"composite-kem-ml-kem-768-ecdh-secp384r1", [2, 16, 840, 1, 114027, 80, 5, 2, 55], .kem, "ml-kem-768", "ecdh-secp384r1", .curve (.ec "secp384r1")⟩,
   ⟨"composite-kem-ml-kem-768-ecdh-brainpoolP256r1", [2, 16, 840, 1, 114027, 80, 5, 2, 56], .kem, "ml-kem-768", "ecdh-brainpoolp256r1", .curve (.ec "brainpoolP256r1")⟩,
   ⟨"composite-kem-ml-kem-1024-rsa3072", [2, 16, 840, 1, 114027, 80, 5, 2, 61], .kem, "ml-kem-1024", "rsa3072", .rsa 3072⟩,
   ⟨"composite-kem-ml-kem-1024-ecdh-secp384r1", [2, 16, 840, 1, 114027, 80, 5, 2, 57], .kem, "ml-kem-1024", "ecdh-secp384r1", .curve (.ec "secp384r1")⟩,
   ⟨"composite-kem-ml-kem-1024-ecdh-brainpoolP384r1", [2, 16, 840, 1, 114027, 80, 5, 2, 58], .kem, "ml-kem-1024", "ecdh-brainpoolp384r1", .curve (.ec "brainpoolP384r1")⟩,
   ⟨"composite-kem-ml-kem-1024-x448", [2, 16, 840, 1, 114027, 80, 5, 2, 59], .kem, "ml-kem-1024", "x448", .curve .x448⟩,
   ⟨"composite-kem-ml-kem-1024-ecdh-secp521r1", [2, 16, 840, 1, 114027, 80, 5, 2, 60], .kem, "ml-kem-1024", "ecdh-secp521r1", .curve (.ec "secp521r1")⟩,
   ⟨"composite-kem-frodokem-976-aes-rsa2048", [1, 3, 6, 1, 5, 5, 7, 4, 9996, 9999, 3, 1, 1, 1], .kem, "frodokem-976-aes", "rsa2048", .rsa 2048⟩,
   ⟨"composite-kem-frodokem-976-aes-rsa3072", [1, 3, 6, 1, 5, 5, 7, 4, 9996, 9999, 3, 1, 1, 2], .kem, "frodokem-976-aes", "rsa3072", .rsa 3072⟩,
   ⟨"composite-kem-frodokem-976-aes-rsa4096", [1, 3, 6, 1, 5, 5, 7, 4, 9996, 9999, 3, 1, 1, 3], .kem, "frodokem-976-aes", "rsa4096", .rsa 4096⟩,
   ⟨"composite-kem-frodokem-976-aes-x25519", [1, 3, 6, 1, 5, 5, 7, 4, 9996, 9999, 3, 1, 1, 4], .kem, "frodokem-976-aes", "x25519", .curve .x25519⟩,
   ⟨"composite-kem-frodokem-976-aes-ecdh-secp384r1", [1, 3, 6, 1, 5, 5, 7, 4, 9996, 9999, 3, 1, 1, 5], .kem, "frodokem-976-aes", "ecdh-secp384r1", .curve (.ec "secp384r1")⟩,
   ⟨"composite-kem-frodokem-976-aes-ecdh-brainpoolP256r1", [1, 3, 6, 1, 5, 5, 7, 4, 9996, 9999, 3, 1, 1, 6], .kem, "frodokem-976-aes", "ecdh-brainpoolp256r1", .curve (.ec "brainpoolP256r1")⟩,
   ⟨"composite-kem-frodokem-976-shake-rsa2048", [1, 3, 6, 1, 5, 5, 7, 4, 9996, 9999, 3, 1, 1, 7], .kem, "frodokem-976-shake", "rsa2048", .rsa 2048⟩,
   ⟨"composite-kem-frodokem-976-shake-rsa3072", [1, 3, 6, 1, 5, 5, 7, 4, 9996, 9999, 3, 1, 1, 8], .kem, "frodokem-976-shake", "rsa3072", .rsa 3072⟩,
   ⟨"composite-kem-frodokem-976-shake-rsa4096", [1, 3, 6, 1, 5, 5, 7, 4, 9996, 9999, 3, 1, 1, 9], .kem, "frodokem-976-shake", "rsa4096", .rsa 4096⟩,
   ⟨"composite-kem-frodokem-976-shake-x25519", [1, 3, 6, 1, 5, 5, 7, 4, 9996, 9999, 3, 1, 1, 10], .kem, "frodokem-976-shake", "x25519", .curve .x25519⟩,
   ⟨"composite-kem-frodokem-976-shake-ecdh-secp384r1", [1, 3, 6, 1, 5, 5, 7, 4, 9996, 9999, 3, 1, 1, 11], .kem, "frodokem-976-shake", "ecdh-secp384r1", .curve (.ec "secp384r1")⟩,
   ⟨"composite-kem-frodokem-976-shake-ecdh-brainpoolP256r1", [1, 3, 6, 1, 5, 5, 7, 4, 9996, 9999, 3, 1, 1, 12], .kem, "frodokem-976-shake", "ecdh-brainpoolp256r1", .curve (.ec "brainpoolP256r1")⟩,
   ⟨"composite-kem-frodokem-1344-aes-ecdh-secp384r1", [1, 3, 6, 1, 5, 5, 7, 4, 9996, 9999, 3, 1, 1, 13], .kem, "frodokem-1344-aes", "ecdh-secp384r1", .curve (.ec "secp384r1")⟩,
   ⟨"composite-kem-frodokem-1344-aes-ecdh-brainpoolP384r1", [1, 3, 6, 1, 5, 5, 7, 4, 9996, 9999, 3, 1, 1, 14], .kem, "frodokem-1344-aes", "ecdh-brainpoolp384r1", .curve (.ec "brainpoolP384r1")⟩,
   ⟨"composite-kem-frodokem-1344-aes-x448", [1, 3, 6, 1, 5, 5, 7, 4, 9996, 9999, 3, 1, 1, 15], .kem, "frodokem-1344-aes", "x448", .curve .x448⟩,
   ⟨"composite-kem-frodokem-1344-shake-ecdh-secp384r1", [1, 3, 6, 1, 5, 5, 7, 4, 9996, 9999, 3, 1, 1, 16], .kem, "frodokem-1344-shake", "ecdh-secp384r1", .curve (.ec "secp384r1")⟩,
   ⟨"composite-kem-frodokem-1344-shake-ecdh-brainpoolP384r1", [1, 3, 6, 1, 5, 5, 7, 4, 9996, 9999, 3, 1, 1, 17], .kem, "frodokem-1344-shake", "ecdh-brainpoolp384r1", .curve (.ec "brainpoolP384r1")⟩,
   ⟨"composite-kem-frodokem-1344-shake-x448", [1, 3, 6, 1, 5, 5, 7, 4, 9996, 9999, 3, 1, 1, 18], .kem, "frodokem-1344-shake", "x448", .curve .x448⟩,
   ⟨"composite-dhkem-ml-kem-768-x25519", [1, 3, 6, 1, 5, 5, 7, 4, 9996, 9999, 3, 1, 2, 1], .dhkem, "ml-kem-768", "x25519", .curve .x25519⟩,
   ⟨"composite-dhkem-ml-kem-768-ecdh-secp384r1", [1, 3, 6, 1, 5, 5, 7, 4, 9996, 9999, 3, 1, 2, 2], .dhkem, "ml-kem-768", "ecdh-secp384r1", .curve (.ec "secp384r1")⟩,
   ⟨"composite-dhkem-ml-kem-768-ecdh-brainpoolP256r1", [1, 3, 6, 1, 5, 5, 7, 4, 9996, 9999, 3, 1, 2, 3], .dhkem, "ml-kem-768", "ecdh-brainpoolp256r1", .curve (.ec "brainpoolP256r1")⟩,
   ⟨"composite-dhkem-ml-kem-1024-ecdh-secp384r1", [1, 3, 6, 1, 5, 5, 7, 4, 9996, 9999, 3, 1, 2, 4], .dhkem, "ml-kem-1024", "ecdh-secp384r1", .curve (.ec "secp384r1")⟩,
   ⟨"composite-dhkem-ml-kem-1024-ecdh-brainpoolP384r1", [1, 3, 6, 1, 5, 5, 7, 4, 9996, 9999, 3, 1, 2, 5], .dhkem, "ml-kem-1024", "ecdh-brainpoolp384r1", .curve (.ec "brainpoolP384r1")⟩,
   ⟨"composite-dhkem-ml-kem-1024-x448", [1, 3, 6, 1, 5, 5, 7, 4, 9996, 9999, 3, 1, 2, 6], .dhkem, "ml-kem-1024", "x448", .curve .x448⟩,
   ⟨"composite-dhkem-frodokem-976-aes-x25519", [1, 3, 6, 1, 5, 5, 7, 4, 9996, 9999, 3, 1, 3, 1], .dhkem, "frodokem-976-aes", "x25519", .curve .x25519⟩,
   ⟨"composite-dhkem-frodokem-976-aes-ecdh-secp384r1", [1, 3, 6, 1, 5, 5, 7, 4, 9996, 9999, 3, 1, 3, 2], .dhkem, "frodokem-976-aes", "ecdh-secp384r1", .curve (.ec "secp384r1")⟩,
   ⟨"composite-dhkem-frodokem-976-aes-ecdh-brainpoolP256r1", [1, 3, 6, 1, 5, 5, 7, 4, 9996, 9999, 3, 1, 3, 3], .dhkem, "frodokem-976-aes", "ecdh-brainpoolp256r1", .curve (.ec "brainpoolP256r1")⟩,
   ⟨"composite-dhkem-frodokem-976-shake-x25519", [1, 3, 6, 1, 5, 5, 7, 4, 9996, 9999, 3, 1, 3, 4], .dhkem, "frodokem-976-shake", "x25519", .curve .x25519⟩,
   ⟨"composite-dhkem-frodokem-976-shake-ecdh-secp384r1", [1, 3, 6, 1, 5, 5, 7, 4, 9996, 9999, 3, 1, 3, 5], .dhkem, "frodokem-976-shake", "ecdh-secp384r1", .curve (.ec "secp384r1")⟩,
   ⟨"composite-dhkem-frodokem-976-shake-ecdh-brainpoolP256r1", [1, 3, 6, 1, 5, 5, 7, 4, 9996, 9999, 3, 1, 3, 6], .dhkem, "frodokem-976-shake", "ecdh-brainpoolp256r1", .curve (.ec "brainpoolP256r1")⟩,
   ⟨"composite-dhkem-frodokem-1344-aes-ecdh-secp384r1", [1, 3, 6, 1, 5, 5, 7, 4, 9996, 9999, 3, 1, 3, 7], .dhkem, "frodokem-1344-aes", "ecdh-secp384r1", .curve (.ec "secp384r1")⟩,
   ⟨"composite-dhkem-frodokem-1344-aes-ecdh-brainpoolP384r1", [1, 3, 6, 1, 5, 5, 7, 4, 9996, 9999, 3, 1, 3, 8], .dhkem, "frodokem-1344-aes", "ecdh-brainpoolp384r1", .curve (.ec "brainpoolP384r1")⟩,
   ⟨"composite-dhkem-frodokem-1344-aes-x448", [1, 3, 6, 1, 5, 5, 7, 4, 9996, 9999, 3, 1, 3, 9], .dhkem, "frodokem-1344-aes", "x448", .curve .x448⟩,
   ⟨"composite-dhkem-frodokem-1344-shake-ecdh-secp384r1", [1, 3, 6, 1, 5, 5, 7, 4, 9996, 9999, 3, 1, 3, 10], .dhkem, "frodokem-1344-shake", "ecdh-secp384r1", .curve (.ec "secp384r1")⟩,
   ⟨"composite-dhkem-frodokem-1344-shake-ecdh-brainpoolP384r1", [1, 3, 6, 1, 5, 5, 7, 4, 9996, 9999, 3, 1, 3, 11], .dhkem, "frodokem-1344-shake", "ecdh-brainpoolp384r1", .curve (.ec "brainpoolP384r1")⟩,
   ⟨"composite-dhkem-frodokem-1344-shake-x448", [1, 3, 6, 1, 5, 5, 7, 4, 9996, 9999, 3, 1, 3, 12], .dhkem, "frodokem-1344-shake", "x448", .curve .x448⟩]

theorem rows_table : rows.map (fun r => (r.name, r.oid)) = kemNameToOid := by decide +kernel

theorem rows_split1 : ∀ r ∈ rows.take 12, splitHybridName r.name = .ok (r.pq, r.trad) := by decide +kernel
theorem rows_split2 : ∀ r ∈ (rows.drop 12).take 12, splitHybridName r.name = .ok (r.pq, r.trad) := by decide +kernel
theorem rows_split3 : ∀ r ∈ ((rows.drop 12).drop 12).take 12, splitHybridName r.name = .ok (r.pq, r.trad) := by decide +kernel
theorem rows_split4 : ∀ r ∈ ((rows.drop 12).drop 12).drop 12, splitHybridName r.name = .ok (r.pq, r.trad) := by decide +kernel

theorem rows_split (r : Row) (h : r ∈ rows) : splitHybridName r.name = .ok (r.pq, r.trad) := by
  rw [← List.take_append_drop 12 rows, ← List.take_append_drop 12 (rows.drop 12), ← List.take_append_drop 12 ((rows.drop 12).drop 12)] at h
  rcases List.mem_append.1 h with h | h
  · exact rows_split1 r h
  rcases List.mem_append.1 h with h | h
  · exact rows_split2 r h
  rcases List.mem_append.1 h with h | h
  · exact rows_split3 r h
  · exact rows_split4 r h

theorem rows_spec : ∀ r ∈ rows, pubSpec r.trad = .ok r.spec := by decide +kernel

theorem rows_name : ∀ r ∈ rows, r.name = compName r.kind r.pq (specName r.spec) ∧ r.pq ∈ pqNames := by decide +kernel

theorem rows_kind : ∀ r ∈ rows, (pyIn "dhkem" r.name = true ↔ r.kind = .dhkem) ∧
    (pyStarts r.name "composite-dhkem" = true ↔ r.kind = .dhkem) ∧ ¬ (r.kind = .dhkem ∧ specIsRsa r.spec = true) := by decide +kernel

theorem rows_oid : ∀ r ∈ rows, kemOidToName r.oid = some r.name ∧ kemNameToOid.lookup r.name = some r.oid := by decide +kernel

theorem rows_priv : ∀ r ∈ rows, privCheck r.trad r.spec = true := by decide +kernel

theorem entry_of_mem {name : String} {oid : List Nat} (h : (name, oid) ∈ kemNameToOid) :
    ∃ kind pq trad spec, Entry name oid kind pq trad spec := by
  rw [← rows_table] at h
  obtain ⟨r, hr, he⟩ := List.mem_map.1 h
  cases he
  obtain ⟨h1, h2, h3⟩ := rows_kind r hr
  refine ⟨r.kind, r.pq, r.trad, r.spec, rows_split r hr, rows_spec r hr, (rows_name r hr).1, (rows_name r hr).2, h1, h2, ?_, (rows_oid r hr).1, (rows_oid r hr).2,
    rows_priv r hr⟩
  intro hk n hn
  exact h3 ⟨hk, by rw [hn]; rfl⟩

theorem find_of_lookup {name : String} {oid : List Nat} (h : nameOid name = .ok oid) : (name, oid) ∈ kemNameToOid := nameOid_mem h

/-- The table entry of a name made from known parts has those parts. -/
theorem entry_of_name {kind : Kind} {pq : String} {spec : TradSpec} {oid : List Nat} (hpq : pq ∈ pqNames)
    (h : nameOid (compName kind pq (specName spec)) = .ok oid) :
    ∃ trad, Entry (compName kind pq (specName spec)) oid kind pq trad spec := by
  obtain ⟨kind', pq', trad, spec', he⟩ := entry_of_mem (nameOid_mem h)
  obtain ⟨h1, h2, h3⟩ := compName_inj hpq he.2.2.2.1 he.2.2.1
  have h4 := specName_inj h3
  subst h1; subst h2; subst h4
  exact ⟨trad, he⟩

theorem entry_of_oid {name : String} {oid : List Nat} (h : kemOidToName oid = some name) :
    ∃ kind pq trad spec, Entry name oid kind pq trad spec := by
  unfold kemOidToName at h
  generalize hf : kemNameToOid.find? (fun e => e.2 == oid) = r at h
  match r with
  | none => cases h
  | some e =>
    cases h
    have := List.find?_some hf
    have hm := List.mem_of_find?_eq_some hf
    have : e.2 = oid := beq_iff_eq.1 this
    subst this
    exact entry_of_mem hm

theorem nameOid_of_entry {name : String} {oid : List Nat} {kind : Kind} {pq trad : String} {spec : TradSpec}
    (h : Entry name oid kind pq trad spec) : nameOid (compName kind pq (specName spec)) = .ok oid := by
  rw [← h.2.2.1]
  unfold nameOid
  rw [h.2.2.2.2.2.2.2.2.1]

end Verif.PQ.Hyb
