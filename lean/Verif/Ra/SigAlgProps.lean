import Verif.Ra.SigAlg
import Verif.Prot.MacVerifyProps

/-!
# Properties of the algorithm identifiers of signatures and keys (C208-C210)
-/

namespace Verif.Ra

open Verif.CA (Bytes PyErr ProtType presenceCheck)
open Verif.Prot (Oid look lookOid rsaNames pssNames ecdsaNames hashMap ed25519Oid ed448Oid dash1 pssOid isMsgSig isTradSig
  lookOid_mem)
open Verif.Check (findCertPos)

/-! ## Specification: the algorithms of the standards -/

/-- RSASSA-PKCS1-v1_5 (RFC 8017, RFC 9688). -/
def rsaOids : List Oid :=
  [[1, 2, 840, 113549, 1, 1, 5], [1, 2, 840, 113549, 1, 1, 14], [1, 2, 840, 113549, 1, 1, 11], [1, 2, 840, 113549, 1, 1, 12],
   [1, 2, 840, 113549, 1, 1, 13], [2, 16, 840, 1, 101, 3, 4, 3, 13], [2, 16, 840, 1, 101, 3, 4, 3, 14],
   [2, 16, 840, 1, 101, 3, 4, 3, 15], [2, 16, 840, 1, 101, 3, 4, 3, 16]]

/-- RSASSA-PSS (RFC 8017, RFC 8702). -/
def pssOids : List Oid := [[1, 2, 840, 113549, 1, 1, 10], [1, 3, 6, 1, 5, 5, 7, 6, 30], [1, 3, 6, 1, 5, 5, 7, 6, 31]]

/-- ECDSA with SHA-2 and SHAKE (RFC 5758, RFC 8692). -/
def ecdsaOids : List Oid :=
  [[1, 2, 840, 10045, 4, 3, 1], [1, 2, 840, 10045, 4, 3, 2], [1, 2, 840, 10045, 4, 3, 3], [1, 2, 840, 10045, 4, 3, 4],
   [1, 3, 6, 1, 5, 5, 7, 6, 32], [1, 3, 6, 1, 5, 5, 7, 6, 33]]

/-- ECDSA with SHA-3 (RFC 9688). -/
def ecdsa3Oids : List Oid :=
  [[2, 16, 840, 1, 101, 3, 4, 3, 9], [2, 16, 840, 1, 101, 3, 4, 3, 10], [2, 16, 840, 1, 101, 3, 4, 3, 11],
   [2, 16, 840, 1, 101, 3, 4, 3, 12]]

/-- ML-DSA, SLH-DSA (FIPS 204, 205) with and without pre-hash and Falcon, with the parameter set. -/
def pqSets : List (Oid × String) :=
  [([2, 16, 840, 1, 101, 3, 4, 3, 17], "ml-dsa-44"), ([2, 16, 840, 1, 101, 3, 4, 3, 18], "ml-dsa-65"),
   ([2, 16, 840, 1, 101, 3, 4, 3, 19], "ml-dsa-87"), ([2, 16, 840, 1, 101, 3, 4, 3, 20], "slh-dsa-sha2-128s"),
   ([2, 16, 840, 1, 101, 3, 4, 3, 21], "slh-dsa-sha2-128f"), ([2, 16, 840, 1, 101, 3, 4, 3, 22], "slh-dsa-sha2-192s"),
   ([2, 16, 840, 1, 101, 3, 4, 3, 23], "slh-dsa-sha2-192f"), ([2, 16, 840, 1, 101, 3, 4, 3, 24], "slh-dsa-sha2-256s"),
   ([2, 16, 840, 1, 101, 3, 4, 3, 25], "slh-dsa-sha2-256f"), ([2, 16, 840, 1, 101, 3, 4, 3, 26], "slh-dsa-shake-128s"),
   ([2, 16, 840, 1, 101, 3, 4, 3, 27], "slh-dsa-shake-128f"), ([2, 16, 840, 1, 101, 3, 4, 3, 28], "slh-dsa-shake-192s"),
   ([2, 16, 840, 1, 101, 3, 4, 3, 29], "slh-dsa-shake-192f"), ([2, 16, 840, 1, 101, 3, 4, 3, 30], "slh-dsa-shake-256s"),
   ([2, 16, 840, 1, 101, 3, 4, 3, 31], "slh-dsa-shake-256f"), ([1, 3, 9999, 3, 6], "falcon-512"),
   ([1, 3, 9999, 3, 16], "falcon-padded-512"), ([1, 3, 9999, 3, 9], "falcon-1024"),
   ([1, 3, 9999, 3, 19], "falcon-padded-1024"), ([2, 16, 840, 1, 101, 3, 4, 3, 32], "ml-dsa-44"),
   ([2, 16, 840, 1, 101, 3, 4, 3, 33], "ml-dsa-65"), ([2, 16, 840, 1, 101, 3, 4, 3, 34], "ml-dsa-87"),
   ([2, 16, 840, 1, 101, 3, 4, 3, 35], "slh-dsa-sha2-128s"), ([2, 16, 840, 1, 101, 3, 4, 3, 36], "slh-dsa-sha2-128f"),
   ([2, 16, 840, 1, 101, 3, 4, 3, 37], "slh-dsa-sha2-192s"), ([2, 16, 840, 1, 101, 3, 4, 3, 38], "slh-dsa-sha2-192f"),
   ([2, 16, 840, 1, 101, 3, 4, 3, 39], "slh-dsa-sha2-256s"), ([2, 16, 840, 1, 101, 3, 4, 3, 40], "slh-dsa-sha2-256f"),
   ([2, 16, 840, 1, 101, 3, 4, 3, 41], "slh-dsa-shake-128s"), ([2, 16, 840, 1, 101, 3, 4, 3, 42], "slh-dsa-shake-128f"),
   ([2, 16, 840, 1, 101, 3, 4, 3, 43], "slh-dsa-shake-192s"), ([2, 16, 840, 1, 101, 3, 4, 3, 44], "slh-dsa-shake-192f"),
   ([2, 16, 840, 1, 101, 3, 4, 3, 45], "slh-dsa-shake-256s"), ([2, 16, 840, 1, 101, 3, 4, 3, 46], "slh-dsa-shake-256f")]

/-- The parameter sets of keys. -/
def pqKeyNames : List String := (pqSets.take 19).map (·.2)

/-- The stateful algorithms. -/
def statefulOids : List Oid :=
  [[1, 3, 6, 1, 5, 5, 7, 6, 34], [1, 3, 6, 1, 5, 5, 7, 6, 35], [1, 2, 840, 113549, 1, 9, 16, 3, 17]]

/-- Composite algorithms: OID, the two keys, PSS or not. -/
def compSets : List (Oid × String × Bool) :=
  [([1, 3, 6, 1, 5, 5, 7, 6, 37], "44 rsa2048", true), ([1, 3, 6, 1, 5, 5, 7, 6, 38], "44 rsa2048", false),
   ([1, 3, 6, 1, 5, 5, 7, 6, 39], "44 ed25519", false), ([1, 3, 6, 1, 5, 5, 7, 6, 40], "44 secp256r1", false),
   ([1, 3, 6, 1, 5, 5, 7, 6, 41], "65 rsa3072", true), ([1, 3, 6, 1, 5, 5, 7, 6, 42], "65 rsa3072", false),
   ([1, 3, 6, 1, 5, 5, 7, 6, 43], "65 rsa4096", true), ([1, 3, 6, 1, 5, 5, 7, 6, 44], "65 rsa4096", false),
   ([1, 3, 6, 1, 5, 5, 7, 6, 45], "65 secp256r1", false), ([1, 3, 6, 1, 5, 5, 7, 6, 46], "65 secp384r1", false),
   ([1, 3, 6, 1, 5, 5, 7, 6, 47], "65 brainpoolP256r1", false), ([1, 3, 6, 1, 5, 5, 7, 6, 48], "65 ed25519", false),
   ([1, 3, 6, 1, 5, 5, 7, 6, 49], "87 secp384r1", false), ([1, 3, 6, 1, 5, 5, 7, 6, 50], "87 brainpoolP384r1", false),
   ([1, 3, 6, 1, 5, 5, 7, 6, 51], "87 ed448", false), ([1, 3, 6, 1, 5, 5, 7, 6, 52], "87 rsa3072", true),
   ([1, 3, 6, 1, 5, 5, 7, 6, 53], "87 rsa4096", true), ([1, 3, 6, 1, 5, 5, 7, 6, 54], "87 secp521r1", false)]

/-! ## Lookups -/

theorem look_none {l : List (Oid × String)} {o : Oid} (h : o ∉ l.map (·.1)) : look l o = none := by
  induction l with
  | nil => rfl
  | cons e l ih =>
    obtain ⟨k, v⟩ := e
    simp only [List.map_cons, List.mem_cons, not_or] at h
    unfold look
    rw [if_neg (fun e => h.1 e.symm)]
    exact ih h.2

theorem look_isSome {l : List (Oid × String)} {o : Oid} : (look l o).isSome = true ↔ o ∈ l.map (·.1) := by
  constructor
  · intro h
    refine Classical.byContradiction fun hn => ?_
    rw [look_none hn] at h
    cases h
  · induction l with
    | nil => intro h; cases h
    | cons e l ih =>
      obtain ⟨k, v⟩ := e
      intro h
      unfold look
      split
      · rfl
      · rename_i hk
        rcases List.mem_cons.1 h with h | h
        · exact absurd h.symm hk
        · exact ih h

theorem lookOid_key {l : List (Oid × String)} {n : String} {o : Oid} (h : lookOid l n = some o) : o ∈ l.map (·.1) :=
  List.mem_map.2 ⟨_, lookOid_mem l n o h, rfl⟩

/-! ## C209: key and algorithm -/

/-- The keys there are. -/
def RealKey : SigKey → Prop
  | .pq n => n ∈ pqKeyNames
  | .stateful p => p ∈ statefulOids
  | _ => True

/-- The algorithms a key is for; RSASSA-PSS is missing, see `C209_pss_refuted`. -/
def KeyAlg (k : SigKey) (o : Oid) : Prop :=
  match k with
  | .rsa => o ∈ rsaOids
  | .ec => o ∈ ecdsaOids ++ ecdsa3Oids
  | .ed25519 => o = [1, 3, 101, 112]
  | .ed448 => o = [1, 3, 101, 113]
  | .dsa => False
  | .pq n => (o, n) ∈ pqSets
  | .stateful p => o = p
  | .composite get => ∃ s pss, (o, s, pss) ∈ compSets ∧ get pss = .ok o

/-- All OIDs the lookups know. -/
def allOids : List Oid := ed25519Oid :: ed448Oid :: (compNames ++ pqNames ++ hashMap).map (·.1)

theorem unknown_alg (k : SigKey) (o : Oid) (h : o ∉ allOids) : checkKeyAlg k o = .error .badSigAlgId := by
  unfold allOids at h
  simp only [List.map_append, List.mem_cons, List.mem_append, not_or] at h
  obtain ⟨h1, h2, ⟨h3, h4⟩, h5⟩ := h
  have h6 : o ∉ preHashNames.map (·.1) := by
    intro hh
    refine h4 ?_
    unfold pqNames pqSigNames
    simp only [List.map_append, List.mem_append]
    exact .inl (.inl (.inr hh))
  unfold checkKeyAlg hashOnly
  rw [look_none h3, look_none h6, look_none h4, look_none h5]
  dsimp only
  rw [if_neg (by rintro (h | h); exact h1 h; exact h2 h), if_neg (by simp)]

/-- The result for a traditional key, on the known OIDs. -/
theorem trad_table : ∀ o ∈ allOids,
    (checkKeyAlg .rsa o = .ok () ↔ o ∈ rsaOids) ∧ (checkKeyAlg .ec o = .ok () ↔ o ∈ ecdsaOids ++ ecdsa3Oids) ∧
    (checkKeyAlg .ed25519 o = .ok () ↔ o = [1, 3, 101, 112]) ∧ (checkKeyAlg .ed448 o = .ok () ↔ o = [1, 3, 101, 113]) ∧
    checkKeyAlg .dsa o ≠ .ok () := by decide +kernel

theorem pq_table : ∀ o ∈ pqSets.map (·.1), ∀ n ∈ pqKeyNames, checkKeyAlg (.pq n) o = .ok () ↔ (o, n) ∈ pqSets := by
  decide +kernel

theorem pq_kem : ∀ o ∈ (kemNames ++ statefulNames).map (·.1), ∀ n ∈ pqKeyNames, checkKeyAlg (.pq n) o ≠ .ok () := by
  decide +kernel

theorem pq_keys : pqNames.map (·.1) = pqSets.map (·.1) ++ (kemNames ++ statefulNames).map (·.1) := by decide +kernel

/-- A composite algorithm is known by its name, which tells if PSS is used. -/
theorem comp_table : compNames.map (fun e => (e.1, ("-pss".toList).isSuffixOf e.2.toList)) = compSets.map (fun e => (e.1, e.2.2)) := by
  decide +kernel

theorem comp_nodup : (compSets.map (·.1)).Nodup := by decide +kernel

theorem look_mem {l : List (Oid × String)} {o : Oid} {v : String} (h : look l o = some v) : (o, v) ∈ l := by
  induction l with
  | nil => cases h
  | cons e l ih =>
    obtain ⟨k, w⟩ := e
    unfold look at h
    split at h
    · rename_i hk
      cases h
      cases hk
      exact List.mem_cons_self ..
    · exact List.mem_cons_of_mem _ (ih h)

theorem comp_pss {o : Oid} {name : String} (h : look compNames o = some name) :
    ∃ s, (o, s, ("-pss".toList).isSuffixOf name.toList) ∈ compSets := by
  have hm : (o, ("-pss".toList).isSuffixOf name.toList) ∈ compNames.map (fun e => (e.1, ("-pss".toList).isSuffixOf e.2.toList)) :=
    List.mem_map.2 ⟨_, look_mem h, rfl⟩
  rw [comp_table] at hm
  obtain ⟨⟨o', s, b⟩, h1, h2⟩ := List.mem_map.1 hm
  cases h2
  exact ⟨s, h1⟩

theorem comp_unique {o : Oid} {s t : String} {a b : Bool} (h1 : (o, s, a) ∈ compSets) (h2 : (o, t, b) ∈ compSets) :
    s = t ∧ a = b := by
  have key : ∀ e ∈ compSets, ∀ f ∈ compSets, e.1 = f.1 → e.2 = f.2 := by decide +kernel
  have := key _ h1 _ h2 rfl
  simp only [Prod.mk.injEq] at this
  exact this

theorem comp_known {o : Oid} {s : String} {a : Bool} (h : (o, s, a) ∈ compSets) : (look compNames o).isSome = true := by
  have key : ∀ e ∈ compSets, (look compNames e.1).isSome = true := by decide +kernel
  exact key _ h

theorem stateful_table : ∀ p ∈ statefulOids, look compNames p = none ∧ hashOnly p = .ok none := by decide +kernel

/-- **C209.** A key and an algorithm are consistent if and only if the algorithm is one the key is for, except RSASSA-PSS. -/
theorem C209_accepted_iff (k : SigKey) (o : Oid) (hk : RealKey k) : checkKeyAlg k o = .ok () ↔ KeyAlg k o := by
  have out : ∀ {P : Prop}, (P → o ∈ allOids) → o ∉ allOids → (checkKeyAlg k o = .ok () ↔ P) := by
    intro P hP ho
    rw [unknown_alg k o ho]
    exact ⟨fun h => (by cases h), fun h => absurd (hP h) ho⟩
  have sub1 : ∀ o ∈ rsaOids ++ (ecdsaOids ++ ecdsa3Oids) ++ pqSets.map (·.1) ++ [[1, 3, 101, 112], [1, 3, 101, 113]],
      o ∈ allOids := by decide +kernel
  cases k with
  | rsa =>
    by_cases ho : o ∈ allOids
    · exact (trad_table o ho).1
    · exact out (fun h => sub1 o (by simp only [List.mem_append]; exact .inl (.inl (.inl h)))) ho
  | ec =>
    by_cases ho : o ∈ allOids
    · exact (trad_table o ho).2.1
    · exact out (fun h => sub1 o (by rw [List.mem_append, List.mem_append, List.mem_append]; exact .inl (.inl (.inr h)))) ho
  | ed25519 =>
    by_cases ho : o ∈ allOids
    · exact (trad_table o ho).2.2.1
    · exact out (fun h => by cases h; decide +kernel) ho
  | ed448 =>
    by_cases ho : o ∈ allOids
    · exact (trad_table o ho).2.2.2.1
    · exact out (fun h => by cases h; decide +kernel) ho
  | dsa =>
    by_cases ho : o ∈ allOids
    · exact ⟨fun h => (trad_table o ho).2.2.2.2 h, fun h => h.elim⟩
    · exact out (fun h => h.elim) ho
  | pq n =>
    by_cases h1 : o ∈ pqSets.map (·.1)
    · exact pq_table o h1 n hk
    · have hn : ¬ (o, n) ∈ pqSets := fun h => h1 (List.mem_map.2 ⟨_, h, rfl⟩)
      refine ⟨fun h => ?_, fun h => absurd h hn⟩
      exfalso
      by_cases h2 : o ∈ (kemNames ++ statefulNames).map (·.1)
      · exact pq_kem o h2 n hk h
      · have h3 : o ∉ pqNames.map (·.1) := by
          rw [pq_keys, List.mem_append]
          rintro (h | h)
          · exact h1 h
          · exact h2 h
        unfold checkKeyAlg at h
        split at h
        · cases h
        · split at h
          · cases h
          · cases h
          · dsimp only at h
            split at h
            · cases h
            · rename_i p hp
              split at h
              · cases h
              · rename_i hpo
                have : p = o := Classical.byContradiction fun hh => hpo hh
                rw [this] at hp
                exact h3 (lookOid_key hp)
  | stateful p =>
    show _ ↔ o = p
    have ht := stateful_table p hk
    constructor
    · intro h
      unfold checkKeyAlg at h
      split at h
      · cases h
      · split at h
        · cases h
        · cases h
        · dsimp only at h
          split at h
          · cases h
          · rename_i hp
            exact (Classical.byContradiction fun hh => hp (fun e => hh e.symm))
    · rintro rfl
      unfold checkKeyAlg
      rw [ht.1, ht.2]
      dsimp only
      rw [if_neg (by simp)]
  | composite get =>
    show _ ↔ ∃ s pss, (o, s, pss) ∈ compSets ∧ get pss = .ok o
    unfold checkKeyAlg
    cases hc : look compNames o with
    | none =>
      dsimp only
      refine ⟨fun h => ?_, ?_⟩
      · split at h <;> cases h
      · rintro ⟨s, pss, h, _⟩
        have := comp_known h
        rw [hc] at this
        cases this
    | some name =>
      dsimp only
      obtain ⟨s, hs⟩ := comp_pss hc
      unfold pssOidOf
      dsimp only
      generalize ("-pss".toList).isSuffixOf name.toList = pss at hs
      constructor
      · intro h
        split at h
        · cases h
        · cases h
        · rename_i p hp
          split at h
          · cases h
          · rename_i hpo
            have : p = o := Classical.byContradiction fun hh => hpo hh
            exact ⟨s, pss, hs, by rw [hp, this]⟩
      · rintro ⟨t, b, h1, h2⟩
        obtain ⟨_, rfl⟩ := comp_unique hs h1
        rw [h2]
        dsimp only
        rw [if_neg (by simp)]

/-- **C209 refuted.** An RSA key is never consistent with RSASSA-PSS: a request with a valid PSS signature as proof of
possession is refused by the callers in `ca_ra_utils.py` (1521, 2374). -/
theorem C209_pss_refuted : ∀ o ∈ pssOids, checkKeyAlg .rsa o = .error .badSigAlgId := by decide +kernel

/-- **C209 refuted.** Besides the documented `BadAlg` there are errors which no caller handles: a composite algorithm with
a key which is not composite, and the OID of a plain hash function, which has no part after a hyphen. -/
theorem C209_errors_refuted :
    (∀ e ∈ compSets, ∀ k ∈ [SigKey.rsa, .ec, .ed25519, .ed448, .dsa], checkKeyAlg k e.1 = .error .attributeError) ∧
    (∀ e ∈ compSets, ∀ n, checkKeyAlg (.pq n) e.1 = .error .typeError) ∧
    (∀ k, checkKeyAlg k [2, 16, 840, 1, 101, 3, 4, 2, 1] = .error .indexError) := by
  refine ⟨?_, ?_, ?_⟩
  · intro e he k hk
    have hc := comp_known (o := e.1) (s := e.2.1) (a := e.2.2) he
    obtain ⟨name, hn⟩ := Option.isSome_iff_exists.1 hc
    unfold checkKeyAlg
    rw [hn]
    simp only [List.mem_cons, List.not_mem_nil, or_false] at hk
    rcases hk with rfl | rfl | rfl | rfl | rfl <;> rfl
  · intro e he n
    have hc := comp_known (o := e.1) (s := e.2.1) (a := e.2.2) he
    obtain ⟨name, hn⟩ := Option.isSome_iff_exists.1 hc
    unfold checkKeyAlg
    rw [hn]
    rfl
  · intro k
    have h1 : look compNames [2, 16, 840, 1, 101, 3, 4, 2, 1] = none := by decide +kernel
    have h2 : hashOnly [2, 16, 840, 1, 101, 3, 4, 2, 1] = .error .indexError := by decide +kernel
    unfold checkKeyAlg
    rw [h1, h2]

-- Concrete keys.
example : checkKeyAlg .rsa [1, 2, 840, 113549, 1, 1, 11] = .ok () ∧ checkKeyAlg .ec [1, 2, 840, 113549, 1, 1, 11] = .error .badSigAlgId ∧
    checkKeyAlg (.pq "ml-dsa-65") [2, 16, 840, 1, 101, 3, 4, 3, 18] = .ok () ∧
    checkKeyAlg (.pq "ml-dsa-65") [2, 16, 840, 1, 101, 3, 4, 3, 33] = .ok () ∧
    checkKeyAlg (.pq "ml-dsa-65") [2, 16, 840, 1, 101, 3, 4, 3, 17] = .error .badSigAlgId ∧
    checkKeyAlg (.composite fun b => .ok [1, 3, 6, 1, 5, 5, 7, 6, if b then 37 else 38]) [1, 3, 6, 1, 5, 5, 7, 6, 38] = .ok () ∧
    checkKeyAlg (.composite fun b => .ok [1, 3, 6, 1, 5, 5, 7, 6, if b then 37 else 38]) [1, 3, 6, 1, 5, 5, 7, 6, 40]
      = .error .badSigAlgId := by decide +kernel

/-! ## C208: protection and certificate -/

/-- The keys of the lookups, as sets of OIDs. -/
theorem rsa_keys (o : Oid) : (look rsaNames o).isSome = true ↔ o ∈ rsaOids := by
  rw [look_isSome]
  have : rsaNames.map (·.1) = rsaOids := by decide +kernel
  rw [this]

theorem pss_keys (o : Oid) : (look pssNames o).isSome = true ↔ o ∈ pssOids := by
  rw [look_isSome]
  have : pssNames.map (·.1) = pssOids := by decide +kernel
  rw [this]

theorem ecdsa_keys (o : Oid) : (look ecdsaShaNames o).isSome = true ↔ o ∈ ecdsaOids := by
  rw [look_isSome]
  have : ecdsaShaNames.map (·.1) = ecdsaOids := by decide +kernel
  rw [this]

/-- **C208.** A certificate with an elliptic curve key is for ECDSA with SHA-2 and SHAKE. -/
theorem C208_ec_iff (prot cert : AlgId) (hc : cert.oid = [1, 2, 840, 10045, 2, 1]) :
    conform prot cert = true ↔ prot.oid ∈ ecdsaOids := by
  unfold conform
  rw [if_pos (show cert.oid = ecKeyOid from hc), ecdsa_keys]

/-- **C208.** A certificate with an RSA key is for PKCS #1 v1.5 and PSS. -/
theorem C208_rsa_iff (prot cert : AlgId) (hc : cert.oid = [1, 2, 840, 113549, 1, 1, 1]) :
    conform prot cert = true ↔ prot.oid ∈ rsaOids ++ pssOids := by
  unfold conform
  rw [if_neg (by rw [hc]; decide), if_neg (by rw [hc]; decide), if_pos (show cert.oid = rsaKeyOid from hc), Bool.or_eq_true, rsa_keys, pss_keys,
    List.mem_append]

/-- **C208 refuted.** A certificate for Ed25519 is taken to be consistent with Ed448, and conversely. -/
theorem C208_ed_refuted : conform ⟨[1, 3, 101, 113], none⟩ ⟨[1, 3, 101, 112], none⟩ = true ∧
    conform ⟨[1, 3, 101, 112], none⟩ ⟨[1, 3, 101, 113], none⟩ = true := by decide +kernel

/-- **C208 refuted.** ECDSA with SHA-3 is refused for certificates with an elliptic curve key, though such a key is taken
to be consistent with it elsewhere (C209). -/
theorem C208_sha3_refuted : ∀ o ∈ ecdsa3Oids, (∀ a b, conform ⟨o, a⟩ ⟨[1, 2, 840, 10045, 2, 1], b⟩ = false) ∧
    checkKeyAlg .ec o = .ok () := by
  intro o ho
  refine ⟨fun a b => ?_, ?_⟩
  · have := C208_ec_iff ⟨o, a⟩ ⟨[1, 2, 840, 10045, 2, 1], b⟩ rfl
    have hn : ∀ o ∈ ecdsa3Oids, o ∉ ecdsaOids := by decide +kernel
    cases hh : conform ⟨o, a⟩ ⟨[1, 2, 840, 10045, 2, 1], b⟩ with
    | false => rfl
    | true => exact absurd (this.1 hh) (hn o ho)
  · revert o
    decide +kernel

/-- What is true of the post-quantum algorithms, on their OIDs. -/
theorem pq_conform_table : ∀ p ∈ pqSets, ∀ c ∈ pqSets, pqConform p.1 c.1 = true ↔ p.2 = c.2 := by decide +kernel

/-- **C208.** A post-quantum algorithm is consistent with the certificates for the same parameter set, whether the one
or the other is with pre-hash or not (for keys without pre-hash, Falcon: the same algorithm). -/
theorem C208_pq_iff (prot cert : AlgId) (n : String) (hp : (prot.oid, n) ∈ pqSets) :
    conform prot cert = true ↔ (cert.oid, n) ∈ pqSets := by
  have hk : ∀ o ∈ pqSets.map (·.1), o ∉ ecdsaOids ∧ o ∉ rsaOids ∧ o ∉ pssOids ∧ o ∉ ([ed25519Oid, ed448Oid] : List Oid) ∧
      look compNames o = none ∧ (look pqSigNames o).isSome = true ∧ o ≠ pssOid ∧ o ≠ ecKeyOid ∧ o ≠ rsaKeyOid := by
    decide +kernel
  obtain ⟨k1, k2, k3, k4, k5, k6, k7, k8, k9⟩ := hk _ (List.mem_map.2 ⟨_, hp, rfl⟩)
  dsimp only at k1 k2 k3 k4 k5 k6 k7 k8 k9
  simp only [List.mem_cons, List.not_mem_nil, or_false, not_or] at k4
  have nope : ∀ o : Oid, (o = ecKeyOid ∨ o = ed25519Oid ∨ o = ed448Oid ∨ o = rsaKeyOid) → ¬ (o, n) ∈ pqSets := by
    intro o ho hin
    have := hk o (List.mem_map.2 ⟨_, hin, rfl⟩)
    obtain ⟨_, _, _, q, _, _, _, q1, q2⟩ := this
    simp only [List.mem_cons, List.not_mem_nil, or_false, not_or] at q
    rcases ho with h | h | h | h
    · exact q1 h
    · exact q.1 h
    · exact q.2 h
    · exact q2 h
  unfold conform
  by_cases h1 : cert.oid = ecKeyOid
  · rw [if_pos h1, ecdsa_keys]
    exact ⟨fun h => absurd h k1, fun h => absurd h (nope _ (.inl h1))⟩
  rw [if_neg h1]
  by_cases h2 : cert.oid = ed25519Oid ∨ cert.oid = ed448Oid
  · rw [if_pos h2, decide_eq_true_iff]
    refine ⟨fun h => ?_, fun h => absurd h (nope _ ?_)⟩
    · rcases h with h | h
      · exact absurd h k4.1
      · exact absurd h k4.2
    · rcases h2 with h | h
      · exact .inr (.inl h)
      · exact .inr (.inr (.inl h))
  rw [if_neg h2]
  by_cases h3 : cert.oid = rsaKeyOid
  · rw [if_pos h3, Bool.or_eq_true, rsa_keys, pss_keys]
    refine ⟨fun h => ?_, fun h => absurd h (nope _ (.inr (.inr (.inr h3))))⟩
    rcases h with h | h
    · exact absurd h k2
    · exact absurd h k3
  rw [if_neg h3, if_neg (by rw [rsa_keys]; exact k2), if_neg k7, if_neg (by rw [pss_keys]; exact k3), k5]
  dsimp only
  rw [if_pos k6]
  by_cases hc : cert.oid ∈ pqSets.map (·.1)
  · obtain ⟨⟨o, m⟩, hm, ho⟩ := List.mem_map.1 hc
    dsimp only at ho
    rw [← ho]
    have := pq_conform_table _ hp _ hm
    dsimp only at this
    rw [this]
    constructor
    · rintro rfl
      exact hm
    · intro h
      have key : ∀ e ∈ pqSets, ∀ f ∈ pqSets, e.1 = f.1 → e.2 = f.2 := by decide +kernel
      exact key _ h _ hm rfl
  · have hs : look pqSigNames cert.oid = none := by
      refine look_none ?_
      have : pqSigNames.map (·.1) = pqSets.map (·.1) := by decide +kernel
      rw [this]
      exact hc
    unfold pqConform
    rw [hs]
    exact ⟨fun h => (by cases h), fun h => absurd (List.mem_map.2 ⟨_, h, rfl⟩) hc⟩

/-- What is true of the composite algorithms, on their OIDs. -/
theorem comp_conform_table : ∀ p ∈ compSets, ∀ c ∈ compSets,
    (compConform p.1 c.1 ((look compNames p.1).getD "").toList = true ↔ p.2.1 = c.2.1) := by decide +kernel

/-- **C208.** A composite algorithm is consistent with the certificates for the same two keys, whether the one or the other
is with PSS or not. -/
theorem C208_composite_iff (prot cert : AlgId) (n : String) (b : Bool) (hp : (prot.oid, n, b) ∈ compSets) :
    conform prot cert = true ↔ ∃ d, (cert.oid, n, d) ∈ compSets := by
  have hk : ∀ o ∈ compSets.map (·.1), o ∉ ecdsaOids ∧ o ∉ rsaOids ∧ o ∉ pssOids ∧ o ∉ ([ed25519Oid, ed448Oid] : List Oid) ∧
      o ≠ pssOid ∧ o ≠ ecKeyOid ∧ o ≠ rsaKeyOid := by
    decide +kernel
  obtain ⟨k1, k2, k3, k4, k7, k8, k9⟩ := hk _ (List.mem_map.2 ⟨_, hp, rfl⟩)
  dsimp only at k1 k2 k3 k4 k7 k8 k9
  simp only [List.mem_cons, List.not_mem_nil, or_false, not_or] at k4
  have nope : ∀ o : Oid, (o = ecKeyOid ∨ o = ed25519Oid ∨ o = ed448Oid ∨ o = rsaKeyOid) → ¬ ∃ d, (o, n, d) ∈ compSets := by
    rintro o ho ⟨d, hin⟩
    have := hk o (List.mem_map.2 ⟨_, hin, rfl⟩)
    obtain ⟨_, _, _, q, _, q1, q2⟩ := this
    simp only [List.mem_cons, List.not_mem_nil, or_false, not_or] at q
    rcases ho with h | h | h | h
    · exact q1 h
    · exact q.1 h
    · exact q.2 h
    · exact q2 h
  unfold conform
  by_cases h1 : cert.oid = ecKeyOid
  · rw [if_pos h1, ecdsa_keys]
    exact ⟨fun h => absurd h k1, fun h => absurd h (nope _ (.inl h1))⟩
  rw [if_neg h1]
  by_cases h2 : cert.oid = ed25519Oid ∨ cert.oid = ed448Oid
  · rw [if_pos h2, decide_eq_true_iff]
    refine ⟨fun h => ?_, fun h => absurd h (nope _ ?_)⟩
    · rcases h with h | h
      · exact absurd h k4.1
      · exact absurd h k4.2
    · rcases h2 with h | h
      · exact .inr (.inl h)
      · exact .inr (.inr (.inl h))
  rw [if_neg h2]
  by_cases h3 : cert.oid = rsaKeyOid
  · rw [if_pos h3, Bool.or_eq_true, rsa_keys, pss_keys]
    refine ⟨fun h => ?_, fun h => absurd h (nope _ (.inr (.inr (.inr h3))))⟩
    rcases h with h | h
    · exact absurd h k2
    · exact absurd h k3
  rw [if_neg h3, if_neg (by rw [rsa_keys]; exact k2), if_neg k7, if_neg (by rw [pss_keys]; exact k3)]
  obtain ⟨name, hn⟩ := Option.isSome_iff_exists.1 (comp_known hp)
  rw [hn]
  dsimp only
  by_cases hc : cert.oid ∈ compSets.map (·.1)
  · obtain ⟨⟨o, m, d⟩, hm, ho⟩ := List.mem_map.1 hc
    dsimp only at ho
    rw [← ho]
    have := comp_conform_table _ hp _ hm
    dsimp only at this
    rw [hn] at this
    rw [show name = (some name).getD "" from rfl, this]
    constructor
    · rintro rfl
      exact ⟨d, hm⟩
    · rintro ⟨d', h⟩
      exact (comp_unique h hm).1
  · have hs : look compNames cert.oid = none := by
      refine look_none ?_
      have : compNames.map (·.1) = compSets.map (·.1) := by decide +kernel
      rw [this]
      exact hc
    unfold compConform
    rw [hs]
    refine ⟨fun h => (by cases h), ?_⟩
    rintro ⟨d, h⟩
    exact absurd (List.mem_map.2 ⟨_, h, rfl⟩) hc

/-- **C208.** The field of a message which must be protected is accepted if and only if algorithm and value are present,
the type is known and, if given, the expected one, and a traditional signature has a certificate which is consistent. -/
theorem C208_field_iff {C : Type} (typ : Oid → Except PyErr ProtType) (spki : C → AlgId) (m : AlgMsg C) (expected : Option ProtType) :
    checkAlgField typ spki m expected true = .ok () ↔
      ∃ a t, m.alg = some a ∧ m.value = true ∧ typ a.oid = .ok t ∧ (∀ x, expected = some x → x = t) ∧
        (t = .tradSig → ∃ c l, m.extra = some (c :: l) ∧ conform a (spki c) = true) := by
  unfold checkAlgField
  rw [if_neg (by simp)]
  cases ha : m.alg with
  | none => cases hv : m.value <;> simp [presenceCheck]
  | some a =>
    cases hv : m.value with
    | false => simp [presenceCheck]
    | true =>
      dsimp only [presenceCheck, Option.isSome_some]
      rw [if_neg (by simp), if_pos (by simp)]
      dsimp only
      cases ht : typ a.oid with
      | error e =>
        refine ⟨fun h => (by cases h), ?_⟩
        rintro ⟨a', t, e1, _, e2, _⟩
        cases e1
        rw [ht] at e2
        cases e2
      | ok t =>
        dsimp only
        by_cases hx : expected.isSome ∧ expected ≠ some t
        · rw [if_pos hx]
          refine ⟨fun h => (by cases h), ?_⟩
          rintro ⟨a', t', e1, _, e2, e3, _⟩
          cases e1
          rw [ht] at e2
          cases e2
          obtain ⟨x, hx'⟩ := Option.isSome_iff_exists.1 hx.1
          exact absurd (by rw [hx', e3 x hx']) hx.2
        · rw [if_neg hx]
          have hx' : ∀ x, expected = some x → x = t := by
            intro x e
            refine Classical.byContradiction fun hh => hx ⟨by rw [e]; rfl, ?_⟩
            rw [e]
            intro h
            injection h with h
            exact hh h
          by_cases htr : t = .tradSig
          · rw [if_pos htr]
            cases he : m.extra with
            | none =>
              refine ⟨fun h => (by cases h), ?_⟩
              rintro ⟨a', t', e1, _, e2, _, e4⟩
              cases e1
              rw [ht] at e2
              cases e2
              obtain ⟨c, l, e, _⟩ := e4 htr
              cases e
            | some l =>
              cases l with
              | nil =>
                refine ⟨fun h => (by cases h), ?_⟩
                rintro ⟨a', t', e1, _, e2, _, e4⟩
                cases e1
                rw [ht] at e2
                cases e2
                obtain ⟨c, l, e, _⟩ := e4 htr
                cases e
              | cons c l =>
                dsimp only
                by_cases hc : conform a (spki c) = true
                · rw [if_pos hc]
                  exact ⟨fun _ => ⟨a, t, rfl, rfl, ht, hx', fun _ => ⟨c, l, rfl, hc⟩⟩, fun _ => rfl⟩
                · rw [if_neg hc]
                  refine ⟨fun h => (by cases h), ?_⟩
                  rintro ⟨a', t', e1, _, e2, _, e4⟩
                  cases e1
                  rw [ht] at e2
                  cases e2
                  obtain ⟨c', l', e, h⟩ := e4 htr
                  cases e
                  exact absurd h hc
          · rw [if_neg htr]
            exact ⟨fun _ => ⟨a, t, rfl, rfl, ht, hx', fun h => absurd h htr⟩, fun _ => rfl⟩

/-- **C208 refuted.** The consistency is not checked for post-quantum, composite and stateful signatures: any certificate,
or none, will do. -/
theorem C208_field_refuted {C : Type} (typ : Oid → Except PyErr ProtType) (spki : C → AlgId) (m : AlgMsg C) (a : AlgId) (t : ProtType)
    (ha : m.alg = some a) (hv : m.value = true) (ht : typ a.oid = .ok t) (h : t = .pqSig ∨ t = .compositeSig ∨ t = .pqStateful) :
    checkAlgField typ spki m none true = .ok () := by
  refine (C208_field_iff ..).2 ⟨a, t, ha, hv, ht, fun x e => (by cases e), fun e => ?_⟩
  rw [e] at h
  rcases h with h | h | h <;> cases h

example : conform ⟨[2, 16, 840, 1, 101, 3, 4, 3, 33], none⟩ ⟨[2, 16, 840, 1, 101, 3, 4, 3, 18], none⟩ = true ∧
    conform ⟨[2, 16, 840, 1, 101, 3, 4, 3, 33], none⟩ ⟨[2, 16, 840, 1, 101, 3, 4, 3, 17], none⟩ = false ∧
    conform ⟨[1, 3, 6, 1, 5, 5, 7, 6, 37], none⟩ ⟨[1, 3, 6, 1, 5, 5, 7, 6, 38], none⟩ = true ∧
    conform ⟨[1, 2, 840, 113549, 1, 1, 10], some [1]⟩ ⟨[1, 2, 840, 113549, 1, 1, 10], some [2]⟩ = false ∧
    conform ⟨[1, 2, 840, 113549, 1, 1, 11], some [5, 0]⟩ ⟨[1, 2, 840, 10045, 2, 1], none⟩ = false := by decide +kernel

/-! ## C210: the signature of a message -/

/-- The signature algorithms of RFC 9481. -/
def msgSigOids : List Oid :=
  [[1, 3, 101, 112], [1, 3, 101, 113], [1, 2, 840, 113549, 1, 1, 14], [1, 2, 840, 113549, 1, 1, 11],
   [1, 2, 840, 113549, 1, 1, 12], [1, 2, 840, 113549, 1, 1, 13]] ++ pssOids ++ ecdsaOids

theorem msgSig_iff (o : Oid) : isMsgSig o = true ↔ o ∈ msgSigOids := by
  have hall : ∀ o ∈ ed25519Oid :: ed448Oid :: (rsaNames ++ pssNames ++ ecdsaNames).map (·.1),
      isMsgSig o = true ↔ o ∈ msgSigOids := by decide +kernel
  by_cases h : o ∈ ed25519Oid :: ed448Oid :: (rsaNames ++ pssNames ++ ecdsaNames).map (·.1)
  · exact hall o h
  · have hs : ∀ o ∈ msgSigOids, o ∈ ed25519Oid :: ed448Oid :: (rsaNames ++ pssNames ++ ecdsaNames).map (·.1) := by
      decide +kernel
    refine ⟨fun hh => ?_, fun hh => absurd (hs o hh) h⟩
    simp only [List.map_append, List.mem_cons, List.mem_append, not_or] at h
    obtain ⟨h1, h2, ⟨h3, h4⟩, h5⟩ := h
    unfold isMsgSig at hh
    rw [look_none h3, look_none h4, look_none h5] at hh
    simp [h1, h2] at hh

/-- The position of the first certificate which fits is 0 if and only if the first one fits. -/
theorem pos_zero {C : Type} (ok : C → Bool) (l : List C) : findCertPos ok 0 l = 0 ↔ ∃ c r, l = c :: r ∧ ok c = true := by
  have hge : ∀ (l : List C) (i : Nat), findCertPos ok (i + 1) l ≠ 0 := by
    intro l
    induction l with
    | nil => intro i; unfold findCertPos; decide
    | cons c l ih =>
      intro i
      unfold findCertPos
      split
      · omega
      · exact ih (i + 1)
  cases l with
  | nil => simp [findCertPos]
  | cons c r =>
    unfold findCertPos
    by_cases hc : ok c = true
    · rw [if_pos hc]
      exact ⟨fun _ => ⟨c, r, rfl, hc⟩, fun _ => rfl⟩
    · rw [if_neg hc]
      refine ⟨fun h => absurd h (hge r 0), ?_⟩
      rintro ⟨c', r', e, h⟩
      cases e
      exact absurd h hc

/-- The hash functions of the signature algorithms. -/
theorem hash_msg : ∀ o ∈ msgSigOids, ∃ h, hashOnly o = .ok h := by
  have : ∀ o ∈ msgSigOids, (match hashOnly o with
    | .ok _ => true
    | .error _ => false) = true := by decide +kernel
  intro o ho
  have := this o ho
  cases hh : hashOnly o with
  | ok h => exact ⟨h, rfl⟩
  | error e => rw [hh] at this; cases this

/-- **C210.** The protection is accepted if and only if the algorithm is one of RFC 9481 and consistent with the first
certificate, the checks of the sender pass, and the signature fits to the first certificate, twice: with the hash of the
algorithm and PKCS #1 v1.5, and as the algorithm says. -/
theorem C210_accepted_iff {C : Type} (env : SigProtEnv C) (m : AlgMsg C) (ht : ∀ o ∈ msgSigOids, env.typ o = .ok .tradSig) :
    checkSigProt env m true = .ok () ↔ ∃ a c l h, m.alg = some a ∧ m.value = true ∧ m.extra = some (c :: l) ∧ a.oid ∈ msgSigOids ∧
      conform a (env.spki c) = true ∧ env.sender = .ok () ∧ env.kid = .ok () ∧ hashOnly a.oid = .ok h ∧ env.plain c h = true ∧
      env.protection = .ok () := by
  unfold checkSigProt
  cases hv : m.value with
  | false => simp
  | true =>
    rw [if_neg (by simp)]
    cases ha : m.alg with
    | none => simp
    | some a =>
      dsimp only
      cases hm : isMsgSig a.oid with
      | false =>
        rw [if_pos rfl]
        refine ⟨fun h => (by cases h), ?_⟩
        rintro ⟨a', _, _, _, e1, _, _, e2, _⟩
        cases e1
        rw [(msgSig_iff _).2 e2] at hm
        cases hm
      | true =>
        rw [if_neg (by simp)]
        have hmem := (msgSig_iff _).1 hm
        obtain ⟨h, hh⟩ := hash_msg _ hmem
        have hf := C208_field_iff env.typ env.spki m none
        cases he : m.extra with
        | none => simp
        | some certs =>
          dsimp only
          cases hfi : checkAlgField env.typ env.spki m none true with
          | error e =>
            refine ⟨fun h => (by cases h), ?_⟩
            rintro ⟨a', c, l, _, e1, _, e2, e3, e4, _⟩
            cases e1
            have := hf.2 ⟨a, .tradSig, ha, hv, ht _ hmem, fun x e => (by cases e), fun _ => ⟨c, l, by rw [he]; exact e2, e4⟩⟩
            rw [hfi] at this
            cases this
          | ok u =>
            obtain ⟨a', t, e1, _, e2, _, e4⟩ := hf.1 hfi
            rw [ha] at e1
            cases e1
            rw [ht _ hmem] at e2
            cases e2
            obtain ⟨c, l, e5, e6⟩ := e4 rfl
            rw [he] at e5
            cases e5
            dsimp only
            cases hs : env.sender with
            | error e => simp
            | ok u =>
              dsimp only
              rw [if_pos rfl]
              cases hk : env.kid with
              | error e => simp
              | ok u =>
                dsimp only
                rw [hh]
                dsimp only
                by_cases hp : findCertPos (fun c => env.plain c h) 0 (c :: l) = 0
                · rw [if_pos hp]
                  obtain ⟨c', r, e, hpl⟩ := (pos_zero _ _).1 hp
                  cases e
                  constructor
                  · intro hpr
                    exact ⟨a, c, l, h, rfl, rfl, rfl, hmem, e6, rfl, rfl, hh, hpl, hpr⟩
                  · rintro ⟨_, _, _, _, _, _, _, _, _, _, _, _, _, hpr⟩
                    exact hpr
                · rw [if_neg hp]
                  refine ⟨fun h => (by cases h), ?_⟩
                  rintro ⟨a', c', l', h', e1, _, e2, _, _, _, _, e3, e4, _⟩
                  cases e1
                  cases e2
                  rw [hh] at e3
                  cases e3
                  exact absurd ((pos_zero _ _).2 ⟨c, l, rfl, e4⟩) hp

/-- **C210 refuted.** A message which is signed with RSASSA-PSS is refused, however valid its protection: the signature is
no PKCS #1 v1.5 signature. -/
theorem C210_pss_refuted {C : Type} (env : SigProtEnv C) (m : AlgMsg C) (ht : ∀ o ∈ msgSigOids, env.typ o = .ok .tradSig)
    (c : C) (l : List C) (hx : m.extra = some (c :: l)) (hp : ∀ h, env.plain c h = false) : checkSigProt env m true ≠ .ok () := by
  intro h
  obtain ⟨_, c', _, h', _, _, e, _, _, _, _, _, e2, _⟩ := (C210_accepted_iff env m ht).1 h
  rw [hx] at e
  cases e
  rw [hp h'] at e2
  cases e2

/-- **C210 refuted.** The keyword is for signature-based protection, but refuses every post-quantum, composite and stateful
signature, and ECDSA with SHA-3. -/
theorem C210_pq_refuted {C : Type} (env : SigProtEnv C) (m : AlgMsg C) (kid : Bool) (a : AlgId) (ha : m.alg = some a)
    (hv : m.value = true)
    (h : a.oid ∈ pqSets.map (·.1) ++ compSets.map (·.1) ++ statefulOids ++ ecdsa3Oids) : checkSigProt env m kid = .error .badAlg := by
  have key : ∀ o ∈ pqSets.map (·.1) ++ compSets.map (·.1) ++ statefulOids ++ ecdsa3Oids, isMsgSig o = false := by
    decide +kernel
  unfold checkSigProt
  rw [if_neg (by rw [hv]; simp), ha]
  dsimp only
  rw [if_pos (key _ h)]

/-- An environment where the certificate 1 fits. -/
def exSigProt : SigProtEnv Nat where
  typ := fun o => if o ∈ msgSigOids then .ok .tradSig else .error .unknownOID
  spki := fun _ => ⟨[1, 2, 840, 10045, 2, 1], none⟩
  sender := .ok ()
  kid := .ok ()
  plain := fun c _ => c == 1
  protection := .ok ()

example : checkSigProt exSigProt ⟨some ⟨[1, 2, 840, 10045, 4, 3, 2], none⟩, true, some [1, 2]⟩ = .ok () ∧
    checkSigProt exSigProt ⟨some ⟨[1, 2, 840, 10045, 4, 3, 2], none⟩, true, some [2, 1]⟩ = .error .badMessageCheck ∧
    checkSigProt exSigProt ⟨some ⟨[1, 2, 840, 113549, 1, 1, 11], none⟩, true, some [1]⟩ = .error .valueError ∧
    checkSigProt exSigProt ⟨some ⟨[1, 2, 840, 10045, 4, 3, 2], none⟩, true, none⟩ = .error .badMessageCheck := by decide +kernel

end Verif.Ra
