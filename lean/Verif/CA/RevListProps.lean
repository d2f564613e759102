import Verif.CA.RevList
import Verif.CA.CertDBLemmas

/-!
# C10, C11, C12, C21, C22, C23, C91, C92: revocation lists, OCSP, CRL, key reuse
-/

namespace Verif.CA

variable {C D P N R : Type}

/-! ## Specification vocabulary -/

/-- The elementary keys of a public key. -/
def PKey.comps : PKey P → List P
  | .plain p => [p]
  | .hybrid a b => [a, b]

/-- Two keys have an elementary key in common. -/
def SharesKey (k l : PKey P) : Prop := ∃ p, p ∈ k.comps ∧ p ∈ l.comps

/-! ## C21 -/

/-- C21 (add): any reason but `removeFromCRL` appends exactly this entry. -/
theorem C21_add [DecidableEq C] (l : List (RevEntry C D)) (e : RevEntry C D) (h : e.reason ≠ "removeFromCRL") :
    revAdd l [e] = l ++ [e] := by simp [revAdd, revAdd1, h]

/-- C21 (remove): `removeFromCRL` deletes the first entry of that certificate and nothing else. -/
theorem C21_remove_first [DecidableEq C] (l pre post : List (RevEntry C D)) (x e : RevEntry C D)
    (hr : e.reason = "removeFromCRL") (hl : l = pre ++ x :: post) (hx : x.cert = e.cert)
    (hp : ∀ y ∈ pre, y.cert ≠ e.cert) : revAdd l [e] = pre ++ post := by
  subst hl
  simp only [revAdd, revAdd1, hr, if_true]
  induction pre with
  | nil => simp [revRemove, hx]
  | cons y ys ih =>
    have h1 : e.cert ≠ y.cert := fun h => hp y (by simp) h.symm
    simp only [List.cons_append, revRemove, if_neg h1]
    rw [ih (fun z hz => hp z (by simp [hz]))]

/-- C21 (remove, absent): without an entry of that certificate nothing changes. -/
theorem C21_remove_absent [DecidableEq C] (l : List (RevEntry C D)) (e : RevEntry C D)
    (hr : e.reason = "removeFromCRL") (hp : ∀ y ∈ l, y.cert ≠ e.cert) : revAdd l [e] = l := by
  simp only [revAdd, revAdd1, hr, if_true]
  induction l with
  | nil => rfl
  | cons y ys ih =>
    have h1 : e.cert ≠ y.cert := fun h => hp y (by simp) h.symm
    simp only [revRemove, if_neg h1]
    rw [ih (fun z hz => hp z (by simp [hz]))]

/-- C21 (query): `is_revoked` is membership. -/
theorem C21_is_revoked [DecidableEq C] (l : List (RevEntry C D)) (c : C) :
    revIsRevoked c l = true ↔ c ∈ l.map (·.cert) := by
  induction l with
  | nil => simp [revIsRevoked]
  | cons e es ih =>
    simp only [revIsRevoked, List.map_cons, List.mem_cons]
    split
    · rename_i h; simp [h]
    · rename_i h; rw [ih]; simp [h]

/-- Number of entries of a certificate. -/
def revCount [DecidableEq C] (c : C) : List (RevEntry C D) → Nat
  | [] => 0
  | e :: es => (if e.cert = c then 1 else 0) + revCount c es

/-- Spec: the balance of additions and removals of `c`, where a removal of nothing does nothing. -/
def revBalance [DecidableEq C] (c : C) : Nat → List (RevEntry C D) → Nat
  | n, [] => n
  | n, e :: es =>
    if e.cert = c then revBalance c (if e.reason = "removeFromCRL" then n - 1 else n + 1) es
    else revBalance c n es

theorem revCount_append [DecidableEq C] (c : C) (l m : List (RevEntry C D)) :
    revCount c (l ++ m) = revCount c l + revCount c m := by
  induction l with
  | nil => simp [revCount]
  | cons e es ih => simp only [List.cons_append, revCount, ih]; omega

theorem revCount_remove [DecidableEq C] (c d : C) (l : List (RevEntry C D)) :
    revCount c (revRemove d l) = if d = c then revCount c l - 1 else revCount c l := by
  induction l with
  | nil => simp [revRemove, revCount]
  | cons e es ih =>
    simp only [revRemove]
    by_cases h : d = e.cert
    · rw [if_pos h]; simp only [revCount]
      by_cases h2 : d = c
      · rw [if_pos h2, if_pos (by rw [← h, h2])]; omega
      · rw [if_neg h2, if_neg (by rw [← h]; exact h2)]; omega
    · rw [if_neg h]; simp only [revCount, ih]
      by_cases h2 : d = c
      · rw [if_pos h2, if_pos h2, if_neg (by intro h3; exact h (h2.trans h3.symm))]; omega
      · rw [if_neg h2, if_neg h2]

/-- C21 (histories): after any sequence of additions the list holds, for every certificate, exactly as many
entries as the balance of its additions and removals; in particular `is_revoked` is "balance positive". -/
theorem C21_balance [DecidableEq C] (c : C) (es l : List (RevEntry C D)) :
    revCount c (revAdd l es) = revBalance c (revCount c l) es := by
  induction es generalizing l with
  | nil => rfl
  | cons e es ih =>
    simp only [revAdd, ih, revBalance]
    by_cases hc : e.cert = c
    · rw [if_pos hc]
      congr 1
      unfold revAdd1
      split
      · rw [revCount_remove, if_pos hc]
      · rw [revCount_append]; simp [revCount, hc]
    · rw [if_neg hc]
      congr 1
      unfold revAdd1
      split
      · rw [revCount_remove, if_neg hc]
      · rw [revCount_append]; simp [revCount, hc]

/-- C21: `is_revoked` after any history. -/
theorem C21_is_revoked_history [DecidableEq C] (c : C) (es l : List (RevEntry C D)) :
    revIsRevoked c (revAdd l es) = true ↔ 0 < revBalance c (revCount c l) es := by
  rw [← C21_balance]
  generalize revAdd l es = m
  induction m with
  | nil => simp [revIsRevoked, revCount]
  | cons e es ih =>
    simp only [revIsRevoked, revCount]
    by_cases h : c = e.cert
    · simp [h]; omega
    · rw [if_neg h, ih, if_neg (fun h2 => h h2.symm)]; omega

/-- Adding twice and reviving once leaves the certificate revoked. -/
example : revIsRevoked (7 : Nat) (revAdd ([] : List (RevEntry Nat Nat))
    [⟨"keyCompromise", 7, none⟩, ⟨"superseded", 7, none⟩, ⟨"removeFromCRL", 7, none⟩]) = true := by decide

/-! ## Hash queries: C91 -/

/-- Every entry's stored digest, if any, is the digest of its certificate. -/
def HashOK (H : C → D) (l : List (RevEntry C D)) : Prop := ∀ e ∈ l, ∀ d, e.hashed = some d → d = H e.cert

/-- C91 (true part): on lists whose stored digests belong to the list's hash algorithm, `contains_hash`
answers exactly for the digests of listed certificates. -/
theorem C91_contains_hash_partial [DecidableEq D] (H : C → D) (l : List (RevEntry C D)) (hl : HashOK H l) (d : D) :
    revContainsHash H d l = true ↔ ∃ e ∈ l, H e.cert = d := by
  induction l with
  | nil => simp [revContainsHash]
  | cons e es ih =>
    have h1 : e.hashed.getD (H e.cert) = H e.cert := by
      cases hh : e.hashed with
      | none => rfl
      | some x => simpa using hl e (by simp) x hh
    simp only [revContainsHash, h1]
    split
    · rename_i h; simp [h]
    · rename_i h
      rw [ih (fun x hx => hl x (by simp [hx]))]
      simp [h]

/-- C91 (true part): on such lists `get_by_hash` returns the first certificate with the digest. The digests it stores on the way
belong to the certificates, so that later queries are answered as before; nothing else in the list changes. -/
theorem C91_get_by_hash_partial [DecidableEq D] (H : C → D) (l : List (RevEntry C D)) (hl : HashOK H l) (d : D) :
    (revGetByHash H d l).1 = (l.map (·.cert)).find? (fun c => H c = d) ∧
    HashOK H (revGetByHash H d l).2 ∧
    (revGetByHash H d l).2.map (fun e => (e.cert, e.reason)) = l.map (fun e => (e.cert, e.reason)) := by
  induction l with
  | nil => exact ⟨rfl, hl, rfl⟩
  | cons e es ih =>
    have h1 : e.hashed.getD (H e.cert) = H e.cert := by
      cases hh : e.hashed with
      | none => rfl
      | some x => exact hl e (List.mem_cons_self ..) x hh
    have hes : HashOK H es := fun x hx => hl x (List.mem_cons_of_mem _ hx)
    obtain ⟨i1, i2, i3⟩ := ih hes
    simp only [revGetByHash, h1]
    by_cases hd : H e.cert = d
    · rw [if_pos hd]
      refine ⟨by simp [hd], ?_, rfl⟩
      intro x hx y hy
      rcases List.mem_cons.1 hx with rfl | hx
      · exact (Option.some.inj hy).symm
      · exact hes x hx y hy
    · rw [if_neg hd]
      refine ⟨by simp [hd, i1], ?_, by simp [i3]⟩
      intro x hx y hy
      rcases List.mem_cons.1 hx with rfl | hx
      · exact (Option.some.inj hy).symm
      · exact i2 x hx y hy

/-- C91 refuted: with a hash algorithm other than SHA-1, a certificate just added with `add_updated_cert`
is not recognised by `is_updated_by_hash`, because the stored digest is always SHA-1. -/
theorem C91_updated_lookup_refuted :
    ∃ (Hsha1 H : Nat → Nat) (s : RevState Nat Nat) (c : Nat),
      revContainsHash H (H c) (s.addUpdated Hsha1 c).upd = false :=
  ⟨fun x => x, fun x => x + 1, {}, 7, by decide⟩

/-- C91: the failure is general - it happens for every certificate whose two digests differ (first addition). -/
theorem C91_updated_lookup_fails [DecidableEq C] [DecidableEq D] (Hsha1 H : C → D) (s : RevState C D) (c : C)
    (h0 : s.upd = []) (h : Hsha1 c ≠ H c) : revContainsHash H (H c) (s.addUpdated Hsha1 c).upd = false := by
  simp [RevState.addUpdated, revAdd, revAdd1, h0, revContainsHash, h]

/-- C91: with SHA-1 as the list algorithm the lookup succeeds, whatever was added before. -/
theorem C91_updated_lookup_sha1_partial [DecidableEq C] [DecidableEq D] (H : C → D) (s : RevState C D) (c : C) :
    revContainsHash H (H c) (s.addUpdated H c).upd = true := by
  simp only [RevState.addUpdated, revAdd, revAdd1]
  rw [if_neg (by decide)]
  generalize s.upd = l
  induction l with
  | nil => simp [revContainsHash]
  | cons e es ih => simp only [List.cons_append, revContainsHash]; split <;> simp_all

/-! ## C10: OCSP -/

theorem revBySerial_spec (serial : C → Int) (n : Int) (l : List (RevEntry C D)) :
    (revBySerial serial n l = none ↔ n ∉ revSerials serial l) ∧
    (∀ c, revBySerial serial n l = some c → serial c = n ∧ c ∈ l.map (·.cert)) := by
  induction l with
  | nil => simp [revBySerial, revSerials]
  | cons e es ih =>
    simp only [revBySerial, revSerials, List.map_cons, List.mem_cons]
    split
    · rename_i h
      refine ⟨by simp [h], fun c hc => ?_⟩
      injection hc with hc; subst hc; exact ⟨h, .inl rfl⟩
    · rename_i h
      refine ⟨?_, fun c hc => ?_⟩
      · rw [ih.1]; simp only [revSerials, not_or]
        exact ⟨fun hh => ⟨fun h2 => h h2.symm, hh⟩, fun hh => hh.2⟩
      · exact ⟨(ih.2 c hc).1, .inr (ih.2 c hc).2⟩

theorem findSerial_spec (serial : C → Int) (n : Int) (l : List C) :
    (findSerial serial n l = none ↔ ∀ c ∈ l, serial c ≠ n) ∧
    (∀ c, findSerial serial n l = some c → serial c = n ∧ c ∈ l) := by
  induction l with
  | nil => simp [findSerial]
  | cons e es ih =>
    simp only [findSerial]
    split
    · rename_i h
      refine ⟨by simp [h], fun c hc => ?_⟩
      injection hc with hc; subst hc; exact ⟨h.symm, by simp⟩
    · rename_i h
      refine ⟨?_, fun c hc => ?_⟩
      · rw [ih.1]; simp only [List.mem_cons, forall_eq_or_imp]
        exact ⟨fun hh => ⟨fun h2 => h h2.symm, hh⟩, fun hh => hh.2⟩
      · exact ⟨(ih.2 c hc).1, by simp [(ih.2 c hc).2]⟩

/-- C10 (revoked): a serial number on the revoked list is always answered `revoked`, for a listed certificate
with this number, whatever is issued or updated. -/
theorem C10_revoked (serial : C → Int) (s : RevState C D) (n : Int) (issued : List C)
    (h : ∃ e ∈ s.rev, serial e.cert = n) :
    ∃ c, s.ocspResponse serial n issued = .ok (.status c .revoked) ∧ serial c = n ∧ c ∈ s.rev.map (·.cert) := by
  obtain ⟨e, he, hn⟩ := h
  have hm : n ∈ revSerials serial s.rev := by simp only [revSerials, List.mem_map]; exact ⟨e, he, hn⟩
  have hs := revBySerial_spec serial n s.rev
  cases hb : revBySerial serial n s.rev with
  | none => exact absurd hm (hs.1.mp hb)
  | some c =>
    refine ⟨c, ?_, hs.2 c hb⟩
    have : n ∈ s.nums serial := by simp [RevState.nums, hm]
    simp [RevState.ocspResponse, RevState.ocspStatus, this, hb]

/-- C10 (good): `good` is answered exactly when the serial number belongs to an issued certificate and is not on
the revoked list, nor on the updated list (when updates count as revoked). -/
theorem C10_good_iff (serial : C → Int) (s : RevState C D) (n : Int) (issued : List C) :
    (∃ c, s.ocspResponse serial n issued = .ok (.status c .good)) ↔
      (∃ c ∈ issued, serial c = n) ∧ (∀ e ∈ s.rev, serial e.cert ≠ n) ∧
      (s.updEqRev = true → ∀ e ∈ s.upd, serial e.cert ≠ n) := by
  have hf := findSerial_spec serial n issued
  have hn : n ∈ s.nums serial ↔ ¬ ((∀ e ∈ s.rev, serial e.cert ≠ n) ∧
      (s.updEqRev = true → ∀ e ∈ s.upd, serial e.cert ≠ n)) := by
    simp only [RevState.nums, List.mem_append, revSerials, List.mem_map]
    cases hu : s.updEqRev
    · simp
    · simp only [if_true, List.mem_map, true_implies, Classical.not_and_iff_not_or_not]
      constructor
      · rintro (⟨e, he, h⟩ | ⟨e, he, h⟩)
        · exact .inl (fun hh => hh e he h)
        · exact .inr (fun hh => hh e he h)
      · rintro (h | h)
        · left; exact Classical.byContradiction (fun hc => h (fun e he h2 => hc ⟨e, he, h2⟩))
        · right; exact Classical.byContradiction (fun hc => h (fun e he h2 => hc ⟨e, he, h2⟩))
  by_cases hm : n ∈ s.nums serial
  · have hno : ¬ ∃ c, s.ocspResponse serial n issued = .ok (.status c .good) := by
      rintro ⟨c, hc⟩
      simp only [RevState.ocspResponse, RevState.ocspStatus, if_pos hm] at hc
      cases hb : revBySerial serial n s.rev <;> simp [hb] at hc
    exact ⟨fun h => absurd h hno, fun h => absurd h.2 (hn.mp hm)⟩
  · have h2 : (∀ e ∈ s.rev, serial e.cert ≠ n) ∧ (s.updEqRev = true → ∀ e ∈ s.upd, serial e.cert ≠ n) :=
      Classical.byContradiction (fun h => hm (hn.mpr h))
    simp only [RevState.ocspResponse, RevState.ocspStatus, if_neg hm]
    cases hfs : findSerial serial n issued with
    | none =>
      have := hf.1.mp hfs
      constructor
      · rintro ⟨c, hc⟩; simp at hc
      · rintro ⟨⟨c, hc, h3⟩, _⟩; exact absurd h3 (this c hc)
    | some c =>
      have := hf.2 c hfs
      refine ⟨fun _ => ⟨⟨c, this.2, this.1⟩, h2⟩, fun _ => ⟨c, rfl⟩⟩

/-- C10 (unknown): exactly the serial numbers the CA does not know are answered `unauthorized`. -/
theorem C10_unauthorized_iff (serial : C → Int) (s : RevState C D) (n : Int) (issued : List C) :
    s.ocspResponse serial n issued = .ok .unauthorized ↔
      n ∉ s.nums serial ∧ ∀ c ∈ issued, serial c ≠ n := by
  have hf := findSerial_spec serial n issued
  simp only [RevState.ocspResponse, RevState.ocspStatus]
  by_cases hm : n ∈ s.nums serial
  · rw [if_pos hm]
    cases hb : revBySerial serial n s.rev <;> simp [hm]
  · rw [if_neg hm]
    cases hfs : findSerial serial n issued with
    | none => simp [hm]; exact hf.1.mp hfs
    | some c =>
      have := hf.2 c hfs
      simp only [Except.ok.injEq, reduceCtorEq, false_iff, not_and]
      exact fun _ h => h c this.2 this.1

/-- The answer for the certificate database, by the states of its entries: a REVOKED entry is answered
`revoked`, on every reachable or unreachable database. -/
theorem C10_db_revoked (H : C → D) (serial : C → Int) (db : DB C D R) (k : Int) (add : List C) (e : Entry C D R)
    (he : e ∈ db.certs) (hs : e.state = .revoked) :
    ∃ c, db.ocspResponse H serial k add (serial e.cert) = .ok (.status c .revoked) ∧ serial c = serial e.cert := by
  obtain ⟨c, h1, h2, _⟩ := C10_revoked serial (db.revState H k) (serial e.cert) (db.issuedCerts ++ add) (by
    refine ⟨{ reason := "unspecified", cert := e.cert, hashed := some (H e.cert) }, ?_, rfl⟩
    simp only [DB.revState, RevState.build, List.mem_map]
    refine ⟨e.cert, ?_, rfl⟩
    simp only [DB.revokedCerts, DB.byState, List.mem_map, List.mem_filter]
    exact ⟨e, ⟨he, by simp [hs]⟩, rfl⟩)
  exact ⟨c, h1, h2⟩

/-- C10 (database, good only for certificates in force): if the CA answers `good` for a serial number, then no
entry with this number is REVOKED, UPDATED or UPDATED_BUT_NOT_CONFIRMED and the number belongs to a CONFIRMED
or REVIVED (or unused-state) entry or to one of the CA's own certificates. -/
theorem C10_db_good (H : C → D) (serial : C → Int) (db : DB C D R) (k : Int) (add : List C) (n : Int) (c : C)
    (h : db.ocspResponse H serial k add n = .ok (.status c .good)) :
    (∀ e ∈ db.certs, serial e.cert = n → e.state ≠ .revoked ∧ e.state ≠ .updated ∧ e.state ≠ .updatedNotConfirmed) ∧
    ((∃ e ∈ db.certs, serial e.cert = n ∧ e.state ≠ .notConfirmed) ∨ ∃ a ∈ add, serial a = n) := by
  have hg := (C10_good_iff serial (db.revState H k) n (db.issuedCerts ++ add)).mp ⟨c, h⟩
  obtain ⟨⟨x, hx, hxn⟩, hr, hu⟩ := hg
  have hu := hu rfl
  have key : ∀ e ∈ db.certs, serial e.cert = n → ∀ st, e.state = st →
      (st = .revoked ∨ st = .updated ∨ st = .updatedNotConfirmed) → False := by
    intro e he hn st hst hor
    subst hst
    rcases hor with h1 | h1 | h1
    · refine hr ⟨"unspecified", e.cert, some (H e.cert)⟩ ?_ hn
      simp only [DB.revState, RevState.build, List.mem_map, DB.revokedCerts, DB.byState, List.mem_filter]
      exact ⟨e.cert, ⟨e, ⟨he, by simp [h1]⟩, rfl⟩, rfl⟩
    · refine hu ⟨"unspecified", e.cert, some (H e.cert)⟩ ?_ hn
      simp only [DB.revState, RevState.build, List.mem_map, DB.updatedCerts, DB.byState, List.mem_filter, List.mem_append]
      exact ⟨e.cert, .inl ⟨e, ⟨he, by simp [h1]⟩, rfl⟩, rfl⟩
    · refine hu ⟨"unspecified", e.cert, some (H e.cert)⟩ ?_ hn
      simp only [DB.revState, RevState.build, List.mem_map, DB.updatedCerts, DB.byState, List.mem_filter, List.mem_append]
      exact ⟨e.cert, .inr ⟨e, ⟨he, by simp [h1]⟩, rfl⟩, rfl⟩
  refine ⟨fun e he hn => ⟨fun hs => key e he hn _ hs (.inl rfl), fun hs => key e he hn _ hs (.inr (.inl rfl)),
    fun hs => key e he hn _ hs (.inr (.inr rfl))⟩, ?_⟩
  rcases List.mem_append.mp hx with hx | hx
  · left
    simp only [DB.issuedCerts, List.mem_map, List.mem_filter] at hx
    obtain ⟨e, ⟨he, hs⟩, rfl⟩ := hx
    refine ⟨e, he, hxn, ?_⟩
    intro h; simp [h] at hs
  · exact .inr ⟨x, hx, hxn⟩

/-- C92: "the OCSP responder answers for every certificate of the CA" is false: for every certificate that is
updated (confirmed or not) and whose serial number is not also revoked, the call raises `NotImplementedError`. -/
theorem C92_updated_raises (H : C → D) (serial : C → Int) (db : DB C D R) (k : Int) (add : List C) (e : Entry C D R)
    (he : e ∈ db.certs) (hs : e.state = .updated ∨ e.state = .updatedNotConfirmed)
    (hr : ∀ x ∈ db.certs, x.state = .revoked → serial x.cert ≠ serial e.cert) :
    db.ocspResponse H serial k add (serial e.cert) = .error .notImplemented := by
  have hm : serial e.cert ∈ (db.revState H k).nums serial := by
    simp only [RevState.nums, DB.revState, RevState.build, if_true, List.mem_append, revSerials, List.map_map, List.mem_map]
    right
    refine ⟨e.cert, ?_, rfl⟩
    simp only [DB.updatedCerts, DB.byState, List.mem_append, List.mem_map, List.mem_filter]
    rcases hs with hs | hs
    · exact .inl ⟨e, ⟨he, by simp [hs]⟩, rfl⟩
    · exact .inr ⟨e, ⟨he, by simp [hs]⟩, rfl⟩
  have hb : revBySerial serial (serial e.cert) (db.revState H k).rev = none := by
    rw [(revBySerial_spec serial _ _).1]
    simp only [DB.revState, RevState.build, revSerials, List.map_map, List.mem_map, DB.revokedCerts, DB.byState,
      List.mem_filter]
    rintro ⟨y, ⟨hy, hst⟩, h⟩
    exact hr y hy (by simpa using hst) h
  simp [DB.ocspResponse, RevState.ocspResponse, RevState.ocspStatus, hm, hb]

/-- C92 refuted by a reachable database: enrol, confirm, update. -/
theorem C92_refuted : ∃ (ops : List (DBOp Nat Nat)) (n : Int),
    (DB.ocspResponse id (fun (c : Nat) => (c : Int)) (DB.run id ({} : DB Nat Nat Nat) ops) 1 [] n) = .error .notImplemented ∧
    n ∈ ((DB.run id ({} : DB Nat Nat Nat) ops).issuedCerts.map (fun c : Nat => (c : Int))) :=
  ⟨[.add 5 .confirmed 0, .add 6 .confirmed 0, .change 5 .updated none (some 6) 0], 5, by decide⟩

/-- C92 (true part): an answer is given unless the serial number is listed as updated only. -/
theorem C92_answered_partial (serial : C → Int) (s : RevState C D) (n : Int) (issued : List C)
    (h : (∃ e ∈ s.rev, serial e.cert = n) ∨ n ∉ s.nums serial) :
    ∃ a, s.ocspResponse serial n issued = .ok a := by
  rcases h with h | h
  · obtain ⟨c, hc, _⟩ := C10_revoked serial s n issued h; exact ⟨_, hc⟩
  · simp only [RevState.ocspResponse, RevState.ocspStatus, if_neg h]
    cases findSerial serial n issued <;> exact ⟨_, rfl⟩

/-! ## C11: CRL -/

/-- C11 (contents of a CRL of the database): a serial number is listed iff a stored certificate with this number is
REVOKED, UPDATED or UPDATED_BUT_NOT_CONFIRMED. -/
theorem C11_db_contents (H : C → D) (serial : C → Int) (db : DB C D R) (k : Int) (num : Int) (nums : List Int)
    (h : db.currentCrl H serial k true = .ok (num, nums)) (n : Int) :
    n ∈ nums ↔ ∃ e ∈ db.certs, serial e.cert = n ∧
      (e.state = .revoked ∨ e.state = .updated ∨ e.state = .updatedNotConfirmed) := by
  simp only [DB.currentCrl, RevState.crlResponse, if_true, Except.ok.injEq, Prod.mk.injEq] at h
  obtain ⟨_, rfl⟩ := h
  simp only [RevState.nums, DB.revState, RevState.build, if_true, List.mem_append, revSerials, List.map_map,
    List.mem_map, DB.updatedCerts, DB.revokedCerts, DB.byState, List.mem_filter, decide_eq_true_eq, Function.comp_def]
  constructor
  · rintro (⟨e, ⟨he, hs⟩, rfl⟩ | ⟨x, (⟨e, ⟨he, hs⟩, rfl⟩ | ⟨e, ⟨he, hs⟩, rfl⟩), rfl⟩)
    · exact ⟨e, he, rfl, .inl hs⟩
    · exact ⟨e, he, rfl, .inr (.inl hs)⟩
    · exact ⟨e, he, rfl, .inr (.inr hs)⟩
  · rintro ⟨e, he, rfl, hs | hs | hs⟩
    · exact .inl ⟨e, ⟨he, hs⟩, rfl⟩
    · exact .inr ⟨e.cert, .inl ⟨e, ⟨he, hs⟩, rfl⟩, rfl⟩
    · exact .inr ⟨e.cert, .inr ⟨e, ⟨he, hs⟩, rfl⟩, rfl⟩

/-- C11 refuted (numbers): whatever happens to the database between two CRLs, both carry the same number. -/
theorem C11_db_number_constant_refuted [DecidableEq D] (H : C → D) (serial : C → Int) (db : DB C D R) (k : Int)
    (ops : List (DBOp C R)) (r r' : Int × List Int)
    (h : db.currentCrl H serial k true = .ok r) (h' : (db.run H ops).currentCrl H serial k true = .ok r') :
    r.1 = r'.1 := by
  simp only [DB.currentCrl, RevState.crlResponse, if_true, Except.ok.injEq] at h h'
  rw [← h, ← h']; rfl

/-- Calls on one `CertRevStateDB`. -/
inductive RevOp (C D : Type) where
  | addRev (es : List (RevEntry C D))
  | addUpd (c : C)
  | crl (buildOk : Bool)

/-- Histories on one `CertRevStateDB`: the numbers of the CRLs issued, and the final state. -/
def revRun [DecidableEq C] (Hs : C → D) (serial : C → Int) (s : RevState C D) : List (RevOp C D) → List Int × RevState C D
  | [] => ([], s)
  | .addRev es :: ops => revRun Hs serial (s.addRev es) ops
  | .addUpd c :: ops => revRun Hs serial (s.addUpdated Hs c) ops
  | .crl ok :: ops =>
    let r := s.crlResponse serial ok
    let rest := revRun Hs serial r.2 ops
    (match r.1 with | .ok (n, _) => n :: rest.1 | .error _ => rest.1, rest.2)

theorem revRun_bounds [DecidableEq C] (Hs : C → D) (serial : C → Int) (ops : List (RevOp C D)) (s : RevState C D) :
    (∀ n ∈ (revRun Hs serial s ops).1, s.crlNumber ≤ n) ∧ ((revRun Hs serial s ops).1).Pairwise (· < ·) := by
  induction ops generalizing s with
  | nil => simp [revRun]
  | cons op ops ih =>
    cases op with
    | addRev es => exact ih (s.addRev es)
    | addUpd c => exact ih (s.addUpdated Hs c)
    | crl ok =>
      have h := ih (s.crlResponse serial ok).2
      have hc : (s.crlResponse serial ok).2.crlNumber = s.crlNumber + 1 := by
        unfold RevState.crlResponse; cases ok <;> rfl
      rw [hc] at h
      have hr : (s.crlResponse serial ok).1 = if ok then .ok (s.crlNumber, s.nums serial) else .error .valueError := by
        unfold RevState.crlResponse; cases ok <;> rfl
      simp only [revRun, hr]
      cases ok with
      | false => exact ⟨fun n hn => by have := h.1 n hn; omega, h.2⟩
      | true =>
        simp only [if_true, List.mem_cons, forall_eq_or_imp, List.pairwise_cons]
        exact ⟨⟨Int.le_refl _, fun n hn => by have := h.1 n hn; omega⟩,
          fun n hn => by have := h.1 n hn; omega, h.2⟩

/-- C11 (numbers, for a persistent `CertRevStateDB`): the numbers of the CRLs issued in any history are strictly
increasing. -/
theorem C11_numbers_increase_partial [DecidableEq C] (Hs : C → D) (serial : C → Int) (ops : List (RevOp C D))
    (s : RevState C D) : ((revRun Hs serial s ops).1).Pairwise (· < ·) := (revRun_bounds Hs serial ops s).2

/-- Three CRLs, one of them failing to be signed. -/
example : (revRun (id : Nat → Nat) (fun c => (c : Int)) {} [.crl true, .addUpd 5, .crl false, .crl true]).1 = [1, 3] := by
  decide

/-- Refutation instance: two CRLs around a revocation have number 1. -/
example : (DB.currentCrl id (fun (c : Nat) => (c : Int)) ({} : DB Nat Nat Nat) 1 true) = .ok (1, []) ∧
    (DB.currentCrl id (fun (c : Nat) => (c : Int))
      (DB.run id ({} : DB Nat Nat Nat) [.add 5 .confirmed 0, .change 5 .revoked none none 0]) 1 true) = .ok (1, [5]) := by
  decide

/-! ## C12: compromised keys -/

theorem mem_compromised (keyOf : C → PKey P) (l : List (RevEntry C D)) (k : PKey P) :
    k ∈ compromisedKeys keyOf l ↔
      ∃ e ∈ l, k = keyOf e.cert ∨ ∃ p ∈ (keyOf e.cert).comps, k = .plain p := by
  induction l with
  | nil => simp [compromisedKeys]
  | cons e es ih =>
    simp only [compromisedKeys]
    cases hk : keyOf e.cert with
    | plain p => simp [ih, hk, PKey.comps]
    | hybrid a b =>
      simp only [List.mem_cons, ih, exists_eq_or_imp, hk, PKey.comps, List.not_mem_nil, or_false]
      constructor
      · rintro (h | h | h | h)
        · exact .inl (.inr (.inl h))
        · exact .inl (.inr (.inr ⟨b, rfl, h⟩))
        · exact .inl (.inl h)
        · exact .inr h
      · rintro ((h | (h | ⟨_, rfl, h⟩)) | h)
        · exact .inr (.inr (.inl h))
        · exact .inl h
        · exact .inr (.inl h)
        · exact .inr (.inr (.inr h))

/-- `contains_key` is: some elementary key in common with a listed certificate. -/
theorem contains_iff [DecidableEq P] (keyOf : C → PKey P) (l : List (RevEntry C D)) (k : PKey P) :
    revContainsKey keyOf l k = true ↔ ∃ e ∈ l, SharesKey k (keyOf e.cert) := by
  have hplain : ∀ p : P, PKey.plain p ∈ compromisedKeys keyOf l ↔ ∃ e ∈ l, p ∈ (keyOf e.cert).comps := by
    intro p
    rw [mem_compromised]
    constructor
    · rintro ⟨e, he, h | ⟨q, hq, h⟩⟩
      · exact ⟨e, he, by simp [← h, PKey.comps]⟩
      · injection h with h; exact ⟨e, he, h ▸ hq⟩
    · rintro ⟨e, he, h⟩; exact ⟨e, he, .inr ⟨p, h, rfl⟩⟩
  cases k with
  | plain p =>
    simp only [revContainsKey, decide_eq_true_eq, hplain, SharesKey, PKey.comps, List.mem_singleton, exists_eq_left]
  | hybrid a b =>
    simp only [revContainsKey, Bool.or_eq_true, decide_eq_true_eq, hplain, SharesKey, PKey.comps, List.mem_cons,
      List.not_mem_nil, or_false]
    constructor
    · rintro ((⟨e, he, h⟩ | ⟨e, he, h⟩) | h)
      · exact ⟨e, he, a, .inl rfl, h⟩
      · exact ⟨e, he, b, .inr rfl, h⟩
      · obtain ⟨e, he, h | ⟨q, _, h⟩⟩ := (mem_compromised _ _ _).mp h
        · exact ⟨e, he, a, .inl rfl, by simp [← h, PKey.comps]⟩
        · simp at h
    · rintro ⟨e, he, p, rfl | rfl, h⟩
      · exact .inl (.inl ⟨e, he, h⟩)
      · exact .inl (.inr ⟨e, he, h⟩)

/-- The claim C12 for a request: the body type is a certification request and some requested key shares an
elementary key with a revoked certificate. -/
def ReqCompromised (keyOf : C → PKey P) (s : RevState C D) (body : String) (csrKey : PKey P)
    (entries : List (Option (PKey P))) : Prop :=
  (body = "p10cr" ∧ ∃ e ∈ s.rev, SharesKey csrKey (keyOf e.cert)) ∨
  ((body = "ir" ∨ body = "cr" ∨ body = "kur" ∨ body = "ccr") ∧
    ∃ k, some k ∈ entries ∧ ∃ e ∈ s.rev, SharesKey k (keyOf e.cert))

theorem loop_iff [DecidableEq P] (keyOf : C → PKey P) (l : List (RevEntry C D)) (ks : List (Option (PKey P))) :
    compromisedLoop keyOf l ks = true ↔
      ∃ pre k post, ks = pre ++ some k :: post ∧ (∀ x ∈ pre, x ≠ none) ∧ ∃ e ∈ l, SharesKey k (keyOf e.cert) := by
  induction ks with
  | nil => simp [compromisedLoop]
  | cons x xs ih =>
    cases x with
    | none =>
      simp only [compromisedLoop, Bool.false_eq_true, false_iff]
      rintro ⟨pre, k, post, h, hp, _⟩
      cases pre with
      | nil => simp at h
      | cons y ys => simp at h; exact hp y (by simp) h.1.symm
    | some k =>
      simp only [compromisedLoop]
      by_cases hc : revContainsKey keyOf l k = true
      · rw [if_pos hc]
        simp only [true_iff]
        exact ⟨[], k, xs, rfl, by simp, (contains_iff _ _ _).mp hc⟩
      · rw [if_neg hc, ih]
        constructor
        · rintro ⟨pre, k', post, h, hp, he⟩
          exact ⟨some k :: pre, k', post, by simp [h], by simpa using hp, he⟩
        · rintro ⟨pre, k', post, h, hp, he⟩
          cases pre with
          | nil =>
            simp at h; obtain ⟨rfl, _⟩ := h
            exact absurd ((contains_iff _ _ _).mpr he) hc
          | cons y ys =>
            simp at h
            exact ⟨ys, k', post, h.2, fun z hz => hp z (by simp [hz]), he⟩

/-- C12 (exact behaviour): the check answers `True` exactly for a `p10cr` with a compromised key, or for
ir/cr/kur (and the non-existing type `crr`) with a compromised key that no key-less template precedes. -/
theorem C12_exact [DecidableEq P] (keyOf : C → PKey P) (s : RevState C D) (body : String) (csrKey : PKey P)
    (entries : List (Option (PKey P))) :
    s.checkCompromised keyOf body csrKey entries = true ↔
      (body = "p10cr" ∧ ∃ e ∈ s.rev, SharesKey csrKey (keyOf e.cert)) ∨
      ((body = "ir" ∨ body = "cr" ∨ body = "crr" ∨ body = "kur") ∧
        ∃ pre k post, entries = pre ++ some k :: post ∧ (∀ x ∈ pre, x ≠ none) ∧
          ∃ e ∈ s.rev, SharesKey k (keyOf e.cert)) := by
  simp only [RevState.checkCompromised]
  by_cases h1 : body = "p10cr"
  · subst h1; rw [if_pos rfl, contains_iff]; simp
  · rw [if_neg h1]
    by_cases h2 : body = "ir" ∨ body = "cr" ∨ body = "crr" ∨ body = "kur"
    · rw [if_pos h2, loop_iff]; simp [h1, h2]
    · rw [if_neg h2]; simp [h1, h2]

/-- C12 refuted, first way: a `ccr` for a revoked key passes. -/
theorem C12_ccr_refuted : ∃ (s : RevState Nat Nat) (k : PKey Nat),
    ReqCompromised (fun c => PKey.plain c) s "ccr" (.plain 0) [some k] ∧
    s.checkCompromised (fun c => PKey.plain c) "ccr" (.plain 0) [some k] = false :=
  ⟨{ rev := [⟨"keyCompromise", 7, none⟩] }, .plain 7,
    .inr ⟨by decide, .plain 7, by simp, ⟨"keyCompromise", 7, none⟩, by simp, 7, by simp [PKey.comps], by simp [PKey.comps]⟩,
    by decide⟩

/-- C12 refuted, second way: in an `ir` the template after a key-less one is not checked. -/
theorem C12_keyless_refuted : ∃ (s : RevState Nat Nat) (k : PKey Nat),
    ReqCompromised (fun c => PKey.plain c) s "ir" (.plain 0) [none, some k] ∧
    s.checkCompromised (fun c => PKey.plain c) "ir" (.plain 0) [none, some k] = false :=
  ⟨{ rev := [⟨"keyCompromise", 7, none⟩] }, .plain 7,
    .inr ⟨by decide, .plain 7, by simp, ⟨"keyCompromise", 7, none⟩, by simp, 7, by simp [PKey.comps], by simp [PKey.comps]⟩,
    by decide⟩

/-- C12 (true part): the claim holds for all requests other than `ccr` in which every template has a key. -/
theorem C12_detects_partial [DecidableEq P] (keyOf : C → PKey P) (s : RevState C D) (body : String) (csrKey : PKey P)
    (entries : List (Option (PKey P))) (hb : body ≠ "ccr") (hk : none ∉ entries)
    (h : ReqCompromised keyOf s body csrKey entries) : s.checkCompromised keyOf body csrKey entries = true := by
  rw [C12_exact]
  rcases h with h | ⟨hbody, k, hk', he⟩
  · exact .inl h
  · refine .inr ⟨by rcases hbody with h | h | h | h <;> simp_all, ?_⟩
    obtain ⟨pre, post, hsplit⟩ := List.append_of_mem hk'
    exact ⟨pre, k, post, hsplit, fun x hx hn => hk (by rw [hsplit]; simp [← hn, hx]), he⟩

/-- C12 (no false alarms) for the types the CA handles. -/
theorem C12_sound [DecidableEq P] (keyOf : C → PKey P) (s : RevState C D) (body : String) (csrKey : PKey P)
    (entries : List (Option (PKey P))) (hb : body ≠ "crr") (h : s.checkCompromised keyOf body csrKey entries = true) :
    ReqCompromised keyOf s body csrKey entries := by
  rcases (C12_exact keyOf s body csrKey entries).mp h with h | ⟨hbody, pre, k, post, hs, _, he⟩
  · exact .inl h
  · refine .inr ⟨by rcases hbody with h | h | h | h <;> simp_all, k, by simp [hs], he⟩

/-! ## C22, C23: key reuse -/

/-- Spec: `c` is a certificate of this subject carrying the key (or sharing an elementary key with it). -/
def Carries (subj : C → N) (keyOf : C → PKey P) (k : PKey P) (sender : N) (c : C) : Prop :=
  subj c = sender ∧ SharesKey k (keyOf c)

/-- Traditional and post-quantum keys are different objects: no elementary key is used in both roles. -/
def RolesDisjoint (isTrad : P → Bool) : PKey P → Prop
  | .plain _ => True
  | .hybrid pq trad => isTrad pq = false ∧ isTrad trad = true

theorem compareKeys_iff [DecidableEq P] (isTrad : P → Bool) (k l : PKey P) (hk : RolesDisjoint isTrad k)
    (hl : RolesDisjoint isTrad l) : compareKeys k l = true ↔ SharesKey k l := by
  cases k <;> cases l <;>
    simp only [compareKeys, SharesKey, PKey.comps, decide_eq_true_eq, List.mem_cons, List.not_mem_nil, or_false,
      RolesDisjoint, PKey.hybrid.injEq, exists_eq_left, exists_eq_or_imp] at *
  · exact or_comm
  · constructor
    · rintro (rfl | rfl) <;> simp
    · rintro (rfl | rfl) <;> simp
  · rename_i a b c d
    constructor
    · rintro (⟨rfl, rfl⟩ | rfl | rfl | rfl) <;> simp
    · rintro ((rfl | rfl) | (rfl | rfl)) <;> simp_all

/-- Without the role assumption the comparison misses one combination (traditional key of the request equal to
the post-quantum key of the certificate). -/
theorem compareKeys_gap : compareKeys (PKey.hybrid 1 2) (PKey.hybrid 2 3) = false ∧
    SharesKey (PKey.hybrid 1 2) (PKey.hybrid 2 3) :=
  ⟨by decide, 2, by simp [PKey.comps], by simp [PKey.comps]⟩

theorem containsPubKey_iff [DecidableEq P] [DecidableEq N] (isTrad : P → Bool) (subj : C → N) (keyOf : C → PKey P)
    (k : PKey P) (sender : N) (hk : RolesDisjoint isTrad k) (l : List C)
    (hl : ∀ c ∈ l, RolesDisjoint isTrad (keyOf c)) :
    containsPubKey subj keyOf k sender l = true ↔ ∃ c ∈ l, Carries subj keyOf k sender c := by
  induction l with
  | nil => simp [containsPubKey]
  | cons c cs ih =>
    have ih := ih (fun c hc => hl c (by simp [hc]))
    have h1 := compareKeys_iff isTrad k (keyOf c) hk (hl c (by simp))
    simp only [containsPubKey, List.mem_cons, exists_eq_or_imp]
    by_cases hs : sender = subj c
    · rw [if_neg (by simpa using hs)]
      by_cases hc : compareKeys k (keyOf c) = true
      · rw [if_pos hc]; simp only [true_iff]; exact .inl ⟨hs.symm, h1.mp hc⟩
      · rw [if_neg hc, ih]
        simp [Carries, ← h1, hc]
    · rw [if_pos hs, ih]
      constructor
      · exact .inr
      · rintro (h | h)
        · exact absurd h.1.symm hs
        · exact h

/-- C22: `check_cert_status` reports the most severe status of any certificate of the subject carrying the key. -/
theorem C22_status [DecidableEq P] [DecidableEq N] (isTrad : P → Bool) (subj : C → N) (keyOf : C → PKey P)
    (issued revoked updated : List C) (k : PKey P) (sender : N) (hk : RolesDisjoint isTrad k)
    (hl : ∀ c ∈ issued ++ revoked ++ updated, RolesDisjoint isTrad (keyOf c)) :
    let st := checkCertStatus subj keyOf issued revoked updated k sender
    let carried := fun l : List C => ∃ c ∈ l, Carries subj keyOf k sender c
    (st = .revoked ↔ carried revoked) ∧
    (st = .updated ↔ ¬ carried revoked ∧ carried updated) ∧
    (st = .inUse ↔ ¬ carried revoked ∧ ¬ carried updated ∧ carried issued) ∧
    (st = .good ↔ ¬ carried revoked ∧ ¬ carried updated ∧ ¬ carried issued) := by
  have h1 := containsPubKey_iff isTrad subj keyOf k sender hk revoked (fun c hc => hl c (by simp [hc]))
  have h2 := containsPubKey_iff isTrad subj keyOf k sender hk updated (fun c hc => hl c (by simp [hc]))
  have h3 := containsPubKey_iff isTrad subj keyOf k sender hk issued (fun c hc => hl c (by simp [hc]))
  simp only [checkCertStatus, ← h1, ← h2, ← h3]
  cases containsPubKey subj keyOf k sender revoked <;> cases containsPubKey subj keyOf k sender updated <;>
    cases containsPubKey subj keyOf k sender issued <;> simp

/-- C22 on a concrete database of hybrid and plain keys: component 2 of the hybrid key is revoked for subject 1. -/
example : checkCertStatus (fun c : Nat × PKey Nat => c.1) (·.2) [(1, .plain 2), (1, .plain 3)] [(1, .hybrid 10 2)]
    [(1, .plain 2)] (.plain 2) 1 = .revoked := by decide

/-- C23 (exact behaviour): `contains_pub_key` finds exactly the keys of stored certificates of the *same subject*
that are not UPDATED_BUT_NOT_CONFIRMED. -/
theorem C23_exact [DecidableEq P] [DecidableEq N] (isTrad : P → Bool) (subj : C → N) (keyOf : C → PKey P)
    (db : DB C D R) (k : PKey P) (sender : N) (hk : RolesDisjoint isTrad k)
    (hl : ∀ e ∈ db.certs, RolesDisjoint isTrad (keyOf e.cert)) :
    db.containsPubKey subj keyOf k sender = true ↔
      ∃ e ∈ db.certs, e.state ≠ .updatedNotConfirmed ∧ Carries subj keyOf k sender e.cert := by
  unfold DB.containsPubKey
  rw [containsPubKey_iff isTrad subj keyOf k sender hk]
  · simp only [List.append_nil, List.mem_append, DB.issuedCerts, DB.notConfirmedCerts, DB.byState, List.mem_map,
      List.mem_filter, decide_eq_true_eq, not_or]
    constructor
    · rintro ⟨c, (⟨e, ⟨he, h1, h2⟩, rfl⟩ | ⟨e, ⟨he, h1⟩, rfl⟩), hc⟩
      · exact ⟨e, he, h2, hc⟩
      · exact ⟨e, he, by simp [h1], hc⟩
    · rintro ⟨e, he, hs, hc⟩
      refine ⟨e.cert, ?_, hc⟩
      by_cases h : e.state = .notConfirmed
      · exact .inr ⟨e, ⟨he, h⟩, rfl⟩
      · exact .inl ⟨e, ⟨he, h, hs⟩, rfl⟩
  · intro c hc
    simp only [List.append_nil, List.mem_append, DB.issuedCerts, DB.notConfirmedCerts, DB.byState, List.mem_map,
      List.mem_filter] at hc
    rcases hc with ⟨e, ⟨he, _⟩, rfl⟩ | ⟨e, ⟨he, _⟩, rfl⟩ <;> exact hl e he

/-- C23 refuted (another subject): a key certified for subject 1 is not found when subject 2 asks. -/
theorem C23_other_subject_refuted :
    (DB.run id ({} : DB (Nat × PKey Nat) (Nat × PKey Nat) Nat) [.add (1, .plain 7) .confirmed 0]).containsPubKey
      (fun c => c.1) (·.2) (.plain 7) 2 = false := by decide

/-- C23 refuted (pending update): a key of a certificate whose update is pending is not found, on a reachable
database. -/
theorem C23_pending_update_refuted :
    (DB.run id ({} : DB (Nat × PKey Nat) (Nat × PKey Nat) Nat) [.add (1, .plain 7) .confirmed 0,
      .change (1, .plain 7) .updatedNotConfirmed none (some (1, .plain 8)) 0]).containsPubKey
      (fun c => c.1) (·.2) (.plain 7) 1 = false := by decide

/-- C23 (true part, request level): with key reuse disallowed, a CertReqMessages body (ir, cr, kur, ccr) is
accepted only if no template key is shared with a stored certificate of the template's subject, unless that
certificate has a pending update. -/
theorem C23_same_key_partial [DecidableEq P] [DecidableEq N] (isTrad : P → Bool) (subj : C → N) (keyOf : C → PKey P)
    (db : DB C D R) (body : String) (ts : List (TemplKey P N)) (aCR aK : Bool)
    (hbody : (body = "kur" ∧ aK = false) ∨ ((body = "ir" ∨ body = "cr" ∨ body = "ccr") ∧ aCR = false))
    (hl : ∀ e ∈ db.certs, RolesDisjoint isTrad (keyOf e.cert))
    (ht : ∀ t ∈ ts, ∀ k, t.key = some k → RolesDisjoint isTrad k) :
    checkSameKey subj keyOf db aCR aK body ts = .ok () ↔
      ∀ t ∈ ts, ∀ k, t.key = some k → ∀ e ∈ db.certs, e.state ≠ .updatedNotConfirmed →
        ¬ Carries subj keyOf k t.subject e.cert := by
  have hred : checkSameKey subj keyOf db aCR aK body ts = sameKeyLoop subj keyOf db ts := by
    unfold checkSameKey
    rcases hbody with ⟨rfl, rfl⟩ | ⟨h | h | h, rfl⟩ <;> simp_all
  rw [hred]; clear hred
  induction ts with
  | nil => simp [sameKeyLoop]
  | cons t ts ih =>
    have ih := ih (fun t' ht' => ht t' (by simp [ht']))
    simp only [sameKeyLoop, List.mem_cons, forall_eq_or_imp]
    cases hk : t.key with
    | none =>
      have : inCertList subj keyOf t db.issuedCerts = false := by simp [inCertList, hk]
      rw [this]; simpa [hk] using ih
    | some k =>
      have hx := C23_exact isTrad subj keyOf db k t.subject (ht t (by simp) k hk) hl
      have hin : inCertList subj keyOf t db.issuedCerts = true → db.containsPubKey subj keyOf k t.subject = true := by
        intro h
        rw [hx]
        simp only [inCertList, hk, List.any_eq_true, Bool.and_eq_true, decide_eq_true_eq, DB.issuedCerts, List.mem_map,
          List.mem_filter, not_or] at h
        obtain ⟨c, ⟨e, ⟨he, h1, h2⟩, rfl⟩, h3, h4⟩ := h
        refine ⟨e, he, h2, h3, ?_⟩
        rw [h4]
        cases k with
        | plain p => exact ⟨p, by simp [PKey.comps], by simp [PKey.comps]⟩
        | hybrid a b => exact ⟨a, by simp [PKey.comps], by simp [PKey.comps]⟩
      by_cases hc : db.containsPubKey subj keyOf k t.subject = true
      · have hrhs : ¬ (∀ k', some k = some k' → ∀ e ∈ db.certs, e.state ≠ .updatedNotConfirmed →
            ¬ Carries subj keyOf k' t.subject e.cert) := by
          intro h
          obtain ⟨e, he, hs, hcar⟩ := hx.mp hc
          exact h k rfl e he hs hcar
        have hl' : (if inCertList subj keyOf t db.issuedCerts = true then (Except.error PyErr.badCertTemplate : Except PyErr Unit)
          else if db.containsPubKey subj keyOf k t.subject = true then .error .badCertTemplate
            else sameKeyLoop subj keyOf db ts) = .error .badCertTemplate := by
          simp [hc]
        simp only [hl']
        constructor
        · intro h; simp at h
        · intro h; exact absurd h.1 hrhs
      · have hni : ¬ inCertList subj keyOf t db.issuedCerts = true := fun h => hc (hin h)
        simp only [if_neg hni, if_neg hc]
        refine Iff.trans ih ?_
        constructor
        · intro h
          refine ⟨fun k' hk' e he hs hcar => ?_, h⟩
          injection hk' with hk'; subst hk'
          exact hc (hx.mpr ⟨e, he, hs, hcar⟩)
        · exact fun h => h.2

/-- C23: where key reuse is allowed nothing is checked. -/
theorem C23_reuse_allowed [DecidableEq P] [DecidableEq N] (subj : C → N) (keyOf : C → PKey P) (db : DB C D R) (body : String)
    (ts : List (TemplKey P N)) (aCR aK : Bool)
    (h : (body = "kur" ∧ aK = true) ∨ ((body = "ir" ∨ body = "cr" ∨ body = "p10cr" ∨ body = "ccr") ∧ aCR = true)) :
    checkSameKey subj keyOf db aCR aK body ts = .ok () := by
  unfold checkSameKey
  rcases h with ⟨rfl, rfl⟩ | ⟨h, rfl⟩
  · rw [if_neg (by simp), if_pos ⟨rfl, rfl⟩]
  · rw [if_pos ⟨rfl, h⟩]

/-- C23 (true part, `p10cr`): a request with a key is accepted iff neither this key nor the chameleon delta key is shared with a
stored certificate of the subject, unless that certificate has a pending update. -/
theorem C23_p10cr_partial [DecidableEq P] [DecidableEq N] (isTrad : P → Bool) (subj : C → N) (keyOf : C → PKey P) (db : DB C D R)
    (sender : N) (k : PKey P) (delta : Option (PKey P)) (aK : Bool)
    (hl : ∀ e ∈ db.certs, RolesDisjoint isTrad (keyOf e.cert)) (hk : RolesDisjoint isTrad k) (hd : ∀ d, delta = some d → RolesDisjoint isTrad d) :
    checkSameKey subj keyOf db false aK "p10cr" (⟨sender, some k⟩ :: (delta.toList.map fun d => ⟨sender, some d⟩)) = .ok () ↔
      ∀ x, (x = k ∨ delta = some x) → ∀ e ∈ db.certs, e.state ≠ .updatedNotConfirmed → ¬ Carries subj keyOf x sender e.cert := by
  have hx : ∀ x, RolesDisjoint isTrad x → (¬ db.containsPubKey subj keyOf x sender = true ↔
      ∀ e ∈ db.certs, e.state ≠ .updatedNotConfirmed → ¬ Carries subj keyOf x sender e.cert) := by
    intro x h
    rw [C23_exact isTrad subj keyOf db x sender h hl]
    constructor
    · intro h e h1 h2 h3; exact h ⟨e, h1, h2, h3⟩
    · rintro h ⟨e, h1, h2, h3⟩; exact h e h1 h2 h3
  have hred : checkSameKey subj keyOf db false aK "p10cr" (⟨sender, some k⟩ :: (delta.toList.map fun d => ⟨sender, some d⟩)) = .ok () ↔
      ¬ db.containsPubKey subj keyOf k sender = true ∧ ∀ d, delta = some d → ¬ db.containsPubKey subj keyOf d sender = true := by
    unfold checkSameKey
    rw [if_neg (by simp), if_neg (by simp), if_pos rfl]
    dsimp only
    by_cases hc : db.containsPubKey subj keyOf k sender = true
    · simp [hc]
    · rw [if_neg hc]
      cases delta with
      | none => simp [hc]
      | some d =>
        simp only [Option.toList_some, List.map_cons]
        by_cases hc' : db.containsPubKey subj keyOf d sender = true
        · simp [hc']
        · simp [hc, hc']
  rw [hred]
  constructor
  · rintro ⟨h1, h2⟩ x (rfl | h)
    · exact (hx _ hk).1 h1
    · exact (hx _ (hd x h)).1 (h2 x h)
  · intro h
    exact ⟨(hx _ hk).2 (h k (.inl rfl)), fun d e => (hx _ (hd d e)).2 (h d (.inr e))⟩

/-- C23 (true part, `p10cr`): a request without a key is accepted. -/
theorem C23_p10cr_no_key [DecidableEq P] [DecidableEq N] (subj : C → N) (keyOf : C → PKey P) (db : DB C D R) (sender : N)
    (ts : List (TemplKey P N)) (aCR aK : Bool) : checkSameKey subj keyOf db aCR aK "p10cr" (⟨sender, none⟩ :: ts) = .ok () := by
  unfold checkSameKey
  cases aCR
  · rw [if_neg (by simp), if_neg (by simp), if_pos rfl]
  · rw [if_pos ⟨rfl, by simp⟩]

/-- A delta key that is in use is refused, also next to a fresh key. -/
example : checkSameKey (fun c : Nat × PKey Nat => c.1) (·.2)
    (DB.run id ({} : DB (Nat × PKey Nat) (Nat × PKey Nat) Nat) [.add (1, .hybrid 10 7) .confirmed 0]) false true "p10cr"
    [⟨1, some (.plain 20)⟩, ⟨1, some (.plain 7)⟩] = .error .badCertTemplate := by decide

end Verif.CA
