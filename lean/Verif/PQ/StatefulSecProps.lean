import Verif.PQ.StatefulLoadProps

/-!
Private keys of the stateful schemes: C115 (public key, index, PKCS#8) and C116 (changing the state).
-/

namespace Verif.PQ.Stfl

open Verif.CA (Bytes PyErr)
open Verif.PQ.Slh (toByte fromBytes toByte_length)
open Verif.PQ.Mech (toBytesBE fromBytes_toByte)
open Verif.PQ.Hyb (pyUpper pyLower)

/-- The secret key format of the XMSS reference implementation: identifier, index, two secret seeds, root and public seed, and
whatever the implementation adds. -/
structure Layout where
  id : Bytes
  idx : Bytes
  skSeed : Bytes
  prf : Bytes
  root : Bytes
  seed : Bytes
  rest : Bytes

/-- The secret key bytes. -/
def Layout.sk (l : Layout) : Bytes := l.id ++ (l.idx ++ (l.skSeed ++ (l.prf ++ (l.root ++ (l.seed ++ l.rest)))))

/-- The public key bytes of RFC 8391: identifier, root, public seed. -/
def Layout.pk (l : Layout) : Bytes := l.id ++ l.root ++ l.seed

/-- The lengths for a digest of `n` bytes and an index of `w` bytes. -/
structure Layout.Sized (l : Layout) (n w : Nat) : Prop where
  id : l.id.length = 4
  idx : l.idx.length = w
  skSeed : l.skSeed.length = n
  prf : l.prf.length = n
  root : l.root.length = n
  seed : l.seed.length = n

theorem Layout.Sized.pk_length {l : Layout} {n w : Nat} (h : l.Sized n w) : l.pk.length = 4 + 2 * n := by
  simp [Layout.pk, h.id, h.root, h.seed]; omega

theorem slice_mid {a b c : Bytes} {i j : Nat} (hi : i = a.length) (hj : j = a.length + b.length) : slice (a ++ (b ++ c)) i j = b := by
  subst hi hj
  simp [slice]

theorem slice_id (l : Layout) {n w : Nat} (h : l.Sized n w) : slice l.sk 0 4 = l.id :=
  slice_mid (a := []) rfl (by simp [h.id])

theorem slice_idx (l : Layout) {n w : Nat} (h : l.Sized n w) : slice l.sk 4 (4 + w) = l.idx :=
  slice_mid h.id.symm (by rw [h.id, h.idx])

theorem slice_root (l : Layout) {n w : Nat} (h : l.Sized n w) : slice l.sk (4 + w + 2 * n) (4 + w + 2 * n + n) = l.root := by
  have e : l.sk = (l.id ++ l.idx ++ l.skSeed ++ l.prf) ++ (l.root ++ (l.seed ++ l.rest)) := by simp [Layout.sk]
  rw [e]
  apply slice_mid <;> simp [h.id, h.idx, h.skSeed, h.prf, h.root] <;> omega

theorem slice_seed (l : Layout) {n w : Nat} (h : l.Sized n w) : slice l.sk (4 + w + 3 * n) (4 + w + 3 * n + n) = l.seed := by
  have e : l.sk = (l.id ++ l.idx ++ l.skSeed ++ l.prf ++ l.root) ++ (l.seed ++ l.rest) := by simp [Layout.sk]
  rw [e]
  apply slice_mid <;> simp [h.id, h.idx, h.skSeed, h.prf, h.root, h.seed] <;> omega

theorem headId_sk (l : Layout) {n w : Nat} (h : l.Sized n w) : headId l.sk = fromBytes l.id := by
  unfold headId Layout.sk
  rw [List.take_left' h.id]

theorem headId_pk (l : Layout) {n w : Nat} (h : l.Sized n w) : headId l.pk = fromBytes l.id := by
  unfold headId Layout.pk
  rw [List.append_assoc, List.take_left' h.id]

/-- The backend knows the registered XMSS sets. -/
def OqsXmss (o : Oqs) : Prop := ∀ a ∈ xmssIds, o.enabled a.2 = true

theorem upper_names : (∀ a ∈ xmssIds, startsWith (pyUpper a.2) "XMSS-" = true ∧ startsWith (pyUpper a.2) "XMSSMT" = false) ∧
    ∀ a ∈ xmssmtIds, startsWith (pyUpper a.2) "XMSSMT-" = true ∧ startsWith (pyUpper a.2) "XMSSMT" = true ∧ pyUpper a.2 = a.2 := by
  decide +kernel

theorem skToPk_xmss (l : Layout) {i n h : Nat} {nm : String} (hm : (i, nm) ∈ xmssIds) (hs : xmssSpec i = some (n, h)) (hl : l.Sized n 4) :
    skToPk l.sk nm = .ok l.pk := by
  obtain ⟨n', h', e1, _, _, e4, _⟩ := xmssIds_facts _ hm
  obtain ⟨u1, u2⟩ := upper_names.1 _ hm
  dsimp only at e1 e4 u1 u2
  rw [hs] at e1
  cases e1
  unfold skToPk
  dsimp only
  rw [u1, u2, if_neg (by simp), e4]
  dsimp only
  rw [if_neg (by simp), slice_id l hl, show 8 + 2 * n = 4 + 4 + 2 * n from by omega, slice_root l hl,
    show 4 + 4 + 2 * n + n = 4 + 4 + 3 * n from by omega, show 4 + 4 + 2 * n + 2 * n = 4 + 4 + 3 * n + n from by omega, slice_seed l hl]
  rfl

/-- **C115.** Loading an XMSS private key succeeds exactly for a registered identifier and the backend's secret key length, and its
public key consists of the identifier, the root and the public seed in the secret key. -/
theorem C115_xmss_public (o : Oqs) (ho : OqsXmss o) (l : Layout) (n h : Nat) (hl : l.Sized n 4) (hs : xmssSpec (fromBytes l.id) = some (n, h)) :
    ∃ nm, (fromBytes l.id, nm) ∈ xmssIds ∧ (l.sk.length = o.secLen nm → xmssSecLoad o l.sk = .ok ⟨pyLower nm, l.sk, none⟩ ∧
      xmssSecPub o ⟨pyLower nm, l.sk, none⟩ = .ok ⟨pyLower nm, l.pk⟩ ∧ xmssPubLoad o l.pk = .ok ⟨pyLower nm, l.pk⟩) ∧
      (l.sk.length ≠ o.secLen nm → xmssSecLoad o l.sk = .error .invalidKeyData) := by
  obtain ⟨nm, hm⟩ := xmssIds_complete _ _ hs
  obtain ⟨n', h', e1, e2, e3, e4, e5, e6, e7, e8⟩ := xmssIds_facts _ hm
  have el := xmssIds_lookup _ hm
  have o1 := ho _ hm
  dsimp only at e1 e2 e3 e4 e5 e6 e7 e8 el o1
  rw [hs] at e1
  cases e1
  have hlen : 8 + 4 * n ≤ l.sk.length := by
    simp [Layout.sk, hl.id, hl.idx, hl.skSeed, hl.prf, hl.root, hl.seed]; omega
  have hload : xmssSecLoad o l.sk = if l.sk.length = o.secLen nm then .ok ⟨pyLower nm, l.sk, none⟩ else .error .invalidKeyData := by
    unfold xmssSecLoad
    rw [headId_sk l hl, el]
    dsimp only
    rw [e4]
    dsimp only
    rw [if_neg (by omega), if_neg (by omega)]
    unfold xmssSec
    rw [e5]
    dsimp only
    rw [o1, if_neg (by simp)]
    by_cases hc : l.sk.length = o.secLen nm
    · rw [if_neg (by simp [hc]), if_pos hc]
    · rw [if_pos hc, if_neg hc]
  have hpk : l.pk.length = 4 + 2 * n := hl.pk_length
  refine ⟨nm, hm, fun hc => ⟨by rw [hload, if_pos hc], ?_, ?_⟩, fun hc => by rw [hload, if_neg hc]⟩
  · unfold xmssSecPub
    dsimp only
    rw [e8, skToPk_xmss l hm hs hl]
    dsimp only
    unfold xmssPub
    rw [e6]
    dsimp only
    rw [e3]
    dsimp only
    rw [if_neg (by omega), if_pos o1]
  · rcases C114_xmss o ho l.pk with ⟨n'', h'', nm'', a1, a2, a3, a4, _⟩ | ⟨a1, _⟩
    · rw [headId_pk l hl] at a3
      have := xmssIds_lookup _ a3
      dsimp only at this
      rw [el] at this
      cases this
      exact a4
    · exact absurd hpk (a1 (n, h) (by rw [headId_pk l hl]; exact hs))

/-- The same secret key with another index. -/
def Layout.withIdx (l : Layout) (i w : Nat) : Layout := { l with idx := toByte i w }

theorem withIdx_sized {l : Layout} {n w : Nat} (h : l.Sized n w) (i : Nat) : (l.withIdx i w).Sized n w :=
  ⟨h.id, toByte_length i w, h.skSeed, h.prf, h.root, h.seed⟩

theorem withIdx_pk (l : Layout) (i w : Nat) : (l.withIdx i w).pk = l.pk := rfl

theorem withIdx_same (l : Layout) {n w : Nat} (h : l.Sized n w) : (l.withIdx (fromBytes l.idx) w).sk = l.sk := by
  unfold Layout.withIdx Layout.sk
  rw [← h.idx, Verif.PQ.Mech.toByte_fromBytes]

theorem splice (l : Layout) {n w : Nat} (h : l.Sized n w) (i : Nat) : slice l.sk 0 4 ++ toByte i w ++ l.sk.drop (4 + w) = (l.withIdx i w).sk := by
  rw [slice_id l h]
  have e : l.sk = (l.id ++ l.idx) ++ (l.skSeed ++ (l.prf ++ (l.root ++ (l.seed ++ l.rest)))) := by simp [Layout.sk]
  rw [e, List.drop_left' (by rw [List.length_append, h.id, h.idx])]
  simp [Layout.withIdx, Layout.sk]

theorem withIdx_length (l : Layout) {n w : Nat} (h : l.Sized n w) (i : Nat) : (l.withIdx i w).sk.length = l.sk.length := by
  simp [Layout.withIdx, Layout.sk, toByte_length, h.idx]

theorem xmssSecPub_made (o : Oqs) (ho : OqsXmss o) (l : Layout) {i n h : Nat} {nm : String} (hm : (i, nm) ∈ xmssIds) (hs : xmssSpec i = some (n, h)) (hl : l.Sized n 4)
    (pub : Option Bytes) (hp : pub = none ∨ pub = some l.pk) : xmssSecPub o ⟨pyLower nm, l.sk, pub⟩ = .ok ⟨pyLower nm, l.pk⟩ := by
  obtain ⟨n', h', e1, _, e3, e4, _, e6, _, e8⟩ := xmssIds_facts _ hm
  have o1 := ho _ hm
  dsimp only at e1 e3 e4 e6 e8 o1
  rw [hs] at e1
  cases e1
  have hpk : l.pk.length = 4 + 2 * n := hl.pk_length
  have key : xmssPub o (pyLower nm) l.pk = .ok ⟨pyLower nm, l.pk⟩ := by
    unfold xmssPub
    rw [e6]
    dsimp only
    rw [e3]
    dsimp only
    rw [if_neg (by omega), if_pos o1]
  rcases hp with rfl | rfl
  · unfold xmssSecPub
    dsimp only
    rw [e8, skToPk_xmss l hm hs hl]
    exact key
  · exact key

theorem xmssSec_made (o : Oqs) (ho : OqsXmss o) {i : Nat} {nm : String} (hm : (i, nm) ∈ xmssIds) (sk : Bytes) (hk : sk.length = o.secLen nm) (pub : Option Bytes) :
    xmssSec o (pyLower nm) sk pub = .ok ⟨pyLower nm, sk, pub⟩ := by
  obtain ⟨n', h', _, _, _, _, _, e6, _⟩ := xmssIds_facts _ hm
  have o1 := ho _ hm
  dsimp only at e6 o1
  unfold xmssSec
  rw [e6]
  dsimp only
  rw [o1, if_neg (by simp), if_neg (by simp [hk])]

/-- **C115.** Setting the index of an XMSS key changes the four index bytes and nothing else: the key pair stays the same. An index that
needs more than four bytes is an `OverflowError`. -/
theorem C115_xmss_index (o : Oqs) (ho : OqsXmss o) (l : Layout) (id n h : Nat) (nm : String) (hm : (id, nm) ∈ xmssIds) (hs : xmssSpec id = some (n, h)) (hl : l.Sized n 4)
    (hk : l.sk.length = o.secLen nm) (pub : Option Bytes) (hp : pub = none ∨ pub = some l.pk) (i : Nat) :
    (i < 2 ^ 32 → ∃ pub', xmssChangeIndex o ⟨pyLower nm, l.sk, pub⟩ i = .ok ⟨pyLower nm, (l.withIdx i 4).sk, pub'⟩ ∧
      fromBytes (slice (l.withIdx i 4).sk 4 8) = i ∧ xmssSecPub o ⟨pyLower nm, (l.withIdx i 4).sk, pub'⟩ = .ok ⟨pyLower nm, l.pk⟩) ∧
    (2 ^ 32 ≤ i → xmssChangeIndex o ⟨pyLower nm, l.sk, pub⟩ i = .error .overflowError) := by
  have hcur : slice l.sk 4 8 = l.idx := slice_idx l hl
  have hlt : fromBytes l.idx < 256 ^ 4 := by
    have := Verif.PQ.Slh.val_lt l.idx
    rwa [hl.idx] at this
  have hnew : ∀ i, i < 256 ^ 4 → fromBytes (slice (l.withIdx i 4).sk 4 8) = i := by
    intro i hi
    rw [show (8 : Nat) = 4 + 4 from rfl, slice_idx _ (withIdx_sized hl i)]
    exact fromBytes_toByte i 4 hi
  constructor
  · intro hi
    have hi : i < 256 ^ 4 := hi
    unfold xmssChangeIndex
    dsimp only
    rw [hcur]
    by_cases hc : fromBytes l.idx = i
    · rw [if_pos hc]
      subst hc
      refine ⟨pub, by rw [withIdx_same l hl], hnew _ hi, ?_⟩
      rw [withIdx_same l hl]
      exact xmssSecPub_made o ho l hm hs hl pub hp
    · rw [if_neg hc, toBytesBE, if_pos hi]
      dsimp only
      rw [xmssSecPub_made o ho l hm hs hl pub hp]
      dsimp only
      rw [show (8 : Nat) = 4 + 4 from rfl, splice l hl, xmssSec_made o ho hm _ (by rw [withIdx_length l hl, hk])]
      exact ⟨_, rfl, hnew i hi, xmssSecPub_made o ho (l.withIdx i 4) hm hs (withIdx_sized hl i) _ (.inr rfl)⟩
  · intro hi
    have hi : 256 ^ 4 ≤ i := hi
    unfold xmssChangeIndex
    dsimp only
    rw [hcur, if_neg (by omega), toBytesBE, if_neg (by omega)]

/-- **C115.** A PKCS#8 structure with a public key is accepted exactly when that key is the one in the secret key bytes. -/
theorem C115_xmss_pkcs8 (o : Oqs) (ho : OqsXmss o) (l : Layout) (n h : Nat) (hl : l.Sized n 4) (hs : xmssSpec (fromBytes l.id) = some (n, h)) (nm : String)
    (hm : (fromBytes l.id, nm) ∈ xmssIds) (hk : l.sk.length = o.secLen nm) (b : Bytes) :
    xmssPkcs8 o l.sk none = .ok ⟨pyLower nm, l.sk, none⟩ ∧
    (b = l.pk → xmssPkcs8 o l.sk (some b) = .ok ⟨pyLower nm, l.sk, none⟩) ∧
    (b ≠ l.pk → xmssPkcs8 o l.sk (some b) = .error .mismatchingKey ∨ xmssPkcs8 o l.sk (some b) = .error .invalidKeyData) := by
  obtain ⟨nm', hm', h1, _⟩ := C115_xmss_public o ho l n h hl hs
  have e1 := xmssIds_lookup _ hm
  have e2 := xmssIds_lookup _ hm'
  dsimp only at e1 e2
  rw [e1] at e2
  cases e2
  obtain ⟨h1, h2, h3⟩ := h1 hk
  refine ⟨?_, ?_, ?_⟩
  · unfold xmssPkcs8
    rw [h1]
  · rintro rfl
    unfold xmssPkcs8
    rw [h1]
    dsimp only
    rw [h2, h3]
    simp [checkPublic]
  · intro hb
    unfold xmssPkcs8
    rw [h1]
    dsimp only
    rw [h2]
    dsimp only
    rcases C114_xmss o ho b with ⟨_, _, nm'', _, _, _, a4, _⟩ | ⟨_, a4⟩
    · rw [a4]
      left
      have hne : (⟨pyLower nm'', b⟩ : Pub) ≠ ⟨pyLower nm, l.pk⟩ := fun hc => hb (Pub.mk.inj hc).2
      unfold checkPublic
      dsimp only
      rw [if_pos hne]
    · rw [a4]
      exact .inr rfl

theorem xmssDetails_n : ∀ a ∈ xmssIds, (xmssDetails.lookup (pyLower a.2)).map (·.n) = (xmssSpec a.1).map (·.1) ∧
    pyLower (pyLower a.2) = pyLower a.2 := by decide +kernel

/-- **C115 refuted, `private_numbers`.** The documented content ends with the two seeds, the public seed and the root; the returned bytes are
four short of it, since the counter is not counted. -/
theorem C115_private_numbers_refuted (l : Layout) (id n h : Nat) (nm : String) (hm : (id, nm) ∈ xmssIds) (hs : xmssSpec id = some (n, h)) (hl : l.Sized n 4) (pub : Option Bytes) :
    privateNumbers ⟨pyLower nm, l.sk, pub⟩ = .ok (l.id ++ l.idx ++ l.skSeed ++ l.prf ++ l.root ++ l.seed.take (n - 4)) ∧ 4 ≤ n := by
  obtain ⟨h1, h2⟩ := xmssDetails_n _ hm
  dsimp only at h1 h2
  rw [hs] at h1
  have hn : 4 ≤ n := by
    unfold xmssSpec at hs
    split at hs
    · dsimp only at hs
      injection hs with hs
      injection hs with hs _
      subst hs
      repeat' split
      all_goals omega
    · cases hs
  refine ⟨?_, hn⟩
  unfold privateNumbers
  rw [h2]
  generalize xmssDetails.lookup (pyLower nm) = r at h1
  cases r with
  | none => cases h1
  | some d =>
    simp only [Option.map_some, Option.some.injEq] at h1
    subst h1
    dsimp only
    have e : l.sk = (l.id ++ l.idx ++ l.skSeed ++ l.prf ++ l.root) ++ (l.seed ++ l.rest) := by simp [Layout.sk]
    rw [e, List.take_append, List.take_of_length_le (by simp [hl.id, hl.idx, hl.skSeed, hl.prf, hl.root]; omega), List.take_append_of_le_length (by
      simp [hl.id, hl.idx, hl.skSeed, hl.prf, hl.root, hl.seed]; omega)]
    congr 3
    simp [hl.id, hl.idx, hl.skSeed, hl.prf, hl.root]
    omega

/-! ### XMSS^MT -/

theorem xmssmtIds_lookup : ∀ a ∈ xmssmtIds, xmssmtIds.lookup a.1 = some a.2 := by decide +kernel

/-- What is needed of the tables for one of the sets with details. -/
structure MtSet (o : Oqs) (i : Nat) (nm : String) (n h : Nat) : Prop where
  mem : (i, nm) ∈ xmssmtIds
  le : i ≤ 0x20
  spec : xmssmtSpec i = some (n, h)
  oqs : OqsMt o

theorem MtSet.facts {o : Oqs} {i : Nat} {nm : String} {n h : Nat} (m : MtSet o i nm n h) : xmssmtCheckName (pyLower nm) = .ok (pyLower nm, nm) ∧ mtField 0 (pyLower nm) = .ok h ∧
    sizeOfName nm = .ok n ∧ pyUpper (pyLower nm) = nm ∧ (∃ hs, xmssmtDetails.lookup (pyLower nm) = some ⟨hs, n, h⟩) ∧ o.enabled nm = true ∧ o.pubLen nm = 4 + 2 * n ∧
    pyLower (pyLower nm) = pyLower nm ∧ pyLower nm ≠ "xmssmt" ∧ 4 ≤ 4 + ceil8 h := by
  obtain ⟨n', h', e1, e2, e3, e4, e5, e6, e7, _⟩ := xmssmtIds_facts _ m.mem
  obtain ⟨l1, l2, _⟩ := xmssmtIds_lower _ m.mem
  obtain ⟨o1, o2⟩ := m.oqs _ m.mem
  dsimp only at e1 e2 e3 e4 e5 e6 e7 l1 l2 o1 o2
  rw [m.spec] at e1
  cases e1
  exact ⟨e3, e4, e5, e6, e7 m.le, o1, o2 _ m.spec, l2, l1, by omega⟩

theorem skToPk_xmssmt (o : Oqs) (l : Layout) {i n h : Nat} {nm : String} (m : MtSet o i nm n h) (hl : l.Sized n (ceil8 h)) :
    skToPk l.sk nm = .ok l.pk := by
  obtain ⟨e1, e2, e3, e4, ⟨hs, e5⟩, _⟩ := m.facts
  obtain ⟨u1, u2, _⟩ := upper_names.2 _ m.mem
  dsimp only at u1 u2
  unfold skToPk
  dsimp only
  rw [u1, u2, if_neg (by simp), e3]
  dsimp only
  rw [if_pos rfl, e5]
  dsimp only
  rw [slice_id l hl, show 8 + 2 * n + ceil8 h - 4 = 4 + ceil8 h + 2 * n from by omega, slice_root l hl,
    show 8 + 3 * n + ceil8 h - 4 = 4 + ceil8 h + 3 * n from by omega, slice_seed l hl]
  rfl

theorem xmssmtPub_made (o : Oqs) {i n h : Nat} {nm : String} (m : MtSet o i nm n h) (b : Bytes) (hb : b.length = 4 + 2 * n) :
    xmssmtPub o (pyLower nm) b = .ok ⟨pyLower nm, b⟩ := by
  obtain ⟨e1, _, _, _, _, o1, o2, _⟩ := m.facts
  unfold xmssmtPub
  rw [e1]
  dsimp only
  rw [o1, o2, if_neg (by simp), if_neg (by simp [hb])]

theorem xmssmtSecPub_made (o : Oqs) (l : Layout) {i n h : Nat} {nm : String} (m : MtSet o i nm n h) (hl : l.Sized n (ceil8 h)) (pub : Option Bytes)
    (hp : pub = none ∨ pub = some l.pk) : xmssmtSecPub o ⟨pyLower nm, l.sk, pub⟩ = .ok ⟨pyLower nm, l.pk⟩ := by
  rcases hp with rfl | rfl
  · unfold xmssmtSecPub
    dsimp only
    rw [m.facts.2.2.2.1, skToPk_xmssmt o l m hl]
    exact xmssmtPub_made o m _ hl.pk_length
  · unfold xmssmtSecPub
    exact xmssmtPub_made o m _ hl.pk_length

theorem xmssmtSec_made (o : Oqs) {i n h : Nat} {nm nm' : String} (m : MtSet o i nm n h) (hn : pyLower nm' = pyLower nm) (sk : Bytes) (pub : Option Bytes) :
    xmssmtSec o nm' sk pub = if sk.length = o.secLen nm then .ok ⟨pyLower nm, sk, pub⟩ else .error .invalidKeyData := by
  obtain ⟨_, _, _, e4, ⟨hs, e5⟩, o1, _, l2, l1, _⟩ := m.facts
  unfold xmssmtSec
  dsimp only
  have e5 : ¬ (xmssmtDetails.lookup (pyLower nm)).isNone = true := by rw [e5]; exact Bool.false_ne_true
  rw [hn, if_neg l1, e4, if_neg e5, o1, if_neg (by simp)]
  by_cases hk : sk.length = o.secLen nm
  · rw [if_pos hk, if_neg (not_not_intro hk)]
  · rw [if_neg hk, if_pos hk]

/-- **C115, XMSS^MT partial.** For the sets with details, the private key loads at the backend's length and its public key consists of the
identifier, the root and the public seed after an index of as many bytes as the tree height needs. -/
theorem C115_xmssmt_public_partial (o : Oqs) (l : Layout) (n h : Nat) (nm : String) (m : MtSet o (fromBytes l.id) nm n h) (hl : l.Sized n (ceil8 h)) :
    xmssmtSecLoad o l.sk = (if l.sk.length = o.secLen nm then .ok ⟨pyLower nm, l.sk, none⟩ else .error .invalidKeyData) ∧
      xmssmtSecPub o ⟨pyLower nm, l.sk, none⟩ = .ok ⟨pyLower nm, l.pk⟩ ∧ xmssmtPubLoad o l.pk = .ok ⟨pyLower nm, l.pk⟩ := by
  have el := xmssmtIds_lookup _ m.mem
  dsimp only at el
  obtain ⟨_, _, _, _, ⟨hs, e5⟩, _⟩ := m.facts
  refine ⟨?_, xmssmtSecPub_made o l m hl none (.inl rfl), ?_⟩
  · unfold xmssmtSecLoad
    rw [headId_sk l hl, el]
    exact xmssmtSec_made o m rfl _ _
  · have hpk : l.pk.length = 4 + 2 * n := hl.pk_length
    unfold xmssmtPubLoad
    rw [headId_pk l hl, el]
    dsimp only
    rw [e5]
    dsimp only
    rw [if_neg (by omega)]
    obtain ⟨n', h', _, e2, _⟩ := xmssmtIds_facts _ m.mem
    obtain ⟨_, _, _, _, _, o1, o2, _⟩ := m.facts
    dsimp only at e2
    unfold xmssmtPub
    rw [e2]
    dsimp only
    rw [o1, o2, if_neg (by simp), if_neg (by simp [hpk])]

/-- **C115, XMSS^MT refuted.** A private key of any of the other twenty-four registered sets is a `ValueError`, whatever its bytes. -/
theorem C115_xmssmt_refuted (o : Oqs) (sk : Bytes) (h : 0x21 ≤ headId sk ∧ headId sk ≤ 0x38) : xmssmtSecLoad o sk = .error .valueError := by
  have : (xmssmtSpec (headId sk)).isSome := by unfold xmssmtSpec; rw [if_pos (by omega)]; rfl
  obtain ⟨s, hs⟩ := Option.isSome_iff_exists.1 this
  obtain ⟨nm, hm⟩ := xmssmtIds_complete _ s hs
  have el := xmssmtIds_lookup _ hm
  obtain ⟨_, _, _, _, _, _, _, _, _, e8⟩ := xmssmtIds_facts _ hm
  obtain ⟨l1, _, _⟩ := xmssmtIds_lower _ hm
  dsimp only at el e8 l1
  unfold xmssmtSecLoad
  rw [el]
  dsimp only
  unfold xmssmtSec
  dsimp only
  rw [if_neg l1, e8 (by omega)]
  rfl

/-- **C115.** Setting the index of an XMSS^MT key changes the index bytes and nothing else. -/
theorem C115_xmssmt_index (o : Oqs) (l : Layout) (id n h : Nat) (nm : String) (m : MtSet o id nm n h) (hl : l.Sized n (ceil8 h)) (hk : l.sk.length = o.secLen nm)
    (pub : Option Bytes) (hp : pub = none ∨ pub = some l.pk) (i : Nat) :
    (i < 256 ^ ceil8 h → xmssmtChangeIndex o ⟨pyLower nm, l.sk, pub⟩ i = .ok ⟨pyLower nm, (l.withIdx i (ceil8 h)).sk, some l.pk⟩ ∧
      fromBytes (slice (l.withIdx i (ceil8 h)).sk 4 (4 + ceil8 h)) = i ∧
      xmssmtSecPub o ⟨pyLower nm, (l.withIdx i (ceil8 h)).sk, some l.pk⟩ = .ok ⟨pyLower nm, l.pk⟩) ∧
    (256 ^ ceil8 h ≤ i → xmssmtChangeIndex o ⟨pyLower nm, l.sk, pub⟩ i = .error .overflowError) := by
  obtain ⟨_, e2, _, _, _, _, _, l2, _⟩ := m.facts
  have key : xmssmtChangeIndex o ⟨pyLower nm, l.sk, pub⟩ i = match toBytesBE i (ceil8 h) with
      | .error e => .error e
      | .ok ib => xmssmtSec o (pyLower nm) (slice l.sk 0 4 ++ ib ++ l.sk.drop (4 + ceil8 h)) (some l.pk) := by
    unfold xmssmtChangeIndex
    rw [xmssmtSecPub_made o l m hl pub hp]
    dsimp only
    rw [e2]
    rfl
  rw [key]
  constructor
  · intro hi
    rw [toBytesBE, if_pos hi]
    dsimp only
    rw [splice l hl, xmssmtSec_made o m l2, withIdx_length l hl, if_pos hk]
    refine ⟨rfl, ?_, xmssmtSecPub_made o (l.withIdx i _) m (withIdx_sized hl i) _ (.inr rfl)⟩
    rw [slice_idx _ (withIdx_sized hl i)]
    exact fromBytes_toByte i _ hi
  · intro hi
    rw [toBytesBE, if_neg (by omega)]

/-! ## C116: changing the state -/

/-- **C116.** `modify_pq_stateful_sig_private_key` with an index sets exactly that index; together with `last_index` it sets the last one; without
an index it sets the number of signatures, where nothing is left. -/
theorem C116_xmss (o : Oqs) (ho : OqsXmss o) (l : Layout) (id n h : Nat) (nm : String) (hm : (id, nm) ∈ xmssIds) (hs : xmssSpec id = some (n, h)) (hl : l.Sized n 4)
    (hk : l.sk.length = o.secLen nm) (pub : Option Bytes) (hp : pub = none ∨ pub = some l.pk) (last : Bool) (index : Option Nat) (t : Nat)
    (ht : t = match index, last with
      | some _, true => o.total nm - 1
      | some i, false => i
      | none, _ => o.total nm) :
    xmssModify o ⟨pyLower nm, l.sk, pub⟩ last index =
      if t < 2 ^ 32 then .ok ⟨pyLower nm, (l.withIdx t 4).sk, some l.pk⟩ else .error .overflowError := by
  obtain ⟨_, _, _, _, _, _, _, _, _, e8⟩ := xmssIds_facts _ hm
  dsimp only at e8
  have hg : getIndex 4 (o.total nm) last index = toBytesBE t 4 := by
    subst ht
    unfold getIndex
    cases index <;> cases last <;> rfl
  unfold xmssModify
  dsimp only
  rw [e8, hg, toBytesBE]
  by_cases hi : t < 2 ^ 32
  · rw [if_pos hi, if_pos (show t < 256 ^ 4 from hi)]
    dsimp only
    rw [xmssSecPub_made o ho l hm hs hl pub hp]
    dsimp only
    rw [show (8 : Nat) = 4 + 4 from rfl, splice l hl, xmssSec_made o ho hm _ (by rw [withIdx_length l hl, hk])]
  · rw [if_neg hi, if_neg (show ¬ t < 256 ^ 4 from hi)]

/-- **C116, XMSS^MT.** -/
theorem C116_xmssmt (o : Oqs) (l : Layout) (id n h : Nat) (nm : String) (m : MtSet o id nm n h) (hl : l.Sized n (ceil8 h)) (hk : l.sk.length = o.secLen nm)
    (pub : Option Bytes) (hp : pub = none ∨ pub = some l.pk) (last : Bool) (index : Option Nat) (t : Nat)
    (ht : t = match index, last with
      | some _, true => o.total nm - 1
      | some i, false => i
      | none, _ => o.total nm) :
    xmssmtModify o ⟨pyLower nm, l.sk, pub⟩ last index =
      if t < 256 ^ ceil8 h then .ok ⟨pyLower nm, (l.withIdx t (ceil8 h)).sk, some l.pk⟩ else .error .overflowError := by
  obtain ⟨_, e2, _, e8, _, _, _, l2, _⟩ := m.facts
  have hg : getIndex (ceil8 h) (o.total nm) last index = toBytesBE t (ceil8 h) := by
    subst ht
    unfold getIndex
    cases index <;> cases last <;> rfl
  unfold xmssmtModify
  rw [xmssmtSecPub_made o l m hl pub hp]
  dsimp only
  rw [e2]
  dsimp only
  rw [e8, hg, toBytesBE]
  by_cases hi : t < 256 ^ ceil8 h
  · rw [if_pos hi, if_pos hi]
    dsimp only
    rw [splice l hl, xmssmtSec_made o m l2, withIdx_length l hl, if_pos hk]
  · rw [if_neg hi, if_neg hi]

/-- **C116 refuted, `last_index=True` as documented.** Without an index the flag has no effect: the key gets the index after the last. -/
theorem C116_last_index_refuted (o : Oqs) (k : Sec) : xmssModify o k true none = xmssModify o k false none ∧
    xmssmtModify o k true none = xmssmtModify o k false none := ⟨rfl, rfl⟩

/-- **C116 refuted, exhausting trees of height 40.** The number of signatures does not fit the five index bytes, so the keys of the six sets of
that height cannot be exhausted: the call raises an `OverflowError`. -/
theorem C116_exhaust_refuted (o : Oqs) (l : Layout) (id n : Nat) (nm : String) (m : MtSet o id nm n 40) (hl : l.Sized n 5) (hk : l.sk.length = o.secLen nm)
    (ht : o.total nm = 2 ^ 40) (last : Bool) : xmssmtModify o ⟨pyLower nm, l.sk, none⟩ last none = .error .overflowError := by
  have h5 : ceil8 40 = 5 := rfl
  rw [C116_xmssmt o l id n 40 nm m (by rw [h5]; exact hl) hk none (.inl rfl) last none (2 ^ 40) (by cases last <;> exact ht.symm), h5, if_neg (by decide)]

/-- **C116, `used_index`.** Every recorded state can be selected, and without an index the latest. -/
theorem C116_used (used : List Bytes) (b : Bytes) (i : Nat) : (usedState used (some i) = .ok b ↔ used[i]? = some b) ∧
    (usedState used none = .ok b ↔ used.getLast? = some b) := by
  constructor
  · unfold usedState
    dsimp only
    by_cases h : used.length < i
    · rw [if_pos h, List.getElem?_eq_none (by omega)]
      simp
    · rw [if_neg h]
      cases used[i]? <;> simp
  · unfold usedState
    cases used.getLast? <;> simp

/-- **C116 refuted, the range check.** Past the recorded states the call promises a `ValueError`; the first such index is an `IndexError`. -/
theorem C116_used_range_refuted (used : List Bytes) : usedState used (some used.length) = .error .indexError ∧
    ∀ i, used.length < i → usedState used (some i) = .error .valueError := by
  constructor
  · unfold usedState
    dsimp only
    rw [if_neg (by omega), List.getElem?_eq_none (by omega)]
  · intro i h
    unfold usedState
    dsimp only
    rw [if_pos h]

/-! ### HSS private keys -/

/-- **C115, HSS.** `from_private_bytes` accepts every key with one or more levels whose type codes form a set, and reports its own level count. -/
theorem C115_hss_load (deser : Bytes → Option HssSecData) (data : Bytes) (p : HssSecData) (hp : deser data = some p) (nm : String)
    (hn : hssName p.lmsType p.lmotsType = .ok nm) (hl : 1 ≤ p.levels) : hssSecLoad deser data = .ok (nm, p.levels) := by
  obtain ⟨l, o, d, _, _, _, hd⟩ := hssName_ok hn
  have hnorm := hssNames_norm _ _ (lookup_mem hd)
  obtain ⟨k, hk⟩ : ∃ k, p.levels = k + 1 := ⟨p.levels - 1, by omega⟩
  unfold hssSecLoad
  rw [hp]
  dsimp only
  rw [hn]
  dsimp only
  unfold hssSec
  rw [hnorm, hd]
  dsimp only
  rw [hp]
  dsimp only
  rw [hk]
  change (if k + 1 ≠ k + 1 then _ else _) = _
  rw [if_neg (fun h : k + 1 ≠ k + 1 => h rfl), hn]
  dsimp only
  rw [if_neg (by simp)]

/-- **C115, HSS.** The constructor without a level count accepts single-level keys only. -/
theorem C115_hss_default_levels (deser : Bytes → Option HssSecData) (data : Bytes) (p : HssSecData) (hp : deser data = some p) (nm : String)
    (hn : hssName p.lmsType p.lmotsType = .ok nm) : hssSec deser nm data none = if p.levels = 1 then .ok (nm, 1) else .error .invalidKeyData := by
  obtain ⟨l, o, d, _, _, _, hd⟩ := hssName_ok hn
  have hnorm := hssNames_norm _ _ (lookup_mem hd)
  unfold hssSec
  rw [hnorm, hd]
  dsimp only
  rw [hp]
  dsimp only
  by_cases h1 : p.levels = 1
  · rw [if_neg (by simp [h1]), if_pos h1, hn]
    dsimp only
    rw [if_neg (by simp), h1]
  · rw [if_pos h1, if_neg h1]

/-- A small key of the set with identifier 0x0D (`n = 24`). -/
def exampleLayout : Layout where
  id := [0, 0, 0, 0x0D]
  idx := [0, 0, 0, 5]
  skSeed := List.replicate 24 1
  prf := List.replicate 24 2
  root := List.replicate 24 3
  seed := List.replicate 24 4
  rest := List.replicate 96 9

example : exampleLayout.Sized 24 4 ∧ exampleLayout.sk.length = fullOqs.secLen "XMSS-SHA2_10_192" ∧ xmssSpec (fromBytes exampleLayout.id) = some (24, 10) :=
  ⟨⟨rfl, rfl, rfl, rfl, rfl, rfl⟩, by decide +kernel, by decide +kernel⟩

example : (xmssPkcs8 fullOqs exampleLayout.sk (some exampleLayout.pk)).isOk = true ∧
    (xmssPkcs8 fullOqs exampleLayout.sk (some ([0, 0, 0, 0x0D] ++ List.replicate 48 3))) = .error .mismatchingKey ∧
    ((xmssModify fullOqs ⟨"xmss-sha2_10_192", exampleLayout.sk, none⟩ true none).map fun k => fromBytes (slice k.sk 4 8)) = .ok 1024 ∧
    ((xmssModify fullOqs ⟨"xmss-sha2_10_192", exampleLayout.sk, none⟩ true (some 0)).map fun k => fromBytes (slice k.sk 4 8)) = .ok 1023 := by decide +kernel

example : hssSecLoad (fun _ => some ⟨2, 5, 4⟩) [] = .ok ("hss_lms_sha256_m32_h5_lmots_sha256_n32_w8", 2) ∧
    hssSec (fun _ => some ⟨2, 5, 4⟩) "hss" [] none = .error .invalidKeyData ∧ usedState [[1], [2]] (some 1) = .ok [2] := by decide +kernel

end Verif.PQ.Stfl
