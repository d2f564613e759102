import Verif.Check.KeyUsage
import Verif.Check.HelpersProps
import Mathlib.Data.List.Perm.Subperm

/-!
# Properties of the key usage checks

C123: an accepted certificate has the usages the strictness level demands.
-/

namespace Verif.Check

open Verif.CA

/-- Specification: the bit named `v` is set. -/
def Has (names : List (List Char)) (x : List Bool) (v : List Char) : Prop :=
  ∃ i : Nat, names[i]? = some v ∧ x[i]? = some true

theorem dropWhile_of_head {p : Char → Bool} {l : List Char} (h : ∀ a ∈ l.head?, p a = false) :
    l.dropWhile p = l := by
  cases l with
  | nil => rfl
  | cons a l => rw [List.dropWhile_cons, h a rfl]; rfl

theorem head_dropWhile {p : Char → Bool} {l : List Char} {a : Char} (h : a ∈ (l.dropWhile p).head?) : p a = false := by
  induction l with
  | nil => cases h
  | cons b l ih =>
    rw [List.dropWhile_cons] at h
    cases hb : p b with
    | true => rw [hb] at h; exact ih h
    | false => rw [hb] at h; cases h; exact hb

theorem stripL_idem (l : List Char) : stripL (stripL l) = stripL l := by
  unfold stripL
  have hsuf := List.dropWhile_suffix (· == ' ') (l := (l.dropWhile (· == ' ')).reverse)
  have hpre : ((l.dropWhile (· == ' ')).reverse.dropWhile (· == ' ')).reverse <+: l.dropWhile (· == ' ') := by
    have := List.reverse_prefix.2 hsuf
    rwa [List.reverse_reverse] at this
  have h1 : (((l.dropWhile (· == ' ')).reverse.dropWhile (· == ' ')).reverse).dropWhile (· == ' ')
      = ((l.dropWhile (· == ' ')).reverse.dropWhile (· == ' ')).reverse := by
    apply dropWhile_of_head
    intro a ha
    obtain ⟨t, ht⟩ := hpre
    cases hr : ((l.dropWhile (· == ' ')).reverse.dropWhile (· == ' ')).reverse with
    | nil => rw [hr] at ha; cases ha
    | cons b r =>
      rw [hr] at ha ht
      cases ha
      exact head_dropWhile (p := fun x => x == ' ') (l := l) (by rw [← ht]; rfl)
  rw [h1, List.reverse_reverse]
  congr 1
  apply dropWhile_of_head
  intro a ha
  exact head_dropWhile (p := fun x => x == ' ') ha

theorem setNames_cons (a : List Char) (as : List (List Char)) (b : Bool) (bs : List Bool) :
    setNames (a :: as) (b :: bs) = if b then a :: setNames as bs else setNames as bs := by
  cases b <;> rfl

theorem setNames_nil_right (as : List (List Char)) : setNames as [] = [] := by
  cases as <;> rfl

theorem setNames_filter {names : List (List Char)} (hn : names.Nodup) (x : List Bool) :
    setNames names x = names.filter (fun n => decide (n ∈ setNames names x)) := by
  induction names generalizing x with
  | nil => rfl
  | cons a as ih =>
    cases x with
    | nil => rw [setNames_nil_right]; simp
    | cons b bs =>
      have ha : a ∉ as := (List.nodup_cons.1 hn).1
      have hsub : ∀ n, n ∈ setNames as bs → n ∈ as := by
        intro n h
        obtain ⟨i, h1, _⟩ := (mem_setNames as bs n).1 h
        exact List.mem_iff_getElem?.2 ⟨i, h1⟩
      have hrest := ih (List.nodup_cons.1 hn).2 bs
      rw [setNames_cons]
      cases b with
      | true =>
        rw [if_pos rfl, List.filter_cons, if_pos (by simp)]
        congr 1
        rw [hrest]
        apply List.filter_congr
        intro n hnn
        have : n ≠ a := fun e => ha (e ▸ hnn)
        rw [← hrest]
        simp [this]
      | false =>
        rw [if_neg (by simp), List.filter_cons, if_neg (by simpa using fun h => ha (hsub a h))]
        exact hrest

theorem setNames_eq_iff {names : List (List Char)} (hn : names.Nodup) (x y : List Bool) :
    setNames names x = setNames names y ↔ ∀ n ∈ names, Has names x n ↔ Has names y n := by
  constructor
  · intro h n _
    unfold Has
    rw [← mem_setNames, ← mem_setNames, h]
  · intro h
    rw [setNames_filter hn x, setNames_filter hn y]
    apply List.filter_congr
    intro n hm
    have := h n hm
    unfold Has at this
    rw [← mem_setNames, ← mem_setNames] at this
    simp only [this]

theorem bitOf_ok {names : List (List Char)} (hn : Plain names) (x : List Bool) (v : List Char) (r : Bool)
    (h : isBitSetNames names x [stripL v] false = .ok r) :
    stripL v ∈ names ∧ (r = true ↔ Has names x (stripL v)) := by
  have h1 := C98_any_bit_partial names hn x [stripL v] r h
  simp only [List.mem_singleton, exists_eq_left, stripL_idem] at h1
  refine ⟨?_, h1⟩
  unfold isBitSetNames at h
  cases hi : indicesOf names ([stripL v].map stripL) with
  | error e => rw [hi] at h; cases h
  | ok is =>
    have := (indicesOf_ok hi).1 (stripL (stripL v)) (by simp)
    rwa [stripL_idem] at this

theorem bitOf_total {names : List (List Char)} (x : List Bool) (v : List Char) (h : stripL v ∈ names) :
    ∃ r, isBitSetNames names x [stripL v] false = .ok r := by
  unfold isBitSetNames
  have : indicesOf names ([stripL v].map stripL) = .ok (([stripL v].map stripL).map (names.idxOf ·)) := by
    apply indicesOf_total
    intro w hw
    simp only [List.map_cons, List.map_nil, List.mem_singleton, stripL_idem] at hw
    exact hw ▸ h
  rw [this]
  dsimp only
  by_cases h1 : splitNames (setNames names x) = [stripL v]
  · rw [if_pos h1]; exact ⟨_, rfl⟩
  · rw [if_neg h1, if_neg (fun h => by cases h.2)]; exact ⟨_, rfl⟩

theorem countSet_cons (names : List (List Char)) (x : List Bool) (v : List Char) (vs : List (List Char)) :
    countSet names x (v :: vs) = match isBitSetNames names x [stripL v] false with
    | .error e => .error e
    | .ok b =>
      match countSet names x vs with
      | .error e => .error e
      | .ok n => .ok ((if b then 1 else 0) + n) := rfl

theorem countSet_ok {names : List (List Char)} (hn : Plain names) (x : List Bool) (vs : List (List Char)) (n : Nat)
    (h : countSet names x vs = .ok n) :
    n ≤ vs.length ∧ (∀ v ∈ vs, stripL v ∈ names) ∧ (vs.length = n ↔ ∀ v ∈ vs, Has names x (stripL v)) := by
  induction vs generalizing n with
  | nil => cases h; exact ⟨Nat.le_refl _, (by simp), by simp⟩
  | cons v vs ih =>
    rw [countSet_cons] at h
    cases hb : isBitSetNames names x [stripL v] false with
    | error e => rw [hb] at h; cases h
    | ok b =>
      rw [hb] at h
      cases hc : countSet names x vs with
      | error e => rw [hc] at h; cases h
      | ok m =>
        rw [hc] at h
        obtain ⟨i1, i2, i3⟩ := ih m hc
        obtain ⟨j1, j2⟩ := bitOf_ok hn x v b hb
        cases h
        refine ⟨?_, ?_, ?_⟩
        · cases b <;> simp <;> omega
        · intro w hw
          rcases List.mem_cons.1 hw with rfl | hw
          · exact j1
          · exact i2 w hw
        · constructor
          · intro he w hw
            have hbt : b = true := by
              cases b
              · simp at he; omega
              · rfl
            subst hbt
            rcases List.mem_cons.1 hw with rfl | hw
            · exact j2.1 rfl
            · refine i3.1 ?_ w hw
              simp at he
              omega
          · intro hall
            have hbt : b = true := j2.2 (hall v (List.mem_cons_self ..))
            subst hbt
            have := i3.2 (fun w hw => hall w (List.mem_cons_of_mem _ hw))
            simp
            omega

theorem countSet_total {names : List (List Char)} (x : List Bool) (vs : List (List Char))
    (h : ∀ v ∈ vs, stripL v ∈ names) : ∃ n, countSet names x vs = .ok n := by
  induction vs with
  | nil => exact ⟨0, rfl⟩
  | cons v vs ih =>
    obtain ⟨b, hb⟩ := bitOf_total (names := names) x v (h v (List.mem_cons_self ..))
    obtain ⟨n, hn⟩ := ih (fun w hw => h w (List.mem_cons_of_mem _ hw))
    rw [countSet_cons, hb, hn]
    exact ⟨_, rfl⟩

theorem has_mem {names : List (List Char)} {x : List Bool} {v : List Char} (h : Has names x v) : v ∈ names := by
  obtain ⟨i, h1, _⟩ := h
  exact List.mem_iff_getElem?.2 ⟨i, h1⟩

theorem validateUsage_include {names : List (List Char)} (hn : Plain names) (x : List Bool) (vs : List (List Char)) :
    validateUsage names vs x false = .ok true ↔ ∀ v ∈ vs, Has names x (stripL v) := by
  change (match countSet names x vs with
    | .error e => .error e
    | .ok n => .ok (decide (vs.length = n)) : Except PyErr Bool) = _ ↔ _
  constructor
  · intro h
    cases hc : countSet names x vs with
    | error e => rw [hc] at h; cases h
    | ok n =>
      rw [hc] at h
      refine ((countSet_ok hn x vs n hc).2.2).1 ?_
      simpa using h
  · intro h
    obtain ⟨n, hc⟩ := countSet_total (names := names) x vs (fun v hv => has_mem (h v hv))
    rw [hc]
    have := ((countSet_ok hn x vs n hc).2.2).2 h
    simp [this]

theorem has_usageOf {names vs : List (List Char)} {y : List Bool} (h : usageOf names vs = .ok y) (n : List Char)
    (hm : n ∈ names) : Has names y n ↔ n ∈ vs.map stripL := by
  unfold usageOf at h
  split at h
  · cases h
    unfold Has
    constructor
    · rintro ⟨i, h1, h2⟩
      rw [List.getElem?_map, h1] at h2
      simpa using h2
    · intro hv
      obtain ⟨i, hi⟩ := List.mem_iff_getElem?.1 hm
      refine ⟨i, hi, ?_⟩
      rw [List.getElem?_map, hi]
      simpa using hv
  · cases h

theorem validateUsage_same {names : List (List Char)} (hn : Plain names) (x : List Bool) (vs : List (List Char)) :
    validateUsage names vs x true = .ok true ↔
      (∀ v ∈ vs, stripL v ∈ names) ∧ ∀ n ∈ names, Has names x n ↔ n ∈ vs.map stripL := by
  change (match usageOf names vs with
    | .error e => .error e
    | .ok y => .ok (decide (setNames names x = setNames names y)) : Except PyErr Bool) = _ ↔ _
  by_cases hk : ∀ v ∈ vs, stripL v ∈ names
  · have hu : usageOf names vs = .ok (names.map (fun n => decide (n ∈ vs.map stripL))) := if_pos hk
    rw [hu]
    simp only [Except.ok.injEq, decide_eq_true_eq]
    rw [setNames_eq_iff hn.nodup]
    constructor
    · intro h
      exact ⟨hk, fun n hm => (h n hm).trans (has_usageOf hu n hm)⟩
    · rintro ⟨_, h⟩ n hm
      exact (h n hm).trans (has_usageOf hu n hm).symm
  · have hu : usageOf names vs = .error .pyasn1Error := if_neg hk
    rw [hu]
    constructor
    · intro h; cases h
    · rintro ⟨h, _⟩; exact absurd h hk

/-- **C123.** `validate_key_usage` accepts exactly the certificates of the documented levels: with `LAX` the extension
is absent or has every expected bit, with `STRICT` it is present and has them, with `ABS_STRICT` its named bits are
the expected ones; with `NONE` everything. -/
theorem C123_usage (names : List (List Char)) (hn : Plain names) (usage : Except PyErr (Option (List Bool)))
    (expected : List (List Char)) (s : Strictness) :
    validateKeyUsage names usage expected s = .ok () ↔
      s = .none ∨ (s = .lax ∧ (usage = .ok none ∨ ∃ x, usage = .ok (some x) ∧ ∀ v ∈ expected, Has names x (stripL v))) ∨
      (s = .strict ∧ ∃ x, usage = .ok (some x) ∧ ∀ v ∈ expected, Has names x (stripL v)) ∨
      (s = .absStrict ∧ ∃ x, usage = .ok (some x) ∧ (∀ v ∈ expected, stripL v ∈ names) ∧
        ∀ n ∈ names, Has names x n ↔ n ∈ expected.map stripL) := by
  have key : ∀ same x, (match validateUsage names expected x same with
      | .error e => .error e
      | .ok b => if b then .ok () else .error .badKeyUsage : Except PyErr Unit) = .ok () ↔
      validateUsage names expected x same = .ok true := by
    intro same x
    cases validateUsage names expected x same with
    | error e => simp
    | ok b => cases b <;> simp
  cases s with
  | none => simp [validateKeyUsage]
  | lax =>
    rcases usage with e | o
    · simp [validateKeyUsage]
    · cases o with
      | none => simp [validateKeyUsage]
      | some x =>
        have := key false x
        rw [validateUsage_include hn] at this
        simp only [reduceCtorEq, false_and, or_false, false_or, true_and, Except.ok.injEq, Option.some.injEq,
          exists_eq_left']
        exact this
  | strict =>
    rcases usage with e | o
    · simp [validateKeyUsage]
    · cases o with
      | none => simp [validateKeyUsage]
      | some x =>
        have := key false x
        rw [validateUsage_include hn] at this
        simp only [reduceCtorEq, false_and, or_false, false_or, true_and, Except.ok.injEq, Option.some.injEq,
          exists_eq_left']
        exact this
  | absStrict =>
    rcases usage with e | o
    · simp [validateKeyUsage]
    · cases o with
      | none => simp [validateKeyUsage]
      | some x =>
        have := key true x
        rw [validateUsage_same hn] at this
        simp only [reduceCtorEq, false_and, false_or, true_and, Except.ok.injEq, Option.some.injEq,
          exists_eq_left']
        exact this

/-- **C123 (partial).** `must_not_contain_key_usage` accepts a certificate exactly if the extension is absent, and
may be, or one of the named bits is not set (the names being known ones). -/
theorem C123_must_not_partial (names : List (List Char)) (hn : Plain names) (usage : Except PyErr (Option (List Bool)))
    (forbidden : List (List Char)) (hk : ∀ v ∈ forbidden, stripL v ∈ names) (present : Bool) :
    mustNotContain names usage forbidden present = .ok () ↔
      (usage = .ok none ∧ present = false) ∨
      ∃ x, usage = .ok (some x) ∧ ∃ v ∈ forbidden, ¬ Has names x (stripL v) := by
  rcases usage with e | o
  · simp [mustNotContain]
  cases o with
  | none => cases present <;> simp [mustNotContain]
  | some x =>
    have h := validateUsage_include hn x forbidden
    obtain ⟨n, hc⟩ := countSet_total (names := names) x forbidden hk
    have hv : validateUsage names forbidden x false = .ok (decide (forbidden.length = n)) := by
      change (match countSet names x forbidden with
        | .error e => .error e
        | .ok n => .ok (decide (forbidden.length = n)) : Except PyErr Bool) = _
      rw [hc]
    unfold mustNotContain
    dsimp only
    rw [hv] at h ⊢
    simp only [Except.ok.injEq, decide_eq_true_eq] at h
    by_cases hl : forbidden.length = n
    · simp only [hl, decide_true, if_true, reduceCtorEq, false_iff]
      rintro (⟨h1, _⟩ | ⟨y, h1, v, hv, h2⟩)
      · cases h1
      · cases h1; exact h2 (h.1 hl v hv)
    · simp only [hl, decide_false, Bool.false_eq_true, if_false, true_iff]
      refine .inr ⟨x, rfl, ?_⟩
      refine Classical.byContradiction fun hno => hl (h.2 fun v hv => ?_)
      exact Classical.byContradiction fun hh => hno ⟨v, hv, hh⟩

theorem keyUsageNames_plain : Plain keyUsageNames :=
  ⟨by decide +kernel, by decide +kernel⟩

/-- **C123.** The names stand for the bits of RFC 5280, section 4.2.1.3. -/
theorem C123_bits (i : Nat) (n : String) (x : List Bool)
    (h : ["digitalSignature", "nonRepudiation", "keyEncipherment", "dataEncipherment", "keyAgreement", "keyCertSign",
      "cRLSign", "encipherOnly", "decipherOnly"][i]? = some n) :
    Has keyUsageNames x n.toList ↔ x[i]? = some true := by
  have hnd : keyUsageNames.Nodup := by decide +kernel
  have hk : keyUsageNames = ["digitalSignature", "nonRepudiation", "keyEncipherment", "dataEncipherment",
      "keyAgreement", "keyCertSign", "cRLSign", "encipherOnly", "decipherOnly"].map String.toList := rfl
  have hi : keyUsageNames[i]? = some n.toList := by rw [hk, List.getElem?_map, h]; rfl
  constructor
  · rintro ⟨j, hj, hx⟩
    obtain ⟨hj', e1⟩ := List.getElem?_eq_some_iff.1 hj
    obtain ⟨hi', e2⟩ := List.getElem?_eq_some_iff.1 hi
    have : j = i := by
      rcases Nat.lt_trichotomy j i with hl | hl | hl
      · exact absurd (e1.trans e2.symm) ((List.pairwise_iff_getElem.1 hnd) j i hj' hi' hl)
      · exact hl
      · exact absurd (e2.trans e1.symm) ((List.pairwise_iff_getElem.1 hnd) i j hi' hj' hl)
    rw [← this]
    exact hx
  · intro hx
    exact ⟨i, hi, hx⟩

example : Has keyUsageNames [false, false, true] "keyEncipherment".toList := (C123_bits 2 _ _ rfl).2 rfl

/-- **C123 (refuted).** The documentation of `must_not_contain_key_usage` says that it raises if the certificate
contains *any* of the given attributes; it raises only if the certificate contains all of them. A certificate with
`keyCertSign` passes the check that it must contain neither `keyCertSign` nor `cRLSign`. -/
theorem C123_must_not_refuted :
    ∃ (x : List Bool) (forbidden : List (List Char)),
      (∃ v ∈ forbidden, Has keyUsageNames x (stripL v)) ∧
      mustNotContain keyUsageNames (.ok (some x)) forbidden false = .ok () :=
  ⟨[false, false, false, false, false, true], ["keyCertSign".toList, " cRLSign".toList],
    ⟨"keyCertSign".toList, List.mem_cons_self .., 5, by decide +kernel, by decide +kernel⟩, by decide +kernel⟩

/-! ## Extended key usages -/

theorem length_filter_eq {l e : List String} (hl : l.Nodup) (he : e.Nodup) :
    e.length = (l.filter (fun o => decide (o ∈ e))).length ↔ ∀ n ∈ e, n ∈ l := by
  have hf : (l.filter (fun o => decide (o ∈ e))).Nodup := hl.filter _
  have hsub : ∀ n ∈ l.filter (fun o => decide (o ∈ e)), n ∈ e := by
    intro n h
    simpa using (List.mem_filter.1 h).2
  constructor
  · intro h n hn
    have hp : (l.filter (fun o => decide (o ∈ e))).Perm e :=
      (List.subperm_of_subset hf hsub).perm_of_length_le (by omega)
    exact (List.mem_filter.1 (hp.mem_iff.2 hn)).1
  · intro h
    have h2 : e ⊆ l.filter (fun o => decide (o ∈ e)) := fun n hn => List.mem_filter.2 ⟨h n hn, by simpa using hn⟩
    have a := (List.subperm_of_subset he h2).length_le
    have b := (List.subperm_of_subset hf hsub).length_le
    omega

theorem cmpEkus_nodup : cmpEkus.Nodup := by decide

/-- The arguments of `validate_cmp_extended_key_usage` that name CMP usages only, and at least one. -/
def GoodPieces (pieces : List String) : Prop := pieces ≠ [] ∧ ∀ p ∈ pieces, p ∈ cmpEkus

theorem expected_mem {pieces : List String} (hg : GoodPieces pieces) (n : String) :
    n ∈ cmpEkus.filter (fun n => decide (n ∈ pieces)) ↔ n ∈ pieces := by
  simp only [List.mem_filter, decide_eq_true_eq]
  exact ⟨fun h => h.2, fun h => ⟨hg.2 n h, h⟩⟩

theorem validateEku_good {pieces : List String} (hg : GoodPieces pieces) (l : List String) (s : Strictness)
    (hs : s ≠ .none) :
    validateEku (.ok (some l)) pieces s = .ok () ↔
      (cmpEkus.filter (fun n => decide (n ∈ pieces))).length
        = (l.filter (fun o => decide (o ∈ cmpEkus.filter (fun n => decide (n ∈ pieces))))).length ∧
      (s = .absStrict → l.length = (cmpEkus.filter (fun n => decide (n ∈ pieces))).length) := by
  have hne : ¬ (cmpEkus.filter (fun n => decide (n ∈ pieces)) = [] ∨ ∃ p ∈ pieces, p ∉ cmpEkus) := by
    rintro (h | ⟨p, hp, hc⟩)
    · cases hp : pieces with
      | nil => exact hg.1 hp
      | cons a as =>
        have := (expected_mem hg a).2 (by rw [hp]; exact List.mem_cons_self ..)
        rw [h] at this
        cases this
    · exact hc (hg.2 p hp)
  unfold validateEku
  rw [if_neg hs]
  dsimp only
  rw [if_neg hne]
  by_cases h1 : (cmpEkus.filter (fun n => decide (n ∈ pieces))).length
      = (l.filter (fun o => decide (o ∈ cmpEkus.filter (fun n => decide (n ∈ pieces))))).length
  · rw [if_neg (not_not_intro h1)]
    by_cases h2 : s = .absStrict ∧ l.length ≠ (cmpEkus.filter (fun n => decide (n ∈ pieces))).length
    · rw [if_pos h2]
      simp only [reduceCtorEq, false_iff]
      rintro ⟨_, h⟩
      exact h2.2 (h h2.1)
    · rw [if_neg h2]
      simp only [true_iff]
      refine ⟨h1, fun he => Classical.byContradiction fun hh => h2 ⟨he, hh⟩⟩
  · rw [if_pos h1]
    simp only [reduceCtorEq, false_iff]
    exact fun h => h1 h.1

/-- **C123 (partial).** For a certificate without repeated extended key usages and an argument that names CMP usages
without blanks, `validate_cmp_extended_key_usage` accepts exactly the documented certificates. -/
theorem C123_eku_partial (l pieces : List String) (hl : l.Nodup) (hg : GoodPieces pieces) (s : Strictness)
    (hs : s ≠ .none) :
    validateEku (.ok (some l)) pieces s = .ok () ↔
      (∀ n ∈ pieces, n ∈ l) ∧ (s = .absStrict → ∀ n ∈ l, n ∈ pieces) := by
  have he : (cmpEkus.filter (fun n => decide (n ∈ pieces))).Nodup := cmpEkus_nodup.filter _
  have hm := expected_mem hg
  rw [validateEku_good hg l s hs, length_filter_eq hl he]
  constructor
  · rintro ⟨h1, h2⟩
    refine ⟨fun n hn => h1 n ((hm n).2 hn), fun ha n hn => ?_⟩
    have hp : (cmpEkus.filter (fun n => decide (n ∈ pieces))).Perm l :=
      (List.subperm_of_subset he h1).perm_of_length_le (by rw [h2 ha]; exact Nat.le_refl _)
    exact (hm n).1 (hp.mem_iff.2 hn)
  · rintro ⟨h1, h2⟩
    refine ⟨fun n hn => h1 n ((hm n).1 hn), fun ha => ?_⟩
    have a := (List.subperm_of_subset he (fun n hn => h1 n ((hm n).1 hn))).length_le
    have b := (List.subperm_of_subset hl (fun n hn => (hm n).2 (h2 ha n hn))).length_le
    omega

/-- **C123.** An absent extension passes only `NONE` and `LAX`. -/
theorem C123_eku_absent (pieces : List String) (s : Strictness) :
    validateEku (.ok none) pieces s = .ok () ↔ s = .none ∨ s = .lax := by
  cases s <;> simp [validateEku]

/-- **C123 (refuted).** A certificate that repeats one usage passes for one that has both: the number of matches is
compared, not the set. -/
theorem C123_eku_repeated_refuted :
    ∃ (l pieces : List String), GoodPieces pieces ∧ (∃ n ∈ pieces, n ∉ l) ∧
      validateEku (.ok (some l)) pieces .strict = .ok () ∧ validateEku (.ok (some l)) pieces .absStrict = .ok () :=
  ⟨["cmcCA", "cmcCA"], ["cmcCA", "cmcRA"], by unfold GoodPieces; decide, ⟨"cmcRA", by decide⟩, by decide +kernel,
    by decide +kernel⟩

/-- **C123 (refuted).** Blanks after a comma, as in the documented call `ext_key_usage=cmcCA, cmcRA`, make the check
fail for every certificate that has the extension. -/
theorem C123_eku_blank_refuted (l : List String) (s : Strictness) (hs : s ≠ .none) :
    validateEku (.ok (some l)) ["cmcCA", " cmcRA"] s = .error .valueError := by
  unfold validateEku
  rw [if_neg hs]
  dsimp only
  exact if_pos (.inr ⟨" cmcRA", by decide, by decide⟩)

/-- A signer certificate with `digitalSignature` and `keyAgreement`. -/
example : validateKeyUsage keyUsageNames (.ok (some [true, false, false, false, true])) ["digitalSignature".toList] .lax
    = .ok () := by decide +kernel
example : validateKeyUsage keyUsageNames (.ok (some [true, false, false, false, true])) ["digitalSignature".toList] .absStrict
    = .error .badKeyUsage := by decide +kernel
example : validateKeyUsage keyUsageNames (.ok (some [true, false, false, false, true]))
    ["keyAgreement".toList, " digitalSignature".toList] .absStrict = .ok () := by decide +kernel
example : validateKeyUsage keyUsageNames (.ok (some [false, false, true])) ["digitalSignature".toList] .lax
    = .error .badKeyUsage := by decide +kernel
example : validateEku (.ok (some ["1.3.6.1.5.5.7.3.1", "cmKGA"])) ["cmKGA"] .strict = .ok () := by decide +kernel
example : validateEku (.ok (some ["1.3.6.1.5.5.7.3.1", "cmKGA"])) ["cmKGA"] .absStrict = .error .valueError := by
  decide +kernel
example : validateEku (.ok (some ["cmcRA"])) ["cmKGA"] .lax = .error .valueError := by decide +kernel

end Verif.Check
