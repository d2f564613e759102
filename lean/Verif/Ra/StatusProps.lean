import Verif.Ra.Status
import Verif.Ra.BuildProps
import Verif.Check.HeaderProps

/-!
# Properties of the checks of a status (C196-C199)
-/

namespace Verif.Ra

open Verif.CA (Bytes PyErr)
open Verif.Check (stripL isBitSetNames compareNamedValues countMatches compareNamedInteger pkiStatusNames bitSet eitherBitSet
  setNames indicesOf splitNames Plain RfcStatus countMatches_ok C98_exclusive_integer_partial C98_any_bit_partial
  C98_single_bit_partial indicesOf_total indicesOf_ok)

variable {C : Type}

/-! ## C196 -/

/-- `info` is the first status in the message. -/
inductive FirstInfo : SBody C → StInfo → Prop
  | error (i) : FirstInfo (.error i) i
  | rp (i l) : FirstInfo (.rp (i :: l)) i
  | ip (r l) : FirstInfo (.ip (r :: l)) r.info
  | cp (r l) : FirstInfo (.cp (r :: l)) r.info
  | kup (r l) : FirstInfo (.kup (r :: l)) r.info
  | ccp (r l) : FirstInfo (.ccp (r :: l)) r.info
  | certConf (i l) : FirstInfo (.certConf (i :: l)) i

theorem getInfo_first {b : SBody C} {info : StInfo} (h : getInfo b 0 = .ok info) (hs : info.status ≠ none) : FirstInfo b info := by
  cases b with
  | error s => cases h; exact .error ..
  | rp l => cases l <;> cases h <;> first | exact absurd rfl hs | exact .rp ..
  | ip l => cases l <;> cases h <;> first | exact absurd rfl hs | exact .ip ..
  | cp l => cases l <;> cases h <;> first | exact absurd rfl hs | exact .cp ..
  | kup l => cases l <;> cases h <;> first | exact absurd rfl hs | exact .kup ..
  | ccp l => cases l <;> cases h <;> first | exact absurd rfl hs | exact .ccp ..
  | certConf l => cases l <;> cases h <;> first | exact absurd rfl hs | exact .certConf ..
  | krp c => cases h
  | other n => cases h

theorem first_getInfo {b : SBody C} {info : StInfo} (h : FirstInfo b info) : getInfo b 0 = .ok info := by
  cases h <;> rfl

/-- The status has one of the names in the text, and all of them are names of a status (RFC 9810, 5.2.3). -/
def HasStatus (x : Option Int) (w : List Char) : Prop :=
  (∀ t, Piece ',' (stripL w) t → ∃ n, RfcStatus n (stripL t)) ∧
  ∃ t n, Piece ',' (stripL w) t ∧ RfcStatus n (stripL t) ∧ x = some (n : Int)

theorem rfcStatus_iff (n : Nat) (t : List Char) : RfcStatus n t ↔ pkiStatusNames[n]? = some t := by
  constructor
  · intro h
    cases h <;> rfl
  · intro h
    match n, h with
    | 0, h => cases h; exact .accepted
    | 1, h => cases h; exact .grantedWithMods
    | 2, h => cases h; exact .rejection
    | 3, h => cases h; exact .waiting
    | 4, h => cases h; exact .revocationWarning
    | 5, h => cases h; exact .revocationNotification
    | 6, h => cases h; exact .keyUpdateWarning
    | n + 7, h => cases h

theorem countMatches_total (names : List (List Char)) (x : Int) : ∀ (values : List (List Char)),
    (∀ v ∈ values, stripL v ∈ names) → ∃ n, countMatches names x values = .ok n
  | [], _ => ⟨0, rfl⟩
  | v :: vs, h => by
    obtain ⟨n, hn⟩ := countMatches_total names x vs (fun w hw => h w (List.mem_cons_of_mem _ hw))
    unfold countMatches compareNamedInteger
    rw [if_pos (h v (List.mem_cons_self ..)), hn]
    exact ⟨_, rfl⟩

theorem compareStatus_iff (x : Option Int) (w : List Char) : compareStatus x w = .ok true ↔ HasStatus x w := by
  cases x with
  | none =>
    constructor
    · intro h
      unfold compareStatus at h
      dsimp only at h
      split at h
      · split at h <;> cases h
      · cases h
    · rintro ⟨_, t, n, _, _, h⟩
      cases h
  | some x =>
    unfold compareStatus
    dsimp only
    constructor
    · intro h
      have hn : ∀ v ∈ splitAt ',' (stripL w), stripL v ∈ pkiStatusNames := by
        unfold compareNamedValues at h
        cases hc : countMatches pkiStatusNames x (splitAt ',' (stripL w)) with
        | error e => rw [hc] at h; cases h
        | ok n => exact (countMatches_ok _ _ _ _ hc).1
      refine ⟨fun t ht => ?_, ?_⟩
      · obtain ⟨n, hn⟩ := List.mem_iff_getElem?.1 (hn t ((mem_splitAt_iff ..).2 ht))
        exact ⟨n, (rfcStatus_iff ..).2 hn⟩
      · obtain ⟨v, hv, i, hi, rfl, _⟩ := (C98_exclusive_integer_partial _ _ _ _ h).1 rfl
        exact ⟨v, i, (mem_splitAt_iff ..).1 hv, (rfcStatus_iff ..).2 hi, rfl⟩
    · rintro ⟨h1, t, n, ht, hn, hx⟩
      cases hx
      have hmem : ∀ v ∈ splitAt ',' (stripL w), stripL v ∈ pkiStatusNames := by
        intro v hv
        obtain ⟨m, hm⟩ := h1 v ((mem_splitAt_iff ..).1 hv)
        exact List.mem_iff_getElem?.2 ⟨m, (rfcStatus_iff ..).1 hm⟩
      obtain ⟨k, hk⟩ := countMatches_total pkiStatusNames n _ hmem
      have hr : compareNamedValues pkiStatusNames n (splitAt ',' (stripL w)) true = .ok (if k = 0 then false else true) := by
        unfold compareNamedValues
        rw [hk]
      rw [hr]
      congr 1
      refine (C98_exclusive_integer_partial _ _ _ _ hr).2 ⟨t, (mem_splitAt_iff ..).2 ht, n, (rfcStatus_iff ..).1 hn, rfl, ?_⟩
      intro j hj he
      have hnd : pkiStatusNames.Nodup := by decide +kernel
      have h2 := (rfcStatus_iff ..).1 hn
      have h3 := Verif.Check.idxOf_of_getElem? hnd he
      have h4 := Verif.Check.idxOf_of_getElem? hnd h2
      omega

/-- **C196.** The check passes if and only if a status or failure is wanted, the first status of the message has one of
the names wanted (`rejection`, if only a failure is), the body is of the type wanted, and, if a failure is wanted, there
are failure bits, and these are right or wrong ones are allowed. -/
theorem C196_accepted_iff (b : SBody C) (ty st fi : Option (List Char)) (ex must allow : Bool) :
    verifyStatus b ty st fi ex must allow = .ok () ↔
      ∃ info w, FirstInfo b info ∧ (st = some w ∨ (st = none ∧ fi ≠ none ∧ w = "rejection".toList)) ∧
        HasStatus info.status w ∧ (must = true → info.fail ≠ none) ∧
        (∀ f, fi = some f → ∃ r, isBitSetText info.fail (stripL f) ex = .ok r ∧ (r = true ∨ allow = true)) ∧
        (∀ t, ty = some t → stripL t = b.name) := by
  have hw : ∀ w, wantedStatus st fi = some w ↔ (st = some w ∨ (st = none ∧ fi ≠ none ∧ w = "rejection".toList)) := by
    intro w
    cases st <;> cases fi <;> simp [wantedStatus, eq_comm]
  have hc : ∀ x, checkFail x fi ex allow = .ok () ↔
      ∀ f, fi = some f → ∃ r, isBitSetText x (stripL f) ex = .ok r ∧ (r = true ∨ allow = true) := by
    intro x
    cases fi with
    | none => simp [checkFail]
    | some f =>
      unfold checkFail
      dsimp only
      cases hb : isBitSetText x (stripL f) ex with
      | error e =>
        constructor
        · intro h; cases h
        · intro h
          obtain ⟨r, h1, _⟩ := h f rfl
          rw [hb] at h1
          cases h1
      | ok r =>
        dsimp only
        by_cases hr : r = true ∨ allow = true
        · rw [if_pos (by simpa using hr)]
          refine ⟨fun _ f' e => ?_, fun _ => rfl⟩
          cases e
          exact ⟨r, hb, hr⟩
        · rw [if_neg (by simpa using hr)]
          constructor
          · intro h; cases h
          · intro h
            obtain ⟨r', h1, h2⟩ := h f rfl
            rw [hb] at h1
            cases h1
            exact absurd h2 hr
  have ht : checkType b ty = .ok () ↔ ∀ t, ty = some t → stripL t = b.name := by
    cases ty with
    | none => simp [checkType]
    | some t =>
      unfold checkType
      dsimp only
      by_cases h : stripL t = b.name
      · rw [if_pos h]; simp [h]
      · rw [if_neg h]; simp [h]
  unfold verifyStatus
  cases hws : wantedStatus st fi with
  | none =>
    constructor
    · intro h; cases h
    · rintro ⟨_, w, _, h, _⟩
      rw [(hw w).2 h] at hws
      cases hws
  | some w =>
    dsimp only
    cases hg : getInfo b 0 with
    | error e =>
      constructor
      · intro h; cases h
      · rintro ⟨i, _, h, _⟩
        rw [first_getInfo h] at hg
        cases hg
    | ok info =>
      dsimp only
      constructor
      · intro h
        split at h
        · cases h
        · cases h
        · rename_i hs
          split at h
          · cases h
          · rename_i hm
            split at h
            · cases h
            · rename_i hcf
              have hst := (compareStatus_iff _ _).1 hs
              refine ⟨info, w, getInfo_first hg ?_, (hw w).1 hws, hst, fun hmu hn => hm ⟨hn, hmu⟩, (hc _).1 hcf, ht.1 h⟩
              obtain ⟨_, t, n, _, _, e⟩ := hst
              rw [e]
              exact fun h => (by cases h)
      · rintro ⟨info', w', h1, h2, h3, h4, h5, h6⟩
        rw [first_getInfo h1] at hg
        cases hg
        rw [(hw w').2 h2] at hws
        cases hws
        rw [(compareStatus_iff _ _).2 h3]
        dsimp only
        rw [if_neg (fun hh => h4 hh.2 hh.1), (hc _).2 h5]
        exact ht.2 h6

theorem failNames_plain : Plain failNames := ⟨by decide +kernel, by decide +kernel⟩

/-- The text is made of digits and commas, and blanks at the ends. -/
def Numeric (s : List Char) : Prop := isDigits (stripL (s.filter (· ≠ ','))) = true

/-- **C196.** Without `exclusive` the answer about names is whether the bit of one of them is set. -/
theorem C196_names (x : List Bool) (s : List Char) (hs : ¬ Numeric s) (r : Bool)
    (h : isBitSetText (some x) s false = .ok r) :
    r = true ↔ ∃ t, ∃ i : Nat, Piece ',' (stripL s) t ∧ failNames[i]? = some (stripL t) ∧ x[i]? = some true := by
  unfold isBitSetText at h
  dsimp only at h
  rw [if_neg (show ¬ (isDigits (stripL (s.filter (· ≠ ','))) = true) from hs)] at h
  rw [C98_any_bit_partial _ failNames_plain _ _ _ h]
  constructor
  · rintro ⟨v, hv, i, h1, h2⟩
    exact ⟨v, i, (mem_splitAt_iff ..).1 hv, h1, h2⟩
  · rintro ⟨v, i, hv, h1, h2⟩
    exact ⟨v, (mem_splitAt_iff ..).2 hv, i, h1, h2⟩

/-- **C196.** With `exclusive` it is whether exactly one bit is set and this has one of the names, or the text is just
the names of the bits which are set. -/
theorem C196_names_exclusive (x : List Bool) (s : List Char) (hs : ¬ Numeric s) (r : Bool)
    (h : isBitSetText (some x) s true = .ok r) :
    r = true ↔ splitAt ',' (stripL s) = setNames failNames x ∨
      ∃ t, ∃ i : Nat, Piece ',' (stripL s) t ∧ failNames[i]? = some (stripL t) ∧ x[i]? = some true ∧ ∀ j : Nat, x[j]? = some true → j = i := by
  unfold isBitSetText at h
  dsimp only at h
  rw [if_neg (show ¬ (isDigits (stripL (s.filter (· ≠ ','))) = true) from hs)] at h
  unfold isBitSetNames at h
  dsimp only at h
  cases hi : indicesOf failNames ((splitAt ',' (stripL s)).map stripL) with
  | error e => rw [hi] at h; cases h
  | ok is =>
    obtain ⟨h1, h2⟩ := indicesOf_ok hi
    have hne : splitNames (setNames failNames x) = splitAt ',' (stripL s) ↔ splitAt ',' (stripL s) = setNames failNames x := by
      unfold splitNames
      split
      · rename_i he
        rw [he]
        constructor
        · intro hh
          rw [← hh] at h1
          exact absurd (h1 (stripL []) (by simp)) (by decide +kernel)
        · intro hh
          exact absurd hh (splitAt_ne_nil _ _)
      · exact eq_comm
    rw [hi] at h
    dsimp only at h
    split at h
    · rename_i he
      cases h
      simp only [true_iff]
      exact .inl (hne.1 he)
    · rename_i he
      split at h
      · cases h
      · cases h
        rw [or_iff_right (fun hh => he (hne.2 hh))]
        unfold eitherBitSet
        rw [h2]
        simp only [List.any_map, List.any_eq_true, Function.comp_apply]
        constructor
        · rintro ⟨v, hv, hb⟩
          obtain ⟨b1, b2⟩ := (C98_single_bit_partial x _ true).1 hb
          exact ⟨v, _, (mem_splitAt_iff ..).1 hv, Verif.Check.getElem?_idxOf (h1 _ (List.mem_map_of_mem hv)), b1, b2 rfl⟩
        · rintro ⟨v, i, hv, e1, e2, e3⟩
          refine ⟨v, (mem_splitAt_iff ..).2 hv, (C98_single_bit_partial x _ true).2 ⟨?_, fun _ j hj => ?_⟩⟩
          · rw [Verif.Check.idxOf_of_getElem? failNames_plain.nodup e1]
            exact e2
          · rw [Verif.Check.idxOf_of_getElem? failNames_plain.nodup e1]
            exact e3 j hj

theorem name_text : ∀ f ∈ failNames, isDigits (stripL ((stripL f).filter (· ≠ ','))) = false ∧ splitAt ',' (stripL (stripL f)) = [f] ∧
    splitAt ',' (stripL f) = [f] ∧ isDigits (stripL (f.filter (· ≠ ','))) = false ∧ stripL f = f := by
  decide +kernel

/-- The answer for one name. -/
theorem isBitSetText_name (x : List Bool) (f : List Char) (hf : f ∈ failNames) (ex : Bool)
    (hall : ¬ (setNames failNames x = failNames ∧ ex = true)) : ∃ r, isBitSetText (some x) (stripL f) ex = .ok r := by
  obtain ⟨h1, h2, _, _, h5⟩ := name_text f hf
  unfold isBitSetText
  dsimp only
  rw [h1, h2, if_neg (by decide)]
  unfold isBitSetNames
  dsimp only
  rw [show [f].map stripL = [f] from by rw [List.map_singleton, h5], indicesOf_total (by simpa using hf)]
  dsimp only
  split
  · exact ⟨_, rfl⟩
  · rw [if_neg]
    · exact ⟨_, rfl⟩
    · rintro ⟨e1, e2⟩
      unfold splitNames at e1
      split at e1
      · exact absurd e1 (by decide +kernel)
      · exact hall ⟨e1, e2⟩

/-- **C196 refuted.** With the default arguments a rejection passes the check for each failure, whatever failure bits it
has, as long as it has some and not all of them. -/
theorem C196_wrong_refuted (b : SBody C) (info : StInfo) (hi : FirstInfo b info) (hs : info.status = some 2) (x : List Bool)
    (hx : info.fail = some x) (hall : setNames failNames x ≠ failNames) (f : List Char) (hf : f ∈ failNames) :
    verifyStatus b none none (some f) = .ok () := by
  refine (C196_accepted_iff ..).2 ⟨info, _, hi, .inr ⟨rfl, fun h => (by cases h), rfl⟩, ?_, fun h => (by cases h), ?_, fun t h => (by cases h)⟩
  · rw [hs]
    exact (compareStatus_iff _ _).1 (by decide +kernel)
  · intro f' e
    cases e
    rw [hx]
    obtain ⟨r, hr⟩ := isBitSetText_name x f hf true (fun hh => hall hh.1)
    exact ⟨r, hr, .inr rfl⟩

/-- **C196.** A response without any failure bits is refused, though, also if wrong ones are allowed. -/
theorem C196_absent (b : SBody C) (info : StInfo) (hi : FirstInfo b info) (hx : info.fail = none) (ty st : Option (List Char))
    (f : List Char) (ex must allow : Bool) : verifyStatus b ty st (some f) ex must allow ≠ .ok () := by
  intro h
  obtain ⟨info', w, h1, _, _, _, h5, _⟩ := (C196_accepted_iff ..).1 h
  have : info' = info := by
    have e1 := first_getInfo h1
    rw [first_getInfo hi] at e1
    cases e1
    rfl
  subst this
  obtain ⟨r, hr, _⟩ := h5 f rfl
  rw [hx] at hr
  cases hr

/-- **C196 refuted.** Only the first status of a response counts: if it is `accepted`, the others are not looked at. -/
theorem C196_later_refuted (i : StInfo) (hi : i.status = some 0) (l : List StInfo) :
    verifyStatus (.rp (i :: l) : SBody C) (some "rp".toList) (some "accepted".toList) none = .ok () := by
  refine (C196_accepted_iff ..).2 ⟨i, _, .rp .., .inl rfl, ?_, fun h => (by cases h), fun f h => (by cases h), fun t h => ?_⟩
  · rw [hi]
    exact (compareStatus_iff _ _).1 (by decide +kernel)
  · cases h
    exact (by decide +kernel : stripL "rp".toList = "rp".toList)

/-! ## C197 -/

/-- `info` is the status at position `i`. -/
inductive InfoAt : SBody C → Nat → StInfo → Prop
  | error (s i) : InfoAt (.error s) i s
  | rp (l i s) : l[i]? = some s → InfoAt (.rp l) i s
  | ip (l i r) : l[i]? = some r → InfoAt (.ip l) i r.info
  | cp (l i r) : l[i]? = some r → InfoAt (.cp l) i r.info
  | kup (l i r) : l[i]? = some r → InfoAt (.kup l) i r.info
  | ccp (l i r) : l[i]? = some r → InfoAt (.ccp l) i r.info
  | certConf (l i s) : l[i]? = some s → InfoAt (.certConf l) i s

theorem infoAt_get {b : SBody C} {i : Nat} {info : StInfo} (h : InfoAt b i info) : getInfo b i = .ok info := by
  cases h <;> first | rfl | (unfold getInfo; simp_all [entryInfo, entryResp])

theorem get_infoAt {b : SBody C} {i : Nat} {info : StInfo} (h : getInfo b i = .ok info) (hs : info ≠ {}) : InfoAt b i info := by
  cases b with
  | error s => cases h; exact .error ..
  | krp c => cases h
  | other n => cases h
  | rp l =>
    unfold getInfo entryInfo at h
    dsimp only at h
    cases hl : l[i]? with
    | none => rw [hl] at h; cases h; exact absurd rfl hs
    | some s => rw [hl] at h; cases h; exact .rp _ _ _ hl
  | certConf l =>
    unfold getInfo entryInfo at h
    dsimp only at h
    cases hl : l[i]? with
    | none => rw [hl] at h; cases h; exact absurd rfl hs
    | some s => rw [hl] at h; cases h; exact .certConf _ _ _ hl
  | ip l =>
    unfold getInfo entryResp at h
    dsimp only at h
    cases hl : l[i]? with
    | none => rw [hl] at h; cases h; exact absurd rfl hs
    | some s => rw [hl] at h; cases h; exact .ip _ _ _ hl
  | cp l =>
    unfold getInfo entryResp at h
    dsimp only at h
    cases hl : l[i]? with
    | none => rw [hl] at h; cases h; exact absurd rfl hs
    | some s => rw [hl] at h; cases h; exact .cp _ _ _ hl
  | kup l =>
    unfold getInfo entryResp at h
    dsimp only at h
    cases hl : l[i]? with
    | none => rw [hl] at h; cases h; exact absurd rfl hs
    | some s => rw [hl] at h; cases h; exact .kup _ _ _ hl
  | ccp l =>
    unfold getInfo entryResp at h
    dsimp only at h
    cases hl : l[i]? with
    | none => rw [hl] at h; cases h; exact absurd rfl hs
    | some s => rw [hl] at h; cases h; exact .ccp _ _ _ hl

theorem digits_no_status (y : Int) (m : Nat) (hm : RfcStatus m (toString y).toList) : False := by
  have h1 : ∀ c ∈ (toString y).toList, c = '-' ∨ c.isDigit = true := by
    intro c hc
    have hd : ∀ k : Nat, c ∈ (toString k).toList → c.isDigit = true := fun k hk =>
      Nat.isDigit_of_mem_toDigits (b := 10) (n := k) (by decide) (by decide) (by simpa using hk)
    cases y with
    | ofNat k => exact .inr (hd k hc)
    | negSucc k =>
      have : (toString (Int.negSucc k)) = "-" ++ toString (k + 1) := rfl
      rw [this, String.toList_append] at hc
      rcases List.mem_append.1 hc with hc | hc
      · left; simpa using hc
      · exact .inr (hd _ hc)
  generalize (toString y).toList = t at hm h1
  cases hm <;> exact absurd (h1 _ (List.mem_cons_self ..)) (by decide)

theorem statusText_iff (x : Option Int) (n : Nat) (s : List Char) (hs : RfcStatus n s) :
    statusText x = .ok s ↔ x = some (n : Int) := by
  have hn := (rfcStatus_iff ..).1 hs
  have hnd : pkiStatusNames.Nodup := by decide +kernel
  constructor
  · intro h
    cases x with
    | none => cases h
    | some x =>
      unfold statusText at h
      dsimp only at h
      injection h with h
      split at h
      · cases hp : pkiStatusNames[x.toNat]? with
        | none =>
          rw [hp] at h
          have h' : (toString x).toList = s := h
          rw [← h'] at hs
          exact (digits_no_status x n hs).elim
        | some t =>
          rw [hp] at h
          have h' : t = s := h
          subst h'
          have h3 := Verif.Check.idxOf_of_getElem? hnd hp
          have h4 := Verif.Check.idxOf_of_getElem? hnd hn
          congr 1
          omega
      · rw [← h] at hs
        exact (digits_no_status x n hs).elim
  · rintro rfl
    unfold statusText
    dsimp only
    rw [if_pos (by omega), show (n : Int).toNat = n from rfl, hn]
    rfl

/-- **C197.** `PKIStatus Must Be` passes for the name of a status if and only if the message has this status at the
position given. -/
theorem C197_status_iff (b : SBody C) (i n : Nat) (s : List Char) (hs : RfcStatus n s) :
    statusMustBe b s i = .ok () ↔ ∃ info, InfoAt b i info ∧ info.status = some (n : Int) := by
  unfold statusMustBe getStatus
  constructor
  · intro h
    cases hg : getInfo b i with
    | error e => rw [hg] at h; cases h
    | ok info =>
      rw [hg] at h
      dsimp only at h
      cases ht : statusText info.status with
      | error e => rw [ht] at h; cases h
      | ok t =>
        rw [ht] at h
        dsimp only at h
        split at h
        · rename_i he
          subst he
          have hx := (statusText_iff _ _ _ hs).1 ht
          exact ⟨info, get_infoAt hg (fun e => by rw [e] at hx; cases hx), hx⟩
        · cases h
  · rintro ⟨info, h1, h2⟩
    rw [infoAt_get h1]
    dsimp only
    rw [(statusText_iff _ _ _ hs).2 h2]
    dsimp only
    rw [if_pos rfl]

/-- **C197 refuted.** The documented call with the text `rejected` fails for each rejection. -/
theorem C197_rejected_refuted (b : SBody C) (i : Nat) (info : StInfo) (h : InfoAt b i info) (hs : info.status = some 2) :
    statusMustBe b "rejected".toList i = .error .assertionError := by
  unfold statusMustBe getStatus
  rw [infoAt_get h]
  dsimp only
  rw [hs]
  decide +kernel

/-- **C197.** `PKIStatusInfo failinfo Bit Must Be` passes for the name of a failure if and only if the message has
failure bits at the position, and the one of the failure is set, or correct ones are not insisted on. -/
theorem C197_fail_iff (strict : Bool) (b : SBody C) (k i : Nat) (f : List Char) (hf : failNames[k]? = some f) :
    failMustBe strict b f false i = .ok () ↔
      ∃ info x, InfoAt b i info ∧ info.fail = some x ∧ (strict = true → x[k]? = some true) := by
  have hmem := List.mem_iff_getElem?.2 ⟨k, hf⟩
  obtain ⟨hd, hsp, hsp', hd', hst⟩ := name_text f hmem
  have hbit : ∀ x r, isBitSetText (some x) f false = .ok r → (r = true ↔ x[k]? = some true) := by
    intro x r h
    rw [C196_names x f (by unfold Numeric; rw [hd']; decide) r h]
    constructor
    · rintro ⟨t, j, h1, h2, h3⟩
      have : t = f := by
        have := (mem_splitAt_iff ..).2 h1
        rw [hsp'] at this
        simpa using this
      subst this
      rw [hst] at h2
      have h4 := Verif.Check.idxOf_of_getElem? failNames_plain.nodup h2
      have h5 := Verif.Check.idxOf_of_getElem? failNames_plain.nodup hf
      have : j = k := by omega
      rw [← this]
      exact h3
    · intro h
      exact ⟨f, k, (mem_splitAt_iff ..).1 (by rw [hsp']; exact List.mem_cons_self ..), by rw [hst]; exact hf, h⟩
  unfold failMustBe
  constructor
  · intro h
    cases hg : getInfo b i with
    | error e => rw [hg] at h; cases h
    | ok info =>
      rw [hg] at h
      dsimp only at h
      cases hx : info.fail with
      | none => rw [hx] at h; cases h
      | some x =>
        rw [hx] at h
        refine ⟨info, x, get_infoAt hg (fun e => by rw [e] at hx; cases hx), hx, fun hstr => ?_⟩
        cases hb : isBitSetText (some x) f false with
        | error e => rw [hb] at h; cases h
        | ok r =>
          rw [hb] at h
          subst hstr
          cases r with
          | true => exact (hbit x true hb).1 rfl
          | false => cases h
  · rintro ⟨info, x, h1, h2, h3⟩
    rw [infoAt_get h1]
    dsimp only
    rw [h2]
    obtain ⟨r, hr⟩ := isBitSetText_name x f hmem false (fun hh => (by cases hh.2))
    rw [hst] at hr
    rw [hr]
    dsimp only
    rw [if_neg]
    intro hh
    simp only [Bool.and_eq_true, Bool.not_eq_true'] at hh
    have := (hbit x r hr).2 (h3 hh.2)
    rw [this] at hh
    cases hh.1

/-- **C197.** `PKIMessage Body Type Must Be` passes if and only if it is the type of the body. -/
theorem C197_type_iff (b : SBody C) (s : List Char) : typeMustBe b s = .ok () ↔ b.name = s := by
  unfold typeMustBe
  by_cases h : b.name = s
  · rw [if_neg (not_not_intro h)]; simp [h]
  · rw [if_pos h]
    cases getInfo b 0 <;> simp [h]

/-! ## C198 -/

/-- `t` occurs in `s`. -/
def Occurs (t s : List Char) : Prop := ∃ pre post, s = pre ++ t ++ post

theorem inText_iff (t : List Char) : ∀ s, inText t s = true ↔ Occurs t s
  | [] => by
    unfold inText Occurs
    rw [List.isEmpty_iff]
    constructor
    · rintro rfl
      exact ⟨[], [], rfl⟩
    · rintro ⟨pre, post, h⟩
      have := congrArg List.length h
      simp only [List.length_nil, List.length_append] at this
      exact List.eq_nil_of_length_eq_zero (by omega)
  | c :: cs => by
    unfold inText
    rw [Bool.or_eq_true, inText_iff t cs, List.isPrefixOf_iff_prefix]
    constructor
    · rintro (⟨post, h⟩ | ⟨pre, post, h⟩)
      · exact ⟨[], post, h.symm⟩
      · exact ⟨c :: pre, post, by rw [h]; rfl⟩
    · rintro ⟨pre, post, h⟩
      cases pre with
      | nil => exact .inl ⟨post, h.symm⟩
      | cons d pre =>
        injection h with _ h2
        exact .inr ⟨pre, post, h2⟩

/-- `t` is the text of the first status at position `i`. -/
def TextAt (b : SBody C) (i : Nat) (t : List Char) : Prop :=
  ∃ info l, FirstInfo b info ∧ info.texts = some l ∧ l[i]? = some t

theorem first_or_absent {b : SBody C} {info : StInfo} (h : getInfo b 0 = .ok info) : FirstInfo b info ∨ info = {} := by
  cases b with
  | error s => cases h; exact .inl (.error _)
  | rp l => cases l <;> cases h <;> first | exact .inr rfl | exact .inl (.rp ..)
  | ip l => cases l <;> cases h <;> first | exact .inr rfl | exact .inl (.ip ..)
  | cp l => cases l <;> cases h <;> first | exact .inr rfl | exact .inl (.cp ..)
  | kup l => cases l <;> cases h <;> first | exact .inr rfl | exact .inl (.kup ..)
  | ccp l => cases l <;> cases h <;> first | exact .inr rfl | exact .inl (.ccp ..)
  | certConf l => cases l <;> cases h <;> first | exact .inr rfl | exact .inl (.certConf ..)
  | krp c => cases h
  | other n => cases h

theorem checkItems_any (t : List Char) (l : List (List Char)) :
    checkItems (some t) (some l) false = .ok () ↔ ∃ x ∈ l, Occurs x t := by
  unfold checkItems
  dsimp only
  rw [show (if false = true then l.all fun x => inText x t else l.any fun x => inText x t) = l.any fun x => inText x t from rfl]
  by_cases h : (l.any fun x => inText x t) = true
  · rw [if_pos h]
    obtain ⟨x, hx, ho⟩ := List.any_eq_true.1 h
    exact ⟨fun _ => ⟨x, hx, (inText_iff ..).1 ho⟩, fun _ => rfl⟩
  · rw [if_neg h]
    refine ⟨fun h => (by cases h), ?_⟩
    rintro ⟨x, hx, ho⟩
    exact absurd (List.any_eq_true.2 ⟨x, hx, (inText_iff x t).2 ho⟩) h

theorem checkItems_all (t : List Char) (l : List (List Char)) :
    checkItems (some t) (some l) true = .ok () ↔ ∀ x ∈ l, Occurs x t := by
  unfold checkItems
  dsimp only
  rw [show (if true = true then l.all fun x => inText x t else l.any fun x => inText x t) = l.all fun x => inText x t from rfl]
  by_cases h : (l.all fun x => inText x t) = true
  · rw [if_pos h]
    exact ⟨fun _ x hx => (inText_iff ..).1 (List.all_eq_true.1 h x hx), fun _ => rfl⟩
  · rw [if_neg h]
    refine ⟨fun h => (by cases h), fun hh => ?_⟩
    exact absurd (List.all_eq_true.2 fun x hx => (inText_iff ..).2 (hh x hx)) h

/-- **C198.** The check with non-empty texts passes if and only if the first status has a text at the position, in which
one part of the one and all parts of the other occur. -/
theorem C198_accepted_iff (b : SBody C) (a l : List Char) (ha : a ≠ []) (hl : l ≠ []) (i : Nat) (must : Bool) :
    verifyText b (some a) (some l) i must = .ok () ↔
      ∃ t, TextAt b i t ∧ (∃ x, Piece ',' a x ∧ Occurs x t) ∧ ∀ x, Piece ',' l x → Occurs x t := by
  have e1 : itemsOf (some a) = some (splitAt ',' a) := by cases a with
    | nil => exact absurd rfl ha
    | cons c cs => rfl
  have e2 : itemsOf (some l) = some (splitAt ',' l) := by cases l with
    | nil => exact absurd rfl hl
    | cons c cs => rfl
  unfold verifyText
  rw [e1, e2]
  constructor
  · intro h
    cases hg : getInfo b 0 with
    | error e => rw [hg] at h; cases h
    | ok info =>
      rw [hg] at h
      dsimp only at h
      split at h
      · cases h
      · cases ht : (info.texts.getD [])[i]? with
        | none => rw [ht] at h; cases h
        | some t =>
          rw [ht] at h
          cases h1 : checkItems (some t) (some (splitAt ',' a)) false with
          | error e => rw [h1] at h; cases h
          | ok u =>
            rw [h1] at h
            dsimp only at h
            obtain ⟨x, hx, ho⟩ := (checkItems_any ..).1 h1
            have hall := (checkItems_all ..).1 h
            refine ⟨t, ?_, ⟨x, (mem_splitAt_iff ..).1 hx, ho⟩, fun y hy => hall y ((mem_splitAt_iff ..).2 hy)⟩
            have hne : info ≠ {} := by
              rintro rfl
              cases ht
            refine ⟨info, info.texts.getD [], (first_or_absent hg).resolve_right hne, ?_, ht⟩
            cases htx : info.texts with
            | none => rw [htx] at ht; cases ht
            | some l => rfl
  · rintro ⟨t, ⟨info, ts, hi, htx, ht⟩, ⟨x, hx, ho⟩, hall⟩
    rw [first_getInfo hi]
    dsimp only
    rw [if_neg (fun hh => by rw [htx] at hh; cases hh.1), htx]
    dsimp only [Option.getD]
    rw [ht, (checkItems_any ..).2 ⟨x, (mem_splitAt_iff ..).2 hx, ho⟩]
    exact (checkItems_all ..).2 fun y hy => hall y ((mem_splitAt_iff ..).1 hy)

/-- **C198 refuted.** A comma at the end of the phrases makes the check pass for every text. -/
theorem C198_comma_refuted (b : SBody C) (i : Nat) (t : List Char) (h : TextAt b i t) (a : List Char) (must : Bool) :
    verifyText b (some (a ++ [','])) none i must = .ok () := by
  obtain ⟨info, ts, hi, htx, ht⟩ := h
  have e1 : itemsOf (some (a ++ [','])) = some (splitAt ',' (a ++ [','])) := by cases a <;> rfl
  unfold verifyText
  rw [first_getInfo hi, e1]
  dsimp only
  rw [if_neg (fun hh => by rw [htx] at hh; cases hh.1), htx]
  dsimp only [Option.getD]
  rw [ht, (checkItems_any t _).2 ⟨[], (mem_splitAt_iff ..).2 ⟨by simp, a ++ [','], [], by simp, .inr (by simp), .inl rfl⟩, [], t, rfl⟩]
  rfl

/-- **C198 refuted.** Without a text of the status the check for a phrase does not fail with a `ValueError`, as documented,
but with an error of the ASN.1 library, unless the text must be present. -/
theorem C198_absent_refuted (b : SBody C) (info : StInfo) (h : FirstInfo b info) (hn : info.texts = none) (a : List Char)
    (ha : a ≠ []) (i : Nat) :
    verifyText b (some a) none i false = .error .pyasn1Error ∧ verifyText b (some a) none i true = .error .valueError := by
  have e1 : itemsOf (some a) = some (splitAt ',' a) := by cases a with
    | nil => exact absurd rfl ha
    | cons c cs => rfl
  unfold verifyText
  rw [first_getInfo h, e1]
  dsimp only
  rw [hn]
  exact ⟨rfl, rfl⟩

/-- **C198.** Without any phrases the check passes for each text. -/
theorem C198_none (b : SBody C) (info : StInfo) (h : FirstInfo b info) (i : Nat) : verifyText b none none i false = .ok () := by
  unfold verifyText
  rw [first_getInfo h]
  dsimp only
  rw [if_neg (fun hh => by cases hh.2)]
  rfl

/-! ## C199 -/

/-- The response at position `i` of a message with responses. -/
inductive RespAt : SBody C → Nat → CResp C → Prop
  | ip (l i r) : l[i]? = some r → RespAt (.ip l) i r
  | cp (l i r) : l[i]? = some r → RespAt (.cp l) i r
  | kup (l i r) : l[i]? = some r → RespAt (.kup l) i r
  | ccp (l i r) : l[i]? = some r → RespAt (.ccp l) i r

theorem respAt_get {b : SBody C} {i : Nat} {r : CResp C} (h : RespAt b i r) : getResp b i = .ok r := by
  cases h <;> (unfold getResp entryResp; simp_all)

theorem get_respAt {b : SBody C} {i : Nat} {r : CResp C} (h : getResp b i = .ok r) (hr : r ≠ {}) : RespAt b i r := by
  cases b with
  | ip l =>
    unfold getResp entryResp at h
    dsimp only at h
    cases hl : l[i]? with
    | none => rw [hl] at h; cases h; exact absurd rfl hr
    | some s => rw [hl] at h; cases h; exact .ip _ _ _ hl
  | cp l =>
    unfold getResp entryResp at h
    dsimp only at h
    cases hl : l[i]? with
    | none => rw [hl] at h; cases h; exact absurd rfl hr
    | some s => rw [hl] at h; cases h; exact .cp _ _ _ hl
  | kup l =>
    unfold getResp entryResp at h
    dsimp only at h
    cases hl : l[i]? with
    | none => rw [hl] at h; cases h; exact absurd rfl hr
    | some s => rw [hl] at h; cases h; exact .kup _ _ _ hl
  | ccp l =>
    unfold getResp entryResp at h
    dsimp only at h
    cases hl : l[i]? with
    | none => rw [hl] at h; cases h; exact absurd rfl hr
    | some s => rw [hl] at h; cases h; exact .ccp _ _ _ hl
  | error s => cases h
  | rp l => cases h
  | certConf l => cases h
  | krp c => cases h
  | other n => cases h

/-- **C199.** A certificate is taken from a message if and only if it is the one of the response at the position, or
the new one of a key recovery. -/
theorem C199_cert_iff (b : SBody C) (i : Nat) (c : C) :
    getCert b i = .ok c ↔ b = .krp (some c) ∨ ∃ r, RespAt b i r ∧ r.pair = some (.cert c) := by
  have key : (∃ c', b = .krp c') ∨ getCert b i = (match getResp b i with
      | .error e => (.error e : Except PyErr C)
      | .ok r => match r.pair with
        | some (.cert c) => .ok c
        | _ => .error .valueError) := by
    cases b <;> first | exact .inl ⟨_, rfl⟩ | exact .inr rfl
  rcases key with ⟨c', rfl⟩ | key
  · have hno : ¬ ∃ r, RespAt (.krp c') i r ∧ r.pair = some (.cert c) := by
      rintro ⟨r, h, _⟩
      cases h
    rw [or_iff_left hno]
    cases c' with
    | none => exact ⟨fun h => (by cases h), fun h => (by cases h)⟩
    | some d =>
      constructor
      · intro h; cases h; rfl
      · intro h; cases h; rfl
  · rw [key]
    constructor
    · intro h
      cases hg : getResp b i with
      | error e => rw [hg] at h; cases h
      | ok r =>
        rw [hg] at h
        dsimp only at h
        split at h
        · rename_i c' hp
          cases h
          refine .inr ⟨r, get_respAt hg ?_, hp⟩
          rintro rfl
          cases hp
        · cases h
    · rintro (rfl | ⟨r, h1, h2⟩)
      · cases key.symm.trans rfl
      · rw [respAt_get h1]
        dsimp only
        rw [h2]

/-- **C199 refuted.** The status of the response is not looked at: a certificate is also taken from a rejection. -/
theorem C199_rejection_refuted (c : C) (x : List Bool) :
    getCert (.ip [{ id := some 0, info := { status := some 2, fail := some x }, pair := some (.cert c) }]) 0 = .ok c ∧
    statusMustBe (.ip [{ id := some 0, info := { status := some 2, fail := some x }, pair := some (.cert c) }] : SBody C)
      "rejection".toList = .ok () :=
  ⟨rfl, (C197_status_iff _ _ 2 _ .rejection).2 ⟨_, .ip _ _ _ rfl, rfl⟩⟩

/-- **C199 refuted.** Asking for the certificate of a response with an encrypted one fails, and the encrypted certificate
is lost; other messages stay as they were. -/
theorem C199_encrypted_refuted (b : SBody C) (i : Nat) (r : CResp C) (h : RespAt b i r) :
    (∀ e, r.pair = some (.enc e) → getCert b i = .error .valueError ∧
      RespAt (afterGetCert b i) i { r with pair := some .empty }) ∧
    ((∀ e, r.pair ≠ some (.enc e)) → afterGetCert b i = b) ∧
    ∀ j r', j ≠ i → (RespAt (afterGetCert b i) j r' ↔ RespAt b j r') := by
  have hget : ∀ (l : List (CResp C)), l[i]? = some r → ∀ e, r.pair = some (.enc e) →
      (touchResp l i)[i]? = some { r with pair := some .empty } := by
    intro l hl e he
    unfold touchResp
    rw [List.getElem?_modify, hl]
    simp [he]
  have hsame : ∀ (l : List (CResp C)), l[i]? = some r → (∀ e, r.pair ≠ some (.enc e)) → touchResp l i = l := by
    intro l hl hne
    unfold touchResp
    apply List.ext_getElem?
    intro j
    rw [List.getElem?_modify]
    by_cases hj : i = j
    · subst hj
      rw [hl]
      simp only [if_true, Option.map_eq_map, Option.map_some]
    · simp [hj]
  have hother : ∀ (l : List (CResp C)) (j : Nat), j ≠ i → (touchResp l i)[j]? = l[j]? := by
    intro l j hj
    unfold touchResp
    rw [List.getElem?_modify]
    simp [show i ≠ j from fun e => hj e.symm]
  refine ⟨fun e he => ⟨?_, ?_⟩, fun hne => ?_, fun j r' hj => ?_⟩
  · have : getCert b i = (match getResp b i with
      | .error e => (.error e : Except PyErr C)
      | .ok r => match r.pair with
        | some (.cert c) => .ok c
        | _ => .error .valueError) := by cases h <;> rfl
    rw [this, respAt_get h]
    dsimp only
    rw [he]
  · cases h with
    | ip l _ _ hl => exact .ip _ _ _ (hget l hl e he)
    | cp l _ _ hl => exact .cp _ _ _ (hget l hl e he)
    | kup l _ _ hl => exact .kup _ _ _ (hget l hl e he)
    | ccp l _ _ hl => exact .ccp _ _ _ (hget l hl e he)
  · cases h with
    | ip l _ _ hl => exact congrArg SBody.ip (hsame l hl hne)
    | cp l _ _ hl => exact congrArg SBody.cp (hsame l hl hne)
    | kup l _ _ hl => exact congrArg SBody.kup (hsame l hl hne)
    | ccp l _ _ hl => exact congrArg SBody.ccp (hsame l hl hne)
  · cases h with
    | ip l _ _ hl =>
      exact ⟨fun h => by cases h with | ip _ _ _ h => exact .ip _ _ _ (by rw [← hother l j hj]; exact h),
        fun h => by cases h with | ip _ _ _ h => exact .ip _ _ _ (by rw [hother l j hj]; exact h)⟩
    | cp l _ _ hl =>
      exact ⟨fun h => by cases h with | cp _ _ _ h => exact .cp _ _ _ (by rw [← hother l j hj]; exact h),
        fun h => by cases h with | cp _ _ _ h => exact .cp _ _ _ (by rw [hother l j hj]; exact h)⟩
    | kup l _ _ hl =>
      exact ⟨fun h => by cases h with | kup _ _ _ h => exact .kup _ _ _ (by rw [← hother l j hj]; exact h),
        fun h => by cases h with | kup _ _ _ h => exact .kup _ _ _ (by rw [hother l j hj]; exact h)⟩
    | ccp l _ _ hl =>
      exact ⟨fun h => by cases h with | ccp _ _ _ h => exact .ccp _ _ _ (by rw [← hother l j hj]; exact h),
        fun h => by cases h with | ccp _ _ _ h => exact .ccp _ _ _ (by rw [hother l j hj]; exact h)⟩

/-- **C199.** The identifier of a response is the one at the position. -/
theorem C199_id_iff (b : SBody C) (i : Nat) (n : Int) :
    getReqId b i = .ok n ↔ ∃ r, RespAt b i r ∧ r.id = some n := by
  unfold getReqId
  constructor
  · intro h
    cases hg : getResp b i with
    | error e => rw [hg] at h; cases h
    | ok r =>
      rw [hg] at h
      dsimp only at h
      cases hi : r.id with
      | none => rw [hi] at h; cases h
      | some m =>
        rw [hi] at h
        cases h
        exact ⟨r, get_respAt hg (fun e => by rw [e] at hi; cases hi), hi⟩
  · rintro ⟨r, h1, h2⟩
    rw [respAt_get h1]
    dsimp only
    rw [h2]

/-! ## Examples -/

/-- A response with a rejection because of a bad proof-of-possession. -/
def exStatus : SBody Nat :=
  .ip [{ id := some 0, info := { status := some 2, fail := some [false, true, false, true], texts := some ["bad POP".toList] },
         pair := some (.cert 7) }]

example : verifyStatus exStatus (some " ip ".toList) none (some "badRequest".toList) = .ok () ∧
    verifyStatus exStatus none (some "rejection".toList) (some "badRequest".toList) true false false = .error .valueError ∧
    verifyStatus exStatus none (some "accepted, rejection".toList) (some "badTime".toList) false true false = .ok () ∧
    isBitSetText (some [false, true, false, true]) "0,3".toList false = .ok true ∧
    isBitSetText (some [false, true, false, true]) "badMessageCheck,badTime".toList true = .ok true ∧
    verifyText exStatus (some "good,POP".toList) (some "bad".toList) = .ok () ∧
    verifyText exStatus (some "good, POP".toList) (some "worse".toList) = .error .valueError ∧
    failMustBe true exStatus "badTime".toList = .ok () ∧ failMustBe true exStatus "badAlg".toList = .error .assertionError ∧
    statusMustBe exStatus "rejection".toList = .ok () ∧ getCert exStatus 0 = .ok 7 ∧ getReqId exStatus 1 = .error .pyasn1Error := by
  decide +kernel

end Verif.Ra
