import Verif.CA.Stfl

/-! # C08, C87: leaf indices of stateful signatures are not accepted twice -/

namespace Verif.CA

variable {C D : Type} [DecidableEq D]

/-- Specification predicate: leaf index `i` is recorded as used for the certificate with hash `d`. -/
def IndexUsed (s : StflState D) (d : D) (i : Nat) : Prop := ∃ l, s.get d = some l ∧ i ∈ l

/-- The certificate with hash `d` is registered. -/
def Known (s : StflState D) (d : D) : Prop := ∃ l, s.get d = some l

/-- The message is signed with leaf `i` of the stateful key certified by the certificate with hash `d`. -/
def Signs (H : C → D) (d : D) (i : Nat) (m : StflMsg C) : Bool :=
  m.prot = some .pqStateful && m.index = i &&
    (match m.extra with | [] => false | c :: _ => decide (H c = d))

/-- The recorded sets of used indices only grow, and no registration disappears. -/
def Grows (s s' : StflState D) : Prop :=
  (∀ d i, IndexUsed s d i → IndexUsed s' d i) ∧ (∀ d, Known s d → Known s' d)

theorem Grows.refl (s : StflState D) : Grows s s := ⟨fun _ _ h => h, fun _ h => h⟩

theorem Grows.trans {s s' s'' : StflState D} (h : Grows s s') (h' : Grows s' s'') : Grows s s'' :=
  ⟨fun d i x => h'.1 d i (h.1 d i x), fun d x => h'.2 d (h.2 d x)⟩

theorem mark_grows (H : C → D) (s : StflState D) (c : C) (i : Nat) : Grows s (stflMark H s c i) := by
  unfold stflMark
  split
  · rename_i l hl
    constructor
    · rintro d j ⟨l', h1, h2⟩
      by_cases hd : d = H c
      · subst hd; rw [hl] at h1; injection h1 with h1; subst h1
        exact ⟨_, Dict.get_set_self _ _ _, by simp [h2]⟩
      · exact ⟨l', by rw [Dict.get_set_ne _ _ hd]; exact h1, h2⟩
    · rintro d ⟨l', h1⟩
      by_cases hd : d = H c
      · subst hd; exact ⟨_, Dict.get_set_self _ _ _⟩
      · exact ⟨l', by rw [Dict.get_set_ne _ _ hd]; exact h1⟩
  · exact Grows.refl s

theorem mark_used (H : C → D) (s : StflState D) (c : C) (i : Nat) (h : Known s (H c)) :
    IndexUsed (stflMark H s c i) (H c) i := by
  obtain ⟨l, hl⟩ := h
  simp only [stflMark, hl]
  exact ⟨_, Dict.get_set_self _ _ _, by simp⟩

theorem addState_grows (H : C → D) (s : StflState D) (c : C) (st : Option (List Nat)) :
    Grows s (stflAddState H s c st).2 := by
  unfold stflAddState
  split
  · exact Grows.refl s
  · rename_i hn
    constructor
    · rintro d i ⟨l, h1, h2⟩
      have hd : d ≠ H c := by intro hd; subst hd; rw [hn] at h1; cases h1
      exact ⟨l, by simp only; rw [Dict.get_set_ne _ _ hd]; exact h1, h2⟩
    · rintro d ⟨l, h1⟩
      have hd : d ≠ H c := by intro hd; subst hd; rw [hn] at h1; cases h1
      exact ⟨l, by simp only; rw [Dict.get_set_ne _ _ hd]; exact h1⟩

theorem addMsg_grows (H : C → D) (s : StflState D) (m : StflMsg C) : Grows s (stflAddMsg H s m).2 := by
  unfold stflAddMsg
  repeat' split
  all_goals first | exact Grows.refl s | exact mark_grows _ _ _ _

theorem validate_grows (H : C → D) (isStfl : C → Bool) (cfg : StflCfg) (s : StflState D) (m : StflMsg C) :
    Grows s (stflValidate H isStfl cfg s m).2 := by
  unfold stflValidate
  repeat' split
  all_goals first | exact Grows.refl s | exact mark_grows _ _ _ _

theorem protCheck_grows (H : C → D) (isStfl : C → Bool) (cfg : StflCfg) (s : StflState D) (m : StflMsg C)
    (ex : Bool) : Grows s (stflProtCheck H isStfl cfg s m ex).2 := by
  unfold stflProtCheck
  repeat' split
  all_goals first | exact Grows.refl s | exact mark_grows _ _ _ _

theorem sigProt_grows (H : C → D) (isStfl : C → Bool) (cfg : StflCfg) (s : StflState D) (m : StflMsg C)
    (ex : Bool) : Grows s (stflSigProt H isStfl cfg s m ex).2 := by
  unfold stflSigProt
  split
  · exact Grows.refl s
  · rename_i c _ _
    have hr : Grows s (if m.prot = some ProtType.pqStateful then stflProtCheck H isStfl cfg s m ex
        else (Except.ok (), s)).2 := by
      split
      · exact protCheck_grows _ _ _ _ _ _
      · exact Grows.refl s
    generalize (if m.prot = some ProtType.pqStateful then stflProtCheck H isStfl cfg s m ex
        else (Except.ok (), s)) = r at hr
    simp only
    repeat' split
    all_goals first | exact hr | exact hr.trans (mark_grows _ _ _ _)

theorem andThen_grows {s : StflState D} (r : Res (StflState D) Unit) (k : StflState D → Res (StflState D) Unit)
    (hr : Grows s r.2) (hk : ∀ s', Grows s' (k s').2) : Grows s (r.andThen k).2 := by
  unfold Res.andThen
  split
  · exact hr
  · exact hr.trans (hk _)

theorem handled_grows (m : StflMsg C) (s : StflState D) : Grows s (stflHandled m s).2 := by
  unfold stflHandled; split <;> exact Grows.refl s

theorem handle_grows (H : C → D) (isStfl : C → Bool) (cfg : StflCfg) (s : StflState D) (m : StflMsg C) :
    Grows s (stflHandle H isStfl cfg s m).2 := by
  unfold stflHandle
  split
  · split
    · exact handled_grows _ _
    · exact Grows.refl s
  · split
    · exact andThen_grows _ _ (sigProt_grows _ _ _ _ _ _) (fun _ => handled_grows _ _)
    · refine andThen_grows _ _ (andThen_grows _ _ (validate_grows _ _ _ _ _)
        (fun _ => sigProt_grows _ _ _ _ _ _)) (fun s' => ?_)
      split
      · exact andThen_grows _ _ (sigProt_grows _ _ _ _ _ _) (fun _ => handled_grows _ _)
      · split
        · exact andThen_grows _ _ (andThen_grows _ _ (sigProt_grows _ _ _ _ _ _)
            (fun _ => addMsg_grows _ _ _)) (fun _ => handled_grows _ _)
        · exact handled_grows _ _

theorem step_grows (H : C → D) (isStfl : C → Bool) (cfg : StflCfg) (s : StflState D) (op : StflOp C) :
    Grows s (stflStep H isStfl cfg s op).2 := by
  cases op with
  | addState c st => exact addState_grows _ _ _ _
  | validate m => exact validate_grows _ _ _ _ _
  | addMsg m => exact addMsg_grows _ _ _
  | message m => exact handle_grows _ _ _ _ _

theorem signs_iff (H : C → D) (d : D) (i : Nat) (m : StflMsg C) :
    Signs H d i m = true ↔ m.prot = some .pqStateful ∧ m.index = i ∧
      ∃ c cs, m.extra = c :: cs ∧ H c = d := by
  unfold Signs
  cases hm : m.extra <;> simp [and_assoc]

/-- C08: a validation is only successful for a registered certificate and an index not recorded before. -/
theorem C08_accept_sound (H : C → D) (isStfl : C → Bool) (cfg : StflCfg) (s : StflState D) (m : StflMsg C)
    (d : D) (i : Nat) (hs : Signs H d i m = true) (h : Res.isOk (stflValidate H isStfl cfg s m) = true) :
    Known s d ∧ ¬ IndexUsed s d i := by
  obtain ⟨h1, h2, c, cs, h3, h4⟩ := (signs_iff _ _ _ _).mp hs
  unfold stflValidate at h
  simp only [h1, h3, ne_eq, not_true_eq_false, if_false] at h
  repeat' split at h
  all_goals try (simp [Res.isOk] at h; done)
  all_goals
    rename_i l hl hi _
    rw [h4] at hl
    refine ⟨⟨l, hl⟩, ?_⟩
    rintro ⟨l', h5, h6⟩
    rw [hl] at h5; injection h5 with h5; subst h5
    exact hi (h2 ▸ h6)

/-- C08: certificates that are not registered are always rejected. -/
theorem C08_unknown_rejected (H : C → D) (isStfl : C → Bool) (cfg : StflCfg) (s : StflState D)
    (m : StflMsg C) (d : D) (i : Nat) (hs : Signs H d i m = true) (hu : s.get d = none) :
    Res.isOk (stflValidate H isStfl cfg s m) = false ∧ (stflValidate H isStfl cfg s m).2 = s := by
  have h0 : Res.isOk (stflValidate H isStfl cfg s m) = false := by
    rw [← Bool.not_eq_true]
    intro h
    obtain ⟨⟨l, hl⟩, _⟩ := C08_accept_sound H isStfl cfg s m d i hs h
    rw [hu] at hl; cases hl
  refine ⟨h0, ?_⟩
  obtain ⟨h1, h2, c, cs, h3, h4⟩ := (signs_iff _ _ _ _).mp hs
  unfold stflValidate
  simp only [h1, h3, h4, hu, ne_eq, not_true_eq_false, if_false]
  repeat' split
  all_goals rfl

theorem validate_marks (H : C → D) (isStfl : C → Bool) (cfg : StflCfg) (s : StflState D) (m : StflMsg C)
    (d : D) (i : Nat) (hs : Signs H d i m = true) (hf : cfg.savedV = true)
    (h : Res.isOk (stflValidate H isStfl cfg s m) = true) :
    IndexUsed (stflValidate H isStfl cfg s m).2 d i := by
  have hk := (C08_accept_sound H isStfl cfg s m d i hs h).1
  obtain ⟨h1, h2, c, cs, h3, h4⟩ := (signs_iff _ _ _ _).mp hs
  subst h2 h4
  obtain ⟨l, hl⟩ := hk
  unfold stflValidate at h ⊢
  simp only [h1, h3, ne_eq, not_true_eq_false, if_false, hl, hf, if_true] at h ⊢
  by_cases h5 : m.body = "ccr" ∧ cfg.allowCcr = false
  · simp [h5, Res.isOk] at h
  by_cases h6 : isStfl c = false
  · simp only [if_neg h5, if_pos h6, Res.isOk] at h; simp at h
  by_cases h7 : m.index ∈ l
  · simp only [if_neg h5, if_neg h6, if_pos h7, Res.isOk] at h; simp at h
  simp only [if_neg h5, if_neg h6, if_neg h7]
  exact mark_used H s c m.index ⟨l, hl⟩

theorem sigProt_ok_sig {H : C → D} {isStfl : C → Bool} {cfg : StflCfg} {s : StflState D} {m : StflMsg C}
    {ex : Bool} (h : Res.isOk (stflSigProt H isStfl cfg s m ex) = true) : m.sigOk = true := by
  unfold stflSigProt at h
  split at h
  · simp [Res.isOk] at h
  · simp only at h
    split at h
    · simp [Res.isOk] at h
    · split at h
      · simp [Res.isOk] at h
      · rename_i hh; simpa using hh

theorem sigProt_marks (H : C → D) (isStfl : C → Bool) (cfg : StflCfg) (s : StflState D) (m : StflMsg C)
    (ex : Bool) (d : D) (i : Nat) (hs : Signs H d i m = true) (hf : cfg.savedP = false ∨ ex = false)
    (h : Res.isOk (stflSigProt H isStfl cfg s m ex) = true) :
    IndexUsed (stflSigProt H isStfl cfg s m ex).2 d i := by
  obtain ⟨h1, h2, c, cs, h3, h4⟩ := (signs_iff _ _ _ _).mp hs
  subst h2 h4
  unfold stflSigProt at h ⊢
  simp only [h1, h3, if_true] at h ⊢
  cases hp : cfg.savedP with
  | false =>
    simp only [hp] at h ⊢
    cases hc : (stflProtCheck H isStfl cfg s m ex).1 with
    | error e => simp [hc, Res.isOk] at h
    | ok u =>
      simp only [hc, and_self, if_true] at h ⊢
      split
      · rename_i hh; simp [hh, Res.isOk] at h
      · cases hg : Dict.get (stflProtCheck H isStfl cfg s m ex).2 (H c) with
        | none => rename_i hh; simp [hh, hg, Res.isOk] at h
        | some l =>
          simp only
          split <;> exact mark_used _ _ _ _ ⟨l, hg⟩
  | true =>
    have hex : ex = false := by rcases hf with hf | hf <;> simp_all
    subst hex
    have key : ∀ u, (stflProtCheck H isStfl cfg s m false).1 = .ok u →
        IndexUsed (stflProtCheck H isStfl cfg s m false).2 (H c) m.index := by
      intro u hu
      unfold stflProtCheck at hu ⊢
      simp only [h3, hp, Bool.false_eq_true, if_false, if_true] at hu ⊢
      by_cases h5 : m.body = "ccr" ∧ cfg.allowCcr = false
      · simp [h5] at hu
      by_cases h6 : isStfl c = false
      · simp only [if_neg h5, if_pos h6] at hu; simp at hu
      simp only [if_neg h5, if_neg h6] at hu ⊢
      cases hl : Dict.get s (H c) with
      | none => simp [hl] at hu
      | some l =>
        simp only [hl] at hu ⊢
        by_cases h7 : m.index ∈ l
        · simp [h7] at hu
        simp only [if_neg h7]
        exact mark_used _ _ _ _ ⟨l, hl⟩
    cases hc : (stflProtCheck H isStfl cfg s m false).1 with
    | error e => simp [hc, Res.isOk] at h
    | ok u =>
      have := key u hc
      simp only [Bool.true_eq_false, false_and, if_false]
      repeat' split
      all_goals exact this

theorem sigProt_accept (H : C → D) (isStfl : C → Bool) (cfg : StflCfg) (s : StflState D) (m : StflMsg C)
    (d : D) (i : Nat) (hs : Signs H d i m = true)
    (h : Res.isOk (stflSigProt H isStfl cfg s m false) = true) : ¬ IndexUsed s d i := by
  obtain ⟨h1, h2, c, cs, h3, h4⟩ := (signs_iff _ _ _ _).mp hs
  subst h2 h4
  rintro ⟨l, hl, hi⟩
  have : ∃ e, (stflProtCheck H isStfl cfg s m false).1 = .error e := by
    unfold stflProtCheck
    simp only [h3, hl, hi, if_true]
    repeat' split
    all_goals simp_all
  obtain ⟨e, he⟩ := this
  simp [stflSigProt, h1, h3, he, Res.isOk] at h

theorem andThen_ok {σ : Type} {r : Res σ Unit} {k : σ → Res σ Unit} (h : Res.isOk (r.andThen k) = true) :
    Res.isOk r = true ∧ Res.isOk (k r.2) = true ∧ (r.andThen k).2 = (k r.2).2 := by
  unfold Res.andThen at h ⊢
  split at h
  · simp [Res.isOk] at h
  · rename_i hh; exact ⟨by simp [Res.isOk, hh], h, by simp⟩

/-- The configuration records every index that passed (true of the shipped configuration, where both flags
are set). -/
def StflCfg.Records (cfg : StflCfg) : Prop := cfg.savedV = true ∨ cfg.savedP = false

/-- C08 (handler level): when the CA processes a message protected by a stateful signature (any type but
`rr`) successfully, the index was not recorded before and is recorded afterwards. -/
theorem C08_message_fresh (H : C → D) (isStfl : C → Bool) (cfg : StflCfg) (hcfg : cfg.Records)
    (s : StflState D) (m : StflMsg C) (d : D) (i : Nat) (hs : Signs H d i m = true) (hb : m.body ≠ "rr")
    (h : Res.isOk (stflHandle H isStfl cfg s m) = true) :
    ¬ IndexUsed s d i ∧ IndexUsed (stflHandle H isStfl cfg s m).2 d i := by
  unfold stflHandle at h ⊢
  rw [if_neg hb] at h ⊢
  split at h
  · rename_i hg
    obtain ⟨ha, hb', hc⟩ := andThen_ok h
    rw [if_pos hg, hc]
    exact ⟨sigProt_accept _ _ _ _ _ _ _ hs ha,
      (handled_grows m _).1 _ _ (sigProt_marks _ _ _ _ _ _ _ _ hs (.inr rfl) ha)⟩
  · rename_i hg
    rw [if_neg hg]
    obtain ⟨ha, hb', hc⟩ := andThen_ok h
    obtain ⟨ha1, ha2, ha3⟩ := andThen_ok ha
    refine ⟨(C08_accept_sound _ _ _ _ _ _ _ hs ha1).2, ?_⟩
    have hused : IndexUsed ((stflValidate H isStfl cfg s m).andThen
        (fun s => stflSigProt H isStfl cfg s m true)).2 d i := by
      rw [ha3]
      rcases hcfg with hv | hp
      · exact (sigProt_grows _ _ _ _ _ _).1 _ _ (validate_marks _ _ _ _ _ _ _ hs hv ha1)
      · exact sigProt_marks _ _ _ _ _ _ _ _ hs (.inl hp) ha2
    rw [hc]
    refine (?_ : Grows _ _).1 _ _ hused
    split
    · exact andThen_grows _ _ (sigProt_grows _ _ _ _ _ _) (fun _ => handled_grows _ _)
    · split
      · exact andThen_grows _ _ (andThen_grows _ _ (sigProt_grows _ _ _ _ _ _)
          (fun _ => addMsg_grows _ _ _)) (fun _ => handled_grows _ _)
      · exact handled_grows _ _

/-- The operation consumes leaf `i` of certificate `d` in a way the CA is meant to police: a bare validation
or a whole message other than `rr`. -/
def Consumes (H : C → D) (d : D) (i : Nat) : StflOp C → Bool
  | .validate m => Signs H d i m
  | .message m => Signs H d i m && m.body ≠ "rr"
  | _ => false

/-- Number of operations satisfying `p` that returned normally. -/
def countStfl (p : StflOp C → Bool) : List (StflOp C) → List Bool → Nat
  | op :: ops, b :: bs => (if p op && b then 1 else 0) + countStfl p ops bs
  | _, _ => 0

theorem consume_fresh (H : C → D) (isStfl : C → Bool) (cfg : StflCfg) (hv : cfg.savedV = true)
    (s : StflState D) (op : StflOp C) (d : D) (i : Nat) (hc : Consumes H d i op = true)
    (h : Res.isOk (stflStep H isStfl cfg s op) = true) :
    ¬ IndexUsed s d i ∧ IndexUsed (stflStep H isStfl cfg s op).2 d i := by
  cases op with
  | addState => simp [Consumes] at hc
  | addMsg => simp [Consumes] at hc
  | validate m => exact ⟨(C08_accept_sound _ _ _ _ _ _ _ hc h).2, validate_marks _ _ _ _ _ _ _ hc hv h⟩
  | message m =>
    simp only [Consumes, Bool.and_eq_true, decide_eq_true_eq] at hc
    exact C08_message_fresh H isStfl cfg (.inl hv) s m d i hc.1 hc.2 h

theorem used_none (H : C → D) (isStfl : C → Bool) (cfg : StflCfg) (hv : cfg.savedV = true) (d : D) (i : Nat)
    (ops : List (StflOp C)) (s : StflState D) (hu : IndexUsed s d i) :
    countStfl (Consumes H d i) ops (stflRun H isStfl cfg s ops).1 = 0 := by
  induction ops generalizing s with
  | nil => rfl
  | cons op ops ih =>
    simp only [stflRun, countStfl]
    rw [ih _ ((step_grows H isStfl cfg s op).1 d i hu)]
    cases hb : (Consumes H d i op && Res.isOk (stflStep H isStfl cfg s op)) with
    | false => simp
    | true =>
      simp only [Bool.and_eq_true] at hb
      exact absurd hu (consume_fresh H isStfl cfg hv s op d i hb.1 hb.2).1

/-- C08: in every history (registrations, bare validations, recordings, messages of any type, from any
initial state), with the shipped configuration, at most one message per (certificate, leaf index) is let
through - `rr` messages excepted. -/
theorem C08_index_once (H : C → D) (isStfl : C → Bool) (cfg : StflCfg) (hv : cfg.savedV = true) (d : D)
    (i : Nat) (ops : List (StflOp C)) (s : StflState D) :
    countStfl (Consumes H d i) ops (stflRun H isStfl cfg s ops).1 ≤ 1 := by
  induction ops generalizing s with
  | nil => exact Nat.zero_le 1
  | cons op ops ih =>
    simp only [stflRun, countStfl]
    cases hb : (Consumes H d i op && Res.isOk (stflStep H isStfl cfg s op)) with
    | false => simpa using ih _
    | true =>
      simp only [Bool.and_eq_true] at hb
      rw [used_none H isStfl cfg hv d i ops _ (consume_fresh H isStfl cfg hv s op d i hb.1 hb.2).2]
      simp

/-- C08: an index registered as used at enrolment (`[0]` by default) is never accepted afterwards. -/
theorem C08_enrolment_index_never (H : C → D) (isStfl : C → Bool) (cfg : StflCfg) (hv : cfg.savedV = true)
    (s : StflState D) (c : C) (st : Option (List Nat)) (i : Nat) (hi : i ∈ st.getD [0])
    (hok : Res.isOk (stflAddState H s c st) = true) (ops : List (StflOp C)) :
    countStfl (Consumes H (H c) i) ops (stflRun H isStfl cfg (stflAddState H s c st).2 ops).1 = 0 := by
  apply used_none H isStfl cfg hv
  unfold stflAddState at hok ⊢
  split at hok
  · simp [Res.isOk] at hok
  · exact ⟨_, Dict.get_set_self _ _ _, hi⟩

/-- Sharpness of the configuration hypothesis: if the validator does not record indices itself, the bare
validation call accepts the same index again and again. -/
theorem C08_needs_recording (H : C → D) (isStfl : C → Bool) (cfg : StflCfg) (hv : cfg.savedV = false)
    (s : StflState D) (m : StflMsg C) (h : Res.isOk (stflValidate H isStfl cfg s m) = true) :
    Res.isOk (stflValidate H isStfl cfg (stflValidate H isStfl cfg s m).2 m) = true := by
  have : (stflValidate H isStfl cfg s m).2 = s := by
    unfold stflValidate at h ⊢
    repeat' split
    all_goals first | rfl | simp_all
  rw [this]; exact h

/-- C87 (refuted): the CA does not check the leaf index of a stateful signature that protects an `rr`; the
same message is accepted again, and an index spent on another message can be reused. -/
theorem C87_rr_index_unchecked_refuted :
    ∃ (s : StflState Nat) (m : StflMsg Nat), m.body = "rr" ∧ m.prot = some .pqStateful ∧
      Signs id 5 3 m = true ∧ IndexUsed s 5 3 ∧
      Res.isOk (stflHandle id (fun _ => true) {} s m) = true ∧
      (stflHandle id (fun _ => true) {} s m).2 = s := by
  refine ⟨[(5, [0, 3])], { body := "rr", extra := [5], index := 3 }, ?_⟩
  refine ⟨rfl, rfl, by decide, ⟨[0, 3], by decide, by decide⟩, by decide, by decide⟩

/-- C87 (general form of the gap): for `rr` the verdict does not depend on the recorded indices at all. -/
theorem C87_rr_ignores_state (H : C → D) (isStfl : C → Bool) (cfg : StflCfg) (s s' : StflState D)
    (m : StflMsg C) (hb : m.body = "rr") :
    (stflHandle H isStfl cfg s m).1 = (stflHandle H isStfl cfg s' m).1 ∧
    (stflHandle H isStfl cfg s m).2 = s := by
  unfold stflHandle
  simp only [hb, if_true]
  split
  · unfold stflHandled; split <;> exact ⟨rfl, rfl⟩
  · exact ⟨rfl, rfl⟩

/-- C87 (partial): for every other message type the index is checked and recorded. -/
theorem C87_other_types_partial (H : C → D) (isStfl : C → Bool) (cfg : StflCfg) (hcfg : cfg.Records)
    (s : StflState D) (m : StflMsg C) (d : D) (i : Nat) (hs : Signs H d i m = true) (hb : m.body ≠ "rr")
    (hu : IndexUsed s d i) : Res.isOk (stflHandle H isStfl cfg s m) = false := by
  rw [← Bool.not_eq_true]
  exact fun h => (C08_message_fresh H isStfl cfg hcfg s m d i hs hb h).1 hu

/-- C88 (refuted): a `nested` message protected by a stateful signature is never accepted, because the CA
checks the outer protection twice and the second check finds the index recorded by the first. -/
theorem C88_nested_always_rejected (H : C → D) (isStfl : C → Bool) (cfg : StflCfg) (hcfg : cfg.Records)
    (s : StflState D) (m : StflMsg C) (hp : m.prot = some .pqStateful) (hb : m.body = "nested") :
    Res.isOk (stflHandle H isStfl cfg s m) = false := by
  rw [← Bool.not_eq_true]
  intro h
  unfold stflHandle at h
  simp only [hb, String.reduceEq, if_false, if_true] at h
  obtain ⟨ha, hb', -⟩ := andThen_ok h
  obtain ⟨ha1, ha2, ha3⟩ := andThen_ok ha
  obtain ⟨hc1, -, -⟩ := andThen_ok hb'
  cases hx : m.extra with
  | nil => simp [stflValidate, hp, hx, Res.isOk] at ha1
  | cons c cs =>
    have hs : Signs H (H c) m.index m = true := (signs_iff _ _ _ _).mpr ⟨hp, rfl, c, cs, hx, rfl⟩
    refine sigProt_accept _ _ _ _ _ _ _ hs hc1 ?_
    rw [ha3]
    rcases hcfg with hv | hpp
    · exact (sigProt_grows _ _ _ _ _ _).1 _ _ (validate_marks _ _ _ _ _ _ _ hs hv ha1)
    · exact sigProt_marks _ _ _ _ _ _ _ _ hs (.inl hpp) ha2

/-- A history: enrolment with index 4 in the request, then messages; indices 4 and 6 (second time) fail. -/
example : (stflRun (D := Nat) (id : Nat → Nat) (fun _ => true) {} []
    [.addState 5 (some [4]), .message { body := "cr", extra := [5], index := 4 },
     .message { body := "cr", extra := [5], index := 6 }, .message { body := "certConf", extra := [5], index := 6 },
     .message { body := "certConf", extra := [5], index := 7 }, .message { body := "ir", extra := [8], index := 1 }]).1
    = [true, false, true, false, true, false] := by decide

/-- The hypotheses of `C88_nested_always_rejected` in a state where everything else is fine. -/
example : Res.isOk (stflHandle (id : Nat → Nat) (fun _ => true) {} [(5, [0])]
    { body := "nested", extra := [5], index := 1 }) = false ∧
    Res.isOk (stflHandle (id : Nat → Nat) (fun _ => true) {} [(5, [0])]
    { body := "cr", extra := [5], index := 1 }) = true := by decide

/-! ## What is accepted -/

theorem mark_known (H : C → D) (s : StflState D) (c : C) (i : Nat) (l : List Nat) (h : s.get (H c) = some l) :
    (stflMark H s c i).get (H c) = some (l ++ [i]) := by
  unfold stflMark
  rw [h]
  exact Dict.get_set_self _ _ _

/-- The protection check in a message whose index was already checked: everything but the index. -/
theorem sigProt_excluded (H : C → D) (isStfl : C → Bool) (cfg : StflCfg) (s : StflState D) (m : StflMsg C) (c : C) (cs : List C)
    (l : List Nat) (hp : m.prot = some .pqStateful) (he : m.extra = c :: cs) (hk : isStfl c = true) (hc : m.body = "ccr" → cfg.allowCcr = true)
    (hl : s.get (H c) = some l) (hs : m.sigOk = true) (ht : m.trusted = true) :
    stflSigProt H isStfl cfg s m true = (.ok (), if cfg.savedP = false then stflMark H s c m.index else s) := by
  have h0 : stflProtCheck H isStfl cfg s m true = (.ok (), s) := by
    unfold stflProtCheck
    simp only [he]
    rw [if_neg (by rintro ⟨h1, h2⟩; rw [hc h1] at h2; cases h2), if_neg (by simp [hk]), if_pos trivial]
  unfold stflSigProt
  simp only [he, hp, if_true, h0, hl, hs, ht]
  cases hsp : cfg.savedP <;> simp

/-- C08 (complete): a message of any kind but `rr` and `nested` with a valid stateful signature of a registered certificate, trusted
and with an unused index, is accepted under every configuration (for `ccr` where the configuration allows it). -/
theorem C08_honest_accepted (H : C → D) (isStfl : C → Bool) (cfg : StflCfg) (s : StflState D) (m : StflMsg C) (c : C) (cs : List C)
    (hp : m.prot = some .pqStateful) (he : m.extra = c :: cs) (hk : isStfl c = true) (hc : m.body = "ccr" → cfg.allowCcr = true)
    (hkn : Known s (H c)) (hu : ¬ IndexUsed s (H c) m.index) (hs : m.sigOk = true) (ht : m.trusted = true) (hh : m.handled = true)
    (hb : m.body ≠ "rr" ∧ m.body ≠ "nested") : Res.isOk (stflHandle H isStfl cfg s m) = true := by
  obtain ⟨l, hl⟩ := hkn
  have hi : m.index ∉ l := fun h => hu ⟨l, hl, h⟩
  have hnc : ¬ (m.body = "ccr" ∧ cfg.allowCcr = false) := by rintro ⟨h1, h2⟩; rw [hc h1] at h2; cases h2
  have hd : ∀ s' : StflState D, stflHandled m s' = (.ok (), s') := by intro s'; unfold stflHandled; rw [if_pos hh]
  unfold stflHandle
  rw [if_neg hb.1]
  by_cases hg : m.body = "genm"
  · rw [if_pos hg]
    have h0 : stflProtCheck H isStfl cfg s m false = (.ok (), if cfg.savedP then stflMark H s c m.index else s) := by
      unfold stflProtCheck
      simp only [he, hl]
      rw [if_neg hnc, if_neg (by simp [hk]), if_neg (by simp), if_neg hi]
      cases cfg.savedP <;> rfl
    have h1 : ∃ s', stflSigProt H isStfl cfg s m false = (.ok (), s') := by
      unfold stflSigProt
      simp only [he, hp, if_true, h0, hs, ht]
      cases hsp : cfg.savedP <;> simp [hl]
    obtain ⟨s', h1⟩ := h1
    simp only [h1, Res.andThen, hd, Res.isOk]
  · rw [if_neg hg]
    have hv : stflValidate H isStfl cfg s m = (.ok (), if cfg.savedV then stflMark H s c m.index else s) := by
      unfold stflValidate
      simp only [he, hl]
      rw [if_neg (by simp [hp]), if_neg hnc, if_neg (by simp [hk]), if_neg hi]
      cases cfg.savedV <;> rfl
    have hx : ∀ s1 l1, s1.get (H c) = some l1 → ∃ s2 l2, stflSigProt H isStfl cfg s1 m true = (.ok (), s2) ∧ s2.get (H c) = some l2 := by
      intro s1 l1 h1
      refine ⟨_, ?_, sigProt_excluded H isStfl cfg s1 m c cs l1 hp he hk hc h1 hs ht, ?_⟩
      · exact if cfg.savedP = false then l1 ++ [m.index] else l1
      · split
        · exact mark_known H s1 c m.index l1 h1
        · exact h1
    have h1 : ∃ l1, (if cfg.savedV then stflMark H s c m.index else s).get (H c) = some l1 := by
      split
      · exact ⟨_, mark_known H s c m.index l hl⟩
      · exact ⟨l, hl⟩
    obtain ⟨l1, h1⟩ := h1
    obtain ⟨s2, l2, h2, h3⟩ := hx _ _ h1
    obtain ⟨s3, l3, h4, h5⟩ := hx _ _ h3
    have h6 : stflAddMsg H s3 m = (.ok (), stflMark H s3 c m.index) := by
      unfold stflAddMsg
      simp only [he, h5]
      rw [if_neg (by simp [hp])]
    simp only [hv, Res.andThen, h2, if_neg hb.2]
    split
    · simp only [h4, h6, hd, Res.isOk]
    · simp only [hd, Res.isOk]

/-- C08: the index of an accepted certificate request is recorded under every configuration. -/
theorem C08_requests_recorded (H : C → D) (isStfl : C → Bool) (cfg : StflCfg) (s : StflState D) (m : StflMsg C) (d : D) (i : Nat)
    (hs : Signs H d i m = true) (hb : m.body = "ir" ∨ m.body = "cr" ∨ m.body = "p10cr" ∨ m.body = "kur" ∨ m.body = "ccr")
    (h : Res.isOk (stflHandle H isStfl cfg s m) = true) : IndexUsed (stflHandle H isStfl cfg s m).2 d i := by
  obtain ⟨h1, h2, c, cs, h3, h4⟩ := (signs_iff _ _ _ _).mp hs
  subst h2 h4
  have hne : m.body ≠ "rr" ∧ m.body ≠ "genm" ∧ m.body ≠ "nested" ∧ m.body ∈ ["ir", "cr", "p10cr", "kur", "ccr"] := by
    rcases hb with h | h | h | h | h <;> rw [h] <;> decide
  unfold stflHandle at h ⊢
  rw [if_neg hne.1, if_neg hne.2.1] at h ⊢
  obtain ⟨_, a2, a3⟩ := andThen_ok h
  rw [a3]
  rw [if_neg hne.2.2.1, if_pos hne.2.2.2] at a2 ⊢
  obtain ⟨b1, b2, b3⟩ := andThen_ok a2
  rw [b3]
  refine (handled_grows m _).1 _ _ ?_
  obtain ⟨_, c2, c3⟩ := andThen_ok b1
  rw [c3]
  unfold stflAddMsg at c2 ⊢
  rw [if_neg (by simp [h1])] at c2 ⊢
  simp only [h3] at c2 ⊢
  split at c2
  · simp [Res.isOk] at c2
  · rename_i l hl
    exact mark_used H _ c m.index ⟨l, hl⟩

/-- C08: for the other kinds this needs a recording configuration: a `certConf`, for example, can be replayed otherwise. -/
theorem C08_confirmation_unrecorded (H : C → D) (isStfl : C → Bool) (ccr : Bool) (s : StflState D) (m : StflMsg C)
    (hp : m.prot = some .pqStateful) (hb : m.body = "certConf")
    (h : Res.isOk (stflHandle H isStfl { savedV := false, savedP := true, allowCcr := ccr } s m) = true) :
    (stflHandle H isStfl { savedV := false, savedP := true, allowCcr := ccr } s m).2 = s := by
  unfold stflHandle at h ⊢
  rw [if_neg (by rw [hb]; decide), if_neg (by rw [hb]; decide)] at h ⊢
  obtain ⟨a1, _, a3⟩ := andThen_ok h
  rw [a3, if_neg (by rw [hb]; decide), if_neg (by rw [hb]; decide)]
  obtain ⟨b1, b2, b3⟩ := andThen_ok a1
  have hd : ∀ s' : StflState D, (stflHandled m s').2 = s' := by intro s'; unfold stflHandled; split <;> rfl
  have hv : (stflValidate H isStfl { savedV := false, savedP := true, allowCcr := ccr } s m).2 = s := by
    unfold stflValidate
    repeat' split
    all_goals first | rfl | simp_all
  rw [hd, b3, hv]
  unfold stflSigProt
  split
  · rfl
  · have hpc : (stflProtCheck H isStfl { savedV := false, savedP := true, allowCcr := ccr } s m true).2 = s := by
      unfold stflProtCheck
      repeat' split
      all_goals first | rfl | simp_all
    simp only [hp, if_true]
    repeat' split
    all_goals first | exact hpc | simp_all

/-- A fresh request is accepted and its index recorded, also by a configuration that records nothing by itself. -/
example : stflHandle id (fun _ => true) { savedV := false, savedP := true } [((5 : Nat), [0])] { body := "ir", extra := [5], index := 3 }
    = (.ok (), [(5, [0, 3])]) := by rfl

end Verif.CA
