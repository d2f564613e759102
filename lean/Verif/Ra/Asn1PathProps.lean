import Verif.Ra.Asn1Path
import Verif.Ra.BuildProps

/-!
# Properties of paths into ASN.1 structures (C200-C203)
-/

namespace Verif.Ra

open Verif.CA (Bytes PyErr)

/-! ## C200: queries -/

/-- One step of a query: the name of a component, and the numbers of elements below it, as texts of digits. -/
structure Seg where
  name : List Char
  idxs : List (List Char)

/-- The name is one, and the numbers are numbers. -/
def Seg.Good (s : Seg) : Prop :=
  '.' ∉ s.name ∧ '/' ∉ s.name ∧ isDigits s.name = false ∧ ∀ d ∈ s.idxs, isDigits d = true

/-- `name/1/2`. -/
def Seg.text (s : Seg) : List Char := s.name ++ (s.idxs.map ('/' :: ·)).flatten

/-- The texts of the steps, separated by dots. -/
def queryText : List Seg → List Char
  | [] => []
  | [s] => s.text
  | s :: t :: ss => s.text ++ '.' :: queryText (t :: ss)

/-- What the steps mean. -/
def Seg.keys (s : Seg) : List Key := .name s.name :: s.idxs.map fun d => .idx (digitsNat d)

theorem digits_free {d : List Char} (h : isDigits d = true) (c : Char) (hc : ¬ ('0' ≤ c ∧ c ≤ '9')) : c ∉ d := by
  intro hm
  unfold isDigits at h
  rw [Bool.and_eq_true, List.all_eq_true] at h
  have := h.2 c hm
  simp only [Bool.and_eq_true, decide_eq_true_eq] at this
  exact hc this

theorem segText_dot (s : Seg) (h : s.Good) : '.' ∉ s.text := by
  unfold Seg.text
  intro hm
  rcases List.mem_append.1 hm with hm | hm
  · exact h.1 hm
  · obtain ⟨l, hl, hc⟩ := List.mem_flatten.1 hm
    obtain ⟨d, hd, rfl⟩ := List.mem_map.1 hl
    rcases List.mem_cons.1 hc with hc | hc
    · cases hc
    · exact digits_free (h.2.2.2 d hd) '.' (by decide) hc

theorem split_slashes : ∀ (n : List Char) (ds : List (List Char)), '/' ∉ n → (∀ d ∈ ds, '/' ∉ d) →
    splitAt '/' (n ++ (ds.map ('/' :: ·)).flatten) = n :: ds
  | n, [], hn, _ => by simpa using splitAt_free '/' n hn
  | n, d :: ds, hn, hd => by
    rw [List.map_cons, List.flatten_cons, List.cons_append, splitAt_cons_free _ _ _ hn,
      split_slashes d ds (hd d (List.mem_cons_self ..)) (fun e he => hd e (List.mem_cons_of_mem _ he))]

theorem segKeys (s : Seg) (h : s.Good) :
    (if '/' ∈ s.text then (splitAt '/' s.text).map partKey else [Key.name s.text]) = s.keys := by
  obtain ⟨_, h2, h3, h4⟩ := h
  have hd : ∀ d ∈ s.idxs, '/' ∉ d := fun d hd => digits_free (h4 d hd) '/' (by decide)
  have hsp := split_slashes s.name s.idxs h2 hd
  cases hi : s.idxs with
  | nil =>
    have ht : s.text = s.name := by unfold Seg.text; rw [hi]; simp
    rw [ht, if_neg h2]
    unfold Seg.keys
    rw [hi]
    rfl
  | cons d ds =>
    rw [if_pos (by unfold Seg.text; rw [hi]; simp)]
    unfold Seg.text
    rw [hsp, List.map_cons]
    unfold Seg.keys partKey
    rw [if_neg (by rw [h3]; decide)]
    congr 1
    apply List.map_congr_left
    intro e he
    rw [if_pos (h4 e he)]

/-- **C200.** A query made of names and numbers of elements reads them in this order, whatever they are. -/
theorem C200_keys : ∀ (ss : List Seg), ss ≠ [] → (∀ s ∈ ss, s.Good) → keysOf (queryText ss) = ss.flatMap Seg.keys
  | [], h, _ => absurd rfl h
  | [s], _, hg => by
    have hs := hg s (List.mem_cons_self ..)
    unfold keysOf queryText
    rw [splitAt_free _ _ (segText_dot s hs)]
    simpa using segKeys s hs
  | s :: t :: ss, _, hg => by
    have hs := hg s (List.mem_cons_self ..)
    have ih := C200_keys (t :: ss) (by simp) (fun u hu => hg u (List.mem_cons_of_mem _ hu))
    unfold keysOf at ih ⊢
    unfold queryText
    rw [splitAt_cons_free _ _ _ (segText_dot s hs), List.flatMap_cons, ih, segKeys s hs]
    rfl

/-- **C200.** What is found is what is below the one key after the other. -/
theorem C200_found_iff (a b : Asn) (k : Key) (ks : List Key) :
    (getKeys a [] = .ok b ↔ b = a) ∧ (getKeys a (k :: ks) = .ok b ↔ ∃ c, child a k = some c ∧ getKeys c ks = .ok b) := by
  constructor
  · constructor
    · intro h; cases h; rfl
    · rintro rfl; rfl
  · rw [getKeys]
    cases child a k with
    | none => simp
    | some c => simp

theorem keysOf_length (q : List Char) (i : Nat) : keysOf q ≠ [.idx i] := by
  intro h
  unfold keysOf at h
  cases hs : splitAt '.' q with
  | nil => exact splitAt_ne_nil _ _ hs
  | cons p ps =>
    rw [hs, List.flatMap_cons] at h
    by_cases hp : '/' ∈ p
    · rw [if_pos hp] at h
      obtain ⟨pre, post, rfl⟩ := List.append_of_mem hp
      rw [splitAt_append, List.map_append] at h
      have h1 : ((splitAt '/' pre).map partKey).length ≥ 1 := by
        have := List.length_pos_iff.2 (splitAt_ne_nil '/' pre)
        rw [List.length_map]; exact this
      have h2 : ((splitAt '/' post).map partKey).length ≥ 1 := by
        have := List.length_pos_iff.2 (splitAt_ne_nil '/' post)
        rw [List.length_map]; exact this
      have := congrArg List.length h
      simp only [List.length_append, List.length_singleton] at this
      omega
    · rw [if_neg hp] at h
      injection h with h _
      cases h

/-- **C200 refuted.** There is no query for an element of the given object itself, if this is a list: each query which is
answered descends at least two steps, and the documented way to write it, beginning with a slash, is refused. -/
theorem C200_root_refuted (p : Asn) (es : List Asn) (q : List Char) :
    (∀ b, getAsn (.list p es) q = .ok b → ∃ i k ks c, child (.list p es) (.idx i) = some c ∧ getKeys c (k :: ks) = .ok b) ∧
    getAsn (.list p es) ('/' :: q) = .error .attributeError := by
  constructor
  · intro b h
    unfold getAsn at h
    cases hk : keysOf q with
    | nil =>
      unfold keysOf at hk
      cases hs : splitAt '.' q with
      | nil => exact absurd hs (splitAt_ne_nil _ _)
      | cons p' ps =>
        rw [hs, List.flatMap_cons] at hk
        by_cases hp : '/' ∈ p'
        · rw [if_pos hp] at hk
          have := (List.append_eq_nil_iff.1 hk).1
          exact absurd (List.map_eq_nil_iff.1 this) (splitAt_ne_nil _ _)
        · rw [if_neg hp] at hk
          cases hk
    | cons k ks =>
      rw [hk] at h
      cases k with
      | name n => cases h
      | idx i =>
        cases ks with
        | nil => exact absurd hk (keysOf_length q i)
        | cons k' ks => exact ⟨i, k', ks, _, rfl, h⟩
  · unfold getAsn
    have : ∃ ks, keysOf ('/' :: q) = .name [] :: ks := by
      unfold keysOf
      cases hs : splitAt '.' q with
      | nil => exact absurd hs (splitAt_ne_nil _ _)
      | cons p' ps =>
        have : splitAt '.' ('/' :: q) = ('/' :: p') :: ps := by
          rw [splitAt, if_neg (by decide), hs]
        rw [this, List.flatMap_cons, if_pos (by simp), splitAt, if_pos rfl]
        exact ⟨_, rfl⟩
    obtain ⟨ks, hk⟩ := this
    rw [hk]
    rfl

/-- **C200 refuted.** A query which leads nowhere does not always end with the documented `ValueError`: if the last object
reached is a list or a simple value, it ends with an `AttributeError`. -/
theorem C200_error_refuted (a b : Asn) (ks js : List Key) (k : Key) (h : getKeys a ks = .ok b) (hk : child b k = none) :
    (((∃ v, b = .leaf v) ∨ ∃ p es, b = .list p es) → getKeys a (ks ++ k :: js) = .error .attributeError) ∧
    (((∃ fs, b = .seq fs) ∨ ∃ alts cur, b = .choice alts cur) → getKeys a (ks ++ k :: js) = .error .valueError) := by
  have hmain : getKeys a (ks ++ k :: js) = .error (pathErr b) := by
    induction ks generalizing a with
    | nil =>
      cases h
      rw [List.nil_append, getKeys, hk]
    | cons k' ks ih =>
      obtain ⟨c, h1, h2⟩ := (C200_found_iff a b k' ks).2.1 h
      rw [List.cons_append, getKeys, h1]
      exact ih c h2
  rw [hmain]
  constructor
  · rintro (⟨v, rfl⟩ | ⟨p, es, rfl⟩) <;> rfl
  · rintro (⟨v, rfl⟩ | ⟨p, es, rfl⟩) <;> rfl

/-! ## C201: effects of reading -/

/-- The alternative is the one which is set, the element is there. -/
def Here : Asn → Key → Prop
  | .choice alts cur, k => ∃ p c, altName alts k = some p ∧ cur = some (p.1, c)
  | .list _ es, k => ∃ i, k = .idx i ∧ i < es.length
  | .seq _, _ => True
  | .leaf _, _ => True

/-- The keys lead through alternatives which are set and elements which are there. -/
def Settled : Asn → List Key → Prop
  | _, [] => True
  | a, k :: ks => Here a k ∧ ∀ c, child a k = some c → Settled c ks

theorem updField_same : ∀ (fs : List (List Char × Asn)) (n : List Char) (c : Asn), lookupField n fs = some c → updField n c fs = fs
  | [], n, c, h => by cases h
  | (m, a) :: fs, n, c, h => by
    unfold lookupField at h
    unfold updField
    split at h
    · rename_i hm
      cases h
      rw [if_pos hm.2]
    · rename_i hm
      rw [updField_same fs n c h]
      split
      · rename_i he
        have hd : isDigits n = false := by
          cases hn : isDigits n with
          | false => rfl
          | true =>
            exfalso
            have : ∀ fs, lookupField n fs = none := by
              intro fs
              induction fs with
              | nil => rfl
              | cons p fs ih =>
                unfold lookupField
                rw [if_neg (fun hh => by rw [hn] at hh; cases hh.1)]
                exact ih
            rw [this] at h
            cases h
        exact absurd ⟨hd, he⟩ hm
      · rfl

theorem put_same {a : Asn} {k : Key} {c : Asn} (h : child a k = some c) (hs : Here a k) : put a k c = a := by
  cases a with
  | leaf v => rfl
  | seq fs =>
    cases k with
    | name n =>
      show Asn.seq (updField n c fs) = _
      rw [updField_same fs n c h]
    | idx i =>
      show Asn.seq (fs.modify i fun p => (p.1, c)) = _
      congr 1
      unfold child at h
      dsimp only at h
      cases hf : fs[i]? with
      | none => rw [hf] at h; cases h
      | some p =>
        rw [hf] at h
        cases h
        apply List.ext_getElem?
        intro j
        rw [List.getElem?_modify]
        by_cases hj : i = j
        · subst hj
          rw [hf]
          simp
        · simp [hj]
  | choice alts cur =>
    obtain ⟨p, c', h1, rfl⟩ := hs
    unfold child at h
    dsimp only at h
    rw [h1] at h
    unfold altOf at h
    dsimp only [Option.map] at h
    rw [if_pos rfl] at h
    cases h
    unfold put
    dsimp only
    rw [h1]
  | list p es =>
    obtain ⟨i, rfl, hi⟩ := hs
    unfold child at h
    unfold put extend
    dsimp only at h ⊢
    rw [List.getElem?_eq_getElem hi] at h
    cases h
    rw [show i + 1 - es.length = 0 by omega, List.replicate_zero, List.append_nil]
    congr 1
    apply List.ext_getElem?
    intro j
    rw [List.getElem?_set]
    by_cases hj : i = j
    · subst hj
      rw [if_pos rfl, if_pos hi]
      exact (List.getElem?_eq_getElem hi).symm
    · rw [if_neg hj]

/-- **C201.** Reading what is there changes nothing. -/
theorem C201_pure (q : List Char) (a b : Asn) (h : getAsn a q = .ok b) (hs : Settled a (keysOf q)) : afterGet a q = .ok a := by
  unfold getAsn at h
  unfold afterGet
  generalize keysOf q = ks at h hs
  induction ks generalizing a with
  | nil => rfl
  | cons k ks ih =>
    obtain ⟨c, h1, h2⟩ := (C200_found_iff a b k ks).2.1 h
    unfold Settled at hs
    rw [walk, h1]
    dsimp only
    rw [ih c h2 (hs.2 c h1)]
    dsimp only
    rw [put_same h1 hs.1]

/-- **C201 refuted.** Reading another alternative of a choice than the one which is set deletes the latter. -/
theorem C201_choice_refuted (alts : List (List Char × Asn)) (m n : List Char) (c p : Asn) (hmn : m ≠ n)
    (hp : lookupField n alts = some p) (hdot : '.' ∉ n) (hsl : '/' ∉ n) :
    getAsn (.choice alts (some (m, c))) n = .ok p ∧
    afterGet (.choice alts (some (m, c))) n = .ok (.choice alts (some (n, p))) := by
  have hk : keysOf n = [.name n] := by
    unfold keysOf
    rw [splitAt_free _ _ hdot]
    simp [hsl]
  have hc : child (.choice alts (some (m, c))) (.name n) = some p := by
    unfold child altName altOf
    dsimp only
    rw [hp]
    dsimp only [Option.map]
    rw [if_neg hmn]
  unfold getAsn afterGet
  rw [hk]
  constructor
  · rw [getKeys, hc]
    rfl
  · rw [walk, hc]
    dsimp only [walk]
    unfold put altName
    dsimp only
    rw [hp]
    rfl

/-- **C201 refuted.** Reading an element beyond the end of a list makes this longer, by elements without values. -/
theorem C201_list_refuted (p : Asn) (es : List Asn) (i : Nat) (hi : es.length ≤ i) :
    ∃ b, getKeys (.list p es) [.idx i] = .ok b ∧ b = p ∧
      walk .ok (.list p es) [.idx i] = .ok (.list p (es ++ List.replicate (i + 1 - es.length) p)) := by
  have hn : es[i]? = none := List.getElem?_eq_none hi
  refine ⟨p, ?_, rfl, ?_⟩
  · rw [getKeys]
    unfold child
    dsimp only
    rw [hn]
    rfl
  · rw [walk]
    unfold child
    dsimp only
    rw [hn]
    dsimp only [walk, Option.getD]
    unfold put extend
    dsimp only
    congr 2
    apply List.ext_getElem?
    intro j
    rw [List.getElem?_set]
    by_cases hj : i = j
    · subst hj
      rw [if_pos rfl, if_pos (by simp; omega), List.getElem?_append_right hi, List.getElem?_replicate, if_pos (by omega)]
    · rw [if_neg hj]

/-! ## C202: what is set is read -/

theorem lookup_upd : ∀ (fs : List (List Char × Asn)) (n : List Char) (c b : Asn), lookupField n fs = some c →
    lookupField n (updField n b fs) = some b
  | [], n, c, b, h => by cases h
  | (m, a) :: fs, n, c, b, h => by
    unfold lookupField at h
    unfold updField
    by_cases hm : m = n
    · rw [if_pos hm]
      unfold lookupField
      split at h
      · rename_i hh
        rw [if_pos hh]
      · rename_i hh
        have hd : ∀ fs, lookupField n fs = none := by
          have : isDigits n = true := by
            cases hn : isDigits n with
            | true => rfl
            | false => exact absurd ⟨hn, hm⟩ hh
          intro fs
          induction fs with
          | nil => rfl
          | cons p fs ih =>
            unfold lookupField
            rw [if_neg (fun hh => by rw [this] at hh; cases hh.1)]
            exact ih
        rw [hd] at h
        cases h
    · rw [if_neg hm]
      rw [if_neg (fun hh => hm hh.2)] at h
      unfold lookupField
      rw [if_neg (fun hh => hm hh.2)]
      exact lookup_upd fs n c b h

theorem child_put {a : Asn} {k : Key} {c : Asn} (b : Asn) (h : child a k = some c) : child (put a k b) k = some b := by
  cases a with
  | leaf v => cases h
  | seq fs =>
    cases k with
    | name n => exact lookup_upd fs n c b h
    | idx i =>
      unfold child at h
      unfold put child
      dsimp only at h ⊢
      rw [List.getElem?_modify]
      cases hf : fs[i]? with
      | none => rw [hf] at h; cases h
      | some p => simp
  | choice alts cur =>
    unfold child at h
    unfold put
    dsimp only at h ⊢
    cases ha : altName alts k with
    | none => rw [ha] at h; cases h
    | some p =>
      dsimp only
      unfold child
      dsimp only
      rw [ha]
      dsimp only [Option.map]
      unfold altOf
      dsimp only
      rw [if_pos rfl]
  | list p es =>
    cases k with
    | name n => cases h
    | idx i =>
      unfold put child extend
      dsimp only
      congr 1
      rw [List.getElem?_set, if_pos rfl, if_pos]
      · rfl
      · rw [List.length_append, List.length_replicate]
        omega

/-- The key which reads what `assign` sets. -/
theorem assign_get {fit : Asn → Asn → Option Asn} {key : List Char} {v a a' : Asn} (h : assign fit key v a = .ok a') :
    ∃ c w, fit c v = some w ∧ child a' (partKey key) = some w := by
  have hname : ∀ fs c, lookupField key fs = some c → partKey key = .name key := by
    intro fs c hc
    unfold partKey
    cases hd : isDigits key with
    | false => rfl
    | true =>
      exfalso
      have : ∀ fs, lookupField key fs = none := by
        intro fs
        induction fs with
        | nil => rfl
        | cons p fs ih =>
          unfold lookupField
          rw [if_neg (fun hh => by rw [hd] at hh; cases hh.1)]
          exact ih
      rw [this] at hc
      cases hc
  cases a with
  | leaf x => cases h
  | seq fs =>
    unfold assign at h
    dsimp only at h
    cases hl : lookupField key fs with
    | none => rw [hl] at h; cases h
    | some c =>
      rw [hl] at h
      dsimp only at h
      cases hf : fit c v with
      | none => rw [hf] at h; cases h
      | some w =>
        rw [hf] at h
        cases h
        refine ⟨c, w, hf, ?_⟩
        rw [hname fs c hl]
        exact child_put w hl
  | choice alts cur =>
    unfold assign at h
    dsimp only at h
    cases hl : lookupField key alts with
    | none => rw [hl] at h; cases h
    | some c =>
      rw [hl] at h
      dsimp only at h
      cases hf : fit c v with
      | none => rw [hf] at h; cases h
      | some w =>
        rw [hf] at h
        cases h
        refine ⟨c, w, hf, ?_⟩
        rw [hname alts c hl]
        refine child_put (c := altOf c key cur) w ?_
        unfold child altName
        dsimp only
        rw [hl]
        rfl
  | list p es =>
    unfold assign at h
    dsimp only at h
    split at h
    · rename_i hd
      split at h
      · cases h
      · cases hf : fit p v with
        | none => rw [hf] at h; cases h
        | some w =>
          rw [hf] at h
          cases h
          refine ⟨p, w, hf, ?_⟩
          unfold partKey
          rw [if_pos hd]
          exact child_put (c := (es[digitsNat key]?).getD p) w rfl
    · cases h

theorem getKeys_append (a : Asn) (ks : List Key) (k : Key) (w : Asn) :
    getKeys a (ks ++ [k]) = .ok w ↔ ∃ b, getKeys a ks = .ok b ∧ child b k = some w := by
  induction ks generalizing a with
  | nil =>
    rw [List.nil_append, (C200_found_iff a w k []).2]
    constructor
    · rintro ⟨c, h, hh⟩
      rw [(C200_found_iff c w k []).1] at hh
      exact ⟨a, rfl, by rw [h, hh]⟩
    · rintro ⟨b, h, hh⟩
      rw [(C200_found_iff a b k []).1] at h
      subst h
      exact ⟨w, hh, rfl⟩
  | cons k' ks ih =>
    rw [List.cons_append, (C200_found_iff a w k' _).2]
    constructor
    · rintro ⟨c, h, hh⟩
      obtain ⟨b, h1, h2⟩ := (ih c).1 hh
      exact ⟨b, (C200_found_iff a b k' ks).2.2 ⟨c, h, h1⟩, h2⟩
    · rintro ⟨b, h, hh⟩
      obtain ⟨c, h1, h2⟩ := (C200_found_iff a b k' ks).2.1 h
      exact ⟨c, h1, (ih c).2 ⟨b, h2, hh⟩⟩

theorem walk_get {f : Asn → Except PyErr Asn} : ∀ {ks : List Key} {a a' : Asn}, walk f a ks = .ok a' →
    ∃ b b', getKeys a ks = .ok b ∧ f b = .ok b' ∧ getKeys a' ks = .ok b'
  | [], a, a', h => ⟨a, a', rfl, h, rfl⟩
  | k :: ks, a, a', h => by
    rw [walk] at h
    cases hc : child a k with
    | none => rw [hc] at h; cases h
    | some c =>
      rw [hc] at h
      dsimp only at h
      cases hw : walk f c ks with
      | error e => rw [hw] at h; cases h
      | ok c' =>
        rw [hw] at h
        cases h
        obtain ⟨b, b', h1, h2, h3⟩ := walk_get hw
        refine ⟨b, b', ?_, h2, ?_⟩
        · rw [getKeys, hc]
          exact h1
        · rw [getKeys, child_put c' hc]
          exact h3

theorem splitLast_eq (s : List Char) (h : ¬ ('.' ∉ s ∧ '/' ∉ s)) :
    ∃ sep, (sep = '.' ∨ sep = '/') ∧ s = (splitLast s).1 ++ sep :: (splitLast s).2 ∧ '.' ∉ (splitLast s).2 ∧ '/' ∉ (splitLast s).2 := by
  have key : ∀ l : List Char, ('.' ∈ l ∨ '/' ∈ l) → ∃ sep rest, (sep = '.' ∨ sep = '/') ∧
      l = l.takeWhile (fun x => x ≠ '.' && x ≠ '/') ++ sep :: rest := by
    intro l
    induction l with
    | nil => rintro (h | h) <;> cases h
    | cons c l ih =>
      intro hm
      by_cases hc : c = '.' ∨ c = '/'
      · refine ⟨c, l, hc, ?_⟩
        rw [List.takeWhile_cons_of_neg]
        · rfl
        · rcases hc with rfl | rfl <;> decide
      · obtain ⟨h1, h2⟩ := not_or.1 hc
        have hm' : '.' ∈ l ∨ '/' ∈ l := by
          rcases hm with hm | hm
          · rcases List.mem_cons.1 hm with hm | hm
            · exact absurd hm.symm h1
            · exact .inl hm
          · rcases List.mem_cons.1 hm with hm | hm
            · exact absurd hm.symm h2
            · exact .inr hm
        obtain ⟨sep, rest, hs, he⟩ := ih hm'
        refine ⟨sep, rest, hs, ?_⟩
        rw [List.takeWhile_cons_of_pos (by simp [h1, h2]), List.cons_append, ← he]
  have hmem : '.' ∈ s.reverse ∨ '/' ∈ s.reverse := by
    rcases Decidable.not_and_iff_or_not.1 h with h | h
    · exact .inl (List.mem_reverse.2 (Decidable.not_not.1 h))
    · exact .inr (List.mem_reverse.2 (Decidable.not_not.1 h))
  obtain ⟨sep, rest, hs, he⟩ := key s.reverse hmem
  have hfree : ∀ c ∈ s.reverse.takeWhile (fun x => x ≠ '.' && x ≠ '/'), c ≠ '.' ∧ c ≠ '/' := by
    intro c hc
    have := List.all_eq_true.1 (List.all_takeWhile (p := fun x => x ≠ '.' && x ≠ '/') (l := s.reverse)) c hc
    simpa using this
  refine ⟨sep, hs, ?_, ?_, ?_⟩
  · unfold splitLast
    dsimp only
    generalize s.reverse.takeWhile (fun x => x ≠ '.' && x ≠ '/') = t at he
    have : s = rest.reverse ++ sep :: t.reverse := by
      have := congrArg List.reverse he
      rw [List.reverse_reverse] at this
      rw [this]
      simp
    have hl : s.length - (t.reverse.length + 1) = rest.reverse.length := by
      rw [this]
      simp only [List.length_append, List.length_cons, List.length_reverse]
      omega
    rw [hl]
    conv => rhs; rw [this]
    rw [this, List.take_left']
    rfl
  · unfold splitLast
    dsimp only
    intro hm
    exact (hfree _ (List.mem_reverse.1 hm)).1 rfl
  · unfold splitLast
    dsimp only
    intro hm
    exact (hfree _ (List.mem_reverse.1 hm)).2 rfl

/-- The keys of a path are those of the parent and the one of the child, if the former lead anywhere. -/
theorem keysOf_child (pp ck : List Char) (sep : Char) (hs : sep = '.' ∨ sep = '/') (h1 : '.' ∉ ck) (h2 : '/' ∉ ck)
    (hd : sep = '/' ∨ isDigits ck = false) (a b : Asn) (hg : getKeys a (keysOf pp) = .ok b) :
    keysOf (pp ++ sep :: ck) = keysOf pp ++ [partKey ck] := by
  rcases hs with rfl | rfl
  · have hd : isDigits ck = false := by
      rcases hd with hd | hd
      · cases hd
      · exact hd
    unfold keysOf partKey
    rw [splitAt_append, splitAt_free _ _ h1, List.flatMap_append, if_neg (by rw [hd]; decide)]
    simp [h2]
  · have hpp : ∃ init last, splitAt '.' pp = init ++ [last] ∧ '.' ∉ last ∧
        splitAt '.' (pp ++ '/' :: ck) = init ++ [last ++ '/' :: ck] := by
      by_cases hdot : '.' ∈ pp
      · obtain ⟨sep, hs, he, hf1, hf2⟩ : ∃ pre post, pp = pre ++ '.' :: post ∧ '.' ∉ post ∧ True := by
          have : ∀ l : List Char, '.' ∈ l → ∃ pre post, l = pre ++ '.' :: post ∧ '.' ∉ post ∧ True := by
            intro l
            induction l with
            | nil => intro h; cases h
            | cons c l ih =>
              intro h
              by_cases hl : '.' ∈ l
              · obtain ⟨pre, post, e, hp⟩ := ih hl
                exact ⟨c :: pre, post, by rw [e]; rfl, hp⟩
              · rcases List.mem_cons.1 h with h | h
                · exact ⟨[], l, by rw [← h]; rfl, hl, trivial⟩
                · exact absurd h hl
          exact this pp hdot
        subst he
        refine ⟨splitAt '.' sep, hs, ?_, hf1, ?_⟩
        · rw [splitAt_append, splitAt_free _ _ hf1]
        · rw [List.append_assoc, List.cons_append, splitAt_append, splitAt_free '.' (hs ++ '/' :: ck)]
          intro hm
          rcases List.mem_append.1 hm with hm | hm
          · exact hf1 hm
          · rcases List.mem_cons.1 hm with hm | hm
            · cases hm
            · exact h1 hm
      · refine ⟨[], pp, by rw [splitAt_free _ _ hdot]; rfl, hdot, ?_⟩
        rw [splitAt_free]
        · rfl
        · intro hm
          rcases List.mem_append.1 hm with hm | hm
          · exact hdot hm
          · rcases List.mem_cons.1 hm with hm | hm
            · cases hm
            · exact h1 hm
    obtain ⟨init, last, e1, _, e2⟩ := hpp
    unfold keysOf at hg ⊢
    rw [e1] at hg ⊢
    rw [e2, List.flatMap_append, List.flatMap_append, List.append_assoc]
    congr 1
    rw [List.flatMap_singleton, List.flatMap_singleton, if_pos (by simp), splitAt_append, splitAt_free _ _ h2, List.map_append]
    congr 1
    by_cases hl : '/' ∈ last
    · rw [if_pos hl]
    · rw [if_neg hl, splitAt_free _ _ hl]
      rw [List.flatMap_append, List.flatMap_singleton, if_neg hl] at hg
      obtain ⟨b', _, hc⟩ := (getKeys_append ..).1 hg
      have hnd : isDigits last = false := by
        cases hn : isDigits last with
        | false => rfl
        | true =>
          exfalso
          have hno : ∀ fs, lookupField last fs = none := by
            intro fs
            induction fs with
            | nil => rfl
            | cons p fs ih =>
              unfold lookupField
              rw [if_neg (fun hh => by rw [hn] at hh; cases hh.1)]
              exact ih
          cases b' with
          | leaf v => cases hc
          | seq fs =>
            unfold child at hc
            dsimp only at hc
            rw [hno] at hc
            cases hc
          | choice alts cur =>
            unfold child altName at hc
            dsimp only at hc
            rw [hno] at hc
            cases hc
          | list p es => cases hc
      rw [List.map_singleton]
      unfold partKey
      rw [if_neg (by rw [hnd]; decide)]

theorem setAsn_walk (fit : Asn → Asn → Option Asn) (a a' v : Asn) (pp ck : List Char) (sep : Char)
    (hs : sep = '.' ∨ sep = '/') (hpp : pp ≠ []) (h1 : '.' ∉ ck) (h2 : '/' ∉ ck)
    (h : setAsn fit a (pp ++ sep :: ck) v = .ok a') : walk (assign fit ck v) a (keysOf pp) = .ok a' := by
  unfold setAsn at h
  split at h
  · cases h
  · split at h
    · cases h
    · split at h
      · cases h
      · rename_i hsep
        obtain ⟨sep', hs', he, hf1, hf2⟩ := splitLast_eq _ hsep
        have hsl : splitLast (pp ++ sep :: ck) = (pp, ck) := by
          have hr : ∀ (p q x y : List Char) (s t : Char), (s = '.' ∨ s = '/') → (t = '.' ∨ t = '/') → '.' ∉ x → '/' ∉ x →
              '.' ∉ y → '/' ∉ y → p ++ s :: x = q ++ t :: y → p = q ∧ x = y := by
            intro p
            induction p with
            | nil =>
              intro q x y s t hs ht hx1 hx2 hy1 hy2 he
              cases q with
              | nil => injection he with _ he; exact ⟨rfl, he⟩
              | cons c q =>
                injection he with _ he
                exfalso
                have : t ∈ x := by rw [he]; simp
                rcases ht with rfl | rfl
                · exact hx1 this
                · exact hx2 this
            | cons c p ih =>
              intro q x y s t hs ht hx1 hx2 hy1 hy2 he
              cases q with
              | nil =>
                injection he with _ he
                exfalso
                have : s ∈ y := by rw [← he]; simp
                rcases hs with rfl | rfl
                · exact hy1 this
                · exact hy2 this
              | cons d q =>
                injection he with e1 he
                obtain ⟨r1, r2⟩ := ih q x y s t hs ht hx1 hx2 hy1 hy2 he
                exact ⟨by rw [e1, r1], r2⟩
          obtain ⟨r1, r2⟩ := hr _ _ _ _ _ _ hs hs' h1 h2 hf1 hf2 he
          exact Prod.ext r1.symm r2.symm
        rw [hsl] at h
        dsimp only at h
        rw [if_neg hpp] at h
        cases hw : walk (assign fit ck v) a (keysOf pp) with
        | error e => rw [hw] at h; cases h
        | ok a1 =>
          rw [hw] at h
          cases h
          rfl

/-- **C202.** What has been set with a path is read with it: if the path begins with a name, and numbers follow a slash. -/
theorem C202_set_get (fit : Asn → Asn → Option Asn) (a a' v : Asn) (pp ck : List Char) (sep : Char)
    (hs : sep = '.' ∨ sep = '/') (hpp : pp ≠ []) (h1 : '.' ∉ ck) (h2 : '/' ∉ ck) (hd : sep = '/' ∨ isDigits ck = false)
    (h : setAsn fit a (pp ++ sep :: ck) v = .ok a') :
    ∃ c w, fit c v = some w ∧ getAsn a' (pp ++ sep :: ck) = .ok w := by
  have hw := setAsn_walk fit a a' v pp ck sep hs hpp h1 h2 h
  obtain ⟨b, b', g1, g2, g3⟩ := walk_get hw
  obtain ⟨c, w, f1, f2⟩ := assign_get g2
  refine ⟨c, w, f1, ?_⟩
  unfold getAsn
  rw [keysOf_child pp ck sep hs h1 h2 hd a b g1]
  exact (getKeys_append ..).2 ⟨b', g3, f2⟩

/-- **C202 refuted.** A component of the given object itself cannot be set by its name, by which it is read. -/
theorem C202_shallow_refuted (fit : Asn → Asn → Option Asn) (a v : Asn) (n : List Char) (h1 : '.' ∉ n) (h2 : '/' ∉ n) :
    setAsn fit a n v = .error .valueError := by
  unfold setAsn
  split
  · rfl
  · split
    · rfl
    · rw [if_pos ⟨h1, h2⟩]

/-- **C202 refuted.** Instead it can be set with a dot before its name, with which it cannot be read. -/
theorem C202_dot_refuted :
    setAsn (fun _ v => some v) (.seq [("a".toList, .leaf none), ("b".toList, .leaf (some [1]))]) ".a".toList (.leaf (some [2])) =
      .ok (.seq [("a".toList, .leaf (some [2])), ("b".toList, .leaf (some [1]))]) ∧
    getAsn (.seq [("a".toList, .leaf (some [2])), ("b".toList, .leaf (some [1]))]) ".a".toList = .error .valueError :=
  ⟨rfl, rfl⟩

/-- **C202 refuted.** An element can be set with its number after a dot, but is read with a slash only. -/
theorem C202_number_refuted (p x y : Asn) :
    setAsn (fun _ v => some v) (.seq [("a".toList, .list p [x])]) "a.0".toList y = .ok (.seq [("a".toList, .list p [y])]) ∧
    getAsn (.seq [("a".toList, .list p [y])]) "a.0".toList = .error .attributeError ∧
    getAsn (.seq [("a".toList, .list p [y])]) "a/0".toList = .ok y :=
  ⟨rfl, rfl, rfl⟩

/-- **C202 refuted.** A component of an element can be read with the number after a dot, but not be set. -/
theorem C202_parent_refuted (p x y : Asn) :
    getAsn (.seq [("a".toList, .list p [.seq [("b".toList, x)]])]) "a.0/b".toList = .ok x ∧
    setAsn (fun _ v => some v) (.seq [("a".toList, .list p [.seq [("b".toList, x)]])]) "a.0/b".toList y = .error .valueError :=
  ⟨rfl, rfl⟩

/-! ### What is not set stays -/

/-- The position of the component for a key. -/
def slot : Asn → Key → Option Nat
  | .seq fs, .name n => if isDigits n then none else (fs.map (·.1)).idxOf? n
  | .seq _, .idx i => some i
  | .list _ _, .idx i => some i
  | _, _ => none

/-- The two lists of keys lead to different components of one object, which is no choice. -/
def Apart : Asn → List Key → List Key → Prop
  | _, [], _ => False
  | _, _, [] => False
  | a, k :: ks, j :: js => (∃ m n, slot a k = some m ∧ slot a j = some n ∧ m ≠ n) ∨
      (k = j ∧ ∃ c, child a k = some c ∧ Apart c ks js)

theorem lookup_slot (fs : List (List Char × Asn)) (n : List Char) (hd : isDigits n = false) :
    lookupField n fs = match (fs.map (·.1)).idxOf? n with
      | none => none
      | some i => (fs[i]?).map (·.2) := by
  induction fs with
  | nil => rfl
  | cons p fs ih =>
    obtain ⟨m, a⟩ := p
    unfold lookupField
    rw [List.map_cons, List.idxOf?_cons]
    by_cases hm : m = n
    · rw [if_pos ⟨hd, hm⟩]
      simp [hm]
    · rw [if_neg (fun hh => hm hh.2), ih]
      have : (m == n) = false := by simpa using hm
      dsimp only
      rw [this]
      cases hx : (fs.map (·.1)).idxOf? n with
      | none => rfl
      | some i => simp

theorem child_slot {a : Asn} {k : Key} {m : Nat} (h : slot a k = some m) :
    child a k = match a with
      | .seq fs => (fs[m]?).map (·.2)
      | .list p es => some ((es[m]?).getD p)
      | _ => none := by
  cases a with
  | leaf v => cases h
  | choice alts cur => cases h
  | seq fs =>
    cases k with
    | idx i => cases h; rfl
    | name n =>
      unfold slot at h
      dsimp only at h
      split at h
      · cases h
      · rename_i hd
        unfold child
        dsimp only
        rw [lookup_slot fs n (by simpa using hd), h]
  | list p es =>
    cases k with
    | idx i => cases h; rfl
    | name n => cases h

theorem put_other {a : Asn} {k j : Key} {m n : Nat} {c : Asn} (hk : slot a k = some m) (hj : slot a j = some n) (hmn : m ≠ n)
    (hc : child a k = some c) (b : Asn) : child (put a k b) j = child a j := by
  have hupd : ∀ (fs : List (List Char × Asn)) (x : List Char) (i : Nat), (fs.map (·.1)).idxOf? x = some i →
      updField x b fs = fs.modify i fun p => (p.1, b) := by
    intro fs x
    induction fs with
    | nil => intro i h; cases h
    | cons p fs ih =>
      obtain ⟨y, d⟩ := p
      intro i h
      rw [List.map_cons, List.idxOf?_cons] at h
      unfold updField
      by_cases hy : y = x
      · rw [if_pos hy]
        have : i = 0 := by simpa [hy, eq_comm] using h
        subst this
        rfl
      · rw [if_neg hy]
        have hb : (y == x) = false := by simpa using hy
        dsimp only at h
        rw [hb] at h
        cases hx : (fs.map (·.1)).idxOf? x with
        | none => rw [hx] at h; cases h
        | some i' =>
          rw [hx] at h
          have : i = i' + 1 := by simpa [eq_comm] using h
          subst this
          rw [ih i' hx]
          rfl
  have hseq : ∀ (fs : List (List Char × Asn)), a = .seq fs → put a k b = .seq (fs.modify m fun p => (p.1, b)) := by
    rintro fs rfl
    cases k with
    | idx i => cases hk; rfl
    | name x =>
      unfold slot at hk
      dsimp only at hk
      split at hk
      · cases hk
      · show Asn.seq (updField x b fs) = _
        rw [hupd fs x m hk]
  cases a with
  | leaf v => cases hk
  | choice alts cur => cases hk
  | seq fs =>
    rw [hseq fs rfl]
    have hj' : slot (.seq (fs.modify m fun p => (p.1, b))) j = some n := by
      have hmap : (fs.modify m fun p => (p.1, b)).map (·.1) = fs.map (·.1) := by
        apply List.ext_getElem?
        intro i
        rw [List.getElem?_map, List.getElem?_modify, List.getElem?_map]
        cases fs[i]? with
        | none => simp
        | some p => by_cases hi : m = i <;> simp [hi]
      cases j with
      | idx i => exact hj
      | name x =>
        unfold slot at hj ⊢
        dsimp only at hj ⊢
        rw [hmap]
        exact hj
    rw [child_slot hj', child_slot hj]
    dsimp only
    rw [List.getElem?_modify]
    simp [hmn]
  | list p es =>
    cases k with
    | name x => cases hk
    | idx i =>
      cases j with
      | name x => cases hj
      | idx i' =>
        cases hk
        cases hj
        unfold put child extend
        dsimp only
        congr 1
        rw [List.getElem?_set, if_neg hmn]
        by_cases hi : n < es.length
        · rw [List.getElem?_append_left hi]
        · rw [List.getElem?_append_right (by omega), List.getElem?_replicate, List.getElem?_eq_none (l := es) (by omega)]
          split <;> rfl

theorem walk_frame {f : Asn → Except PyErr Asn} : ∀ {ks js : List Key} {a a' : Asn}, walk f a ks = .ok a' → Apart a ks js →
    getKeys a' js = getKeys a js ∨ ∃ e e', getKeys a' js = .error e ∧ getKeys a js = .error e'
  | [], js, a, a', _, hap => by cases js <;> exact hap.elim
  | _ :: _, [], a, a', _, hap => by exact hap.elim
  | k :: ks, j :: js, a, a', h, hap => by
    rw [walk] at h
    cases hc : child a k with
    | none => rw [hc] at h; cases h
    | some c =>
      rw [hc] at h
      dsimp only at h
      cases hw : walk f c ks with
      | error e => rw [hw] at h; cases h
      | ok c' =>
        rw [hw] at h
        cases h
        rcases hap with ⟨m, n, h1, h2, h3⟩ | ⟨rfl, c2, hc2, hap⟩
        · rw [getKeys, getKeys, put_other h1 h2 h3 hc]
          cases child a j with
          | none => exact .inr ⟨_, _, rfl, rfl⟩
          | some d => exact .inl rfl
        · rw [hc] at hc2
          cases hc2
          rw [getKeys, getKeys, child_put c' hc, hc]
          exact walk_frame hw hap

theorem assign_put {fit : Asn → Asn → Option Asn} {key : List Char} {v a a' : Asn} (h : assign fit key v a = .ok a') :
    ∃ c w, child a (partKey key) = some c ∧ a' = put a (partKey key) w := by
  have hname : ∀ fs c, lookupField key fs = some c → partKey key = .name key := by
    intro fs c hc
    unfold partKey
    cases hd : isDigits key with
    | false => rfl
    | true =>
      exfalso
      have : ∀ fs, lookupField key fs = none := by
        intro fs
        induction fs with
        | nil => rfl
        | cons p fs ih =>
          unfold lookupField
          rw [if_neg (fun hh => by rw [hd] at hh; cases hh.1)]
          exact ih
      rw [this] at hc
      cases hc
  cases a with
  | leaf x => cases h
  | seq fs =>
    unfold assign at h
    dsimp only at h
    cases hl : lookupField key fs with
    | none => rw [hl] at h; cases h
    | some c =>
      rw [hl] at h
      dsimp only at h
      cases hf : fit c v with
      | none => rw [hf] at h; cases h
      | some w =>
        rw [hf] at h
        cases h
        rw [hname fs c hl]
        exact ⟨c, w, hl, rfl⟩
  | choice alts cur =>
    unfold assign at h
    dsimp only at h
    cases hl : lookupField key alts with
    | none => rw [hl] at h; cases h
    | some c =>
      rw [hl] at h
      dsimp only at h
      cases hf : fit c v with
      | none => rw [hf] at h; cases h
      | some w =>
        rw [hf] at h
        cases h
        rw [hname alts c hl]
        refine ⟨altOf c key cur, w, ?_, rfl⟩
        unfold child altName
        dsimp only
        rw [hl]
        rfl
  | list p es =>
    unfold assign at h
    dsimp only at h
    split at h
    · rename_i hd
      split at h
      · cases h
      · cases hf : fit p v with
        | none => rw [hf] at h; cases h
        | some w =>
          rw [hf] at h
          cases h
          unfold partKey
          rw [if_pos hd]
          exact ⟨_, w, rfl, rfl⟩
    · cases h

theorem walk_last {f : Asn → Except PyErr Asn} {k : Key}
    (hf : ∀ b b', f b = .ok b' → ∃ c w, child b k = some c ∧ b' = put b k w) : ∀ {ks : List Key} {a a' : Asn},
    walk f a ks = .ok a' → ∃ w, walk (fun _ => .ok w) a (ks ++ [k]) = .ok a'
  | [], a, a', h => by
    obtain ⟨c, w, h1, h2⟩ := hf a a' h
    refine ⟨w, ?_⟩
    rw [List.nil_append, walk, h1, h2]
    rfl
  | j :: ks, a, a', h => by
    rw [walk] at h
    cases hc : child a j with
    | none => rw [hc] at h; cases h
    | some c =>
      rw [hc] at h
      dsimp only at h
      cases hw : walk f c ks with
      | error e => rw [hw] at h; cases h
      | ok c' =>
        rw [hw] at h
        cases h
        obtain ⟨w, hh⟩ := walk_last hf hw
        refine ⟨w, ?_⟩
        rw [List.cons_append, walk, hc]
        dsimp only
        rw [hh]

/-- **C202.** Setting does not change what is read at another place, apart from the alternatives of a choice. -/
theorem C202_frame (fit : Asn → Asn → Option Asn) (a a' v : Asn) (pp ck : List Char) (sep : Char)
    (hs : sep = '.' ∨ sep = '/') (hpp : pp ≠ []) (h1 : '.' ∉ ck) (h2 : '/' ∉ ck) (hd : sep = '/' ∨ isDigits ck = false)
    (h : setAsn fit a (pp ++ sep :: ck) v = .ok a') (q : List Char) (hap : Apart a (keysOf (pp ++ sep :: ck)) (keysOf q)) (b : Asn) :
    getAsn a' q = .ok b ↔ getAsn a q = .ok b := by
  have hw := setAsn_walk fit a a' v pp ck sep hs hpp h1 h2 h
  obtain ⟨b0, b0', g1, _, _⟩ := walk_get hw
  obtain ⟨w, hl⟩ := walk_last (fun b b' hb => assign_put hb) hw
  rw [keysOf_child pp ck sep hs h1 h2 hd a b0 g1] at hap
  unfold getAsn
  rcases walk_frame hl hap with he | ⟨e, e', h1, h2⟩
  · rw [he]
  · rw [h1, h2]
    simp

/-! ## C203 -/

/-- **C203.** For a `SEQUENCE` the check of required fields passes if and only if its type has components with these
names. -/
theorem C203_fields_iff (fs : List (List Char × Asn)) (s : List Char) :
    mustContain (.seq fs) s = .ok () ↔ ∀ t, Piece ',' s t → ∃ a, (Verif.Check.stripL t, a) ∈ fs := by
  have hiff : ((splitAt ',' s).map Verif.Check.stripL).all (· ∈ fs.map (·.1)) = true ↔
      ∀ t, Piece ',' s t → ∃ a, (Verif.Check.stripL t, a) ∈ fs := by
    rw [List.all_eq_true]
    constructor
    · intro h t ht
      have := h _ (List.mem_map_of_mem ((mem_splitAt_iff ..).2 ht))
      obtain ⟨p, hp, he⟩ := List.mem_map.1 (of_decide_eq_true this)
      exact ⟨p.2, by rw [← he]; exact hp⟩
    · intro h x hx
      obtain ⟨t, ht, rfl⟩ := List.mem_map.1 hx
      obtain ⟨a, ha⟩ := h t ((mem_splitAt_iff ..).1 ht)
      exact decide_eq_true (List.mem_map_of_mem (f := (·.1)) ha)
  unfold mustContain fieldNames
  dsimp only
  split
  · rename_i h
    exact ⟨fun _ => hiff.1 h, fun _ => rfl⟩
  · rename_i h
    exact ⟨fun hh => (by cases hh), fun hh => absurd (hiff.2 hh) h⟩

/-- **C203 refuted.** So a component counts as present also if it is absent. -/
theorem C203_absent_refuted (n : List Char) (h : ',' ∉ n) (hs : Verif.Check.stripL n = n) (fs : List (List Char × Asn)) :
    mustContain (.seq ((n, .leaf none) :: fs)) n = .ok () := by
  refine (C203_fields_iff ..).2 fun t ht => ?_
  have := (mem_splitAt_iff ..).2 ht
  rw [splitAt_free _ _ h] at this
  have : t = n := by simpa using this
  subst this
  rw [hs]
  exact ⟨_, List.mem_cons_self ..⟩

/-- **C203.** For a choice it passes if and only if all the names are the one of the alternative which is set. -/
theorem C203_choice_iff (alts : List (List Char × Asn)) (m : List Char) (c : Asn) (s : List Char) :
    mustContain (.choice alts (some (m, c))) s = .ok () ↔ ∀ t, Piece ',' s t → Verif.Check.stripL t = m := by
  have hiff : ((splitAt ',' s).map Verif.Check.stripL).all (· ∈ [m]) = true ↔ ∀ t, Piece ',' s t → Verif.Check.stripL t = m := by
    rw [List.all_eq_true]
    constructor
    · intro h t ht
      have := h _ (List.mem_map_of_mem ((mem_splitAt_iff ..).2 ht))
      simpa using this
    · intro h x hx
      obtain ⟨t, ht, rfl⟩ := List.mem_map.1 hx
      simpa using h t ((mem_splitAt_iff ..).1 ht)
  unfold mustContain fieldNames
  dsimp only
  split
  · rename_i h
    exact ⟨fun _ => hiff.1 h, fun _ => rfl⟩
  · rename_i h
    exact ⟨fun hh => (by cases hh), fun hh => absurd (hiff.2 hh) h⟩

/-! ## Examples -/

/-- The header of a message with a sender. -/
def exAsn : Asn :=
  .seq [("header".toList, .seq [("pvno".toList, .leaf (some [2])),
    ("sender".toList, .choice [("rfc822Name".toList, .leaf none), ("directoryName".toList, .list (.leaf none) [])]
      (some ("directoryName".toList, .list (.leaf none) [.leaf (some [1]), .leaf (some [2])])))])]

example : getAsn exAsn "header.sender.directoryName/1".toList = .ok (.leaf (some [2])) ∧
    getAsn exAsn "header/0".toList = .ok (.leaf (some [2])) ∧
    getAsn exAsn "header.recipient".toList = .error .valueError ∧
    getAsn exAsn "header.pvno.x".toList = .error .attributeError ∧
    mustContain exAsn "header".toList = .ok () ∧ mustContain exAsn "header, body".toList = .error .valueError := ⟨rfl, rfl, rfl, rfl, rfl, rfl⟩

example : ∃ a', setAsn (fun _ v => some v) exAsn "header.sender.directoryName/1".toList (.leaf (some [9])) = .ok a' ∧
    getAsn a' "header.sender.directoryName/1".toList = .ok (.leaf (some [9])) ∧
    getAsn a' "header.sender.directoryName/0".toList = .ok (.leaf (some [1])) := ⟨_, rfl, rfl, rfl⟩

example : Apart exAsn (keysOf "header.sender.directoryName/1".toList) (keysOf "header.sender.directoryName/0".toList) ∧
    Apart exAsn (keysOf "header.sender".toList) (keysOf "header.pvno".toList) :=
  ⟨.inr ⟨rfl, _, rfl, .inr ⟨rfl, _, rfl, .inr ⟨rfl, _, rfl, .inl ⟨1, 0, rfl, rfl, by decide⟩⟩⟩⟩,
    .inr ⟨rfl, _, rfl, .inl ⟨1, 0, rfl, rfl, by decide⟩⟩⟩

end Verif.Ra
