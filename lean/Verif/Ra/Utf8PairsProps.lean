import Verif.Ra.Utf8Pairs

/-!
# Property C167: the pairs of names and values in `regInfo`

The grammar of RFC 4211, appendix, is stated on its own: a name ends with `?`, a value with `%`, both are escaped, and
no name begins with a digit.
-/

namespace Verif.Ra

open Verif.CA (PyErr)

/-- The text of a name: `?` and `%` are escaped. -/
inductive NameTxt : List Char → List Char → Prop
  | nil : NameTxt [] []
  | plain (c n t) : c ≠ '?' → c ≠ '%' → NameTxt n t → NameTxt (c :: n) (c :: t)
  | quest (f n t) : f = 'f' ∨ f = 'F' → NameTxt n t → NameTxt ('?' :: n) ('%' :: '3' :: f :: t)
  | percent (n t) : NameTxt n t → NameTxt ('%' :: n) ('%' :: '2' :: '5' :: t)

/-- The text of a value: `%` is escaped, `?` may be. -/
inductive ValueTxt : List Char → List Char → Prop
  | nil : ValueTxt [] []
  | plain (c v t) : c ≠ '%' → ValueTxt v t → ValueTxt (c :: v) (c :: t)
  | quest (f v t) : f = 'f' ∨ f = 'F' → ValueTxt v t → ValueTxt ('?' :: v) ('%' :: '3' :: f :: t)
  | percent (v t) : ValueTxt v t → ValueTxt ('%' :: v) ('%' :: '2' :: '5' :: t)

/-- `Name?Value%[Name?Value%]*`, no name begins with a digit. -/
inductive PairsTxt (isDigit : Char → Bool) : List (List Char × List Char) → List Char → Prop
  | nil : PairsTxt isDigit [] []
  | cons (n v ps tn tv ts) : NameTxt n tn → (∀ c m, n = c :: m → isDigit c = false) → ValueTxt v tv →
      PairsTxt isDigit ps ts → PairsTxt isDigit ((n, v) :: ps) (tn ++ '?' :: (tv ++ '%' :: ts))

/-- The digits of ASCII are digits. -/
def DigitLaw (isDigit : Char → Bool) : Prop := ∀ c : Char, c.isDigit = true → isDigit c = true

theorem isEscQ_iff (a b : Char) : isEscQ a b = true ↔ a = '3' ∧ (b = 'f' ∨ b = 'F') := by
  simp [isEscQ]

theorem isEscP_iff (a b : Char) : isEscP a b = true ↔ a = '2' ∧ b = '5' := by
  simp [isEscP]

theorem consFst_ok {c x n r} (h : consFst c x = .ok (n, r)) : ∃ m, x = .ok (m, r) ∧ n = c :: m := by
  cases x with
  | error e => cases h
  | ok p => obtain ⟨m, r'⟩ := p; cases h; exact ⟨m, rfl, rfl⟩

theorem parseName_plain (c : Char) (r : List Char) (h1 : c ≠ '?') (h2 : c ≠ '%') :
    parseName (c :: r) = consFst c (parseName r) := by
  rw [parseName.eq_def]; split <;> simp_all

theorem parseValue_plain (c : Char) (r : List Char) (h2 : c ≠ '%') :
    parseValue (c :: r) = consFst c (parseValue r) := by
  rw [parseValue.eq_def]; split <;> simp_all

theorem parseName_sound : ∀ (s n r : List Char), parseName s = .ok (n, r) → ∃ t, s = t ++ '?' :: r ∧ NameTxt n t := by
  intro s
  fun_induction parseName s with
  | case1 => intro n r h; cases h
  | case2 r => intro n r' h; cases h; exact ⟨[], rfl, .nil⟩
  | case3 a b r hq ih =>
    intro n r' h
    obtain ⟨m, hm, rfl⟩ := consFst_ok h
    obtain ⟨t, rfl, ht⟩ := ih m r' hm
    obtain ⟨rfl, hb⟩ := (isEscQ_iff a b).1 hq
    exact ⟨'%' :: '3' :: b :: t, rfl, .quest b m t hb ht⟩
  | case4 a b r hq hp ih =>
    intro n r' h
    obtain ⟨m, hm, rfl⟩ := consFst_ok h
    obtain ⟨t, rfl, ht⟩ := ih m r' hm
    obtain ⟨rfl, rfl⟩ := (isEscP_iff a b).1 hp
    exact ⟨'%' :: '2' :: '5' :: t, rfl, .percent m t ht⟩
  | case5 => intro n r h; cases h
  | case6 => intro n r h; cases h
  | case7 c r h1 h2 h3 ih =>
    intro n r' h
    obtain ⟨m, hm, rfl⟩ := consFst_ok h
    obtain ⟨t, rfl, ht⟩ := ih m r' hm
    exact ⟨c :: t, rfl, .plain c m t (fun e => h1 e) (fun e => h3 e) ht⟩

/-- What follows the end of a value does not look like an escape sequence. -/
def NoEsc (r : List Char) : Prop := ∀ a b m, r = a :: b :: m → isEscQ a b = false ∧ isEscP a b = false

theorem parseValue_sound : ∀ (s v r : List Char), parseValue s = .ok (v, r) →
    ∃ t, s = t ++ '%' :: r ∧ ValueTxt v t := by
  intro s
  fun_induction parseValue s with
  | case1 => intro n r h; cases h
  | case2 a b r hq ih =>
    intro n r' h
    obtain ⟨m, hm, rfl⟩ := consFst_ok h
    obtain ⟨t, rfl, ht⟩ := ih m r' hm
    obtain ⟨rfl, hb⟩ := (isEscQ_iff a b).1 hq
    exact ⟨'%' :: '3' :: b :: t, rfl, .quest b m t hb ht⟩
  | case3 a b r hq hp ih =>
    intro n r' h
    obtain ⟨m, hm, rfl⟩ := consFst_ok h
    obtain ⟨t, rfl, ht⟩ := ih m r' hm
    obtain ⟨rfl, rfl⟩ := (isEscP_iff a b).1 hp
    exact ⟨'%' :: '2' :: '5' :: t, rfl, .percent m t ht⟩
  | case4 a b r hq hp => intro n r' h; cases h; exact ⟨[], rfl, .nil⟩
  | case5 r hr => intro n r' h; cases h; exact ⟨[], rfl, .nil⟩
  | case6 c r h1 h3 ih =>
    intro n r' h
    obtain ⟨m, hm, rfl⟩ := consFst_ok h
    obtain ⟨t, rfl, ht⟩ := ih m r' hm
    exact ⟨c :: t, rfl, .plain c m t (fun e => h3 e) ht⟩

theorem parseName_complete {n t : List Char} (h : NameTxt n t) (r : List Char) :
    parseName (t ++ '?' :: r) = .ok (n, r) := by
  induction h with
  | nil => rfl
  | plain c n t h1 h2 _ ih => rw [List.cons_append, parseName_plain c _ h1 h2, ih]; rfl
  | quest f n t hf _ ih =>
    show parseName ('%' :: '3' :: f :: (t ++ '?' :: r)) = _
    rw [parseName, if_pos ((isEscQ_iff '3' f).2 ⟨rfl, hf⟩), ih]; rfl
  | percent n t _ ih =>
    show parseName ('%' :: '2' :: '5' :: (t ++ '?' :: r)) = _
    rw [parseName, if_neg (by decide), if_pos (by decide), ih]; rfl

theorem parseValue_end (r : List Char) (hr : NoEsc r) : parseValue ('%' :: r) = .ok ([], r) := by
  match r, hr with
  | [], _ => rfl
  | [a], _ => rfl
  | a :: b :: m, hr =>
    obtain ⟨hq, hp⟩ := hr a b m rfl
    rw [parseValue, if_neg (by rw [hq]; decide), if_neg (by rw [hp]; decide)]

theorem parseValue_complete {v t : List Char} (h : ValueTxt v t) (r : List Char) (hr : NoEsc r) :
    parseValue (t ++ '%' :: r) = .ok (v, r) := by
  induction h with
  | nil => exact parseValue_end r hr
  | plain c v t h2 _ ih => rw [List.cons_append, parseValue_plain c _ h2, ih]; rfl
  | quest f v t hf _ ih =>
    show parseValue ('%' :: '3' :: f :: (t ++ '%' :: r)) = _
    rw [parseValue, if_pos ((isEscQ_iff '3' f).2 ⟨rfl, hf⟩), ih]; rfl
  | percent v t _ ih =>
    show parseValue ('%' :: '2' :: '5' :: (t ++ '%' :: r)) = _
    rw [parseValue, if_neg (by decide), if_pos (by decide), ih]; rfl

theorem pairs_noEsc {d : Char → Bool} (hd : DigitLaw d) {ps s} (h : PairsTxt d ps s) : NoEsc s := by
  have key : ∀ (x : Char) (s' : List Char), x ≠ '2' → x ≠ '3' → NoEsc (x :: s') := by
    intro x s' h2 h3 a b m he
    cases he
    constructor
    · cases hq : isEscQ x b with
      | false => rfl
      | true => exact absurd ((isEscQ_iff x b).1 hq).1 h3
    · cases hq : isEscP x b with
      | false => rfl
      | true => exact absurd ((isEscP_iff x b).1 hq).1 h2
  cases h with
  | nil => intro a b m he; cases he
  | cons n v ps tn tv ts hn hnd hv hps =>
    cases hn with
    | nil => exact key '?' _ (by decide) (by decide)
    | plain c n t h1 h2 ht =>
      have hc := hnd c n rfl
      refine key c _ ?_ ?_
      · rintro rfl; rw [hd '2' (by decide)] at hc; cases hc
      · rintro rfl; rw [hd '3' (by decide)] at hc; cases hc
    | quest f n t hf ht => exact key '%' _ (by decide) (by decide)
    | percent n t ht => exact key '%' _ (by decide) (by decide)

theorem digitFirst_iff (d : Char → Bool) (n : List Char) :
    digitFirst d n = false ↔ ∀ c m, n = c :: m → d c = false := by
  cases n with
  | nil => exact ⟨fun _ => nofun, fun _ => rfl⟩
  | cons x xs => exact ⟨fun h c m he => by cases he; exact h, fun h => h x xs rfl⟩

theorem pairsLoop_sound (d : Char → Bool) : ∀ (k : Nat) (s : List Char) (ps : List (List Char × List Char)),
    pairsLoop d k s = .ok ps → PairsTxt d ps s := by
  intro k
  induction k with
  | zero =>
    intro s ps h
    cases s with
    | nil => rw [pairsLoop] at h; cases h; exact .nil
    | cons c r => rw [pairsLoop] at h; cases h
  | succ k ih =>
    intro s ps h
    cases s with
    | nil => rw [pairsLoop] at h; cases h; exact .nil
    | cons c s =>
      rw [pairsLoop] at h
      · cases hn : parseName (c :: s) with
        | error e => rw [hn] at h; cases h
        | ok p =>
          obtain ⟨n, r⟩ := p
          rw [hn] at h; dsimp only at h
          by_cases hdg : digitFirst d n = true
          · rw [if_pos hdg] at h; cases h
          · rw [if_neg hdg] at h
            cases hv : parseValue r with
            | error e => rw [hv] at h; cases h
            | ok q =>
              obtain ⟨v, r'⟩ := q
              rw [hv] at h; dsimp only at h
              cases hl : pairsLoop d k r' with
              | error e => rw [hl] at h; cases h
              | ok ps' =>
                rw [hl] at h; cases h
                obtain ⟨tn, htn, hN⟩ := parseName_sound _ _ _ hn
                obtain ⟨tv, rfl, hV⟩ := parseValue_sound _ _ _ hv
                rw [htn]
                exact .cons n v ps' tn tv r' hN
                  ((digitFirst_iff d n).1 (by simpa using hdg)) hV (ih r' ps' hl)
      · intro h0; cases h0

theorem pairsLoop_complete (d : Char → Bool) (hd : DigitLaw d) {ps s} (h : PairsTxt d ps s) :
    ∀ k, s.length ≤ k → pairsLoop d k s = .ok ps := by
  induction h with
  | nil => intro k _; rw [pairsLoop]
  | cons n v ps tn tv ts hn hnd hv hps ih =>
    intro k hk
    have hlen : (tn ++ '?' :: (tv ++ '%' :: ts)).length = tn.length + (tv.length + (ts.length + 1) + 1) := by
      simp
    cases k with
    | zero => omega
    | succ k =>
      have hne : tn ++ '?' :: (tv ++ '%' :: ts) ≠ [] := by simp
      cases hs : tn ++ '?' :: (tv ++ '%' :: ts) with
      | nil => exact absurd hs hne
      | cons c s' =>
        rw [pairsLoop]
        · rw [← hs, parseName_complete hn]
          dsimp only
          rw [if_neg (by rw [(digitFirst_iff d n).2 hnd]; decide),
            parseValue_complete hv ts (pairs_noEsc hd hps)]
          dsimp only
          rw [ih k (by omega)]
        · intro h0; cases h0

/-- **C167.** The parser reads exactly the texts of the grammar, and gives the pairs written in them. -/
theorem C167_iff (d : Char → Bool) (hd : DigitLaw d) (s : List Char) (ps : List (List Char × List Char)) :
    parsePairs d s = .ok ps ↔ PairsTxt d ps s :=
  ⟨pairsLoop_sound d _ s ps, fun h => pairsLoop_complete d hd h _ (Nat.le_refl _)⟩

/-- **C167.** A text has at most one reading in the grammar. -/
theorem C167_unique (d : Char → Bool) (hd : DigitLaw d) (s : List Char) (ps ps' : List (List Char × List Char))
    (h : PairsTxt d ps s) (h' : PairsTxt d ps' s) : ps = ps' := by
  have e := (C167_iff d hd s ps).2 h
  rw [(C167_iff d hd s ps').2 h'] at e
  cases e; rfl

theorem parseName_error : ∀ (s : List Char) (e : PyErr), parseName s = .error e → e = .valueError := by
  intro s
  fun_induction parseName s with
  | case1 => intro e h; cases h; rfl
  | case2 r => intro e h; cases h
  | case3 a b r hq ih =>
    intro e h
    cases hx : parseName r with
    | error e' => rw [hx] at h; cases h; exact ih _ hx
    | ok p => rw [hx] at h; cases h
  | case4 a b r hq hp ih =>
    intro e h
    cases hx : parseName r with
    | error e' => rw [hx] at h; cases h; exact ih _ hx
    | ok p => rw [hx] at h; cases h
  | case5 => intro e h; cases h; rfl
  | case6 => intro e h; cases h; rfl
  | case7 c r h1 h2 h3 ih =>
    intro e h
    cases hx : parseName r with
    | error e' => rw [hx] at h; cases h; exact ih _ hx
    | ok p => rw [hx] at h; cases h

theorem parseValue_error : ∀ (s : List Char) (e : PyErr), parseValue s = .error e → e = .valueError := by
  intro s
  fun_induction parseValue s with
  | case1 => intro e h; cases h; rfl
  | case2 a b r hq ih =>
    intro e h
    cases hx : parseValue r with
    | error e' => rw [hx] at h; cases h; exact ih _ hx
    | ok p => rw [hx] at h; cases h
  | case3 a b r hq hp ih =>
    intro e h
    cases hx : parseValue r with
    | error e' => rw [hx] at h; cases h; exact ih _ hx
    | ok p => rw [hx] at h; cases h
  | case4 => intro e h; cases h
  | case5 => intro e h; cases h
  | case6 c r h1 h3 ih =>
    intro e h
    cases hx : parseValue r with
    | error e' => rw [hx] at h; cases h; exact ih _ hx
    | ok p => rw [hx] at h; cases h

theorem pairsLoop_error (d : Char → Bool) : ∀ (k : Nat) (s : List Char) (e : PyErr), s.length ≤ k →
    pairsLoop d k s = .error e → e = .valueError := by
  intro k
  induction k with
  | zero =>
    intro s e hk h
    cases s with
    | nil => rw [pairsLoop] at h; cases h
    | cons c r => simp at hk
  | succ k ih =>
    intro s e hk h
    cases s with
    | nil => rw [pairsLoop] at h; cases h
    | cons c s =>
      rw [pairsLoop] at h
      · cases hn : parseName (c :: s) with
        | error e' => rw [hn] at h; cases h; exact parseName_error _ _ hn
        | ok p =>
          obtain ⟨n, r⟩ := p
          rw [hn] at h; dsimp only at h
          by_cases hdg : digitFirst d n = true
          · rw [if_pos hdg] at h; cases h; rfl
          · rw [if_neg hdg] at h
            cases hv : parseValue r with
            | error e' => rw [hv] at h; cases h; exact parseValue_error _ _ hv
            | ok q =>
              obtain ⟨v, r'⟩ := q
              rw [hv] at h; dsimp only at h
              cases hl : pairsLoop d k r' with
              | ok ps => rw [hl] at h; cases h
              | error e' =>
                rw [hl] at h; cases h
                obtain ⟨tn, htn, hN⟩ := parseName_sound _ _ _ hn
                obtain ⟨tv, rfl, hV⟩ := parseValue_sound _ _ _ hv
                refine ih r' _ ?_ hl
                rw [htn] at hk
                simp only [List.length_append, List.length_cons] at hk
                omega
      · intro h0; cases h0

/-- **C167.** Any other text is refused with `ValueError`; the loops always end. -/
theorem C167_refused (d : Char → Bool) (hd : DigitLaw d) (s : List Char) (h : ¬ ∃ ps, PairsTxt d ps s) :
    parsePairs d s = .error .valueError := by
  cases hp : parsePairs d s with
  | ok ps => exact absurd ⟨ps, (C167_iff d hd s ps).1 hp⟩ h
  | error e => rw [pairsLoop_error d _ s e (Nat.le_refl _) hp]

/-- A value as RFC 4211 writes it: `?` and `%` are escaped. -/
def rfcEsc (s : List Char) : List Char :=
  s.flatMap fun c => if c = '?' then ['%', '3', 'f'] else if c = '%' then ['%', '2', '5'] else [c]

/-- Pairs as RFC 4211 writes them. -/
def rfcText : List (List Char × List Char) → List Char
  | [] => []
  | (n, v) :: ps => rfcEsc n ++ '?' :: (rfcEsc v ++ '%' :: rfcText ps)

theorem rfcEsc_name : ∀ n : List Char, NameTxt n (rfcEsc n)
  | [] => .nil
  | c :: n => by
    have ih := rfcEsc_name n
    unfold rfcEsc
    rw [List.flatMap_cons]
    by_cases h1 : c = '?'
    · subst h1; exact .quest 'f' n _ (.inl rfl) ih
    · by_cases h2 : c = '%'
      · subst h2; exact .percent n _ ih
      · rw [if_neg h1, if_neg h2]; exact .plain c n _ h1 h2 ih

theorem rfcEsc_value : ∀ n : List Char, ValueTxt n (rfcEsc n)
  | [] => .nil
  | c :: n => by
    have ih := rfcEsc_value n
    unfold rfcEsc
    rw [List.flatMap_cons]
    by_cases h1 : c = '?'
    · subst h1; exact .quest 'f' n _ (.inl rfl) ih
    · by_cases h2 : c = '%'
      · subst h2; exact .percent n _ ih
      · rw [if_neg h1, if_neg h2]; exact .plain c n _ h2 ih

/-- **C167.** Every list of pairs whose names begin with no digit is read back from its text, whatever the names and
the values contain. -/
theorem C167_roundtrip (d : Char → Bool) (hd : DigitLaw d) (ps : List (List Char × List Char))
    (h : ∀ p ∈ ps, ∀ c m, p.1 = c :: m → d c = false) : parsePairs d (rfcText ps) = .ok ps := by
  rw [C167_iff d hd]
  induction ps with
  | nil => exact .nil
  | cons p ps ih =>
    obtain ⟨n, v⟩ := p
    exact .cons n v ps _ _ _ (rfcEsc_name n) (h (n, v) (by simp)) (rfcEsc_value v)
      (ih fun q hq => h q (by simp [hq]))

/-! ## Percent encoding -/

theorem hexByte_hexDigit : ∀ b : UInt8, hexByte (hexDigit (b.toNat / 16)) (hexDigit (b.toNat % 16)) = some b := by
  have h : ∀ n : Fin 256, hexByte (hexDigit (n.val / 16)) (hexDigit (n.val % 16)) = some (UInt8.ofNat n.val) := by
    decide +kernel
  intro b
  have := h ⟨b.toNat, b.toNat_lt⟩
  simpa using this

theorem unqGo_hexEsc (acc : List UInt8) (b : UInt8) (r : List Char) :
    unqGo acc (hexEsc b ++ r) = unqGo (acc ++ [b]) r := by
  show unqGo acc ('%' :: hexDigit (b.toNat / 16) :: hexDigit (b.toNat % 16) :: r) = _
  rw [unqGo, hexByte_hexDigit]

theorem unqGo_hexEscs : ∀ (bs : List UInt8) (acc : List UInt8) (r : List Char),
    unqGo acc (bs.flatMap hexEsc ++ r) = unqGo (acc ++ bs) r
  | [], acc, r => by simp
  | b :: bs, acc, r => by
    rw [List.flatMap_cons, List.append_assoc, unqGo_hexEsc, unqGo_hexEscs bs]
    simp

theorem unqGo_plain (acc : List UInt8) (c : Char) (r : List Char) (h : c ≠ '%') (hc : c.toNat < 128) :
    unqGo acc (c :: r) = unqGo (acc ++ [UInt8.ofNat c.toNat]) r := by
  rw [unqGo.eq_def]
  split
  · simp_all
  · simp_all
  · next c' r' _ he => cases he; rw [if_pos hc]

theorem utf8_ascii (c : Char) (hc : c.toNat < 128) : String.utf8EncodeChar c = [UInt8.ofNat c.toNat] := by
  have h : c.val.toNat ≤ 0x7f := by have : c.val.toNat = c.toNat := rfl; omega
  unfold String.utf8EncodeChar
  rw [if_pos h]
  rfl

theorem safe_ascii (c : Char) (h : isSafe c = true) : c.toNat < 128 ∧ c ≠ '%' ∧ c ≠ '?' := by
  refine ⟨?_, ?_, ?_⟩
  · unfold isSafe at h
    simp only [Bool.or_eq_true, beq_iff_eq, Char.isAlphanum, Char.isAlpha, Char.isUpper, Char.isLower, Char.isDigit,
      Bool.and_eq_true, decide_eq_true_eq] at h
    have e : c.toNat = c.val.toNat := rfl
    rcases h with ((((h | h) | h) | h) | h) | h
    · rcases h with (h | h) | h
      · have := UInt32.le_iff_toNat_le.1 h.2; rw [e]; simp at this; omega
      · have := UInt32.le_iff_toNat_le.1 h.2; rw [e]; simp at this; omega
      · have := UInt32.le_iff_toNat_le.1 h.2; rw [e]; simp at this; omega
    all_goals subst h; decide
  · rintro rfl; exact absurd h (by decide)
  · rintro rfl; exact absurd h (by decide)

theorem unqGo_quote : ∀ (s : List Char) (acc : List UInt8),
    unqGo acc (quote s) = utf8Dec (acc ++ s.flatMap String.utf8EncodeChar)
  | [], acc => by simp [quote, unqGo]
  | c :: s, acc => by
    have ih := unqGo_quote s
    unfold quote at ih ⊢
    rw [List.flatMap_cons, List.flatMap_cons]
    by_cases h : isSafe c = true
    · rw [if_pos h]
      obtain ⟨h1, h2, _⟩ := safe_ascii c h
      rw [utf8_ascii c h1, List.singleton_append, unqGo_plain acc c _ h2 h1, ih]
      simp
    · rw [if_neg h, unqGo_hexEscs, ih]
      simp

theorem utf8Dec_encode (s : List Char) : utf8Dec (s.flatMap String.utf8EncodeChar) = some s := by
  unfold utf8Dec
  have := @List.utf8Decode?_utf8Encode s
  unfold List.utf8Encode at this
  have e : (ByteArray.mk (List.flatMap String.utf8EncodeChar s).toArray) =
      (List.flatMap String.utf8EncodeChar s).toByteArray := by
    simp [ByteArray.ext_iff]
  rw [e, this]
  simp

/-- **C167.** `unquote` undoes `quote`, for every text. -/
theorem C167_quote (s : List Char) : unquote (quote s) = some s := by
  unfold unquote
  rw [unqGo_quote, List.nil_append, utf8Dec_encode]

/-! ## The attribute in a message -/

/-- A text is read back from its encoding. -/
structure TextLaws (t : TextEnv) : Prop where
  dec : ∀ s, t.dec (t.enc s) = some (s, [])
  digit : DigitLaw t.isDigit

theorem validate_one (t : TextEnv) (ht : TextLaws t) (s : List Char) (must : Bool) :
    validateUtf8Pairs t [(regInfoUtf8Pairs, t.enc s)] must =
      match unquote s with
      | none => .error .badAsn1Data
      | some u =>
        match parsePairs t.isDigit u with
        | .error _ => .error .badAsn1Data
        | .ok ps => .ok (some ps) := by
  unfold validateUtf8Pairs firstOf
  rw [if_pos rfl]
  unfold readUtf8Pairs
  rw [show checkUnique [] [(regInfoUtf8Pairs, t.enc s)] = .ok () from rfl]
  dsimp only
  rw [ht.dec]
  dsimp only
  rw [if_neg (not_not_intro rfl)]
  cases unquote s with
  | none => rfl
  | some u => dsimp only; cases parsePairs t.isDigit u <;> rfl

/-- **C167.** The attribute written with percent encoding, the default, is read as the pairs of the text given; any
other text is refused. -/
theorem C167_sent (t : TextEnv) (ht : TextLaws t) (s : List Char) (must : Bool)
    (out : Option (List (List Char × List Char))) :
    validateUtf8Pairs t [prepareUtf8Pairs t s true] must = .ok out ↔ ∃ ps, out = some ps ∧ PairsTxt t.isDigit ps s := by
  unfold prepareUtf8Pairs
  rw [if_pos rfl, validate_one t ht, C167_quote]
  dsimp only
  constructor
  · intro h
    cases hp : parsePairs t.isDigit s with
    | error e => rw [hp] at h; cases h
    | ok ps => rw [hp] at h; cases h; exact ⟨ps, rfl, (C167_iff _ ht.digit s ps).1 hp⟩
  · rintro ⟨ps, rfl, h⟩
    rw [(C167_iff _ ht.digit s ps).2 h]

theorem checkUnique_iff : ∀ (as : List Attr) (seen : List (List Nat)),
    checkUnique seen as = .ok () ↔ (as.map Prod.fst).Nodup ∧ ∀ a ∈ as, a.1 ∉ seen
  | [], seen => by simp [checkUnique]
  | a :: as, seen => by
    unfold checkUnique
    by_cases h : a.1 ∈ seen
    · rw [if_pos h]
      constructor
      · intro h'; cases h'
      · rintro ⟨_, h2⟩; exact absurd h (h2 a (by simp))
    · rw [if_neg h, checkUnique_iff as (a.1 :: seen)]
      simp only [List.map_cons, List.nodup_cons, List.mem_map, List.mem_cons, not_or]
      constructor
      · rintro ⟨h1, h2⟩
        refine ⟨⟨?_, h1⟩, ?_⟩
        · rintro ⟨b, hb, he⟩; exact (h2 b hb).1 he
        · rintro b (rfl | hb)
          · exact h
          · exact (h2 b hb).2
      · rintro ⟨⟨h1, h2⟩, h3⟩
        exact ⟨h2, fun b hb => ⟨fun he => h1 ⟨b, hb, he⟩, h3 b (.inr hb)⟩⟩

/-- **C167.** Pairs are given only if no type of attribute occurs twice. -/
theorem C167_unique_types (t : TextEnv) (infos : List Attr) (must : Bool) (ps : List (List Char × List Char))
    (h : validateUtf8Pairs t infos must = .ok (some ps)) : (infos.map Prod.fst).Nodup := by
  unfold validateUtf8Pairs at h
  cases hf : firstOf regInfoUtf8Pairs infos with
  | none => rw [hf] at h; cases must <;> cases h
  | some der =>
    rw [hf] at h
    unfold readUtf8Pairs at h
    cases hu : checkUnique [] infos with
    | error e => rw [hu] at h; cases h
    | ok u => exact ((checkUnique_iff infos []).1 hu).1

theorem quote_noQ (s : List Char) : '?' ∉ quote s := by
  have hx : ∀ n : Fin 16, hexDigit n.val ≠ '?' := by decide +kernel
  intro h
  unfold quote at h
  rw [List.mem_flatMap] at h
  obtain ⟨c, _, hc⟩ := h
  by_cases hs : isSafe c = true
  · rw [if_pos hs, List.mem_singleton] at hc
    exact (safe_ascii c hs).2.2 hc.symm
  · rw [if_neg hs, List.mem_flatMap] at hc
    obtain ⟨b, _, hb⟩ := hc
    unfold hexEsc at hb
    have hlt := b.toNat_lt
    simp only [List.mem_cons, List.not_mem_nil, or_false] at hb
    rcases hb with hb | hb | hb
    · exact absurd hb (by decide)
    · exact hx ⟨b.toNat / 16, by omega⟩ hb.symm
    · exact hx ⟨b.toNat % 16, by omega⟩ hb.symm

theorem quote_ne_nil (s : List Char) (h : s ≠ []) : quote s ≠ [] := by
  cases s with
  | nil => exact absurd rfl h
  | cons c s =>
    intro he
    have := C167_quote (c :: s)
    rw [he] at this
    have e : unquote [] = some [] := by
      have := C167_quote []
      exact this
    rw [e] at this
    cases this

/-- **C167 (refuted).** What is sent by default is never of the form of RFC 4211, unless there are no pairs: the
separators are encoded, too. -/
theorem C167_wire_refuted (d : Char → Bool) (s : List Char) (hs : s ≠ []) (ps : List (List Char × List Char)) :
    ¬ PairsTxt d ps (quote s) := by
  intro h
  have hn := quote_noQ s
  have hne := quote_ne_nil s hs
  generalize quote s = q at *
  cases h with
  | nil => exact hne rfl
  | cons n v ps tn tv ts _ _ _ _ => exact hn (by simp)

theorem utf8Dec_ascii (l : List Char) (h : ∀ c ∈ l, c.toNat < 128) :
    utf8Dec (l.map fun c => UInt8.ofNat c.toNat) = some l := by
  have e : (l.map fun c => UInt8.ofNat c.toNat) = l.flatMap String.utf8EncodeChar := by
    induction l with
    | nil => rfl
    | cons c l ih =>
      rw [List.map_cons, List.flatMap_cons, utf8_ascii c (h c (by simp)), ih fun x hx => h x (by simp [hx])]
      rfl
  rw [e, utf8Dec_encode]

/-- No `%` is followed by two hexadecimal digits. -/
def NoHex (s : List Char) : Prop := ∀ p a b q, s = p ++ '%' :: a :: b :: q → hexByte a b = none

theorem NoHex.tail {c : Char} {s : List Char} (h : NoHex (c :: s)) : NoHex s := fun p a b q e =>
  h (c :: p) a b q (by rw [e]; rfl)

theorem unqGo_noHex : ∀ (s l : List Char), NoHex s → (∀ c ∈ l, c.toNat < 128) →
    unqGo (l.map fun c => UInt8.ofNat c.toNat) s = some (l ++ s)
  | [], l, _, hl => by rw [unqGo, utf8Dec_ascii l hl]; simp
  | c :: s, l, h, hl => by
    have step : c.toNat < 128 → unqGo ((l.map fun c => UInt8.ofNat c.toNat) ++ [UInt8.ofNat c.toNat]) s =
        some (l ++ c :: s) := by
      intro hc
      have := unqGo_noHex s (l ++ [c]) h.tail (by
        intro x hx
        rcases List.mem_append.1 hx with hx | hx
        · exact hl x hx
        · rw [List.mem_singleton] at hx; rw [hx]; exact hc)
      rw [List.map_append] at this
      rw [show l ++ c :: s = l ++ [c] ++ s by simp]
      exact this
    rw [unqGo.eq_def]
    split
    · next he => cases he
    · next a b r he =>
      cases he
      rw [h [] a b r rfl]
      dsimp only
      exact step (by decide)
    · next c' r _ he =>
      cases he
      by_cases hc : c.toNat < 128
      · rw [if_pos hc]; exact step hc
      · rw [if_neg hc, utf8Dec_ascii l hl, show unqGo [] s = some s from unqGo_noHex s [] h.tail (by simp)]

/-- **C167 (partial).** A text sent as it is, without percent encoding, is read as the pairs of the text, if no `%` in
it is followed by two hexadecimal digits. Missing: all texts with escape sequences, and those with a name which begins
with two letters from `a` to `f`. -/
theorem C167_raw_partial (t : TextEnv) (ht : TextLaws t) (s : List Char) (must : Bool) (hs : NoHex s)
    (out : Option (List (List Char × List Char))) :
    validateUtf8Pairs t [prepareUtf8Pairs t s false] must = .ok out ↔
      ∃ ps, out = some ps ∧ PairsTxt t.isDigit ps s := by
  unfold prepareUtf8Pairs
  rw [if_neg (by decide), validate_one t ht, show unquote s = some s from unqGo_noHex s [] hs (by simp)]
  dsimp only
  constructor
  · intro h
    cases hp : parsePairs t.isDigit s with
    | error e => rw [hp] at h; cases h
    | ok ps => rw [hp] at h; cases h; exact ⟨ps, rfl, (C167_iff _ ht.digit s ps).1 hp⟩
  · rintro ⟨ps, rfl, h⟩
    rw [(C167_iff _ ht.digit s ps).2 h]

/-- Texts as their UTF-8 bytes, for the examples: one byte for each character. -/
def exText : TextEnv where
  enc s := s.flatMap String.utf8EncodeChar
  dec b := (utf8Dec b).map fun s => (s, [])
  isDigit := Char.isDigit

theorem exText_laws : TextLaws exText where
  dec s := by
    show Option.map _ (utf8Dec (s.flatMap String.utf8EncodeChar)) = _
    rw [utf8Dec_encode]; rfl
  digit _ h := h

/-- The text of one pair, `org` with the value `x%role?admin`. -/
def exRaw : List Char := rfcText [(['o', 'r', 'g'], ['x', '%', 'r', 'o', 'l', 'e', '?', 'a', 'd', 'm', 'i', 'n'])]

example : exRaw = "org?x%25role%3fadmin%".toList := by decide +kernel

/-- The text after `unquote`. -/
def exUnq : List Char :=
  ['o', 'r', 'g', '?', 'x', '%', 'r', 'o', 'l', 'e', '?', 'a', 'd', 'm', 'i', 'n', '%']

theorem exRaw_unq : unquote exRaw = some exUnq := by
  rw [← utf8Dec_ascii exUnq (by decide +kernel)]
  rfl

/-- **C167 (refuted).** A text of RFC 4211, sent as it is, is read as other pairs: the text is decoded before it is
taken apart, so that a value with an escaped `%` and `?` makes a second pair. -/
theorem C167_raw_refuted : ∃ (t : TextEnv) (s : List Char) (ps ps' : List (List Char × List Char)), TextLaws t ∧
    PairsTxt t.isDigit ps s ∧ validateUtf8Pairs t [prepareUtf8Pairs t s false] true = .ok (some ps') ∧
    ps = [("org".toList, "x%role?admin".toList)] ∧
    ps' = [("org".toList, "x".toList), ("role".toList, "admin".toList)] := by
  refine ⟨exText, exRaw, [(['o', 'r', 'g'], ['x', '%', 'r', 'o', 'l', 'e', '?', 'a', 'd', 'm', 'i', 'n'])],
    [(['o', 'r', 'g'], ['x']), (['r', 'o', 'l', 'e'], ['a', 'd', 'm', 'i', 'n'])], exText_laws, ?_, ?_, ?_, ?_⟩
  · rw [← C167_iff _ exText_laws.digit]
    exact C167_roundtrip _ exText_laws.digit _ (by
      intro p hp c m he
      rw [List.mem_singleton] at hp
      subst hp; cases he; decide)
  · unfold prepareUtf8Pairs
    rw [if_neg (by decide), validate_one _ exText_laws, exRaw_unq]
    rfl
  · decide +kernel
  · decide +kernel

/-- **C167 (refuted).** A text of RFC 4211 with a name which begins with two letters from `a` to `f`, sent as it is, is
refused: the end of the value before it and the two letters are taken for an escape sequence. -/
theorem C167_name_refuted : ∃ (t : TextEnv) (s : List Char) (ps : List (List Char × List Char)), TextLaws t ∧
    PairsTxt t.isDigit ps s ∧ s = "a?1%bed?2%".toList ∧
    validateUtf8Pairs t [prepareUtf8Pairs t s false] true = .error .badAsn1Data := by
  refine ⟨exText, ['a', '?', '1', '%', 'b', 'e', 'd', '?', '2', '%'],
    [(['a'], ['1']), (['b', 'e', 'd'], ['2'])], exText_laws, ?_, by decide +kernel, ?_⟩
  · rw [← C167_iff _ exText_laws.digit]
    rfl
  · unfold prepareUtf8Pairs
    rw [if_neg (by decide), validate_one _ exText_laws]
    rw [show unquote ['a', '?', '1', '%', 'b', 'e', 'd', '?', '2', '%'] = none from ?_]
    show utf8Dec [0x61, 0x3f, 0x31, 0xbe, 0x64, 0x3f, 0x32, 0x25] = none
    decide +kernel

example : parsePairs Char.isDigit "version?1%org_unit?R%25D%".toList =
    .ok [("version".toList, "1".toList), ("org_unit".toList, "R%D".toList)] := by rfl

example : parsePairs Char.isDigit "1version?1%".toList = .error .valueError := by rfl

example : quote "a?1%".toList = "a%3F1%25".toList := by decide +kernel

/-- **C167.** The attribute has the type of RFC 4211, 7.1. -/
theorem C167_type (t : TextEnv) (s : List Char) (q : Bool) : (prepareUtf8Pairs t s q).1 = [1, 3, 6, 1, 5, 5, 7, 5, 2, 1] := by
  cases q <;> rfl

/-- The hexadecimal digits, small and capital. -/
def smallHex : List Char := ['0', '1', '2', '3', '4', '5', '6', '7', '8', '9', 'a', 'b', 'c', 'd', 'e', 'f']
def capitalHex : List Char := ['0', '1', '2', '3', '4', '5', '6', '7', '8', '9', 'A', 'B', 'C', 'D', 'E', 'F']

/-- **C167.** Escape sequences with small digits are read like those with capital digits. -/
theorem C167_hex (i j : Fin 16) : hexByte smallHex[i] smallHex[j] = some (UInt8.ofNat (16 * i.val + j.val)) ∧
    hexByte capitalHex[i] capitalHex[j] = some (UInt8.ofNat (16 * i.val + j.val)) := by
  have h : ∀ i : Fin 16, hexVal smallHex[i] = some i.val ∧ hexVal capitalHex[i] = some i.val := by decide +kernel
  unfold hexByte
  rw [(h i).1, (h j).1, (h i).2, (h j).2]
  exact ⟨rfl, rfl⟩

/-- **C167.** Nothing else is an escape sequence: a `%` before two characters which are no hexadecimal digits is kept. -/
theorem C167_hex_only (a b : Char) : (hexByte a b).isSome = true → a ∈ smallHex ++ capitalHex ∧ b ∈ smallHex ++ capitalHex := by
  have key : ∀ c : Char, (hexVal c).isSome = true → c ∈ smallHex ++ capitalHex := by
    intro c h
    have hn : c = Char.ofNat c.toNat := by simp
    have hall : ∀ n : Fin 103, (48 ≤ n.val ∧ n.val ≤ 57) ∨ (65 ≤ n.val ∧ n.val ≤ 70) ∨ (97 ≤ n.val ∧ n.val ≤ 102) →
        Char.ofNat n.val ∈ smallHex ++ capitalHex := by decide +kernel
    unfold hexVal at h
    split at h
    · rename_i hc
      rw [hn]
      exact hall ⟨c.toNat, by omega⟩ (.inl hc)
    · split at h
      · rename_i hc
        rw [hn]
        exact hall ⟨c.toNat, by omega⟩ (.inr (.inl hc))
      · split at h
        · rename_i hc
          rw [hn]
          exact hall ⟨c.toNat, by omega⟩ (.inr (.inr hc))
        · cases h
  intro h
  unfold hexByte at h
  split at h
  · rename_i x y hx hy
    exact ⟨key a (by rw [hx]; rfl), key b (by rw [hy]; rfl)⟩
  · cases h

example : hexByte 'a' 'F' = some 175 ∧ hexByte 'g' '0' = none ∧ hexByte '1' '/' = none := by decide +kernel

end Verif.Ra
