import Verif.Check.PubKey

/-!
# C259: the public key of an issued certificate is compared to the expected one
-/

namespace Verif.Check.PubKey

open Verif.CA (PyErr)

variable {S K : Type}

/-! ## Dictionaries -/

/-- `k` is the last key with the value `n`. -/
def LastWith (d : Dict) (n k : Ent) : Prop := ∃ a b, d = a ++ (k, n) :: b ∧ ∀ x ∈ b, x.2 ≠ n

theorem look_insert (k v q : Ent) (d : Dict) : look q (insert k v d) = if k = q then some v else look q d := by
  induction d with
  | nil => rfl
  | cons x d ih =>
    obtain ⟨k', v'⟩ := x
    unfold insert
    by_cases h : k' = k
    · subst h
      rw [if_pos rfl]
      unfold look
      by_cases hq : k' = q
      · simp [hq]
      · simp [hq]
    · rw [if_neg h]
      unfold look
      rw [ih]
      by_cases hq : k' = q
      · subst hq
        rw [if_pos rfl, if_neg (fun e => h e.symm), if_pos rfl]
      · rw [if_neg hq, if_neg hq]

theorem invert_snoc (d : Dict) (x : Ent × Ent) : invert (d ++ [x]) = insert x.2 x.1 (invert d) := by
  unfold invert
  rw [List.foldl_append]
  rfl

theorem snoc_ind {α : Type} {P : List α → Prop} (h0 : P []) (hs : ∀ l x, P l → P (l ++ [x])) (l : List α) : P l := by
  have : ∀ n (l : List α), l.length = n → P l := by
    intro n
    induction n with
    | zero => intro l hl; rw [List.length_eq_zero_iff.1 hl]; exact h0
    | succ n ih =>
      intro l hl
      have hne : l ≠ [] := by intro h; rw [h] at hl; cases hl
      rw [← List.dropLast_concat_getLast hne]
      exact hs _ _ (ih _ (by simp [hl]))
  exact this _ l rfl

/-- C259: the inverse of a table gives for a name the last key that has it. -/
theorem C259_invert (d : Dict) (n k : Ent) : look n (invert d) = some k ↔ LastWith d n k := by
  induction d using snoc_ind generalizing k with
  | h0 =>
    constructor
    · exact fun h => (nomatch h)
    · rintro ⟨a, b, h, _⟩
      exact absurd h (by simp)
  | hs d x ih =>
    rw [invert_snoc, look_insert]
    by_cases hx : x.2 = n
    · rw [if_pos hx]
      constructor
      · intro h
        cases h
        exact ⟨d, [], by obtain ⟨a, b⟩ := x; cases hx; rfl, fun y hy => (nomatch hy)⟩
      · rintro ⟨a, b, h, hb⟩
        rcases List.eq_nil_or_concat b with rfl | ⟨b', y, rfl⟩
        · have := List.append_inj_right' h rfl
          cases this
          rfl
        · rw [List.concat_eq_append, ← List.cons_append, ← List.append_assoc] at h
          have := List.append_inj_right' h rfl
          cases this
          exact absurd hx (hb x (by simp))
    · rw [if_neg hx, ih]
      constructor
      · rintro ⟨a, b, rfl, hb⟩
        refine ⟨a, b ++ [x], by simp, ?_⟩
        intro y hy
        rcases List.mem_append.1 hy with h | h
        · exact hb y h
        · cases List.mem_singleton.1 h
          exact hx
      · rintro ⟨a, b, h, hb⟩
        rcases List.eq_nil_or_concat b with rfl | ⟨b', y, rfl⟩
        · have := List.append_inj_right' h rfl
          cases this
          exact absurd rfl hx
        · rw [List.concat_eq_append, ← List.cons_append, ← List.append_assoc] at h
          have h2 := List.append_inj_left' h rfl
          exact ⟨a, b', h2, fun z hz => hb z (by simp [hz])⟩

theorem insert_new (k v : Ent) (d : Dict) (h : ∀ x ∈ d, x.1 ≠ k) : insert k v d = d ++ [(k, v)] := by
  induction d with
  | nil => rfl
  | cons x d ih =>
    obtain ⟨k', v'⟩ := x
    unfold insert
    rw [if_neg (h _ (List.mem_cons_self ..)), ih fun y hy => h y (List.mem_cons_of_mem _ hy)]
    rfl

/-- Putting in another key with another value keeps the last key with a value. -/
theorem insert_last (d : Dict) (n k k' v' : Ent) (hk : k' ≠ k) (hv : v' ≠ n) (h : LastWith d n k) :
    LastWith (insert k' v' d) n k := by
  obtain ⟨a, b, rfl, hb⟩ := h
  have hins : ∀ l : Dict, (∀ x ∈ l, x.2 ≠ n) → ∀ x ∈ insert k' v' l, x.2 ≠ n := by
    intro l
    induction l with
    | nil =>
      intro _ x hx
      cases List.mem_singleton.1 hx
      exact hv
    | cons y l ih =>
      intro hl x hx
      obtain ⟨k1, v1⟩ := y
      unfold insert at hx
      by_cases h1 : k1 = k'
      · rw [if_pos h1] at hx
        rcases List.mem_cons.1 hx with rfl | h
        · exact hv
        · exact hl x (List.mem_cons_of_mem _ h)
      · rw [if_neg h1] at hx
        rcases List.mem_cons.1 hx with rfl | h
        · exact hl _ (List.mem_cons_self ..)
        · exact ih (fun z hz => hl z (List.mem_cons_of_mem _ hz)) x h
  induction a with
  | nil =>
    rw [List.nil_append]
    unfold insert
    rw [if_neg (fun e => hk e.symm)]
    exact ⟨[], _, rfl, hins b hb⟩
  | cons y a ih =>
    obtain ⟨k1, v1⟩ := y
    rw [List.cons_append]
    unfold insert
    by_cases h1 : k1 = k'
    · rw [if_pos h1]
      exact ⟨(k', v') :: a, b, rfl, hb⟩
    · rw [if_neg h1]
      obtain ⟨a', b', e, hb'⟩ := ih
      exact ⟨(k1, v1) :: a', b', by rw [e]; rfl, hb'⟩

theorem update_last (l d : Dict) (n k : Ent) (hl : ∀ x ∈ l, x.1 ≠ k ∧ x.2 ≠ n) (h : LastWith d n k) :
    LastWith (update d l) n k := by
  unfold update
  induction l generalizing d with
  | nil => exact h
  | cons x l ih =>
    rw [List.foldl_cons]
    refine ih _ (fun y hy => hl y (List.mem_cons_of_mem _ hy)) ?_
    obtain ⟨h1, h2⟩ := hl x (List.mem_cons_self ..)
    exact insert_last d n k _ _ h1 h2 h

theorem insert_mem (d : Dict) (k v : Ent) (x : Ent × Ent) (h : x ∈ insert k v d) : x = (k, v) ∨ x ∈ d := by
  induction d with
  | nil => exact .inl (List.mem_singleton.1 h)
  | cons y d ih =>
    obtain ⟨k1, v1⟩ := y
    unfold insert at h
    by_cases h1 : k1 = k
    · rw [if_pos h1] at h
      rcases List.mem_cons.1 h with h | h
      · exact .inl h
      · exact .inr (List.mem_cons_of_mem _ h)
    · rw [if_neg h1] at h
      rcases List.mem_cons.1 h with h | h
      · exact .inr (h ▸ List.mem_cons_self ..)
      · exact (ih h).imp id (List.mem_cons_of_mem _)

theorem update_mem (l d : Dict) (x : Ent × Ent) (h : x ∈ update d l) : x ∈ l ∨ x ∈ d := by
  unfold update at h
  induction l generalizing d with
  | nil => exact .inr h
  | cons y l ih =>
    rw [List.foldl_cons] at h
    rcases ih _ h with h | h
    · exact .inl (List.mem_cons_of_mem _ h)
    · rcases insert_mem _ _ _ _ h with h | h
      · exact .inl (h ▸ List.mem_cons_self ..)
      · exact .inr h

/-! ## The table of names -/

/-- The names for which the table of texts is the last one. -/
def textSpec : List (String × String) :=
  [("1.3.101.110", "x25519"), ("1.3.101.111", "x448"), ("1.2.840.113549.1.1.1", "rsa"),
   ("1.2.840.113549.1.9.16.3.14", "rsa-kem")]

theorem tradStr_split : ∀ x ∈ textSpec, ∃ a b, tradStr = a ++ (.text x.1, .text x.2) :: b ∧
    (∀ y ∈ a, y.1 ≠ .text x.1) ∧ ∀ y ∈ b, y.1 ≠ .text x.1 ∧ y.2 ≠ .text x.2 := by
  intro x hx
  simp only [textSpec, List.mem_cons, List.not_mem_nil, or_false] at hx
  rcases hx with rfl | rfl | rfl | rfl
  · exact ⟨[], tradStr.drop 1, rfl, by decide +kernel, by decide +kernel⟩
  · exact ⟨tradStr.take 1, tradStr.drop 2, rfl, by decide +kernel, by decide +kernel⟩
  · exact ⟨tradStr.take 4, tradStr.drop 5, rfl, by decide +kernel, by decide +kernel⟩
  · exact ⟨tradStr.take 5, [], rfl, by decide +kernel, by decide +kernel⟩

/-- C259: the names of RSA, RSA-KEM, X25519 and X448 stand for a text and not for an object identifier, if the tables before
do not have this text and the ones after neither the text nor the name. -/
theorem C259_texts (pre post : Dict) (o n : String) (hn : (o, n) ∈ textSpec) (hpre : ∀ x ∈ pre, x.1 ≠ .text o)
    (hpost : ∀ x ∈ post, x.1 ≠ .text o ∧ x.2 ≠ .text n) (parse : String → Except PyErr Oid) :
    oidByName pre post parse n = .ok (.text o) := by
  have hdot : '.' ∉ n.toList := by
    have : ∀ x ∈ textSpec, '.' ∉ x.2.toList := by decide +kernel
    exact this _ hn
  unfold oidByName
  rw [if_neg hdot]
  have : look (.text n) (invert (allKnown pre post)) = some (.text o) := by
    rw [C259_invert]
    unfold allKnown
    refine update_last _ _ _ _ hpost ?_
    obtain ⟨a, b, hab, ha, hb⟩ := tradStr_split _ hn
    rw [hab]
    have hsplit : ∀ d, update d (a ++ (.text o, .text n) :: b) =
        update (insert (.text o) (.text n) (update d a)) b := by
      intro d
      unfold update
      rw [List.foldl_append, List.foldl_cons]
    rw [hsplit]
    refine update_last _ _ _ _ hb ?_
    rw [insert_new]
    · exact ⟨_, [], rfl, fun y hy => (nomatch hy)⟩
    · intro x hx
      rcases update_mem _ _ _ hx with h | h
      · exact ha x h
      · rcases insert_mem _ _ _ _ h with h | h
        · rw [h]; exact fun e => (nomatch e)
        · exact hpre x h
  rw [this]

/-- C259: a name is that of an object identifier exactly if the last entry with this name has one as its key. -/
theorem C259_name (pre post : Dict) (parse : String → Except PyErr Oid) (n : String) (o : Oid) :
    oidByName pre post parse n = .ok (.oid o) ↔
      ('.' ∈ n.toList ∧ parse n = .ok o) ∨ ('.' ∉ n.toList ∧ LastWith (allKnown pre post) (.text n) (.oid o)) := by
  unfold oidByName
  by_cases hd : '.' ∈ n.toList
  · rw [if_pos hd]
    cases hp : parse n with
    | error e => simp [hd, Except.map]
    | ok v => simp [hd, Except.map]
  · rw [if_neg hd, ← C259_invert]
    cases hl : look (.text n) (invert (allKnown pre post)) with
    | none => simp [hd]
    | some e => simp [hd]

/-! ## The check -/

/-- What was asked for: the key, and the structure it is in. -/
inductive Expects (env : KeyEnv S K) : KeyArg S K → K → Option Oid → Prop
  | priv (s : S) : Expects env (.priv s) (env.pubOf s) none
  | pub (k : K) : Expects env (.pub k) k none
  | spki (i : Spki) (k : K) : env.load i = .ok k → Expects env (.spki i) k (some i.oid)

theorem checkName_ok (byName : String → Except PyErr Ent) (o : Oid) (name : Option String) :
    checkName byName o name = .ok () ↔ ∀ n, name = some n → byName n = .ok (.oid o) := by
  cases name with
  | none => simp [checkName]
  | some n =>
    unfold checkName
    cases h : byName n with
    | error e => simp [h]
    | ok e =>
      by_cases he : e = .oid o
      · simp [he, h]
      · simp [he, h]

/-- C259: a certificate is accepted exactly if its key can be loaded and is equal to the expected one and of the same class,
the name, if given, stands for the object identifier of the certificate, and a given structure has the same one. -/
theorem C259_iff (env : KeyEnv S K) (byName : String → Except PyErr Ent) (cert : Spki) (key : KeyArg S K)
    (name : Option String) :
    validate env byName cert key name = .ok () ↔
      ∃ k l o, Expects env key k o ∧ env.load cert = .ok l ∧ env.eq k l = true ∧ env.sameType k l = true ∧
        (∀ n, name = some n → byName n = .ok (.oid cert.oid)) ∧ ∀ x, o = some x → x = cert.oid := by
  have main : ∀ k i, verifyAlg env byName cert k i name = .ok () ↔ ∃ l, env.load cert = .ok l ∧ env.eq k l = true ∧
      env.sameType k l = true ∧ (∀ n, name = some n → byName n = .ok (.oid cert.oid)) ∧
      ∀ x, i = some x → x.oid = cert.oid := by
    intro k i
    unfold verifyAlg
    cases hl : env.load cert with
    | error e => simp
    | ok l =>
      dsimp only
      cases he : env.eq k l with
      | false => simp [he]
      | true =>
        cases ht : env.sameType k l with
        | false => simp [ht]
        | true =>
          rw [if_neg (by decide), if_neg (by decide)]
          cases hn : checkName byName cert.oid name with
          | error e =>
            have : ¬ ∀ n, name = some n → byName n = .ok (.oid cert.oid) := by
              rw [← checkName_ok, hn]; simp
            constructor
            · exact fun h => (nomatch h)
            · rintro ⟨l', _, _, _, h, _⟩; exact absurd h this
          | ok u =>
            cases u
            have h := (checkName_ok byName cert.oid name).1 hn
            dsimp only
            have hs : checkSpki cert.oid i = .ok () ↔ ∀ x, i = some x → x.oid = cert.oid := by
              cases i with
              | none => simp [checkSpki]
              | some x =>
                unfold checkSpki
                by_cases hx : cert.oid = x.oid
                · simp [hx]
                · simp [hx, Ne.symm hx]
            rw [hs]
            constructor
            · exact fun h' => ⟨l, rfl, he, ht, h, h'⟩
            · rintro ⟨l', _, _, _, _, h'⟩; exact h'
  unfold validate
  constructor
  · intro h
    cases hw : wanted env key with
    | error e => rw [hw] at h; cases h
    | ok k =>
      rw [hw] at h
      obtain ⟨l, h1, h2, h3, h4, h5⟩ := (main k _).1 h
      cases key with
      | priv s => cases hw; exact ⟨_, l, none, .priv s, h1, h2, h3, h4, fun x hx => (nomatch hx)⟩
      | pub k' => cases hw; exact ⟨_, l, none, .pub _, h1, h2, h3, h4, fun x hx => (nomatch hx)⟩
      | spki i =>
        refine ⟨k, l, some i.oid, .spki i k hw, h1, h2, h3, h4, ?_⟩
        intro x hx
        cases hx
        exact h5 i rfl
  · rintro ⟨k, l, o, hk, h1, h2, h3, h4, h5⟩
    cases hk with
    | priv s => exact (main _ _).2 ⟨l, h1, h2, h3, h4, fun x hx => (nomatch hx)⟩
    | pub => exact (main _ _).2 ⟨l, h1, h2, h3, h4, fun x hx => (nomatch hx)⟩
    | spki i k hk =>
      unfold wanted
      dsimp only
      rw [hk]
      refine (main _ _).2 ⟨l, h1, h2, h3, h4, ?_⟩
      intro x hx
      cases hx
      exact h5 _ rfl

/-- C259: a certificate with the requested structure is accepted, if the key can be loaded. -/
theorem C259_same (env : KeyEnv S K) (byName : String → Except PyErr Ent) (i : Spki) (k : K) (hk : env.load i = .ok k)
    (he : env.eq k k = true) (ht : env.sameType k k = true) : validate env byName i (.spki i) none = .ok () :=
  (C259_iff ..).2 ⟨k, k, some i.oid, .spki i k hk, hk, he, ht, fun n hn => (nomatch hn), fun x hx => (Option.some.inj hx).symm⟩

/-- C259: a certificate with another key than the expected one gives a `ValueError`, whatever else is given. -/
theorem C259_other (env : KeyEnv S K) (byName : String → Except PyErr Ent) (cert : Spki) (key : KeyArg S K)
    (name : Option String) (k l : K) (o : Option Oid) (hk : Expects env key k o) (hl : env.load cert = .ok l)
    (hne : env.eq k l = false) : validate env byName cert key name = .error .valueError := by
  unfold validate
  have : wanted env key = .ok k := by
    cases hk with
    | priv => rfl
    | pub => rfl
    | spki i k h => exact h
  rw [this]
  dsimp only
  unfold verifyAlg
  rw [hl]
  dsimp only
  rw [if_pos hne]

/-! ## What is false of the code -/

/-- C259, refuted: that the name of the algorithm may be given, e.g. `rsa`.  With the names of RSA, RSA-KEM, X25519 and X448
every certificate is refused, also that with the expected key. -/
theorem C259_name_refuted (env : KeyEnv S K) (pre post : Dict) (parse : String → Except PyErr Oid) (o n : String)
    (hn : (o, n) ∈ textSpec) (hpre : ∀ x ∈ pre, x.1 ≠ .text o) (hpost : ∀ x ∈ post, x.1 ≠ .text o ∧ x.2 ≠ .text n)
    (cert : Spki) (key : KeyArg S K) :
    validate env (oidByName pre post parse) cert key (some n) ≠ .ok () := by
  intro h
  obtain ⟨k, l, o', _, _, _, _, h4, _⟩ := (C259_iff ..).1 h
  have := h4 n rfl
  rw [C259_texts pre post o n hn hpre hpost parse] at this
  cases this

/-- C259, refuted: that an unknown name gives a `ValueError`.  It gives a `KeyError`, as does `id_ecPublicKey`, which is put
into the table as a key. -/
theorem C259_unknown_refuted (env : KeyEnv S K) (pre post : Dict) (parse : String → Except PyErr Oid) (n : String)
    (hd : '.' ∉ n.toList) (hno : ∀ x ∈ allKnown pre post, x.2 ≠ .text n)
    (cert : Spki) (key : KeyArg S K) (k l : K) (o : Option Oid) (hk : Expects env key k o) (hl : env.load cert = .ok l)
    (he : env.eq k l = true) (ht : env.sameType k l = true) :
    validate env (oidByName pre post parse) cert key (some n) = .error .keyError := by
  have hname : oidByName pre post parse n = .error .keyError := by
    unfold oidByName
    rw [if_neg hd]
    cases h : look (.text n) (invert (allKnown pre post)) with
    | none => rfl
    | some e =>
      obtain ⟨a, b, hab, _⟩ := (C259_invert _ _ _).1 h
      exact absurd rfl (hno (e, .text n) (by rw [hab]; simp))
  unfold validate
  have : wanted env key = .ok k := by
    cases hk with
    | priv => rfl
    | pub => rfl
    | spki i k h => exact h
  rw [this]
  dsimp only
  unfold verifyAlg
  rw [hl]
  dsimp only
  rw [he, ht, if_neg (by decide), if_neg (by decide)]
  unfold checkName
  dsimp only
  rw [hname]

/-- C259: which parameters count as absent. -/
theorem C259_params (allow : Bool) (p : Params) : paramsAbsent allow p = true ↔
    p = .absent ∨ p = .any [5, 0] ∨ (allow = true ∧ (p = .null ∨ p = .any [])) := by
  cases p with
  | absent => simp [paramsAbsent]
  | null => simp [paramsAbsent]
  | other => simp [paramsAbsent]
  | any b =>
    simp only [paramsAbsent, Bool.or_eq_true, Bool.and_eq_true, decide_eq_true_eq, Params.any.injEq, reduceCtorEq, false_or]
    constructor
    · rintro (⟨h1, h2⟩ | h)
      · exact .inr ⟨h1, h2⟩
      · exact .inl h
    · rintro (h | ⟨h1, h2⟩)
      · exact .inr h
      · exact .inl ⟨h1, h2⟩

/-- C259, refuted: that NULL is refused unless it is allowed.  NULL as received, the octets `05 00`, counts as absent in any
case. -/
theorem C259_null_refuted : ∃ p, p = Params.any [5, 0] ∧ paramsAbsent false p = true ∧ paramsAbsent false .null = false :=
  ⟨_, rfl, rfl, rfl⟩

/-! ## Examples -/

/-- Keys are the bits of the structure. -/
def exKeys : KeyEnv (List UInt8) (List UInt8) where
  load i := if i.bits = [] then .error .valueError else .ok i.bits
  pubOf s := s
  eq a b := decide (a = b)
  sameType _ _ := true

/-- The tables before: X25519 and ML-KEM as object identifiers. -/
def exPre : Dict := [(.oid [1, 3, 101, 110], .text "x25519"), (.oid [2, 16, 840, 1, 101, 3, 4, 4, 2], .text "ml-kem-768")]

/-- The tables after: Ed25519, and a name put in as a key. -/
def exPost : Dict := [(.text "id_ecDH", .oid [1, 3, 132, 1, 12]), (.oid [1, 3, 101, 112], .text "ed25519")]

def exNames : String → Except PyErr Ent := oidByName exPre exPost fun _ => .ok [1, 2, 3]

def exRsa : Spki := ⟨[1, 2, 840, 113549, 1, 1, 1], some [5, 0], [1, 2]⟩

example : validate exKeys exNames exRsa (.priv [1, 2]) none = .ok () := by decide +kernel
example : validate exKeys exNames exRsa (.pub [1, 3]) none = .error .valueError := by decide +kernel
example : validate exKeys exNames exRsa (.spki { exRsa with params := none }) none = .ok () := by decide +kernel
example : validate exKeys exNames exRsa (.spki { exRsa with oid := [1, 2] }) none = .error .valueError := by decide +kernel
example : validate exKeys exNames exRsa (.priv [1, 2]) (some "rsa") = .error .valueError := by decide +kernel
example : validate exKeys exNames ⟨[1, 3, 101, 112], none, [1]⟩ (.priv [1]) (some "ed25519") = .ok () := by decide +kernel
example : validate exKeys exNames ⟨[1, 3, 101, 110], none, [1]⟩ (.priv [1]) (some "x25519") = .error .valueError := by
  decide +kernel
example : validate exKeys exNames ⟨[2, 16, 840, 1, 101, 3, 4, 4, 2], none, [1]⟩ (.priv [1]) (some "ml-kem-768") = .ok () := by
  decide +kernel
example : validate exKeys exNames exRsa (.priv [1, 2]) (some "id_ecDH") = .error .keyError := by decide +kernel
example : validate exKeys exNames ⟨[1, 2, 3], none, [1]⟩ (.priv [1]) (some "1.2.3") = .ok () := by decide +kernel
example : exNames "rsa" = .ok (.text "1.2.840.113549.1.1.1") :=
  C259_texts exPre exPost _ _ (by decide +kernel) (by decide +kernel) (by decide +kernel) _

end Verif.Check.PubKey
