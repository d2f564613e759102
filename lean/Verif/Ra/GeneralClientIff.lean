import Verif.Ra.GeneralExamples

/-!
# The remaining keywords for general responses, characterised
-/

namespace Verif.Ra

open Verif.CA (PyErr)

/-- The response has an entry of the type, the first of which has a value that the decoder reads to the end. -/
def Reads {T : Type} (r : Reply) (oid : List Nat) (dec : List UInt8 → Option (T × List UInt8)) (x : T) : Prop :=
  r.name = "genp" ∧ ∃ b, FirstEntry oid r.content (some b) ∧ dec b = some (x, [])

theorem reads_iff {T U : Type} (r : Reply) (size : Strint) (oid : List Nat) (dec : List UInt8 → Option (T × List UInt8))
    (k : T → Except PyErr U) (u : U) (F : Except PyErr U)
    (h1 : ∀ e, fetch r size oid = .error e → F ≠ .ok u)
    (h2 : fetch r size oid = .ok none → F ≠ .ok u)
    (h3 : ∀ b, fetch r size oid = .ok (some b) → (∀ x, dec b ≠ some (x, [])) → F ≠ .ok u)
    (h4 : ∀ b x, fetch r size oid = .ok (some b) → dec b = some (x, []) → F = k x) :
    F = .ok u ↔ ∃ x, Reads r oid dec x ∧ k x = .ok u := by
  unfold Reads
  constructor
  · intro hF
    cases hf : fetch r size oid with
    | error e => exact absurd hF (h1 e hf)
    | ok v =>
      cases v with
      | none => exact absurd hF (h2 hf)
      | some b =>
        obtain ⟨hn, hv⟩ := (fetch_ok _ _ _ _).1 hf
        by_cases hx : ∃ x, dec b = some (x, [])
        · obtain ⟨x, hx⟩ := hx
          exact ⟨x, ⟨hn, b, hv, hx⟩, (h4 b x hf hx) ▸ hF⟩
        · exact absurd hF (h3 b hf fun x h => hx ⟨x, h⟩)
  · rintro ⟨x, ⟨hn, b, hb, hx⟩, hk⟩
    rw [h4 b x ((fetch_ok r size oid (some b)).2 ⟨hn, hb⟩) hx, hk]

theorem decodeAll_error {T : Type} (dec : List UInt8 → Option (T × List UInt8)) (err : PyErr) (b : List UInt8)
    (h : ∀ x, dec b ≠ some (x, [])) : ∃ e, decodeAll dec err (some b) = .error e := by
  cases hd : decodeAll dec err (some b) with
  | error e => exact ⟨e, rfl⟩
  | ok x =>
    obtain ⟨b', hb', hx⟩ := (decodeAll_ok _ _ _ _).1 hd
    cases hb'
    exact absurd hx (h x)

theorem readWhole_error {T : Type} (dec : List UInt8 → Option (T × List UInt8)) (b : List UInt8)
    (h : ∀ x, dec b ≠ some (x, [])) : ∃ e, readWhole dec (some b) = .error e := by
  cases hd : readWhole dec (some b) with
  | error e => exact ⟨e, rfl⟩
  | ok x =>
    unfold readWhole at hd
    dsimp only at hd
    split at hd
    · cases hd
    · rename_i y hy
      exact absurd hy (h y)
    · cases hd

/-- **C182.** The language tags are accepted exactly if there is just one. -/
theorem C182_langs_iff (env : AlgsEnv) (r : Reply) (size : Strint) :
    validateLangs env r size = .ok () ↔ ∃ l, Reads r [1, 3, 6, 1, 5, 5, 7, 4, 16] env.decLangs [l] := by
  refine (reads_iff r size (idIt 16) env.decLangs (fun l => if l.length ≠ 1 then .error .valueError else .ok ()) () _
    (fun e h hh => by unfold validateLangs at hh; rw [h] at hh; cases hh)
    (fun h hh => by unfold validateLangs at hh; rw [h] at hh; cases hh)
    (fun b h hb hh => by
      obtain ⟨e, he⟩ := decodeAll_error env.decLangs .badAsn1Data b hb
      unfold validateLangs at hh; rw [h] at hh; dsimp only at hh; rw [he] at hh; cases hh)
    (fun b x h hx => by unfold validateLangs; rw [h]; simp [decodeAll, hx])).trans ?_
  constructor
  · rintro ⟨x, hx, hl⟩
    by_cases h : x.length = 1
    · obtain ⟨y, rfl⟩ := List.length_eq_one_iff.1 h
      exact ⟨y, hx⟩
    · simp [h] at hl
  · rintro ⟨l, hl⟩
    exact ⟨[l], hl, rfl⟩

/-- **C182.** The current CRL is accepted exactly if it is there, nothing follows it and the linter accepts it. -/
theorem C182_current_crl_iff {L : Type} (env : CrlsEnv L) (r : Reply) (size : Strint) :
    validateCurrentCrl env r size = .ok () ↔ ∃ c, Reads r [1, 3, 6, 1, 5, 5, 7, 4, 6] env.decOne c ∧ env.lint c = .ok () :=
  reads_iff r size (idIt 6) env.decOne env.lint () _
    (fun e h hh => by unfold validateCurrentCrl at hh; rw [h] at hh; cases hh)
    (fun h hh => by unfold validateCurrentCrl at hh; rw [h] at hh; cases hh)
    (fun b h hb hh => by
      obtain ⟨e, he⟩ := decodeAll_error env.decOne .valueError b hb
      unfold validateCurrentCrl at hh; rw [h] at hh; dsimp only at hh; rw [he] at hh; cases hh)
    (fun b x h hx => by unfold validateCurrentCrl; rw [h]; simp [decodeAll, hx])

/-- **C182.** The signature algorithms are accepted exactly if there is a list of them, whatever is in it. -/
theorem C182_sign_types_iff (env : AlgsEnv) (r : Reply) (size : Strint) :
    validateSignTypes env r size = .ok () ↔ ∃ l, Reads r [1, 3, 6, 1, 5, 5, 7, 4, 2] env.decAlgs l :=
  (reads_iff r size (idIt 2) env.decAlgs (fun _ => .ok ()) () _
    (fun e h hh => by unfold validateSignTypes at hh; rw [h] at hh; cases hh)
    (fun h hh => by unfold validateSignTypes at hh; rw [h] at hh; cases hh)
    (fun b h hb hh => by
      obtain ⟨e, he⟩ := decodeAll_error env.decAlgs .badAsn1Data b hb
      unfold validateSignTypes at hh; rw [h] at hh; dsimp only at hh; rw [he] at hh; cases hh)
    (fun b x h hx => by unfold validateSignTypes; rw [h]; simp [decodeAll, hx])).trans (by simp; rfl)

/-- **C182.** The preferred algorithm is accepted exactly if it is AES in CBC mode, and the keyword gives its name. -/
theorem C182_sym_alg_iff (env : AlgsEnv) (r : Reply) (size : Strint) (n : String) :
    validateSymAlg env r size = .ok n ↔ ∃ a p, Reads r [1, 3, 6, 1, 5, 5, 7, 4, 4] env.decAlg ⟨a, p⟩ ∧
      ((a = [2, 16, 840, 1, 101, 3, 4, 1, 2] ∧ n = "aes128_cbc") ∨ (a = [2, 16, 840, 1, 101, 3, 4, 1, 22] ∧ n = "aes192_cbc") ∨
       (a = [2, 16, 840, 1, 101, 3, 4, 1, 42] ∧ n = "aes256_cbc")) := by
  refine (reads_iff r size (idIt 4) env.decAlg (fun a => match symNames.lookup a.alg with | none => .error .valueError | some n => .ok n) n _
    (fun e h hh => by unfold validateSymAlg at hh; rw [h] at hh; cases hh)
    (fun h hh => by unfold validateSymAlg at hh; rw [h] at hh; cases hh)
    (fun b h hb hh => by
      obtain ⟨e, he⟩ := readWhole_error env.decAlg b hb
      unfold validateSymAlg at hh; rw [h] at hh; dsimp only at hh; rw [he] at hh; cases hh)
    (fun b x h hx => by unfold validateSymAlg; rw [h]; simp only [readWhole, hx]; cases symNames.lookup x.alg <;> rfl)).trans ?_
  have key : ∀ a : AlgCtrl, (match symNames.lookup a.alg with
      | none => (.error .valueError : Except PyErr String) | some n => .ok n) = .ok n ↔
      ((a.alg = [2, 16, 840, 1, 101, 3, 4, 1, 2] ∧ n = "aes128_cbc") ∨
       (a.alg = [2, 16, 840, 1, 101, 3, 4, 1, 22] ∧ n = "aes192_cbc") ∨
       (a.alg = [2, 16, 840, 1, 101, 3, 4, 1, 42] ∧ n = "aes256_cbc")) := by
    rintro ⟨a, p⟩
    unfold symNames
    by_cases h1 : a = [2, 16, 840, 1, 101, 3, 4, 1, 2]
    · subst h1; simp [eq_comm]
    by_cases h2 : a = [2, 16, 840, 1, 101, 3, 4, 1, 22]
    · subst h2
      rw [show List.lookup [2, 16, 840, 1, 101, 3, 4, 1, 22] _ = some "aes192_cbc" by decide +kernel]
      simp [eq_comm]
    by_cases h3 : a = [2, 16, 840, 1, 101, 3, 4, 1, 42]
    · subst h3
      rw [show List.lookup [2, 16, 840, 1, 101, 3, 4, 1, 42] _ = some "aes256_cbc" by decide +kernel]
      simp [eq_comm]
    simp [List.lookup, beq_eq_false_iff_ne.2 h1, beq_eq_false_iff_ne.2 h2, beq_eq_false_iff_ne.2 h3, h1, h2, h3]
  constructor
  · rintro ⟨⟨a, p⟩, hx, hk⟩
    exact ⟨a, p, hx, (key ⟨a, p⟩).1 hk⟩
  · rintro ⟨a, p, hx, hk⟩
    exact ⟨⟨a, p⟩, hx, (key ⟨a, p⟩).2 hk⟩

/-- **C182.** The KEM ciphertext gives the secret exactly if it is there and the key of the client opens it. -/
theorem C182_kem_iff (env : AlgsEnv) (r : Reply) (size : Strint) (ss : List UInt8) :
    validateKem env r size = .ok ss ↔
      ∃ ct, Reads r [1, 3, 6, 1, 5, 5, 7, 4, 9999] env.decKem ct ∧ env.decaps ct = .ok ss :=
  reads_iff r size (idIt 9999) env.decKem env.decaps ss _
    (fun e h hh => by unfold validateKem at hh; rw [h] at hh; cases hh)
    (fun h hh => by unfold validateKem at hh; rw [h] at hh; cases hh)
    (fun b h hb hh => by
      obtain ⟨e, he⟩ := readWhole_error env.decKem b hb
      unfold validateKem at hh; rw [h] at hh; dsimp only at hh; rw [he] at hh; cases hh)
    (fun b x h hx => by unfold validateKem; rw [h]; simp [readWhole, hx])

/-- The algorithm with the name: an elliptic curve, RSA, X25519 or X448. -/
inductive EncAlg (env : AlgsEnv) : AlgCtrl → String → Prop
  | curve (p : List UInt8) (c : List Nat) (n : String) : env.decCurve p = some (c, []) → (c, n) ∈ curveNames →
      EncAlg env ⟨[1, 2, 840, 10045, 2, 1], some p⟩ n
  | rsa (p : Option (List UInt8)) : EncAlg env ⟨[1, 2, 840, 113549, 1, 1, 1], p⟩ "rsa"
  | x25519 (p : Option (List UInt8)) : EncAlg env ⟨[1, 3, 101, 110], p⟩ "x25519"
  | x448 (p : Option (List UInt8)) : EncAlg env ⟨[1, 3, 101, 111], p⟩ "x448"
  | bare (c : List Nat) (n : String) (p : Option (List UInt8)) : (c, n) ∈ curveNames → EncAlg env ⟨c, p⟩ n

theorem lookup_nodup {A B : Type} [BEq A] [LawfulBEq A] (l : List (A × B)) (h : (l.map Prod.fst).Nodup) (a : A) (b : B) :
    l.lookup a = some b ↔ (a, b) ∈ l := by
  induction l with
  | nil => simp
  | cons p ps ih =>
    obtain ⟨x, y⟩ := p
    rw [List.map_cons, List.nodup_cons] at h
    rw [List.lookup_cons]
    rcases Classical.em (a = x) with hx | hx
    · subst hx
      simp only [BEq.rfl, List.mem_cons, Prod.mk.injEq, true_and, Option.some.injEq]
      constructor
      · rintro rfl; exact .inl rfl
      · rintro (rfl | hm)
        · rfl
        · exact absurd (List.mem_map.2 ⟨_, hm, rfl⟩) h.1
    · rw [beq_eq_false_iff_ne.2 hx]
      simp only [List.mem_cons, Prod.mk.injEq, hx, false_and, false_or]
      exact ih h.2

theorem curveNames_nodup : (curveNames.map Prod.fst).Nodup := by decide +kernel

theorem encNames_nodup : (encNames.map Prod.fst).Nodup := by decide +kernel

theorem encName_ok (env : AlgsEnv) (a : AlgCtrl) (n : String) : encName env a = .ok n ↔ EncAlg env a n := by
  have h3 : ∀ c, curveNames.lookup c = some n ↔ (c, n) ∈ curveNames := fun c =>
    lookup_nodup curveNames curveNames_nodup c n
  have h4 : ∀ c, encNames.lookup c = some n ↔ (c, n) ∈ encNames := fun c => lookup_nodup encNames encNames_nodup c n
  have hno : ∀ n, ([1, 2, 840, 10045, 2, 1], n) ∉ curveNames := fun n h => by
    have : ([1, 2, 840, 10045, 2, 1] : List Nat) ∈ curveNames.map Prod.fst := List.mem_map.2 ⟨_, h, rfl⟩
    revert this
    decide +kernel
  obtain ⟨alg, p⟩ := a
  unfold encName
  dsimp only
  by_cases h1 : alg = [1, 2, 840, 10045, 2, 1]
  · subst h1
    rw [if_pos rfl]
    constructor
    · intro h
      cases p with
      | none => cases h
      | some p =>
        dsimp only at h
        cases hd : decodeAll env.decCurve .badAsn1Data (some p) with
        | error e => rw [hd] at h; cases h
        | ok c =>
          rw [hd] at h
          obtain ⟨p', hp', hp⟩ := (decodeAll_ok _ _ _ _).1 hd
          cases hp'
          dsimp only at h
          cases hl : curveNames.lookup c with
          | none => rw [hl] at h; cases h
          | some m =>
            rw [hl] at h
            cases h
            exact .curve p c _ hp ((h3 c).1 hl)
    · intro h
      cases h with
      | curve p c _ hp hc =>
        dsimp only
        rw [(decodeAll_ok env.decCurve .badAsn1Data (some p) c).2 ⟨p, rfl, hp⟩]
        dsimp only
        rw [(h3 c).2 hc]
      | bare c _ p hc => exact absurd hc (hno _)
  · rw [if_neg h1]
    refine Iff.trans (b := (alg, n) ∈ encNames) (by rw [← h4]; cases encNames.lookup alg <;> simp) ?_
    unfold encNames
    simp only [List.mem_append, List.mem_cons, Prod.mk.injEq, List.not_mem_nil, or_false]
    constructor
    · rintro ((⟨rfl, rfl⟩ | ⟨rfl, rfl⟩ | ⟨rfl, rfl⟩) | h)
      · exact .rsa p
      · exact .x25519 p
      · exact .x448 p
      · exact .bare alg n p h
    · intro h
      cases h with
      | curve => exact absurd rfl h1
      | rsa => exact .inl (.inl ⟨rfl, rfl⟩)
      | x25519 => exact .inl (.inr (.inl ⟨rfl, rfl⟩))
      | x448 => exact .inl (.inr (.inr ⟨rfl, rfl⟩))
      | bare _ _ _ h => exact .inr h

theorem encNamesOf_ok (env : AlgsEnv) (l : List AlgCtrl) (ns : List String) :
    encNamesOf env l = .ok ns ↔ List.Forall₂ (EncAlg env) l ns := by
  induction l generalizing ns with
  | nil => simp [encNamesOf, eq_comm]
  | cons a as ih =>
    unfold encNamesOf
    cases h1 : encName env a with
    | error e =>
      constructor
      · intro h; cases h
      · intro h
        cases h with
        | cons ha _ => rw [(encName_ok env a _).2 ha] at h1; cases h1
    | ok n =>
      dsimp only
      cases h2 : encNamesOf env as with
      | error e =>
        constructor
        · intro h; cases h
        · intro h
          cases h with
          | cons _ hs => rw [(ih _).2 hs] at h2; cases h2
      | ok ms =>
        constructor
        · intro h
          cases h
          exact .cons ((encName_ok env a n).1 h1) ((ih ms).1 h2)
        · intro h
          cases h with
          | cons ha hs =>
            rw [(encName_ok env a _).2 ha] at h1
            rw [(ih _).2 hs] at h2
            cases h1
            cases h2
            rfl

/-- **C182.** The algorithms for encryption are accepted exactly if there is at least one and each has a name, and the
keyword returns the names in their order. -/
theorem C182_enc_types_iff (env : AlgsEnv) (r : Reply) (size : Strint) (ns : List String) :
    validateEncTypes env r size = .ok ns ↔ ∃ l, Reads r [1, 3, 6, 1, 5, 5, 7, 4, 3] env.decAlgs l ∧ l ≠ [] ∧
      List.Forall₂ (EncAlg env) l ns := by
  refine (reads_iff r size (idIt 3) env.decAlgs (fun l => match l with | [] => .error .valueError | a :: as => encNamesOf env (a :: as)) ns _
    (fun e h hh => by unfold validateEncTypes at hh; rw [h] at hh; cases hh)
    (fun h hh => by unfold validateEncTypes at hh; rw [h] at hh; cases hh)
    (fun b h hb hh => by
      obtain ⟨e, he⟩ := decodeAll_error env.decAlgs .badAsn1Data b hb
      unfold validateEncTypes at hh; rw [h] at hh; dsimp only at hh; rw [he] at hh; cases hh)
    (fun b x h hx => by unfold validateEncTypes; rw [h]; cases x <;> simp [decodeAll, hx])).trans ?_
  refine exists_congr fun l => and_congr Iff.rfl ?_
  cases l with
  | nil => simp
  | cons a as =>
    dsimp only
    rw [encNamesOf_ok]
    simp

/-- **C182, refuted.** A curve given directly as algorithm, which is no algorithm of a key at all, has a name too: the
list is accepted. -/
theorem C182_bare_curve_refuted (env : AlgsEnv) : encName env ⟨[1, 2, 840, 10045, 3, 1, 7], none⟩ = .ok "secp256r1" :=
  (encName_ok env _ _).2 (.bare _ _ _ (by decide +kernel))

/-- **C182.** The certificate for protocol encryption is returned exactly if it is there, its chain ends at a trust anchor
and verifies, and its key is one for enveloped data. -/
theorem C182_prot_enc_iff {C : Type} (env : ProtEncEnv C) (r : Reply) (size : Strint) (c : C) :
    validateProtEnc env r size = .ok (some c) ↔ Reads r [1, 3, 6, 1, 5, 5, 7, 4, 1] env.dec c ∧
      ∃ pre top, env.chain c = .ok (pre ++ [top]) ∧ env.anchor top = .ok () ∧ env.verify (pre ++ [top]) = .ok () ∧
        env.forEnv c = true := by
  have hcheck : ∀ c, checkProtEnc env c = .ok () ↔ ∃ pre top, env.chain c = .ok (pre ++ [top]) ∧ env.anchor top = .ok () ∧
      env.verify (pre ++ [top]) = .ok () ∧ env.forEnv c = true := by
    intro c
    unfold checkProtEnc
    cases hc : env.chain c with
    | error e => simp
    | ok ch =>
      dsimp only
      rcases List.eq_nil_or_concat ch with rfl | ⟨pre, top, rfl⟩
      · simp
      · rw [List.concat_eq_append, List.getLast?_concat]
        dsimp only
        constructor
        · intro h
          cases ha : env.anchor top with
          | error e => rw [ha] at h; cases h
          | ok u =>
            rw [ha] at h
            dsimp only at h
            cases hv : env.verify (pre ++ [top]) with
            | error e => rw [hv] at h; cases h
            | ok u =>
              rw [hv] at h
              dsimp only at h
              by_cases hf : env.forEnv c = true
              · exact ⟨pre, top, rfl, ha, hv, hf⟩
              · rw [if_neg hf] at h; cases h
        · rintro ⟨pre', top', he, ha, hv, hf⟩
          have he := Except.ok.inj he
          have htop : top = top' := by
            have := congrArg List.getLast? he
            simpa using this
          subst htop
          rw [ha]
          dsimp only
          rw [he, hv]
          dsimp only
          rw [if_pos hf]
  refine (reads_iff r size (idIt 1) env.dec (fun c => match checkProtEnc env c with | .error e => .error e | .ok () => .ok (some c)) (some c) _
    (fun e h hh => by unfold validateProtEnc at hh; rw [h] at hh; cases hh)
    (fun h hh => by unfold validateProtEnc at hh; rw [h] at hh; cases hh)
    (fun b h hb hh => by
      obtain ⟨e, he⟩ := readWhole_error env.dec b hb
      unfold validateProtEnc at hh; rw [h] at hh; dsimp only at hh; rw [he] at hh; cases hh)
    (fun b x h hx => by unfold validateProtEnc; rw [h]; simp only [readWhole, hx]; cases checkProtEnc env x <;> rfl)).trans ?_
  rw [← hcheck]
  constructor
  · rintro ⟨x, hx, hk⟩
    cases hc : checkProtEnc env x with
    | error e => rw [hc] at hk; cases hk
    | ok u =>
      rw [hc] at hk
      cases hk
      exact ⟨hx, hc⟩
  · rintro ⟨hx, hc⟩
    exact ⟨c, hx, by rw [hc]⟩

/-- **C182, refuted.** RFC 9810, section 5.3.19.1: the response carries the certificate.  The keyword succeeds without
one. -/
theorem C182_prot_enc_refuted {C : Type} (env : ProtEncEnv C) (l : List Itv) (size : Strint) :
    validateProtEnc env ⟨"genp", ⟨[1, 3, 6, 1, 5, 5, 7, 4, 1], none⟩ :: l⟩ size = .ok none := by
  simp [validateProtEnc, fetch, validateReply, valueOf, idIt]

def exProtEnc : ProtEncEnv Nat where
  dec b := match b with | [x] => some (x.toNat, []) | _ => none
  chain c := .ok [c, 0]
  anchor c := if c = 0 then .ok () else .error .signerNotTrusted
  verify _ := .ok ()
  forEnv c := c % 2 = 0

example :
    validateProtEnc exProtEnc ⟨"genp", [⟨idIt 1, some [4]⟩]⟩ (.int 1) = .ok (some 4) ∧
    validateProtEnc exProtEnc ⟨"genp", [⟨idIt 1, some [5]⟩]⟩ (.int 1) = .error .valueError ∧
    validateProtEnc exProtEnc ⟨"genp", [⟨idIt 2, some [4]⟩]⟩ (.int 1) = .error .valueError := by
  decide +kernel

end Verif.Ra
