import Verif.PQ.HybridGen
import Verif.PQ.HybridProps

/-!
# Properties of the generation of hybrid keys (C251)
-/

namespace Verif.PQ.HybGen

open Verif.CA (PyErr)
open Verif.PQ.Hyb (pyLower rsaSize rsaSize_cases rsa_sizes)

/-! ## Specification -/

/-- A value is asked for: given and not empty. -/
def Asks (o : Option String) (v : String) : Prop := o = some v ∧ v ≠ ""

/-- The entry has what is asked for; curves are compared without regard to case. -/
def Matches (r : Req) (e : Comb) : Prop :=
  (∀ v, Asks r.pq v → e.pq = v) ∧ (∀ v, Asks r.trad v → e.trad = v) ∧ (∀ v, Asks r.length v → e.length = some v) ∧
  (∀ v, Asks r.curve v → ∃ c, e.curve = .name c ∧ pyLower c = pyLower v)

/-- The traditional key is of the class with this name. -/
def IsClass (name : String) : Trad → Prop
  | .rsa _ => name = "rsa"
  | .ec _ => name = "ecdh" ∨ name = "ecdsa"
  | .ed25519 => name = "ed25519"
  | .ed448 => name = "ed448"
  | .x25519 => name = "x25519"
  | .x448 => name = "x448"
  | .dsa => name = "dsa"

/-- The key has what is asked for. -/
def Has (r : Req) (k : HKey) : Prop :=
  (∀ v, Asks r.pq v → k.pq.name = v) ∧ (∀ v, Asks r.trad v → IsClass v k.trad.shape) ∧
  (∀ v, Asks r.length v → ∃ bits : Nat, k.trad.shape = .rsa bits ∧ toString bits = v) ∧
  (∀ v, Asks r.curve v → ∃ c, k.trad.shape = .ec c ∧ pyLower c = pyLower v)

/-- The public key has an identifier. -/
def HasOid (k : HKey) : Prop := ∃ pss o, pubOid k pss = .ok o

/-! ## The choice -/

theorem given_iff (o : Option String) (v : String) : given o = some v ↔ Asks o v := by
  unfold given Asks
  split
  · simp only [Option.some.injEq]
    exact ⟨fun h => (nomatch h), fun h => absurd h.1.symm h.2⟩
  · rename_i h
    constructor
    · intro he
      refine ⟨he, ?_⟩
      rintro rfl
      exact h he
    · exact fun h => h.1

theorem given_none (o : Option String) : given o = none ↔ ∀ v, ¬Asks o v := by
  constructor
  · intro h v hv
    rw [(given_iff o v).2 hv] at h; cases h
  · intro h
    cases hg : given o with
    | none => rfl
    | some v => exact absurd ((given_iff o v).1 hg) (h v)

theorem differs_false (x e : Option String) : differs x e = false ↔ ∀ v, Asks x v → e = some v := by
  unfold differs
  cases hg : given x with
  | none =>
    have := (given_none x).1 hg
    exact ⟨fun _ v hv => absurd hv (this v), fun _ => rfl⟩
  | some v =>
    dsimp only
    have ha := (given_iff x v).1 hg
    constructor
    · intro h w hw
      have : v = w := Option.some.inj (ha.1.symm.trans hw.1)
      rw [← this]
      simpa using h
    · intro h
      have := h v ha
      simpa using this

theorem lower_empty (v : String) (h : pyLower v = "") : v = "" := by
  unfold pyLower at h
  have h1 := congrArg String.toList h
  rw [String.toList_ofList] at h1
  have h2 : v.toList = [] := by simpa using h1
  exact String.toList_eq_nil_iff.1 h2

theorem curveDiffers_false (x : Option String) (e : CurveField) :
    curveDiffers x e = .ok false ↔ ∀ v, Asks x v → ∃ c, e = .name c ∧ pyLower c = pyLower v := by
  unfold curveDiffers
  cases hg : given x with
  | none =>
    have := (given_none x).1 hg
    exact ⟨fun _ v hv => absurd hv (this v), fun _ => rfl⟩
  | some v =>
    dsimp only
    have ha := (given_iff x v).1 hg
    have hu : ∀ w, Asks x w → w = v := fun w hw => Option.some.inj (hw.1.symm.trans ha.1)
    cases e with
    | absent =>
      dsimp only
      constructor
      · intro h
        have h := Except.ok.inj h
        exfalso
        have : "" = pyLower v := by simpa using h
        exact ha.2 (lower_empty v this.symm)
      · intro h
        obtain ⟨c, hc, _⟩ := h v ha
        cases hc
    | null =>
      dsimp only
      refine ⟨(nomatch ·), fun h => ?_⟩
      obtain ⟨c, hc, _⟩ := h v ha
      cases hc
    | name c =>
      dsimp only
      constructor
      · intro h w hw
        rw [hu w hw]
        have h := Except.ok.inj h
        exact ⟨c, rfl, by simpa using h⟩
      · intro h
        obtain ⟨c', hc, hl⟩ := h v ha
        cases hc
        rw [hl]; simp

theorem skips_false (r : Req) (e : Comb) : skips r e = .ok false ↔ Matches r e := by
  unfold skips Matches
  cases h1 : differs r.pq (some e.pq) with
  | true =>
    rw [if_pos rfl]
    refine ⟨fun h => (nomatch h), fun h => ?_⟩
    have := (differs_false r.pq (some e.pq)).2 (fun v hv => by rw [h.1 v hv])
    rw [this] at h1; cases h1
  | false =>
    rw [if_neg (by decide)]
    have h1 := (differs_false _ _).1 h1
    cases h2 : differs r.trad (some e.trad) with
    | true =>
      rw [if_pos rfl]
      refine ⟨fun h => (nomatch h), fun h => ?_⟩
      have := (differs_false r.trad (some e.trad)).2 (fun v hv => by rw [h.2.1 v hv])
      rw [this] at h2; cases h2
    | false =>
      rw [if_neg (by decide)]
      have h2 := (differs_false _ _).1 h2
      cases h3 : differs r.length e.length with
      | true =>
        rw [if_pos rfl]
        refine ⟨fun h => (nomatch h), fun h => ?_⟩
        have := (differs_false r.length e.length).2 h.2.2.1
        rw [this] at h3; cases h3
      | false =>
        rw [if_neg (by decide), curveDiffers_false]
        have h3 := (differs_false _ _).1 h3
        exact ⟨fun h => ⟨fun v hv => Option.some.inj (h1 v hv), fun v hv => Option.some.inj (h2 v hv), h3, h⟩, fun h => h.2.2.2⟩

theorem search_ok {r : Req} {cs : List Comb} {e : Comb} (h : search r cs = .ok e) :
    ∃ pre post, cs = pre ++ e :: post ∧ Matches r e ∧ ∀ e' ∈ pre, ¬Matches r e' := by
  induction cs with
  | nil => cases h
  | cons c cs ih =>
    unfold search at h
    split at h
    · cases h
    · rename_i hs
      obtain ⟨pre, post, rfl, hm, hp⟩ := ih h
      refine ⟨c :: pre, post, rfl, hm, ?_⟩
      intro e' he'
      rcases List.mem_cons.1 he' with rfl | he'
      · intro hmm
        rw [(skips_false r e').2 hmm] at hs; cases hs
      · exact hp e' he'
    · rename_i hs
      have := Except.ok.inj h; subst this
      exact ⟨[], cs, rfl, (skips_false r c).1 hs, fun e' he' => nomatch he'⟩

/-- Nothing asked for. -/
def AsksNothing (r : Req) : Prop := ∀ v, ¬Asks r.pq v ∧ ¬Asks r.trad v ∧ ¬Asks r.length v ∧ ¬Asks r.curve v

theorem matches_nothing {r : Req} (h : AsksNothing r) (e : Comb) : Matches r e :=
  ⟨fun v hv => absurd hv (h v).1, fun v hv => absurd hv (h v).2.1, fun v hv => absurd hv (h v).2.2.1, fun v hv => absurd hv (h v).2.2.2⟩

/-- C251. The combination that is found is the first of the table that has what is asked for. -/
theorem C251_first_match (cs : List Comb) (r : Req) (e : Comb) (h : findComb cs r = .ok e) :
    ∃ pre post, cs = pre ++ e :: post ∧ Matches r e ∧ ∀ e' ∈ pre, ¬Matches r e' := by
  unfold findComb at h
  split at h
  · rename_i hn
    have hn' : AsksNothing r := fun v =>
      ⟨(given_none _).1 hn.1 v, (given_none _).1 hn.2.1 v, (given_none _).1 hn.2.2.1 v, (given_none _).1 hn.2.2.2 v⟩
    cases cs with
    | nil => cases h
    | cons c cs =>
      have := Except.ok.inj h; subst this
      exact ⟨[], cs, rfl, matches_nothing hn' c, fun e' he' => nomatch he'⟩
  · exact search_ok h

/-- C251. If no entry of the table has a curve `None`, a combination is found exactly if the table has one. -/
theorem C251_found_iff (cs : List Comb) (hc : ∀ e ∈ cs, e.curve ≠ .null) (r : Req) :
    (∃ e, findComb cs r = .ok e) ↔ ∃ e ∈ cs, Matches r e := by
  constructor
  · rintro ⟨e, h⟩
    obtain ⟨pre, post, rfl, hm, _⟩ := C251_first_match cs r e h
    exact ⟨e, List.mem_append_right _ (List.mem_cons_self ..), hm⟩
  · rintro ⟨e, he, hm⟩
    have key : ∀ cs : List Comb, (∀ e ∈ cs, e.curve ≠ .null) → e ∈ cs → ∃ e', search r cs = .ok e' := by
      intro cs
      induction cs with
      | nil => intro _ h; cases h
      | cons c cs ih =>
        intro hc he
        unfold search
        cases hs : skips r c with
        | error x =>
          exfalso
          unfold skips at hs
          split at hs
          · cases hs
          · split at hs
            · cases hs
            · split at hs
              · cases hs
              · unfold curveDiffers at hs
                split at hs
                · cases hs
                · split at hs
                  · cases hs
                  · rename_i hn; exact hc c (List.mem_cons_self ..) hn
                  · cases hs
        | ok b =>
          cases b with
          | false => exact ⟨c, rfl⟩
          | true =>
            rcases List.mem_cons.1 he with rfl | he
            · rw [(skips_false r e).2 hm] at hs; cases hs
            · exact ih (fun e he => hc e (List.mem_cons_of_mem _ he)) he
    unfold findComb
    split
    · cases cs with
      | nil => cases he
      | cons c cs => exact ⟨c, rfl⟩
    · exact key cs hc he

/-- C251. False for composite signatures: a curve without the name of the traditional algorithm always ends in an AttributeError, for
every curve, although ML-DSA-44 and ML-DSA-87 are combined with curves. -/
theorem C251_curve_alone_refuted (v : String) (hv : v ≠ "") (pq : Option String) (hp : pq = none ∨ pq = some "ml-dsa-44") (n m : Nat) :
    generate .sig { pq := pq, curve := some v } none none n m = .error .attributeError ∧
    (∃ e ∈ sigCombs, Matches { pq := pq, curve := some "secp256r1" } e) := by
  have hg : given (some v) = some v := (given_iff _ _).2 ⟨rfl, hv⟩
  have hl : ("" != pyLower v) = true := by
    cases hb : ("" != pyLower v) with
    | true => rfl
    | false =>
      exfalso
      have : "" = pyLower v := by simpa using hb
      exact hv (lower_empty v this.symm)
  refine ⟨?_, ⟨"ml-dsa-44", "ecdsa", none, .name "secp256r1"⟩, by simp [sigCombs], ?_⟩
  · have hnr : ({ pq := pq, curve := some v } : Req) ≠ {} := by
      intro h; have := congrArg Req.curve h; cases this
    have h1 : differs pq (some "ml-dsa-44") = false := by rcases hp with rfl | rfl <;> decide
    have hs1 : skips { pq := pq, curve := some v } ⟨"ml-dsa-44", "rsa", some "2048", .absent⟩ = .ok true := by
      unfold skips; dsimp only
      rw [h1, if_neg (by decide), if_neg (by decide), if_neg (by decide)]
      unfold curveDiffers
      rw [hg]; dsimp only
      rw [hl]
    have hs2 : skips { pq := pq, curve := some v } ⟨"ml-dsa-44", "ed25519", none, .null⟩ = .error .attributeError := by
      unfold skips; dsimp only
      rw [h1, if_neg (by decide), if_neg (by decide), if_neg (by decide)]
      unfold curveDiffers
      rw [hg]
    unfold generate
    rw [if_neg (by simp), if_neg (by decide), if_neg hnr]
    unfold genDefault
    rw [if_neg (by simp)]
    have hf : findComb (combs .sig) { pq := pq, curve := some v } = .error .attributeError := by
      unfold findComb
      rw [if_neg (by intro h; rw [hg] at h; exact nomatch h.2.2.2)]
      show search _ sigCombs = _
      unfold sigCombs search
      rw [hs1]; dsimp only
      unfold search
      rw [hs2]
    rw [hf]
  · refine ⟨?_, fun w hw => (nomatch hw.1), fun w hw => (nomatch hw.1), ?_⟩
    · intro w hw
      rcases hp with rfl | rfl
      · exact (nomatch hw.1)
      · exact Option.some.inj hw.1
    · intro w hw
      cases hw.1
      exact ⟨"secp256r1", rfl, rfl⟩

/-! ## What is generated -/

/-- A check of an entry: what is generated for it is what it says. -/
def entryOk (e : Comb) : Bool :=
  match genTrad e.trad e.length (curveArg e.curve) with
  | .error _ => true
  | .ok (.rsa bits) => e.trad == "rsa" && e.length == some (toString bits) && e.curve == .absent
  | .ok (.ec c) => (e.trad == "ecdh" || e.trad == "ecdsa") && e.length == none &&
      (match e.curve with | .name d => pyLower d == pyLower c | _ => false)
  | .ok .ed25519 => e.trad == "ed25519" && e.length == none && curveArg e.curve == none
  | .ok .ed448 => e.trad == "ed448" && e.length == none && curveArg e.curve == none
  | .ok .x25519 => e.trad == "x25519" && e.length == none && curveArg e.curve == none
  | .ok .x448 => e.trad == "x448" && e.length == none && curveArg e.curve == none
  | .ok .dsa => false

theorem entries_ok : ∀ alg ∈ [Alg.xwing, .sig, .dhkem, .kem, .chempat], ∀ e ∈ combs alg, entryOk e = true := by decide +kernel

theorem mem_algs (alg : Alg) : alg ∈ [Alg.xwing, .sig, .dhkem, .kem, .chempat] := by cases alg <;> simp

theorem build_ok {alg : Alg} {p : PKey} {t : TKey} {k : HKey} (h : build alg p t = .ok k) : k = ⟨alg, p, t⟩ := by
  cases alg <;> unfold build at h <;> dsimp only at h
  · cases h
  · exact (Except.ok.inj h).symm
  · split at h
    · exact (Except.ok.inj h).symm
    · cases h
  · split at h
    · exact (Except.ok.inj h).symm
    · cases h
  · split at h
    · exact (Except.ok.inj h).symm
    · cases h

theorem genDefault_ok {alg : Alg} {r : Req} {n m : Nat} {k : HKey} (h : genDefault alg r n m = .ok k) :
    ∃ c t, findComb (combs alg) r = .ok c ∧ c ∈ combs alg ∧ genTrad c.trad c.length (curveArg c.curve) = .ok t ∧
      k = ⟨alg, ⟨c.pq, n⟩, { shape := t, id := m }⟩ := by
  unfold genDefault at h
  split at h
  · cases h
  · cases hf : findComb (combs alg) r with
    | error e => rw [hf] at h; cases h
    | ok c =>
      rw [hf] at h; dsimp only at h
      cases ht : genTrad c.trad c.length (curveArg c.curve) with
      | error e => rw [ht] at h; cases h
      | ok t =>
        rw [ht] at h
        obtain ⟨pre, post, he, _⟩ := C251_first_match _ _ _ hf
        exact ⟨c, t, rfl, by rw [he]; exact List.mem_append_right _ (List.mem_cons_self ..), ht, build_ok h⟩

theorem genDefault_has {alg : Alg} {r : Req} {n m : Nat} {k : HKey} (h : genDefault alg r n m = .ok k) :
    k.alg = alg ∧ k.pq.id = n ∧ k.trad.id = m ∧ Has r k := by
  obtain ⟨c, t, hf, hm, ht, rfl⟩ := genDefault_ok h
  obtain ⟨_, _, _, ⟨h1, h2, h3, h4⟩, _⟩ := C251_first_match _ _ _ hf
  have hok := entries_ok alg (mem_algs alg) c hm
  unfold entryOk at hok
  rw [ht] at hok
  refine ⟨rfl, rfl, rfl, h1, ?_, ?_, ?_⟩
  · intro v hv
    have := h2 v hv
    subst this
    cases t <;> simp only [Bool.and_eq_true, Bool.or_eq_true, beq_iff_eq, Bool.false_eq_true] at hok <;> unfold IsClass <;>
      exact hok.1.1
  · intro v hv
    have := h3 v hv
    cases t <;> simp only [Bool.and_eq_true, Bool.or_eq_true, beq_iff_eq, Bool.false_eq_true] at hok
    case rsa bits =>
      refine ⟨bits, rfl, ?_⟩
      have h5 := hok.1.2.symm.trans this
      exact Option.some.inj h5
    all_goals first | exact (nomatch (hok.1.2.symm.trans this))
  · intro v hv
    obtain ⟨d, hd, hl⟩ := h4 v hv
    rw [hd] at hok
    cases t <;> simp only [Bool.and_eq_true, Bool.or_eq_true, beq_iff_eq, Bool.false_eq_true, curveArg, reduceCtorEq, and_false] at hok
    case ec c' =>
      exact ⟨c', rfl, hok.2.symm.trans hl⟩

/-- C251. A hybrid key that is generated without component keys is of the algorithm, its components are new, and they are what is
asked for: the post-quantum algorithm, the class, the length and the curve (X-Wing has no choice). -/
theorem C251_generated (alg : Alg) (r : Req) (n m : Nat) (k : HKey) (h : generate alg r none none n m = .ok k) :
    k.alg = alg ∧ k.pq.id = n ∧ k.trad.id = m ∧ (alg ≠ .xwing → Has r k) := by
  unfold generate at h
  rw [if_neg (by simp)] at h
  split at h
  · rename_i hx
    have := Except.ok.inj h; subst this
    exact ⟨hx.symm, rfl, rfl, fun hne => absurd hx hne⟩
  · split at h
    · rename_i hr
      obtain ⟨h1, h2, h3, _⟩ := genDefault_has h
      refine ⟨h1, h2, h3, fun _ => ?_⟩
      subst hr
      exact ⟨fun v hv => (nomatch hv.1), fun v hv => (nomatch hv.1), fun v hv => (nomatch hv.1), fun v hv => (nomatch hv.1)⟩
    · obtain ⟨h1, h2, h3, h4⟩ := genDefault_has h
      exact ⟨h1, h2, h3, fun _ => h4⟩

/-- C251. False for X-Wing: a request for other components is silently not followed. -/
theorem C251_xwing_ignores_refuted (r : Req) (n m : Nat) :
    generate .xwing r none none n m = .ok ⟨.xwing, ⟨"ml-kem-768", n⟩, { shape := .x25519, id := m }⟩ := by
  unfold generate
  rw [if_neg (by simp), if_pos rfl]

/-! ## Identifiers -/

theorem pubOid_ids (alg : Alg) (q : String) (t : Trad) (n m : Nat) (w : Bool) (pss : Bool) :
    pubOid ⟨alg, ⟨q, n⟩, ⟨t, m, w⟩⟩ pss = pubOid ⟨alg, ⟨q, 0⟩, ⟨t, 0, false⟩⟩ pss := rfl

def entryOid (alg : Alg) (e : Comb) : Bool :=
  match genTrad e.trad e.length (curveArg e.curve) with
  | .error _ => true
  | .ok t => match pubOid ⟨alg, ⟨e.pq, 0⟩, ⟨t, 0, false⟩⟩ true with
    | .error _ => false
    | .ok _ => true

/-- The entries of the table without an identifier. -/
def noOidKem (e : Comb) : Bool := (e.pq == "frodokem-976-aes" || e.pq == "frodokem-976-shake") && e.curve == .name "secp256r1"

def noOidDhkem (e : Comb) : Bool := e.trad == "rsa" || e.curve == .name "secp256r1"

theorem entries_oid : (∀ e ∈ sigCombs, entryOid .sig e = true) ∧ (∀ e ∈ chempatCombs, entryOid .chempat e = true) ∧
    (∀ e ∈ kem07Combs, entryOid .kem e = !noOidKem e) ∧ (∀ e ∈ kem07Combs, e.curve ≠ .name "secp512r1" → entryOid .dhkem e = !noOidDhkem e) := by
  decide +kernel

theorem entryOid_hasOid {alg : Alg} {e : Comb} {t : Trad} (ht : genTrad e.trad e.length (curveArg e.curve) = .ok t)
    (h : entryOid alg e = true) (n m : Nat) (w : Bool) : HasOid ⟨alg, ⟨e.pq, n⟩, ⟨t, m, w⟩⟩ := by
  unfold entryOid at h
  rw [ht] at h; dsimp only at h
  refine ⟨true, ?_⟩
  rw [pubOid_ids]
  cases hp : pubOid ⟨alg, ⟨e.pq, 0⟩, ⟨t, 0, false⟩⟩ true with
  | error x => rw [hp] at h; cases h
  | ok o => exact ⟨o, rfl⟩

theorem genDefault_oid {alg : Alg} (ha : alg = .sig ∨ alg = .chempat) {r : Req} {n m : Nat} {k : HKey} (h : genDefault alg r n m = .ok k) :
    HasOid k := by
  obtain ⟨c, t, _, hm, ht, rfl⟩ := genDefault_ok h
  rcases ha with rfl | rfl
  · exact entryOid_hasOid ht (entries_oid.1 c hm) n m false
  · exact entryOid_hasOid ht (entries_oid.2.1 c hm) n m false

/-- C251. A composite signature key, a Chempat key or an X-Wing key that is generated has an identifier. -/
theorem C251_generated_oid_partial (alg : Alg) (ha : alg = .sig ∨ alg = .chempat ∨ alg = .xwing) (r : Req) (n m : Nat) (k : HKey)
    (h : generate alg r none none n m = .ok k) : HasOid k := by
  rcases ha with ha | ha | rfl
  · have hx : alg ≠ .xwing := by rw [ha]; decide
    unfold generate at h
    rw [if_neg (by simp), if_neg hx] at h
    split at h
    · exact genDefault_oid (.inl ha) h
    · exact genDefault_oid (.inl ha) h
  · have hx : alg ≠ .xwing := by rw [ha]; decide
    unfold generate at h
    rw [if_neg (by simp), if_neg hx] at h
    split at h
    · exact genDefault_oid (.inr ha) h
    · exact genDefault_oid (.inr ha) h
  · rw [C251_xwing_ignores_refuted] at h
    have := Except.ok.inj h; subst this
    exact ⟨true, _, rfl⟩

/-- What is generated for a composite KEM: exactly the keys of FrodoKEM-976 with P-256 have no identifier. -/
theorem C251_kem_oid_iff (r : Req) (n m : Nat) (k : HKey) (h : generate .kem r none none n m = .ok k) :
    HasOid k ↔ ¬((k.pq.name = "frodokem-976-aes" ∨ k.pq.name = "frodokem-976-shake") ∧ k.trad.shape = .ec "secp256r1") := by
  have hg : ∃ r', genDefault .kem r' n m = .ok k := by
    unfold generate at h
    rw [if_neg (by simp), if_neg (by decide)] at h
    split at h
    · exact ⟨_, h⟩
    · exact ⟨_, h⟩
  obtain ⟨r', hg⟩ := hg
  obtain ⟨c, t, _, hm, ht, rfl⟩ := genDefault_ok hg
  have hoid := entries_oid.2.2.1 c hm
  have htab : ∀ e ∈ kem07Combs, ∀ t ∈ (genTrad e.trad e.length (curveArg e.curve)).toOption,
      (noOidKem e = true ↔ (e.pq = "frodokem-976-aes" ∨ e.pq = "frodokem-976-shake") ∧ t = .ec "secp256r1") := by decide +kernel
  have hno := htab c hm t (by rw [ht]; rfl)
  show HasOid _ ↔ ¬((c.pq = _ ∨ c.pq = _) ∧ t = _)
  rw [← hno]
  constructor
  · intro ho hn
    obtain ⟨pss, o, ho⟩ := ho
    rw [hn] at hoid
    unfold entryOid at hoid
    rw [ht] at hoid; dsimp only at hoid
    have hpss : pubOid ⟨.kem, ⟨c.pq, 0⟩, ⟨t, 0, false⟩⟩ true = pubOid ⟨.kem, ⟨c.pq, 0⟩, ⟨t, 0, false⟩⟩ pss := rfl
    rw [hpss, ← pubOid_ids .kem c.pq t n m false pss, ho] at hoid
    cases hoid
  · intro hn
    cases hb : noOidKem c with
    | true => exact absurd hb hn
    | false =>
      rw [hb] at hoid
      exact entryOid_hasOid ht hoid n m false

/-- C251. False for the composite KEMs: such a key is generated, and for the DHKEM variant also ML-KEM-768 with P-256, and RSA keys. -/
theorem C251_generated_oid_refuted (n m : Nat) :
    (∃ k, generate .kem { pq := some "frodokem-976-aes", curve := some "secp256r1" } none none n m = .ok k ∧ ¬HasOid k) ∧
    (∃ k, generate .dhkem { pq := some "ml-kem-768" } none none n m = .ok k ∧ ¬HasOid k) ∧
    (∃ k, generate .dhkem { pq := some "ml-kem-1024" } none none n m = .ok k ∧ k.trad.shape = .rsa 3072 ∧ ¬HasOid k) := by
  have hno : ∀ (alg : Alg) (q : String) (t : Trad), (alg = .kem ∨ alg = .dhkem) → (pubOid ⟨alg, ⟨q, 0⟩, ⟨t, 0, false⟩⟩ true).toOption = none →
      ¬HasOid ⟨alg, ⟨q, n⟩, ⟨t, m, false⟩⟩ := by
    rintro alg q t ha hn ⟨pss, o, ho⟩
    rw [pubOid_ids] at ho
    have hp : pubOid ⟨alg, ⟨q, 0⟩, ⟨t, 0, false⟩⟩ true = pubOid ⟨alg, ⟨q, 0⟩, ⟨t, 0, false⟩⟩ pss := by rcases ha with rfl | rfl <;> rfl
    rw [hp, ho] at hn
    cases hn
  have f1 : findComb (combs .kem) { pq := some "frodokem-976-aes", curve := some "secp256r1" } =
      .ok ⟨"frodokem-976-aes", "ecdh", none, .name "secp256r1"⟩ := by decide +kernel
  have f2 : findComb (combs .dhkem) { pq := some "ml-kem-768" } = .ok ⟨"ml-kem-768", "ecdh", none, .name "secp256r1"⟩ := by decide +kernel
  have f3 : findComb (combs .dhkem) { pq := some "ml-kem-1024" } = .ok ⟨"ml-kem-1024", "rsa", some "3072", .absent⟩ := by decide +kernel
  have t1 : genTrad "ecdh" none (some "secp256r1") = .ok (.ec "secp256r1") := by decide +kernel
  have t3 : genTrad "rsa" (some "3072") none = .ok (.rsa 3072) := by decide +kernel
  refine ⟨⟨⟨.kem, ⟨"frodokem-976-aes", n⟩, ⟨.ec "secp256r1", m, false⟩⟩, ?_, hno _ _ _ (.inl rfl) (by decide +kernel)⟩,
    ⟨⟨.dhkem, ⟨"ml-kem-768", n⟩, ⟨.ec "secp256r1", m, false⟩⟩, ?_, hno _ _ _ (.inr rfl) (by decide +kernel)⟩,
    ⟨⟨.dhkem, ⟨"ml-kem-1024", n⟩, ⟨.rsa 3072, m, false⟩⟩, ?_, rfl, hno _ _ _ (.inr rfl) (by decide +kernel)⟩⟩
  · unfold generate
    rw [if_neg (by simp), if_neg (by decide), if_neg (by decide)]
    unfold genDefault
    rw [if_neg (by decide), f1]; dsimp only [curveArg]
    rw [t1]; rfl
  · unfold generate
    rw [if_neg (by simp), if_neg (by decide), if_neg (by decide)]
    unfold genDefault
    rw [if_neg (by decide), f2]; dsimp only [curveArg]
    rw [t1]; rfl
  · unfold generate
    rw [if_neg (by simp), if_neg (by decide), if_neg (by decide)]
    unfold genDefault
    rw [if_neg (by decide), f3]; dsimp only [curveArg]
    rw [t3]; rfl

/-- The curve is one of the library. -/
def knownCurve : Trad → Bool
  | .ec c => (Hyb.curveInstances.map (·.2)).contains c
  | _ => true

/-- C251. No request gives a key on P-521, although ML-KEM-1024 and ML-DSA-87 with P-521 have identifiers: the tables say "secp512r1",
and a request for that name is refused, too. -/
theorem C251_p521_refuted :
    (∀ (alg : Alg) (r : Req) (n m : Nat) (k : HKey), generate alg r none none n m = .ok k → k.trad.shape ≠ .ec "secp521r1") ∧
    (∀ n m, HasOid ⟨.kem, ⟨"ml-kem-1024", n⟩, ⟨.ec "secp521r1", m, false⟩⟩ ∧ HasOid ⟨.sig, ⟨"ml-dsa-87", n⟩, ⟨.ec "secp521r1", m, false⟩⟩) ∧
    (∀ (alg : Alg) (r : Req) (n m : Nat), alg ≠ .xwing → r.curve = some "secp512r1" → ∃ e, generate alg r none none n m = .error e) := by
  have htab : ∀ alg ∈ [Alg.xwing, .sig, .dhkem, .kem, .chempat], ∀ e ∈ combs alg,
      ∀ t ∈ (genTrad e.trad e.length (curveArg e.curve)).toOption, t ≠ .ec "secp521r1" ∧
        (∀ c ∈ Hyb.curveInstances, t = .ec c.2 → pyLower c.2 ≠ pyLower "secp512r1") ∧
        knownCurve t = true := by decide +kernel
  refine ⟨?_, ?_, ?_⟩
  · intro alg r n m k h
    by_cases hx : alg = .xwing
    · subst hx
      rw [C251_xwing_ignores_refuted] at h
      have := Except.ok.inj h; subst this
      simp
    · unfold generate at h
      rw [if_neg (by simp), if_neg hx] at h
      have hg : ∃ r', genDefault alg r' n m = .ok k := by
        split at h
        · exact ⟨_, h⟩
        · exact ⟨_, h⟩
      obtain ⟨r', hg⟩ := hg
      obtain ⟨c, t, _, hm, ht, rfl⟩ := genDefault_ok hg
      exact (htab alg (mem_algs alg) c hm t (by rw [ht]; rfl)).1
  · intro n m
    have h1 : (pubOid ⟨.kem, ⟨"ml-kem-1024", 0⟩, ⟨.ec "secp521r1", 0, false⟩⟩ true).toOption = some [2, 16, 840, 1, 114027, 80, 5, 2, 60] := by
      decide +kernel
    have h2 : (pubOid ⟨.sig, ⟨"ml-dsa-87", 0⟩, ⟨.ec "secp521r1", 0, false⟩⟩ true).toOption = some [1, 3, 6, 1, 5, 5, 7, 6, 54] := by
      decide +kernel
    have ex : ∀ {x : Except PyErr (List Nat)} {o}, x.toOption = some o → x = .ok o := by
      intro x o h; cases x with
      | error e => cases h
      | ok v => cases h; rfl
    exact ⟨⟨true, _, (pubOid_ids ..).trans (ex h1)⟩, ⟨true, _, (pubOid_ids ..).trans (ex h2)⟩⟩
  · intro alg r n m hx hr
    cases h : generate alg r none none n m with
    | error e => exact ⟨e, rfl⟩
    | ok k =>
      exfalso
      obtain ⟨_, _, _, hh⟩ := C251_generated alg r n m k h
      obtain ⟨c', hc, hl⟩ := (hh hx).2.2.2 "secp512r1" ⟨hr, by decide⟩
      unfold generate at h
      rw [if_neg (by simp), if_neg hx] at h
      have hg : ∃ r', genDefault alg r' n m = .ok k := by
        split at h
        · exact ⟨_, h⟩
        · exact ⟨_, h⟩
      obtain ⟨r', hg⟩ := hg
      obtain ⟨c, t, _, hm, ht, rfl⟩ := genDefault_ok hg
      have hc : t = .ec c' := hc
      subst hc
      obtain ⟨_, h2, h3⟩ := htab alg (mem_algs alg) c hm _ (by rw [ht]; rfl)
      have h3 : c' ∈ Hyb.curveInstances.map (·.2) := List.contains_iff_mem.1 h3
      rw [List.mem_map] at h3
      obtain ⟨d, hd, hde⟩ := h3
      exact h2 d hd (by rw [hde]) (by rw [hde]; exact hl)

/-! ## Given components -/

/-- C251. A hybrid key that is built with given component keys contains them; what is not given is new. -/
theorem C251_from_keys (alg : Alg) (p : Option PKey) (t : Option TKey) (n m : Nat) (k : HKey) (h : fromKeys alg p t n m = .ok k) :
    k.alg = alg ∧ (∀ p', p = some p' → k.pq = p') ∧ (∀ t', t = some t' → k.trad = t') ∧
    (p = none → k.pq.id = n) ∧ (t = none → k.trad.id = m) := by
  unfold fromKeys at h
  split at h
  · cases h
  · rename_i p'
    split at h
    · rename_i hx
      have := Except.ok.inj h; subst this
      refine ⟨hx.symm, fun q hq => Option.some.inj hq, ?_, fun hn => (nomatch hn), ?_⟩
      · rintro t' rfl; rfl
      · rintro rfl; rfl
    · cases hg : genDefault alg { pq := some p'.name } n m with
      | error e => rw [hg] at h; cases h
      | ok hk =>
        rw [hg] at h; dsimp only at h
        have := build_ok h; subst this
        refine ⟨rfl, fun q hq => Option.some.inj hq, ?_, fun hn => (nomatch hn), ?_⟩
        · rintro t' rfl; rfl
        · rintro rfl
          exact (genDefault_has hg).2.2.1
  · rename_i t'
    split at h
    · rename_i hx
      have := Except.ok.inj h; subst this
      exact ⟨hx.symm, fun q hq => (nomatch hq), fun q hq => Option.some.inj hq, fun _ => rfl, fun hn => (nomatch hn)⟩
    · cases hr : reqOfTrad alg t' with
      | error e => rw [hr] at h; cases h
      | ok r =>
        rw [hr] at h; dsimp only at h
        cases hg : genDefault alg r n m with
        | error e => rw [hg] at h; cases h
        | ok hk =>
          rw [hg] at h; dsimp only at h
          have := build_ok h; subst this
          exact ⟨rfl, fun q hq => (nomatch hq), fun q hq => Option.some.inj hq, fun _ => (genDefault_has hg).2.1, fun hn => (nomatch hn)⟩

/-- C251. With a post-quantum key only, a composite signature or Chempat key has an identifier. -/
theorem C251_from_pq_oid_partial (alg : Alg) (ha : alg = .sig ∨ alg = .chempat) (p : PKey) (hp : p.name ≠ "") (n m : Nat) (k : HKey)
    (h : fromKeys alg (some p) none n m = .ok k) : HasOid k := by
  have hx : alg ≠ .xwing := by rcases ha with rfl | rfl <;> decide
  unfold fromKeys at h; dsimp only at h
  rw [if_neg hx] at h
  cases hg : genDefault alg { pq := some p.name } n m with
  | error e => rw [hg] at h; cases h
  | ok hk =>
    rw [hg] at h; dsimp only at h
    have := build_ok h; subst this
    obtain ⟨c, t, _, hm, ht, rfl⟩ := genDefault_ok hg
    have hn : c.pq = p.name := (genDefault_has hg).2.2.2.1 p.name ⟨rfl, hp⟩
    obtain ⟨q, i⟩ := p
    have hn : c.pq = q := hn
    subst hn
    rcases ha with rfl | rfl
    · exact entryOid_hasOid ht (entries_oid.1 c hm) i m false
    · exact entryOid_hasOid ht (entries_oid.2.1 c hm) i m false

/-- C251. False for the DHKEM variant: with an ML-KEM-768 or an ML-KEM-1024 key it is given a partner without identifier, for the
latter an RSA key, which the class cannot use. -/
theorem C251_from_pq_dhkem_refuted (i n m : Nat) :
    fromKeys .dhkem (some ⟨"ml-kem-768", i⟩) none n m = .ok ⟨.dhkem, ⟨"ml-kem-768", i⟩, ⟨.ec "secp256r1", m, false⟩⟩ ∧
    fromKeys .dhkem (some ⟨"ml-kem-1024", i⟩) none n m = .ok ⟨.dhkem, ⟨"ml-kem-1024", i⟩, ⟨.rsa 3072, m, false⟩⟩ ∧
    ¬HasOid ⟨.dhkem, ⟨"ml-kem-768", i⟩, ⟨.ec "secp256r1", m, false⟩⟩ ∧ ¬HasOid ⟨.dhkem, ⟨"ml-kem-1024", i⟩, ⟨.rsa 3072, m, false⟩⟩ := by
  obtain ⟨_, ⟨k2, h2, o2⟩, ⟨k3, h3, _, o3⟩⟩ := C251_generated_oid_refuted i m
  have f2 : findComb (combs .dhkem) { pq := some "ml-kem-768" } = .ok ⟨"ml-kem-768", "ecdh", none, .name "secp256r1"⟩ := by decide +kernel
  have f3 : findComb (combs .dhkem) { pq := some "ml-kem-1024" } = .ok ⟨"ml-kem-1024", "rsa", some "3072", .absent⟩ := by decide +kernel
  have t1 : genTrad "ecdh" none (some "secp256r1") = .ok (.ec "secp256r1") := by decide +kernel
  have t3 : genTrad "rsa" (some "3072") none = .ok (.rsa 3072) := by decide +kernel
  have g2 : ∀ n, genDefault .dhkem { pq := some "ml-kem-768" } n m = .ok ⟨.dhkem, ⟨"ml-kem-768", n⟩, ⟨.ec "secp256r1", m, false⟩⟩ := by
    intro n
    unfold genDefault
    rw [if_neg (by decide), f2]; dsimp only [curveArg]
    rw [t1]; rfl
  have g3 : ∀ n, genDefault .dhkem { pq := some "ml-kem-1024" } n m = .ok ⟨.dhkem, ⟨"ml-kem-1024", n⟩, ⟨.rsa 3072, m, false⟩⟩ := by
    intro n
    unfold genDefault
    rw [if_neg (by decide), f3]; dsimp only [curveArg]
    rw [t3]; rfl
  unfold generate at h2 h3
  rw [if_neg (by simp), if_neg (by decide), if_neg (by decide)] at h2 h3
  rw [g2 i] at h2
  rw [g3 i] at h3
  have e2 := Except.ok.inj h2; subst e2
  have e3 := Except.ok.inj h3; subst e3
  refine ⟨?_, ?_, o2, o3⟩
  · unfold fromKeys; dsimp only
    rw [if_neg (by decide), g2 n]; rfl
  · unfold fromKeys; dsimp only
    rw [if_neg (by decide), g3 n]; rfl

/-- C251. False: whether two given keys belong together is not looked at. An ML-DSA-44 key is combined with every traditional key, and
an X-Wing key is made of any two keys. With Ed448 the composite key has no identifier. -/
theorem C251_pair_unchecked_refuted (i n m : Nat) (p : PKey) (t : TKey) :
    fromKeys .sig (some ⟨"ml-dsa-44", i⟩) (some t) n m = .ok ⟨.sig, ⟨"ml-dsa-44", i⟩, t⟩ ∧
    fromKeys .xwing (some p) (some t) n m = .ok ⟨.xwing, p, t⟩ ∧
    (t.shape = .ed448 → ¬HasOid ⟨.sig, ⟨"ml-dsa-44", i⟩, t⟩) := by
  refine ⟨?_, rfl, ?_⟩
  · have f : findComb (combs .sig) { pq := some "ml-dsa-44" } = .ok ⟨"ml-dsa-44", "rsa", some "2048", .absent⟩ := by decide +kernel
    have tt : genTrad "rsa" (some "2048") none = .ok (.rsa 2048) := by decide +kernel
    unfold fromKeys; dsimp only
    rw [if_neg (by decide)]
    have g : genDefault .sig { pq := some "ml-dsa-44" } n m = .ok ⟨.sig, ⟨"ml-dsa-44", n⟩, ⟨.rsa 2048, m, false⟩⟩ := by
      unfold genDefault
      rw [if_neg (by decide), f]; dsimp only [curveArg]
      rw [tt]; rfl
    rw [g]; rfl
  · obtain ⟨sh, id, w⟩ := t
    intro hs
    have hs : sh = .ed448 := hs
    subst hs
    rintro ⟨pss, o, ho⟩
    rw [pubOid_ids] at ho
    have h : ∀ b : Bool, (pubOid ⟨.sig, ⟨"ml-dsa-44", 0⟩, ⟨.ed448, 0, false⟩⟩ b).toOption = none := by decide +kernel
    have := h pss
    rw [ho] at this
    cases this

/-- C251. False: with a traditional key only, a key of the DHKEM variant is always refused, and a key in a wrapper class by every
algorithm but X-Wing. -/
theorem C251_from_trad_refused_refuted (t : TKey) (n m : Nat) :
    (∃ e, fromKeys .dhkem none (some t) n m = .error e) ∧
    (t.wrapped = true → ∀ alg, alg ≠ .xwing → fromKeys alg none (some t) n m = .error .keyError) := by
  constructor
  · unfold fromKeys; dsimp only
    rw [if_neg (by decide)]
    cases hr : reqOfTrad .dhkem t with
    | error e => exact ⟨e, rfl⟩
    | ok r =>
      exfalso
      unfold reqOfTrad at hr
      split at hr
      · cases hr
      · rw [if_pos (by simp [allowedFor])] at hr
        cases hr
  · intro hw alg hx
    unfold fromKeys; dsimp only
    rw [if_neg hx]
    unfold reqOfTrad classOf
    rw [if_pos hw]

theorem rsaReq (bits : Nat) (i : Nat) :
    reqOfTrad .kem ⟨.rsa bits, i, false⟩ = .ok { trad := some "rsa", length := some (toString (rsaSize bits)) } := by
  unfold reqOfTrad classOf
  rw [if_neg (fun h => nomatch h)]; dsimp only
  rw [if_neg (by decide)]

/-- C251. A composite KEM key for a given RSA key: the size is rounded to the nearest of the table, and the key is built for every
size; its public key has an identifier exactly for the sizes 2048, 3072 and 4096. -/
theorem C251_from_rsa_iff (bits i n m : Nat) :
    ∃ k, fromKeys .kem none (some ⟨.rsa bits, i, false⟩) n m = .ok k ∧
      k.pq.name = (if rsaSize bits = 3072 then "ml-kem-1024" else "ml-kem-768") ∧
      (HasOid k ↔ ((bits = 2048 ∨ bits = 3072 ∨ bits = 4096))) := by
  have f1 : findComb (combs .kem) { trad := some "rsa", length := some (toString 2048) } = .ok ⟨"ml-kem-768", "rsa", some "2048", .absent⟩ := by
    decide +kernel
  have f2 : findComb (combs .kem) { trad := some "rsa", length := some (toString 3072) } = .ok ⟨"ml-kem-1024", "rsa", some "3072", .absent⟩ := by
    decide +kernel
  have f3 : findComb (combs .kem) { trad := some "rsa", length := some (toString 4096) } = .ok ⟨"ml-kem-768", "rsa", some "4096", .absent⟩ := by
    decide +kernel
  have t1 : genTrad "rsa" (some "2048") none = .ok (.rsa 2048) := by decide +kernel
  have t2 : genTrad "rsa" (some "3072") none = .ok (.rsa 3072) := by decide +kernel
  have t3 : genTrad "rsa" (some "4096") none = .ok (.rsa 4096) := by decide +kernel
  have hfrom : ∀ q, (∃ t, genDefault .kem { trad := some "rsa", length := some (toString (rsaSize bits)) } n m = .ok ⟨.kem, ⟨q, n⟩, t⟩) →
      fromKeys .kem none (some ⟨.rsa bits, i, false⟩) n m = .ok ⟨.kem, ⟨q, n⟩, ⟨.rsa bits, i, false⟩⟩ := by
    rintro q ⟨t, hg⟩
    unfold fromKeys; dsimp only
    rw [if_neg (by decide), rsaReq]; dsimp only
    rw [hg]; rfl
  have hoid : ∀ q, q ∈ Hyb.pqNames → HasOid ⟨.kem, ⟨q, n⟩, ⟨.rsa bits, i, false⟩⟩ → bits = 2048 ∨ bits = 3072 ∨ bits = 4096 := by
    rintro q hq ⟨pss, o, ho⟩
    exact rsa_sizes (kind := .kem) hq ho
  have ex : ∀ {x : Except PyErr (List Nat)} {o}, x.toOption = some o → x = .ok o := by
    intro x o h; cases x with
    | error e => cases h
    | ok v => cases h; rfl
  have hgen : ∀ c t, findComb (combs .kem) { trad := some "rsa", length := some (toString (rsaSize bits)) } = .ok c →
      genTrad c.trad c.length (curveArg c.curve) = .ok (.rsa t) →
      genDefault .kem { trad := some "rsa", length := some (toString (rsaSize bits)) } n m = .ok ⟨.kem, ⟨c.pq, n⟩, ⟨.rsa t, m, false⟩⟩ := by
    intro c t hf ht
    unfold genDefault
    rw [if_neg (by simp), hf]; dsimp only
    rw [ht]; rfl
  rcases rsaSize_cases bits with hs | hs | hs
  · refine ⟨⟨.kem, ⟨"ml-kem-768", n⟩, ⟨.rsa bits, i, false⟩⟩, hfrom _ ⟨_, hgen _ 2048 (by rw [hs]; exact f1) t1⟩, ?_, ?_⟩
    · rw [if_neg (by rw [hs]; decide)]
    · refine ⟨hoid _ (by decide +kernel), ?_⟩
      rintro (rfl | rfl | rfl)
      · exact ⟨true, _, (pubOid_ids ..).trans (ex (o := [2, 16, 840, 1, 114027, 80, 5, 2, 50]) (by decide +kernel))⟩
      · exact absurd hs (by decide)
      · exact absurd hs (by decide)
  · refine ⟨⟨.kem, ⟨"ml-kem-1024", n⟩, ⟨.rsa bits, i, false⟩⟩, hfrom _ ⟨_, hgen _ 3072 (by rw [hs]; exact f2) t2⟩, ?_, ?_⟩
    · rw [if_pos hs]
    · refine ⟨hoid _ (by decide +kernel), ?_⟩
      rintro (rfl | rfl | rfl)
      · exact absurd hs (by decide)
      · exact ⟨true, _, (pubOid_ids ..).trans (ex (o := [2, 16, 840, 1, 114027, 80, 5, 2, 61]) (by decide +kernel))⟩
      · exact absurd hs (by decide)
  · refine ⟨⟨.kem, ⟨"ml-kem-768", n⟩, ⟨.rsa bits, i, false⟩⟩, hfrom _ ⟨_, hgen _ 4096 (by rw [hs]; exact f3) t3⟩, ?_, ?_⟩
    · rw [if_neg (by rw [hs]; decide)]
    · refine ⟨hoid _ (by decide +kernel), ?_⟩
      rintro (rfl | rfl | rfl)
      · exact absurd hs (by decide)
      · exact absurd hs (by decide)
      · exact ⟨true, _, (pubOid_ids ..).trans (ex (o := [2, 16, 840, 1, 114027, 80, 5, 2, 52]) (by decide +kernel))⟩

/-! ## By name -/

/-- The same key with other numbers. -/
def renumber (n m : Nat) (k : HKey) : HKey := ⟨k.alg, ⟨k.pq.name, n⟩, { k.trad with id := m }⟩

theorem pubOid_renumber (n m : Nat) (k : HKey) (pss : Bool) : pubOid (renumber n m k) pss = pubOid k pss := rfl

theorem build_renumber (alg : Alg) (q : String) (t : Trad) (n m : Nat) :
    build alg ⟨q, n⟩ { shape := t, id := m } = (build alg ⟨q, 0⟩ { shape := t, id := 0 }).map (renumber n m) := by
  cases alg <;> unfold build <;> dsimp only
  · rfl
  · rfl
  · show (if kemTrad ⟨t, 0, false⟩ then _ else _) = _
    split <;> rfl
  · show (if kemTrad ⟨t, 0, false⟩ then _ else _) = _
    split <;> rfl
  · split <;> rfl

theorem compositeByName_renumber (name : String) (n m : Nat) :
    compositeByName name n m = (compositeByName name 0 0).map (renumber n m) := by
  unfold compositeByName
  dsimp only
  cases anyIn (pyLower name) ["dhkem", "kem", "sig"] with
  | error e => rfl
  | ok pfx =>
    dsimp only
    cases Hyb.getPqAlgName (pyLower name) with
    | error e => rfl
    | ok pq =>
      dsimp only
      cases nameParts (pyLower name) pfx pq with
      | error e => rfl
      | ok x =>
        obtain ⟨trad, length, curve⟩ := x
        dsimp only
        cases genTrad trad length curve with
        | error e => rfl
        | ok t =>
          dsimp only
          unfold fromKeys
          dsimp only
          by_cases hx : prefixAlg pfx = .xwing
          · exfalso
            unfold prefixAlg at hx
            split at hx
            · cases hx
            · split at hx <;> cases hx
          · rw [if_neg hx, if_neg hx]
            cases genDefault (prefixAlg pfx) { pq := some pq } 0 0 with
            | error e => rfl
            | ok h =>
              dsimp only [Option.getD]
              rw [build_renumber]
              cases build (prefixAlg pfx) ⟨pq, 0⟩ ⟨t, 0, false⟩ with
              | error e => rfl
              | ok k =>
                show checkOid (renumber n m k) trad = (checkOid k trad).map (renumber n m)
                unfold checkOid
                rw [pubOid_renumber]
                show (match pubOid k (k.alg == .sig && _) with | .error e => _ | .ok _ => _) = _
                cases pubOid k (k.alg == .sig && Hyb.pyStarts trad "rsa") with
                | error e => rfl
                | ok o => rfl

theorem genDefault_renumber (alg : Alg) (r : Req) (n m : Nat) : genDefault alg r n m = (genDefault alg r 0 0).map (renumber n m) := by
  unfold genDefault
  split
  · rfl
  · cases findComb (combs alg) r with
    | error e => rfl
    | ok c =>
      dsimp only
      cases genTrad c.trad c.length (curveArg c.curve) with
      | error e => rfl
      | ok t => exact build_renumber alg c.pq t n m

theorem generate_renumber (alg : Alg) (r : Req) (n m : Nat) :
    generate alg r none none n m = (generate alg r none none 0 0).map (renumber n m) := by
  have hn : ∀ n m, generate alg r none none n m =
      if alg = .xwing then .ok ⟨.xwing, ⟨"ml-kem-768", n⟩, { shape := .x25519, id := m }⟩
      else genDefault alg (if r = {} then defaultReq alg else r) n m := by
    intro n m
    unfold generate
    rw [if_neg (by simp)]
    split
    · rfl
    · split <;> rfl
  rw [hn n m, hn 0 0]
  split
  · rfl
  · exact genDefault_renumber _ _ n m

theorem chempatByName_renumber (name : String) (n m : Nat) : chempatByName name n m = (chempatByName name 0 0).map (renumber n m) := by
  unfold chempatByName
  cases Hyb.splitHybridName name with
  | error e => rfl
  | ok x =>
    obtain ⟨pq, tc⟩ := x
    dsimp only
    cases anyIn tc ["ecdh", "x448", "x25519"] with
    | error e => rfl
    | ok trad =>
      exact generate_renumber _ _ n m

def namedOk (e : String × List Nat) : Bool :=
  match byName e.1 0 0 with
  | .error _ => false
  | .ok k => (pubOid k (Hyb.pyEnds e.1 "-pss")).toOption == some e.2

set_option maxRecDepth 20000 in
theorem names_sig : ∀ e ∈ CSig.nameToOid, namedOk e = true := by decide +kernel

set_option maxRecDepth 20000 in
theorem names_mlkem : ∀ e ∈ Hyb.mlkemNameToOid, namedOk e = true := by decide +kernel

set_option maxRecDepth 20000 in
theorem names_frodo1 : ∀ e ∈ Hyb.frodoNameToOid.take 9, namedOk e = true := by decide +kernel

set_option maxRecDepth 20000 in
theorem names_frodo2 : ∀ e ∈ Hyb.frodoNameToOid.drop 9, namedOk e = true := by decide +kernel

set_option maxRecDepth 20000 in
theorem names_dhkem1 : ∀ e ∈ Hyb.dhkemNameToOid.take 9, namedOk e = true := by decide +kernel

set_option maxRecDepth 20000 in
theorem names_dhkem2 : ∀ e ∈ Hyb.dhkemNameToOid.drop 9, namedOk e = true := by decide +kernel

set_option maxRecDepth 20000 in
theorem names_chempat1 : ∀ e ∈ Hyb.chempatNameToOid.take 13, namedOk e = true := by decide +kernel

set_option maxRecDepth 20000 in
theorem names_chempat2 : ∀ e ∈ Hyb.chempatNameToOid.drop 13, namedOk e = true := by decide +kernel

theorem take_drop {α : Type} {P : α → Prop} (n : Nat) (l : List α) (h1 : ∀ e ∈ l.take n, P e) (h2 : ∀ e ∈ l.drop n, P e) : ∀ e ∈ l, P e := by
  intro e he
  rw [← List.take_append_drop n l] at he
  rcases List.mem_append.1 he with h | h
  · exact h1 e h
  · exact h2 e h

theorem names_ok : ∀ e ∈ CSig.nameToOid ++ Hyb.kemNameToOid ++ Hyb.chempatNameToOid, namedOk e = true := by
  intro e he
  rcases List.mem_append.1 he with he | he
  · rcases List.mem_append.1 he with he | he
    · exact names_sig e he
    · unfold Hyb.kemNameToOid at he
      rcases List.mem_append.1 he with he | he
      · rcases List.mem_append.1 he with he | he
        · exact names_mlkem e he
        · exact take_drop 9 _ names_frodo1 names_frodo2 e he
      · exact take_drop 9 _ names_dhkem1 names_dhkem2 e he
  · exact take_drop 13 _ names_chempat1 names_chempat2 e he

/-- C251. Generated by its name, every registered hybrid algorithm gives a new key with the identifier of the name. -/
theorem C251_by_name (name : String) (oid : List Nat) (h : (name, oid) ∈ CSig.nameToOid ++ Hyb.kemNameToOid ++ Hyb.chempatNameToOid)
    (n m : Nat) :
    ∃ k, byName name n m = .ok k ∧ k.pq.id = n ∧ k.trad.id = m ∧ pubOid k (Hyb.pyEnds name "-pss") = .ok oid := by
  have hok := names_ok _ h
  unfold namedOk at hok
  have hr : byName name n m = (byName name 0 0).map (renumber n m) := by
    unfold byName
    split
    · exact compositeByName_renumber name n m
    · exact chempatByName_renumber name n m
  cases hb : byName name 0 0 with
  | error e => rw [hb] at hok; cases hok
  | ok k =>
    rw [hb] at hok; dsimp only at hok
    rw [hb] at hr
    refine ⟨renumber n m k, hr, rfl, rfl, ?_⟩
    rw [pubOid_renumber]
    cases hp : pubOid k (Hyb.pyEnds name "-pss") with
    | error e => rw [hp] at hok; cases hok
    | ok o =>
      rw [hp] at hok
      have : o = oid := by simpa [Except.toOption] using hok
      rw [this]

/-! ## Examples -/

example : (generate .sig { pq := some "ml-dsa-65", trad := some "rsa", length := some "4096" } none none 1 2).toOption =
      some ⟨.sig, ⟨"ml-dsa-65", 1⟩, ⟨.rsa 4096, 2, false⟩⟩ ∧
    (generate .chempat { pq := some "ml-kem-768", curve := some "BRAINPOOLP256R1" } none none 1 2).toOption =
      some ⟨.chempat, ⟨"ml-kem-768", 1⟩, ⟨.ec "brainpoolP256r1", 2, false⟩⟩ ∧
    (generate .kem {} none (some ⟨.x448, 7, false⟩) 1 2).toOption = some ⟨.kem, ⟨"ml-kem-1024", 1⟩, ⟨.x448, 7, false⟩⟩ ∧
    (generate .sig { pq := some "ml-dsa-44", curve := some "secp256r1" } none none 1 2).toOption = none ∧
    (byName "composite-sig-ml-dsa-87-ecdsa-secp521r1" 1 2).toOption = some ⟨.sig, ⟨"ml-dsa-87", 1⟩, ⟨.ec "secp521r1", 2, false⟩⟩ := by
  decide +kernel

end Verif.PQ.HybGen
