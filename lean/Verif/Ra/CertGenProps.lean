import Verif.Ra.CertGen
import Verif.Ra.CsrBuildProps
import Verif.Ra.BuildProps
import Verif.Check.KeyUsageProps
import Verif.Check.TemplateProps

/-!
# Properties of the certificates and extensions that the suite builds
-/

namespace Verif.Ra.CertGen

open Verif.CA hiding Bytes Msg
open Verif.Check (DName stripL splitComma usageOf keyUsageNames validateKeyUsage Has Strictness keyUsageNames_plain
  C123_usage has_usageOf)

variable {B K P V : Type}

theorem splitComma_eq (s : List Char) : splitComma s = splitAt ',' s := by
  induction s with
  | nil => rfl
  | cons x xs ih =>
    unfold splitComma splitAt
    rw [ih]
    split
    · rfl
    · cases splitAt ',' xs <;> rfl

theorem mem_pieces (s t : List Char) : t ∈ splitComma s ↔ Piece ',' s t := by
  rw [splitComma_eq]; exact mem_splitAt_iff ',' s t

/-! ## Single extensions -/

/-- **C248.** A key usage is built exactly from the empty text and from texts whose pieces between commas are, apart from
spaces around them, names of RFC 5280. -/
theorem C248_usage_iff (env : GenEnv B K P V) (t : String) (c tr : Bool) :
    (∃ e, prepUsage env t c tr = .ok e) ↔ t.toList = [] ∨ ∀ p, Piece ',' t.toList p → stripL p ∈ keyUsageNames := by
  unfold prepUsage usageBits
  by_cases h0 : t.toList = []
  · rw [if_pos h0]; exact ⟨fun _ => .inl h0, fun _ => ⟨_, rfl⟩⟩
  · rw [if_neg h0]
    unfold usageOf
    by_cases h : ∀ v ∈ splitComma t.toList, stripL v ∈ keyUsageNames
    · rw [if_pos h]
      exact ⟨fun _ => .inr (fun p hp => h p ((mem_pieces _ _).2 hp)), fun _ => ⟨_, rfl⟩⟩
    · rw [if_neg h]
      constructor
      · rintro ⟨e, he⟩; cases he
      · rintro (h1 | h1)
        · exact absurd h1 h0
        · exact absurd (fun v hv => h1 v ((mem_pieces _ _).1 hv)) h

/-- **C248.** The key usage that is built from a text passes the check of the key usage for the same text, whatever the
strictness. -/
theorem C248_usage_valid {env : GenEnv B K P V} {t : String} {c tr : Bool} {e : GExt B} (h : prepUsage env t c tr = .ok e)
    (ht : t.toList ≠ []) :
    ∃ x, e = ⟨[2, 5, 29, 15], c, .usage x, if tr then env.rand16 else []⟩ ∧
      ∀ s, validateKeyUsage keyUsageNames (.ok (some x)) (splitComma t.toList) s = .ok () := by
  unfold prepUsage usageBits at h
  rw [if_neg ht] at h
  cases hu : usageOf keyUsageNames (splitComma t.toList) with
  | error x => rw [hu] at h; cases x <;> cases h
  | ok x =>
    rw [hu] at h; cases h
    have hk : ∀ v ∈ splitComma t.toList, stripL v ∈ keyUsageNames := by
      unfold usageOf at hu
      split at hu
      · assumption
      · cases hu
    have hh : ∀ n ∈ keyUsageNames, Has keyUsageNames x n ↔ n ∈ (splitComma t.toList).map stripL :=
      fun n hn => has_usageOf hu n hn
    have hall : ∀ v ∈ splitComma t.toList, Has keyUsageNames x (stripL v) :=
      fun v hv => (hh _ (hk v hv)).2 (List.mem_map.2 ⟨v, hv, rfl⟩)
    refine ⟨x, rfl, fun s => (C123_usage _ keyUsageNames_plain _ _ _).2 ?_⟩
    cases s with
    | none => exact .inl rfl
    | lax => exact .inr (.inl ⟨rfl, .inr ⟨x, rfl, hall⟩⟩)
    | strict => exact .inr (.inr (.inl ⟨rfl, x, rfl, hall⟩))
    | absStrict => exact .inr (.inr (.inr ⟨rfl, x, rfl, hk, hh⟩))

/-- The three extended key usages of CMP: RFC 6402 and RFC 9480. -/
def CmpEku (n : List Char) (o : List Nat) : Prop :=
  (n = "cmcCA".toList ∧ o = [1, 3, 6, 1, 5, 5, 7, 3, 27]) ∨ (n = "cmcRA".toList ∧ o = [1, 3, 6, 1, 5, 5, 7, 3, 28]) ∨
    (n = "cmKGA".toList ∧ o = [1, 3, 6, 1, 5, 5, 7, 3, 32])

theorem mem_ekuTable (o : List Nat) (n : List Char) : (o, n) ∈ ekuTable ↔ CmpEku n o := by
  unfold ekuTable CmpEku
  simp only [List.mem_cons, Prod.mk.injEq, List.not_mem_nil, or_false]
  grind

theorem pieces_ne_nil (t : String) : ekuPieces t ≠ [] := by
  unfold ekuPieces; rw [splitComma_eq]; exact splitAt_ne_nil _ _

/-- **C248.** The extension of the extended key usages is built exactly from texts whose pieces are names, without any
space; its identifiers are those of the names in the text, each once. -/
theorem C248_eku_iff (t : String) (c : Bool) (e : GExt B) :
    prepEku t c = .ok e ↔
      (∀ p, Piece ',' (stripL t.toList) p → ∃ o, CmpEku p o) ∧
      ∃ l, e = ⟨[2, 5, 29, 37], c, .eku l, []⟩ ∧ l.Nodup ∧
        (∀ o, o ∈ l ↔ ∃ p, Piece ',' (stripL t.toList) p ∧ CmpEku p o) ∧
        l = ([[1, 3, 6, 1, 5, 5, 7, 3, 32], [1, 3, 6, 1, 5, 5, 7, 3, 28], [1, 3, 6, 1, 5, 5, 7, 3, 27]] :
          List (List Nat)).filter (fun o => decide (o ∈ l)) := by
  have hnd : (ekuTable.map (·.1)).Nodup := by decide +kernel
  have hmem : ∀ p, p ∈ ekuTable.map (·.2) ↔ ∃ o, CmpEku p o := by
    intro p
    constructor
    · intro h
      obtain ⟨⟨o, n⟩, h1, h2⟩ := List.mem_map.1 h
      cases h2
      exact ⟨o, (mem_ekuTable _ _).1 h1⟩
    · rintro ⟨o, h⟩; exact List.mem_map.2 ⟨(o, p), (mem_ekuTable _ _).2 h, rfl⟩
  have hmf : ∀ o, o ∈ (ekuTable.filter (fun e => decide (e.2 ∈ ekuPieces t))).map (·.1) ↔
      ∃ p, Piece ',' (stripL t.toList) p ∧ CmpEku p o := by
    intro o
    constructor
    · intro h
      obtain ⟨⟨o', n⟩, h1, h2⟩ := List.mem_map.1 h
      cases h2
      obtain ⟨h3, h4⟩ := List.mem_filter.1 h1
      exact ⟨n, (mem_pieces _ _).1 (of_decide_eq_true h4), (mem_ekuTable _ _).1 h3⟩
    · rintro ⟨p, hp, h⟩
      exact List.mem_map.2 ⟨(o, p), List.mem_filter.2 ⟨(mem_ekuTable _ _).2 h, decide_eq_true ((mem_pieces _ _).2 hp)⟩, rfl⟩
  have hsub : ((ekuTable.filter (fun e => decide (e.2 ∈ ekuPieces t))).map (·.1)).Sublist (ekuTable.map (·.1)) :=
    List.filter_sublist.map _
  have huniq : ∀ l : List (List Nat), (∀ o, o ∈ l ↔ ∃ p, Piece ',' (stripL t.toList) p ∧ CmpEku p o) →
      (ekuTable.map (·.1)).filter (fun o => decide (o ∈ l)) =
        (ekuTable.filter (fun e => decide (e.2 ∈ ekuPieces t))).map (·.1) := by
    intro l hl
    rw [List.filter_map]
    congr 1
    apply List.filter_congr
    intro e he
    simp only [Function.comp]
    have : e.1 ∈ l ↔ e.2 ∈ ekuPieces t := by
      rw [hl]
      constructor
      · rintro ⟨p, hp, h⟩
        have h2 : (e.1, p) ∈ ekuTable := (mem_ekuTable _ _).2 h
        have h3 : ∀ a ∈ ekuTable, ∀ b ∈ ekuTable, a.1 = b.1 → a.2 = b.2 := by decide +kernel
        have := h3 _ he _ h2 rfl
        exact this ▸ (mem_pieces _ _).2 hp
      · intro h; exact ⟨e.2, (mem_pieces _ _).1 h, (mem_ekuTable _ _).1 he⟩
    rw [decide_eq_decide.2 this]
  have htab : ekuTable.map (·.1) = [[1, 3, 6, 1, 5, 5, 7, 3, 32], [1, 3, 6, 1, 5, 5, 7, 3, 28], [1, 3, 6, 1, 5, 5, 7, 3, 27]] :=
    rfl
  unfold prepEku
  dsimp only
  constructor
  · intro h
    split at h
    · cases h
    · next hc =>
      cases h
      have h1 : ∀ p ∈ ekuPieces t, p ∈ ekuTable.map (·.2) := fun p hp =>
        Classical.byContradiction (fun hn => hc (.inr ⟨p, hp, hn⟩))
      refine ⟨fun p hp => (hmem p).1 (h1 p ((mem_pieces _ _).2 hp)), _, rfl, hsub.nodup hnd, hmf, ?_⟩
      rw [← htab]
      exact (huniq _ hmf).symm
  · rintro ⟨h1, l, rfl, _, h3, h4⟩
    rw [← htab, huniq l h3] at h4
    rw [if_neg]
    · rw [h4]; rfl
    · rintro (h5 | ⟨p, hp, hn⟩)
      · obtain ⟨p, hp⟩ := List.exists_mem_of_ne_nil _ (pieces_ne_nil t)
        obtain ⟨o, ho⟩ := h1 p ((mem_pieces _ _).1 hp)
        have := (hmf o).2 ⟨p, (mem_pieces _ _).1 hp, ho⟩
        rw [h5] at this
        cases this
      · exact hn ((hmem p).2 (h1 p ((mem_pieces _ _).1 hp)))

/-- **C248.** The example of the documentation is refused: `prepare_extensions` documents `eku=cmcCA, cmcRA, cmKGA`, but
the spaces after the commas are not removed. -/
theorem C248_eku_refuted : (prepEku "cmcCA, cmcRA, cmKGA" true : Except PyErr (GExt B)) = .error .valueError ∧
    ∃ e : GExt B, prepEku "cmcCA,cmcRA,cmKGA" true = .ok e := by
  have h : ∀ t : String, (prepEku t true : Except PyErr (GExt B)) =
      if (ekuTable.filter (fun e => decide (e.2 ∈ ekuPieces t))) = [] ∨ ∃ p ∈ ekuPieces t, p ∉ ekuTable.map (·.2) then
        .error .valueError
      else .ok ⟨ekuOid, true, .eku ((ekuTable.filter (fun e => decide (e.2 ∈ ekuPieces t))).map (·.1)), []⟩ :=
    fun t => rfl
  constructor
  · rw [h, if_pos (by decide +kernel)]
  · exact ⟨_, by rw [h, if_neg (by decide +kernel)]⟩

/-- **C248.** The alternative names are the pieces of the text, with the spaces after the commas, and then the given names;
without either there is an error. -/
theorem C248_san (env : GenEnv B K P V) (dns : Option String) (gen : Option (List (GName B))) (c tr : Bool) :
    prepSan env dns gen c tr =
      if dns = none ∧ gen = none then .error .valueError
      else .ok ⟨[2, 5, 29, 17], c, .names ((dns.map (fun s => (splitAt ',' (stripL s.toList)).map .dns)).getD [] ++
        gen.getD []), if tr then env.rand16 else []⟩ := by
  unfold prepSan dnsNames trailing
  cases dns <;> cases gen <;> simp [splitComma_eq, sanOid]

/-- **C248.** Two DNS names separated by a comma and a space: the second is built with the space. -/
theorem C248_san_refuted (env : GenEnv B K P V) :
    prepSan env (some "a.de, b.de") none = .ok ⟨[2, 5, 29, 17], false, .names [.dns "a.de".toList, .dns " b.de".toList], []⟩ := by
  have h : splitComma (stripL "a.de, b.de".toList) = ["a.de".toList, " b.de".toList] := by decide +kernel
  unfold prepSan dnsNames
  dsimp only [Option.isNone_some, Bool.false_and]
  rw [h]
  rfl

/-- **C248.** The path length is the number, and a text must be a number. -/
theorem C248_basic_iff (env : GenEnv B K P V) (ca : Bool) (path : Option Strint) (c tr : Bool) (e : GExt B) :
    prepBasic env ca path c tr = .ok e ↔
      ∃ i : Option Int, e = ⟨[2, 5, 29, 19], c, .basic ⟨ca, i⟩, if tr then env.rand16 else []⟩ ∧
        (path = none ∧ i = none ∨ (∃ n, path = some (.inl n) ∧ i = some n) ∨
          ∃ s n, path = some (.inr s) ∧ env.toInt s = .ok n ∧ i = some n) := by
  unfold prepBasic pathInt GenEnv.int trailing
  rcases path with _ | n | s
  · simp [basicOid, eq_comm]
  · simp [basicOid, eq_comm]
  · cases h : env.toInt s with
    | error x => simp [h]
    | ok n => simp [h, basicOid, eq_comm]

/-! ## The authority key identifier -/

/-- **C248.** A certificate as `ca_key`, which the documentation allows, never gives an extension: the key is looked up in
the fields of a certification request. -/
theorem C248_aki_cert_refuted (env : GenEnv B K P V) (a : AkiArgs B K V) (c : GCert B V) (h : a.caKey = .inr c) :
    prepAki env a = .error .keyError := by
  unfold prepAki; rw [h]

/-- **C248.** What the extension holds: the identifier of the key, with the first byte changed if asked for, the names and
the serial number. -/
theorem C248_aki {env : GenEnv B K P V} {a : AkiArgs B K V} {e : GExt B} (h : prepAki env a = .ok e) :
    ∃ k id l, a.caKey = .inl k ∧ env.ski k = .ok id ∧
      e = ⟨[2, 5, 29, 35], a.critical, .aki ⟨if a.invalid then env.flip id else id, l,
        if a.incSerial then a.caCert.map (fun c => c.tbs.serial + if a.incrSerial then 1 else 0) else none⟩,
        if a.trail then env.rand16 else []⟩ ∧
      (a.incSerial = true → a.caCert ≠ none) ∧
      ((a.incIssuer = false ∧ a.caName = none ∧ l = []) ∨
       (∃ s n, a.caName = some s ∧ env.c.parse s = .ok n ∧ l = .dir n :: a.genNames.getD []) ∨
       (a.incIssuer = true ∧ a.caName = none ∧ ∃ g, a.genNames = some g ∧ l = g) ∨
       (a.incIssuer = true ∧ a.caName = none ∧ a.genNames = none ∧ ∃ c, a.caCert = some c ∧ l = [.dir c.tbs.subject])) := by
  unfold prepAki at h
  cases hk : a.caKey with
  | inr c => rw [hk] at h; cases h
  | inl k =>
    rw [hk] at h; dsimp only at h
    cases hs : env.ski k with
    | error x => rw [hs] at h; cases h
    | ok id =>
      rw [hs] at h; dsimp only at h
      unfold akiFields at h
      split at h
      · cases h
      next h1 =>
      split at h
      · cases h
      next h2 =>
      cases hi : akiIssuer env a with
      | error x => rw [hi] at h; cases h
      | ok l =>
        rw [hi] at h
        have he := Except.ok.inj h
        refine ⟨k, id, l, rfl, hs, ?_, ?_, ?_⟩
        · rw [← he]
          unfold akiSerial trailing
          cases a.incSerial <;> cases a.caCert <;> cases a.incrSerial <;> simp [akiOid]
        · intro h3 h4
          apply h2
          rw [h3, h4]; rfl
        · unfold akiIssuer akiDir at hi
          cases hn : a.caName with
          | some s =>
            rw [hn] at hi
            simp only [Option.isSome_some, Bool.or_true, if_true] at hi
            cases hp : env.c.parse s with
            | error x => rw [hp] at hi; cases hi
            | ok n => rw [hp] at hi; cases hi; exact .inr (.inl ⟨s, n, rfl, hp, rfl⟩)
          | none =>
            rw [hn] at hi h1
            cases hb : a.incIssuer with
            | false => rw [hb] at hi; cases hi; exact .inl ⟨rfl, rfl, rfl⟩
            | true =>
              rw [hb] at hi h1
              cases hg : a.genNames with
              | some g =>
                rw [hg] at hi
                refine .inr (.inr (.inl ⟨rfl, rfl, g, rfl, ?_⟩))
                cases hc : a.caCert <;> rw [hc] at hi <;> cases hi <;> rfl
              | none =>
                rw [hg] at hi h1
                cases hc : a.caCert with
                | none => rw [hc] at h1; exact absurd rfl h1
                | some c => rw [hc] at hi; cases hi; exact .inr (.inr (.inr ⟨rfl, rfl, rfl, c, rfl, rfl⟩))

/-- **C248.** The names that are given have no effect unless the issuer is asked for or a name is given. -/
theorem C248_aki_names_refuted (env : GenEnv B K P V) (a : AkiArgs B K V) (h1 : a.incIssuer = false) (h2 : a.caName = none) :
    prepAki env a = prepAki env { a with genNames := none } := by
  obtain ⟨k, c, i, cc, ii, is, inc, cn, gn, tr⟩ := a
  simp only at h1 h2
  subst h1 h2
  rfl

/-- RFC 5280, section 4.2.1.1: the names and the serial number identify the certificate of the CA by its issuer and its
serial number. -/
def Identifies (x : GAki B) (c : GCert B V) : Prop := x.issuer = [.dir c.tbs.issuer] ∧ x.serial = some c.tbs.serial

/-- **C248.** With the issuer and the serial number of a self-issued CA certificate the extension identifies it. What is
missing for other certificates of a CA is `C248_aki_issuer_refuted`. -/
theorem C248_aki_issuer_partial {env : GenEnv B K P V} {k : K} {c : GCert B V} {e : GExt B}
    (h : prepAki env { caKey := .inl k, caCert := some c, incIssuer := true, incSerial := true } = .ok e)
    (hs : c.tbs.issuer = c.tbs.subject) : ∃ x, e.val = .aki x ∧ Identifies x c := by
  obtain ⟨k', id, l, _, _, he, _, hl⟩ := C248_aki h
  refine ⟨_, by rw [he], ?_, ?_⟩
  · rcases hl with ⟨h1, _⟩ | ⟨s, n, h1, _⟩ | ⟨_, _, g, h1, _⟩ | ⟨_, _, _, c', h1, h2⟩
    · cases h1
    · cases h1
    · cases h1
    · cases h1; rw [h2, hs]
  · simp

/-- **C248.** The certificate of an intermediate CA is never identified: the name is its subject. -/
theorem C248_aki_issuer_refuted {env : GenEnv B K P V} {k : K} {c : GCert B V} {e : GExt B}
    (h : prepAki env { caKey := .inl k, caCert := some c, incIssuer := true, incSerial := true } = .ok e)
    (hs : c.tbs.issuer ≠ c.tbs.subject) : ∃ x, e.val = .aki x ∧ ¬ Identifies x c := by
  obtain ⟨k', id, l, _, _, he, _, hl⟩ := C248_aki h
  refine ⟨_, by rw [he], ?_⟩
  rintro ⟨h3, _⟩
  rcases hl with ⟨h1, _⟩ | ⟨s, n, h1, _⟩ | ⟨_, _, g, h1, _⟩ | ⟨_, _, _, c', h1, h2⟩
  · cases h1
  · cases h1
  · cases h1
  · cases h1
    rw [h2] at h3
    exact hs (by injection (List.cons.inj h3).1 with h4; exact h4.symm)

/-! ## Lists of extensions -/

theorem chainE_cons {x : Except PyErr (List (GExt B))} {xs : List (Except PyErr (List (GExt B)))} {l : List (GExt B)}
    (h : chainE (x :: xs) = .ok l) : ∃ a r, x = .ok a ∧ chainE xs = .ok r ∧ l = a ++ r := by
  unfold chainE at h
  cases x with
  | error e => cases h
  | ok a =>
    dsimp only at h
    cases hr : chainE xs with
    | error e => rw [hr] at h; cases h
    | ok r => rw [hr] at h; cases h; exact ⟨a, r, rfl, rfl, rfl⟩

theorem one_ok {X : Type} {x : Option X} {f : X → Except PyErr (GExt B)} {l : List (GExt B)} (h : one x f = .ok l) :
    (x = none ∧ l = []) ∨ ∃ y g, x = some y ∧ f y = .ok g ∧ l = [g] := by
  unfold one at h
  cases x with
  | none => cases h; exact .inl ⟨rfl, rfl⟩
  | some y =>
    dsimp only at h
    cases hf : f y with
    | error e => rw [hf] at h; cases h
    | ok g => rw [hf] at h; cases h; exact .inr ⟨y, g, rfl, hf, rfl⟩

/-- What an optional argument adds to a list: nothing, or one extension. -/
def Adds {X : Type} (x : Option X) (f : X → Except PyErr (GExt B)) (l : List (GExt B)) : Prop :=
  (x = none ∧ l = []) ∨ ∃ y g, x = some y ∧ f y = .ok g ∧ l = [g]

/-- **C248.** The list has, in this order, one extension for each argument that is given: key usage, extended key usage,
subject key identifier, basic constraints, alternative names, the invalid one, authority key identifier. It is not empty. -/
theorem C248_exts {env : GenEnv B K P V} {a : ExtArgs B K P V} {l : List (GExt B)} (h : prepExts env a = .ok l) :
    l ≠ [] ∧ ∃ l1 l2 l3 l4 l5 l6 l7, l = l1 ++ l2 ++ l3 ++ l4 ++ l5 ++ l6 ++ l7 ∧
      Adds a.usage (fun t => prepUsage env t a.critical) l1 ∧ Adds a.eku (fun t => prepEku t a.critical) l2 ∧
      Adds a.key (fun k => prepSki env k a.critical) l3 ∧
      ((a.isCa = none ∧ a.path = none ∧ l4 = []) ∨
        (¬ (a.isCa = none ∧ a.path = none) ∧ ∃ g, prepBasic env (a.isCa.getD false) a.path a.critical = .ok g ∧ l4 = [g])) ∧
      Adds a.san (fun s => prepSan env (some s) none a.critical) l5 ∧
      l6 = (if a.invalid then [⟨[1, 2, 840, 113549, 1, 1, 1], true, .raw env.rand16, []⟩] else []) ∧
      Adds a.caKey (fun k => prepAki env { caKey := k, critical := a.critical }) l7 := by
  unfold prepExts at h
  cases hc : chainE (extParts env a) with
  | error e => rw [hc] at h; cases h
  | ok r =>
    rw [hc] at h; dsimp only at h
    split at h
    · cases h
    next hne =>
    cases h
    refine ⟨hne, ?_⟩
    unfold extParts at hc
    obtain ⟨l1, r1, e1, hc1, rfl⟩ := chainE_cons hc
    obtain ⟨l2, r2, e2, hc2, rfl⟩ := chainE_cons hc1
    obtain ⟨l3, r3, e3, hc3, rfl⟩ := chainE_cons hc2
    obtain ⟨l4, r4, e4, hc4, rfl⟩ := chainE_cons hc3
    obtain ⟨l5, r5, e5, hc5, rfl⟩ := chainE_cons hc4
    obtain ⟨l6, r6, e6, hc6, rfl⟩ := chainE_cons hc5
    obtain ⟨l7, r7, e7, hc7, rfl⟩ := chainE_cons hc6
    cases hc7
    refine ⟨l1, l2, l3, l4, l5, l6, l7, by simp [List.append_assoc], one_ok e1, one_ok e2, one_ok e3, ?_, one_ok e5, ?_,
      one_ok e7⟩
    · unfold caFlag at e4
      cases hi : a.isCa with
      | some b =>
        rw [hi] at e4
        rcases one_ok e4 with ⟨h1, _⟩ | ⟨y, g, h1, h2, h3⟩
        · cases h1
        · cases h1; exact .inr ⟨fun h => (nomatch h.1), g, h2, h3⟩
      | none =>
        rw [hi] at e4
        cases hp : a.path with
        | none =>
          rw [hp] at e4; cases e4; exact .inl ⟨rfl, rfl, rfl⟩
        | some p =>
          rw [hp] at e4
          rcases one_ok e4 with ⟨h1, _⟩ | ⟨y, g, h1, h2, h3⟩
          · cases h1
          · cases h1; exact .inr ⟨fun h => (nomatch h.2), g, h2, h3⟩
    · cases hv : a.invalid with
      | false => rw [hv] at e6; cases e6; rfl
      | true => rw [hv] at e6; cases e6; rfl

/-- **C248.** Without any argument for an extension there is an error. -/
theorem C248_exts_none (env : GenEnv B K P V) (c : Bool) : prepExts env { critical := c } = .error .valueError := by
  have : ([] : List (GExt B)) = [] := rfl
  unfold prepExts
  rw [show chainE (extParts env ({ critical := c } : ExtArgs B K P V)) = .ok [] from rfl]
  exact if_pos rfl

theorem prep_crit {env : GenEnv B K P V} {t : String} {c : Bool} {g : GExt B} (h : prepUsage env t c = .ok g) :
    g.oid = [2, 5, 29, 15] ∧ g.critical = c ∧ g.trail = [] := by
  unfold prepUsage at h
  split at h
  · cases h
  · cases h
  · cases h; exact ⟨rfl, rfl, rfl⟩

theorem prepSki_ok {env : GenEnv B K P V} {k : P ⊕ K} {c i t : Bool} {g : GExt B} (h : prepSki env k c i t = .ok g) :
    ∃ s, skiOf env k = .ok s ∧ g = ⟨[2, 5, 29, 14], c, .ski (if i then env.flip s else s), if t then env.rand16 else []⟩ := by
  unfold prepSki at h
  cases hs : skiOf env k with
  | error e => rw [hs] at h; cases h
  | ok s => rw [hs] at h; cases h; exact ⟨s, rfl, rfl⟩

/-- **C248.** Each extension of the list has the criticality that is asked for and nothing after its value, but the
invalid one is critical in any case; no identifier occurs twice. -/
theorem C248_exts_critical {env : GenEnv B K P V} {a : ExtArgs B K P V} {l : List (GExt B)} (h : prepExts env a = .ok l) :
    (∀ e ∈ l, e.trail = [] ∧ e.critical = (a.critical || decide (e.oid = [1, 2, 840, 113549, 1, 1, 1]))) ∧
      (l.map (·.oid)).Sublist [[2, 5, 29, 15], [2, 5, 29, 37], [2, 5, 29, 14], [2, 5, 29, 19], [2, 5, 29, 17],
        [1, 2, 840, 113549, 1, 1, 1], [2, 5, 29, 35]] := by
  obtain ⟨_, l1, l2, l3, l4, l5, l6, l7, rfl, h1, h2, h3, h4, h5, h6, h7⟩ := C248_exts h
  have aux : ∀ (m : List (GExt B)) (o : List Nat), o ≠ [1, 2, 840, 113549, 1, 1, 1] →
      (m = [] ∨ ∃ g, m = [g] ∧ g.oid = o ∧ g.critical = a.critical ∧ g.trail = []) →
      (∀ e ∈ m, e.trail = [] ∧ e.critical = (a.critical || decide (e.oid = [1, 2, 840, 113549, 1, 1, 1]))) ∧
        (m.map (·.oid)).Sublist [o] := by
    rintro m o ho (rfl | ⟨g, rfl, h1, h2, h3⟩)
    · exact ⟨by simp, by simp⟩
    · refine ⟨?_, by simp [h1]⟩
      intro e he
      rw [List.mem_singleton.1 he, h1, h2, h3, decide_eq_false ho, Bool.or_false]
      exact ⟨rfl, rfl⟩
  have k1 := aux l1 [2, 5, 29, 15] (by decide) (by
    rcases h1 with ⟨_, h⟩ | ⟨y, g, _, h, h'⟩
    · exact .inl h
    · exact .inr ⟨g, h', prep_crit h⟩)
  have k2 := aux l2 [2, 5, 29, 37] (by decide) (by
    rcases h2 with ⟨_, h⟩ | ⟨y, g, _, h, h'⟩
    · exact .inl h
    · obtain ⟨_, m, hm, _⟩ := (C248_eku_iff _ _ _).1 h
      exact .inr ⟨g, h', by rw [hm], by rw [hm], by rw [hm]⟩)
  have k3 := aux l3 [2, 5, 29, 14] (by decide) (by
    rcases h3 with ⟨_, h⟩ | ⟨y, g, _, h, h'⟩
    · exact .inl h
    · obtain ⟨s, _, hm⟩ := prepSki_ok h
      exact .inr ⟨g, h', by rw [hm], by rw [hm], by rw [hm]; rfl⟩)
  have k4 := aux l4 [2, 5, 29, 19] (by decide) (by
    rcases h4 with ⟨_, _, h⟩ | ⟨_, g, h, h'⟩
    · exact .inl h
    · obtain ⟨i, hm, _⟩ := (C248_basic_iff _ _ _ _ _ _).1 h
      exact .inr ⟨g, h', by rw [hm], by rw [hm], by rw [hm]; rfl⟩)
  have k5 := aux l5 [2, 5, 29, 17] (by decide) (by
    rcases h5 with ⟨_, h⟩ | ⟨y, g, _, h, h'⟩
    · exact .inl h
    · have h := (C248_san env (some y) none a.critical false).symm.trans h
      rw [if_neg (by simp)] at h
      cases h
      exact .inr ⟨_, h', rfl, rfl, rfl⟩)
  have k7 := aux l7 [2, 5, 29, 35] (by decide) (by
    rcases h7 with ⟨_, h⟩ | ⟨y, g, _, h, h'⟩
    · exact .inl h
    · obtain ⟨_, _, _, _, _, hm, _⟩ := C248_aki h
      exact .inr ⟨g, h', by rw [hm], by rw [hm], by rw [hm]; rfl⟩)
  have k6 : (∀ e ∈ l6, e.trail = [] ∧ e.critical = (a.critical || decide (e.oid = [1, 2, 840, 113549, 1, 1, 1]))) ∧
      (l6.map (·.oid)).Sublist [[1, 2, 840, 113549, 1, 1, 1]] := by
    rw [h6]
    split
    · refine ⟨fun e he => ?_, List.Sublist.refl _⟩
      rw [List.mem_singleton.1 he]
      exact ⟨rfl, by simp⟩
    · exact ⟨by simp, by simp⟩
  constructor
  · intro e he
    simp only [List.mem_append] at he
    rcases he with (((((he | he) | he) | he) | he) | he) | he
    · exact k1.1 e he
    · exact k2.1 e he
    · exact k3.1 e he
    · exact k4.1 e he
    · exact k5.1 e he
    · exact k6.1 e he
    · exact k7.1 e he
  · simp only [List.map_append]
    exact ((((((k1.2.append k2.2).append k3.2).append k4.2).append k5.2).append k6.2).append k7.2)

/-- **C248.** The key identifiers agree: the extension of a key is recognised as that of the key, and of another key only
if the identifiers are the same; with the first byte changed it is not recognised. -/
theorem C248_compare_ski {env : GenEnv B K P V} {k : P ⊕ K} {c i t : Bool} {e : GExt B} (h : prepSki env k c i t = .ok e)
    (k' : P ⊕ K) (b : Bool) (pre post : List (GExt B)) (hp : ∀ x ∈ pre, x.oid ≠ [2, 5, 29, 14]) :
    compareSki env (pre ++ e :: post) k' = .ok b ↔
      ∃ s s', skiOf env k = .ok s ∧ skiOf env k' = .ok s' ∧ (b = true ↔ s' = if i then env.flip s else s) := by
  obtain ⟨s, hs, rfl⟩ := prepSki_ok h
  have hf : skiVal (pre ++ (⟨[2, 5, 29, 14], c, .ski (if i then env.flip s else s), if t then env.rand16 else []⟩ : GExt B)
      :: post) = some (if i then env.flip s else s) := by
    unfold skiVal
    rw [List.find?_append, List.find?_eq_none.2 (fun x hx => by rw [decide_eq_true_eq]; exact hp x hx)]
    rfl
  unfold compareSki
  rw [hf]
  dsimp only
  cases hk : skiOf env k' with
  | error x => simp
  | ok s' =>
    rw [hs]
    constructor
    · intro hb
      have := Except.ok.inj hb
      exact ⟨s, s', rfl, rfl, by rw [← this, decide_eq_true_iff]⟩
    · rintro ⟨_, _, h1, h2, h3⟩
      cases h1; cases h2
      exact congrArg Except.ok (Bool.eq_iff_iff.2 (by rw [decide_eq_true_iff, h3]))

/-- **C248.** Changed extensions: the extension with the given or an unknown identifier is first and critical; the others
are those of the certificate, in their order, or none. -/
theorem C248_modify (env : GenEnv B K P V) (c : GCert B V) (oid : Option (List Nat)) (hex : Option Bytes) (others : Bool) :
    ∃ r, modifyExts env c oid hex others =
        ⟨oid.getD [1, 2, 840, 113549, 1, 1, 1], true, .raw (hex.getD env.rand16), []⟩ :: r ∧
      (others = true → r = c.tbs.exts.getD []) ∧ (others = false → r = []) := by
  refine ⟨_, rfl, fun h => by rw [if_pos h], fun h => ?_⟩
  rw [h]; rfl

/-! ## Certificates -/

theorem signCert_ok {env : GenEnv B K P V} {c d : GCert B V} {p : P} {hash : Option String} {pss bad patch : Bool}
    (h : signCert env c p hash pss bad patch = .ok d) :
    ∃ c' s, patchAlg env c p hash pss patch = .ok c' ∧ env.c.sign p hash pss (env.encTbs c'.tbs) = .ok s ∧
      d = { c' with sig := some (if bad then env.c.damage p s else s) } := by
  unfold signCert at h
  cases h1 : patchAlg env c p hash pss patch with
  | error e => rw [h1] at h; cases h
  | ok c' =>
    rw [h1] at h; dsimp only at h
    cases h2 : env.c.sign p hash pss (env.encTbs c'.tbs) with
    | error e => rw [h2] at h; cases h
    | ok s => rw [h2] at h; cases h; exact ⟨c', s, rfl, h2, rfl⟩

/-- RFC 5280, section 4.1.1: both fields hold the same algorithm, and the signature is one of the TBS certificate. -/
def Verifies (env : GenEnv B K P V) (c : GCert B V) (k : K) : Prop :=
  ∃ g s, c.alg = some g ∧ c.tbs.alg = some g ∧ c.sig = some s ∧ env.c.verify k g (env.encTbs c.tbs) s = .ok ()

/-- **C248.** A certificate signed with a key verifies with it; a signature that is to be bad does not; nothing but the
algorithm in the TBS certificate changes. -/
theorem C248_sign {env : GenEnv B K P V} {c d : GCert B V} {p : P} {hash : Option String} {pss bad : Bool}
    (ha : CsrAgree env.c p) (h : signCert env c p hash pss bad = .ok d) :
    (bad = false → Verifies env d (env.c.pub p)) ∧ (bad = true → ¬ Verifies env d (env.c.pub p)) ∧
      ∃ g, env.c.sigAlg p hash pss = .ok g ∧ d.alg = some g ∧ d.tbs = { c.tbs with alg := some g } := by
  obtain ⟨c', s, h1, h2, rfl⟩ := signCert_ok h
  unfold patchAlg at h1
  rw [if_pos rfl] at h1
  cases hg : env.c.sigAlg p hash pss with
  | error e => rw [hg] at h1; cases h1
  | ok g =>
    rw [hg] at h1; cases h1
    refine ⟨fun hb => ⟨g, s, rfl, rfl, by rw [hb]; rfl, ha.good _ _ _ _ _ hg h2⟩, fun hb => ?_, g, rfl, rfl, rfl⟩
    rintro ⟨g', s', h3, _, h5, h6⟩
    cases h3
    rw [hb] at h5
    cases h5
    have hbad := ha.bad _ _ _ _ _ hg h2
    rw [show env.c.verify (env.c.pub p) g (env.encTbs { c.tbs with alg := some g }) (env.c.damage p s) = .ok () from h6] at hbad
    cases hbad

/-- **C248.** Without `patch_sig_fields` the algorithms are left as they are: with that of another key the certificate is
signed nevertheless, and an absent `signatureAlgorithm` is not noticed. -/
theorem C248_patch {env : GenEnv B K P V} {c : GCert B V} {p : P} {hash : Option String} {pss bad : Bool} (d : GCert B V) :
    signCert env c p hash pss bad false = .ok d ↔
      c.tbs.alg ≠ none ∧ ∃ s, env.c.sign p hash pss (env.encTbs c.tbs) = .ok s ∧
        d = { c with sig := some (if bad then env.c.damage p s else s) } := by
  unfold signCert patchAlg
  cases h1 : c.tbs.alg with
  | none => simp
  | some g =>
    simp only [Bool.false_eq_true, if_false, Option.isNone_some]
    cases h2 : env.c.sign p hash pss (env.encTbs c.tbs) with
    | error e => simp
    | ok s => simp [eq_comm]

theorem generateCert_ok {env : GenEnv B K P V} {a : GenArgs B P V} {c : GCert B V} (h : generateCert env a = .ok c) :
    env.canSign (a.signKey.getD a.key) = true ∧ ∃ exts n t, genExts env a = .ok exts ∧ serialOf env a.serial = .ok n ∧
      prepTbs env a (a.signKey.getD a.key) n exts = .ok t ∧
      signCert env { tbs := t } (a.signKey.getD a.key) a.hash a.pss a.bad = .ok c := by
  unfold generateCert at h
  dsimp only at h
  split at h
  · cases h
  next hc =>
  refine ⟨by simpa using hc, ?_⟩
  cases h1 : genExts env a with
  | error e => rw [h1] at h; cases h
  | ok exts =>
    rw [h1] at h; dsimp only at h
    cases h2 : serialOf env a.serial with
    | error e => rw [h2] at h; cases h
    | ok n =>
      rw [h2] at h; dsimp only at h
      cases h3 : prepTbs env a (a.signKey.getD a.key) n exts with
      | error e => rw [h3] at h; cases h
      | ok t => rw [h3] at h; exact ⟨exts, n, t, rfl, rfl, h3, h⟩

theorem prepTbs_ok {env : GenEnv B K P V} {a : GenArgs B P V} {p : P} {n : Int} {exts : Option (List (GExt B))} {t : GTbs B V}
    (h : prepTbs env a p n exts = .ok t) :
    ∃ m s g, parseCommonName env.c a.name = .ok m ∧ tbsSpki env a = .ok s ∧
      t = ⟨n, (a.issuer.map (·.tbs.subject)).getD m, m, a.validity.getD (env.validity a.days), s, exts, some g⟩ := by
  unfold prepTbs at h
  cases h1 : parseCommonName env.c a.name with
  | error e => rw [h1] at h; cases h
  | ok m =>
    rw [h1] at h; dsimp only at h
    cases h2 : tbsSpki env a with
    | error e => rw [h2] at h; cases h
    | ok s =>
      rw [h2] at h; dsimp only at h
      cases h3 : env.c.sigAlg p a.hash a.pss with
      | error e => rw [h3] at h; cases h
      | ok g => rw [h3] at h; cases h; exact ⟨m, s, g, rfl, rfl, rfl⟩

theorem buildCert_ok {env : GenEnv B K P V} {a : BuildArgs B P V} {c : GCert B V} {k : P} (h : buildCert env a = .ok (c, k)) :
    ∃ exts, buildKey env a.key = .ok k ∧ buildExts env a k = .ok exts ∧ env.canSign (a.caKey.getD k) = true ∧
      generateCert env { key := k, name := a.name, hash := some a.hash, serial := a.serial,
                         signKey := some (a.caKey.getD k), issuer := a.caCert, exts := exts, days := a.days,
                         pss := a.pss, bad := a.bad, validity := a.validity, spki := a.spki } = .ok c := by
  unfold buildCert at h
  cases h1 : buildKey env a.key with
  | error e => rw [h1] at h; cases h
  | ok k' =>
    rw [h1] at h; dsimp only at h
    cases h2 : buildExts env a k' with
    | error e => rw [h2] at h; cases h
    | ok exts =>
      rw [h2] at h; dsimp only at h
      split at h
      · cases h
      next hc =>
      split at h
      · cases h
      next hg =>
      cases h
      exact ⟨exts, rfl, h2, by simpa using hc, hg⟩

/-- **C248.** The certificate that is built: names, serial number, validity, key and extensions are those asked for; it is
signed with the key of the CA if there is one and with the key of the certificate otherwise, and verifies exactly when no
bad signature is asked for. -/
theorem C248_build {env : GenEnv B K P V} {a : BuildArgs B P V} {c : GCert B V} {k : P} (h : buildCert env a = .ok (c, k))
    (ha : CsrAgree env.c (a.caKey.getD k)) :
    (Verifies env c (env.c.pub (a.caKey.getD k)) ↔ a.bad = false) ∧ env.canSign (a.caKey.getD k) = true ∧
      parseCommonName env.c a.name = .ok c.tbs.subject ∧
      c.tbs.issuer = (a.caCert.map (·.tbs.subject)).getD c.tbs.subject ∧
      serialOf env a.serial = .ok c.tbs.serial ∧ c.tbs.validity = a.validity.getD (env.validity a.days) ∧
      (∀ s, a.spki = some s → c.tbs.spki = s) ∧ (a.spki = none → env.c.loadKey c.tbs.spki = .ok (env.c.pub k) ∨
        ¬ CsrAgree env.c k) ∧
      buildExts env a k = .ok c.tbs.exts := by
  obtain ⟨exts, h1, h2, h3, h4⟩ := buildCert_ok h
  obtain ⟨_, exts', n, t, h5, h6, h7, h8⟩ := generateCert_ok h4
  obtain ⟨m, s, g, h9, h10, rfl⟩ := prepTbs_ok h7
  obtain ⟨hv, hnv, g', _, _, htbs⟩ := C248_sign (p := a.caKey.getD k) ha h8
  have hex : exts' = exts := by
    unfold genExts at h5
    rw [if_neg (by simp)] at h5
    exact (Except.ok.inj h5).symm
  subst hex
  rw [htbs]
  refine ⟨⟨fun hh => ?_, hv⟩, h3, h9, rfl, h6, rfl, fun s' hs => ?_, fun hs => ?_, h2⟩
  · cases hb : a.bad with
    | false => rfl
    | true => exact absurd hh (hnv hb)
  · unfold tbsSpki at h10
    dsimp only at h10
    rw [hs] at h10
    exact (Except.ok.inj h10).symm
  · by_cases hk : CsrAgree env.c k
    · left
      unfold tbsSpki at h10
      dsimp only at h10
      rw [hs] at h10
      exact hk.load _ _ _ h10
    · exact .inr hk

/-- **C248.** With the certificate of the CA and its key, the certificate is issued by the CA: the names are linked and it
verifies with the key in the certificate of the CA. What is missing is the certificate of the CA without its key, see
`C248_issuer_refuted`. -/
theorem C248_issuer_partial {env : GenEnv B K P V} {a : BuildArgs B P V} {c ca : GCert B V} {k p : P}
    (h : buildCert env a = .ok (c, k)) (hc : a.caCert = some ca) (hp : a.caKey = some p) (hb : a.bad = false)
    (ha : CsrAgree env.c p) (hl : env.c.loadKey ca.tbs.spki = .ok (env.c.pub p)) :
    c.tbs.issuer = ca.tbs.subject ∧ ∃ pk, env.c.loadKey ca.tbs.spki = .ok pk ∧ Verifies env c pk := by
  have hg : a.caKey.getD k = p := by rw [hp]; rfl
  obtain ⟨hv, _, _, hi, _⟩ := C248_build h (by rw [hg]; exact ha)
  rw [hg] at hv
  exact ⟨by rw [hi, hc]; rfl, _, hl, hv.2 hb⟩

/-- The arguments that are passed on for the extensions. -/
def asked (env : GenEnv B K P V) (a : BuildArgs B P V) (k : P) : ExtArgs B K P V where
  usage := a.usage
  key := if a.includeSki then some (.inr (env.c.pub k)) else none
  eku := a.eku
  isCa := a.isCa
  path := a.path
  critical := a.critical

/-- **C248.** Which extensions the certificate gets: those of the caller, whatever else is asked for, otherwise those
prepared, and none if nothing is asked for. -/
theorem C248_build_exts (env : GenEnv B K P V) (a : BuildArgs B P V) (k : P) (x : Option (List (GExt B))) :
    buildExts env a k = .ok x ↔
      (a.exts ≠ none ∧ x = a.exts) ∨
      (a.exts = none ∧ x = none ∧ (a.usage = none ∨ a.usage = some "") ∧ a.includeSki = false ∧
        (a.eku = none ∨ a.eku = some "") ∧ a.isCa ≠ some true ∧
        (a.path = none ∨ a.path = some (.inl 0) ∨ a.path = some (.inr ""))) ∨
      (a.exts = none ∧ ((a.usage ≠ none ∧ a.usage ≠ some "") ∨ a.includeSki = true ∨ (a.eku ≠ none ∧ a.eku ≠ some "") ∨
        a.isCa = some true ∨ (a.path ≠ none ∧ a.path ≠ some (.inl 0) ∧ a.path ≠ some (.inr ""))) ∧
        ∃ l, x = some l ∧ prepExts env (asked env a k) = .ok l) := by
  have ht : ∀ t : Option String, textSet t = true ↔ t ≠ none ∧ t ≠ some "" := by
    intro t; cases t with
    | none => simp [textSet]
    | some s => by_cases h : s = "" <;> simp [textSet, h, Option.filter]
  have hsn : ∀ t : Option Strint, strintSet t = true ↔ t ≠ none ∧ t ≠ some (.inl 0) ∧ t ≠ some (.inr "") := by
    rintro (_ | i | s) <;> simp [strintSet]
  have hw : wantsExts a = true ↔ ((a.usage ≠ none ∧ a.usage ≠ some "") ∨ a.includeSki = true ∨
      (a.eku ≠ none ∧ a.eku ≠ some "") ∨ a.isCa = some true ∨
      (a.path ≠ none ∧ a.path ≠ some (.inl 0) ∧ a.path ≠ some (.inr ""))) := by
    have hca : a.isCa.getD false = true ↔ a.isCa = some true := by
      rcases a.isCa with _ | _ | _ <;> simp
    unfold wantsExts
    simp only [Bool.or_eq_true, ht, hsn, hca, or_assoc]
  unfold buildExts
  change (if wantsExts a && a.exts.isNone then exceptSome (prepExts env (asked env a k)) else .ok a.exts) = _ ↔ _
  unfold exceptSome
  cases he : a.exts with
  | some l =>
    rw [if_neg (by simp)]
    constructor
    · intro h; exact .inl ⟨by simp, (Except.ok.inj h).symm⟩
    · rintro (⟨_, h⟩ | ⟨h, _⟩ | ⟨h, _⟩)
      · rw [h]
      · cases h
      · cases h
  | none =>
    by_cases hb : wantsExts a = true
    · rw [if_pos (by rw [hb]; rfl)]
      have hb' := hw.1 hb
      cases hp : prepExts env (asked env a k) with
      | error e =>
        constructor
        · intro h; cases h
        · rintro (⟨h, _⟩ | ⟨_, _, h1, h2, h3, h4, h5⟩ | ⟨_, _, l, _, h⟩)
          · exact absurd rfl h
          · grind
          · cases h
      | ok l =>
        constructor
        · intro h; cases h; exact .inr (.inr ⟨rfl, hb', l, rfl, rfl⟩)
        · rintro (⟨h, _⟩ | ⟨_, _, h1, h2, h3, h4, h5⟩ | ⟨_, _, l', h1, h⟩)
          · exact absurd rfl h
          · grind
          · cases h; rw [h1]
    · rw [if_neg (by simp [hb])]
      constructor
      · intro h
        cases h
        have := mt hw.2 hb
        grind
      · rintro (⟨h, _⟩ | ⟨_, h, _⟩ | ⟨_, h, _⟩)
        · exact absurd rfl h
        · rw [h]
        · exact absurd (hw.2 h) hb

/-- **C248.** With `include_ski` and no list of extensions, the certificate has the key identifier of its key, first of its
kind. -/
theorem C248_include_ski {env : GenEnv B K P V} {a : BuildArgs B P V} {k : P} {x : Option (List (GExt B))}
    (h : buildExts env a k = .ok x) (hi : a.includeSki = true) (he : a.exts = none) :
    ∃ l s, x = some l ∧ env.ski (env.c.pub k) = .ok s ∧
      l.filter (fun e => decide (e.oid = [2, 5, 29, 14])) = [⟨[2, 5, 29, 14], a.critical, .ski s, []⟩] := by
  rcases (C248_build_exts env a k x).1 h with ⟨h1, _⟩ | ⟨_, _, _, h1, _⟩ | ⟨_, _, l, rfl, hl⟩
  · exact absurd he h1
  · rw [hi] at h1; cases h1
  · have hk : (asked env a k).key = some (.inr (env.c.pub k)) := by unfold asked; dsimp only; rw [hi]; rfl
    have hsub := (C248_exts_critical hl).2
    obtain ⟨_, l1, l2, l3, l4, l5, l6, l7, hll, _, _, h3, _⟩ := C248_exts hl
    rcases h3 with ⟨h3, _⟩ | ⟨y, g, h3, h4, h5⟩
    · rw [hk] at h3; cases h3
    · rw [hk] at h3; cases h3
      obtain ⟨s, hs, hg⟩ := prepSki_ok h4
      refine ⟨l, s, rfl, hs, ?_⟩
      have hmem : g ∈ l := by rw [hll, h5]; simp
      have hgo : g.oid = [2, 5, 29, 14] := by rw [hg]
      have hlen : (l.filter (fun e => decide (e.oid = [2, 5, 29, 14]))).length ≤ 1 := by
        have h6 := (hsub.filter (fun o => decide (o = [2, 5, 29, 14]))).length_le
        rw [List.filter_map, List.length_map] at h6
        exact Nat.le_trans h6 (by decide)
      have hm2 : g ∈ l.filter (fun e => decide (e.oid = [2, 5, 29, 14])) :=
        List.mem_filter.2 ⟨hmem, decide_eq_true hgo⟩
      generalize hfl : l.filter (fun e => decide (e.oid = [2, 5, 29, 14])) = fl at hlen hm2
      rcases fl with _ | ⟨z, _ | ⟨w, r⟩⟩
      · cases hm2
      · rw [← List.mem_singleton.1 hm2, hg]; rfl
      · simp at hlen

/-- **C248.** `include_ski` is ignored when a list of extensions is given, as are key usage, extended key usage and basic
constraints. -/
theorem C248_given_refuted (env : GenEnv B K P V) (a : BuildArgs B P V) (k : P) (l : List (GExt B)) (h : a.exts = some l) :
    buildExts env a k = .ok (some l) :=
  (C248_build_exts env a k _).2 (.inl ⟨by rw [h]; simp, h.symm⟩)

/-- **C248.** A path length of zero, as a number, is ignored if nothing else asks for extensions; as a text it is not. -/
theorem C248_path_zero_refuted (env : GenEnv B K P V) (k : P) (n : Int) (hn : env.toInt "0" = .ok n) :
    buildExts env { path := some (.inl 0) } k = .ok none ∧
      buildExts env { path := some (.inr "0") } k =
        .ok (some [⟨[2, 5, 29, 19], false, .basic ⟨false, some n⟩, []⟩]) := by
  refine ⟨rfl, ?_⟩
  refine (C248_build_exts _ _ _ _).2 (.inr (.inr ⟨rfl, ?_, _, rfl, ?_⟩))
  · exact .inr (.inr (.inr (.inr ⟨by simp, by simp, by simp⟩)))
  · unfold prepExts extParts asked
    simp only [Bool.false_eq_true, if_false]
    have hb : prepBasic env false (some (.inr "0")) false = .ok ⟨[2, 5, 29, 19], false, .basic ⟨false, some n⟩, []⟩ :=
      (C248_basic_iff _ _ _ _ _ _).2 ⟨some n, rfl, .inr (.inr ⟨"0", n, rfl, hn, rfl⟩)⟩
    simp only [one, caFlag, chainE, Option.isSome_some, Bool.or_true, if_true, Option.getD_none, hb]
    rfl

/-- **C248.** The argument `ski` that `build_certificate` documents has no effect. -/
theorem C248_doc_ski_refuted (env : GenEnv B K P V) (a : BuildArgs B P V) (b : Bool) :
    buildCert env { a with ski := b } = buildCert env a := rfl

/-- **C248.** `ski` of `generate_certificate` has no effect without a list of extensions; with a list, the list is replaced
by the critical key identifier alone. -/
theorem C248_generate_ski_refuted (env : GenEnv B K P V) (a : GenArgs B P V) (h : a.ski = true) :
    (a.exts = none → genExts env a = .ok none) ∧
      ∀ l s, a.exts = some l → env.ski (env.c.pub a.key) = .ok s →
        genExts env a = .ok (some [⟨[2, 5, 29, 14], true, .ski s, []⟩]) := by
  constructor
  · intro he; unfold genExts; rw [he]; rfl
  · intro l s he hs
    have hp : prepExts env { key := some (.inl a.key) } = .ok [⟨[2, 5, 29, 14], true, .ski s, []⟩] := by
      have hk : prepSki env (.inl a.key) true = .ok ⟨[2, 5, 29, 14], true, .ski s, []⟩ := by
        unfold prepSki skiOf; dsimp only; rw [hs]; rfl
      unfold prepExts extParts
      simp only [one, caFlag, chainE, hk]
      exact if_neg (by simp)
    unfold genExts
    rw [he, h, hp]
    rfl

/-! ## Changed names -/

/-- **C248.** The changed text differs from the given one in its last character only, and does differ. -/
theorem C248_modify_last {draws s t : List Char} (h : modifyLast draws s = .ok t) :
    ∃ pre c d, s = pre ++ [c] ∧ t = pre ++ [d] ∧ d ≠ c ∧ d ∈ draws := by
  unfold modifyLast at h
  cases hl : s.getLast? with
  | none => rw [hl] at h; cases h
  | some c =>
    rw [hl] at h; dsimp only at h
    cases hf : (draws.take 100).find? (fun d => decide (d ≠ c)) with
    | none => rw [hf] at h; cases h
    | some d =>
      rw [hf] at h; cases h
      have h1 := List.find?_some hf
      have h2 := List.mem_of_find?_eq_some hf
      obtain ⟨pre, hp⟩ := List.getLast?_eq_some_iff.1 hl
      exact ⟨pre, c, d, hp, by rw [hp]; simp, of_decide_eq_true h1, List.mem_of_mem_take h2⟩

theorem nameDict_nodup (attrs d : List (List Char × List Char)) (h : ((d ++ attrs).map (·.1)).Nodup) :
    attrs.foldl (fun d e => dictSet d e.1 e.2) d = d ++ attrs := by
  induction attrs generalizing d with
  | nil => simp
  | cons e l ih =>
    rw [List.foldl_cons]
    have h1 : dictSet d e.1 e.2 = d ++ [e] := by
      unfold dictSet
      rw [if_neg]
      simp only [List.any_eq_true, decide_eq_true_eq, not_exists, not_and]
      intro x hx he
      rw [List.map_append, List.map_cons] at h
      have := (List.nodup_append.1 h).2.2 x.1 (List.mem_map.2 ⟨x, hx, rfl⟩) e.1 (List.mem_cons_self ..)
      exact this he
    rw [h1, ih]
    · simp
    · simpa using h

/-- The names of OpenSSL's notation: attributes separated by commas. -/
def Notation : List (List Char × List Char) → List Char := fun l =>
  [','].intercalate (l.map (fun e => e.1 ++ ['='] ++ e.2))

theorem nameText_eq (l : List (List Char × List Char)) : nameText l = Notation l := by
  unfold Notation
  induction l with
  | nil => rfl
  | cons e l ih =>
    cases l with
    | nil => simp [nameText]
    | cons f l =>
      unfold nameText
      rw [ih]
      simp [List.intercalate]

/-- **C248.** A name whose attributes have different types is changed in the last character of its common name, and nowhere
else. What is missing is a name with two attributes of the same type, see `C248_modify_cn_refuted`. -/
theorem C248_modify_cn_partial {draws : List Char} {attrs : List (List Char × List Char)} {t : List Char}
    (h : modifyCn draws attrs = .ok t) (hn : (attrs.map (·.1)).Nodup) :
    ∃ pre post v c d, attrs = pre ++ ("CN".toList, v ++ [c]) :: post ∧ d ≠ c ∧
      t = Notation (pre ++ ("CN".toList, v ++ [d]) :: post) := by
  have hd : nameDict attrs = attrs := by
    have := nameDict_nodup attrs [] (by simpa using hn)
    exact this.trans (by simp)
  unfold modifyCn at h
  dsimp only at h
  rw [hd] at h
  split at h
  · cases h
  cases hf : attrs.find? (fun e => decide (e.1 = "CN".toList)) with
  | none => rw [hf] at h; cases h
  | some e =>
    rw [hf] at h; dsimp only at h
    cases hm : modifyLast draws e.2 with
    | error x => rw [hm] at h; cases h
    | ok v =>
      rw [hm] at h; cases h
      obtain ⟨v', c, d, h1, h2, h3, _⟩ := C248_modify_last hm
      have he : e.1 = "CN".toList := of_decide_eq_true (List.find?_some (p := fun e : List Char × List Char =>
        decide (e.1 = "CN".toList)) hf)
      obtain ⟨pre, post, hs⟩ := List.append_of_mem (List.mem_of_find?_eq_some hf)
      refine ⟨pre, post, v', c, d, ?_, h3, ?_⟩
      · rw [hs, ← he, ← h1]
      · rw [nameText_eq]
        congr 1
        unfold dictSet
        rw [if_pos (List.any_eq_true.2 ⟨e, List.mem_of_find?_eq_some hf, decide_eq_true he⟩), hs]
        rw [hs, List.map_append, List.map_cons, he] at hn
        obtain ⟨_, hn2, hn3⟩ := List.nodup_append.1 hn
        have hpre : pre.map (fun x => if x.1 = "CN".toList then ("CN".toList, v) else x) = pre := by
          conv => rhs; rw [← List.map_id pre]
          apply List.map_congr_left
          intro x hx
          rw [if_neg]; rfl
          intro hc
          exact hn3 x.1 (List.mem_map.2 ⟨x, hx, rfl⟩) _ (List.mem_cons_self ..) hc
        have hpost : post.map (fun x => if x.1 = "CN".toList then ("CN".toList, v) else x) = post := by
          conv => rhs; rw [← List.map_id post]
          apply List.map_congr_left
          intro x hx
          rw [if_neg]; rfl
          intro hc
          exact (List.nodup_cons.1 hn2).1 (hc ▸ List.mem_map.2 ⟨x, hx, rfl⟩)
        rw [List.map_append, List.map_cons, hpre, hpost, if_pos he, ← h2]

/-- **C248.** Of two attributes of the same type the first is lost: with `OU=a,OU=b,CN=x` only `OU=b` is left. -/
theorem C248_modify_cn_refuted :
    modifyCn ['y'] [("OU".toList, "a".toList), ("OU".toList, "b".toList), ("CN".toList, "x".toList)] =
      .ok "OU=b,CN=y".toList := by decide +kernel

/-- **C248.** A name without a common name cannot be changed: a `KeyError`, not the `ValueError` that is documented. -/
theorem C248_modify_cn_missing (draws : List Char) (attrs : List (List Char × List Char)) (hne : attrs ≠ [])
    (hn : (attrs.map (·.1)).Nodup) (hc : "CN".toList ∉ attrs.map (·.1)) : modifyCn draws attrs = .error .keyError := by
  have hd : nameDict attrs = attrs := by
    have := nameDict_nodup attrs [] (by simpa using hn)
    exact this.trans (by simp)
  unfold modifyCn
  dsimp only
  rw [hd, if_neg hne, List.find?_eq_none.2]
  intro x hx he
  exact hc (List.mem_map.2 ⟨x, hx, of_decide_eq_true he⟩)

/-! ## Examples -/

/-- An example environment. -/
def exGenEnv : GenEnv Nat Nat Nat Nat where
  c := exCsr
  ski := fun k => .ok [UInt8.ofNat k, 7]
  newKey := fun s => .ok s.length
  canSign := fun p => decide (p < 30)
  flip := fun b => 255 :: b.tail
  encTbs := fun t => [UInt8.ofNat t.subject.rdns.length, UInt8.ofNat (t.exts.getD []).length] ++ t.spki.bits
  rand16 := [9, 9]
  randSerial := 77
  validity := fun d => d.toNat
  toInt := fun s => if s = "0" then .ok 0 else if s = "3" then .ok 3 else .error .valueError

/-- The certificate of a root. -/
def exRoot : GCert Nat Nat :=
  { tbs := ⟨1, ⟨0, [[1]]⟩, ⟨0, [[1]]⟩, 5, ⟨⟨[1, 5], none⟩, [5]⟩, none, none⟩ }

/-- The certificate of an intermediate CA. -/
def exMid : GCert Nat Nat :=
  { tbs := ⟨2, ⟨0, [[1]]⟩, ⟨0, [[2]]⟩, 5, ⟨⟨[1, 6], none⟩, [6]⟩, none, none⟩ }

/-- **C248.** With the certificate of the CA and without its key the certificate names the CA as its issuer, but is signed
with its own key. -/
theorem C248_issuer_refuted : ∃ c k, buildCert exGenEnv { key := some (.inr 6), caCert := some exRoot } = .ok (c, k) ∧
    c.tbs.issuer = exRoot.tbs.subject ∧ exGenEnv.c.loadKey exRoot.tbs.spki = .ok 5 ∧ ¬ Verifies exGenEnv c 5 := by
  have h : buildCert exGenEnv { key := some (.inr 6), caCert := some exRoot } =
      .ok ({ tbs := ⟨77, ⟨0, [[1]]⟩, ⟨0, [[7]]⟩, 365, ⟨⟨[1, 6], some [7]⟩, [6]⟩, none, some ⟨[4, 6], none⟩⟩,
             alg := some ⟨[4, 6], none⟩, sig := some [6, 1, 0, 6] }, 6) := by rfl
  refine ⟨_, _, h, rfl, rfl, ?_⟩
  rintro ⟨g, s, h1, _, h3, h4⟩
  cases h1
  cases h3
  exact absurd h4 (by decide +kernel)

/-- Arguments for a certificate with extensions. -/
def exBuild : BuildArgs Nat Nat Nat where
  key := some (.inr 6)
  caCert := some exRoot
  caKey := some 5
  usage := some "digitalSignature, keyAgreement"
  includeSki := true
  eku := some "cmcRA"
  isCa := some true
  path := some (.inr "3")
  serial := some (.inl 12)

example : (buildCert exGenEnv exBuild).toOption.map
    (fun x => (x.1.tbs.serial, x.1.tbs.issuer, (x.1.tbs.exts.getD []).map (·.val), x.1.sig)) =
    some (12, ⟨0, [[1]]⟩, [.usage [true, false, false, false, true, false, false, false, false],
      .eku [[1, 3, 6, 1, 5, 5, 7, 3, 28]], .ski [6, 7], .basic ⟨true, some 3⟩], some [5, 1, 4, 6]) := by decide +kernel

example : CsrAgree exGenEnv.c 5 := exCsr_agree

/-- Arguments for extensions. -/
def exExtArgs : ExtArgs Nat Nat Nat Nat where
  usage := some "keyCertSign"
  invalid := true
  critical := false
  caKey := some (.inl 6)
  san := some "a,b"

example : (prepExts exGenEnv exExtArgs).toOption.map (fun l => l.map (fun e => (e.oid, e.critical))) =
    some [([2, 5, 29, 15], false), ([2, 5, 29, 17], false), ([1, 2, 840, 113549, 1, 1, 1], true), ([2, 5, 29, 35], false)] := by
  decide +kernel

example : (prepUsage exGenEnv "digitalSignatur" true).toOption = none ∧ (prepUsage exGenEnv "" true).toOption ≠ none := by
  decide +kernel

/-- Arguments for an authority key identifier. -/
def exAkiArgs : AkiArgs Nat Nat Nat where
  caKey := .inl 6
  caCert := some exMid
  incIssuer := true
  incSerial := true
  incrSerial := true
  invalid := true
  trail := true

example : (prepAki exGenEnv exAkiArgs).toOption =
    some ⟨[2, 5, 29, 35], true, .aki ⟨[255, 7], [.dir ⟨0, [[2]]⟩], some 3⟩, [9, 9]⟩ := by decide +kernel

example : (prepAki exGenEnv { caKey := .inl 6, incSerial := true }).toOption = none ∧
    (prepAki exGenEnv { caKey := .inl 6, incIssuer := true }).toOption = none ∧
    (prepAki exGenEnv { caKey := .inl 6, caName := some "CN=x", genNames := some [.dns ['a']] }).toOption.map (·.val) =
      some (.aki ⟨[6, 7], [.dir ⟨0, [[4]]⟩, .dns ['a']], none⟩) := by decide +kernel

example : (prepSki exGenEnv (.inl 6) true).toOption.bind (fun e => (compareSki exGenEnv [e] (.inr 6)).toOption) = some true ∧
    (prepSki exGenEnv (.inl 6) true true).toOption.bind (fun e => (compareSki exGenEnv [e] (.inr 6)).toOption) = some false ∧
    (prepSki exGenEnv (.inl 6) true).toOption.bind (fun e => (compareSki exGenEnv [e] (.inr 5)).toOption) = some false := by
  decide +kernel

example : modifyCn ['x', 'y'] [("O".toList, "a".toList), ("CN".toList, "x".toList)] = .ok "O=a,CN=y".toList ∧
    modifyCn ['x'] [("O".toList, "a".toList)] = .error .keyError ∧ modifyCn ['x'] [] = .error .valueError := by
  decide +kernel

example : modifyExts exGenEnv { exRoot with tbs := { exRoot.tbs with exts := some [invalidExt exGenEnv [1]] } } none
    (some [1]) true = [⟨[1, 2, 840, 113549, 1, 1, 1], true, .raw [1], []⟩, ⟨[1], true, .raw [9, 9], []⟩] := by decide +kernel

example : (buildCert exGenEnv { key := some (.inr 30) }).toOption = none ∧
    (signCert exGenEnv exRoot 5 none false false false).toOption = none ∧
    (signCert exGenEnv { exRoot with tbs := { exRoot.tbs with alg := some ⟨[4, 6], none⟩ } } 5 none false false false).toOption.map
      (fun c => (c.alg, c.sig)) = some (none, some [5, 1, 0, 5]) := by decide +kernel

end Verif.Ra.CertGen
