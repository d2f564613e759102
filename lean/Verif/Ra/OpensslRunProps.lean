import Verif.Ra.OpensslRun
import Mathlib.Data.List.Forall2

/-!
# What the checks by `openssl` establish (C252)

The specification reads the command line the way the program does (`readArgs`), opens the files that it names, and puts the
question to an arbitrary verdict `v`. The theorems say which question is put.
-/

namespace Verif.Ra.Ssl

open Verif.CA (PyErr)

variable {C D : Type}

/-! ## Specification -/

/-- The options of `openssl verify`. -/
structure Args where
  caFile : Option String := none
  untrusted : Option String := none
  crlFile : Option String := none
  target : Option String := none
  crlCheck : Bool := false
  crlCheckAll : Bool := false
  noCaPath : Bool := false

/-- Reads the options from left to right. -/
def readArgs : List String → Args → Args
  | "-CAfile" :: f :: r, a => readArgs r { a with caFile := some f }
  | "-untrusted" :: f :: r, a => readArgs r { a with untrusted := some f }
  | "-CRLfile" :: f :: r, a => readArgs r { a with crlFile := some f }
  | "-crl_check" :: r, a => readArgs r { a with crlCheck := true }
  | "-crl_check_all" :: r, a => readArgs r { a with crlCheckAll := true }
  | "-no-CApath" :: r, a => readArgs r { a with noCaPath := true }
  | "-verbose" :: r, a => readArgs r a
  | f :: r, a => readArgs r { a with target := some f }
  | [], a => a

/-- The question: is the target authentic, given the anchors, the helpers and the CRLs? -/
structure Question (C D : Type) where
  anchors : List C
  untrusted : List C
  target : List C
  crls : Option (List D)
  crlCheck : Bool
  crlCheckAll : Bool
  /-- the directory of the system's own trust anchors is *not* consulted -/
  systemStoreOff : Bool
deriving DecidableEq, Repr

def asCerts : Option (Content C D) → Option (List C)
  | some (.certs l) => some l
  | _ => none

def asCrls : Option (Content C D) → Option (List D)
  | some (.crls l) => some l
  | _ => none

/-- An optional file: absent, or readable. -/
def optFile {α : Type} (read : String → Option α) : Option String → Option (Option α)
  | none => some none
  | some p => (read p).map some

/-- `openssl verify` as a program that reads its command line and its files. -/
def verifyProgram (v : Option Nat → Question C D → Run) (t : Option Nat) (fs : Fs C D) (cmd : List String) : Run :=
  let a := readArgs (cmd.drop 2) {}
  match optFile (fun p => asCerts (fs.file p)) a.caFile, optFile (fun p => asCerts (fs.file p)) a.untrusted,
      optFile (fun p => asCrls (fs.file p)) a.crlFile, optFile (fun p => asCerts (fs.file p)) a.target with
  | some ca, some un, some cr, some (some tg) =>
    v t ⟨ca.getD [], un.getD [], tg, cr, a.crlCheck, a.crlCheckAll, a.noCaPath⟩
  | _, _, _, _ => .exited 1 "" "cannot open file"

/-- The environment whose program is that one. -/
def Env.Runs (env : Env C D) (v : Option Nat → Question C D → Run) : Prop := env.openssl = verifyProgram v

/-- What a run says. -/
def Accepted (r : Run) : Prop := ∃ out err, r = .exited 0 out err

/-! ## Proofs -/

theorem judged_ok (r : Run) : judged r = .ok () ↔ Accepted r := by
  unfold judged Accepted
  split
  · exact ⟨fun _ => ⟨_, _, rfl⟩, fun _ => rfl⟩
  · rename_i h
    exact ⟨fun x => (nomatch x), fun ⟨o, e, x⟩ => absurd x (h o e)⟩

theorem judged_error (r : Run) (h : ¬ Accepted r) : judged r = .error .signerNotTrusted := by
  unfold judged
  split
  · exact absurd ⟨_, _, rfl⟩ h
  · rfl

/-- The files and arguments that the two helpers prepare, for every chain. -/
theorem chain_files (env : Env C D) (fs : Fs C D) (cmd : List String) (a : C) (rest : List C) (t : Nat) :
    ∃ fs' cmds, verifyChainCmd env fs cmd (a :: rest) t = (judged (env.openssl (some t) fs' (cmd ++ cmds)), cleanup fs')
      ∧ fs'.file anchorPath = some (.certs [(a :: rest).getLast (by simp)])
      ∧ fs'.file eePath = some (.certs [a])
      ∧ (rest.length ≤ 1 ∧ cmds = ["-CAfile", anchorPath, eePath] ∨
          2 ≤ rest.length ∧ cmds = ["-CAfile", anchorPath, "-untrusted", interPath, eePath]
            ∧ fs'.file interPath = some (.certs rest.dropLast))
      ∧ (∀ p, p ≠ anchorPath → p ≠ eePath → p ≠ interPath → fs'.file p = fs.file p)
      ∧ (∀ q, fs'.dir q = (decide (q = certDir) || fs.dir q)) := by
  have n1 : (anchorPath = eePath) = False := by decide +kernel
  have n2 : (interPath = eePath) = False := by decide +kernel
  have n3 : (anchorPath = interPath) = False := by decide +kernel
  have hd : ∀ q, (fs.mkdir certDir).dir q = (decide (q = certDir) || fs.dir q) := by
    intro q
    unfold Fs.mkdir
    dsimp only
    by_cases h : q = certDir <;> simp [h]
  match rest with
  | [] =>
    refine ⟨_, _, rfl, ?_, ?_, Or.inl ⟨by simp, rfl⟩, ?_, hd⟩
    · simp [Fs.write, n1]
    · simp [Fs.write]
    · intro p h1 h2 _; simp [Fs.write, h1, h2, Fs.mkdir]
  | [b] =>
    refine ⟨_, _, rfl, ?_, ?_, Or.inl ⟨by simp, rfl⟩, ?_, hd⟩
    · simp [Fs.write, n1]
    · simp [Fs.write]
    · intro p h1 h2 _; simp [Fs.write, h1, h2, Fs.mkdir]
  | [b, c] =>
    refine ⟨_, _, rfl, ?_, ?_, Or.inr ⟨by simp, rfl, ?_⟩, ?_, hd⟩
    · simp [Fs.write, n1, n3]
    · simp [Fs.write]
    · simp [Fs.write, n2]
    · intro p h1 h2 h3; simp [Fs.write, h1, h2, h3, Fs.mkdir]
  | b :: c :: d :: more =>
    refine ⟨(moreThanThree (fs.mkdir certDir) a (b :: c :: d :: more)).1, _, ?_, ?_, ?_, Or.inr ⟨by simp, rfl, ?_⟩,
      ?_, ?_⟩
    · unfold verifyChainCmd
      dsimp only
      rw [if_neg (by simp)]
      rfl
    · simp [moreThanThree, Fs.write, n1, n3, List.getLast?_eq_getLast]
    · simp [moreThanThree, Fs.write]
    · simp [moreThanThree, Fs.write, n2]
    · intro p h1 h2 h3; simp [moreThanThree, Fs.write, h1, h2, h3, Fs.mkdir]
    · intro q; exact hd q

/-- The options are read back as they were given. -/
theorem options_read (o : Opts) (tail : List String) :
    readArgs ((sslOptions o ++ tail).drop 2) {} =
      readArgs tail { crlFile := if o.crlCheck || o.crlCheckAll then some (o.crlPath.getD combinedPath) else none,
                      crlCheck := o.crlCheck, crlCheckAll := o.crlCheckAll,
                      noCaPath := !o.crlCheck && !o.crlCheckAll } := by
  unfold sslOptions
  cases o.crlCheck <;> cases o.crlCheckAll <;> cases o.verbose <;> simp [readArgs]

theorem read_short (a : Args) : readArgs ["-CAfile", anchorPath, eePath] a =
    { a with caFile := some anchorPath, target := some eePath } := by
  simp [readArgs, eePath]

theorem read_long (a : Args) : readArgs ["-CAfile", anchorPath, "-untrusted", interPath, eePath] a =
    { a with caFile := some anchorPath, untrusted := some interPath, target := some eePath } := by
  simp [readArgs, eePath]

/-- The question put for a chain, once the CRL file (if any) can be read. -/
theorem question_put {env : Env C D} {v : Option Nat → Question C D → Run} (hv : env.Runs v) (fs : Fs C D) (o : Opts)
    (a : C) (rest : List C) (t : Nat) (ht : o.timeout = some t) (crls : Option (List D))
    (hc : optFile (fun p => asCrls (fs.file p))
      (if o.crlCheck || o.crlCheckAll then some (o.crlPath.getD combinedPath) else none) = some crls)
    (hp : (o.crlCheck || o.crlCheckAll) = true → under certDir (o.crlPath.getD combinedPath) = false) :
    (runVerify env fs (a :: rest) o).1 =
      judged (v (some t) ⟨[(a :: rest).getLast (by simp)], rest.dropLast, [a], crls, o.crlCheck, o.crlCheckAll,
        !o.crlCheck && !o.crlCheckAll⟩) := by
  obtain ⟨fs', cmds, hrun, hA, hE, hI, hother, _⟩ := chain_files env fs (sslOptions o) a rest t
  have hc' : optFile (fun p => asCrls (fs'.file p))
      (if o.crlCheck || o.crlCheckAll then some (o.crlPath.getD combinedPath) else none) = some crls := by
    rw [← hc]
    cases hb : (o.crlCheck || o.crlCheckAll) with
    | false => rfl
    | true =>
      have hu := hp hb
      rw [if_pos rfl]
      unfold optFile
      dsimp only
      rw [hother]
      · intro h; rw [h] at hu; exact absurd hu (by decide +kernel)
      · intro h; rw [h] at hu; exact absurd hu (by decide +kernel)
      · intro h; rw [h] at hu; exact absurd hu (by decide +kernel)
  have r1 : runVerify env fs (a :: rest) o = verifyChainCmd env fs (sslOptions o) (a :: rest) t := by
    unfold runVerify; rw [ht]
  rw [r1, hrun]
  dsimp only
  rw [hv]
  congr 1
  unfold verifyProgram
  dsimp only
  rw [options_read]
  rcases hI with ⟨hl, hcm⟩ | ⟨hl, hcm, hif⟩
  · have hd : rest.dropLast = [] := by
      match rest, hl with
      | [], _ => rfl
      | [_], _ => rfl
    rw [hcm, read_short]
    dsimp only
    rw [hc', hd]
    simp [optFile, hA, hE, asCerts]
  · rw [hcm, read_long]
    dsimp only
    rw [hc']
    simp [optFile, hA, hE, hif, asCerts]

/-- C252: without a CRL check the program is asked about the first certificate, with the last certificate of the chain as
the only trust anchor, the certificates in between as helpers, and the system's store switched off. Acceptance is exactly
the program's acceptance; anything else is `SignerNotTrusted`. -/
theorem C252_chain_without_crls {env : Env C D} {v : Option Nat → Question C D → Run} (hv : env.Runs v) (fs : Fs C D)
    (o : Opts) (a : C) (rest : List C) (t : Nat) (ht : o.timeout = some t) (h1 : o.crlCheck = false)
    (h2 : o.crlCheckAll = false) :
    let q : Question C D := ⟨[(a :: rest).getLast (by simp)], rest.dropLast, [a], none, false, false, true⟩
    ((verifyChain env fs (a :: rest) o).1 = .ok () ↔ Accepted (v (some t) q)) ∧
      (¬ Accepted (v (some t) q) → (verifyChain env fs (a :: rest) o).1 = .error .signerNotTrusted) := by
  intro q
  have e : (verifyChain env fs (a :: rest) o).1 = judged (v (some t) q) := by
    unfold verifyChain
    dsimp only
    rw [if_neg (by rw [h1, h2]; decide)]
    rw [question_put hv (fs.mkdir otherDir) o a rest t ht none (by rw [h1, h2]; rfl) (by rw [h1, h2]; intro h; cases h)]
    rw [h1, h2]
    rfl
  rw [e]
  exact ⟨judged_ok _, judged_error _⟩

/-- C252: with a CRL file the same question is put, with the contents of that file; but the system's store is consulted. -/
theorem C252_chain_with_crl_file {env : Env C D} {v : Option Nat → Question C D → Run} (hv : env.Runs v) (fs : Fs C D)
    (o : Opts) (a : C) (rest : List C) (t : Nat) (ht : o.timeout = some t)
    (hb : o.crlCheck = true ∨ o.crlCheckAll = true) (p : String) (hp : o.crlPath = some p) (hu : under certDir p = false)
    (l : List D) (hf : fs.file p = some (.crls l)) :
    let q : Question C D :=
      ⟨[(a :: rest).getLast (by simp)], rest.dropLast, [a], some l, o.crlCheck, o.crlCheckAll, false⟩
    ((verifyChain env fs (a :: rest) o).1 = .ok () ↔ Accepted (v (some t) q)) ∧
      (¬ Accepted (v (some t) q) → (verifyChain env fs (a :: rest) o).1 = .error .signerNotTrusted) := by
  intro q
  have hb' : (o.crlCheck || o.crlCheckAll) = true := by rcases hb with h | h <;> simp [h]
  have e : (verifyChain env fs (a :: rest) o).1 = judged (v (some t) q) := by
    unfold verifyChain
    dsimp only
    rw [if_pos hb', hp]
    have hpc : prepareCrls env (fs.mkdir otherDir) (a :: rest) (some p) o.crlCheckAll = (.ok (), fs.mkdir otherDir) := by
      unfold prepareCrls
      dsimp only
      have : ((fs.mkdir otherDir).file p).isSome = true := by show (fs.file p).isSome = true; rw [hf]; rfl
      rw [if_pos this]
    rw [hpc]
    dsimp only
    rw [question_put hv (fs.mkdir otherDir) o a rest t ht (some l)
      (by rw [if_pos hb', hp]; show Option.map some (asCrls (fs.file p)) = _; rw [hf]; rfl)
      (by intro _; rw [hp]; exact hu)]
    have : (!o.crlCheck && !o.crlCheckAll) = false := by rcases hb with h | h <;> simp [h]
    rw [this]
  rw [e]
  exact ⟨judged_ok _, judged_error _⟩

/-- A CRL file that does not exist is refused before anything is run. -/
theorem C252_missing_crl_file (env : Env C D) (fs : Fs C D) (chain : List C) (o : Opts)
    (hb : o.crlCheck = true ∨ o.crlCheckAll = true) (p : String) (hp : o.crlPath = some p) (hf : fs.file p = none) :
    (verifyChain env fs chain o).1 = .error .valueError := by
  have hb' : (o.crlCheck || o.crlCheckAll) = true := by rcases hb with h | h <;> simp [h]
  unfold verifyChain
  dsimp only
  rw [if_pos hb', hp]
  unfold prepareCrls
  dsimp only
  rw [if_neg (by show ¬ (fs.file p).isSome = true; rw [hf]; simp)]

/-! ### Fetched CRLs -/

/-- The addresses that a chain names: those of the first certificate, or, when all are to be checked, those of all
certificates, where only the last may have none. -/
def Names (env : Env C D) (all : Bool) (a : C) (rest : List C) (urls : List String) : Prop :=
  urls ≠ [] ∧
    ((all = false ∧ env.crlUrls a = .ok urls) ∨
     (all = true ∧ ∃ per : List (List String), List.Forall₂ (fun c u => env.crlUrls c = .ok u) (a :: rest) per ∧
        (∀ u ∈ per.dropLast, u ≠ []) ∧ urls = per.flatten))

/-- What an address yields: a CRL in PEM form, converted if it came in DER form. -/
def Yields (env : Env C D) (url : String) (p : D) : Prop :=
  ∃ d, env.fetch url = some d ∧ (env.derToPem d = some p ∨ env.derToPem d = none ∧ env.isPem d = true ∧ p = d)

/-- PEM is not DER, and the conversion produces PEM. -/
def Env.Formats (env : Env C D) : Prop :=
  (∀ d p, env.derToPem d = some p → env.derToPem p = none ∧ env.isPem p = true)

theorem fetchOne_iff (env : Env C D) (url : String) (p : D) : fetchOne env url = some p ↔ Yields env url p := by
  unfold fetchOne Yields
  cases hf : env.fetch url with
  | none => exact ⟨fun h => (nomatch h), fun ⟨_, h, _⟩ => (nomatch h)⟩
  | some d =>
    dsimp only
    unfold ensurePem
    constructor
    · intro h
      refine ⟨d, rfl, ?_⟩
      cases hd : env.derToPem d with
      | some x =>
        rw [hd] at h
        exact Or.inl (by cases h; rfl)
      | none =>
        rw [hd] at h
        dsimp only at h
        by_cases hb : env.isPem d = true
        · rw [if_pos hb] at h
          exact Or.inr ⟨rfl, hb, by cases h; rfl⟩
        · rw [if_neg hb] at h; cases h
    · rintro ⟨d', h, hh⟩
      cases h
      rcases hh with hh | ⟨h1, h2, h3⟩
      · rw [hh]; rfl
      · rw [h1]; dsimp only; rw [if_pos h2, h3]; rfl

theorem yields_pem {env : Env C D} (hF : env.Formats) {url : String} {p : D} (h : Yields env url p) :
    ensurePem env p = .ok p := by
  obtain ⟨d, _, h | ⟨h1, h2, h3⟩⟩ := h
  · obtain ⟨x, y⟩ := hF d p h
    unfold ensurePem
    rw [x]; dsimp only; rw [if_pos y]
  · unfold ensurePem
    rw [h3, h1]; dsimp only; rw [if_pos h2]

theorem concat_id (env : Env C D) : ∀ l : List D, (∀ d ∈ l, ensurePem env d = .ok d) → concatCrls env l = .ok l
  | [], _ => rfl
  | d :: rest, h => by
    unfold concatCrls
    rw [h d (by simp)]
    dsimp only
    rw [concat_id env rest (fun x hx => h x (by simp [hx]))]

theorem downloads_eq (env : Env C D) (urls : List String) :
    downloads env urls = (List.replicate (urls.eraseDups.filter isHttp).length (urls.filterMap (fetchOne env))).flatten := by
  unfold downloads fetchCrls
  rw [List.map_const']

theorem collect_one (env : Env C D) (all : Bool) (a : C) : collectUrls env all [a] = env.crlUrls a := by
  unfold collectUrls
  cases h : env.crlUrls a with
  | error e => rfl
  | ok u =>
    dsimp only
    rw [if_neg (by simp)]
    simp [collectUrls]

theorem collect_all (env : Env C D) : ∀ (l : List C) (urls : List String), collectUrls env true l = .ok urls ↔
    ∃ per : List (List String), List.Forall₂ (fun c u => env.crlUrls c = .ok u) l per ∧ (∀ u ∈ per.dropLast, u ≠ []) ∧
      urls = per.flatten
  | [], urls => by
    constructor
    · intro h; cases h; exact ⟨[], .nil, by simp, rfl⟩
    · rintro ⟨per, h, _, hu⟩
      cases h
      rw [hu]; rfl
  | c :: rest, urls => by
    have ih := collect_all env rest
    unfold collectUrls
    cases hc : env.crlUrls c with
    | error e =>
      refine ⟨fun h => (nomatch h), ?_⟩
      rintro ⟨per, h, _, _⟩
      cases h with
      | cons h1 _ => rw [hc] at h1; cases h1
    | ok u =>
      dsimp only
      constructor
      · intro h
        by_cases hb : (u.isEmpty && true && !rest.isEmpty) = true
        · rw [if_pos hb] at h; cases h
        · rw [if_neg hb] at h
          cases hm : collectUrls env true rest with
          | error e => rw [hm] at h; cases h
          | ok more =>
            rw [hm] at h
            obtain ⟨per, hp1, hp2, hp3⟩ := (ih more).mp hm
            refine ⟨u :: per, .cons hc hp1, ?_, ?_⟩
            · intro x hx
              cases per with
              | nil => simp at hx
              | cons y ys =>
                rw [List.dropLast_cons_of_ne_nil (by simp)] at hx
                rcases List.mem_cons.mp hx with rfl | hx
                · cases hp1 with
                  | cons _ _ =>
                    rintro rfl
                    exact hb (by simp)
                · exact hp2 x hx
            · cases h; rw [hp3]; rfl
      · rintro ⟨per, hp, hne, hu⟩
        cases hp with
        | cons h1 h2 =>
          rename_i u' per'
          rw [hc] at h1
          cases h1
          have hb : ¬ (u.isEmpty && true && !rest.isEmpty) = true := by
            intro hb
            cases h2 with
            | nil => simp at hb
            | cons _ _ =>
              have := hne u (by simp)
              simp at hb
              exact this hb
          rw [if_neg hb]
          have hm : collectUrls env true rest = .ok per'.flatten := by
            refine (ih _).mpr ⟨per', h2, ?_, rfl⟩
            intro x hx
            apply hne
            cases per' with
            | nil => simp at hx
            | cons y ys => rw [List.dropLast_cons_of_ne_nil (by simp)]; exact List.mem_cons_of_mem _ hx
          rw [hm, hu]
          rfl

theorem names_iff (env : Env C D) (all : Bool) (a : C) (rest : List C) (urls : List String) :
    crlsFromCerts env (a :: rest) none all = .ok urls ↔ Names env all a rest urls := by
  have key : ∀ l : List C, (match collectUrls env all l with
      | .error e => (.error e : Except PyErr (List String))
      | .ok [] => .error .valueError
      | .ok urls => .ok urls) = .ok urls ↔ urls ≠ [] ∧ collectUrls env all l = .ok urls := by
    intro l
    cases collectUrls env all l with
    | error e => exact ⟨fun h => (nomatch h), fun h => (nomatch h.2)⟩
    | ok u =>
      cases u with
      | nil =>
        refine ⟨fun h => (nomatch h), ?_⟩
        rintro ⟨h, h2⟩
        cases h2
        exact absurd rfl h
      | cons x xs =>
        refine ⟨?_, fun h => h.2⟩
        intro h
        cases h
        exact ⟨by simp, rfl⟩
  unfold Names
  cases all with
  | true =>
    have := key (a :: rest)
    unfold crlsFromCerts
    dsimp only
    rw [if_pos rfl]
    refine this.trans ?_
    rw [collect_all]
    constructor
    · rintro ⟨h1, h2⟩; exact ⟨h1, Or.inr ⟨rfl, h2⟩⟩
    · rintro ⟨h1, h2 | ⟨_, h2⟩⟩
      · cases h2.1
      · exact ⟨h1, h2⟩
  | false =>
    have := key [a]
    unfold crlsFromCerts
    dsimp only
    rw [if_neg (by decide)]
    refine this.trans ?_
    rw [collect_one]
    constructor
    · rintro ⟨h1, h2⟩; exact ⟨h1, Or.inl ⟨rfl, h2⟩⟩
    · rintro ⟨h1, ⟨_, h2⟩ | h2⟩
      · exact ⟨h1, h2⟩
      · cases h2.1

/-- The CRLs that addresses yield, in order; an address that yields nothing is passed over. -/
inductive Got (env : Env C D) : List String → List D → Prop
  | nil : Got env [] []
  | hit {u us p l} : Yields env u p → Got env us l → Got env (u :: us) (p :: l)
  | miss {u us l} : (¬ ∃ p, Yields env u p) → Got env us l → Got env (u :: us) l

theorem got_iff (env : Env C D) : ∀ (us : List String) (l : List D), Got env us l ↔ l = us.filterMap (fetchOne env)
  | [], l => by
    constructor
    · intro h; cases h; rfl
    · rintro rfl; exact .nil
  | u :: us, l => by
    have ih := got_iff env us
    cases hf : fetchOne env u with
    | none =>
      have hno : ¬ ∃ p, Yields env u p := by
        rintro ⟨p, hp⟩
        rw [← fetchOne_iff, hf] at hp
        cases hp
      rw [List.filterMap_cons_none hf]
      constructor
      · intro h
        cases h with
        | hit hy _ => exact absurd ⟨_, hy⟩ hno
        | miss _ hg => exact (ih l).mp hg
      · intro h; exact .miss hno ((ih l).mpr h)
    | some p =>
      have hy := (fetchOne_iff env u p).mp hf
      rw [List.filterMap_cons_some hf]
      constructor
      · intro h
        cases h with
        | hit hy' hg =>
          rw [← fetchOne_iff, hf] at hy'
          cases hy'
          rw [(ih _).mp hg]
        | miss hno _ => exact absurd ⟨_, hy⟩ hno
      · rintro rfl; exact .hit hy ((ih _).mpr rfl)

/-- What has to be there for the program to be asked with fetched CRLs: the CRLs that the named addresses yield, those that
yield nothing left out, the whole list once for every HTTP address. -/
def Fetched (env : Env C D) (urls : List String) (l : List D) : Prop :=
  ∃ (got : List D) (k : Nat), Got env urls got ∧ k = (urls.eraseDups.filter isHttp).length ∧
    l = (List.replicate k got).flatten ∧ l ≠ []

theorem prepare_iff {env : Env C D} (hF : env.Formats) (fs : Fs C D) (a : C) (rest : List C) (all : Bool) (fs' : Fs C D) :
    prepareCrls env fs (a :: rest) none all = (.ok (), fs') ↔
      ∃ urls l, Names env all a rest urls ∧ Fetched env urls l ∧
        fs' = (fs.mkdir crlDir).write combinedPath (.crls l) := by
  unfold prepareCrls
  dsimp only
  have hid : ∀ urls, concatCrls env (downloads env urls) = .ok (downloads env urls) := by
    intro urls
    apply concat_id
    intro d hd
    rw [downloads_eq, List.mem_flatten] at hd
    obtain ⟨l, hl, hd⟩ := hd
    rw [(List.mem_replicate.mp hl).2, List.mem_filterMap] at hd
    obtain ⟨u, _, hu⟩ := hd
    exact yields_pem hF ((fetchOne_iff env u d).mp hu)
  cases hn : crlsFromCerts env (a :: rest) none all with
  | error e =>
    refine ⟨fun h => (nomatch h), ?_⟩
    rintro ⟨urls, l, h, _⟩
    rw [← names_iff, hn] at h
    cases h
  | ok urls =>
    dsimp only
    have hnames := (names_iff env all a rest urls).mp hn
    have hidu := hid urls
    cases hd : downloads env urls with
    | nil =>
      dsimp only
      refine ⟨fun h => (nomatch h), ?_⟩
      rintro ⟨urls', l, h, ⟨got, k, h1, h2, h3, h4⟩, _⟩
      rw [← names_iff, hn] at h
      cases h
      rw [downloads_eq, ← (got_iff env urls got).mp h1, ← h2, ← h3] at hd
      exact absurd hd h4
    | cons d ds =>
      rw [hd] at hidu
      dsimp only
      rw [hidu]
      dsimp only
      constructor
      · intro h
        refine ⟨urls, d :: ds, hnames, ⟨_, _, (got_iff env urls _).mpr rfl, rfl, ?_, by simp⟩, (Prod.mk.inj h).2.symm⟩
        rw [← downloads_eq, hd]
      · rintro ⟨urls', l, h, ⟨got, k, h1, h2, h3, _⟩, h5⟩
        rw [← names_iff, hn] at h
        cases h
        rw [h5, h3, (got_iff env urls got).mp h1, h2, ← downloads_eq, hd]

/-- C252: with a CRL check and no CRL file, acceptance means exactly: the chain names addresses (`Names`), at least one CRL
could be fetched, and the program accepts the chain with these CRLs. -/
theorem C252_chain_with_fetched_crls {env : Env C D} {v : Option Nat → Question C D → Run} (hv : env.Runs v)
    (hF : env.Formats) (fs : Fs C D) (o : Opts) (a : C) (rest : List C) (t : Nat) (ht : o.timeout = some t)
    (hb : o.crlCheck = true ∨ o.crlCheckAll = true) (hp : o.crlPath = none) :
    (verifyChain env fs (a :: rest) o).1 = .ok () ↔
      ∃ urls l, Names env o.crlCheckAll a rest urls ∧ Fetched env urls l ∧
        Accepted (v (some t)
          ⟨[(a :: rest).getLast (by simp)], rest.dropLast, [a], some l, o.crlCheck, o.crlCheckAll, false⟩) := by
  have hb' : (o.crlCheck || o.crlCheckAll) = true := by rcases hb with h | h <;> simp [h]
  have hno : (!o.crlCheck && !o.crlCheckAll) = false := by rcases hb with h | h <;> simp [h]
  have run : ∀ (g : Fs C D) (l : List D), (runVerify env ((g.mkdir crlDir).write combinedPath (.crls l)) (a :: rest) o).1 =
      judged (v (some t)
        ⟨[(a :: rest).getLast (by simp)], rest.dropLast, [a], some l, o.crlCheck, o.crlCheckAll, false⟩) := by
    intro g l
    rw [question_put hv _ o a rest t ht (some l)
      (by rw [if_pos hb', hp]; simp [optFile, Fs.write, asCrls])
      (by intro _; rw [hp]; decide +kernel), hno]
  unfold verifyChain
  dsimp only
  rw [if_pos hb', hp]
  cases hpc : prepareCrls env (fs.mkdir otherDir) (a :: rest) none o.crlCheckAll with
  | mk r fs' =>
    cases r with
    | error e =>
      dsimp only
      refine ⟨fun h => (nomatch h), ?_⟩
      rintro ⟨urls, l, h1, h2, _⟩
      have := (prepare_iff hF (fs.mkdir otherDir) a rest o.crlCheckAll _).mpr ⟨urls, l, h1, h2, rfl⟩
      rw [hpc] at this
      cases this
    | ok u =>
      obtain ⟨urls, l, h1, h2, h3⟩ := (prepare_iff hF (fs.mkdir otherDir) a rest o.crlCheckAll fs').mp hpc
      dsimp only
      rw [h3, run, judged_ok]
      constructor
      · intro h; exact ⟨urls, l, h1, h2, h⟩
      · rintro ⟨urls', l', h1', h2', h⟩
        have := (prepare_iff hF (fs.mkdir otherDir) a rest o.crlCheckAll _).mpr ⟨urls', l', h1', h2', rfl⟩
        rw [hpc] at this
        have e := (Prod.mk.inj this).2
        rw [h3] at e
        have e2 := congrArg (fun f => asCrls (f.file combinedPath)) e
        simp [Fs.write, asCrls] at e2
        rw [e2]
        exact h

/-! ### What is left behind -/

theorem cleanup_file (fs : Fs C D) (p : String) :
    (cleanup fs).file p = if under certDir p = true ∨ (fs.dir crlDir = true ∧ under crlDir p = true) then none
      else fs.file p := by
  unfold cleanup
  by_cases h : fs.dir crlDir = true
  · rw [if_pos h]
    unfold Fs.rmtree
    dsimp only
    by_cases h1 : under certDir p = true
    · simp [h1]
    · by_cases h2 : under crlDir p = true <;> simp [h1, h2, h]
  · rw [if_neg h]
    unfold Fs.rmtree
    dsimp only
    by_cases h1 : under certDir p = true
    · simp [h1]
    · simp [h1, h]

theorem cleanup_other (fs : Fs C D) : (cleanup fs).dir otherDir = fs.dir otherDir ∧ (cleanup fs).dir certDir = false := by
  have e1 : under certDir otherDir = false := by decide +kernel
  have e2 : under crlDir otherDir = false := by decide +kernel
  have n1 : (otherDir = certDir) = False := by decide +kernel
  have n2 : (otherDir = crlDir) = False := by decide +kernel
  unfold cleanup
  by_cases h : fs.dir crlDir = true
  · rw [if_pos h]
    constructor
    · simp [Fs.rmtree, e1, e2, n1, n2]
    · simp [Fs.rmtree]
  · rw [if_neg h]
    constructor
    · simp [Fs.rmtree, e1, n1]
    · simp [Fs.rmtree]

theorem run_fs (env : Env C D) (fs : Fs C D) (a : C) (rest : List C) (o : Opts) (t : Nat) (ht : o.timeout = some t) :
    (∀ p, (runVerify env fs (a :: rest) o).2.file p =
      if under certDir p = true ∨ (fs.dir crlDir = true ∧ under crlDir p = true) then none else fs.file p) ∧
    (runVerify env fs (a :: rest) o).2.dir otherDir = fs.dir otherDir ∧
    (runVerify env fs (a :: rest) o).2.dir certDir = false := by
  obtain ⟨fs', cmds, hrun, _, _, _, hother, hdir⟩ := chain_files env fs (sslOptions o) a rest t
  have r1 : runVerify env fs (a :: rest) o = verifyChainCmd env fs (sslOptions o) (a :: rest) t := by
    unfold runVerify; rw [ht]
  rw [r1, hrun]
  have hc : fs'.dir crlDir = fs.dir crlDir := by
    rw [hdir]
    have : decide (crlDir = certDir) = false := by decide +kernel
    rw [this]; rfl
  have ho : fs'.dir otherDir = fs.dir otherDir := by
    rw [hdir]
    have : decide (otherDir = certDir) = false := by decide +kernel
    rw [this]; rfl
  refine ⟨?_, ?_, ?_⟩
  · intro p
    show (cleanup fs').file p = _
    rw [cleanup_file, hc]
    by_cases hu : under certDir p = true ∨ (fs.dir crlDir = true ∧ under crlDir p = true)
    · rw [if_pos hu, if_pos hu]
    · rw [if_neg hu, if_neg hu]
      have hn : under certDir p ≠ true := fun h => hu (Or.inl h)
      apply hother
      · rintro rfl; exact hn (by decide +kernel)
      · rintro rfl; exact hn (by decide +kernel)
      · rintro rfl; exact hn (by decide +kernel)
  · show (cleanup fs').dir otherDir = _
    rw [(cleanup_other fs').1, ho]
  · exact (cleanup_other fs').2

/-- C252: once a chain has been accepted, no certificate file of the check is left, no other file has been changed except
that the CRL directory is emptied if it was there; the directory that was made first stays. -/
theorem C252_tidy_after_success (env : Env C D) (fs : Fs C D) (a : C) (rest : List C) (o : Opts)
    (h : (verifyChain env fs (a :: rest) o).1 = .ok ()) :
    let fs' := (verifyChain env fs (a :: rest) o).2
    (∀ p, under certDir p = true → fs'.file p = none) ∧
    (∀ p, under certDir p = false → under crlDir p = false → fs'.file p = fs.file p) ∧
    (∀ p, under certDir p = false → under crlDir p = true → fs'.file p =
      if fs.dir crlDir = true ∨ ((o.crlCheck || o.crlCheckAll) = true ∧ o.crlPath = none) then none else fs.file p) ∧
    fs'.dir certDir = false ∧ fs'.dir otherDir = true := by
  have hcr : decide (crlDir = otherDir) = false := by decide +kernel
  have hcr' : (crlDir = otherDir) = False := by decide +kernel
  have hor' : (otherDir = crlDir) = False := by decide +kernel
  have hcomb : under crlDir combinedPath = true := by decide +kernel
  cases ht : o.timeout with
  | none =>
    exfalso
    have hr : ∀ g, (runVerify env g (a :: rest) o).1 = .error .valueError := by
      intro g; unfold runVerify; rw [ht]
    unfold verifyChain at h
    dsimp only at h
    by_cases hb : (o.crlCheck || o.crlCheckAll) = true
    · rw [if_pos hb] at h
      cases hp : prepareCrls env (fs.mkdir otherDir) (a :: rest) o.crlPath o.crlCheckAll with
      | mk r g =>
        rw [hp] at h
        cases r with
        | error e => cases h
        | ok u => dsimp only at h; rw [hr] at h; cases h
    · rw [if_neg hb, hr] at h; cases h
  | some t =>
    have base : ∀ g : Fs C D, (∀ p, under crlDir p = false → g.file p = fs.file p) → g.dir otherDir = true →
        (∀ p, under crlDir p = true → g.dir crlDir = true ∨ g.file p = fs.file p) →
        (g.dir crlDir = true ↔ fs.dir crlDir = true ∨ ((o.crlCheck || o.crlCheckAll) = true ∧ o.crlPath = none)) →
        let fs' := (runVerify env g (a :: rest) o).2
        (∀ p, under certDir p = true → fs'.file p = none) ∧
        (∀ p, under certDir p = false → under crlDir p = false → fs'.file p = fs.file p) ∧
        (∀ p, under certDir p = false → under crlDir p = true → fs'.file p =
          if fs.dir crlDir = true ∨ ((o.crlCheck || o.crlCheckAll) = true ∧ o.crlPath = none) then none else fs.file p) ∧
        fs'.dir certDir = false ∧ fs'.dir otherDir = true := by
      intro g h1 h2 h3 h4
      obtain ⟨hf, ho, hcd⟩ := run_fs env g a rest o t ht
      refine ⟨?_, ?_, ?_, hcd, by rw [ho, h2]⟩
      · intro p hp; rw [hf, if_pos (Or.inl hp)]
      · intro p hp hq
        rw [hf, if_neg (by rw [hp, hq]; simp), h1 p hq]
      · intro p hp hq
        rw [hf]
        by_cases hc : g.dir crlDir = true
        · rw [if_pos (Or.inr ⟨hc, hq⟩), if_pos (h4.mp hc)]
        · rw [if_neg (by rw [hp]; simp [hc]), if_neg (fun x => hc (h4.mpr x))]
          rcases h3 p hq with x | x
          · exact absurd x hc
          · exact x
    have hmk : (fs.mkdir otherDir).dir crlDir = fs.dir crlDir := by simp [Fs.mkdir, hcr']
    have hoo : (fs.mkdir otherDir).dir otherDir = true := by simp [Fs.mkdir]
    unfold verifyChain at h ⊢
    dsimp only at h ⊢
    by_cases hb : (o.crlCheck || o.crlCheckAll) = true
    · rw [if_pos hb] at h ⊢
      cases hp : prepareCrls env (fs.mkdir otherDir) (a :: rest) o.crlPath o.crlCheckAll with
      | mk r g =>
        rw [hp] at h
        cases r with
        | error e => cases h
        | ok u =>
          dsimp only
          cases hcp : o.crlPath with
          | some p =>
            rw [hcp] at hp
            have hg : g = fs.mkdir otherDir := by
              unfold prepareCrls at hp
              dsimp only at hp
              split at hp
              · exact (Prod.mk.inj hp).2.symm
              · cases (Prod.mk.inj hp).1
            have := base g (by intro q _; rw [hg]; rfl) (by rw [hg]; exact hoo) (by intro q _; right; rw [hg]; rfl)
              (by rw [hg, hmk, hcp]; simp)
            rw [hcp] at this
            exact this
          | none =>
            rw [hcp] at hp
            have hg : ∃ l, g = ((fs.mkdir otherDir).mkdir crlDir).write combinedPath (.crls l) := by
              unfold prepareCrls at hp
              dsimp only at hp
              split at hp
              · cases (Prod.mk.inj hp).1
              · split at hp
                · cases (Prod.mk.inj hp).1
                · split at hp
                  · cases (Prod.mk.inj hp).1
                  · exact ⟨_, (Prod.mk.inj hp).2.symm⟩
            obtain ⟨l, hg⟩ := hg
            have hgd : g.dir crlDir = true := by rw [hg]; simp [Fs.write, Fs.mkdir]
            have := base g
              (by
                intro q hq
                have : q ≠ combinedPath := by rintro rfl; rw [hcomb] at hq; cases hq
                rw [hg]; simp [Fs.write, Fs.mkdir, this])
              (by rw [hg]; simp [Fs.write, Fs.mkdir, hor']) (by intro q _; left; exact hgd)
              (by rw [hgd, hcp]; simp [hb])
            rw [hcp] at this
            exact this
    · rw [if_neg hb] at h ⊢
      exact base (fs.mkdir otherDir) (by intro q _; rfl) hoo (by intro q _; right; rfl)
        (by rw [hmk]; simp [hb])

/-- C252: the empty chain is refused, but the directory stays behind. -/
theorem C252_empty_chain (env : Env C D) (fs : Fs C D) (o : Opts) (h1 : o.crlCheck = false) (h2 : o.crlCheckAll = false) :
    (verifyChain env fs [] o).1 = .error .valueError ∧
      (o.timeout ≠ none → (verifyChain env fs [] o).2.dir certDir = true) := by
  unfold verifyChain
  dsimp only
  rw [if_neg (by rw [h1, h2]; decide)]
  unfold runVerify
  cases o.timeout with
  | none => exact ⟨rfl, fun h => absurd rfl h⟩
  | some t => exact ⟨rfl, fun _ => by simp [verifyChainCmd, Fs.mkdir]⟩

/-! ### Refutations -/

/-- Two certificates and CRLs named by strings; the addresses of certificate `0` are one that works and one that does not. -/
def exEnv (v : Option Nat → Question Nat String → Run) : Env Nat String where
  openssl := verifyProgram v
  crlUrls := fun c => if c = 0 then .ok ["http://a", "https://b"] else .ok []
  fetch := fun u => if u = "http://a" then some "der" else none
  derToPem := fun d => if d = "der" then some "pem" else none
  isPem := fun d => d == "pem"

def exFs : Fs Nat String := ⟨fun _ => none, fun _ => false⟩

def acceptAll : Option Nat → Question Nat String → Run := fun _ _ => .exited 0 "" ""

theorem exEnv_formats (v) : (exEnv v).Formats := by
  intro d p h
  have : p = "pem" := by
    unfold exEnv at h
    dsimp only at h
    split at h
    · exact (Option.some.inj h).symm
    · cases h
  subst this
  exact ⟨rfl, rfl⟩

/-- C252 (refuted): "the CRLs of all addresses that a certificate names have been obtained". One of two is enough. -/
theorem C252_all_crls_obtained_refuted :
    ∃ (env : Env Nat String) (v : _) (o : Opts) (urls : List String), env.Runs v ∧ env.Formats ∧ o.crlCheck = true ∧
      env.crlUrls 0 = .ok urls ∧ (verifyChain env exFs [0, 1] o).1 = .ok () ∧
      ∃ u ∈ urls, ∀ p, ¬ Yields env u p := by
  refine ⟨exEnv acceptAll, acceptAll, { crlCheck := true }, ["http://a", "https://b"], rfl, exEnv_formats _, rfl, rfl,
    rfl, "https://b", by simp, ?_⟩
  rintro p ⟨d, hd, _⟩
  cases hd

/-- Each CRL is in the file as many times as there are HTTP addresses. -/
example : downloads (exEnv acceptAll) ["http://a", "https://b"] = ["pem", "pem"] := by decide +kernel

/-- A verdict that accepts certificate `0` only thanks to the system's store. -/
def systemOnly : Option Nat → Question Nat String → Run :=
  fun _ q => if q.systemStoreOff then .exited 2 "" "unable to get local issuer certificate" else .exited 0 "" ""

/-- C252 (refuted): "a chain that is rejected is also rejected when revocation is checked in addition". The check of CRLs
switches the system's trust anchors on. -/
theorem C252_crl_check_only_restricts_refuted :
    ∃ (env : Env Nat String) (v : _), env.Runs v ∧ env.Formats ∧
      (verifyChain env exFs [0] {}).1 = .error .signerNotTrusted ∧
      (verifyChain env exFs [0] { crlCheck := true }).1 = .ok () :=
  ⟨exEnv systemOnly, systemOnly, rfl, exEnv_formats _, rfl, rfl⟩

/-- C252 (refuted): "the files that the caller names are still there afterwards". -/
theorem C252_crl_file_kept_refuted :
    ∃ (env : Env Nat String) (fs : Fs Nat String) (o : Opts) (p : String), o.crlPath = some p ∧ (fs.file p).isSome ∧
      (verifyChain env fs [0, 1] o).1 = .ok () ∧ (verifyChain env fs [0, 1] o).2.file p = none := by
  refine ⟨exEnv acceptAll, ⟨fun q => if q = "data/tmp_crl/mine.crl" then some (.crls ["pem"]) else none,
    fun q => q == "data/tmp_crl"⟩, { crlCheck := true, crlPath := some "data/tmp_crl/mine.crl" }, "data/tmp_crl/mine.crl",
    rfl, rfl, rfl, ?_⟩
  apply (C252_tidy_after_success (exEnv acceptAll) _ 0 [1] _ rfl).2.2.1 _ (by decide +kernel) (by decide +kernel) |>.trans
  rw [if_pos (Or.inl (by decide +kernel))]

/-- Every certificate that the program accepts when it is its own anchor passes alone. -/
example : (verifyChain (exEnv fun _ q => if q.anchors = q.target then .exited 0 "" "" else .timeout) exFs [7] {}).1 = .ok () ∧
    (verifyChain (exEnv fun _ q => if q.anchors = q.target then .exited 0 "" "" else .timeout) exFs [7, 8] {}).1
      = .error .signerNotTrusted := ⟨rfl, rfl⟩

/-- A chain of five: the anchor is the last one, the helpers are the three in between. -/
example : (verifyChain (exEnv fun _ q =>
    if q = ⟨[5], [2, 3, 4], [1], none, false, false, true⟩ then .exited 0 "" "" else .failed) exFs [1, 2, 3, 4, 5] {}).1
      = .ok () := rfl

/-! ## `verify_openssl_crl` -/

/-- The options of `openssl crl`. -/
structure CrlArgs where
  input : Option String := none
  caFile : Option String := none
  verify : Bool := false

def readCrlArgs : List String → CrlArgs → CrlArgs
  | "-in" :: f :: r, a => readCrlArgs r { a with input := some f }
  | "-CAfile" :: f :: r, a => readCrlArgs r { a with caFile := some f }
  | "-verify" :: r, a => readCrlArgs r { a with verify := true }
  | _ :: r, a => readCrlArgs r a
  | [], a => a

def asDer : Option (Content C D) → Option D
  | some (.derCrl d) => some d
  | _ => none

/-- `openssl crl` as a program: `w` answers for the CRL and the certificates of the CA file. -/
def crlProgram (w : Option Nat → D → List C → Run) (t : Option Nat) (fs : Fs C D) (cmd : List String) : Run :=
  let a := readCrlArgs (cmd.drop 2) {}
  match a.input.bind (fun p => asDer (fs.file p)), a.caFile.bind (fun p => asCerts (fs.file p)), a.verify with
  | some d, some l, true => w t d l
  | _, _, _ => .exited 1 "" "cannot open file"

theorem crlJudged_ok (r : Run) : crlJudged r = .ok () ↔ Accepted r := by
  unfold crlJudged Accepted
  split
  · exact ⟨fun _ => ⟨_, _, rfl⟩, fun _ => rfl⟩
  · rename_i h
    exact ⟨fun x => (nomatch x), fun ⟨o, e, x⟩ => absurd x (h o e)⟩

theorem crlJudged_error (r : Run) (h : ¬ Accepted r) : crlJudged r = .error .valueError := by
  unfold crlJudged
  split
  · exact absurd ⟨_, _, rfl⟩ h
  · rfl

/-- C252: a CRL is accepted exactly if the program ends with status 0 for it and the other certificates in reverse order;
what the program prints is not looked at. Every other outcome is a `ValueError`, and nothing is left behind. -/
theorem C252_crl_by_exit_status {env : Env C D} {w : Option Nat → D → List C → Run} (hw : env.openssl = crlProgram w)
    (fs : Fs C D) (d : D) (certs : List C) (t : Nat) :
    let r := verifyCrl env fs (some (.crl d)) certs t
    (r.1 = .ok () ↔ Accepted (w (some t) d certs.reverse)) ∧ (r.1 ≠ .ok () → r.1 = .error .valueError) ∧
      r.2.dir certDir = false ∧ (∀ p, under certDir p = true → r.2.file p = none) ∧
      (∀ p, under certDir p = false → r.2.file p = fs.file p) := by
  intro r
  have hr : r.1 = crlJudged (w (some t) d certs.reverse) := by
    show crlJudged _ = _
    rw [hw]
    congr 1
  refine ⟨?_, ?_, ?_, ?_, ?_⟩
  · rw [hr]; exact crlJudged_ok _
  · intro h
    rw [hr] at h ⊢
    exact crlJudged_error _ (fun x => h ((crlJudged_ok _).mpr x))
  · simp [r, verifyCrl, Fs.rmtree]
  · intro p hp
    simp [r, verifyCrl, Fs.rmtree, hp]
  · intro p hp
    have m1 : p ≠ crlDerPath := by rintro rfl; exact absurd hp (by decide +kernel)
    have m2 : p ≠ crlAnchorPath := by rintro rfl; exact absurd hp (by decide +kernel)
    simp [r, verifyCrl, Fs.rmtree, hp, Fs.write, m1, m2, Fs.mkdir]

/-- The rejection of a list that does not start with a CRL leaves the directory behind. -/
theorem C252_no_crl (env : Env C D) (fs : Fs C D) (first : Option (First C D)) (certs : List C) (t : Nat)
    (h : ∀ d, first ≠ some (.crl d)) :
    (verifyCrl env fs first certs t).1 = .error (if first.isSome then .valueError else .indexError) ∧
      (verifyCrl env fs first certs t).2.dir certDir = true := by
  match first, h with
  | none, _ => exact ⟨rfl, by simp [verifyCrl, Fs.mkdir]⟩
  | some (.other _), _ => exact ⟨rfl, by simp [verifyCrl, Fs.mkdir]⟩
  | some (.crl d), h => exact absurd rfl (h d)

example : (verifyCrl { exEnv acceptAll with openssl := crlProgram fun _ d l =>
    if d = "crl" ∧ l = [3, 2, 1] then .exited 0 "" "verify failure" else .exited 1 "" "" } exFs (some (.crl "crl"))
      [1, 2, 3] 60).1 = .ok () := rfl

/-! ## `validate_ocsp_status_openssl` -/

/-- A text contains another one. -/
def Says (out needle : String) : Prop := ∃ pre post, out.toList = pre ++ needle.toList ++ post

theorem contains_iff (needle : List Char) : ∀ text : List Char,
    contains needle text = true ↔ ∃ pre post, text = pre ++ needle ++ post
  | [] => by
    unfold contains
    simp only [Bool.or_false, List.isPrefixOf_iff_prefix]
    constructor
    · rintro ⟨post, h⟩; exact ⟨[], post, by simpa using h.symm⟩
    · rintro ⟨pre, post, h⟩
      have := (List.append_eq_nil_iff.mp h.symm)
      have := List.append_eq_nil_iff.mp this.1
      exact ⟨[], by simp [this.2]⟩
  | c :: rest => by
    unfold contains
    rw [Bool.or_eq_true, contains_iff needle rest, List.isPrefixOf_iff_prefix]
    constructor
    · rintro (⟨post, h⟩ | ⟨pre, post, h⟩)
      · exact ⟨[], post, by simpa using h.symm⟩
      · exact ⟨c :: pre, post, by rw [h]; rfl⟩
    · rintro ⟨pre, post, h⟩
      cases pre with
      | nil => exact Or.inl ⟨post, by simpa using h.symm⟩
      | cons x xs =>
        right
        refine ⟨xs, post, ?_⟩
        simp only [List.cons_append, List.cons.injEq] at h
        exact h.2

/-- The status an output announces. -/
inductive Announces (out : String) : String → Prop
  | revoked : Says out "Cert Status: revoked" → Announces out "revoked"
  | good : ¬ Says out "Cert Status: revoked" → Says out "Cert Status: good" → Announces out "good"
  | unknown : ¬ Says out "Cert Status: revoked" → ¬ Says out "Cert Status: good" → Announces out "unknown"

theorem status_announced (out : String) : Announces out (ocspStatus out) := by
  have h1 := contains_iff "Cert Status: revoked".toList out.toList
  have h2 := contains_iff "Cert Status: good".toList out.toList
  unfold ocspStatus
  by_cases a : contains "Cert Status: revoked".toList out.toList = true
  · rw [if_pos a]; exact .revoked (h1.mp a)
  · rw [if_neg a]
    by_cases b : contains "Cert Status: good".toList out.toList = true
    · rw [if_pos b]; exact .good (fun x => a (h1.mpr x)) (h2.mp b)
    · rw [if_neg b]; exact .unknown (fun x => a (h1.mpr x)) (fun x => b (h2.mpr x))

theorem announces_unique {out s s' : String} (h : Announces out s) (h' : Announces out s') : s = s' := by
  cases h <;> cases h' <;> first | rfl | contradiction

/-- The address to ask: the one given unless it is empty, else the first of the certificate. -/
def Asks (e : OcspEnv C D) (c : C) (url : Option String) (u : String) : Prop :=
  (url = some u ∧ u ≠ "") ∨ ((url = none ∨ url = some "") ∧ ∃ more, e.ocspUrls c = .ok (u :: more))

theorem ocspUrl_iff (e : OcspEnv C D) (c : C) (url : Option String) (u : String) :
    ocspUrl e c url = .ok u ↔ Asks e c url u := by
  have tail : (match e.ocspUrls c with
      | .error x => (.error x : Except PyErr String)
      | .ok [] => .error .valueError
      | .ok (v :: _) => .ok v) = .ok u ↔ ∃ more, e.ocspUrls c = .ok (u :: more) := by
    cases e.ocspUrls c with
    | error x => exact ⟨fun h => (nomatch h), fun ⟨_, h⟩ => (nomatch h)⟩
    | ok l =>
      cases l with
      | nil => exact ⟨fun h => (nomatch h), fun ⟨_, h⟩ => (nomatch h)⟩
      | cons v vs =>
        constructor
        · intro h; cases h; exact ⟨vs, rfl⟩
        · rintro ⟨m, h⟩; cases h; rfl
  unfold ocspUrl Asks
  cases url with
  | none =>
    refine tail.trans ?_
    simp
  | some w =>
    dsimp only
    by_cases hw : w = ""
    · subst hw
      rw [if_neg (by simp)]
      refine tail.trans ?_
      constructor
      · intro h; exact Or.inr ⟨Or.inr rfl, h⟩
      · rintro (⟨h, hu⟩ | h)
        · exact absurd (Option.some.inj h).symm hu
        · exact h.2
    · rw [if_pos hw]
      constructor
      · intro h; cases h; exact Or.inl ⟨rfl, hw⟩
      · rintro (⟨h, _⟩ | ⟨h | h, _⟩)
        · cases h; rfl
        · cases h
        · cases h; exact absurd rfl hw

/-- C252: the OCSP check of two certificate objects passes exactly if an address is known, the program, given the two
certificates in files and the issuer as trust anchor, ends with status 0, and its output announces the expected status, or
no status while unknown ones are let through. -/
theorem C252_ocsp_by_output (e : OcspEnv C D) (fs : Fs C D) (c ca : C) (url : Option String) (expected : String)
    (unknownOk nonce : Bool) :
    (ocspOpenssl e fs (.cert c) (.cert ca) url expected unknownOk nonce).1 = .ok () ↔
      ∃ u out err status, Asks e c url u ∧
        e.base.openssl none ((fs.write (e.tmp 0) (.certs [c])).write (e.tmp 1) (.certs [ca]))
          (["openssl", "ocsp", "-issuer", e.tmp 1, "-cert", e.tmp 0, "-url", u, "-CAfile", e.tmp 1, "-resp_text"] ++
            if nonce then ["-nonce"] else []) = .exited 0 out err ∧
        Announces out status ∧ (status = expected ∨ status = "unknown" ∧ unknownOk = true) := by
  unfold ocspOpenssl
  dsimp only [certObj, certPath]
  have hdec : ∀ out, ocspDecide expected unknownOk (ocspStatus out) = .ok () ↔
      ∃ status, Announces out status ∧ (status = expected ∨ status = "unknown" ∧ unknownOk = true) := by
    intro out
    have ha := status_announced out
    generalize ocspStatus out = s at ha
    constructor
    · intro h
      refine ⟨s, ha, ?_⟩
      unfold ocspDecide at h
      by_cases h1 : expected = s
      · exact Or.inl h1.symm
      · rw [if_neg h1] at h
        by_cases h2 : (decide (s = "unknown") && unknownOk) = true
        · right; simpa using h2
        · rw [if_neg h2] at h
          split at h <;> cases h
    · rintro ⟨s', ha', hs⟩
      have := announces_unique ha ha'
      subst this
      unfold ocspDecide
      rcases hs with hs | ⟨h1, h2⟩
      · rw [if_pos hs.symm]
      · by_cases h0 : expected = s
        · rw [if_pos h0]
        · rw [if_neg h0, if_pos (by simp [h1, h2])]
  cases hu : ocspUrl e c url with
  | error x =>
    refine ⟨fun h => (nomatch h), ?_⟩
    rintro ⟨u, _, _, _, h, _⟩
    rw [← ocspUrl_iff, hu] at h
    cases h
  | ok u =>
    have hask := (ocspUrl_iff e c url u).mp hu
    dsimp only
    unfold ocspFinish ocspCommand
    constructor
    · intro h
      split at h
      · rename_i out err hrun
        obtain ⟨s, h1, h2⟩ := (hdec out).mp h
        exact ⟨u, out, err, s, hask, hrun, h1, h2⟩
      · cases h
      · cases h
    · rintro ⟨u', out, err, s, h1, h2, h3, h4⟩
      rw [← ocspUrl_iff, hu] at h1
      cases h1
      rw [h2]
      exact (hdec out).mpr ⟨s, h3, h4⟩

/-- C252: a certificate announced as revoked is never taken for anything else. -/
theorem C252_ocsp_revoked (e : OcspEnv C D) (fs : Fs C D) (cert ca : CertArg C) (url : Option String) (expected : String)
    (unknownOk nonce : Bool) (hexp : expected ≠ "revoked")
    (hall : ∀ g cmd out err, e.base.openssl none g cmd = .exited 0 out err → Says out "Cert Status: revoked") :
    (ocspOpenssl e fs cert ca url expected unknownOk nonce).1 ≠ .ok () := by
  unfold ocspOpenssl
  cases certObj e fs cert with
  | error x => exact fun h => nomatch h
  | ok c =>
    dsimp only
    cases ocspUrl e c url with
    | error x => exact fun h => nomatch h
    | ok u =>
      dsimp only
      unfold ocspFinish
      split
      · rename_i out err hrun
        have hs : ocspStatus out = "revoked" :=
          announces_unique (status_announced out) (.revoked (hall _ _ _ _ hrun))
        dsimp only
        rw [hs]
        unfold ocspDecide
        rw [if_neg hexp, if_neg (by simp), if_pos rfl]
        exact fun h => nomatch h
      · exact fun h => nomatch h
      · exact fun h => nomatch h

def exOcsp (out : String) (status : Nat) : OcspEnv Nat String where
  base := { exEnv acceptAll with openssl := fun _ _ _ => .exited status out "" }
  load := fun _ _ => .error .valueError
  ocspUrls := fun c => if c = 0 then .ok ["http://ocsp"] else .ok []
  tmp := fun n => if n = 0 then "/tmp/a.pem" else "/tmp/b.pem"

example : (ocspOpenssl (exOcsp "x Cert Status: good y" 0) exFs (.cert 0) (.cert 1) none "good" false true).1 = .ok () ∧
    (ocspOpenssl (exOcsp "x Cert Status: revoked y" 0) exFs (.cert 0) (.cert 1) none "good" false true).1
      = .error .certRevoked ∧
    (ocspOpenssl (exOcsp "Response Verify Failure" 0) exFs (.cert 0) (.cert 1) none "good" true true).1 = .ok () := by
  decide +kernel

/-- C252 (refuted): "the temporary files are removed". They stay when the program fails and when no address is known. -/
theorem C252_ocsp_files_removed_refuted :
    (ocspOpenssl (exOcsp "" 1) exFs (.cert 0) (.cert 1) none "good" false true).1 = .error .valueError ∧
    (asCerts ((ocspOpenssl (exOcsp "" 1) exFs (.cert 0) (.cert 1) none "good" false true).2.file "/tmp/a.pem")) = some [0] ∧
    (asCerts ((ocspOpenssl (exOcsp "" 0) exFs (.cert 2) (.cert 1) none "good" false true).2.file "/tmp/a.pem"))
      = some [2] := by
  decide +kernel

/-- C252 (refuted): "with `unknown_is_success` only the answer *unknown* is let through besides the expected one". An output
that announces no status at all passes as well, also where `revoked` is expected. -/
theorem C252_unknown_means_answered_refuted :
    ∃ out : String, ¬ Says out "Cert Status: unknown" ∧
      (ocspOpenssl (exOcsp out 0) exFs (.cert 0) (.cert 1) none "revoked" true true).1 = .ok () := by
  refine ⟨"Responder Error: trylater (3)", ?_, by decide +kernel⟩
  intro h
  have := (contains_iff "Cert Status: unknown".toList "Responder Error: trylater (3)".toList).mpr h
  exact absurd this (by decide +kernel)

end Verif.Ra.Ssl
