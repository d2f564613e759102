import Verif.Check.Chain
import Verif.Check.KeyUsageProps

/-!
# Properties of chain building and of the trust in a signer

C121: which signers are trusted. C122: which centrally generated keys are accepted.
-/

namespace Verif.Check

open Verif.CA

variable {C N K : Type}

/-! ## Specification -/

/-- Specification: `p` is named as issuer of `c` and its key verifies the signature of `c`. -/
def SignedBy (env : ChainEnv C N K) (c p : C) : Prop :=
  env.issuer c = env.subject p ∧ ∃ k h, env.loadKey p = .ok k ∧ env.hashOf c = .ok h ∧
    ((env.pss c = true ∧ env.rsa k = true ∧ env.verifyPss k c = .ok ()) ∨
     (env.pss c = false ∧ env.canVerify k = true ∧ env.verify k c h = .ok ()))

/-- Specification: each certificate is signed by the next one. -/
def Linked (env : ChainEnv C N K) : C → List C → Prop
  | _, [] => True
  | a, b :: l => SignedBy env a b ∧ Linked env b l

/-- Specification: subject and issuer are the same name. -/
def SelfIssued (env : ChainEnv C N K) (c : C) : Prop := env.issuer c = env.subject c

/-- Specification: a path from `c` through certificates of the list to a self-issued one. -/
inductive Path (env : ChainEnv C N K) (certs : List C) : C → List C → Prop where
  | root {c i : C} : i ∈ certs → SignedBy env c i → SelfIssued env i → Path env certs c [i]
  | step {c i : C} {l : List C} : i ∈ certs → SignedBy env c i → ¬ SelfIssued env i → Path env certs i l →
      Path env certs c (i :: l)

/-! ## One link -/

section
variable [DecidableEq N]

omit [DecidableEq N] in
theorem verifyCertSig_ok (env : ChainEnv C N K) (k : K) (h : Option String) (c : C) :
    verifyCertSig env k h c = .ok () ↔
      (env.pss c = true ∧ env.rsa k = true ∧ env.verifyPss k c = .ok ()) ∨
      (env.pss c = false ∧ env.canVerify k = true ∧ env.verify k c h = .ok ()) := by
  unfold verifyCertSig
  cases env.pss c <;> cases env.rsa k <;> cases env.canVerify k <;> simp

theorem isCertSigner_true (env : ChainEnv C N K) (c p : C) :
    isCertSigner env c p = .ok true ↔ SignedBy env c p := by
  unfold isCertSigner SignedBy
  by_cases hn : env.issuer c = env.subject p
  · rw [if_neg (not_not_intro hn)]
    cases hk : env.loadKey p with
    | error e => simp [hn]
    | ok k =>
      cases hh : env.hashOf c with
      | error e => simp [hn]
      | ok h =>
        simp only [hn, true_and, Except.ok.injEq, exists_eq_left', exists_and_left]
        rw [← verifyCertSig_ok env k h c]
        cases hv : verifyCertSig env k h c with
        | ok u => simp
        | error e => by_cases hx : PyErr.isSignerErr e = true <;> simp [hx]
  · rw [if_pos hn]
    simp [hn]

/-- **C121.** If a certificate has the right name and a usable key, an exception of the signature check counts as
"not the issuer" exactly if it is a `ValueError`, an `InvalidSignature` or a `BadSigAlgID`; others are passed on. -/
theorem C121_not_signer (env : ChainEnv C N K) (c p : C) (k : K) (h : Option String) (e : PyErr)
    (hn : env.issuer c = env.subject p) (hk : env.loadKey p = .ok k) (hh : env.hashOf c = .ok h)
    (hv : (env.pss c = true ∧ ((env.rsa k = true ∧ env.verifyPss k c = .error e) ∨
        (env.rsa k = false ∧ e = .valueError))) ∨
      (env.pss c = false ∧ ((env.canVerify k = true ∧ env.verify k c h = .error e) ∨
        (env.canVerify k = false ∧ e = .valueError)))) :
    ((e = .valueError ∨ e = .invalidSignature ∨ e = .badSigAlgId) → isCertSigner env c p = .ok false) ∧
    (e ≠ .valueError → e ≠ .invalidSignature → e ≠ .badSigAlgId → isCertSigner env c p = .error e) := by
  have hs : verifyCertSig env k h c = .error e := by
    unfold verifyCertSig
    rcases hv with ⟨h1, ⟨h2, h3⟩ | ⟨h2, rfl⟩⟩ | ⟨h1, ⟨h2, h3⟩ | ⟨h2, rfl⟩⟩ <;> simp [*]
  have hr : isCertSigner env c p = if PyErr.isSignerErr e = true then .ok false else .error e := by
    unfold isCertSigner
    rw [if_neg (not_not_intro hn), hk]
    dsimp only
    rw [hh]
    dsimp only
    rw [hs]
  rw [hr]
  constructor
  · rintro (rfl | rfl | rfl) <;> rfl
  · intro h1 h2 h3
    rw [if_neg]
    intro hx
    unfold PyErr.isSignerErr at hx
    split at hx
    · exact h1 rfl
    · exact h2 rfl
    · exact h3 rfl
    · cases hx

theorem findIssuer_cons (env : ChainEnv C N K) (cur c : C) (cs : List C) :
    findIssuer env cur (c :: cs) = match isCertSigner env cur c with
    | .error e => .error e
    | .ok true => .ok (some c)
    | .ok false => findIssuer env cur cs := rfl

theorem findIssuer_some {env : ChainEnv C N K} {cur i : C} {certs : List C}
    (h : findIssuer env cur certs = .ok (some i)) : i ∈ certs ∧ SignedBy env cur i := by
  induction certs with
  | nil => cases h
  | cons c cs ih =>
    rw [findIssuer_cons] at h
    cases hs : isCertSigner env cur c with
    | error e => rw [hs] at h; cases h
    | ok b =>
      rw [hs] at h
      cases b with
      | true => cases h; exact ⟨List.mem_cons_self .., (isCertSigner_true env cur _).1 hs⟩
      | false => exact ⟨List.mem_cons_of_mem _ (ih h).1, (ih h).2⟩

theorem findIssuer_none {env : ChainEnv C N K} {cur : C} {certs : List C}
    (h : findIssuer env cur certs = .ok none) : ∀ i ∈ certs, ¬ SignedBy env cur i := by
  induction certs with
  | nil => intro i hi; cases hi
  | cons c cs ih =>
    rw [findIssuer_cons] at h
    cases hs : isCertSigner env cur c with
    | error e => rw [hs] at h; cases h
    | ok b =>
      rw [hs] at h
      cases b with
      | true => cases h
      | false =>
        intro i hi
        rcases List.mem_cons.1 hi with rfl | hi
        · rw [← isCertSigner_true, hs]; simp
        · exact ih h i hi

theorem findIssuer_found {env : ChainEnv C N K} {cur i : C} {certs : List C} (hi : i ∈ certs)
    (hs : SignedBy env cur i) (hu : ∀ d ∈ certs, SignedBy env cur d → d = i)
    (hne : ∀ d ∈ certs, ∀ e, isCertSigner env cur d ≠ .error e) : findIssuer env cur certs = .ok (some i) := by
  induction certs with
  | nil => cases hi
  | cons c cs ih =>
    rw [findIssuer_cons]
    cases hc : isCertSigner env cur c with
    | error e => exact absurd hc (hne c (List.mem_cons_self ..) e)
    | ok b =>
      cases b with
      | true => rw [hu c (List.mem_cons_self ..) ((isCertSigner_true env cur c).1 hc)]
      | false =>
        have hic : i ≠ c := by
          rintro rfl
          rw [(isCertSigner_true env cur i).2 hs] at hc
          cases hc
        exact ih ((List.mem_cons.1 hi).resolve_left hic) (fun d hd => hu d (List.mem_cons_of_mem _ hd))
          (fun d hd => hne d (List.mem_cons_of_mem _ hd))

/-! ## The chain -/

/-- The runs of the loop that are not cut off. -/
inductive Run (env : ChainEnv C N K) (certs : List C) : C → List C → Prop where
  | stuck {c : C} : findIssuer env c certs = .ok none → Run env certs c []
  | root {c i : C} : findIssuer env c certs = .ok (some i) → SelfIssued env i → Run env certs c [i]
  | step {c i : C} {l : List C} : findIssuer env c certs = .ok (some i) → ¬ SelfIssued env i → Run env certs i l →
      Run env certs c (i :: l)

theorem Run.unique {env : ChainEnv C N K} {certs : List C} {c : C} {l m : List C} (h : Run env certs c l)
    (h' : Run env certs c m) : l = m := by
  induction h generalizing m with
  | stuck h1 =>
    cases h' with
    | stuck => rfl
    | root g _ => rw [h1] at g; cases g
    | step g _ _ => rw [h1] at g; cases g
  | root h1 h2 =>
    cases h' with
    | stuck g => rw [h1] at g; cases g
    | root g _ => rw [h1] at g; cases g; rfl
    | step g g2 _ => rw [h1] at g; cases g; exact absurd h2 g2
  | step h1 h2 _ ih =>
    cases h' with
    | stuck g => rw [h1] at g; cases g
    | root g g2 => rw [h1] at g; cases g; exact absurd g2 h2
    | step g _ g3 => rw [h1] at g; cases g; rw [ih g3]

theorem Run.mem {env : ChainEnv C N K} {certs : List C} {c : C} {l : List C} (h : Run env certs c l) :
    ∀ x ∈ l, x ∈ certs := by
  induction h with
  | stuck _ => intro x hx; cases hx
  | root h1 _ =>
    intro x hx
    rw [List.mem_singleton] at hx
    exact hx ▸ (findIssuer_some h1).1
  | step h1 _ _ ih =>
    intro x hx
    rcases List.mem_cons.1 hx with rfl | hx
    · exact (findIssuer_some h1).1
    · exact ih x hx

theorem Run.tail {env : ChainEnv C N K} {certs : List C} {c : C} {l : List C} (h : Run env certs c l) {a b : List C}
    {x : C} (he : l = a ++ x :: b) : (b = [] ∧ SelfIssued env x) ∨ (¬ SelfIssued env x ∧ Run env certs x b) := by
  induction h generalizing a with
  | stuck _ => simp at he
  | root h1 h2 =>
    cases a with
    | nil => cases he; exact .inl ⟨rfl, h2⟩
    | cons y a => simp at he
  | step h1 h2 h3 ih =>
    cases a with
    | nil => cases he; exact .inr ⟨h2, h3⟩
    | cons y a => injection he with e1 e2; exact ih e2

theorem Run.nodup {env : ChainEnv C N K} {certs : List C} {c : C} {l : List C} (h : Run env certs c l) : l.Nodup := by
  induction h with
  | stuck _ => exact List.nodup_nil
  | root _ _ => simp
  | @step c i l h1 h2 h3 ih =>
    refine List.nodup_cons.2 ⟨fun hm => ?_, ih⟩
    obtain ⟨a, b, he⟩ := List.append_of_mem hm
    rcases h3.tail he with ⟨_, h⟩ | ⟨_, h⟩
    · exact h2 h
    · have := congrArg List.length (h3.unique h)
      rw [he] at this
      simp at this
      omega

theorem Run.length_le {env : ChainEnv C N K} {certs : List C} {c : C} {l : List C} (h : Run env certs c l) :
    l.length ≤ certs.length := (List.subperm_of_subset h.nodup h.mem).length_le

theorem growChain_succ (env : ChainEnv C N K) (certs : List C) (n : Nat) (cur : C) :
    growChain env certs (n + 1) cur = match findIssuer env cur certs with
    | .error e => .error e
    | .ok none => if env.issuer cur = env.subject cur then .ok [] else growChain env certs n cur
    | .ok (some i) =>
      if env.issuer i = env.subject i then .ok [i]
      else match growChain env certs n i with
        | .error e => .error e
        | .ok l => .ok (i :: l) := rfl

theorem growChain_stuck {env : ChainEnv C N K} {certs : List C} {cur : C}
    (h : findIssuer env cur certs = .ok none) (n : Nat) : growChain env certs n cur = .ok [] := by
  induction n with
  | zero => rfl
  | succ n ih =>
    rw [growChain_succ, h]
    by_cases hs : env.issuer cur = env.subject cur
    · exact if_pos hs
    · exact (if_neg hs).trans ih

theorem growChain_of_run {env : ChainEnv C N K} {certs : List C} {cur : C} {l : List C} (h : Run env certs cur l)
    (n : Nat) (hn : l.length ≤ n) : growChain env certs n cur = .ok l := by
  induction h generalizing n with
  | stuck h1 => exact growChain_stuck h1 n
  | root h1 h2 =>
    cases n with
    | zero => simp at hn
    | succ n =>
      rw [growChain_succ, h1]
      exact if_pos h2
  | step h1 h2 h3 ih =>
    cases n with
    | zero => simp at hn
    | succ n =>
      rw [growChain_succ, h1]
      refine (if_neg h2).trans ?_
      rw [ih n (by simpa using hn)]

theorem growChain_ok {env : ChainEnv C N K} {certs : List C} (n : Nat) (cur : C) (l : List C)
    (h : growChain env certs n cur = .ok l) :
    Linked env cur l ∧ (∀ x ∈ l, x ∈ certs) ∧ l.length ≤ n ∧ (l.length < n → Run env certs cur l) := by
  induction n generalizing cur l with
  | zero => cases h; exact ⟨trivial, (by simp), Nat.le_refl _, fun h => absurd h (Nat.lt_irrefl _)⟩
  | succ n ih =>
    rw [growChain_succ] at h
    cases hf : findIssuer env cur certs with
    | error e => rw [hf] at h; cases h
    | ok o =>
      rw [hf] at h
      cases o with
      | none =>
        have hl : l = [] := by
          by_cases hs : env.issuer cur = env.subject cur
          · rw [if_pos hs] at h; cases h; rfl
          · rw [if_neg hs, growChain_stuck hf] at h; cases h; rfl
        subst hl
        exact ⟨trivial, (by simp), Nat.zero_le _, fun _ => .stuck hf⟩
      | some i =>
        dsimp only at h
        obtain ⟨hm, hs⟩ := findIssuer_some hf
        by_cases hi : env.issuer i = env.subject i
        · rw [if_pos hi] at h
          cases h
          exact ⟨⟨hs, trivial⟩, (by simpa using hm), (by simp), fun _ => .root hf hi⟩
        · rw [if_neg hi] at h
          cases hg : growChain env certs n i with
          | error e => rw [hg] at h; cases h
          | ok m =>
            rw [hg] at h
            cases h
            obtain ⟨a, b, c, d⟩ := ih i m hg
            refine ⟨⟨hs, a⟩, ?_, by simpa using c, fun hl => .step hf hi (d (by simpa using hl))⟩
            intro x hx
            rcases List.mem_cons.1 hx with rfl | hx
            · exact hm
            · exact b x hx

/-- **C121.** A chain starts with the given certificate; each further certificate is one of the list and has signed
the one before it; the chain has at most two certificates more than the list, whatever loops the list contains. -/
theorem C121_links (env : ChainEnv C N K) (ee : C) (certs : List C) (self : Bool) (ch : List C)
    (h : buildChain env ee certs self = .ok ch) :
    ∃ l, ch = ee :: l ∧ Linked env ee l ∧ (∀ x ∈ l, x ∈ certs) ∧ ch.length ≤ certs.length + 2 := by
  unfold buildChain at h
  cases hs : isCertSigner env ee ee with
  | error e => rw [hs] at h; cases h
  | ok b =>
    rw [hs] at h
    cases b with
    | true => cases h; exact ⟨[], rfl, trivial, (by simp), (by simp)⟩
    | false =>
      dsimp only at h
      cases hg : growChain env certs (certs.length + 1) ee with
      | error e => rw [hg] at h; cases h
      | ok l =>
        rw [hg] at h
        dsimp only at h
        split at h
        · cases h
        · cases h
          obtain ⟨a, b, c, _⟩ := growChain_ok _ _ _ hg
          exact ⟨l, rfl, a, b, (by simpa using c)⟩

/-- **C121.** A chain that is not as long as possible is complete: it ends with a self-signed or self-issued
certificate or with one that no certificate of the list has signed; and no certificate occurs twice after the first. -/
theorem C121_maximal (env : ChainEnv C N K) (ee : C) (certs : List C) (self : Bool) (l : List C)
    (h : buildChain env ee certs self = .ok (ee :: l)) (hl : l.length ≤ certs.length) :
    (SignedBy env ee ee ∧ l = [] ∨ SelfIssued env (lastOf ee l) ∨ ∀ i ∈ certs, ¬ SignedBy env (lastOf ee l) i) ∧
      l.Nodup ∧ (self = true → SelfIssued env (lastOf ee l)) := by
  unfold buildChain at h
  cases hs : isCertSigner env ee ee with
  | error e => rw [hs] at h; cases h
  | ok b =>
    rw [hs] at h
    cases b with
    | true =>
      cases h
      have := (isCertSigner_true env ee ee).1 hs
      exact ⟨.inl ⟨this, rfl⟩, List.nodup_nil, fun _ => this.1⟩
    | false =>
      dsimp only at h
      cases hg : growChain env certs (certs.length + 1) ee with
      | error e => rw [hg] at h; cases h
      | ok m =>
        rw [hg] at h
        dsimp only at h
        split at h
        · cases h
        · rename_i hself
          cases h
          obtain ⟨_, _, _, d⟩ := growChain_ok _ _ _ hg
          have hr := d (by omega)
          refine ⟨.inr ?_, hr.nodup, fun hs => Classical.byContradiction fun hn => hself ⟨hn, hs⟩⟩
          clear hself hg hs hl d
          rename_i _a _b _c; clear _a _b _c
          induction hr with
          | stuck g => exact .inr (findIssuer_none g)
          | root _ g => exact .inl g
          | step _ _ _ ih => exact ih

/-- The certificates for which completeness can be expected: at most one certificate of the list has signed a
certificate, and the comparison with none of them raises. -/
structure Regular (env : ChainEnv C N K) (ee : C) (certs : List C) : Prop where
  unique : ∀ x ∈ ee :: certs, ∀ c ∈ certs, ∀ d ∈ certs, SignedBy env x c → SignedBy env x d → c = d
  total : ∀ x ∈ ee :: certs, ∀ d ∈ ee :: certs, ∀ e, isCertSigner env x d ≠ .error e

theorem run_of_path {env : ChainEnv C N K} {ee : C} {certs : List C} (hr : Regular env ee certs) {c : C} {l : List C}
    (hc : c ∈ ee :: certs) (h : Path env certs c l) : Run env certs c l := by
  induction h with
  | root h1 h2 h3 =>
    exact .root (findIssuer_found h1 h2 (fun d hd hs => hr.unique _ hc _ hd _ h1 hs h2)
      (fun d hd => hr.total _ hc d (List.mem_cons_of_mem _ hd))) h3
  | step h1 h2 h3 _ ih =>
    exact .step (findIssuer_found h1 h2 (fun d hd hs => hr.unique _ hc _ hd _ h1 hs h2)
      (fun d hd => hr.total _ hc d (List.mem_cons_of_mem _ hd))) h3 (ih (List.mem_cons_of_mem _ h1))

omit [DecidableEq N] in
theorem path_last {env : ChainEnv C N K} {certs : List C} {c : C} {l : List C} (h : Path env certs c l) :
    SelfIssued env (lastOf c l) := by
  induction h with
  | root _ _ h => exact h
  | step _ _ _ _ ih => exact ih

/-- **C121 (partial).** If issuers are unambiguous, a path to a self-issued certificate is found. -/
theorem C121_found_partial (env : ChainEnv C N K) (ee : C) (certs : List C) (self : Bool) (hr : Regular env ee certs)
    (hs : ¬ SignedBy env ee ee) (l : List C) (h : Path env certs ee l) :
    buildChain env ee certs self = .ok (ee :: l) := by
  have hrun := run_of_path hr (List.mem_cons_self ..) h
  have hg := growChain_of_run hrun (certs.length + 1) (by have := hrun.length_le; omega)
  unfold buildChain
  cases hb : isCertSigner env ee ee with
  | error e => exact absurd hb (hr.total ee (List.mem_cons_self ..) ee (List.mem_cons_self ..) e)
  | ok b =>
    cases b with
    | true => exact absurd ((isCertSigner_true env ee ee).1 hb) hs
    | false =>
      dsimp only
      rw [hg]
      dsimp only
      exact if_neg (fun x => x.1 (path_last h))

end

/-! ## Trust -/

section
variable [DecidableEq C] [DecidableEq N]

omit [DecidableEq N] in
theorem chainCertInList_iff (c : C) (l : List C) : chainCertInList c l = true ↔ c ∈ l := by
  unfold chainCertInList
  simp

omit [DecidableEq N] in
theorem areAnchors_ok {anchors : Except PyErr (List C)} {certs : List C} (h : areAnchors anchors certs = .ok ()) :
    ∃ as, anchors = .ok as ∧ ∀ c ∈ certs, c ∈ as := by
  unfold areAnchors at h
  rcases anchors with e | as
  · cases h
  · cases as with
    | nil => cases h
    | cons a as =>
      dsimp only at h
      split at h
      · rename_i hall
        refine ⟨_, rfl, fun c hc => ?_⟩
        exact (chainCertInList_iff c _).1 (List.all_eq_true.1 hall c hc)
      · cases h

omit [DecidableEq N] in
theorem areAnchors_of {as : List C} {certs : List C} (hne : as ≠ []) (h : ∀ c ∈ certs, c ∈ as) :
    areAnchors (.ok as) certs = .ok () := by
  unfold areAnchors
  cases as with
  | nil => exact absurd rfl hne
  | cons a as =>
    dsimp only
    exact if_pos (List.all_eq_true.2 fun c hc => (chainCertInList_iff c _).2 (h c hc))

/-- Specification: the signer certificate `ee` leads to a trust anchor over certificates of the message, each signed
by the next. -/
def LeadsToAnchor (env : ChainEnv C N K) (as : List C) (extra : List C) (ee : C) (l : List C) : Prop :=
  extra.head? = some ee ∧ Linked env ee l ∧ (∀ x ∈ l, x ∈ extra) ∧ lastOf ee l ∈ as

omit [DecidableEq C] in
theorem buildCmpChain_ok {env : ChainEnv C N K} {extra : Option (List C)} {ch : List C}
    (h : buildCmpChain env extra = .ok ch) :
    ∃ xs ee l, extra = some xs ∧ xs.head? = some ee ∧ ch = ee :: l ∧ Linked env ee l ∧ ∀ x ∈ l, x ∈ xs := by
  unfold buildCmpChain at h
  rcases extra with _ | xs
  · cases h
  · cases xs with
    | nil => cases h
    | cons c cs =>
      obtain ⟨l, h1, h2, h3, _⟩ := C121_links _ _ _ _ _ h
      exact ⟨c :: cs, c, l, rfl, rfl, h1, h2, h3⟩

/-- **C121.** A trusted signer's certificate is the first extra certificate and leads to a trust anchor: every
certificate on the way is one of the message and has signed its predecessor. Without composite or post-quantum
signature, and unless the signer certificate is itself an anchor, OpenSSL has accepted the chain and a key usage
extension of the signer allows the use. -/
theorem C121_trusted (env : ChainEnv C N K) (anchors : Except PyErr (List C)) (ssl : Bool) (cls : SigClass)
    (dh : Bool) (extra : Option (List C)) (h : checkTrusted env anchors ssl cls dh extra = .ok ()) :
    ∃ as xs ee l, anchors = .ok as ∧ extra = some xs ∧ LeadsToAnchor env as xs ee l ∧
      (ssl = true → cls = .other → l ≠ [] → env.openssl (ee :: l) = .ok () ∧
        (env.usage ee = .ok none ∨ ∃ x, env.usage ee = .ok (some x) ∧
          Has keyUsageNames x (if dh then "keyAgreement".toList else "digitalSignature".toList))) := by
  unfold checkTrusted at h
  cases hb : buildCmpChain env extra with
  | error e => rw [hb] at h; cases h
  | ok ch =>
    rw [hb] at h
    obtain ⟨xs, ee, l, h1, h2, rfl, h4, h5⟩ := buildCmpChain_ok hb
    dsimp only at h
    by_cases hc : ssl = true ∧ cls = .other
    · rw [if_pos hc] at h
      cases hm : mustBeTrusted env anchors ee l [if dh then "keyAgreement".toList else "digitalSignature".toList]
          .lax with
      | error e =>
        rw [hm] at h
        dsimp only at h
        split at h <;> cases h
      | ok u =>
        unfold mustBeTrusted at hm
        rcases anchors with e | as
        · cases hm
        · dsimp only at hm
          by_cases ha : chainCertInList (lastOf ee l) as = false
          · rw [if_pos ha] at hm; cases hm
          rw [if_neg ha] at hm
          have ha' : lastOf ee l ∈ as := (chainCertInList_iff _ _).1 (by simpa using ha)
          refine ⟨as, xs, ee, l, rfl, h1, ⟨h2, h4, h5, ha'⟩, fun _ _ hl => ?_⟩
          rw [if_neg hl] at hm
          cases ho : env.openssl (ee :: l) with
          | error e => rw [ho] at hm; cases hm
          | ok u =>
            rw [ho] at hm
            have hu := (C123_usage keyUsageNames keyUsageNames_plain _ _ _).1 hm
            refine ⟨rfl, ?_⟩
            rcases hu with hu | ⟨_, hu⟩ | ⟨hu, _⟩ | ⟨hu, _⟩
            · cases hu
            · rcases hu with hu | ⟨x, e, hx⟩
              · exact .inl hu
              · refine .inr ⟨x, e, ?_⟩
                have := hx _ (List.mem_singleton.2 rfl)
                cases dh with
                | true => exact (by decide +kernel : stripL "keyAgreement".toList = "keyAgreement".toList) ▸ this
                | false => exact (by decide +kernel : stripL "digitalSignature".toList = "digitalSignature".toList) ▸ this
            · cases hu
            · cases hu
    · rw [if_neg hc] at h
      obtain ⟨as, e, ha⟩ := areAnchors_ok h
      exact ⟨as, xs, ee, l, e, h1, ⟨h2, h4, h5, ha _ (List.mem_singleton.2 rfl)⟩, fun a b => absurd ⟨a, b⟩ hc⟩

/-- **C121 (partial).** For unambiguous extra certificates, a signer whose certificate has a path to a self-issued
trust anchor is trusted, if OpenSSL is not consulted. -/
theorem C121_accepts_partial (env : ChainEnv C N K) (as : List C) (ssl : Bool) (dh : Bool) (ee : C) (cs : List C)
    (hr : Regular env ee (ee :: cs)) (hs : ¬ SignedBy env ee ee) (l : List C) (h : Path env (ee :: cs) ee l)
    (ha : lastOf ee l ∈ as) : checkTrusted env (.ok as) ssl .modern dh (some (ee :: cs)) = .ok () := by
  have hb : buildCmpChain env (some (ee :: cs)) = .ok (ee :: l) := C121_found_partial env ee (ee :: cs) false hr hs l h
  unfold checkTrusted
  rw [hb]
  dsimp only
  rw [if_neg (fun x => by cases x.2)]
  exact areAnchors_of (fun e => by rw [e] at ha; cases ha) (fun c hc => by rw [List.mem_singleton.1 hc]; exact ha)

/-- **C121 (refuted).** Whoever holds a key certified by a trust anchor can act under any name: the certificate `f`
made with that key, for any subject and any post-quantum or composite key, is trusted, whether or not the holder's
certificate `e` belongs to a certification authority. -/
theorem C121_any_holder_refuted (env : ChainEnv C N K) (as : List C) (ssl : Bool) (f e root : C)
    (hroot : root ∈ as) (h1 : SignedBy env e root) (h2 : SelfIssued env root) (h3 : SignedBy env f e)
    (h4 : ¬ SelfIssued env e) (h5 : ¬ SignedBy env f f) (hr : Regular env f [f, e, root]) :
    checkTrusted env (.ok as) ssl .modern false (some [f, e, root]) = .ok () := by
  apply C121_accepts_partial env as ssl false f [e, root] hr h5 [e, root] _ hroot
  exact .step (by simp) h3 h4 (.root (by simp) h1 h2)

/-! ## The certificate of the key generation authority -/

omit [DecidableEq C] in
theorem lastOf_dropLast (a : C) (l : List C) : (lastOf a l :: (a :: l).dropLast).Perm (a :: l) := by
  induction l generalizing a with
  | nil => exact List.Perm.refl _
  | cons b l ih =>
    change (lastOf b l :: a :: (b :: l).dropLast).Perm _
    exact (List.Perm.swap ..).trans ((ih b).cons a)

omit [DecidableEq C] in
theorem buildChain_perm {env : ChainEnv C N K} {ee : C} {certs ch : List C} (h : buildChain env ee certs = .ok ch)
    (hl : ch.length = certs.length + 1) : ∃ l, ch = ee :: l ∧ Linked env ee l ∧ ch.Perm (ee :: certs) := by
  obtain ⟨l, rfl, h2, h3, _⟩ := C121_links _ _ _ _ _ h
  have hn := (C121_maximal env ee certs false l h (by simp at hl; omega)).2.1
  exact ⟨l, rfl, h2, ((List.subperm_of_subset hn h3).perm_of_length_le (by simp at hl; omega)).cons ee⟩

omit [DecidableEq C] in
/-- **C122.** The certificates of the key generation authority, as used for the check, are a reordering of those in
the structure, each signed by the next; the first is the first or the last of the structure. -/
theorem C122_certs (env : ChainEnv C N K) (certs ch : List C) (h : signedDataCerts env certs = .ok ch) :
    ch.Perm certs ∧ ∀ kga rest, ch = kga :: rest → Linked env kga rest ∧
      (certs.head? = some kga ∨ certs.getLast? = some kga) := by
  match certs, h with
  | [], h => cases h; exact ⟨List.Perm.refl _, fun _ _ h => by cases h⟩
  | [c], h => cases h; exact ⟨List.Perm.refl _, fun _ _ h => by cases h; exact ⟨trivial, .inl rfl⟩⟩
  | c :: d :: cs, h =>
    change (match buildChain env c (d :: cs) with
      | .error e => .error e
      | .ok l1 =>
        match buildChain env (lastOf c (d :: cs)) ((c :: d :: cs).dropLast) with
        | .error e => .error e
        | .ok l2 =>
          if (if l1.length > l2.length then l1 else l2).length ≠ (c :: d :: cs).length then .error .valueError
          else .ok (if l1.length > l2.length then l1 else l2) : Except PyErr (List C)) = _ at h
    cases h1 : buildChain env c (d :: cs) with
    | error e => rw [h1] at h; cases h
    | ok l1 =>
      rw [h1] at h
      cases h2 : buildChain env (lastOf c (d :: cs)) ((c :: d :: cs).dropLast) with
      | error e => rw [h2] at h; cases h
      | ok l2 =>
        rw [h2] at h
        dsimp only at h
        by_cases hlen : (if l1.length > l2.length then l1 else l2).length ≠ (c :: d :: cs).length
        · rw [if_pos hlen] at h; cases h
        · rw [if_neg hlen] at h
          have hlen := Classical.not_not.1 hlen
          cases h
          by_cases hgt : l1.length > l2.length
          · rw [if_pos hgt] at hlen ⊢
            obtain ⟨l, e, hL, hp⟩ := buildChain_perm h1 hlen
            refine ⟨hp, fun kga rest he => ?_⟩
            rw [e] at he
            cases he
            exact ⟨hL, .inl rfl⟩
          · rw [if_neg hgt] at hlen ⊢
            obtain ⟨l, e, hL, hp⟩ := buildChain_perm h2 (by rw [hlen]; simp)
            refine ⟨hp.trans (lastOf_dropLast c (d :: cs)), fun kga rest he => ?_⟩
            rw [e] at he
            cases he
            refine ⟨hL, .inr ?_⟩
            have : ∀ (a : C) (l : List C), (a :: l).getLast? = some (lastOf a l) := by
              intro a l
              induction l generalizing a with
              | nil => rfl
              | cons b l ih => rw [List.getLast?_cons_cons]; exact ih b
            exact this c (d :: cs)

theorem findSigner_spec (sigOk : C → Except PyErr Unit) (cs : List C) (n : Nat) (r : Except PyErr (Option Nat)) :
    findSigner sigOk cs n = r ↔
      (r = .ok none ∧ ∀ c ∈ cs, sigOk c = .error .valueError ∨ sigOk c = .error .invalidSignature) ∨
      ∃ pre c post, cs = pre ++ c :: post ∧
        (∀ d ∈ pre, sigOk d = .error .valueError ∨ sigOk d = .error .invalidSignature) ∧
        ((sigOk c = .ok () ∧ r = .ok (some (n + pre.length))) ∨
         ∃ e, sigOk c = .error e ∧ e ≠ .valueError ∧ e ≠ .invalidSignature ∧ r = .error e) := by
  induction cs generalizing n with
  | nil =>
    constructor
    · intro h
      exact Or.inl ⟨h.symm, fun c hc => by cases hc⟩
    · rintro (⟨h, -⟩ | ⟨pre, c, post, h, -⟩)
      · exact h.symm
      · cases pre <;> cases h
  | cons a l ih =>
    unfold findSigner
    have other : ∀ (bad : sigOk a = .error .valueError ∨ sigOk a = .error .invalidSignature),
        (findSigner sigOk l (n + 1) = r ↔
        (r = .ok none ∧ ∀ c ∈ a :: l, sigOk c = .error .valueError ∨ sigOk c = .error .invalidSignature) ∨
      ∃ pre c post, a :: l = pre ++ c :: post ∧
        (∀ d ∈ pre, sigOk d = .error .valueError ∨ sigOk d = .error .invalidSignature) ∧
        ((sigOk c = .ok () ∧ r = .ok (some (n + pre.length))) ∨
         ∃ e, sigOk c = .error e ∧ e ≠ .valueError ∧ e ≠ .invalidSignature ∧ r = .error e)) := by
      intro bad
      rw [ih (n + 1)]
      constructor
      · rintro (⟨h, ha⟩ | ⟨pre, c, post, rfl, hp, hc⟩)
        · exact Or.inl ⟨h, fun c hc => (List.mem_cons.1 hc).elim (fun e => e ▸ bad) (ha c)⟩
        · refine Or.inr ⟨a :: pre, c, post, rfl,
            fun d hd => (List.mem_cons.1 hd).elim (fun e => e ▸ bad) (hp d), ?_⟩
          rw [List.length_cons, show n + (pre.length + 1) = n + 1 + pre.length by omega]
          exact hc
      · rintro (⟨h, ha⟩ | ⟨pre, c, post, he, hp, hc⟩)
        · exact Or.inl ⟨h, fun c hc => ha c (List.mem_cons_of_mem _ hc)⟩
        · cases pre with
          | nil =>
            obtain ⟨rfl, rfl⟩ := List.cons.inj he
            rcases hc with ⟨hc, -⟩ | ⟨e, hc, h1, h2, -⟩
            · rw [hc] at bad; rcases bad with bad | bad <;> cases bad
            · rw [hc] at bad
              rcases bad with bad | bad
              · exact absurd (Except.error.inj bad) h1
              · exact absurd (Except.error.inj bad) h2
          | cons p pre =>
            obtain ⟨rfl, rfl⟩ := List.cons.inj he
            refine Or.inr ⟨pre, c, post, rfl, fun d hd => hp d (List.mem_cons_of_mem _ hd), ?_⟩
            rw [List.length_cons, show n + (pre.length + 1) = n + 1 + pre.length by omega] at hc
            exact hc
    have stop : ∀ (v : Except PyErr (Option Nat)), ((sigOk a = .ok () ∧ v = .ok (some n)) ∨
        ∃ e, sigOk a = .error e ∧ e ≠ .valueError ∧ e ≠ .invalidSignature ∧ v = .error e) →
        (v = r ↔
        (r = .ok none ∧ ∀ c ∈ a :: l, sigOk c = .error .valueError ∨ sigOk c = .error .invalidSignature) ∨
      ∃ pre c post, a :: l = pre ++ c :: post ∧
        (∀ d ∈ pre, sigOk d = .error .valueError ∨ sigOk d = .error .invalidSignature) ∧
        ((sigOk c = .ok () ∧ r = .ok (some (n + pre.length))) ∨
         ∃ e, sigOk c = .error e ∧ e ≠ .valueError ∧ e ≠ .invalidSignature ∧ r = .error e)) := by
      intro v hv
      have good : ¬ (sigOk a = .error .valueError ∨ sigOk a = .error .invalidSignature) := by
        rintro (hb | hb) <;> rcases hv with ⟨hv, -⟩ | ⟨e, hv, h1, h2, -⟩ <;> rw [hb] at hv
        · cases hv
        · exact h1 (Except.error.inj hv).symm
        · cases hv
        · exact h2 (Except.error.inj hv).symm
      constructor
      · rintro rfl
        exact Or.inr ⟨[], a, l, rfl, (fun d hd => by cases hd), hv⟩
      · rintro (⟨-, ha⟩ | ⟨pre, c, post, he, hp, hc⟩)
        · exact absurd (ha a List.mem_cons_self) good
        · cases pre with
          | nil =>
            obtain ⟨rfl, rfl⟩ := List.cons.inj he
            rcases hv with ⟨hv, rfl⟩ | ⟨e, hv, -, -, rfl⟩ <;> rcases hc with ⟨hc, rfl⟩ | ⟨e', hc, -, -, rfl⟩ <;>
              rw [hv] at hc <;> first | rfl | (cases hc; rfl) | cases hc
          | cons p pre =>
            obtain ⟨rfl, rfl⟩ := List.cons.inj he
            exact absurd (hp _ List.mem_cons_self) good
    cases hs : sigOk a with
    | ok u => exact stop _ (Or.inl ⟨hs, rfl⟩)
    | error e =>
      dsimp only
      by_cases he : e = .valueError ∨ e = .invalidSignature
      · rw [if_pos he]
        rw [hs] at other
        refine other ?_
        rcases he with rfl | rfl
        · exact Or.inl rfl
        · exact Or.inr rfl
      · rw [if_neg he]
        exact stop _ (Or.inr ⟨e, hs, fun x => he (Or.inl x), fun x => he (Or.inr x), rfl⟩)

/-- **C122.** `find_right_cert_pos` gives the position of the first certificate whose key verifies the signature;
before it only `ValueError` and `InvalidSignature` are taken as a wrong key, other exceptions are passed on. -/
theorem C122_first_signer (sigOk : C → Except PyErr Unit) (cs : List C) (r : Except PyErr (Option Nat)) :
    findSigner sigOk cs 0 = r ↔
      (r = .ok none ∧ ∀ c ∈ cs, sigOk c = .error .valueError ∨ sigOk c = .error .invalidSignature) ∨
      ∃ pre c post, cs = pre ++ c :: post ∧
        (∀ d ∈ pre, sigOk d = .error .valueError ∨ sigOk d = .error .invalidSignature) ∧
        ((sigOk c = .ok () ∧ r = .ok (some pre.length)) ∨
         ∃ e, sigOk c = .error e ∧ e ≠ .valueError ∧ e ≠ .invalidSignature ∧ r = .error e) := by
  have := findSigner_spec sigOk cs 0 r
  simp only [Nat.zero_add] at this
  exact this

example : findSigner (fun n : Nat => if n = 7 then .ok () else .error .valueError) [3, 5, 7, 7] 0 = .ok (some 2) :=
  (C122_first_signer _ _ _).2 (Or.inr ⟨[3, 5], 7, [7], rfl, by decide, Or.inl ⟨rfl, rfl⟩⟩)

/-- **C122.** A centrally generated key is accepted only if the certificates of the structure form, after reordering, a
chain from the certificate of the key generation authority to a trust anchor, each certificate signed by the next, that
certificate has the extended key usage `cmKGA`, its key verifies the signature over the content, the content has the
digest named in the signed attributes, and (unless a key of the chain is post-quantum or composite) OpenSSL accepts
the chain. -/
theorem C122_accepted {P S : Type} (env : ChainEnv C N K) (o : SdEnv C) (anchors : Except PyErr (List C))
    (sd : SignedData C P S) (p : P) (h : validateSignedData env o anchors sd = .ok p) :
    sd.key = .ok p ∧ sd.version = 3 ∧ sd.contentType = true ∧
    ∃ as kga rest d, anchors = .ok as ∧ (kga :: rest).Perm sd.certs ∧ Linked env kga rest ∧
      lastOf kga rest ∈ as ∧ o.sigOk kga = .ok () ∧ sd.attrDigest = .ok d ∧ o.digest kga = .ok d ∧
      o.conform kga = true ∧ (∃ l, env.eku kga = .ok (some l) ∧ "cmKGA" ∈ l) ∧
      ((∀ c ∈ kga :: rest, env.pqKey c = false) → env.openssl (kga :: rest) = .ok ()) := by
  unfold validateSignedData at h
  by_cases h1 : sd.version ≠ 3
  · rw [if_pos h1] at h; cases h
  rw [if_neg h1] at h
  by_cases h2 : sd.digestAlgs ≠ 1
  · rw [if_pos h2] at h; cases h
  rw [if_neg h2] at h
  by_cases h3 : sd.contentType = false
  · rw [if_pos h3] at h; cases h
  rw [if_neg h3] at h
  by_cases h4 : sd.trailing = true
  · rw [if_pos h4] at h; cases h
  rw [if_neg h4] at h
  cases hk : sd.key with
  | error e => rw [hk] at h; cases h
  | ok q =>
  rw [hk] at h
  cases hc : signedDataCerts env sd.certs with
  | error e => rw [hc] at h; cases h
  | ok ch =>
  rw [hc] at h
  cases ch with
  | nil => cases h
  | cons kga rest =>
  dsimp only at h
  obtain ⟨hp, hL⟩ := C122_certs env sd.certs _ hc
  cases hi : checkSignerInfos o sd kga with
  | error e => rw [hi] at h; cases h
  | ok d =>
  rw [hi] at h
  dsimp only at h
  cases hs : checkSdSignature o d kga with
  | error e => rw [hs] at h; cases h
  | ok u =>
  rw [hs] at h
  dsimp only at h
  cases hv : validateKgaCert env anchors o.sigOk (kga :: rest) with
  | error e => rw [hv] at h; cases h
  | ok u =>
  rw [hv] at h
  dsimp only at h
  cases he : validateEku (env.eku kga) ["cmKGA"] .strict with
  | error e => rw [he] at h; cases h
  | ok u =>
  rw [he] at h
  cases h
  refine ⟨rfl, Classical.not_not.1 h1, by simpa using h3, ?_⟩
  -- signer info
  have hinfo : sd.attrDigest = .ok d ∧ o.conform kga = true := by
    unfold checkSignerInfos at hi
    by_cases a1 : sd.signerInfos ≠ 1
    · rw [if_pos a1] at hi; cases hi
    rw [if_neg a1] at hi
    by_cases a2 : sd.infoVersion ≠ 3
    · rw [if_pos a2] at hi; cases hi
    rw [if_neg a2] at hi
    by_cases a3 : sd.sidIsSki = false
    · rw [if_pos a3] at hi; cases hi
    rw [if_neg a3] at hi
    cases hd : sd.attrDigest with
    | error e => rw [hd] at hi; cases hi
    | ok d' =>
      rw [hd] at hi
      dsimp only at hi
      cases hal : sd.algs with
      | error e => rw [hal] at hi; cases hi
      | ok u =>
        rw [hal] at hi
        dsimp only at hi
        by_cases a4 : o.conform kga = false
        · rw [if_pos a4] at hi; cases hi
        rw [if_neg a4] at hi
        by_cases a5 : sd.hasSignature = false
        · rw [if_pos a5] at hi; cases hi
        rw [if_neg a5] at hi
        cases hi
        exact ⟨rfl, by simpa using a4⟩
  have hsig : o.digest kga = .ok d ∧ o.sigOk kga = .ok () := by
    unfold checkSdSignature at hs
    cases hd : o.digest kga with
    | error e => rw [hd] at hs; cases hs
    | ok d' =>
      rw [hd] at hs
      dsimp only at hs
      by_cases a : d ≠ d'
      · rw [if_pos a] at hs; cases hs
      rw [if_neg a] at hs
      exact ⟨by rw [Classical.not_not.1 a], hs⟩
  have heku : ∃ l, env.eku kga = .ok (some l) ∧ "cmKGA" ∈ l := by
    cases hq : env.eku kga with
    | error e => rw [hq] at he; cases he
    | ok oo =>
      cases oo with
      | none => rw [hq] at he; cases he
      | some l =>
        rw [hq] at he
        refine ⟨l, rfl, ?_⟩
        have := (validateEku_good ⟨by decide, by decide⟩ l .strict (by decide)).1 he
        have hx := this.1
        change 1 = _ at hx
        cases hf : l.filter (fun o => decide (o ∈ cmpEkus.filter (fun n => decide (n ∈ ["cmKGA"])))) with
        | nil => rw [hf] at hx; cases hx
        | cons a t =>
          have hm : a ∈ l.filter (fun o => decide (o ∈ cmpEkus.filter (fun n => decide (n ∈ ["cmKGA"])))) := by
            rw [hf]; exact List.mem_cons_self ..
          obtain ⟨m1, m2⟩ := List.mem_filter.1 hm
          have m3 := (List.mem_filter.1 (of_decide_eq_true m2)).2
          have m4 : a ∈ ["cmKGA"] := of_decide_eq_true m3
          rw [List.mem_singleton] at m4
          exact m4 ▸ m1
  unfold validateKgaCert at hv
  dsimp only at hv
  cases ha : areAnchors anchors [lastOf kga rest] with
  | error e => rw [ha] at hv; cases hv
  | ok u =>
  rw [ha] at hv
  dsimp only at hv
  obtain ⟨as, ea, hm⟩ := areAnchors_ok ha
  refine ⟨as, kga, rest, d, ea, hp, (hL kga rest rfl).1, hm _ (List.mem_singleton.2 rfl), hsig.2, hinfo.1, hsig.1,
    hinfo.2, heku, fun hpq => ?_⟩
  have : ((kga :: rest).any env.pqKey) = false := List.any_eq_false.2 (fun c hc => by rw [hpq c hc]; simp)
  rw [this, if_neg (by simp)] at hv
  cases ho : env.openssl (kga :: rest) with
  | error e => rw [ho] at hv; cases hv
  | ok u => rfl

end

/-! ## Concrete certificates -/

/-- Certificates of the examples: names and keys are numbers, `by_` is the key that made the signature. -/
structure TCert where
  subj : Nat
  iss : Nat
  key : Nat
  by_ : Nat
  ca : Bool := false
  usage : Option (List Bool) := none
  eku : Option (List String) := none
  pq : Bool := false
  broken : Bool := false
  deriving DecidableEq, Repr

/-- Every issuer is a CA and has signed its predecessor, as `openssl verify` demands. -/
def tVerify : TCert → List TCert → Bool
  | _, [] => true
  | a, b :: l => b.ca && (a.iss == b.subj) && (a.by_ == b.key) && tVerify b l

/-- The environment of the examples. -/
def tEnv : ChainEnv TCert Nat Nat :=
  { subject := (·.subj), issuer := (·.iss), loadKey := fun c => if c.broken then .error .badAlg else .ok c.key
    verify := fun k c _ => if c.by_ = k then .ok () else .error .invalidSignature
    usage := fun c => .ok c.usage, eku := fun c => .ok c.eku, pqKey := (·.pq)
    openssl := fun l => match l with
      | [] => .error .signerNotTrusted
      | a :: l => if tVerify a l then .ok () else .error .signerNotTrusted }

/-- A root, a device certificate issued by it, and a certificate the device has issued. -/
def tRoot : TCert := { subj := 1, iss := 1, key := 10, by_ := 10, ca := true }
def tDev : TCert := { subj := 2, iss := 1, key := 20, by_ := 10, usage := some [true] }
def tForged : TCert := { subj := 3, iss := 2, key := 30, by_ := 20, pq := true }
def tSub : TCert := { subj := 4, iss := 1, key := 40, by_ := 10, ca := true }
def tEnd : TCert := { subj := 5, iss := 4, key := 50, by_ := 40, usage := some [true] }

/-- **C121 (refuted).** A message with a post-quantum signature is trusted on a certificate issued by a device; with a
traditional signature OpenSSL refuses the same chain. -/
theorem C121_issuer_not_ca_refuted :
    ∃ (f e root : TCert), root ∈ [tRoot] ∧ e.ca = false ∧
      checkTrusted tEnv (.ok [tRoot]) true .modern false (some [f, e, root]) = .ok () ∧
      checkTrusted tEnv (.ok [tRoot]) true .other false (some [f, e, root]) = .error .signerNotTrusted :=
  ⟨tForged, tDev, tRoot, by decide, rfl, by decide +kernel, by decide +kernel⟩

/-- The hypotheses of `C121_any_holder_refuted` are satisfiable. -/
example : checkTrusted tEnv (.ok [tRoot]) true .modern false (some [tForged, tDev, tRoot]) = .ok () := by
  refine C121_any_holder_refuted tEnv [tRoot] true tForged tDev tRoot (by decide) ?_ rfl ?_ (by unfold SelfIssued; decide)
    ?_ ⟨?_, ?_⟩
  · exact (isCertSigner_true tEnv _ _).1 (by decide +kernel)
  · exact (isCertSigner_true tEnv _ _).1 (by decide +kernel)
  · rw [← isCertSigner_true]; decide +kernel
  · simp only [← isCertSigner_true]; decide +kernel
  · intro x hx d hd e he
    have : ∀ x ∈ tForged :: [tForged, tDev, tRoot], ∀ d ∈ tForged :: [tForged, tDev, tRoot],
        isCertSigner tEnv x d = .ok true ∨ isCertSigner tEnv x d = .ok false := by decide +kernel
    rcases this x hx d hd with h | h <;> (rw [h] at he; cases he)

/-- **C121 (refuted).** A key usage extension need not allow signing if the signer certificate is an anchor, or if the
signature is a post-quantum one. -/
theorem C121_usage_refuted :
    ∃ (a s : TCert), a.usage = some [false, false, true] ∧ s.usage = some [false, false, true] ∧
      checkTrusted tEnv (.ok [a]) true .other false (some [a]) = .ok () ∧
      checkTrusted tEnv (.ok [tRoot]) true .modern false (some [s, tRoot]) = .ok () ∧
      checkTrusted tEnv (.ok [tRoot]) true .other false (some [s, tRoot]) = .error .badKeyUsage :=
  ⟨{ tRoot with usage := some [false, false, true] }, { tDev with usage := some [false, false, true] }, rfl, rfl,
    by decide +kernel, by decide +kernel, by decide +kernel⟩

/-- A second certificate for the name and key of `tSub`, from a root that is not an anchor. -/
def tOther : TCert := { subj := 9, iss := 9, key := 90, by_ := 90, ca := true }
def tCross : TCert := { tSub with iss := 9, by_ := 90 }

/-- **C121 (refuted).** Whether a signer with a path to an anchor is trusted depends on the order of the extra
certificates: only the first issuer that fits is tried. The order is not protected. -/
theorem C121_order_refuted :
    ∃ (xs ys : List TCert), xs.Perm ys ∧ Path tEnv xs tEnd [tSub, tRoot] ∧
      checkTrusted tEnv (.ok [tRoot]) true .other false (some xs) = .error .signerNotTrusted ∧
      checkTrusted tEnv (.ok [tRoot]) true .other false (some ys) = .ok () := by
  refine ⟨[tEnd, tCross, tSub, tOther, tRoot], [tEnd, tSub, tCross, tOther, tRoot],
    (List.Perm.swap ..).cons tEnd, ?_, by decide +kernel, by decide +kernel⟩
  refine .step (by decide) ((isCertSigner_true tEnv _ _).1 (by decide +kernel)) (by unfold SelfIssued; decide)
    (.root (by decide) ((isCertSigner_true tEnv _ _).1 (by decide +kernel)) rfl)

/-- **C121 (refuted).** An anchor that is not self-issued is passed over: the signer is trusted without the root
certificate in the message and refused with it. -/
theorem C121_anchor_passed_refuted :
    ∃ (anchor : TCert), anchor ≠ tRoot ∧
      checkTrusted tEnv (.ok [anchor]) true .other false (some [tEnd, anchor]) = .ok () ∧
      checkTrusted tEnv (.ok [anchor]) true .other false (some [tEnd, anchor, tRoot]) = .error .signerNotTrusted :=
  ⟨tSub, by decide, by decide +kernel, by decide +kernel⟩

/-- **C121 (refuted).** After a key rollover, the certificate of the new key under the old one is self-issued but not
self-signed; the chain ends there, and the old root is not reached although it is an anchor and in the message. -/
theorem C121_rollover_refuted :
    ∃ (ee newWithOld old : TCert), SignedBy tEnv ee newWithOld ∧ SignedBy tEnv newWithOld old ∧
      checkTrusted tEnv (.ok [old]) true .other false (some [ee, newWithOld, old]) = .error .signerNotTrusted := by
  refine ⟨{ subj := 7, iss := 1, key := 70, by_ := 11 }, { subj := 1, iss := 1, key := 11, by_ := 10, ca := true },
    tRoot, ?_, ?_, by decide +kernel⟩
  · exact (isCertSigner_true tEnv _ _).1 (by decide +kernel)
  · exact (isCertSigner_true tEnv _ _).1 (by decide +kernel)

/-- **C121 (refuted).** One extra certificate with a key that cannot be loaded and the name of an issuer makes the check
raise, although a path to an anchor exists. -/
theorem C121_unreadable_refuted :
    ∃ (x : TCert), checkTrusted tEnv (.ok [tRoot]) true .other false (some [tDev, tRoot]) = .ok () ∧
      checkTrusted tEnv (.ok [tRoot]) true .other false (some [tDev, x, tRoot]) = .error .badAlg :=
  ⟨{ tRoot with broken := true }, by decide +kernel, by decide +kernel⟩

/-- **C121 (refuted).** A chain can list certificates repeatedly: two certification authorities that have certified
each other. -/
theorem C121_cycle_refuted :
    ∃ (ee a b : TCert), buildChain tEnv ee [a, b] = .ok [ee, a, b, a] :=
  ⟨{ subj := 1, iss := 2, key := 1, by_ := 2 }, { subj := 2, iss := 3, key := 2, by_ := 3 },
    { subj := 3, iss := 2, key := 3, by_ := 2 }, by decide +kernel⟩

example : buildChain tEnv tEnd [tRoot, tSub, tDev] true = .ok [tEnd, tSub, tRoot] := by decide +kernel
example : buildChain tEnv tEnd [tSub, tDev] true = .error .valueError := by decide +kernel
example : checkTrusted tEnv (.ok [tRoot]) true .other false (some [tEnd, tRoot, tSub]) = .ok () := by decide +kernel

/-- A certificate of a key generation authority. -/
def tKga : TCert := { subj := 6, iss := 4, key := 60, by_ := 40, eku := some ["cmKGA"] }

/-- A `SignedData` structure of the examples: the key is `1`, the digest `[5]`, the signature of key `60`. -/
def tSd (certs : List TCert) (sid : Nat) : SignedData TCert Nat Nat :=
  { version := 3, digestAlgs := 1, contentType := true, trailing := false, key := .ok 1, certs := certs
    signerInfos := 1, infoVersion := 3, sidIsSki := true, sid := sid, attrDigest := .ok [5], algs := .ok ()
    hasSignature := true }

def tSdEnv : SdEnv TCert :=
  { conform := fun _ => true, digest := fun _ => .ok [5]
    sigOk := fun c => if c.key = 60 then .ok () else .error .invalidSignature }

example : validateSignedData tEnv tSdEnv (.ok [tRoot]) (tSd [tKga, tSub, tRoot] 60) = .ok 1 := by decide +kernel
example : validateSignedData tEnv tSdEnv (.ok [tRoot]) (tSd [tRoot, tSub, tKga] 60) = .ok 1 := by decide +kernel
example : validateSignedData tEnv tSdEnv (.ok [tRoot]) (tSd [tSub, tKga, tRoot] 60) = .error .valueError := by
  decide +kernel
example : validateSignedData tEnv tSdEnv (.ok [tOther]) (tSd [tKga, tSub, tRoot] 60) = .error .signerNotTrusted := by
  decide +kernel
example : validateSignedData tEnv tSdEnv (.ok [tRoot]) (tSd [{ tKga with eku := none }, tSub, tRoot] 60)
    = .error .valueError := by decide +kernel

/-- **C122 (refuted).** The signer identifier must be the subject key identifier of the certificate of the key
generation authority; any value is accepted. (The key stands for its identifier.) -/
theorem C122_sid_refuted :
    ∃ (sd : SignedData TCert Nat Nat), (∀ c ∈ sd.certs, sd.sid ≠ c.key) ∧
      validateSignedData tEnv tSdEnv (.ok [tRoot]) sd = .ok 1 :=
  ⟨tSd [tKga, tSub, tRoot] 999, by decide, by decide +kernel⟩

/-- **C122 (refuted).** With a post-quantum key in the chain, the issuer of the authority's certificate need not be a
certification authority: a device can vouch for its own. -/
theorem C122_issuer_not_ca_refuted :
    ∃ (kga e root : TCert), e.ca = false ∧ root ∈ [tRoot] ∧
      validateSignedData tEnv tSdEnv (.ok [tRoot]) (tSd [kga, e, root] 60) = .ok 1 ∧
      validateSignedData tEnv tSdEnv (.ok [tRoot]) (tSd [{ kga with pq := false }, e, root] 60)
        = .error .signerNotTrusted :=
  ⟨{ subj := 6, iss := 2, key := 60, by_ := 20, eku := some ["cmKGA"], pq := true }, tDev, tRoot, rfl, by decide,
    by decide +kernel, by decide +kernel⟩

end Verif.Check
