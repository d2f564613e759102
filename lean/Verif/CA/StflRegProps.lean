import Verif.CA.StflReg
import Verif.CA.StflProps

/-!
# Theorems on registering stateful keys
-/

namespace Verif.CA

variable {C D : Type} [DecidableEq D]

private theorem addState_new {H : C → D} {s s' : StflState D} {c : C} {l : List Nat}
    (h : stflAddState H s c (some l) = (.ok (), s')) :
    s.get (H c) = none ∧ s'.get (H c) = some l ∧ ∀ d, d ≠ H c → s'.get d = s.get d := by
  unfold stflAddState at h
  cases hg : s.get (H c) with
  | some x => rw [hg] at h; cases h
  | none =>
    rw [hg] at h
    cases h
    exact ⟨rfl, Dict.get_set_self _ _ _, fun d hd => Dict.get_set_ne _ _ hd⟩

/-- What `_get_popo_sig` gives for a signature in a request with entries. -/
private theorem popoState_sig {q : StflReq} (hb : q.body = "ir" ∨ q.body = "cr" ∨ q.body = "kur" ∨ q.body = "ccr") {i : Nat}
    {k : Except PyErr Bool} {x : Except PyErr Nat} (hp : q.popos[i]? = some (.signature k x)) {o : Option (List Nat)}
    (h : stflPopoState q i = .ok o) : ∃ n, k = .ok true ∧ x = .ok n ∧ o = some [n] := by
  have hn : q.body ≠ "p10cr" := by
    rcases hb with hb | hb | hb | hb <;> (rw [hb]; decide)
  unfold stflPopoState at h
  rw [if_neg hn, if_pos hb, hp] at h
  dsimp only at h
  unfold stflSigIndex at h
  match k, h with
  | .error e, h => cases h
  | .ok false, h => cases h
  | .ok true, h =>
    match x, h with
    | .error e, h => cases h
    | .ok n, h => cases h; exact ⟨n, rfl, rfl, rfl⟩

private theorem regOne_ok {H : C → D} {stflCert : C → Bool} {q : StflReq} {s s' : StflState D} {i : Nat} {c : C}
    (h : stflRegOne H stflCert q s i c = (.ok (), s')) :
    (∀ d l, s.get d = some l → s'.get d = some l) ∧
    (∀ d, s'.get d ≠ s.get d → stflCert c = true ∧ d = H c) ∧
    (stflCert c = true → ∀ l, stflPopoState q i = .ok (some l) → s'.get (H c) = some l) ∧
    (stflCert c = true → ∃ o, stflPopoState q i = .ok o) := by
  unfold stflRegOne at h
  by_cases hc : stflCert c = false
  · rw [if_pos hc] at h
    cases h
    refine ⟨fun d l h => h, fun d h => absurd rfl h, fun h => ?_, fun h => ?_⟩
    · rw [hc] at h; cases h
    · rw [hc] at h; cases h
  · rw [if_neg hc] at h
    cases hp : stflPopoState q i with
    | error e => rw [hp] at h; cases h
    | ok o =>
      rw [hp] at h
      cases o with
      | none =>
        cases h
        exact ⟨fun d l h => h, fun d h => absurd rfl h, fun _ l h => (by cases h), fun _ => ⟨_, rfl⟩⟩
      | some l =>
        obtain ⟨h1, h2, h3⟩ := addState_new h
        refine ⟨fun d x hd => ?_, fun d hd => ?_, fun _ x hx => (by cases hx; exact h2), fun _ => ⟨_, rfl⟩⟩
        · rw [h3 d (fun e => by rw [e, h1] at hd; cases hd)]; exact hd
        · refine ⟨by cases hs : stflCert c with | true => rfl | false => exact absurd hs hc, ?_⟩
          apply Decidable.byContradiction
          intro hne
          exact hd (h3 d hne)

private theorem regLoop_ok {H : C → D} {stflCert : C → Bool} {q : StflReq} : ∀ (certs : List C) (s s' : StflState D) (i : Nat),
    stflRegLoop H stflCert q s i certs = (.ok (), s') →
    (∀ d l, s.get d = some l → s'.get d = some l) ∧
    (∀ d, s'.get d ≠ s.get d → ∃ c ∈ certs, stflCert c = true ∧ d = H c) ∧
    (∀ (j : Nat) c, certs[j]? = some c → stflCert c = true → (∃ o, stflPopoState q (i + j) = .ok o) ∧
      ∀ l, stflPopoState q (i + j) = .ok (some l) → s'.get (H c) = some l) := by
  intro certs
  induction certs with
  | nil =>
    intro s s' i h
    cases h
    exact ⟨fun d l h => h, fun d h => absurd rfl h, fun j c hj => (by cases hj)⟩
  | cons c cs ih =>
    intro s s' i h
    unfold stflRegLoop at h
    cases hr : stflRegOne H stflCert q s i c with
    | mk r s1 =>
      rw [hr] at h
      cases r with
      | error e => cases h
      | ok u =>
        dsimp only at h
        obtain ⟨a1, a2, a3, a4⟩ := regOne_ok hr
        obtain ⟨b1, b2, b3⟩ := ih s1 s' (i + 1) h
        refine ⟨fun d l hd => b1 d l (a1 d l hd), fun d hd => ?_, fun j x hj hx => ?_⟩
        · by_cases h1 : s'.get d = s1.get d
          · obtain ⟨h2, h3⟩ := a2 d (by rw [← h1]; exact hd)
            exact ⟨c, List.mem_cons_self, h2, h3⟩
          · obtain ⟨x, hx, h2⟩ := b2 d h1
            exact ⟨x, List.mem_cons_of_mem _ hx, h2⟩
        · cases j with
          | zero =>
            cases hj
            exact ⟨a4 hx, fun l hl => b1 _ _ (a3 hx l hl)⟩
          | succ j =>
            have e : i + (j + 1) = i + 1 + j := by omega
            rw [e]
            exact b3 j x hj hx

private theorem after_loop {H : C → D} {stflCert : C → Bool} {q : StflReq} {s s' : StflState D} {certs : List C}
    (hb : q.body = "ir" ∨ q.body = "cr" ∨ q.body = "kur" ∨ q.body = "ccr" ∨ q.body = "p10cr")
    (h : stflAfter H stflCert q s certs true = (.ok (), s')) : stflRegLoop H stflCert q s 0 certs = (.ok (), s') := by
  unfold stflAfter at h
  rw [if_neg (not_not_intro (by rcases hb with hb | hb | hb | hb | hb <;> simp [hb])), if_pos rfl] at h
  exact h

/-- If the certificates of a request are registered at once, each certificate for a stateful key is registered with the index
of the proof of possession for this key, and nothing else changes. -/
theorem C231_registered (H : C → D) (stflCert : C → Bool) (q : StflReq) (s s' : StflState D) (certs : List C)
    (hb : q.body = "ir" ∨ q.body = "cr" ∨ q.body = "kur" ∨ q.body = "ccr")
    (h : stflAfter H stflCert q s certs true = (.ok (), s')) :
    (∀ (i : Nat) c k x, certs[i]? = some c → stflCert c = true → q.popos[i]? = some (.signature k x) →
      ∃ n, k = .ok true ∧ x = .ok n ∧ s'.get (H c) = some [n]) ∧
    (∀ d l, s.get d = some l → s'.get d = some l) ∧
    (∀ d, s'.get d ≠ s.get d → ∃ c ∈ certs, stflCert c = true ∧ d = H c) := by
  obtain ⟨h1, h2, h3⟩ := regLoop_ok _ _ _ _ (after_loop (by rcases hb with h | h | h | h <;> simp [h]) h)
  refine ⟨fun i c k x hi hc hp => ?_, h1, h2⟩
  obtain ⟨⟨o, ho⟩, h4⟩ := h3 i c hi hc
  rw [Nat.zero_add] at ho h4
  obtain ⟨n, e1, e2, e3⟩ := popoState_sig hb hp ho
  exact ⟨n, e1, e2, h4 _ (by rw [ho, e3])⟩

/-- The certificate of a `p10cr` is registered with the index of the signature of the request. -/
theorem C231_p10 (H : C → D) (stflCert : C → Bool) (q : StflReq) (s s' : StflState D) (c : C) (k : Except PyErr Bool)
    (x : Except PyErr Nat) (hb : q.body = "p10cr") (hq : q.popos = [.signature k x]) (hc : stflCert c = true)
    (h : stflAfter H stflCert q s [c] true = (.ok (), s')) :
    ∃ n, k = .ok true ∧ x = .ok n ∧ s'.get (H c) = some [n] := by
  obtain ⟨_, _, h3⟩ := regLoop_ok _ _ _ _ (after_loop (by simp [hb]) h)
  obtain ⟨⟨o, ho⟩, h4⟩ := h3 0 c rfl hc
  have hs : stflPopoState q (0 + 0) = stflSigIndex k x := by
    unfold stflPopoState
    rw [if_pos hb, hq]
    rfl
  rw [hs] at ho h4
  unfold stflSigIndex at ho h4
  match k, ho, h4 with
  | .error e, ho, _ => cases ho
  | .ok false, ho, _ => cases ho
  | .ok true, ho, h4 =>
    match x, ho, h4 with
    | .error e, ho, _ => cases ho
    | .ok n, ho, h4 => exact ⟨n, rfl, rfl, h4 _ rfl⟩

/-- The index of a proof of possession which was registered is never accepted again, in any history that follows. -/
theorem C231_never_again (H : C → D) (stflCert isStfl : C → Bool) (cfg : StflCfg) (hv : cfg.savedV = true) (q : StflReq)
    (s s' : StflState D) (certs : List C) (hb : q.body = "ir" ∨ q.body = "cr" ∨ q.body = "kur" ∨ q.body = "ccr")
    (h : stflAfter H stflCert q s certs true = (.ok (), s')) {i : Nat} {c : C} {k : Except PyErr Bool} {n : Nat}
    (hi : certs[i]? = some c) (hc : stflCert c = true) (hp : q.popos[i]? = some (.signature k (.ok n)))
    (ops : List (StflOp C)) : countStfl (Consumes H (H c) n) ops (stflRun H isStfl cfg s' ops).1 = 0 := by
  obtain ⟨n', _, e2, h3⟩ := (C231_registered H stflCert q s s' certs hb h).1 i c k _ hi hc hp
  cases e2
  exact used_none H isStfl cfg hv _ _ ops s' ⟨_, h3, List.mem_singleton.2 rfl⟩

/-- A proof of possession by a registration authority, or without a signature, is refused for a stateful key. -/
theorem C231_proof_needed (H : C → D) (stflCert : C → Bool) (q : StflReq) (s s' : StflState D) (certs : List C)
    (hb : q.body = "ir" ∨ q.body = "cr" ∨ q.body = "kur" ∨ q.body = "ccr")
    (h : stflAfter H stflCert q s certs true = (.ok (), s')) {i : Nat} {c : C} (hi : certs[i]? = some c)
    (hc : stflCert c = true) : q.popos[i]? ≠ some .raVerified ∧ q.popos[i]? ≠ some .other := by
  obtain ⟨_, _, h3⟩ := regLoop_ok _ _ _ _ (after_loop (by rcases hb with h | h | h | h <;> simp [h]) h)
  obtain ⟨⟨o, ho⟩, _⟩ := h3 i c hi hc
  rw [Nat.zero_add] at ho
  have hn : q.body ≠ "p10cr" := by rcases hb with hb | hb | hb | hb <;> (rw [hb]; decide)
  constructor <;>
  · intro hp
    unfold stflPopoState at ho
    rw [if_neg hn, if_pos hb, hp] at ho
    cases ho

/-- Certificates confirmed by a `certConf` are registered rightly if there is one. -/
theorem C231_confirm_partial (H : C → D) (stflCert : C → Bool) (q : StflReq) (s s' : StflState D) (c : C)
    (hb : q.body = "ir" ∨ q.body = "cr" ∨ q.body = "kur" ∨ q.body = "ccr") (hc : stflCert c = true) {k : Except PyErr Bool}
    {x : Except PyErr Nat} (hp : q.popos[0]? = some (.signature k x))
    (h : stflConfirm H stflCert q s [c] = (.ok (), s')) : ∃ n, k = .ok true ∧ x = .ok n ∧ s'.get (H c) = some [n] := by
  unfold stflConfirm at h
  rw [if_pos hc] at h
  cases hr : stflAfter H stflCert q s [c] true with
  | mk r s1 =>
    rw [hr] at h
    cases r with
    | error e => cases h
    | ok u =>
      cases h
      exact (C231_registered H stflCert q s s' [c] hb hr).1 0 c k x rfl hc hp

/-- With two certificates each is registered with the index of the first proof: the index of the second proof is accepted
again, as that of a signed message. -/
theorem C231_confirm_refuted : ∃ (q : StflReq) (s' : StflState Nat) (m : StflMsg Nat),
    q.popos = [.signature (.ok true) (.ok 3), .signature (.ok true) (.ok 8)] ∧
    stflConfirm id (fun _ => true) q [] [5, 6] = (.ok (), s') ∧ m.index = 8 ∧ m.extra = [6] ∧
    Res.isOk (stflHandle id (fun _ => true) {} s' m) = true :=
  ⟨⟨"cr", _⟩, _, { body := "cr", extra := [6], index := 8 }, rfl, rfl, rfl, rfl, by decide⟩

/-- With a certificate for another key first, the confirmation of a stateful one is refused. -/
theorem C231_confirm_mixed_refuted : ∃ q : StflReq, q.popos = [.signature (.ok false) (.ok 0), .signature (.ok true) (.ok 8)] ∧
    (stflConfirm id (fun c => decide (c = 6)) q [] [5, 6]).1 = .error .valueError ∧
    (stflAfter id (fun c => decide (c = 6)) q [] [5, 6] true).1 = .ok () :=
  ⟨⟨"cr", _⟩, rfl, rfl, rfl⟩

/-- The indices are kept for each certificate: of two certificates for one key each accepts the same index. -/
theorem C231_same_key_refuted : ∃ (key : Nat → Nat) (s : StflState Nat) (m1 m2 : StflMsg Nat) (c1 c2 : Nat),
    m1.extra = [c1] ∧ m2.extra = [c2] ∧ key c1 = key c2 ∧ m1.index = m2.index ∧
    Res.isOk (stflHandle id (fun _ => true) {} s m1) = true ∧
    Res.isOk (stflHandle id (fun _ => true) {} (stflHandle id (fun _ => true) {} s m1).2 m2) = true :=
  ⟨fun _ => 0, [(5, [0]), (6, [1])], { body := "cr", extra := [5], index := 7 }, { body := "cr", extra := [6], index := 7 },
    5, 6, rfl, rfl, rfl, rfl, by decide, by decide⟩

/-- Both certificates of a chameleon request are registered with the index of their own signature. -/
theorem C231_chameleon (H : C → D) (stflCert : C → Bool) (s s' : StflState D) (certs : List C)
    (delta base : Except PyErr Bool × Except PyErr Nat) (h : stflChameleon H stflCert s certs delta base = (.ok (), s')) :
    ∃ p d, certs = [p, d] ∧
      (stflCert d = true → ∃ n, delta = (.ok true, .ok n) ∧ s'.get (H d) = some [n]) ∧
      (stflCert p = true → ∃ n, base = (.ok true, .ok n) ∧ s'.get (H p) = some [n]) := by
  have half : ∀ {s s' : StflState D} {c : C} {k : Except PyErr Bool} {x : Except PyErr Nat},
      stflAddHalf H stflCert s c k x = (.ok (), s') →
      (∀ d l, s.get d = some l → s'.get d = some l) ∧
      (stflCert c = true → ∃ n, k = .ok true ∧ x = .ok n ∧ s'.get (H c) = some [n]) := by
    intro s s' c k x h
    unfold stflAddHalf at h
    by_cases hc : stflCert c = false
    · rw [if_pos hc] at h
      cases h
      exact ⟨fun d l h => h, fun h => (by rw [hc] at h; cases h)⟩
    · rw [if_neg hc] at h
      match k, h with
      | .error e, h => cases h
      | .ok false, h => cases h
      | .ok true, h =>
        match x, h with
        | .error e, h => cases h
        | .ok n, h =>
          obtain ⟨h1, h2, h3⟩ := addState_new h
          refine ⟨fun d l hd => ?_, fun _ => ⟨n, rfl, rfl, h2⟩⟩
          rw [h3 d (fun e => by rw [e, h1] at hd; cases hd)]
          exact hd
  unfold stflChameleon at h
  split at h
  · rename_i p d
    refine ⟨p, d, rfl, ?_⟩
    cases hr : stflAddHalf H stflCert s d delta.1 delta.2 with
    | mk r s1 =>
      rw [hr] at h
      cases r with
      | error e => cases h
      | ok u =>
        dsimp only at h
        obtain ⟨_, a2⟩ := half hr
        obtain ⟨b1, b2⟩ := half h
        refine ⟨fun hd => ?_, fun hp => ?_⟩
        · obtain ⟨n, e1, e2, e3⟩ := a2 hd
          exact ⟨n, by rw [← e1, ← e2], b1 _ _ e3⟩
        · obtain ⟨n, e1, e2, e3⟩ := b2 hp
          exact ⟨n, by rw [← e1, ← e2], e3⟩
  · cases h

example : stflAfter id (fun _ => true) ⟨"cr", [.signature (.ok true) (.ok 3), .signature (.ok true) (.ok 8)]⟩ [] [5, 6] true
    = (.ok (), [(5, [3]), (6, [8])]) := rfl
example : (stflAfter id (fun _ => true) ⟨"cr", [.raVerified]⟩ [] [5] true).1 = .error .badRequest := rfl
example : stflChameleon id (fun _ => true) [] [5, 6] (.ok true, .ok 2) (.ok true, .ok 4)
    = (.ok (), [(6, [2]), (5, [4])]) := rfl

end Verif.CA
