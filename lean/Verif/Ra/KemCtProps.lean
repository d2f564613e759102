import Verif.Ra.KemCt
import Verif.Ra.GeneralClientIff

/-!
# Properties of the entries with a KEM ciphertext (C264)
-/

namespace Verif.Ra.KemCt

open Verif.CA (PyErr)
open Verif.Ra (Itv idIt)

variable {K E : Type}

/-- The client opens the ciphertext of the first entry of its type. -/
theorem opened (cl : AlgsEnv) (own more : List Itv) (b ct : List UInt8) (size : Strint)
    (hown : ∀ e ∈ own, e.oid ≠ [1, 3, 6, 1, 5, 5, 7, 4, 9999]) (hd : cl.decKem b = some (ct, [])) :
    validateKem cl ⟨"genp", own ++ ⟨[1, 3, 6, 1, 5, 5, 7, 4, 9999], some b⟩ :: more⟩ size = cl.decaps ct := by
  have hv : valueOf (idIt 9999) (own ++ ⟨[1, 3, 6, 1, 5, 5, 7, 4, 9999], some b⟩ :: more) = some (some b) := by
    induction own with
    | nil => rfl
    | cons e es ih =>
      rw [List.cons_append]
      unfold valueOf
      rw [if_neg (show ¬ e.oid = idIt 9999 from hown e (List.mem_cons_self ..))]
      exact ih fun x hx => hown x (List.mem_cons_of_mem _ hx)
  unfold validateKem fetch validateReply
  rw [if_neg (by simp)]
  dsimp only
  rw [hv]
  dsimp only
  unfold readWhole
  dsimp only
  rw [hd]

/-- C264: with a key, what is returned is exactly the secret of the encapsulation (none for a given ciphertext) and an entry of
type 1.3.6.1.5.5.7.4.9999 whose value is the KEM of the key with the ciphertext, manipulated if that is asked for. A hybrid key uses the
key of the CA, others do not. -/
theorem C264_iff (env : KemEnv K E) (k : K) (ca : Option E) (ct : Option (List UInt8)) (fill bad : Bool) (r : Part × Part) :
    prepare env (some k) ca ct fill bad = .ok r ↔
      ∃ ss c o c', ((∃ x, ct = some x ∧ ss = none ∧ c = x) ∨
          (ct = none ∧ ∃ s, ss = some s ∧ ((env.hybrid k = true ∧ env.encaps k ca = .ok (s, c)) ∨
            (env.hybrid k = false ∧ env.encaps k none = .ok (s, c))))) ∧
        env.kemOid k = .ok o ∧ ((bad = true ∧ env.spoil k c = .ok c') ∨ (bad = false ∧ c' = c)) ∧
        r = (.secret ss, .entry ⟨[1, 3, 6, 1, 5, 5, 7, 4, 9999], some (env.encInfo o c')⟩) := by
  have h1 : ∀ ss c, secretAndCt env k ca ct = .ok (ss, c) ↔ ((∃ x, ct = some x ∧ ss = none ∧ c = x) ∨
      (ct = none ∧ ∃ s, ss = some s ∧ ((env.hybrid k = true ∧ env.encaps k ca = .ok (s, c)) ∨
        (env.hybrid k = false ∧ env.encaps k none = .ok (s, c))))) := by
    intro ss c
    unfold secretAndCt
    cases ct with
    | some x =>
      dsimp only
      constructor
      · intro h; injection h with h; injection h with h h'; exact .inl ⟨x, rfl, h.symm, h'.symm⟩
      · rintro (⟨y, hy, rfl, rfl⟩ | ⟨h, _⟩)
        · injection hy with hy; rw [hy]
        · cases h
    | none =>
      dsimp only
      cases hh : env.hybrid k with
      | true =>
        rw [if_pos rfl]
        cases he : env.encaps k ca with
        | error e => simp
        | ok p => obtain ⟨s, c0⟩ := p; simp [eq_comm]
      | false =>
        rw [if_neg (by decide)]
        cases he : env.encaps k none with
        | error e => simp
        | ok p => obtain ⟨s, c0⟩ := p; simp [eq_comm]
  have h2 : ∀ c c', spoiled env k bad c = .ok c' ↔ ((bad = true ∧ env.spoil k c = .ok c') ∨ (bad = false ∧ c' = c)) := by
    intro c c'
    unfold spoiled
    cases bad <;> simp [eq_comm]
  unfold prepare
  dsimp only
  constructor
  · intro h
    cases hs : secretAndCt env k ca ct with
    | error e => rw [hs] at h; cases h
    | ok p =>
      obtain ⟨ss, c⟩ := p
      rw [hs] at h; dsimp only at h
      cases ho : env.kemOid k with
      | error e => rw [ho] at h; cases h
      | ok o =>
        rw [ho] at h; dsimp only at h
        cases hc : spoiled env k bad c with
        | error e => rw [hc] at h; cases h
        | ok c' =>
          rw [hc] at h; dsimp only at h
          injection h with h
          exact ⟨ss, c, o, c', (h1 ss c).mp hs, rfl, (h2 c c').mp hc, h.symm⟩
  · rintro ⟨ss, c, o, c', ha, ho, hb, rfl⟩
    rw [(h1 ss c).mpr ha]
    dsimp only
    rw [ho]
    dsimp only
    rw [(h2 c c').mpr hb]
    rfl

/-- C264 (both sides): the client who opens the entry, among others of other types and before any others, gets the secret which was
returned, if the KEM is correct and the encoding can be read. -/
theorem C264_roundtrip (env : KemEnv K E) (cl : AlgsEnv) (k : K) (ca : Option E) (fill : Bool) (r : Part × Part)
    (own more : List Itv) (size : Strint) (hown : ∀ e ∈ own, e.oid ≠ [1, 3, 6, 1, 5, 5, 7, 4, 9999])
    (henc : ∀ o c, cl.decKem (env.encInfo o c) = some (c, []))
    (hkem : ∀ x s c, env.encaps k x = .ok (s, c) → cl.decaps c = .ok s)
    (h : prepare env (some k) ca none fill false = .ok r) :
    ∃ s e, r = (.secret (some s), .entry e) ∧ validateKem cl ⟨"genp", own ++ e :: more⟩ size = .ok s := by
  obtain ⟨ss, c, o, c', ha, ho, hb, rfl⟩ := (C264_iff env k ca none fill false r).mp h
  rcases hb with ⟨hb, _⟩ | ⟨_, rfl⟩
  · cases hb
  · rcases ha with ⟨x, hx, _⟩ | ⟨_, s, rfl, he⟩
    · cases hx
    · refine ⟨s, _, rfl, ?_⟩
      rw [opened cl own more _ c' size hown (henc o c')]
      rcases he with ⟨_, he⟩ | ⟨_, he⟩ <;> exact hkem _ _ _ he

/-- C264 (a manipulated ciphertext): the client gets what the manipulated ciphertext opens to. -/
theorem C264_bad (env : KemEnv K E) (cl : AlgsEnv) (k : K) (ca : Option E) (ct : Option (List UInt8)) (fill : Bool) (r : Part × Part)
    (own more : List Itv) (size : Strint) (hown : ∀ e ∈ own, e.oid ≠ [1, 3, 6, 1, 5, 5, 7, 4, 9999])
    (henc : ∀ o c, cl.decKem (env.encInfo o c) = some (c, [])) (h : prepare env (some k) ca ct fill true = .ok r) :
    ∃ s e c c', r = (.secret s, .entry e) ∧ env.spoil k c = .ok c' ∧ (∀ x, ct = some x → c = x ∧ s = none) ∧
      validateKem cl ⟨"genp", own ++ e :: more⟩ size = cl.decaps c' := by
  obtain ⟨ss, c, o, c', ha, ho, hb, rfl⟩ := (C264_iff env k ca ct fill true r).mp h
  rcases hb with ⟨_, hb⟩ | ⟨hb, _⟩
  · refine ⟨ss, _, c, c', rfl, hb, ?_, opened cl own more _ c' size hown (henc o c')⟩
    intro x hx
    rcases ha with ⟨y, hy, h1, h2⟩ | ⟨hn, _⟩
    · rw [hx] at hy; injection hy with hy; exact ⟨h2.trans hy.symm, h1⟩
    · rw [hx] at hn; cases hn
  · cases hb

/-- C264 (without a key, false of the code): the documentation assigns the second value to the entry, `${_} ${info_val}=`, and the
declared type says so; but without a key the entry is the first value and the second is `None`. -/
theorem C264_without_key_refuted (env : KemEnv K E) (ca : Option E) (ct : Option (List UInt8)) (fill bad : Bool) :
    ∃ e, prepare env none ca ct fill bad = .ok (.entry e, .secret none) ∧ e.oid = [1, 3, 6, 1, 5, 5, 7, 4, 9999] ∧
      e.val = (if fill = true then some env.rnd else none) := by
  refine ⟨_, rfl, rfl, ?_⟩
  rfl

/-- C264 (a given ciphertext without a key, false of the code): it is dropped without an error. -/
theorem C264_ciphertext_dropped_refuted (env : KemEnv K E) (ca : Option E) (c : List UInt8) (fill bad : Bool) :
    prepare env none ca (some c) fill bad = prepare env none none none fill false := rfl

/-- A KEM for the examples: the ciphertext is the secret with a byte in front. -/
def toyEnv : KemEnv Nat Nat :=
  ⟨fun k => k == 1, fun k ca => .ok ([UInt8.ofNat (k + ca.getD 0)], [9, UInt8.ofNat (k + ca.getD 0)]), fun _ => .ok [1, 2],
   fun _ c => c, fun _ c => .ok (c.map (· + 1)), [4, 0]⟩

example : prepare toyEnv (some 1) (some 5) none false false =
    .ok (.secret (some [6]), .entry ⟨[1, 3, 6, 1, 5, 5, 7, 4, 9999], some [9, 6]⟩) := rfl
example : prepare toyEnv (some 2) (some 5) none false true =
    .ok (.secret (some [2]), .entry ⟨[1, 3, 6, 1, 5, 5, 7, 4, 9999], some [10, 3]⟩) := rfl

end Verif.Ra.KemCt
