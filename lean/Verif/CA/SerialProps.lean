import Verif.CA.Serial

/-!
# Properties of serial numbers: C13
-/

namespace Verif.CA

/-- The serial numbers issued so far. -/
def SerSt.serials (st : SerSt) : List Int := st.issued.map (·.1)

theorem serialLoop_spec (used : Int → Bool) (draws : Nat → Int) (n pos : Nat) (last : Option Int) :
    (∃ k, k < n ∧ used (draws (pos + k)) = false ∧ (∀ j, j < k → used (draws (pos + j)) = true) ∧
        serialLoop used draws n pos last = (some (draws (pos + k)), pos + k + 1)) ∨
      ((∀ j, j < n → used (draws (pos + j)) = true) ∧
        serialLoop used draws n pos last = ((if n = 0 then last else some (draws (pos + n - 1))), pos + n)) := by
  induction n generalizing pos last with
  | zero => exact Or.inr ⟨fun j hj => absurd hj (Nat.not_lt_zero _), rfl⟩
  | succ n ih =>
    unfold serialLoop
    by_cases hu : used (draws pos) = false
    · rw [if_pos hu]
      exact Or.inl ⟨0, Nat.succ_pos _, hu, fun j hj => absurd hj (Nat.not_lt_zero _), rfl⟩
    · rw [if_neg hu]
      have hu' : used (draws pos) = true := by cases h : used (draws pos) <;> first | rfl | exact absurd h hu
      rcases ih (pos + 1) (some (draws pos)) with ⟨k, h1, h2, h3, h4⟩ | ⟨h1, h2⟩
      · refine Or.inl ⟨k + 1, by omega, by rw [show pos + (k + 1) = pos + 1 + k by omega]; exact h2, ?_, ?_⟩
        · intro j hj
          cases j with
          | zero => exact hu'
          | succ j => rw [show pos + (j + 1) = pos + 1 + j by omega]; exact h3 j (by omega)
        · rw [h4, show pos + (k + 1) = pos + 1 + k by omega]
      · refine Or.inr ⟨?_, ?_⟩
        · intro j hj
          cases j with
          | zero => exact hu'
          | succ j => rw [show pos + (j + 1) = pos + 1 + j by omega]; exact h1 j (by omega)
        · rw [h2, if_neg (Nat.succ_ne_zero n)]
          by_cases hn : n = 0
          · subst hn
            rfl
          · rw [if_neg hn, show pos + 1 + n = pos + (n + 1) by omega]

theorem discoveryLoop_spec (used : Int → Bool) (draws : Nat → Int) (n pos : Nat) :
    (∃ k, k < n ∧ used (draws (pos + k)) = false ∧ (∀ j, j < k → used (draws (pos + j)) = true) ∧
        discoveryLoop used draws n pos = (some (draws (pos + k)), pos + k + 1)) ∨
      ((∀ j, j < n → used (draws (pos + j)) = true) ∧ discoveryLoop used draws n pos = (none, pos + n)) := by
  induction n generalizing pos with
  | zero => exact Or.inr ⟨fun j hj => absurd hj (Nat.not_lt_zero _), rfl⟩
  | succ n ih =>
    unfold discoveryLoop
    by_cases hu : used (draws pos) = false
    · rw [if_pos hu]
      exact Or.inl ⟨0, Nat.succ_pos _, hu, fun j hj => absurd hj (Nat.not_lt_zero _), rfl⟩
    · rw [if_neg hu]
      have hu' : used (draws pos) = true := by cases h : used (draws pos) <;> first | rfl | exact absurd h hu
      have hall : ∀ m, (∀ j, j < m → used (draws (pos + 1 + j)) = true) → ∀ j, j < m + 1 → used (draws (pos + j)) = true := by
        intro m hm j hj
        cases j with
        | zero => exact hu'
        | succ j => rw [show pos + (j + 1) = pos + 1 + j by omega]; exact hm j (by omega)
      rcases ih (pos + 1) with ⟨k, h1, h2, h3, h4⟩ | ⟨h1, h2⟩
      · refine Or.inl ⟨k + 1, by omega, by rw [show pos + (k + 1) = pos + 1 + k by omega]; exact h2, hall k h3, ?_⟩
        rw [h4, show pos + (k + 1) = pos + 1 + k by omega]
      · exact Or.inr ⟨hall n h1, by rw [h2, show pos + 1 + n = pos + (n + 1) by omega]⟩

/-! ## C13 -/

/-- **C13.** The number chosen for a Sun-hybrid certificate is the first of at most 100 draws that is not the
number of a recorded Sun-hybrid certificate; it collides exactly if all 100 draws do. The exception for this case
is never raised. -/
theorem C13_sun_partial (draws : Nat → Int) (st : SerSt) :
    (∃ k, k < 100 ∧ st.sun.get (draws (st.pos + k)) = none ∧
        (∀ j, j < k → st.sun.get (draws (st.pos + j)) ≠ none) ∧
        (getSerialNumber draws st).1 = some (draws (st.pos + k))) ∨
      ((∀ j, j < 100 → st.sun.get (draws (st.pos + j)) ≠ none) ∧
        (getSerialNumber draws st).1 = some (draws (st.pos + 99))) := by
  rcases serialLoop_spec (fun n => (st.sun.get n).isSome) draws 100 st.pos none with ⟨k, h1, h2, h3, h4⟩ | ⟨h1, h2⟩
  · refine Or.inl ⟨k, h1, Option.isSome_eq_false_iff.mp h2 |> Option.isNone_iff_eq_none.mp, fun j hj hn => ?_, ?_⟩
    · have this : (st.sun.get (draws (st.pos + j))).isSome = true := h3 j hj
      rw [hn] at this
      cases this
    · unfold getSerialNumber
      dsimp only
      rw [h4]
  · refine Or.inr ⟨fun j hj hn => ?_, ?_⟩
    · have this : (st.sun.get (draws (st.pos + j))).isSome = true := h1 j hj
      rw [hn] at this
      cases this
    · unfold getSerialNumber
      dsimp only
      rw [h2]
      rfl

/-- **C13.** The certificate discovery request gets a number that no recorded Sun-hybrid certificate has, or
fails, and it fails exactly if 100 draws collide. -/
theorem C13_discovery_partial (draws : Nat → Int) (st : SerSt) :
    (∃ k, k < 100 ∧ st.sun.get (draws (st.pos + k)) = none ∧
        (∀ j, j < k → st.sun.get (draws (st.pos + j)) ≠ none) ∧
        (discoverySerial draws st).1 = some (draws (st.pos + k))) ∨
      ((∀ j, j < 100 → st.sun.get (draws (st.pos + j)) ≠ none) ∧ (discoverySerial draws st).1 = none) := by
  rcases discoveryLoop_spec (fun n => (st.sun.get n).isSome) draws 100 st.pos with ⟨k, h1, h2, h3, h4⟩ | ⟨h1, h2⟩
  · refine Or.inl ⟨k, h1, Option.isSome_eq_false_iff.mp h2 |> Option.isNone_iff_eq_none.mp, fun j hj hn => ?_, ?_⟩
    · have this : (st.sun.get (draws (st.pos + j))).isSome = true := h3 j hj
      rw [hn] at this
      cases this
    · unfold discoverySerial
      dsimp only
      rw [h4]
  · refine Or.inr ⟨fun j hj hn => ?_, ?_⟩
    · have this : (st.sun.get (draws (st.pos + j))).isSome = true := h1 j hj
      rw [hn] at this
      cases this
    · unfold discoverySerial
      dsimp only
      rw [h2]

/-- **C13 (refuted).** The requester chooses the number: a `CertTemplate` with the number of any certificate
already issued is certified under that number, in every state, whatever the random generator does; a search by
number still finds the older certificate. -/
theorem C13_requested_serial_refuted (draws : Nat → Int) (st : SerSt) (n : Int) (k : Nat) (h : st.bySerial n = some k) :
    (st.step draws (.template (some n))).1 = some n ∧
    (st.step draws (.template (some n))).2.issued = st.issued ++ [(n, st.issued.length)] ∧
    n ∈ st.serials ∧ ¬ (st.step draws (.template (some n))).2.serials.Nodup ∧
    (st.step draws (.template (some n))).2.bySerial n = some k := by
  unfold SerSt.bySerial at h
  cases hf : st.issued.find? (fun e => e.1 == n) with
  | none => rw [hf] at h; cases h
  | some e =>
    have he : e.1 = n := by
      have := List.find?_some hf
      exact eq_of_beq this
    have hm : n ∈ st.serials := List.mem_map.mpr ⟨e, List.mem_of_find?_eq_some hf, he⟩
    refine ⟨rfl, rfl, hm, ?_, ?_⟩
    · intro hnd
      have h2 : (st.step draws (.template (some n))).2.serials = st.serials ++ [n] := by
        change List.map (fun x : Int × Nat => x.1) (st.issued ++ [(n, st.issued.length)]) = _
        rw [List.map_append]
        rfl
      rw [h2] at hnd
      exact (List.nodup_append.mp hnd).2.2 n hm n (List.mem_singleton.mpr rfl) rfl
    · change (List.find? (fun e => e.1 == n) (st.issued ++ [(n, st.issued.length)])).map (·.2) = some k
      rw [List.find?_append, hf]
      rw [hf] at h
      exact h

/-- **C13 (refuted).** Only the Sun-hybrid certificates are consulted: if the next draw is the number of another
certificate of the CA, it is used again. -/
theorem C13_other_serials_refuted (draws : Nat → Int) (st : SerSt) (h1 : draws st.pos ∈ st.serials)
    (h2 : st.sun.get (draws st.pos) = none) :
    (getSerialNumber draws st).1 = some (draws st.pos) ∧ (discoverySerial draws st).1 = some (draws st.pos) ∧
      (∃ n ∈ st.serials, (st.step draws .sunHybrid).1 = some n) ∧ ∃ n ∈ st.serials, (st.step draws .discovery).1 = some n := by
  have hg : getSerialNumber draws st = (some (draws st.pos), { st with pos := st.pos + 1 }) := by
    unfold getSerialNumber
    rw [show (100 : Nat) = 99 + 1 from rfl]
    unfold serialLoop
    dsimp only
    rw [if_pos (by rw [h2]; rfl)]
  have hd : discoverySerial draws st = (some (draws st.pos), { st with pos := st.pos + 1 }) := by
    unfold discoverySerial
    rw [show (100 : Nat) = 99 + 1 from rfl]
    unfold discoveryLoop
    dsimp only
    rw [if_pos (by rw [h2]; rfl)]
  refine ⟨by rw [hg], by rw [hd], ⟨_, h1, ?_⟩, ⟨_, h1, ?_⟩⟩
  · unfold SerSt.step
    rw [hg]
  · unfold SerSt.step
    rw [hd]

/-- **C13 (refuted).** If 100 draws collide, a Sun-hybrid request does not fail: it is certified under a number in
use, and the dictionary entry of the older certificate is overwritten, so that its download address delivers the
new one. -/
theorem C13_sun_collision_refuted (st : SerSt) (n : Int) (k : Nat) (h : st.sun.get n = some k) (hk : k < st.issued.length) :
    (st.step (fun _ => n) .sunHybrid).1 = some n ∧ (st.step (fun _ => n) .sunHybrid).2.sun.get n = some st.issued.length ∧
      (st.step (fun _ => n) .sunHybrid).2.sun.get n ≠ st.sun.get n := by
  have hg : (getSerialNumber (fun _ => n) st).1 = some n := by
    rcases C13_sun_partial (fun _ => n) st with ⟨j, -, -, -, h4⟩ | ⟨-, h4⟩ <;> exact h4
  have hs : (getSerialNumber (fun _ => n) st).2.sun = st.sun ∧ (getSerialNumber (fun _ => n) st).2.issued = st.issued :=
    ⟨rfl, rfl⟩
  rcases hr : getSerialNumber (fun _ => n) st with ⟨o, s⟩
  rw [hr] at hg hs
  cases hg
  have hnew : (st.step (fun _ => n) .sunHybrid).2.sun.get n = some st.issued.length := by
    unfold SerSt.step
    rw [hr]
    change (s.sun.set n s.issued.length).get n = _
    rw [Dict.get_set, if_pos rfl, hs.2]
  refine ⟨?_, hnew, ?_⟩
  · unfold SerSt.step
    rw [hr]
  · rw [hnew, h]
    intro he
    cases he
    exact absurd hk (Nat.lt_irrefl _)

/-- The requester gave no serial number. -/
def SerOp.plain : SerOp → Prop
  | .template (some _) => False
  | _ => True

/-- The invariant: all numbers are initial ones or draws already used, without repetition. -/
def SerInv (draws : Nat → Int) (init : List Int) (st : SerSt) : Prop :=
  st.serials.Nodup ∧ ∀ n ∈ st.serials, n ∈ init ∨ ∃ i, i < st.pos ∧ n = draws i

theorem SerInv.addDraw {draws : Nat → Int} {init : List Int} (inj : ∀ i j, draws i = draws j → i = j)
    (hinit : ∀ i, draws i ∉ init) {st st' : SerSt} (h : SerInv draws init st) {i : Nat} (hp : st.pos ≤ i)
    (hq : i < st'.pos) (hs : st'.serials = st.serials ++ [draws i]) : SerInv draws init st' := by
  have hnew : draws i ∉ st.serials := by
    intro hm
    rcases h.2 _ hm with h1 | ⟨j, h1, h2⟩
    · exact hinit i h1
    · have := inj _ _ h2
      omega
  refine ⟨?_, ?_⟩
  · rw [hs]
    refine List.nodup_append.mpr ⟨h.1, List.nodup_cons.mpr ⟨List.not_mem_nil, List.nodup_nil⟩, ?_⟩
    rintro a ha b hb rfl
    rw [List.mem_singleton] at hb
    exact hnew (hb ▸ ha)
  · intro n hn
    rw [hs] at hn
    rcases List.mem_append.mp hn with hn | hn
    · rcases h.2 n hn with h1 | ⟨j, h1, h2⟩
      · exact Or.inl h1
      · exact Or.inr ⟨j, by omega, h2⟩
    · rw [List.mem_singleton] at hn
      exact Or.inr ⟨i, hq, hn⟩

theorem SerInv.mono {draws : Nat → Int} {init : List Int} {st st' : SerSt} (h : SerInv draws init st)
    (hp : st.pos ≤ st'.pos) (hs : st'.serials = st.serials) : SerInv draws init st' := by
  refine ⟨by rw [hs]; exact h.1, fun n hn => ?_⟩
  rw [hs] at hn
  rcases h.2 n hn with h1 | ⟨j, h1, h2⟩
  · exact Or.inl h1
  · exact Or.inr ⟨j, by omega, h2⟩

theorem serials_append {st st' : SerSt} {n : Int} {k : Nat} (h : st'.issued = st.issued ++ [(n, k)]) :
    st'.serials = st.serials ++ [n] := by
  unfold SerSt.serials
  rw [h, List.map_append]
  rfl

theorem SerInv.step {draws : Nat → Int} {init : List Int} (inj : ∀ i j, draws i = draws j → i = j)
    (hinit : ∀ i, draws i ∉ init) {st : SerSt} (h : SerInv draws init st) {op : SerOp} (hop : op.plain) :
    SerInv draws init (st.step draws op).2 := by
  cases op with
  | sunHybrid =>
    unfold SerSt.step getSerialNumber
    rcases serialLoop_spec (fun n => (st.sun.get n).isSome) draws 100 st.pos none with ⟨k, -, -, -, h4⟩ | ⟨-, h4⟩
    · rw [h4]
      exact h.addDraw inj hinit (i := st.pos + k) (by omega) (Nat.lt_succ_self _) (serials_append (k := st.issued.length) rfl)
    · rw [h4]
      exact h.addDraw inj hinit (i := st.pos + 100 - 1) (by omega)
        (show st.pos + 100 - 1 < st.pos + 100 by omega) (serials_append (k := st.issued.length) rfl)
  | discovery =>
    unfold SerSt.step discoverySerial
    rcases discoveryLoop_spec (fun n => (st.sun.get n).isSome) draws 100 st.pos with ⟨k, -, -, -, h4⟩ | ⟨-, h4⟩
    · rw [h4]
      exact h.addDraw inj hinit (i := st.pos + k) (by omega) (Nat.lt_succ_self _) (serials_append (k := st.issued.length) rfl)
    · rw [h4]
      exact h.mono (show st.pos ≤ st.pos + 100 by omega) rfl
  | template s =>
    cases s with
    | some n => exact absurd hop (fun x => x)
    | none => exact h.addDraw inj hinit (i := st.pos) (Nat.le_refl _) (Nat.lt_succ_self _) (serials_append (k := st.issued.length) rfl)
  | csr => exact h.addDraw inj hinit (i := st.pos) (Nat.le_refl _) (Nat.lt_succ_self _) (serials_append (k := st.issued.length) rfl)

/-- **C13.** What holds: if no requester names a serial number, and the random generator never repeats a number
and never hits one the CA had at the start, then all certificates of every history have different numbers. -/
theorem C13_unique_partial {draws : Nat → Int} (inj : ∀ i j, draws i = draws j → i = j) (st : SerSt)
    (hnd : st.serials.Nodup) (hinit : ∀ i, draws i ∉ st.serials) (ops : List SerOp) (hops : ∀ op ∈ ops, op.plain) :
    (SerSt.run draws ops st).serials.Nodup := by
  have go : ∀ (ops : List SerOp) (s : SerSt), (∀ op ∈ ops, op.plain) → SerInv draws st.serials s →
      SerInv draws st.serials (SerSt.run draws ops s) := by
    intro ops
    induction ops with
    | nil => exact fun s _ h => h
    | cons op ops ih =>
      intro s ho h
      exact ih _ (fun o ho' => ho o (List.mem_cons_of_mem _ ho')) (h.step inj hinit (ho op List.mem_cons_self))
  exact (go ops st hops ⟨hnd, fun n hn => Or.inl hn⟩).1

/-! ## Examples -/

/-- The initial state: the CA's own Sun-hybrid certificate has number 1 (ca_handler.py 326, 337). -/
def serStart : SerSt := { issued := [(1, 0)], sun := [(1, 0)] }

-- Four certificates with different numbers.
example : (SerSt.run (fun i => i + 10) [.sunHybrid, .template none, .discovery, .csr] serStart).serials = [1, 10, 11, 12, 13] := by
  decide +kernel

-- The number of the CA's own certificate, on request.
example : (SerSt.run (fun i => i + 10) [.template (some 1)] serStart).serials = [1, 1] := by decide +kernel

-- A collision in the first draw is skipped.
example : (SerSt.run (fun i => i + 1) [.sunHybrid] serStart).serials = [1, 2] := by decide +kernel

-- 100 collisions.
example : (serStart.step (fun _ => 1) .sunHybrid).1 = some 1 ∧ (serStart.step (fun _ => 1) .discovery).1 = none := by
  decide +kernel

end Verif.CA
