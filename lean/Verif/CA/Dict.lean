/-!
# Python dictionaries as association lists

`d[k] = v` replaces the value of an existing key in place and appends a new key otherwise;
`del d[k]` / `d.pop(k)` drops the key.
-/

namespace Verif.CA

/-- A Python `dict` (insertion ordered). -/
abbrev Dict (K V : Type) := List (K × V)

namespace Dict

variable {K V : Type} [DecidableEq K]

/-- `d.get(k)`. -/
def get (d : Dict K V) (k : K) : Option V :=
  match d with
  | [] => none
  | (k', v) :: d => if k = k' then some v else get d k

/-- `d[k] = v`. -/
def set (d : Dict K V) (k : K) (v : V) : Dict K V :=
  match d with
  | [] => [(k, v)]
  | (k', v') :: d => if k = k' then (k, v) :: d else (k', v') :: set d k v

/-- `del d[k]` for a key that may be absent (all pairs of that key are dropped). -/
def erase (d : Dict K V) (k : K) : Dict K V :=
  d.filter (fun p => p.1 ≠ k)

/-- `k in d`. -/
def mem (d : Dict K V) (k : K) : Bool := (d.get k).isSome

theorem get_set (d : Dict K V) (k k' : K) (v : V) :
    (d.set k v).get k' = if k' = k then some v else d.get k' := by
  induction d with
  | nil => simp [set, get]
  | cons p d ih =>
    obtain ⟨a, b⟩ := p
    simp only [set]
    split
    · subst a; simp only [get]; split <;> simp_all
    · simp only [get]; split
      · subst k'; rw [if_neg]; intro h; simp_all
      · exact ih

theorem get_set_self (d : Dict K V) (k : K) (v : V) : (d.set k v).get k = some v := by
  simp [get_set]

theorem get_set_ne (d : Dict K V) {k k' : K} (v : V) (h : k' ≠ k) : (d.set k v).get k' = d.get k' := by
  simp [get_set, h]

theorem get_erase (d : Dict K V) (k k' : K) :
    (d.erase k).get k' = if k' = k then none else d.get k' := by
  induction d with
  | nil => simp [erase, get]
  | cons p d ih =>
    obtain ⟨a, b⟩ := p
    by_cases h : a = k
    · subst h
      have : erase ((a, b) :: d) a = erase d a := by simp [erase]
      rw [this, ih]
      simp only [get]
      split <;> simp_all
    · have : erase ((a, b) :: d) k = (a, b) :: erase d k := by simp [erase, h]
      rw [this]
      simp only [get, ih]
      split
      · subst k'; simp [h]
      · rfl

theorem mem_set_self (d : Dict K V) (k : K) (v : V) : (d.set k v).mem k = true := by
  simp [mem, get_set]

end Dict

end Verif.CA
