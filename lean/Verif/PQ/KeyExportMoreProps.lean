import Verif.PQ.KeyExportProps

/-!
# C255: the names of the forms and the length in front of a Chempat key
-/

namespace Verif.PQ.KeyExport

open Verif.CA (Bytes PyErr)
open Verif.PQ.Store (SaveType)

/-- The names of the forms (`suiteenums.py` 252-258). -/
def typeNames : List (String × SaveType) := [("seed", .seed), ("raw", .raw), ("seed_and_raw", .both)]

/-- **C255** A form is chosen by its name, in small or capital letters and with `-` or `_`; all other texts are refused with
ValueError. -/
theorem C255_type_names (t : List Char) :
    (∀ s, getType t = .ok s ↔ ∃ n, (n, s) ∈ typeNames ∧ t.map (fun c => if c = '-' then '_' else c.toLower) = n.toList) ∧
    ((∀ x ∈ typeNames, t.map (fun c => if c = '-' then '_' else c.toLower) ≠ x.1.toList) → getType t = .error .valueError) := by
  have hm : (t.map fun c => (if c = '-' then '_' else c).toLower) = t.map (fun c => if c = '-' then '_' else c.toLower) := by
    apply List.map_congr_left
    intro c _
    by_cases h : c = '-'
    · rw [if_pos h, if_pos h]; rfl
    · rw [if_neg h, if_neg h]
  unfold getType typeNames
  dsimp only
  rw [hm]
  generalize t.map (fun c => if c = '-' then '_' else c.toLower) = u
  have n1 : "seed".toList ≠ "raw".toList := by decide +kernel
  have n2 : "seed".toList ≠ "seed_and_raw".toList := by decide +kernel
  have n3 : "raw".toList ≠ "seed_and_raw".toList := by decide +kernel
  by_cases h1 : u = "seed".toList
  · subst h1
    rw [if_pos rfl]
    constructor
    · intro s
      constructor
      · intro h; injection h with h; subst h; exact ⟨"seed", by simp, rfl⟩
      · rintro ⟨n, hn, he⟩
        simp only [List.mem_cons, Prod.mk.injEq, List.not_mem_nil, or_false] at hn
        rcases hn with ⟨rfl, rfl⟩ | ⟨rfl, rfl⟩ | ⟨rfl, rfl⟩
        · rfl
        · exact absurd he n1
        · exact absurd he n2
    · intro h; exact absurd rfl (h _ (List.mem_cons_self ..))
  · rw [if_neg h1]
    by_cases h2 : u = "raw".toList
    · subst h2
      rw [if_pos rfl]
      constructor
      · intro s
        constructor
        · intro h; injection h with h; subst h; exact ⟨"raw", by simp, rfl⟩
        · rintro ⟨n, hn, he⟩
          simp only [List.mem_cons, Prod.mk.injEq, List.not_mem_nil, or_false] at hn
          rcases hn with ⟨rfl, rfl⟩ | ⟨rfl, rfl⟩ | ⟨rfl, rfl⟩
          · exact absurd he.symm n1
          · rfl
          · exact absurd he n3
      · intro h; exact absurd rfl (h ("raw", .raw) (by simp))
    · rw [if_neg h2]
      by_cases h3 : u = "seed_and_raw".toList
      · subst h3
        rw [if_pos rfl]
        constructor
        · intro s
          constructor
          · intro h; injection h with h; subst h; exact ⟨"seed_and_raw", by simp, rfl⟩
          · rintro ⟨n, hn, he⟩
            simp only [List.mem_cons, Prod.mk.injEq, List.not_mem_nil, or_false] at hn
            rcases hn with ⟨rfl, rfl⟩ | ⟨rfl, rfl⟩ | ⟨rfl, rfl⟩
            · exact absurd he.symm n2
            · exact absurd he.symm n3
            · rfl
        · intro h; exact absurd rfl (h ("seed_and_raw", .both) (by simp))
      · rw [if_neg h3]
        refine ⟨fun s => ⟨fun h => (by cases h), ?_⟩, fun _ => rfl⟩
        rintro ⟨n, hn, he⟩
        simp only [List.mem_cons, Prod.mk.injEq, List.not_mem_nil, or_false] at hn
        rcases hn with ⟨rfl, rfl⟩ | ⟨rfl, rfl⟩ | ⟨rfl, rfl⟩
        · exact absurd he h1
        · exact absurd he h2
        · exact absurd he h3

example : getType "SEED-and_raw".toList = .ok .both :=
  ((C255_type_names _).1 _).mpr ⟨"seed_and_raw", by decide, by decide +kernel⟩

/-- **C255** The four bytes in front of the key are its length, the lowest byte first. -/
theorem C255_length (n : Nat) (hn : n < 2 ^ 32) : ∃ a b c d : UInt8, le4 n = [a, b, c, d] ∧
    a.toNat + 2 ^ 8 * b.toNat + 2 ^ 16 * c.toNat + 2 ^ 24 * d.toNat = n := by
  refine ⟨_, _, _, _, rfl, ?_⟩
  simp only [UInt8.toNat_ofNat']
  omega

example : le4 66051 = [3, 2, 1, 0] := by decide

end Verif.PQ.KeyExport
