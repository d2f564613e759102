import Verif.Check.PubKeyProps

/-!
# C259: the entries of the table of names
-/

namespace Verif.Check.PubKey

open Verif.CA (PyErr)

/-- The entries which are put in as texts (RFC 8410, RFC 8017 and RFC 5990), and the identifier of RSA. -/
def tableSpec : List (Ent × String) :=
  [(.oid [1, 2, 840, 113549, 1, 1, 1], "rsa"), (.text "1.3.101.110", "x25519"), (.text "1.3.101.111", "x448"),
   (.text "1.3.101.112", "ed25519"), (.text "1.3.101.113", "ed448"), (.text "1.2.840.113549.1.1.1", "rsa"),
   (.text "1.2.840.113549.1.9.16.3.14", "rsa-kem")]

theorem look_update (l d : Dict) (q : Ent) (h : ∀ x ∈ l, x.1 ≠ q) : look q (update d l) = look q d := by
  unfold update
  induction l generalizing d with
  | nil => rfl
  | cons x l ih =>
    rw [List.foldl_cons, ih _ (fun y hy => h y (List.mem_cons_of_mem _ hy)), look_insert,
      if_neg (h x (List.mem_cons_self ..))]

/-- **C259.** Each of these identifiers has its name in the table, whatever else is put in before, and after it under
other identifiers. -/
theorem C259_table (pre post : Dict) (e : Ent) (n : String) (h : (e, n) ∈ tableSpec) (hp : ∀ x ∈ post, x.1 ≠ e) :
    look e (allKnown pre post) = some (.text n) := by
  unfold allKnown
  rw [look_update post _ e hp]
  simp only [tableSpec, List.mem_cons, List.not_mem_nil, or_false, Prod.mk.injEq] at h
  unfold update tradStr
  simp only [List.foldl_cons, List.foldl_nil, look_insert]
  rcases h with ⟨rfl, rfl⟩ | ⟨rfl, rfl⟩ | ⟨rfl, rfl⟩ | ⟨rfl, rfl⟩ | ⟨rfl, rfl⟩ | ⟨rfl, rfl⟩ | ⟨rfl, rfl⟩ <;> simp

/-- Ed25519 has its name as a text only (C259). -/
example : look (.text "1.3.101.112") (allKnown [] []) = some (.text "ed25519") ∧
    look (.oid [1, 3, 101, 112]) (allKnown [] []) = none := by decide +kernel

end Verif.Check.PubKey
