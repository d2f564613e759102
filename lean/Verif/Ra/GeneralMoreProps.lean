import Verif.Ra.GeneralProps
import Verif.Ra.GeneralClientProps

/-!
# C174 and the client's side: the state of the KEM secrets and the names of the curves
-/

namespace Verif.Ra

/-- **C177** A secret that is put for a transaction is found for it, and the secrets of the other transactions are kept. -/
theorem C177_put (s : GenState) (tx ss tx' : List UInt8) :
    (putSecret s tx ss).secrets.lookup tx' = if tx' = tx then some ss else s.secrets.lookup tx' := by
  unfold putSecret
  dsimp only
  rw [List.lookup_cons]
  by_cases h : tx' = tx
  · subst h
    simp
  · rw [if_neg h]
    have hb : (tx' == tx) = false := by simpa using h
    rw [hb]
    dsimp only
    induction s.secrets with
    | nil => rfl
    | cons x l ih =>
      rw [List.filter_cons]
      by_cases hx : x.1 = tx
      · have hx' : (tx' == x.1) = false := by rw [hx]; exact hb
        rw [if_neg (by simp [hx]), ih, List.lookup_cons, hx']
      · rw [if_pos (by simpa using hx), List.lookup_cons, List.lookup_cons, ih]

/-- The identifiers of the curves (SEC 2, RFC 5639). -/
def curveSpec : List (List Nat × String) :=
  [([1, 2, 840, 10045, 3, 1, 1], "secp192r1"), ([1, 2, 840, 10045, 3, 1, 7], "secp256r1")] ++
  ([(33, "secp224r1"), (34, "secp384r1"), (35, "secp521r1"), (15, "sect163r2"), (27, "sect233r1"), (17, "sect283r1"),
    (37, "sect409r1"), (39, "sect571r1"), (1, "sect163k1"), (26, "sect233k1"), (16, "sect283k1"), (36, "sect409k1"),
    (38, "sect571k1"), (10, "secp256k1")].map fun x => ([1, 3, 132, 0, x.1], x.2)) ++
  ([(1, "brainpoolP160r1"), (3, "brainpoolP192r1"), (5, "brainpoolP224r1"), (7, "brainpoolP256r1"), (9, "brainpoolP320r1"),
    (11, "brainpoolP384r1"), (13, "brainpoolP512r1")].map fun x => ([1, 3, 36, 3, 3, 2, 8, 1, 1, x.1], x.2))

/-- **C182** The names of the curves are those of the standards, for each identifier. -/
theorem C182_curves (x : List Nat × String) : x ∈ curveNames ↔ x ∈ curveSpec := by
  have h1 : ∀ y ∈ curveNames, y ∈ curveSpec := by decide +kernel
  have h2 : ∀ y ∈ curveSpec, y ∈ curveNames := by decide +kernel
  exact ⟨h1 x, h2 x⟩

example : (putSecret (putSecret ⟨[], [], false⟩ [1] [7]) [2] [8]).secrets.lookup [1] = some [7] := by decide +kernel

end Verif.Ra
