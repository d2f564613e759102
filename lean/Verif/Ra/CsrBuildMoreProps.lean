import Verif.Ra.CsrBuildProps

/-!
# The public keys in requests: names for a KGA and RSA keys (C241)
-/

namespace Verif.Ra

open Verif.CA hiding Bytes Msg

variable {B K P : Type}

/-- **C241.** A name for a KGA gives the identifier of a key freshly made under this name, and no bits. The key that is given
is not used, and the only parameters are those of "ecc": the curve is always secp256r1. -/
theorem C241_kga_named (env : CsrEnv B K P) (n : String) (k : Option K) (pss : Bool) (g : K) (d : KSpki)
    (hg : env.generate n = .ok g) (hc : env.composite g = none) (hd : env.derSpki g = .ok d) :
    prepSpki env { key := k.map .inr, forKga := true, name := some n, pss := pss } =
      .ok ⟨⟨d.alg.oid, if n = "ecc" then some [6, 8, 42, 134, 72, 206, 61, 3, 1, 7] else none⟩, []⟩ := by
  have hs : spkiFromPub env g pss none = .ok d := by
    unfold spkiFromPub
    rw [hc]; dsimp only
    cases env.checkHash g <;> exact hd
  have hp : (namedAlg (some n)).params = if n = "ecc" then some [6, 8, 42, 134, 72, 206, 61, 3, 1, 7] else none := by
    unfold namedAlg
    split
    · rename_i h; cases h; rfl
    · rename_i h; cases h; rfl
    · rename_i h; cases h; rfl
    · rename_i h; cases h; rfl
    · rename_i h1 h2 h3 h4
      rw [if_neg (fun h => h3 (by rw [h]))]
  have key : ∀ k' : Option (P ⊕ K), otherSpki env { key := k.map .inr, forKga := true, name := some n, pss := pss } k' =
      .ok ⟨⟨d.alg.oid, if n = "ecc" then some [6, 8, 42, 134, 72, 206, 61, 3, 1, 7] else none⟩, []⟩ := by
    intro k'
    unfold otherSpki
    rw [if_pos rfl]
    unfold spkiForKga kgaAlg
    dsimp only
    rw [hg]; dsimp only
    rw [hs]; dsimp only
    unfold extraParams
    dsimp only
    rw [if_neg (by simp), if_neg (by simp), hp]
  unfold prepSpki
  rw [if_neg (by simp), if_neg (by simp)]
  cases k <;> exact key _

/-- **C241.** An RSA key is written with RSA-PSS exactly if this is asked for: then with the parameters for the hash given, or
SHA-256, and otherwise as the library writes it. -/
theorem C241_rsa (env : CsrEnv B K P) (k : K) (hash : Option String) (hr : env.isRsa k = true)
    (hc : env.composite k = none) (hq : env.checkHash k = none) :
    prepSpki env { key := some (.inr k), pss := true, hash := hash } =
      (match env.pssAlg (hash.getD "sha256") with
       | .ok g => .ok ⟨g, env.pkcs1 k⟩
       | .error e => .error e) ∧
    prepSpki env { key := some (.inr k), pss := false, hash := hash } = env.derSpki k := by
  constructor
  · unfold prepSpki
    rw [if_neg (by simp), if_neg (by simp)]
    dsimp only
    unfold otherSpki plainSpki pubOf
    dsimp only
    rw [if_neg (by simp), if_neg (c := (none : Option String) = some "rsa-kem" ∨ (none : Option String) = some "rsa_kem")
      (by simp), if_pos ⟨hr, rfl⟩]
    cases env.pssAlg (hash.getD "sha256") <;> rfl
  · unfold prepSpki
    rw [if_neg (by simp), if_neg (by simp)]
    dsimp only
    unfold otherSpki plainSpki pubOf
    dsimp only
    rw [if_neg (by simp), if_neg (c := (none : Option String) = some "rsa-kem" ∨ (none : Option String) = some "rsa_kem")
      (by simp), if_neg (by simp)]
    unfold spkiFromPub
    rw [hc]; dsimp only
    rw [hq]; dsimp only
    cases env.derSpki k <;> rfl

example : (prepSpki exCsr { key := some (.inr 5), forKga := true, name := some "ecc" }).toOption =
    some ⟨⟨[1, 0], some [6, 8, 42, 134, 72, 206, 61, 3, 1, 7]⟩, []⟩ := by decide +kernel

example : (prepSpki exCsr { key := some (.inr 3), pss := true }).toOption = some ⟨⟨[9], none⟩, [3]⟩ ∧
    (prepSpki exCsr { key := some (.inr 3) }).toOption = some ⟨⟨[1, 3], some [7]⟩, [3]⟩ := by decide +kernel

end Verif.Ra
